import Verif.Proofs.Indicator
import Verif.Proofs.EA

/-!
# C45 (environmental selection), C46 (tournaments), C47 (interaction) of the indicator EAs, and what C10–C12 say
for them
-/

namespace Verif.Props

open Verif.Spec
open _root_.Spec (Rec Represents EvalOK newRecs Gens)

variable {X O F C U P Q R : Type}

/-! ## C45 -/

/-- C45. Environmental selection of an indicator EA, for any population (records `rs`): as long as there are more than
`pop_size` individuals, the one removed is the first with the smallest fitness *computed from scratch on the
individuals still there*; it ends with exactly `pop_size` individuals, or at once with all of them if there are not
more; and the stored fitness values are then those computed from scratch on what is left. -/
theorem c45_environmental_selection (io : IndOps X O F C U P R) (popSize : Nat) (hp : 0 < popSize)
    (s : EA X O F C U P (List ℝ) Q) (rs : List (Rec X O F C U)) (h : Represents s.pop rs) (hne : s.pop.individuals ≠ none) :
    ∃ rs', (indReduce io popSize s).1 = .ok () ∧ Represents (indReduce io popSize s).2.pop rs' ∧
      RemovesWorst (io.term s.vec (rs.map Rec.o)) Rec.f (rs.length - popSize) rs rs' ∧
      rs'.length = min rs.length popSize ∧
      (indReduce io popSize s).2.sel = allFitness (io.term s.vec (rs.map Rec.o)) (rs'.map Rec.f) := by
  have hl : s.pop.fitness.length = rs.length := by rw [h.fits, List.length_map]
  obtain ⟨p', rs', g1, g2, g3, g4, g5, -⟩ := envLoop_spec (io.term s.vec s.pop.objectives) popSize hp
    (s.pop.fitness.length + 1) s.pop rs h hne (by omega)
  unfold indReduce
  dsimp only
  rw [fitnessAssign_eq, g1]
  rw [← h.objs]
  refine ⟨rs', rfl, g2, g4, g5, ?_⟩
  show allFitness _ p'.fitness = _
  rw [g2.fits]

/-- C45 for IBEA with its formula: the fitness of `a` among the others is minus the sum of `exp(-I(a, b) / kappa)`. -/
theorem c45_ibea_fitness_formula (indicator : F → F → ℝ) (kappa : ℝ) (fits : List F) (i : Nat) (a : F)
    (h : fits[i]? = some a) :
    (fitnessAssign (ibeaTerm indicator kappa) fits)[i]? =
      some (-((fits.eraseIdx i).map (fun b => Real.exp (-(indicator a b) / kappa))).sum) := by
  rw [fitnessAssign_eq]
  simp only [allFitness, List.getElem?_mapIdx, h, Option.map_some, indFitness]
  rfl

/-- C45. A complete generation: the reduced population followed by the records of the offspring, so the population
never has more than `pop_size` individuals plus one batch of offspring. -/
theorem c45_generation (io : IndOps X O F C U P R) (popSize : Nat) (hp : 0 < popSize)
    (s t : EA X O F C U P (List ℝ) Q)
    (hev : ∀ clk b r, io.evaluate clk false b = .ok r → EvalOK s.pop.nCons b.rows.length r) (rs : List (Rec X O F C U)) (h : Represents s.pop rs)
    (hne : s.pop.individuals ≠ none)
    (hnd : ∀ clk p ids b, io.mate clk p ids = .ok b → b.ndim = s.pop.ndim) (ht : indNextGen io popSize s = (.ok (), t)) :
    ∃ (rs' : List (Rec X O F C U)) (off : Batch X) (r : Results O F C U) (clk : Nat) (p : Pop X O F C U)
      (parents : List Nat),
      Represents p rs' ∧ RemovesWorst (io.term s.vec (rs.map Rec.o)) Rec.f (rs.length - popSize) rs rs' ∧
      rs'.length = min rs.length popSize ∧ parents.length = rs'.length ∧ io.mate clk p parents = .ok off ∧
      io.evaluate (clk + 1) false off = .ok r ∧ Represents t.pop (rs' ++ newRecs off.rows r) ∧
      t.fe = s.fe + off.rows.length := by
  have hl : s.pop.fitness.length = rs.length := by rw [h.fits, List.length_map]
  obtain ⟨p', rs', g1, g2, g3, g4, g5, g6, g7⟩ := envLoop_spec (io.term s.vec s.pop.objectives) popSize hp
    (s.pop.fitness.length + 1) s.pop rs h hne (by omega)
  unfold indNextGen indReduce at ht
  dsimp only at ht
  rw [fitnessAssign_eq, g1] at ht
  dsimp only [indVary] at ht
  split at ht
  · simp at ht
  · rename_i chosen hc
    split at ht
    · simp at ht
    · rename_i off hoff
      have hplen : chosen.length = rs'.length := by
        unfold tournament at hc
        have key : ∀ (is : List Nat) (as : List Nat),
            tourParents 2 (allFitness (io.term s.vec s.pop.objectives) p'.fitness) (io.draw s.clock) is = .ok as →
            as.length = is.length := by
          intro is
          induction is with
          | nil => intro as h; simp [tourParents] at h; subst h; rfl
          | cons i is ih =>
            intro as h
            unfold tourParents at h
            split at h
            · split at h
              · simp at h
              · rename_i as' has
                injection h with h
                subst h
                simp [ih as' has]
            · simp at h
            · simp at h
        rw [key _ _ hc]
        simp [allFitness, g2.fits]
      cases hr : io.evaluate (s.clock + 1 + 1) false off with
      | error e =>
        rw [hr] at ht
        simp [Pop.add] at ht
      | ok r =>
        rw [hr] at ht
        have hadd := add_spec (d := s.pop.ndim) g2 off r (by rw [g6]; exact hev _ _ _ hr) (fun _ => g7) (.inl (hnd _ _ _ _ hoff))
        split at ht
        · simp at ht
        · rename_i q hq
          simp only [Prod.mk.injEq, true_and] at ht
          subst ht
          rw [← h.objs]
          refine ⟨rs', off, r, s.clock + 1, p', chosen, g2, g4, g5, hplen, hoff, hr, ?_, rfl⟩
          have := hadd.1
          rw [hq] at this
          exact this

/-- Non-vacuity: three individuals with fitness 0, 1, 3 and loss `b - a` (larger loss the further the other is ahead):
the one with fitness 0 is worst, and after its removal the one with fitness 1. -/
example : IsWorst (fun a b : ℝ => b - a) [0, 1, 3] 0 ∧
    RemovesWorst (fun a b : ℝ => b - a) (fun x : ℝ => x) 2 [0, 1, 3] [3] := by
  have h0 : IsWorst (fun a b : ℝ => b - a) [0, 1, 3] 0 := by
    refine ⟨-4, by simp [allFitness, indFitness]; norm_num, ?_, ?_⟩
    · intro j x hx
      match j, hx with
      | 0, hx => simp [allFitness, indFitness] at hx; subst hx; norm_num
      | 1, hx => simp [allFitness, indFitness] at hx; subst hx; norm_num
      | 2, hx => simp [allFitness, indFitness] at hx; subst hx; norm_num
      | j + 3, hx => simp [allFitness] at hx
    · intro j x hj; omega
  have h1 : IsWorst (fun a b : ℝ => b - a) [1, 3] 0 := by
    refine ⟨-2, by simp [allFitness, indFitness]; norm_num, ?_, ?_⟩
    · intro j x hx
      match j, hx with
      | 0, hx => simp [allFitness, indFitness] at hx; subst hx; norm_num
      | 1, hx => simp [allFitness, indFitness] at hx; subst hx; norm_num
      | j + 2, hx => simp [allFitness] at hx
    · intro j x hj; omega
  refine ⟨h0, .succ (w := 0) (by simp) (by simpa using h0) (.succ (w := 0) (by simp) (by simpa using h1) (.zero _))⟩

/-! ## C46 -/

/-- What `np.random.choice(n - 1, size, replace=False)` can return. -/
def LegalDraw (n size : Nat) (d : List Nat) : Prop := d.length = size ∧ d.Nodup ∧ ∀ x ∈ d, x < n - 1

theorem tourSelect_spec (size : Nat) (hs : 0 < size) (fitness : List ℝ) (hn : size < fitness.length) (d : List Nat)
    (hd : LegalDraw fitness.length size d) :
    ∃ a v, tourSelect size fitness d = .ok a ∧ a ∈ d ∧ fitness[a]? = some v ∧
      ∀ b ∈ d, ∃ w, fitness[b]? = some w ∧ v ≤ w := by
  obtain ⟨h1, h2, h3⟩ := hd
  obtain ⟨vals, hv⟩ := takeRows_total fitness d (fun k hk => by have := h3 k hk; omega)
  obtain ⟨g1, g2, g3⟩ := takeRows_spec fitness d vals hv
  unfold tourSelect
  rw [if_neg (by omega), hv]
  dsimp only
  have hmem : ∀ b ∈ d, ∃ w, fitness[b]? = some w ∧ (b, w) ∈ d.zip vals := by
    intro b hb
    obtain ⟨j, hj⟩ := List.mem_iff_getElem?.1 hb
    have hb' := g3 j b hj
    have hlt := g2 b hb
    refine ⟨fitness[b], List.getElem?_eq_getElem hlt, ?_⟩
    apply List.mem_of_getElem? (i := j)
    rw [List.getElem?_zip_eq_some]
    exact ⟨hj, hb'.trans (List.getElem?_eq_getElem hlt)⟩
  have hpair : ∀ q ∈ d.zip vals, q.1 ∈ d ∧ fitness[q.1]? = some q.2 := by
    intro q hq
    obtain ⟨j, hj⟩ := List.mem_iff_getElem?.1 hq
    obtain ⟨q1, q2⟩ := List.getElem?_zip_eq_some.1 hj
    exact ⟨List.mem_of_getElem? q1, (g3 j q.1 q1).symm.trans q2⟩
  have hpw := List.pairwise_mergeSort (le := fun a b : Nat × ℝ => decide (a.2 ≤ b.2))
    (by intro a b c; simp only [decide_eq_true_eq]; exact le_trans)
    (by intro a b; simp only [Bool.or_eq_true, decide_eq_true_eq]; exact le_total _ _) (d.zip vals)
  have hm : ∀ q, q ∈ (d.zip vals).mergeSort (fun a b : Nat × ℝ => decide (a.2 ≤ b.2)) ↔ q ∈ d.zip vals :=
    fun q => List.mem_mergeSort
  have hlen : ((d.zip vals).mergeSort (fun a b : Nat × ℝ => decide (a.2 ≤ b.2))).length = size := by
    rw [List.length_mergeSort, List.length_zip]
    omega
  generalize (d.zip vals).mergeSort (fun a b : Nat × ℝ => decide (a.2 ≤ b.2)) = L at hpw hm hlen
  cases L with
  | nil => simp at hlen; omega
  | cons c cs =>
    have hc := (hm c).1 List.mem_cons_self
    obtain ⟨c1, c2⟩ := hpair c hc
    refine ⟨c.1, c.2, rfl, c1, c2, ?_⟩
    intro b hb
    obtain ⟨w, hw, hbw⟩ := hmem b hb
    refine ⟨w, hw, ?_⟩
    rcases List.mem_cons.1 ((hm _).2 hbw) with h | h
    · rw [← h]
    · have := (List.pairwise_cons.1 hpw).1 _ h
      simpa using this

/-- C46. With at least `size + 1` individuals the operator returns one parent per individual; parent `i` is one of the
aspirants drawn for it and none of these has a smaller fitness; it is never the last individual. -/
theorem c46_tournament (size : Nat) (hs : 0 < size) (fitness : List ℝ) (hn : size < fitness.length)
    (draw : Nat → List Nat) (hd : ∀ k, LegalDraw fitness.length size (draw k)) :
    ∃ parents, tournament size fitness draw = .ok parents ∧ parents.length = fitness.length ∧
      ∀ (i a : Nat), parents[i]? = some a → a ∈ draw (2 * i) ∧ a + 1 < fitness.length ∧
        ∃ v, fitness[a]? = some v ∧ ∀ b ∈ draw (2 * i), ∃ w, fitness[b]? = some w ∧ v ≤ w := by
  have key : ∀ is : List Nat, ∃ as, tourParents size fitness draw is = .ok as ∧ as.length = is.length ∧
      ∀ (j i a : Nat), is[j]? = some i → as[j]? = some a → a ∈ draw (2 * i) ∧
        ∃ v, fitness[a]? = some v ∧ ∀ b ∈ draw (2 * i), ∃ w, fitness[b]? = some w ∧ v ≤ w := by
    intro is
    induction is with
    | nil => exact ⟨[], rfl, rfl, by simp⟩
    | cons i is ih =>
      obtain ⟨as, h1, h2, h3⟩ := ih
      obtain ⟨a, v, a1, a2, a3, a4⟩ := tourSelect_spec size hs fitness hn _ (hd (2 * i))
      obtain ⟨b, w, b1, -⟩ := tourSelect_spec size hs fitness hn _ (hd (2 * i + 1))
      refine ⟨a :: as, by unfold tourParents; simp only [a1, b1, h1], by simp [h2], ?_⟩
      intro j i' a' hj ha
      cases j with
      | zero =>
        simp only [List.getElem?_cons_zero, Option.some.injEq] at hj ha
        subst hj ha
        exact ⟨a2, v, a3, a4⟩
      | succ j =>
        simp only [List.getElem?_cons_succ] at hj ha
        exact h3 j i' a' hj ha
  obtain ⟨as, h1, h2, h3⟩ := key (List.range fitness.length)
  rw [List.length_range] at h2
  refine ⟨as, h1, h2, ?_⟩
  intro i a ha
  have hi : i < fitness.length := by
    rw [← h2]
    exact (List.getElem?_eq_some_iff.1 ha).1
  obtain ⟨g1, g2⟩ := h3 i i a (by simp [hi]) ha
  refine ⟨g1, ?_, g2⟩
  have := (hd (2 * i)).2.2 a g1
  omega

/-- C46. With too few individuals it raises ValueError. -/
theorem c46_too_few_raises (size : Nat) (fitness : List ℝ) (h0 : fitness ≠ []) (hn : fitness.length ≤ size)
    (draw : Nat → List Nat) : tournament size fitness draw = .error .valueError := by
  unfold tournament
  obtain ⟨k, hk⟩ : ∃ k, fitness.length = k + 1 := ⟨fitness.length - 1, by
    have := List.length_pos_iff.2 h0; omega⟩
  rw [hk, List.range_succ_eq_map]
  unfold tourParents
  have : ∀ d, tourSelect size fitness d = .error .valueError := by
    intro d
    unfold tourSelect
    rw [if_pos (by omega)]
  simp only [this]

/-- C46, against the operator's intention: of two aspirants the *worse* one becomes the parent.  (Environmental
selection, C45, removes the smallest fitness first; the tournament prefers the smallest.) -/
theorem c46_worse_of_two_wins (fitness : List ℝ) (hn : 2 < fitness.length) (draw : Nat → List Nat)
    (hd : ∀ k, LegalDraw fitness.length 2 (draw k)) (i a b : Nat) (hi : i < fitness.length)
    (hdr : ∀ x, x ∈ draw (2 * i) ↔ x = a ∨ x = b) (va vb : ℝ)
    (ha : fitness[a]? = some va) (hb : fitness[b]? = some vb) (hab : va < vb) :
    ∃ parents, tournament 2 fitness draw = .ok parents ∧ parents[i]? = some a := by
  obtain ⟨ps, h1, h2, h3⟩ := c46_tournament 2 (by omega) fitness hn draw hd
  refine ⟨ps, h1, ?_⟩
  have hlt : i < ps.length := by omega
  obtain ⟨g1, -, v, g2, g3⟩ := h3 i ps[i] (List.getElem?_eq_getElem hlt)
  rw [List.getElem?_eq_getElem hlt]
  rcases (hdr _).1 g1 with h | h
  · rw [h]
  · exfalso
    rw [h, hb] at g2
    injection g2 with g2
    obtain ⟨w, hw, hle⟩ := g3 a ((hdr a).2 (.inl rfl))
    rw [ha] at hw
    injection hw with hw
    linarith

/-- Non-vacuity: a legal draw for four individuals and two aspirants. -/
example : LegalDraw ([-1, -2, -3, -4] : List ℝ).length 2 [2, 0] ∧ (2 : Nat) < ([-1, -2, -3, -4] : List ℝ).length := by
  refine ⟨⟨rfl, by decide, by simp⟩, by simp⟩

/-- C45, C46. Progress: with at least three individuals kept, legal draws, and variation and evaluation that do not
raise, a generation does not raise. -/
theorem c45_generation_succeeds (io : IndOps X O F C U P R) (popSize : Nat) (hp : 3 ≤ popSize)
    (s : EA X O F C U P (List ℝ) Q) (rs : List (Rec X O F C U)) (h : Represents s.pop rs) (hn : 3 ≤ rs.length)
    (hd : ∀ clk k, LegalDraw (min rs.length popSize) 2 (io.draw clk k))
    (hm : ∀ clk p ids, ∃ b, io.mate clk p ids = .ok b ∧ b.ndim = s.pop.ndim)
    (hev : ∀ clk b, ∃ r, io.evaluate clk false b = .ok r ∧ r.uncertainity = none ∧ EvalOK s.pop.nCons b.rows.length r) :
    ∃ t, indNextGen io popSize s = (.ok (), t) := by
  have hne : s.pop.individuals ≠ none := by
    intro e
    rcases h.inds with h1 | ⟨-, h1⟩
    · rw [e] at h1; simp at h1
    · rw [h1] at hn; simp at hn
  have hl : s.pop.fitness.length = rs.length := by rw [h.fits, List.length_map]
  obtain ⟨p', rs', g1, g2, g3, g4, g5, g6, g7⟩ := envLoop_spec (io.term s.vec s.pop.objectives) popSize (by omega)
    (s.pop.fitness.length + 1) s.pop rs h hne (by omega)
  unfold indNextGen indReduce
  dsimp only
  rw [fitnessAssign_eq, g1]
  dsimp only [indVary]
  have hfl : (allFitness (io.term s.vec s.pop.objectives) p'.fitness).length = min rs.length popSize := by
    simp [allFitness, g2.fits, g5]
  obtain ⟨ps, hps, -⟩ := c46_tournament 2 (by omega) (allFitness (io.term s.vec s.pop.objectives) p'.fitness)
    (by rw [hfl]; omega) (io.draw s.clock) (fun k => by rw [hfl]; exact hd _ k)
  rw [hps]
  obtain ⟨off, ho, hnd⟩ := hm (s.clock + 1) p' ps
  dsimp only
  rw [ho]
  dsimp only
  obtain ⟨r, hr, hu, hok⟩ := hev (s.clock + 1 + 1) off
  rw [hr]
  have hadd := add_spec (d := s.pop.ndim) g2 off r (by rw [g6]; exact hok) (fun _ => g7) (.inl hnd)
  have h1 := (hadd.2.2.2.2 (.inr (.inl hu))).1
  generalize p'.add off (.ok r) = a at h1
  obtain ⟨a1, a2⟩ := a
  dsimp only at h1
  subst h1
  exact ⟨_, rfl⟩

/-! ## C47 -/

/-- C47. A missing preference, an object of another class or one answering another request raises eaError out of
`iterate`, and the object is exactly as before. -/
theorem c47_bad_preference_changes_nothing (io : IndOps X O F C U P R)
    (body : EA X O F C U P (List ℝ) Q → EARes Unit X O F C U P (List ℝ) Q) (s : EA X O F C U P (List ℝ) Q)
    (hi : s.cfg.interact = true) :
    indIterateWith io body s none = (.error .eaError, s) ∧
    (∀ p : Pref R, p.cls ≠ .referencePoint → indIterateWith io body s (some p) = (.error .eaError, s)) ∧
    (∀ (p : Pref R) (id : Int), s.reqId = some id → p.id ≠ id →
      indIterateWith io body s (some p) = (.error .eaError, s)) := by
  refine ⟨?_, ?_, ?_⟩
  · simp [indIterateWith, indManage, hi]
  · intro p hc
    simp [indIterateWith, indManage, hi, hc]
  · intro p id hr hne
    unfold indIterateWith indManage
    by_cases hc : p.cls = .referencePoint
    · simp [hi, hr, hne, hc]
    · simp [hi, hc]

/-- What a generation of an indicator EA leaves alone. -/
def Frame (s t : EA X O F C U P (List ℝ) Q) : Prop :=
  t.cfg = s.cfg ∧ t.iter = s.iter ∧ t.reqId = s.reqId ∧ t.vec = s.vec ∧ t.typeSet = s.typeSet

theorem indNextGen_frame (io : IndOps X O F C U P R) (popSize : Nat) (s : EA X O F C U P (List ℝ) Q) :
    Frame s (indNextGen io popSize s).2 := by
  unfold indNextGen indReduce
  dsimp only
  generalize envLoop (io.term s.vec s.pop.objectives) popSize (s.pop.fitness.length + 1) s.pop
    (fitnessAssign (io.term s.vec s.pop.objectives) s.pop.fitness) = r
  obtain ⟨r1, p, vals⟩ := r
  cases r1 with
  | error e => exact ⟨rfl, rfl, rfl, rfl, rfl⟩
  | ok _ =>
    dsimp only [indVary]
    split
    · exact ⟨rfl, rfl, rfl, rfl, rfl⟩
    · split
      · exact ⟨rfl, rfl, rfl, rfl, rfl⟩
      · split <;> exact ⟨rfl, rfl, rfl, rfl, rfl⟩

theorem indNextGen_ok (io : IndOps X O F C U P R) (popSize : Nat) (s t : EA X O F C U P (List ℝ) Q)
    (h : indNextGen io popSize s = (.ok (), t)) :
    t.gen = s.gen + 1 ∧ t.genIter = s.genIter + 1 ∧ ∃ k, t.fe = s.fe + k ∧ t.trueEvals = s.trueEvals + k := by
  unfold indNextGen indReduce at h
  dsimp only at h
  generalize envLoop (io.term s.vec s.pop.objectives) popSize (s.pop.fitness.length + 1) s.pop
    (fitnessAssign (io.term s.vec s.pop.objectives) s.pop.fitness) = r at h
  obtain ⟨r1, p, vals⟩ := r
  cases r1 with
  | error e => simp at h
  | ok _ =>
    dsimp only [indVary] at h
    split at h
    · simp at h
    · split at h
      · simp at h
      · rename_i off hoff
        split at h
        · simp at h
        · simp only [Prod.mk.injEq, true_and] at h
          subst h
          exact ⟨rfl, rfl, off.rows.length, rfl, rfl⟩

theorem Frame.trans {s t u : EA X O F C U P (List ℝ) Q} (h1 : Frame s t) (h2 : Frame t u) : Frame s u :=
  ⟨h2.1.trans h1.1, h2.2.1.trans h1.2.1, h2.2.2.1.trans h1.2.2.1, h2.2.2.2.1.trans h1.2.2.2.1,
    h2.2.2.2.2.trans h1.2.2.2.2⟩

theorem loop_frame {body : EA X O F C U P (List ℝ) Q → EARes Unit X O F C U P (List ℝ) Q}
    (hb : ∀ s, Frame s (body s).2) (fuel : Nat) : ∀ s : EA X O F C U P (List ℝ) Q, Frame s (EA.loop body fuel s).2 := by
  induction fuel with
  | zero => exact fun s => ⟨rfl, rfl, rfl, rfl, rfl⟩
  | succ fuel ih =>
    intro s
    unfold EA.loop
    split
    · have h1 := hb s
      generalize body s = r at h1
      obtain ⟨r, t⟩ := r
      cases r with
      | error e => exact h1
      | ok _ => exact h1.trans (ih t)
    · exact ⟨rfl, rfl, rfl, rfl, rfl⟩

/-- C47. A successful interactive `iterate` doubles the iteration limit and the evaluation budget, takes over the
reference point, counts one iteration, and returns a request whose id the next preference must carry. -/
theorem c47_accepted_preference_doubles (io : IndOps X O F C U P R) (popSize : Nat) (s t : EA X O F C U P (List ℝ) Q)
    (hi : s.cfg.interact = true) (pref : Option (Pref R)) (r : Option Request)
    (h : indIterate io popSize s pref = (.ok r, t)) :
    ∃ p q, pref = some p ∧ p.cls = .referencePoint ∧ s.reqId = some p.id ∧ t.vec = io.toRef p.response ∧
      t.cfg = { s.cfg with nIter := 2 * s.cfg.nIter, total := 2 * s.cfg.total } ∧ t.iter = s.iter + 1 ∧
      r = some q ∧ t.reqId = some q.id ∧ q.cls = .referencePoint := by
  unfold indIterate indIterateWith at h
  cases pref with
  | none => simp [indManage, hi] at h
  | some p =>
    unfold indManage at h
    simp only [hi, Bool.true_eq_false, if_false] at h
    by_cases hc : p.cls = .referencePoint
    · simp only [hc, ne_eq, not_true_eq_false, if_false] at h
      cases hr : s.reqId with
      | none => simp [hr] at h
      | some id =>
        simp only [hr] at h
        by_cases hid : p.id = id
        · simp only [hid, not_true_eq_false, if_false] at h
          split at h
          · simp at h
          · rename_i u hl
            have hf : ∀ (n : Nat) (a b : EA X O F C U P (List ℝ) Q),
                EA.loop (indNextGen io popSize) n a = (.ok (), b) → Frame a b := by
              intro n a b hab
              have := loop_frame (indNextGen_frame io popSize) n a
              rw [hab] at this
              exact this
            have hf := hf _ _ _ hl
            obtain ⟨f1, f2, f3, f4, f5⟩ := hf
            dsimp only at f1 f2 f3 f4 f5
            have hui : u.cfg.interact = true := by rw [f1]
            simp only [indRequest, hui, Bool.true_eq_false, if_false, Prod.mk.injEq, Except.ok.injEq] at h
            obtain ⟨h1, h2⟩ := h
            subst h2
            refine ⟨p, _, rfl, hc, by rw [hid], f4, ?_, ?_, h1.symm, rfl, rfl⟩
            · show u.cfg = _
              rw [f1]
              simp only [Nat.two_mul, hi]
            · show u.iter + 1 = _
              rw [f2]
        · simp [hid] at h
    · simp [hc] at h

/-- A sequence of `iterate` calls, all of them accepted. -/
inductive Accepted (io : IndOps X O F C U P R) (popSize : Nat) :
    Nat → EA X O F C U P (List ℝ) Q → EA X O F C U P (List ℝ) Q → Prop
  | zero (s) : Accepted io popSize 0 s s
  | succ {k s t u} (p r) : indIterate io popSize s p = (.ok r, t) → Accepted io popSize k t u →
      Accepted io popSize (k + 1) s u

/-- C47. However many interactive iterations a user runs, the iteration limit stays ahead of the iteration counter: an
object with `n_iterations ≥ 1` that has done `k` iterations never reports that its iterations are used up, and
without an evaluation budget `continue_evolution()` is true forever. -/
theorem c47_iterations_never_used_up (io : IndOps X O F C U P R) (popSize k : Nat) (s t : EA X O F C U P (List ℝ) Q)
    (hi : s.cfg.interact = true) (h0 : s.iter < s.cfg.nIter) (h : Accepted io popSize k s t) :
    t.iter = s.iter + k ∧ t.cfg.nIter = 2 ^ k * s.cfg.nIter ∧ t.cfg.total = 2 ^ k * s.cfg.total ∧
      t.iter < t.cfg.nIter ∧ (s.cfg.total = 0 → t.continueEvolution = true) := by
  have key : t.cfg.interact = true ∧ t.iter = s.iter + k ∧ t.cfg.nIter = 2 ^ k * s.cfg.nIter ∧
      t.cfg.total = 2 ^ k * s.cfg.total ∧ t.iter < t.cfg.nIter := by
    induction h with
    | zero => simp [hi, h0]
    | @succ k s t u p r hs _ ih =>
      obtain ⟨-, -, -, -, -, -, hc, hit, -⟩ := c47_accepted_preference_doubles io popSize s t hi p r hs
      have hi' : t.cfg.interact = true := by rw [hc]; exact hi
      have e1 : t.cfg.nIter = 2 * s.cfg.nIter := by rw [hc]
      have e2 : t.cfg.total = 2 * s.cfg.total := by rw [hc]
      obtain ⟨i0, i1, i2, i3, i4⟩ := ih hi' (by omega)
      refine ⟨i0, by omega, ?_, ?_, i4⟩
      · rw [i2, e1, Nat.pow_succ, Nat.mul_assoc]
      · rw [i3, e2, Nat.pow_succ, Nat.mul_assoc]
  obtain ⟨-, k1, k2, k3, k4⟩ := key
  refine ⟨k1, k2, k3, k4, ?_⟩
  intro ht
  simp [EA.continueEvolution, EA.checkFE, k4, k3, ht]

/-- C47, a finding: `start()` of an interactive indicator EA raises eaError whatever is done before:
`set_interaction_type` and reading `allowable_interaction_types` have no effect on such an object, so the first request
can only be had by calling `requests()` directly. -/
theorem c47_start_always_raises (io : IndOps X O F C U P R) (design : Nat → Nat → Except Err (Batch X)) (ref0 : P)
    (prob0 : Q) (useSurr : Bool) (nIter nGen total nCons populationSize : Nat) (initPop : Option (Pop X O F C U))
    (s : EA X O F C U P (List ℝ) Q)
    (hs : indConstruct io design ref0 prob0 true useSurr nIter nGen total nCons populationSize initPop = .ok s)
    (args : List (Option String)) :
    indStart io (args.foldl (fun s a => ((s.setInteractionType a).2.readAllowable).2) s) =
      (.error .eaError, args.foldl (fun s a => ((s.setInteractionType a).2.readAllowable).2) s) := by
  have h0 : s.cfg.interact = true ∧ s.cfg.location = none ∧ s.typeSet = false := by
    unfold indConstruct at hs
    dsimp only at hs
    split at hs
    · injection hs with hs; subst hs; exact ⟨rfl, rfl, rfl⟩
    · split at hs
      · simp at hs
      · split at hs
        · simp at hs
        · injection hs with hs; subst hs; exact ⟨rfl, rfl, rfl⟩
  have key : ∀ (args : List (Option String)) (s : EA X O F C U P (List ℝ) Q),
      s.cfg.interact = true ∧ s.cfg.location = none ∧ s.typeSet = false →
      (fun s : EA X O F C U P (List ℝ) Q => s.cfg.interact = true ∧ s.cfg.location = none ∧ s.typeSet = false)
        (args.foldl (fun s a => ((s.setInteractionType a).2.readAllowable).2) s) := by
    intro args
    induction args with
    | nil => exact fun s h => h
    | cons a args ih =>
      intro s h
      apply ih
      obtain ⟨h1, h2, h3⟩ := h
      have e : (s.setInteractionType a).2 = s := by
        unfold EA.setInteractionType
        rw [h2]
      dsimp only
      rw [e]
      unfold EA.readAllowable
      split
      · exact ⟨h1, h2, h3⟩
      · have e2 : s.setInteractionType none = (.ok (), s) := by
          unfold EA.setInteractionType
          rw [h2]
        rw [e2]
        exact ⟨h1, h2, h3⟩
  obtain ⟨h1, h2, h3⟩ := key args s h0
  unfold indStart
  rw [h1, h3]
  rfl

/-! ## C10, C11, C12 for the indicator EAs -/

theorem indGens (io : IndOps X O F C U P R) (popSize : Nat) {cond : EA X O F C U P (List ℝ) Q → Prop} {k : Nat}
    {s t : EA X O F C U P (List ℝ) Q} (h : Gens (indNextGen io popSize) cond k s t) :
    t.cfg = s.cfg ∧ t.iter = s.iter ∧ t.gen = s.gen + k ∧ t.genIter = s.genIter + k ∧
      t.fe + s.trueEvals = t.trueEvals + s.fe ∧ s.fe ≤ t.fe := by
  induction h with
  | zero => simp; omega
  | @succ k s t u hc hbs hg ih =>
    obtain ⟨i1, i2, i3, i4, i5, i6⟩ := ih
    have hf := indNextGen_frame io popSize s
    rw [hbs] at hf
    obtain ⟨g1, g2, j, g3, g4⟩ := indNextGen_ok io popSize s t hbs
    obtain ⟨f1, f2, -⟩ := hf
    refine ⟨i1.trans f1, i2.trans f2, ?_, ?_, ?_, ?_⟩ <;> omega

/-- C10, C11, C12 for IBEA and PBEA without interaction: a successful `iterate` consists of complete generations, each
started while generations and evaluations were left, and it stops only when one of the two is used up; the counters
count generations, iterations and evaluations of the real problem exactly (even with `use_surrogates=True`, which only
the initial evaluation obeys). -/
theorem c10_indicator_iterate (io : IndOps X O F C U P R) (popSize : Nat) (s t : EA X O F C U P (List ℝ) Q)
    (hi : s.cfg.interact = false) (pref : Option (Pref R)) (r : Option Request)
    (h : indIterate io popSize s pref = (.ok r, t)) :
    ∃ k u, Gens (indNextGen io popSize)
        (fun a => a.genIter < s.cfg.nGen ∧ (s.cfg.total = 0 ∨ a.fe ≤ s.cfg.total)) k { s with genIter := 0 } u ∧
      t.pop = u.pop ∧ t.gen = s.gen + k ∧ t.iter = s.iter + 1 ∧ t.cfg = s.cfg ∧
      (k = s.cfg.nGen ∨ (k < s.cfg.nGen ∧ s.cfg.total ≠ 0 ∧ s.cfg.total < t.fe)) ∧
      t.fe + s.trueEvals = t.trueEvals + s.fe := by
  unfold indIterate indIterateWith at h
  have hm : indManage io s pref = (.ok (), s) := by simp [indManage, hi]
  rw [hm] at h
  dsimp only at h
  split at h
  · simp at h
  · rename_i u hl
    have hb : ∀ a b : EA X O F C U P (List ℝ) Q, indNextGen io popSize a = (.ok (), b) →
        b.cfg = a.cfg ∧ b.genIter = a.genIter + 1 := by
      intro a b hab
      have hf := indNextGen_frame io popSize a
      rw [hab] at hf
      exact ⟨hf.1, (indNextGen_ok io popSize a b hab).2.1⟩
    obtain ⟨k, hk, hc⟩ := loop_gens_of hb _ _ _ (by simp) hl
    obtain ⟨g1, g2, g3, g4, g5, g6⟩ := indGens io popSize hk
    dsimp only at g1 g2 g3 g4 g5 g6
    have hui : u.cfg.interact = false := by rw [g1]; exact hi
    simp only [indRequest, hui, if_true, Prod.mk.injEq, Except.ok.injEq] at h
    obtain ⟨-, h2⟩ := h
    subst h2
    have key : ∀ {k : Nat} {a b : EA X O F C U P (List ℝ) Q},
        Gens (indNextGen io popSize) (fun s => s.continueIteration = true) k a b → a.cfg = s.cfg →
        Gens (indNextGen io popSize) (fun a => a.genIter < s.cfg.nGen ∧ (s.cfg.total = 0 ∨ a.fe ≤ s.cfg.total)) k a b ∧
          (a.genIter ≤ s.cfg.nGen → b.genIter ≤ s.cfg.nGen) := by
      intro k a b hg
      induction hg with
      | zero => exact fun _ => ⟨.zero _, fun h => h⟩
      | @succ k a c d hc hbs hg ih =>
        intro ha
        obtain ⟨b1, b2⟩ := hb a c hbs
        obtain ⟨j1, j2⟩ := ih (b1.trans ha)
        simp only [EA.continueIteration, EA.checkFE, ha, Bool.and_eq_true, decide_eq_true_eq] at hc
        refine ⟨.succ ⟨hc.1, ?_⟩ hbs j1, fun _ => j2 (by omega)⟩
        by_cases h0 : s.cfg.total = 0
        · exact .inl h0
        · right
          have := hc.2
          rw [if_neg h0] at this
          simpa using this
    obtain ⟨j1, j2⟩ := key hk rfl
    refine ⟨k, u, j1, rfl, g3, by show u.iter + 1 = _; rw [g2], g1, ?_, g5⟩
    have hle := j2 (by simp)
    simp only [EA.continueIteration, EA.checkFE, g1, Bool.and_eq_false_iff, decide_eq_false_iff_not] at hc
    rw [g4] at hc hle
    by_cases hkn : k = s.cfg.nGen
    · exact .inl hkn
    · right
      rcases hc with hc | hc
      · omega
      · refine ⟨by omega, ?_⟩
        split at hc
        · simp at hc
        · rename_i h0
          exact ⟨h0, by simpa using hc⟩

/-- C11 for IBEA and PBEA: with a budget, every generation of the iteration was started within it, and the iteration
ends early only because the budget is exceeded. -/
theorem c11_indicator_budget (io : IndOps X O F C U P R) (popSize : Nat) (s t : EA X O F C U P (List ℝ) Q)
    (hi : s.cfg.interact = false) (pref : Option (Pref R)) (r : Option Request) (hL : 0 < s.cfg.total)
    (h : indIterate io popSize s pref = (.ok r, t)) :
    ∃ k u, Gens (indNextGen io popSize) (fun a => a.fe ≤ s.cfg.total) k { s with genIter := 0 } u ∧ t.pop = u.pop ∧
      t.gen = s.gen + k ∧ (k < s.cfg.nGen → s.cfg.total < t.fe) := by
  obtain ⟨k, u, h1, h2, h3, -, -, h6, -⟩ := c10_indicator_iterate io popSize s t hi pref r h
  refine ⟨k, u, gens_mono (fun a ha => ?_) h1, h2, h3, ?_⟩
  · rcases ha.2 with h | h
    · omega
    · exact h
  · intro hk
    rcases h6 with h | h
    · omega
    · exact h.2.2

/-- C12 for IBEA and PBEA: after construction from a problem whose design has the requested number of rows, without
surrogates, and any number of successful iterations, the evaluation counter is the number of vectors evaluated. -/
theorem c12_indicator_counter (io : IndOps X O F C U P R) (popSize : Nat) (design : Nat → Nat → Except Err (Batch X))
    (hd : ∀ clk n b, design clk n = .ok b → b.rows.length = n) (ref0 : P) (prob0 : Q) (nIter nGen total nCons size : Nat)
    (s : EA X O F C U P (List ℝ) Q)
    (hs : indConstruct io design ref0 prob0 false false nIter nGen total nCons size none = .ok s) (k : Nat)
    (t : EA X O F C U P (List ℝ) Q) (h : Accepted io popSize k s t) : t.fe = t.trueEvals := by
  have h0 : s.cfg.interact = false ∧ s.fe = s.trueEvals := by
    unfold indConstruct at hs
    dsimp only at hs
    split at hs
    · simp at hs
    · rename_i off hoff
      split at hs
      · simp at hs
      · injection hs with hs
        subst hs
        refine ⟨rfl, ?_⟩
        show size = _
        rw [← hd _ _ _ hoff]
        rfl
  clear hs
  obtain ⟨h1, h2⟩ := h0
  induction h with
  | zero => exact h2
  | @succ k s t u p r hst _ ih =>
    obtain ⟨_, _, -, -, -, -, e1, -, e2⟩ := c10_indicator_iterate io popSize s t h1 p r hst
    exact ih (by rw [e1]; exact h1) (by omega)

theorem accepted_counter (io : IndOps X O F C U P R) (popSize : Nat) {s : EA X O F C U P (List ℝ) Q} {k : Nat}
    {t : EA X O F C U P (List ℝ) Q} (h1 : s.cfg.interact = false) (h2 : s.fe = s.trueEvals) (h : Accepted io popSize k s t) :
    t.fe = t.trueEvals := by
  induction h with
  | zero => exact h2
  | @succ k s t u p r hst _ ih =>
    obtain ⟨_, _, -, -, -, -, e1, -, e2⟩ := c10_indicator_iterate io popSize s t h1 p r hst
    exact ih (by rw [e1]; exact h1) (by omega)

/-- C12 for IBEA and PBEA given a population: the constructor takes it as it is and counts none of its members, so that after any
number of successful iterations the counter is the number of vectors the EA itself evaluated; the same for its own limits. -/
theorem c12_indicator_given_population (io : IndOps X O F C U P R) (popSize : Nat) (design : Nat → Nat → Except Err (Batch X))
    (ref0 : P) (prob0 : Q) (nIter nGen total nCons size : Nat) (useSurr : Bool) (p : Pop X O F C U) :
    ∃ s : EA X O F C U P (List ℝ) Q,
      indConstruct io design ref0 prob0 false useSurr nIter nGen total nCons size (some p) = .ok s ∧ s.pop = p ∧ s.fe = 0 ∧
      s.cfg.nIter = nIter ∧ s.cfg.nGen = nGen ∧ s.cfg.total = total ∧
      ∀ (k : Nat) (t : EA X O F C U P (List ℝ) Q), Accepted io popSize k s t → t.fe = t.trueEvals := by
  refine ⟨_, rfl, rfl, rfl, rfl, rfl, rfl, ?_⟩
  intro k t h
  exact accepted_counter io popSize rfl rfl h

/-! ## A concrete run -/

/-- A tiny interactive EA: decision vectors, objectives and fitness are numbers, offspring repeat the parents' ids. -/
noncomputable def demoInd : IndOps Nat ℝ ℝ Nat Nat Nat Nat where
  term := fun _ _ a b => Real.exp (-(b - a))
  draw := fun _ _ => [0, 1]
  mate := fun _ _ ids => .ok ⟨2, ids⟩
  evaluate := fun _ _ b => .ok ⟨b.rows.map (fun x => (x : ℝ)), b.rows.map (fun x => (x : ℝ)), none, none⟩
  newId := fun c => c
  toRef := id

/-- Non-vacuity: such an object can be constructed, asked for a request, and iterated with the matching preference
(with no generations per iteration), which doubles the limits; the hypotheses of the theorems above are met. -/
example : ∃ (s : EA Nat ℝ ℝ Nat Nat Nat (List ℝ) Unit) (q : Request),
    indConstruct demoInd (fun _ n => .ok ⟨2, List.range n⟩) 0 () true false 3 0 7 0 4 none = .ok s ∧
    s.cfg.interact = true ∧ s.iter < s.cfg.nIter ∧ s.pop.individuals = some [0, 1, 2, 3] ∧
    ∃ s1, indRequest demoInd s = (.ok (some q), s1) ∧
      ∃ t r, Accepted demoInd 4 1 s1 t ∧ indIterate demoInd 4 s1 (some ⟨q.id, .referencePoint, 5⟩) = (.ok r, t) ∧
        t.cfg.nIter = 6 ∧ t.cfg.total = 14 ∧ t.vec = 5 := by
  refine ⟨_, _, rfl, rfl, by decide, rfl, _, rfl, _, _,
    .succ (some ⟨2, .referencePoint, 5⟩) _ rfl (.zero _), rfl, rfl, rfl, rfl⟩

/-- Non-vacuity of the generation theorems: five individuals, `pop_size` four; the generation succeeds, so that one of
the five is removed and four offspring are added. -/
example : ∃ (s t : EA Nat ℝ ℝ Nat Nat Nat (List ℝ) Unit) (rs : List (Rec Nat ℝ ℝ Nat Nat)),
    indConstruct demoInd (fun _ n => .ok ⟨2, List.range n⟩) 0 () false false 3 1 7 0 5 none = .ok s ∧
    Represents s.pop rs ∧ rs.length = 5 ∧ s.pop.individuals ≠ none ∧ indNextGen demoInd 4 s = (.ok (), t) := by
  have hs : ∃ s : EA Nat ℝ ℝ Nat Nat Nat (List ℝ) Unit,
      indConstruct demoInd (fun _ n => .ok ⟨2, List.range n⟩) 0 () false false 3 1 7 0 5 none = .ok s ∧
      s.pop = ⟨0, 2, some [0, 1, 2, 3, 4], [0, 1, 2, 3, 4].map (fun x : Nat => (x : ℝ)),
        [0, 1, 2, 3, 4].map (fun x : Nat => (x : ℝ)), none, none⟩ := ⟨_, rfl, rfl⟩
  obtain ⟨s, h1, h2⟩ := hs
  have hrep : Represents s.pop ([0, 1, 2, 3, 4].map (fun x : Nat => (⟨x, (x : ℝ), (x : ℝ), none, none⟩ : Rec Nat ℝ ℝ Nat Nat))) := by
    rw [h2]
    exact ⟨.inl rfl, rfl, rfl, fun _ h => absurd rfl h, fun _ => rfl, fun us h => by simp at h⟩
  obtain ⟨t, ht⟩ := c45_generation_succeeds demoInd 4 (by omega) s _ hrep (by simp)
    (fun clk k => ⟨rfl, by show [0, 1].Nodup; decide, by
      intro x hx; have hx' : x ∈ [0, 1] := hx; simp only [List.mem_cons, List.not_mem_nil, or_false] at hx'; show x < min 5 4 - 1; omega⟩)
    (fun clk p ids => ⟨_, rfl, by rw [h2]⟩)
    (fun clk b => ⟨_, rfl, rfl, by rw [h2]; exact ⟨by simp, by simp, fun _ => rfl, fun h => absurd rfl h, fun us h => by simp at h⟩⟩)
  exact ⟨s, t, _, h1, hrep, rfl, by rw [h2]; simp, ht⟩

end Verif.Props
