import Verif.Model.NaNSelect
import Verif.Proofs.Runs

/-!
# Lemmas for `Props/NaNSelect.lean`
-/

open Verif
open _root_.Spec (Rec Represents EvalOK newRecs rowsAt)
namespace Verif.Proofs
variable {m : Nat}

theorem nanMin2_none_left (a : Option ℝ) : nanMin2 none a = none := by cases a <;> rfl
theorem nanMin2_none_right (a : Option ℝ) : nanMin2 a none = none := by cases a <;> rfl
theorem nanSub_none_right (a : Option ℝ) : nanSub a none = none := by cases a <;> rfl
theorem nanSub_none_left (a : Option ℝ) : nanSub none a = none := by cases a <;> rfl

theorem foldl_nan (i : Fin m) (rs : List (NVec m)) : ∀ r : NVec m, (r i = none ∨ ∃ f ∈ rs, f i = none) →
    rs.foldl (fun a b i => nanMin2 (a i) (b i)) r i = none := by
  induction rs with
  | nil => intro r h; simpa using h
  | cons q rs ih =>
    intro r h
    rw [List.foldl_cons]
    apply ih
    rcases h with h | ⟨f, hf, h⟩
    · left; simp [h, nanMin2_none_left]
    · rcases List.mem_cons.1 hf with e | hf
      · subst e; left; simp [h, nanMin2_none_right]
      · exact .inr ⟨f, hf, h⟩

theorem numbers_none (f : NVec m) (i : Fin m) (h : f i = none) : numbers f = none := by
  unfold numbers
  rw [if_neg]
  intro h'
  exact h' i h

theorem cosineN_none (f v : NVec m) (i : Fin m) (h : f i = none) : cosineN f v = none := by
  unfold cosineN
  rw [numbers_none f i h]

theorem apdValueN_none (pen : ℝ) (g : Option ℝ) (f v : NVec m) (i : Fin m) (h : f i = none) : apdValueN pen g f v = none := by
  unfold apdValueN
  rw [numbers_none f i h]
  cases g <;> rfl

theorem assignAllN_nan (values : List (NVec m)) (hv : values ≠ []) (i : Fin m) (fs : List (NVec m)) (h : ∀ f ∈ fs, f i = none) :
    assignAllN values fs = .ok (List.replicate fs.length 0) := by
  induction fs with
  | nil => rfl
  | cons f fs ih =>
    have e : values.map (cosineN f) = values.map (fun _ => none) :=
      List.map_congr_left (fun v _ => cosineN_none f v i (h f (by simp)))
    have e2 : argmaxN (values.map (cosineN f)) = .ok 0 := by
      rw [e]
      cases values with
      | nil => exact absurd rfl hv
      | cons v vs => rfl
    unfold assignAllN
    rw [e2, ih (fun f hf => h f (List.mem_cons_of_mem _ hf))]
    rfl


theorem subPopulation_all (n : Nat) : subPopulation (List.replicate n 0) 0 = List.range n := by
  unfold subPopulation whereIdx
  rw [List.map_replicate]
  rw [List.filter_eq_self.2 ?_]
  · rw [List.zipIdx_map_snd, List.length_replicate, List.range_eq_range']
  · intro p hp
    have := List.mem_zipIdx hp
    rw [this.2.2]
    simp

theorem subPopulation_empty (n i : Nat) (hi : i ≠ 0) : subPopulation (List.replicate n 0) i = [] := by
  unfold subPopulation whereIdx
  rw [List.map_replicate]
  rw [List.filter_eq_nil_iff.2 ?_]
  · rfl
  · intro p hp
    have := List.mem_zipIdx hp
    rw [this.2.2]
    simpa using fun e : 0 = i => hi e.symm

theorem nanmin_all_none (l : List (Option ℝ)) (h : ∀ a ∈ l, a = none) : nanmin l = none := by
  induction l with
  | nil => rfl
  | cons a l ih =>
    rw [h a (by simp)]
    exact ih (fun b hb => h b (List.mem_cons_of_mem _ hb))

/-- With every apd NaN and everybody assigned to the first vector: whoever the constraint filter leaves alone. -/
theorem apdLoop_nan (cons : Option (List (List ℝ))) (n k : Nat) (hk : 0 < k) :
    apdLoop cons (fun _ _ => (none : Option ℝ)) (List.replicate n 0) k =
      match constraintFilter cons (List.range n) with
      | [j] => [j]
      | _ => [] := by
  unfold apdLoop
  obtain ⟨k, rfl⟩ : ∃ q, k = q + 1 := ⟨k - 1, by omega⟩
  rw [List.range_succ_eq_map, List.filterMap_cons]
  have h0 : ∀ i, i ≠ 0 → apdOne cons (fun _ _ => (none : Option ℝ)) (List.replicate n 0) i = none := by
    intro i hi
    unfold apdOne
    rw [subPopulation_empty n i hi]
    have : constraintFilter cons ([] : List Nat) = [] := by
      unfold constraintFilter
      cases cons <;> simp
    rw [this]
  have hr : (List.map Nat.succ (List.range k)).filterMap (apdOne cons (fun _ _ => (none : Option ℝ)) (List.replicate n 0)) = [] := by
    rw [List.filterMap_eq_nil_iff]
    intro i hi
    obtain ⟨q, -, rfl⟩ := List.mem_map.1 hi
    exact h0 _ (by simp)
  rw [hr]
  unfold apdOne
  rw [subPopulation_all]
  generalize constraintFilter cons (List.range n) = l
  match l with
  | [] => rfl
  | [j] => rfl
  | j :: k :: rest =>
    dsimp only
    unfold apdPick
    rw [nanmin_all_none _ (by intro a ha; obtain ⟨_, -, e⟩ := List.mem_map.1 ha; exact e.symm)]

theorem apdDoN_nan (values : List (NVec m)) (gammas : List (Option ℝ)) (pen : ℝ) (ideal popIdeal : NVec m) (fitness : List (NVec m))
    (cons : Option (List (List ℝ))) (hv : values ≠ []) (hf : fitness ≠ []) (i : Fin m)
    (h : ideal i = none ∨ popIdeal i = none ∨ ∃ f ∈ fitness, f i = none) :
    ∃ ideal', ideal' i = none ∧ apdDoN values gammas pen ideal popIdeal fitness cons =
      .ok (match constraintFilter cons (List.range fitness.length) with
      | [j] => [j]
      | _ => [], ideal') := by
  unfold apdDoN
  obtain ⟨r, rs, rfl⟩ := List.exists_cons_of_ne_nil hf
  have hi : newIdealN ideal (rs.foldl (fun a b i => nanMin2 (a i) (b i)) r) popIdeal i = none := by
    unfold newIdealN
    rcases h with h | h | ⟨f, hfm, h⟩
    · rw [h, nanMin2_none_left, nanMin2_none_left]
    · rw [h, nanMin2_none_right]
    · rw [foldl_nan i rs r, nanMin2_none_right, nanMin2_none_left]
      rcases List.mem_cons.1 hfm with e | e
      · subst e; exact .inl h
      · exact .inr ⟨f, e, h⟩
  simp only [colMinN]
  generalize newIdealN ideal (rs.foldl (fun a b i => nanMin2 (a i) (b i)) r) popIdeal = id' at hi
  refine ⟨id', hi, ?_⟩
  obtain ⟨tf, htf⟩ : ∃ t : List (NVec m), (r :: rs).map (fun f i => nanSub (f i) (id' i)) = t := ⟨_, rfl⟩
  have hn : ∀ f ∈ tf, f i = none := by
    intro f hfm
    rw [← htf] at hfm
    obtain ⟨g, -, rfl⟩ := List.mem_map.1 hfm
    simp [hi, nanSub_none_right]
  have hl : tf.length = (r :: rs).length := by rw [← htf]; simp
  rw [htf, assignAllN_nan values hv i tf hn, hl]
  dsimp only
  have e : (fun p j => apdValueN pen (gammas.getD p none) (tf.getD j (fun _ => none)) (values.getD p (fun _ => none))) =
      (fun _ _ => (none : Option ℝ)) := by
    funext p j
    apply apdValueN_none _ _ _ _ i
    rw [List.getD_eq_getElem?_getD]
    cases hj : tf[j]? with
    | none => rfl
    | some f => exact hn f (List.mem_of_getElem? hj)
  rw [e, apdLoop_nan cons _ _ (List.length_pos_iff.2 hv)]


/-! ## Without NaN it is the model of before -/

/-- A row of numbers as a row of floats. -/
def asN (f : Vec m) : NVec m := fun i => some (f i)

theorem numbers_asN (f : Vec m) : numbers (asN f) = some f := by
  unfold numbers asN
  rw [if_pos (by intro i; simp)]
  rfl

theorem cosineN_asN (f v : Vec m) : cosineN (asN f) (asN v) = some (cosineOf f v) := by
  unfold cosineN
  rw [numbers_asN, numbers_asN]

theorem argmaxN_some {K : Type} [LinearOrder K] (l : List K) : argmaxN (l.map some) = argmaxL l := by
  unfold argmaxN
  have : (l.map some).findIdx? Option.isNone = none := by
    rw [List.findIdx?_eq_none_iff]
    intro x hx
    obtain ⟨a, -, rfl⟩ := List.mem_map.1 hx
    rfl
  rw [this]
  simp [List.filterMap_map]

theorem assignAllN_asN (values fs : List (Vec m)) : assignAllN (values.map asN) (fs.map asN) = assignAll values fs := by
  induction fs with
  | nil => rfl
  | cons f fs ih =>
    have e : (values.map asN).map (cosineN (asN f)) = (values.map (cosineOf f)).map some := by
      simp only [List.map_map]
      exact List.map_congr_left (fun v _ => cosineN_asN f v)
    rw [List.map_cons]
    unfold assignAllN assignAll
    rw [e, argmaxN_some, ih]
    rfl

theorem foldl_asN (rs : List (Vec m)) : ∀ r : Vec m, (rs.map asN).foldl (fun a b i => nanMin2 (a i) (b i)) (asN r) =
    asN (rs.foldl (fun a b i => min (a i) (b i)) r) := by
  induction rs with
  | nil => exact fun r => rfl
  | cons q rs ih =>
    intro r
    rw [List.map_cons, List.foldl_cons, List.foldl_cons, ← ih]
    rfl

theorem apdDoN_asN (values : List (Vec m)) (gammas : List ℝ) (pen : ℝ) (ideal popIdeal : Vec m) (fitness : List (Vec m))
    (cons : Option (List (List ℝ))) (hg : gammas.length = values.length) :
    apdDoN (values.map asN) (gammas.map some) pen (asN ideal) (asN popIdeal) (fitness.map asN) cons =
      (apdDo values gammas pen ideal popIdeal fitness cons).map (fun r => (r.1, asN r.2)) := by
  cases fitness with
  | nil => rfl
  | cons r rs =>
    simp only [apdDoN, apdDo, List.map_cons, colMinN, colMin]
    rw [foldl_asN]
    obtain ⟨fm, hfm⟩ : ∃ t : Vec m, rs.foldl (fun a b i => min (a i) (b i)) r = t := ⟨_, rfl⟩
    rw [hfm]
    have hid : newIdealN (asN ideal) (asN fm) (asN popIdeal) = asN (newIdeal ideal fm popIdeal) := rfl
    rw [hid]
    obtain ⟨id', hid'⟩ : ∃ t : Vec m, newIdeal ideal fm popIdeal = t := ⟨_, rfl⟩
    rw [hid']
    have htf : ((r :: rs).map asN).map (fun (f : NVec m) i => nanSub (f i) (asN id' i)) =
        ((r :: rs).map (fun f i => f i - id' i)).map asN := by
      simp only [List.map_map]
      rfl
    have htf' := htf
    rw [List.map_cons, List.map_cons] at htf
    rw [htf]
    rw [List.map_cons] at htf'
    obtain ⟨tf, h4⟩ : ∃ t : List (Vec m), (r :: rs).map (fun f i => f i - id' i) = t := ⟨_, rfl⟩
    have h5 : (fun i => r i - id' i) :: List.map (fun f i => f i - id' i) rs = tf := by rw [← h4]; rfl
    rw [h4, h5, assignAllN_asN]
    cases ha : assignAll values tf with
    | error e => rfl
    | ok assigned =>
      dsimp only [Except.map]
      congr 2
      have hlen : tf.length = assigned.length := by
        clear h4 h5 htf htf'
        induction tf generalizing assigned with
        | nil => simp [assignAll] at ha; subst ha; rfl
        | cons f tf ih =>
          unfold assignAll at ha
          split at ha
          · rename_i a as _ has
            injection ha with ha
            subst ha
            simp [ih as has]
          · cases ha
          · cases ha
      rw [List.length_map]
      unfold apdLoop
      apply List.filterMap_congr
      intro i hi
      have hi' : i < values.length := List.mem_range.1 hi
      unfold apdOne
      have hsub : ∀ j ∈ constraintFilter cons (subPopulation assigned i), j < tf.length := by
        intro j hj
        have h1 : j ∈ subPopulation assigned i := by
          unfold constraintFilter at hj
          split at hj
          · exact hj
          · dsimp only at hj
            split at hj
            · split at hj
              · exact (List.mem_filter.1 hj).1
              · exact (List.mem_filter.1 hj).1
            · exact hj
        unfold subPopulation whereIdx at h1
        obtain ⟨⟨b, q⟩, hb, rfl⟩ := List.mem_map.1 h1
        have := List.mem_zipIdx (List.mem_filter.1 hb).1
        have h2 := this.2.1
        rw [List.length_map] at h2
        dsimp only at h2 ⊢
        omega
      generalize constraintFilter cons (subPopulation assigned i) = sub at hsub
      match sub, hsub with
      | [], _ => rfl
      | [j], _ => rfl
      | j :: k :: rest, hsub =>
        dsimp only
        have key : ∀ q ∈ j :: k :: rest,
            apdValueN pen ((gammas.map some).getD i none) ((tf.map asN).getD q (fun _ => none)) ((values.map asN).getD i (fun _ => none)) =
              some (apdValue pen (gammas.getD i 0) (tf.getD q 0) (values.getD i 0)) := by
          intro q hq
          have hq' := hsub q hq
          have e1 : (gammas.map some).getD i none = some (gammas.getD i 0) := by
            simp [List.getD_eq_getElem?_getD, List.getElem?_map, List.getElem?_eq_getElem (hg ▸ hi' : i < gammas.length)]
          have e2 : (tf.map asN).getD q (fun _ => none) = asN (tf.getD q 0) := by
            simp [List.getD_eq_getElem?_getD, List.getElem?_map, List.getElem?_eq_getElem hq']
          have e3 : (values.map asN).getD i (fun _ => none) = asN (values.getD i 0) := by
            simp [List.getD_eq_getElem?_getD, List.getElem?_map, List.getElem?_eq_getElem hi']
          rw [e1, e2, e3]
          unfold apdValueN
          rw [numbers_asN, numbers_asN]
        obtain ⟨A, hA⟩ : ∃ A : Nat → Option ℝ, A = fun q => apdValueN pen ((gammas.map some).getD i none) ((tf.map asN).getD q (fun _ => none)) ((values.map asN).getD i (fun _ => none)) := ⟨_, rfl⟩
        obtain ⟨B, hB⟩ : ∃ B : Nat → Option ℝ, B = fun q => some (apdValue pen (gammas.getD i 0) (tf.getD q 0) (values.getD i 0)) := ⟨_, rfl⟩
        have hAB : ∀ q ∈ j :: k :: rest, A q = B q := by intro q hq; rw [hA, hB]; exact key q hq
        rw [← hA, ← hB]
        unfold apdPick
        rw [List.map_congr_left hAB]
        split
        · rfl
        · congr 1
          apply List.filter_congr
          intro q hq
          rw [hAB q hq]

/-! ## An empty population -/

section Gone
variable {X O F C U V S Q R : Type}

/-- No individuals, `g` completed generations, preferences not handled by the problem. -/
structure Gone (g : Nat) (s : EA X O F C U V S Q) : Prop where
  inds : s.pop.individuals = some []
  fits : s.pop.fitness = []
  gen : s.gen = g
  loc : s.cfg.location ≠ some .problem

/-- From no parents `mate` makes no offspring; evaluating no vectors gives no rows; selection from no rows raises. -/
structure Barren (ops : Ops X O F C U V S Q R) : Prop where
  mate : ∀ clk (p : Pop X O F C U) b, p.individuals = some [] → ops.mate clk p = .ok b → b.rows = []
  evaluate : ∀ clk surr b r, ops.evaluate clk surr b = .ok r → b.rows = [] → r.fitness = []
  select : ∀ clk v t (p : Pop X O F C U), p.fitness = [] → ∃ e v' t', ops.select clk v t p = (.error e, v', t')

variable {g : Nat}

theorem Gone.of_eq {s t : EA X O F C U V S Q} (h : Gone g s) (hp : t.pop = s.pop) (hg : t.gen = s.gen) (hc : t.cfg = s.cfg) : Gone g t :=
  ⟨by rw [hp]; exact h.inds, by rw [hp]; exact h.fits, by rw [hg]; exact h.gen, by rw [hc]; exact h.loc⟩

theorem add_gone (p : Pop X O F C U) (off : Batch X) (ev : Except Err (Results O F C U)) (hi : p.individuals = some [])
    (hf : p.fitness = []) (ho : off.rows = []) (hr : ∀ r, ev = .ok r → r.fitness = []) :
    (p.add off ev).2.individuals = some [] ∧ (p.add off ev).2.fitness = [] := by
  unfold Pop.add
  cases ev with
  | error e => exact ⟨hi, hf⟩
  | ok r =>
    have hr := hr r rfl
    rw [hi]
    dsimp only
    have e1 : (if p.ndim = off.ndim + 1 then ([] : List X) ++ off.rows else if p.ndim = off.ndim then [] ++ off.rows else []) = [] := by
      rw [ho]; simp
    rw [e1]
    split
    · simp [hf, hr]
    · rename_i p2 hp2
      have h2 : p2.individuals = some [] ∧ p2.fitness = [] := by
        split at hp2
        · split at hp2
          · cases hp2
          · injection hp2 with hp2
            subst hp2
            simp [hf, hr]
        · injection hp2 with hp2
          subst hp2
          simp [hf, hr]
      split
      · exact h2
      · split
        · exact h2
        · exact h2

theorem nextGen_gone (ops : Ops X O F C U V S Q R) (hb : Barren ops) (s : EA X O F C U V S Q) (h : Gone g s) :
    Gone g (EA.nextGen ops s).2 ∧ ∃ e, (EA.nextGen ops s).1 = .error e := by
  unfold EA.nextGen
  split
  · exact ⟨h.of_eq rfl rfl rfl, _, rfl⟩
  · rename_i off hoff
    have ho := hb.mate _ _ _ h.inds hoff
    obtain ⟨h1, h2⟩ := add_gone s.pop off (ops.evaluate (s.clock + 1) s.cfg.useSurr off) h.inds h.fits ho
      (fun r hr => hb.evaluate _ _ _ _ hr ho)
    dsimp only
    have h3 : Gone g (({ s with clock := s.clock + 1 } : EA X O F C U V S Q).popAdd ops off).2 := ⟨h1, h2, h.gen, h.loc⟩
    generalize ({ s with clock := s.clock + 1 } : EA X O F C U V S Q).popAdd ops off = r at h3
    obtain ⟨r, t⟩ := r
    cases r with
    | error e => exact ⟨h3, _, rfl⟩
    | ok res =>
      dsimp only at h3 ⊢
      split
      · rename_i e u hu
        refine ⟨?_, _, rfl⟩
        split at hu
        · split at hu
          · simp only [Prod.mk.injEq] at hu; rw [← hu.2]; exact h3
          · simp at hu
        · simp at hu
      · rename_i u hu
        have h4 : Gone g u := by
          split at hu
          · split at hu
            · simp at hu
            · simp only [Prod.mk.injEq] at hu; rw [← hu.2]; exact h3.of_eq rfl rfl rfl
          · simp only [Prod.mk.injEq] at hu; rw [← hu.2]; exact h3
        obtain ⟨e, v', t', he⟩ := hb.select u.clock u.vec u.sel u.pop h4.fits
        rw [he]
        exact ⟨h4.of_eq rfl rfl rfl, _, rfl⟩

theorem Gone.managePreferences {s : EA X O F C U V S Q} (h : Gone g s) (ops : Ops X O F C U V S Q R) (pref : Option (Pref R)) :
    Gone g (s.managePreferences ops pref).2 := by
  unfold EA.managePreferences
  split
  · exact h
  · unfold EA.selManage
    split
    · exact h.of_eq rfl rfl rfl
    · split
      · exact h
      · split
        · exact h
        · split
          · exact h
          · exact h.of_eq rfl rfl rfl
  · rename_i hl
    exact absurd hl h.loc

theorem Gone.preIteration {s : EA X O F C U V S Q} (h : Gone g s) (ops : Ops X O F C U V S Q R) : Gone g (s.preIteration ops) := by
  have hr : Gone g s.record := by
    unfold EA.record
    split
    · exact h.of_eq rfl rfl rfl
    · exact h
  simp only [EA.preIteration]
  split <;> split <;> exact hr.of_eq rfl rfl rfl

theorem Gone.requestPreferences {s : EA X O F C U V S Q} (h : Gone g s) (ops : Ops X O F C U V S Q R) :
    Gone g (s.requestPreferences ops).2 := by
  unfold EA.requestPreferences
  split
  · exact h
  · split
    · exact h
    · exact h
    · split
      · exact h
      · dsimp only
        split <;> exact h.of_eq rfl rfl rfl

theorem Gone.loop (ops : Ops X O F C U V S Q R) (hb : Barren ops) (fuel : Nat) (s : EA X O F C U V S Q) (h : Gone g s) :
    Gone g (EA.loop (EA.nextGen ops) fuel s).2 ∧ (0 < fuel → s.continueIteration = true → ∃ e, (EA.loop (EA.nextGen ops) fuel s).1 = .error e) := by
  cases fuel with
  | zero => exact ⟨h, fun h => absurd h (by omega)⟩
  | succ fuel =>
    unfold EA.loop
    split
    · obtain ⟨h1, e, he⟩ := nextGen_gone ops hb s h
      generalize EA.nextGen ops s = r at h1 he
      obtain ⟨r, t⟩ := r
      dsimp only at he
      subst he
      exact ⟨h1, fun _ _ => ⟨e, rfl⟩⟩
    · rename_i hc
      exact ⟨h, fun _ hc' => absurd hc' hc⟩

theorem Gone.iterate {s : EA X O F C U V S Q} (h : Gone g s) (ops : Ops X O F C U V S Q R) (hb : Barren ops) (pref : Option (Pref R)) :
    Gone g (s.iterate ops pref).2 ∧ (0 < s.cfg.nGen → s.checkFE = true → ∃ e, (s.iterate ops pref).1 = .error e) := by
  unfold EA.iterate EA.iterateWith
  have h1 := h.managePreferences ops pref
  have hc : (s.managePreferences ops pref).2.cfg = s.cfg ∧ (s.managePreferences ops pref).2.fe = s.fe := by
    unfold EA.managePreferences
    split
    · exact ⟨rfl, rfl⟩
    · unfold EA.selManage
      split
      · exact ⟨rfl, rfl⟩
      · split
        · exact ⟨rfl, rfl⟩
        · split
          · exact ⟨rfl, rfl⟩
          · split <;> exact ⟨rfl, rfl⟩
    · split <;> exact ⟨rfl, rfl⟩
  generalize s.managePreferences ops pref = r at h1 hc
  obtain ⟨r, t⟩ := r
  cases r with
  | error e => exact ⟨h1, fun _ _ => ⟨_, rfl⟩⟩
  | ok _ =>
    dsimp only at h1 hc ⊢
    have h2 := h1.preIteration ops
    have hc2 : (t.preIteration ops).cfg = t.cfg ∧ (t.preIteration ops).fe = t.fe := by
      have hr : t.record.cfg = t.cfg ∧ t.record.fe = t.fe := by
        unfold EA.record
        split <;> exact ⟨rfl, rfl⟩
      simp only [EA.preIteration]
      split <;> split <;> exact hr
    generalize t.preIteration ops = u at h2 hc2
    obtain ⟨h3, h4⟩ := Gone.loop ops hb u.cfg.nGen ({ u with genIter := 0 }) (h2.of_eq rfl rfl rfl)
    generalize EA.loop (EA.nextGen ops) u.cfg.nGen { u with genIter := 0 } = r at h3 h4
    obtain ⟨r, v⟩ := r
    cases r with
    | error e => exact ⟨h3, fun _ _ => ⟨_, rfl⟩⟩
    | ok _ =>
      have h5 : Gone g ({ v with iter := v.iter + 1 } : EA X O F C U V S Q) := h3.of_eq rfl rfl rfl
      refine ⟨h5.requestPreferences ops, fun hn hfe => ?_⟩
      obtain ⟨e, he⟩ := h4 (by rw [hc2.1, hc.1]; exact hn) (by
        unfold EA.continueIteration EA.checkFE at *
        dsimp only
        rw [hc2.1, hc2.2, hc.1, hc.2, hfe]
        simp [hn])
      cases he

theorem Gone.start {s : EA X O F C U V S Q} (h : Gone g s) (ops : Ops X O F C U V S Q R) : Gone g (s.start ops).2 := by
  unfold EA.start
  split
  · exact h
  · dsimp only
    split
    · rename_i hq
      split at hq
      · split at hq
        · simp only [Prod.mk.injEq] at hq; rw [← hq.2]; exact h
        · split at hq
          · simp only [Prod.mk.injEq] at hq; rw [← hq.2]; exact h
          · simp at hq
      · simp at hq
    · rename_i t hq
      apply Gone.requestPreferences
      split at hq
      · split at hq
        · simp at hq
        · split at hq
          · simp at hq
          · simp only [Prod.mk.injEq] at hq
            rw [← hq.2]
            exact h.of_eq rfl rfl rfl
      · simp only [Prod.mk.injEq] at hq; rw [← hq.2]; exact h

theorem Gone.setType {s : EA X O F C U V S Q} (h : Gone g s) (arg : Option String) : Gone g (s.setInteractionType arg).2 := by
  unfold EA.setInteractionType
  split
  · exact h
  · exact h.of_eq rfl rfl rfl
  · dsimp only
    split
    · exact h.of_eq rfl rfl rfl
    · split <;> exact h.of_eq rfl rfl rfl

theorem Gone.readAllowable {s : EA X O F C U V S Q} (h : Gone g s) : Gone g s.readAllowable.2 := by
  unfold EA.readAllowable
  split
  · exact h
  · have h1 := h.setType none
    generalize s.setInteractionType none = r at h1
    obtain ⟨r, t⟩ := r
    cases r with
    | error e => exact h1
    | ok _ => exact h1.of_eq rfl rfl rfl

theorem Gone.calls (ops : Ops X O F C U V S Q R) (hb : Barren ops) (cs : List (Call R)) :
    ∀ s : EA X O F C U V S Q, Gone g s → Gone g (s.calls ops cs) := by
  induction cs with
  | nil => exact fun s h => h
  | cons c cs ih =>
    intro s h
    apply ih
    cases c with
    | start => exact h.start ops
    | setType a =>
      have := h.setType a
      unfold EA.call
      dsimp only
      generalize s.setInteractionType a = r at this
      obtain ⟨r, t⟩ := r
      cases r <;> exact this
    | readAllowable =>
      have := h.readAllowable
      unfold EA.call
      dsimp only
      generalize s.readAllowable = r at this
      obtain ⟨r, t⟩ := r
      cases r <;> exact this
    | iterate p => exact (h.iterate ops hb p).1

end Gone

end Verif.Proofs
