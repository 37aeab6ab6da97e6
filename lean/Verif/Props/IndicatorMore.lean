import Verif.Props.BlackBox
import Verif.Props.IndicatorRun
import Verif.Props.HandOver
import Verif.Props.Search

/-!
# C98 and C100 for IBEA and PBEA
-/

namespace Verif.Props
open Verif Verif.Spec Verif.Proofs MeasureTheory
open _root_.Spec (Rec Represents EvalOK newRecs)

variable {n : Nat} {X O F C U P S Q R : Type}

section
variable {D : X → Prop} {io : IndOps X O F C U P R} {ev' : Nat → Bool → Batch X → Except Err (Results O F C U)}

theorem indNextGen_sees (hok : ∀ clk surr b, ∃ r, io.evaluate clk surr b = .ok r) (hag : AgreeOff D io.evaluate ev') (N : Nat) :
    SeesOnly D (indNextGen (Q := Q) io N) (indNextGen ({ io with evaluate := ev' } : IndOps X O F C U P R) N) := by
  have hred : ∀ s : EA X O F C U P (List ℝ) Q, indReduce ({ io with evaluate := ev' } : IndOps X O F C U P R) N s = indReduce io N s := fun s => rfl
  have hl : ∀ s : EA X O F C U P (List ℝ) Q, (indReduce io N s).2.log = s.log := fun s => rfl
  constructor
  · intro s
    unfold indNextGen
    have h := hl s
    generalize indReduce io N s = z at h
    obtain ⟨z, t⟩ := z
    dsimp only at h
    cases z with
    | error e => exact (congrArg (fun l => l <+: t.log) h).mp (List.prefix_refl _)
    | ok _ =>
      dsimp only
      rw [← h]
      unfold indVary
      split
      · exact List.prefix_refl _
      · dsimp only
        split
        · exact List.prefix_refl _
        · split <;> exact List.prefix_append _ _
  · intro s h
    unfold indNextGen at h ⊢
    rw [hred]
    generalize indReduce io N s = z at h
    obtain ⟨z, t⟩ := z
    cases z with
    | error e => rfl
    | ok _ =>
      dsimp only at h ⊢
      unfold indVary at h ⊢
      dsimp only at h ⊢
      cases ht : tournament 2 t.sel (io.draw t.clock) with
      | error e => rfl
      | ok ch =>
        rw [ht] at h
        dsimp only at h ⊢
        cases hm : io.mate (t.clock + 1) t.pop ch with
        | error e => rfl
        | ok off =>
          rw [hm] at h
          dsimp only at h ⊢
          have hr : ∀ x ∈ off.rows, ¬ D x := by
            intro x hx
            apply h x
            obtain ⟨r, hr⟩ := hok (t.clock + 1 + 1) false off
            rw [hr]
            refine ⟨(off.rows, r), ?_, hx⟩
            split <;> exact List.mem_append_right _ (by simp [evLog])
          rw [hag _ _ _ hr]

theorem indIterate_sees (hok : ∀ clk surr b, ∃ r, io.evaluate clk surr b = .ok r) (hag : AgreeOff D io.evaluate ev') (N : Nat)
    (s : EA X O F C U P (List ℝ) Q) (p : Option (Pref R)) : s.log <+: (indIterate io N s p).2.log ∧
    (Clear D (indIterate io N s p).2 → indIterate ({ io with evaluate := ev' } : IndOps X O F C U P R) N s p = indIterate io N s p) := by
  unfold indIterate indIterateWith
  have e : indManage ({ io with evaluate := ev' } : IndOps X O F C U P R) s p = indManage io s p := rfl
  rw [e]
  have hl : (indManage io s p).2.log = s.log := by
    unfold indManage
    repeat' split
    all_goals rfl
  generalize indManage io s p = z at hl
  obtain ⟨z, t⟩ := z
  dsimp only at hl
  rw [← hl]
  cases z with
  | error e => exact ⟨List.prefix_refl _, fun _ => rfl⟩
  | ok _ =>
    dsimp only
    have hb := loop_sees (indNextGen_sees (Q := Q) hok hag N) t.cfg.nGen
    have h1 := hb.grows { t with genIter := 0 }
    have h2 := hb.same { t with genIter := 0 }
    have hq : ∀ w : EA X O F C U P (List ℝ) Q, indRequest ({ io with evaluate := ev' } : IndOps X O F C U P R) w = indRequest io w := fun w => rfl
    have hg : ∀ w : EA X O F C U P (List ℝ) Q, (indRequest io w).2.log = w.log := by intro w; unfold indRequest; split <;> rfl
    generalize EA.loop (indNextGen io N) t.cfg.nGen { t with genIter := 0 } = y at h1 h2
    obtain ⟨y, u⟩ := y
    cases y with
    | error e =>
      refine ⟨h1, fun h => ?_⟩
      rw [h2 h]
    | ok _ =>
      dsimp only at h1 h2 ⊢
      rw [hg]
      refine ⟨h1, fun h => ?_⟩
      have hc : Clear D u := by
        intro x hx
        apply h x
        obtain ⟨e, he, hx⟩ := hx
        exact ⟨e, by rw [hg]; exact he, hx⟩
      rw [h2 hc]
      rfl

theorem indCall_sees (hok : ∀ clk surr b, ∃ r, io.evaluate clk surr b = .ok r) (hag : AgreeOff D io.evaluate ev') (N : Nat)
    (s : EA X O F C U P (List ℝ) Q) (c : IndCall R) : s.log <+: (indCall io N s c).log ∧
    (Clear D (indCall io N s c) → indCall ({ io with evaluate := ev' } : IndOps X O F C U P R) N s c = indCall io N s c) := by
  have hg : ∀ w : EA X O F C U P (List ℝ) Q, (indRequest io w).2.log = w.log := by intro w; unfold indRequest; split <;> rfl
  cases c with
  | iterate p =>
    obtain ⟨h1, h2⟩ := indIterate_sees hok hag N s p
    refine ⟨h1, fun h => ?_⟩
    show (indIterate _ _ _ _).2 = _
    rw [h2 h]
    rfl
  | requests =>
    refine ⟨?_, fun _ => rfl⟩
    show s.log <+: (indRequest io s).2.log
    rw [hg]
  | start =>
    refine ⟨?_, fun _ => rfl⟩
    show s.log <+: (indStart io s).2.log
    unfold indStart
    split
    · exact List.prefix_refl _
    · rw [hg]

theorem indCalls_sees (hok : ∀ clk surr b, ∃ r, io.evaluate clk surr b = .ok r) (hag : AgreeOff D io.evaluate ev') (N : Nat)
    (cs : List (IndCall R)) : ∀ s : EA X O F C U P (List ℝ) Q, s.log <+: (indCalls io N s cs).log ∧
    (Clear D (indCalls io N s cs) → indCalls ({ io with evaluate := ev' } : IndOps X O F C U P R) N s cs = indCalls io N s cs) := by
  induction cs with
  | nil => exact fun s => ⟨List.prefix_refl _, fun _ => rfl⟩
  | cons c cs ih =>
    intro s
    obtain ⟨a1, a2⟩ := indCall_sees hok hag N s c
    obtain ⟨b1, b2⟩ := ih (indCall io N s c)
    refine ⟨a1.trans b1, fun h => ?_⟩
    show indCalls _ N (indCall _ N s c) cs = indCalls io N (indCall io N s c) cs
    rw [a2 (Clear.of_prefix b1 h)]
    exact b2 h

/-- C98 (IBEA, PBEA). A problem changed only where the run never evaluated it gives the same run: the same object after construction, the
same result of every `iterate()` of the history and the same object in the end. -/
theorem c98_indicator_only_evaluated_points (hok : ∀ clk surr b, ∃ r, io.evaluate clk surr b = .ok r) (hag : AgreeOff D io.evaluate ev')
    (N : Nat) (design : Nat → Nat → Except Err (Batch X)) (ref0 : P) (prob0 : Q) (interact useSurr : Bool) (nIter nGen total nCons size : Nat)
    (initPop : Option (Pop X O F C U)) (s : EA X O F C U P (List ℝ) Q)
    (hs : indConstruct io design ref0 prob0 interact useSurr nIter nGen total nCons size initPop = .ok s) (cs : List (IndCall R))
    (hD : ∀ x, Evaluated (indCalls io N s cs) x → ¬ D x) :
    indConstruct ({ io with evaluate := ev' } : IndOps X O F C U P R) design ref0 prob0 interact useSurr nIter nGen total nCons size initPop = .ok s ∧
    (∀ before pref after, cs = before ++ .iterate pref :: after →
      indIterate ({ io with evaluate := ev' } : IndOps X O F C U P R) N (indCalls { io with evaluate := ev' } N s before) pref =
        indIterate io N (indCalls io N s before) pref) ∧
    indCalls ({ io with evaluate := ev' } : IndOps X O F C U P R) N s cs = indCalls io N s cs := by
  refine ⟨?_, ?_, (indCalls_sees hok hag N cs s).2 hD⟩
  · have hc : Clear D s := Clear.of_prefix (indCalls_sees hok hag N cs s).1 hD
    unfold indConstruct at hs ⊢
    dsimp only at hs ⊢
    cases initPop with
    | some p => exact hs
    | none =>
      dsimp only at hs ⊢
      cases hd : design 0 size with
      | error e => rw [hd] at hs; exact hs
      | ok off =>
        rw [hd] at hs
        dsimp only at hs ⊢
        have hr : ∀ x ∈ off.rows, ¬ D x := by
          intro x hx
          apply hc x
          obtain ⟨r, hr⟩ := hok 1 useSurr off
          rw [hr] at hs
          simp only [Pop.add, Pop.new, Except.ok.injEq] at hs
          subst hs
          exact ⟨(off.rows, r), by simp [evLog], hx⟩
        rw [hag _ _ _ hr]
        exact hs
  · intro before pref after he
    have happ : indCalls io N s cs = indCalls io N (indCall io N (indCalls io N s before) (.iterate pref)) after := by
      rw [he]
      simp [indCalls, List.foldl_append]
    rw [happ] at hD
    have h1 : Clear D (indCall io N (indCalls io N s before) (.iterate pref)) := Clear.of_prefix (indCalls_sees hok hag N after _).1 hD
    obtain ⟨i1, i2⟩ := indIterate_sees hok hag N (indCalls io N s before) pref
    have h2 : Clear D (indCalls io N s before) := Clear.of_prefix i1 h1
    rw [(indCalls_sees hok hag N before s).2 h2]
    exact i2 h1

end

/-- The first half of a generation of IBEA or PBEA: environmental selection and the tournaments. -/
theorem ind_half (io : IndOps (Row n) O F C U P R) (N nc : Nat) (unc : Bool) (hN : 3 ≤ N) (lo hi : Fin n → ℝ)
    (hdraw : ∀ clk k, LegalDraw N 2 (io.draw clk k)) (s : EA (Row n) O F C U P (List ℝ) Q) (h : IndAlive N nc unc lo hi s)
    (rs : List (Rec (Row n) O F C U)) (r1 : Represents s.pop rs) :
    ∃ p' rs' ps, indReduce io N s = (.ok (), { s with pop := p', sel := allFitness (io.term s.vec s.pop.objectives) p'.fitness }) ∧
      Represents p' rs' ∧ rs'.Sublist rs ∧ rs'.length = N ∧ p'.individuals = some (rs'.map Rec.x) ∧ p'.ndim = 2 ∧ p'.nCons = nc ∧
      (p'.uncertainity = none ↔ unc = false) ∧
      tournament 2 (allFitness (io.term s.vec s.pop.objectives) p'.fitness) (io.draw s.clock) = .ok ps ∧ ps.length = N ∧ ∀ k ∈ ps, k < N := by
  obtain ⟨⟨rs0, q1, r2, -⟩, hne, hdim, hnc, hunc⟩ := h
  have hl : s.pop.fitness.length = rs.length := by rw [r1.fits, List.length_map]
  have hl0 : s.pop.fitness.length = rs0.length := by rw [q1.fits, List.length_map]
  obtain ⟨p', rs', g1, g2, g3, g4, g5, g6, g7⟩ := envLoop_spec (io.term s.vec s.pop.objectives) N (by omega)
    (s.pop.fitness.length + 1) s.pop rs r1 hne (by omega)
  have g8 := envLoop_unc (io.term s.vec s.pop.objectives) N (s.pop.fitness.length + 1) s.pop (allFitness (io.term s.vec s.pop.objectives) s.pop.fitness)
  rw [g1] at g8
  dsimp only at g8
  have hlen : rs'.length = N := by omega
  obtain ⟨hsub, -⟩ := removesWorst_elitist (fun _ _ => False) (io.term s.vec s.pop.objectives) (fun _ _ h => h.elim) Rec.f _ _ _ g4
  have hfl : (allFitness (io.term s.vec s.pop.objectives) p'.fitness).length = N := by simp [allFitness, g2.fits, hlen]
  obtain ⟨ps, hps, hpl, hpm⟩ := c46_tournament 2 (by omega) (allFitness (io.term s.vec s.pop.objectives) p'.fitness)
    (by rw [hfl]; omega) (io.draw s.clock) (fun k => by rw [hfl]; exact hdraw _ k)
  rw [hfl] at hpl hpm
  have hin : p'.individuals = some (rs'.map Rec.x) := by
    rcases g2.inds with h1 | ⟨h1, -⟩
    · exact h1
    · exact absurd h1 g3
  refine ⟨p', rs', ps, ?_, g2, hsub, hlen, hin, by rw [g7]; exact hdim, by rw [g6]; exact hnc, by rw [g8]; exact hunc, hps, hpl, ?_⟩
  · unfold indReduce
    dsimp only
    rw [fitnessAssign_eq, g1]
  · intro k hk
    obtain ⟨i, hi⟩ := List.mem_iff_getElem?.1 hk
    have := (hpm i k hi).2.1
    omega

/-- The object is one of C80 (complete records inside the bounds, `N` or, between generations, those and their offspring), all of them numbers. -/
def ReadyInd (N nc : Nat) (unc : Bool) (lo hi : Fin n → ℝ) (s : EA (Row n) O F C U P (List ℝ) Q) : Prop :=
  IndAlive N nc unc lo hi s ∧ ∀ inds, s.pop.individuals = some inds → ∀ x ∈ inds, AllNumbers x

/-- C100 (IBEA and PBEA, whatever the indicator). The same for the generation of the indicator-based EAs with at least three individuals: the
probability that `G` generations go by without a vector of the box being evaluated, the population staying free of NaN, is at most `(1 - p) ^ G` with
the same positive `p`. -/
theorem c100_indicator_every_box_is_sampled (lo hi : Fin n → ℝ) (hn : 0 < n) (hlt : ∀ i, lo i < hi i) (io : IndOps (Row n) O F C U P R)
    (N nc : Nat) (unc : Bool) (hN : 3 ≤ N) (hdraw : ∀ clk k, LegalDraw N 2 (io.draw clk k))
    (hok : ∀ clk surr b, ∃ r, io.evaluate clk surr b = .ok r) (draw : Nat → MateDraw n)
    (between : EA (Row n) O F C U P (List ℝ) Q → EA (Row n) O F C U P (List ℝ) Q)
    (hbt : ∀ s, ReadyInd N nc unc lo hi s → ReadyInd N nc unc lo hi (between s))
    (l u : Fin n → ℝ) (hl : ∀ i, lo i ≤ l i) (hlu : ∀ i, l i < u i) (hu : ∀ i, u i ≤ hi i)
    (s : EA (Row n) O F C U P (List ℝ) Q) (hs : ReadyInd N nc unc lo hi s) (G : Nat) :
    chanceOfMissing (fun a b c s => (indNextGen { io with mate := mateChosen lo hi (fun clk => steer (draw clk) a b c) } N (between s)).2)
      (fun s => ReadyInd N nc unc lo hi s ∧ ¬ ∃ x, Evaluated s x ∧ Inside l u x) G s ≤ ENNReal.ofReal (1 - hitChance lo hi l u) ^ G ∧
    0 < hitChance lo hi l u := by
  obtain ⟨h1, h2, h3, h4, h5⟩ := hitChance_pos lo hi l u hn hlt hl hlu hu
  refine ⟨chanceOfMissing_le _ _ (ReadyInd N nc unc lo hi) ((1 / 2) ^ n) ((1 / n) ^ n) (∏ i, ((u i - l i) / (2 * (hi i - lo i))) ^ 21 / 2)
    ⟨by positivity, by positivity, h5⟩ ⟨h3, h4⟩ (fun a b c s h => h.1) ?_ G s hs, h1⟩
  intro s hs
  obtain ⟨ha, hnum⟩ := hbt s hs
  obtain ⟨rs, q1, -, q3⟩ := ha.rep
  obtain ⟨p', rs', ps, e1, e2, e3, e4, e5, -, -, -, e6, e7, e8⟩ := ind_half io N nc unc hN lo hi hdraw (between s) ha rs q1
  have hin : (between s).pop.individuals = some (rs.map Rec.x) := by
    rcases q1.inds with h | ⟨h, -⟩
    · exact h
    · exact absurd h ha.inds
  refine mate_hits lo hi hn hlt (draw ((between s).clock + 1)) (rs'.map Rec.x) (some ps) ?_ ?_ ?_ l u hl hlu hu
    (fun a b c => ¬ (ReadyInd N nc unc lo hi (indNextGen { io with mate := mateChosen lo hi (fun clk => steer (draw clk) a b c) } N (between s)).2 ∧
      ¬ ∃ x, Evaluated (indNextGen { io with mate := mateChosen lo hi (fun clk => steer (draw clk) a b c) } N (between s)).2 x ∧ Inside l u x)) ?_
  · intro k hk
    rw [List.length_map, e4]
    exact e8 k hk
  · intro h
    have h' : ps = [] := h
    rw [h'] at e7
    simp at e7
    omega
  · intro x hx
    obtain ⟨r, hr, rfl⟩ := List.mem_map.1 hx
    exact ⟨q3 r (e3.subset hr), hnum _ hin _ (List.mem_map_of_mem (e3.subset hr))⟩
  · intro a b c x rest hm hx hmiss
    apply hmiss.2
    have hr : indReduce ({ io with mate := mateChosen lo hi (fun clk => steer (draw clk) a b c) } : IndOps (Row n) O F C U P R) N (between s) =
      indReduce io N (between s) := rfl
    obtain ⟨r, hev⟩ := hok ((between s).clock + 1 + 1) false ⟨2, x :: rest⟩
    refine ⟨x, ⟨(x :: rest, r), ?_, by simp⟩, hx⟩
    unfold indNextGen
    rw [hr, e1]
    dsimp only [indVary]
    rw [e6]
    dsimp only
    have hmc : mateChosen lo hi (fun clk => steer (draw clk) a b c) ((between s).clock + 1) p' ps = .ok ⟨2, x :: rest⟩ := by
      unfold mateChosen
      rw [e5]
      dsimp only
      rw [hm]
    rw [hmc]
    dsimp only
    rw [hev]
    split <;> exact List.mem_append_right _ (by simp [evLog])

/-- C100 (IBEA and PBEA). The object made by the constructor from a problem, with a random or LHS design of at least three individuals, is such
an object. -/
theorem c100_indicator_ready_at_start (lo hi : Fin n → ℝ) (hb : ∀ i, lo i ≤ hi i) (io : IndOps (Row n) O F C U P R) (N nc : Nat) (unc : Bool)
    (hev : EvaluatesOK io nc unc) (unit : Nat → Nat → List (Fin n → ℝ)) (hu : ∀ clk k, (unit clk k).length = k)
    (hu1 : ∀ clk k, ∀ u ∈ unit clk k, ∀ i, 0 ≤ u i ∧ u i < 1) (ref0 : P) (prob0 : Q) (interact useSurr : Bool) (nIter nGen total : Nat)
    (s : EA (Row n) O F C U P (List ℝ) Q)
    (hs : indConstruct io (boxDesign lo hi unit) ref0 prob0 interact useSurr nIter nGen total nc N none = .ok s) : ReadyInd N nc unc lo hi s := by
  refine ⟨(indConstruct_spec io N nc unc lo hi hb hev unit hu hu1 ref0 prob0 interact useSurr nIter nGen total s hs).1, ?_⟩
  intro inds hinds x hx
  simp only [indConstruct, boxDesign] at hs
  cases hr : io.evaluate 1 useSurr ⟨2, (scaleDesign lo hi (unit 0 N)).map (fun r i => some (r i))⟩ with
  | error e => rw [hr] at hs; simp [Pop.add] at hs
  | ok r =>
    rw [hr] at hs
    simp only [Pop.add, Pop.new, Except.ok.injEq] at hs
    subst hs
    dsimp only at hinds
    injection hinds with hinds
    subst hinds
    obtain ⟨w, -, rfl⟩ := List.mem_map.1 hx
    exact fun i => ⟨_, rfl⟩

/-! ## Non-vacuity -/

/-- The demo of `Props/IndicatorRun.lean` is made with four individuals and is such an object; the hypotheses of C100 are met. -/
example : ∃ s, indConstruct demoIndRun (boxDesign (fun _ => 0) (fun _ => 1) (fun _ k => List.replicate k (fun _ => 0))) 0 () false false 3 7 0 0 4 none = .ok s ∧
    ReadyInd 4 0 false (fun _ => 0) (fun _ => 1) s ∧ (∀ clk k, LegalDraw 4 2 (demoIndRun.draw clk k)) ∧
    ∀ clk surr b, ∃ r, demoIndRun.evaluate clk surr b = .ok r := by
  have h1 : EvaluatesOK demoIndRun 0 false := by
    intro clk surr b r hr
    simp only [demoIndRun, Except.ok.injEq] at hr
    subst hr
    exact ⟨⟨by simp, by simp, fun _ => rfl, fun h => absurd rfl h, by simp⟩, by simp⟩
  refine ⟨_, rfl, ?_, fun clk k => ⟨rfl, by simp [demoIndRun], by simp [demoIndRun]⟩, fun _ _ _ => ⟨_, rfl⟩⟩
  exact c100_indicator_ready_at_start _ _ (fun _ => by norm_num) demoIndRun 4 0 false h1 (fun _ k => List.replicate k (fun _ => 0)) (by simp) (by
    intro clk k u hu i
    rw [List.eq_of_mem_replicate hu]; norm_num) 0 () false false 3 7 0 _ rfl

/-- C98: a change of the problem where the variable is 2, which is outside the bounds; the points evaluated for the initial population are not there. -/
example : ∃ s, indConstruct demoIndRun (boxDesign (fun _ => 0) (fun _ => 1) (fun _ k => List.replicate k (fun _ => 0))) 0 () false false 3 7 0 0 4 none = .ok s ∧
    AgreeOff (fun x : Row 1 => x 0 = some 2) demoIndRun.evaluate (fun clk surr b => if ∃ x ∈ b.rows, x 0 = some 2 then .error .evaluationError else demoIndRun.evaluate clk surr b) ∧
    (∃ x, Evaluated s x) ∧ ∀ x, Evaluated (indCalls demoIndRun 4 s []) x → ¬ x 0 = some 2 := by
  refine ⟨_, rfl, ?_, ?_, ?_⟩
  · intro clk surr b hb
    dsimp only
    rw [if_neg (by rintro ⟨x, hx, h⟩; exact hb x hx h)]
  · exact ⟨fun _ => some (0 + 0 * (1 - 0)), _, List.mem_singleton_self _, by simp [scaleDesign]⟩
  · rintro x ⟨p, hp, hx⟩
    have hp' := List.mem_singleton.1 hp
    subst hp'
    obtain ⟨r, hr, rfl⟩ := List.mem_map.1 hx
    simp [scaleDesign] at hr
    subst hr
    norm_num

end Verif.Props
