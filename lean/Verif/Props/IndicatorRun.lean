import Verif.Model.IndicatorRun
import Verif.Spec.IndicatorRun
import Verif.Props.Indicator
import Verif.Props.Bounds
import Verif.Props.Recombination
import Mathlib.Analysis.SpecialFunctions.Exp
import Mathlib.Tactic.Linarith

/-!
# C79, C80: elitism of the indicator EAs, whole runs of IBEA and PBEA
-/

namespace Verif.Props
open Verif Verif.Spec
open _root_.Spec (Rec Represents EvalOK newRecs)

variable {n m : Nat} {X O F C U P Q R : Type}

/-! ## C79: dominance and environmental selection -/

theorem indFitness_perm {t : F → F → ℝ} {a : F} {l l' : List F} (h : l.Perm l') : indFitness t a l = indFitness t a l' := by
  unfold indFitness
  rw [(h.map (t a)).sum_eq]

theorem perm_cons_eraseIdx {α : Type} (l : List α) (i : Nat) (a : α) (h : l[i]? = some a) : l.Perm (a :: l.eraseIdx i) := by
  obtain ⟨hi, rfl⟩ := List.getElem?_eq_some_iff.1 h
  exact (List.getElem_cons_eraseIdx_perm hi).symm

/-- A member that dominates another has the larger fitness. -/
theorem fitness_of_dominating (dom : F → F → Prop) (t : F → F → ℝ) (ht : ∀ a b, dom a b → (∀ c, t a c ≤ t b c) ∧ t a b < t b a)
    (l : List F) (i j : Nat) (hij : i ≠ j) (a b : F) (ha : l[i]? = some a) (hb : l[j]? = some b) (hd : dom a b) :
    indFitness t b (l.eraseIdx j) < indFitness t a (l.eraseIdx i) := by
  have p1 := perm_cons_eraseIdx l i a ha
  have hbm : b ∈ l.eraseIdx i := by
    obtain ⟨hj, rfl⟩ := List.getElem?_eq_some_iff.1 hb
    rw [List.mem_eraseIdx_iff_getElem]
    exact ⟨j, hj, fun e => hij e.symm, rfl⟩
  obtain ⟨u, v, huv⟩ := List.append_of_mem hbm
  have p2 : (l.eraseIdx i).Perm (b :: (u ++ v)) := by rw [huv]; exact List.perm_middle
  have p3 : (l.eraseIdx j).Perm (a :: (u ++ v)) := by
    have q1 := (perm_cons_eraseIdx l j b hb).symm.trans (p1.trans (p2.cons a))
    exact (List.perm_cons b).1 (q1.trans (List.Perm.swap b a _))
  rw [indFitness_perm p2, indFitness_perm p3]
  unfold indFitness
  simp only [List.map_cons, List.sum_cons]
  obtain ⟨h1, h2⟩ := ht a b hd
  have h3 : ((u ++ v).map (t a)).sum ≤ ((u ++ v).map (t b)).sum := List.sum_le_sum (fun c _ => h1 c)
  linarith

theorem worst_dominates_nobody (dom : F → F → Prop) (t : F → F → ℝ) (ht : ∀ a b, dom a b → (∀ c, t a c ≤ t b c) ∧ t a b < t b a)
    (l : List F) (w j : Nat) (hw : IsWorst t l w) (hj : w ≠ j) (a b : F) (ha : l[w]? = some a) (hb : l[j]? = some b) : ¬ dom a b := by
  intro hd
  obtain ⟨v, h1, h2, -⟩ := hw
  have e1 : (allFitness t l)[w]? = some (indFitness t a (l.eraseIdx w)) := by simp [allFitness, ha]
  have e2 : (allFitness t l)[j]? = some (indFitness t b (l.eraseIdx j)) := by simp [allFitness, hb]
  rw [e1] at h1
  injection h1 with h1
  have := h2 j _ e2
  have := fitness_of_dominating dom t ht l w j hj a b ha hb hd
  linarith

theorem removesWorst_elitist {α : Type} (dom : F → F → Prop) (t : F → F → ℝ) (ht : ∀ a b, dom a b → (∀ c, t a c ≤ t b c) ∧ t a b < t b a)
    (f : α → F) (k : Nat) (rs rs' : List α) (h : RemovesWorst t f k rs rs') :
    rs'.Sublist rs ∧ ∃ gone, rs.Perm (gone ++ rs') ∧ ∀ x ∈ gone, ∀ y ∈ rs', ¬ dom (f x) (f y) := by
  induction h with
  | zero rs => exact ⟨List.Sublist.refl _, [], List.Perm.refl _, by simp⟩
  | @succ k rs rs' w hlt hw hrest ih =>
    obtain ⟨i1, gone, i2, i3⟩ := ih
    have hw' : rs[w]? = some rs[w] := List.getElem?_eq_getElem hlt
    refine ⟨i1.trans (List.eraseIdx_sublist _ _), rs[w] :: gone, (perm_cons_eraseIdx rs w _ hw').trans (i2.cons _), ?_⟩
    intro x hx y hy
    rcases List.mem_cons.1 hx with rfl | hx
    · have hy' := i1.subset hy
      rw [List.mem_eraseIdx_iff_getElem] at hy'
      obtain ⟨j, hj, hjw, rfl⟩ := hy'
      exact worst_dominates_nobody dom t ht (rs.map f) w j hw (fun e => hjw e.symm) _ _ (by simp [hw']) (by simp [List.getElem?_eq_getElem hj])
    · exact i3 x hx y hy

theorem respects_ibea (dom : F → F → Prop) (I : F → F → ℝ) (hI : RespectsDominance dom I) (kappa : ℝ) (hk : 0 < kappa) :
    ∀ a b, dom a b → (∀ c, ibeaTerm I kappa a c ≤ ibeaTerm I kappa b c) ∧ ibeaTerm I kappa a b < ibeaTerm I kappa b a := by
  intro a b hd
  obtain ⟨h1, h2⟩ := hI a b hd
  unfold ibeaTerm
  refine ⟨fun c => Real.exp_le_exp.2 ?_, Real.exp_lt_exp.2 ?_⟩
  · have := h1 c
    exact div_le_div_of_nonneg_right (by linarith) hk.le
  · exact div_lt_div_of_pos_right (by linarith) hk

theorem respects_pbea (dom : F → F → Prop) (I : F → F → ℝ → P → ℝ → ℝ) (kappa delta minAsf : ℝ) (ref : P)
    (hI : RespectsDominance dom (fun a b => I a b minAsf ref delta)) (hk : 0 < kappa) :
    ∀ a b, dom a b → (∀ c, pbeaTerm I kappa delta minAsf ref a c ≤ pbeaTerm I kappa delta minAsf ref b c) ∧
      pbeaTerm I kappa delta minAsf ref a b < pbeaTerm I kappa delta minAsf ref b a :=
  respects_ibea dom (fun a b => I a b minAsf ref delta) hI kappa hk

/-- C79 (IBEA). For every indicator that respects dominance and every positive scaling: environmental selection returns, the survivors are
members of the population in their order, and no survivor is dominated by an individual that was thrown away. -/
theorem c79_ibea_elitist (io : IndOps X O F C U P R) (popSize : Nat) (hp : 0 < popSize) (dom : F → F → Prop) (I : F → F → ℝ)
    (hI : RespectsDominance dom I) (kappa : ℝ) (hk : 0 < kappa) (hio : ∀ ref objs, io.term ref objs = ibeaTerm I kappa)
    (s : EA X O F C U P (List ℝ) Q) (rs : List (Rec X O F C U)) (h : Represents s.pop rs) (hne : s.pop.individuals ≠ none) :
    ∃ rs' gone, (indReduce io popSize s).1 = .ok () ∧ Represents (indReduce io popSize s).2.pop rs' ∧ rs'.Sublist rs ∧
      rs'.length = min rs.length popSize ∧ rs.Perm (gone ++ rs') ∧ ∀ x ∈ gone, ∀ y ∈ rs', ¬ dom x.f y.f := by
  obtain ⟨rs', h1, h2, h3, h4, -⟩ := c45_environmental_selection io popSize hp s rs h hne
  rw [hio] at h3
  obtain ⟨h5, gone, h6, h7⟩ := removesWorst_elitist dom _ (respects_ibea dom I hI kappa hk) Rec.f _ _ _ h3
  exact ⟨rs', gone, h1, h2, h5, h4, h6, h7⟩

/-- C79 (PBEA). The same if the preference-based indicator, at the values of this generation, respects dominance. -/
theorem c79_pbea_elitist (io : IndOps X O F C U P R) (popSize : Nat) (hp : 0 < popSize) (dom : F → F → Prop) (I : F → F → ℝ → P → ℝ → ℝ)
    (kappa delta : ℝ) (minAsf : P → List O → ℝ) (hI : ∀ v ref, RespectsDominance dom (fun a b => I a b v ref delta)) (hk : 0 < kappa)
    (hio : ∀ ref objs, io.term ref objs = pbeaTerm I kappa delta (minAsf ref objs) ref)
    (s : EA X O F C U P (List ℝ) Q) (rs : List (Rec X O F C U)) (h : Represents s.pop rs) (hne : s.pop.individuals ≠ none) :
    ∃ rs' gone, (indReduce io popSize s).1 = .ok () ∧ Represents (indReduce io popSize s).2.pop rs' ∧ rs'.Sublist rs ∧
      rs'.length = min rs.length popSize ∧ rs.Perm (gone ++ rs') ∧ ∀ x ∈ gone, ∀ y ∈ rs', ¬ dom x.f y.f := by
  obtain ⟨rs', h1, h2, h3, h4, -⟩ := c45_environmental_selection io popSize hp s rs h hne
  rw [hio] at h3
  obtain ⟨h5, gone, h6, h7⟩ := removesWorst_elitist dom _ (respects_pbea dom I kappa delta _ _ (hI _ _) hk) Rec.f _ _ _ h3
  exact ⟨rs', gone, h1, h2, h5, h4, h6, h7⟩

theorem foldr_max_le (l : List ℝ) (c : ℝ) : l.foldr max 0 ≤ c ↔ 0 ≤ c ∧ ∀ x ∈ l, x ≤ c := by
  induction l with
  | nil => simp
  | cons a l ih => simp only [List.foldr_cons, max_le_iff, ih, List.forall_mem_cons]; tauto

theorem additiveEps_le (a b : Fin m → ℝ) (c : ℝ) : additiveEps a b ≤ c ↔ 0 ≤ c ∧ ∀ i, b i - a i ≤ c := by
  unfold additiveEps
  rw [foldr_max_le]
  simp [List.mem_ofFn]

/-- C79. The additive epsilon indicator respects Pareto dominance, so that the theorems above speak about the default IBEA. -/
theorem c79_epsilon_respects_dominance : RespectsDominance ParetoDom (additiveEps (m := m)) := by
  intro a b hd
  obtain ⟨h1, i, h2⟩ := hd
  have hle : ∀ x y : Fin m → ℝ, 0 ≤ additiveEps x y ∧ ∀ i, y i - x i ≤ additiveEps x y := fun x y => (additiveEps_le x y _).1 le_rfl
  constructor
  · intro c
    rw [additiveEps_le]
    refine ⟨(hle a c).1, fun i => ?_⟩
    have := (hle a c).2 i
    have := h1 i
    linarith
  · have e : additiveEps b a ≤ 0 := by
      rw [additiveEps_le]
      exact ⟨le_rfl, fun i => by have := h1 i; linarith⟩
    have := (hle a b).2 i
    linarith

/-! The default IBEA may throw away a non-dominated individual and keep a dominated one. -/

/-- A point in two objectives. -/
def pt (x y : ℝ) : Fin 2 → ℝ := fun i => if i = 0 then x else y

theorem additiveEps_pt (x y x' y' : ℝ) : additiveEps (pt x y) (pt x' y') = max (x' - x) (max (y' - y) 0) := by
  unfold additiveEps
  rw [List.ofFn_succ, List.ofFn_succ, List.ofFn_zero]
  simp [pt]

/-- three points close to each other, one far away, and one that the latter dominates -/
noncomputable def crowd : List (Fin 2 → ℝ) := [pt 0 10, pt (1 / 1000) (9999 / 1000), pt (-1 / 1000) (10001 / 1000), pt 5 0, pt 6 1]

theorem crowd_first : indFitness (ibeaTerm additiveEps (1 / 20)) (pt 0 10) (crowd.eraseIdx 0) < -(19 / 10) := by
  have e1 : ibeaTerm additiveEps (1 / 20) (pt 0 10) (pt (1 / 1000) (9999 / 1000)) = Real.exp (-(1 / 50)) := by
    unfold ibeaTerm; rw [additiveEps_pt]; norm_num
  have e2 : ibeaTerm additiveEps (1 / 20) (pt 0 10) (pt (-1 / 1000) (10001 / 1000)) = Real.exp (-(1 / 50)) := by
    unfold ibeaTerm; rw [additiveEps_pt]; norm_num
  have p3 : 0 < ibeaTerm additiveEps (1 / 20) (pt 0 10) (pt 5 0) := Real.exp_pos _
  have p4 : 0 < ibeaTerm additiveEps (1 / 20) (pt 0 10) (pt 6 1) := Real.exp_pos _
  have hb := Real.add_one_le_exp (-(1 / 50 : ℝ))
  simp only [crowd, List.eraseIdx_zero, List.tail_cons, indFitness, List.map_cons, List.map_nil, List.sum_cons, List.sum_nil, e1, e2]
  linarith

theorem crowd_last : -(3 / 2) < indFitness (ibeaTerm additiveEps (1 / 20)) (pt 6 1) (crowd.eraseIdx 4) := by
  have small : ∀ x : ℝ, 99 ≤ x → Real.exp (-x) ≤ 1 / 100 := by
    intro x hx
    rw [Real.exp_neg]
    have := Real.add_one_le_exp x
    rw [inv_le_comm₀ (Real.exp_pos _) (by norm_num)]
    norm_num
    linarith
  have e1 : ibeaTerm additiveEps (1 / 20) (pt 6 1) (pt 0 10) ≤ 1 / 100 := by
    unfold ibeaTerm; rw [additiveEps_pt]
    have : -max (0 - 6) (max (10 - 1) 0) / (1 / 20) = -(180 : ℝ) := by norm_num
    rw [this]; exact small _ (by norm_num)
  have e2 : ibeaTerm additiveEps (1 / 20) (pt 6 1) (pt (1 / 1000) (9999 / 1000)) ≤ 1 / 100 := by
    unfold ibeaTerm; rw [additiveEps_pt]
    have : -max (1 / 1000 - 6) (max (9999 / 1000 - 1) 0) / (1 / 20) = -(17998 / 100 : ℝ) := by norm_num
    rw [this]; exact small _ (by norm_num)
  have e3 : ibeaTerm additiveEps (1 / 20) (pt 6 1) (pt (-1 / 1000) (10001 / 1000)) ≤ 1 / 100 := by
    unfold ibeaTerm; rw [additiveEps_pt]
    have : -max (-1 / 1000 - 6) (max (10001 / 1000 - 1) 0) / (1 / 20) = -(18002 / 100 : ℝ) := by norm_num
    rw [this]; exact small _ (by norm_num)
  have e4 : ibeaTerm additiveEps (1 / 20) (pt 6 1) (pt 5 0) = 1 := by
    unfold ibeaTerm; rw [additiveEps_pt]; norm_num
  simp only [crowd, List.eraseIdx_cons_succ, List.eraseIdx_zero, List.tail_cons, indFitness, List.map_cons, List.map_nil, List.sum_cons, List.sum_nil, e4]
  linarith

/-- C79, violated: it is not the case that dominated individuals go first.  Five individuals, one of them dominated, four to be kept (default
indicator and scaling): whatever is thrown away is not dominated by anybody, and the dominated individual stays. -/
theorem c79_dominated_first_violated :
    ParetoDom (pt 5 0) (pt 6 1) ∧ (∀ a ∈ crowd, a ≠ pt 6 1 → ∀ b ∈ crowd, ¬ ParetoDom b a) ∧
    ∀ rs', RemovesWorst (ibeaTerm additiveEps (1 / 20)) (fun x : Fin 2 → ℝ => x) 1 crowd rs' → pt 6 1 ∈ rs' ∧ pt 5 0 ∈ rs' := by
  have hdom : ∀ x y x' y' : ℝ, ParetoDom (pt x y) (pt x' y') → x ≤ x' ∧ y ≤ y' ∧ (x < x' ∨ y < y') := by
    rintro x y x' y' ⟨h1, i, h2⟩
    have a := h1 0
    have b := h1 1
    simp only [pt, if_true, one_ne_zero, if_false] at a b
    refine ⟨a, b, ?_⟩
    by_cases hi : i = 0
    · subst hi; left; simpa [pt] using h2
    · right; simpa [pt, hi] using h2
  have hd : ParetoDom (pt 5 0) (pt 6 1) := by
    refine ⟨fun i => ?_, 0, by simp [pt]; norm_num⟩
    by_cases hi : i = 0 <;> simp [pt, hi]; norm_num
  refine ⟨hd, ?_, ?_⟩
  · intro a ha hne b hb h
    simp only [crowd, List.mem_cons, List.not_mem_nil, or_false] at ha hb
    rcases ha with rfl | rfl | rfl | rfl | rfl
    all_goals first | exact hne rfl | skip
    all_goals rcases hb with rfl | rfl | rfl | rfl | rfl
    all_goals
      obtain ⟨h1, h2, h3⟩ := hdom _ _ _ _ h
      first | (exfalso; linarith) | (rcases h3 with h3 | h3 <;> linarith)
  · intro rs' h
    cases h with
    | @succ _ _ _ w hlt hw hrest =>
      cases hrest with
      | zero =>
        obtain ⟨v, h1, h2, -⟩ := hw
        rw [List.map_id'] at h1 h2
        have f0 : (allFitness (ibeaTerm additiveEps (1 / 20)) crowd)[0]? = some (indFitness (ibeaTerm additiveEps (1 / 20)) (pt 0 10) (crowd.eraseIdx 0)) := rfl
        have f4 : (allFitness (ibeaTerm additiveEps (1 / 20)) crowd)[4]? = some (indFitness (ibeaTerm additiveEps (1 / 20)) (pt 6 1) (crowd.eraseIdx 4)) := rfl
        have f3 : (allFitness (ibeaTerm additiveEps (1 / 20)) crowd)[3]? = some (indFitness (ibeaTerm additiveEps (1 / 20)) (pt 5 0) (crowd.eraseIdx 3)) := rfl
        have g0 := crowd_first
        have g4 := crowd_last
        have g3 := fitness_of_dominating ParetoDom _ (respects_ibea ParetoDom _ c79_epsilon_respects_dominance (1 / 20) (by norm_num)) crowd 3 4
          (by norm_num) (pt 5 0) (pt 6 1) rfl rfl hd
        have k0 := h2 0 _ f0
        have hw4 : w ≠ 4 := by
          rintro rfl
          rw [f4] at h1; injection h1 with h1; linarith
        have hw3 : w ≠ 3 := by
          rintro rfl
          rw [f3] at h1; injection h1 with h1; linarith
        have hlt' : w < 5 := hlt
        have hw : w = 0 ∨ w = 1 ∨ w = 2 := by omega
        rcases hw with rfl | rfl | rfl <;> simp [crowd, List.eraseIdx]

/-- Non-vacuity of the violation: one of the five is thrown away. -/
example : ∃ rs', RemovesWorst (ibeaTerm additiveEps (1 / 20)) (fun x : Fin 2 → ℝ => x) 1 crowd rs' := by
  obtain ⟨w, hw⟩ : ∃ w, argminL (allFitness (ibeaTerm additiveEps (1 / 20)) crowd) = .ok w := argminL_total _ (by simp [allFitness, crowd])
  obtain ⟨v, h1, h2, h3⟩ := argminL_spec _ _ hw
  have hlt : w < crowd.length := by
    have := (List.getElem?_eq_some_iff.1 h1).1
    simpa [allFitness] using this
  exact ⟨_, .succ hlt (by rw [List.map_id']; exact ⟨v, h1, h2, h3⟩) (.zero _)⟩

/-! ## C80: whole runs -/

/-- `problem.evaluate` answers with one row per vector, with uncertainties always (`unc`) or never. -/
def EvaluatesOK (io : IndOps X O F C U P R) (nc : Nat) (unc : Bool) : Prop :=
  ∀ clk surr b r, io.evaluate clk surr b = .ok r → EvalOK nc b.rows.length r ∧ (r.uncertainity = none ↔ unc = false)

theorem maskColumns_unc (p : Pop X O F C U) (mask : List Bool) : (p.maskColumns mask).2.uncertainity = none ↔ p.uncertainity = none := by
  unfold Pop.maskColumns
  cases boolIndex mask p.objectives with
  | error e => exact Iff.rfl
  | ok o =>
    dsimp only
    cases boolIndex mask p.fitness with
    | error e => exact Iff.rfl
    | ok f =>
      dsimp only
      cases hu : p.uncertainity with
      | none =>
        dsimp only
        split
        · cases p.constraint with
          | none => simp
          | some cs =>
            dsimp only
            cases boolIndex mask cs <;> simp
        · simp
      | some us =>
        dsimp only
        cases boolIndex mask us with
        | error e => simp [hu]
        | ok us' =>
          dsimp only
          split
          · cases p.constraint with
            | none => simp
            | some cs =>
              dsimp only
              cases boolIndex mask cs <;> simp
          · simp

theorem delete_unc (p : Pop X O F C U) (idx : List Int) : (p.delete idx).2.uncertainity = none ↔ p.uncertainity = none := by
  unfold Pop.delete
  cases p.individuals with
  | none => exact Iff.rfl
  | some inds =>
    dsimp only
    cases resolve inds.length idx with
    | error e => exact Iff.rfl
    | ok ks =>
      dsimp only
      cases boolIndex (setMask (List.replicate inds.length true) ks false) inds with
      | error e => exact Iff.rfl
      | ok inds' => exact maskColumns_unc _ _

theorem envLoop_unc (t : F → F → ℝ) (popSize fuel : Nat) : ∀ (p : Pop X O F C U) (vals : List ℝ),
    (envLoop t popSize fuel p vals).2.1.uncertainity = none ↔ p.uncertainity = none := by
  induction fuel with
  | zero => intro p vals; exact Iff.rfl
  | succ fuel ih =>
    intro p vals
    unfold envLoop
    split
    · exact Iff.rfl
    · split
      · split
        · exact Iff.rfl
        · rename_i w hw
          have hd := delete_unc p [(w : Int)]
          generalize p.delete [(w : Int)] = q at hd
          obtain ⟨q1, q2⟩ := q
          cases q1 with
          | error e => exact hd
          | ok _ => exact (ih _ _).trans hd
      · exact Iff.rfl

/-- The invariant of a run: complete records, all inside the bounds, and one of two numbers of them. -/
structure IndAlive (N nc : Nat) (unc : Bool) (lo hi : Fin n → ℝ) (s : EA (Row n) O F C U P (List ℝ) Q) : Prop where
  rep : ∃ rs, Represents s.pop rs ∧ (rs.length = N ∨ rs.length = N + (N + N % 2)) ∧ ∀ r ∈ rs, InBox lo hi r.x
  inds : s.pop.individuals ≠ none
  dim : s.pop.ndim = 2
  cons : s.pop.nCons = nc
  unc : s.pop.uncertainity = none ↔ unc = false

theorem IndAlive.of_pop {N nc : Nat} {unc : Bool} {lo hi : Fin n → ℝ} {s t : EA (Row n) O F C U P (List ℝ) Q} (h : IndAlive N nc unc lo hi s)
    (e : t.pop = s.pop) : IndAlive N nc unc lo hi t := by
  obtain ⟨a, b, c, d, f⟩ := h
  exact ⟨by rw [e]; exact a, by rw [e]; exact b, by rw [e]; exact c, by rw [e]; exact d, by rw [e]; exact f⟩

/-- A generation keeps the invariant whatever happens; it returns if evaluation does, and then there are `N` survivors and their
offspring. -/
theorem indNextGen_alive (io : IndOps (Row n) O F C U P R) (N nc : Nat) (unc : Bool) (hN : 3 ≤ N) (lo hi : Fin n → ℝ) (hb : ∀ i, lo i ≤ hi i)
    (draw : Nat → MateDraw n) (hmate : io.mate = mateChosen lo hi draw) (hdraw : ∀ clk k, LegalDraw N 2 (io.draw clk k))
    (hev : EvaluatesOK io nc unc) (s : EA (Row n) O F C U P (List ℝ) Q) (h : IndAlive N nc unc lo hi s) :
    IndAlive N nc unc lo hi (indNextGen io N s).2 ∧
    ((∀ clk surr b, ∃ r, io.evaluate clk surr b = .ok r) → (indNextGen io N s).1 = .ok ()) ∧
    ((indNextGen io N s).1 = .ok () → ∃ rs rs' gone off r, Represents s.pop rs ∧
      RemovesWorst (io.term s.vec (rs.map Rec.o)) Rec.f (rs.length - N) rs rs' ∧ rs.Perm (gone ++ rs') ∧ rs'.length = N ∧ off.length = N + N % 2 ∧
      EvalOK nc off.length r ∧ Represents (indNextGen io N s).2.pop (rs' ++ newRecs off r) ∧ (indNextGen io N s).2.fe = s.fe + off.length) := by
  obtain ⟨⟨rs, r1, r2, r3⟩, hne, hdim, hnc, hunc⟩ := h
  have hl : s.pop.fitness.length = rs.length := by rw [r1.fits, List.length_map]
  obtain ⟨p', rs', g1, g2, g3, g4, g5, g6, g7⟩ := envLoop_spec (io.term s.vec s.pop.objectives) N (by omega)
    (s.pop.fitness.length + 1) s.pop rs r1 hne (by omega)
  have g8 := envLoop_unc (io.term s.vec s.pop.objectives) N (s.pop.fitness.length + 1) s.pop (allFitness (io.term s.vec s.pop.objectives) s.pop.fitness)
  rw [g1] at g8
  dsimp only at g8
  have hlen : rs'.length = N := by omega
  obtain ⟨hsub, gone, hperm, -⟩ := removesWorst_elitist (fun _ _ => False) (io.term s.vec s.pop.objectives) (fun _ _ h => h.elim) Rec.f _ _ _ g4
  have hbox' : ∀ r ∈ rs', InBox lo hi r.x := fun r hr => r3 r (hsub.subset hr)
  have hred : ∀ t : EA (Row n) O F C U P (List ℝ) Q, t.pop = p' → IndAlive N nc unc lo hi t := fun t ht =>
    ⟨⟨rs', by rw [ht]; exact g2, .inl hlen, hbox'⟩, by rw [ht]; exact g3, by rw [ht, g7]; exact hdim, by rw [ht, g6]; exact hnc, by rw [ht, g8]; exact hunc⟩
  have hfl : (allFitness (io.term s.vec s.pop.objectives) p'.fitness).length = N := by simp [allFitness, g2.fits, hlen]
  obtain ⟨ps, hps, hpl, hpm⟩ := c46_tournament 2 (by omega) (allFitness (io.term s.vec s.pop.objectives) p'.fitness)
    (by rw [hfl]; omega) (io.draw s.clock) (fun k => by rw [hfl]; exact hdraw _ k)
  rw [hfl] at hpl hpm
  have hin : p'.individuals = some (rs'.map Rec.x) := by
    rcases g2.inds with h1 | ⟨h1, -⟩
    · exact h1
    · exact absurd h1 g3
  have hmem : ∀ k ∈ ps, k < (rs'.map Rec.x).length := by
    intro k hk
    obtain ⟨i, hi⟩ := List.mem_iff_getElem?.1 hk
    have := (hpm i k hi).2.1
    rw [List.length_map]; omega
  obtain ⟨off0, ho1, ho2, -⟩ := c40_sbx_pairs_and_sums 1 30 (draw (s.clock + 1)).shuffle (draw (s.clock + 1)).pairs (rs'.map Rec.x) ps hmem
  obtain ⟨off, hoff, holen⟩ : ∃ off, mateDefault lo hi (draw (s.clock + 1)) (rs'.map Rec.x) (some ps) = .ok off ∧ off.length = N + N % 2 := by
    refine ⟨_, by unfold mateDefault; rw [ho1], ?_⟩
    rw [← hpl, ← ho2]; simp [bpDo]
  have hobox := mateDefault_inBox lo hi hb _ _ _ _ hoff
  have hmo : io.mate (s.clock + 1) p' ps = .ok ⟨2, off⟩ := by
    rw [hmate]; unfold mateChosen; rw [hin]; dsimp only; rw [hoff]
  unfold indNextGen indReduce
  dsimp only
  rw [fitnessAssign_eq, g1]
  dsimp only [indVary]
  rw [hps]
  dsimp only
  rw [hmo]
  dsimp only
  cases hr : io.evaluate (s.clock + 1 + 1) false ⟨2, off⟩ with
  | error e =>
    have ha : p'.add ⟨2, off⟩ (.error e : Except Err (Results O F C U)) = (.error e, p') := rfl
    rw [ha]
    refine ⟨hred _ rfl, ?_, by simp⟩
    intro hall
    obtain ⟨r, hr'⟩ := hall (s.clock + 1 + 1) false ⟨2, off⟩
    rw [hr] at hr'; cases hr'
  | ok r =>
    obtain ⟨e1, e2⟩ := hev _ _ _ _ hr
    have hadd := add_spec (d := 2) g2 ⟨2, off⟩ r (by rw [g6, hnc]; exact e1) (fun _ => by rw [g7]; exact hdim) (.inl rfl)
    obtain ⟨a1, a2, a3, a4, a5⟩ := hadd
    obtain ⟨a6, a7⟩ := a5 (by
      cases unc with
      | false => exact .inr (.inl (e2.2 rfl))
      | true =>
        refine .inr (.inr ?_)
        intro hn
        have := hunc.1 (g8.1 hn)
        simp at this)
    obtain ⟨px, -⟩ := newRecs_proj off r e1
    generalize p'.add ⟨2, off⟩ (.ok r) = a at a1 a2 a3 a4 a6 a7
    obtain ⟨b1, b2⟩ := a
    dsimp only at a1 a2 a3 a4 a6 a7
    subst a6
    dsimp only
    have hnl : (newRecs off r).length = off.length := by rw [← List.length_map (f := Rec.x), px]
    refine ⟨⟨⟨_, a1, .inr ?_, ?_⟩, a4, a3, by rw [a2, g6]; exact hnc, by rw [a7]; exact e2⟩, fun _ => rfl, fun _ => ?_⟩
    · rw [List.length_append, hlen, hnl, holen]
    · intro x hx
      rcases List.mem_append.1 hx with hx | hx
      · exact hbox' x hx
      · exact hobox _ (by rw [← px]; exact List.mem_map_of_mem hx)
    · rw [r1.objs] at g4
      exact ⟨rs, rs', gone, off, r, r1, g4, hperm, hlen, holen, e1, a1, rfl⟩

theorem loop_alive (io : IndOps (Row n) O F C U P R) (N nc : Nat) (unc : Bool) (hN : 3 ≤ N) (lo hi : Fin n → ℝ) (hb : ∀ i, lo i ≤ hi i)
    (draw : Nat → MateDraw n) (hmate : io.mate = mateChosen lo hi draw) (hdraw : ∀ clk k, LegalDraw N 2 (io.draw clk k))
    (hev : EvaluatesOK io nc unc) (fuel : Nat) : ∀ s : EA (Row n) O F C U P (List ℝ) Q, IndAlive N nc unc lo hi s →
    IndAlive N nc unc lo hi (EA.loop (indNextGen io N) fuel s).2 ∧
    ((∀ clk surr b, ∃ r, io.evaluate clk surr b = .ok r) → (EA.loop (indNextGen io N) fuel s).1 = .ok ()) := by
  induction fuel with
  | zero => exact fun s h => ⟨h, fun _ => rfl⟩
  | succ fuel ih =>
    intro s h
    obtain ⟨h1, h2, -⟩ := indNextGen_alive io N nc unc hN lo hi hb draw hmate hdraw hev s h
    unfold EA.loop
    split
    · generalize indNextGen io N s = r at h1 h2
      obtain ⟨r, t⟩ := r
      cases r with
      | error e => exact ⟨h1, fun hall => h2 hall⟩
      | ok _ => exact ih t h1
    · exact ⟨h, fun _ => rfl⟩

theorem indManage_pop (io : IndOps X O F C U P R) (s : EA X O F C U P (List ℝ) Q) (pref : Option (Pref R)) : (indManage io s pref).2.pop = s.pop := by
  unfold indManage
  split
  · rfl
  · split
    · rfl
    · split
      · rfl
      · split
        · rfl
        · split <;> rfl

theorem indRequest_pop (io : IndOps X O F C U P R) (s : EA X O F C U P (List ℝ) Q) : (indRequest io s).2.pop = s.pop := by
  unfold indRequest
  split <;> rfl

theorem indCall_alive (io : IndOps (Row n) O F C U P R) (N nc : Nat) (unc : Bool) (hN : 3 ≤ N) (lo hi : Fin n → ℝ) (hb : ∀ i, lo i ≤ hi i)
    (draw : Nat → MateDraw n) (hmate : io.mate = mateChosen lo hi draw) (hdraw : ∀ clk k, LegalDraw N 2 (io.draw clk k))
    (hev : EvaluatesOK io nc unc) (s : EA (Row n) O F C U P (List ℝ) Q) (h : IndAlive N nc unc lo hi s) (c : IndCall R) :
    IndAlive N nc unc lo hi (indCall io N s c) := by
  cases c with
  | requests => exact h.of_pop (indRequest_pop io s)
  | start =>
    show IndAlive N nc unc lo hi (indStart io s).2
    unfold indStart
    split
    · exact h
    · exact h.of_pop (indRequest_pop io s)
  | iterate pref =>
    show IndAlive N nc unc lo hi (indIterate io N s pref).2
    unfold indIterate indIterateWith
    have hm := indManage_pop io s pref
    generalize indManage io s pref = q at hm
    obtain ⟨q1, q2⟩ := q
    dsimp only at hm
    cases q1 with
    | error e => exact h.of_pop hm
    | ok _ =>
      dsimp only
      obtain ⟨l1, -⟩ := loop_alive io N nc unc hN lo hi hb draw hmate hdraw hev q2.cfg.nGen { q2 with genIter := 0 } (h.of_pop hm)
      generalize EA.loop (indNextGen io N) q2.cfg.nGen { q2 with genIter := 0 } = w at l1
      obtain ⟨w1, w2⟩ := w
      cases w1 with
      | error e => exact l1
      | ok _ =>
        refine IndAlive.of_pop l1 ?_
        dsimp only
        rw [indRequest_pop]

theorem indCalls_alive (io : IndOps (Row n) O F C U P R) (N nc : Nat) (unc : Bool) (hN : 3 ≤ N) (lo hi : Fin n → ℝ) (hb : ∀ i, lo i ≤ hi i)
    (draw : Nat → MateDraw n) (hmate : io.mate = mateChosen lo hi draw) (hdraw : ∀ clk k, LegalDraw N 2 (io.draw clk k))
    (hev : EvaluatesOK io nc unc) (cs : List (IndCall R)) : ∀ s : EA (Row n) O F C U P (List ℝ) Q, IndAlive N nc unc lo hi s →
    IndAlive N nc unc lo hi (indCalls io N s cs) := by
  induction cs with
  | nil => exact fun s h => h
  | cons c cs ih => exact fun s h => ih _ (indCall_alive io N nc unc hN lo hi hb draw hmate hdraw hev s h c)

/-- The constructed object: as many records as asked for, all inside the bounds. -/
theorem indConstruct_spec (io : IndOps (Row n) O F C U P R) (N nc : Nat) (unc : Bool) (lo hi : Fin n → ℝ) (hb : ∀ i, lo i ≤ hi i)
    (hev : EvaluatesOK io nc unc) (unit : Nat → Nat → List (Fin n → ℝ)) (hu : ∀ clk k, (unit clk k).length = k)
    (hu1 : ∀ clk k, ∀ u ∈ unit clk k, ∀ i, 0 ≤ u i ∧ u i < 1) (ref0 : P) (prob0 : Q) (interact useSurr : Bool) (nIter nGen total : Nat)
    (s : EA (Row n) O F C U P (List ℝ) Q)
    (hs : indConstruct io (boxDesign lo hi unit) ref0 prob0 interact useSurr nIter nGen total nc N none = .ok s) :
    IndAlive N nc unc lo hi s ∧ (∃ rs, Represents s.pop rs ∧ rs.length = N) ∧ s.cfg.interact = interact ∧ s.cfg.nGen = nGen ∧ s.cfg.total = total := by
  have hbox := boxDesign_inBox lo hi hb unit hu1 0 N _ rfl
  have hlen : ((scaleDesign lo hi (unit 0 N)).map (fun r i => some (r i)) : List (Row n)).length = N := by simp [scaleDesign, hu]
  simp only [indConstruct, boxDesign] at hs
  dsimp only at hbox
  generalize ((scaleDesign lo hi (unit 0 N)).map (fun r i => some (r i)) : List (Row n)) = rows at hs hbox hlen
  cases hr : io.evaluate 1 useSurr ⟨2, rows⟩ with
  | error e => rw [hr] at hs; simp [Pop.add] at hs
  | ok r =>
    rw [hr] at hs
    obtain ⟨e1, e2⟩ := hev _ _ _ _ hr
    obtain ⟨a1, a2, a3, a4, a5⟩ := add_spec (d := 2) (represents_new nc : Represents (Pop.new nc : Pop (Row n) O F C U) []) ⟨2, rows⟩ r e1
      (fun h => absurd rfl h) (.inl rfl)
    obtain ⟨a6, a7⟩ := a5 (.inl rfl)
    obtain ⟨px, -⟩ := newRecs_proj rows r e1
    generalize (Pop.new nc : Pop (Row n) O F C U).add ⟨2, rows⟩ (.ok r) = a at a1 a2 a3 a4 a6 a7 hs
    obtain ⟨b1, b2⟩ := a
    dsimp only at a1 a2 a3 a4 a6 a7
    subst a6
    dsimp only at hs
    injection hs with hs
    subst hs
    have hnl : (newRecs rows r).length = N := by rw [← List.length_map (f := Rec.x), px, hlen]
    rw [List.nil_append] at a1
    refine ⟨⟨⟨_, a1, .inl hnl, ?_⟩, a4, a3, a2, by rw [a7]; exact e2⟩, ⟨_, a1, hnl⟩, rfl, rfl, rfl⟩
    intro x hx
    exact hbox _ (by rw [← px]; exact List.mem_map_of_mem hx)

/-- C80. After the constructor and any history of calls, successful or not, the population of IBEA or PBEA with `population_size` at least
three consists of complete records inside the bounds; there are `N` of them or `N + N + N % 2`. -/
theorem c80_population (io : IndOps (Row n) O F C U P R) (N nc : Nat) (unc : Bool) (hN : 3 ≤ N) (lo hi : Fin n → ℝ) (hb : ∀ i, lo i ≤ hi i)
    (draw : Nat → MateDraw n) (hmate : io.mate = mateChosen lo hi draw) (hdraw : ∀ clk k, LegalDraw N 2 (io.draw clk k))
    (hev : EvaluatesOK io nc unc) (unit : Nat → Nat → List (Fin n → ℝ)) (hu : ∀ clk k, (unit clk k).length = k)
    (hu1 : ∀ clk k, ∀ u ∈ unit clk k, ∀ i, 0 ≤ u i ∧ u i < 1) (ref0 : P) (prob0 : Q) (interact useSurr : Bool) (nIter nGen total : Nat)
    (s : EA (Row n) O F C U P (List ℝ) Q)
    (hs : indConstruct io (boxDesign lo hi unit) ref0 prob0 interact useSurr nIter nGen total nc N none = .ok s) (cs : List (IndCall R)) :
    ∃ rs, Represents (indCalls io N s cs).pop rs ∧ (rs.length = N ∨ rs.length = N + (N + N % 2)) ∧ ∀ r ∈ rs, InBox lo hi r.x :=
  (indCalls_alive io N nc unc hN lo hi hb draw hmate hdraw hev cs s
    (indConstruct_spec io N nc unc lo hi hb hev unit hu hu1 ref0 prob0 interact useSurr nIter nGen total s hs).1).rep

/-- C80. A generation at any point of any history that returns: exactly `N` individuals survive, chosen by removing the worst one at a time,
their `N + N % 2` evaluated offspring are appended, and that number is counted. -/
theorem c80_generation (io : IndOps (Row n) O F C U P R) (N nc : Nat) (unc : Bool) (hN : 3 ≤ N) (lo hi : Fin n → ℝ) (hb : ∀ i, lo i ≤ hi i)
    (draw : Nat → MateDraw n) (hmate : io.mate = mateChosen lo hi draw) (hdraw : ∀ clk k, LegalDraw N 2 (io.draw clk k))
    (hev : EvaluatesOK io nc unc) (unit : Nat → Nat → List (Fin n → ℝ)) (hu : ∀ clk k, (unit clk k).length = k)
    (hu1 : ∀ clk k, ∀ u ∈ unit clk k, ∀ i, 0 ≤ u i ∧ u i < 1) (ref0 : P) (prob0 : Q) (interact useSurr : Bool) (nIter nGen total : Nat)
    (s : EA (Row n) O F C U P (List ℝ) Q)
    (hs : indConstruct io (boxDesign lo hi unit) ref0 prob0 interact useSurr nIter nGen total nc N none = .ok s) (cs : List (IndCall R))
    (t : EA (Row n) O F C U P (List ℝ) Q) (ht : indNextGen io N (indCalls io N s cs) = (.ok (), t)) :
    ∃ rs rs' gone off r, Represents (indCalls io N s cs).pop rs ∧
      RemovesWorst (io.term (indCalls io N s cs).vec (rs.map Rec.o)) Rec.f (rs.length - N) rs rs' ∧ rs.Perm (gone ++ rs') ∧
      rs'.length = N ∧ off.length = N + N % 2 ∧ EvalOK nc off.length r ∧ Represents t.pop (rs' ++ newRecs off r) ∧
      t.fe = (indCalls io N s cs).fe + (N + N % 2) := by
  have ha := indCalls_alive io N nc unc hN lo hi hb draw hmate hdraw hev cs s
    (indConstruct_spec io N nc unc lo hi hb hev unit hu hu1 ref0 prob0 interact useSurr nIter nGen total s hs).1
  obtain ⟨-, -, h3⟩ := indNextGen_alive io N nc unc hN lo hi hb draw hmate hdraw hev _ ha
  rw [ht] at h3
  obtain ⟨rs, rs', gone, off, r, k1, k2, k3, k4, k5, k6, k7, k8⟩ := h3 rfl
  exact ⟨rs, rs', gone, off, r, k1, k2, k3, k4, k5, k6, k7, by rw [← k5]; exact k8⟩

theorem indCalls_interact (io : IndOps X O F C U P R) (N : Nat) (cs : List (IndCall R)) : ∀ s : EA X O F C U P (List ℝ) Q,
    (indCalls io N s cs).cfg.interact = s.cfg.interact := by
  have hr : ∀ s : EA X O F C U P (List ℝ) Q, (indRequest io s).2.cfg.interact = s.cfg.interact := by
    intro s; unfold indRequest; split <;> rfl
  have hm : ∀ (s : EA X O F C U P (List ℝ) Q) (pref : Option (Pref R)), (indManage io s pref).2.cfg.interact = s.cfg.interact := by
    intro s pref
    unfold indManage
    split
    · rfl
    · split
      · rfl
      · split
        · rfl
        · split
          · rfl
          · split <;> rfl
  have key : ∀ (c : IndCall R) (s : EA X O F C U P (List ℝ) Q), (indCall io N s c).cfg.interact = s.cfg.interact := by
    intro c s
    cases c with
    | requests => exact hr s
    | start =>
      show (indStart io s).2.cfg.interact = _
      unfold indStart
      split
      · rfl
      · exact hr s
    | iterate pref =>
      show (indIterate io N s pref).2.cfg.interact = _
      unfold indIterate indIterateWith
      have h1 := hm s pref
      generalize indManage io s pref = q at h1
      obtain ⟨q1, q2⟩ := q
      dsimp only at h1
      cases q1 with
      | error e => exact h1
      | ok _ =>
        dsimp only
        have h2 := (loop_frame (indNextGen_frame io N) q2.cfg.nGen { q2 with genIter := 0 }).1
        generalize EA.loop (indNextGen io N) q2.cfg.nGen { q2 with genIter := 0 } = w at h2
        obtain ⟨w1, w2⟩ := w
        dsimp only at h2
        cases w1 with
        | error e => dsimp only; rw [h2]; exact h1
        | ok _ =>
          dsimp only
          rw [hr]
          dsimp only
          rw [h2]
          exact h1
  induction cs with
  | nil => exact fun s => rfl
  | cons c cs ih => exact fun s => (ih (indCall io N s c)).trans (key c s)

theorem indIterate_returns (io : IndOps (Row n) O F C U P R) (N nc : Nat) (unc : Bool) (hN : 3 ≤ N) (lo hi : Fin n → ℝ) (hb : ∀ i, lo i ≤ hi i)
    (draw : Nat → MateDraw n) (hmate : io.mate = mateChosen lo hi draw) (hdraw : ∀ clk k, LegalDraw N 2 (io.draw clk k))
    (hev : EvaluatesOK io nc unc) (hall : ∀ clk surr b, ∃ r, io.evaluate clk surr b = .ok r) (s : EA (Row n) O F C U P (List ℝ) Q)
    (h : IndAlive N nc unc lo hi s) (pref : Option (Pref R)) (s' : EA (Row n) O F C U P (List ℝ) Q) (hm : indManage io s pref = (.ok (), s')) :
    ∃ t, Frame s' t ∧ indIterate io N s pref = indRequest io { t with iter := t.iter + 1 } := by
  unfold indIterate indIterateWith
  have hp := indManage_pop io s pref
  rw [hm] at hp ⊢
  dsimp only at hp ⊢
  obtain ⟨-, l2⟩ := loop_alive io N nc unc hN lo hi hb draw hmate hdraw hev s'.cfg.nGen { s' with genIter := 0 } (h.of_pop hp)
  have l3 := loop_frame (indNextGen_frame io N) s'.cfg.nGen { s' with genIter := 0 }
  have l4 := l2 hall
  generalize EA.loop (indNextGen io N) s'.cfg.nGen { s' with genIter := 0 } = w at l3 l4
  obtain ⟨w1, w2⟩ := w
  dsimp only at l3 l4
  subst l4
  exact ⟨w2, l3, rfl⟩

/-- C80. As long as `problem.evaluate` returns, so does `iterate`, at any point of any history: without interaction whatever it is given, and
with interaction if it is given an answer to the last request, in which case it returns the next request. -/
theorem c80_iterate_returns (io : IndOps (Row n) O F C U P R) (N nc : Nat) (unc : Bool) (hN : 3 ≤ N) (lo hi : Fin n → ℝ) (hb : ∀ i, lo i ≤ hi i)
    (draw : Nat → MateDraw n) (hmate : io.mate = mateChosen lo hi draw) (hdraw : ∀ clk k, LegalDraw N 2 (io.draw clk k))
    (hev : EvaluatesOK io nc unc) (hall : ∀ clk surr b, ∃ r, io.evaluate clk surr b = .ok r)
    (unit : Nat → Nat → List (Fin n → ℝ)) (hu : ∀ clk k, (unit clk k).length = k)
    (hu1 : ∀ clk k, ∀ u ∈ unit clk k, ∀ i, 0 ≤ u i ∧ u i < 1) (ref0 : P) (prob0 : Q) (interact useSurr : Bool) (nIter nGen total : Nat)
    (s : EA (Row n) O F C U P (List ℝ) Q)
    (hs : indConstruct io (boxDesign lo hi unit) ref0 prob0 interact useSurr nIter nGen total nc N none = .ok s) (cs : List (IndCall R)) :
    (interact = false → ∀ pref, (indIterate io N (indCalls io N s cs) pref).1 = .ok none ∧
      (indIterate io N (indCalls io N s cs) pref).2.iter = (indCalls io N s cs).iter + 1) ∧
    (interact = true → ∀ id x, (indCalls io N s cs).reqId = some id →
      ∃ q t, indIterate io N (indCalls io N s cs) (some ⟨id, .referencePoint, x⟩) = (.ok (some q), t) ∧ q.cls = .referencePoint ∧
        t.reqId = some q.id ∧ t.vec = io.toRef x ∧ t.iter = (indCalls io N s cs).iter + 1) := by
  obtain ⟨h0, -, hi0, -⟩ := indConstruct_spec io N nc unc lo hi hb hev unit hu hu1 ref0 prob0 interact useSurr nIter nGen total s hs
  have ha := indCalls_alive io N nc unc hN lo hi hb draw hmate hdraw hev cs s h0
  have hi1 := (indCalls_interact io N cs s).trans hi0
  generalize indCalls io N s cs = a at ha hi1
  refine ⟨?_, ?_⟩
  · rintro rfl pref
    obtain ⟨t, ⟨f1, f2, -⟩, ht⟩ := indIterate_returns io N nc unc hN lo hi hb draw hmate hdraw hev hall a ha pref a (by simp [indManage, hi1])
    rw [ht]
    simp [indRequest, f1, hi1, f2]
  · rintro rfl id x hid
    obtain ⟨t, ⟨f1, f2, f3, f4, -⟩, ht⟩ := indIterate_returns io N nc unc hN lo hi hb draw hmate hdraw hev hall a ha (some ⟨id, .referencePoint, x⟩) _
      (by simp [indManage, hi1, hid]; rfl)
    rw [ht]
    simp only [indRequest, f1, hi1]
    exact ⟨_, _, rfl, rfl, rfl, f4, congrArg (· + 1) f2⟩

/-- C80, violated below three: with `population_size` one or two every generation, and so every `iterate`, raises ValueError (the tournament
draws two of one, or of no, individuals), and the generation counter stays at zero. -/
theorem c80_small_population_violated (io : IndOps (Row n) O F C U P R) (N nc : Nat) (unc : Bool) (hN : N = 1 ∨ N = 2) (lo hi : Fin n → ℝ)
    (hb : ∀ i, lo i ≤ hi i) (hev : EvaluatesOK io nc unc) (unit : Nat → Nat → List (Fin n → ℝ)) (hu : ∀ clk k, (unit clk k).length = k)
    (hu1 : ∀ clk k, ∀ u ∈ unit clk k, ∀ i, 0 ≤ u i ∧ u i < 1) (ref0 : P) (prob0 : Q) (useSurr : Bool) (nIter nGen : Nat) (hg : 1 ≤ nGen)
    (s : EA (Row n) O F C U P (List ℝ) Q)
    (hs : indConstruct io (boxDesign lo hi unit) ref0 prob0 false useSurr nIter nGen 0 nc N none = .ok s) (prefs : List (Option (Pref R)))
    (pref : Option (Pref R)) :
    (indIterate io N (indCalls io N s (prefs.map IndCall.iterate)) pref).1 = .error .valueError ∧
    (indCalls io N s (prefs.map IndCall.iterate)).gen = 0 := by
  obtain ⟨h0, ⟨rs, hr, hl⟩, c1, c2, c3⟩ := indConstruct_spec io N nc unc lo hi hb hev unit hu hu1 ref0 prob0 false useSurr nIter nGen 0 s hs
  have hg0 : s.gen = 0 := by
    simp only [indConstruct, boxDesign] at hs
    split at hs
    · simp at hs
    · injection hs with hs; subst hs; rfl
  have key : ∀ a : EA (Row n) O F C U P (List ℝ) Q, (a.pop = s.pop ∧ a.cfg = s.cfg ∧ a.gen = 0) → ∀ pref,
      (indIterate io N a pref).1 = .error .valueError ∧
      ((indIterate io N a pref).2.pop = s.pop ∧ (indIterate io N a pref).2.cfg = s.cfg ∧ (indIterate io N a pref).2.gen = 0) := by
    intro a ⟨e1, e2, e3⟩ pref
    have hfl : a.pop.fitness.length = N := by rw [e1, hr.fits, List.length_map, hl]
    have hie : indManage io a pref = (.ok (), a) := by simp [indManage, e2, c1]
    obtain ⟨k, hk⟩ : ∃ k, nGen = k + 1 := ⟨nGen - 1, by omega⟩
    have hx : ∀ (t : F → F → ℝ) (vals : List ℝ), envLoop t N (a.pop.fitness.length + 1) a.pop vals = (.ok (), a.pop, vals) := by
      intro t vals
      unfold envLoop
      have hin : a.pop.individuals = some (rs.map Rec.x) := by
        rw [e1]
        rcases hr.inds with h1 | ⟨h1, -⟩
        · exact h1
        · exact absurd h1 h0.inds
      rw [hin]
      simp [hl]
    have hng : ∀ b : EA (Row n) O F C U P (List ℝ) Q, b.pop = a.pop → ∃ c, indNextGen io N b = (.error .valueError, c) ∧ c.pop = a.pop ∧ c.cfg = b.cfg ∧ c.gen = b.gen := by
      intro b hbp
      unfold indNextGen indReduce
      dsimp only
      rw [hbp, hx]
      dsimp only [indVary]
      rw [c46_too_few_raises 2 _ (by rw [fitnessAssign_eq]; intro e; have := congrArg List.length e; simp [allFitness] at this; rw [this] at hfl; simp at hfl; omega)
        (by rw [fitnessAssign_eq]; simp [allFitness, hfl]; omega)]
      exact ⟨_, rfl, rfl, rfl, rfl⟩
    obtain ⟨c, hc, p1, p2, p3⟩ := hng { a with genIter := 0 } rfl
    unfold indIterate indIterateWith
    rw [hie]
    dsimp only
    have hk' : a.cfg.nGen = k + 1 := by rw [e2, c2, hk]
    rw [hk']
    unfold EA.loop
    have hcont : ({ a with genIter := 0 } : EA (Row n) O F C U P (List ℝ) Q).continueIteration = true := by
      simp [EA.continueIteration, EA.checkFE, e2, c2, c3, hk]
    rw [if_pos hcont, hc]
    dsimp only
    exact ⟨rfl, p1.trans e1, p2.trans e2, p3.trans e3⟩
  have hist : ∀ (prefs : List (Option (Pref R))) (a : EA (Row n) O F C U P (List ℝ) Q), (a.pop = s.pop ∧ a.cfg = s.cfg ∧ a.gen = 0) →
      (fun a : EA (Row n) O F C U P (List ℝ) Q => a.pop = s.pop ∧ a.cfg = s.cfg ∧ a.gen = 0) (indCalls io N a (prefs.map IndCall.iterate)) := by
    intro prefs
    induction prefs with
    | nil => exact fun a h => h
    | cons p ps ih => exact fun a h => ih _ (key a h p).2
  have := hist prefs s ⟨rfl, rfl, hg0⟩
  exact ⟨(key _ this pref).1, this.2.2⟩

/-- A one-variable problem with one objective, four individuals: the hypotheses of the theorems above can be met. -/
noncomputable def demoIndRun : IndOps (Row 1) ℝ (Fin 2 → ℝ) Nat Nat Nat Nat where
  term := fun _ _ => ibeaTerm additiveEps (1 / 20)
  draw := fun _ _ => [0, 1]
  mate := mateChosen (fun _ => 0) (fun _ => 1) (fun _ => ⟨id, fun _ => ⟨fun _ => 0, fun _ => false, fun _ => 0⟩, fun _ _ => 0, fun _ _ => 0⟩)
  evaluate := fun _ _ b => .ok ⟨b.rows.map (fun _ => 0), b.rows.map (fun _ => pt 0 0), none, none⟩
  newId := fun c => c
  toRef := fun r => r

/-- Non-vacuity: the demo meets the hypotheses, its constructor returns, and an `iterate` of seven generations returns. -/
example : EvaluatesOK demoIndRun 0 false ∧ (∀ clk k, LegalDraw 4 2 (demoIndRun.draw clk k)) ∧
    ∃ s, indConstruct demoIndRun (boxDesign (fun _ => 0) (fun _ => 1) (fun _ k => List.replicate k (fun _ => 0))) 0 () false false 3 7 0 0 4 none = .ok s ∧
      (indIterate demoIndRun 4 s none).1 = .ok none := by
  have h1 : EvaluatesOK demoIndRun 0 false := by
    intro clk surr b r hr
    simp only [demoIndRun, Except.ok.injEq] at hr
    subst hr
    exact ⟨⟨by simp, by simp, fun _ => rfl, fun h => absurd rfl h, by simp⟩, by simp⟩
  have h2 : ∀ clk k, LegalDraw 4 2 (demoIndRun.draw clk k) := fun clk k => ⟨rfl, by simp [demoIndRun], by simp [demoIndRun]⟩
  refine ⟨h1, h2, _, rfl, ?_⟩
  exact ((c80_iterate_returns demoIndRun 4 0 false (by omega) (fun _ => 0) (fun _ => 1) (fun _ => by norm_num) _ rfl h2 h1 (fun _ _ _ => ⟨_, rfl⟩)
    (fun _ k => List.replicate k (fun _ => 0)) (by simp) (by
      intro clk k u hu i
      rw [List.eq_of_mem_replicate hu]; norm_num) 0 () false false 3 7 0 _ rfl []).1 rfl none).1

end Verif.Props
