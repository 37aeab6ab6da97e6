import Verif.Spec.LeastSquares
import Verif.Props.Training
import Mathlib.Analysis.InnerProductSpace.PiL2
import Mathlib.Data.List.GetD
import Mathlib.Analysis.InnerProductSpace.Projection.Minimal

/-!
# C85, continued: the upper layer of a trained network is optimal
-/

open scoped BigOperators

namespace Verif.Props
open Verif Verif.Spec

/-! ## Least squares solutions exist -/

theorem dotList_eq (row w : List ℝ) (k : Nat) (h1 : row.length = k) (h2 : w.length = k) :
    dotList row w = ∑ i : Fin k, row.getD i 0 * w.getD i 0 := by
  unfold dotList
  subst h1
  rw [← List.sum_ofFn]
  congr 1
  apply List.ext_getElem
  · simp [h2]
  · intro i g1 g2
    simp only [List.length_zipWith, h2, min_self] at g1
    simp [g1, h2]

theorem sqErr_eq (f : List ℝ → ℝ) (A : List (List ℝ)) (y : List ℝ) (h : A.length = y.length) :
    sqErr (A.map f) y = ∑ i : Fin y.length, (f (A.getD i []) - y.getD i 0) ^ 2 := by
  unfold sqErr
  rw [← List.sum_ofFn]
  congr 1
  apply List.ext_getElem
  · simp [h]
  · intro i g1 g2
    simp only [List.length_zipWith, List.length_map, h, min_self] at g1
    simp [g1, h]

theorem least_squares_exists (k : Nat) (A : List (List ℝ)) (y : List ℝ) (h : A.length = y.length) (hA : ∀ row ∈ A, row.length = k) :
    ∃ w : List ℝ, w.length = k ∧ ∀ w' : List ℝ, w'.length = k → sqErr (A.map (fun row => dotList row w)) y ≤ sqErr (A.map (fun row => dotList row w')) y := by
  let n := y.length
  let L : (Fin k → ℝ) →ₗ[ℝ] EuclideanSpace ℝ (Fin n) :=
    (WithLp.linearEquiv 2 ℝ (Fin n → ℝ)).symm.toLinearMap ∘ₗ Matrix.mulVecLin (Matrix.of (fun (i : Fin n) (j : Fin k) => (A.getD i []).getD j 0))
  let Y : EuclideanSpace ℝ (Fin n) := WithLp.toLp 2 (fun i => y.getD i 0)
  obtain ⟨v, hv, hmin⟩ := Submodule.exists_norm_eq_iInf_of_complete_subspace (LinearMap.range L) (Submodule.complete_of_finiteDimensional _) Y
  obtain ⟨w0, rfl⟩ := hv
  have key : ∀ w : List ℝ, w.length = k → sqErr (A.map (fun row => dotList row w)) y = ‖Y - L (fun j => w.getD j 0)‖ ^ 2 := by
    intro w hw
    rw [sqErr_eq _ _ _ h, EuclideanSpace.norm_sq_eq]
    refine Finset.sum_congr rfl (fun i _ => ?_)
    have hi : i.val < A.length := by rw [h]; exact i.2
    have hl : (A.getD i.val []).length = k := by
      rw [List.getD_eq_getElem _ _ hi]; exact hA _ (List.getElem_mem hi)
    rw [dotList_eq _ w k hl hw]
    have : (Y - L (fun j => w.getD j 0)).ofLp i = y.getD i 0 - ∑ j : Fin k, (A.getD i []).getD j 0 * w.getD j 0 := by
      simp [Y, L, Matrix.mulVec, dotProduct]
      rw [List.getElem?_eq_getElem i.2]; rfl
    rw [this, Real.norm_eq_abs, sq_abs]
    ring
  refine ⟨List.ofFn w0, by simp, fun w' hw' => ?_⟩
  rw [key _ (by simp), key w' hw']
  have e0 : (fun j : Fin k => (List.ofFn w0).getD j 0) = w0 := by
    funext j
    rw [List.getD_eq_getElem _ _ (by simp), List.getElem_ofFn]
  rw [e0]
  have hle : ‖Y - L w0‖ ≤ ‖Y - L (fun j => w'.getD j 0)‖ := by
    rw [hmin]
    exact ciInf_le ⟨0, by rintro _ ⟨x, rfl⟩; exact norm_nonneg _⟩ (⟨L (fun j => w'.getD j 0), ⟨_, rfl⟩⟩ : LinearMap.range L)
  exact pow_le_pow_left₀ (norm_nonneg _) hle 2

/-- C85: the contract of `np.linalg.lstsq` can be met: every least squares problem has a solution. -/
theorem c85_least_squares_solvable : ∃ solve, SolvesLeastSquares solve := by
  classical
  refine ⟨fun A y => if h : A.length = y.length ∧ ∀ row ∈ A, row.length = (A.headD []).length then
    (least_squares_exists _ A y h.1 h.2).choose else [], fun k A y hne h hA => ?_⟩
  have hk : (A.headD []).length = k := by
    cases A with
    | nil => exact absurd rfl hne
    | cons a A => exact hA a List.mem_cons_self
  have h' : A.length = y.length ∧ ∀ row ∈ A, row.length = (A.headD []).length := ⟨h, fun row hr => by rw [hk]; exact hA row hr⟩
  simp only [dif_pos h']
  have hs := (least_squares_exists _ A y h'.1 h'.2).choose_spec
  exact ⟨hs.1.trans hk, fun w hw => hs.2 w (hw.trans hk.symm)⟩

theorem mapM_of_ok {α β : Type} (f : α → Except Err β) (g : α → β) (l : List α) (h : ∀ x ∈ l, f x = .ok (g x)) : l.mapM f = .ok (l.map g) := by
  induction l with
  | nil => rfl
  | cons a l ih =>
    rw [List.mapM_cons, h a List.mem_cons_self, ih (fun x hx => h x (List.mem_cons_of_mem _ hx))]
    rfl

/-! ## EvoNN -/

section nn
variable {r c : Nat}

theorem dotList_ofFn (h : Fin c → ℝ) (l : Fin (c + 1) → ℝ) : dotList (List.ofFn (Fin.cons 1 h : Fin (c + 1) → ℝ)) (List.ofFn l) = nnOutput l h := by
  rw [dotList_eq _ _ (c + 1) (by simp) (by simp), Fin.sum_univ_succ]
  unfold nnOutput
  have e : ∀ (f : Fin (c + 1) → ℝ) (i : Fin (c + 1)), (List.ofFn f).getD i.val 0 = f i := by
    intro f i
    rw [List.getD_eq_getElem _ _ (by rw [List.length_ofFn]; exact i.2), List.getElem_ofFn]
  simp only [e, Fin.cons_zero, Fin.cons_succ, one_mul]
  rw [add_comm]

/-- C85. If `np.linalg.lstsq` keeps its promise, then after a fit of EvoNN that returned, no other upper layer on the hidden nodes of the stored network has
a smaller sum of squared errors on the training data. -/
theorem c85_evonn_upper_layer_optimal (d : NNData r c) (crit : Criterion) (mt : MutType) (popSize : Nat) (u : Nat → Fin r → Fin c → ℝ)
    (zero : Nat → Fin (r + 1) → Fin c → Bool) (draw : Nat → Nat → NNDraw (r + 1) c ℝ) (e : EvolveRand) (s s' : NNReg r c)
    (solve : List (List ℝ) → List ℝ → List ℝ) (hsolve : SolvesLeastSquares solve)
    (hlstsq : ∀ A y, List.ofFn (d.lstsq A y) = solve (A.map List.ofFn) y)
    (h : nnFit d crit mt popSize u zero draw e s = (.ok (), s')) :
    ∃ (act : ℝ → ℝ) (predictions : List ℝ), d.act = some act ∧ d.X.mapM (nnPredictAt act s') = .ok predictions ∧
      ∀ (other : Fin (c + 1) → ℝ) (predictions' : List ℝ), d.X.mapM (nnPredictAt act { s' with last := some other }) = .ok predictions' →
        sqErr predictions d.y ≤ sqErr predictions' d.y := by
  rcases nnFit_cases d crit mt popSize u zero draw e s with ⟨err, he⟩ | ⟨act, p, ha, hl, hb, ho, he⟩
  · rw [he] at h; simp at h
  · rw [he] at h
    rcases nnFinish_cases d act crit p s (by rw [ho]; simp) with ⟨n, rest, hcr, hi, hk, hf⟩ | ⟨-, -, -, hf⟩ | ⟨-, -, hf⟩ | ⟨-, err, s'', hf, -⟩
    · rw [hf] at h
      simp only [Prod.mk.injEq, true_and] at h
      subst h
      have hpred : ∀ l : Fin (c + 1) → ℝ, d.X.mapM (nnPredictAt act ⟨some p, some n, some l, some (nnAICc d act n), true⟩) =
          .ok (d.X.map (fun x => nnOutput l (nnHidden act n x))) := fun l => mapM_of_ok _ _ _ (fun x _ => by simp [nnPredictAt])
      refine ⟨act, _, ha, hpred _, fun other predictions' hp => ?_⟩
      have hp' := (hpred other).symm.trans hp
      cases hp'
      by_cases hX : d.X = []
      · rw [hX]; simp [sqErr]
      · have hS := hsolve (c + 1) ((d.X.map (fun x => (Fin.cons 1 (nnHidden act n x) : Fin (c + 1) → ℝ))).map List.ofFn) d.y
          (by simpa using hX) (by simpa using hl) (by
            intro row hr
            simp only [List.map_map, List.mem_map] at hr
            obtain ⟨x, -, rfl⟩ := hr
            simp)
        have := hS.2 (List.ofFn other) (by simp)
        rw [← hlstsq] at this
        simp only [List.map_map, Function.comp_def, dotList_ofFn] at this
        exact this
    · rw [hf] at h; simp at h
    · rw [hf] at h; simp at h
    · rw [hf] at h; simp at h

end nn

/-! ## EvoDN2 -/

theorem dotList_cons (row last : List ℝ) (h : last.length = row.length + 1) : dotList (1 :: row) last = dnOutput last row := by
  rw [dotList_eq _ _ (row.length + 1) (by simp) h, Fin.sum_univ_succ]
  unfold dnOutput
  have e : (List.range row.length).map (fun k => row.getD k 0 * last.getD (k + 1) 0) = List.ofFn (fun i : Fin row.length => row.getD i 0 * last.getD (i + 1) 0) := by
    apply List.ext_getElem
    · simp
    · intro i g1 g2; rw [List.getElem_map, List.getElem_range, List.getElem_ofFn]
  rw [e, List.sum_ofFn, add_comm]
  simp

theorem subnetOut_width (act : ℝ → ℝ) (ls : List (Layer ℝ)) : ∀ feed o : List ℝ, subnetOut act ls feed = .ok o →
    o.length = (ls.getLast?.map (fun l => l.cols)).getD feed.length := by
  induction ls with
  | nil => intro feed o h; cases h; rfl
  | cons l ls ih =>
    intro feed o h
    simp only [subnetOut] at h
    cases hl : layerOut act l feed with
    | error e => rw [hl] at h; cases h
    | ok q =>
      rw [hl] at h
      have := ih q o h
      have hq : q.length = l.cols := by
        unfold layerOut at hl
        split at hl
        · cases hl; simp
        · cases hl
      rw [this]
      cases ls with
      | nil => simp [hq]
      | cons m ms => simp [List.getLast?_eq_getLast_of_ne_nil]

theorem feedForward_width (act : ℝ → ℝ) (x : List ℝ) (n : DNet ℝ) : ∀ (subs : List (List Nat)) (o : List ℝ), feedForward act x subs n = .ok o →
    o.length = outWidth subs n := by
  induction n with
  | nil => intro subs o h; cases subs <;> (simp only [feedForward] at h; cases h; rfl)
  | cons net nets ih =>
    intro subs o h
    cases subs with
    | nil => simp only [feedForward] at h; cases h
    | cons sub subs =>
      simp only [feedForward] at h
      cases ht : takeRows x sub with
      | none => rw [ht] at h; cases h
      | some feed =>
        rw [ht] at h
        simp only at h
        cases hs : subnetOut act net feed with
        | error e => rw [hs] at h; cases h
        | ok q =>
          rw [hs] at h
          simp only at h
          cases hf : feedForward act x subs nets with
          | error e => rw [hf] at h; cases h
          | ok os =>
            rw [hf] at h
            cases h
            rw [List.length_append, subnetOut_width act net feed q hs, ih subs os hf, (takeRows_spec x sub feed ht).1]
            rfl

/-- C85. If `np.linalg.lstsq` keeps its promise, then after a fit of EvoDN2 that returned, no other upper layer of the same width on the subnets of the
stored network has a smaller sum of squared errors on the training data. -/
theorem c85_evodn2_upper_layer_optimal (d : DNData) (minError : Bool) (popSize numSubnets maxLayers maxNodes : Nat) (sample : Nat → List Nat) (choose : Nat → Nat)
    (rnd : DNRand ℝ) (draw : Nat → Nat → Nat → Nat → DNDraw ℝ) (e : EvolveRand) (s s' : DNReg) (hsolve : SolvesLeastSquares d.lstsq)
    (h : dnFit d minError popSize numSubnets maxLayers maxNodes sample choose rnd draw e s = (.ok (), s')) (hX : d.X ≠ []) :
    ∃ (last predictions : List ℝ), s'.last = some last ∧ d.X.mapM (dnPredictAt d s') = .ok predictions ∧
      ∀ (other predictions' : List ℝ), other.length = last.length → d.X.mapM (dnPredictAt d { s' with last := some other }) = .ok predictions' →
        sqErr predictions d.y ≤ sqErr predictions' d.y := by
  rcases dnFit_cases d minError popSize numSubnets maxLayers maxNodes sample choose rnd draw e s with ⟨err, he⟩ | ⟨subsets, hl, hf, ⟨err, he⟩ | ⟨P0, p, rs, hc, h2, hr, hI, he⟩⟩
  · rw [he] at h; simp at h
  · rw [he] at h; simp at h
  · rw [he] at h
    rcases dnFinish_cases d subsets minError p { s with subsets := some subsets } P0 rs hr hI with ⟨err, hfin⟩ | ⟨hme, i, q, rows, hq, hle, hpen, hfin⟩
    · rw [hfin] at h; simp at h
    · rw [hfin] at h
      simp only [Prod.mk.injEq, true_and] at h
      subst h
      obtain ⟨g, hg1, hg2⟩ := mapM_ok_map (fun x => feedForward d.act x subsets q.x) d.X rows hpen
      have hpred : ∀ l : List ℝ, d.X.mapM (dnPredictAt d (⟨some subsets, some p, some q.x, some l, some (dnComplexity subsets q.x), true⟩ : DNReg)) =
          .ok (rows.map (dnOutput l)) := by
        intro l
        rw [hg1, List.map_map]
        refine mapM_of_ok _ _ _ (fun x hx => ?_)
        simp only [dnPredictAt, hg2 x hx, Function.comp_apply]
      have hrow : ∀ row ∈ rows, row.length = outWidth subsets q.x := by
        intro row hrow
        rw [hg1] at hrow
        obtain ⟨x, hx, rfl⟩ := List.mem_map.1 hrow
        exact feedForward_width d.act x q.x subsets _ (hg2 x hx)
      have hne : rows.map (fun row => 1 :: row) ≠ [] := by
        rw [hg1]; simpa using hX
      have hS := hsolve (outWidth subsets q.x + 1) (rows.map (fun row => 1 :: row)) d.y hne (by rw [hg1]; simpa using hl) (by
        intro row hr
        obtain ⟨row', hr', rfl⟩ := List.mem_map.1 hr
        rw [List.length_cons, hrow row' hr'])
      refine ⟨dnLast d rows, _, rfl, hpred _, fun other predictions' hlen hp => ?_⟩
      have hp' := (hpred other).symm.trans hp
      cases hp'
      have hlast : (dnLast d rows).length = outWidth subsets q.x + 1 := hS.1
      have hconv : ∀ l : List ℝ, l.length = outWidth subsets q.x + 1 →
          (rows.map (fun row => (1 : ℝ) :: row)).map (fun row => dotList row l) = rows.map (dnOutput l) := by
        intro l hl
        rw [List.map_map]
        refine List.map_congr_left (fun row hr => ?_)
        exact dotList_cons row l (by rw [hl, hrow row hr])
      have := hS.2 other (hlen.trans hlast)
      rw [hconv other (hlen.trans hlast), hconv _ hS.1] at this
      exact this

end Verif.Props
