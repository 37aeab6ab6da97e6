import Verif.Props.RefVectors
import Verif.Props.Runs

/-!
# Properties C70 (selection types for surrogates) and C71 (neighbouring angles)
-/

namespace Verif.Props
open Verif Verif.Spec

variable {m : Nat}

/-! ## C71 -/

theorem dot_self_of_norm_one {v : Vec m} (h : norm2 v = 1) : ∑ i, v i * v i = 1 := by
  unfold norm2 at h
  have h0 : 0 ≤ ∑ i, v i ^ 2 := Finset.sum_nonneg (fun i _ => sq_nonneg _)
  have := Real.sqrt_eq_one.1 h
  rw [← this]
  exact Finset.sum_congr rfl (fun i _ => by ring)

theorem dot_le_one {v w : Vec m} (hv : norm2 v = 1) (hw : norm2 w = 1) : ∑ i, v i * w i ≤ 1 := by
  have h1 := dot_self_of_norm_one hv
  have h2 := dot_self_of_norm_one hw
  have h3 : 0 ≤ ∑ i, (v i - w i) ^ 2 := Finset.sum_nonneg (fun i _ => sq_nonneg _)
  have h4 : ∑ i, (v i - w i) ^ 2 = ∑ i, v i * v i + ∑ i, w i * w i - 2 * ∑ i, v i * w i := by
    rw [← Finset.sum_add_distrib, Finset.mul_sum, ← Finset.sum_sub_distrib]
    exact Finset.sum_congr rfl (fun i _ => by ring)
  linarith

theorem eq_of_dot_eq_one {v w : Vec m} (hv : norm2 v = 1) (hw : norm2 w = 1) (h : ∑ i, v i * w i = 1) : v = w := by
  have h1 := dot_self_of_norm_one hv
  have h2 := dot_self_of_norm_one hw
  have h4 : ∑ i, (v i - w i) ^ 2 = ∑ i, v i * v i + ∑ i, w i * w i - 2 * ∑ i, v i * w i := by
    rw [← Finset.sum_add_distrib, Finset.mul_sum, ← Finset.sum_sub_distrib]
    exact Finset.sum_congr rfl (fun i _ => by ring)
  have h5 : ∑ i, (v i - w i) ^ 2 = 0 := by rw [h4, h1, h2, h]; norm_num
  funext i
  have := (Finset.sum_eq_zero_iff_of_nonneg (fun i _ => sq_nonneg _)).1 h5 i (Finset.mem_univ i)
  have := pow_eq_zero_iff (two_ne_zero) |>.1 this
  linarith

/-- The second of a list sorted downwards that contains its upper bound at position `i`: the largest of the other entries. -/
theorem second_largest (L : List ℝ) (i : Nat) (hi : i < L.length) (h2 : 2 ≤ L.length) (hmax : ∀ x ∈ L, x ≤ L[i]) :
    ∃ j, ∃ hj : j < L.length, j ≠ i ∧ (L.mergeSort (fun a b => decide (a ≥ b))).getD 1 0 = L[j] ∧
      ∀ k, ∀ hk : k < L.length, k ≠ i → L[k] ≤ L[j] := by
  have hperm : (L.mergeSort (fun a b => decide (a ≥ b))).Perm L := List.mergeSort_perm L _
  have hsort : (L.mergeSort (fun a b => decide (a ≥ b))).Pairwise (fun a b => a ≥ b) := by
    have := List.pairwise_mergeSort (le := fun a b : ℝ => decide (a ≥ b)) (by
      intro a b c h1 h2
      simp only [ge_iff_le, decide_eq_true_eq] at h1 h2 ⊢
      exact h2.trans h1) (by
      intro a b
      simp only [ge_iff_le, Bool.or_eq_true, decide_eq_true_eq]
      exact le_total b a) L
    simpa using this
  generalize L.mergeSort (fun a b => decide (a ≥ b)) = S at hperm hsort
  have hlen : S.length = L.length := hperm.length_eq
  match S, hperm, hsort, hlen with
  | [], _, _, hlen => simp at hlen; omega
  | [_], _, _, hlen => simp at hlen; omega
  | s0 :: s1 :: rest, hperm, hsort, hlen =>
    have h0 : s0 = L[i] := by
      apply le_antisymm
      · exact hmax s0 (hperm.subset (by simp))
      · have hm : L[i] ∈ s0 :: s1 :: rest := hperm.symm.subset (List.getElem_mem hi)
        rcases List.mem_cons.1 hm with h | h
        · exact h.le
        · exact (List.pairwise_cons.1 hsort).1 _ h
    have hp2 : (s1 :: rest).Perm (L.eraseIdx i) := by
      have := hperm.trans (List.getElem_cons_eraseIdx_perm hi).symm
      rw [h0] at this
      exact this.cons_inv
    have hs1 : s1 ∈ L.eraseIdx i := hp2.subset (by simp)
    rw [List.mem_eraseIdx_iff_getElem?] at hs1
    obtain ⟨j, hji, hj⟩ := hs1
    obtain ⟨hjl, hje⟩ := List.getElem?_eq_some_iff.1 hj
    refine ⟨j, hjl, hji, by simp [hje], ?_⟩
    intro k hk hki
    have hkm : L[k] ∈ L.eraseIdx i := by
      rw [List.mem_eraseIdx_iff_getElem?]
      exact ⟨k, hki, List.getElem?_eq_getElem hk⟩
    rw [hje]
    rcases List.mem_cons.1 (hp2.symm.subset hkm) with h | h
    · exact h.le
    · exact (List.pairwise_cons.1 (List.pairwise_cons.1 hsort).2).1 _ h

/-- C71. For two or more unit vectors the angle computed for each is the least angle between it and another of the vectors. -/
theorem c71_angle_to_nearest_other (values : List (Vec m)) (h2 : 2 ≤ values.length) (hu : ∀ v ∈ values, norm2 v = 1) :
    ∃ g, neighbouringAngles values = .ok g ∧ g.length = values.length ∧
      ∀ (i : Nat) (v : Vec m) (a : ℝ), values[i]? = some v → g[i]? = some a →
        IsLeast {θ : ℝ | ∃ (j : Nat) (w : Vec m), j ≠ i ∧ values[j]? = some w ∧ θ = Real.arccos (∑ k, v k * w k)} a := by
  refine ⟨_, by unfold neighbouringAngles; rw [if_neg (by omega)], by simp, ?_⟩
  intro i v a hv ha
  simp only [List.getElem?_map, hv, Option.map_some, Option.some.injEq] at ha
  obtain ⟨hi, hvi⟩ := List.getElem?_eq_some_iff.1 hv
  have hvm : v ∈ values := List.mem_of_getElem? hv
  have hLi : i < (values.map (fun w => ∑ k, v k * w k)).length := by simpa using hi
  obtain ⟨j, hj, hji, he, hmax⟩ := second_largest (values.map (fun w => ∑ k, v k * w k)) i hLi (by simpa using h2) (by
    intro x hx
    obtain ⟨w, hw, rfl⟩ := List.mem_map.1 hx
    rw [List.getElem_map, hvi, dot_self_of_norm_one (hu v hvm)]
    exact dot_le_one (hu v hvm) (hu w hw))
  have hjv : j < values.length := by simpa using hj
  rw [he] at ha
  simp only [List.getElem_map] at ha hmax
  rw [min_eq_left (dot_le_one (hu v hvm) (hu _ (List.getElem_mem hjv)))] at ha
  subst ha
  refine ⟨⟨j, values[j], hji, List.getElem?_eq_getElem hjv, rfl⟩, ?_⟩
  rintro θ ⟨k, w, hki, hw, rfl⟩
  obtain ⟨hk, hwk⟩ := List.getElem?_eq_some_iff.1 hw
  have := hmax k (by simpa using hk) hki
  rw [hwk] at this
  exact Real.arccos_le_arccos this

/-- C71. The angle is zero, and then the selection divides by zero, exactly if the vector occurs twice. -/
theorem c71_zero_iff_repeated (values : List (Vec m)) (h2 : 2 ≤ values.length) (hu : ∀ v ∈ values, norm2 v = 1) (g : List ℝ)
    (hg : neighbouringAngles values = .ok g) (i : Nat) (v : Vec m) (a : ℝ) (hv : values[i]? = some v) (ha : g[i]? = some a) :
    0 ≤ a ∧ (a = 0 ↔ ∃ j, j ≠ i ∧ values[j]? = some v) := by
  obtain ⟨g', hg', -, h⟩ := c71_angle_to_nearest_other values h2 hu
  rw [hg] at hg'
  cases hg'
  obtain ⟨⟨j, w, hji, hw, rfl⟩, hleast⟩ := h i v a hv ha
  have hvm : v ∈ values := List.mem_of_getElem? hv
  refine ⟨Real.arccos_nonneg _, ?_, ?_⟩
  · intro h0
    have h1 := Real.arccos_eq_zero.1 h0
    have hle := dot_le_one (hu v hvm) (hu w (List.mem_of_getElem? hw))
    have := eq_of_dot_eq_one (hu v hvm) (hu w (List.mem_of_getElem? hw)) (le_antisymm hle h1)
    exact ⟨j, hji, by rw [hw, this]⟩
  · rintro ⟨k, hki, hk⟩
    have hz : Real.arccos (∑ i, v i * v i) = 0 := by rw [dot_self_of_norm_one (hu v hvm)]; exact Real.arccos_one
    have := hleast ⟨k, v, hki, hk, rfl⟩
    rw [hz] at this
    exact le_antisymm this (Real.arccos_nonneg _)

/-- C71. With fewer than two vectors there is no neighbour: IndexError. -/
theorem c71_needs_two (values : List (Vec m)) (h : values.length < 2) : neighbouringAngles values = .error .indexError := by
  unfold neighbouringAngles
  rw [if_pos h]

/-- C71. For vectors with non-negative components the angle is at most a right angle. -/
theorem c71_at_most_right_angle (values : List (Vec m)) (h2 : 2 ≤ values.length) (hu : ∀ v ∈ values, norm2 v = 1)
    (hn : ∀ v ∈ values, ∀ i, 0 ≤ v i) (g : List ℝ) (hg : neighbouringAngles values = .ok g) : ∀ a ∈ g, a ≤ Real.pi / 2 := by
  obtain ⟨g', hg', hl, h⟩ := c71_angle_to_nearest_other values h2 hu
  rw [hg] at hg'
  cases hg'
  intro a ha
  obtain ⟨i, hi⟩ := List.mem_iff_getElem?.1 ha
  have hil : i < values.length := by rw [← hl]; exact (List.getElem?_eq_some_iff.1 hi).1
  obtain ⟨⟨j, w, hji, hw, rfl⟩, -⟩ := h i _ a (List.getElem?_eq_getElem hil) hi
  rw [Real.arccos_le_pi_div_two]
  exact Finset.sum_nonneg (fun k _ => mul_nonneg (hn _ (List.getElem_mem hil) k) (hn _ (List.mem_of_getElem? hw) k))

/-- Two unit vectors: the hypotheses can be met. -/
example : ∃ values : List (Vec 2), 2 ≤ values.length ∧ (∀ v ∈ values, norm2 v = 1) ∧ ∀ v ∈ values, ∀ i, 0 ≤ v i :=
  ⟨[![1, 0], ![0, 1]], by simp, by simp [norm2, Fin.sum_univ_two], by simp [Fin.forall_fin_two]⟩

/-! ## C70 -/

variable {X O : Type}

/-- The population whose fitness is shifted by `c` times its uncertainty. -/
def shifted (c : ℝ) (p : Pop X O (Vec m) (List ℝ) (Vec m)) (u : List (Vec m)) : Pop X O (Vec m) (List ℝ) (Vec m) :=
  { p with fitness := List.zipWith (fun f e i => f i + c * e i) p.fitness u }

/-- C70. "optimistic" selection is selection on fitness minus uncertainty, "robust" selection on fitness plus uncertainty: for RVEA. -/
theorem c70_rvea_selection_types (pen : Nat → ℝ) (popIdeal : Nat → Vec m) (clock : Nat) (v : RV m) (ideal : Vec m)
    (p : Pop X O (Vec m) (List ℝ) (Vec m)) (u : List (Vec m)) (hu : p.uncertainity = some u) :
    rveaSelect .optimistic pen popIdeal clock v ideal p = rveaSelect .mean pen popIdeal clock v ideal (shifted (-1) p u) ∧
    rveaSelect .robust pen popIdeal clock v ideal p = rveaSelect .mean pen popIdeal clock v ideal (shifted 1 p u) := by
  have h1 : ∀ f : List (Vec m), List.zipWith (fun a b i => a i - b i) f u = List.zipWith (fun (f e : Vec m) i => f i + -1 * e i) f u := by
    intro f; congr 1; funext a b i; ring
  have h2 : ∀ f : List (Vec m), List.zipWith (fun (a b : Vec m) i => a i + b i) f u = List.zipWith (fun (f e : Vec m) i => f i + 1 * e i) f u := by
    intro f; congr 1; funext a b i; ring
  constructor
  · simp only [rveaSelect, calcFitness, hu, shifted, h1]
  · simp only [rveaSelect, calcFitness, hu, shifted, h2]

/-- C70. The same for NSGA-III. -/
theorem c70_nsga_selection_types (sort : List (Vec m) → List (List Nat)) (solve : List (Vec m) → Option (Vec m))
    (rnd : Nat → NicheRand) (nSurvive : Option Nat) (clock : Nat) (v : RV m) (st : Nsga m)
    (p : Pop X O (Vec m) (List ℝ) (Vec m)) (u : List (Vec m)) (hu : p.uncertainity = some u) :
    nsgaSelect .optimistic sort solve rnd nSurvive clock v st p = nsgaSelect .mean sort solve rnd nSurvive clock v st (shifted (-1) p u) ∧
    nsgaSelect .robust sort solve rnd nSurvive clock v st p = nsgaSelect .mean sort solve rnd nSurvive clock v st (shifted 1 p u) := by
  have h1 : ∀ f : List (Vec m), List.zipWith (fun a b i => a i - b i) f u = List.zipWith (fun (f e : Vec m) i => f i + -1 * e i) f u := by
    intro f; congr 1; funext a b i; ring
  have h2 : ∀ f : List (Vec m), List.zipWith (fun (a b : Vec m) i => a i + b i) f u = List.zipWith (fun (f e : Vec m) i => f i + 1 * e i) f u := by
    intro f; congr 1; funext a b i; ring
  constructor
  · simp only [nsgaSelect, calcFitness, hu, shifted, h1]
  · simp only [nsgaSelect, calcFitness, hu, shifted, h2]

/-- C70. "mean" selection never looks at the uncertainty. -/
theorem c70_mean_ignores_uncertainty (pen : Nat → ℝ) (popIdeal : Nat → Vec m) (sort : List (Vec m) → List (List Nat))
    (solve : List (Vec m) → Option (Vec m)) (rnd : Nat → NicheRand) (nSurvive : Option Nat) (clock : Nat) (v : RV m) (ideal : Vec m) (st : Nsga m)
    (p : Pop X O (Vec m) (List ℝ) (Vec m)) (u : Option (List (Vec m))) :
    rveaSelect .mean pen popIdeal clock v ideal { p with uncertainity := u } = rveaSelect .mean pen popIdeal clock v ideal p ∧
    nsgaSelect .mean sort solve rnd nSurvive clock v st { p with uncertainity := u } = nsgaSelect .mean sort solve rnd nSurvive clock v st p :=
  ⟨rfl, rfl⟩

/-- C70. A problem without uncertainties, or an unknown selection type: the selection raises and keeps its ideal point and vectors. -/
theorem c70_without_uncertainty_raises (ty : SelType) (pen : Nat → ℝ) (popIdeal : Nat → Vec m) (sort : List (Vec m) → List (List Nat))
    (solve : List (Vec m) → Option (Vec m)) (rnd : Nat → NicheRand) (nSurvive : Option Nat) (clock : Nat) (v : RV m) (ideal : Vec m) (st : Nsga m)
    (p : Pop X O (Vec m) (List ℝ) (Vec m)) (h : ty = .other ∨ (ty ≠ .mean ∧ p.uncertainity = none)) :
    rveaSelect ty pen popIdeal clock v ideal p = (.error .typeError, v, ideal) ∧
    nsgaSelect ty sort solve rnd nSurvive clock v st p = (.error .typeError, v, st) := by
  have : calcFitness ty p.fitness p.uncertainity = .error .typeError := by
    rcases h with rfl | ⟨h1, h2⟩
    · rfl
    · rw [h2]; cases ty <;> first | rfl | exact absurd rfl h1
  constructor
  · simp only [rveaSelect, this]
  · simp only [nsgaSelect, this]

end Verif.Props
