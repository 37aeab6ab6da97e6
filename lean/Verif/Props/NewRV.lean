import Verif.Model.NewRV
import Verif.Spec.NewRV
import Verif.Props.Focused
import Verif.Props.RefVectors
import Mathlib.Data.List.GetD

/-!
# C86: the interactions of `newRV`
-/

open scoped BigOperators

namespace Verif.Props
open Verif Verif.Spec

variable {m k : Nat}

/-! ## Geometry of pulling a vector towards a direction -/

theorem offLine_sq (r v : Vec m) (hr : inner r r = 1) (hv : inner v v = 1) : offLine r v ^ 2 = 1 - inner v r ^ 2 := by
  have := inner_unit_bounds v r hv hr
  exact Real.sq_sqrt (by nlinarith)

theorem offLine_nonneg (r v : Vec m) : 0 ≤ offLine r v := Real.sqrt_nonneg _

theorem shrink_bounds (S d : ℝ) (hd : 0 ≤ d) (hS : d ≤ S) : 0 ≤ shrink S d ∧ shrink S d ≤ 1 ∧ (0 < d → 0 < shrink S d) := by
  unfold shrink
  by_cases h0 : d = 0
  · simp [h0]
  · have hd' : 0 < d := lt_of_le_of_ne hd (Ne.symm h0)
    have hle : 1 / S ^ 2 ≤ 1 / d ^ 2 := one_div_le_one_div_of_le (by positivity) (by nlinarith)
    rw [if_neg h0]
    have h1 : 1 ≤ 1 + 5 * (1 / d ^ 2 - 1 / S ^ 2) := by linarith
    refine ⟨by positivity, ?_, fun _ => by positivity⟩
    rw [div_le_one (by linarith)]; exact h1

theorem shrink_self (S : ℝ) (hS : 0 < S) : shrink S S = 1 := by simp [shrink, hS.ne']

theorem shrink_lt_one (S d : ℝ) (hd : 0 ≤ d) (hS : d < S) : shrink S d < 1 := by
  unfold shrink
  by_cases h0 : d = 0
  · simp [h0]
  · have hd' : 0 < d := lt_of_le_of_ne hd (Ne.symm h0)
    have hlt : 1 / S ^ 2 < 1 / d ^ 2 := one_div_lt_one_div_of_lt (by positivity) (by nlinarith)
    rw [if_neg h0, div_lt_one (by linarith)]; linarith

/-- the new distances are ordered as the old ones -/
theorem shrunk_lt (S c d : ℝ) (hc : 0 ≤ c) (h : c < d) (hS : d ≤ S) : shrink S c * c < shrink S d * d := by
  have hd : 0 < d := lt_of_le_of_lt hc h
  have B := shrink_bounds S d hd.le hS
  by_cases h0 : c = 0
  · subst h0; rw [mul_zero]; exact mul_pos (B.2.2 hd) hd
  · have hc' : 0 < c := lt_of_le_of_ne hc (Ne.symm h0)
    have h1 : 1 / S ^ 2 ≤ 1 / d ^ 2 := one_div_le_one_div_of_le (by positivity) (by nlinarith)
    have h2 : 1 / d ^ 2 < 1 / c ^ 2 := one_div_lt_one_div_of_lt (by positivity) (by nlinarith)
    have h3 : shrink S c < shrink S d := by
      unfold shrink
      rw [if_neg h0, if_neg hd.ne']
      exact one_div_lt_one_div_of_lt (by linarith) (by linarith)
    have h4 := (shrink_bounds S c hc (h.le.trans hS)).2.2 hc'
    nlinarith [B.2.2 hd]

theorem inner_combo (v r : Vec m) (a b : ℝ) (v' : Vec m) (h : ∀ i, v' i = a * v i + b * r i) (w : Vec m) :
    inner v' w = a * inner v w + b * inner r w := by
  rw [show v' = fun i => a * v i + b * r i from funext h, inner_add_smul]

/-- what pulling does to the distance from the preferred line -/
theorem pulled_offLine (r : Vec m) (S : ℝ) (v v' : Vec m) (hr : inner r r = 1) (hv : inner v v = 1) (hS : offLine r v ≤ S)
    (h : Pulled r S v v') : offLine r v' = shrink S (offLine r v) * offLine r v := by
  obtain ⟨h1, h2, b, hb, he⟩ := h
  have hv' := (inner_self_one v').2 h1
  have B := shrink_bounds S (offLine r v) (offLine_nonneg _ _) hS
  have hsq := offLine_sq r v hr hv
  have hsq' := offLine_sq r v' hr hv'
  generalize shrink S (offLine r v) = a at *
  have e1 := inner_combo v r a b v' he r
  have e2 := inner_combo v r a b v' he v
  have e3 := inner_combo v r a b v' he v'
  rw [inner_comm v v', e2, inner_comm r v', e1, hv', hv, hr, inner_comm r v] at e3
  rw [hr] at e1
  have : offLine r v' ^ 2 = (a * offLine r v) ^ 2 := by
    rw [hsq', mul_pow, hsq, e1]
    linear_combination e3
  exact (sq_eq_sq₀ (offLine_nonneg _ _) (mul_nonneg B.1 (offLine_nonneg _ _))).1 this

theorem inner_of_offLine (r v : Vec m) (hr : inner r r = 1) (hv : inner v v = 1) (h : 0 ≤ inner v r) :
    inner v r = Real.sqrt (1 - offLine r v ^ 2) := by
  rw [offLine_sq r v hr hv]
  rw [show 1 - (1 - inner v r ^ 2) = inner v r ^ 2 by ring, Real.sqrt_sq h]

theorem eq_of_inner_one (u w : Vec m) (hu : inner u u = 1) (hw : inner w w = 1) (h : inner u w = 1) : u = w := by
  have : inner (fun i => u i - w i) (fun i => u i - w i) = 0 := by
    rw [inner_sub, inner_comm u, inner_comm w, inner_sub, inner_sub, hu, hw, inner_comm w u, h]; ring
  have h0 := (inner_self_eq_zero _).1 this
  funext i
  have := congrFun h0 i
  simp only [Pi.zero_apply] at this
  linarith

/-- a vector and its pulled image determine each other on the side of `r` -/
theorem pulled_injective (r : Vec m) (S : ℝ) (u v w : Vec m) (hr : inner r r = 1) (hu : inner u u = 1) (hv : inner v v = 1)
    (hSu : offLine r u ≤ S) (hSv : offLine r v ≤ S) (hu0 : 0 ≤ inner u r) (hv0 : 0 ≤ inner v r) (h1 : Pulled r S u w) (h2 : Pulled r S v w) :
    u = v := by
  have e1 := pulled_offLine r S u w hr hu hSu h1
  have e2 := pulled_offLine r S v w hr hv hSv h2
  have hd : offLine r u = offLine r v := by
    rcases lt_trichotomy (offLine r u) (offLine r v) with h | h | h
    · exact absurd (e1.symm.trans e2) (shrunk_lt S _ _ (offLine_nonneg _ _) h hSv).ne
    · exact h
    · exact absurd (e2.symm.trans e1) (shrunk_lt S _ _ (offLine_nonneg _ _) h hSu).ne
  have hz : inner u r = inner v r := by rw [inner_of_offLine r u hr hu hu0, inner_of_offLine r v hr hv hv0, hd]
  by_cases h0 : offLine r u = 0
  · have s1 := offLine_sq r u hr hu
    rw [h0] at s1
    have i1 : inner u r = 1 := by nlinarith
    exact (eq_of_inner_one u r hu hr i1).trans (eq_of_inner_one v r hv hr (hz ▸ i1)).symm
  · obtain ⟨-, -, b, hb, heb⟩ := h1
    obtain ⟨-, -, c, hc, hec⟩ := h2
    have hpos := (shrink_bounds S _ (offLine_nonneg r u) hSu).2.2 (lt_of_le_of_ne (offLine_nonneg r u) (Ne.symm h0))
    rw [← hd] at hec
    have i1 := inner_combo u r _ b w heb r
    have i2 := inner_combo v r _ c w hec r
    rw [hz, i2, hr] at i1
    have hbc : b = c := by linarith
    funext i
    have j1 := heb i
    rw [hec i, hbc] at j1
    have : shrink S (offLine r u) * (v i - u i) = 0 := by linarith
    rcases mul_eq_zero.1 this with q | q
    · exact absurd q hpos.ne'
    · linarith

/-- the description determines the pulled vector -/
theorem pulled_unique (r : Vec m) (S : ℝ) (v u w : Vec m) (hr : inner r r = 1) (hv : inner v v = 1) (hS : offLine r v ≤ S)
    (h1 : Pulled r S v u) (h2 : Pulled r S v w) : u = w := by
  have e1 := pulled_offLine r S v u hr hv hS h1
  have e2 := pulled_offLine r S v w hr hv hS h2
  have hz : inner u r = inner w r := by
    rw [inner_of_offLine r u hr ((inner_self_one _).2 h1.1) h1.2.1, inner_of_offLine r w hr ((inner_self_one _).2 h2.1) h2.2.1, e1, e2]
  obtain ⟨-, -, b, hb, heb⟩ := h1
  obtain ⟨-, -, c, hc, hec⟩ := h2
  have i1 := inner_combo v r _ b u heb r
  have i2 := inner_combo v r _ c w hec r
  rw [hz, i2, hr] at i1
  have hbc : b = c := by linarith
  funext i
  rw [heb i, hec i, hbc]

/-! ## One row of the model -/

theorem householder_invol (v x : Vec m) (hv : inner v v ≠ 0) : (householder v).mulVec ((householder v).mulVec x) = x := by
  rw [householder_apply v ((householder v).mulVec x), householder_apply]
  funext i
  rw [inner_comm v (fun i => x i - _ * v i), inner_sub_smul, inner_comm x v]
  field_simp
  ring

theorem householder_neg (v : Vec m) : householder (fun i => - v i) = householder v := by
  unfold householder
  simp

theorem notParallel_symm (a b : Vec m) (h : NotParallel a b) : NotParallel b a := by
  refine ⟨h.2.1, h.1, fun c hc => ?_⟩
  have hc0 : c ≠ 0 := by
    rintro rfl
    exact h.1 (by rw [hc]; funext i; simp)
  refine h.2.2 c⁻¹ ?_
  funext i
  rw [hc]; field_simp

/-- the rotation back undoes the rotation -/
theorem rotation_back (a b x : Vec m) (h : NotParallel a b) : (rotationMatrix b a).mulVec ((rotationMatrix a b).mulVec x) = x := by
  have S := setup_of_notParallel a b h
  have hm : (fun i => unitVec b i + unitVec a i) = fun i => unitVec a i + unitVec b i := by funext i; ring
  rw [rotation_apply b a, rotation_apply a b, hm]
  rw [show (fun i => unitVec b i - unitVec (fun i => unitVec a i + unitVec b i) i) =
      fun i => - (unitVec (fun i => unitVec a i + unitVec b i) i - unitVec b i) by funext i; ring,
    show (fun i => unitVec (fun i => unitVec a i + unitVec b i) i - unitVec a i) =
      fun i => - (unitVec a i - unitVec (fun i => unitVec a i + unitVec b i) i) by funext i; ring]
  rw [householder_neg, householder_neg, householder_invol _ _ S.q2, householder_invol _ _ S.q1]

theorem mulVec_combo (M : Matrix (Fin m) (Fin m) ℝ) (x y : Vec m) (a b : ℝ) :
    M.mulVec (fun i => a * x i + b * y i) = fun i => a * M.mulVec x i + b * M.mulVec y i := by
  have : (fun i => a * x i + b * y i) = a • x + b • y := by funext i; simp
  rw [this, Matrix.mulVec_add, Matrix.mulVec_smul, Matrix.mulVec_smul]
  funext i; simp

theorem snoc_init (y : Vec (k + 1)) (a c : ℝ) : (Fin.snoc (fun i => Fin.init y i * a) c : Vec (k + 1)) =
    fun i => a * y i + (c - a * y (Fin.last k)) * axis (Fin.last k) i := by
  funext i
  refine Fin.lastCases ?_ (fun j => ?_) i
  · simp [axis]
  · simp only [Fin.snoc_castSucc, Fin.init, axis]
    rw [if_neg (Fin.castSucc_lt_last j).ne']; ring

theorem sum_init_sq (y : Vec (k + 1)) : ∑ i, Fin.init y i ^ 2 = inner y y - y (Fin.last k) ^ 2 := by
  unfold inner
  rw [Fin.sum_univ_castSucc]
  simp only [Fin.init, pow_two]; ring

theorem norm2_init (y : Vec (k + 1)) (hy : inner y y = 1) : norm2 (Fin.init y : Vec k) = offLine (axis (Fin.last k)) y := by
  unfold norm2 offLine
  rw [sum_init_sq, hy, inner_comm, inner_axis]

/-- `dist_based_translation` and `translate_to_hypersphere` pull a unit row towards the last axis -/
theorem pulled_row (y : Vec (k + 1)) (hy : inner y y = 1) (S : ℝ) (hS : norm2 (Fin.init y : Vec k) ≤ S) :
    ∃ y', sphereRow (Fin.snoc (fun i => Fin.init y i * pullFactor S (norm2 (Fin.init y : Vec k))) 1 : Vec (k + 1)) = some y' ∧
      Pulled (axis (Fin.last k)) S y y' := by
  have hn := norm2_init y hy
  have hpf : pullFactor S (norm2 (Fin.init y : Vec k)) = shrink S (offLine (axis (Fin.last k)) y) := by
    rw [hn]; unfold pullFactor shrink; simp only [pow_two]
  rw [hn] at hS
  have B := shrink_bounds S _ (offLine_nonneg (axis (Fin.last k)) y) hS
  have hsq := offLine_sq (axis (Fin.last k)) y (axis_unit _) hy
  rw [inner_comm, inner_axis] at hsq
  rw [hpf]
  generalize hd : offLine (axis (Fin.last k)) y = d at *
  generalize ha : shrink S d = a at *
  have hz := inner_unit_bounds y (axis (Fin.last k)) hy (axis_unit _)
  rw [inner_comm, inner_axis] at hz
  have hsum : ∑ i, (Fin.init (Fin.snoc (fun i => Fin.init y i * a) 1 : Vec (k + 1)) : Vec k) i ^ 2 = a ^ 2 * d ^ 2 := by
    rw [Fin.init_snoc, hsq, ← hy, ← sum_init_sq, Finset.mul_sum]
    refine Finset.sum_congr rfl (fun i _ => by ring)
  have hd0 : 0 ≤ d := hd ▸ offLine_nonneg _ _
  have h1 : a ^ 2 * d ^ 2 ≤ 1 := by
    have : d ^ 2 ≤ 1 := by nlinarith [sq_nonneg (y (Fin.last k))]
    have : a ^ 2 ≤ 1 := by nlinarith
    nlinarith [sq_nonneg a, sq_nonneg d]
  unfold sphereRow
  rw [hsum, if_pos (by linarith), Fin.init_snoc]
  refine ⟨_, rfl, ?_, ?_, Real.sqrt (1 - a ^ 2 * d ^ 2) - a * y (Fin.last k), ?_, ?_⟩
  · rw [← inner_self_one, inner_snoc]
    have : inner (fun i => Fin.init y i * a : Vec k) (fun i => Fin.init y i * a) = a ^ 2 * d ^ 2 := by
      rw [← hsum, Fin.init_snoc]; unfold inner; refine Finset.sum_congr rfl (fun i _ => by ring)
    rw [this, Real.mul_self_sqrt (by linarith)]; ring
  · rw [inner_comm, inner_axis, Fin.snoc_last]; exact Real.sqrt_nonneg _
  · have : a * y (Fin.last k) ≤ Real.sqrt (1 - a ^ 2 * d ^ 2) := by
      apply Real.le_sqrt_of_sq_le
      rw [hsq]
      nlinarith [B.2.1, B.1]
    linarith
  · intro i
    rw [snoc_init, hd, ha]

/-- rigid maps carry pulled vectors to pulled vectors -/
theorem pulled_map (M : Matrix (Fin m) (Fin m) ℝ) (hM : Rigid (fun x => M.mulVec x)) (e : Vec m) (S : ℝ) (y y' : Vec m)
    (h : Pulled e S y y') : Pulled (M.mulVec e) S (M.mulVec y) (M.mulVec y') := by
  obtain ⟨h1, h2, b, hb, he⟩ := h
  have hoff : offLine (M.mulVec e) (M.mulVec y) = offLine e y := by
    unfold offLine
    rw [show inner (M.mulVec y) (M.mulVec e) = inner y e from hM y e]
  refine ⟨?_, ?_, b, hb, fun i => ?_⟩
  · rw [← inner_self_one, show inner (M.mulVec y') (M.mulVec y') = inner y' y' from hM y' y', inner_self_one]; exact h1
  · rw [show inner (M.mulVec y') (M.mulVec e) = inner y' e from hM y' e]; exact h2
  · rw [hoff, show y' = fun i => shrink S (offLine e y) * y i + b * e i from funext he, mulVec_combo]

theorem foldl_max_real (l : List ℝ) : ∀ a : ℝ, a ≤ l.foldl max a ∧ (∀ x ∈ l, x ≤ l.foldl max a) ∧ (l.foldl max a = a ∨ l.foldl max a ∈ l) := by
  induction l with
  | nil => intro a; simp
  | cons x l ih =>
    intro a
    obtain ⟨h1, h2, h3⟩ := ih (max a x)
    refine ⟨le_trans (le_max_left _ _) h1, fun y hy => ?_, ?_⟩
    · rcases List.mem_cons.1 hy with rfl | hy
      · exact le_trans (le_max_right _ _) h1
      · exact h2 y hy
    · rw [List.foldl_cons]
      rcases h3 with h3 | h3
      · rw [h3]
        rcases max_choice a x with q | q
        · exact Or.inl q
        · right; rw [q]; exact List.mem_cons_self
      · exact Or.inr (List.mem_cons_of_mem _ h3)

/-- `dist_based_translation` and `translate_to_hypersphere` on unit rows, not all on the last axis -/
theorem pulled_rows (Y : List (Vec (k + 1))) (hY : ∀ y ∈ Y, inner y y = 1) (hne : ∃ y ∈ Y, offLine (axis (Fin.last k)) y ≠ 0) :
    ∃ W S Y', distTranslate ((Y.map some).map (Option.map (Fin.init : Vec (k + 1) → Vec k))) = .ok W ∧
      (W.map (Option.map (fun w => (Fin.snoc w 1 : Vec (k + 1))))).map (fun r => r.bind sphereRow) = Y'.map some ∧
      IsFarthest (axis (Fin.last k)) Y S ∧ 0 < S ∧ List.Forall₂ (Pulled (axis (Fin.last k)) S) Y Y' := by
  obtain ⟨y0, hy0, hoff⟩ := hne
  have hWne : (Y.map some).map (Option.map (Fin.init : Vec (k + 1) → Vec k)) ≠ [] := by
    intro h; simp at h; subst h; simp at hy0
  have hnone : none ∉ (Y.map some).map (Option.map (Fin.init : Vec (k + 1) → Vec k)) := by simp
  have hfm : (((Y.map some).map (Option.map (Fin.init : Vec (k + 1) → Vec k))).filterMap id).map norm2 =
      Y.map (fun y => norm2 (Fin.init y : Vec k)) := by
    rw [List.map_map, List.filterMap_map]
    rw [show (id ∘ (Option.map (Fin.init : Vec (k + 1) → Vec k) ∘ some)) = fun y => some (Fin.init y : Vec k) by funext y; simp]
    rw [List.filterMap_eq_map', List.map_map]; rfl
  unfold distTranslate
  rw [if_neg hWne, if_neg hnone]
  simp only [hfm]
  obtain ⟨h0, h1, h2⟩ := foldl_max_real (Y.map (fun y => norm2 (Fin.init y : Vec k))) 0
  generalize (Y.map (fun y => norm2 (Fin.init y : Vec k))).foldl max 0 = S at *
  have hle : ∀ y ∈ Y, norm2 (Fin.init y : Vec k) ≤ S := fun y hy => h1 _ (List.mem_map_of_mem hy)
  have hpos : 0 < S := by
    refine lt_of_lt_of_le ?_ (hle y0 hy0)
    rw [norm2_init y0 (hY y0 hy0)]
    exact lt_of_le_of_ne (offLine_nonneg _ _) (Ne.symm hoff)
  rw [if_neg hpos.ne']
  suffices H : ∃ Y' : List (Vec (k + 1)), Y.map (fun y => sphereRow (Fin.snoc (fun i => Fin.init y i * pullFactor S (norm2 (Fin.init y : Vec k))) 1 : Vec (k + 1))) = Y'.map some ∧
      List.Forall₂ (Pulled (axis (Fin.last k)) S) Y Y' by
    obtain ⟨Y', e1, e2⟩ := H
    refine ⟨_, S, Y', rfl, ?_, ⟨?_, ?_⟩, hpos, e2⟩
    · rw [← e1]; simp [List.map_map, Function.comp_def]
    · rcases h2 with h2 | h2
      · exact absurd h2 hpos.ne'
      · obtain ⟨y, hy, he⟩ := List.mem_map.1 h2
        exact ⟨y, hy, by rw [← norm2_init y (hY y hy)]; exact he⟩
    · intro y hy
      rw [← norm2_init y (hY y hy)]; exact hle y hy
  clear h0 h1 h2 hnone hfm hWne hy0
  induction Y with
  | nil => exact ⟨[], rfl, List.Forall₂.nil⟩
  | cons y Y ih =>
    obtain ⟨Y', e1, e2⟩ := ih (fun y hy => hY y (List.mem_cons_of_mem _ hy)) (fun y hy => hle y (List.mem_cons_of_mem _ hy))
    obtain ⟨y', e3, e4⟩ := pulled_row y (hY y List.mem_cons_self) S (hle y List.mem_cons_self)
    exact ⟨y' :: Y', by rw [List.map_cons, List.map_cons, e1, e3], List.Forall₂.cons e4 e2⟩

/-! ## `interact_v2` -/

theorem notParallel_last (p : Vec 3) (h : p 0 ≠ 0 ∨ p 1 ≠ 0) : NotParallel (axis (Fin.last 2)) p := by
  refine ⟨fun h0 => ?_, fun h0 => ?_, fun c hc => ?_⟩
  · have := congrFun h0 (Fin.last 2); simp [axis] at this
  · rw [h0] at h; simp at h
  · have e0 := congrFun hc 0
    have e1 := congrFun hc 1
    rw [show axis (Fin.last 2) (0 : Fin 3) = 0 from if_neg (by decide), mul_zero] at e0
    rw [show axis (Fin.last 2) (1 : Fin 3) = 0 from if_neg (by decide), mul_zero] at e1
    rcases h with h | h
    · exact h e0
    · exact h e1

theorem offLine_ne_zero (r v : Vec m) (hr : inner r r = 1) (hv : inner v v = 1) (h1 : v ≠ r) (h2 : v ≠ fun i => - r i) : offLine r v ≠ 0 := by
  intro h0
  have hs := offLine_sq r v hr hv
  rw [h0] at hs
  have : (inner v r - 1) * (inner v r + 1) = 0 := by nlinarith
  rcases mul_eq_zero.1 this with q | q
  · exact h1 (eq_of_inner_one v r hv hr (by linarith))
  · refine h2 (eq_of_inner_one v _ hv ?_ ?_)
    · rw [show (fun i => - r i) = fun i => (-1 : ℝ) * r i + 0 * r i by funext i; ring, inner_add_smul, inner_comm, inner_add_smul, hr]; ring
    · rw [inner_comm, show (fun i => - r i) = fun i => (-1 : ℝ) * r i + 0 * r i by funext i; ring, inner_add_smul, inner_comm r v]; linarith

theorem farthest_congr (r : Vec m) (e : Vec m) (f : Vec m → Vec m) (V : List (Vec m)) (h : ∀ v ∈ V, offLine e (f v) = offLine r v) (S : ℝ)
    (hS : IsFarthest e (V.map f) S) : IsFarthest r V S := by
  obtain ⟨⟨y, hy, he⟩, h2⟩ := hS
  obtain ⟨v, hv, rfl⟩ := List.mem_map.1 hy
  exact ⟨⟨v, hv, by rw [← h v hv]; exact he⟩, fun u hu => by rw [← h u hu]; exact h2 _ (List.mem_map_of_mem hu)⟩

/-- C86. `interact_v2(p)` with three objectives, finite unit vectors and a preference that does not point along the third axis, whenever some
vector is off the line of the preference: the call returns and replaces every vector, in place, by the unit vector that lies between
it and the preferred direction `r` (a nonnegative combination of the two) and on the side of `r`, whose distance from the line of `r` is
the old distance `d` divided by `1 + 5 (1/d² - 1/S²)`, `S` the distance of the farthest vector.  Nothing else in the object changes: not
the planar vectors, not the initial vectors. -/
theorem c86_v2 (s : FRV 3) (V : List (Vec 3)) (hs : s.values = V.map some) (hV : ∀ v ∈ V, len v = 1) (p r : Vec 3)
    (hp : p 0 ≠ 0 ∨ p 1 ≠ 0) (hr : IsDirection p r) (hne : ∃ v ∈ V, v ≠ r ∧ v ≠ fun i => - r i) :
    ∃ V' S, s.interactV2 p = (.ok (), { s with values := V'.map some }) ∧ IsFarthest r V S ∧ 0 < S ∧ List.Forall₂ (Pulled r S) V V' := by
  have hP := notParallel_last p hp
  have hP' := notParallel_symm _ _ hP
  obtain ⟨hR, hRr⟩ := rotateN_rigid p (axis (Fin.last 2)) hP'
  obtain ⟨hR', hRe⟩ := rotateN_rigid (axis (Fin.last 2)) p hP
  have hrr : inner r r = 1 := by
    rw [isDirection_unique p r (unitVec p) hr (unitVec_isDirection p hP.2.1)]; exact unitVec_self p hP.2.1
  have hax : IsDirection (axis (Fin.last 2)) (axis (Fin.last 2)) := isDirection_self _ (axis_unit _)
  have hRr := hRr r _ hr hax
  have hRe := hRe _ r hax hr
  generalize hM : rotationMatrix p (axis (Fin.last 2)) = M at *
  have hoff : ∀ v, offLine (axis (Fin.last 2)) (M.mulVec v) = offLine r v := by
    intro v
    unfold offLine
    rw [← hRr, show inner (M.mulVec v) (M.mulVec r) = inner v r from hR v r]
  have hunit : ∀ y ∈ V.map (fun v => M.mulVec v), inner y y = 1 := by
    intro y hy
    obtain ⟨v, hv, rfl⟩ := List.mem_map.1 hy
    rw [show inner (M.mulVec v) (M.mulVec v) = inner v v from hR v v, inner_self_one]
    exact hV v hv
  obtain ⟨v0, hv0, hn1, hn2⟩ := hne
  obtain ⟨W, S, Y', h1, h2, h3, h4, h5⟩ := pulled_rows (V.map (fun v => M.mulVec v)) hunit
    ⟨M.mulVec v0, List.mem_map_of_mem hv0, by rw [hoff]; exact offLine_ne_zero r v0 hrr ((inner_self_one _).2 (hV v0 hv0)) hn1 hn2⟩
  refine ⟨Y'.map (fun y => (rotationMatrix (axis (Fin.last 2)) p).mulVec y), S, ?_, farthest_congr r _ _ V (fun v _ => hoff v) S h3, h4, ?_⟩
  · unfold FRV.interactV2
    rw [if_neg (by decide)]
    have e1 : ((rotateN p (axis (Fin.last 2)) s.values).map (Option.map projectRow)).map (Option.map (Fin.init : Vec 3 → Vec 2)) =
        ((V.map (fun v => M.mulVec v)).map some).map (Option.map (Fin.init : Vec 3 → Vec 2)) := by
      rw [rotateN_ok _ _ hP', hs, hM]
      simp only [List.map_map]
      refine List.map_congr_left (fun v _ => ?_)
      simp [projectRow]
    simp only [e1, h1, h2]
    rw [rotateN_ok _ _ hP]
    simp [List.map_map, Function.comp_def]
  · have : ∀ v y', Pulled (axis (Fin.last 2)) S (M.mulVec v) y' → Pulled r S v ((rotationMatrix (axis (Fin.last 2)) p).mulVec y') := by
      intro v y' h
      have := pulled_map _ hR' _ S _ _ h
      rw [hRe, ← hM, rotation_back p _ v hP'] at this
      exact this
    rw [List.forall₂_map_left_iff] at h5
    rw [List.forall₂_map_right_iff]
    exact h5.imp (fun v y' h => this v y' h)

/-- C86, what that means: the angle to the preferred direction never grows and shrinks for every vector strictly between the preferred
line and the farthest distance; the farthest vectors stay where they are (if they were on the side of `r`); the vectors keep their order of closeness to
the preferred line. -/
theorem c86_v2_angles (s : FRV 3) (V V' : List (Vec 3)) (hs : s.values = V.map some) (hV : ∀ v ∈ V, len v = 1) (p r : Vec 3)
    (hp : p 0 ≠ 0 ∨ p 1 ≠ 0) (hr : IsDirection p r) (hne : ∃ v ∈ V, v ≠ r ∧ v ≠ fun i => - r i)
    (hrun : (s.interactV2 p).2.values = V'.map some) :
    V'.length = V.length ∧
    (∀ (i : Nat) (v v' : Vec 3), V[i]? = some v → V'[i]? = some v' → len v' = 1 ∧ |inner v r| ≤ inner v' r ∧ angleOf v' r ≤ angleOf v r ∧
      (|inner v r| < 1 → (∃ u ∈ V, |inner u r| < |inner v r|) → |inner v r| < inner v' r) ∧
      ((∀ u ∈ V, |inner v r| ≤ |inner u r|) → 0 ≤ inner v r → v' = v)) ∧
    (∀ (i j : Nat) (v v' u u' : Vec 3), V[i]? = some v → V'[i]? = some v' → V[j]? = some u → V'[j]? = some u' →
      (inner v' r < inner u' r ↔ |inner v r| < |inner u r|)) := by
  have hP := notParallel_last p hp
  have hrr : inner r r = 1 := by
    rw [isDirection_unique p r (unitVec p) hr (unitVec_isDirection p hP.2.1)]; exact unitVec_self p hP.2.1
  obtain ⟨V'', S, h1, hS, hpos, h2⟩ := c86_v2 s V hs hV p r hp hr hne
  rw [h1] at hrun
  have hVV : V'' = V' := List.map_injective_iff.2 (Option.some_injective _) hrun
  subst hVV
  have hget : ∀ (i : Nat) (v v' : Vec 3), V[i]? = some v → V''[i]? = some v' → Pulled r S v v' := by
    intro i v v' e1 e2
    obtain ⟨g1, rfl⟩ := List.getElem?_eq_some_iff.1 e1
    obtain ⟨g2, rfl⟩ := List.getElem?_eq_some_iff.1 e2
    exact (List.forall₂_iff_get.1 h2).2 i g1 g2
  have hone : ∀ v ∈ V, inner v v = 1 := fun v hv => (inner_self_one v).2 (hV v hv)
  have habs : ∀ v, inner v v = 1 → |inner v r| = Real.sqrt (1 - offLine r v ^ 2) := by
    intro v hv
    rw [offLine_sq r v hrr hv, show 1 - (1 - inner v r ^ 2) = inner v r ^ 2 by ring, Real.sqrt_sq_eq_abs]
  have hle1 : ∀ v, inner v v = 1 → offLine r v ≤ 1 := by
    intro v hv
    have := offLine_sq r v hrr hv
    nlinarith [sq_nonneg (inner v r), offLine_nonneg r v]
  have hanti : ∀ a b : ℝ, 0 ≤ a → b ≤ 1 → 0 ≤ b → a ≤ 1 → (Real.sqrt (1 - b ^ 2) < Real.sqrt (1 - a ^ 2) ↔ a < b) := by
    intro a b ha hb hb0 ha1
    rw [Real.sqrt_lt_sqrt_iff (by nlinarith)]
    constructor
    · intro h; nlinarith
    · intro h; nlinarith
  have habslt : ∀ u v, inner u u = 1 → inner v v = 1 → (|inner u r| < |inner v r| ↔ offLine r v < offLine r u) := by
    intro u v hu hv
    rw [habs u hu, habs v hv]
    exact hanti _ _ (offLine_nonneg _ _) (hle1 u hu) (offLine_nonneg _ _) (hle1 v hv)
  have hnew : ∀ (i : Nat) (v v' : Vec 3), V[i]? = some v → V''[i]? = some v' → v ∈ V ∧ inner v' v' = 1 ∧
      offLine r v' = shrink S (offLine r v) * offLine r v ∧ inner v' r = |inner v' r| := by
    intro i v v' e1 e2
    have hm : v ∈ V := List.mem_of_getElem? e1
    have hp' := hget i v v' e1 e2
    exact ⟨hm, (inner_self_one _).2 hp'.1, pulled_offLine r S v v' hrr (hone v hm) (hS.2 v hm) hp', (abs_of_nonneg hp'.2.1).symm⟩
  refine ⟨h2.length_eq.symm, fun i v v' e1 e2 => ?_, fun i j v v' u u' e1 e2 e3 e4 => ?_⟩
  · obtain ⟨hm, hv', hoff, hab⟩ := hnew i v v' e1 e2
    have hv := hone v hm
    have B := shrink_bounds S _ (offLine_nonneg r v) (hS.2 v hm)
    have hle : |inner v r| ≤ inner v' r := by
      rw [hab]
      by_contra hc
      have := (habslt v' v hv' hv).1 (not_le.1 hc)
      rw [hoff] at this
      nlinarith [offLine_nonneg r v]
    refine ⟨(inner_self_one _).1 hv', hle, Real.arccos_le_arccos ((le_abs_self _).trans hle), fun hvr ⟨u, hu, hlt⟩ => ?_, fun hfar hside => ?_⟩
    · rw [hab, habslt v v' hv hv', hoff]
      have hlt' := (habslt u v (hone u hu) hv).1 hlt
      have hlt2 : offLine r v < S := lt_of_lt_of_le hlt' (hS.2 u hu)
      have hs1 := shrink_lt_one S _ (offLine_nonneg r v) hlt2
      have hpos' : 0 < offLine r v := by
        refine lt_of_le_of_ne (offLine_nonneg r v) (fun h0 => ?_)
        have := offLine_sq r v hrr hv
        rw [← h0] at this
        have := (sq_lt_one_iff_abs_lt_one (inner v r)).2 hvr
        nlinarith
      nlinarith
    · have hfar' : offLine r v = S := by
        obtain ⟨u, hu, huS⟩ := hS.1
        refine le_antisymm (hS.2 v hm) ?_
        rw [← huS]
        by_contra hc
        exact absurd ((habslt u v (hone u hu) hv).2 (not_le.1 hc)) (not_lt.2 (hfar u hu))
      refine pulled_unique r S v v' v hrr hv (hS.2 v hm) (hget i v v' e1 e2) ⟨hV v hm, hside, 0, le_refl _, fun i => ?_⟩
      rw [hfar', shrink_self S hpos]; ring
  · obtain ⟨hm, hv', hoff, hab⟩ := hnew i v v' e1 e2
    obtain ⟨hmu, hu', hoffu, habu⟩ := hnew j u u' e3 e4
    rw [hab, habu, habslt v' u' hv' hu', habslt v u (hone v hm) (hone u hmu), hoff, hoffu]
    constructor
    · intro h
      by_contra hc
      rcases lt_or_eq_of_le (not_lt.1 hc) with q | q
      · exact absurd (shrunk_lt S _ _ (offLine_nonneg _ _) q (hS.2 u hmu)) (not_lt.2 h.le)
      · rw [q] at h; exact lt_irrefl _ h
    · intro h
      exact shrunk_lt S _ _ (offLine_nonneg _ _) h (hS.2 v hm)

theorem isDirection_nonneg (p r : Vec m) (h : IsDirection p r) (hp : NonNeg p) : NonNeg r := by
  rcases h with ⟨-, rfl⟩ | ⟨-, c, hc, he⟩
  · intro i; exact le_refl _
  · intro i
    have := hp i
    rw [he i] at this
    exact nonneg_of_mul_nonneg_right (by linarith) hc

theorem inner_nonneg_of (u w : Vec m) (hu : NonNeg u) (hw : NonNeg w) : 0 ≤ inner u w := Finset.sum_nonneg (fun i _ => mul_nonneg (hu i) (hw i))

/-- two different unit vectors without negative entries are not both on the line of a preference without negative entries -/
theorem off_line_exists (V : List (Vec m)) (r : Vec m) (hr : NonNeg r) (hrr : inner r r = 1) (hV : ∀ v ∈ V, len v = 1) (hN : ∀ v ∈ V, NonNeg v)
    (hnd : V.Nodup) (h2 : 2 ≤ V.length) : ∃ v ∈ V, v ≠ r ∧ v ≠ fun i => - r i := by
  have hneg : ∀ v ∈ V, v ≠ fun i => - r i := by
    intro v hv he
    have h1 := inner_nonneg_of v r (hN v hv) hr
    rw [he, show (fun i => - r i) = fun i => (-1 : ℝ) * r i + 0 * r i by funext i; ring, inner_add_smul, hrr] at h1
    linarith
  match V, h2 with
  | a :: b :: l, _ =>
    by_cases ha : a = r
    · have hb : b ≠ r := by
        rintro rfl
        rw [ha] at hnd
        simp at hnd
      exact ⟨b, by simp, hb, hneg b (by simp)⟩
    · exact ⟨a, by simp, ha, hneg a (by simp)⟩

/-- C86, histories of `interact_v2`: start from at least two different unit vectors without negative entries, and let every preference be without negative
entries and not along the third axis.  After any number of interactions the object holds just as many vectors, all of them finite, of unit length,
without negative entries and pairwise different, and nothing but the vectors has changed. -/
theorem c86_v2_history (ps : List (Vec 3)) (hps : ∀ p ∈ ps, NonNeg p ∧ (p 0 ≠ 0 ∨ p 1 ≠ 0)) : ∀ (s : FRV 3) (V : List (Vec 3)), s.values = V.map some →
    (∀ v ∈ V, len v = 1 ∧ NonNeg v) → V.Nodup → 2 ≤ V.length →
    ∃ V' : List (Vec 3), s.v2Calls ps = { s with values := V'.map some } ∧ V'.length = V.length ∧ (∀ v ∈ V', len v = 1 ∧ NonNeg v) ∧ V'.Nodup := by
  induction ps with
  | nil => intro s V hs hV hnd h2; exact ⟨V, by rw [← hs]; rfl, rfl, hV, hnd⟩
  | cons p ps ih =>
    intro s V hs hV hnd h2
    obtain ⟨hpN, hp⟩ := hps p List.mem_cons_self
    have hP := notParallel_last p hp
    have hr := unitVec_isDirection p hP.2.1
    have hrr := unitVec_self p hP.2.1
    have hrN := isDirection_nonneg p _ hr hpN
    obtain ⟨V', S, h1, hS, hpos, h3⟩ := c86_v2 s V hs (fun v hv => (hV v hv).1) p _ hp hr
      (off_line_exists V _ hrN hrr (fun v hv => (hV v hv).1) (fun v hv => (hV v hv).2) hnd h2)
    have hlen := h3.length_eq
    have hget : ∀ (i : Nat) (g1 : i < V.length) (g2 : i < V'.length), Pulled (unitVec p) S V[i] V'[i] := (List.forall₂_iff_get.1 h3).2
    have hV' : ∀ v ∈ V', len v = 1 ∧ NonNeg v := by
      intro v hv
      obtain ⟨i, hi, rfl⟩ := List.getElem_of_mem hv
      have hi' : i < V.length := hlen ▸ hi
      obtain ⟨q1, q2, b, hb, he⟩ := hget i hi' hi
      refine ⟨q1, fun j => ?_⟩
      rw [he j]
      have hm := List.getElem_mem hi'
      exact add_nonneg (mul_nonneg (shrink_bounds S _ (offLine_nonneg _ _) (hS.2 _ hm)).1 ((hV _ hm).2 j)) (mul_nonneg hb (hrN j))
    have hnd' : V'.Nodup := by
      rw [List.nodup_iff_injective_getElem] at hnd ⊢
      intro i j hij
      have hi' : i.val < V.length := by have := i.2; omega
      have hj' : j.val < V.length := by have := j.2; omega
      have mi := List.getElem_mem hi'
      have mj := List.getElem_mem hj'
      have e1 := hget i.val hi' i.2
      have e2 := hget j.val hj' j.2
      rw [show V'[j.val] = V'[i.val] from hij.symm] at e2
      have := pulled_injective (unitVec p) S _ _ _ hrr ((inner_self_one _).2 (hV _ mi).1) ((inner_self_one _).2 (hV _ mj).1) (hS.2 _ mi) (hS.2 _ mj)
        (inner_nonneg_of _ _ (hV _ mi).2 hrN) (inner_nonneg_of _ _ (hV _ mj).2 hrN) e1 e2
      have q := @hnd ⟨i.val, hi'⟩ ⟨j.val, hj'⟩ this
      exact Fin.ext (Fin.mk.inj q)
    obtain ⟨V'', e1, e2, e3, e4⟩ := ih (fun q hq => hps q (List.mem_cons_of_mem _ hq)) { s with values := V'.map some } V' rfl hV' hnd' (by omega)
    refine ⟨V'', ?_, by omega, e3, e4⟩
    show ((s.interactV2 p).2).v2Calls ps = _
    rw [h1]
    exact e1

/-- C86, end to end: a freshly constructed object with three objectives and any resolution meets the hypotheses above, so every history of
such preferences leaves it with `(r+2 choose 2)` finite, different unit vectors without negative entries. -/
theorem c86_fresh_history (res : Nat) (hres : 1 ≤ res) (ps : List (Vec 3)) (hps : ∀ p ∈ ps, NonNeg p ∧ (p 0 ≠ 0 ∨ p 1 ≠ 0)) :
    ∃ (s : RV 3) (V : List (Vec 3)), RV.create 3 res = .ok s ∧ s.asFRV.v2Calls ps = { s.asFRV with values := V.map some } ∧ V.length = Nat.choose (res + 2) 2 ∧
      (∀ v ∈ V, len v = 1 ∧ NonNeg v) ∧ V.Nodup := by
  obtain ⟨s0, hc, hval⟩ : ∃ s0 : RV 3, RV.create 3 res = .ok s0 ∧ s0.values = ((weights 3 res).map (latticeRow 3 res)).map unitRow :=
    ⟨_, create_ok (m := 3) res (by norm_num) hres, rfl⟩
  have hsum : ∀ v ∈ (weights 3 res).map (latticeRow 3 res), (∀ i, 0 ≤ v i) ∧ ∑ i, v i = 1 := by
    intro v hv
    have hl := (latticeRow_spec res (by norm_num) v).1 hv
    refine ⟨fun i => ?_, lattice_sum res hres v hl⟩
    obtain ⟨k, -, h2⟩ := hl
    rw [h2 i]; positivity
  have hnz : ∀ v ∈ (weights 3 res).map (latticeRow 3 res), v ≠ 0 := by
    intro v hv h0
    have := (hsum v hv).2
    rw [h0] at this
    simp at this
  have hlen : (((weights 3 res).map (latticeRow 3 res)).map unitRow).length = Nat.choose (res + 2) 2 := by
    simp [length_weights 3 res (by norm_num)]
  have hnd : (((weights 3 res).map (latticeRow 3 res)).map unitRow).Nodup := by
    refine List.Nodup.map_on (fun u hu v hv huv => ?_) (nodup_lattice res (by norm_num) hres)
    have key : ∀ w ∈ (weights 3 res).map (latticeRow 3 res), planarRow (unitRow w) = w := by
      intro w hw
      have hn : norm2 w ≠ 0 := (norm2_eq_zero w).not.2 (hnz w hw)
      funext i
      unfold planarRow unitRow
      rw [if_neg hn, ← Finset.sum_div, (hsum w hw).2]
      field_simp
    rw [← key u hu, huv, key v hv]
  have hunit : ∀ v ∈ ((weights 3 res).map (latticeRow 3 res)).map unitRow, len v = 1 ∧ NonNeg v := by
    intro v hv
    obtain ⟨w, hw, rfl⟩ := List.mem_map.1 hv
    refine ⟨by rw [← norm2_eq_len]; exact norm2_unitRow w (hnz w hw), fun i => ?_⟩
    have hn : norm2 w ≠ 0 := (norm2_eq_zero w).not.2 (hnz w hw)
    unfold unitRow
    rw [if_neg hn]
    exact div_nonneg ((hsum w hw).1 i) (norm2_nonneg w)
  obtain ⟨V', e1, e2, e3, e4⟩ := c86_v2_history ps hps s0.asFRV _ (by rw [← hval]; rfl) hunit hnd (by
    rw [hlen]
    have := Nat.choose_le_choose 2 (show 3 ≤ res + 2 by omega)
    have h3 : Nat.choose 3 2 = 3 := by decide
    omega)
  exact ⟨s0, V', hc, e1, by rw [e2, hlen], e3, e4⟩

/-- C86: with another number of objectives every interaction is refused, the object unchanged. -/
theorem c86_v2_three_objectives_only (s : FRV (k + 1)) (hk : k + 1 ≠ 3) (p : Vec (k + 1)) : s.interactV2 p = (.error .valueError, s) := by
  unfold FRV.interactV2
  rw [if_pos hk]

theorem distTranslate_none {W : List (Option (Vec k))} (h : none ∈ W) : distTranslate W = .ok (W.map (fun _ => none)) := by
  unfold distTranslate
  rw [if_neg (by rintro rfl; simp at h), if_pos h]

theorem rotateN_nan (a b : Vec m) (n : Nat) : rotateN a b (List.replicate n none) = List.replicate n none := by
  unfold rotateN
  split <;> simp

theorem map_const_none {α β : Type} (l : List α) : l.map (fun _ => (none : Option β)) = List.replicate l.length none := by
  induction l with
  | nil => rfl
  | cons a l ih => simp [ih, List.replicate_succ]

/-- all NaN after the translation: all NaN in the end -/
theorem v2_all_nan (s : FRV 3) (p : Vec 3) (h : distTranslate (((rotateN p (axis (Fin.last 2)) s.values).map (Option.map projectRow)).map
    (Option.map (Fin.init : Vec 3 → Vec 2))) = .ok (((rotateN p (axis (Fin.last 2)) s.values).map (Option.map projectRow)).map (fun _ => none))) :
    s.interactV2 p = (.ok (), { s with values := List.replicate s.values.length none }) := by
  have hl : ((rotateN p (axis (Fin.last 2)) s.values).map (Option.map (projectRow (k := 2)))).length = s.values.length := by
    unfold rotateN; split <;> simp
  unfold FRV.interactV2
  rw [if_neg (by decide)]
  simp only [h]
  rw [map_const_none, hl]
  simp only [List.map_replicate, Option.map_none, Option.bind_none]
  rw [rotateN_nan]

/-- C86, a violation: a preference along the third axis (a decision maker who cares about the third objective only, or the zero vector) turns
every reference vector into NaN, without an error. -/
theorem c86_v2_third_axis_violated (s : FRV 3) (hne : s.values ≠ []) (p : Vec 3) (h0 : p 0 = 0) (h1 : p 1 = 0) :
    s.interactV2 p = (.ok (), { s with values := List.replicate s.values.length none }) := by
  have hpar : p = 0 ∨ ∃ c : ℝ, axis (Fin.last 2) = fun i => c * p i := by
    by_cases h2 : p 2 = 0
    · left; funext i; fin_cases i <;> simp [h0, h1, h2]
    · right
      refine ⟨(p 2)⁻¹, ?_⟩
      funext i
      fin_cases i
      · simp [h0, axis]
      · simp [h1, axis]
      · show axis (Fin.last 2) 2 = (p 2)⁻¹ * p 2
        rw [inv_mul_cancel₀ h2]; rfl
  refine v2_all_nan s p ?_
  rw [rotateN_parallel p _ hpar]
  rw [distTranslate_none]
  · simp
  · cases hv : s.values with
    | nil => exact absurd hv hne
    | cons a l => simp

/-- C86, a violation: one NaN vector, or all vectors on the line of the preference, and every vector becomes NaN, without an error. -/
theorem c86_v2_nan_violated (s : FRV 3) (p r : Vec 3) (hp : p 0 ≠ 0 ∨ p 1 ≠ 0) (hr : IsDirection p r)
    (h : none ∈ s.values ∨ (s.values ≠ [] ∧ ∀ v ∈ s.values, v = some r ∨ v = some (fun i => - r i))) :
    s.interactV2 p = (.ok (), { s with values := List.replicate s.values.length none }) := by
  have hP' := notParallel_symm _ _ (notParallel_last p hp)
  refine v2_all_nan s p ?_
  rw [rotateN_ok _ _ hP']
  by_cases hn : none ∈ s.values
  · rw [distTranslate_none]
    · simp
    · simp only [List.map_map, List.mem_map]
      exact ⟨none, hn, rfl⟩
  · obtain ⟨hne, hall⟩ := h.resolve_left hn
    have hax : IsDirection (axis (Fin.last 2)) (axis (Fin.last 2)) := isDirection_self _ (axis_unit _)
    have hRr := (rotateN_rigid p (axis (Fin.last 2)) hP').2 r _ hr hax
    have hz : ((s.values.map (Option.map (fun x => (rotationMatrix p (axis (Fin.last 2))).mulVec x))).map (Option.map projectRow)).map
        (Option.map (Fin.init : Vec 3 → Vec 2)) = List.replicate s.values.length (some (fun _ => 0)) := by
      rw [List.map_map, List.map_map]
      refine List.eq_replicate_iff.2 ⟨by simp, fun b hb => ?_⟩
      obtain ⟨v, hv, rfl⟩ := List.mem_map.1 hb
      have hi : (Fin.init (axis (Fin.last 2)) : Vec 2) = fun _ => 0 := by
        funext j
        simp only [Fin.init, axis]
        rw [if_neg (Fin.castSucc_lt_last j).ne']
      rcases hall v hv with rfl | rfl
      · simp only [Function.comp_apply, Option.map_some, hRr, projectRow, Fin.init_snoc, hi]
      · have hneg : (rotationMatrix p (axis (Fin.last 2))).mulVec (fun i => - r i) = fun i => - axis (Fin.last 2) i := by
          rw [show (fun i => - r i) = -r from rfl, Matrix.mulVec_neg, hRr]; rfl
        simp only [Function.comp_apply, Option.map_some, hneg, projectRow, Fin.init_snoc]
        congr 1
        funext j
        have := congrFun hi j
        simp only [Fin.init] at this ⊢
        rw [this, neg_zero]
    have hpos : 0 < s.values.length := List.length_pos_iff.2 hne
    rw [hz]
    unfold distTranslate
    rw [if_neg (by intro h; have := congrArg List.length h; rw [List.length_replicate, List.length_nil] at this; omega), if_neg (by simp)]
    have hm : (((List.replicate s.values.length (some (fun _ => 0 : Vec 2))).filterMap id).map norm2).foldl max 0 = 0 := by
      have h0 : norm2 (fun _ => 0 : Vec 2) = 0 := (norm2_eq_zero _).2 rfl
      obtain ⟨-, -, q⟩ := foldl_max_real (((List.replicate s.values.length (some (fun _ => 0 : Vec 2))).filterMap id).map norm2) 0
      rcases q with q | q
      · exact q
      · obtain ⟨w, hw, he⟩ := List.mem_map.1 q
        obtain ⟨a, ha, hb⟩ := List.mem_filterMap.1 hw
        rw [List.eq_of_mem_replicate ha] at hb
        simp only [id_eq, Option.some.injEq] at hb
        rw [← he, ← hb, h0]
    simp only [hm]
    rw [if_pos trivial, map_const_none, map_const_none]
    simp only [List.length_replicate, List.length_map]

/-! ## `interact_v3` -/

theorem pmOnes_spec (n : Nat) : ∀ l, l ∈ pmOnes n ↔ l.length = n ∧ ∀ x ∈ l, x = -1 ∨ x = 1 := by
  induction n with
  | zero => intro l; cases l <;> simp [pmOnes]
  | succ n ih =>
    intro l
    unfold pmOnes
    cases l with
    | nil => simp
    | cons a l =>
      simp only [List.flatMap_cons, List.flatMap_nil, List.append_nil, List.mem_append, List.mem_map, List.cons.injEq, List.length_cons,
        List.mem_cons, forall_eq_or_imp]
      constructor
      · rintro (⟨r, hr, rfl, rfl⟩ | ⟨r, hr, rfl, rfl⟩)
        · exact ⟨by rw [((ih r).1 hr).1], Or.inl rfl, ((ih r).1 hr).2⟩
        · exact ⟨by rw [((ih r).1 hr).1], Or.inr rfl, ((ih r).1 hr).2⟩
      · rintro ⟨h1, h2, h3⟩
        have hl := (ih l).2 ⟨by omega, h3⟩
        rcases h2 with rfl | rfl
        · exact Or.inl ⟨l, hl, rfl, rfl⟩
        · exact Or.inr ⟨l, hl, rfl, rfl⟩

/-- the sign rows: all combinations of signs of the first entries, the last entry `1` -/
theorem mem_signRows (c : Vec (k + 1)) : c ∈ signRows k ↔ c (Fin.last k) = 1 ∧ ∀ i, c i = 1 ∨ c i = -1 := by
  unfold signRows
  rw [List.mem_map]
  constructor
  · rintro ⟨l, hl, rfl⟩
    obtain ⟨h1, h2⟩ := (pmOnes_spec _ l).1 hl
    refine ⟨by simp, fun i => ?_⟩
    refine Fin.lastCases ?_ (fun j => ?_) i
    · simp
    · rw [Fin.snoc_castSucc]
      unfold toVec
      have hj : j.val < l.length := by rw [h1]; omega
      rw [List.getD_eq_getElem _ _ hj]
      exact (h2 _ (List.getElem_mem hj)).symm
  · rintro ⟨h1, h2⟩
    refine ⟨List.ofFn c, (pmOnes_spec _ _).2 ⟨by simp, fun x hx => ?_⟩, ?_⟩
    · obtain ⟨i, rfl⟩ := (List.mem_ofFn' c x).1 hx
      exact (h2 i).symm
    · funext i
      refine Fin.lastCases ?_ (fun j => ?_) i
      · simp [h1]
      · rw [Fin.snoc_castSucc]
        unfold toVec
        rw [List.getD_eq_getElem _ _ (by rw [List.length_ofFn]; omega), List.getElem_ofFn]
        rfl

/-- every sign row occurs twice -/
theorem pmOnes_snoc (n : Nat) : pmOnes (n + 1) = (pmOnes n).flatMap (fun l => [l ++ [-1], l ++ [1]]) := by
  induction n with
  | zero => simp [pmOnes]
  | succ n ih =>
    rw [pmOnes]
    conv_rhs => rw [pmOnes]
    simp only [List.flatMap_cons, List.flatMap_nil, List.append_nil, List.flatMap_append]
    rw [ih, List.map_flatMap, List.map_flatMap, List.flatMap_map, List.flatMap_map]
    simp

theorem signRows_double (k : Nat) : signRows k = (pmOnes k).flatMap (fun l => [(Fin.snoc (toVec k l) 1 : Vec (k + 1)), Fin.snoc (toVec k l) 1]) := by
  unfold signRows
  rw [pmOnes_snoc, List.map_flatMap]
  refine List.flatMap_congr (fun l hl => ?_)
  have hlen := ((pmOnes_spec k l).1 hl).1
  have : ∀ a : ℝ, toVec k (l ++ [a]) = toVec k l := by
    intro a
    funext i
    unfold toVec
    have hi : i.val < l.length := by rw [hlen]; exact i.2
    rw [List.getD_eq_getElem _ _ hi, List.getD_eq_getElem _ _ (by simp; omega), List.getElem_append_left hi]
  simp [this]

theorem mirrored_some (I : List (Vec (k + 1))) : mirrored (I.map some) = ((signRows k).flatMap (fun c => I.map (fun v i => v i * c i))).map some := by
  unfold mirrored
  rw [List.map_flatMap]
  refine List.flatMap_congr (fun c _ => ?_)
  simp [List.map_map, Function.comp_def]

theorem flipped_iff (v w : Vec (k + 1)) : Flipped (Fin.last k) v w ↔ ∃ c ∈ signRows k, w = fun i => v i * c i := by
  constructor
  · rintro ⟨h1, h2⟩
    classical
    refine ⟨fun i => if w i = v i then 1 else -1, (mem_signRows _).2 ⟨if_pos h1, fun i => ?_⟩, ?_⟩
    · by_cases h : w i = v i
      · exact Or.inl (if_pos h)
      · exact Or.inr (if_neg h)
    · funext i
      by_cases h : w i = v i
      · simp only [h, if_true, mul_one]
      · simp only [h, if_false]
        rcases h2 i with q | q
        · exact absurd q h
        · rw [q]; ring
  · rintro ⟨c, hc, rfl⟩
    obtain ⟨h1, h2⟩ := (mem_signRows c).1 hc
    refine ⟨by show v _ * c _ = _; rw [h1, mul_one], fun i => ?_⟩
    rcases h2 i with q | q
    · left; show v _ * c _ = _; rw [q, mul_one]
    · right; show v _ * c _ = _; rw [q]; ring

theorem mem_flips (I : List (Vec (k + 1))) (y : Vec (k + 1)) :
    y ∈ (signRows k).flatMap (fun c => I.map (fun v i => v i * c i)) ↔ ∃ v ∈ I, Flipped (Fin.last k) v y := by
  rw [List.mem_flatMap]
  constructor
  · rintro ⟨c, hc, hy⟩
    obtain ⟨v, hv, rfl⟩ := List.mem_map.1 hy
    exact ⟨v, hv, (flipped_iff _ _).2 ⟨c, hc, rfl⟩⟩
  · rintro ⟨v, hv, hf⟩
    obtain ⟨c, hc, rfl⟩ := (flipped_iff _ _).1 hf
    exact ⟨c, hc, List.mem_map.2 ⟨v, hv, rfl⟩⟩

theorem flipped_inner (l : Fin m) (v w : Vec m) (h : Flipped l v w) : inner w w = inner v v := by
  unfold inner
  refine Finset.sum_congr rfl (fun i _ => ?_)
  rcases h.2 i with q | q <;> rw [q] ; ring

theorem flipped_offLine (v w : Vec (k + 1)) (h : Flipped (Fin.last k) v w) : offLine (axis (Fin.last k)) w = offLine (axis (Fin.last k)) v := by
  unfold offLine
  rw [inner_comm, inner_axis, inner_comm v, inner_axis, h.1]

theorem offLine_axis_ne (v : Vec (k + 1)) (hv : inner v v = 1) (j : Fin k) (hj : v j.castSucc ≠ 0) : offLine (axis (Fin.last k)) v ≠ 0 := by
  rw [← norm2_init v hv, ne_eq, norm2_eq_zero]
  intro h
  exact hj (congrFun h j)

theorem forall₂_mem_right {α β : Type} {R : α → β → Prop} {l : List α} {l' : List β} (h : List.Forall₂ R l l') {b : β} (hb : b ∈ l') :
    ∃ a ∈ l, R a b := by
  induction h with
  | nil => simp at hb
  | cons h _ ih =>
    rcases List.mem_cons.1 hb with rfl | hb
    · exact ⟨_, List.mem_cons_self, h⟩
    · obtain ⟨a, ha, hab⟩ := ih hb
      exact ⟨a, List.mem_cons_of_mem _ ha, hab⟩

theorem forall₂_mem_left {α β : Type} {R : α → β → Prop} {l : List α} {l' : List β} (h : List.Forall₂ R l l') {a : α} (ha : a ∈ l) :
    ∃ b ∈ l', R a b := forall₂_mem_right h.flip ha

theorem keptRow_some (v : Vec (k + 1)) : keptRow (some v) = true ↔ NonNeg v := by
  unfold keptRow NonNeg
  simp

/-- `interact_v3` on finite unit initial vectors: the list it computes -/
theorem v3_form (s : FRV 3) (I : List (Vec 3)) (hs : s.init = I.map some) (hI : ∀ v ∈ I, len v = 1) (p : Vec 3)
    (hp : p 0 ≠ 0 ∨ p 1 ≠ 0) (hne : ∃ v ∈ I, v 0 ≠ 0 ∨ v 1 ≠ 0) :
    ∃ (Y' : List (Vec 3)) (S : ℝ), s.interactV3 p = (.ok (), { s with values := ((Y'.map (fun y => (rotationMatrix (axis (Fin.last 2)) p).mulVec y)).map some).filter keptRow }) ∧
      IsFarthest (axis (Fin.last 2)) I S ∧ List.Forall₂ (Pulled (axis (Fin.last 2)) S) ((signRows 2).flatMap (fun c => I.map (fun v i => v i * c i))) Y' := by
  have hP := notParallel_last p hp
  have hunit : ∀ y ∈ (signRows 2).flatMap (fun c => I.map (fun v i => v i * c i)), inner y y = 1 := by
    intro y hy
    obtain ⟨v, hv, hf⟩ := (mem_flips I y).1 hy
    rw [flipped_inner _ v y hf]
    exact (inner_self_one _).2 (hI v hv)
  have hself : ∀ v ∈ I, v ∈ (signRows 2).flatMap (fun c => I.map (fun v i => v i * c i)) :=
    fun v hv => (mem_flips I v).2 ⟨v, hv, rfl, fun i => Or.inl rfl⟩
  obtain ⟨v0, hv0, hne⟩ := hne
  have hoff : offLine (axis (Fin.last 2)) v0 ≠ 0 := by
    rcases hne with h | h
    · exact offLine_axis_ne v0 ((inner_self_one _).2 (hI v0 hv0)) 0 h
    · exact offLine_axis_ne v0 ((inner_self_one _).2 (hI v0 hv0)) 1 h
  obtain ⟨W, S, Y', h1, h2, h3, h4, h5⟩ := pulled_rows _ hunit ⟨v0, hself v0 hv0, hoff⟩
  refine ⟨Y', S, ?_, ⟨?_, fun v hv => h3.2 v (hself v hv)⟩, h5⟩
  · unfold FRV.interactV3
    rw [hs, mirrored_some]
    simp only [h1, h2]
    rw [if_neg (by decide), rotateN_ok _ _ hP]
    simp [List.map_map, Function.comp_def]
  · obtain ⟨y, hy, he⟩ := h3.1
    obtain ⟨v, hv, hf⟩ := (mem_flips I y).1 hy
    exact ⟨v, hv, by rw [← flipped_offLine v y hf]; exact he⟩

/-- C86. `interact_v3(p)` with three objectives, finite unit initial vectors not all on the third axis, and a preference not along the third
axis, whatever the current vectors are: the call returns, and the new vectors are exactly the following.  Take every initial vector with every
combination of signs of its first two entries, pull it towards the third axis, turn the third axis onto the preferred direction, and keep
the results without negative entries.  Nothing else in the object changes: `number_of_vectors` and the planar vectors stay as they were. -/
theorem c86_v3 (s : FRV 3) (I : List (Vec 3)) (hs : s.init = I.map some) (hI : ∀ v ∈ I, len v = 1) (p r e : Vec 3) (he : IsAxis 2 e)
    (hp : p 0 ≠ 0 ∨ p 1 ≠ 0) (hr : IsDirection p r) (hne : ∃ v ∈ I, v 0 ≠ 0 ∨ v 1 ≠ 0) :
    ∃ (V' : List (Vec 3)) (S : ℝ) (R : Vec 3 → Vec 3), s.interactV3 p = (.ok (), { s with values := V'.map some }) ∧ IsFarthest e I S ∧ Rigid R ∧ R e = r ∧
      ∀ u, u ∈ V' ↔ NonNeg u ∧ ∃ v ∈ I, ∃ w w', Flipped 2 v w ∧ Pulled e S w w' ∧ u = R w' := by
  have hee : e = axis (Fin.last 2) := by
    funext i
    by_cases hi : i = 2
    · subst hi; rw [he.1]; rfl
    · rw [he.2 i hi]; simp only [axis]; rw [if_neg (fun h => hi h.symm)]
  subst hee
  have hP := notParallel_last p hp
  obtain ⟨hR, hRe⟩ := rotateN_rigid (axis (Fin.last 2)) p hP
  obtain ⟨Y', S, h1, h2, h3⟩ := v3_form s I hs hI p hp hne
  have hSy : ∀ v ∈ I, ∀ w, Flipped (Fin.last 2) v w → inner w w = 1 ∧ offLine (axis (Fin.last 2)) w ≤ S := by
    intro v hv w hw
    refine ⟨by rw [flipped_inner _ v w hw]; exact (inner_self_one _).2 (hI v hv), ?_⟩
    rw [flipped_offLine v w hw]; exact h2.2 v hv
  have hfilt : ∀ L : List (Vec 3), (L.map some).filter keptRow = (L.filter (fun v => keptRow (some v))).map some := by
    intro L; rw [List.filter_map]; rfl
  refine ⟨(Y'.map (fun y => (rotationMatrix (axis (Fin.last 2)) p).mulVec y)).filter (fun v => keptRow (some v)), S,
    fun y => (rotationMatrix (axis (Fin.last 2)) p).mulVec y, by rw [h1, hfilt], h2, hR,
    hRe _ r (isDirection_self _ (axis_unit _)) hr, fun u => ?_⟩
  rw [List.mem_filter, keptRow_some, List.mem_map, and_comm]
  refine and_congr_right (fun _ => ?_)
  constructor
  · rintro ⟨y', hy', rfl⟩
    obtain ⟨w, hw, hpw⟩ := forall₂_mem_right h3 hy'
    obtain ⟨v, hv, hf⟩ := (mem_flips I w).1 hw
    exact ⟨v, hv, w, y', hf, hpw, rfl⟩
  · rintro ⟨v, hv, w, w', hf, hpw, rfl⟩
    obtain ⟨y', hy', hpy⟩ := forall₂_mem_left h3 ((mem_flips I w).2 ⟨v, hv, hf⟩)
    obtain ⟨q1, q2⟩ := hSy v hv w hf
    exact ⟨y', hy', by rw [pulled_unique _ S w w' y' (axis_unit _) q1 q2 hpw hpy]⟩

theorem doubled_sublist {α β : Type} (l : List α) (f : α → List β) (u : β) (h : u ∈ l.flatMap (fun x => f x ++ f x)) :
    [u, u].Sublist (l.flatMap (fun x => f x ++ f x)) := by
  induction l with
  | nil => simp at h
  | cons x l ih =>
    rw [List.flatMap_cons, List.mem_append, List.mem_append, or_self] at h
    rw [List.flatMap_cons]
    rcases h with h | h
    · exact ((List.singleton_sublist.2 h).append (List.singleton_sublist.2 h)).trans (List.sublist_append_left _ _)
    · exact (ih h).trans (List.sublist_append_right _ _)

theorem forall₂_functional {α β : Type} {R : α → β → Prop} {l : List α} {l' : List β} (h : List.Forall₂ R l l')
    (hf : ∀ a ∈ l, ∀ b b', R a b → R a b' → b = b') : l' = [] ∨ ∃ g : α → β, l' = l.map g := by
  classical
  cases l' with
  | nil => exact Or.inl rfl
  | cons b0 l' =>
    right
    refine ⟨fun a => if h : ∃ b, R a b then h.choose else b0, ?_⟩
    generalize b0 :: l' = L at h
    induction h with
    | nil => rfl
    | cons hab _ ih =>
      rename_i a b l L _
      rw [List.map_cons, ← ih (fun a' ha' => hf a' (List.mem_cons_of_mem _ ha'))]
      congr 1
      have hex : ∃ b, R a b := ⟨b, hab⟩
      rw [dif_pos hex]
      exact hf a List.mem_cons_self _ _ hab hex.choose_spec

/-- C86, a violation: under the hypotheses of `c86_v3` every vector that `interact_v3` leaves is there at least twice, so the vectors are never
different from one another unless there are none. -/
theorem c86_v3_duplicates_violated (s : FRV 3) (I : List (Vec 3)) (hs : s.init = I.map some) (hI : ∀ v ∈ I, len v = 1) (p : Vec 3)
    (hp : p 0 ≠ 0 ∨ p 1 ≠ 0) (hne : ∃ v ∈ I, v 0 ≠ 0 ∨ v 1 ≠ 0) :
    ∀ u ∈ (s.interactV3 p).2.values, [u, u].Sublist (s.interactV3 p).2.values := by
  obtain ⟨Y', S, h1, h2, h3⟩ := v3_form s I hs hI p hp hne
  have hfun : ∀ a ∈ (signRows 2).flatMap (fun c => I.map (fun v i => v i * c i)), ∀ b b', Pulled (axis (Fin.last 2)) S a b →
      Pulled (axis (Fin.last 2)) S a b' → b = b' := by
    intro a ha b b' q q'
    obtain ⟨v, hv, hf⟩ := (mem_flips I a).1 ha
    refine pulled_unique _ S a b b' (axis_unit _) ?_ ?_ q q'
    · rw [flipped_inner _ v a hf]; exact (inner_self_one _).2 (hI v hv)
    · rw [flipped_offLine v a hf]; exact h2.2 v hv
  rw [h1]
  rcases forall₂_functional h3 hfun with rfl | ⟨g, rfl⟩
  · simp
  · show ∀ u ∈ List.filter _ _, [u, u].Sublist (List.filter _ _)
    have : ((((signRows 2).flatMap (fun c => I.map (fun v i => v i * c i))).map g).map
        (fun y => (rotationMatrix (axis (Fin.last 2)) p).mulVec y)).map some =
        (pmOnes 2).flatMap (fun l => (I.map (fun v => some ((rotationMatrix (axis (Fin.last 2)) p).mulVec (g (fun i => v i * (Fin.snoc (toVec 2 l) 1 : Vec 3) i))))) ++
          (I.map (fun v => some ((rotationMatrix (axis (Fin.last 2)) p).mulVec (g (fun i => v i * (Fin.snoc (toVec 2 l) 1 : Vec 3) i)))))) := by
      rw [signRows_double, List.flatMap_assoc, List.map_flatMap, List.map_flatMap, List.map_flatMap]
      simp [List.map_map, Function.comp_def]
    rw [this, List.filter_flatMap]
    simp only [List.filter_append]
    intro u hu
    exact doubled_sublist (pmOnes 2) (fun l => (I.map (fun v => some ((rotationMatrix (axis (Fin.last 2)) p).mulVec (g (fun i => v i * (Fin.snoc (toVec 2 l) 1 : Vec 3) i))))).filter keptRow) u hu

/-- C86: if the third axis is an initial vector (it is for every freshly constructed object) and the preference has no negative entry, the preferred
direction itself is among the vectors after `interact_v3`. -/
theorem c86_v3_keeps_preference (s : FRV 3) (I : List (Vec 3)) (hs : s.init = I.map some) (hI : ∀ v ∈ I, len v = 1) (p r e : Vec 3) (he : IsAxis 2 e)
    (hp : p 0 ≠ 0 ∨ p 1 ≠ 0) (hr : IsDirection p r) (hne : ∃ v ∈ I, v 0 ≠ 0 ∨ v 1 ≠ 0) (heI : e ∈ I) (hN : NonNeg p) :
    (s.interactV3 p).1 = .ok () ∧ some r ∈ (s.interactV3 p).2.values := by
  obtain ⟨V', S, R, h1, h2, h3, h4, h5⟩ := c86_v3 s I hs hI p r e he hp hr hne
  have hee : inner e e = 1 := (inner_self_one e).2 (hI e heI)
  rw [h1]
  refine ⟨rfl, List.mem_map_of_mem ((h5 r).2 ⟨isDirection_nonneg p r hr hN, e, heI, e, e, ⟨rfl, fun i => Or.inl rfl⟩, ⟨hI e heI, ?_, 1, zero_le_one, fun i => ?_⟩, h4.symm⟩)⟩
  · rw [hee]; exact zero_le_one
  · have h0 : offLine e e = 0 := by unfold offLine; rw [hee]; simp
    unfold shrink
    rw [if_pos h0]; ring

/-- C86, a violation: a preference whose entries are all negative leaves no vector at all, without an error. -/
theorem c86_v3_negative_violated (s : FRV 3) (I : List (Vec 3)) (hs : s.init = I.map some) (hI : ∀ v ∈ I, len v = 1) (p : Vec 3)
    (hN : ∀ i, p i < 0) (hne : ∃ v ∈ I, v 0 ≠ 0 ∨ v 1 ≠ 0) : s.interactV3 p = (.ok (), { s with values := [] }) := by
  have hp : p 0 ≠ 0 ∨ p 1 ≠ 0 := Or.inl (hN 0).ne
  have hP := notParallel_last p hp
  have hr := unitVec_isDirection p hP.2.1
  obtain ⟨V', S, R, h1, h2, h3, h4, h5⟩ := c86_v3 s I hs hI p _ (axis 2) ⟨by simp [axis], fun j hj => by simp [axis, Ne.symm hj]⟩ hp hr hne
  have hnil : V' = [] := by
    rw [List.eq_nil_iff_forall_not_mem]
    intro u hu
    obtain ⟨hu0, v, hv, w, w', hf, hpw, rfl⟩ := (h5 u).1 hu
    have hRr : 0 ≤ inner (R w') (unitVec p) := by
      rw [← h4, h3]; exact hpw.2.1
    have huu : inner (R w') (R w') = 1 := by rw [h3]; exact (inner_self_one _).2 hpw.1
    have hrneg : ∀ i, unitVec p i < 0 := by
      intro i
      have hpos : 0 < norm2 p := lt_of_le_of_ne (norm2_nonneg p) (Ne.symm ((norm2_eq_zero p).not.2 hP.2.1))
      exact div_neg_of_neg_of_pos (hN i) hpos
    have hterm : ∀ i ∈ Finset.univ, R w' i * unitVec p i ≤ 0 := fun i _ => mul_nonpos_of_nonneg_of_nonpos (hu0 i) (hrneg i).le
    have hz : ∀ i, R w' i = 0 := by
      have hsum : ∑ i, R w' i * unitVec p i = 0 := le_antisymm (Finset.sum_nonpos hterm) hRr
      intro i
      have := (Finset.sum_eq_zero_iff_of_nonpos hterm).1 hsum i (Finset.mem_univ i)
      rcases mul_eq_zero.1 this with q | q
      · exact q
      · exact absurd q (hrneg i).ne
    have : inner (R w') (R w') = 0 := (inner_self_eq_zero _).2 (funext hz)
    rw [this] at huu
    norm_num at huu
  rw [h1, hnil]; rfl

/-- C86: a set of vectors that `interact_v3` has emptied stays empty: every later `interact_v2` raises ValueError, whatever the preferences. -/
theorem c86_v2_empty (s : FRV 3) (hs : s.values = []) (ps : List (Vec 3)) :
    s.v2Calls ps = s ∧ ∀ p, (s.v2Calls ps).interactV2 p = (.error .valueError, s) := by
  have one : ∀ p, s.interactV2 p = (.error .valueError, s) := by
    intro p
    have hr : ∀ a b : Vec 3, rotateN a b s.values = [] := by
      intro a b
      unfold rotateN
      split <;> simp [hs]
    unfold FRV.interactV2
    rw [if_neg (by simp)]
    simp only [hr, List.map_nil, distTranslate, if_true]
    simp only [Prod.mk.injEq, true_and]
    rw [← hs]
  have all : s.v2Calls ps = s := by
    unfold FRV.v2Calls
    induction ps with
    | nil => rfl
    | cons p ps ih => rw [List.foldl_cons, one p]; exact ih
  exact ⟨all, fun p => by rw [all]; exact one p⟩

/-- Non-vacuity: the preference (-1, -1, -1) empties a set with two vectors. -/
example : ∃ s : FRV 3, s.init.length = 2 ∧ (s.interactV3 (fun _ => -1)).1 = .ok () ∧ (s.interactV3 (fun _ => -1)).2.values = [] := by
  refine ⟨⟨.uniform, [some (axis 0), some (axis 1)], [], [some (axis 0), some (axis 1)], [], 2⟩, rfl, ?_⟩
  have := c86_v3_negative_violated ⟨.uniform, [some (axis 0), some (axis 1)], [], [some (axis 0), some (axis 1)], [], 2⟩ [axis 0, axis 1] rfl
    (by intro v hv; simp at hv; rcases hv with rfl | rfl <;> simp [len, axis, Fin.sum_univ_three])
    (fun _ => -1) (by simp) ⟨axis 0, by simp, by left; simp [axis]⟩
  rw [this]
  exact ⟨rfl, rfl⟩

theorem distTranslate_ok (W : List (Option (Vec k))) (h : W ≠ []) : ∃ W', distTranslate W = .ok W' ∧ W'.length = W.length := by
  unfold distTranslate
  rw [if_neg h]
  split
  · exact ⟨_, rfl, by simp⟩
  · simp only
    split
    · exact ⟨_, rfl, by simp⟩
    · exact ⟨_, rfl, by simp⟩

theorem pmOnes_length (n : Nat) : (pmOnes n).length = 2 ^ n := by
  induction n with
  | zero => rfl
  | succ n ih => simp [pmOnes, ih, pow_succ]; omega

theorem mirrored_length (I : List (Option (Vec (k + 1)))) : (mirrored I).length = 2 ^ (k + 1) * I.length := by
  unfold mirrored signRows
  rw [List.length_flatMap]
  simp only [List.length_map, List.map_const', List.sum_replicate, pmOnes_length, smul_eq_mul]

/-- C86: `interact_v3` raises exactly if there are no initial vectors or not three objectives, and its result does not depend on the current
vectors: earlier interactions are forgotten. -/
theorem c86_v3_errors (s : FRV (k + 1)) (p : Vec (k + 1)) :
    ((s.interactV3 p).1 = .error .valueError ↔ s.init = [] ∨ k + 1 ≠ 3) ∧ ((s.interactV3 p).1 = .ok () ↔ s.init ≠ [] ∧ k + 1 = 3) ∧
    (s.init ≠ [] → ∀ X, ({ s with values := X } : FRV (k + 1)).interactV3 p = s.interactV3 p) := by
  have hlen := mirrored_length s.init
  by_cases h0 : s.init = []
  · have hm : mirrored s.init = [] := by
      rw [← List.length_eq_zero_iff, hlen, h0]; simp
    have hd : distTranslate ((mirrored s.init).map (Option.map (Fin.init : Vec (k + 1) → Vec k))) = .error .valueError := by
      rw [hm]; unfold distTranslate; simp
    have : (s.interactV3 p).1 = .error .valueError := by unfold FRV.interactV3; rw [hd]
    rw [this]
    exact ⟨⟨fun _ => Or.inl h0, fun _ => rfl⟩, ⟨fun h => by simp at h, fun h => absurd h0 h.1⟩, fun h => absurd h0 h⟩
  · have hm : (mirrored s.init).map (Option.map (Fin.init : Vec (k + 1) → Vec k)) ≠ [] := by
      intro h
      have := congrArg List.length h
      rw [List.length_map, hlen, List.length_nil] at this
      rcases Nat.mul_eq_zero.1 this with q | q
      · exact absurd q (by positivity)
      · exact h0 (List.length_eq_zero_iff.1 q)
    obtain ⟨W, hW, -⟩ := distTranslate_ok _ hm
    unfold FRV.interactV3
    simp only [hW]
    by_cases hk : k + 1 = 3
    · simp [h0, hk]
    · simp [h0, hk]

/-- C86, a violation: with a preference along the third axis `interact_v3` replaces the vectors by eight NaN rows for every initial vector,
without an error. -/
theorem c86_v3_third_axis_violated (s : FRV 3) (hne : s.init ≠ []) (p : Vec 3) (h0 : p 0 = 0) (h1 : p 1 = 0) :
    s.interactV3 p = (.ok (), { s with values := List.replicate (8 * s.init.length) none }) := by
  have hpar : p = fun i => p 2 * axis (Fin.last 2) i := by
    funext i
    fin_cases i
    · simp [h0, axis]
    · simp [h1, axis]
    · show p 2 = p 2 * axis (Fin.last 2) 2
      simp [axis]
  have hlen := mirrored_length (k := 2) s.init
  have hm : (mirrored s.init).map (Option.map (Fin.init : Vec 3 → Vec 2)) ≠ [] := by
    intro h
    have := congrArg List.length h
    rw [List.length_map, hlen, List.length_nil] at this
    exact hne (List.length_eq_zero_iff.1 (by omega))
  obtain ⟨W, hW, hWl⟩ := distTranslate_ok _ hm
  unfold FRV.interactV3
  simp only [hW]
  rw [if_neg (by decide), rotateN_parallel _ p (Or.inr ⟨p 2, hpar⟩), map_const_none]
  rw [List.length_map, hlen] at hWl
  simp only [List.length_map, hWl]
  rw [List.filter_replicate]
  simp [keptRow]

/-! ## Non-vacuity -/

/-- the hypotheses of `c86_v2` and `c86_v3` are met by the three axes and the preference `(1, 1, 1)` -/
example : (∀ v ∈ axes 3, len v = 1) ∧ (∃ v ∈ axes 3, v 0 ≠ 0 ∨ v 1 ≠ 0) ∧
    (∃ v ∈ axes 3, v ≠ unitVec (fun _ => 1) ∧ v ≠ fun i => - unitVec (fun _ => 1) i) ∧ axis 2 ∈ axes 3 ∧ NonNeg (fun _ => 1 : Vec 3) := by
  have hmem : ∀ i : Fin 3, axis i ∈ axes 3 := fun i => by unfold axes; exact (List.mem_ofFn' _ _).2 ⟨i, rfl⟩
  have hn : norm2 (fun _ => 1 : Vec 3) ≠ 0 := by
    rw [ne_eq, norm2_eq_zero]; intro h; have := congrFun h 0; simp at this
  refine ⟨fun v hv => ?_, ⟨axis 0, hmem 0, Or.inl (by simp [axis])⟩, ⟨axis 0, hmem 0, fun h => ?_, fun h => ?_⟩, hmem 2, fun _ => zero_le_one⟩
  · obtain ⟨i, rfl⟩ := (List.mem_ofFn' _ _).1 hv
    rw [← norm2_eq_len]; exact axis_norm i
  · have := congrFun h 1
    simp only [axis, unitVec] at this
    rw [if_neg (by decide)] at this
    exact div_ne_zero one_ne_zero hn this.symm
  · have := congrFun h 1
    simp only [axis, unitVec] at this
    rw [if_neg (by decide)] at this
    exact div_ne_zero one_ne_zero hn (by linarith)

end Verif.Props
