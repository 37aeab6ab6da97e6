import Verif.Spec.Focused
import Verif.Props.Rotation
import Mathlib.Algebra.BigOperators.Fin
import Mathlib.Algebra.BigOperators.Field
import Mathlib.Tactic.LinearCombination

/-!
# C77, C78: focused reference vectors and their slow adaptation
-/

open scoped BigOperators

namespace Verif.Props
open Verif Verif.Spec

variable {m : Nat}

/-! ## Basics -/

theorem isAxes_axes : IsAxes (axes m) := by
  refine ⟨axes_length, fun i => ⟨axis i, ?_, ?_, ?_⟩⟩
  · simp [axes]
  · simp [axis]
  · intro j hj; simp [axis, Ne.symm hj]

theorem isAxes_unique {E : List (Vec m)} (h : IsAxes E) : E = axes m := by
  apply List.ext_getElem?
  intro i
  by_cases hi : i < m
  · obtain ⟨e, h1, h2, h3⟩ := h.2 ⟨i, hi⟩
    have h1' : E[i]? = some e := h1
    rw [h1']
    simp only [axes, List.getElem?_ofFn, hi, dif_pos, Option.some.injEq]
    funext j
    by_cases hj : j = ⟨i, hi⟩
    · subst hj; simp [axis, h2]
    · rw [h3 j hj]; simp [axis, Ne.symm hj]
  · rw [List.getElem?_eq_none (by rw [h.1]; omega), List.getElem?_eq_none (by rw [axes_length]; omega)]

theorem rotatable_of_notParallel (a b : Vec m) (h : NotParallel a b) : Rotatable a b := c26_no_division_by_zero a b h

theorem rotateN_ok (a b : Vec m) (h : NotParallel a b) (V : List (Option (Vec m))) :
    rotateN a b V = V.map (Option.map (fun x => (rotationMatrix a b).mulVec x)) := if_pos (rotatable_of_notParallel a b h)

theorem rotateN_rigid (a b : Vec m) (h : NotParallel a b) : Rigid (fun x => (rotationMatrix a b).mulVec x) ∧
    ∀ u w, IsDirection a u → IsDirection b w → (rotationMatrix a b).mulVec u = w := by
  have S := setup_of_notParallel a b h
  refine ⟨fun x y => ?_, fun u w hu hw => ?_⟩
  · show inner ((rotationMatrix a b).mulVec x) ((rotationMatrix a b).mulVec y) = inner x y
    rw [rotation_apply, rotation_apply, householder_inner _ _ _ S.q2, householder_inner _ _ _ S.q1]
  · rw [isDirection_unique a u (unitVec a) hu (unitVec_isDirection a h.1),
      isDirection_unique b w (unitVec b) hw (unitVec_isDirection b h.2.1), rotation_apply,
      householder_swaps _ _ S.aa S.mm S.q1, householder_swaps _ _ S.mm S.bb S.q2]

/-- parallel or zero vectors: everything is NaN -/
theorem rotateN_parallel (a b : Vec m) (h : a = 0 ∨ ∃ c : ℝ, b = fun i => c * a i) (V : List (Option (Vec m))) :
    rotateN a b V = V.map (fun _ => none) := by
  refine if_neg (fun hr => ?_)
  obtain ⟨h1, h2, h3, h4, -⟩ := hr
  rcases h with rfl | ⟨c, rfl⟩
  · exact h1 ((norm2_eq_zero _).2 rfl)
  · have ha : a ≠ 0 := fun e => h1 ((norm2_eq_zero _).2 e)
    have hc : c ≠ 0 := by
      rintro rfl
      apply h2
      rw [norm2_eq_zero]
      funext i
      simp
    rcases c26_parallel_divides_by_zero a ha c hc with q | q
    · exact h3 q
    · exact h4 q

/-! ## The target of a partial rotation -/

/-- the vector at angle `θ` from `u` towards `f` -/
theorem turn_target (u f : Vec m) (huu : inner u u = 1) (hff : inner f f = 1) (hP : NotParallel u f) (θ : ℝ) (hθ : 0 < θ)
    (hle : θ ≤ Real.arccos (inner u f)) :
    let φ := Real.arccos (inner u f)
    let cphi := inner u f
    let w : Vec m := fun i => (Real.cos (φ - θ) * cphi - Real.cos θ) / (cphi * cphi - 1) * u i +
      (cphi * Real.cos θ - Real.cos (φ - θ)) / (cphi * cphi - 1) * f i
    cphi * cphi - 1 ≠ 0 ∧ inner w w = 1 ∧ NotParallel u w ∧ angleOf u w = θ ∧ angleOf w f = φ - θ := by
  have hc1 := inner_unit_ne u f huu hff hP.2.2
  obtain ⟨hb1, hb2⟩ := inner_unit_bounds u f huu hff
  have hdet : inner u f * inner u f - 1 ≠ 0 := by nlinarith
  have hcos : Real.cos (Real.arccos (inner u f)) = inner u f := Real.cos_arccos hb1 hb2
  have hφ0 : 0 ≤ Real.arccos (inner u f) := Real.arccos_nonneg _
  have hφπ : Real.arccos (inner u f) ≤ Real.pi := Real.arccos_le_pi _
  dsimp only
  generalize hφ : Real.arccos (inner u f) = φ at *
  have hsin : 0 < Real.sin φ := by
    refine lt_of_le_of_ne (Real.sin_nonneg_of_nonneg_of_le_pi hφ0 hφπ) (fun h0 => ?_)
    have := Real.sin_sq_add_cos_sq φ
    rw [← h0, hcos] at this
    nlinarith
  have hs2 : inner u f * inner u f - 1 = - Real.sin φ ^ 2 := by
    have := Real.sin_sq_add_cos_sq φ
    rw [hcos] at this; linarith
  have hθπ : θ < Real.pi := by
    refine lt_of_le_of_ne (le_trans hle hφπ) (fun he => ?_)
    have : φ = Real.pi := le_antisymm hφπ (he ▸ hle)
    rw [this, Real.sin_pi] at hsin
    exact lt_irrefl _ hsin
  have hsθ : 0 < Real.sin θ := Real.sin_pos_of_pos_of_lt_pi hθ hθπ
  have hx1 : (inner u f * Real.cos θ - Real.cos (φ - θ)) / (inner u f * inner u f - 1) = Real.sin θ / Real.sin φ := by
    rw [hs2, ← hcos, Real.cos_sub]
    field_simp
    ring
  have hx0 : (Real.cos (φ - θ) * inner u f - Real.cos θ) / (inner u f * inner u f - 1) =
      Real.cos θ - Real.sin θ * inner u f / Real.sin φ := by
    rw [hs2, Real.cos_sub, hcos]
    have h2 : inner u f ^ 2 = 1 - Real.sin φ ^ 2 := by nlinarith
    field_simp
    linear_combination (-Real.cos θ) * h2
  rw [hx0, hx1]
  refine ⟨hdet, ?_⟩
  generalize hw : (fun i => (Real.cos θ - Real.sin θ * inner u f / Real.sin φ) * u i + Real.sin θ / Real.sin φ * f i) = w
  have hwu : inner u w = Real.cos θ := by
    rw [inner_comm, ← hw, inner_add_smul, huu, inner_comm f u]; field_simp; ring
  have hwf : inner w f = Real.cos (φ - θ) := by
    rw [← hw, inner_add_smul, hff, Real.cos_sub, hcos]
    have h2 : inner u f ^ 2 = 1 - Real.sin φ ^ 2 := by nlinarith
    field_simp
    linear_combination (-Real.sin θ) * h2
  have hww : inner w w = 1 := by
    have hexp : inner w w = inner (fun i => (Real.cos θ - Real.sin θ * inner u f / Real.sin φ) * u i +
        Real.sin θ / Real.sin φ * f i) w := by rw [hw]
    rw [hexp, inner_add_smul, hwu, inner_comm f w, hwf, Real.cos_sub, hcos]
    have h2 := Real.sin_sq_add_cos_sq θ
    field_simp
    linear_combination (Real.sin φ) * h2
  have hPw : NotParallel u w := by
    refine ⟨hP.1, fun h0 => ?_, fun c hc => ?_⟩
    · rw [h0, (inner_self_eq_zero _).2 rfl] at hww; norm_num at hww
    · refine hP.2.2 ((c - (Real.cos θ - Real.sin θ * inner u f / Real.sin φ)) * Real.sin φ / Real.sin θ) ?_
      funext i
      have h1 := congrFun hc i
      have h2 := congrFun hw i
      rw [h1] at h2
      field_simp at h2 ⊢
      linear_combination h2
  refine ⟨hww, hPw, ?_, ?_⟩
  · unfold angleOf; rw [hwu]; exact Real.arccos_cos hθ.le hθπ.le
  · unfold angleOf; rw [hwf]; exact Real.arccos_cos (by linarith) (by linarith)

theorem unitVec_of_unit (u : Vec m) (h : inner u u = 1) : unitVec u = u := by
  have : norm2 u = 1 := by rw [norm2_eq_len, ← inner_self_one]; exact h
  funext i
  simp [unitVec, this]

theorem unit_ne_zero (u : Vec m) (h : inner u u = 1) : u ≠ 0 := by
  rintro rfl
  rw [(inner_self_eq_zero _).2 rfl] at h
  norm_num at h

/-- `rotate_toward` from a unit vector, all cases but parallel ones -/
theorem rotateTowardN_turns (u p f : Vec m) (huu : inner u u = 1) (hP : NotParallel u p) (hf : IsDirection p f) (V : List (Option (Vec m))) :
    ∃ (R : Vec m → Vec m) (reached : Bool), rotateTowardN (some u) p V 5 = .ok (V.map (Option.map R), reached) ∧ Rigid R ∧
      (reached = true ↔ angleOf u f < fiveDegrees) ∧ (reached = true → R u = f) ∧
      (reached = false → angleOf u (R u) = fiveDegrees ∧ angleOf (R u) f = angleOf u f - fiveDegrees) := by
  have ef : f = unitVec p := isDirection_unique p f (unitVec p) hf (unitVec_isDirection p hP.2.1)
  have hff : inner f f = 1 := by rw [ef]; exact unitVec_self p hP.2.1
  have eu := unitVec_of_unit u huu
  have hP' : NotParallel u f := by
    have := notParallel_unit u p hP
    rwa [eu, ← ef] at this
  have hn : ¬ (norm2 u = 0 ∨ norm2 p = 0) := by
    rintro (h | h)
    · exact unit_ne_zero u huu ((norm2_eq_zero _).1 h)
    · exact hP.2.1 ((norm2_eq_zero _).1 h)
  simp only [rotateTowardN]
  rw [if_neg hn]
  simp only [eu, ← ef, show (∑ i, u i * f i) = inner u f from rfl]
  by_cases hlt : Real.arccos (inner u f) < 5 * Real.pi / 180
  · rw [if_pos hlt, rotateN_ok u f hP']
    obtain ⟨h1, h2⟩ := rotateN_rigid u f hP'
    exact ⟨_, true, rfl, h1, by simp only [true_iff]; exact hlt, fun _ => h2 u f (isDirection_self u huu) (isDirection_self f hff), by simp⟩
  · rw [if_neg hlt]
    have h5 : 0 < fiveDegrees := by unfold fiveDegrees; have := Real.pi_pos; positivity
    obtain ⟨hd, hww, hPw, ha, hb⟩ := turn_target u f huu hff hP' fiveDegrees h5 (not_lt.1 hlt)
    rw [if_neg hd, show (5 : ℝ) * Real.pi / 180 = fiveDegrees from rfl]
    generalize (fun i => (Real.cos (Real.arccos (inner u f) - fiveDegrees) * inner u f - Real.cos fiveDegrees) /
      (inner u f * inner u f - 1) * u i + (inner u f * Real.cos fiveDegrees - Real.cos (Real.arccos (inner u f) - fiveDegrees)) /
      (inner u f * inner u f - 1) * f i) = w at *
    rw [rotateN_ok u w hPw]
    obtain ⟨h1, h2⟩ := rotateN_rigid u w hPw
    have hR := h2 u w (isDirection_self u huu) (isDirection_self w hww)
    refine ⟨_, false, rfl, h1, ?_, by simp, fun _ => ?_⟩
    · simp only [Bool.false_eq_true, false_iff]; exact hlt
    · simp only [hR]; exact ⟨ha, hb⟩

/-- parallel target: same direction is NaN, opposite direction raises -/
theorem rotateTowardN_parallel (u p : Vec m) (huu : inner u u = 1) (V : List (Option (Vec m))) :
    (p = 0 → rotateTowardN (some u) p V 5 = .ok (V.map (fun _ => none), false)) ∧
    (∀ t : ℝ, 0 < t → p = (fun i => t * u i) → rotateTowardN (some u) p V 5 = .ok (V.map (fun _ => none), true)) ∧
    (∀ t : ℝ, t < 0 → p = (fun i => t * u i) → rotateTowardN (some u) p V 5 = .error .linAlgError) := by
  have hun : norm2 u = 1 := by rw [norm2_eq_len, ← inner_self_one]; exact huu
  have eu := unitVec_of_unit u huu
  have hπ := Real.pi_pos
  refine ⟨?_, ?_, ?_⟩
  · rintro rfl
    simp only [rotateTowardN]
    rw [if_pos (.inr ((norm2_eq_zero _).2 rfl))]
  · rintro t ht rfl
    have hf : unitVec (fun i => t * u i) = u := by
      funext i
      simp only [unitVec]
      rw [norm2_smul, hun, abs_of_pos ht]
      field_simp
    simp only [rotateTowardN]
    rw [if_neg (by rw [norm2_smul, hun, abs_of_pos ht]; simp [ht.ne'])]
    simp only [eu, hf, show (∑ i, u i * u i) = 1 from huu]
    rw [if_pos (by rw [Real.arccos_one]; positivity), rotateN_parallel u u (.inr ⟨1, by funext i; ring⟩)]
  · rintro t ht rfl
    have hf : unitVec (fun i => t * u i) = fun i => - u i := by
      funext i
      simp only [unitVec]
      rw [norm2_smul, hun, abs_of_neg ht]
      have : t ≠ 0 := ht.ne
      field_simp
    have hi : (∑ i, u i * - u i) = -1 := by
      have : (∑ i, u i * u i) = 1 := huu
      simp only [mul_neg, Finset.sum_neg_distrib, this]
    simp only [rotateTowardN]
    rw [if_neg (by rw [norm2_smul, hun, abs_of_neg ht]; simp [ht.ne])]
    simp only [eu, hf, hi]
    rw [if_neg (by rw [Real.arccos_neg_one]; linarith), if_pos (by norm_num)]

/-! ## Normalisation and edges -/

theorem planarRowN_idem (r : Option (Vec m)) : (r.bind planarRowN).bind planarRowN = r.bind planarRowN := by
  cases r with
  | none => rfl
  | some v =>
    simp only [Option.bind_some, planarRowN]
    by_cases h : ∑ j, v j = 0
    · simp [h]
    · simp only [if_neg h, Option.bind_some, planarRowN]
      rw [if_neg (by rw [sum_planarRow v h]; norm_num), planarRow_idem]

theorem mapUnit_idem (r : Option (Vec m)) : (r.map unitRow).map unitRow = r.map unitRow := by
  cases r with
  | none => rfl
  | some v => simp [unitRow_idem]

theorem edges_unit : ((axes m).map some).map (Option.map unitRow) = (axes m).map some := by
  rw [List.map_map]
  conv_rhs => rw [← map_unitRow_axes, List.map_map]
  rfl

theorem edges_planar : ((axes m).map some).map (fun r => r.bind planarRowN) = (axes m).map some := by
  rw [List.map_map]
  apply List.map_congr_left
  intro v hv
  simp only [axes, List.mem_ofFn] at hv
  obtain ⟨i, rfl⟩ := hv
  simp [planarRowN, axis_sum, planarRow_of_sum_one _ (axis_sum i)]

theorem frv_addEdges_norm (s : FRV m) (v : List (Option (Vec m))) :
    (({ s with values := v, planar := v } : FRV m).addEdges).normalize =
      { s with values := v.map (Option.map unitRow) ++ (axes m).map some, planar := v.map (fun r => r.bind planarRowN) ++ (axes m).map some,
               number := v.length + m } := by
  unfold FRV.addEdges FRV.normalize
  simp only [List.map_append, edges_unit, edges_planar, List.length_append, List.length_map, axes_length]
  congr 1
  · rw [List.map_map]
    congr 1
    apply List.map_congr_left
    intro r _
    exact mapUnit_idem r
  · rw [List.map_map]
    congr 1
    apply List.map_congr_left
    intro r _
    exact planarRowN_idem r

theorem frv_norm_addEdges (s : FRV m) (v : List (Option (Vec m))) :
    (({ s with values := v, planar := v } : FRV m).normalize).addEdges =
      { s with values := v.map (Option.map unitRow) ++ (axes m).map some, planar := v.map (fun r => r.bind planarRowN) ++ (axes m).map some,
               number := v.length + m } := by
  unfold FRV.addEdges FRV.normalize
  simp only [List.map_append, edges_unit, edges_planar, List.length_append, List.length_map, axes_length]
  congr 1
  · rw [List.map_map]
    congr 1
    apply List.map_congr_left
    intro r _
    exact mapUnit_idem r
  · rw [List.map_map]
    congr 1
    apply List.map_congr_left
    intro r _
    exact planarRowN_idem r

theorem unit_map_unitRow (F : List (Vec m)) (h : ∀ v ∈ F, inner v v = 1) : (F.map some).map (Option.map unitRow) = F.map some := by
  rw [List.map_map]
  apply List.map_congr_left
  intro v hv
  have : norm2 v = 1 := by rw [norm2_eq_len, ← inner_self_one]; exact h v hv
  simp [unitRow_of_norm_one v this]

/-! ## The cone before rotation -/

theorem inner_snoc {k : Nat} (v w : Vec k) (a b : ℝ) : inner (Fin.snoc v a : Vec (k + 1)) (Fin.snoc w b : Vec (k + 1)) = inner v w + a * b := by
  unfold inner
  rw [Fin.sum_univ_castSucc]
  simp

theorem inner_axis {k : Nat} (v : Vec k) (i : Fin k) : inner (axis i) v = v i := by
  unfold inner axis
  simp

theorem axis_unit {k : Nat} (i : Fin k) : inner (axis i) (axis i) = 1 := by rw [inner_axis]; simp [axis]

/-- five degrees from the last axis -/
theorem shearRow_spec {k : Nat} (x : Vec k) (hx : inner x x = 1) :
    inner (shearRow 5 (snocZero x)) (shearRow 5 (snocZero x)) = 1 ∧ inner (axis (Fin.last k)) (shearRow 5 (snocZero x)) = Real.cos fiveDegrees := by
  have hπ := Real.pi_pos
  have hs : 0 < Real.sin fiveDegrees := Real.sin_pos_of_pos_of_lt_pi (by unfold fiveDegrees; positivity) (by unfold fiveDegrees; linarith)
  have hn : norm2 (snocZero x) = 1 := by
    rw [norm2_eq_len, ← inner_self_one]
    unfold snocZero
    rw [inner_snoc, hx]; norm_num
  have e : (fun i => if i = Fin.last k then snocZero x i + norm2 (snocZero x) * (1 / Real.tan (5 * Real.pi / 180)) else snocZero x i) =
      (Fin.snoc x (1 / Real.tan fiveDegrees) : Vec (k + 1)) := by
    funext i
    refine Fin.lastCases ?_ (fun j => ?_) i
    · rw [if_pos rfl, hn]
      simp [snocZero, fiveDegrees]
    · rw [if_neg (Fin.castSucc_lt_last j).ne]
      simp [snocZero]
  have hz : (Fin.snoc x (1 / Real.tan fiveDegrees) : Vec (k + 1)) ≠ 0 := by
    intro h
    have h1 : inner (Fin.snoc x (1 / Real.tan fiveDegrees) : Vec (k + 1)) (Fin.snoc x (1 / Real.tan fiveDegrees) : Vec (k + 1)) = 0 :=
      (inner_self_eq_zero _).2 h
    rw [inner_snoc, hx] at h1
    nlinarith [mul_self_nonneg (1 / Real.tan fiveDegrees)]
  unfold shearRow
  rw [e]
  refine ⟨unitVec_self _ hz, ?_⟩
  rw [inner_axis]
  have hl : norm2 (Fin.snoc x (1 / Real.tan fiveDegrees) : Vec (k + 1)) = 1 / Real.sin fiveDegrees := by
    rw [norm2_eq_len]
    show Real.sqrt (inner _ _) = _
    rw [inner_snoc, hx, Real.tan_eq_sin_div_cos]
    have h2 := Real.sin_sq_add_cos_sq fiveDegrees
    have : 1 + 1 / (Real.sin fiveDegrees / Real.cos fiveDegrees) * (1 / (Real.sin fiveDegrees / Real.cos fiveDegrees)) =
        (1 / Real.sin fiveDegrees) ^ 2 := by
      rw [one_div_div]
      field_simp
      linarith
    rw [this]
    exact Real.sqrt_sq (by positivity)
  show (Fin.snoc x (1 / Real.tan fiveDegrees) : Vec (k + 1)) (Fin.last k) / norm2 _ = _
  rw [hl, Fin.snoc_last, Real.tan_eq_sin_div_cos, one_div_div]
  field_simp

theorem signs_spec (k : Nat) : (signs k).length = 3 ^ k ∧ (∀ l ∈ signs k, l.length = k) ∧
    ∃ t, signs k = List.replicate k 0 :: t ∧ ∀ l ∈ t, l ≠ List.replicate k 0 := by
  induction k with
  | zero => exact ⟨rfl, by simp [signs], [], rfl, by simp⟩
  | succ k ih =>
    obtain ⟨h1, h2, t, h3, h4⟩ := ih
    refine ⟨?_, ?_, t.map (fun r => 0 :: r) ++ ((signs k).map (fun r => 1 :: r) ++ (signs k).map (fun r => -1 :: r)), ?_, ?_⟩
    · simp only [signs, List.flatMap_cons, List.flatMap_nil, List.append_nil, List.length_append, List.length_map, h1]
      ring
    · intro l hl
      simp only [signs, List.mem_flatMap, List.mem_map] at hl
      obtain ⟨a, -, r, hr, rfl⟩ := hl
      rw [List.length_cons, h2 r hr]
    · simp only [signs, List.flatMap_cons, List.flatMap_nil, List.append_nil]
      conv_lhs => rw [h3]
      rw [List.replicate_succ, h3]
      simp
    · intro l hl
      rw [List.replicate_succ]
      simp only [List.mem_append, List.mem_map] at hl
      rcases hl with ⟨r, hr, rfl⟩ | ⟨r, hr, rfl⟩ | ⟨r, hr, rfl⟩
      · intro e; injection e with _ e; exact h4 r hr e
      · intro e; injection e with e _; norm_num at e
      · intro e; injection e with e _; norm_num at e

theorem toVec_ne_zero (k : Nat) (l : List ℝ) (hl : l.length = k) (h : l ≠ List.replicate k 0) : toVec k l ≠ 0 := by
  intro hz
  apply h
  apply List.ext_getElem
  · simp [hl]
  · intro i h1 h2
    have := congrFun hz ⟨i, by omega⟩
    simp only [toVec, Pi.zero_apply] at this
    rw [List.getD_eq_getElem?_getD, List.getElem?_eq_getElem h1] at this
    simpa using this

theorem flatRows_unit (k : Nat) (t : CreationType) : ∀ v ∈ flatRows k t, ∃ x : Vec k, inner x x = 1 ∧ v = snocZero x := by
  intro v hv
  cases t with
  | uniform => simp [flatRows] at hv
  | other => simp [flatRows] at hv
  | focused =>
    obtain ⟨-, h2, t, h3, h4⟩ := signs_spec k
    simp only [flatRows, h3, List.tail_cons, List.map_map, List.mem_map, Function.comp_apply] at hv
    obtain ⟨l, hl, rfl⟩ := hv
    exact ⟨unitVec (toVec k l), unitVec_self _ (toVec_ne_zero k l (h2 l (by rw [h3]; simp [hl])) (h4 l hl)), rfl⟩
  | sparseFocused =>
    simp only [flatRows, List.mem_map, List.mem_append] at hv
    obtain ⟨x, hx, rfl⟩ := hv
    refine ⟨unitVec x, unitVec_self _ ?_, rfl⟩
    rcases hx with hx | ⟨y, hy, rfl⟩
    · simp only [axes, List.mem_ofFn] at hx
      obtain ⟨i, rfl⟩ := hx
      exact unit_ne_zero _ (axis_unit i)
    · simp only [axes, List.mem_ofFn] at hy
      obtain ⟨i, rfl⟩ := hy
      intro e
      have := congrFun e i
      simp [axis] at this

/-- How many vectors there are around the central one. -/
def ringSize (k : Nat) : CreationType → Nat
  | .focused => 3 ^ k - 1
  | .sparseFocused => 2 * k
  | _ => 0

theorem flatRows_length (k : Nat) (t : CreationType) : (flatRows k t).length = ringSize k t := by
  cases t with
  | uniform => rfl
  | other => rfl
  | focused => simp [flatRows, ringSize, (signs_spec k).1]
  | sparseFocused => simp [flatRows, ringSize, axes_length]; omega

theorem coneRows_spec (k : Nat) (t : CreationType) : ∃ ring, coneRows k t = axis (Fin.last k) :: ring ∧ ring.length = ringSize k t ∧
    ∀ v ∈ ring, inner v v = 1 ∧ inner (axis (Fin.last k)) v = Real.cos fiveDegrees := by
  refine ⟨_, rfl, by rw [List.length_map, flatRows_length], fun v hv => ?_⟩
  obtain ⟨w, hw, rfl⟩ := List.mem_map.1 hv
  obtain ⟨x, hx, rfl⟩ := flatRows_unit k t w hw
  exact shearRow_spec x hx

theorem angle_five {u v : Vec m} (h : inner u v = Real.cos fiveDegrees) : angleOf u v = fiveDegrees := by
  unfold angleOf
  rw [h]
  have := Real.pi_pos
  exact Real.arccos_cos (by unfold fiveDegrees; positivity) (by unfold fiveDegrees; linarith)

theorem construct_form (k : Nat) (resolution number : Option Nat) (t : CreationType) (ht : t = .focused ∨ t = .sparseFocused)
    (hres : resolution ≠ none ∨ number ≠ none) (ref : Option (Vec (k + 1))) :
    ∃ s, FRV.construct k resolution number t ref = .ok s ∧
      s.values = (rotateN (axis (Fin.last k)) (ref.getD (fun _ => 1)) ((coneRows k t).map some)).map (Option.map unitRow) ++ (axes (k + 1)).map some ∧
      s.number = (rotateN (axis (Fin.last k)) (ref.getD (fun _ => 1)) ((coneRows k t).map some)).length + (k + 1) ∧
      s.init = s.values ∧ s.kind = t ∧
      s.planar = (rotateN (axis (Fin.last k)) (ref.getD (fun _ => 1)) ((coneRows k t).map some)).map (fun r => r.bind planarRowN) ++
        (axes (k + 1)).map some := by
  have hcr : ∃ q, chooseResolution (k + 1) resolution number = .ok q := by
    unfold chooseResolution
    cases resolution with
    | some r => exact ⟨_, rfl⟩
    | none =>
      cases number with
      | some n => exact ⟨_, rfl⟩
      | none => simp at hres
  obtain ⟨q, hq⟩ := hcr
  generalize hv : rotateN (axis (Fin.last k)) (ref.getD (fun _ => 1)) ((coneRows k t).map some) = v
  have hbody := frv_norm_addEdges ({ kind := t, init := [], initP := [], values := [], planar := [], number := v.length } : FRV (k + 1)) v
  dsimp only at hbody
  rcases ht with rfl | rfl
  · exact ⟨_, by simp only [FRV.construct, hq, hv, hbody]; rfl, rfl, rfl, rfl, rfl, rfl⟩
  · exact ⟨_, by simp only [FRV.construct, hq, hv, hbody]; rfl, rfl, rfl, rfl, rfl, rfl⟩

/-! ## C77: creation -/

/-- C77: `Focused` and `Sparse_Focused` reference vectors around a reference point that is not a multiple of the last axis (nor zero),
for any number of objectives: the first vector is the direction of the reference point, the others (3 to the power of the number of
objectives minus one, minus one; or twice the number of objectives minus one) are unit vectors exactly five degrees away from it, and the
coordinate axes come last; `number_of_vectors` is their number, and these are the initial values. -/
theorem c77_focused_cone (k : Nat) (resolution number : Option Nat) (t : CreationType) (ht : t = .focused ∨ t = .sparseFocused)
    (hres : resolution ≠ none ∨ number ≠ none) (p c : Vec (k + 1)) (hc : IsDirection p c)
    (hp : ∀ a : ℝ, p ≠ fun i => if i = Fin.last k then a else 0) :
    ∃ s ring, FRV.construct k resolution number t (some p) = .ok s ∧ WithEdges s.values (c :: ring) ∧ IsCone c ring ∧
      (t = .focused → ring.length + 1 = 3 ^ k) ∧ (t = .sparseFocused → ring.length = 2 * k) ∧
      s.number = 1 + ring.length + (k + 1) ∧ s.init = s.values ∧ s.kind = t := by
  obtain ⟨ring, h1, h2, h3⟩ := coneRows_spec k t
  have hNP : NotParallel (axis (Fin.last k)) p := by
    refine ⟨unit_ne_zero _ (axis_unit _), ?_, ?_⟩
    · rintro rfl
      exact hp 0 (by funext i; simp)
    · intro a he
      refine hp a ?_
      rw [he]
      funext i
      by_cases hi : i = Fin.last k
      · subst hi; simp [axis]
      · simp [axis, hi, Ne.symm hi]
  obtain ⟨hR, hd⟩ := rotateN_rigid _ p hNP
  have hdir : (rotationMatrix (axis (Fin.last k)) p).mulVec (axis (Fin.last k)) = c := hd _ _ (isDirection_self _ (axis_unit _)) hc
  have hv : rotateN (axis (Fin.last k)) p ((coneRows k t).map some) =
      (c :: ring.map (fun x => (rotationMatrix (axis (Fin.last k)) p).mulVec x)).map some := by
    rw [rotateN_ok _ _ hNP, h1, List.map_map]
    simp only [List.map_cons, Function.comp_apply, Option.map_some, hdir, List.map_map]
    rfl
  have hcc : inner c c = 1 := by rw [← hdir]; exact (hR _ _).trans (axis_unit _)
  have hring : ∀ v ∈ ring.map (fun x => (rotationMatrix (axis (Fin.last k)) p).mulVec x), inner v v = 1 ∧ inner c v = Real.cos fiveDegrees := by
    intro v hv
    obtain ⟨x, hx, rfl⟩ := List.mem_map.1 hv
    refine ⟨(hR x x).trans (h3 x hx).1, ?_⟩
    rw [← hdir]
    exact (hR _ x).trans (h3 x hx).2
  have hunit : ∀ v ∈ c :: ring.map (fun x => (rotationMatrix (axis (Fin.last k)) p).mulVec x), inner v v = 1 := by
    intro v hv
    rcases List.mem_cons.1 hv with rfl | hv
    · exact hcc
    · exact (hring v hv).1
  have hcons := construct_form k resolution number t ht hres (some p)
  simp only [Option.getD_some, hv, unit_map_unitRow _ hunit] at hcons
  obtain ⟨s, e1, e2, e3, e4, e5, -⟩ := hcons
  refine ⟨s, ring.map (fun x => (rotationMatrix (axis (Fin.last k)) p).mulVec x), e1, ⟨axes (k + 1), isAxes_axes, by rw [e2, List.map_append]⟩,
    ⟨(inner_self_one c).1 hcc, fun v hv => ⟨(inner_self_one v).1 (hring v hv).1, angle_five (hring v hv).2⟩⟩, ?_, ?_, ?_, e4, e5⟩
  · rintro rfl
    rw [List.length_map, h2]
    have : 0 < 3 ^ k := by positivity
    simp only [ringSize]; omega
  · rintro rfl
    rw [List.length_map, h2]; rfl
  · rw [e3]; simp only [List.length_map, List.length_cons]; omega

/-- C77: without a reference point the cone is around the vector of ones. -/
theorem c77_default_point (k : Nat) (resolution number : Option Nat) (t : CreationType) :
    FRV.construct k resolution number t none = FRV.construct k resolution number t (some (fun _ => 1)) := rfl

/-- C77, violated: around the last axis (or any multiple of it, or the zero vector) all vectors but the coordinate axes are NaN. -/
theorem c77_last_axis_violated (k : Nat) (resolution number : Option Nat) (t : CreationType) (ht : t = .focused ∨ t = .sparseFocused)
    (hres : resolution ≠ none ∨ number ≠ none) (a : ℝ) :
    ∃ s n, FRV.construct k resolution number t (some (fun i => if i = Fin.last k then a else 0)) = .ok s ∧ 0 < n ∧ NaNWithEdges s.values n := by
  obtain ⟨s, e1, e2, -⟩ := construct_form k resolution number t ht hres (some (fun i => if i = Fin.last k then a else 0))
  refine ⟨s, (coneRows k t).length, e1, by simp [coneRows], axes (k + 1), isAxes_axes, ?_⟩
  rw [e2, Option.getD_some, rotateN_parallel]
  · congr 1
    simp [List.map_map, Function.comp_def, List.map_const']
  · right
    refine ⟨a, ?_⟩
    funext i
    by_cases hi : i = Fin.last k
    · subst hi; simp [axis]
    · simp [axis, hi, Ne.symm hi]

/-- C77: the constructor demands a lattice resolution or a number of vectors, though it uses neither; an unknown creation type is
AttributeError. -/
theorem c77_constructor_errors (k : Nat) (t : CreationType) (ref : Option (Vec (k + 1))) (resolution number : Option Nat) :
    FRV.construct k none none t ref = .error .valueError ∧
    (resolution ≠ none ∨ number ≠ none → FRV.construct k resolution number .other ref = .error .attributeError) := by
  refine ⟨rfl, fun h => ?_⟩
  unfold FRV.construct
  cases resolution with
  | some r => rfl
  | none =>
    cases number with
    | some n => rfl
    | none => simp at h

/-- What the two arrays of an object say of each other. -/
theorem planar_of_rows (s : FRV m) (V : List (Option (Vec m))) (e2 : s.values = V.map (Option.map unitRow) ++ (axes m).map some)
    (e6 : s.planar = V.map (fun r => r.bind planarRowN) ++ (axes m).map some) : PlanarForm s.values s.planar := by
  intro i v hv
  have key : ∃ x : Vec m, v = unitRow x ∧ s.planar[i]? = some (planarRowN x) := by
    rw [e2] at hv
    rw [e6]
    by_cases hi : i < V.length
    · rw [List.getElem?_append_left (by simpa using hi), List.getElem?_map, List.getElem?_eq_getElem hi] at hv
      rw [List.getElem?_append_left (by simpa using hi), List.getElem?_map, List.getElem?_eq_getElem hi]
      simp only [Option.map_some, Option.some.injEq] at hv ⊢
      cases hx : V[i] with
      | none => rw [hx] at hv; simp at hv
      | some x =>
        rw [hx] at hv
        simp only [Option.map_some, Option.some.injEq] at hv
        exact ⟨x, hv.symm, rfl⟩
    · rw [List.getElem?_append_right (by simpa using hi), List.length_map] at hv
      rw [List.getElem?_append_right (by simpa using hi), List.length_map]
      rw [List.getElem?_map] at hv ⊢
      cases hx : (axes m)[i - V.length]? with
      | none => rw [hx] at hv; simp at hv
      | some x =>
        rw [hx] at hv
        simp only [Option.map_some, Option.some.injEq] at hv
        have hm := List.mem_of_getElem? hx
        simp only [axes, List.mem_ofFn] at hm
        obtain ⟨l, rfl⟩ := hm
        refine ⟨axis l, ?_, ?_⟩
        · rw [unitRow_of_norm_one _ (axis_norm l)]; exact hv.symm
        · simp only [Option.map_some, Option.some.injEq]
          unfold planarRowN
          rw [if_neg (by rw [axis_sum]; norm_num), planarRow_of_sum_one _ (axis_sum l)]
  obtain ⟨x, rfl, hpl⟩ := key
  rw [hpl]
  have hpos : 0 < (if norm2 x = 0 then eps else norm2 x) := by
    split
    · unfold eps; positivity
    · rename_i h; exact lt_of_le_of_ne (norm2_nonneg x) (Ne.symm h)
  have hsum : ∑ j, unitRow x j = (∑ j, x j) / (if norm2 x = 0 then eps else norm2 x) := by
    unfold unitRow
    rw [← Finset.sum_div]
  constructor
  · intro h0
    rw [hsum, div_eq_zero_iff, or_iff_left hpos.ne'] at h0
    unfold planarRowN
    rw [if_pos h0]
  · intro h0
    have hx0 : ∑ j, x j ≠ 0 := by
      intro e; apply h0; rw [hsum, e, zero_div]
    refine ⟨planarRow x, by unfold planarRowN; rw [if_neg hx0], sum_planarRow x hx0, fun j => ?_⟩
    rw [hsum]
    unfold planarRow unitRow
    field_simp

/-- C77: the planar form of a vector is the vector divided by its sum (so that its sum is one); a vector whose entries sum to zero has none
(NaN or infinity). -/
theorem c77_planar (k : Nat) (resolution number : Option Nat) (t : CreationType) (ht : t = .focused ∨ t = .sparseFocused)
    (hres : resolution ≠ none ∨ number ≠ none) (ref : Option (Vec (k + 1))) (s : FRV (k + 1))
    (hs : FRV.construct k resolution number t ref = .ok s) : PlanarForm s.values s.planar := by
  obtain ⟨s', e1, e2, -, -, -, e6⟩ := construct_form k resolution number t ht hres ref
  rw [hs] at e1
  injection e1 with e1
  subst e1
  exact planar_of_rows s _ e2 e6

/-! ## C78: slow adaptation -/

theorem take_edges (F : List (Vec m)) : (((F ++ axes m).map some).take (((F ++ axes m).map some).length - m)) = F.map some := by
  rw [List.map_append, List.take_append_of_le_length (by simp [axes_length])]
  rw [List.take_of_length_le (by simp [axes_length])]

theorem take_nan (n : Nat) (E : List (Vec m)) (hE : E.length = m) : ((List.replicate n (none : Option (Vec m)) ++ E.map some).take
    ((List.replicate n (none : Option (Vec m)) ++ E.map some).length - m)) = List.replicate n none := by
  rw [List.take_append_of_le_length (by simp [hE]), List.take_of_length_le (by simp [hE])]

theorem slowAdapt_form (s : FRV m) (hk : s.kind = .focused ∨ s.kind = .sparseFocused) (c : Vec m) (ring : List (Vec m))
    (hv : WithEdges s.values (c :: ring)) (p : Vec m) (hp : p ≠ c) :
    s.slowAdapt p = match rotateTowardN (some c) p ((c :: ring).map some) 5 with
      | .error e => (.error e, s)
      | .ok (v, reached) => (.ok (some reached), { s with values := v.map (Option.map unitRow) ++ (axes m).map some, planar := v.map (fun r => r.bind planarRowN) ++ (axes m).map some, number := v.length + m }) := by
  obtain ⟨E, hE, hv⟩ := hv
  rw [isAxes_unique hE] at hv
  have ht : s.values.take (s.values.length - m) = (c :: ring).map some := by rw [hv]; exact take_edges (c :: ring)
  have hk' : ¬ (s.kind ≠ .focused ∧ s.kind ≠ .sparseFocused) := by tauto
  have hv' : s.values = some c :: (ring.map some ++ (axes m).map some) := by rw [hv]; simp
  have hne : ¬ ((some c : Option (Vec m)) = some p) := by intro e; injection e with e; exact hp e.symm
  unfold FRV.slowAdapt
  rw [if_neg hk']
  simp only [ht]
  rw [hv']
  simp only [if_neg hne]
  cases rotateTowardN (some c) p ((c :: ring).map some) 5 with
  | error e => rfl
  | ok q =>
    obtain ⟨v, reached⟩ := q
    simp only [frv_addEdges_norm]

/-- C78: one call of the slow adaptation with a reference point that is not on the line of the central vector: all focused vectors are turned
by one and the same length- and angle-preserving map, the coordinate axes stay, the number of vectors stays; the result says whether the
reference point was less than five degrees away, in which case its direction is the new central vector; otherwise the central vector comes
exactly five degrees closer. -/
theorem c78_step (s : FRV m) (hk : s.kind = .focused ∨ s.kind = .sparseFocused) (c : Vec m) (ring : List (Vec m))
    (hv : WithEdges s.values (c :: ring)) (hunit : ∀ v ∈ c :: ring, len v = 1) (p f : Vec m) (hf : IsDirection p f)
    (hp : ∀ t : ℝ, p ≠ fun i => t * c i) :
    ∃ (R : Vec m → Vec m) (reached : Bool), (s.slowAdapt p).1 = .ok (some reached) ∧ Rigid R ∧
      WithEdges (s.slowAdapt p).2.values ((c :: ring).map R) ∧ (s.slowAdapt p).2.number = s.values.length ∧
      (s.slowAdapt p).2.kind = s.kind ∧ (s.slowAdapt p).2.init = s.init ∧
      (reached = true ↔ angleOf c f < fiveDegrees) ∧ (reached = true → R c = f) ∧
      (reached = false → angleOf c (R c) = fiveDegrees ∧ angleOf (R c) f = angleOf c f - fiveDegrees) := by
  have hu : ∀ v ∈ c :: ring, inner v v = 1 := fun v hv => (inner_self_one v).2 (hunit v hv)
  have hcc := hu c (by simp)
  have hNP : NotParallel c p := ⟨unit_ne_zero c hcc, fun h => hp 0 (by rw [h]; funext i; simp), hp⟩
  obtain ⟨R, reached, h1, h2, h3, h4, h5⟩ := rotateTowardN_turns c p f hcc hNP hf ((c :: ring).map some)
  have hform := slowAdapt_form s hk c ring hv p (fun e => hp 1 (by rw [e]; funext i; ring))
  rw [h1] at hform
  have e1 : ((c :: ring).map some).map (Option.map R) = ((c :: ring).map R).map some := by simp [List.map_map, Function.comp_def]
  have e2 : (((c :: ring).map R).map some).map (Option.map unitRow) = ((c :: ring).map R).map some := by
    apply unit_map_unitRow
    intro v hv
    obtain ⟨x, hx, rfl⟩ := List.mem_map.1 hv
    rw [h2]; exact hu x hx
  rw [e1] at hform
  simp only [e2] at hform
  obtain ⟨E, hE, hv'⟩ := hv
  refine ⟨R, reached, by rw [hform], h2, ⟨axes m, isAxes_axes, by rw [hform, List.map_append]⟩, ?_, by rw [hform], by rw [hform], h3, h4, h5⟩
  rw [hform, hv']
  simp [hE.1]
  omega

/-- C78: if the reference point is the central vector, nothing happens, and the result is None. -/
theorem c78_at_the_point (s : FRV m) (hk : s.kind = .focused ∨ s.kind = .sparseFocused) (p : Vec m) (rest : List (Option (Vec m)))
    (hv : s.values = some p :: rest) : s.slowAdapt p = (.ok none, s) := by
  have hk' : ¬ (s.kind ≠ .focused ∧ s.kind ≠ .sparseFocused) := by tauto
  unfold FRV.slowAdapt
  rw [if_neg hk', hv]
  simp

/-- C78: other creation types are refused with AssertionError. -/
theorem c78_wrong_type (s : FRV m) (hk : s.kind ≠ .focused) (hk' : s.kind ≠ .sparseFocused) (p : Vec m) :
    s.slowAdapt p = (.error .assertionError, s) := by
  unfold FRV.slowAdapt
  rw [if_pos ⟨hk, hk'⟩]

/-- C78, violated: a reference point in the direction of the central vector, but of another length, turns all focused vectors into NaN while
the result says that it is reached; so does the zero vector (result false); a reference point in the opposite direction is LinAlgError, with
nothing changed. -/
theorem c78_parallel_violated (s : FRV m) (hk : s.kind = .focused ∨ s.kind = .sparseFocused) (c : Vec m) (ring : List (Vec m))
    (hv : WithEdges s.values (c :: ring)) (hc : len c = 1) :
    (∀ t : ℝ, 0 < t → t ≠ 1 → (s.slowAdapt (fun i => t * c i)).1 = .ok (some true) ∧
      NaNWithEdges (s.slowAdapt (fun i => t * c i)).2.values (ring.length + 1)) ∧
    ((s.slowAdapt (fun _ => 0)).1 = .ok (some false) ∧ NaNWithEdges (s.slowAdapt (fun _ => 0)).2.values (ring.length + 1)) ∧
    (∀ t : ℝ, t < 0 → s.slowAdapt (fun i => t * c i) = (.error .linAlgError, s)) := by
  have hcc := (inner_self_one c).2 hc
  obtain ⟨h1, h2, h3⟩ : _ ∧ _ ∧ _ := ⟨fun p => (rotateTowardN_parallel c p hcc ((c :: ring).map some)).1,
    fun p => (rotateTowardN_parallel c p hcc ((c :: ring).map some)).2.1, fun p => (rotateTowardN_parallel c p hcc ((c :: ring).map some)).2.2⟩
  have hscale : ∀ t : ℝ, t ≠ 1 → (fun i => t * c i) ≠ c := by
    intro t ht e
    have : inner (fun i => t * c i) c = 1 := by rw [e]; exact hcc
    have h' : inner (fun i => t * c i) c = t * inner c c := by
      simp only [inner, Finset.mul_sum, mul_assoc]
    rw [h', hcc, mul_one] at this
    exact ht this
  have hN : (((c :: ring).map some).map (fun _ => (none : Option (Vec m)))).map (Option.map unitRow) = List.replicate (ring.length + 1) none := by
    simp [List.map_map, Function.comp_def, List.map_const', List.replicate_succ]
  refine ⟨fun t ht h1' => ?_, ?_, fun t ht => ?_⟩
  · have hform := slowAdapt_form s hk c ring hv _ (hscale t h1')
    rw [h2 _ t ht rfl] at hform
    simp only [hN] at hform
    rw [hform]
    exact ⟨rfl, axes m, isAxes_axes, rfl⟩
  · have hform := slowAdapt_form s hk c ring hv (fun _ => 0) (fun e => unit_ne_zero c hcc e.symm)
    rw [h1 (fun _ => 0) rfl] at hform
    simp only [hN] at hform
    rw [hform]
    exact ⟨rfl, axes m, isAxes_axes, rfl⟩
  · have hform := slowAdapt_form s hk c ring hv _ (hscale t (by linarith))
    rw [h3 _ t ht rfl] at hform
    exact hform

/-- Once the focused vectors are NaN they stay so. -/
theorem slowAdapt_nan (s : FRV m) (n : Nat) (hn : 0 < n) (h : NaNWithEdges s.values n) (hnum : s.number = s.values.length) (p : Vec m) :
    NaNWithEdges (s.slowAdapt p).2.values n ∧ (s.slowAdapt p).2.number = s.number ∧
      (s.slowAdapt p).2.number = (s.slowAdapt p).2.values.length := by
  obtain ⟨E, hE, h⟩ := h
  by_cases hk : s.kind ≠ .focused ∧ s.kind ≠ .sparseFocused
  · rw [c78_wrong_type s hk.1 hk.2]
    exact ⟨⟨E, hE, h⟩, rfl, hnum⟩
  · have ht : s.values.take (s.values.length - m) = List.replicate n none := by rw [h]; exact take_nan n E hE.1
    obtain ⟨n', rfl⟩ : ∃ n', n = n' + 1 := ⟨n - 1, by omega⟩
    have hv : s.values = none :: (List.replicate n' none ++ E.map some) := by rw [h, List.replicate_succ]; rfl
    have e : (s.slowAdapt p).2 = { s with values := List.replicate (n' + 1) none ++ (axes m).map some, planar := List.replicate (n' + 1) none ++ (axes m).map some, number := n' + 1 + m } := by
      unfold FRV.slowAdapt
      rw [if_neg hk]
      simp only [ht]
      rw [hv]
      simp only [reduceCtorEq, if_false, rotateTowardN, frv_addEdges_norm]
      simp
    rw [e]
    refine ⟨⟨axes m, isAxes_axes, rfl⟩, ?_, ?_⟩
    · rw [hnum, h]; simp [hE.1]
    · simp [axes_length]

/-- What a history of adaptations preserves. -/
def SlowInv (F0 : List (Vec m)) (s : FRV m) : Prop :=
  s.number = s.values.length ∧
  (NaNWithEdges s.values F0.length ∨ ∃ R, Rigid R ∧ WithEdges s.values (F0.map R))

theorem slowInv_step (F0 : List (Vec m)) (h0 : F0 ≠ []) (hunit : ∀ v ∈ F0, len v = 1) (s : FRV m) (h : SlowInv F0 s) (p : Vec m) :
    SlowInv F0 (s.slowAdapt p).2 ∧ (s.slowAdapt p).2.number = s.number := by
  obtain ⟨hnum, h⟩ := h
  rcases h with h | ⟨R, hR, hv⟩
  · obtain ⟨h1, h2, h3⟩ := slowAdapt_nan s F0.length (List.length_pos_iff.2 h0) h hnum p
    exact ⟨⟨h3, .inl h1⟩, h2⟩
  · by_cases hk : s.kind ≠ .focused ∧ s.kind ≠ .sparseFocused
    · rw [c78_wrong_type s hk.1 hk.2]
      exact ⟨⟨hnum, .inr ⟨R, hR, hv⟩⟩, rfl⟩
    have hk' : s.kind = .focused ∨ s.kind = .sparseFocused := by
      by_contra hc
      exact hk ⟨fun e => hc (.inl e), fun e => hc (.inr e)⟩
    obtain ⟨c, ring, rfl⟩ := List.exists_cons_of_ne_nil h0
    have hu : ∀ v ∈ (c :: ring).map R, len v = 1 := by
      intro v hv
      obtain ⟨x, hx, rfl⟩ := List.mem_map.1 hv
      rw [← inner_self_one, hR, inner_self_one]
      exact hunit x hx
    rw [List.map_cons] at hv hu
    have hlen : s.values.length = ring.length + 1 + m := by
      obtain ⟨E, hE, e⟩ := hv
      rw [e]; simp [hE.1]; omega
    have hnan : NaNWithEdges (s.slowAdapt p).2.values (ring.length + 1) → (s.slowAdapt p).2.number = (s.slowAdapt p).2.values.length →
        SlowInv (c :: ring) (s.slowAdapt p).2 ∧ (s.slowAdapt p).2.number = s.number := by
      intro hn he
      refine ⟨⟨he, .inl hn⟩, ?_⟩
      rw [he, hnum, hlen]
      obtain ⟨E, hE, e⟩ := hn
      rw [e]; simp [hE.1]
    have hcount : ∀ q, p ≠ R c → rotateTowardN (some (R c)) p ((R c :: ring.map R).map some) 5 = .ok (((R c :: ring.map R).map some).map (fun _ => none), q) →
        (s.slowAdapt p).2.number = (s.slowAdapt p).2.values.length := by
      intro q hne hq
      have hform := slowAdapt_form s hk' (R c) (ring.map R) hv p hne
      rw [hq] at hform
      rw [hform]
      simp [axes_length]
      try omega
    have hcc := (inner_self_one _).2 (hu (R c) (by simp))
    have hpar := rotateTowardN_parallel (R c) p hcc ((R c :: ring.map R).map some)
    have hviol := c78_parallel_violated s hk' (R c) (ring.map R) hv (hu (R c) (by simp))
    rw [List.length_map] at hviol
    by_cases hex : ∃ t : ℝ, p = fun i => t * R c i
    · obtain ⟨t, ht⟩ := hex
      rcases lt_trichotomy t 0 with hneg | rfl | hpos
      · rw [ht, hviol.2.2 t hneg]
        exact ⟨⟨hnum, .inr ⟨R, hR, hv⟩⟩, rfl⟩
      · have hp0 : p = fun _ => 0 := by rw [ht]; funext i; simp
        have hne : p ≠ R c := by rw [hp0]; exact fun e => unit_ne_zero _ hcc e.symm
        refine hnan ?_ (hcount false hne (hpar.1 hp0))
        rw [hp0]
        exact hviol.2.1.2
      · by_cases h1 : t = 1
        · have : p = R c := by rw [ht, h1]; funext i; simp
          obtain ⟨E, hE, e⟩ := hv
          rw [this, c78_at_the_point s hk' (R c) ((ring.map R ++ E).map some) (by rw [e]; simp)]
          exact ⟨⟨hnum, .inr ⟨R, hR, ⟨E, hE, e⟩⟩⟩, rfl⟩
        · have hne : p ≠ R c := by
            rw [ht]
            intro e
            have : inner (fun i => t * R c i) (R c) = 1 := by rw [e]; exact hcc
            have h' : inner (fun i => t * R c i) (R c) = t * inner (R c) (R c) := by simp only [inner, Finset.mul_sum, mul_assoc]
            rw [h', hcc, mul_one] at this
            exact h1 this
          refine hnan ?_ (hcount true hne (hpar.2.1 t hpos ht))
          rw [ht]
          exact (hviol.1 t hpos h1).2
    · have hp : ∀ t : ℝ, p ≠ fun i => t * R c i := fun t e => hex ⟨t, e⟩
      have hp0 : p ≠ 0 := fun e => hp 0 (by rw [e]; funext i; simp)
      obtain ⟨R', reached, -, h2, h3, h4, -⟩ := c78_step s hk' (R c) (ring.map R) hv hu p (unitVec p) (unitVec_isDirection p hp0) hp
      have h3' : WithEdges (s.slowAdapt p).2.values ((c :: ring).map (fun x => R' (R x))) := by
        simpa [List.map_map, Function.comp_def] using h3
      refine ⟨⟨?_, .inr ⟨_, fun x y => (h2 _ _).trans (hR x y), h3'⟩⟩, by rw [h4, hnum]⟩
      rw [h4, hlen]
      obtain ⟨E, hE, e⟩ := h3'
      rw [e]; simp [hE.1]; omega

/-- C78: after any history of slow adaptations, with any reference points: the number of vectors is what it was, the coordinate axes are last,
and either every focused vector is NaN or each two of them are at the angle at which they started (in particular all have length one and the
central vector is five degrees away from the others). -/
theorem c78_history (s : FRV m) (F0 : List (Vec m)) (h0 : F0 ≠ []) (hv : WithEdges s.values F0) (hunit : ∀ v ∈ F0, len v = 1)
    (hnum : s.number = s.values.length) (ps : List (Vec m)) :
    (s.slowCalls ps).number = s.number ∧ (s.slowCalls ps).values.length = s.values.length ∧
    (NaNWithEdges (s.slowCalls ps).values F0.length ∨
      ∃ F, WithEdges (s.slowCalls ps).values F ∧ F.length = F0.length ∧
        ∀ (i j : Nat) (a b a0 b0 : Vec m), F[i]? = some a → F[j]? = some b → F0[i]? = some a0 → F0[j]? = some b0 → inner a b = inner a0 b0) := by
  have hinv : ∀ (s' : FRV m), SlowInv F0 s' → SlowInv F0 (s'.slowCalls ps) ∧ (s'.slowCalls ps).number = s'.number := by
    induction ps with
    | nil => exact fun s' h => ⟨h, rfl⟩
    | cons p ps ih =>
      intro s' h
      obtain ⟨h1, h2⟩ := slowInv_step F0 h0 hunit s' h p
      obtain ⟨h3, h4⟩ := ih _ h1
      exact ⟨h3, h4.trans h2⟩
  obtain ⟨⟨h1, h2⟩, h3⟩ := hinv s ⟨hnum, .inr ⟨id, fun x y => rfl, by simpa using hv⟩⟩
  refine ⟨h3, by rw [← h1, h3, hnum], ?_⟩
  rcases h2 with h | ⟨R, hR, hv'⟩
  · exact .inl h
  · refine .inr ⟨_, hv', by simp, ?_⟩
    intro i j a b a0 b0 ha hb ha0 hb0
    rw [List.getElem?_map, ha0] at ha
    rw [List.getElem?_map, hb0] at hb
    simp only [Option.map_some, Option.some.injEq] at ha hb
    rw [← ha, ← hb]
    exact hR a0 b0

theorem parallel_angle (c p f : Vec m) (hc : len c = 1) (hp : p ≠ 0) (hf : IsDirection p f) (t : ℝ) (h : p = fun i => t * c i) :
    angleOf c f = 0 ∨ angleOf c f = Real.pi := by
  have hcc := (inner_self_one c).2 hc
  rcases lt_trichotomy t 0 with ht | rfl | ht
  · right
    have : f = fun i => -c i := by
      refine isDirection_unique p f _ hf (.inr ⟨?_, -t, by linarith, fun i => by rw [h]; ring⟩)
      rw [← inner_self_one]
      have : inner (fun i => -c i) (fun i => -c i) = inner c c := by simp [inner]
      rw [this, hcc]
    unfold angleOf
    have hi : inner c f = -1 := by
      rw [this]
      have : inner c (fun i => -c i) = - inner c c := by simp [inner]
      rw [this, hcc]
    rw [hi, Real.arccos_neg_one]
  · exact absurd (by rw [h]; funext i; simp) hp
  · left
    have : f = c := isDirection_unique p f _ hf (.inr ⟨hc, t, ht, fun i => by rw [h]⟩)
    unfold angleOf
    rw [this, hcc, Real.arccos_one]

theorem slowCalls_succ (s : FRV m) (p : Vec m) (k : Nat) :
    s.slowCalls (List.replicate (k + 1) p) = (s.slowAdapt p).2.slowCalls (List.replicate k p) := by
  rw [List.replicate_succ]; rfl

/-- C78: repeated calls with one reference point, whose angle to the central vector is strictly between `n` and `n + 1` times five degrees
and less than 180 degrees: `n` calls that return false, then one that returns true, after which the central vector is the direction of the
reference point. -/
theorem c78_reaches (n : Nat) (p f : Vec m) (hp0 : p ≠ 0) (hf : IsDirection p f) : ∀ (s : FRV m) (c : Vec m) (ring : List (Vec m)),
    (s.kind = .focused ∨ s.kind = .sparseFocused) → WithEdges s.values (c :: ring) → (∀ v ∈ c :: ring, len v = 1) →
    (n : ℝ) * fiveDegrees < angleOf c f → angleOf c f < (n + 1 : ℝ) * fiveDegrees → angleOf c f < Real.pi →
    (∀ k, k < n → ((s.slowCalls (List.replicate k p)).slowAdapt p).1 = .ok (some false)) ∧
    ((s.slowCalls (List.replicate n p)).slowAdapt p).1 = .ok (some true) ∧
    ∃ ring', WithEdges ((s.slowCalls (List.replicate n p)).slowAdapt p).2.values (f :: ring') ∧ ring'.length = ring.length ∧
      ∀ v ∈ f :: ring', len v = 1 := by
  have h5 : 0 < fiveDegrees := by unfold fiveDegrees; have := Real.pi_pos; positivity
  have hrig : ∀ (R : Vec m → Vec m), Rigid R → ∀ F : List (Vec m), (∀ v ∈ F, len v = 1) → ∀ v ∈ F.map R, len v = 1 := by
    intro R hR F hF v hv
    obtain ⟨x, hx, rfl⟩ := List.mem_map.1 hv
    rw [← inner_self_one, hR, inner_self_one]
    exact hF x hx
  induction n with
  | zero =>
    intro s c ring hk hv hunit ha hb hc
    have hp : ∀ t : ℝ, p ≠ fun i => t * c i := by
      intro t e
      rcases parallel_angle c p f (hunit c (by simp)) hp0 hf t e with h | h
      · rw [h] at ha; simp at ha
      · rw [h] at hc; exact lt_irrefl _ hc
    obtain ⟨R, reached, h1, h2, h3, -, -, -, h7, h8, -⟩ := c78_step s hk c ring hv hunit p f hf hp
    have ht : reached = true := h7.2 (by simpa using hb)
    subst ht
    refine ⟨fun k hk => absurd hk (by omega), h1, ring.map R, ?_, by simp, ?_⟩
    · rw [List.map_cons, h8 rfl] at h3
      exact h3
    · have := hrig R h2 _ hunit
      rwa [List.map_cons, h8 rfl] at this
  | succ n ih =>
    intro s c ring hk hv hunit ha hb hc
    have hn : (0 : ℝ) ≤ n := Nat.cast_nonneg n
    push_cast at ha hb
    have hp : ∀ t : ℝ, p ≠ fun i => t * c i := by
      intro t e
      rcases parallel_angle c p f (hunit c (by simp)) hp0 hf t e with h | h
      · rw [h] at ha; nlinarith
      · rw [h] at hc; exact lt_irrefl _ hc
    obtain ⟨R, reached, h1, h2, h3, -, h5', -, h7, -, h9⟩ := c78_step s hk c ring hv hunit p f hf hp
    have ht : reached = false := by
      cases reached with
      | false => rfl
      | true => have := h7.1 rfl; nlinarith
    subst ht
    obtain ⟨-, hang⟩ := h9 rfl
    rw [List.map_cons] at h3
    obtain ⟨i1, i2, ring', i3, i4, i5⟩ := ih (s.slowAdapt p).2 (R c) (ring.map R) (by rw [h5']; exact hk) h3
      (by have := hrig R h2 _ hunit; rwa [List.map_cons] at this) (by rw [hang]; linarith) (by rw [hang]; linarith) (by rw [hang]; linarith)
    refine ⟨?_, by rw [slowCalls_succ]; exact i2, ring', by rw [slowCalls_succ]; exact i3, by rw [i4]; simp, i5⟩
    intro k hk
    cases k with
    | zero => exact h1
    | succ k => rw [slowCalls_succ]; exact i1 k (by omega)

/-- C78, violated: going on after the reference point is reached: if its length is one nothing more happens (result None); if it is not, the
next call turns every focused vector into NaN. -/
theorem c78_after_reaching_violated (s : FRV m) (hk : s.kind = .focused ∨ s.kind = .sparseFocused) (p f : Vec m) (hp0 : p ≠ 0)
    (hf : IsDirection p f) (ring : List (Vec m)) (hv : WithEdges s.values (f :: ring)) :
    (len p = 1 → s.slowAdapt p = (.ok none, s)) ∧
    (len p ≠ 1 → (s.slowAdapt p).1 = .ok (some true) ∧ NaNWithEdges (s.slowAdapt p).2.values (ring.length + 1)) := by
  rcases hf with ⟨h, -⟩ | ⟨hl, t, ht, he⟩
  · exact absurd h hp0
  · have hp : p = fun i => t * f i := funext he
    have hlp : len p = t := by
      have := norm2_smul t f
      rw [norm2_eq_len, norm2_eq_len, hl, mul_one, abs_of_pos ht] at this
      rw [hp]; exact this
    constructor
    · intro h1
      rw [hlp] at h1
      subst h1
      have : p = f := by rw [hp]; funext i; simp
      obtain ⟨E, hE, e⟩ := hv
      rw [this]
      exact c78_at_the_point s hk f ((ring ++ E).map some) (by rw [e]; simp)
    · intro h1
      rw [hlp] at h1
      rw [hp]
      exact (c78_parallel_violated s hk f ring hv hl).1 t ht h1

/-- C78: the planar form keeps up with any history of adaptations. -/
theorem c78_planar (s : FRV m) (hs : PlanarForm s.values s.planar) (ps : List (Vec m)) :
    PlanarForm (s.slowCalls ps).values (s.slowCalls ps).planar := by
  have step : ∀ (s : FRV m) (p : Vec m), PlanarForm s.values s.planar → PlanarForm (s.slowAdapt p).2.values (s.slowAdapt p).2.planar := by
    intro s p h
    unfold FRV.slowAdapt
    split
    · exact h
    · split
      · exact h
      · rename_i first _ _
        by_cases hf : first = some p
        · simp only [if_pos hf]; exact h
        · simp only [if_neg hf]
          cases rotateTowardN first p (s.values.take (s.values.length - m)) 5 with
          | error e => exact h
          | ok q =>
            obtain ⟨v, reached⟩ := q
            simp only [frv_addEdges_norm]
            exact planar_of_rows { s with values := v.map (Option.map unitRow) ++ (axes m).map some, planar := v.map (fun r => r.bind planarRowN) ++ (axes m).map some } v rfl rfl
  induction ps generalizing s with
  | nil => exact hs
  | cons p ps ih => exact ih _ (step s p hs)

/-- Non-vacuity: three objectives, the default reference point. -/
example : (∀ a : ℝ, (fun _ => 1 : Vec 3) ≠ fun i => if i = Fin.last 2 then a else 0) ∧
    IsDirection (fun _ => 1 : Vec 3) (unitVec (fun _ => 1 : Vec 3)) := by
  refine ⟨fun a h => ?_, unitVec_isDirection _ (fun h => ?_)⟩
  · have := congrFun h 0; simp at this
  · have := congrFun h 0; simp at this

/-- Non-vacuity of C78: every constructed object satisfies the hypotheses of the history theorem. -/
example (k : Nat) (p c : Vec (k + 1)) (hc : IsDirection p c) (hp : ∀ a : ℝ, p ≠ fun i => if i = Fin.last k then a else 0) :
    ∃ s F0, FRV.construct k (some 4) none .focused (some p) = .ok s ∧ F0 ≠ [] ∧ WithEdges s.values F0 ∧ (∀ v ∈ F0, len v = 1) ∧
      s.number = s.values.length ∧ (s.kind = .focused ∨ s.kind = .sparseFocused) := by
  obtain ⟨s, ring, h1, h2, h3, -, -, h6, -, h8⟩ := c77_focused_cone k (some 4) none .focused (.inl rfl) (.inl (by simp)) p c hc hp
  refine ⟨s, c :: ring, h1, by simp, h2, ?_, ?_, .inl h8⟩
  · intro v hv
    rcases List.mem_cons.1 hv with rfl | hv
    · exact h3.1
    · exact (h3.2 v hv).1
  · obtain ⟨E, hE, e⟩ := h2
    rw [h6, e]; simp [hE.1]; omega

/-- Non-vacuity of C78: seven and a half degrees are one and a half steps. -/
example : (1 : Nat) * fiveDegrees < angleOf (axis (0 : Fin 2)) (fun i => if i = 0 then Real.cos (3 / 2 * fiveDegrees) else Real.sin (3 / 2 * fiveDegrees)) ∧
    angleOf (axis (0 : Fin 2)) (fun i => if i = 0 then Real.cos (3 / 2 * fiveDegrees) else Real.sin (3 / 2 * fiveDegrees)) < ((1 : Nat) + 1 : ℝ) * fiveDegrees ∧
    angleOf (axis (0 : Fin 2)) (fun i => if i = 0 then Real.cos (3 / 2 * fiveDegrees) else Real.sin (3 / 2 * fiveDegrees)) < Real.pi := by
  have hπ := Real.pi_pos
  have h5 : 0 < fiveDegrees := by unfold fiveDegrees; positivity
  have e : angleOf (axis (0 : Fin 2)) (fun i => if i = 0 then Real.cos (3 / 2 * fiveDegrees) else Real.sin (3 / 2 * fiveDegrees)) = 3 / 2 * fiveDegrees := by
    unfold angleOf
    rw [inner_axis, if_pos rfl]
    exact Real.arccos_cos (by positivity) (by unfold fiveDegrees; linarith)
  rw [e]
  refine ⟨by push_cast; linarith, by push_cast; linarith, by unfold fiveDegrees; linarith⟩

end Verif.Props
