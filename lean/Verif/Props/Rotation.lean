import Mathlib.Tactic.LinearCombination
import Verif.Proofs.RefVectors

/-!
# Properties C26, C53: rotation of reference vectors
-/

open scoped BigOperators

namespace Verif.Props
open Verif Verif.Spec

variable {m : Nat}

/-! ## inner product algebra -/

theorem inner_comm (x y : Vec m) : inner x y = inner y x :=
  Finset.sum_congr rfl (fun i _ => mul_comm _ _)

theorem inner_add_smul (x y z : Vec m) (a b : ℝ) : inner (fun i => a * x i + b * y i) z = a * inner x z + b * inner y z := by
  unfold inner
  rw [Finset.mul_sum, Finset.mul_sum, ← Finset.sum_add_distrib]
  exact Finset.sum_congr rfl (fun i _ => by ring)

theorem inner_sub_smul (x y z : Vec m) (a : ℝ) : inner (fun i => x i - a * y i) z = inner x z - a * inner y z := by
  have := inner_add_smul x y z 1 (-a)
  have e : (fun i => x i - a * y i) = (fun i => 1 * x i + (-a) * y i) := by funext i; ring
  rw [e, this]; ring

theorem inner_sub (x y z : Vec m) : inner (fun i => x i - y i) z = inner x z - inner y z := by
  have := inner_sub_smul x y z 1
  simpa using this

theorem inner_add (x y z : Vec m) : inner (fun i => x i + y i) z = inner x z + inner y z := by
  have := inner_add_smul x y z 1 1
  simpa using this

theorem inner_self_nonneg (x : Vec m) : 0 ≤ inner x x := Finset.sum_nonneg (fun i _ => mul_self_nonneg _)

theorem inner_self_eq_zero (x : Vec m) : inner x x = 0 ↔ x = 0 := by
  unfold inner
  rw [Finset.sum_eq_zero_iff_of_nonneg (fun i _ => mul_self_nonneg _)]
  constructor
  · intro h; funext i; simpa using h i (Finset.mem_univ i)
  · rintro rfl; simp

theorem len_sq (x : Vec m) : len x ^ 2 = inner x x := Real.sq_sqrt (inner_self_nonneg x)

theorem inner_self_one (x : Vec m) : inner x x = 1 ↔ len x = 1 := by
  unfold len; exact (Real.sqrt_eq_one).symm

theorem unitVec_isDirection (v : Vec m) (h : v ≠ 0) : IsDirection v (unitVec v) := by
  have : unitVec v = unitRow v := by
    funext i; simp [unitVec, unitRow, (norm2_eq_zero v).not.2 h]
  rw [this]; exact unitRow_isDirection v

theorem unitVec_self (v : Vec m) (h : v ≠ 0) : inner (unitVec v) (unitVec v) = 1 := by
  have hn : norm2 v ≠ 0 := (norm2_eq_zero v).not.2 h
  rw [inner_self_one, ← norm2_eq_len]
  unfold unitVec
  rw [norm2_div v _ (norm2_nonneg v), div_self hn]

/-- The matrix of `householder` acts as the reflection in the hyperplane orthogonal to `v`. -/
theorem householder_apply (v x : Vec m) :
    (householder v).mulVec x = fun i => x i - (2 * inner v x / inner v v) * v i := by
  funext i
  unfold householder
  rw [Matrix.sub_mulVec, Matrix.one_mulVec]
  simp only [Pi.sub_apply, Matrix.mulVec, dotProduct, Matrix.of_apply]
  congr 1
  unfold inner
  rw [mul_comm 2 (∑ i, v i * x i), div_eq_mul_inv, mul_assoc, mul_assoc, Finset.sum_mul]
  refine Finset.sum_congr rfl (fun j _ => ?_)
  rw [div_eq_mul_inv]; ring

theorem householder_inner (v x y : Vec m) (hv : inner v v ≠ 0) :
    inner ((householder v).mulVec x) ((householder v).mulVec y) = inner x y := by
  rw [householder_apply, householder_apply, inner_sub_smul, inner_comm x, inner_sub_smul,
    inner_comm v (fun i => y i - _ * v i), inner_sub_smul]
  rw [inner_comm y x, inner_comm y v]
  field_simp
  ring

/-- Reflecting in the bisecting hyperplane swaps two unit vectors. -/
theorem householder_swaps (u w : Vec m) (hu : inner u u = 1) (hw : inner w w = 1)
    (hne : inner (fun i => u i - w i) (fun i => u i - w i) ≠ 0) :
    (householder (fun i => u i - w i)).mulVec u = w := by
  rw [householder_apply]
  have h1 : inner (fun i => u i - w i) u = 1 - inner u w := by
    rw [inner_sub, hu, inner_comm w u]
  have h2 : inner (fun i => u i - w i) (fun i => u i - w i) = 2 * (1 - inner u w) := by
    rw [inner_sub, inner_comm u, inner_comm w, inner_sub, inner_sub, hu, hw, inner_comm w u]; ring
  rw [h2] at hne
  funext i
  simp only [h1, h2, div_self hne]
  ring

theorem householder_fixes (v x : Vec m) (h : inner v x = 0) : (householder v).mulVec x = x := by
  rw [householder_apply, h]; funext i; simp

/-! ## The situation of `rotate`: nonzero vectors that are not parallel -/

/-- `a` and `b` are nonzero and point neither in the same nor in opposite directions. -/
def NotParallel (a b : Vec m) : Prop := a ≠ 0 ∧ b ≠ 0 ∧ ∀ c : ℝ, b ≠ fun i => c * a i

structure Setup (a b mid : Vec m) : Prop where
  aa : inner a a = 1
  bb : inner b b = 1
  mm : inner mid mid = 1
  sum : (fun i => a i + b i) ≠ (0 : Vec m)
  q1 : inner (fun i => a i - mid i) (fun i => a i - mid i) ≠ 0
  q2 : inner (fun i => mid i - b i) (fun i => mid i - b i) ≠ 0

theorem setup_of_notParallel (a b : Vec m) (h : NotParallel a b) :
    Setup (unitVec a) (unitVec b) (unitVec (fun i => unitVec a i + unitVec b i)) := by
  obtain ⟨ha, hb, hc⟩ := h
  have hna : norm2 a ≠ 0 := (norm2_eq_zero a).not.2 ha
  have hnb : norm2 b ≠ 0 := (norm2_eq_zero b).not.2 hb
  have hpar : ∀ c : ℝ, unitVec b ≠ fun i => c * unitVec a i := by
    intro c he
    refine hc (norm2 b * c / norm2 a) ?_
    funext i
    have := congrFun he i
    unfold unitVec at this
    field_simp at this ⊢
    exact this
  have hsum : (fun i => unitVec a i + unitVec b i) ≠ (0 : Vec m) := by
    intro he
    refine hpar (-1) ?_
    funext i
    have := congrFun he i
    simp only [Pi.zero_apply] at this
    linarith
  have hns : norm2 (fun i => unitVec a i + unitVec b i) ≠ 0 := (norm2_eq_zero _).not.2 hsum
  refine ⟨unitVec_self a ha, unitVec_self b hb, unitVec_self _ hsum, hsum, ?_, ?_⟩
  · rw [ne_eq, inner_self_eq_zero]
    intro he
    refine hpar (norm2 (fun i => unitVec a i + unitVec b i) - 1) ?_
    funext i
    have h1 := congrFun he i
    simp only [Pi.zero_apply] at h1
    have h2 : unitVec (fun i => unitVec a i + unitVec b i) i * norm2 (fun i => unitVec a i + unitVec b i) =
        unitVec a i + unitVec b i := by
      conv_lhs => rw [unitVec]
      exact div_mul_cancel₀ _ hns
    have h3 : unitVec (fun i => unitVec a i + unitVec b i) i = unitVec a i := by linarith
    rw [h3] at h2
    linarith
  · rw [ne_eq, inner_self_eq_zero]
    intro he
    have hkey : ∀ i, unitVec b i * (norm2 (fun i => unitVec a i + unitVec b i) - 1) = unitVec a i := by
      intro i
      have h1 := congrFun he i
      simp only [Pi.zero_apply] at h1
      have h2 : unitVec (fun i => unitVec a i + unitVec b i) i * norm2 (fun i => unitVec a i + unitVec b i) =
          unitVec a i + unitVec b i := by
        conv_lhs => rw [unitVec]
        exact div_mul_cancel₀ _ hns
      have h3 : unitVec (fun i => unitVec a i + unitVec b i) i = unitVec b i := by linarith
      rw [h3] at h2
      linarith
    have hk0 : norm2 (fun i => unitVec a i + unitVec b i) - 1 ≠ 0 := by
      intro hk
      have : unitVec a = 0 := by
        funext i; have := hkey i; rw [hk, mul_zero] at this; exact this.symm
      have h1 := unitVec_self a ha
      rw [this, (inner_self_eq_zero _).2 rfl] at h1
      exact absurd h1 (by norm_num)
    refine hpar (norm2 (fun i => unitVec a i + unitVec b i) - 1)⁻¹ ?_
    funext i
    rw [← hkey i]
    field_simp

theorem rotation_apply (a b x : Vec m) :
    (rotationMatrix a b).mulVec x =
      (householder (fun i => unitVec (fun i => unitVec a i + unitVec b i) i - unitVec b i)).mulVec
        ((householder (fun i => unitVec a i - unitVec (fun i => unitVec a i + unitVec b i) i)).mulVec x) := by
  unfold rotationMatrix
  rw [Matrix.mulVec_mulVec]

/-- C26. `rotate(a, b, V)`, for nonzero vectors that are not parallel, in every dimension: every output row is
obtained by one map that preserves all inner products (so all lengths and angles), maps the direction of `a` to
the direction of `b`, and leaves every vector orthogonal to both unchanged. -/
theorem c26_rotate_is_rigid (a b : Vec m) (h : NotParallel a b) (V : List (Vec m)) :
    ∃ R : Vec m → Vec m, rotate a b V = V.map R ∧ (∀ x y, inner (R x) (R y) = inner x y) ∧
      (∀ x, len (R x) = len x) ∧ (∀ u w, IsDirection a u → IsDirection b w → R u = w) ∧
      (∀ x, inner x a = 0 → inner x b = 0 → R x = x) := by
  have S := setup_of_notParallel a b h
  have hin : ∀ x y, inner ((rotationMatrix a b).mulVec x) ((rotationMatrix a b).mulVec y) = inner x y := by
    intro x y
    rw [rotation_apply, rotation_apply, householder_inner _ _ _ S.q2, householder_inner _ _ _ S.q1]
  refine ⟨fun x => (rotationMatrix a b).mulVec x, rfl, hin, ?_, ?_, ?_⟩
  · intro x
    have h1 := hin x x
    have : ∀ y : Vec m, len y = Real.sqrt (inner y y) := fun y => rfl
    rw [this, this, h1]
  · intro u w hu hw
    simp only
    rw [isDirection_unique a u (unitVec a) hu (unitVec_isDirection a h.1),
      isDirection_unique b w (unitVec b) hw (unitVec_isDirection b h.2.1), rotation_apply,
      householder_swaps _ _ S.aa S.mm S.q1, householder_swaps _ _ S.mm S.bb S.q2]
  · intro x hxa hxb
    have hua : inner (unitVec a) x = 0 := by
      have : unitVec a = fun i => (norm2 a)⁻¹ * a i + 0 * a i := by funext i; simp only [unitVec, div_eq_inv_mul]; ring
      rw [this, inner_add_smul, inner_comm a x, hxa]; ring
    have hub : inner (unitVec b) x = 0 := by
      have : unitVec b = fun i => (norm2 b)⁻¹ * b i + 0 * b i := by funext i; simp only [unitVec, div_eq_inv_mul]; ring
      rw [this, inner_add_smul, inner_comm b x, hxb]; ring
    have hum : inner (unitVec (fun i => unitVec a i + unitVec b i)) x = 0 := by
      have : unitVec (fun i => unitVec a i + unitVec b i) =
          fun i => (norm2 (fun i => unitVec a i + unitVec b i))⁻¹ * unitVec a i +
            (norm2 (fun i => unitVec a i + unitVec b i))⁻¹ * unitVec b i := by
        funext i
        conv_lhs => rw [unitVec]
        rw [div_eq_inv_mul]; ring
      rw [this, inner_add_smul, hua, hub]; ring
    simp only
    rw [rotation_apply, householder_fixes _ x (by rw [inner_sub, hua, hum, sub_zero]),
      householder_fixes _ x (by rw [inner_sub, hum, hub, sub_zero])]

/-- C26. Under the same hypothesis none of the five divisors in `rotate` is zero (so no NaN arises). -/
theorem c26_no_division_by_zero (a b : Vec m) (h : NotParallel a b) :
    norm2 a ≠ 0 ∧ norm2 b ≠ 0 ∧ norm2 (fun i => unitVec a i + unitVec b i) ≠ 0 ∧
    (let mid := unitVec (fun i => unitVec a i + unitVec b i)
     inner (fun i => unitVec a i - mid i) (fun i => unitVec a i - mid i) ≠ 0 ∧
     inner (fun i => mid i - unitVec b i) (fun i => mid i - unitVec b i) ≠ 0) := by
  have S := setup_of_notParallel a b h
  exact ⟨(norm2_eq_zero a).not.2 h.1, (norm2_eq_zero b).not.2 h.2.1, (norm2_eq_zero _).not.2 S.sum, S.q1, S.q2⟩

/-- C26, the excluded cases: for parallel vectors a divisor is zero. -/
theorem c26_parallel_divides_by_zero (a : Vec m) (ha : a ≠ 0) (c : ℝ) (hc : c ≠ 0) :
    let b : Vec m := fun i => c * a i
    let mid := unitVec (fun i => unitVec a i + unitVec b i)
    norm2 (fun i => unitVec a i + unitVec b i) = 0 ∨
      inner (fun i => unitVec a i - mid i) (fun i => unitVec a i - mid i) = 0 := by
  intro b mid
  have hna : norm2 a ≠ 0 := (norm2_eq_zero a).not.2 ha
  rcases lt_or_gt_of_ne hc with h | h
  · left
    rw [norm2_eq_zero]
    funext i
    have hb : unitVec b i = - unitVec a i := by
      simp only [unitVec, b]
      rw [norm2_smul, abs_of_neg h]
      field_simp
    simp [hb]
  · right
    rw [inner_self_eq_zero]
    have hb : unitVec b = unitVec a := by
      funext i
      simp only [unitVec, b]
      rw [norm2_smul, abs_of_pos h]
      field_simp
    have hone : norm2 (unitVec a) = 1 := by rw [norm2_eq_len, ← inner_self_one]; exact unitVec_self a ha
    have hs : norm2 (fun i => unitVec a i + unitVec a i) = 2 := by
      have : (fun i => unitVec a i + unitVec a i) = fun i => 2 * unitVec a i := by funext i; ring
      rw [this, norm2_smul, hone]; norm_num
    funext i
    simp only [mid, hb]
    have : unitVec (fun i => unitVec a i + unitVec a i) i = (unitVec a i + unitVec a i) / 2 := by
      conv_lhs => rw [unitVec]
      rw [hs]
    rw [this]
    simp only [Pi.zero_apply]
    ring

example : NotParallel (![1, 0, 0] : Vec 3) ![1, 1, 1] := by
  refine ⟨fun h => ?_, fun h => ?_, fun c h => ?_⟩
  · have := congrFun h 0; simp at this
  · have := congrFun h 0; simp at this
  · have := congrFun h 1; simp at this

/-! ## C53 -/

/-- The angle between two unit vectors. -/
noncomputable def angle (u w : Vec m) : ℝ := Real.arccos (inner u w)

theorem inner_unit_bounds (u w : Vec m) (hu : inner u u = 1) (hw : inner w w = 1) : -1 ≤ inner u w ∧ inner u w ≤ 1 := by
  have h1 := inner_self_nonneg (fun i => u i - w i)
  have h2 := inner_self_nonneg (fun i => u i + w i)
  rw [inner_sub, inner_comm u, inner_comm w, inner_sub, inner_sub, hu, hw, inner_comm w u] at h1
  rw [inner_add, inner_comm u, inner_comm w, inner_add, inner_add, hu, hw, inner_comm w u] at h2
  constructor <;> linarith

theorem inner_unit_ne (u w : Vec m) (hu : inner u u = 1) (hw : inner w w = 1) (hp : ∀ c : ℝ, w ≠ fun i => c * u i) :
    inner u w ^ 2 < 1 := by
  have hb := inner_unit_bounds u w hu hw
  have h1 : inner u w ≠ 1 := by
    intro h
    have h1 : inner (fun i => u i - w i) (fun i => u i - w i) = 0 := by
      rw [inner_sub, inner_comm u, inner_comm w, inner_sub, inner_sub, hu, hw, inner_comm w u, h]; ring
    rw [inner_self_eq_zero] at h1
    exact hp 1 (by funext i; have := congrFun h1 i; simp only [Pi.zero_apply] at this; linarith)
  have h2 : inner u w ≠ -1 := by
    intro h
    have h1 : inner (fun i => u i + w i) (fun i => u i + w i) = 0 := by
      rw [inner_add, inner_comm u, inner_comm w, inner_add, inner_add, hu, hw, inner_comm w u, h]; ring
    rw [inner_self_eq_zero] at h1
    exact hp (-1) (by funext i; have := congrFun h1 i; simp only [Pi.zero_apply] at this; linarith)
  have h3 : inner u w < 1 := lt_of_le_of_ne hb.2 h1
  have h4 : -1 < inner u w := lt_of_le_of_ne hb.1 (Ne.symm h2)
  nlinarith

theorem notParallel_unit (a b : Vec m) (h : NotParallel a b) : NotParallel (unitVec a) (unitVec b) := by
  obtain ⟨ha, hb, hc⟩ := h
  have hna : norm2 a ≠ 0 := (norm2_eq_zero a).not.2 ha
  have hnb : norm2 b ≠ 0 := (norm2_eq_zero b).not.2 hb
  refine ⟨fun h => ?_, fun h => ?_, fun c he => hc (norm2 b * c / norm2 a) ?_⟩
  · have := unitVec_self a ha; rw [h, (inner_self_eq_zero _).2 rfl] at this; norm_num at this
  · have := unitVec_self b hb; rw [h, (inner_self_eq_zero _).2 rfl] at this; norm_num at this
  · funext i
    have := congrFun he i
    unfold unitVec at this
    field_simp at this ⊢
    exact this

theorem isDirection_self (u : Vec m) (h : inner u u = 1) : IsDirection u u :=
  Or.inr ⟨(inner_self_one u).1 h, 1, one_pos, fun i => (one_mul _).symm⟩

/-- C53. `rotate_toward(a, b, V, degrees)` for non-parallel `a`, `b` and a positive number of degrees: one rigid
map is applied to all vectors.  If the angle between `a` and `b` is smaller than the given one, the direction
of `a` goes to the direction of `b` and `reached` is true; otherwise `reached` is false and the direction of `a`
goes to a vector that makes exactly the given angle with `a` and has exactly that angle less to go to `b`. -/
theorem c53_rotate_toward (a b : Vec m) (h : NotParallel a b) (deg : ℝ) (hdeg : 0 < deg) (V : List (Vec m))
    (u f : Vec m) (hu : IsDirection a u) (hf : IsDirection b f) :
    ∃ (R : Vec m → Vec m) (reached : Bool), rotateToward a b V deg = .ok (V.map R, reached) ∧
      (∀ x y, inner (R x) (R y) = inner x y) ∧
      (reached = true ↔ angle u f < deg * Real.pi / 180) ∧ (reached = true → R u = f) ∧
      (reached = false → angle u (R u) = deg * Real.pi / 180 ∧ angle (R u) f = angle u f - deg * Real.pi / 180) := by
  have eu : u = unitVec a := isDirection_unique a u (unitVec a) hu (unitVec_isDirection a h.1)
  have ef : f = unitVec b := isDirection_unique b f (unitVec b) hf (unitVec_isDirection b h.2.1)
  have hP := notParallel_unit a b h
  rw [← eu, ← ef] at hP
  have huu : inner u u = 1 := by rw [eu]; exact unitVec_self a h.1
  have hff : inner f f = 1 := by rw [ef]; exact unitVec_self b h.2.1
  have hc1 := inner_unit_ne u f huu hff hP.2.2
  obtain ⟨hb1, hb2⟩ := inner_unit_bounds u f huu hff
  have hcphi : (∑ i, u i * f i) = inner u f := rfl
  unfold rotateToward
  simp only [← eu, ← ef, hcphi]
  generalize hth : deg * Real.pi / 180 = θ
  have hθ : 0 < θ := by rw [← hth]; have := Real.pi_pos; positivity
  unfold angle
  by_cases hlt : Real.arccos (inner u f) < θ
  · rw [if_pos hlt]
    obtain ⟨R, h1, h2, -, h4, -⟩ := c26_rotate_is_rigid u f hP V
    exact ⟨R, true, by rw [h1], h2, by simp [hlt], fun _ => h4 u f (isDirection_self u huu) (isDirection_self f hff),
      by simp⟩
  · rw [if_neg hlt]
    have hdet : inner u f * inner u f - 1 ≠ 0 := by nlinarith
    rw [if_neg hdet]
    have hcos : Real.cos (Real.arccos (inner u f)) = inner u f := Real.cos_arccos hb1 hb2
    have hφ0 : 0 ≤ Real.arccos (inner u f) := Real.arccos_nonneg _
    have hφπ : Real.arccos (inner u f) ≤ Real.pi := Real.arccos_le_pi _
    generalize hφ : Real.arccos (inner u f) = φ at *
    have hsin : 0 < Real.sin φ := by
      refine lt_of_le_of_ne (Real.sin_nonneg_of_nonneg_of_le_pi hφ0 hφπ) (fun h0 => ?_)
      have := Real.sin_sq_add_cos_sq φ
      rw [← h0, hcos] at this
      nlinarith
    have hs2 : inner u f * inner u f - 1 = - Real.sin φ ^ 2 := by
      have := Real.sin_sq_add_cos_sq φ
      rw [hcos] at this; linarith
    have hθφ : θ ≤ φ := not_lt.1 hlt
    have hθπ : θ < Real.pi := by
      refine lt_of_le_of_ne (le_trans hθφ hφπ) (fun he => ?_)
      have : φ = Real.pi := le_antisymm hφπ (he ▸ hθφ)
      rw [this, Real.sin_pi] at hsin
      exact lt_irrefl _ hsin
    have hsθ : 0 < Real.sin θ := Real.sin_pos_of_pos_of_lt_pi hθ hθπ
    have hx1 : (inner u f * Real.cos θ - Real.cos (φ - θ)) / (inner u f * inner u f - 1) = Real.sin θ / Real.sin φ := by
      rw [hs2, ← hcos, Real.cos_sub]
      field_simp
      ring
    have hx0 : (Real.cos (φ - θ) * inner u f - Real.cos θ) / (inner u f * inner u f - 1) =
        Real.cos θ - Real.sin θ * inner u f / Real.sin φ := by
      rw [hs2, Real.cos_sub, hcos]
      have h2 : inner u f ^ 2 = 1 - Real.sin φ ^ 2 := by nlinarith
      field_simp
      linear_combination (-Real.cos θ) * h2
    rw [hx0, hx1]
    generalize hw : (fun i => (Real.cos θ - Real.sin θ * inner u f / Real.sin φ) * u i + Real.sin θ / Real.sin φ * f i) = w
    have hwu : inner u w = Real.cos θ := by
      rw [inner_comm, ← hw, inner_add_smul, huu, inner_comm f u]; field_simp; ring
    have hwf : inner w f = Real.cos (φ - θ) := by
      rw [← hw, inner_add_smul, hff, Real.cos_sub, hcos]
      have h2 : inner u f ^ 2 = 1 - Real.sin φ ^ 2 := by nlinarith
      field_simp
      linear_combination (-Real.sin θ) * h2
    have hww : inner w w = 1 := by
      have hexp : inner w w = inner (fun i => (Real.cos θ - Real.sin θ * inner u f / Real.sin φ) * u i +
          Real.sin θ / Real.sin φ * f i) w := by rw [hw]
      rw [hexp, inner_add_smul, hwu, inner_comm f w, hwf, Real.cos_sub, hcos]
      have h2 := Real.sin_sq_add_cos_sq θ
      field_simp
      linear_combination (Real.sin φ) * h2
    have hPw : NotParallel u w := by
      refine ⟨hP.1, fun h0 => ?_, fun c hc => ?_⟩
      · rw [h0, (inner_self_eq_zero _).2 rfl] at hww; norm_num at hww
      · refine hP.2.2 ((c - (Real.cos θ - Real.sin θ * inner u f / Real.sin φ)) * Real.sin φ / Real.sin θ) ?_
        funext i
        have h1 := congrFun hc i
        have h2 := congrFun hw i
        rw [h1] at h2
        field_simp at h2 ⊢
        linear_combination h2
    obtain ⟨R, h1, h2, -, h4, -⟩ := c26_rotate_is_rigid u w hPw V
    have hR : R u = w := h4 u w (isDirection_self u huu) (isDirection_self w hww)
    refine ⟨R, false, by rw [h1], h2, by simp [hlt], by simp, fun _ => ?_⟩
    rw [hR, hwu, hwf]
    exact ⟨Real.arccos_cos hθ.le hθπ.le, Real.arccos_cos (by linarith) (by linarith)⟩

example : NotParallel (![1, 0] : Vec 2) ![0, 1] ∧ IsDirection (![1, 0] : Vec 2) ![1, 0] := by
  refine ⟨⟨fun h => ?_, fun h => ?_, fun c h => ?_⟩, isDirection_self _ (by simp [inner])⟩
  · have := congrFun h 0; simp at this
  · have := congrFun h 1; simp at this
  · have := congrFun h 1; simp at this

end Verif.Props
