import Verif.Spec.Floats

/-!
# Lemmas on rounding to floating point numbers
-/

namespace Verif.Proofs

open Verif.Spec

variable {p : Nat} {emin : ℤ} {r : ℝ → ℝ}

theorem rep_zero (p : Nat) (emin : ℤ) : Representable p emin 0 := ⟨0, emin, by positivity, le_refl _, by simp⟩

/-- Rounding does not change a floating point number. -/
theorem round_rep (hr : IsRounding p emin r) {x : ℝ} (hx : Representable p emin x) : r x = x := by
  have := (hr x).2 x hx
  rw [sub_self, abs_zero] at this
  have h0 := abs_eq_zero.1 (le_antisymm this (abs_nonneg _))
  linarith

/-- The result of rounding is at most as far as any lower candidate allows. -/
theorem round_ge_mid (hr : IsRounding p emin r) {x q : ℝ} (hq : Representable p emin q) (h : q ≤ r x) :
    (q + r x) / 2 ≤ x ∨ r x = q := by
  by_cases he : r x = q
  · exact Or.inr he
  · left
    have hlt : q < r x := lt_of_le_of_ne h (fun e => he e.symm)
    have h1 := (hr x).2 q hq
    by_contra hc
    push Not at hc
    rcases le_total x q with hx | hx
    · rw [abs_of_nonpos (by linarith), abs_of_nonpos (by linarith)] at h1
      linarith
    · rw [abs_of_nonpos (by linarith), abs_of_nonneg (by linarith)] at h1
      linarith

theorem round_le_mid (hr : IsRounding p emin r) {x q : ℝ} (hq : Representable p emin q) (h : r x ≤ q) :
    x ≤ (q + r x) / 2 ∨ r x = q := by
  by_cases he : r x = q
  · exact Or.inr he
  · left
    have hlt : r x < q := lt_of_le_of_ne h he
    have h1 := (hr x).2 q hq
    by_contra hc
    push Not at hc
    rcases le_total x q with hx | hx
    · rw [abs_of_nonneg (by linarith), abs_of_nonpos (by linarith)] at h1
      linarith
    · rw [abs_of_nonneg (by linarith), abs_of_nonneg (by linarith)] at h1
      linarith

/-- Rounding is monotone. -/
theorem round_mono (hr : IsRounding p emin r) {x y : ℝ} (h : x ≤ y) : r x ≤ r y := by
  rcases eq_or_lt_of_le h with rfl | h
  · exact le_refl _
  · by_contra hc
    push Not at hc
    have h1 := round_ge_mid hr (x := x) (hr y).1 hc.le
    have h2 := round_le_mid hr (x := y) (hr x).1 hc.le
    rcases h1 with h1 | h1
    · rcases h2 with h2 | h2
      · linarith
      · linarith
    · linarith

/-- A floating point number is an integer multiple of the smallest one. -/
theorem rep_multiple {x : ℝ} (hx : Representable p emin x) : ∃ k : ℤ, x = (k : ℝ) * (2 : ℝ) ^ emin := by
  obtain ⟨m, e, _, he, rfl⟩ := hx
  obtain ⟨n, hn⟩ := Int.le.dest he
  refine ⟨m * 2 ^ n, ?_⟩
  rw [← hn, zpow_add₀ (by norm_num), zpow_natCast]
  push_cast
  ring

/-- A positive floating point number is subnormal or has a full significand. -/
theorem rep_normal {d : ℝ} (hd : Representable p emin d) (h0 : 0 < d) :
    ∃ m e : ℤ, 0 < m ∧ m < 2 ^ p ∧ emin ≤ e ∧ d = (m : ℝ) * (2 : ℝ) ^ e ∧ (e = emin ∨ 2 ^ p ≤ 2 * m) := by
  obtain ⟨m, e, hm, he, hx⟩ := hd
  have hm0 : 0 < m := by
    rw [hx] at h0
    have := (pos_iff_pos_of_mul_pos h0).2 (by positivity)
    exact_mod_cast this
  rw [abs_of_pos hm0] at hm
  obtain ⟨k, hk⟩ := Int.le.dest he
  induction k generalizing m e with
  | zero => exact ⟨m, e, hm0, hm, he, hx, Or.inl (by simpa using hk.symm)⟩
  | succ k ih =>
    by_cases h2 : (2 : ℤ) ^ p ≤ 2 * m
    · exact ⟨m, e, hm0, hm, he, hx, Or.inr h2⟩
    · push Not at h2
      refine ih (2 * m) (e - 1) h2 (by push_cast at hk; omega) ?_ (by omega) (by push_cast at hk; omega)
      rw [hx, zpow_sub₀ (by norm_num)]
      push_cast
      field_simp

/-- Beyond `2 ^ (p - 1)` units, floating point numbers are multiples of the unit. -/
theorem rep_grid {x : ℝ} (hx : Representable p emin x) (e : ℤ) (h : (2 : ℝ) ^ p * (2 : ℝ) ^ e ≤ 2 * x) :
    ∃ k : ℤ, x = (k : ℝ) * (2 : ℝ) ^ e := by
  obtain ⟨m, f, hm, hf, rfl⟩ := hx
  have hef : e ≤ f := by
    by_contra hc
    push Not at hc
    have hm' : (m : ℝ) < 2 ^ p := by
      have := lt_of_le_of_lt (le_abs_self m) hm
      exact_mod_cast this
    have h1 : (2 : ℝ) * (2 : ℝ) ^ f ≤ (2 : ℝ) ^ e := by
      rw [← zpow_one_add₀ (by norm_num)]
      exact zpow_le_zpow_right₀ (by norm_num) (by omega)
    have h2 : (m : ℝ) * (2 * (2 : ℝ) ^ f) < 2 ^ p * (2 * (2 : ℝ) ^ f) :=
      mul_lt_mul_of_pos_right hm' (by positivity)
    have h3 : (2 : ℝ) ^ p * (2 * (2 : ℝ) ^ f) ≤ 2 ^ p * (2 : ℝ) ^ e := mul_le_mul_of_nonneg_left h1 (by positivity)
    linarith
  obtain ⟨n, hn⟩ := Int.le.dest hef
  refine ⟨m * 2 ^ n, ?_⟩
  rw [← hn, zpow_add₀ (by norm_num), zpow_natCast]
  push_cast
  ring

/-- The heart of the matter: a number a relative `2⁻ᵖ` below one, times the rounded width, does not exceed the exact
width once rounded. -/
theorem round_scaled_le (hr : IsRounding p emin r) {lo hi u : ℝ} (hlo : Representable p emin lo)
    (hhi : Representable p emin hi) (hb : lo ≤ hi) (hu : u ≤ 1 - 1 / 2 ^ p) :
    r (u * r (hi - lo)) ≤ hi - lo := by
  have hd0 : 0 ≤ r (hi - lo) := by
    have := round_mono hr (x := 0) (y := hi - lo) (by linarith)
    rwa [round_rep hr (rep_zero p emin)] at this
  have hpp : (0 : ℝ) < 1 / 2 ^ p := by positivity
  have hud : u * r (hi - lo) ≤ r (hi - lo) * (1 - 1 / 2 ^ p) := by
    rw [mul_comm]
    exact mul_le_mul_of_nonneg_left hu hd0
  have hdr := (hr (hi - lo)).1
  by_cases hc : r (hi - lo) ≤ hi - lo
  · have h1 : u * r (hi - lo) ≤ r (hi - lo) := by nlinarith
    have := round_mono hr h1
    rw [round_rep hr hdr] at this
    linarith
  push Not at hc
  obtain ⟨m, e, hm0, hmp, he, hd, hor⟩ := rep_normal hdr (lt_of_le_of_lt (by linarith : (0 : ℝ) ≤ hi - lo) hc)
  have hpe : (0 : ℝ) < (2 : ℝ) ^ e := by positivity
  by_cases hsub : e = emin
  · exfalso
    obtain ⟨a, ha⟩ := rep_multiple hlo
    obtain ⟨b, hb'⟩ := rep_multiple hhi
    have hD : hi - lo = ((b - a : ℤ) : ℝ) * (2 : ℝ) ^ emin := by rw [ha, hb']; push_cast; ring
    subst hsub
    have h1 : ((b - a : ℤ) : ℝ) < (m : ℝ) := by
      rw [hd, hD] at hc
      exact lt_of_mul_lt_mul_right hc hpe.le
    have h2 : (0 : ℝ) ≤ ((b - a : ℤ) : ℝ) := by
      have : 0 ≤ hi - lo := by linarith
      rw [hD] at this
      exact nonneg_of_mul_nonneg_left this hpe
    have h1' : b - a < m := by exact_mod_cast h1
    have h2' : 0 ≤ b - a := by exact_mod_cast h2
    have hrep : Representable p e (hi - lo) := ⟨b - a, e, by rw [abs_of_nonneg h2']; omega, le_refl _, hD⟩
    rw [round_rep hr hrep] at hc
    exact lt_irrefl _ hc
  have hm2 : (2 : ℤ) ^ p ≤ 2 * m := hor.resolve_left hsub
  have hm2' : (2 : ℝ) ^ p ≤ 2 * (m : ℝ) := by exact_mod_cast hm2
  by_cases heq : (2 : ℤ) ^ p = 2 * m
  · -- a power of two: the number below is half a unit away
    have heq' : (2 : ℝ) ^ p = 2 * (m : ℝ) := by exact_mod_cast heq
    have hq : Representable p emin (r (hi - lo) * (1 - 1 / 2 ^ p)) := by
      refine ⟨2 ^ p - 1, e - 1, ?_, by omega, ?_⟩
      · have : (0 : ℤ) < 2 ^ p := by positivity
        rw [abs_of_nonneg (by omega)]
        omega
      · rw [hd, zpow_sub₀ (by norm_num), heq']
        push_cast
        rw [heq']
        have : (m : ℝ) ≠ 0 := by exact_mod_cast hm0.ne'
        field_simp
    have h1 : r (u * r (hi - lo)) ≤ r (hi - lo) * (1 - 1 / 2 ^ p) := by
      have := round_mono hr hud
      rwa [round_rep hr hq] at this
    have h2 : r (hi - lo) * (1 - 1 / 2 ^ p) ≤ hi - lo := by
      have hle : r (hi - lo) * (1 - 1 / 2 ^ p) ≤ r (hi - lo) := by nlinarith
      rcases round_ge_mid hr hq hle with h | h
      · linarith
      · have : 0 < r (hi - lo) * (1 / 2 ^ p) := mul_pos (by linarith) hpp
        linarith
    linarith
  · have hgt : (2 : ℤ) ^ p + 1 ≤ 2 * m := by omega
    have hev : (2 : ℤ) ^ p ≤ 2 * (m - 1) := by
      rcases Nat.eq_zero_or_pos p with rfl | hp
      · omega
      · obtain ⟨k, rfl⟩ : ∃ k, p = k + 1 := ⟨p - 1, by omega⟩
        have : (2 : ℤ) ^ (k + 1) = 2 * 2 ^ k := by ring
        omega
    have hev' : (2 : ℝ) ^ p ≤ 2 * ((m : ℝ) - 1) := by exact_mod_cast hev
    have hq : Representable p emin (((m : ℝ) - 1) * (2 : ℝ) ^ e) :=
      ⟨m - 1, e, by rw [abs_of_nonneg (by omega)]; omega, he, by push_cast; ring⟩
    have hqd : ((m : ℝ) - 1) * (2 : ℝ) ^ e < r (hi - lo) := by rw [hd]; nlinarith
    have hD : ((m : ℝ) - 1) * (2 : ℝ) ^ e ≤ hi - lo := by
      rcases round_ge_mid hr hq hqd.le with h | h <;> linarith
    refine le_trans ?_ hD
    by_contra hx
    push Not at hx
    have hmid := round_ge_mid hr hq hx.le
    rcases hmid with hmid | hmid
    · obtain ⟨k, hk⟩ := rep_grid (hr (u * r (hi - lo))).1 e (by nlinarith)
      have hkm : m ≤ k := by
        have h1 : ((m : ℝ) - 1) * (2 : ℝ) ^ e < (k : ℝ) * (2 : ℝ) ^ e := by rw [← hk]; exact hx
        have h2 := lt_of_mul_lt_mul_right h1 hpe.le
        have h3 : m - 1 < k := by exact_mod_cast h2
        omega
      have hkm' : (m : ℝ) ≤ (k : ℝ) := by exact_mod_cast hkm
      have h4 : (m : ℝ) * (2 : ℝ) ^ e ≤ r (u * r (hi - lo)) := by
        rw [hk]
        exact mul_le_mul_of_nonneg_right hkm' hpe.le
      have h5 : r (hi - lo) * (1 / 2 ^ p) * 2 > (2 : ℝ) ^ e := by
        rw [hd]
        have h6 : (2 : ℝ) ^ p < 2 * (m : ℝ) := by
          have : (2 : ℤ) ^ p < 2 * m := by omega
          exact_mod_cast this
        have h7 : (m : ℝ) * (2 : ℝ) ^ e * (1 / 2 ^ p) * 2 = (2 * (m : ℝ) / 2 ^ p) * (2 : ℝ) ^ e := by ring
        rw [h7]
        have h8 : 1 < 2 * (m : ℝ) / 2 ^ p := by rw [lt_div_iff₀ (by positivity)]; linarith
        nlinarith
      rw [hd] at h5 hud
      rw [hd] at hmid h4
      nlinarith
    · linarith

/-- A rounding exists for every format. -/
theorem exists_rounding (p : Nat) (emin : ℤ) : ∃ r, IsRounding p emin r := by
  have key : ∀ x : ℝ, ∃ v, Representable p emin v ∧ ∀ q, Representable p emin q → |x - v| ≤ |x - q| := by
    intro x
    have hpe : (0 : ℝ) < (2 : ℝ) ^ emin := by positivity
    let S : Set ℤ := {k | Representable p emin ((k : ℝ) * (2 : ℝ) ^ emin) ∧ |x - (k : ℝ) * (2 : ℝ) ^ emin| ≤ |x|}
    have hfin : S.Finite := by
      refine (Set.finite_Icc ⌊-(2 * |x| / (2 : ℝ) ^ emin)⌋ ⌈2 * |x| / (2 : ℝ) ^ emin⌉).subset ?_
      rintro k ⟨_, hk⟩
      have h1 : |(k : ℝ) * (2 : ℝ) ^ emin| ≤ 2 * |x| := by
        have := abs_sub_abs_le_abs_sub ((k : ℝ) * (2 : ℝ) ^ emin) x
        rw [abs_sub_comm] at this
        linarith
      have h2 : |(k : ℝ)| ≤ 2 * |x| / (2 : ℝ) ^ emin := by
        rw [le_div_iff₀ hpe]
        rwa [abs_mul, abs_of_pos hpe] at h1
      obtain ⟨h3, h4⟩ := abs_le.1 h2
      constructor
      · have := le_trans (Int.floor_le (-(2 * |x| / (2 : ℝ) ^ emin))) h3
        exact_mod_cast this
      · have := le_trans h4 (Int.le_ceil (2 * |x| / (2 : ℝ) ^ emin))
        exact_mod_cast this
    have hne : S.Nonempty := ⟨0, by constructor <;> simp [rep_zero]⟩
    obtain ⟨k, hk, hmin⟩ := Set.exists_min_image S (fun k => |x - (k : ℝ) * (2 : ℝ) ^ emin|) hfin hne
    refine ⟨_, hk.1, fun q hq => ?_⟩
    by_cases hc : |x - q| ≤ |x|
    · obtain ⟨j, rfl⟩ := rep_multiple hq
      exact hmin j ⟨hq, hc⟩
    · push Not at hc
      exact le_trans hk.2 hc.le
  choose r hr using key
  exact ⟨r, hr⟩

end Verif.Proofs
