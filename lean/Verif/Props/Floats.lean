import Verif.Proofs.Floats
import Verif.Proofs.Bounds
import Verif.Model.Floats

/-!
# C109: the variable bounds hold in floating point arithmetic, with rounding

The variation operators end with a clip, which only compares and assigns; so the bounds hold whatever `+ - * / **` do.
The initial designs are not clipped; there the bounds hold because of how rounding to nearest works.
-/

namespace Verif.Props

open Verif.Spec Verif.Proofs

variable {O F C U V S Q R P : Type} {n m : Nat} {K L : Type} [LinearOrder K]

/-! ## Variation, in any arithmetic -/

/-- One times a bound is that bound: the only thing the bounds need from the arithmetic. -/
def OneTimes (A : FArith K) (lo hi : Fin n → K) : Prop :=
  ∀ i, A.mul (A.lit 1) (some (lo i)) = some (lo i) ∧ A.mul (A.lit 1) (some (hi i)) = some (hi i)

/-- Arithmetic that rounds to nearest satisfies it for bounds that are floats (formats with at least one bit and
exponents that include zero). -/
theorem c109_rounding_one_times (p : Nat) (emin : ℤ) (hp : 1 ≤ p) (he : emin ≤ 0) (r : ℝ → ℝ) (hr : IsRounding p emin r)
    (lo hi : Fin n → ℝ) (hlo : ∀ i, Representable p emin (lo i)) (hhi : ∀ i, Representable p emin (hi i)) :
    OneTimes (roundedArith r) lo hi := by
  have hone : Representable p emin 1 := ⟨1, 0, by rw [abs_one]; exact one_lt_pow₀ (by norm_num) (by omega), he, by norm_num⟩
  have key : ∀ x, Representable p emin x → (roundedArith r).mul ((roundedArith r).lit 1) (some x) = some x := by
    intro x hx
    show some (r (r ((1 : ℚ) : ℝ) * x)) = some x
    rw [Rat.cast_one, round_rep hr hone, one_mul, round_rep hr hx]
  exact fun i => ⟨key _ (hlo i), key _ (hhi i)⟩

theorem fClip_within {lo hi : K} (hb : lo ≤ hi) (x : Option K) {v : K} (h : fClip (some lo) (some hi) x = some v) :
    lo ≤ v ∧ v ≤ hi := by
  cases x with
  | none =>
    simp [fClip, flt] at h
  | some x =>
    unfold fClip at h
    by_cases h1 : hi < x
    · have h2 : ¬ hi < lo := not_lt.2 hb
      simp [flt, h1, h2] at h
      subst h
      exact ⟨hb, le_refl _⟩
    · by_cases h2 : x < lo
      · simp [flt, h1, h2] at h
        subst h
        exact ⟨le_refl _, hb⟩
      · simp [flt, h1, h2] at h
        subst h
        exact ⟨not_lt.1 h2, not_lt.1 h1⟩

/-- C109. Bounded polynomial mutation, in any arithmetic in which one times a number is that number: whatever the other
operations return, whatever the parameters, the draws and the offspring are, every component of the result is NaN or
within its bounds. -/
theorem c109_mutation_within_bounds (A : FArith K) (proM disM : Option K)
    (lo hi : Fin n → K) (h1 : OneTimes A lo hi) (hb : ∀ i, lo i ≤ hi i) (k miu : Nat → Fin n → Option K) (offspring : List (FRow n K)) :
    (fBpDo A proM disM lo hi k miu offspring).length = offspring.length ∧
    ∀ x ∈ fBpDo A proM disM lo hi k miu offspring, Within lo hi x := by
  refine ⟨by simp [fBpDo], ?_⟩
  intro x hx i v hv
  unfold fBpDo at hx
  obtain ⟨j, hj, rfl⟩ := List.mem_mapIdx.1 hx
  dsimp only at hv
  rw [(h1 i).1, (h1 i).2] at hv
  exact fClip_within (hb i) _ hv

theorem fMate_within (A : FArith K) (par : FParams K)
    (lo hi : Fin n → K) (h1 : OneTimes A lo hi) (hb : ∀ i, lo i ≤ hi i) (draw : FMateDraw n K) (inds off : List (FRow n K))
    (ids : Option (List Nat)) (h : fMate A par lo hi draw inds ids = .ok off) : ∀ x ∈ off, Within lo hi x := by
  unfold fMate at h
  split at h
  · exact absurd h (by simp)
  · injection h with h
    subst h
    exact (c109_mutation_within_bounds A _ _ lo hi h1 hb _ _ _).2

/-- C109. The offspring of `mate()`: within the bounds in any arithmetic. -/
theorem c109_offspring_within_bounds (A : FArith K) (par : FParams K)
    (lo hi : Fin n → K) (h1 : OneTimes A lo hi) (hb : ∀ i, lo i ≤ hi i) (draw : Nat → FMateDraw n K) (clock : Nat)
    (p : Pop (FRow n K) O F C U) (off : Batch (FRow n K)) (h : fMateAll A par lo hi draw clock p = .ok off) :
    ∀ x ∈ off.rows, Within lo hi x := by
  unfold fMateAll at h
  split at h
  · exact absurd h (by simp)
  · split at h
    · exact absurd h (by simp)
    · rename_i o hm
      injection h with h
      subst h
      exact fMate_within A par lo hi h1 hb _ _ _ _ hm

theorem fMateChosen_within (A : FArith K) (par : FParams K)
    (lo hi : Fin n → K) (h1 : OneTimes A lo hi) (hb : ∀ i, lo i ≤ hi i) (draw : Nat → FMateDraw n K) (clock : Nat)
    (p : Pop (FRow n K) O F C U) (ch : List Nat) (off : Batch (FRow n K))
    (h : fMateChosen A par lo hi draw clock p ch = .ok off) : ∀ x ∈ off.rows, Within lo hi x := by
  unfold fMateChosen at h
  split at h
  · exact absurd h (by simp)
  · split at h
    · exact absurd h (by simp)
    · rename_i o hm
      injection h with h
      subst h
      exact fMate_within A par lo hi h1 hb _ _ _ _ hm

/-- C109. `repair`, too, leaves every component NaN or within its bounds. -/
theorem c109_repair_within_bounds (lo hi : Fin n → K) (hb : ∀ i, lo i ≤ hi i) (x : FRow n K) :
    Within lo hi (fRepair lo hi x) := by
  intro i v hv
  have := hb i
  simp only [fRepair, repair1] at hv
  split at hv
  · exact absurd hv (by simp)
  · rename_i w hw
    split at hv
    · injection hv with hv; subst hv; exact ⟨le_refl _, this⟩
    · rename_i h1
      injection hv with hv
      subst hv
      split
      · exact ⟨this, le_refl _⟩
      · rename_i h2
        exact ⟨not_lt.1 h1, not_lt.1 h2⟩

theorem fMateTwo_within (A : FArith K) (par : FParams K)
    (lo hi : Fin n → K) (h1 : OneTimes A lo hi) (hb : ∀ i, lo i ≤ hi i) (draw : Nat → FMateDraw n K) (useRepair : Bool)
    (clock : Nat) (p : Pop (FRow n K) O F C U) (a b : Nat) (off : List (FRow n K))
    (h : fMateTwo A par lo hi draw clock p a b = .ok off) :
    ∀ x ∈ off, Within lo hi (if useRepair then fRepair lo hi x else x) := by
  intro x hx
  unfold fMateTwo at h
  split at h
  · exact absurd h (by simp)
  · split
    · exact c109_repair_within_bounds lo hi hb x
    · exact fMate_within A par lo hi h1 hb _ _ _ _ h x hx

/-! ## The exact arithmetic -/

/-- The draws of a `mate` call as floats. -/
def asFloats (draw : MateDraw n) : FMateDraw n ℝ where
  shuffle := draw.shuffle
  pairs := fun k => ⟨fun i => some ((draw.pairs k).miu i), (draw.pairs k).flip, fun i => some ((draw.pairs k).u i)⟩
  k := fun j i => some (draw.k j i)
  miu := fun j i => some (draw.miu j i)

/-- The default parameters: `SBX_xover()` and `BP_mutation(lower, upper)`. -/
noncomputable def defaultParams (n : Nat) : FParams ℝ := ⟨some 1, some 30, some (1 / (n : ℝ)), some 20⟩

theorem fSbxBeta_exact {miu u : ℝ} (h0 : 0 ≤ miu) (h1 : miu < 1) (flip : Bool) :
    fSbxBeta (roundedArith id) (some 1) (some 30) (some miu) flip (some u) = some (sbxBeta 1 30 miu flip u) := by
  have e1 : (((1 / 2 : ℚ)) : ℝ) = 1 / 2 := by norm_num
  have e2 : ((2 : ℚ) : ℝ) = 2 := by norm_num
  have e3 : ((-1 : ℚ) : ℝ) = -1 := by norm_num
  have e4 : ((1 : ℚ) : ℝ) = 1 := by norm_num
  have hk : ∀ x y : ℝ, 0 < x → ¬ ((x < 0 ∧ ∀ k : ℤ, y ≠ k) ∨ (x = 0 ∧ y < 0)) := by
    intro x y hx h
    rcases h with ⟨h, _⟩ | ⟨h, _⟩ <;> linarith
  unfold fSbxBeta sbxBeta
  simp only [roundedArith, lift2, id, fle, flt, e1, e2, e3, e4]
  by_cases hm : miu ≤ 1 / 2
  · have hp : ¬ ((2 * miu < 0 ∧ ∀ k : ℤ, (1 : ℝ) / (30 + 1) ≠ k) ∨ (2 * miu = 0 ∧ (1 : ℝ) / (30 + 1) < 0)) := by
      intro h
      rcases h with ⟨h, _⟩ | ⟨_, h⟩
      · linarith
      · norm_num at h
    simp only [hm, decide_true, if_true]
    rw [if_neg (by norm_num : ¬ ((30 : ℝ) + 1 = 0))]
    simp only [hp, if_false]
    by_cases hu : (1 : ℝ) < u
    · simp [hu]
    · cases flip <;> simp [hu, e3, e4]
  · have hm' : 1 / 2 < miu := not_le.1 hm
    have h31 : ¬ ((30 : ℝ) + 1 = 0) := by norm_num
    simp only [hm, hm', decide_true, decide_false, Bool.false_eq_true, if_true, if_false, h31]
    simp only [hk (2 - 2 * miu) (-1 / (30 + 1)) (by linarith), if_false]
    by_cases hu : (1 : ℝ) < u
    · simp [hu]
    · cases flip <;> simp [hu, e3, e4]

theorem fSbxChildren_exact (beta : ℝ) (a b : Option ℝ) :
    fSbxChildren (roundedArith id) (some beta) a b = (sbxFirst beta a b, sbxSecond beta a b) := by
  unfold fSbxChildren sbxFirst sbxSecond
  cases a <;> cases b <;> simp [roundedArith, lift2]

theorem fSbxPairs_exact (rand : Nat → SbxDraw n) (hr : ∀ k i, 0 ≤ (rand k).miu i ∧ (rand k).miu i < 1) :
    ∀ (k : Nat) (rows : List (Row n)),
    fSbxPairs (roundedArith id) (some 1) (some 30)
      (fun k => ⟨fun i => some ((rand k).miu i), (rand k).flip, fun i => some ((rand k).u i)⟩) k rows =
    sbxPairs 1 30 rand k rows
  | k, [] => rfl
  | k, [_] => rfl
  | k, a :: b :: rest => by
    unfold fSbxPairs sbxPairs
    rw [fSbxPairs_exact rand hr (k + 1) rest]
    simp only [fun i => fSbxBeta_exact (hr k i).1 (hr k i).2 (u := (rand k).u i) ((rand k).flip i), fSbxChildren_exact]

theorem fClip_exact (lo hi : ℝ) (hb : lo ≤ hi) (x : Option ℝ) : fClip (some lo) (some hi) x = clipGene lo hi x := by
  cases x with
  | none => simp [fClip, flt, clipGene]
  | some x =>
    unfold fClip clipGene
    by_cases h1 : hi < x
    · simp [flt, h1, not_lt.2 hb]
    · by_cases h2 : x < lo <;> simp [flt, h1, h2]

theorem pow_exact (x : ℝ) (d : Nat) : (roundedArith id).pow (some x) (some ((d : ℝ) + 1)) = some (x ^ (d + 1)) := by
  simp only [roundedArith, lift2, id]
  rw [if_neg]
  · rw [show ((d : ℝ) + 1) = ((d + 1 : Nat) : ℝ) by push_cast; rfl, Real.rpow_natCast]
  · rintro (⟨_, h⟩ | ⟨_, h⟩)
    · exact h (d + 1) (by push_cast; rfl)
    · have : (0 : ℝ) ≤ d := Nat.cast_nonneg d
      linarith

theorem root_exact (x : ℝ) (d : Nat) (hd : 1 ≤ d) :
    (roundedArith id).pow (some x) (some (1 / ((d : ℝ) + 1))) = npRoot x d := by
  simp only [roundedArith, lift2, id]
  have hd' : (1 : ℝ) ≤ d := by exact_mod_cast hd
  have hpos : 0 < 1 / ((d : ℝ) + 1) := by positivity
  have hlt : 1 / ((d : ℝ) + 1) < 1 := by rw [div_lt_one (by linarith)]; linarith
  have hfrac : ∀ k : ℤ, 1 / ((d : ℝ) + 1) ≠ k := by
    intro k hk
    rw [hk] at hpos hlt
    have h1 : 0 < k := by exact_mod_cast hpos
    have h2 : k < 1 := by exact_mod_cast hlt
    omega
  unfold npRoot
  by_cases hx : x < 0
  · rw [if_pos (Or.inl ⟨hx, hfrac⟩), if_pos hx]
  · rw [if_neg hx, if_neg]
    rintro (⟨h, _⟩ | ⟨_, h⟩)
    · exact hx h
    · linarith

theorem fBpRaw_exact (proM : ℝ) (lo hi k miu : ℝ) (hne : lo ≠ hi) (x : Option ℝ) :
    fBpRaw (roundedArith id) (some proM) (some 20) (some lo) (some hi) (some k) (some miu) x =
      bpRaw proM 20 lo hi k miu x := by
  have e1 : (((1 / 2 : ℚ)) : ℝ) = 1 / 2 := by norm_num
  have e2 : ((2 : ℚ) : ℝ) = 2 := by norm_num
  have e4 : ((1 : ℚ) : ℝ) = 1 := by norm_num
  have hd : ¬ (hi - lo = 0) := fun h => hne (by linarith)
  have e20 : ((20 : ℝ) + 1) = (((20 : Nat) : ℝ) + 1) := by norm_num
  have hadd : ∀ a b : ℝ, (roundedArith id).add (some a) (some b) = some (a + b) := fun _ _ => rfl
  have hsub : ∀ a b : ℝ, (roundedArith id).sub (some a) (some b) = some (a - b) := fun _ _ => rfl
  have hmul : ∀ a b : ℝ, (roundedArith id).mul (some a) (some b) = some (a * b) := fun _ _ => rfl
  have hdiv : ∀ a b : ℝ, b ≠ 0 → (roundedArith id).div (some a) (some b) = some (a / b) := fun a b h => by
    simp [roundedArith, lift2, h]
  have hl1 : (roundedArith id).lit 1 = some 1 := by simp [roundedArith]
  have hl2 : (roundedArith id).lit 2 = some 2 := by simp [roundedArith]
  have hlh : (roundedArith id).lit (1 / 2) = some (1 / 2) := by simp [roundedArith]
  have hn20 : ((20 : Nat) : ℝ) + 1 ≠ 0 := by norm_num
  cases x with
  | none =>
    unfold fBpRaw bpRaw
    have n1 : ∀ y, (roundedArith id).sub none y = none := fun _ => rfl
    have n2 : ∀ y, (roundedArith id).div none y = none := fun _ => rfl
    have n3 : ∀ y, (roundedArith id).add none y = none := fun _ => rfl
    simp only [n1, n2, n3, ite_self]
  | some x =>
    unfold fBpRaw bpRaw
    simp only [hl1, hl2, hlh, hadd, hsub, hmul, e20, hdiv _ _ hd, hdiv _ _ hn20, pow_exact, root_exact _ 20 (by norm_num), fle, flt]
    by_cases hk : k ≤ proM
    · by_cases hm : miu < 1 / 2
      · have hm' : ¬ (1 / 2 ≤ miu) := not_le.2 hm
        simp only [hk, hm, hm', decide_true, decide_false, Bool.and_true, Bool.and_false, if_true, true_and]
        cases npRoot (2 * miu + (1 - 2 * miu) * (1 - (x - lo) / (hi - lo)) ^ (20 + 1)) 20 <;> rfl
      · have hm' : 1 / 2 ≤ miu := not_lt.1 hm
        simp only [hk, hm, hm', decide_true, decide_false, Bool.and_true, Bool.and_false, if_true, true_and]
        cases npRoot (2 * (1 - miu) + 2 * (miu - 1 / 2) * ((x - lo) / (hi - lo)) ^ (20 + 1)) 20 <;> rfl
    · simp only [hk, decide_false, Bool.false_and, false_and]
      rfl

/-- C109. The two models are of the same program: over the arithmetic that does not round, for boxes of positive width
and draws from the unit interval, `mate` is the exact `mate` of `Model/Recombination.lean`. -/
theorem c109_exact_arithmetic_agrees (lo hi : Fin n → ℝ) (hb : ∀ i, lo i < hi i) (draw : MateDraw n)
    (hd : ∀ k i, 0 ≤ (draw.pairs k).miu i ∧ (draw.pairs k).miu i < 1) (inds : List (Row n)) (ids : Option (List Nat)) :
    fMate (roundedArith id) (defaultParams n) lo hi (asFloats draw) inds ids = mateDefault lo hi draw inds ids := by
  unfold fMate mateDefault fSbxDo sbxDo
  have e0 : (asFloats draw).shuffle = draw.shuffle := rfl
  rw [e0]
  cases takeRows inds (matingIds draw.shuffle inds.length ids) with
  | none => rfl
  | some rows =>
    have e : fSbxPairs (roundedArith id) (some 1) (some 30) (asFloats draw).pairs 0 (closePairs rows) =
        sbxPairs 1 30 draw.pairs 0 (closePairs rows) := fSbxPairs_exact draw.pairs hd 0 _
    show Except.ok (fBpDo (roundedArith id) (some (1 / (n : ℝ))) (some 20) lo hi (asFloats draw).k (asFloats draw).miu
      (fSbxPairs (roundedArith id) (some 1) (some 30) (asFloats draw).pairs 0 (closePairs rows))) =
      Except.ok (bpDo (1 / (n : ℝ)) 20 lo hi draw.k draw.miu (sbxPairs 1 30 draw.pairs 0 (closePairs rows)))
    rw [e]
    congr 1
    unfold fBpDo bpDo
    congr 1
    funext j x i
    have h1 : ∀ v : ℝ, (roundedArith id).mul ((roundedArith id).lit 1) (some v) = some v := by
      intro v; simp [roundedArith, lift2]
    simp only [h1]
    rw [fClip_exact _ _ (hb i).le]
    exact congrArg _ (fBpRaw_exact _ _ _ _ _ (hb i).ne _)
/-! ## Initial designs, with rounding to nearest -/

/-- C109. One entry of a random or LHS design, in any binary format and any rounding to nearest: for bounds that are
floats and a draw that is at most `1 - 2⁻ᵖ` (`np.random.random` gives multiples of `2⁻⁵³` below one), the scaled value
is within the bounds, although the width, the product and the sum are each rounded. -/
theorem c109_scaled_draw_within_bounds (p : Nat) (emin : ℤ) (r : ℝ → ℝ) (hr : IsRounding p emin r) (lo hi u : ℝ)
    (hlo : Representable p emin lo) (hhi : Representable p emin hi) (hb : lo ≤ hi) (h0 : 0 ≤ u)
    (hu : u ≤ 1 - 1 / 2 ^ p) :
    lo ≤ r (r (u * r (hi - lo)) + lo) ∧ r (r (u * r (hi - lo)) + lo) ≤ hi := by
  have h1 := round_scaled_le hr hlo hhi hb hu
  have hd0 : 0 ≤ r (hi - lo) := by
    have := round_mono hr (x := 0) (y := hi - lo) (by linarith)
    rwa [round_rep hr (rep_zero p emin)] at this
  have h2 : 0 ≤ r (u * r (hi - lo)) := by
    have := round_mono hr (x := 0) (y := u * r (hi - lo)) (mul_nonneg h0 hd0)
    rwa [round_rep hr (rep_zero p emin)] at this
  constructor
  · have := round_mono hr (x := lo) (y := r (u * r (hi - lo)) + lo) (by linarith)
    rwa [round_rep hr hlo] at this
  · have := round_mono hr (x := r (u * r (hi - lo)) + lo) (y := hi) (by linarith)
    rwa [round_rep hr hhi] at this

/-- C109. The whole design: every individual consists of numbers, all within the bounds. -/
theorem c109_design_within_bounds (p : Nat) (emin : ℤ) (r : ℝ → ℝ) (hr : IsRounding p emin r) (lo hi : Fin n → ℝ)
    (hlo : ∀ i, Representable p emin (lo i)) (hhi : ∀ i, Representable p emin (hi i)) (hb : ∀ i, lo i ≤ hi i)
    (unit : Nat → Nat → List (FRow n ℝ))
    (hu : ∀ clk k, ∀ u ∈ unit clk k, ∀ i, ∃ w, u i = some w ∧ 0 ≤ w ∧ w ≤ 1 - 1 / 2 ^ p) (clk k : Nat) (b : Batch (FRow n ℝ))
    (h : fDesign (roundedArith r) lo hi unit clk k = .ok b) :
    b.rows.length = (unit clk k).length ∧
    ∀ x ∈ b.rows, ∀ i, ∃ v, x i = some v ∧ lo i ≤ v ∧ v ≤ hi i := by
  unfold fDesign at h
  injection h with h
  subst h
  refine ⟨by simp, ?_⟩
  intro x hx i
  obtain ⟨u, hu', rfl⟩ := List.mem_map.1 hx
  obtain ⟨w, hw, h0, h1⟩ := hu clk k u hu' i
  refine ⟨r (r (w * r (hi i - lo i)) + lo i), by
    show (roundedArith r).add ((roundedArith r).mul (u i) _) _ = _
    rw [hw]; rfl, ?_⟩
  exact c109_scaled_draw_within_bounds p emin r hr (lo i) (hi i) w (hlo i) (hhi i) (hb i) h0 h1

/-- C109, the limit of the claim: with a draw that is exactly one (which `np.random.random` never gives) the double
precision result exceeds the upper bound, for every rounding to nearest: bounds `-1` and `3 * 2⁻⁵⁴`. -/
theorem c109_draw_of_one_violated (r : ℝ → ℝ) (hr : IsRounding 53 (-1074) r) :
    ∃ lo hi : ℝ, Representable 53 (-1074) lo ∧ Representable 53 (-1074) hi ∧ lo ≤ hi ∧
      hi < r (r (1 * r (hi - lo)) + lo) := by
  have hlo : Representable 53 (-1074) (-1) := ⟨-1, 0, by norm_num, by norm_num, by norm_num⟩
  have hhi : Representable 53 (-1074) (3 * (2 : ℝ) ^ (-54 : ℤ)) := ⟨3, -54, by norm_num, by norm_num, by norm_num⟩
  have hq : Representable 53 (-1074) (1 + (2 : ℝ) ^ (-52 : ℤ)) :=
    ⟨2 ^ 52 + 1, -52, by norm_num, by norm_num, by norm_num⟩
  have hs : Representable 53 (-1074) ((2 : ℝ) ^ (-52 : ℤ)) := ⟨1, -52, by norm_num, by norm_num, by norm_num⟩
  refine ⟨-1, 3 * (2 : ℝ) ^ (-54 : ℤ), hlo, hhi, by norm_num, ?_⟩
  have hd : r (3 * (2 : ℝ) ^ (-54 : ℤ) - -1) = 1 + (2 : ℝ) ^ (-52 : ℤ) := by
    have h1 := (hr (3 * (2 : ℝ) ^ (-54 : ℤ) - -1)).2 _ hq
    have h2 := (hr (3 * (2 : ℝ) ^ (-54 : ℤ) - -1)).1
    generalize r (3 * (2 : ℝ) ^ (-54 : ℤ) - -1) = y at h1 h2
    have h3 : |3 * (2 : ℝ) ^ (-54 : ℤ) - -1 - (1 + (2 : ℝ) ^ (-52 : ℤ))| = (2 : ℝ) ^ (-54 : ℤ) := by
      rw [abs_of_nonpos (by norm_num)]
      norm_num
    rw [h3] at h1
    obtain ⟨h4, h5⟩ := abs_le.1 h1
    have e54 : (2 : ℝ) ^ (-54 : ℤ) = (2 : ℝ) ^ (-52 : ℤ) / 4 := by norm_num
    rw [e54] at h4 h5
    obtain ⟨k, hk⟩ := rep_grid h2 (-52) (by norm_num at h5 ⊢; linarith)
    rw [hk] at h4 h5 ⊢
    have hpos : (0 : ℝ) < (2 : ℝ) ^ (-52 : ℤ) := by positivity
    have e1 : (1 : ℝ) = (2 ^ 52 : ℝ) * (2 : ℝ) ^ (-52 : ℤ) := by norm_num
    clear h1 h2 h3 e54 hq hs hhi
    generalize (2 : ℝ) ^ (-52 : ℤ) = w at *
    have hk1 : (k : ℝ) = 2 ^ 52 + 1 := by
      have a1 : (k : ℝ) * w ≤ ((2 ^ 52 : ℝ) + 1) * w := by linarith
      have a2 : ((2 ^ 52 : ℝ) + 1 / 2) * w ≤ (k : ℝ) * w := by linarith
      have b1 := le_of_mul_le_mul_right a1 hpos
      have b2 := le_of_mul_le_mul_right a2 hpos
      have c1 : k ≤ 2 ^ 52 + 1 := by exact_mod_cast b1
      have c2 : 2 ^ 52 < k := by
        have : ((2 ^ 52 : ℤ) : ℝ) < (k : ℝ) := by push_cast; linarith
        exact_mod_cast this
      have c3 : k = 2 ^ 52 + 1 := by omega
      rw [c3]
      norm_num
    rw [hk1]
    linarith
  rw [hd, one_mul, round_rep hr hq]
  have : (1 : ℝ) + (2 : ℝ) ^ (-52 : ℤ) + -1 = (2 : ℝ) ^ (-52 : ℤ) := by ring
  rw [this, round_rep hr hs]
  norm_num

/-- Non-vacuity: roundings to nearest exist in every format, double precision in particular, and there the width of the
box from `-1` to `3 * 2⁻⁵⁴` is not a float (it is rounded). -/
example : (∃ r, IsRounding 53 (-1074) r) ∧ ∀ r, IsRounding 53 (-1074) r →
    r (3 * (2 : ℝ) ^ (-54 : ℤ) - -1) ≠ 3 * (2 : ℝ) ^ (-54 : ℤ) - -1 := by
  refine ⟨exists_rounding _ _, fun r hr h => ?_⟩
  have h2 := (hr (3 * (2 : ℝ) ^ (-54 : ℤ) - -1)).1
  rw [h] at h2
  obtain ⟨k, hk⟩ := rep_grid h2 (-52) (by norm_num)
  have hk1 : (k : ℝ) * 4 = 2 ^ 54 + 3 := by
    have : (k : ℝ) = (3 * (2 : ℝ) ^ (-54 : ℤ) - -1) * 2 ^ 52 := by rw [hk, mul_assoc]; norm_num
    rw [this]
    norm_num
  have : k * 4 = 2 ^ 54 + 3 := by exact_mod_cast hk1
  omega

/-! ## Runs -/

/-- C109. In a run the problem is never asked about a vector outside the bounds, in any arithmetic: two problems that
agree on batches within the bounds and differ in whatever way on others give exactly the same run, for every history of
calls from every state (RVEA, NSGA-III and the other EAs with the base `_next_gen`). -/
theorem c109_problem_never_asked_outside (A : FArith K) (par : FParams K)
    (lo hi : Fin n → K) (h1 : OneTimes A lo hi) (hb : ∀ i, lo i ≤ hi i) (draw : Nat → FMateDraw n K)
    (ops : Ops (FRow n K) O F C U V S Q R) (hm : ops.mate = fMateAll A par lo hi draw)
    (ev : Nat → Bool → Batch (FRow n K) → Except Err (Results O F C U))
    (hev : ∀ clk surr b, (∀ x ∈ b.rows, Within lo hi x) → ev clk surr b = ops.evaluate clk surr b)
    (s : EA (FRow n K) O F C U V S Q) (cs : List (Call R)) :
    s.calls { ops with evaluate := ev } cs = s.calls ops cs := by
  rw [calls_eq_callsWith, calls_eq_callsWith]
  refine callsWith_withEval ops ev _ _ ?_ cs s
  intro t
  refine nextGen_withEval (G := Within lo hi) ops ev ?_ hev t
  intro clk p off h
  rw [hm] at h
  exact c109_offspring_within_bounds A par lo hi h1 hb draw clk p off h

/-- C109. The same for MOEA/D, with and without repair. -/
theorem c109_moead_problem_never_asked_outside [LT L] [DecidableRel (α := L) (· < ·)] [Zero L] [DecidableEq L]
    (A : FArith K) (par : FParams K)
    (lo hi : Fin n → K) (h1 : OneTimes A lo hi) (hb : ∀ i, lo i ≤ hi i) (draw : Nat → FMateDraw n K)
    (ops : Ops (FRow n K) O F C U (MoeadVec m L) S Q R) (mo : MoeadOps m L (FRow n K) O F C U)
    (hm : mo.mate = fMateTwo A par lo hi draw) (hr : mo.repair = fRepair lo hi) (useRepair : Bool) (popSize : Nat)
    (ev : Nat → Bool → Batch (FRow n K) → Except Err (Results O F C U))
    (hev : ∀ clk surr b, (∀ x ∈ b.rows, Within lo hi x) → ev clk surr b = ops.evaluate clk surr b)
    (s : EA (FRow n K) O F C U (MoeadVec m L) S Q) (cs : List (Call R)) :
    s.callsWith { ops with evaluate := ev } (moeadNextGen { ops with evaluate := ev } mo useRepair popSize) cs =
      s.callsWith ops (moeadNextGen ops mo useRepair popSize) cs := by
  refine callsWith_withEval ops ev _ _ ?_ cs s
  intro t
  refine moeadNextGen_withEval (G := Within lo hi) ops mo useRepair ev ?_ hev popSize t
  intro clk p a b off h x hx
  rw [hm] at h
  rw [hr]
  exact fMateTwo_within A par lo hi h1 hb draw useRepair clk p a b off h x hx

theorem indNextGen_withEval {X : Type} {G : X → Prop} (io : IndOps X O F C U P R)
    (ev : Nat → Bool → Batch X → Except Err (Results O F C U))
    (hm : ∀ clk p ch off, io.mate clk p ch = .ok off → ∀ x ∈ off.rows, G x)
    (hev : ∀ clk surr b, (∀ x ∈ b.rows, G x) → ev clk surr b = io.evaluate clk surr b) (N : Nat)
    (s : EA X O F C U P (List ℝ) Q) :
    indNextGen { io with evaluate := ev } N s = indNextGen io N s := by
  have hv : ∀ t : EA X O F C U P (List ℝ) Q, indVary { io with evaluate := ev } t = indVary io t := by
    intro t
    unfold indVary
    dsimp only
    split
    · rfl
    · split
      · rfl
      · rename_i off hoff
        rw [hev _ _ _ (hm _ _ _ _ hoff)]
  unfold indNextGen
  have hr : indReduce { io with evaluate := ev } N s = indReduce io N s := rfl
  rw [hr]
  split
  · rfl
  · exact hv _

/-- C109. The same for IBEA and PBEA. -/
theorem c109_indicator_problem_never_asked_outside (A : FArith K)
    (par : FParams K) (lo hi : Fin n → K) (h1 : OneTimes A lo hi) (hb : ∀ i, lo i ≤ hi i) (draw : Nat → FMateDraw n K)
    (io : IndOps (FRow n K) O F C U P R) (hm : io.mate = fMateChosen A par lo hi draw) (N : Nat)
    (ev : Nat → Bool → Batch (FRow n K) → Except Err (Results O F C U))
    (hev : ∀ clk surr b, (∀ x ∈ b.rows, Within lo hi x) → ev clk surr b = io.evaluate clk surr b)
    (s : EA (FRow n K) O F C U P (List ℝ) Q) (cs : List (IndCall R)) :
    indCalls { io with evaluate := ev } N s cs = indCalls io N s cs := by
  have hg : (indNextGen { io with evaluate := ev } N : EA (FRow n K) O F C U P (List ℝ) Q → _) = indNextGen io N := by
    funext t
    refine indNextGen_withEval (G := Within lo hi) io ev ?_ hev N t
    intro clk p ch off h
    rw [hm] at h
    exact fMateChosen_within A par lo hi h1 hb draw clk p ch off h
  have hc : ∀ (t : EA (FRow n K) O F C U P (List ℝ) Q) c, indCall { io with evaluate := ev } N t c = indCall io N t c := by
    intro t c
    cases c with
    | iterate pref =>
      show (indIterateWith _ (indNextGen { io with evaluate := ev } N) t pref).2 = (indIterateWith _ (indNextGen io N) t pref).2
      rw [hg]
      rfl
    | start => rfl
    | requests => rfl
  unfold indCalls
  have : (indCall { io with evaluate := ev } N : EA (FRow n K) O F C U P (List ℝ) Q → IndCall R → _) = indCall io N := by
    funext t c
    exact hc t c
  rw [this]

/-- What the next theorems conclude: no individual the EA object holds (population, archive of non-dominated solutions,
archive dict) is outside the bounds. -/
def HoldsOnlyWithin (lo hi : Fin n → K) (s : EA (FRow n K) O F C U V S Q) : Prop :=
  (∀ inds, s.pop.individuals = some inds → ∀ x ∈ inds, Within lo hi x) ∧
  (∀ a, s.nd = some a → ∀ x ∈ a.individuals, Within lo hi x) ∧
  (∀ e ∈ s.archive, ∀ inds, e.2.individuals = some inds → ∀ x ∈ inds, Within lo hi x)

theorem construct_good {X : Type} {G : X → Prop} (design : Nat → Nat → Except Err (Batch X))
    (hdes : ∀ clk k b, design clk k = .ok b → ∀ x ∈ b.rows, G x) (ops : Ops X O F C U V S Q R)
    (vec0 : Nat → V) (sel0 : Nat → S) (prob0 : Q) (interact useSurr keepArchive saveND : Bool) (nIter nGen total : Nat)
    (problem : ProblemType × Nat × Nat) (popSize res : Option Nat) (s : EA X O F C U V S Q)
    (hs : construct ops design vec0 sel0 prob0 interact useSurr keepArchive saveND nIter nGen total
      (some problem) none popSize res = .ok s) : GoodEA G s := by
  unfold construct at hs
  dsimp only at hs
  split at hs
  · exact absurd hs (by simp)
  · rename_i rows hd
    have hrows := hdes _ _ _ hd
    split at hs
    · exact absurd hs (by simp)
    · rename_i r ea hpa
      injection hs with hs
      have h0 : GoodEA G ea := by
        have := congrArg Prod.snd hpa
        dsimp only at this
        rw [← this]
        refine GoodEA.popAdd ?_ ops rows hrows
        exact ⟨fun inds hi => by simp [Pop.new] at hi, fun a ha => by simp at ha, fun e he => by simp at he⟩
      rw [← hs]
      exact ⟨h0.pop, h0.nd, h0.archive⟩

theorem fDesign_within (p : Nat) (emin : ℤ) (r : ℝ → ℝ) (hr : IsRounding p emin r) (lo hi : Fin n → ℝ)
    (hlo : ∀ i, Representable p emin (lo i)) (hhi : ∀ i, Representable p emin (hi i)) (hb : ∀ i, lo i ≤ hi i)
    (unit : Nat → Nat → List (FRow n ℝ))
    (hu : ∀ clk k, ∀ u ∈ unit clk k, ∀ i, ∃ w, u i = some w ∧ 0 ≤ w ∧ w ≤ 1 - 1 / 2 ^ p) (clk k : Nat) (b : Batch (FRow n ℝ))
    (h : fDesign (roundedArith r) lo hi unit clk k = .ok b) : ∀ x ∈ b.rows, Within lo hi x := by
  intro x hx i v hv
  obtain ⟨w, hw, h1⟩ := (c109_design_within_bounds p emin r hr lo hi hlo hhi hb unit hu clk k b h).2 x hx i
  rw [hw] at hv
  injection hv with hv
  subst hv
  exact h1

/-- C109. A whole run in floating point: after constructing an EA from a problem whose bounds are floats, with a random
design computed in an arithmetic that rounds to nearest, and any history of calls in which offspring are computed in
any arithmetic whatever (in which one times a number is that number), every individual the EA holds is NaN in a
component or within the bounds. -/
theorem c109_every_individual_within (p : Nat) (emin : ℤ) (r : ℝ → ℝ) (hr : IsRounding p emin r) (A : FArith ℝ)
    (par : FParams ℝ) (lo hi : Fin n → ℝ)
    (hlo : ∀ i, Representable p emin (lo i)) (hhi : ∀ i, Representable p emin (hi i)) (h1 : OneTimes A lo hi) (hb : ∀ i, lo i ≤ hi i)
    (draw : Nat → FMateDraw n ℝ) (unit : Nat → Nat → List (FRow n ℝ))
    (hu : ∀ clk k, ∀ u ∈ unit clk k, ∀ i, ∃ w, u i = some w ∧ 0 ≤ w ∧ w ≤ 1 - 1 / 2 ^ p)
    (ops : Ops (FRow n ℝ) O F C U V S Q R) (hm : ops.mate = fMateAll A par lo hi draw)
    (vec0 : Nat → V) (sel0 : Nat → S) (prob0 : Q) (interact useSurr keepArchive saveND : Bool) (nIter nGen total : Nat)
    (problem : ProblemType × Nat × Nat) (popSize res : Option Nat) (s : EA (FRow n ℝ) O F C U V S Q)
    (hs : construct ops (fDesign (roundedArith r) lo hi unit) vec0 sel0 prob0 interact useSurr keepArchive saveND nIter
      nGen total (some problem) none popSize res = .ok s) (cs : List (Call R)) :
    HoldsOnlyWithin lo hi (s.calls ops cs) := by
  have h0 := construct_good (G := Within lo hi) _ (fDesign_within p emin r hr lo hi hlo hhi hb unit hu) ops vec0 sel0
    prob0 interact useSurr keepArchive saveND nIter nGen total problem popSize res s hs
  rw [calls_eq_callsWith]
  have h2 := GoodEA.callsWith (body := EA.nextGen ops) ops (fun s h => h.nextGen ops (by
    intro clk p off h
    rw [hm] at h
    exact c109_offspring_within_bounds A par lo hi h1 hb draw clk p off h)) cs s h0
  exact ⟨h2.pop, h2.nd, h2.archive⟩

/-- C109. The same for MOEA/D, with and without repair. -/
theorem c109_moead_every_individual_within [LT L] [DecidableRel (α := L) (· < ·)] [Zero L] [DecidableEq L]
    (p : Nat) (emin : ℤ) (r : ℝ → ℝ) (hr : IsRounding p emin r) (A : FArith ℝ)
    (par : FParams ℝ) (lo hi : Fin n → ℝ)
    (hlo : ∀ i, Representable p emin (lo i)) (hhi : ∀ i, Representable p emin (hi i)) (h1 : OneTimes A lo hi) (hb : ∀ i, lo i ≤ hi i)
    (draw : Nat → FMateDraw n ℝ) (unit : Nat → Nat → List (FRow n ℝ))
    (hu : ∀ clk k, ∀ u ∈ unit clk k, ∀ i, ∃ w, u i = some w ∧ 0 ≤ w ∧ w ≤ 1 - 1 / 2 ^ p)
    (ops : Ops (FRow n ℝ) O F C U (MoeadVec m L) S Q R) (mo : MoeadOps m L (FRow n ℝ) O F C U)
    (hm : mo.mate = fMateTwo A par lo hi draw) (hrep : mo.repair = fRepair lo hi) (useRepair : Bool) (bodySize : Nat)
    (vec0 : Nat → MoeadVec m L) (sel0 : Nat → S) (prob0 : Q) (interact useSurr keepArchive saveND : Bool)
    (nIter nGen total : Nat) (problem : ProblemType × Nat × Nat) (popSize res : Option Nat)
    (s : EA (FRow n ℝ) O F C U (MoeadVec m L) S Q)
    (hs : construct ops (fDesign (roundedArith r) lo hi unit) vec0 sel0 prob0 interact useSurr keepArchive saveND nIter
      nGen total (some problem) none popSize res = .ok s) (cs : List (Call R)) :
    HoldsOnlyWithin lo hi (s.callsWith ops (moeadNextGen ops mo useRepair bodySize) cs) := by
  have h0 := construct_good (G := Within lo hi) _ (fDesign_within p emin r hr lo hi hlo hhi hb unit hu) ops vec0 sel0
    prob0 interact useSurr keepArchive saveND nIter nGen total problem popSize res s hs
  have h2 := GoodEA.callsWith (body := moeadNextGen ops mo useRepair bodySize) ops
    (fun s h => h.moeadNextGen ops mo useRepair (by
      intro clk p a b off h x hx
      rw [hm] at h
      rw [hrep]
      exact fMateTwo_within A par lo hi h1 hb draw useRepair clk p a b off h x hx) bodySize) cs s h0
  exact ⟨h2.pop, h2.nd, h2.archive⟩

theorem envLoop_good {X : Type} {G : X → Prop} (t : F → F → ℝ) (N : Nat) : ∀ (fuel : Nat) (p : Pop X O F C U)
    (vals : List ℝ), GoodPop G p → GoodPop G (envLoop t N fuel p vals).2.1 := by
  intro fuel
  induction fuel with
  | zero => exact fun p vals h => h
  | succ k ih =>
    intro p vals h
    unfold envLoop
    split
    · exact h
    · split
      · split
        · exact h
        · rename_i w _
          have hd := h.delete [(w : Int)]
          dsimp only
          split
          · rename_i hq
            rw [hq] at hd
            exact hd
          · rename_i hq
            rw [hq] at hd
            exact ih _ _ hd
      · exact h

theorem indNextGen_good {X : Type} {G : X → Prop} (io : IndOps X O F C U P R)
    (hm : ∀ clk p ch off, io.mate clk p ch = .ok off → ∀ x ∈ off.rows, G x) (N : Nat)
    (s : EA X O F C U P (List ℝ) Q) (h : GoodPop G s.pop) : GoodPop G (indNextGen io N s).2.pop := by
  have hv : ∀ t : EA X O F C U P (List ℝ) Q, GoodPop G t.pop → GoodPop G (indVary io t).2.pop := by
    intro t ht
    unfold indVary
    dsimp only
    split
    · exact ht
    · split
      · exact ht
      · rename_i off hoff
        have ha := GoodPop.add ht off (hm _ _ _ _ hoff) (io.evaluate (t.clock + 1 + 1) false off)
        split
        · rename_i hq
          rw [hq] at ha
          exact ha
        · rename_i hq
          rw [hq] at ha
          exact ha
  have hred : GoodPop G (indReduce io N s).2.pop := envLoop_good _ N _ _ _ h
  unfold indNextGen
  split
  · rename_i hq
    rw [hq] at hred
    exact hred
  · rename_i hq
    rw [hq] at hred
    exact hv _ hred

theorem loop_good {X : Type} {G : X → Prop} {body : EA X O F C U V S Q → EARes Unit X O F C U V S Q}
    (hb : ∀ s, GoodPop G s.pop → GoodPop G (body s).2.pop) (fuel : Nat) :
    ∀ s : EA X O F C U V S Q, GoodPop G s.pop → GoodPop G (EA.loop body fuel s).2.pop := by
  induction fuel with
  | zero => exact fun s h => h
  | succ k ih =>
    intro s h
    have h' := hb s h
    unfold EA.loop
    split
    · split
      · rename_i hq; rw [hq] at h'; exact h'
      · rename_i hq; rw [hq] at h'; exact ih _ h'
    · exact h

/-- C109. IBEA and PBEA: after constructing them from a problem and any history of calls, every individual of the
population is NaN in a component or within the bounds. -/
theorem c109_indicator_every_individual_within (p : Nat) (emin : ℤ) (r : ℝ → ℝ) (hr : IsRounding p emin r) (A : FArith ℝ)
    (par : FParams ℝ) (lo hi : Fin n → ℝ)
    (hlo : ∀ i, Representable p emin (lo i)) (hhi : ∀ i, Representable p emin (hi i)) (h1 : OneTimes A lo hi) (hb : ∀ i, lo i ≤ hi i)
    (draw : Nat → FMateDraw n ℝ) (unit : Nat → Nat → List (FRow n ℝ))
    (hu : ∀ clk k, ∀ u ∈ unit clk k, ∀ i, ∃ w, u i = some w ∧ 0 ≤ w ∧ w ≤ 1 - 1 / 2 ^ p)
    (io : IndOps (FRow n ℝ) O F C U P R) (hm : io.mate = fMateChosen A par lo hi draw) (ref0 : P) (prob0 : Q)
    (interact useSurr : Bool) (nIter nGen total nCons N : Nat) (s : EA (FRow n ℝ) O F C U P (List ℝ) Q)
    (hs : indConstruct io (fDesign (roundedArith r) lo hi unit) ref0 prob0 interact useSurr nIter nGen total nCons N none
      = .ok s) (cs : List (IndCall R)) :
    ∀ inds, (indCalls io N s cs).pop.individuals = some inds → ∀ x ∈ inds, Within lo hi x := by
  have h0 : GoodPop (Within lo hi) s.pop := by
    unfold indConstruct at hs
    dsimp only at hs
    split at hs
    · exact absurd hs (by simp)
    · rename_i off hd
      have hrows := fDesign_within p emin r hr lo hi hlo hhi hb unit hu _ _ _ hd
      have ha := GoodPop.add (p := (Pop.new nCons : Pop (FRow n ℝ) O F C U)) (G := Within lo hi)
        (fun inds hi => by simp [Pop.new] at hi) off hrows (io.evaluate 1 useSurr off)
      split at hs
      · exact absurd hs (by simp)
      · rename_i hq
        rw [hq] at ha
        injection hs with hs
        rw [← hs]
        exact ha
  have hstep : ∀ (t : EA (FRow n ℝ) O F C U P (List ℝ) Q) c, GoodPop (Within lo hi) t.pop →
      GoodPop (Within lo hi) (indCall io N t c).pop := by
    intro t c ht
    have hreq : ∀ t : EA (FRow n ℝ) O F C U P (List ℝ) Q, (indRequest io t).2.pop = t.pop := by
      intro t; unfold indRequest; split <;> rfl
    cases c with
    | iterate pref =>
      show GoodPop _ (indIterateWith io (indNextGen io N) t pref).2.pop
      have hman : (indManage io t pref).2.pop = t.pop := by
        unfold indManage
        split
        · rfl
        · split
          · rfl
          · split
            · rfl
            · split
              · rfl
              · split <;> rfl
      unfold indIterateWith
      split
      · rename_i hq; rw [hq] at hman; rw [show _ = t.pop from hman]; exact ht
      · rename_i t' hq
        rw [hq] at hman
        have hl := loop_good (G := Within lo hi) (indNextGen_good io (by
          intro clk p ch off h
          rw [hm] at h
          exact fMateChosen_within A par lo hi h1 hb draw clk p ch off h) N) t'.cfg.nGen { t' with genIter := 0 }
          (by rw [show t'.pop = t.pop from hman]; exact ht)
        dsimp only
        split
        · rename_i hq2; rw [hq2] at hl; exact hl
        · rename_i hq2
          rw [hq2] at hl
          rw [hreq]
          exact hl
    | start =>
      show GoodPop _ (indStart io t).2.pop
      unfold indStart
      split
      · exact ht
      · rw [hreq]; exact ht
    | requests =>
      show GoodPop _ (indRequest io t).2.pop
      rw [hreq]; exact ht
  have hall : ∀ (cs : List (IndCall R)) (t : EA (FRow n ℝ) O F C U P (List ℝ) Q), GoodPop (Within lo hi) t.pop →
      GoodPop (Within lo hi) (indCalls io N t cs).pop := by
    intro cs
    induction cs with
    | nil => exact fun t ht => ht
    | cons c cs ih => exact fun t ht => ih _ (hstep t c ht)
  exact hall cs s h0

/-- C109. The run of the previous theorems with all of the arithmetic rounded to nearest, nothing else assumed. -/
theorem c109_rounded_run_within (p : Nat) (emin : ℤ) (hp : 1 ≤ p) (he : emin ≤ 0) (r : ℝ → ℝ) (hr : IsRounding p emin r)
    (par : FParams ℝ) (lo hi : Fin n → ℝ)
    (hlo : ∀ i, Representable p emin (lo i)) (hhi : ∀ i, Representable p emin (hi i)) (hb : ∀ i, lo i ≤ hi i)
    (draw : Nat → FMateDraw n ℝ) (unit : Nat → Nat → List (FRow n ℝ))
    (hu : ∀ clk k, ∀ u ∈ unit clk k, ∀ i, ∃ w, u i = some w ∧ 0 ≤ w ∧ w ≤ 1 - 1 / 2 ^ p)
    (ops : Ops (FRow n ℝ) O F C U V S Q R) (hm : ops.mate = fMateAll (roundedArith r) par lo hi draw)
    (vec0 : Nat → V) (sel0 : Nat → S) (prob0 : Q) (interact useSurr keepArchive saveND : Bool) (nIter nGen total : Nat)
    (problem : ProblemType × Nat × Nat) (popSize res : Option Nat) (s : EA (FRow n ℝ) O F C U V S Q)
    (hs : construct ops (fDesign (roundedArith r) lo hi unit) vec0 sel0 prob0 interact useSurr keepArchive saveND nIter
      nGen total (some problem) none popSize res = .ok s) (cs : List (Call R)) :
    HoldsOnlyWithin lo hi (s.calls ops cs) :=
  c109_every_individual_within p emin r hr _ par lo hi hlo hhi (c109_rounding_one_times p emin hp he r hr lo hi hlo hhi)
    hb draw unit hu ops hm vec0 sel0 prob0 interact useSurr keepArchive saveND nIter nGen total problem popSize res s
    hs cs

/-- Non-vacuity: in double precision, an EA whose construction with a design of three draws succeeds, with the default
operators and all arithmetic rounded. -/
example (r : ℝ → ℝ) (hr : IsRounding 53 (-1074) r) : ∃ (ops : Ops (FRow 1 ℝ) Nat Nat Nat Nat Nat Nat Nat Nat)
    (draw : Nat → FMateDraw 1 ℝ) (unit : Nat → Nat → List (FRow 1 ℝ)) (s : EA (FRow 1 ℝ) Nat Nat Nat Nat Nat Nat Nat),
    OneTimes (roundedArith r) (fun _ : Fin 1 => (-1 : ℝ)) (fun _ => 3 * (2 : ℝ) ^ (-54 : ℤ)) ∧
    ops.mate = fMateAll (roundedArith r) (defaultParams 1) (fun _ => -1) (fun _ => 3 * (2 : ℝ) ^ (-54 : ℤ)) draw ∧
    (∀ clk k, ∀ u ∈ unit clk k, ∀ i, ∃ w, u i = some w ∧ 0 ≤ w ∧ w ≤ 1 - 1 / 2 ^ 53) ∧
    construct ops (fDesign (roundedArith r) (fun _ => -1) (fun _ => 3 * (2 : ℝ) ^ (-54 : ℤ)) unit) id id 0 false false
      false false 1 1 0 (some (.mo, 2, 0)) none (some 3) none = .ok s ∧
    (∃ inds, s.pop.individuals = some inds ∧ inds.length = 3) := by
  have hlo : Representable 53 (-1074) (-1) := ⟨-1, 0, by norm_num, by norm_num, by norm_num⟩
  have hhi : Representable 53 (-1074) (3 * (2 : ℝ) ^ (-54 : ℤ)) := ⟨3, -54, by norm_num, by norm_num, by norm_num⟩
  let draw : Nat → FMateDraw 1 ℝ := fun _ =>
    { shuffle := id, pairs := fun _ => { miu := fun _ => some 0, flip := fun _ => false, u := fun _ => some 0 },
      k := fun _ _ => some 0, miu := fun _ _ => some 0 }
  let ops : Ops (FRow 1 ℝ) Nat Nat Nat Nat Nat Nat Nat Nat :=
    { adapt := fun v _ => v, respond := fun _ _ v _ _ => (.ok (), v),
      mate := fMateAll (roundedArith r) (defaultParams 1) (fun _ => -1) (fun _ => 3 * (2 : ℝ) ^ (-54 : ℤ)) draw,
      evaluate := fun _ _ b => .ok ⟨b.rows.map (fun _ => 0), b.rows.map (fun _ => 0), none, none⟩,
      select := fun _ v s _ => (.ok [0], v, s), newId := fun _ => 0,
      probManage := fun q _ _ => (.ok (), q), probReeval := fun q o => (o, q), dom := fun _ _ => false,
      nonDom := fun l => l.map (fun _ => true) }
  refine ⟨ops, draw, fun _ k => List.replicate k (fun _ => some (1 - 1 / 2 ^ 53)), _,
    c109_rounding_one_times 53 (-1074) (by norm_num) (by norm_num) r hr _ _ (fun _ => hlo) (fun _ => hhi), rfl, ?_, rfl, ?_⟩
  · intro clk k u hu i
    have := List.eq_of_mem_replicate hu
    subst this
    exact ⟨_, rfl, by norm_num, le_refl _⟩
  · exact ⟨_, rfl, rfl⟩

end Verif.Props
