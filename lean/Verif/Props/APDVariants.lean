import Verif.Model.APDVariants
import Verif.Spec.APDVariants
import Verif.Spec.Coverage
import Verif.Props.Elitism
import Verif.Props.NSGA3

/-!
# C83: the APD operators without constraint handling
-/

namespace Verif.Props
open Verif Verif.Spec

variable {m n : Nat} {R : Type}

theorem plainLoop_eq {K : Type} [LinearOrder K] [Zero K] [Add K] (apd : Nat → Nat → K) (assigned : List Nat) (nv : Nat) :
    plainLoop (fun i j => some (apd i j)) assigned nv = apdLoop none (fun i j => some (apd i j)) assigned nv := by
  unfold plainLoop apdLoop
  congr 1
  funext i
  unfold apdOne constraintFilter
  dsimp only
  match subPopulation assigned i with
  | [] => rfl
  | [j] => simp [apdPick, nanmin]
  | _ :: _ :: _ => rfl

theorem plainSelect_spec (values : List (Vec m)) (gammas : List ℝ) (pen : ℝ) (base : Vec m) (fitness : List (Vec m)) (sel : List Nat)
    (h : plainSelect values gammas pen base fitness = .ok sel) :
    OnePerVector values gammas pen (fitness.map (fun f i => f i - base i)) sel := by
  unfold plainSelect at h
  split at h
  · cases h
  · dsimp only at h
    generalize fitness.map (fun f i => f i - base i) = tf at h ⊢
    split at h
    · cases h
    · rename_i assigned hass
      injection h with h
      obtain ⟨hlen, hnear⟩ := assignAll_spec values tf assigned hass
      obtain ⟨A, hA⟩ : ∃ A : Nat → Nat → ℝ, A = fun i j => apdValue pen (gammas.getD i 0) (tf.getD j 0) (values.getD i 0) := ⟨_, rfl⟩
      have hsel : sel = apdLoop none (fun i j => some (A i j)) assigned values.length := by rw [← h, hA, ← plainLoop_eq]
      clear h
      have hAv : ∀ (i j : Nat) (f v : Vec m), tf[j]? = some f → values[i]? = some v → A i j = angleDistance pen (gammas.getD i 0) f v := by
        intro i j f v hf hv
        rw [hA]
        simp only [List.getD_eq_getElem?_getD, hf, hv, Option.getD_some]
        rw [apdValue_eq]
      obtain ⟨r1, r2, r3, r4, -⟩ := c27_selected_distinct_in_range none (fun i j => some (A i j)) assigned values.length
      rw [← hsel] at r1 r2 r3 r4
      have get : ∀ j, j < assigned.length → ∃ f, tf[j]? = some f := fun j hj => ⟨_, List.getElem?_eq_getElem (by rw [← hlen]; exact hj)⟩
      refine ⟨r1, ?_, ?_⟩
      · intro j f i hf hn
        have hji := (hnear j f i hf).2 hn
        obtain ⟨v, hv, -⟩ := hn
        obtain ⟨k, hk1, hk2, -⟩ := c27_every_occupied_vector_contributes none (fun i j => some (A i j)) assigned values.length i j
          (fun _ _ => by simp) (List.getElem?_eq_some_iff.1 hv).1 hji
        rw [← hsel] at hk1
        obtain ⟨g, hg⟩ := get k (r2 k hk1)
        exact ⟨k, hk1, g, hg, (hnear k g i hg).1 hk2⟩
      · intro j hj
        obtain ⟨i, -, hi⟩ := r4 j hj
        obtain ⟨f, hf⟩ := get j (r2 j hj)
        have hn := (hnear j f i hf).1 hi
        obtain ⟨v, hv, -⟩ := hn
        have hj' := hj
        rw [hsel] at hj'
        obtain ⟨a1, a2, a3⟩ := c29_least_distance_first none A assigned values.length j i hj' hi
        refine ⟨f, i, v, hf, (hnear j f i hf).1 hi, hv, ?_⟩
        intro k g hg hgn hkj
        have hki := (hnear k g i hg).2 hgn
        have hadm : Admissible (none : Option (List (List ℝ))) assigned i k := ⟨hki, by simp⟩
        have b1 := a2 k hadm
        have b2 := a3 k hadm
        rw [hAv i j f v hf hv, hAv i k g v hg hv] at b1 b2
        exact ⟨b1, b2, fun hk => hkj (r3 k hk j hj (by rw [hki, hi]))⟩

theorem plainSelect_total (values : List (Vec m)) (gammas : List ℝ) (pen : ℝ) (base : Vec m) (fitness : List (Vec m)) (hv : values ≠ [])
    (hf : fitness ≠ []) : ∃ sel, plainSelect values gammas pen base fitness = .ok sel := by
  obtain ⟨as, has⟩ := assignAll_total values (fitness.map (fun f i => f i - base i)) hv
  exact ⟨_, by unfold plainSelect; rw [if_neg hf]; simp only [has]; rfl⟩

/-- C83, `APD_Select`: with a known ideal the fitness is translated by that, otherwise by the minimum of the population. -/
theorem c83_plain (values : List (Vec m)) (gammas : List ℝ) (pen : ℝ) (popIdeal : Option (Vec m)) (fitness : List (Vec m)) (hv : values ≠ [])
    (hf : fitness ≠ []) : ∃ sel base, plainApdDo values gammas pen popIdeal fitness = .ok sel ∧
      (∀ b, popIdeal = some b → base = b) ∧ (popIdeal = none → ∀ j, IsColMin fitness j (base j)) ∧
      OnePerVector values gammas pen (fitness.map (fun f i => f i - base i)) sel := by
  unfold plainApdDo
  cases popIdeal with
  | some b =>
    obtain ⟨sel, hs⟩ := plainSelect_total values gammas pen b fitness hv hf
    exact ⟨sel, b, hs, by rintro _ ⟨⟩; rfl, by simp, plainSelect_spec _ _ _ _ _ _ hs⟩
  | none =>
    obtain ⟨fmin, hc⟩ : ∃ fmin, colMin fitness = .ok fmin := by
      cases fitness with
      | nil => exact absurd rfl hf
      | cons a l => exact ⟨_, rfl⟩
    obtain ⟨sel, hs⟩ := plainSelect_total values gammas pen fmin fitness hv hf
    exact ⟨sel, fmin, by simp only [hc, hs], by simp, fun _ j => colMin_spec fitness fmin hc j, plainSelect_spec _ _ _ _ _ _ hs⟩

/-- The fitness a pessimist or an optimist sees: `sign` times the uncertainty added to the fitness. -/
def shiftRows (sign : ℝ) (fitness unc : List (Vec m)) : List (Vec m) := List.zipWith (fun f u i => f i + sign * u i) fitness unc

theorem calcFitness_shift (sign : ℝ) (ty : SelType) (hty : (ty = .optimistic ∧ sign = -1) ∨ (ty = .robust ∧ sign = 1)) (fitness unc : List (Vec m)) :
    calcFitness ty fitness (some unc) = .ok (shiftRows sign fitness unc) := by
  rcases hty with ⟨rfl, rfl⟩ | ⟨rfl, rfl⟩
  · simp only [calcFitness, shiftRows, Except.ok.injEq]
    congr 1
    funext f u i
    ring
  · simp only [calcFitness, shiftRows, Except.ok.injEq]
    congr 1
    funext f u i
    ring

/-- C83, `Optimistic_APD_Select` (sign -1) and `robust_APD_Select` (sign +1): without uncertainties TypeError and nothing changed; with them the
selection is that of the shifted fitness, translated by the ideal left behind, which is the least of the one before and the shifted rows, so
that translated fitness is nonnegative. -/
theorem c83_uncertain (sign : ℝ) (ty : SelType) (hty : (ty = .optimistic ∧ sign = -1) ∨ (ty = .robust ∧ sign = 1)) (values : List (Vec m))
    (gammas : List ℝ) (pen : ℝ) (ideal : Option (Vec m)) (fitness : List (Vec m)) (hv : values ≠ []) (hf : fitness ≠ []) :
    uncertainApdDo ty values gammas pen ideal fitness none = (.error .typeError, ideal) ∧
    ∀ unc, unc.length = fitness.length → ∃ sel base, uncertainApdDo ty values gammas pen ideal fitness (some unc) = (.ok sel, some base) ∧
      (∀ j, IsColMin (ideal.toList ++ shiftRows sign fitness unc) j (base j)) ∧
      OnePerVector values gammas pen ((shiftRows sign fitness unc).map (fun f i => f i - base i)) sel := by
  refine ⟨by rcases hty with ⟨rfl, -⟩ | ⟨rfl, -⟩ <;> rfl, ?_⟩
  intro unc hu
  have hne : shiftRows sign fitness unc ≠ [] := by
    intro he
    have := congrArg List.length he
    simp only [shiftRows, List.length_zipWith, hu, Nat.min_self, List.length_nil] at this
    exact hf (List.length_eq_zero_iff.1 this)
  unfold uncertainApdDo
  rw [calcFitness_shift sign ty hty fitness unc]
  dsimp only
  generalize shiftRows sign fitness unc = fit at hne ⊢
  obtain ⟨fmin, hc⟩ : ∃ fmin, colMin fit = .ok fmin := by
    cases fit with
    | nil => exact absurd rfl hne
    | cons a l => exact ⟨_, rfl⟩
  rw [hc]
  dsimp only
  cases ideal with
  | none =>
    obtain ⟨sel, hs⟩ := plainSelect_total values gammas pen fmin fit hv hne
    exact ⟨sel, fmin, by rw [hs], fun j => by simpa using colMin_spec fit fmin hc j, plainSelect_spec _ _ _ _ _ _ hs⟩
  | some id =>
    obtain ⟨sel, hs⟩ := plainSelect_total values gammas pen (fun c => min (id c) (fmin c)) fit hv hne
    refine ⟨sel, _, by rw [hs], fun j => ?_, plainSelect_spec _ _ _ _ _ _ hs⟩
    obtain ⟨⟨r, hr, hre⟩, hle⟩ := colMin_spec fit fmin hc j
    refine ⟨?_, ?_⟩
    · rcases min_choice (id j) (fmin j) with h1 | h1
      · exact ⟨id, by simp, by rw [h1]⟩
      · exact ⟨r, by simp [hr], by rw [h1, hre]⟩
    · intro y hy
      simp only [Option.toList_some, List.cons_append, List.nil_append, List.mem_cons] at hy
      rcases hy with rfl | hy
      · exact min_le_left _ _
      · exact le_trans (min_le_right _ _) (hle y hy)

/-- A run of one operator: the ideal after selecting from a sequence of populations. -/
noncomputable def idealRun (ty : SelType) (values : List (Vec m)) (gammas : List ℝ) (pen : ℝ) :
    Option (Vec m) → List (List (Vec m) × List (Vec m)) → Option (Vec m)
  | ideal, [] => ideal
  | ideal, (f, u) :: rest => idealRun ty values gammas pen (uncertainApdDo ty values gammas pen ideal f (some u)).2 rest

/-- C83. Over any sequence of selections the ideal is the minimum of all shifted fitness ever seen (and of the ideal known at construction). -/
theorem c83_running_ideal (sign : ℝ) (ty : SelType) (hty : (ty = .optimistic ∧ sign = -1) ∨ (ty = .robust ∧ sign = 1)) (values : List (Vec m))
    (gammas : List ℝ) (pen : ℝ) (hv : values ≠ []) (pops : List (List (Vec m) × List (Vec m))) (hp : ∀ q ∈ pops, q.1 ≠ [] ∧ q.2.length = q.1.length)
    (ideal : Option (Vec m)) (hne : ideal ≠ none ∨ pops ≠ []) : ∃ base, idealRun ty values gammas pen ideal pops = some base ∧
      ∀ j, IsColMin (ideal.toList ++ pops.flatMap (fun q => shiftRows sign q.1 q.2)) j (base j) := by
  induction pops generalizing ideal with
  | nil =>
    cases ideal with
    | none => simp at hne
    | some b => exact ⟨b, rfl, fun j => ⟨⟨b, by simp, rfl⟩, by simp⟩⟩
  | cons q rest ih =>
    obtain ⟨f, u⟩ := q
    obtain ⟨h1, h2⟩ := hp (f, u) (by simp)
    obtain ⟨sel, base, hs, hmin, -⟩ := (c83_uncertain sign ty hty values gammas pen ideal f hv h1).2 u h2
    obtain ⟨b, hb, hbm⟩ := ih (fun q hq => hp q (by simp [hq])) (some base) (by simp)
    refine ⟨b, by simp only [idealRun, hs]; exact hb, fun j => ?_⟩
    obtain ⟨⟨r, hr, hre⟩, hle⟩ := hbm j
    obtain ⟨⟨r', hr', hre'⟩, hle'⟩ := hmin j
    simp only [Option.toList_some, List.cons_append, List.nil_append, List.mem_cons] at hr hle
    refine ⟨?_, ?_⟩
    · rcases hr with rfl | hr
      · exact ⟨r', by rw [List.flatMap_cons, ← List.append_assoc]; exact List.mem_append_left _ hr', by rw [hre', hre]⟩
      · exact ⟨r, by rw [List.flatMap_cons, ← List.append_assoc]; exact List.mem_append_right _ hr, hre⟩
    · intro y hy
      rw [List.flatMap_cons, ← List.append_assoc] at hy
      rcases List.mem_append.1 hy with hy | hy
      · exact le_trans (hle base (.inl rfl)) (hle' y hy)
      · exact hle y (.inr hy)

theorem scalarise_column (scalars : Fin m → List (Vec n) → R → List ℝ) (fitness : List (Vec n)) (ref : R)
    (hs : ∀ i, (scalars i fitness ref).length = fitness.length) (i : Fin m) :
    (scalarise scalars fitness ref).map (fun f => f i) = scalars i fitness ref := by
  unfold scalarise
  rw [List.map_map]
  refine List.ext_getElem (by simp [hs i]) (fun j h1 h2 => ?_)
  simp [h2]

/-- C83, `IOPIS_APD_Select`: selection by the scalarised values, translated by their minimum. -/
theorem c83_iopis (scalars : Fin m → List (Vec n) → R → List ℝ) (values : List (Vec m)) (gammas : List ℝ) (pen : ℝ) (fitness : List (Vec n)) (ref : R)
    (hs : ∀ i, (scalars i fitness ref).length = fitness.length) (hv : values ≠ []) (hf : fitness ≠ []) :
    ∃ (sel : List Nat) (base : Vec m) (fit : List (Vec m)), iopisApdDo scalars values gammas pen fitness ref = .ok sel ∧ (∀ j, IsColMin fit j (base j)) ∧ fit.length = fitness.length ∧
      (∀ i, fit.map (fun f => f i) = scalars i fitness ref) ∧ OnePerVector values gammas pen (fit.map (fun f i => f i - base i)) sel := by
  unfold iopisApdDo
  dsimp only
  obtain ⟨fit, hfit⟩ : ∃ fit, fit = scalarise scalars fitness ref := ⟨_, rfl⟩
  rw [← hfit]
  have hlen : fit.length = fitness.length := by rw [hfit]; simp [scalarise]
  have hne : fit ≠ [] := by
    intro e; rw [e] at hlen; exact hf (List.length_eq_zero_iff.1 hlen.symm)
  obtain ⟨fmin, hc⟩ : ∃ fmin, colMin fit = .ok fmin := by
    cases fit with
    | nil => exact absurd rfl hne
    | cons a l => exact ⟨_, rfl⟩
  rw [hc]
  obtain ⟨sel, hsel⟩ := plainSelect_total values gammas pen fmin fit hv hne
  refine ⟨sel, fmin, fit, hsel, colMin_spec fit fmin hc, hlen, ?_, plainSelect_spec _ _ _ _ _ _ hsel⟩
  intro i
  rw [hfit]
  exact scalarise_column scalars fitness ref hs i

/-! ## Penalty -/

/-- C83. For times that are not negative the factor is `t ^ alpha * m`, at most 1; it is between 0 and 1 and never falls with time; at time 0 it
is 0; compared with RVEA's (C31), which goes up to `m`, it is cut off at 1. -/
theorem c83_penalty (alpha : ℝ) (ha : 0 < alpha) (m : Nat) :
    (∀ t, 0 ≤ t → ∃ p, clippedPenalty t alpha m = .ok p ∧ p = min 1 (t ^ alpha * m) ∧ 0 ≤ p ∧ p ≤ 1 ∧ (t ≤ 1 → p = min 1 (partialPenalty t alpha m))) ∧
    clippedPenalty 0 alpha m = .ok 0 ∧
    ∀ t t' p p', 0 ≤ t → t ≤ t' → clippedPenalty t alpha m = .ok p → clippedPenalty t' alpha m = .ok p' → p ≤ p' := by
  have form : ∀ t, 0 ≤ t → clippedPenalty t alpha m = .ok (min 1 (t ^ alpha * m)) := by
    intro t ht
    have hnn : 0 ≤ t ^ alpha * m := mul_nonneg (Real.rpow_nonneg ht _) (Nat.cast_nonneg m)
    unfold clippedPenalty
    rw [if_neg (fun h => absurd h.1 (not_lt.2 ht)), if_neg (fun h => absurd h.2 (not_lt.2 ha.le))]
    dsimp only
    rw [if_neg (not_lt.2 hnn)]
    split
    · rename_i h; rw [min_eq_left (le_of_lt h)]
    · rename_i h; rw [min_eq_right (not_lt.1 h)]
  refine ⟨?_, ?_, ?_⟩
  · intro t ht
    refine ⟨_, form t ht, rfl, le_min zero_le_one (mul_nonneg (Real.rpow_nonneg ht _) (Nat.cast_nonneg m)), min_le_left _ _, fun h1 => ?_⟩
    rw [penalty_formula, min_eq_left h1, max_eq_right ht]
  · rw [form 0 le_rfl, Real.zero_rpow ha.ne']
    simp
  · intro t t' p p' ht htt h1 h2
    rw [form t ht] at h1
    rw [form t' (ht.trans htt)] at h2
    injection h1 with h1
    injection h2 with h2
    rw [← h1, ← h2]
    exact min_le_min le_rfl (mul_le_mul_of_nonneg_right (Real.rpow_le_rpow ht htt ha.le) (Nat.cast_nonneg m))

/-- C83. The documentation says a penalty outside [0, 1] is rounded to 0 or 1; the exponent comes first, so with the default alpha a negative time
counts as its absolute value, and with a fractional alpha it raises TypeError. -/
theorem c83_negative_time_violated (t : ℝ) (ht : t < 0) (m : Nat) :
    clippedPenalty t 2 m = clippedPenalty (-t) 2 m ∧ clippedPenalty (-1) 2 (m + 1) = .ok 1 ∧ clippedPenalty t (5 / 2) m = .error .typeError := by
  have two : ∃ z : ℤ, (2 : ℝ) = z := ⟨2, by norm_num⟩
  refine ⟨?_, ?_, ?_⟩
  · unfold clippedPenalty
    have h2 : ∀ x : ℝ, x ^ (2 : ℝ) = x * x := fun x => by
      rw [← pow_two, ← Real.rpow_natCast]
      norm_num
    have hn : ¬ (2 : ℝ) < 0 := by norm_num
    simp only [two, not_true_eq_false, and_false, if_false, h2, neg_mul_neg, hn]
  · unfold clippedPenalty
    have h2 : ((-1 : ℝ)) ^ (2 : ℝ) = 1 := by
      have := Real.rpow_natCast (-1 : ℝ) 2
      norm_num at this ⊢
    have hn : ¬ (2 : ℝ) < 0 := by norm_num
    simp only [two, not_true_eq_false, and_false, if_false, h2, one_mul, hn]
    have : (1 : ℝ) ≤ ((m + 1 : Nat) : ℝ) := by exact_mod_cast Nat.succ_le_succ (Nat.zero_le m)
    rw [if_neg (not_lt.2 (zero_le_one.trans this))]
    split
    · rfl
    · rename_i h; exact congrArg _ (le_antisymm (not_lt.1 h) this)
  · unfold clippedPenalty
    rw [if_pos]
    refine ⟨ht, ?_⟩
    rintro ⟨z, hz⟩
    have : (5 : ℝ) = 2 * z := by linarith
    have : (5 : ℤ) = 2 * z := by exact_mod_cast this
    omega

/-- C83. `IOPIS_APD_Select` takes an `alpha` and ignores it: the factor is `t ^ 2 * k`, at most 1, although with the alpha asked for it
would be different. -/
theorem c83_iopis_alpha_ignored_violated (t : ℝ) (h0 : 0 ≤ t) (alpha : ℝ) (k : Nat) :
    iopisPenalty t alpha k = .ok (min 1 (t * t * k)) ∧ iopisPenalty (1 / 2) 1 1 ≠ clippedPenalty (1 / 2) 1 1 := by
  have h2 : ∀ x : ℝ, x ^ (2 : ℝ) = x * x := fun x => by
    rw [← pow_two, ← Real.rpow_natCast]
    norm_num
  have main : ∀ t alpha k, 0 ≤ t → iopisPenalty t alpha k = .ok (min 1 (t * t * k)) := by
    intro t alpha k h0
    obtain ⟨p, hp, he, -⟩ := (c83_penalty 2 (by norm_num) k).1 t h0
    unfold iopisPenalty iopisAlpha
    rw [hp, he, h2]
  refine ⟨main t alpha k h0, ?_⟩
  obtain ⟨p, hp, he, -⟩ := (c83_penalty 1 (by norm_num) 1).1 (1 / 2) (by norm_num)
  rw [main _ _ _ (by norm_num), hp, he]
  simp only [Real.rpow_one, ne_eq, Except.ok.injEq]
  norm_num

/-! ## Violations -/

theorem clippedCos_nonpos {f v : Vec m} (hf : ∀ i, f i ≤ 0) (hv : ∀ i, 0 ≤ v i) : clippedCos f v = 0 := by
  have : inner (fun i => f i / len f) v ≤ 0 :=
    Finset.sum_nonpos fun i _ => mul_nonpos_of_nonpos_of_nonneg (div_nonpos_of_nonpos_of_nonneg (hf i) (Real.sqrt_nonneg _)) (hv i)
  unfold clippedCos
  exact max_eq_left (le_trans (min_le_left _ _) this)

/-- C83, `APD_Select` trusts the ideal of the problem: if the population is nowhere worse than it, then, with reference vectors of nonnegative
components (all there are before a rotation), everybody is put into the first vector's niche and one single individual survives. -/
theorem c83_beaten_ideal_violated (values : List (Vec m)) (gammas : List ℝ) (pen : ℝ) (b : Vec m) (fitness : List (Vec m)) (hv : values ≠ [])
    (hf : fitness ≠ []) (hnn : ∀ v ∈ values, ∀ i, 0 ≤ v i) (hbeat : ∀ f ∈ fitness, ∀ i, f i ≤ b i) :
    ∃ j, plainApdDo values gammas pen (some b) fitness = .ok [j] := by
  obtain ⟨sel, base, hs, hb, -, hone⟩ := c83_plain values gammas pen (some b) fitness hv hf
  have hb := hb b rfl
  subst hb
  obtain ⟨h1, h2, h3⟩ := hone
  have hzero : ∀ (j : Nat) (f : Vec m), (fitness.map (fun f i => f i - base i))[j]? = some f → NearestVector values f 0 := by
    intro j f hj
    have hf0 : ∀ i, f i ≤ 0 := by
      have := List.mem_of_getElem? hj
      obtain ⟨g, hg, rfl⟩ := List.mem_map.1 this
      intro i
      have := hbeat g hg i
      linarith
    obtain ⟨v, vs, rfl⟩ := List.exists_cons_of_ne_nil hv
    refine ⟨v, rfl, fun k w hw => ?_, by simp⟩
    rw [clippedCos_nonpos hf0 (hnn w (List.mem_of_getElem? hw)), clippedCos_nonpos hf0 (hnn v (by simp))]
  obtain ⟨f, fs, rfl⟩ := List.exists_cons_of_ne_nil hf
  obtain ⟨j, hj, -⟩ := h2 0 _ 0 rfl (hzero 0 _ rfl)
  refine ⟨j, ?_⟩
  rw [hs]
  have huniq : ∀ k ∈ sel, k = j := by
    intro k hk
    by_contra hkj
    obtain ⟨f', i, v, e1, e2, -, e4⟩ := h3 j hj
    obtain ⟨g, -, -, d1, -, -, -⟩ := h3 k hk
    have hi := nearest_unique _ _ _ _ e2 (hzero j f' e1)
    subst hi
    exact (e4 k g d1 (hzero k g d1) hkj).2.2 hk
  have : sel = List.replicate sel.length j := List.eq_replicate_iff.2 ⟨rfl, huniq⟩
  have hlen : sel.length = 1 := by
    have hnd := h1
    rw [this] at hnd
    have h1' := List.nodup_replicate.1 hnd
    have := List.length_pos_of_mem hj
    omega
  rw [this, hlen]
  rfl

/-- Non-vacuity: three individuals at or below the ideal. -/
example : ∃ j, plainApdDo [![1, 0], ![0, 1]] [1, 1] 0 (some ![5, 5]) [![1, 2], ![2, 1], ![5, 5]] = .ok [j] :=
  c83_beaten_ideal_violated _ _ _ _ _ (by simp) (by simp)
    (by intro v hv i; simp only [List.mem_cons, List.not_mem_nil, or_false] at hv; rcases hv with rfl | rfl <;> fin_cases i <;> simp)
    (by intro v hv i; simp only [List.mem_cons, List.not_mem_nil, or_false] at hv; rcases hv with rfl | rfl | rfl <;> fin_cases i <;> norm_num)

/-- C83, constraints are ignored: of a closer infeasible and a farther feasible individual these operators keep the infeasible one, where RVEA's own
(C28) keeps the feasible one. -/
theorem c83_constraints_ignored_violated (g : List ℝ) (hg : neighbouringAngles [(![1, 0] : Vec 2), ![0, 1]] = .ok g) (pen : ℝ) (hpen : 0 ≤ pen) :
    ¬ Feasible [[(5 : ℝ)], [-1]] 0 ∧ Feasible [[(5 : ℝ)], [-1]] 1 ∧
    plainApdDo [![1, 0], ![0, 1]] g pen (some 0) [![1, 1], ![2, 2]] = .ok [0] ∧
    apdDo [![1, 0], ![0, 1]] g pen 0 0 [![1, 1], ![2, 2]] (some [[5], [-1]]) = .ok ([1], 0) := by
  have hinf : ¬ Feasible [[(5 : ℝ)], [-1]] 0 := by simp [Feasible]
  have hfea : Feasible [[(5 : ℝ)], [-1]] 1 := by simp [Feasible]
  refine ⟨hinf, hfea, ?_, ?_⟩
  all_goals
    have hs : 0 < Real.sqrt 2 := Real.sqrt_pos.2 (by norm_num)
    have hs2 : Real.sqrt 2 * Real.sqrt 2 = 2 := Real.mul_self_sqrt (by norm_num)
    have l1 : len (![1, 1] : Vec 2) = Real.sqrt 2 := by rw [len_two]; norm_num
    have l2 : len (![2, 2] : Vec 2) = 2 * Real.sqrt 2 := by
      rw [len_two, Real.sqrt_eq_iff_mul_self_eq (by norm_num) (by positivity)]
      nlinarith
    have a0 := clippedCos_two 1 1 1 0 _ l1 (by positivity) (by rw [div_le_one hs]; nlinarith)
    have a1 := clippedCos_two 1 1 0 1 _ l1 (by positivity) (by rw [div_le_one hs]; nlinarith)
    have b0 := clippedCos_two 2 2 1 0 _ l2 (by positivity) (by rw [div_le_one (by positivity)]; nlinarith)
    have b1 := clippedCos_two 2 2 0 1 _ l2 (by positivity) (by rw [div_le_one (by positivity)]; nlinarith)
    have na : NearestVector [![1, 0], ![0, 1]] (![1, 1] : Vec 2) 0 := by
      refine ⟨![1, 0], rfl, ?_, by simp⟩
      intro k w hw
      match k, hw with
      | 0, hw => simp only [List.getElem?_cons_zero, Option.some.injEq] at hw; rw [hw]
      | 1, hw =>
        simp only [List.getElem?_cons_zero, List.getElem?_cons_succ, Option.some.injEq] at hw
        rw [← hw, a0, a1]; simp
      | k + 2, hw => simp at hw
    have nb : NearestVector [![1, 0], ![0, 1]] (![2, 2] : Vec 2) 0 := by
      refine ⟨![1, 0], rfl, ?_, by simp⟩
      intro k w hw
      match k, hw with
      | 0, hw => simp only [List.getElem?_cons_zero, Option.some.injEq] at hw; rw [hw]
      | 1, hw =>
        simp only [List.getElem?_cons_zero, List.getElem?_cons_succ, Option.some.injEq] at hw
        rw [← hw, b0, b1]; simp
      | k + 2, hw => simp at hw
    have ta : (fun i => (![1, 1] : Vec 2) i - (0 : Vec 2) i) = ![1, 1] := by funext i; simp
    have tb : (fun i => (![2, 2] : Vec 2) i - (0 : Vec 2) i) = ![2, 2] := by funext i; simp
  · obtain ⟨sel, base, hsel, hb, -, h1, h2, h3⟩ := c83_plain [![1, 0], ![0, 1]] g pen (some 0) [![1, 1], ![2, 2]] (by simp) (by simp)
    have hb := hb 0 rfl
    subst hb
    simp only [List.map_cons, List.map_nil, ta, tb] at h2 h3
    rw [hsel]
    have hno : 1 ∉ sel := by
      intro hin
      obtain ⟨f, i, v, e1, e2, e3, e4⟩ := h3 1 hin
      simp only [List.getElem?_cons_zero, List.getElem?_cons_succ, Option.some.injEq] at e1
      subst e1
      have hi := nearest_unique _ _ _ _ e2 nb
      subst hi
      simp only [List.getElem?_cons_zero, Option.some.injEq] at e3
      subst e3
      have hd := (e4 0 _ rfl na (by norm_num)).1
      have := closer_of_distance hpen (angles_nonneg hg 0) (by rw [l1, l2]; linarith) hd
      unfold angleTo at this
      rw [a0, b0] at this
      have he : (2 * 1 + 2 * 0) / (2 * Real.sqrt 2) = (1 * 1 + 1 * 0) / Real.sqrt 2 := by field_simp
      rw [he] at this
      exact lt_irrefl _ this.2
    obtain ⟨k, hk, f, hf, -⟩ := h2 0 _ 0 rfl na
    have hall : ∀ k ∈ sel, k = 0 := by
      intro k hk
      obtain ⟨f, -, -, e1, -⟩ := h3 k hk
      match k, e1, hk with
      | 0, _, _ => rfl
      | 1, _, hk => exact absurd hk hno
      | k + 2, e1, _ => simp at e1
    have hrep : sel = List.replicate sel.length 0 := List.eq_replicate_iff.2 ⟨rfl, hall⟩
    have hlen : sel.length = 1 := by
      have hnd := h1
      rw [hrep] at hnd
      have h1' := List.nodup_replicate.1 hnd
      have := List.length_pos_of_mem hk
      omega
    rw [hrep, hlen]
    rfl
  · obtain ⟨sel, id', h, hne⟩ := c27_selection_total [![1, 0], ![0, 1]] g pen 0 0 [![1, 1], ![2, 2]] (some [[5], [-1]]) (by simp) (by simp)
    have hid : id' = 0 := by
      obtain ⟨fmin, -, hf, hid, -⟩ := apdDo_ok _ _ _ _ _ _ _ _ _ h
      simp only [colMin, List.foldl_cons, List.foldl_nil, Except.ok.injEq] at hf
      rw [hid, ← hf]
      funext i
      fin_cases i <;> simp [newIdeal]
    subst hid
    obtain ⟨h1, h2, -, -, h5⟩ := c29_rvea_selection _ _ _ _ _ _ _ _ _ h
    have hno : 0 ∉ sel := by
      intro hin
      obtain ⟨i, ⟨⟨f, hf, hn⟩, hadm⟩, -⟩ := h5 0 hin
      simp only [List.getElem?_cons_zero, Option.map_some, Option.some.injEq] at hf
      rw [ta] at hf
      subst hf
      have hi := nearest_unique _ _ _ _ hn na
      subst hi
      rcases hadm _ rfl with hx | ⟨hx, -⟩
      · exact hinf hx
      · exact hx 1 ⟨![2, 2], congrArg some tb, nb⟩ hfea
    have hall : ∀ k ∈ sel, k = 1 := by
      intro k hk
      have := h2 k hk
      simp only [List.length_cons, List.length_nil] at this
      have : k ≠ 0 := fun e => hno (e ▸ hk)
      omega
    have hrep : sel = List.replicate sel.length 1 := List.eq_replicate_iff.2 ⟨rfl, hall⟩
    have hlen : sel.length = 1 := by
      have hnd := h1
      rw [hrep] at hnd
      have h1' := List.nodup_replicate.1 hnd
      have := List.length_pos_iff.2 hne
      omega
    rw [h, hrep, hlen]
    rfl

/-- Non-vacuity of `c83_uncertain` and `c83_running_ideal`. -/
example : ∃ base, idealRun .optimistic [![1, 0], ![0, 1]] [1, 1] 0 none [([![3, 3]], [![1, 2]]), ([![4, 2]], [![1, 1]])] = some base ∧
    ∀ j, IsColMin ([![3, 3], ![4, 2]].zipWith (fun (f u : Vec 2) i => f i + -1 * u i) [![1, 2], ![1, 1]]) j (base j) := by
  obtain ⟨base, h1, h2⟩ := c83_running_ideal (-1) .optimistic (.inl ⟨rfl, rfl⟩) [(![1, 0] : Vec 2), ![0, 1]] [1, 1] 0 (by simp)
    [([![3, 3]], [![1, 2]]), ([![4, 2]], [![1, 1]])] (by simp) none (.inr (by simp))
  exact ⟨base, h1, h2⟩

/-! ## C84: `IOPIS_NSGAIII_select` -/

/-- C84. With at least `pop_size` individuals and the default `n_survive`, whatever came before, `do` returns exactly `pop_size` distinct valid indices;
in terms of the scalarised values, nobody outside dominates anybody inside, and everybody non-dominated is in if they all fit. -/
theorem c84_size_and_elitism (scalars : Fin m → List (Vec n) → R → List ℝ) (sort : List (Vec m) → List (List Nat))
    (hsort : ∀ fit, IsFrontSort (IndDominates fit) fit.length (sort fit)) (solve : List (Vec m) → Option (Vec m)) (rnd : NicheRand)
    (hsh : ∀ t l, (rnd.shuffle t l).Perm l) (refDirs : List (Vec m)) (hr : refDirs ≠ []) (size : Nat) (st : IopisNsga m) (fitness : List (Vec n)) (ref : R)
    (hs : ∀ i, (scalars i fitness ref).length = fitness.length) (hf : fitness ≠ []) (hn : size ≤ fitness.length) :
    ∃ (sel : List Nat) (st' : IopisNsga m) (fit : List (Vec m)),
      iopisNsgaDo scalars sort solve rnd refDirs (nSurviveAttr none size) st fitness ref = (.ok sel, st') ∧
      fit.length = fitness.length ∧ (∀ i, fit.map (fun f => f i) = scalars i fitness ref) ∧
      sel.length = size ∧ sel.Nodup ∧ (∀ j ∈ sel, j < fitness.length) ∧
      (∀ x ∈ sel, ∀ y, y < fitness.length → IndDominates fit y x → y ∈ sel) ∧
      (∀ best : List Nat, best.Nodup → (∀ x, x ∈ best ↔ x < fitness.length ∧ ∀ y, y < fitness.length → ¬ IndDominates fit y x) →
        best.length ≤ size → ∀ x ∈ best, x ∈ sel) := by
  have hlen : (scalarise scalars fitness ref).length = fitness.length := by simp [scalarise]
  have hne : scalarise scalars fitness ref ≠ [] := by
    intro e; rw [e] at hlen; exact hf (List.length_eq_zero_iff.1 hlen.symm)
  obtain ⟨fmin, hc⟩ := colMin_total _ hne
  have hfs := hsort (scalarise scalars fitness ref)
  obtain ⟨sel, s', h1, h2, h3, h4⟩ := c33_exactly_pop_size sort solve rnd hsh refDirs hr size ⟨st.ideal.getD fmin, st.worst, st.extreme⟩ _ hne hfs
    (by rw [hlen]; exact hn)
  refine ⟨sel, ⟨some s'.ideal, s'.worst, s'.extreme⟩, scalarise scalars fitness ref, by unfold iopisNsgaDo; simp only [hc, h1], hlen,
    scalarise_column scalars fitness ref hs, h2, h3, by rw [← hlen]; exact h4, ?_, ?_⟩
  · obtain ⟨best, hb1, hb2⟩ : ∃ best : List Nat, best.Nodup ∧
        ∀ x, x ∈ best ↔ x < (scalarise scalars fitness ref).length ∧ ∀ y, y < (scalarise scalars fitness ref).length →
          ¬ IndDominates (scalarise scalars fitness ref) y x := by
      classical
      exact ⟨(List.range (scalarise scalars fitness ref).length).filter (fun x => decide (∀ y, y < (scalarise scalars fitness ref).length →
        ¬ IndDominates (scalarise scalars fitness ref) y x)), List.nodup_range.filter _, by simp⟩
    have := (c34_elitist sort solve rnd hsh refDirs hr size _ s' _ hne hfs (by rw [hlen]; exact hn) sel h1 best hb1 hb2).1
    rw [hlen] at this
    exact this
  · intro best hb1 hb2 hle
    rw [← hlen] at hb2
    exact (c34_elitist sort solve rnd hsh refDirs hr size _ s' _ hne hfs (by rw [hlen]; exact hn) sel h1 best hb1 hb2).2.1 hle

/-- One call of the operator. -/
structure IopisNsgaCall (m n : Nat) (R : Type) where
  scalars : Fin m → List (Vec n) → R → List ℝ
  sort : List (Vec m) → List (List Nat)
  solve : List (Vec m) → Option (Vec m)
  rnd : NicheRand
  refDirs : List (Vec m)
  nSurvive : Option Nat
  fitness : List (Vec n)
  ref : R

/-- The state after a sequence of calls. -/
noncomputable def iopisNsgaCalls (st : IopisNsga m) : List (IopisNsgaCall m n R) → IopisNsga m
  | [] => st
  | c :: cs => iopisNsgaCalls (iopisNsgaDo c.scalars c.sort c.solve c.rnd c.refDirs c.nSurvive st c.fitness c.ref).2 cs

/-- C84. After any nonempty sequence of calls from construction, the ideal is the minimum of all scalarised values seen, under whatever reference points. -/
theorem c84_running_ideal (calls : List (IopisNsgaCall m n R)) (hne : calls ≠ [])
    (h : ∀ c ∈ calls, (∀ fit, IsFrontSort (IndDominates fit) fit.length (c.sort fit)) ∧ c.fitness ≠ [] ∧
      ∀ i, (c.scalars i c.fitness c.ref).length = c.fitness.length) :
    ∃ base, (iopisNsgaCalls IopisNsga.init calls).ideal = some base ∧
      ∀ i, (∃ c ∈ calls, base i ∈ c.scalars i c.fitness c.ref) ∧ ∀ c ∈ calls, ∀ x ∈ c.scalars i c.fitness c.ref, base i ≤ x := by
  have step : ∀ (st : IopisNsga m) (c : IopisNsgaCall m n R), c ∈ calls → ∃ base fmin,
      (iopisNsgaDo c.scalars c.sort c.solve c.rnd c.refDirs c.nSurvive st c.fitness c.ref).2.ideal = some base ∧
      (∀ i, base i = min (st.ideal.getD fmin i) (fmin i)) ∧
      ∀ i, fmin i ∈ c.scalars i c.fitness c.ref ∧ ∀ x ∈ c.scalars i c.fitness c.ref, fmin i ≤ x := by
    intro st c hc
    obtain ⟨hs, hf, hl⟩ := h c hc
    have hlen : (scalarise c.scalars c.fitness c.ref).length = c.fitness.length := by simp [scalarise]
    have hnn : scalarise c.scalars c.fitness c.ref ≠ [] := by
      intro e; rw [e] at hlen; exact hf (List.length_eq_zero_iff.1 hlen.symm)
    obtain ⟨fmin, hm⟩ := colMin_total _ hnn
    have hsn : c.sort (scalarise c.scalars c.fitness c.ref) ≠ [] := by
      intro e
      have := (hs (scalarise c.scalars c.fitness c.ref)).all.length_eq
      rw [e] at this
      simp only [List.flatten_nil, List.length_nil, List.length_range] at this
      exact hnn (List.length_eq_zero_iff.1 this.symm)
    obtain ⟨f1, f2, e1, -, e3, -⟩ := nsgaDo_extremes ⟨c.sort, c.solve, c.rnd, c.refDirs, c.nSurvive, scalarise c.scalars c.fitness c.ref⟩
      ⟨st.ideal.getD fmin, st.worst, st.extreme⟩ hsn hnn
    have hff : f1 = fmin := by
      have e1' : colMin (scalarise c.scalars c.fitness c.ref) = .ok f1 := e1
      rw [hm] at e1'
      injection e1' with e
      exact e.symm
    subst hff
    refine ⟨_, f1, by unfold iopisNsgaDo; simp only [hm]; rfl, fun i => by rw [e3]; rfl, fun i => ?_⟩
    obtain ⟨⟨r, hr, hre⟩, hle⟩ := colMin_spec _ f1 hm i
    rw [← scalarise_column c.scalars c.fitness c.ref hl i]
    refine ⟨List.mem_map.2 ⟨r, hr, hre⟩, fun x hx => ?_⟩
    obtain ⟨q, hq, rfl⟩ := List.mem_map.1 hx
    exact hle q hq
  have main : ∀ (done rest : List (IopisNsgaCall m n R)) (st : IopisNsga m) (base : Vec m), (∀ c ∈ done ++ rest, c ∈ calls) → st.ideal = some base →
      (∀ i, (∃ c ∈ done, base i ∈ c.scalars i c.fitness c.ref) ∧ ∀ c ∈ done, ∀ x ∈ c.scalars i c.fitness c.ref, base i ≤ x) →
      ∃ base', (iopisNsgaCalls st rest).ideal = some base' ∧
        ∀ i, (∃ c ∈ done ++ rest, base' i ∈ c.scalars i c.fitness c.ref) ∧ ∀ c ∈ done ++ rest, ∀ x ∈ c.scalars i c.fitness c.ref, base' i ≤ x := by
    intro done rest
    induction rest generalizing done with
    | nil => intro st base _ hb hi; exact ⟨base, hb, by simpa using hi⟩
    | cons c rest ih =>
      intro st base hin hb hi
      obtain ⟨b', fmin, s1, s2, s3⟩ := step st c (hin c (by simp))
      obtain ⟨b2, hb2, hi2⟩ := ih (done ++ [c]) (iopisNsgaDo c.scalars c.sort c.solve c.rnd c.refDirs c.nSurvive st c.fitness c.ref).2 b'
        (by intro x hx; exact hin x (by simpa using hx)) s1 (by
          intro i
          obtain ⟨⟨q, hq, hqe⟩, hle⟩ := hi i
          obtain ⟨m1, m2⟩ := s3 i
          have hbi : b' i = min (base i) (fmin i) := by rw [s2 i, hb]; rfl
          refine ⟨?_, ?_⟩
          · rcases min_choice (base i) (fmin i) with hx | hx
            · exact ⟨q, by simp [hq], by rw [hbi, hx]; exact hqe⟩
            · exact ⟨c, by simp, by rw [hbi, hx]; exact m1⟩
          · intro d hd x hx
            rw [hbi]
            rcases List.mem_append.1 hd with hd | hd
            · exact le_trans (min_le_left _ _) (hle d hd x hx)
            · rw [List.mem_singleton.1 hd] at hx
              exact le_trans (min_le_right _ _) (m2 x hx))
      exact ⟨b2, hb2, by simpa using hi2⟩
  obtain ⟨c, rest, rfl⟩ := List.exists_cons_of_ne_nil hne
  obtain ⟨b, fmin, s1, s2, s3⟩ := step IopisNsga.init c (by simp)
  have hb : b = fmin := by
    funext i
    rw [s2 i]
    simp [IopisNsga.init]
  subst hb
  have := main [c] rest (iopisNsgaDo c.scalars c.sort c.solve c.rnd c.refDirs c.nSurvive IopisNsga.init c.fitness c.ref).2 b (by simp) s1
    (by intro i; simpa using s3 i)
  simpa [iopisNsgaCalls] using this

/-- C84. Given an explicit `n_survive` the operator never works: AttributeError on every nonempty population. -/
theorem c84_explicit_n_survive_unusable (scalars : Fin m → List (Vec n) → R → List ℝ) (sort : List (Vec m) → List (List Nat))
    (hsort : ∀ fit, IsFrontSort (IndDominates fit) fit.length (sort fit)) (solve : List (Vec m) → Option (Vec m)) (rnd : NicheRand)
    (refDirs : List (Vec m)) (size k : Nat) (st : IopisNsga m) (fitness : List (Vec n)) (ref : R) (hf : fitness ≠ []) :
    (iopisNsgaDo scalars sort solve rnd refDirs (nSurviveAttr (some k) size) st fitness ref).1 = .error .attributeError := by
  have hlen : (scalarise scalars fitness ref).length = fitness.length := by simp [scalarise]
  have hne : scalarise scalars fitness ref ≠ [] := by
    intro e; rw [e] at hlen; exact hf (List.length_eq_zero_iff.1 hlen.symm)
  obtain ⟨fmin, hc⟩ := colMin_total _ hne
  unfold iopisNsgaDo
  simp only [hc]
  exact c33_explicit_n_survive_unusable sort solve rnd refDirs size k _ _ hne (hsort _)

/-- Non-vacuity: two scalarisations (each objective less the reference point) of three individuals. -/
example (rnd : NicheRand) (hsh : ∀ t l, (rnd.shuffle t l).Perm l) : ∃ sel st',
    iopisNsgaDo (m := 2) (fun i (fs : List (Vec 2)) (r : Vec 2) => fs.map (fun f => f i - r i))
      (fun fit => peelFronts (indDom fit) fit.length (List.range fit.length)) (fun _ => none) rnd [![1, 0], ![0, 1]] (nSurviveAttr none 2) IopisNsga.init
      [![1, 3], ![3, 1], ![4, 4]] ![1, 1] = (.ok sel, st') ∧ sel.length = 2 := by
  obtain ⟨sel, st', -, h1, -, -, h2, -⟩ := c84_size_and_elitism (m := 2) (fun i (fs : List (Vec 2)) (r : Vec 2) => fs.map (fun f => f i - r i))
    (fun fit => peelFronts (indDom fit) fit.length (List.range fit.length)) c34_sort_contract_satisfiable (fun _ => none) rnd hsh [![1, 0], ![0, 1]]
    (by simp) 2 IopisNsga.init [![1, 3], ![3, 1], ![4, 4]] ![1, 1] (by simp) (by simp) (by simp)
  exact ⟨sel, st', h1, h2⟩

end Verif.Props
