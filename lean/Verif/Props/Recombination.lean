import Verif.Proofs.Recombination

/-!
# Properties C40–C43: variation operators and initial designs
-/

namespace Verif.Props
open Verif Verif.Spec

variable {n : Nat}

/-! ## C40: simulated binary crossover -/

/-- C40. `do` with valid ids returns one child per id, one more if their number is odd; consecutive ids are crossed,
the last one of an odd list with the first; gene by gene the two children have the sum of the parents (so they are
symmetric about the parents' midpoint), and where the third draw exceeds `ProC` they are the parents themselves. -/
theorem c40_sbx_pairs_and_sums (proC disC : ℝ) (shuffle : List Nat → List Nat) (rand : Nat → SbxDraw n)
    (pop : List (Row n)) (ids : List Nat) (hids : ∀ k ∈ ids, k < pop.length) :
    ∃ off, sbxDo proC disC shuffle rand pop (some ids) = .ok off ∧ off.length = ids.length + ids.length % 2 ∧
    ∀ j, 2 * j < ids.length → ∃ (p q : Nat) (a b c d : Row n),
      ids[2 * j]? = some p ∧ partner ids (2 * j) = some q ∧ pop[p]? = some a ∧ pop[q]? = some b ∧
      off[2 * j]? = some c ∧ off[2 * j + 1]? = some d ∧
      ∀ i x y, a i = some x → b i = some y → ∃ x' y', c i = some x' ∧ d i = some y' ∧ x' + y' = x + y ∧
        (proC < (rand j).u i → x' = x ∧ y' = y) := by
  obtain ⟨off, hoff⟩ := sbxDo_total proC disC shuffle rand pop (some ids) hids
  obtain ⟨h1, h2⟩ := sbxDo_spec _ _ _ _ _ _ _ hoff
  refine ⟨off, hoff, h1, ?_⟩
  intro j hj
  obtain ⟨p, q, a, b, e1, e2, e3, e4, e5, e6⟩ := h2 j hj
  refine ⟨p, q, a, b, _, _, e1, e2, e3, e4, e5, e6, ?_⟩
  intro i x y hx hy
  simp only [hx, hy, sbxFirst, sbxSecond]
  refine ⟨_, _, rfl, rfl, by ring, ?_⟩
  intro hu
  simp only [sbxBeta, if_pos hu]
  constructor <;> ring

/-- C40. Where SBX acts (third draw at most `ProC`), the distance of the children is the distance of the parents times
the spread factor: at most it when the first draw is at most one half, at least it otherwise. -/
theorem c40_sbx_spread (proC disC : ℝ) (hd : 0 ≤ disC) (shuffle : List Nat → List Nat) (rand : Nat → SbxDraw n)
    (pop : List (Row n)) (ids : List Nat) (hids : ∀ k ∈ ids, k < pop.length) (j : Nat) (hj : 2 * j < ids.length)
    (off : List (Row n)) (hoff : sbxDo proC disC shuffle rand pop (some ids) = .ok off)
    (p q : Nat) (a b c d : Row n) (hp : ids[2 * j]? = some p) (hq : partner ids (2 * j) = some q)
    (ha : pop[p]? = some a) (hb : pop[q]? = some b) (hc : off[2 * j]? = some c) (hd' : off[2 * j + 1]? = some d)
    (i : Fin n) (x y x' y' : ℝ) (hx : a i = some x) (hy : b i = some y) (hx' : c i = some x') (hy' : d i = some y')
    (hm0 : 0 ≤ (rand j).miu i) (hm1 : (rand j).miu i < 1) (hu : (rand j).u i ≤ proC) :
    ((rand j).miu i ≤ 1 / 2 → |x' - y'| ≤ |x - y|) ∧ (1 / 2 < (rand j).miu i → |x - y| ≤ |x' - y'|) := by
  obtain ⟨-, h2⟩ := sbxDo_spec _ _ _ _ _ _ _ hoff
  obtain ⟨p', q', a', b', e1, e2, e3, e4, e5, e6⟩ := h2 j hj
  simp only [matingIds] at e1 e2
  rw [hp] at e1; cases e1
  rw [hq] at e2; cases e2
  rw [ha] at e3; cases e3
  rw [hb] at e4; cases e4
  rw [hc] at e5; cases e5
  rw [hd'] at e6; cases e6
  simp only [hx, hy, sbxFirst, sbxSecond, Option.some.injEq] at hx' hy'
  have hdiff : |x' - y'| = |sbxBeta proC disC ((rand j).miu i) ((rand j).flip i) ((rand j).u i)| * |x - y| := by
    rw [← hx', ← hy', ← abs_mul]; congr 1; ring
  have hbeta : |sbxBeta proC disC ((rand j).miu i) ((rand j).flip i) ((rand j).u i)| =
      |if (rand j).miu i ≤ 1 / 2 then (2 * (rand j).miu i) ^ (1 / (disC + 1))
        else (2 - 2 * (rand j).miu i) ^ (-1 / (disC + 1))| := by
    simp only [sbxBeta, if_neg (not_lt.2 hu)]
    cases (rand j).flip i <;> simp
  rw [hdiff, hbeta]
  have hpos : (0 : ℝ) < 1 / (disC + 1) := by positivity
  constructor
  · intro hm
    rw [if_pos hm, abs_of_nonneg (Real.rpow_nonneg (by linarith) _)]
    have : (2 * (rand j).miu i) ^ (1 / (disC + 1)) ≤ 1 := Real.rpow_le_one (by linarith) (by linarith) hpos.le
    nlinarith [abs_nonneg (x - y)]
  · intro hm
    rw [if_neg (not_le.2 hm), abs_of_nonneg (Real.rpow_nonneg (by linarith) _)]
    have : 1 ≤ (2 - 2 * (rand j).miu i) ^ (-1 / (disC + 1)) := by
      apply Real.one_le_rpow_of_pos_of_le_one_of_nonpos (by linarith) (by linarith)
      rw [neg_div]; linarith
    nlinarith [abs_nonneg (x - y)]

/-- C40. Without ids the operator works on a permutation of all individuals: everyone takes part exactly once (the
first of the shuffle twice if their number is odd). -/
theorem c40_sbx_whole_population (proC disC : ℝ) (shuffle : List Nat → List Nat) (hs : ∀ l, (shuffle l).Perm l)
    (rand : Nat → SbxDraw n) (pop : List (Row n)) :
    ∃ ids : List Nat, ids.Perm (List.range pop.length) ∧
      sbxDo proC disC shuffle rand pop none = sbxDo proC disC shuffle rand pop (some ids) ∧
      ∃ off, sbxDo proC disC shuffle rand pop none = .ok off ∧ off.length = pop.length + pop.length % 2 := by
  have hperm := hs (List.range pop.length)
  refine ⟨shuffle (List.range pop.length), hperm, rfl, ?_⟩
  obtain ⟨off, hoff⟩ := sbxDo_total proC disC shuffle rand pop none
    (fun k hk => List.mem_range.1 (hperm.mem_iff.1 hk))
  refine ⟨off, hoff, ?_⟩
  have := (sbxDo_spec _ _ _ _ _ _ _ hoff).1
  simpa [matingIds, hperm.length_eq] using this

/-- C40. An id that is not an individual raises IndexError. -/
theorem c40_sbx_bad_id_raises (proC disC : ℝ) (shuffle : List Nat → List Nat) (rand : Nat → SbxDraw n)
    (pop : List (Row n)) (ids : List Nat) (h : ∃ k ∈ ids, pop.length ≤ k) :
    sbxDo proC disC shuffle rand pop (some ids) = .error .indexError := sbxDo_error _ _ _ _ _ _ h

/-- Non-vacuity: three individuals of two variables, ids 2, 0, 1. -/
example : ∀ k ∈ [2, 0, 1], k < ([fun _ => some 0, fun _ => some 1, fun _ => some 2] : List (Row 2)).length := by decide

example : partner [2, 0, 1] 2 = some 2 ∧ partner [2, 0, 1] 0 = some 0 := by decide

/-! ## C41: bounded polynomial mutation -/

theorem root_bounds (t z : ℝ) (d : Nat) (ht0 : 0 ≤ t) (ht1 : t ≤ 1) (hz0 : 0 ≤ z) (hz1 : z ≤ 1) :
    ∃ r, npRoot (t + (1 - t) * z ^ (d + 1)) d = some r ∧ z ≤ r ∧ r ≤ 1 := by
  have hzn : 0 ≤ z ^ (d + 1) := pow_nonneg hz0 _
  have hz1' : z ^ (d + 1) ≤ 1 := pow_le_one₀ hz0 hz1
  have h0 : 0 ≤ t + (1 - t) * z ^ (d + 1) := by nlinarith
  have h1 : t + (1 - t) * z ^ (d + 1) ≤ 1 := by nlinarith
  have h2 : z ^ (d + 1) ≤ t + (1 - t) * z ^ (d + 1) := by nlinarith
  have hpos : (0 : ℝ) ≤ 1 / ((d : ℝ) + 1) := by positivity
  refine ⟨_, by unfold npRoot; rw [if_neg (not_lt.2 h0)], ?_, Real.rpow_le_one h0 h1 hpos⟩
  have := Real.rpow_le_rpow hzn h2 hpos
  have e : (z ^ (d + 1)) ^ ((1 : ℝ) / ((d : ℝ) + 1)) = z := by
    rw [← Real.rpow_natCast z (d + 1), ← Real.rpow_mul hz0]
    push_cast
    rw [mul_one_div_cancel (by positivity), Real.rpow_one]
  rw [e] at this
  exact this

/-- C41. A value inside the bounds is mutated to a value inside the bounds, before any clipping, for every draw. -/
theorem c41_mutation_stays_inside_unclipped (proM : ℝ) (d : Nat) (lo hi k miu x : ℝ) (hlt : lo < hi) (hx0 : lo ≤ x)
    (hx1 : x ≤ hi) (hm0 : 0 ≤ miu) (hm1 : miu < 1) :
    ∃ v, bpRaw proM d lo hi k miu (some x) = some v ∧ lo ≤ v ∧ v ≤ hi := by
  have hw : 0 < hi - lo := by linarith
  have hy0 : 0 ≤ (x - lo) / (hi - lo) := div_nonneg (by linarith) hw.le
  have hy1 : (x - lo) / (hi - lo) ≤ 1 := by rw [div_le_one hw]; linarith
  have hxy : (hi - lo) * ((x - lo) / (hi - lo)) = x - lo := by field_simp
  simp only [bpRaw]
  generalize (x - lo) / (hi - lo) = y at *
  by_cases hk : k ≤ proM
  · by_cases hm : miu < 1 / 2
    · obtain ⟨r, hr, h1, h2⟩ := root_bounds (2 * miu) (1 - y) d (by linarith) (by linarith) (by linarith) (by linarith)
      simp only [hk, hm, true_and, if_true, not_le.2 hm, if_false, hr, Option.map_some]
      refine ⟨_, rfl, ?_, ?_⟩ <;> nlinarith
    · obtain ⟨r, hr, h1, h2⟩ := root_bounds (2 * (1 - miu)) y d (by linarith) (by linarith) hy0 hy1
      have e : 2 * (1 - miu) + 2 * (miu - 1 / 2) * y ^ (d + 1) = 2 * (1 - miu) + (1 - 2 * (1 - miu)) * y ^ (d + 1) := by
        ring
      simp only [hk, hm, true_and, if_true, not_lt.1 hm, if_false, e, hr, Option.bind_some, Option.map_some]
      refine ⟨_, rfl, ?_, ?_⟩ <;> nlinarith
  · simp only [hk, false_and, if_false]
    exact ⟨x, rfl, hx0, hx1⟩

theorem clipGene_inside (lo hi : ℝ) (h : lo ≤ hi) (x : Option ℝ) (v : ℝ) (hv : clipGene lo hi x = some v) :
    lo ≤ v ∧ v ≤ hi := by
  cases x with
  | none => simp [clipGene] at hv
  | some x =>
    simp only [clipGene] at hv
    split at hv
    · split at hv
      · cases hv; exact ⟨le_refl _, h⟩
      · cases hv; rename_i h1 h2; exact ⟨not_lt.1 h2, le_refl _⟩
    · split at hv
      · cases hv; exact ⟨le_refl _, h⟩
      · cases hv; rename_i h1 h2; exact ⟨not_lt.1 h2, not_lt.1 h1⟩

theorem clipGene_of_inside (lo hi x : ℝ) (h0 : lo ≤ x) (h1 : x ≤ hi) : clipGene lo hi (some x) = some x := by
  simp [clipGene, not_lt.2 h0, not_lt.2 h1]

theorem bpDo_get (proM : ℝ) (d : Nat) (lo hi : Fin n → ℝ) (k miu : Nat → Fin n → ℝ) (off : List (Row n)) (j : Nat) :
    (bpDo proM d lo hi k miu off)[j]? = (off[j]?).map (fun x i =>
      clipGene (lo i) (hi i) (bpRaw proM d (lo i) (hi i) (k j i) (miu j i) (x i))) := by
  simp [bpDo]

/-- C41. Whatever the operator is given, every component of its result that is a number is inside the bounds, and it
returns as many rows as it got. -/
theorem c41_result_within_bounds (proM : ℝ) (d : Nat) (lo hi : Fin n → ℝ) (hb : ∀ i, lo i ≤ hi i)
    (k miu : Nat → Fin n → ℝ) (off : List (Row n)) :
    (bpDo proM d lo hi k miu off).length = off.length ∧ ∀ x ∈ bpDo proM d lo hi k miu off, InBox lo hi x := by
  refine ⟨by simp [bpDo], ?_⟩
  intro x hx i v hv
  obtain ⟨j, hj⟩ := List.mem_iff_getElem?.1 hx
  rw [bpDo_get] at hj
  cases ho : off[j]? with
  | none => simp [ho] at hj
  | some y =>
    simp only [ho, Option.map_some, Option.some.injEq] at hj
    subst hj
    exact clipGene_inside _ _ (hb i) _ _ hv

/-- C41. For offspring inside the bounds no component of the result is NaN: the result is a vector of numbers inside
the bounds. -/
theorem c41_inside_gives_numbers_inside (proM : ℝ) (d : Nat) (lo hi : Fin n → ℝ) (hb : ∀ i, lo i < hi i)
    (k miu : Nat → Fin n → ℝ) (hm : ∀ j i, 0 ≤ miu j i ∧ miu j i < 1) (off : List (Row n))
    (hin : ∀ x ∈ off, InBox lo hi x ∧ AllNumbers x) :
    ∀ x ∈ bpDo proM d lo hi k miu off, InBox lo hi x ∧ AllNumbers x := by
  intro x hx
  refine ⟨(c41_result_within_bounds proM d lo hi (fun i => (hb i).le) k miu off).2 x hx, ?_⟩
  obtain ⟨j, hj⟩ := List.mem_iff_getElem?.1 hx
  rw [bpDo_get] at hj
  cases ho : off[j]? with
  | none => simp [ho] at hj
  | some y =>
    simp only [ho, Option.map_some, Option.some.injEq] at hj
    subst hj
    intro i
    obtain ⟨h1, h2⟩ := hin y (List.mem_of_getElem? ho)
    obtain ⟨w, hw⟩ := h2 i
    obtain ⟨v, e1, e2, e3⟩ := c41_mutation_stays_inside_unclipped proM d (lo i) (hi i) (k j i) (miu j i) w (hb i)
      (h1 i w hw).1 (h1 i w hw).2 (hm j i).1 (hm j i).2
    refine ⟨v, ?_⟩
    show clipGene (lo i) (hi i) (bpRaw proM d (lo i) (hi i) (k j i) (miu j i) (y i)) = some v
    rw [hw, e1, clipGene_of_inside _ _ _ e2 e3]

/-- C41. A component that is inside the bounds and not chosen for mutation is unchanged. -/
theorem c41_unchosen_unchanged (proM : ℝ) (d : Nat) (lo hi : Fin n → ℝ) (k miu : Nat → Fin n → ℝ) (off : List (Row n))
    (j : Nat) (x : Row n) (i : Fin n) (v : ℝ) (hx : off[j]? = some x) (hv : x i = some v) (h0 : lo i ≤ v) (h1 : v ≤ hi i)
    (hk : proM < k j i) : ∃ x', (bpDo proM d lo hi k miu off)[j]? = some x' ∧ x' i = some v := by
  refine ⟨_, by rw [bpDo_get, hx]; rfl, ?_⟩
  simp only [hv]
  have : bpRaw proM d (lo i) (hi i) (k j i) (miu j i) (some v) = some v := by
    simp [bpRaw, not_le.2 hk]
  rw [this, clipGene_of_inside _ _ _ h0 h1]

/-- C41, where the operator falls short: an offspring value *outside* the bounds (as SBX produces them) can be mutated
to NaN, which the clipping does not remove: 1.5 in the box from 0 to 1, first draw 0, second draw 0. -/
theorem c41_outside_value_can_become_nan : ∃ (proM lo hi k miu x : ℝ), 0 < proM ∧ lo < hi ∧ 0 ≤ k ∧ k < 1 ∧ 0 ≤ miu ∧
    miu < 1 ∧ clipGene lo hi (bpRaw proM 20 lo hi k miu (some x)) = none := by
  refine ⟨1, 0, 1, 0, 0, 3 / 2, by norm_num, by norm_num, by norm_num, by norm_num, by norm_num, by norm_num, ?_⟩
  have : bpRaw 1 20 0 1 0 0 (some (3 / 2)) = none := by
    unfold bpRaw npRoot
    norm_num
  rw [this]; rfl

/-- Non-vacuity: bounds 0 < 1 and a row inside. -/
example : (∀ _ : Fin 2, (0 : ℝ) < 1) ∧ (∀ x ∈ [(fun _ => some (1 / 2) : Row 2)], InBox (fun _ => 0) (fun _ => 1) x ∧ AllNumbers x) := by
  refine ⟨fun _ => by norm_num, ?_⟩
  intro x hx
  simp at hx
  subst hx
  exact ⟨fun i v hv => by simp at hv; subst hv; norm_num, fun i => ⟨_, rfl⟩⟩

/-! ## C42: single point crossover and mutation -/

/-- C42. Single point crossover of two genomes of the same length keeps both heads and exchanges the tails. -/
theorem c42_crossover_exchanges_tails {α : Type} (point : Nat) (a b : List α) (hl : a.length = b.length)
    (h0 : 0 < a.length) :
    ∃ c d, spCrossover point a b = .ok (c, d) ∧ c.length = a.length ∧ d.length = a.length ∧
      ∀ i : Nat, (i < point → c[i]? = a[i]? ∧ d[i]? = b[i]?) ∧ (point ≤ i → c[i]? = b[i]? ∧ d[i]? = a[i]?) := by
  refine ⟨a.take point ++ b.drop point, b.take point ++ a.drop point, ?_, ?_, ?_, ?_⟩
  · unfold spCrossover
    rw [if_neg (by simpa using hl), if_neg (by omega)]
  · simp only [List.length_append, List.length_take, List.length_drop]; omega
  · simp only [List.length_append, List.length_take, List.length_drop]; omega
  · have key : ∀ (a b : List α), a.length = b.length → ∀ i : Nat,
        (i < point → (a.take point ++ b.drop point)[i]? = a[i]?) ∧
        (point ≤ i → (a.take point ++ b.drop point)[i]? = b[i]?) := by
      intro a b hl i
      constructor
      · intro hi
        by_cases hia : i < a.length
        · rw [List.getElem?_append_left (by simp; omega), List.getElem?_take, if_pos hi]
        · rw [List.getElem?_append_right (by simp; omega), List.getElem?_drop,
            List.getElem?_eq_none (by simp; omega), List.getElem?_eq_none (by omega)]
      · intro hi
        by_cases hp : point ≤ a.length
        · rw [List.getElem?_append_right (by simp; omega), List.getElem?_drop]
          congr 1
          simp
          omega
        · rw [List.getElem?_append_right (by simp; omega), List.getElem?_drop,
            List.getElem?_eq_none (by simp; omega), List.getElem?_eq_none (by omega)]
    intro i
    obtain ⟨h1, h2⟩ := key a b hl i
    obtain ⟨h3, h4⟩ := key b a hl.symm i
    exact ⟨fun h => ⟨h1 h, h3 h⟩, fun h => ⟨h2 h, h4 h⟩⟩

/-- C42. Genomes of different length raise AssertionError. -/
theorem c42_crossover_length_mismatch_raises {α : Type} (point : Nat) (a b : List α) (h : a.length ≠ b.length) :
    spCrossover point a b = .error .assertionError := by
  unfold spCrossover; rw [if_pos h]

/-- The children of consecutive rows. -/
def spKids {α : Type} (point : Nat → Nat) : Nat → List (List α) → List (List α)
  | k, a :: b :: rest =>
    (a.take (point k) ++ b.drop (point k)) :: (b.take (point k) ++ a.drop (point k)) :: spKids point (k + 1) rest
  | _, _ => []

theorem spPairs_eq {α : Type} (rnd : α → α) (point : Nat → Nat) (L : Nat) (hL : 0 < L) (k : Nat)
    (rows acc : List (List α)) (hlen : ∀ r ∈ rows, r.length = L) (hr : ∀ r ∈ rows, ∀ g ∈ r, rnd g = g)
    (ha : ∀ r ∈ acc, ∀ g ∈ r, rnd g = g) :
    spPairs rnd point k rows acc = .ok (acc ++ spKids point k rows) := by
  fun_induction spKids point k rows generalizing acc with
  | case1 k a b rest ih =>
    have la := hlen a (by simp)
    have lb := hlen b (by simp)
    have hc : spCrossover (point k) a b = .ok (a.take (point k) ++ b.drop (point k), b.take (point k) ++ a.drop (point k)) := by
      unfold spCrossover
      rw [if_neg (by simp [la, lb]), if_neg (by omega)]
    have hfix : ∀ r ∈ acc ++ [a.take (point k) ++ b.drop (point k), b.take (point k) ++ a.drop (point k)],
        ∀ g ∈ r, rnd g = g := by
      intro r hr' g hg
      rcases List.mem_append.1 hr' with h | h
      · exact ha r h g hg
      · simp only [List.mem_cons, List.not_mem_nil, or_false] at h
        have hra := hr a (by simp)
        have hrb := hr b (by simp)
        rcases h with rfl | rfl
        · rcases List.mem_append.1 hg with h | h
          · exact hra g (List.mem_of_mem_take h)
          · exact hrb g (List.mem_of_mem_drop h)
        · rcases List.mem_append.1 hg with h | h
          · exact hrb g (List.mem_of_mem_take h)
          · exact hra g (List.mem_of_mem_drop h)
    have hmap : (acc ++ [a.take (point k) ++ b.drop (point k), b.take (point k) ++ a.drop (point k)]).map (List.map rnd)
        = acc ++ [a.take (point k) ++ b.drop (point k), b.take (point k) ++ a.drop (point k)] := by
      conv_rhs => rw [← List.map_id (acc ++ _)]
      apply List.map_congr_left
      intro r hr'
      show r.map rnd = r
      conv_rhs => rw [← List.map_id r]
      exact List.map_congr_left (fun g hg => hfix r hr' g hg)
    simp only [spPairs, hc, hmap]
    rw [ih _ (fun r h => hlen r (by simp [h])) (fun r h => hr r (by simp [h])) hfix]
    simp
  | case2 rows k h =>
    match rows, h with
    | [], _ => simp [spPairs]
    | [a], _ => simp [spPairs]
    | a :: b :: rest, h => exact absurd rfl (h a b rest)

theorem spKids_length {α : Type} (point : Nat → Nat) (k : Nat) (rows : List (List α)) :
    (spKids point k rows).length = 2 * (rows.length / 2) := by
  fun_induction spKids point k rows with
  | case1 k a b rest ih => simp only [List.length_cons, ih]; omega
  | case2 rows k h =>
    match rows, h with
    | [], _ => simp
    | [a], _ => simp
    | a :: b :: rest, h => exact absurd rfl (h a b rest)

theorem spKids_get {α : Type} (point : Nat → Nat) (k : Nat) (rows : List (List α)) (j : Nat) (a b : List α)
    (ha : rows[2 * j]? = some a) (hb : rows[2 * j + 1]? = some b) :
    (spKids point k rows)[2 * j]? = some (a.take (point (k + j)) ++ b.drop (point (k + j))) ∧
    (spKids point k rows)[2 * j + 1]? = some (b.take (point (k + j)) ++ a.drop (point (k + j))) := by
  fun_induction spKids point k rows generalizing j with
  | case1 k x y rest ih =>
    cases j with
    | zero =>
      simp at ha hb
      subst ha hb
      simp
    | succ j =>
      have e1 : 2 * (j + 1) = 2 * j + 1 + 1 := by ring
      rw [e1] at ha hb ⊢
      simp only [List.getElem?_cons_succ] at ha hb ⊢
      have := ih j ha hb
      rw [show k + 1 + j = k + (j + 1) by ring] at this
      exact this
  | case2 rows k h =>
    match rows, h with
    | [], _ => simp at ha
    | [a], _ => simp at hb
    | a :: b :: rest, h => exact absurd rfl (h a b rest)

/-- C42. `do` on genomes of one length whose genes rounding leaves alone (integers, in particular bits): consecutive
ids are crossed (the last of an odd list with the first) at the drawn points, one child per id (one more if odd). -/
theorem c42_do_crosses_consecutive_pairs {α : Type} (rnd : α → α) (shuffle : List Nat → List Nat) (point : Nat → Nat)
    (L : Nat) (hL : 0 < L) (pop : List (List α)) (hlen : ∀ r ∈ pop, r.length = L)
    (hr : ∀ r ∈ pop, ∀ g ∈ r, rnd g = g) (ids : List Nat) (hids : ∀ k ∈ ids, k < pop.length) :
    ∃ off, spDo rnd shuffle point pop (some ids) = .ok off ∧ off.length = ids.length + ids.length % 2 ∧
    ∀ j, 2 * j < ids.length → ∃ (p q : Nat) (a b c d : List α),
      ids[2 * j]? = some p ∧ partner ids (2 * j) = some q ∧ pop[p]? = some a ∧ pop[q]? = some b ∧
      off[2 * j]? = some c ∧ off[2 * j + 1]? = some d ∧ c.length = L ∧ d.length = L ∧
      ∀ i : Nat, (i < point j → c[i]? = a[i]? ∧ d[i]? = b[i]?) ∧ (point j ≤ i → c[i]? = b[i]? ∧ d[i]? = a[i]?) := by
  obtain ⟨rows, hrows⟩ := takeRows_total pop ids hids
  obtain ⟨t1, t2, t3⟩ := takeRows_spec _ _ _ hrows
  have hmem : ∀ r ∈ rows, r ∈ pop := by
    intro r hr'
    obtain ⟨j, hj⟩ := List.mem_iff_getElem?.1 hr'
    have hjl : j < ids.length := by rw [← t1]; exact (List.getElem?_eq_some_iff.1 hj).1
    have := t3 j ids[j] (by simp [hjl])
    rw [hj] at this
    exact List.mem_of_getElem? this.symm
  have hmem2 : ∀ r ∈ closePairs rows, r ∈ pop := by
    intro r hr'
    unfold closePairs at hr'
    split at hr'
    · rcases List.mem_append.1 hr' with h | h
      · exact hmem r h
      · exact hmem r (List.mem_of_mem_take h)
    · exact hmem r hr'
  have hdo : spDo rnd shuffle point pop (some ids) = .ok (spKids point 0 (closePairs rows)) := by
    unfold spDo matingIds
    rw [hrows]
    simp only
    rw [spPairs_eq rnd point L hL 0 _ [] (fun r h => hlen r (hmem2 r h)) (fun r h => hr r (hmem2 r h)) (by simp)]
    simp
  refine ⟨_, hdo, ?_, ?_⟩
  · rw [spKids_length, closePairs_length, t1]; omega
  · intro j hj
    have hp : ids[2 * j]? = some ids[2 * j] := by simp [hj]
    generalize ids[2 * j] = p at hp
    obtain ⟨q, hq⟩ : ∃ q, partner ids (2 * j) = some q := by
      unfold partner
      split
      · rename_i h1; exact ⟨ids[2 * j + 1], by simp [h1]⟩
      · exact ⟨ids[0]'(by omega), by simp⟩
    have hpl := hids p (List.mem_of_getElem? hp)
    have hql : q < pop.length := by
      unfold partner at hq
      split at hq
      · exact hids q (List.mem_of_getElem? hq)
      · exact hids q (List.mem_of_getElem? hq)
    have ea : pop[p]? = some pop[p] := by simp [hpl]
    have eb : pop[q]? = some pop[q] := by simp [hql]
    have la : pop[p].length = L := hlen _ (List.getElem_mem _)
    have lb : pop[q].length = L := hlen _ (List.getElem_mem _)
    have hra : (closePairs rows)[2 * j]? = some pop[p] := by
      rw [closePairs_get _ _ (by omega), t3 _ _ hp, ea]
    have hrb : (closePairs rows)[2 * j + 1]? = some pop[q] := by
      rw [closePairs_last _ _ (by omega) (by omega), t1]
      unfold partner at hq
      split at hq
      · rename_i h1
        rw [if_pos h1, t3 _ _ hq, eb]
      · rename_i h1
        rw [if_neg h1, t3 _ _ hq, eb]
    obtain ⟨g1, g2⟩ := spKids_get point 0 (closePairs rows) j _ _ hra hrb
    rw [Nat.zero_add] at g1 g2
    obtain ⟨c, d, hc, lc, ld, hcd⟩ := c42_crossover_exchanges_tails (point j) pop[p] pop[q] (by rw [la, lb]) (by omega)
    unfold spCrossover at hc
    rw [if_neg (by simp [la, lb]), if_neg (by omega)] at hc
    simp only [Except.ok.injEq, Prod.mk.injEq] at hc
    rw [hc.1] at g1
    rw [hc.2] at g2
    exact ⟨p, q, _, _, c, d, hp, hq, ea, eb, g1, g2, by omega, by omega, hcd⟩

/-- A genome of zeros and ones. -/
def IsBinary {α : Type} [Zero α] [One α] (row : List α) : Prop := ∀ g ∈ row, g = 0 ∨ g = 1

/-- C42. Binary parents have binary children. -/
theorem c42_crossover_keeps_binary {α : Type} [Zero α] [One α] (rnd : α → α) (h0 : rnd 0 = 0) (h1 : rnd 1 = 1)
    (shuffle : List Nat → List Nat) (point : Nat → Nat) (L : Nat) (hL : 0 < L) (pop : List (List α))
    (hlen : ∀ r ∈ pop, r.length = L) (hb : ∀ r ∈ pop, IsBinary r) (ids : List Nat) (hids : ∀ k ∈ ids, k < pop.length) :
    ∃ off, spDo rnd shuffle point pop (some ids) = .ok off ∧ ∀ r ∈ off, IsBinary r ∧ r.length = L := by
  obtain ⟨off, h2, h3, h4⟩ := c42_do_crosses_consecutive_pairs rnd shuffle point L hL pop hlen
    (fun r hr g hg => by rcases hb r hr g hg with rfl | rfl <;> assumption) ids hids
  refine ⟨off, h2, ?_⟩
  intro r hr
  obtain ⟨t, ht⟩ := List.mem_iff_getElem?.1 hr
  have htl := (List.getElem?_eq_some_iff.1 ht).1
  obtain ⟨p, q, a, b, c, d, -, -, ha, hb', hc, hd, lc, ld, hcd⟩ := h4 (t / 2) (by omega)
  have hba := hb a (List.mem_of_getElem? ha)
  have hbb := hb b (List.mem_of_getElem? hb')
  have hget : ∀ (x y z : List α) (pt : Nat), IsBinary x → IsBinary y →
      (∀ i : Nat, (i < pt → z[i]? = x[i]?) ∧ (pt ≤ i → z[i]? = y[i]?)) → IsBinary z := by
    intro x y z pt hx hy hz g hg
    obtain ⟨i, hi⟩ := List.mem_iff_getElem?.1 hg
    by_cases hip : i < pt
    · rw [(hz i).1 hip] at hi
      exact hx g (List.mem_of_getElem? hi)
    · rw [(hz i).2 (by omega)] at hi
      exact hy g (List.mem_of_getElem? hi)
  have hcase : t = 2 * (t / 2) ∨ t = 2 * (t / 2) + 1 := by omega
  rcases hcase with e | e
  · rw [e, hc] at ht; cases ht
    exact ⟨hget a b _ (point (t / 2)) hba hbb (fun i => ⟨fun h => ((hcd i).1 h).1, fun h => ((hcd i).2 h).1⟩), lc⟩
  · rw [e, hd] at ht; cases ht
    exact ⟨hget b a _ (point (t / 2)) hbb hba (fun i => ⟨fun h => ((hcd i).1 h).2, fun h => ((hcd i).2 h).2⟩), ld⟩

theorem flipGene_get {α : Type} [One α] [Sub α] (k : Nat) (row : List α) (i : Nat) :
    (flipGene k row)[i]? = if i = k then (row[i]?).map (fun x => 1 - x) else row[i]? := by
  unfold flipGene
  rw [List.getElem?_modify]
  by_cases h : k = i
  · subst h; simp
  · rw [if_neg (fun e => h e.symm)]
    simp [h]

/-- C42. Mutation replaces exactly the drawn gene `x` of each row by `1 - x`. -/
theorem c42_mutation_changes_one_gene {α : Type} [One α] [Sub α] (k : Nat → Nat) (off : List (List α)) (j : Nat)
    (row : List α) (h : off[j]? = some row) :
    (spMutate k off).length = off.length ∧ ∃ row', (spMutate k off)[j]? = some row' ∧ row'.length = row.length ∧
      (∀ x, row[k j]? = some x → row'[k j]? = some (1 - x)) ∧ ∀ i : Nat, i ≠ k j → row'[i]? = row[i]? := by
  refine ⟨by simp [spMutate], flipGene (k j) row, by simp [spMutate, h], by simp [flipGene], ?_, ?_⟩
  · intro x hx
    rw [flipGene_get, if_pos rfl, hx]; rfl
  · intro i hi
    rw [flipGene_get, if_neg hi]

/-- C42. The same mutation twice restores the offspring. -/
theorem c42_mutation_twice_is_identity {α : Type} [Ring α] (k : Nat → Nat) (off : List (List α)) :
    spMutate k (spMutate k off) = off := by
  apply List.ext_getElem?
  intro j
  simp only [spMutate, List.getElem?_mapIdx, Option.map_map]
  cases off[j]? with
  | none => rfl
  | some row =>
    simp only [Option.map_some, Function.comp_apply, Option.some.injEq]
    apply List.ext_getElem?
    intro i
    rw [flipGene_get, flipGene_get]
    by_cases h : i = k j
    · simp only [h, if_true]
      cases row[k j]? <;> simp
    · simp [h]

/-- C42. Mutation keeps binary genomes binary. -/
theorem c42_mutation_keeps_binary {α : Type} [Ring α] (k : Nat → Nat) (off : List (List α))
    (h : ∀ r ∈ off, IsBinary r) : ∀ r ∈ spMutate k off, IsBinary r := by
  intro r hr g hg
  obtain ⟨j, hj⟩ := List.mem_iff_getElem?.1 hr
  rw [spMutate, List.getElem?_mapIdx] at hj
  cases hrow : off[j]? with
  | none => simp [hrow] at hj
  | some row =>
    simp only [hrow, Option.map_some, Option.some.injEq] at hj
    subst hj
    have hb := h row (List.mem_of_getElem? hrow)
    obtain ⟨i, hi⟩ := List.mem_iff_getElem?.1 hg
    rw [flipGene_get] at hi
    split at hi
    · cases hx : row[i]? with
      | none => simp [hx] at hi
      | some x =>
        simp only [hx, Option.map_some, Option.some.injEq] at hi
        rcases hb x (List.mem_of_getElem? hx) with rfl | rfl
        · right; rw [← hi]; simp
        · left; rw [← hi]; simp
    · exact hb g (List.mem_of_getElem? hi)

/-- Non-vacuity: bits, three ids, points 1 and 2; then mutation of gene 0 in each. -/
example : (spDo (α := Int) id id (fun k => k + 1) [[0, 0, 0], [1, 1, 1]] (some [0, 1, 1])).toOption =
    some [[0, 1, 1], [1, 0, 0], [1, 1, 0], [0, 0, 1]] ∧
    spMutate (α := Int) (fun _ => 0) [[0, 1, 1], [1, 0, 0]] = [[1, 1, 1], [0, 0, 0]] := by decide +kernel

/-! ## C43: initial designs -/

/-- C43. Both box designs give exactly `pop_size` vectors, all inside the bounds, for all draws from the unit
interval. -/
theorem c43_design_within_bounds (lo hi : Fin n → ℝ) (hb : ∀ i, lo i ≤ hi i) (draw : Nat → List (Fin n → ℝ))
    (hd : ∀ k, (draw k).length = k ∧ ∀ u ∈ draw k, ∀ i, 0 ≤ u i ∧ u i < 1) (nObj k : Nat) :
    ∃ rows, createBox lo hi draw nObj (some k) = .ok rows ∧ rows.length = k ∧
      ∀ r ∈ rows, ∀ i, lo i ≤ r i ∧ r i ≤ hi i := by
  refine ⟨_, rfl, by simp [scaleDesign, (hd k).1], ?_⟩
  intro r hr i
  obtain ⟨u, hu, rfl⟩ := List.mem_map.1 hr
  obtain ⟨h0, h1⟩ := (hd k).2 u hu i
  have := hb i
  constructor
  · have : 0 ≤ u i * (hi i - lo i) := mul_nonneg h0 (by linarith)
    linarith
  · have : u i * (hi i - lo i) ≤ 1 * (hi i - lo i) := mul_le_mul_of_nonneg_right h1.le (by linarith)
    linarith

/-- C43. Without `pop_size` the size comes from the table for two to ten objectives, and a larger number of objectives
raises IndexError. -/
theorem c43_default_design_size (lo hi : Fin n → ℝ) (draw : Nat → List (Fin n → ℝ))
    (hd : ∀ k, (draw k).length = k) (nObj : Nat) (h2 : 2 ≤ nObj) :
    (nObj ≤ 10 → ∃ rows, createBox lo hi draw nObj none = .ok rows ∧
      some rows.length = [50, 105, 120, 126, 132, 112, 156, 90, 275][nObj - 2]?) ∧
    (10 < nObj → createBox lo hi draw nObj none = .error .indexError) := by
  have hn : ((nObj : Int) - 2) = ((nObj - 2 : Nat) : Int) := by omega
  constructor
  · intro h10
    have hlt : nObj - 2 < ([50, 105, 120, 126, 132, 112, 156, 90, 275] : List Nat).length := by simp; omega
    have e : designPopSize nObj = .ok (([50, 105, 120, 126, 132, 112, 156, 90, 275] : List Nat)[nObj - 2]) := by
      unfold designPopSize
      have : normIdx ([50, 105, 120, 126, 132, 112, 156, 90, 275] : List Nat).length ((nObj : Int) - 2) =
          some (nObj - 2) := by
        rw [hn, normIdx_eq_some]
        exact ⟨hlt, Or.inl rfl⟩
      simp only [this, List.getElem?_eq_getElem hlt]
    refine ⟨scaleDesign lo hi (draw (([50, 105, 120, 126, 132, 112, 156, 90, 275] : List Nat)[nObj - 2])),
      by unfold createBox; simp only [e], ?_⟩
    rw [scaleDesign, List.length_map, hd, List.getElem?_eq_getElem hlt]
  · intro h10
    have : normIdx ([50, 105, 120, 126, 132, 112, 156, 90, 275] : List Nat).length ((nObj : Int) - 2) = none := by
      unfold normIdx
      simp only [List.length_cons, List.length_nil]
      rw [if_neg (by omega), if_neg (by omega)]
    unfold createBox designPopSize
    simp only [this]

/-- C43. If the unit sample is a latin hypercube of the unit cube (what `pyDOE.lhs` promises), the design is one of
the box: in every variable exactly one individual per slice. -/
theorem c43_lhs_design_is_latin (lo hi : Fin n → ℝ) (hb : ∀ i, lo i < hi i) (unit : List (Fin n → ℝ))
    (hu : IsLatin (fun _ => 0) (fun _ => 1) unit) : IsLatin lo hi (scaleDesign lo hi unit) := by
  have hslice : ∀ (i : Fin n) (N k : Nat) (v : ℝ),
      InSlice (lo i) (hi i) N k (v * (hi i - lo i) + lo i) ↔ InSlice 0 1 N k v := by
    intro i N k v
    have hw : 0 < hi i - lo i := by have := hb i; linarith
    unfold InSlice
    constructor
    · rintro ⟨h1, h2⟩
      constructor
      · have : (hi i - lo i) * ((k : ℝ) / N) ≤ (hi i - lo i) * v := by linarith
        have := le_of_mul_le_mul_left this hw
        linarith
      · have : (hi i - lo i) * v < (hi i - lo i) * (((k : ℝ) + 1) / N) := by linarith
        have := lt_of_mul_lt_mul_left this hw.le
        linarith
    · rintro ⟨h1, h2⟩
      constructor
      · have := mul_le_mul_of_nonneg_left (show (k : ℝ) / N ≤ v by linarith) hw.le
        linarith
      · have := mul_lt_mul_of_pos_left (show v < ((k : ℝ) + 1) / N by linarith) hw
        linarith
  intro i k hk
  have hl : (scaleDesign lo hi unit).length = unit.length := by simp [scaleDesign]
  rw [hl] at hk ⊢
  obtain ⟨j, r, hj, hs, huq⟩ := hu i k hk
  refine ⟨j, _, by simp [scaleDesign, hj]; rfl, (hslice i _ _ _).2 hs, ?_⟩
  intro j' r' hj' hs'
  simp only [scaleDesign, List.getElem?_map] at hj'
  cases hq : unit[j']? with
  | none => simp [hq] at hj'
  | some q =>
    simp only [hq, Option.map_some, Option.some.injEq] at hj'
    subst hj'
    exact huq j' q hq ((hslice i _ _ _).1 hs')

/-- Non-vacuity: a latin sample of the unit square with two points. -/
example : IsLatin (fun _ : Fin 2 => 0) (fun _ => 1) [![0, 3 / 4], ![1 / 2, 1 / 4]] := by
  intro i k hk
  have hk' : k = 0 ∨ k = 1 := by simp at hk; omega
  have cases2 : ∀ (j' : Nat) (r' : Fin 2 → ℝ), [![0, 3 / 4], ![1 / 2, 1 / 4]][j']? = some r' →
      (j' = 0 ∧ r' = ![0, 3 / 4]) ∨ (j' = 1 ∧ r' = ![1 / 2, 1 / 4]) := by
    intro j' r' h
    match j', h with
    | 0, h => left; exact ⟨rfl, (Option.some.inj h).symm⟩
    | 1, h => right; exact ⟨rfl, (Option.some.inj h).symm⟩
    | j + 2, h => simp at h
  fin_cases i <;> rcases hk' with rfl | rfl
  · refine ⟨0, _, rfl, by norm_num [InSlice], ?_⟩
    intro j' r' h hs
    rcases cases2 j' r' h with ⟨rfl, rfl⟩ | ⟨rfl, rfl⟩
    · rfl
    · norm_num [InSlice] at hs
  · refine ⟨1, _, rfl, by norm_num [InSlice], ?_⟩
    intro j' r' h hs
    rcases cases2 j' r' h with ⟨rfl, rfl⟩ | ⟨rfl, rfl⟩
    · norm_num [InSlice] at hs
    · rfl
  · refine ⟨1, _, rfl, by norm_num [InSlice], ?_⟩
    intro j' r' h hs
    rcases cases2 j' r' h with ⟨rfl, rfl⟩ | ⟨rfl, rfl⟩
    · norm_num [InSlice] at hs
    · rfl
  · refine ⟨0, _, rfl, by norm_num [InSlice], ?_⟩
    intro j' r' h hs
    rcases cases2 j' r' h with ⟨rfl, rfl⟩ | ⟨rfl, rfl⟩
    · rfl
    · norm_num [InSlice] at hs

end Verif.Props
