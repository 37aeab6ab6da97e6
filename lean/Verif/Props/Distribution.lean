import Verif.Spec.Distribution
import Verif.Props.Recombination

/-!
# C95: the distributions of crossover and mutation
-/

namespace Verif.Props
open Verif Verif.Spec MeasureTheory
open scoped BigOperators

variable {n : Nat}

/-! ## Simulated binary crossover -/

theorem abs_beta (proC disC u v : ℝ) (flip : Bool) (hv : v ≤ proC) (hu0 : 0 ≤ u) (hu1 : u < 1) :
    |sbxBeta proC disC u flip v| = if u ≤ 1 / 2 then (2 * u) ^ (1 / (disC + 1)) else (2 - 2 * u) ^ (-1 / (disC + 1)) := by
  have h : |sbxBeta proC disC u flip v| =
      |if u ≤ 1 / 2 then (2 * u) ^ (1 / (disC + 1)) else (2 - 2 * u) ^ (-1 / (disC + 1))| := by
    simp only [sbxBeta, if_neg (not_lt.2 hv)]
    cases flip <;> simp
  rw [h, abs_of_nonneg]
  split
  · exact Real.rpow_nonneg (by linarith) _
  · exact Real.rpow_nonneg (by linarith) _

theorem abs_beta_le_iff (proC disC u v b : ℝ) (flip : Bool) (hd : 0 ≤ disC) (hv : v ≤ proC) (hu0 : 0 ≤ u) (hu1 : u < 1) (hb0 : 0 ≤ b)
    (hb1 : b ≤ 1) : |sbxBeta proC disC u flip v| ≤ b ↔ u ≤ b ^ (disC + 1) / 2 := by
  rw [abs_beta proC disC u v flip hv hu0 hu1]
  have hpos : 0 < disC + 1 := by linarith
  have hbp : b ^ (disC + 1) ≤ 1 := Real.rpow_le_one hb0 hb1 hpos.le
  split
  · rw [one_div, Real.rpow_inv_le_iff_of_pos (by linarith) hb0 hpos]
    constructor <;> intro h <;> linarith
  · rename_i h
    have h1 : 1 < (2 - 2 * u) ^ (-1 / (disC + 1)) := by
      apply Real.one_lt_rpow_of_pos_of_lt_one_of_neg (by linarith) (by linarith)
      rw [neg_div]; have : 0 < 1 / (disC + 1) := by positivity
      linarith
    constructor
    · intro h2; linarith
    · intro h2; exfalso; linarith

theorem le_abs_beta_iff (proC disC u v b : ℝ) (flip : Bool) (hd : 0 ≤ disC) (hv : v ≤ proC) (hu0 : 0 ≤ u) (hu1 : u < 1) (hb1 : 1 ≤ b) :
    b ≤ |sbxBeta proC disC u flip v| ↔ 1 - b ^ (-(disC + 1)) / 2 ≤ u := by
  rw [abs_beta proC disC u v flip hv hu0 hu1]
  have hpos : 0 < disC + 1 := by linarith
  have hb0 : 0 < b := by linarith
  have hbp : 1 ≤ b ^ (disC + 1) := Real.one_le_rpow hb1 hpos.le
  split
  · rename_i hu
    rw [one_div, Real.le_rpow_inv_iff_of_pos hb0.le (by linarith) hpos, Real.rpow_neg hb0.le]
    generalize b ^ (disC + 1) = C at hbp
    have hC : C * C⁻¹ = 1 := mul_inv_cancel₀ (by linarith)
    have hi : C⁻¹ ≤ 1 := inv_le_one_of_one_le₀ hbp
    constructor
    · intro h
      have : C = 1 := by linarith
      subst this
      norm_num; linarith
    · intro h
      have : C⁻¹ = 1 := by linarith
      rw [this] at h hC
      linarith
  · rename_i hu
    have hw : 0 < 2 - 2 * u := by linarith
    rw [neg_div, Real.rpow_neg hw.le, le_inv_comm₀ hb0 (Real.rpow_pos_of_pos hw _), one_div,
      Real.rpow_inv_le_iff_of_pos hw.le (by positivity) hpos, Real.inv_rpow hb0.le, ← Real.rpow_neg hb0.le]
    constructor <;> intro h <;> linarith

theorem chance_initial (A : Set ℝ) (p : ℝ) (h1 : p < 1) (h : ∀ u, 0 ≤ u → u < 1 → (u ∈ A ↔ u ≤ p)) : Chance A p := by
  unfold Chance
  have : A ∩ Set.Ico 0 1 = Set.Icc 0 p := by
    ext u
    constructor
    · rintro ⟨h2, h3, h4⟩; exact ⟨h3, (h u h3 h4).1 h2⟩
    · rintro ⟨h2, h3⟩
      have : u < 1 := lt_of_le_of_lt h3 h1
      exact ⟨(h u h2 this).2 h3, h2, this⟩
  rw [this, Real.volume_Icc, sub_zero]

theorem chance_final (A : Set ℝ) (p : ℝ) (h1 : p ≤ 1) (h : ∀ u, 0 ≤ u → u < 1 → (u ∈ A ↔ 1 - p ≤ u)) : Chance A p := by
  unfold Chance
  have : A ∩ Set.Ico 0 1 = Set.Ico (1 - p) 1 := by
    ext u
    constructor
    · rintro ⟨h2, h3, h4⟩; exact ⟨(h u h3 h4).1 h2, h4⟩
    · rintro ⟨h2, h3⟩
      have : 0 ≤ u := by linarith
      exact ⟨(h u this h3).2 h2, this, h3⟩
  rw [this, Real.volume_Ico]
  congr 1; ring

/-- The draws of a crossover with the first draw of gene `i` of pair `j` replaced by `u`. -/
def withMiu (rand : Nat → SbxDraw n) (j : Nat) (i : Fin n) (u : ℝ) : Nat → SbxDraw n :=
  fun k => if k = j then { rand k with miu := Function.update (rand k).miu i u } else rand k

/-- The children of pair `j` differ in gene `i` by a number that satisfies `P`. -/
def ChildrenApart (off : Except Err (List (Row n))) (j : Nat) (i : Fin n) (P : ℝ → Prop) : Prop :=
  ∃ rows c d x y, off = .ok rows ∧ rows[2 * j]? = some c ∧ rows[2 * j + 1]? = some d ∧ c i = some x ∧ d i = some y ∧ P |x - y|

/-- C95. Simulated binary crossover has the distribution of Deb and Agrawal with index `DisC`: for the parents of any pair, any gene in which they
differ, and where crossover acts at all, over a uniform first draw the children are at most `b ≤ 1` times as far apart as the
parents with probability `b^(DisC+1) / 2`, and at least `b ≥ 1` times as far apart with probability `b^(-(DisC+1)) / 2` (so: closer with
probability one half, whatever all other draws are). -/
theorem c95_sbx_spread_distribution (proC disC : ℝ) (hd : 0 ≤ disC) (shuffle : List Nat → List Nat) (rand : Nat → SbxDraw n)
    (pop : List (Row n)) (ids : List Nat) (hids : ∀ k ∈ ids, k < pop.length) (j : Nat) (hj : 2 * j < ids.length)
    (p q : Nat) (a b : Row n) (hp : ids[2 * j]? = some p) (hq : partner ids (2 * j) = some q) (ha : pop[p]? = some a) (hb : pop[q]? = some b)
    (i : Fin n) (x y : ℝ) (hx : a i = some x) (hy : b i = some y) (hxy : x ≠ y) (hu : (rand j).u i ≤ proC) (r : ℝ) :
    (0 ≤ r → r ≤ 1 → Chance {u | ChildrenApart (sbxDo proC disC shuffle (withMiu rand j i u) pop (some ids)) j i (fun t => t ≤ r * |x - y|)}
      (r ^ (disC + 1) / 2)) ∧
    (1 ≤ r → Chance {u | ChildrenApart (sbxDo proC disC shuffle (withMiu rand j i u) pop (some ids)) j i (fun t => r * |x - y| ≤ t)}
      (r ^ (-(disC + 1)) / 2)) := by
  have hpos : 0 < |x - y| := abs_pos.2 (sub_ne_zero.2 hxy)
  have key : ∀ u (P : ℝ → Prop), ChildrenApart (sbxDo proC disC shuffle (withMiu rand j i u) pop (some ids)) j i P ↔
      P (|sbxBeta proC disC u ((rand j).flip i) ((rand j).u i)| * |x - y|) := by
    intro u P
    obtain ⟨off, hoff⟩ := sbxDo_total proC disC shuffle (withMiu rand j i u) pop (some ids) hids
    obtain ⟨-, h2⟩ := sbxDo_spec _ _ _ _ _ _ _ hoff
    obtain ⟨p', q', a', b', e1, e2, e3, e4, e5, e6⟩ := h2 j hj
    simp only [matingIds] at e1 e2
    rw [hp] at e1; cases e1
    rw [hq] at e2; cases e2
    rw [ha] at e3; cases e3
    rw [hb] at e4; cases e4
    have hdr : (withMiu rand j i u j).miu i = u ∧ (withMiu rand j i u j).flip i = (rand j).flip i ∧ (withMiu rand j i u j).u i = (rand j).u i := by
      simp [withMiu]
    have hc : sbxFirst (sbxBeta proC disC ((withMiu rand j i u j).miu i) ((withMiu rand j i u j).flip i) ((withMiu rand j i u j).u i)) (a i) (b i) =
        some ((x + y) / 2 + sbxBeta proC disC u ((rand j).flip i) ((rand j).u i) * ((x - y) / 2)) := by
      rw [hx, hy, hdr.1, hdr.2.1, hdr.2.2]; rfl
    have hd' : sbxSecond (sbxBeta proC disC ((withMiu rand j i u j).miu i) ((withMiu rand j i u j).flip i) ((withMiu rand j i u j).u i)) (a i) (b i) =
        some ((x + y) / 2 - sbxBeta proC disC u ((rand j).flip i) ((rand j).u i) * ((x - y) / 2)) := by
      rw [hx, hy, hdr.1, hdr.2.1, hdr.2.2]; rfl
    generalize sbxBeta proC disC u ((rand j).flip i) ((rand j).u i) = β at *
    have hab : |(x + y) / 2 + β * ((x - y) / 2) - ((x + y) / 2 - β * ((x - y) / 2))| = |β| * |x - y| := by
      rw [← abs_mul]; congr 1; ring
    rw [← hab]
    constructor
    · rintro ⟨rows, c, d, x', y', g1, g2, g3, g4, g5, g6⟩
      rw [hoff] at g1; cases g1
      rw [e5] at g2; cases g2
      rw [e6] at g3; cases g3
      have g4 := hc.symm.trans g4; cases g4
      have g5 := hd'.symm.trans g5; cases g5
      exact g6
    · intro h
      exact ⟨off, _, _, _, _, hoff, e5, e6, hc, hd', h⟩
  constructor
  · intro h0 h1
    have hr : r ^ (disC + 1) ≤ 1 := Real.rpow_le_one h0 h1 (by linarith)
    have hr0 : 0 ≤ r ^ (disC + 1) := Real.rpow_nonneg h0 _
    refine chance_initial _ _ (by linarith) ?_
    intro u hu0 hu1
    rw [Set.mem_ofPred_eq, key, mul_le_mul_iff_left₀ hpos]
    exact abs_beta_le_iff proC disC u _ r _ hd hu hu0 hu1 h0 h1
  · intro h1
    have hr : r ^ (-(disC + 1)) ≤ 1 := Real.rpow_le_one_of_one_le_of_nonpos h1 (by linarith)
    refine chance_final _ _ (by linarith) ?_
    intro u hu0 hu1
    rw [Set.mem_ofPred_eq, key, mul_le_mul_iff_left₀ hpos]
    exact le_abs_beta_iff proC disC u _ r _ hd hu hu0 hu1 h1

/-! ## Bounded polynomial mutation -/

/-- The fraction of draws that move at most down to `ρ`. -/
noncomputable def movedFraction (z ρ : ℝ) (d : Nat) : ℝ := (ρ ^ (d + 1) - z ^ (d + 1)) / (1 - z ^ (d + 1))

theorem root_spec (T z : ℝ) (d : Nat) (hT0 : 0 ≤ T) (hT1 : T ≤ 1) (hz0 : 0 ≤ z) (hz1 : z < 1) :
    ∃ r, npRoot (T + (1 - T) * z ^ (d + 1)) d = some r ∧ r ≤ 1 ∧ ∀ ρ, 0 ≤ ρ →
      (r ≤ ρ ↔ T ≤ movedFraction z ρ d) ∧ (ρ ≤ r ↔ movedFraction z ρ d ≤ T) := by
  have hzn : 0 ≤ z ^ (d + 1) := pow_nonneg hz0 _
  have hq : z ^ (d + 1) < 1 := pow_lt_one₀ hz0 hz1 (by omega)
  have h0 : 0 ≤ T + (1 - T) * z ^ (d + 1) := by nlinarith
  have h1 : T + (1 - T) * z ^ (d + 1) ≤ 1 := by nlinarith
  have hn : (0 : ℝ) < (d : ℝ) + 1 := by positivity
  refine ⟨_, by unfold npRoot; rw [if_neg (not_lt.2 h0)], Real.rpow_le_one h0 h1 (by positivity), ?_⟩
  intro ρ hρ
  have e : ρ ^ ((d : ℝ) + 1) = ρ ^ (d + 1) := by
    rw [show ((d : ℝ) + 1) = ((d + 1 : ℕ) : ℝ) by push_cast; rfl, Real.rpow_natCast]
  unfold movedFraction
  rw [one_div, Real.rpow_inv_le_iff_of_pos h0 hρ hn, Real.le_rpow_inv_iff_of_pos hρ h0 hn, e, le_div_iff₀ (by linarith),
    div_le_iff₀ (by linarith)]
  constructor <;> constructor <;> intro h <;> nlinarith

theorem movedFraction_bounds (z ρ : ℝ) (d : Nat) (hz0 : 0 ≤ z) (hz1 : z < 1) (hzρ : z ≤ ρ) (hρ : ρ ≤ 1) :
    0 ≤ movedFraction z ρ d ∧ movedFraction z ρ d ≤ 1 ∧ (ρ < 1 → movedFraction z ρ d < 1) := by
  have hq : z ^ (d + 1) < 1 := pow_lt_one₀ hz0 hz1 (by omega)
  have h1 : z ^ (d + 1) ≤ ρ ^ (d + 1) := pow_le_pow_left₀ hz0 hzρ _
  have h2 : ρ ^ (d + 1) ≤ 1 := pow_le_one₀ (hz0.trans hzρ) hρ
  unfold movedFraction
  refine ⟨div_nonneg (by linarith) (by linarith), by rw [div_le_one (by linarith)]; linarith, ?_⟩
  intro h
  have : ρ ^ (d + 1) < 1 := pow_lt_one₀ (hz0.trans hzρ) h (by omega)
  rw [div_lt_one (by linarith)]; linarith

/-- One gene, draw below one half. -/
theorem bp_low (proM : ℝ) (d : Nat) (lo hi k u x : ℝ) (hlt : lo < hi) (hx0 : lo < x) (hx1 : x ≤ hi) (hk : k ≤ proM) (hu0 : 0 ≤ u)
    (hu1 : u < 1 / 2) : ∃ v, clipGene lo hi (bpRaw proM d lo hi k u (some x)) = some v ∧ v ≤ x ∧ ∀ t, lo ≤ t → t ≤ x →
      (v ≤ t ↔ 2 * u ≤ movedFraction ((hi - x) / (hi - lo)) (1 - (x - t) / (hi - lo)) d) ∧
      (t ≤ v ↔ movedFraction ((hi - x) / (hi - lo)) (1 - (x - t) / (hi - lo)) d ≤ 2 * u) := by
  have hw : 0 < hi - lo := by linarith
  obtain ⟨v, hv, hv0, hv1⟩ := c41_mutation_stays_inside_unclipped proM d lo hi k u x hlt hx0.le hx1 hu0 (by linarith)
  have hz : 1 - (x - lo) / (hi - lo) = (hi - x) / (hi - lo) := by field_simp; ring
  obtain ⟨r, hr, hr1, hr2⟩ := root_spec (2 * u) ((hi - x) / (hi - lo)) d (by linarith) (by linarith) (div_nonneg (by linarith) hw.le)
    (by rw [div_lt_one hw]; linarith)
  have hval : bpRaw proM d lo hi k u (some x) = some (x + (hi - lo) * (r - 1)) := by
    simp only [bpRaw]
    rw [hz]
    simp only [hk, hu1, true_and, if_true, not_le.2 hu1, if_false, hr, Option.map_some]
  rw [hval] at hv
  cases hv
  refine ⟨x + (hi - lo) * (r - 1), by rw [hval, clipGene_of_inside _ _ _ hv0 hv1], by nlinarith, ?_⟩
  intro t ht0 ht1
  have hρ : 0 ≤ 1 - (x - t) / (hi - lo) := by
    have : (x - t) / (hi - lo) ≤ 1 := by rw [div_le_one hw]; linarith
    linarith
  obtain ⟨g1, g2⟩ := hr2 _ hρ
  rw [← g1, ← g2]
  have e : (hi - lo) * ((x - t) / (hi - lo)) = x - t := by field_simp
  constructor <;> constructor <;> intro h <;> nlinarith

/-- One gene, draw one half or more. -/
theorem bp_high (proM : ℝ) (d : Nat) (lo hi k u x : ℝ) (hlt : lo < hi) (hx0 : lo ≤ x) (hx1 : x < hi) (hk : k ≤ proM) (hu0 : 1 / 2 ≤ u)
    (hu1 : u < 1) : ∃ v, clipGene lo hi (bpRaw proM d lo hi k u (some x)) = some v ∧ x ≤ v ∧ ∀ t, x ≤ t → t ≤ hi →
      (t ≤ v ↔ 2 * (1 - u) ≤ movedFraction ((x - lo) / (hi - lo)) (1 - (t - x) / (hi - lo)) d) ∧
      (v ≤ t ↔ movedFraction ((x - lo) / (hi - lo)) (1 - (t - x) / (hi - lo)) d ≤ 2 * (1 - u)) := by
  have hw : 0 < hi - lo := by linarith
  obtain ⟨v, hv, hv0, hv1⟩ := c41_mutation_stays_inside_unclipped proM d lo hi k u x hlt hx0 hx1.le (by linarith) hu1
  obtain ⟨r, hr, hr1, hr2⟩ := root_spec (2 * (1 - u)) ((x - lo) / (hi - lo)) d (by linarith) (by linarith) (div_nonneg (by linarith) hw.le)
    (by rw [div_lt_one hw]; linarith)
  have e : 2 * (1 - u) + 2 * (u - 1 / 2) * ((x - lo) / (hi - lo)) ^ (d + 1) =
      2 * (1 - u) + (1 - 2 * (1 - u)) * ((x - lo) / (hi - lo)) ^ (d + 1) := by ring
  have hval : bpRaw proM d lo hi k u (some x) = some (x + (hi - lo) * (1 - r)) := by
    simp only [bpRaw, hk, hu0, not_lt.2 hu0, true_and, if_true, if_false, e, hr, Option.bind_some, Option.map_some]
  rw [hval] at hv
  cases hv
  refine ⟨x + (hi - lo) * (1 - r), by rw [hval, clipGene_of_inside _ _ _ hv0 hv1], by nlinarith, ?_⟩
  intro t ht0 ht1
  have hρ : 0 ≤ 1 - (t - x) / (hi - lo) := by
    have : (t - x) / (hi - lo) ≤ 1 := by rw [div_le_one hw]; linarith
    linarith
  obtain ⟨g1, g2⟩ := hr2 _ hρ
  rw [← g1, ← g2]
  have e : (hi - lo) * ((t - x) / (hi - lo)) = t - x := by field_simp
  constructor <;> constructor <;> intro h <;> nlinarith

/-- The second draws of a mutation with that of gene `i` of row `j` replaced by `u`. -/
def withDraw (miu : Nat → Fin n → ℝ) (j : Nat) (i : Fin n) (u : ℝ) : Nat → Fin n → ℝ :=
  fun k => if k = j then Function.update (miu k) i u else miu k

/-- Gene `i` of row `j` is a number that satisfies `P`. -/
def GeneIs (rows : List (Row n)) (j : Nat) (i : Fin n) (P : ℝ → Prop) : Prop := ∃ x v, rows[j]? = some x ∧ x i = some v ∧ P v

/-- C95. Mutation of a gene `v` chosen for it, in the bounds, has the bounded polynomial distribution with index `DisM`, over a uniform second draw and
whatever all other draws are: the probability of landing at or below `t < v`, and that of landing at or above `t > v`, in closed form. -/
theorem c95_mutation_distribution (proM : ℝ) (d : Nat) (lo hi : Fin n → ℝ) (k miu : Nat → Fin n → ℝ) (off : List (Row n)) (j : Nat) (x : Row n)
    (i : Fin n) (v : ℝ) (hj : off[j]? = some x) (hv : x i = some v) (h0 : lo i ≤ v) (h1 : v ≤ hi i) (hlt : lo i < hi i) (hk : k j i ≤ proM) (t : ℝ) :
    (lo i ≤ t → t < v → Chance {u | GeneIs (bpDo proM d lo hi k (withDraw miu j i u) off) j i (fun a => a ≤ t)}
      (((1 - (v - t) / (hi i - lo i)) ^ (d + 1) - ((hi i - v) / (hi i - lo i)) ^ (d + 1)) / (2 * (1 - ((hi i - v) / (hi i - lo i)) ^ (d + 1))))) ∧
    (v < t → t ≤ hi i → Chance {u | GeneIs (bpDo proM d lo hi k (withDraw miu j i u) off) j i (fun a => t ≤ a)}
      (((1 - (t - v) / (hi i - lo i)) ^ (d + 1) - ((v - lo i) / (hi i - lo i)) ^ (d + 1)) / (2 * (1 - ((v - lo i) / (hi i - lo i)) ^ (d + 1))))) := by
  have hw : 0 < hi i - lo i := by linarith
  have key : ∀ u (P : ℝ → Prop), GeneIs (bpDo proM d lo hi k (withDraw miu j i u) off) j i P ↔
      ∃ a, clipGene (lo i) (hi i) (bpRaw proM d (lo i) (hi i) (k j i) u (some v)) = some a ∧ P a := by
    intro u P
    unfold GeneIs
    rw [bpDo_get, hj]
    have hd : withDraw miu j i u j i = u := by simp [withDraw]
    constructor
    · rintro ⟨y, a, g1, g2, g3⟩
      simp only [Option.map_some, Option.some.injEq] at g1
      subst g1
      have g2 : clipGene (lo i) (hi i) (bpRaw proM d (lo i) (hi i) (k j i) (withDraw miu j i u j i) (x i)) = some a := g2
      rw [hd, hv] at g2
      exact ⟨a, g2, g3⟩
    · rintro ⟨a, g1, g2⟩
      refine ⟨_, a, rfl, ?_, g2⟩
      show clipGene (lo i) (hi i) (bpRaw proM d (lo i) (hi i) (k j i) (withDraw miu j i u j i) (x i)) = some a
      rw [hd, hv]; exact g1
  have half : ∀ z ρ : ℝ, (ρ ^ (d + 1) - z ^ (d + 1)) / (2 * (1 - z ^ (d + 1))) = movedFraction z ρ d / 2 := by
    intro z ρ; unfold movedFraction; rw [div_div, mul_comm]
  constructor
  · intro ht0 ht1
    rw [half]
    have hz0 : 0 ≤ (hi i - v) / (hi i - lo i) := div_nonneg (by linarith) hw.le
    have hz1 : (hi i - v) / (hi i - lo i) < 1 := by rw [div_lt_one hw]; linarith
    have hzρ : (hi i - v) / (hi i - lo i) ≤ 1 - (v - t) / (hi i - lo i) := by
      rw [le_sub_iff_add_le, ← add_div, div_le_one hw]; linarith
    have hρ : 1 - (v - t) / (hi i - lo i) < 1 := by
      have : 0 < (v - t) / (hi i - lo i) := div_pos (by linarith) hw
      linarith
    obtain ⟨b1, b2, b3⟩ := movedFraction_bounds _ _ d hz0 hz1 hzρ hρ.le
    have b3 := b3 hρ
    refine chance_initial _ _ (by linarith) ?_
    intro u hu0 hu1
    rw [Set.mem_ofPred_eq, key]
    by_cases hu : u < 1 / 2
    · obtain ⟨a, g1, g2, g3⟩ := bp_low proM d (lo i) (hi i) (k j i) u v hlt (by linarith) h1 hk hu0 hu
      rw [g1]
      simp only [Option.some.injEq, exists_eq_left']
      rw [(g3 t ht0 ht1.le).1]
      constructor <;> intro h <;> linarith
    · have hle : v ≤ hi i := h1
      rcases hle.eq_or_lt with e | hlt'
      · have hu2 : 1 / 2 ≤ u := not_lt.1 hu
        have hval : bpRaw proM d (lo i) (hi i) (k j i) u (some v) = some v := by
          have : (v - lo i) / (hi i - lo i) = 1 := by rw [e]; exact div_self hw.ne'
          simp only [bpRaw, hk, hu2, not_lt.2 hu2, true_and, if_true, if_false, this, one_pow, Option.bind_some]
          have e1 : 2 * (1 - u) + 2 * (u - 1 / 2) * 1 = 1 := by ring
          rw [e1]
          simp [npRoot]
        rw [hval, clipGene_of_inside _ _ _ h0 h1]
        simp only [Option.some.injEq, exists_eq_left']
        constructor <;> intro h <;> exfalso <;> linarith
      · obtain ⟨a, g1, g2, -⟩ := bp_high proM d (lo i) (hi i) (k j i) u v hlt h0 hlt' hk (not_lt.1 hu) hu1
        rw [g1]
        simp only [Option.some.injEq, exists_eq_left']
        constructor <;> intro h <;> exfalso <;> linarith
  · intro ht0 ht1
    rw [half]
    have hz0 : 0 ≤ (v - lo i) / (hi i - lo i) := div_nonneg (by linarith) hw.le
    have hz1 : (v - lo i) / (hi i - lo i) < 1 := by rw [div_lt_one hw]; linarith
    have hzρ : (v - lo i) / (hi i - lo i) ≤ 1 - (t - v) / (hi i - lo i) := by
      rw [le_sub_iff_add_le, ← add_div, div_le_one hw]; linarith
    have hρ : 1 - (t - v) / (hi i - lo i) < 1 := by
      have : 0 < (t - v) / (hi i - lo i) := div_pos (by linarith) hw
      linarith
    obtain ⟨b1, b2, b3⟩ := movedFraction_bounds _ _ d hz0 hz1 hzρ hρ.le
    have b3 := b3 hρ
    refine chance_final _ _ (by linarith) ?_
    intro u hu0 hu1
    rw [Set.mem_ofPred_eq, key]
    by_cases hu : u < 1 / 2
    · rcases h0.eq_or_lt with e | hlt'
      · have hval : bpRaw proM d (lo i) (hi i) (k j i) u (some v) = some v := by
          have : (v - lo i) / (hi i - lo i) = 0 := by rw [e]; simp
          simp only [bpRaw, hk, hu, not_le.2 hu, true_and, if_true, if_false, this, sub_zero, one_pow]
          have e1 : 2 * u + (1 - 2 * u) * 1 = 1 := by ring
          rw [e1]
          simp [npRoot]
        rw [hval, clipGene_of_inside _ _ _ h0 h1]
        simp only [Option.some.injEq, exists_eq_left']
        constructor <;> intro h <;> exfalso <;> linarith
      · obtain ⟨a, g1, g2, -⟩ := bp_low proM d (lo i) (hi i) (k j i) u v hlt hlt' h1 hk hu0 hu
        rw [g1]
        simp only [Option.some.injEq, exists_eq_left']
        constructor <;> intro h <;> exfalso <;> linarith
    · obtain ⟨a, g1, g2, g3⟩ := bp_high proM d (lo i) (hi i) (k j i) u v hlt h0 (by linarith) hk (not_lt.1 hu) hu1
      rw [g1]
      simp only [Option.some.injEq, exists_eq_left']
      rw [(g3 t ht0.le ht1).1]
      constructor <;> intro h <;> linarith

/-- C95. A gene strictly inside the bounds is changed with probability `ProM`, over a uniform first draw and whatever all other draws are (the second
draw of the gene being in [0, 1) and not exactly one half). -/
theorem c95_mutation_rate (proM : ℝ) (hp1 : proM ≤ 1) (d : Nat) (lo hi : Fin n → ℝ) (k miu : Nat → Fin n → ℝ) (off : List (Row n)) (j : Nat) (x : Row n)
    (i : Fin n) (v : ℝ) (hj : off[j]? = some x) (hv : x i = some v) (h0 : lo i < v) (h1 : v < hi i) (hm0 : 0 ≤ miu j i) (hm1 : miu j i < 1)
    (hm : miu j i ≠ 1 / 2) :
    Chance {u | GeneIs (bpDo proM d lo hi (withDraw k j i u) miu off) j i (fun a => a ≠ v)} proM := by
  have hlt : lo i < hi i := h0.trans h1
  have hw : 0 < hi i - lo i := by linarith
  have key : ∀ u, GeneIs (bpDo proM d lo hi (withDraw k j i u) miu off) j i (fun a => a ≠ v) ↔ u ≤ proM := by
    intro u
    have hd : withDraw k j i u j i = u := by simp [withDraw]
    have hg : ∀ a, clipGene (lo i) (hi i) (bpRaw proM d (lo i) (hi i) u (miu j i) (some v)) = some a →
        (GeneIs (bpDo proM d lo hi (withDraw k j i u) miu off) j i (fun a => a ≠ v) ↔ a ≠ v) := by
      intro a ha
      unfold GeneIs
      rw [bpDo_get, hj]
      constructor
      · rintro ⟨y, a', g1, g2, g3⟩
        simp only [Option.map_some, Option.some.injEq] at g1
        subst g1
        have g2 : clipGene (lo i) (hi i) (bpRaw proM d (lo i) (hi i) (withDraw k j i u j i) (miu j i) (x i)) = some a' := g2
        rw [hd, hv, ha] at g2
        cases g2; exact g3
      · intro g
        refine ⟨_, a, rfl, ?_, g⟩
        show clipGene (lo i) (hi i) (bpRaw proM d (lo i) (hi i) (withDraw k j i u j i) (miu j i) (x i)) = some a
        rw [hd, hv]; exact ha
    by_cases hu : u ≤ proM
    · simp only [hu, iff_true]
      rcases lt_or_ge (miu j i) (1 / 2) with hl | hl
      · obtain ⟨a, g1, g2, g3⟩ := bp_low proM d (lo i) (hi i) u (miu j i) v hlt h0 h1.le hu hm0 hl
        rw [hg a g1]
        rintro rfl
        have := ((g3 a h0.le le_rfl).2).1 le_rfl
        have hz : ((hi i - a) / (hi i - lo i)) ^ (d + 1) < 1 := pow_lt_one₀ (div_nonneg (by linarith) hw.le) (by rw [div_lt_one hw]; linarith) (by omega)
        unfold movedFraction at this
        rw [sub_self, zero_div, sub_zero, one_pow, div_self (by linarith)] at this
        linarith
      · have hl' : 1 / 2 < miu j i := lt_of_le_of_ne hl (Ne.symm hm)
        obtain ⟨a, g1, g2, g3⟩ := bp_high proM d (lo i) (hi i) u (miu j i) v hlt h0.le h1 hu hl hm1
        rw [hg a g1]
        rintro rfl
        have := ((g3 a le_rfl h1.le).2).1 le_rfl
        have hz : ((a - lo i) / (hi i - lo i)) ^ (d + 1) < 1 := pow_lt_one₀ (div_nonneg (by linarith) hw.le) (by rw [div_lt_one hw]; linarith) (by omega)
        unfold movedFraction at this
        rw [sub_self, zero_div, sub_zero, one_pow, div_self (by linarith)] at this
        linarith
    · have : bpRaw proM d (lo i) (hi i) u (miu j i) (some v) = some v := by simp [bpRaw, hu]
      rw [hg v (by rw [this, clipGene_of_inside _ _ _ h0.le h1.le])]
      simp [hu]
  unfold Chance
  have hset : {u | GeneIs (bpDo proM d lo hi (withDraw k j i u) miu off) j i (fun a => a ≠ v)} ∩ Set.Ico 0 1 = Set.Iic proM ∩ Set.Ico 0 1 := by
    ext u; simp only [Set.mem_inter_iff, Set.mem_ofPred_eq, key, Set.mem_Iic]
  rw [hset]
  apply le_antisymm
  · refine (measure_mono (t := Set.Icc 0 proM) ?_).trans (by rw [Real.volume_Icc, sub_zero])
    rintro u ⟨g1, g2, g3⟩; exact ⟨g2, g1⟩
  · refine le_trans (by rw [← sub_zero proM, ← Real.volume_Ico]; simp) (measure_mono (s := Set.Ico 0 proM) ?_)
    rintro u ⟨g1, g2⟩; exact ⟨g2.le, g1, lt_of_lt_of_le g2 hp1⟩

/-! ## Every box can be reached -/

theorem pow_gap (a b : ℝ) (d : Nat) (ha : 0 ≤ a) (hab : a ≤ b) : (b - a) ^ (d + 1) ≤ b ^ (d + 1) - a ^ (d + 1) := by
  have h := pow_add_pow_le (x := b - a) (y := a) (n := d + 1) (by linarith) ha (by omega)
  rw [sub_add_cancel] at h
  linarith

theorem movedFraction_gap (z a b : ℝ) (d : Nat) (hz0 : 0 ≤ z) (hz1 : z < 1) (ha : 0 ≤ a) (hab : a ≤ b) :
    (b - a) ^ (d + 1) ≤ movedFraction z b d - movedFraction z a d := by
  have hq : z ^ (d + 1) < 1 := pow_lt_one₀ hz0 hz1 (by omega)
  have hq0 : 0 ≤ z ^ (d + 1) := pow_nonneg hz0 _
  have h1 := pow_gap a b d ha hab
  have h2 : 0 ≤ (b - a) ^ (d + 1) := pow_nonneg (by linarith) _
  unfold movedFraction
  rw [← sub_div, le_div_iff₀ (by linarith)]
  nlinarith

theorem bp_interval (proM : ℝ) (d : Nat) (lo hi s t x : ℝ) (hlt : lo < hi) (hx0 : lo ≤ x) (hx1 : x ≤ hi) (hs : lo ≤ s) (hst : s < t) (ht : t ≤ hi) :
    ∃ a b : ℝ, 0 ≤ a ∧ b ≤ 1 ∧ ((t - s) / (2 * (hi - lo))) ^ (d + 1) / 2 ≤ b - a ∧ ∀ k u, k ≤ proM → a ≤ u → u < b →
      ∃ v, clipGene lo hi (bpRaw proM d lo hi k u (some x)) = some v ∧ s ≤ v ∧ v ≤ t := by
  have hw : 0 < hi - lo := by linarith
  by_cases hm : (s + t) / 2 ≤ x
  · have hz0 : 0 ≤ (hi - x) / (hi - lo) := div_nonneg (by linarith) hw.le
    have hz1 : (hi - x) / (hi - lo) < 1 := by rw [div_lt_one hw]; linarith
    have hr : ∀ y, lo ≤ y → (hi - x) / (hi - lo) ≤ 1 - (x - y) / (hi - lo) := by
      intro y hy; rw [le_sub_iff_add_le, ← add_div, div_le_one hw]; linarith
    have hρm : 1 - (x - (s + t) / 2) / (hi - lo) ≤ 1 := by
      have : 0 ≤ (x - (s + t) / 2) / (hi - lo) := div_nonneg (by linarith) hw.le
      linarith
    have hsm : 1 - (x - s) / (hi - lo) ≤ 1 - (x - (s + t) / 2) / (hi - lo) := by
      have : (x - (s + t) / 2) / (hi - lo) ≤ (x - s) / (hi - lo) := div_le_div_of_nonneg_right (by linarith) hw.le
      linarith
    obtain ⟨b1, -, -⟩ := movedFraction_bounds _ _ d hz0 hz1 (hr s hs) (hsm.trans hρm)
    obtain ⟨-, b2, -⟩ := movedFraction_bounds _ _ d hz0 hz1 (hr ((s + t) / 2) (by linarith)) hρm
    have gap := movedFraction_gap ((hi - x) / (hi - lo)) _ _ d hz0 hz1 (hz0.trans (hr s hs)) hsm
    have e : 1 - (x - (s + t) / 2) / (hi - lo) - (1 - (x - s) / (hi - lo)) = (t - s) / (2 * (hi - lo)) := by field_simp; ring
    rw [e] at gap
    refine ⟨movedFraction ((hi - x) / (hi - lo)) (1 - (x - s) / (hi - lo)) d / 2,
      movedFraction ((hi - x) / (hi - lo)) (1 - (x - (s + t) / 2) / (hi - lo)) d / 2, by linarith, by linarith, by linarith, ?_⟩
    intro k u hk ha hb
    obtain ⟨v, h1, h2, h3⟩ := bp_low proM d lo hi k u x hlt (by linarith) hx1 hk (by linarith) (by linarith)
    have := ((h3 s hs (by linarith)).2).2 (by linarith)
    have := ((h3 ((s + t) / 2) (by linarith) hm).1).2 (by linarith)
    exact ⟨v, h1, by linarith, by linarith⟩
  · have hm : x < (s + t) / 2 := not_le.1 hm
    have hz0 : 0 ≤ (x - lo) / (hi - lo) := div_nonneg (by linarith) hw.le
    have hz1 : (x - lo) / (hi - lo) < 1 := by rw [div_lt_one hw]; linarith
    have hr : ∀ y, y ≤ hi → (x - lo) / (hi - lo) ≤ 1 - (y - x) / (hi - lo) := by
      intro y hy; rw [le_sub_iff_add_le, ← add_div, div_le_one hw]; linarith
    have hρm : 1 - ((s + t) / 2 - x) / (hi - lo) ≤ 1 := by
      have : 0 ≤ ((s + t) / 2 - x) / (hi - lo) := div_nonneg (by linarith) hw.le
      linarith
    have htm : 1 - (t - x) / (hi - lo) ≤ 1 - ((s + t) / 2 - x) / (hi - lo) := by
      have : ((s + t) / 2 - x) / (hi - lo) ≤ (t - x) / (hi - lo) := div_le_div_of_nonneg_right (by linarith) hw.le
      linarith
    obtain ⟨b1, -, -⟩ := movedFraction_bounds _ _ d hz0 hz1 (hr t ht) (htm.trans hρm)
    obtain ⟨-, b2, -⟩ := movedFraction_bounds _ _ d hz0 hz1 (hr ((s + t) / 2) (by linarith)) hρm
    have gap := movedFraction_gap ((x - lo) / (hi - lo)) _ _ d hz0 hz1 (hz0.trans (hr t ht)) htm
    have e : 1 - ((s + t) / 2 - x) / (hi - lo) - (1 - (t - x) / (hi - lo)) = (t - s) / (2 * (hi - lo)) := by field_simp; ring
    rw [e] at gap
    refine ⟨1 - movedFraction ((x - lo) / (hi - lo)) (1 - ((s + t) / 2 - x) / (hi - lo)) d / 2,
      1 - movedFraction ((x - lo) / (hi - lo)) (1 - (t - x) / (hi - lo)) d / 2, by linarith, by linarith, by linarith, ?_⟩
    intro k u hk ha hb
    obtain ⟨v, h1, h2, h3⟩ := bp_high proM d lo hi k u x hlt hx0 (by linarith) hk (by linarith) (by linarith)
    have := ((h3 t (by linarith) ht).2).2 (by linarith)
    have := ((h3 ((s + t) / 2) hm.le (by linarith)).1).2 (by linarith)
    exact ⟨v, h1, by linarith, by linarith⟩

/-- The draws of a mutation with those of row `j` replaced. -/
def withRow (draws : Nat → Fin n → ℝ) (j : Nat) (r : Fin n → ℝ) : Nat → Fin n → ℝ := fun l => if l = j then r else draws l

/-- Row `j` consists of numbers, each between `s` and `t`. -/
def RowWithin (rows : List (Row n)) (j : Nat) (s t : Fin n → ℝ) : Prop :=
  ∃ x, rows[j]? = some x ∧ ∀ i, ∃ v, x i = some v ∧ s i ≤ v ∧ v ≤ t i

theorem prod_chance (p : ℝ) (hp0 : 0 ≤ p) (hp1 : p ≤ 1) (a b c : Fin n → ℝ) (ha : ∀ i, 0 ≤ a i) (hb : ∀ i, b i ≤ 1) (hc0 : ∀ i, 0 ≤ c i)
    (hc : ∀ i, c i ≤ b i - a i) (A : Set ((Fin n → ℝ) × (Fin n → ℝ)))
    (hA : ∀ k u : Fin n → ℝ, (∀ i, k i ≤ p) → (∀ i, a i ≤ u i ∧ u i < b i) → (k, u) ∈ A) : ChanceAtLeast A (∏ i, p * c i) := by
  unfold ChanceAtLeast
  have hsub : (Set.pi Set.univ (fun _ : Fin n => Set.Ico 0 p)) ×ˢ (Set.pi Set.univ (fun i => Set.Ico (a i) (b i))) ⊆
      A ∩ UnitDraws n ×ˢ UnitDraws n := by
    rintro ⟨k, u⟩ ⟨hk, hu⟩
    refine ⟨hA k u (fun i => (hk i trivial).2.le) (fun i => hu i trivial), ?_, ?_⟩
    · intro i _; exact ⟨(hk i trivial).1, lt_of_lt_of_le (hk i trivial).2 hp1⟩
    · intro i _; exact ⟨(ha i).trans (hu i trivial).1, lt_of_lt_of_le (hu i trivial).2 (hb i)⟩
  refine le_trans ?_ (measure_mono hsub)
  rw [Measure.volume_eq_prod, Measure.prod_prod, volume_pi_pi, volume_pi_pi, ← Finset.prod_mul_distrib,
    ENNReal.ofReal_prod_of_nonneg (fun i _ => mul_nonneg hp0 (hc0 i))]
  refine Finset.prod_le_prod' ?_
  intro i _
  rw [Real.volume_Ico, Real.volume_Ico, sub_zero, ENNReal.ofReal_mul hp0]
  exact mul_le_mul_right (ENNReal.ofReal_le_ofReal (hc i)) _

/-- C95. Mutation can take an offspring that is inside the bounds into any box inside the bounds, and the probability of doing so (over the draws of
that row, whatever the draws of other rows are) is at least a positive number that does not depend on the offspring: no part of the decision space is ever
out of reach. -/
theorem c95_mutation_reaches_every_box (proM : ℝ) (hp0 : 0 < proM) (hp1 : proM ≤ 1) (d : Nat) (lo hi : Fin n → ℝ) (hlt : ∀ i, lo i < hi i)
    (k miu : Nat → Fin n → ℝ) (off : List (Row n)) (j : Nat) (x : Row n) (hj : off[j]? = some x) (hx : InBox lo hi x) (hn : AllNumbers x)
    (s t : Fin n → ℝ) (hs : ∀ i, lo i ≤ s i) (hst : ∀ i, s i < t i) (ht : ∀ i, t i ≤ hi i) :
    ChanceAtLeast {q | RowWithin (bpDo proM d lo hi (withRow k j q.1) (withRow miu j q.2) off) j s t}
      (∏ i, proM * (((t i - s i) / (2 * (hi i - lo i))) ^ (d + 1) / 2)) ∧
    0 < ∏ i, proM * (((t i - s i) / (2 * (hi i - lo i))) ^ (d + 1) / 2) := by
  have hpos : ∀ i, 0 < ((t i - s i) / (2 * (hi i - lo i))) ^ (d + 1) / 2 := by
    intro i
    have h1 := hst i
    have h2 := hlt i
    have : 0 < (t i - s i) / (2 * (hi i - lo i)) := div_pos (by linarith) (by linarith)
    positivity
  refine ⟨?_, Finset.prod_pos (fun i _ => mul_pos hp0 (hpos i))⟩
  choose v hv using hn
  have h := fun i => bp_interval proM d (lo i) (hi i) (s i) (t i) (v i) (hlt i) (hx i _ (hv i)).1 (hx i _ (hv i)).2 (hs i) (hst i) (ht i)
  choose a b ha hb hab hin using h
  refine prod_chance proM hp0.le hp1 a b _ ha hb (fun i => (hpos i).le) hab _ ?_
  intro k' u' hk hu
  refine ⟨_, by rw [bpDo_get, hj]; rfl, ?_⟩
  intro i
  obtain ⟨w, h1, h2⟩ := hin i (k' i) (u' i) (hk i) (hu i).1 (hu i).2
  refine ⟨w, ?_, h2⟩
  show clipGene (lo i) (hi i) (bpRaw proM d (lo i) (hi i) (withRow k j k' j i) (withRow miu j u' j i) (x i)) = some w
  have e1 : withRow k j k' j i = k' i := by simp [withRow]
  have e2 : withRow miu j u' j i = u' i := by simp [withRow]
  rw [e1, e2, hv i]; exact h1

theorem between_avg (x y β lo hi : ℝ) (hβ : |β| ≤ 1) (hx0 : lo ≤ x) (hx1 : x ≤ hi) (hy0 : lo ≤ y) (hy1 : y ≤ hi) :
    lo ≤ (x + y) / 2 + β * ((x - y) / 2) ∧ (x + y) / 2 + β * ((x - y) / 2) ≤ hi := by
  obtain ⟨h1, h2⟩ := abs_le.1 hβ
  constructor
  · nlinarith [mul_nonneg (by linarith : 0 ≤ 1 + β) (by linarith : 0 ≤ x - lo), mul_nonneg (by linarith : 0 ≤ 1 - β) (by linarith : 0 ≤ y - lo)]
  · nlinarith [mul_nonneg (by linarith : 0 ≤ 1 + β) (by linarith : 0 ≤ hi - x), mul_nonneg (by linarith : 0 ≤ 1 - β) (by linarith : 0 ≤ hi - y)]

/-- C95. The same for one call of `mate` with the operators a population has by default: whenever the first draws of the crossover of pair `j` are at most
one half (which happens with probability `2^-n`, independently of all draws of the mutation), the two parents of the pair being in the bounds, each of the two
children of the pair lands in any given box inside the bounds with at least the stated positive probability over the draws of its mutation. -/
theorem c95_mate_reaches_every_box (lo hi : Fin n → ℝ) (hn : 0 < n) (hlt : ∀ i, lo i < hi i) (draw : MateDraw n) (pop : List (Row n)) (ids : List Nat)
    (hids : ∀ k ∈ ids, k < pop.length) (j : Nat) (hj : 2 * j < ids.length)
    (p q : Nat) (a b : Row n) (hp : ids[2 * j]? = some p) (hq : partner ids (2 * j) = some q) (ha : pop[p]? = some a) (hb : pop[q]? = some b)
    (hai : InBox lo hi a) (han : AllNumbers a) (hbi : InBox lo hi b) (hbn : AllNumbers b)
    (hm : ∀ i, 0 ≤ (draw.pairs j).miu i ∧ (draw.pairs j).miu i ≤ 1 / 2)
    (s t : Fin n → ℝ) (hs : ∀ i, lo i ≤ s i) (hst : ∀ i, s i < t i) (ht : ∀ i, t i ≤ hi i) (c : Nat) (hc : c = 2 * j ∨ c = 2 * j + 1) :
    ChanceAtLeast {w | ∃ rows, mateDefault lo hi { draw with k := withRow draw.k c w.1, miu := withRow draw.miu c w.2 } pop (some ids) = .ok rows ∧
        RowWithin rows c s t}
      (∏ i, (1 / (n : ℝ)) * (((t i - s i) / (2 * (hi i - lo i))) ^ 21 / 2)) := by
  obtain ⟨off, hoff⟩ := sbxDo_total 1 30 draw.shuffle draw.pairs pop (some ids) hids
  obtain ⟨-, h2⟩ := sbxDo_spec _ _ _ _ _ _ _ hoff
  obtain ⟨p', q', a', b', e1, e2, e3, e4, e5, e6⟩ := h2 j hj
  simp only [matingIds] at e1 e2
  rw [hp] at e1; cases e1
  rw [hq] at e2; cases e2
  rw [ha] at e3; cases e3
  rw [hb] at e4; cases e4
  choose x hx using han
  choose y hy using hbn
  have hβ : ∀ i, |sbxBeta 1 30 ((draw.pairs j).miu i) ((draw.pairs j).flip i) ((draw.pairs j).u i)| ≤ 1 := by
    intro i
    by_cases hu : (draw.pairs j).u i ≤ 1
    · refine (abs_beta_le_iff 1 30 _ _ 1 _ (by norm_num) hu (hm i).1 (by have := (hm i).2; linarith) (by norm_num) le_rfl).2 ?_
      rw [Real.one_rpow]; exact (hm i).2
    · simp [sbxBeta, not_le.1 hu]
  have hrow : ∃ r : Row n, off[c]? = some r ∧ InBox lo hi r ∧ AllNumbers r := by
    rcases hc with rfl | rfl
    · refine ⟨_, e5, ?_, ?_⟩
      · intro i v hv
        simp only [hx, hy, sbxFirst, Option.some.injEq] at hv
        subst hv
        exact between_avg _ _ _ _ _ (hβ i) (hai i _ (hx i)).1 (hai i _ (hx i)).2 (hbi i _ (hy i)).1 (hbi i _ (hy i)).2
      · intro i
        simp only [hx, hy, sbxFirst]
        exact ⟨_, rfl⟩
    · refine ⟨_, e6, ?_, ?_⟩
      · intro i v hv
        simp only [hx, hy, sbxSecond, Option.some.injEq] at hv
        subst hv
        have := between_avg (x i) (y i) (-sbxBeta 1 30 ((draw.pairs j).miu i) ((draw.pairs j).flip i) ((draw.pairs j).u i)) (lo i) (hi i)
          (by rw [abs_neg]; exact hβ i) (hai i _ (hx i)).1 (hai i _ (hx i)).2 (hbi i _ (hy i)).1 (hbi i _ (hy i)).2
        rw [neg_mul, ← sub_eq_add_neg] at this
        exact this
      · intro i
        simp only [hx, hy, sbxSecond]
        exact ⟨_, rfl⟩
  obtain ⟨r, hr, hr1, hr2⟩ := hrow
  have hn' : (1 : ℝ) ≤ n := by exact_mod_cast hn
  have main := (c95_mutation_reaches_every_box (1 / (n : ℝ)) (by positivity) (by rw [div_le_one (by linarith)]; exact hn') 20 lo hi hlt draw.k draw.miu off c r hr hr1 hr2
    s t hs hst ht).1
  have hset : {w : (Fin n → ℝ) × (Fin n → ℝ) | ∃ rows, mateDefault lo hi { draw with k := withRow draw.k c w.1, miu := withRow draw.miu c w.2 } pop (some ids) = .ok rows ∧
        RowWithin rows c s t} = {w | RowWithin (bpDo (1 / (n : ℝ)) 20 lo hi (withRow draw.k c w.1) (withRow draw.miu c w.2) off) c s t} := by
    ext w
    simp only [Set.mem_ofPred_eq, mateDefault, hoff, Except.ok.injEq, exists_eq_left']
  rw [hset]
  exact main

/-- Non-vacuity: two parents in the unit square, a crossover draw of 1/4 everywhere, the box from 1/2 to 3/4. -/
example : ∃ (draw : MateDraw 2) (pop : List (Row 2)) (ids : List Nat) (p q : Nat) (a b : Row 2), (∀ k ∈ ids, k < pop.length) ∧
    ids[2 * 0]? = some p ∧ partner ids (2 * 0) = some q ∧ pop[p]? = some a ∧ pop[q]? = some b ∧ InBox (fun _ => 0) (fun _ => 1) a ∧
    AllNumbers a ∧ InBox (fun _ => 0) (fun _ => 1) b ∧ AllNumbers b ∧ a 0 ≠ b 0 ∧
    (∀ i, 0 ≤ (draw.pairs 0).miu i ∧ (draw.pairs 0).miu i ≤ 1 / 2) ∧ (∀ i, (draw.pairs 0).u i ≤ 1) := by
  refine ⟨⟨id, fun _ => ⟨fun _ => 1 / 4, fun _ => true, fun _ => 0⟩, fun _ _ => 0, fun _ _ => 0⟩, [fun _ => some 0, fun _ => some 1], [0, 1], 0, 1,
    fun _ => some 0, fun _ => some 1, by simp, rfl, rfl, rfl, rfl, ?_, fun _ => ⟨0, rfl⟩, ?_, fun _ => ⟨1, rfl⟩, by simp, ?_, ?_⟩
  · intro i v h; cases h; norm_num
  · intro i v h; cases h; norm_num
  · intro i; norm_num
  · intro i; norm_num

end Verif.Props
