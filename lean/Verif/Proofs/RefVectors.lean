import Mathlib.Tactic.Linarith
import Mathlib.Tactic.Ring
import Mathlib.Tactic.FieldSimp
import Mathlib.Tactic.Positivity
import Mathlib.Data.Nat.Choose.Basic
import Verif.Model.RefVectors
import Verif.Spec.RefVectors

/-! # Lemmas about the reference vector model -/

open scoped BigOperators

namespace Verif

/-! ## combinations -/

theorem mem_combos {α : Type} (k : Nat) (l c : List α) : c ∈ combos k l ↔ c.Sublist l ∧ c.length = k := by
  induction l generalizing k c with
  | nil =>
    cases k with
    | zero => simp [combos]
    | succ k =>
      simp only [combos, List.not_mem_nil, false_iff, not_and]
      intro h; rw [List.sublist_nil.1 h]; simp
  | cons x xs ih =>
    cases k with
    | zero =>
      simp only [combos, List.mem_singleton]
      constructor
      · rintro rfl; simp
      · rintro ⟨-, h⟩; exact List.length_eq_zero_iff.1 h
    | succ k =>
      simp only [combos, List.mem_append, List.mem_map, ih]
      constructor
      · rintro (⟨a, ⟨h1, h2⟩, rfl⟩ | ⟨h1, h2⟩)
        · exact ⟨h1.cons_cons x, by simp [h2]⟩
        · exact ⟨h1.cons x, h2⟩
      · rintro ⟨h1, h2⟩
        cases h1 with
        | cons _ h => exact Or.inr ⟨h, h2⟩
        | cons_cons _ h => exact Or.inl ⟨_, ⟨h, by simpa using h2⟩, rfl⟩

theorem nodup_combos {α : Type} (k : Nat) (l : List α) (h : l.Nodup) : (combos k l).Nodup := by
  induction l generalizing k with
  | nil => cases k <;> simp [combos]
  | cons x xs ih =>
    cases k with
    | zero => simp [combos]
    | succ k =>
      simp only [combos]
      obtain ⟨hx, hn⟩ := List.nodup_cons.1 h
      refine List.nodup_append.2 ⟨?_, ih _ hn, ?_⟩
      · exact (ih k hn).map (fun a b hab => by simpa using hab)
      · intro a ha b hb
        obtain ⟨a', -, rfl⟩ := List.mem_map.1 ha
        rintro rfl
        exact hx ((mem_combos _ _ _).1 hb |>.1.subset (by simp))

theorem length_combos {α : Type} (k : Nat) (l : List α) : (combos k l).length = comb l.length k := by
  induction l generalizing k with
  | nil => cases k <;> simp [combos, comb]
  | cons x xs ih => cases k <;> simp [combos, comb, ih]

theorem comb_eq_choose (n k : Nat) : comb n k = Nat.choose n k := by
  induction n generalizing k with
  | zero => cases k <;> simp [comb]
  | succ n ih => cases k <;> simp [comb, ih, Nat.choose_succ_succ]

theorem sublist_range' (n a : Nat) (c : List Nat) :
    c.Sublist (List.range' a n) ↔ c.Pairwise (· < ·) ∧ ∀ x ∈ c, a ≤ x ∧ x < a + n := by
  constructor
  · intro h
    refine ⟨List.Pairwise.sublist h (List.pairwise_lt_range' (s := a) (n := n)), fun x hx => ?_⟩
    have := h.subset hx
    simpa [List.mem_range'_1] using this
  · induction n generalizing a c with
    | zero =>
      rintro ⟨-, h⟩
      cases c with
      | nil => simp
      | cons x xs => have := h x (by simp); omega
    | succ n ih =>
      rintro ⟨hp, h⟩
      rw [List.range'_succ]
      cases c with
      | nil => simp
      | cons x xs =>
        obtain ⟨h1, h2⟩ := List.pairwise_cons.1 hp
        by_cases hx : x = a
        · subst hx
          refine List.Sublist.cons_cons _ (ih _ _ ⟨h2, fun y hy => ?_⟩)
          have := h1 y hy; have := h y (by simp [hy]); omega
        · refine List.Sublist.cons _ (ih _ _ ⟨hp, fun y hy => ?_⟩)
          have hxa := h x (by simp)
          rcases List.mem_cons.1 hy with rfl | hy'
          · omega
          · have := h1 y hy'; have := h y (by simp [hy']); omega

/-! ## combinations and compositions -/

theorem weightRow_eq_go (r : Int) (ts : List Int) (h : ts ≠ []) : weightRow r ts = weightRow.go r 0 ts := by
  match ts, h with
  | [t], _ => simp [weightRow, weightRow.go]
  | t :: t' :: ts, _ => simp [weightRow, weightRow.go]

theorem pairwise_bound (x : Nat) (cs : List Nat) (B : Nat) (h : (x :: cs).Pairwise (· < ·)) (hB : ∀ y ∈ x :: cs, y ≤ B) :
    x + cs.length ≤ B := by
  induction cs generalizing x with
  | nil => simpa using hB x (by simp)
  | cons y ys ih =>
    have hxy : x < y := (List.pairwise_cons.1 h).1 y (by simp)
    have := ih y (List.pairwise_cons.1 h).2 (fun z hz => hB z (List.mem_cons_of_mem _ hz))
    simp only [List.length_cons]; omega

/-- A row of weights is a composition of `r - prev`. -/
theorem go_sound (r : Nat) (c : List Nat) (prev i : Nat) (hp : c.Pairwise (· < ·)) (hlo : ∀ x ∈ c, prev + i < x)
    (hhi : ∀ x ∈ c, x ≤ r + i + c.length) (hr : prev ≤ r) :
    ∃ k : List Nat, weightRow.go r prev (shiftRow i c) = k.map (fun n : Nat => (n : Int)) ∧ k.length = c.length + 1 ∧
      prev + k.sum = r := by
  induction c generalizing prev i with
  | nil => exact ⟨[r - prev], by simp [shiftRow, weightRow.go, Int.ofNat_sub hr], by simp, by simp; omega⟩
  | cons x cs ih =>
    have hx := hlo x (by simp)
    have hb := pairwise_bound x cs (r + i + (cs.length + 1)) hp (by simpa using hhi)
    obtain ⟨h1, h2⟩ := List.pairwise_cons.1 hp
    obtain ⟨k, hk, hl, hs⟩ := ih (x - i - 1) (i + 1) h2 (fun y hy => by have := h1 y hy; omega)
      (fun y hy => by have := hhi y (by simp [hy]); simp only [List.length_cons] at this; omega) (by omega)
    refine ⟨(x - i - 1 - prev) :: k, ?_, by simp [hl], by simp; omega⟩
    have hc : ((x : Int) - i - 1) = ((x - i - 1 : Nat) : Int) := by omega
    simp only [shiftRow, weightRow.go, List.map_cons, hc]
    rw [hk]
    congr 1
    omega

/-- Every composition is the row of some combination. -/
theorem go_complete (r : Nat) (k : List Nat) (prev i : Nat) (hk : k ≠ []) (hs : prev + k.sum = r) :
    ∃ c : List Nat, c.Pairwise (· < ·) ∧ (∀ x ∈ c, prev + i < x) ∧ (∀ x ∈ c, x ≤ r + i + c.length) ∧
      c.length + 1 = k.length ∧ weightRow.go r prev (shiftRow i c) = k.map (fun n : Nat => (n : Int)) := by
  induction k generalizing prev i with
  | nil => exact absurd rfl hk
  | cons a k ih =>
    cases k with
    | nil =>
      refine ⟨[], by simp, by simp, by simp, by simp, ?_⟩
      simp only [List.sum_cons, List.sum_nil] at hs
      simp [shiftRow, weightRow.go]; omega
    | cons b k =>
      obtain ⟨c, h1, h2, h3, h4, h5⟩ := ih (prev + a) (i + 1) (by simp) (by simp only [List.sum_cons] at hs ⊢; omega)
      refine ⟨(prev + a + i + 1) :: c, ?_, ?_, ?_, by simp at h4 ⊢; omega, ?_⟩
      · exact List.pairwise_cons.2 ⟨fun y hy => by have := h2 y hy; omega, h1⟩
      · intro x hx
        rcases List.mem_cons.1 hx with rfl | hx
        · omega
        · have := h2 x hx; omega
      · intro x hx
        rcases List.mem_cons.1 hx with rfl | hx
        · simp only [List.sum_cons] at hs; simp only [List.length_cons]; omega
        · have := h3 x hx; simp only [List.length_cons]; omega
      · simp only [shiftRow, weightRow.go, List.map_cons] at h5 ⊢
        have hc : ((prev + a + i + 1 : Nat) : Int) - i - 1 = ((prev + a : Nat) : Int) := by push_cast; omega
        rw [hc, h5]
        congr 1
        push_cast; omega

theorem go_injective (r : Int) (c c' : List Nat) (prev : Int) (i : Nat)
    (h : weightRow.go r prev (shiftRow i c) = weightRow.go r prev (shiftRow i c')) : c = c' := by
  induction c generalizing prev i c' with
  | nil =>
    cases c' with
    | nil => rfl
    | cons y ys =>
      have := congrArg List.length h
      cases ys <;> simp [shiftRow, weightRow.go] at this
  | cons x xs ih =>
    cases c' with
    | nil =>
      have := congrArg List.length h
      cases xs <;> simp [shiftRow, weightRow.go] at this
    | cons y ys =>
      simp only [shiftRow, weightRow.go, List.cons.injEq] at h
      have hxy : x = y := by omega
      subst hxy
      rw [ih _ _ _ h.2]

theorem mem_weights (m r : Nat) (hm : 2 ≤ m) (w : List Int) :
    w ∈ weights m r ↔ ∃ k : List Nat, k.length = m ∧ k.sum = r ∧ w = k.map (fun n : Nat => (n : Int)) := by
  unfold weights pyRange
  simp only [List.mem_map, mem_combos, sublist_range']
  constructor
  · rintro ⟨c, ⟨⟨h1, h2⟩, h3⟩, rfl⟩
    have hne : shiftRow 0 c ≠ [] := by
      cases c with
      | nil => simp at h3; omega
      | cons x xs => simp [shiftRow]
    obtain ⟨k, hk, hl, hs⟩ := go_sound r c 0 0 h1 (fun x hx => by have := h2 x hx; omega)
      (fun x hx => by have := h2 x hx; omega) (by omega)
    exact ⟨k, by omega, by omega, by rw [weightRow_eq_go _ _ hne]; exact hk⟩
  · rintro ⟨k, h1, h2, rfl⟩
    obtain ⟨c, hp, hlo, hhi, hl, hg⟩ := go_complete r k 0 0 (by rintro rfl; simp at h1; omega) (by omega)
    have hne : shiftRow 0 c ≠ [] := by
      cases c with
      | nil => simp at hl; omega
      | cons x xs => simp [shiftRow]
    refine ⟨c, ⟨⟨hp, fun x hx => ?_⟩, by omega⟩, by rw [weightRow_eq_go _ _ hne]; exact hg⟩
    have := hlo x hx; have := hhi x hx; omega

theorem nodup_weights (m r : Nat) (hm : 2 ≤ m) : (weights m r).Nodup := by
  unfold weights
  refine List.Nodup.map_on ?_ (nodup_combos _ _ (by unfold pyRange; exact List.nodup_range'))
  intro c hc c' hc' h
  have key : ∀ c ∈ combos (m - 1) (pyRange 1 (m + r)), shiftRow 0 c ≠ [] := by
    intro c hc
    have := ((mem_combos _ _ _).1 hc).2
    cases c with
    | nil => simp at this; omega
    | cons x xs => simp [shiftRow]
  rw [weightRow_eq_go _ _ (key c hc), weightRow_eq_go _ _ (key c' hc')] at h
  exact go_injective _ _ _ _ _ h

theorem length_weights (m r : Nat) (hm : 2 ≤ m) : (weights m r).length = Nat.choose (r + m - 1) (m - 1) := by
  unfold weights pyRange
  rw [List.length_map, length_combos, List.length_range', comb_eq_choose]
  congr 1; omega

/-! ## rows as functions -/

theorem sum_getD (k : List Nat) (m : Nat) (h : k.length = m) : ∑ i : Fin m, k.getD i 0 = k.sum := by
  subst h
  have : (fun i : Fin k.length => k.getD i 0) = fun i : Fin k.length => k[i] := by
    funext i; simp
  rw [this]
  exact Fin.sum_univ_getElem k

theorem latticeRow_spec {m : Nat} (r : Nat) (hm : 2 ≤ m) (v : Vec m) :
    v ∈ (weights m r).map (latticeRow m r) ↔ Spec.OnSimplexLattice r v := by
  simp only [List.mem_map]
  constructor
  · rintro ⟨w, hw, rfl⟩
    obtain ⟨k, h1, h2, rfl⟩ := (mem_weights m r hm w).1 hw
    refine ⟨fun i => k.getD i 0, by rw [sum_getD k m h1, h2], fun i => ?_⟩
    have hi : (i : Nat) < k.length := by omega
    simp [latticeRow, hi]
  · rintro ⟨k, h1, h2⟩
    refine ⟨(List.ofFn k).map (fun n : Nat => (n : Int)), (mem_weights m r hm _).2 ⟨List.ofFn k, by simp, ?_, rfl⟩, ?_⟩
    · rw [List.sum_ofFn]; exact h1
    · funext i
      rw [h2 i]
      simp [latticeRow]

theorem nodup_lattice {m : Nat} (r : Nat) (hm : 2 ≤ m) (hr : 1 ≤ r) : ((weights m r).map (latticeRow m r)).Nodup := by
  refine List.Nodup.map_on ?_ (nodup_weights m r hm)
  intro w hw w' hw' h
  obtain ⟨k, h1, -, rfl⟩ := (mem_weights m r hm w).1 hw
  obtain ⟨k', h1', -, rfl⟩ := (mem_weights m r hm w').1 hw'
  congr 1
  refine List.ext_getElem (by omega) (fun i hi hi' => ?_)
  have := congrFun h ⟨i, by omega⟩
  have hr' : (r : ℝ) ≠ 0 := by positivity
  simp only [latticeRow] at this
  rw [div_left_inj' hr'] at this
  simpa [hi, hi'] using this

/-! ## normalisation -/

variable {m : Nat}

theorem norm2_eq_len (v : Vec m) : norm2 v = Spec.len v := by
  unfold norm2 Spec.len
  congr 1
  exact Finset.sum_congr rfl (fun i _ => by ring)

theorem norm2_nonneg (v : Vec m) : 0 ≤ norm2 v := Real.sqrt_nonneg _

theorem norm2_eq_zero (v : Vec m) : norm2 v = 0 ↔ v = 0 := by
  unfold norm2
  rw [Real.sqrt_eq_zero (Finset.sum_nonneg (fun i _ => by positivity)),
    Finset.sum_eq_zero_iff_of_nonneg (fun i _ => by positivity)]
  constructor
  · intro h; funext i; simpa using h i (Finset.mem_univ i)
  · rintro rfl; simp

theorem norm2_sq (v : Vec m) : norm2 v ^ 2 = ∑ i, v i ^ 2 :=
  Real.sq_sqrt (Finset.sum_nonneg (fun i _ => by positivity))

theorem norm2_smul (c : ℝ) (v : Vec m) : norm2 (fun i => c * v i) = |c| * norm2 v := by
  unfold norm2
  have : ∑ i, (c * v i) ^ 2 = c ^ 2 * ∑ i, v i ^ 2 := by
    rw [Finset.mul_sum]; exact Finset.sum_congr rfl (fun i _ => by ring)
  rw [this, Real.sqrt_mul (by positivity), Real.sqrt_sq_eq_abs]

theorem norm2_div (v : Vec m) (c : ℝ) (hc : 0 ≤ c) : norm2 (fun i => v i / c) = norm2 v / c := by
  have := norm2_smul (c⁻¹) v
  rw [abs_of_nonneg (inv_nonneg.2 hc)] at this
  rw [div_eq_inv_mul, ← this]
  congr 1
  funext i; rw [div_eq_inv_mul]

theorem unitRow_zero : unitRow (0 : Vec m) = 0 := by
  funext i; simp [unitRow]

theorem norm2_unitRow (v : Vec m) (h : v ≠ 0) : norm2 (unitRow v) = 1 := by
  have hn : norm2 v ≠ 0 := fun h' => h ((norm2_eq_zero v).1 h')
  unfold unitRow
  rw [if_neg hn, norm2_div v _ (norm2_nonneg v), div_self hn]

theorem unitRow_of_norm_one (v : Vec m) (h : norm2 v = 1) : unitRow v = v := by
  funext i; simp [unitRow, h]

theorem unitRow_idem (v : Vec m) : unitRow (unitRow v) = unitRow v := by
  by_cases h : v = 0
  · subst h; rw [unitRow_zero, unitRow_zero]
  · exact unitRow_of_norm_one _ (norm2_unitRow v h)

theorem unitRow_isDirection (v : Vec m) : Spec.IsDirection v (unitRow v) := by
  by_cases h : v = 0
  · subst h; exact Or.inl ⟨rfl, unitRow_zero⟩
  · have hn : norm2 v ≠ 0 := fun h' => h ((norm2_eq_zero v).1 h')
    refine Or.inr ⟨by rw [← norm2_eq_len]; exact norm2_unitRow v h, norm2 v, lt_of_le_of_ne (norm2_nonneg v) (Ne.symm hn), ?_⟩
    intro i
    simp only [unitRow, if_neg hn]
    field_simp

theorem isDirection_unique (w u u' : Vec m) (h : Spec.IsDirection w u) (h' : Spec.IsDirection w u') : u = u' := by
  rcases h with ⟨h1, h2⟩ | ⟨h1, c, hc, h2⟩ <;> rcases h' with ⟨h1', h2'⟩ | ⟨h1', c', hc', h2'⟩
  · rw [h2, h2']
  · exfalso
    have : u' = 0 := by
      funext i; have := h2' i; rw [h1] at this; simp at this
      rcases this with h | h
      · exact absurd h hc'.ne'
      · simpa using h
    rw [this, ← norm2_eq_len, (norm2_eq_zero _).2 rfl] at h1'; simp at h1'
  · exfalso
    have : u = 0 := by
      funext i; have := h2 i; rw [h1'] at this; simp at this
      rcases this with h | h
      · exact absurd h hc.ne'
      · simpa using h
    rw [this, ← norm2_eq_len, (norm2_eq_zero _).2 rfl] at h1; simp at h1
  · have e1 : norm2 w = c := by
      have : w = fun i => c * u i := funext h2
      rw [this, norm2_smul, abs_of_pos hc, norm2_eq_len, h1, mul_one]
    have e2 : norm2 w = c' := by
      have : w = fun i => c' * u' i := funext h2'
      rw [this, norm2_smul, abs_of_pos hc', norm2_eq_len, h1', mul_one]
    have : c = c' := e1.symm.trans e2
    subst this
    funext i
    have := (h2 i).symm.trans (h2' i)
    exact mul_left_cancel₀ hc.ne' this

theorem sum_planarRow (v : Vec m) (h : ∑ i, v i ≠ 0) : ∑ i, planarRow v i = 1 := by
  unfold planarRow
  simp only [div_eq_mul_inv]
  rw [← Finset.sum_mul, mul_inv_cancel₀ h]

theorem planarRow_of_sum_one (v : Vec m) (h : ∑ i, v i = 1) : planarRow v = v := by
  funext i; simp [planarRow, h]

theorem planarRow_idem (v : Vec m) : planarRow (planarRow v) = planarRow v := by
  by_cases h : ∑ i, v i = 0
  · have : planarRow v = 0 := by funext i; simp [planarRow, h]
    rw [this]; funext i; simp [planarRow]
  · exact planarRow_of_sum_one _ (sum_planarRow v h)

theorem axis_norm (i : Fin m) : norm2 (axis i) = 1 := by
  unfold norm2 axis
  simp

theorem axis_sum (i : Fin m) : ∑ j, axis i j = 1 := by
  unfold axis; simp

theorem axes_length : (axes m).length = m := by simp [axes]

theorem map_unitRow_axes : (axes m).map unitRow = axes m := by
  unfold axes
  rw [List.map_ofFn]
  congr 1
  funext i
  exact unitRow_of_norm_one _ (axis_norm i)

theorem map_planarRow_axes : (axes m).map planarRow = axes m := by
  unfold axes
  rw [List.map_ofFn]
  congr 1
  funext i
  exact planarRow_of_sum_one _ (axis_sum i)

end Verif
