import Verif.Spec.Coverage
import Verif.Props.APD
import Verif.Props.Angles
import Mathlib.Analysis.Real.Pi.Bounds
import Mathlib.Analysis.SpecialFunctions.Trigonometric.Bounds

/-!
# C82: when RVEA keeps a dominated individual and drops its dominator
-/

namespace Verif.Props
open Verif Verif.Spec

variable {m : Nat}

theorem len_lt_of_dominates {f g : Vec m} (hg : ∀ i, 0 ≤ g i) (h : RowDominates g f) : len g < len f := by
  unfold len
  obtain ⟨h1, i, h2⟩ := h
  refine Real.sqrt_lt_sqrt (Finset.sum_nonneg fun i _ => mul_self_nonneg _) ?_
  refine Finset.sum_lt_sum (fun i _ => mul_self_le_mul_self (hg i) (h1 i)) ⟨i, Finset.mem_univ i, ?_⟩
  exact mul_self_lt_mul_self (hg i) h2

theorem angles_nonneg {values : List (Vec m)} {gammas : List ℝ} (h : neighbouringAngles values = .ok gammas) (i : Nat) : 0 ≤ gammas.getD i 0 := by
  unfold neighbouringAngles at h
  split at h
  · cases h
  · simp only [Except.ok.injEq] at h
    subst h
    rw [List.getD_eq_getElem?_getD, List.getElem?_map]
    cases values[i]? with
    | none => simp
    | some v => simp only [Option.map_some, Option.getD_some]; exact Real.arccos_nonneg _

/-- Angle between the translated fitness and a reference vector. -/
noncomputable def angleTo (f v : Vec m) : ℝ := Real.arccos (clippedCos f v)

theorem closer_of_distance {pen γ : ℝ} (hpen : 0 ≤ pen) (hγ : 0 ≤ γ) {f g v : Vec m} (hlt : len g < len f)
    (h : angleDistance pen γ f v ≤ angleDistance pen γ g v) : 0 < pen ∧ angleTo f v < angleTo g v := by
  unfold angleDistance at h
  have hγ' : 0 < (if γ = 0 then 1 / 2 ^ 52 else γ) := by
    split
    · positivity
    · rename_i hne; exact lt_of_le_of_ne hγ (Ne.symm hne)
  generalize (if γ = 0 then 1 / 2 ^ 52 else γ) = c at h hγ'
  have hg0 : 0 ≤ len g := Real.sqrt_nonneg _
  unfold angleTo
  have ha := Real.arccos_nonneg (clippedCos f v)
  have hb := Real.arccos_nonneg (clippedCos g v)
  generalize Real.arccos (clippedCos f v) = a at h ha
  generalize Real.arccos (clippedCos g v) = b at h hb
  have hab : pen * (a / c) < pen * (b / c) := by
    by_contra hn
    have hn := not_lt.1 hn
    have : 0 ≤ pen * (b / c) := mul_nonneg hpen (div_nonneg hb hγ'.le)
    nlinarith
  have hp : 0 < pen := lt_of_le_of_ne hpen (by rintro rfl; simp at hab)
  exact ⟨hp, (div_lt_div_iff_of_pos_right hγ').1 (lt_of_mul_lt_mul_left hab hpen)⟩

/-- C82. In RVEA's selection, an individual kept although another one associated with the same vector (and no less admissible) dominates it
is strictly closer in angle to the vector, and the penalty factor is not 0. -/
theorem c82_dominated_only_closer (values : List (Vec m)) (gammas : List ℝ) (hgam : neighbouringAngles values = .ok gammas) (pen : ℝ) (hpen : 0 ≤ pen)
    (ideal popIdeal : Vec m) (fitness : List (Vec m)) (cons : Option (List (List ℝ))) (sel : List Nat) (id' : Vec m)
    (h : apdDo values gammas pen ideal popIdeal fitness cons = .ok (sel, id')) :
    let t := fun (j : Nat) => ((fitness[j]?).map (fun f (i : Fin m) => f i - id' i))
    let near := fun (j i : Nat) => ∃ f, t j = some f ∧ NearestVector values f i
    let admissible := fun (i j : Nat) => near j i ∧ ∀ c, cons = some c →
      Feasible c j ∨ ((∀ k, near k i → ¬ Feasible c k) ∧ ∀ k, near k i → totalViolation c j ≤ totalViolation c k)
    ∀ j ∈ sel, ∀ i k, near j i → admissible i k → IndDominates fitness k j →
      0 < pen ∧ ∀ f g v, t j = some f → t k = some g → values[i]? = some v → angleTo f v < angleTo g v := by
  intro t near admissible j hj i k hji hk hdom
  obtain ⟨-, -, -, -, h5⟩ := c29_rvea_selection values gammas pen ideal popIdeal fitness cons sel id' h
  obtain ⟨-, -, hpos⟩ := c30_ideal_after_selection values gammas pen ideal popIdeal fitness cons sel id' h
  obtain ⟨i', hi', hbest⟩ := h5 j hj
  have hii : i' = i := by
    obtain ⟨f, hf, hn⟩ := hji
    obtain ⟨⟨f', hf', hn'⟩, -⟩ := hi'
    have hf' : t j = some f' := hf'
    rw [hf] at hf'
    injection hf' with hf'
    subst hf'
    exact nearest_unique values f i' i hn' hn
  subst hii
  obtain ⟨a, b, ha, hb, hab⟩ := hdom
  have hta : t k = some (fun i => a i - id' i) := by simp [t, ha]
  have htb : t j = some (fun i => b i - id' i) := by simp [t, hb]
  have main : ∀ v, values[i']? = some v → 0 < pen ∧ angleTo (fun i => b i - id' i) v < angleTo (fun i => a i - id' i) v := by
    intro v hv
    refine closer_of_distance hpen (angles_nonneg hgam i') ?_ (hbest k hk _ _ v htb hta hv).1
    exact len_lt_of_dominates (fun i => hpos a (List.mem_of_getElem? ha) i)
      ⟨fun i => by have := hab.1 i; simp only; linarith, hab.2.imp (fun i hi => by simp only; linarith)⟩
  obtain ⟨f, -, v, hv, -⟩ := hji
  refine ⟨(main v hv).1, ?_⟩
  intro f g w hf hg hw
  rw [htb] at hf
  rw [hta] at hg
  injection hf with hf
  injection hg with hg
  subst hf hg
  exact (main w hw).2

/-- C82. While the penalty is 0 (the beginning of a run, C31) and there are no constraints, nobody is kept who is dominated by an
individual associated with the same vector. -/
theorem c82_no_penalty (values : List (Vec m)) (gammas : List ℝ) (hgam : neighbouringAngles values = .ok gammas) (ideal popIdeal : Vec m)
    (fitness : List (Vec m)) (sel : List Nat) (id' : Vec m) (h : apdDo values gammas 0 ideal popIdeal fitness none = .ok (sel, id'))
    (j : Nat) (hj : j ∈ sel) (i : Nat) (f g : Vec m) (k : Nat) (hf : fitness[j]? = some f) (hg : fitness[k]? = some g)
    (hjn : NearestVector values (fun c => f c - id' c) i) (hkn : NearestVector values (fun c => g c - id' c) i) : ¬ RowDominates g f := by
  intro hd
  have := c82_dominated_only_closer values gammas hgam 0 le_rfl ideal popIdeal fitness none sel id' h j hj i k
    ⟨_, by simp only [hf, Option.map_some], hjn⟩ ⟨⟨_, by simp only [hg, Option.map_some], hkn⟩, by simp⟩ ⟨g, f, hg, hf, hd⟩
  exact lt_irrefl _ this.1

/-! ## It happens -/

/-- The two axes and the diagonal: the lattice of two objectives with resolution 2. -/
noncomputable def fan : List (Vec 2) := [![1, 0], ![Real.sqrt 2 / 2, Real.sqrt 2 / 2], ![0, 1]]

theorem clippedCos_two (a b x y l : ℝ) (hl : len (![a, b] : Vec 2) = l) (h0 : 0 ≤ (a * x + b * y) / l) (h1 : (a * x + b * y) / l ≤ 1) :
    clippedCos (![a, b] : Vec 2) ![x, y] = (a * x + b * y) / l := by
  have : inner (fun i => (![a, b] : Vec 2) i / len (![a, b] : Vec 2)) ![x, y] = (a * x + b * y) / l := by
    rw [hl]
    simp only [inner, Fin.sum_univ_two, Matrix.cons_val_zero, Matrix.cons_val_one]
    ring
  unfold clippedCos
  rw [this, min_eq_left h1, max_eq_right h0]

theorem len_two (a b : ℝ) : len (![a, b] : Vec 2) = Real.sqrt (a * a + b * b) := by
  simp [len, Fin.sum_univ_two]

theorem nearest_of {values : List (Vec m)} {f : Vec m} {i : Nat} {v : Vec m} (hv : values[i]? = some v)
    (h : ∀ (k : Nat) (w : Vec m), values[k]? = some w → k ≠ i → clippedCos f w < clippedCos f v) : NearestVector values f i := by
  refine ⟨v, hv, fun k w hw => ?_, fun k w hk hw => h k w hw (by omega)⟩
  by_cases hk : k = i
  · subst hk; rw [hv] at hw; injection hw with hw; subst hw; exact le_rfl
  · exact (h k w hw hk).le

theorem angles_le {values : List (Vec m)} (hnn : ∀ v ∈ values, ∀ w ∈ values, 0 ≤ ∑ i, v i * w i) {gammas : List ℝ}
    (h : neighbouringAngles values = .ok gammas) (i : Nat) : gammas.getD i 0 ≤ Real.pi / 2 := by
  unfold neighbouringAngles at h
  split at h
  · cases h
  · simp only [Except.ok.injEq] at h
    subst h
    rw [List.getD_eq_getElem?_getD, List.getElem?_map]
    cases hv : values[i]? with
    | none => simp; positivity
    | some v =>
      simp only [Option.map_some, Option.getD_some]
      rw [Real.arccos_le_pi_div_two]
      refine le_min ?_ zero_le_one
      rw [List.getD_eq_getElem?_getD]
      generalize hl : (values.map (fun w => ∑ i, v i * w i)).mergeSort (fun a b => decide (a ≥ b)) = l
      cases hx : l[1]? with
      | none => simp
      | some x =>
        simp only [Option.getD_some]
        have hm := List.mem_of_getElem? hx
        rw [← hl] at hm
        have hm := (List.mergeSort_perm _ _).mem_iff.1 hm
        obtain ⟨w, hw, rfl⟩ := List.mem_map.1 hm
        exact hnn v (List.mem_of_getElem? hv) w hw

theorem fan_nonneg : ∀ v ∈ fan, ∀ w ∈ fan, 0 ≤ ∑ i, v i * w i := by
  have hs : 0 ≤ Real.sqrt 2 := Real.sqrt_nonneg _
  intro v hv w hw
  refine Finset.sum_nonneg fun i _ => mul_nonneg ?_ ?_
  · simp only [fan, List.mem_cons, List.not_mem_nil, or_false] at hv
    rcases hv with rfl | rfl | rfl <;> fin_cases i <;> simp <;> positivity
  · simp only [fan, List.mem_cons, List.not_mem_nil, or_false] at hw
    rcases hw with rfl | rfl | rfl <;> fin_cases i <;> simp <;> positivity

/-- C82, it happens: at the end of a run (time 1, alpha 2, two objectives) with the vectors of the lattice with resolution 2 and a known ideal
point 0, a population of (2, 1) and (2, 2) is reduced to (2, 2): the one non-dominated individual is dropped for one it dominates. -/
theorem c82_dropped_dominator_violated (g : List ℝ) (hg : neighbouringAngles fan = .ok g) :
    RowDominates (![2, 1] : Vec 2) ![2, 2] ∧
    apdDo fan g (partialPenalty 1 2 2) 0 0 [![2, 1], ![2, 2]] none = .ok ([1], 0) := by
  refine ⟨⟨fun i => by fin_cases i <;> simp, 1, by simp⟩, ?_⟩
  have hpen : partialPenalty 1 2 2 = 2 := by simp [partialPenalty]
  rw [hpen]
  obtain ⟨sel, id', h, hne⟩ := c27_selection_total fan g 2 0 0 [![2, 1], ![2, 2]] none (by simp [fan]) (by simp)
  have hid : id' = 0 := by
    obtain ⟨fmin, -, hf, hid, -⟩ := apdDo_ok _ _ _ _ _ _ _ _ _ h
    simp only [colMin, List.foldl_cons, List.foldl_nil, Except.ok.injEq] at hf
    rw [hid, ← hf]
    funext i
    fin_cases i <;> simp [newIdeal]
  subst hid
  obtain ⟨h1, h2, -, -, h5⟩ := c29_rvea_selection _ _ _ _ _ _ _ _ _ h
  have hs : Real.sqrt 2 * Real.sqrt 2 = 2 := Real.mul_self_sqrt (by norm_num)
  have hs0 : 0 < Real.sqrt 2 := Real.sqrt_pos.2 (by norm_num)
  have hs1 : 1.41 < Real.sqrt 2 := by nlinarith
  have hs2 : Real.sqrt 2 < 1.42 := by nlinarith
  have hr : Real.sqrt 5 * Real.sqrt 5 = 5 := Real.mul_self_sqrt (by norm_num)
  have hr0 : 0 < Real.sqrt 5 := Real.sqrt_pos.2 (by norm_num)
  have hr1 : 2.236 < Real.sqrt 5 := by nlinarith
  have hr2 : Real.sqrt 5 < 2.24 := by nlinarith
  have ld : len (![2, 1] : Vec 2) = Real.sqrt 5 := by rw [len_two]; norm_num
  have lw : len (![2, 2] : Vec 2) = 2 * Real.sqrt 2 := by
    rw [len_two, Real.sqrt_eq_iff_mul_self_eq (by norm_num) (by positivity)]
    nlinarith
  have d0 := clippedCos_two 2 1 1 0 _ ld (by positivity) (by rw [div_le_one hr0]; linarith)
  have d1 := clippedCos_two 2 1 (Real.sqrt 2 / 2) (Real.sqrt 2 / 2) _ ld (by positivity) (by rw [div_le_one hr0]; nlinarith)
  have d2 := clippedCos_two 2 1 0 1 _ ld (by positivity) (by rw [div_le_one hr0]; linarith)
  have w0 := clippedCos_two 2 2 1 0 _ lw (by positivity) (by rw [div_le_one (by positivity)]; linarith)
  have w1 := clippedCos_two 2 2 (Real.sqrt 2 / 2) (Real.sqrt 2 / 2) _ lw (by positivity) (by rw [div_le_one (by positivity)]; linarith)
  have w2 := clippedCos_two 2 2 0 1 _ lw (by positivity) (by rw [div_le_one (by positivity)]; linarith)
  have nd : NearestVector fan (![2, 1] : Vec 2) 1 := by
    refine nearest_of (v := ![Real.sqrt 2 / 2, Real.sqrt 2 / 2]) rfl ?_
    intro k w hw hk
    match k, hk, hw with
    | 0, _, hw =>
      simp only [fan, List.getElem?_cons_zero, Option.some.injEq] at hw
      rw [← hw, d0, d1]
      exact div_lt_div_of_pos_right (by linarith) hr0
    | 2, _, hw =>
      simp only [fan, List.getElem?_cons_succ, List.getElem?_cons_zero, Option.some.injEq] at hw
      rw [← hw, d2, d1]
      exact div_lt_div_of_pos_right (by linarith) hr0
    | k + 3, _, hw => simp [fan] at hw
  have nw : NearestVector fan (![2, 2] : Vec 2) 1 := by
    refine nearest_of (v := ![Real.sqrt 2 / 2, Real.sqrt 2 / 2]) rfl ?_
    intro k w hw hk
    match k, hk, hw with
    | 0, _, hw =>
      simp only [fan, List.getElem?_cons_zero, Option.some.injEq] at hw
      rw [← hw, w0, w1]
      exact div_lt_div_of_pos_right (by linarith) (by positivity)
    | 2, _, hw =>
      simp only [fan, List.getElem?_cons_succ, List.getElem?_cons_zero, Option.some.injEq] at hw
      rw [← hw, w2, w1]
      exact div_lt_div_of_pos_right (by linarith) (by positivity)
    | k + 3, _, hw => simp [fan] at hw
  have td : (fun i => (![2, 1] : Vec 2) i - (0 : Vec 2) i) = ![2, 1] := by funext i; simp
  have tw : (fun i => (![2, 2] : Vec 2) i - (0 : Vec 2) i) = ![2, 2] := by funext i; simp
  have hno : 0 ∉ sel := by
    intro h0
    obtain ⟨i, ⟨⟨f, hf, hn⟩, -⟩, hbest⟩ := h5 0 h0
    simp only [List.getElem?_cons_zero, Option.map_some, Option.some.injEq] at hf
    rw [td] at hf
    subst hf
    have hi := nearest_unique _ _ _ _ hn nd
    subst hi
    have := (hbest 1 ⟨⟨![2, 2], congrArg some tw, nw⟩, by simp⟩ ![2, 1] ![2, 2] ![Real.sqrt 2 / 2, Real.sqrt 2 / 2]
      (congrArg some td) (congrArg some tw) rfl).1
    have g0 := angles_nonneg hg 1
    have g1 := angles_le fan_nonneg hg 1
    unfold angleDistance at this
    have c0 : 0 < (if g.getD 1 0 = 0 then 1 / 2 ^ 52 else g.getD 1 0) := by
      split
      · positivity
      · rename_i hne; exact lt_of_le_of_ne g0 (Ne.symm hne)
    have c1 : (if g.getD 1 0 = 0 then 1 / 2 ^ 52 else g.getD 1 0) ≤ 1.6 := by
      split
      · norm_num
      · have := Real.pi_lt_d2; linarith
    generalize (if g.getD 1 0 = 0 then 1 / 2 ^ 52 else g.getD 1 0) = c at this c0 c1
    have e1 : (2 * (Real.sqrt 2 / 2) + 2 * (Real.sqrt 2 / 2)) / (2 * Real.sqrt 2) = 1 := by field_simp; ring
    rw [ld, lw, d1, w1, e1, Real.arccos_one] at this
    have hθ : 0.3 ≤ Real.arccos ((2 * (Real.sqrt 2 / 2) + 1 * (Real.sqrt 2 / 2)) / Real.sqrt 5) := by
      have hc : (2 * (Real.sqrt 2 / 2) + 1 * (Real.sqrt 2 / 2)) / Real.sqrt 5 ≤ Real.cos 0.3 := by
        refine le_trans ?_ (Real.one_sub_sq_div_two_le_cos)
        rw [div_le_iff₀ hr0]
        nlinarith
      have := Real.arccos_le_arccos hc
      rwa [Real.arccos_cos (by norm_num) (by linarith [Real.pi_gt_three])] at this
    generalize Real.arccos ((2 * (Real.sqrt 2 / 2) + 1 * (Real.sqrt 2 / 2)) / Real.sqrt 5) = θ at this hθ
    have hq : 0.18 ≤ θ / c := by rw [le_div_iff₀ c0]; nlinarith
    simp only [zero_div, mul_zero, add_zero, mul_one] at this
    nlinarith
  have hsel : sel = [1] := by
    match sel, hne, h1, h2, hno with
    | [a], _, _, h2, hno =>
      have := h2 a (by simp)
      simp only [List.length_cons, List.length_nil] at this
      have : a ≠ 0 := fun e => hno (by simp [e])
      have : a = 1 := by omega
      rw [this]
    | a :: b :: l, _, h1, h2, hno =>
      have ha := h2 a (by simp)
      have hb := h2 b (by simp)
      simp only [List.length_cons, List.length_nil] at ha hb
      have : a ≠ 0 := fun e => hno (by simp [e])
      have : b ≠ 0 := fun e => hno (by simp [e])
      have : a ≠ b := by
        have := (List.nodup_cons.1 h1).1
        intro e; subst e; simp at this
      omega
  rw [h, hsel]

/-- The vectors of the theorem above have neighbouring angles. -/
example : ∃ g, neighbouringAngles fan = .ok g := ⟨_, rfl⟩

/-- C82, even without penalty: across vectors a dominated individual stays while its dominator goes.  With the two axes as vectors, (21, 0)
and (20, 21) are kept and (20, 19) is dropped: it dominates (20, 21). -/
theorem c82_across_vectors_violated (g : List ℝ) :
    RowDominates (![20, 19] : Vec 2) ![20, 21] ∧
    ∃ sel, apdDo [![1, 0], ![0, 1]] g 0 0 0 [![21, 0], ![20, 19], ![20, 21]] none = .ok (sel, 0) ∧ 1 ∉ sel ∧ 2 ∈ sel := by
  refine ⟨⟨fun i => by fin_cases i <;> norm_num, 1, by norm_num⟩, ?_⟩
  obtain ⟨sel, id', h, hne⟩ := c27_selection_total [![1, 0], ![0, 1]] g 0 0 0 [![21, 0], ![20, 19], ![20, 21]] none (by simp) (by simp)
  have hid : id' = 0 := by
    obtain ⟨fmin, -, hf, hid, -⟩ := apdDo_ok _ _ _ _ _ _ _ _ _ h
    simp only [colMin, List.foldl_cons, List.foldl_nil, Except.ok.injEq] at hf
    rw [hid, ← hf]
    funext i
    fin_cases i <;> simp [newIdeal]
  subst hid
  obtain ⟨-, -, -, h4, h5⟩ := c29_rvea_selection _ _ _ _ _ _ _ _ _ h
  have la : len (![21, 0] : Vec 2) = 21 := by
    rw [len_two, Real.sqrt_eq_iff_mul_self_eq (by norm_num) (by norm_num)]; norm_num
  have hd0 : 0 < Real.sqrt (20 * 20 + 19 * 19) := Real.sqrt_pos.2 (by norm_num)
  have hd1 : Real.sqrt (20 * 20 + 19 * 19) * Real.sqrt (20 * 20 + 19 * 19) = 20 * 20 + 19 * 19 := Real.mul_self_sqrt (by norm_num)
  have hw0 : 0 < Real.sqrt (20 * 20 + 21 * 21) := Real.sqrt_pos.2 (by norm_num)
  have hw1 : Real.sqrt (20 * 20 + 21 * 21) * Real.sqrt (20 * 20 + 21 * 21) = 20 * 20 + 21 * 21 := Real.mul_self_sqrt (by norm_num)
  have a0 := clippedCos_two 21 0 1 0 _ la (by norm_num) (by norm_num)
  have a1 := clippedCos_two 21 0 0 1 _ la (by norm_num) (by norm_num)
  have d0 := clippedCos_two 20 19 1 0 _ (len_two 20 19) (by positivity) (by rw [div_le_one hd0]; nlinarith)
  have d1 := clippedCos_two 20 19 0 1 _ (len_two 20 19) (by positivity) (by rw [div_le_one hd0]; nlinarith)
  have w0 := clippedCos_two 20 21 1 0 _ (len_two 20 21) (by positivity) (by rw [div_le_one hw0]; nlinarith)
  have w1 := clippedCos_two 20 21 0 1 _ (len_two 20 21) (by positivity) (by rw [div_le_one hw0]; nlinarith)
  have na : NearestVector [![1, 0], ![0, 1]] (![21, 0] : Vec 2) 0 := by
    refine nearest_of (v := ![1, 0]) rfl ?_
    intro k w hw hk
    match k, hk, hw with
    | 1, _, hw =>
      simp only [List.getElem?_cons_succ, List.getElem?_cons_zero, Option.some.injEq] at hw
      rw [← hw, a0, a1]
      norm_num
    | k + 2, _, hw => simp at hw
  have nd : NearestVector [![1, 0], ![0, 1]] (![20, 19] : Vec 2) 0 := by
    refine nearest_of (v := ![1, 0]) rfl ?_
    intro k w hw hk
    match k, hk, hw with
    | 1, _, hw =>
      simp only [List.getElem?_cons_succ, List.getElem?_cons_zero, Option.some.injEq] at hw
      rw [← hw, d0, d1]
      exact div_lt_div_of_pos_right (by norm_num) hd0
    | k + 2, _, hw => simp at hw
  have nw : NearestVector [![1, 0], ![0, 1]] (![20, 21] : Vec 2) 1 := by
    refine nearest_of (v := ![0, 1]) rfl ?_
    intro k w hw hk
    match k, hk, hw with
    | 0, _, hw =>
      simp only [List.getElem?_cons_zero, Option.some.injEq] at hw
      rw [← hw, w0, w1]
      exact div_lt_div_of_pos_right (by norm_num) hw0
    | k + 2, _, hw => simp at hw
  have ta : (fun i => (![21, 0] : Vec 2) i - (0 : Vec 2) i) = ![21, 0] := by funext i; simp
  have td : (fun i => (![20, 19] : Vec 2) i - (0 : Vec 2) i) = ![20, 19] := by funext i; simp
  have tw : (fun i => (![20, 21] : Vec 2) i - (0 : Vec 2) i) = ![20, 21] := by funext i; simp
  have hno : 1 ∉ sel := by
    intro h1
    obtain ⟨i, ⟨⟨f, hf, hn⟩, -⟩, hbest⟩ := h5 1 h1
    simp only [List.getElem?_cons_zero, List.getElem?_cons_succ, Option.map_some, Option.some.injEq] at hf
    rw [td] at hf
    subst hf
    have hi := nearest_unique _ _ _ _ hn nd
    subst hi
    have := (hbest 0 ⟨⟨![21, 0], congrArg some ta, na⟩, by simp⟩ ![20, 19] ![21, 0] ![1, 0] (congrArg some td) (congrArg some ta) rfl).1
    unfold angleDistance at this
    rw [la, len_two] at this
    simp only [zero_mul, add_zero, mul_one] at this
    nlinarith
  obtain ⟨k, hk, ⟨f, hf, hn⟩, -⟩ := h4 1 2 ⟨![20, 21], congrArg some tw, nw⟩
  refine ⟨sel, h, hno, ?_⟩
  have : k = 2 := by
    match k, hf with
    | 0, hf =>
      simp only [List.getElem?_cons_zero, Option.map_some, Option.some.injEq] at hf
      rw [ta] at hf
      subst hf
      exact absurd (nearest_unique _ _ _ _ hn na) (by norm_num)
    | 1, hf => exact absurd hk hno
    | 2, _ => rfl
    | k + 3, hf => simp at hf
  rw [← this]
  exact hk

end Verif.Props
