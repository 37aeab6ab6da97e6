import Verif.Proofs.RefVectors
import Verif.Proofs.Dominance

/-!
# Properties C17, C20–C25: reference vectors
-/

open scoped BigOperators

namespace Verif.Props
open Verif Verif.Spec

variable {m : Nat}

/-! ## C21, C17: the resolution -/

theorem choose_lt_succ (m t : Nat) (hm : 2 ≤ m) :
    Nat.choose (t + m - 1) (m - 1) < Nat.choose (t + 1 + m - 1) (m - 1) := by
  obtain ⟨k, rfl⟩ : ∃ k, m = k + 2 := ⟨m - 2, by omega⟩
  have e1 : t + 1 + (k + 2) - 1 = (t + k + 1) + 1 := by omega
  have e2 : t + (k + 2) - 1 = t + k + 1 := by omega
  have e3 : k + 2 - 1 = k + 1 := by omega
  rw [e1, e2, e3, Nat.choose_succ_succ' (t + k + 1) k]
  have : 0 < Nat.choose (t + k + 1) k := Nat.choose_pos (by omega)
  omega

theorem choose_strictMono (m : Nat) (hm : 2 ≤ m) {a b : Nat} (h : a < b) :
    Nat.choose (a + m - 1) (m - 1) < Nat.choose (b + m - 1) (m - 1) :=
  strictMono_nat_of_lt_succ (f := fun t => Nat.choose (t + m - 1) (m - 1)) (fun n => choose_lt_succ m n hm) h

theorem choose_ge (m t : Nat) (hm : 2 ≤ m) : t + 1 ≤ Nat.choose (t + m - 1) (m - 1) := by
  induction t with
  | zero => exact Nat.choose_pos (by omega)
  | succ t ih => have := choose_lt_succ m t hm; omega

theorem search_spec (m n : Nat) (hm : 2 ≤ m) (fuel t : Nat) (hf : n < fuel + t)
    (ht : ∀ u, 1 ≤ u → u ≤ t → Nat.choose (u + m - 1) (m - 1) ≤ n) :
    ∃ r, searchResolution m n fuel t = some r ∧
      ∀ u, 1 ≤ u → (Nat.choose (u + m - 1) (m - 1) ≤ n ↔ u ≤ r) := by
  induction fuel generalizing t with
  | zero =>
    rcases Nat.eq_zero_or_pos t with h0 | h0
    · omega
    · have := ht t h0 (Nat.le_refl t); have := choose_ge m t hm; omega
  | succ fuel ih =>
    simp only [searchResolution]
    rw [comb_eq_choose]
    split
    · rename_i h
      refine ⟨t, by simp, fun u hu => ⟨fun h1 => ?_, fun h1 => ht u hu h1⟩⟩
      by_contra hlt
      have hlt : t + 1 ≤ u := by omega
      rcases Nat.lt_or_ge (t + 1) u with h2 | h2
      · have := choose_strictMono m hm h2; omega
      · have : u = t + 1 := by omega
        subst this; omega
    · rename_i h
      refine ih (t + 1) (by omega) (fun u hu hle => ?_)
      rcases Nat.lt_or_ge u (t + 1) with h2 | h2
      · exact ht u hu (by omega)
      · have : u = t + 1 := by omega
        subst this; omega

/-- C21. For two or more objectives the search for a resolution ends, and the resolution `r` it returns is
the largest (positive) one whose lattice has at most `n` points: a positive resolution fits iff it is at
most `r`. -/
theorem c21_resolution_is_largest_fitting (m n : Nat) (hm : 2 ≤ m) :
    ∃ r, chooseResolution m none (some n) = .ok (some r) ∧
      ∀ u, 1 ≤ u → (Nat.choose (u + m - 1) (m - 1) ≤ n ↔ u ≤ r) := by
  obtain ⟨r, h1, h2⟩ := search_spec m n hm (n + 1) 0 (by omega) (by omega)
  exact ⟨r, by simp [chooseResolution, h1], h2⟩

/-- C21. With `n ≥ m` the resolution is at least 1 and the number of points is at most `n`; with `n < m`
the resolution is 0 (and the constructor divides by zero). -/
theorem c21_count_bounded (m n : Nat) (hm : 2 ≤ m) :
    ∃ r, chooseResolution m none (some n) = .ok (some r) ∧
      (m ≤ n → 1 ≤ r ∧ Nat.choose (r + m - 1) (m - 1) ≤ n) ∧ (n < m → r = 0) := by
  obtain ⟨r, h1, h2⟩ := c21_resolution_is_largest_fitting m n hm
  have e1 : Nat.choose (1 + m - 1) (m - 1) = m := by
    obtain ⟨k, rfl⟩ : ∃ k, m = k + 2 := ⟨m - 2, by omega⟩
    have : 1 + (k + 2) - 1 = (k + 1) + 1 := by omega
    rw [this, show k + 2 - 1 = k + 1 from rfl, Nat.choose_succ_self_right]
  refine ⟨r, h1, fun h => ?_, fun h => ?_⟩
  · have : 1 ≤ r := (h2 1 (Nat.le_refl 1)).1 (by omega)
    exact ⟨this, (h2 r this).2 (Nat.le_refl r)⟩
  · by_contra hr
    have := (h2 1 (Nat.le_refl 1)).2 (by omega)
    omega

/-- C21. Asking for an exact lattice size gives the resolution of that lattice. -/
theorem c21_exact_size (m r : Nat) (hm : 2 ≤ m) (hr : 1 ≤ r) :
    chooseResolution m none (some (Nat.choose (r + m - 1) (m - 1))) = .ok (some r) := by
  obtain ⟨q, h1, h2⟩ := c21_resolution_is_largest_fitting m (Nat.choose (r + m - 1) (m - 1)) hm
  have hle : r ≤ q := (h2 r hr).1 (Nat.le_refl _)
  have hge : q ≤ r := by
    by_contra h
    have := (h2 q (by omega)).2 (Nat.le_refl _)
    have := choose_strictMono m hm (show r < q by omega)
    omega
  rw [h1, Nat.le_antisymm hge hle]

/-- C21. With one objective the search never ends: no number of rounds suffices. -/
theorem c21_one_objective_never_ends (n fuel t : Nat) (hn : 1 ≤ n) : searchResolution 1 n fuel t = none := by
  induction fuel generalizing t with
  | zero => rfl
  | succ fuel ih =>
    have h0 : comb (t + 1 + 1 - 1) (1 - 1) = 1 := by rw [comb_eq_choose]; simp
    simp only [searchResolution]
    rw [h0, if_neg (by omega)]
    exact ih _

/-- C21. Neither a resolution nor a number: ValueError. -/
theorem c21_nothing_given (m : Nat) : chooseResolution m none none = .error .valueError := rfl

example : chooseResolution 3 none (some 105) = .ok (some 13) := by decide +kernel
example : chooseResolution 3 none (some 119) = .ok (some 13) := by decide +kernel

/-! ## C20 -/

theorem lattice_sum (r : Nat) (hr : 1 ≤ r) (v : Vec m) (h : OnSimplexLattice r v) : ∑ i, v i = 1 := by
  obtain ⟨k, h1, h2⟩ := h
  have hr' : (r : ℝ) ≠ 0 := by positivity
  simp only [h2, div_eq_mul_inv]
  rw [← Finset.sum_mul, ← Nat.cast_sum, h1, mul_inv_cancel₀ hr']

theorem create_ok (r : Nat) (hm : 2 ≤ m) (hr : 1 ≤ r) :
    RV.create m r = .ok
      { init := ((weights m r).map (latticeRow m r)).map unitRow, initP := (weights m r).map (latticeRow m r),
        values := ((weights m r).map (latticeRow m r)).map unitRow, planar := (weights m r).map (latticeRow m r),
        number := Nat.choose (r + m - 1) (m - 1) } := by
  have hp : ((weights m r).map (latticeRow m r)).map planarRow = (weights m r).map (latticeRow m r) := by
    rw [List.map_congr_left (g := id)]
    · simp
    · intro v hv
      exact planarRow_of_sum_one v (lattice_sum r hr v ((latticeRow_spec r hm v).1 hv))
  unfold RV.create RV.normalize
  rw [if_neg (by omega)]
  simp only [hp]
  simp [length_weights m r hm]

/-- C20. The planar vectors created for `m ≥ 2` objectives and resolution `r ≥ 1` are exactly the points
`(k₁/r, …, k_m/r)` with natural `k` summing to `r`, each once; there are binom(r+m-1, m-1); the spherical
vectors are their directions, in the same order. -/
theorem c20_uniform_is_simplex_lattice (r : Nat) (hm : 2 ≤ m) (hr : 1 ≤ r) :
    ∃ s : RV m, RV.create m r = .ok s ∧ (∀ v, v ∈ s.planar ↔ OnSimplexLattice r v) ∧ s.planar.Nodup ∧
      s.planar.length = Nat.choose (r + m - 1) (m - 1) ∧ s.number = Nat.choose (r + m - 1) (m - 1) ∧
      List.Forall₂ IsDirection s.planar s.values ∧ s.init = s.values ∧ s.initP = s.planar := by
  refine ⟨_, create_ok r hm hr, latticeRow_spec r hm, nodup_lattice r hm hr, ?_, rfl, ?_, rfl, rfl⟩
  · simp [length_weights m r hm]
  · simp only
    generalize (weights m r).map (latticeRow m r) = l
    induction l with
    | nil => simp
    | cons a l ih => exact List.Forall₂.cons (unitRow_isDirection a) ih

/-- C20: one objective is refused (IndexError) whatever the resolution. -/
theorem c20_one_objective_refused (r : Nat) : RV.create 1 r = .error .indexError := rfl

example : ∃ v : Vec 3, OnSimplexLattice 13 v := ⟨![13 / 13, 0, 0], ![13, 0, 0], by simp [Fin.sum_univ_succ], by
  intro i; fin_cases i <;> simp⟩

/-! ## C17 -/

/-- C17. With only a resolution `r ≥ 1` given the population size is binom(r+m-1, m-1), and the set of
reference vectors the selection operator creates for that population size has exactly that many vectors. -/
theorem c17_population_size_is_number_of_vectors (r : Nat) (hm : 2 ≤ m) (hr : 1 ≤ r) :
    ∃ s : RV m, (chooseResolution m none (some (choosePopSize m none (some r)))) = .ok (some r) ∧
      RV.create m r = .ok s ∧ choosePopSize m none (some r) = Nat.choose (r + m - 1) (m - 1) ∧
      s.values.length = choosePopSize m none (some r) ∧ s.planar.length = choosePopSize m none (some r) := by
  have hc : choosePopSize m none (some r) = Nat.choose (r + m - 1) (m - 1) := by
    simp [choosePopSize, comb_eq_choose]
  refine ⟨_, ?_, create_ok r hm hr, hc, ?_, ?_⟩
  · rw [hc]; exact c21_exact_size m r hm hr
  · simp [hc, length_weights m r hm]
  · simp [hc, length_weights m r hm]

/-- C17. The same when neither size nor resolution is given; the default resolution depends only on `m`. -/
theorem c17_default_population_size (hm : 2 ≤ m) :
    ∃ r, ∃ s : RV m, 1 ≤ r ∧ (chooseResolution m none (some (choosePopSize m none none))) = .ok (some r) ∧
      RV.create m r = .ok s ∧ choosePopSize m none none = Nat.choose (r + m - 1) (m - 1) ∧
      s.values.length = choosePopSize m none none := by
  have hr : 1 ≤ defaultResolution m := by
    unfold defaultResolution
    split
    · split <;> omega
    · omega
  have he : choosePopSize m none none = choosePopSize m none (some (defaultResolution m)) := rfl
  obtain ⟨s, h1, h2, h3, h4, -⟩ := c17_population_size_is_number_of_vectors (defaultResolution m) hm hr
  exact ⟨defaultResolution m, s, hr, by rw [he]; exact h1, h2, by rw [he]; exact h3, by rw [he]; exact h4⟩

example : choosePopSize 3 none none = 105 ∧ choosePopSize 2 none none = 50 ∧ choosePopSize 4 none none = 120 := by
  decide +kernel

/-- C17, explicit sizes: with a given `population_size` the number of vectors is at most that size, and
smaller when the size is not a lattice size. -/
theorem c17_explicit_size_is_upper_bound (n : Nat) (hm : 2 ≤ m) (hn : m ≤ n) :
    ∃ r, ∃ s : RV m, chooseResolution m none (some (choosePopSize m (some n) none)) = .ok (some r) ∧
      RV.create m r = .ok s ∧ s.values.length ≤ n ∧
      ((¬ ∃ u, n = Nat.choose (u + m - 1) (m - 1)) → s.values.length < n) := by
  obtain ⟨r, h1, h2, -⟩ := c21_count_bounded m n hm
  obtain ⟨hr, hle⟩ := h2 hn
  have hl : (((weights m r).map (latticeRow m r)).map unitRow).length = Nat.choose (r + m - 1) (m - 1) := by
    simp [length_weights m r hm]
  refine ⟨r, _, h1, create_ok r hm hr, by rw [hl]; exact hle, fun hne => ?_⟩
  rw [hl]
  exact lt_of_le_of_ne hle (fun h => hne ⟨r, h.symm⟩)

/-! ## Histories: invariants -/

/-- What every reachable vector set satisfies. -/
structure Norm (s : RV m) : Prop where
  values : ∀ v ∈ s.values, unitRow v = v
  planar : ∀ v ∈ s.planar, planarRow v = v
  number : s.number = s.values.length

theorem norm_normalize (s : RV m) : Norm s.normalize := by
  refine ⟨?_, ?_, by simp [RV.normalize]⟩
  · intro v hv
    obtain ⟨w, -, rfl⟩ := List.mem_map.1 hv
    exact unitRow_idem w
  · intro v hv
    obtain ⟨w, -, rfl⟩ := List.mem_map.1 hv
    exact planarRow_idem w

theorem norm_addEdges (s : RV m) : Norm s.addEdges := norm_normalize _

theorem map_eq_self {α : Type} (f : α → α) (l : List α) (h : ∀ v ∈ l, f v = v) : l.map f = l := by
  conv_rhs => rw [← List.map_id l]
  exact List.map_congr_left h

theorem norm_call (s t : RV m) (c : VecCall m) (h : s.call c = .ok t) : Norm t := by
  cases c with
  | adapt f =>
    simp only [RV.call, RV.adapt] at h
    split at h
    · cases h; exact norm_normalize _
    · cases h
    · cases h
  | refPoint d => simp only [RV.call, Except.ok.injEq] at h; subst h; exact norm_addEdges _
  | preferred z n =>
    simp only [RV.call] at h
    cases hx : s.adapt1 z n (1 / 5) with
    | error e => rw [hx] at h; cases h
    | ok u => rw [hx] at h; cases h; exact norm_addEdges _
  | nonPreferred z n =>
    simp only [RV.call] at h
    cases hx : s.adapt2 z n (1 / 5) with
    | error e => rw [hx] at h; cases h
    | ok u => rw [hx] at h; cases h; exact norm_addEdges _
  | ranges lo hi lhs => simp only [RV.call, Except.ok.injEq] at h; subst h; exact norm_addEdges _

theorem init_call (s t : RV m) (c : VecCall m) (h : s.call c = .ok t) : t.init = s.init ∧ t.initP = s.initP := by
  cases c with
  | adapt f =>
    simp only [RV.call, RV.adapt] at h
    split at h
    · cases h; exact ⟨rfl, rfl⟩
    · cases h
    · cases h
  | refPoint d => simp only [RV.call, Except.ok.injEq] at h; subst h; exact ⟨rfl, rfl⟩
  | preferred z n =>
    simp only [RV.call, RV.adapt1] at h
    split at h
    · cases h; exact ⟨rfl, rfl⟩
    · split at h
      · cases h
      · cases h; exact ⟨rfl, rfl⟩
      · cases h; exact ⟨rfl, rfl⟩
  | nonPreferred z n =>
    simp only [RV.call, RV.adapt2] at h
    split at h
    · cases h; exact ⟨rfl, rfl⟩
    · split at h
      · cases h
      · cases h; exact ⟨rfl, rfl⟩
  | ranges lo hi lhs => simp only [RV.call, Except.ok.injEq] at h; subst h; exact ⟨rfl, rfl⟩

theorem run_inv (P : RV m → Prop) (hstep : ∀ s t c, P s → s.call c = .ok t → P t) (cs : List (VecCall m)) (s : RV m)
    (h : P s) : P (s.run cs) := by
  induction cs generalizing s with
  | nil => exact h
  | cons c cs ih =>
    simp only [RV.run]
    cases hc : s.call c with
    | error e => exact ih s h
    | ok t => exact ih t (hstep s t c h hc)

theorem run_norm (cs : List (VecCall m)) (s : RV m) (h : Norm s) : Norm (s.run cs) :=
  run_inv Norm (fun s t c _ hc => norm_call s t c hc) cs s h

theorem run_init (cs : List (VecCall m)) (s : RV m) : (s.run cs).init = s.init ∧ (s.run cs).initP = s.initP :=
  run_inv (fun t => t.init = s.init ∧ t.initP = s.initP)
    (fun _ _ c hs hc => ⟨(init_call _ _ c hc).1.trans hs.1, (init_call _ _ c hc).2.trans hs.2⟩) cs s ⟨rfl, rfl⟩

theorem create_norm (r : Nat) (s : RV m) (h : RV.create m r = .ok s) : Norm s := by
  unfold RV.create at h
  split at h
  · cases h
  · cases h
    have := norm_normalize ({ init := [], initP := [], values := (weights m r).map (latticeRow m r), planar := (weights m r).map (latticeRow m r), number := comb (r + m - 1) (m - 1) } : RV m)
    exact ⟨this.values, this.planar, this.number⟩

/-! ## C22 -/

theorem unit_cases (v : Vec m) (h : unitRow v = v) : len v = 1 ∨ v = 0 := by
  by_cases h0 : v = 0
  · exact Or.inr h0
  · left; rw [← norm2_eq_len, ← h, norm2_unitRow v h0]

theorem planar_cases (v : Vec m) (h : planarRow v = v) (h0 : ∑ i, v i ≠ 0) : ∑ i, v i = 1 := by
  have := sum_planarRow v h0
  rwa [h] at this

/-- C22. After creation and any history of adaptations (accepted preferences of all four kinds, fitness
adaptations, failed calls), every spherical vector has Euclidean length 1 or is zero, every planar vector
with nonzero sum has sum 1, and `number_of_vectors` is the number of spherical vectors. -/
theorem c22_always_normalised (r : Nat) (s : RV m) (hs : RV.create m r = .ok s) (cs : List (VecCall m)) :
    (∀ v ∈ (s.run cs).values, len v = 1 ∨ v = 0) ∧
    (∀ v ∈ (s.run cs).planar, ∑ i, v i ≠ 0 → ∑ i, v i = 1) ∧
    (s.run cs).number = (s.run cs).values.length := by
  have h := run_norm cs s (create_norm r s hs)
  exact ⟨fun v hv => unit_cases v (h.values v hv), fun v hv h0 => planar_cases v (h.planar v hv) h0, h.number⟩

/-- A call whose preference points into the nonnegative orthant (after the shift by the ideal point for a
reference point), so that no row of zero sum can arise. -/
def NonnegPref : VecCall m → Prop
  | .adapt _ => True
  | .refPoint d => ∀ i, 0 ≤ d i
  | .preferred z _ => ∀ v ∈ z, ∀ i, 0 ≤ v i
  | .nonPreferred _ _ => True
  | .ranges lo hi lhs => ∀ n, ∀ u ∈ lhs n, (∀ i, 0 ≤ u i * (hi i - lo i) + lo i) ∧ 0 < ∑ i, (u i * (hi i - lo i) + lo i)

/-- Nonnegative with sum 1. -/
def OnSimplex (v : Vec m) : Prop := (∀ i, 0 ≤ v i) ∧ ∑ i, v i = 1

theorem onSimplex_planarRow (v : Vec m) (h : ∀ i, 0 ≤ v i) (hs : 0 < ∑ i, v i) : OnSimplex (planarRow v) :=
  ⟨fun i => div_nonneg (h i) hs.le, sum_planarRow v hs.ne'⟩

theorem onSimplex_axes : ∀ v ∈ axes m, OnSimplex v := by
  intro v hv
  unfold axes at hv
  obtain ⟨i, rfl⟩ := (List.mem_ofFn' _ _).1 hv
  exact ⟨fun j => by simp only [axis]; split <;> norm_num, axis_sum i⟩

theorem onSimplex_blend (v z : Vec m) (hv : OnSimplex v) (hz : ∀ i, 0 ≤ z i) : OnSimplex (planarRow (blend (1 / 5) z v)) := by
  refine onSimplex_planarRow _ (fun i => ?_) ?_
  · have := hv.1 i; have := hz i; unfold blend; linarith
  · have h1 : ∑ i, blend (1 / 5) z v i = 1 / 5 * ∑ i, v i + (1 - 1 / 5) * ∑ i, z i := by
      unfold blend; rw [Finset.sum_add_distrib, Finset.mul_sum, Finset.mul_sum]
    have h2 : 0 ≤ ∑ i, z i := Finset.sum_nonneg (fun i _ => hz i)
    rw [h1, hv.2]; linarith

theorem compress_subset {α : Type} (mask : List Bool) (l : List α) : ∀ v ∈ compress mask l, v ∈ l :=
  fun _ hv => (compress_sublist mask l).subset hv

/-- C22. From a lattice and any history of preferences pointing into the nonnegative orthant, every planar
vector is nonnegative with sum exactly 1 (no division by zero ever happens). -/
theorem c22_planar_on_simplex (r : Nat) (hm : 2 ≤ m) (hr : 1 ≤ r) (s : RV m) (hs : RV.create m r = .ok s)
    (cs : List (VecCall m)) (hcs : ∀ c ∈ cs, NonnegPref c) :
    ∀ v ∈ (s.run cs).planar, (∀ i, 0 ≤ v i) ∧ ∑ i, v i = 1 := by
  have h0 : (∀ v ∈ s.initP, OnSimplex v) ∧ (∀ v ∈ s.planar, OnSimplex v) := by
    rw [create_ok r hm hr] at hs
    cases hs
    have : ∀ v ∈ (weights m r).map (latticeRow m r), OnSimplex v := by
      intro v hv
      have hl := (latticeRow_spec r hm v).1 hv
      refine ⟨fun i => ?_, lattice_sum r hr v hl⟩
      obtain ⟨k, -, h2⟩ := hl
      rw [h2 i]; positivity
    exact ⟨this, this⟩
  have hplan : ∀ v : Vec m, OnSimplex v → OnSimplex (planarRow v) := by
    intro v hv; rw [planarRow_of_sum_one v hv.2]; exact hv
  have hedge : ∀ t : RV m, (∀ v ∈ t.planar, OnSimplex v) → ∀ v ∈ t.addEdges.planar, OnSimplex v := by
    intro t ht v hv
    obtain ⟨w, hw, rfl⟩ := List.mem_map.1 hv
    rcases List.mem_append.1 hw with hw | hw
    · exact hplan w (ht w hw)
    · exact hplan w (onSimplex_axes w hw)
  have hstep : ∀ (t u : RV m) (c : VecCall m), NonnegPref c → (∀ v ∈ t.initP, OnSimplex v) →
      (∀ v ∈ t.planar, OnSimplex v) → t.call c = .ok u → ∀ v ∈ u.planar, OnSimplex v := by
    intro t u c hc hi hp h
    cases c with
    | adapt f =>
      simp only [RV.call, RV.adapt] at h
      split at h
      · cases h
        intro v hv
        obtain ⟨w, hw, rfl⟩ := List.mem_map.1 hv
        exact hplan w (hp w hw)
      · cases h
      · cases h
    | refPoint d =>
      simp only [RV.call, Except.ok.injEq] at h; subst h
      refine hedge _ (fun v hv => ?_)
      obtain ⟨w, hw, rfl⟩ := List.mem_map.1 hv
      obtain ⟨x, hx, rfl⟩ := List.mem_map.1 hw
      exact onSimplex_blend _ _ (hi x hx) (fun i => div_nonneg (hc i) (norm2_nonneg d))
    | preferred z n =>
      simp only [RV.call, RV.adapt1] at h
      split at h
      · cases h
        refine hedge _ (fun v hv => ?_)
        obtain ⟨w, hw, rfl⟩ := List.mem_map.1 hv
        exact hplan w (hi w hw)
      · split at h
        · cases h
        · cases h
          refine hedge _ (fun v hv => ?_)
          obtain ⟨w, hw, rfl⟩ := List.mem_map.1 hv
          obtain ⟨x, hx, rfl⟩ := List.mem_map.1 hw
          exact onSimplex_blend _ _ (hi x hx) (hc _ (by simp))
        · cases h
          refine hedge _ (fun v hv => ?_)
          obtain ⟨w, hw, rfl⟩ := List.mem_map.1 hv
          obtain ⟨z1, hz1, hw⟩ := List.mem_flatMap.1 hw
          obtain ⟨x, hx, rfl⟩ := List.mem_map.1 hw
          exact onSimplex_blend _ _ (hi x hx) (hc z1 hz1)
    | nonPreferred z n =>
      simp only [RV.call, RV.adapt2] at h
      split at h
      · cases h
        refine hedge _ (fun v hv => ?_)
        obtain ⟨w, hw, rfl⟩ := List.mem_map.1 hv
        exact hplan w (hi w hw)
      · split at h
        · cases h
        · cases h
          exact hedge _ (fun v hv => hp v (compress_subset _ _ v hv))
    | ranges lo hi' lhs =>
      simp only [RV.call, Except.ok.injEq] at h; subst h
      refine hedge _ (fun v hv => ?_)
      obtain ⟨w, hw, rfl⟩ := List.mem_map.1 hv
      obtain ⟨x, hx, rfl⟩ := List.mem_map.1 hw
      obtain ⟨h1, h2⟩ := hc _ x hx
      exact onSimplex_planarRow _ h1 h2
  have main : ∀ (cs : List (VecCall m)) (t : RV m), (∀ c ∈ cs, NonnegPref c) → (∀ v ∈ t.initP, OnSimplex v) →
      (∀ v ∈ t.planar, OnSimplex v) → ∀ v ∈ (t.run cs).planar, OnSimplex v := by
    intro cs
    induction cs with
    | nil => intro t _ _ hp; exact hp
    | cons c cs ih =>
      intro t hcs hi hp
      simp only [RV.run]
      cases hc : t.call c with
      | error e => exact ih t (fun d hd => hcs d (by simp [hd])) hi hp
      | ok u =>
        refine ih u (fun d hd => hcs d (by simp [hd])) ?_ (hstep t u c (hcs c (by simp)) hi hp hc)
        rw [(init_call t u c hc).2]; exact hi
  exact main cs s hcs h0.1 h0.2

example : ∃ s : RV 2, RV.create 2 3 = .ok s ∧
    ∀ c ∈ [VecCall.adapt [![1, 2], ![2, 1]], VecCall.refPoint (m := 2) ![1, 2], .preferred [![1, 1], ![3, 0]] 5,
      .nonPreferred [![0, 1]] 7, .ranges ![0, 1] ![1, 2] (fun _ => [![1 / 2, 1 / 2]])], NonnegPref c := by
  refine ⟨_, create_ok 3 (by omega) (by omega), ?_⟩
  intro c hc
  simp only [List.mem_cons, List.not_mem_nil, or_false] at hc
  rcases hc with rfl | rfl | rfl | rfl | rfl
  · trivial
  · intro i; fin_cases i <;> simp
  · intro v hv i
    simp only [List.mem_cons, List.not_mem_nil, or_false] at hv
    rcases hv with rfl | rfl <;> fin_cases i <;> simp
  · trivial
  · intro n u hu
    simp only [List.mem_singleton] at hu
    subst hu
    refine ⟨fun i => ?_, ?_⟩
    · fin_cases i <;> norm_num
    · simp [Fin.sum_univ_succ]; norm_num

/-! ## C23 -/

theorem foldl_max (rs : List (Vec m)) (r : Vec m) (j : Fin m) :
    IsColMax (r :: rs) j (rs.foldl (fun a b i => max (a i) (b i)) r j) := by
  induction rs generalizing r with
  | nil => exact ⟨⟨r, by simp, rfl⟩, by simp⟩
  | cons a rs ih =>
    obtain ⟨⟨x, hx, hxe⟩, hle⟩ := ih (fun i => max (r i) (a i))
    simp only [List.foldl_cons]
    refine ⟨?_, ?_⟩
    · rcases List.mem_cons.1 hx with rfl | hx
      · rw [← hxe]
        rcases le_total (r j) (a j) with h | h
        · exact ⟨a, by simp, by simp [h]⟩
        · exact ⟨r, by simp, by simp [h]⟩
      · exact ⟨x, by simp [hx], hxe⟩
    · intro y hy
      have h0 := hle _ (List.mem_cons_self)
      rcases List.mem_cons.1 hy with rfl | hy
      · exact le_trans (le_max_left _ _) h0
      · rcases List.mem_cons.1 hy with rfl | hy
        · exact le_trans (le_max_right _ _) h0
        · exact hle y (by simp [hy])

theorem foldl_min (rs : List (Vec m)) (r : Vec m) (j : Fin m) :
    IsColMin (r :: rs) j (rs.foldl (fun a b i => min (a i) (b i)) r j) := by
  induction rs generalizing r with
  | nil => exact ⟨⟨r, by simp, rfl⟩, by simp⟩
  | cons a rs ih =>
    obtain ⟨⟨x, hx, hxe⟩, hle⟩ := ih (fun i => min (r i) (a i))
    simp only [List.foldl_cons]
    refine ⟨?_, ?_⟩
    · rcases List.mem_cons.1 hx with rfl | hx
      · rw [← hxe]
        rcases le_total (r j) (a j) with h | h
        · exact ⟨r, by simp, by simp [h]⟩
        · exact ⟨a, by simp, by simp [h]⟩
      · exact ⟨x, by simp [hx], hxe⟩
    · intro y hy
      have h0 := hle _ (List.mem_cons_self)
      rcases List.mem_cons.1 hy with rfl | hy
      · exact le_trans h0 (min_le_left _ _)
      · rcases List.mem_cons.1 hy with rfl | hy
        · exact le_trans h0 (min_le_right _ _)
        · exact hle y (by simp [hy])

theorem adapt_eq (s : RV m) (f : List (Vec m)) (hf : f ≠ []) :
    ∃ lo hi : Vec m, (∀ j, IsColMin f j (lo j)) ∧ (∀ j, IsColMax f j (hi j)) ∧
      s.adapt f = .ok ({ s with values := s.init.map (fun v i => v i * (hi i - lo i)) } : RV m).normalize := by
  cases f with
  | nil => exact absurd rfl hf
  | cons r rs => exact ⟨_, _, foldl_min rs r, foldl_max rs r, rfl⟩

theorem forall₂_direction (f : Vec m → Vec m) (l : List (Vec m)) :
    List.Forall₂ (fun v u => IsDirection (f v) u) l ((l.map f).map unitRow) := by
  induction l with
  | nil => simp
  | cons a l ih => exact List.Forall₂.cons (unitRow_isDirection _) ih

/-- C23. Adapting to a nonempty fitness matrix succeeds; vector `i` of the result is the direction of the
initial vector `i` with coordinate `j` scaled by the range of column `j`. -/
theorem c23_adapt_scales_initial_vectors (s : RV m) (f : List (Vec m)) (hf : f ≠ []) :
    ∃ (t : RV m) (lo hi : Vec m), s.adapt f = .ok t ∧ (∀ j, IsColMin f j (lo j)) ∧ (∀ j, IsColMax f j (hi j)) ∧
      List.Forall₂ (fun v u => IsDirection (fun j => v j * (hi j - lo j)) u) s.init t.values := by
  obtain ⟨lo, hi, h1, h2, h3⟩ := adapt_eq s f hf
  exact ⟨_, lo, hi, h3, h1, h2, forall₂_direction _ _⟩

/-- C23. Adapting twice to the same fitness matrix is adapting once (the whole object agrees). -/
theorem c23_adapt_idempotent (s t : RV m) (f : List (Vec m)) (h : s.adapt f = .ok t) : t.adapt f = .ok t := by
  cases f with
  | nil => cases h
  | cons r rs =>
    simp only [RV.adapt, colMax, colMin, Except.ok.injEq] at h ⊢
    subst h
    simp only [RV.normalize, RV.mk.injEq, List.map_map, true_and, and_true, List.length_map]
    exact List.map_congr_left (fun v _ => planarRow_idem v)

/-- C23. No history of preferences and adaptations (accepted or rejected) leaves a trace in the spherical
vectors that a later fitness adaptation produces; only the column ranges of the fitness matter. -/
theorem c23_adapt_history_independent (s t t' : RV m) (cs cs' : List (VecCall m)) (f g : List (Vec m))
    (hfg : SameRanges f g) (h : (s.run cs).adapt f = .ok t) (h' : (s.run cs').adapt g = .ok t') :
    t.values = t'.values ∧ t.number = t'.number := by
  have hf : f ≠ [] := by rintro rfl; cases h
  have hg : g ≠ [] := by rintro rfl; cases h'
  obtain ⟨lo, hi, h1, h2, h3⟩ := adapt_eq (s.run cs) f hf
  obtain ⟨lo', hi', h1', h2', h3'⟩ := adapt_eq (s.run cs') g hg
  have hr : ∀ j, hi j - lo j = hi' j - lo' j := fun j => hfg j _ _ _ _ (h1 j) (h2 j) (h1' j) (h2' j)
  rw [h3, Except.ok.injEq] at h
  rw [h3', Except.ok.injEq] at h'
  subst h; subst h'
  simp only [RV.normalize, (run_init cs s).1, (run_init cs' s).1, hr, and_self]

theorem axes_ne_zero (hm : 2 ≤ m) : axes m ≠ [] := by
  intro h; have := congrArg List.length h; rw [axes_length] at this; simp at this; omega

/-- C23, the gap. Adaptation leaves the planar vectors alone: after a reference point and then an
adaptation there are still `N + m` planar vectors but `N` spherical ones, and the planar ones are
those of the preference. -/
theorem c23_planar_not_reset (s t : RV m) (hn : s.init.length = s.initP.length)
    (d : Vec m) (f : List (Vec m)) (hf : f ≠ []) (h : s.run [.refPoint d] = t) :
    ∃ u, t.adapt f = .ok u ∧ u.planar = t.planar ∧ u.values.length = s.init.length ∧
      u.planar.length = s.init.length + m := by
  obtain ⟨lo, hi, -, -, h3⟩ := adapt_eq t f hf
  have ht : t = (s.adapt3 (fun i => d i / norm2 d) (1 / 5)).addEdges := by rw [← h]; rfl
  have hN : Norm t := by rw [ht]; exact norm_addEdges _
  refine ⟨_, h3, ?_, ?_, ?_⟩
  · simp only [RV.normalize]; exact map_eq_self _ _ hN.planar
  · simp only [RV.normalize, List.length_map]; rw [ht]; rfl
  · simp only [RV.normalize, List.length_map]; rw [ht]
    simp [RV.addEdges, RV.normalize, RV.adapt3, axes_length, hn]

example : ∃ s : RV 2, RV.create 2 3 = .ok s ∧ s.init.length = s.initP.length ∧
    SameRanges [![0, 0], ![1, 1]] [![5, 5], ![6, 6], (![5, 6] : Vec 2)] := by
  refine ⟨_, create_ok 3 (by omega) (by omega), by simp, ?_⟩
  intro j a b a' b' ⟨⟨r1, hr1, h1⟩, h1'⟩ ⟨⟨r2, hr2, h2⟩, h2'⟩ ⟨⟨r3, hr3, h3⟩, h3'⟩ ⟨⟨r4, hr4, h4⟩, h4'⟩
  simp only [List.mem_cons, List.not_mem_nil, or_false, forall_eq_or_imp, forall_eq] at *
  fin_cases j <;> simp at * <;> rcases hr1 with rfl | rfl <;> rcases hr2 with rfl | rfl <;>
    rcases hr3 with rfl | rfl | rfl <;> rcases hr4 with rfl | rfl | rfl <;> simp at * <;> linarith

/-! ## C24 -/

theorem addEdges_values (s : RV m) (h : ∀ v ∈ s.values, unitRow v = v) : s.addEdges.values = s.values ++ axes m := by
  simp only [RV.addEdges, RV.normalize, List.map_append, map_unitRow_axes, map_eq_self _ _ h]

theorem addEdges_planar (s : RV m) (h : ∀ v ∈ s.planar, planarRow v = v) : s.addEdges.planar = s.planar ++ axes m := by
  simp only [RV.addEdges, RV.normalize, List.map_append, map_planarRow_axes, map_eq_self _ _ h]

/-- The last `m` rows are the coordinate axes in order. -/
def EndsWithAxes (front all : List (Vec m)) : Prop :=
  ∃ ax : List (Vec m), all = front ++ ax ∧ List.Forall₂ IsAxis (List.finRange m) ax

theorem endsWithAxes_axes (front : List (Vec m)) : EndsWithAxes front (front ++ axes m) := by
  refine ⟨axes m, rfl, ?_⟩
  unfold axes
  rw [List.ofFn_eq_map]
  generalize List.finRange m = l
  induction l with
  | nil => simp
  | cons i l ih =>
    refine List.Forall₂.cons ⟨by simp [axis], fun j hj => ?_⟩ ih
    simp only [axis]; rw [if_neg (fun h => hj h.symm)]

/-- C24, reference point. Whatever happened before, the accepted reference point gives `N + m` vectors
(`N` initial ones): the directions of `1/5 v + 4/5 d/|d|` for the initial vectors `v` in order, then the `m`
axes. -/
theorem c24_reference_point (s0 : RV m) (cs : List (VecCall m)) (d : Vec m) (hd : d ≠ 0) :
    ∃ t u front, (s0.run cs).call (.refPoint d) = .ok t ∧ IsDirection d u ∧ EndsWithAxes front t.values ∧
      List.Forall₂ (fun v w => IsDirection (fun i => 1 / 5 * v i + 4 / 5 * u i) w) s0.init front ∧
      t.values.length = s0.init.length + m ∧ t.number = s0.init.length + m := by
  have hu : (fun i => d i / norm2 d) = unitRow d := by
    funext i; simp [unitRow, (norm2_eq_zero d).not.2 hd]
  refine ⟨_, unitRow d, (s0.init.map (blend (1 / 5) (unitRow d))).map unitRow, rfl, unitRow_isDirection d, ?_, ?_, ?_, ?_⟩
  · rw [addEdges_values ((s0.run cs).adapt3 (fun i => d i / norm2 d) (1 / 5)) (norm_normalize _).values]
    have : ((s0.run cs).adapt3 (fun i => d i / norm2 d) (1 / 5)).values =
        (s0.init.map (blend (1 / 5) (unitRow d))).map unitRow := by
      simp only [RV.adapt3, RV.normalize, (run_init cs s0).1, hu]
    rw [this]
    exact endsWithAxes_axes _
  · have : (fun v w => IsDirection (fun i => 1 / 5 * v i + 4 / 5 * unitRow d i) w) =
        (fun v w : Vec m => IsDirection (blend (1 / 5) (unitRow d) v) w) := by
      funext v w
      congr 1
      funext i; unfold blend; ring
    rw [this]
    exact forall₂_direction _ _
  · simp [RV.addEdges, RV.normalize, RV.adapt3, axes_length, (run_init cs s0).1]
  · simp [RV.addEdges, RV.normalize, RV.adapt3, axes_length, (run_init cs s0).1]

/-- C24, some (not all) preferred solutions: `k·N + m` vectors, for each preferred `z` in turn the directions of
`1/5 v + 4/5 z` for the initial vectors `v` in order, then the axes. -/
theorem c24_preferred_solutions (s0 : RV m) (cs : List (VecCall m)) (z : List (Vec m)) (n : Nat) (hz : z ≠ [])
    (hn : z.length ≠ n) :
    ∃ t front, (s0.run cs).call (.preferred z n) = .ok t ∧ EndsWithAxes front t.values ∧
      List.Forall₂ (fun p w => IsDirection (fun i => 1 / 5 * p.2 i + 4 / 5 * p.1 i) w)
        (z.flatMap (fun zi => s0.init.map (fun v => (zi, v)))) front ∧
      t.values.length = z.length * s0.init.length + m ∧ t.number = z.length * s0.init.length + m := by
  have key : ∃ t0 : RV m, (s0.run cs).adapt1 z n (1 / 5) = .ok t0 ∧ Norm t0 ∧
      t0.values = (z.flatMap (fun zi => s0.init.map (blend (1 / 5) zi))).map unitRow := by
    unfold RV.adapt1
    rw [if_neg hn]
    match z, hz with
    | [z1], _ => exact ⟨_, rfl, norm_normalize _, by simp [RV.normalize, (run_init cs s0).1]⟩
    | z1 :: z2 :: zs, _ => exact ⟨_, rfl, norm_normalize _, by simp only [RV.normalize, (run_init cs s0).1]⟩
  obtain ⟨t0, h1, h2, h3⟩ := key
  have hl : (z.flatMap (fun zi => s0.init.map (blend (1 / 5) zi))).length = z.length * s0.init.length := by
    clear h1 h3 hz hn
    induction z with
    | nil => simp
    | cons a z ih => simp [ih, Nat.add_mul]; omega
  refine ⟨t0.addEdges, _, by simp only [RV.call, h1]; rfl,
    by rw [addEdges_values _ h2.values]; exact endsWithAxes_axes _, ?_, ?_, ?_⟩
  · rw [h3]
    clear h1 h3 hl hz hn
    induction z with
    | nil => simp
    | cons a z ih =>
      simp only [List.flatMap_cons, List.map_append]
      refine List.rel_append ?_ ih
      generalize s0.init = l
      induction l with
      | nil => simp
      | cons v l ih =>
        refine List.Forall₂.cons ?_ ih
        have : (fun i => 1 / 5 * v i + 4 / 5 * a i) = blend (1 / 5) a v := by
          funext i; unfold blend; ring
        simp only [this]
        exact unitRow_isDirection _
  · rw [addEdges_values _ h2.values]
    simp [h3, axes_length, hl]
  · rw [(norm_addEdges t0).number, addEdges_values _ h2.values]
    simp [h3, axes_length, hl]

/-- C24. All solutions preferred: the initial vectors and the axes. -/
theorem c24_all_preferred_resets (r : Nat) (s0 : RV m) (hs : RV.create m r = .ok s0) (cs : List (VecCall m))
    (z : List (Vec m)) :
    ∃ t, (s0.run cs).call (.preferred z z.length) = .ok t ∧ EndsWithAxes s0.init t.values ∧
      t.values.length = s0.init.length + m ∧ t.number = s0.init.length + m := by
  have hi : s0.init.map unitRow = s0.init := by
    unfold RV.create at hs
    split at hs
    · cases hs
    · cases hs
      simp only [RV.normalize, List.map_map]
      exact List.map_congr_left (fun v _ => unitRow_idem _)
  refine ⟨_, by simp only [RV.call, RV.adapt1, if_true]; rfl, ?_, ?_, ?_⟩
  · rw [addEdges_values _ (norm_normalize _).values]
    simp only [RV.normalize, (run_init cs s0).1, hi]
    exact endsWithAxes_axes _
  · simp [RV.addEdges, RV.normalize, axes_length, (run_init cs s0).1]
  · simp [RV.addEdges, RV.normalize, axes_length, (run_init cs s0).1]

/-- C24. No solution chosen (and some exist): ValueError from numpy; nothing changes. -/
theorem c24_none_preferred_raises (s : RV m) (n : Nat) (hn : n ≠ 0) (cs : List (VecCall m)) :
    s.call (.preferred [] n) = .error .valueError ∧ s.run (.preferred [] n :: cs) = s.run cs := by
  have : s.call (.preferred [] n) = .error .valueError := by
    simp only [RV.call, RV.adapt1, List.length_nil, if_neg (Ne.symm hn)]; rfl
  exact ⟨this, by simp only [RV.run, this]⟩

/-- C24, preferred ranges: the number of vectors drawn is the *current* number, so every such preference makes
the set larger by `m`; `k` in a row give `n + k·m`. -/
theorem c24_ranges_grow (s : RV m) (k : Nat) (lo hi : Vec m) (lhs : Nat → List (Vec m)) (hl : ∀ n, (lhs n).length = n) :
    (s.run (List.replicate k (.ranges lo hi lhs))).number = s.number + k * m := by
  induction k generalizing s with
  | zero => simp [RV.run]
  | succ k ih =>
    simp only [List.replicate_succ, RV.run, RV.call]
    rw [ih]
    simp [RV.addEdges, RV.normalize, RV.adapt4, axes_length, hl, Nat.add_mul]
    omega

example : ∃ s : RV 3, RV.create 3 13 = .ok s ∧ s.init.length = 105 := by
  refine ⟨_, create_ok 13 (by omega) (by omega), ?_⟩
  simp [length_weights 3 13 (by omega)]; decide +kernel

/-! ## C25 -/

theorem compress_zip {α β : Type} (p : β → Bool) (l : List α) (l' : List β) (h : l.length = l'.length) :
    compress (l'.map p) l = ((l.zip l').filter (fun x => p x.2)).map Prod.fst := by
  induction l generalizing l' with
  | nil => cases l' with
    | nil => simp [compress]
    | cons b l' => simp at h
  | cons a l ih =>
    cases l' with
    | nil => simp at h
    | cons b l' =>
      simp only [List.length_cons, Nat.add_right_cancel_iff] at h
      have := ih l' h
      simp only [List.map_cons, List.zip_cons_cons, List.filter_cons]
      cases p b <;> simp [compress] at this ⊢ <;> exact this

open Classical in
/-- C25. In any state reached from creation by any history, when the spherical and planar sets have the
same size and the non-preferred solutions `z` are not all solutions: the result consists of exactly the current
vectors whose planar form is at distance at least 0.2 from every (L1-normalised) non-preferred solution, in
order, followed by the axes; the planar set likewise.  (The hypotheses on sums and on zero solutions
exclude the divisions by zero of numpy, where the model is not faithful; the proof does not need them.) -/
theorem c25_removes_exactly_nearby_vectors (r : Nat) (s0 : RV m) (hs : RV.create m r = .ok s0) (cs : List (VecCall m))
    (s : RV m) (hrun : s0.run cs = s) (hlen : s.values.length = s.planar.length)
    (_hplanar : ∀ p ∈ s.planar, ∑ i, p i = 1) (z : List (Vec m)) (n : Nat) (hn : z.length ≠ n)
    (_hz : ∀ v ∈ z, v ≠ 0) :
    ∃ t, s.call (.nonPreferred z n) = .ok t ∧
      EndsWithAxes (((s.values.zip s.planar).filter
        (fun p => decide (∀ y ∈ z, 1 / 5 ≤ dist2 (l1Normalised y) p.2))).map Prod.fst) t.values ∧
      EndsWithAxes (s.planar.filter (fun p => decide (∀ y ∈ z, 1 / 5 ≤ dist2 (l1Normalised y) p))) t.planar := by
  have hN : Norm s := by rw [← hrun]; exact run_norm cs s0 (create_norm r s0 hs)
  have hmask : ∀ p : Vec m, ((z.map (fun v i => v i / norm1 v)).all (fun c => decide (norm2 (fun i => c i - p i) ≥ 1 / 5))) =
      decide (∀ y ∈ z, 1 / 5 ≤ dist2 (l1Normalised y) p) := by
    intro p
    rw [Bool.eq_iff_iff]
    simp only [List.all_eq_true, List.mem_map, decide_eq_true_eq, forall_exists_index, and_imp, forall_apply_eq_imp_iff₂,
      norm2_eq_len, dist2, l1Normalised, norm1, ge_iff_le]
    exact decide_eq_true_iff.symm
  have e1 : compress (s.planar.map (fun p => decide (∀ y ∈ z, 1 / 5 ≤ dist2 (l1Normalised y) p))) s.values =
      ((s.values.zip s.planar).filter (fun p => decide (∀ y ∈ z, 1 / 5 ≤ dist2 (l1Normalised y) p.2))).map Prod.fst :=
    compress_zip _ _ _ hlen
  have e2 : compress (s.planar.map (fun p => decide (∀ y ∈ z, 1 / 5 ≤ dist2 (l1Normalised y) p))) s.planar =
      s.planar.filter (fun p => decide (∀ y ∈ z, 1 / 5 ≤ dist2 (l1Normalised y) p)) := by
    rw [compress_zip _ _ _ rfl]
    generalize s.planar = l
    induction l with
    | nil => simp
    | cons a l ih =>
      simp only [List.zip_cons_cons, List.filter_cons]
      split
      · simp only [List.map_cons, ih]
      · exact ih
  refine ⟨({ s with
    values := ((s.values.zip s.planar).filter (fun p => decide (∀ y ∈ z, 1 / 5 ≤ dist2 (l1Normalised y) p.2))).map Prod.fst,
    planar := s.planar.filter (fun p => decide (∀ y ∈ z, 1 / 5 ≤ dist2 (l1Normalised y) p)) } : RV m).addEdges, ?_, ?_, ?_⟩
  · simp only [RV.call, RV.adapt2]
    rw [if_neg hn]
    simp only [hmask, List.length_map, ne_eq, hlen, not_true_eq_false, if_false, e1, e2]
    rfl
  · rw [addEdges_values]
    · exact endsWithAxes_axes _
    · intro v hv
      rw [← e1] at hv
      exact hN.values v (compress_subset _ _ v hv)
  · rw [addEdges_planar]
    · exact endsWithAxes_axes _
    · intro v hv
      exact hN.planar v (List.mem_filter.1 hv).1

/-- C25. All solutions non-preferred: reset to the initial vectors and the axes. -/
theorem c25_all_nonpreferred_resets (r : Nat) (s0 : RV m) (hs : RV.create m r = .ok s0) (cs : List (VecCall m))
    (z : List (Vec m)) :
    ∃ t, (s0.run cs).call (.nonPreferred z z.length) = .ok t ∧ EndsWithAxes s0.init t.values ∧
      t.number = s0.init.length + m := by
  have hi : s0.init.map unitRow = s0.init := by
    unfold RV.create at hs
    split at hs
    · cases hs
    · cases hs
      simp only [RV.normalize, List.map_map]
      exact List.map_congr_left (fun v _ => unitRow_idem _)
  refine ⟨_, by simp only [RV.call, RV.adapt2, if_true]; rfl, ?_, ?_⟩
  · rw [addEdges_values _ (norm_normalize _).values]
    simp only [RV.normalize, (run_init cs s0).1, hi]
    exact endsWithAxes_axes _
  · simp [RV.addEdges, RV.normalize, axes_length, (run_init cs s0).1]

/-- An accepted preference of one of the four kinds (not a plain fitness adaptation). -/
def IsPreference : VecCall m → Prop
  | .adapt _ => False
  | _ => True

theorem call_sizes (s t : RV m) (c : VecCall m) (hc : IsPreference c) (hi : s.init.length = s.initP.length)
    (h : s.call c = .ok t) : t.values.length = t.planar.length := by
  have hedge : ∀ u : RV m, u.values.length = u.planar.length → u.addEdges.values.length = u.addEdges.planar.length := by
    intro u hu; simp [RV.addEdges, RV.normalize, hu]
  cases c with
  | adapt f => exact absurd hc id
  | refPoint d =>
    simp only [RV.call, Except.ok.injEq] at h; subst h
    exact hedge _ (by simp [RV.adapt3, RV.normalize, hi])
  | preferred z n =>
    simp only [RV.call, RV.adapt1] at h
    split at h
    · cases h; exact hedge _ (by simp [RV.normalize, hi])
    · split at h
      · cases h
      · cases h; exact hedge _ (by simp [RV.normalize, hi])
      · cases h; exact hedge _ (by simp [RV.normalize, hi, List.length_flatMap])
  | nonPreferred z n =>
    simp only [RV.call, RV.adapt2] at h
    split at h
    · cases h; exact hedge _ (by simp [RV.normalize, hi])
    · split at h
      · cases h
      · rename_i hl
        cases h
        refine hedge _ ?_
        simp only [ne_eq, not_not, List.length_map] at hl
        have : ∀ (mask : List Bool) (a b : List (Vec m)), a.length = b.length →
            (compress mask a).length = (compress mask b).length := by
          intro mask
          induction mask with
          | nil => intro a b _; cases a <;> cases b <;> simp [compress]
          | cons x mask ih =>
            intro a b hab
            cases a <;> cases b <;> simp at hab
            · simp
            · cases x <;> simp [compress, ih _ _ hab]
        exact this _ _ _ hl
  | ranges lo hi' lhs =>
    simp only [RV.call, Except.ok.injEq] at h; subst h
    exact hedge _ (by simp [RV.adapt4, RV.normalize])

/-- C25, when it applies: right after creation and right after every accepted preference the spherical and
planar sets have the same size (so the IndexError below needs an intervening fitness adaptation). -/
theorem c25_sizes_agree_after_preference (r : Nat) (s0 : RV m) (hs : RV.create m r = .ok s0) (cs : List (VecCall m))
    (c : VecCall m) (hc : IsPreference c) (t : RV m) (h : (s0.run cs).call c = .ok t) :
    s0.values.length = s0.planar.length ∧ t.values.length = t.planar.length := by
  have h0 : s0.values.length = s0.planar.length ∧ s0.init.length = s0.initP.length := by
    unfold RV.create at hs
    split at hs
    · cases hs
    · cases hs; simp [RV.normalize]
  exact ⟨h0.1, call_sizes _ _ c hc (by rw [(run_init cs s0).1, (run_init cs s0).2]; exact h0.2) h⟩

/-- C25, the gap: an accepted reference point, then `iterate(None)` (a fitness adaptation), then non-preferred
solutions: IndexError, for every fitness, every reference point and every (not all) non-preferred set. -/
theorem c25_index_error_after_adaptation (r : Nat) (hm : 2 ≤ m) (s0 : RV m) (hs : RV.create m r = .ok s0)
    (cs : List (VecCall m)) (d : Vec m) (f z : List (Vec m)) (hf : f ≠ []) (n : Nat) (hn : z.length ≠ n) :
    ((s0.run cs).run [.refPoint d, .adapt f]).call (.nonPreferred z n) = .error .indexError := by
  have hi : s0.init.length = s0.initP.length := by
    unfold RV.create at hs
    split at hs
    · cases hs
    · cases hs; simp [RV.normalize]
  obtain ⟨u, h1, h2, h3, h4⟩ := c23_planar_not_reset (s0.run cs) _ (by rw [(run_init cs s0).1, (run_init cs s0).2]; exact hi)
    d f hf rfl
  have hu : (s0.run cs).run [.refPoint d, .adapt f] = u := by
    simp only [RV.run, RV.call] at h1 ⊢
    rw [h1]
  rw [hu]
  simp only [RV.call, RV.adapt2]
  rw [if_neg hn, if_pos (by simp only [List.length_map]; omega)]
  rfl

example : ∃ s : RV 2, RV.create 2 4 = .ok s ∧ s.values.length = s.planar.length ∧ (∀ p ∈ s.planar, ∑ i, p i = 1) ∧
    (∀ v ∈ [(![1, 3] : Vec 2)], v ≠ 0) ∧ [(![1, 3] : Vec 2)].length ≠ 5 := by
  refine ⟨_, create_ok 4 (by omega) (by omega), by simp, ?_, ?_, by simp⟩
  · intro p hp
    exact lattice_sum 4 (by omega) p ((latticeRow_spec 4 (by omega) p).1 hp)
  · intro v hv h
    simp only [List.mem_singleton] at hv
    rw [h] at hv
    have := congrFun hv 0
    simp at this

end Verif.Props
