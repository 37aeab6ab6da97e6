import Verif.Proofs.RefVectors
import Verif.Proofs.EA
import Verif.Props.Loop
import Verif.Model.APD

/-!
# Properties C27–C32: RVEA selection and penalty
-/

open scoped BigOperators

namespace Verif.Props
open Verif Verif.Spec

/-! ## Lemmas -/

section Core
variable {K : Type} [LinearOrder K]

theorem argmaxGo_spec (full : List K) (xs : List K) (bi : Nat) (b : K) (i : Nat) (hsuf : full.drop i = xs)
    (hbi : full[bi]? = some b) (hlt : bi < i) (hmax : ∀ (j : Nat) (x : K), j < i → full[j]? = some x → x ≤ b)
    (hfirst : ∀ (j : Nat) (x : K), j < bi → full[j]? = some x → x < b) :
    ∃ c, full[argmaxGo bi b i xs]? = some c ∧ (∀ (j : Nat) (x : K), full[j]? = some x → x ≤ c) ∧
      (∀ (j : Nat) (x : K), j < argmaxGo bi b i xs → full[j]? = some x → x < c) := by
  induction xs generalizing bi b i with
  | nil =>
    refine ⟨b, hbi, fun j x hx => ?_, hfirst⟩
    refine hmax j x ?_ hx
    have := List.drop_eq_nil_iff.1 hsuf
    have := (List.getElem?_eq_some_iff.1 hx).1
    omega
  | cons y ys ih =>
    have hi : full[i]? = some y := by
      have := congrArg List.head? hsuf
      rwa [List.head?_drop, List.head?_cons] at this
    have hsuf' : full.drop (i + 1) = ys := by
      have := congrArg List.tail hsuf
      simpa [List.tail_drop] using this
    simp only [argmaxGo]
    split
    · rename_i h
      refine ih i y (i + 1) hsuf' hi (Nat.lt_succ_self i) ?_ ?_
      · intro j x hj hx
        rcases Nat.lt_or_ge j i with hj' | hj'
        · exact le_trans (hmax j x hj' hx) h.le
        · have : j = i := by omega
          subst this; rw [hi] at hx; cases hx; exact le_refl _
      · intro j x hj hx; exact lt_of_le_of_lt (hmax j x hj hx) h
    · rename_i h
      refine ih bi b (i + 1) hsuf' hbi (by omega) ?_ hfirst
      intro j x hj hx
      rcases Nat.lt_or_ge j i with hj' | hj'
      · exact hmax j x hj' hx
      · have : j = i := by omega
        subst this; rw [hi] at hx; cases hx; exact not_lt.1 h

/-- `np.argmax` returns the first position of a greatest entry. -/
theorem argmaxL_spec (l : List K) (k : Nat) (h : argmaxL l = .ok k) :
    ∃ c, l[k]? = some c ∧ (∀ (j : Nat) (x : K), l[j]? = some x → x ≤ c) ∧ (∀ (j : Nat) (x : K), j < k → l[j]? = some x → x < c) := by
  cases l with
  | nil => cases h
  | cons x xs =>
    simp only [argmaxL, Except.ok.injEq] at h
    subst h
    refine argmaxGo_spec (x :: xs) xs 0 x 1 (by simp) (by simp) (by omega) ?_ (by omega)
    intro j y hj hy
    have : j = 0 := by omega
    subst this; simp at hy; exact le_of_eq hy.symm

theorem nanmin_none (l : List (Option K)) : nanmin l = none ↔ ∀ x ∈ l, x = none := by
  induction l with
  | nil => simp [nanmin]
  | cons a l ih =>
    cases a with
    | none => simp [nanmin, ih]
    | some a =>
      simp only [nanmin]
      split <;> simp

theorem nanmin_some (l : List (Option K)) (c : K) (h : nanmin l = some c) : some c ∈ l ∧ ∀ x, some x ∈ l → c ≤ x := by
  induction l generalizing c with
  | nil => simp [nanmin] at h
  | cons a l ih =>
    cases a with
    | none =>
      simp only [nanmin] at h
      obtain ⟨h1, h2⟩ := ih c h
      exact ⟨by simp [h1], fun x hx => h2 x (by simpa using hx)⟩
    | some a =>
      simp only [nanmin] at h
      split at h
      · rename_i hn
        cases h
        refine ⟨by simp, fun x hx => ?_⟩
        rcases List.mem_cons.1 hx with h | h
        · cases h; exact le_refl _
        · exact absurd ((nanmin_none l).1 hn _ h) (by simp)
      · rename_i y hy
        cases h
        obtain ⟨h1, h2⟩ := ih y hy
        refine ⟨?_, fun x hx => ?_⟩
        · rcases le_total a y with h | h
          · simp [min_eq_left h]
          · rw [min_eq_right h]; exact List.mem_cons_of_mem _ h1
        · rcases List.mem_cons.1 hx with h | h
          · cases h; exact min_le_left _ _
          · exact le_trans (min_le_right _ _) (h2 x h)

theorem mem_whereIdx (mask : List Bool) (j : Nat) : j ∈ whereIdx mask ↔ mask[j]? = some true := by
  unfold whereIdx
  simp only [List.mem_map, List.mem_filter, Prod.exists, List.mem_zipIdx_iff_getElem?]
  constructor
  · rintro ⟨b, k, ⟨h1, h2⟩, rfl⟩
    cases b
    · simp at h2
    · exact h1
  · intro h; exact ⟨true, j, ⟨h, rfl⟩, rfl⟩

theorem whereIdx_pairwise (mask : List Bool) : (whereIdx mask).Pairwise (· < ·) := by
  unfold whereIdx
  rw [List.pairwise_map]
  refine List.Pairwise.filter _ ?_
  rw [← List.pairwise_map (f := Prod.snd) (R := (· < ·)), List.zipIdx_map_snd]
  exact List.pairwise_lt_range'

theorem mem_subPopulation (assigned : List Nat) (i j : Nat) : j ∈ subPopulation assigned i ↔ assigned[j]? = some i := by
  unfold subPopulation
  rw [mem_whereIdx, List.getElem?_map]
  cases assigned[j]? with
  | none => simp
  | some a => simp

theorem constraintFilter_sublist [Zero K] [Add K] (cons : Option (List (List K))) (sub : List Nat) :
    (constraintFilter cons sub).Sublist sub := by
  unfold constraintFilter
  split
  · exact List.Sublist.refl _
  · split
    · simp only
      split
      · exact List.filter_sublist
      · exact List.filter_sublist
    · exact List.Sublist.refl _

theorem constraintFilter_ne_nil [Zero K] [Add K] (cons : Option (List (List K))) (sub : List Nat) (h : sub ≠ []) :
    constraintFilter cons sub ≠ [] := by
  unfold constraintFilter
  split
  · exact h
  · rename_i c
    split
    · simp only
      split
      · cases hm : nanmin (sub.map (fun j => some (((c.getD j []).map (fun v => max 0 v)).sum))) with
        | none =>
          rw [nanmin_none] at hm
          obtain ⟨a, ha⟩ := List.exists_mem_of_ne_nil sub h
          exact absurd (hm _ (List.mem_map_of_mem ha)) (by simp)
        | some mn =>
          obtain ⟨h1, -⟩ := nanmin_some _ _ hm
          obtain ⟨j, hj, he⟩ := List.mem_map.1 h1
          intro hnil
          have : j ∈ ([] : List Nat) := by rw [← hnil]; exact List.mem_filter.2 ⟨hj, decide_eq_true he.symm⟩
          simp at this
      · rename_i hf
        intro hnil
        apply hf
        rw [List.all_eq_true]
        intro j hj
        by_contra hc
        have : j ∈ ([] : List Nat) := by
          rw [← hnil]; exact List.mem_filter.2 ⟨hj, by simpa using hc⟩
        simp at this
    · exact h

theorem apdPick_spec (apd : Nat → Option K) (sub : List Nat) (j : Nat) (h : apdPick apd sub = some j) :
    j ∈ sub ∧ ∃ v, apd j = some v ∧ (∀ k ∈ sub, ∀ w, apd k = some w → v ≤ w) ∧
      (sub.Pairwise (· < ·) → ∀ k ∈ sub, k < j → apd k ≠ some v) := by
  unfold apdPick at h
  split at h
  · cases h
  · rename_i mn hmn
    obtain ⟨h1, h2⟩ := nanmin_some _ _ hmn
    have hj := List.mem_of_mem_head? h
    obtain ⟨hjs, hje⟩ := List.mem_filter.1 hj
    simp only [decide_eq_true_eq] at hje
    refine ⟨hjs, mn, hje, fun k hk w hw => h2 w (by rw [← hw]; exact List.mem_map_of_mem hk), ?_⟩
    intro hp k hk hlt hkv
    have hkf : k ∈ sub.filter (fun j => decide (apd j = some mn)) := List.mem_filter.2 ⟨hk, by simp [hkv]⟩
    have hpf := hp.filter (fun j => decide (apd j = some mn))
    generalize sub.filter (fun j => decide (apd j = some mn)) = l at h hkf hpf
    cases l with
    | nil => simp at hkf
    | cons a l =>
      simp only [List.head?_cons, Option.some.injEq] at h
      subst h
      rcases List.mem_cons.1 hkf with h | h
      · omega
      · have := (List.pairwise_cons.1 hpf).1 k h; omega

theorem apdPick_some (apd : Nat → Option K) (sub : List Nat) (j : Nat) (hj : j ∈ sub) (v : K) (hv : apd j = some v) :
    ∃ k, apdPick apd sub = some k := by
  unfold apdPick
  cases hm : nanmin (sub.map apd) with
  | none =>
    rw [nanmin_none] at hm
    have := hm _ (List.mem_map_of_mem hj)
    rw [hv] at this; cases this
  | some mn =>
    obtain ⟨h1, -⟩ := nanmin_some _ _ hm
    obtain ⟨k, hk, he⟩ := List.mem_map.1 h1
    simp only
    cases hf : sub.filter (fun j => decide (apd j = some mn)) with
    | nil =>
      have : k ∈ ([] : List Nat) := by rw [← hf]; exact List.mem_filter.2 ⟨hk, by simp [he]⟩
      simp at this
    | cons a l => exact ⟨a, rfl⟩

theorem apdOne_mem [Zero K] [Add K] (cons : Option (List (List K))) (apd : Nat → Nat → Option K) (assigned : List Nat) (i j : Nat)
    (h : apdOne cons apd assigned i = some j) : j ∈ constraintFilter cons (subPopulation assigned i) := by
  unfold apdOne at h
  split at h
  · cases h
  · rename_i k hk
    cases h
    rw [hk]; simp
  · rename_i a b rest hk
    rw [hk]
    exact (apdPick_spec _ _ _ h).1

/-- Individual `j` is associated with vector `i`. -/
theorem apdOne_assigned [Zero K] [Add K] (cons : Option (List (List K))) (apd : Nat → Nat → Option K) (assigned : List Nat)
    (i j : Nat) (h : apdOne cons apd assigned i = some j) : assigned[j]? = some i :=
  (mem_subPopulation _ _ _).1 ((constraintFilter_sublist _ _).subset (apdOne_mem cons apd assigned i j h))

/-! ## C27 -/

/-- C27. For every association of individuals with vectors, all constraint values and all distances (NaN
included): the selected indices are distinct and in range; no two are associated with the same vector;
each is associated with one of the vectors; so there are at most as many as vectors. -/
theorem c27_selected_distinct_in_range [Zero K] [Add K] (cons : Option (List (List K))) (apd : Nat → Nat → Option K)
    (assigned : List Nat) (n : Nat) :
    (apdLoop cons apd assigned n).Nodup ∧ (∀ j ∈ apdLoop cons apd assigned n, j < assigned.length) ∧
    (∀ j ∈ apdLoop cons apd assigned n, ∀ k ∈ apdLoop cons apd assigned n, assigned[j]? = assigned[k]? → j = k) ∧
    (∀ j ∈ apdLoop cons apd assigned n, ∃ i, i < n ∧ assigned[j]? = some i) ∧
    (apdLoop cons apd assigned n).length ≤ n := by
  have hmem : ∀ j, j ∈ apdLoop cons apd assigned n ↔ ∃ i, i < n ∧ apdOne cons apd assigned i = some j := by
    intro j; simp [apdLoop, List.mem_filterMap]
  refine ⟨?_, ?_, ?_, ?_, ?_⟩
  · unfold apdLoop
    refine List.Nodup.filterMap ?_ List.nodup_range
    intro a a' b hb hb'
    have h1 := apdOne_assigned cons apd assigned a b hb
    have h2 := apdOne_assigned cons apd assigned a' b hb'
    rw [h1] at h2; cases h2; rfl
  · intro j hj
    obtain ⟨i, -, hi⟩ := (hmem j).1 hj
    exact (List.getElem?_eq_some_iff.1 (apdOne_assigned cons apd assigned i j hi)).1
  · intro j hj k hk he
    obtain ⟨i, -, hi⟩ := (hmem j).1 hj
    obtain ⟨i', -, hi'⟩ := (hmem k).1 hk
    have h1 := apdOne_assigned cons apd assigned i j hi
    have h2 := apdOne_assigned cons apd assigned i' k hi'
    rw [h1, h2] at he
    cases he
    rw [hi] at hi'; cases hi'; rfl
  · intro j hj
    obtain ⟨i, hi, hij⟩ := (hmem j).1 hj
    exact ⟨i, hi, apdOne_assigned cons apd assigned i j hij⟩
  · unfold apdLoop
    exact le_trans (List.length_filterMap_le _ _) (by simp)

/-- C27. When no distance is NaN, every vector with an associated individual contributes exactly one
individual, associated with it. -/
theorem c27_every_occupied_vector_contributes [Zero K] [Add K] (cons : Option (List (List K))) (apd : Nat → Nat → Option K)
    (assigned : List Nat) (n i j : Nat) (hnan : ∀ i j, apd i j ≠ none) (hi : i < n) (hj : assigned[j]? = some i) :
    ∃ k, k ∈ apdLoop cons apd assigned n ∧ assigned[k]? = some i ∧
      ∀ k' ∈ apdLoop cons apd assigned n, assigned[k']? = some i → k' = k := by
  have hne : constraintFilter cons (subPopulation assigned i) ≠ [] := by
    refine constraintFilter_ne_nil _ _ (fun h => ?_)
    have : j ∈ ([] : List Nat) := by rw [← h]; exact (mem_subPopulation _ _ _).2 hj
    simp at this
  have : ∃ k, apdOne cons apd assigned i = some k := by
    unfold apdOne
    match hc : constraintFilter cons (subPopulation assigned i) with
    | [] => exact absurd hc hne
    | [a] => exact ⟨a, rfl⟩
    | a :: b :: rest =>
      cases hv : apd i a with
      | none => exact absurd hv (hnan i a)
      | some v => exact apdPick_some _ _ a (by simp) v hv
  obtain ⟨k, hk⟩ := this
  have hka := apdOne_assigned cons apd assigned i k hk
  have hkm : k ∈ apdLoop cons apd assigned n := by
    simp only [apdLoop, List.mem_filterMap, List.mem_range]; exact ⟨i, hi, hk⟩
  refine ⟨k, hkm, hka, fun k' hk' ha' => ?_⟩
  exact (c27_selected_distinct_in_range cons apd assigned n).2.2.1 k' hk' k hkm (by rw [ha', hka])

/-! ## C28 -/

/-- All constraint values of individual `j` are at most 0. -/
def Feasible [Zero K] (c : List (List K)) (j : Nat) : Prop := ∀ v ∈ c.getD j [], v ≤ 0

/-- Sum of the positive parts of the constraint values. -/
def totalViolation [Zero K] [Add K] (c : List (List K)) (j : Nat) : K := ((c.getD j []).map (fun v => max 0 v)).sum

theorem feasible_iff [Zero K] (c : List (List K)) (j : Nat) :
    (((c.getD j []).map (fun v => max 0 v)).all (fun v => decide (v = 0))) = true ↔ Feasible c j := by
  unfold Feasible
  simp only [List.all_map, List.all_eq_true, Function.comp, decide_eq_true_eq, max_eq_left_iff]

/-- Admissible for vector `i`: associated with it, and either feasible, or (nobody associated with it is
feasible) of least total violation there.  Without constraints everybody associated is. -/
def Admissible [Zero K] [Add K] (cons : Option (List (List K))) (assigned : List Nat) (i j : Nat) : Prop :=
  assigned[j]? = some i ∧ ∀ c, cons = some c →
    Feasible c j ∨ ((∀ k, assigned[k]? = some i → ¬ Feasible c k) ∧
      ∀ k, assigned[k]? = some i → totalViolation c j ≤ totalViolation c k)

theorem constraintFilter_spec [Zero K] [Add K] (cons : Option (List (List K))) (assigned : List Nat) (i j : Nat) :
    j ∈ constraintFilter cons (subPopulation assigned i) ↔ Admissible cons assigned i j := by
  unfold constraintFilter Admissible
  cases cons with
  | none => simp [mem_subPopulation]
  | some c =>
    simp only [Option.some.injEq]
    by_cases hlen : (subPopulation assigned i).length > 1
    · rw [if_pos hlen]
      split
      · rename_i hall
        have hinf : ∀ k, assigned[k]? = some i → ¬ Feasible c k := by
          intro k hk hf
          have := (List.all_eq_true.1 hall) k ((mem_subPopulation _ _ _).2 hk)
          rw [← feasible_iff] at hf
          rw [hf] at this; simp at this
        simp only [List.mem_filter, decide_eq_true_eq, mem_subPopulation]
        constructor
        · rintro ⟨h1, h2⟩
          refine ⟨h1, fun c' hc' => Or.inr ⟨?_, ?_⟩⟩
          · subst hc'; exact hinf
          · subst hc'
            intro k hk
            exact (nanmin_some _ _ h2).2 _ (List.mem_map.2 ⟨k, (mem_subPopulation _ _ _).2 hk, rfl⟩)
        · rintro ⟨h1, h2⟩
          refine ⟨h1, ?_⟩
          rcases h2 c rfl with h | ⟨-, h⟩
          · exact absurd h (hinf j h1)
          · cases hm : nanmin ((subPopulation assigned i).map (fun j => some (((c.getD j []).map (fun v => max 0 v)).sum))) with
            | none =>
              rw [nanmin_none] at hm
              exact absurd (hm _ (List.mem_map_of_mem ((mem_subPopulation _ _ _).2 h1))) (by simp)
            | some mn =>
              obtain ⟨h3, h4⟩ := nanmin_some _ _ hm
              obtain ⟨k, hk, he⟩ := List.mem_map.1 h3
              have e1 := h4 (totalViolation c j) (List.mem_map.2 ⟨j, (mem_subPopulation _ _ _).2 h1, rfl⟩)
              have e2 := h k ((mem_subPopulation _ _ _).1 hk)
              simp only [Option.some.injEq] at he
              have e3 : totalViolation c k = mn := he
              rw [e3] at e2
              exact congrArg some (le_antisymm e1 e2)
      · rename_i hall
        have hex : ∃ k, assigned[k]? = some i ∧ Feasible c k := by
          by_contra hno
          apply hall
          rw [List.all_eq_true]
          intro k hk
          by_contra hk2
          exact hno ⟨k, (mem_subPopulation _ _ _).1 hk, (feasible_iff c k).1 (by simpa using hk2)⟩
        rw [List.mem_filter, mem_subPopulation, feasible_iff]
        constructor
        · rintro ⟨h1, h2⟩; exact ⟨h1, fun c' hc' => Or.inl (by subst hc'; exact h2)⟩
        · rintro ⟨h1, h2⟩
          refine ⟨h1, ?_⟩
          rcases h2 c rfl with h | ⟨h, -⟩
          · exact h
          · obtain ⟨k, hk, hf⟩ := hex
            exact absurd hf (h k hk)
    · rw [if_neg hlen, mem_subPopulation]
      constructor
      · intro h1
        refine ⟨h1, ?_⟩
        rintro c' rfl
        have huniq : ∀ k, assigned[k]? = some i → k = j := by
          intro k hk
          have hk' := (mem_subPopulation _ _ _).2 hk
          have hj' := (mem_subPopulation _ _ _).2 h1
          match hs : subPopulation assigned i with
          | [] => rw [hs] at hk'; simp at hk'
          | [a] => rw [hs] at hk' hj'; simp at hk' hj'; rw [hk', hj']
          | a :: b :: l => rw [hs] at hlen; simp at hlen
        by_cases hf : Feasible c j
        · exact Or.inl hf
        · exact Or.inr ⟨fun k hk => by rw [huniq k hk]; exact hf, fun k hk => by rw [huniq k hk]⟩
      · exact fun h => h.1

/-- C28. Among the individuals associated with a vector: if any is feasible, the selected one is feasible;
if none is, the selected one has the least total violation. -/
theorem c28_feasible_first [Zero K] [Add K] (c : List (List K)) (apd : Nat → Nat → Option K) (assigned : List Nat)
    (n j i : Nat) (hj : j ∈ apdLoop (some c) apd assigned n) (hi : assigned[j]? = some i) :
    ((∃ k, assigned[k]? = some i ∧ Feasible c k) → Feasible c j) ∧
    ((∀ k, assigned[k]? = some i → ¬ Feasible c k) →
      ∀ k, assigned[k]? = some i → totalViolation c j ≤ totalViolation c k) := by
  simp only [apdLoop, List.mem_filterMap, List.mem_range] at hj
  obtain ⟨i', -, hij⟩ := hj
  have h1 := apdOne_assigned _ apd assigned i' j hij
  rw [hi] at h1; cases h1
  obtain ⟨-, h2⟩ := (constraintFilter_spec _ _ _ _).1 (apdOne_mem _ apd assigned i j hij)
  rcases h2 c rfl with h | ⟨h, h'⟩
  · exact ⟨fun _ => h, fun hno => absurd h (hno j hi)⟩
  · exact ⟨fun ⟨k, hk, hf⟩ => absurd hf (h k hk), fun _ => h'⟩

/-- Three individuals, two vectors; individuals 0 and 2 share vector 1 and violate, 2 less. -/
example : apdLoop (some [[3, -1], [-1, 0], [1, 1]]) (fun _ _ => some (0 : Int)) [1, 0, 1] 2 = [1, 2] := by decide

/-! ## C29 -/

/-- C29. For every vector the selected individual is admissible and has the least angle penalised distance
among the admissible ones, and every earlier admissible one is strictly worse (no NaN). -/
theorem c29_least_distance_first [Zero K] [Add K] (cons : Option (List (List K))) (apd : Nat → Nat → K) (assigned : List Nat)
    (n j i : Nat) (hj : j ∈ apdLoop cons (fun i j => some (apd i j)) assigned n) (hi : assigned[j]? = some i) :
    Admissible cons assigned i j ∧ (∀ k, Admissible cons assigned i k → apd i j ≤ apd i k) ∧
    (∀ k, Admissible cons assigned i k → k < j → apd i j < apd i k) := by
  simp only [apdLoop, List.mem_filterMap, List.mem_range] at hj
  obtain ⟨i', -, hij⟩ := hj
  have h1 := apdOne_assigned _ _ assigned i' j hij
  rw [hi] at h1; cases h1
  refine ⟨(constraintFilter_spec _ _ _ _).1 (apdOne_mem _ _ assigned i j hij), ?_⟩
  have hpw : (constraintFilter cons (subPopulation assigned i)).Pairwise (· < ·) :=
    List.Pairwise.sublist (constraintFilter_sublist _ _) (whereIdx_pairwise _)
  have key : (∀ k ∈ constraintFilter cons (subPopulation assigned i), apd i j ≤ apd i k) ∧
      ∀ k ∈ constraintFilter cons (subPopulation assigned i), k < j → apd i j < apd i k := by
    unfold apdOne at hij
    match hc : constraintFilter cons (subPopulation assigned i) with
    | [] => rw [hc] at hij; cases hij
    | [a] =>
      rw [hc] at hij; cases hij
      simp
    | a :: b :: rest =>
      rw [hc] at hij hpw
      obtain ⟨-, v, hv, h2, h3⟩ := apdPick_spec _ _ _ hij
      simp only [Option.some.injEq] at hv
      subst hv
      refine ⟨fun k hk => h2 k hk _ rfl, fun k hk hlt => ?_⟩
      refine lt_of_le_of_ne (h2 k hk _ rfl) (fun he => ?_)
      exact h3 hpw k hk hlt (by simp [he])
  exact ⟨fun k hk => key.1 k ((constraintFilter_spec _ _ _ _).2 hk),
    fun k hk hlt => key.2 k ((constraintFilter_spec _ _ _ _).2 hk) hlt⟩

end Core

/-! ## The selection operator itself -/

variable {m : Nat}

/-- Cosine of the angle between the translated fitness `f` and the vector `v`, clipped to [0, 1]. -/
noncomputable def clippedCos (f v : Vec m) : ℝ := max 0 (min (inner (fun i => f i / len f) v) 1)

theorem cosineOf_eq (f v : Vec m) : cosineOf f v = clippedCos f v := by
  have hin : (∑ i, unitRow f i * v i) = inner (fun i => f i / len f) v := by
    unfold inner
    refine Finset.sum_congr rfl (fun i _ => ?_)
    by_cases h0 : norm2 f = 0
    · have hf := (norm2_eq_zero f).1 h0
      subst hf
      simp [unitRow]
    · simp only [unitRow, if_neg h0]
      rw [norm2_eq_len]
  unfold cosineOf clippedCos
  simp only [hin]
  generalize inner (fun i => f i / len f) v = c
  by_cases h1 : c > 1
  · rw [if_pos h1, if_neg (by norm_num), min_eq_right h1.le, max_eq_right zero_le_one]
  · rw [if_neg h1, min_eq_left (not_lt.1 h1)]
    split
    · rename_i h; rw [max_eq_left h.le]
    · rename_i h; rw [max_eq_right (not_lt.1 h)]

/-- Vector number `i` is the first one with the greatest (clipped) cosine to `f`. -/
def NearestVector (values : List (Vec m)) (f : Vec m) (i : Nat) : Prop :=
  ∃ v, values[i]? = some v ∧ (∀ (k : Nat) (w : Vec m), values[k]? = some w → clippedCos f w ≤ clippedCos f v) ∧
    ∀ (k : Nat) (w : Vec m), k < i → values[k]? = some w → clippedCos f w < clippedCos f v

theorem nearest_unique (values : List (Vec m)) (f : Vec m) (i k : Nat) (h : NearestVector values f i)
    (h' : NearestVector values f k) : i = k := by
  obtain ⟨v, h1, h2, h3⟩ := h
  obtain ⟨w, h1', h2', h3'⟩ := h'
  rcases Nat.lt_trichotomy i k with hlt | he | hlt
  · exact absurd (h2 k w h1') (not_le.2 (h3' i v hlt h1))
  · exact he
  · exact absurd (h2' i v h1) (not_le.2 (h3 k w hlt h1'))

theorem assignAll_spec (values : List (Vec m)) (fs : List (Vec m)) (as : List Nat) (h : assignAll values fs = .ok as) :
    as.length = fs.length ∧ ∀ (j : Nat) (f : Vec m) (i : Nat), fs[j]? = some f → (as[j]? = some i ↔ NearestVector values f i) := by
  induction fs generalizing as with
  | nil => simp only [assignAll, Except.ok.injEq] at h; subst h; simp
  | cons g gs ih =>
    simp only [assignAll] at h
    split at h
    · rename_i a as' ha has
      cases h
      obtain ⟨h1, h2⟩ := ih as' has
      refine ⟨by simp [h1], ?_⟩
      intro j f i hj
      cases j with
      | zero =>
        simp only [List.getElem?_cons_zero, Option.some.injEq] at hj ⊢
        subst hj
        have hn : NearestVector values g a := by
          obtain ⟨c, hc, hmax, hfirst⟩ := argmaxL_spec _ _ ha
          rw [List.getElem?_map] at hc
          cases hv : values[a]? with
          | none => rw [hv] at hc; cases hc
          | some v =>
            rw [hv] at hc
            simp only [Option.map_some, Option.some.injEq] at hc
            refine ⟨v, hv, fun k w hw => ?_, fun k w hk hw => ?_⟩
            · rw [← cosineOf_eq, ← cosineOf_eq, hc]
              exact hmax k _ (by rw [List.getElem?_map, hw]; rfl)
            · rw [← cosineOf_eq, ← cosineOf_eq, hc]
              exact hfirst k _ hk (by rw [List.getElem?_map, hw]; rfl)
        constructor
        · rintro rfl; exact hn
        · intro h; exact nearest_unique values g a i hn h
      | succ j =>
        simp only [List.getElem?_cons_succ] at hj ⊢
        exact h2 j f i hj
    · cases h
    · cases h

/-- The angle penalised distance `|f| (1 + p θ/γ)` of the RVEA paper, `γ` replaced by machine epsilon
when it is 0. -/
noncomputable def angleDistance (pen gamma : ℝ) (f v : Vec m) : ℝ :=
  len f * (1 + pen * (Real.arccos (clippedCos f v) / (if gamma = 0 then 1 / 2 ^ 52 else gamma)))

theorem apdValue_eq (pen gamma : ℝ) (f v : Vec m) : apdValue pen gamma f v = angleDistance pen gamma f v := by
  unfold apdValue angleDistance eps
  rw [norm2_eq_len, cosineOf_eq]

theorem apdDo_ok (values : List (Vec m)) (gammas : List ℝ) (pen : ℝ) (ideal popIdeal : Vec m) (fitness : List (Vec m))
    (cons : Option (List (List ℝ))) (sel : List Nat) (id' : Vec m)
    (h : apdDo values gammas pen ideal popIdeal fitness cons = .ok (sel, id')) :
    ∃ (fmin : Vec m) (assigned : List Nat), colMin fitness = .ok fmin ∧ id' = newIdeal ideal fmin popIdeal ∧
      assignAll values (fitness.map (fun f i => f i - id' i)) = .ok assigned ∧
      sel = apdLoop cons (fun i j => some (apdValue pen (gammas.getD i 0)
        ((fitness.map (fun f i => f i - id' i)).getD j 0) (values.getD i 0))) assigned values.length := by
  unfold apdDo at h
  split at h
  · cases h
  · rename_i fmin hf
    simp only at h
    split at h
    · cases h
    · rename_i assigned ha
      cases h
      exact ⟨fmin, assigned, hf, rfl, ha, rfl⟩

/-- C27, C28, C29 for the operator on real fitness values.  Whenever `do` returns (it raises only for an
empty population or an empty vector set), with `t j` the fitness of individual `j` minus the ideal
point left behind: the selected indices are distinct and in range, at most one per reference vector; every
vector that is nearest to some individual contributes one; and the one selected for vector `i` is nearest to
`i`, admissible (feasible if any associated with `i` is, else of least violation), and of least angle penalised
distance among the admissible, strictly less than all earlier ones. -/
theorem c29_rvea_selection (values : List (Vec m)) (gammas : List ℝ) (pen : ℝ) (ideal popIdeal : Vec m)
    (fitness : List (Vec m)) (cons : Option (List (List ℝ))) (sel : List Nat) (id' : Vec m)
    (h : apdDo values gammas pen ideal popIdeal fitness cons = .ok (sel, id')) :
    let t := fun (j : Nat) => ((fitness[j]?).map (fun f (i : Fin m) => f i - id' i))
    let near := fun (j i : Nat) => ∃ f, t j = some f ∧ NearestVector values f i
    let admissible := fun (i j : Nat) => near j i ∧ ∀ c, cons = some c →
      Feasible c j ∨ ((∀ k, near k i → ¬ Feasible c k) ∧ ∀ k, near k i → totalViolation c j ≤ totalViolation c k)
    sel.Nodup ∧ (∀ j ∈ sel, j < fitness.length) ∧ sel.length ≤ values.length ∧
    (∀ i j, near j i → ∃ k ∈ sel, near k i ∧ ∀ k' ∈ sel, near k' i → k' = k) ∧
    (∀ j ∈ sel, ∃ i, admissible i j ∧
      ∀ k, admissible i k → ∀ f g v, t j = some f → t k = some g → values[i]? = some v →
        angleDistance pen (gammas.getD i 0) f v ≤ angleDistance pen (gammas.getD i 0) g v ∧
        (k < j → angleDistance pen (gammas.getD i 0) f v < angleDistance pen (gammas.getD i 0) g v)) := by
  intro t near admissible
  obtain ⟨fmin, assigned, -, -, hass, hsel⟩ := apdDo_ok values gammas pen ideal popIdeal fitness cons sel id' h
  obtain ⟨hlen, hnear⟩ := assignAll_spec values _ _ hass
  simp only [List.length_map] at hlen
  have ht : ∀ j, (fitness.map (fun f (i : Fin m) => f i - id' i))[j]? = t j := by
    intro j; simp only [t, List.getElem?_map]
  have hni : ∀ j i, assigned[j]? = some i ↔ near j i := by
    intro j i
    constructor
    · intro ha
      have hj : j < fitness.length := by rw [← hlen]; exact (List.getElem?_eq_some_iff.1 ha).1
      have hf : t j = some (fun i => fitness[j] i - id' i) := by simp [t, hj]
      exact ⟨_, hf, (hnear j _ i (by rw [ht]; exact hf)).1 ha⟩
    · rintro ⟨f, hf, hn⟩
      exact (hnear j f i (by rw [ht]; exact hf)).2 hn
  have hadm : ∀ i j, Admissible cons assigned i j ↔ admissible i j := by
    intro i j
    simp only [Admissible, admissible, hni]
  have ht' : ∀ (j : Nat) (f : Vec m), t j = some f → (fitness.map (fun f (i : Fin m) => f i - id' i)).getD j 0 = f := by
    intro j f hf
    rw [List.getD_eq_getElem?_getD, ht, hf]; rfl
  obtain ⟨A, hA⟩ : ∃ A : Nat → Nat → ℝ, A = fun i j => apdValue pen (gammas.getD i 0)
        ((fitness.map (fun f i => f i - id' i)).getD j 0) (values.getD i 0) := ⟨_, rfl⟩
  have hAv : ∀ (i j : Nat) (f v : Vec m), t j = some f → values[i]? = some v →
      A i j = angleDistance pen (gammas.getD i 0) f v := by
    intro i j f v hf hv
    have ev : values.getD i 0 = v := by rw [List.getD_eq_getElem?_getD, hv]; rfl
    rw [hA]
    show apdValue pen _ _ _ = _
    rw [ht' j f hf, ev, apdValue_eq]
  have hsel' : sel = apdLoop cons (fun i j => some (A i j)) assigned values.length := by
    rw [hsel, hA]
  clear hsel hA
  obtain ⟨r1, r2, r3, r4, r5⟩ := c27_selected_distinct_in_range cons (fun i j => some (A i j)) assigned values.length
  rw [← hsel'] at r1 r2 r3 r4 r5
  refine ⟨r1, fun j hj => by rw [← hlen]; exact r2 j hj, r5, ?_, ?_⟩
  · intro i j hji
    have hi : i < values.length := by
      obtain ⟨f, -, v, hv, -⟩ := hji
      exact (List.getElem?_eq_some_iff.1 hv).1
    obtain ⟨k, hk1, hk2, hk3⟩ := c27_every_occupied_vector_contributes cons (fun i j => some (A i j)) assigned
        values.length i j (fun _ _ => by simp) hi ((hni j i).2 hji)
    rw [← hsel'] at hk1 hk3
    exact ⟨k, hk1, (hni k i).1 hk2, fun k' hk' hn => hk3 k' hk' ((hni k' i).2 hn)⟩
  · intro j hj
    obtain ⟨i, -, hi⟩ := r4 j hj
    have hj' := hj
    rw [hsel'] at hj'
    obtain ⟨a1, a2, a3⟩ := c29_least_distance_first cons A assigned values.length j i hj' hi
    refine ⟨i, (hadm i j).1 a1, ?_⟩
    intro k hk f g v hf hg hv
    have b1 := a2 k ((hadm i k).2 hk)
    have b2 := a3 k ((hadm i k).2 hk)
    rw [hAv i j f v hf hv, hAv i k g v hg hv] at b1 b2
    exact ⟨b1, b2⟩

theorem assignAll_total (values fs : List (Vec m)) (hv : values ≠ []) : ∃ as, assignAll values fs = .ok as := by
  induction fs with
  | nil => exact ⟨[], rfl⟩
  | cons f fs ih =>
    obtain ⟨as, has⟩ := ih
    cases values with
    | nil => exact absurd rfl hv
    | cons v vs =>
      simp only [assignAll, List.map_cons, argmaxL, has]
      exact ⟨_, rfl⟩

/-- `do` succeeds for every nonempty population and nonempty vector set (so the theorem above is not vacuous). -/
theorem c27_selection_total (values : List (Vec m)) (gammas : List ℝ) (pen : ℝ) (ideal popIdeal : Vec m)
    (fitness : List (Vec m)) (cons : Option (List (List ℝ))) (hv : values ≠ []) (hf : fitness ≠ []) :
    ∃ sel id', apdDo values gammas pen ideal popIdeal fitness cons = .ok (sel, id') ∧ sel ≠ [] := by
  cases fitness with
  | nil => exact absurd rfl hf
  | cons f fs =>
    obtain ⟨as, has⟩ := assignAll_total values ((f :: fs).map (fun g i => g i -
      newIdeal ideal (fs.foldl (fun a b i => min (a i) (b i)) f) popIdeal i)) hv
    have hok : ∃ sel id', apdDo values gammas pen ideal popIdeal (f :: fs) cons = .ok (sel, id') := by
      unfold apdDo
      simp only [colMin, has]
      exact ⟨_, _, rfl⟩
    obtain ⟨sel, id', h⟩ := hok
    refine ⟨sel, id', h, ?_⟩
    have hall := c29_rvea_selection values gammas pen ideal popIdeal (f :: fs) cons sel id' h
    obtain ⟨-, -, -, h4, -⟩ := hall
    obtain ⟨fmin, assigned, -, -, hass, -⟩ := apdDo_ok _ _ _ _ _ _ _ _ _ h
    obtain ⟨hlen, hnear⟩ := assignAll_spec values _ _ hass
    have h0 : 0 < assigned.length := by rw [hlen]; simp
    have hn := (hnear 0 (fun i => f i - id' i) assigned[0] rfl).1 (by simp [h0])
    obtain ⟨k, hk, -⟩ := h4 assigned[0] 0 ⟨_, rfl, hn⟩
    intro he; rw [he] at hk; simp at hk

/-- Three individuals with a constraint, two vectors: the operator returns a nonempty selection. -/
example : ∃ sel id', apdDo [(![1, 0] : Vec 2), ![0, 1]] [1, 1] (1 / 2) ![9, 9] ![9, 9] [![1, 2], ![2, 1], ![3, 3]]
    (some [[1], [-1], [0]]) = .ok (sel, id') ∧ sel ≠ [] :=
  c27_selection_total _ _ _ _ _ _ _ (by simp) (by simp)

/-! ## C30 -/

/-- A sequence of selections with the same operator: fitness used and population ideal at each. -/
noncomputable def idealAfter (ideal : Vec m) : List (List (Vec m) × Vec m) → Except Err (Vec m)
  | [] => .ok ideal
  | (fitness, popIdeal) :: rest =>
    match colMin fitness with
    | .error e => .error e
    | .ok fmin => idealAfter (newIdeal ideal fmin popIdeal) rest

theorem colMin_spec (fitness : List (Vec m)) (fmin : Vec m) (h : colMin fitness = .ok fmin) (j : Fin m) :
    IsColMin fitness j (fmin j) := by
  cases fitness with
  | nil => cases h
  | cons r rs =>
    simp only [colMin, Except.ok.injEq] at h
    subst h
    exact foldl_min' rs r j
where
  foldl_min' (rs : List (Vec m)) (r : Vec m) (j : Fin m) :
      IsColMin (r :: rs) j (rs.foldl (fun a b i => min (a i) (b i)) r j) := by
    induction rs generalizing r with
    | nil => exact ⟨⟨r, by simp, rfl⟩, by simp⟩
    | cons a rs ih =>
      obtain ⟨⟨x, hx, hxe⟩, hle⟩ := ih (fun i => min (r i) (a i))
      simp only [List.foldl_cons]
      refine ⟨?_, ?_⟩
      · rcases List.mem_cons.1 hx with rfl | hx
        · rw [← hxe]
          rcases le_total (r j) (a j) with h | h
          · exact ⟨r, by simp, by simp [h]⟩
          · exact ⟨a, by simp, by simp [h]⟩
        · exact ⟨x, by simp [hx], hxe⟩
      · intro y hy
        have h0 := hle _ (List.mem_cons_self)
        rcases List.mem_cons.1 hy with rfl | hy
        · exact le_trans h0 (min_le_left _ _)
        · rcases List.mem_cons.1 hy with rfl | hy
          · exact le_trans h0 (min_le_right _ _)
          · exact hle y (by simp [hy])

/-- C30, one selection: the new ideal is component-wise the least of the old ideal, the population's ideal
and all fitness rows; translated fitness is nonnegative. -/
theorem c30_ideal_after_selection (values : List (Vec m)) (gammas : List ℝ) (pen : ℝ) (ideal popIdeal : Vec m)
    (fitness : List (Vec m)) (cons : Option (List (List ℝ))) (sel : List Nat) (id' : Vec m)
    (h : apdDo values gammas pen ideal popIdeal fitness cons = .ok (sel, id')) :
    idealAfter ideal [(fitness, popIdeal)] = .ok id' ∧
    (∀ j, IsColMin (ideal :: popIdeal :: fitness) j (id' j)) ∧ (∀ f ∈ fitness, ∀ j, 0 ≤ f j - id' j) := by
  obtain ⟨fmin, assigned, hf, hid, -, -⟩ := apdDo_ok values gammas pen ideal popIdeal fitness cons sel id' h
  have hmin : ∀ j, IsColMin (ideal :: popIdeal :: fitness) j (id' j) := by
    intro j
    obtain ⟨⟨r, hr, hre⟩, hle⟩ := colMin_spec fitness fmin hf j
    rw [hid]
    refine ⟨?_, ?_⟩
    · simp only [newIdeal]
      rcases min_choice (min (ideal j) (fmin j)) (popIdeal j) with h1 | h1
      · rcases min_choice (ideal j) (fmin j) with h2 | h2
        · exact ⟨ideal, by simp, by rw [h1, h2]⟩
        · exact ⟨r, by simp [hr], by rw [h1, h2, hre]⟩
      · exact ⟨popIdeal, by simp, by rw [h1]⟩
    · intro y hy
      simp only [newIdeal]
      simp only [List.mem_cons] at hy
      rcases hy with rfl | rfl | hy
      · exact le_trans (min_le_left _ _) (min_le_left _ _)
      · exact min_le_right _ _
      · exact le_trans (min_le_left _ _) (le_trans (min_le_right _ _) (hle y hy))
  refine ⟨by simp only [idealAfter, hf, hid], hmin, fun f hfm j => ?_⟩
  have := (hmin j).2 f (by simp [hfm])
  linarith

/-- C30, any sequence of selections: the ideal is the running minimum of the initial ideal, all population
ideals and all fitness rows seen; in particular it never gets worse. -/
theorem c30_ideal_is_running_minimum (ideal id' : Vec m) (steps : List (List (Vec m) × Vec m))
    (h : idealAfter ideal steps = .ok id') (j : Fin m) :
    IsColMin (ideal :: steps.flatMap (fun p => p.2 :: p.1)) j (id' j) ∧ id' j ≤ ideal j := by
  have main : IsColMin (ideal :: steps.flatMap (fun p => p.2 :: p.1)) j (id' j) := by
    induction steps generalizing ideal with
    | nil =>
      simp only [idealAfter, Except.ok.injEq] at h
      subst h
      exact ⟨⟨ideal, by simp, rfl⟩, by simp⟩
    | cons p steps ih =>
      obtain ⟨fitness, popIdeal⟩ := p
      simp only [idealAfter] at h
      split at h
      · cases h
      · rename_i fmin hf
        obtain ⟨⟨r, hr, hre⟩, hle⟩ := ih _ h
        obtain ⟨⟨q, hq, hqe⟩, hle'⟩ := colMin_spec fitness fmin hf j
        have hni := hle _ (List.mem_cons_self)
        simp only [newIdeal] at hni
        refine ⟨?_, ?_⟩
        · rcases List.mem_cons.1 hr with rfl | hr
          · rw [← hre]
            simp only [newIdeal]
            rcases min_choice (min (ideal j) (fmin j)) (popIdeal j) with h1 | h1
            · rcases min_choice (ideal j) (fmin j) with h2 | h2
              · exact ⟨ideal, by simp, by rw [h1, h2]⟩
              · exact ⟨q, by simp [hq], by rw [h1, h2, hqe]⟩
            · exact ⟨popIdeal, by simp, by rw [h1]⟩
          · exact ⟨r, by simp only [List.flatMap_cons]; exact List.mem_cons_of_mem _ (List.mem_append_right _ hr), hre⟩
        · intro y hy
          rcases List.mem_cons.1 hy with rfl | hy
          · exact le_trans hni (le_trans (min_le_left _ _) (min_le_left _ _))
          · simp only [List.flatMap_cons, List.mem_append, List.mem_cons] at hy
            rcases hy with (rfl | hy) | hy
            · exact le_trans hni (min_le_right _ _)
            · exact le_trans hni (le_trans (min_le_left _ _) (le_trans (min_le_right _ _) (hle' y hy)))
            · exact hle y (List.mem_cons_of_mem _ hy)
  exact ⟨main, main.2 ideal (by simp)⟩

example : ∃ id', idealAfter (![5, 5] : Vec 2) [([![1, 7]], ![9, 9]), ([![3, 2], ![4, 4]], ![0, 3])] = .ok id' := ⟨_, rfl⟩

/-! ## C31 -/

/-- The factor is `m · clamp(t, 0, 1)^alpha`. -/
theorem penalty_formula (t alpha : ℝ) (m : Nat) : partialPenalty t alpha m = (max 0 (min t 1)) ^ alpha * m := by
  unfold partialPenalty
  by_cases h1 : t < 0
  · have : min t 1 = t := min_eq_left (by linarith)
    rw [this, max_eq_left h1.le]
    simp [h1]
  · have h0 : 0 ≤ t := not_lt.1 h1
    simp only [if_neg h1]
    split
    · rename_i h; rw [min_eq_right h.le, max_eq_right zero_le_one]
    · rename_i h; rw [min_eq_left (not_lt.1 h), max_eq_right h0]

/-- C31. For `alpha ≥ 0` the factor is `m · clamp(t,0,1)^alpha`, lies between 0 and `m`, never decreases with `t`,
and is `m` from `t = 1` on. -/
theorem c31_penalty_range_and_monotone (alpha : ℝ) (ha : 0 ≤ alpha) (m : Nat) :
    (∀ t, partialPenalty t alpha m = (max 0 (min t 1)) ^ alpha * m) ∧
    (∀ t, 0 ≤ partialPenalty t alpha m ∧ partialPenalty t alpha m ≤ m) ∧
    (∀ t t', t ≤ t' → partialPenalty t alpha m ≤ partialPenalty t' alpha m) ∧
    (∀ t, 1 ≤ t → partialPenalty t alpha m = m) ∧ (0 < alpha → ∀ t ≤ 0, partialPenalty t alpha m = 0) := by
  have hm : (0 : ℝ) ≤ m := Nat.cast_nonneg m
  have hb : ∀ t : ℝ, 0 ≤ max 0 (min t 1) ∧ max 0 (min t 1) ≤ 1 :=
    fun t => ⟨le_max_left _ _, max_le zero_le_one (min_le_right _ _)⟩
  refine ⟨fun t => penalty_formula t alpha m, fun t => ?_, fun t t' h => ?_, fun t ht => ?_, fun hpos t ht => ?_⟩
  · rw [penalty_formula]
    obtain ⟨h0, h1⟩ := hb t
    exact ⟨mul_nonneg (Real.rpow_nonneg h0 _) hm,
      by simpa using mul_le_mul_of_nonneg_right (Real.rpow_le_one h0 h1 ha) hm⟩
  · rw [penalty_formula, penalty_formula]
    refine mul_le_mul_of_nonneg_right (Real.rpow_le_rpow (hb t).1 ?_ ha) hm
    exact max_le_max (le_refl _) (min_le_min h (le_refl _))
  · rw [penalty_formula, min_eq_right ht, max_eq_right zero_le_one, Real.one_rpow, one_mul]
  · rw [penalty_formula, min_eq_left (by linarith), max_eq_left ht, Real.zero_rpow hpos.ne', zero_mul]

variable {X O F C U V S Q R : Type}
variable {body : EA X O F C U V S Q → EARes Unit X O F C U V S Q} {rows : EA X O F C U V S Q → Nat}

theorem counterDiv_ok {a b : Nat} (h : b ≠ 0) : counterDiv a b = .ok ((a : ℝ) / b) := by simp [counterDiv, h]

theorem div_lt_one_nat {a b : Nat} (h : a < b) : (a : ℝ) / b < 1 := by
  rw [div_lt_one (by exact_mod_cast (Nat.zero_le a).trans_lt h)]; exact_mod_cast h

/-- C31, "interactive" schedule: in every iteration of any EA whose generation body counts generations, the
`k`-th generation (from 0) is started with time `k / n_gen_per_iter`; so it is 0 at the first, and strictly below
1 at every generation that is run, including the last, whose number is `n_gen_per_iter - 1`. -/
theorem c31_interactive_schedule (hb : _root_.Spec.CountsGeneration body rows) (ops : Ops X O F C U V S Q R)
    (s u : EA X O F C U V S Q) (pref : Option (Pref R)) (k : Nat)
    (hk : _root_.Spec.Gens body (fun s => s.continueIteration = true) k (iterStart ops s pref) u)
    (hgo : u.continueIteration = true) :
    timeOf .interactive u = .ok ((k : ℝ) / s.cfg.nGen) ∧ (k : ℝ) / s.cfg.nGen < 1 ∧
      (k = 0 → timeOf .interactive u = .ok 0) := by
  obtain ⟨g1, -, -, g4, -⟩ := gens_counters hb hk
  obtain ⟨f1, f2, -, -⟩ := iterStart_frame ops s pref
  have hcfg : u.cfg = s.cfg := g1.trans f1.cfg
  simp only [EA.continueIteration, Bool.and_eq_true, decide_eq_true_eq, hcfg, g4, f2, Nat.zero_add] at hgo
  have hne : s.cfg.nGen ≠ 0 := by omega
  have ht : timeOf .interactive u = .ok ((k : ℝ) / s.cfg.nGen) := by
    simp only [timeOf, hcfg, g4, f2, Nat.zero_add, counterDiv_ok hne]
  refine ⟨ht, div_lt_one_nat hgo.1, ?_⟩
  rintro rfl
  rw [ht]; simp

/-- `n` successful `iterate` calls, each made while `continue_evolution()` was True. -/
inductive Iterations (ops : Ops X O F C U V S Q R) (body : EA X O F C U V S Q → EARes Unit X O F C U V S Q) :
    EA X O F C U V S Q → EA X O F C U V S Q → Prop
  | refl (s) : Iterations ops body s s
  | step {s t u pref r} : Iterations ops body s t → t.continueEvolution = true →
      t.iterateWith ops body pref = (.ok r, u) → Iterations ops body s u

theorem gens_genIter_le (hb : _root_.Spec.CountsGeneration body rows) {k : Nat} {a b : EA X O F C U V S Q}
    (h : _root_.Spec.Gens body (fun s => s.continueIteration = true) k a b) (h0 : a.genIter ≤ a.cfg.nGen) :
    a.genIter + k ≤ a.cfg.nGen := by
  induction h with
  | zero => simpa using h0
  | @succ k s t u hc hbs hg ih =>
    obtain ⟨h1, -, -, h4, -⟩ := hb.ok _ _ hbs
    have hlt : s.genIter < s.cfg.nGen := by
      simp only [EA.continueIteration, Bool.and_eq_true, decide_eq_true_eq] at hc; exact hc.1
    have := ih (by rw [h1, h4]; omega)
    rw [h1, h4] at this; omega

theorem iterations_gen_le (hb : _root_.Spec.CountsGeneration body rows) {ops : Ops X O F C U V S Q R}
    {s t : EA X O F C U V S Q} (h : Iterations ops body s t) (h0 : s.gen ≤ s.iter * s.cfg.nGen) :
    t.cfg = s.cfg ∧ t.gen ≤ t.iter * s.cfg.nGen := by
  induction h with
  | refl => exact ⟨rfl, h0⟩
  | @step t u pref r hst hc hi ih =>
    obtain ⟨i1, i2⟩ := ih
    obtain ⟨k, v, hk, -, hu, -⟩ := iterateWith_ok hb ops t u pref r hi
    obtain ⟨f1, f2, -, -⟩ := iterStart_frame ops t pref
    obtain ⟨g1, g2, g3, -⟩ := gens_counters hb hk
    have hle := gens_genIter_le hb hk (by rw [f2]; exact Nat.zero_le _)
    rw [f2, f1.cfg, i1] at hle
    refine ⟨(hu.cfg.trans (g1.trans f1.cfg)).trans i1, ?_⟩
    have e1 : u.gen = t.gen + k := by rw [hu.gen]; show v.gen = _; rw [g3, f1.gen]
    have e2 : u.iter = t.iter + 1 := by rw [hu.iter]; show v.iter + 1 = _; rw [g2, f1.iter]
    rw [e1, e2, Nat.add_mul]; omega

/-- C31, "original" schedule: from a fresh EA (no generations, no iterations yet), whatever number of
iterations has been run by the driver `while continue_evolution()`, the `k`-th generation of the next one is
started with time `generations so far / (n_gen_per_iter · n_iterations)`, which is defined and strictly
below 1. -/
theorem c31_original_schedule (hb : _root_.Spec.CountsGeneration body rows) (ops : Ops X O F C U V S Q R)
    (s0 s u : EA X O F C U V S Q) (pref : Option (Pref R)) (k : Nat) (hg0 : s0.gen = 0)
    (hs : Iterations ops body s0 s) (hev : s.continueEvolution = true)
    (hk : _root_.Spec.Gens body (fun s => s.continueIteration = true) k (iterStart ops s pref) u)
    (hgo : u.continueIteration = true) :
    timeOf .original u = .ok (((s.gen + k : Nat) : ℝ) / (s0.cfg.nGen * s0.cfg.nIter : Nat)) ∧
      ((s.gen + k : Nat) : ℝ) / (s0.cfg.nGen * s0.cfg.nIter : Nat) < 1 := by
  obtain ⟨c1, c2⟩ := iterations_gen_le hb hs (by rw [hg0]; exact Nat.zero_le _)
  obtain ⟨g1, -, g3, g4, -⟩ := gens_counters hb hk
  obtain ⟨f1, f2, -, -⟩ := iterStart_frame ops s pref
  have hcfg : u.cfg = s0.cfg := (g1.trans f1.cfg).trans c1
  simp only [EA.continueIteration, Bool.and_eq_true, decide_eq_true_eq, hcfg, g4, f2, Nat.zero_add] at hgo
  simp only [EA.continueEvolution, Bool.and_eq_true, decide_eq_true_eq, c1] at hev
  have hlt : s.gen + k < s0.cfg.nGen * s0.cfg.nIter := by
    calc s.gen + k < s.iter * s0.cfg.nGen + s0.cfg.nGen := by omega
      _ = (s.iter + 1) * s0.cfg.nGen := by rw [Nat.add_mul]; omega
      _ ≤ s0.cfg.nIter * s0.cfg.nGen := Nat.mul_le_mul_right _ hev.1
      _ = _ := Nat.mul_comm _ _
  refine ⟨?_, div_lt_one_nat hlt⟩
  simp only [timeOf, hcfg, g3, f1.gen]
  exact counterDiv_ok (by omega)

/-- C31, "function_count" schedule: at every generation the loop starts, with a budget given, the time is
`evaluations / budget`, defined and at most 1 (exactly 1 when the budget is used up to the last
evaluation). -/
theorem c31_function_count_schedule (u : EA X O F C U V S Q) (htot : u.cfg.total ≠ 0) (hgo : u.continueIteration = true) :
    timeOf .functionCount u = .ok ((u.fe : ℝ) / u.cfg.total) ∧ (u.fe : ℝ) / u.cfg.total ≤ 1 := by
  refine ⟨counterDiv_ok htot, ?_⟩
  simp only [EA.continueIteration, EA.checkFE, if_neg htot, Bool.and_eq_true, decide_eq_true_eq] at hgo
  rw [div_le_one (by exact_mod_cast Nat.pos_of_ne_zero htot)]
  exact_mod_cast hgo.2

/-- C31 (limits of the schedules): the time is undefined (ZeroDivisionError) exactly for "function_count" without
a budget, "original" with no generations in all, and "interactive" with no generations per iteration. -/
theorem c31_zero_division_cases (u : EA X O F C U V S Q) :
    (timeOf .functionCount u = .error .zeroDivisionError ↔ u.cfg.total = 0) ∧
    (timeOf .original u = .error .zeroDivisionError ↔ u.cfg.nGen = 0 ∨ u.cfg.nIter = 0) ∧
    (timeOf .interactive u = .error .zeroDivisionError ↔ u.cfg.nGen = 0) ∧
    (∀ x, timeOf (.constant x) u = .ok x) := by
  refine ⟨?_, ?_, ?_, fun x => rfl⟩ <;> simp only [timeOf, counterDiv] <;> split <;> simp_all

/-- The demo EA of `Props/Loop` in interactive mode with 3 generations per iteration: its third generation (k = 2)
is one the schedule theorems speak about, and the time there is 2/3, not 1. -/
example : ∃ s, demoState true false 0 = .ok s ∧ s.continueEvolution = true ∧ ∃ u,
    _root_.Spec.Gens (EA.nextGen demoEA) (fun s => s.continueIteration = true) 2 (iterStart demoEA s none) u ∧
    u.continueIteration = true := by
  refine ⟨_, rfl, by decide +kernel, ?_⟩
  exact ⟨_, .succ (by decide +kernel) rfl (.succ (by decide +kernel) rfl (.zero _)), by decide +kernel⟩

/-! ## C32 -/

/-- The documented default: interactive if `interact`, else by evaluations if a budget is given, else
by generations. -/
def documentedDefault (interact : Bool) (total : Nat) : TimePenalty :=
  if interact then .interactive else if total ≠ 0 then .functionCount else .original

/-- C32. Which time penalty the constructor picks, for every argument. -/
theorem c32_constructor_choice (interact : Bool) (total : Nat) :
    choosePenalty .none interact total = .ok (documentedDefault interact total) ∧
    (∀ x, choosePenalty (.float x) interact total = .ok (.constant x)) ∧
    choosePenalty (.str "original") interact total = .ok .original ∧
    choosePenalty (.str "function_count") interact total = .ok .functionCount ∧
    choosePenalty (.str "interactive") interact total = .ok .interactive ∧
    (∀ s, s ∉ ["original", "function_count", "interactive"] →
      choosePenalty (.str s) interact total = .error .unboundLocalError) ∧
    choosePenalty .other interact total = .error .unboundLocalError := by
  refine ⟨?_, fun x => rfl, by simp [choosePenalty], by simp [choosePenalty], by simp [choosePenalty], ?_, rfl⟩
  · simp only [choosePenalty, documentedDefault, Nat.pos_iff_ne_zero, gt_iff_lt, ne_eq]
    split
    · rfl
    · split <;> simp_all
  · intro s hs
    simp only [List.mem_cons, List.not_mem_nil, or_false, not_or] at hs
    simp [choosePenalty, hs]

/-- C32 (deviation): the documented eaError is never raised, and a float outside [0, 1] is accepted for every
setting; the penalty factor is then the clamped one. -/
theorem c32_no_eaError_and_out_of_range_accepted (arg : PenaltyArg) (interact : Bool) (total : Nat) :
    choosePenalty arg interact total ≠ .error .eaError ∧
    (∀ (x alpha : ℝ) (m : Nat), 1 < x → choosePenalty (.float x) interact total = .ok (.constant x) ∧
      partialPenalty x alpha m = m) := by
  refine ⟨?_, fun x alpha m hx => ⟨rfl, ?_⟩⟩
  · intro h
    cases arg <;> simp only [choosePenalty] at h
    · split at h
      · cases h
      · split at h <;> cases h
    · cases h
    · split at h
      · cases h
      · split at h
        · cases h
        · split at h <;> cases h
    · cases h
  · rw [penalty_formula, min_eq_right hx.le, max_eq_right zero_le_one, Real.one_rpow, one_mul]

example : "interactve" ∉ ["original", "function_count", "interactive"] := by decide

end Verif.Props
