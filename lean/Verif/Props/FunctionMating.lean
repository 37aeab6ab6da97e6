import Verif.Spec.FunctionMating
import Verif.Props.EvoNets
import Verif.Props.BioGPTrain

/-!
# C89: the recombination functions `mate` and `mutate` of the surrogate modules
-/

namespace Verif.Props
open Verif Verif.Spec

/-! ## The loop over the pairs -/

theorem pairLoop_ok {A : Type} (f : Nat → A → A → Except Err (A × A)) (pop : List A) (ps : List (Nat × Nat)) :
    ∀ (k0 : Nat) (os : List A), pairLoop f pop k0 ps = .ok os →
      TwoPerPair pop ps (fun a b o1 o2 => ∃ k, f k a b = .ok (o1, o2)) os := by
  induction ps with
  | nil =>
    intro k0 os h
    simp only [pairLoop, Except.ok.injEq] at h
    subst h
    exact ⟨rfl, by simp⟩
  | cons p ps ih =>
    intro k0 os h
    simp only [pairLoop] at h
    split at h
    · rename_i a b ha hb
      split at h
      · cases h
      · rename_i q hq
        split at h
        · cases h
        · rename_i os' hos
          simp only [Except.ok.injEq] at h
          subst h
          obtain ⟨h1, h2⟩ := ih _ _ hos
          refine ⟨by simp [h1]; ring, ?_⟩
          intro k i j hk
          cases k with
          | zero =>
            simp only [List.getElem?_cons_zero, Option.some.injEq] at hk
            subst hk
            exact ⟨a, b, q.1, q.2, ha, hb, rfl, rfl, k0, hq⟩
          | succ k =>
            simp only [List.getElem?_cons_succ] at hk
            obtain ⟨a', b', o1, o2, e1, e2, e3, e4, e5⟩ := h2 k i j hk
            refine ⟨a', b', o1, o2, e1, e2, ?_, ?_, e5⟩
            · rw [show 2 * (k + 1) = 2 * k + 1 + 1 by ring, List.getElem?_cons_succ, List.getElem?_cons_succ, e3]
            · rw [show 2 * (k + 1) + 1 = (2 * k + 1) + 1 + 1 by ring, List.getElem?_cons_succ, List.getElem?_cons_succ, e4]
    · cases h

theorem pairLoop_total {A : Type} (f : Nat → A → A → Except Err (A × A)) (pop : List A)
    (hf : ∀ k, ∀ a ∈ pop, ∀ b ∈ pop, ∃ o, f k a b = .ok o) (ps : List (Nat × Nat)) (hp : ∀ p ∈ ps, p.1 < pop.length ∧ p.2 < pop.length) :
    ∀ k0, ∃ os, pairLoop f pop k0 ps = .ok os := by
  induction ps with
  | nil => intro k0; exact ⟨[], rfl⟩
  | cons p ps ih =>
    intro k0
    obtain ⟨h1, h2⟩ := hp p (by simp)
    obtain ⟨os, hos⟩ := ih (fun q hq => hp q (by simp [hq])) (k0 + 1)
    obtain ⟨o, ho⟩ := hf k0 _ (List.getElem_mem h1) _ (List.getElem_mem h2)
    exact ⟨o.1 :: o.2 :: os, by simp only [pairLoop, List.getElem?_eq_getElem h1, List.getElem?_eq_getElem h2, ho, hos]⟩

theorem pairLoop_mem {A : Type} (f : Nat → A → A → Except Err (A × A)) (pop : List A) (ps : List (Nat × Nat)) (k0 : Nat) (os : List A)
    (h : pairLoop f pop k0 ps = .ok os) : ∀ o ∈ os, ∃ a ∈ pop, ∃ b ∈ pop, ∃ k q, f k a b = .ok q ∧ (o = q.1 ∨ o = q.2) := by
  obtain ⟨h1, h2⟩ := pairLoop_ok f pop ps k0 os h
  intro o ho
  obtain ⟨n, hn⟩ := List.mem_iff_getElem?.1 ho
  have hl : n < os.length := (List.getElem?_eq_some_iff.1 hn).1
  have hk : n / 2 < ps.length := by omega
  obtain ⟨a, b, o1, o2, e1, e2, e3, e4, k, e5⟩ := h2 (n / 2) (ps[n / 2]).1 (ps[n / 2]).2 (by rw [List.getElem?_eq_getElem hk])
  refine ⟨a, List.mem_of_getElem? e1, b, List.mem_of_getElem? e2, k, _, e5, ?_⟩
  rcases Nat.mod_two_eq_zero_or_one n with h | h
  · left
    rw [show 2 * (n / 2) = n by omega, hn] at e3
    injection e3
  · right
    rw [show 2 * (n / 2) + 1 = n by omega, hn] at e4
    injection e4

/-- C89. Without mates every individual is mated with a random one: as many pairs as individuals, the first of pair `i` is individual `i`, and all are individuals
(for the classes' `do` half of the individuals is ignored and the others are mated with themselves, `c57_self_mating`). -/
theorem c89_default_pairs (n : Nat) (draw : Nat → Nat) :
    (matingPop n draw none).length = n ∧ (∀ i, i < n → (matingPop n draw none)[i]? = some (i, draw i % n)) ∧
    (∀ p ∈ matingPop n draw none, p.1 < n ∧ p.2 < n) ∧ ∀ ps, matingPop n draw (some ps) = ps := by
  refine ⟨by simp [matingPop], ?_, ?_, fun ps => rfl⟩
  · intro i hi
    simp [matingPop, hi]
  · intro p hp
    simp only [matingPop, Option.getD_none, List.mem_map, List.mem_range] at hp
    obtain ⟨i, hi, rfl⟩ := hp
    exact ⟨hi, Nat.mod_lt _ (by omega)⟩

/-! ## EvoNN -/

theorem stdDev_nonneg (cur total : ℝ) : 0 ≤ stdDev cur total := by
  simp only [stdDev]
  split
  · exact le_refl _
  · rename_i h; exact not_lt.1 h

/-- C89. The standard deviation of the mutation: it falls linearly with the generation to zero at the last one, and stays there. -/
theorem c89_std_dev (cur total : ℝ) (ht : 0 < total) :
    (cur ≤ total → stdDev cur total = 5 / 3 * (1 - cur / total)) ∧ (total ≤ cur → stdDev cur total = 0) := by
  have h1 : cur ≤ total → 0 ≤ 1 - cur / total := fun h => by
    have := (div_le_one ht).2 h
    linarith
  have h2 : total ≤ cur → 1 - cur / total ≤ 0 := fun h => by
    have := (one_le_div ht).2 h
    linarith
  constructor
  · intro h
    have := h1 h
    simp only [stdDev]
    rw [if_neg (by linarith)]
  · intro h
    have := h2 h
    simp only [stdDev]
    split
    · rfl
    · rename_i h3
      linarith

variable {r c : Nat}

/-- What a pair of networks becomes: crossed columns, then every weight kept or scaled by one plus a number. -/
def NNOffspring (a b o1 o2 : NNet r c ℝ) : Prop :=
  ∃ x y, ColumnsCrossed a b x y ∧ (∀ i j, Scaled (x i j) (o1 i j)) ∧ (∀ i j, Scaled (y i j) (o2 i j))

theorem swap_crossed (d : Fin c → Bool) (a b : NNet r c ℝ) : ColumnsCrossed a b (swapCols d a b).1 (swapCols d a b).2 := by
  intro j
  cases h : d j with
  | true =>
    right
    intro i
    obtain ⟨h1, h2⟩ := c65_crossover_swaps_nodes d a b i j
    rw [h1, h2, h]
    exact ⟨rfl, rfl⟩
  | false =>
    left
    intro i
    obtain ⟨h1, h2⟩ := c65_crossover_swaps_nodes d a b i j
    rw [h1, h2, h]
    exact ⟨rfl, rfl⟩

/-- C89. EvoNN's `mate` with Gaussian mutation (the default) returns for every generation count, also past the budget (where the class raises,
`c65_past_budget_raises`), two offspring per pair: crossed columns, then each weight kept or scaled; from the last generation on there is crossover only. -/
theorem c89_evonn_gaussian (cur total strength : ℝ) (ht : 0 < total) (draw : Nat → NNDraw r c ℝ) (partner : Nat → Nat) (pop : List (NNet r c ℝ))
    (mates : Option (List (Nat × Nat))) (hm : ∀ ps, mates = some ps → ∀ p ∈ ps, p.1 < pop.length ∧ p.2 < pop.length) :
    ∃ os, nnMateFn .gaussian cur total strength draw partner pop mates = .ok os ∧
      TwoPerPair pop (matingPop pop.length partner mates) NNOffspring os ∧
      (total ≤ cur → TwoPerPair pop (matingPop pop.length partner mates) ColumnsCrossed os) := by
  have hp : ∀ p ∈ matingPop pop.length partner mates, p.1 < pop.length ∧ p.2 < pop.length := by
    cases mates with
    | none => exact (c89_default_pairs pop.length partner).2.2.1
    | some ps => exact hm ps rfl
  obtain ⟨os, hos⟩ := pairLoop_total (fun k a b => nnPair .gaussian false (strength * (1 - cur / total)) pop ((draw k).scaled (stdDev cur total) strength) a b) pop
    (fun k a _ b _ => ⟨_, by simp only [nnPair, Bool.false_eq_true, if_false]; rfl⟩) _ hp 0
  obtain ⟨h1, h2⟩ := pairLoop_ok _ _ _ _ _ hos
  refine ⟨os, by unfold nnMateFn; rw [if_neg ht.ne']; exact hos, ⟨h1, ?_⟩, ?_⟩
  · intro k i j hk
    obtain ⟨a, b, o1, o2, e1, e2, e3, e4, n, e5⟩ := h2 k i j hk
    simp only [nnPair, Bool.false_eq_true, if_false, Except.ok.injEq, Prod.mk.injEq] at e5
    refine ⟨a, b, o1, o2, e1, e2, e3, e4, _, _, swap_crossed (draw n).swap a b, ?_, ?_⟩
    · intro i j
      rw [← e5.1]
      simp only [gaussMut]
      split
      · exact .inr ⟨_, rfl⟩
      · exact .inl rfl
    · intro i j
      rw [← e5.2]
      simp only [gaussMut]
      split
      · exact .inr ⟨_, rfl⟩
      · exact .inl rfl
  · intro hc
    refine ⟨h1, ?_⟩
    intro k i j hk
    obtain ⟨a, b, o1, o2, e1, e2, e3, e4, n, e5⟩ := h2 k i j hk
    simp only [nnPair, Bool.false_eq_true, if_false, Except.ok.injEq, Prod.mk.injEq, (c89_std_dev cur total ht).2 hc] at e5
    refine ⟨a, b, o1, o2, e1, e2, e3, e4, ?_⟩
    have q1 : o1 = (swapCols (draw n).swap a b).1 := by
      rw [← e5.1]
      funext i j
      simp [gaussMut, NNDraw.scaled]
    have q2 : o2 = (swapCols (draw n).swap a b).2 := by
      rw [← e5.2]
      funext i j
      simp [gaussMut, NNDraw.scaled]
    rw [q1, q2]
    exact swap_crossed _ a b

/-- C89. With a mutation type that is neither "gaussian" nor "self-adapting" EvoNN's `mate` crosses over and does not mutate. -/
theorem c89_evonn_other (cur total strength : ℝ) (ht : total ≠ 0) (draw : Nat → NNDraw r c ℝ) (partner : Nat → Nat) (pop : List (NNet r c ℝ))
    (mates : Option (List (Nat × Nat))) (os : List (NNet r c ℝ)) (h : nnMateFn .other cur total strength draw partner pop mates = .ok os) :
    TwoPerPair pop (matingPop pop.length partner mates) ColumnsCrossed os := by
  unfold nnMateFn at h
  rw [if_neg ht] at h
  obtain ⟨h1, h2⟩ := pairLoop_ok _ _ _ _ _ h
  refine ⟨h1, ?_⟩
  intro k i j hk
  obtain ⟨a, b, o1, o2, e1, e2, e3, e4, n, e5⟩ := h2 k i j hk
  simp only [nnPair, Except.ok.injEq] at e5
  refine ⟨a, b, o1, o2, e1, e2, e3, e4, ?_⟩
  have := swap_crossed (draw n).swap a b
  rw [show (swapCols (draw n).swap a b) = (o1, o2) from e5] at this
  exact this

theorem nnPairs_eq_loop (mt : MutType) (neg : Bool) (factor : ℝ) (pop : List (NNet r c ℝ)) (draw : Nat → NNDraw r c ℝ) (ps : List (Nat × Nat)) :
    ∀ k, nnPairs mt neg factor pop draw k ps = pairLoop (fun k a b => nnPair mt neg factor pop (draw k) a b) pop k ps := by
  induction ps with
  | nil => intro k; rfl
  | cons p ps ih =>
    intro k
    simp only [nnPairs, pairLoop, ih]
    cases pop[p.1]? with
    | none => rfl
    | some a =>
      cases pop[p.2]? with
      | none => rfl
      | some b =>
        dsimp only
        split
        · rename_i e he; rw [he]
        · rename_i o ho
          rw [ho]
          dsimp only
          split
          · rename_i e he; rw [he]
          · rename_i o ho; rw [ho]

/-- C89. What EvoNN's `mate` returns, the class's `do` returns for the same pairs (with suitable draws); so what holds over any history of the class's recombination
(`c65_dead_connection_stays_dead`, `c65_node_lineage`, `c65_complexity_never_grows`) holds for the function too. -/
theorem c89_evonn_as_class (mt : MutType) (cur total strength : ℝ) (draw : Nat → NNDraw r c ℝ) (partner : Nat → Nat) (pop os : List (NNet r c ℝ))
    (mates : Option (List (Nat × Nat))) (h : nnMateFn mt cur total strength draw partner pop mates = .ok os) :
    ∃ draw', nnDo mt 0 1 (strength * (1 - cur / total)) draw' pop (.pairs (matingPop pop.length partner mates)) = .ok os := by
  unfold nnMateFn at h
  split at h
  · cases h
  · refine ⟨fun k => (draw k).scaled (stdDev cur total) strength, ?_⟩
    unfold nnDo
    rw [if_neg (by simp)]
    simp only [Mates.toPairs]
    rw [nnPairs_eq_loop]
    exact h

/-- C89. A connection that no network has never comes back, over any history of EvoNN's `mate` and selection. -/
theorem c89_evonn_dead_connection (P0 Q : List (NNet r c ℝ)) (i : Fin r) (j : Fin c) (h0 : ∀ n ∈ P0, n i j = 0)
    (hQ : Bred (fun P O => ∃ mt cur total strength draw partner mates, nnMateFn mt cur total strength draw partner P mates = .ok O) P0 Q) :
    ∀ n ∈ Q, n i j = 0 := by
  refine c65_dead_connection_stays_dead P0 Q i j h0 ?_
  induction hQ with
  | start => exact .start
  | next hP hb hk ih =>
    refine .next ih ?_ hk
    obtain ⟨mt, cur, total, strength, draw, partner, mates, h⟩ := hb
    obtain ⟨draw', h'⟩ := c89_evonn_as_class mt cur total strength draw partner _ _ mates h
    exact ⟨mt, 0, 1, _, draw', _, trivial, by convert h'⟩

/-! ## EvoDN2 -/

theorem dnPairs_eq_loop (draw : Nat → Nat → Nat → DNDraw ℝ) (pop : List (DNet ℝ)) (ps : List (Nat × Nat)) :
    ∀ k, dnPairs draw pop k ps = pairLoop (fun k a b => dnPair (draw k) 0 a b) pop k ps := by
  induction ps with
  | nil => intro k; rfl
  | cons p ps ih =>
    intro k
    simp only [dnPairs, pairLoop, ih]
    cases pop[p.1]? with
    | none => rfl
    | some a =>
      cases pop[p.2]? with
      | none => rfl
      | some b =>
        dsimp only
        split
        · rename_i e he; rw [he]
        · rename_i o ho
          rw [ho]
          dsimp only
          split
          · rename_i e he; rw [he]
          · rename_i o ho; rw [ho]

theorem mutLayer_zero (hit : Nat → Bool) (val : Nat → ℝ) (l : Layer ℝ) (k : Nat) (h0 : ∀ k, val k = 0) : (mutLayer hit val l).w[k]? = l.w[k]? := by
  simp only [mutLayer, List.getElem?_mapIdx]
  cases l.w[k]? with
  | none => rfl
  | some y => simp [h0]

theorem dnSubnet_get0 (d : Nat → DNDraw ℝ) (h0 : ∀ i k, (d i).val1 k = 0 ∧ (d i).val2 k = 0) (as bs : List (Layer ℝ)) : ∀ (k0 l k : Nat) (x : ℝ),
    (((dnSubnet d k0 as bs).1[l]?).bind (fun L => L.w[k]?) = some x ∨ ((dnSubnet d k0 as bs).2[l]?).bind (fun L => L.w[k]?) = some x) →
    ((as[l]?).bind (fun L => L.w[k]?) = some x ∨ (bs[l]?).bind (fun L => L.w[k]?) = some x) := by
  induction as generalizing bs with
  | nil =>
    induction bs with
    | nil => intro k0 l k x h; simp [dnSubnet] at h
    | cons b bs ih =>
      intro k0 l k x h
      simp only [dnSubnet, List.getElem?_nil, Option.bind_none, reduceCtorEq, false_or] at h ⊢
      cases l with
      | zero =>
        simp only [List.getElem?_cons_zero, Option.bind_some] at h ⊢
        rwa [mutLayer_zero _ _ _ _ (fun k => (h0 _ k).2)] at h
      | succ l =>
        simp only [List.getElem?_cons_succ] at h ⊢
        simpa using ih (k0 + 1) l k x (.inr h)
  | cons a as ih =>
    cases bs with
    | nil =>
      intro k0 l k x h
      simp only [dnSubnet, List.getElem?_nil, Option.bind_none, reduceCtorEq, or_false] at h ⊢
      cases l with
      | zero =>
        simp only [List.getElem?_cons_zero, Option.bind_some] at h ⊢
        rwa [mutLayer_zero _ _ _ _ (fun k => (h0 _ k).1)] at h
      | succ l =>
        simp only [List.getElem?_cons_succ] at h ⊢
        simpa using ih [] (k0 + 1) l k x (.inl h)
    | cons b bs =>
      intro k0 l k x h
      simp only [dnSubnet] at h
      cases l with
      | zero =>
        simp only [List.getElem?_cons_zero, Option.bind_some] at h ⊢
        rcases h with h | h
        · rw [mutLayer_zero _ _ _ _ (fun k => (h0 _ k).1)] at h
          exact (cross_get _ _ _ _ _).1 h
        · rw [mutLayer_zero _ _ _ _ (fun k => (h0 _ k).2)] at h
          exact (cross_get _ _ _ _ _).2 h
      | succ l =>
        simp only [List.getElem?_cons_succ] at h ⊢
        exact ih bs (k0 + 1) l k x h

theorem dnPair_get0 (d : Nat → Nat → DNDraw ℝ) (h0 : ∀ j i k, (d j i).val1 k = 0 ∧ (d j i).val2 k = 0) (a b : DNet ℝ) :
    ∀ (k0 : Nat) (o : DNet ℝ × DNet ℝ), dnPair d k0 a b = .ok o →
    ∀ (s l k : Nat) (x : ℝ), (weightAt o.1 s l k = some x ∨ weightAt o.2 s l k = some x) →
      (weightAt a s l k = some x ∨ weightAt b s l k = some x) := by
  induction a generalizing b with
  | nil =>
    intro k0 o h s l k x hx
    simp only [dnPair, Except.ok.injEq] at h
    subst h
    exact hx
  | cons p as ih =>
    cases b with
    | nil => intro k0 o h; simp [dnPair] at h
    | cons q bs =>
      intro k0 o h s l k x hx
      simp only [dnPair] at h
      split at h
      · cases h
      · rename_i t ht
        simp only [Except.ok.injEq] at h
        subst h
        cases s with
        | zero =>
          simp only [weightAt, List.getElem?_cons_zero, Option.bind_some] at hx ⊢
          exact dnSubnet_get0 (d k0) (h0 k0) p q 0 l k x hx
        | succ s =>
          have := ih bs _ _ ht s l k x
          simp only [weightAt, List.getElem?_cons_succ] at hx this ⊢
          exact this hx

/-- C89. EvoDN2's `mate` with Gaussian mutation (the default), of networks with equally many subnets: it returns two offspring per pair, each with the architecture of
its mate, and each weight is a weight at the same position of one of the networks, kept or scaled; from the last generation on it is kept. -/
theorem c89_evodn2_gaussian (cur total strength : ℝ) (ht : 0 < total) (draw : Nat → Nat → Nat → DNDraw ℝ) (partner : Nat → Nat) (pop : List (DNet ℝ)) (n : Nat)
    (hn : ∀ a ∈ pop, a.length = n) (mates : Option (List (Nat × Nat))) (hm : ∀ ps, mates = some ps → ∀ p ∈ ps, p.1 < pop.length ∧ p.2 < pop.length) :
    ∃ os, dnMateFn true cur total strength draw partner pop mates = .ok os ∧
      TwoPerPair pop (matingPop pop.length partner mates) (fun a b o1 o2 => shape o1 = shape a ∧ shape o2 = shape b) os ∧
      (∀ o ∈ os, ∀ s l k x, weightAt o s l k = some x → ∃ a ∈ pop, ∃ y, weightAt a s l k = some y ∧ Scaled y x) ∧
      (total ≤ cur → ∀ o ∈ os, ∀ s l k x, weightAt o s l k = some x → ∃ a ∈ pop, weightAt a s l k = some x) := by
  have hp : ∀ p ∈ matingPop pop.length partner mates, p.1 < pop.length ∧ p.2 < pop.length := by
    cases mates with
    | none => exact (c89_default_pairs pop.length partner).2.2.1
    | some ps => exact hm ps rfl
  obtain ⟨os, hos⟩ := pairLoop_total (fun k a b => dnPair (fun i j => (draw k i j).scaled (stdDev cur total) strength) 0 a b) pop
    (fun k a ha b hb => dnPair_total _ a b (by rw [hn a ha, hn b hb]) 0) _ hp 0
  obtain ⟨h1, h2⟩ := pairLoop_ok _ _ _ _ _ hos
  refine ⟨os, by unfold dnMateFn; rw [if_neg ht.ne', if_pos rfl]; exact hos, ⟨h1, ?_⟩, ?_, ?_⟩
  · intro k i j hk
    obtain ⟨a, b, o1, o2, e1, e2, e3, e4, m, e5⟩ := h2 k i j hk
    obtain ⟨s1, s2⟩ := dnPair_sig _ _ _ _ _ e5
    exact ⟨a, b, o1, o2, e1, e2, e3, e4, shape_of_sigs s1, shape_of_sigs s2⟩
  · intro o ho s l k x hx
    obtain ⟨a, ha, b, hb, m, q, hq, hoq⟩ := pairLoop_mem _ _ _ _ _ hos o ho
    obtain ⟨y, hy, hs⟩ := dnPair_get _ _ _ _ _ hq s l k x (by rcases hoq with rfl | rfl <;> simp [hx])
    rcases hy with hy | hy
    · exact ⟨a, ha, y, hy, hs⟩
    · exact ⟨b, hb, y, hy, hs⟩
  · intro hc o ho s l k x hx
    obtain ⟨a, ha, b, hb, m, q, hq, hoq⟩ := pairLoop_mem _ _ _ _ _ hos o ho
    rcases dnPair_get0 _ (by intro j i k; simp [DNDraw.scaled, (c89_std_dev cur total ht).2 hc]) _ _ _ _ hq s l k x
      (by rcases hoq with rfl | rfl <;> simp [hx]) with hy | hy
    · exact ⟨a, ha, hy⟩
    · exact ⟨b, hb, hy⟩

/-- C89. With any other mutation type EvoDN2's `mate` returns no offspring (while EvoNN's crosses over, `c89_evonn_other`). -/
theorem c89_evodn2_other (cur total strength : ℝ) (ht : total ≠ 0) (draw : Nat → Nat → Nat → DNDraw ℝ) (partner : Nat → Nat) (pop : List (DNet ℝ))
    (mates : Option (List (Nat × Nat))) : dnMateFn false cur total strength draw partner pop mates = .ok [] := by
  unfold dnMateFn
  rw [if_neg ht]
  rfl

/-- C89. A budget of zero generations raises ZeroDivisionError in both. -/
theorem c89_zero_budget (mt : MutType) (g : Bool) (cur strength : ℝ) (dn : Nat → NNDraw r c ℝ) (dd : Nat → Nat → Nat → DNDraw ℝ) (partner : Nat → Nat)
    (p1 : List (NNet r c ℝ)) (p2 : List (DNet ℝ)) (mates : Option (List (Nat × Nat))) :
    nnMateFn mt cur 0 strength dn partner p1 mates = .error .zeroDivisionError ∧
    dnMateFn g cur 0 strength dd partner p2 mates = .error .zeroDivisionError := by
  unfold nnMateFn dnMateFn
  exact ⟨if_pos rfl, if_pos rfl⟩

/-! ## BioGP -/

/-- C89. The one draw decides for all pairs: crossover takes place exactly if it is at most the crossover probability, height-fair if it is at most that less one half
(so never with a probability below one half, which the class refuses and the function accepts). -/
theorem c89_biogp_xover_kind (p r : ℝ) :
    (xKindFn p r = .fair ↔ r ≤ p - 1 / 2) ∧ (xKindFn p r = .standard ↔ p - 1 / 2 < r ∧ r ≤ p) ∧ (xKindFn p r = .none ↔ p < r) ∧
    xKindFn p r = xKindOf p r := by
  have e : p - 1 / 2 + 1 / 2 = p := by ring
  unfold xKindFn xKindOf
  rw [e]
  refine ⟨?_, ?_, ?_, rfl⟩
  · split
    · simp_all
    · split <;> simp_all
  · split
    · rename_i h
      constructor
      · intro h'; cases h'
      · rintro ⟨h1, -⟩; linarith
    · rename_i h
      split
      · rename_i h'
        exact ⟨fun _ => ⟨not_le.1 h, h'⟩, fun _ => rfl⟩
      · rename_i h'
        constructor
        · intro h'; cases h'
        · rintro ⟨-, h2⟩; exact absurd h2 h'
  · split
    · rename_i h
      constructor
      · intro h'; cases h'
      · intro h1; linarith
    · split
      · rename_i h'
        constructor
        · intro h'; cases h'
        · intro h1; linarith
      · rename_i h'
        exact ⟨fun _ => not_le.1 h', fun _ => rfl⟩

/-- What becomes of two trees: nothing, or two proper subtrees change places. -/
def TreesCrossed (a b o1 o2 : GTree) : Prop :=
  (o1 = a ∧ o2 = b) ∨ ∃ (p1 p2 : List Nat) (s1 s2 : GTree), p1 ≠ [] ∧ p2 ≠ [] ∧ a.at? p1 = some s1 ∧ b.at? p2 = some s2 ∧ Grafted a o1 p1 s2 ∧ Grafted b o2 p2 s1

/-- C89. BioGP's `mate` on proper individuals returns two proper individuals per pair, with the pair's nodes; two subtrees change places (or nothing does). -/
theorem c89_biogp_mate (cfg : GPCfg GFn GTerm) (hs : 0 < cfg.maxSubtrees) (p r : ℝ) (draw : Nat → Nat × Nat) (partner : Nat → Nat) (inds : List GTree)
    (hi : ∀ t ∈ inds, IsInd cfg t) (mates : Option (List (Nat × Nat))) (hm : ∀ ps, mates = some ps → ∀ q ∈ ps, q.1 < inds.length ∧ q.2 < inds.length) :
    ∃ os, gpMateFn p r draw partner inds mates = .ok os ∧
      TwoPerPair inds (matingPop inds.length partner mates) (fun a b o1 o2 => IsInd cfg o1 ∧ IsInd cfg o2 ∧ TreesCrossed a b o1 o2 ∧
        (subNodes o1).length + (subNodes o2).length = (subNodes a).length + (subNodes b).length ∧
        (p < r → o1 = a ∧ o2 = b) ∧
        (r ≤ p - 1 / 2 → totalDepth o1 ≤ max (totalDepth a) (totalDepth b) ∧ totalDepth o2 ≤ max (totalDepth a) (totalDepth b))) os := by
  have hp : ∀ q ∈ matingPop inds.length partner mates, q.1 < inds.length ∧ q.2 < inds.length := by
    cases mates with
    | none => exact (c89_default_pairs inds.length partner).2.2.1
    | some ps => exact hm ps rfl
  obtain ⟨os, hos⟩ := pairLoop_total (fun k a b => xoverPair (xKindFn p r) a b (draw k).1 (draw k).2) inds
    (fun k a ha b hb => c57_total cfg a b (hi a ha) (hi b hb) hs _ _ _) _ hp 0
  obtain ⟨h1, h2⟩ := pairLoop_ok _ _ _ _ _ hos
  refine ⟨os, hos, h1, ?_⟩
  intro k i j hk
  obtain ⟨a, b, o1, o2, e1, e2, e3, e4, m, e5⟩ := h2 k i j hk
  have ia := hi a (List.mem_of_getElem? e1)
  have ib := hi b (List.mem_of_getElem? e2)
  have hc := c57_nodes_conserved _ _ _ _ _ _ _ e5
  obtain ⟨k1, k2, k3, -⟩ := c89_biogp_xover_kind p r
  refine ⟨a, b, o1, o2, e1, e2, e3, e4, ?_⟩
  cases hx : xKindFn p r with
  | none =>
    rw [hx] at e5
    simp only [xoverPair, Except.ok.injEq, Prod.mk.injEq] at e5
    obtain ⟨rfl, rfl⟩ := e5
    exact ⟨ia, ib, .inl ⟨rfl, rfl⟩, hc, fun _ => ⟨rfl, rfl⟩, fun _ => ⟨le_max_left _ _, le_max_right _ _⟩⟩
  | standard =>
    rw [hx] at e5
    have hk2 := k2.1 hx
    obtain ⟨p1, p2, s1, s2, c1, c2, c3, c4, c5, c6, c7, c8⟩ := c57_standard cfg a b o1 o2 ia ib _ _ e5
    exact ⟨c7, c8, .inr ⟨p1, p2, s1, s2, c1, c2, c3, c4, c5, c6⟩, hc, fun h => by linarith [hk2.2], fun h => by linarith [hk2.1]⟩
  | fair =>
    rw [hx] at e5
    have hk1 := k1.1 hx
    obtain ⟨⟨p1, p2, s1, s2, c1, c2, c3, c4, c5, c6⟩, c7, c8, c9, c10⟩ := c57_height_fair cfg a b o1 o2 ia ib hs _ _ e5
    have d1 := totalDepth_pos ia hs
    have d2 := totalDepth_pos ib hs
    have n1 : p1 ≠ [] := by rintro rfl; simp only [List.length_nil] at c1; omega
    have n2 : p2 ≠ [] := by rintro rfl; simp only [List.length_nil] at c2; omega
    exact ⟨c7, c8, .inr ⟨p1, p2, s1, s2, n1, n2, c3, c4, c5, c6⟩, hc, fun h => by linarith, fun _ => ⟨c9, c10⟩⟩

/-- C89. The kinds of `mutate`: each third of the probability selects one, above it there is none. -/
theorem c89_biogp_mutation_kind (p r : ℝ) (hp : 0 ≤ p) :
    (mKindFn p r = .standard ↔ r ≤ p / 3) ∧ (mKindFn p r = .point ↔ p / 3 < r ∧ r ≤ 2 * p / 3) ∧ (mKindFn p r = .mono ↔ 2 * p / 3 < r ∧ r ≤ p) ∧
    (mKindFn p r = .none ↔ p < r) ∧ mKindFn p r = mKindOf p r := by
  have e1 : 1 / 3 * p = p / 3 := by ring
  have e2 : p / 3 + p / 3 = 2 * p / 3 := by ring
  have e3 : (p - p / 3 - p / 3) + p / 3 + p / 3 = p := by ring
  unfold mKindFn mKindOf
  rw [e1, e3, e2]
  by_cases h1 : r ≤ p / 3
  · rw [if_pos h1]
    refine ⟨by simp [h1], ?_, ?_, ?_, rfl⟩
    · constructor
      · intro h; cases h
      · rintro ⟨h, -⟩; linarith
    · constructor
      · intro h; cases h
      · rintro ⟨h, -⟩; linarith
    · constructor
      · intro h; cases h
      · intro h; linarith
  · rw [if_neg h1]
    by_cases h2 : r ≤ 2 * p / 3
    · rw [if_pos h2]
      refine ⟨by simp [h1], by simp [h2, not_le.1 h1], ?_, ?_, rfl⟩
      · constructor
        · intro h; cases h
        · rintro ⟨h, -⟩; linarith
      · constructor
        · intro h; cases h
        · intro h; linarith
    · rw [if_neg h2]
      by_cases h3 : r ≤ p
      · rw [if_pos h3]
        refine ⟨by simp [h1], by simp [h2], by simp [h3, not_le.1 h2], ?_, rfl⟩
        constructor
        · intro h; cases h
        · intro h; linarith
      · rw [if_neg h3]
        exact ⟨by simp [h1], by simp [h2], by simp [h3], by simp [not_le.1 h3], rfl⟩

theorem mutateLoop_spec (k : MKind) (c : GPCfg GFn GTerm) (draw : Nat → MutRand) (ts : List GTree) : ∀ i,
    (mutateLoop k c draw i ts).2.length = ts.length ∧
    ∃ n, (n ≤ ts.length ∧ ∀ (j : Nat) (t : GTree), ts[j]? = some t →
      (j < n → ∃ o, (mutateLoop k c draw i ts).2[j]? = some o ∧ mutateTree k c (draw (i + j)) t = .ok o) ∧
      (n ≤ j → (mutateLoop k c draw i ts).2[j]? = some t)) ∧
      ((mutateLoop k c draw i ts).1 = .ok () ∧ n = ts.length ∨
        ∃ e t, (mutateLoop k c draw i ts).1 = .error e ∧ ts[n]? = some t ∧ mutateTree k c (draw (i + n)) t = .error e) := by
  induction ts with
  | nil => intro i; exact ⟨rfl, 0, ⟨le_refl _, by simp⟩, .inl ⟨rfl, rfl⟩⟩
  | cons t ts ih =>
    intro i
    cases hm : mutateTree k c (draw i) t with
    | error e =>
      have hr : mutateLoop k c draw i (t :: ts) = (.error e, t :: ts) := by simp only [mutateLoop, hm]
      rw [hr]
      refine ⟨rfl, 0, ⟨Nat.zero_le _, ?_⟩, .inr ⟨e, t, rfl, rfl, hm⟩⟩
      intro j t' hj
      exact ⟨fun h => by omega, fun _ => hj⟩
    | ok o =>
      have hr : mutateLoop k c draw i (t :: ts) = ((mutateLoop k c draw (i + 1) ts).1, o :: (mutateLoop k c draw (i + 1) ts).2) := by
        simp only [mutateLoop, hm]
      rw [hr]
      obtain ⟨h1, n, ⟨h2, h3⟩, h4⟩ := ih (i + 1)
      refine ⟨by simp [h1], n + 1, ⟨by simp [h2], ?_⟩, ?_⟩
      · intro j t' hj
        cases j with
        | zero =>
          simp only [List.getElem?_cons_zero, Option.some.injEq] at hj
          subst hj
          exact ⟨fun _ => ⟨o, rfl, hm⟩, fun h => by omega⟩
        | succ j =>
          simp only [List.getElem?_cons_succ] at hj
          obtain ⟨a1, a2⟩ := h3 j t' hj
          refine ⟨fun h => ?_, fun h => ?_⟩
          · obtain ⟨o', b1, b2⟩ := a1 (by omega)
            exact ⟨o', by simpa using b1, by rw [show i + (j + 1) = i + 1 + j by ring]; exact b2⟩
          · simpa using a2 (by omega)
      · rcases h4 with ⟨h4, h5⟩ | ⟨e, t', h4, h5, h6⟩
        · exact .inl ⟨h4, by simp [h5]⟩
        · exact .inr ⟨e, t', h4, by simpa using h5, by rw [show i + (n + 1) = i + 1 + n by ring]; exact h6⟩

/-- C89. BioGP's `mutate` changes the individuals in place, each by the kind of mutation the one draw selected; with a draw above the probability nothing changes; with
subtree mutation or swapping proper individuals stay proper; only swapping can raise (ValueError, for an individual of a single node below its root): then those before
it are already changed and the others are not. -/
theorem c89_biogp_mutate (c : GPCfg GFn GTerm) (hc : c.terms ≠ []) (hf : c.fns ≠ []) (hs : 0 < c.maxSubtrees) (p r : ℝ) (hp : 0 ≤ p) (draw : Nat → MutRand) (off : List GTree)
    (hi : ∀ t ∈ off, IsInd c t) :
    (gpMutateFn p r c draw off).2.length = off.length ∧
    (p < r → gpMutateFn p r c draw off = (.ok (), off)) ∧
    (r ≤ 2 * p / 3 → (gpMutateFn p r c draw off).1 = .ok ()) ∧
    (r ≤ p / 3 ∨ 2 * p / 3 < r → ∀ t ∈ (gpMutateFn p r c draw off).2, IsInd c t) ∧
    (∀ t ∈ (gpMutateFn p r c draw off).2, LooseInd c t) ∧
    ((∀ t ∈ off, 3 ≤ (subNodes t).length) → (gpMutateFn p r c draw off).1 = .ok ()) ∧
    (∀ e, (gpMutateFn p r c draw off).1 = .error e → e = .valueError ∧ ∃ (n : Nat) (t : GTree), off[n]? = some t ∧ (subNodes t).length < 3 ∧
      ∀ (j : Nat) (t' : GTree), n ≤ j → off[j]? = some t' → (gpMutateFn p r c draw off).2[j]? = some t') := by
  obtain ⟨k1, k2, k3, k4, -⟩ := c89_biogp_mutation_kind p r hp
  obtain ⟨h1, n, ⟨h2, h3⟩, h4⟩ := mutateLoop_spec (mKindFn p r) c draw off 0
  have herr : ∀ t ∈ off, ∀ m e, mutateTree (mKindFn p r) c m t = .error e → mKindFn p r = .mono ∧ e = .valueError ∧ (subNodes t).length < 3 := by
    intro t ht m e he
    cases hk : mKindFn p r with
    | none => rw [hk] at he; cases he
    | point => rw [hk] at he; cases he
    | standard =>
      exfalso
      rw [hk] at he
      simp only [mutateTree, standardMut] at he
      obtain ⟨q, hq⟩ := pick_total (tail_ne_nil (hi t ht) hs) m.node
      rw [hq] at he
      dsimp only at he
      obtain ⟨s, hs'⟩ := growAt_total c false m.grow hc hf (c.maxDepth - q.1.length) []
      rw [hs'] at he
      cases he
    | mono =>
      rw [hk] at he
      simp only [mutateTree] at he
      obtain ⟨m1, m2⟩ := c58_mono_total t m.node m.node2
      by_cases hl : (subNodes t).length < 3
      · rw [m1 hl] at he
        injection he with he
        exact ⟨rfl, he.symm, hl⟩
      · obtain ⟨o, ho⟩ := m2 (by omega)
        rw [ho] at he
        cases he
  have hret : (mKindFn p r ≠ .mono ∨ ∀ t ∈ off, 3 ≤ (subNodes t).length) → (gpMutateFn p r c draw off).1 = .ok () := by
    intro h
    rcases h4 with ⟨h4, -⟩ | ⟨e, t, h4, h5, h6⟩
    · exact h4
    · exfalso
      obtain ⟨a1, a2, a3⟩ := herr t (List.mem_of_getElem? h5) _ e h6
      rcases h with h | h
      · exact h a1
      · have := h t (List.mem_of_getElem? h5); omega
  have hmem : ∀ o ∈ (gpMutateFn p r c draw off).2, o ∈ off ∨ ∃ t ∈ off, ∃ m, mutateTree (mKindFn p r) c m t = .ok o := by
    intro o ho
    obtain ⟨j, hj⟩ := List.mem_iff_getElem?.1 ho
    have hl : j < off.length := by rw [← h1]; exact (List.getElem?_eq_some_iff.1 hj).1
    obtain ⟨a1, a2⟩ := h3 j off[j] (List.getElem?_eq_getElem hl)
    unfold gpMutateFn at hj
    by_cases hjn : j < n
    · obtain ⟨o', b1, b2⟩ := a1 hjn
      rw [hj] at b1
      injection b1 with b1
      subst b1
      exact .inr ⟨off[j], List.getElem_mem hl, _, b2⟩
    · have := a2 (by omega)
      rw [hj] at this
      injection this with this
      rw [this]
      exact .inl (List.getElem_mem hl)
  refine ⟨h1, ?_, ?_, ?_, ?_, fun h => hret (.inr h), ?_⟩
  · intro h
    have hk := k4.2 h
    have hok := hret (.inl (by rw [hk]; simp))
    refine Prod.ext hok ?_
    apply List.ext_getElem?
    intro j
    by_cases hl : j < off.length
    · obtain ⟨a1, a2⟩ := h3 j off[j] (List.getElem?_eq_getElem hl)
      by_cases hjn : j < n
      · obtain ⟨o, b1, b2⟩ := a1 hjn
        rw [hk] at b2
        simp only [mutateTree, Except.ok.injEq] at b2
        rw [List.getElem?_eq_getElem hl, b2]
        exact b1
      · rw [List.getElem?_eq_getElem hl]
        exact a2 (by omega)
    · have e1 : (gpMutateFn p r c draw off).2.length ≤ j := le_trans (le_of_eq h1) (not_lt.1 hl)
      rw [List.getElem?_eq_none e1]
      exact (List.getElem?_eq_none (not_lt.1 hl)).symm
  · intro h
    refine hret (.inl ?_)
    intro hk
    have := (k3.1 hk).1
    linarith
  · intro h o ho
    rcases hmem o ho with ho | ⟨t, ht, m, hm⟩
    · exact hi o ho
    · cases hk : mKindFn p r with
      | none => rw [hk] at hm; simp only [mutateTree, Except.ok.injEq] at hm; rw [← hm]; exact hi t ht
      | point => exfalso; have := k2.1 hk; rcases h with h | h <;> linarith [this.1, this.2]
      | standard => rw [hk] at hm; exact (c58_standard c t o (hi t ht) _ _ hm).2.1
      | mono => rw [hk] at hm; exact (c58_mono c t o (hi t ht) _ _ hm).1
  · intro o ho
    rcases hmem o ho with ho | ⟨t, ht, m, hm⟩
    · exact looseInd_of_ind (hi o ho)
    · have hl := looseInd_of_ind (hi t ht)
      cases hk : mKindFn p r with
      | none => rw [hk] at hm; simp only [mutateTree, Except.ok.injEq] at hm; rw [← hm]; exact hl
      | point => rw [hk] at hm; simp only [mutateTree, Except.ok.injEq] at hm; rw [← hm]; exact loose_pointMut hl _
      | standard => rw [hk] at hm; exact loose_standardMut hl _ _ hm
      | mono => rw [hk] at hm; exact loose_monoMut hl _ _ hm
  · intro e he
    rcases h4 with ⟨h4, -⟩ | ⟨e', t, h4', h5, h6⟩
    · unfold gpMutateFn at he; rw [he] at h4; cases h4
    · obtain ⟨a1, a2, a3⟩ := herr t (List.mem_of_getElem? h5) _ e' h6
      unfold gpMutateFn at he
      rw [he] at h4'
      injection h4' with h4'
      subst h4'
      exact ⟨a2, n, t, h5, a3, fun j t' hj ht' => (h3 j t' ht').2 hj⟩

/-- Non-vacuity: two networks mated with each other without mates being given, past the generation budget. -/
example : ∃ os : List (NNet 2 2 ℝ), nnMateFn .gaussian 12 10 1 (fun _ => ⟨fun j => j == 0, fun _ _ => true, fun _ _ => 3, fun _ _ => true, fun _ _ => 3, (0, 0), (0, 0)⟩)
    (fun i => i + 1) [fun _ _ => 1, fun _ _ => 2] none = .ok os ∧ os.length = 4 := by
  obtain ⟨os, h1, h2, -⟩ := c89_evonn_gaussian (r := 2) (c := 2) 12 10 1 (by norm_num)
    (fun _ => ⟨fun j => j == 0, fun _ _ => true, fun _ _ => 3, fun _ _ => true, fun _ _ => 3, (0, 0), (0, 0)⟩) (fun i => i + 1)
    [fun _ _ => 1, fun _ _ => 2] none (by simp)
  exact ⟨os, h1, by rw [h2.1, (c89_default_pairs _ _).1]; rfl⟩

end Verif.Props
