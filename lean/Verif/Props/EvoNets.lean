import Mathlib.Tactic.Ring
import Mathlib.Tactic.Linarith
import Mathlib.Algebra.Order.BigOperators.Group.List
import Verif.Spec.EvoNets
import Verif.Props.BioGP
import Verif.Proofs.MOEAD
import Verif.Props.MOEAD
import Verif.Proofs.NSGA3

/-!
# Properties C65, C66 (EvoNN) and C67, C68, C69 (EvoDN2)
-/

namespace Verif.Props
open Verif Verif.Spec

section nn
variable {r c : Nat} {K : Type}

/-! ## EvoNN: crossover -/

theorem swapCols_fold (draw : Fin c → Bool) (l : List (Fin c)) (hl : l.Nodup) (a b : NNet r c K) (i : Fin r) (j : Fin c) :
    (l.foldl (fun (s : NNet r c K × NNet r c K) j => if draw j then (setCol s.1 j (fun i => s.2 i j), setCol s.2 j (fun i => s.1 i j)) else s) (a, b)).1 i j =
      (if j ∈ l ∧ draw j = true then b i j else a i j) ∧
    (l.foldl (fun (s : NNet r c K × NNet r c K) j => if draw j then (setCol s.1 j (fun i => s.2 i j), setCol s.2 j (fun i => s.1 i j)) else s) (a, b)).2 i j =
      (if j ∈ l ∧ draw j = true then a i j else b i j) := by
  induction l generalizing a b with
  | nil => simp
  | cons k l ih =>
    have hk : k ∉ l := (List.nodup_cons.1 hl).1
    have hl' := (List.nodup_cons.1 hl).2
    rw [List.foldl_cons]
    by_cases hd : draw k = true
    · rw [if_pos hd]
      obtain ⟨h1, h2⟩ := ih hl' (setCol a k (fun i => b i k)) (setCol b k (fun i => a i k))
      dsimp only
      rw [h1, h2]
      by_cases hjk : j = k
      · subst hjk
        simp [hk, setCol, hd]
      · simp [hjk, setCol]
    · rw [if_neg hd]
      obtain ⟨h1, h2⟩ := ih hl' a b
      rw [h1, h2]
      by_cases hjk : j = k
      · subst hjk
        simp [hd]
      · simp [hjk]

/-- C65. Crossover exchanges whole nodes: each column of one offspring is the column of one parent, the other offspring has the column of
the other parent. -/
theorem c65_crossover_swaps_nodes (draw : Fin c → Bool) (a b : NNet r c K) (i : Fin r) (j : Fin c) :
    (swapCols draw a b).1 i j = (if draw j then b i j else a i j) ∧ (swapCols draw a b).2 i j = (if draw j then a i j else b i j) := by
  have := swapCols_fold draw (List.finRange c) (List.nodup_finRange c) a b i j
  simpa [swapCols] using this

theorem swapCols_same (draw : Fin c → Bool) (a : NNet r c K) : swapCols draw a a = (a, a) := by
  have h1 : (swapCols draw a a).1 = a := by
    funext i j
    rw [(c65_crossover_swaps_nodes draw a a i j).1]; simp
  have h2 : (swapCols draw a a).2 = a := by
    funext i j
    rw [(c65_crossover_swaps_nodes draw a a i j).2]; simp
  exact Prod.ext h1 h2

variable [CommRing K] [DecidableEq K]

/-- What one pair gives. -/
theorem nnPair_ok (mt : MutType) (neg : Bool) (factor : K) (pop : List (NNet r c K)) (d : NNDraw r c K) (a b : NNet r c K)
    (o : NNet r c K × NNet r c K) (h : nnPair mt neg factor pop d a b = .ok o) :
    (mt = .gaussian ∧ neg = false ∧ o = (gaussMut d.mut1 d.val1 (swapCols d.swap a b).1, gaussMut d.mut2 d.val2 (swapCols d.swap a b).2)) ∨
    (mt = .selfAdapting ∧ ∃ x1 x2 y1 y2, x1 ∈ pop ∧ x2 ∈ pop ∧ y1 ∈ pop ∧ y2 ∈ pop ∧
      o = (selfAdaptMut d.mut1 factor x1 x2 (swapCols d.swap a b).1, selfAdaptMut d.mut2 factor y1 y2 (swapCols d.swap a b).2)) ∨
    (mt = .other ∧ o = swapCols d.swap a b) := by
  have hdraw : ∀ (p : Nat × Nat) (x : NNet r c K × NNet r c K), drawTwo pop p = .ok x → x.1 ∈ pop ∧ x.2 ∈ pop := by
    intro p x hx
    unfold drawTwo at hx
    dsimp only at hx
    split at hx
    · rename_i u v hu hv
      simp only [Except.ok.injEq] at hx
      subst hx
      exact ⟨(List.mem_filter.1 (pick_ok hu)).1, (List.mem_filter.1 (pick_ok hv)).1⟩
    · cases hx
  cases mt with
  | gaussian =>
    left
    simp only [nnPair] at h
    split at h
    · cases h
    · rename_i hn
      simp only [Except.ok.injEq] at h
      exact ⟨rfl, by simpa using hn, h.symm⟩
  | selfAdapting =>
    right; left
    simp only [nnPair] at h
    split at h
    · rename_i x y hx hy
      simp only [Except.ok.injEq] at h
      exact ⟨rfl, x.1, x.2, y.1, y.2, (hdraw _ _ hx).1, (hdraw _ _ hx).2, (hdraw _ _ hy).1, (hdraw _ _ hy).2, h.symm⟩
    · cases h
  | other =>
    right; right
    simp only [nnPair, Except.ok.injEq] at h
    exact ⟨rfl, h.symm⟩

/-- Every offspring comes from one pair. -/
theorem nnPairs_mem (mt : MutType) (neg : Bool) (factor : K) (pop : List (NNet r c K)) (draw : Nat → NNDraw r c K) (ps : List (Nat × Nat)) :
    ∀ (k : Nat) (os : List (NNet r c K)), nnPairs mt neg factor pop draw k ps = .ok os →
      os.length = 2 * ps.length ∧
      ∀ o ∈ os, ∃ (j : Nat) (p : Nat × Nat) (a b : NNet r c K) (q : NNet r c K × NNet r c K), p ∈ ps ∧ pop[p.1]? = some a ∧ pop[p.2]? = some b ∧
        nnPair mt neg factor pop (draw j) a b = .ok q ∧ (o = q.1 ∨ o = q.2) := by
  induction ps with
  | nil =>
    intro k os h
    simp only [nnPairs, Except.ok.injEq] at h
    subst h
    simp
  | cons p ps ih =>
    intro k os h
    simp only [nnPairs] at h
    split at h
    · rename_i a b ha hb
      split at h
      · cases h
      · rename_i q hq
        split at h
        · cases h
        · rename_i os' hos
          simp only [Except.ok.injEq] at h
          subst h
          obtain ⟨h1, h2⟩ := ih _ _ hos
          refine ⟨by simp [h1]; ring, ?_⟩
          intro o ho
          rcases List.mem_cons.1 ho with rfl | ho
          · exact ⟨k, p, a, b, q, by simp, ha, hb, hq, .inl rfl⟩
          · rcases List.mem_cons.1 ho with rfl | ho
            · exact ⟨k, p, a, b, q, by simp, ha, hb, hq, .inr rfl⟩
            · obtain ⟨j, p', a', b', q', hp, rest⟩ := h2 o ho
              exact ⟨j, p', a', b', q', by simp [hp], rest⟩
    · cases h

theorem nnDo_ok (mt : MutType) (cur total : Nat) (factor : K) (draw : Nat → NNDraw r c K) (pop : List (NNet r c K)) (mates : Mates)
    (os : List (NNet r c K)) (h : nnDo mt cur total factor draw pop mates = .ok os) :
    nnPairs mt (decide (total < cur)) factor pop draw 0 mates.toPairs = .ok os := by
  unfold nnDo at h
  split at h
  · cases h
  · exact h

/-- One generation of offspring of the EvoNN operator, with any draws, generation counters and mates. -/
def NNBreed (allowed : MutType → Prop) (P O : List (NNet r c K)) : Prop :=
  ∃ (mt : MutType) (cur total : Nat) (factor : K) (draw : Nat → NNDraw r c K) (mates : Mates),
    allowed mt ∧ nnDo mt cur total factor draw P mates = .ok O

/-- C65. A connection that no network of the population has never comes back: over any history of recombination and selection, with any
of the mutation types. -/
theorem c65_dead_connection_stays_dead (P0 Q : List (NNet r c K)) (i : Fin r) (j : Fin c) (h0 : ∀ n ∈ P0, n i j = 0)
    (hQ : Bred (NNBreed (fun _ => True)) P0 Q) : ∀ n ∈ Q, n i j = 0 := by
  induction hQ with
  | start => exact h0
  | @next P O Q hP hb hk ih =>
    intro n hn
    rcases hk n hn with h | h
    · exact ih n h
    · obtain ⟨mt, cur, total, factor, draw, mates, -, hdo⟩ := hb
      obtain ⟨-, hm⟩ := nnPairs_mem _ _ _ _ _ _ _ _ (nnDo_ok _ _ _ _ _ _ _ _ hdo)
      obtain ⟨q, p, a, b, o, -, ha, hb, ho, hno⟩ := hm n h
      have ha0 := ih a (List.mem_of_getElem? ha)
      have hb0 := ih b (List.mem_of_getElem? hb)
      have hs := c65_crossover_swaps_nodes (draw q).swap a b i j
      have hs1 : (swapCols (draw q).swap a b).1 i j = 0 := by rw [hs.1]; split <;> assumption
      have hs2 : (swapCols (draw q).swap a b).2 i j = 0 := by rw [hs.2]; split <;> assumption
      rcases nnPair_ok _ _ _ _ _ _ _ _ ho with ⟨-, -, rfl⟩ | ⟨-, x1, x2, y1, y2, hx1, hx2, hy1, hy2, rfl⟩ | ⟨-, rfl⟩
      · rcases hno with rfl | rfl
        · simp [gaussMut, hs1]
        · simp [gaussMut, hs2]
      · rcases hno with rfl | rfl
        · simp [selfAdaptMut, hs1, ih x1 hx1, ih x2 hx2]
        · simp [selfAdaptMut, hs2, ih y1 hy1, ih y2 hy2]
      · rcases hno with rfl | rfl
        · exact hs1
        · exact hs2

/-- C65. With Gaussian (or no) mutation the connections of a node are inherited: each hidden node of each network of a later population
is connected only where that node was in one of the initial networks. -/
theorem c65_node_lineage (P0 Q : List (NNet r c K)) (hQ : Bred (NNBreed (fun mt => mt ≠ .selfAdapting)) P0 Q) :
    ∀ n ∈ Q, ∀ j : Fin c, ∃ a ∈ P0, ∀ i : Fin r, a i j = 0 → n i j = 0 := by
  induction hQ with
  | start => exact fun n hn j => ⟨n, hn, fun _ h => h⟩
  | @next P O Q hP hb hk ih =>
    intro n hn j
    rcases hk n hn with h | h
    · exact ih n h j
    · obtain ⟨mt, cur, total, factor, draw, mates, hmt, hdo⟩ := hb
      obtain ⟨-, hm⟩ := nnPairs_mem _ _ _ _ _ _ _ _ (nnDo_ok _ _ _ _ _ _ _ _ hdo)
      obtain ⟨q, p, a, b, o, -, ha, hb, ho, hno⟩ := hm n h
      obtain ⟨a0, ha0, hla⟩ := ih a (List.mem_of_getElem? ha) j
      obtain ⟨b0, hb0, hlb⟩ := ih b (List.mem_of_getElem? hb) j
      have key : ∃ w : NNet r c K, (w = (swapCols (draw q).swap a b).1 ∨ w = (swapCols (draw q).swap a b).2) ∧
          ∀ i, w i j = 0 → n i j = 0 := by
        rcases nnPair_ok _ _ _ _ _ _ _ _ ho with ⟨-, -, rfl⟩ | ⟨e, -⟩ | ⟨-, rfl⟩
        · rcases hno with rfl | rfl
          · exact ⟨_, .inl rfl, fun i hi => by simp [gaussMut, hi]⟩
          · exact ⟨_, .inr rfl, fun i hi => by simp [gaussMut, hi]⟩
        · exact absurd e hmt
        · rcases hno with rfl | rfl
          · exact ⟨_, .inl rfl, fun i hi => hi⟩
          · exact ⟨_, .inr rfl, fun i hi => hi⟩
      obtain ⟨w, hw, hwn⟩ := key
      cases hd : (draw q).swap j with
      | true =>
        rcases hw with rfl | rfl
        · exact ⟨b0, hb0, fun i hi => hwn i (by rw [(c65_crossover_swaps_nodes _ a b i j).1, hd]; exact hlb i hi)⟩
        · exact ⟨a0, ha0, fun i hi => hwn i (by rw [(c65_crossover_swaps_nodes _ a b i j).2, hd]; exact hla i hi)⟩
      | false =>
        rcases hw with rfl | rfl
        · exact ⟨a0, ha0, fun i hi => hwn i (by rw [(c65_crossover_swaps_nodes _ a b i j).1, hd]; simpa using hla i hi)⟩
        · exact ⟨b0, hb0, fun i hi => hwn i (by rw [(c65_crossover_swaps_nodes _ a b i j).2, hd]; simpa using hlb i hi)⟩

/-- Non-vacuity, and self-adapting mutation is different: two one-input networks, one without the connection, give a network of the first
kind that has it. -/
theorem c65_self_adapting_revives :
    ∃ (a b o : NNet 1 2 Int) (draw : Nat → NNDraw 1 2 Int) (os : List (NNet 1 2 Int)),
      nnDo .selfAdapting 0 10 1 draw [a, b] (.pairs [(0, 0)]) = .ok os ∧ o ∈ os ∧ a 0 1 = 0 ∧ o 0 1 ≠ 0 := by
  refine ⟨fun _ j => if j = 0 then 1 else 0, fun _ _ => 3, fun _ j => if j = 0 then 3 else 3,
    fun _ => ⟨fun _ => false, fun _ _ => true, fun _ _ => 0, fun _ _ => true, fun _ _ => 0, (0, 1), (0, 1)⟩, _, rfl, ?_, rfl, by decide⟩
  refine List.mem_cons.2 (.inl ?_)
  funext i j
  revert i j
  decide

/-! ### Complexity -/

theorem countCol (n : NNet r c K) : nnComplexity n = ∑ i : Fin r, ∑ j : Fin c, (if n i j ≠ 0 then 1 else 0) := by
  unfold nnComplexity
  rw [← List.ofFn_eq_map, List.sum_ofFn]
  apply Finset.sum_congr rfl
  intro i _
  rw [← Finset.card_filter]
  rw [← List.toFinset_card_of_nodup ((List.nodup_finRange c).filter _)]
  congr 1
  ext j
  simp

/-- C65. Recombination with Gaussian mutation never makes a pair of networks more complex: the two offspring have together at most as
many connections as the two parents. -/
theorem c65_complexity_never_grows (mt : MutType) (hmt : mt ≠ .selfAdapting) (neg : Bool) (factor : K) (pop : List (NNet r c K))
    (d : NNDraw r c K) (a b : NNet r c K) (o : NNet r c K × NNet r c K) (h : nnPair mt neg factor pop d a b = .ok o) :
    nnComplexity o.1 + nnComplexity o.2 ≤ nnComplexity a + nnComplexity b := by
  rw [countCol, countCol, countCol, countCol, ← Finset.sum_add_distrib, ← Finset.sum_add_distrib]
  apply Finset.sum_le_sum
  intro i _
  rw [← Finset.sum_add_distrib, ← Finset.sum_add_distrib]
  apply Finset.sum_le_sum
  intro j _
  have hs := c65_crossover_swaps_nodes d.swap a b i j
  have h0 : (o.1 i j ≠ 0 → (swapCols d.swap a b).1 i j ≠ 0) ∧ (o.2 i j ≠ 0 → (swapCols d.swap a b).2 i j ≠ 0) := by
    rcases nnPair_ok _ _ _ _ _ _ _ _ h with ⟨-, -, rfl⟩ | ⟨e, -⟩ | ⟨-, rfl⟩
    · constructor
      · intro hn e; apply hn; simp [gaussMut, e]
      · intro hn e; apply hn; simp [gaussMut, e]
    · exact absurd e hmt
    · exact ⟨id, id⟩
  rw [hs.1, hs.2] at h0
  obtain ⟨h1, h2⟩ := h0
  cases hd : d.swap j with
  | true =>
    rw [hd] at h1 h2
    simp only [if_true] at h1 h2
    split <;> split <;> split <;> split <;> simp_all
  | false =>
    rw [hd] at h1 h2
    simp only [Bool.false_eq_true, if_false] at h1 h2
    split <;> split <;> split <;> split <;> simp_all

/-! ### Outcomes -/

/-- C65. The operator returns two offspring per pair and raises only for a bad index, a zero generation budget, Gaussian mutation past
the generation budget, or self-adapting mutation of a population without connections. -/
theorem c65_outcome (mt : MutType) (cur total : Nat) (factor : K) (draw : Nat → NNDraw r c K) (pop : List (NNet r c K)) (mates : Mates)
    (ht : 0 < total) (hm : ∀ p ∈ mates.toPairs, p.1 < pop.length ∧ p.2 < pop.length) (hg : mt = .gaussian → cur ≤ total)
    (hs : mt = .selfAdapting → ∃ n ∈ pop, ∃ i j, n i j ≠ 0) :
    ∃ os, nnDo mt cur total factor draw pop mates = .ok os ∧ os.length = 2 * mates.toPairs.length := by
  have hdt : mt = .selfAdapting → ∀ p, ∃ x, drawTwo pop p = .ok x := by
    intro e p
    obtain ⟨n, hn, i, j, hij⟩ := hs e
    have hne : pop.filter (fun n => decide (∃ i j, n i j ≠ 0)) ≠ [] := by
      apply List.ne_nil_of_mem (a := n)
      rw [List.mem_filter]
      exact ⟨hn, by simpa using ⟨i, j, hij⟩⟩
    obtain ⟨x, hx⟩ := pick_total hne p.1
    obtain ⟨y, hy⟩ := pick_total hne p.2
    exact ⟨(x, y), by unfold drawTwo; simp only [hx, hy]⟩
  have key : ∀ (ps : List (Nat × Nat)) (k : Nat), (∀ p ∈ ps, p.1 < pop.length ∧ p.2 < pop.length) →
      ∃ os, nnPairs mt (decide (total < cur)) factor pop draw k ps = .ok os := by
    intro ps
    induction ps with
    | nil => intro k _; exact ⟨[], rfl⟩
    | cons p ps ih =>
      intro k hps
      obtain ⟨h1, h2⟩ := hps p (by simp)
      obtain ⟨os, hos⟩ := ih (k + 1) (fun q hq => hps q (by simp [hq]))
      have hpair : ∃ o, nnPair mt (decide (total < cur)) factor pop (draw k) pop[p.1] pop[p.2] = .ok o := by
        cases mt with
        | gaussian =>
          have : ¬ total < cur := by have := hg rfl; omega
          exact ⟨_, by simp only [nnPair, this, decide_false, Bool.false_eq_true, if_false]; rfl⟩
        | selfAdapting =>
          obtain ⟨x, hx⟩ := hdt rfl (draw k).pick1
          obtain ⟨y, hy⟩ := hdt rfl (draw k).pick2
          exact ⟨_, by simp only [nnPair, hx, hy]; rfl⟩
        | other => exact ⟨_, rfl⟩
      obtain ⟨o, ho⟩ := hpair
      refine ⟨o.1 :: o.2 :: os, ?_⟩
      simp only [nnPairs, List.getElem?_eq_getElem h1, List.getElem?_eq_getElem h2, ho, hos]
  obtain ⟨os, hos⟩ := key mates.toPairs 0 hm
  refine ⟨os, ?_, (nnPairs_mem _ _ _ _ _ _ _ _ hos).1⟩
  unfold nnDo
  rw [if_neg (by omega)]
  exact hos

/-- C65. Gaussian mutation once the generation count has passed the budget: every non-empty mating raises ValueError (the standard
deviation is negative). -/
theorem c65_past_budget_raises (cur total : Nat) (factor : K) (draw : Nat → NNDraw r c K) (pop : List (NNet r c K)) (p : Nat × Nat)
    (ps : List (Nat × Nat)) (ht : 0 < total) (hc : total < cur) (hp : p.1 < pop.length ∧ p.2 < pop.length) :
    nnDo .gaussian cur total factor draw pop (.pairs (p :: ps)) = .error .valueError := by
  unfold nnDo
  rw [if_neg (by omega)]
  simp only [Mates.toPairs, nnPairs, List.getElem?_eq_getElem hp.1, List.getElem?_eq_getElem hp.2, nnPair, hc, decide_true, if_true]

/-- C65. Ids given as a flat list (or not at all) are paired with themselves: with Gaussian mutation every offspring is a mutated copy of
a single parent, there is no crossover. -/
theorem c65_flat_ids_do_not_cross (cur total : Nat) (factor : K) (draw : Nat → NNDraw r c K) (pop : List (NNet r c K)) (ids : List Nat)
    (mates : Mates) (hm : mates = .flat ids ∨ mates = .all ids) (os : List (NNet r c K))
    (h : nnDo .gaussian cur total factor draw pop mates = .ok os) :
    ∀ o ∈ os, ∃ k ∈ ids, ∃ a, pop[k]? = some a ∧ ∃ hit val, o = gaussMut hit val a := by
  have hp : mates.toPairs = selfPairs ids := by rcases hm with rfl | rfl <;> rfl
  obtain ⟨-, hmem⟩ := nnPairs_mem _ _ _ _ _ _ _ _ (nnDo_ok _ _ _ _ _ _ _ _ h)
  intro o ho
  obtain ⟨j, p, a, b, q, hpp, ha, hb, hq, hoq⟩ := hmem o ho
  rw [hp] at hpp
  unfold selfPairs at hpp
  obtain ⟨e, he, rfl⟩ := List.mem_map.1 hpp
  have hid : e.1 ∈ ids := by
    have := (List.mem_filter.1 he).1
    exact List.fst_mem_of_mem_zipIdx this
  dsimp only at ha hb
  rw [ha] at hb
  cases hb
  refine ⟨e.1, hid, a, ha, ?_⟩
  rcases nnPair_ok _ _ _ _ _ _ _ _ hq with ⟨-, -, rfl⟩ | ⟨e, -⟩ | ⟨e, -⟩
  · rw [swapCols_same] at hoq
    rcases hoq with rfl | rfl
    · exact ⟨_, _, rfl⟩
    · exact ⟨_, _, rfl⟩
  · cases e
  · cases e

/-! ### The initial networks -/

/-- C65. Every weight of an initial network is 0 or drawn from the given range, every bias 0 or 1; made by `create_new_individuals` the
bias is always 1. -/
theorem c65_initial_weights [LinearOrder K] (lo hi : K) (u : Nat → Fin r → Fin c → K) (hu : ∀ n i j, lo ≤ u n i j ∧ u n i j ≤ hi) (popSize : Nat)
    (zero : Nat → Fin (r + 1) → Fin c → Bool) (zero' : Nat → Fin r → Fin c → Bool) :
    ((nnCreate u zero popSize).length = popSize ∧ ∀ n ∈ nnCreate u zero popSize,
      (∀ j, n 0 j = 0 ∨ n 0 j = 1) ∧ ∀ (i : Fin r) j, n i.succ j = 0 ∨ (lo ≤ n i.succ j ∧ n i.succ j ≤ hi)) ∧
    ((nnDesign u zero' popSize).length = popSize ∧ ∀ n ∈ nnDesign u zero' popSize,
      (∀ j, n 0 j = 1) ∧ ∀ (i : Fin r) j, n i.succ j = 0 ∨ (lo ≤ n i.succ j ∧ n i.succ j ≤ hi)) := by
  refine ⟨⟨by simp [nnCreate], ?_⟩, ⟨by simp [nnDesign], ?_⟩⟩
  · intro n hn
    obtain ⟨k, -, rfl⟩ := List.mem_map.1 hn
    refine ⟨fun j => ?_, fun i j => ?_⟩
    · dsimp only
      split
      · exact .inl rfl
      · exact .inr rfl
    · dsimp only
      split
      · exact .inl rfl
      · exact .inr (hu k i j)
  · intro n hn
    obtain ⟨k, -, rfl⟩ := List.mem_map.1 hn
    refine ⟨fun j => rfl, fun i j => ?_⟩
    show (if zero' k i j then (0 : K) else u k i j) = 0 ∨ _
    by_cases hz : zero' k i j = true
    · exact .inl (by simp [hz])
    · right
      show lo ≤ (if zero' k i j then (0 : K) else u k i j) ∧ (if zero' k i j then (0 : K) else u k i j) ≤ hi
      rw [if_neg hz]
      exact hu k i j

/-- A two-node network design, two networks, one generation: the hypotheses are met. -/
example : (nnDo (K := Int) (r := 2) (c := 2) .gaussian 3 10 1
    (fun _ => ⟨fun j => j = 0, fun _ _ => true, fun _ _ => 1, fun _ _ => false, fun _ _ => 0, (0, 0), (0, 0)⟩)
    (nnCreate (r := 1) (fun n _ j => n + 2 * j) (fun _ _ _ => false) 2) (.pairs [(0, 1)])).toOption.map (fun os => os.map (fun o => [o 0 0, o 0 1, o 1 0, o 1 1])) =
    some [[2, 2, 2, 4], [1, 1, 0, 3]] := by decide +kernel


end nn

/-! ## C66: model selection of EvoNN -/

section select
variable {K : Type} [LinearOrder K]

/-- C66. With the criterion "min_error" `fit` always raises: the model stays untrained and `predict` raises too. -/
theorem c66_min_error_never_trains (samples : Nat) (pop : List (NNScore K)) (s : NNState K) (hs : s.trained = false) :
    (∃ e, (nnFitEnd .minError samples pop s).1 = .error e) ∧ nnPredict (nnFitEnd .minError samples pop s).2 = .error .modelError := by
  unfold nnFitEnd nnSelect
  dsimp only
  cases argminL (pop.map (fun p => p.error)) with
  | error e => exact ⟨⟨e, rfl⟩, by simp [nnPredict, hs]⟩
  | ok i => exact ⟨⟨_, rfl⟩, by simp [nnPredict, hs]⟩

theorem aiccLoop_ok (samples : Nat) (pop : List (NNScore K)) (h : ∀ p ∈ pop, samples ≠ p.k + 1) :
    aiccLoop samples pop = .ok (pop.map (fun p => p.aicc)) := by
  induction pop with
  | nil => rfl
  | cons p ps ih =>
    simp only [aiccLoop, if_neg (h p (by simp)), ih (fun q hq => h q (by simp [hq])), List.map_cons]

/-- C66. With the default criterion `fit` selects the first network of the final population, whatever the AICc values are; it returns
normally exactly when the population is not empty and no network has exactly `samples - 1` non-zero weights. -/
theorem c66_akaike_selects_the_first (samples : Nat) (pop : List (NNScore K)) (s : NNState K) :
    ((nnFitEnd .akaike samples pop s).1 = .ok () ↔ pop ≠ [] ∧ ∀ p ∈ pop, samples ≠ p.k + 1) ∧
    ((nnFitEnd .akaike samples pop s).1 = .ok () → nnPredict (nnFitEnd .akaike samples pop s).2 = .ok (some 0) ∧
      (nnFitEnd .akaike samples pop s).2.aicc = pop.head?.map (fun p => p.aicc)) := by
  by_cases h : ∀ p ∈ pop, samples ≠ p.k + 1
  · have ha := aiccLoop_ok samples pop h
    unfold nnFitEnd nnSelect
    dsimp only
    rw [ha]
    cases pop with
    | nil => simp
    | cons p ps => simpa [nnPredict] using h
  · have ha : ∃ e, aiccLoop samples pop = .error e := by
      push_neg at h
      obtain ⟨p, hp, hk⟩ := h
      clear s
      induction pop with
      | nil => simp at hp
      | cons q qs ih =>
        by_cases hq : samples = q.k + 1
        · exact ⟨.zeroDivisionError, by simp [aiccLoop, hq]⟩
        · rcases List.mem_cons.1 hp with rfl | hp
          · exact absurd hk hq
          · obtain ⟨e, he⟩ := ih hp
            exact ⟨e, by simp [aiccLoop, hq, he]⟩
    obtain ⟨e, he⟩ := ha
    unfold nnFitEnd nnSelect
    dsimp only
    rw [he]
    simp [h]

/-- C66 is therefore false as documented: a network with a higher AICc is selected although a better one is in the population. -/
theorem c66_better_model_ignored : ∃ (samples : Nat) (pop : List (NNScore Int)) (i : Nat) (p q : NNScore Int),
    nnPredict (nnFitEnd .akaike samples pop ⟨none, none, false⟩).2 = .ok (some i) ∧ pop[i]? = some p ∧ q ∈ pop ∧ q.aicc < p.aicc :=
  ⟨100, [⟨5, 40, 2⟩, ⟨6, 10, 1⟩], 0, ⟨5, 40, 2⟩, ⟨6, 10, 1⟩, by decide, rfl, by simp, by decide⟩

end select


/-! ## C67: architectures of EvoDN2 -/

section dn
variable {K : Type}

/-- Dimensions and number of weights. -/
def sig (l : Layer K) : Nat × Nat × Nat := (l.rows, l.cols, l.w.length)

theorem takeFrom_length (p : Nat → Bool) (a b : List K) : (takeFrom p a b).length = a.length := by simp [takeFrom]

theorem takeFrom_get (p : Nat → Bool) (a b : List K) (k : Nat) (x : K) (h : a[k]? = some x) :
    (takeFrom p a b)[k]? = some (if p k then (b[k]?).getD x else x) := by
  simp [takeFrom, h]

/-- C67. Crossover of two layers exchanges weights at equal flat positions: at each position both layers have, the offspring have the two
parents' weights, either way round; all other weights stay. -/
theorem c67_crossover_exchanges (ex : Nat → Bool) (a b : Layer K) (k : Nat) :
    (∀ x y : K, a.w[k]? = some x → b.w[k]? = some y →
      ((crossLayers ex a b).1.w[k]? = some x ∧ (crossLayers ex a b).2.w[k]? = some y ∧ ex k = false) ∨
      ((crossLayers ex a b).1.w[k]? = some y ∧ (crossLayers ex a b).2.w[k]? = some x ∧ ex k = true)) ∧
    (b.w[k]? = none → (crossLayers ex a b).1.w[k]? = a.w[k]?) ∧ (a.w[k]? = none → (crossLayers ex a b).2.w[k]? = b.w[k]?) := by
  refine ⟨?_, ?_, ?_⟩
  · intro x y hx hy
    have h1 : k < a.w.length := (List.getElem?_eq_some_iff.1 hx).1
    have h2 : k < b.w.length := (List.getElem?_eq_some_iff.1 hy).1
    simp only [crossLayers]
    rw [takeFrom_get _ _ _ _ _ hx, takeFrom_get _ _ _ _ _ hy]
    cases hek : ex k with
    | true =>
      right
      have e1 := (List.getElem?_eq_some_iff.1 hx).2
      have e2 := (List.getElem?_eq_some_iff.1 hy).2
      simp [h1, h2, e1, e2]
    | false => left; simp
  · intro hb
    cases ha : a.w[k]? with
    | none => 
      simp only [crossLayers]
      rw [List.getElem?_eq_none_iff] at ha ⊢
      rw [takeFrom_length]; exact ha
    | some x =>
      simp only [crossLayers]
      rw [takeFrom_get _ _ _ _ _ ha]
      have : b.w.length ≤ k := List.getElem?_eq_none_iff.1 hb
      have hn : ¬ k < b.w.length := by omega
      simp [hn]
  · intro ha
    cases hb : b.w[k]? with
    | none => 
      simp only [crossLayers]
      rw [List.getElem?_eq_none_iff] at hb ⊢
      rw [takeFrom_length]; exact hb
    | some x =>
      simp only [crossLayers]
      rw [takeFrom_get _ _ _ _ _ hb]
      have : a.w.length ≤ k := List.getElem?_eq_none_iff.1 ha
      have hn : ¬ k < a.w.length := by omega
      simp [hn]

theorem cross_sig (ex : Nat → Bool) (a b : Layer K) : sig (crossLayers ex a b).1 = sig a ∧ sig (crossLayers ex a b).2 = sig b := by
  simp [crossLayers, sig, takeFrom_length]

section
variable [Add K] [Mul K]

theorem mutLayer_sig (hit : Nat → Bool) (val : Nat → K) (l : Layer K) : sig (mutLayer hit val l) = sig l := by
  simp [mutLayer, sig]

theorem dnSubnet_sig (d : Nat → DNDraw K) (as bs : List (Layer K)) :
    ∀ k, (dnSubnet d k as bs).1.map sig = as.map sig ∧ (dnSubnet d k as bs).2.map sig = bs.map sig := by
  induction as generalizing bs with
  | nil =>
    induction bs with
    | nil => intro k; simp [dnSubnet]
    | cons b bs ih => intro k; simp [dnSubnet, mutLayer_sig, (ih (k + 1)).2]
  | cons a as ih =>
    cases bs with
    | nil => intro k; simp [dnSubnet, mutLayer_sig, (ih [] (k + 1)).1]
    | cons b bs =>
      intro k
      simp [dnSubnet, mutLayer_sig, cross_sig, (ih bs (k + 1)).1, (ih bs (k + 1)).2]

/-- Dimensions of a network. -/
def sigs (n : DNet K) : List (List (Nat × Nat × Nat)) := n.map (fun s => s.map sig)

theorem dnPair_sig (d : Nat → Nat → DNDraw K) (a b : DNet K) : ∀ (k : Nat) (o : DNet K × DNet K), dnPair d k a b = .ok o →
    sigs o.1 = sigs a ∧ sigs o.2 = sigs b := by
  induction a generalizing b with
  | nil => intro k o h; simp only [dnPair, Except.ok.injEq] at h; subst h; simp
  | cons x as ih =>
    cases b with
    | nil => intro k o h; simp [dnPair] at h
    | cons y bs =>
      intro k o h
      simp only [dnPair] at h
      split at h
      · cases h
      · rename_i t ht
        simp only [Except.ok.injEq] at h
        subst h
        obtain ⟨h1, h2⟩ := ih bs _ _ ht
        obtain ⟨h3, h4⟩ := dnSubnet_sig (d k) x y 0
        simp only [sigs, List.map_cons] at h1 h2 ⊢
        exact ⟨by rw [h3, h1], by rw [h4, h2]⟩

theorem dnPair_total (d : Nat → Nat → DNDraw K) (a b : DNet K) (h : a.length ≤ b.length) : ∀ k, ∃ o, dnPair d k a b = .ok o := by
  induction a generalizing b with
  | nil => intro k; exact ⟨_, rfl⟩
  | cons x as ih =>
    cases b with
    | nil => simp at h
    | cons y bs =>
      intro k
      obtain ⟨t, ht⟩ := ih bs (by simpa using h) (k + 1)
      exact ⟨_, by simp only [dnPair, ht]; rfl⟩

theorem dnPairs_mem (draw : Nat → Nat → Nat → DNDraw K) (pop : List (DNet K)) (ps : List (Nat × Nat)) :
    ∀ (k : Nat) (os : List (DNet K)), dnPairs draw pop k ps = .ok os →
      os.length = 2 * ps.length ∧ ∀ o ∈ os, ∃ a ∈ pop, sigs o = sigs a := by
  induction ps with
  | nil => intro k os h; simp only [dnPairs, Except.ok.injEq] at h; subst h; simp
  | cons p ps ih =>
    intro k os h
    simp only [dnPairs] at h
    split at h
    · rename_i a b ha hb
      split at h
      · cases h
      · rename_i q hq
        split at h
        · cases h
        · rename_i os' hos
          simp only [Except.ok.injEq] at h
          subst h
          obtain ⟨h1, h2⟩ := ih _ _ hos
          obtain ⟨h3, h4⟩ := dnPair_sig _ _ _ _ _ hq
          refine ⟨by simp [h1]; ring, ?_⟩
          intro o ho
          rcases List.mem_cons.1 ho with rfl | ho
          · exact ⟨a, List.mem_of_getElem? ha, h3⟩
          · rcases List.mem_cons.1 ho with rfl | ho
            · exact ⟨b, List.mem_of_getElem? hb, h4⟩
            · exact h2 o ho
    · cases h

/-- One generation of offspring of the EvoDN2 operator, with any draws, generation budget and mates. -/
def DNBreed (P O : List (DNet K)) : Prop :=
  ∃ (total : Nat) (draw : Nat → Nat → Nat → DNDraw K) (mates : Mates), dnDo total draw P mates = .ok O

theorem bred_sigs (P0 Q : List (DNet K)) (hQ : Bred DNBreed P0 Q) : ∀ n ∈ Q, ∃ a ∈ P0, sigs n = sigs a := by
  induction hQ with
  | start => exact fun n hn => ⟨n, hn, rfl⟩
  | @next P O Q hP hb hk ih =>
    intro n hn
    rcases hk n hn with h | h
    · exact ih n h
    · obtain ⟨total, draw, mates, hdo⟩ := hb
      unfold dnDo at hdo
      split at hdo
      · cases hdo
      · obtain ⟨a, ha, hs⟩ := (dnPairs_mem _ _ _ _ _ hdo).2 n h
        obtain ⟨a0, ha0, hs0⟩ := ih a ha
        exact ⟨a0, ha0, hs.trans hs0⟩

end

theorem shape_of_sigs {n a : DNet K} (h : sigs n = sigs a) : shape n = shape a := by
  have hf : ∀ m : DNet K, shape m = (sigs m).map (fun s => s.map (fun t => (t.1, t.2.1))) := by
    intro m
    simp [shape, sigs, sig, Function.comp_def]
  rw [hf, hf, h]

theorem chain_of_sig {ls ms : List (Layer K)} (h : ls.map sig = ms.map sig) : ∀ n, Chain n ms → Chain n ls := by
  induction ls generalizing ms with
  | nil => intro n _; trivial
  | cons l ls ih =>
    cases ms with
    | nil => simp at h
    | cons m ms =>
      simp only [List.map_cons, List.cons.injEq, sig, Prod.mk.injEq] at h
      obtain ⟨⟨h1, h2, h3⟩, h4⟩ := h
      intro n hc
      obtain ⟨c1, c2, c3⟩ := hc
      exact ⟨h1.trans c1, by rw [h3, h1, h2]; exact c2, ih h4 _ (by rw [h2]; exact c3)⟩

theorem fits_of_sigs {subs : List (List Nat)} {n a : DNet K} (h : sigs n = sigs a) (ha : FitsSubsets subs a) : FitsSubsets subs n := by
  have hl : n.length = a.length := by simpa [sigs] using congrArg List.length h
  refine ⟨by rw [hl]; exact ha.1, ?_⟩
  intro i sub ls hs hls
  have hi : i < a.length := by rw [← hl]; exact (List.getElem?_eq_some_iff.1 hls).1
  have hm := congrArg (fun l => l[i]?) h
  simp only [sigs, List.getElem?_map, hls, List.getElem?_eq_getElem hi, Option.map_some, Option.some.injEq] at hm
  exact chain_of_sig hm _ (ha.2 i sub _ hs (List.getElem?_eq_getElem hi))

/-- C67. Recombination never changes an architecture: over any history of recombination and selection each network has the number of
subnets, layers and nodes of one of the initial networks. -/
theorem c67_architecture_inherited [Add K] [Mul K] (P0 Q : List (DNet K)) (hQ : Bred DNBreed P0 Q) :
    ∀ n ∈ Q, ∃ a ∈ P0, shape n = shape a := by
  intro n hn
  obtain ⟨a, ha, h⟩ := bred_sigs P0 Q hQ n hn
  exact ⟨a, ha, shape_of_sigs h⟩

/-! ### Weights -/

/-- The weight of network `n` at flat position `k` of layer `l` of subnet `s`, if there is such a position. -/
def weightAt (n : DNet K) (s l k : Nat) : Option K := ((n[s]?).bind (fun ls => ls[l]?)).bind (fun L => L.w[k]?)

/-- `x` is `y`, possibly mutated. -/
def Scaled [Add K] [Mul K] (y x : K) : Prop := x = y ∨ ∃ c, x = y + y * c

theorem mutLayer_get [Add K] [Mul K] (hit : Nat → Bool) (val : Nat → K) (l : Layer K) (k : Nat) (x : K)
    (h : (mutLayer hit val l).w[k]? = some x) : ∃ y, l.w[k]? = some y ∧ Scaled y x := by
  simp only [mutLayer, List.getElem?_mapIdx, Option.map_eq_some_iff] at h
  obtain ⟨y, hy, he⟩ := h
  refine ⟨y, hy, ?_⟩
  split at he
  · exact .inr ⟨_, he.symm⟩
  · exact .inl he.symm

theorem cross_get (ex : Nat → Bool) (a b : Layer K) (k : Nat) (x : K) :
    ((crossLayers ex a b).1.w[k]? = some x → a.w[k]? = some x ∨ b.w[k]? = some x) ∧
    ((crossLayers ex a b).2.w[k]? = some x → a.w[k]? = some x ∨ b.w[k]? = some x) := by
  obtain ⟨h1, h2, h3⟩ := c67_crossover_exchanges ex a b k
  have l1 : (crossLayers ex a b).1.w.length = a.w.length := by simp [crossLayers, takeFrom_length]
  have l2 : (crossLayers ex a b).2.w.length = b.w.length := by simp [crossLayers, takeFrom_length]
  cases ha : a.w[k]? with
  | none =>
    refine ⟨fun h => ?_, fun h => ?_⟩
    · have : k < a.w.length := by rw [← l1]; exact (List.getElem?_eq_some_iff.1 h).1
      rw [List.getElem?_eq_getElem this] at ha; cases ha
    · rw [h3 ha] at h; exact .inr h
  | some y =>
    cases hb : b.w[k]? with
    | none =>
      refine ⟨fun h => ?_, fun h => ?_⟩
      · rw [h2 hb, ha] at h; exact .inl h
      · have : k < b.w.length := by rw [← l2]; exact (List.getElem?_eq_some_iff.1 h).1
        rw [List.getElem?_eq_getElem this] at hb; cases hb
    | some z =>
      rcases h1 y z ha hb with ⟨e1, e2, -⟩ | ⟨e1, e2, -⟩
      · rw [e1, e2]; exact ⟨.inl, .inr⟩
      · rw [e1, e2]; exact ⟨.inr, .inl⟩

theorem dnSubnet_get [Add K] [Mul K] (d : Nat → DNDraw K) (as bs : List (Layer K)) : ∀ (k0 l k : Nat) (x : K),
    (((dnSubnet d k0 as bs).1[l]?).bind (fun L => L.w[k]?) = some x ∨ ((dnSubnet d k0 as bs).2[l]?).bind (fun L => L.w[k]?) = some x) →
    ∃ y, ((as[l]?).bind (fun L => L.w[k]?) = some y ∨ (bs[l]?).bind (fun L => L.w[k]?) = some y) ∧ Scaled y x := by
  induction as generalizing bs with
  | nil =>
    induction bs with
    | nil => intro k0 l k x h; simp [dnSubnet] at h
    | cons b bs ih =>
      intro k0 l k x h
      simp only [dnSubnet, List.getElem?_nil, Option.bind_none, reduceCtorEq, false_or] at h ⊢
      cases l with
      | zero =>
        simp only [List.getElem?_cons_zero, Option.bind_some] at h ⊢
        exact mutLayer_get _ _ _ _ _ h
      | succ l =>
        simp only [List.getElem?_cons_succ] at h ⊢
        simpa using ih (k0 + 1) l k x (.inr h)
  | cons a as ih =>
    cases bs with
    | nil =>
      intro k0 l k x h
      simp only [dnSubnet, List.getElem?_nil, Option.bind_none, reduceCtorEq, or_false] at h ⊢
      cases l with
      | zero =>
        simp only [List.getElem?_cons_zero, Option.bind_some] at h ⊢
        exact mutLayer_get _ _ _ _ _ h
      | succ l =>
        simp only [List.getElem?_cons_succ] at h ⊢
        simpa using ih [] (k0 + 1) l k x (.inl h)
    | cons b bs =>
      intro k0 l k x h
      simp only [dnSubnet] at h
      cases l with
      | zero =>
        simp only [List.getElem?_cons_zero, Option.bind_some] at h ⊢
        rcases h with h | h
        · obtain ⟨y, hy, hs⟩ := mutLayer_get _ _ _ _ _ h
          exact ⟨y, (cross_get _ _ _ _ _).1 hy, hs⟩
        · obtain ⟨y, hy, hs⟩ := mutLayer_get _ _ _ _ _ h
          exact ⟨y, (cross_get _ _ _ _ _).2 hy, hs⟩
      | succ l =>
        simp only [List.getElem?_cons_succ] at h ⊢
        exact ih bs (k0 + 1) l k x h

theorem dnPair_get [Add K] [Mul K] (d : Nat → Nat → DNDraw K) (a b : DNet K) : ∀ (k0 : Nat) (o : DNet K × DNet K), dnPair d k0 a b = .ok o →
    ∀ (s l k : Nat) (x : K), (weightAt o.1 s l k = some x ∨ weightAt o.2 s l k = some x) →
      ∃ y, (weightAt a s l k = some y ∨ weightAt b s l k = some y) ∧ Scaled y x := by
  induction a generalizing b with
  | nil =>
    intro k0 o h s l k x hx
    simp only [dnPair, Except.ok.injEq] at h
    subst h
    exact ⟨x, hx, .inl rfl⟩
  | cons p as ih =>
    cases b with
    | nil => intro k0 o h; simp [dnPair] at h
    | cons q bs =>
      intro k0 o h s l k x hx
      simp only [dnPair] at h
      split at h
      · cases h
      · rename_i t ht
        simp only [Except.ok.injEq] at h
        subst h
        cases s with
        | zero =>
          simp only [weightAt, List.getElem?_cons_zero, Option.bind_some] at hx ⊢
          exact dnSubnet_get (d k0) p q 0 l k x hx
        | succ s =>
          have := ih bs _ _ ht s l k x
          simp only [weightAt, List.getElem?_cons_succ] at hx this ⊢
          exact this hx

/-- C67. Each weight of an offspring is a weight of one of the existing networks at the same position, possibly scaled by mutation. -/
theorem c67_weights_inherited [Add K] [Mul K] (total : Nat) (draw : Nat → Nat → Nat → DNDraw K) (pop O : List (DNet K)) (mates : Mates)
    (h : dnDo total draw pop mates = .ok O) (o : DNet K) (ho : o ∈ O) (s l k : Nat) (x : K) (hx : weightAt o s l k = some x) :
    ∃ a ∈ pop, ∃ y, weightAt a s l k = some y ∧ Scaled y x := by
  have key : ∀ (ps : List (Nat × Nat)) (k0 : Nat) (os : List (DNet K)), dnPairs draw pop k0 ps = .ok os → o ∈ os →
      ∃ a ∈ pop, ∃ y, weightAt a s l k = some y ∧ Scaled y x := by
    intro ps
    induction ps with
    | nil => intro k0 os h hm; simp only [dnPairs, Except.ok.injEq] at h; subst h; simp at hm
    | cons p ps ih =>
      intro k0 os h hm
      simp only [dnPairs] at h
      split at h
      · rename_i a b ha hb
        split at h
        · cases h
        · rename_i q hq
          split at h
          · cases h
          · rename_i os' hos
            simp only [Except.ok.injEq] at h
            subst h
            have hpair := dnPair_get _ _ _ _ _ hq s l k x
            have conv : (∃ y, (weightAt a s l k = some y ∨ weightAt b s l k = some y) ∧ Scaled y x) →
                ∃ a ∈ pop, ∃ y, weightAt a s l k = some y ∧ Scaled y x := by
              rintro ⟨y, hy | hy, hs⟩
              · exact ⟨a, List.mem_of_getElem? ha, y, hy, hs⟩
              · exact ⟨b, List.mem_of_getElem? hb, y, hy, hs⟩
            rcases List.mem_cons.1 hm with rfl | hm
            · exact conv (hpair (.inl hx))
            · rcases List.mem_cons.1 hm with rfl | hm
              · exact conv (hpair (.inr hx))
              · exact ih _ _ hos hm
      · cases h
  unfold dnDo at h
  split at h
  · cases h
  · exact key _ _ _ h ho

/-- C67. A position at which no network has a non-zero weight stays that way: over any history of recombination and selection. -/
theorem c67_dead_position_stays_dead [CommRing K] (P0 Q : List (DNet K)) (hQ : Bred DNBreed P0 Q) (s l k : Nat)
    (h0 : ∀ n ∈ P0, ∀ x, weightAt n s l k = some x → x = 0) : ∀ n ∈ Q, ∀ x, weightAt n s l k = some x → x = 0 := by
  induction hQ with
  | start => exact h0
  | @next P O Q hP hb hk ih =>
    intro n hn x hx
    rcases hk n hn with h | h
    · exact ih n h x hx
    · obtain ⟨total, draw, mates, hdo⟩ := hb
      obtain ⟨a, ha, y, hy, hs⟩ := c67_weights_inherited total draw P O mates hdo n h s l k x hx
      have := ih a ha y hy
      subst this
      rcases hs with rfl | ⟨c, rfl⟩
      · rfl
      · ring

/-! ### The forward pass -/

theorem layerOut_total [Zero K] [Add K] [Mul K] (act : K → K) (l : Layer K) (feed : List K) (h : l.rows = feed.length + 1) :
    ∃ o, layerOut act l feed = .ok o ∧ o.length = l.cols := by
  unfold layerOut
  rw [if_pos h.symm]
  exact ⟨_, rfl, by simp⟩

theorem subnetOut_total [Zero K] [Add K] [Mul K] (act : K → K) (ls : List (Layer K)) :
    ∀ feed : List K, Chain feed.length ls → ∃ o, subnetOut act ls feed = .ok o ∧ o.length = (ls.getLast?.map (fun l => l.cols)).getD feed.length := by
  induction ls with
  | nil => intro feed _; exact ⟨feed, rfl, rfl⟩
  | cons l ls ih =>
    intro feed hc
    obtain ⟨h1, -, h3⟩ := hc
    obtain ⟨o, ho, hlen⟩ := layerOut_total act l feed h1
    obtain ⟨o', ho', hlen'⟩ := ih o (by rw [hlen]; exact h3)
    refine ⟨o', by simp only [subnetOut, ho, ho'], ?_⟩
    rw [hlen']
    cases ls with
    | nil => simp [hlen]
    | cons m ms => simp [List.getLast?_cons_cons, List.getLast?_eq_getLast_of_ne_nil]

theorem fits_cons {subs : List (List Nat)} {sub : List Nat} {net : List (Layer K)} {nets : DNet K} (h : FitsSubsets (sub :: subs) (net :: nets)) :
    Chain sub.length net ∧ FitsSubsets subs nets := by
  refine ⟨h.2 0 sub net rfl rfl, by simpa using h.1, ?_⟩
  intro i s ls hs hls
  exact h.2 (i + 1) s ls (by simpa using hs) (by simpa using hls)

/-- The width of the last hidden layer of a network: the sum over the subnets. -/
def outWidth : List (List Nat) → DNet K → Nat
  | sub :: subs, net :: nets => (net.getLast?.map (fun l => l.cols)).getD sub.length + outWidth subs nets
  | _, _ => 0

theorem feedForward_total [Zero K] [Add K] [Mul K] (act : K → K) (x : List K) (n : DNet K) : ∀ (subs : List (List Nat)), FitsSubsets subs n →
    (∀ s ∈ subs, ∀ v ∈ s, v < x.length) → ∃ o, feedForward act x subs n = .ok o ∧ o.length = outWidth subs n := by
  induction n with
  | nil => intro subs _ _; exact ⟨[], by simp [feedForward], by cases subs <;> rfl⟩
  | cons net nets ih =>
    intro subs hf hx
    cases subs with
    | nil => exact absurd hf.1 (by simp)
    | cons sub subs =>
      obtain ⟨hc, hf'⟩ := fits_cons hf
      obtain ⟨feed, hfeed⟩ := takeRows_total x sub (fun v hv => hx sub (by simp) v hv)
      have hlen : feed.length = sub.length := (takeRows_spec x sub feed hfeed).1
      obtain ⟨o, ho, hol⟩ := subnetOut_total act net feed (by rw [hlen]; exact hc)
      obtain ⟨os, hos, hosl⟩ := ih subs hf' (fun s hs => hx s (by simp [hs]))
      refine ⟨o ++ os, by simp only [feedForward, hfeed, ho, hos], ?_⟩
      rw [List.length_append, hol, hosl, hlen]
      rfl

/-! ### The initial networks -/

theorem dnLayers_chain [Zero K] [One K] (nodes : Nat → Nat) (u : Nat → Nat → K) (zero : Nat → Nat → Bool) (n : Nat) :
    ∀ k inN, Chain inN (dnLayers nodes u zero n k inN) ∧ (dnLayers nodes u zero n k inN).length = n ∧
      ∀ l ∈ dnLayers nodes u zero n k inN, ∃ j, l.cols = nodes j := by
  induction n with
  | zero => intro k inN; simp [dnLayers, Chain]
  | succ n ih =>
    intro k inN
    obtain ⟨h1, h2, h3⟩ := ih (k + 1) (nodes k)
    refine ⟨⟨rfl, ?_, h1⟩, by simp [dnLayers, h2], ?_⟩
    · simp [dnLayer]; ring
    · intro l hl
      rcases List.mem_cons.1 hl with rfl | hl
      · exact ⟨k, rfl⟩
      · exact h3 l hl

/-- C67. When the initial networks can be made, and what they are: as many as asked for; each has `num_subnets` subnets fitting the
subsets, each subnet from 1 to `max_layers - 1` layers (never `max_layers`), each layer from 2 to `max_nodes` nodes. -/
theorem c67_initial_networks [Zero K] [One K] (rnd : DNRand K) (popSize numSubnets maxLayers maxNodes : Nat) (subsets : List (List Nat))
    (P : List (DNet K)) (h : dnCreate rnd popSize numSubnets maxLayers maxNodes subsets = .ok P) :
    P.length = popSize ∧ ∀ n ∈ P, n.length = numSubnets ∧ FitsSubsets subsets n ∧
      ∀ s ∈ n, 1 ≤ s.length ∧ s.length < maxLayers ∧ ∀ l ∈ s, 2 ≤ l.cols ∧ l.cols ≤ maxNodes := by
  unfold dnCreate at h
  split at h
  · rename_i h0
    simp only [Except.ok.injEq] at h
    subst h
    refine ⟨by simp, ?_⟩
    intro n hn
    obtain ⟨hp, rfl⟩ := List.mem_replicate.1 hn
    have : numSubnets = 0 := by tauto
    subst this
    simp [FitsSubsets]
  · split at h
    · cases h
    · split at h
      · cases h
      · split at h
        · cases h
        · split at h
          · cases h
          · rename_i h0 h1 h2 h3 h4
            simp only [Except.ok.injEq] at h
            subst h
            refine ⟨by simp, ?_⟩
            intro n hn
            obtain ⟨i, -, rfl⟩ := List.mem_map.1 hn
            have hlen : numSubnets ≤ subsets.length := by omega
            refine ⟨by simp [hlen], ⟨by simp [hlen], ?_⟩, ?_⟩
            · intro j sub ls hsub hls
              rw [List.getElem?_map, Option.map_eq_some_iff] at hls
              obtain ⟨p, hp, rfl⟩ := hls
              rw [List.getElem?_zipIdx, Option.map_eq_some_iff] at hp
              obtain ⟨s, hs, rfl⟩ := hp
              have hs' : subsets[j]? = some s := by
                rw [List.getElem?_take] at hs
                split at hs
                · exact hs
                · cases hs
              rw [hsub] at hs'
              cases hs'
              exact (dnLayers_chain _ _ _ _ _ _).1
            · intro s hs
              obtain ⟨p, -, rfl⟩ := List.mem_map.1 hs
              obtain ⟨-, e2, e3⟩ := dnLayers_chain (fun k => 2 + rnd.nodes i p.2 k % (maxNodes - 1)) (fun k => rnd.u i p.2 k) (fun k => rnd.zero i p.2 k)
                (1 + rnd.layers i p.2 % (maxLayers - 1)) 0 p.1.length
              have hm := Nat.mod_lt (rnd.layers i p.2) (show 0 < maxLayers - 1 by omega)
              refine ⟨by rw [e2]; omega, by rw [e2]; omega, ?_⟩
              intro l hl
              obtain ⟨q, hq⟩ := e3 l hl
              have hm := Nat.mod_lt (rnd.nodes i p.2 q) (show 0 < maxNodes - 1 by omega)
              omega

theorem dnLayers_start [Zero K] [One K] (nodes : Nat → Nat) (u : Nat → Nat → K) (zero : Nat → Nat → Bool) (n : Nat) :
    ∀ k inN, ∀ (j : Nat) (l : Layer K), (dnLayers nodes u zero n k inN)[j]? = some l →
      (∀ q, q < l.cols → l.w[q]? = some 1) ∧
      ∀ (q : Nat) (x : K), l.w[l.cols + q]? = some x → (zero (k + j) q = true ∧ x = 0) ∨ (zero (k + j) q = false ∧ x = u (k + j) q) := by
  induction n with
  | zero => intro k inN j l h; simp [dnLayers] at h
  | succ n ih =>
    intro k inN j l h
    cases j with
    | zero =>
      simp only [dnLayers, List.getElem?_cons_zero, Option.some.injEq] at h
      subst h
      refine ⟨?_, ?_⟩
      · intro q hq
        simp only [dnLayer] at hq ⊢
        rw [List.getElem?_append_left (by simpa using hq), List.getElem?_replicate, if_pos hq]
      · intro q x hx
        simp only [dnLayer] at hx
        rw [List.getElem?_append_right (by simp), List.length_replicate, Nat.add_sub_cancel_left, List.getElem?_map, Option.map_eq_some_iff] at hx
        obtain ⟨q', hq, hx⟩ := hx
        have hq' : q' = q := by
          rw [List.getElem?_eq_some_iff] at hq
          obtain ⟨h1, h2⟩ := hq
          rw [← h2, List.getElem_range]
        subst hq'
        cases hz : zero k q' with
        | true => left; simpa [hz] using hx.symm
        | false => right; simpa [hz] using hx.symm
    | succ j =>
      simp only [dnLayers, List.getElem?_cons_succ] at h
      have := ih (k + 1) (nodes k) j l h
      rwa [Nat.add_right_comm, Nat.add_assoc] at this

/-- C67. The weights of an initial network: in every layer the biases are all ones; every other weight is zero or the number drawn for it, and which of the two was drawn
too. -/
theorem c67_initial_weights [Zero K] [One K] (rnd : DNRand K) (popSize numSubnets maxLayers maxNodes : Nat) (subsets : List (List Nat))
    (P : List (DNet K)) (h : dnCreate rnd popSize numSubnets maxLayers maxNodes subsets = .ok P) (i a b : Nat) (n : DNet K) (s : List (Layer K)) (l : Layer K)
    (hn : P[i]? = some n) (hs : n[a]? = some s) (hl : s[b]? = some l) :
    (∀ q, q < l.cols → l.w[q]? = some 1) ∧
    ∀ (q : Nat) (x : K), l.w[l.cols + q]? = some x → (rnd.zero i a b q = true ∧ x = 0) ∨ (rnd.zero i a b q = false ∧ x = rnd.u i a b q) := by
  unfold dnCreate at h
  split at h
  · simp only [Except.ok.injEq] at h
    subst h
    rw [List.getElem?_replicate] at hn
    split at hn
    · simp only [Option.some.injEq] at hn
      subst hn
      simp at hs
    · cases hn
  · split at h
    · cases h
    · split at h
      · cases h
      · split at h
        · cases h
        · split at h
          · cases h
          · simp only [Except.ok.injEq] at h
            subst h
            rw [List.getElem?_map, Option.map_eq_some_iff] at hn
            obtain ⟨i', hi, rfl⟩ := hn
            have hi' : i' = i := by
              rw [List.getElem?_eq_some_iff] at hi
              obtain ⟨h1, h2⟩ := hi
              rw [← h2, List.getElem_range]
            subst hi'
            rw [List.getElem?_map, Option.map_eq_some_iff] at hs
            obtain ⟨p, hp, rfl⟩ := hs
            rw [List.getElem?_zipIdx, Option.map_eq_some_iff] at hp
            obtain ⟨sub, -, rfl⟩ := hp
            have := dnLayers_start _ _ _ _ _ _ b l hl
            simpa using this

/-- C67. The design raises exactly when it needs a layer that the limits do not allow (`max_layers` at most 1, `max_nodes` below 2) or
there are fewer subsets than subnets. -/
theorem c67_initial_outcome [Zero K] [One K] (rnd : DNRand K) (popSize numSubnets maxLayers maxNodes : Nat) (subsets : List (List Nat)) :
    (∃ P, dnCreate rnd popSize numSubnets maxLayers maxNodes subsets = .ok P) ↔
      popSize = 0 ∨ numSubnets = 0 ∨ (2 ≤ maxLayers ∧ 2 ≤ maxNodes ∧ numSubnets ≤ subsets.length) := by
  unfold dnCreate
  by_cases h0 : popSize = 0 ∨ numSubnets = 0
  · rw [if_pos h0]; simp; tauto
  · rw [if_neg h0]
    by_cases h1 : maxLayers ≤ 1
    · rw [if_pos h1]; simp; omega
    · rw [if_neg h1]
      by_cases h2 : subsets = []
      · rw [if_pos h2]; subst h2; simp; omega
      · rw [if_neg h2]
        by_cases h3 : maxNodes < 2
        · rw [if_pos h3]; simp; omega
        · rw [if_neg h3]
          by_cases h4 : subsets.length < numSubnets
          · rw [if_pos h4]; simp; omega
          · rw [if_neg h4]; simp; omega

/-- C67. Over any history of recombination and selection from the initial networks, every network can be evaluated on every sample that
has the variables the subsets name, and any mating of existing networks succeeds with two offspring per pair. -/
theorem c67_always_evaluable [Zero K] [One K] [Add K] [Mul K] (rnd : DNRand K) (popSize numSubnets maxLayers maxNodes : Nat)
    (subsets : List (List Nat)) (P0 Q : List (DNet K)) (h : dnCreate rnd popSize numSubnets maxLayers maxNodes subsets = .ok P0)
    (hQ : Bred DNBreed P0 Q) :
    (∀ n ∈ Q, ∀ (act : K → K) (x : List K), (∀ s ∈ subsets, ∀ v ∈ s, v < x.length) → ∃ o, feedForward act x subsets n = .ok o) ∧
    (∀ (total : Nat) (draw : Nat → Nat → Nat → DNDraw K) (mates : Mates), 0 < total →
      (∀ p ∈ mates.toPairs, p.1 < Q.length ∧ p.2 < Q.length) → ∃ O, dnDo total draw Q mates = .ok O ∧ O.length = 2 * mates.toPairs.length) ∧
    ∀ n ∈ Q, n.length = numSubnets ∧ ∀ s ∈ shape n, 1 ≤ s.length ∧ s.length < maxLayers ∧ ∀ d ∈ s, 2 ≤ d.2 ∧ d.2 ≤ maxNodes := by
  obtain ⟨-, hP0⟩ := c67_initial_networks rnd popSize numSubnets maxLayers maxNodes subsets P0 h
  have hall : ∀ n ∈ Q, n.length = numSubnets ∧ FitsSubsets subsets n ∧
      ∀ s ∈ shape n, 1 ≤ s.length ∧ s.length < maxLayers ∧ ∀ d ∈ s, 2 ≤ d.2 ∧ d.2 ≤ maxNodes := by
    intro n hn
    obtain ⟨a, ha, hs⟩ := bred_sigs P0 Q hQ n hn
    obtain ⟨h1, h2, h3⟩ := hP0 a ha
    have hl : n.length = a.length := by simpa [sigs] using congrArg List.length hs
    refine ⟨hl.trans h1, fits_of_sigs hs h2, ?_⟩
    rw [shape_of_sigs hs]
    intro s hsm
    obtain ⟨t, ht, rfl⟩ := List.mem_map.1 hsm
    obtain ⟨e1, e2, e3⟩ := h3 t ht
    refine ⟨by simpa using e1, by simpa using e2, ?_⟩
    intro d hd
    obtain ⟨l, hl, rfl⟩ := List.mem_map.1 hd
    exact e3 l hl
  refine ⟨?_, ?_, fun n hn => ⟨(hall n hn).1, (hall n hn).2.2⟩⟩
  · intro n hn act x hx
    obtain ⟨o, ho, -⟩ := feedForward_total act x n subsets (hall n hn).2.1 hx
    exact ⟨o, ho⟩
  · intro total draw mates ht hm
    have key : ∀ (ps : List (Nat × Nat)) (k : Nat), (∀ p ∈ ps, p.1 < Q.length ∧ p.2 < Q.length) → ∃ os, dnPairs draw Q k ps = .ok os := by
      intro ps
      induction ps with
      | nil => intro k _; exact ⟨[], rfl⟩
      | cons p ps ih =>
        intro k hps
        obtain ⟨h1, h2⟩ := hps p (by simp)
        obtain ⟨os, hos⟩ := ih (k + 1) (fun q hq => hps q (by simp [hq]))
        obtain ⟨o, ho⟩ := dnPair_total (draw k) Q[p.1] Q[p.2]
          (by rw [(hall _ (List.getElem_mem h1)).1, (hall _ (List.getElem_mem h2)).1]) 0
        exact ⟨o.1 :: o.2 :: os, by simp only [dnPairs, List.getElem?_eq_getElem h1, List.getElem?_eq_getElem h2, ho, hos]⟩
    obtain ⟨os, hos⟩ := key _ 0 hm
    refine ⟨os, ?_, (dnPairs_mem _ _ _ _ _ hos).1⟩
    unfold dnDo
    rw [if_neg (by omega)]
    exact hos

/-- Crossover works on flat positions: between layers of different width a bias becomes the weight of a connection.  Here the second
parent's bias of its second node replaces the first parent's only connection, which was absent. -/
theorem c67_bias_becomes_connection : ∃ (a b : Layer Int) (ex : Nat → Bool), a.rows = 2 ∧ b.rows = 2 ∧ a.cols = 1 ∧ b.cols = 2 ∧
    a.at 1 0 = 0 ∧ b.at 0 1 = 7 ∧ b.at 1 0 = 0 ∧ b.at 1 1 = 0 ∧ (crossLayers ex a b).1.at 1 0 = 7 :=
  ⟨⟨2, 1, [1, 0]⟩, ⟨2, 2, [1, 7, 0, 0]⟩, fun _ => true, rfl, rfl, rfl, rfl, by decide, by decide, by decide, by decide, by decide⟩

/-! ## C68: subsets -/

/-- `t` extends `s`: the same subsets, each possibly with more variables at the end. -/
def Extends (s t : List (List Nat)) : Prop := s.length = t.length ∧ ∀ (i : Nat) (a b : List Nat), s[i]? = some a → t[i]? = some b → a <+: b

theorem Extends.refl (s : List (List Nat)) : Extends s s := ⟨rfl, fun i a b h1 h2 => by rw [h1] at h2; cases h2; exact List.prefix_refl a⟩

theorem Extends.trans {s t u : List (List Nat)} (h : Extends s t) (h' : Extends t u) : Extends s u := by
  refine ⟨h.1.trans h'.1, ?_⟩
  intro i a c ha hc
  have hi : i < t.length := by rw [← h.1]; exact (List.getElem?_eq_some_iff.1 ha).1
  exact (h.2 i a _ ha (List.getElem?_eq_getElem hi)).trans (h'.2 i _ c (List.getElem?_eq_getElem hi) hc)

theorem coverVars_spec (choose : Nat → Nat) (vs : List Nat) : ∀ (s t : List (List Nat)), coverVars choose vs s = .ok t →
    Extends s t ∧ (∀ v ∈ vs, ∃ b ∈ t, v ∈ b) ∧ (∀ b ∈ t, ∀ v ∈ b, v ∈ vs ∨ ∃ a ∈ s, v ∈ a) ∧ ((∀ a ∈ s, a.Nodup) → ∀ b ∈ t, b.Nodup) := by
  induction vs with
  | nil =>
    intro s t h
    simp only [coverVars, Except.ok.injEq] at h
    subst h
    exact ⟨Extends.refl s, by simp, fun b hb v hv => .inr ⟨b, hb, hv⟩, id⟩
  | cons v vs ih =>
    intro s t h
    simp only [coverVars] at h
    split at h
    · rename_i hany
      obtain ⟨h1, h2, h3, h4⟩ := ih s t h
      refine ⟨h1, ?_, ?_, h4⟩
      · intro w hw
        rcases List.mem_cons.1 hw with rfl | hw
        · simp only [List.any_eq_true, List.contains_iff_mem] at hany
          obtain ⟨a, ha, hwa⟩ := hany
          obtain ⟨i, hi, rfl⟩ := List.getElem_of_mem ha
          have hi' : i < t.length := by rw [← h1.1]; exact hi
          exact ⟨t[i], List.getElem_mem hi', (h1.2 i _ _ (List.getElem?_eq_getElem hi) (List.getElem?_eq_getElem hi')).subset hwa⟩
        · exact h2 w hw
      · intro b hb w hw
        rcases h3 b hb w hw with h | h
        · exact .inl (List.mem_cons_of_mem _ h)
        · exact .inr h
    · rename_i hany
      split at h
      · cases h
      · rename_i hlen
        have hlt := Nat.mod_lt (choose v) (show 0 < s.length by omega)
        generalize choose v % s.length = c at h hlt
        obtain ⟨h1, h2, h3, h4⟩ := ih _ t h
        have hext : Extends s (s.modify c (fun s => s ++ [v])) := by
          refine ⟨by simp, ?_⟩
          intro i a b ha hb
          rw [List.getElem?_modify, ha] at hb
          split at hb
          · have hb' : a ++ [v] = b := Option.some.inj hb
            rw [← hb']; exact List.prefix_append _ _
          · have hb' : a = b := Option.some.inj hb
            rw [← hb']
        have hmod : ∀ a ∈ s.modify c (fun s => s ++ [v]), a ∈ s ∨ ∃ a' ∈ s, a = a' ++ [v] := by
          intro a ha
          obtain ⟨i, hi, rfl⟩ := List.getElem_of_mem ha
          rw [List.getElem_modify]
          have hi' : i < s.length := by simpa using hi
          split
          · exact .inr ⟨s[i], List.getElem_mem hi', rfl⟩
          · exact .inl (List.getElem_mem hi')
        refine ⟨hext.trans h1, ?_, ?_, ?_⟩
        · intro w hw
          rcases List.mem_cons.1 hw with rfl | hw
          · have hct : c < t.length := by rw [← h1.1]; simpa using hlt
            have hcm : (s.modify c (fun s => s ++ [w]))[c]? = some (s[c] ++ [w]) := by
              rw [List.getElem?_modify]; simp [hlt]
            exact ⟨t[c], List.getElem_mem hct, (h1.2 c _ _ hcm (List.getElem?_eq_getElem hct)).subset (by simp)⟩
          · exact h2 w hw
        · intro b hb w hw
          rcases h3 b hb w hw with h | ⟨a, ha, hwa⟩
          · exact .inl (List.mem_cons_of_mem _ h)
          · rcases hmod a ha with h | ⟨a', ha', rfl⟩
            · exact .inr ⟨a, h, hwa⟩
            · rcases List.mem_append.1 hwa with h | h
              · exact .inr ⟨a', ha', h⟩
              · exact .inl (by simp at h; simp [h])
        · intro hs
          apply h4
          intro a ha
          rcases hmod a ha with h | ⟨a', ha', rfl⟩
          · exact hs a h
          · have hva : v ∉ a' := by
              intro hv
              apply hany
              simp only [List.any_eq_true, List.contains_iff_mem]
              exact ⟨a', ha', hv⟩
            rw [List.nodup_append]
            refine ⟨hs a' ha', by simp, ?_⟩
            intro x hx y hy e
            simp at hy
            subst hy; subst e
            exact hva hx

/-- C68. The first `fit` makes subsets that use every variable: there are `num_subnets` of them, each is non-empty, without repetition and
names only variables of the data, and each variable is in at least one; the subsets drawn at random are only extended. -/
theorem c68_every_variable_used (nVars numSubnets : Nat) (sample : Nat → List Nat) (choose : Nat → Nat) (subs : List (List Nat))
    (hs : ∀ i, (sample i).Nodup ∧ sample i ≠ [] ∧ ∀ v ∈ sample i, v < nVars)
    (h : fitSubsets nVars numSubnets sample choose none = .ok subs) :
    subs.length = numSubnets ∧ (∀ v < nVars, ∃ s ∈ subs, v ∈ s) ∧
    (∀ s ∈ subs, s ≠ [] ∧ s.Nodup ∧ ∀ v ∈ s, v < nVars) ∧
    ∀ (i : Nat) (s : List Nat), subs[i]? = some s → sample i <+: s := by
  simp only [fitSubsets] at h
  split at h
  · cases h
  · obtain ⟨h1, h2, h3, h4⟩ := coverVars_spec choose _ _ _ h
    have hpre : ∀ (i : Nat) (s : List Nat), subs[i]? = some s → sample i <+: s := by
      intro i s hi
      have hlt : i < numSubnets := by
        have := (List.getElem?_eq_some_iff.1 hi).1
        rw [← h1.1] at this
        simpa using this
      exact h1.2 i (sample i) s (by simp [hlt]) hi
    refine ⟨by simpa using h1.1.symm, fun v hv => h2 v (by simpa using hv), ?_, hpre⟩
    intro s hsm
    refine ⟨?_, h4 ?_ s hsm, ?_⟩
    · obtain ⟨i, hi, rfl⟩ := List.getElem_of_mem hsm
      have := hpre i _ (List.getElem?_eq_getElem hi)
      intro e
      rw [e] at this
      exact (hs i).2.1 (List.prefix_nil.1 this)
    · intro a ha
      obtain ⟨i, -, rfl⟩ := List.mem_map.1 ha
      exact (hs i).1
    · intro v hv
      rcases h3 s hsm v hv with h | ⟨a, ha, hva⟩
      · simpa using h
      · obtain ⟨i, -, rfl⟩ := List.mem_map.1 ha
        exact (hs i).2.2 v hva

theorem coverVars_total (choose : Nat → Nat) (vs : List Nat) : ∀ (s : List (List Nat)), (∃ t, coverVars choose vs s = .ok t) ↔ (vs = [] ∨ s ≠ []) := by
  induction vs with
  | nil => intro s; simp [coverVars]
  | cons v vs ih =>
    intro s
    simp only [coverVars]
    split
    · rename_i hany
      rw [ih]
      have : s ≠ [] := by rintro rfl; simp at hany
      simp [this]
    · split
      · rename_i h0
        have : s = [] := List.length_eq_zero_iff.1 h0
        simp [this]
      · rename_i h0
        rw [ih]
        have : s ≠ [] := by rintro rfl; simp at h0
        simp [this]

/-- C68. `fit` can make the subsets exactly when there is a variable and a subnet, or neither. -/
theorem c68_outcome (nVars numSubnets : Nat) (sample : Nat → List Nat) (choose : Nat → Nat) :
    (∃ subs, fitSubsets nVars numSubnets sample choose none = .ok subs) ↔ (nVars = 0 ↔ numSubnets = 0) := by
  simp only [fitSubsets]
  split
  · simp; omega
  · rename_i h
    rw [coverVars_total]
    simp only [ne_eq, List.map_eq_nil_iff, List.range_eq_nil]
    omega

/-- C68. A later `fit` with other data keeps the subsets: a variable the first data did not have is not used by any subnet, so the networks'
output does not depend on it; and with fewer variables some sample raises IndexError. -/
theorem c68_refit_keeps_stale_subsets (nVars numSubnets nVars' : Nat) (sample sample' : Nat → List Nat) (choose choose' : Nat → Nat)
    (subs : List (List Nat)) (hs : ∀ i, (sample i).Nodup ∧ sample i ≠ [] ∧ ∀ v ∈ sample i, v < nVars)
    (h : fitSubsets nVars numSubnets sample choose none = .ok subs) :
    fitSubsets nVars' numSubnets sample' choose' (some subs) = .ok subs ∧
    (∀ v, nVars ≤ v → ∀ s ∈ subs, v ∉ s) ∧ (nVars' < nVars → ∃ s ∈ subs, ∃ v ∈ s, nVars' ≤ v) := by
  obtain ⟨-, h2, h3, -⟩ := c68_every_variable_used nVars numSubnets sample choose subs hs h
  refine ⟨rfl, ?_, ?_⟩
  · intro v hv s hsm hvs
    have := (h3 s hsm).2.2 v hvs
    omega
  · intro hlt
    obtain ⟨s, hsm, hvs⟩ := h2 nVars' hlt
    exact ⟨s, hsm, nVars', hvs, le_refl _⟩

/-- Only the variables in the subsets matter to a network. -/
theorem takeRows_congr {A : Type} (x x' : List A) (sub : List Nat) (h : ∀ v ∈ sub, x[v]? = x'[v]?) : takeRows x sub = takeRows x' sub := by
  induction sub with
  | nil => rfl
  | cons v vs ih =>
    have h1 := h v (by simp)
    have h2 := ih (fun w hw => h w (by simp [hw]))
    simp only [takeRows, List.mapM_cons] at h2 ⊢
    rw [h1, h2]

/-- C68. The output depends only on the variables in the subsets; in particular after fitting data with fewer variables first, new
variables are ignored. -/
theorem c68_only_subset_variables_matter [Zero K] [Add K] [Mul K] (act : K → K) (x x' : List K) (n : DNet K) : ∀ (subs : List (List Nat)),
    (∀ s ∈ subs, ∀ v ∈ s, x[v]? = x'[v]?) → feedForward act x subs n = feedForward act x' subs n := by
  induction n with
  | nil => intro subs _; simp [feedForward]
  | cons net nets ih =>
    intro subs h
    cases subs with
    | nil => simp [feedForward]
    | cons sub subs =>
      have h1 := takeRows_congr x x' sub (h sub (by simp))
      have h2 := ih subs (fun s hs => h s (by simp [hs]))
      simp only [feedForward, h1, h2]

/-- C68. A sample without a variable that a subnet's subset names cannot be evaluated. -/
theorem c68_missing_variable_raises [Zero K] [Add K] [Mul K] (act : K → K) (x : List K) (n : DNet K) : ∀ (subs : List (List Nat)),
    (∃ (i : Nat) (s : List Nat), i < n.length ∧ subs[i]? = some s ∧ ∃ v ∈ s, x.length ≤ v) → ∃ e, feedForward act x subs n = .error e := by
  induction n with
  | nil => rintro subs ⟨i, s, hi, -⟩; simp at hi
  | cons net nets ih =>
    rintro subs ⟨i, s, hi, hs, v, hv, hx⟩
    cases subs with
    | nil => exact ⟨_, rfl⟩
    | cons sub subs =>
      cases hfeed : takeRows x sub with
      | none => exact ⟨.indexError, by simp only [feedForward, hfeed]⟩
      | some feed =>
        cases i with
        | zero =>
          simp only [List.getElem?_cons_zero, Option.some.injEq] at hs
          subst hs
          have := (takeRows_spec x sub feed hfeed).2.1 v hv
          omega
        | succ i =>
          obtain ⟨e, he⟩ := ih subs ⟨i, s, by simpa using hi, by simpa using hs, v, hv, hx⟩
          simp only [feedForward, hfeed, he]
          cases subnetOut act net feed with
          | error e => exact ⟨e, rfl⟩
          | ok o => exact ⟨e, rfl⟩

example : fitSubsets 3 2 (fun i => [i]) (fun _ => 1) none = .ok [[0], [1, 2]] := by decide +kernel

end dn

/-! ## C69: complexity and selection of EvoDN2 -/

section complexity
variable {K : Type} [CommRing K] [LinearOrder K] [IsStrictOrderedRing K]

theorem absDot_nonneg (A : Nat → Nat → K) (l : Layer K) (h : ∀ i j, 0 ≤ A i j) (i j : Nat) : 0 ≤ absDot A l i j := by
  unfold absDot
  apply List.sum_nonneg
  intro x hx
  obtain ⟨k, -, rfl⟩ := List.mem_map.1 hx
  exact mul_nonneg (h i k) (abs_nonneg _)

theorem complexityMatrix_nonneg (ls : List (Layer K)) : ∀ (A0 : Option (Nat → Nat → K)), (∀ A, A0 = some A → ∀ i j, 0 ≤ A i j) →
    ∀ A, complexityMatrix ls A0 = some A → ∀ i j, 0 ≤ A i j := by
  induction ls with
  | nil => intro A0 h A hA; exact h A hA
  | cons l ls ih =>
    intro A0 h A hA
    cases A0 with
    | none =>
      refine ih (some _) ?_ A hA
      intro B hB i j
      simp only [Option.some.injEq] at hB
      subst hB
      exact abs_nonneg _
    | some A0 =>
      refine ih (some _) ?_ A hA
      intro B hB i j
      simp only [Option.some.injEq] at hB
      subst hB
      exact absDot_nonneg A0 l (h A0 rfl) i j

theorem subnetComplexity_nonneg (n : Nat) (ls : List (Layer K)) : 0 ≤ subnetComplexity n ls := by
  unfold subnetComplexity
  split
  · exact zero_le_one
  · rename_i A hA
    have h := complexityMatrix_nonneg ls none (by simp) A hA
    apply List.sum_nonneg
    intro x hx
    obtain ⟨i, -, rfl⟩ := List.mem_map.1 hx
    apply List.sum_nonneg
    intro y hy
    obtain ⟨j, -, rfl⟩ := List.mem_map.1 hy
    exact h i j

/-- C69. The complexity objective is never negative. -/
theorem c69_complexity_nonneg (subsets : List (List Nat)) (n : DNet K) : 0 ≤ dnComplexity subsets n := by
  unfold dnComplexity
  apply List.sum_nonneg
  intro x hx
  rw [List.mem_iff_getElem?] at hx
  obtain ⟨i, hi⟩ := hx
  rw [List.getElem?_zipWith] at hi
  split at hi
  · simp only [Option.some.injEq] at hi; subst hi; exact subnetComplexity_nonneg _ _
  · cases hi

theorem sum_zero_mem {l : List K} (h0 : ∀ x ∈ l, 0 ≤ x) (h : l.sum = 0) : ∀ x ∈ l, x = 0 := by
  induction l with
  | nil => simp
  | cons a l ih =>
    have ha := h0 a (by simp)
    have hl := List.sum_nonneg (fun x hx => h0 x (by simp [hx]) : ∀ x ∈ l, 0 ≤ x)
    simp only [List.sum_cons] at h
    intro x hx
    rcases List.mem_cons.1 hx with rfl | hx
    · linarith
    · exact ih (fun y hy => h0 y (by simp [hy])) (by linarith) x hx

/-- Two passes through a layer: an output node agrees if every weighted input that reaches it does. -/
theorem layerOut_agree (act : K → K) (l : Layer K) (f f' o o' : List K) (ho : layerOut act l f = .ok o) (ho' : layerOut act l f' = .ok o') :
    o.length = l.cols ∧ o'.length = l.cols ∧ l.rows = f.length + 1 ∧ f.length = f'.length ∧
    ∀ j, j < l.cols → (∀ k, k < l.rows - 1 → l.at (k + 1) j = 0 ∨ f.getD k 0 = f'.getD k 0) → o.getD j 0 = o'.getD j 0 := by
  unfold layerOut at ho ho'
  split at ho
  · split at ho'
    · rename_i h1 h2
      simp only [Except.ok.injEq] at ho ho'
      have hl : f.length = f'.length := by omega
      subst ho; subst ho'
      refine ⟨by simp, by simp, h1.symm, hl, ?_⟩
      intro j hj hk
      simp only [List.getD_eq_getElem?_getD, List.getElem?_map, List.getElem?_range hj, Option.map_some, Option.getD_some]
      congr 2
      rw [← hl]
      congr 1
      apply List.map_congr_left
      intro k hkm
      rw [List.mem_range] at hkm
      rcases hk k (by omega) with h | h
      · rw [h]; ring
      · rw [List.getD_eq_getElem?_getD, List.getD_eq_getElem?_getD] at h
        rw [h]
    · cases ho'
  · cases ho

/-- Two passes through a subnet that differ in the inputs `S`: an output node whose entries of the complexity matrix are zero for all of
`S` agrees. -/
theorem subnetOut_agree (act : K → K) (S : Nat → Prop) (ls : List (Layer K)) : ∀ (A0 : Option (Nat → Nat → K)) (f f' o o' : List K),
    (∀ A, A0 = some A → (∀ i j, 0 ≤ A i j) ∧ ∀ k, k < f.length → (∀ i, S i → A i k = 0) → f.getD k 0 = f'.getD k 0) →
    (A0 = none → ∀ k, k < f.length → ¬ S k → f.getD k 0 = f'.getD k 0) → f.length = f'.length →
    subnetOut act ls f = .ok o → subnetOut act ls f' = .ok o' → ∀ A, complexityMatrix ls A0 = some A →
    o.length = o'.length ∧ o.length = (ls.getLast?.map (fun l => l.cols)).getD f.length ∧
    ∀ j, j < o.length → (∀ i, S i → A i j = 0) → o.getD j 0 = o'.getD j 0 := by
  induction ls with
  | nil =>
    intro A0 f f' o o' hs hn hl ho ho' A hA
    simp only [subnetOut, Except.ok.injEq] at ho ho'
    subst ho; subst ho'
    simp only [complexityMatrix] at hA
    exact ⟨hl, rfl, (hs A hA).2⟩
  | cons l ls ih =>
    intro A0 f f' o o' hs hn hl ho ho' A hA
    simp only [subnetOut] at ho ho'
    split at ho
    · cases ho
    · rename_i p hp
      split at ho'
      · cases ho'
      · rename_i p' hp'
        obtain ⟨e1, e2, e3, e4, e5⟩ := layerOut_agree act l f f' p p' hp hp'
        have hlast : (ls.getLast?.map (fun l => l.cols)).getD p.length = (((l :: ls).getLast?).map (fun l => l.cols)).getD f.length := by
          cases ls with
          | nil => simp [e1]
          | cons m ms => simp [List.getLast?_cons_cons, List.getLast?_eq_getLast_of_ne_nil]
        cases A0 with
        | none =>
          simp only [complexityMatrix] at hA
          have := ih (some _) p p' o o' ?_ (by simp) (by rw [e1, e2]) ho ho' A hA
          · rw [hlast] at this; exact this
          · intro B hB
            simp only [Option.some.injEq] at hB
            subst hB
            refine ⟨fun i j => abs_nonneg _, ?_⟩
            intro j hj hz
            apply e5 j (by omega)
            intro k hk
            by_cases hS : S k
            · exact .inl (abs_eq_zero.1 (hz k hS))
            · exact .inr (hn rfl k (by omega) hS)
        | some A0 =>
          simp only [complexityMatrix] at hA
          obtain ⟨hA0, hagree⟩ := hs A0 rfl
          have := ih (some _) p p' o o' ?_ (by simp) (by rw [e1, e2]) ho ho' A hA
          · rw [hlast] at this; exact this
          · intro B hB
            simp only [Option.some.injEq] at hB
            subst hB
            refine ⟨fun i j => absDot_nonneg A0 l hA0 i j, ?_⟩
            intro j hj hz
            apply e5 j (by omega)
            intro k hk
            by_cases hw : l.at (k + 1) j = 0
            · exact .inl hw
            · refine .inr (hagree k (by omega) ?_)
              intro i hi
              have h0 := hz i hi
              unfold absDot at h0
              have := sum_zero_mem (by
                intro x hx
                obtain ⟨q, -, rfl⟩ := List.mem_map.1 hx
                exact mul_nonneg (hA0 i q) (abs_nonneg _)) h0 (A0 i k * |l.at (k + 1) j|) (List.mem_map.2 ⟨k, by simpa using hk, rfl⟩)
              rcases mul_eq_zero.1 this with h | h
              · exact h
              · exact absurd (abs_eq_zero.1 h) hw

theorem ext_getD {f f' : List K} (hl : f.length = f'.length) (h : ∀ j, j < f.length → f.getD j 0 = f'.getD j 0) : f = f' := by
  apply List.ext_getElem hl
  intro j h1 h2
  have := h j h1
  simpa [List.getD_eq_getElem?_getD, List.getElem?_eq_getElem h1, List.getElem?_eq_getElem h2] using this

/-- One subnet of zero complexity has a constant output. -/
theorem subnet_constant (act : K → K) (ls : List (Layer K)) (hls : ls ≠ []) (f f' : List K) (hl : f.length = f'.length)
    (hz : subnetComplexity f.length ls = 0) (o o' : List K) (ho : subnetOut act ls f = .ok o) (ho' : subnetOut act ls f' = .ok o') : o = o' := by
  unfold subnetComplexity at hz
  split at hz
  · rename_i hA
    exact absurd hz one_ne_zero
  · rename_i A hA
    have hnn := complexityMatrix_nonneg ls none (by simp) A hA
    obtain ⟨h1, h2, h3⟩ := subnetOut_agree act (fun i => i < f.length) ls none f f' o o' (by simp) (fun _ k hk hn => absurd hk hn) hl ho ho' A hA
    apply ext_getD h1
    intro j hj
    apply h3 j hj
    intro i hi
    have hcols : (ls.getLast?.map (fun l => l.cols)).getD 0 = o.length := by
      rw [h2]
      rw [List.getLast?_eq_getLast_of_ne_nil hls]
      rfl
    rw [hcols] at hz
    have hi' := sum_zero_mem (by
      intro x hx
      obtain ⟨q, -, rfl⟩ := List.mem_map.1 hx
      apply List.sum_nonneg
      intro y hy
      obtain ⟨q', -, rfl⟩ := List.mem_map.1 hy
      exact hnn q q') hz _ (List.mem_map.2 ⟨i, by simpa using hi, rfl⟩)
    exact sum_zero_mem (by
      intro y hy
      obtain ⟨q', -, rfl⟩ := List.mem_map.1 hy
      exact hnn i q') hi' _ (List.mem_map.2 ⟨j, by simpa using hj, rfl⟩)

/-- C69. A network of complexity zero is constant: its output is the same for all samples, whatever the activation function. -/
theorem c69_zero_complexity_is_constant (act : K → K) (x x' : List K) (n : DNet K) : ∀ (subs : List (List Nat)), FitsSubsets subs n →
    (∀ ls ∈ n, ls ≠ []) → (∀ s ∈ subs, ∀ v ∈ s, v < x.length ∧ v < x'.length) → dnComplexity subs n = 0 →
    feedForward act x subs n = feedForward act x' subs n := by
  induction n with
  | nil => intro subs _ _ _ _; simp [feedForward]
  | cons net nets ih =>
    intro subs hf hne hx hz
    cases subs with
    | nil => exact absurd hf.1 (by simp)
    | cons sub subs =>
      obtain ⟨hc, hf'⟩ := fits_cons hf
      have hz' : subnetComplexity sub.length net + dnComplexity subs nets = 0 := by
        simpa [dnComplexity] using hz
      have n1 := subnetComplexity_nonneg sub.length net
      have n2 := c69_complexity_nonneg subs nets
      have z1 : subnetComplexity sub.length net = 0 := by linarith
      have z2 : dnComplexity subs nets = 0 := by linarith
      obtain ⟨f, hfe⟩ := takeRows_total x sub (fun v hv => (hx sub (by simp) v hv).1)
      obtain ⟨f', hfe'⟩ := takeRows_total x' sub (fun v hv => (hx sub (by simp) v hv).2)
      have l1 := (takeRows_spec x sub f hfe).1
      have l2 := (takeRows_spec x' sub f' hfe').1
      obtain ⟨o, ho, -⟩ := subnetOut_total act net f (by rw [l1]; exact hc)
      obtain ⟨o', ho', -⟩ := subnetOut_total act net f' (by rw [l2]; exact hc)
      have he := subnet_constant act net (hne net (by simp)) f f' (by rw [l1, l2]) (by rw [l1]; exact z1) o o' ho ho'
      subst he
      have hrest := ih subs hf' (fun ls hls => hne ls (by simp [hls])) (fun s hs => hx s (by simp [hs])) z2
      simp only [feedForward, hfe, hfe', ho, ho', hrest]

/-- C69. The matrix whose entries are summed says which inputs a subnet uses: if its entries for input `i` are zero for every output node,
the subnet's output does not depend on input `i`. -/
theorem c69_zero_row_is_unused (act : K → K) (ls : List (Layer K)) (A : Nat → Nat → K) (hA : complexityMatrix ls none = some A) (i : Nat)
    (hz : ∀ j, A i j = 0) (f : List K) (v : K) (hc : Chain f.length ls) : subnetOut act ls f = subnetOut act ls (f.set i v) := by
  obtain ⟨o, ho, -⟩ := subnetOut_total act ls f hc
  obtain ⟨o', ho', -⟩ := subnetOut_total act ls (f.set i v) (by simpa using hc)
  obtain ⟨h1, -, h3⟩ := subnetOut_agree act (fun k => k = i) ls none f (f.set i v) o o' (by simp) (by
    intro _ k hk hki
    rw [List.getD_eq_getElem?_getD, List.getD_eq_getElem?_getD, List.getElem?_set_ne (by omega)]) (by simp) ho ho' A hA
  rw [ho, ho']
  congr 1
  apply ext_getD h1
  intro j hj
  exact h3 j hj (fun k hk => by subst hk; exact hz j)

/-- C69. `fit` selects a network with the least training error (contrast C66); any other criterion raises. -/
theorem c69_selects_least_error (errors : List K) :
    (errors ≠ [] → ∃ k e, dnSelect true errors = .ok k ∧ errors[k]? = some e ∧ ∀ x ∈ errors, e ≤ x) ∧ dnSelect false errors = .error .modelError := by
  refine ⟨?_, rfl⟩
  intro h
  obtain ⟨k, hk⟩ := argminL_total errors h
  obtain ⟨e, he, hle, -⟩ := argminL_spec errors k hk
  refine ⟨k, e, by simp [dnSelect, hk], he, ?_⟩
  intro x hx
  obtain ⟨j, hj⟩ := List.mem_iff_getElem?.1 hx
  exact hle j x hj

/-- A design meeting the hypotheses: two subnets of at most two layers, two networks; breeding it, and evaluating it. -/
def demoRand : DNRand Int := ⟨fun i j => i + j, fun _ _ _ => 0, fun i j k l => i + j + k + l, fun _ _ _ l => l = 0⟩

example : (dnCreate demoRand 2 2 3 2 [[0], [1, 2]]).toOption.map (fun P => P.map shape) =
    some [[[(2, 2)], [(3, 2), (3, 2)]], [[(2, 2), (3, 2)], [(3, 2)]]] := by decide +kernel

/-- A network of zero complexity that satisfies the hypotheses. -/
example : dnComplexity [[0]] ([[⟨2, 2, [1, 1, 0, 0]⟩]] : DNet Int) = 0 ∧ FitsSubsets [[0]] ([[⟨2, 2, [1, 1, 0, 0]⟩]] : DNet Int) := by
  refine ⟨by decide +kernel, by simp, ?_⟩
  intro i sub ls h1 h2
  cases i with
  | zero => simp at h1 h2; subst h1; subst h2; simp [Chain]
  | succ i => simp at h1

end complexity

end Verif.Props
