import Verif.Proofs.BioGP

/-!
# C50: growing and enumerating expression trees; C57: crossover; C58: mutation; C59: pruning
-/

namespace Verif.Props
open Verif Verif.Spec

variable {G T : Type}

/-! ## C50 -/

theorem ind_depth {v : NVal G T} {ts : List (Node G T)} {h : Nat} (hh : 0 < h) (hr : ∀ s ∈ ts, DepthLE s (h - 1)) : DepthLE (.mk v ts) h := by
  obtain ⟨k, rfl⟩ : ∃ k, h = k + 1 := ⟨h - 1, by omega⟩
  exact depthLE_mk hr

/-- C50: an individual made by the grow or the full method to depth `md` is a linear node over exactly `max_subtrees` expressions (every
function node has its arity of children, terminals have none, all from the given sets) and no deeper than `md` (than 1, if `md` is 0). -/
theorem c50_new_individual (c : GPCfg G T) (full : Bool) (md : Nat) (r : GrowRand) (t : Node G T) (h : newInd c full md r = .ok t) :
    IsInd c t ∧ DepthLE t (max md 1) := by
  unfold newInd at h
  cases hf : fillRoots c full md r [] with
  | error e => rw [hf] at h; simp at h
  | ok ts =>
    rw [hf] at h
    injection h with h
    subst h
    obtain ⟨new, rfl, h2, h3⟩ := fillRoots_spec c full md r [] ts hf
    refine ⟨⟨rfl, by simpa [Node.roots] using h2, ?_⟩, ind_depth (by omega) ?_⟩
    · intro s hs
      obtain ⟨p, hp⟩ := h3 s (by simpa [Node.roots] using hs)
      exact (growAt_spec c full r _ p s hp).1
    · intro s hs
      obtain ⟨p, hp⟩ := h3 s (by simpa using hs)
      exact (growAt_spec c full r _ p s hp).2.1.mono (by omega)

/-- C50: growing never raises when both sets are non-empty. -/
theorem c50_new_individual_total (c : GPCfg G T) (full : Bool) (md : Nat) (r : GrowRand) (ht : c.terms ≠ []) (hf : c.fns ≠ []) :
    ∃ t, newInd c full md r = .ok t := by
  obtain ⟨ts, hts⟩ := fillRoots_total c full md r [] ht hf
  unfold newInd
  rw [hts]
  exact ⟨_, rfl⟩

/-- C50: with the full method (functions of positive arity) every terminal is at depth exactly `md` (1, if `md` is 0). -/
theorem c50_full (c : GPCfg G T) (md : Nat) (r : GrowRand) (t : Node G T) (h : newInd c true md r = .ok t)
    (ha : ∀ g ∈ c.fns, 0 < c.arity g) (p : List Nat) (s : Node G T) (x : T) (hp : t.at? p = some s) (hx : s.value = .term x) :
    p.length = max md 1 := by
  unfold newInd at h
  cases hf : fillRoots c true md r [] with
  | error e => rw [hf] at h; simp at h
  | ok ts =>
    rw [hf] at h
    injection h with h
    subst h
    obtain ⟨new, h1, h2, h3⟩ := fillRoots_spec c true md r [] ts hf
    rw [List.nil_append] at h1
    subst h1
    cases p with
    | nil =>
      rw [at?_nil] at hp
      injection hp with hp
      rw [← hp] at hx
      simp [Node.value] at hx
    | cons i p =>
      rw [at?_cons] at hp
      cases hc : (Node.mk (NVal.linear : NVal G T) ts).roots[i]? with
      | none => rw [hc] at hp; simp at hp
      | some d =>
        rw [hc, Option.bind_some] at hp
        obtain ⟨q, hq⟩ := h3 d (by simpa [Node.roots] using List.mem_of_getElem? hc)
        have := (growAt_spec c true r _ q d hq).2.2 rfl ha p s x hp hx
        simp only [List.length_cons]
        omega

/-- C50: a tree asked to have depth 0 has depth 1 (if it has subtrees at all): the bound of the documentation is missed by one. -/
theorem c50_depth_zero (c : GPCfg G T) (full : Bool) (r : GrowRand) (t : Node G T) (h : newInd c full 0 r = .ok t)
    (hm : 0 < c.maxSubtrees) : totalDepth t = 1 := by
  obtain ⟨h1, h2⟩ := c50_new_individual c full 0 r t h
  have hle := totalDepth_le h2
  have hge : 1 ≤ totalDepth t := by
    have hr : 0 < t.roots.length := by rw [h1.count]; exact hm
    have := (totalDepth_spec t).1 [0] t.roots[0] (by rw [at?_cons, List.getElem?_eq_getElem hr, Option.bind_some, at?_nil])
    simpa using this
  simp only [Nat.zero_le, max_eq_right] at hle
  omega

/-- C50: `get_sub_nodes` visits every node exactly once, level by level; `nodes_at_depth` and `total_depth` are right. -/
theorem c50_nodes (t : Node G T) :
    (∀ (p : List Nat) (s : Node G T), (p, s) ∈ subNodes t ↔ t.at? p = some s) ∧
    ((subNodes t).map (fun q => q.1)).Nodup ∧
    (subNodes t).Pairwise (fun x y => x.1.length ≤ y.1.length) ∧
    (∀ (d : Nat) (p : List Nat) (s : Node G T), (p, s) ∈ nodesAtDepth t d ↔ t.at? p = some s ∧ p.length = d) ∧
    DepthLE t (totalDepth t) ∧ ∃ p s, t.at? p = some s ∧ p.length = totalDepth t := by
  refine ⟨mem_subNodes t, subNodes_nodup t, ?_, mem_nodesAtDepth t, (totalDepth_spec t).1, (totalDepth_spec t).2⟩
  refine (bfs_sorted t.count [([], t)] (by simp) ?_).1
  intro x y hx hy
  simp only [List.head?_cons, Option.some.injEq] at hx
  rw [List.mem_singleton] at hy
  rw [← hx, hy]
  simp

theorem replicate_flatMap_length {α : Type} (l : List Nat) (f : Nat → List α) (k : Nat) (h : ∀ a ∈ l, (f a).length = k) :
    (l.flatMap f).length = l.length * k := by
  induction l with
  | nil => simp
  | cons a l ih =>
    rw [List.flatMap_cons, List.length_append, h a (by simp), ih (fun b hb => h b (by simp [hb])), List.length_cons, Nat.add_mul]
    omega

/-- C50: no individual of the initial population is asked to be deeper than `max_depth`; the grow and full designs have exactly
`pop_size` individuals, the ramped one has twice `pop_size // (max_depth + 1)` for each depth from half the maximum to the maximum. -/
theorem c50_designs (popSize maxDepth : Nat) :
    (∀ (m : String) (d : Bool × Nat), d ∈ designs m popSize maxDepth → d.2 ≤ maxDepth) ∧
    designs "grow" popSize maxDepth = List.replicate popSize (false, maxDepth) ∧
    designs "full" popSize maxDepth = List.replicate popSize (true, maxDepth) ∧
    (designs "ramped_half_and_half" popSize maxDepth).length =
      (maxDepth + 1 - (maxDepth + 1) / 2) * (2 * (popSize / (maxDepth + 1))) := by
  refine ⟨?_, rfl, rfl, ?_⟩
  · intro m d hd
    unfold designs at hd
    split at hd
    · obtain ⟨md, h1, h2⟩ := List.mem_flatMap.1 hd
      rw [List.mem_range'_1] at h1
      have : d.2 = md := by
        rcases List.mem_append.1 h2 with h2 | h2
        · rw [(List.mem_replicate.1 h2).2]
        · rw [(List.mem_replicate.1 h2).2]
      omega
    · split at hd
      · rw [(List.mem_replicate.1 hd).2]
      · split at hd
        · rw [(List.mem_replicate.1 hd).2]
        · simp at hd
  · unfold designs
    rw [if_pos rfl]
    rw [replicate_flatMap_length _ _ (2 * (popSize / (maxDepth + 1)))]
    · rw [List.length_range']
    · intro a _
      rw [List.length_append, List.length_replicate, List.length_replicate]
      omega

/-- C50: for an odd `max_depth` the ramped design has at most `pop_size` individuals, and exactly that many if `max_depth + 1` divides it; for
an even `max_depth` and such a `pop_size` it has more: `pop_size + pop_size / (max_depth + 1)`. -/
theorem c50_ramped_size (k q : Nat) :
    (∀ popSize, (designs "ramped_half_and_half" popSize (2 * k + 1)).length ≤ popSize) ∧
    (designs "ramped_half_and_half" (q * (2 * k + 2)) (2 * k + 1)).length = q * (2 * k + 2) ∧
    (designs "ramped_half_and_half" (q * (2 * k + 1)) (2 * k)).length = q * (2 * k + 1) + q := by
  have e1 : 2 * k + 1 + 1 - (2 * k + 1 + 1) / 2 = k + 1 := by omega
  have e2 : 2 * k + 1 - (2 * k + 1) / 2 = k + 1 := by omega
  refine ⟨?_, ?_, ?_⟩
  · intro popSize
    rw [(c50_designs popSize (2 * k + 1)).2.2.2, e1]
    have := Nat.div_mul_le_self popSize (2 * k + 1 + 1)
    calc (k + 1) * (2 * (popSize / (2 * k + 1 + 1))) = popSize / (2 * k + 1 + 1) * (2 * k + 1 + 1) := by
          rw [show 2 * k + 1 + 1 = (k + 1) * 2 by omega, ← Nat.mul_assoc, Nat.mul_comm (popSize / ((k + 1) * 2))]
      _ ≤ popSize := this
  · rw [(c50_designs _ (2 * k + 1)).2.2.2, e1, Nat.mul_div_cancel _ (by omega : 0 < 2 * k + 1 + 1)]
    rw [show 2 * k + 2 = (k + 1) * 2 by omega, ← Nat.mul_assoc, Nat.mul_comm q]
  · rw [(c50_designs _ (2 * k)).2.2.2, e2, Nat.mul_div_cancel _ (by omega : 0 < 2 * k + 1)]
    have : q * (2 * k + 1) + q = (k + 1) * 2 * q := by
      rw [← Nat.mul_succ, show (2 * k + 1).succ = (k + 1) * 2 by omega, Nat.mul_comm]
    rw [this, Nat.mul_assoc]

/-! ## C57: crossover -/

/-- putting an expression below the root of an individual gives an individual -/
theorem _root_.Verif.Spec.IsInd.put {c : GPCfg G T} {t s : Node G T} (h : IsInd c t) (hs : IsExpr c s) {p : List Nat} (hp : p ≠ []) : IsInd c (t.put p s) := by
  cases p with
  | nil => exact absurd rfl hp
  | cons i p =>
    rw [put_cons]
    refine ⟨h.root, by simpa [Node.roots] using h.count, ?_⟩
    intro x hx
    rw [roots_mk] at hx
    obtain ⟨j, hj⟩ := List.getElem?_of_mem hx
    rw [List.getElem?_modify] at hj
    cases hc : t.roots[j]? with
    | none => rw [hc] at hj; simp at hj
    | some d =>
      rw [hc] at hj
      have hd := h.exprs d (List.mem_of_getElem? hc)
      by_cases hij : i = j
      · simp only [hij, if_true, Option.map_eq_map, Option.map_some, Option.some.injEq] at hj
        rw [← hj]
        exact hd.put hs p
      · simp only [hij, if_false, Option.map_eq_map, Option.map_some, Option.some.injEq] at hj
        rw [← hj]
        exact hd

/-- what stands below the root of an individual is an expression -/
theorem _root_.Verif.Spec.IsInd.sub {c : GPCfg G T} {t s : Node G T} (h : IsInd c t) {p : List Nat} (hp : p ≠ []) (hs : t.at? p = some s) : IsExpr c s := by
  cases p with
  | nil => exact absurd rfl hp
  | cons i p =>
    rw [at?_cons] at hs
    cases hc : t.roots[i]? with
    | none => rw [hc] at hs; simp at hs
    | some d =>
      rw [hc, Option.bind_some] at hs
      exact (h.exprs d (List.mem_of_getElem? hc)).sub hs

/-- `t'` is `t` with the subtree `s` grafted at position `p`. -/
structure Grafted (t t' : Node G T) (p : List Nat) (s : Node G T) : Prop where
  below : ∀ q, t'.at? (p ++ q) = s.at? q
  apart : ∀ (q : List Nat) (u : Node G T), ¬ p <+: q → ¬ q <+: p → (t'.at? q = some u ↔ t.at? q = some u)
  above : ∀ (q : List Nat) (u : Node G T), q <+: p → q ≠ p → t'.at? q = some u →
    ∃ u0, t.at? q = some u0 ∧ u.value = u0.value ∧ u.roots.length = u0.roots.length

theorem grafted_put {t s u : Node G T} {p : List Nat} (h : t.at? p = some u) : Grafted t (t.put p s) p s := by
  refine ⟨fun q => put_at p t s u q h, ?_, ?_⟩
  · intro q u h1 h2
    constructor
    · intro hu
      rcases put_cases p t s q u hu with ⟨q', rfl, -⟩ | ⟨-, u0, a1, -, -, a4⟩
      · exact absurd (List.prefix_append p q') h1
      · rw [a4 h2]
        exact a1
    · intro hu
      exact put_other p t s u q hu h1 h2
  · intro q u h1 h2 hu
    rcases put_cases p t s q u hu with ⟨q', rfl, -⟩ | ⟨-, u0, a1, a2, a3, -⟩
    · refine absurd (List.IsPrefix.eq_of_length h1 ?_) h2
      have := h1.length_le
      rw [List.length_append] at this ⊢
      omega
    · exact ⟨u0, a1, a2, a3⟩

/-- C57: standard crossover exchanges two subtrees (any but the whole individuals): each offspring is its parent with a subtree of the
other parent grafted in, and both are proper individuals again. -/
theorem c57_standard (c : GPCfg G T) (t1 t2 o1 o2 : Node G T) (h1 : IsInd c t1) (h2 : IsInd c t2) (d1 d2 : Nat)
    (h : standardXover t1 t2 d1 d2 = .ok (o1, o2)) :
    ∃ (p1 p2 : List Nat) (s1 s2 : Node G T), p1 ≠ [] ∧ p2 ≠ [] ∧ t1.at? p1 = some s1 ∧ t2.at? p2 = some s2 ∧
      Grafted t1 o1 p1 s2 ∧ Grafted t2 o2 p2 s1 ∧ IsInd c o1 ∧ IsInd c o2 := by
  unfold standardXover at h
  split at h
  · rename_i q1 q2 e1 e2
    have m1 := (mem_subNodes_tail t1 q1.1 q1.2).1 (pick_ok e1)
    have m2 := (mem_subNodes_tail t2 q2.1 q2.2).1 (pick_ok e2)
    simp only [swapTrees, Except.ok.injEq, Prod.mk.injEq] at h
    obtain ⟨rfl, rfl⟩ := h
    exact ⟨q1.1, q2.1, q1.2, q2.2, m1.2, m2.2, m1.1, m2.1, grafted_put m1.1, grafted_put m2.1,
      h1.put (h2.sub m2.2 m2.1) m1.2, h2.put (h1.sub m1.2 m1.1) m2.2⟩
  · simp at h

theorem tail_ne_nil {c : GPCfg G T} {t : Node G T} (h : IsInd c t) (hm : 0 < c.maxSubtrees) : (subNodes t).tail ≠ [] := by
  intro hnil
  have hr : 0 < t.roots.length := by rw [h.count]; exact hm
  have := (mem_subNodes_tail t [0] t.roots[0]).2 ⟨by rw [at?_cons, List.getElem?_eq_getElem hr, Option.bind_some, at?_nil], by simp⟩
  rw [hnil] at this
  simp at this

/-- C57: crossover of individuals with subtrees never raises. -/
theorem c57_total (c : GPCfg G T) (t1 t2 : Node G T) (h1 : IsInd c t1) (h2 : IsInd c t2) (hm : 0 < c.maxSubtrees) (k : XKind) (d1 d2 : Nat) :
    ∃ o, xoverPair k t1 t2 d1 d2 = .ok o := by
  cases k with
  | none => exact ⟨_, rfl⟩
  | standard =>
    obtain ⟨q1, e1⟩ := pick_total (tail_ne_nil h1 hm) d1
    obtain ⟨q2, e2⟩ := pick_total (tail_ne_nil h2 hm) d2
    simp only [xoverPair, standardXover, e1, e2]
    exact ⟨_, rfl⟩
  | fair =>
    obtain ⟨q1, e1⟩ := pick_total (node_at_depth t1 (min (totalDepth t1) (totalDepth t2)) (by omega)) d1
    obtain ⟨q2, e2⟩ := pick_total (node_at_depth t2 (min (totalDepth t1) (totalDepth t2)) (by omega)) d2
    simp only [xoverPair, heightFair, e1, e2]
    exact ⟨_, rfl⟩

theorem totalDepth_pos {c : GPCfg G T} {t : Node G T} (h : IsInd c t) (hm : 0 < c.maxSubtrees) : 0 < totalDepth t := by
  have hr : 0 < t.roots.length := by rw [h.count]; exact hm
  have := (totalDepth_spec t).1 [0] t.roots[0] (by rw [at?_cons, List.getElem?_eq_getElem hr, Option.bind_some, at?_nil])
  simp only [List.length_cons, List.length_nil] at this
  omega

/-- C57: height-fair crossover exchanges two subtrees of equal depth, gives proper individuals, and neither offspring is deeper than the
deeper parent. -/
theorem c57_height_fair (c : GPCfg G T) (t1 t2 o1 o2 : Node G T) (h1 : IsInd c t1) (h2 : IsInd c t2) (hm : 0 < c.maxSubtrees) (d1 d2 : Nat)
    (h : heightFair t1 t2 d1 d2 = .ok (o1, o2)) :
    (∃ (p1 p2 : List Nat) (s1 s2 : Node G T), p1.length = min (totalDepth t1) (totalDepth t2) ∧ p2.length = p1.length ∧
      t1.at? p1 = some s1 ∧ t2.at? p2 = some s2 ∧ Grafted t1 o1 p1 s2 ∧ Grafted t2 o2 p2 s1) ∧
    IsInd c o1 ∧ IsInd c o2 ∧
    totalDepth o1 ≤ max (totalDepth t1) (totalDepth t2) ∧ totalDepth o2 ≤ max (totalDepth t1) (totalDepth t2) := by
  unfold heightFair at h
  dsimp only at h
  split at h
  · rename_i q1 q2 e1 e2
    have m1 := (mem_nodesAtDepth t1 _ q1.1 q1.2).1 (pick_ok e1)
    have m2 := (mem_nodesAtDepth t2 _ q2.1 q2.2).1 (pick_ok e2)
    simp only [swapTrees, Except.ok.injEq, Prod.mk.injEq] at h
    obtain ⟨rfl, rfl⟩ := h
    have hd1 := totalDepth_pos h1 hm
    have hd2 := totalDepth_pos h2 hm
    have n1 : q1.1 ≠ [] := by
      intro h
      rw [h] at m1
      have := m1.2
      simp only [List.length_nil] at this
      omega
    have n2 : q2.1 ≠ [] := by
      intro h
      rw [h] at m2
      have := m2.2
      simp only [List.length_nil] at this
      omega
    refine ⟨⟨q1.1, q2.1, q1.2, q2.2, m1.2, m2.2.trans m1.2.symm, m1.1, m2.1, grafted_put m1.1, grafted_put m2.1⟩,
      h1.put (h2.sub n2 m2.1) n1, h2.put (h1.sub n1 m1.1) n2, ?_, ?_⟩
    · refine totalDepth_le (((totalDepth_spec t1).1.put ((totalDepth_spec t2).1.sub m2.1) q1.1).mono ?_)
      rw [m1.2, m2.2]
      omega
    · refine totalDepth_le (((totalDepth_spec t2).1.put ((totalDepth_spec t1).1.sub m1.1) q2.1).mono ?_)
      rw [m1.2, m2.2]
      omega
  · simp at h

/-- C57: the depth of an offspring of standard crossover is bounded only by the sum of the parents' depths (less one). -/
theorem c57_standard_depth (t1 t2 o1 o2 : Node G T) (d1 d2 : Nat) (h : standardXover t1 t2 d1 d2 = .ok (o1, o2)) :
    totalDepth o1 ≤ totalDepth t1 + totalDepth t2 - 1 ∧ totalDepth o2 ≤ totalDepth t1 + totalDepth t2 - 1 := by
  unfold standardXover at h
  split at h
  · rename_i q1 q2 e1 e2
    have m1 := (mem_subNodes_tail t1 q1.1 q1.2).1 (pick_ok e1)
    have m2 := (mem_subNodes_tail t2 q2.1 q2.2).1 (pick_ok e2)
    simp only [swapTrees, Except.ok.injEq, Prod.mk.injEq] at h
    obtain ⟨rfl, rfl⟩ := h
    have l1 := (totalDepth_spec t1).1 q1.1 q1.2 m1.1
    have l2 := (totalDepth_spec t2).1 q2.1 q2.2 m2.1
    have k1 := List.length_pos_iff.2 m1.2
    have k2 := List.length_pos_iff.2 m2.2
    constructor
    · refine totalDepth_le (((totalDepth_spec t1).1.put ((totalDepth_spec t2).1.sub m2.1) q1.1).mono ?_)
      omega
    · refine totalDepth_le (((totalDepth_spec t2).1.put ((totalDepth_spec t1).1.sub m1.1) q2.1).mono ?_)
      omega
  · simp at h

/-- count after grafting -/
theorem count_put (p : List Nat) : ∀ (t s u : Node G T), t.at? p = some u → (t.put p s).count + u.count = t.count + s.count := by
  induction p with
  | nil =>
    intro t s u h
    rw [at?_nil] at h
    injection h with h
    rw [put_nil, h]
    omega
  | cons i p ih =>
    intro t s u h
    rw [at?_cons] at h
    cases hc : t.roots[i]? with
    | none => rw [hc] at h; simp at h
    | some d =>
      rw [hc, Option.bind_some] at h
      have hi := ih d s u h
      rw [put_cons, count_eq, count_eq t, roots_mk]
      have key : ∀ (l : List (Node G T)) (i : Nat), l[i]? = some d →
          Node.countL (l.modify i (fun c => c.put p s)) + d.count = Node.countL l + (d.put p s).count := by
        intro l
        induction l with
        | nil => intro i h; simp at h
        | cons a l ihl =>
          intro i h
          cases i with
          | zero =>
            simp only [List.getElem?_cons_zero, Option.some.injEq] at h
            subst h
            simp only [List.modify_zero_cons, Node.countL]
            omega
          | succ i =>
            simp only [List.getElem?_cons_succ] at h
            have := ihl i h
            simp only [List.modify_succ_cons, Node.countL]
            omega
      have := key t.roots i hc
      omega

theorem bfs_length (n : Nat) : ∀ (Q : List (QNode G T)), Node.countL (Q.map (fun q => q.2)) ≤ n →
    (bfs n Q).length = Node.countL (Q.map (fun q => q.2)) := by
  induction n with
  | zero =>
    intro Q hQ
    simp only [bfs, List.length_nil]
    omega
  | succ n ih =>
    intro Q hQ
    cases Q with
    | nil => simp [bfs, Node.countL]
    | cons q qs =>
      have he : Node.countL ((qs ++ pushes q).map (fun q => q.2)) + 1 = Node.countL ((q :: qs).map (fun q => q.2)) := by
        rw [List.map_append, countL_append, pushes_snd]
        simp only [List.map_cons, Node.countL, count_eq]
        omega
      simp only [bfs, List.length_cons]
      rw [ih _ (by omega)]
      omega

theorem subNodes_length (t : Node G T) : (subNodes t).length = t.count := by
  unfold subNodes
  rw [bfs_length _ _ (le_of_eq (countL_single t)), countL_single]

/-- C57: crossover neither loses nor creates nodes: the offspring have together as many nodes as the parents. -/
theorem c57_nodes_conserved (k : XKind) (t1 t2 o1 o2 : Node G T) (d1 d2 : Nat) (h : xoverPair k t1 t2 d1 d2 = .ok (o1, o2)) :
    (subNodes o1).length + (subNodes o2).length = (subNodes t1).length + (subNodes t2).length := by
  simp only [subNodes_length]
  have key : ∀ q1 q2 : QNode G T, t1.at? q1.1 = some q1.2 → t2.at? q2.1 = some q2.2 →
      (t1.put q1.1 q2.2).count + (t2.put q2.1 q1.2).count = t1.count + t2.count := by
    intro q1 q2 m1 m2
    have a1 := count_put q1.1 t1 q2.2 q1.2 m1
    have a2 := count_put q2.1 t2 q1.2 q2.2 m2
    omega
  cases k with
  | none =>
    simp only [xoverPair, Except.ok.injEq, Prod.mk.injEq] at h
    obtain ⟨rfl, rfl⟩ := h
    rfl
  | standard =>
    simp only [xoverPair, standardXover] at h
    split at h
    · rename_i q1 q2 e1 e2
      simp only [swapTrees, Except.ok.injEq, Prod.mk.injEq] at h
      obtain ⟨rfl, rfl⟩ := h
      exact key q1 q2 ((mem_subNodes_tail t1 q1.1 q1.2).1 (pick_ok e1)).1 ((mem_subNodes_tail t2 q2.1 q2.2).1 (pick_ok e2)).1
    · simp at h
  | fair =>
    simp only [xoverPair, heightFair] at h
    split at h
    · rename_i q1 q2 e1 e2
      simp only [swapTrees, Except.ok.injEq, Prod.mk.injEq] at h
      obtain ⟨rfl, rfl⟩ := h
      exact key q1 q2 ((mem_nodesAtDepth t1 _ q1.1 q1.2).1 (pick_ok e1)).1 ((mem_nodesAtDepth t2 _ q2.1 q2.2).1 (pick_ok e2)).1
    · simp at h

/-- C57: with one-dimensional mating ids (or none) every pair consists of one individual and itself, and every second id is ignored. -/
theorem c57_self_mating (ids : List Nat) :
    (∀ p ∈ selfPairs ids, p.1 = p.2) ∧ (∀ (i : Nat) (a : Nat), ids[2 * i]? = some a → (a, a) ∈ selfPairs ids) := by
  constructor
  · intro p hp
    unfold selfPairs at hp
    obtain ⟨q, -, rfl⟩ := List.mem_map.1 hp
    rfl
  · intro i a h
    unfold selfPairs
    refine List.mem_map.2 ⟨(a, 2 * i), List.mem_filter.2 ⟨List.mem_zipIdx_iff_getElem?.2 h, by simp⟩, rfl⟩

/-! ## C58: mutation -/

/-- C58: standard mutation replaces one subtree (not the whole individual) by a newly grown expression; the result is a proper
individual, no deeper than the old one or `max_depth`. -/
theorem c58_standard (c : GPCfg G T) (t o : Node G T) (h : IsInd c t) (d : Nat) (r : GrowRand) (ho : standardMut c t d r = .ok o) :
    (∃ p s, p ≠ [] ∧ t.at? p ≠ none ∧ IsExpr c s ∧ Grafted t o p s) ∧ IsInd c o ∧ totalDepth o ≤ max (totalDepth t) c.maxDepth := by
  unfold standardMut at ho
  cases hq : pick (subNodes t).tail d with
  | error e => rw [hq] at ho; simp at ho
  | ok q =>
    rw [hq] at ho
    dsimp only at ho
    have m := (mem_subNodes_tail t q.1 q.2).1 (pick_ok hq)
    cases hg : growAt c false r (c.maxDepth - q.1.length) [] with
    | error e => rw [hg] at ho; simp at ho
    | ok s =>
      rw [hg] at ho
      injection ho with ho
      subst ho
      obtain ⟨g1, g2, -⟩ := growAt_spec c false r _ _ _ hg
      refine ⟨⟨q.1, s, m.2, by rw [m.1]; simp, g1, grafted_put m.1⟩, h.put g1 m.2, ?_⟩
      refine totalDepth_le (((totalDepth_spec t).1.put g2 q.1).mono ?_)
      have := (totalDepth_spec t).1 q.1 q.2 m.1
      omega

theorem pointAtL_get (c : GPCfg G T) (r : PointRand) (p : List Nat) (l : List (Node G T)) : ∀ (k i : Nat),
    (pointAtL c r p k l)[i]? = (l[i]?).map (pointAt c r (p ++ [k + i])) := by
  induction l with
  | nil => intro k i; simp [pointAtL]
  | cons a l ih =>
    intro k i
    cases i with
    | zero => simp [pointAtL]
    | succ i =>
      simp only [pointAtL, List.getElem?_cons_succ]
      rw [ih (k + 1) i, show k + 1 + i = k + (i + 1) by omega]

theorem pointAtL_length (c : GPCfg G T) (r : PointRand) (p : List Nat) (l : List (Node G T)) : ∀ k, (pointAtL c r p k l).length = l.length := by
  induction l with
  | nil => intro k; simp [pointAtL]
  | cons a l ih => intro k; simp [pointAtL, ih]

theorem pointAt_at (c : GPCfg G T) (r : PointRand) (q : List Nat) : ∀ (p : List Nat) (t : Node G T),
    (pointAt c r p t).at? q = (t.at? q).map (pointAt c r (p ++ q)) := by
  induction q with
  | nil => intro p t; rw [at?_nil, at?_nil, List.append_nil]; rfl
  | cons i q ih =>
    intro p t
    rw [at?_cons, at?_cons]
    cases t with
    | mk v rs =>
      simp only [pointAt, roots_mk]
      rw [pointAtL_get]
      cases rs[i]? with
      | none => rfl
      | some d =>
        simp only [Option.map_some, Option.bind_some]
        rw [ih, Nat.zero_add, List.append_assoc]
        rfl

theorem pointMut_at (c : GPCfg G T) (t : Node G T) (r : PointRand) (q : List Nat) (hq : q ≠ []) :
    (pointMut c t r).at? q = (t.at? q).map (pointAt c r q) := by
  cases q with
  | nil => exact absurd rfl hq
  | cons i q =>
    unfold pointMut
    rw [at?_cons, at?_cons, roots_mk, pointAtL_get]
    cases t.roots[i]? with
    | none => rfl
    | some d =>
      simp only [Option.map_some, Option.bind_some]
      rw [pointAt_at]
      simp

/-- C58: small mutation changes no node's number of children and leaves the root alone: the new tree has the same positions. -/
theorem c58_point_shape (c : GPCfg G T) (t : Node G T) (r : PointRand) :
    (pointMut c t r).value = t.value ∧
    ∀ q : List Nat, (((pointMut c t r).at? q).map (fun s => s.roots.length)) = ((t.at? q).map (fun s => s.roots.length)) := by
  refine ⟨rfl, ?_⟩
  intro q
  by_cases hq : q = []
  · subst hq
    rw [at?_nil, at?_nil]
    simp only [Option.map_some, pointMut, roots_mk, pointAtL_length]
  · rw [pointMut_at c t r q hq, Option.map_map]
    congr 1
    funext s
    cases s with
    | mk v rs => simp [pointAt, roots_mk, pointAtL_length]

theorem pointVal_fn (c : GPCfg G T) (r : PointRand) (p : List Nat) (g : G) (hg : g ∈ c.fns) (hf : r.first p = true) :
    ∃ f, pointVal c r p (.fn g) = .fn f ∧ f ∈ c.fns ∧ c.arity f = c.arity g := by
  have hne : c.fns.filter (fun f => c.arity f == c.arity g) ≠ [] := by
    intro h
    have : g ∈ c.fns.filter (fun f => c.arity f == c.arity g) := List.mem_filter.2 ⟨hg, by simp⟩
    rw [h] at this
    simp at this
  obtain ⟨f, hp⟩ := pick_total hne (r.fn p)
  have := List.mem_filter.1 (pick_ok hp)
  refine ⟨f, ?_, this.1, by simpa using this.2⟩
  simp only [pointVal, hf, hp]

/-- C58: small mutation gives a proper individual provided no function node fails its first draw and passes its second one. -/
theorem c58_point_ok (c : GPCfg G T) (t : Node G T) (h : IsInd c t) (r : PointRand)
    (hr : ∀ (p : List Nat) (s : Node G T) (g : G), t.at? p = some s → s.value = .fn g → r.first p = true ∨ r.second p = false) :
    IsInd c (pointMut c t r) := by
  refine ⟨h.root, by simp only [pointMut, roots_mk, pointAtL_length]; exact h.count, ?_⟩
  intro s hs
  rw [isExpr_iff]
  intro p u hu
  obtain ⟨i, hi⟩ := List.getElem?_of_mem hs
  have hat : (pointMut c t r).at? (i :: p) = some u := by rw [at?_cons, hi, Option.bind_some]; exact hu
  rw [pointMut_at c t r _ (by simp), Option.map_eq_some_iff] at hat
  obtain ⟨u0, h0, rfl⟩ := hat
  have hok : okNode c u0 := isExpr_iff.1 (h.sub (by simp) h0) [] u0 (at?_nil u0)
  cases u0 with
  | mk v rs =>
    unfold okNode at hok ⊢
    simp only [pointAt, Node.value, roots_mk] at hok ⊢
    cases v with
    | linear => exact absurd hok id
    | fn g =>
      dsimp only at hok
      rcases hr _ _ g h0 rfl with hf | hf
      · obtain ⟨f, e1, e2, e3⟩ := pointVal_fn c r (i :: p) g hok.1 hf
        rw [e1]
        exact ⟨e2, by rw [pointAtL_length, e3]; exact hok.2⟩
      · by_cases hff : r.first (i :: p) = true
        · obtain ⟨f, e1, e2, e3⟩ := pointVal_fn c r (i :: p) g hok.1 hff
          rw [e1]
          exact ⟨e2, by rw [pointAtL_length, e3]; exact hok.2⟩
        · have : pointVal c r (i :: p) (.fn g) = .fn g := by
            simp only [Bool.not_eq_true] at hff
            simp only [pointVal, hff, hf]
            rfl
          rw [this]
          exact ⟨hok.1, by rw [pointAtL_length]; exact hok.2⟩
    | term x =>
      dsimp only at hok
      obtain ⟨k1, k2⟩ := hok
      subst k2
      have : ∃ y, pointVal c r (i :: p) (.term x) = .term y ∧ y ∈ c.terms := by
        unfold pointVal
        cases r.first (i :: p) <;> cases r.second (i :: p) <;> simp only [if_true] <;>
          first
          | exact ⟨x, rfl, k1⟩
          | (obtain ⟨y, hy⟩ := pick_total (List.ne_nil_of_mem k1) (r.term (i :: p))
             rw [hy]
             exact ⟨y, rfl, pick_ok hy⟩)
      obtain ⟨y, e1, e2⟩ := this
      rw [e1]
      exact ⟨e2, by simp [pointAtL]⟩

/-- C58: a function node that fails the first draw and passes the second becomes a terminal and keeps its children: the result is not a
proper individual. -/
theorem c58_point_breaks (c : GPCfg G T) (t : Node G T) (h : IsInd c t) (r : PointRand) (p : List Nat) (s : Node G T) (g : G)
    (hp : p ≠ []) (hs : t.at? p = some s) (hg : s.value = .fn g) (ha : 0 < c.arity g) (ht : c.terms ≠ [])
    (h1 : r.first p = false) (h2 : r.second p = true) : ¬ IsInd c (pointMut c t r) := by
  intro hi
  have hat := pointMut_at c t r p hp
  rw [hs, Option.map_some] at hat
  have hok := isExpr_iff.1 (hi.sub hp hat) [] _ (at?_nil _)
  have hs0 : okNode c s := isExpr_iff.1 (h.sub hp hs) [] s (at?_nil s)
  cases s with
  | mk v rs =>
    simp only [Node.value] at hg
    subst hg
    unfold okNode at hok hs0
    simp only [pointAt, Node.value, roots_mk] at hok hs0
    obtain ⟨y, hy⟩ := pick_total ht (r.term p)
    have : pointVal c r p (.fn g) = .term y := by
      simp only [pointVal, h1, h2, hy, if_true]
    rw [this] at hok
    have hl := pointAtL_length c r p rs 0
    rw [hok.2, hs0.2] at hl
    simp at hl
    omega

theorem prefix_sub {t s u : Node G T} {p q : List Nat} (h : p <+: q) (hp : t.at? p = some s) (hq : t.at? q = some u) :
    s.at? (q.drop p.length) = some u := by
  obtain ⟨r, rfl⟩ := h
  rw [at?_append, hp, Option.bind_some] at hq
  simpa using hq

/-- C58: mono-parental mutation of two nodes, neither below the other, exchanges their subtrees; if one is below the other, the upper
subtree is replaced by the lower one.  The result is always a proper individual with at most as many nodes (exactly as many in the
first case). -/
theorem c58_mono (c : GPCfg G T) (t o : Node G T) (h : IsInd c t) (d1 d2 : Nat) (ho : monoMut t d1 d2 = .ok o) :
    IsInd c o ∧
    ∃ (p1 p2 : List Nat) (s1 s2 : Node G T), p1 ≠ [] ∧ p2 ≠ [] ∧ p1 ≠ p2 ∧ t.at? p1 = some s1 ∧ t.at? p2 = some s2 ∧
      ((¬ p1 <+: p2 ∧ ¬ p2 <+: p1 ∧ (∀ q, o.at? (p1 ++ q) = s2.at? q) ∧ (∀ q, o.at? (p2 ++ q) = s1.at? q) ∧
          (∃ w, Grafted t w p1 s2 ∧ Grafted w o p2 s1) ∧ (subNodes o).length = (subNodes t).length) ∨
        (p1 <+: p2 ∧ Grafted t o p1 s2 ∧ (subNodes o).length < (subNodes t).length) ∨
        (p2 <+: p1 ∧ Grafted t o p2 s1 ∧ (subNodes o).length < (subNodes t).length)) := by
  unfold monoMut at ho
  dsimp only at ho
  split at ho
  · simp at ho
  · rename_i hlen
    cases e1 : pick (subNodes t).tail d1 with
    | error e => rw [e1] at ho; simp at ho
    | ok q1 =>
      rw [e1] at ho
      dsimp only at ho
      cases e2 : pick ((subNodes t).tail.eraseIdx (d1 % (subNodes t).tail.length)) d2 with
      | error e => rw [e2] at ho; simp at ho
      | ok q2 =>
        rw [e2] at ho
        dsimp only at ho
        have m1 := (mem_subNodes_tail t q1.1 q1.2).1 (pick_ok e1)
        have m2 := (mem_subNodes_tail t q2.1 q2.2).1 (List.mem_of_mem_eraseIdx (pick_ok e2))
        have hne : q1.1 ≠ q2.1 := by
          have hnd : ((subNodes t).tail.map (fun q => q.1)).Nodup := by
            have := subNodes_nodup t
            obtain ⟨l, hl⟩ := subNodes_cons t
            rw [hl] at this ⊢
            rw [List.map_cons, List.nodup_cons] at this
            exact this.2
          intro heq
          have hi : d1 % (subNodes t).tail.length < (subNodes t).tail.length := Nat.mod_lt _ (by omega)
          have g1 : (subNodes t).tail[d1 % (subNodes t).tail.length]? = some q1 := by
            unfold pick at e1
            rw [List.getElem?_eq_getElem hi] at e1 ⊢
            injection e1 with e1
            rw [e1]
          obtain ⟨j, hj⟩ := List.getElem?_of_mem (pick_ok e2)
          rw [List.getElem?_eraseIdx] at hj
          have aux : ∀ (a b : Nat) (x y : QNode G T), (subNodes t).tail[a]? = some x → (subNodes t).tail[b]? = some y → x.1 = y.1 → a = b := by
            intro a b x y ha hb hxy
            have h3 : ((subNodes t).tail.map (fun q => q.1))[a]? = some x.1 := by rw [List.getElem?_map, ha]; rfl
            have h4 : ((subNodes t).tail.map (fun q => q.1))[b]? = some x.1 := by rw [List.getElem?_map, hb, hxy]; rfl
            have h5 := (List.getElem?_inj (List.getElem?_eq_some_iff.1 h3).1 hnd).1 (h3.trans h4.symm)
            exact h5
          split at hj
          · have := aux _ _ _ _ g1 hj heq
            omega
          · have := aux _ _ _ _ g1 hj heq
            omega
        have hx1 : IsExpr c q1.2 := h.sub m1.2 m1.1
        have hx2 : IsExpr c q2.2 := h.sub m2.2 m2.1
        simp only [subNodes_length]
        have hsmall : ∀ (s u : Node G T) (p q : List Nat), p <+: q → p ≠ q → t.at? p = some s → t.at? q = some u → u.count < s.count := by
          intro s u p q hpq hneq hs hu
          have h3 := prefix_sub hpq hs hu
          have hd : q.drop p.length ≠ [] := by
            intro h4
            have : q.length ≤ p.length := List.drop_eq_nil_iff.1 h4
            exact hneq (List.IsPrefix.eq_of_length hpq (by have := hpq.length_le; omega))
          generalize q.drop p.length = w at h3 hd
          -- a strict subtree is smaller
          have key : ∀ (w : List Nat) (s u : Node G T), s.at? w = some u → u.count ≤ s.count ∧ (w ≠ [] → u.count < s.count) := by
            intro w
            induction w with
            | nil =>
              intro s u h
              rw [at?_nil] at h
              injection h with h
              rw [h]
              exact ⟨le_rfl, fun h => absurd rfl h⟩
            | cons i w ih =>
              intro s u h
              rw [at?_cons] at h
              cases hc : s.roots[i]? with
              | none => rw [hc] at h; simp at h
              | some d =>
                rw [hc, Option.bind_some] at h
                have h5 := (ih d u h).1
                have h6 : ∀ l : List (Node G T), d ∈ l → d.count ≤ Node.countL l := by
                  intro l
                  induction l with
                  | nil => intro h; simp at h
                  | cons a l ihl =>
                    intro h
                    simp only [Node.countL]
                    rcases List.mem_cons.1 h with rfl | h
                    · omega
                    · have := ihl h
                      omega
                have h7 := h6 s.roots (List.mem_of_getElem? hc)
                rw [count_eq s]
                exact ⟨by omega, fun _ => by omega⟩
          exact (key w s u h3).2 hd
        split at ho
        · rename_i hpre
          injection ho with ho
          subst ho
          refine ⟨h.put hx2 m1.2, q1.1, q2.1, q1.2, q2.2, m1.2, m2.2, hne, m1.1, m2.1, Or.inr (Or.inl ⟨hpre, grafted_put m1.1, ?_⟩)⟩
          have := count_put q1.1 t q2.2 q1.2 m1.1
          have := hsmall _ _ _ _ hpre hne m1.1 m2.1
          omega
        · rename_i hpre
          split at ho
          · rename_i hpre'
            injection ho with ho
            subst ho
            refine ⟨h.put hx1 m2.2, q1.1, q2.1, q1.2, q2.2, m1.2, m2.2, hne, m1.1, m2.1, Or.inr (Or.inr ⟨hpre', grafted_put m2.1, ?_⟩)⟩
            have := count_put q2.1 t q1.2 q2.2 m2.1
            have := hsmall _ _ _ _ hpre' (Ne.symm hne) m2.1 m1.1
            omega
          · rename_i hpre'
            injection ho with ho
            subst ho
            have m2' : (t.put q1.1 q2.2).at? q2.1 = some q2.2 := put_other q1.1 t q2.2 q2.2 q2.1 m2.1 hpre hpre'
            refine ⟨(h.put hx2 m1.2).put hx1 m2.2, q1.1, q2.1, q1.2, q2.2, m1.2, m2.2, hne, m1.1, m2.1,
              Or.inl ⟨hpre, hpre', ?_, fun q => put_at q2.1 _ q1.2 q2.2 q m2', ⟨_, grafted_put m1.1, grafted_put m2'⟩, ?_⟩⟩
            · intro q
              have hg := grafted_put (s := q1.2) m2'
              have hap := apart_append_left ⟨hpre, hpre'⟩ q
              have e3 : (t.put q1.1 q2.2).at? (q1.1 ++ q) = q2.2.at? q := put_at q1.1 t q2.2 q1.2 q m1.1
              rw [← e3]
              apply Option.ext
              intro u
              exact hg.apart (q1.1 ++ q) u hap.2 hap.1
            · have a1 := count_put q1.1 t q2.2 q1.2 m1.1
              have a2 := count_put q2.1 (t.put q1.1 q2.2) q1.2 q2.2 m2'
              omega

/-- C58: mono-parental mutation raises ValueError on an individual with fewer than two nodes below the root and never otherwise. -/
theorem c58_mono_total (t : Node G T) (d1 d2 : Nat) :
    ((subNodes t).length < 3 → monoMut t d1 d2 = .error .valueError) ∧ (3 ≤ (subNodes t).length → ∃ o, monoMut t d1 d2 = .ok o) := by
  have hl : (subNodes t).tail.length + 1 = (subNodes t).length := by
    obtain ⟨l, hl⟩ := subNodes_cons t
    rw [hl]
    rfl
  constructor
  · intro h
    unfold monoMut
    rw [if_pos (by omega)]
  · intro h
    have n1 : (subNodes t).tail ≠ [] := by
      intro hn
      rw [hn] at hl
      simp at hl
      omega
    obtain ⟨q1, e1⟩ := pick_total n1 d1
    have n2 : (subNodes t).tail.eraseIdx (d1 % (subNodes t).tail.length) ≠ [] := by
      intro hn
      have := congrArg List.length hn
      rw [List.length_eraseIdx_of_lt (Nat.mod_lt _ (by omega))] at this
      simp only [List.length_nil] at this
      omega
    obtain ⟨q2, e2⟩ := pick_total n2 d2
    unfold monoMut
    rw [if_neg (by omega)]
    simp only [e1, e2]
    split
    · exact ⟨_, rfl⟩
    · split <;> exact ⟨_, rfl⟩

/-! ## C59: pruning in `calculate_linear` -/

/-- C59: whatever subtrees are pruned, the individual keeps exactly `max_subtrees` of them, all expressions, and pruning never raises
(one outcome per subtree, non-empty sets). -/
theorem c59_prune (c : GPCfg G T) (ht : c.terms ≠ []) (hf : c.fns ≠ []) (r : Nat → GrowRand) (fs : List Bool) :
    ∀ (i : Nat) (roots : List (Node G T)), roots.length = c.maxSubtrees → i + fs.length ≤ c.maxSubtrees → (∀ s ∈ roots, IsExpr c s) →
      ∃ out, pruneLoop c r i fs roots = .ok out ∧ out.length = c.maxSubtrees ∧ (∀ s ∈ out, IsExpr c s) ∧
        ∀ s ∈ out, s ∈ roots ∨ DepthLE s (c.maxDepth - 1) := by
  induction fs with
  | nil => intro i roots h1 _ h3; exact ⟨roots, rfl, h1, h3, fun s hs => Or.inl hs⟩
  | cons f fs ih =>
    intro i roots h1 h2 h3
    simp only [List.length_cons] at h2
    cases f with
    | false =>
      simp only [pruneLoop]
      exact ih (i + 1) roots h1 (by omega) h3
    | true =>
      simp only [pruneLoop]
      rw [if_neg (by omega)]
      obtain ⟨ts, hts⟩ := fillRoots_total c false c.maxDepth (r i) (roots.eraseIdx i) ht hf
      obtain ⟨new, e1, e2, e3⟩ := fillRoots_spec c false c.maxDepth (r i) (roots.eraseIdx i) ts hts
      have hle : (roots.eraseIdx i).length + 1 = roots.length := by
        rw [List.length_eraseIdx_of_lt (by omega)]
        omega
      rw [hts]
      dsimp only
      obtain ⟨out, a1, a2, a3, a4⟩ := ih (i + 1) ts (by rw [e1, List.length_append, e2]; omega) (by omega) (by
        intro s hs
        rw [e1] at hs
        rcases List.mem_append.1 hs with hs | hs
        · exact h3 s (List.mem_of_mem_eraseIdx hs)
        · obtain ⟨p, hp⟩ := e3 s hs
          exact (growAt_spec c false (r i) _ p s hp).1)
      refine ⟨out, a1, a2, a3, ?_⟩
      intro s hs
      rcases a4 s hs with h | h
      · rw [e1] at h
        rcases List.mem_append.1 h with h | h
        · exact Or.inl (List.mem_of_mem_eraseIdx h)
        · obtain ⟨p, hp⟩ := e3 s h
          exact Or.inr (growAt_spec c false (r i) _ p s hp).2.1
      · exact Or.inr h

/-- C59: with no low ratio nothing changes. -/
theorem c59_none (c : GPCfg G T) (r : Nat → GrowRand) (n : Nat) : ∀ (i : Nat) (roots : List (Node G T)),
    pruneLoop c r i (List.replicate n false) roots = .ok roots := by
  induction n with
  | zero => intro i roots; rfl
  | succ n ih => intro i roots; rw [List.replicate_succ]; exact ih (i + 1) roots

/-- flags before the first low ratio do nothing -/
theorem prune_skip (c : GPCfg G T) (r : Nat → GrowRand) (k : Nat) (fs : List Bool) : ∀ (i : Nat) (roots : List (Node G T)),
    pruneLoop c r i (List.replicate k false ++ fs) roots = pruneLoop c r (i + k) fs roots := by
  induction k with
  | zero => intro i roots; simp
  | succ k ih =>
    intro i roots
    rw [List.replicate_succ, List.cons_append]
    show pruneLoop c r (i + 1) _ roots = _
    rw [ih, show i + 1 + k = i + (k + 1) by omega]

theorem prune_one (c : GPCfg G T) (ht : c.terms ≠ []) (hf : c.fns ≠ []) (r : Nat → GrowRand) (i : Nat) (fs : List Bool)
    (roots : List (Node G T)) (h : roots.length = c.maxSubtrees) (hi : i < roots.length) :
    ∃ new, IsExpr c new ∧ pruneLoop c r i (true :: fs) roots = pruneLoop c r (i + 1) fs (roots.eraseIdx i ++ [new]) := by
  obtain ⟨ts, hts⟩ := fillRoots_total c false c.maxDepth (r i) (roots.eraseIdx i) ht hf
  obtain ⟨new, e1, e2, e3⟩ := fillRoots_spec c false c.maxDepth (r i) (roots.eraseIdx i) ts hts
  have hle : (roots.eraseIdx i).length + 1 = roots.length := by
    rw [List.length_eraseIdx_of_lt (by omega)]
    omega
  obtain ⟨s, rfl⟩ := List.length_eq_one_iff.1 (show new.length = 1 by omega)
  obtain ⟨p, hp⟩ := e3 s (by simp)
  refine ⟨s, (growAt_spec c false (r i) _ p s hp).1, ?_⟩
  simp only [pruneLoop]
  rw [if_neg (by omega), hts]
  dsimp only
  rw [e1]

/-- C59: if exactly one subtree has a low ratio, exactly that one goes and a new one is appended. -/
theorem c59_one (c : GPCfg G T) (ht : c.terms ≠ []) (hf : c.fns ≠ []) (r : Nat → GrowRand) (i n : Nat) (roots : List (Node G T))
    (h : roots.length = c.maxSubtrees) (hi : i < roots.length) :
    ∃ new, IsExpr c new ∧ pruneLoop c r 0 (List.replicate i false ++ true :: List.replicate n false) roots = .ok (roots.eraseIdx i ++ [new]) := by
  obtain ⟨new, h1, h2⟩ := prune_one c ht hf r i (List.replicate n false) roots h hi
  refine ⟨new, h1, ?_⟩
  rw [prune_skip, Nat.zero_add, h2, c59_none]

/-- C59: if two subtrees `i < j` have a low ratio, the second removal hits the wrong subtree: after the first one the list has moved up by
one, so subtree `j` stays (in place `j - 1`), and subtree `j + 1`, if there is one, is removed although its ratio was good. -/
theorem c59_second_removal_wrong (c : GPCfg G T) (ht : c.terms ≠ []) (hf : c.fns ≠ []) (r : Nat → GrowRand) (i k n : Nat)
    (roots : List (Node G T)) (h : roots.length = c.maxSubtrees) (hlen : i + 1 + k + 1 + n = roots.length) :
    ∃ a b, pruneLoop c r 0 (List.replicate i false ++ true :: (List.replicate k false ++ true :: List.replicate n false)) roots =
        .ok ((roots.eraseIdx i ++ [a]).eraseIdx (i + 1 + k) ++ [b]) ∧
      ((roots.eraseIdx i ++ [a]).eraseIdx (i + 1 + k) ++ [b])[i + k]? = roots[i + 1 + k]? ∧
      ((roots.eraseIdx i ++ [a]).eraseIdx (i + 1 + k) ++ [b])[i + 1 + k]? =
        (if n = 0 then some b else if n = 1 then some a else roots[i + 1 + k + 2]?) := by
  obtain ⟨a, h1, h2⟩ := prune_one c ht hf r i (List.replicate k false ++ true :: List.replicate n false) roots h (by omega)
  have hl1 : (roots.eraseIdx i).length + 1 = roots.length := by
    rw [List.length_eraseIdx_of_lt (by omega)]
    omega
  have hl : (roots.eraseIdx i ++ [a]).length = roots.length := by rw [List.length_append]; exact hl1
  obtain ⟨b, h3, h4⟩ := prune_one c ht hf r (i + 1 + k) (List.replicate n false) (roots.eraseIdx i ++ [a]) (by rw [hl]; exact h) (by rw [hl]; omega)
  have hl2 : ((roots.eraseIdx i ++ [a]).eraseIdx (i + 1 + k)).length + 1 = roots.length := by
    rw [List.length_eraseIdx_of_lt (by omega)]
    omega
  refine ⟨a, b, ?_, ?_, ?_⟩
  · rw [prune_skip, Nat.zero_add, h2, prune_skip, h4, c59_none]
  · rw [List.getElem?_append_left (by omega), List.getElem?_eraseIdx, if_pos (by omega), List.getElem?_append_left (by omega),
      List.getElem?_eraseIdx, if_neg (by omega)]
    congr 1
    omega
  · by_cases hn : n = 0
    · rw [if_pos hn, List.getElem?_append_right (by omega)]
      rw [show i + 1 + k - ((roots.eraseIdx i ++ [a]).eraseIdx (i + 1 + k)).length = 0 by omega]
      rfl
    · rw [if_neg hn, List.getElem?_append_left (by omega), List.getElem?_eraseIdx, if_neg (by omega)]
      by_cases hn1 : n = 1
      · rw [if_pos hn1, List.getElem?_append_right (by omega)]
        rw [show i + 1 + k + 1 - (roots.eraseIdx i).length = 0 by omega]
        rfl
      · rw [if_neg hn1, List.getElem?_append_left (by omega), List.getElem?_eraseIdx, if_neg (by omega)]

/-! ## Non-vacuity -/

/-- two functions (`0` unary, `1` binary) and two terminals -/
def demoGP : GPCfg Nat Nat := ⟨[0, 1], [7, 8], fun g => g + 1, 2, 2⟩

/-- A full tree of depth 2: its nodes level by level. -/
example : (match newInd demoGP true 2 ⟨fun _ => false, fun p => p.length, fun p => p.sum⟩ with
    | .ok t => (subNodes t).map (fun q => (q.1, q.2.value))
    | .error _ => []) =
    [([], .linear), ([0], .fn 0), ([1], .fn 1), ([0, 0], .term 7), ([1, 0], .term 7), ([1, 1], .term 7)] := by decide +kernel

/-- The hypotheses of the crossover, mutation and pruning theorems are met by grown individuals. -/
example : ∃ t1 t2, IsInd demoGP t1 ∧ IsInd demoGP t2 ∧ 0 < demoGP.maxSubtrees ∧ demoGP.terms ≠ [] ∧ demoGP.fns ≠ [] := by
  obtain ⟨t1, h1⟩ := c50_new_individual_total demoGP true 2 ⟨fun _ => false, fun p => p.length, fun p => p.sum⟩ (by decide) (by decide)
  obtain ⟨t2, h2⟩ := c50_new_individual_total demoGP false 2 ⟨fun _ => true, fun p => p.length, fun p => p.sum⟩ (by decide) (by decide)
  exact ⟨t1, t2, (c50_new_individual _ _ _ _ _ h1).1, (c50_new_individual _ _ _ _ _ h2).1, by decide, by decide, by decide⟩

/-- an individual of depth 2 -/
def demoTreeInd : Node Nat Nat := .mk .linear [.mk (.fn 1) [.mk (.term 7) [], .mk (.term 8) []], .mk (.fn 0) [.mk (.term 8) []]]

/-- C57: standard crossover can exceed `max_depth`: parents of depth 2 (the maximum), an offspring of depth 3. -/
theorem c57_standard_exceeds_max_depth : ∃ d1 d2 o1 o2, standardXover demoTreeInd demoTreeInd d1 d2 = .ok (o1, o2) ∧
    totalDepth demoTreeInd = demoGP.maxDepth ∧ totalDepth o1 = demoGP.maxDepth + 1 := by
  refine ⟨2, 0, ?_, ?_, ?_, by decide +kernel, ?_⟩
  · exact (match standardXover demoTreeInd demoTreeInd 2 0 with | .ok p => p.1 | .error _ => demoTreeInd)
  · exact (match standardXover demoTreeInd demoTreeInd 2 0 with | .ok p => p.2 | .error _ => demoTreeInd)
  · rfl
  · decide +kernel

/-- C58: mono-parental mutation can exceed `max_depth` too. -/
theorem c58_mono_exceeds_max_depth : ∃ d1 d2 o, monoMut demoTreeInd d1 d2 = .ok o ∧
    totalDepth demoTreeInd = demoGP.maxDepth ∧ totalDepth o = demoGP.maxDepth + 1 := by
  refine ⟨0, 3, ?_, ?_, by decide +kernel, ?_⟩
  · exact (match monoMut demoTreeInd 0 3 with | .ok p => p | .error _ => demoTreeInd)
  · rfl
  · decide +kernel

/-- the hypotheses of `c58_point_breaks` are met -/
example : ∃ s, demoTreeInd.at? [0] = some s ∧ s.value = .fn 1 ∧ 0 < demoGP.arity 1 := ⟨_, rfl, rfl, by decide⟩

end Verif.Props
