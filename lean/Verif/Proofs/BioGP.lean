import Verif.Spec.BioGP
import Verif.Props.NSGA3

/-!
# Lemmas about positions, enumeration and growing of expression trees
-/

namespace Verif.Props
open Verif Verif.Spec

variable {G T : Type}

/-! ## Positions -/

theorem at?_nil (t : Node G T) : t.at? [] = some t := by cases t; rfl

theorem at?_cons (t : Node G T) (i : Nat) (p : List Nat) : t.at? (i :: p) = (t.roots[i]?).bind (fun c => c.at? p) := by
  cases t with
  | mk v rs =>
    show (match rs[i]? with | none => none | some c => c.at? p) = _
    cases h : rs[i]? with
    | none => simp [Node.roots, h]
    | some c => simp [Node.roots, h]

theorem at?_append (p q : List Nat) : ∀ t : Node G T, t.at? (p ++ q) = (t.at? p).bind (fun c => c.at? q) := by
  induction p with
  | nil => intro t; simp [at?_nil]
  | cons i p ih =>
    intro t
    rw [List.cons_append, at?_cons, at?_cons, Option.bind_assoc]
    congr 1
    funext c
    exact ih c

theorem roots_mk (v : NVal G T) (rs : List (Node G T)) : (Node.mk v rs).roots = rs := rfl

theorem put_nil (t s : Node G T) : t.put [] s = s := by cases t; rfl

theorem put_cons (t s : Node G T) (i : Nat) (p : List Nat) :
    t.put (i :: p) s = .mk t.value (t.roots.modify i (fun c => c.put p s)) := by cases t; rfl

/-- what is found at a position after `put` -/
theorem put_cases (p : List Nat) : ∀ (t s : Node G T) (q : List Nat) (u : Node G T), (t.put p s).at? q = some u →
    (∃ q', q = p ++ q' ∧ s.at? q' = some u) ∨
    (¬ p <+: q ∧ ∃ u0, t.at? q = some u0 ∧ u.value = u0.value ∧ u.roots.length = u0.roots.length ∧ (¬ q <+: p → u = u0)) := by
  induction p with
  | nil =>
    intro t s q u h
    rw [put_nil] at h
    exact Or.inl ⟨q, rfl, h⟩
  | cons i p ih =>
    intro t s q u h
    rw [put_cons] at h
    cases q with
    | nil =>
      rw [at?_nil] at h
      injection h with h
      subst h
      right
      refine ⟨by simp, t, at?_nil t, rfl, ?_, fun h => absurd (List.nil_prefix) h⟩
      simp [Node.roots]
    | cons j q =>
      rw [at?_cons] at h
      simp only [roots_mk, List.getElem?_modify, Option.map_eq_map] at h
      by_cases hij : i = j
      · subst hij
        simp only [if_true] at h
        cases hc : t.roots[i]? with
        | none => simp [hc] at h
        | some c =>
          simp only [hc, Option.map_some, Option.bind_some] at h
          rcases ih c s q u h with ⟨q', rfl, h'⟩ | ⟨h1, u0, h2, h3, h4, h5⟩
          · left
            exact ⟨q', rfl, h'⟩
          · right
            refine ⟨?_, u0, ?_, h3, h4, ?_⟩
            · intro hp
              rw [List.cons_prefix_cons] at hp
              exact h1 hp.2
            · rw [at?_cons, hc, Option.bind_some]
              exact h2
            · intro hq
              apply h5
              intro hqp
              exact hq (List.cons_prefix_cons.2 ⟨rfl, hqp⟩)
      · right
        simp only [hij, if_false, Option.map_id_fun', id_eq] at h
        refine ⟨?_, u, by rw [at?_cons]; exact h, rfl, rfl, fun _ => rfl⟩
        intro hp
        rw [List.cons_prefix_cons] at hp
        exact hij hp.1

theorem put_at (p : List Nat) : ∀ (t s u : Node G T) (q : List Nat), t.at? p = some u → (t.put p s).at? (p ++ q) = s.at? q := by
  induction p with
  | nil => intro t s u q _; rw [put_nil, List.nil_append]
  | cons i p ih =>
    intro t s u q h
    rw [at?_cons] at h
    cases hc : t.roots[i]? with
    | none => rw [hc] at h; simp at h
    | some c =>
      rw [hc, Option.bind_some] at h
      rw [put_cons, List.cons_append, at?_cons]
      simp only [roots_mk, List.getElem?_modify, Option.map_eq_map, if_true]
      rw [hc]
      simp only [Option.map_some, Option.bind_some]
      exact ih c s u q h

theorem put_other (p : List Nat) : ∀ (t s u : Node G T) (q : List Nat), t.at? q = some u → ¬ p <+: q → ¬ q <+: p →
    (t.put p s).at? q = some u := by
  induction p with
  | nil => intro t s u q _ h; exact absurd List.nil_prefix h
  | cons i p ih =>
    intro t s u q h h1 h2
    cases q with
    | nil => exact absurd List.nil_prefix h2
    | cons j q =>
      rw [at?_cons] at h
      rw [put_cons, at?_cons]
      simp only [roots_mk, List.getElem?_modify, Option.map_eq_map]
      by_cases hij : i = j
      · subst hij
        cases hc : t.roots[i]? with
        | none => rw [hc] at h; simp at h
        | some c =>
          rw [hc, Option.bind_some] at h
          simp only [if_true, Option.map_some, Option.bind_some]
          exact ih c s u q h (fun hp => h1 (List.cons_prefix_cons.2 ⟨rfl, hp⟩)) (fun hp => h2 (List.cons_prefix_cons.2 ⟨rfl, hp⟩))
      · simp only [hij, if_false, Option.map_id_fun', id_eq]
        exact h

/-- the whole `IsExpr` condition of one node depends on its value and its number of children -/
def okNode (c : GPCfg G T) (s : Node G T) : Prop :=
  match s.value with
  | .fn g => g ∈ c.fns ∧ s.roots.length = c.arity g
  | .term x => x ∈ c.terms ∧ s.roots = []
  | .linear => False

theorem okNode_congr {c : GPCfg G T} {s s' : Node G T} (h1 : s.value = s'.value) (h2 : s.roots.length = s'.roots.length)
    (h : okNode c s') : okNode c s := by
  unfold okNode at *
  rw [h1]
  cases hv : s'.value with
  | fn g => rw [hv] at h; exact ⟨h.1, h2.trans h.2⟩
  | term x =>
    rw [hv] at h
    refine ⟨h.1, List.length_eq_zero_iff.1 ?_⟩
    rw [h2, h.2]
    rfl
  | linear => rw [hv] at h; exact h

theorem isExpr_iff {c : GPCfg G T} {t : Node G T} : IsExpr c t ↔ ∀ (p : List Nat) (s : Node G T), t.at? p = some s → okNode c s :=
  Iff.rfl

theorem _root_.Verif.Spec.IsExpr.sub {c : GPCfg G T} {t : Node G T} (h : IsExpr c t) {p : List Nat} {s : Node G T} (hs : t.at? p = some s) : IsExpr c s := by
  intro q u hu
  refine h (p ++ q) u ?_
  rw [at?_append, hs, Option.bind_some]
  exact hu

theorem _root_.Verif.Spec.IsExpr.put {c : GPCfg G T} {t s : Node G T} (h : IsExpr c t) (hs : IsExpr c s) (p : List Nat) : IsExpr c (t.put p s) := by
  rw [isExpr_iff]
  intro q u hu
  rcases put_cases p t s q u hu with ⟨q', -, h'⟩ | ⟨-, u0, h1, h2, h3, -⟩
  · exact isExpr_iff.1 hs q' u h'
  · exact okNode_congr h2 h3 (isExpr_iff.1 h q u0 h1)

theorem isExpr_mk {c : GPCfg G T} {v : NVal G T} {rs : List (Node G T)} (h : okNode c (.mk v rs)) (hr : ∀ s ∈ rs, IsExpr c s) :
    IsExpr c (.mk v rs) := by
  rw [isExpr_iff]
  intro p s hs
  cases p with
  | nil =>
    rw [at?_nil] at hs
    injection hs with hs
    subst hs
    exact h
  | cons i p =>
    rw [at?_cons] at hs
    cases hc : (Node.mk v rs).roots[i]? with
    | none => rw [hc] at hs; simp at hs
    | some d =>
      rw [hc, Option.bind_some] at hs
      exact isExpr_iff.1 (hr d (List.mem_of_getElem? hc)) p s hs

theorem depthLE_mk {v : NVal G T} {rs : List (Node G T)} {h : Nat} (hr : ∀ s ∈ rs, DepthLE s h) : DepthLE (.mk v rs) (h + 1) := by
  intro p s hs
  cases p with
  | nil => simp
  | cons i p =>
    rw [at?_cons] at hs
    cases hc : (Node.mk v rs).roots[i]? with
    | none => rw [hc] at hs; simp at hs
    | some d =>
      rw [hc, Option.bind_some] at hs
      have := hr d (List.mem_of_getElem? hc) p s hs
      simp only [List.length_cons]
      omega

theorem _root_.Verif.Spec.DepthLE.put {t s : Node G T} {h k : Nat} (ht : DepthLE t h) (hs : DepthLE s k) (p : List Nat) :
    DepthLE (t.put p s) (max h (p.length + k)) := by
  intro q u hu
  rcases put_cases p t s q u hu with ⟨q', rfl, h'⟩ | ⟨-, u0, h1, -⟩
  · have := hs q' u h'
    rw [List.length_append]
    omega
  · have := ht q u0 h1
    omega

theorem _root_.Verif.Spec.DepthLE.sub {t s : Node G T} {h : Nat} (ht : DepthLE t h) {p : List Nat} (hs : t.at? p = some s) : DepthLE s (h - p.length) := by
  intro q u hu
  have := ht (p ++ q) u (by rw [at?_append, hs, Option.bind_some]; exact hu)
  rw [List.length_append] at this
  omega

theorem _root_.Verif.Spec.DepthLE.mono {t : Node G T} {h k : Nat} (ht : DepthLE t h) (hk : h ≤ k) : DepthLE t k :=
  fun p s hs => le_trans (ht p s hs) hk

/-! ## Enumeration -/

theorem countL_append (a b : List (Node G T)) : Node.countL (a ++ b) = Node.countL a + Node.countL b := by
  induction a with
  | nil => simp [Node.countL]
  | cons t ts ih => simp only [List.cons_append, Node.countL, ih]; omega

theorem pushes_snd (q : QNode G T) : (pushes q).map (fun c => c.2) = q.2.roots := by
  unfold pushes
  rw [List.map_map]
  exact List.zipIdx_map_fst 0 q.2.roots

theorem count_eq (t : Node G T) : t.count = Node.countL t.roots + 1 := by cases t; simp [Node.count, Node.roots]

theorem mem_pushes (q : QNode G T) (p : List Nat) (s : Node G T) :
    (p, s) ∈ pushes q ↔ ∃ i, p = q.1 ++ [i] ∧ q.2.roots[i]? = some s := by
  unfold pushes
  simp only [List.mem_map, Prod.mk.injEq, Prod.exists, List.mem_zipIdx_iff_getElem?]
  constructor
  · rintro ⟨a, i, h1, rfl, rfl⟩
    exact ⟨i, rfl, h1⟩
  · rintro ⟨i, rfl, h⟩
    exact ⟨s, i, h, rfl, rfl⟩

/-- the enumeration lists exactly the nodes below the queue -/
theorem mem_bfs (n : Nat) : ∀ (Q : List (QNode G T)), Node.countL (Q.map (fun q => q.2)) ≤ n → ∀ (p : List Nat) (s : Node G T),
    (p, s) ∈ bfs n Q ↔ ∃ q ∈ Q, ∃ r, p = q.1 ++ r ∧ q.2.at? r = some s := by
  induction n with
  | zero =>
    intro Q hQ p s
    cases Q with
    | nil => simp [bfs]
    | cons q qs =>
      simp only [List.map_cons, Node.countL, count_eq] at hQ
      omega
  | succ n ih =>
    intro Q hQ p s
    cases Q with
    | nil => simp [bfs]
    | cons q qs =>
      have hle : Node.countL ((qs ++ pushes q).map (fun q => q.2)) ≤ n := by
        rw [List.map_append, countL_append, pushes_snd]
        simp only [List.map_cons, Node.countL, count_eq] at hQ
        omega
      simp only [bfs, List.mem_cons]
      rw [ih _ hle]
      constructor
      · rintro (h | ⟨x, hx, r, rfl, hr⟩)
        · refine ⟨q, Or.inl rfl, [], ?_, ?_⟩
          · rw [← h]; simp
          · rw [at?_nil, ← h]
        · rcases List.mem_append.1 hx with hx | hx
          · exact ⟨x, Or.inr hx, r, rfl, hr⟩
          · obtain ⟨i, h1, h2⟩ := (mem_pushes q x.1 x.2).1 hx
            refine ⟨q, Or.inl rfl, i :: r, ?_, ?_⟩
            · rw [h1, List.append_assoc]; rfl
            · rw [at?_cons, h2, Option.bind_some]; exact hr
      · rintro ⟨x, rfl | hx, r, rfl, hr⟩
        · cases r with
          | nil =>
            left
            rw [at?_nil] at hr
            injection hr with hr
            rw [List.append_nil, ← hr]
          | cons i r =>
            right
            rw [at?_cons] at hr
            cases hc : x.2.roots[i]? with
            | none => rw [hc] at hr; simp at hr
            | some d =>
              rw [hc, Option.bind_some] at hr
              refine ⟨(x.1 ++ [i], d), List.mem_append_right _ ((mem_pushes x _ _).2 ⟨i, rfl, hc⟩), r, ?_, hr⟩
              rw [List.append_assoc]; rfl
        · right
          exact ⟨x, List.mem_append_left _ hx, r, rfl, hr⟩

/-- neither position lies below the other -/
def Apart (a b : List Nat) : Prop := ¬ a <+: b ∧ ¬ b <+: a

theorem apart_append_left {a b : List Nat} (h : Apart a b) (r : List Nat) : Apart (a ++ r) b := by
  refine ⟨fun h' => h.1 ((List.prefix_append a r).trans h'), fun h' => ?_⟩
  rcases List.prefix_or_prefix_of_prefix h' (List.prefix_append a r) with h'' | h''
  · exact h.2 h''
  · exact h.1 h''

theorem apart_symm {a b : List Nat} (h : Apart a b) : Apart b a := ⟨h.2, h.1⟩

theorem apart_children (a : List Nat) {i j : Nat} (h : i ≠ j) : Apart (a ++ [i]) (a ++ [j]) := by
  constructor
  · intro h'
    have := List.IsPrefix.eq_of_length h' (by simp)
    simp at this
    exact h this
  · intro h'
    have := List.IsPrefix.eq_of_length h' (by simp)
    simp at this
    exact h this.symm

theorem pushes_apart (q : QNode G T) : (pushes q).Pairwise (fun x y => Apart x.1 y.1) := by
  unfold pushes
  rw [List.pairwise_map]
  have : q.2.roots.zipIdx.Pairwise (fun x y => x.2 < y.2) := by
    rw [← List.pairwise_map (f := Prod.snd) (R := (· < ·)), List.zipIdx_map_snd]
    exact List.pairwise_lt_range'
  exact this.imp (fun h => apart_children _ (Nat.ne_of_lt h))

theorem bfs_nodup (n : Nat) : ∀ (Q : List (QNode G T)), Node.countL (Q.map (fun q => q.2)) ≤ n →
    Q.Pairwise (fun x y => Apart x.1 y.1) → ((bfs n Q).map (fun q => q.1)).Nodup := by
  induction n with
  | zero => intro Q _ _; simp [bfs]
  | succ n ih =>
    intro Q hQ hp
    cases Q with
    | nil => simp [bfs]
    | cons q qs =>
      have hle : Node.countL ((qs ++ pushes q).map (fun q => q.2)) ≤ n := by
        rw [List.map_append, countL_append, pushes_snd]
        simp only [List.map_cons, Node.countL, count_eq] at hQ
        omega
      obtain ⟨h1, h2⟩ := List.pairwise_cons.1 hp
      simp only [bfs, List.map_cons, List.nodup_cons]
      constructor
      · intro hm
        obtain ⟨⟨p, s⟩, hps, hpq⟩ := List.mem_map.1 hm
        dsimp only at hpq
        subst hpq
        obtain ⟨x, hx, r, hr, -⟩ := (mem_bfs n _ hle _ _).1 hps
        rcases List.mem_append.1 hx with hx | hx
        · exact (h1 x hx).2 ⟨r, hr.symm⟩
        · obtain ⟨i, hi, -⟩ := (mem_pushes q x.1 x.2).1 hx
          rw [hi] at hr
          have := congrArg List.length hr
          simp only [List.length_append, List.length_cons, List.length_nil] at this
          omega
      · refine ih _ hle ?_
        rw [List.pairwise_append]
        refine ⟨h2, pushes_apart q, ?_⟩
        intro x hx y hy
        obtain ⟨i, hi, -⟩ := (mem_pushes q y.1 y.2).1 hy
        rw [hi]
        exact apart_symm (apart_append_left (h1 x hx) [i])

theorem bfs_sorted (n : Nat) : ∀ (Q : List (QNode G T)), Q.Pairwise (fun x y => x.1.length ≤ y.1.length) →
    (∀ x y, Q.head? = some x → y ∈ Q → y.1.length ≤ x.1.length + 1) →
    (bfs n Q).Pairwise (fun x y => x.1.length ≤ y.1.length) ∧ (∀ x y, Q.head? = some x → y ∈ bfs n Q → x.1.length ≤ y.1.length) := by
  induction n with
  | zero => intro Q _ _; exact ⟨List.Pairwise.nil, by simp [bfs]⟩
  | succ n ih =>
    intro Q h1 h2
    cases Q with
    | nil => exact ⟨List.Pairwise.nil, by simp [bfs]⟩
    | cons q qs =>
      obtain ⟨a1, a2⟩ := List.pairwise_cons.1 h1
      have hpush : ∀ y ∈ pushes q, y.1.length = q.1.length + 1 := by
        intro y hy
        obtain ⟨i, hi, -⟩ := (mem_pushes q y.1 y.2).1 hy
        rw [hi]
        simp
      have hqs : ∀ y ∈ qs, q.1.length ≤ y.1.length ∧ y.1.length ≤ q.1.length + 1 := fun y hy =>
        ⟨a1 y hy, h2 q y rfl (List.mem_cons_of_mem _ hy)⟩
      have hsorted : (qs ++ pushes q).Pairwise (fun x y => x.1.length ≤ y.1.length) := by
        rw [List.pairwise_append]
        refine ⟨a2, ?_, ?_⟩
        · rw [List.pairwise_iff_forall_sublist]
          intro x y hxy
          have hx := hpush x (hxy.subset (by simp))
          have hy := hpush y (hxy.subset (by simp))
          omega
        · intro x hx y hy
          have := (hqs x hx).2
          have := hpush y hy
          omega
      have hge : ∀ y ∈ qs ++ pushes q, q.1.length ≤ y.1.length ∧ y.1.length ≤ q.1.length + 1 := by
        intro y hy
        rcases List.mem_append.1 hy with hy | hy
        · exact hqs y hy
        · have := hpush y hy
          omega
      obtain ⟨b1, b2⟩ := ih (qs ++ pushes q) hsorted (by
        intro x y hx hy
        have h3 := hge x (List.mem_of_head? hx)
        have h4 := hge y hy
        omega)
      have key : ∀ y ∈ bfs n (qs ++ pushes q), q.1.length ≤ y.1.length := by
        intro y hy
        cases hq : (qs ++ pushes q) with
        | nil =>
          rw [hq] at hy
          cases n <;> simp [bfs] at hy
        | cons x xs =>
          have h5 := b2 x y (by rw [hq]; rfl) hy
          have h6 := hge x (by rw [hq]; simp)
          omega
      refine ⟨?_, ?_⟩
      · simp only [bfs]
        exact List.pairwise_cons.2 ⟨key, b1⟩
      · intro x y hx hy
        simp only [List.head?_cons, Option.some.injEq] at hx
        subst hx
        simp only [bfs, List.mem_cons] at hy
        rcases hy with rfl | hy
        · exact le_rfl
        · exact key y hy

theorem countL_single (t : Node G T) : Node.countL ([(([] : List Nat), t)].map (fun q => q.2)) = t.count := by
  simp [Node.countL]

theorem mem_subNodes (t : Node G T) (p : List Nat) (s : Node G T) : (p, s) ∈ subNodes t ↔ t.at? p = some s := by
  unfold subNodes
  rw [mem_bfs _ _ (le_of_eq (countL_single t))]
  constructor
  · rintro ⟨q, hq, r, rfl, hr⟩
    rw [List.mem_singleton] at hq
    subst hq
    exact hr
  · intro h
    exact ⟨([], t), by simp, p, rfl, h⟩

theorem subNodes_nodup (t : Node G T) : ((subNodes t).map (fun q => q.1)).Nodup :=
  bfs_nodup _ _ (le_of_eq (countL_single t)) (by simp)

theorem subNodes_cons (t : Node G T) : ∃ l, subNodes t = ([], t) :: l := by
  unfold subNodes
  rw [count_eq]
  exact ⟨_, rfl⟩

/-- `nodes[1:]` are the nodes below the root -/
theorem mem_subNodes_tail (t : Node G T) (p : List Nat) (s : Node G T) :
    (p, s) ∈ (subNodes t).tail ↔ t.at? p = some s ∧ p ≠ [] := by
  obtain ⟨l, hl⟩ := subNodes_cons t
  have hn := subNodes_nodup t
  have hm := mem_subNodes t p s
  rw [hl] at hn hm ⊢
  rw [List.tail_cons]
  rw [List.map_cons, List.nodup_cons] at hn
  constructor
  · intro h
    refine ⟨hm.1 (List.mem_cons_of_mem _ h), ?_⟩
    rintro rfl
    exact hn.1 (List.mem_map.2 ⟨_, h, rfl⟩)
  · rintro ⟨h1, h2⟩
    rcases List.mem_cons.1 (hm.2 h1) with h | h
    · injection h with h h'
      exact absurd h h2
    · exact h

theorem foldl_max_spec (l : List Nat) : ∀ a, (∀ x ∈ l, x ≤ l.foldl max a) ∧ a ≤ l.foldl max a ∧ (l.foldl max a = a ∨ l.foldl max a ∈ l) := by
  induction l with
  | nil => intro a; simp
  | cons x l ih =>
    intro a
    rw [List.foldl_cons]
    obtain ⟨h1, h2, h3⟩ := ih (max a x)
    refine ⟨?_, by omega, ?_⟩
    · intro y hy
      rcases List.mem_cons.1 hy with rfl | hy
      · omega
      · exact h1 y hy
    · rcases h3 with h3 | h3
      · rcases Nat.le_total a x with h | h
        · right
          rw [h3, Nat.max_eq_right h]
          simp
        · left
          rw [h3, Nat.max_eq_left h]
      · right
        exact List.mem_cons_of_mem _ h3

theorem totalDepth_spec (t : Node G T) : DepthLE t (totalDepth t) ∧ ∃ p s, t.at? p = some s ∧ p.length = totalDepth t := by
  obtain ⟨h1, h2, h3⟩ := foldl_max_spec ((subNodes t).map (fun q => q.1.length)) 0
  constructor
  · intro p s h
    exact h1 _ (List.mem_map.2 ⟨(p, s), (mem_subNodes t p s).2 h, rfl⟩)
  · rcases h3 with h3 | h3
    · exact ⟨[], t, at?_nil t, by unfold totalDepth; rw [h3]; rfl⟩
    · obtain ⟨⟨p, s⟩, hps, hp⟩ := List.mem_map.1 h3
      exact ⟨p, s, (mem_subNodes t p s).1 hps, hp⟩

theorem totalDepth_le {t : Node G T} {h : Nat} (ht : DepthLE t h) : totalDepth t ≤ h := by
  obtain ⟨-, p, s, h1, h2⟩ := totalDepth_spec t
  rw [← h2]
  exact ht p s h1

theorem mem_nodesAtDepth (t : Node G T) (d : Nat) (p : List Nat) (s : Node G T) :
    (p, s) ∈ nodesAtDepth t d ↔ t.at? p = some s ∧ p.length = d := by
  unfold nodesAtDepth
  rw [List.mem_filter, mem_subNodes]
  simp

/-- some node at every depth up to the total depth -/
theorem node_at_depth (t : Node G T) (d : Nat) (h : d ≤ totalDepth t) : nodesAtDepth t d ≠ [] := by
  obtain ⟨-, p, s, h1, h2⟩ := totalDepth_spec t
  have h3 : t.at? (p.take d ++ p.drop d) = some s := by rw [List.take_append_drop]; exact h1
  rw [at?_append] at h3
  cases hu : t.at? (p.take d) with
  | none => rw [hu] at h3; simp at h3
  | some u =>
    intro hnil
    have : (p.take d, u) ∈ nodesAtDepth t d := (mem_nodesAtDepth t d _ _).2 ⟨hu, by rw [List.length_take]; omega⟩
    rw [hnil] at this
    simp at this

/-! ## Choice and growing -/

theorem pick_ok {α : Type} {l : List α} {d : Nat} {a : α} (h : pick l d = .ok a) : a ∈ l := by
  unfold pick at h
  cases hd : l[d % l.length]? with
  | none => rw [hd] at h; simp at h
  | some b =>
    rw [hd] at h
    injection h with h
    subst h
    exact List.mem_of_getElem? hd

theorem pick_total {α : Type} {l : List α} (h : l ≠ []) (d : Nat) : ∃ a, pick l d = .ok a := by
  have : d % l.length < l.length := Nat.mod_lt _ (List.length_pos_iff.2 h)
  unfold pick
  rw [List.getElem?_eq_getElem this]
  exact ⟨_, rfl⟩

theorem pick_nil {α : Type} (d : Nat) : pick ([] : List α) d = .error .indexError := by simp [pick]

/-- every element can be the result of `choice` -/
theorem pick_onto {α : Type} {l : List α} {a : α} (h : a ∈ l) : ∃ d, pick l d = .ok a := by
  obtain ⟨i, hi, rfl⟩ := List.mem_iff_getElem.1 h
  refine ⟨i, ?_⟩
  unfold pick
  rw [Nat.mod_eq_of_lt hi, List.getElem?_eq_getElem hi]

theorem growTerm_spec {c : GPCfg G T} {r : GrowRand} {p : List Nat} {t : Node G T} (h : growTerm c r p = .ok t) :
    ∃ x, x ∈ c.terms ∧ t = .mk (.term x) [] := by
  unfold growTerm at h
  cases hp : pick c.terms (r.term p) with
  | error e => rw [hp] at h; simp at h
  | ok x =>
    rw [hp] at h
    injection h with h
    exact ⟨x, pick_ok hp, h.symm⟩

theorem leaf_spec (c : GPCfg G T) {x : T} (hx : x ∈ c.terms) (h : Nat) :
    IsExpr c (.mk (.term x) []) ∧ DepthLE (Node.mk (.term x) ([] : List (Node G T)) : Node G T) h := by
  refine ⟨isExpr_mk ⟨hx, rfl⟩ (by simp), ?_⟩
  intro p s hs
  cases p with
  | nil => simp
  | cons i p => rw [at?_cons] at hs; simp [Node.roots] at hs

theorem growAt_spec (c : GPCfg G T) (full : Bool) (r : GrowRand) (left : Nat) : ∀ (p : List Nat) (t : Node G T),
    growAt c full r left p = .ok t → IsExpr c t ∧ DepthLE t left ∧
      (full = true → (∀ g ∈ c.fns, 0 < c.arity g) → ∀ (q : List Nat) (s : Node G T) (x : T), t.at? q = some s → s.value = .term x →
        q.length = left) := by
  induction left with
  | zero =>
    intro p t h
    obtain ⟨x, hx, rfl⟩ := growTerm_spec h
    refine ⟨(leaf_spec c hx 0).1, (leaf_spec c hx 0).2, ?_⟩
    intro _ _ q s x' hq _
    exact Nat.le_zero.1 ((leaf_spec c hx 0).2 q s hq)
  | succ left ih =>
    intro p t h
    rw [growAt] at h
    by_cases hs : (!full && r.stop p) = true
    · rw [if_pos hs] at h
      obtain ⟨x, hx, rfl⟩ := growTerm_spec h
      refine ⟨(leaf_spec c hx 0).1, (leaf_spec c hx _).2, ?_⟩
      intro hf
      rw [hf] at hs
      simp at hs
    · rw [if_neg hs] at h
      cases hg : pick c.fns (r.fn p) with
      | error e => rw [hg] at h; simp at h
      | ok g =>
        rw [hg] at h
        dsimp only at h
        cases hm : (List.range (c.arity g)).mapM (fun i => growAt c full r left (p ++ [i])) with
        | error e => rw [hm] at h; simp at h
        | ok cs =>
          rw [hm] at h
          injection h with h
          subst h
          obtain ⟨h1, h2⟩ := mapM_except_ok _ _ _ hm
          have hsub : ∀ s ∈ cs, ∃ i, growAt c full r left (p ++ [i]) = .ok s := by
            intro s hs
            obtain ⟨i, hi, rfl⟩ := List.mem_iff_getElem.1 hs
            refine ⟨i, h2 i i _ ?_ (List.getElem?_eq_getElem hi)⟩
            rw [h1, List.length_range] at hi
            rw [List.getElem?_range hi]
          refine ⟨isExpr_mk ⟨pick_ok hg, ?_⟩ ?_, depthLE_mk ?_, ?_⟩
          · show cs.length = _
            rw [h1, List.length_range]
          · intro s hs
            obtain ⟨i, hi⟩ := hsub s hs
            exact (ih _ _ hi).1
          · intro s hs
            obtain ⟨i, hi⟩ := hsub s hs
            exact (ih _ _ hi).2.1
          · intro hf ha q s x hq hx
            cases q with
            | nil =>
              rw [at?_nil] at hq
              injection hq with hq
              rw [← hq] at hx
              simp [Node.value] at hx
            | cons j q =>
              rw [at?_cons] at hq
              cases hj : (Node.mk (NVal.fn g) cs).roots[j]? with
              | none => rw [hj] at hq; simp at hq
              | some d =>
                rw [hj, Option.bind_some] at hq
                obtain ⟨i, hi⟩ := hsub d (List.mem_of_getElem? hj)
                have := (ih _ _ hi).2.2 hf ha q s x hq hx
                simp only [List.length_cons]
                omega

theorem growAt_total (c : GPCfg G T) (full : Bool) (r : GrowRand) (ht : c.terms ≠ []) (hf : c.fns ≠ []) (left : Nat) :
    ∀ p, ∃ t, growAt c full r left p = .ok t := by
  have hleaf : ∀ p, ∃ t : Node G T, growTerm c r p = .ok t := by
    intro p
    obtain ⟨x, hx⟩ := pick_total ht (r.term p)
    unfold growTerm
    rw [hx]
    exact ⟨_, rfl⟩
  induction left with
  | zero => intro p; exact hleaf p
  | succ left ih =>
    intro p
    rw [growAt]
    by_cases hs : (!full && r.stop p) = true
    · rw [if_pos hs]; exact hleaf p
    · rw [if_neg hs]
      obtain ⟨g, hg⟩ := pick_total hf (r.fn p)
      rw [hg]
      dsimp only
      obtain ⟨cs, hcs⟩ := mapM_except_total (fun i => growAt c full r left (p ++ [i])) (List.range (c.arity g)) (fun i _ => ih _)
      rw [hcs]
      exact ⟨_, rfl⟩

theorem fillRoots_spec (c : GPCfg G T) (full : Bool) (maxDepth : Nat) (r : GrowRand) (roots ts : List (Node G T))
    (h : fillRoots c full maxDepth r roots = .ok ts) :
    ∃ new, ts = roots ++ new ∧ new.length = c.maxSubtrees - roots.length ∧
      ∀ s ∈ new, ∃ p, growAt c full r (maxDepth - 1) p = .ok s := by
  unfold fillRoots at h
  cases hm : (List.range' roots.length (c.maxSubtrees - roots.length)).mapM (fun i => growAt c full r (maxDepth - 1) [i]) with
  | error e => rw [hm] at h; simp at h
  | ok new =>
    rw [hm] at h
    injection h with h
    obtain ⟨h1, h2⟩ := mapM_except_ok _ _ _ hm
    refine ⟨new, h.symm, by rw [h1, List.length_range'], ?_⟩
    intro s hs
    obtain ⟨i, hi, rfl⟩ := List.mem_iff_getElem.1 hs
    rw [h1] at hi
    exact ⟨_, h2 i _ _ (List.getElem?_eq_getElem hi) (List.getElem?_eq_getElem (by rw [h1]; exact hi))⟩

theorem fillRoots_total (c : GPCfg G T) (full : Bool) (maxDepth : Nat) (r : GrowRand) (roots : List (Node G T))
    (ht : c.terms ≠ []) (hf : c.fns ≠ []) : ∃ ts, fillRoots c full maxDepth r roots = .ok ts := by
  obtain ⟨new, hm⟩ := mapM_except_total (fun i => growAt c full r (maxDepth - 1) [i])
    (List.range' roots.length (c.maxSubtrees - roots.length)) (fun i _ => growAt_total c full r ht hf _ _)
  unfold fillRoots
  rw [hm]
  exact ⟨_, rfl⟩

end Verif.Props
