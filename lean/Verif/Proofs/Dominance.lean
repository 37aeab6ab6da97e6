import Mathlib.Order.Lattice
import Mathlib.Tactic.Push
import Verif.Model.Dominance
import Verif.Spec.Pareto
import Verif.Proofs.Numpy

/-! # Lemmas about dominance, non-dominated filtering and the archive -/

namespace Verif
open Spec

/-! ## compress -/

theorem compress_sublist {α : Type} (m : List Bool) (l : List α) : (compress m l).Sublist l := by
  fun_induction compress m l with
  | case1 m x xs ih => exact ih.cons_cons x
  | case2 m x xs ih => exact ih.cons x
  | case3 => exact List.nil_sublist _

theorem mem_compress {α : Type} (m : List Bool) (l : List α) (a : α) :
    a ∈ compress m l ↔ (true, a) ∈ m.zip l := by
  fun_induction compress m l with
  | case1 m x xs ih => simp [ih]
  | case2 m x xs ih => simp [ih]
  | case3 m l h1 h2 =>
    cases m with
    | nil => simp
    | cons b m =>
      cases l with
      | nil => simp
      | cons x l => cases b <;> simp_all

theorem filter_compress {α : Type} (P : α → Bool) (m : List Bool) (l : List α)
    (hl : m.length = l.length) (h : ∀ p ∈ m.zip l, p.1 = false → P p.2 = false) :
    (compress m l).filter P = l.filter P := by
  fun_induction compress m l with
  | case1 m x xs ih =>
    have := ih (by simpa using hl) (fun p hp => h p (by simp [hp]))
    simp [List.filter_cons, this]
  | case2 m x xs ih =>
    have := ih (by simpa using hl) (fun p hp => h p (by simp [hp]))
    have hx := h (false, x) (by simp) rfl
    simp at hx
    simp [hx, this]
  | case3 m l h1 h2 =>
    cases m with
    | nil => cases l <;> simp_all
    | cons b m =>
      cases l with
      | nil => simp at hl
      | cons x l => cases b <;> simp_all

theorem compress_map {α β : Type} (f : α → β) (m : List Bool) (l : List α) :
    compress m (l.map f) = (compress m l).map f := by
  fun_induction compress m l with
  | case1 m x xs ih => simp [compress, ih]
  | case2 m x xs ih => simp [compress, ih]
  | case3 m l h1 h2 =>
    cases m with
    | nil => simp [compress]
    | cons b m =>
      cases l with
      | nil => simp [compress]
      | cons x l => cases b <;> simp_all

theorem compress_replicate_true {α : Type} (l : List α) : compress (List.replicate l.length true) l = l := by
  induction l with
  | nil => rfl
  | cons x l ih => simp [List.replicate_succ, compress, ih]

/-! ## check_domination -/

section
variable {F : Type} (dom : F → F → Bool)

theorem checkNew_map {R : Type} (f : R → F) (x : R) (as : List R) (ms : List Bool) :
    checkNew dom (f x) (as.map f) ms = checkNew (fun a b => dom (f a) (f b)) x as ms := by
  induction as generalizing ms with
  | nil => cases ms <;> simp [checkNew]
  | cons a as ih => cases ms <;> simp [checkNew, ih]

theorem checkAll_map {R : Type} (f : R → F) (ar xs : List R) (ms : List Bool) :
    checkAll dom (ar.map f) (xs.map f) ms = checkAll (fun a b => dom (f a) (f b)) ar xs ms := by
  induction xs generalizing ms with
  | nil => simp [checkAll]
  | cons x xs ih => simp [checkAll, ih, checkNew_map]

theorem checkNew_length (x : F) (as : List F) (ms : List Bool) (h : ms.length = as.length) :
    (checkNew dom x as ms).2.length = as.length := by
  fun_induction checkNew dom x as ms with
  | case1 a as m ms hm r ih => simpa using ih (by simpa using h)
  | case2 a as m ms hm hd => simpa using h
  | case3 a as m ms hm hd1 hd2 r ih => simpa using ih (by simpa using h)
  | case4 a as m ms hm hd1 hd2 r ih => simpa using ih (by simpa using h)
  | case5 as ms hne => exact h

/-- position-wise facts about one new row -/
theorem checkNew_spec (x : F) (as : List F) (ms : List Bool) (h : ms.length = as.length) :
    -- nothing is revived; evicted members are dominated by `x`
    (compress (checkNew dom x as ms).2 as).Sublist (compress ms as) ∧
    (∀ p ∈ (checkNew dom x as ms).2.zip as, p.1 = false → (false, p.2) ∈ ms.zip as ∨ dom x p.2 = true) ∧
    (∀ a ∈ compress ms as, a ∈ compress (checkNew dom x as ms).2 as ∨ dom x a = true) ∧
    -- rejected: a member that stays dominates `x`
    ((checkNew dom x as ms).1 = false → ∃ a ∈ compress (checkNew dom x as ms).2 as, dom a x = true) ∧
    -- accepted: no member dominates `x`, and the members that stay are not dominated by `x`
    ((checkNew dom x as ms).1 = true → (∀ a ∈ compress ms as, dom a x = false) ∧
      ∀ a ∈ compress (checkNew dom x as ms).2 as, dom x a = false) := by
  fun_induction checkNew dom x as ms with
  | case1 a as m ms hm r ih =>
    have hm' : m = false := by simpa using hm
    subst hm'
    obtain ⟨i1, i2, i3, i4, i5⟩ := ih (by simpa using h)
    refine ⟨by simpa [compress] using i1, ?_, by simpa [compress] using i3, by simpa [compress] using i4,
      by simpa [compress] using i5⟩
    intro p hp h0
    simp only [List.zip_cons_cons, List.mem_cons] at hp ⊢
    rcases hp with rfl | hp
    · left; left; rfl
    · rcases i2 p hp h0 with h | h
      · left; right; exact h
      · right; exact h
  | case2 a as m ms hm hd =>
    have hm' : m = true := by simpa using hm
    subst hm'
    refine ⟨List.Sublist.refl _, ?_, fun a ha => Or.inl ha, ?_, by simp⟩
    · intro p hp h0
      left
      have : p = (false, p.2) := by rw [← h0]
      rw [← this]; exact hp
    · intro _; exact ⟨a, by simp [compress], hd⟩
  | case3 a as m ms hm hd1 hd2 r ih =>
    have hm' : m = true := by simpa using hm
    subst hm'
    obtain ⟨i1, i2, i3, i4, i5⟩ := ih (by simpa using h)
    refine ⟨?_, ?_, ?_, by simpa [compress] using i4, ?_⟩
    · simp only [compress]; exact i1.cons a
    · intro p hp h0
      simp only [List.zip_cons_cons, List.mem_cons] at hp ⊢
      rcases hp with rfl | hp
      · right; exact hd2
      · rcases i2 p hp h0 with h | h
        · left; right; exact h
        · right; exact h
    · intro b hb
      simp only [compress, List.mem_cons] at hb ⊢
      rcases hb with rfl | hb
      · right; exact hd2
      · exact i3 b hb
    · intro hr
      have := i5 hr
      refine ⟨?_, by simpa [compress] using this.2⟩
      intro b hb
      simp only [compress, List.mem_cons] at hb
      rcases hb with rfl | hb
      · simpa using hd1
      · exact this.1 b hb
  | case4 a as m ms hm hd1 hd2 r ih =>
    have hm' : m = true := by simpa using hm
    subst hm'
    obtain ⟨i1, i2, i3, i4, i5⟩ := ih (by simpa using h)
    refine ⟨?_, ?_, ?_, ?_, ?_⟩
    · simp only [compress]; exact i1.cons_cons a
    · intro p hp h0
      simp only [List.zip_cons_cons, List.mem_cons] at hp ⊢
      rcases hp with rfl | hp
      · simp at h0
      · rcases i2 p hp h0 with h | h
        · left; right; exact h
        · right; exact h
    · intro b hb
      simp only [compress, List.mem_cons] at hb ⊢
      rcases hb with rfl | hb
      · left; left; rfl
      · rcases i3 b hb with h | h
        · left; right; exact h
        · right; exact h
    · intro hr
      obtain ⟨b, hb, hbd⟩ := i4 hr
      exact ⟨b, by simp [compress]; right; exact hb, hbd⟩
    · intro hr
      have := i5 hr
      refine ⟨?_, ?_⟩
      · intro b hb
        simp only [compress, List.mem_cons] at hb
        rcases hb with rfl | hb
        · simpa using hd1
        · exact this.1 b hb
      · intro b hb
        simp only [compress, List.mem_cons] at hb
        rcases hb with rfl | hb
        · simpa using hd2
        · exact this.2 b hb
  | case5 as ms hne =>
    cases as with
    | nil => cases ms <;> simp_all [compress]
    | cons a as =>
      cases ms with
      | nil => simp at h
      | cons m ms => exact absurd rfl (hne a as m ms rfl)

theorem checkAll_length (ar xs : List F) (ms : List Bool) (h : ms.length = ar.length) :
    (checkAll dom ar xs ms).1.length = xs.length ∧ (checkAll dom ar xs ms).2.length = ar.length := by
  induction xs generalizing ms with
  | nil => simp [checkAll, h]
  | cons x xs ih =>
    have := ih _ (checkNew_length dom x ar ms h)
    simp [checkAll, this]

/-- `S` covers `y`. -/
def Covers (S : List F) (y : F) : Prop := y ∈ S ∨ ∃ s ∈ S, dom s y = true

variable {dom}

theorem Covers.trans (ht : ∀ a b c, dom a b = true → dom b c = true → dom a c = true)
    {S T : List F} (h : ∀ s ∈ S, Covers dom T s) {y : F} (hy : Covers dom S y) : Covers dom T y := by
  rcases hy with hy | ⟨s, hs, hsy⟩
  · exact h y hy
  · rcases h s hs with h1 | ⟨t, h1, h2⟩
    · exact Or.inr ⟨s, h1, hsy⟩
    · exact Or.inr ⟨t, h1, ht _ _ _ h2 hsy⟩

theorem checkAll_spec (hdom : IsDominance dom) (ar xs : List F) (ms : List Bool)
    (h : ms.length = ar.length) :
    (compress (checkAll dom ar xs ms).2 ar).Sublist (compress ms ar) ∧
    -- evicted members are dominated by a new row
    (∀ p ∈ (checkAll dom ar xs ms).2.zip ar, p.1 = false →
      (false, p.2) ∈ ms.zip ar ∨ ∃ x ∈ xs, dom x p.2 = true) ∧
    -- rejected rows are dominated by a member
    (∀ p ∈ (checkAll dom ar xs ms).1.zip xs, p.1 = false → ∃ a ∈ ar, dom a p.2 = true) ∧
    -- coverage
    (∀ y, y ∈ compress ms ar ∨ y ∈ xs →
      Covers dom (compress (checkAll dom ar xs ms).2 ar ++ compress (checkAll dom ar xs ms).1 xs) y) ∧
    -- accepted new rows and remaining members do not dominate each other
    (∀ x ∈ compress (checkAll dom ar xs ms).1 xs, ∀ a ∈ compress (checkAll dom ar xs ms).2 ar,
      dom a x = false ∧ dom x a = false) := by
  induction xs generalizing ms with
  | nil =>
    refine ⟨by simp [checkAll], ?_, by simp [checkAll], ?_, ?_⟩
    · intro p hp h0
      left
      simp only [checkAll] at hp
      have : p = (false, p.2) := by rw [← h0]
      rw [← this]; exact hp
    · intro y hy
      simp only [List.not_mem_nil, or_false] at hy
      left; simp [checkAll, hy]
    · simp [checkAll, compress]
  | cons x xs ih =>
    obtain ⟨n1, n2, n3, n4, n5⟩ := checkNew_spec dom x ar ms h
    have hlen := checkNew_length dom x ar ms h
    obtain ⟨a1, a2, a3, a4, a5⟩ := ih _ hlen
    simp only [checkAll]
    refine ⟨a1.trans n1, ?_, ?_, ?_, ?_⟩
    · intro p hp h0
      rcases a2 p hp h0 with h1 | ⟨y, hy, hd⟩
      · rcases n2 _ h1 rfl with h2 | h2
        · left; exact h2
        · right; exact ⟨x, by simp, h2⟩
      · right; exact ⟨y, by simp [hy], hd⟩
    · intro p hp h0
      simp only [List.zip_cons_cons, List.mem_cons] at hp
      rcases hp with rfl | hp
      · obtain ⟨a, ha, hd⟩ := n4 h0
        exact ⟨a, (compress_sublist _ _).subset ha, hd⟩
      · exact a3 p hp h0
    · -- coverage
      have hmono : ∀ y, Covers dom (compress (checkAll dom ar xs (checkNew dom x ar ms).2).2 ar ++
            compress (checkAll dom ar xs (checkNew dom x ar ms).2).1 xs) y →
          Covers dom (compress (checkAll dom ar xs (checkNew dom x ar ms).2).2 ar ++
            compress ((checkNew dom x ar ms).1 :: (checkAll dom ar xs (checkNew dom x ar ms).2).1) (x :: xs)) y := by
        intro y hy
        have hsub : ∀ z, z ∈ compress (checkAll dom ar xs (checkNew dom x ar ms).2).2 ar ++
            compress (checkAll dom ar xs (checkNew dom x ar ms).2).1 xs →
            z ∈ compress (checkAll dom ar xs (checkNew dom x ar ms).2).2 ar ++
            compress ((checkNew dom x ar ms).1 :: (checkAll dom ar xs (checkNew dom x ar ms).2).1) (x :: xs) := by
          intro z hz
          rcases List.mem_append.1 hz with hz | hz
          · exact List.mem_append_left _ hz
          · apply List.mem_append_right
            cases (checkNew dom x ar ms).1 <;> simp [compress, hz]
        rcases hy with hy | ⟨s, hs, hsy⟩
        · exact Or.inl (hsub _ hy)
        · exact Or.inr ⟨s, hsub _ hs, hsy⟩
      have hx : Covers dom (compress (checkAll dom ar xs (checkNew dom x ar ms).2).2 ar ++
            compress ((checkNew dom x ar ms).1 :: (checkAll dom ar xs (checkNew dom x ar ms).2).1) (x :: xs)) x := by
        cases hr : (checkNew dom x ar ms).1 with
        | true => left; apply List.mem_append_right; simp [compress]
        | false =>
          obtain ⟨a, ha, hd⟩ := n4 hr
          have := hmono _ (a4 a (Or.inl ha))
          rw [hr] at this
          rcases this with h1 | ⟨s, h1, h2⟩
          · exact Or.inr ⟨a, h1, hd⟩
          · exact Or.inr ⟨s, h1, hdom.trans _ _ _ h2 hd⟩
      intro y hy
      rcases hy with hy | hy
      · rcases n3 y hy with h1 | h1
        · exact hmono _ (a4 y (Or.inl h1))
        · rcases hx with h2 | ⟨s, h2, h3⟩
          · exact Or.inr ⟨x, h2, h1⟩
          · exact Or.inr ⟨s, h2, hdom.trans _ _ _ h3 h1⟩
      · rcases List.mem_cons.1 hy with rfl | hy
        · exact hx
        · exact hmono _ (a4 y (Or.inr hy))
    · intro z hz a ha
      cases hr : (checkNew dom x ar ms).1 with
      | true =>
        rw [hr] at hz
        simp only [compress, List.mem_cons] at hz
        rcases hz with rfl | hz
        · have := n5 hr
          have ha' := a1.subset ha
          exact ⟨this.1 a (n1.subset ha'), this.2 a ha'⟩
        · exact a5 z hz a ha
      | false =>
        rw [hr] at hz
        simp only [compress] at hz
        exact a5 z hz a ha

end

/-! ## Minimal elements -/

section
variable {F : Type} {dom : F → F → Bool}

theorem notDominatedIn_iff (l : List F) (x : F) :
    notDominatedIn dom l x = true ↔ ∀ e ∈ l, dom e x = false := by
  simp [notDominatedIn]

theorem exists_minimal (hdom : IsDominance dom) (l : List F) (a : F) (ha : a ∈ l) :
    ∃ b ∈ l, notDominatedIn dom l b = true ∧ (b = a ∨ dom b a = true) := by
  generalize hn : (l.filter (fun e => dom e a)).length = n
  induction n using Nat.strongRecOn generalizing a with
  | ind n ih =>
    by_cases h : notDominatedIn dom l a = true
    · exact ⟨a, ha, h, Or.inl rfl⟩
    · rw [notDominatedIn_iff] at h
      push Not at h
      obtain ⟨e, he, hd⟩ := h
      have hd : dom e a = true := by simpa using hd
      have hlt : (l.filter (fun x => dom x e)).length < n := by
        rw [← hn]
        have hsub : (l.filter (fun x => dom x e)).Sublist (l.filter (fun x => dom x a)) := by
          have : l.filter (fun x => dom x e) = (l.filter (fun x => dom x a)).filter (fun x => dom x e) := by
            rw [List.filter_filter]
            apply List.filter_congr
            intro x _
            cases hx : dom x e
            · simp
            · simp [hdom.trans _ _ _ hx hd]
          rw [this]
          exact List.filter_sublist
        refine Nat.lt_of_le_of_ne hsub.length_le ?_
        intro heq
        have := hsub.eq_of_length heq
        have hmem : e ∈ l.filter (fun x => dom x a) := by simp [he, hd]
        rw [← this] at hmem
        simp [hdom.irrefl] at hmem
      obtain ⟨b, hb, hb2, hb3⟩ := ih _ hlt e he rfl
      refine ⟨b, hb, hb2, Or.inr ?_⟩
      rcases hb3 with rfl | hb3
      · exact hd
      · exact hdom.trans _ _ _ hb3 hd

/-! ## The reference `non_dominated` -/

theorem ndInner_eq (g : F → Bool) (x : F) (as : List F)
    (h : ∀ a ∈ as, g a = true → dom a x = true → ∀ b ∈ as, g b = true → dom x b = false) :
    ndInner dom x as (as.map g) =
      (as.all (fun a => !(g a && dom a x)), as.map (fun a => g a && !dom x a)) := by
  induction as with
  | nil => rfl
  | cons a as ih =>
    have ih := ih (fun b hb h1 h2 c hc h3 => h b (by simp [hb]) h1 h2 c (by simp [hc]) h3)
    simp only [List.map_cons, ndInner, ih, List.all_cons]
    cases hg : g a with
    | false => simp
    | true =>
      cases hxa : dom x a with
      | true =>
        have : dom a x = false := by
          cases hax : dom a x with
          | false => rfl
          | true => have := h a (by simp) hg hax a (by simp) hg; simp_all
        simp [this]
      | false =>
        cases hax : dom a x with
        | false => simp
        | true =>
          simp
          intro b hb hgb
          exact h a (by simp) hg hax b (by simp [hb]) hgb

theorem ndOuter_eq (hdom : IsDominance dom) (done rest : List F) :
    ndOuter dom done (done.map (notDominatedIn dom done)) rest =
      (done ++ rest).map (notDominatedIn dom (done ++ rest)) := by
  induction rest generalizing done with
  | nil => simp [ndOuter]
  | cons x xs ih =>
    simp only [ndOuter]
    rw [ndInner_eq]
    · have key : done.map (fun a => notDominatedIn dom done a && !dom x a) ++
          [done.all (fun a => !(notDominatedIn dom done a && dom a x))] =
          (done ++ [x]).map (notDominatedIn dom (done ++ [x])) := by
        have h1 : ∀ a, notDominatedIn dom (done ++ [x]) a = (notDominatedIn dom done a && !dom x a) := by
          intro a; simp [notDominatedIn]
        have h2 : done.all (fun a => !(notDominatedIn dom done a && dom a x)) =
            notDominatedIn dom (done ++ [x]) x := by
          rw [h1, hdom.irrefl, Bool.eq_iff_iff]
          simp only [List.all_eq_true, Bool.not_eq_true', Bool.and_eq_false_iff, Bool.not_false, Bool.and_true]
          rw [notDominatedIn_iff]
          constructor
          · intro h e he
            cases hd : dom e x with
            | false => rfl
            | true =>
              obtain ⟨b, hb, hb2, hb3⟩ := exists_minimal hdom done e he
              have hbx : dom b x = true := by
                rcases hb3 with rfl | hb3
                · exact hd
                · exact hdom.trans _ _ _ hb3 hd
              rcases h b hb with h | h <;> simp_all
          · intro h e he
            exact Or.inr (h e he)
        rw [List.map_append, List.map_singleton, h2]
        congr 1
        apply List.map_congr_left
        intro a _
        exact (h1 a).symm
      rw [key, ih]
      simp
    · intro a ha hga hax b hb hgb
      cases hxb : dom x b with
      | false => rfl
      | true =>
        rw [notDominatedIn_iff] at hgb
        have := hgb a ha
        rw [hdom.trans _ _ _ hax hxb] at this
        cases this

theorem nonDominated_eq (hdom : IsDominance dom) (l : List F) :
    nonDominated dom l = l.map (notDominatedIn dom l) := by
  have := ndOuter_eq hdom [] l
  simpa [nonDominated] using this

end

/-! ## The reference `dominates` -/

section
variable {K : Type} [LinearOrder K]

theorem dominatesAux_iff (acc : Bool) (a b : List K) (h : a.length = b.length) :
    dominatesAux acc a b = true ↔
      (∀ (i : Nat) (x y : K), a[i]? = some x → b[i]? = some y → x ≤ y) ∧
      (acc = true ∨ ∃ (i : Nat) (x y : K), a[i]? = some x ∧ b[i]? = some y ∧ x < y) := by
  induction a generalizing b acc with
  | nil =>
    cases b with
    | nil => simp [dominatesAux]
    | cons y ys => simp at h
  | cons x xs ih =>
    cases b with
    | nil => simp at h
    | cons y ys =>
      have hl : xs.length = ys.length := by simpa using h
      have hall : (∀ (i : Nat) (u v : K), (x :: xs)[i]? = some u → (y :: ys)[i]? = some v → u ≤ v) ↔
          x ≤ y ∧ (∀ (i : Nat) (u v : K), xs[i]? = some u → ys[i]? = some v → u ≤ v) := by
        constructor
        · intro h
          exact ⟨h 0 x y rfl rfl, fun i u v h1 h2 => h (i + 1) u v (by simpa using h1) (by simpa using h2)⟩
        · rintro ⟨h0, h1⟩ i u v hu hv
          cases i with
          | zero => simp at hu hv; subst hu; subst hv; exact h0
          | succ i => exact h1 i u v (by simpa using hu) (by simpa using hv)
      have hex : (∃ (i : Nat) (u v : K), (x :: xs)[i]? = some u ∧ (y :: ys)[i]? = some v ∧ u < v) ↔
          x < y ∨ (∃ (i : Nat) (u v : K), xs[i]? = some u ∧ ys[i]? = some v ∧ u < v) := by
        constructor
        · rintro ⟨i, u, v, hu, hv, hlt⟩
          cases i with
          | zero => simp at hu hv; subst hu; subst hv; exact Or.inl hlt
          | succ i => exact Or.inr ⟨i, u, v, by simpa using hu, by simpa using hv, hlt⟩
        · rintro (h | ⟨i, u, v, hu, hv, hlt⟩)
          · exact ⟨0, x, y, rfl, rfl, h⟩
          · exact ⟨i + 1, u, v, by simpa using hu, by simpa using hv, hlt⟩
      rw [hall, hex]
      simp only [dominatesAux]
      split
      · rename_i hlt
        simp [not_le.2 hlt]
      · rename_i hge
        have hle := not_lt.1 hge
        split
        · rename_i hlt
          rw [ih _ _ hl]
          simp [hle, hlt]
        · rename_i hnlt
          rw [ih _ _ hl]
          simp [hle, hnlt]

theorem dominates_iff (a b : List K) (h : a.length = b.length) :
    dominates a b = true ↔ Dominates a b := by
  rw [dominates, dominatesAux_iff _ _ _ h]
  simp [Dominates, h]

theorem Dominates.irrefl (a : List K) : ¬ Dominates a a := by
  rintro ⟨_, _, i, x, y, h1, h2, h3⟩
  rw [h1] at h2
  cases h2
  exact lt_irrefl _ h3

theorem Dominates.trans {a b c : List K} (h1 : Dominates a b) (h2 : Dominates b c) : Dominates a c := by
  obtain ⟨l1, w1, i, x, y, hx, hy, hlt⟩ := h1
  obtain ⟨l2, w2, -⟩ := h2
  refine ⟨l1.trans l2, ?_, ?_⟩
  · intro j u w hu hw
    have hj : j < b.length := by rw [← l1]; exact (List.getElem?_eq_some_iff.1 hu).1
    exact (w1 j u _ hu (List.getElem?_eq_getElem hj)).trans (w2 j _ w (List.getElem?_eq_getElem hj) hw)
  · have hi : i < c.length := by rw [← l2]; exact (List.getElem?_eq_some_iff.1 hy).1
    exact ⟨i, x, _, hx, List.getElem?_eq_getElem hi, lt_of_lt_of_le hlt (w2 i y _ hy (List.getElem?_eq_getElem hi))⟩

/-- `dominates` on rows of one fixed width. -/
def rowDom (m : Nat) (a b : { l : List K // l.length = m }) : Bool := dominates a.1 b.1

theorem rowDom_iff (m : Nat) (a b : { l : List K // l.length = m }) :
    rowDom m a b = true ↔ Dominates a.1 b.1 := dominates_iff _ _ (a.2.trans b.2.symm)

theorem rowDom_isDominance (m : Nat) : IsDominance (rowDom (K := K) m) where
  irrefl a := by
    cases h : rowDom m a a with
    | false => rfl
    | true => exact absurd ((rowDom_iff m a a).1 h) (Dominates.irrefl _)
  trans a b c h1 h2 := (rowDom_iff m a c).2 (Dominates.trans ((rowDom_iff m a b).1 h1) ((rowDom_iff m b c).1 h2))

end

section
variable {F : Type} (dom : F → F → Bool)

theorem ndInner_map {R : Type} (f : R → F) (x : R) (as : List R) (ms : List Bool) :
    ndInner dom (f x) (as.map f) ms = ndInner (fun a b => dom (f a) (f b)) x as ms := by
  induction as generalizing ms with
  | nil => cases ms <;> simp [ndInner]
  | cons a as ih => cases ms <;> simp [ndInner, ih]

theorem ndOuter_map {R : Type} (f : R → F) (done rest : List R) (ms : List Bool) :
    ndOuter dom (done.map f) ms (rest.map f) = ndOuter (fun a b => dom (f a) (f b)) done ms rest := by
  induction rest generalizing done ms with
  | nil => rfl
  | cons x xs ih =>
    simp only [List.map_cons, ndOuter, ndInner_map]
    rw [← ih]
    simp

theorem nonDominated_map {R : Type} (f : R → F) (l : List R) :
    nonDominated dom (l.map f) = nonDominated (fun a b => dom (f a) (f b)) l :=
  ndOuter_map dom f [] l []

end

/-- The reference implementation meets the contract assumed of `non_dominated`. -/
theorem nonDominated_isNonDominatedFn {K : Type} [LinearOrder K] :
    IsNonDominatedFn (nonDominated (dominates (K := K))) := by
  intro m rows hrows
  obtain ⟨rs, rfl⟩ : ∃ rs : List { l : List K // l.length = m }, rows = rs.map (·.1) := by
    refine ⟨rows.attach.map (fun r => ⟨r.1, hrows r.1 r.2⟩), ?_⟩
    simp
  have h : nonDominated dominates (rs.map (·.1)) = rs.map (notDominatedIn (rowDom m) rs) := by
    rw [nonDominated_map]
    exact nonDominated_eq (rowDom_isDominance m) rs
  rw [h]
  refine ⟨by simp, ?_⟩
  intro i r hr
  rw [List.getElem?_map, Option.map_eq_some_iff] at hr
  obtain ⟨a, ha, rfl⟩ := hr
  simp only [List.getElem?_map, ha, Option.map_some, Option.some.injEq, notDominatedIn_iff, List.mem_map,
    forall_exists_index, and_imp, forall_apply_eq_imp_iff₂]
  constructor
  · intro h e he hd
    have := h e he
    rw [(rowDom_iff m e a).2 hd] at this
    cases this
  · intro h e he
    cases hd : rowDom m e a with
    | false => rfl
    | true => exact absurd ((rowDom_iff m e a).1 hd) (h e he)

/-! ## Archive histories -/

section
variable {X O F : Type} {dom : F → F → Bool}

/-- the archive holding exactly these rows -/
def archOf (T : List (X × O × F)) : NDArchive X O F :=
  ⟨T.map (fun t => t.1), T.map (fun t => t.2.1), T.map (fun t => t.2.2)⟩

/-- dominance of rows: by fitness -/
def tdom (dom : F → F → Bool) (a b : X × O × F) : Bool := dom a.2.2 b.2.2

theorem tdom_isDominance (h : IsDominance dom) : IsDominance (tdom (X := X) (O := O) dom) where
  irrefl _ := h.irrefl _
  trans _ _ _ := h.trans _ _ _

theorem compress_map_self {α : Type} (p : α → Bool) (l : List α) : compress (l.map p) l = l.filter p := by
  induction l with
  | nil => rfl
  | cons x l ih => cases h : p x <;> simp [compress, h, ih]

theorem startArchive_eq (nd : List F → List Bool) (hnd : ∀ l, nd l = l.map (notDominatedIn dom l))
    (init : List (X × O × F)) :
    startArchive nd (init.map (fun t => t.1)) (init.map (fun t => t.2.1)) (init.map (fun t => t.2.2)) =
      .ok (archOf (init.filter (notDominatedIn (tdom dom) init))) := by
  have hm : nd (init.map (fun t => t.2.2)) = init.map (notDominatedIn (tdom dom) init) := by
    rw [hnd, List.map_map]
    apply List.map_congr_left
    intro t _
    simp [notDominatedIn, tdom, List.all_map, Function.comp_def]
  simp only [startArchive, hm, boolIndex, List.length_map, if_true, compress_map, compress_map_self]
  rfl

theorem archiveUpdate_eq (T b : List (X × O × F)) :
    archiveUpdate dom (some (archOf T)) (b.map (fun t => t.1)) (b.map (fun t => t.2.1)) (b.map (fun t => t.2.2)) =
      .ok (archOf
        (compress (checkAll (tdom dom) T b (List.replicate T.length true)).2 T ++
          compress (checkAll (tdom dom) T b (List.replicate T.length true)).1 b)) := by
  have hl := checkAll_length (tdom dom) T b (List.replicate T.length true) (by simp)
  have hm : checkDomination dom (b.map (fun t => t.2.2)) (archOf T).fitness =
      checkAll (tdom dom) T b (List.replicate T.length true) := by
    simp only [checkDomination, archOf, List.length_map]
    exact checkAll_map dom (fun t : X × O × F => t.2.2) T b _
  simp only [archiveUpdate, hm]
  simp only [archOf, boolIndex, List.length_map, hl, if_true, compress_map, List.map_append]

/-- the rows of the archive after the batches, starting from rows `T` -/
def rowsRun (dom : F → F → Bool) (T : List (X × O × F)) : List (List (X × O × F)) → List (X × O × F)
  | [] => T
  | b :: bs => rowsRun dom (compress (checkAll (tdom dom) T b (List.replicate T.length true)).2 T ++
          compress (checkAll (tdom dom) T b (List.replicate T.length true)).1 b) bs

theorem archiveRun_eq (nd : List F → List Bool) (hnd : ∀ l, nd l = l.map (notDominatedIn dom l))
    (init : List (X × O × F)) (bs : List (List (X × O × F))) :
    archiveRun dom nd init bs =
      .ok (archOf (rowsRun dom (init.filter (notDominatedIn (tdom dom) init)) bs)) := by
  rw [archiveRun, startArchive_eq nd hnd]
  generalize init.filter (notDominatedIn (tdom dom) init) = T
  induction bs generalizing T with
  | nil => rfl
  | cons b bs ih => rw [List.foldl_cons]; simp only [archiveUpdate_eq]; rw [ih]; rfl

theorem rowsRun_spec (hdom : IsDominance dom) (bs : List (List (X × O × F))) (T E : List (X × O × F))
    (hsub : T.Sublist E) (hcov : ∀ y ∈ E, Covers (tdom dom) T y) :
    (rowsRun dom T bs).Sublist (E ++ bs.flatten) ∧
    (∀ y ∈ E ++ bs.flatten, Covers (tdom dom) (rowsRun dom T bs) y) ∧
    (∀ P : X × O × F → Bool,
      (∀ y ∈ E ++ bs.flatten, ∀ x ∈ E ++ bs.flatten, dom x.2.2 y.2.2 = true → P y = false) →
      T.filter P = E.filter P →
      (rowsRun dom T bs).filter P = (E ++ bs.flatten).filter P) := by
  induction bs generalizing T E with
  | nil =>
    simp only [rowsRun, List.flatten_nil, List.append_nil]
    exact ⟨hsub, hcov, fun P _ h => h⟩
  | cons b bs ih =>
    have hd := tdom_isDominance (X := X) (O := O) hdom
    have hlen : (List.replicate T.length true).length = T.length := by simp
    obtain ⟨c1, c2, c3, c4, c5⟩ := checkAll_spec hd T b _ hlen
    have hl := checkAll_length (tdom dom) T b _ hlen
    have ih := ih (compress (checkAll (tdom dom) T b (List.replicate T.length true)).2 T ++
          compress (checkAll (tdom dom) T b (List.replicate T.length true)).1 b) (E ++ b)
      (List.Sublist.append ((compress_sublist _ _).trans hsub) (compress_sublist _ _))
      (by
        intro y hy
        rcases List.mem_append.1 hy with hy | hy
        · refine Covers.trans hd.trans (S := T) ?_ (hcov y hy)
          intro s hs
          exact c4 s (Or.inl (by rw [compress_replicate_true]; exact hs))
        · exact c4 y (Or.inr hy))
    refine ⟨by simpa [rowsRun] using ih.1, by simpa [rowsRun] using ih.2.1, ?_⟩
    intro P hP hTE
    have hP' : ∀ y ∈ (E ++ b) ++ bs.flatten, ∀ x ∈ (E ++ b) ++ bs.flatten,
        dom x.2.2 y.2.2 = true → P y = false := by simpa using hP
    have := ih.2.2 P hP' (by
      rw [List.filter_append, List.filter_append, filter_compress, filter_compress, hTE]
      · exact hl.1
      · intro p hp h0
        obtain ⟨a, ha, hda⟩ := c3 p hp h0
        have hp2 : p.2 ∈ b := (List.of_mem_zip hp).2
        exact hP' p.2 (by simp [hp2]) a (by simp [hsub.subset ha]) hda
      · exact hl.2
      · intro p hp h0
        have hp2 : p.2 ∈ T := (List.of_mem_zip hp).2
        rcases c2 p hp h0 with h1 | ⟨x, hx, hdx⟩
        · have := (List.of_mem_zip h1).1
          simp at this
        · exact hP' p.2 (by simp [hsub.subset hp2]) x (by simp [hx]) hdx)
    simpa [rowsRun] using this

theorem rowsRun_mutual (hdom : IsDominance dom) (bs : List (List (X × O × F))) (T : List (X × O × F))
    (hT : MutuallyNonDominated (tdom dom) T) (hbs : ∀ b ∈ bs, MutuallyNonDominated (tdom dom) b) :
    MutuallyNonDominated (tdom dom) (rowsRun dom T bs) := by
  induction bs generalizing T with
  | nil => exact hT
  | cons b bs ih =>
    have hd := tdom_isDominance (X := X) (O := O) hdom
    obtain ⟨c1, c2, c3, c4, c5⟩ := checkAll_spec hd T b (List.replicate T.length true) (by simp)
    refine ih _ ?_ (fun b' hb' => hbs b' (by simp [hb']))
    have s1 := compress_sublist (checkAll (tdom dom) T b (List.replicate T.length true)).2 T
    have s2 := compress_sublist (checkAll (tdom dom) T b (List.replicate T.length true)).1 b
    intro a ha c hc
    rcases List.mem_append.1 ha with ha | ha <;> rcases List.mem_append.1 hc with hc | hc
    · exact hT a (s1.subset ha) c (s1.subset hc)
    · exact (c5 c hc a ha).1
    · exact (c5 a ha c hc).2
    · exact hbs b (by simp) a (s2.subset ha) c (s2.subset hc)

end

end Verif
