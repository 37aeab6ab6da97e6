import Verif.Model.Management
import Verif.Spec.Management
import Verif.Proofs.Numpy
import Verif.Proofs.MOEAD

namespace Verif
open Verif.Spec
open _root_.Spec (names rowsAt inRange)

section
variable {α : Type} [LinearOrder α]

theorem rowPosLe_total (p q : α × Nat) : rowPosLe p q ∨ rowPosLe q p := by
  unfold rowPosLe
  rcases lt_trichotomy p.1 q.1 with h | h | h
  · exact Or.inl (Or.inl h)
  · rcases le_total p.2 q.2 with h2 | h2
    · exact Or.inl (Or.inr ⟨h, h2⟩)
    · exact Or.inr (Or.inr ⟨h.symm, h2⟩)
  · exact Or.inr (Or.inl h)

theorem rowPosLe_trans {p q r : α × Nat} (h1 : rowPosLe p q) (h2 : rowPosLe q r) : rowPosLe p r := by
  unfold rowPosLe at *
  rcases h1 with h1 | ⟨h1, h1'⟩ <;> rcases h2 with h2 | ⟨h2, h2'⟩
  · exact Or.inl (h1.trans h2)
  · exact Or.inl (h2 ▸ h1)
  · exact Or.inl (h1 ▸ h2)
  · exact Or.inr ⟨h1.trans h2, h1'.trans h2'⟩

instance : Std.Total (rowPosLe (α := α)) := ⟨rowPosLe_total⟩
instance : IsTrans (α × Nat) rowPosLe := ⟨fun _ _ _ => rowPosLe_trans⟩

theorem mem_runStarts (l : List (α × Nat)) (prev : Option α) (hs : l.Pairwise rowPosLe)
    (hp : ∀ a, prev = some a → ∀ p ∈ l, a ≤ p.1) (k : Nat) :
    k ∈ runStarts prev l ↔ ∃ x, (x, k) ∈ l ∧ prev ≠ some x ∧ ∀ j, j < k → (x, j) ∉ l := by
  induction l generalizing prev with
  | nil => simp [runStarts]
  | cons p ps ih =>
    obtain ⟨y, i⟩ := p
    rw [List.pairwise_cons] at hs
    obtain ⟨hs1, hs2⟩ := hs
    have hle : ∀ a, some y = some a → ∀ q ∈ ps, a ≤ q.1 := by
      intro a ha q hq
      simp only [Option.some.injEq] at ha
      subst ha
      rcases hs1 q hq with h | h
      · exact le_of_lt h
      · exact le_of_eq h.1
    have ih' := ih (some y) hs2 hle
    unfold runStarts
    by_cases hpy : prev = some y
    · rw [if_pos hpy, ih']
      constructor
      · rintro ⟨x, h1, h2, h3⟩
        have hxy : x ≠ y := fun h => h2 (by rw [h])
        refine ⟨x, List.mem_cons_of_mem _ h1, by rw [hpy]; exact h2, fun j hj hm => ?_⟩
        rcases List.mem_cons.1 hm with h | h
        · simp only [Prod.mk.injEq] at h
          exact hxy h.1
        · exact h3 j hj h
      · rintro ⟨x, h1, h2, h3⟩
        rw [hpy] at h2
        refine ⟨x, ?_, h2, fun j hj hm => h3 j hj (List.mem_cons_of_mem _ hm)⟩
        rcases List.mem_cons.1 h1 with h | h
        · simp only [Prod.mk.injEq] at h
          exact absurd (by rw [h.1]) h2
        · exact h
    · rw [if_neg hpy, List.mem_cons, ih']
      constructor
      · rintro (rfl | ⟨x, h1, h2, h3⟩)
        · refine ⟨y, List.mem_cons_self, hpy, fun j hj hm => ?_⟩
          rcases List.mem_cons.1 hm with h | h
          · simp only [Prod.mk.injEq] at h
            omega
          · rcases hs1 _ h with h' | h'
            · exact lt_irrefl _ h'
            · have := h'.2
              simp only at this
              omega
        · have hxy : x ≠ y := fun h => h2 (by rw [h])
          refine ⟨x, List.mem_cons_of_mem _ h1, ?_, fun j hj hm => ?_⟩
          · intro h
            have ha := hp x h (y, i) List.mem_cons_self
            have hb := hle y rfl _ h1
            exact hxy (le_antisymm ha hb)
          · rcases List.mem_cons.1 hm with h | h
            · simp only [Prod.mk.injEq] at h
              exact hxy h.1
            · exact h3 j hj h
      · rintro ⟨x, h1, h2, h3⟩
        rcases List.mem_cons.1 h1 with h | h
        · simp only [Prod.mk.injEq] at h
          exact Or.inl h.2
        · by_cases hyx : y = x
          · subst hyx
            by_cases hik : i < k
            · exact absurd List.mem_cons_self (h3 i hik)
            · rcases hs1 _ h with h' | h'
              · exact absurd h' (lt_irrefl _)
              · have h4 := h'.2
                simp only at h4
                exact Or.inl (by omega)
          · exact Or.inr ⟨x, h, fun e => hyx (Option.some.inj e), fun j hj hm => h3 j hj (List.mem_cons_of_mem _ hm)⟩

theorem mem_zipIdx_iff' {l : List α} {x : α} {k : Nat} : (x, k) ∈ l.zipIdx ↔ l[k]? = some x := by
  rw [List.mem_zipIdx_iff_getElem?]

theorem mem_uniqueIdx (l : List α) (k : Nat) :
    k ∈ uniqueIdx l ↔ ∃ x, l[k]? = some x ∧ ∀ j, j < k → l[j]? ≠ some x := by
  unfold uniqueIdx
  rw [mem_runStarts _ _ (List.pairwise_insertionSort _ _) (by simp)]
  simp only [List.mem_insertionSort, mem_zipIdx_iff']
  simp

end

theorem npDelete_ok (n : Nat) (idx : List Int) (h : inRange n idx = true) :
    npDelete n idx = .ok ((List.range n).filter (fun k => !names n idx k)) := by
  obtain ⟨ks, hk⟩ := resolve_ok_iff.2 h
  unfold npDelete
  rw [hk]
  simp only [Except.ok.injEq]
  rw [compress_eq_rowsAt _ _ (fun k => !names n idx k) (by simp [setMask_length])
    (fun k hk' => deleteMask_get hk k (by simpa using hk'))]
  unfold rowsAt
  have hc : (List.range n).zipIdx.filter (fun p => (fun k => !names n idx k) p.2) =
      (List.range n).zipIdx.filter ((fun k => !names n idx k) ∘ Prod.fst) := by
    apply List.filter_congr
    rintro ⟨a, b⟩ hp
    rw [List.mem_zipIdx_iff_getElem?] at hp
    have : b = a := by
      have := List.getElem?_eq_some_iff.1 hp
      simpa using this.2
    subst this
    rfl
  rw [hc, ← List.filter_map]
  congr 1
  exact List.zipIdx_map_fst 0 _

theorem npDelete_error (n : Nat) (idx : List Int) (h : inRange n idx = false) : npDelete n idx = .error .indexError := by
  unfold npDelete
  rw [resolve_error h]

end Verif
