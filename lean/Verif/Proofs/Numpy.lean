import Verif.Model.Numpy
import Verif.Spec.Records

/-! # Lemmas about the numpy fragment -/

namespace Verif
open Spec

theorem normIdx_eq_some {n : Nat} {i : Int} {k : Nat} :
    normIdx n i = some k ↔ k < n ∧ (i = k ∨ i = (k : Int) - n) := by
  unfold normIdx
  split
  · simp; omega
  · split
    · simp; omega
    · simp; omega

theorem normIdx_eq_none {n : Nat} {i : Int} :
    normIdx n i = none ↔ ¬ (-(n : Int) ≤ i ∧ i < n) := by
  unfold normIdx
  split
  · simp; omega
  · split
    · simp; omega
    · simp; omega

theorem resolve_ok_iff {n : Nat} {idx : List Int} :
    (∃ ks, resolve n idx = .ok ks) ↔ inRange n idx = true := by
  induction idx with
  | nil => simp [resolve, inRange]
  | cons i is ih =>
    simp only [resolve]
    cases h : normIdx n i with
    | none =>
      rw [normIdx_eq_none] at h
      simp [inRange]; intro h1 h2; omega
    | some k =>
      have hk := (normIdx_eq_some.1 h)
      have : inRange n (i :: is) = inRange n is := by
        simp [inRange]; omega
      rw [this, ← ih]
      cases hr : resolve n is <;> simp

theorem resolve_error {n : Nat} {idx : List Int} (h : inRange n idx = false) :
    resolve n idx = .error .indexError := by
  induction idx with
  | nil => simp [inRange] at h
  | cons i is ih =>
    simp only [resolve]
    cases hi : normIdx n i with
    | none => rfl
    | some k =>
      have hk := (normIdx_eq_some.1 hi)
      have : inRange n is = false := by
        have : inRange n (i :: is) = inRange n is := by simp [inRange]; omega
        rwa [← this]
      rw [ih this]

theorem resolve_mem {n : Nat} {idx : List Int} {ks : List Nat} (h : resolve n idx = .ok ks) (k : Nat) :
    k ∈ ks ↔ k < n ∧ names n idx k = true := by
  induction idx generalizing ks with
  | nil =>
    simp only [resolve, Except.ok.injEq] at h; subst h; simp [names]
  | cons i is ih =>
    simp only [resolve] at h
    cases hi : normIdx n i with
    | none => simp [hi] at h
    | some j =>
      simp only [hi] at h
      cases hr : resolve n is with
      | error e => simp [hr] at h
      | ok js =>
        simp only [hr, Except.ok.injEq] at h
        subst h
        have hj := normIdx_eq_some.1 hi
        have := ih hr
        simp only [List.mem_cons, this, names, List.any_cons, Bool.or_eq_true, beq_iff_eq]
        constructor
        · rintro (rfl | ⟨h1, h2⟩)
          · exact ⟨hj.1, Or.inl hj.2⟩
          · exact ⟨h1, Or.inr h2⟩
        · rintro ⟨h1, h2 | h2⟩
          · left; omega
          · right; exact ⟨h1, h2⟩

theorem resolve_lt {n : Nat} {idx : List Int} {ks : List Nat} (h : resolve n idx = .ok ks) :
    ∀ k ∈ ks, k < n := fun k hk => ((resolve_mem h k).1 hk).1

theorem setMask_length (mask : List Bool) (ks : List Nat) (b : Bool) :
    (setMask mask ks b).length = mask.length := by
  unfold setMask
  induction ks generalizing mask with
  | nil => rfl
  | cons k ks ih => simp [ih]

theorem setRows_length {α : Type _} (xs : List α) (ks : List Nat) (b : α) :
    (setRows xs ks b).length = xs.length := by
  unfold setRows
  induction ks generalizing xs with
  | nil => rfl
  | cons k ks ih => simp [ih]

theorem setMask_eq_setRows (mask : List Bool) (ks : List Nat) (b : Bool) :
    setMask mask ks b = setRows mask ks b := rfl

theorem setRows_getElem? {α : Type _} (xs : List α) (ks : List Nat) (b : α) (k : Nat) :
    (setRows xs ks b)[k]? = if k ∈ ks ∧ k < xs.length then some b else xs[k]? := by
  unfold setRows
  induction ks generalizing xs with
  | nil => simp
  | cons j ks ih =>
    simp only [List.foldl_cons, ih, List.length_set, List.mem_cons]
    by_cases hk : k < xs.length
    · by_cases h1 : k ∈ ks
      · simp [h1, hk]
      · by_cases h2 : k = j
        · subst h2; simp [h1, hk]
        · have : ¬ j = k := fun h => h2 h.symm
          simp [h1, h2, this]
    · simp [hk]

theorem rowsSet_eq {α : Type} (xs : List α) (ks : List Nat) (b : α) (g : Nat → Bool)
    (h : ∀ k, k < xs.length → (k ∈ ks ↔ g k = true)) :
    setRows xs ks b = rowsSet g b xs := by
  apply List.ext_getElem?
  intro k
  rw [setRows_getElem?]
  simp only [rowsSet, List.getElem?_map, List.getElem?_zipIdx, Nat.zero_add]
  by_cases hk : k < xs.length
  · have := h k hk
    by_cases hg : g k = true
    · simp [this.2 hg, hk, hg]
    · have hn : k ∉ ks := fun hh => hg (this.1 hh)
      simp [hn, hk, hg]
  · simp [hk]

theorem compress_eq_rowsAt_aux {α : Type} (xs : List α) (m : List Bool) (g : Nat → Bool) (s : Nat)
    (hl : m.length = xs.length) (h : ∀ k, k < xs.length → m[k]? = some (g (s + k))) :
    compress m xs = ((xs.zipIdx s).filter (fun p => g p.2)).map (fun p => p.1) := by
  induction xs generalizing m s with
  | nil => cases m <;> simp [compress]
  | cons x xs ih =>
    cases m with
    | nil => simp at hl
    | cons b m =>
      have h0 := h 0 (by simp)
      simp at h0
      have ih' := ih m (s+1) (by simpa using hl) (by
        intro k hk
        have := h (k+1) (by simpa using hk)
        simp at this
        rw [this]; congr 2; omega)
      subst h0
      cases hb : g s <;> simp [compress, ih', hb]

theorem compress_eq_rowsAt {α : Type} (xs : List α) (m : List Bool) (g : Nat → Bool)
    (hl : m.length = xs.length) (h : ∀ k, k < xs.length → m[k]? = some (g k)) :
    compress m xs = rowsAt g xs := by
  unfold rowsAt
  exact compress_eq_rowsAt_aux xs m g 0 hl (by simpa using h)

theorem keepMask_get {n : Nat} {idx : List Int} {ks : List Nat} (h : resolve n idx = .ok ks) (k : Nat)
    (hk : k < n) :
    (setMask (List.replicate n false) ks true)[k]? = some (names n idx k) := by
  rw [setMask_eq_setRows, setRows_getElem?]
  have := resolve_mem h k
  by_cases hn : names n idx k = true
  · simp [this.2 ⟨hk, hn⟩, hk, hn]
  · have : k ∉ ks := fun hh => hn (this.1 hh).2
    simp [this, hk, hn]

theorem deleteMask_get {n : Nat} {idx : List Int} {ks : List Nat} (h : resolve n idx = .ok ks) (k : Nat)
    (hk : k < n) :
    (setMask (List.replicate n true) ks false)[k]? = some (!names n idx k) := by
  rw [setMask_eq_setRows, setRows_getElem?]
  have := resolve_mem h k
  by_cases hn : names n idx k = true
  · simp [this.2 ⟨hk, hn⟩, hk, hn]
  · have : k ∉ ks := fun hh => hn (this.1 hh).2
    simp [this, hk, hn]

theorem boolIndex_ok {α : Type} (xs : List α) (m : List Bool) (g : Nat → Bool)
    (hl : m.length = xs.length) (h : ∀ k, k < xs.length → m[k]? = some (g k)) :
    boolIndex m xs = .ok (rowsAt g xs) := by
  simp [boolIndex, hl, compress_eq_rowsAt xs m g hl h]

theorem rowsAt_map {α β : Type} (g : Nat → Bool) (f : α → β) (l : List α) :
    rowsAt g (l.map f) = (rowsAt g l).map f := by
  simp only [rowsAt, List.zipIdx_map, List.filter_map, List.map_map]
  congr 1

theorem rowsSet_map {α β : Type} (g : Nat → Bool) (f : α → β) (a : α) (l : List α) :
    rowsSet g (f a) (l.map f) = (rowsSet g a l).map f := by
  simp only [rowsSet, List.zipIdx_map, List.map_map]
  apply List.map_congr_left
  intro p _
  simp only [Function.comp, Prod.map]
  split <;> simp_all

theorem rowsSet_length {α : Type} (g : Nat → Bool) (a : α) (l : List α) :
    (rowsSet g a l).length = l.length := by simp [rowsSet]

theorem rowsAt_congr {α : Type} (g g' : Nat → Bool) (l : List α)
    (h : ∀ k, k < l.length → g k = g' k) : rowsAt g l = rowsAt g' l := by
  unfold rowsAt
  congr 1
  apply List.filter_congr
  intro p hp
  have := List.snd_lt_of_mem_zipIdx hp
  exact h _ (by simpa using this)

end Verif
