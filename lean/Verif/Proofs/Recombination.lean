import Verif.Model.Recombination
import Verif.Spec.Recombination
import Verif.Proofs.MOEAD

/-! # Lemmas about variation -/

namespace Verif
open Spec

variable {n : Nat}

theorem closePairs_length {α : Type} (l : List α) : (closePairs l).length = l.length + l.length % 2 := by
  unfold closePairs
  split
  · rename_i h
    simp only [List.length_append, List.length_take]
    omega
  · omega

theorem closePairs_even {α : Type} (l : List α) : (closePairs l).length % 2 = 0 := by
  rw [closePairs_length]; omega

theorem closePairs_get {α : Type} (l : List α) (j : Nat) (h : j < l.length) : (closePairs l)[j]? = l[j]? := by
  unfold closePairs
  split
  · rw [List.getElem?_append_left h]
  · rfl

theorem closePairs_last {α : Type} (l : List α) (p : Nat) (h : p % 2 = 0) (hp : p < l.length) :
    (closePairs l)[p + 1]? = if p + 1 < l.length then l[p + 1]? else l[0]? := by
  by_cases h1 : p + 1 < l.length
  · rw [if_pos h1, closePairs_get _ _ h1]
  · rw [if_neg h1]
    have hl : l.length = p + 1 := by omega
    unfold closePairs
    rw [if_pos (by omega), List.getElem?_append_right (by omega), hl]
    simp

theorem sbxPairs_length (proC disC : ℝ) (rand : Nat → SbxDraw n) (k : Nat) (rows : List (Row n)) :
    (sbxPairs proC disC rand k rows).length = 2 * (rows.length / 2) := by
  fun_induction sbxPairs proC disC rand k rows with
  | case1 k a b rest ih => simp only [List.length_cons, ih]; omega
  | case2 rows k h =>
    match rows, h with
    | [], _ => simp
    | [a], _ => simp
    | a :: b :: rest, h => exact absurd rfl (h a b rest)

/-- The two children of pair `j`. -/
theorem sbxPairs_get (proC disC : ℝ) (rand : Nat → SbxDraw n) (k : Nat) (rows : List (Row n)) (j : Nat) (a b : Row n)
    (ha : rows[2 * j]? = some a) (hb : rows[2 * j + 1]? = some b) :
    (sbxPairs proC disC rand k rows)[2 * j]? = some (fun i =>
      sbxFirst (sbxBeta proC disC ((rand (k + j)).miu i) ((rand (k + j)).flip i) ((rand (k + j)).u i)) (a i) (b i)) ∧
    (sbxPairs proC disC rand k rows)[2 * j + 1]? = some (fun i =>
      sbxSecond (sbxBeta proC disC ((rand (k + j)).miu i) ((rand (k + j)).flip i) ((rand (k + j)).u i)) (a i) (b i)) := by
  fun_induction sbxPairs proC disC rand k rows generalizing j with
  | case1 k x y rest ih =>
    cases j with
    | zero =>
      simp at ha hb
      subst ha hb
      simp
    | succ j =>
      have e1 : 2 * (j + 1) = 2 * j + 1 + 1 := by ring
      rw [e1] at ha hb ⊢
      simp only [List.getElem?_cons_succ] at ha hb ⊢
      have := ih j ha hb
      rw [show k + 1 + j = k + (j + 1) by ring] at this
      exact this
  | case2 rows k h =>
    match rows, h with
    | [], _ => simp at ha
    | [a], _ =>
      simp at hb
    | a :: b :: rest, h => exact absurd rfl (h a b rest)

theorem sbxDo_spec (proC disC : ℝ) (shuffle : List Nat → List Nat) (rand : Nat → SbxDraw n) (pop off : List (Row n))
    (ids : Option (List Nat)) (h : sbxDo proC disC shuffle rand pop ids = .ok off) :
    off.length = (matingIds shuffle pop.length ids).length + (matingIds shuffle pop.length ids).length % 2 ∧
    ∀ j, 2 * j < (matingIds shuffle pop.length ids).length → ∃ (p q : Nat) (a b : Row n),
      (matingIds shuffle pop.length ids)[2 * j]? = some p ∧ partner (matingIds shuffle pop.length ids) (2 * j) = some q ∧
      pop[p]? = some a ∧ pop[q]? = some b ∧
      off[2 * j]? = some (fun i =>
        sbxFirst (sbxBeta proC disC ((rand j).miu i) ((rand j).flip i) ((rand j).u i)) (a i) (b i)) ∧
      off[2 * j + 1]? = some (fun i =>
        sbxSecond (sbxBeta proC disC ((rand j).miu i) ((rand j).flip i) ((rand j).u i)) (a i) (b i)) := by
  unfold sbxDo at h
  generalize matingIds shuffle pop.length ids = l at h ⊢
  split at h
  · simp at h
  · rename_i rows hr
    simp only [Except.ok.injEq] at h
    subst h
    obtain ⟨t1, t2, t3⟩ := takeRows_spec _ _ _ hr
    constructor
    · rw [sbxPairs_length, closePairs_length, t1]; omega
    · intro j hj
      have hp : l[2 * j]? = some l[2 * j] := by simp [hj]
      generalize l[2 * j] = p at hp
      have hq : ∃ q, partner l (2 * j) = some q := by
        unfold partner
        split
        · rename_i h1; exact ⟨l[2 * j + 1], by simp [h1]⟩
        · exact ⟨l[0]'(by omega), by simp⟩
      obtain ⟨q, hq⟩ := hq
      have hpl := t2 p (List.mem_of_getElem? hp)
      have hql : q < pop.length := by
        unfold partner at hq
        split at hq
        · exact t2 q (List.mem_of_getElem? hq)
        · exact t2 q (List.mem_of_getElem? hq)
      have ea : pop[p]? = some pop[p] := by simp [hpl]
      have eb : pop[q]? = some pop[q] := by simp [hql]
      refine ⟨p, q, _, _, hp, hq, ea, eb, ?_⟩
      have hra : (closePairs rows)[2 * j]? = some pop[p] := by
        rw [closePairs_get _ _ (by omega), t3 _ _ hp, ea]
      have hrb : (closePairs rows)[2 * j + 1]? = some pop[q] := by
        rw [closePairs_last _ _ (by omega) (by omega), t1]
        unfold partner at hq
        split at hq
        · rename_i h1
          rw [if_pos h1, t3 _ _ hq, eb]
        · rename_i h1
          rw [if_neg h1, t3 _ _ hq, eb]
      have := sbxPairs_get proC disC rand 0 (closePairs rows) j _ _ hra hrb
      rw [Nat.zero_add] at this
      exact this

theorem sbxDo_total (proC disC : ℝ) (shuffle : List Nat → List Nat) (rand : Nat → SbxDraw n) (pop : List (Row n))
    (ids : Option (List Nat)) (h : ∀ k ∈ matingIds shuffle pop.length ids, k < pop.length) :
    ∃ off, sbxDo proC disC shuffle rand pop ids = .ok off := by
  obtain ⟨rows, hr⟩ := takeRows_total _ _ h
  exact ⟨_, by unfold sbxDo; rw [hr]⟩

theorem sbxDo_error (proC disC : ℝ) (shuffle : List Nat → List Nat) (rand : Nat → SbxDraw n) (pop : List (Row n))
    (ids : Option (List Nat)) (h : ∃ k ∈ matingIds shuffle pop.length ids, pop.length ≤ k) :
    sbxDo proC disC shuffle rand pop ids = .error .indexError := by
  unfold sbxDo
  split
  · rfl
  · rename_i rows hr
    obtain ⟨k, hk, hl⟩ := h
    have := (takeRows_spec _ _ _ hr).2.1 k hk
    omega

end Verif
