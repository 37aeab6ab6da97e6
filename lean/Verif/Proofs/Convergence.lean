import Verif.Proofs.Search
import Mathlib.Data.Finset.Lattice.Fold

/-! # A union bound for the chance of missing (used by C104) -/

open MeasureTheory
namespace Verif.Proofs
open Verif.Spec
variable {n : Nat}

theorem average_add (f g : (Fin n → ℝ) → ENNReal) : average (fun w => f w + g w) ≤ average f + average g := by
  have key : ∀ k, Measurable k → (∀ w ∈ UnitDraws n, f w ≤ k w) → ∀ h, Measurable h → (∀ w ∈ UnitDraws n, g w ≤ h w) →
      average (fun w => f w + g w) ≤ (∫⁻ w in UnitDraws n, k w) + ∫⁻ w in UnitDraws n, h w := by
    intro k hk h1 h hh h2
    rw [← lintegral_add_left hk]
    unfold average
    refine iInf_le_of_le (fun w => k w + h w) (iInf_le_of_le (hk.add hh) (iInf_le_of_le (fun w hw => add_le_add (h1 w hw) (h2 w hw)) le_rfl))
  by_contra hlt
  rw [not_le] at hlt
  have hg : average g ≠ ⊤ := by
    intro h
    rw [h, add_top] at hlt
    exact absurd hlt not_top_lt
  have h1 : average f < average (fun w => f w + g w) - average g := lt_tsub_iff_right.2 hlt
  conv at h1 => lhs; unfold average
  simp only [iInf_lt_iff] at h1
  obtain ⟨k, hk, hk1, hk2⟩ := h1
  have h2 := lt_tsub_iff_right.1 hk2
  rw [add_comm] at h2
  have h3 := lt_tsub_iff_right.2 h2
  conv at h3 => lhs; unfold average
  simp only [iInf_lt_iff] at h3
  obtain ⟨h, hh, hh1, hh2⟩ := h3
  have h4 := lt_tsub_iff_right.1 hh2
  rw [add_comm] at h4
  exact absurd (key k hk hk1 h hh hh1) (not_le.2 h4)

theorem average_zero : average (n := n) (fun _ => 0) = 0 := average_const 0

theorem average_sum {ι : Type} (J : Finset ι) (f : ι → (Fin n → ℝ) → ENNReal) :
    average (fun w => ∑ j ∈ J, f j w) ≤ ∑ j ∈ J, average (f j) := by
  classical
  induction J using Finset.induction_on with
  | empty => simp [average_zero]
  | insert j J hj ih =>
    rw [Finset.sum_insert hj]
    simp only [Finset.sum_insert hj]
    exact (average_add _ _).trans (add_le_add le_rfl ih)

open Classical in
/-- `x` if `P`, else 0. -/
noncomputable def masked (P : Prop) (x : ENNReal) : ENNReal := if P then x else 0

theorem masked_pos {P : Prop} (h : P) (x : ENNReal) : masked P x = x := if_pos h

theorem masked_neg {P : Prop} (h : ¬ P) (x : ENNReal) : masked P x = 0 := if_neg h

theorem chanceOfMissing_succ {σ : Type} (round : (Fin n → ℝ) → (Fin n → ℝ) → (Fin n → ℝ) → σ → σ) (missed : σ → Prop) (G : Nat) (s : σ) :
    chanceOfMissing round missed (G + 1) s = average fun a => average fun b => average fun c =>
      masked (missed (round a b c s)) (chanceOfMissing round missed G (round a b c s)) := rfl

/-- The chance of missing one of several things, each of which stays found once found. -/
theorem chanceOfMissing_union {σ ι : Type} (round : (Fin n → ℝ) → (Fin n → ℝ) → (Fin n → ℝ) → σ → σ) (Rdy : σ → Prop) (E : ι → σ → Prop)
    (hst : ∀ j a b c s, E j s → E j (round a b c s)) (J : Finset ι) : ∀ (G : Nat) (s : σ) (H : Finset ι), H.Nonempty → (∀ j ∈ J, j ∈ H ∨ E j s) →
      chanceOfMissing round (fun s => Rdy s ∧ ∃ j ∈ J, ¬ E j s) G s ≤ ∑ j ∈ H, chanceOfMissing round (fun s => Rdy s ∧ ¬ E j s) G s := by
  classical
  intro G
  induction G with
  | zero =>
    intro s H hne hH
    simp only [chanceOfMissing]
    rw [Finset.sum_const, nsmul_eq_mul, mul_one]
    exact_mod_cast hne.card_pos
  | succ G ih =>
    intro s H hne hH
    have step : ∀ a b c, masked (Rdy (round a b c s) ∧ ∃ j ∈ J, ¬ E j (round a b c s))
          (chanceOfMissing round (fun s => Rdy s ∧ ∃ j ∈ J, ¬ E j s) G (round a b c s)) ≤
        ∑ j ∈ H, masked (Rdy (round a b c s) ∧ ¬ E j (round a b c s)) (chanceOfMissing round (fun s => Rdy s ∧ ¬ E j s) G (round a b c s)) := by
      intro a b c
      by_cases h : Rdy (round a b c s) ∧ ∃ j ∈ J, ¬ E j (round a b c s)
      · rw [masked_pos h]
        obtain ⟨hr, j0, hj0, hj1⟩ := h
        have hj0H : j0 ∈ H := by
          rcases hH j0 hj0 with h | h
          · exact h
          · exact absurd (hst j0 a b c s h) hj1
        have h1 := ih (round a b c s) (H.filter fun j => ¬ E j (round a b c s)) ⟨j0, by rw [Finset.mem_filter]; exact ⟨hj0H, hj1⟩⟩ (by
          intro j hj
          by_cases he : E j (round a b c s)
          · exact .inr he
          · left
            rw [Finset.mem_filter]
            rcases hH j hj with h | h
            · exact ⟨h, he⟩
            · exact absurd (hst j a b c s h) he)
        refine h1.trans ?_
        have h2 : ∀ j ∈ H.filter (fun j => ¬ E j (round a b c s)), chanceOfMissing round (fun s => Rdy s ∧ ¬ E j s) G (round a b c s) =
            masked (Rdy (round a b c s) ∧ ¬ E j (round a b c s)) (chanceOfMissing round (fun s => Rdy s ∧ ¬ E j s) G (round a b c s)) := by
          intro j hj
          rw [Finset.mem_filter] at hj
          rw [masked_pos ⟨hr, hj.2⟩]
        rw [Finset.sum_congr rfl h2]
        exact Finset.sum_le_sum_of_subset (Finset.filter_subset _ _)
      · rw [masked_neg h]; exact zero_le
    rw [chanceOfMissing_succ]
    simp only [chanceOfMissing_succ]
    have h1 : ∀ a b, (average fun c => masked (Rdy (round a b c s) ∧ ∃ j ∈ J, ¬ E j (round a b c s))
          (chanceOfMissing round (fun s => Rdy s ∧ ∃ j ∈ J, ¬ E j s) G (round a b c s))) ≤ _ :=
      fun a b => (average_mono _ _ fun c => step a b c).trans (average_sum H _)
    have h2 : ∀ a, (average fun b => average fun c => masked (Rdy (round a b c s) ∧ ∃ j ∈ J, ¬ E j (round a b c s))
          (chanceOfMissing round (fun s => Rdy s ∧ ∃ j ∈ J, ¬ E j s) G (round a b c s))) ≤ _ :=
      fun a => (average_mono _ _ fun b => h1 a b).trans (average_sum H _)
    exact (average_mono _ _ h2).trans (average_sum H _)

end Verif.Proofs
