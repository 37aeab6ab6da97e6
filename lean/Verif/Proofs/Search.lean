import Verif.Spec.Search
import Mathlib.MeasureTheory.Integral.Lebesgue.Add
import Mathlib.MeasureTheory.Integral.Lebesgue.Markov
import Mathlib.MeasureTheory.Measure.Lebesgue.Basic

/-! # Upper integrals over uniform draws; the chance of missing (used by C100) -/

open MeasureTheory
namespace Verif.Proofs
open Verif.Spec
variable {n : Nat}

theorem measurableSet_unitDraws : MeasurableSet (UnitDraws n) := MeasurableSet.univ_pi (fun _ => measurableSet_Ico)

theorem volume_unitDraws : volume (UnitDraws n) = 1 := by
  unfold UnitDraws
  rw [volume_pi_pi]; simp

theorem average_measurable (f : (Fin n → ℝ) → ENNReal) (hf : Measurable f) : average f = ∫⁻ w in UnitDraws n, f w := by
  apply le_antisymm
  · exact iInf_le_of_le f (iInf_le_of_le hf (iInf_le_of_le (fun _ _ => le_rfl) le_rfl))
  · refine le_iInf fun g => le_iInf fun _ => le_iInf fun h => ?_
    exact setLIntegral_mono' measurableSet_unitDraws h

theorem average_const (c : ENNReal) : average (n := n) (fun _ => c) = c := by
  rw [average_measurable _ measurable_const, setLIntegral_const, volume_unitDraws, mul_one]

theorem average_le (f : (Fin n → ℝ) → ENNReal) (c : ENNReal) (q p : ℝ) (hq0 : 0 ≤ q) (hq1 : q ≤ 1) (A : Set (Fin n → ℝ)) (hA : MeasurableSet A)
    (hAU : A ⊆ UnitDraws n) (hp : ENNReal.ofReal p ≤ volume A) (hf : ∀ w ∈ UnitDraws n, f w ≤ c) (hfA : ∀ w ∈ A, f w ≤ c * ENNReal.ofReal q) :
    average f ≤ c * ENNReal.ofReal (1 - p * (1 - q)) := by
  classical
  have hvA : volume A ≤ 1 := by rw [← volume_unitDraws (n := n)]; exact measure_mono hAU
  have hfin : volume A ≠ ⊤ := (hvA.trans_lt ENNReal.one_lt_top).ne
  let g : (Fin n → ℝ) → ENNReal := fun w => if w ∈ A then c * ENNReal.ofReal q else c
  have hg : Measurable g := Measurable.ite hA measurable_const measurable_const
  have hgf : ∀ w ∈ UnitDraws n, f w ≤ g w := by
    intro w hw
    by_cases h : w ∈ A
    · simp only [g, h, if_true]; exact hfA w h
    · simp only [g, h, if_false]; exact hf w hw
  have hle : average f ≤ ∫⁻ w in UnitDraws n, g w := iInf_le_of_le g (iInf_le_of_le hg (iInf_le_of_le hgf le_rfl))
  refine hle.trans ?_
  · have e : ∫⁻ w in UnitDraws n, g w = c * ENNReal.ofReal q * volume A + c * volume (UnitDraws n \ A) := by
      have hU : UnitDraws n = A ∪ (UnitDraws n \ A) := (Set.union_sdiff_cancel hAU).symm
      rw [hU, lintegral_union (measurableSet_unitDraws.diff hA) Set.disjoint_sdiff_right, ← hU]
      congr 1
      · rw [setLIntegral_congr_fun (g := fun _ => c * ENNReal.ofReal q) hA (fun w hw => by simp only [g, hw, if_true]), setLIntegral_const]
      · rw [setLIntegral_congr_fun (g := fun _ => c) (measurableSet_unitDraws.diff hA) (fun w hw => by simp only [g, hw.2, if_false]), setLIntegral_const]
    rw [e, measure_sdiff hAU hA.nullMeasurableSet hfin, volume_unitDraws]
    obtain ⟨a, ha⟩ : ∃ a : ℝ, 0 ≤ a ∧ volume A = ENNReal.ofReal a := ⟨(volume A).toReal, ENNReal.toReal_nonneg, (ENNReal.ofReal_toReal hfin).symm⟩
    obtain ⟨ha0, ha⟩ := ha
    rw [ha] at hvA hp ⊢
    have ha1 : a ≤ 1 := ENNReal.ofReal_le_one.1 hvA
    have hpa : p ≤ a := (ENNReal.ofReal_le_ofReal_iff ha0).1 hp
    rw [mul_assoc, ← mul_add, ← ENNReal.ofReal_one, ← ENNReal.ofReal_sub _ ha0, ← ENNReal.ofReal_mul hq0, ← ENNReal.ofReal_add (by positivity) (by linarith)]
    refine mul_le_mul_right ?_ c
    apply ENNReal.ofReal_le_ofReal
    nlinarith

theorem average_mono (f g : (Fin n → ℝ) → ENNReal) (h : ∀ w, f w ≤ g w) : average f ≤ average g := by
  unfold average
  refine iInf_mono fun k => iInf_mono fun _ => ?_
  exact iInf_mono' fun hg => ⟨fun w hw => (h w).trans (hg w hw), le_rfl⟩

theorem chanceOfMissing_mono {σ : Type} (round : (Fin n → ℝ) → (Fin n → ℝ) → (Fin n → ℝ) → σ → σ) (missed missed' : σ → Prop)
    (h : ∀ s, missed s → missed' s) : ∀ G s, chanceOfMissing round missed G s ≤ chanceOfMissing round missed' G s := by
  classical
  intro G
  induction G with
  | zero => intro s; exact le_rfl
  | succ G ih =>
    intro s
    refine average_mono _ _ fun a => average_mono _ _ fun b => average_mono _ _ fun c => ?_
    by_cases hm : missed (round a b c s)
    · rw [if_pos hm, if_pos (h _ hm)]; exact ih _
    · rw [if_neg hm]; exact zero_le

theorem chanceOfMissing_le {σ : Type} (round : (Fin n → ℝ) → (Fin n → ℝ) → (Fin n → ℝ) → σ → σ) (missed : σ → Prop) (I : σ → Prop)
    (pa pb pc : ℝ) (h0 : 0 ≤ pa ∧ 0 ≤ pb ∧ 0 ≤ pc) (h1 : pb * pc ≤ 1 ∧ pc ≤ 1)
    (hI : ∀ a b c s, missed (round a b c s) → I (round a b c s))
    (hstep : ∀ s, I s → ∃ A : Set (Fin n → ℝ), MeasurableSet A ∧ A ⊆ UnitDraws n ∧ ENNReal.ofReal pa ≤ volume A ∧ ∀ a ∈ A,
      ∃ B : Set (Fin n → ℝ), MeasurableSet B ∧ B ⊆ UnitDraws n ∧ ENNReal.ofReal pb ≤ volume B ∧ ∀ b ∈ B,
      ∃ C : Set (Fin n → ℝ), MeasurableSet C ∧ C ⊆ UnitDraws n ∧ ENNReal.ofReal pc ≤ volume C ∧ ∀ c ∈ C, ¬ missed (round a b c s)) :
    ∀ G s, I s → chanceOfMissing round missed G s ≤ ENNReal.ofReal (1 - pa * (pb * pc)) ^ G := by
  classical
  have mono : ∀ (f : (Fin n → ℝ) → ENNReal) (c : ENNReal), (∀ w, f w ≤ c) → average f ≤ c := by
    intro f c h
    exact (average_mono f _ h).trans (average_const (n := n) c).le
  intro G
  induction G with
  | zero => intro s _; simp [chanceOfMissing]
  | succ G ih =>
    intro s hs
    obtain ⟨A, hA, hAU, hpA, hA'⟩ := hstep s hs
    rw [pow_succ]
    set c := ENNReal.ofReal (1 - pa * (pb * pc)) ^ G with hc
    have hin : ∀ x y z, (if missed (round x y z s) then chanceOfMissing round missed G (round x y z s) else 0) ≤ c := by
      intro x y z
      split
      · next hm => exact ih _ (hI _ _ _ _ hm)
      · exact zero_le
    show average _ ≤ _
    have key := average_le (n := n) (fun x => average fun y => average fun z =>
      if missed (round x y z s) then chanceOfMissing round missed G (round x y z s) else 0) c (1 - pb * pc) pa (by linarith) (by nlinarith) A hA hAU hpA
      (fun x _ => mono _ _ fun y => mono _ _ fun z => hin x y z) (by
        intro x hx
        obtain ⟨B, hB, hBU, hpB, hB'⟩ := hA' x hx
        have k2 := average_le (n := n) (fun y => average fun z =>
          if missed (round x y z s) then chanceOfMissing round missed G (round x y z s) else 0) c (1 - pc) pb (by linarith) (by linarith) B hB hBU hpB
          (fun y _ => mono _ _ fun z => hin x y z) (by
            intro y hy
            obtain ⟨C, hC, hCU, hpC, hC'⟩ := hB' y hy
            have k3 := average_le (n := n) (fun z =>
              if missed (round x y z s) then chanceOfMissing round missed G (round x y z s) else 0) c 0 pc le_rfl (by norm_num) C hC hCU hpC
              (fun z _ => hin x y z) (by
                intro z hz
                rw [if_neg (hC' z hz)]; exact zero_le)
            simpa using k3)
        simpa using k2)
    simpa using key

end Verif.Proofs
