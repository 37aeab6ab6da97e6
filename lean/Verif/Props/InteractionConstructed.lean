import Verif.Props.Interaction

/-! # C15 for EAs made from a problem -/

open Verif
namespace Verif.Props
variable {X O F C U V S Q R : Type}

/-- C15. An interactive EA made from an `MOProblem` or a `DataProblem` is started after `set_interaction_type(key)` with any of the four
keys; made from a problem that is neither one of these nor an `IOPISProblem` it cannot be started, whatever key is given. -/
theorem c15_constructed_from_problem (ops : Ops X O F C U V S Q R) (design : Nat → Nat → Except Err (Batch X))
    (vec0 : Nat → V) (sel0 : Nat → S) (prob0 : Q) (useSurr ka : Bool) (nIter nGen total : Nat) (ty : ProblemType) (p : Nat × Nat)
    (ps lr : Option Nat) (s : EA X O F C U V S Q)
    (h : construct ops design vec0 sel0 prob0 true useSurr ka false nIter nGen total (some (ty, p)) none ps lr = .ok s)
    (str : String) (k : Kind) (hk : Kind.parse str = some k) :
    ((ty = .mo ∨ ty = .data) → ∃ o t, (s.call ops (.setType (some str))).1 = .ok none ∧
      (s.call ops (.setType (some str))).2.start ops = (.ok o, t) ∧ t.itype = some k ∧
      (k ≠ .ranges → ∃ id, o = some ⟨id, k.cls⟩)) ∧
    (ty = .other → ((s.call ops (.setType (some str))).2.start ops).1 = .error .eaError) := by
  have hcfg : s.cfg.interact = true ∧ s.cfg.saveND = false ∧ ((ty = .mo ∨ ty = .data) → s.cfg.location = some .selection) ∧
      (ty = .other → s.cfg.location = none ∧ s.typeSet = false) := by
    unfold construct at h
    obtain ⟨m, nc⟩ := p
    dsimp only at h
    cases hd : design 0 (choosePopSize m ps lr) with
    | error e => rw [hd] at h; cases h
    | ok rows =>
      rw [hd] at h
      dsimp only at h
      split at h
      · cases h
      · rename_i o t ht
        injection h with h
        have e1 : t.cfg = _ := (congrArg (fun q => q.2.cfg) ht).symm.trans (popAdd_frame ops _ rows).1
        have e2 : t.typeSet = _ := (congrArg (fun q => q.2.typeSet) ht).symm.trans (popAdd_frame ops _ rows).2.2.2.2.2.2.2.2.2.2.2.2.1
        subst h
        refine ⟨?_, ?_, ?_, ?_⟩
        · rw [e1]
        · rw [e1]
        · rintro (rfl | rfl) <;> rw [e1] <;> rfl
        · rintro rfl
          exact ⟨by rw [e1]; rfl, by rw [e2]; rfl⟩
  obtain ⟨hi, hn, h1, h2⟩ := hcfg
  constructor
  · intro ht
    obtain ⟨o, t, a1, a2, a3, -, -, -, a4, -⟩ := c15_valid_type_starts ops s (h1 ht) hi hn str k hk
    exact ⟨o, t, a1, a2, a3, fun hr => ⟨_, a4 hr⟩⟩
  · intro ht
    obtain ⟨hl, hts⟩ := h2 ht
    have hc : (s.call ops (.setType (some str))).2 = s := by
      simp [EA.call, EA.setInteractionType, hl]
    rw [hc, c15_start_refuses_unset_type ops s hi hts]

/-- C15. The four keys are known. -/
example : ∀ str ∈ ["Reference point", "Preferred solutions", "Non-preferred solutions", "Preferred ranges"], ∃ k, Kind.parse str = some k := by
  simp [Kind.parse]

end Verif.Props
