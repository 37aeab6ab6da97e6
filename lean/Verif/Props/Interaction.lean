import Mathlib.Tactic.ByContra
import Verif.Props.Loop

/-!
# Properties C13, C14, C15, C16: interaction protocol and construction
-/

namespace Verif.Props
open Verif Spec

variable {X O F C U V S Q R : Type}

/-! ## What the methods leave alone -/

/-- Interaction state a generation never touches, even when it raises. -/
structure SameInteraction (s t : EA X O F C U V S Q) : Prop where
  cfg : t.cfg = s.cfg
  reqId : t.reqId = s.reqId
  itype : t.itype = s.itype
  typeSet : t.typeSet = s.typeSet
  allowRead : t.allowRead = s.allowRead
  clock : s.clock ≤ t.clock

theorem SameInteraction.refl (s : EA X O F C U V S Q) : SameInteraction s s :=
  ⟨rfl, rfl, rfl, rfl, rfl, Nat.le_refl _⟩

theorem SameInteraction.trans {s t u : EA X O F C U V S Q} (h1 : SameInteraction s t) (h2 : SameInteraction t u) :
    SameInteraction s u :=
  ⟨h2.cfg.trans h1.cfg, h2.reqId.trans h1.reqId, h2.itype.trans h1.itype, h2.typeSet.trans h1.typeSet,
    h2.allowRead.trans h1.allowRead, Nat.le_trans h1.clock h2.clock⟩

theorem nextGen_interaction (ops : Ops X O F C U V S Q R) (s : EA X O F C U V S Q) :
    SameInteraction s (EA.nextGen ops s).2 := by
  unfold EA.nextGen
  cases ops.mate s.clock s.pop with
  | error e => exact ⟨rfl, rfl, rfl, rfl, rfl, Nat.le_succ _⟩
  | ok off =>
    simp only
    have h1 : SameInteraction s (EA.popAdd ops { s with clock := s.clock + 1 } off).2 :=
      ⟨rfl, rfl, rfl, rfl, rfl, by simp only [EA.popAdd]; omega⟩
    generalize EA.popAdd ops { s with clock := s.clock + 1 } off = pr at *
    obtain ⟨r, s1⟩ := pr
    cases r with
    | error e => exact h1
    | ok res =>
      simp only at h1 ⊢
      have h2 : SameInteraction s1 (if s1.cfg.saveND then
            match archiveUpdate ops.dom s1.nd off.rows res.objectives res.fitness with
            | .error e => ((.error e, s1) : EARes Unit X O F C U V S Q)
            | .ok nd => (.ok (), { s1 with nd := some nd })
          else (.ok (), s1)).2 := by
        split
        · split
          · exact SameInteraction.refl _
          · exact ⟨rfl, rfl, rfl, rfl, rfl, Nat.le_refl _⟩
        · exact SameInteraction.refl _
      generalize (if s1.cfg.saveND then
            match archiveUpdate ops.dom s1.nd off.rows res.objectives res.fitness with
            | .error e => ((.error e, s1) : EARes Unit X O F C U V S Q)
            | .ok nd => (.ok (), { s1 with nd := some nd })
          else (.ok (), s1)) = a at h2
      obtain ⟨a1, s2⟩ := a
      cases a1 with
      | error e => exact h1.trans h2
      | ok u =>
        simp only at h2 ⊢
        refine (h1.trans h2).trans ?_
        split
        · exact ⟨rfl, rfl, rfl, rfl, rfl, Nat.le_succ _⟩
        · split
          · exact ⟨rfl, rfl, rfl, rfl, rfl, Nat.le_succ _⟩
          · simp only
            split <;> exact ⟨rfl, rfl, rfl, rfl, rfl, Nat.le_succ _⟩

theorem loop_interaction {body : EA X O F C U V S Q → EARes Unit X O F C U V S Q}
    (hb : ∀ s, SameInteraction s (body s).2) (fuel : Nat) (s : EA X O F C U V S Q) :
    SameInteraction s (EA.loop body fuel s).2 := by
  induction fuel generalizing s with
  | zero => exact SameInteraction.refl s
  | succ n ih =>
    simp only [EA.loop]
    split
    · have h := hb s
      generalize body s = r at h
      obtain ⟨r1, t⟩ := r
      cases r1 with
      | error e => exact h
      | ok x => exact h.trans (ih t)
    · exact SameInteraction.refl s

theorem managePreferences_interaction (ops : Ops X O F C U V S Q R) (s : EA X O F C U V S Q) (pref : Option (Pref R)) :
    SameInteraction s (s.managePreferences ops pref).2 := by
  unfold EA.managePreferences EA.selManage
  split
  · exact SameInteraction.refl s
  · split
    · exact ⟨rfl, rfl, rfl, rfl, rfl, Nat.le_refl _⟩
    · split
      · exact SameInteraction.refl s
      · split
        · exact SameInteraction.refl s
        · split
          · exact SameInteraction.refl s
          · exact ⟨rfl, rfl, rfl, rfl, rfl, Nat.le_succ _⟩
  · split <;> exact ⟨rfl, rfl, rfl, rfl, rfl, Nat.le_refl _⟩

theorem preIteration_interaction (ops : Ops X O F C U V S Q R) (s : EA X O F C U V S Q) :
    SameInteraction s (s.preIteration ops) := by
  simp only [EA.preIteration, EA.record]
  split <;> split <;> split <;> exact ⟨rfl, rfl, rfl, rfl, rfl, Nat.le_refl _⟩

/-! ## Requests -/

theorem requestPreferences_error (ops : Ops X O F C U V S Q R) (s t : EA X O F C U V S Q) (e : Err)
    (h : s.requestPreferences ops = (.error e, t)) : t = s ∧ e = .valueError ∧ s.itype = none := by
  unfold EA.requestPreferences at h
  split at h
  · simp at h
  · split at h
    · simp at h
    · simp at h
    · split at h
      · simp only [Prod.mk.injEq, Except.error.injEq] at h
        exact ⟨h.2.symm, h.1.symm, by assumption⟩
      · simp only at h
        split at h <;> simp at h

theorem requestPreferences_some (ops : Ops X O F C U V S Q R) (s t : EA X O F C U V S Q) (r : Request)
    (h : s.requestPreferences ops = (.ok (some r), t)) :
    t.reqId = some r.id ∧ s.cfg.location = some .selection ∧ s.cfg.interact = true ∧ r.id = ops.newId s.clock ∧
      t.clock = s.clock + 1 ∧ ∃ k, s.itype = some k ∧ k ≠ .ranges ∧ r.cls = k.cls := by
  unfold EA.requestPreferences at h
  split at h
  · simp at h
  · rename_i hi
    split at h
    · simp at h
    · simp at h
    · rename_i hl
      split at h
      · simp at h
      · rename_i k hk
        simp only at h
        split at h
        · simp at h
        · rename_i hr
          simp only [Prod.mk.injEq, Except.ok.injEq, Option.some.injEq] at h
          obtain ⟨h1, h2⟩ := h
          subst h1; subst h2
          exact ⟨rfl, hl, by simpa using hi, rfl, rfl, k, hk, hr, rfl⟩

/-! ## C13 -/

/-- The preference object is not an acceptable answer: wrong request id, interaction type not set, or the
class of a different interaction type. -/
def Unacceptable (s : EA X O F C U V S Q) (p : Pref R) : Prop :=
  s.reqId ≠ some p.id ∨ s.itype = none ∨ ∃ k, s.itype = some k ∧ p.cls ≠ k.cls

/-- C13. A preference that is not acceptable makes `iterate` raise (ValueError or TypeError), and the whole
EA object (population, vectors, counters, archives, protocol state, everything) is exactly as before.
For every generation body. -/
theorem c13_rejected_preference_changes_nothing (ops : Ops X O F C U V S Q R)
    (body : EA X O F C U V S Q → EARes Unit X O F C U V S Q) (s : EA X O F C U V S Q) (p : Pref R)
    (hloc : s.cfg.location = some .selection) (hp : Unacceptable s p) :
    ∃ e, s.iterateWith ops body (some p) = (.error e, s) ∧ (e = .valueError ∨ e = .typeError) := by
  unfold EA.iterateWith EA.managePreferences EA.selManage
  simp only [hloc]
  by_cases h1 : s.reqId ≠ some p.id
  · simp only [h1, ne_eq, not_false_eq_true, if_true]
    exact ⟨.valueError, rfl, Or.inl rfl⟩
  · simp only [h1, if_false]
    cases hk : s.itype with
    | none => exact ⟨.valueError, rfl, Or.inl rfl⟩
    | some k =>
      have hc : p.cls ≠ k.cls := by
        rcases hp with h | h | ⟨k', h, hc⟩
        · exact absurd h h1
        · rw [hk] at h; cases h
        · rw [hk] at h; cases h; exact hc
      simp only [hc, ne_eq, not_false_eq_true, if_true]
      exact ⟨.typeError, rfl, Or.inr rfl⟩

/-- C13, consequence: inserting rejected calls anywhere in a history does not change anything. -/
theorem c13_rejected_calls_can_be_erased (ops : Ops X O F C U V S Q R) (s : EA X O F C U V S Q) (p : Pref R)
    (hloc : s.cfg.location = some .selection) (hp : Unacceptable s p) (cs : List (Call R)) :
    s.calls ops (.iterate (some p) :: cs) = s.calls ops cs := by
  obtain ⟨e, h, -⟩ := c13_rejected_preference_changes_nothing ops (EA.nextGen ops) s p hloc hp
  simp only [EA.calls, EA.call, EA.iterate]
  rw [h]

/-- C13 for an IOPIS problem: when the problem rejects the preference without changing itself (it tests
the type first, `problem/IOPIS.py:194-195,205-206`), the EA is unchanged. -/
theorem c13_problem_rejection_changes_nothing (ops : Ops X O F C U V S Q R)
    (body : EA X O F C U V S Q → EARes Unit X O F C U V S Q) (s : EA X O F C U V S Q) (p : Option (Pref R)) (e : Err)
    (hloc : s.cfg.location = some .problem) (hp : ops.probManage s.prob s.pop p = (.error e, s.prob)) :
    s.iterateWith ops body p = (.error e, s) := by
  unfold EA.iterateWith EA.managePreferences
  simp [hloc, hp]

/-- A non-interactive EA ignores the preference altogether. -/
theorem c13_noninteractive_ignores_preference (ops : Ops X O F C U V S Q R)
    (body : EA X O F C U V S Q → EARes Unit X O F C U V S Q) (s : EA X O F C U V S Q) (p : Option (Pref R))
    (hloc : s.cfg.location = none) : s.iterateWith ops body p = s.iterateWith ops body none := by
  unfold EA.iterateWith EA.managePreferences
  simp [hloc]

/-- C13, the gap: an interactive EA whose type was never set accepts `iterate(None)`, runs the whole
iteration and only then raises ValueError, with population and counters changed. -/
theorem c13_unset_type_raises_after_the_work :
    ∃ (s t : EA Nat Nat Nat Nat Nat Nat Nat Nat), demoState true false 0 = .ok s ∧
      s.iterate demoEA none = (.error .valueError, t) ∧ t.gen = 3 ∧ t.iter = 1 ∧
      t.pop.individuals ≠ s.pop.individuals :=
  ⟨_, _, rfl, rfl, by decide, by decide, by decide⟩

example : ∃ (s t : EA Nat Nat Nat Nat Nat Nat Nat Nat), demoState true false 0 = .ok s ∧
    s.calls demoEA [.setType (some "Reference point"), .start] = t ∧ t.cfg.location = some .selection ∧
    t.reqId = some 2 ∧ Unacceptable t (⟨3, .referencePoint, 5⟩ : Pref Nat) ∧
    Unacceptable t (⟨2, .bound, 5⟩ : Pref Nat) :=
  ⟨_, _, rfl, rfl, rfl, rfl, Or.inl (by decide), Or.inr (Or.inr ⟨.refPoint, rfl, by decide⟩)⟩

/-! ## C14 -/

theorem managePreferences_accepts (ops : Ops X O F C U V S Q R) (s : EA X O F C U V S Q) (p : Pref R)
    (hloc : s.cfg.location = some .selection) (h : (s.managePreferences ops (some p)).1 = .ok ()) :
    s.reqId = some p.id ∧ ∃ k, s.itype = some k ∧ p.cls = k.cls := by
  unfold EA.managePreferences EA.selManage at h
  simp only [hloc] at h
  split at h
  · simp at h
  · rename_i h1
    split at h
    · simp at h
    · rename_i k hk
      split at h
      · simp at h
      · rename_i hc
        exact ⟨by simpa using h1, k, hk, by simpa using hc⟩

/-- The call returns a request to the user (or would: start/iterate that end normally). -/
def Issues : Call R → Except Err (Option Request) → Prop
  | .start, .ok _ => True
  | .iterate _, .ok _ => True
  | _, _ => False

theorem setInteractionType_spec (s : EA X O F C U V S Q) (arg : Option String) :
    (s.setInteractionType arg).2.reqId = s.reqId ∧ (s.setInteractionType arg).2.clock = s.clock ∧
    (s.setInteractionType arg).2.cfg = s.cfg ∧
    ((s.setInteractionType arg).2.itype = s.itype ∨
      ∃ str k, arg = some str ∧ Kind.parse str = some k ∧ (s.setInteractionType arg).2.itype = some k) ∧
    (s.cfg.location = none → (s.setInteractionType arg).2 = s) := by
  unfold EA.setInteractionType
  cases hl : s.cfg.location with
  | none => simp
  | some l =>
    cases l with
    | problem => simp
    | selection =>
      cases arg with
      | none => simp
      | some str =>
        cases hk : Kind.parse str with
        | none => simp [hk]
        | some k => simp [hk]

theorem readAllowable_spec (s : EA X O F C U V S Q) :
    s.readAllowable.2.reqId = s.reqId ∧ s.readAllowable.2.clock = s.clock ∧ s.readAllowable.2.cfg = s.cfg ∧
    s.readAllowable.2.itype = s.itype ∧ (s.cfg.location = none → s.readAllowable.2.typeSet = s.typeSet) := by
  unfold EA.readAllowable EA.setInteractionType
  split
  · simp
  · cases hl : s.cfg.location with
    | none => simp
    | some l => cases l <;> simp

theorem start_spec (ops : Ops X O F C U V S Q R) (s : EA X O F C U V S Q) :
    (∃ e, s.start ops = (.error e, s)) ∨
    ∃ s1, SameInteraction s s1 ∧ s1.clock = s.clock ∧ s.start ops = s1.requestPreferences ops := by
  unfold EA.start
  split
  · exact Or.inl ⟨_, rfl⟩
  · split
    · split
      · exact Or.inl ⟨_, rfl⟩
      · split
        · exact Or.inl ⟨_, rfl⟩
        · rename_i nd _
          exact Or.inr ⟨{ s with nd := some nd }, ⟨rfl, rfl, rfl, rfl, rfl, Nat.le_refl _⟩, rfl, rfl⟩
    · exact Or.inr ⟨s, SameInteraction.refl s, rfl, rfl⟩

theorem iterateWith_spec (ops : Ops X O F C U V S Q R) {body : EA X O F C U V S Q → EARes Unit X O F C U V S Q}
    (hb : ∀ s, SameInteraction s (body s).2) (s : EA X O F C U V S Q) (pref : Option (Pref R)) :
    (∃ e t, SameInteraction s t ∧ s.iterateWith ops body pref = (.error e, t)) ∨
    ∃ s1, SameInteraction s s1 ∧ s.iterateWith ops body pref = s1.requestPreferences ops ∧
      (s.managePreferences ops pref).1 = .ok () := by
  unfold EA.iterateWith
  have hm := managePreferences_interaction ops s pref
  generalize s.managePreferences ops pref = r at hm
  obtain ⟨r1, s1⟩ := r
  cases r1 with
  | error e => exact Or.inl ⟨e, s1, hm, rfl⟩
  | ok x =>
    simp only at hm ⊢
    have hp := preIteration_interaction ops s1
    have h2 : SameInteraction s { (s1.preIteration ops) with genIter := 0 } :=
      (hm.trans hp).trans ⟨rfl, rfl, rfl, rfl, rfl, Nat.le_refl _⟩
    generalize ({ (s1.preIteration ops) with genIter := 0 } : EA X O F C U V S Q) = s2 at h2
    have h3 := loop_interaction hb (s1.preIteration ops).cfg.nGen s2
    generalize EA.loop body (s1.preIteration ops).cfg.nGen s2 = l at h3
    obtain ⟨l1, s3⟩ := l
    cases l1 with
    | error e => exact Or.inl ⟨e, s3, h2.trans h3, rfl⟩
    | ok y =>
      exact Or.inr ⟨{ s3 with iter := s3.iter + 1 }, (h2.trans h3).trans ⟨rfl, rfl, rfl, rfl, rfl, Nat.le_refl _⟩, rfl,
        trivial⟩

theorem requestPreferences_clock (ops : Ops X O F C U V S Q R) (s : EA X O F C U V S Q) :
    s.clock ≤ (s.requestPreferences ops).2.clock ∧ (s.requestPreferences ops).2.cfg = s.cfg ∧
      (s.requestPreferences ops).2.itype = s.itype ∧ (s.requestPreferences ops).2.typeSet = s.typeSet := by
  unfold EA.requestPreferences
  split
  · simp
  · split
    · simp
    · simp
    · split
      · simp
      · simp only
        split <;> simp

theorem call_not_issuing (ops : Ops X O F C U V S Q R) (s : EA X O F C U V S Q) (c : Call R)
    (h : ¬ Issues c (s.call ops c).1) : (s.call ops c).2.reqId = s.reqId := by
  cases c with
  | setType a =>
    have := (setInteractionType_spec s a).1
    simp only [EA.call]
    generalize s.setInteractionType a = r at this
    obtain ⟨r1, t⟩ := r
    cases r1 <;> exact this
  | readAllowable =>
    have := (readAllowable_spec s).1
    simp only [EA.call]
    generalize s.readAllowable = r at this
    obtain ⟨r1, t⟩ := r
    cases r1 <;> exact this
  | start =>
    simp only [EA.call] at h ⊢
    rcases start_spec ops s with ⟨e, he⟩ | ⟨s1, h1, -, h2⟩
    · rw [he]
    · rw [h2] at h ⊢
      cases hr : s1.requestPreferences ops with
      | mk r t =>
        cases r with
        | error e =>
          have := requestPreferences_error ops s1 t e hr
          rw [this.1]; exact h1.reqId
        | ok q => rw [hr] at h; exact absurd trivial h
  | iterate p =>
    simp only [EA.call, EA.iterate] at h ⊢
    rcases iterateWith_spec ops (nextGen_interaction ops) s p with ⟨e, t, h1, he⟩ | ⟨s1, h1, h2, -⟩
    · rw [he]; exact h1.reqId
    · rw [h2] at h ⊢
      cases hr : s1.requestPreferences ops with
      | mk r t =>
        cases r with
        | error e =>
          have := requestPreferences_error ops s1 t e hr
          rw [this.1]; exact h1.reqId
        | ok q => rw [hr] at h; exact absurd trivial h

theorem call_issues_some (ops : Ops X O F C U V S Q R) (s : EA X O F C U V S Q) (c : Call R) (r : Request)
    (h : (s.call ops c).1 = .ok (some r)) : (s.call ops c).2.reqId = some r.id ∧
      ∃ n, s.clock ≤ n ∧ n < (s.call ops c).2.clock ∧ r.id = ops.newId n := by
  cases c with
  | setType a =>
    simp only [EA.call] at h
    split at h <;> simp at h
  | readAllowable =>
    simp only [EA.call] at h
    split at h <;> simp at h
  | start =>
    simp only [EA.call] at h ⊢
    rcases start_spec ops s with ⟨e, he⟩ | ⟨s1, h1, hc, h2⟩
    · rw [he] at h; simp at h
    · rw [h2] at h ⊢
      cases hr : s1.requestPreferences ops with
      | mk o t =>
        rw [hr] at h
        simp only at h
        subst h
        have := requestPreferences_some ops s1 t r hr
        exact ⟨this.1, s1.clock, h1.clock, by rw [this.2.2.2.2.1]; omega, this.2.2.2.1⟩
  | iterate p =>
    simp only [EA.call, EA.iterate] at h ⊢
    rcases iterateWith_spec ops (nextGen_interaction ops) s p with ⟨e, t, h1, he⟩ | ⟨s1, h1, h2, -⟩
    · rw [he] at h; simp at h
    · rw [h2] at h ⊢
      cases hr : s1.requestPreferences ops with
      | mk o t =>
        rw [hr] at h
        simp only at h
        subst h
        have := requestPreferences_some ops s1 t r hr
        exact ⟨this.1, s1.clock, h1.clock, by rw [this.2.2.2.2.1]; omega, this.2.2.2.1⟩

/-- None of the calls issues a request (they are type settings, or they raise). -/
def NoneIssues (ops : Ops X O F C U V S Q R) (s : EA X O F C U V S Q) : List (Call R) → Prop
  | [] => True
  | c :: cs => ¬ Issues c (s.call ops c).1 ∧ NoneIssues ops (s.call ops c).2 cs

theorem noneIssues_reqId (ops : Ops X O F C U V S Q R) (cs : List (Call R)) (s : EA X O F C U V S Q)
    (h : NoneIssues ops s cs) : (s.calls ops cs).reqId = s.reqId := by
  induction cs generalizing s with
  | nil => rfl
  | cons c cs ih =>
    simp only [EA.calls]
    rw [ih _ h.2, call_not_issuing ops s c h.1]

theorem calls_cfg_clock (ops : Ops X O F C U V S Q R) (s : EA X O F C U V S Q) (c : Call R) :
    (s.call ops c).2.cfg = s.cfg ∧ s.clock ≤ (s.call ops c).2.clock := by
  cases c with
  | setType a =>
    have := setInteractionType_spec s a
    simp only [EA.call]
    generalize s.setInteractionType a = r at this
    obtain ⟨r1, t⟩ := r
    cases r1 <;> exact ⟨this.2.2.1, Nat.le_of_eq this.2.1.symm⟩
  | readAllowable =>
    have := readAllowable_spec s
    simp only [EA.call]
    generalize s.readAllowable = r at this
    obtain ⟨r1, t⟩ := r
    cases r1 <;> exact ⟨this.2.2.1, Nat.le_of_eq this.2.1.symm⟩
  | start =>
    simp only [EA.call]
    rcases start_spec ops s with ⟨e, he⟩ | ⟨s1, h1, -, h2⟩
    · rw [he]; exact ⟨rfl, Nat.le_refl _⟩
    · rw [h2]
      have := requestPreferences_clock ops s1
      exact ⟨this.2.1.trans h1.cfg, Nat.le_trans h1.clock this.1⟩
  | iterate p =>
    simp only [EA.call, EA.iterate]
    rcases iterateWith_spec ops (nextGen_interaction ops) s p with ⟨e, t, h1, he⟩ | ⟨s1, h1, h2, -⟩
    · rw [he]; exact ⟨h1.cfg, h1.clock⟩
    · rw [h2]
      have := requestPreferences_clock ops s1
      exact ⟨this.2.1.trans h1.cfg, Nat.le_trans h1.clock this.1⟩

theorem calls_append (ops : Ops X O F C U V S Q R) (as bs : List (Call R)) (s : EA X O F C U V S Q) :
    s.calls ops (as ++ bs) = (s.calls ops as).calls ops bs := by
  induction as generalizing s with
  | nil => rfl
  | cons a as ih => exact ih _

theorem calls_cfg (ops : Ops X O F C U V S Q R) (cs : List (Call R)) (s : EA X O F C U V S Q) :
    (s.calls ops cs).cfg = s.cfg ∧ s.clock ≤ (s.calls ops cs).clock := by
  induction cs generalizing s with
  | nil => exact ⟨rfl, Nat.le_refl _⟩
  | cons c cs ih =>
    have h1 := calls_cfg_clock ops s c
    have h2 := ih (s.call ops c).2
    exact ⟨h2.1.trans h1.1, Nat.le_trans h1.2 h2.2⟩

/-- C14. Take any history in which request `r` was returned by some call `c` and no call after it issued
another request (there may be rejected `iterate` calls, type changes, reads).  If `iterate(p)` now gets
past preference handling, in particular if it returns normally, then `p` carries the id of `r` and its class is
that of the current interaction type. -/
theorem c14_only_latest_request_accepted (ops : Ops X O F C U V S Q R) (s : EA X O F C U V S Q)
    (hloc : s.cfg.location = some .selection) (pre post : List (Call R)) (c : Call R) (r : Request)
    (hc : ((s.calls ops pre).call ops c).1 = .ok (some r))
    (hpost : NoneIssues ops ((s.calls ops pre).call ops c).2 post) (p : Pref R)
    (h : ((s.calls ops (pre ++ c :: post)).managePreferences ops (some p)).1 = .ok ()) :
    p.id = r.id ∧ ∃ k, (s.calls ops (pre ++ c :: post)).itype = some k ∧ p.cls = k.cls := by
  have hst : s.calls ops (pre ++ c :: post) = ((s.calls ops pre).call ops c).2.calls ops post := by
    rw [calls_append]; rfl
  have hl : (s.calls ops (pre ++ c :: post)).cfg.location = some .selection := by
    rw [(calls_cfg ops _ s).1]; exact hloc
  obtain ⟨h1, h2⟩ := managePreferences_accepts ops _ p hl h
  rw [hst, noneIssues_reqId ops post _ hpost, (call_issues_some ops _ c r hc).1] at h1
  exact ⟨(Option.some.inj h1).symm, h2⟩

/-- A call that sets no type leaves the type as it is; a request it returns is of the class of the type. -/
theorem call_itype_class (ops : Ops X O F C U V S Q R) (s : EA X O F C U V S Q) (c : Call R) (hc : ∀ a, c ≠ Call.setType (some a)) :
    (s.call ops c).2.itype = s.itype ∧
      ∀ r, (s.call ops c).1 = .ok (some r) → ∃ k, s.itype = some k ∧ r.cls = k.cls := by
  have req : ∀ s1 : EA X O F C U V S Q, ∀ r t, s1.requestPreferences ops = (.ok (some r), t) →
      ∃ k, s1.itype = some k ∧ r.cls = k.cls := by
    intro s1 r t h
    unfold EA.requestPreferences at h
    split at h
    · simp at h
    · split at h
      · simp at h
      · simp at h
      · split at h
        · simp at h
        · rename_i k hk
          simp only at h
          split at h
          · simp at h
          · simp only [Prod.mk.injEq, Except.ok.injEq, Option.some.injEq] at h
            exact ⟨k, hk, by rw [← h.1]⟩
  cases c with
  | setType a =>
    cases a with
    | some a => exact absurd rfl (hc a)
    | none =>
      have := (setInteractionType_spec s none).2.2.2.1
      simp only [EA.call]
      generalize s.setInteractionType none = r at this
      obtain ⟨r1, t⟩ := r
      cases r1 <;> simpa using this
  | readAllowable =>
    have := (readAllowable_spec s).2.2.2.1
    simp only [EA.call]
    generalize s.readAllowable = r at this
    obtain ⟨r1, t⟩ := r
    cases r1 <;> simpa using this
  | start =>
    simp only [EA.call]
    rcases start_spec ops s with ⟨e, he⟩ | ⟨s1, h1, -, h2⟩
    · rw [he]; simp
    · rw [h2]
      refine ⟨(requestPreferences_clock ops s1).2.2.1.trans h1.itype, fun r hr => ?_⟩
      rw [← h1.itype]
      exact req s1 r (s1.requestPreferences ops).2 (Prod.ext hr rfl)
  | iterate p =>
    simp only [EA.call, EA.iterate]
    rcases iterateWith_spec ops (nextGen_interaction ops) s p with ⟨e, t, h1, he⟩ | ⟨s1, h1, h2, -⟩
    · rw [he]; exact ⟨h1.itype, fun r hr => by simp at hr⟩
    · rw [h2]
      refine ⟨(requestPreferences_clock ops s1).2.2.1.trans h1.itype, fun r hr => ?_⟩
      rw [← h1.itype]
      exact req s1 r (s1.requestPreferences ops).2 (Prod.ext hr rfl)

/-- The class of preference object that belongs to each name a user can give to `set_interaction_type`. -/
def classFor : List (String × PrefClass) :=
  [("Reference point", .referencePoint), ("Preferred solutions", .preferredSolution), ("Non-preferred solutions", .nonPreferredSolution),
   ("Preferred ranges", .bound)]

/-- C14, by name: after `set_interaction_type(name)`, and any calls that do not set another type, only a preference of the class of that
name passes preference handling, every other one makes `iterate` raise and changes nothing, and a request the user is given is of that
class. -/
theorem c14_class_belongs_to_the_name (ops : Ops X O F C U V S Q R) (s : EA X O F C U V S Q) (hloc : s.cfg.location = some .selection)
    (name : String) (cl : PrefClass) (hname : (name, cl) ∈ classFor) (cs : List (Call R))
    (hcs : ∀ c ∈ cs, ∀ a, c ≠ Call.setType (some a)) :
    (s.call ops (Call.setType (some name) : Call R)).1 = .ok none ∧
    (∀ p : Pref R, ((s.calls ops (.setType (some name) :: cs)).managePreferences ops (some p)).1 = .ok () → p.cls = cl) ∧
    (∀ p : Pref R, p.cls ≠ cl → ∃ e, (s.calls ops (.setType (some name) :: cs)).iterate ops (some p) =
      (.error e, s.calls ops (.setType (some name) :: cs))) ∧
    (∀ c r, (∀ a, c ≠ Call.setType (some a)) →
      ((s.calls ops (.setType (some name) :: cs)).call ops c).1 = .ok (some r) → r.cls = cl) := by
  obtain ⟨k, hk, hcl⟩ : ∃ k, Kind.parse name = some k ∧ k.cls = cl := by
    simp only [classFor, List.mem_cons, Prod.mk.injEq, List.not_mem_nil, or_false] at hname
    rcases hname with ⟨rfl, rfl⟩ | ⟨rfl, rfl⟩ | ⟨rfl, rfl⟩ | ⟨rfl, rfl⟩
    · exact ⟨.refPoint, by decide, rfl⟩
    · exact ⟨.preferred, by decide, rfl⟩
    · exact ⟨.nonPreferred, by decide, rfl⟩
    · exact ⟨.ranges, by decide, rfl⟩
  have hty : ∀ (cs : List (Call R)) (t : EA X O F C U V S Q), (∀ c ∈ cs, ∀ a, c ≠ Call.setType (some a)) →
      (t.calls ops cs).itype = t.itype := by
    intro cs
    induction cs with
    | nil => intro t _; rfl
    | cons c cs ih =>
      intro t h
      simp only [EA.calls]
      rw [ih _ (fun d hd => h d (List.mem_cons_of_mem _ hd)), (call_itype_class ops t c (h c List.mem_cons_self)).1]
  have h0 : s.setInteractionType (some name) = (.ok (), { s with typeSet := true, itype := some k }) := by
    unfold EA.setInteractionType
    simp only [hloc, hk]
  have h1 : s.call ops (Call.setType (some name) : Call R) = (.ok none, { s with typeSet := true, itype := some k }) := by
    simp only [EA.call, h0]
  have hit : (s.calls ops (.setType (some name) :: cs)).itype = some k := by
    simp only [EA.calls, h1]
    rw [hty cs _ hcs]
  have hl : (s.calls ops (.setType (some name) :: cs)).cfg.location = some .selection := by
    rw [(calls_cfg ops _ s).1]; exact hloc
  generalize s.calls ops (.setType (some name) :: cs) = t at hit hl
  refine ⟨by rw [h1], fun p hp => ?_, fun p hp => ?_, fun c r hc hr => ?_⟩
  · obtain ⟨-, k', hk', h2⟩ := managePreferences_accepts ops t p hl hp
    rw [hit] at hk'
    cases hk'
    rw [h2, hcl]
  · obtain ⟨e, h, -⟩ := c13_rejected_preference_changes_nothing ops (EA.nextGen ops) t p hl
      (Or.inr (Or.inr ⟨k, hit, by rw [hcl]; exact hp⟩))
    exact ⟨e, h⟩
  · obtain ⟨k', hk', h2⟩ := (call_itype_class ops t c hc).2 r hr
    rw [hit] at hk'
    cases hk'
    rw [h2, hcl]

/-- A case with a request of the class of the name, and one of another class rejected. -/
example : ∃ (s : EA Nat Nat Nat Nat Nat Nat Nat Nat), demoState true false 0 = .ok s ∧ s.cfg.location = some .selection ∧
    ("Non-preferred solutions", PrefClass.nonPreferredSolution) ∈ classFor ∧
    ((s.calls demoEA [.setType (some "Non-preferred solutions")]).call demoEA .start).1 = .ok (some ⟨2, .nonPreferredSolution⟩) :=
  ⟨_, rfl, rfl, by decide, rfl⟩

/-- C14: `iterate(p)` returning normally implies it passed preference handling. -/
theorem c14_normal_return_means_accepted (ops : Ops X O F C U V S Q R) (s : EA X O F C U V S Q) (p : Option (Pref R))
    (o : Option Request) (t : EA X O F C U V S Q) (h : s.iterate ops p = (.ok o, t)) :
    (s.managePreferences ops p).1 = .ok () := by
  rcases iterateWith_spec ops (nextGen_interaction ops) s p with ⟨e, t', -, he⟩ | ⟨-, -, -, h2⟩
  · unfold EA.iterate at h; rw [he] at h; simp at h
  · exact h2

/-- The requests a history returned to the user. -/
def returned (ops : Ops X O F C U V S Q R) (s : EA X O F C U V S Q) : List (Call R) → List Request
  | [] => []
  | c :: cs =>
    (match (s.call ops c).1 with
      | .ok (some r) => [r]
      | _ => []) ++ returned ops (s.call ops c).2 cs

theorem returned_ids (ops : Ops X O F C U V S Q R) (cs : List (Call R)) (s : EA X O F C U V S Q) (r : Request)
    (hr : r ∈ returned ops s cs) : ∃ n, n < (s.calls ops cs).clock ∧ r.id = ops.newId n := by
  induction cs generalizing s with
  | nil => simp [returned] at hr
  | cons c cs ih =>
    simp only [returned, List.mem_append] at hr
    rcases hr with hr | hr
    · split at hr
      · rename_i q hq
        simp only [List.mem_singleton] at hr
        subst hr
        obtain ⟨-, n, -, hn, hid⟩ := call_issues_some ops s c r hq
        exact ⟨n, Nat.lt_of_lt_of_le hn (calls_cfg ops cs _).2, hid⟩
      · simp at hr
    · exact ih _ hr

/-- C14, preferred ranges: the call that issues a "Preferred ranges" request returns no object, and when
ids are drawn without repetition no object the user ever received answers it: every `iterate` with the id
of a returned request raises ValueError and changes nothing. -/
theorem c14_ranges_request_unanswerable (ops : Ops X O F C U V S Q R) (hinj : ∀ a b, ops.newId a = ops.newId b → a = b)
    (s : EA X O F C U V S Q) (hloc : s.cfg.location = some .selection) (hint : s.cfg.interact = true)
    (cs : List (Call R)) (c : Call R) (o : Option Request)
    (hty : (s.calls ops (cs ++ [c])).itype = some .ranges)
    (hiss : Issues c ((s.calls ops cs).call ops c).1) (hok : ((s.calls ops cs).call ops c).1 = .ok o) :
    o = none ∧ ∀ r ∈ returned ops s cs, ∀ p : Pref R, p.id = r.id →
      (s.calls ops (cs ++ [c])).iterate ops (some p) = (.error .valueError, s.calls ops (cs ++ [c])) := by
  have hst : s.calls ops (cs ++ [c]) = ((s.calls ops cs).call ops c).2 := by rw [calls_append]; rfl
  have hcfg := calls_cfg ops cs s
  generalize ha : s.calls ops cs = a at *
  -- the issuing call ends with `requestPreferences`
  have key : ∃ s1, SameInteraction a s1 ∧ a.call ops c = s1.requestPreferences ops := by
    cases c with
    | setType x => exact absurd hiss (by cases h : (a.call ops (.setType x)).1 <;> simp [Issues])
    | readAllowable => exact absurd hiss (by cases h : (a.call ops (.readAllowable)).1 <;> simp [Issues])
    | start =>
      rcases start_spec ops a with ⟨e, he⟩ | ⟨s1, h1, -, h2⟩
      · simp only [EA.call] at hok; rw [he] at hok; simp at hok
      · exact ⟨s1, h1, h2⟩
    | iterate p =>
      rcases iterateWith_spec ops (nextGen_interaction ops) a p with ⟨e, t, h1, he⟩ | ⟨s1, h1, h2, -⟩
      · simp only [EA.call, EA.iterate] at hok; rw [he] at hok; simp at hok
      · exact ⟨s1, h1, h2⟩
  obtain ⟨s1, h1, h2⟩ := key
  rw [h2] at hok hst
  have hl1 : s1.cfg.location = some .selection := by rw [h1.cfg, hcfg.1]; exact hloc
  have hi1 : s1.cfg.interact = true := by rw [h1.cfg, hcfg.1]; exact hint
  have ht1 : s1.itype = some .ranges := by
    rw [hst, (requestPreferences_clock ops s1).2.2.1] at hty; exact hty
  have hreq : s1.requestPreferences ops =
      (.ok none, { s1 with reqId := some (ops.newId s1.clock), clock := s1.clock + 1 }) := by
    unfold EA.requestPreferences
    simp [hi1, hl1, ht1]
  rw [hreq] at hok hst
  simp only [Except.ok.injEq] at hok
  refine ⟨hok.symm, ?_⟩
  intro r hr p hp
  obtain ⟨n, hn, hid⟩ := returned_ids ops cs s r hr
  rw [ha] at hn
  have hne : s1.clock ≠ n := by
    have := h1.clock; omega
  have hrej : (s.calls ops (cs ++ [c])).reqId ≠ some p.id := by
    rw [hst]
    simp only [ne_eq, Option.some.injEq]
    intro he
    rw [hp, hid] at he
    exact hne (hinj _ _ he)
  have hloc' : (s.calls ops (cs ++ [c])).cfg.location = some .selection := by
    rw [hst]; exact hl1
  unfold EA.iterate EA.iterateWith EA.managePreferences EA.selManage
  simp only [hloc', hrej, ne_eq, not_false_eq_true, if_true]

example : ∃ (s t : EA Nat Nat Nat Nat Nat Nat Nat Nat), demoState true false 0 = .ok s ∧
    (s.calls demoEA [.setType (some "Reference point"), .start]) = t ∧
    (∃ u o, t.iterate demoEA (some ⟨2, .referencePoint, 5⟩) = (.ok o, u) ∧ u.reqId = o.map (fun r => r.id)) ∧
    (t.calls demoEA [.setType (some "Preferred ranges"), .iterate none]).itype = some .ranges ∧
    ((t.calls demoEA [.setType (some "Preferred ranges")]).call demoEA (.iterate none)).1 = .ok none :=
  ⟨_, _, rfl, rfl, ⟨_, _, rfl, rfl⟩, by decide, rfl⟩

/-! ## C15 -/

/-- A `set_interaction_type` call with one of the four documented names. -/
def SetsValidType : Call R → Prop
  | .setType (some str) => Kind.parse str ≠ none
  | _ => False

theorem call_itype (ops : Ops X O F C U V S Q R) (s : EA X O F C U V S Q) (c : Call R) (hc : ¬ SetsValidType c) :
    (s.call ops c).2.itype = s.itype := by
  cases c with
  | setType a =>
    have := (setInteractionType_spec s a).2.2.2.1
    have h : (s.setInteractionType a).2.itype = s.itype := by
      rcases this with h | ⟨str, k, ha, hk, -⟩
      · exact h
      · subst ha; exact absurd (by rw [hk]; simp : Kind.parse str ≠ none) hc
    simp only [EA.call]
    generalize s.setInteractionType a = r at h
    obtain ⟨r1, t⟩ := r
    cases r1 <;> exact h
  | readAllowable =>
    have h := (readAllowable_spec s).2.2.2.1
    simp only [EA.call]
    generalize s.readAllowable = r at h
    obtain ⟨r1, t⟩ := r
    cases r1 <;> exact h
  | start =>
    simp only [EA.call]
    rcases start_spec ops s with ⟨e, he⟩ | ⟨s1, h1, -, h2⟩
    · rw [he]
    · rw [h2, (requestPreferences_clock ops s1).2.2.1]; exact h1.itype
  | iterate p =>
    simp only [EA.call, EA.iterate]
    rcases iterateWith_spec ops (nextGen_interaction ops) s p with ⟨e, t, h1, he⟩ | ⟨s1, h1, h2, -⟩
    · rw [he]; exact h1.itype
    · rw [h2, (requestPreferences_clock ops s1).2.2.1]; exact h1.itype

/-- C15. In any history of a freshly built interactive EA (any calls, in any order, failed ones
included), `start()` returns normally only if a `set_interaction_type` call with a valid name came
before it. -/
theorem c15_start_needs_valid_type (ops : Ops X O F C U V S Q R) (s : EA X O F C U V S Q)
    (hloc : s.cfg.location = some .selection) (hint : s.cfg.interact = true) (hfresh : s.itype = none)
    (cs : List (Call R)) (o : Option Request) (t : EA X O F C U V S Q)
    (h : (s.calls ops cs).start ops = (.ok o, t)) : ∃ c ∈ cs, SetsValidType c := by
  by_contra hne
  have hno : ∀ c ∈ cs, ¬ SetsValidType c := fun c hc hv => hne ⟨c, hc, hv⟩
  have hnone : ∀ (cs : List (Call R)) (s : EA X O F C U V S Q), s.itype = none → (∀ c ∈ cs, ¬ SetsValidType c) →
      (s.calls ops cs).itype = none := by
    intro cs
    induction cs with
    | nil => intro s hs _; exact hs
    | cons c cs ih =>
      intro s hs hno
      exact ih _ (by rw [call_itype ops s c (hno c (by simp))]; exact hs) (fun d hd => hno d (by simp [hd]))
  have hit := hnone cs s hfresh hno
  have hcfg := (calls_cfg ops cs s).1
  rcases start_spec ops (s.calls ops cs) with ⟨e, he⟩ | ⟨s1, h1, -, h2⟩
  · rw [he] at h; simp at h
  · rw [h2] at h
    have hl1 : s1.cfg.location = some .selection := by rw [h1.cfg, hcfg]; exact hloc
    have hi1 : s1.cfg.interact = true := by rw [h1.cfg, hcfg]; exact hint
    have ht1 : s1.itype = none := h1.itype.trans hit
    unfold EA.requestPreferences at h
    simp [hl1, hi1, ht1] at h

/-- C15: with the flag not set, `start()` raises the documented eaError and changes nothing. -/
theorem c15_start_refuses_unset_type (ops : Ops X O F C U V S Q R) (s : EA X O F C U V S Q)
    (hint : s.cfg.interact = true) (hflag : s.typeSet = false) : s.start ops = (.error .eaError, s) := by
  unfold EA.start
  simp [hint, hflag]

/-- C15, the other direction: after `set_interaction_type(key)` with one of the four keys an interactive EA starts, and what it asks
for is a preference of that kind (an object of the class of the key, with a fresh id; preferred ranges: nothing is returned). -/
theorem c15_valid_type_starts (ops : Ops X O F C U V S Q R) (s : EA X O F C U V S Q)
    (hloc : s.cfg.location = some .selection) (hint : s.cfg.interact = true) (hnd : s.cfg.saveND = false)
    (str : String) (k : Kind) (hk : Kind.parse str = some k) :
    ∃ o t, (s.call ops (.setType (some str))).1 = .ok none ∧
      (s.call ops (.setType (some str))).2.start ops = (.ok o, t) ∧ t.itype = some k ∧ t.reqId = some (ops.newId s.clock) ∧
      t.pop = s.pop ∧ t.vec = s.vec ∧
      (k ≠ .ranges → o = some ⟨ops.newId s.clock, k.cls⟩) ∧ (k = .ranges → o = none) := by
  have hc : s.call ops (.setType (some str)) = (.ok none, { s with typeSet := true, itype := some k }) := by
    simp [EA.call, EA.setInteractionType, hloc, hk]
  rw [hc]
  by_cases hr : k = .ranges
  · refine ⟨none, { s with typeSet := true, itype := some k, reqId := some (ops.newId s.clock), clock := s.clock + 1 }, rfl, ?_, rfl, rfl,
      rfl, rfl, fun h => absurd hr h, fun _ => rfl⟩
    simp [EA.start, EA.requestPreferences, hint, hnd, hloc, hr]
  · refine ⟨some ⟨ops.newId s.clock, k.cls⟩, { s with typeSet := true, itype := some k, reqId := some (ops.newId s.clock), clock := s.clock + 1 },
      rfl, ?_, rfl, rfl, rfl, rfl, fun _ => rfl, fun h => absurd h hr⟩
    simp [EA.start, EA.requestPreferences, hint, hnd, hloc, hr]

example : Kind.parse "Preferred solutions" = some .preferred ∧ Kind.parse "Preferred ranges" = some .ranges := by decide

/-- C15, the flag is not reliable: after an invalid `set_interaction_type` (which raises ValueError) or after
merely reading `allowable_interaction_types`, the flag is up although no type is set, and `start()`
raises ValueError instead of the documented eaError.  For every interactive EA with location Selection. -/
theorem c15_flag_unreliable (ops : Ops X O F C U V S Q R) (s : EA X O F C U V S Q)
    (hloc : s.cfg.location = some .selection) (hint : s.cfg.interact = true) (hfresh : s.itype = none)
    (hnd : s.cfg.saveND = false) (c : Call R)
    (hc : (∃ str, c = .setType (some str) ∧ Kind.parse str = none) ∨ (c = .readAllowable ∧ s.allowRead = false)) :
    (s.call ops c).2.typeSet = true ∧ ((s.call ops c).2.start ops).1 = .error .valueError := by
  have key : ∀ t : EA X O F C U V S Q, t.cfg = s.cfg → t.itype = none → t.typeSet = true →
      (t.start ops).1 = .error .valueError := by
    intro t ht hi hts
    unfold EA.start EA.requestPreferences
    simp [ht, hint, hnd, hts, hi, hloc]
  rcases hc with ⟨str, rfl, hk⟩ | ⟨rfl, ha⟩
  · have : s.call ops (.setType (some str)) = (.error .valueError, { s with typeSet := true }) := by
      simp [EA.call, EA.setInteractionType, hloc, hk]
    rw [this]
    exact ⟨rfl, key _ rfl hfresh rfl⟩
  · have : s.call ops .readAllowable = (.ok none, { s with typeSet := true, allowRead := true }) := by
      simp [EA.call, EA.readAllowable, EA.setInteractionType, ha, hloc]
    rw [this]
    exact ⟨rfl, key _ rfl hfresh rfl⟩

example : ∃ (s : EA Nat Nat Nat Nat Nat Nat Nat Nat), demoState true false 0 = .ok s ∧ s.itype = none ∧
    s.cfg.location = some .selection ∧ s.cfg.interact = true ∧ s.typeSet = false ∧
    ((s.calls demoEA [.setType (some "nonsense"), .readAllowable, .setType (some "Preferred solutions")]).start demoEA).1 =
      .ok (some ⟨2, .preferredSolution⟩) :=
  ⟨_, rfl, rfl, rfl, rfl, rfl, rfl⟩

/-! ## C16 -/

/-- C16. Both or neither of `problem` and `initial_population`: eaError.  Exactly one: construction
succeeds (when the initial design and its evaluation do) and the EA has the given population, or one
of the chosen size. -/
theorem c16_problem_xor_population (ops : Ops X O F C U V S Q R) (design : Nat → Nat → Except Err (Batch X))
    (vec0 : Nat → V) (sel0 : Nat → S) (prob0 : Q) (interact useSurr ka nd : Bool) (nIter nGen total : Nat)
    (ps lr : Option Nat) :
    (∀ pr ip, construct ops design vec0 sel0 prob0 interact useSurr ka nd nIter nGen total (some pr) (some ip) ps lr =
      .error .eaError) ∧
    (construct ops design vec0 sel0 prob0 interact useSurr ka nd nIter nGen total none none ps lr = .error .eaError) ∧
    (∀ p n, ∃ s, construct ops design vec0 sel0 prob0 interact useSurr ka nd nIter nGen total none (some (p, n)) ps lr =
      .ok s ∧ s.pop = p) ∧
    (∀ ty m nc b res, design 0 (choosePopSize m ps lr) = .ok b → ops.evaluate 1 useSurr b = .ok res →
      ∃ s, construct ops design vec0 sel0 prob0 interact useSurr ka nd nIter nGen total (some (ty, m, nc)) none ps lr =
        .ok s ∧ s.pop.individuals = some b.rows ∧ s.pop.objectives = res.objectives ∧ s.pop.fitness = res.fitness ∧
        s.fe = choosePopSize m ps lr) := by
  refine ⟨?_, ?_, ?_, ?_⟩
  · intro pr ip; obtain ⟨p, n⟩ := ip; simp [construct]
  · simp [construct]
  · intro p n; simp [construct]
  · intro ty m nc b res hd he
    simp [construct, hd, EA.popAdd, he, Pop.add, Pop.new]

/-- C16. An interactive EA built from an initial population can never be started: whatever calls are made
first, `start()` raises eaError. -/
theorem c16_interactive_from_population_never_starts (ops : Ops X O F C U V S Q R)
    (design : Nat → Nat → Except Err (Batch X)) (vec0 : Nat → V) (sel0 : Nat → S) (prob0 : Q)
    (useSurr ka nd : Bool) (nIter nGen total : Nat) (ip : Pop X O F C U × Nat) (ps lr : Option Nat)
    (s : EA X O F C U V S Q)
    (h : construct ops design vec0 sel0 prob0 true useSurr ka nd nIter nGen total none (some ip) ps lr = .ok s)
    (cs : List (Call R)) : ((s.calls ops cs).start ops).1 = .error .eaError := by
  obtain ⟨p, n⟩ := ip
  simp only [construct, if_true, Except.ok.injEq] at h
  have hl : s.cfg.location = none := by subst h; rfl
  have hi : s.cfg.interact = true := by subst h; rfl
  have hts : s.typeSet = false := by subst h; rfl
  clear h
  have key : ∀ (cs : List (Call R)) (s : EA X O F C U V S Q), s.cfg.location = none → s.typeSet = false →
      (s.calls ops cs).typeSet = false := by
    intro cs
    induction cs with
    | nil => intro s _ h; exact h
    | cons c cs ih =>
      intro s hl hts
      refine ih _ (by rw [(calls_cfg_clock ops s c).1]; exact hl) ?_
      cases c with
      | setType a =>
        have := (setInteractionType_spec s a).2.2.2.2 hl
        simp only [EA.call]
        generalize s.setInteractionType a = r at this
        obtain ⟨r1, t⟩ := r
        simp only at this
        subst this
        cases r1 <;> exact hts
      | readAllowable =>
        have := (readAllowable_spec s).2.2.2.2 hl
        simp only [EA.call]
        generalize s.readAllowable = r at this
        obtain ⟨r1, t⟩ := r
        cases r1 <;> exact this.trans hts
      | start =>
        simp only [EA.call]
        rcases start_spec ops s with ⟨e, he⟩ | ⟨s1, h1, -, h2⟩
        · rw [he]; exact hts
        · rw [h2, (requestPreferences_clock ops s1).2.2.2]; exact h1.typeSet.trans hts
      | iterate p =>
        simp only [EA.call, EA.iterate]
        rcases iterateWith_spec ops (nextGen_interaction ops) s p with ⟨e, t, h1, he⟩ | ⟨s1, h1, h2, -⟩
        · rw [he]; exact h1.typeSet.trans hts
        · rw [h2, (requestPreferences_clock ops s1).2.2.2]; exact h1.typeSet.trans hts
  rw [c15_start_refuses_unset_type ops _ (by rw [(calls_cfg ops cs s).1]; exact hi) (key cs s hl hts)]

end Verif.Props
