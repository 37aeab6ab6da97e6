import Verif.Spec.Loop

/-! # Lemmas about the EA loop -/

namespace Verif
open Spec

variable {X O F C U V S Q R : Type}

theorem popAdd_frame (ops : Ops X O F C U V S Q R) (s : EA X O F C U V S Q) (off : Batch X) :
    let t := (s.popAdd ops off).2
    t.cfg = s.cfg ∧ t.iter = s.iter ∧ t.gen = s.gen ∧ t.genIter = s.genIter ∧ t.fe = s.fe ∧
    t.trueEvals = s.trueEvals + (if s.cfg.useSurr then 0 else off.rows.length) ∧ t.archive = s.archive ∧
    t.nd = s.nd ∧ t.vec = s.vec ∧ t.sel = s.sel ∧ t.itype = s.itype ∧ t.reqId = s.reqId ∧ t.typeSet = s.typeSet ∧
    t.allowRead = s.allowRead := by
  simp [EA.popAdd]

/-- Number of offspring the next generation makes. -/
def offspringRows (ops : Ops X O F C U V S Q R) (s : EA X O F C U V S Q) : Nat :=
  match ops.mate s.clock s.pop with
  | .ok off => off.rows.length
  | .error _ => 0

theorem nextGen_counts (ops : Ops X O F C U V S Q R) :
    CountsGeneration (EA.nextGen ops) (offspringRows ops) := by
  constructor
  intro s t h
  unfold EA.nextGen at h
  unfold offspringRows
  cases hm : ops.mate s.clock s.pop with
  | error e => simp [hm] at h
  | ok off =>
    simp only [hm] at h ⊢
    obtain ⟨f1, f2, f3, f4, f5, f6, f7, f8, f9, f10, f11, f12, f13, f14⟩ :=
      popAdd_frame ops { s with clock := s.clock + 1 } off
    generalize EA.popAdd ops { s with clock := s.clock + 1 } off = pr at *
    obtain ⟨r, s1⟩ := pr
    simp only at f1 f2 f3 f4 f5 f6 f7 f8 f9 f10 f11 f12 f13 f14
    cases r with
    | error e => simp at h
    | ok res =>
      simp only at h
      have key : ∀ (a : EARes Unit X O F C U V S Q) (s2 : EA X O F C U V S Q), a = (.ok (), s2) →
          a = (if s1.cfg.saveND then
            match archiveUpdate ops.dom s1.nd off.rows res.objectives res.fitness with
            | .error e => (.error e, s1)
            | .ok nd => (.ok (), { s1 with nd := some nd })
          else (.ok (), s1)) →
          s2.cfg = s1.cfg ∧ s2.iter = s1.iter ∧ s2.gen = s1.gen ∧ s2.genIter = s1.genIter ∧ s2.fe = s1.fe ∧
          s2.trueEvals = s1.trueEvals ∧ s2.archive = s1.archive := by
        intro a s2 h1 h2
        rw [h1] at h2
        split at h2
        · split at h2
          · simp at h2
          · simp at h2; subst h2; simp
        · simp at h2; subst h2; simp
      generalize ha : (if s1.cfg.saveND then
            match archiveUpdate ops.dom s1.nd off.rows res.objectives res.fitness with
            | .error e => ((.error e, s1) : EARes Unit X O F C U V S Q)
            | .ok nd => (.ok (), { s1 with nd := some nd })
          else (.ok (), s1)) = a at h
      obtain ⟨a1, s2⟩ := a
      cases a1 with
      | error e => simp at h
      | ok u =>
        obtain ⟨g1, g2, g3, g4, g5, g6, g7⟩ := key _ s2 rfl ha.symm
        simp only at h
        split at h
        · simp at h
        · split at h
          · simp at h
          · simp only [Prod.mk.injEq, true_and] at h
            subst h
            have e : s2.cfg.useSurr = s.cfg.useSurr := by rw [g1, f1]
            cases hu : s.cfg.useSurr with
            | true =>
              rw [hu] at e f6
              simp only [e, if_true] at f6 ⊢
              exact ⟨g1.trans f1, g2.trans f2, by rw [g3, f3], by rw [g4, f4], g5.trans f5, g6.trans f6, g7.trans f7⟩
            | false =>
              rw [hu] at e f6
              simp only [e, Bool.false_eq_true, if_false] at f6 ⊢
              exact ⟨g1.trans f1, g2.trans f2, by rw [g3, f3], by rw [g4, f4], by rw [g5, f5], g6.trans f6, g7.trans f7⟩

variable {body : EA X O F C U V S Q → EARes Unit X O F C U V S Q} {rows : EA X O F C U V S Q → Nat}

/-- the loop runs generations exactly while the condition holds -/
theorem loop_gens_of (hb : ∀ s t, body s = (.ok (), t) → t.cfg = s.cfg ∧ t.genIter = s.genIter + 1) (fuel : Nat)
    (s t : EA X O F C U V S Q) (hf : s.cfg.nGen - s.genIter ≤ fuel) (h : EA.loop body fuel s = (.ok (), t)) :
    ∃ k, Gens body (fun s => s.continueIteration = true) k s t ∧ t.continueIteration = false := by
  induction fuel generalizing s with
  | zero =>
    simp only [EA.loop, Prod.mk.injEq, true_and] at h
    subst h
    refine ⟨0, .zero _, ?_⟩
    have : ¬ s.genIter < s.cfg.nGen := by omega
    simp [EA.continueIteration, this]
  | succ n ih =>
    simp only [EA.loop] at h
    split at h
    · rename_i hc
      cases hbs : body s with
      | mk r u =>
        rw [hbs] at h
        cases r with
        | error e => simp at h
        | ok x =>
          simp only at h
          obtain ⟨h1, h4⟩ := hb s u hbs
          obtain ⟨k, hk, hk2⟩ := ih u (by rw [h1, h4]; omega) h
          exact ⟨k + 1, .succ hc hbs hk, hk2⟩
    · rename_i hc
      simp only [Prod.mk.injEq, true_and] at h
      subst h
      exact ⟨0, .zero _, by simpa using hc⟩

theorem loop_gens (hb : CountsGeneration body rows) (fuel : Nat) (s t : EA X O F C U V S Q)
    (hf : s.cfg.nGen - s.genIter ≤ fuel) (h : EA.loop body fuel s = (.ok (), t)) :
    ∃ k, Gens body (fun s => s.continueIteration = true) k s t ∧ t.continueIteration = false :=
  loop_gens_of (fun s t h => ⟨(hb.ok s t h).1, (hb.ok s t h).2.2.2.1⟩) fuel s t hf h

theorem gens_counters (hb : CountsGeneration body rows) {cond : EA X O F C U V S Q → Prop} {k : Nat}
    {s t : EA X O F C U V S Q} (h : Gens body cond k s t) :
    t.cfg = s.cfg ∧ t.iter = s.iter ∧ t.gen = s.gen + k ∧ t.genIter = s.genIter + k ∧ t.archive = s.archive := by
  induction h with
  | zero => simp
  | @succ k s t u hc hbs hg ih =>
    obtain ⟨h1, h2, h3, h4, -, -, h7⟩ := hb.ok _ _ hbs
    obtain ⟨i1, i2, i3, i4, i5⟩ := ih
    refine ⟨i1.trans h1, i2.trans h2, ?_, ?_, i5.trans h7⟩ <;> omega

theorem gens_evals (hb : CountsGeneration body rows) {cond : EA X O F C U V S Q → Prop} {k : Nat}
    {s t : EA X O F C U V S Q} (h : Gens body cond k s t) :
    t.fe + s.trueEvals = t.trueEvals + s.fe ∧ s.fe ≤ t.fe ∧
      (s.cfg.useSurr = true → t.fe = s.fe ∧ t.trueEvals = s.trueEvals) := by
  induction h with
  | zero => simp; omega
  | @succ k s t u hc hbs hg ih =>
    obtain ⟨h1, -, -, -, h5, h6, -⟩ := hb.ok _ _ hbs
    obtain ⟨i1, i2, i3⟩ := ih
    refine ⟨by omega, by omega, ?_⟩
    intro hu
    rw [h1] at i3
    have := i3 hu
    simp only [hu, if_true] at h5 h6
    omega

theorem gens_mono {cond cond' : EA X O F C U V S Q → Prop} (hcc : ∀ s, cond s → cond' s) {k : Nat}
    {s t : EA X O F C U V S Q} (h : Gens body cond k s t) : Gens body cond' k s t := by
  induction h with
  | zero => exact .zero _
  | succ hc hb hg ih => exact .succ (hcc _ hc) hb ih

/-! ## Frames of the other methods -/

/-- what preference handling, pre-iteration and requests never touch -/
structure SameCounters (s t : EA X O F C U V S Q) : Prop where
  cfg : t.cfg = s.cfg
  iter : t.iter = s.iter
  gen : t.gen = s.gen
  fe : t.fe = s.fe
  evals : t.trueEvals = s.trueEvals

theorem SameCounters.refl (s : EA X O F C U V S Q) : SameCounters s s := ⟨rfl, rfl, rfl, rfl, rfl⟩

theorem SameCounters.trans {s t u : EA X O F C U V S Q} (h1 : SameCounters s t) (h2 : SameCounters t u) :
    SameCounters s u :=
  ⟨h2.cfg.trans h1.cfg, h2.iter.trans h1.iter, h2.gen.trans h1.gen, h2.fe.trans h1.fe, h2.evals.trans h1.evals⟩

theorem selManage_frame (ops : Ops X O F C U V S Q R) (s : EA X O F C U V S Q) (pref : Option (Pref R)) :
    SameCounters s (s.selManage ops pref).2 ∧ (s.selManage ops pref).2.archive = s.archive ∧
      (s.selManage ops pref).2.pop = s.pop ∧ (s.selManage ops pref).2.reqId = s.reqId ∧
      (s.selManage ops pref).2.itype = s.itype := by
  unfold EA.selManage
  split
  · exact ⟨⟨rfl, rfl, rfl, rfl, rfl⟩, rfl, rfl, rfl, rfl⟩
  · split
    · exact ⟨SameCounters.refl _, rfl, rfl, rfl, rfl⟩
    · split
      · exact ⟨SameCounters.refl _, rfl, rfl, rfl, rfl⟩
      · split
        · exact ⟨SameCounters.refl _, rfl, rfl, rfl, rfl⟩
        · exact ⟨⟨rfl, rfl, rfl, rfl, rfl⟩, rfl, rfl, rfl, rfl⟩

theorem managePreferences_frame (ops : Ops X O F C U V S Q R) (s : EA X O F C U V S Q) (pref : Option (Pref R)) :
    SameCounters s (s.managePreferences ops pref).2 ∧ (s.managePreferences ops pref).2.archive = s.archive ∧
      (s.managePreferences ops pref).2.reqId = s.reqId ∧ (s.managePreferences ops pref).2.itype = s.itype ∧
      (s.managePreferences ops pref).2.pop.individuals = s.pop.individuals ∧
      (s.managePreferences ops pref).2.pop.objectives = s.pop.objectives := by
  unfold EA.managePreferences
  split
  · exact ⟨SameCounters.refl _, rfl, rfl, rfl, rfl, rfl⟩
  · have := selManage_frame ops s pref
    exact ⟨this.1, this.2.1, this.2.2.2.1, this.2.2.2.2, by rw [this.2.2.1], by rw [this.2.2.1]⟩
  · split
    · exact ⟨⟨rfl, rfl, rfl, rfl, rfl⟩, rfl, rfl, rfl, rfl, rfl⟩
    · exact ⟨⟨rfl, rfl, rfl, rfl, rfl⟩, rfl, rfl, rfl, rfl, rfl⟩

theorem record_frame (s : EA X O F C U V S Q) :
    SameCounters s s.record ∧ s.record.pop = s.pop ∧ s.record.reqId = s.reqId ∧ s.record.itype = s.itype ∧
      s.record.vec = s.vec ∧ s.record.archive = (if s.cfg.keepArchive then
        dictSet s.archive s.gen ⟨s.iter, s.pop.individuals, s.pop.objectives, s.pop.fitness⟩ else s.archive) := by
  unfold EA.record
  split
  · exact ⟨⟨rfl, rfl, rfl, rfl, rfl⟩, rfl, rfl, rfl, rfl, rfl⟩
  · exact ⟨SameCounters.refl _, rfl, rfl, rfl, rfl, rfl⟩

theorem preIteration_frame (ops : Ops X O F C U V S Q R) (s : EA X O F C U V S Q) :
    SameCounters s (s.preIteration ops) ∧ (s.preIteration ops).pop = s.pop ∧
      (s.preIteration ops).reqId = s.reqId ∧ (s.preIteration ops).itype = s.itype ∧
      (s.preIteration ops).archive = (if s.cfg.keepArchive then
        dictSet s.archive s.gen ⟨s.iter, s.pop.individuals, s.pop.objectives, s.pop.fitness⟩ else s.archive) := by
  have hr := record_frame s
  simp only [EA.preIteration]
  obtain ⟨h1, h2, h3, h4, h5, h6⟩ := hr
  split <;> split <;> exact ⟨⟨h1.cfg, h1.iter, h1.gen, h1.fe, h1.evals⟩, h2, h3, h4, h6⟩

theorem requestPreferences_frame (ops : Ops X O F C U V S Q R) (s : EA X O F C U V S Q) :
    SameCounters s (s.requestPreferences ops).2 ∧ (s.requestPreferences ops).2.pop = s.pop ∧
      (s.requestPreferences ops).2.archive = s.archive ∧ (s.requestPreferences ops).2.itype = s.itype ∧
      (s.requestPreferences ops).2.genIter = s.genIter ∧ (s.requestPreferences ops).2.typeSet = s.typeSet ∧
      (s.requestPreferences ops).2.vec = s.vec := by
  unfold EA.requestPreferences
  split
  · exact ⟨SameCounters.refl _, rfl, rfl, rfl, rfl, rfl, rfl⟩
  · split
    · exact ⟨SameCounters.refl _, rfl, rfl, rfl, rfl, rfl, rfl⟩
    · exact ⟨SameCounters.refl _, rfl, rfl, rfl, rfl, rfl, rfl⟩
    · split
      · exact ⟨SameCounters.refl _, rfl, rfl, rfl, rfl, rfl, rfl⟩
      · simp only
        split <;> exact ⟨⟨rfl, rfl, rfl, rfl, rfl⟩, rfl, rfl, rfl, rfl, rfl, rfl⟩

/-- The state at the start of the generation loop of an `iterate(pref)` call. -/
def iterStart (ops : Ops X O F C U V S Q R) (s : EA X O F C U V S Q) (pref : Option (Pref R)) : EA X O F C U V S Q :=
  { ((s.managePreferences ops pref).2.preIteration ops) with genIter := 0 }

theorem iterStart_frame (ops : Ops X O F C U V S Q R) (s : EA X O F C U V S Q) (pref : Option (Pref R)) :
    SameCounters s (iterStart ops s pref) ∧ (iterStart ops s pref).genIter = 0 ∧
      (iterStart ops s pref).pop = (s.managePreferences ops pref).2.pop ∧
      (iterStart ops s pref).archive = (if s.cfg.keepArchive then
        dictSet s.archive s.gen ⟨s.iter, (s.managePreferences ops pref).2.pop.individuals,
          (s.managePreferences ops pref).2.pop.objectives, (s.managePreferences ops pref).2.pop.fitness⟩
        else s.archive) := by
  obtain ⟨m1, m2, -⟩ := managePreferences_frame ops s pref
  obtain ⟨p1, p2, -, -, p5⟩ := preIteration_frame ops (s.managePreferences ops pref).2
  have := m1.trans p1
  refine ⟨⟨this.cfg, this.iter, this.gen, this.fe, this.evals⟩, rfl, p2, ?_⟩
  simp only [iterStart, p5, m1.cfg, m1.gen, m1.iter, m2]

/-- decomposition of a successful `iterate` -/
theorem iterateWith_ok (hb : CountsGeneration body rows) (ops : Ops X O F C U V S Q R) (s t : EA X O F C U V S Q)
    (pref : Option (Pref R)) (r : Option Request) (h : s.iterateWith ops body pref = (.ok r, t)) :
    ∃ k u, Gens body (fun s => s.continueIteration = true) k (iterStart ops s pref) u ∧
      u.continueIteration = false ∧ SameCounters { u with iter := u.iter + 1 } t ∧
      (s.managePreferences ops pref).1 = .ok () ∧ t.pop = u.pop ∧ t.archive = u.archive ∧ t.genIter = u.genIter ∧
      t.itype = u.itype ∧ t.vec = u.vec ∧
      ({ u with iter := u.iter + 1 } : EA X O F C U V S Q).requestPreferences ops = (.ok r, t) := by
  unfold EA.iterateWith at h
  cases hm : s.managePreferences ops pref with
  | mk r1 s1 =>
    rw [hm] at h
    cases r1 with
    | error e => simp at h
    | ok x =>
      simp only at h
      have hst : iterStart ops s pref = { (s1.preIteration ops) with genIter := 0 } := by
        simp [iterStart, hm]
      rw [← hst] at h
      have hcfg : (s1.preIteration ops).cfg.nGen = (iterStart ops s pref).cfg.nGen := by rw [hst]
      rw [hcfg] at h
      cases hl : EA.loop body (iterStart ops s pref).cfg.nGen (iterStart ops s pref) with
      | mk r2 u =>
        rw [hl] at h
        cases r2 with
        | error e => simp at h
        | ok x2 =>
          simp only at h
          obtain ⟨k, hk, hk2⟩ := loop_gens hb _ _ u (by omega) hl
          have hr := requestPreferences_frame ops { u with iter := u.iter + 1 }
          rw [h] at hr
          exact ⟨k, u, hk, hk2, hr.1, rfl, hr.2.1, hr.2.2.1, hr.2.2.2.2.1, hr.2.2.2.1, hr.2.2.2.2.2.2, h⟩

end Verif
