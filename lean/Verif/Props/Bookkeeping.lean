import Verif.Spec.Bookkeeping
import Verif.Props.ArchiveRun
import Verif.Model.MoeadRun

/-!
# C97: bookkeeping and grouping do not influence the search
-/

namespace Verif.Props
open Verif Verif.Spec

variable {X O F C U V S Q R : Type}

/-- The same object with other archives and archive flags. -/
def dress (a : List (Nat × Entry X O F)) (n : Option (NDArchive X O F)) (k b : Bool) (s : EA X O F C U V S Q) : EA X O F C U V S Q :=
  { s with archive := a, nd := n, cfg := { s.cfg with keepArchive := k, saveND := b } }

theorem same_dress (a : List (Nat × Entry X O F)) (n : Option (NDArchive X O F)) (k b : Bool) (s : EA X O F C U V S Q) :
    SameProgress s (dress a n k b s) := ⟨rfl, rfl, rfl, rfl, rfl, rfl, rfl, rfl, rfl, rfl, rfl, rfl⟩

section dress
variable (a : List (Nat × Entry X O F)) (n : Option (NDArchive X O F)) (k b : Bool)

theorem managePreferences_dress (ops : Ops X O F C U V S Q R) (s : EA X O F C U V S Q) (p : Option (Pref R)) :
    (dress a n k b s).managePreferences ops p = ((s.managePreferences ops p).1, dress a n k b (s.managePreferences ops p).2) := by
  have hsel : (dress a n k b s).selManage ops p = ((s.selManage ops p).1, dress a n k b (s.selManage ops p).2) := by
    unfold EA.selManage
    cases p with
    | none => rfl
    | some p =>
      dsimp only
      by_cases h : s.reqId = some p.id
      · rw [if_neg (by simpa [dress] using h), if_neg (by simpa using h)]
        have hi : (dress a n k b s).itype = s.itype := rfl
        rw [hi]
        cases s.itype with
        | none => rfl
        | some kd =>
          dsimp only
          split <;> rfl
      · rw [if_pos (by simpa [dress] using h), if_pos (by simpa using h)]
  unfold EA.managePreferences
  have hl : (dress a n k b s).cfg.location = s.cfg.location := rfl
  rw [hl]
  cases s.cfg.location with
  | none => rfl
  | some l =>
    cases l with
    | selection => exact hsel
    | problem =>
      dsimp only
      have hq : ops.probManage (dress a n k b s).prob (dress a n k b s).pop p = ops.probManage s.prob s.pop p := rfl
      rw [hq]
      generalize ops.probManage s.prob s.pop p = z
      obtain ⟨z, q⟩ := z
      cases z <;> rfl

theorem preIteration_dress (ops : Ops X O F C U V S Q R) (s : EA X O F C U V S Q) :
    ∃ a', (dress a n k b s).preIteration ops = dress a' n k b (s.preIteration ops) := by
  have hr : ∃ a', (dress a n k b s).record = dress a' n k b s.record := by
    unfold EA.record
    cases k with
    | true =>
      refine ⟨dictSet a s.gen ⟨s.iter, s.pop.individuals, s.pop.objectives, s.pop.fitness⟩, ?_⟩
      rw [if_pos (show (dress a n true b s).cfg.keepArchive = true from rfl)]
      by_cases hk : s.cfg.keepArchive = true
      · rw [if_pos hk]; rfl
      · rw [if_neg hk]; rfl
    | false =>
      refine ⟨a, ?_⟩
      rw [if_neg (show ¬ (dress a n false b s).cfg.keepArchive = true from Bool.false_ne_true)]
      by_cases hk : s.cfg.keepArchive = true
      · rw [if_pos hk]; rfl
      · rw [if_neg hk]
  obtain ⟨a', h⟩ := hr
  refine ⟨a', ?_⟩
  simp only [EA.preIteration]
  rw [h]
  generalize s.record = t
  have h1 : (dress a' n k b t).cfg.interact = t.cfg.interact := rfl
  rw [h1]
  cases t.cfg.interact
  · simp only [Bool.not_false, if_true]
    split <;> (split <;> first | rfl | (rename_i x y; exact absurd x y) | (rename_i x y; exact absurd y x))
  · simp only [Bool.not_true, Bool.false_eq_true, if_false]
    split <;> (split <;> first | rfl | (rename_i x y; exact absurd x y) | (rename_i x y; exact absurd y x))

theorem requestPreferences_dress (ops : Ops X O F C U V S Q R) (s : EA X O F C U V S Q) :
    (dress a n k b s).requestPreferences ops = ((s.requestPreferences ops).1, dress a n k b (s.requestPreferences ops).2) := by
  unfold EA.requestPreferences
  have h1 : (dress a n k b s).cfg.interact = s.cfg.interact := rfl
  have h2 : (dress a n k b s).cfg.location = s.cfg.location := rfl
  have h3 : (dress a n k b s).itype = s.itype := rfl
  rw [h1, h2, h3]
  split
  · rfl
  · cases s.cfg.location with
    | none => rfl
    | some l =>
      cases l with
      | problem => rfl
      | selection =>
        cases s.itype with
        | none => rfl
        | some kd =>
          dsimp only
          split <;> rfl

theorem setType_dress (s : EA X O F C U V S Q) (arg : Option String) :
    (dress a n k b s).setInteractionType arg = ((s.setInteractionType arg).1, dress a n k b (s.setInteractionType arg).2) := by
  unfold EA.setInteractionType
  have h2 : (dress a n k b s).cfg.location = s.cfg.location := rfl
  rw [h2]
  cases s.cfg.location with
  | none => rfl
  | some l =>
    cases l with
    | problem => rfl
    | selection =>
      cases arg with
      | none => rfl
      | some str =>
        dsimp only
        cases Kind.parse str <;> rfl

theorem readAllowable_dress (s : EA X O F C U V S Q) :
    (dress a n k b s).readAllowable = (s.readAllowable.1, dress a n k b s.readAllowable.2) := by
  unfold EA.readAllowable
  have h2 : (dress a n k b s).allowRead = s.allowRead := rfl
  rw [h2, setType_dress]
  split
  · rfl
  · generalize s.setInteractionType none = z
    obtain ⟨z, t⟩ := z
    cases z <;> rfl

end dress

/-- What is required of a relation between an object and the archive and flag of its companion; `L` is known of every evaluated batch. -/
structure Companion (ops : Ops X O F C U V S Q R) (L : List X → Results O F C U → Prop) (I : Option (NDArchive X O F) → Bool → EA X O F C U V S Q → Prop) : Prop where
  frame : ∀ n b (s t : EA X O F C U V S Q), t.nd = s.nd → t.cfg = s.cfg → I n b s → I n b t
  update : ∀ a n k b (s : EA X O F C U V S Q) rows (res : Results O F C U), I n b s → L rows res →
    ∃ n', (dress a n k b s).updateND ops rows res = ((s.updateND ops rows res).1, dress a n' k b (s.updateND ops rows res).2) ∧
      I n' b (s.updateND ops rows res).2

/-- The body of a generation keeps an object and its companion together. -/
def Together (I : Option (NDArchive X O F) → Bool → EA X O F C U V S Q → Prop) (body : EA X O F C U V S Q → EARes Unit X O F C U V S Q) : Prop :=
  ∀ a n k b s, I n b s → ∃ n', body (dress a n k b s) = ((body s).1, dress a n' k b (body s).2) ∧ I n' b (body s).2

section generic
variable {ops : Ops X O F C U V S Q R} {I : Option (NDArchive X O F) → Bool → EA X O F C U V S Q → Prop}
  {body : EA X O F C U V S Q → EARes Unit X O F C U V S Q}

theorem loop_dress (hb : Together I body) (fuel : Nat) : Together I (EA.loop body fuel) := by
  induction fuel with
  | zero => exact fun a n k b s h => ⟨n, rfl, h⟩
  | succ fuel ih =>
    intro a n k b s h
    have hc : (dress a n k b s).continueIteration = s.continueIteration := rfl
    unfold EA.loop
    rw [hc]
    cases s.continueIteration with
    | false => exact ⟨n, rfl, h⟩
    | true =>
      obtain ⟨n', h1, h2⟩ := hb a n k b s h
      rw [h1]
      generalize body s = z at h2
      obtain ⟨z, t⟩ := z
      cases z with
      | error e => exact ⟨n', rfl, h2⟩
      | ok _ => exact ih a n' k b t h2

theorem iterateWith_dress (hI : ∀ n b (s t : EA X O F C U V S Q), t.nd = s.nd → t.cfg = s.cfg → I n b s → I n b t) (hb : Together I body)
    (a : List (Nat × Entry X O F)) (n : Option (NDArchive X O F)) (k b : Bool) (s : EA X O F C U V S Q) (p : Option (Pref R)) (h : I n b s) :
    ∃ a' n', (dress a n k b s).iterateWith ops body p = ((s.iterateWith ops body p).1, dress a' n' k b (s.iterateWith ops body p).2) ∧
      I n' b (s.iterateWith ops body p).2 := by
  unfold EA.iterateWith
  rw [managePreferences_dress]
  obtain ⟨m1, m2, -⟩ := managePreferences_nd ops s p
  have h1 := hI n b s _ m2 m1 h
  generalize s.managePreferences ops p = z at h1
  obtain ⟨z, t⟩ := z
  cases z with
  | error e => exact ⟨a, n, rfl, h1⟩
  | ok _ =>
    dsimp only at h1 ⊢
    obtain ⟨a', ha'⟩ := preIteration_dress a n k b ops t
    rw [ha']
    obtain ⟨p1, p2, -⟩ := preIteration_nd ops t
    have h2 := hI n b t _ p2 p1 h1
    generalize t.preIteration ops = u at h2
    have h3 : I n b ({ u with genIter := 0 } : EA X O F C U V S Q) := hI n b u _ rfl rfl h2
    obtain ⟨n', e1, e2⟩ := loop_dress hb u.cfg.nGen a' n k b _ h3
    have e0 : EA.loop body (dress a' n k b u).cfg.nGen ({ dress a' n k b u with genIter := 0 } : EA X O F C U V S Q) =
        ((EA.loop body u.cfg.nGen { u with genIter := 0 }).1, dress a' n' k b (EA.loop body u.cfg.nGen { u with genIter := 0 }).2) := e1
    rw [e0]
    generalize EA.loop body u.cfg.nGen { u with genIter := 0 } = y at e2
    obtain ⟨y, w⟩ := y
    cases y with
    | error e => exact ⟨a', n', rfl, e2⟩
    | ok _ =>
      dsimp only at e2 ⊢
      have e4 := requestPreferences_dress a' n' k b ops ({ w with iter := w.iter + 1 } : EA X O F C U V S Q)
      obtain ⟨q1, q2, -⟩ := requestPreferences_nd ops ({ w with iter := w.iter + 1 } : EA X O F C U V S Q)
      exact ⟨a', n', e4, hI n' b w _ q2 q1 e2⟩

/-- Histories without `start()`. -/
theorem callsWith_dress_noStart (hI : ∀ n b (s t : EA X O F C U V S Q), t.nd = s.nd → t.cfg = s.cfg → I n b s → I n b t) (hb : Together I body) (cs : List (Call R)) (hns : NoStart cs) :
    ∀ (a : List (Nat × Entry X O F)) (n : Option (NDArchive X O F)) (k b : Bool) (s : EA X O F C U V S Q), I n b s →
      ∃ a' n', (dress a n k b s).callsWith ops body cs = dress a' n' k b (s.callsWith ops body cs) ∧ I n' b (s.callsWith ops body cs) := by
  induction cs with
  | nil => exact fun a n k b s h => ⟨a, n, rfl, h⟩
  | cons c cs ih =>
    intro a n k b s h
    have ih := ih (fun c hc => hns c (by simp [hc]))
    cases c with
    | start => exact absurd rfl (hns _ (List.mem_cons_self ..))
    | setType arg =>
      unfold EA.callsWith
      rw [setType_dress]
      refine ih _ _ _ _ _ (hI n b s _ ?_ ?_ h)
      · unfold EA.setInteractionType; split <;> first | rfl | (dsimp only; split <;> first | rfl | (split <;> rfl))
      · unfold EA.setInteractionType; split <;> first | rfl | (dsimp only; split <;> first | rfl | (split <;> rfl))
    | readAllowable =>
      unfold EA.callsWith
      rw [readAllowable_dress]
      refine ih _ _ _ _ _ (hI n b s _ ?_ ?_ h)
      · unfold EA.readAllowable EA.setInteractionType
        split
        · rfl
        · cases s.cfg.location with
          | none => rfl
          | some l => cases l <;> rfl
      · unfold EA.readAllowable EA.setInteractionType
        split
        · rfl
        · cases s.cfg.location with
          | none => rfl
          | some l => cases l <;> rfl
    | iterate p =>
      unfold EA.callsWith
      obtain ⟨a', n', e1, e2⟩ := iterateWith_dress (ops := ops) hI hb a n k b s p h
      rw [e1]
      exact ih _ _ _ _ _ e2

end generic

/-! ## Generations -/

theorem popAdd_dress (a : List (Nat × Entry X O F)) (n : Option (NDArchive X O F)) (k b : Bool) (ops : Ops X O F C U V S Q R)
    (s : EA X O F C U V S Q) (off : Batch X) :
    (dress a n k b s).popAdd ops off = ((s.popAdd ops off).1, dress a n k b (s.popAdd ops off).2) := rfl

theorem pop_add_ok (p : Pop X O F C U) (off : Batch X) (ev : Except Err (Results O F C U)) (res : Results O F C U)
    (h : (p.add off ev).1 = .ok res) : ev = .ok res := by
  unfold Pop.add at h
  dsimp only at h
  repeat' (split at h)
  all_goals first | (simp at h; done) | simpa using h

theorem nextGen_eq (ops : Ops X O F C U V S Q R) (s : EA X O F C U V S Q) : EA.nextGen ops s =
    (match ops.mate s.clock s.pop with
    | .error e => (.error e, { s with clock := s.clock + 1 })
    | .ok off =>
      match (({ s with clock := s.clock + 1 } : EA X O F C U V S Q).popAdd ops off) with
      | (.error e, s) => (.error e, s)
      | (.ok res, s) =>
        match s.updateND ops off.rows res with
        | (.error e, s) => (.error e, s)
        | (.ok _, s) =>
          match ops.select s.clock s.vec s.sel s.pop with
          | (.error e, v, t) => (.error e, { s with vec := v, sel := t, clock := s.clock + 1 })
          | (.ok idx, v, t) =>
            let s := { s with vec := v, sel := t, clock := s.clock + 1 }
            match s.pop.keep idx with
            | (.error e, p) => (.error e, { s with pop := p })
            | (.ok _, p) =>
              let s := { s with pop := p, gen := s.gen + 1, genIter := s.genIter + 1 }
              (.ok (), if s.cfg.useSurr then s else { s with fe := s.fe + off.rows.length })) := by
  unfold EA.nextGen
  rfl

theorem nextGen_dress {ops : Ops X O F C U V S Q R} {L : List X → Results O F C U → Prop}
    {I : Option (NDArchive X O F) → Bool → EA X O F C U V S Q → Prop}
    (hI : Companion ops L I) (hev : ∀ clk surr off r, ops.evaluate clk surr off = .ok r → L off.rows r) : Together I (EA.nextGen ops) := by
  intro a n k b s h
  have hmt : ops.mate (dress a n k b s).clock (dress a n k b s).pop = ops.mate s.clock s.pop := rfl
  rw [nextGen_eq, nextGen_eq, hmt]
  cases ops.mate s.clock s.pop with
  | error e => exact ⟨n, rfl, hI.frame n b s _ rfl rfl h⟩
  | ok off =>
    dsimp only
    have h1 : I n b ({ s with clock := s.clock + 1 } : EA X O F C U V S Q) := hI.frame n b s _ rfl rfl h
    have e0 : ({ dress a n k b s with clock := (dress a n k b s).clock + 1 } : EA X O F C U V S Q) =
      dress a n k b { s with clock := s.clock + 1 } := rfl
    rw [e0, popAdd_dress]
    have h2 : I n b (({ s with clock := s.clock + 1 } : EA X O F C U V S Q).popAdd ops off).2 := hI.frame n b { s with clock := s.clock + 1 } _ rfl rfl h1
    have hres : ∀ res, (({ s with clock := s.clock + 1 } : EA X O F C U V S Q).popAdd ops off).1 = .ok res → L off.rows res :=
      fun res hr => hev _ _ _ _ (pop_add_ok _ _ _ _ hr)
    generalize ({ s with clock := s.clock + 1 } : EA X O F C U V S Q).popAdd ops off = z at h2 hres
    obtain ⟨z, t⟩ := z
    cases z with
    | error e => exact ⟨n, rfl, h2⟩
    | ok res =>
      obtain ⟨n', u1, u2⟩ := hI.update a n k b t off.rows res h2 (hres res rfl)
      dsimp only
      rw [u1]
      generalize t.updateND ops off.rows res = y at u2
      obtain ⟨y, w⟩ := y
      cases y with
      | error e => exact ⟨n', rfl, u2⟩
      | ok _ =>
        dsimp only at u2 ⊢
        have hse : ops.select (dress a n' k b w).clock (dress a n' k b w).vec (dress a n' k b w).sel (dress a n' k b w).pop =
          ops.select w.clock w.vec w.sel w.pop := rfl
        rw [hse]
        generalize ops.select w.clock w.vec w.sel w.pop = q
        obtain ⟨q, v', t'⟩ := q
        cases q with
        | error e => exact ⟨n', rfl, hI.frame n' b w _ rfl rfl u2⟩
        | ok idx =>
          dsimp only
          have hke : (dress a n' k b w).pop.keep idx = w.pop.keep idx := rfl
          rw [hke]
          generalize w.pop.keep idx = r
          obtain ⟨r, pp⟩ := r
          cases r with
          | error e => exact ⟨n', rfl, hI.frame n' b w _ rfl rfl u2⟩
          | ok _ =>
            dsimp only
            have hsu : (dress a n' k b w).cfg.useSurr = w.cfg.useSurr := rfl
            rw [hsu]
            refine ⟨n', ?_, ?_⟩
            · cases w.cfg.useSurr <;> rfl
            · cases w.cfg.useSurr <;> exact hI.frame n' b w _ rfl rfl u2

section moead
variable {m : Nat} {K : Type} [LinearOrder K] [Zero K]

theorem moeadStep_dress {ops : Ops X O F C U (MoeadVec m K) S Q R} {L : List X → Results O F C U → Prop}
    {I : Option (NDArchive X O F) → Bool → EA X O F C U (MoeadVec m K) S Q → Prop} (mo : MoeadOps m K X O F C U) (useRepair : Bool)
    (hI : Companion ops L I) (hev : ∀ clk surr off r, ops.evaluate clk surr off = .ok r → L off.rows r) (i : Nat) :
    Together I (moeadStep ops mo useRepair i) := by
  intro a n k b s h
  have h0 : chooseParents (mo.pick (dress a n k b s).clock) (dress a n k b s).vec.neigh i = chooseParents (mo.pick s.clock) s.vec.neigh i := rfl
  unfold moeadStep
  rw [h0]
  cases chooseParents (mo.pick s.clock) s.vec.neigh i with
  | error e => exact ⟨n, rfl, h⟩
  | ok ab =>
    obtain ⟨p, q⟩ := ab
    dsimp only
    have h1 : mo.mate ((dress a n k b s).clock + 1) (dress a n k b s).pop p q = mo.mate (s.clock + 1) s.pop p q := rfl
    rw [h1]
    rcases mo.mate (s.clock + 1) s.pop p q with e | (_ | ⟨x0, xs⟩)
    · exact ⟨n, rfl, hI.frame n b s _ rfl rfl h⟩
    · exact ⟨n, rfl, hI.frame n b s _ rfl rfl h⟩
    · dsimp only
      generalize (if useRepair then mo.repair x0 else x0) = x
      have h2 : I n b ({ s with clock := s.clock + 1 + 1 } : EA X O F C U (MoeadVec m K) S Q) := hI.frame n b s _ rfl rfl h
      have e0 : moeadEvaluate ops x ({ dress a n k b s with clock := (dress a n k b s).clock + 1 + 1 } : EA X O F C U (MoeadVec m K) S Q) =
        moeadEvaluate ops x (dress a n k b { s with clock := s.clock + 1 + 1 }) := rfl
      rw [e0]
      unfold moeadEvaluate
      rw [popAdd_dress]
      obtain ⟨w0, hw0⟩ : ∃ w : EA X O F C U (MoeadVec m K) S Q, w = { s with clock := s.clock + 1 + 1 } := ⟨_, rfl⟩
      rw [← hw0] at h2 ⊢
      have hpd : (dress a n k b w0).pop.ndim = w0.pop.ndim := rfl
      rw [hpd]
      have h3 : I n b (w0.popAdd ops ⟨w0.pop.ndim - 1, [x]⟩).2 := hI.frame n b w0 _ rfl rfl h2
      have hres : ∀ res, (w0.popAdd ops ⟨w0.pop.ndim - 1, [x]⟩).1 = .ok res → L [x] res :=
        fun res hr => hev _ _ _ _ (pop_add_ok _ _ _ _ hr)
      generalize w0.popAdd ops ⟨w0.pop.ndim - 1, [x]⟩ = z at h3 hres
      obtain ⟨z, t⟩ := z
      cases z with
      | error e => exact ⟨n, rfl, h3⟩
      | ok res =>
        have hL := hres res rfl
        dsimp only at h3 ⊢
        have key : ∀ u : EA X O F C U (MoeadVec m K) S Q, I n b u → ∃ n', moeadFinish ops mo i x res (dress a n k b u) =
            ((moeadFinish ops mo i x res u).1, dress a n' k b (moeadFinish ops mo i x res u).2) ∧ I n' b (moeadFinish ops mo i x res u).2 := by
          intro u hu
          unfold moeadFinish
          have g1 : moeadSelect mo (mo.ideal (dress a n k b u).clock) (dress a n k b u).vec (dress a n k b u).pop.fitness i =
            moeadSelect mo (mo.ideal u.clock) u.vec u.pop.fitness i := rfl
          rw [g1]
          cases moeadSelect mo (mo.ideal u.clock) u.vec u.pop.fitness i with
          | error e => exact ⟨n, rfl, hu⟩
          | ok sel =>
            dsimp only
            have g2 : replaceWith (dress a n k b u).pop sel x res = replaceWith u.pop sel x res := rfl
            rw [g2]
            generalize replaceWith u.pop sel x res = y
            obtain ⟨y, pp⟩ := y
            cases y with
            | error e => exact ⟨n, rfl, hI.frame n b u _ rfl rfl hu⟩
            | ok _ =>
              dsimp only
              generalize pp.delete [-1] = y
              obtain ⟨y, pq⟩ := y
              cases y with
              | error e => exact ⟨n, rfl, hI.frame n b u _ rfl rfl hu⟩
              | ok _ => exact hI.update a n k b ({ u with pop := pq } : EA X O F C U (MoeadVec m K) S Q) [x] res (hI.frame n b u _ rfl rfl hu) hL
        have hsu : (dress a n k b t).cfg.useSurr = t.cfg.useSurr := rfl
        rw [hsu]
        cases t.cfg.useSurr with
        | true => exact key t h3
        | false => exact key ({ t with fe := t.fe + 1 }) (hI.frame n b t _ rfl rfl h3)

theorem moeadNextGen_dress {ops : Ops X O F C U (MoeadVec m K) S Q R} {L : List X → Results O F C U → Prop}
    {I : Option (NDArchive X O F) → Bool → EA X O F C U (MoeadVec m K) S Q → Prop} (mo : MoeadOps m K X O F C U) (useRepair : Bool) (N : Nat)
    (hI : Companion ops L I) (hev : ∀ clk surr off r, ops.evaluate clk surr off = .ok r → L off.rows r) :
    Together I (moeadNextGen ops mo useRepair N) := by
  have hs : ∀ is, Together I (moeadSteps ops mo useRepair is) := by
    intro is
    induction is with
    | nil => exact fun a n k b s h => ⟨n, rfl, h⟩
    | cons i is ih =>
      intro a n k b s h
      obtain ⟨n', e1, e2⟩ := moeadStep_dress mo useRepair hI hev i a n k b s h
      unfold moeadSteps
      rw [e1]
      generalize moeadStep ops mo useRepair i s = z at e2
      obtain ⟨z, t⟩ := z
      cases z with
      | error e => exact ⟨n', rfl, e2⟩
      | ok _ => exact ih a n' k b t e2
  intro a n k b s h
  obtain ⟨n', e1, e2⟩ := hs (List.range N) a n k b s h
  unfold moeadNextGen
  rw [e1]
  generalize moeadSteps ops mo useRepair (List.range N) s = z at e2
  obtain ⟨z, t⟩ := z
  cases z with
  | error e => exact ⟨n', rfl, e2⟩
  | ok _ => exact ⟨n', rfl, hI.frame n' b t _ rfl rfl e2⟩

end moead

/-- The companion has the same archive of non-dominated solutions and the same flag. -/
def SameND (n : Option (NDArchive X O F)) (b : Bool) (s : EA X O F C U V S Q) : Prop := n = s.nd ∧ b = s.cfg.saveND

/-- The archive exists and its three columns have the same length. -/
def Begun (n : Option (NDArchive X O F)) : Prop :=
  ∃ ar, n = some ar ∧ ar.objectives.length = ar.individuals.length ∧ ar.fitness.length = ar.individuals.length

/-- The object saves non-dominated solutions and has begun to, the companion does not. -/
def OnlyThis (_ : Option (NDArchive X O F)) (b : Bool) (s : EA X O F C U V S Q) : Prop :=
  b = false ∧ s.cfg.saveND = true ∧ Begun s.nd

theorem sameND_companion (ops : Ops X O F C U V S Q R) : Companion ops (fun _ _ => True) (SameND (C := C) (U := U) (V := V) (S := S) (Q := Q) (X := X) (O := O) (F := F)) := by
  refine ⟨fun n b s t h1 h2 h => ⟨by rw [h1]; exact h.1, by rw [h2]; exact h.2⟩, ?_⟩
  rintro a n k b s rows res ⟨rfl, rfl⟩ -
  unfold EA.updateND
  have h1 : (dress a s.nd k s.cfg.saveND s).cfg.saveND = s.cfg.saveND := rfl
  have h2 : (dress a s.nd k s.cfg.saveND s).nd = s.nd := rfl
  rw [h1, h2]
  generalize hb : s.cfg.saveND = b
  cases b with
  | false => exact ⟨s.nd, rfl, rfl, hb.symm⟩
  | true =>
    rw [if_pos rfl, if_pos rfl]
    cases archiveUpdate ops.dom s.nd rows res.objectives res.fitness with
    | error e => exact ⟨s.nd, rfl, rfl, hb.symm⟩
    | ok nd => exact ⟨some nd, rfl, rfl, hb.symm⟩

theorem checkNew_length (dom : F → F → Bool) (x : F) : ∀ (as : List F) (ms : List Bool), (checkNew dom x as ms).2.length = ms.length
  | [], ms => by unfold checkNew; rfl
  | a :: as, [] => by unfold checkNew; rfl
  | a :: as, mk :: ms => by
    unfold checkNew
    split
    · exact congrArg (· + 1) (checkNew_length dom x as ms)
    · split
      · rfl
      · split
        · exact congrArg (· + 1) (checkNew_length dom x as ms)
        · exact congrArg (· + 1) (checkNew_length dom x as ms)

theorem checkAll_length (dom : F → F → Bool) (as : List F) : ∀ (xs : List F) (ms : List Bool),
    (checkAll dom as xs ms).1.length = xs.length ∧ (checkAll dom as xs ms).2.length = ms.length
  | [], ms => ⟨rfl, rfl⟩
  | x :: xs, ms => by
    obtain ⟨h1, h2⟩ := checkAll_length dom as xs (checkNew dom x as ms).2
    unfold checkAll
    exact ⟨congrArg (· + 1) h1, h2.trans (checkNew_length dom x as ms)⟩

theorem archiveUpdate_kept (dom : F → F → Bool) (n : Option (NDArchive X O F)) (inds : List X) (objs : List O) (fits : List F) (h : Begun n)
    (ho : objs.length = inds.length) (hf : fits.length = inds.length) : ∃ ar, archiveUpdate dom n inds objs fits = .ok ar ∧ Begun (some ar) := by
  obtain ⟨ar, rfl, h1, h2⟩ := h
  obtain ⟨l1, l2⟩ := checkAll_length dom ar.fitness fits (List.replicate ar.fitness.length true)
  rw [List.length_replicate] at l2
  unfold archiveUpdate
  dsimp only
  unfold checkDomination
  generalize checkAll dom ar.fitness fits (List.replicate ar.fitness.length true) = mm at l1 l2
  obtain ⟨m1, m2⟩ := mm
  dsimp only at l1 l2 ⊢
  have cl : ∀ {α β : Type} (mask : List Bool) (xs : List α) (ys : List β), mask.length = xs.length → mask.length = ys.length →
      (compress mask xs).length = (compress mask ys).length := by
    intro α β mask
    induction mask with
    | nil => intro xs ys hx hy; cases xs <;> cases ys <;> simp_all [compress]
    | cons q mask ih =>
      intro xs ys hx hy
      cases xs with
      | nil => simp at hx
      | cons x xs =>
        cases ys with
        | nil => simp at hy
        | cons y ys =>
          have := ih xs ys (by simpa using hx) (by simpa using hy)
          cases q <;> simp [compress, this]
  have bi : ∀ {α : Type} (mask : List Bool) (xs : List α), mask.length = xs.length → boolIndex mask xs = .ok (compress mask xs) := by
    intro α mask xs hx
    unfold boolIndex
    simp [hx]
  rw [bi m2 ar.individuals (by omega), bi m1 inds (by omega), bi m2 ar.objectives (by omega), bi m1 objs (by omega), bi m2 ar.fitness (by omega),
    bi m1 fits (by omega)]
  refine ⟨_, rfl, _, rfl, ?_, ?_⟩
  · simp only [List.length_append]
    rw [cl m2 ar.objectives ar.individuals (by omega) (by omega), cl m1 objs inds (by omega) (by omega)]
  · simp only [List.length_append]
    rw [cl m2 ar.fitness ar.individuals (by omega) (by omega), cl m1 fits inds (by omega) (by omega)]

theorem onlyThis_companion (ops : Ops X O F C U V S Q R) :
    Companion ops RowPerRow (OnlyThis (C := C) (U := U) (V := V) (S := S) (Q := Q) (X := X) (O := O) (F := F)) := by
  refine ⟨fun n b s t h1 h2 h => ⟨h.1, by rw [h2]; exact h.2.1, by rw [h1]; exact h.2.2⟩, ?_⟩
  rintro a n k b s rows res ⟨rfl, hon, hk⟩ ⟨ho, hf⟩
  obtain ⟨ar, e1, e2⟩ := archiveUpdate_kept ops.dom s.nd rows res.objectives res.fitness hk ho hf
  unfold EA.updateND
  have h1 : (dress a n k false s).cfg.saveND = false := rfl
  rw [h1, hon, if_pos rfl, e1]
  exact ⟨n, rfl, rfl, hon, e2⟩

/-! ## Construction and `start()` -/

theorem construct_dress (ops : Ops X O F C U V S Q R) (design : Nat → Nat → Except Err (Batch X)) (vec0 : Nat → V) (sel0 : Nat → S) (prob0 : Q)
    (interact useSurr k b k' b' : Bool) (nIter nGen total : Nat) (problem : Option (ProblemType × Nat × Nat))
    (initPop : Option (Pop X O F C U × Nat)) (ps lr : Option Nat) :
    construct ops design vec0 sel0 prob0 interact useSurr k' b' nIter nGen total problem initPop ps lr =
      (construct ops design vec0 sel0 prob0 interact useSurr k b nIter nGen total problem initPop ps lr).map (dress [] none k' b') := by
  unfold construct
  cases initPop with
  | some pn => cases problem <;> rfl
  | none =>
    cases problem with
    | none => rfl
    | some pr =>
      obtain ⟨ty, m, nCons⟩ := pr
      dsimp only
      cases design 0 (choosePopSize m ps lr) with
      | error e => rfl
      | ok rows =>
        dsimp only
        generalize he : ({ cfg := ⟨interact, _, nIter, nGen, total, useSurr, k, b⟩, clock := 1, pop := Pop.new nCons, vec := vec0 (choosePopSize m ps lr), sel := sel0 (choosePopSize m ps lr), prob := prob0, iter := 0, gen := 0, genIter := 0, fe := 0, reqId := none, itype := none, typeSet := _, allowRead := false, archive := [], nd := none, trueEvals := 0, log := [] } : EA X O F C U V S Q) = ea
        have h2 := popAdd_dress [] none k' b' ops ea rows
        generalize hz : EA.popAdd ops ea rows = z at h2
        rw [← he] at h2
        have h3 : EA.popAdd ops (dress [] none k' b' ea) rows = (z.1, dress [] none k' b' z.2) := by rw [← he]; exact h2
        rw [← he] at h3
        simp only [dress] at h3
        rw [h3]
        obtain ⟨z, t⟩ := z
        cases z <;> rfl

theorem start_dress_same (ops : Ops X O F C U V S Q R) (a : List (Nat × Entry X O F)) (k : Bool) (s : EA X O F C U V S Q) :
    ∃ n', (dress a s.nd k s.cfg.saveND s).start ops = ((s.start ops).1, dress a n' k s.cfg.saveND (s.start ops).2) ∧
      SameND n' s.cfg.saveND (s.start ops).2 := by
  have hq : ∀ t : EA X O F C U V S Q, t.cfg = s.cfg → ∃ n', (dress a t.nd k s.cfg.saveND t).requestPreferences ops =
      ((t.requestPreferences ops).1, dress a n' k s.cfg.saveND (t.requestPreferences ops).2) ∧ SameND n' s.cfg.saveND (t.requestPreferences ops).2 := by
    intro t ht
    obtain ⟨q1, q2, -⟩ := requestPreferences_nd ops t
    exact ⟨t.nd, requestPreferences_dress a t.nd k s.cfg.saveND ops t, q2.symm, by rw [q1, ht]⟩
  unfold EA.start
  have h1 : (dress a s.nd k s.cfg.saveND s).cfg.interact = s.cfg.interact := rfl
  have h2 : (dress a s.nd k s.cfg.saveND s).typeSet = s.typeSet := rfl
  have h3 : (dress a s.nd k s.cfg.saveND s).cfg.saveND = s.cfg.saveND := rfl
  have h4 : (dress a s.nd k s.cfg.saveND s).pop = s.pop := rfl
  rw [h1, h2, h3, h4]
  split
  · exact ⟨s.nd, rfl, rfl, rfl⟩
  · by_cases hs : s.cfg.saveND = true
    · rw [if_pos hs, if_pos hs]
      cases s.pop.individuals with
      | none => exact ⟨s.nd, rfl, rfl, rfl⟩
      | some inds =>
        dsimp only
        cases startArchive ops.nonDom inds s.pop.objectives s.pop.fitness with
        | error e => exact ⟨s.nd, rfl, rfl, rfl⟩
        | ok nd => exact hq ({ s with nd := some nd }) rfl
    · rw [if_neg hs, if_neg hs]
      exact hq s rfl

theorem start_dress_drop (ops : Ops X O F C U V S Q R) (a : List (Nat × Entry X O F)) (n : Option (NDArchive X O F)) (k : Bool)
    (s t : EA X O F C U V S Q) (o : Option Request) (hon : s.cfg.saveND = true) (h : s.start ops = (.ok o, t)) :
    (dress a n k false s).start ops = (.ok o, dress a n k false t) ∧ OnlyThis n false t := by
  unfold EA.start at h ⊢
  have h1 : (dress a n k false s).cfg.interact = s.cfg.interact := rfl
  have h2 : (dress a n k false s).typeSet = s.typeSet := rfl
  rw [h1, h2]
  split at h
  · simp at h
  · rename_i hc
    rw [if_neg hc]
    dsimp only at h ⊢
    rw [if_neg (show ¬ (dress a n k false s).cfg.saveND = true from Bool.false_ne_true)]
    dsimp only
    rw [requestPreferences_dress]
    cases hi : s.pop.individuals with
    | none => rw [hi] at h; simp at h
    | some inds =>
      rw [hi] at h
      dsimp only at h
      cases hsa : startArchive ops.nonDom inds s.pop.objectives s.pop.fitness with
      | error e => rw [hsa] at h; simp at h
      | ok nd =>
        rw [hsa] at h
        dsimp only at h
        have hrq : ∀ u : EA X O F C U V S Q, ({ u with nd := some nd } : EA X O F C U V S Q).requestPreferences ops =
            ((u.requestPreferences ops).1, { (u.requestPreferences ops).2 with nd := some nd }) := by
          intro u
          have := requestPreferences_dress u.archive (some nd) u.cfg.keepArchive u.cfg.saveND ops u
          have e1 : dress u.archive (some nd) u.cfg.keepArchive u.cfg.saveND u = { u with nd := some nd } := rfl
          rw [e1] at this
          rw [this]
          obtain ⟨q1, -, -⟩ := requestPreferences_nd ops u
          have q4 : (u.requestPreferences ops).2.archive = u.archive := by
            unfold EA.requestPreferences
            split
            · rfl
            · split
              · rfl
              · rfl
              · split
                · rfl
                · dsimp only
                  split <;> rfl
          unfold dress
          rw [← q1, ← q4]
        rw [hrq] at h
        obtain ⟨q1, -, -⟩ := requestPreferences_nd ops s
        generalize s.requestPreferences ops = z at h q1
        obtain ⟨z, w⟩ := z
        simp only [Prod.mk.injEq] at h q1
        obtain ⟨rfl, rfl⟩ := h
        refine ⟨rfl, rfl, ?_, nd, rfl, ?_⟩
        · show w.cfg.saveND = true
          rw [q1]; exact hon
        · unfold startArchive at hsa
          dsimp only at hsa
          have cl : ∀ {α β : Type} (mask : List Bool) (xs : List α) (ys : List β) xs' ys', boolIndex mask xs = .ok xs' → boolIndex mask ys = .ok ys' →
              xs'.length = ys'.length := by
            intro α β mask xs ys xs' ys' hx hy
            unfold boolIndex at hx hy
            split at hx
            · rename_i hx1
              split at hy
              · rename_i hy1
                simp only [Except.ok.injEq] at hx hy
                subst hx hy
                clear hsa
                induction mask generalizing xs ys with
                | nil => cases xs <;> cases ys <;> simp_all [compress]
                | cons q mask ih =>
                  cases xs with
                  | nil => simp at hx1
                  | cons x xs =>
                    cases ys with
                    | nil => simp at hy1
                    | cons y ys =>
                      have := ih xs ys (by simpa using hx1) (by simpa using hy1)
                      cases q <;> simp [compress, this]
              · simp at hy
            · simp at hx
          split at hsa
          · rename_i i o' f hi1 ho1 hf1
            simp only [Except.ok.injEq] at hsa
            subst hsa
            exact ⟨cl _ _ _ _ _ ho1 hi1, cl _ _ _ _ _ hf1 hi1⟩
          · simp at hsa

/-! ## The theorems -/

theorem calls_eq_callsWith (ops : Ops X O F C U V S Q R) (cs : List (Call R)) :
    ∀ s : EA X O F C U V S Q, s.calls ops cs = s.callsWith ops (EA.nextGen ops) cs := by
  induction cs with
  | nil => exact fun _ => rfl
  | cons c cs ih =>
    intro s
    cases c with
    | start => exact ih _
    | iterate p => exact ih _
    | setType arg =>
      unfold EA.calls EA.callsWith EA.call
      rw [← ih]
      dsimp only
      generalize s.setInteractionType arg = z
      obtain ⟨z, t⟩ := z
      cases z <;> rfl
    | readAllowable =>
      unfold EA.calls EA.callsWith EA.call
      rw [← ih]
      dsimp only
      generalize s.readAllowable = z
      obtain ⟨z, t⟩ := z
      cases z <;> rfl

/-- Any history, the flag for the archive of populations being different. -/
theorem callsWith_dress_same {ops : Ops X O F C U V S Q R} {body : EA X O F C U V S Q → EARes Unit X O F C U V S Q} (hb : Together SameND body)
    (cs : List (Call R)) : ∀ (a : List (Nat × Entry X O F)) (k : Bool) (s : EA X O F C U V S Q),
      ∃ a', (dress a s.nd k s.cfg.saveND s).callsWith ops body cs =
        dress a' (s.callsWith ops body cs).nd k (s.callsWith ops body cs).cfg.saveND (s.callsWith ops body cs) := by
  induction cs with
  | nil => exact fun a k s => ⟨a, rfl⟩
  | cons c cs ih =>
    intro a k s
    cases c with
    | start =>
      obtain ⟨n', e1, e2, e3⟩ := start_dress_same ops a k s
      unfold EA.callsWith
      rw [e1, e2]
      dsimp only
      rw [e3]
      exact ih _ _ _
    | setType arg =>
      obtain ⟨a', n', e1, e2, e3⟩ := callsWith_dress_noStart (ops := ops) (body := body) (sameND_companion ops).frame hb [.setType arg] (by intro c hc; simp only [List.mem_singleton] at hc; subst hc; simp) a s.nd k s.cfg.saveND s ⟨rfl, rfl⟩
      simp only [EA.callsWith] at e1 e2 e3 ⊢
      rw [e1, e2, e3]
      exact ih _ _ _
    | readAllowable =>
      obtain ⟨a', n', e1, e2, e3⟩ := callsWith_dress_noStart (ops := ops) (body := body) (sameND_companion ops).frame hb [.readAllowable] (by intro c hc; simp only [List.mem_singleton] at hc; subst hc; simp) a s.nd k s.cfg.saveND s ⟨rfl, rfl⟩
      simp only [EA.callsWith] at e1 e2 e3 ⊢
      rw [e1, e2, e3]
      exact ih _ _ _
    | iterate p =>
      obtain ⟨a', n', e1, e2, e3⟩ := iterateWith_dress (ops := ops) (sameND_companion ops).frame hb a s.nd k s.cfg.saveND s p ⟨rfl, rfl⟩
      simp only [EA.callsWith]
      rw [e1, e2, e3]
      exact ih _ _ _

/-- **C97 (a)**: `keep_archive` changes nothing but the archive.  Constructed with and without it, from the same arguments, the two EA
objects (RVEA, NSGA-III, any EA with this `_next_gen`) go through every history of calls alike: the same population, vectors, operator
state, counters, saved non-dominated solutions, evaluated batches, and every call returns or raises the same. -/
theorem c97_keep_archive (ops : Ops X O F C U V S Q R) (design : Nat → Nat → Except Err (Batch X)) (vec0 : Nat → V) (sel0 : Nat → S) (prob0 : Q)
    (interact useSurr saveND keep keep' : Bool) (nIter nGen total : Nat) (problem : Option (ProblemType × Nat × Nat))
    (initPop : Option (Pop X O F C U × Nat)) (ps lr : Option Nat) :
    (∀ e, construct ops design vec0 sel0 prob0 interact useSurr keep saveND nIter nGen total problem initPop ps lr = .error e →
      construct ops design vec0 sel0 prob0 interact useSurr keep' saveND nIter nGen total problem initPop ps lr = .error e) ∧
    ∀ s, construct ops design vec0 sel0 prob0 interact useSurr keep saveND nIter nGen total problem initPop ps lr = .ok s →
      ∃ s', construct ops design vec0 sel0 prob0 interact useSurr keep' saveND nIter nGen total problem initPop ps lr = .ok s' ∧
        ∀ cs, SameProgress (s.calls ops cs) (s'.calls ops cs) ∧ (s'.calls ops cs).nd = (s.calls ops cs).nd ∧
          ∀ c, ((s'.calls ops cs).call ops c).1 = ((s.calls ops cs).call ops c).1 := by
  have hc := construct_dress ops design vec0 sel0 prob0 interact useSurr keep saveND keep' saveND nIter nGen total problem initPop ps lr
  refine ⟨fun e he => by rw [hc, he]; rfl, fun s hs => ?_⟩
  rw [hs] at hc
  refine ⟨_, hc, fun cs => ?_⟩
  have h0 : s.nd = none ∧ s.cfg.saveND = saveND := by
    have h := construct_dress ops design vec0 sel0 prob0 interact useSurr keep saveND keep saveND nIter nGen total problem initPop ps lr
    rw [hs] at h
    simp only [Except.map, Except.ok.injEq] at h
    exact ⟨by rw [h]; rfl, by rw [h]; rfl⟩
  have hb : Together SameND (EA.nextGen ops) := nextGen_dress (sameND_companion ops) (fun _ _ _ _ _ => trivial)
  have key : ∀ cs, ∃ a', (dress [] none keep' saveND s).calls ops cs =
      dress a' (s.calls ops cs).nd keep' (s.calls ops cs).cfg.saveND (s.calls ops cs) := by
    intro cs
    rw [calls_eq_callsWith, calls_eq_callsWith]
    have := callsWith_dress_same (ops := ops) hb cs [] keep' s
    rwa [h0.1, h0.2] at this
  obtain ⟨a', h1⟩ := key cs
  refine ⟨by rw [h1]; exact same_dress _ _ _ _ _, by rw [h1]; rfl, fun c => ?_⟩
  rw [h1]
  generalize s.calls ops cs = t
  cases c with
  | start => obtain ⟨n', e1, -⟩ := start_dress_same ops a' keep' t; exact (congrArg Prod.fst e1 :)
  | iterate p =>
    obtain ⟨x, y, e1, -⟩ := iterateWith_dress (ops := ops) (sameND_companion ops).frame hb a' t.nd keep' t.cfg.saveND t p ⟨rfl, rfl⟩
    exact (congrArg Prod.fst e1 :)
  | setType arg =>
    simp only [EA.call, setType_dress]
    generalize t.setInteractionType arg = z
    obtain ⟨z, t⟩ := z
    cases z <;> rfl
  | readAllowable =>
    simp only [EA.call, readAllowable_dress]
    generalize t.readAllowable = z
    obtain ⟨z, t⟩ := z
    cases z <;> rfl

theorem callsWith_dress_before (ops : Ops X O F C U V S Q R) (body : EA X O F C U V S Q → EARes Unit X O F C U V S Q) (a : List (Nat × Entry X O F))
    (n : Option (NDArchive X O F)) (k b : Bool) (before : List (Call R)) (hb : ∀ c ∈ before, c = .readAllowable ∨ ∃ arg, c = .setType arg) :
    ∀ s : EA X O F C U V S Q, (dress a n k b s).callsWith ops body before = dress a n k b (s.callsWith ops body before) ∧
      (s.callsWith ops body before).cfg = s.cfg := by
  induction before with
  | nil => exact fun s => ⟨rfl, rfl⟩
  | cons c cs ih =>
    intro s
    have ih := ih (fun c hc => hb c (by simp [hc]))
    have hset : ∀ arg, (s.setInteractionType arg).2.cfg = s.cfg := by
      intro arg
      unfold EA.setInteractionType
      split <;> first | rfl | (dsimp only; split <;> first | rfl | (split <;> rfl))
    rcases hb c (by simp) with rfl | ⟨arg, rfl⟩
    · simp only [EA.callsWith, readAllowable_dress]
      obtain ⟨i1, i2⟩ := ih s.readAllowable.2
      refine ⟨i1, i2.trans ?_⟩
      unfold EA.readAllowable
      split
      · rfl
      · have := hset none
        generalize s.setInteractionType none = z at this
        obtain ⟨z, w⟩ := z
        cases z <;> exact this
    · simp only [EA.callsWith, setType_dress]
      obtain ⟨i1, i2⟩ := ih (s.setInteractionType arg).2
      exact ⟨i1, i2.trans (hset arg)⟩

/-- A history after a `start()` that returned, one object saving and the other not. -/
theorem after_start {ops : Ops X O F C U V S Q R} {body : EA X O F C U V S Q → EARes Unit X O F C U V S Q} (hbody : Together OnlyThis body)
    (keep' : Bool) (s t : EA X O F C U V S Q) (hon : s.cfg.saveND = true) (o : Option Request) (before : List (Call R))
    (hb : ∀ c ∈ before, c = .readAllowable ∨ ∃ arg, c = .setType arg)
    (ht : (s.callsWith ops body before).start ops = (.ok o, t)) :
    ((dress [] none keep' false s).callsWith ops body before).start ops = (.ok o, dress [] none keep' false t) ∧
      ∀ cs, NoStart cs → SameProgress (t.callsWith ops body cs) ((dress [] none keep' false t).callsWith ops body cs) ∧
        ∀ pref, (((dress [] none keep' false t).callsWith ops body cs).iterateWith ops body pref).1 =
          ((t.callsWith ops body cs).iterateWith ops body pref).1 := by
  obtain ⟨b1, b2⟩ := callsWith_dress_before ops body [] none keep' false before hb s
  obtain ⟨s1, s2⟩ := start_dress_drop ops [] none keep' _ t o (by rw [b2]; exact hon) ht
  rw [b1]
  refine ⟨s1, fun cs hcs => ?_⟩
  obtain ⟨a', n', e1, e2⟩ := callsWith_dress_noStart (ops := ops) (onlyThis_companion ops).frame hbody cs hcs [] none keep' false t s2
  rw [e1]
  refine ⟨same_dress _ _ _ _ _, fun pref => ?_⟩
  obtain ⟨a2, n2, f1, -⟩ := iterateWith_dress (ops := ops) (onlyThis_companion ops).frame hbody a' n' keep' false _ pref e2
  rw [f1]

/-- **C97 (b)**: nor does `save_non_dominated`, once `start()` has returned (before that every generation of the object that saves raises,
C08).  The two objects differ in both flags; the evaluation gives one row per vector. -/
theorem c97_save_non_dominated (ops : Ops X O F C U V S Q R)
    (hev : ∀ clk surr off r, ops.evaluate clk surr off = .ok r → RowPerRow off.rows r)
    (design : Nat → Nat → Except Err (Batch X)) (vec0 : Nat → V) (sel0 : Nat → S) (prob0 : Q)
    (interact useSurr keep keep' : Bool) (nIter nGen total : Nat) (problem : Option (ProblemType × Nat × Nat))
    (initPop : Option (Pop X O F C U × Nat)) (ps lr : Option Nat) (s t : EA X O F C U V S Q) (o : Option Request) (before : List (Call R))
    (hs : construct ops design vec0 sel0 prob0 interact useSurr keep true nIter nGen total problem initPop ps lr = .ok s)
    (hb : ∀ c ∈ before, c = .readAllowable ∨ ∃ arg, c = .setType arg)
    (ht : (s.calls ops before).start ops = (.ok o, t)) :
    ∃ s' t', construct ops design vec0 sel0 prob0 interact useSurr keep' false nIter nGen total problem initPop ps lr = .ok s' ∧
      (s'.calls ops before).start ops = (.ok o, t') ∧
      ∀ cs, NoStart cs → SameProgress (t.calls ops cs) (t'.calls ops cs) ∧
        ∀ pref, ((t'.calls ops cs).iterate ops pref).1 = ((t.calls ops cs).iterate ops pref).1 := by
  have hc := construct_dress ops design vec0 sel0 prob0 interact useSurr keep true keep' false nIter nGen total problem initPop ps lr
  have hon : s.cfg.saveND = true := by
    have h := construct_dress ops design vec0 sel0 prob0 interact useSurr keep true keep true nIter nGen total problem initPop ps lr
    rw [hs] at h
    simp only [Except.map, Except.ok.injEq] at h
    rw [h]; rfl
  rw [hs] at hc
  have hbody : Together OnlyThis (EA.nextGen ops) := nextGen_dress (onlyThis_companion ops) hev
  rw [calls_eq_callsWith] at ht
  obtain ⟨h1, h2⟩ := after_start hbody keep' s t hon o before hb ht
  refine ⟨_, _, hc, by rw [calls_eq_callsWith]; exact h1, fun cs hcs => ?_⟩
  rw [calls_eq_callsWith, calls_eq_callsWith]
  exact h2 cs hcs

/-! ## MOEA/D -/

section moeadRun
variable {m : Nat}

theorem moeadBody_dress_same (ops : Ops X O F C U (MoeadRV m) S Q R) (mo : MoeadOps m ℝ X O F C U) (useRepair : Bool) (N : Nat) :
    Together SameND (moeadBody ops mo useRepair N) := by
  intro a n k b s h
  obtain ⟨n', e1, e2⟩ := moeadNextGen_dress mo useRepair N (sameND_companion (ops.forGeneration (W := MoeadVec m ℝ)))
    (fun _ _ _ _ _ => trivial) a n k b (s.withVec s.vec.toVec) h
  refine ⟨n', ?_, e2⟩
  unfold moeadBody
  dsimp only
  have e3 : (dress a n k b s).withVec (dress a n k b s).vec.toVec = dress a n k b (s.withVec s.vec.toVec) := rfl
  rw [e3, e1]
  rfl

theorem moeadBody_dress_drop (ops : Ops X O F C U (MoeadRV m) S Q R) (hev : ∀ clk surr off r, ops.evaluate clk surr off = .ok r → RowPerRow off.rows r)
    (mo : MoeadOps m ℝ X O F C U) (useRepair : Bool) (N : Nat) : Together OnlyThis (moeadBody ops mo useRepair N) := by
  intro a n k b s h
  obtain ⟨n', e1, e2⟩ := moeadNextGen_dress mo useRepair N (onlyThis_companion (ops.forGeneration (W := MoeadVec m ℝ)))
    hev a n k b (s.withVec s.vec.toVec) h
  refine ⟨n', ?_, e2⟩
  unfold moeadBody
  dsimp only
  have e3 : (dress a n k b s).withVec (dress a n k b s).vec.toVec = dress a n k b (s.withVec s.vec.toVec) := rfl
  rw [e3, e1]
  rfl

variable (ops : Ops X O (Vec m) C U (MoeadRV m) S Q R) (mo : MoeadOps m ℝ X O (Vec m) C U) (useRepair : Bool) (N : Nat)
  (design : Nat → Nat → Except Err (Batch X)) (argsort : List ℝ → List Nat) (nNeighbors nParents : Nat) (sel0 : S) (prob0 : Q)

theorem moeadConstruct_dress (interact useSurr k b k' b' : Bool) (nIter nGen total : Nat) (pty : ProblemType) (nCons : Nat) (ps lr : Option Nat) :
    moeadConstruct ops design argsort nNeighbors nParents sel0 prob0 interact useSurr k' b' nIter nGen total pty nCons ps lr =
      (moeadConstruct ops design argsort nNeighbors nParents sel0 prob0 interact useSurr k b nIter nGen total pty nCons ps lr).map
        (dress [] none k' b') := by
  unfold moeadConstruct
  rw [construct_dress ops design _ _ prob0 interact useSurr k b k' b']
  generalize construct ops design (fun _ => (⟨⟨[], [], [], [], 0⟩, []⟩ : MoeadRV m)) (fun _ => sel0) prob0 interact useSurr k b
      nIter nGen total (some (pty, m, nCons)) none ps lr = z
  cases z with
  | error e => rfl
  | ok s =>
    simp only [Except.map]
    split
    · rfl
    · cases chooseResolution m none (some (choosePopSize m ps lr)) with
      | error e => rfl
      | ok r =>
        cases r with
        | none => rfl
        | some r =>
          dsimp only
          cases RV.create m r <;> rfl

/-- **C97 (a)** for MOEA/D. -/
theorem c97_moead_keep_archive (interact useSurr saveND keep keep' : Bool) (nIter nGen total : Nat) (pty : ProblemType) (nCons : Nat)
    (ps lr : Option Nat) :
    (∀ e, moeadConstruct ops design argsort nNeighbors nParents sel0 prob0 interact useSurr keep saveND nIter nGen total pty nCons ps lr = .error e →
      moeadConstruct ops design argsort nNeighbors nParents sel0 prob0 interact useSurr keep' saveND nIter nGen total pty nCons ps lr = .error e) ∧
    ∀ s, moeadConstruct ops design argsort nNeighbors nParents sel0 prob0 interact useSurr keep saveND nIter nGen total pty nCons ps lr = .ok s →
      ∃ s', moeadConstruct ops design argsort nNeighbors nParents sel0 prob0 interact useSurr keep' saveND nIter nGen total pty nCons ps lr = .ok s' ∧
        ∀ cs, SameProgress (s.callsWith ops (moeadBody ops mo useRepair N) cs) (s'.callsWith ops (moeadBody ops mo useRepair N) cs) ∧
          (s'.callsWith ops (moeadBody ops mo useRepair N) cs).nd = (s.callsWith ops (moeadBody ops mo useRepair N) cs).nd ∧
          ∀ pref, ((s'.callsWith ops (moeadBody ops mo useRepair N) cs).iterateWith ops (moeadBody ops mo useRepair N) pref).1 =
            ((s.callsWith ops (moeadBody ops mo useRepair N) cs).iterateWith ops (moeadBody ops mo useRepair N) pref).1 := by
  have hc := moeadConstruct_dress ops design argsort nNeighbors nParents sel0 prob0 interact useSurr keep saveND keep' saveND nIter nGen total pty nCons ps lr
  refine ⟨fun e he => by rw [hc, he]; rfl, fun s hs => ?_⟩
  rw [hs] at hc
  refine ⟨_, hc, fun cs => ?_⟩
  have h0 : s.nd = none ∧ s.cfg.saveND = saveND := by
    have h := moeadConstruct_dress ops design argsort nNeighbors nParents sel0 prob0 interact useSurr keep saveND keep saveND nIter nGen total pty nCons ps lr
    rw [hs] at h
    simp only [Except.map, Except.ok.injEq] at h
    exact ⟨by rw [h]; rfl, by rw [h]; rfl⟩
  have hb := moeadBody_dress_same ops mo useRepair N
  have key := callsWith_dress_same (ops := ops) hb cs [] keep' s
  rw [h0.1, h0.2] at key
  obtain ⟨a', h1⟩ := key
  refine ⟨by rw [h1]; exact same_dress _ _ _ _ _, by rw [h1]; rfl, fun p => ?_⟩
  rw [h1]
  obtain ⟨x, y, e1, -⟩ := iterateWith_dress (ops := ops) (sameND_companion ops).frame hb a' _ keep' _ (s.callsWith ops (moeadBody ops mo useRepair N) cs) p ⟨rfl, rfl⟩
  rw [e1]

/-- **C97 (b)** for MOEA/D. -/
theorem c97_moead_save_non_dominated (hev : ∀ clk surr off r, ops.evaluate clk surr off = .ok r → RowPerRow off.rows r)
    (interact useSurr keep keep' : Bool) (nIter nGen total : Nat) (pty : ProblemType) (nCons : Nat) (ps lr : Option Nat)
    (s t : EA X O (Vec m) C U (MoeadRV m) S Q) (o : Option Request) (before : List (Call R))
    (hs : moeadConstruct ops design argsort nNeighbors nParents sel0 prob0 interact useSurr keep true nIter nGen total pty nCons ps lr = .ok s)
    (hb : ∀ c ∈ before, c = .readAllowable ∨ ∃ arg, c = .setType arg)
    (ht : (s.callsWith ops (moeadBody ops mo useRepair N) before).start ops = (.ok o, t)) :
    ∃ s' t', moeadConstruct ops design argsort nNeighbors nParents sel0 prob0 interact useSurr keep' false nIter nGen total pty nCons ps lr = .ok s' ∧
      (s'.callsWith ops (moeadBody ops mo useRepair N) before).start ops = (.ok o, t') ∧
      ∀ cs, NoStart cs → SameProgress (t.callsWith ops (moeadBody ops mo useRepair N) cs) (t'.callsWith ops (moeadBody ops mo useRepair N) cs) ∧
        ∀ pref, ((t'.callsWith ops (moeadBody ops mo useRepair N) cs).iterateWith ops (moeadBody ops mo useRepair N) pref).1 =
          ((t.callsWith ops (moeadBody ops mo useRepair N) cs).iterateWith ops (moeadBody ops mo useRepair N) pref).1 := by
  have hc := moeadConstruct_dress ops design argsort nNeighbors nParents sel0 prob0 interact useSurr keep true keep' false nIter nGen total pty nCons ps lr
  have hon : s.cfg.saveND = true := by
    have h := moeadConstruct_dress ops design argsort nNeighbors nParents sel0 prob0 interact useSurr keep true keep true nIter nGen total pty nCons ps lr
    rw [hs] at h
    simp only [Except.map, Except.ok.injEq] at h
    rw [h]; rfl
  rw [hs] at hc
  obtain ⟨h1, h2⟩ := after_start (moeadBody_dress_drop ops hev mo useRepair N) keep' s t hon o before hb ht
  exact ⟨_, _, hc, h1, h2⟩

end moeadRun

end Verif.Props
