import Verif.Spec.BlackBox
import Verif.Props.Bookkeeping
import Verif.Props.Grouping
import Mathlib.Logic.Function.Basic

/-!
# C98: a run sees the problem only at the points it evaluates
-/

namespace Verif.Props
open Verif Verif.Spec

variable {X O F C U V S Q R : Type}

/-- Nothing of `D` was evaluated. -/
def Clear (D : X → Prop) (s : EA X O F C U V S Q) : Prop := ∀ x, Evaluated s x → ¬ D x

theorem Clear.of_prefix {D : X → Prop} {s t : EA X O F C U V S Q} (h : s.log <+: t.log) (ht : Clear D t) : Clear D s :=
  fun x ⟨e, he, hx⟩ => ht x ⟨e, h.subset he, hx⟩

/-- A generation body on two problems: the log only grows, and the generation is the same unless it evaluates something of `D`. -/
structure SeesOnly (D : X → Prop) (body body' : EA X O F C U V S Q → EARes Unit X O F C U V S Q) : Prop where
  grows : ∀ s, s.log <+: (body s).2.log
  same : ∀ s, Clear D (body s).2 → body' s = body s

section generic
variable {D : X → Prop} {body body' : EA X O F C U V S Q → EARes Unit X O F C U V S Q} {ops : Ops X O F C U V S Q R}
  {ev' : Nat → Bool → Batch X → Except Err (Results O F C U)}

theorem loop_sees (hb : SeesOnly D body body') (fuel : Nat) : SeesOnly D (EA.loop body fuel) (EA.loop body' fuel) := by
  induction fuel with
  | zero => exact ⟨fun s => List.prefix_refl _, fun s _ => rfl⟩
  | succ fuel ih =>
    constructor
    · intro s
      unfold EA.loop
      cases s.continueIteration with
      | false => exact List.prefix_refl _
      | true =>
        simp only [if_true]
        have h := hb.grows s
        generalize body s = z at h
        obtain ⟨z, t⟩ := z
        cases z with
        | error e => exact h
        | ok _ => exact h.trans (ih.grows t)
    · intro s h
      unfold EA.loop at h ⊢
      cases hc : s.continueIteration with
      | false => rfl
      | true =>
        rw [hc] at h
        simp only [if_true] at h ⊢
        have e : body' s = body s := by
          apply hb.same s
          generalize body s = z at h
          obtain ⟨z, t⟩ := z
          cases z with
          | error e => exact h
          | ok _ => exact h.of_prefix (ih.grows t)
        rw [e]
        generalize body s = z at h
        obtain ⟨z, t⟩ := z
        cases z with
        | error e => rfl
        | ok _ => exact ih.same t h

theorem iterateWith_sees (hb : SeesOnly D body body') (s : EA X O F C U V S Q) (p : Option (Pref R)) :
    s.log <+: (s.iterateWith ops body p).2.log ∧
      (Clear D (s.iterateWith ops body p).2 → s.iterateWith { ops with evaluate := ev' } body' p = s.iterateWith ops body p) := by
  have hm : s.managePreferences { ops with evaluate := ev' } p = s.managePreferences ops p := rfl
  unfold EA.iterateWith
  rw [hm]
  obtain ⟨-, -, m3⟩ := managePreferences_nd ops s p
  generalize s.managePreferences ops p = z at m3
  obtain ⟨z, t⟩ := z
  dsimp only at m3
  cases z with
  | error e => exact ⟨by rw [m3], fun _ => rfl⟩
  | ok _ =>
    dsimp only
    have hp : t.preIteration { ops with evaluate := ev' } = t.preIteration ops := rfl
    rw [hp]
    obtain ⟨-, -, p3⟩ := preIteration_nd ops t
    rw [m3] at p3
    generalize t.preIteration ops = u at p3
    have hl := loop_sees hb u.cfg.nGen
    have g1 : s.log <+: (EA.loop body u.cfg.nGen { u with genIter := 0 }).2.log := by
      rw [← p3]; exact hl.grows { u with genIter := 0 }
    have g2 := hl.same ({ u with genIter := 0 })
    have g3 : ∀ v : EA X O F C U V S Q, v.requestPreferences { ops with evaluate := ev' } = v.requestPreferences ops := fun _ => rfl
    generalize EA.loop body u.cfg.nGen { u with genIter := 0 } = y at g1 g2
    obtain ⟨y, v⟩ := y
    cases y with
    | error e =>
      exact ⟨g1, fun h => by rw [g2 h]⟩
    | ok _ =>
      obtain ⟨-, -, q3⟩ := requestPreferences_nd ops ({ v with iter := v.iter + 1 } : EA X O F C U V S Q)
      refine ⟨by dsimp only; rw [q3]; exact g1, fun h => ?_⟩
      have hv : Clear D v := h.of_prefix (by dsimp only; rw [q3])
      rw [g2 hv]
      rfl

theorem start_log' (s : EA X O F C U V S Q) : (s.start ops).2.log = s.log := by
  unfold EA.start
  split
  · rfl
  · have hq : ∀ u : EA X O F C U V S Q, (u.requestPreferences ops).2.log = u.log := fun u => (requestPreferences_nd ops u).2.2
    dsimp only
    cases s.cfg.saveND with
    | false => exact hq s
    | true =>
      simp only [if_true]
      cases s.pop.individuals with
      | none => rfl
      | some inds =>
        dsimp only
        cases startArchive ops.nonDom inds s.pop.objectives s.pop.fitness with
        | error e => rfl
        | ok nd => exact hq _

theorem setType_log (s : EA X O F C U V S Q) (arg : Option String) : (s.setInteractionType arg).2.log = s.log := by
  unfold EA.setInteractionType
  split <;> first | rfl | (dsimp only; split <;> first | rfl | (split <;> rfl))

theorem readAllowable_log (s : EA X O F C U V S Q) : s.readAllowable.2.log = s.log := by
  unfold EA.readAllowable
  split
  · rfl
  · have := setType_log s none
    generalize s.setInteractionType none = z at this
    obtain ⟨z, t⟩ := z
    cases z <;> exact this

theorem callsWith_sees (hb : SeesOnly D body body') (cs : List (Call R)) : ∀ s : EA X O F C U V S Q,
    s.log <+: (s.callsWith ops body cs).log ∧
      (Clear D (s.callsWith ops body cs) → s.callsWith { ops with evaluate := ev' } body' cs = s.callsWith ops body cs) := by
  induction cs with
  | nil => exact fun s => ⟨List.prefix_refl _, fun _ => rfl⟩
  | cons c cs ih =>
    intro s
    cases c with
    | start =>
      unfold EA.callsWith
      obtain ⟨i1, i2⟩ := ih (s.start ops).2
      rw [start_log'] at i1
      exact ⟨i1, i2⟩
    | setType arg =>
      unfold EA.callsWith
      obtain ⟨i1, i2⟩ := ih (s.setInteractionType arg).2
      rw [setType_log] at i1
      exact ⟨i1, i2⟩
    | readAllowable =>
      unfold EA.callsWith
      obtain ⟨i1, i2⟩ := ih s.readAllowable.2
      rw [readAllowable_log] at i1
      exact ⟨i1, i2⟩
    | iterate p =>
      unfold EA.callsWith
      obtain ⟨j1, j2⟩ := iterateWith_sees (ops := ops) (ev' := ev') hb s p
      obtain ⟨i1, i2⟩ := ih (s.iterateWith ops body p).2
      refine ⟨j1.trans i1, fun h => ?_⟩
      rw [j2 (h.of_prefix i1)]
      exact i2 h

end generic

/-! ## Generations -/

theorem popAdd_sees {D : X → Prop} {ops : Ops X O F C U V S Q R} {ev' : Nat → Bool → Batch X → Except Err (Results O F C U)}
    (hok : ∀ clk surr b, ∃ r, ops.evaluate clk surr b = .ok r) (hag : AgreeOff D ops.evaluate ev') (s : EA X O F C U V S Q) (off : Batch X) :
    s.log <+: (s.popAdd ops off).2.log ∧
      (Clear D (s.popAdd ops off).2 → s.popAdd { ops with evaluate := ev' } off = s.popAdd ops off) := by
  refine ⟨List.prefix_append _ _, fun h => ?_⟩
  obtain ⟨r, hr⟩ := hok s.clock s.cfg.useSurr off
  have : ev' s.clock s.cfg.useSurr off = ops.evaluate s.clock s.cfg.useSurr off := by
    refine hag _ _ _ (fun x hx => h x ⟨(off.rows, r), ?_, hx⟩)
    unfold EA.popAdd
    dsimp only
    rw [hr]
    simp [evLog]
  unfold EA.popAdd
  dsimp only
  rw [this]

theorem updateND_log {V : Type} (ops : Ops X O F C U V S Q R) (s : EA X O F C U V S Q) (rows : List X) (res : Results O F C U) :
    (s.updateND ops rows res).2.log = s.log := by
  unfold EA.updateND
  split
  · split <;> rfl
  · rfl

theorem nextGen_sees {D : X → Prop} {ops : Ops X O F C U V S Q R} {ev' : Nat → Bool → Batch X → Except Err (Results O F C U)}
    (hok : ∀ clk surr b, ∃ r, ops.evaluate clk surr b = .ok r) (hag : AgreeOff D ops.evaluate ev') :
    SeesOnly D (EA.nextGen ops) (EA.nextGen ({ ops with evaluate := ev' } : Ops X O F C U V S Q R)) := by
  have key : ∀ s : EA X O F C U V S Q, s.log <+: (EA.nextGen ops s).2.log ∧
      (Clear D (EA.nextGen ops s).2 → EA.nextGen ({ ops with evaluate := ev' } : Ops X O F C U V S Q R) s = EA.nextGen ops s) := by
    intro s
    rw [nextGen_eq, nextGen_eq]
    dsimp only
    cases ops.mate s.clock s.pop with
    | error e => exact ⟨List.prefix_refl _, fun _ => rfl⟩
    | ok off =>
      dsimp only
      obtain ⟨a1, a2⟩ := popAdd_sees hok hag ({ s with clock := s.clock + 1 } : EA X O F C U V S Q) off
      generalize ({ s with clock := s.clock + 1 } : EA X O F C U V S Q).popAdd ops off = z at a1 a2
      obtain ⟨z, t⟩ := z
      dsimp only at a1 a2
      cases z with
      | error e => exact ⟨a1, fun h => by rw [a2 h]⟩
      | ok res =>
        dsimp only
        have hu := updateND_log ops t off.rows res
        -- the rest of the generation leaves the log alone
        obtain ⟨rest, hrest⟩ : ∃ f : EARes (Results O F C U) X O F C U V S Q → EARes Unit X O F C U V S Q, f = fun z => (match z with
            | (.error e, s) => (.error e, s)
            | (.ok res, s) =>
              match s.updateND ops off.rows res with
              | (.error e, s) => (.error e, s)
              | (.ok _, s) =>
                match ops.select s.clock s.vec s.sel s.pop with
                | (.error e, v, t) => (.error e, { s with vec := v, sel := t, clock := s.clock + 1 })
                | (.ok idx, v, t) =>
                  let s := { s with vec := v, sel := t, clock := s.clock + 1 }
                  match s.pop.keep idx with
                  | (.error e, p) => (.error e, { s with pop := p })
                  | (.ok _, p) =>
                    let s := { s with pop := p, gen := s.gen + 1, genIter := s.genIter + 1 }
                    (.ok (), if s.cfg.useSurr then s else { s with fe := s.fe + off.rows.length })) := ⟨_, rfl⟩
        have hlog : (rest (.ok res, t)).2.log = t.log := by
          rw [hrest]
          dsimp only
          generalize t.updateND ops off.rows res = y at hu
          obtain ⟨y, w⟩ := y
          dsimp only at hu
          cases y with
          | error e => exact hu
          | ok _ =>
            dsimp only
            generalize ops.select w.clock w.vec w.sel w.pop = q
            obtain ⟨q, v', t'⟩ := q
            cases q with
            | error e => exact hu
            | ok idx =>
              dsimp only
              generalize w.pop.keep idx = c
              obtain ⟨c, pp⟩ := c
              cases c with
              | error e => exact hu
              | ok _ =>
                dsimp only
                cases w.cfg.useSurr <;> exact hu
        have g1 : s.log <+: (rest (.ok res, t)).2.log := by rw [hlog]; exact a1
        have g2 : Clear D (rest (.ok res, t)).2 → rest (({ s with clock := s.clock + 1 } : EA X O F C U V S Q).popAdd { ops with evaluate := ev' } off) = rest (.ok res, t) := by
          intro h
          rw [a2 (h.of_prefix (by rw [hlog]))]
        subst hrest
        exact ⟨g1, g2⟩
  exact ⟨fun s => (key s).1, fun s => (key s).2⟩

/-! ## Construction and calls -/

theorem construct_sees {D : X → Prop} {ops : Ops X O F C U V S Q R} {ev' : Nat → Bool → Batch X → Except Err (Results O F C U)}
    (hok : ∀ clk surr b, ∃ r, ops.evaluate clk surr b = .ok r) (hag : AgreeOff D ops.evaluate ev')
    {design : Nat → Nat → Except Err (Batch X)} {vec0 : Nat → V} {sel0 : Nat → S} {prob0 : Q} {interact useSurr keepArchive saveND : Bool}
    {nIter nGen total : Nat} {problem : Option (ProblemType × Nat × Nat)} {initPop : Option (Pop X O F C U × Nat)} {ps lr : Option Nat}
    {s : EA X O F C U V S Q}
    (hs : construct ops design vec0 sel0 prob0 interact useSurr keepArchive saveND nIter nGen total problem initPop ps lr = .ok s)
    (hc : Clear D s) :
    construct ({ ops with evaluate := ev' } : Ops X O F C U V S Q R) design vec0 sel0 prob0 interact useSurr keepArchive saveND nIter nGen total problem initPop ps lr = .ok s := by
  unfold construct at hs ⊢
  dsimp only at hs ⊢
  cases initPop with
  | some pn =>
    obtain ⟨p, n⟩ := pn
    cases problem with
    | some _ => simp at hs
    | none => exact hs
  | none =>
    cases problem with
    | none => simp at hs
    | some t =>
      obtain ⟨pt, m, nCons⟩ := t
      dsimp only at hs ⊢
      cases hd : design 0 (choosePopSize m ps lr) with
      | error e => rw [hd] at hs; simp at hs
      | ok rows =>
        rw [hd] at hs
        dsimp only at hs ⊢
        generalize hea : (EA.mk _ _ _ _ _ _ _ _ _ _ _ _ _ _ _ _ _ _ : EA X O F C U V S Q) = ea at hs ⊢
        obtain ⟨-, a2⟩ := popAdd_sees hok hag ea rows
        generalize ea.popAdd ops rows = z at hs a2
        obtain ⟨z, t⟩ := z
        cases z with
        | error e => simp at hs
        | ok r =>
          simp only [Except.ok.injEq] at hs
          have : Clear D t := by
            intro x hx
            apply hc x
            rw [← hs]
            exact hx
          rw [a2 this]
          simp only [Except.ok.injEq]
          exact hs

theorem call_sees {D : X → Prop} {ops : Ops X O F C U V S Q R} {ev' : Nat → Bool → Batch X → Except Err (Results O F C U)}
    (hok : ∀ clk surr b, ∃ r, ops.evaluate clk surr b = .ok r) (hag : AgreeOff D ops.evaluate ev') (s : EA X O F C U V S Q) (c : Call R)
    (hc : Clear D (s.call ops c).2) : s.call { ops with evaluate := ev' } c = s.call ops c := by
  cases c with
  | iterate p => exact (iterateWith_sees (ops := ops) (ev' := ev') (nextGen_sees hok hag) s p).2 hc
  | _ => rfl

section
variable (ops : Ops X O F C U V S Q R) (hok : ∀ clk surr b, ∃ r, ops.evaluate clk surr b = .ok r)
  (design : Nat → Nat → Except Err (Batch X)) (vec0 : Nat → V) (sel0 : Nat → S) (prob0 : Q) (interact useSurr keepArchive saveND : Bool)
  (nIter nGen total : Nat) (problem : Option (ProblemType × Nat × Nat)) (initPop : Option (Pop X O F C U × Nat)) (ps lr : Option Nat)
  (s : EA X O F C U V S Q)
  (hs : construct ops design vec0 sel0 prob0 interact useSurr keepArchive saveND nIter nGen total problem initPop ps lr = .ok s)
include hok hs

/-- C98. A problem changed only where the run never evaluated it gives the same run: the same object after construction, the same
result of every call of the history and the same object in the end. -/
theorem c98_only_evaluated_points (D : X → Prop) (ev' : Nat → Bool → Batch X → Except Err (Results O F C U))
    (hag : AgreeOff D ops.evaluate ev') (cs : List (Call R)) (hD : ∀ x, Evaluated (s.calls ops cs) x → ¬ D x) :
    construct ({ ops with evaluate := ev' } : Ops X O F C U V S Q R) design vec0 sel0 prob0 interact useSurr keepArchive saveND nIter nGen total problem initPop ps lr = .ok s ∧
    (∀ before c after, cs = before ++ c :: after →
      (s.calls { ops with evaluate := ev' } before).call { ops with evaluate := ev' } c = (s.calls ops before).call ops c) ∧
    s.calls { ops with evaluate := ev' } cs = s.calls ops cs := by
  have hb : SeesOnly D (EA.nextGen ops) (EA.nextGen ({ ops with evaluate := ev' } : Ops X O F C U V S Q R)) := nextGen_sees hok hag
  have key : ∀ (u : EA X O F C U V S Q) as, u.log <+: (u.calls ops as).log ∧
      (Clear D (u.calls ops as) → u.calls { ops with evaluate := ev' } as = u.calls ops as) := by
    intro u as
    rw [calls_eq_callsWith, calls_eq_callsWith]
    exact callsWith_sees hb as u
  refine ⟨construct_sees hok hag hs (Clear.of_prefix (key s cs).1 hD), ?_, (key s cs).2 hD⟩
  intro before c after he
  rw [he, calls_append] at hD
  have h1 : Clear D ((s.calls ops before).call ops c).2 := Clear.of_prefix (key _ after).1 hD
  have h2 : Clear D (s.calls ops before) := Clear.of_prefix (key _ [c]).1 h1
  rw [(key s before).2 h2]
  exact call_sees hok hag _ c h1

end

theorem agreeOff_update [DecidableEq X] (obj : X → O) (fit : X → F) (x : X) (o : O) (f : F) :
    AgreeOff (· = x) (pointwise (C := C) (U := U) obj fit) (pointwise (Function.update obj x o) (Function.update fit x f)) := by
  intro clk surr b hb
  unfold pointwise
  have h1 : b.rows.map (Function.update obj x o) = b.rows.map obj := List.map_congr_left (fun y hy => Function.update_of_ne (hb y hy) _ _)
  have h2 : b.rows.map (Function.update fit x f) = b.rows.map fit := List.map_congr_left (fun y hy => Function.update_of_ne (hb y hy) _ _)
  rw [h1, h2]

theorem exists_unseen (s : EA X O F C U V S Q) (B : Set X) (hB : B.Infinite) :
    ∃ x ∈ B, ¬ Evaluated s x ∧ ∀ inds, s.pop.individuals = some inds → x ∉ inds := by
  have h1 : {x | Evaluated s x}.Finite := by
    have : {x | Evaluated s x} = {x | x ∈ s.log.flatMap (fun e => e.1)} := by
      ext x
      simp [Evaluated, List.mem_flatMap]
    rw [this]
    exact List.finite_toSet _
  have h2 : {x | x ∈ s.pop.individuals.getD []}.Finite := List.finite_toSet _
  obtain ⟨x, hx, hn⟩ := hB.exists_notMem_finite (h1.union h2)
  refine ⟨x, hx, fun h => hn (Or.inl h), fun inds hi hm => hn (Or.inr ?_)⟩
  show x ∈ s.pop.individuals.getD []
  rw [hi]; exact hm

/-- C98. Whatever a run has found, the problem may have a better answer it cannot know of: in any infinite set of decision vectors there
is one that was never evaluated and is not in the population, and giving it any objectives and any fitness changes nothing. -/
theorem c98_may_miss_the_optimum [DecidableEq X] (ops : Ops X O F C U V S Q R) (obj : X → O) (fit : X → F) (hp : ops.evaluate = pointwise obj fit)
    (design : Nat → Nat → Except Err (Batch X)) (vec0 : Nat → V) (sel0 : Nat → S) (prob0 : Q) (interact useSurr keepArchive saveND : Bool)
    (nIter nGen total : Nat) (problem : Option (ProblemType × Nat × Nat)) (initPop : Option (Pop X O F C U × Nat)) (ps lr : Option Nat)
    (s : EA X O F C U V S Q)
    (hs : construct ops design vec0 sel0 prob0 interact useSurr keepArchive saveND nIter nGen total problem initPop ps lr = .ok s)
    (cs : List (Call R)) (B : Set X) (hB : B.Infinite) :
    ∃ x ∈ B, (∀ inds, (s.calls ops cs).pop.individuals = some inds → x ∉ inds) ∧ ∀ (o : O) (f : F),
      construct ({ ops with evaluate := pointwise (Function.update obj x o) (Function.update fit x f) } : Ops X O F C U V S Q R) design vec0 sel0 prob0
        interact useSurr keepArchive saveND nIter nGen total problem initPop ps lr = .ok s ∧
      s.calls { ops with evaluate := pointwise (Function.update obj x o) (Function.update fit x f) } cs = s.calls ops cs := by
  obtain ⟨x, hx, hn, hi⟩ := exists_unseen (s.calls ops cs) B hB
  refine ⟨x, hx, hi, fun o f => ?_⟩
  have h := c98_only_evaluated_points ops (by rw [hp]; exact fun _ _ _ => ⟨_, rfl⟩) design vec0 sel0 prob0 interact useSurr keepArchive saveND nIter nGen
    total problem initPop ps lr s hs (· = x) (pointwise (Function.update obj x o) (Function.update fit x f))
    (by rw [hp]; exact agreeOff_update obj fit x o f) cs (fun y hy he => hn (by rw [← he]; exact hy))
  exact ⟨h.1, h.2.2⟩

/-! ## MOEA/D -/

section moead
variable {K : Type} {m : Nat} [LT K] [DecidableRel (α := K) (· < ·)] [Zero K] [DecidableEq K] {D : X → Prop}
  {ops : Ops X O F C U (MoeadVec m K) S Q R} {ev' : Nat → Bool → Batch X → Except Err (Results O F C U)}
  (mo : MoeadOps m K X O F C U) (useRepair : Bool)

theorem moeadFinish_log (i : Nat) (x : X) (res : Results O F C U) (s : EA X O F C U (MoeadVec m K) S Q) :
    (moeadFinish ops mo i x res s).2.log = s.log := by
  unfold moeadFinish
  cases moeadSelect mo (mo.ideal s.clock) s.vec s.pop.fitness i with
  | error e => rfl
  | ok sel =>
    dsimp only
    generalize replaceWith s.pop sel x res = z
    obtain ⟨z, p⟩ := z
    cases z with
    | error e => rfl
    | ok _ =>
      dsimp only
      generalize p.delete [-1] = y
      obtain ⟨y, p'⟩ := y
      cases y with
      | error e => rfl
      | ok _ => exact updateND_log ops _ _ _

theorem moeadStep_sees (hok : ∀ clk surr b, ∃ r, ops.evaluate clk surr b = .ok r) (hag : AgreeOff D ops.evaluate ev') (i : Nat) :
    SeesOnly D (moeadStep ops mo useRepair i) (moeadStep ({ ops with evaluate := ev' } : Ops X O F C U (MoeadVec m K) S Q R) mo useRepair i) := by
  have key : ∀ s : EA X O F C U (MoeadVec m K) S Q, s.log <+: (moeadStep ops mo useRepair i s).2.log ∧
      (Clear D (moeadStep ops mo useRepair i s).2 →
        moeadStep ({ ops with evaluate := ev' } : Ops X O F C U (MoeadVec m K) S Q R) mo useRepair i s = moeadStep ops mo useRepair i s) := by
    intro s
    unfold moeadStep
    cases chooseParents (mo.pick s.clock) s.vec.neigh i with
    | error e => exact ⟨List.prefix_refl _, fun _ => rfl⟩
    | ok ab =>
      obtain ⟨a, b⟩ := ab
      dsimp only
      cases mo.mate (s.clock + 1) s.pop a b with
      | error e => exact ⟨List.prefix_refl _, fun _ => rfl⟩
      | ok rows =>
        cases rows with
        | nil => exact ⟨List.prefix_refl _, fun _ => rfl⟩
        | cons x xs =>
          dsimp only
          unfold moeadEvaluate
          generalize (if useRepair then mo.repair x else x) = y
          obtain ⟨a1, a2⟩ := popAdd_sees hok hag ({ s with clock := s.clock + 1 + 1 } : EA X O F C U (MoeadVec m K) S Q) ⟨s.pop.ndim - 1, [y]⟩
          dsimp only
          generalize ({ s with clock := s.clock + 1 + 1 } : EA X O F C U (MoeadVec m K) S Q).popAdd ops ⟨s.pop.ndim - 1, [y]⟩ = z at a1 a2
          obtain ⟨z, t⟩ := z
          dsimp only at a1 a2
          cases z with
          | error e => exact ⟨a1, fun h => by rw [a2 h]⟩
          | ok res =>
            dsimp only
            have hl := moeadFinish_log (ops := ops) mo i y res (if t.cfg.useSurr then t else { t with fe := t.fe + 1 })
            have ht : (if t.cfg.useSurr then t else { t with fe := t.fe + 1 }).log = t.log := by split <;> rfl
            rw [ht] at hl
            refine ⟨by rw [hl]; exact a1, fun h => ?_⟩
            rw [a2 (h.of_prefix (by rw [hl]))]
            rfl
  exact ⟨fun s => (key s).1, fun s => (key s).2⟩

theorem moeadSteps_sees (hok : ∀ clk surr b, ∃ r, ops.evaluate clk surr b = .ok r) (hag : AgreeOff D ops.evaluate ev') (is : List Nat) :
    SeesOnly D (moeadSteps ops mo useRepair is) (moeadSteps ({ ops with evaluate := ev' } : Ops X O F C U (MoeadVec m K) S Q R) mo useRepair is) := by
  induction is with
  | nil => exact ⟨fun s => List.prefix_refl _, fun s _ => rfl⟩
  | cons i is ih =>
    have hb := moeadStep_sees (ops := ops) (ev' := ev') mo useRepair hok hag i
    have key : ∀ s : EA X O F C U (MoeadVec m K) S Q, s.log <+: (moeadSteps ops mo useRepair (i :: is) s).2.log ∧
        (Clear D (moeadSteps ops mo useRepair (i :: is) s).2 →
          moeadSteps ({ ops with evaluate := ev' } : Ops X O F C U (MoeadVec m K) S Q R) mo useRepair (i :: is) s = moeadSteps ops mo useRepair (i :: is) s) := by
      intro s
      have h1 := hb.grows s
      have h2 := hb.same s
      unfold moeadSteps
      generalize moeadStep ops mo useRepair i s = z at h1 h2
      obtain ⟨z, t⟩ := z
      cases z with
      | error e => exact ⟨h1, fun h => by rw [h2 h]⟩
      | ok _ =>
        dsimp only
        refine ⟨h1.trans (ih.grows t), fun h => ?_⟩
        rw [h2 (h.of_prefix (ih.grows t))]
        exact ih.same t h
    exact ⟨fun s => (key s).1, fun s => (key s).2⟩

theorem moeadNextGen_sees (hok : ∀ clk surr b, ∃ r, ops.evaluate clk surr b = .ok r) (hag : AgreeOff D ops.evaluate ev') (N : Nat) :
    SeesOnly D (moeadNextGen ops mo useRepair N) (moeadNextGen ({ ops with evaluate := ev' } : Ops X O F C U (MoeadVec m K) S Q R) mo useRepair N) := by
  have hb := moeadSteps_sees (ops := ops) (ev' := ev') mo useRepair hok hag (List.range N)
  have key : ∀ s : EA X O F C U (MoeadVec m K) S Q, s.log <+: (moeadNextGen ops mo useRepair N s).2.log ∧
      (Clear D (moeadNextGen ops mo useRepair N s).2 →
        moeadNextGen ({ ops with evaluate := ev' } : Ops X O F C U (MoeadVec m K) S Q R) mo useRepair N s = moeadNextGen ops mo useRepair N s) := by
    intro s
    have h1 := hb.grows s
    have h2 := hb.same s
    unfold moeadNextGen
    generalize moeadSteps ops mo useRepair (List.range N) s = z at h1 h2
    obtain ⟨z, t⟩ := z
    cases z with
    | error e => exact ⟨h1, fun h => by rw [h2 h]⟩
    | ok _ => exact ⟨h1, fun h => by rw [h2 h]⟩
  exact ⟨fun s => (key s).1, fun s => (key s).2⟩

end moead

section moeadRun
variable {m : Nat} {D : X → Prop} {ev' : Nat → Bool → Batch X → Except Err (Results O (Vec m) C U)}

theorem moeadBody_sees {ops : Ops X O (Vec m) C U (MoeadRV m) S Q R} (mo : MoeadOps m ℝ X O (Vec m) C U) (useRepair : Bool) (N : Nat)
    (hok : ∀ clk surr b, ∃ r, ops.evaluate clk surr b = .ok r) (hag : AgreeOff D ops.evaluate ev') :
    SeesOnly D (moeadBody ops mo useRepair N) (moeadBody ({ ops with evaluate := ev' } : Ops X O (Vec m) C U (MoeadRV m) S Q R) mo useRepair N) := by
  have hb := moeadNextGen_sees (ops := (ops.forGeneration : Ops X O (Vec m) C U (MoeadVec m ℝ) S Q R)) (ev' := ev') mo useRepair hok hag N
  constructor
  · intro s
    exact hb.grows (s.withVec s.vec.toVec)
  · intro s h
    have e := hb.same (s.withVec s.vec.toVec) h
    unfold moeadBody
    dsimp only
    rw [show (({ ops with evaluate := ev' } : Ops X O (Vec m) C U (MoeadRV m) S Q R).forGeneration : Ops X O (Vec m) C U (MoeadVec m ℝ) S Q R) =
      { (ops.forGeneration : Ops X O (Vec m) C U (MoeadVec m ℝ) S Q R) with evaluate := ev' } from rfl, e]

/-- C98, for MOEA/D. A problem changed only where the run never evaluated it gives the same run. -/
theorem c98_moead_only_evaluated_points (ops : Ops X O (Vec m) C U (MoeadRV m) S Q R) (mo : MoeadOps m ℝ X O (Vec m) C U) (useRepair : Bool) (N : Nat)
    (hok : ∀ clk surr b, ∃ r, ops.evaluate clk surr b = .ok r) (design : Nat → Nat → Except Err (Batch X))
    (argsort : List ℝ → List Nat) (nNeighbors nParents : Nat) (sel0 : S) (prob0 : Q)
    (interact useSurr keepArchive saveND : Bool) (nIter nGen total : Nat) (pty : ProblemType) (nCons : Nat) (ps lr : Option Nat)
    (s : EA X O (Vec m) C U (MoeadRV m) S Q)
    (hs : moeadConstruct ops design argsort nNeighbors nParents sel0 prob0 interact useSurr keepArchive saveND nIter nGen total pty nCons ps lr = .ok s)
    (hag : AgreeOff D ops.evaluate ev') (cs : List (Call R))
    (hD : ∀ x, Evaluated (s.callsWith ops (moeadBody ops mo useRepair N) cs) x → ¬ D x) :
    moeadConstruct ({ ops with evaluate := ev' } : Ops X O (Vec m) C U (MoeadRV m) S Q R) design argsort nNeighbors nParents sel0 prob0
      interact useSurr keepArchive saveND nIter nGen total pty nCons ps lr = .ok s ∧
    s.callsWith { ops with evaluate := ev' } (moeadBody { ops with evaluate := ev' } mo useRepair N) cs =
      s.callsWith ops (moeadBody ops mo useRepair N) cs := by
  obtain ⟨k1, k2⟩ := callsWith_sees (ops := ops) (ev' := ev') (moeadBody_sees mo useRepair N hok hag) cs s
  refine ⟨?_, k2 hD⟩
  have hc : Clear D s := Clear.of_prefix k1 hD
  unfold moeadConstruct at hs ⊢
  generalize hcon : construct ops design _ _ prob0 interact useSurr keepArchive saveND nIter nGen total (some (pty, m, nCons)) none ps lr = z at hs
  cases z with
  | error e => simp at hs
  | ok s0 =>
    have h0 : s.log = s0.log := by
      dsimp only at hs
      split at hs
      · simp at hs
      · split at hs
        · simp at hs
        · simp at hs
        · split at hs
          · simp at hs
          · simp only [Except.ok.injEq] at hs
            rw [← hs]
    rw [construct_sees hok hag hcon (hc.of_prefix (by rw [h0]))]
    exact hs

end moeadRun

/-! ## A run of `demoEA` -/

theorem evaluated_iff (s : EA X O F C U V S Q) (x : X) : Evaluated s x ↔ x ∈ s.log.flatMap (fun e => e.1) := by
  simp [Evaluated, List.mem_flatMap]

/-- The hypotheses of `c98_only_evaluated_points` and `c98_may_miss_the_optimum` are met by `demoEA`: a run of 6 generations that evaluates
something and leaves 100 alone. -/
example : demoEA.evaluate = pointwise id id ∧ ∃ s, demoState false false 0 = .ok s ∧
    Evaluated (s.calls demoEA [.iterate none, .iterate none]) 7 ∧ ¬ Evaluated (s.calls demoEA [.iterate none, .iterate none]) 100 := by
  refine ⟨by funext a b c; simp [pointwise, demoEA], _, rfl, ?_, ?_⟩
  · rw [evaluated_iff]; decide +kernel
  · rw [evaluated_iff]; decide +kernel

/-- What is evaluated does matter: `demoEA` on a problem that differs at 3 ends with other objectives. -/
example : ∃ s t, demoState false false 0 = .ok s ∧
    construct { demoEA with evaluate := pointwise (Function.update id 3 50) id } (fun _ n => .ok ⟨2, List.range n⟩) id id 0 false false true false 2 3 0
      (some (.mo, 2, 0)) none (some 2) none = .ok t ∧
    (t.calls { demoEA with evaluate := pointwise (Function.update id 3 50) id } [.iterate none]).pop.objectives ≠ (s.calls demoEA [.iterate none]).pop.objectives := by
  exact ⟨_, _, rfl, rfl, by decide⟩

end Verif.Props
