import Verif.Model.Runs
import Verif.Spec.Population
import Verif.Spec.Loop
import Verif.Proofs.EA
import Verif.Proofs.Population
import Verif.Proofs.Bounds
import Verif.Proofs.MOEAD
import Verif.Props.PPGA

/-!
# Runs: an invariant of EAs whose selection never fails
-/

namespace Verif
open _root_.Spec (Rec Represents EvalOK Gens names rowsSet rowsAt newRecs inRange)
open Verif.Props (rowsAt_keep_length newRecs_length)

variable {X O F C U V S Q R : Type}

/-- What selection needs and gives: with at least `need` records it returns at least `need` and at least one of them, `size` holds of the
vectors and the number returned. -/
def SelectContract (ops : Ops X O F C U V S Q R) (nc : Nat) (unc : Bool) (need : Nat) (Vok : V → Prop) (size : V → Nat → Prop) : Prop :=
  ∀ clk v t p rs, Vok v → Represents p rs → p.individuals ≠ none → p.nCons = nc → (p.uncertainity = none ↔ unc = false) →
    need ≤ rs.length → rs ≠ [] →
    ∃ (sel : List Nat) (v' : V) (t' : S), ops.select clk v t p = (.ok (sel.map (fun (j : Nat) => (j : Int))), v', t') ∧ Vok v' ∧
      sel.Nodup ∧ (∀ j ∈ sel, j < rs.length) ∧ need ≤ sel.length ∧ sel ≠ [] ∧ size v' sel.length

/-- `population.mate()` on a non-empty population gives a non-empty batch of rows of the same number of dimensions. -/
def MateContract (ops : Ops X O F C U V S Q R) (d : Nat) : Prop :=
  ∀ clk (p : Pop X O F C U) inds, p.individuals = some inds → inds ≠ [] →
    ∃ off, ops.mate clk p = .ok off ∧ off.ndim = d ∧ off.rows ≠ []

/-- Evaluation, when it returns, returns one row per vector, with uncertainties always or never. -/
def EvalContract (ops : Ops X O F C U V S Q R) (nc : Nat) (unc : Bool) : Prop :=
  ∀ clk surr b r, ops.evaluate clk surr b = .ok r → EvalOK nc b.rows.length r ∧ (r.uncertainity = none ↔ unc = false)

/-- The invariant. -/
structure Alive (inter : Prop) (d nc : Nat) (unc : Bool) (need : Nat) (Vok : V → Prop) (s : EA X O F C U V S Q) : Prop where
  rep : ∃ rs, Represents s.pop rs ∧ need ≤ rs.length ∧ rs ≠ []
  inds : s.pop.individuals ≠ none
  dim : s.pop.ndim = d
  cons : s.pop.nCons = nc
  unc : s.pop.uncertainity = none ↔ unc = false
  vec : Vok s.vec
  loc : s.cfg.location = none ∨ (inter ∧ s.cfg.location = some .selection)

variable {inter : Prop} {d nc need : Nat} {unc : Bool} {Vok : V → Prop} {size : V → Nat → Prop}

theorem Alive.of_eq {s t : EA X O F C U V S Q} (h : Alive inter d nc unc need Vok s) (hp : t.pop = s.pop) (hv : Vok t.vec)
    (hc : t.cfg = s.cfg) : Alive inter d nc unc need Vok t := by
  refine ⟨?_, ?_, ?_, ?_, ?_, hv, ?_⟩
  · rw [hp]; exact h.rep
  · rw [hp]; exact h.inds
  · rw [hp]; exact h.dim
  · rw [hp]; exact h.cons
  · rw [hp]; exact h.unc
  · rw [hc]; exact h.loc

theorem updateND_frameR (ops : Ops X O F C U V S Q R) (s : EA X O F C U V S Q) (rows : List X) (res : Results O F C U) :
    (s.updateND ops rows res).2.pop = s.pop ∧ (s.updateND ops rows res).2.vec = s.vec ∧
    (s.updateND ops rows res).2.cfg = s.cfg ∧ (s.updateND ops rows res).2.sel = s.sel ∧
    (s.cfg.saveND = false → s.updateND ops rows res = (.ok (), s)) := by
  unfold EA.updateND
  refine ⟨?_, ?_, ?_, ?_, ?_⟩
  all_goals first
    | (intro h; simp [h])
    | (split
       · split <;> rfl
       · rfl)

/-- One generation: the invariant is kept whatever happens; if it returns, `size` holds and every record was there before or is new;
if evaluation does not raise and there is no archive of non-dominated solutions, it returns. -/
theorem nextGen_alive (ops : Ops X O F C U V S Q R) (hsel : SelectContract ops nc unc need Vok size) (hm : MateContract ops d)
    (hev : EvalContract ops nc unc) (s : EA X O F C U V S Q) (h : Alive inter d nc unc need Vok s) :
    Alive inter d nc unc need Vok (EA.nextGen ops s).2 ∧
    ((EA.nextGen ops s).1 = .ok () → ∃ rs rs' off r, Represents s.pop rs ∧ ops.mate s.clock s.pop = .ok off ∧
      EvalOK nc off.rows.length r ∧
      Represents (EA.nextGen ops s).2.pop rs' ∧ rs'.Sublist (rs ++ newRecs off.rows r) ∧ size (EA.nextGen ops s).2.vec rs'.length) ∧
    (s.cfg.saveND = false → (∀ clk surr b, ∃ r, ops.evaluate clk surr b = .ok r) → (EA.nextGen ops s).1 = .ok ()) := by
  obtain ⟨rs, hr, hn, hne⟩ := h.rep
  obtain ⟨inds, hi⟩ := Option.ne_none_iff_exists'.1 h.inds
  have hil : inds ≠ [] := by
    have := Represents_length hr hi
    intro e; rw [e] at this; simp at this; exact hne (List.length_eq_zero_iff.1 this.symm)
  obtain ⟨off, hmate, hod, hor⟩ := hm s.clock s.pop inds hi hil
  have hun : EA.nextGen ops s = (match (({ s with clock := s.clock + 1 } : EA X O F C U V S Q).popAdd ops off) with
    | (.error e, s) => (.error e, s)
    | (.ok res, s) =>
      match s.updateND ops off.rows res with
      | (.error e, s) => (.error e, s)
      | (.ok _, s) =>
        match ops.select s.clock s.vec s.sel s.pop with
        | (.error e, v, t) => (.error e, { s with vec := v, sel := t, clock := s.clock + 1 })
        | (.ok idx, v, t) =>
          let s := { s with vec := v, sel := t, clock := s.clock + 1 }
          match s.pop.keep idx with
          | (.error e, p) => (.error e, { s with pop := p })
          | (.ok _, p) =>
            let s := { s with pop := p, gen := s.gen + 1, genIter := s.genIter + 1 }
            (.ok (), if s.cfg.useSurr then s else { s with fe := s.fe + off.rows.length })) := by
    unfold EA.nextGen
    rw [hmate]
    rfl
  cases hevr : ops.evaluate (s.clock + 1) s.cfg.useSurr off with
  | error e =>
    have hpa : ({ s with clock := s.clock + 1 } : EA X O F C U V S Q).popAdd ops off =
        (.error e, { s with clock := s.clock + 1 + 1, trueEvals := s.trueEvals + (if s.cfg.useSurr then 0 else off.rows.length) }) := by
      unfold EA.popAdd
      simp only [hevr, Pop.add, evLog, List.append_nil]
    rw [hpa] at hun
    dsimp only at hun
    rw [hun]
    refine ⟨h.of_eq rfl h.vec rfl, by simp, ?_⟩
    intro _ hall
    obtain ⟨r, hr'⟩ := hall (s.clock + 1) s.cfg.useSurr off
    rw [hevr] at hr'
    cases hr'
  | ok r =>
    obtain ⟨ho, hu⟩ := hev _ _ _ _ hevr
    have hadd := add_spec (d := d) hr off r (by rw [h.cons]; exact ho) (fun _ => h.dim) (.inl hod)
    obtain ⟨a1, a2, a3, a4, a5⟩ := hadd
    obtain ⟨a5, a6⟩ := a5 (by
      cases unc with
      | false => exact .inr (.inl (hu.2 rfl))
      | true => exact .inr (.inr (fun e => by simpa using h.unc.1 e)))
    have hpa : ({ s with clock := s.clock + 1 } : EA X O F C U V S Q).popAdd ops off =
        (.ok r, { s with pop := (s.pop.add off (.ok r)).2, clock := s.clock + 1 + 1,
                         trueEvals := s.trueEvals + (if s.cfg.useSurr then 0 else off.rows.length), log := s.log ++ [(off.rows, r)] }) := by
      unfold EA.popAdd
      simp only [hevr, a5, evLog]
    rw [hpa] at hun
    dsimp only at hun
    obtain ⟨s1, hs1⟩ : ∃ t : EA X O F C U V S Q, { s with pop := (s.pop.add off (.ok r)).2, clock := s.clock + 1 + 1, trueEvals := s.trueEvals + (if s.cfg.useSurr then 0 else off.rows.length), log := s.log ++ [(off.rows, r)] } = t := ⟨_, rfl⟩
    rw [hs1] at hun
    have e1 : s1.pop = (s.pop.add off (.ok r)).2 := by rw [← hs1]
    have e2 : s1.vec = s.vec := by rw [← hs1]
    have e3 : s1.cfg = s.cfg := by rw [← hs1]
    have hl : (rs ++ newRecs off.rows r).length = rs.length + off.rows.length := by
      rw [List.length_append, newRecs_length _ _ nc ho]
    have hne2 : rs ++ newRecs off.rows r ≠ [] := by simp [hne]
    have alive1 : Alive inter d nc unc need Vok s1 := by
      refine ⟨⟨_, by rw [e1]; exact a1, by omega, hne2⟩, by rw [e1]; exact a4, by rw [e1]; exact a3, by rw [e1, a2]; exact h.cons,
        by rw [e1]; exact a6.trans hu, by rw [e2]; exact h.vec, by rw [e3]; exact h.loc⟩
    obtain ⟨f1, f2, f3, f4, f5⟩ := updateND_frameR ops s1 off.rows r
    generalize hnd : s1.updateND ops off.rows r = q at f1 f2 f3 f4 f5 hun
    obtain ⟨q1, s2⟩ := q
    dsimp only at f1 f2 f3 f4
    cases q1 with
    | error e =>
      dsimp only at hun
      rw [hun]
      refine ⟨alive1.of_eq f1 (by rw [f2]; exact alive1.vec) f3, by simp, ?_⟩
      intro hsv _
      have := f5 (by rw [e3]; exact hsv)
      simp at this
    | ok _ =>
      dsimp only at hun
      obtain ⟨sel, v', t', g1, g2, g3, g4, g5, g6, g7⟩ := hsel s2.clock s2.vec s2.sel s2.pop (rs ++ newRecs off.rows r)
        (by rw [f2]; exact alive1.vec) (by rw [f1, e1]; exact a1) (by rw [f1]; exact alive1.inds) (by rw [f1]; exact alive1.cons)
        (by rw [f1]; exact alive1.unc) (by omega) hne2
      rw [g1] at hun
      dsimp only at hun
      obtain ⟨k1, k2, k3, k4, k5, k6⟩ := keep_ok (p := s2.pop) (by rw [f1, e1]; exact a1) (by rw [f1]; exact alive1.inds)
        (sel.map (fun (j : Nat) => (j : Int))) (inRange_nat _ sel g4)
      have hrows : rowsAt (names (rs ++ newRecs off.rows r).length (sel.map (fun (j : Nat) => (j : Int)))) (rs ++ newRecs off.rows r) =
          rowsAt (fun k => decide (k ∈ sel)) (rs ++ newRecs off.rows r) :=
        rowsAt_congr _ _ _ (fun k hk => names_nat _ sel k g4 hk)
      rw [hrows] at k2
      have hlen := rowsAt_keep_length (rs ++ newRecs off.rows r) sel g3 g4
      generalize s2.pop.keep (sel.map (fun (j : Nat) => (j : Int))) = kk at hun k1 k2 k3 k4 k5 k6
      obtain ⟨kk1, p⟩ := kk
      dsimp only at k1 k2 k3 k4 k5 k6
      subst k1
      dsimp only at hun
      obtain ⟨s3, hs3⟩ : ∃ t : EA X O F C U V S Q, (if s2.cfg.useSurr = true then { s2 with pop := p, vec := v', sel := t', gen := s2.gen + 1, genIter := s2.genIter + 1, clock := s2.clock + 1 } else { s2 with pop := p, vec := v', sel := t', gen := s2.gen + 1, genIter := s2.genIter + 1, clock := s2.clock + 1, fe := s2.fe + off.rows.length }) = t := ⟨_, rfl⟩
      have hun' : EA.nextGen ops s = (.ok (), s3) := by rw [hun, ← hs3]
      have q1 : s3.pop = p := by rw [← hs3]; split <;> rfl
      have q2 : s3.vec = v' := by rw [← hs3]; split <;> rfl
      have q3 : s3.cfg = s2.cfg := by rw [← hs3]; split <;> rfl
      rw [hun']
      dsimp only
      refine ⟨⟨⟨_, by rw [q1]; exact k2, by rw [hlen]; exact g5, ?_⟩, by rw [q1]; exact k5, ?_, ?_, ?_, by rw [q2]; exact g2, ?_⟩, ?_, by simp⟩
      · intro e
        rw [e] at hlen
        exact g6 (List.length_eq_zero_iff.1 hlen.symm)
      · rw [q1, k4, f1]; exact alive1.dim
      · rw [q1, k3, f1]; exact alive1.cons
      · rw [q1, k6, f1]; exact alive1.unc
      · rw [q3, f3]; exact alive1.loc
      · intro _
        refine ⟨rs, _, off, r, hr, hmate, ho, by rw [q1]; exact k2, ?_, by rw [q2, hlen]; exact g7⟩
        unfold rowsAt
        have h1 : ((rs ++ newRecs off.rows r).zipIdx.filter (fun p => decide (p.2 ∈ sel))).Sublist (rs ++ newRecs off.rows r).zipIdx :=
          List.filter_sublist
        have h2 := h1.map (fun (p : Rec X O F C U × Nat) => p.1)
        have h3 : (rs ++ newRecs off.rows r).zipIdx.map (fun p => p.1) = rs ++ newRecs off.rows r := List.zipIdx_map_fst 0 _
        rw [h3] at h2
        exact h2

/-- The vector operations keep `Vok` (those of interaction only if there is interaction). -/
structure VecContract (inter : Prop) (ops : Ops X O F C U V S Q R) (Vok : V → Prop) : Prop where
  adapt : ∀ v f, Vok v → Vok (ops.adapt v f)
  respond : inter → ∀ clk k v p r, Vok v → Vok (ops.respond clk k v p r).2

theorem Alive.managePreferences {s : EA X O F C U V S Q} (h : Alive inter d nc unc need Vok s) (ops : Ops X O F C U V S Q R)
    (hv : VecContract inter ops Vok) (pref : Option (Pref R)) : Alive inter d nc unc need Vok (s.managePreferences ops pref).2 := by
  unfold EA.managePreferences
  split
  · exact h
  · rename_i hl
    have hi : inter := by
      rcases h.loc with e | ⟨e, -⟩
      · rw [e] at hl; cases hl
      · exact e
    unfold EA.selManage
    split
    · exact h.of_eq rfl (hv.adapt _ _ h.vec) rfl
    · split
      · exact h
      · split
        · exact h
        · split
          · exact h
          · exact h.of_eq rfl (hv.respond hi _ _ _ _ _ h.vec) rfl
  · rename_i hl
    rcases h.loc with e | ⟨-, e⟩ <;> (rw [e] at hl; cases hl)

theorem Alive.preIteration {s : EA X O F C U V S Q} (h : Alive inter d nc unc need Vok s) (ops : Ops X O F C U V S Q R)
    (hv : VecContract inter ops Vok) : Alive inter d nc unc need Vok (s.preIteration ops) := by
  have hr : Alive inter d nc unc need Vok s.record := by
    unfold EA.record
    split
    · exact h.of_eq rfl h.vec rfl
    · exact h
  simp only [EA.preIteration]
  split <;> split
  · exact hr.of_eq rfl (hv.adapt _ _ (hv.adapt _ _ hr.vec)) rfl
  · exact hr.of_eq rfl (hv.adapt _ _ hr.vec) rfl
  · exact hr.of_eq rfl (hv.adapt _ _ hr.vec) rfl
  · exact hr

theorem Alive.requestPreferences {s : EA X O F C U V S Q} (h : Alive inter d nc unc need Vok s) (ops : Ops X O F C U V S Q R) :
    Alive inter d nc unc need Vok (s.requestPreferences ops).2 := by
  obtain ⟨f1, f2, -, -, -, -, f7⟩ := requestPreferences_frame ops s
  exact h.of_eq f2 (by rw [f7]; exact h.vec) f1.cfg

theorem Alive.loop {body : EA X O F C U V S Q → EARes Unit X O F C U V S Q}
    (hb : ∀ s, Alive inter d nc unc need Vok s → Alive inter d nc unc need Vok (body s).2) (fuel : Nat) :
    ∀ s : EA X O F C U V S Q, Alive inter d nc unc need Vok s → Alive inter d nc unc need Vok (EA.loop body fuel s).2 := by
  induction fuel with
  | zero => exact fun s h => h
  | succ fuel ih =>
    intro s h
    unfold EA.loop
    split
    · have h1 := hb s h
      generalize body s = r at h1
      obtain ⟨r, t⟩ := r
      cases r with
      | error e => exact h1
      | ok _ => exact ih t h1
    · exact h

theorem Alive.iterateWith {body : EA X O F C U V S Q → EARes Unit X O F C U V S Q} {s : EA X O F C U V S Q}
    (h : Alive inter d nc unc need Vok s) (ops : Ops X O F C U V S Q R) (hv : VecContract inter ops Vok)
    (hb : ∀ s, Alive inter d nc unc need Vok s → Alive inter d nc unc need Vok (body s).2) (pref : Option (Pref R)) :
    Alive inter d nc unc need Vok (s.iterateWith ops body pref).2 := by
  unfold EA.iterateWith
  have h1 := h.managePreferences ops hv pref
  generalize s.managePreferences ops pref = r at h1
  obtain ⟨r, t⟩ := r
  cases r with
  | error e => exact h1
  | ok _ =>
    dsimp only
    have h2 := h1.preIteration ops hv
    dsimp only at h2
    generalize t.preIteration ops = u at h2
    have h3 := Alive.loop hb u.cfg.nGen ({ u with genIter := 0 }) (h2.of_eq rfl h2.vec rfl)
    generalize EA.loop body u.cfg.nGen { u with genIter := 0 } = r at h3
    obtain ⟨r, v⟩ := r
    cases r with
    | error e => exact h3
    | ok _ =>
      have h4 : Alive inter d nc unc need Vok ({ v with iter := v.iter + 1 } : EA X O F C U V S Q) := h3.of_eq rfl h3.vec rfl
      exact h4.requestPreferences ops

theorem Alive.start {s : EA X O F C U V S Q} (h : Alive inter d nc unc need Vok s) (ops : Ops X O F C U V S Q R) :
    Alive inter d nc unc need Vok (s.start ops).2 := by
  unfold EA.start
  split
  · exact h
  · dsimp only
    split
    · rename_i hq
      split at hq
      · split at hq
        · simp only [Prod.mk.injEq] at hq; rw [← hq.2]; exact h
        · split at hq
          · simp only [Prod.mk.injEq] at hq; rw [← hq.2]; exact h
          · simp at hq
      · simp at hq
    · rename_i t hq
      apply Alive.requestPreferences
      split at hq
      · split at hq
        · simp at hq
        · split at hq
          · simp at hq
          · simp only [Prod.mk.injEq] at hq
            rw [← hq.2]
            exact h.of_eq rfl h.vec rfl
      · simp only [Prod.mk.injEq] at hq; rw [← hq.2]; exact h

theorem Alive.setType {s : EA X O F C U V S Q} (h : Alive inter d nc unc need Vok s) (arg : Option String) :
    Alive inter d nc unc need Vok (s.setInteractionType arg).2 := by
  unfold EA.setInteractionType
  split
  · exact h
  · exact h.of_eq rfl h.vec rfl
  · dsimp only
    split
    · exact h.of_eq rfl h.vec rfl
    · split <;> exact h.of_eq rfl h.vec rfl

theorem Alive.readAllowable {s : EA X O F C U V S Q} (h : Alive inter d nc unc need Vok s) :
    Alive inter d nc unc need Vok s.readAllowable.2 := by
  unfold EA.readAllowable
  split
  · exact h
  · have h1 := h.setType none
    generalize s.setInteractionType none = r at h1
    obtain ⟨r, t⟩ := r
    cases r with
    | error e => exact h1
    | ok _ => exact h1.of_eq rfl h1.vec rfl

theorem Alive.callsWith {body : EA X O F C U V S Q → EARes Unit X O F C U V S Q} (ops : Ops X O F C U V S Q R)
    (hv : VecContract inter ops Vok) (hb : ∀ s, Alive inter d nc unc need Vok s → Alive inter d nc unc need Vok (body s).2) (cs : List (Call R)) :
    ∀ s : EA X O F C U V S Q, Alive inter d nc unc need Vok s → Alive inter d nc unc need Vok (s.callsWith ops body cs) := by
  induction cs with
  | nil => exact fun s h => h
  | cons c cs ih =>
    intro s h
    cases c with
    | start => exact ih _ (h.start ops)
    | setType a => exact ih _ (h.setType a)
    | readAllowable => exact ih _ h.readAllowable
    | iterate p => exact ih _ (h.iterateWith ops hv hb p)

/-- Over any history of calls. -/
theorem Alive.calls (ops : Ops X O F C U V S Q R) (hsel : SelectContract ops nc unc need Vok size) (hm : MateContract ops d)
    (hev : EvalContract ops nc unc) (hv : VecContract inter ops Vok) (cs : List (Call R)) (s : EA X O F C U V S Q)
    (h : Alive inter d nc unc need Vok s) : Alive inter d nc unc need Vok (s.calls ops cs) := by
  rw [calls_eq_callsWith]
  exact Alive.callsWith ops hv (fun s h => (nextGen_alive ops hsel hm hev s h).1) cs s h

theorem nextGen_cfg (ops : Ops X O F C U V S Q R) (s t : EA X O F C U V S Q) (h : EA.nextGen ops s = (.ok (), t)) :
    t.cfg = s.cfg := ((nextGen_counts ops).ok s t h).1

/-- Without an archive of non-dominated solutions and without interaction, `iterate` returns as long as evaluation does. -/
theorem Alive.iterate_returns (ops : Ops X O F C U V S Q R) (hsel : SelectContract ops nc unc need Vok size) (hm : MateContract ops d)
    (hev : EvalContract ops nc unc) (hv : VecContract inter ops Vok) (hall : ∀ clk surr b, ∃ r, ops.evaluate clk surr b = .ok r)
    (s : EA X O F C U V S Q) (h : Alive inter d nc unc need Vok s) (hi : s.cfg.interact = false) (hl : s.cfg.location = none)
    (hnd : s.cfg.saveND = false) (pref : Option (Pref R)) : (s.iterate ops pref).1 = .ok none := by
  have hloop : ∀ fuel (s : EA X O F C U V S Q), Alive inter d nc unc need Vok s → s.cfg.saveND = false →
      (EA.loop (EA.nextGen ops) fuel s).1 = .ok () ∧ (EA.loop (EA.nextGen ops) fuel s).2.cfg = s.cfg := by
    intro fuel
    induction fuel with
    | zero => exact fun s _ _ => ⟨rfl, rfl⟩
    | succ fuel ih =>
      intro s h hnd
      unfold EA.loop
      split
      · obtain ⟨h1, -, h3⟩ := nextGen_alive ops hsel hm hev s h
        have h3 := h3 hnd hall
        have hc := nextGen_cfg ops s
        generalize EA.nextGen ops s = r at h1 h3 hc
        obtain ⟨r, t⟩ := r
        dsimp only at h3
        subst h3
        have hc := hc t rfl
        dsimp only
        obtain ⟨i1, i2⟩ := ih t h1 (by rw [hc]; exact hnd)
        exact ⟨i1, by rw [i2, hc]⟩
      · exact ⟨rfl, rfl⟩
  unfold EA.iterate EA.iterateWith
  have hmp : s.managePreferences ops pref = (.ok (), s) := by unfold EA.managePreferences; rw [hl]
  rw [hmp]
  dsimp only
  have hp := h.preIteration ops hv
  have hcfg : (s.preIteration ops).cfg = s.cfg := (preIteration_frame ops s).1.cfg
  generalize s.preIteration ops = u at hp hcfg
  obtain ⟨l1, l2⟩ := hloop u.cfg.nGen ({ u with genIter := 0 }) (hp.of_eq rfl hp.vec rfl) (by show u.cfg.saveND = false; rw [hcfg]; exact hnd)
  generalize EA.loop (EA.nextGen ops) u.cfg.nGen ({ u with genIter := 0 }) = r at l1 l2
  obtain ⟨r, t⟩ := r
  dsimp only at l1 l2
  subst l1
  dsimp only
  unfold EA.requestPreferences
  have : t.cfg.interact = false := by rw [l2, hcfg]; exact hi
  simp [this]

/-- A population freshly made from a problem. -/
theorem construct_alive (ops : Ops X O F C U V S Q R) (hev : EvalContract ops nc unc)
    (design : Nat → Nat → Except Err (Batch X)) (vec0 : Nat → V) (sel0 : Nat → S) (prob0 : Q)
    (interact useSurr keepArchive saveND : Bool) (nIter nGen total : Nat) (ty : ProblemType) (m : Nat) (ps lr : Option Nat)
    (s : EA X O F C U V S Q) (hty : ty ≠ .iopis)
    (hs : construct ops design vec0 sel0 prob0 interact useSurr keepArchive saveND nIter nGen total
      (some (ty, m, nc)) none ps lr = .ok s)
    (hd : ∀ b, design 0 (choosePopSize m ps lr) = .ok b → b.ndim = d ∧ b.rows.length = choosePopSize m ps lr)
    (hpos : 1 ≤ choosePopSize m ps lr) (hneed : need ≤ choosePopSize m ps lr) (hv : Vok (vec0 (choosePopSize m ps lr))) :
    Alive (interact = true) d nc unc need Vok s ∧ (∃ rs, Represents s.pop rs ∧ rs.length = choosePopSize m ps lr) ∧
      s.cfg.interact = interact ∧ s.cfg.saveND = saveND ∧ (interact = false → s.cfg.location = none) ∧
      s.vec = vec0 (choosePopSize m ps lr) := by
  unfold construct at hs
  dsimp only at hs
  cases hdes : design 0 (choosePopSize m ps lr) with
  | error e => rw [hdes] at hs; simp at hs
  | ok b =>
    rw [hdes] at hs
    obtain ⟨b1, b2⟩ := hd b hdes
    dsimp only at hs
    unfold EA.popAdd at hs
    dsimp only at hs
    cases hevr : ops.evaluate 1 useSurr b with
    | error e => rw [hevr] at hs; simp [Pop.add] at hs
    | ok r =>
      obtain ⟨ho, hu⟩ := hev _ _ _ _ hevr
      rw [hevr] at hs
      have hadd := add_spec (d := d) (represents_new (X := X) (O := O) (F := F) (C := C) (U := U) nc) b r ho
        (fun h => absurd rfl h) (.inl b1)
      obtain ⟨a1, a2, a3, a4, a5⟩ := hadd
      obtain ⟨a5, a6⟩ := a5 (.inl rfl)
      rw [a5] at hs
      dsimp only at hs
      injection hs with hs
      have hlen : ([] ++ newRecs b.rows r).length = choosePopSize m ps lr := by
        rw [List.nil_append, newRecs_length _ _ nc ho, b2]
      refine ⟨⟨⟨_, by rw [← hs]; exact a1, by omega, ?_⟩, by rw [← hs]; exact a4, by rw [← hs]; exact a3, by rw [← hs]; exact a2,
        by rw [← hs]; exact a6.trans hu, by rw [← hs]; exact hv, ?_⟩, ⟨_, by rw [← hs]; exact a1, hlen⟩,
        by rw [← hs], by rw [← hs], ?_, by rw [← hs]⟩
      · intro e; rw [e] at hlen; simp at hlen; omega
      · rw [← hs]
        cases ty <;> cases interact <;> simp_all
      · intro hi; rw [← hs]; simp [hi]

/-- A generation in which nothing raises and selection returns no index. -/
theorem nextGen_selects_nobody (ops : Ops X O F C U V S Q R) (s : EA X O F C U V S Q) (rs : List (Rec X O F C U)) (hr : Represents s.pop rs)
    (hdim : s.pop.ndim = d) (hnd : s.cfg.saveND = false) (off : Batch X) (hmate : ops.mate s.clock s.pop = .ok off) (hod : off.ndim = d)
    (r : Results O F C U) (hevr : ops.evaluate (s.clock + 1) s.cfg.useSurr off = .ok r) (ho : EvalOK s.pop.nCons off.rows.length r)
    (hu : s.pop.uncertainity = none ↔ r.uncertainity = none)
    (hsel : ∀ clk v t (p : Pop X O F C U), Represents p (rs ++ newRecs off.rows r) →
      (p.uncertainity = none ↔ r.uncertainity = none) → ∃ v' t', ops.select clk v t p = (.ok [], v', t')) :
    ∃ t, EA.nextGen ops s = (.ok (), t) ∧ Represents t.pop [] := by
  have hadd := add_spec (d := d) hr off r ho (fun _ => hdim) (.inl hod)
  obtain ⟨a1, a2, a3, a4, a5⟩ := hadd
  obtain ⟨a5, a6⟩ := a5 (by
    by_cases h : r.uncertainity = none
    · exact .inr (.inl h)
    · exact .inr (.inr (fun e => h (hu.1 e))))
  have hpa : ({ s with clock := s.clock + 1 } : EA X O F C U V S Q).popAdd ops off =
        (.ok r, { s with pop := (s.pop.add off (.ok r)).2, clock := s.clock + 1 + 1,
                         trueEvals := s.trueEvals + (if s.cfg.useSurr then 0 else off.rows.length), log := s.log ++ [(off.rows, r)] }) := by
    unfold EA.popAdd
    simp only [hevr, a5, evLog]
  unfold EA.nextGen
  rw [hmate]
  dsimp only
  rw [hpa]
  dsimp only
  rw [hnd]
  simp only [Bool.false_eq_true, if_false]
  obtain ⟨v', t', hs⟩ := hsel (s.clock + 1 + 1) s.vec s.sel (s.pop.add off (.ok r)).2 a1 a6
  rw [hs]
  dsimp only
  obtain ⟨k1, k2, -⟩ := keep_ok (p := (s.pop.add off (.ok r)).2) a1 a4 [] (by simp [inRange])
  have hrows : rowsAt (names (rs ++ newRecs off.rows r).length []) (rs ++ newRecs off.rows r) = [] := by
    simp [rowsAt, names]
  rw [hrows] at k2
  generalize (s.pop.add off (.ok r)).2.keep [] = kk at k1 k2
  obtain ⟨kk1, p⟩ := kk
  dsimp only at k1 k2
  subst k1
  dsimp only
  refine ⟨_, rfl, ?_⟩
  split <;> exact k2

end Verif
