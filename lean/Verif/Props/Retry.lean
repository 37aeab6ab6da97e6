import Verif.Spec.Retry
import Verif.Props.Grouping
import Verif.Props.Runs
import Verif.Props.InForce

/-!
# C107: an evaluation that raises loses nothing, and the run can go on
-/

namespace Verif.Props
open Verif Verif.Spec
open _root_.Spec (Rec Represents EvalOK Gens names rowsSet rowsAt newRecs inRange)

variable {X O F C U V W S Q R : Type}

section generation
variable {inter : Prop} {d nc need : Nat} {unc : Bool} {Vok : V → Prop} {size : V → Nat → Prop}

/-- Either the generation returns, or evaluation raised and nothing has happened. -/
theorem nextGen_or_evaluation (ops : Ops X O F C U V S Q R) (hsel : SelectContract ops nc unc need Vok size) (hm : MateContract ops d)
    (hev : EvalContract ops nc unc) (s : EA X O F C U V S Q) (h : Alive inter d nc unc need Vok s) (hnd : s.cfg.saveND = true → Begun s.nd) :
    (∃ t, EA.nextGen ops s = (.ok (), t) ∧ (t.cfg.saveND = true → Begun t.nd) ∧ t.clock = s.clock + 3) ∨
    ∃ off e, ops.mate s.clock s.pop = .ok off ∧ ops.evaluate (s.clock + 1) s.cfg.useSurr off = .error e ∧
      EA.nextGen ops s = (.error e, { s with clock := s.clock + 1 + 1, trueEvals := s.trueEvals + (if s.cfg.useSurr then 0 else off.rows.length) }) := by
  obtain ⟨rs, hr, hn, hne⟩ := h.rep
  obtain ⟨inds, hi⟩ := Option.ne_none_iff_exists'.1 h.inds
  have hil : inds ≠ [] := by
    have := Represents_length hr hi
    intro e; rw [e] at this; simp at this; exact hne (List.length_eq_zero_iff.1 this.symm)
  obtain ⟨off, hmate, hod, hor⟩ := hm s.clock s.pop inds hi hil
  have hun := Verif.Props.nextGen_eq ops s
  rw [hmate] at hun
  dsimp only at hun
  cases hevr : ops.evaluate (s.clock + 1) s.cfg.useSurr off with
  | error e =>
    right
    have hpa : ({ s with clock := s.clock + 1 } : EA X O F C U V S Q).popAdd ops off =
        (.error e, { s with clock := s.clock + 1 + 1, trueEvals := s.trueEvals + (if s.cfg.useSurr then 0 else off.rows.length) }) := by
      unfold EA.popAdd
      simp only [hevr, Pop.add, evLog, List.append_nil]
    rw [hpa] at hun
    exact ⟨off, e, hmate, hevr, hun⟩
  | ok r =>
    left
    obtain ⟨ho, hu⟩ := hev _ _ _ _ hevr
    have hadd := add_spec (d := d) hr off r (by rw [h.cons]; exact ho) (fun _ => h.dim) (.inl hod)
    obtain ⟨a1, a2, a3, a4, a5⟩ := hadd
    obtain ⟨a5, a6⟩ := a5 (by
      cases unc with
      | false => exact .inr (.inl (hu.2 rfl))
      | true => exact .inr (.inr (fun e => by simpa using h.unc.1 e)))
    have hpa : ({ s with clock := s.clock + 1 } : EA X O F C U V S Q).popAdd ops off =
        (.ok r, { s with pop := (s.pop.add off (.ok r)).2, clock := s.clock + 1 + 1,
                         trueEvals := s.trueEvals + (if s.cfg.useSurr then 0 else off.rows.length), log := s.log ++ [(off.rows, r)] }) := by
      unfold EA.popAdd
      simp only [hevr, a5, evLog]
    rw [hpa] at hun
    dsimp only at hun
    obtain ⟨s1, hs1⟩ : ∃ t : EA X O F C U V S Q, { s with pop := (s.pop.add off (.ok r)).2, clock := s.clock + 1 + 1, trueEvals := s.trueEvals + (if s.cfg.useSurr then 0 else off.rows.length), log := s.log ++ [(off.rows, r)] } = t := ⟨_, rfl⟩
    rw [hs1] at hun
    have e1 : s1.pop = (s.pop.add off (.ok r)).2 := by rw [← hs1]
    have e2 : s1.vec = s.vec := by rw [← hs1]
    have e3 : s1.cfg = s.cfg := by rw [← hs1]
    have e4 : s1.nd = s.nd := by rw [← hs1]
    have e5 : s1.clock = s.clock + 2 := by rw [← hs1]
    have hl : (rs ++ newRecs off.rows r).length = rs.length + off.rows.length := by
      rw [List.length_append, newRecs_length _ _ nc ho]
    have hne2 : rs ++ newRecs off.rows r ≠ [] := by simp [hne]
    obtain ⟨f1, f2, f3, f4, f5⟩ := updateND_frameR ops s1 off.rows r
    have f6 : ∃ s2, s1.updateND ops off.rows r = (.ok (), s2) ∧ (s2.cfg.saveND = true → Begun s2.nd) ∧ s2.clock = s1.clock := by
      cases hb : s1.cfg.saveND with
      | false => exact ⟨s1, f5 hb, by simp [hb], rfl⟩
      | true =>
        obtain ⟨ar, g1, g2⟩ := archiveUpdate_kept ops.dom s1.nd off.rows r.objectives r.fitness
          (by rw [e4]; exact hnd (by rw [← e3]; exact hb)) ho.objs ho.fits
        unfold EA.updateND
        rw [hb, g1]
        exact ⟨_, rfl, fun _ => g2, rfl⟩
    obtain ⟨s2, hnd2, b2, c2⟩ := f6
    rw [hnd2] at f1 f2 f3 f4 hun
    dsimp only at f1 f2 f3 f4 hun
    obtain ⟨sel, v', t', g1, g2, g3, g4, g5, g6, g7⟩ := hsel s2.clock s2.vec s2.sel s2.pop (rs ++ newRecs off.rows r)
      (by rw [f2, e2]; exact h.vec) (by rw [f1, e1]; exact a1) (by rw [f1, e1]; exact a4) (by rw [f1, e1, a2]; exact h.cons)
      (by rw [f1, e1]; exact a6.trans hu) (by omega) hne2
    rw [g1] at hun
    dsimp only at hun
    obtain ⟨k1, -⟩ := keep_ok (p := s2.pop) (by rw [f1, e1]; exact a1) (by rw [f1, e1]; exact a4)
      (sel.map (fun (j : Nat) => (j : Int))) (inRange_nat _ sel g4)
    generalize s2.pop.keep (sel.map (fun (j : Nat) => (j : Int))) = kk at hun k1
    obtain ⟨kk1, p⟩ := kk
    dsimp only at k1
    subst k1
    dsimp only at hun
    refine ⟨_, hun, ?_, ?_⟩
    · split <;> exact b2
    · split <;> (show s2.clock + 1 = _; omega)

end generation

/-! ## Renumbering -/

/-- The object at another moment. -/
def atMoment (k e : Nat) (s : EA X O F C U V S Q) : EA X O F C U V S Q := { s with clock := k, trueEvals := e }

theorem nextGen_renumber (f : Nat → Nat) (ops : Ops X O F C U V S Q R) (s t : EA X O F C U V S Q) (k e : Nat) (h0 : f k = s.clock) (h1 : f (k + 1) = s.clock + 1)
    (h2 : f (k + 2) = s.clock + 2) (h : EA.nextGen ops s = (.ok (), t)) :
    ∃ e', EA.nextGen (renumber f ops) (atMoment k e s) = (.ok (), atMoment (k + 3) e' t) := by
  rw [Verif.Props.nextGen_eq] at h ⊢
  have m0 : (renumber f ops).mate (atMoment k e s).clock (atMoment k e s).pop = ops.mate s.clock s.pop := by
    show ops.mate (f k) s.pop = _; rw [h0]
  rw [m0]
  cases hm : ops.mate s.clock s.pop with
  | error e => rw [hm] at h; simp at h
  | ok off =>
    rw [hm] at h
    dsimp only at h ⊢
    have p0 : (renumber f ops).evaluate (k + 1) s.cfg.useSurr off = ops.evaluate (s.clock + 1) s.cfg.useSurr off := by
      show ops.evaluate (f (k + 1)) _ off = _; rw [h1]
    have p1 : ∃ e', ({ atMoment k e s with clock := (atMoment k e s).clock + 1 } : EA X O F C U V S Q).popAdd (renumber f ops) off =
        ((({ s with clock := s.clock + 1 } : EA X O F C U V S Q).popAdd ops off).1,
          atMoment (k + 2) e' (({ s with clock := s.clock + 1 } : EA X O F C U V S Q).popAdd ops off).2) := by
      refine ⟨e + (if s.cfg.useSurr then 0 else off.rows.length), ?_⟩
      unfold EA.popAdd
      dsimp only [atMoment]
      rw [p0]
      rfl
    obtain ⟨e', p1⟩ := p1
    rw [p1]
    have p2 : (({ s with clock := s.clock + 1 } : EA X O F C U V S Q).popAdd ops off).2.clock = s.clock + 2 := rfl
    generalize ({ s with clock := s.clock + 1 } : EA X O F C U V S Q).popAdd ops off = z at h p2
    obtain ⟨z, s1⟩ := z
    dsimp only at p2
    cases z with
    | error e => simp at h
    | ok res =>
      dsimp only at h ⊢
      have q1 : (atMoment (k + 2) e' s1).updateND (renumber f ops) off.rows res =
          ((s1.updateND ops off.rows res).1, atMoment (k + 2) e' (s1.updateND ops off.rows res).2) := by
        unfold EA.updateND
        have a1 : (atMoment (k + 2) e' s1).cfg.saveND = s1.cfg.saveND := rfl
        have a2 : (atMoment (k + 2) e' s1).nd = s1.nd := rfl
        have a3 : (renumber f ops).dom = ops.dom := rfl
        rw [a1, a2, a3]
        cases s1.cfg.saveND with
        | false => rfl
        | true =>
          simp only [if_true]
          cases archiveUpdate ops.dom s1.nd off.rows res.objectives res.fitness <;> rfl
      have q2 : (s1.updateND ops off.rows res).2.clock = s1.clock := by
        unfold EA.updateND
        split
        · split <;> rfl
        · rfl
      rw [q1]
      generalize s1.updateND ops off.rows res = y at h q2
      obtain ⟨y, s2⟩ := y
      dsimp only at q2
      cases y with
      | error e => simp at h
      | ok _ =>
        dsimp only at h ⊢
        have r1 : (renumber f ops).select (atMoment (k + 2) e' s2).clock (atMoment (k + 2) e' s2).vec (atMoment (k + 2) e' s2).sel (atMoment (k + 2) e' s2).pop =
            ops.select s2.clock s2.vec s2.sel s2.pop := by
          show ops.select (f (k + 2)) s2.vec s2.sel s2.pop = _
          rw [h2, q2, p2]
        rw [r1]
        generalize ops.select s2.clock s2.vec s2.sel s2.pop = x at h
        obtain ⟨x, v', t'⟩ := x
        cases x with
        | error e => simp at h
        | ok idx =>
          dsimp only at h ⊢
          have r2 : (atMoment (k + 2) e' s2).pop.keep idx = s2.pop.keep idx := rfl
          rw [r2]
          generalize s2.pop.keep idx = x at h
          obtain ⟨x, pp⟩ := x
          cases x with
          | error e => simp at h
          | ok _ =>
            dsimp only at h ⊢
            simp only [Prod.mk.injEq, true_and] at h
            refine ⟨e', ?_⟩
            rw [← h]
            have r3 : (atMoment (k + 2) e' s2).cfg.useSurr = s2.cfg.useSurr := rfl
            rw [r3]
            cases s2.cfg.useSurr <;> rfl

/-- A generation asks the outside world three times. -/
theorem nextGen_forward (f g : Nat → Nat) (ops : Ops X O F C U V S Q R) (s : EA X O F C U V S Q) (h : ∀ j, j < 3 → f (s.clock + j) = g (s.clock + j)) :
    EA.nextGen (renumber f ops) s = EA.nextGen (renumber g ops) s := by
  rw [Verif.Props.nextGen_eq, Verif.Props.nextGen_eq]
  have m0 : (renumber f ops).mate s.clock s.pop = (renumber g ops).mate s.clock s.pop := by
    show ops.mate (f (s.clock + 0)) s.pop = ops.mate (g (s.clock + 0)) s.pop; rw [h 0 (by omega)]
  rw [m0]
  cases (renumber g ops).mate s.clock s.pop with
  | error e => rfl
  | ok off =>
    dsimp only
    have p1 : ({ s with clock := s.clock + 1 } : EA X O F C U V S Q).popAdd (renumber f ops) off =
        ({ s with clock := s.clock + 1 } : EA X O F C U V S Q).popAdd (renumber g ops) off := by
      unfold EA.popAdd
      have : (renumber f ops).evaluate (s.clock + 1) = (renumber g ops).evaluate (s.clock + 1) := by
        show ops.evaluate (f (s.clock + 1)) = ops.evaluate (g (s.clock + 1)); rw [h 1 (by omega)]
      dsimp only
      rw [this]
    rw [p1]
    have p2 : (({ s with clock := s.clock + 1 } : EA X O F C U V S Q).popAdd (renumber g ops) off).2.clock = s.clock + 2 := rfl
    generalize ({ s with clock := s.clock + 1 } : EA X O F C U V S Q).popAdd (renumber g ops) off = z at p2
    obtain ⟨z, s1⟩ := z
    dsimp only at p2
    cases z with
    | error e => rfl
    | ok res =>
      dsimp only
      have q1 : s1.updateND (renumber f ops) off.rows res = s1.updateND (renumber g ops) off.rows res := rfl
      have q2 : (s1.updateND (renumber g ops) off.rows res).2.clock = s1.clock := by
        unfold EA.updateND
        split
        · split <;> rfl
        · rfl
      rw [q1]
      generalize s1.updateND (renumber g ops) off.rows res = y at q2
      obtain ⟨y, s2⟩ := y
      dsimp only at q2
      cases y with
      | error e => rfl
      | ok _ =>
        dsimp only
        have r1 : (renumber f ops).select s2.clock = (renumber g ops).select s2.clock := by
          show ops.select (f s2.clock) = ops.select (g s2.clock); rw [q2, p2, h 2 (by omega)]
        rw [r1]

/-! ## Attempts -/

/-- From `a` to `c` in `k` generations that returned, with other things in between that do not matter for `Rel`. -/
inductive Attempts (real : EA X O F C U V S Q → EARes Unit X O F C U V S Q) (Rel : EA X O F C U V S Q → EA X O F C U V S Q → Prop) :
    Nat → EA X O F C U V S Q → EA X O F C U V S Q → Prop
  | done (a) : Attempts real Rel 0 a a
  | quiet {k a a' c} (h : ∀ b, Rel a b → Rel a' b) (hc : a.clock ≤ a'.clock) (hg : a'.gen = a.gen) (hn : Attempts real Rel k a' c) : Attempts real Rel k a c
  | gen {k a a' c} (h : a.checkFE = true) (hr : real a = (.ok (), a')) (hg : a'.gen = a.gen + 1) (hn : Attempts real Rel k a' c) : Attempts real Rel (k + 1) a c

variable {real : EA X O F C U V S Q → EARes Unit X O F C U V S Q} {Rel : EA X O F C U V S Q → EA X O F C U V S Q → Prop}
  {B : (Nat → Nat) → EA X O F C U V S Q → EARes Unit X O F C U V S Q}

theorem Attempts.gens_counted {k : Nat} {a c : EA X O F C U V S Q} (h : Attempts real Rel k a c) : c.gen = a.gen + k := by
  induction h with
  | done => rfl
  | quiet _ _ hg _ ih => rw [ih, hg]
  | gen _ _ hg _ ih => rw [ih, hg]; omega

theorem Attempts.trans {k l : Nat} {a b c : EA X O F C U V S Q} (h : Attempts real Rel k a b) (h' : Attempts real Rel l b c) : Attempts real Rel (k + l) a c := by
  induction h with
  | done => rw [Nat.zero_add]; exact h'
  | quiet h hc hg _ ih => exact .quiet h hc hg (ih h')
  | @gen j _ _ _ h hr hg _ ih =>
    have e : j + 1 + l = (j + l) + 1 := by omega
    rw [e]
    exact .gen h hr hg (ih h')

/-- The family `B` of generations, `B f` with the outside world numbered by `f`, against the generation `real`. -/
structure Renumbers (B : (Nat → Nat) → EA X O F C U V S Q → EARes Unit X O F C U V S Q) (real : EA X O F C U V S Q → EARes Unit X O F C U V S Q)
    (Rel : EA X O F C U V S Q → EA X O F C U V S Q → Prop) : Prop where
  forward : ∀ f g s, (∀ j, j < 3 → f (s.clock + j) = g (s.clock + j)) → B f s = B g s
  step : ∀ f a a' b, Rel a b → real a = (.ok (), a') → (∀ j, j < 3 → f (b.clock + j) = a.clock + j) →
    ∃ b', B f b = (.ok (), b') ∧ Rel a' b' ∧ b'.clock = b.clock + 3 ∧ a'.clock = a.clock + 3
  later : ∀ f s t, B f s = (.ok (), t) → s.clock ≤ t.clock
  budget : ∀ a b, Rel a b → b.checkFE = a.checkFE

theorem gens_forward (hB : Renumbers B real Rel) (f g : Nat → Nat) (n : Nat) : ∀ s : EA X O F C U V S Q, (∀ k, s.clock ≤ k → f k = g k) →
    gens (B f) n s = gens (B g) n s := by
  induction n with
  | zero => exact fun s _ => rfl
  | succ n ih =>
    intro s h
    rw [gens_succ, gens_succ, hB.forward f g s (fun j _ => h _ (by omega))]
    cases s.checkFE with
    | false => rfl
    | true =>
      simp only [if_true]
      generalize hz : B g s = z
      obtain ⟨z, t⟩ := z
      cases z with
      | error e => rfl
      | ok _ => exact ih t (fun k hk => h k (Nat.le_trans (hB.later g s t hz) hk))

theorem Attempts.undisturbed (hB : Renumbers B real Rel) {k : Nat} {a c : EA X O F C U V S Q} (h : Attempts real Rel k a c) :
    ∀ b, Rel a b → ∃ f : Nat → Nat, (∀ i j, b.clock ≤ i → i < j → f i < f j) ∧ (∀ i, b.clock ≤ i → a.clock ≤ f i) ∧
      ∃ d, gens (B f) k b = (.ok (), d) ∧ Rel c d := by
  induction h with
  | done a => exact fun b hb => ⟨fun i => a.clock + (i - b.clock), fun i j hi hj => by dsimp only; omega, fun i hi => by dsimp only; omega, b, rfl, hb⟩
  | quiet h hc hg _ ih =>
    intro b hb
    obtain ⟨f, f1, f2, f3⟩ := ih b (h b hb)
    exact ⟨f, f1, fun i hi => Nat.le_trans hc (f2 i hi), f3⟩
  | @gen k a a' c h hr hg _ ih =>
    intro b hb
    obtain ⟨b0, s1, s2, s3, s4⟩ := hB.step (fun i => a.clock + (i - b.clock)) a a' b hb hr (fun j _ => by omega)
    obtain ⟨f, f1, f2, d, f3, f4⟩ := ih b0 s2
    obtain ⟨F, hF⟩ : ∃ F : Nat → Nat, F = fun i => if i < b.clock + 3 then a.clock + (i - b.clock) else f i := ⟨_, rfl⟩
    have hlo : ∀ i, i < b.clock + 3 → F i = a.clock + (i - b.clock) := fun i hi => by rw [hF]; dsimp only; rw [if_pos hi]
    have hhi : ∀ i, b.clock + 3 ≤ i → F i = f i := fun i hi => by rw [hF]; dsimp only; rw [if_neg (by omega)]
    have hFb : B F b = (.ok (), b0) := by
      rw [hB.forward F (fun i => a.clock + (i - b.clock)) b (fun j hj => hlo _ (by omega))]
      exact s1
    refine ⟨F, ?_, ?_, d, ?_, f4⟩
    · intro i j hi hj
      rcases Nat.lt_or_ge i (b.clock + 3) with h1 | h1 <;> rcases Nat.lt_or_ge j (b.clock + 3) with h2 | h2
      · rw [hlo i h1, hlo j h2]; omega
      · rw [hlo i h1, hhi j h2]
        have := f2 j (by omega)
        omega
      · omega
      · rw [hhi i h1, hhi j h2]; exact f1 i j (by omega) hj
    · intro i hi
      rcases Nat.lt_or_ge i (b.clock + 3) with h1 | h1
      · rw [hlo i h1]; omega
      · rw [hhi i h1]
        have := f2 i (by omega)
        omega
    · rw [gens_succ, hB.budget a b hb, h, if_pos rfl, hFb]
      dsimp only
      rw [gens_forward hB F f k b0 (fun i hi => hhi i (by omega))]
      exact f3

/-! ## Tracking -/

/-- `b`, which nothing disturbed, against `a`: the same, but for the moment and the grouping. -/
def Tracks (φ : V → W) (N : V → Prop) (a b : EA X O F C U V S Q) : Prop := Regrouped φ N b (atMoment b.clock b.trueEvals a)

variable {φ : V → W} {N : V → Prop}

theorem nextGen_clock (ops : Ops X O F C U V S Q R) (s t : EA X O F C U V S Q) (h : EA.nextGen ops s = (.ok (), t)) : t.clock = s.clock + 3 := by
  obtain ⟨e', h'⟩ := nextGen_renumber id ops s t s.clock s.trueEvals rfl rfl rfl h
  have e1 : renumber id ops = ops := rfl
  have e2 : atMoment s.clock s.trueEvals s = s := rfl
  rw [e1, e2, h] at h'
  simp only [Prod.mk.injEq, true_and] at h'
  rw [h']
  rfl

theorem nextGen_renumbers (ops : Ops X O F C U V S Q R) (hb : ∀ f, Steady φ N (EA.nextGen (renumber f ops))) :
    Renumbers (fun f => EA.nextGen (renumber f ops)) (EA.nextGen ops) (Tracks φ N) := by
  constructor
  · exact fun f g s h => nextGen_forward f g ops s h
  · intro f a a' b hr h hf
    obtain ⟨e', h'⟩ := nextGen_renumber f ops a a' b.clock b.trueEvals (hf 0 (by omega)) (hf 1 (by omega)) (hf 2 (by omega)) h
    obtain ⟨q1, q2⟩ := hb f _ _ hr
    rw [h'] at q1 q2
    generalize EA.nextGen (renumber f ops) b = z at q1 q2
    obtain ⟨z, b'⟩ := z
    dsimp only at q1 q2
    have c1 : b'.clock = b.clock + 3 ∧ b'.trueEvals = e' := by
      obtain ⟨_, _, _, _, _, _, _, e, -⟩ := q2
      have e1 := congrArg EA.clock e
      have e2 := congrArg EA.trueEvals e
      exact ⟨e1.symm, e2.symm⟩
    refine ⟨b', by rw [← q1], ?_, c1.1, nextGen_clock ops a a' h⟩
    unfold Tracks
    rw [c1.1, c1.2]
    exact q2
  · intro f s t h
    rw [nextGen_clock _ s t h]
    omega
  · intro a b h
    exact (checkFE_regrouped h).symm

theorem preIteration_regrouped (ops : Ops X O F C U V S Q R) (had : ∀ v f, N v → N (ops.adapt v f) ∧ φ (ops.adapt v f) = φ v)
    (s s' : EA X O F C U V S Q) (h : Regrouped φ N s s') : Regrouped φ N s ({ s'.preIteration ops with genIter := 0 } : EA X O F C U V S Q) := by
  obtain ⟨it, gi, nI, nG, k, a, v, rfl, h1, h2, h3⟩ := h
  have hrec : ∃ a', (regroup it gi nI nG k a v s).record = regroup it gi nI nG k a' v s := by
    unfold EA.record
    split
    · exact ⟨_, rfl⟩
    · exact ⟨_, rfl⟩
  obtain ⟨a', ha'⟩ := hrec
  simp only [EA.preIteration]
  rw [ha']
  have hv : ∀ w, N w → φ w = φ s.vec → N (ops.adapt w s.pop.fitness) ∧ φ (ops.adapt w s.pop.fitness) = φ s.vec :=
    fun w hw e => ⟨(had w _ hw).1, (had w _ hw).2.trans e⟩
  obtain ⟨n1, p1⟩ := hv v h2 h1
  obtain ⟨n2, p2⟩ := hv _ n1 p1
  split <;> split
  · exact ⟨_, 0, nI, nG, k, a', _, rfl, p2, n2, h3⟩
  · exact ⟨_, 0, nI, nG, k, a', _, rfl, p1, n1, h3⟩
  · exact ⟨_, 0, nI, nG, k, a', _, rfl, p1, n1, h3⟩
  · exact ⟨_, 0, nI, nG, k, a', _, rfl, h1, h2, h3⟩

theorem preIteration_atMoment (ops : Ops X O F C U V S Q R) (k e : Nat) (s : EA X O F C U V S Q) :
    (atMoment k e s).preIteration ops = atMoment k e (s.preIteration ops) := by
  have hr : (atMoment k e s).record = atMoment k e s.record := by
    unfold EA.record
    have : (atMoment k e s).cfg.keepArchive = s.cfg.keepArchive := rfl
    rw [this]
    split <;> rfl
  simp only [EA.preIteration]
  rw [hr]
  generalize s.record = t
  have h1 : (atMoment k e t).cfg = t.cfg := rfl
  rw [h1]
  by_cases hi : (!t.cfg.interact) = true <;> by_cases hl : t.cfg.location ≠ some .selection
  · rw [if_pos hi, if_pos hi, if_pos (show (_ : EA X O F C U V S Q).cfg.location ≠ some .selection from hl), if_pos (show (_ : EA X O F C U V S Q).cfg.location ≠ some .selection from hl)]; rfl
  · rw [if_pos hi, if_pos hi, if_neg (show ¬ (_ : EA X O F C U V S Q).cfg.location ≠ some .selection from hl), if_neg (show ¬ (_ : EA X O F C U V S Q).cfg.location ≠ some .selection from hl)]; rfl
  · rw [if_neg hi, if_neg hi, if_pos (show (atMoment k e t).cfg.location ≠ some .selection from hl), if_pos hl]; rfl
  · rw [if_neg hi, if_neg hi, if_neg (show ¬ (atMoment k e t).cfg.location ≠ some .selection from hl), if_neg hl]

/-- A generation that returns or leaves everything as it was. -/
def Careful (P : EA X O F C U V S Q → Prop) (body : EA X O F C U V S Q → EARes Unit X O F C U V S Q) : Prop :=
  ∀ s, P s → (∃ t, body s = (.ok (), t) ∧ P t ∧ t.gen = s.gen + 1) ∨ ∃ e k n, body s = (.error e, atMoment k n s) ∧ s.clock ≤ k ∧ P (atMoment k n s)

theorem loop_attempts {P : EA X O F C U V S Q → Prop} {body : EA X O F C U V S Q → EARes Unit X O F C U V S Q} (hb : Careful P body) (fuel : Nat) :
    ∀ s, P s → (∃ k, Attempts body (Tracks φ N) k s (EA.loop body fuel s).2) ∧ P (EA.loop body fuel s).2 := by
  induction fuel with
  | zero => exact fun s h => ⟨⟨0, .done s⟩, h⟩
  | succ fuel ih =>
    intro s h
    unfold EA.loop
    by_cases hc : s.continueIteration = true
    · rw [if_pos hc]
      have hfe : s.checkFE = true := by
        unfold EA.continueIteration at hc
        simp only [Bool.and_eq_true] at hc
        exact hc.2
      rcases hb s h with ⟨t, h1, h2, h3⟩ | ⟨e, k, n, h1, h2, h3⟩
      · rw [h1]
        obtain ⟨⟨j, i1⟩, i2⟩ := ih t h2
        exact ⟨⟨j + 1, .gen hfe h1 h3 i1⟩, i2⟩
      · rw [h1]
        exact ⟨⟨0, .quiet (a' := atMoment k n s) (fun b hb => hb) h2 rfl (.done _)⟩, h3⟩
    · rw [if_neg hc]
      exact ⟨⟨0, .done s⟩, h⟩

theorem iterate_attempts {P : EA X O F C U V S Q → Prop} {body : EA X O F C U V S Q → EARes Unit X O F C U V S Q} (hb : Careful P body) (ops : Ops X O F C U V S Q R)
    (had : ∀ v f, N v → N (ops.adapt v f) ∧ φ (ops.adapt v f) = φ v) (hsil : ∀ s, P s → Silent s)
    (hpre : ∀ s, P s → P ({ s.preIteration ops with genIter := 0 } : EA X O F C U V S Q)) (hit : ∀ s, P s → P ({ s with iter := s.iter + 1 } : EA X O F C U V S Q))
    (s : EA X O F C U V S Q) (h : P s) (p : Option (Pref R)) :
    (∃ k, Attempts body (Tracks φ N) k s (s.iterateWith ops body p).2) ∧ P (s.iterateWith ops body p).2 := by
  have e1 : s.managePreferences ops p = (.ok (), s) := by unfold EA.managePreferences; rw [(hsil s h).2]
  unfold EA.iterateWith
  rw [e1]
  dsimp only
  have hp := hpre s h
  have hq : ∀ b, Tracks φ N s b → Tracks φ N ({ s.preIteration ops with genIter := 0 } : EA X O F C U V S Q) b := by
    intro b hb
    have := preIteration_regrouped ops had b (atMoment b.clock b.trueEvals s) hb
    rw [preIteration_atMoment] at this
    exact this
  have hck : (s.preIteration ops).clock = s.clock ∧ (s.preIteration ops).gen = s.gen := by
    have hr : s.record.clock = s.clock ∧ s.record.gen = s.gen := by unfold EA.record; split <;> exact ⟨rfl, rfl⟩
    simp only [EA.preIteration]
    split <;> split <;> exact hr
  generalize s.preIteration ops = t at hp hq hck
  obtain ⟨⟨k, l1⟩, l2⟩ := loop_attempts (φ := φ) (N := N) hb t.cfg.nGen ({ t with genIter := 0 }) hp
  have l3 := Attempts.quiet hq (Nat.le_of_eq hck.1.symm) hck.2 l1
  generalize EA.loop body t.cfg.nGen { t with genIter := 0 } = z at l2 l3
  obtain ⟨z, u⟩ := z
  cases z with
  | error e => exact ⟨⟨k, l3⟩, l2⟩
  | ok _ =>
    dsimp only at l2 l3 ⊢
    have r1 : EA.requestPreferences ops ({ u with iter := u.iter + 1 } : EA X O F C U V S Q) = (.ok none, { u with iter := u.iter + 1 }) := by
      unfold EA.requestPreferences
      rw [if_pos (by exact (hsil u l2).1)]
    rw [r1]
    refine ⟨⟨k + 0, l3.trans (.quiet (a' := { u with iter := u.iter + 1 }) ?_ (Nat.le_refl _) rfl (.done _))⟩, hit u l2⟩
    rintro b ⟨it, gi, nI, nG, kk, a, v, e, q⟩
    refine ⟨it + 1, gi, nI, nG, kk, a, v, ?_, q⟩
    have e2 := congrArg EA.iter e
    show ({ atMoment b.clock b.trueEvals u with iter := (atMoment b.clock b.trueEvals u).iter + 1 } : EA X O F C U V S Q) = _
    rw [e]
    rfl

theorem calls_attempts {P : EA X O F C U V S Q → Prop} {body : EA X O F C U V S Q → EARes Unit X O F C U V S Q} (hb : Careful P body) (ops : Ops X O F C U V S Q R)
    (had : ∀ v f, N v → N (ops.adapt v f) ∧ φ (ops.adapt v f) = φ v) (hsil : ∀ s, P s → Silent s)
    (hpre : ∀ s, P s → P ({ s.preIteration ops with genIter := 0 } : EA X O F C U V S Q)) (hit : ∀ s, P s → P ({ s with iter := s.iter + 1 } : EA X O F C U V S Q))
    (ps : List (Option (Pref R))) : ∀ s : EA X O F C U V S Q, P s →
    (∃ k, Attempts body (Tracks φ N) k s (s.callsWith ops body (ps.map .iterate))) ∧ P (s.callsWith ops body (ps.map .iterate)) := by
  induction ps with
  | nil => exact fun s h => ⟨⟨0, .done s⟩, h⟩
  | cons p ps ih =>
    intro s h
    obtain ⟨⟨k, a1⟩, a2⟩ := iterate_attempts hb ops had hsil hpre hit s h p
    obtain ⟨⟨j, b1⟩, b2⟩ := ih _ a2
    exact ⟨⟨k + j, a1.trans b1⟩, b2⟩

/-! ## The archive of non-dominated solutions -/

/-- `start()` has not set it, or it is in order. -/
def KeptND (n : Option (NDArchive X O F)) : Prop := n = none ∨ Begun n

theorem startArchive_begun (nd : List F → List Bool) (inds : List X) (objs : List O) (fits : List F) (a : NDArchive X O F)
    (h : startArchive nd inds objs fits = .ok a) : Begun (some a) := by
  have cl : ∀ {α β : Type} (mask : List Bool) (xs : List α) (ys : List β) xs' ys', boolIndex mask xs = .ok xs' → boolIndex mask ys = .ok ys' →
      xs'.length = ys'.length := by
    intro α β mask xs ys xs' ys' hx hy
    unfold boolIndex at hx hy
    split at hx
    · rename_i hx1
      split at hy
      · rename_i hy1
        simp only [Except.ok.injEq] at hx hy
        subst hx hy
        clear h
        induction mask generalizing xs ys with
        | nil => cases xs <;> cases ys <;> simp_all [compress]
        | cons q mask ih =>
          cases xs with
          | nil => simp at hx1
          | cons x xs =>
            cases ys with
            | nil => simp at hy1
            | cons y ys =>
              have := ih xs ys (by simpa using hx1) (by simpa using hy1)
              cases q <;> simp [compress, this]
      · simp at hy
    · simp at hx
  unfold startArchive at h
  dsimp only at h
  split at h
  · rename_i i o' f hi1 ho1 hf1
    simp only [Except.ok.injEq] at h
    subst h
    exact ⟨_, rfl, cl _ _ _ _ _ ho1 hi1, cl _ _ _ _ _ hf1 hi1⟩
  · simp at h

theorem nextGen_keptND (ops : Ops X O F C U V S Q R)
    (hev : ∀ clk surr b r, ops.evaluate clk surr b = .ok r → r.objectives.length = b.rows.length ∧ r.fitness.length = b.rows.length)
    (s : EA X O F C U V S Q) (h : KeptND s.nd) : KeptND (EA.nextGen ops s).2.nd := by
  rw [Verif.Props.nextGen_eq]
  cases ops.mate s.clock s.pop with
  | error e => exact h
  | ok off =>
    dsimp only
    have p1 : (({ s with clock := s.clock + 1 } : EA X O F C U V S Q).popAdd ops off).2.nd = s.nd := rfl
    have p2 : ∀ r, (({ s with clock := s.clock + 1 } : EA X O F C U V S Q).popAdd ops off).1 = .ok r →
        r.objectives.length = off.rows.length ∧ r.fitness.length = off.rows.length := by
      intro r hr
      unfold EA.popAdd at hr
      dsimp only at hr
      cases he : ops.evaluate (s.clock + 1) s.cfg.useSurr off with
      | error e => rw [he] at hr; simp [Pop.add] at hr
      | ok r' =>
        have := hev _ _ _ _ he
        rw [he] at hr
        have e : r = r' := by
          unfold Pop.add at hr
          dsimp only at hr
          repeat' (first | (split at hr) | (simp at hr; done))
          all_goals first | (simp at hr; done) | (simp only [Except.ok.injEq] at hr; exact hr.symm)
        rw [e]; exact this
    generalize ({ s with clock := s.clock + 1 } : EA X O F C U V S Q).popAdd ops off = z at p1 p2
    obtain ⟨z, s1⟩ := z
    dsimp only at p1 p2
    rw [← p1] at h
    cases z with
    | error e => exact h
    | ok res =>
      dsimp only
      obtain ⟨l1, l2⟩ := p2 res rfl
      have q1 : KeptND (s1.updateND ops off.rows res).2.nd := by
        unfold EA.updateND
        split
        · rcases h with h | h
          · rw [h]; exact .inl h
          · obtain ⟨ar, g1, g2⟩ := archiveUpdate_kept ops.dom s1.nd off.rows res.objectives res.fitness h l1 l2
            rw [g1]; exact .inr g2
        · exact h
      generalize s1.updateND ops off.rows res = y at q1
      obtain ⟨y, s2⟩ := y
      dsimp only at q1
      cases y with
      | error e => exact q1
      | ok _ =>
        dsimp only
        generalize ops.select s2.clock s2.vec s2.sel s2.pop = x
        obtain ⟨x, v', t'⟩ := x
        cases x with
        | error e => exact q1
        | ok idx =>
          dsimp only
          generalize s2.pop.keep idx = x
          obtain ⟨x, pp⟩ := x
          cases x with
          | error e => exact q1
          | ok _ => dsimp only; split <;> exact q1

theorem calls_keptND (ops : Ops X O F C U V S Q R)
    (hev : ∀ clk surr b r, ops.evaluate clk surr b = .ok r → r.objectives.length = b.rows.length ∧ r.fitness.length = b.rows.length)
    (cs : List (Call R)) : ∀ s : EA X O F C U V S Q, KeptND s.nd → KeptND (s.callsWith ops (EA.nextGen ops) cs).nd := by
  have hloop : ∀ fuel (s : EA X O F C U V S Q), KeptND s.nd → KeptND (EA.loop (EA.nextGen ops) fuel s).2.nd := by
    intro fuel
    induction fuel with
    | zero => exact fun s h => h
    | succ fuel ih =>
      intro s h
      unfold EA.loop
      split
      · have h1 := nextGen_keptND ops hev s h
        generalize EA.nextGen ops s = r at h1
        obtain ⟨r, t⟩ := r
        cases r with
        | error e => exact h1
        | ok _ => exact ih t h1
      · exact h
  have hreq : ∀ s : EA X O F C U V S Q, (s.requestPreferences ops).2.nd = s.nd := fun s => (requestPreferences_nd ops s).2.1
  have hset : ∀ (s : EA X O F C U V S Q) arg, (s.setInteractionType arg).2.nd = s.nd := by
    intro s arg
    unfold EA.setInteractionType
    repeat' (first | rfl | split)
  induction cs with
  | nil => exact fun s h => h
  | cons c cs ih =>
    intro s h
    cases c with
    | start =>
      apply ih
      unfold EA.start
      split
      · exact h
      · dsimp only
        by_cases hs : s.cfg.saveND = true
        · rw [if_pos hs]
          cases hi : s.pop.individuals with
          | none => exact h
          | some inds =>
            dsimp only
            cases ha : startArchive ops.nonDom inds s.pop.objectives s.pop.fitness with
            | error e => exact h
            | ok nd =>
              dsimp only
              rw [hreq]
              exact .inr (startArchive_begun _ _ _ _ _ ha)
        · rw [if_neg hs]
          dsimp only
          rw [hreq]
          exact h
    | setType arg =>
      apply ih
      rw [hset]
      exact h
    | readAllowable =>
      apply ih
      have h1 := hset s none
      unfold EA.readAllowable
      split
      · exact h
      · generalize s.setInteractionType none = z at h1
        obtain ⟨z, t⟩ := z
        dsimp only at h1
        rw [← h1] at h
        cases z <;> exact h
    | iterate p =>
      apply ih
      unfold EA.iterateWith
      have m1 : (s.managePreferences ops p).2.nd = s.nd := by
        unfold EA.managePreferences EA.selManage
        repeat' (first | rfl | split)
      generalize s.managePreferences ops p = z at m1
      obtain ⟨z, t⟩ := z
      dsimp only at m1
      rw [← m1] at h
      cases z with
      | error e => exact h
      | ok _ =>
        dsimp only
        have m2 : (t.preIteration ops).nd = t.nd := by
          have hr : t.record.nd = t.nd := by unfold EA.record; split <;> rfl
          simp only [EA.preIteration]
          split <;> split <;> exact hr
        generalize t.preIteration ops = u at m2
        rw [← m2] at h
        have l1 := hloop u.cfg.nGen ({ u with genIter := 0 } : EA X O F C U V S Q) h
        generalize EA.loop (EA.nextGen ops) u.cfg.nGen ({ u with genIter := 0 } : EA X O F C U V S Q) = z at l1
        obtain ⟨z, w⟩ := z
        cases z with
        | error e => exact l1
        | ok _ =>
          dsimp only
          rw [hreq]
          exact l1

/-! ## A generation that raises -/

section raises
variable {inter : Prop} {d nc need : Nat} {unc : Bool} {Vok : V → Prop} {size : V → Nat → Prop}

theorem evalContract_rows {ops : Ops X O F C U V S Q R} (hev : EvalContract ops nc unc) :
    ∀ clk surr b r, ops.evaluate clk surr b = .ok r → r.objectives.length = b.rows.length ∧ r.fitness.length = b.rows.length :=
  fun clk surr b r h => ⟨(hev clk surr b r h).1.objs, (hev clk surr b r h).1.fits⟩

/-- What holds between generations. -/
def ReadyToGo (inter : Prop) (d nc : Nat) (unc : Bool) (need : Nat) (Vok : V → Prop) (s : EA X O F C U V S Q) : Prop :=
  Alive inter d nc unc need Vok s ∧ (s.cfg.saveND = true → Begun s.nd)

theorem readyToGo_of {s : EA X O F C U V S Q} (h : Alive inter d nc unc need Vok s) (hk : KeptND s.nd) (hn : s.cfg.saveND = true → s.nd ≠ none) :
    ReadyToGo inter d nc unc need Vok s :=
  ⟨h, fun e => hk.resolve_left (hn e)⟩

theorem nextGen_careful (ops : Ops X O F C U V S Q R) (hsel : SelectContract ops nc unc need Vok size) (hm : MateContract ops d) (hev : EvalContract ops nc unc) :
    Careful (ReadyToGo (X := X) (O := O) (F := F) (C := C) (U := U) (S := S) (Q := Q) inter d nc unc need Vok) (EA.nextGen ops) := by
  rintro s ⟨h, hn⟩
  have ha := (nextGen_alive ops hsel hm hev s h).1
  rcases nextGen_or_evaluation ops hsel hm hev s h hn with ⟨t, h1, h2, h3⟩ | ⟨off, e, h1, h2, h3⟩
  · left
    rw [h1] at ha
    exact ⟨t, h1, ⟨ha, h2⟩, ((nextGen_counts ops).ok s t h1).2.2.1⟩
  · right
    exact ⟨e, _, _, h3, by omega, h.of_eq rfl h.vec rfl, hn⟩

theorem generation_raises (ops : Ops X O F C U V S Q R) (hsel : SelectContract ops nc unc need Vok size) (hm : MateContract ops d) (hev : EvalContract ops nc unc)
    (u t : EA X O F C U V S Q) (hu : ReadyToGo inter d nc unc need Vok u) (e : Err) (h : EA.nextGen ops u = (.error e, t)) :
    (∃ off, ops.mate u.clock u.pop = .ok off ∧ ops.evaluate (u.clock + 1) u.cfg.useSurr off = .error e ∧
      OnlyTimePassed (if u.cfg.useSurr then 0 else off.rows.length) u t) ∧
    ((∀ clk off, t.clock ≤ clk → ∃ r, ops.evaluate clk u.cfg.useSurr off = .ok r) → ∃ t', EA.nextGen ops t = (.ok (), t')) := by
  rcases nextGen_or_evaluation ops hsel hm hev u hu.1 hu.2 with ⟨t1, h1, -⟩ | ⟨off, e1, h1, h2, h3⟩
  · rw [h1] at h; simp at h
  · rw [h3] at h
    simp only [Prod.mk.injEq, Except.error.injEq] at h
    obtain ⟨rfl, rfl⟩ := h
    refine ⟨⟨off, h1, h2, u.clock + 1 + 1, by omega, rfl⟩, ?_⟩
    intro hok
    obtain ⟨t1, ht1⟩ : ∃ t1 : EA X O F C U V S Q, { u with clock := u.clock + 1 + 1, trueEvals := u.trueEvals + (if u.cfg.useSurr then 0 else off.rows.length) } = t1 := ⟨_, rfl⟩
    rw [ht1] at hok ⊢
    have q1 : t1.cfg = u.cfg := by rw [← ht1]
    have hr : ReadyToGo inter d nc unc need Vok t1 := by
      rw [← ht1]
      exact ⟨hu.1.of_eq rfl hu.1.vec rfl, hu.2⟩
    rcases nextGen_or_evaluation ops hsel hm hev t1 hr.1 hr.2 with ⟨t2, k1, -⟩ | ⟨off2, e2, k1, k2, k3⟩
    · exact ⟨t2, k1⟩
    · obtain ⟨r, hr2⟩ := hok (t1.clock + 1) off2 (by omega)
      rw [q1] at k2
      rw [k2] at hr2
      cases hr2

/-! ## An iteration that raises -/

/-- Another number of generations per iteration. -/
def setGen (k : Nat) (s : EA X O F C U V S Q) : EA X O F C U V S Q := { s with cfg := { s.cfg with nGen := k } }

theorem nextGen_setGen (ops : Ops X O F C U V S Q R) (k : Nat) (s : EA X O F C U V S Q) :
    EA.nextGen ops (setGen k s) = ((EA.nextGen ops s).1, setGen k (EA.nextGen ops s).2) := by
  rw [Verif.Props.nextGen_eq, Verif.Props.nextGen_eq]
  have m0 : ops.mate (setGen k s).clock (setGen k s).pop = ops.mate s.clock s.pop := rfl
  rw [m0]
  cases ops.mate s.clock s.pop with
  | error e => rfl
  | ok off =>
    dsimp only
    have p1 : ({ setGen k s with clock := (setGen k s).clock + 1 } : EA X O F C U V S Q).popAdd ops off =
        ((({ s with clock := s.clock + 1 } : EA X O F C U V S Q).popAdd ops off).1, setGen k (({ s with clock := s.clock + 1 } : EA X O F C U V S Q).popAdd ops off).2) := rfl
    rw [p1]
    generalize ({ s with clock := s.clock + 1 } : EA X O F C U V S Q).popAdd ops off = z
    obtain ⟨z, s1⟩ := z
    cases z with
    | error e => rfl
    | ok res =>
      dsimp only
      have q1 : (setGen k s1).updateND ops off.rows res = ((s1.updateND ops off.rows res).1, setGen k (s1.updateND ops off.rows res).2) := by
        unfold EA.updateND
        have a1 : (setGen k s1).cfg.saveND = s1.cfg.saveND := rfl
        have a2 : (setGen k s1).nd = s1.nd := rfl
        rw [a1, a2]
        cases s1.cfg.saveND with
        | false => rfl
        | true =>
          simp only [if_true]
          cases archiveUpdate ops.dom s1.nd off.rows res.objectives res.fitness <;> rfl
      rw [q1]
      generalize s1.updateND ops off.rows res = y
      obtain ⟨y, s2⟩ := y
      cases y with
      | error e => rfl
      | ok _ =>
        dsimp only
        have r1 : ops.select (setGen k s2).clock (setGen k s2).vec (setGen k s2).sel (setGen k s2).pop = ops.select s2.clock s2.vec s2.sel s2.pop := rfl
        rw [r1]
        generalize ops.select s2.clock s2.vec s2.sel s2.pop = x
        obtain ⟨x, v', t'⟩ := x
        cases x with
        | error e => rfl
        | ok idx =>
          dsimp only
          have r2 : (setGen k s2).pop.keep idx = s2.pop.keep idx := rfl
          rw [r2]
          generalize s2.pop.keep idx = x
          obtain ⟨x, pp⟩ := x
          cases x with
          | error e => rfl
          | ok _ =>
            dsimp only
            have r3 : (setGen k s2).cfg.useSurr = s2.cfg.useSurr := rfl
            rw [r3]
            cases s2.cfg.useSurr <;> rfl

theorem gens_setGen (ops : Ops X O F C U V S Q R) (k n : Nat) : ∀ s : EA X O F C U V S Q,
    gens (EA.nextGen ops) n (setGen k s) = ((gens (EA.nextGen ops) n s).1, setGen k (gens (EA.nextGen ops) n s).2) := by
  induction n with
  | zero => exact fun s => rfl
  | succ n ih =>
    intro s
    rw [gens_succ, gens_succ, nextGen_setGen]
    have c : (setGen k s).checkFE = s.checkFE := rfl
    rw [c]
    cases s.checkFE with
    | false => rfl
    | true =>
      simp only [if_true]
      generalize EA.nextGen ops s = z
      obtain ⟨z, t⟩ := z
      cases z with
      | error e => rfl
      | ok _ => exact ih t

theorem preIteration_setGen (ops : Ops X O F C U V S Q R) (k : Nat) (s : EA X O F C U V S Q) :
    (setGen k s).preIteration ops = setGen k (s.preIteration ops) := by
  have hr : (setGen k s).record = setGen k s.record := by
    unfold EA.record
    have : (setGen k s).cfg.keepArchive = s.cfg.keepArchive := rfl
    rw [this]
    split <;> rfl
  simp only [EA.preIteration]
  rw [hr]
  generalize s.record = t
  obtain ⟨⟨i, l, _, _, _, _, _, _⟩, _⟩ := t
  cases i <;> rcases l with _ | (_ | _) <;> rfl

theorem gens_error {body : EA X O F C U V S Q → EARes Unit X O F C U V S Q} {P : EA X O F C U V S Q → Prop} (hb : Careful P body) (n : Nat) :
    ∀ (s t : EA X O F C U V S Q) (e : Err), P s → gens body n s = (.error e, t) →
      ∃ k w, k < n ∧ gens body k s = (.ok (), w) ∧ P w ∧ body w = (.error e, t) := by
  induction n with
  | zero => intro s t e _ h; simp [gens] at h
  | succ n ih =>
    intro s t e hs h
    rw [gens_succ] at h
    cases hc : s.checkFE with
    | false => rw [hc] at h; simp at h
    | true =>
      rw [hc, if_pos rfl] at h
      rcases hb s hs with ⟨u, h1, h2, h3⟩ | ⟨e', k, m, h1, h2, h3⟩
      · rw [h1] at h
        dsimp only at h
        obtain ⟨k, w, i1, i2, i3, i4⟩ := ih u t e h2 h
        refine ⟨k + 1, w, by omega, ?_, i3, i4⟩
        rw [gens_succ, hc, if_pos rfl, h1]
        exact i2
      · refine ⟨0, s, by omega, rfl, hs, ?_⟩
        rw [h1] at h ⊢
        exact h

theorem iteration_raises (ops : Ops X O F C U V S Q R) (hsel : SelectContract ops nc unc need Vok size) (hm : MateContract ops d) (hev : EvalContract ops nc unc)
    (hv : VecContract inter ops Vok) (u t : EA X O F C U V S Q) (hu : ReadyToGo inter d nc unc need Vok u) (hsil : Silent u) (e : Err) (p : Option (Pref R))
    (h : u.iterate ops p = (.error e, t)) :
    ∃ k t' off, k < u.cfg.nGen ∧ (setGen k u).iterate ops p = (.ok none, t') ∧ SameButIteration t' t ∧ t'.iter = u.iter + 1 ∧ t.iter = u.iter ∧
      t.cfg = u.cfg ∧ t.typeSet = t'.typeSet ∧ t.allowRead = t'.allowRead ∧
      ops.evaluate (t'.clock + 1) u.cfg.useSurr off = .error e ∧ t.clock = t'.clock + 2 ∧ t.trueEvals = t'.trueEvals + (if u.cfg.useSurr then 0 else off.rows.length) := by
  unfold EA.iterate at h ⊢
  have hcfg : ∀ n (u : EA X O F C U V S Q), (gens (EA.nextGen ops) n u).1 = .ok () → (gens (EA.nextGen ops) n u).2.cfg = u.cfg :=
    fun n u hu => (gens_cfg (nextGen_counts ops).ticks n u hu).1
  rw [iterate_silent (nextGen_counts ops).ticks ops u hsil p hcfg] at h
  have hp : Alive inter d nc unc need Vok (u.preIteration ops) := hu.1.preIteration ops hv
  obtain ⟨f1, f2, f3⟩ : (u.preIteration ops).cfg = u.cfg ∧ (u.preIteration ops).nd = u.nd ∧ (u.preIteration ops).iter = u.iter := by
    have hr : u.record.cfg = u.cfg ∧ u.record.nd = u.nd ∧ u.record.iter = u.iter := by unfold EA.record; split <;> exact ⟨rfl, rfl, rfl⟩
    simp only [EA.preIteration]
    split <;> split <;> exact hr
  have hr : ReadyToGo inter d nc unc need Vok ({ u.preIteration ops with genIter := 0 } : EA X O F C U V S Q) :=
    ⟨hp.of_eq rfl hp.vec rfl, by show (u.preIteration ops).cfg.saveND = true → Begun (u.preIteration ops).nd; rw [f1, f2]; exact hu.2⟩
  have key : ∀ k, (setGen k u).iterateWith ops (EA.nextGen ops) p =
      (match gens (EA.nextGen ops) k { u.preIteration ops with genIter := 0 } with
       | (.error e, s) => (.error e, setGen k s)
       | (.ok _, s) => (.ok none, setGen k { s with iter := s.iter + 1 })) := by
    intro k
    rw [iterate_silent (nextGen_counts ops).ticks ops (setGen k u) hsil p hcfg, preIteration_setGen]
    have := gens_setGen ops k k ({ u.preIteration ops with genIter := 0 } : EA X O F C U V S Q)
    have e1 : ({ setGen k (u.preIteration ops) with genIter := 0 } : EA X O F C U V S Q) = setGen k { u.preIteration ops with genIter := 0 } := rfl
    have e2 : (setGen k u).cfg.nGen = k := rfl
    rw [e1, e2, this]
    generalize gens (EA.nextGen ops) k ({ u.preIteration ops with genIter := 0 } : EA X O F C U V S Q) = z
    obtain ⟨z, w⟩ := z
    cases z <;> rfl
  have herr : gens (EA.nextGen ops) u.cfg.nGen ({ u.preIteration ops with genIter := 0 } : EA X O F C U V S Q) = (.error e, t) := by
    generalize gens (EA.nextGen ops) u.cfg.nGen ({ u.preIteration ops with genIter := 0 } : EA X O F C U V S Q) = z at h
    obtain ⟨z, w⟩ := z
    cases z with
    | error e' => simpa using h
    | ok _ => simp at h
  obtain ⟨k, w, k1, k2, k3, k4⟩ := gens_error (nextGen_careful ops hsel hm hev) u.cfg.nGen _ t e hr herr
  have kk := key k
  rw [k2] at kk
  dsimp only at kk
  have c1 := gens_cfg (nextGen_counts ops).ticks k ({ u.preIteration ops with genIter := 0 } : EA X O F C U V S Q) (by rw [k2])
  rw [k2] at c1
  obtain ⟨c1, c2⟩ := c1
  dsimp only at c1 c2
  rw [f1] at c1
  rw [f3] at c2
  rcases nextGen_or_evaluation ops hsel hm hev w k3.1 k3.2 with ⟨t1, h1, -⟩ | ⟨off, e1, h1, h2, h3⟩
  · rw [h1] at k4; simp at k4
  · rw [h3] at k4
    simp only [Prod.mk.injEq, Except.error.injEq] at k4
    obtain ⟨rfl, rfl⟩ := k4
    refine ⟨k, _, off, k1, kk, ⟨⟨rfl, rfl, rfl, rfl, rfl, rfl⟩, rfl, rfl, rfl, rfl, rfl, rfl⟩, ?_, c2, c1, rfl, rfl, ?_, rfl, ?_⟩
    · show w.iter + 1 = _
      rw [c2]
    · rw [← c1]; exact h2
    · show w.trueEvals + _ = w.trueEvals + _
      rw [c1]

end raises

theorem construct_nd (ops : Ops X O F C U V S Q R) (design : Nat → Nat → Except Err (Batch X)) (vec0 : Nat → V) (sel0 : Nat → S) (prob0 : Q)
    (interact useSurr k b : Bool) (nIter nGen total : Nat) (problem : Option (ProblemType × Nat × Nat))
    (initPop : Option (Pop X O F C U × Nat)) (ps lr : Option Nat) (s : EA X O F C U V S Q)
    (h : construct ops design vec0 sel0 prob0 interact useSurr k b nIter nGen total problem initPop ps lr = .ok s) : s.nd = none := by
  unfold construct at h
  dsimp only at h
  split at h
  · split at h
    · simp at h
    · simp only [Except.ok.injEq] at h
      subst h
      rfl
  · split at h
    · simp at h
    · split at h
      · simp at h
      · split at h
        · simp at h
        · rename_i hp
          simp only [Except.ok.injEq] at h
          subst h
          unfold EA.popAdd at hp
          simp only [Prod.mk.injEq] at hp
          rw [← hp.2]

theorem construct_useSurr (ops : Ops X O F C U V S Q R) (design : Nat → Nat → Except Err (Batch X)) (vec0 : Nat → V) (sel0 : Nat → S) (prob0 : Q)
    (interact useSurr k b : Bool) (nIter nGen total : Nat) (problem : Option (ProblemType × Nat × Nat))
    (initPop : Option (Pop X O F C U × Nat)) (ps lr : Option Nat) (s : EA X O F C U V S Q)
    (h : construct ops design vec0 sel0 prob0 interact useSurr k b nIter nGen total problem initPop ps lr = .ok s) : s.cfg.useSurr = useSurr := by
  unfold construct at h
  dsimp only at h
  split at h
  · split at h
    · simp at h
    · simp only [Except.ok.injEq] at h
      subst h
      rfl
  · split at h
    · simp at h
    · split at h
      · simp at h
      · split at h
        · simp at h
        · rename_i hp
          simp only [Except.ok.injEq] at h
          subst h
          unfold EA.popAdd at hp
          simp only [Prod.mk.injEq] at hp
          rw [← hp.2]

theorem construct_fields (ops : Ops X O F C U V S Q R) (design : Nat → Nat → Except Err (Batch X)) (vec0 : Nat → V) (sel0 : Nat → S) (prob0 : Q)
    (interact useSurr k b : Bool) (nIter nGen total : Nat) (pr : ProblemType × Nat × Nat) (ps lr : Option Nat) (s : EA X O F C U V S Q)
    (h : construct ops design vec0 sel0 prob0 interact useSurr k b nIter nGen total (some pr) none ps lr = .ok s) :
    s.cfg.saveND = b ∧ s.gen = 0 ∧ s.clock = 2 := by
  unfold construct at h
  dsimp only at h
  split at h
  · simp at h
  · split at h
    · simp at h
    · rename_i hp
      simp only [Except.ok.injEq] at h
      subst h
      unfold EA.popAdd at hp
      simp only [Prod.mk.injEq] at hp
      rw [← hp.2]
      exact ⟨rfl, rfl, rfl⟩

theorem construct_renumber (f : Nat → Nat) (h1 : f 1 = 1) (ops : Ops X O F C U V S Q R) (design : Nat → Nat → Except Err (Batch X)) (vec0 : Nat → V) (sel0 : Nat → S)
    (prob0 : Q) (interact useSurr k b : Bool) (nIter nGen total : Nat) (pr : ProblemType × Nat × Nat) (ps lr : Option Nat) :
    construct (renumber f ops) design vec0 sel0 prob0 interact useSurr k b nIter nGen total (some pr) none ps lr =
      construct ops design vec0 sel0 prob0 interact useSurr k b nIter nGen total (some pr) none ps lr := by
  unfold construct
  obtain ⟨ty, m, nCons⟩ := pr
  dsimp only
  cases design 0 (choosePopSize m ps lr) with
  | error e => rfl
  | ok rows =>
    dsimp only
    unfold EA.popAdd
    have : (renumber f ops).evaluate 1 = ops.evaluate 1 := by show ops.evaluate (f 1) = _; rw [h1]
    dsimp only
    rw [this]

theorem start_regroup (f : Nat → Nat) (ops : Ops X O F C U V S Q R) (it gi nI nG : Nat) (k : Bool) (a : List (Nat × Entry X O F)) (v : V)
    (s : EA X O F C U V S Q) (hs : Silent s) :
    (regroup it gi nI nG k a v s).start (renumber f ops) = ((s.start ops).1, regroup it gi nI nG k a v (s.start ops).2) := by
  have hq : ∀ (o : Ops X O F C U V S Q R) (u : EA X O F C U V S Q), u.cfg.interact = false → u.requestPreferences o = (.ok none, u) := by
    intro o u hu
    unfold EA.requestPreferences
    rw [if_pos hu]
  unfold EA.start
  have h1 : (regroup it gi nI nG k a v s).cfg.interact = s.cfg.interact := rfl
  have h3 : (regroup it gi nI nG k a v s).cfg.saveND = s.cfg.saveND := rfl
  have h4 : (regroup it gi nI nG k a v s).pop = s.pop := rfl
  have h5 : (renumber f ops).nonDom = ops.nonDom := rfl
  rw [h1, h3, h4, h5, hs.1]
  simp only [Bool.false_and, Bool.false_eq_true, if_false]
  cases s.cfg.saveND with
  | false =>
    simp only [Bool.false_eq_true, if_false]
    rw [hq (renumber f ops) _ (by exact hs.1), hq ops _ (by exact hs.1)]
  | true =>
    simp only [if_true]
    cases s.pop.individuals with
    | none => rfl
    | some inds =>
      dsimp only
      cases startArchive ops.nonDom inds s.pop.objectives s.pop.fitness with
      | error e => rfl
      | ok nd =>
        dsimp only
        rw [hq (renumber f ops) _ (by exact hs.1), hq ops _ (by exact hs.1)]
        rfl

theorem start_silent (ops : Ops X O F C U V S Q R) (s : EA X O F C U V S Q) (hs : Silent s) :
    (s.start ops).2.gen = s.gen ∧ (s.start ops).2.clock = s.clock ∧ (s.start ops).2.vec = s.vec ∧ (s.start ops).2.cfg = s.cfg := by
  have hq : ∀ (u : EA X O F C U V S Q), u.cfg.interact = false → u.requestPreferences ops = (.ok none, u) := by
    intro u hu
    unfold EA.requestPreferences
    rw [if_pos hu]
  unfold EA.start
  rw [hs.1]
  simp only [Bool.false_and, Bool.false_eq_true, if_false]
  cases s.cfg.saveND with
  | false =>
    simp only [Bool.false_eq_true, if_false]
    rw [hq _ (by exact hs.1)]
    exact ⟨rfl, rfl, rfl, rfl⟩
  | true =>
    simp only [if_true]
    cases s.pop.individuals with
    | none => exact ⟨rfl, rfl, rfl, rfl⟩
    | some inds =>
      dsimp only
      cases startArchive ops.nonDom inds s.pop.objectives s.pop.fitness with
      | error e => exact ⟨rfl, rfl, rfl, rfl⟩
      | ok nd =>
        dsimp only
        rw [hq _ (by exact hs.1)]
        exact ⟨rfl, rfl, rfl, rfl⟩

theorem Careful.and_silent {P : EA X O F C U V S Q → Prop} {ops : Ops X O F C U V S Q R} (h : Careful P (EA.nextGen ops)) :
    Careful (fun s => P s ∧ Silent s) (EA.nextGen ops) := by
  rintro s ⟨hs, hsil⟩
  rcases h s hs with ⟨t, h1, h2, h3⟩ | ⟨e, k, n, h1, h2, h3⟩
  · left
    refine ⟨t, h1, ⟨h2, ?_⟩, h3⟩
    unfold Silent
    rw [((nextGen_counts ops).ok s t h1).1]
    exact hsil
  · right
    exact ⟨e, k, n, h1, h2, h3, hsil⟩

theorem nsgaSelect_planar {m : Nat} {X O : Type} (ty : SelType) (sort : List (Vec m) → List (List Nat)) (solve : List (Vec m) → Option (Vec m)) (rnd : Nat → NicheRand)
    (ns : Option Nat) (clk : Nat) (v v' : RV m) (t : Nsga m) (p : Pop X O (Vec m) (List ℝ) (Vec m)) (h1 : Planar v) (h2 : Planar v') (h3 : v'.planar = v.planar) :
    (nsgaSelect ty sort solve rnd ns clk v' t p).1 = (nsgaSelect ty sort solve rnd ns clk v t p).1 ∧
      (nsgaSelect ty sort solve rnd ns clk v' t p).2.2 = (nsgaSelect ty sort solve rnd ns clk v t p).2.2 ∧
      (nsgaSelect ty sort solve rnd ns clk v' t p).2.1.planar = (nsgaSelect ty sort solve rnd ns clk v t p).2.1.planar ∧
      Planar (nsgaSelect ty sort solve rnd ns clk v' t p).2.1 ∧ Planar (nsgaSelect ty sort solve rnd ns clk v t p).2.1 := by
  unfold nsgaSelect
  rw [h3]
  cases calcFitness ty p.fitness p.uncertainity with
  | error e => exact ⟨rfl, rfl, h3, h2, h1⟩
  | ok fit =>
    dsimp only
    generalize nsgaDo sort solve (rnd clk) v.planar ns t fit = z
    obtain ⟨z, t2⟩ := z
    cases z with
    | error e => exact ⟨rfl, rfl, h3, h2, h1⟩
    | ok sel => exact ⟨rfl, rfl, h3, h2, h1⟩

/-! ## Iterations of one generation -/

/-- What `iterate()` does before its generations. -/
def opened (ops : Ops X O F C U V S Q R) (s : EA X O F C U V S Q) : EA X O F C U V S Q := { s.preIteration ops with genIter := 0 }

theorem dictSet_twice {α : Type} (d : List (Nat × α)) (k : Nat) (v : α) : dictSet (dictSet d k v) k v = dictSet d k v := by
  have h1 : (dictSet d k v).any (fun p => p.1 == k) = true := by
    unfold dictSet
    split
    · rename_i h
      obtain ⟨p, hp, hk⟩ := List.any_eq_true.1 h
      refine List.any_eq_true.2 ⟨(k, v), List.mem_map.2 ⟨p, hp, ?_⟩, by simp⟩
      rw [if_pos (by simpa using hk)]
    · simp
  have h2 : ∀ p ∈ dictSet d k v, p.1 = k → p = (k, v) := by
    intro p hp hk
    unfold dictSet at hp
    split at hp
    · obtain ⟨q, -, hq⟩ := List.mem_map.1 hp
      split at hq
      · exact hq.symm
      · rename_i hne
        rw [hq] at hne
        exact absurd hk hne
    · rename_i hn
      rcases List.mem_append.1 hp with h | h
      · exact absurd (List.any_eq_true.2 ⟨p, h, by simpa using hk⟩) hn
      · simpa using h
  generalize dictSet d k v = d' at h1 h2
  unfold dictSet
  rw [if_pos h1]
  conv => rhs; rw [← List.map_id d']
  refine List.map_congr_left (fun p hp => ?_)
  split
  · rename_i hk
    exact (h2 p hp hk).symm
  · rfl

theorem opened_silent (ops : Ops X O F C U V S Q R) (had : ∀ v f, ops.adapt (ops.adapt v f) f = ops.adapt v f) (s : EA X O F C U V S Q) (hs : Silent s) :
    opened ops s = { s.record with vec := ops.adapt s.vec s.pop.fitness, genIter := 0 } := by
  have hr : s.record.cfg = s.cfg ∧ s.record.vec = s.vec ∧ s.record.pop = s.pop := by unfold EA.record; split <;> exact ⟨rfl, rfl, rfl⟩
  unfold opened
  simp only [EA.preIteration]
  generalize s.record = t at hr
  obtain ⟨h1, h2, h3⟩ := hr
  rw [← h2, ← h3]
  rw [if_pos (show (!t.cfg.interact) = true by rw [h1, hs.1]; rfl),
    if_pos (show (_ : EA X O F C U V S Q).cfg.location ≠ some .selection by show t.cfg.location ≠ _; rw [h1, hs.2]; simp)]
  dsimp only
  rw [had]

theorem record_again (s : EA X O F C U V S Q) (v : V) (g k e : Nat) :
    ({ s.record with vec := v, genIter := g, clock := k, trueEvals := e } : EA X O F C U V S Q).record =
      { s.record with vec := v, genIter := g, clock := k, trueEvals := e } := by
  unfold EA.record
  by_cases hk : s.cfg.keepArchive = true
  · rw [if_pos hk, if_pos (by exact hk)]
    dsimp only
    rw [dictSet_twice]
  · rw [if_neg hk, if_neg (by exact hk)]

theorem opened_twice (ops : Ops X O F C U V S Q R) (had : ∀ v f, ops.adapt (ops.adapt v f) f = ops.adapt v f) (s : EA X O F C U V S Q) (hs : Silent s) (k e : Nat) :
    opened ops (atMoment k e (opened ops s)) = atMoment k e (opened ops s) := by
  have hr : s.record.cfg = s.cfg ∧ s.record.pop = s.pop := by unfold EA.record; split <;> exact ⟨rfl, rfl⟩
  rw [opened_silent ops had s hs]
  have hs' : Silent (atMoment k e ({ s.record with vec := ops.adapt s.vec s.pop.fitness, genIter := 0 } : EA X O F C U V S Q)) := by
    unfold Silent
    show s.record.cfg.interact = false ∧ s.record.cfg.location = none
    rw [hr.1]; exact hs
  rw [opened_silent ops had _ hs']
  have h1 := record_again s (ops.adapt s.vec s.pop.fitness) 0 k e
  have h2 : (atMoment k e ({ s.record with vec := ops.adapt s.vec s.pop.fitness, genIter := 0 } : EA X O F C U V S Q)) =
      { s.record with vec := ops.adapt s.vec s.pop.fitness, genIter := 0, clock := k, trueEvals := e } := rfl
  rw [h2, h1]
  dsimp only
  rw [hr.2, had]

theorem opened_atMoment (ops : Ops X O F C U V S Q R) (k e : Nat) (s : EA X O F C U V S Q) : opened ops (atMoment k e s) = atMoment k e (opened ops s) := by
  unfold opened
  rw [preIteration_atMoment]
  rfl

/-- `iterate()` of an object without interaction and with one generation per iteration. -/
theorem iterate_one (ops : Ops X O F C U V S Q R) (s : EA X O F C U V S Q) (hs : Silent s) (h1 : s.cfg.nGen = 1) (p : Option (Pref R)) :
    s.iterate ops p =
      (if s.checkFE then
        match EA.nextGen ops (opened ops s) with
        | (.error e, t) => (.error e, t)
        | (.ok _, t) => (.ok none, { t with iter := t.iter + 1 })
      else (.ok none, { opened ops s with iter := s.iter + 1 })) := by
  have hcfg : ∀ n (u : EA X O F C U V S Q), (gens (EA.nextGen ops) n u).1 = .ok () → (gens (EA.nextGen ops) n u).2.cfg = u.cfg :=
    fun n u hu => (gens_cfg (nextGen_counts ops).ticks n u hu).1
  unfold EA.iterate
  rw [iterate_silent (nextGen_counts ops).ticks ops s hs p hcfg, h1]
  show (match gens (EA.nextGen ops) 1 (opened ops s) with
       | (Except.error e, s) => (Except.error e, s)
       | (Except.ok _, s) => (Except.ok none, { s with iter := s.iter + 1 })) = _
  rw [gens_succ]
  obtain ⟨c1, c2⟩ : (opened ops s).checkFE = s.checkFE ∧ (opened ops s).iter = s.iter := by
    have hr : s.record.cfg = s.cfg ∧ s.record.fe = s.fe ∧ s.record.iter = s.iter := by unfold EA.record; split <;> exact ⟨rfl, rfl, rfl⟩
    have ho : (opened ops s).cfg = s.cfg ∧ (opened ops s).fe = s.fe ∧ (opened ops s).iter = s.iter := by
      unfold opened
      simp only [EA.preIteration]
      split <;> split <;> exact hr
    unfold EA.checkFE
    rw [ho.1, ho.2.1]
    exact ⟨rfl, ho.2.2⟩
  rw [c1]
  cases s.checkFE with
  | false => simp only [Bool.false_eq_true, if_false]; rw [c2]
  | true =>
    simp only [if_true]
    generalize EA.nextGen ops (opened ops s) = z
    obtain ⟨z, t⟩ := z
    cases z <;> rfl

/-- One generation per iteration: the object `a`, with its failed attempts, against `b`, without: before the next generation they are the same. -/
def Twin (ops : Ops X O F C U V S Q R) (a b : EA X O F C U V S Q) : Prop := opened ops a = atMoment a.clock a.trueEvals (opened ops b)

theorem opened_frame (ops : Ops X O F C U V S Q R) (s : EA X O F C U V S Q) :
    (opened ops s).cfg = s.cfg ∧ (opened ops s).fe = s.fe ∧ (opened ops s).iter = s.iter ∧ (opened ops s).clock = s.clock ∧ (opened ops s).trueEvals = s.trueEvals := by
  have hr : s.record.cfg = s.cfg ∧ s.record.fe = s.fe ∧ s.record.iter = s.iter ∧ s.record.clock = s.clock ∧ s.record.trueEvals = s.trueEvals := by
    unfold EA.record; split <;> exact ⟨rfl, rfl, rfl, rfl, rfl⟩
  unfold opened
  simp only [EA.preIteration]
  split <;> split <;> exact hr

theorem Twin.same {ops : Ops X O F C U V S Q R} {a b : EA X O F C U V S Q} (h : Twin ops a b) : a.cfg = b.cfg ∧ a.fe = b.fe ∧ a.iter = b.iter := by
  obtain ⟨a1, a2, a3, -, -⟩ := opened_frame ops a
  obtain ⟨b1, b2, b3, -, -⟩ := opened_frame ops b
  unfold Twin at h
  refine ⟨?_, ?_, ?_⟩
  · rw [← a1, ← b1]; have w := congrArg EA.cfg h; exact w
  · rw [← a2, ← b2]; have w := congrArg EA.fe h; exact w
  · rw [← a3, ← b3]; have w := congrArg EA.iter h; exact w

/-- One call of `iterate()`. -/
theorem iterate_twin {P : EA X O F C U V S Q → Prop} (ops : Ops X O F C U V S Q R) (hb : Careful P (EA.nextGen ops))
    (had : ∀ v f, ops.adapt (ops.adapt v f) f = ops.adapt v f) (hop : ∀ s, P s → P (opened ops s)) (hit : ∀ s, P s → P ({ s with iter := s.iter + 1 } : EA X O F C U V S Q))
    (hone : ∀ s, P s → Silent s ∧ s.cfg.nGen = 1) (a b : EA X O F C U V S Q) (ha : P a) (h : Twin ops a b) (p : Option (Pref R)) :
    (∃ e a', a.iterate ops p = (.error e, a') ∧ P a' ∧ Twin ops a' b ∧ a.clock ≤ a'.clock ∧ a'.iter = a.iter) ∨
    (∃ a' b', a.iterate ops p = (.ok none, a') ∧ P a' ∧ a' = atMoment a'.clock a'.trueEvals b' ∧ a'.iter = a.iter + 1 ∧
      ((a'.clock = a.clock ∧ b'.clock = b.clock ∧ ∀ f q, b.iterate (renumber f ops) q = (.ok none, b')) ∨
       (a'.clock = a.clock + 3 ∧ b'.clock = b.clock + 3 ∧
        ∀ f q, (∀ j, j < 3 → f (b.clock + j) = a.clock + j) → b.iterate (renumber f ops) q = (.ok none, b')))) := by
  obtain ⟨hs, h1⟩ := hone a ha
  obtain ⟨e1, e2, e3⟩ := h.same
  obtain ⟨o1, o2, o3, o4, o5⟩ := opened_frame ops a
  obtain ⟨q1, q2, q3, q4, q5⟩ := opened_frame ops b
  have hsb : Silent b := by unfold Silent; rw [← e1]; exact hs
  have h1b : b.cfg.nGen = 1 := by rw [← e1]; exact h1
  have hfe : b.checkFE = a.checkFE := by unfold EA.checkFE; rw [e1, e2]
  have hop' : ∀ f, opened (renumber f ops) b = opened ops b := fun f => rfl
  have hob : opened ops b = atMoment b.clock b.trueEvals (opened ops a) := by
    unfold Twin at h
    rw [h]
    show opened ops b = atMoment b.clock b.trueEvals (opened ops b)
    generalize opened ops b = c at q4 q5
    rw [← q4, ← q5]
    rfl
  rw [iterate_one ops a hs h1 p]
  cases hc : a.checkFE with
  | false =>
    right
    simp only [Bool.false_eq_true, if_false]
    refine ⟨_, { opened ops b with iter := b.iter + 1 }, rfl, ?_, ?_, rfl, .inl ⟨o4, q4, ?_⟩⟩
    · have := hit _ (hop a ha)
      rw [o3] at this
      exact this
    · rw [hob, ← e3]
      show _ = ({ atMoment (opened ops a).clock (opened ops a).trueEvals (opened ops a) with iter := a.iter + 1 } : EA X O F C U V S Q)
      rfl
    · intro f q
      rw [iterate_one (renumber f ops) b hsb h1b q, hfe, hc, hop']
      rfl
  | true =>
    simp only [if_true]
    rcases hb (opened ops a) (hop a ha) with ⟨t, g1, g2, g3⟩ | ⟨e, k, n, g1, g2, g3⟩
    · right
      rw [g1]
      have hck := nextGen_clock ops _ t g1
      rw [o4] at hck
      have hti : t.iter = a.iter := (((nextGen_counts ops).ok _ t g1).2.1).trans o3
      obtain ⟨n', hn'⟩ : ∃ n', ∀ f, (∀ j, j < 3 → f (b.clock + j) = a.clock + j) →
          EA.nextGen (renumber f ops) (opened ops b) = (.ok (), atMoment (b.clock + 3) n' t) := by
        have step : ∀ f, (∀ j, j < 3 → f (b.clock + j) = a.clock + j) →
            ∃ n', EA.nextGen (renumber f ops) (opened ops b) = (.ok (), atMoment (b.clock + 3) n' t) := by
          intro f hf
          rw [hob]
          exact nextGen_renumber f ops (opened ops a) t b.clock b.trueEvals (by rw [o4]; exact hf 0 (by omega)) (by rw [o4]; exact hf 1 (by omega))
            (by rw [o4]; exact hf 2 (by omega)) g1
        obtain ⟨n', h'⟩ := step (fun i => a.clock + (i - b.clock)) (fun j _ => by omega)
        refine ⟨n', fun f hf => ?_⟩
        rw [nextGen_forward f (fun i => a.clock + (i - b.clock)) ops (opened ops b) (fun j hj => by rw [q4, hf j hj]; omega)]
        exact h'
      refine ⟨_, { atMoment (b.clock + 3) n' t with iter := t.iter + 1 }, rfl, hit t g2, ?_, ?_, .inr ⟨hck, rfl, ?_⟩⟩
      · rfl
      · show t.iter + 1 = _
        rw [hti]
      · intro f q hf
        rw [iterate_one (renumber f ops) b hsb h1b q, hfe, hc, hop', hn' f hf]
        rfl
    · left
      rw [g1]
      refine ⟨e, _, rfl, g3, ?_, ?_, o3⟩
      · unfold Twin at h ⊢
        rw [opened_twice ops had a hs k n, h]
        rfl
      · rw [o4] at g2
        exact g2

/-- Any number of calls. -/
theorem calls_twin {P : EA X O F C U V S Q → Prop} (ops : Ops X O F C U V S Q R) (hb : Careful P (EA.nextGen ops))
    (had : ∀ v f, ops.adapt (ops.adapt v f) f = ops.adapt v f) (hop : ∀ s, P s → P (opened ops s)) (hit : ∀ s, P s → P ({ s with iter := s.iter + 1 } : EA X O F C U V S Q))
    (hone : ∀ s, P s → Silent s ∧ s.cfg.nGen = 1) (ps : List (Option (Pref R))) : ∀ a b : EA X O F C U V S Q, P a → Twin ops a b →
    ∃ (f : Nat → Nat) (bs : Nat → EA X O F C U V S Q), (∀ i j, b.clock ≤ i → i < j → f i < f j) ∧ (∀ i, b.clock ≤ i → a.clock ≤ f i) ∧
      a.iter ≤ (a.calls ops (ps.map .iterate)).iter ∧ bs 0 = b ∧
      (∀ k, k < (a.calls ops (ps.map .iterate)).iter - a.iter → ∀ g : Nat → Nat, (∀ i, b.clock ≤ i → g i = f i) →
        (bs k).iterate (renumber g ops) none = (.ok none, bs (k + 1))) ∧
      Twin ops (a.calls ops (ps.map .iterate)) (bs ((a.calls ops (ps.map .iterate)).iter - a.iter)) ∧
      (∀ qs q o t, ps = qs ++ [q] → (a.calls ops (qs.map .iterate)).iterate ops q = (.ok o, t) →
        a.calls ops (ps.map .iterate) = atMoment (a.calls ops (ps.map .iterate)).clock (a.calls ops (ps.map .iterate)).trueEvals
          (bs ((a.calls ops (ps.map .iterate)).iter - a.iter))) := by
  induction ps with
  | nil =>
    intro a b ha h
    refine ⟨fun i => a.clock + (i - b.clock), fun _ => b, fun i j hi hj => by dsimp only; omega, fun i hi => by dsimp only; omega, Nat.le_refl _, rfl, ?_, h, ?_⟩
    · intro k hk
      simp [EA.calls] at hk
    · intro qs q o t e
      simp at e
  | cons p ps ih =>
    intro a b ha h
    have hcons : a.calls ops ((p :: ps).map .iterate) = (a.iterate ops p).2.calls ops (ps.map .iterate) := rfl
    rw [hcons]
    rcases iterate_twin ops hb had hop hit hone a b ha h p with ⟨e, a', g1, g2, g3, g4, g5⟩ | ⟨a', b', g1, g2, g3, g4, g5⟩
    · rw [g1]
      dsimp only
      obtain ⟨f, bs, f1, f2, f3, f4, f5, f6, f7⟩ := ih a' b g2 g3
      rw [g5] at f3 f5 f6 f7
      refine ⟨f, bs, f1, fun i hi => Nat.le_trans g4 (f2 i hi), f3, f4, f5, f6, ?_⟩
      intro qs q o t e he
      cases qs with
      | nil =>
        simp only [List.nil_append, List.cons.injEq] at e
        obtain ⟨rfl, rfl⟩ := e
        have : (a.calls ops (([] : List (Option (Pref R))).map .iterate)).iterate ops p = a.iterate ops p := rfl
        rw [this, g1] at he
        simp at he
      | cons q0 qs =>
        simp only [List.cons_append, List.cons.injEq] at e
        obtain ⟨rfl, rfl⟩ := e
        have : a.calls ops ((p :: qs).map .iterate) = a'.calls ops (qs.map .iterate) := by
          show (a.iterate ops p).2.calls ops _ = _
          rw [g1]
        rw [this] at he
        exact f7 qs q o t rfl he
    · have hT : Twin ops a' b' := by
        unfold Twin
        rw [g3]
        show opened ops (atMoment a'.clock a'.trueEvals b') = _
        rw [opened_atMoment]
        rfl
      rw [g1]
      dsimp only
      obtain ⟨f, bs, f1, f2, f3, f4, f5, f6, f7⟩ := ih a' b' g2 hT
      have hle : a.iter ≤ (a'.calls ops (ps.map .iterate)).iter := by omega
      have hlen : (a'.calls ops (ps.map .iterate)).iter - a.iter = ((a'.calls ops (ps.map .iterate)).iter - a'.iter) + 1 := by omega
      -- the last one
      have hlast : ∀ qs q o t, p :: ps = qs ++ [q] → (a.calls ops (qs.map .iterate)).iterate ops q = (.ok o, t) →
          a'.calls ops (ps.map .iterate) = atMoment (a'.calls ops (ps.map .iterate)).clock (a'.calls ops (ps.map .iterate)).trueEvals
            (bs ((a'.calls ops (ps.map .iterate)).iter - a'.iter)) := by
        intro qs q o t e he
        cases qs with
        | nil =>
          simp only [List.nil_append, List.cons.injEq] at e
          obtain ⟨rfl, rfl⟩ := e
          show a' = atMoment a'.clock a'.trueEvals (bs (a'.iter - a'.iter))
          rw [Nat.sub_self, f4]
          exact g3
        | cons q0 qs =>
          simp only [List.cons_append, List.cons.injEq] at e
          obtain ⟨rfl, rfl⟩ := e
          have : a.calls ops ((p :: qs).map .iterate) = a'.calls ops (qs.map .iterate) := by
            show (a.iterate ops p).2.calls ops _ = _
            rw [g1]
          rw [this] at he
          exact f7 qs q o t rfl he
      obtain ⟨BS, hBS⟩ : ∃ BS : Nat → EA X O F C U V S Q, BS = fun k => match k with | 0 => b | k + 1 => bs k := ⟨_, rfl⟩
      have hB0 : BS 0 = b := by rw [hBS]
      have hB1 : ∀ k, BS (k + 1) = bs k := by intro k; rw [hBS]
      rcases g5 with ⟨c1, c2, c3⟩ | ⟨c1, c2, c3⟩
      · refine ⟨f, BS, ?_, ?_, hle, hB0, ?_, ?_, ?_⟩
        · rw [← c2]; exact f1
        · rw [← c2, ← c1]; exact f2
        · intro k hk
          cases k with
          | zero => intro g _; rw [hB0, hB1, f4]; exact c3 g none
          | succ k => intro g hg; rw [hB1, hB1]; exact f5 k (by omega) g (by rw [c2]; exact hg)
        · rw [hlen, hB1]; exact f6
        · rw [hlen, hB1]; exact hlast
      · obtain ⟨G, hG⟩ : ∃ G : Nat → Nat, G = fun i => if i < b.clock + 3 then a.clock + (i - b.clock) else f i := ⟨_, rfl⟩
        have hlo : ∀ i, i < b.clock + 3 → G i = a.clock + (i - b.clock) := fun i hi => by rw [hG]; dsimp only; rw [if_pos hi]
        have hhi : ∀ i, b.clock + 3 ≤ i → G i = f i := fun i hi => by rw [hG]; dsimp only; rw [if_neg (by omega)]
        rw [c2] at f1 f2
        rw [c1] at f2
        refine ⟨G, BS, ?_, ?_, hle, hB0, ?_, ?_, ?_⟩
        · intro i j hi hj
          rcases Nat.lt_or_ge i (b.clock + 3) with h1 | h1 <;> rcases Nat.lt_or_ge j (b.clock + 3) with h2 | h2
          · rw [hlo i h1, hlo j h2]; omega
          · rw [hlo i h1, hhi j h2]
            have := f2 j h2
            omega
          · omega
          · rw [hhi i h1, hhi j h2]; exact f1 i j h1 hj
        · intro i hi
          rcases Nat.lt_or_ge i (b.clock + 3) with h1 | h1
          · rw [hlo i h1]; omega
          · rw [hhi i h1]
            have := f2 i h1
            omega
        · intro k hk
          cases k with
          | zero =>
            intro g hg
            rw [hB0, hB1, f4]
            exact c3 g none (fun j hj => by rw [hg _ (by omega), hlo _ (by omega)]; omega)
          | succ k =>
            intro g hg
            rw [hB1, hB1]
            exact f5 k (by omega) g (fun i hi => by rw [hg i (by omega), hhi i (by omega)])
        · rw [hlen, hB1]; exact f6
        · rw [hlen, hB1]; exact hlast

theorem opened_work (ops : Ops X O F C U V S Q R) (s : EA X O F C U V S Q) :
    (opened ops s).pop = s.pop ∧ (opened ops s).sel = s.sel ∧ (opened ops s).gen = s.gen ∧ (opened ops s).fe = s.fe ∧ (opened ops s).nd = s.nd ∧
      (opened ops s).log = s.log := by
  have hr : s.record.pop = s.pop ∧ s.record.sel = s.sel ∧ s.record.gen = s.gen ∧ s.record.fe = s.fe ∧ s.record.nd = s.nd ∧ s.record.log = s.log := by
    unfold EA.record; split <;> exact ⟨rfl, rfl, rfl, rfl, rfl, rfl⟩
  unfold opened
  simp only [EA.preIteration]
  split <;> split <;> exact hr

theorem Careful.and_one {P : EA X O F C U V S Q → Prop} {ops : Ops X O F C U V S Q R} (h : Careful P (EA.nextGen ops)) :
    Careful (fun s => P s ∧ s.cfg.nGen = 1) (EA.nextGen ops) := by
  rintro s ⟨hs, hone⟩
  rcases h s hs with ⟨t, h1, h2, h3⟩ | ⟨e, k, n, h1, h2, h3⟩
  · left
    refine ⟨t, h1, ⟨h2, ?_⟩, h3⟩
    rw [((nextGen_counts ops).ok s t h1).1]
    exact hone
  · right
    exact ⟨e, k, n, h1, h2, h3, hone⟩

theorem twin_refl (ops : Ops X O F C U V S Q R) (a : EA X O F C U V S Q) : Twin ops a a := by
  obtain ⟨-, -, -, q4, q5⟩ := opened_frame ops a
  unfold Twin
  rw [← q4, ← q5]
  rfl

/-! ## The theorems -/

section theorems
variable {n m : Nat} {O Q R : Type}

/-- **C107 (a)**, NSGA-III: a generation that raises raises what the evaluation of its offspring raised, and leaves the object as it was, but for
the time that has passed and the vectors given to the evaluation: after any history of calls, interactive or not.  (With
`save_non_dominated` after a `start()` that returned.)  The generation can be tried again: as soon as evaluation works it returns. -/
theorem c107_nsga_generation (hm : 2 ≤ m) (r : Nat) (hr : 1 ≤ r) (v0 : RV m) (hv0 : RV.create m r = .ok v0)
    (ops : Ops (Row n) O (Vec m) (List ℝ) (Vec m) (RV m) (Nsga m) Q R) (lo hi : Fin n → ℝ) (draw : Nat → MateDraw n)
    (toCall : Nat → Kind → Pop (Row n) O (Vec m) (List ℝ) (Vec m) → R → Except Err (VecCall m))
    (hd : Decomposition ops lo hi draw toCall) (ty : SelType) (ps lr : Option Nat)
    (sort : List (Vec m) → List (List Nat)) (hsort : ∀ fit, IsFrontSort (IndDominates fit) fit.length (sort fit))
    (solve : List (Vec m) → Option (Vec m)) (rnd : Nat → NicheRand) (hsh : ∀ c t l, ((rnd c).shuffle t l).Perm l)
    (hsel : ops.select = nsgaSelect ty sort solve rnd (nSurviveAttr none (choosePopSize m ps lr)))
    (nc : Nat) (unc : Bool) (hty : TypeOK ty unc) (hp : ProblemOK ops nc unc)
    (unit : Nat → Nat → List (Fin n → ℝ)) (hu : ∀ c k, (unit c k).length = k) (prob0 : Q) (sel0 : Nat → (Nsga m))
    (interact useSurr keepArchive saveND : Bool) (nIter nGen total : Nat) (pty : ProblemType) (hpty : pty ≠ .iopis)
    (hpos : 1 ≤ choosePopSize m ps lr) (s : EA (Row n) O (Vec m) (List ℝ) (Vec m) (RV m) (Nsga m) Q)
    (hs : construct ops (boxDesign lo hi unit) (fun _ => v0) sel0 prob0 interact useSurr keepArchive saveND nIter nGen total
      (some (pty, m, nc)) none ps lr = .ok s)
    (cs : List (Call R)) (hnd : saveND = true → (s.calls ops cs).nd ≠ none)
    (e : Err) (t : EA (Row n) O (Vec m) (List ℝ) (Vec m) (RV m) (Nsga m) Q) (h : EA.nextGen ops (s.calls ops cs) = (.error e, t)) :
    (∃ off, ops.mate (s.calls ops cs).clock (s.calls ops cs).pop = .ok off ∧
      ops.evaluate ((s.calls ops cs).clock + 1) useSurr off = .error e ∧
      OnlyTimePassed (if useSurr then 0 else off.rows.length) (s.calls ops cs) t) ∧
    ((∀ clk off, t.clock ≤ clk → ∃ res, ops.evaluate clk useSurr off = .ok res) → ∃ t', EA.nextGen ops t = (.ok (), t')) := by
  have hb : ∀ b, boxDesign lo hi unit 0 (choosePopSize m ps lr) = .ok b →
      b.ndim = 2 ∧ b.rows.length = choosePopSize m ps lr := by
    intro b hb
    simp only [boxDesign, Except.ok.injEq] at hb
    subst hb
    exact ⟨rfl, by simp [scaleDesign, hu]⟩
  obtain ⟨h0, -, c1, c2, c3, -⟩ := construct_alive (d := 2) (need := choosePopSize m ps lr) (Vok := VecOK) ops hp
    (boxDesign lo hi unit) (fun _ => v0) sel0 prob0 interact
    useSurr keepArchive saveND nIter nGen total pty m ps lr s hpty hs hb hpos (Nat.le_refl _) (create_sizes hm r hr v0 hv0).1
  have hsc := nsga_selectContract (n := n) (O := O) (Q := Q) (R := R) nc unc (choosePopSize m ps lr) hpos hty hsort hsh hsel VecOK
    (fun v hv => hv.2.2)
  have hvc := vecContract (interact = true) hm hd
  have h1 := Alive.calls ops hsc (mateContract hd) hp hvc cs s h0
  have hcfg : (s.calls ops cs).cfg = s.cfg := (calls_cfg ops cs s).1
  have hk : KeptND (s.calls ops cs).nd := by
    rw [calls_eq_callsWith]
    exact calls_keptND ops (evalContract_rows hp) cs s (.inl (construct_nd ops _ _ sel0 prob0 _ _ _ _ _ _ _ _ _ _ _ s hs))
  have hready := readyToGo_of h1 hk (by rw [hcfg, c2]; exact hnd)
  have hsu : (s.calls ops cs).cfg.useSurr = useSurr := by rw [hcfg]; exact construct_useSurr ops _ _ sel0 prob0 _ _ _ _ _ _ _ _ _ _ _ s hs
  have := generation_raises ops hsc (mateContract hd) hp (s.calls ops cs) t hready e h
  rw [hsu] at this
  exact this

/-- **C107 (a)**, RVEA: a generation that raises raises what the evaluation of its offspring raised, and leaves the object as it was, but for
the time that has passed and the vectors given to the evaluation: after any history of calls, interactive or not.  (With
`save_non_dominated` after a `start()` that returned.)  The generation can be tried again: as soon as evaluation works it returns. -/
theorem c107_rvea_generation (hm : 2 ≤ m) (r : Nat) (hr : 1 ≤ r) (v0 : RV m) (hv0 : RV.create m r = .ok v0)
    (ops : Ops (Row n) O (Vec m) (List ℝ) (Vec m) (RV m) (Vec m) Q R) (lo hi : Fin n → ℝ) (draw : Nat → MateDraw n)
    (toCall : Nat → Kind → Pop (Row n) O (Vec m) (List ℝ) (Vec m) → R → Except Err (VecCall m))
    (hd : Decomposition ops lo hi draw toCall) (ty : SelType) (ps lr : Option Nat)
    (pen : Nat → ℝ) (popIdeal : Nat → Vec m) (hsel : ops.select = rveaSelect ty pen popIdeal)
    (nc : Nat) (unc : Bool) (hty : TypeOK ty unc) (hp : ProblemOK ops nc unc)
    (unit : Nat → Nat → List (Fin n → ℝ)) (hu : ∀ c k, (unit c k).length = k) (prob0 : Q) (sel0 : Nat → (Vec m))
    (interact useSurr keepArchive saveND : Bool) (nIter nGen total : Nat) (pty : ProblemType) (hpty : pty ≠ .iopis)
    (hpos : 1 ≤ choosePopSize m ps lr) (s : EA (Row n) O (Vec m) (List ℝ) (Vec m) (RV m) (Vec m) Q)
    (hs : construct ops (boxDesign lo hi unit) (fun _ => v0) sel0 prob0 interact useSurr keepArchive saveND nIter nGen total
      (some (pty, m, nc)) none ps lr = .ok s)
    (cs : List (Call R)) (hnd : saveND = true → (s.calls ops cs).nd ≠ none)
    (e : Err) (t : EA (Row n) O (Vec m) (List ℝ) (Vec m) (RV m) (Vec m) Q) (h : EA.nextGen ops (s.calls ops cs) = (.error e, t)) :
    (∃ off, ops.mate (s.calls ops cs).clock (s.calls ops cs).pop = .ok off ∧
      ops.evaluate ((s.calls ops cs).clock + 1) useSurr off = .error e ∧
      OnlyTimePassed (if useSurr then 0 else off.rows.length) (s.calls ops cs) t) ∧
    ((∀ clk off, t.clock ≤ clk → ∃ res, ops.evaluate clk useSurr off = .ok res) → ∃ t', EA.nextGen ops t = (.ok (), t')) := by
  have hb : ∀ b, boxDesign lo hi unit 0 (choosePopSize m ps lr) = .ok b →
      b.ndim = 2 ∧ b.rows.length = choosePopSize m ps lr := by
    intro b hb
    simp only [boxDesign, Except.ok.injEq] at hb
    subst hb
    exact ⟨rfl, by simp [scaleDesign, hu]⟩
  obtain ⟨h0, -, c1, c2, c3, -⟩ := construct_alive (d := 2) (need := 1) (Vok := VecOK) ops hp
    (boxDesign lo hi unit) (fun _ => v0) sel0 prob0 interact
    useSurr keepArchive saveND nIter nGen total pty m ps lr s hpty hs hb hpos hpos (create_sizes hm r hr v0 hv0).1
  have hsc := rvea_selectContract (n := n) (O := O) (Q := Q) (R := R) nc unc hty hsel VecOK (fun v hv => hv.1)
  have hvc := vecContract (interact = true) hm hd
  have h1 := Alive.calls ops hsc (mateContract hd) hp hvc cs s h0
  have hcfg : (s.calls ops cs).cfg = s.cfg := (calls_cfg ops cs s).1
  have hk : KeptND (s.calls ops cs).nd := by
    rw [calls_eq_callsWith]
    exact calls_keptND ops (evalContract_rows hp) cs s (.inl (construct_nd ops _ _ sel0 prob0 _ _ _ _ _ _ _ _ _ _ _ s hs))
  have hready := readyToGo_of h1 hk (by rw [hcfg, c2]; exact hnd)
  have hsu : (s.calls ops cs).cfg.useSurr = useSurr := by rw [hcfg]; exact construct_useSurr ops _ _ sel0 prob0 _ _ _ _ _ _ _ _ _ _ _ s hs
  have := generation_raises ops hsc (mateContract hd) hp (s.calls ops cs) t hready e h
  rw [hsu] at this
  exact this

/-- **C107 (b)**, NSGA-III without interaction: an `iterate()` that raises leaves the object as an `iterate()` of fewer generations, those that were
completed, would have left it, except that the iteration is not counted. -/
theorem c107_nsga_iterate (hm : 2 ≤ m) (r : Nat) (hr : 1 ≤ r) (v0 : RV m) (hv0 : RV.create m r = .ok v0)
    (ops : Ops (Row n) O (Vec m) (List ℝ) (Vec m) (RV m) (Nsga m) Q R) (lo hi : Fin n → ℝ) (draw : Nat → MateDraw n)
    (toCall : Nat → Kind → Pop (Row n) O (Vec m) (List ℝ) (Vec m) → R → Except Err (VecCall m))
    (hd : Decomposition ops lo hi draw toCall) (ty : SelType) (ps lr : Option Nat)
    (sort : List (Vec m) → List (List Nat)) (hsort : ∀ fit, IsFrontSort (IndDominates fit) fit.length (sort fit))
    (solve : List (Vec m) → Option (Vec m)) (rnd : Nat → NicheRand) (hsh : ∀ c t l, ((rnd c).shuffle t l).Perm l)
    (hsel : ops.select = nsgaSelect ty sort solve rnd (nSurviveAttr none (choosePopSize m ps lr)))
    (nc : Nat) (unc : Bool) (hty : TypeOK ty unc) (hp : ProblemOK ops nc unc)
    (unit : Nat → Nat → List (Fin n → ℝ)) (hu : ∀ c k, (unit c k).length = k) (prob0 : Q) (sel0 : Nat → (Nsga m))
    (useSurr keepArchive saveND : Bool) (nIter nGen total : Nat) (pty : ProblemType) (hpty : pty ≠ .iopis)
    (hpos : 1 ≤ choosePopSize m ps lr) (s : EA (Row n) O (Vec m) (List ℝ) (Vec m) (RV m) (Nsga m) Q)
    (hs : construct ops (boxDesign lo hi unit) (fun _ => v0) sel0 prob0 false useSurr keepArchive saveND nIter nGen total
      (some (pty, m, nc)) none ps lr = .ok s)
    (cs : List (Call R)) (hnd : saveND = true → (s.calls ops cs).nd ≠ none)
    (pref : Option (Pref R)) (e : Err) (t : EA (Row n) O (Vec m) (List ℝ) (Vec m) (RV m) (Nsga m) Q) (h : (s.calls ops cs).iterate ops pref = (.error e, t)) :
    ∃ k t' off, k < (s.calls ops cs).cfg.nGen ∧
      ({ s.calls ops cs with cfg := { (s.calls ops cs).cfg with nGen := k } } : EA (Row n) O (Vec m) (List ℝ) (Vec m) (RV m) (Nsga m) Q).iterate ops pref = (.ok none, t') ∧
      SameButIteration t' t ∧ t'.iter = (s.calls ops cs).iter + 1 ∧ t.iter = (s.calls ops cs).iter ∧ t.cfg = (s.calls ops cs).cfg ∧
      ops.evaluate (t'.clock + 1) useSurr off = .error e ∧ t.trueEvals = t'.trueEvals + (if useSurr then 0 else off.rows.length) := by
  have hb : ∀ b, boxDesign lo hi unit 0 (choosePopSize m ps lr) = .ok b →
      b.ndim = 2 ∧ b.rows.length = choosePopSize m ps lr := by
    intro b hb
    simp only [boxDesign, Except.ok.injEq] at hb
    subst hb
    exact ⟨rfl, by simp [scaleDesign, hu]⟩
  obtain ⟨h0, -, c1, c2, c3, -⟩ := construct_alive (d := 2) (need := choosePopSize m ps lr) (Vok := VecOK) ops hp
    (boxDesign lo hi unit) (fun _ => v0) sel0 prob0 false
    useSurr keepArchive saveND nIter nGen total pty m ps lr s hpty hs hb hpos (Nat.le_refl _) (create_sizes hm r hr v0 hv0).1
  have hsc := nsga_selectContract (n := n) (O := O) (Q := Q) (R := R) nc unc (choosePopSize m ps lr) hpos hty hsort hsh hsel VecOK
    (fun v hv => hv.2.2)
  have hvc := vecContract (false = true) hm hd
  have h1 := Alive.calls ops hsc (mateContract hd) hp hvc cs s h0
  have hcfg : (s.calls ops cs).cfg = s.cfg := (calls_cfg ops cs s).1
  have hk : KeptND (s.calls ops cs).nd := by
    rw [calls_eq_callsWith]
    exact calls_keptND ops (evalContract_rows hp) cs s (.inl (construct_nd ops _ _ sel0 prob0 _ _ _ _ _ _ _ _ _ _ _ s hs))
  have hready := readyToGo_of h1 hk (by rw [hcfg, c2]; exact hnd)
  have hsu : (s.calls ops cs).cfg.useSurr = useSurr := by rw [hcfg]; exact construct_useSurr ops _ _ sel0 prob0 _ _ _ _ _ _ _ _ _ _ _ s hs
  obtain ⟨k, t', off, a1, a2, a3, a4, a5, a6, -, -, a7, -, a8⟩ := iteration_raises ops hsc (mateContract hd) hp hvc (s.calls ops cs) t hready
    ⟨by rw [hcfg]; exact c1, by rw [hcfg]; exact c3 rfl⟩ e pref h
  rw [hsu] at a7 a8
  exact ⟨k, t', off, a1, a2, a3, a4, a5, a6, a7, a8⟩

/-- **C107 (b)**, RVEA without interaction: an `iterate()` that raises leaves the object as an `iterate()` of fewer generations, those that were
completed, would have left it, except that the iteration is not counted. -/
theorem c107_rvea_iterate (hm : 2 ≤ m) (r : Nat) (hr : 1 ≤ r) (v0 : RV m) (hv0 : RV.create m r = .ok v0)
    (ops : Ops (Row n) O (Vec m) (List ℝ) (Vec m) (RV m) (Vec m) Q R) (lo hi : Fin n → ℝ) (draw : Nat → MateDraw n)
    (toCall : Nat → Kind → Pop (Row n) O (Vec m) (List ℝ) (Vec m) → R → Except Err (VecCall m))
    (hd : Decomposition ops lo hi draw toCall) (ty : SelType) (ps lr : Option Nat)
    (pen : Nat → ℝ) (popIdeal : Nat → Vec m) (hsel : ops.select = rveaSelect ty pen popIdeal)
    (nc : Nat) (unc : Bool) (hty : TypeOK ty unc) (hp : ProblemOK ops nc unc)
    (unit : Nat → Nat → List (Fin n → ℝ)) (hu : ∀ c k, (unit c k).length = k) (prob0 : Q) (sel0 : Nat → (Vec m))
    (useSurr keepArchive saveND : Bool) (nIter nGen total : Nat) (pty : ProblemType) (hpty : pty ≠ .iopis)
    (hpos : 1 ≤ choosePopSize m ps lr) (s : EA (Row n) O (Vec m) (List ℝ) (Vec m) (RV m) (Vec m) Q)
    (hs : construct ops (boxDesign lo hi unit) (fun _ => v0) sel0 prob0 false useSurr keepArchive saveND nIter nGen total
      (some (pty, m, nc)) none ps lr = .ok s)
    (cs : List (Call R)) (hnd : saveND = true → (s.calls ops cs).nd ≠ none)
    (pref : Option (Pref R)) (e : Err) (t : EA (Row n) O (Vec m) (List ℝ) (Vec m) (RV m) (Vec m) Q) (h : (s.calls ops cs).iterate ops pref = (.error e, t)) :
    ∃ k t' off, k < (s.calls ops cs).cfg.nGen ∧
      ({ s.calls ops cs with cfg := { (s.calls ops cs).cfg with nGen := k } } : EA (Row n) O (Vec m) (List ℝ) (Vec m) (RV m) (Vec m) Q).iterate ops pref = (.ok none, t') ∧
      SameButIteration t' t ∧ t'.iter = (s.calls ops cs).iter + 1 ∧ t.iter = (s.calls ops cs).iter ∧ t.cfg = (s.calls ops cs).cfg ∧
      ops.evaluate (t'.clock + 1) useSurr off = .error e ∧ t.trueEvals = t'.trueEvals + (if useSurr then 0 else off.rows.length) := by
  have hb : ∀ b, boxDesign lo hi unit 0 (choosePopSize m ps lr) = .ok b →
      b.ndim = 2 ∧ b.rows.length = choosePopSize m ps lr := by
    intro b hb
    simp only [boxDesign, Except.ok.injEq] at hb
    subst hb
    exact ⟨rfl, by simp [scaleDesign, hu]⟩
  obtain ⟨h0, -, c1, c2, c3, -⟩ := construct_alive (d := 2) (need := 1) (Vok := VecOK) ops hp
    (boxDesign lo hi unit) (fun _ => v0) sel0 prob0 false
    useSurr keepArchive saveND nIter nGen total pty m ps lr s hpty hs hb hpos hpos (create_sizes hm r hr v0 hv0).1
  have hsc := rvea_selectContract (n := n) (O := O) (Q := Q) (R := R) nc unc hty hsel VecOK (fun v hv => hv.1)
  have hvc := vecContract (false = true) hm hd
  have h1 := Alive.calls ops hsc (mateContract hd) hp hvc cs s h0
  have hcfg : (s.calls ops cs).cfg = s.cfg := (calls_cfg ops cs s).1
  have hk : KeptND (s.calls ops cs).nd := by
    rw [calls_eq_callsWith]
    exact calls_keptND ops (evalContract_rows hp) cs s (.inl (construct_nd ops _ _ sel0 prob0 _ _ _ _ _ _ _ _ _ _ _ s hs))
  have hready := readyToGo_of h1 hk (by rw [hcfg, c2]; exact hnd)
  have hsu : (s.calls ops cs).cfg.useSurr = useSurr := by rw [hcfg]; exact construct_useSurr ops _ _ sel0 prob0 _ _ _ _ _ _ _ _ _ _ _ s hs
  obtain ⟨k, t', off, a1, a2, a3, a4, a5, a6, -, -, a7, -, a8⟩ := iteration_raises ops hsc (mateContract hd) hp hvc (s.calls ops cs) t hready
    ⟨by rw [hcfg]; exact c1, by rw [hcfg]; exact c3 rfl⟩ e pref h
  rw [hsu] at a7 a8
  exact ⟨k, t', off, a1, a2, a3, a4, a5, a6, a7, a8⟩

/-- **C107 (c)**, NSGA-III without interaction: however many evaluations raise, and however often `iterate()` is called again, the run is one that
nothing disturbed.  There is an outside world that gives the answers of this one in the same order, leaving out some (`f`), in which one call of
`iterate()` of an object with the same arguments, for as many generations as were completed, returns with the same population, operator,
counters, saved solutions, evaluated batches and planar vectors. -/
theorem c107_nsga_retry (hm : 2 ≤ m) (r : Nat) (hr : 1 ≤ r) (v0 : RV m) (hv0 : RV.create m r = .ok v0)
    (ops : Ops (Row n) O (Vec m) (List ℝ) (Vec m) (RV m) (Nsga m) Q R) (lo hi : Fin n → ℝ) (draw : Nat → MateDraw n)
    (toCall : Nat → Kind → Pop (Row n) O (Vec m) (List ℝ) (Vec m) → R → Except Err (VecCall m))
    (hd : Decomposition ops lo hi draw toCall) (ty : SelType) (ps lr : Option Nat)
    (sort : List (Vec m) → List (List Nat)) (hsort : ∀ fit, IsFrontSort (IndDominates fit) fit.length (sort fit))
    (solve : List (Vec m) → Option (Vec m)) (rnd : Nat → NicheRand) (hsh : ∀ c t l, ((rnd c).shuffle t l).Perm l)
    (hsel : ops.select = nsgaSelect ty sort solve rnd (nSurviveAttr none (choosePopSize m ps lr)))
    (nc : Nat) (unc : Bool) (hty : TypeOK ty unc) (hp : ProblemOK ops nc unc)
    (unit : Nat → Nat → List (Fin n → ℝ)) (hu : ∀ c k, (unit c k).length = k) (prob0 : Q) (sel0 : Nat → (Nsga m))
    (useSurr keepArchive saveND : Bool) (nIter nGen total : Nat) (pty : ProblemType) (hpty : pty ≠ .iopis)
    (hpos : 1 ≤ choosePopSize m ps lr) (s : EA (Row n) O (Vec m) (List ℝ) (Vec m) (RV m) (Nsga m) Q)
    (hs : construct ops (boxDesign lo hi unit) (fun _ => v0) sel0 prob0 false useSurr keepArchive saveND nIter nGen total
      (some (pty, m, nc)) none ps lr = .ok s)
    (pre : List (Call R)) (hpre : (pre = [] ∧ saveND = false) ∨ (pre = [.start] ∧ ∃ o t0, s.start ops = (.ok o, t0)))
    (prefs : List (Option (Pref R))) :
    ∃ f : Nat → Nat, StrictMono f ∧ ∃ s' t', construct (renumber f ops) (boxDesign lo hi unit) (fun _ => v0) sel0 prob0 false useSurr keepArchive saveND
        1 (s.calls ops (pre ++ prefs.map .iterate)).gen total (some (pty, m, nc)) none ps lr = .ok s' ∧
      (s'.calls (renumber f ops) pre).iterate (renumber f ops) none = (.ok none, t') ∧
      SameWork t' (s.calls ops (pre ++ prefs.map .iterate)) ∧ (s.calls ops (pre ++ prefs.map .iterate)).vec.planar = t'.vec.planar := by
  have hnd : saveND = true → (s.calls ops pre).nd ≠ none := by
    intro hsv
    rcases hpre with ⟨-, h⟩ | ⟨rfl, o, t0, h⟩
    · rw [h] at hsv; cases hsv
    · have hc2 : s.cfg.saveND = true := by
        rw [(construct_fields ops _ _ sel0 prob0 _ _ _ _ _ _ _ _ _ _ s hs).1]; exact hsv
      obtain ⟨-, -, -, ar, h2, -⟩ := start_dress_drop ops s.archive s.nd s.cfg.keepArchive s t0 o hc2 h
      show (s.start ops).2.nd ≠ none
      rw [h, h2]
      simp
  have hb : ∀ b, boxDesign lo hi unit 0 (choosePopSize m ps lr) = .ok b →
      b.ndim = 2 ∧ b.rows.length = choosePopSize m ps lr := by
    intro b hb
    simp only [boxDesign, Except.ok.injEq] at hb
    subst hb
    exact ⟨rfl, by simp [scaleDesign, hu]⟩
  obtain ⟨h0, -, c1, c2, c3, -⟩ := construct_alive (d := 2) (need := choosePopSize m ps lr) (Vok := VecOK) ops hp
    (boxDesign lo hi unit) (fun _ => v0) sel0 prob0 false
    useSurr keepArchive saveND nIter nGen total pty m ps lr s hpty hs hb hpos (Nat.le_refl _) (create_sizes hm r hr v0 hv0).1
  have hsc := nsga_selectContract (n := n) (O := O) (Q := Q) (R := R) nc unc (choosePopSize m ps lr) hpos hty hsort hsh hsel VecOK
    (fun v hv => hv.2.2)
  have hvc := vecContract (false = true) hm hd
  have h1 := Alive.calls ops hsc (mateContract hd) hp hvc pre s h0
  have hcfg : (s.calls ops pre).cfg = s.cfg := (calls_cfg ops pre s).1
  have hk : KeptND (s.calls ops pre).nd := by
    rw [calls_eq_callsWith]
    exact calls_keptND ops (evalContract_rows hp) pre s (.inl (construct_nd ops _ _ sel0 prob0 _ _ _ _ _ _ _ _ _ _ _ s hs))
  have hready := readyToGo_of h1 hk (by rw [hcfg, c2]; exact hnd)
  obtain ⟨b1, b2, b3, b4, nn, b5⟩ := construct_silent ops _ _ sel0 prob0 useSurr keepArchive saveND nIter nGen total _ none ps lr s hs
  obtain ⟨-, g0, k0⟩ := construct_fields ops _ _ sel0 prob0 _ _ _ _ _ _ _ _ _ _ s hs
  have hN : Planar s.vec := by rw [b5]; exact (create_norm r v0 hv0).planar
  -- the object when the iterations begin
  have hA : (s.calls ops pre).gen = 0 ∧ (s.calls ops pre).clock = 2 ∧ (s.calls ops pre).vec = s.vec := by
    rcases hpre with ⟨rfl, -⟩ | ⟨rfl, -⟩
    · exact ⟨g0, k0, rfl⟩
    · obtain ⟨q1, q2, q3, -⟩ := start_silent ops s b1
      exact ⟨q1.trans g0, q2.trans k0, q3⟩
  have hR : ∀ (f : Nat → Nat) (gg : Nat), (regroup 0 0 1 gg keepArchive [] s.vec s).calls (renumber f ops) pre = regroup 0 0 1 gg keepArchive [] s.vec (s.calls ops pre) := by
    intro f gg
    rcases hpre with ⟨rfl, -⟩ | ⟨rfl, -⟩
    · rfl
    · show ((regroup 0 0 1 gg keepArchive [] s.vec s).start (renumber f ops)).2 = _
      rw [start_regroup f ops 0 0 1 gg keepArchive [] s.vec s b1]
      rfl
  have happ : s.calls ops (pre ++ prefs.map .iterate) = (s.calls ops pre).callsWith ops (EA.nextGen ops) (prefs.map .iterate) := by
    rw [← calls_eq_callsWith]
    rcases hpre with ⟨rfl, -⟩ | ⟨rfl, -⟩ <;> rfl
  have hsilA : Silent (s.calls ops pre) := by unfold Silent; rw [hcfg]; exact b1
  rw [happ]
  generalize s.calls ops pre = A at hA hR hready hsilA
  obtain ⟨gA, kA, vA⟩ := hA
  have hadapt : ∀ v f, Planar v → Planar (ops.adapt v f) ∧ (ops.adapt v f).planar = v.planar := by rw [hd.adapt]; exact fun v f h => rvAdapt_planar v f h
  have hcareful := (nextGen_careful (inter := false = true) ops hsc (mateContract hd) hp).and_silent
  obtain ⟨⟨k, ha⟩, -⟩ := calls_attempts (φ := fun v : RV m => v.planar) (N := Planar) hcareful ops hadapt (fun s h => h.2)
    (by
      rintro u ⟨⟨u1, u2⟩, u3⟩
      obtain ⟨f1, f2⟩ : (u.preIteration ops).cfg = u.cfg ∧ (u.preIteration ops).nd = u.nd := by
        have hr : u.record.cfg = u.cfg ∧ u.record.nd = u.nd := by unfold EA.record; split <;> exact ⟨rfl, rfl⟩
        simp only [EA.preIteration]
        split <;> split <;> exact hr
      have hp := u1.preIteration ops hvc
      refine ⟨⟨hp.of_eq rfl hp.vec rfl, ?_⟩, ?_⟩
      · show (u.preIteration ops).cfg.saveND = true → Begun (u.preIteration ops).nd
        rw [f1, f2]; exact u2
      · unfold Silent
        show (u.preIteration ops).cfg.interact = false ∧ (u.preIteration ops).cfg.location = none
        rw [f1]; exact u3)
    (by
      rintro u ⟨⟨u1, u2⟩, u3⟩
      exact ⟨⟨u1.of_eq rfl u1.vec rfl, u2⟩, u3⟩)
    prefs A ⟨hready, hsilA⟩
  have hgen := ha.gens_counted
  generalize A.callsWith ops (EA.nextGen ops) (prefs.map .iterate) = T at ha hgen
  rw [gA, Nat.zero_add] at hgen
  have hsteady : ∀ f, Steady (fun v : RV m => v.planar) Planar (EA.nextGen (renumber f ops)) := by
    intro f
    refine nextGen_steady (renumber f ops) ?_
    intro clk v v' t p h1 h2 h3
    have : (renumber f ops).select clk = nsgaSelect ty sort solve rnd (nSurviveAttr none (choosePopSize m ps lr)) (f clk) := by
      show ops.select (f clk) = _
      rw [hsel]
    rw [this]
    exact nsgaSelect_planar ty sort solve rnd _ (f clk) v v' t p h1 h2 h3
  have hB := nextGen_renumbers ops hsteady
  -- the undisturbed object
  have r0 : Regrouped (fun v : RV m => v.planar) Planar A (regroup 0 0 1 T.gen keepArchive [] s.vec A) :=
    ⟨0, 0, 1, T.gen, keepArchive, [], s.vec, rfl, by rw [vA], hN, by rw [vA]; exact hN⟩
  have r1 := preIteration_regrouped ops hadapt A _ r0
  obtain ⟨b, hb⟩ : ∃ b, ({ (regroup 0 0 1 T.gen keepArchive [] s.vec A).preIteration ops with genIter := 0 } : EA (Row n) O (Vec m) (List ℝ) (Vec m) (RV m) (Nsga m) Q) = b := ⟨_, rfl⟩
  rw [hb] at r1
  have r2 : Tracks (fun v : RV m => v.planar) Planar A b ∧ b.clock = 2 := by
    obtain ⟨it, gi, nI, nG, kk, aa, v, rfl, q1, q2, q3⟩ := r1
    exact ⟨⟨A.iter, A.genIter, A.cfg.nIter, A.cfg.nGen, A.cfg.keepArchive, A.archive, A.vec, rfl, q1.symm, q3, q2⟩, kA⟩
  obtain ⟨r2, kb⟩ := r2
  obtain ⟨f, f1, f2, D, f3, f4⟩ := ha.undisturbed hB b r2
  rw [kb] at f1 f2
  rw [kA] at f2
  obtain ⟨G, hG⟩ : ∃ G : Nat → Nat, G = fun i => if i < 2 then i else f i := ⟨_, rfl⟩
  have hlo : ∀ i, i < 2 → G i = i := fun i hi => by rw [hG]; dsimp only; rw [if_pos hi]
  have hhi : ∀ i, 2 ≤ i → G i = f i := fun i hi => by rw [hG]; dsimp only; rw [if_neg (by omega)]
  have hmono : StrictMono G := by
    intro i j hij
    rcases Nat.lt_or_ge i 2 with h1 | h1 <;> rcases Nat.lt_or_ge j 2 with h2 | h2
    · rw [hlo i h1, hlo j h2]; exact hij
    · rw [hlo i h1, hhi j h2]
      have := f2 j h2
      omega
    · omega
    · rw [hhi i h1, hhi j h2]; exact f1 i j h1 hij
  have hcon := construct_regroup ops (boxDesign lo hi unit) (fun _ => v0) sel0 prob0 false useSurr keepArchive saveND keepArchive nIter nGen 1 T.gen total
    (some (pty, m, nc)) none ps lr
  rw [hs] at hcon
  have hgens : gens (EA.nextGen (renumber G ops)) T.gen b = (.ok (), D) := by
    rw [hgen, gens_forward hB G f k b (fun i hi => hhi i (by omega))]
    exact f3
  refine ⟨G, hmono, regroup 0 0 1 T.gen keepArchive [] s.vec s, { D with iter := D.iter + 1 }, ?_, ?_, ?_⟩
  · rw [construct_renumber G (hlo 1 (by omega))]
    exact hcon
  · unfold EA.iterate
    rw [hR, iterate_silent (nextGen_counts (renumber G ops)).ticks (renumber G ops) (regroup 0 0 1 T.gen keepArchive [] s.vec A) hsilA none
      (fun n u hu => (gens_cfg (nextGen_counts (renumber G ops)).ticks n u hu).1)]
    have e1 : ({ (regroup 0 0 1 T.gen keepArchive [] s.vec A).preIteration (renumber G ops) with genIter := 0 } : EA (Row n) O (Vec m) (List ℝ) (Vec m) (RV m) (Nsga m) Q) = b := hb
    have e2 : (regroup 0 0 1 T.gen keepArchive [] s.vec A).cfg.nGen = T.gen := rfl
    rw [e1, e2, hgens]
  · obtain ⟨it, gi, nI, nG, kk, aa, v, q0, q1, q2, q3⟩ := f4
    have w_pop : T.pop = D.pop := by have w := congrArg EA.pop q0; exact w
    have w_sel : T.sel = D.sel := by have w := congrArg EA.sel q0; exact w
    have w_gen : T.gen = D.gen := by have w := congrArg EA.gen q0; exact w
    have w_fe : T.fe = D.fe := by have w := congrArg EA.fe q0; exact w
    have w_nd : T.nd = D.nd := by have w := congrArg EA.nd q0; exact w
    have w_log : T.log = D.log := by have w := congrArg EA.log q0; exact w
    refine ⟨⟨w_pop, w_sel, w_gen, w_fe, w_nd, w_log⟩, ?_⟩
    have e3 : T.vec = v := by have w := congrArg EA.vec q0; exact w
    rw [e3]
    exact q1

/-- **C107 (d)**, RVEA without interaction and with one generation per iteration: however many evaluations raise, and however often `iterate()` is
called again, the run is one that nothing disturbed, with the calls that raised left out.  There is an outside world that gives the answers of
this one in the same order, leaving out some (`f`), in which the same object is constructed and as many calls of `iterate()` as returned here
all return; the population, operator, counters, saved solutions and evaluated batches are the same, and after a call that returned
the whole object is, but for the moment and the number of vectors given to the evaluation. -/
theorem c107_rvea_retry (hm : 2 ≤ m) (r : Nat) (hr : 1 ≤ r) (v0 : RV m) (hv0 : RV.create m r = .ok v0)
    (ops : Ops (Row n) O (Vec m) (List ℝ) (Vec m) (RV m) (Vec m) Q R) (lo hi : Fin n → ℝ) (draw : Nat → MateDraw n)
    (toCall : Nat → Kind → Pop (Row n) O (Vec m) (List ℝ) (Vec m) → R → Except Err (VecCall m))
    (hd : Decomposition ops lo hi draw toCall) (ty : SelType) (ps lr : Option Nat)
    (pen : Nat → ℝ) (popIdeal : Nat → Vec m) (hsel : ops.select = rveaSelect ty pen popIdeal)
    (nc : Nat) (unc : Bool) (hty : TypeOK ty unc) (hp : ProblemOK ops nc unc)
    (unit : Nat → Nat → List (Fin n → ℝ)) (hu : ∀ c k, (unit c k).length = k) (prob0 : Q) (sel0 : Nat → (Vec m))
    (useSurr keepArchive saveND : Bool) (nIter total : Nat) (pty : ProblemType) (hpty : pty ≠ .iopis)
    (hpos : 1 ≤ choosePopSize m ps lr) (s : EA (Row n) O (Vec m) (List ℝ) (Vec m) (RV m) (Vec m) Q)
    (hs : construct ops (boxDesign lo hi unit) (fun _ => v0) sel0 prob0 false useSurr keepArchive saveND nIter 1 total
      (some (pty, m, nc)) none ps lr = .ok s)
    (pre : List (Call R)) (hpre : (pre = [] ∧ saveND = false) ∨ (pre = [.start] ∧ ∃ o t0, s.start ops = (.ok o, t0)))
    (prefs : List (Option (Pref R))) (t : EA (Row n) O (Vec m) (List ℝ) (Vec m) (RV m) (Vec m) Q) (ht : s.calls ops (pre ++ prefs.map .iterate) = t) :
    ∃ (f : Nat → Nat) (t' : EA (Row n) O (Vec m) (List ℝ) (Vec m) (RV m) (Vec m) Q), StrictMono f ∧
      construct (renumber f ops) (boxDesign lo hi unit) (fun _ => v0) sel0 prob0 false useSurr keepArchive saveND nIter 1 total (some (pty, m, nc)) none ps lr = .ok s ∧
      (∀ k, k < t.iter → ((s.calls (renumber f ops) (pre ++ List.replicate k (.iterate none))).iterate (renumber f ops) none).1 = .ok none) ∧
      s.calls (renumber f ops) (pre ++ List.replicate t.iter (.iterate none)) = t' ∧
      SameWork t' t ∧ t'.iter = t.iter ∧
      (∀ qs q o u, prefs = qs ++ [q] → (s.calls ops (pre ++ qs.map .iterate)).iterate ops q = (.ok o, u) →
        t = { t' with clock := t.clock, trueEvals := t.trueEvals }) := by
  have hnd : saveND = true → (s.calls ops pre).nd ≠ none := by
    intro hsv
    rcases hpre with ⟨-, h⟩ | ⟨rfl, o, t0, h⟩
    · rw [h] at hsv; cases hsv
    · have hc2 : s.cfg.saveND = true := by
        rw [(construct_fields ops _ _ sel0 prob0 _ _ _ _ _ _ _ _ _ _ s hs).1]; exact hsv
      obtain ⟨-, -, -, ar, h2, -⟩ := start_dress_drop ops s.archive s.nd s.cfg.keepArchive s t0 o hc2 h
      show (s.start ops).2.nd ≠ none
      rw [h, h2]
      simp
  have hb : ∀ b, boxDesign lo hi unit 0 (choosePopSize m ps lr) = .ok b →
      b.ndim = 2 ∧ b.rows.length = choosePopSize m ps lr := by
    intro b hb
    simp only [boxDesign, Except.ok.injEq] at hb
    subst hb
    exact ⟨rfl, by simp [scaleDesign, hu]⟩
  obtain ⟨h0, -, c1, c2, c3, -⟩ := construct_alive (d := 2) (need := 1) (Vok := VecOK) ops hp
    (boxDesign lo hi unit) (fun _ => v0) sel0 prob0 false
    useSurr keepArchive saveND nIter 1 total pty m ps lr s hpty hs hb hpos hpos (create_sizes hm r hr v0 hv0).1
  have hsc := rvea_selectContract (n := n) (O := O) (Q := Q) (R := R) nc unc hty hsel VecOK (fun v hv => hv.1)
  have hvc := vecContract (false = true) hm hd
  have h1 := Alive.calls ops hsc (mateContract hd) hp hvc pre s h0
  have hcfg : (s.calls ops pre).cfg = s.cfg := (calls_cfg ops pre s).1
  have hk : KeptND (s.calls ops pre).nd := by
    rw [calls_eq_callsWith]
    exact calls_keptND ops (evalContract_rows hp) pre s (.inl (construct_nd ops _ _ sel0 prob0 _ _ _ _ _ _ _ _ _ _ _ s hs))
  have hready := readyToGo_of h1 hk (by rw [hcfg, c2]; exact hnd)
  obtain ⟨b1, b2, b3, b4, nn, b5⟩ := construct_silent ops _ _ sel0 prob0 useSurr keepArchive saveND nIter 1 total _ none ps lr s hs
  obtain ⟨-, g0, k0⟩ := construct_fields ops _ _ sel0 prob0 _ _ _ _ _ _ _ _ _ _ s hs
  have hA : (s.calls ops pre).clock = 2 ∧ (s.calls ops pre).iter = 0 := by
    rcases hpre with ⟨rfl, -⟩ | ⟨rfl, -⟩
    · exact ⟨k0, b2⟩
    · obtain ⟨-, q2, -, -⟩ := start_silent ops s b1
      refine ⟨q2.trans k0, ?_⟩
      have := start_regroup id ops 0 s.genIter s.cfg.nIter s.cfg.nGen s.cfg.keepArchive s.archive s.vec s b1
      have e1 : regroup 0 s.genIter s.cfg.nIter s.cfg.nGen s.cfg.keepArchive s.archive s.vec s = s := by
        unfold regroup
        rw [← b2]
      rw [e1] at this
      have e2 : renumber id ops = ops := rfl
      rw [e2] at this
      have w := congrArg (fun z => z.2.iter) this
      exact w
  have hR : ∀ (f : Nat → Nat), s.calls (renumber f ops) pre = s.calls ops pre := by
    intro f
    rcases hpre with ⟨rfl, -⟩ | ⟨rfl, -⟩
    · rfl
    · have e0 : ∀ g, s.start (renumber g ops) = ((s.start ops).1, regroup s.iter s.genIter s.cfg.nIter s.cfg.nGen s.cfg.keepArchive s.archive s.vec (s.start ops).2) :=
        fun g => start_regroup g ops s.iter s.genIter s.cfg.nIter s.cfg.nGen s.cfg.keepArchive s.archive s.vec s b1
      show (s.start (renumber f ops)).2 = (s.start (renumber id ops)).2
      rw [e0 f, e0 id]
  have hsilA : Silent (s.calls ops pre) := by unfold Silent; rw [hcfg]; exact b1
  have hoA : (s.calls ops pre).cfg.nGen = 1 := by rw [hcfg]; exact b4
  have hap : ∀ (o : Ops (Row n) O (Vec m) (List ℝ) (Vec m) (RV m) (Vec m) Q R) l, s.calls o (pre ++ l) = (s.calls o pre).calls o l := fun o l => calls_append o pre l s
  rw [hap] at ht
  simp only [hap, hR]
  generalize s.calls ops pre = A at hA hready hsilA hoA ht
  obtain ⟨kA, iA⟩ := hA
  have hadapt : ∀ v f, ops.adapt (ops.adapt v f) f = ops.adapt v f := by rw [hd.adapt]; exact fun v f => c64_adapt_twice v f
  have hcareful := (nextGen_careful (inter := false = true) ops hsc (mateContract hd) hp).and_silent.and_one
  obtain ⟨f, bs, f1, f2, f3, f4, f5, f6, f7⟩ := calls_twin ops hcareful hadapt
    (by
      rintro u ⟨⟨⟨u1, u2⟩, u3⟩, u4⟩
      obtain ⟨f1, -⟩ := opened_frame ops u
      have f2 : (opened ops u).nd = u.nd := by
        have hr : u.record.nd = u.nd := by unfold EA.record; split <;> rfl
        unfold opened
        simp only [EA.preIteration]
        split <;> split <;> exact hr
      have hp := u1.preIteration ops hvc
      refine ⟨⟨⟨hp.of_eq rfl hp.vec rfl, ?_⟩, ?_⟩, ?_⟩
      · rw [f1, f2]; exact u2
      · unfold Silent
        rw [f1]; exact u3
      · rw [f1]; exact u4)
    (by
      rintro u ⟨⟨⟨u1, u2⟩, u3⟩, u4⟩
      exact ⟨⟨⟨u1.of_eq rfl u1.vec rfl, u2⟩, u3⟩, u4⟩)
    (fun u hu => ⟨hu.1.2, hu.2⟩) prefs A A ⟨⟨hready, hsilA⟩, hoA⟩ (twin_refl ops A)
  rw [ht, iA, Nat.sub_zero] at f5 f6 f7
  rw [kA] at f1 f2 f5
  obtain ⟨G, hG⟩ : ∃ G : Nat → Nat, G = fun i => if i < 2 then i else f i := ⟨_, rfl⟩
  have hlo : ∀ i, i < 2 → G i = i := fun i hi => by rw [hG]; dsimp only; rw [if_pos hi]
  have hhi : ∀ i, 2 ≤ i → G i = f i := fun i hi => by rw [hG]; dsimp only; rw [if_neg (by omega)]
  have hmono : StrictMono G := by
    intro i j hij
    rcases Nat.lt_or_ge i 2 with h1 | h1 <;> rcases Nat.lt_or_ge j 2 with h2 | h2
    · rw [hlo i h1, hlo j h2]; exact hij
    · rw [hlo i h1, hhi j h2]
      have := f2 j h2
      omega
    · omega
    · rw [hhi i h1, hhi j h2]; exact f1 i j h1 hij
  have hbs : ∀ k, k ≤ t.iter → A.calls (renumber G ops) (List.replicate k (.iterate none)) = bs k := by
    intro k
    induction k with
    | zero => intro _; exact f4.symm
    | succ k ih =>
      intro hk
      rw [List.replicate_succ', calls_append, ih (by omega)]
      show ((bs k).iterate (renumber G ops) none).2 = _
      rw [f5 k (by omega) G hhi]
  refine ⟨G, bs t.iter, hmono, ?_, ?_, hbs _ (Nat.le_refl _), ?_, f6.same.2.2.symm, ?_⟩
  · rw [construct_renumber G (hlo 1 (by omega))]
    exact hs
  · intro k hk
    rw [hbs k (by omega), f5 k hk G hhi]
  · obtain ⟨o1, o2, o3, o4, o5, o6⟩ := opened_work ops t
    obtain ⟨w1, w2, w3, w4, w5, w6⟩ := opened_work ops (bs t.iter)
    unfold Twin at f6
    constructor
    · rw [← o1, ← w1]; have w := congrArg EA.pop f6; exact w
    · rw [← o2, ← w2]; have w := congrArg EA.sel f6; exact w
    · rw [← o3, ← w3]; have w := congrArg EA.gen f6; exact w
    · rw [← o4, ← w4]; have w := congrArg EA.fe f6; exact w
    · rw [← o5, ← w5]; have w := congrArg EA.nd f6; exact w
    · rw [← o6, ← w6]; have w := congrArg EA.log f6; exact w
  · intro qs q o u e hq
    exact f7 qs q o u e hq

end theorems

/-! ## Non-vacuity -/

/-- The small EA of `Props/Runs.lean` with an evaluation that fails at moment 3, that is in the first generation. -/
noncomputable def demo107 {S : Type} (sel : Nat → RV 2 → S → Pop (Row 1) Unit (Vec 2) (List ℝ) (Vec 2) → Except Err (List Int) × RV 2 × S) :
    Ops (Row 1) Unit (Vec 2) (List ℝ) (Vec 2) (RV 2) S Unit Unit :=
  { demoRunOps sel with evaluate := fun clk surr b => if clk = 3 then .error .evaluationError else (demoRunOps sel).evaluate clk surr b }

theorem demo107_ok {S : Type} (sel : Nat → RV 2 → S → Pop (Row 1) Unit (Vec 2) (List ℝ) (Vec 2) → Except Err (List Int) × RV 2 × S) :
    ProblemOK (demo107 sel) 0 false ∧ ∃ draw toCall, Decomposition (demo107 sel) (fun _ => 0) (fun _ => 1) draw toCall := by
  refine ⟨?_, _, fun _ _ _ _ => .error .typeError, ⟨rfl, fun _ l => List.Perm.refl l, rfl, rfl⟩⟩
  intro clk surr b r h
  unfold demo107 at h
  dsimp only at h
  split at h
  · cases h
  · exact demo_problemOK sel clk surr b r h

/-- It can be made, and its first generation raises: the hypotheses of `c107_rvea_generation`, `c107_rvea_iterate` and `c107_rvea_retry` are met. -/
example (v0 : RV 2) (sel0 : Nat → Vec 2) : ∃ s t, construct (demo107 (rveaSelect .mean (fun _ => 0) (fun _ => 0)))
    (boxDesign (fun _ => 0) (fun _ => 1) (fun _ k => List.replicate k (fun _ => 0))) (fun _ => v0) sel0 () false false true false 10 1 0
    (some (.mo, 2, 0)) none none (some 9) = .ok s ∧
    EA.nextGen (demo107 (rveaSelect .mean (fun _ => 0) (fun _ => 0))) (s.calls (demo107 (rveaSelect .mean (fun _ => 0) (fun _ => 0))) []) = (.error .evaluationError, t) := by
  have h := (c16_problem_xor_population (demo107 (rveaSelect .mean (fun _ => 0) (fun _ => 0)))
    (boxDesign (fun _ => 0) (fun _ => 1) (fun _ k => List.replicate k (fun _ => 0))) (fun _ => v0) sel0 () false false true false 10 1 0
    none (some 9)).2.2.2 .mo 2 0 _ _ rfl rfl
  obtain ⟨s, hs, -⟩ := h
  obtain ⟨h1, draw, toCall, h2⟩ := demo107_ok (rveaSelect .mean (fun _ => 0) (fun _ => 0))
  obtain ⟨-, -, hclk⟩ := construct_fields _ _ _ sel0 () _ _ _ _ _ _ _ _ _ _ s hs
  have halive := (construct_alive (d := 2) (need := 1) (Vok := fun _ => True) _ h1
    (boxDesign (fun _ => 0) (fun _ => 1) (fun _ k => List.replicate k (fun _ => 0))) (fun _ => v0) sel0 () false false true false 10 1 0 .mo 2 none (some 9) s
    (by decide) hs (fun b hb => by simp only [boxDesign, Except.ok.injEq] at hb; subst hb; exact ⟨rfl, by simp [scaleDesign]⟩) (by decide) (by decide) trivial).1
  obtain ⟨rs, r1, r2, r3⟩ := halive.rep
  obtain ⟨inds, hi⟩ := Option.ne_none_iff_exists'.1 halive.inds
  have hil : inds ≠ [] := by
    have := Represents_length r1 hi
    intro e; rw [e] at this; simp at this; exact r3 (List.length_eq_zero_iff.1 this.symm)
  obtain ⟨off, hmate, -⟩ := mateContract h2 s.clock s.pop inds hi hil
  refine ⟨s, (EA.nextGen (demo107 (rveaSelect .mean (fun _ => 0) (fun _ => 0))) s).2, hs, Prod.ext ?_ rfl⟩
  show (EA.nextGen _ s).1 = _
  rw [Verif.Props.nextGen_eq, hmate]
  unfold EA.popAdd
  have hev : (demo107 (rveaSelect .mean (fun _ => 0) (fun _ => 0))).evaluate (s.clock + 1) s.cfg.useSurr off = .error .evaluationError := by
    unfold demo107
    dsimp only
    rw [hclk, if_pos rfl]
  dsimp only
  rw [hev]
  rfl

/-- The same for NSGA-III: it can be made. -/
example (v0 : RV 2) (sel0 : Nat → Nsga 2) (solve : List (Vec 2) → Option (Vec 2)) (rnd : Nat → NicheRand) :
    ∃ sort : List (Vec 2) → List (List Nat), (∀ fit, IsFrontSort (IndDominates fit) fit.length (sort fit)) ∧
      ∃ s, construct (demo107 (nsgaSelect .mean sort solve rnd (nSurviveAttr none (choosePopSize 2 none (some 9)))))
        (boxDesign (fun _ => 0) (fun _ => 1) (fun _ k => List.replicate k (fun _ => 0))) (fun _ => v0) sel0 () false false true false 10 10 0
        (some (.mo, 2, 0)) none none (some 9) = .ok s := by
  generalize hs : (fun fitness : List (Vec 2) => peelFronts (indDom fitness) fitness.length (List.range fitness.length)) = sort
  refine ⟨sort, by rw [← hs]; exact c34_sort_contract_satisfiable, ?_⟩
  have h := (c16_problem_xor_population (demo107 (nsgaSelect .mean sort solve rnd (nSurviveAttr none (choosePopSize 2 none (some 9)))))
    (boxDesign (fun _ => 0) (fun _ => 1) (fun _ k => List.replicate k (fun _ => 0))) (fun _ => v0) sel0 () false false true false 10 10 0
    none (some 9)).2.2.2 .mo 2 0 _ _ rfl rfl
  exact ⟨h.choose, h.choose_spec.1⟩

/-- `demoEA` with an evaluation that fails at moment 6: in the second generation of the first iteration. -/
def demo107EA : Ops Nat Nat Nat Nat Nat Nat Nat Nat Nat :=
  { demoEA with evaluate := fun clk _ b => if clk = 6 then .error .evaluationError else .ok ⟨b.rows, b.rows, none, none⟩ }

/-- Generations, evaluations, iterations and individuals after some calls of `iterate()`. -/
def demo107Run (ops : Ops Nat Nat Nat Nat Nat Nat Nat Nat Nat) (nGen calls : Nat) : Option (Nat × Nat × Nat × Option (List Nat)) :=
  match construct ops (fun _ n => .ok ⟨2, List.range n⟩) id id 0 false false true false 2 nGen 0 (some (.mo, 2, 0)) none (some 2) none with
  | .ok s => some ((s.calls ops (List.replicate calls (.iterate none))).gen, (s.calls ops (List.replicate calls (.iterate none))).fe,
      (s.calls ops (List.replicate calls (.iterate none))).iter, (s.calls ops (List.replicate calls (.iterate none))).pop.individuals)
  | .error _ => none

/-- The first call completes one generation and raises, the second completes three; as one call of four generations in a world without the answers 5
and 6. -/
example : demo107Run demo107EA 3 1 = some (1, 4, 0, some [1, 2]) ∧ demo107Run demo107EA 3 2 = some (4, 10, 1, some [4, 5]) ∧
    demo107Run (renumber (fun k => if k < 5 then k else k + 2) demo107EA) 4 1 = some (4, 10, 1, some [4, 5]) := ⟨rfl, rfl, rfl⟩

/-- (c) is not true of a selection that reads the part of the vectors which changes with every iteration, as RVEA's does: the second call begins with
an adaptation in the middle of the interrupted iteration.  In (d) there is none, since an iteration has one generation. -/
example : ∃ sel : Nat → Nat → Nat → Pop Nat Nat Nat Nat Nat → Except Err (List Int) × Nat × Nat,
    demo107Run { demo107EA with select := sel } 3 2 ≠ demo107Run (renumber (fun k => if k < 5 then k else k + 2) { demo107EA with select := sel }) 4 1 :=
  ⟨fun _ v t _ => (.ok (if 7 ≤ v then [0, 1] else [-1, -2]), v, t), by decide⟩

end Verif.Props
