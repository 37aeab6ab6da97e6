import Verif.Props.Bookkeeping
import Verif.Props.RefVectors
import Verif.Proofs.MOEAD
import Verif.Model.Runs
import Verif.Props.Constraints

/-!
# C97 (c): how the generations of a non-interactive run are grouped into iterations
-/

namespace Verif.Props
open Verif Verif.Spec
open _root_.Spec (CountsGeneration)

variable {X O F C U V W S Q R : Type}

/-- The same object with another grouping, another archive of populations and other vectors. -/
def regroup (it gi nI nG : Nat) (k : Bool) (a : List (Nat × Entry X O F)) (v : V) (s : EA X O F C U V S Q) : EA X O F C U V S Q :=
  { s with iter := it, genIter := gi, archive := a, vec := v, cfg := { s.cfg with nIter := nI, nGen := nG, keepArchive := k } }

/-- The two objects differ in their grouping, their archive of populations, and in the part of the vectors that `φ` does not see. -/
def Regrouped (φ : V → W) (N : V → Prop) (s s' : EA X O F C U V S Q) : Prop :=
  ∃ it gi nI nG k a v, s' = regroup it gi nI nG k a v s ∧ φ v = φ s.vec ∧ N v ∧ N s.vec

/-- A generation that does not look at the grouping. -/
def Steady (φ : V → W) (N : V → Prop) (body : EA X O F C U V S Q → EARes Unit X O F C U V S Q) : Prop :=
  ∀ s s', Regrouped φ N s s' → (body s').1 = (body s).1 ∧ Regrouped φ N (body s).2 (body s').2

variable {φ : V → W} {N : V → Prop} {body : EA X O F C U V S Q → EARes Unit X O F C U V S Q} {rows : EA X O F C U V S Q → Nat}

/-- A generation that returns adds one to the counter of the generations of the iteration and leaves the settings and the number of the
iteration alone. -/
def Ticks (body : EA X O F C U V S Q → EARes Unit X O F C U V S Q) : Prop :=
  ∀ s t, body s = (.ok (), t) → t.cfg = s.cfg ∧ t.iter = s.iter ∧ t.genIter = s.genIter + 1

theorem _root_.Spec.CountsGeneration.ticks (h : CountsGeneration body rows) : Ticks body :=
  fun s t hz => ⟨(h.ok s t hz).1, (h.ok s t hz).2.1, (h.ok s t hz).2.2.2.1⟩

/-- `n` generations, fewer when the evaluation budget is used up. -/
def gens (body : EA X O F C U V S Q → EARes Unit X O F C U V S Q) : Nat → EA X O F C U V S Q → EARes Unit X O F C U V S Q
  | 0, s => (.ok (), s)
  | n + 1, s =>
    if s.checkFE then
      match body s with
      | (.error e, s) => (.error e, s)
      | (.ok _, s) => gens body n s
    else (.ok (), s)

theorem gens_stop (n : Nat) (s : EA X O F C U V S Q) (h : s.checkFE = false) : gens body n s = (.ok (), s) := by
  cases n with
  | zero => rfl
  | succ n => unfold gens; rw [h]; rfl

theorem gens_succ (n : Nat) (s : EA X O F C U V S Q) : gens body (n + 1) s =
    (if s.checkFE then
      match body s with
      | (.error e, s) => (.error e, s)
      | (.ok _, s) => gens body n s
    else (.ok (), s)) := rfl

theorem gens_add (n k : Nat) : ∀ s : EA X O F C U V S Q, gens body (n + k) s =
    (match gens body n s with
     | (.error e, s) => (.error e, s)
     | (.ok _, s) => gens body k s) := by
  induction n with
  | zero => intro s; rw [Nat.zero_add]; rfl
  | succ n ih =>
    intro s
    have e : n + 1 + k = (n + k) + 1 := by omega
    rw [e, gens_succ, gens_succ]
    cases hc : s.checkFE with
    | false => simp only [Bool.false_eq_true, if_false]; exact (gens_stop (body := body) k s hc).symm
    | true =>
      simp only [if_true]
      generalize body s = z
      obtain ⟨z, t⟩ := z
      cases z with
      | error e => rfl
      | ok _ => exact ih t

theorem loop_gens (hc : Ticks body) (fuel : Nat) : ∀ s : EA X O F C U V S Q, s.cfg.nGen - s.genIter ≤ fuel →
    EA.loop body fuel s = gens body (s.cfg.nGen - s.genIter) s := by
  induction fuel with
  | zero =>
    intro s h
    have : s.cfg.nGen - s.genIter = 0 := by omega
    rw [this]; rfl
  | succ fuel ih =>
    intro s h
    unfold EA.loop
    by_cases hlt : s.genIter < s.cfg.nGen
    · obtain ⟨j, hj⟩ : ∃ j, s.cfg.nGen - s.genIter = j + 1 := ⟨s.cfg.nGen - s.genIter - 1, by omega⟩
      rw [hj]
      unfold gens EA.continueIteration
      simp only [hlt, decide_true, Bool.true_and]
      cases s.checkFE with
      | false => rfl
      | true =>
        simp only [if_true]
        generalize hz : body s = z
        obtain ⟨z, t⟩ := z
        cases z with
        | error e => rfl
        | ok _ =>
          obtain ⟨h1, -, h4⟩ := hc _ _ hz
          dsimp only
          have hj' : t.cfg.nGen - t.genIter = j := by rw [h1, h4]; omega
          rw [ih t (by omega), hj']
    · have h0 : s.cfg.nGen - s.genIter = 0 := by omega
      have : s.continueIteration = false := by simp [EA.continueIteration, hlt]
      rw [this, h0]; rfl

theorem checkFE_regrouped {s s' : EA X O F C U V S Q} (h : Regrouped φ N s s') : s'.checkFE = s.checkFE := by
  obtain ⟨it, gi, nI, nG, k, a, v, rfl, -⟩ := h
  rfl

theorem gens_steady (hb : Steady φ N body) (n : Nat) : Steady φ N (gens body n) := by
  induction n with
  | zero => exact fun s s' h => ⟨rfl, h⟩
  | succ n ih =>
    intro s s' h
    unfold gens
    rw [checkFE_regrouped h]
    cases s.checkFE with
    | false => exact ⟨rfl, h⟩
    | true =>
      simp only [if_true]
      obtain ⟨b1, b2⟩ := hb s s' h
      generalize body s = z at b1 b2
      generalize body s' = z' at b1 b2
      obtain ⟨z, t⟩ := z
      obtain ⟨z', t'⟩ := z'
      dsimp only at b1 b2
      subst b1
      cases z' with
      | error e => exact ⟨rfl, b2⟩
      | ok _ => exact ih t t' b2

/-- A non-interactive object. -/
def Silent (s : EA X O F C U V S Q) : Prop := s.cfg.interact = false ∧ s.cfg.location = none

/-- `iterate` of a non-interactive object. -/
theorem iterate_silent (hc : Ticks body) (ops : Ops X O F C U V S Q R) (s : EA X O F C U V S Q) (hs : Silent s) (p : Option (Pref R))
    (hcfg : ∀ n (u : EA X O F C U V S Q), (gens body n u).1 = .ok () → (gens body n u).2.cfg = u.cfg) :
    s.iterateWith ops body p =
      (match gens body s.cfg.nGen { s.preIteration ops with genIter := 0 } with
       | (.error e, s) => (.error e, s)
       | (.ok _, s) => (.ok none, { s with iter := s.iter + 1 })) := by
  have e1 : s.managePreferences ops p = (.ok (), s) := by unfold EA.managePreferences; rw [hs.2]
  unfold EA.iterateWith
  rw [e1]
  dsimp only
  have e2 : (s.preIteration ops).cfg = s.cfg := (preIteration_nd ops s).1
  generalize s.preIteration ops = t at e2
  have e3 := loop_gens hc t.cfg.nGen ({ t with genIter := 0 } : EA X O F C U V S Q) (by show t.cfg.nGen - 0 ≤ _; omega)
  have e4 : ({ t with genIter := 0 } : EA X O F C U V S Q).cfg.nGen - ({ t with genIter := 0 } : EA X O F C U V S Q).genIter = t.cfg.nGen := Nat.sub_zero _
  rw [e4] at e3
  have e7 : s.cfg.nGen = t.cfg.nGen := by rw [e2]
  rw [e3, e7]
  have e5 := hcfg t.cfg.nGen ({ t with genIter := 0 })
  generalize gens body t.cfg.nGen { t with genIter := 0 } = z at e5
  obtain ⟨z, u⟩ := z
  cases z with
  | error e => rfl
  | ok _ =>
    have e6 : u.cfg = s.cfg := (e5 rfl).trans e2
    dsimp only
    unfold EA.requestPreferences
    rw [if_pos (by show u.cfg.interact = false; rw [e6]; exact hs.1)]

theorem gens_cfg (hc : Ticks body) (n : Nat) : ∀ u : EA X O F C U V S Q, (gens body n u).1 = .ok () →
    (gens body n u).2.cfg = u.cfg ∧ (gens body n u).2.iter = u.iter := by
  induction n with
  | zero => exact fun u _ => ⟨rfl, rfl⟩
  | succ n ih =>
    intro u h
    rw [gens_succ] at h ⊢
    cases hfe : u.checkFE with
    | false => exact ⟨rfl, rfl⟩
    | true =>
      rw [hfe] at h
      simp only [if_true] at h ⊢
      generalize hz : body u = z at h ⊢
      obtain ⟨z, t⟩ := z
      cases z with
      | error e => simp at h
      | ok _ =>
        obtain ⟨h1, h2, -⟩ := hc _ _ hz
        obtain ⟨i1, i2⟩ := ih t h
        exact ⟨i1.trans h1, i2.trans h2⟩

/-- The driver performs as many generations as there are iterations left times generations per iteration, whatever the grouping. -/
theorem drive_gens (hc : Ticks body) (hb : Steady φ N body) (ops : Ops X O F C U V S Q R)
    (had : ∀ v f, N v → N (ops.adapt v f) ∧ φ (ops.adapt v f) = φ v) (prefs : Nat → Option (Pref R)) (fuel : Nat) :
    ∀ s s' : EA X O F C U V S Q, Regrouped φ N s s' → Silent s' → s'.cfg.nIter - s'.iter ≤ fuel →
      (EA.drive ops body prefs fuel s').1 = (gens body ((s'.cfg.nIter - s'.iter) * s'.cfg.nGen) s).1 ∧
        Regrouped φ N (gens body ((s'.cfg.nIter - s'.iter) * s'.cfg.nGen) s).2 (EA.drive ops body prefs fuel s').2 := by
  induction fuel with
  | zero =>
    intro s s' h hs hf
    have : s'.cfg.nIter - s'.iter = 0 := by omega
    rw [this, Nat.zero_mul]
    exact ⟨rfl, h⟩
  | succ fuel ih =>
    intro s s' h hs hf
    by_cases hlt : s'.iter < s'.cfg.nIter
    · cases hfe : s'.checkFE with
      | false =>
        have e1 : s'.continueEvolution = false := by simp [EA.continueEvolution, hfe]
        rw [gens_stop _ s ((checkFE_regrouped h).symm.trans hfe)]
        unfold EA.drive
        rw [e1]
        exact ⟨rfl, h⟩
      | true =>
        have e1 : s'.continueEvolution = true := by simp [EA.continueEvolution, hfe, hlt]
        obtain ⟨j, hj⟩ : ∃ j, s'.cfg.nIter - s'.iter = j + 1 := ⟨s'.cfg.nIter - s'.iter - 1, by omega⟩
        rw [hj, Nat.succ_mul, Nat.add_comm (j * _) _, gens_add]
        unfold EA.drive
        rw [e1, iterate_silent hc ops s' hs _ (fun n u hu => (gens_cfg hc n u hu).1)]
        simp only [if_true]
        -- the start of the iteration
        have hpre : Regrouped φ N s ({ s'.preIteration ops with genIter := 0 } : EA X O F C U V S Q) := by
          obtain ⟨it, gi, nI, nG, k, a, v, rfl, h1, h2, h3⟩ := h
          have hrec : ∃ a', (regroup it gi nI nG k a v s).record = regroup it gi nI nG k a' v s := by
            unfold EA.record
            split
            · exact ⟨_, rfl⟩
            · exact ⟨_, rfl⟩
          obtain ⟨a', ha'⟩ := hrec
          simp only [EA.preIteration]
          rw [ha']
          have hv : ∀ w, N w → φ w = φ s.vec → N (ops.adapt w s.pop.fitness) ∧ φ (ops.adapt w s.pop.fitness) = φ s.vec :=
            fun w hw e => ⟨(had w _ hw).1, (had w _ hw).2.trans e⟩
          obtain ⟨n1, p1⟩ := hv v h2 h1
          obtain ⟨n2, p2⟩ := hv _ n1 p1
          split <;> split
          · exact ⟨_, 0, nI, nG, k, a', _, rfl, p2, n2, h3⟩
          · exact ⟨_, 0, nI, nG, k, a', _, rfl, p1, n1, h3⟩
          · exact ⟨_, 0, nI, nG, k, a', _, rfl, p1, n1, h3⟩
          · exact ⟨_, 0, nI, nG, k, a', _, rfl, h1, h2, h3⟩
        have hp : (s'.preIteration ops).cfg = s'.cfg ∧ (s'.preIteration ops).iter = s'.iter := by
          refine ⟨(preIteration_nd ops s').1, ?_⟩
          have hr : s'.record.iter = s'.iter := by unfold EA.record; split <;> rfl
          simp only [EA.preIteration]
          split <;> split <;> exact hr
        generalize s'.preIteration ops = t' at hpre hp
        obtain ⟨g1, g2⟩ := gens_steady hb s'.cfg.nGen _ _ hpre
        have g3 := gens_cfg hc s'.cfg.nGen ({ t' with genIter := 0 } : EA X O F C U V S Q)
        generalize gens body s'.cfg.nGen s = z at g1 g2
        generalize gens body s'.cfg.nGen ({ t' with genIter := 0 } : EA X O F C U V S Q) = z' at g1 g2 g3
        obtain ⟨z, u⟩ := z
        obtain ⟨z', u'⟩ := z'
        dsimp only at g1 g2 g3
        subst g1
        cases z' with
        | error e => exact ⟨rfl, g2⟩
        | ok _ =>
          dsimp only
          obtain ⟨c1, c2⟩ := g3 rfl
          have c3 : u'.cfg = s'.cfg := c1.trans hp.1
          have c4 : u'.iter = s'.iter := c2.trans hp.2
          have r1 : Regrouped φ N u ({ u' with iter := u'.iter + 1 } : EA X O F C U V S Q) := by
            obtain ⟨it, gi, nI, nG, k, a, v, rfl, h1, h2, h3⟩ := g2
            exact ⟨it + 1, gi, nI, nG, k, a, v, rfl, h1, h2, h3⟩
          have r2 : Silent ({ u' with iter := u'.iter + 1 } : EA X O F C U V S Q) := by unfold Silent; dsimp only; rw [c3]; exact hs
          have r3 : ({ u' with iter := u'.iter + 1 } : EA X O F C U V S Q).cfg.nIter - ({ u' with iter := u'.iter + 1 } : EA X O F C U V S Q).iter = j := by
            dsimp only; rw [c3, c4]; omega
          have := ih u _ r1 r2 (by rw [r3]; omega)
          rw [r3] at this
          have c5 : u'.cfg.nGen = s'.cfg.nGen := by rw [c3]
          dsimp only at this
          rw [c5] at this
          exact this
    · have h0 : s'.cfg.nIter - s'.iter = 0 := by omega
      have e1 : s'.continueEvolution = false := by simp [EA.continueEvolution, hlt]
      rw [h0, Nat.zero_mul]
      unfold EA.drive
      rw [e1]
      exact ⟨rfl, h⟩

/-! ## The generations of NSGA-III -/

theorem nextGen_steady (ops : Ops X O F C U V S Q R)
    (hsel : ∀ clk v v' t p, N v → N v' → φ v' = φ v → (ops.select clk v' t p).1 = (ops.select clk v t p).1 ∧
      (ops.select clk v' t p).2.2 = (ops.select clk v t p).2.2 ∧ φ (ops.select clk v' t p).2.1 = φ (ops.select clk v t p).2.1 ∧
      N (ops.select clk v' t p).2.1 ∧ N (ops.select clk v t p).2.1) : Steady φ N (EA.nextGen ops) := by
  rintro s _ ⟨it, gi, nI, nG, k, a, v, rfl, h1, h2, h3⟩
  have hmt : ops.mate (regroup it gi nI nG k a v s).clock (regroup it gi nI nG k a v s).pop = ops.mate s.clock s.pop := rfl
  rw [nextGen_eq, nextGen_eq, hmt]
  cases ops.mate s.clock s.pop with
  | error e => exact ⟨rfl, it, gi, nI, nG, k, a, v, rfl, h1, h2, h3⟩
  | ok off =>
    dsimp only
    have e0 : ({ regroup it gi nI nG k a v s with clock := (regroup it gi nI nG k a v s).clock + 1 } : EA X O F C U V S Q).popAdd ops off =
      ((({ s with clock := s.clock + 1 } : EA X O F C U V S Q).popAdd ops off).1,
        regroup it gi nI nG k a v (({ s with clock := s.clock + 1 } : EA X O F C U V S Q).popAdd ops off).2) := rfl
    rw [e0]
    have hv : (({ s with clock := s.clock + 1 } : EA X O F C U V S Q).popAdd ops off).2.vec = s.vec := rfl
    generalize ({ s with clock := s.clock + 1 } : EA X O F C U V S Q).popAdd ops off = z at hv
    obtain ⟨z, t⟩ := z
    dsimp only at hv
    rw [← hv] at h1 h3
    cases z with
    | error e => exact ⟨rfl, it, gi, nI, nG, k, a, v, rfl, h1, h2, h3⟩
    | ok res =>
      dsimp only
      have u1 : (regroup it gi nI nG k a v t).updateND ops off.rows res =
          ((t.updateND ops off.rows res).1, regroup it gi nI nG k a v (t.updateND ops off.rows res).2) := by
        unfold EA.updateND
        have g1 : (regroup it gi nI nG k a v t).cfg.saveND = t.cfg.saveND := rfl
        have g2 : (regroup it gi nI nG k a v t).nd = t.nd := rfl
        rw [g1, g2]
        cases t.cfg.saveND with
        | false => rfl
        | true =>
          simp only [if_true]
          cases archiveUpdate ops.dom t.nd off.rows res.objectives res.fitness <;> rfl
      have u2 : (t.updateND ops off.rows res).2.vec = t.vec := by
        unfold EA.updateND
        split
        · split <;> rfl
        · rfl
      rw [u1]
      generalize t.updateND ops off.rows res = y at u2
      obtain ⟨y, w⟩ := y
      dsimp only at u2
      rw [← u2] at h1 h3
      cases y with
      | error e => exact ⟨rfl, it, gi, nI, nG, k, a, v, rfl, h1, h2, h3⟩
      | ok _ =>
        dsimp only
        have hse : ops.select (regroup it gi nI nG k a v w).clock (regroup it gi nI nG k a v w).vec (regroup it gi nI nG k a v w).sel
            (regroup it gi nI nG k a v w).pop = ops.select w.clock v w.sel w.pop := rfl
        rw [hse]
        obtain ⟨q1, q2, q3, q4, q5⟩ := hsel w.clock w.vec v w.sel w.pop h3 h2 h1
        generalize ops.select w.clock v w.sel w.pop = r' at q1 q2 q3 q4 q5
        generalize ops.select w.clock w.vec w.sel w.pop = r at q1 q2 q3 q4 q5
        obtain ⟨r', v', t'⟩ := r'
        obtain ⟨r, v2, t2⟩ := r
        dsimp only at q1 q2 q3 q4 q5
        subst q1 q2
        cases r' with
        | error e => exact ⟨rfl, it, gi, nI, nG, k, a, v', rfl, q3, q4, q5⟩
        | ok idx =>
          dsimp only
          have hke : (regroup it gi nI nG k a v w).pop.keep idx = w.pop.keep idx := rfl
          rw [hke]
          generalize w.pop.keep idx = c
          obtain ⟨c, pp⟩ := c
          cases c with
          | error e => exact ⟨rfl, it, gi, nI, nG, k, a, v', rfl, q3, q4, q5⟩
          | ok _ =>
            dsimp only
            have hsu : (regroup it gi nI nG k a v w).cfg.useSurr = w.cfg.useSurr := rfl
            rw [hsu]
            cases w.cfg.useSurr
            · exact ⟨rfl, it, gi + 1, nI, nG, k, a, v', rfl, q3, q4, q5⟩
            · exact ⟨rfl, it, gi + 1, nI, nG, k, a, v', rfl, q3, q4, q5⟩

/-! ## The generations of MOEA/D -/

section moead
variable {m : Nat}

theorem moeadStep_regroup {K : Type} [LinearOrder K] [Zero K] (ops : Ops X O F C U (MoeadVec m K) S Q R) (mo : MoeadOps m K X O F C U) (useRepair : Bool) (i : Nat)
    (it gi nI nG : Nat) (k : Bool) (a : List (Nat × Entry X O F)) (s : EA X O F C U (MoeadVec m K) S Q) :
    moeadStep ops mo useRepair i (regroup it gi nI nG k a s.vec s) =
      ((moeadStep ops mo useRepair i s).1, regroup it gi nI nG k a s.vec (moeadStep ops mo useRepair i s).2) := by
  have h0 : chooseParents (mo.pick (regroup it gi nI nG k a s.vec s).clock) (regroup it gi nI nG k a s.vec s).vec.neigh i = chooseParents (mo.pick s.clock) s.vec.neigh i := rfl
  unfold moeadStep
  rw [h0]
  cases chooseParents (mo.pick s.clock) s.vec.neigh i with
  | error e => rfl
  | ok ab =>
    obtain ⟨p, q⟩ := ab
    dsimp only
    have h1 : mo.mate ((regroup it gi nI nG k a s.vec s).clock + 1) (regroup it gi nI nG k a s.vec s).pop p q = mo.mate (s.clock + 1) s.pop p q := rfl
    rw [h1]
    rcases mo.mate (s.clock + 1) s.pop p q with e | (_ | ⟨x0, xs⟩)
    · rfl
    · rfl
    · dsimp only
      generalize (if useRepair then mo.repair x0 else x0) = x
      obtain ⟨w0, hw0⟩ : ∃ w : EA X O F C U (MoeadVec m K) S Q, w = { s with clock := s.clock + 1 + 1 } := ⟨_, rfl⟩
      have e0 : moeadEvaluate ops x ({ regroup it gi nI nG k a s.vec s with clock := (regroup it gi nI nG k a s.vec s).clock + 1 + 1 } : EA X O F C U (MoeadVec m K) S Q) =
        moeadEvaluate ops x (regroup it gi nI nG k a s.vec w0) := by rw [hw0]; rfl
      have hvs : w0.vec = s.vec := by rw [hw0]
      rw [e0, ← hw0]
      unfold moeadEvaluate
      have hpd : (regroup it gi nI nG k a s.vec w0).popAdd ops ⟨(regroup it gi nI nG k a s.vec w0).pop.ndim - 1, [x]⟩ =
        ((w0.popAdd ops ⟨w0.pop.ndim - 1, [x]⟩).1, regroup it gi nI nG k a s.vec (w0.popAdd ops ⟨w0.pop.ndim - 1, [x]⟩).2) := rfl
      rw [hpd]
      have hv : (w0.popAdd ops ⟨w0.pop.ndim - 1, [x]⟩).2.vec = s.vec := hvs
      generalize w0.popAdd ops ⟨w0.pop.ndim - 1, [x]⟩ = z at hv
      obtain ⟨z, t⟩ := z
      dsimp only at hv
      cases z with
      | error e => rfl
      | ok res =>
        dsimp only
        have key : ∀ u : EA X O F C U (MoeadVec m K) S Q, u.vec = s.vec → moeadFinish ops mo i x res (regroup it gi nI nG k a s.vec u) =
            ((moeadFinish ops mo i x res u).1, regroup it gi nI nG k a s.vec (moeadFinish ops mo i x res u).2) := by
          intro u hu
          unfold moeadFinish
          have g1 : moeadSelect mo (mo.ideal (regroup it gi nI nG k a s.vec u).clock) (regroup it gi nI nG k a s.vec u).vec (regroup it gi nI nG k a s.vec u).pop.fitness i =
            moeadSelect mo (mo.ideal u.clock) u.vec u.pop.fitness i := by rw [hu]; rfl
          rw [g1]
          cases moeadSelect mo (mo.ideal u.clock) u.vec u.pop.fitness i with
          | error e => rfl
          | ok sel =>
            dsimp only
            have g2 : replaceWith (regroup it gi nI nG k a s.vec u).pop sel x res = replaceWith u.pop sel x res := rfl
            rw [g2]
            generalize replaceWith u.pop sel x res = y
            obtain ⟨y, pp⟩ := y
            cases y with
            | error e => rfl
            | ok _ =>
              dsimp only
              generalize pp.delete [-1] = y
              obtain ⟨y, pq⟩ := y
              cases y with
              | error e => rfl
              | ok _ =>
                dsimp only
                unfold EA.updateND
                have g3 : ({ regroup it gi nI nG k a s.vec u with pop := pq } : EA X O F C U (MoeadVec m K) S Q).cfg.saveND = u.cfg.saveND := rfl
                have g4 : ({ regroup it gi nI nG k a s.vec u with pop := pq } : EA X O F C U (MoeadVec m K) S Q).nd = u.nd := rfl
                rw [g3, g4]
                dsimp only
                cases u.cfg.saveND with
                | false => rfl
                | true =>
                  simp only [if_true]
                  cases archiveUpdate ops.dom u.nd [x] res.objectives res.fitness <;> rfl
        have hsu : (regroup it gi nI nG k a s.vec t).cfg.useSurr = t.cfg.useSurr := rfl
        rw [hsu]
        cases t.cfg.useSurr with
        | true => exact key t hv
        | false => exact key ({ t with fe := t.fe + 1 }) hv

theorem moeadNextGen_regroup {K : Type} [LinearOrder K] [Zero K] (ops : Ops X O F C U (MoeadVec m K) S Q R) (mo : MoeadOps m K X O F C U) (useRepair : Bool) (n : Nat)
    (it gi nI nG : Nat) (k : Bool) (a : List (Nat × Entry X O F)) (s : EA X O F C U (MoeadVec m K) S Q) :
    ∃ gi', moeadNextGen ops mo useRepair n (regroup it gi nI nG k a s.vec s) =
      ((moeadNextGen ops mo useRepair n s).1, regroup it gi' nI nG k a s.vec (moeadNextGen ops mo useRepair n s).2) := by
  have hs : ∀ is (s : EA X O F C U (MoeadVec m K) S Q), moeadSteps ops mo useRepair is (regroup it gi nI nG k a s.vec s) =
      ((moeadSteps ops mo useRepair is s).1, regroup it gi nI nG k a s.vec (moeadSteps ops mo useRepair is s).2) := by
    intro is
    induction is with
    | nil => exact fun s => rfl
    | cons i is ih =>
      intro s
      unfold moeadSteps
      rw [moeadStep_regroup]
      generalize hz : moeadStep ops mo useRepair i s = z
      obtain ⟨z, t⟩ := z
      cases z with
      | error e => rfl
      | ok _ =>
        obtain ⟨-, -, -, -, -, hv, -⟩ := moeadStep_ok ops mo useRepair i s t hz
        have := ih t
        rw [hv] at this
        exact this
  unfold moeadNextGen
  rw [hs]
  generalize moeadSteps ops mo useRepair (List.range n) s = z
  obtain ⟨z, t⟩ := z
  cases z with
  | error e => exact ⟨gi, rfl⟩
  | ok _ => exact ⟨gi + 1, rfl⟩

/-- The planar vectors are normalised. -/
def Planar (v : RV m) : Prop := ∀ p ∈ v.planar, planarRow p = p

/-- And the neighbourhoods are those of the planar vectors. -/
def PlanarNear (argsort : List ℝ → List Nat) (n : Nat) (v : MoeadRV m) : Prop := Planar v.rv ∧ v.neigh = neighborhoods argsort n v.rv.planar

theorem rvAdapt_planar (v : RV m) (f : List (Vec m)) (h : Planar v) : Planar (rvAdapt v f) ∧ (rvAdapt v f).planar = v.planar := by
  have : (rvAdapt v f).planar = v.planar := by
    unfold rvAdapt RV.adapt
    cases colMax f with
    | error e => rfl
    | ok hi =>
      cases colMin f with
      | error e => rfl
      | ok lo => exact map_eq_self planarRow v.planar h
  exact ⟨by unfold Planar; rw [this]; exact h, this⟩

theorem moeadAdapt_planar (argsort : List ℝ → List Nat) (n : Nat) (v : MoeadRV m) (f : List (Vec m)) (h : PlanarNear argsort n v) :
    PlanarNear argsort n (moeadAdapt argsort n v f) ∧ (moeadAdapt argsort n v f).toVec = v.toVec := by
  obtain ⟨h1, h2⟩ := h
  have hr := rvAdapt_planar v.rv f h1
  unfold rvAdapt at hr
  unfold moeadAdapt moeadVecCall
  have hcall : v.rv.call (.adapt f) = v.rv.adapt f := rfl
  rw [hcall]
  cases hw : v.rv.adapt f with
  | error e => exact ⟨⟨h1, h2⟩, rfl⟩
  | ok w =>
    rw [hw] at hr
    dsimp only at hr ⊢
    refine ⟨⟨hr.1, rfl⟩, ?_⟩
    show (⟨w.planar, neighborhoods argsort n w.planar⟩ : MoeadVec m ℝ) = ⟨v.rv.planar, v.neigh⟩
    rw [hr.2, h2]

theorem moeadBody_steady (ops : Ops X O F C U (MoeadRV m) S Q R) (mo : MoeadOps m ℝ X O F C U) (useRepair : Bool) (n : Nat) (N : MoeadRV m → Prop) :
    Steady MoeadRV.toVec N (moeadBody ops mo useRepair n) := by
  rintro s _ ⟨it, gi, nI, nG, k, a, v, rfl, h1, h2, h3⟩
  obtain ⟨gi', e⟩ := moeadNextGen_regroup (ops.forGeneration (W := MoeadVec m ℝ)) mo useRepair n it gi nI nG k a (s.withVec s.vec.toVec)
  have e2 : (regroup it gi nI nG k a v s).withVec (regroup it gi nI nG k a v s).vec.toVec =
      regroup it gi nI nG k a (s.withVec s.vec.toVec).vec (s.withVec s.vec.toVec) := by
    show (regroup it gi nI nG k a v s).withVec v.toVec = _
    rw [h1]; rfl
  unfold moeadBody
  dsimp only
  rw [e2, e]
  exact ⟨rfl, it, gi', nI, nG, k, a, v, rfl, h1, h2, h3⟩

theorem moeadBody_counts (ops : Ops X O F C U (MoeadRV m) S Q R) (mo : MoeadOps m ℝ X O F C U) (useRepair : Bool) (n : Nat) :
    CountsGeneration (moeadBody ops mo useRepair n) (fun _ => n) := by
  constructor
  intro s t h
  unfold moeadBody at h
  simp only [Prod.mk.injEq] at h
  obtain ⟨h1, h2⟩ := h
  have := (moead_counts (ops.forGeneration (W := MoeadVec m ℝ)) mo useRepair n).ok (s.withVec s.vec.toVec)
    (moeadNextGen ops.forGeneration mo useRepair n (s.withVec s.vec.toVec)).2 (by rw [← h1])
  rw [← h2]
  exact this

end moead

/-! ## Construction -/

theorem construct_regroup (ops : Ops X O F C U V S Q R) (design : Nat → Nat → Except Err (Batch X)) (vec0 : Nat → V) (sel0 : Nat → S) (prob0 : Q)
    (interact useSurr k b k' : Bool) (nIter nGen nIter' nGen' total : Nat) (problem : Option (ProblemType × Nat × Nat))
    (initPop : Option (Pop X O F C U × Nat)) (ps lr : Option Nat) :
    construct ops design vec0 sel0 prob0 interact useSurr k' b nIter' nGen' total problem initPop ps lr =
      (construct ops design vec0 sel0 prob0 interact useSurr k b nIter nGen total problem initPop ps lr).map
        (fun s => regroup 0 0 nIter' nGen' k' [] s.vec s) := by
  unfold construct
  cases initPop with
  | some pn => cases problem <;> rfl
  | none =>
    cases problem with
    | none => rfl
    | some pr =>
      obtain ⟨ty, m, nCons⟩ := pr
      dsimp only
      cases design 0 (choosePopSize m ps lr) with
      | error e => rfl
      | ok rows =>
        dsimp only
        unfold EA.popAdd
        dsimp only
        generalize (Pop.new nCons).add rows (ops.evaluate 1 useSurr rows) = z
        obtain ⟨z, t⟩ := z
        cases z <;> rfl

/-- What construction sets. -/
theorem construct_silent (ops : Ops X O F C U V S Q R) (design : Nat → Nat → Except Err (Batch X)) (vec0 : Nat → V) (sel0 : Nat → S) (prob0 : Q)
    (useSurr k b : Bool) (nIter nGen total : Nat) (problem : Option (ProblemType × Nat × Nat))
    (initPop : Option (Pop X O F C U × Nat)) (ps lr : Option Nat) (s : EA X O F C U V S Q)
    (h : construct ops design vec0 sel0 prob0 false useSurr k b nIter nGen total problem initPop ps lr = .ok s) :
    Silent s ∧ s.iter = 0 ∧ s.cfg.nIter = nIter ∧ s.cfg.nGen = nGen ∧ ∃ n, s.vec = vec0 n := by
  unfold construct at h
  dsimp only at h
  split at h
  · split at h
    · simp at h
    · simp only [Except.ok.injEq] at h
      subst h
      exact ⟨⟨rfl, rfl⟩, rfl, rfl, rfl, _, rfl⟩
  · split at h
    · simp at h
    · split at h
      · simp at h
      · split at h
        · simp at h
        · rename_i hp
          simp only [Except.ok.injEq] at h
          subst h
          unfold EA.popAdd at hp
          simp only [Prod.mk.injEq] at hp
          rw [← hp.2]
          exact ⟨⟨rfl, rfl⟩, rfl, rfl, rfl, _, rfl⟩

theorem sameOutcome_of {a b c : EA X O F C U V S Q} (h1 : Regrouped φ N a b) (h2 : Regrouped φ N a c) : SameOutcome b c ∧ φ c.vec = φ b.vec := by
  obtain ⟨_, _, _, _, _, _, _, rfl, p1, -⟩ := h1
  obtain ⟨_, _, _, _, _, _, _, rfl, p2, -⟩ := h2
  exact ⟨⟨rfl, rfl, rfl, rfl, rfl, rfl, rfl⟩, p2.trans p1.symm⟩

/-! ## The theorems -/

/-- **C97 (c)**: a non-interactive run of NSGA-III depends on `n_iterations` and `n_gen_per_iter` only through their product.  Two EA objects,
the same arguments except for these two and `keep_archive`, the products equal: the loop `while continue_evolution(): iterate()` ends the
same way, with the same population, operator state, counters of generations and evaluations, saved non-dominated solutions, evaluated
batches and planar vectors.  `fuel` is any number of rounds that suffices. -/
theorem c97_nsga_grouping {m : Nat} (ops : Ops X O (Vec m) (List ℝ) (Vec m) (RV m) (Nsga m) Q R) (ty : SelType)
    (sort : List (Vec m) → List (List Nat)) (solve : List (Vec m) → Option (Vec m)) (rnd : Nat → NicheRand) (ns : Option Nat)
    (had : ops.adapt = rvAdapt) (hsel : ops.select = nsgaSelect ty sort solve rnd ns)
    (design : Nat → Nat → Except Err (Batch X)) (v0 : RV m) (r : Nat) (hv0 : RV.create m r = .ok v0) (sel0 : Nat → Nsga m) (prob0 : Q)
    (useSurr saveND keep keep' : Bool) (nIter nGen nIter' nGen' total : Nat) (hprod : nIter' * nGen' = nIter * nGen)
    (problem : Option (ProblemType × Nat × Nat)) (initPop : Option (Pop X O (Vec m) (List ℝ) (Vec m) × Nat)) (ps lr : Option Nat)
    (prefs prefs' : Nat → Option (Pref R)) (fuel fuel' : Nat) (hf : nIter ≤ fuel) (hf' : nIter' ≤ fuel')
    (s : EA X O (Vec m) (List ℝ) (Vec m) (RV m) (Nsga m) Q)
    (hs : construct ops design (fun _ => v0) sel0 prob0 false useSurr keep saveND nIter nGen total problem initPop ps lr = .ok s) :
    ∃ s', construct ops design (fun _ => v0) sel0 prob0 false useSurr keep' saveND nIter' nGen' total problem initPop ps lr = .ok s' ∧
      (EA.drive ops (EA.nextGen ops) prefs' fuel' s').1 = (EA.drive ops (EA.nextGen ops) prefs fuel s).1 ∧
      SameOutcome (EA.drive ops (EA.nextGen ops) prefs fuel s).2 (EA.drive ops (EA.nextGen ops) prefs' fuel' s').2 ∧
      (EA.drive ops (EA.nextGen ops) prefs' fuel' s').2.vec.planar = (EA.drive ops (EA.nextGen ops) prefs fuel s).2.vec.planar := by
  have hc := construct_regroup ops design (fun _ => v0) sel0 prob0 false useSurr keep saveND keep' nIter nGen nIter' nGen' total problem initPop ps lr
  rw [hs] at hc
  refine ⟨_, hc, ?_⟩
  obtain ⟨s1, s2, s3, s4, n, s5⟩ := construct_silent ops design _ sel0 prob0 useSurr keep saveND nIter nGen total problem initPop ps lr s hs
  have hN : Planar s.vec := by
    rw [s5]
    exact (create_norm r v0 hv0).planar
  have hsteady : Steady (fun v : RV m => v.planar) Planar (EA.nextGen ops) := by
    refine nextGen_steady ops ?_
    intro clk v v' t p h1 h2 h3
    rw [hsel]
    unfold nsgaSelect
    rw [h3]
    cases calcFitness ty p.fitness p.uncertainity with
    | error e => exact ⟨rfl, rfl, h3, h2, h1⟩
    | ok fit =>
      dsimp only
      generalize nsgaDo sort solve (rnd clk) v.planar ns t fit = z
      obtain ⟨z, t2⟩ := z
      cases z with
      | error e => exact ⟨rfl, rfl, h3, h2, h1⟩
      | ok sel => exact ⟨rfl, rfl, h3, h2, h1⟩
  have hadapt : ∀ v f, Planar v → Planar (ops.adapt v f) ∧ (ops.adapt v f).planar = v.planar := by rw [had]; exact fun v f h => rvAdapt_planar v f h
  have r1 : Regrouped (fun v : RV m => v.planar) Planar s s :=
    ⟨s.iter, s.genIter, s.cfg.nIter, s.cfg.nGen, s.cfg.keepArchive, s.archive, s.vec, rfl, rfl, hN, hN⟩
  have r2 : Regrouped (fun v : RV m => v.planar) Planar s (regroup 0 0 nIter' nGen' keep' [] s.vec s) := ⟨_, _, _, _, _, _, _, rfl, rfl, hN, hN⟩
  obtain ⟨d1, d2⟩ := drive_gens (nextGen_counts ops).ticks hsteady ops hadapt prefs fuel s s r1 s1 (by omega)
  obtain ⟨d3, d4⟩ := drive_gens (nextGen_counts ops).ticks hsteady ops hadapt prefs' fuel' s _ r2 s1 (by show nIter' - 0 ≤ _; omega)
  have hk : ((regroup 0 0 nIter' nGen' keep' [] s.vec s).cfg.nIter - (regroup 0 0 nIter' nGen' keep' [] s.vec s).iter) *
      (regroup 0 0 nIter' nGen' keep' [] s.vec s).cfg.nGen = (s.cfg.nIter - s.iter) * s.cfg.nGen := by
    show (nIter' - 0) * nGen' = _
    rw [s2, s3, s4, Nat.sub_zero, Nat.sub_zero, hprod]
  rw [hk] at d3 d4
  obtain ⟨o1, o2⟩ := sameOutcome_of d2 d4
  exact ⟨d3.trans d1.symm, o1, o2⟩

/-- **C97 (c)** for MOEA/D. -/
theorem c97_moead_grouping {m : Nat} (ops : Ops X O (Vec m) C U (MoeadRV m) S Q R) (mo : MoeadOps m ℝ X O (Vec m) C U) (useRepair : Bool) (N : Nat)
    (design : Nat → Nat → Except Err (Batch X)) (argsort : List ℝ → List Nat) (nNeighbors nParents : Nat) (sel0 : S) (prob0 : Q)
    (had : ops.adapt = moeadAdapt argsort nNeighbors)
    (useSurr saveND keep keep' : Bool) (nIter nGen nIter' nGen' total : Nat) (hprod : nIter' * nGen' = nIter * nGen)
    (pty : ProblemType) (nCons : Nat) (ps lr : Option Nat)
    (prefs prefs' : Nat → Option (Pref R)) (fuel fuel' : Nat) (hf : nIter ≤ fuel) (hf' : nIter' ≤ fuel')
    (s : EA X O (Vec m) C U (MoeadRV m) S Q)
    (hs : moeadConstruct ops design argsort nNeighbors nParents sel0 prob0 false useSurr keep saveND nIter nGen total pty nCons ps lr = .ok s) :
    ∃ s', moeadConstruct ops design argsort nNeighbors nParents sel0 prob0 false useSurr keep' saveND nIter' nGen' total pty nCons ps lr = .ok s' ∧
      (EA.drive ops (moeadBody ops mo useRepair N) prefs' fuel' s').1 = (EA.drive ops (moeadBody ops mo useRepair N) prefs fuel s).1 ∧
      SameOutcome (EA.drive ops (moeadBody ops mo useRepair N) prefs fuel s).2 (EA.drive ops (moeadBody ops mo useRepair N) prefs' fuel' s').2 ∧
      (EA.drive ops (moeadBody ops mo useRepair N) prefs' fuel' s').2.vec.toVec = (EA.drive ops (moeadBody ops mo useRepair N) prefs fuel s).2.vec.toVec := by
  unfold moeadConstruct at hs ⊢
  have hc := construct_regroup ops design (fun _ => (⟨⟨[], [], [], [], 0⟩, []⟩ : MoeadRV m)) (fun _ => sel0) prob0 false useSurr keep saveND keep' nIter nGen nIter' nGen'
    total (some (pty, m, nCons)) none ps lr
  cases hz : construct ops design (fun _ => (⟨⟨[], [], [], [], 0⟩, []⟩ : MoeadRV m)) (fun _ => sel0) prob0 false useSurr keep saveND
      nIter nGen total (some (pty, m, nCons)) none ps lr with
  | error e => rw [hz] at hs; simp at hs
  | ok s0 =>
    obtain ⟨s1, s2, s3, s4, -⟩ := construct_silent ops design _ (fun _ => sel0) prob0 useSurr keep saveND nIter nGen total _ none ps lr s0 hz
    rw [hz] at hs hc
    rw [hc]
    simp only [Except.map] at hs ⊢
    split at hs
    · simp at hs
    · rename_i hnp
      rw [if_neg hnp]
      split at hs
      · simp at hs
      · simp at hs
      · rename_i r hr
        split at hs
        · simp at hs
        · rename_i v hv
          simp only [Except.ok.injEq] at hs
          refine ⟨_, rfl, ?_⟩
          subst hs
          have hN : PlanarNear argsort nNeighbors (moeadInit argsort nNeighbors v) := ⟨(create_norm r v hv).planar, rfl⟩
          have hsteady := moeadBody_steady ops mo useRepair N (PlanarNear argsort nNeighbors)
          have hadapt : ∀ v f, PlanarNear argsort nNeighbors v → PlanarNear argsort nNeighbors (ops.adapt v f) ∧ (ops.adapt v f).toVec = v.toVec := by
            rw [had]; exact fun v f h => moeadAdapt_planar argsort nNeighbors v f h
          obtain ⟨sA, hsA⟩ : ∃ a : EA X O (Vec m) C U (MoeadRV m) S Q, a = { s0 with vec := moeadInit argsort nNeighbors v } := ⟨_, rfl⟩
          obtain ⟨sB, hsB⟩ : ∃ a : EA X O (Vec m) C U (MoeadRV m) S Q, a = regroup 0 0 nIter' nGen' keep' [] (moeadInit argsort nNeighbors v) s0 := ⟨_, rfl⟩
          have eB : ({ regroup 0 0 nIter' nGen' keep' [] s0.vec s0 with vec := moeadInit argsort nNeighbors v } : EA X O (Vec m) C U (MoeadRV m) S Q) = sB := by
            rw [hsB]; rfl
          rw [eB, ← hsA]
          have r1 : Regrouped MoeadRV.toVec (PlanarNear argsort nNeighbors) sA sA := by
            rw [hsA]
            exact ⟨s0.iter, s0.genIter, s0.cfg.nIter, s0.cfg.nGen, s0.cfg.keepArchive, s0.archive, _, rfl, rfl, hN, hN⟩
          have r2 : Regrouped MoeadRV.toVec (PlanarNear argsort nNeighbors) sA sB := by
            rw [hsA, hsB]
            exact ⟨0, 0, nIter', nGen', keep', [], _, rfl, rfl, hN, hN⟩
          have cA : sA.cfg = s0.cfg ∧ sA.iter = s0.iter := by rw [hsA]; exact ⟨rfl, rfl⟩
          have cB : Silent sB ∧ sB.iter = 0 ∧ sB.cfg.nIter = nIter' ∧ sB.cfg.nGen = nGen' := by rw [hsB]; exact ⟨s1, rfl, rfl, rfl⟩
          obtain ⟨d1, d2⟩ := drive_gens (moeadBody_counts ops mo useRepair N).ticks hsteady ops hadapt prefs fuel sA sA r1 (by unfold Silent; rw [cA.1]; exact s1)
            (by rw [cA.1, cA.2]; omega)
          obtain ⟨d3, d4⟩ := drive_gens (moeadBody_counts ops mo useRepair N).ticks hsteady ops hadapt prefs' fuel' sA sB r2 cB.1 (by rw [cB.2.1, cB.2.2.1]; omega)
          have hk : (sB.cfg.nIter - sB.iter) * sB.cfg.nGen = (sA.cfg.nIter - sA.iter) * sA.cfg.nGen := by
            rw [cB.2.1, cB.2.2.1, cB.2.2.2, cA.1, cA.2, s2, s3, s4, Nat.sub_zero, Nat.sub_zero, hprod]
          rw [hk] at d3 d4
          obtain ⟨o1, o2⟩ := sameOutcome_of d2 d4
          exact ⟨d3.trans d1.symm, o1, o2⟩

/-! ## Non-vacuity -/

/-- The NSGA-III of the demonstration of C96 with its lattice of vectors is of the shape assumed: 2 iterations of 3 generations and 3 of 2. -/
example (con : Row 1 → List ℝ) : (demo96 con).adapt = rvAdapt ∧
    ∃ (v0 : RV 2) (s : EA (Row 1) (Vec 2) (Vec 2) (List ℝ) (Vec 2) (RV 2) (Nsga 2) Unit), RV.create 2 1 = .ok v0 ∧
      construct (demo96 con) demo93Design (fun _ => v0) (fun _ => ⟨0, none, none⟩) () false false true true 2 3 0
        (some (.data, 2, 1)) none (some 4) none = .ok s ∧ 3 * 2 = 2 * 3 := ⟨rfl, _, _, rfl, rfl, rfl⟩

/-- `demoEA` in 2 iterations of 3 generations and in 6 of 1. -/
def demo97 (ops : Ops Nat Nat Nat Nat Nat Nat Nat Nat Nat) (nIter nGen : Nat) : Option (List Nat) :=
  match construct ops (fun _ n => .ok ⟨2, List.range n⟩) id id 0 false false true false nIter nGen 0 (some (.mo, 2, 0)) none (some 2) none with
  | .ok s => (EA.drive ops (EA.nextGen ops) (fun _ => none) nIter s).2.pop.individuals
  | .error _ => none

example : demo97 demoEA 2 3 = some [6, 7] ∧ demo97 demoEA 6 1 = some [6, 7] := by decide

/-- The condition on the selection is needed: one that reads the part of the vectors that changes with every iteration (as RVEA's does) keeps
other individuals when the generations are grouped differently. -/
example : ∃ sel : Nat → Nat → Nat → Pop Nat Nat Nat Nat Nat → Except Err (List Int) × Nat × Nat,
    demo97 { demoEA with select := sel } 2 3 ≠ demo97 { demoEA with select := sel } 6 1 :=
  ⟨fun _ v t _ => (.ok (if 9 ≤ v then [0, 1] else [-1, -2]), v, t), by decide⟩

/-- With `save_non_dominated` and without: `demoEA`, started, has rows for rows. -/
example : (∀ clk surr off r, demoEA.evaluate clk surr off = .ok r → RowPerRow off.rows r) ∧
    ∃ s t o, construct demoEA (fun _ n => .ok ⟨2, List.range n⟩) id id 0 false false true true 2 3 0 (some (.mo, 2, 0)) none (some 2) none = .ok s ∧
      s.start demoEA = (.ok o, t) ∧ (t.calls demoEA [.iterate none]).nd.isSome = true := by
  refine ⟨fun clk surr off r h => ?_, _, _, _, rfl, rfl, rfl⟩
  simp only [demoEA, Except.ok.injEq] at h
  subst h
  exact ⟨rfl, rfl⟩

end Verif.Props
