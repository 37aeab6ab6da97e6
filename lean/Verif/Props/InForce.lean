import Verif.Proofs.EA
import Verif.Proofs.Bounds
import Verif.Proofs.Runs
import Verif.Props.RefVectors
import Verif.Props.Runs
import Verif.Props.Loop

/-!
# C64: what the user said is in force during the whole iteration

`select` is asked with the vectors of the moment.  "Selection only ever sees the vectors `w`" is stated by exchange: any other
selection that agrees with the given one on `w` gives the same iteration.
-/

namespace Verif.Props
open Verif

variable {X O F C U V S Q R : Type}

/-- The EA with another selection operator. -/
def withSelect (ops : Ops X O F C U V S Q R) (sel : Nat → V → S → Pop X O F C U → Except Err (List Int) × V × S) :
    Ops X O F C U V S Q R := { ops with select := sel }

/-- Selection uses the vectors but does not change them (true of all operators here: `Model/Runs.lean`). -/
def SelectReads (ops : Ops X O F C U V S Q R) : Prop := ∀ clk v t p, (ops.select clk v t p).2.1 = v

/-- During `iterate(pref)` on `s` every selection is made with the vectors `w`, and they are the vectors afterwards. -/
def InForce (ops : Ops X O F C U V S Q R) (s : EA X O F C U V S Q) (pref : Option (Pref R)) (w : V) : Prop :=
  (s.iterate ops pref).2.vec = w ∧
  ∀ sel, (∀ clk t p, sel clk w t p = ops.select clk w t p) → s.iterate (withSelect ops sel) pref = s.iterate ops pref

theorem nextGen_inForce (ops : Ops X O F C U V S Q R) (hr : SelectReads ops) (s : EA X O F C U V S Q) (w : V) (hw : s.vec = w) :
    (EA.nextGen ops s).2.vec = w ∧
    ∀ sel, (∀ clk t p, sel clk w t p = ops.select clk w t p) → EA.nextGen (withSelect ops sel) s = EA.nextGen ops s := by
  have hpa : ∀ sel (s : EA X O F C U V S Q) off, s.popAdd (withSelect ops sel) off = s.popAdd ops off := fun _ _ _ => rfl
  unfold EA.nextGen
  have hma : ∀ sel, (withSelect ops sel).mate = ops.mate := fun _ => rfl
  simp only [hma, hpa]
  cases hmate : ops.mate s.clock s.pop with
  | error e => exact ⟨hw, fun _ _ => rfl⟩
  | ok off =>
    dsimp only
    have hf : ((({ s with clock := s.clock + 1 } : EA X O F C U V S Q)).popAdd ops off).2.vec = w :=
      (popAdd_frame ops { s with clock := s.clock + 1 } off).2.2.2.2.2.2.2.2.1.trans hw
    generalize EA.popAdd ops { s with clock := s.clock + 1 } off = q at hf
    obtain ⟨q1, s1⟩ := q
    dsimp only at hf
    cases q1 with
    | error e => exact ⟨hf, fun _ _ => rfl⟩
    | ok res =>
      dsimp only
      obtain ⟨-, f2, -, -, -⟩ := updateND_frameR ops s1 off.rows res
      have key : ∀ (q : EARes Unit X O F C U V S Q), q = s1.updateND ops off.rows res → q.2.vec = w := by
        intro q hq; rw [hq, f2]; exact hf
      have hdom : ∀ sel, (withSelect ops sel).dom = ops.dom := fun _ => rfl
      simp only [hdom]
      generalize hq : (if s1.cfg.saveND = true then
          match archiveUpdate ops.dom s1.nd off.rows res.objectives res.fitness with
          | Except.error e => ((Except.error e, s1) : EARes Unit X O F C U V S Q)
          | Except.ok nd => (Except.ok (), { s1 with nd := some nd })
        else (Except.ok (), s1)) = q
      have hv := key q hq.symm
      obtain ⟨q1, s2⟩ := q
      dsimp only at hv
      cases q1 with
      | error e => exact ⟨hv, fun _ _ => rfl⟩
      | ok _ =>
        dsimp only
        refine ⟨?_, ?_⟩
        · have hrd := hr s2.clock s2.vec s2.sel s2.pop
          generalize ops.select s2.clock s2.vec s2.sel s2.pop = z at hrd
          obtain ⟨z1, z2, z3⟩ := z
          dsimp only at hrd
          subst hrd
          cases z1 with
          | error e => exact hv
          | ok idx =>
            dsimp only
            generalize s2.pop.keep idx = kk
            obtain ⟨k1, p⟩ := kk
            cases k1 with
            | error e => exact hv
            | ok _ =>
              dsimp only
              split <;> exact hv
        · intro sel hsel
          have : (withSelect ops sel).select s2.clock s2.vec s2.sel s2.pop = ops.select s2.clock s2.vec s2.sel s2.pop := by
            rw [hv]; exact hsel _ _ _
          rw [this]

theorem loop_inForce (ops : Ops X O F C U V S Q R) (hr : SelectReads ops) (w : V) (fuel : Nat) :
    ∀ s : EA X O F C U V S Q, s.vec = w → (EA.loop (EA.nextGen ops) fuel s).2.vec = w ∧
      ∀ sel, (∀ clk t p, sel clk w t p = ops.select clk w t p) →
        EA.loop (EA.nextGen (withSelect ops sel)) fuel s = EA.loop (EA.nextGen ops) fuel s := by
  induction fuel with
  | zero => exact fun s h => ⟨h, fun _ _ => rfl⟩
  | succ fuel ih =>
    intro s h
    obtain ⟨h1, h2⟩ := nextGen_inForce ops hr s w h
    unfold EA.loop
    split
    · refine ⟨?_, ?_⟩
      · generalize EA.nextGen ops s = r at h1
        obtain ⟨r, t⟩ := r
        cases r with
        | error e => exact h1
        | ok _ => exact (ih t h1).1
      · intro sel hsel
        rw [h2 sel hsel]
        generalize EA.nextGen ops s = r at h1
        obtain ⟨r, t⟩ := r
        cases r with
        | error e => rfl
        | ok _ => exact (ih t h1).2 sel hsel
    · exact ⟨h, fun _ _ => rfl⟩

/-- The vectors at the beginning of the first generation stay in force. -/
theorem iterate_inForce (ops : Ops X O F C U V S Q R) (hr : SelectReads ops) (s : EA X O F C U V S Q) (pref : Option (Pref R)) (w : V)
    (hok : (s.managePreferences ops pref).1 = .ok ()) (hw : ((s.managePreferences ops pref).2.preIteration ops).vec = w) :
    InForce ops s pref w := by
  have hm : ∀ sel, s.managePreferences (withSelect ops sel) pref = s.managePreferences ops pref := fun _ => rfl
  have hp : ∀ sel (t : EA X O F C U V S Q), t.preIteration (withSelect ops sel) = t.preIteration ops := fun _ _ => rfl
  have hq : ∀ sel (t : EA X O F C U V S Q), t.requestPreferences (withSelect ops sel) = t.requestPreferences ops := fun _ _ => rfl
  unfold InForce EA.iterate EA.iterateWith
  simp only [hm, hp, hq]
  generalize s.managePreferences ops pref = r at hok hw
  obtain ⟨r, t⟩ := r
  dsimp only at hok hw
  subst hok
  dsimp only
  generalize t.preIteration ops = u at hw
  obtain ⟨l1, l2⟩ := loop_inForce ops hr w u.cfg.nGen ({ u with genIter := 0 }) hw
  refine ⟨?_, ?_⟩
  · generalize EA.loop (EA.nextGen ops) u.cfg.nGen { u with genIter := 0 } = r at l1
    obtain ⟨r, v⟩ := r
    dsimp only at l1
    cases r with
    | error e => exact l1
    | ok _ => exact (requestPreferences_frame ops _).2.2.2.2.2.2.trans l1
  · intro sel hsel
    rw [l2 sel hsel]

/-- C64. Interactive, location Selection: an accepted preference decides the vectors of the whole iteration: they are those made from
the ones before by the response, and nothing in the iteration (in particular not the usual adaptation to the fitness) changes them. -/
theorem c64_preference_in_force (ops : Ops X O F C U V S Q R) (hr : SelectReads ops) (s : EA X O F C U V S Q)
    (hloc : s.cfg.location = some .selection) (hint : s.cfg.interact = true) (p : Pref R) (k : Kind)
    (hid : s.reqId = some p.id) (hk : s.itype = some k) (hc : p.cls = k.cls)
    (hok : (ops.respond s.clock k s.vec s.pop p.response).1 = .ok ()) :
    InForce ops s (some p) (ops.respond s.clock k s.vec s.pop p.response).2 := by
  have hmp : s.managePreferences ops (some p) =
      (.ok (), { s with vec := (ops.respond s.clock k s.vec s.pop p.response).2, clock := s.clock + 1 }) := by
    unfold EA.managePreferences EA.selManage
    simp [hloc, hid, hk, hc, hok]
  refine iterate_inForce ops hr s (some p) _ (by rw [hmp]) ?_
  rw [hmp]
  dsimp only
  simp only [EA.preIteration, EA.record]
  split <;> simp [hint, hloc]

/-- C64. Interactive, location Selection, no preference: the vectors are those adapted to the fitness of the population at the beginning. -/
theorem c64_no_preference_adapts (ops : Ops X O F C U V S Q R) (hr : SelectReads ops) (s : EA X O F C U V S Q)
    (hloc : s.cfg.location = some .selection) (hint : s.cfg.interact = true) :
    InForce ops s none (ops.adapt s.vec s.pop.fitness) := by
  have hmp : s.managePreferences ops none = (.ok (), { s with vec := ops.adapt s.vec s.pop.fitness }) := by
    unfold EA.managePreferences EA.selManage
    simp [hloc]
  refine iterate_inForce ops hr s none _ (by rw [hmp]) ?_
  rw [hmp]
  simp only [EA.preIteration, EA.record]
  split <;> simp [hint, hloc]

/-- C64. Not interactive: whatever is passed as preference, the vectors are those adapted to the fitness at the beginning (adapted twice
in a row; `c64_adapt_twice`: that is the same as once). -/
theorem c64_noninteractive_adapts (ops : Ops X O F C U V S Q R) (hr : SelectReads ops) (s : EA X O F C U V S Q)
    (hloc : s.cfg.location = none) (hint : s.cfg.interact = false) (pref : Option (Pref R)) :
    InForce ops s pref (ops.adapt (ops.adapt s.vec s.pop.fitness) s.pop.fitness) := by
  have hmp : s.managePreferences ops pref = (.ok (), s) := by
    unfold EA.managePreferences
    simp [hloc]
  refine iterate_inForce ops hr s pref _ (by rw [hmp]) ?_
  rw [hmp]
  simp only [EA.preIteration, EA.record]
  split <;> simp [hint, hloc]

/-- C64. Location Problem (IOPIS): after an accepted preference the fitness column is the re-evaluation of the population's objectives by
the problem in its new state, with as individuals and objectives those of before, and the vectors in force are adapted to this new fitness. -/
theorem c64_problem_preference (ops : Ops X O F C U V S Q R) (hr : SelectReads ops) (s : EA X O F C U V S Q)
    (hloc : s.cfg.location = some .problem) (hint : s.cfg.interact = true) (pref : Option (Pref R))
    (q : Q) (hok : ops.probManage s.prob s.pop pref = (.ok (), q)) :
    let fit := (ops.probReeval q s.pop.objectives).1
    (s.managePreferences ops pref).2.pop.fitness = fit ∧
      (s.managePreferences ops pref).2.pop.individuals = s.pop.individuals ∧
      (s.managePreferences ops pref).2.pop.objectives = s.pop.objectives ∧
      (s.managePreferences ops pref).2.prob = (ops.probReeval q s.pop.objectives).2 ∧
      InForce ops s pref (ops.adapt s.vec fit) := by
  intro fit
  have hmp : s.managePreferences ops pref = (.ok (), { s with prob := (ops.probReeval q s.pop.objectives).2, pop := { s.pop with fitness := fit } }) := by
    unfold EA.managePreferences
    simp [hloc, hok, fit]
  refine ⟨by rw [hmp], by rw [hmp], by rw [hmp], by rw [hmp], ?_⟩
  refine iterate_inForce ops hr s pref _ (by rw [hmp]) ?_
  rw [hmp]
  simp only [EA.preIteration, EA.record]
  split <;> simp [hint, hloc]

/-- C64. Adapting twice to the same fitness is adapting once (for vectors as they are after creation or any call). -/
theorem c64_adapt_twice {m : Nat} (v : RV m) (f : List (Vec m)) : rvAdapt (rvAdapt v f) f = rvAdapt v f := by
  have key : ∀ w, v.adapt f = .ok w → w.adapt f = .ok w := by
    intro w hw
    unfold RV.adapt at hw ⊢
    cases h1 : colMax f with
    | error e => rw [h1] at hw; simp at hw
    | ok a =>
      cases h2 : colMin f with
      | error e => rw [h1, h2] at hw; simp at hw
      | ok b =>
        rw [h1, h2] at hw
        simp only [Except.ok.injEq] at hw ⊢
        subst hw
        simp only [RV.normalize, RV.mk.injEq, List.map_map, true_and, List.length_map, and_true]
        refine List.map_congr_left ?_
        intro p _
        exact planarRow_idem p
  unfold rvAdapt
  cases hv : v.adapt f with
  | error e => dsimp only; rw [hv]
  | ok w => dsimp only; rw [key w hv]

/-- The selection operators of RVEA and NSGA-III only read the vectors. -/
theorem c64_selection_reads {m n : Nat} (ops : Ops (Row n) O (Vec m) (List ℝ) (Vec m) (RV m) (Vec m) Q R) (ty : SelType) (pen : Nat → ℝ)
    (pi : Nat → Vec m) (h : ops.select = rveaSelect ty pen pi) : SelectReads ops := by
  intro clk v t p
  rw [h]
  unfold rveaSelect
  split
  · split <;> rfl
  · rfl
  · rfl

theorem c64_nsga_selection_reads {m n : Nat} (ops : Ops (Row n) O (Vec m) (List ℝ) (Vec m) (RV m) (Nsga m) Q R) (ty : SelType)
    (sort : List (Vec m) → List (List Nat)) (solve : List (Vec m) → Option (Vec m)) (rnd : Nat → NicheRand) (ns : Option Nat)
    (h : ops.select = nsgaSelect ty sort solve rnd ns) : SelectReads ops := by
  intro clk v t p
  rw [h]
  unfold nsgaSelect
  split
  · rfl
  · split <;> rfl

/-- Non-vacuity: a preference answering the request made by `start()`. -/
example : SelectReads demoEA ∧ ∃ (s t : EA Nat Nat Nat Nat Nat Nat Nat Nat), demoState true false 0 = .ok s ∧
    s.calls demoEA [.setType (some "Reference point"), .start] = t ∧ t.cfg.location = some .selection ∧ t.cfg.interact = true ∧
    t.itype = some .refPoint ∧ t.reqId = some (⟨2, .referencePoint, 5⟩ : Pref Nat).id ∧
    (demoEA.respond t.clock .refPoint t.vec t.pop 5).1 = .ok () :=
  ⟨fun _ _ _ _ => rfl, _, _, rfl, rfl, rfl, rfl, rfl, rfl, rfl⟩

end Verif.Props
