import Verif.Model.MoeadRun
import Verif.Props.MOEAD
import Verif.Props.Runs

/-!
# C74: whole runs of MOEA/D
-/

namespace Verif.Props
open Verif Verif.Spec
open _root_.Spec (Rec Represents EvalOK newRecs rowsAt names inRange)

variable {m n : Nat} {X O F C U S Q R : Type}

/-! ## The generation keeps counters when it raises -/

theorem moeadStep_gen {K : Type} [LT K] [DecidableRel (α := K) (· < ·)] [Zero K] [DecidableEq K]
    (ops : Ops X O F C U (MoeadVec m K) S Q R) (mo : MoeadOps m K X O F C U) (useRepair : Bool) (i : Nat)
    (s : EA X O F C U (MoeadVec m K) S Q) :
    (moeadStep ops mo useRepair i s).2.gen = s.gen ∧ (moeadStep ops mo useRepair i s).2.cfg = s.cfg ∧
      (moeadStep ops mo useRepair i s).2.iter = s.iter := by
  have hev : ∀ (x : X) (u : EA X O F C U (MoeadVec m K) S Q), (moeadEvaluate ops x u).2.gen = u.gen ∧
      (moeadEvaluate ops x u).2.cfg = u.cfg ∧ (moeadEvaluate ops x u).2.iter = u.iter := by
    intro x u
    unfold moeadEvaluate EA.popAdd
    dsimp only
    generalize u.pop.add _ _ = r
    obtain ⟨r, p⟩ := r
    cases r with
    | error e => exact ⟨rfl, rfl, rfl⟩
    | ok _ => dsimp only; split <;> exact ⟨rfl, rfl, rfl⟩
  have hfin : ∀ (x : X) (res : Results O F C U) (u : EA X O F C U (MoeadVec m K) S Q), (moeadFinish ops mo i x res u).2.gen = u.gen ∧
      (moeadFinish ops mo i x res u).2.cfg = u.cfg ∧ (moeadFinish ops mo i x res u).2.iter = u.iter := by
    intro x res u
    unfold moeadFinish EA.updateND
    repeat' split
    all_goals exact ⟨rfl, rfl, rfl⟩
  unfold moeadStep
  split
  · exact ⟨rfl, rfl, rfl⟩
  · dsimp only
    split
    · exact ⟨rfl, rfl, rfl⟩
    · exact ⟨rfl, rfl, rfl⟩
    · rename_i x0 xs _
      have h1 := hev (if useRepair then mo.repair x0 else x0) { s with clock := s.clock + 1 + 1 }
      split
      · rename_i heq
        rw [heq] at h1
        exact h1
      · rename_i res t heq
        rw [heq] at h1
        have h2 := hfin (if useRepair then mo.repair x0 else x0) res t
        exact ⟨h2.1.trans h1.1, h2.2.1.trans h1.2.1, h2.2.2.trans h1.2.2⟩

theorem moeadSteps_gen {K : Type} [LT K] [DecidableRel (α := K) (· < ·)] [Zero K] [DecidableEq K]
    (ops : Ops X O F C U (MoeadVec m K) S Q R) (mo : MoeadOps m K X O F C U) (useRepair : Bool) (is : List Nat) :
    ∀ s : EA X O F C U (MoeadVec m K) S Q, (moeadSteps ops mo useRepair is s).2.gen = s.gen ∧
      (moeadSteps ops mo useRepair is s).2.cfg = s.cfg ∧ (moeadSteps ops mo useRepair is s).2.iter = s.iter := by
  induction is with
  | nil => exact fun s => ⟨rfl, rfl, rfl⟩
  | cons i is ih =>
    intro s
    have h1 := moeadStep_gen ops mo useRepair i s
    unfold moeadSteps
    generalize moeadStep ops mo useRepair i s = r at h1
    obtain ⟨r, t⟩ := r
    cases r with
    | error e => exact h1
    | ok _ =>
      have h2 := ih t
      exact ⟨h2.1.trans h1.1, h2.2.1.trans h1.2.1, h2.2.2.trans h1.2.2⟩

/-! ## Histories of a non-interactive EA -/

/-- An invariant of states that looks at population, vectors, settings, generation count and archive of non-dominated solutions,
preserved by adaptation and by the generation, holds over any history of calls on an EA without interaction. -/
theorem callsWith_inv {V : Type} (ops : Ops X O F C U V S Q R) (body : EA X O F C U V S Q → EARes Unit X O F C U V S Q)
    (P : Pop X O F C U → V → Cfg → Nat → Option (NDArchive X O F) → Prop)
    (hcfg : ∀ p v c g a, P p v c g a → c.interact = false ∧ c.location = none)
    (hadapt : ∀ p v c g a, P p v c g a → P p (ops.adapt v p.fitness) c g a)
    (hstart : ∀ p v c g a a' inds, P p v c g a → c.saveND = true → p.individuals = some inds →
      startArchive ops.nonDom inds p.objectives p.fitness = .ok a' → P p v c g (some a'))
    (hbody : ∀ s, P s.pop s.vec s.cfg s.gen s.nd → P (body s).2.pop (body s).2.vec (body s).2.cfg (body s).2.gen (body s).2.nd)
    (cs : List (Call R)) : ∀ s : EA X O F C U V S Q, P s.pop s.vec s.cfg s.gen s.nd →
      P (s.callsWith ops body cs).pop (s.callsWith ops body cs).vec (s.callsWith ops body cs).cfg (s.callsWith ops body cs).gen
        (s.callsWith ops body cs).nd := by
  have hloop : ∀ fuel (s : EA X O F C U V S Q), P s.pop s.vec s.cfg s.gen s.nd →
      P (EA.loop body fuel s).2.pop (EA.loop body fuel s).2.vec (EA.loop body fuel s).2.cfg (EA.loop body fuel s).2.gen
        (EA.loop body fuel s).2.nd := by
    intro fuel
    induction fuel with
    | zero => exact fun s h => h
    | succ fuel ih =>
      intro s h
      unfold EA.loop
      split
      · have h1 := hbody s h
        generalize body s = r at h1
        obtain ⟨r, t⟩ := r
        cases r with
        | error e => exact h1
        | ok _ => exact ih t h1
      · exact h
  have hreq : ∀ s : EA X O F C U V S Q, s.cfg.interact = false → s.requestPreferences ops = (.ok none, s) := by
    intro s h; unfold EA.requestPreferences; rw [if_pos h]
  induction cs with
  | nil => exact fun s h => h
  | cons c cs ih =>
    intro s h
    obtain ⟨c1, c2⟩ := hcfg _ _ _ _ _ h
    cases c with
    | start =>
      apply ih
      unfold EA.start
      rw [if_neg (by simp [c1])]
      dsimp only
      split
      · rename_i e t hq
        split at hq
        · split at hq
          · simp only [Prod.mk.injEq] at hq; rw [← hq.2]; exact h
          · split at hq
            · simp only [Prod.mk.injEq] at hq; rw [← hq.2]; exact h
            · simp at hq
        · simp at hq
      · rename_i u t hq
        have ht : P t.pop t.vec t.cfg t.gen t.nd ∧ t.cfg = s.cfg := by
          split at hq
          · rename_i hsv
            split at hq
            · simp at hq
            · rename_i inds hinds
              split at hq
              · simp at hq
              · rename_i a' ha'
                simp only [Prod.mk.injEq] at hq
                rw [← hq.2]
                exact ⟨hstart _ _ _ _ _ a' inds h hsv hinds ha', rfl⟩
          · simp only [Prod.mk.injEq] at hq; rw [← hq.2]; exact ⟨h, rfl⟩
        rw [hreq t (by rw [ht.2]; exact c1)]
        exact ht.1
    | setType a =>
      apply ih
      unfold EA.setInteractionType
      rw [c2]
      exact h
    | readAllowable =>
      apply ih
      have hset : s.setInteractionType none = (.ok (), s) := by unfold EA.setInteractionType; rw [c2]
      unfold EA.readAllowable
      rw [hset]
      split <;> exact h
    | iterate p =>
      apply ih
      have hmp : s.managePreferences ops p = (.ok (), s) := by unfold EA.managePreferences; rw [c2]
      unfold EA.iterateWith
      rw [hmp]
      dsimp only
      have hp : P (s.preIteration ops).pop (s.preIteration ops).vec (s.preIteration ops).cfg (s.preIteration ops).gen
          (s.preIteration ops).nd := by
        have hr : s.record.pop = s.pop ∧ s.record.vec = s.vec ∧ s.record.cfg = s.cfg ∧ s.record.gen = s.gen ∧ s.record.nd = s.nd := by
          unfold EA.record; split <;> exact ⟨rfl, rfl, rfl, rfl, rfl⟩
        obtain ⟨r1, r2, r3, r4, r5⟩ := hr
        have h0 : P s.record.pop s.record.vec s.record.cfg s.record.gen s.record.nd := by rw [r1, r2, r3, r4, r5]; exact h
        have e1 : (!s.record.cfg.interact) = true := by rw [r3, c1]; rfl
        have e2 : s.record.cfg.location ≠ some .selection := by rw [r3, c2]; simp
        simp only [EA.preIteration]
        rw [if_pos e1, if_pos e2]
        exact hadapt _ _ _ _ _ (hadapt _ _ _ _ _ h0)
      generalize s.preIteration ops = u at hp
      have h3 := hloop u.cfg.nGen ({ u with genIter := 0 }) hp
      generalize EA.loop body u.cfg.nGen { u with genIter := 0 } = r at h3
      obtain ⟨r, v⟩ := r
      cases r with
      | error e => exact h3
      | ok _ =>
        dsimp only at h3 ⊢
        rw [hreq { v with iter := v.iter + 1 } (hcfg _ _ _ _ _ h3).1]
        exact h3

/-- If moreover the generation never raises, `iterate()` returns. -/
theorem iterateWith_returns {V : Type} (ops : Ops X O F C U V S Q R) (body : EA X O F C U V S Q → EARes Unit X O F C U V S Q)
    (P : Pop X O F C U → V → Cfg → Nat → Option (NDArchive X O F) → Prop)
    (hcfg : ∀ p v c g a, P p v c g a → c.interact = false ∧ c.location = none)
    (hadapt : ∀ p v c g a, P p v c g a → P p (ops.adapt v p.fitness) c g a)
    (hbody : ∀ s, P s.pop s.vec s.cfg s.gen s.nd → (body s).1 = .ok () ∧
      P (body s).2.pop (body s).2.vec (body s).2.cfg (body s).2.gen (body s).2.nd)
    (s : EA X O F C U V S Q) (h : P s.pop s.vec s.cfg s.gen s.nd) (pref : Option (Pref R)) :
    (s.iterateWith ops body pref).1 = .ok none := by
  have hloop : ∀ fuel (s : EA X O F C U V S Q), P s.pop s.vec s.cfg s.gen s.nd →
      (EA.loop body fuel s).1 = .ok () ∧ P (EA.loop body fuel s).2.pop (EA.loop body fuel s).2.vec (EA.loop body fuel s).2.cfg
        (EA.loop body fuel s).2.gen (EA.loop body fuel s).2.nd := by
    intro fuel
    induction fuel with
    | zero => exact fun s h => ⟨rfl, h⟩
    | succ fuel ih =>
      intro s h
      unfold EA.loop
      split
      · have h1 := hbody s h
        generalize body s = r at h1
        obtain ⟨r, t⟩ := r
        obtain ⟨h0, h1⟩ := h1
        dsimp only at h0
        subst h0
        exact ih t h1
      · exact ⟨rfl, h⟩
  obtain ⟨c1, c2⟩ := hcfg _ _ _ _ _ h
  have hmp : s.managePreferences ops pref = (.ok (), s) := by unfold EA.managePreferences; rw [c2]
  unfold EA.iterateWith
  rw [hmp]
  dsimp only
  have hp : P (s.preIteration ops).pop (s.preIteration ops).vec (s.preIteration ops).cfg (s.preIteration ops).gen
      (s.preIteration ops).nd := by
    have hr : s.record.pop = s.pop ∧ s.record.vec = s.vec ∧ s.record.cfg = s.cfg ∧ s.record.gen = s.gen ∧ s.record.nd = s.nd := by
      unfold EA.record; split <;> exact ⟨rfl, rfl, rfl, rfl, rfl⟩
    obtain ⟨r1, r2, r3, r4, r5⟩ := hr
    have h0 : P s.record.pop s.record.vec s.record.cfg s.record.gen s.record.nd := by rw [r1, r2, r3, r4, r5]; exact h
    have e1 : (!s.record.cfg.interact) = true := by rw [r3, c1]; rfl
    have e2 : s.record.cfg.location ≠ some .selection := by rw [r3, c2]; simp
    simp only [EA.preIteration]
    rw [if_pos e1, if_pos e2]
    exact hadapt _ _ _ _ _ (hadapt _ _ _ _ _ h0)
  generalize s.preIteration ops = u at hp
  have h3 := hloop u.cfg.nGen ({ u with genIter := 0 }) hp
  generalize EA.loop body u.cfg.nGen { u with genIter := 0 } = r at h3
  obtain ⟨r, v⟩ := r
  obtain ⟨h0, h3⟩ := h3
  dsimp only at h0 h3
  subst h0
  dsimp only
  unfold EA.requestPreferences
  rw [if_pos (hcfg _ _ _ _ _ h3).1]

/-! ## The two EAs: components -/

/-- The components of a MOEA/D object: bounds `lo`, `hi`, the default variation on two parents, repair, `nn` neighbours found with a
sorting `argsort`, two different random positions for the parents. -/
structure IsMoead (ops : Ops (Row n) O (Vec m) C U (MoeadRV m) S Q R) (mo : MoeadOps m ℝ (Row n) O (Vec m) C U) (lo hi : Fin n → ℝ)
    (draw : Nat → MateDraw n) (argsort : List ℝ → List Nat) (nn : Nat)
    (toCall : Nat → Kind → Pop (Row n) O (Vec m) C U → R → Except Err (VecCall m)) : Prop where
  adapt : ops.adapt = moeadAdapt argsort nn
  respond : ops.respond = moeadRespond argsort nn toCall
  mate : mo.mate = mateTwo lo hi draw
  repair : mo.repair = repairRow lo hi
  picks : ∀ t k, 2 ≤ k → (mo.pick t k).1 < k ∧ (mo.pick t k).2 < k ∧ (mo.pick t k).1 ≠ (mo.pick t k).2
  sorts : ∀ l, IsArgsort l (argsort l)

theorem mateTwo_total (lo hi : Fin n → ℝ) (draw : Nat → MateDraw n) (t : Nat) (p : Pop (Row n) O F C U) (inds : List (Row n)) (a b : Nat)
    (hp : p.individuals = some inds) (ha : a < inds.length) (hb : b < inds.length) :
    ∃ x xs, mateTwo lo hi draw t p a b = .ok (x :: xs) := by
  obtain ⟨off, hoff⟩ := sbxDo_total 1 30 (draw t).shuffle (draw t).pairs inds (some [a, b]) (by
    intro k hk
    simp only [matingIds, List.mem_cons, List.not_mem_nil, or_false] at hk
    rcases hk with rfl | rfl <;> assumption)
  have hl := (sbxDo_spec 1 30 (draw t).shuffle (draw t).pairs inds off (some [a, b]) hoff).1
  simp only [matingIds, List.length_cons, List.length_nil] at hl
  simp only [mateTwo, hp, mateDefault, hoff]
  have hb' : (bpDo (1 / (n : ℝ)) 20 lo hi (draw t).k (draw t).miu off).length = 2 := by simp [bpDo, hl]
  cases hq : bpDo (1 / (n : ℝ)) 20 lo hi (draw t).k (draw t).miu off with
  | nil => rw [hq] at hb'; simp at hb'
  | cons x xs => exact ⟨x, xs, rfl⟩

theorem startArchive_archOf (nd : List F → List Bool) (p : Pop X O F C U) (rs : List (Rec X O F C U)) (hr : Represents p rs)
    (inds : List X) (hi : p.individuals = some inds) (a : NDArchive X O F)
    (h : startArchive nd inds p.objectives p.fitness = .ok a) : ∃ T, a = archOf T := by
  have hx : inds = rs.map Rec.x := by
    rcases hr.inds with hh | ⟨hh, -⟩
    · rw [hi] at hh; simpa using hh
    · rw [hi] at hh; cases hh
  rw [hx, hr.objs, hr.fits] at h
  simp only [startArchive, boolIndex, List.length_map] at h
  by_cases hl : (nd (rs.map Rec.f)).length = rs.length
  · simp only [hl, if_true, compress_map, Except.ok.injEq] at h
    refine ⟨(compress (nd (rs.map Rec.f)) rs).map (fun r => (r.x, r.o, r.f)), ?_⟩
    rw [← h]
    simp [archOf, Function.comp_def]
  · simp [hl] at h

/-- The vectors of the selection operator: `N` of them, with the neighbourhoods of these vectors. -/
def FreshVec (argsort : List ℝ → List Nat) (nn N : Nat) (v : MoeadRV m) : Prop :=
  v.rv.planar.length = N ∧ v.neigh = neighborhoods argsort nn v.rv.planar

theorem moeadAdapt_fresh (argsort : List ℝ → List Nat) (nn N : Nat) (v : MoeadRV m) (f : List (Vec m)) (h : FreshVec argsort nn N v) :
    FreshVec argsort nn N (moeadAdapt argsort nn v f) := by
  unfold moeadAdapt moeadVecCall
  cases hc : v.rv.call (.adapt f) with
  | error e => exact h
  | ok w =>
    have := (adapt_frame v.rv w f hc).2.2
    exact ⟨by show w.planar.length = N; rw [this]; exact h.1, rfl⟩

theorem freshReady {ops : Ops (Row n) O (Vec m) C U (MoeadRV m) S Q R} {mo : MoeadOps m ℝ (Row n) O (Vec m) C U} {lo hi : Fin n → ℝ}
    {draw : Nat → MateDraw n} {argsort : List ℝ → List Nat} {nn : Nat}
    {toCall : Nat → Kind → Pop (Row n) O (Vec m) C U → R → Except Err (VecCall m)} (hM : IsMoead ops mo lo hi draw argsort nn toCall)
    (nc N : Nat) (unc : Bool) (hp : ProblemOK ops nc unc) (hnn : 2 ≤ nn) (hN : 2 ≤ N) (planar : List (Vec m)) (hpl : planar.length = N)
    (more : List (Vec m)) (hmore : N ≤ more.length) :
    MoeadReady (ops.forGeneration (W := MoeadVec m ℝ)) mo N nc N unc ⟨more, neighborhoods argsort nn planar⟩ := by
  obtain ⟨s1, s2⟩ := neighborhoods_spec argsort hM.sorts nn planar
  have hn : ∀ nb ∈ neighborhoods argsort nn planar, ∃ v, IsNeighbourhood nn planar v nb := by
    intro nb hnb
    obtain ⟨i, hi⟩ := List.mem_iff_getElem?.1 hnb
    have hl := (List.getElem?_eq_some_iff.1 hi).1
    rw [s1] at hl
    obtain ⟨nb', h1, h2⟩ := s2 i planar[i] (by simp [hl])
    rw [hi] at h1
    cases h1
    exact ⟨_, h2⟩
  refine ⟨by show N ≤ (neighborhoods argsort nn planar).length; omega, ?_, ?_, ?_, ?_, hp⟩
  · intro nb hnb
    obtain ⟨v, hv⟩ := hn nb hnb
    rw [hv.size]
    omega
  · intro nb hnb k hk
    obtain ⟨v, hv⟩ := hn nb hnb
    have := hv.valid k hk
    exact ⟨by show k < more.length; omega, by omega⟩
  · intro t k hk
    exact ⟨(hM.picks t k hk).1, (hM.picks t k hk).2.1⟩
  · intro t p inds a b h1 h2 h3
    rw [hM.mate]
    exact mateTwo_total lo hi draw t p inds a b h1 h2 h3

/-- What the body does with vectors that are ready. -/
theorem moeadBody_kept {ops : Ops (Row n) O (Vec m) C U (MoeadRV m) S Q R} {mo : MoeadOps m ℝ (Row n) O (Vec m) C U} (useRepair : Bool)
    (N nc d : Nat) (unc : Bool) (s : EA (Row n) O (Vec m) C U (MoeadRV m) S Q)
    (hr : MoeadReady (ops.forGeneration (W := MoeadVec m ℝ)) mo N nc N unc s.vec.toVec) (hk : Kept nc d N unc s.pop) :
    Kept nc d N unc (moeadBody ops mo useRepair N s).2.pop ∧ (moeadBody ops mo useRepair N s).2.vec = s.vec ∧
    (moeadBody ops mo useRepair N s).2.cfg = s.cfg ∧
    ((s.cfg.saveND = true → ∃ T, s.nd = some (archOf T)) →
      (s.cfg.saveND = true → ∃ T, (moeadBody ops mo useRepair N s).2.nd = some (archOf T)) ∧
      ((∀ clk sur b, ∃ r, ops.evaluate clk sur b = .ok r) → (moeadBody ops mo useRepair N s).1 = .ok ())) := by
  obtain ⟨a1, a2, a3, a4⟩ := c37_generation_succeeds (ops.forGeneration (W := MoeadVec m ℝ)) mo useRepair N nc d N unc
    (s.withVec s.vec.toVec) hr hk
  exact ⟨a1, rfl, a3, a4⟩

/-! ## Construction -/

theorem moeadConstruct_spec (hm : 2 ≤ m) (ops : Ops (Row n) O (Vec m) C U (MoeadRV m) S Q R) (lo hi : Fin n → ℝ)
    (unit : Nat → Nat → List (Fin n → ℝ)) (hu : ∀ c k, (unit c k).length = k) (argsort : List ℝ → List Nat) (nn np : Nat) (sel0 : S) (prob0 : Q)
    (interact useSurr keepArchive saveND : Bool) (nIter nGen total : Nat) (pty : ProblemType) (hpty : pty ≠ .iopis) (nc : Nat) (unc : Bool)
    (hp : ProblemOK ops nc unc) (ps lr : Option Nat) (hps : m ≤ choosePopSize m ps lr) (s : EA (Row n) O (Vec m) C U (MoeadRV m) S Q)
    (hs : moeadConstruct ops (boxDesign lo hi unit) argsort nn np sel0 prob0 interact useSurr keepArchive saveND nIter nGen total pty nc ps lr
      = .ok s) :
    np = 2 ∧ Kept nc 2 (choosePopSize m ps lr) unc s.pop ∧
    (∃ r v, 1 ≤ r ∧ Nat.choose (r + m - 1) (m - 1) ≤ choosePopSize m ps lr ∧
      (∀ u, 1 ≤ u → Nat.choose (u + m - 1) (m - 1) ≤ choosePopSize m ps lr → u ≤ r) ∧
      RV.create m r = .ok v ∧ s.vec = moeadInit argsort nn v ∧ v.planar.length = Nat.choose (r + m - 1) (m - 1) ∧
      v.initP.length = Nat.choose (r + m - 1) (m - 1)) ∧
    s.cfg.interact = interact ∧ s.cfg.saveND = saveND ∧ s.cfg.nGen = nGen ∧ s.cfg.total = total ∧
    (interact = false → s.cfg.location = none) ∧ s.gen = 0 ∧ (interact = true → pty = .mo → s.cfg.location = some .selection) := by
  unfold moeadConstruct at hs
  cases hc : construct ops (boxDesign lo hi unit) (fun _ => (⟨⟨[], [], [], [], 0⟩, []⟩ : MoeadRV m)) (fun _ => sel0) prob0 interact useSurr
      keepArchive saveND nIter nGen total (some (pty, m, nc)) none ps lr with
  | error e => rw [hc] at hs; cases hs
  | ok t =>
    rw [hc] at hs
    dsimp only at hs
    have hb : ∀ b, boxDesign lo hi unit 0 (choosePopSize m ps lr) = .ok b →
        b.ndim = 2 ∧ b.rows.length = choosePopSize m ps lr := by
      intro b hb
      simp only [boxDesign, Except.ok.injEq] at hb
      subst hb
      exact ⟨rfl, by simp [scaleDesign, hu]⟩
    obtain ⟨h0, ⟨rs, hrs, hlen⟩, c1, c2, c3, -⟩ := construct_alive (d := 2) (need := 1) (Vok := fun _ => True) ops hp (boxDesign lo hi unit)
      (fun _ => (⟨⟨[], [], [], [], 0⟩, []⟩ : MoeadRV m)) (fun _ => sel0) prob0 interact
      useSurr keepArchive saveND nIter nGen total pty m ps lr t hpty hc hb (by omega) (by omega) trivial
    have hcfg : t.cfg.nGen = nGen ∧ t.cfg.total = total ∧ t.gen = 0 ∧ (interact = true → pty = .mo → t.cfg.location = some .selection) := by
      unfold construct at hc
      dsimp only at hc
      split at hc
      · cases hc
      · split at hc
        · cases hc
        · rename_i rows _ _ u ea hq
          injection hc with hc
          simp only [EA.popAdd, Prod.mk.injEq] at hq
          obtain ⟨-, hq⟩ := hq
          subst hq
          subst hc
          exact ⟨rfl, rfl, rfl, by rintro rfl rfl; rfl⟩
    split at hs
    · cases hs
    · rename_i hnp
      obtain ⟨r, q1, q2⟩ := c21_resolution_is_largest_fitting m (choosePopSize m ps lr) hm
      obtain ⟨r', q1', q3, -⟩ := c21_count_bounded m (choosePopSize m ps lr) hm
      have : r' = r := by rw [q1] at q1'; simpa using q1'.symm
      subst this
      obtain ⟨hr, hle⟩ := q3 hps
      rw [q1] at hs
      dsimp only at hs
      rw [create_ok r' hm hr] at hs
      dsimp only at hs
      injection hs with hs
      obtain ⟨d1, d2, d3, d4⟩ := hcfg
      refine ⟨not_not.1 hnp, ⟨⟨rs, by rw [← hs]; exact hrs, hlen⟩, by omega, by rw [← hs]; exact h0.dim, by omega, by rw [← hs]; exact h0.cons,
        by rw [← hs]; exact h0.unc⟩, ⟨r', _, hr, hle, fun u hu1 hu2 => (q2 u hu1).1 hu2, create_ok r' hm hr, by rw [← hs], ?_, ?_⟩,
        by rw [← hs]; exact c1, by rw [← hs]; exact c2, by rw [← hs]; exact d1, by rw [← hs]; exact d2,
        fun h => by rw [← hs]; exact c3 h, by rw [← hs]; exact d3,
        by rw [← hs]; exact d4⟩
      · simp [length_weights m r' hm]
      · simp [length_weights m r' hm]

/-! ## C74 -/

/-- After any history of calls on MOEA/D without interaction. -/
theorem moead_history (hm : 2 ≤ m) (ops : Ops (Row n) O (Vec m) C U (MoeadRV m) S Q R) (mo : MoeadOps m ℝ (Row n) O (Vec m) C U)
    (lo hi : Fin n → ℝ) (draw : Nat → MateDraw n) (argsort : List ℝ → List Nat) (nn : Nat)
    (toCall : Nat → Kind → Pop (Row n) O (Vec m) C U → R → Except Err (VecCall m)) (hM : IsMoead ops mo lo hi draw argsort nn toCall)
    (hnn : 2 ≤ nn) (nc : Nat) (unc : Bool) (hp : ProblemOK ops nc unc)
    (hnd : ∀ f, (ops.nonDom f).length = f.length) (unit : Nat → Nat → List (Fin n → ℝ)) (hu : ∀ c k, (unit c k).length = k)
    (sel0 : S) (prob0 : Q) (useSurr keepArchive saveND useRepair : Bool) (nIter nGen total np : Nat) (pty : ProblemType)
    (hpty : pty ≠ .iopis) (ps lr : Option Nat) (r : Nat) (hr : 1 ≤ r) (hN : choosePopSize m ps lr = Nat.choose (r + m - 1) (m - 1))
    (s : EA (Row n) O (Vec m) C U (MoeadRV m) S Q)
    (hs : moeadConstruct ops (boxDesign lo hi unit) argsort nn np sel0 prob0 false useSurr keepArchive saveND nIter nGen total pty nc ps lr
      = .ok s) (cs : List (Call R)) :
    let N := choosePopSize m ps lr
    let t := s.callsWith ops (moeadBody ops mo useRepair N) cs
    (Kept nc 2 N unc t.pop ∧ FreshVec argsort nn N t.vec ∧ t.cfg.interact = false ∧ t.cfg.location = none ∧ t.cfg.saveND = saveND) ∧
    ((saveND = false ∨ Call.start ∈ cs) → saveND = true → ∃ T, t.nd = some (archOf T)) := by
  have hge := choose_ge m r hm
  have hps : m ≤ choosePopSize m ps lr := by
    rw [hN]
    have e1 : Nat.choose (1 + m - 1) (m - 1) = m := by
      obtain ⟨k, rfl⟩ : ∃ k, m = k + 2 := ⟨m - 2, by omega⟩
      have : 1 + (k + 2) - 1 = (k + 1) + 1 := by omega
      rw [this, show k + 2 - 1 = k + 1 from rfl, Nat.choose_succ_self_right]
    calc m = Nat.choose (1 + m - 1) (m - 1) := e1.symm
      _ ≤ _ := Nat.choose_le_choose _ (by omega)
  obtain ⟨-, hk, ⟨r', v, w1, w2, w3, w4, w5, w6, -⟩, c1, c2, -, -, c5, c6, -⟩ := moeadConstruct_spec hm ops lo hi unit hu argsort nn np sel0 prob0
    false useSurr keepArchive saveND nIter nGen total pty hpty nc unc hp ps lr hps s hs
  have hrr : r' = r := by
    have h1 := w3 r hr (by omega)
    by_contra hne
    have h2 := choose_strictMono m hm (show r < r' by omega)
    omega
  subst hrr
  dsimp only
  generalize hNN : choosePopSize m ps lr = N at *
  -- the invariants
  let P : Pop (Row n) O (Vec m) C U → MoeadRV m → Cfg → Nat → Option (NDArchive (Row n) O (Vec m)) → Prop := fun p v c _ _ =>
    Kept nc 2 N unc p ∧ FreshVec argsort nn N v ∧ c.interact = false ∧ c.location = none ∧ c.saveND = saveND
  let P2 : Pop (Row n) O (Vec m) C U → MoeadRV m → Cfg → Nat → Option (NDArchive (Row n) O (Vec m)) → Prop := fun p v c g a =>
    P p v c g a ∧ (saveND = true → ∃ T, a = some (archOf T))
  have hready : ∀ v : MoeadRV m, FreshVec argsort nn N v → MoeadReady (ops.forGeneration (W := MoeadVec m ℝ)) mo N nc N unc v.toVec := by
    intro v hv
    have := freshReady hM nc N unc hp hnn (by omega) v.rv.planar hv.1 v.rv.planar (by rw [hv.1])
    rw [← hv.2] at this
    exact this
  have hcfg : ∀ p v c g a, P p v c g a → c.interact = false ∧ c.location = none := fun p v c g a h => ⟨h.2.2.1, h.2.2.2.1⟩
  have hadapt : ∀ p v c g a, P p v c g a → P p (ops.adapt v p.fitness) c g a := by
    intro p v c g a h
    refine ⟨h.1, ?_, h.2.2⟩
    rw [hM.adapt]
    exact moeadAdapt_fresh argsort nn N v _ h.2.1
  have hbody : ∀ s : EA (Row n) O (Vec m) C U (MoeadRV m) S Q, P s.pop s.vec s.cfg s.gen s.nd →
      P (moeadBody ops mo useRepair N s).2.pop (moeadBody ops mo useRepair N s).2.vec (moeadBody ops mo useRepair N s).2.cfg
        (moeadBody ops mo useRepair N s).2.gen (moeadBody ops mo useRepair N s).2.nd := by
    intro s h
    obtain ⟨a1, a2, a3, -⟩ := moeadBody_kept useRepair N nc 2 unc s (hready s.vec h.2.1) h.1
    exact ⟨a1, by rw [a2]; exact h.2.1, by rw [a3]; exact h.2.2⟩
  have hbody2 : ∀ s : EA (Row n) O (Vec m) C U (MoeadRV m) S Q, P2 s.pop s.vec s.cfg s.gen s.nd →
      P2 (moeadBody ops mo useRepair N s).2.pop (moeadBody ops mo useRepair N s).2.vec (moeadBody ops mo useRepair N s).2.cfg
        (moeadBody ops mo useRepair N s).2.gen (moeadBody ops mo useRepair N s).2.nd ∧
      ((∀ clk sur b, ∃ r, ops.evaluate clk sur b = .ok r) → (moeadBody ops mo useRepair N s).1 = .ok ()) := by
    intro s h
    obtain ⟨-, -, -, a4⟩ := moeadBody_kept useRepair N nc 2 unc s (hready s.vec h.1.2.1) h.1.1
    have hsv := h.1.2.2.2.2
    have := a4 (by rw [hsv]; exact h.2)
    rw [hsv] at this
    exact ⟨⟨hbody s h.1, this.1⟩, this.2⟩
  have hstart : ∀ p v c g a a' inds, P p v c g a → c.saveND = true → p.individuals = some inds →
      startArchive ops.nonDom inds p.objectives p.fitness = .ok a' → P p v c g (some a') := fun p v c g a a' inds h _ _ _ => h
  have hstart2 : ∀ p v c g a a' inds, P2 p v c g a → c.saveND = true → p.individuals = some inds →
      startArchive ops.nonDom inds p.objectives p.fitness = .ok a' → P2 p v c g (some a') := by
    intro p v c g a a' inds h _ hi ha
    refine ⟨h.1, fun _ => ?_⟩
    obtain ⟨rs, hrs, -⟩ := h.1.1.rep
    obtain ⟨T, hT⟩ := startArchive_archOf ops.nonDom p rs hrs inds hi a' ha
    exact ⟨T, by rw [hT]⟩
  have h0 : P s.pop s.vec s.cfg s.gen s.nd :=
    ⟨hk, by rw [w5]; exact ⟨by show v.planar.length = N; rw [w6, hN], rfl⟩, c1, c5 rfl, c2⟩
  have hall := callsWith_inv ops (moeadBody ops mo useRepair N) P hcfg hadapt hstart hbody
  have hall2 := callsWith_inv ops (moeadBody ops mo useRepair N) P2 (fun p v c g a h => hcfg p v c g a h.1)
    (fun p v c g a h => ⟨hadapt p v c g a h.1, h.2⟩) hstart2 (fun s h => (hbody2 s h).1)
  have happ : ∀ (cs1 cs2 : List (Call R)) (s : EA (Row n) O (Vec m) C U (MoeadRV m) S Q),
      s.callsWith ops (moeadBody ops mo useRepair N) (cs1 ++ cs2) =
      (s.callsWith ops (moeadBody ops mo useRepair N) cs1).callsWith ops (moeadBody ops mo useRepair N) cs2 := by
    intro cs1
    induction cs1 with
    | nil => exact fun _ _ => rfl
    | cons c cs1 ih => intro cs2 s; cases c <;> exact ih _ _
  refine ⟨hall cs s h0, fun hst => ?_⟩
  suffices h2 : P2 (s.callsWith ops (moeadBody ops mo useRepair N) cs).pop (s.callsWith ops (moeadBody ops mo useRepair N) cs).vec
      (s.callsWith ops (moeadBody ops mo useRepair N) cs).cfg (s.callsWith ops (moeadBody ops mo useRepair N) cs).gen
      (s.callsWith ops (moeadBody ops mo useRepair N) cs).nd from h2.2
  rcases hst with hst | hst
  · exact ⟨hall cs s h0, fun h => by rw [hst] at h; cases h⟩
  · obtain ⟨cs1, cs2, rfl⟩ := List.append_of_mem hst
    rw [happ]
    have hb := hall cs1 s h0
    generalize s.callsWith ops (moeadBody ops mo useRepair N) cs1 = u at hb
    refine hall2 cs2 (u.start ops).2 ?_
    obtain ⟨rs, hrs, hlen⟩ := hb.1.rep
    have hne : rs ≠ [] := by intro e; rw [e] at hlen; simp at hlen; have := hb.1.pos; omega
    have hinds : u.pop.individuals = some (rs.map Rec.x) := by
      rcases hrs.inds with hh | ⟨-, hh⟩
      · exact hh
      · exact absurd hh hne
    obtain ⟨-, -, b1, b2, b3⟩ := id hb
    unfold EA.start
    rw [if_neg (by simp [b1])]
    dsimp only
    have hreq : ∀ x : EA (Row n) O (Vec m) C U (MoeadRV m) S Q, x.cfg.interact = false → x.requestPreferences ops = (.ok none, x) := by
      intro x h; unfold EA.requestPreferences; rw [if_pos h]
    cases hsv : u.cfg.saveND with
    | false =>
      simp only [Bool.false_eq_true, if_false]
      rw [hreq u b1]
      exact ⟨hb, fun h => by rw [← b3, hsv] at h; cases h⟩
    | true =>
      simp only [if_true, hinds]
      obtain ⟨a', ha'⟩ : ∃ a', startArchive ops.nonDom (rs.map Rec.x) u.pop.objectives u.pop.fitness = .ok a' := by
        have := hnd u.pop.fitness
        rw [hrs.objs, hrs.fits] at *
        simp only [List.length_map] at this
        simp only [startArchive, boolIndex, List.length_map, this, if_true]
        exact ⟨_, rfl⟩
      simp only [ha']
      rw [hreq { u with nd := some a' } b1]
      refine ⟨hb, fun _ => ?_⟩
      obtain ⟨T, hT⟩ := startArchive_archOf ops.nonDom u.pop rs hrs _ hinds a' ha'
      exact ⟨T, by rw [hT]⟩

/-- C74. MOEA/D with a population size that is the size of a simplex lattice (which every default size is, C17), at least two
neighbours, not interactive: after any history of calls, whatever they raised, there are exactly `pop_size` individuals and reference
vectors, every subproblem has a neighbourhood of nearest vectors; and `iterate()` returns whenever evaluation does (with
`save_non_dominated`: once `start()` was called). -/
theorem c74_moead_runs (hm : 2 ≤ m) (ops : Ops (Row n) O (Vec m) C U (MoeadRV m) S Q R) (mo : MoeadOps m ℝ (Row n) O (Vec m) C U)
    (lo hi : Fin n → ℝ) (draw : Nat → MateDraw n) (argsort : List ℝ → List Nat) (nn : Nat)
    (toCall : Nat → Kind → Pop (Row n) O (Vec m) C U → R → Except Err (VecCall m)) (hM : IsMoead ops mo lo hi draw argsort nn toCall)
    (hnn : 2 ≤ nn) (nc : Nat) (unc : Bool) (hp : ProblemOK ops nc unc)
    (hnd : ∀ f, (ops.nonDom f).length = f.length) (unit : Nat → Nat → List (Fin n → ℝ)) (hu : ∀ c k, (unit c k).length = k)
    (sel0 : S) (prob0 : Q) (useSurr keepArchive saveND useRepair : Bool) (nIter nGen total np : Nat) (pty : ProblemType)
    (hpty : pty ≠ .iopis) (ps lr : Option Nat) (r : Nat) (hr : 1 ≤ r) (hN : choosePopSize m ps lr = Nat.choose (r + m - 1) (m - 1))
    (s : EA (Row n) O (Vec m) C U (MoeadRV m) S Q)
    (hs : moeadConstruct ops (boxDesign lo hi unit) argsort nn np sel0 prob0 false useSurr keepArchive saveND nIter nGen total pty nc ps lr
      = .ok s) (cs : List (Call R)) :
    let N := choosePopSize m ps lr
    let t := s.callsWith ops (moeadBody ops mo useRepair N) cs
    (∃ rs, Represents t.pop rs ∧ rs.length = N) ∧ t.vec.rv.planar.length = N ∧ t.vec.neigh.length = N ∧
    (∀ (i : Nat) (v : Vec m), t.vec.rv.planar[i]? = some v → ∃ nb, t.vec.neigh[i]? = some nb ∧ IsNeighbourhood nn t.vec.rv.planar v nb) ∧
    ((∀ clk sur b, ∃ res, ops.evaluate clk sur b = .ok res) → (saveND = false ∨ Call.start ∈ cs) → ∀ pref,
      (t.iterateWith ops (moeadBody ops mo useRepair N) pref).1 = .ok none) := by
  obtain ⟨h1, h2⟩ := moead_history hm ops mo lo hi draw argsort nn toCall hM hnn nc unc hp hnd unit hu sel0 prob0 useSurr keepArchive saveND useRepair nIter nGen total np pty hpty ps lr r hr hN s hs cs
  have hge : 2 ≤ choosePopSize m ps lr := by
    have := choose_ge m r hm
    rw [hN]
    omega
  dsimp only at h1 h2 ⊢
  generalize hNN : choosePopSize m ps lr = N at *
  let P : Pop (Row n) O (Vec m) C U → MoeadRV m → Cfg → Nat → Option (NDArchive (Row n) O (Vec m)) → Prop := fun p v c _ _ =>
    Kept nc 2 N unc p ∧ FreshVec argsort nn N v ∧ c.interact = false ∧ c.location = none ∧ c.saveND = saveND
  let P2 : Pop (Row n) O (Vec m) C U → MoeadRV m → Cfg → Nat → Option (NDArchive (Row n) O (Vec m)) → Prop := fun p v c g a =>
    P p v c g a ∧ (saveND = true → ∃ T, a = some (archOf T))
  have hready : ∀ v : MoeadRV m, FreshVec argsort nn N v → MoeadReady (ops.forGeneration (W := MoeadVec m ℝ)) mo N nc N unc v.toVec := by
    intro v hv
    have := freshReady hM nc N unc hp hnn (by omega) v.rv.planar hv.1 v.rv.planar (by rw [hv.1])
    rw [← hv.2] at this
    exact this
  have hcfg : ∀ p v c g a, P p v c g a → c.interact = false ∧ c.location = none := fun p v c g a h => ⟨h.2.2.1, h.2.2.2.1⟩
  have hadapt : ∀ p v c g a, P p v c g a → P p (ops.adapt v p.fitness) c g a := by
    intro p v c g a h
    refine ⟨h.1, ?_, h.2.2⟩
    rw [hM.adapt]
    exact moeadAdapt_fresh argsort nn N v _ h.2.1
  have hbody : ∀ s : EA (Row n) O (Vec m) C U (MoeadRV m) S Q, P s.pop s.vec s.cfg s.gen s.nd →
      P (moeadBody ops mo useRepair N s).2.pop (moeadBody ops mo useRepair N s).2.vec (moeadBody ops mo useRepair N s).2.cfg
        (moeadBody ops mo useRepair N s).2.gen (moeadBody ops mo useRepair N s).2.nd := by
    intro s h
    obtain ⟨a1, a2, a3, -⟩ := moeadBody_kept useRepair N nc 2 unc s (hready s.vec h.2.1) h.1
    exact ⟨a1, by rw [a2]; exact h.2.1, by rw [a3]; exact h.2.2⟩
  have hbody2 : ∀ s : EA (Row n) O (Vec m) C U (MoeadRV m) S Q, P2 s.pop s.vec s.cfg s.gen s.nd →
      P2 (moeadBody ops mo useRepair N s).2.pop (moeadBody ops mo useRepair N s).2.vec (moeadBody ops mo useRepair N s).2.cfg
        (moeadBody ops mo useRepair N s).2.gen (moeadBody ops mo useRepair N s).2.nd ∧
      ((∀ clk sur b, ∃ r, ops.evaluate clk sur b = .ok r) → (moeadBody ops mo useRepair N s).1 = .ok ()) := by
    intro s h
    obtain ⟨-, -, -, a4⟩ := moeadBody_kept useRepair N nc 2 unc s (hready s.vec h.1.2.1) h.1.1
    have hsv := h.1.2.2.2.2
    have := a4 (by rw [hsv]; exact h.2)
    rw [hsv] at this
    exact ⟨⟨hbody s h.1, this.1⟩, this.2⟩
  obtain ⟨k1, ⟨k2, k3⟩, -⟩ := id h1
  obtain ⟨n1, n2⟩ := neighborhoods_spec argsort hM.sorts nn (s.callsWith ops (moeadBody ops mo useRepair N) cs).vec.rv.planar
  refine ⟨k1.rep, k2, by rw [k3, n1, k2], fun i v hv => by rw [k3]; exact n2 i v hv, ?_⟩
  intro hev hst pref
  refine iterateWith_returns ops (moeadBody ops mo useRepair N) P2 (fun p v c g a h => hcfg p v c g a h.1)
    (fun p v c g a h => ⟨hadapt p v c g a h.1, h.2⟩) (fun s h => ⟨(hbody2 s h).2 hev, (hbody2 s h).1⟩) _ ⟨h1, h2 hst⟩ pref

/-- C74. Only two parents: any other `n_parents` raises ValueError in the constructor. -/
theorem c74_only_two_parents (ops : Ops X O (Vec m) C U (MoeadRV m) S Q R) (design : Nat → Nat → Except Err (Batch X))
    (argsort : List ℝ → List Nat) (nn np : Nat) (sel0 : S) (prob0 : Q) (interact useSurr keepArchive saveND : Bool)
    (nIter nGen total : Nat) (pty : ProblemType) (nc : Nat) (ps lr : Option Nat) (hnp : np ≠ 2) :
    ∃ e, moeadConstruct ops design argsort nn np sel0 prob0 interact useSurr keepArchive saveND nIter nGen total pty nc ps lr = .error e := by
  unfold moeadConstruct
  split
  · exact ⟨_, rfl⟩
  · rw [if_pos hnp]; exact ⟨_, rfl⟩

/-- The body raises when the vectors do not fit: one subproblem without a neighbourhood, or with fewer than two members. -/
theorem moeadBody_raises (ops : Ops X O F C U (MoeadRV m) S Q R) (mo : MoeadOps m ℝ X O F C U) (useRepair : Bool) (N i : Nat) (hi : i < N)
    (s : EA X O F C U (MoeadRV m) S Q)
    (h : ∀ t : EA X O F C U (MoeadVec m ℝ) S Q, t.vec = s.vec.toVec → ∃ e u, moeadStep ops.forGeneration mo useRepair i t = (.error e, u)) :
    ∃ e t, moeadBody ops mo useRepair N s = (.error e, t) ∧ t.vec = s.vec ∧ t.cfg = s.cfg ∧ t.gen = s.gen := by
  have key : ∀ (is : List Nat) (u : EA X O F C U (MoeadVec m ℝ) S Q), i ∈ is → u.vec = s.vec.toVec →
      ∃ e t, moeadSteps ops.forGeneration mo useRepair is u = (.error e, t) := by
    intro is
    induction is with
    | nil => intro u h; simp at h
    | cons k is ih =>
      intro u hk hu
      unfold moeadSteps
      cases hq : moeadStep ops.forGeneration mo useRepair k u with
      | mk r t =>
        cases r with
        | error e => exact ⟨e, t, rfl⟩
        | ok _ =>
          dsimp only
          rcases List.mem_cons.1 hk with rfl | hk
          · obtain ⟨e, u', hh⟩ := h u hu
            rw [hq] at hh
            simp at hh
          · refine ih t hk ?_
            rw [← hu]
            exact (moeadStep_ok _ _ _ _ _ _ hq).2.2.2.2.2.1
  obtain ⟨e, t, ht⟩ := key (List.range N) (s.withVec s.vec.toVec) (List.mem_range.2 hi) rfl
  have hg := moeadSteps_gen ops.forGeneration mo useRepair (List.range N) (s.withVec s.vec.toVec)
  rw [ht] at hg
  refine ⟨e, t.withVec s.vec, ?_, rfl, hg.2.1, hg.1⟩
  unfold moeadBody moeadNextGen
  rw [ht]

/-- An EA without interaction whose generation always raises: no generation is ever counted, and `iterate()` raises. -/
theorem never_completes {V : Type} (ops : Ops X O F C U V S Q R) (body : EA X O F C U V S Q → EARes Unit X O F C U V S Q)
    (Bad : V → Prop) (hadapt : ∀ v f, Bad v → Bad (ops.adapt v f))
    (hbody : ∀ s, Bad s.vec → ∃ e t, body s = (.error e, t) ∧ t.vec = s.vec ∧ t.cfg = s.cfg ∧ t.gen = s.gen)
    (s : EA X O F C U V S Q) (hb : Bad s.vec) (hi : s.cfg.interact = false) (hl : s.cfg.location = none) (cs : List (Call R)) :
    (s.callsWith ops body cs).gen = s.gen ∧ Bad (s.callsWith ops body cs).vec ∧
    (0 < s.cfg.nGen → s.cfg.total = 0 → ∀ pref, ∃ e, ((s.callsWith ops body cs).iterateWith ops body pref).1 = .error e) := by
  let P : Pop X O F C U → V → Cfg → Nat → Option (NDArchive X O F) → Prop := fun _ v c g _ => Bad v ∧ c = s.cfg ∧ g = s.gen
  have hall : ∀ t : EA X O F C U V S Q, P t.pop t.vec t.cfg t.gen t.nd → ∀ cs : List (Call R),
      P (t.callsWith ops body cs).pop (t.callsWith ops body cs).vec (t.callsWith ops body cs).cfg (t.callsWith ops body cs).gen
        (t.callsWith ops body cs).nd := by
    intro t ht cs
    refine callsWith_inv ops body P ?_ ?_ ?_ ?_ cs t ht
    · intro p v c g a h; rw [h.2.1]; exact ⟨hi, hl⟩
    · intro p v c g a h; exact ⟨hadapt _ _ h.1, h.2⟩
    · intro p v c g a a' inds h _ _ _; exact h
    · intro u h
      obtain ⟨e, t, h1, h2, h3, h4⟩ := hbody u h.1
      rw [h1]
      exact ⟨by show Bad t.vec; rw [h2]; exact h.1, by show t.cfg = _; rw [h3]; exact h.2.1, by show t.gen = _; rw [h4]; exact h.2.2⟩
  have h1 := hall s ⟨hb, rfl, rfl⟩ cs
  refine ⟨h1.2.2, h1.1, ?_⟩
  intro hn ht pref
  generalize s.callsWith ops body cs = t at h1
  obtain ⟨b1, b2, -⟩ := h1
  have hmp : t.managePreferences ops pref = (.ok (), t) := by unfold EA.managePreferences; rw [b2, hl]
  unfold EA.iterateWith
  rw [hmp]
  dsimp only
  have hp : Bad (t.preIteration ops).vec ∧ (t.preIteration ops).cfg = s.cfg := by
    have hr : t.record.vec = t.vec ∧ t.record.cfg = t.cfg := by unfold EA.record; split <;> exact ⟨rfl, rfl⟩
    have e1 : (!t.record.cfg.interact) = true := by rw [hr.2, b2, hi]; rfl
    have e2 : t.record.cfg.location ≠ some .selection := by rw [hr.2, b2, hl]; simp
    simp only [EA.preIteration]
    rw [if_pos e1, if_pos e2]
    exact ⟨hadapt _ _ (hadapt _ _ (by rw [hr.1]; exact b1)), by rw [← b2]; exact hr.2⟩
  generalize t.preIteration ops = u at hp
  obtain ⟨p1, p2⟩ := hp
  obtain ⟨k, hk⟩ : ∃ k, u.cfg.nGen = k + 1 := ⟨u.cfg.nGen - 1, by rw [p2]; omega⟩
  obtain ⟨e, t', h1, -⟩ := hbody { u with genIter := 0 } p1
  refine ⟨e, ?_⟩
  rw [show ({ u with genIter := 0 } : EA X O F C U V S Q).cfg.nGen = k + 1 from hk]
  unfold EA.loop
  rw [if_pos (by simp [EA.continueIteration, EA.checkFE, p2, ht, hn]), h1]

/-- C74. MOEA/D with a `population_size` that is not the size of a simplex lattice never completes a generation: fewer vectors than
individuals are made (C21), the last subproblems have no neighbourhood, and every `iterate()` raises. -/
theorem c74_non_lattice_size_never_completes (hm : 2 ≤ m) (ops : Ops (Row n) O (Vec m) C U (MoeadRV m) S Q R)
    (mo : MoeadOps m ℝ (Row n) O (Vec m) C U) (lo hi : Fin n → ℝ) (draw : Nat → MateDraw n) (argsort : List ℝ → List Nat) (nn : Nat)
    (toCall : Nat → Kind → Pop (Row n) O (Vec m) C U → R → Except Err (VecCall m)) (hM : IsMoead ops mo lo hi draw argsort nn toCall)
    (nc : Nat) (unc : Bool) (hp : ProblemOK ops nc unc) (unit : Nat → Nat → List (Fin n → ℝ)) (hu : ∀ c k, (unit c k).length = k)
    (sel0 : S) (prob0 : Q) (useSurr keepArchive saveND useRepair : Bool) (nIter nGen total np : Nat) (pty : ProblemType)
    (hpty : pty ≠ .iopis) (ps lr : Option Nat) (hps : m ≤ choosePopSize m ps lr)
    (hN : ∀ r, 1 ≤ r → choosePopSize m ps lr ≠ Nat.choose (r + m - 1) (m - 1))
    (s : EA (Row n) O (Vec m) C U (MoeadRV m) S Q)
    (hs : moeadConstruct ops (boxDesign lo hi unit) argsort nn np sel0 prob0 false useSurr keepArchive saveND nIter nGen total pty nc ps lr
      = .ok s) (cs : List (Call R)) :
    let N := choosePopSize m ps lr
    let t := s.callsWith ops (moeadBody ops mo useRepair N) cs
    t.gen = 0 ∧ t.vec.rv.planar.length < N ∧
    (0 < nGen → total = 0 → ∀ pref, ∃ e, (t.iterateWith ops (moeadBody ops mo useRepair N) pref).1 = .error e) := by
  obtain ⟨-, hk, ⟨r, v, w1, w2, w3, w4, w5, w6, -⟩, c1, c2, c3, c4, c5, c6, -⟩ := moeadConstruct_spec hm ops lo hi unit hu argsort nn np sel0 prob0
    false useSurr keepArchive saveND nIter nGen total pty hpty nc unc hp ps lr hps s hs
  have hlt : Nat.choose (r + m - 1) (m - 1) < choosePopSize m ps lr := lt_of_le_of_ne w2 (fun h => hN r w1 h.symm)
  obtain ⟨h1, h2, h3⟩ := never_completes ops (moeadBody ops mo useRepair (choosePopSize m ps lr))
    (FreshVec argsort nn (Nat.choose (r + m - 1) (m - 1)))
    (fun v f h => by rw [hM.adapt]; exact moeadAdapt_fresh argsort nn _ v f h)
    (fun s h => by
      refine moeadBody_raises ops mo useRepair _ (Nat.choose (r + m - 1) (m - 1)) hlt s ?_
      intro t ht
      have hlen : t.vec.neigh.length = Nat.choose (r + m - 1) (m - 1) := by
        rw [ht]
        show s.vec.neigh.length = _
        rw [h.2, (neighborhoods_spec argsort hM.sorts nn _).1, h.1]
      unfold moeadStep chooseParents
      rw [List.getElem?_eq_none (by omega)]
      exact ⟨_, _, rfl⟩)
    s (by rw [w5]; exact ⟨w6, rfl⟩) c1 (c5 rfl) cs
  refine ⟨by rw [h1]; exact c6, by rw [h2.1]; exact hlt, fun a b => h3 (by rw [c3]; exact a) (by rw [c4]; exact b)⟩

/-- C74. Nor does MOEA/D with fewer than two neighbours. -/
theorem c74_one_neighbour_never_completes (hm : 2 ≤ m) (ops : Ops (Row n) O (Vec m) C U (MoeadRV m) S Q R)
    (mo : MoeadOps m ℝ (Row n) O (Vec m) C U) (lo hi : Fin n → ℝ) (draw : Nat → MateDraw n) (argsort : List ℝ → List Nat) (nn : Nat)
    (toCall : Nat → Kind → Pop (Row n) O (Vec m) C U → R → Except Err (VecCall m)) (hM : IsMoead ops mo lo hi draw argsort nn toCall)
    (hnn : nn < 2) (nc : Nat) (unc : Bool) (hp : ProblemOK ops nc unc) (unit : Nat → Nat → List (Fin n → ℝ))
    (hu : ∀ c k, (unit c k).length = k) (sel0 : S) (prob0 : Q) (useSurr keepArchive saveND useRepair : Bool) (nIter nGen total np : Nat)
    (pty : ProblemType) (hpty : pty ≠ .iopis) (ps lr : Option Nat) (hps : m ≤ choosePopSize m ps lr)
    (s : EA (Row n) O (Vec m) C U (MoeadRV m) S Q)
    (hs : moeadConstruct ops (boxDesign lo hi unit) argsort nn np sel0 prob0 false useSurr keepArchive saveND nIter nGen total pty nc ps lr
      = .ok s) (cs : List (Call R)) :
    let N := choosePopSize m ps lr
    let t := s.callsWith ops (moeadBody ops mo useRepair N) cs
    t.gen = 0 ∧ (0 < nGen → total = 0 → ∀ pref, ∃ e, (t.iterateWith ops (moeadBody ops mo useRepair N) pref).1 = .error e) := by
  obtain ⟨-, hk, ⟨r, v, w1, w2, w3, w4, w5, w6, -⟩, c1, c2, c3, c4, c5, c6, -⟩ := moeadConstruct_spec hm ops lo hi unit hu argsort nn np sel0 prob0
    false useSurr keepArchive saveND nIter nGen total pty hpty nc unc hp ps lr hps s hs
  have hge := choose_ge m r hm
  obtain ⟨h1, h2, h3⟩ := never_completes ops (moeadBody ops mo useRepair (choosePopSize m ps lr))
    (FreshVec argsort nn (Nat.choose (r + m - 1) (m - 1)))
    (fun v f h => by rw [hM.adapt]; exact moeadAdapt_fresh argsort nn _ v f h)
    (fun s h => by
      refine moeadBody_raises ops mo useRepair _ 0 (by omega) s ?_
      intro t ht
      have hn0 : t.vec.neigh = neighborhoods argsort nn s.vec.rv.planar := by rw [ht]; exact h.2
      unfold moeadStep chooseParents
      rw [hn0]
      split
      · exact ⟨_, _, rfl⟩
      · rename_i q hq
        exfalso
        split at hq
        · cases hq
        · rename_i nb hnb
          have : nb.length ≤ nn := by
            have := List.mem_of_getElem? hnb
            simp only [neighborhoods, List.mem_map] at this
            obtain ⟨_, _, rfl⟩ := this
            simp
          rw [if_pos (by omega)] at hq
          cases hq)
    s (by rw [w5]; exact ⟨w6, rfl⟩) c1 (c5 rfl) cs
  refine ⟨by rw [h1]; exact c6, fun a b => h3 (by rw [c3]; exact a) (by rw [c4]; exact b)⟩

/-! ## After a reference point -/

/-- A step whose neighbourhood names more individuals than there are cannot return. -/
theorem moeadStep_outgrown (ops : Ops X O F C U (MoeadVec m ℝ) S Q R) (mo : MoeadOps m ℝ X O F C U) (useRepair : Bool)
    (nc d N : Nat) (unc : Bool) (i : Nat) (hev : ∀ clk sur b r, ops.evaluate clk sur b = .ok r → EvalOK nc b.rows.length r)
    (s : EA X O F C U (MoeadVec m ℝ) S Q) (hk : Kept nc d N unc s.pop) (nb : List Nat) (hnb : s.vec.neigh[i]? = some nb)
    (hd : nb.Nodup) (hlen : N + 1 < nb.length) : ∃ e t, moeadStep ops mo useRepair i s = (.error e, t) := by
  cases hr : moeadStep ops mo useRepair i s with
  | mk r t =>
    cases r with
    | error e => exact ⟨e, t, rfl⟩
    | ok u =>
      exfalso
      obtain ⟨-, -, -, -, -, -, -, -, a, b, x0, xs, res, p, sel, q, -, -, hadd, hsel, -, -⟩ := moeadStep_ok _ _ _ _ _ _ hr
      obtain ⟨⟨rs, hrep, hl⟩, hpos, hdim, hdpos, hcons, hunc⟩ := hk
      generalize hev' : ops.evaluate (s.clock + 2) s.cfg.useSurr
        ⟨s.pop.ndim - 1, [if useRepair then mo.repair x0 else x0]⟩ = ev at hadd
      cases ev with
      | error e => simp [Pop.add] at hadd
      | ok r =>
        have hok := hev _ _ _ _ hev'
        have hne : s.pop.individuals ≠ none := by
          rcases hrep.inds with hh | ⟨-, hh⟩
          · rw [hh]; simp
          · rw [hh] at hl; simp at hl; omega
        have h1 := (add_spec (d := s.pop.ndim) hrep ⟨s.pop.ndim - 1, [if useRepair then mo.repair x0 else x0]⟩ r
          (by rw [hcons]; exact hok) (fun _ => rfl) (Or.inr ⟨by show s.pop.ndim - 1 + 1 = _; omega, rfl, hne⟩)).1
        rw [hadd] at h1
        have h2 : p.fitness.length = N + 1 := by
          rw [h1.fits, List.length_map, List.length_append, hl, newRecs_length _ _ nc hok]
          rfl
        unfold moeadSelect at hsel
        rw [hnb] at hsel
        dsimp only at hsel
        split at hsel
        · rename_i curs off ws hcur _ _
          have h3 := (takeRows_spec _ _ _ hcur).2.1
          have : nb.length ≤ (List.range (N + 1)).length :=
            (List.Nodup.subperm hd (fun k hk => List.mem_range.2 (by have := h3 k hk; omega))).length_le
          simp at this
          omega
        · cases hsel

theorem moeadBody_itype (ops : Ops X O F C U (MoeadRV m) S Q R) (mo : MoeadOps m ℝ X O F C U) (useRepair : Bool) (N : Nat)
    (s : EA X O F C U (MoeadRV m) S Q) : (moeadBody ops mo useRepair N s).2.itype = s.itype := by
  have hstep : ∀ i (s : EA X O F C U (MoeadVec m ℝ) S Q), (moeadStep (ops.forGeneration (W := MoeadVec m ℝ)) mo useRepair i s).2.itype = s.itype := by
    intro i s
    have hev : ∀ (x : X) (u : EA X O F C U (MoeadVec m ℝ) S Q), (moeadEvaluate (ops.forGeneration (W := MoeadVec m ℝ)) x u).2.itype = u.itype := by
      intro x u
      unfold moeadEvaluate EA.popAdd
      dsimp only
      generalize u.pop.add _ _ = r
      obtain ⟨r, p⟩ := r
      cases r with
      | error e => rfl
      | ok _ => dsimp only; split <;> rfl
    have hfin : ∀ (x : X) (res : Results O F C U) (u : EA X O F C U (MoeadVec m ℝ) S Q),
        (moeadFinish (ops.forGeneration (W := MoeadVec m ℝ)) mo i x res u).2.itype = u.itype := by
      intro x res u
      unfold moeadFinish EA.updateND
      repeat' split
      all_goals rfl
    unfold moeadStep
    split
    · rfl
    · dsimp only
      split
      · rfl
      · rfl
      · rename_i x0 xs _
        have h1 := hev (if useRepair then mo.repair x0 else x0) { s with clock := s.clock + 1 + 1 }
        split
        · rename_i heq; rw [heq] at h1; exact h1
        · rename_i res t heq
          rw [heq] at h1
          exact (hfin (if useRepair then mo.repair x0 else x0) res t).trans h1
  have hsteps : ∀ (is : List Nat) (s : EA X O F C U (MoeadVec m ℝ) S Q),
      (moeadSteps (ops.forGeneration (W := MoeadVec m ℝ)) mo useRepair is s).2.itype = s.itype := by
    intro is
    induction is with
    | nil => exact fun _ => rfl
    | cons i is ih =>
      intro s
      have h1 := hstep i s
      unfold moeadSteps
      generalize moeadStep (ops.forGeneration (W := MoeadVec m ℝ)) mo useRepair i s = r at h1
      obtain ⟨r, t⟩ := r
      cases r with
      | error e => exact h1
      | ok _ => exact (ih t).trans h1
  have h := hsteps (List.range N) (s.withVec s.vec.toVec)
  unfold moeadBody moeadNextGen
  generalize moeadSteps (ops.forGeneration (W := MoeadVec m ℝ)) mo useRepair (List.range N) (s.withVec s.vec.toVec) = r at h
  obtain ⟨r, t⟩ := r
  cases r <;> exact h

/-- The turn answered with a reference point. -/
theorem moead_first_turn (hm : 2 ≤ m) (ops : Ops (Row n) O (Vec m) C U (MoeadRV m) S Q R)
    (mo : MoeadOps m ℝ (Row n) O (Vec m) C U) (lo hi : Fin n → ℝ) (draw : Nat → MateDraw n) (argsort : List ℝ → List Nat) (nn : Nat)
    (toCall : Nat → Kind → Pop (Row n) O (Vec m) C U → R → Except Err (VecCall m)) (hM : IsMoead ops mo lo hi draw argsort nn toCall)
    (htc : ∀ t p r c, toCall t .refPoint p r = .ok c → ∃ d, c = .refPoint d)
    (nc : Nat) (unc : Bool) (hp : ProblemOK ops nc unc) (unit : Nat → Nat → List (Fin n → ℝ)) (hu : ∀ c k, (unit c k).length = k)
    (sel0 : S) (prob0 : Q) (useSurr keepArchive saveND useRepair : Bool) (nIter nGen total np : Nat)
    (ps lr : Option Nat) (r : Nat) (hr : 1 ≤ r) (hN : choosePopSize m ps lr = Nat.choose (r + m - 1) (m - 1))
    (hnn : 2 ≤ nn) (s : EA (Row n) O (Vec m) C U (MoeadRV m) S Q)
    (hs : moeadConstruct ops (boxDesign lo hi unit) argsort nn np sel0 prob0 true useSurr keepArchive saveND nIter nGen total .mo nc ps lr
      = .ok s) (p : Pref R) :
    let N := choosePopSize m ps lr
    let t := s.callsWith ops (moeadBody ops mo useRepair N) [.setType (some "Reference point"), .start]
    let u := t.iterateWith ops (moeadBody ops mo useRepair N) (some p)
    (saveND = false → (∀ clk sur b, ∃ res, ops.evaluate clk sur b = .ok res) → t.reqId = some p.id → p.cls = .referencePoint →
      (∀ clk, ∃ c, toCall clk .refPoint t.pop p.response = .ok c) → ∃ req, u.1 = .ok req) ∧
    ((∃ req, u.1 = .ok req) →
      Kept nc 2 N unc u.2.pop ∧ u.2.vec.rv.planar.length = N + m ∧ u.2.vec.neigh.length = N ∧ u.2.cfg = s.cfg) ∧
    s.cfg.interact = true ∧ s.cfg.location = some .selection ∧ s.cfg.nGen = nGen ∧ s.cfg.total = total := by
  have hge := choose_ge m r hm
  have hps : m ≤ choosePopSize m ps lr := by
    rw [hN]
    have e1 : Nat.choose (1 + m - 1) (m - 1) = m := by
      obtain ⟨k, rfl⟩ : ∃ k, m = k + 2 := ⟨m - 2, by omega⟩
      have : 1 + (k + 2) - 1 = (k + 1) + 1 := by omega
      rw [this, show k + 2 - 1 = k + 1 from rfl, Nat.choose_succ_self_right]
    calc m = Nat.choose (1 + m - 1) (m - 1) := e1.symm
      _ ≤ _ := Nat.choose_le_choose _ (by omega)
  obtain ⟨-, hk, ⟨r', v, w1, w2, w3, w4, w5, w6, w7⟩, c1, c2, c3, c4, -, c6, c7⟩ := moeadConstruct_spec hm ops lo hi unit hu argsort nn np
    sel0 prob0 true useSurr keepArchive saveND nIter nGen total .mo (by decide) nc unc hp ps lr hps s hs
  have hloc := c7 rfl rfl
  have hrr : r' = r := by
    have h1 := w3 r hr (by omega)
    by_contra hne
    have h2 := choose_strictMono m hm (show r < r' by omega)
    omega
  subst hrr
  dsimp only
  generalize hNN : choosePopSize m ps lr = N at *
  set body := moeadBody ops mo useRepair N with hbodydef
  -- the state after `set_interaction_type` and `start`
  have hset : s.setInteractionType (some "Reference point") = (.ok (), { s with typeSet := true, itype := some .refPoint }) := by
    unfold EA.setInteractionType
    rw [hloc]
    simp [Kind.parse]
  obtain ⟨t, ht⟩ : ∃ t, t = s.callsWith ops body [.setType (some "Reference point"), .start] := ⟨_, rfl⟩
  have ht' : t.pop = s.pop ∧ t.vec = s.vec ∧ t.cfg = s.cfg ∧ t.itype = some .refPoint := by
    have : t = (({ s with typeSet := true, itype := some .refPoint } : EA (Row n) O (Vec m) C U (MoeadRV m) S Q).start ops).2 := by
      rw [ht]
      show ((s.setInteractionType (some "Reference point")).2.start ops).2 = _
      rw [hset]
    rw [this]
    unfold EA.start
    split
    · exact ⟨rfl, rfl, rfl, rfl⟩
    · dsimp only
      split
      · rename_i e x hx
        split at hx
        · split at hx
          · simp only [Prod.mk.injEq] at hx; rw [← hx.2]; exact ⟨rfl, rfl, rfl, rfl⟩
          · split at hx
            · simp only [Prod.mk.injEq] at hx; rw [← hx.2]; exact ⟨rfl, rfl, rfl, rfl⟩
            · simp at hx
        · simp at hx
      · rename_i y x hx
        have hx' : x.pop = s.pop ∧ x.vec = s.vec ∧ x.cfg = s.cfg ∧ x.itype = some .refPoint := by
          split at hx
          · split at hx
            · simp at hx
            · split at hx
              · simp at hx
              · simp only [Prod.mk.injEq] at hx; rw [← hx.2]; exact ⟨rfl, rfl, rfl, rfl⟩
          · simp only [Prod.mk.injEq] at hx; rw [← hx.2]; exact ⟨rfl, rfl, rfl, rfl⟩
        unfold EA.requestPreferences
        repeat' split
        all_goals exact hx'
  rw [← ht]
  obtain ⟨t1, t2, t3, t4⟩ := ht'
  clear ht hset
  -- the loop keeps everything
  have hloop : ∀ fuel (x : EA (Row n) O (Vec m) C U (MoeadRV m) S Q), Kept nc 2 N unc x.pop → x.vec.neigh = neighborhoods argsort nn v.planar →
      x.vec.rv.planar.length = N + m →
      Kept nc 2 N unc (EA.loop body fuel x).2.pop ∧ (EA.loop body fuel x).2.vec = x.vec ∧ (EA.loop body fuel x).2.cfg = x.cfg ∧
      (x.cfg.saveND = false → (∀ clk sur b, ∃ res, ops.evaluate clk sur b = .ok res) → (EA.loop body fuel x).1 = .ok ()) := by
    intro fuel
    induction fuel with
    | zero => exact fun x h _ _ => ⟨h, rfl, rfl, fun _ _ => rfl⟩
    | succ fuel ih =>
      intro x h1 h2 h3
      unfold EA.loop
      split
      · have hv : x.vec.toVec = ⟨x.vec.rv.planar, neighborhoods argsort nn v.planar⟩ := by rw [← h2]; rfl
        obtain ⟨a1, a2, a3, a4⟩ := moeadBody_kept (ops := ops) (mo := mo) useRepair N nc 2 unc x (by
          rw [hv]
          exact freshReady hM nc N unc hp (by omega) (by omega) v.planar (by rw [w6, hN]) _ (by omega)) h1
        have a5 : x.cfg.saveND = false → (∀ clk sur b, ∃ res, ops.evaluate clk sur b = .ok res) → (body x).1 = .ok () :=
          fun h5 h6 => (a4 (fun h => by rw [h5] at h; cases h)).2 h6
        clear a4
        rw [← hbodydef] at a1 a2 a3
        generalize body x = q at a1 a2 a3 a5
        obtain ⟨q, y⟩ := q
        cases q with
        | error e => exact ⟨a1, a2, a3, fun h5 h6 => by have := a5 h5 h6; cases this⟩
        | ok _ =>
          dsimp only at a1 a2 a3 ⊢
          obtain ⟨b1, b2, b3, b4⟩ := ih y a1 (by rw [a2]; exact h2) (by rw [a2]; exact h3)
          exact ⟨b1, b2.trans a2, b3.trans a3, fun h5 h6 => b4 (by rw [a3]; exact h5) h6⟩
      · exact ⟨h1, rfl, rfl, fun _ _ => rfl⟩
  have hrec : ∀ x : EA (Row n) O (Vec m) C U (MoeadRV m) S Q, x.cfg = s.cfg →
      (x.preIteration ops).pop = x.pop ∧ (x.preIteration ops).vec = x.vec ∧ (x.preIteration ops).cfg = s.cfg := by
    intro x hx
    have hr : x.record.pop = x.pop ∧ x.record.vec = x.vec ∧ x.record.cfg = x.cfg := by unfold EA.record; split <;> exact ⟨rfl, rfl, rfl⟩
    have e1 : ¬ (!x.record.cfg.interact) = true := by rw [hr.2.2, hx, c1]; simp
    have e2 : ¬ x.record.cfg.location ≠ some .selection := by rw [hr.2.2, hx, hloc]; simp
    simp only [EA.preIteration]
    rw [if_neg e1, if_neg e2]
    exact ⟨hr.1, hr.2.1, hr.2.2.trans hx⟩
  -- the first turn
  refine ⟨?_, ?_, c1, hloc, c3, c4⟩
  · intro q1 q2 q3 q4 q5
    obtain ⟨c, hc⟩ := q5 t.clock
    obtain ⟨d, rfl⟩ := htc _ _ _ _ hc
    have hcall : moeadVecCall argsort nn (moeadInit argsort nn v) (.refPoint d) =
        .ok ⟨(v.adapt3 (fun i => d i / norm2 d) (1 / 5)).addEdges, neighborhoods argsort nn v.planar⟩ := rfl
    have hresp : ops.respond t.clock .refPoint t.vec t.pop p.response =
        (.ok (), ⟨(v.adapt3 (fun i => d i / norm2 d) (1 / 5)).addEdges, neighborhoods argsort nn v.planar⟩) := by
      rw [hM.respond, t2, w5]
      unfold moeadRespond
      rw [hc]
      dsimp only
      rw [hcall]
    have hmp : t.managePreferences ops (some p) = (.ok (), { t with clock := t.clock + 1, vec := ⟨(v.adapt3 (fun i => d i / norm2 d) (1 / 5)).addEdges, neighborhoods argsort nn v.planar⟩ }) := by
      unfold EA.managePreferences EA.selManage
      rw [t3, hloc]
      dsimp only
      rw [if_neg (by rw [q3]; simp), t4]
      dsimp only
      rw [if_neg (by rw [q4]; simp [Kind.cls]), hresp]
    unfold EA.iterateWith
    rw [hmp]
    dsimp only
    generalize hy : ({ t with clock := t.clock + 1, vec := ⟨(v.adapt3 (fun i => d i / norm2 d) (1 / 5)).addEdges, neighborhoods argsort nn v.planar⟩ } : EA (Row n) O (Vec m) C U (MoeadRV m) S Q) = y
    have y1 : y.pop = s.pop := by rw [← hy]; exact t1
    have y2 : y.cfg = s.cfg := by rw [← hy]; exact t3
    have y3 : y.vec = ⟨(v.adapt3 (fun i => d i / norm2 d) (1 / 5)).addEdges, neighborhoods argsort nn v.planar⟩ := by rw [← hy]
    have y4 : y.itype = some .refPoint := by rw [← hy]; exact t4
    have hi4 : (y.preIteration ops).itype = some .refPoint := by
      have hr : y.record.itype = y.itype := by unfold EA.record; split <;> rfl
      simp only [EA.preIteration]
      repeat' split
      all_goals exact hr.trans y4
    obtain ⟨g1, g2, g3⟩ := hrec y y2
    generalize y.preIteration ops = z at g1 g2 g3 hi4
    obtain ⟨l1, l2, l3, l4⟩ := hloop z.cfg.nGen { z with genIter := 0 } (by show Kept nc 2 N unc z.pop; rw [g1, y1]; exact hk)
      (by show z.vec.neigh = _; rw [g2, y3]) (by
        show z.vec.rv.planar.length = _
        rw [g2, y3]
        show (v.adapt3 (fun i => d i / norm2 d) (1 / 5)).addEdges.planar.length = N + m
        rw [(addEdges_sizes _).2]
        simp only [RV.adapt3, RV.normalize, List.length_map]
        rw [w7, hN])
    have l5 := l4 (by show z.cfg.saveND = false; rw [g3, c2]; exact q1) q2
    have hit : ∀ fuel (x : EA (Row n) O (Vec m) C U (MoeadRV m) S Q), (EA.loop body fuel x).2.itype = x.itype := by
      intro fuel
      induction fuel with
      | zero => exact fun _ => rfl
      | succ fuel ih =>
        intro x
        unfold EA.loop
        split
        · have hb : (body x).2.itype = x.itype := by
            rw [hbodydef]
            exact moeadBody_itype ops mo useRepair N x
          generalize body x = q at hb
          obtain ⟨q, w⟩ := q
          cases q with
          | error e => exact hb
          | ok _ => exact (ih w).trans hb
        · rfl
    have l6 := hit z.cfg.nGen { z with genIter := 0 }
    generalize EA.loop body z.cfg.nGen { z with genIter := 0 } = w at l1 l2 l3 l5 l6
    obtain ⟨w0, w⟩ := w
    dsimp only at l5 l6 l3
    subst l5
    dsimp only
    unfold EA.requestPreferences
    rw [if_neg (by show ¬ w.cfg.interact = false; rw [l3]; show ¬ z.cfg.interact = false; rw [g3, c1]; simp)]
    have hwl : w.cfg.location = some .selection := by rw [l3]; show z.cfg.location = _; rw [g3, hloc]
    have hwi : w.itype = some .refPoint := by rw [l6]; exact hi4
    simp only [hwl, hwi]
    split <;> exact ⟨_, rfl⟩
  intro hok
  obtain ⟨u, hu'⟩ : ∃ u, u = t.iterateWith ops body (some p) := ⟨_, rfl⟩
  rw [← hu'] at hok ⊢
  have hmain : Kept nc 2 N unc u.2.pop ∧ u.2.vec.rv.planar.length = N + m ∧ u.2.vec.neigh = neighborhoods argsort nn v.planar ∧
      u.2.cfg = s.cfg := by
    unfold EA.iterateWith at hu'
    obtain ⟨q, hq⟩ : ∃ q, q = t.managePreferences ops (some p) := ⟨_, rfl⟩
    rw [← hq] at hu'
    have hmp : (∃ e, q.1 = .error e) ∨ (q.1 = .ok () ∧ q.2.pop = t.pop ∧ q.2.cfg = t.cfg ∧ q.2.vec.rv.planar.length = N + m ∧
        q.2.vec.neigh = neighborhoods argsort nn v.planar) := by
      rw [hq]
      unfold EA.managePreferences EA.selManage
      rw [t3, hloc]
      dsimp only
      split
      · exact .inl ⟨_, rfl⟩
      · rw [t4]
        dsimp only
        split
        · exact .inl ⟨_, rfl⟩
        · rw [hM.respond, t2, w5]
          unfold moeadRespond
          split
          · exact .inl ⟨_, rfl⟩
          · rename_i c hc
            obtain ⟨d, rfl⟩ := htc _ _ _ _ hc
            refine .inr ⟨rfl, rfl, rfl, ?_, rfl⟩
            show (v.adapt3 (fun i => d i / norm2 d) (1 / 5)).addEdges.planar.length = N + m
            rw [(addEdges_sizes _).2]
            simp only [RV.adapt3, RV.normalize, List.length_map]
            rw [w7, hN]
    obtain ⟨q1, q2⟩ := q
    rcases hmp with ⟨e, he⟩ | ⟨h1, h2, h3, h4, h5⟩
    · dsimp only at he
      subst he
      dsimp only at hu'
      obtain ⟨req, hreq⟩ := hok
      rw [hu'] at hreq
      cases hreq
    · dsimp only at h1 h2 h3 h4 h5
      subst h1
      dsimp only at hu'
      obtain ⟨g1, g2, g3⟩ := hrec q2 (h3.trans t3)
      generalize q2.preIteration ops = z at hu' g1 g2 g3
      obtain ⟨l1, l2, l3, -⟩ := hloop z.cfg.nGen { z with genIter := 0 } (by show Kept nc 2 N unc z.pop; rw [g1, h2, t1]; exact hk)
        (by show z.vec.neigh = _; rw [g2, h5]) (by show z.vec.rv.planar.length = _; rw [g2, h4])
      generalize EA.loop body z.cfg.nGen { z with genIter := 0 } = y at hu' l1 l2 l3
      obtain ⟨y1, y2⟩ := y
      cases y1 with
      | error e =>
        dsimp only at hu'
        obtain ⟨req, hreq⟩ := hok
        rw [hu'] at hreq
        cases hreq
      | ok _ =>
        dsimp only at hu' l1 l2 l3
        have hfin : u.2.pop = y2.pop ∧ u.2.vec = y2.vec ∧ u.2.cfg = y2.cfg := by
          rw [hu']
          unfold EA.requestPreferences
          repeat' split
          all_goals exact ⟨rfl, rfl, rfl⟩
        rw [hfin.1, hfin.2.1, hfin.2.2, l2, l3]
        exact ⟨l1, by rw [g2, h4], by rw [g2, h5], g3⟩
  obtain ⟨m1, m2, m3, m4⟩ := hmain
  exact ⟨m1, m2, by rw [m3, (neighborhoods_spec argsort hM.sorts nn _).1, w6, hN], m4⟩

/-- C74, violated. Interactive MOEA/D answered once with a reference point and then asked to carry on without a preference: the
vectors are now `pop_size + m` (the axes were added), the neighbourhoods of the first answer were still those of the old vectors,
and the second `iterate()` recomputes them for all the vectors; when `n_neighbors` reaches them all, it raises, for every outcome of
the random draws and of the evaluations. -/
theorem c74_interactive_second_turn_violated (hm : 2 ≤ m) (ops : Ops (Row n) O (Vec m) C U (MoeadRV m) S Q R)
    (mo : MoeadOps m ℝ (Row n) O (Vec m) C U) (lo hi : Fin n → ℝ) (draw : Nat → MateDraw n) (argsort : List ℝ → List Nat) (nn : Nat)
    (toCall : Nat → Kind → Pop (Row n) O (Vec m) C U → R → Except Err (VecCall m)) (hM : IsMoead ops mo lo hi draw argsort nn toCall)
    (htc : ∀ t p r c, toCall t .refPoint p r = .ok c → ∃ d, c = .refPoint d)
    (nc : Nat) (unc : Bool) (hp : ProblemOK ops nc unc) (unit : Nat → Nat → List (Fin n → ℝ)) (hu : ∀ c k, (unit c k).length = k)
    (sel0 : S) (prob0 : Q) (useSurr keepArchive saveND useRepair : Bool) (nIter nGen np : Nat) (hgen : 0 < nGen)
    (ps lr : Option Nat) (r : Nat) (hr : 1 ≤ r) (hN : choosePopSize m ps lr = Nat.choose (r + m - 1) (m - 1))
    (hnn : choosePopSize m ps lr + m ≤ nn) (s : EA (Row n) O (Vec m) C U (MoeadRV m) S Q)
    (hs : moeadConstruct ops (boxDesign lo hi unit) argsort nn np sel0 prob0 true useSurr keepArchive saveND nIter nGen 0 .mo nc ps lr
      = .ok s) (p : Pref R) :
    let N := choosePopSize m ps lr
    let t := s.callsWith ops (moeadBody ops mo useRepair N) [.setType (some "Reference point"), .start]
    let u := t.iterateWith ops (moeadBody ops mo useRepair N) (some p)
    (∃ req, u.1 = .ok req) →
    (∃ rs, Represents u.2.pop rs ∧ rs.length = N) ∧ u.2.vec.rv.planar.length = N + m ∧ u.2.vec.neigh.length = N ∧
    ∃ e, (u.2.iterateWith ops (moeadBody ops mo useRepair N) none).1 = .error e := by
  have hm2 : 2 ≤ nn := by omega
  obtain ⟨-, hfacts, c1, hloc, c3, c4⟩ := moead_first_turn hm ops mo lo hi draw argsort nn toCall hM htc nc unc hp unit hu sel0 prob0 useSurr
    keepArchive saveND useRepair nIter nGen 0 np ps lr r hr hN hm2 s hs p
  dsimp only at hfacts ⊢
  intro hok
  obtain ⟨m1, m2, m3, m4⟩ := hfacts hok
  generalize hNN : choosePopSize m ps lr = N at *
  have hNge : 1 ≤ N := m1.pos
  set body := moeadBody ops mo useRepair N with hbodydef
  refine ⟨m1.rep, m2, m3, ?_⟩
  have hrec : ∀ x : EA (Row n) O (Vec m) C U (MoeadRV m) S Q, x.cfg = s.cfg →
      (x.preIteration ops).pop = x.pop ∧ (x.preIteration ops).vec = x.vec ∧ (x.preIteration ops).cfg = s.cfg := by
    intro x hx
    have hr : x.record.pop = x.pop ∧ x.record.vec = x.vec ∧ x.record.cfg = x.cfg := by unfold EA.record; split <;> exact ⟨rfl, rfl, rfl⟩
    have e1 : ¬ (!x.record.cfg.interact) = true := by rw [hr.2.2, hx, c1]; simp
    have e2 : ¬ x.record.cfg.location ≠ some .selection := by rw [hr.2.2, hx, hloc]; simp
    simp only [EA.preIteration]
    rw [if_neg e1, if_neg e2]
    exact ⟨hr.1, hr.2.1, hr.2.2.trans hx⟩
  generalize ((s.callsWith ops body [.setType (some "Reference point"), .start]).iterateWith ops body (some p)) = u at *
  obtain ⟨u1, u⟩ := u
  dsimp only at m1 m2 m3 m4 ⊢
  -- the second turn
  have hmp : u.managePreferences ops none = (.ok (), { u with vec := ops.adapt u.vec u.pop.fitness }) := by
    unfold EA.managePreferences EA.selManage
    rw [m4, hloc]
  unfold EA.iterateWith
  rw [hmp]
  dsimp only
  obtain ⟨g1, g2, g3⟩ := hrec { u with vec := ops.adapt u.vec u.pop.fitness } m4
  generalize EA.preIteration ops { u with vec := ops.adapt u.vec u.pop.fitness } = z at g1 g2 g3
  have hfresh : FreshVec argsort nn (N + m) z.vec := by
    rw [g2]
    show FreshVec argsort nn (N + m) (ops.adapt u.vec u.pop.fitness)
    rw [hM.adapt]
    unfold moeadAdapt moeadVecCall
    obtain ⟨rs, hrs, hlen⟩ := m1.rep
    have hf : u.pop.fitness ≠ [] := by
      rw [hrs.fits]; intro h; have h0 := m1.pos; rw [List.map_eq_nil_iff] at h; rw [h] at hlen; simp at hlen; omega
    cases hc : u.vec.rv.call (.adapt u.pop.fitness) with
    | error e =>
      exfalso
      obtain ⟨a, ha⟩ := colMax_total _ hf
      obtain ⟨b, hb⟩ := colMin_total _ hf
      simp [RV.call, RV.adapt, ha, hb] at hc
    | ok w =>
      have := (adapt_frame u.vec.rv w _ hc).2.2
      exact ⟨by show w.planar.length = N + m; rw [this]; exact m2, rfl⟩
  obtain ⟨k, hk'⟩ : ∃ k, z.cfg.nGen = k + 1 := ⟨z.cfg.nGen - 1, by rw [g3, c3]; omega⟩
  have hstep : ∃ e y, moeadStep (ops.forGeneration (W := MoeadVec m ℝ)) mo useRepair 0
      (({ z with genIter := 0 } : EA (Row n) O (Vec m) C U (MoeadRV m) S Q).withVec z.vec.toVec) = (.error e, y) := by
    obtain ⟨s1, s2⟩ := neighborhoods_spec argsort hM.sorts nn z.vec.rv.planar
    have hpl : z.vec.rv.planar.length = N + m := hfresh.1
    obtain ⟨nb, n1, n2⟩ := s2 0 (z.vec.rv.planar[0]'(by omega)) (by rw [List.getElem?_eq_getElem])
    refine moeadStep_outgrown _ mo useRepair nc 2 N unc 0 (fun clk sur b r h => (hp clk sur b r h).1) _ ?_ nb ?_ n2.distinct ?_
    · show Kept nc 2 N unc z.pop; rw [g1]; exact m1
    · show z.vec.neigh[0]? = some nb; rw [hfresh.2]; exact n1
    · rw [n2.size, hpl]; omega
  obtain ⟨e, y, he⟩ := hstep
  have hb : ∃ y', body { z with genIter := 0 } = (.error e, y') := by
    rw [hbodydef]
    unfold moeadBody moeadNextGen
    obtain ⟨j, hj⟩ : ∃ j, N = j + 1 := ⟨N - 1, by omega⟩
    have : List.range N = 0 :: (List.range j).map Nat.succ := by rw [hj, List.range_succ_eq_map]
    rw [this]
    simp only [moeadSteps]
    rw [he]
    exact ⟨_, rfl⟩
  obtain ⟨y', hb⟩ := hb
  refine ⟨e, ?_⟩
  rw [show ({ z with genIter := 0 } : EA (Row n) O (Vec m) C U (MoeadRV m) S Q).cfg.nGen = k + 1 from hk']
  unfold EA.loop
  rw [if_pos (by simp [EA.continueIteration, EA.checkFE, g3, c3, c4]; omega), hb]

/-! ## The hypotheses can be met -/

/-- The problem "minimise x and -x over [0, 1]", the answer of the decision maker being a direction. -/
noncomputable def demoMoeadRun (argsort : List ℝ → List Nat) (nn : Nat) :
    Ops (Row 1) Unit (Vec 2) (List ℝ) (Vec 2) (MoeadRV 2) Unit Unit (Vec 2) where
  adapt := moeadAdapt argsort nn
  respond := moeadRespond argsort nn (fun _ _ _ d => .ok (.refPoint d))
  mate := fun _ p => .ok ⟨2, p.individuals.getD []⟩
  evaluate := fun _ _ b => .ok ⟨b.rows.map (fun _ => ()), b.rows.map (fun x => ![(x 0).getD 0, - (x 0).getD 0]), none, none⟩
  select := fun _ v t _ => (.ok [], v, t)
  newId := fun _ => 7
  probManage := fun q _ _ => (.ok (), q)
  probReeval := fun q _ => ([], q)
  dom := fun _ _ => false
  nonDom := fun l => l.map (fun _ => true)

/-- The other components. -/
noncomputable def demoMoeadParts : MoeadOps 2 ℝ (Row 1) Unit (Vec 2) (List ℝ) (Vec 2) where
  pick := fun _ _ => (0, 1)
  mate := mateTwo (fun _ => 0) (fun _ => 1) (fun _ => ⟨id, fun _ => ⟨fun _ => 0, fun _ => false, fun _ => 0⟩, fun _ _ => 0, fun _ _ => 0⟩)
  repair := repairRow (fun _ => 0) (fun _ => 1)
  sf := fun f w _ => some (f 0 * w 0 + f 1 * w 1)
  ideal := fun _ => 0
  tiny := 1 / 10000

theorem demoMoead_is (argsort : List ℝ → List Nat) (h : ∀ l, IsArgsort l (argsort l)) (nn : Nat) :
    ∃ draw, IsMoead (demoMoeadRun argsort nn) demoMoeadParts (fun _ => 0) (fun _ => 1) draw argsort nn (fun _ _ _ d => .ok (.refPoint d)) :=
  ⟨_, ⟨rfl, rfl, rfl, rfl, fun _ k hk => ⟨by show 0 < k; omega, by show 1 < k; omega, by show (0 : Nat) ≠ 1; decide⟩, h⟩⟩

theorem demoMoead_problem (argsort : List ℝ → List Nat) (nn : Nat) : ProblemOK (demoMoeadRun argsort nn) 0 false := by
  intro clk surr b r h
  simp only [demoMoeadRun, Except.ok.injEq] at h
  subst h
  exact ⟨⟨by simp, by simp, by simp, by simp, by simp⟩, by simp⟩

/-- MOEA/D of `k ≥ 2` individuals can be made for it. -/
theorem demoMoead_made (argsort : List ℝ → List Nat) (nn : Nat) (interact : Bool) (ps lr : Option Nat) (h : 2 ≤ choosePopSize 2 ps lr) :
    ∃ s, moeadConstruct (demoMoeadRun argsort nn) (boxDesign (fun _ => 0) (fun _ => 1) (fun _ k => List.replicate k (fun _ => 0))) argsort nn 2
      () () interact false true false 10 10 0 .mo 0 ps lr = .ok s := by
  obtain ⟨t, ht, -⟩ := (c16_problem_xor_population (demoMoeadRun argsort nn)
    (boxDesign (fun _ => 0) (fun _ => 1) (fun _ k => List.replicate k (fun _ => 0))) (fun _ => (⟨⟨[], [], [], [], 0⟩, []⟩ : MoeadRV 2)) (fun _ => ())
    () interact false true false 10 10 0 ps lr).2.2.2 .mo 2 0 _ _ rfl rfl
  obtain ⟨r, q1, q2, -⟩ := c21_count_bounded 2 (choosePopSize 2 ps lr) (by omega)
  unfold moeadConstruct
  rw [ht]
  dsimp only
  rw [if_neg (by decide), q1]
  dsimp only
  rw [create_ok r (by omega) (q2 h).1]
  exact ⟨_, rfl⟩

/-- `c74_moead_runs`: ten individuals on a lattice of resolution nine, four neighbours. -/
example : choosePopSize 2 none (some 9) = Nat.choose (9 + 2 - 1) (2 - 1) := by decide
example (argsort : List ℝ → List Nat) : ∃ s, moeadConstruct (demoMoeadRun argsort 4)
    (boxDesign (fun _ => 0) (fun _ => 1) (fun _ k => List.replicate k (fun _ => 0))) argsort 4 2 () () false false true false 10 10 0 .mo 0 none
    (some 9) = .ok s := demoMoead_made argsort 4 false none (some 9) (by decide)

/-- `c74_non_lattice_size_never_completes`: with three objectives, eleven individuals are no lattice (ten and fifteen are). -/
example : ∀ r, 1 ≤ r → choosePopSize 3 (some 11) none ≠ Nat.choose (r + 3 - 1) (3 - 1) := by
  intro r hr h
  have h3 : Nat.choose (3 + 3 - 1) (3 - 1) = 10 := by decide
  have h4 : Nat.choose (4 + 3 - 1) (3 - 1) = 15 := by decide
  have h11 : choosePopSize 3 (some 11) none = 11 := rfl
  rcases lt_or_ge r 4 with hlt | hge
  · have : Nat.choose (r + 3 - 1) (3 - 1) ≤ Nat.choose (3 + 3 - 1) (3 - 1) := Nat.choose_le_choose _ (by omega)
    omega
  · have : Nat.choose (4 + 3 - 1) (3 - 1) ≤ Nat.choose (r + 3 - 1) (3 - 1) := Nat.choose_le_choose _ (by omega)
    omega

/-- `c74_interactive_second_turn_violated`: three individuals, five neighbours; a reference point is answered, the first turn returns,
the second raises. -/
example : ∃ (argsort : List ℝ → List Nat) (s : EA (Row 1) Unit (Vec 2) (List ℝ) (Vec 2) (MoeadRV 2) Unit Unit),
    let t := s.callsWith (demoMoeadRun argsort 5) (moeadBody (demoMoeadRun argsort 5) demoMoeadParts true 3)
      [.setType (some "Reference point"), .start]
    let u := t.iterateWith (demoMoeadRun argsort 5) (moeadBody (demoMoeadRun argsort 5) demoMoeadParts true 3) (some ⟨7, .referencePoint, ![1, 2]⟩)
    (∃ req, u.1 = .ok req) ∧
    ∃ e, (u.2.iterateWith (demoMoeadRun argsort 5) (moeadBody (demoMoeadRun argsort 5) demoMoeadParts true 3) none).1 = .error e := by
  obtain ⟨argsort, ha⟩ := exists_argsort
  obtain ⟨s, hs⟩ := demoMoead_made argsort 5 true (some 3) none (by decide)
  obtain ⟨draw, hM⟩ := demoMoead_is argsort ha 5
  have htc : ∀ (t : Nat) (p : Pop (Row 1) Unit (Vec 2) (List ℝ) (Vec 2)) (r : Vec 2) (c : VecCall 2),
      (fun (_ : Nat) (_ : Kind) (_ : Pop (Row 1) Unit (Vec 2) (List ℝ) (Vec 2)) (d : Vec 2) => (Except.ok (VecCall.refPoint d) : Except Err (VecCall 2)))
        t .refPoint p r = .ok c → ∃ d, c = .refPoint d := by
    intro t p r c h; exact ⟨r, by simpa using h.symm⟩
  have h1 := moead_first_turn (by omega) (demoMoeadRun argsort 5) demoMoeadParts (fun _ => 0) (fun _ => 1) draw argsort 5 _ hM htc 0 false
    (demoMoead_problem argsort 5) (fun _ k => List.replicate k (fun _ => 0)) (by simp) () () false true false true 10 10 0 2 (some 3) none 2
    (by omega) (by decide) (by omega) s hs ⟨7, .referencePoint, ![1, 2]⟩
  have h2 := c74_interactive_second_turn_violated (by omega) (demoMoeadRun argsort 5) demoMoeadParts (fun _ => 0) (fun _ => 1) draw argsort 5 _ hM htc
    0 false (demoMoead_problem argsort 5) (fun _ k => List.replicate k (fun _ => 0)) (by simp) () () false true false true 10 10 2 (by omega)
    (some 3) none 2 (by omega) (by decide) (by decide) s hs ⟨7, .referencePoint, ![1, 2]⟩
  obtain ⟨k1, -, k3, k4, -, -⟩ := h1
  have hreq : (s.callsWith (demoMoeadRun argsort 5) (moeadBody (demoMoeadRun argsort 5) demoMoeadParts true (choosePopSize 2 (some 3) none))
      [.setType (some "Reference point"), .start]).reqId = some 7 := by
    have hsv : s.cfg.saveND = false := (moeadConstruct_spec (by omega) (demoMoeadRun argsort 5) (fun _ => 0) (fun _ => 1)
      (fun _ k => List.replicate k (fun _ => 0)) (by simp) argsort 5 2 () () true false true false 10 10 0 .mo (by decide) 0 false
      (demoMoead_problem argsort 5) (some 3) none (by decide) s hs).2.2.2.2.1
    show (((s.setInteractionType (some "Reference point")).2).start (demoMoeadRun argsort 5)).2.reqId = some 7
    have hset : s.setInteractionType (some "Reference point") = (.ok (), { s with typeSet := true, itype := some .refPoint }) := by
      unfold EA.setInteractionType
      rw [k4]
      simp [Kind.parse]
    rw [hset]
    unfold EA.start
    simp [k3, hsv, EA.requestPreferences, k4, demoMoeadRun]
  have hok := k1 rfl (fun _ _ _ => ⟨_, rfl⟩) hreq rfl (fun _ => ⟨_, rfl⟩)
  exact ⟨argsort, s, hok, (h2 hok).2.2.2⟩

end Verif.Props
