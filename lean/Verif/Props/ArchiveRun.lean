import Verif.Proofs.Runs
import Verif.Props.Archive
import Verif.Props.Loop
import Verif.Props.Interaction
import Verif.Props.MOEAD

/-!
# C07, C08 for whole runs: the archive an EA object has kept

`Props/Archive.lean` speaks of any sequence of batches; here the batches are the ones the EA evaluated: after `start()` with
`save_non_dominated=True`, over any further history of calls, whatever selection returns and whatever is raised.
-/

namespace Verif.Props
open Verif
open _root_.Spec (Rec Represents EvalOK newRecs rowsAt names inRange notDominatedIn)

variable {X O F C U V S Q R : Type}

/-- The solutions of an evaluated batch. -/
def solsOf (e : List X × Results O F C U) : List (X × O × F) := e.1.zip (e.2.objectives.zip e.2.fitness)

/-- The population of the EA is a list of records. -/
structure Sound (d nc : Nat) (unc : Bool) (s : EA X O F C U V S Q) : Prop where
  rep : ∃ rs, Represents s.pop rs
  inds : s.pop.individuals ≠ none
  dim : s.pop.ndim = d
  cons : s.pop.nCons = nc
  unc : s.pop.uncertainity = none ↔ unc = false

variable {d nc : Nat} {unc : Bool}

theorem Sound.of_eq {s t : EA X O F C U V S Q} (h : Sound d nc unc s) (hp : t.pop = s.pop) : Sound d nc unc t :=
  ⟨by rw [hp]; exact h.rep, by rw [hp]; exact h.inds, by rw [hp]; exact h.dim, by rw [hp]; exact h.cons, by rw [hp]; exact h.unc⟩

/-- What is known of the archive: it is the result of the updates with the batches logged after `L0`. -/
def ArchOK (ops : Ops X O F C U V S Q R) (init : List (X × O × F)) (L0 : List (List X × Results O F C U))
    (s : EA X O F C U V S Q) : Prop :=
  ∃ new, s.log = L0 ++ new ∧
    s.nd = some (archOf (rowsRun ops.dom (init.filter (notDominatedIn (tdom ops.dom) init)) (new.map solsOf)))

theorem rowsRun_snoc (dom : F → F → Bool) (T : List (X × O × F)) (bs : List (List (X × O × F))) (b : List (X × O × F)) :
    archiveUpdate dom (some (archOf (rowsRun dom T bs))) (b.map (fun t => t.1)) (b.map (fun t => t.2.1)) (b.map (fun t => t.2.2)) =
      .ok (archOf (rowsRun dom T (bs ++ [b]))) := by
  induction bs generalizing T with
  | nil => rw [archiveUpdate_eq]; rfl
  | cons c cs ih => exact ih _

theorem solsOf_cols (rows : List X) (r : Results O F C U) (ho : EvalOK nc rows.length r) :
    (solsOf (rows, r)).map (fun t => t.1) = rows ∧ (solsOf (rows, r)).map (fun t => t.2.1) = r.objectives ∧
      (solsOf (rows, r)).map (fun t => t.2.2) = r.fitness := by
  have h1 := ho.objs
  have h2 := ho.fits
  unfold solsOf
  refine ⟨?_, ?_, ?_⟩
  · exact List.map_fst_zip (by simp [h1, h2])
  · have : (List.zip rows (r.objectives.zip r.fitness)).map (fun t => t.2.1) =
        ((List.zip rows (r.objectives.zip r.fitness)).map Prod.snd).map Prod.fst := by simp
    dsimp only
    rw [this, List.map_snd_zip (by simp [h1, h2]), List.map_fst_zip (by omega)]
  · have : (List.zip rows (r.objectives.zip r.fitness)).map (fun t => t.2.2) =
        ((List.zip rows (r.objectives.zip r.fitness)).map Prod.snd).map Prod.snd := by simp
    dsimp only
    rw [this, List.map_snd_zip (by simp [h1, h2]), List.map_snd_zip (by omega)]

theorem nextGen_arch (ops : Ops X O F C U V S Q R) (hm : ∀ clk p off, ops.mate clk p = .ok off → off.ndim = d)
    (hev : EvalContract ops nc unc) (init : List (X × O × F)) (L0 : List (List X × Results O F C U)) (s : EA X O F C U V S Q)
    (h : Sound d nc unc s) (hnd : s.cfg.saveND = true) (ha : ArchOK ops init L0 s) :
    Sound d nc unc (EA.nextGen ops s).2 ∧ ArchOK ops init L0 (EA.nextGen ops s).2 := by
  obtain ⟨rs, hr⟩ := h.rep
  cases hmate : ops.mate s.clock s.pop with
  | error e =>
    have : EA.nextGen ops s = (.error e, { s with clock := s.clock + 1 }) := by unfold EA.nextGen; rw [hmate]
    rw [this]
    exact ⟨h.of_eq rfl, ha⟩
  | ok off =>
  have hod := hm _ _ _ hmate
  have hun : EA.nextGen ops s = (match (({ s with clock := s.clock + 1 } : EA X O F C U V S Q).popAdd ops off) with
    | (.error e, s) => (.error e, s)
    | (.ok res, s) =>
      match s.updateND ops off.rows res with
      | (.error e, s) => (.error e, s)
      | (.ok _, s) =>
        match ops.select s.clock s.vec s.sel s.pop with
        | (.error e, v, t) => (.error e, { s with vec := v, sel := t, clock := s.clock + 1 })
        | (.ok idx, v, t) =>
          let s := { s with vec := v, sel := t, clock := s.clock + 1 }
          match s.pop.keep idx with
          | (.error e, p) => (.error e, { s with pop := p })
          | (.ok _, p) =>
            let s := { s with pop := p, gen := s.gen + 1, genIter := s.genIter + 1 }
            (.ok (), if s.cfg.useSurr then s else { s with fe := s.fe + off.rows.length })) := by
    unfold EA.nextGen
    rw [hmate]
    rfl
  cases hevr : ops.evaluate (s.clock + 1) s.cfg.useSurr off with
  | error e =>
    have hpa : ({ s with clock := s.clock + 1 } : EA X O F C U V S Q).popAdd ops off =
        (.error e, { s with clock := s.clock + 1 + 1, trueEvals := s.trueEvals + (if s.cfg.useSurr then 0 else off.rows.length) }) := by
      unfold EA.popAdd
      simp only [hevr, Pop.add, evLog, List.append_nil]
    rw [hpa] at hun
    dsimp only at hun
    rw [hun]
    exact ⟨h.of_eq rfl, ha⟩
  | ok r =>
    obtain ⟨ho, hu⟩ := hev _ _ _ _ hevr
    have hadd := add_spec (d := d) hr off r (by rw [h.cons]; exact ho) (fun _ => h.dim) (.inl hod)
    obtain ⟨a1, a2, a3, a4, a5⟩ := hadd
    obtain ⟨a5, a6⟩ := a5 (by
      cases unc with
      | false => exact .inr (.inl (hu.2 rfl))
      | true => exact .inr (.inr (fun e => by simpa using h.unc.1 e)))
    have hpa : ({ s with clock := s.clock + 1 } : EA X O F C U V S Q).popAdd ops off =
        (.ok r, { s with pop := (s.pop.add off (.ok r)).2, clock := s.clock + 1 + 1,
                         trueEvals := s.trueEvals + (if s.cfg.useSurr then 0 else off.rows.length), log := s.log ++ [(off.rows, r)] }) := by
      unfold EA.popAdd
      simp only [hevr, a5, evLog]
    rw [hpa] at hun
    dsimp only at hun
    obtain ⟨s1, hs1⟩ : ∃ t : EA X O F C U V S Q, { s with pop := (s.pop.add off (.ok r)).2, clock := s.clock + 1 + 1, trueEvals := s.trueEvals + (if s.cfg.useSurr then 0 else off.rows.length), log := s.log ++ [(off.rows, r)] } = t := ⟨_, rfl⟩
    rw [hs1] at hun
    have e1 : s1.pop = (s.pop.add off (.ok r)).2 := by rw [← hs1]
    have e3 : s1.cfg = s.cfg := by rw [← hs1]
    have e4 : s1.nd = s.nd := by rw [← hs1]
    have e5 : s1.log = s.log ++ [(off.rows, r)] := by rw [← hs1]
    have sound1 : Sound d nc unc s1 :=
      ⟨⟨_, by rw [e1]; exact a1⟩, by rw [e1]; exact a4, by rw [e1]; exact a3, by rw [e1, a2]; exact h.cons, by rw [e1]; exact a6.trans hu⟩
    obtain ⟨new, n1, n2⟩ := ha
    obtain ⟨c1, c2, c3⟩ := solsOf_cols (C := C) (U := U) off.rows r ho
    have hup := rowsRun_snoc ops.dom (init.filter (notDominatedIn (tdom ops.dom) init)) (new.map solsOf) (solsOf (off.rows, r))
    rw [c1, c2, c3, ← n2, ← e4] at hup
    have hnd1 : s1.updateND ops off.rows r = (.ok (), { s1 with nd := some (archOf (rowsRun ops.dom
        (init.filter (notDominatedIn (tdom ops.dom) init)) (new.map solsOf ++ [solsOf (off.rows, r)]))) }) := by
      unfold EA.updateND
      rw [e3, hnd, if_pos rfl, hup]
    rw [hnd1] at hun
    dsimp only at hun
    obtain ⟨s2, hs2⟩ : ∃ t : EA X O F C U V S Q, { s1 with nd := some (archOf (rowsRun ops.dom (init.filter (notDominatedIn (tdom ops.dom) init)) (new.map solsOf ++ [solsOf (off.rows, r)]))) } = t := ⟨_, rfl⟩
    have f1 : s2.pop = s1.pop := by rw [← hs2]
    have f2 : ArchOK ops init L0 s2 := by
      refine ⟨new ++ [(off.rows, r)], ?_, ?_⟩
      · rw [← hs2]; show s1.log = _; rw [e5, n1, List.append_assoc]
      · rw [← hs2]; simp
    have hun2 : EA.nextGen ops s = (match ops.select s2.clock s2.vec s2.sel s2.pop with
        | (.error e, v, t) => (.error e, { s2 with vec := v, sel := t, clock := s2.clock + 1 })
        | (.ok idx, v, t) =>
          match s2.pop.keep idx with
          | (.error e, p) => (.error e, { s2 with vec := v, sel := t, clock := s2.clock + 1, pop := p })
          | (.ok _, p) =>
            (.ok (), if s2.cfg.useSurr then { s2 with vec := v, sel := t, clock := s2.clock + 1, pop := p, gen := s2.gen + 1, genIter := s2.genIter + 1 } else { s2 with vec := v, sel := t, clock := s2.clock + 1, pop := p, gen := s2.gen + 1, genIter := s2.genIter + 1, fe := s2.fe + off.rows.length })) := by
      rw [hun, ← hs2]
    have sound2 : Sound d nc unc s2 := sound1.of_eq f1
    rw [hun2]
    generalize ops.select s2.clock s2.vec s2.sel s2.pop = z
    obtain ⟨z1, v', t'⟩ := z
    cases z1 with
    | error e => exact ⟨sound2.of_eq rfl, f2⟩
    | ok idx =>
      dsimp only
      obtain ⟨rs2, hr2⟩ := sound2.rep
      cases hin : inRange rs2.length idx with
      | false =>
        rw [keep_error hr2 idx (.inr hin)]
        exact ⟨sound2.of_eq rfl, f2⟩
      | true =>
        obtain ⟨k1, k2, k3, k4, k5, k6⟩ := keep_ok hr2 sound2.inds idx hin
        generalize s2.pop.keep idx = kk at k1 k2 k3 k4 k5 k6
        obtain ⟨kk1, p⟩ := kk
        dsimp only at k1 k2 k3 k4 k5 k6
        subst k1
        dsimp only
        have hfin : ∀ t : EA X O F C U V S Q, t.pop = p → Sound d nc unc t := fun t ht =>
          ⟨⟨_, by rw [ht]; exact k2⟩, by rw [ht]; exact k5, by rw [ht, k4]; exact sound2.dim, by rw [ht, k3]; exact sound2.cons,
            by rw [ht]; exact k6.trans sound2.unc⟩
        split
        · exact ⟨hfin _ rfl, f2⟩
        · exact ⟨hfin _ rfl, f2⟩

/-- Re-computing the fitness column row by row. -/
theorem represents_refit (p : Pop X O F C U) (rs : List (Rec X O F C U)) (h : Represents p rs) (l : List F) (hl : l.length = rs.length) :
    Represents { p with fitness := l } (List.zipWith (fun r f => { r with f := f }) rs l) := by
  have key : ∀ {β : Type} (g : Rec X O F C U → β) (g' : β → β) (rs : List (Rec X O F C U)) (l : List F), l.length = rs.length →
      (∀ (r : Rec X O F C U) (f : F), g { r with f := f } = g r) →
      (List.zipWith (fun r f => { r with f := f }) rs l).map g = rs.map g := by
    intro β g _ rs
    induction rs with
    | nil => intro l _ _; simp
    | cons r rs ih =>
      intro l hl hg
      cases l with
      | nil => simp at hl
      | cons f l => simp [hg, ih l (by simpa using hl) hg]
  have kf : ∀ (rs : List (Rec X O F C U)) (l : List F), l.length = rs.length →
      (List.zipWith (fun r f => { r with f := f }) rs l).map Rec.f = l := by
    intro rs
    induction rs with
    | nil => intro l hl; cases l <;> simp at hl ⊢
    | cons r rs ih =>
      intro l hl
      cases l with
      | nil => simp at hl
      | cons f l => simp [ih l (by simpa using hl)]
  refine ⟨?_, ?_, ?_, ?_, h.nocons, ?_⟩
  · rcases h.inds with e | ⟨e1, e2⟩
    · left; rw [key Rec.x id rs l hl (fun _ _ => rfl)]; exact e
    · right; subst e2; exact ⟨e1, by simp⟩
  · rw [key Rec.o id rs l hl (fun _ _ => rfl)]; exact h.objs
  · exact (kf rs l hl).symm
  · rw [key Rec.c id rs l hl (fun _ _ => rfl)]; exact h.cons
  · rw [key Rec.u id rs l hl (fun _ _ => rfl)]; exact h.unc

/-- An interactive problem gives one fitness row per row of objectives. -/
def ReevalContract (ops : Ops X O F C U V S Q R) : Prop := ∀ q os, (ops.probReeval q os).1.length = os.length

/-- The invariant of runs that save non-dominated solutions. -/
structure Saving (d nc : Nat) (unc : Bool) (ops : Ops X O F C U V S Q R) (init : List (X × O × F)) (L0 : List (List X × Results O F C U))
    (s : EA X O F C U V S Q) : Prop where
  sound : Sound d nc unc s
  on : s.cfg.saveND = true
  arch : ArchOK ops init L0 s

variable {ops : Ops X O F C U V S Q R} {init : List (X × O × F)} {L0 : List (List X × Results O F C U)}

theorem Saving.of_eq {s t : EA X O F C U V S Q} (h : Saving d nc unc ops init L0 s) (hp : t.pop = s.pop) (hc : t.cfg = s.cfg)
    (hn : t.nd = s.nd) (hl : t.log = s.log) : Saving d nc unc ops init L0 t :=
  ⟨h.sound.of_eq hp, by rw [hc]; exact h.on, by unfold ArchOK; rw [hn, hl]; exact h.arch⟩

theorem Sound.managePreferences {s : EA X O F C U V S Q} (h : Sound d nc unc s) (ops : Ops X O F C U V S Q R) (hre : ReevalContract ops)
    (pref : Option (Pref R)) : Sound d nc unc (s.managePreferences ops pref).2 ∧ (s.managePreferences ops pref).2.cfg = s.cfg ∧
      (s.managePreferences ops pref).2.nd = s.nd ∧ (s.managePreferences ops pref).2.log = s.log := by
  unfold EA.managePreferences
  split
  · exact ⟨h, rfl, rfl, rfl⟩
  · unfold EA.selManage
    split
    · exact ⟨h.of_eq rfl, rfl, rfl, rfl⟩
    · split
      · exact ⟨h, rfl, rfl, rfl⟩
      · split
        · exact ⟨h, rfl, rfl, rfl⟩
        · split
          · exact ⟨h, rfl, rfl, rfl⟩
          · exact ⟨h.of_eq rfl, rfl, rfl, rfl⟩
  · split
    · exact ⟨h.of_eq rfl, rfl, rfl, rfl⟩
    · rename_i q _
      refine ⟨?_, rfl, rfl, rfl⟩
      obtain ⟨rs, hr⟩ := h.rep
      have hlen : (ops.probReeval q s.pop.objectives).1.length = rs.length := by rw [hre, hr.objs]; simp
      exact ⟨⟨_, represents_refit _ rs hr _ hlen⟩, h.inds, h.dim, h.cons, h.unc⟩

theorem Saving.managePreferences {s : EA X O F C U V S Q} (h : Saving d nc unc ops init L0 s) (hre : ReevalContract ops)
    (pref : Option (Pref R)) : Saving d nc unc ops init L0 (s.managePreferences ops pref).2 := by
  obtain ⟨a, b, c, e⟩ := h.sound.managePreferences ops hre pref
  exact ⟨a, by rw [b]; exact h.on, by unfold ArchOK; rw [c, e]; exact h.arch⟩

theorem Saving.preIteration {s : EA X O F C U V S Q} (h : Saving d nc unc ops init L0 s) : Saving d nc unc ops init L0 (s.preIteration ops) := by
  have hr : Saving d nc unc ops init L0 s.record := by
    unfold EA.record
    split
    · exact h.of_eq rfl rfl rfl rfl
    · exact h
  simp only [EA.preIteration]
  split <;> split <;> exact hr.of_eq rfl rfl rfl rfl

theorem Saving.requestPreferences {s : EA X O F C U V S Q} (h : Saving d nc unc ops init L0 s) :
    Saving d nc unc ops init L0 (s.requestPreferences ops).2 := by
  unfold EA.requestPreferences
  split
  · exact h
  · split
    · exact h
    · exact h
    · split
      · exact h
      · dsimp only
        split <;> exact h.of_eq rfl rfl rfl rfl

theorem Saving.loop {body : EA X O F C U V S Q → EARes Unit X O F C U V S Q}
    (hb : ∀ s, Saving d nc unc ops init L0 s → Saving d nc unc ops init L0 (body s).2) (fuel : Nat) :
    ∀ s : EA X O F C U V S Q, Saving d nc unc ops init L0 s → Saving d nc unc ops init L0 (EA.loop body fuel s).2 := by
  induction fuel with
  | zero => exact fun s h => h
  | succ fuel ih =>
    intro s h
    unfold EA.loop
    split
    · have h1 := hb s h
      generalize body s = r at h1
      obtain ⟨r, t⟩ := r
      cases r with
      | error e => exact h1
      | ok _ => exact ih t h1
    · exact h

theorem Saving.iterateWith {body : EA X O F C U V S Q → EARes Unit X O F C U V S Q} {s : EA X O F C U V S Q}
    (h : Saving d nc unc ops init L0 s) (hre : ReevalContract ops)
    (hb : ∀ s, Saving d nc unc ops init L0 s → Saving d nc unc ops init L0 (body s).2) (pref : Option (Pref R)) :
    Saving d nc unc ops init L0 (s.iterateWith ops body pref).2 := by
  unfold EA.iterateWith
  have h1 := h.managePreferences hre pref
  generalize s.managePreferences ops pref = r at h1
  obtain ⟨r, t⟩ := r
  cases r with
  | error e => exact h1
  | ok _ =>
    dsimp only
    have h2 := h1.preIteration
    dsimp only at h2
    generalize t.preIteration ops = u at h2
    have h3 := Saving.loop hb u.cfg.nGen ({ u with genIter := 0 }) (h2.of_eq rfl rfl rfl rfl)
    generalize EA.loop body u.cfg.nGen { u with genIter := 0 } = r at h3
    obtain ⟨r, v⟩ := r
    cases r with
    | error e => exact h3
    | ok _ =>
      have h4 : Saving d nc unc ops init L0 ({ v with iter := v.iter + 1 } : EA X O F C U V S Q) := h3.of_eq rfl rfl rfl rfl
      exact h4.requestPreferences

theorem Saving.setType {s : EA X O F C U V S Q} (h : Saving d nc unc ops init L0 s) (arg : Option String) :
    Saving d nc unc ops init L0 (s.setInteractionType arg).2 := by
  unfold EA.setInteractionType
  split
  · exact h
  · exact h.of_eq rfl rfl rfl rfl
  · dsimp only
    split
    · exact h.of_eq rfl rfl rfl rfl
    · split <;> exact h.of_eq rfl rfl rfl rfl

theorem Saving.readAllowable {s : EA X O F C U V S Q} (h : Saving d nc unc ops init L0 s) :
    Saving d nc unc ops init L0 s.readAllowable.2 := by
  unfold EA.readAllowable
  split
  · exact h
  · have h1 := h.setType none
    generalize s.setInteractionType none = r at h1
    obtain ⟨r, t⟩ := r
    cases r with
    | error e => exact h1
    | ok _ => exact h1.of_eq rfl rfl rfl rfl

/-- No further `start()`, which would begin a new archive. -/
def NoStart (cs : List (Call R)) : Prop := ∀ c ∈ cs, c ≠ .start

theorem Saving.callsWith {body : EA X O F C U V S Q → EARes Unit X O F C U V S Q} (hre : ReevalContract ops)
    (hb : ∀ s, Saving d nc unc ops init L0 s → Saving d nc unc ops init L0 (body s).2) (cs : List (Call R)) (hns : NoStart cs) :
    ∀ s : EA X O F C U V S Q, Saving d nc unc ops init L0 s → Saving d nc unc ops init L0 (s.callsWith ops body cs) := by
  induction cs with
  | nil => exact fun s h => h
  | cons c cs ih =>
    intro s h
    have ih := ih (fun c hc => hns c (by simp [hc]))
    cases c with
    | start => exact absurd rfl (hns _ (List.mem_cons_self ..))
    | setType a => exact ih _ (h.setType a)
    | readAllowable => exact ih _ h.readAllowable
    | iterate p => exact ih _ (h.iterateWith hre hb p)

/-- The solutions of the population. -/
def popSols (p : Pop X O F C U) : List (X × O × F) := (p.individuals.getD []).zip (p.objectives.zip p.fitness)

theorem popSols_cols {s : EA X O F C U V S Q} (h : Sound d nc unc s) :
    s.pop.individuals = some ((popSols s.pop).map (fun t => t.1)) ∧ s.pop.objectives = (popSols s.pop).map (fun t => t.2.1) ∧
      s.pop.fitness = (popSols s.pop).map (fun t => t.2.2) := by
  obtain ⟨rs, hr⟩ := h.rep
  rcases hr.inds with e | ⟨e, -⟩
  · have : popSols s.pop = rs.map (fun r => (r.x, r.o, r.f)) := by
      unfold popSols
      rw [e, hr.objs, hr.fits]
      simp only [Option.getD_some, List.zip_map', List.map_map]
    rw [this, e, hr.objs, hr.fits]
    simp [Function.comp_def]
  · exact absurd e h.inds

/-- `start()` returning normally begins the archive with the non-dominated part of the current population. -/
theorem start_saving (hnd : ∀ l, ops.nonDom l = l.map (notDominatedIn ops.dom l)) {s t : EA X O F C U V S Q} {o : Option Request}
    (h : Sound d nc unc s) (hon : s.cfg.saveND = true) (hs : s.start ops = (.ok o, t)) :
    Saving d nc unc ops (popSols s.pop) s.log t := by
  obtain ⟨p1, p2, p3⟩ := popSols_cols h
  unfold EA.start at hs
  split at hs
  · cases hs
  · have ha := startArchive_eq (dom := ops.dom) ops.nonDom hnd (popSols s.pop)
    rw [← p2, ← p3] at ha
    rw [p1] at hs
    simp only [ha] at hs
    have hb : Saving d nc unc ops (popSols s.pop) s.log ({ s with nd := some (archOf ((popSols s.pop).filter (notDominatedIn (tdom ops.dom) (popSols s.pop)))) } : EA X O F C U V S Q) :=
      ⟨h.of_eq rfl, hon, [], by simp, rfl⟩
    have := hb.requestPreferences
    rw [hs] at this
    exact this

theorem start_log (ops : Ops X O F C U V S Q R) (s t : EA X O F C U V S Q) (o : Option Request) (hs : s.start ops = (.ok o, t)) : t.log = s.log := by
  have hq : ∀ u : EA X O F C U V S Q, (u.requestPreferences ops).2.log = u.log := by
    intro u
    unfold EA.requestPreferences
    split
    · rfl
    · split
      · rfl
      · rfl
      · split
        · rfl
        · dsimp only
          split <;> rfl
  unfold EA.start at hs
  split at hs
  · cases hs
  · dsimp only at hs
    split at hs
    · cases hs
    · rename_i u hu
      have := hq u
      rw [hs] at this
      refine this.trans ?_
      split at hu
      · split at hu
        · simp at hu
        · split at hu
          · simp at hu
          · simp only [Prod.mk.injEq, true_and] at hu
            rw [← hu]
      · simp only [Prod.mk.injEq, true_and] at hu
        rw [← hu]

/-! ## MOEA/D -/

section moead
variable {m : Nat} {K : Type} [LinearOrder K] [Zero K]

/-- The same, every batch being one solution. -/
def MArchOK {V : Type} (ops : Ops X O F C U V S Q R) (init : List (X × O × F)) (L0 : List (List X × Results O F C U))
    (s : EA X O F C U V S Q) : Prop :=
  ∃ new, s.log = L0 ++ new ∧
    s.nd = some (archOf (rowsRun ops.dom (init.filter (notDominatedIn (tdom ops.dom) init)) (new.map solsOf))) ∧ ∀ e ∈ new, e.1.length = 1

theorem moeadStep_arch (ops : Ops X O F C U (MoeadVec m K) S Q R) (mo : MoeadOps m K X O F C U) (useRepair : Bool) (hev : EvalContract ops nc unc)
    (init : List (X × O × F)) (L0 : List (List X × Results O F C U)) (i : Nat) (s t : EA X O F C U (MoeadVec m K) S Q)
    (hon : s.cfg.saveND = true) (ha : MArchOK ops init L0 s) (h : moeadStep ops mo useRepair i s = (.ok (), t)) : MArchOK ops init L0 t := by
  unfold moeadStep at h
  split at h
  · simp at h
  · dsimp only at h
    split at h
    · simp at h
    · simp at h
    · rename_i x0 xs hm
      generalize hx : (if useRepair then mo.repair x0 else x0) = x at h
      unfold moeadEvaluate EA.popAdd at h
      dsimp only at h
      cases hevr : ops.evaluate (s.clock + 1 + 1) s.cfg.useSurr ⟨s.pop.ndim - 1, [x]⟩ with
      | error e => rw [hevr] at h; simp [Pop.add] at h
      | ok r =>
        obtain ⟨ho, -⟩ := hev _ _ _ _ hevr
        rw [hevr] at h
        generalize hadd : s.pop.add ⟨s.pop.ndim - 1, [x]⟩ (.ok r) = z at h
        obtain ⟨z1, p⟩ := z
        cases z1 with
        | error e => simp at h
        | ok res =>
          have hr : r = res := by
            have h1 := congrArg Prod.fst hadd
            unfold Pop.add at h1
            simp only at h1
            split at h1
            · simpa using h1
            · split at h1
              · simp at h1
              · split at h1
                · simpa using h1
                · split at h1
                  · simp at h1
                  · simpa using h1
          subst hr
          dsimp only [evLog] at h
          have key : ∀ u : EA X O F C U (MoeadVec m K) S Q, u.cfg = s.cfg → u.nd = s.nd → u.log = s.log ++ [([x], r)] →
              moeadFinish ops mo i x r u = (.ok (), t) → MArchOK ops init L0 t := by
            intro u u1 u2 u3 hf
            unfold moeadFinish at hf
            split at hf
            · simp at hf
            · split at hf
              · simp at hf
              · split at hf
                · simp at hf
                · rename_i q' _
                  obtain ⟨new, n1, n2, n3⟩ := ha
                  obtain ⟨c1, c2, c3⟩ := solsOf_cols (C := C) (U := U) [x] r ho
                  have hup := rowsRun_snoc ops.dom (init.filter (notDominatedIn (tdom ops.dom) init)) (new.map solsOf) (solsOf ([x], r))
                  rw [c1, c2, c3, ← n2, ← u2] at hup
                  unfold EA.updateND at hf
                  rw [if_pos (by rw [← hon, ← u1])] at hf
                  dsimp only at hf
                  rw [hup] at hf
                  simp only [Prod.mk.injEq, true_and] at hf
                  subst hf
                  refine ⟨new ++ [([x], r)], ?_, ?_, ?_⟩
                  · show u.log = _
                    rw [u3, n1, List.append_assoc]
                  · simp
                  · intro e he
                    rcases List.mem_append.1 he with he | he
                    · exact n3 e he
                    · simp only [List.mem_singleton] at he
                      subst he; rfl
          split at h
          · refine key _ ?_ ?_ ?_ h <;> rfl
          · refine key _ ?_ ?_ ?_ h <;> rfl

theorem moeadSteps_arch (ops : Ops X O F C U (MoeadVec m K) S Q R) (mo : MoeadOps m K X O F C U) (useRepair : Bool) (hev : EvalContract ops nc unc)
    (init : List (X × O × F)) (L0 : List (List X × Results O F C U)) (is : List Nat) (s t : EA X O F C U (MoeadVec m K) S Q)
    (hon : s.cfg.saveND = true) (ha : MArchOK ops init L0 s) (h : moeadSteps ops mo useRepair is s = (.ok (), t)) :
    MArchOK ops init L0 t ∧ t.cfg = s.cfg := by
  induction is generalizing s with
  | nil => simp only [moeadSteps, Prod.mk.injEq, true_and] at h; subst h; exact ⟨ha, rfl⟩
  | cons i is ih =>
    unfold moeadSteps at h
    split at h
    · simp at h
    · rename_i s1 h1
      have hc := (moeadStep_ok ops mo useRepair i s s1 h1).1
      obtain ⟨h2, h3⟩ := ih s1 (by rw [hc]; exact hon) (moeadStep_arch ops mo useRepair hev init L0 i s s1 hon ha h1) h
      exact ⟨h2, h3.trans hc⟩

theorem moeadNextGen_arch (ops : Ops X O F C U (MoeadVec m K) S Q R) (mo : MoeadOps m K X O F C U) (useRepair : Bool) (popSize : Nat)
    (hev : EvalContract ops nc unc)
    (init : List (X × O × F)) (L0 : List (List X × Results O F C U)) (s t : EA X O F C U (MoeadVec m K) S Q)
    (hon : s.cfg.saveND = true) (ha : MArchOK ops init L0 s) (h : moeadNextGen ops mo useRepair popSize s = (.ok (), t)) :
    MArchOK ops init L0 t ∧ t.cfg = s.cfg := by
  unfold moeadNextGen at h
  split at h
  · simp at h
  · rename_i s1 h1
    simp only [Prod.mk.injEq, true_and] at h
    subst h
    exact moeadSteps_arch ops mo useRepair hev init L0 _ s s1 hon ha h1

theorem managePreferences_nd {V : Type} (ops : Ops X O F C U V S Q R) (s : EA X O F C U V S Q) (pref : Option (Pref R)) :
    (s.managePreferences ops pref).2.cfg = s.cfg ∧ (s.managePreferences ops pref).2.nd = s.nd ∧
      (s.managePreferences ops pref).2.log = s.log := by
  unfold EA.managePreferences
  split
  · exact ⟨rfl, rfl, rfl⟩
  · unfold EA.selManage
    split
    · exact ⟨rfl, rfl, rfl⟩
    · split
      · exact ⟨rfl, rfl, rfl⟩
      · split
        · exact ⟨rfl, rfl, rfl⟩
        · split <;> exact ⟨rfl, rfl, rfl⟩
  · split <;> exact ⟨rfl, rfl, rfl⟩

theorem preIteration_nd {V : Type} (ops : Ops X O F C U V S Q R) (s : EA X O F C U V S Q) :
    (s.preIteration ops).cfg = s.cfg ∧ (s.preIteration ops).nd = s.nd ∧ (s.preIteration ops).log = s.log := by
  have hr : s.record.cfg = s.cfg ∧ s.record.nd = s.nd ∧ s.record.log = s.log := by
    unfold EA.record
    split <;> exact ⟨rfl, rfl, rfl⟩
  simp only [EA.preIteration]
  split <;> split <;> exact hr

theorem requestPreferences_nd {V : Type} (ops : Ops X O F C U V S Q R) (s : EA X O F C U V S Q) :
    (s.requestPreferences ops).2.cfg = s.cfg ∧ (s.requestPreferences ops).2.nd = s.nd ∧ (s.requestPreferences ops).2.log = s.log := by
  unfold EA.requestPreferences
  split
  · exact ⟨rfl, rfl, rfl⟩
  · split
    · exact ⟨rfl, rfl, rfl⟩
    · exact ⟨rfl, rfl, rfl⟩
    · split
      · exact ⟨rfl, rfl, rfl⟩
      · dsimp only
        split <;> exact ⟨rfl, rfl, rfl⟩

theorem loop_ok_inv {V : Type} {I : EA X O F C U V S Q → Prop} {body : EA X O F C U V S Q → EARes Unit X O F C U V S Q}
    (hb : ∀ s t, I s → body s = (.ok (), t) → I t) (fuel : Nat) :
    ∀ s t : EA X O F C U V S Q, I s → EA.loop body fuel s = (.ok (), t) → I t := by
  induction fuel with
  | zero => intro s t h e; simp only [EA.loop, Prod.mk.injEq, true_and] at e; exact e ▸ h
  | succ fuel ih =>
    intro s t h e
    unfold EA.loop at e
    split at e
    · split at e
      · simp at e
      · rename_i u hu
        exact ih u t (hb s u h hu) e
    · simp only [Prod.mk.injEq, true_and] at e; exact e ▸ h

theorem arch_iterate_ok {V : Type} {I : EA X O F C U V S Q → Prop} (hI : ∀ a b : EA X O F C U V S Q, b.nd = a.nd → b.log = a.log → I a → I b) {ops : Ops X O F C U V S Q R} {body : EA X O F C U V S Q → EARes Unit X O F C U V S Q}
    (hb : ∀ s t, s.cfg.saveND = true → I s → body s = (.ok (), t) → I t ∧ t.cfg = s.cfg)
    (s t : EA X O F C U V S Q) (p : Option (Pref R)) (o : Option Request) (hon : s.cfg.saveND = true) (ha : I s)
    (h : s.iterateWith ops body p = (.ok o, t)) : I t ∧ t.cfg.saveND = true := by
  unfold EA.iterateWith at h
  obtain ⟨m1, m2, m3⟩ := managePreferences_nd ops s p
  generalize s.managePreferences ops p = r at h m1 m2 m3
  obtain ⟨r, u⟩ := r
  cases r with
  | error e => simp at h
  | ok _ =>
    dsimp only at h m1 m2 m3
    obtain ⟨p1, p2, p3⟩ := preIteration_nd ops u
    generalize u.preIteration ops = w at h p1 p2 p3
    have hw : (({ w with genIter := 0 } : EA X O F C U V S Q).cfg.saveND = true) ∧ I ({ w with genIter := 0 } : EA X O F C U V S Q) := by
      refine ⟨by show w.cfg.saveND = true; rw [p1, m1]; exact hon, ?_⟩
      exact hI s _ (p2.trans m2) (p3.trans m3) ha
    have hl := loop_ok_inv (I := fun s => s.cfg.saveND = true ∧ I s) (body := body)
      (fun a b hab e => by obtain ⟨x1, x2⟩ := hb a b hab.1 hab.2 e; exact ⟨by rw [x2]; exact hab.1, x1⟩) w.cfg.nGen
      ({ w with genIter := 0 })
    generalize EA.loop body w.cfg.nGen { w with genIter := 0 } = z at h hl
    obtain ⟨z, v⟩ := z
    cases z with
    | error e => simp at h
    | ok _ =>
      dsimp only at h
      obtain ⟨v1, v2⟩ := hl v hw rfl
      obtain ⟨r1, r2, r3⟩ := requestPreferences_nd ops ({ v with iter := v.iter + 1 } : EA X O F C U V S Q)
      rw [h] at r1 r2 r3
      dsimp only at r1 r2 r3
      exact ⟨hI v _ r2 r3 v2, by rw [r1]; exact v1⟩

/-- Iterations with the given preferences, each returning normally, lead from `s` to `t`. -/
def Iterated {V : Type} (ops : Ops X O F C U V S Q R) (body : EA X O F C U V S Q → EARes Unit X O F C U V S Q)
    (s : EA X O F C U V S Q) : List (Option (Pref R)) → EA X O F C U V S Q → Prop
  | [], t => t = s
  | p :: ps, t => ∃ o u, s.iterateWith ops body p = (.ok o, u) ∧ Iterated ops body u ps t

theorem arch_iterated {V : Type} {I : EA X O F C U V S Q → Prop} (hI : ∀ a b : EA X O F C U V S Q, b.nd = a.nd → b.log = a.log → I a → I b) {ops : Ops X O F C U V S Q R} {body : EA X O F C U V S Q → EARes Unit X O F C U V S Q}
    (hb : ∀ s t, s.cfg.saveND = true → I s → body s = (.ok (), t) → I t ∧ t.cfg = s.cfg)
    (ps : List (Option (Pref R))) (s t : EA X O F C U V S Q) (hon : s.cfg.saveND = true) (ha : I s)
    (h : Iterated ops body s ps t) : I t := by
  induction ps generalizing s with
  | nil => exact h ▸ ha
  | cons p ps ih =>
    obtain ⟨o, u, h1, h2⟩ := h
    obtain ⟨a1, a2⟩ := arch_iterate_ok hI hb s u p o hon ha h1
    exact ih u a2 a1 h2

end moead

/-! ## The theorems -/

section final
variable {K : Type} [LinearOrder K] {m : Nat} {S Q R V : Type}

/-- What C07, C08 say of an archive `nd` and the solutions evaluated: everything is covered, members were evaluated and carry their own
values, no non-dominated solution is missing. -/
structure GoodArchive (nd : Option (NDArchive X O { l : List K // l.length = m })) (E : List (Sol X O K m)) : Prop where
  ex : ∃ T, nd = some (columns T) ∧ T.Sublist E ∧ (∀ y ∈ E, y ∈ T ∨ ∃ s ∈ T, FitDom s y) ∧
    ∀ y ∈ E, (∀ s ∈ E, ¬ FitDom s y) → y ∈ T

theorem good_of_archOK {ops : Ops X O { l : List K // l.length = m } C U V S Q R} (hdom : ops.dom = rowDom m)
    {init : List (Sol X O K m)} {L0 : List (List X × Results O { l : List K // l.length = m } C U)}
    {t : EA X O { l : List K // l.length = m } C U V S Q} (h : ArchOK ops init L0 t) :
    ∃ new, t.log = L0 ++ new ∧ GoodArchive t.nd (init ++ (new.map solsOf).flatten) := by
  obtain ⟨new, h1, h2⟩ := h
  refine ⟨new, h1, ⟨⟨_, h2, ?_⟩⟩⟩
  rw [hdom]
  obtain ⟨a1, a2, -⟩ := rowsRun_spec (rowDom_isDominance m) (new.map solsOf)
    (init.filter (notDominatedIn (tdom (rowDom m)) init)) init List.filter_sublist (start_covers init)
  have cov : ∀ y ∈ init ++ (new.map solsOf).flatten, y ∈ rowsRun (rowDom m) (init.filter (notDominatedIn (tdom (rowDom m)) init)) (new.map solsOf) ∨
      ∃ s ∈ rowsRun (rowDom m) (init.filter (notDominatedIn (tdom (rowDom m)) init)) (new.map solsOf), FitDom s y := by
    intro y hy
    rcases a2 y hy with h | ⟨s, hs, hd⟩
    · exact .inl h
    · exact .inr ⟨s, hs, (tdom_rowDom_iff s y).1 hd⟩
  refine ⟨a1, cov, ?_⟩
  intro y hy hopt
  rcases cov y hy with h | ⟨s, hs, hd⟩
  · exact h
  · exact absurd hd (hopt s (a1.subset hs))

/-- C07, C08 of the EA object.  Saving non-dominated solutions is on and `start()` returned normally: then whatever calls follow (except
another `start()`), whatever they are given, whatever selection does and whichever of them raise, the archive attribute covers the
population `start()` saw and every batch evaluated since, holds only such solutions, and lacks none that is non-dominated. -/
theorem c07_archive_of_a_run {d nc : Nat} {unc : Bool} (ops : Ops X O { l : List K // l.length = m } C U V S Q R)
    (hdom : ops.dom = rowDom m) (hnd : NDContract m ops.nonDom)
    (hmate : ∀ clk p off, ops.mate clk p = .ok off → off.ndim = d) (hev : EvalContract ops nc unc) (hre : ReevalContract ops)
    (s t : EA X O { l : List K // l.length = m } C U V S Q) (hs : Sound d nc unc s) (hon : s.cfg.saveND = true) (o : Option Request)
    (hstart : s.start ops = (.ok o, t)) (cs : List (Call R)) (hcs : NoStart cs) :
    Sound d nc unc (t.calls ops cs) ∧
    ∃ new, (t.calls ops cs).log = s.log ++ new ∧ GoodArchive (t.calls ops cs).nd (popSols s.pop ++ (new.map solsOf).flatten) := by
  have h0 := start_saving (ops := ops) (by rw [hdom]; exact hnd) hs hon hstart
  have h1 : Saving d nc unc ops (popSols s.pop) s.log (t.calls ops cs) := by
    rw [calls_eq_callsWith]
    refine Saving.callsWith hre ?_ cs hcs t h0
    intro u hu
    obtain ⟨a, b⟩ := nextGen_arch ops hmate hev _ _ u hu.sound hu.on hu.arch
    refine ⟨a, ?_, b⟩
    rw [(nextGen_interaction ops u).cfg]; exact hu.on
  exact ⟨h1.sound, good_of_archOK hdom h1.arch⟩

/-- C09 of the EA object, under the same conditions: two members of the archive of which one dominates the other were evaluated
in one and the same batch since `start()`. -/
theorem c09_archive_of_a_run {d nc : Nat} {unc : Bool} (ops : Ops X O { l : List K // l.length = m } C U V S Q R)
    (hdom : ops.dom = rowDom m) (hnd : NDContract m ops.nonDom)
    (hmate : ∀ clk p off, ops.mate clk p = .ok off → off.ndim = d) (hev : EvalContract ops nc unc) (hre : ReevalContract ops)
    (s t : EA X O { l : List K // l.length = m } C U V S Q) (hs : Sound d nc unc s) (hon : s.cfg.saveND = true) (o : Option Request)
    (hstart : s.start ops = (.ok o, t)) (cs : List (Call R)) (hcs : NoStart cs) :
    ∃ new T, (t.calls ops cs).log = s.log ++ new ∧ (t.calls ops cs).nd = some (columns T) ∧
      ∀ y ∈ T, ∀ z ∈ T, FitDom y z → ∃ b ∈ new, y ∈ solsOf b ∧ z ∈ solsOf b := by
  have h0 := start_saving (ops := ops) (by rw [hdom]; exact hnd) hs hon hstart
  have h1 : Saving d nc unc ops (popSols s.pop) s.log (t.calls ops cs) := by
    rw [calls_eq_callsWith]
    refine Saving.callsWith hre ?_ cs hcs t h0
    intro u hu
    obtain ⟨a, b⟩ := nextGen_arch ops hmate hev _ _ u hu.sound hu.on hu.arch
    refine ⟨a, ?_, b⟩
    rw [(nextGen_interaction ops u).cfg]; exact hu.on
  obtain ⟨new, n1, n2⟩ := h1.arch
  obtain ⟨T, e1, e2⟩ := c09_dominated_only_within_a_batch (nonDominated (rowDom m)) nonDominated_contract (popSols s.pop) (new.map solsOf)
  rw [archiveRun_eq _ nonDominated_contract] at e1
  rw [hdom] at n2
  injection e1 with e1
  refine ⟨new, T, n1, by rw [n2]; exact congrArg some e1, ?_⟩
  intro y hy z hz h
  obtain ⟨b, hb, h1, h2⟩ := e2 y hy z hz h
  obtain ⟨e, he, rfl⟩ := List.mem_map.1 hb
  exact ⟨e, he, h1, h2⟩

/-- C07, C08, C09 of MOEA/D, over any number of iterations that return normally: the archive is also mutually non-dominated. -/
theorem c09_archive_of_a_moead_run {M : Type} [LinearOrder M] [Zero M] {d nc : Nat} {unc : Bool}
    (ops : Ops X O { l : List K // l.length = m } C U (MoeadVec m M) S Q R)
    (mo : MoeadOps m M X O { l : List K // l.length = m } C U) (useRepair : Bool) (popSize : Nat)
    (hdom : ops.dom = rowDom m) (hnd : NDContract m ops.nonDom) (hev : EvalContract ops nc unc)
    (s t u : EA X O { l : List K // l.length = m } C U (MoeadVec m M) S Q) (hs : Sound d nc unc s) (hon : s.cfg.saveND = true)
    (o : Option Request) (hstart : s.start ops = (.ok o, t)) (ps : List (Option (Pref R)))
    (hps : Iterated ops (moeadNextGen ops mo useRepair popSize) t ps u) :
    (∃ new, u.log = s.log ++ new ∧ GoodArchive u.nd (popSols s.pop ++ (new.map solsOf).flatten)) ∧
      ∃ T, u.nd = some (columns T) ∧ ∀ y ∈ T, ∀ z ∈ T, ¬ FitDom y z := by
  have h0 := start_saving (ops := ops) (by rw [hdom]; exact hnd) hs hon hstart
  have hm0 : MArchOK ops (popSols s.pop) s.log t := by
    obtain ⟨new, n1, n2⟩ := h0.arch
    have hl : t.log = s.log := (start_log ops s t o hstart)
    have : new = [] := by
      rw [hl] at n1
      simpa using n1
    subst this
    exact ⟨[], n1, n2, by simp⟩
  have hm := arch_iterated (I := MArchOK ops (popSols s.pop) s.log) (by intro a b e1 e2 h; unfold MArchOK; rw [e1, e2]; exact h)
    (fun a b h1 h2 h3 => moeadNextGen_arch ops mo useRepair popSize hev _ _ a b h1 h2 h3) ps t u h0.on hm0 hps
  obtain ⟨new, n1, n2, n3⟩ := hm
  refine ⟨good_of_archOK hdom ⟨new, n1, n2⟩, _, n2, ?_⟩
  rw [hdom]
  have hmut := rowsRun_mutual (rowDom_isDominance m) (new.map solsOf)
    ((popSols s.pop).filter (notDominatedIn (tdom (rowDom m)) (popSols s.pop))) (by
      intro a ha b hb
      rw [List.mem_filter, notDominatedIn_iff] at hb
      exact hb.2 a (List.mem_filter.1 ha |>.1)) (by
      intro b hb y hy z hz
      obtain ⟨e, he, rfl⟩ := List.mem_map.1 hb
      have h1 : (solsOf e).length ≤ 1 := by
        unfold solsOf
        rw [List.length_zip, n3 e he]
        omega
      have hyz : y = z := by
        obtain ⟨i, hi, rfl⟩ := List.getElem_of_mem hy
        obtain ⟨j, hj, rfl⟩ := List.getElem_of_mem hz
        congr 1
        omega
      subst hyz
      exact (rowDom_isDominance m).irrefl _)
  intro y hy z hz h
  have := hmut y hy z hz
  rw [(tdom_rowDom_iff y z).2 h] at this
  cases this

/-- An EA just constructed from a problem is sound (so the hypothesis of the theorems above is met). -/
theorem construct_sound {F : Type} {d nc : Nat} {unc : Bool} (ops : Ops X O F C U V S Q R) (hev : EvalContract ops nc unc)
    (design : Nat → Nat → Except Err (Batch X)) (vec0 : Nat → V) (sel0 : Nat → S) (prob0 : Q)
    (interact useSurr keepArchive saveND : Bool) (nIter nGen total : Nat) (ty : ProblemType) (m : Nat) (ps lr : Option Nat)
    (s : EA X O F C U V S Q)
    (hs : construct ops design vec0 sel0 prob0 interact useSurr keepArchive saveND nIter nGen total
      (some (ty, m, nc)) none ps lr = .ok s)
    (hd : ∀ b, design 0 (choosePopSize m ps lr) = .ok b → b.ndim = d) :
    Sound d nc unc s ∧ s.cfg.saveND = saveND := by
  unfold construct at hs
  dsimp only at hs
  cases hdes : design 0 (choosePopSize m ps lr) with
  | error e => rw [hdes] at hs; simp at hs
  | ok b =>
    rw [hdes] at hs
    have b1 := hd b hdes
    dsimp only at hs
    unfold EA.popAdd at hs
    dsimp only at hs
    cases hevr : ops.evaluate 1 useSurr b with
    | error e => rw [hevr] at hs; simp [Pop.add] at hs
    | ok r =>
      obtain ⟨ho, hu⟩ := hev _ _ _ _ hevr
      rw [hevr] at hs
      have hadd := add_spec (d := d) (represents_new (X := X) (O := O) (F := F) (C := C) (U := U) nc) b r ho
        (fun h => absurd rfl h) (.inl b1)
      obtain ⟨a1, a2, a3, a4, a5⟩ := hadd
      obtain ⟨a5, a6⟩ := a5 (.inl rfl)
      rw [a5] at hs
      dsimp only at hs
      injection hs with hs
      exact ⟨⟨⟨_, by rw [← hs]; exact a1⟩, by rw [← hs]; exact a4, by rw [← hs]; exact a3, by rw [← hs]; exact a2,
        by rw [← hs]; exact a6.trans hu⟩, by rw [← hs]⟩

/-- A small EA whose batches, evaluation and selection are arbitrary tables (an individual is its fitness row). -/
def archDemoOps : Ops (Int × Int) (Int × Int) { l : List Int // l.length = 2 } Unit Unit Unit Unit Unit Unit where
  adapt := fun v _ => v
  respond := fun _ _ v _ _ => (.ok (), v)
  mate := fun clk _ => .ok ⟨2, if clk = 2 then [(1, 1), (3, 3)] else [(0, 5), (1, 1)]⟩
  evaluate := fun _ _ b => .ok ⟨b.rows, b.rows.map (fun p => ⟨[p.1, p.2], rfl⟩), none, none⟩
  select := fun clk v t _ => (.ok (if clk = 4 then [7] else [0, 1]), v, t)
  newId := fun _ => 0
  probManage := fun q _ _ => (.ok (), q)
  probReeval := fun q os => (os.map (fun p => ⟨[p.1, p.2], rfl⟩), q)
  dom := rowDom 2
  nonDom := nonDominated (rowDom 2)

/-- The demo EA with two individuals. -/
def archDemo : Except Err (EA (Int × Int) (Int × Int) { l : List Int // l.length = 2 } Unit Unit Unit Unit Unit) :=
  construct archDemoOps (fun _ _ => .ok ⟨2, [(2, 2), (4, 4)]⟩) (fun _ => ()) (fun _ => ()) () false false false true 3 2 0 (some (.mo, 2, 0)) none (some 2) none

/-- The hypotheses of `c07_archive_of_a_run` hold of it ... -/
example : NDContract 2 archDemoOps.nonDom ∧ (∀ clk p off, archDemoOps.mate clk p = .ok off → off.ndim = 2) ∧
    EvalContract archDemoOps 0 false ∧ ReevalContract archDemoOps := by
  refine ⟨nonDominated_contract, ?_, ?_, ?_⟩
  · intro clk p off h
    simp only [archDemoOps, Except.ok.injEq] at h
    rw [← h]
  · intro clk surr b r h
    simp only [archDemoOps, Except.ok.injEq] at h
    subst h
    exact ⟨⟨by simp, by simp, by simp, by simp, by simp⟩, by simp⟩
  · intro q os; simp [archDemoOps]

/-- ... `start()` returns normally, and three iterations (the first of which raises in its first generation) archive what they evaluated. -/
example : (archDemo.toOption.map (fun s => ((s.start archDemoOps).1, (((s.start archDemoOps).2.calls archDemoOps
      [.iterate none, .iterate none, .iterate none]).nd.map (fun a => a.individuals)),
      ((s.start archDemoOps).2.call archDemoOps (.iterate none)).1.toOption.isSome))) =
    some (.ok none, some [(1, 1), (0, 5), (1, 1), (0, 5), (1, 1), (0, 5), (1, 1), (0, 5), (1, 1)], false) := by decide +kernel

end final

end Verif.Props
