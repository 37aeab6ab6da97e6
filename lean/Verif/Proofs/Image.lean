import Verif.Model.EA

/-!
# The image of an EA under renaming of objective, fitness, constraint and uncertainty rows

If every component of a second EA does to the renamed rows what the component of the first does to the rows, the runs are
renamings of each other.
-/

namespace Verif

variable {X O O' F F' C C' U U' V S S' Q R R' : Type}

/-- Renamings of the rows and of the state of the selection operator. -/
structure Ren (O O' F F' C C' U U' S S' : Type) where
  o : O → O'
  f : F → F'
  c : C → C'
  u : U → U'
  s : S → S'

section
variable (g : Ren O O' F F' C C' U U' S S')

def Results.im (r : Results O F C U) : Results O' F' C' U' :=
  ⟨r.objectives.map g.o, r.fitness.map g.f, r.constraints.map (fun l => l.map g.c), r.uncertainity.map (fun l => l.map g.u)⟩

def Pop.im (p : Pop X O F C U) : Pop X O' F' C' U' :=
  ⟨p.nCons, p.ndim, p.individuals, p.objectives.map g.o, p.fitness.map g.f, p.constraint.map (fun l => l.map g.c), p.uncertainity.map (fun l => l.map g.u)⟩

def Entry.im (e : Entry X O F) : Entry X O' F' := ⟨e.iteration, e.individuals, e.objectives.map g.o, e.fitness.map g.f⟩

def NDArchive.im (a : NDArchive X O F) : NDArchive X O' F' := ⟨a.individuals, a.objectives.map g.o, a.fitness.map g.f⟩

def EA.im (s : EA X O F C U V S Q) : EA X O' F' C' U' V S' Q :=
  { cfg := s.cfg, clock := s.clock, pop := s.pop.im g, vec := s.vec, sel := g.s s.sel, prob := s.prob, iter := s.iter, gen := s.gen,
    genIter := s.genIter, fe := s.fe, reqId := s.reqId, itype := s.itype, typeSet := s.typeSet, allowRead := s.allowRead,
    archive := s.archive.map (fun p => (p.1, p.2.im g)), nd := s.nd.map (fun a => a.im g), trueEvals := s.trueEvals,
    log := s.log.map (fun p => (p.1, p.2.im g)) }

/-- The second EA's components on renamed rows, except variation and selection.  `ans r r'`: the answer `r'` given to the second means the same as
`r` given to the first. -/
structure ImBase (ans : R → R' → Prop) (ops : Ops X O F C U V S Q R) (ops' : Ops X O' F' C' U' V S' Q R') : Prop where
  adapt : ∀ v f, ops'.adapt v (f.map g.f) = ops.adapt v f
  respond : ∀ clk k v p r r', ans r r' → ops'.respond clk k v (p.im g) r' = ops.respond clk k v p r
  evaluate : ∀ clk b x, ops'.evaluate clk b x = (ops.evaluate clk b x).map (fun r => r.im g)
  newId : ops'.newId = ops.newId
  dom : ∀ a b, ops'.dom (g.f a) (g.f b) = ops.dom a b
  nonDom : ∀ l, ops'.nonDom (l.map g.f) = ops.nonDom l

/-- The same with variation and selection. -/
structure ImOps (ans : R → R' → Prop) (ops : Ops X O F C U V S Q R) (ops' : Ops X O' F' C' U' V S' Q R') : Prop extends ImBase g ans ops ops' where
  mate : ∀ clk p, ops'.mate clk (p.im g) = ops.mate clk p
  select : ∀ clk v t p, ops'.select clk v (g.s t) (p.im g) =
    ((ops.select clk v t p).1, (ops.select clk v t p).2.1, g.s (ops.select clk v t p).2.2)

end

section
variable {g : Ren O O' F F' C C' U U' S S'}

theorem compress_im {α β : Type} (h : α → β) : ∀ (m : List Bool) (l : List α), compress m (l.map h) = (compress m l).map h
  | [], l => by cases l <;> rfl
  | true :: m, [] => rfl
  | false :: m, [] => rfl
  | true :: m, x :: xs => by simp [compress, compress_im h m xs]
  | false :: m, x :: xs => by simp [compress, compress_im h m xs]

theorem boolIndex_im {α β : Type} (h : α → β) (m : List Bool) (l : List α) :
    boolIndex m (l.map h) = (boolIndex m l).map (List.map h) := by
  unfold boolIndex
  simp only [List.length_map, compress_im]
  split <;> rfl

theorem vstackOpt_map {α β : Type} (h : α → β) (a b : Option (List α)) :
    vstackOpt (a.map (List.map h)) (b.map (List.map h)) = (vstackOpt a b).map (Option.map (List.map h)) := by
  cases a <;> cases b <;> simp [vstackOpt, Except.map]

theorem add_im (p : Pop X O F C U) (off : Batch X) (ev : Except Err (Results O F C U)) :
    (p.im g).add off (ev.map (fun r => r.im g)) = ((p.add off ev).1.map (fun r => r.im g), (p.add off ev).2.im g) := by
  obtain ⟨nc, nd, inds, ob, fi, co, un⟩ := p
  cases ev with
  | error e => rfl
  | ok r =>
    obtain ⟨ro, rf, rc, ru⟩ := r
    cases inds with
    | none => rfl
    | some inds =>
      by_cases i1 : nd = off.ndim + 1 <;> by_cases i2 : nd = off.ndim <;> by_cases hc : nc = 0 <;> cases ru <;> cases co <;> cases rc <;> cases un <;>
        simp [Pop.add, Pop.im, Results.im, Except.map, vstackOpt, hc, i1, i2]

theorem maskColumns_im (p : Pop X O F C U) (mask : List Bool) :
    (p.im g).maskColumns mask = ((p.maskColumns mask).1, (p.maskColumns mask).2.im g) := by
  obtain ⟨nc, nd, inds, ob, fi, co, un⟩ := p
  unfold Pop.maskColumns
  simp only [Pop.im, boolIndex_im]
  cases h1 : boolIndex mask ob with
  | error e => simp [Except.map, Pop.im]
  | ok ob1 =>
    cases h2 : boolIndex mask fi with
    | error e => simp [Except.map, Pop.im]
    | ok fi1 =>
      simp only [Except.map]
      cases un with
      | none =>
        simp only [Option.map_none]
        by_cases hc : nc > 0
        · simp only [if_pos hc]
          cases co with
          | none => simp [Pop.im, Nat.pos_iff_ne_zero.1 hc]
          | some cs => cases h3 : boolIndex mask cs <;> simp [Pop.im, h3, hc, boolIndex_im, Except.map, Nat.pos_iff_ne_zero.1 hc]
        · simp [Nat.eq_zero_of_not_pos hc, Pop.im]
      | some us =>
        simp only [Option.map_some, boolIndex_im]
        cases h4 : boolIndex mask us with
        | error e => simp [Except.map, Pop.im]
        | ok us1 =>
          simp only [Except.map]
          by_cases hc : nc > 0
          · simp only [if_pos hc]
            cases co with
            | none => simp [Pop.im, Nat.pos_iff_ne_zero.1 hc]
            | some cs => cases h3 : boolIndex mask cs <;> simp [Pop.im, h3, hc, boolIndex_im, Except.map, Nat.pos_iff_ne_zero.1 hc]
          · simp [Nat.eq_zero_of_not_pos hc, Pop.im]

theorem keep_im (p : Pop X O F C U) (idx : List Int) : (p.im g).keep idx = ((p.keep idx).1, (p.keep idx).2.im g) := by
  unfold Pop.keep
  have : (p.im g).individuals = p.individuals := rfl
  rw [this]
  cases p.individuals with
  | none => rfl
  | some inds =>
    dsimp only
    cases resolve inds.length idx with
    | error e => rfl
    | ok ks =>
      dsimp only
      cases boolIndex (setMask (List.replicate inds.length false) ks true) inds with
      | error e => rfl
      | ok i1 =>
        dsimp only
        exact maskColumns_im (g := g) ({ p with individuals := some i1 } : Pop X O F C U) _

theorem dictSet_map {α β : Type} (h : α → β) (d : List (Nat × α)) (k : Nat) (v : α) :
    dictSet (d.map (fun p => (p.1, h p.2))) k (h v) = (dictSet d k v).map (fun p => (p.1, h p.2)) := by
  unfold dictSet
  have : (d.map (fun p => (p.1, h p.2))).any (fun p => p.1 == k) = d.any (fun p => p.1 == k) := by
    simp [List.any_map, Function.comp_def]
  rw [this]
  split
  · simp only [List.map_map]
    refine List.map_congr_left (fun p _ => ?_)
    simp only [Function.comp_apply]
    split <;> rfl
  · simp

theorem record_im (s : EA X O F C U V S Q) : (s.im g).record = s.record.im g := by
  unfold EA.record
  have h1 : (s.im g).cfg = s.cfg := rfl
  rw [h1]
  split
  · have := dictSet_map (fun e : Entry X O F => e.im g) s.archive s.gen ⟨s.iter, s.pop.individuals, s.pop.objectives, s.pop.fitness⟩
    simp only [EA.im]
    rw [← this]
    rfl
  · rfl

variable {ans : R → R' → Prop} {ops : Ops X O F C U V S Q R} {ops' : Ops X O' F' C' U' V S' Q R'}

theorem preIteration_im (h : ImBase g ans ops ops') (s : EA X O F C U V S Q) :
    (s.im g).preIteration ops' = (s.preIteration ops).im g := by
  unfold EA.preIteration
  simp only [record_im]
  generalize s.record = t
  have h1 : (t.im g).cfg = t.cfg := rfl
  have h2 : (t.im g).pop.fitness = t.pop.fitness.map g.f := rfl
  have h3 : (t.im g).vec = t.vec := rfl
  rw [h1, h2, h3, h.adapt]
  by_cases a : (!t.cfg.interact) = true <;> by_cases b : t.cfg.location = some .selection <;>
    simp [a, b, EA.im, Pop.im, h.adapt]

/-- Two answers that mean the same. -/
def AnsOpt (ans : R → R' → Prop) : Option (Pref R) → Option (Pref R') → Prop
  | none, none => True
  | some p, some q => q.id = p.id ∧ q.cls = p.cls ∧ ans p.response q.response
  | _, _ => False

theorem selManage_im (h : ImBase g ans ops ops') (s : EA X O F C U V S Q) (p : Option (Pref R)) (q : Option (Pref R'))
    (hpq : AnsOpt ans p q) : (s.im g).selManage ops' q = ((s.selManage ops p).1, (s.selManage ops p).2.im g) := by
  match p, q, hpq with
  | none, none, _ =>
    simp only [EA.selManage, EA.im, Pop.im, h.adapt]
  | some p, some q, ⟨h1, h2, h3⟩ =>
    unfold EA.selManage
    have e1 : (s.im g).reqId = s.reqId := rfl
    have e2 : (s.im g).itype = s.itype := rfl
    have e3 : (s.im g).pop = s.pop.im g := rfl
    have e4 : (s.im g).vec = s.vec := rfl
    have e5 : (s.im g).clock = s.clock := rfl
    simp only [e1, e2, e3, e4, e5, h1, h2]
    split
    · rfl
    · cases s.itype with
      | none => rfl
      | some k =>
        dsimp only
        split
        · rfl
        · rw [h.respond _ _ _ _ _ _ h3]
          rfl

theorem managePreferences_im (h : ImBase g ans ops ops') (s : EA X O F C U V S Q) (hl : s.cfg.location ≠ some .problem)
    (p : Option (Pref R)) (q : Option (Pref R')) (hpq : AnsOpt ans p q) :
    (s.im g).managePreferences ops' q = ((s.managePreferences ops p).1, (s.managePreferences ops p).2.im g) := by
  unfold EA.managePreferences
  have h1 : (s.im g).cfg = s.cfg := rfl
  rw [h1]
  cases hc : s.cfg.location with
  | none => rfl
  | some l =>
    cases l with
    | selection => exact selManage_im h s p q hpq
    | problem => exact absurd hc hl

theorem requestPreferences_im (h : ImBase g ans ops ops') (s : EA X O F C U V S Q) :
    (s.im g).requestPreferences ops' = ((s.requestPreferences ops).1, (s.requestPreferences ops).2.im g) := by
  unfold EA.requestPreferences
  have h1 : (s.im g).cfg = s.cfg := rfl
  have h2 : (s.im g).itype = s.itype := rfl
  have h3 : (s.im g).clock = s.clock := rfl
  rw [h1, h2, h3]
  split
  · rfl
  · cases s.cfg.location with
    | none => rfl
    | some l =>
      cases l with
      | problem => rfl
      | selection =>
        cases s.itype with
        | none => rfl
        | some k =>
          dsimp only
          rw [h.newId]
          split <;> rfl

theorem evLog_im (off : Batch X) (ev : Except Err (Results O F C U)) :
    evLog off (ev.map (fun r => r.im g)) = (evLog off ev).map (fun p => (p.1, p.2.im g)) := by
  cases ev <;> rfl

theorem popAdd_im_of (he : ∀ clk b x, ops'.evaluate clk b x = (ops.evaluate clk b x).map (fun r => r.im g)) (s : EA X O F C U V S Q) (off : Batch X) :
    (s.im g).popAdd ops' off = ((s.popAdd ops off).1.map (fun r => r.im g), (s.popAdd ops off).2.im g) := by
  unfold EA.popAdd
  have e1 : (s.im g).clock = s.clock := rfl
  have e2 : (s.im g).cfg = s.cfg := rfl
  have e3 : (s.im g).pop = s.pop.im g := rfl
  simp only [e1, e2, e3, he, add_im, evLog_im]
  simp [EA.im]

theorem popAdd_im (h : ImBase g ans ops ops') (s : EA X O F C U V S Q) (off : Batch X) :
    (s.im g).popAdd ops' off = ((s.popAdd ops off).1.map (fun r => r.im g), (s.popAdd ops off).2.im g) := popAdd_im_of h.evaluate s off

theorem checkNew_im {d : F → F → Bool} {d' : F' → F' → Bool} (h : ∀ a b, d' (g.f a) (g.f b) = d a b) (x : F) : ∀ (l : List F) (ms : List Bool),
    checkNew d' (g.f x) (l.map g.f) ms = checkNew d x l ms
  | [], ms => by cases ms <;> rfl
  | a :: as, [] => rfl
  | a :: as, m :: ms => by
    simp only [List.map_cons, checkNew, h, checkNew_im h x as ms]

theorem checkAll_im {d : F → F → Bool} {d' : F' → F' → Bool} (h : ∀ a b, d' (g.f a) (g.f b) = d a b) (ar : List F) : ∀ (l : List F) (ms : List Bool),
    checkAll d' (ar.map g.f) (l.map g.f) ms = checkAll d ar l ms
  | [], ms => rfl
  | x :: xs, ms => by simp only [List.map_cons, checkAll, checkNew_im h, checkAll_im h ar xs]

theorem archiveUpdate_im_of {d : F → F → Bool} {d' : F' → F' → Bool} (h : ∀ a b, d' (g.f a) (g.f b) = d a b) (ar : Option (NDArchive X O F))
    (xs : List X) (os : List O) (fs : List F) :
    archiveUpdate d' (ar.map (fun a => a.im g)) xs (os.map g.o) (fs.map g.f) = (archiveUpdate d ar xs os fs).map (fun a => a.im g) := by
  cases ar with
  | none => rfl
  | some a =>
    simp only [Option.map_some, archiveUpdate, NDArchive.im, checkDomination, List.length_map, checkAll_im h, boolIndex_im]
    generalize checkAll d a.fitness fs (List.replicate a.fitness.length true) = m
    cases boolIndex m.2 a.individuals <;> cases boolIndex m.1 xs <;> cases boolIndex m.2 a.objectives <;>
      cases boolIndex m.1 os <;> cases boolIndex m.2 a.fitness <;> cases boolIndex m.1 fs <;> simp [Except.map]

theorem archiveUpdate_im (h : ImBase g ans ops ops') (ar : Option (NDArchive X O F)) (xs : List X) (os : List O) (fs : List F) :
    archiveUpdate ops'.dom (ar.map (fun a => a.im g)) xs (os.map g.o) (fs.map g.f) =
      (archiveUpdate ops.dom ar xs os fs).map (fun a => a.im g) := archiveUpdate_im_of h.dom ar xs os fs

theorem startArchive_im (h : ImBase g ans ops ops') (xs : List X) (os : List O) (fs : List F) :
    startArchive ops'.nonDom xs (os.map g.o) (fs.map g.f) = (startArchive ops.nonDom xs os fs).map (fun a => a.im g) := by
  simp only [startArchive, h.nonDom, boolIndex_im]
  generalize ops.nonDom fs = m
  cases boolIndex m xs <;> cases boolIndex m os <;> cases boolIndex m fs <;> simp [Except.map, NDArchive.im]

/-- The steps of `nextGen` after the evaluation. -/
def EA.afterAdd (ops : Ops X O F C U V S Q R) (off : Batch X) (res : Results O F C U) (s : EA X O F C U V S Q) : EARes Unit X O F C U V S Q :=
  let a : EARes Unit X O F C U V S Q :=
    if s.cfg.saveND then
      match archiveUpdate ops.dom s.nd off.rows res.objectives res.fitness with
      | .error e => (.error e, s)
      | .ok nd => (.ok (), { s with nd := some nd })
    else (.ok (), s)
  match a with
  | (.error e, s) => (.error e, s)
  | (.ok _, s) =>
    match ops.select s.clock s.vec s.sel s.pop with
    | (.error e, v, t) => (.error e, { s with vec := v, sel := t, clock := s.clock + 1 })
    | (.ok idx, v, t) =>
      let s := { s with vec := v, sel := t, clock := s.clock + 1 }
      match s.pop.keep idx with
      | (.error e, p) => (.error e, { s with pop := p })
      | (.ok _, p) =>
        let s := { s with pop := p, gen := s.gen + 1, genIter := s.genIter + 1 }
        (.ok (), if s.cfg.useSurr then s else { s with fe := s.fe + off.rows.length })

theorem nextGen_eq (ops : Ops X O F C U V S Q R) (s : EA X O F C U V S Q) :
    s.nextGen ops = match ops.mate s.clock s.pop with
      | .error e => (.error e, { s with clock := s.clock + 1 })
      | .ok off =>
        match ({ s with clock := s.clock + 1 } : EA X O F C U V S Q).popAdd ops off with
        | (.error e, s) => (.error e, s)
        | (.ok res, s) => s.afterAdd ops off res := by
  unfold EA.nextGen EA.afterAdd
  rfl

/-- The part of `afterAdd` from the selection on. -/
def EA.afterArchive (ops : Ops X O F C U V S Q R) (off : Batch X) (s : EA X O F C U V S Q) : EARes Unit X O F C U V S Q :=
  match ops.select s.clock s.vec s.sel s.pop with
  | (.error e, v, t) => (.error e, { s with vec := v, sel := t, clock := s.clock + 1 })
  | (.ok idx, v, t) =>
    let s := { s with vec := v, sel := t, clock := s.clock + 1 }
    match s.pop.keep idx with
    | (.error e, p) => (.error e, { s with pop := p })
    | (.ok _, p) =>
      let s := { s with pop := p, gen := s.gen + 1, genIter := s.genIter + 1 }
      (.ok (), if s.cfg.useSurr then s else { s with fe := s.fe + off.rows.length })

theorem afterAdd_eq (ops : Ops X O F C U V S Q R) (off : Batch X) (res : Results O F C U) (s : EA X O F C U V S Q) :
    s.afterAdd ops off res = if s.cfg.saveND then
        match archiveUpdate ops.dom s.nd off.rows res.objectives res.fitness with
        | .error e => (.error e, s)
        | .ok nd => ({ s with nd := some nd } : EA X O F C U V S Q).afterArchive ops off
      else s.afterArchive ops off := by
  unfold EA.afterAdd
  split
  · cases archiveUpdate ops.dom s.nd off.rows res.objectives res.fitness <;> rfl
  · rfl

theorem afterArchive_im (h : ImOps g ans ops ops') (off : Batch X) (s : EA X O F C U V S Q) :
    (s.im g).afterArchive ops' off = ((s.afterArchive ops off).1, (s.afterArchive ops off).2.im g) := by
  unfold EA.afterArchive
  have hs := h.select s.clock s.vec s.sel s.pop
  have e1 : (s.im g).clock = s.clock := rfl
  have e2 : (s.im g).vec = s.vec := rfl
  have e3 : (s.im g).sel = g.s s.sel := rfl
  have e4 : (s.im g).pop = s.pop.im g := rfl
  rw [e1, e2, e3, e4, hs]
  generalize ops.select s.clock s.vec s.sel s.pop = r
  obtain ⟨r1, v, t⟩ := r
  cases r1 with
  | error e => rfl
  | ok idx =>
    dsimp only
    rw [keep_im]
    generalize s.pop.keep idx = k
    obtain ⟨k1, p⟩ := k
    cases k1 with
    | error e => rfl
    | ok u =>
      have e5 : (s.im g).cfg = s.cfg := rfl
      dsimp only
      rw [e5]
      by_cases hu : s.cfg.useSurr = true <;> simp [hu, EA.im]

theorem afterAdd_im (h : ImOps g ans ops ops') (off : Batch X) (res : Results O F C U) (s : EA X O F C U V S Q) :
    (s.im g).afterAdd ops' off (res.im g) = ((s.afterAdd ops off res).1, (s.afterAdd ops off res).2.im g) := by
  rw [afterAdd_eq, afterAdd_eq]
  have e1 : (s.im g).cfg = s.cfg := rfl
  have e2 : (s.im g).nd = s.nd.map (fun a => a.im g) := rfl
  rw [e1]
  split
  · rw [e2, show (res.im g).objectives = res.objectives.map g.o from rfl, show (res.im g).fitness = res.fitness.map g.f from rfl,
      archiveUpdate_im h.toImBase]
    cases archiveUpdate ops.dom s.nd off.rows res.objectives res.fitness with
    | error e => rfl
    | ok nd => exact afterArchive_im h off ({ s with nd := some nd } : EA X O F C U V S Q)
  · exact afterArchive_im h off s

theorem nextGen_im (h : ImOps g ans ops ops') (s : EA X O F C U V S Q) :
    (s.im g).nextGen ops' = ((s.nextGen ops).1, (s.nextGen ops).2.im g) := by
  rw [nextGen_eq, nextGen_eq]
  have hm : ops'.mate (s.im g).clock (s.im g).pop = ops.mate s.clock s.pop := h.mate _ _
  rw [hm]
  cases ops.mate s.clock s.pop with
  | error e => rfl
  | ok off =>
    dsimp only
    have hp := popAdd_im h.toImBase ({ s with clock := s.clock + 1 } : EA X O F C U V S Q) off
    rw [show ({ s.im g with clock := (s.im g).clock + 1 } : EA X O' F' C' U' V S' Q) = ({ s with clock := s.clock + 1 } : EA X O F C U V S Q).im g from rfl, hp]
    generalize ({ s with clock := s.clock + 1 } : EA X O F C U V S Q).popAdd ops off = r
    obtain ⟨r1, t⟩ := r
    cases r1 with
    | error e => rfl
    | ok res => exact afterAdd_im h off res t

theorem loop_im (b : EA X O F C U V S Q → EARes Unit X O F C U V S Q) (b' : EA X O' F' C' U' V S' Q → EARes Unit X O' F' C' U' V S' Q)
    (hb : ∀ s, b' (s.im g) = ((b s).1, (b s).2.im g)) : ∀ (fuel : Nat) (s : EA X O F C U V S Q),
    EA.loop b' fuel (s.im g) = ((EA.loop b fuel s).1, (EA.loop b fuel s).2.im g)
  | 0, s => rfl
  | fuel + 1, s => by
    simp only [EA.loop]
    have e : (s.im g).continueIteration = s.continueIteration := rfl
    rw [e, hb]
    split
    · generalize b s = r
      obtain ⟨r1, t⟩ := r
      cases r1 with
      | error e => rfl
      | ok u => exact loop_im b b' hb fuel t
    · rfl

theorem iterateWith_im {b : EA X O F C U V S Q → EARes Unit X O F C U V S Q} {b' : EA X O' F' C' U' V S' Q → EARes Unit X O' F' C' U' V S' Q}
    (hb : ∀ s, b' (s.im g) = ((b s).1, (b s).2.im g)) (h : ImBase g ans ops ops') (s : EA X O F C U V S Q) (hl : s.cfg.location ≠ some .problem)
    (p : Option (Pref R)) (q : Option (Pref R')) (hpq : AnsOpt ans p q) :
    (s.im g).iterateWith ops' b' q = ((s.iterateWith ops b p).1, (s.iterateWith ops b p).2.im g) := by
  unfold EA.iterateWith
  rw [managePreferences_im h s hl p q hpq]
  generalize s.managePreferences ops p = r
  obtain ⟨r1, t⟩ := r
  cases r1 with
  | error e => rfl
  | ok u =>
    dsimp only
    rw [preIteration_im h t]
    generalize t.preIteration ops = t2
    have := loop_im b b' hb t2.cfg.nGen ({ t2 with genIter := 0 } : EA X O F C U V S Q)
    rw [show ({ t2.im g with genIter := 0 } : EA X O' F' C' U' V S' Q) = ({ t2 with genIter := 0 } : EA X O F C U V S Q).im g from rfl,
      show (t2.im g).cfg.nGen = t2.cfg.nGen from rfl, this]
    generalize EA.loop b t2.cfg.nGen ({ t2 with genIter := 0 } : EA X O F C U V S Q) = w
    obtain ⟨w1, t3⟩ := w
    cases w1 with
    | error e => rfl
    | ok u => exact requestPreferences_im h ({ t3 with iter := t3.iter + 1 } : EA X O F C U V S Q)

theorem iterate_im (h : ImOps g ans ops ops') (s : EA X O F C U V S Q) (hl : s.cfg.location ≠ some .problem)
    (p : Option (Pref R)) (q : Option (Pref R')) (hpq : AnsOpt ans p q) :
    (s.im g).iterate ops' q = ((s.iterate ops p).1, (s.iterate ops p).2.im g) := iterateWith_im (nextGen_im h) h.toImBase s hl p q hpq

theorem start_im (h : ImBase g ans ops ops') (s : EA X O F C U V S Q) : (s.im g).start ops' = ((s.start ops).1, (s.start ops).2.im g) := by
  unfold EA.start
  have e1 : (s.im g).cfg = s.cfg := rfl
  have e2 : (s.im g).typeSet = s.typeSet := rfl
  have e3 : (s.im g).pop.individuals = s.pop.individuals := rfl
  have e4 : (s.im g).pop.objectives = s.pop.objectives.map g.o := rfl
  have e5 : (s.im g).pop.fitness = s.pop.fitness.map g.f := rfl
  rw [e1, e2, e3, e4, e5]
  split
  · rfl
  · by_cases hs : s.cfg.saveND = true
    · simp only [if_pos hs]
      cases s.pop.individuals with
      | none => rfl
      | some inds =>
        dsimp only
        rw [startArchive_im h]
        cases startArchive ops.nonDom inds s.pop.objectives s.pop.fitness with
        | error e => rfl
        | ok nd => exact requestPreferences_im h ({ s with nd := some nd } : EA X O F C U V S Q)
    · simp only [if_neg hs]
      exact requestPreferences_im h s

/-- The same call, with an answer that means the same. -/
def AnsCall (ans : R → R' → Prop) : Call R → Call R' → Prop
  | .start, .start => True
  | .setType a, .setType b => b = a
  | .readAllowable, .readAllowable => True
  | .iterate p, .iterate q => AnsOpt ans p q
  | _, _ => False

theorem setInteractionType_im (s : EA X O F C U V S Q) (b : Option String) :
    (s.im g).setInteractionType b = ((s.setInteractionType b).1, (s.setInteractionType b).2.im g) := by
  unfold EA.setInteractionType
  have e1 : (s.im g).cfg = s.cfg := rfl
  rw [e1]
  cases s.cfg.location with
  | none => rfl
  | some l =>
    cases l with
    | problem => rfl
    | selection =>
      cases b with
      | none => rfl
      | some str =>
        dsimp only
        cases Kind.parse str <;> rfl

theorem readAllowable_im (s : EA X O F C U V S Q) : (s.im g).readAllowable = (s.readAllowable.1, s.readAllowable.2.im g) := by
  unfold EA.readAllowable
  have e2 : (s.im g).allowRead = s.allowRead := rfl
  rw [e2, setInteractionType_im]
  split
  · rfl
  · generalize s.setInteractionType none = r
    obtain ⟨r1, t⟩ := r
    cases r1 <;> rfl

theorem call_im (h : ImOps g ans ops ops') (s : EA X O F C U V S Q) (hl : s.cfg.location ≠ some .problem) (c : Call R) (c' : Call R')
    (hc : AnsCall ans c c') : (s.im g).call ops' c' = ((s.call ops c).1, (s.call ops c).2.im g) := by
  match c, c', hc with
  | .start, .start, _ => exact start_im h.toImBase s
  | .setType a, .setType b, hb =>
    have hb : b = a := hb
    subst hb
    simp only [EA.call]
    rw [setInteractionType_im]
    generalize s.setInteractionType b = r
    obtain ⟨r1, t⟩ := r
    cases r1 <;> rfl
  | .readAllowable, .readAllowable, _ =>
    simp only [EA.call]
    rw [readAllowable_im]
    generalize s.readAllowable = r
    obtain ⟨r1, t⟩ := r
    cases r1 <;> rfl
  | .iterate p, .iterate q, hpq => exact iterate_im h s hl p q hpq

end
end Verif
