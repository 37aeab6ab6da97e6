import Verif.Model.OtherEAs
import Verif.Proofs.Population

/-!
# Properties C72, C73: the EAs that cannot run
-/

namespace Verif.Props
open Verif

variable {X O F C U V P R : Type}

/-- What no call on an IOPIS EA changes. -/
structure SameRun (s t : EA X O F C U V (Option P) IOKind) : Prop where
  cfg : t.cfg = s.cfg
  pop : t.pop = s.pop
  iter : t.iter = s.iter
  gen : t.gen = s.gen
  genIter : t.genIter = s.genIter
  fe : t.fe = s.fe
  prob : t.prob = s.prob
  typeSet : t.typeSet = s.typeSet
  archive : t.archive = s.archive
  nd : t.nd = s.nd

theorem SameRun.refl (s : EA X O F C U V (Option P) IOKind) : SameRun s s := ⟨rfl, rfl, rfl, rfl, rfl, rfl, rfl, rfl, rfl, rfl⟩

theorem SameRun.trans {s t u : EA X O F C U V (Option P) IOKind} (h : SameRun s t) (g : SameRun t u) : SameRun s u :=
  ⟨g.1.trans h.1, g.2.trans h.2, g.3.trans h.3, g.4.trans h.4, g.5.trans h.5, g.6.trans h.6, g.7.trans h.7, g.8.trans h.8, g.9.trans h.9,
    g.10.trans h.10⟩

/-- The configuration of every constructed IOPIS EA that matters here. -/
def Unstartable (s : EA X O F C U V (Option P) IOKind) : Prop :=
  s.cfg.interact = true ∧ s.cfg.location = none ∧ s.cfg.keepArchive = false ∧ s.typeSet = false

theorem SameRun.unstartable {s t : EA X O F C U V (Option P) IOKind} (h : SameRun s t) (hs : Unstartable s) : Unstartable t := by
  unfold Unstartable
  rw [h.cfg, h.typeSet]
  exact hs

theorem iopisManage_same (io : IOOps X O F C U V P R) (s : EA X O F C U V (Option P) IOKind) (pref : Option (Pref R)) :
    SameRun s (iopisManage io s pref).2 := by
  unfold iopisManage
  repeat' split
  all_goals exact ⟨rfl, rfl, rfl, rfl, rfl, rfl, rfl, rfl, rfl, rfl⟩

theorem iopisPre_fails (s : EA X O F C U V (Option P) IOKind) (h : Unstartable s) : iopisPre s = (.error .attributeError, s) := by
  obtain ⟨h1, h2, h3, -⟩ := h
  have hr : s.record = s := by simp [EA.record, h3]
  cases hk : s.prob <;> simp [iopisPre, hr, h1, h2, hk, IOKind.adaptRVs]

theorem iopisIterate_fails (io : IOOps X O F C U V P R) (s : EA X O F C U V (Option P) IOKind) (h : Unstartable s) (pref : Option (Pref R)) :
    ((iopisIterate io s pref).1 = .error .eaError ∨ (iopisIterate io s pref).1 = .error .attributeError) ∧
      SameRun s (iopisIterate io s pref).2 := by
  have hs := iopisManage_same io s pref
  have he : ∀ e t, iopisManage io s pref = (.error e, t) → e = .eaError ∨ e = .attributeError := by
    intro e t
    unfold iopisManage
    repeat' split
    all_goals intro hh; simp only [Prod.mk.injEq, Except.error.injEq, reduceCtorEq, false_and] at hh
    all_goals simp [← hh.1]
  unfold iopisIterate
  generalize hm : iopisManage io s pref = r at *
  obtain ⟨a, t⟩ := r
  cases a with
  | error e =>
    refine ⟨?_, hs⟩
    rcases he e t rfl with rfl | rfl
    · exact .inl rfl
    · exact .inr rfl
  | ok u =>
    dsimp only
    rw [iopisPre_fails t (hs.unstartable h)]
    exact ⟨.inr rfl, hs⟩

/-- One call on an IOPIS EA: `start` and `iterate` raise, and nothing of the run changes. -/
theorem iopisCall_same (io : IOOps X O F C U V P R) (s : EA X O F C U V (Option P) IOKind) (h : Unstartable s) (c : IOCall R) :
    SameRun s (iopisCall io s c).2 := by
  obtain ⟨h1, h2, h3, h4⟩ := id h
  cases c with
  | start =>
    simp only [iopisCall, iopisStart, h1, h4]
    exact .refl s
  | setType a =>
    simp only [iopisCall, EA.setInteractionType, h2]
    exact .refl s
  | readAllowable =>
    have e : SameRun s s.readAllowable.2 := by
      have hset : s.setInteractionType none = (.ok (), s) := by simp only [EA.setInteractionType, h2]
      unfold EA.readAllowable
      rw [hset]
      split
      all_goals exact ⟨rfl, rfl, rfl, rfl, rfl, rfl, rfl, rfl, rfl, rfl⟩
    simp only [iopisCall]
    generalize s.readAllowable = r at *
    obtain ⟨a | a, t⟩ := r
    · exact e
    · exact e
  | request => exact ⟨rfl, rfl, rfl, rfl, rfl, rfl, rfl, rfl, rfl, rfl⟩
  | iterate p => exact (iopisIterate_fails io s h p).2

theorem iopisCalls_same (io : IOOps X O F C U V P R) (cs : List (IOCall R)) :
    ∀ s : EA X O F C U V (Option P) IOKind, Unstartable s → SameRun s (iopisCalls io s cs) := by
  induction cs with
  | nil => intro s _; exact .refl s
  | cons c cs ih =>
    intro s h
    have h1 := iopisCall_same io s h c
    exact h1.trans (ih _ (h1.unstartable h))

theorem iopisConstruct_unstartable (io : IOOps X O F C U V P R) (design : Nat → Nat → Except Err (Batch X)) (vec0 : Nat → V)
    (kind : IOKind) (ok useSurr : Bool) (nIter nGen total nCons : Nat) (penalty : PenaltyArg) (ps lr : Option Nat)
    (initPop : Option (Pop X O F C U)) (s : EA X O F C U V (Option P) IOKind)
    (h : iopisConstruct io design vec0 kind ok useSurr nIter nGen total nCons penalty ps lr initPop = .ok s) :
    Unstartable s ∧ s.iter = 0 ∧ s.gen = 0 := by
  unfold iopisConstruct at h
  dsimp only at h
  split at h
  · cases h
  · split at h
    · cases h
    · rename_i t ht
      split at h
      · cases h
      · injection h with h
        subst h
        repeat' split at ht
        all_goals first
          | (exfalso; cases ht; done)
          | (injection ht with ht; subst ht; exact ⟨⟨rfl, rfl, rfl, rfl⟩, rfl, rfl⟩)

/-- C72: `IOPIS_RVEA` and `IOPIS_NSGAIII` cannot run.  However the object was constructed (from a problem or a given population,
whatever the arguments and random outcomes), after any calls whatsoever: `start()` raises eaError, `iterate()` raises eaError or
AttributeError for every preference; no generation was ever completed, no offspring evaluated, and the population is the initial one. -/
theorem c72_iopis_ea_never_runs (io : IOOps X O F C U V P R) (design : Nat → Nat → Except Err (Batch X)) (vec0 : Nat → V)
    (kind : IOKind) (ok useSurr : Bool) (nIter nGen total nCons : Nat) (penalty : PenaltyArg) (ps lr : Option Nat)
    (initPop : Option (Pop X O F C U)) (s : EA X O F C U V (Option P) IOKind)
    (h : iopisConstruct io design vec0 kind ok useSurr nIter nGen total nCons penalty ps lr initPop = .ok s) (cs : List (IOCall R)) :
    (iopisCall io (iopisCalls io s cs) .start).1 = .error .eaError ∧
    (∀ pref, (iopisCall io (iopisCalls io s cs) (.iterate pref)).1 = .error .eaError ∨
      (iopisCall io (iopisCalls io s cs) (.iterate pref)).1 = .error .attributeError) ∧
    (iopisCalls io s cs).gen = 0 ∧ (iopisCalls io s cs).iter = 0 ∧ (iopisCalls io s cs).fe = s.fe ∧ (iopisCalls io s cs).pop = s.pop := by
  obtain ⟨h1, h2, h3⟩ := iopisConstruct_unstartable io design vec0 kind ok useSurr nIter nGen total nCons penalty ps lr initPop s h
  have h4 := iopisCalls_same io cs s h1
  have h5 := h4.unstartable h1
  refine ⟨?_, fun pref => (iopisIterate_fails io _ h5 pref).1, h4.gen.trans h3, h4.iter.trans h2, h4.fe, h4.pop⟩
  simp only [iopisCall, iopisStart, h5.1, h5.2.2.2]
  rfl

/-- C72: the preference protocol of these classes: a preference answering the latest request is accepted (the reference vectors
are adapted and the preference stored) although the iteration then raises; with anything else nothing changes at all. -/
theorem c72_iopis_ea_preference (io : IOOps X O F C U V P R) (s : EA X O F C U V (Option P) IOKind) (h : Unstartable s) :
    (∀ p : Pref R, p.cls = .referencePoint → s.reqId = some p.id →
      iopisIterate io s (some p) =
        (.error .attributeError, { s with sel := some (io.toRef p.response), vec := io.adapt s.vec s.pop.fitness (io.toRef p.response) })) ∧
    iopisIterate io s none = (.error .eaError, s) ∧
    (∀ p : Pref R, p.cls ≠ .referencePoint ∨ s.reqId ≠ some p.id →
      iopisIterate io s (some p) = (.error .eaError, s) ∨ iopisIterate io s (some p) = (.error .attributeError, s)) := by
  refine ⟨?_, rfl, ?_⟩
  · intro p h1 h2
    have hm : iopisManage io s (some p) = (.ok (), { s with sel := some (io.toRef p.response), vec := io.adapt s.vec s.pop.fitness (io.toRef p.response) }) := by
      simp [iopisManage, h1, h2]
    unfold iopisIterate
    rw [hm]
    dsimp only
    rw [iopisPre_fails { s with sel := some (io.toRef p.response), vec := io.adapt s.vec s.pop.fitness (io.toRef p.response) }
      ⟨h.1, h.2.1, h.2.2.1, h.2.2.2⟩]
  · intro p hp
    unfold iopisIterate iopisManage
    dsimp only
    by_cases hc : p.cls = .referencePoint
    · rw [if_neg (by simp [hc])]
      cases hr : s.reqId with
      | none => exact .inr rfl
      | some id =>
        have : p.id ≠ id := by
          intro e
          rcases hp with h | h
          · exact h hc
          · exact h (by rw [hr, e])
        dsimp only
        rw [if_pos this]
        exact .inl rfl
    · rw [if_pos hc]
      exact .inl rfl

/-- C72: a request asks for a reference point under a new id, and the answer to it is accepted (until it is replaced by another request):
the iteration stores it and adapts the vectors. -/
theorem c72_iopis_request_answered (io : IOOps X O F C U V P R) (s : EA X O F C U V (Option P) IOKind) (h : Unstartable s) (r : R) :
    ∃ id t, iopisCall io s .request = (.ok (some ⟨id, .referencePoint⟩), t) ∧ id = io.newId s.clock ∧
      (iopisCalls io s [.request, .iterate (some ⟨id, .referencePoint, r⟩)]).sel = some (io.toRef r) ∧
      (iopisCalls io s [.request, .iterate (some ⟨id, .referencePoint, r⟩)]).vec = io.adapt s.vec s.pop.fitness (io.toRef r) := by
  refine ⟨_, _, rfl, rfl, ?_⟩
  have h' : Unstartable (iopisRequest io s).2 := ⟨h.1, h.2.1, h.2.2.1, h.2.2.2⟩
  have := (c72_iopis_ea_preference io _ h').1 ⟨io.newId s.clock, .referencePoint, r⟩ rfl rfl
  simp only [iopisCalls, List.foldl_cons, List.foldl_nil, iopisCall]
  rw [this]
  exact ⟨rfl, rfl⟩

/-- C72: a problem without ideal and nadir points is refused with eaError whatever the other arguments; with them, and a given population,
the object is made around that population, nothing counted. -/
theorem c72_iopis_ea_construct (io : IOOps X O F C U V P R) (design : Nat → Nat → Except Err (Batch X)) (vec0 : Nat → V)
    (kind : IOKind) (useSurr : Bool) (nIter nGen total nCons : Nat) (penalty : PenaltyArg) (ps lr : Option Nat) :
    (∀ initPop, iopisConstruct io design vec0 kind false useSurr nIter nGen total nCons penalty ps lr initPop = .error .eaError) ∧
    ∀ p, ∃ s, iopisConstruct io design vec0 kind true useSurr nIter nGen total nCons .none ps lr (some p) = .ok s ∧
      s.pop = p ∧ s.fe = 0 ∧ s.sel = none := by
  refine ⟨fun _ => rfl, fun p => ⟨_, rfl, rfl, rfl, rfl⟩⟩

theorem comb_one (r : Nat) : comb (r + 1) 1 = r + 1 := by
  have h0 : ∀ r, comb r 0 = 1 := by intro r; cases r <;> rfl
  induction r with
  | zero => rfl
  | succ r ih => rw [comb, h0, ih]; omega

/-- C72: without a population, the number of vectors designed and counted as evaluated is `population_size`, or else the lattice resolution
(49 if not given) plus one: a problem here always has two scalarised fitnesses, whatever its number of objectives.  The
number of reference vectors never depends on the population size. -/
theorem c72_iopis_default_size (io : IOOps X O F C U V P R) (design : Nat → Nat → Except Err (Batch X)) (vec0 : Nat → V)
    (kind : IOKind) (useSurr : Bool) (nIter nGen total nCons : Nat) (penalty : PenaltyArg) (ps lr : Option Nat)
    (initPop : Option (Pop X O F C U)) (s : EA X O F C U V (Option P) IOKind)
    (h : iopisConstruct io design vec0 kind true useSurr nIter nGen total nCons penalty ps lr initPop = .ok s) :
    s.vec = vec0 (lr.getD 49 + 1) ∧
    (initPop = none → s.fe = ps.getD (lr.getD 49 + 1) ∧ ∃ off, design 0 (ps.getD (lr.getD 49 + 1)) = .ok off ∧
      s.trueEvals = if useSurr then 0 else off.rows.length) := by
  have hc : ∀ q, choosePopSize 2 q lr = q.getD (lr.getD 49 + 1) := by
    intro q
    unfold choosePopSize
    cases q with
    | some n => rfl
    | none => cases lr <;> exact comb_one _
  unfold iopisConstruct at h
  simp only [Bool.not_true, Bool.false_eq_true, if_false, hc] at h
  cases initPop with
  | some p =>
    dsimp only at h
    split at h
    · cases h
    · injection h with h
      subst h
      exact ⟨rfl, fun h => by cases h⟩
  | none =>
    dsimp only at h
    cases hd : design 0 (ps.getD (lr.getD 49 + 1)) with
    | error e => rw [hd] at h; cases h
    | ok off =>
      rw [hd] at h
      dsimp only at h
      generalize (Pop.new nCons : Pop X O F C U).add off (io.evaluate 1 useSurr off) = q at h
      obtain ⟨q | q, p⟩ := q
      · cases h
      · dsimp only at h
        split at h
        · cases h
        · injection h with h
          subst h
          exact ⟨rfl, fun _ => ⟨rfl, off, rfl, rfl⟩⟩

/-- Non-vacuity: such an object can be constructed, gives a request, and accepts its answer. -/
example : ∃ (io : IOOps Nat Nat Nat Nat Nat Nat Nat Nat) (s : EA Nat Nat Nat Nat Nat Nat (Option Nat) IOKind),
    iopisConstruct io (fun _ n => .ok ⟨2, List.range n⟩) id .apd true false 3 5 0 0 .none (some 4) none none = .ok s ∧
    s.pop.individuals = some [0, 1, 2, 3] ∧ s.fe = 4 ∧
    (iopisCalls io s [.request, .iterate (some ⟨2, .referencePoint, 9⟩)]).sel = some 9 := by
  refine ⟨⟨id, fun v _ p => v + p, fun c => c, fun _ _ => .ok ⟨2, []⟩, fun _ _ b => .ok ⟨b.rows, b.rows, none, none⟩, fun _ _ _ _ => .ok []⟩, ?_⟩
  exact ⟨_, rfl, rfl, rfl, rfl⟩

/-! ## C73: TournamentEA, BioGP training, IK_RVEA -/

/-- C73: no generation of `TournamentEA` ever completes: whatever the population, it raises TypeError and changes nothing. -/
theorem c73_tournament_generation_raises (tn : TournOps X O F C U) (s : EA X O F C U Unit Unit Unit) :
    tournNextGen tn s = (.error .typeError, s) := rfl

/-- C73: `iterate()` of a TournamentEA returns exactly when no generations were asked for; otherwise it raises TypeError, leaving
population, counters and the number of finished iterations as they were. -/
theorem c73_tournament_iterate (tn : TournOps X O F C U) (nIter nGen : Nat) (p : Pop X O F C U) (s : EA X O F C U Unit Unit Unit)
    (h : tournConstruct nIter nGen (some p) = .ok s) (fuel : Nat) (hf : 0 < fuel) :
    (0 < nGen → tournIterate tn s = (.error .typeError, s)) ∧
    (0 < nGen → 0 < nIter → tournDrive tn fuel s = (.error .typeError, s)) ∧
    (nGen = 0 → nIter ≤ fuel → ∃ t, tournDrive tn fuel s = (.ok (), t) ∧ t.pop = p ∧ t.gen = 0 ∧ t.iter = nIter) := by
  injection h with h
  have e1 : s.cfg = ⟨false, none, nIter, nGen, 0, false, false, false⟩ := by rw [← h]
  have e2 : s.genIter = 0 := by rw [← h]
  have e3 : s.pop = p := by rw [← h]
  have e4 : s.gen = 0 := by rw [← h]
  have e5 : s.iter = 0 := by rw [← h]
  have hit : 0 < nGen → tournIterate tn s = (.error .typeError, s) := by
    intro hg
    obtain ⟨n, rfl⟩ : ∃ n, nGen = n + 1 := ⟨nGen - 1, by omega⟩
    have hs : ({ s with genIter := 0 } : EA X O F C U Unit Unit Unit) = s := by rw [← h]
    have hc : s.continueIteration = true := by simp [EA.continueIteration, EA.checkFE, e1, e2]
    have hn : s.cfg.nGen = n + 1 := by rw [e1]
    unfold tournIterate
    rw [hs, hn]
    simp only [EA.loop, hc, if_true, c73_tournament_generation_raises]
  refine ⟨hit, ?_, ?_⟩
  · intro hg hi
    obtain ⟨n, rfl⟩ : ∃ n, fuel = n + 1 := ⟨fuel - 1, by omega⟩
    have hc : s.continueEvolution = true := by simp [EA.continueEvolution, EA.checkFE, e1, e5, hi]
    simp only [tournDrive, hc, if_true, hit hg]
  · intro hg hfu
    subst hg
    have key : ∀ (k : Nat) (u : EA X O F C U Unit Unit Unit), u.cfg = s.cfg → u.pop = p → u.gen = 0 → u.iter ≤ nIter → nIter - u.iter ≤ k →
        ∃ t, tournDrive tn k u = (.ok (), t) ∧ t.pop = p ∧ t.gen = 0 ∧ t.iter = nIter := by
      intro k
      induction k with
      | zero => intro u _ h2 h3 h4 h5; exact ⟨u, rfl, h2, h3, by omega⟩
      | succ k ih =>
        intro u h1 h2 h3 h4 h5
        by_cases hlt : u.iter < nIter
        · have hc : u.continueEvolution = true := by simp [EA.continueEvolution, EA.checkFE, h1, e1, hlt]
          have hi : tournIterate tn u = (.ok (), { u with genIter := 0, iter := u.iter + 1 }) := by
            have hn : u.cfg.nGen = 0 := by rw [h1, e1]
            unfold tournIterate
            rw [hn]
            rfl
          obtain ⟨t, a1, a2⟩ := ih { u with genIter := 0, iter := u.iter + 1 } h1 h2 h3 (by show u.iter + 1 ≤ nIter; omega)
            (by show nIter - (u.iter + 1) ≤ k; omega)
          exact ⟨t, by simp only [tournDrive, hc, if_true, hi]; exact a1, a2⟩
        · have hc : u.continueEvolution = false := by simp [EA.continueEvolution, h1, e1, hlt]
          exact ⟨u, by simp [tournDrive, hc], h2, h3, by omega⟩
    exact key fuel s rfl e3 e4 (by omega) (by omega)

/-- Non-vacuity: a TournamentEA around a population of three, with a tournament and a recombination that would succeed. -/
example : ∃ (tn : TournOps Nat Nat Nat Nat Nat) (p : Pop Nat Nat Nat Nat Nat) (s : EA Nat Nat Nat Nat Nat Unit Unit Unit),
    tournConstruct 2 3 (some p) = .ok s ∧ p.individuals = some [7, 8, 9] ∧ tn.select 0 p = .ok [1, 0, 2] ∧
    (tournDrive tn 5 s).1 = .error .typeError := by
  refine ⟨⟨fun _ _ => .ok [1, 0, 2], fun _ _ _ => .ok ⟨2, [4]⟩, fun _ b => .ok ⟨b.rows, b.rows, none, none⟩⟩,
    ((Pop.new 0).add ⟨2, [7, 8, 9]⟩ (.ok ⟨[1, 2, 3], [1, 2, 3], none, none⟩)).2, _, rfl, rfl, rfl, rfl⟩

/-- C73: `TournamentEA` without a population is eaError; and no `IK_RVEA` can be constructed, whatever the arguments: TypeError. -/
theorem c73_not_constructible {α : Type} (nIter nGen : Nat) (body : Except Err α) :
    (tournConstruct nIter nGen (none : Option (Pop X O F C U))) = .error .eaError ∧
    ikRveaConstruct body = .error .typeError := by
  refine ⟨rfl, ?_⟩
  have : ikRveaGiven.all (fun k => rveaParams.contains k) = false := by decide
  unfold ikRveaConstruct callKeywords
  rw [this]
  rfl

end Verif.Props
