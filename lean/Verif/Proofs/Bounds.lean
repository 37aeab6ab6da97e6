import Verif.Model.Recombination
import Verif.Proofs.MOEAD
import Verif.Proofs.Dominance

/-!
# A property of decision vectors that variation guarantees spreads over a whole run
-/

namespace Verif

variable {X O F C U V S Q R : Type} {m : Nat} {K : Type}

/-- every individual has the property -/
def GoodPop (G : X → Prop) (p : Pop X O F C U) : Prop := ∀ inds, p.individuals = some inds → ∀ x ∈ inds, G x

/-- every individual the EA object holds has the property: population, archive of non-dominated, archive dict -/
structure GoodEA (G : X → Prop) (s : EA X O F C U V S Q) : Prop where
  pop : GoodPop G s.pop
  nd : ∀ a, s.nd = some a → ∀ x ∈ a.individuals, G x
  archive : ∀ e ∈ s.archive, ∀ inds, e.2.individuals = some inds → ∀ x ∈ inds, G x

theorem boolIndex_mem {α : Type} (mask : List Bool) (l r : List α) (h : boolIndex mask l = .ok r) (x : α) (hx : x ∈ r) :
    x ∈ l := by
  unfold boolIndex at h
  split at h
  · injection h with h
    subst h
    exact (compress_sublist mask l).mem hx
  · exact absurd h (by simp)

theorem maskColumns_individuals (p : Pop X O F C U) (mask : List Bool) :
    (p.maskColumns mask).2.individuals = p.individuals := by
  unfold Pop.maskColumns
  split
  · rfl
  · dsimp only
    split
    · rfl
    · split
      · rfl
      · split
        · split
          · rfl
          · split <;> rfl
        · rfl

theorem GoodPop.add {G : X → Prop} {p : Pop X O F C U} (h : GoodPop G p) (off : Batch X)
    (hoff : ∀ x ∈ off.rows, G x) (ev : Except Err (Results O F C U)) : GoodPop G (p.add off ev).2 := by
  have key : ∀ inds', (p.add off ev).2.individuals = some inds' →
      p.individuals = some inds' ∨ inds' = off.rows ∨ ∃ inds, p.individuals = some inds ∧ inds' = inds ++ off.rows := by
    intro inds' hi
    unfold Pop.add at hi
    cases ev with
    | error e => exact .inl hi
    | ok r =>
      dsimp only at hi
      cases hp : p.individuals with
      | none =>
        rw [hp] at hi
        simp only [Option.some.injEq] at hi
        exact .inr (.inl hi.symm)
      | some inds =>
        rw [hp] at hi
        dsimp only at hi
        generalize hI : (if p.ndim = off.ndim + 1 then inds ++ off.rows
            else if p.ndim = off.ndim then inds ++ off.rows else inds) = I at hi
        have e : I = inds' := by
          split at hi
          · rename_i hc
            exact Option.some.inj hi
          · rename_i p2 hc
            have hp2 : p2.individuals = some I := by
              split at hc
              · split at hc
                · exact absurd hc (by simp)
                · injection hc with hc; subst hc; rfl
              · injection hc with hc; subst hc; rfl
            split at hi
            · exact Option.some.inj (hp2.symm.trans hi)
            · split at hi
              · exact Option.some.inj (hp2.symm.trans hi)
              · exact Option.some.inj (hp2.symm.trans hi)
        rw [← e, ← hI]
        split
        · exact .inr (.inr ⟨inds, rfl, rfl⟩)
        · split
          · exact .inr (.inr ⟨inds, rfl, rfl⟩)
          · exact .inl rfl
  intro inds' hi x hx
  rcases key inds' hi with h1 | h1 | ⟨inds, h1, h2⟩
  · exact h _ h1 x hx
  · subst h1; exact hoff x hx
  · subst h2
    rcases List.mem_append.1 hx with h3 | h3
    · exact h _ h1 x h3
    · exact hoff x h3

theorem GoodPop.keep {G : X → Prop} {p : Pop X O F C U} (h : GoodPop G p) (idx : List Int) :
    GoodPop G (p.keep idx).2 := by
  intro inds' hi x hx
  unfold Pop.keep at hi
  split at hi
  · exact h _ hi x hx
  · rename_i inds hp
    split at hi
    · exact h _ hi x hx
    · dsimp only at hi
      split at hi
      · exact h _ hi x hx
      · rename_i inds2 hb
        rw [maskColumns_individuals] at hi
        simp only [Option.some.injEq] at hi
        subst hi
        exact h _ hp x (boolIndex_mem _ _ _ hb x hx)

theorem GoodPop.delete {G : X → Prop} {p : Pop X O F C U} (h : GoodPop G p) (idx : List Int) :
    GoodPop G (p.delete idx).2 := by
  intro inds' hi x hx
  unfold Pop.delete at hi
  split at hi
  · exact h _ hi x hx
  · rename_i inds hp
    split at hi
    · exact h _ hi x hx
    · dsimp only at hi
      split at hi
      · exact h _ hi x hx
      · rename_i inds2 hb
        rw [maskColumns_individuals] at hi
        split at hi
        · exact absurd hi (by simp)
        · simp only [Option.some.injEq] at hi
          subst hi
          exact h _ hp x (boolIndex_mem _ _ _ hb x hx)

theorem mem_setRows {α : Type} (xs : List α) (ks : List Nat) (b x : α) (h : x ∈ setRows xs ks b) : x ∈ xs ∨ x = b := by
  induction ks generalizing xs with
  | nil => exact .inl h
  | cons k ks ih =>
    rcases ih (xs.set k b) h with h1 | h1
    · exact List.mem_or_eq_of_mem_set h1
    · exact .inr h1

theorem replace_individuals (p : Pop X O F C U) (idx : List Int) (x : X) (o : O) (f : F) (c : Option C) (u : Option U) :
    (p.replace idx x o f c u).2.individuals = p.individuals ∨
      ∃ inds ks, p.individuals = some inds ∧ (p.replace idx x o f c u).2.individuals = some (setRows inds ks x) := by
  unfold Pop.replace
  split
  · exact .inl rfl
  · rename_i inds hp
    split
    · exact .inl rfl
    · rename_i ks hk
      right
      refine ⟨inds, ks, hp, ?_⟩
      dsimp only
      split
      · rfl
      · split
        · rfl
        · split
          · rename_i q hq
            split at hq
            · simp at hq
            · split at hq <;> simp at hq
              · rw [← hq.2]
              · rw [← hq.2]
          · rename_i q hq
            have hi : q.individuals = some (setRows inds ks x) := by
              split at hq
              · simp at hq; rw [← hq]
              · split at hq <;> simp at hq
                rw [← hq]
            split
            · exact hi
            · split <;> exact hi

theorem GoodPop.replace {G : X → Prop} {p : Pop X O F C U} (h : GoodPop G p) (idx : List Int) (x : X) (hx : G x) (o : O)
    (f : F) (c : Option C) (u : Option U) : GoodPop G (p.replace idx x o f c u).2 := by
  intro inds' hi y hy
  rcases replace_individuals p idx x o f c u with h1 | ⟨inds, ks, h1, h2⟩
  · rw [h1] at hi; exact h _ hi y hy
  · rw [h2] at hi
    injection hi with hi
    subst hi
    rcases mem_setRows _ _ _ _ hy with h3 | h3
    · exact h _ h1 y h3
    · subst h3; exact hx

theorem archiveUpdate_mem (dom : F → F → Bool) (ar : Option (NDArchive X O F)) (inds : List X) (objs : List O)
    (fits : List F) (nd : NDArchive X O F) (h : archiveUpdate dom ar inds objs fits = .ok nd) (x : X)
    (hx : x ∈ nd.individuals) : x ∈ inds ∨ ∃ a, ar = some a ∧ x ∈ a.individuals := by
  unfold archiveUpdate at h
  cases ar with
  | none => simp at h
  | some a =>
    dsimp only at h
    split at h
    · rename_i i1 i2 o1 o2 f1 f2 h1 h2 h3 h4 h5 h6
      injection h with h
      subst h
      rcases List.mem_append.1 hx with h7 | h7
      · exact .inr ⟨a, rfl, boolIndex_mem _ _ _ h1 x h7⟩
      · exact .inl (boolIndex_mem _ _ _ h2 x h7)
    · exact absurd h (by simp)

theorem GoodEA.popAdd {G : X → Prop} {s : EA X O F C U V S Q} (h : GoodEA G s) (ops : Ops X O F C U V S Q R)
    (off : Batch X) (hoff : ∀ x ∈ off.rows, G x) : GoodEA G (s.popAdd ops off).2 :=
  ⟨h.pop.add off hoff _, h.nd, h.archive⟩

theorem GoodEA.updateND {G : X → Prop} {s : EA X O F C U V S Q} (h : GoodEA G s) (ops : Ops X O F C U V S Q R)
    (rows : List X) (hrows : ∀ x ∈ rows, G x) (res : Results O F C U) : GoodEA G (s.updateND ops rows res).2 := by
  unfold EA.updateND
  split
  · split
    · exact h
    · rename_i nd hn
      refine ⟨h.pop, ?_, h.archive⟩
      intro a ha x hx
      injection ha with ha
      subst ha
      rcases archiveUpdate_mem _ _ _ _ _ _ hn x hx with h1 | ⟨b, h1, h2⟩
      · exact hrows x h1
      · exact h.nd b h1 x h2
  · exact h

theorem GoodEA.nextGen {G : X → Prop} {s : EA X O F C U V S Q} (h : GoodEA G s) (ops : Ops X O F C U V S Q R)
    (hm : ∀ clk p off, ops.mate clk p = .ok off → ∀ x ∈ off.rows, G x) : GoodEA G (EA.nextGen ops s).2 := by
  unfold EA.nextGen
  cases hmate : ops.mate s.clock s.pop with
  | error e => exact ⟨h.pop, h.nd, h.archive⟩
  | ok off =>
    have hoff := hm _ _ _ hmate
    dsimp only
    have h1 : GoodEA G ({ s with clock := s.clock + 1 } : EA X O F C U V S Q) := ⟨h.pop, h.nd, h.archive⟩
    have h2 := h1.popAdd ops off hoff
    generalize hpa : EA.popAdd ops ({ s with clock := s.clock + 1 } : EA X O F C U V S Q) off = pa at h2
    obtain ⟨r, t⟩ := pa
    cases r with
    | error e => exact h2
    | ok res =>
      have h3 : GoodEA G (EA.updateND ops t off.rows res).2 := GoodEA.updateND h2 ops off.rows hoff res
      dsimp only
      split
      · rename_i e u hq
        have hq' : EA.updateND ops t off.rows res = (.error e, u) := hq
        rw [hq'] at h3
        exact h3
      · rename_i r u hq
        have hq' : EA.updateND ops t off.rows res = (.ok r, u) := hq
        rw [hq'] at h3
        obtain ⟨r, v, w⟩ := ops.select u.clock u.vec u.sel u.pop
        cases r with
        | error e => exact ⟨h3.pop, h3.nd, h3.archive⟩
        | ok idx =>
          dsimp only
          have h4 := (show GoodPop G u.pop from h3.pop).keep idx
          generalize u.pop.keep idx = k at h4
          obtain ⟨r, p⟩ := k
          cases r with
          | error e => exact ⟨h4, h3.nd, h3.archive⟩
          | ok _ =>
            dsimp only
            split
            · exact ⟨h4, h3.nd, h3.archive⟩
            · exact ⟨h4, h3.nd, h3.archive⟩

theorem updateND_pop (ops : Ops X O F C U V S Q R) (s : EA X O F C U V S Q) (rows : List X) (res : Results O F C U) :
    (s.updateND ops rows res).2.pop = s.pop := by
  unfold EA.updateND
  split
  · split <;> rfl
  · rfl

/-- Only the population: the offspring of this state have the property. -/
theorem nextGen_goodPop {G : X → Prop} (ops : Ops X O F C U V S Q R) (s : EA X O F C U V S Q) (h : GoodPop G s.pop)
    (hm : ∀ off, ops.mate s.clock s.pop = .ok off → ∀ x ∈ off.rows, G x) : GoodPop G (EA.nextGen ops s).2.pop := by
  unfold EA.nextGen
  cases hmate : ops.mate s.clock s.pop with
  | error e => exact h
  | ok off =>
    have hoff := hm _ hmate
    dsimp only
    have h2 : GoodPop G (EA.popAdd ops ({ s with clock := s.clock + 1 } : EA X O F C U V S Q) off).2.pop := h.add off hoff _
    generalize hpa : EA.popAdd ops ({ s with clock := s.clock + 1 } : EA X O F C U V S Q) off = pa at h2
    obtain ⟨r, t⟩ := pa
    cases r with
    | error e => exact h2
    | ok res =>
      have h3 : GoodPop G (EA.updateND ops t off.rows res).2.pop := by rw [updateND_pop]; exact h2
      dsimp only
      split
      · rename_i e u hq
        have hq' : EA.updateND ops t off.rows res = (.error e, u) := hq
        rw [hq'] at h3
        exact h3
      · rename_i r u hq
        have hq' : EA.updateND ops t off.rows res = (.ok r, u) := hq
        rw [hq'] at h3
        obtain ⟨r, v, w⟩ := ops.select u.clock u.vec u.sel u.pop
        cases r with
        | error e => exact h3
        | ok idx =>
          dsimp only
          have h4 := (show GoodPop G u.pop from h3).keep idx
          generalize u.pop.keep idx = k at h4
          obtain ⟨r, p⟩ := k
          cases r with
          | error e => exact h4
          | ok _ =>
            dsimp only
            split
            · exact h4
            · exact h4

section moead
variable [LT K] [DecidableRel (α := K) (· < ·)] [Zero K] [DecidableEq K]

theorem GoodEA.moeadFinish {G : X → Prop} {s : EA X O F C U (MoeadVec m K) S Q} (h : GoodEA G s)
    (ops : Ops X O F C U (MoeadVec m K) S Q R) (mo : MoeadOps m K X O F C U) (i : Nat) (x : X) (hx : G x)
    (res : Results O F C U) : GoodEA G (moeadFinish ops mo i x res s).2 := by
  unfold Verif.moeadFinish
  split
  · exact h
  · rename_i sel hsel
    have h1 : GoodPop G (replaceWith s.pop sel x res).2 := by
      unfold replaceWith
      split
      · exact h.pop.replace _ _ hx _ _ _ _
      · exact h.pop
    generalize replaceWith s.pop sel x res = r at h1
    obtain ⟨r, p⟩ := r
    cases r with
    | error e => exact ⟨h1, h.nd, h.archive⟩
    | ok _ =>
      dsimp only
      have h2 := h1.delete [-1]
      dsimp only at h2
      generalize p.delete [-1] = r at h2
      obtain ⟨r, p'⟩ := r
      cases r with
      | error e => exact ⟨h2, h.nd, h.archive⟩
      | ok _ =>
        have h3 : GoodEA G ({ s with pop := p' } : EA X O F C U (MoeadVec m K) S Q) := ⟨h2, h.nd, h.archive⟩
        exact h3.updateND ops [x] (by simpa using hx) res

theorem GoodEA.moeadStep {G : X → Prop} {s : EA X O F C U (MoeadVec m K) S Q} (h : GoodEA G s)
    (ops : Ops X O F C U (MoeadVec m K) S Q R) (mo : MoeadOps m K X O F C U) (useRepair : Bool)
    (hm : ∀ clk p a b off, mo.mate clk p a b = .ok off → ∀ x ∈ off, G (if useRepair then mo.repair x else x)) (i : Nat) :
    GoodEA G (moeadStep ops mo useRepair i s).2 := by
  unfold Verif.moeadStep
  split
  · exact h
  · rename_i a b hab
    dsimp only
    split
    · exact ⟨h.pop, h.nd, h.archive⟩
    · exact ⟨h.pop, h.nd, h.archive⟩
    · rename_i x xs hx
      have hG := hm _ _ _ _ _ hx x (by simp)
      generalize (if useRepair then mo.repair x else x) = y at hG
      have h1 : GoodEA G (moeadEvaluate ops y ({ s with clock := s.clock + 1 + 1 } : EA X O F C U (MoeadVec m K) S Q)).2 := by
        unfold moeadEvaluate
        have h2 : GoodEA G ({ s with clock := s.clock + 1 + 1 } : EA X O F C U (MoeadVec m K) S Q) :=
          ⟨h.pop, h.nd, h.archive⟩
        have h3 := h2.popAdd ops ⟨s.pop.ndim - 1, [y]⟩ (by simpa using hG)
        dsimp only
        generalize EA.popAdd ops _ _ = r at h3
        obtain ⟨r, t⟩ := r
        cases r with
        | error e => exact h3
        | ok _ =>
          dsimp only
          split
          · exact h3
          · exact ⟨h3.pop, h3.nd, h3.archive⟩
      generalize moeadEvaluate ops y _ = r at h1
      obtain ⟨r, t⟩ := r
      cases r with
      | error e => exact h1
      | ok res => exact GoodEA.moeadFinish h1 ops mo i y hG res

theorem GoodEA.moeadNextGen {G : X → Prop} {s : EA X O F C U (MoeadVec m K) S Q} (h : GoodEA G s)
    (ops : Ops X O F C U (MoeadVec m K) S Q R) (mo : MoeadOps m K X O F C U) (useRepair : Bool)
    (hm : ∀ clk p a b off, mo.mate clk p a b = .ok off → ∀ x ∈ off, G (if useRepair then mo.repair x else x))
    (popSize : Nat) : GoodEA G (moeadNextGen ops mo useRepair popSize s).2 := by
  have key : ∀ is (s : EA X O F C U (MoeadVec m K) S Q), GoodEA G s → GoodEA G (moeadSteps ops mo useRepair is s).2 := by
    intro is
    induction is with
    | nil => exact fun s h => h
    | cons i is ih =>
      intro s h
      unfold moeadSteps
      have h1 := h.moeadStep ops mo useRepair hm i
      generalize Verif.moeadStep ops mo useRepair i s = r at h1
      obtain ⟨r, t⟩ := r
      cases r with
      | error e => exact h1
      | ok _ => exact ih t h1
  unfold Verif.moeadNextGen
  have h1 := key (List.range popSize) s h
  generalize moeadSteps ops mo useRepair (List.range popSize) s = r at h1
  obtain ⟨r, t⟩ := r
  cases r with
  | error e => exact h1
  | ok _ => exact ⟨h1.pop, h1.nd, h1.archive⟩

end moead

theorem mem_dictSet {α : Type} (d : List (Nat × α)) (k : Nat) (v : α) (e : Nat × α) (h : e ∈ dictSet d k v) :
    e ∈ d ∨ e = (k, v) := by
  unfold dictSet at h
  split at h
  · obtain ⟨p, hp, rfl⟩ := List.mem_map.1 h
    split
    · exact .inr rfl
    · exact .inl hp
  · rcases List.mem_append.1 h with h1 | h1
    · exact .inl h1
    · exact .inr (by simpa using h1)

theorem GoodEA.record {G : X → Prop} {s : EA X O F C U V S Q} (h : GoodEA G s) : GoodEA G s.record := by
  unfold EA.record
  split
  · refine ⟨h.pop, h.nd, ?_⟩
    intro e he inds hi x hx
    rcases mem_dictSet _ _ _ _ he with h1 | h1
    · exact h.archive e h1 inds hi x hx
    · subst h1
      exact h.pop inds hi x hx
  · exact h

theorem GoodEA.preIteration {G : X → Prop} {s : EA X O F C U V S Q} (h : GoodEA G s) (ops : Ops X O F C U V S Q R) :
    GoodEA G (s.preIteration ops) := by
  have h1 := h.record
  simp only [EA.preIteration]
  generalize s.record = t at h1
  split <;> split <;> exact ⟨h1.pop, h1.nd, h1.archive⟩

theorem GoodEA.requestPreferences {G : X → Prop} {s : EA X O F C U V S Q} (h : GoodEA G s)
    (ops : Ops X O F C U V S Q R) : GoodEA G (s.requestPreferences ops).2 := by
  unfold EA.requestPreferences
  split
  · exact h
  · split
    · exact h
    · exact h
    · split
      · exact h
      · dsimp only
        split <;> exact ⟨h.pop, h.nd, h.archive⟩

theorem GoodEA.managePreferences {G : X → Prop} {s : EA X O F C U V S Q} (h : GoodEA G s)
    (ops : Ops X O F C U V S Q R) (pref : Option (Pref R)) : GoodEA G (s.managePreferences ops pref).2 := by
  unfold EA.managePreferences
  split
  · exact h
  · unfold EA.selManage
    split
    · exact ⟨h.pop, h.nd, h.archive⟩
    · split
      · exact h
      · split
        · exact h
        · split
          · exact h
          · exact ⟨h.pop, h.nd, h.archive⟩
  · split
    · exact ⟨h.pop, h.nd, h.archive⟩
    · exact ⟨h.pop, h.nd, h.archive⟩

variable {body : EA X O F C U V S Q → EARes Unit X O F C U V S Q}

theorem GoodEA.loop {G : X → Prop} (hb : ∀ s, GoodEA G s → GoodEA G (body s).2) (fuel : Nat) :
    ∀ s : EA X O F C U V S Q, GoodEA G s → GoodEA G (EA.loop body fuel s).2 := by
  induction fuel with
  | zero => exact fun s h => h
  | succ fuel ih =>
    intro s h
    unfold EA.loop
    split
    · have h1 := hb s h
      generalize body s = r at h1
      obtain ⟨r, t⟩ := r
      cases r with
      | error e => exact h1
      | ok _ => exact ih t h1
    · exact h

theorem GoodEA.iterateWith {G : X → Prop} {s : EA X O F C U V S Q} (h : GoodEA G s) (ops : Ops X O F C U V S Q R)
    (hb : ∀ s, GoodEA G s → GoodEA G (body s).2) (pref : Option (Pref R)) : GoodEA G (s.iterateWith ops body pref).2 := by
  unfold EA.iterateWith
  have h1 := h.managePreferences ops pref
  generalize s.managePreferences ops pref = r at h1
  obtain ⟨r, t⟩ := r
  cases r with
  | error e => exact h1
  | ok _ =>
    dsimp only
    have h2 := h1.preIteration ops
    dsimp only at h2
    generalize t.preIteration ops = u at h2
    have h3 := GoodEA.loop hb u.cfg.nGen ({ u with genIter := 0 }) ⟨h2.pop, h2.nd, h2.archive⟩
    generalize EA.loop body u.cfg.nGen { u with genIter := 0 } = r at h3
    obtain ⟨r, v⟩ := r
    cases r with
    | error e => exact h3
    | ok _ =>
      have h4 : GoodEA G ({ v with iter := v.iter + 1 } : EA X O F C U V S Q) := ⟨h3.pop, h3.nd, h3.archive⟩
      exact h4.requestPreferences ops

theorem GoodEA.start {G : X → Prop} {s : EA X O F C U V S Q} (h : GoodEA G s) (ops : Ops X O F C U V S Q R) :
    GoodEA G (s.start ops).2 := by
  unfold EA.start
  split
  · exact h
  · dsimp only
    split
    · rename_i hq
      split at hq
      · split at hq
        · simp only [Prod.mk.injEq] at hq; rw [← hq.2]; exact h
        · split at hq
          · simp only [Prod.mk.injEq] at hq; rw [← hq.2]; exact h
          · simp at hq
      · simp at hq
    · rename_i t hq
      apply GoodEA.requestPreferences
      split at hq
      · split at hq
        · simp at hq
        · rename_i inds hi
          split at hq
          · simp at hq
          · rename_i nd hn
            simp only [Prod.mk.injEq] at hq
            rw [← hq.2]
            refine ⟨h.pop, ?_, h.archive⟩
            intro a ha x hx
            injection ha with ha
            subst ha
            unfold startArchive at hn
            dsimp only at hn
            split at hn
            · rename_i i o f h1 h2 h3
              injection hn with hn
              subst hn
              exact h.pop inds hi x (boolIndex_mem _ _ _ h1 x hx)
            · exact absurd hn (by simp)
      · simp only [Prod.mk.injEq] at hq; rw [← hq.2]; exact h

theorem GoodEA.setType {G : X → Prop} {s : EA X O F C U V S Q} (h : GoodEA G s) (arg : Option String) :
    GoodEA G (s.setInteractionType arg).2 := by
  unfold EA.setInteractionType
  split
  · exact h
  · exact ⟨h.pop, h.nd, h.archive⟩
  · dsimp only
    split
    · exact ⟨h.pop, h.nd, h.archive⟩
    · split <;> exact ⟨h.pop, h.nd, h.archive⟩

theorem GoodEA.readAllowable {G : X → Prop} {s : EA X O F C U V S Q} (h : GoodEA G s) : GoodEA G s.readAllowable.2 := by
  unfold EA.readAllowable
  split
  · exact h
  · have h1 := h.setType none
    generalize s.setInteractionType none = r at h1
    obtain ⟨r, t⟩ := r
    cases r with
    | error e => exact h1
    | ok _ => exact ⟨h1.pop, h1.nd, h1.archive⟩

theorem GoodEA.callsWith {G : X → Prop} (ops : Ops X O F C U V S Q R)
    (hb : ∀ s, GoodEA G s → GoodEA G (body s).2) (cs : List (Call R)) :
    ∀ s : EA X O F C U V S Q, GoodEA G s → GoodEA G (s.callsWith ops body cs) := by
  induction cs with
  | nil => exact fun s h => h
  | cons c cs ih =>
    intro s h
    cases c with
    | start => exact ih _ (h.start ops)
    | setType a => exact ih _ (h.setType a)
    | readAllowable => exact ih _ h.readAllowable
    | iterate p => exact ih _ (h.iterateWith ops hb p)

/-- The two descriptions of a history agree for the EAs using the base `_next_gen`. -/
theorem calls_eq_callsWith (ops : Ops X O F C U V S Q R) (cs : List (Call R)) :
    ∀ s : EA X O F C U V S Q, s.calls ops cs = s.callsWith ops (EA.nextGen ops) cs := by
  induction cs with
  | nil => exact fun s => rfl
  | cons c cs ih =>
    intro s
    cases c with
    | start => exact ih _
    | setType a =>
      show EA.calls ops (s.call ops (.setType a)).2 cs = _
      rw [ih]
      have : (s.call ops (.setType a)).2 = (s.setInteractionType a).2 := by
        unfold EA.call
        dsimp only
        split <;> simp_all
      rw [this]; rfl
    | readAllowable =>
      show EA.calls ops (s.call ops .readAllowable).2 cs = _
      rw [ih]
      have : (s.call ops .readAllowable).2 = s.readAllowable.2 := by
        unfold EA.call
        dsimp only
        split <;> simp_all
      rw [this]; rfl
    | iterate p => exact ih _

/-! ## The other evaluator -/

/-- the same EA with another `problem.evaluate` -/
def Ops.withEval (ops : Ops X O F C U V S Q R) (ev : Nat → Bool → Batch X → Except Err (Results O F C U)) :
    Ops X O F C U V S Q R := { ops with evaluate := ev }

theorem nextGen_withEval {G : X → Prop} (ops : Ops X O F C U V S Q R)
    (ev : Nat → Bool → Batch X → Except Err (Results O F C U))
    (hm : ∀ clk p off, ops.mate clk p = .ok off → ∀ x ∈ off.rows, G x)
    (hev : ∀ clk surr b, (∀ x ∈ b.rows, G x) → ev clk surr b = ops.evaluate clk surr b) (s : EA X O F C U V S Q) :
    EA.nextGen (ops.withEval ev) s = EA.nextGen ops s := by
  unfold EA.nextGen
  show (match ops.mate s.clock s.pop with | .error e => _ | .ok off => _) = _
  cases hmate : ops.mate s.clock s.pop with
  | error e => rfl
  | ok off =>
    have e : EA.popAdd (ops.withEval ev) ({ s with clock := s.clock + 1 } : EA X O F C U V S Q) off =
        EA.popAdd ops ({ s with clock := s.clock + 1 } : EA X O F C U V S Q) off := by
      unfold EA.popAdd
      dsimp only [Ops.withEval]
      rw [hev _ _ _ (hm _ _ _ hmate)]
    dsimp only
    rw [e]
    rfl

theorem callsWith_withEval (ops : Ops X O F C U V S Q R) (ev : Nat → Bool → Batch X → Except Err (Results O F C U))
    (body body' : EA X O F C U V S Q → EARes Unit X O F C U V S Q) (hb : ∀ s, body' s = body s) (cs : List (Call R)) :
    ∀ s : EA X O F C U V S Q, s.callsWith (ops.withEval ev) body' cs = s.callsWith ops body cs := by
  have : body' = body := funext hb
  subst this
  induction cs with
  | nil => exact fun s => rfl
  | cons c cs ih =>
    intro s
    cases c <;> exact ih _

section moead
variable [LT K] [DecidableRel (α := K) (· < ·)] [Zero K] [DecidableEq K]

theorem moeadNextGen_withEval {G : X → Prop} (ops : Ops X O F C U (MoeadVec m K) S Q R)
    (mo : MoeadOps m K X O F C U) (useRepair : Bool) (ev : Nat → Bool → Batch X → Except Err (Results O F C U))
    (hm : ∀ clk p a b off, mo.mate clk p a b = .ok off → ∀ x ∈ off, G (if useRepair then mo.repair x else x))
    (hev : ∀ clk surr b, (∀ x ∈ b.rows, G x) → ev clk surr b = ops.evaluate clk surr b) (popSize : Nat)
    (s : EA X O F C U (MoeadVec m K) S Q) :
    moeadNextGen (ops.withEval ev) mo useRepair popSize s = moeadNextGen ops mo useRepair popSize s := by
  have step : ∀ i (s : EA X O F C U (MoeadVec m K) S Q),
      moeadStep (ops.withEval ev) mo useRepair i s = moeadStep ops mo useRepair i s := by
    intro i s
    unfold moeadStep
    split
    · rfl
    · dsimp only
      split
      · rfl
      · rfl
      · rename_i x xs hx
        have hG := hm _ _ _ _ _ hx x (by simp)
        have e : ∀ t : EA X O F C U (MoeadVec m K) S Q,
            moeadEvaluate (ops.withEval ev) (if useRepair then mo.repair x else x) t =
            moeadEvaluate ops (if useRepair then mo.repair x else x) t := by
          intro t
          unfold moeadEvaluate EA.popAdd
          dsimp only [Ops.withEval]
          rw [hev _ _ _ (by simpa using hG)]
        rw [e]
        rfl
  have steps : ∀ is (s : EA X O F C U (MoeadVec m K) S Q),
      moeadSteps (ops.withEval ev) mo useRepair is s = moeadSteps ops mo useRepair is s := by
    intro is
    induction is with
    | nil => exact fun s => rfl
    | cons i is ih =>
      intro s
      unfold moeadSteps
      rw [step]
      split
      · rfl
      · exact ih _
  unfold moeadNextGen
  rw [steps]

end moead

end Verif
