import Verif.Proofs.EA

/-!
# Properties C10, C11, C12, C18: the iteration loop, the evaluation budget and counter, the archive

The theorems are stated for any generation body that counts as `CountsGeneration` says;
`nextGen_counts` shows that `BaseDecompositionEA._next_gen` does (RVEA, NSGA-III), and
`Props/MOEAD.lean` shows it for MOEA/D.
-/

namespace Verif.Props
open Verif Spec

variable {X O F C U V S Q R : Type}
variable {body : EA X O F C U V S Q → EARes Unit X O F C U V S Q} {rows : EA X O F C U V S Q → Nat}

/-! ## A small concrete EA for non-vacuity -/

/-- Keeps the two newest individuals; the offspring are the successors of the individuals. -/
def demoEA : Ops Nat Nat Nat Nat Nat Nat Nat Nat Nat where
  adapt v f := v + f.length
  respond _ _ v _ r := if r = 0 then (.error .indexError, v) else (.ok (), v + r)
  mate _ p := .ok ⟨2, (p.individuals.getD []).map (· + 1)⟩
  evaluate _ _ b := .ok ⟨b.rows, b.rows, none, none⟩
  select _ v t _ := (.ok [-1, -2], v, t)
  newId n := n
  probManage q _ _ := (.ok (), q)
  probReeval q o := (o, q)
  dom a b := decide (a < b)
  nonDom l := l.map (fun x => l.all (fun y => !decide (y < x)))

/-- A demo EA built from a problem: `total` evaluations, 3 generations per iteration, 2 iterations. -/
def demoState (interact useSurr : Bool) (total : Nat) : Except Err (EA Nat Nat Nat Nat Nat Nat Nat Nat) :=
  construct demoEA (fun _ n => .ok ⟨2, List.range n⟩) id id 0 interact useSurr true false 2 3 total
    (some (.mo, 2, 0)) none (some 2) none

/-! ## C10 -/

/-- C10. Without an evaluation budget a successful `iterate` consists of exactly `n_gen_per_iter`
complete generations and the counters say so. -/
theorem c10_iterate_runs_exactly_n_gen (hb : CountsGeneration body rows) (ops : Ops X O F C U V S Q R)
    (s t : EA X O F C U V S Q) (pref : Option (Pref R)) (r : Option Request) (h0 : s.cfg.total = 0)
    (h : s.iterateWith ops body pref = (.ok r, t)) :
    (∃ u, Gens body (fun _ => True) s.cfg.nGen (iterStart ops s pref) u ∧ t.pop = u.pop) ∧
    t.gen = s.gen + s.cfg.nGen ∧ t.genIter = s.cfg.nGen ∧ t.iter = s.iter + 1 ∧ t.cfg = s.cfg := by
  obtain ⟨k, u, hk, hc, hu, -, hp, -, hgi, -⟩ := iterateWith_ok hb ops s t pref r h
  obtain ⟨f1, f2, -, -⟩ := iterStart_frame ops s pref
  obtain ⟨g1, g2, g3, g4, -⟩ := gens_counters hb hk
  have hcfg : u.cfg = s.cfg := g1.trans f1.cfg
  -- the loop went on while `genIter < nGen`
  have hge : s.cfg.nGen ≤ k := by
    simp only [EA.continueIteration, EA.checkFE, hcfg, h0, if_true, Bool.and_true, decide_eq_false_iff_not] at hc
    omega
  have hle : k ≤ s.cfg.nGen := by
    clear hge g2 g3 hp hu hgi h
    have key : ∀ {k : Nat} {a b : EA X O F C U V S Q},
        Gens body (fun s => s.continueIteration = true) k a b → 0 < k → a.genIter + k ≤ a.cfg.nGen := by
      intro k a b hg
      induction hg with
      | zero => intro h; omega
      | @succ k s t u hc hbs hg ih =>
        intro _
        obtain ⟨h1, -, -, h4, -⟩ := hb.ok _ _ hbs
        have hlt : s.genIter < s.cfg.nGen := by
          simp only [EA.continueIteration, Bool.and_eq_true, decide_eq_true_eq] at hc; exact hc.1
        rcases Nat.eq_zero_or_pos k with rfl | hk
        · omega
        · have := ih hk
          rw [h1, h4] at this; omega
    rcases Nat.eq_zero_or_pos k with rfl | hk0
    · omega
    · have := key hk hk0
      rw [f2, f1.cfg] at this; omega
  have hk' : k = s.cfg.nGen := by omega
  subst hk'
  refine ⟨⟨u, gens_mono (fun _ _ => trivial) hk, hp⟩, ?_, ?_, ?_, ?_⟩
  · rw [hu.gen]; show u.gen = _; rw [g3, f1.gen]
  · rw [hgi, g4, f2]; omega
  · rw [hu.iter]; show u.iter + 1 = _; rw [g2, f1.iter]
  · rw [hu.cfg]; exact hcfg

/-- C10 for the driver loop `while continue_evolution(): iterate(...)`: it performs exactly the remaining
iterations and generations and then stops.  `fuel` is no restriction: any fuel of at least the remaining
number of iterations gives the same, and the loop has really ended (`continue_evolution()` is False). -/
theorem c10_driver_runs_all_iterations (hb : CountsGeneration body rows) (ops : Ops X O F C U V S Q R)
    (prefs : Nat → Option (Pref R)) (fuel : Nat) (s t : EA X O F C U V S Q) (h0 : s.cfg.total = 0)
    (hf : s.cfg.nIter - s.iter ≤ fuel) (h : EA.drive ops body prefs fuel s = (.ok (), t)) :
    t.iter = max s.iter s.cfg.nIter ∧ t.gen = s.gen + (s.cfg.nIter - s.iter) * s.cfg.nGen ∧
      t.continueEvolution = false := by
  induction fuel generalizing s with
  | zero =>
    simp only [EA.drive, Prod.mk.injEq, true_and] at h
    subst h
    have : s.cfg.nIter - s.iter = 0 := by omega
    simp only [this, Nat.zero_mul, Nat.add_zero, true_and, EA.continueEvolution]
    refine ⟨by omega, ?_⟩
    simp; omega
  | succ n ih =>
    simp only [EA.drive] at h
    have hfe : s.checkFE = true := by simp [EA.checkFE, h0]
    split at h
    · rename_i hc
      simp only [EA.continueEvolution, hfe, Bool.and_true, decide_eq_true_eq] at hc
      cases hi : s.iterateWith ops body (prefs s.iter) with
      | mk r u =>
        rw [hi] at h
        cases r with
        | error e => simp at h
        | ok x =>
          simp only at h
          obtain ⟨-, hg, -, hit, hcfg⟩ := c10_iterate_runs_exactly_n_gen hb ops s u _ _ h0 hi
          obtain ⟨h1, h2, h3⟩ := ih u (by rw [hcfg]; exact h0) (by rw [hcfg, hit]; omega) h
          refine ⟨?_, ?_, h3⟩
          · rw [h1, hcfg, hit]; omega
          · rw [h2, hcfg, hit, hg]
            obtain ⟨d, hd⟩ : ∃ d, s.cfg.nIter - s.iter = d + 1 := ⟨s.cfg.nIter - s.iter - 1, by omega⟩
            have : s.cfg.nIter - (s.iter + 1) = d := by omega
            rw [hd, this, Nat.add_mul]; omega
    · rename_i hc
      simp only [Prod.mk.injEq, true_and] at h
      subst h
      have hc' := hc
      simp only [EA.continueEvolution, hfe, Bool.and_true, decide_eq_true_eq] at hc
      have : s.cfg.nIter - s.iter = 0 := by omega
      simp only [this, Nat.zero_mul, Nat.add_zero, true_and]
      exact ⟨by omega, by simpa using hc'⟩

/-- C10 for RVEA and NSGA-III from construction: `n_iterations` iterations and
`n_iterations * n_gen_per_iter` generations in all. -/
theorem c10_full_run (ops : Ops X O F C U V S Q R) (prefs : Nat → Option (Pref R)) (s t : EA X O F C U V S Q)
    (h0 : s.cfg.total = 0) (hi : s.iter = 0) (hg : s.gen = 0)
    (h : EA.drive ops (EA.nextGen ops) prefs s.cfg.nIter s = (.ok (), t)) :
    t.iter = s.cfg.nIter ∧ t.gen = s.cfg.nIter * s.cfg.nGen ∧ t.continueEvolution = false := by
  obtain ⟨h1, h2, h3⟩ := c10_driver_runs_all_iterations (nextGen_counts ops) ops prefs s.cfg.nIter s t h0 (by omega) h
  rw [hi] at h1 h2
  rw [hg] at h2
  exact ⟨by omega, by simpa using h2, h3⟩

example : (demoState false false 0).toOption.isSome = true ∧
    ∀ s, demoState false false 0 = .ok s →
      s.cfg.total = 0 ∧ s.iter = 0 ∧ s.gen = 0 ∧
      ∃ t, EA.drive demoEA (EA.nextGen demoEA) (fun _ => none) 2 s = (.ok (), t) ∧ t.gen = 6 ∧
        t.pop.individuals = some [6, 7] := by
  refine ⟨by decide, ?_⟩
  intro s hs
  simp [demoState, construct, choosePopSize, EA.popAdd, demoEA, Pop.add, Pop.new] at hs
  subst hs
  exact ⟨rfl, rfl, rfl, _, rfl, by decide, by decide⟩

/-! ## C11 -/

/-- C11. With a budget `L > 0`: every generation of an iteration was started with at most `L` counted
evaluations; the iteration ends only because its generations are done or the budget is exceeded; and
either no generation ran, or the last one started at some `a` within budget and the final count is at
most `L` plus that generation's offspring. -/
theorem c11_iterate_respects_budget (hb : CountsGeneration body rows) (ops : Ops X O F C U V S Q R)
    (s t : EA X O F C U V S Q) (pref : Option (Pref R)) (r : Option Request) (L : Nat)
    (hL : s.cfg.total = L) (hpos : 0 < L) (h : s.iterateWith ops body pref = (.ok r, t)) :
    ∃ k u, Gens body (fun a => a.fe ≤ L ∧ a.genIter < s.cfg.nGen) k (iterStart ops s pref) u ∧ t.pop = u.pop ∧
      t.gen = s.gen + k ∧ t.fe = u.fe ∧
      (t.genIter = s.cfg.nGen ∨ L < t.fe) ∧
      ((k = 0 ∧ t.fe = s.fe) ∨ ∃ k' a, k = k' + 1 ∧
        Gens body (fun a => a.fe ≤ L ∧ a.genIter < s.cfg.nGen) k' (iterStart ops s pref) a ∧
        body a = (.ok (), u) ∧ a.fe ≤ L ∧ t.fe ≤ L + rows a) := by
  obtain ⟨k, u, hk, hc, hu, -, hp, -, hgi, -⟩ := iterateWith_ok hb ops s t pref r h
  obtain ⟨f1, f2, -, -⟩ := iterStart_frame ops s pref
  obtain ⟨g1, g2, g3, g4, -⟩ := gens_counters hb hk
  have hcfg : u.cfg = s.cfg := g1.trans f1.cfg
  -- strengthen the condition of the chain
  have key : ∀ {k : Nat} {a b : EA X O F C U V S Q},
      Gens body (fun s => s.continueIteration = true) k a b → a.cfg = s.cfg →
      Gens body (fun a => a.fe ≤ L ∧ a.genIter < s.cfg.nGen) k a b ∧
        (a.genIter ≤ s.cfg.nGen → b.genIter ≤ s.cfg.nGen) := by
    intro k a b hg
    induction hg with
    | zero => intro _; exact ⟨.zero _, fun h => h⟩
    | @succ k a c d hc hbs hg ih =>
      intro ha
      obtain ⟨h1, -, -, h4, h5, -, -⟩ := hb.ok _ _ hbs
      obtain ⟨i1, i3⟩ := ih (h1.trans ha)
      simp only [EA.continueIteration, EA.checkFE, ha, hL, Nat.pos_iff_ne_zero.1 hpos, if_false,
        Bool.and_eq_true, decide_eq_true_eq] at hc
      refine ⟨.succ ⟨hc.2, hc.1⟩ hbs i1, ?_⟩
      intro _; exact i3 (by omega)
  -- the last generation
  have last : ∀ {k : Nat} {a b : EA X O F C U V S Q},
      Gens body (fun a => a.fe ≤ L ∧ a.genIter < s.cfg.nGen) k a b →
      (k = 0 ∧ b = a) ∨ ∃ k' c, k = k' + 1 ∧
        Gens body (fun a => a.fe ≤ L ∧ a.genIter < s.cfg.nGen) k' a c ∧ body c = (.ok (), b) ∧ c.fe ≤ L ∧
          b.fe ≤ L + rows c := by
    intro k a b hg
    induction hg with
    | zero => exact Or.inl ⟨rfl, rfl⟩
    | @succ k a c d hc hbs hg ih =>
      right
      rcases ih with ⟨rfl, rfl⟩ | ⟨k', e, rfl, he, hb1, hb2⟩
      · refine ⟨0, a, rfl, .zero _, hbs, hc.1, ?_⟩
        have := (hb.ok _ _ hbs).2.2.2.2.1
        rw [this]; split <;> omega
      · exact ⟨k' + 1, e, rfl, .succ hc hbs he, hb1, hb2⟩
  obtain ⟨k1, k3⟩ := key hk f1.cfg
  have hfe : t.fe = u.fe := hu.fe
  refine ⟨k, u, k1, hp, ?_, hfe, ?_, ?_⟩
  · rw [hu.gen]; show u.gen = _; rw [g3, f1.gen]
  · rw [hgi, hfe]
    have hle := k3 (by rw [f2]; omega)
    simp only [EA.continueIteration, EA.checkFE, hcfg, hL, Nat.pos_iff_ne_zero.1 hpos, if_false,
      Bool.and_eq_false_iff, decide_eq_false_iff_not] at hc
    omega
  · rw [hfe]
    rcases last k1 with ⟨h0, h1⟩ | h1
    · exact Or.inl ⟨h0, by rw [h1]; exact f1.fe⟩
    · exact Or.inr h1

/-- The states a driver run from `s` passes through: starts of iterations, complete generations, ends
of iterations. -/
inductive Passes (ops : Ops X O F C U V S Q R) (body : EA X O F C U V S Q → EARes Unit X O F C U V S Q) :
    EA X O F C U V S Q → EA X O F C U V S Q → Prop
  | refl (s) : Passes ops body s s
  | start {s a} (pref) : Passes ops body s a → Passes ops body s (iterStart ops a pref)
  | gen {s a b} : Passes ops body s a → body a = (.ok (), b) → Passes ops body s b
  | done {s a} : Passes ops body s a →
      Passes ops body s (({ a with iter := a.iter + 1 } : EA X O F C U V S Q).requestPreferences ops).2

theorem Passes.trans {ops : Ops X O F C U V S Q R} {s t u : EA X O F C U V S Q}
    (h1 : Passes ops body s t) (h2 : Passes ops body t u) : Passes ops body s u := by
  induction h2 with
  | refl => exact h1
  | start pref _ ih => exact .start pref ih
  | gen _ hb ih => exact .gen ih hb
  | done _ ih => exact .done ih

theorem Passes.gens {ops : Ops X O F C U V S Q R} {cond : EA X O F C U V S Q → Prop} {k : Nat}
    {s a b : EA X O F C U V S Q} (h1 : Passes ops body s a) (h2 : Gens body cond k a b) : Passes ops body s b := by
  induction h2 with
  | zero => exact h1
  | succ _ hb _ ih => exact ih (.gen h1 hb)

/-- C11 for the driver loop: the whole run counts at most `L` (or what it started with) plus the offspring
of one generation, and does not stop while iterations and budget remain. -/
theorem c11_driver_respects_budget (hb : CountsGeneration body rows) (ops : Ops X O F C U V S Q R)
    (prefs : Nat → Option (Pref R)) (fuel : Nat) (s t : EA X O F C U V S Q) (L : Nat)
    (hL : s.cfg.total = L) (hpos : 0 < L)
    (hf : s.cfg.nIter - s.iter ≤ fuel) (h : EA.drive ops body prefs fuel s = (.ok (), t)) :
    (t.fe ≤ max s.fe L ∨ ∃ a, Passes ops body s a ∧ a.fe ≤ L ∧ (∃ b, body a = (.ok (), b)) ∧ t.fe ≤ L + rows a) ∧
    (s.cfg.nIter ≤ t.iter ∨ L < t.fe) := by
  induction fuel generalizing s with
  | zero =>
    simp only [EA.drive, Prod.mk.injEq, true_and] at h
    subst h
    exact ⟨Or.inl (by omega), by omega⟩
  | succ m ih =>
    simp only [EA.drive] at h
    split at h
    · rename_i hc
      cases hi : s.iterateWith ops body (prefs s.iter) with
      | mk r u =>
        rw [hi] at h
        cases r with
        | error e => simp at h
        | ok x =>
          simp only at h
          obtain ⟨k, w, hk, -, hu, -, -, -, -, -, -, hreq⟩ := iterateWith_ok hb ops s u _ _ hi
          obtain ⟨f1, -⟩ := iterStart_frame ops s (prefs s.iter)
          obtain ⟨g1, g2, -⟩ := gens_counters hb hk
          have hiter : u.iter = s.iter + 1 := by rw [hu.iter]; show w.iter + 1 = _; rw [g2, f1.iter]
          have hcfg : u.cfg = s.cfg := by rw [hu.cfg]; exact g1.trans f1.cfg
          have hpass : Passes ops body s u := by
            have := Passes.done (Passes.gens (Passes.start (prefs s.iter) (.refl s)) hk)
            rw [hreq] at this
            exact this
          obtain ⟨k2, w2, -, -, -, -, -, hlast⟩ := c11_iterate_respects_budget hb ops s u _ _ L hL hpos hi
          obtain ⟨h1, h2⟩ := ih u (by rw [hcfg]; exact hL) (by rw [hcfg, hiter]; omega) h
          rw [hcfg] at h2
          refine ⟨?_, h2⟩
          rcases h1 with h1 | ⟨a, ha, h1⟩
          · rcases hlast with ⟨-, h3⟩ | ⟨k', a, -, hga, hba, hal, hle⟩
            · left; omega
            · by_cases hul : u.fe ≤ L
              · left; omega
              · right
                exact ⟨a, Passes.gens (Passes.start (prefs s.iter) (.refl s)) hga, hal, ⟨_, hba⟩, by omega⟩
          · exact Or.inr ⟨a, hpass.trans ha, h1⟩
    · rename_i hc
      simp only [Prod.mk.injEq, true_and] at h
      subst h
      refine ⟨Or.inl (by omega), ?_⟩
      simp only [EA.continueEvolution, EA.checkFE, hL, Nat.pos_iff_ne_zero.1 hpos, if_false,
        Bool.and_eq_true, decide_eq_true_eq, not_and] at hc
      omega

/-- C11: the documented "upper limit to the total number of function evaluations" is not one: a run
with limit 3 performs 4 evaluations (and the test is `<=`, so a generation starts even when the limit has
been reached exactly). -/
theorem c11_limit_can_be_exceeded :
    ∃ (s t : EA Nat Nat Nat Nat Nat Nat Nat Nat), demoState false false 3 = .ok s ∧ s.cfg.total = 3 ∧ s.fe ≤ 3 ∧
      EA.drive demoEA (EA.nextGen demoEA) (fun _ => none) 2 s = (.ok (), t) ∧ 3 < t.trueEvals := by
  refine ⟨_, _, rfl, rfl, by decide, rfl, by decide⟩

example : ∃ (s t : EA Nat Nat Nat Nat Nat Nat Nat Nat), demoState false false 4 = .ok s ∧
    EA.drive demoEA (EA.nextGen demoEA) (fun _ => none) 2 s = (.ok (), t) ∧ t.trueEvals = 6 ∧ t.fe = 6 :=
  ⟨_, _, rfl, rfl, by decide, by decide⟩

/-! ## C12 -/

/-- The counter accounts for the evaluations made since construction: `base` is its head start. -/
def CounterTrue (base : Int) (s : EA X O F C U V S Q) : Prop := (s.fe : Int) = s.trueEvals + base

/-- C12, one successful `iterate`: counter and true evaluations advance together, for any number of
generations; with surrogates neither moves. -/
theorem c12_iterate_counts_evaluations (hb : CountsGeneration body rows) (ops : Ops X O F C U V S Q R)
    (s t : EA X O F C U V S Q) (pref : Option (Pref R)) (r : Option Request)
    (h : s.iterateWith ops body pref = (.ok r, t)) :
    (∀ base, CounterTrue base s → CounterTrue base t) ∧ s.trueEvals ≤ t.trueEvals ∧
      (s.cfg.useSurr = true → t.fe = s.fe ∧ t.trueEvals = s.trueEvals) := by
  obtain ⟨k, u, hk, -, hu, -⟩ := iterateWith_ok hb ops s t pref r h
  obtain ⟨f1, -⟩ := iterStart_frame ops s pref
  obtain ⟨e1, e2, e3⟩ := gens_evals hb hk
  have hfe : t.fe = u.fe := hu.fe
  have hev : t.trueEvals = u.trueEvals := hu.evals
  rw [f1.fe, f1.evals] at e1
  rw [f1.fe] at e2
  refine ⟨?_, by omega, ?_⟩
  · intro base hs
    unfold CounterTrue at *
    omega
  · intro hs
    have := e3 (by rw [f1.cfg]; exact hs)
    rw [f1.fe, f1.evals] at this
    exact ⟨hfe.trans this.1, hev.trans this.2⟩

/-- Right after construction from a problem: without surrogates the counter is the number of vectors
evaluated; with surrogates it already counts the initial population although nothing was truly
evaluated; from an initial population it is 0.  (`design` returns as many rows as asked for: C43.) -/
theorem c12_after_construction (ops : Ops X O F C U V S Q R) (design : Nat → Nat → Except Err (Batch X))
    (hd : ∀ c n b, design c n = .ok b → b.rows.length = n)
    (vec0 : Nat → V) (sel0 : Nat → S) (prob0 : Q) (interact useSurr ka nd : Bool) (nIter nGen total : Nat)
    (problem : Option (ProblemType × Nat × Nat)) (initPop : Option (Pop X O F C U × Nat))
    (ps lr : Option Nat) (s : EA X O F C U V S Q)
    (h : construct ops design vec0 sel0 prob0 interact useSurr ka nd nIter nGen total problem initPop ps lr = .ok s) :
    (initPop ≠ none → s.fe = 0 ∧ s.trueEvals = 0) ∧
    (initPop = none → useSurr = false → s.fe = s.trueEvals ∧
      ∀ inds, s.pop.individuals = some inds → s.fe = inds.length) ∧
    (initPop = none → useSurr = true → s.trueEvals = 0 ∧
      ∀ inds, s.pop.individuals = some inds → s.fe = inds.length) := by
  unfold construct at h
  cases initPop with
  | some pn =>
    obtain ⟨p, n⟩ := pn
    cases problem with
    | some _ => simp at h
    | none =>
      simp only [Except.ok.injEq] at h
      subst h
      simp
  | none =>
    cases problem with
    | none => simp at h
    | some pr =>
      obtain ⟨ty, m, nc⟩ := pr
      simp only at h
      cases hdes : design 0 (choosePopSize m ps lr) with
      | error e => simp [hdes] at h
      | ok b =>
        have hlen := hd _ _ _ hdes
        simp only [hdes, EA.popAdd] at h
        cases hev : ops.evaluate 1 useSurr b with
        | error e => simp [hev, Pop.add, Pop.new] at h
        | ok res =>
          simp only [hev, Pop.add, Pop.new, Except.ok.injEq] at h
          subst h
          refine ⟨fun hh => absurd rfl hh, ?_, ?_⟩
          · intro _ hu
            subst hu
            refine ⟨by simp [hlen], ?_⟩
            intro inds hi
            simp at hi
            subst hi
            simp [hlen]
          · intro _ hu
            subst hu
            refine ⟨by simp, ?_⟩
            intro inds hi
            simp at hi
            subst hi
            simp [hlen]

/-- C12 over a whole run from construction with a problem and no surrogates: whatever the preferences and
random choices, when the run has ended normally the counter equals the number of decision vectors passed
to `problem.evaluate`. -/
theorem c12_counter_is_number_of_evaluations (hb : CountsGeneration body rows) (ops : Ops X O F C U V S Q R)
    (prefs : Nat → Option (Pref R)) (fuel : Nat) (s t : EA X O F C U V S Q) (base : Int)
    (hs : CounterTrue base s) (h : EA.drive ops body prefs fuel s = (.ok (), t)) : CounterTrue base t := by
  induction fuel generalizing s with
  | zero =>
    simp only [EA.drive, Prod.mk.injEq, true_and] at h
    subst h; exact hs
  | succ m ih =>
    simp only [EA.drive] at h
    split at h
    · cases hi : s.iterateWith ops body (prefs s.iter) with
      | mk r u =>
        rw [hi] at h
        cases r with
        | error e => simp at h
        | ok x => exact ih u ((c12_iterate_counts_evaluations hb ops s u _ _ hi).1 base hs) h
    · simp only [Prod.mk.injEq, true_and] at h
      subst h; exact hs

/-- C12 violated with surrogates: the counter says 2, no true evaluation was made, before and after a
complete run. -/
theorem c12_surrogate_counter_violated :
    ∃ (s t : EA Nat Nat Nat Nat Nat Nat Nat Nat), demoState false true 0 = .ok s ∧ s.fe = 2 ∧ s.trueEvals = 0 ∧
      EA.drive demoEA (EA.nextGen demoEA) (fun _ => none) 2 s = (.ok (), t) ∧ t.fe = 2 ∧ t.trueEvals = 0 ∧
      t.gen = 6 :=
  ⟨_, _, rfl, rfl, rfl, rfl, by decide, by decide, by decide⟩

/-- A generation that raises after the evaluation: the counter falls behind.  The demo EA with a selection
that raises. -/
theorem c12_counter_behind_after_exception :
    ∃ (ops : Ops Nat Nat Nat Nat Nat Nat Nat Nat Nat) (s t : EA Nat Nat Nat Nat Nat Nat Nat Nat),
      demoState false false 0 = .ok s ∧ s.fe = s.trueEvals ∧
      s.iterate ops none = (.error .indexError, t) ∧ t.fe < t.trueEvals :=
  ⟨{ demoEA with select := fun _ v t _ => (.ok [99], v, t) }, _, _, rfl, by decide, rfl, by decide⟩

/-! ## C18 -/

theorem dictSet_map_get {α : Type} (d : List (Nat × α)) (k j : Nat) (v : α) :
    dictGet (d.map (fun p => if p.1 = k then (k, v) else p)) j =
      if j = k ∧ d.any (fun p => p.1 == k) = true then some v else dictGet d j := by
  induction d with
  | nil => simp [dictGet]
  | cons p d ih =>
    by_cases hp : p.1 = k
    · by_cases hj : j = k
      · simp [dictGet, hp, hj]
      · have h1 : ¬ k = j := by omega
        simp only [hj, false_and, if_false] at ih ⊢
        simp only [dictGet, List.map_cons, hp, if_true, List.find?_cons, h1] at ih ⊢
        have h2 : (k == j) = false := by simpa using h1
        simp only [h2]
        exact ih
    · by_cases hj : p.1 = j
      · have : ¬ j = k := by omega
        simp [dictGet, hp, hj, this]
      · have h2 : (p.1 == j) = false := by simpa using hj
        have h3 : (p.1 == k) = false := by simpa using hp
        simp only [dictGet, List.map_cons, hp, if_false, List.find?_cons, h2, List.any_cons, h3, Bool.false_or] at ih ⊢
        exact ih

theorem dictGet_dictSet {α : Type} (d : List (Nat × α)) (k j : Nat) (v : α) :
    dictGet (dictSet d k v) j = if j = k then some v else dictGet d j := by
  unfold dictSet
  split
  · rename_i h
    rw [dictSet_map_get]
    simp only [h, and_true]
  · rename_i h
    have hne : ∀ p ∈ d, p.1 ≠ k := by
      intro p hp he
      exact h (List.any_eq_true.2 ⟨p, hp, by simp [he]⟩)
    simp only [dictGet, List.find?_append]
    by_cases hj : j = k
    · subst hj
      have : d.find? (fun p => p.1 == j) = none := by
        rw [List.find?_eq_none]
        intro p hp
        simpa using hne p hp
      simp [this]
    · have : ¬ k = j := by omega
      cases hf : d.find? (fun p => p.1 == j) <;> simp [this, hj]

/-- C18, one iteration: with `keep_archive`, a successful `iterate` stores, under the generation number at
which the iteration started, the population as it was then (after preference handling) with the iteration
number, and changes no other entry. -/
theorem c18_iterate_records_start (hb : CountsGeneration body rows) (ops : Ops X O F C U V S Q R)
    (s t : EA X O F C U V S Q) (pref : Option (Pref R)) (r : Option Request) (hk : s.cfg.keepArchive = true)
    (h : s.iterateWith ops body pref = (.ok r, t)) (g : Nat) :
    dictGet t.archive g = if g = s.gen then
      some ⟨s.iter, (iterStart ops s pref).pop.individuals, (iterStart ops s pref).pop.objectives,
        (iterStart ops s pref).pop.fitness⟩ else dictGet s.archive g := by
  obtain ⟨k, u, hg, -, hu, -, -, ha, -⟩ := iterateWith_ok hb ops s t pref r h
  obtain ⟨f1, -, f3, f4⟩ := iterStart_frame ops s pref
  have := (gens_counters hb hg).2.2.2.2
  rw [ha, this, f4, hk, if_pos rfl, dictGet_dictSet, f3]

/-- A sequence of `iterate` calls; stops at the first exception. -/
def iterates (ops : Ops X O F C U V S Q R) (body : EA X O F C U V S Q → EARes Unit X O F C U V S Q)
    (s : EA X O F C U V S Q) : List (Option (Pref R)) → EARes Unit X O F C U V S Q
  | [] => (.ok (), s)
  | p :: ps =>
    match s.iterateWith ops body p with
    | (.error e, t) => (.error e, t)
    | (.ok _, t) => iterates ops body t ps

/-- The chronological log a careful user would keep: at the start of each iteration, the generation
number, iteration number and population. -/
def startLog (ops : Ops X O F C U V S Q R) (body : EA X O F C U V S Q → EARes Unit X O F C U V S Q)
    (s : EA X O F C U V S Q) : List (Option (Pref R)) → List (Nat × Entry X O F)
  | [] => []
  | p :: ps =>
    (s.gen, ⟨s.iter, (iterStart ops s p).pop.individuals, (iterStart ops s p).pop.objectives,
      (iterStart ops s p).pop.fitness⟩) :: startLog ops body (s.iterateWith ops body p).2 ps

theorem lastFor_cons {α : Type} (p : Nat × α) (l : List (Nat × α)) (k : Nat) :
    lastFor (p :: l) k = (lastFor l k).or (if k = p.1 then some p.2 else none) := by
  simp only [lastFor, dictGet, List.reverse_cons, List.find?_append]
  cases hf : l.reverse.find? (fun p => p.1 == k) with
  | some q => simp
  | none =>
    by_cases h : k = p.1
    · simp [h]
    · have : ¬ p.1 = k := by omega
      simp [h, this]

/-- C18 over any number of iterations: the archive holds, for every generation number at which some
iteration started, the last such start; and `end()` adds (or overwrites) the final population. -/
theorem c18_archive_is_log_of_iteration_starts (hb : CountsGeneration body rows) (ops : Ops X O F C U V S Q R)
    (prefs : List (Option (Pref R))) (s t : EA X O F C U V S Q) (hk : s.cfg.keepArchive = true)
    (h : iterates ops body s prefs = (.ok (), t)) (g : Nat) :
    dictGet t.archive g = (lastFor (startLog ops body s prefs) g).or (dictGet s.archive g) ∧
    ∃ d, t.endArchive.1 = some d ∧
      dictGet d g = if g = t.gen then some ⟨t.iter, t.pop.individuals, t.pop.objectives, t.pop.fitness⟩
        else dictGet t.archive g := by
  induction prefs generalizing s with
  | nil =>
    simp only [iterates, Prod.mk.injEq, true_and] at h
    subst h
    refine ⟨by simp [startLog, lastFor, dictGet], s.record.archive, ?_, ?_⟩
    · simp [EA.endArchive, hk]
    · rw [(record_frame s).2.2.2.2.2, hk, if_pos rfl, dictGet_dictSet]
  | cons p ps ih =>
    simp only [iterates] at h
    cases hi : s.iterateWith ops body p with
    | mk r u =>
      rw [hi] at h
      cases r with
      | error e => simp at h
      | ok x =>
        simp only at h
        have hcfg : u.cfg = s.cfg := by
          obtain ⟨k, w, hkk, -, hu, -⟩ := iterateWith_ok hb ops s u _ _ hi
          rw [hu.cfg]; exact (gens_counters hb hkk).1.trans (iterStart_frame ops s p).1.cfg
        obtain ⟨h1, h2⟩ := ih u (by rw [hcfg]; exact hk) h
        refine ⟨?_, h2⟩
        rw [h1, startLog, hi, lastFor_cons, c18_iterate_records_start hb ops s u p _ hk hi g]
        cases lastFor (startLog ops body u ps) g with
        | some e => simp
        | none =>
          by_cases hg : g = s.gen <;> simp [hg]

/-- C18: without a budget and with `n_gen_per_iter = n > 0`, iteration starts have different generation
numbers, so no entry is ever overwritten. -/
theorem c18_no_overwriting_without_budget (hb : CountsGeneration body rows) (ops : Ops X O F C U V S Q R)
    (prefs : List (Option (Pref R))) (s t : EA X O F C U V S Q) (h0 : s.cfg.total = 0)
    (h : iterates ops body s prefs = (.ok (), t)) :
    (startLog ops body s prefs).map (fun p => p.1) =
      (List.range prefs.length).map (fun i => s.gen + i * s.cfg.nGen) ∧
    t.gen = s.gen + prefs.length * s.cfg.nGen := by
  induction prefs generalizing s with
  | nil =>
    simp only [iterates, Prod.mk.injEq, true_and] at h
    subst h
    simp [startLog]
  | cons p ps ih =>
    simp only [iterates] at h
    cases hi : s.iterateWith ops body p with
    | mk r u =>
      rw [hi] at h
      cases r with
      | error e => simp at h
      | ok x =>
        simp only at h
        obtain ⟨-, hg, -, -, hcfg⟩ := c10_iterate_runs_exactly_n_gen hb ops s u _ _ h0 hi
        obtain ⟨h1, h2⟩ := ih u (by rw [hcfg]; exact h0) h
        rw [hcfg, hg] at h1 h2
        refine ⟨?_, ?_⟩
        · rw [startLog, hi, List.map_cons, h1, List.length_cons, List.range_succ_eq_map]
          simp only [List.map_cons, List.map_map]
          congr 1
          · omega
          · apply List.map_congr_left
            intro i _
            simp only [Function.comp, Nat.add_mul, Nat.succ_eq_add_one]
            omega
        · rw [h2, List.length_cons, Nat.add_mul]; omega

/-- C18, the caveat: with an exhausted budget the second iteration runs no generation and its entry
replaces the one the first iteration made under the same generation number. -/
theorem c18_overwritten_when_budget_used_up :
    ∃ (s t u : EA Nat Nat Nat Nat Nat Nat Nat Nat), demoState false false 1 = .ok s ∧
      s.iterate demoEA none = (.ok none, t) ∧ t.iterate demoEA none = (.ok none, u) ∧
      (dictGet t.archive 0).map (fun e => e.iteration) = some 0 ∧
      (dictGet u.archive 0).map (fun e => e.iteration) = some 1 :=
  ⟨_, _, _, rfl, rfl, rfl, by decide, by decide⟩

example : ∃ (s t : EA Nat Nat Nat Nat Nat Nat Nat Nat), demoState false false 0 = .ok s ∧ s.cfg.keepArchive = true ∧
    iterates demoEA (EA.nextGen demoEA) s [none, none] = (.ok (), t) ∧
    (dictGet t.archive 3).map (fun e => e.individuals) = some (some [3, 4]) :=
  ⟨_, _, rfl, rfl, rfl, by decide⟩

end Verif.Props
