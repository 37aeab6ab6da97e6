import Verif.Spec.RetryMore
import Verif.Props.Retry
import Verif.Props.IndicatorMore
import Verif.Props.MoeadRun

namespace Verif.Props
open Verif Verif.Spec
open _root_.Spec (Rec Represents EvalOK newRecs)

variable {n m : Nat} {X O F C U P S Q R : Type}

/-! ## The generation of IBEA and PBEA -/

/-- A generation either returns or raises what the evaluation of the offspring raised; then environmental selection has been made. -/
theorem indNextGen_or_evaluation (io : IndOps (Row n) O F C U P R) (N nc : Nat) (unc : Bool) (hN : 3 ≤ N) (lo hi : Fin n → ℝ)
    (draw : Nat → MateDraw n) (hmate : io.mate = mateChosen lo hi draw) (hdraw : ∀ clk k, LegalDraw N 2 (io.draw clk k))
    (hev : EvaluatesOK io nc unc) (s : EA (Row n) O F C U P (List ℝ) Q) (h : IndAlive N nc unc lo hi s) :
    ∃ p' σ off, indReduce io N s = (.ok (), { s with pop := p', sel := σ }) ∧ σ = allFitness (io.term s.vec s.pop.objectives) p'.fitness ∧
      (∃ inds, p'.individuals = some inds ∧ inds.length = N) ∧
      ((∃ r q, io.evaluate (s.clock + 2) false ⟨2, off⟩ = .ok r ∧ indNextGen io N s = (.ok (), { s with pop := q, sel := σ, clock := s.clock + 3, trueEvals := s.trueEvals + off.length, gen := s.gen + 1, genIter := s.genIter + 1, fe := s.fe + off.length, log := s.log ++ [(off, r)] })) ∨
       ∃ e, io.evaluate (s.clock + 2) false ⟨2, off⟩ = .error e ∧ indNextGen io N s = (.error e, { s with pop := p', sel := σ, clock := s.clock + 2, trueEvals := s.trueEvals + off.length })) := by
  obtain ⟨rs, q1, -, q3⟩ := h.rep
  obtain ⟨p', rs', ps, e1, e2, e3, e4, e5, e6, e7, e8, e9, e10, e11⟩ := ind_half io N nc unc hN lo hi hdraw s h rs q1
  obtain ⟨off0, ho1, -⟩ := c40_sbx_pairs_and_sums 1 30 (draw (s.clock + 1)).shuffle (draw (s.clock + 1)).pairs (rs'.map Rec.x) ps
    (by rw [List.length_map, e4]; exact e11)
  obtain ⟨off, hoff⟩ : ∃ off, mateDefault lo hi (draw (s.clock + 1)) (rs'.map Rec.x) (some ps) = .ok off := ⟨_, by unfold mateDefault; rw [ho1]⟩
  have hmo : io.mate (s.clock + 1) p' ps = .ok ⟨2, off⟩ := by
    rw [hmate]; unfold mateChosen; rw [e5]; dsimp only; rw [hoff]
  refine ⟨p', _, off, e1, rfl, ⟨_, e5, by rw [List.length_map, e4]⟩, ?_⟩
  unfold indNextGen
  rw [e1]
  dsimp only [indVary]
  rw [e9]
  dsimp only
  rw [hmo]
  dsimp only
  have h2 : s.clock + 1 + 1 = s.clock + 2 := rfl
  rw [h2]
  cases hr : io.evaluate (s.clock + 2) false ⟨2, off⟩ with
  | error e =>
    right
    have ha : p'.add ⟨2, off⟩ (.error e : Except Err (Results O F C U)) = (.error e, p') := rfl
    rw [ha]
    refine ⟨e, rfl, ?_⟩
    simp [evLog]
  | ok r =>
    left
    obtain ⟨f1, f2⟩ := hev _ _ _ _ hr
    obtain ⟨-, -, -, -, a5⟩ := add_spec (d := 2) e2 ⟨2, off⟩ r (by rw [e7]; exact f1) (fun _ => e6) (.inl rfl)
    obtain ⟨a6, -⟩ := a5 (by
      cases unc with
      | false => exact .inr (.inl (f2.2 rfl))
      | true =>
        refine .inr (.inr ?_)
        intro hn
        have := e8.1 hn
        simp at this)
    generalize p'.add ⟨2, off⟩ (.ok r) = a at a6
    obtain ⟨b1, b2⟩ := a
    dsimp only at a6
    subst a6
    exact ⟨r, b2, rfl, by simp [evLog]⟩

theorem indNextGen_any (io : IndOps X O F C U P R) (N : Nat) (s : EA X O F C U P (List ℝ) Q) :
    s.clock ≤ (indNextGen io N s).2.clock := by
  have hc : (indReduce io N s).2.clock = s.clock := rfl
  unfold indNextGen
  generalize indReduce io N s = z at hc
  obtain ⟨z, t⟩ := z
  dsimp only at hc
  cases z with
  | error e => exact hc.ge
  | ok _ =>
    dsimp only
    unfold indVary
    split
    · exact hc.ge
    · dsimp only
      split
      · show s.clock ≤ t.clock + 1; omega
      · split
        · show s.clock ≤ t.clock + 1 + 1; omega
        · show s.clock ≤ t.clock + 1 + 1 + 1; omega

/-- The generation depends on the outside world only at three moments. -/
theorem indNextGen_forward (f g : Nat → Nat) (io : IndOps X O F C U P R) (N : Nat) (s : EA X O F C U P (List ℝ) Q)
    (h : ∀ j, j < 3 → f (s.clock + j) = g (s.clock + j)) : indNextGen (renumberInd f io) N s = indNextGen (renumberInd g io) N s := by
  have e0 : indReduce (renumberInd f io) N s = indReduce (renumberInd g io) N s := rfl
  have hc : (indReduce (renumberInd g io) N s).2.clock = s.clock := rfl
  unfold indNextGen
  rw [e0]
  generalize indReduce (renumberInd g io) N s = z at hc
  obtain ⟨z, t⟩ := z
  dsimp only at hc
  cases z with
  | error e => rfl
  | ok _ =>
    dsimp only
    unfold indVary
    have e1 : (renumberInd f io).draw t.clock = (renumberInd g io).draw t.clock := by
      show io.draw (f t.clock) = io.draw (g t.clock)
      rw [hc]; exact congrArg _ (h 0 (by omega))
    rw [e1]
    cases tournament 2 t.sel ((renumberInd g io).draw t.clock) with
    | error e => rfl
    | ok ch =>
      dsimp only
      have e2 : (renumberInd f io).mate (t.clock + 1) = (renumberInd g io).mate (t.clock + 1) := by
        show io.mate (f (t.clock + 1)) = io.mate (g (t.clock + 1))
        rw [hc]; exact congrArg _ (h 1 (by omega))
      rw [e2]
      cases (renumberInd g io).mate (t.clock + 1) t.pop ch with
      | error e => rfl
      | ok off =>
        dsimp only
        have e3 : (renumberInd f io).evaluate (t.clock + 1 + 1) = (renumberInd g io).evaluate (t.clock + 1 + 1) := by
          show io.evaluate (f (t.clock + 1 + 1)) = io.evaluate (g (t.clock + 1 + 1))
          rw [hc]; exact congrArg _ (h 2 (by omega))
        rw [e3]

/-- Variation on two objects that agree in what it reads. -/
theorem indVary_shift (f : Nat → Nat) (io : IndOps X O F C U P R) (a b : EA X O F C U P (List ℝ) Q) (hp : b.pop = a.pop) (hs : b.sel = a.sel)
    (hf : ∀ j, j < 3 → f (b.clock + j) = a.clock + j) (a' : EA X O F C U P (List ℝ) Q) (h : indVary io a = (.ok (), a')) :
    ∃ off ev, indVary (renumberInd f io) b = (.ok (), { b with pop := a'.pop, clock := b.clock + 3, trueEvals := b.trueEvals + off, gen := b.gen + 1, genIter := b.genIter + 1, fe := b.fe + off, log := b.log ++ ev }) ∧
      a' = { a with pop := a'.pop, clock := a.clock + 3, trueEvals := a.trueEvals + off, gen := a.gen + 1, genIter := a.genIter + 1, fe := a.fe + off, log := a.log ++ ev } := by
  unfold indVary at h ⊢
  have f0 : f b.clock = a.clock := hf 0 (by omega)
  have f1 : f (b.clock + 1) = a.clock + 1 := hf 1 (by omega)
  have f2 : f (b.clock + 1 + 1) = a.clock + 1 + 1 := hf 2 (by omega)
  have e1 : (renumberInd f io).draw b.clock = io.draw a.clock := congrArg io.draw f0
  have e2 : (renumberInd f io).mate (b.clock + 1) = io.mate (a.clock + 1) := congrArg io.mate f1
  have e3 : (renumberInd f io).evaluate (b.clock + 1 + 1) = io.evaluate (a.clock + 1 + 1) := congrArg io.evaluate f2
  rw [hs, e1]
  cases ht : tournament 2 a.sel (io.draw a.clock) with
  | error e => rw [ht] at h; simp at h
  | ok ch =>
    rw [ht] at h
    dsimp only at h ⊢
    rw [e2, hp]
    cases hm : io.mate (a.clock + 1) a.pop ch with
    | error e => rw [hm] at h; simp at h
    | ok off =>
      rw [hm] at h
      dsimp only at h ⊢
      rw [e3]
      generalize evLog off (io.evaluate (a.clock + 1 + 1) false off) = ev at h
      generalize a.pop.add off (io.evaluate (a.clock + 1 + 1) false off) = z at h
      obtain ⟨z, q⟩ := z
      cases z with
      | error e => simp at h
      | ok _ =>
        simp only [Prod.mk.injEq, true_and] at h
        subst h
        exact ⟨off.rows.length, ev, rfl, rfl⟩

/-! ## IBEA: what is the same after environmental selection -/

section ibea
variable {T : P → F → F → ℝ} (io : IndOps (Row n) O F C U P R) (N nc : Nat) (unc : Bool) (lo hi : Fin n → ℝ)

/-- `b`, which nothing disturbed, against `a`: the same, but that in `a` environmental selection may have been made already. -/
structure HalfAhead (a b : EA (Row n) O F C U P (List ℝ) Q) : Prop where
  alive : IndAlive N nc unc lo hi a
  alive' : IndAlive N nc unc lo hi b
  vec : b.vec = a.vec
  gen : b.gen = a.gen
  fe : b.fe = a.fe
  log : b.log = a.log
  total : b.cfg.total = a.cfg.total
  pop : a.pop = b.pop ∨ a.pop = (indReduce io N b).2.pop

variable {io N nc unc lo hi}

/-- Environmental selection on the two gives the same. -/
theorem HalfAhead.reduce (hT : ∀ v objs, io.term v objs = T v) (hN : 3 ≤ N) (hdraw : ∀ clk k, LegalDraw N 2 (io.draw clk k))
    {a b : EA (Row n) O F C U P (List ℝ) Q} (h : HalfAhead io N nc unc lo hi a b) :
    ∃ p σ, indReduce io N a = (.ok (), { a with pop := p, sel := σ }) ∧ indReduce io N b = (.ok (), { b with pop := p, sel := σ }) := by
  obtain ⟨rs, q1, -, -⟩ := h.alive'.rep
  obtain ⟨p, rs', -, e1, e2, -, e4, e5, -⟩ := ind_half io N nc unc hN lo hi hdraw b h.alive' rs q1
  rw [hT] at e1
  refine ⟨p, _, ?_, e1⟩
  rcases h.pop with hp | hp
  · unfold indReduce at e1 ⊢
    dsimp only at e1 ⊢
    rw [hT] at e1 ⊢
    rw [hp, ← h.vec]
    simp only [Prod.mk.injEq] at e1 ⊢
    obtain ⟨w1, w2⟩ := e1
    have w3 := congrArg EA.pop w2
    have w4 := congrArg EA.sel w2
    dsimp only at w3 w4
    refine ⟨w1, ?_⟩
    rw [w3, w4]
  · rw [e1] at hp
    dsimp only at hp
    unfold indReduce
    dsimp only
    rw [hT, fitnessAssign_eq, hp, h.vec]
    have hl : p.fitness.length = N := by rw [e2.fits, List.length_map, e4]
    unfold envLoop
    rw [e5]
    dsimp only
    rw [if_neg (by rw [List.length_map, e4]; omega)]

theorem ibea_renumbers (hT : ∀ v objs, io.term v objs = T v) (hN : 3 ≤ N) (hb : ∀ i, lo i ≤ hi i) (draw : Nat → MateDraw n)
    (hmate : io.mate = mateChosen lo hi draw) (hdraw : ∀ clk k, LegalDraw N 2 (io.draw clk k)) (hev : EvaluatesOK io nc unc) :
    Renumbers (Q := Q) (fun f => indNextGen (renumberInd f io) N) (indNextGen io N) (HalfAhead io N nc unc lo hi) where
  forward f g s h := indNextGen_forward f g io N s h
  later f s t h := by
    have := indNextGen_any (renumberInd f io) N s
    rw [h] at this
    exact this
  budget a b h := by unfold EA.checkFE; rw [h.fe, h.total]
  step f a a' b h hr hf := by
    obtain ⟨p, σ, h1, h2⟩ := h.reduce hT hN hdraw
    have hr0 : indNextGen io N a = indVary io { a with pop := p, sel := σ } := by unfold indNextGen; rw [h1]
    have hr1 : indNextGen (renumberInd f io) N b = indVary (renumberInd f io) { b with pop := p, sel := σ } := by
      have : indReduce (renumberInd f io) N b = indReduce io N b := rfl
      unfold indNextGen; rw [this, h2]
    obtain ⟨k, ev, w1, w2⟩ := indVary_shift f io { a with pop := p, sel := σ } { b with pop := p, sel := σ } rfl rfl hf a' (hr0 ▸ hr)
    dsimp only at w1 w2
    have ha' := (indNextGen_alive io N nc unc hN lo hi hb draw hmate hdraw hev a h.alive).1
    have hb' := (indNextGen_alive (renumberInd f io) N nc unc hN lo hi hb (fun k => draw (f k)) (by
      show (fun k => io.mate (f k)) = _
      rw [hmate]; rfl) (fun clk k => hdraw _ k) (fun clk surr b r hh => hev _ surr b r hh) b h.alive').1
    rw [hr] at ha'
    rw [hr1, w1] at hb'
    refine ⟨_, hr1.trans w1, ⟨ha', hb', ?_, ?_, ?_, ?_, ?_, .inl rfl⟩, rfl, ?_⟩
    · rw [w2]; exact h.vec
    · rw [w2]; show b.gen + 1 = a.gen + 1; rw [h.gen]
    · rw [w2]; show b.fe + k = a.fe + k; rw [h.fe]
    · rw [w2]; show b.log ++ ev = a.log ++ ev; rw [h.log]
    · rw [w2]; exact h.total
    · rw [w2]

/-- A generation that raises leaves the object half ahead. -/
theorem ibea_quiet (hT : ∀ v objs, io.term v objs = T v) (hN : 3 ≤ N) (hb : ∀ i, lo i ≤ hi i) (draw : Nat → MateDraw n)
    (hmate : io.mate = mateChosen lo hi draw) (hdraw : ∀ clk k, LegalDraw N 2 (io.draw clk k)) (hev : EvaluatesOK io nc unc)
    (a a' : EA (Row n) O F C U P (List ℝ) Q) (ha : IndAlive N nc unc lo hi a) (e : Err) (h : indNextGen io N a = (.error e, a')) :
    (∀ b, HalfAhead io N nc unc lo hi a b → HalfAhead io N nc unc lo hi a' b) ∧ a.clock ≤ a'.clock ∧ a'.gen = a.gen := by
  have ha' := (indNextGen_alive io N nc unc hN lo hi hb draw hmate hdraw hev a ha).1
  rw [h] at ha'
  dsimp only at ha'
  obtain ⟨p', σ, off, w1, -, -, ⟨r, q, -, w4⟩ | ⟨e', -, w4⟩⟩ := indNextGen_or_evaluation io N nc unc hN lo hi draw hmate hdraw hev a ha
  · rw [h] at w4; simp at w4
  · rw [h] at w4
    simp only [Prod.mk.injEq] at w4
    obtain ⟨-, rfl⟩ := w4
    refine ⟨fun b hab => ?_, by dsimp only; omega, rfl⟩
    obtain ⟨p, τ, v1, v2⟩ := hab.reduce hT hN hdraw
    rw [w1] at v1
    have v3 : p' = p := by
      have := congrArg (fun z => z.2.pop) v1
      exact this
    refine ⟨ha', hab.alive', hab.vec, hab.gen, hab.fe, hab.log, hab.total, .inr ?_⟩
    rw [v2]
    exact v3

theorem HalfAhead.of_left {a a' b : EA (Row n) O F C U P (List ℝ) Q} (h : HalfAhead io N nc unc lo hi a b) (h1 : a'.pop = a.pop) (h2 : a'.vec = a.vec)
    (h3 : a'.gen = a.gen) (h4 : a'.fe = a.fe) (h5 : a'.log = a.log) (h6 : a'.cfg.total = a.cfg.total) : HalfAhead io N nc unc lo hi a' b :=
  ⟨h.alive.of_pop h1, h.alive', by rw [h2]; exact h.vec, by rw [h3]; exact h.gen, by rw [h4]; exact h.fe, by rw [h5]; exact h.log,
    by rw [h6]; exact h.total, by rw [h1]; exact h.pop⟩

theorem indNextGen_gen (a a' : EA (Row n) O F C U P (List ℝ) Q) (hN : 3 ≤ N) (draw : Nat → MateDraw n)
    (hmate : io.mate = mateChosen lo hi draw) (hdraw : ∀ clk k, LegalDraw N 2 (io.draw clk k)) (hev : EvaluatesOK io nc unc)
    (ha : IndAlive N nc unc lo hi a) (h : indNextGen io N a = (.ok (), a')) : a'.gen = a.gen + 1 := by
  obtain ⟨p', σ, off, -, -, -, ⟨r, q, -, w4⟩ | ⟨e', -, w4⟩⟩ := indNextGen_or_evaluation io N nc unc hN lo hi draw hmate hdraw hev a ha
  · rw [h] at w4
    simp only [Prod.mk.injEq, true_and] at w4
    rw [w4]
  · rw [h] at w4; simp at w4

section histories
variable (hT : ∀ v objs, io.term v objs = T v) (hN : 3 ≤ N) (hb : ∀ i, lo i ≤ hi i) (draw : Nat → MateDraw n)
  (hmate : io.mate = mateChosen lo hi draw) (hdraw : ∀ clk k, LegalDraw N 2 (io.draw clk k)) (hev : EvaluatesOK io nc unc)
include hT hN hb hmate hdraw hev

theorem ibea_loop_attempts (fuel : Nat) : ∀ s : EA (Row n) O F C U P (List ℝ) Q, IndAlive N nc unc lo hi s →
    (∃ k, Attempts (indNextGen io N) (HalfAhead io N nc unc lo hi) k s (EA.loop (indNextGen io N) fuel s).2) ∧
      IndAlive N nc unc lo hi (EA.loop (indNextGen io N) fuel s).2 ∧ (EA.loop (indNextGen io N) fuel s).2.cfg = s.cfg := by
  induction fuel with
  | zero => exact fun s h => ⟨⟨0, .done s⟩, h, rfl⟩
  | succ fuel ih =>
    intro s h
    unfold EA.loop
    by_cases hc : s.continueIteration = true
    · rw [if_pos hc]
      have hfe : s.checkFE = true := by
        unfold EA.continueIteration at hc
        simp only [Bool.and_eq_true] at hc
        exact hc.2
      have h1 := (indNextGen_alive io N nc unc hN lo hi hb draw hmate hdraw hev s h).1
      cases hz : indNextGen io N s with
      | mk z t =>
        rw [hz] at h1
        have h2 := (indNextGen_tick io N s _ t hz).1
        cases z with
        | ok u =>
          obtain ⟨⟨j, i1⟩, i2, i3⟩ := ih t h1
          exact ⟨⟨j + 1, .gen hfe hz (indNextGen_gen s t hN draw hmate hdraw hev h hz) i1⟩, i2, i3.trans h2⟩
        | error e =>
          obtain ⟨q1, q2, q3⟩ := ibea_quiet hT hN hb draw hmate hdraw hev s t h e hz
          exact ⟨⟨0, .quiet q1 q2 q3 (.done _)⟩, h1, h2⟩
    · rw [if_neg hc]
      exact ⟨⟨0, .done s⟩, h, rfl⟩

theorem ibea_call_attempts (s : EA (Row n) O F C U P (List ℝ) Q) (h : IndAlive N nc unc lo hi s) (hi0 : s.cfg.interact = false) (c : IndCall R) :
    (∃ k, Attempts (indNextGen io N) (HalfAhead io N nc unc lo hi) k s (indCall io N s c)) ∧ IndAlive N nc unc lo hi (indCall io N s c) ∧
      (indCall io N s c).cfg = s.cfg := by
  have hreq : ∀ u : EA (Row n) O F C U P (List ℝ) Q, u.cfg.interact = false → indRequest io u = (.ok none, u) := by
    intro u hu
    unfold indRequest
    rw [if_pos hu]
  cases c with
  | requests =>
    show (∃ k, Attempts _ _ k s (indRequest io s).2) ∧ IndAlive N nc unc lo hi (indRequest io s).2 ∧ (indRequest io s).2.cfg = s.cfg
    rw [hreq s hi0]
    exact ⟨⟨0, .done s⟩, h, rfl⟩
  | start =>
    have : indStart io s = (.ok none, s) := by
      unfold indStart
      rw [hi0]
      exact hreq s hi0
    show (∃ k, Attempts _ _ k s (indStart io s).2) ∧ IndAlive N nc unc lo hi (indStart io s).2 ∧ (indStart io s).2.cfg = s.cfg
    rw [this]
    exact ⟨⟨0, .done s⟩, h, rfl⟩
  | iterate p =>
    show (∃ k, Attempts _ _ k s (indIterate io N s p).2) ∧ IndAlive N nc unc lo hi (indIterate io N s p).2 ∧ (indIterate io N s p).2.cfg = s.cfg
    have e1 : indManage io s p = (.ok (), s) := by unfold indManage; rw [if_pos hi0]
    unfold indIterate indIterateWith
    rw [e1]
    dsimp only
    obtain ⟨⟨k, l1⟩, l2, l3⟩ := ibea_loop_attempts hT hN hb draw hmate hdraw hev s.cfg.nGen { s with genIter := 0 } (h.of_pop rfl)
    have l4 : Attempts (indNextGen io N) (HalfAhead io N nc unc lo hi) k s (EA.loop (indNextGen io N) s.cfg.nGen { s with genIter := 0 }).2 :=
      .quiet (a' := { s with genIter := 0 }) (fun b hb => hb.of_left rfl rfl rfl rfl rfl rfl) (Nat.le_refl _) rfl l1
    have l3 : (EA.loop (indNextGen io N) s.cfg.nGen { s with genIter := 0 }).2.cfg = s.cfg := l3
    generalize EA.loop (indNextGen io N) s.cfg.nGen { s with genIter := 0 } = z at l2 l3 l4
    obtain ⟨z, u⟩ := z
    cases z with
    | error e => exact ⟨⟨k, l4⟩, l2, l3⟩
    | ok _ =>
      dsimp only at l2 l3 l4 ⊢
      rw [hreq _ (by show u.cfg.interact = false; rw [l3]; exact hi0)]
      refine ⟨⟨k + 0, l4.trans (.quiet (a' := { u with iter := u.iter + 1 }) (fun b hb => hb.of_left rfl rfl rfl rfl rfl rfl) (Nat.le_refl _) rfl (.done _))⟩,
        l2.of_pop rfl, l3⟩

theorem ibea_calls_attempts (cs : List (IndCall R)) : ∀ s : EA (Row n) O F C U P (List ℝ) Q, IndAlive N nc unc lo hi s → s.cfg.interact = false →
    (∃ k, Attempts (indNextGen io N) (HalfAhead io N nc unc lo hi) k s (indCalls io N s cs)) := by
  induction cs with
  | nil => exact fun s h _ => ⟨0, .done s⟩
  | cons c cs ih =>
    intro s h hi0
    obtain ⟨⟨k, a1⟩, a2, a3⟩ := ibea_call_attempts hT hN hb draw hmate hdraw hev s h hi0 c
    obtain ⟨j, b1⟩ := ih _ a2 (by rw [a3]; exact hi0)
    exact ⟨k + j, a1.trans b1⟩

end histories
end ibea

theorem indConstruct_fields (io : IndOps X O F C U P R) (design : Nat → Nat → Except Err (Batch X)) (ref0 : P) (prob0 : Q) (interact useSurr : Bool)
    (nIter nGen total nCons size : Nat) (s : EA X O F C U P (List ℝ) Q)
    (h : indConstruct io design ref0 prob0 interact useSurr nIter nGen total nCons size none = .ok s) :
    s.clock = 2 ∧ s.gen = 0 ∧ ∀ f : Nat → Nat, f 1 = 1 →
      indConstruct (Q := Q) (renumberInd f io) design ref0 prob0 interact useSurr nIter nGen total nCons size none = .ok s := by
  refine ⟨?_, ?_, ?_⟩
  · unfold indConstruct at h
    dsimp only at h
    split at h
    · simp at h
    · split at h
      · simp at h
      · simp only [Except.ok.injEq] at h
        subst h
        rfl
  · unfold indConstruct at h
    dsimp only at h
    split at h
    · simp at h
    · split at h
      · simp at h
      · simp only [Except.ok.injEq] at h
        subst h
        rfl
  · intro f hf
    have : (renumberInd f io).evaluate 1 = io.evaluate 1 := congrArg io.evaluate hf
    unfold indConstruct at h ⊢
    dsimp only at h ⊢
    rw [this]
    exact h

/-! ## The theorems -/

/-- **C108 (a)**, IBEA and PBEA after any history of calls: when a generation raises, what it raises is what the evaluation of the offspring raised.
The population has then been through environmental selection (the worst have been removed until `N` are left, and `fitnesses` holds their fitness), and
nothing else has changed but that time has passed. -/
theorem c108_indicator_generation (io : IndOps (Row n) O F C U P R) (N nc : Nat) (unc : Bool) (hN : 3 ≤ N) (lo hi : Fin n → ℝ) (hb : ∀ i, lo i ≤ hi i)
    (draw : Nat → MateDraw n) (hmate : io.mate = mateChosen lo hi draw) (hdraw : ∀ clk k, LegalDraw N 2 (io.draw clk k))
    (hev : EvaluatesOK io nc unc) (unit : Nat → Nat → List (Fin n → ℝ)) (hu : ∀ clk k, (unit clk k).length = k)
    (hu1 : ∀ clk k, ∀ u ∈ unit clk k, ∀ i, 0 ≤ u i ∧ u i < 1) (ref0 : P) (prob0 : Q) (interact useSurr : Bool) (nIter nGen total : Nat)
    (s0 : EA (Row n) O F C U P (List ℝ) Q)
    (hs : indConstruct io (boxDesign lo hi unit) ref0 prob0 interact useSurr nIter nGen total nc N none = .ok s0) (cs : List (IndCall R))
    (s t : EA (Row n) O F C U P (List ℝ) Q) (he : s = indCalls io N s0 cs) (e : Err) (h : indNextGen io N s = (.error e, t)) :
    ∃ rs rs' off, io.evaluate (s.clock + 2) false ⟨2, off⟩ = .error e ∧
      Represents s.pop rs ∧ Represents t.pop rs' ∧ RemovesWorst (io.term s.vec (rs.map Rec.o)) Rec.f (rs.length - N) rs rs' ∧ rs'.length = N ∧
      t.sel = allFitness (io.term s.vec (rs.map Rec.o)) (rs'.map Rec.f) ∧
      t = { s with pop := t.pop, sel := t.sel, clock := s.clock + 2, trueEvals := s.trueEvals + off.length } := by
  have ha : IndAlive N nc unc lo hi s := by
    rw [he]
    exact indCalls_alive io N nc unc hN lo hi hb draw hmate hdraw hev cs s0
      (indConstruct_spec io N nc unc lo hi hb hev unit hu hu1 ref0 prob0 interact useSurr nIter nGen total s0 hs).1
  obtain ⟨rs, q1, q2, -⟩ := ha.rep
  obtain ⟨rs', -, d2, d3, d4, d5⟩ := c45_environmental_selection io N (by omega) s rs q1 ha.inds
  obtain ⟨p', σ, off, w1, -, -, ⟨r, q, -, w4⟩ | ⟨e', w3, w4⟩⟩ := indNextGen_or_evaluation io N nc unc hN lo hi draw hmate hdraw hev s ha
  · rw [h] at w4; simp at w4
  · rw [h] at w4
    simp only [Prod.mk.injEq, Except.error.injEq] at w4
    obtain ⟨rfl, rfl⟩ := w4
    rw [w1] at d2 d5
    exact ⟨rs, rs', off, w3, q1, d2, d3, by omega, d5, rfl⟩

/-- **C108 (b)**, IBEA without interaction, whatever the calls and however many evaluations raise: the run is one that nothing disturbed.  There is an
outside world that gives the answers of this one in the same order, leaving out some (`f`), in which one call of `iterate()` of an object with the same
arguments, for as many generations as were completed, returns with the same counters and the same batches evaluated; the population is the same or, if
it has no more than `N` members, what environmental selection leaves of it. -/
theorem c108_ibea_retry (I : F → F → ℝ) (kappa : ℝ) (io : IndOps (Row n) O F C U P R) (hio : ∀ ref objs, io.term ref objs = ibeaTerm I kappa)
    (N nc : Nat) (unc : Bool) (hN : 3 ≤ N) (lo hi : Fin n → ℝ) (hb : ∀ i, lo i ≤ hi i)
    (draw : Nat → MateDraw n) (hmate : io.mate = mateChosen lo hi draw) (hdraw : ∀ clk k, LegalDraw N 2 (io.draw clk k))
    (hev : EvaluatesOK io nc unc) (unit : Nat → Nat → List (Fin n → ℝ)) (hu : ∀ clk k, (unit clk k).length = k)
    (hu1 : ∀ clk k, ∀ u ∈ unit clk k, ∀ i, 0 ≤ u i ∧ u i < 1) (ref0 : P) (prob0 : Q) (useSurr : Bool) (nIter nGen total : Nat)
    (s0 : EA (Row n) O F C U P (List ℝ) Q)
    (hs : indConstruct io (boxDesign lo hi unit) ref0 prob0 false useSurr nIter nGen total nc N none = .ok s0) (cs : List (IndCall R)) :
    ∃ f : Nat → Nat, StrictMono f ∧ ∃ s' t',
      indConstruct (renumberInd f io) (boxDesign lo hi unit) ref0 prob0 false useSurr 1 (indCalls io N s0 cs).gen total nc N none = .ok s' ∧
      indIterate (renumberInd f io) N s' none = (.ok none, t') ∧
      (indCalls io N s0 cs).gen = t'.gen ∧ (indCalls io N s0 cs).fe = t'.fe ∧ (indCalls io N s0 cs).log = t'.log ∧
      ∃ rs rs', Represents t'.pop rs ∧ Represents (indCalls io N s0 cs).pop rs' ∧ ((indCalls io N s0 cs).pop = t'.pop ∨
        (rs'.length = N ∧ RemovesWorst (ibeaTerm I kappa) Rec.f (rs.length - N) rs rs')) := by
  have h0 := (indConstruct_spec io N nc unc lo hi hb hev unit hu hu1 ref0 prob0 false useSurr nIter nGen total s0 hs).1
  obtain ⟨c1, c2, c3, c4⟩ := indConstruct_silent io (boxDesign lo hi unit) ref0 prob0 useSurr nIter nGen total nc N none s0 hs
  obtain ⟨k0, g0, -⟩ := indConstruct_fields io (boxDesign lo hi unit) ref0 prob0 false useSurr nIter nGen total nc N s0 hs
  obtain ⟨k, ha⟩ := ibea_calls_attempts (T := fun _ => ibeaTerm I kappa) hio hN hb draw hmate hdraw hev cs s0 h0 c1.1
  have hgen := ha.gens_counted
  generalize indCalls io N s0 cs = T at ha hgen
  rw [g0, Nat.zero_add] at hgen
  have hB := ibea_renumbers (Q := Q) (T := fun _ => ibeaTerm I kappa) hio hN hb draw hmate hdraw hev
  obtain ⟨b, hbb⟩ : ∃ b, regroup 0 0 1 T.gen false [] s0.vec s0 = b := ⟨_, rfl⟩
  have hb0 : ({ b with genIter := 0 } : EA (Row n) O F C U P (List ℝ) Q) = b := by rw [← hbb]; rfl
  have r2 : HalfAhead io N nc unc lo hi s0 b := by
    rw [← hbb]
    exact ⟨h0, h0.of_pop rfl, rfl, rfl, rfl, rfl, rfl, .inl rfl⟩
  have kb : b.clock = 2 := by rw [← hbb]; exact k0
  obtain ⟨f, f1, f2, D, f3, f4⟩ := ha.undisturbed hB b r2
  rw [kb] at f1 f2
  rw [k0] at f2
  obtain ⟨G, hG⟩ : ∃ G : Nat → Nat, G = fun i => if i < 2 then i else f i := ⟨_, rfl⟩
  have hlo : ∀ i, i < 2 → G i = i := fun i hi => by rw [hG]; dsimp only; rw [if_pos hi]
  have hhi : ∀ i, 2 ≤ i → G i = f i := fun i hi => by rw [hG]; dsimp only; rw [if_neg (by omega)]
  have hmono : StrictMono G := by
    intro i j hij
    rcases Nat.lt_or_ge i 2 with h1 | h1 <;> rcases Nat.lt_or_ge j 2 with h2 | h2
    · rw [hlo i h1, hlo j h2]; exact hij
    · rw [hlo i h1, hhi j h2]
      have := f2 j h2
      omega
    · omega
    · rw [hhi i h1, hhi j h2]; exact f1 i j h1 hij
  have hgens : gens (indNextGen (renumberInd G io) N) T.gen b = (.ok (), D) := by
    rw [hgen, gens_forward hB G f k b (fun i hi => hhi i (by omega))]
    exact f3
  have hcon : indConstruct (renumberInd G io) (boxDesign lo hi unit) ref0 prob0 false useSurr 1 T.gen total nc N none = .ok b := by
    rw [← hbb]
    exact (indConstruct_fields io (boxDesign lo hi unit) ref0 prob0 false useSurr 1 T.gen total nc N _ (c4 1 T.gen)).2.2 G (hlo 1 (by omega))
  refine ⟨G, hmono, b, { D with iter := D.iter + 1 }, hcon, ?_, f4.gen.symm, f4.fe.symm, f4.log.symm, ?_⟩
  · have hsil : Silent b := by rw [← hbb]; exact c1
    have hk : b.cfg.keepArchive = false := by rw [← hbb]; rfl
    have hpre : b.preIteration (plainOps : Ops (Row n) O F C U P (List ℝ) Q R) = b := by
      have : b.record = b := by unfold EA.record; rw [hk]; rfl
      unfold EA.preIteration
      rw [this]
      dsimp only [plainOps]
      split <;> split <;> rfl
    rw [indIterate_plain (renumberInd G io) N b hsil hk none, iterate_silent (indNextGen_ticks (renumberInd G io) N) _ b hsil none
      (fun n u hu => (gens_cfg (indNextGen_ticks (renumberInd G io) N) n u hu).1), hpre, hb0]
    have e2 : b.cfg.nGen = T.gen := by rw [← hbb]; rfl
    rw [e2, hgens]
  · obtain ⟨rs, q1, q2, -⟩ := f4.alive'.rep
    rcases f4.pop with hp | hp
    · exact ⟨rs, rs, q1, by rw [hp]; exact q1, .inl hp⟩
    · obtain ⟨rs', -, d2, d3, d4, -⟩ := c45_environmental_selection io N (by omega) D rs q1 f4.alive'.inds
      refine ⟨rs, rs', q1, by rw [hp]; exact d2, .inr ⟨by omega, ?_⟩⟩
      rw [hio] at d3
      exact d3

/-- **C108 (c)**, deviation: IBEA and PBEA with interaction.  Every call of `iterate(p)` with the answer to the pending request that raises in a
generation has already doubled `n_iterations` and `total_function_evaluations`; the request is still pending, so the same answer is accepted again
and doubles them again: after `k` calls that raised they are `2 ^ k` times as large, and no iteration has been counted. -/
theorem c108_limits_violated (io : IndOps X O F C U P R) (N : Nat) (s : EA X O F C U P (List ℝ) Q) (hint : s.cfg.interact = true) (p : Pref R)
    (hcls : p.cls = .referencePoint) (hid : s.reqId = some p.id) (k : Nat)
    (hraise : ∀ j, j < k → ∃ e, (indIterate io N (indCalls io N s (List.replicate j (.iterate (some p)))) (some p)).1 = .error e) :
    let t := indCalls io N s (List.replicate k (.iterate (some p)))
    t.cfg.nIter = s.cfg.nIter * 2 ^ k ∧ t.cfg.total = s.cfg.total * 2 ^ k ∧ t.iter = s.iter ∧ t.reqId = some p.id := by
  have hbody : ∀ fuel (u : EA X O F C U P (List ℝ) Q), (EA.loop (indNextGen io N) fuel u).2.cfg = u.cfg ∧
      (EA.loop (indNextGen io N) fuel u).2.iter = u.iter ∧ (EA.loop (indNextGen io N) fuel u).2.reqId = u.reqId := by
    have hreq : ∀ u : EA X O F C U P (List ℝ) Q, (indNextGen io N u).2.reqId = u.reqId := by
      intro u
      have hr : (indReduce io N u).2.reqId = u.reqId := rfl
      unfold indNextGen
      generalize indReduce io N u = z at hr
      obtain ⟨z, v⟩ := z
      dsimp only at hr
      cases z with
      | error e => exact hr
      | ok _ =>
        dsimp only
        rw [← hr]
        unfold indVary
        split
        · rfl
        · dsimp only
          split
          · rfl
          · split <;> rfl
    intro fuel
    induction fuel with
    | zero => exact fun u => ⟨rfl, rfl, rfl⟩
    | succ fuel ih =>
      intro u
      unfold EA.loop
      split
      · have h3 := hreq u
        cases hz : indNextGen io N u with
        | mk z v =>
          obtain ⟨h1, h2, -⟩ := indNextGen_tick io N u z v hz
          rw [hz] at h3
          dsimp only at h3
          cases z with
          | error e => exact ⟨h1, h2, h3⟩
          | ok _ =>
            obtain ⟨i1, i2, i3⟩ := ih v
            exact ⟨i1.trans h1, i2.trans h2, i3.trans h3⟩
      · exact ⟨rfl, rfl, rfl⟩
  have main : ∀ k, (∀ j, j < k → ∃ e, (indIterate io N (indCalls io N s (List.replicate j (.iterate (some p)))) (some p)).1 = .error e) →
      (indCalls io N s (List.replicate k (.iterate (some p)))).cfg = { s.cfg with nIter := s.cfg.nIter * 2 ^ k, total := s.cfg.total * 2 ^ k } ∧
      (indCalls io N s (List.replicate k (.iterate (some p)))).iter = s.iter ∧
      (indCalls io N s (List.replicate k (.iterate (some p)))).reqId = some p.id := by
    intro k
    induction k with
    | zero => intro _; exact ⟨by simp [indCalls], rfl, hid⟩
    | succ k ih =>
      intro hr
      obtain ⟨i1, i2, i3⟩ := ih (fun j hj => hr j (by omega))
      obtain ⟨e, he⟩ := hr k (by omega)
      have happ : indCalls io N s (List.replicate (k + 1) (.iterate (some p))) =
          (indIterate io N (indCalls io N s (List.replicate k (.iterate (some p)))) (some p)).2 := by
        rw [List.replicate_succ']
        simp [indCalls, List.foldl_append, indCall]
      rw [happ]
      generalize indCalls io N s (List.replicate k (.iterate (some p))) = u at i1 i2 i3 he
      unfold indIterate indIterateWith at he ⊢
      have hm : indManage io u (some p) = (.ok (), { u with vec := io.toRef p.response, cfg := { u.cfg with nIter := u.cfg.nIter + u.cfg.nIter, total := u.cfg.total + u.cfg.total } }) := by
        unfold indManage
        rw [if_neg (by rw [i1]; simp [hint])]
        dsimp only
        rw [if_neg (by simp [hcls]), i3]
        simp
      rw [hm] at he ⊢
      dsimp only at he ⊢
      obtain ⟨b1, b2, b3⟩ := hbody u.cfg.nGen ({ u with vec := io.toRef p.response, genIter := 0, cfg := { u.cfg with nIter := u.cfg.nIter + u.cfg.nIter, total := u.cfg.total + u.cfg.total } })
      generalize EA.loop (indNextGen io N) u.cfg.nGen _ = z at b1 b2 b3 he
      obtain ⟨z, v⟩ := z
      cases z with
      | ok _ =>
        dsimp only at he
        unfold indRequest at he
        split at he <;> simp at he
      | error e' =>
        dsimp only at b1 b2 b3 ⊢
        refine ⟨?_, b2.trans i2, b3.trans i3⟩
        rw [b1, i1]
        simp only [Cfg.mk.injEq, true_and, and_true]
        constructor <;> ring
  obtain ⟨m1, m2, m3⟩ := main k hraise
  exact ⟨by rw [m1], by rw [m1], m2, m3⟩

/-! ## The generation of MOEA/D -/

/-- The steps of a generation return, or some of them do and the evaluation in the next raises. -/
theorem moeadSteps_or_evaluation {K : Type} [LinearOrder K] [Zero K]
    (ops : Ops X O F C U (MoeadVec m K) S Q R) (mo : MoeadOps m K X O F C U) (useRepair : Bool) (popSize nCons d N : Nat) (unc : Bool)
    (is : List Nat) : ∀ s : EA X O F C U (MoeadVec m K) S Q, MoeadReady ops mo popSize nCons N unc s.vec → (∀ i ∈ is, i < popSize) →
    Kept nCons d N unc s.pop → (s.cfg.saveND = true → ∃ T, s.nd = some (archOf T)) →
    (moeadSteps ops mo useRepair is s).1 = .ok () ∨ ∃ is1 i is2 u e x, is = is1 ++ i :: is2 ∧ moeadSteps ops mo useRepair is1 s = (.ok (), u) ∧
      Kept nCons d N unc u.pop ∧ ops.evaluate (u.clock + 2) s.cfg.useSurr ⟨u.pop.ndim - 1, [x]⟩ = .error e ∧
      moeadSteps ops mo useRepair is s =
        (.error e, { u with clock := u.clock + 3, trueEvals := u.trueEvals + (if s.cfg.useSurr then 0 else 1) }) := by
  induction is with
  | nil => exact fun s _ _ _ _ => .inl rfl
  | cons i is ih =>
    intro s h1 h2 hk hnd
    obtain ⟨a1, a2, a3, a4⟩ := moeadStep_kept_or ops mo useRepair popSize nCons d N unc i s h1 (h2 i List.mem_cons_self) hk
    obtain ⟨a4, a5⟩ := a4 hnd
    rcases a5 with a5 | ⟨e, x, b1, b2⟩
    · cases hz : moeadStep ops mo useRepair i s with
      | mk z t =>
        rw [hz] at a1 a2 a3 a4 a5
        dsimp only at a1 a2 a3 a4 a5
        subst a5
        have hstep : ∀ js, moeadSteps ops mo useRepair (i :: js) s = moeadSteps ops mo useRepair js t := by
          intro js
          rw [moeadSteps, hz]
        rcases ih t (by rw [a2]; exact h1) (fun j hj => h2 j (List.mem_cons_of_mem _ hj)) a1 (by rw [a3]; exact a4) with h | h
        · exact .inl (by rw [hstep]; exact h)
        · obtain ⟨is1, j, is2, u, e, x, c1, c2, c3, c4, c5⟩ := h
          rw [a3] at c4 c5
          exact .inr ⟨i :: is1, j, is2, u, e, x, by rw [c1]; rfl, by rw [hstep]; exact c2, c3, c4, by rw [hstep]; exact c5⟩
    · refine .inr ⟨[], i, is, s, e, x, rfl, rfl, hk, b1, ?_⟩
      rw [moeadSteps, b2]

/-- **C108 (d)**, MOEA/D without interaction, after any history of calls (with `save_non_dominated`: one with `start()` in it): when a generation
raises, what it raises is what the evaluation of an offspring raised.  It was the offspring of some subproblem `i < N`, and the object is left as a
generation over the subproblems before it leaves it (`u`), except that the generation is not counted and that time has passed: the population has its
size, the `i` evaluations before are counted, what they improved is kept. -/
theorem c108_moead_generation (hm : 2 ≤ m) (ops : Ops (Row n) O (Vec m) C U (MoeadRV m) S Q R) (mo : MoeadOps m ℝ (Row n) O (Vec m) C U)
    (lo hi : Fin n → ℝ) (draw : Nat → MateDraw n) (argsort : List ℝ → List Nat) (nn : Nat)
    (toCall : Nat → Kind → Pop (Row n) O (Vec m) C U → R → Except Err (VecCall m)) (hM : IsMoead ops mo lo hi draw argsort nn toCall)
    (hnn : 2 ≤ nn) (nc : Nat) (unc : Bool) (hp : ProblemOK ops nc unc)
    (hnd : ∀ f, (ops.nonDom f).length = f.length) (unit : Nat → Nat → List (Fin n → ℝ)) (hu : ∀ c k, (unit c k).length = k)
    (sel0 : S) (prob0 : Q) (useSurr keepArchive saveND useRepair : Bool) (nIter nGen total np : Nat) (pty : ProblemType)
    (hpty : pty ≠ .iopis) (ps lr : Option Nat) (r : Nat) (hr : 1 ≤ r) (N : Nat) (hNN : choosePopSize m ps lr = N)
    (hN : N = Nat.choose (r + m - 1) (m - 1)) (s0 : EA (Row n) O (Vec m) C U (MoeadRV m) S Q)
    (hs : moeadConstruct ops (boxDesign lo hi unit) argsort nn np sel0 prob0 false useSurr keepArchive saveND nIter nGen total pty nc ps lr
      = .ok s0) (cs : List (Call R)) (hst : saveND = false ∨ Call.start ∈ cs) (s t : EA (Row n) O (Vec m) C U (MoeadRV m) S Q)
    (he : s = s0.callsWith ops (moeadBody ops mo useRepair N) cs) (e : Err) (h : moeadBody ops mo useRepair N s = (.error e, t)) :
    ∃ i u x, i < N ∧ moeadBody ops mo useRepair i s = (.ok (), u) ∧ ops.evaluate (u.clock + 2) s.cfg.useSurr ⟨1, [x]⟩ = .error e ∧
      OnlyTimePassed (if s.cfg.useSurr then 0 else 1) { u with gen := s.gen, genIter := s.genIter } t ∧
      t.fe = s.fe + (if s.cfg.useSurr then 0 else i) ∧ ∃ rs, Represents t.pop rs ∧ rs.length = N := by
  subst hNN
  obtain ⟨⟨h1, h2, h3, h4, h5⟩, h6⟩ := moead_history hm ops mo lo hi draw argsort nn toCall hM hnn nc unc hp hnd unit hu sel0 prob0 useSurr
    keepArchive saveND useRepair nIter nGen total np pty hpty ps lr r hr hN s0 hs cs
  have hge := choose_ge m r hm
  generalize hNN : choosePopSize m ps lr = N at *
  rw [← he] at h1 h2 h3 h4 h5 h6
  have hready : MoeadReady (ops.forGeneration (W := MoeadVec m ℝ)) mo N nc N unc s.vec.toVec := by
    have := freshReady hM nc N unc hp hnn (by omega) s.vec.rv.planar h2.1 s.vec.rv.planar (by rw [h2.1])
    rw [← h2.2] at this
    exact this
  have hor := moeadSteps_or_evaluation ops.forGeneration mo useRepair N nc 2 N unc (List.range N) (s.withVec s.vec.toVec) hready
    (fun i hi => List.mem_range.1 hi) h1 (by show s.cfg.saveND = true → _; rw [h5]; exact h6 hst)
  unfold moeadBody moeadNextGen at h
  rcases hor with hor | ⟨is1, k, is2, u, e', x, b1, b2, b3, b4, b5⟩
  · generalize moeadSteps ops.forGeneration mo useRepair (List.range N) (s.withVec s.vec.toVec) = z at h hor
    obtain ⟨z, v⟩ := z
    dsimp only at hor
    subst hor
    simp at h
  · rw [b5] at h
    simp only [Prod.mk.injEq, Except.error.injEq] at h
    obtain ⟨rfl, rfl⟩ := h
    have hlen : is1.length < N := by
      have := congrArg List.length b1
      simp at this
      omega
    have his : is1 = List.range is1.length := by
      have := congrArg (List.take is1.length) b1
      rw [List.take_range, List.take_left, Nat.min_eq_left (by omega)] at this
      exact this.symm
    obtain ⟨g1, g2, g3, g4, g5, g6, g7, -⟩ := moeadSteps_ok _ _ _ _ _ _ b2
    refine ⟨is1.length, { u.withVec s.vec with gen := u.gen + 1, genIter := u.genIter + 1 }, x, hlen, ?_, ?_, ⟨u.clock + 3, ?_, ?_⟩, g7, b3.rep⟩
    · unfold moeadBody moeadNextGen
      rw [← his, b2]
      rfl
    · have : u.pop.ndim - 1 = 1 := by rw [b3.dim]
      rw [this] at b4
      exact b4
    · show u.clock < _
      omega
    · unfold EA.withVec
      rw [← show u.gen = s.gen from g3, ← show u.genIter = s.genIter from g4]

/-! ## Non-vacuity -/

/-- The small problem of `Props/IndicatorRun.lean` with an evaluation that fails after the initial population. -/
noncomputable def demo108 : IndOps (Row 1) ℝ (Fin 2 → ℝ) Nat Nat Nat Nat :=
  { demoIndRun with evaluate := fun clk surr b => if 4 ≤ clk then .error .evaluationError else demoIndRun.evaluate clk surr b }

/-- It meets the hypotheses of (a) and (b), it can be made, and its first generation raises. -/
example : EvaluatesOK demo108 0 false ∧ (∀ clk k, LegalDraw 4 2 (demo108.draw clk k)) ∧ (∀ ref objs, demo108.term ref objs = ibeaTerm additiveEps (1 / 20)) ∧
    ∃ s, indConstruct demo108 (boxDesign (fun _ => 0) (fun _ => 1) (fun _ k => List.replicate k (fun _ => 0))) 0 () false false 3 7 0 0 4 none = .ok s ∧
      ∃ t, indNextGen demo108 4 (indCalls demo108 4 s []) = (.error .evaluationError, t) := by
  have h1 : EvaluatesOK demo108 0 false := by
    intro clk surr b r hr
    unfold demo108 at hr
    dsimp only at hr
    split at hr
    · cases hr
    · simp only [demoIndRun, Except.ok.injEq] at hr
      subst hr
      exact ⟨⟨by simp, by simp, fun _ => rfl, fun h => absurd rfl h, by simp⟩, by simp⟩
  have h2 : ∀ clk k, LegalDraw 4 2 (demo108.draw clk k) := fun clk k => ⟨rfl, by simp [demo108, demoIndRun], by simp [demo108, demoIndRun]⟩
  refine ⟨h1, h2, fun _ _ => rfl, ?_⟩
  obtain ⟨s, hs⟩ : ∃ s, indConstruct demo108 (boxDesign (fun _ => 0) (fun _ => 1) (fun _ k => List.replicate k (fun _ => 0))) 0 () false false 3 7 0 0 4 none = .ok s :=
    ⟨_, rfl⟩
  refine ⟨s, hs, ?_⟩
  have ha := (indConstruct_spec demo108 4 0 false (fun _ => 0) (fun _ => 1) (fun _ => by norm_num) h1 (fun _ k => List.replicate k (fun _ => 0)) (by simp) (by
      intro clk k u hu i
      rw [List.eq_of_mem_replicate hu]; norm_num) 0 () false false 3 7 0 s hs).1
  obtain ⟨k0, -⟩ := indConstruct_fields demo108 _ 0 () false false 3 7 0 0 4 s hs
  obtain ⟨p', σ, off, -, -, -, ⟨r, q, w, -⟩ | ⟨e, w, w2⟩⟩ := indNextGen_or_evaluation demo108 4 0 false (by omega) (fun _ => 0) (fun _ => 1) _ rfl h2 h1 s ha
  · rw [k0] at w
    simp [demo108] at w
  · rw [k0] at w
    simp only [demo108, Nat.reduceAdd, le_refl, if_true, Except.error.injEq] at w
    subst w
    exact ⟨_, w2⟩

/-- (c): an interactive EA is made and asked for its request, the first answer to its request raises in the first generation. -/
example : ∃ s p, indConstruct demo108 (boxDesign (fun _ => 0) (fun _ => 1) (fun _ k => List.replicate k (fun _ => 0))) 0 () true false 3 7 0 0 4 none = .ok s ∧
    (indCalls demo108 4 s [.requests]).cfg.interact = true ∧ p.cls = .referencePoint ∧ (indCalls demo108 4 s [.requests]).reqId = some p.id ∧
    ∃ e, (indIterate demo108 4 (indCalls demo108 4 s [.requests]) (some p)).1 = .error e := by
  have h1 : EvaluatesOK demo108 0 false := by
    intro clk surr b r hr
    unfold demo108 at hr
    dsimp only at hr
    split at hr
    · cases hr
    · simp only [demoIndRun, Except.ok.injEq] at hr
      subst hr
      exact ⟨⟨by simp, by simp, fun _ => rfl, fun h => absurd rfl h, by simp⟩, by simp⟩
  have h2 : ∀ clk k, LegalDraw 4 2 (demo108.draw clk k) := fun clk k => ⟨rfl, by simp [demo108, demoIndRun], by simp [demo108, demoIndRun]⟩
  obtain ⟨s, hs⟩ : ∃ s, indConstruct demo108 (boxDesign (fun _ => 0) (fun _ => 1) (fun _ k => List.replicate k (fun _ => 0))) 0 () true false 3 7 0 0 4 none = .ok s :=
    ⟨_, rfl⟩
  have ha := (indConstruct_spec demo108 4 0 false (fun _ => 0) (fun _ => 1) (fun _ => by norm_num) h1 (fun _ k => List.replicate k (fun _ => 0)) (by simp) (by
      intro clk k u hu i
      rw [List.eq_of_mem_replicate hu]; norm_num) 0 () true false 3 7 0 s hs).1
  have hb := indCalls_alive demo108 4 0 false (by omega) (fun _ => 0) (fun _ => 1) (fun _ => by norm_num) _ rfl h2 h1 [.requests] s ha
  obtain ⟨c1, c2, c3, c4⟩ : s.cfg.interact = true ∧ s.cfg.nGen = 7 ∧ s.cfg.total = 0 ∧ s.clock = 2 := by
    cases hs
    exact ⟨rfl, rfl, rfl, rfl⟩
  have hu : indCalls demo108 4 s [.requests] = { s with reqId := some 2, clock := 3 } := by
    show (indRequest demo108 s).2 = _
    unfold indRequest
    rw [if_neg (by rw [c1]; decide), c4]
    rfl
  rw [hu] at hb
  refine ⟨s, ⟨2, .referencePoint, 0⟩, hs, ?_⟩
  rw [hu]
  refine ⟨c1, rfl, rfl, ?_⟩
  obtain ⟨v, hv⟩ : ∃ v : EA (Row 1) ℝ (Fin 2 → ℝ) Nat Nat Nat (List ℝ) Unit, v = { s with reqId := some 2, clock := 3, genIter := 0, vec := 0, cfg := { s.cfg with nIter := s.cfg.nIter + s.cfg.nIter, total := s.cfg.total + s.cfg.total } } := ⟨_, rfl⟩
  have hav : IndAlive 4 0 false (fun _ => 0) (fun _ => 1) v := by rw [hv]; exact hb.of_pop rfl
  have hman : indManage demo108 ({ s with reqId := some 2, clock := 3 } : EA (Row 1) ℝ (Fin 2 → ℝ) Nat Nat Nat (List ℝ) Unit) (some ⟨2, .referencePoint, 0⟩) =
      (.ok (), { s with reqId := some 2, clock := 3, vec := 0, cfg := { s.cfg with nIter := s.cfg.nIter + s.cfg.nIter, total := s.cfg.total + s.cfg.total } }) := by
    unfold indManage
    rw [if_neg (by show ¬ s.cfg.interact = false; rw [c1]; decide)]
    rfl
  unfold indIterate indIterateWith
  rw [hman]
  dsimp only
  rw [← hv, c2]
  unfold EA.loop
  have hcont : v.continueIteration = true := by
    rw [hv]
    simp [EA.continueIteration, EA.checkFE, c2, c3]
  rw [if_pos hcont]
  obtain ⟨p', σ, off, -, -, -, ⟨r, q, w, -⟩ | ⟨e, w, w2⟩⟩ := indNextGen_or_evaluation demo108 4 0 false (by omega) (fun _ => 0) (fun _ => 1) _ rfl h2 h1 v hav
  · have : v.clock = 3 := by rw [hv]
    rw [this] at w
    simp [demo108] at w
  · rw [w2]
    exact ⟨e, rfl⟩

/-- The demo MOEA/D of `Props/MOEAD.lean` with an evaluation that fails at moment 5, the offspring of the second subproblem: the offspring of the first,
49, stays where it entered, and one evaluation is counted. -/
example :
    let ops := { demoMoeadOps with evaluate := fun clk sur b => if clk = 5 then .error .evaluationError else demoMoeadOps.evaluate clk sur b }
    let r := moeadNextGen ops demoMoead true 3 demoMoeadState
    r.1 = .error .evaluationError ∧ r.2.pop.individuals = some [49, 49, 40] ∧ r.2.fe = 4 ∧ r.2.gen = 0 := ⟨rfl, rfl, rfl, rfl⟩

/-- The problem of `Props/MoeadRun.lean` whose evaluation fails after the initial population. -/
noncomputable def demo108Moead (argsort : List ℝ → List Nat) (nn : Nat) : Ops (Row 1) Unit (Vec 2) (List ℝ) (Vec 2) (MoeadRV 2) Unit Unit (Vec 2) :=
  { demoMoeadRun argsort nn with evaluate := fun clk surr b => if 3 ≤ clk then .error .evaluationError else (demoMoeadRun argsort nn).evaluate clk surr b }

/-- It meets the hypotheses of (d), MOEA/D of ten individuals can be made for it, and its first generation raises. -/
example : ∃ argsort draw, IsMoead (demo108Moead argsort 4) demoMoeadParts (fun _ => 0) (fun _ => 1) draw argsort 4 (fun _ _ _ d => .ok (.refPoint d)) ∧
    ProblemOK (demo108Moead argsort 4) 0 false ∧
    ∃ s, moeadConstruct (demo108Moead argsort 4) (boxDesign (fun _ => 0) (fun _ => 1) (fun _ k => List.replicate k (fun _ => 0))) argsort 4 2
      () () false false true false 10 10 0 .mo 0 none (some 9) = .ok s ∧
      ∃ e t, moeadBody (demo108Moead argsort 4) demoMoeadParts true 10 s = (.error e, t) := by
  obtain ⟨argsort, ha⟩ := exists_argsort
  obtain ⟨draw, hM⟩ := demoMoead_is argsort ha 4
  have hP : ProblemOK (demo108Moead argsort 4) 0 false := by
    intro clk surr b r h
    unfold demo108Moead at h
    dsimp only at h
    split at h
    · cases h
    · exact demoMoead_problem argsort 4 clk surr b r h
  refine ⟨argsort, draw, ⟨hM.adapt, hM.respond, hM.mate, hM.repair, hM.picks, hM.sorts⟩, hP, ?_⟩
  obtain ⟨t, ht, -⟩ := (c16_problem_xor_population (demo108Moead argsort 4)
    (boxDesign (fun _ => 0) (fun _ => 1) (fun _ k => List.replicate k (fun _ => 0))) (fun _ => (⟨⟨[], [], [], [], 0⟩, []⟩ : MoeadRV 2)) (fun _ => ())
    () false false true false 10 10 0 none (some 9)).2.2.2 .mo 2 0 _ _ rfl rfl
  obtain ⟨r, q1, q2, -⟩ := c21_count_bounded 2 (choosePopSize 2 none (some 9)) (by decide)
  obtain ⟨s, hs, hsc⟩ : ∃ s, moeadConstruct (demo108Moead argsort 4) (boxDesign (fun _ => 0) (fun _ => 1) (fun _ k => List.replicate k (fun _ => 0))) argsort 4 2
      () () false false true false 10 10 0 .mo 0 none (some 9) = .ok s ∧ s.clock = t.clock := by
    unfold moeadConstruct
    rw [ht]
    dsimp only
    rw [if_neg (by decide), q1]
    dsimp only
    rw [create_ok r (by omega) (q2 (by decide)).1]
    exact ⟨_, rfl, rfl⟩
  obtain ⟨-, -, hclk⟩ := construct_fields _ _ _ _ () _ _ _ _ _ _ _ _ _ _ t ht
  rw [hclk] at hsc
  refine ⟨s, hs, ?_⟩
  cases hz : moeadBody (demo108Moead argsort 4) demoMoeadParts true 10 s with
  | mk z v =>
    cases z with
    | error e => exact ⟨e, v, rfl⟩
    | ok _ =>
      exfalso
      unfold moeadBody moeadNextGen at hz
      rw [show List.range 10 = 0 :: List.range' 1 9 from rfl, moeadSteps] at hz
      cases hy : moeadStep (demo108Moead argsort 4).forGeneration demoMoeadParts true 0 (s.withVec s.vec.toVec) with
      | mk y w =>
        rw [hy] at hz
        cases y with
        | error e => simp at hz
        | ok _ =>
          obtain ⟨-, -, -, -, -, -, -, -, a, b, x0, xs, res, p, sel, q, -, -, h3, -⟩ := moeadStep_ok _ _ _ _ _ _ hy
          have hev : ∀ b, (demo108Moead argsort 4).evaluate (s.clock + 2) s.cfg.useSurr b = .error .evaluationError := by
            intro b
            simp [demo108Moead, hsc]
          have h4 : s.pop.add ⟨s.pop.ndim - 1, [if true = true then demoMoeadParts.repair x0 else x0]⟩ ((demo108Moead argsort 4).evaluate (s.clock + 2) s.cfg.useSurr
            ⟨s.pop.ndim - 1, [if true = true then demoMoeadParts.repair x0 else x0]⟩) = (.ok res, p) := h3
          rw [hev] at h4
          simp [Pop.add] at h4

end Verif.Props
