import Verif.Spec.HandOver
import Verif.Props.Grouping
import Verif.Props.Indicator
import Verif.Props.IndicatorRun
import Verif.Props.MoeadRun

/-!
# C99: handing the population of one EA object to a new one (`initial_population`)
-/

namespace Verif.Props
open Verif Verif.Spec
open _root_.Spec (CountsGeneration Rec Represents EvalOK newRecs)

variable {X O F C U V W T S Q P R : Type}

/-- `s` is where the undivided run is; `t` is where the new object is, which was made when the old one was at `a`.  No evaluation budget, no
saved non-dominated solutions. -/
structure Continues (φ : V → W) (σ : S → T) (a s t : EA X O F C U V S Q) : Prop where
  clock : s.clock = a.clock + t.clock
  pop : s.pop = t.pop
  vec : φ s.vec = φ t.vec
  sel : σ s.sel = σ t.sel
  gen : s.gen = a.gen + t.gen
  fe : s.fe = a.fe + t.fe
  evals : s.trueEvals = a.trueEvals + t.trueEvals
  log : s.log = a.log ++ t.log
  total : s.cfg.total = 0 ∧ t.cfg.total = 0
  saveND : s.cfg.saveND = false ∧ t.cfg.saveND = false
  surr : s.cfg.useSurr = t.cfg.useSurr

variable {φ : V → W} {σ : S → T}

/-- The two generations correspond. -/
def Carries (φ : V → W) (σ : S → T) (a : EA X O F C U V S Q) (body body' : EA X O F C U V S Q → EARes Unit X O F C U V S Q) : Prop :=
  ∀ s t, Continues φ σ a s t → (body' t).1 = (body s).1 ∧ Continues φ σ a (body s).2 (body' t).2

theorem checkFE_unlimited (s : EA X O F C U V S Q) (h : s.cfg.total = 0) : s.checkFE = true := by
  simp [EA.checkFE, h]

theorem gens_carries {a : EA X O F C U V S Q} {body body' : EA X O F C U V S Q → EARes Unit X O F C U V S Q} (hb : Carries φ σ a body body') (n : Nat) :
    Carries φ σ a (gens body n) (gens body' n) := by
  induction n with
  | zero => exact fun s t h => ⟨rfl, h⟩
  | succ n ih =>
    intro s t h
    rw [gens_succ, gens_succ, checkFE_unlimited s h.total.1, checkFE_unlimited t h.total.2]
    simp only [if_true]
    obtain ⟨b1, b2⟩ := hb s t h
    generalize body s = z at b1 b2
    generalize body' t = z' at b1 b2
    obtain ⟨z, u⟩ := z
    obtain ⟨z', u'⟩ := z'
    dsimp only at b1 b2
    subst b1
    cases z' with
    | error e => exact ⟨rfl, b2⟩
    | ok _ => exact ih u u' b2

/-! ## The indicator EAs -/

theorem indNextGen_carries (io : IndOps X O F C U P R) (N : Nat) (a : EA X O F C U P (List ℝ) Q) :
    Carries (fun v : P => v) (fun _ : List ℝ => ()) a (indNextGen io N) (indNextGen (sinceInd a.clock io) N) := by
  intro s t h
  obtain ⟨h1, h2, h3, -, h5, h6, h7, h8, h9, h10, h11⟩ := h
  have h3 : s.vec = t.vec := h3
  have hred : ∀ p, indReduce (sinceInd a.clock io) N t = p → indReduce io N s = (p.1, { s with pop := p.2.pop, sel := p.2.sel }) := by
    intro p hp
    rw [← hp]
    unfold indReduce
    dsimp only
    rw [h2, h3]
    rfl
  have hfr : (indReduce (sinceInd a.clock io) N t).2 = { t with pop := (indReduce (sinceInd a.clock io) N t).2.pop, sel := (indReduce (sinceInd a.clock io) N t).2.sel } := rfl
  unfold indNextGen
  generalize hz : indReduce (sinceInd a.clock io) N t = z at hfr
  rw [hred z hz]
  obtain ⟨z, u⟩ := z
  dsimp only at hfr
  cases z with
  | error e =>
    dsimp only
    refine ⟨rfl, ?_⟩
    rw [hfr]
    exact ⟨h1, rfl, h3, rfl, h5, h6, h7, h8, h9, h10, h11⟩
  | ok _ =>
    dsimp only
    rw [hfr]
    generalize u.pop = pp
    generalize u.sel = ss
    unfold indVary
    dsimp only
    have e1 : (sinceInd a.clock io).draw t.clock = io.draw s.clock := by rw [h1]; rfl
    rw [e1]
    cases tournament 2 ss (io.draw s.clock) with
    | error e => exact ⟨rfl, h1, rfl, h3, rfl, h5, h6, h7, h8, h9, h10, h11⟩
    | ok chosen =>
      dsimp only
      have e2 : (sinceInd a.clock io).mate (t.clock + 1) pp chosen = io.mate (s.clock + 1) pp chosen := by rw [h1, Nat.add_assoc]; rfl
      rw [e2]
      have h1' : s.clock + 1 = a.clock + (t.clock + 1) := by omega
      cases io.mate (s.clock + 1) pp chosen with
      | error e => exact ⟨rfl, h1', rfl, h3, rfl, h5, h6, h7, h8, h9, h10, h11⟩
      | ok off =>
        dsimp only
        have e3 : (sinceInd a.clock io).evaluate (t.clock + 1 + 1) false off = io.evaluate (s.clock + 1 + 1) false off := by
          rw [h1, Nat.add_assoc, Nat.add_assoc, Nat.add_assoc]; rfl
        rw [e3]
        have e4 : s.log ++ evLog off (io.evaluate (s.clock + 1 + 1) false off) = a.log ++ (t.log ++ evLog off (io.evaluate (s.clock + 1 + 1) false off)) := by
          rw [h8, List.append_assoc]
        generalize evLog off (io.evaluate (s.clock + 1 + 1) false off) = lg at e4
        generalize pp.add off (io.evaluate (s.clock + 1 + 1) false off) = w
        obtain ⟨w, pq⟩ := w
        cases w with
        | error e =>
          refine ⟨rfl, ?_, rfl, h3, rfl, h5, h6, ?_, e4, h9, h10, h11⟩
          · dsimp only; omega
          · dsimp only; omega
        | ok _ =>
          refine ⟨rfl, ?_, rfl, h3, rfl, ?_, ?_, ?_, e4, h9, h10, h11⟩ <;> dsimp only <;> omega

theorem indNextGen_tick (io : IndOps X O F C U P R) (N : Nat) (s : EA X O F C U P (List ℝ) Q) (r : Except Err Unit) (t : EA X O F C U P (List ℝ) Q)
    (h : indNextGen io N s = (r, t)) : t.cfg = s.cfg ∧ t.iter = s.iter ∧ (r = .ok () → t.genIter = s.genIter + 1) := by
  unfold indNextGen at h
  have hfr : (indReduce io N s).2 = { s with pop := (indReduce io N s).2.pop, sel := (indReduce io N s).2.sel } := rfl
  generalize indReduce io N s = z at h hfr
  obtain ⟨z, u⟩ := z
  dsimp only at hfr
  cases z with
  | error e =>
    simp only [Prod.mk.injEq] at h
    rw [← h.2, hfr]
    exact ⟨rfl, rfl, fun hr => by rw [← h.1] at hr; simp at hr⟩
  | ok _ =>
    dsimp only at h
    rw [hfr] at h
    generalize u.pop = pp at h
    generalize u.sel = ss at h
    unfold indVary at h
    dsimp only at h
    split at h
    · simp only [Prod.mk.injEq] at h
      rw [← h.2, ← h.1]
      exact ⟨rfl, rfl, by simp⟩
    · split at h
      · simp only [Prod.mk.injEq] at h
        rw [← h.2, ← h.1]
        exact ⟨rfl, rfl, by simp⟩
      · split at h
        · simp only [Prod.mk.injEq] at h
          rw [← h.2, ← h.1]
          exact ⟨rfl, rfl, by simp⟩
        · simp only [Prod.mk.injEq] at h
          rw [← h.2]
          exact ⟨rfl, rfl, fun _ => rfl⟩

theorem indNextGen_ticks (io : IndOps X O F C U P R) (N : Nat) : Ticks (indNextGen (Q := Q) io N) :=
  fun s t h => let ⟨a, b, c⟩ := indNextGen_tick io N s _ t h; ⟨a, b, c rfl⟩

theorem indNextGen_steady (io : IndOps X O F C U P R) (N : Nat) : Steady (fun v : P => v) (fun _ => True) (indNextGen (Q := Q) io N) := by
  rintro s _ ⟨it, gi, nI, nG, k, ar, v, rfl, h1, h2, h3⟩
  dsimp only at h1
  subst h1
  have hred : indReduce io N (regroup it gi nI nG k ar s.vec s) = ((indReduce io N s).1, regroup it gi nI nG k ar s.vec (indReduce io N s).2) := rfl
  unfold indNextGen
  rw [hred]
  have hv : (indReduce io N s).2.vec = s.vec := rfl
  generalize indReduce io N s = z at hv
  obtain ⟨z, u⟩ := z
  dsimp only at hv
  rw [← hv]
  cases z with
  | error e => exact ⟨rfl, it, gi, nI, nG, k, ar, _, rfl, rfl, h2, h3⟩
  | ok _ =>
    dsimp only
    unfold indVary
    have e1 : (regroup it gi nI nG k ar u.vec u).sel = u.sel := rfl
    have e2 : (regroup it gi nI nG k ar u.vec u).clock = u.clock := rfl
    have e3 : (regroup it gi nI nG k ar u.vec u).pop = u.pop := rfl
    rw [e1, e2, e3]
    cases tournament 2 u.sel (io.draw u.clock) with
    | error e => exact ⟨rfl, it, gi, nI, nG, k, ar, _, rfl, rfl, h2, h3⟩
    | ok chosen =>
      dsimp only
      cases io.mate (u.clock + 1) u.pop chosen with
      | error e => exact ⟨rfl, it, gi, nI, nG, k, ar, _, rfl, rfl, h2, h3⟩
      | ok off =>
        dsimp only
        generalize u.pop.add off (io.evaluate (u.clock + 1 + 1) false off) = w
        obtain ⟨w, pq⟩ := w
        cases w with
        | error e => exact ⟨rfl, it, gi, nI, nG, k, ar, _, rfl, rfl, h2, h3⟩
        | ok _ => exact ⟨rfl, it, gi + 1, nI, nG, k, ar, _, rfl, rfl, h2, h3⟩

/-- Components under which `iterate` of the decomposition EAs is that of the indicator EAs, for a non-interactive object. -/
def plainOps : Ops X O F C U P (List ℝ) Q R :=
  { adapt := fun v _ => v, respond := fun _ _ v _ _ => (.ok (), v), mate := fun _ _ => .error .valueError,
    evaluate := fun _ _ _ => .error .valueError, select := fun _ v t _ => (.ok [], v, t), newId := fun _ => 0,
    probManage := fun q _ _ => (.ok (), q), probReeval := fun q _ => ([], q), dom := fun _ _ => false, nonDom := fun _ => [] }

theorem indIterate_plain (io : IndOps X O F C U P R) (N : Nat) (s : EA X O F C U P (List ℝ) Q) (hs : Silent s) (hk : s.cfg.keepArchive = false)
    (p : Option (Pref R)) : indIterate io N s p = s.iterateWith plainOps (indNextGen io N) p := by
  unfold indIterate indIterateWith EA.iterateWith
  have e1 : indManage io s p = (.ok (), s) := by unfold indManage; rw [if_pos hs.1]
  have e2 : s.managePreferences (plainOps : Ops X O F C U P (List ℝ) Q R) p = (.ok (), s) := by unfold EA.managePreferences; rw [hs.2]
  have e3 : s.preIteration (plainOps : Ops X O F C U P (List ℝ) Q R) = s := by
    have : s.record = s := by unfold EA.record; rw [hk]; rfl
    unfold EA.preIteration
    rw [this]
    dsimp only [plainOps]
    split <;> split <;> rfl
  rw [e1, e2]
  dsimp only
  rw [e3]
  have hcfg := loop_gens (indNextGen_ticks (Q := Q) io N) s.cfg.nGen ({ s with genIter := 0 } : EA X O F C U P (List ℝ) Q) (by show s.cfg.nGen - 0 ≤ _; omega)
  have hg := gens_cfg (indNextGen_ticks (Q := Q) io N) (s.cfg.nGen - 0) ({ s with genIter := 0 } : EA X O F C U P (List ℝ) Q)
  have e4 : EA.loop (indNextGen io N) s.cfg.nGen ({ s with genIter := 0 } : EA X O F C U P (List ℝ) Q) =
    gens (indNextGen io N) (s.cfg.nGen - 0) ({ s with genIter := 0 } : EA X O F C U P (List ℝ) Q) := hcfg
  rw [e4]
  generalize gens (indNextGen io N) (s.cfg.nGen - 0) ({ s with genIter := 0 } : EA X O F C U P (List ℝ) Q) = z at hg
  obtain ⟨z, u⟩ := z
  cases z with
  | error e => rfl
  | ok _ =>
    have hu : u.cfg.interact = false := by rw [(hg rfl).1]; exact hs.1
    dsimp only
    unfold indRequest EA.requestPreferences
    rw [if_pos (show ({ u with iter := u.iter + 1 } : EA X O F C U P (List ℝ) Q).cfg.interact = false from hu),
      if_pos (show ({ u with iter := u.iter + 1 } : EA X O F C U P (List ℝ) Q).cfg.interact = false from hu)]

theorem iterate_plain_cfg (io : IndOps X O F C U P R) (N : Nat) (s : EA X O F C U P (List ℝ) Q) (hs : Silent s) (hk : s.cfg.keepArchive = false)
    (p : Option (Pref R)) (r : Option Request) (t : EA X O F C U P (List ℝ) Q) (h : indIterate io N s p = (.ok r, t)) : t.cfg = s.cfg := by
  rw [indIterate_plain io N s hs hk, iterate_silent (indNextGen_ticks io N) _ s hs p (fun n u hu => (gens_cfg (indNextGen_ticks io N) n u hu).1)] at h
  have e3 : s.preIteration (plainOps : Ops X O F C U P (List ℝ) Q R) = s := by
    have : s.record = s := by unfold EA.record; rw [hk]; rfl
    unfold EA.preIteration
    rw [this]
    dsimp only [plainOps]
    split <;> split <;> rfl
  rw [e3] at h
  have hg := gens_cfg (indNextGen_ticks (Q := Q) io N) s.cfg.nGen ({ s with genIter := 0 } : EA X O F C U P (List ℝ) Q)
  generalize gens (indNextGen io N) s.cfg.nGen ({ s with genIter := 0 } : EA X O F C U P (List ℝ) Q) = z at h hg
  obtain ⟨z, u⟩ := z
  cases z with
  | error e => simp at h
  | ok _ =>
    simp only [Prod.mk.injEq] at h
    rw [← h.2]
    exact (hg rfl).1

theorem indDrive_plain (io : IndOps X O F C U P R) (N : Nat) (prefs : Nat → Option (Pref R)) (fuel : Nat) : ∀ s : EA X O F C U P (List ℝ) Q, Silent s →
    s.cfg.keepArchive = false → indDrive io N prefs fuel s = EA.drive plainOps (indNextGen io N) prefs fuel s := by
  induction fuel with
  | zero => exact fun s _ _ => rfl
  | succ fuel ih =>
    intro s hs hk
    unfold indDrive EA.drive
    split
    · have hc := iterate_plain_cfg io N s hs hk (prefs s.iter)
      rw [← indIterate_plain io N s hs hk]
      generalize indIterate io N s (prefs s.iter) = z at hc
      obtain ⟨z, t⟩ := z
      cases z with
      | error e => rfl
      | ok r =>
        have := hc r t rfl
        exact ih t (by unfold Silent; rw [this]; exact hs) (by rw [this]; exact hk)
    · rfl

/-- What construction sets. -/
theorem indConstruct_silent (io : IndOps X O F C U P R) (design : Nat → Nat → Except Err (Batch X)) (ref0 : P) (prob0 : Q) (useSurr : Bool)
    (nIter nGen total nCons size : Nat) (initPop : Option (Pop X O F C U)) (s : EA X O F C U P (List ℝ) Q)
    (h : indConstruct io design ref0 prob0 false useSurr nIter nGen total nCons size initPop = .ok s) :
    Silent s ∧ s.cfg = ⟨false, none, nIter, nGen, total, useSurr, false, false⟩ ∧ s.iter = 0 ∧
      ∀ nIter' nGen', indConstruct io design ref0 prob0 false useSurr nIter' nGen' total nCons size initPop =
        .ok (regroup 0 0 nIter' nGen' false [] s.vec s) := by
  unfold indConstruct at h ⊢
  dsimp only at h ⊢
  split at h
  · simp only [Except.ok.injEq] at h
    subst h
    exact ⟨⟨rfl, rfl⟩, rfl, rfl, fun _ _ => rfl⟩
  · split at h
    · simp at h
    · split at h
      · simp at h
      · simp only [Except.ok.injEq] at h
        subst h
        exact ⟨⟨rfl, rfl⟩, rfl, rfl, fun _ _ => rfl⟩

/-- The loop of a non-interactive indicator EA is a number of generations. -/
theorem indDrive_gens (io : IndOps X O F C U P R) (N : Nat) (prefs : Nat → Option (Pref R)) (fuel : Nat) (s s' : EA X O F C U P (List ℝ) Q)
    (h : Regrouped (fun v : P => v) (fun _ => True) s s') (hs : Silent s') (hk : s'.cfg.keepArchive = false) (hf : s'.cfg.nIter - s'.iter ≤ fuel) :
    (indDrive io N prefs fuel s').1 = (gens (indNextGen io N) ((s'.cfg.nIter - s'.iter) * s'.cfg.nGen) s).1 ∧
      Regrouped (fun v : P => v) (fun _ => True) (gens (indNextGen io N) ((s'.cfg.nIter - s'.iter) * s'.cfg.nGen) s).2 (indDrive io N prefs fuel s').2 := by
  rw [indDrive_plain io N prefs fuel s' hs hk]
  exact drive_gens (indNextGen_ticks io N) (indNextGen_steady io N) plainOps (fun v f _ => ⟨trivial, rfl⟩) prefs fuel s s' h hs hf

theorem regrouped_self (s : EA X O F C U P (List ℝ) Q) : Regrouped (fun v : P => v) (fun _ => True) s s :=
  ⟨s.iter, s.genIter, s.cfg.nIter, s.cfg.nGen, s.cfg.keepArchive, s.archive, s.vec, rfl, rfl, trivial, trivial⟩

/-- **C97 (c)** for IBEA and PBEA: a non-interactive run depends on `n_iterations` and `n_gen_per_iter` only through their product. -/
theorem c97_indicator_grouping (io : IndOps X O F C U P R) (N : Nat) (design : Nat → Nat → Except Err (Batch X)) (ref0 : P) (prob0 : Q) (useSurr : Bool)
    (nIter nGen nIter' nGen' total nCons size : Nat) (hprod : nIter' * nGen' = nIter * nGen) (initPop : Option (Pop X O F C U))
    (prefs prefs' : Nat → Option (Pref R)) (fuel fuel' : Nat) (hf : nIter ≤ fuel) (hf' : nIter' ≤ fuel') (s : EA X O F C U P (List ℝ) Q)
    (hs : indConstruct io design ref0 prob0 false useSurr nIter nGen total nCons size initPop = .ok s) :
    ∃ s', indConstruct io design ref0 prob0 false useSurr nIter' nGen' total nCons size initPop = .ok s' ∧
      (indDrive io N prefs' fuel' s').1 = (indDrive io N prefs fuel s).1 ∧
      SameOutcome (indDrive io N prefs fuel s).2 (indDrive io N prefs' fuel' s').2 := by
  obtain ⟨s1, s2, s3, s4⟩ := indConstruct_silent io design ref0 prob0 useSurr nIter nGen total nCons size initPop s hs
  refine ⟨_, s4 nIter' nGen', ?_⟩
  obtain ⟨d1, d2⟩ := indDrive_gens io N prefs fuel s s (regrouped_self s) s1 (by rw [s2]) (by rw [s2, s3]; exact hf)
  obtain ⟨d3, d4⟩ := indDrive_gens io N prefs' fuel' s (regroup 0 0 nIter' nGen' false [] s.vec s) ⟨_, _, _, _, _, _, _, rfl, rfl, trivial, trivial⟩ s1 rfl hf'
  have hk : ((regroup 0 0 nIter' nGen' false [] s.vec s).cfg.nIter - (regroup 0 0 nIter' nGen' false [] s.vec s).iter) *
      (regroup 0 0 nIter' nGen' false [] s.vec s).cfg.nGen = (s.cfg.nIter - s.iter) * s.cfg.nGen := by
    show (nIter' - 0) * nGen' = _
    rw [s2, s3]
    exact hprod
  rw [hk] at d3 d4
  exact ⟨d3.trans d1.symm, (sameOutcome_of d2 d4).1⟩

/-- **C99**: IBEA and PBEA (not interactive, no evaluation budget) can be stopped and resumed.  `s1` runs its `n_iterations` of
`n_gen_per_iter` generations to `mid`; a new object `s2` is made with the population of `mid` as `initial_population`, in the same process;
`s3` is made like `s1` but with as many generations as the two together.  Then `s2` ends as `s3` does, with the same population, and the
generations and evaluations of `s3` are those of the two. -/
theorem c99_indicator_hand_over (io : IndOps X O F C U P R) (N : Nat) (design design' : Nat → Nat → Except Err (Batch X)) (ref0 : P) (prob0 : Q)
    (useSurr : Bool) (nIter nGen nIter2 nGen2 nIter3 nGen3 nCons nCons2 size size2 : Nat) (hsum : nIter3 * nGen3 = nIter * nGen + nIter2 * nGen2)
    (initPop : Option (Pop X O F C U)) (prefs prefs2 prefs3 : Nat → Option (Pref R)) (fuel fuel2 fuel3 : Nat) (hf : nIter ≤ fuel) (hf2 : nIter2 ≤ fuel2)
    (hf3 : nIter3 ≤ fuel3) (s1 mid : EA X O F C U P (List ℝ) Q)
    (h1 : indConstruct io design ref0 prob0 false useSurr nIter nGen 0 nCons size initPop = .ok s1)
    (hmid : indDrive io N prefs fuel s1 = (.ok (), mid)) :
    ∃ s2 s3, indConstruct (sinceInd mid.clock io) design' ref0 prob0 false useSurr nIter2 nGen2 0 nCons2 size2 (some mid.pop) = .ok s2 ∧
      indConstruct io design ref0 prob0 false useSurr nIter3 nGen3 0 nCons size initPop = .ok s3 ∧
      (indDrive (sinceInd mid.clock io) N prefs2 fuel2 s2).1 = (indDrive io N prefs3 fuel3 s3).1 ∧
      InTwoParts mid (indDrive (sinceInd mid.clock io) N prefs2 fuel2 s2).2 (indDrive io N prefs3 fuel3 s3).2 := by
  obtain ⟨a1, a2, a3, a4⟩ := indConstruct_silent io design ref0 prob0 useSurr nIter nGen 0 nCons size initPop s1 h1
  have hc2 : ∃ s2, indConstruct (sinceInd mid.clock io) design' ref0 prob0 false useSurr nIter2 nGen2 0 nCons2 size2 (some mid.pop) = .ok s2 ∧
      s2.pop = mid.pop ∧ s2.clock = 0 ∧ s2.vec = ref0 ∧ s2.gen = 0 ∧ s2.fe = 0 ∧ s2.trueEvals = 0 ∧ s2.log = [] := ⟨_, rfl, rfl, rfl, rfl, rfl, rfl, rfl, rfl⟩
  obtain ⟨s2, b0, b1, b2, b3, b4, b5, b6, b7⟩ := hc2
  obtain ⟨c1, c2, c3, -⟩ := indConstruct_silent _ design' ref0 prob0 useSurr nIter2 nGen2 0 nCons2 size2 _ s2 b0
  refine ⟨s2, _, b0, a4 nIter3 nGen3, ?_⟩
  -- the three loops as generations
  obtain ⟨d1, d2⟩ := indDrive_gens io N prefs fuel s1 s1 (regrouped_self s1) a1 (by rw [a2]) (by rw [a2, a3]; exact hf)
  obtain ⟨e1, e2⟩ := indDrive_gens io N prefs3 fuel3 s1 (regroup 0 0 nIter3 nGen3 false [] s1.vec s1) ⟨_, _, _, _, _, _, _, rfl, rfl, trivial, trivial⟩ a1 rfl hf3
  obtain ⟨f1, f2⟩ := indDrive_gens (sinceInd mid.clock io) N prefs2 fuel2 s2 s2 (regrouped_self s2) c1 (by rw [c2]) (by rw [c2, c3]; exact hf2)
  have k1 : (s1.cfg.nIter - s1.iter) * s1.cfg.nGen = nIter * nGen := by rw [a2, a3]; rfl
  have k2 : (s2.cfg.nIter - s2.iter) * s2.cfg.nGen = nIter2 * nGen2 := by rw [c2, c3]; rfl
  have k3 : ((regroup 0 0 nIter3 nGen3 false [] s1.vec s1).cfg.nIter - (regroup 0 0 nIter3 nGen3 false [] s1.vec s1).iter) *
      (regroup 0 0 nIter3 nGen3 false [] s1.vec s1).cfg.nGen = nIter * nGen + nIter2 * nGen2 := hsum
  rw [k1, hmid] at d1 d2
  rw [k3, gens_add] at e1 e2
  rw [k2] at f1 f2
  have hvec : s1.vec = ref0 := by
    unfold indConstruct at h1
    dsimp only at h1
    split at h1
    · simp only [Except.ok.injEq] at h1; subst h1; rfl
    · split at h1
      · simp at h1
      · split at h1
        · simp at h1
        · simp only [Except.ok.injEq] at h1; subst h1; rfl
  have hgv : ∀ n (u : EA X O F C U P (List ℝ) Q), (gens (indNextGen io N) n u).2.vec = u.vec := by
    intro n
    induction n with
    | zero => exact fun u => rfl
    | succ n ih =>
      intro u
      rw [gens_succ]
      split
      · have hb : (indNextGen io N u).2.vec = u.vec := by
          unfold indNextGen
          have hfr : (indReduce io N u).2.vec = u.vec := rfl
          generalize indReduce io N u = z at hfr
          obtain ⟨z, w⟩ := z
          cases z with
          | error e => exact hfr
          | ok _ =>
            dsimp only at hfr ⊢
            rw [← hfr]
            unfold indVary
            split
            · rfl
            · dsimp only
              split
              · rfl
              · split <;> rfl
        generalize indNextGen io N u = z at hb
        obtain ⟨z, w⟩ := z
        cases z with
        | error e => exact hb
        | ok _ => exact (ih w).trans hb
      · rfl
  have hg1 := gens_cfg (indNextGen_ticks (Q := Q) io N) (nIter * nGen) s1
  have hv1 := hgv (nIter * nGen) s1
  generalize gens (indNextGen io N) (nIter * nGen) s1 = z at d1 d2 e1 e2 hg1 hv1
  obtain ⟨z, u⟩ := z
  dsimp only at d1 d2
  subst d1
  dsimp only at e1 e2 hv1
  have hu : u.cfg = s1.cfg := (hg1 rfl).1
  have hcont : Continues (fun v : P => v) (fun _ : List ℝ => ()) mid u s2 := by
    obtain ⟨it, gi, nI, nG, k, ar, v, e, -⟩ := d2
    constructor
    · rw [b2, e]; rfl
    · rw [b1, e]; rfl
    · show u.vec = s2.vec
      rw [b3, hv1, hvec]
    · rfl
    · rw [b4, e]; rfl
    · rw [b5, e]; rfl
    · rw [b6, e]; rfl
    · rw [b7, e]; exact (List.append_nil _).symm
    · rw [hu, a2, c2]; exact ⟨rfl, rfl⟩
    · rw [hu, a2, c2]; exact ⟨rfl, rfl⟩
    · rw [hu, a2, c2]
  obtain ⟨g1, g2⟩ := gens_carries (indNextGen_carries io N mid) (nIter2 * nGen2) u s2 hcont
  refine ⟨f1.trans (g1.trans e1.symm), ?_⟩
  generalize indDrive (sinceInd mid.clock io) N prefs2 fuel2 s2 = zz at f2
  generalize indDrive io N prefs3 fuel3 (regroup 0 0 nIter3 nGen3 false [] s1.vec s1) = yy at e2
  obtain ⟨y0, ey⟩ := yy
  obtain ⟨z0, fz⟩ := zz
  change Regrouped _ _ _ ey at e2
  change Regrouped _ _ _ fz at f2
  show InTwoParts mid fz ey
  obtain ⟨_, _, _, _, _, _, _, rfl, -⟩ := e2
  obtain ⟨_, _, _, _, _, _, _, rfl, -⟩ := f2
  exact ⟨g2.pop.symm, g2.gen, g2.fe, g2.evals, g2.log⟩

/-! ## MOEA/D -/

section moead
variable {m : Nat}

theorem popAdd_carries (ops ops' : Ops X O F C U V S Q R) (a s t : EA X O F C U V S Q) (hev : ∀ k, ops'.evaluate k = ops.evaluate (a.clock + k))
    (h : Continues φ σ a s t) (off : Batch X) :
    (t.popAdd ops' off).1 = (s.popAdd ops off).1 ∧ Continues φ σ a (s.popAdd ops off).2 (t.popAdd ops' off).2 := by
  obtain ⟨h1, h2, h3, h4, h5, h6, h7, h8, h9, h10, h11⟩ := h
  have e1 : ops'.evaluate t.clock t.cfg.useSurr off = ops.evaluate s.clock s.cfg.useSurr off := by rw [hev, h1, h11]
  unfold EA.popAdd
  dsimp only
  rw [e1, h2, h11]
  refine ⟨rfl, ?_, rfl, h3, h4, h5, h6, ?_, ?_, h9, h10, h11⟩
  · dsimp only; omega
  · dsimp only; omega
  · dsimp only; rw [h8, List.append_assoc]

theorem moeadStep_carries (ops ops' : Ops X O F C U (MoeadVec m ℝ) S Q R) (mo : MoeadOps m ℝ X O F C U) (useRepair : Bool) (i : Nat)
    (a : EA X O F C U (MoeadVec m ℝ) S Q) (hev : ∀ k, ops'.evaluate k = ops.evaluate (a.clock + k)) :
    Carries (fun v : MoeadVec m ℝ => v) (fun _ : S => ()) a (moeadStep ops mo useRepair i) (moeadStep ops' (sinceMoead a.clock mo) useRepair i) := by
  intro s t h
  have hvec : s.vec = t.vec := h.vec
  unfold moeadStep
  have e0 : chooseParents ((sinceMoead a.clock mo).pick t.clock) t.vec.neigh i = chooseParents (mo.pick s.clock) s.vec.neigh i := by
    rw [h.clock, hvec]; rfl
  rw [e0]
  cases chooseParents (mo.pick s.clock) s.vec.neigh i with
  | error e => exact ⟨rfl, h⟩
  | ok ab =>
    obtain ⟨p, q⟩ := ab
    dsimp only
    have e1 : (sinceMoead a.clock mo).mate (t.clock + 1) t.pop p q = mo.mate (s.clock + 1) s.pop p q := by
      rw [h.clock, h.pop, Nat.add_assoc]; rfl
    rw [e1]
    have hc1 : Continues (fun v : MoeadVec m ℝ => v) (fun _ : S => ()) a ({ s with clock := s.clock + 1 } : EA X O F C U (MoeadVec m ℝ) S Q)
        ({ t with clock := t.clock + 1 } : EA X O F C U (MoeadVec m ℝ) S Q) :=
      ⟨by show s.clock + 1 = a.clock + (t.clock + 1); have := h.clock; omega, h.pop, h.vec, h.sel, h.gen, h.fe, h.evals, h.log, h.total, h.saveND, h.surr⟩
    have hc2 : Continues (fun v : MoeadVec m ℝ => v) (fun _ : S => ()) a ({ s with clock := s.clock + 1 + 1 } : EA X O F C U (MoeadVec m ℝ) S Q)
        ({ t with clock := t.clock + 1 + 1 } : EA X O F C U (MoeadVec m ℝ) S Q) :=
      ⟨by show s.clock + 1 + 1 = a.clock + (t.clock + 1 + 1); have := h.clock; omega, h.pop, h.vec, h.sel, h.gen, h.fe, h.evals, h.log, h.total, h.saveND, h.surr⟩
    rcases mo.mate (s.clock + 1) s.pop p q with e | (_ | ⟨x0, xs⟩)
    · exact ⟨rfl, hc1⟩
    · exact ⟨rfl, hc1⟩
    · dsimp only
      have hrep : (if useRepair then (sinceMoead a.clock mo).repair x0 else x0) = (if useRepair then mo.repair x0 else x0) := rfl
      rw [hrep]
      generalize (if useRepair then mo.repair x0 else x0) = x
      generalize ({ s with clock := s.clock + 1 + 1 } : EA X O F C U (MoeadVec m ℝ) S Q) = s' at hc2
      generalize ({ t with clock := t.clock + 1 + 1 } : EA X O F C U (MoeadVec m ℝ) S Q) = t' at hc2
      clear hc1 h hvec e0 e1
      unfold moeadEvaluate
      have hnd : t'.pop.ndim = s'.pop.ndim := by rw [hc2.pop]
      rw [hnd]
      obtain ⟨q1, q2⟩ := popAdd_carries ops ops' a s' t' hev hc2 ⟨s'.pop.ndim - 1, [x]⟩
      generalize s'.popAdd ops ⟨s'.pop.ndim - 1, [x]⟩ = z at q1 q2
      generalize t'.popAdd ops' ⟨s'.pop.ndim - 1, [x]⟩ = z' at q1 q2
      obtain ⟨z, u⟩ := z
      obtain ⟨z', u'⟩ := z'
      dsimp only at q1 q2
      subst q1
      cases z' with
      | error e => exact ⟨rfl, q2⟩
      | ok res =>
        dsimp only
        have hc3 : Continues (fun v : MoeadVec m ℝ => v) (fun _ : S => ()) a (if u.cfg.useSurr then u else { u with fe := u.fe + 1 })
            (if u'.cfg.useSurr then u' else { u' with fe := u'.fe + 1 }) := by
          rw [q2.surr]
          cases u'.cfg.useSurr with
          | true => exact q2
          | false =>
            exact ⟨q2.clock, q2.pop, q2.vec, q2.sel, q2.gen, by show u.fe + 1 = a.fe + (u'.fe + 1); have := q2.fe; omega, q2.evals, q2.log, q2.total, q2.saveND, q2.surr⟩
        generalize (if u.cfg.useSurr then u else { u with fe := u.fe + 1 }) = w at hc3
        generalize (if u'.cfg.useSurr then u' else { u' with fe := u'.fe + 1 }) = w' at hc3
        have hv : w.vec = w'.vec := hc3.vec
        unfold moeadFinish
        have g1 : moeadSelect (sinceMoead a.clock mo) ((sinceMoead a.clock mo).ideal w'.clock) w'.vec w'.pop.fitness i =
            moeadSelect mo (mo.ideal w.clock) w.vec w.pop.fitness i := by rw [← hv, ← hc3.pop, hc3.clock]; rfl
        rw [g1]
        cases moeadSelect mo (mo.ideal w.clock) w.vec w.pop.fitness i with
        | error e => exact ⟨rfl, hc3⟩
        | ok sel =>
          dsimp only
          rw [← hc3.pop]
          have hpop : ∀ pp, Continues (fun v : MoeadVec m ℝ => v) (fun _ : S => ()) a ({ w with pop := pp } : EA X O F C U (MoeadVec m ℝ) S Q)
              ({ w' with pop := pp } : EA X O F C U (MoeadVec m ℝ) S Q) := fun pp =>
            ⟨hc3.clock, rfl, hc3.vec, hc3.sel, hc3.gen, hc3.fe, hc3.evals, hc3.log, hc3.total, hc3.saveND, hc3.surr⟩
          generalize replaceWith w.pop sel x res = y
          obtain ⟨y, pp⟩ := y
          cases y with
          | error e => exact ⟨rfl, hpop pp⟩
          | ok _ =>
            dsimp only
            generalize pp.delete [-1] = y
            obtain ⟨y, pq⟩ := y
            cases y with
            | error e => exact ⟨rfl, hpop pq⟩
            | ok _ =>
              dsimp only
              unfold EA.updateND
              have g3 : ({ w with pop := pq } : EA X O F C U (MoeadVec m ℝ) S Q).cfg.saveND = false := hc3.saveND.1
              have g4 : ({ w' with pop := pq } : EA X O F C U (MoeadVec m ℝ) S Q).cfg.saveND = false := hc3.saveND.2
              rw [g3, g4]
              exact ⟨rfl, hpop pq⟩

theorem moeadNextGen_carries (ops ops' : Ops X O F C U (MoeadVec m ℝ) S Q R) (mo : MoeadOps m ℝ X O F C U) (useRepair : Bool) (n : Nat)
    (a : EA X O F C U (MoeadVec m ℝ) S Q) (hev : ∀ k, ops'.evaluate k = ops.evaluate (a.clock + k)) :
    Carries (fun v : MoeadVec m ℝ => v) (fun _ : S => ()) a (moeadNextGen ops mo useRepair n) (moeadNextGen ops' (sinceMoead a.clock mo) useRepair n) := by
  have hs : ∀ is, Carries (fun v : MoeadVec m ℝ => v) (fun _ : S => ()) a (moeadSteps ops mo useRepair is) (moeadSteps ops' (sinceMoead a.clock mo) useRepair is) := by
    intro is
    induction is with
    | nil => exact fun s t h => ⟨rfl, h⟩
    | cons i is ih =>
      intro s t h
      unfold moeadSteps
      obtain ⟨b1, b2⟩ := moeadStep_carries ops ops' mo useRepair i a hev s t h
      generalize moeadStep ops mo useRepair i s = z at b1 b2
      generalize moeadStep ops' (sinceMoead a.clock mo) useRepair i t = z' at b1 b2
      obtain ⟨z, u⟩ := z
      obtain ⟨z', u'⟩ := z'
      dsimp only at b1 b2
      subst b1
      cases z' with
      | error e => exact ⟨rfl, b2⟩
      | ok _ => exact ih u u' b2
  intro s t h
  unfold moeadNextGen
  obtain ⟨b1, b2⟩ := hs (List.range n) s t h
  generalize moeadSteps ops mo useRepair (List.range n) s = z at b1 b2
  generalize moeadSteps ops' (sinceMoead a.clock mo) useRepair (List.range n) t = z' at b1 b2
  obtain ⟨z, u⟩ := z
  obtain ⟨z', u'⟩ := z'
  dsimp only at b1 b2
  subst b1
  cases z' with
  | error e => exact ⟨rfl, b2⟩
  | ok _ =>
    exact ⟨rfl, b2.clock, b2.pop, b2.vec, b2.sel, by show u.gen + 1 = a.gen + (u'.gen + 1); have := b2.gen; omega, b2.fe, b2.evals, b2.log, b2.total, b2.saveND, b2.surr⟩

theorem moeadBody_carries (ops : Ops X O F C U (MoeadRV m) S Q R) (mo : MoeadOps m ℝ X O F C U) (useRepair : Bool) (n : Nat)
    (a : EA X O F C U (MoeadRV m) S Q) :
    Carries MoeadRV.toVec (fun _ : S => ()) a (moeadBody ops mo useRepair n) (moeadBody (since a.clock ops) (sinceMoead a.clock mo) useRepair n) := by
  intro s t h
  have h' : Continues (fun v : MoeadVec m ℝ => v) (fun _ : S => ()) (a.withVec a.vec.toVec) (s.withVec s.vec.toVec) (t.withVec t.vec.toVec) :=
    ⟨h.clock, h.pop, h.vec, h.sel, h.gen, h.fe, h.evals, h.log, h.total, h.saveND, h.surr⟩
  obtain ⟨b1, b2⟩ := moeadNextGen_carries (ops.forGeneration (W := MoeadVec m ℝ)) ((since a.clock ops).forGeneration (W := MoeadVec m ℝ)) mo useRepair n
    (a.withVec a.vec.toVec) (fun k => rfl) _ _ h'
  unfold moeadBody
  dsimp only
  exact ⟨b1, b2.clock, b2.pop, h.vec, b2.sel, b2.gen, b2.fe, b2.evals, b2.log, b2.total, b2.saveND, b2.surr⟩

end moead

/-! ## The loop of the decomposition EAs -/

variable {Nn : V → Prop}

theorem regrouped_refl (s : EA X O F C U V S Q) (h : Nn s.vec) : Regrouped φ Nn s s :=
  ⟨s.iter, s.genIter, s.cfg.nIter, s.cfg.nGen, s.cfg.keepArchive, s.archive, s.vec, rfl, rfl, h, h⟩

theorem inTwoParts_of {a g g' w w' : EA X O F C U V S Q} (h : Continues φ σ a g g') (h1 : Regrouped φ Nn g w) (h2 : Regrouped φ Nn g' w') :
    InTwoParts a w' w := by
  obtain ⟨_, _, _, _, _, _, _, rfl, -⟩ := h1
  obtain ⟨_, _, _, _, _, _, _, rfl, -⟩ := h2
  exact ⟨h.pop.symm, h.gen, h.fe, h.evals, h.log⟩

/-- A new object at `t` and the old one at `s`, as many generations to go. -/
theorem drive_carries {a s t : EA X O F C U V S Q} {body body' : EA X O F C U V S Q → EARes Unit X O F C U V S Q} (hc : Ticks body) (hc' : Ticks body')
    (hb : Steady φ Nn body) (hb' : Steady φ Nn body') (hcar : Carries φ σ a body body') (ops ops' : Ops X O F C U V S Q R)
    (had : ∀ v f, Nn v → Nn (ops.adapt v f) ∧ φ (ops.adapt v f) = φ v) (had' : ∀ v f, Nn v → Nn (ops'.adapt v f) ∧ φ (ops'.adapt v f) = φ v)
    (prefs prefs' : Nat → Option (Pref R)) (fuel fuel' : Nat) (h : Continues φ σ a s t) (hs : Silent s) (ht : Silent t) (hns : Nn s.vec) (hnt : Nn t.vec)
    (hf : s.cfg.nIter - s.iter ≤ fuel) (hf' : t.cfg.nIter - t.iter ≤ fuel')
    (hn : (s.cfg.nIter - s.iter) * s.cfg.nGen = (t.cfg.nIter - t.iter) * t.cfg.nGen) :
    (EA.drive ops' body' prefs' fuel' t).1 = (EA.drive ops body prefs fuel s).1 ∧
      InTwoParts a (EA.drive ops' body' prefs' fuel' t).2 (EA.drive ops body prefs fuel s).2 := by
  obtain ⟨d1, d2⟩ := drive_gens hc hb ops had prefs fuel s s (regrouped_refl s hns) hs hf
  obtain ⟨e1, e2⟩ := drive_gens hc' hb' ops' had' prefs' fuel' t t (regrouped_refl t hnt) ht hf'
  rw [hn] at d1 d2
  obtain ⟨g1, g2⟩ := gens_carries hcar ((t.cfg.nIter - t.iter) * t.cfg.nGen) s t h
  exact ⟨e1.trans (g1.trans d1.symm), inTwoParts_of g2 d2 e2⟩

/-- A run in two parts: `s1` to `mid`, a new object `s2`; `s3` is `s1` with the generations of both. -/
theorem resumed {s1 s2 s3 mid : EA X O F C U V S Q} {body body' : EA X O F C U V S Q → EARes Unit X O F C U V S Q} (hc : Ticks body) (hc' : Ticks body')
    (hb : Steady φ Nn body) (hb' : Steady φ Nn body') (ops ops' : Ops X O F C U V S Q R)
    (had : ∀ v f, Nn v → Nn (ops.adapt v f) ∧ φ (ops.adapt v f) = φ v) (had' : ∀ v f, Nn v → Nn (ops'.adapt v f) ∧ φ (ops'.adapt v f) = φ v)
    (prefs prefs2 prefs3 : Nat → Option (Pref R)) (fuel fuel2 fuel3 : Nat)
    (hmid : EA.drive ops body prefs fuel s1 = (.ok (), mid)) (hcar : Carries φ σ mid body body')
    (hst : ∀ u, Regrouped φ Nn u mid → φ u.vec = φ s1.vec → u.cfg = s1.cfg → Continues φ σ mid u s2)
    (hvec : ∀ n u, φ (gens body n u).2.vec = φ u.vec)
    (h3 : Regrouped φ Nn s1 s3) (q1 : Silent s1) (q2 : Silent s2) (q3 : Silent s3) (hn1 : Nn s1.vec) (hn2 : Nn s2.vec)
    (hf1 : s1.cfg.nIter - s1.iter ≤ fuel) (hf2 : s2.cfg.nIter - s2.iter ≤ fuel2) (hf3 : s3.cfg.nIter - s3.iter ≤ fuel3)
    (hn : (s3.cfg.nIter - s3.iter) * s3.cfg.nGen = (s1.cfg.nIter - s1.iter) * s1.cfg.nGen + (s2.cfg.nIter - s2.iter) * s2.cfg.nGen) :
    (EA.drive ops' body' prefs2 fuel2 s2).1 = (EA.drive ops body prefs3 fuel3 s3).1 ∧
      InTwoParts mid (EA.drive ops' body' prefs2 fuel2 s2).2 (EA.drive ops body prefs3 fuel3 s3).2 := by
  obtain ⟨d1, d2⟩ := drive_gens hc hb ops had prefs fuel s1 s1 (regrouped_refl s1 hn1) q1 hf1
  obtain ⟨e1, e2⟩ := drive_gens hc hb ops had prefs3 fuel3 s1 s3 h3 q3 hf3
  obtain ⟨f1, f2⟩ := drive_gens hc' hb' ops' had' prefs2 fuel2 s2 s2 (regrouped_refl s2 hn2) q2 hf2
  rw [hmid] at d1 d2
  rw [hn, gens_add] at e1 e2
  have hg1 := gens_cfg hc ((s1.cfg.nIter - s1.iter) * s1.cfg.nGen) s1
  have hv1 := hvec ((s1.cfg.nIter - s1.iter) * s1.cfg.nGen) s1
  generalize gens body ((s1.cfg.nIter - s1.iter) * s1.cfg.nGen) s1 = z at d1 d2 e1 e2 hg1 hv1
  obtain ⟨z, u⟩ := z
  dsimp only at d1 d2
  subst d1
  dsimp only at e1 e2 hv1
  obtain ⟨g1, g2⟩ := gens_carries hcar ((s2.cfg.nIter - s2.iter) * s2.cfg.nGen) u s2 (hst u d2 hv1 (hg1 rfl).1)
  exact ⟨f1.trans (g1.trans e1.symm), inTwoParts_of g2 e2 f2⟩

/-- What `MOEA_D.__init__` gives, from a problem. -/
theorem moeadConstruct_shape {m : Nat} (ops : Ops X O (Vec m) C U (MoeadRV m) S Q R) (design : Nat → Nat → Except Err (Batch X)) (argsort : List ℝ → List Nat)
    (nNeighbors nParents : Nat) (sel0 : S) (prob0 : Q) (useSurr keep saveND : Bool) (nIter nGen total : Nat) (pty : ProblemType) (nCons : Nat)
    (ps lr : Option Nat) (s : EA X O (Vec m) C U (MoeadRV m) S Q)
    (h : moeadConstruct ops design argsort nNeighbors nParents sel0 prob0 false useSurr keep saveND nIter nGen total pty nCons ps lr = .ok s) :
    nParents = 2 ∧ (∃ r v, chooseResolution m none (some (choosePopSize m ps lr)) = .ok (some r) ∧ RV.create m r = .ok v ∧
      s.vec = moeadInit argsort nNeighbors v) ∧ s.cfg = ⟨false, none, nIter, nGen, total, useSurr, keep, saveND⟩ ∧ s.iter = 0 ∧
      ∀ keep' nIter' nGen', moeadConstruct ops design argsort nNeighbors nParents sel0 prob0 false useSurr keep' saveND nIter' nGen' total pty nCons ps lr =
        .ok (regroup 0 0 nIter' nGen' keep' [] s.vec s) := by
  unfold moeadConstruct at h ⊢
  have hc := fun keep' nIter' nGen' => construct_regroup ops design (fun _ => (⟨⟨[], [], [], [], 0⟩, []⟩ : MoeadRV m)) (fun _ => sel0) prob0 false useSurr keep saveND
    keep' nIter nGen nIter' nGen' total (some (pty, m, nCons)) none ps lr
  cases hz : construct ops design (fun _ => (⟨⟨[], [], [], [], 0⟩, []⟩ : MoeadRV m)) (fun _ => sel0) prob0 false useSurr keep saveND
      nIter nGen total (some (pty, m, nCons)) none ps lr with
  | error e => rw [hz] at h; simp at h
  | ok s0 =>
    have hcfg : s0.cfg = ⟨false, none, nIter, nGen, total, useSurr, keep, saveND⟩ ∧ s0.iter = 0 := by
      unfold construct at hz
      dsimp only at hz
      split at hz
      · simp at hz
      · unfold EA.popAdd at hz
        dsimp only at hz
        split at hz
        · simp at hz
        · rename_i hp
          simp only [Prod.mk.injEq] at hp
          simp only [Except.ok.injEq] at hz
          rw [← hz, ← hp.2]
          exact ⟨rfl, rfl⟩
    rw [hz] at h hc
    dsimp only at h
    split at h
    · simp at h
    · rename_i hnp
      split at h
      · simp at h
      · simp at h
      · rename_i r hr
        split at h
        · simp at h
        · rename_i v hv
          simp only [Except.ok.injEq] at h
          subst h
          refine ⟨by omega, ⟨r, v, hr, hv, rfl⟩, hcfg.1, hcfg.2, fun keep' nIter' nGen' => ?_⟩
          rw [hc]
          simp only [Except.map]
          rw [if_neg hnp]
          rfl

/-- **C99** for MOEA/D (not interactive, no evaluation budget, non-dominated solutions not saved): it can be stopped and resumed.  As for IBEA:
`s2` is made from the population of `mid` (whose `pop_size` is that of the problem's construction), with the same `n_neighbors`. -/
theorem c99_moead_hand_over {m : Nat} (ops : Ops X O (Vec m) C U (MoeadRV m) S Q R) (mo : MoeadOps m ℝ X O (Vec m) C U) (useRepair : Bool)
    (design design' : Nat → Nat → Except Err (Batch X)) (argsort : List ℝ → List Nat) (nNeighbors nParents : Nat) (sel0 sel2 : S) (prob0 prob2 : Q)
    (had : ops.adapt = moeadAdapt argsort nNeighbors) (useSurr keep keep2 keep3 : Bool) (nIter nGen nIter2 nGen2 nIter3 nGen3 : Nat)
    (hsum : nIter3 * nGen3 = nIter * nGen + nIter2 * nGen2) (pty : ProblemType) (nCons : Nat) (ps lr : Option Nat)
    (prefs prefs2 prefs3 : Nat → Option (Pref R)) (fuel fuel2 fuel3 : Nat) (hf : nIter ≤ fuel) (hf2 : nIter2 ≤ fuel2) (hf3 : nIter3 ≤ fuel3)
    (N : Nat) (hN : N = choosePopSize m ps lr) (s1 mid : EA X O (Vec m) C U (MoeadRV m) S Q)
    (h1 : moeadConstruct ops design argsort nNeighbors nParents sel0 prob0 false useSurr keep false nIter nGen 0 pty nCons ps lr = .ok s1)
    (hmid : EA.drive ops (moeadBody ops mo useRepair N) prefs fuel s1 = (.ok (), mid)) :
    ∃ s2 s3, moeadFromPopulation (since mid.clock ops) design' argsort nNeighbors nParents sel2 prob2 false useSurr keep2 false nIter2 nGen2 0 mid.pop N = .ok s2 ∧
      moeadConstruct ops design argsort nNeighbors nParents sel0 prob0 false useSurr keep3 false nIter3 nGen3 0 pty nCons ps lr = .ok s3 ∧
      (EA.drive (since mid.clock ops) (moeadBody (since mid.clock ops) (sinceMoead mid.clock mo) useRepair N) prefs2 fuel2 s2).1 =
        (EA.drive ops (moeadBody ops mo useRepair N) prefs3 fuel3 s3).1 ∧
      InTwoParts mid (EA.drive (since mid.clock ops) (moeadBody (since mid.clock ops) (sinceMoead mid.clock mo) useRepair N) prefs2 fuel2 s2).2
        (EA.drive ops (moeadBody ops mo useRepair N) prefs3 fuel3 s3).2 := by
  obtain ⟨hnp, ⟨r, v, hr, hv, hs1v⟩, a1, a2, a3⟩ :=
    moeadConstruct_shape ops design argsort nNeighbors nParents sel0 prob0 useSurr keep false nIter nGen 0 pty nCons ps lr s1 h1
  rw [← hN] at hr
  obtain ⟨s2, hs2, b1, b2, b3, b4, b5, b6, b7, b8, b9⟩ :
      ∃ s2, moeadFromPopulation (since mid.clock ops) design' argsort nNeighbors nParents sel2 prob2 false useSurr keep2 false nIter2 nGen2 0 mid.pop N = .ok s2 ∧
        s2.pop = mid.pop ∧ s2.clock = 0 ∧ s2.vec = moeadInit argsort nNeighbors v ∧ s2.gen = 0 ∧ s2.fe = 0 ∧ s2.trueEvals = 0 ∧ s2.log = [] ∧
        s2.cfg = ⟨false, none, nIter2, nGen2, 0, useSurr, keep2, false⟩ ∧ s2.iter = 0 := by
    unfold moeadFromPopulation construct
    simp only [Bool.false_eq_true, if_false]
    rw [if_neg (by omega), hr]
    dsimp only
    rw [hv]
    exact ⟨_, rfl, rfl, rfl, rfl, rfl, rfl, rfl, rfl, rfl, rfl⟩
  refine ⟨s2, _, hs2, a3 keep3 nIter3 nGen3, ?_⟩
  have hNear : PlanarNear argsort nNeighbors (moeadInit argsort nNeighbors v) := ⟨(create_norm r v hv).planar, rfl⟩
  have hadapt : ∀ v f, PlanarNear argsort nNeighbors v → PlanarNear argsort nNeighbors (ops.adapt v f) ∧ (ops.adapt v f).toVec = v.toVec := by
    rw [had]; exact fun v f h => moeadAdapt_planar argsort nNeighbors v f h
  have hN1 : PlanarNear argsort nNeighbors s1.vec := by rw [hs1v]; exact hNear
  have hN2 : PlanarNear argsort nNeighbors s2.vec := by rw [b3]; exact hNear
  refine resumed (φ := MoeadRV.toVec) (σ := fun _ : S => ()) (Nn := PlanarNear argsort nNeighbors) (s1 := s1) (mid := mid)
    (moeadBody_counts ops mo useRepair N).ticks (moeadBody_counts _ _ useRepair N).ticks
    (moeadBody_steady ops mo useRepair N _) (moeadBody_steady _ _ useRepair N _) ops (since mid.clock ops) hadapt hadapt prefs prefs2 prefs3 fuel fuel2 fuel3
    hmid (moeadBody_carries ops mo useRepair N mid) ?_ ?_ ⟨0, 0, nIter3, nGen3, keep3, [], _, rfl, rfl, hN1, hN1⟩ ?_ ?_ ?_ hN1 hN2 ?_ ?_ hf3 ?_
  · rintro u ⟨it, gi, nI, nG, k, ar, w, e, -⟩ hu hcfg
    have hm : mid.clock = u.clock ∧ mid.pop = u.pop ∧ mid.gen = u.gen ∧ mid.fe = u.fe ∧ mid.trueEvals = u.trueEvals ∧ mid.log = u.log := by
      rw [e]; exact ⟨rfl, rfl, rfl, rfl, rfl, rfl⟩
    obtain ⟨m1, m2, m3, m4, m5, m6⟩ := hm
    constructor
    · rw [b2, m1]; rfl
    · rw [b1, m2]
    · rw [hu, hs1v, b3]
    · rfl
    · rw [b4, m3]; rfl
    · rw [b5, m4]; rfl
    · rw [b6, m5]; rfl
    · rw [b7, m6]; exact (List.append_nil _).symm
    · rw [hcfg, a1, b8]; exact ⟨rfl, rfl⟩
    · rw [hcfg, a1, b8]; exact ⟨rfl, rfl⟩
    · rw [hcfg, a1, b8]
  · intro n
    induction n with
    | zero => exact fun u => rfl
    | succ n ih =>
      intro u
      rw [gens_succ]
      split
      · have hb : (moeadBody ops mo useRepair N u).2.vec = u.vec := rfl
        generalize moeadBody ops mo useRepair N u = z at hb
        obtain ⟨z, w⟩ := z
        dsimp only at hb
        cases z with
        | error e => dsimp only; rw [hb]
        | ok _ => dsimp only; rw [ih w, hb]
      · rfl
  · unfold Silent; rw [a1]; exact ⟨rfl, rfl⟩
  · unfold Silent; rw [b8]; exact ⟨rfl, rfl⟩
  · unfold Silent; show s1.cfg.interact = false ∧ s1.cfg.location = none; rw [a1]; exact ⟨rfl, rfl⟩
  · rw [a1, a2]; exact hf
  · rw [b8, b9]; exact hf2
  · rw [a1, a2, b8, b9]; exact hsum

/-! ## NSGA-III -/

/-- The selection sees the vectors through `φ` only, and does not change that. -/
theorem nextGen_carries (ops : Ops X O F C U V S Q R) (a : EA X O F C U V S Q)
    (hsel : ∀ clk v v' t p, φ v' = φ v → (ops.select clk v' t p).1 = (ops.select clk v t p).1 ∧
      (ops.select clk v' t p).2.2 = (ops.select clk v t p).2.2 ∧ φ (ops.select clk v' t p).2.1 = φ (ops.select clk v t p).2.1) :
    Carries φ (fun t : S => t) a (EA.nextGen ops) (EA.nextGen (since a.clock ops)) := by
  intro s t h
  have hs0 : s.sel = t.sel := h.sel
  rw [nextGen_eq, nextGen_eq]
  have e0 : (since a.clock ops).mate t.clock t.pop = ops.mate s.clock s.pop := by rw [h.clock, h.pop]; rfl
  rw [e0]
  have hc1 : Continues φ (fun t : S => t) a ({ s with clock := s.clock + 1 } : EA X O F C U V S Q) ({ t with clock := t.clock + 1 } : EA X O F C U V S Q) :=
    ⟨by show s.clock + 1 = a.clock + (t.clock + 1); have := h.clock; omega, h.pop, h.vec, h.sel, h.gen, h.fe, h.evals, h.log, h.total, h.saveND, h.surr⟩
  cases ops.mate s.clock s.pop with
  | error e => exact ⟨rfl, hc1⟩
  | ok off =>
    dsimp only
    obtain ⟨q1, q2⟩ := popAdd_carries ops (since a.clock ops) a _ _ (fun k => rfl) hc1 off
    generalize ({ s with clock := s.clock + 1 } : EA X O F C U V S Q).popAdd ops off = z at q1 q2
    generalize ({ t with clock := t.clock + 1 } : EA X O F C U V S Q).popAdd (since a.clock ops) off = z' at q1 q2
    clear hc1 h hs0 e0
    obtain ⟨z, u⟩ := z
    obtain ⟨z', u'⟩ := z'
    dsimp only at q1 q2
    subst q1
    cases z' with
    | error e => exact ⟨rfl, q2⟩
    | ok res =>
      dsimp only
      have n1 : u.updateND ops off.rows res = (.ok (), u) := by unfold EA.updateND; rw [q2.saveND.1]; rfl
      have n2 : u'.updateND (since a.clock ops) off.rows res = (.ok (), u') := by unfold EA.updateND; rw [q2.saveND.2]; rfl
      rw [n1, n2]
      dsimp only
      have hs0 : u.sel = u'.sel := q2.sel
      have e1 : (since a.clock ops).select u'.clock u'.vec u'.sel u'.pop = ops.select u.clock u'.vec u.sel u.pop := by rw [q2.clock, ← q2.pop, hs0]; rfl
      rw [e1]
      obtain ⟨r1, r2, r3⟩ := hsel u.clock u.vec u'.vec u.sel u.pop q2.vec.symm
      generalize ops.select u.clock u'.vec u.sel u.pop = y' at r1 r2 r3
      generalize ops.select u.clock u.vec u.sel u.pop = y at r1 r2 r3
      obtain ⟨y', v', t'⟩ := y'
      obtain ⟨y, v, t⟩ := y
      dsimp only at r1 r2 r3
      subst r1 r2
      have hk : ∀ pp, Continues φ (fun t : S => t) a ({ u with vec := v, sel := t', clock := u.clock + 1, pop := pp } : EA X O F C U V S Q)
          ({ u' with vec := v', sel := t', clock := u'.clock + 1, pop := pp } : EA X O F C U V S Q) := fun pp =>
        ⟨by show u.clock + 1 = a.clock + (u'.clock + 1); have := q2.clock; omega, rfl, r3.symm, rfl, q2.gen, q2.fe, q2.evals, q2.log, q2.total, q2.saveND, q2.surr⟩
      cases y' with
      | error e =>
        refine ⟨rfl, ?_⟩
        have := hk u.pop
        have e2 : ({ u' with vec := v', sel := t', clock := u'.clock + 1, pop := u.pop } : EA X O F C U V S Q) =
          { u' with vec := v', sel := t', clock := u'.clock + 1 } := by rw [q2.pop]
        rw [e2] at this
        exact this
      | ok idx =>
        dsimp only
        rw [q2.pop]
        generalize u'.pop.keep idx = c
        obtain ⟨c, pp⟩ := c
        cases c with
        | error e => exact ⟨rfl, hk pp⟩
        | ok _ =>
          dsimp only
          rw [q2.surr]
          obtain ⟨k1, k2, k3, k4, k5, k6, k7, k8, k9, k10, k11⟩ := hk pp
          cases hsu : u'.cfg.useSurr with
          | true => exact ⟨rfl, k1, rfl, k3, rfl, by show u.gen + 1 = a.gen + (u'.gen + 1); have := q2.gen; omega, k6, k7, k8, k9, k10, k11⟩
          | false =>
            exact ⟨rfl, k1, rfl, k3, rfl, by show u.gen + 1 = a.gen + (u'.gen + 1); have := q2.gen; omega,
              by show u.fe + _ = a.fe + (u'.fe + _); have := q2.fe; omega, k7, k8, k9, k10, k11⟩

/-- **C99** for NSGA-III (not interactive, no budget, non-dominated solutions not saved): handing the population to a new object is the same as
resetting the operator's `ideal`, `worst_fitness` and `extreme_points` in the old one.  `s1` runs to `mid`; `s2` is made from the population of
`mid`; `s3` is `mid` itself with that reset and with the iterations of `s2` to go. -/
theorem c99_nsga_hand_over {m : Nat} (ops : Ops X O (Vec m) (List ℝ) (Vec m) (RV m) (Nsga m) Q R) (ty : SelType)
    (sort : List (Vec m) → List (List Nat)) (solve : List (Vec m) → Option (Vec m)) (rnd : Nat → NicheRand) (ns : Option Nat)
    (had : ops.adapt = rvAdapt) (hsel : ops.select = nsgaSelect ty sort solve rnd ns)
    (design design' : Nat → Nat → Except Err (Batch X)) (v0 : RV m) (r : Nat) (hv0 : RV.create m r = .ok v0) (sel0 sel2 : Nat → Nsga m) (prob0 prob2 : Q)
    (useSurr keep keep2 : Bool) (nIter nGen nIter2 nGen2 n : Nat) (problem : Option (ProblemType × Nat × Nat))
    (initPop : Option (Pop X O (Vec m) (List ℝ) (Vec m) × Nat)) (ps lr ps2 lr2 : Option Nat) (prefs prefs2 prefs3 : Nat → Option (Pref R))
    (fuel fuel2 fuel3 : Nat) (hf : nIter ≤ fuel) (hf2 : nIter2 ≤ fuel2) (hf3 : nIter2 ≤ fuel3)
    (s1 mid : EA X O (Vec m) (List ℝ) (Vec m) (RV m) (Nsga m) Q)
    (h1 : construct ops design (fun _ => v0) sel0 prob0 false useSurr keep false nIter nGen 0 problem initPop ps lr = .ok s1)
    (hmid : EA.drive ops (EA.nextGen ops) prefs fuel s1 = (.ok (), mid)) :
    ∃ s2, construct (since mid.clock ops) design' (fun _ => v0) sel2 prob2 false useSurr keep2 false nIter2 nGen2 0 none (some (mid.pop, n)) ps2 lr2 = .ok s2 ∧
      ∀ s3, s3 = { mid with sel := sel2 n, iter := 0, cfg := { mid.cfg with nIter := nIter2, nGen := nGen2 } } →
      (EA.drive (since mid.clock ops) (EA.nextGen (since mid.clock ops)) prefs2 fuel2 s2).1 = (EA.drive ops (EA.nextGen ops) prefs3 fuel3 s3).1 ∧
      InTwoParts mid (EA.drive (since mid.clock ops) (EA.nextGen (since mid.clock ops)) prefs2 fuel2 s2).2 (EA.drive ops (EA.nextGen ops) prefs3 fuel3 s3).2 := by
  refine ⟨_, rfl, ?_⟩
  intro s3 hs3
  obtain ⟨a1, a2, a3, a4, n1, a5⟩ := construct_silent ops design _ sel0 prob0 useSurr keep false nIter nGen 0 problem initPop ps lr s1 h1
  have acfg : s1.cfg.total = 0 ∧ s1.cfg.saveND = false ∧ s1.cfg.useSurr = useSurr := by
    unfold construct at h1
    dsimp only at h1
    split at h1
    · split at h1
      · simp at h1
      · simp only [Except.ok.injEq] at h1
        subst h1
        exact ⟨rfl, rfl, rfl⟩
    · split at h1
      · simp at h1
      · split at h1
        · simp at h1
        · split at h1
          · simp at h1
          · rename_i hp
            simp only [Except.ok.injEq] at h1
            subst h1
            unfold EA.popAdd at hp
            simp only [Prod.mk.injEq] at hp
            rw [← hp.2]
            exact ⟨rfl, rfl, rfl⟩
  have hN : Planar v0 := (create_norm r v0 hv0).planar
  have hselφ : ∀ clk v v' t p, v'.planar = v.planar → (ops.select clk v' t p).1 = (ops.select clk v t p).1 ∧
      (ops.select clk v' t p).2.2 = (ops.select clk v t p).2.2 ∧ (ops.select clk v' t p).2.1 = v' := by
    intro clk v v' t p h3
    rw [hsel]
    unfold nsgaSelect
    rw [h3]
    cases calcFitness ty p.fitness p.uncertainity with
    | error e => exact ⟨rfl, rfl, rfl⟩
    | ok fit =>
      dsimp only
      generalize nsgaDo sort solve (rnd clk) v.planar ns t fit = z
      obtain ⟨z, t2⟩ := z
      cases z with
      | error e => exact ⟨rfl, rfl, rfl⟩
      | ok sel => exact ⟨rfl, rfl, rfl⟩
  have hst : ∀ c, Steady (fun v : RV m => v.planar) Planar (EA.nextGen (since c ops)) := by
    intro c
    refine nextGen_steady _ ?_
    intro clk v v' t p h1 h2 h3
    have g1 := hselφ (c + clk) v v' t p h3
    have g2 := hselφ (c + clk) v v t p rfl
    have e1 : ((since c ops).select clk v' t p) = ops.select (c + clk) v' t p := rfl
    have e2 : ((since c ops).select clk v t p) = ops.select (c + clk) v t p := rfl
    rw [e1, e2]
    refine ⟨g1.1, g1.2.1, ?_, ?_, ?_⟩
    · show (ops.select (c + clk) v' t p).2.1.planar = (ops.select (c + clk) v t p).2.1.planar
      rw [g1.2.2, g2.2.2]; exact h3
    · rw [g1.2.2]; exact h2
    · rw [g2.2.2]; exact h1
  have hst0 : Steady (fun v : RV m => v.planar) Planar (EA.nextGen ops) := by
    have := hst 0
    have e : since 0 ops = ops := by unfold since; simp only [Nat.zero_add]
    rw [e] at this
    exact this
  have hadapt : ∀ v f, Planar v → Planar (ops.adapt v f) ∧ (ops.adapt v f).planar = v.planar := by rw [had]; exact fun v f h => rvAdapt_planar v f h
  have hn1 : Planar s1.vec := by rw [a5]; exact hN
  obtain ⟨d1, d2⟩ := drive_gens (nextGen_counts ops).ticks hst0 ops hadapt prefs fuel s1 s1 (regrouped_refl s1 hn1) a1 (by rw [a2, a3]; exact hf)
  rw [hmid] at d1 d2
  have hvec : ∀ n (u : EA X O (Vec m) (List ℝ) (Vec m) (RV m) (Nsga m) Q), (gens (EA.nextGen ops) n u).2.vec.planar = u.vec.planar := by
    intro n
    induction n with
    | zero => exact fun u => rfl
    | succ n ih =>
      intro u
      rw [gens_succ]
      split
      · have hb : (EA.nextGen ops u).2.vec.planar = u.vec.planar := by
          rw [nextGen_eq]
          cases ops.mate u.clock u.pop with
          | error e => rfl
          | ok off =>
            dsimp only
            have hv : (({ u with clock := u.clock + 1 } : EA X O (Vec m) (List ℝ) (Vec m) (RV m) (Nsga m) Q).popAdd ops off).2.vec = u.vec := rfl
            generalize ({ u with clock := u.clock + 1 } : EA X O (Vec m) (List ℝ) (Vec m) (RV m) (Nsga m) Q).popAdd ops off = z at hv
            obtain ⟨z, w⟩ := z
            dsimp only at hv
            cases z with
            | error e => dsimp only; rw [hv]
            | ok res =>
              dsimp only
              have hu : (w.updateND ops off.rows res).2.vec = w.vec := by
                unfold EA.updateND
                split
                · split <;> rfl
                · rfl
              generalize w.updateND ops off.rows res = y at hu
              obtain ⟨y, x⟩ := y
              dsimp only at hu
              cases y with
              | error e => dsimp only; rw [hu, hv]
              | ok _ =>
                dsimp only
                have g := (hselφ x.clock x.vec x.vec x.sel x.pop rfl).2.2
                generalize ops.select x.clock x.vec x.sel x.pop = y at g
                obtain ⟨y, v', t'⟩ := y
                dsimp only at g
                cases y with
                | error e => dsimp only; rw [g, hu, hv]
                | ok idx =>
                  dsimp only
                  generalize x.pop.keep idx = c
                  obtain ⟨c, pp⟩ := c
                  cases c with
                  | error e => dsimp only; rw [g, hu, hv]
                  | ok _ =>
                    dsimp only
                    split <;> (dsimp only; rw [g, hu, hv])
        generalize EA.nextGen ops u = z at hb
        obtain ⟨z, w⟩ := z
        dsimp only at hb
        cases z with
        | error e => exact hb
        | ok _ => exact (ih w).trans hb
      · rfl
  have hg1 := gens_cfg (nextGen_counts ops).ticks ((s1.cfg.nIter - s1.iter) * s1.cfg.nGen) s1
  have hv1 := hvec ((s1.cfg.nIter - s1.iter) * s1.cfg.nGen) s1
  generalize gens (EA.nextGen ops) ((s1.cfg.nIter - s1.iter) * s1.cfg.nGen) s1 = z at d1 d2 hg1 hv1
  obtain ⟨z, u⟩ := z
  dsimp only at d1 d2 hv1
  have hucfg : u.cfg = s1.cfg := (hg1 d1.symm).1
  have hmv : mid.vec.planar = v0.planar ∧ Planar mid.vec ∧ Silent mid ∧ mid.cfg.total = 0 ∧ mid.cfg.saveND = false ∧ mid.cfg.useSurr = useSurr := by
    obtain ⟨it, gi, nI, nG, k, ar, w, e, w1, w2, w3⟩ := d2
    rw [e]
    have hs : Silent u := by unfold Silent; rw [hucfg]; exact a1
    refine ⟨?_, w2, hs, ?_, ?_, ?_⟩
    · show w.planar = v0.planar
      exact (w1.trans hv1).trans (by rw [a5])
    · show u.cfg.total = 0; rw [hucfg]; exact acfg.1
    · show u.cfg.saveND = false; rw [hucfg]; exact acfg.2.1
    · show u.cfg.useSurr = useSurr; rw [hucfg]; exact acfg.2.2
  obtain ⟨p1, p2, p3, p4, p5, p6⟩ := hmv
  have hcar : Carries (fun v : RV m => v.planar) (fun t : Nsga m => t) mid (EA.nextGen ops) (EA.nextGen (since mid.clock ops)) := by
    refine nextGen_carries ops mid ?_
    intro clk v v' t p h
    have g1 := hselφ clk v v' t p h
    have g2 := hselφ clk v v t p rfl
    refine ⟨g1.1, g1.2.1, ?_⟩
    show (ops.select clk v' t p).2.1.planar = (ops.select clk v t p).2.1.planar
    rw [g1.2.2, g2.2.2]; exact h
  refine drive_carries (φ := fun v : RV m => v.planar) (σ := fun t : Nsga m => t) (Nn := Planar) (nextGen_counts ops).ticks (nextGen_counts _).ticks hst0 (hst _) hcar
    ops (since mid.clock ops) hadapt hadapt prefs3 prefs2 fuel3 fuel2 ?_ ?_ ⟨rfl, rfl⟩ ?_ hN ?_ hf2 ?_
  · rw [hs3]
    exact ⟨rfl, rfl, p1, rfl, rfl, rfl, rfl, (List.append_nil _).symm, ⟨p4, rfl⟩, ⟨p5, rfl⟩, p6⟩
  · rw [hs3]; exact p3
  · rw [hs3]; exact p2
  · rw [hs3]; exact hf3
  · rw [hs3]

theorem cheb_zero (x y b : ℝ) : ChebyshevLe ![0, 0] (0 : Fin 2) ![x, y] b ↔
    (if x < 1 / 10 ^ 3 then 0 else x) ≤ b ∧ (if y < 1 / 10 ^ 3 then 0 else y) * 10 ^ 6 ≤ b := by
  simp [ChebyshevLe, Fin.forall_fin_two]

theorem cheb_one (x y b : ℝ) : ChebyshevLe ![0, 0] (1 : Fin 2) ![x, y] b ↔
    (if x < 1 / 10 ^ 3 then 0 else x) * 10 ^ 6 ≤ b ∧ (if y < 1 / 10 ^ 3 then 0 else y) ≤ b := by
  simp [ChebyshevLe, Fin.forall_fin_two]

/-- **C99 (deviation)** for NSGA-III: the reset is seen.  With the fitnesses (4,0), (0,4) in one generation and (1,2), (2,1) in the next, and a
linear solver that is right about the first two, the operator that has seen both normalises the second generation with the nadir (4,4); the
operator of a new object, made from the population of the second generation, with a nadir of at most 2 in each objective. -/
theorem c99_nsga_nadir_violated (solve : List (Vec 2) → Option (Vec 2)) (hsolve : solve [![4, 0], ![0, 4]] = some ![1 / 4, 1 / 4]) :
    ∃ n1 n2 n3 st1 st2 st3,
      nsgaPoints solve ⟨![0, 0], none, none⟩ [(![4, 0] : Vec 2), ![0, 4]] [0, 1] = (.ok n1, st1) ∧
      nsgaPoints solve st1 [(![1, 2] : Vec 2), ![2, 1]] [0, 1] = (.ok n2, st2) ∧
      nsgaPoints solve ⟨![0, 0], none, none⟩ [(![1, 2] : Vec 2), ![2, 1]] [0, 1] = (.ok n3, st3) ∧
      (∀ i, n2 i = 4) ∧ ∀ i, n3 i ≤ 2 := by
  obtain ⟨n1, st1, g1⟩ := nsgaPoints_total solve ⟨![0, 0], none, none⟩ [(![4, 0] : Vec 2), ![0, 4]] [0, 1] (by simp) (by simp)
  obtain ⟨n2, st2, g2⟩ := nsgaPoints_total solve st1 [(![1, 2] : Vec 2), ![2, 1]] [0, 1] (by simp) (by simp)
  obtain ⟨n3, st3, g3⟩ := nsgaPoints_total solve ⟨![0, 0], none, none⟩ [(![1, 2] : Vec 2), ![2, 1]] [0, 1] (by simp) (by simp)
  refine ⟨n1, n2, n3, st1, st2, st3, g1, g2, g3, ?_, ?_⟩
  · obtain ⟨x1, x2⟩ := nsgaPoints_extremes solve ⟨![0, 0], none, none⟩ [(![4, 0] : Vec 2), ![0, 4]] [0, 1] _ _ rfl rfl
    obtain ⟨y1, y2⟩ := nsgaPoints_extremes solve st1 [(![1, 2] : Vec 2), ![2, 1]] [0, 1] _ _ rfl rfl
    rw [g1] at x1 x2
    rw [g2] at y1 y2
    dsimp only at x1 x2 y1 y2
    have hi1 : st1.ideal = ![0, 0] := by rw [x1]; funext i; fin_cases i <;> simp [nsgaExtremes]
    have hw1 : st1.worst = some ![4, 4] := by
      rw [x2]; simp only [nsgaExtremes, newWorst, Option.some.injEq]; funext i; fin_cases i <;> norm_num
    have hi2 : st2.ideal = ![0, 0] := by rw [y1]; funext i; fin_cases i <;> simp [nsgaExtremes, hi1]
    have hw2 : st2.worst = some ![4, 4] := by
      rw [y2]; simp only [nsgaExtremes, newWorst, Option.some.injEq, hw1]; funext i; fin_cases i <;> norm_num
    obtain ⟨ext1, w1, e1, -, e3, -⟩ := c54_hyperplane _ _ _ _ _ _ g1
    obtain ⟨ext2, w2, f1, f2, f3, f4⟩ := c54_hyperplane _ _ _ _ _ _ g2
    rw [hi1] at e3
    rw [hi2] at f3 f4
    rw [hw2, Option.some.injEq] at f2
    obtain ⟨l1, p1⟩ := c54_extreme_points (by norm_num) _ _ _ _ e3
    obtain ⟨l2, p2⟩ := c54_extreme_points (by norm_num) _ _ _ _ f3
    have hext1 : ext1 = [![4, 0], ![0, 4]] := by
      match ext1, l1 with
      | [a, b], _ =>
        obtain ⟨a1, a2⟩ := p1 0 a rfl
        obtain ⟨b1, b2⟩ := p1 1 b rfl
        have a3 := a2 ![4, 0] (.inl (by simp)) 4 (by rw [cheb_zero]; norm_num)
        have b3 := b2 ![0, 4] (.inl (by simp)) 4 (by rw [cheb_one]; norm_num)
        simp only [List.map_cons, List.map_nil, List.getD_cons_zero, List.getD_cons_succ, List.mem_cons, List.not_mem_nil, or_false, reduceCtorEq,
          false_and, exists_false] at a1 b1
        rcases a1 with rfl | rfl
        · rcases b1 with rfl | rfl
          · rw [cheb_one] at b3; norm_num at b3
          · rfl
        · rw [cheb_zero] at a3; norm_num at a3
    rw [e1, hext1] at p2
    have hext2 : ext2 = [![4, 0], ![0, 4]] := by
      match ext2, l2 with
      | [a, b], _ =>
        obtain ⟨a1, a2⟩ := p2 0 a rfl
        obtain ⟨b1, b2⟩ := p2 1 b rfl
        have a3 := a2 ![4, 0] (.inr ⟨_, rfl, by simp⟩) 4 (by rw [cheb_zero]; norm_num)
        have b3 := b2 ![0, 4] (.inr ⟨_, rfl, by simp⟩) 4 (by rw [cheb_one]; norm_num)
        simp only [List.map_cons, List.map_nil, List.getD_cons_zero, List.getD_cons_succ, List.mem_cons, List.not_mem_nil, or_false, Option.some.injEq,
          exists_eq_left'] at a1 b1
        have ha : a = ![4, 0] := by
          rcases a1 with (rfl | rfl) | rfl | rfl
          all_goals first | rfl | (rw [cheb_zero] at a3; norm_num at a3)
        have hb : b = ![0, 4] := by
          rcases b1 with (rfl | rfl) | rfl | rfl
          all_goals first | rfl | (rw [cheb_one] at b3; norm_num at b3)
        rw [ha, hb]
    subst hext2
    have hm : List.map (fun (e : Vec 2) i => e i - (![0, 0] : Vec 2) i) [![4, 0], ![0, 4]] = [![4, 0], ![0, 4]] := by
      simp only [List.map_cons, List.map_nil, List.cons.injEq, and_true]
      constructor <;> (funext i; fin_cases i <;> simp)
    obtain ⟨q, -⟩ := f4 ![1 / 4, 1 / 4] (by rw [hm]; exact hsolve)
      (by
        intro e he
        simp only [List.mem_cons, List.not_mem_nil, or_false] at he
        rcases he with rfl | rfl <;> simp [Fin.sum_univ_two])
      (by rw [← f2]; intro i; fin_cases i <;> norm_num)
    intro i
    have := q i
    fin_cases i <;> simpa using this
  · obtain ⟨x1, x2⟩ := nsgaPoints_extremes solve ⟨![0, 0], none, none⟩ [(![1, 2] : Vec 2), ![2, 1]] [0, 1] _ _ rfl rfl
    rw [g3] at x1 x2
    obtain ⟨worst, wf, h1, -, h3, -⟩ := c54_nadir_between_ideal_and_worst _ _ _ _ _ (by simp) _ g3
    dsimp only at x2
    rw [h1] at x2
    simp only [nsgaExtremes, newWorst, Option.some.injEq] at x2
    intro i
    refine le_trans (h3 i).2.1 ?_
    rw [x2]
    fin_cases i <;> norm_num

/-! ## A population with too few members -/

/-- A step of MOEA/D that reads a missing neighbourhood, or an individual that is not there, does not return. -/
theorem moeadStep_missing {m : Nat} (ops : Ops X O F C U (MoeadVec m ℝ) S Q R) (mo : MoeadOps m ℝ X O F C U) (useRepair : Bool) (i : Nat)
    (s t : EA X O F C U (MoeadVec m ℝ) S Q) (rs : List (Rec X O F C U)) (nCons : Nat)
    (hev : ∀ n sur b r, ops.evaluate n sur b = .ok r → EvalOK nCons b.rows.length r) (hrep : Represents s.pop rs) (hne : rs ≠ []) (hd : 0 < s.pop.ndim)
    (hn : s.pop.nCons = nCons) (hbad : ∀ nb, s.vec.neigh[i]? = some nb → ∃ k ∈ nb, rs.length + 1 ≤ k) :
    moeadStep ops mo useRepair i s ≠ (.ok (), t) := by
  intro h
  obtain ⟨-, -, -, -, -, -, -, -, a, b, x0, xs, res, p, sel, q, -, -, hadd, hsel, -, -⟩ := moeadStep_ok _ _ _ _ _ _ h
  generalize hev' : ops.evaluate (s.clock + 2) s.cfg.useSurr ⟨s.pop.ndim - 1, [if useRepair then mo.repair x0 else x0]⟩ = ev at hadd
  cases ev with
  | error e => simp [Pop.add] at hadd
  | ok r =>
    have hok := hev _ _ _ _ hev'
    have hin : s.pop.individuals ≠ none := by
      rcases hrep.inds with hh | ⟨-, hh⟩
      · rw [hh]; simp
      · exact absurd hh hne
    have h1 := (add_spec (d := s.pop.ndim) hrep ⟨s.pop.ndim - 1, [if useRepair then mo.repair x0 else x0]⟩ r
      (by rw [hn]; exact hok) (fun _ => rfl) (Or.inr ⟨by show s.pop.ndim - 1 + 1 = _; omega, rfl, hin⟩)).1
    rw [hadd] at h1
    have h2 : p.fitness.length = rs.length + 1 := by
      rw [h1.fits, List.length_map, List.length_append, newRecs_length _ _ nCons hok]
      rfl
    unfold moeadSelect at hsel
    split at hsel
    · cases hsel
    · rename_i nb hnb
      split at hsel
      · rename_i curs off ws hcur _ _
        have h3 := (takeRows_spec _ _ _ hcur).2.1
        obtain ⟨k, hk, hkl⟩ := hbad nb hnb
        have := h3 k hk
        omega
      · cases hsel

theorem moeadSteps_missing {m : Nat} (ops : Ops X O F C U (MoeadVec m ℝ) S Q R) (mo : MoeadOps m ℝ X O F C U) (useRepair : Bool) (i : Nat) (nCons : Nat)
    (hev : ∀ n sur b r, ops.evaluate n sur b = .ok r → EvalOK nCons b.rows.length r) (is : List Nat) (hi : i ∈ is) :
    ∀ (s t : EA X O F C U (MoeadVec m ℝ) S Q) (rs : List (Rec X O F C U)), Represents s.pop rs → rs ≠ [] → 0 < s.pop.ndim → s.pop.nCons = nCons →
      (∀ nb, s.vec.neigh[i]? = some nb → ∃ k ∈ nb, rs.length + 1 ≤ k) → moeadSteps ops mo useRepair is s ≠ (.ok (), t) := by
  induction is with
  | nil => simp at hi
  | cons j is ih =>
    intro s t rs hrep hne hd hn hbad h
    simp only [moeadSteps] at h
    split at h
    · simp at h
    · rename_i s1 hs1
      by_cases hij : i = j
      · subst hij
        exact moeadStep_missing ops mo useRepair i s s1 rs nCons hev hrep hne hd hn hbad hs1
      · obtain ⟨rs', a, nb, p1, p2, x0, xs, h1, h2, h3, h4, -⟩ := moeadStep_spec ops mo useRepair j s s1 rs nCons hev hrep hne hd hn hs1
        refine ih ?_ s1 t rs' h1 ?_ h3 h4 ?_ h
        · rcases List.mem_cons.1 hi with e | e
          · exact absurd e hij
          · exact e
        · intro e; rw [e] at h2; exact hne (List.length_eq_zero_iff.1 h2.symm)
        · rw [(moeadStep_ok ops mo useRepair j s s1 hs1).2.2.2.2.2.1, h2]
          exact hbad

/-- **C99 (deviation)** for MOEA/D: made from a population with fewer than `pop_size - 1` members (such as the one an RVEA run leaves behind), it
cannot complete a generation. -/
theorem c99_moead_small_population {m : Nat} (hm : 2 ≤ m) (ops : Ops X O (Vec m) C U (MoeadRV m) S Q R) (mo : MoeadOps m ℝ X O (Vec m) C U)
    (useRepair : Bool) (design : Nat → Nat → Except Err (Batch X)) (argsort : List ℝ → List Nat) (hsort : ∀ l, IsArgsort l (argsort l))
    (nNeighbors nParents : Nat) (hnn : 1 ≤ nNeighbors) (sel0 : S) (prob0 : Q) (interact useSurr keep saveND : Bool) (nIter nGen total N : Nat) (hN : m ≤ N)
    (p : Pop X O (Vec m) C U) (rs : List (Rec X O (Vec m) C U)) (hrep : Represents p rs) (hne : rs ≠ []) (hd : 0 < p.ndim)
    (hev : ∀ n sur b r, ops.evaluate n sur b = .ok r → EvalOK p.nCons b.rows.length r) (hsmall : rs.length + 1 < N)
    (s : EA X O (Vec m) C U (MoeadRV m) S Q)
    (h : moeadFromPopulation ops design argsort nNeighbors nParents sel0 prob0 interact useSurr keep saveND nIter nGen total p N = .ok s) :
    ∃ e t, moeadBody ops mo useRepair N s = (.error e, t) := by
  obtain ⟨r, q1, q2, -⟩ := c21_count_bounded m N hm
  have hcr := create_ok (m := m) r hm (q2 hN).1
  obtain ⟨v, hv, -, hnd, -⟩ := c20_uniform_is_simplex_lattice (m := m) r hm (q2 hN).1
  have hs : s.pop = p ∧ s.vec = moeadInit argsort nNeighbors v := by
    unfold moeadFromPopulation construct at h
    dsimp only at h
    rw [q1] at h
    dsimp only at h
    rw [hv] at h
    dsimp only at h
    by_cases hnp : nParents ≠ 2
    · rw [if_pos hnp] at h; simp at h
    · rw [if_neg hnp] at h
      injection h with h
      rw [← h]
      exact ⟨rfl, rfl⟩
  have hbad : ∀ nb, s.vec.neigh[N - 1]? = some nb → ∃ k ∈ nb, rs.length + 1 ≤ k := by
    intro nb hnb
    rw [hs.2] at hnb
    obtain ⟨l1, l2⟩ := neighborhoods_spec argsort hsort nNeighbors v.planar
    have hlt := (List.getElem?_eq_some_iff.1 hnb).1
    have hlt' : N - 1 < v.planar.length := by
      have : (moeadInit argsort nNeighbors v).neigh.length = v.planar.length := l1
      omega
    obtain ⟨nb', k1, k2⟩ := l2 (N - 1) _ (List.getElem?_eq_getElem hlt')
    have e : nb' = nb := by
      have := k1.symm.trans hnb
      simpa using this
    subst e
    exact ⟨N - 1, c39_neighbourhood_contains_itself nNeighbors v.planar (N - 1) _ nb' hnn hnd (List.getElem?_eq_getElem hlt') k2, by omega⟩
  have key := fun t => moeadSteps_missing (ops.forGeneration (W := MoeadVec m ℝ)) mo useRepair (N - 1) p.nCons hev (List.range N) (by simp; omega)
    (s.withVec s.vec.toVec) t rs (by rw [← hs.1] at hrep; exact hrep) hne (by rw [← hs.1] at hd; exact hd) (by show s.pop.nCons = _; rw [hs.1]) hbad
  unfold moeadBody moeadNextGen
  dsimp only
  generalize moeadSteps (ops.forGeneration (W := MoeadVec m ℝ)) mo useRepair (List.range N) (s.withVec s.vec.toVec) = z at key
  obtain ⟨z, t⟩ := z
  cases z with
  | error e => exact ⟨e, _, rfl⟩
  | ok u => exact absurd rfl (key t)

/-- The same for NSGA-III, made from a population that is too small for its `pop_size` even with its offspring: nobody survives the first
generation. -/
theorem c99_nsga_small_population {n m : Nat}
    (ops : Ops (Row n) O (Vec m) (List ℝ) (Vec m) (RV m) (Nsga m) Q R) (lo hi' : Fin n → ℝ) (draw : Nat → MateDraw n)
    (toCall : Nat → Kind → Pop (Row n) O (Vec m) (List ℝ) (Vec m) → R → Except Err (VecCall m))
    (hd : Decomposition ops lo hi' draw toCall) (popSize : Nat)
    (sort : List (Vec m) → List (List Nat)) (hsort : ∀ fit, IsFrontSort (IndDominates fit) fit.length (sort fit))
    (solve : List (Vec m) → Option (Vec m)) (rnd : Nat → NicheRand)
    (hsel : ops.select = nsgaSelect .mean sort solve rnd (nSurviveAttr none popSize))
    (nc : Nat) (unc : Bool) (hp : ProblemOK ops nc unc) (hall : ∀ clk surr b, ∃ res, ops.evaluate clk surr b = .ok res)
    (design : Nat → Nat → Except Err (Batch (Row n))) (v0 : RV m) (sel0 : Nat → Nsga m) (prob0 : Q) (interact useSurr keep : Bool) (nIter nGen total : Nat)
    (ps lr : Option Nat) (p : Pop (Row n) O (Vec m) (List ℝ) (Vec m)) (rs : List (Rec (Row n) O (Vec m) (List ℝ) (Vec m)))
    (hr : Represents p rs) (hi : p.individuals ≠ none) (hdim : p.ndim = 2) (hc : p.nCons = nc)
    (hun : p.uncertainity = none ↔ unc = false) (hne : rs ≠ []) (hsmall : rs.length + (rs.length + rs.length % 2) < popSize)
    (s : EA (Row n) O (Vec m) (List ℝ) (Vec m) (RV m) (Nsga m) Q)
    (h : construct ops design (fun _ => v0) sel0 prob0 interact useSurr keep false nIter nGen total none (some (p, popSize)) ps lr = .ok s) :
    ∃ t, EA.nextGen ops s = (.ok (), t) ∧ Represents t.pop [] := by
  have hs : s.pop = p ∧ s.cfg.saveND = false := by
    injection h with h
    rw [← h]
    exact ⟨rfl, rfl⟩
  refine c63_small_population_dies ops lo hi' draw toCall hd popSize sort hsort solve rnd hsel nc unc hp hall s rs ?_ ?_ ?_ ?_ ?_ hs.2 hne hsmall
  all_goals rw [hs.1]; assumption

/-! ## The hypotheses are met -/

/-- If `iterate` returns after every history, the driver loop returns. -/
theorem drive_returns (ops : Ops X O F C U V S Q R) (body : EA X O F C U V S Q → EARes Unit X O F C U V S Q) (prefs : Nat → Option (Pref R)) (fuel : Nat) :
    ∀ s : EA X O F C U V S Q, (∀ cs pref, ∃ o, ((s.callsWith ops body cs).iterateWith ops body pref).1 = .ok o) →
      ∃ t, EA.drive ops body prefs fuel s = (.ok (), t) := by
  induction fuel with
  | zero => exact fun s _ => ⟨s, rfl⟩
  | succ fuel ih =>
    intro s h
    unfold EA.drive
    split
    · obtain ⟨o, ho⟩ := h [] (prefs s.iter)
      have ho' : (s.iterateWith ops body (prefs s.iter)).1 = .ok o := ho
      have h2 := fun cs => h (.iterate (prefs s.iter) :: cs)
      generalize hz : s.iterateWith ops body (prefs s.iter) = z at ho'
      obtain ⟨z, s'⟩ := z
      dsimp only at ho'
      subst ho'
      dsimp only
      refine ih s' (fun cs pref => ?_)
      have := h2 cs pref
      simp only [EA.callsWith, hz] at this
      exact this
    · exact ⟨s, rfl⟩

theorem indDrive_returns (io : IndOps X O F C U P R) (N : Nat) (prefs : Nat → Option (Pref R)) (fuel : Nat) :
    ∀ s : EA X O F C U P (List ℝ) Q, (∀ cs pref, ∃ o, (indIterate io N (indCalls io N s cs) pref).1 = .ok o) →
      ∃ t, indDrive io N prefs fuel s = (.ok (), t) := by
  induction fuel with
  | zero => exact fun s _ => ⟨s, rfl⟩
  | succ fuel ih =>
    intro s h
    unfold indDrive
    split
    · obtain ⟨o, ho⟩ := h [] (prefs s.iter)
      have ho' : (indIterate io N s (prefs s.iter)).1 = .ok o := ho
      have h2 := fun cs => h (.iterate (prefs s.iter) :: cs)
      generalize hz : indIterate io N s (prefs s.iter) = z at ho'
      obtain ⟨z, s'⟩ := z
      dsimp only at ho'
      subst ho'
      dsimp only
      refine ih s' (fun cs pref => ?_)
      have := h2 cs pref
      simp only [indCalls, List.foldl_cons, indCall, hz] at this ⊢
      exact this
    · exact ⟨s, rfl⟩

/-- `c97_indicator_grouping`, `c99_indicator_hand_over`: four individuals, three iterations of seven generations, all of which return. -/
example (prefs : Nat → Option (Pref Nat)) : ∃ s mid : EA (Row 1) ℝ (Fin 2 → ℝ) Nat Nat Nat (List ℝ) Unit,
    indConstruct demoIndRun (boxDesign (fun _ => 0) (fun _ => 1) (fun _ k => List.replicate k (fun _ => 0))) 0 () false false 3 7 0 0 4 none = .ok s ∧
      indDrive demoIndRun 4 prefs 3 s = (.ok (), mid) := by
  have h1 : EvaluatesOK demoIndRun 0 false := by
    intro clk surr b r hr
    simp only [demoIndRun, Except.ok.injEq] at hr
    subst hr
    exact ⟨⟨by simp, by simp, fun _ => rfl, fun h => absurd rfl h, by simp⟩, by simp⟩
  have h2 : ∀ clk k, LegalDraw 4 2 (demoIndRun.draw clk k) := fun clk k => ⟨rfl, by simp [demoIndRun], by simp [demoIndRun]⟩
  obtain ⟨s, hs⟩ : ∃ s : EA (Row 1) ℝ (Fin 2 → ℝ) Nat Nat Nat (List ℝ) Unit,
    indConstruct demoIndRun (boxDesign (fun _ => 0) (fun _ => 1) (fun _ k => List.replicate k (fun _ => 0))) 0 () false false 3 7 0 0 4 none = .ok s := ⟨_, rfl⟩
  obtain ⟨t, ht⟩ := indDrive_returns demoIndRun 4 prefs 3 s (fun cs pref => ⟨none,
    ((c80_iterate_returns demoIndRun 4 0 false (by omega) (fun _ => 0) (fun _ => 1) (fun _ => by norm_num) _ rfl h2 h1 (fun _ _ _ => ⟨_, rfl⟩)
    (fun _ k => List.replicate k (fun _ => 0)) (by simp) (by
      intro clk k u hu i
      rw [List.eq_of_mem_replicate hu]; norm_num) 0 () false false 3 7 0 s hs cs).1 rfl pref).1⟩)
  exact ⟨s, t, hs, ht⟩

/-- `c99_moead_hand_over`: ten individuals, ten iterations of ten generations, all of which return. -/
example (argsort : List ℝ → List Nat) (ha : ∀ l, IsArgsort l (argsort l)) (prefs : Nat → Option (Pref (Vec 2))) :
    ∃ s mid, moeadConstruct (demoMoeadRun argsort 4) (boxDesign (fun _ => 0) (fun _ => 1) (fun _ k => List.replicate k (fun _ => 0))) argsort 4 2
        () () false false true false 10 10 0 .mo 0 none (some 9) = .ok s ∧
      EA.drive (demoMoeadRun argsort 4) (moeadBody (demoMoeadRun argsort 4) demoMoeadParts true (choosePopSize 2 none (some 9))) prefs 10 s = (.ok (), mid) := by
  obtain ⟨s, hs⟩ := demoMoead_made argsort 4 false none (some 9) (by decide)
  obtain ⟨draw, hM⟩ := demoMoead_is argsort ha 4
  obtain ⟨t, ht⟩ := drive_returns (demoMoeadRun argsort 4) (moeadBody (demoMoeadRun argsort 4) demoMoeadParts true (choosePopSize 2 none (some 9))) prefs 10 s
    (fun cs pref => ⟨none, (c74_moead_runs (by omega) (demoMoeadRun argsort 4) demoMoeadParts (fun _ => 0) (fun _ => 1) draw argsort 4 _ hM (by omega) 0 false
      (demoMoead_problem argsort 4) (by simp [demoMoeadRun]) (fun _ k => List.replicate k (fun _ => 0)) (by simp) () () false true false true 10 10 0 2 .mo
      (by decide) none (some 9) 9 (by omega) (by decide) s hs cs).2.2.2.2 (fun _ _ _ => ⟨_, rfl⟩) (.inl rfl) pref⟩)
  exact ⟨s, t, hs, ht⟩

/-- `c99_moead_small_population`: `pop_size` ten and three members. -/
example (argsort : List ℝ → List Nat) : ∃ s rs, rs.length + 1 < 10 ∧
    Represents (⟨0, 2, some [fun _ => some 0, fun _ => some 0, fun _ => some 0], [(), (), ()], [0, 0, 0], none, none⟩ :
      Pop (Row 1) Unit (Vec 2) (List ℝ) (Vec 2)) rs ∧ rs ≠ [] ∧
    moeadFromPopulation (demoMoeadRun argsort 4) (fun _ _ => .error .valueError) argsort 4 2 () () false false true false 10 10 0
      ⟨0, 2, some [fun _ => some 0, fun _ => some 0, fun _ => some 0], [(), (), ()], [0, 0, 0], none, none⟩ 10 = .ok s := by
  obtain ⟨r, q1, q2, -⟩ := c21_count_bounded 2 10 (by omega)
  unfold moeadFromPopulation construct
  dsimp only
  simp only [Bool.false_eq_true, if_false]
  rw [if_neg (by decide), q1]
  dsimp only
  rw [create_ok r (by omega) (q2 (by omega)).1]
  refine ⟨_, List.replicate 3 ⟨fun _ => some 0, (), 0, none, none⟩, by decide, ?_, by simp, rfl⟩
  exact ⟨.inl rfl, rfl, rfl, fun _ h => absurd rfl h, fun _ => rfl, fun us h => by simp at h⟩

/-- `c99_nsga_hand_over`: ten individuals, ten iterations of ten generations, all of which return. -/
example (solve : List (Vec 2) → Option (Vec 2)) (rnd : Nat → NicheRand) (hsh : ∀ c t l, ((rnd c).shuffle t l).Perm l) (sel0 : Nat → Nsga 2)
    (prefs : Nat → Option (Pref Unit)) :
    ∃ (sort : List (Vec 2) → List (List Nat)) (v0 : RV 2), RV.create 2 9 = .ok v0 ∧
      ∃ s mid, construct (demoRunOps (nsgaSelect .mean sort solve rnd (nSurviveAttr none (choosePopSize 2 none (some 9)))))
        (boxDesign (fun _ => 0) (fun _ => 1) (fun _ k => List.replicate k (fun _ => 0))) (fun _ => v0) sel0 () false false true false 10 10 0
        (some (.mo, 2, 0)) none none (some 9) = .ok s ∧
      EA.drive (demoRunOps (nsgaSelect .mean sort solve rnd (nSurviveAttr none (choosePopSize 2 none (some 9)))))
        (EA.nextGen (demoRunOps (nsgaSelect .mean sort solve rnd (nSurviveAttr none (choosePopSize 2 none (some 9)))))) prefs 10 s = (.ok (), mid) := by
  generalize hs : (fun fitness : List (Vec 2) => peelFronts (indDom fitness) fitness.length (List.range fitness.length)) = sort
  obtain ⟨v0, hv0⟩ : ∃ v0 : RV 2, RV.create 2 9 = .ok v0 := ⟨_, create_ok 9 (by omega) (by omega)⟩
  refine ⟨sort, v0, hv0, ?_⟩
  have hsort : ∀ fit : List (Vec 2), IsFrontSort (IndDominates fit) fit.length (sort fit) := by rw [← hs]; exact c34_sort_contract_satisfiable
  have h := (c16_problem_xor_population (demoRunOps (nsgaSelect .mean sort solve rnd (nSurviveAttr none (choosePopSize 2 none (some 9)))))
    (boxDesign (fun _ => 0) (fun _ => 1) (fun _ k => List.replicate k (fun _ => 0))) (fun _ => v0) sel0 () false false true false 10 10 0
    none (some 9)).2.2.2 .mo 2 0 _ _ rfl rfl
  obtain ⟨s, hs, -⟩ := h
  obtain ⟨draw, toCall, hd⟩ := demo_decomposition (nsgaSelect .mean sort solve rnd (nSurviveAttr none (choosePopSize 2 none (some 9))))
  have hcalls : ∀ (cs : List (Call Unit)) (s : EA (Row 1) Unit (Vec 2) (List ℝ) (Vec 2) (RV 2) (Nsga 2) Unit),
      s.callsWith (demoRunOps (nsgaSelect .mean sort solve rnd (nSurviveAttr none (choosePopSize 2 none (some 9)))))
        (EA.nextGen (demoRunOps (nsgaSelect .mean sort solve rnd (nSurviveAttr none (choosePopSize 2 none (some 9)))))) cs =
      s.calls (demoRunOps (nsgaSelect .mean sort solve rnd (nSurviveAttr none (choosePopSize 2 none (some 9))))) cs := by
    intro cs
    induction cs with
    | nil => exact fun _ => rfl
    | cons c cs ih =>
      intro s
      cases c with
      | start => exact ih _
      | iterate p => exact ih _
      | setType a => simp only [EA.callsWith, EA.calls, EA.call, ih]; split <;> simp [*]
      | readAllowable => simp only [EA.callsWith, EA.calls, EA.call, ih]; split <;> simp [*]
  obtain ⟨t, ht⟩ := drive_returns _ _ prefs 10 s (fun cs pref => ⟨none, by
    rw [hcalls]
    exact (c63_nsga3_population (by omega) 9 (by omega) v0 hv0 _ (fun _ => 0) (fun _ => 1) draw toCall hd .mean none (some 9) sort hsort
      solve rnd hsh rfl 0 false (.inl rfl) (demo_problemOK _) (fun _ k => List.replicate k (fun _ => 0)) (by simp) () sel0 false false true false 10 10 0 .mo (by decide)
      (by decide) s hs cs).2.2 rfl rfl (fun _ _ _ => ⟨_, rfl⟩) pref⟩)
  exact ⟨s, t, hs, ht⟩

end Verif.Props
