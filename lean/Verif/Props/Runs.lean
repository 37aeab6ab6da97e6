import Verif.Proofs.Runs
import Verif.Props.RefVectors
import Verif.Props.APD
import Verif.Props.NSGA3
import Verif.Props.Recombination
import Verif.Props.Interaction

/-!
# C62, C63: whole runs of RVEA and NSGA-III

An EA constructed from a problem, with the default variation, then any history of calls (`start`, `set_interaction_type`,
`iterate` with and without preferences, whatever exceptions they raise).  The problem is arbitrary, up to its contract: one row
per evaluated vector, uncertainties always or never.
-/

namespace Verif.Props
open Verif Verif.Spec
open Verif.Props (newRecs_length)
open _root_.Spec (Rec Represents EvalOK newRecs rowsAt names inRange)

variable {n m : Nat} {O Q R : Type}

/-! ## The vectors -/

/-- At least two vectors, now and initially, and a planar one. -/
def VecOK (v : RV m) : Prop := 2 ≤ v.values.length ∧ 2 ≤ v.init.length ∧ v.planar ≠ []

/-- The same number of vectors as at the beginning. -/
def VecFixed (N : Nat) (v : RV m) : Prop := v.values.length = N ∧ v.init.length = N ∧ v.planar ≠ []

theorem adapt_frame (v w : RV m) (f : List (Vec m)) (h : v.adapt f = .ok w) :
    w.values.length = v.init.length ∧ w.init = v.init ∧ w.planar.length = v.planar.length := by
  unfold RV.adapt at h
  split at h
  · injection h with h
    subst h
    simp [RV.normalize]
  · cases h
  · cases h

theorem addEdges_sizes (v : RV m) : v.addEdges.values.length = v.values.length + m ∧ v.addEdges.planar.length = v.planar.length + m := by
  simp [RV.addEdges, RV.normalize, axes_length]

theorem call_vecOK (hm : 2 ≤ m) (v w : RV m) (c : VecCall m) (h : v.call c = .ok w) (hv : VecOK v) : VecOK w := by
  have hi := (init_call v w c h).1
  have edges : ∀ u : RV m, u.addEdges = w → VecOK w := by
    intro u hu
    obtain ⟨e1, e2⟩ := addEdges_sizes u
    rw [hu] at e1 e2
    refine ⟨by omega, by rw [hi]; exact hv.2.1, ?_⟩
    intro e; rw [e] at e2; simp at e2; omega
  cases c with
  | adapt f =>
    obtain ⟨h1, h2, h3⟩ := adapt_frame v w f h
    refine ⟨by rw [h1]; exact hv.2.1, by rw [h2]; exact hv.2.1, ?_⟩
    intro e; rw [e] at h3
    exact hv.2.2 (List.length_eq_zero_iff.1 h3.symm)
  | refPoint d => simp only [RV.call, Except.ok.injEq] at h; exact edges _ h
  | preferred z k =>
    simp only [RV.call] at h
    cases hq : v.adapt1 z k (1 / 5) with
    | error e => rw [hq] at h; simp [Except.map] at h
    | ok u => rw [hq] at h; simp only [Except.map, Except.ok.injEq] at h; exact edges _ h
  | nonPreferred z k =>
    simp only [RV.call] at h
    cases hq : v.adapt2 z k (1 / 5) with
    | error e => rw [hq] at h; simp [Except.map] at h
    | ok u => rw [hq] at h; simp only [Except.map, Except.ok.injEq] at h; exact edges _ h
  | ranges lo hi lhs => simp only [RV.call, Except.ok.injEq] at h; exact edges _ h

theorem create_sizes (hm : 2 ≤ m) (r : Nat) (hr : 1 ≤ r) (v : RV m) (h : RV.create m r = .ok v) :
    VecOK v ∧ VecFixed (Nat.choose (r + m - 1) (m - 1)) v := by
  obtain ⟨s, h1, -, -, h4, -, h6, h7, -⟩ := c20_uniform_is_simplex_lattice (m := m) r hm hr
  rw [h] at h1
  injection h1 with h1
  subst h1
  have hl := h6.length_eq
  have h2 : 2 ≤ Nat.choose (r + m - 1) (m - 1) := by
    have := choose_ge m r hm
    omega
  have hp : v.planar ≠ [] := by intro e; rw [e] at h4; simp at h4; omega
  exact ⟨⟨by omega, by rw [h7]; omega, hp⟩, by omega, by rw [h7]; omega, hp⟩

/-! ## The two EAs -/

/-- Variation and vectors shared by both: default operators with bounds `lo`, `hi` (the shuffles permute), the reference vectors. -/
structure Decomposition (ops : Ops (Row n) O (Vec m) (List ℝ) (Vec m) (RV m) S Q R) (lo hi : Fin n → ℝ) (draw : Nat → MateDraw n)
    (toCall : Nat → Kind → Pop (Row n) O (Vec m) (List ℝ) (Vec m) → R → Except Err (VecCall m)) : Prop where
  mate : ops.mate = mateAll lo hi draw
  shuffles : ∀ clk l, ((draw clk).shuffle l).Perm l
  adapt : ops.adapt = rvAdapt
  respond : ops.respond = rvRespond toCall

/-- The contract of the problem: one row per evaluated vector in every column, uncertainties always (`unc`) or never. -/
def ProblemOK {X O F C U V S Q R : Type} (ops : Ops X O F C U V S Q R) (nCons : Nat) (unc : Bool) : Prop :=
  ∀ clk surr b r, ops.evaluate clk surr b = .ok r → EvalOK nCons b.rows.length r ∧ (r.uncertainity = none ↔ unc = false)

/-- The selection types that can be used: the others need uncertainties. -/
def TypeOK (ty : SelType) (unc : Bool) : Prop := ty = .mean ∨ (unc = true ∧ (ty = .optimistic ∨ ty = .robust))

section contracts
variable {S : Type} {ops : Ops (Row n) O (Vec m) (List ℝ) (Vec m) (RV m) S Q R} {lo hi : Fin n → ℝ} {draw : Nat → MateDraw n}
  {toCall : Nat → Kind → Pop (Row n) O (Vec m) (List ℝ) (Vec m) → R → Except Err (VecCall m)}

theorem mateContract (h : Decomposition ops lo hi draw toCall) : MateContract ops 2 := by
  intro clk p inds hin hne
  rw [h.mate]
  obtain ⟨ids, -, -, off, hoff, hlen⟩ := c40_sbx_whole_population 1 30 (draw clk).shuffle (h.shuffles clk) (draw clk).pairs inds
  refine ⟨_, by simp only [mateAll, hin, mateDefault, hoff]; rfl, rfl, ?_⟩
  have hpos : 0 < inds.length := List.length_pos_iff.2 hne
  intro e
  have : (bpDo (1 / (n : ℝ)) 20 lo hi (draw clk).k (draw clk).miu off).length = 0 := by
    dsimp only at e; rw [e]; rfl
  simp [bpDo] at this
  rw [this] at hlen
  simp at hlen
  omega

theorem vecContract (inter : Prop) (hm : 2 ≤ m) (h : Decomposition ops lo hi draw toCall) : VecContract inter ops VecOK := by
  constructor
  · intro v f hv
    rw [h.adapt]
    unfold rvAdapt
    split
    · rename_i w hw
      exact call_vecOK hm v w (.adapt f) hw hv
    · exact hv
  · intro _ clk k v p r hv
    rw [h.respond]
    unfold rvRespond
    split
    · exact hv
    · split
      · exact hv
      · rename_i w hw
        exact call_vecOK hm v w _ hw hv

theorem vecContract_fixed (N : Nat) (inter : Prop) (hno : ¬ inter) (h : Decomposition ops lo hi draw toCall) : VecContract inter ops (VecFixed N) := by
  constructor
  · intro v f hv
    rw [h.adapt]
    unfold rvAdapt
    split
    · rename_i w hw
      obtain ⟨h1, h2, h3⟩ := adapt_frame v w f hw
      refine ⟨by rw [h1]; exact hv.2.1, by rw [h2]; exact hv.2.1, ?_⟩
      intro e; rw [e] at h3
      exact hv.2.2 (List.length_eq_zero_iff.1 h3.symm)
    · exact hv
  · exact fun h => absurd h hno

end contracts

theorem calcFitness_total (ty : SelType) (unc : Bool) (hty : TypeOK ty unc) {X : Type} {p : Pop X O (Vec m) (List ℝ) (Vec m)}
    {rs : List (Rec X O (Vec m) (List ℝ) (Vec m))} (hr : Represents p rs) (hu : p.uncertainity = none ↔ unc = false) :
    ∃ fit, calcFitness ty p.fitness p.uncertainity = .ok fit ∧ fit.length = rs.length := by
  have hf : p.fitness.length = rs.length := by rw [hr.fits]; simp
  rcases hty with rfl | ⟨rfl, h⟩
  · exact ⟨_, rfl, hf⟩
  · cases hun : p.uncertainity with
    | none => have := hu.1 hun; simp at this
    | some us =>
      have hl : us.length = rs.length := by
        have := congrArg List.length (hr.unc us hun)
        simpa using this
      rcases h with rfl | rfl
      · exact ⟨_, rfl, by simp [hf, hl]⟩
      · exact ⟨_, rfl, by simp [hf, hl]⟩

section rvea
variable {ops : Ops (Row n) O (Vec m) (List ℝ) (Vec m) (RV m) (Vec m) Q R} {ty : SelType} {pen : Nat → ℝ} {popIdeal : Nat → Vec m}

theorem rvea_selectContract (nc : Nat) (unc : Bool) (hty : TypeOK ty unc) (hsel : ops.select = rveaSelect ty pen popIdeal)
    (Vok : RV m → Prop) (hV : ∀ v, Vok v → 2 ≤ v.values.length) :
    SelectContract ops nc unc 1 Vok (fun v k => k ≤ v.values.length) := by
  intro clk v t p rs hv hr hi hc hu hn hne
  obtain ⟨fit, hfit, hlen⟩ := calcFitness_total ty unc hty hr hu
  have h2 := hV v hv
  have hfne : fit ≠ [] := by intro e; rw [e] at hlen; simp at hlen; omega
  have hvne : v.values ≠ [] := by intro e; rw [e] at h2; simp at h2
  obtain ⟨g, hg⟩ : ∃ g, neighbouringAngles v.values = .ok g := ⟨_, by unfold neighbouringAngles; rw [if_neg (by omega)]⟩
  obtain ⟨sel, id', hok, hnz⟩ := c27_selection_total v.values g (pen clk) t (popIdeal clk) fit p.constraint hvne hfne
  obtain ⟨s1, s2, s3, -, -⟩ := c29_rvea_selection v.values g (pen clk) t (popIdeal clk) fit p.constraint sel id' hok
  refine ⟨sel, v, id', ?_, hv, s1, ?_, List.length_pos_iff.2 hnz, hnz, s3⟩
  · rw [hsel]
    unfold rveaSelect
    rw [hfit, hg]
    dsimp only
    rw [hok]
  · intro j hj; have := s2 j hj; omega

end rvea

section nsga
variable {ops : Ops (Row n) O (Vec m) (List ℝ) (Vec m) (RV m) (Nsga m) Q R} {ty : SelType}
  {sort : List (Vec m) → List (List Nat)} {solve : List (Vec m) → Option (Vec m)} {rnd : Nat → NicheRand}

theorem nsga_selectContract (nc : Nat) (unc : Bool) (popSize : Nat) (hpos : 1 ≤ popSize) (hty : TypeOK ty unc)
    (hsort : ∀ fit : List (Vec m), IsFrontSort (IndDominates fit) fit.length (sort fit)) (hsh : ∀ c t l, ((rnd c).shuffle t l).Perm l)
    (hsel : ops.select = nsgaSelect ty sort solve rnd (nSurviveAttr none popSize)) (Vok : RV m → Prop) (hV : ∀ v, Vok v → v.planar ≠ []) :
    SelectContract ops nc unc popSize Vok (fun _ k => k = popSize) := by
  intro clk v t p rs hv hr hi hc hu hn hne
  obtain ⟨fit, hfit, hlen⟩ := calcFitness_total ty unc hty hr hu
  have hfne : fit ≠ [] := by intro e; rw [e] at hlen; simp at hlen; omega
  obtain ⟨sel, st', hok, s1, s2, s3⟩ := c33_exactly_pop_size sort solve (rnd clk) (hsh clk) v.planar (hV v hv) popSize t fit hfne
    (hsort fit) (by omega)
  refine ⟨sel, v, st', ?_, hv, s2, ?_, by omega, ?_, s1⟩
  · rw [hsel]
    unfold nsgaSelect
    rw [hfit]
    dsimp only
    rw [hok]
  · intro j hj; have := s3 j hj; omega
  · intro e; rw [e] at s1; simp at s1; omega

end nsga

/-! ## C62 -/

/-- C62 (RVEA). From construction over any history of calls, whatever they raise: the population is never empty; whenever a
generation completes, between one individual and as many as there are reference vectors remain, and all of them were there before or
are its offspring with their evaluation. -/
theorem c62_rvea_population (hm : 2 ≤ m) (r : Nat) (hr : 1 ≤ r) (v0 : RV m) (hv0 : RV.create m r = .ok v0)
    (ops : Ops (Row n) O (Vec m) (List ℝ) (Vec m) (RV m) (Vec m) Q R) (lo hi : Fin n → ℝ) (draw : Nat → MateDraw n)
    (toCall : Nat → Kind → Pop (Row n) O (Vec m) (List ℝ) (Vec m) → R → Except Err (VecCall m))
    (hd : Decomposition ops lo hi draw toCall) (ty : SelType) (pen : Nat → ℝ) (popIdeal : Nat → Vec m)
    (hsel : ops.select = rveaSelect ty pen popIdeal) (nc : Nat) (unc : Bool) (hty : TypeOK ty unc) (hp : ProblemOK ops nc unc)
    (unit : Nat → Nat → List (Fin n → ℝ)) (hu : ∀ c k, (unit c k).length = k) (prob0 : Q) (sel0 : Nat → Vec m)
    (interact useSurr keepArchive saveND : Bool) (nIter nGen total : Nat) (pty : ProblemType) (hpty : pty ≠ .iopis)
    (ps lr : Option Nat) (hpos : 1 ≤ choosePopSize m ps lr) (s : EA (Row n) O (Vec m) (List ℝ) (Vec m) (RV m) (Vec m) Q)
    (hs : construct ops (boxDesign lo hi unit) (fun _ => v0) sel0 prob0 interact useSurr keepArchive saveND nIter nGen total
      (some (pty, m, nc)) none ps lr = .ok s) (cs : List (Call R)) :
    (∃ rs, Represents (s.calls ops cs).pop rs ∧ rs ≠ []) ∧
    ∀ t, EA.nextGen ops (s.calls ops cs) = (.ok (), t) →
      ∃ rs rs' off ev, Represents (s.calls ops cs).pop rs ∧ ops.mate (s.calls ops cs).clock (s.calls ops cs).pop = .ok off ∧
        EvalOK nc off.rows.length ev ∧ Represents t.pop rs' ∧ rs'.Sublist (rs ++ newRecs off.rows ev) ∧
        1 ≤ rs'.length ∧ rs'.length ≤ t.vec.values.length := by
  have hb : ∀ b, boxDesign lo hi unit 0 (choosePopSize m ps lr) = .ok b →
      b.ndim = 2 ∧ b.rows.length = choosePopSize m ps lr := by
    intro b hb
    simp only [boxDesign, Except.ok.injEq] at hb
    subst hb
    exact ⟨rfl, by simp [scaleDesign, hu]⟩
  obtain ⟨h0, -⟩ := construct_alive (d := 2) (need := 1) (Vok := VecOK) ops hp (boxDesign lo hi unit) (fun _ => v0) sel0 prob0 interact
    useSurr keepArchive saveND nIter nGen total pty m ps lr s hpty hs hb hpos hpos (create_sizes hm r hr v0 hv0).1
  have hsc := rvea_selectContract (n := n) (O := O) (Q := Q) (R := R) nc unc hty hsel VecOK (fun v hv => hv.1)
  have h1 := Alive.calls ops hsc (mateContract hd) hp (vecContract _ hm hd) cs s h0
  refine ⟨?_, ?_⟩
  · obtain ⟨rs, a, -, c⟩ := h1.rep
    exact ⟨rs, a, c⟩
  · intro t ht
    obtain ⟨g1, g2, -⟩ := nextGen_alive ops hsc (mateContract hd) hp _ h1
    rw [ht] at g1 g2
    obtain ⟨rs, rs', off, ev, k1, k2, k3, k4, k5, k6⟩ := g2 rfl
    obtain ⟨rs2, l1, l2, -⟩ := g1.rep
    have : rs'.length = rs2.length := by
      have e1 := congrArg List.length k4.objs
      have e2 := congrArg List.length l1.objs
      dsimp only at e1 e2
      rw [e1] at e2
      simpa using e2
    exact ⟨rs, rs', off, ev, k1, k2, k3, k4, k5, by omega, k6⟩

/-- C62 (RVEA). A non-interactive EA without an archive of non-dominated solutions, over any history: `iterate()` returns as long as
`problem.evaluate` does, and the number of reference vectors never changes, so no generation ever leaves more than `comb(r+m-1, m-1)`
individuals.  `adapt` is always asked with a population that has rows. -/
theorem c62_rvea_runs (hm : 2 ≤ m) (r : Nat) (hr : 1 ≤ r) (v0 : RV m) (hv0 : RV.create m r = .ok v0)
    (ops : Ops (Row n) O (Vec m) (List ℝ) (Vec m) (RV m) (Vec m) Q R) (lo hi : Fin n → ℝ) (draw : Nat → MateDraw n)
    (toCall : Nat → Kind → Pop (Row n) O (Vec m) (List ℝ) (Vec m) → R → Except Err (VecCall m))
    (hd : Decomposition ops lo hi draw toCall) (ty : SelType) (pen : Nat → ℝ) (popIdeal : Nat → Vec m)
    (hsel : ops.select = rveaSelect ty pen popIdeal) (nc : Nat) (unc : Bool) (hty : TypeOK ty unc) (hp : ProblemOK ops nc unc)
    (unit : Nat → Nat → List (Fin n → ℝ)) (hu : ∀ c k, (unit c k).length = k) (prob0 : Q) (sel0 : Nat → Vec m)
    (useSurr keepArchive saveND : Bool) (nIter nGen total : Nat) (pty : ProblemType) (hpty : pty ≠ .iopis)
    (ps lr : Option Nat) (hpos : 1 ≤ choosePopSize m ps lr) (s : EA (Row n) O (Vec m) (List ℝ) (Vec m) (RV m) (Vec m) Q)
    (hs : construct ops (boxDesign lo hi unit) (fun _ => v0) sel0 prob0 false useSurr keepArchive saveND nIter nGen total
      (some (pty, m, nc)) none ps lr = .ok s) (cs : List (Call R)) :
    (s.calls ops cs).vec.values.length = Nat.choose (r + m - 1) (m - 1) ∧
    (∃ w, (s.calls ops cs).vec.adapt (s.calls ops cs).pop.fitness = .ok w) ∧
    (∀ t, EA.nextGen ops (s.calls ops cs) = (.ok (), t) →
      1 ≤ t.pop.objectives.length ∧ t.pop.objectives.length ≤ Nat.choose (r + m - 1) (m - 1)) ∧
    (saveND = false → (∀ clk surr b, ∃ res, ops.evaluate clk surr b = .ok res) → ∀ pref,
      ((s.calls ops cs).iterate ops pref).1 = .ok none) := by
  have hb : ∀ b, boxDesign lo hi unit 0 (choosePopSize m ps lr) = .ok b →
      b.ndim = 2 ∧ b.rows.length = choosePopSize m ps lr := by
    intro b hb
    simp only [boxDesign, Except.ok.injEq] at hb
    subst hb
    exact ⟨rfl, by simp [scaleDesign, hu]⟩
  obtain ⟨h0, -, c1, c2, c3, -⟩ := construct_alive (d := 2) (need := 1) (Vok := VecFixed (Nat.choose (r + m - 1) (m - 1))) ops hp
    (boxDesign lo hi unit) (fun _ => v0) sel0 prob0 false
    useSurr keepArchive saveND nIter nGen total pty m ps lr s hpty hs hb hpos hpos (create_sizes hm r hr v0 hv0).2
  have h2 : 2 ≤ Nat.choose (r + m - 1) (m - 1) := by have := choose_ge m r hm; omega
  have hsc := rvea_selectContract (n := n) (O := O) (Q := Q) (R := R) nc unc hty hsel (VecFixed (Nat.choose (r + m - 1) (m - 1)))
    (fun v hv => by rw [hv.1]; exact h2)
  have hvc := vecContract_fixed (Nat.choose (r + m - 1) (m - 1)) (false = true) (by simp) hd
  have h1 := Alive.calls ops hsc (mateContract hd) hp hvc cs s h0
  refine ⟨h1.vec.1, ?_, ?_, ?_⟩
  · obtain ⟨rs, a, -, c⟩ := h1.rep
    have hne : (s.calls ops cs).pop.fitness ≠ [] := by rw [a.fits]; simpa using c
    obtain ⟨x, hx⟩ := colMax_total _ hne
    obtain ⟨y, hy⟩ := colMin_total _ hne
    unfold RV.adapt
    rw [hx, hy]
    exact ⟨_, rfl⟩
  · intro t ht
    obtain ⟨g1, g2, -⟩ := nextGen_alive ops hsc (mateContract hd) hp _ h1
    rw [ht] at g1 g2
    obtain ⟨rs, rs', off, ev, k1, k2, k3, k4, k5, k6⟩ := g2 rfl
    obtain ⟨rs2, l1, l2, -⟩ := g1.rep
    have e1 := congrArg List.length k4.objs
    have e2 := congrArg List.length l1.objs
    have e3 := g1.vec.1
    simp only [List.length_map] at e1 e2
    dsimp only at e1 e2 e3 k6
    omega
  · intro hnd hall pref
    have hcfg : (s.calls ops cs).cfg = s.cfg := (calls_cfg ops cs s).1
    exact Alive.iterate_returns ops hsc (mateContract hd) hp hvc hall _ h1 (by rw [hcfg]; exact c1) (by rw [hcfg]; exact c3 rfl)
      (by rw [hcfg, c2]; exact hnd) pref

/-! ## C63 -/

/-- C63 (NSGA-III). From construction over any history of calls, whatever they raise: the population has at least `pop_size` individuals,
and whenever a generation completes exactly `pop_size`, all of them there before or offspring with their evaluation. -/
theorem c63_nsga3_population (hm : 2 ≤ m) (r : Nat) (hr : 1 ≤ r) (v0 : RV m) (hv0 : RV.create m r = .ok v0)
    (ops : Ops (Row n) O (Vec m) (List ℝ) (Vec m) (RV m) (Nsga m) Q R) (lo hi : Fin n → ℝ) (draw : Nat → MateDraw n)
    (toCall : Nat → Kind → Pop (Row n) O (Vec m) (List ℝ) (Vec m) → R → Except Err (VecCall m))
    (hd : Decomposition ops lo hi draw toCall) (ty : SelType) (ps lr : Option Nat)
    (sort : List (Vec m) → List (List Nat)) (hsort : ∀ fit, IsFrontSort (IndDominates fit) fit.length (sort fit))
    (solve : List (Vec m) → Option (Vec m)) (rnd : Nat → NicheRand) (hsh : ∀ c t l, ((rnd c).shuffle t l).Perm l)
    (hsel : ops.select = nsgaSelect ty sort solve rnd (nSurviveAttr none (choosePopSize m ps lr)))
    (nc : Nat) (unc : Bool) (hty : TypeOK ty unc) (hp : ProblemOK ops nc unc)
    (unit : Nat → Nat → List (Fin n → ℝ)) (hu : ∀ c k, (unit c k).length = k) (prob0 : Q) (sel0 : Nat → Nsga m)
    (interact useSurr keepArchive saveND : Bool) (nIter nGen total : Nat) (pty : ProblemType) (hpty : pty ≠ .iopis)
    (hpos : 1 ≤ choosePopSize m ps lr) (s : EA (Row n) O (Vec m) (List ℝ) (Vec m) (RV m) (Nsga m) Q)
    (hs : construct ops (boxDesign lo hi unit) (fun _ => v0) sel0 prob0 interact useSurr keepArchive saveND nIter nGen total
      (some (pty, m, nc)) none ps lr = .ok s) (cs : List (Call R)) :
    (∃ rs, Represents (s.calls ops cs).pop rs ∧ choosePopSize m ps lr ≤ rs.length) ∧
    (∀ t, EA.nextGen ops (s.calls ops cs) = (.ok (), t) →
      ∃ rs rs' off ev, Represents (s.calls ops cs).pop rs ∧ ops.mate (s.calls ops cs).clock (s.calls ops cs).pop = .ok off ∧
        EvalOK nc off.rows.length ev ∧ Represents t.pop rs' ∧ rs'.Sublist (rs ++ newRecs off.rows ev) ∧
        rs'.length = choosePopSize m ps lr) ∧
    (interact = false → saveND = false → (∀ clk surr b, ∃ res, ops.evaluate clk surr b = .ok res) → ∀ pref,
      ((s.calls ops cs).iterate ops pref).1 = .ok none) := by
  have hb : ∀ b, boxDesign lo hi unit 0 (choosePopSize m ps lr) = .ok b →
      b.ndim = 2 ∧ b.rows.length = choosePopSize m ps lr := by
    intro b hb
    simp only [boxDesign, Except.ok.injEq] at hb
    subst hb
    exact ⟨rfl, by simp [scaleDesign, hu]⟩
  obtain ⟨h0, -, c1, c2, c3, -⟩ := construct_alive (d := 2) (need := choosePopSize m ps lr) (Vok := VecOK) ops hp
    (boxDesign lo hi unit) (fun _ => v0) sel0 prob0 interact
    useSurr keepArchive saveND nIter nGen total pty m ps lr s hpty hs hb hpos (Nat.le_refl _) (create_sizes hm r hr v0 hv0).1
  have hsc := nsga_selectContract (n := n) (O := O) (Q := Q) (R := R) nc unc (choosePopSize m ps lr) hpos hty hsort hsh hsel VecOK
    (fun v hv => hv.2.2)
  have hvc := vecContract (interact = true) hm hd
  have h1 := Alive.calls ops hsc (mateContract hd) hp hvc cs s h0
  refine ⟨?_, ?_, ?_⟩
  · obtain ⟨rs, a, b, -⟩ := h1.rep
    exact ⟨rs, a, b⟩
  · intro t ht
    obtain ⟨-, g2, -⟩ := nextGen_alive ops hsc (mateContract hd) hp _ h1
    rw [ht] at g2
    exact g2 rfl
  · intro hi hnd hall pref
    have hcfg : (s.calls ops cs).cfg = s.cfg := (calls_cfg ops cs s).1
    exact Alive.iterate_returns ops hsc (mateContract hd) hp hvc hall _ h1 (by rw [hcfg, c1]; exact hi)
      (by rw [hcfg]; exact c3 hi) (by rw [hcfg, c2]; exact hnd) pref

/-- C63 (deviation). `pop_size` is an attribute of the population object, not its number of individuals (C17): an NSGA-III given a
population with too few individuals for its `pop_size` (such as the one an RVEA run leaves behind) loses all of them in its first
generation. -/
theorem c63_small_population_dies
    (ops : Ops (Row n) O (Vec m) (List ℝ) (Vec m) (RV m) (Nsga m) Q R) (lo hi' : Fin n → ℝ) (draw : Nat → MateDraw n)
    (toCall : Nat → Kind → Pop (Row n) O (Vec m) (List ℝ) (Vec m) → R → Except Err (VecCall m))
    (hd : Decomposition ops lo hi' draw toCall) (popSize : Nat)
    (sort : List (Vec m) → List (List Nat)) (hsort : ∀ fit, IsFrontSort (IndDominates fit) fit.length (sort fit))
    (solve : List (Vec m) → Option (Vec m)) (rnd : Nat → NicheRand)
    (hsel : ops.select = nsgaSelect .mean sort solve rnd (nSurviveAttr none popSize))
    (nc : Nat) (unc : Bool) (hp : ProblemOK ops nc unc) (hall : ∀ clk surr b, ∃ res, ops.evaluate clk surr b = .ok res)
    (s : EA (Row n) O (Vec m) (List ℝ) (Vec m) (RV m) (Nsga m) Q) (rs : List (Rec (Row n) O (Vec m) (List ℝ) (Vec m)))
    (hr : Represents s.pop rs) (hi : s.pop.individuals ≠ none) (hdim : s.pop.ndim = 2) (hc : s.pop.nCons = nc)
    (hun : s.pop.uncertainity = none ↔ unc = false) (hnd : s.cfg.saveND = false) (hne : rs ≠ [])
    (hsmall : rs.length + (rs.length + rs.length % 2) < popSize) :
    ∃ t, EA.nextGen ops s = (.ok (), t) ∧ Represents t.pop [] := by
  obtain ⟨inds, hin⟩ := Option.ne_none_iff_exists'.1 hi
  have hil : inds.length = rs.length := (Represents_length hr hin).symm ▸ rfl
  obtain ⟨ids, -, -, off, hoff, hlen⟩ := c40_sbx_whole_population 1 30 (draw s.clock).shuffle (hd.shuffles s.clock) (draw s.clock).pairs inds
  have hmate : ops.mate s.clock s.pop = .ok ⟨2, bpDo (1 / (n : ℝ)) 20 lo hi' (draw s.clock).k (draw s.clock).miu off⟩ := by
    rw [hd.mate]
    simp only [mateAll, hin, mateDefault, hoff]
  have hol : (bpDo (1 / (n : ℝ)) 20 lo hi' (draw s.clock).k (draw s.clock).miu off).length = rs.length + rs.length % 2 := by
    simp [bpDo, hlen, hil]
  generalize bpDo (1 / (n : ℝ)) 20 lo hi' (draw s.clock).k (draw s.clock).miu off = o at hmate hol
  obtain ⟨res, hres⟩ := hall (s.clock + 1) s.cfg.useSurr ⟨2, o⟩
  obtain ⟨ho, hu⟩ := hp _ _ _ _ hres
  refine nextGen_selects_nobody (d := 2) ops s rs hr hdim hnd ⟨2, o⟩ hmate rfl res hres (by rw [hc]; exact ho) (hun.trans hu.symm) ?_
  intro clk v t p hrp _
  have hfl : p.fitness.length = rs.length + o.length := by
    rw [hrp.fits, List.length_map, List.length_append, newRecs_length _ _ nc ho]
  have hpos : 0 < rs.length := List.length_pos_iff.2 hne
  obtain ⟨st', hst⟩ := c33_too_few_selects_nobody sort solve (rnd clk) v.planar popSize t p.fitness
    (by intro e; rw [e] at hfl; simp at hfl; omega) (hsort p.fitness) (by omega)
  refine ⟨v, st', ?_⟩
  rw [hsel]
  unfold nsgaSelect
  simp only [calcFitness]
  rw [hst]
  rfl

/-! ## Non-vacuity: two fitnesses, one variable, ten individuals -/

/-- The components of a small EA: the fitnesses are the variable and its opposite. -/
noncomputable def demoRunOps {S : Type} (sel : Nat → RV 2 → S → Pop (Row 1) Unit (Vec 2) (List ℝ) (Vec 2) → Except Err (List Int) × RV 2 × S) :
    Ops (Row 1) Unit (Vec 2) (List ℝ) (Vec 2) (RV 2) S Unit Unit where
  adapt := rvAdapt
  respond := rvRespond (fun _ _ _ _ => .error .typeError)
  mate := mateAll (fun _ => 0) (fun _ => 1) (fun _ => ⟨id, fun _ => ⟨fun _ => 0, fun _ => false, fun _ => 0⟩, fun _ _ => 0, fun _ _ => 0⟩)
  evaluate := fun _ _ b => .ok ⟨b.rows.map (fun _ => ()), b.rows.map (fun x => ![(x 0).getD 0, - (x 0).getD 0]), none, none⟩
  select := sel
  newId := fun _ => 0
  probManage := fun q _ _ => (.ok (), q)
  probReeval := fun q _ => ([], q)
  dom := fun _ _ => false
  nonDom := fun l => l.map (fun _ => true)

theorem demo_problemOK {S : Type} (sel : Nat → RV 2 → S → Pop (Row 1) Unit (Vec 2) (List ℝ) (Vec 2) → Except Err (List Int) × RV 2 × S) :
    ProblemOK (demoRunOps sel) 0 false := by
  intro clk surr b r h
  simp only [demoRunOps, Except.ok.injEq] at h
  subst h
  exact ⟨⟨by simp, by simp, by simp, by simp, by simp⟩, by simp⟩

theorem demo_decomposition {S : Type} (sel : Nat → RV 2 → S → Pop (Row 1) Unit (Vec 2) (List ℝ) (Vec 2) → Except Err (List Int) × RV 2 × S) :
    ∃ draw toCall, Decomposition (demoRunOps sel) (fun _ => 0) (fun _ => 1) draw toCall :=
  ⟨_, fun _ _ _ _ => .error .typeError, ⟨rfl, fun _ l => List.Perm.refl l, rfl, rfl⟩⟩

/-- An EA of ten individuals can be made, so the hypotheses of `c62_rvea_population`, `c62_rvea_runs` are met. -/
example (v0 : RV 2) (sel0 : Nat → Vec 2) : ∃ s, construct (demoRunOps (rveaSelect .mean (fun _ => 0) (fun _ => 0)))
    (boxDesign (fun _ => 0) (fun _ => 1) (fun _ k => List.replicate k (fun _ => 0))) (fun _ => v0) sel0 () false false true false 10 10 0
    (some (.mo, 2, 0)) none none (some 9) = .ok s :=
  have h := (c16_problem_xor_population (demoRunOps (rveaSelect .mean (fun _ => 0) (fun _ => 0)))
    (boxDesign (fun _ => 0) (fun _ => 1) (fun _ k => List.replicate k (fun _ => 0))) (fun _ => v0) sel0 () false false true false 10 10 0
    none (some 9)).2.2.2 .mo 2 0 _ _ rfl rfl
  ⟨h.choose, h.choose_spec.1⟩

/-- The same for NSGA-III with a front sort that meets its contract. -/
example (v0 : RV 2) (sel0 : Nat → Nsga 2) (solve : List (Vec 2) → Option (Vec 2)) (rnd : Nat → NicheRand) :
    ∃ sort : List (Vec 2) → List (List Nat), (∀ fit, IsFrontSort (IndDominates fit) fit.length (sort fit)) ∧
      ∃ s, construct (demoRunOps (nsgaSelect .mean sort solve rnd (nSurviveAttr none (choosePopSize 2 none (some 9)))))
        (boxDesign (fun _ => 0) (fun _ => 1) (fun _ k => List.replicate k (fun _ => 0))) (fun _ => v0) sel0 () false false true false 10 10 0
        (some (.mo, 2, 0)) none none (some 9) = .ok s := by
  generalize hs : (fun fitness : List (Vec 2) => peelFronts (indDom fitness) fitness.length (List.range fitness.length)) = sort
  refine ⟨sort, by rw [← hs]; exact c34_sort_contract_satisfiable, ?_⟩
  have h := (c16_problem_xor_population (demoRunOps (nsgaSelect .mean sort solve rnd (nSurviveAttr none (choosePopSize 2 none (some 9)))))
    (boxDesign (fun _ => 0) (fun _ => 1) (fun _ k => List.replicate k (fun _ => 0))) (fun _ => v0) sel0 () false false true false 10 10 0
    none (some 9)).2.2.2 .mo 2 0 _ _ rfl rfl
  exact ⟨h.choose, h.choose_spec.1⟩

example : ∃ v0 : RV 2, RV.create 2 9 = .ok v0 := ⟨_, create_ok 9 (by omega) (by omega)⟩
example : 1 ≤ choosePopSize 2 none (some 9) := by decide

end Verif.Props
