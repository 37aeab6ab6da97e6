import Verif.Props.BioGPTrain
import Verif.Props.TrainingDemo

/-!
# Which trainings of BioGP return, and with which errors the others end
-/

open scoped BigOperators
open Classical

namespace Verif.Props
open Verif Verif.Spec
open _root_.Spec (Rec Represents EvalOK Gens names rowsSet rowsAt newRecs inRange)

section
variable {G T : Type}

theorem pruneLoop_total (c : GPCfg G T) (ht : c.terms ≠ []) (hf : c.fns ≠ []) (r : Nat → GrowRand) (fs : List Bool) :
    ∀ (i : Nat) (roots : List (Node G T)), roots.length = c.maxSubtrees → i + fs.length ≤ c.maxSubtrees → ∃ out, pruneLoop c r i fs roots = .ok out := by
  induction fs with
  | nil => intro i roots _ _; exact ⟨roots, rfl⟩
  | cons f fs ih =>
    intro i roots h1 h2
    simp only [List.length_cons] at h2
    cases f with
    | false =>
      simp only [pruneLoop]
      exact ih (i + 1) roots h1 (by omega)
    | true =>
      simp only [pruneLoop]
      rw [if_neg (by omega)]
      obtain ⟨ts, hts⟩ := fillRoots_total c false c.maxDepth (r i) (roots.eraseIdx i) ht hf
      obtain ⟨new, e1, e2, -⟩ := fillRoots_spec c false c.maxDepth (r i) (roots.eraseIdx i) ts hts
      have hle : (roots.eraseIdx i).length + 1 = roots.length := by
        rw [List.length_eraseIdx_of_lt (by omega)]
        omega
      rw [hts]
      dsimp only
      exact ih (i + 1) ts (by rw [e1, List.length_append, e2]; omega) (by omega)

theorem loose_tail {c : GPCfg G T} {t : Node G T} (h : LooseInd c t) (hm : 0 < c.maxSubtrees) : (subNodes t).tail ≠ [] := by
  intro hnil
  have hr : 0 < t.roots.length := by rw [h.count]; exact hm
  have := (mem_subNodes_tail t [0] t.roots[0]).2 ⟨by rw [at?_cons, List.getElem?_eq_getElem hr, Option.bind_some, at?_nil], by simp⟩
  rw [hnil] at this
  simp at this

theorem loose_xover_total {c : GPCfg G T} {t1 t2 : Node G T} (h1 : LooseInd c t1) (h2 : LooseInd c t2) (hm : 0 < c.maxSubtrees) (k : XKind) (d1 d2 : Nat) :
    ∃ o, xoverPair k t1 t2 d1 d2 = .ok o := by
  cases k with
  | none => exact ⟨_, rfl⟩
  | standard =>
    obtain ⟨q1, e1⟩ := pick_total (loose_tail h1 hm) d1
    obtain ⟨q2, e2⟩ := pick_total (loose_tail h2 hm) d2
    simp only [xoverPair, standardXover, e1, e2]
    exact ⟨_, rfl⟩
  | fair =>
    obtain ⟨q1, e1⟩ := pick_total (node_at_depth t1 (min (totalDepth t1) (totalDepth t2)) (by omega)) d1
    obtain ⟨q2, e2⟩ := pick_total (node_at_depth t2 (min (totalDepth t1) (totalDepth t2)) (by omega)) d2
    simp only [xoverPair, heightFair, e1, e2]
    exact ⟨_, rfl⟩

theorem countL_ge (ts : List (Node G T)) : ts.length ≤ Node.countL ts := by
  induction ts with
  | nil => simp
  | cons t ts ih =>
    have := count_eq t
    simp only [List.length_cons, Node.countL]
    omega

end

theorem mutateTree_total {c : GPCfg GFn GTerm} {t : GTree} (h : LooseInd c t) (ht : c.terms ≠ []) (hf : c.fns ≠ []) (hm : 2 ≤ c.maxSubtrees) (k : MKind)
    (m : MutRand) : ∃ o, mutateTree k c m t = .ok o := by
  cases k with
  | standard =>
    obtain ⟨q, e⟩ := pick_total (loose_tail h (by omega)) m.node
    obtain ⟨s, hs⟩ := growAt_total c false m.grow ht hf (c.maxDepth - q.1.length) []
    exact ⟨_, by simp only [mutateTree, standardMut, e, hs]; rfl⟩
  | point => exact ⟨_, rfl⟩
  | none => exact ⟨_, rfl⟩
  | mono =>
    refine (c58_mono_total t m.node m.node2).2 ?_
    rw [subNodes_length, count_eq]
    have := countL_ge t.roots
    rw [h.count] at this
    omega

/-- Settings and data with which the parts of a training work: there are functions and terminals, the columns are there, and there is one outcome of the error reduction
test for every subtree. -/
structure GoodData (c : GPCfg GFn GTerm) (d : GPData) : Prop where
  agrees : Agrees c d.X
  terms : c.terms ≠ []
  fns : c.fns ≠ []
  low : ∀ vals, (d.low vals).length = vals.length

theorem agrees_rewritten {c : GPCfg GFn GTerm} {d : Frame} (h : Agrees c d) (P : String → Bool) : Agrees c (d.rewritten P) := by
  refine ⟨h.arity, ?_⟩
  intro x hx
  obtain ⟨l, h1, h2⟩ := h.cols x hx
  simp only [Frame.rewritten, h1]
  split
  · exact ⟨_, rfl, by rw [List.length_map]; exact h2⟩
  · exact ⟨_, rfl, h2⟩

theorem gpFitTree_total {c : GPCfg GFn GTerm} {d : GPData} (hg : GoodData c d) (hm : 0 < c.maxSubtrees) {t : GTree} (ht : LooseInd c t) (P : String → Bool)
    (regrow : Nat → Nat → GrowRand) (i : Nat) : ∃ f P', gpFitTree d c regrow i t.roots (d.X.rewritten P) = (.ok f, d.X.rewritten P') := by
  have hne : t.roots.map trim ≠ [] := by
    intro e
    have := congrArg List.length e
    rw [List.length_map, ht.count] at this
    simp at this
    omega
  obtain ⟨vals, h1, h2⟩ := subtreeOutputs_writes (d.X.rewritten P) (t.roots.map trim) hne (by
    intro u hu
    obtain ⟨v, hv, rfl⟩ := List.mem_map.1 hu
    exact isExpr_fits (agrees_rewritten hg.agrees P) (trim_isExpr _ v (ht.exprs v hv)))
  rw [subtreeOutputs_trim] at h1
  rw [List.length_map, ht.count] at h2
  obtain ⟨out, h3⟩ := pruneLoop_total c hg.terms hg.fns (regrow i) (d.low vals) 0 t.roots ht.count (by rw [hg.low, h2]; omega)
  exact ⟨_, _, by simp only [gpFitTree, calculateLinear, h1, h3, rewritten_after]; rfl⟩

theorem go_total {c : GPCfg GFn GTerm} {d : GPData} (hg : GoodData c d) (hm : 0 < c.maxSubtrees) (loss : List ℝ → ℝ) (regrow : Nat → Nat → GrowRand)
    (ts : List GTree) (ht : ∀ t ∈ ts, LooseInd c t) : ∀ (k : Nat) (P : String → Bool),
    ∃ q fr, modelPerformance.go (gpFitTree d c regrow) loss k (ts.map Node.roots) (d.X.rewritten P) = (.ok q, fr) := by
  induction ts with
  | nil => intro k P; exact ⟨([], []), _, rfl⟩
  | cons t ts ih =>
    intro k P
    obtain ⟨f, P', hf⟩ := gpFitTree_total hg hm (ht t (by simp)) P regrow k
    obtain ⟨q, fr, hq⟩ := ih (fun u hu => ht u (by simp [hu])) (k + 1) P'
    exact ⟨_, _, by simp only [List.map_cons, modelPerformance.go, hf, hq]; rfl⟩

/-- Two or more loose individuals can be evaluated. -/
theorem gpEvaluate_total {c : GPCfg GFn GTerm} {d : GPData} (hg : GoodData c d) (hm : 0 < c.maxSubtrees) (P : String → Bool) (regrow : Nat → Nat → GrowRand)
    (b : Batch GTree) (hb : 2 ≤ b.rows.length) (ht : ∀ t ∈ b.rows, LooseInd c t) : ∃ res, gpEvaluate d c (d.X.rewritten P) regrow b = .ok res := by
  obtain ⟨nd, rows⟩ := b
  match rows, hb with
  | x :: y :: rest, _ =>
    obtain ⟨q, fr, hq⟩ := go_total hg hm (d.loss d.y) regrow (x :: y :: rest) ht 0 P
    refine ⟨⟨List.zipWith (fun o f => ⟨o.1, o.2, f⟩) q.1 q.2, q.1, none, none⟩, ?_⟩
    simp only [gpEvaluate]
    rw [show modelPerformance (gpFitTree d c regrow) (d.loss d.y) ((x :: y :: rest).map Node.roots) (d.X.rewritten P) = (.ok q, fr) from hq]

theorem gpMate_total (st : GPSettings) {c : GPCfg GFn GTerm} (ht : c.terms ≠ []) (hf : c.fns ≠ []) (hm : 2 ≤ c.maxSubtrees) (r : GPRand) (clock : Nat)
    (p : Pop GTree GPObj (ℝ × ℝ) Unit Unit) (mating : List (Int × Int)) (hi : p.individuals ≠ none) (hp : ∀ t ∈ gpTrees p, LooseInd c t)
    (hmat : ∀ ab ∈ mating, ∃ a b : Nat, ab = ((a : Int), (b : Int)) ∧ a < (gpTrees p).length ∧ b < (gpTrees p).length) :
    ∃ off, gpMate st c r clock p mating = .ok ⟨2, off⟩ ∧ off.length = 2 * mating.length := by
  unfold gpMate
  cases hin : p.individuals with
  | none => exact absurd hin hi
  | some inds =>
    dsimp only
    obtain ⟨pairs, hpairs⟩ := mapM_except_total (gpPair (xKindOf st.pXover (r.xKind clock)) (r.xDraw clock) (gpTrees p)) mating.zipIdx (by
        intro q hq
        obtain ⟨a, b, e, ha, hb⟩ := hmat q.1 (List.fst_mem_of_mem_zipIdx hq)
        unfold gpPair
        rw [e]
        simp only [Int.toNat_natCast, List.getElem?_eq_getElem ha, List.getElem?_eq_getElem hb]
        exact loose_xover_total (hp _ (List.getElem_mem ha)) (hp _ (List.getElem_mem hb)) (by omega) _ _ _)
    obtain ⟨l1, l2⟩ := mapM_except_ok _ _ _ hpairs
    have hx : gpXover (xKindOf st.pXover (r.xKind clock)) (r.xDraw clock) (gpTrees p) mating = .ok (pairs.flatMap (fun q => [q.1, q.2])) := by
      unfold gpXover
      rw [hpairs]
    rw [hx]
    dsimp only
    have hl : ∀ t ∈ pairs.flatMap (fun q => [q.1, q.2]), LooseInd c t := by
      intro t ht
      obtain ⟨pr, hpr, ht⟩ := List.mem_flatMap.1 ht
      obtain ⟨i, hi⟩ := List.mem_iff_getElem?.1 hpr
      have hil : i < pairs.length := (List.getElem?_eq_some_iff.1 hi).1
      obtain ⟨a, ha⟩ : ∃ a, mating.zipIdx[i]? = some a := ⟨_, List.getElem?_eq_getElem (by omega)⟩
      have := l2 i a pr ha hi
      unfold gpPair at this
      split at this
      · rename_i t1 t2 e1 e2
        have := loose_xover _ (hp t1 (List.mem_of_getElem? e1)) (hp t2 (List.mem_of_getElem? e2)) _ _ (o1 := pr.1) (o2 := pr.2) this
        simp only [List.mem_cons, List.not_mem_nil, or_false] at ht
        rcases ht with rfl | rfl
        · exact this.1
        · exact this.2
      · cases this
    obtain ⟨off, hoff⟩ := mapM_except_total (fun q : GTree × Nat => mutateTree (mKindOf st.pMut (r.mKind clock)) c (r.mDraw clock q.2) q.1)
      (pairs.flatMap (fun q => [q.1, q.2])).zipIdx (by
        intro q hq
        exact mutateTree_total (hl q.1 (List.fst_mem_of_mem_zipIdx hq)) ht hf hm _ _)
    obtain ⟨m1, -⟩ := mapM_except_ok _ _ _ hoff
    refine ⟨off, by unfold gpMutate; rw [hoff], ?_⟩
    rw [m1, List.length_zipIdx, List.length_flatMap]
    simp only [List.length_cons, List.length_nil]
    rw [List.map_const', List.sum_replicate, l1, List.length_zipIdx]
    simp
    omega

theorem gpCreate_total (st : GPSettings) (terms : List GTerm) (create : Nat → GrowRand) (ht : terms ≠ []) (hf : st.fns ≠ []) :
    ∃ trees, gpCreate st (gpCfg st terms) create = .ok trees := by
  unfold gpCreate
  apply mapM_except_total
  intro q _
  exact c50_new_individual_total _ _ _ _ ht hf

/-- The steps of `fit` up to the two evolutions. -/
theorem gpFit_start (st : GPSettings) (d : GPData) (tn : TournOps GTree GPObj (ℝ × ℝ) Unit Unit) (r : GPRand) (s : GPReg)
    (hg : GoodData (trainCfg st d s) d) (hm : 0 < st.maxSubtrees) (hl : d.X.rows = d.y.length) (h2 : 2 ≤ (designs st.method st.popSize st.maxDepth).length) :
    ∃ (trees : List GTree) (p : Pop GTree GPObj (ℝ × ℝ) Unit Unit) (v : Results GPObj (ℝ × ℝ) Unit Unit),
      gpCreate st (trainCfg st d s) r.create = .ok trees ∧
      trees.length = (designs st.method st.popSize st.maxDepth).length ∧ (∀ t ∈ trees, LooseInd (trainCfg st d s) t) ∧
      (Pop.new 0).add ⟨2, trees⟩ (gpEvaluate d (trainCfg st d s) d.X r.regrow0 ⟨2, trees⟩) = (.ok v, p) ∧
      (st.pXover < 1 / 2 → gpFit st d tn r s = (.error .valueError, { s with terminals := some (trainCfg st d s).terms })) ∧
      (1 / 2 ≤ st.pXover → 0 < st.soGen → gpFit st d tn r s = (.error .typeError, { s with terminals := some (trainCfg st d s).terms })) ∧
      (1 / 2 ≤ st.pXover → st.soGen = 0 → gpFit st d tn r s =
        match evolveTo st.popSize (gpOps st d (trainCfg st d s) r) r.evolve.dPred r.evolve.dPrey p with
        | .error e => (.error e, { s with terminals := some (trainCfg st d s).terms })
        | .ok t => gpFinish st d r.colsEnd t.pop { s with terminals := some (trainCfg st d s).terms }) := by
  obtain ⟨trees, hc⟩ := gpCreate_total st (trainCfg st d s).terms r.create hg.terms hg.fns
  obtain ⟨c1, c2⟩ := gpCreate_ok _ _ _ _ hc
  obtain ⟨res, hres⟩ := gpEvaluate_total hg hm (fun _ => false) r.regrow0 ⟨2, trees⟩ (by dsimp only; omega) (fun t ht => looseInd_of_ind (c2 t ht).1)
  obtain ⟨k1, fits, k2, k3⟩ := gpEvaluate_ok d (trainCfg st d s) (fun _ => false) r.regrow0 ⟨2, trees⟩ res hres
  rw [rewritten_none] at hres
  have hlen : fits.length = trees.length := k2.length_eq.symm
  obtain ⟨b1, b2, b3, b4, b5⟩ := add_spec (d := 2) (represents_new 0) ⟨2, trees⟩ res
    (by rw [k3]; exact ⟨by simpa using hlen, by simpa using hlen, fun _ => rfl, by simp [Pop.new], by simp⟩) (by simp [Pop.new]) (Or.inl rfl)
  obtain ⟨b6, b7⟩ := b5 (Or.inr (Or.inl (by rw [k3])))
  generalize hp : ((Pop.new 0).add ⟨2, trees⟩ (.ok res)).2 = p at b1 b2 b3 b4
  have hadd : (Pop.new 0).add ⟨2, trees⟩ (.ok res) = (.ok res, p) := Prod.ext b6 hp
  have hfit : gpFit st d tn r s = if st.pXover < 1 / 2 then (.error .valueError, { s with terminals := some (trainCfg st d s).terms })
      else
          match tournConstruct 1 st.soGen (some p) with
          | .error e => (.error e, { s with terminals := some (trainCfg st d s).terms })
          | .ok ea =>
            match tournDrive tn 1 ea with
            | (.error e, _) => (.error e, { s with terminals := some (trainCfg st d s).terms })
            | (.ok _, ea) =>
              match evolveTo st.popSize (gpOps st d (trainCfg st d s) r) r.evolve.dPred r.evolve.dPrey ea.pop with
              | .error e => (.error e, { s with terminals := some (trainCfg st d s).terms })
              | .ok t => gpFinish st d r.colsEnd t.pop { s with terminals := some (trainCfg st d s).terms } := by
    unfold gpFit
    rw [if_neg (by simpa using hl)]
    dsimp only
    rw [show gpCreate st (gpCfg st (s.terminals.getD (d.columns.map GTerm.var))) r.create = .ok trees from hc]
    dsimp only
    rw [show gpEvaluate d (gpCfg st (s.terminals.getD (d.columns.map GTerm.var))) d.X r.regrow0 ⟨2, trees⟩ = .ok res from hres, hadd]
    rfl
  refine ⟨trees, p, res, hc, c1, fun t ht => looseInd_of_ind (c2 t ht).1, by rw [hres]; exact hadd, ?_, ?_, ?_⟩
  · intro hx
    rw [hfit, if_pos hx]
  · intro hx h0
    rw [hfit, if_neg (not_lt.2 hx)]
    cases hcon : tournConstruct 1 st.soGen (some p) with
    | error e => simp [tournConstruct] at hcon
    | ok ea =>
      dsimp only
      rw [(c73_tournament_iterate tn 1 st.soGen p ea hcon 1 (by decide)).2.1 h0 (by decide)]
  · intro hx h0
    rw [hfit, if_neg (not_lt.2 hx)]
    cases hcon : tournConstruct 1 st.soGen (some p) with
    | error e => simp [tournConstruct] at hcon
    | ok ea =>
      dsimp only
      obtain ⟨ea', e1, e2, -⟩ := (c73_tournament_iterate tn 1 st.soGen p ea hcon 1 (by decide)).2.2 h0 (le_refl _)
      rw [e1]
      dsimp only
      rw [e2]

/-- C87. With proper data and settings, but with generations of single-objective evolution asked for (the constructor's default is 10), `fit` raises TypeError; with a
probability of crossover below 1/2 it raises ValueError. -/
theorem c87_default_raises (st : GPSettings) (d : GPData) (tn : TournOps GTree GPObj (ℝ × ℝ) Unit Unit) (r : GPRand) (s : GPReg)
    (hg : GoodData (gpCfg st (s.terminals.getD (d.columns.map GTerm.var))) d) (hm : 0 < st.maxSubtrees) (hl : d.X.rows = d.y.length)
    (h2 : 2 ≤ (designs st.method st.popSize st.maxDepth).length) :
    (1 / 2 ≤ st.pXover → 0 < st.soGen → (gpFit st d tn r s).1 = .error .typeError) ∧ (st.pXover < 1 / 2 → (gpFit st d tn r s).1 = .error .valueError) := by
  obtain ⟨-, -, -, -, -, -, -, a1, a2, -⟩ := gpFit_start st d tn r s hg hm hl h2
  exact ⟨fun h h' => by rw [a2 h h'], fun h => by rw [a1 h]⟩

/-- C87. The shape of the data is checked first; a set of initial individuals that is empty (unknown method, or `pop_size ≤ max_depth` with the default method), or that
has one individual, cannot be evaluated. -/
theorem c87_too_few (st : GPSettings) (d : GPData) (tn : TournOps GTree GPObj (ℝ × ℝ) Unit Unit) (r : GPRand) (s : GPReg) :
    (d.X.rows ≠ d.y.length → gpFit st d tn r s = (.error .modelError, s)) ∧
    (d.X.rows = d.y.length → s.terminals.getD (d.columns.map GTerm.var) ≠ [] → st.fns ≠ [] →
      ((designs st.method st.popSize st.maxDepth).length = 0 → (gpFit st d tn r s).1 = .error .indexError) ∧
      ((designs st.method st.popSize st.maxDepth).length = 1 → (gpFit st d tn r s).1 = .error .attributeError)) ∧
    ((st.method ≠ "ramped_half_and_half" ∧ st.method ≠ "full" ∧ st.method ≠ "grow") ∨ (st.method = "ramped_half_and_half" ∧ st.popSize ≤ st.maxDepth) →
      (designs st.method st.popSize st.maxDepth).length = 0) := by
  refine ⟨?_, ?_, ?_⟩
  · intro h
    unfold gpFit
    rw [if_pos h]
  · intro hl ht hf
    obtain ⟨trees, hc⟩ := gpCreate_total st (s.terminals.getD (d.columns.map GTerm.var)) r.create ht hf
    obtain ⟨c1, c2⟩ := gpCreate_ok _ _ _ _ hc
    unfold gpFit
    rw [if_neg (by simpa using hl)]
    dsimp only
    rw [hc]
    dsimp only
    constructor
    · intro h
      have : trees = [] := List.length_eq_zero_iff.1 (c1.trans h)
      subst this
      rfl
    · intro h
      obtain ⟨t, rfl⟩ := List.length_eq_one_iff.1 (c1.trans h)
      rfl
  · rintro (⟨h1, h2, h3⟩ | ⟨h1, h2⟩)
    · unfold designs
      rw [if_neg h1, if_neg h2, if_neg h3]
      rfl
    · rw [h1, (c50_designs st.popSize st.maxDepth).2.2.2, Nat.div_eq_of_lt (show st.popSize < st.maxDepth + 1 by omega)]
      simp

/-- C87. Trainings that return exist: two individuals made by "grow" or "full", any proper data and settings without single-objective generations: with some draws of the lattice
and a proper non-dominated sorting `fit` returns, whatever the draws of creation, mating and regrowth. -/
theorem c87_can_train (st : GPSettings) (d : GPData) (tn : TournOps GTree GPObj (ℝ × ℝ) Unit Unit) (r : GPRand) (s : GPReg)
    (hg : GoodData (gpCfg st (s.terminals.getD (d.columns.map GTerm.var))) d) (hm : 2 ≤ st.maxSubtrees) (hl : d.X.rows = d.y.length) (hpos : 0 < d.X.rows)
    (hls : SolvesLeastSquares d.lstsq) (hmeth : st.method = "grow" ∨ st.method = "full") (h2 : st.popSize = 2) (hx : 1 / 2 ≤ st.pXover) (h0 : st.soGen = 0)
    (hmin : st.minError = true) (he : r.evolve = stillRand) :
    (∀ fits : List (ℝ × ℝ), ∃ dom, IsFrontSort dom fits.length ((r.evolve.nds fits).map whereIdx)) ∧
      ∃ s', gpFit st d tn r s = (.ok (), s') ∧ ∃ p, s'.population = some p ∧ p.objectives.length = 202 := by
  refine ⟨by rw [he]; exact still_sort, ?_⟩
  have hd : (designs st.method st.popSize st.maxDepth).length = 2 := by
    rcases hmeth with h | h
    · rw [h, (c50_designs _ _).2.1, h2]; rfl
    · rw [h, (c50_designs _ _).2.2.1, h2]; rfl
  obtain ⟨trees, p, v, -, a1, a2, a3, -, -, a4⟩ := gpFit_start st d tn r s hg (by omega) hl (by omega)
  obtain ⟨b1, b2, b3, rs, b4, b5, b6⟩ := gp_initial d _ _ trees a2 v p a3
  have hf : Fertile 2 (gpOps st d (trainCfg st d s) r) (GPInv d (trainCfg st d s)) := by
    intro S rs mating T hne hgen hmn hmat
    have hobj : S.pop.objectives.length = rs.length := by rw [T.repr.objs, List.length_map]
    have hin : S.pop.individuals ≠ none := by
      intro e
      rcases T.repr.inds with h | ⟨-, h⟩
      · rw [e] at h; cases h
      · exact hne h
    have hloose : ∀ t ∈ gpTrees S.pop, LooseInd (trainCfg st d s) t := by
      intro t ht
      unfold gpTrees at ht
      rw [T.repr.objs] at ht
      simp only [List.mem_map, exists_exists_and_eq_and] at ht
      obtain ⟨q, hq, rfl⟩ := ht
      obtain ⟨q1, f, q2, q3, -⟩ := T.inv q hq
      rw [q3]
      exact (fitOf_spec d _ q1 q2).1
    obtain ⟨off, o1, o2⟩ := gpMate_total st hg.terms hg.fns hm r (S.clock + 1) S.pop mating hin hloose (by
      intro ab hab
      rw [show (gpTrees S.pop).length = rs.length by unfold gpTrees; rw [List.length_map, hobj]]
      exact hmat ab hab)
    have hoff := gpMate_loose st _ r _ _ _ _ hloose o1
    have : 0 < mating.length := List.length_pos_iff.2 hmn
    match off, o1, o2, hoff with
    | [], _, o2, _ => exact absurd o2 (by simp only [List.length_nil]; omega)
    | [_], _, o2, _ => exact absurd o2 (by simp only [List.length_singleton]; omega)
    | x :: y :: rest, o1, _, hoff =>
      obtain ⟨res, hres⟩ := gpEvaluate_total hg (by omega : 0 < st.maxSubtrees) (r.cols (S.clock + 3)) (r.regrow (S.clock + 3)) ⟨2, [x, y]⟩ (by simp) (by
        intro t ht
        apply hoff
        simp only [List.mem_cons, List.not_mem_nil, or_false] at ht ⊢
        tauto)
      obtain ⟨-, fits, e1, e2⟩ := gpEvaluate_ok d _ _ _ _ res hres
      refine ⟨x, y, rest, res, o1, hres, ?_⟩
      have := e1.length_eq
      rw [e2]
      simp only [List.length_map]
      simpa using this.symm
  obtain ⟨t, rs', t1, T, tl⟩ := still_evolveTo st.popSize (gpOps st d (trainCfg st d s) r) p (by rw [b2]; exact gpOps_surrogate st d _ r)
    ⟨by simp only [gpOps, he], by simp only [gpOps, he], by simp only [gpOps, he], by simp only [gpOps, he], by simp only [gpOps, he]; rfl⟩
    (GPInv d (trainCfg st d s)) (by rw [b2]; exact gp_preserved st d _ r _) (by rw [b2]; exact hf) rs b4 b3 b6 (by omega)
  rw [a4 hx h0, he, t1]
  dsimp only
  have hfin : ∀ o ∈ t.pop.objectives, ∃ yp, (gpPredict o.fit.roots o.fit.linear (d.X.rewritten r.colsEnd)).1 = .ok yp := by
    intro o ho
    rw [T.repr.objs] at ho
    obtain ⟨q, hq, rfl⟩ := List.mem_map.1 ho
    obtain ⟨q1, f, q2, q3, -⟩ := T.inv q hq
    obtain ⟨f1, -, P, vals, f2, f3, -⟩ := fitOf_spec d _ q1 q2
    rw [q3]
    have hcount : f.roots.length = st.maxSubtrees := f1.count
    have hne : f.roots.map trim ≠ [] := by
      intro e
      have := congrArg List.length e
      rw [List.length_map, hcount] at this
      simp at this
      omega
    have hvl : vals.length = st.maxSubtrees := by
      obtain ⟨vals', w1, w2⟩ := subtreeOutputs_writes (d.X.rewritten P) (q.x.roots.map trim) (by
          intro e
          have := congrArg List.length e
          rw [List.length_map, q1.count] at this
          simp only [List.length_nil] at this
          change st.maxSubtrees = 0 at this
          omega) (by
        intro u hu
        obtain ⟨v, hv, rfl⟩ := List.mem_map.1 hu
        exact isExpr_fits (agrees_rewritten hg.agrees P) (trim_isExpr _ v (q1.exprs v hv)))
      rw [subtreeOutputs_trim] at w1
      rw [w1] at f2
      simp only [Except.ok.injEq] at f2
      rw [← f2, w2, List.length_map]
      exact q1.count
    have hw : f.linear.length = st.maxSubtrees + 1 := by
      rw [f3]
      refine (hls (st.maxSubtrees + 1) (designRows d.X.rows vals) d.y ?_ (by simp [designRows, hl]) ?_).1
      · intro e
        have : (designRows d.X.rows vals).length = 0 := by rw [e]; rfl
        simp [designRows] at this
        omega
      · intro row hr
        simp only [designRows, List.mem_map] at hr
        obtain ⟨j, -, rfl⟩ := hr
        simp [hvl]
    obtain ⟨out, w1, -⟩ := gpPredict_writes (d.X.rewritten r.colsEnd) (f.roots.map trim) f.linear ⟨hne, by rw [List.length_map, hw, hcount], by
      intro u hu
      obtain ⟨v, hv, rfl⟩ := List.mem_map.1 hu
      exact isExpr_fits (agrees_rewritten hg.agrees r.colsEnd) (trim_isExpr _ v (f1.exprs v hv))⟩
    rw [gpPredict_trim] at w1
    exact ⟨out, by rw [show (objOf d f).fit = f from rfl, w1]⟩
  have hobj : t.pop.objectives.length = 202 := by rw [T.repr.objs, List.length_map, tl]
  obtain ⟨i, hi⟩ := argminL_total (t.pop.objectives.map GPObj.error) (by intro e; have := congrArg List.length e; rw [List.length_map, hobj] at this; simp at this)
  obtain ⟨ev, hev, -⟩ := argminL_spec _ _ hi
  rw [List.getElem?_map, Option.map_eq_some_iff] at hev
  obtain ⟨o, ho, -⟩ := hev
  obtain ⟨yp, hyp⟩ := hfin o (List.mem_of_getElem? ho)
  refine ⟨_, by simp only [gpFinish, dnSelect, hmin, if_true, hi, ho, hyp]; rfl, t.pop, rfl, hobj⟩

/-! ## A training whose recorded errors are wrong -/

/-- Settings: two subtrees of depth one, two individuals. -/
noncomputable def swapSettings : GPSettings := ⟨[.neg], 1, 2, 1 / 2, 2, "grow", 0, 9 / 10, 3 / 10, true⟩

/-- The columns `z` and `x`, the target `x`; a column equal to `z` is found to reduce the error by too little. -/
noncomputable def swapData (lstsq : List (List ℝ) → List ℝ → List ℝ) : GPData :=
  ⟨frameXZ, ["z", "x"], [1, 2, 3], lstsq, fun vals => vals.map (fun v => decide (v = [2, -1, 2])), rmsError⟩

/-- The random outcomes: individuals are created as `z, x`, a pruned subtree is regrown as `z`, there is no crossover, and mutation exchanges the two subtrees. -/
noncomputable def swapRand : GPRand where
  create := fun _ => ⟨fun _ => true, fun p => p.headD 0, fun _ => 0⟩
  regrow0 := fun _ _ => ⟨fun _ => true, fun _ => 0, fun _ => 0⟩
  regrow := fun _ _ _ => ⟨fun _ => true, fun _ => 0, fun _ => 0⟩
  xKind := fun _ => 1
  xDraw := fun _ _ => (0, 0)
  mKind := fun _ => 3 / 10
  mDraw := fun _ _ => ⟨0, 0, ⟨fun _ => true, fun _ => 0, fun _ => 0⟩, ⟨fun _ => false, fun _ => false, fun _ => 0, fun _ => 0⟩⟩
  cols := fun _ _ => false
  colsEnd := fun _ => false
  evolve := stillRand

def indZX : GTree := .mk .linear [vx "z", vx "x"]

theorem swap_weights {lstsq : List (List ℝ) → List ℝ → List ℝ} (h : SolvesLeastSquares lstsq) :
    lstsq (designRows 3 [[2, -1, 2], [1, 2, 3]]) [1, 2, 3] = [0, 0, 1] := by
  have hA : designRows 3 [[2, -1, 2], [1, 2, 3]] = [[1, 2, 1], [1, -1, 2], [1, 2, 3]] := by simp [designRows, List.range_succ]
  rw [hA]
  obtain ⟨h1, h2⟩ := h 3 [[1, 2, 1], [1, -1, 2], [1, 2, 3]] [1, 2, 3] (by simp) rfl (by simp)
  have h3 := h2 [0, 0, 1] rfl
  generalize lstsq [[1, 2, 1], [1, -1, 2], [1, 2, 3]] [1, 2, 3] = w at h1 h3
  match w, h1 with
  | [a, b, c], _ =>
    simp [sqErr, dotList] at h3
    have e1 : a + (2 * b + c) - 1 = 0 := by nlinarith [sq_nonneg (a + (2 * b + c) - 1), sq_nonneg (a + (-b + 2 * c) - 2), sq_nonneg (a + (2 * b + 3 * c) - 3)]
    have e2 : a + (-b + 2 * c) - 2 = 0 := by nlinarith [sq_nonneg (a + (2 * b + c) - 1), sq_nonneg (a + (-b + 2 * c) - 2), sq_nonneg (a + (2 * b + 3 * c) - 3)]
    have e3 : a + (2 * b + 3 * c) - 3 = 0 := by nlinarith [sq_nonneg (a + (2 * b + c) - 1), sq_nonneg (a + (-b + 2 * c) - 2), sq_nonneg (a + (2 * b + 3 * c) - 3)]
    have hc : c = 1 := by linarith
    have hb : b = 0 := by linarith
    have ha : a = 0 := by linarith
    rw [ha, hb, hc]

theorem frameXZ_noZero : ∀ x, ¬ HasZero frameXZ x := by
  obtain ⟨-, -, -, -, -, h, -⟩ := c76_error_violated
  exact h

theorem swap_fit {lstsq : List (List ℝ) → List ℝ → List ℝ} (h : SolvesLeastSquares lstsq) (c : GPCfg GFn GTerm)
    (hc : c = gpCfg swapSettings [.var "z", .var "x"]) (f : LinFit)
    (hf : FitWith (swapData lstsq) c (fun _ _ => ⟨fun _ => true, fun _ => 0, fun _ => 0⟩) indZX.roots f) :
    f.out = [1, 2, 3] ∧ f.roots = [vx "x", vx "z"] ∧ f.linear = [0, 0, 1] := by
  subst hc
  obtain ⟨i, P, fr, hf⟩ := hf
  rw [show (swapData lstsq).X = frameXZ from rfl, rewritten_pure _ _ frameXZ_noZero] at hf
  have h1 : subtreeOutputs [vx "z", vx "x"] frameXZ = (.ok [[2, -1, 2], [1, 2, 3]], frameXZ) := by
    simp [subtreeOutputs, vx, nodePredict, nodesPredict, frameXZ, Frame.read]
  have h2 : (swapData lstsq).low [[2, -1, 2], [1, 2, 3]] = [true, false] := by
    simp [swapData]
  have h3 : pruneLoop (gpCfg swapSettings [.var "z", .var "x"]) (fun _ => ⟨fun _ => true, fun _ => 0, fun _ => 0⟩) 0 [true, false] [vx "z", vx "x"] =
      .ok [vx "x", vx "z"] := rfl
  simp only [gpFitTree, calculateLinear, indZX, roots_mk, h1, h2, h3, Prod.mk.injEq, Except.ok.injEq] at hf
  rw [show frameXZ.rows = 3 from rfl, show (swapData lstsq).lstsq = lstsq from rfl, show (swapData lstsq).y = [1, 2, 3] from rfl, swap_weights h] at hf
  obtain ⟨hf, -⟩ := hf
  rw [← hf]
  refine ⟨?_, rfl, rfl⟩
  simp [List.range_succ, linearOut]

/-- The records of this training. -/
def SwapInv (rs : List (Rec GTree GPObj (ℝ × ℝ) Unit Unit)) : Prop :=
  ∀ q ∈ rs, q.o.error = 0 ∧ q.o.fit.roots = [vx "x", vx "z"] ∧ q.o.fit.linear = [0, 0, 1]

theorem swap_new {lstsq : List (List ℝ) → List ℝ → List ℝ} (h : SolvesLeastSquares lstsq) (P : String → Bool) (rows : List GTree) (nd : Nat)
    (hr : ∀ t ∈ rows, t = indZX) (res : Results GPObj (ℝ × ℝ) Unit Unit)
    (he : gpEvaluate (swapData lstsq) (gpCfg swapSettings [.var "z", .var "x"]) ((swapData lstsq).X.rewritten P) (fun _ _ => ⟨fun _ => true, fun _ => 0, fun _ => 0⟩) ⟨nd, rows⟩ = .ok res) :
    SwapInv (newRecs rows res) := by
  obtain ⟨-, fits, k1, rfl⟩ := gpEvaluate_with _ _ P _ _ res he
  intro q hq
  obtain ⟨x, f, hx, hxf, rfl⟩ := newRecs_forall₂ (objOf (swapData lstsq)) _ (fun t f => FitWith _ _ _ t.roots f) k1 q hq
  rw [hr x hx] at hxf
  obtain ⟨e1, e2, e3⟩ := swap_fit h _ rfl f hxf
  refine ⟨?_, e2, e3⟩
  show rmsError [1, 2, 3] f.out = 0
  rw [e1]
  simp [rmsError]

theorem swap_preserved {lstsq : List (List ℝ) → List ℝ → List ℝ} (h : SolvesLeastSquares lstsq) (pc : PPGACfg) :
    Preserved 2 pc (gpOps swapSettings (swapData lstsq) (gpCfg swapSettings [.var "z", .var "x"]) swapRand) SwapInv := by
  intro s t rs rs' hT g
  obtain ⟨mating, off, placed, res, g1, g2, g3, g4, g5, g6, -, -, -⟩ := g.bred
  have htrees : ∀ t ∈ gpTrees s.pop, t = .mk .linear [vx "x", vx "z"] := by
    intro t ht
    unfold gpTrees at ht
    rw [hT.repr.objs] at ht
    simp only [List.mem_map, exists_exists_and_eq_and] at ht
    obtain ⟨q, hq, rfl⟩ := ht
    rw [(hT.inv q hq).2.1]
  have hoff : ∀ t ∈ off.rows, t = indZX := by
    change gpMate _ _ swapRand _ _ _ = _ at g1
    unfold gpMate at g1
    split at g1
    · cases g1
    · split at g1
      · cases g1
      · rename_i off1 hx
        split at g1
        · cases g1
        · rename_i off2 hm
          injection g1 with g1
          subst g1
          have hk : xKindOf swapSettings.pXover (swapRand.xKind (s.clock + 1)) = .none := by
            simp only [xKindOf, swapSettings, swapRand]
            norm_num
          have hk2 : mKindOf swapSettings.pMut (swapRand.mKind (s.clock + 1)) = .mono := by
            simp only [mKindOf, swapSettings, swapRand]
            norm_num
          rw [hk] at hx
          rw [hk2] at hm
          have h1 : ∀ t ∈ off1, t = .mk .linear [vx "x", vx "z"] := by
            unfold gpXover at hx
            split at hx
            · cases hx
            · rename_i pairs hpairs
              injection hx with hx
              subst hx
              intro t ht
              obtain ⟨pr, hpr, ht⟩ := List.mem_flatMap.1 ht
              obtain ⟨i, hi⟩ := List.mem_iff_getElem?.1 hpr
              obtain ⟨l1, l2⟩ := mapM_except_ok _ _ _ hpairs
              have hil : i < pairs.length := (List.getElem?_eq_some_iff.1 hi).1
              obtain ⟨a, ha⟩ : ∃ a, mating.zipIdx[i]? = some a := ⟨_, List.getElem?_eq_getElem (by omega)⟩
              have := l2 i a pr ha hi
              unfold gpPair at this
              split at this
              · rename_i t1 t2 e1 e2
                simp only [xoverPair, Except.ok.injEq] at this
                rw [← this] at ht
                simp only [List.mem_cons, List.not_mem_nil, or_false] at ht
                rcases ht with rfl | rfl
                · exact htrees _ (List.mem_of_getElem? e1)
                · exact htrees _ (List.mem_of_getElem? e2)
              · cases this
          intro t ht
          unfold gpMutate at hm
          obtain ⟨i, hi⟩ := List.mem_iff_getElem?.1 ht
          obtain ⟨l1, l2⟩ := mapM_except_ok _ _ _ hm
          have hil : i < off2.length := (List.getElem?_eq_some_iff.1 hi).1
          obtain ⟨a, ha⟩ : ∃ a, off1.zipIdx[i]? = some a := ⟨_, List.getElem?_eq_getElem (by omega)⟩
          have := l2 i a t ha hi
          have hmem : a.1 ∈ off1 := by
            rw [List.getElem?_zipIdx, Option.map_eq_some_iff] at ha
            obtain ⟨b, hb, rfl⟩ := ha
            exact List.mem_of_getElem? hb
          rw [h1 _ hmem] at this
          have hmono : mutateTree .mono (gpCfg swapSettings [.var "z", .var "x"]) (swapRand.mDraw (s.clock + 1) a.2) (.mk .linear [vx "x", vx "z"]) = .ok indZX := by
            rfl
          rw [hmono] at this
          injection this with this
          exact this.symm
  have hnew : SwapInv (newRecs (rowsAt (fun k => decide (k ∈ placed)) off.rows) res) :=
    swap_new h _ _ 2 (fun t ht => hoff t ((rowsAt_sublist _ _).subset ht)) res g3
  intro q hq
  rcases List.mem_append.1 (g6.subset hq) with h | h
  · exact hT.inv q h
  · exact hnew q h

theorem swap_good {lstsq : List (List ℝ) → List ℝ → List ℝ} : GoodData (gpCfg swapSettings [.var "z", .var "x"]) (swapData lstsq) := by
  refine ⟨⟨rfl, ?_⟩, by simp [gpCfg], by simp [gpCfg, swapSettings], by simp [swapData]⟩
  intro x hx
  simp only [gpCfg, List.mem_cons, GTerm.var.injEq, List.not_mem_nil, or_false] at hx
  rcases hx with rfl | rfl
  · exact ⟨[2, -1, 2], rfl, rfl⟩
  · exact ⟨[1, 2, 3], rfl, rfl⟩

/-- C87, violated: the recorded error need not be the error of the model kept.  A training that returns, on data without zeros, with a solver that does solve least squares
problems, and with the root of the mean squared error as loss: every individual of the population has the recorded error zero, but the RMSE of the model kept is positive.
(A subtree that contributes nothing is replaced after the weights have been computed, and the others move up by one place.) -/
theorem c87_model_error_violated : ∃ (st : GPSettings) (d : GPData) (r : GPRand), SolvesLeastSquares d.lstsq ∧ (∀ x, ¬ HasZero d.X x) ∧ d.loss = rmsError ∧
    ∀ (tn : TournOps GTree GPObj (ℝ × ℝ) Unit Unit), ∃ s' p e, gpFit st d tn r ⟨none, none, none, none, false⟩ = (.ok (), s') ∧ s'.population = some p ∧
      p.objectives.length = 202 ∧ (∀ o ∈ p.objectives, o.error = 0) ∧ s'.rmse = some e ∧ 0 < e := by
  obtain ⟨lstsq, hls⟩ := c85_least_squares_solvable
  refine ⟨swapSettings, swapData lstsq, swapRand, hls, frameXZ_noZero, rfl, ?_⟩
  intro tn
  obtain ⟨-, s', h1, p, h2, h3⟩ := c87_can_train swapSettings (swapData lstsq) tn swapRand ⟨none, none, none, none, false⟩ swap_good (le_refl _) rfl (Nat.succ_pos _) hls
    (.inl rfl) rfl (by norm_num [swapSettings]) rfl rfl rfl
  obtain ⟨trees, p0, v, a0, a1, a2, a3, -, -, a4⟩ := gpFit_start swapSettings (swapData lstsq) tn swapRand ⟨none, none, none, none, false⟩ swap_good (by decide) rfl (by decide)
  have hfit := a4 (by norm_num [swapSettings]) rfl
  obtain ⟨b1, b2, b3, res, b4, b5, b6, b7⟩ := gp_initial_recs (swapData lstsq) _ _ trees a2 v p0 a3
  have htrees : trees = [indZX, indZX] := by
    have : gpCreate swapSettings (trainCfg swapSettings (swapData lstsq) ⟨none, none, none, none, false⟩) swapRand.create = .ok [indZX, indZX] := rfl
    rw [this] at a0
    injection a0 with a0
    exact a0.symm
  have hI : SwapInv (newRecs trees res) := swap_new hls _ trees 2 (by rw [htrees]; simp) res b4
  cases hev : evolveTo swapSettings.popSize (gpOps swapSettings (swapData lstsq) (trainCfg swapSettings (swapData lstsq) ⟨none, none, none, none, false⟩) swapRand)
      swapRand.evolve.dPred swapRand.evolve.dPrey p0 with
  | error e => rw [hev] at hfit; rw [hfit] at h1; simp at h1
  | ok t =>
    rw [hev] at hfit
    dsimp only at hfit
    obtain ⟨⟨rs', T⟩, -, -⟩ := evolveTo_spec (F := ℝ × ℝ) (O := GPObj) swapSettings.popSize _ _ _ p0 (by rw [b2]; exact gpOps_surrogate swapSettings (swapData lstsq) _ swapRand)
      SwapInv (by rw [b2]; exact swap_preserved hls _) (newRecs trees res) b5 b3 hI t hev
    rcases gpFinish_cases swapSettings (swapData lstsq) swapRand.colsEnd t.pop 
        ⟨some (trainCfg swapSettings (swapData lstsq) ⟨none, none, none, none, false⟩).terms, none, none, none, false⟩ rs' T.repr with ⟨err, s1, he, -⟩ | ⟨-, i, q, yp, c1, -, -, c2, c3⟩
    · rw [hfit, he] at h1; simp at h1
    · rw [hfit, c3] at h1
      simp only [Prod.mk.injEq, true_and] at h1
      subst h1
      injection h2 with h2
      subst h2
      refine ⟨_, t.pop, _, by rw [hfit, c3], rfl, h3, ?_, rfl, ?_⟩
      · intro o ho
        rw [T.repr.objs] at ho
        obtain ⟨q', hq', rfl⟩ := List.mem_map.1 ho
        exact (T.inv q' hq').1
      · obtain ⟨-, d1, d2⟩ := T.inv q (List.mem_of_getElem? c1)
        rw [d1, d2, show (swapData lstsq).X = frameXZ from rfl, rewritten_pure _ _ frameXZ_noZero] at c2
        have hpred : (gpPredict [vx "x", vx "z"] [0, 0, 1] frameXZ).1 = .ok [2, -1, 2] := by
          simp [gpPredict, subtreeOutputs, vx, nodePredict, nodesPredict, frameXZ, Frame.read, linearOut, List.range_succ]
        rw [hpred] at c2
        injection c2 with c2
        rw [← c2]
        show 0 < Real.sqrt _
        apply Real.sqrt_pos.2
        rw [show (swapData lstsq).y = [1, 2, 3] from rfl]
        norm_num

theorem isExpr_neg (c : GPCfg GFn GTerm) (hc : c.arity = GFn.arity) (hn : GFn.neg ∈ c.fns) (n : String) (h : GTerm.var n ∈ c.terms) : IsExpr c (.mk (.fn .neg) [vx n]) := by
  intro p s hp
  cases p with
  | nil =>
    simp only [Node.at?, Option.some.injEq] at hp
    subst hp
    exact ⟨hn, by rw [hc]; rfl⟩
  | cons i p =>
    cases i with
    | zero => exact isExpr_vx c n h p s hp
    | succ i => simp [Node.at?] at hp

/-- C87, violated: the recorded complexity counts nodes that are not part of the model any more.  A proper individual `-x, x`, its small mutation (the node `-` becomes the
variable `z` and keeps its child), nothing pruned: the model predicts with depth one and no function at all, i.e. complexity 1/2, but 1 is recorded. -/
theorem c87_complexity_violated : ∃ (c : GPCfg GFn GTerm) (t : GTree) (m : PointRand) (lstsq : List (List ℝ) → List ℝ) (low : List (List ℝ) → List Bool)
    (regrow : Nat → GrowRand) (f : LinFit), IsInd c t ∧
      calculateLinear c (1 / 2) lstsq low regrow (pointMut c t m).roots frameXZ = (.ok f, frameXZ) ∧ f.roots = (pointMut c t m).roots ∧
      f.complexity = 1 ∧ HasDepth (trim (.mk .linear f.roots)) 1 ∧ fnCount (trim (.mk .linear f.roots)) = 0 := by
  have hr : (pointMut cfgXZ (.mk .linear [.mk (.fn .neg) [vx "x"], vx "x"]) ⟨fun _ => false, fun p => p == [0], fun _ => 0, fun _ => 0⟩).roots =
      [.mk (.term (.var "z")) [vx "x"], vx "x"] := rfl
  refine ⟨cfgXZ, .mk .linear [.mk (.fn .neg) [vx "x"], vx "x"], ⟨fun _ => false, fun p => p == [0], fun _ => 0, fun _ => 0⟩, fun _ => [0, 0, 1], fun _ => [false, false],
    fun _ => ⟨fun _ => true, fun _ => 0, fun _ => 0⟩, ⟨[1, 2, 3], 1, [.mk (.term (.var "z")) [vx "x"], vx "x"], [0, 0, 1]⟩, ⟨rfl, rfl, ?_⟩, ?_, hr.symm, rfl, ?_, ?_⟩
  · intro s hs
    simp only [roots_mk, List.mem_cons, List.not_mem_nil, or_false] at hs
    rcases hs with rfl | rfl
    · exact isExpr_neg cfgXZ rfl (by simp [cfgXZ]) "x" (by simp [cfgXZ])
    · exact isExpr_vx cfgXZ "x" (by simp [cfgXZ])
  · rw [hr]
    have h1 : subtreeOutputs [.mk (.term (.var "z")) [vx "x"], vx "x"] frameXZ = (.ok [[2, -1, 2], [1, 2, 3]], frameXZ) := by
      simp [subtreeOutputs, vx, nodePredict, nodesPredict, frameXZ, Frame.read]
    have h3 : totalDepth (Node.mk NVal.linear [.mk (.term (.var "z")) [vx "x"], vx "x"]) = 2 := rfl
    simp only [calculateLinear, h1, pruneLoop, h3, Prod.mk.injEq, Except.ok.injEq, LinFit.mk.injEq, and_true]
    refine ⟨?_, by
      rw [show (List.filter _ (subNodes (Node.mk NVal.linear [.mk (.term (.var "z")) [vx "x"], vx "x"]))).length = 0 from rfl]
      norm_num⟩
    simp [frameXZ, List.range_succ, linearOut]
  · have h := totalDepth_spec (trim (Node.mk NVal.linear [.mk (.term (.var "z")) [vx "x"], vx "x"] : GTree))
    rw [show totalDepth (trim (Node.mk NVal.linear [.mk (.term (.var "z")) [vx "x"], vx "x"] : GTree)) = 1 from rfl] at h
    exact ⟨h.1, h.2⟩
  · unfold fnCount
    have : {p : List Nat | ∃ (s : GTree) (g : GFn), (trim (Node.mk NVal.linear [.mk (.term (.var "z")) [vx "x"], vx "x"] : GTree)).at? p = some s ∧ s.value = .fn g} = ∅ := by
      ext p
      simp only [Set.mem_ofPred_eq, Set.mem_empty_iff_false, iff_false]
      rintro ⟨s, g, h1, h2⟩
      have h3 := (mem_subNodes _ p s).2 h1
      have h4 : subNodes (trim (Node.mk NVal.linear [.mk (.term (.var "z")) [vx "x"], vx "x"] : GTree)) =
          [([], .mk .linear [vx "z", vx "x"]), ([0], vx "z"), ([1], vx "x")] := rfl
      rw [h4] at h3
      simp only [List.mem_cons, Prod.mk.injEq, List.not_mem_nil, or_false] at h3
      rcases h3 with ⟨-, rfl⟩ | ⟨-, rfl⟩ | ⟨-, rfl⟩ <;> cases h2
    rw [this, Set.ncard_empty]

/-! ## Fitting again on other data -/

theorem expr_child {c : GPCfg GFn GTerm} {v : NVal GFn GTerm} {rs : List GTree} (h : IsExpr c (.mk v rs)) : ∀ r ∈ rs, IsExpr c r := by
  intro r hr
  obtain ⟨i, hi⟩ := List.getElem?_of_mem hr
  exact h.sub (p := [i]) (by rw [at?_cons, roots_mk, hi, Option.bind_some, at?_nil])

/-- None of the terminals is a column. -/
def NoColumn (c : GPCfg GFn GTerm) (d : Frame) : Prop := ∀ x ∈ c.terms, ∃ n, x = .var n ∧ d.col n = none

mutual
theorem nodePredict_missing {c : GPCfg GFn GTerm} (hc : c.arity = GFn.arity) {d : Frame} (hd : NoColumn c d) :
    (t : GTree) → IsExpr c t → nodePredict t d = (.error .keyError, d)
  | .mk v rs, h => by
    have h0 := isExpr_iff.1 h [] _ (at?_nil _)
    cases v with
    | linear => exact h0.elim
    | term x =>
      obtain ⟨n, rfl, hn⟩ := hd x h0.1
      simp only [nodePredict, hn]
    | fn g =>
      have hne : rs ≠ [] := by
        rintro rfl
        have := h0.2
        rw [hc] at this
        cases g <;> simp [GFn.arity, roots_mk] at this
      simp only [nodePredict, nodesPredict_missing hc hd rs hne (expr_child h)]
theorem nodesPredict_missing {c : GPCfg GFn GTerm} (hc : c.arity = GFn.arity) {d : Frame} (hd : NoColumn c d) :
    (ts : List GTree) → ts ≠ [] → (∀ t ∈ ts, IsExpr c t) → nodesPredict ts d = (.error .keyError, d)
  | [], h, _ => absurd rfl h
  | t :: ts, _, h => by
    simp only [nodesPredict, nodePredict_missing hc hd t (h t (by simp))]
end

/-- C87. The terminal set is fixed by the first `fit` (or the constructor): a later `fit` on data that have none of these columns raises KeyError, even though the data are
proper. -/
theorem c87_refit_other_columns (st : GPSettings) (d : GPData) (tn : TournOps GTree GPObj (ℝ × ℝ) Unit Unit) (r : GPRand) (s : GPReg) (terms : List GTerm)
    (hs : s.terminals = some terms) (ht : terms ≠ []) (hf : st.fns ≠ []) (hm : 0 < st.maxSubtrees) (hl : d.X.rows = d.y.length)
    (h2 : 2 ≤ (designs st.method st.popSize st.maxDepth).length) (hd : ∀ x ∈ terms, ∃ n, x = GTerm.var n ∧ d.X.col n = none) :
    gpFit st d tn r s = (.error .keyError, s) := by
  obtain ⟨trees, hc⟩ := gpCreate_total st terms r.create ht hf
  obtain ⟨c1, c2⟩ := gpCreate_ok _ _ _ _ hc
  unfold gpFit
  rw [if_neg (by simpa using hl)]
  dsimp only
  rw [hs, Option.getD_some, hc]
  dsimp only
  have he : gpEvaluate d (gpCfg st terms) d.X r.regrow0 ⟨2, trees⟩ = .error .keyError := by
    match trees, c1, c2 with
    | [], c1, _ => simp at c1; omega
    | [_], c1, _ => simp at c1; omega
    | x :: y :: rest, _, c2 =>
      have hx := (c2 x (by simp)).1
      have hn : nodesPredict x.roots d.X = (.error .keyError, d.X) := by
        refine nodesPredict_missing (c := gpCfg st terms) rfl hd x.roots ?_ hx.exprs
        intro e
        have := hx.count
        rw [e] at this
        change 0 = st.maxSubtrees at this
        omega
      simp only [gpEvaluate, List.map_cons, modelPerformance, modelPerformance.go, gpFitTree, calculateLinear, subtreeOutputs, hn]
  rw [he]
  simp only [Pop.add]
  congr 1
  cases s
  simp only at hs
  rw [hs]

/-- its hypotheses are met: columns `a` instead of `z` and `x` -/
example : (∀ x ∈ [GTerm.var "z", GTerm.var "x"], ∃ n, x = GTerm.var n ∧ (⟨1, fun n => if n = "a" then some [1] else none⟩ : Frame).col n = none) ∧
    2 ≤ (designs swapSettings.method swapSettings.popSize swapSettings.maxDepth).length := by
  refine ⟨?_, by decide⟩
  intro x hx
  simp only [List.mem_cons, List.not_mem_nil, or_false] at hx
  rcases hx with rfl | rfl
  · exact ⟨"z", rfl, rfl⟩
  · exact ⟨"x", rfl, rfl⟩

end Verif.Props
