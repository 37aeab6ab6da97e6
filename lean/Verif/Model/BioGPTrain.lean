import Verif.Model.BioGPPredict
import Verif.Model.OtherEAs
import Verif.Model.Training

/-!
# Model of a whole training of BioGP: `BioGP.fit`, `desdeo_emo/surrogatemodels/BioGP.py`

Evaluating an individual changes it: the weights are set and subtrees may be replaced (`calculateLinear`).  The individual of a record is the object as it
was when it was handed to the evaluation; the object as the evaluation left it is kept beside its objectives (`GPObj.fit`), and that is what mating,
selection and prediction read.

Evaluation also writes into the data frame (ones for zeros, in whole columns, see `Frame.fixZeros`).  Which columns have been rewritten when an evaluation
starts is an argument (`GPRand.cols`); theorem `c87_data` shows that evaluation leaves nothing but such frames behind.  Plotting is not modelled; the
loss function is one that does not raise; the data have at least one row.
-/

namespace Verif

/-- The individuals of BioGP. -/
abbrev GTree := Node GFn GTerm

/-- What is known of an evaluated individual: its row of the objectives, and the object itself. -/
structure GPObj where
  error : ℝ
  complexity : ℝ
  fit : LinFit

/-- The data and the numerical routines, `BioGP.py:356-367`: the columns of `X` in order, `np.linalg.lstsq(_, _)[0]` on a list of rows, the outcomes of
`err < error_lim` for the outputs of the subtrees (`BioGP.py:266-273`), the loss. -/
structure GPData where
  X : Frame
  columns : List String
  y : List ℝ
  lstsq : List (List ℝ) → List ℝ → List ℝ
  low : List (List ℝ) → List Bool
  loss : List ℝ → List ℝ → ℝ

/-- The arguments of the constructor, `BioGP.py:293-345`; `minError` tells whether the selection criterion is the known one. -/
structure GPSettings where
  fns : List GFn
  maxDepth : Nat
  maxSubtrees : Nat
  complexityScalar : ℝ
  popSize : Nat
  method : String
  soGen : Nat
  pXover : ℝ
  pMut : ℝ
  minError : Bool

/-- The random outcomes of a mutation. -/
structure MutRand where
  node : Nat
  node2 : Nat
  grow : GrowRand
  point : PointRand

/-- The random outcomes of a training; the argument is the clock of the evolution. -/
structure GPRand where
  create : Nat → GrowRand
  regrow0 : Nat → Nat → GrowRand
  regrow : Nat → Nat → Nat → GrowRand
  xKind : Nat → ℝ
  xDraw : Nat → Nat → Nat × Nat
  mKind : Nat → ℝ
  mDraw : Nat → Nat → MutRand
  cols : Nat → String → Bool
  colsEnd : String → Bool
  evolve : EvolveRand

/-- The frame when some columns have been rewritten by `y[y == 0] = 1.0`, `BioGP.py:559`. -/
noncomputable def Frame.rewritten (d : Frame) (P : String → Bool) : Frame :=
  { d with col := fun z => if P z then (d.col z).map (List.map nonzero) else d.col z }

/-- The rows of `np.insert(np.hstack(sub_trees), 0, 1, axis=1)`, `BioGP.py:256-260`. -/
def designRows (rows : Nat) (vals : List (List ℝ)) : List (List ℝ) := (List.range rows).map (fun j => 1 :: vals.map (fun v => v.getD j 0))

/-- `tree[0].calculate_linear(X, y)`, `BioGP.py:501`.  `_create_individuals` does not pass `complexity_scalar` on (`BioGP.py:430-438,444-452,458-466,472-480`),
so every `LinearNode` has the default 0.5 (`BioGP.py:228`). -/
noncomputable def gpFitTree (d : GPData) (c : GPCfg GFn GTerm) (regrow : Nat → Nat → GrowRand) (i : Nat) (roots : List GTree) (fr : Frame) :
    Except Err LinFit × Frame :=
  calculateLinear c (1 / 2) (fun vals => d.lstsq (designRows fr.rows vals) d.y) d.low (regrow i) roots fr

/-- `surrogateProblem.evaluate` with `BioGP._model_performance`, `Problem.py:12-14`, `BioGP.py:486-507`. -/
noncomputable def gpEvaluate (d : GPData) (c : GPCfg GFn GTerm) (fr : Frame) (regrow : Nat → Nat → GrowRand) (b : Batch GTree) :
    Except Err (Results GPObj (ℝ × ℝ) Unit Unit) :=
  match (modelPerformance (gpFitTree d c regrow) (d.loss d.y) (b.rows.map Node.roots) fr).1 with
  | .error e => .error e
  | .ok (objs, fits) => .ok ⟨List.zipWith (fun o f => ⟨o.1, o.2, f⟩) objs fits, objs, none, none⟩

/-- Which crossover the one draw of `do` selects, `biogp_xover.py:101,117-151`; `probability_standard` is 0.5. -/
noncomputable def xKindOf (pXover r : ℝ) : XKind :=
  open Classical in
  if r ≤ pXover - 1 / 2 then .fair else if r ≤ pXover then .standard else .none

/-- The branches of the mutation, `biogp_mutation.py:92-140`. -/
inductive MKind | standard | point | mono | none
deriving DecidableEq

/-- Which mutation the one draw of `do` selects, `biogp_mutation.py:82-87,90-140`. -/
noncomputable def mKindOf (pMut r : ℝ) : MKind :=
  open Classical in
  if r ≤ pMut / 3 then .standard else if r ≤ pMut / 3 + pMut / 3 then .point else if r ≤ pMut then .mono else .none

/-- One offspring in `BioGP_mutation.do`, `biogp_mutation.py:92-140`. -/
def mutateTree (k : MKind) (c : GPCfg GFn GTerm) (m : MutRand) (t : GTree) : Except Err GTree :=
  match k with
  | .standard => standardMut c t m.node m.grow
  | .point => .ok (pointMut c t m.point)
  | .mono => monoMut t m.node m.node2
  | .none => .ok t

/-- The individuals as evaluation left them. -/
def gpTrees (p : Pop GTree GPObj (ℝ × ℝ) Unit Unit) : List GTree := p.objectives.map (fun o => Node.mk .linear o.fit.roots)

/-- One pair of mates in `BioGP_xover.do`, `biogp_xover.py:116-153`; the number counts the pairs. -/
def gpPair (k : XKind) (draw : Nat → Nat × Nat) (trees : List GTree) (q : (Int × Int) × Nat) : Except Err (GTree × GTree) :=
  match trees[q.1.1.toNat]?, trees[q.1.2.toNat]? with
  | some a, some b => xoverPair k a b (draw q.2).1 (draw q.2).2
  | _, _ => .error .indexError

/-- `BioGP_xover.do` on pairs, `biogp_xover.py:100-155`. -/
def gpXover (k : XKind) (draw : Nat → Nat × Nat) (trees : List GTree) (mating : List (Int × Int)) : Except Err (List GTree) :=
  match mating.zipIdx.mapM (gpPair k draw trees) with
  | .error e => .error e
  | .ok pairs => .ok (pairs.flatMap (fun p => [p.1, p.2]))

/-- `BioGP_mutation.do`, `biogp_mutation.py:89-142`. -/
def gpMutate (k : MKind) (c : GPCfg GFn GTerm) (draw : Nat → MutRand) (off : List GTree) : Except Err (List GTree) :=
  off.zipIdx.mapM (fun q => mutateTree k c (draw q.2) q.1)

/-- `SurrogatePopulation.mate` with crossover and mutation, `Population.py:237-239`. -/
noncomputable def gpMate (st : GPSettings) (c : GPCfg GFn GTerm) (r : GPRand) (clock : Nat) (p : Pop GTree GPObj (ℝ × ℝ) Unit Unit) (mating : List (Int × Int)) :
    Except Err (Batch GTree) :=
  match p.individuals with
  | none => .error .attributeError
  | some _ =>
    match gpXover (xKindOf st.pXover (r.xKind clock)) (r.xDraw clock) (gpTrees p) mating with
    | .error e => .error e
    | .ok off =>
      match gpMutate (mKindOf st.pMut (r.mKind clock)) c (r.mDraw clock) off with
      | .error e => .error e
      | .ok off => .ok ⟨2, off⟩

/-- The parts of PPGA while it trains a BioGP. -/
noncomputable def gpOps (st : GPSettings) (d : GPData) (c : GPCfg GFn GTerm) (r : GPRand) : PPGAOps GTree GPObj (ℝ × ℝ) Unit Unit :=
  ⟨r.evolve.prey, r.evolve.placeY, r.evolve.placeX, r.evolve.pred, gpMate st c r,
    fun clock b => gpEvaluate d c (d.X.rewritten (r.cols clock)) (r.regrow clock) b, r.evolve.nds, id⟩

/-- `_create_individuals`, `BioGP.py:424-484`. -/
def gpCreate (st : GPSettings) (c : GPCfg GFn GTerm) (create : Nat → GrowRand) : Except Err (List GTree) :=
  (designs st.method st.popSize st.maxDepth).zipIdx.mapM (fun q => newInd c q.1.1 q.1.2 (create q.2))

/-- The attributes `fit` writes and `predict` reads, `BioGP.py:346-354`. -/
structure GPReg where
  terminals : Option (List GTerm)
  population : Option (Pop GTree GPObj (ℝ × ℝ) Unit Unit)
  tree : Option LinFit
  rmse : Option ℝ
  trained : Bool

/-- `np.sqrt(mean_squared_error(y, y_pred))`, `BioGP.py:542`. -/
noncomputable def rmseOf (y p : List ℝ) : ℝ := Real.sqrt ((y.zipWith (fun a b => (a - b) ^ 2) p).sum / (y.length : ℝ))

/-- `BioGP.select` and the last line of `fit`, `BioGP.py:419-422,533-543`.  `dnSelect` is the same choice of the index (`EvoDN2.py:223-228`). -/
noncomputable def gpFinish (st : GPSettings) (d : GPData) (colsEnd : String → Bool) (p : Pop GTree GPObj (ℝ × ℝ) Unit Unit) (s : GPReg) : Except Err Unit × GPReg :=
  let s := { s with population := some p }
  match dnSelect st.minError (p.objectives.map GPObj.error) with
  | .error e => (.error e, s)
  | .ok i =>
    match p.objectives[i]? with
    | none => (.error .indexError, s)
    | some o =>
      let s := { s with tree := some o.fit }
      match (gpPredict o.fit.roots o.fit.linear (d.X.rewritten colsEnd)).1 with
      | .error e => (.error e, s)
      | .ok yp => (.ok (), { s with rmse := some (rmseOf d.y yp), trained := true })

/-- What the trees know: `_create_individuals` hands on the sets and the limits, `BioGP.py:430-438`. -/
def gpCfg (st : GPSettings) (terms : List GTerm) : GPCfg GFn GTerm := ⟨st.fns, terms, GFn.arity, st.maxDepth, st.maxSubtrees⟩

/-- `BioGP.fit`, `BioGP.py:356-422`.  `BioGP_xover` refuses a probability of crossover below 0.5 (`biogp_xover.py:92-97`); `tn` is what the
tournament would do if it ran.  The terminal set is taken from the columns only if there is none yet (`BioGP.py:366-367`). -/
noncomputable def gpFit (st : GPSettings) (d : GPData) (tn : TournOps GTree GPObj (ℝ × ℝ) Unit Unit) (r : GPRand) (s : GPReg) : Except Err Unit × GPReg :=
  if d.X.rows ≠ d.y.length then (.error .modelError, s)
  else
    let terms := s.terminals.getD (d.columns.map GTerm.var)
    let s := { s with terminals := some terms }
    let c := gpCfg st terms
    match gpCreate st c r.create with
    | .error e => (.error e, s)
    | .ok trees =>
      match (Pop.new 0).add ⟨2, trees⟩ (gpEvaluate d c d.X r.regrow0 ⟨2, trees⟩) with
      | (.error e, _) => (.error e, s)
      | (.ok _, p) =>
        open Classical in
        if st.pXover < 1 / 2 then (.error .valueError, s)
        else
          match tournConstruct 1 st.soGen (some p) with
          | .error e => (.error e, s)
          | .ok ea =>
            match tournDrive tn 1 ea with
            | (.error e, _) => (.error e, s)
            | (.ok _, ea) =>
              match evolveTo st.popSize (gpOps st d c r) r.evolve.dPred r.evolve.dPrey ea.pop with
              | .error e => (.error e, s)
              | .ok t => gpFinish st d r.colsEnd t.pop s

/-- `BioGP.predict(X)`, `BioGP.py:509-531`: without a tree, `self.tree.roots` is AttributeError. -/
noncomputable def gpRegPredict (s : GPReg) (d : Frame) : Except Err (List ℝ) × Frame :=
  match s.tree with
  | none => (.error .attributeError, d)
  | some f => gpPredict f.roots f.linear d

end Verif
