import Verif.Model.Numpy

/-!
# Model of the expression trees of `desdeo_emo/surrogatemodels/BioGP.py` and of their variation operators
(`recombination/biogp_xover.py`, `recombination/biogp_mutation.py`)

`G` are the functions, `T` the terminals.  A position in a tree is the list of child indices on the way from the root.  Every
random outcome is an argument; `choice(l)` is `l[d % len(l)]` for an arbitrary natural number `d`.
-/

namespace Verif

/-- `Node.value`: a function (callable), a terminal (name or number), or the string `"linear"` of the root. -/
inductive NVal (G T : Type)
  | fn (g : G)
  | term (t : T)
  | linear
deriving DecidableEq, Repr

/-- `Node` / `LinearNode`, `BioGP.py:26-63`, `203-249`: the value and the children (`roots`).  The cached fields `nodes`, `nodes_at_depth`,
`total_depth`, `depth` are computed by `subNodes` below; every operator of the library refreshes them after changing the tree. -/
inductive Node (G T : Type)
  | mk (value : NVal G T) (roots : List (Node G T))

variable {G T : Type}

namespace Node

def value : Node G T → NVal G T
  | mk v _ => v

def roots : Node G T → List (Node G T)
  | mk _ rs => rs

/-- The node at a position. -/
def at? : Node G T → List Nat → Option (Node G T)
  | t, [] => some t
  | mk _ rs, i :: p =>
    match rs[i]? with
    | none => none
    | some c => at? c p

/-- The tree with value and children of the node at a position replaced by those of `s` (assigning `.value` and `.roots` of a node
object inside the tree). -/
def put : Node G T → List Nat → Node G T → Node G T
  | _, [], s => s
  | mk v rs, i :: p, s => mk v (rs.modify i (fun c => put c p s))

mutual
/-- number of nodes (fuel for the enumeration below) -/
def count : Node G T → Nat
  | mk _ rs => countL rs + 1
def countL : List (Node G T) → Nat
  | [] => 0
  | t :: ts => count t + countL ts
end

end Node

/-! ## Enumeration -/

/-- A node in the queue of `get_sub_nodes`: its position and itself; its depth is the root's depth plus the length of the position. -/
abbrev QNode (G T : Type) := List Nat × Node G T

/-- The children pushed for one node, `BioGP.py:129-133`. -/
def pushes (q : QNode G T) : List (QNode G T) := q.2.roots.zipIdx.map (fun c => (q.1 ++ [c.2], c.1))

/-- The loop of `get_sub_nodes`, `BioGP.py:118-133`: take the first of the queue, append its children at the end.  The first argument
bounds the number of rounds. -/
def bfs : Nat → List (QNode G T) → List (QNode G T)
  | 0, _ => []
  | _ + 1, [] => []
  | n + 1, q :: qs => q :: bfs n (qs ++ pushes q)

/-- `get_sub_nodes`, `BioGP.py:109-138`, started at a node.  There are as many rounds as nodes (`c50_nodes` shows that nothing is
missed). -/
def subNodes (t : Node G T) : List (QNode G T) := bfs t.count [([], t)]

/-- `nodes_at_depth[d]` for a root at depth 0. -/
def nodesAtDepth (t : Node G T) (d : Nat) : List (QNode G T) := (subNodes t).filter (fun q => q.1.length == d)

/-- `total_depth`, `BioGP.py:136`, for a root at depth 0. -/
def totalDepth (t : Node G T) : Nat := ((subNodes t).map (fun q => q.1.length)).foldl max 0

/-! ## Growing -/

/-- What a tree knows about how to grow, `BioGP.py:43-62`; `arity g` is `g.__code__.co_argcount`. -/
structure GPCfg (G T : Type) where
  fns : List G
  terms : List T
  arity : G → Nat
  maxDepth : Nat
  maxSubtrees : Nat

/-- Random outcomes for the node created at a position: is it made a terminal (`random() < prob_terminal`), and the two `choice`s. -/
structure GrowRand where
  stop : List Nat → Bool
  term : List Nat → Nat
  fn : List Nat → Nat

/-- `random.choice(l)`; IndexError on an empty sequence. -/
def pick {α : Type} (l : List α) (d : Nat) : Except Err α :=
  match l[d % l.length]? with
  | none => .error .indexError
  | some a => .ok a

/-- The terminal branch, `BioGP.py:171-182`. -/
def growTerm (c : GPCfg G T) (r : GrowRand) (p : List Nat) : Except Err (Node G T) :=
  match pick c.terms (r.term p) with
  | .error e => .error e
  | .ok t => .ok (.mk (.term t) [])

/-- `grow_tree` at depth at least 1, `BioGP.py:172-201`.  The first argument is `max_depth - depth` (0 when the maximal depth is
reached or passed); `full` tells the method; `p` is the position of the node. -/
def growAt (c : GPCfg G T) (full : Bool) (r : GrowRand) : Nat → List Nat → Except Err (Node G T)
  | 0, p => growTerm c r p
  | left + 1, p =>
    if !full && r.stop p then growTerm c r p
    else
      match pick c.fns (r.fn p) with
      | .error e => .error e
      | .ok g =>
        match (List.range (c.arity g)).mapM (fun i => growAt c full r left (p ++ [i])) with
        | .error e => .error e
        | .ok cs => .ok (.mk (.fn g) cs)

/-- `grow_tree` at depth 0 with a given root, `BioGP.py:163-169`: subtrees are appended until there are `max_subtrees`. -/
def fillRoots (c : GPCfg G T) (full : Bool) (maxDepth : Nat) (r : GrowRand) (roots : List (Node G T)) :
    Except Err (List (Node G T)) :=
  match (List.range' roots.length (c.maxSubtrees - roots.length)).mapM (fun i => growAt c full r (maxDepth - 1) [i]) with
  | .error e => .error e
  | .ok ts => .ok (roots ++ ts)

/-- An individual made by `_create_individuals`, `BioGP.py:424-484`: a `LinearNode` whose subtrees were grown to `md`. -/
def newInd (c : GPCfg G T) (full : Bool) (md : Nat) (r : GrowRand) : Except Err (Node G T) :=
  match fillRoots c full md r [] with
  | .error e => .error e
  | .ok ts => .ok (.mk .linear ts)

/-- The (method, depth) of every individual `_create_individuals` makes, `BioGP.py:424-484`; `true` is the full method.  For other
strings than the three the list is empty. -/
def designs (method : String) (popSize maxDepth : Nat) : List (Bool × Nat) :=
  if method = "ramped_half_and_half" then
    (List.range' ((maxDepth + 1) / 2) (maxDepth + 1 - (maxDepth + 1) / 2)).flatMap (fun md =>
      List.replicate (popSize / (maxDepth + 1)) (false, md) ++ List.replicate (popSize / (maxDepth + 1)) (true, md))
  else if method = "full" then List.replicate popSize (true, maxDepth)
  else if method = "grow" then List.replicate popSize (false, maxDepth)
  else []

/-! ## Crossover -/

/-- The two subtrees at `p1` and `p2` change places, `biogp_xover.py:128-133` and `136-144`. -/
def swapTrees (t1 t2 : Node G T) (p1 p2 : List Nat) (s1 s2 : Node G T) : Node G T × Node G T := (t1.put p1 s2, t2.put p2 s1)

/-- Height-fair crossover of two copies, `biogp_xover.py:123-135`; `d1`, `d2` are the two choices. -/
def heightFair (t1 t2 : Node G T) (d1 d2 : Nat) : Except Err (Node G T × Node G T) :=
  let depth := min (totalDepth t1) (totalDepth t2)
  match pick (nodesAtDepth t1 depth) d1, pick (nodesAtDepth t2 depth) d2 with
  | .ok q1, .ok q2 => .ok (swapTrees t1 t2 q1.1 q2.1 q1.2 q2.2)
  | _, _ => .error .indexError

/-- Standard crossover of two copies, `biogp_xover.py:137-148`: any nodes but the roots. -/
def standardXover (t1 t2 : Node G T) (d1 d2 : Nat) : Except Err (Node G T × Node G T) :=
  match pick (subNodes t1).tail d1, pick (subNodes t2).tail d2 with
  | .ok q1, .ok q2 => .ok (swapTrees t1 t2 q1.1 q2.1 q1.2 q2.2)
  | _, _ => .error .indexError

/-- Which of the three branches the one draw of `do` selects for all pairs, `biogp_xover.py:116-151`. -/
inductive XKind | fair | standard | none
deriving DecidableEq

/-- One pair of mates, `biogp_xover.py:118-153`: two offspring. -/
def xoverPair (k : XKind) (t1 t2 : Node G T) (d1 d2 : Nat) : Except Err (Node G T × Node G T) :=
  match k with
  | .fair => heightFair t1 t2 d1 d2
  | .standard => standardXover t1 t2 d1 d2
  | .none => .ok (t1, t2)

/-- The mating pairs of one-dimensional ids, `biogp_xover.py:103-115`: each id at an even place is paired with itself. -/
def selfPairs (ids : List Nat) : List (Nat × Nat) := (ids.zipIdx.filter (fun p => p.2 % 2 == 0)).map (fun p => (p.1, p.1))

/-! ## Mutation -/

/-- Standard mutation, `biogp_mutation.py:93-109`: a random node but the root is grown anew to the tree's own `max_depth`; positions of
the new nodes are relative to the chosen one. -/
def standardMut (c : GPCfg G T) (t : Node G T) (d : Nat) (r : GrowRand) : Except Err (Node G T) :=
  match pick (subNodes t).tail d with
  | .error e => .error e
  | .ok q =>
    match growAt c false r (c.maxDepth - q.1.length) [] with
    | .error e => .error e
    | .ok s => .ok (t.put q.1 s)

/-- Random outcomes of the small mutation at a position: the two comparisons with `prob_replace`, the new function, the new terminal. -/
structure PointRand where
  first : List Nat → Bool
  second : List Nat → Bool
  fn : List Nat → Nat
  term : List Nat → Nat

/-- New value of one node, `biogp_mutation.py:114-125`.  The `while` loop draws until the arity agrees, i.e. the result is any function
of the set with that arity; if there is none the code loops for ever (the value is kept here; this cannot happen for values from the
set).  An empty terminal set raises (kept here). -/
def pointVal (c : GPCfg G T) (r : PointRand) (p : List Nat) (v : NVal G T) : NVal G T :=
  match r.first p, v with
  | true, .fn g =>
    match pick (c.fns.filter (fun f => c.arity f == c.arity g)) (r.fn p) with
    | .ok f => .fn f
    | .error _ => v
  | _, _ =>
    if r.second p then
      match pick c.terms (r.term p) with
      | .ok t => .term t
      | .error _ => v
    else v

mutual
/-- Small mutation of the subtree at `p`, node by node (the order of the visits is irrelevant: the draws are independent). -/
def pointAt (c : GPCfg G T) (r : PointRand) (p : List Nat) : Node G T → Node G T
  | .mk v rs => .mk (pointVal c r p v) (pointAtL c r p 0 rs)
def pointAtL (c : GPCfg G T) (r : PointRand) (p : List Nat) (i : Nat) : List (Node G T) → List (Node G T)
  | [] => []
  | t :: ts => pointAt c r (p ++ [i]) t :: pointAtL c r p (i + 1) ts
end

/-- Small mutation, `biogp_mutation.py:111-126`: every node but the root. -/
def pointMut (c : GPCfg G T) (t : Node G T) (r : PointRand) : Node G T := .mk t.value (pointAtL c r [] 0 t.roots)

/-- Mono-parental mutation, `biogp_mutation.py:128-137`: two different nodes other than the root exchange value and children.  If one
lies below the other, the upper one gets the children of the lower one, and the lower one (now the top of a cycle of references) is no
longer part of the tree. -/
def monoMut (t : Node G T) (d1 d2 : Nat) : Except Err (Node G T) :=
  let l := (subNodes t).tail
  if l.length < 2 then .error .valueError
  else
    match pick l d1 with
    | .error e => .error e
    | .ok q1 =>
      match pick (l.eraseIdx (d1 % l.length)) d2 with
      | .error e => .error e
      | .ok q2 =>
        if q1.1 <+: q2.1 then .ok (t.put q1.1 q2.2)
        else if q2.1 <+: q1.1 then .ok (t.put q2.1 q1.2)
        else .ok ((t.put q1.1 q2.2).put q2.1 q1.2)

/-! ## Pruning of subtrees with a low error reduction ratio -/

/-- The loop of `calculate_linear`, `BioGP.py:272-275`: `flags` are the outcomes of `err < error_lim` for the subtrees as they were when
the ratios were computed; `i` counts them; `r i` are the draws of the `i`-th regrowth. -/
def pruneLoop (c : GPCfg G T) (r : Nat → GrowRand) : Nat → List Bool → List (Node G T) → Except Err (List (Node G T))
  | _, [], roots => .ok roots
  | i, false :: fs, roots => pruneLoop c r (i + 1) fs roots
  | i, true :: fs, roots =>
    if roots.length ≤ i then .error .indexError
    else
      match fillRoots c false c.maxDepth (r i) (roots.eraseIdx i) with
      | .error e => .error e
      | .ok roots => pruneLoop c r (i + 1) fs roots

end Verif
