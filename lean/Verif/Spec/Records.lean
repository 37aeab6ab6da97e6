/-!
# Specification: a population is a list of complete records

Nothing here refers to the model.  An index list `idx` over `n` rows *names* row `k` when it contains
`k` or `k - n` (Python's negative indexing); it is in range when all entries lie in `[-n, n)`.
-/

namespace Spec

/-- One individual with everything known about it. -/
structure Rec (X O F C U : Type) where
  x : X
  o : O
  f : F
  c : Option C
  u : Option U

/-- `idx` names position `k` of `n` rows. -/
def names (n : Nat) (idx : List Int) (k : Nat) : Bool :=
  idx.any (fun i => i == (k : Int) || i == (k : Int) - (n : Int))

/-- every index lies in `[-n, n)` -/
def inRange (n : Nat) (idx : List Int) : Bool :=
  idx.all (fun i => -(n : Int) ≤ i && i < (n : Int))

/-- The rows of `l` whose position satisfies `g`, in order. -/
def rowsAt {α : Type} (g : Nat → Bool) (l : List α) : List α :=
  (l.zipIdx.filter (fun p => g p.2)).map (fun p => p.1)

/-- `l` with every row whose position satisfies `g` changed to `a`. -/
def rowsSet {α : Type} (g : Nat → Bool) (a : α) (l : List α) : List α :=
  l.zipIdx.map (fun p => if g p.2 then a else p.1)

end Spec
