/-! # New rows; partitions (nothing here mentions the model) -/

namespace Verif.Spec

/-- Row `k` of `xs` is new: not in the archive and not among the earlier rows of `xs`. -/
def NewRow {α : Type} (archive xs : List α) (k : Nat) : Prop :=
  ∃ x, xs[k]? = some x ∧ x ∉ archive ∧ ∀ j, j < k → xs[j]? ≠ some x

/-- Position `k` of `l` holds a value that occurs earlier. -/
def Repeated {α : Type} (l : List α) (k : Nat) : Prop := ∃ x j, l[k]? = some x ∧ j < k ∧ l[j]? = some x

/-- What `argpartition(l, kth)` guarantees: a permutation of the positions, such that the first `kth` hold values not
greater than the others. -/
structure IsPartition {K : Type} [LE K] (l : List K) (kth : Nat) (idx : List Nat) : Prop where
  perm : idx.Perm (List.range l.length)
  le : ∀ (i j a b : Nat) (x y : K), i < kth → kth ≤ j → idx[i]? = some a → idx[j]? = some b → l[a]? = some x →
    l[b]? = some y → x ≤ y

end Verif.Spec
