import Verif.Spec.RefVectors
import Verif.Spec.Records

/-! # Vocabulary for MOEA/D (nothing here mentions the model) -/

namespace Verif.Spec

variable {m : Nat}

/-- `order` lists the positions of `l` in ascending order of their values (ties in any order). -/
structure IsArgsort {K : Type} [LE K] (l : List K) (order : List Nat) : Prop where
  perm : order.Perm (List.range l.length)
  sorted : ∀ (i j a b : Nat) (x y : K), i < j → order[i]? = some a → order[j]? = some b →
    l[a]? = some x → l[b]? = some y → x ≤ y

/-- `nb` consists of `n` distinct positions of the list of vectors (all, if there are fewer), and no vector left out is
nearer to `v` than one taken. -/
structure IsNeighbourhood (n : Nat) (vectors : List (Fin m → ℝ)) (v : Fin m → ℝ) (nb : List Nat) : Prop where
  distinct : nb.Nodup
  size : nb.length = min n vectors.length
  valid : ∀ k ∈ nb, k < vectors.length
  nearest : ∀ (j k : Nat) (w u : Fin m → ℝ), j ∈ nb → k ∉ nb → vectors[j]? = some w → vectors[k]? = some u →
    dist2 v w ≤ dist2 v u

/-- Strictly less, for values of which `none` (not a number) compares with nothing. -/
def Less {K : Type} [LT K] (a b : Option K) : Prop := ∃ x y, a = some x ∧ b = some y ∧ x < y

/-- Subproblem by subproblem, the individual is the same one as before or a strictly better one. -/
structure NoneWorse {A K : Type} [LT K] (value : Nat → A → Option K) (before after : List A) : Prop where
  size : after.length = before.length
  better : ∀ (k : Nat) (a b : A), before[k]? = some a → after[k]? = some b → b = a ∨ Less (value k b) (value k a)

end Verif.Spec
