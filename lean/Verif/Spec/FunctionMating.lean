import Verif.Model.FunctionMating

/-!
# Vocabulary for the recombination functions of the surrogates
-/

namespace Verif.Spec

/-- `os` holds two offspring for each pair, in order, and `rel a b o1 o2` relates those of pair `k` to its mates. -/
def TwoPerPair {A : Type} (pop : List A) (ps : List (Nat × Nat)) (rel : A → A → A → A → Prop) (os : List A) : Prop :=
  os.length = 2 * ps.length ∧ ∀ (k i j : Nat), ps[k]? = some (i, j) → ∃ a b o1 o2, pop[i]? = some a ∧ pop[j]? = some b ∧
    os[2 * k]? = some o1 ∧ os[2 * k + 1]? = some o2 ∧ rel a b o1 o2

/-- Every node (column) of the two offspring is that of one of the mates, crosswise. -/
def ColumnsCrossed {r c : Nat} (a b o1 o2 : NNet r c ℝ) : Prop :=
  ∀ j : Fin c, (∀ i, o1 i j = a i j ∧ o2 i j = b i j) ∨ (∀ i, o1 i j = b i j ∧ o2 i j = a i j)

end Verif.Spec
