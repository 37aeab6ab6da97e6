/-! # What a Python call gives to a parameter (nothing here mentions the model) -/

namespace Verif.Spec

/-- In a call of a function with the parameters `names` (in order) and defaults `dflt`, with positional arguments `pos` and keyword arguments
`kw`, the parameter `p` receives the value `v`. -/
inductive Receives {V : Type} (names : List String) (dflt : String → Option V) (pos : List V) (kw : List (String × V)) (p : String) : V → Prop
  | position (i : Nat) (v : V) : names[i]? = some p → pos[i]? = some v → Receives names dflt pos kw p v
  | keyword (v : V) : (∀ i : Nat, names[i]? = some p → pos[i]? = none) → kw.lookup p = some v → Receives names dflt pos kw p v
  | default (v : V) : (∀ i : Nat, names[i]? = some p → pos[i]? = none) → kw.lookup p = none → dflt p = some v → Receives names dflt pos kw p v

/-- Python accepts the call: not more positional arguments than parameters, every keyword is the name of a parameter not given by position, and
every parameter without default is given. -/
def LegalCall {V : Type} (names : List String) (dflt : String → Option V) (pos : List V) (kw : List (String × V)) : Prop :=
  pos.length ≤ names.length ∧ (∀ a ∈ kw, a.1 ∈ names ∧ a.1 ∉ names.take pos.length) ∧
    ∀ (i : Nat) (p : String), names[i]? = some p → dflt p = none → i < pos.length ∨ ∃ v, (p, v) ∈ kw

end Verif.Spec
