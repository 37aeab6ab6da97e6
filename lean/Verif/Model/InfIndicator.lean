import Verif.Model.Indicator
import Verif.Model.InfSelect

/-!
# IBEA when a fitness value may be infinite or NaN

The additive epsilon indicator is the default of `IBEA.py:66`; it comes from `desdeo_tools` and its reference implementation there (start
with 0.0; for every objective, replace the value by `front[i] - reference_front[i]` if that is greater) is modelled, not proved about.
-/

namespace Verif

variable {m : Nat}

/-- `epsilon_indicator(a, b)`, `IBEA.py:66`: a difference that is NaN is not greater than anything. -/
noncomputable def epsX (a b : XVec m) : EReal :=
  (List.ofFn (fun i => xSub (b i) (a i))).foldl (fun e d => match d with | some d => if d > e then d else e | none => e) 0

/-- `np.exp(-indicator(a, b) / kappa)` for positive `kappa`, `IBEA.py:93-94,106`: zero if the indicator is infinite.  Indicators that are
`-inf` or NaN are not modelled; `epsX` is neither. -/
noncomputable def ibeaTermX (indicator : XVec m → XVec m → EReal) (kappa : ℝ) : XVec m → XVec m → ℝ :=
  fun a b => if indicator a b = ⊤ then 0 else Real.exp (-(indicator a b).toReal / kappa)

end Verif
