import Verif.Model.InfSelect
import Verif.Model.MOEAD

/-!
# MOEA/D when a fitness value may be infinite or NaN

The penalty boundary intersection is the default of `MOEAD.py:78`; it comes from `desdeo_tools`.  Its reference implementation there is
modelled, not proved about; it may compute the distance from the direction as `(f - z) - d1 * w` or as `f - (z + d1 * w)`, which is the same
for numbers, and both are covered here.
-/

namespace Verif

variable {m : Nat}

/-- `np.abs(a)`. -/
noncomputable def xAbs : XF → XF
  | some a => some (if 0 ≤ a then a else -a)
  | none => none

/-- The distance of `f` from `z` along the weights: `|np.dot(f - z, w)| / np.linalg.norm(w)`. -/
noncomputable def xAlong (f w z : XVec m) : XF := xDiv (xAbs (xSum (fun i => xMul (xSub (f i) (z i)) (w i)))) (xNorm w)

/-- The scalarization function of `MOEAD_select.py:103-105` when it is the default PBI, the distance being computed from `f - z`. -/
noncomputable def pbiX (theta : ℝ) (f : XVec m) (w : Fin m → EReal) (z : XVec m) : XF :=
  let wx : XVec m := fun i => some (w i)
  let d1 := xAlong f wx z
  xAdd d1 (xMul (some ((theta : ℝ) : EReal)) (xNorm (fun i => xSub (xSub (f i) (z i)) (xDiv (xMul d1 (wx i)) (xNorm wx)))))

/-- The same with the distance computed from `f - (z + d1 * w / |w|)`. -/
noncomputable def pbiX' (theta : ℝ) (f : XVec m) (w : Fin m → EReal) (z : XVec m) : XF :=
  let wx : XVec m := fun i => some (w i)
  let d1 := xAlong f wx z
  xAdd d1 (xMul (some ((theta : ℝ) : EReal)) (xNorm (fun i => xSub (f i) (xAdd (z i) (xDiv (xMul d1 (wx i)) (xNorm wx))))))

/-- `np.max(w * np.abs(f - z))`, the Tchebycheff scalarization that can be chosen instead. -/
noncomputable def tcheX (f : XVec m) (w : Fin m → EReal) (z : XVec m) : XF :=
  (List.ofFn (fun i => xMul (some (w i)) (xAbs (xSub (f i) (z i))))).foldl xMax2 (some 0)

end Verif
