import Mathlib.Analysis.Complex.Trigonometric
import Verif.Model.Training

/-!
# Model of the activation functions and the loss functions of the surrogates
-/

namespace Verif

/-- `EvoNN.activate`, `EvoNN.py:169-181`, and `EvoDN2.activate`, `EvoDN2.py:201-213`, on one number; `scipy.special.expit`, `np.maximum(x, 0)` and `np.tanh` are
the functions of their documentation.  `none`: ModelError. -/
noncomputable def activation (name : String) : Option (ℝ → ℝ) :=
  if name = "sigmoid" then some (fun x => 1 / (1 + Real.exp (-x)))
  else if name = "relu" then some (fun x => max x 0)
  else if name = "tanh" then some Real.tanh
  else none

/-- `sklearn.metrics.mean_squared_error(y_true, y_pred)`, the loss "mse" (`EvoNN.py:40`, `EvoDN2.py:44`, `BioGP.py:312`). -/
noncomputable def meanSquaredError (y p : List ℝ) : ℝ := (List.zipWith (fun a b => (a - b) ^ 2) y p).sum / (y.length : ℝ)

/-- `sklearn.metrics.mean_squared_log_error(y_true, y_pred)`, the loss "msle" (`EvoNN.py:41`, `EvoDN2.py:45`, `BioGP.py:313`); its ValueError for negative
numbers is not modelled. -/
noncomputable def meanSquaredLogError (y p : List ℝ) : ℝ :=
  (List.zipWith (fun a b => (Real.log (1 + a) - Real.log (1 + b)) ^ 2) y p).sum / (y.length : ℝ)

/-- `sklearn.metrics.r2_score(y_true, y_pred)` for two samples or more: one minus the quotient of the squared errors and the squared deviations from the mean;
for constant targets 1 if the predictions are exact and 0 otherwise. -/
noncomputable def r2Score (y p : List ℝ) : ℝ :=
  let num := (List.zipWith (fun a b => (a - b) ^ 2) y p).sum
  let den := (y.map (fun a => (a - y.sum / (y.length : ℝ)) ^ 2)).sum
  open Classical in
  if den ≠ 0 then 1 - num / den else if num ≠ 0 then 0 else 1

/-- `loss_functions[loss_function]`, `EvoNN.py:39-43,51`, `EvoDN2.py:43-47,59`, `BioGP.py:311-315,340`, with `negative_r2_score` (`EvoNN.py:19-20`, `EvoDN2.py:21-22`,
`BioGP.py:22-23`): any other name raises KeyError in the constructor. -/
noncomputable def lossFunction (name : String) : Except Err (List ℝ → List ℝ → ℝ) :=
  if name = "mse" then .ok meanSquaredError
  else if name = "msle" then .ok meanSquaredLogError
  else if name = "neg_r2" then .ok (fun y p => -r2Score y p)
  else .error .keyError

end Verif
