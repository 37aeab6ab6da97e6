import Verif.Spec.RefVectors
import Mathlib.Analysis.SpecialFunctions.Trigonometric.Inverse

/-! # The angle between two vectors (nothing here mentions the model) -/

namespace Verif.Spec

variable {m : Nat}

/-- The angle between two nonzero vectors, in radians. -/
noncomputable def angleTo (v w : Fin m → ℝ) : ℝ := Real.arccos (inner v w / (len v * len w))

end Verif.Spec
