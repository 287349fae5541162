import Mathlib.Analysis.SpecialFunctions.Pow.Real
import Mathlib.Analysis.SpecialFunctions.Sqrt
import Mathlib.LinearAlgebra.Matrix.Defs
import Verif.Model.Prelude

/-!
# Model of `src/mfpml/models/kernels.py`
-/

open scoped BigOperators

namespace Mfpml.GP

/-- A sample array of shape `(n, d)` (kernels.py:127-128). -/
abbrev Samples (n d : ℕ) := Fin n → Fin d → ℝ

/-- A Python value `10 ** -10` (kernels.py:134, 169; co_kriging.py jitter). -/
noncomputable def nugget : ℝ := (10 : ℝ) ^ (-10 : ℤ)

/-- The RBF kernel object: `self.param` (already exponentiated) and the log10 search bounds, the same for every parameter
(kernels.py:84-108).  `num_para` is the type index `d`: one parameter per dimension. -/
structure RBF (d : ℕ) where
  param : Fin d → ℝ
  boundLow : ℝ
  boundHigh : ℝ

/-- `10 ** theta` elementwise (kernels.py:102, 162, 175). -/
noncomputable def pow10 {d : ℕ} (theta : Fin d → ℝ) : Fin d → ℝ := fun j => (10 : ℝ) ^ theta j

/-- `RBF.__init__`, kernels.py:85-108. -/
noncomputable def RBF.mk' {d : ℕ} (theta : Fin d → ℝ) (low high : ℝ) : RBF d :=
  { param := pow10 theta, boundLow := low, boundHigh := high }

/-- `dist[i, j]` of kernels.py:129-132 and 164-167 for two rows. -/
noncomputable def rbfDist {d : ℕ} (param : Fin d → ℝ) (x y : Fin d → ℝ) : ℝ :=
  let xsq := ∑ k, x k ^ 2 * param k
  let ysq := ∑ k, y k ^ 2 * param k
  let xy := ∑ k, (Real.sqrt (param k) * x k) * (Real.sqrt (param k) * y k)
  xsq + ysq - 2 * xy

/-- The returned matrix of kernels.py:127-134 and 159-169: `exp(-dist) + eye(n1, n2) * 10 ** -10`.  `np.eye(n1, n2)` is rectangular: the nugget
is added wherever the two *positions* agree. -/
noncomputable def rbfMatrix {n m d : ℕ} (param : Fin d → ℝ) (X : Samples n d) (Y : Samples m d) : Matrix (Fin n) (Fin m) ℝ :=
  fun i j => Real.exp (-(rbfDist param (X i) (Y j))) + (if i.val = j.val then 1 else 0) * nugget

/-- `RBF.get_kernel_matrix`, kernels.py:110-134. -/
noncomputable def RBF.getKernelMatrix {n m d : ℕ} (k : RBF d) (X : Samples n d) (Y : Samples m d) : Matrix (Fin n) (Fin m) ℝ :=
  rbfMatrix k.param X Y

/-- `RBF.__call__`, kernels.py:136-169: the parameters are given as log10 values. -/
noncomputable def RBF.call {n m d : ℕ} (_ : RBF d) (X : Samples n d) (Y : Samples m d) (param : Fin d → ℝ) : Matrix (Fin n) (Fin m) ℝ :=
  rbfMatrix (pow10 param) X Y

/-- `RBF.set_params`, kernels.py:171-175. -/
noncomputable def RBF.setParams {d : ℕ} (k : RBF d) (params : Fin d → ℝ) : RBF d := { k with param := pow10 params }

/-- `np.finfo(np.float32).eps` (kernels.py:193). -/
noncomputable def epsF32 : ℝ := (2 : ℝ) ^ (-23 : ℤ)

/-- `kronDelta`, kernels.py:180-193: rows closer than `eps` in Euclidean distance. -/
noncomputable def kronDelta {n m d : ℕ} (X : Samples n d) (Y : Samples m d) : Fin n → Fin m → Prop :=
  fun i j => Real.sqrt (∑ k, (X i k - Y j k) ^ 2) < epsF32

end Mfpml.GP
