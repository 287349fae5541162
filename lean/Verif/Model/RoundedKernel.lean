import Mathlib.Analysis.Real.Sqrt
import Mathlib.Data.List.OfFn
import Mathlib.LinearAlgebra.Matrix.Defs
import Verif.Model.Rounded

/-!
# Model of the kernel of `src/mfpml/models/kernels.py` in floating-point arithmetic

Every operation rounds its result.  Two things are left open, because numpy leaves them open: the order in which `np.sum` and `np.dot` add their terms (pairwise summation,
blocked BLAS kernels, fused multiply-add), and the last bits of `np.exp`.  `sqrt` is correctly rounded, as IEEE 754 demands.  Overflow is not modelled (see `Verif.Model.Rounded`).
-/

namespace Mfpml.Rounded

variable {p : ℕ} {emin : ℤ}

/-- `np.sum` of the given terms, added in any order (kernels.py:129-130, 164-165). -/
inductive SumOf (R : Rounding p emin) : List (Fl R) → Fl R → Prop
  | nil : SumOf R [] 0
  | single (a : Fl R) : SumOf R [a] a
  | add {l l' : List (Fl R)} {a b : Fl R} : SumOf R l a → SumOf R l' b → SumOf R (l ++ l') (a + b)
  | perm {l l' : List (Fl R)} {a : Fl R} : l.Perm l' → SumOf R l a → SumOf R l' a

/-- One entry of `np.dot`: the sum of the products of the given pairs, in any order, where a product may be fused with the addition (one rounding instead of two)
(kernels.py:131, 166). -/
inductive DotOf (R : Rounding p emin) : List (Fl R × Fl R) → Fl R → Prop
  | nil : DotOf R [] 0
  | mul (a b : Fl R) : DotOf R [(a, b)] (a * b)
  | add {l l' : List (Fl R × Fl R)} {a b : Fl R} : DotOf R l a → DotOf R l' b → DotOf R (l ++ l') (a + b)
  | fma {l : List (Fl R × Fl R)} {s : Fl R} (a b : Fl R) : DotOf R l s → DotOf R ((a, b) :: l) (Fl.ofReal R (a.val * b.val + s.val))
  | perm {l l' : List (Fl R × Fl R)} {a : Fl R} : l.Perm l' → DotOf R l a → DotOf R l' a

/-- `np.sqrt`, correctly rounded (kernels.py:131, 166). -/
noncomputable def Fl.sqrt {R : Rounding p emin} (a : Fl R) : Fl R := Fl.ofReal R (Real.sqrt a.val)

/-- What `np.exp` computes (kernels.py:134, 169). -/
abbrev ExpFn (R : Rounding p emin) := Fl R → Fl R

/-- `dist` of kernels.py:129-132 and 164-167: `D` is a possible outcome for the sample arrays `X` and `Y`. -/
def IsDist {R : Rounding p emin} {n m d : ℕ} (param : Fin d → Fl R) (X : Fin n → Fin d → Fl R) (Y : Fin m → Fin d → Fl R) (D : Fin n → Fin m → Fl R) : Prop :=
  ∃ (xsq : Fin n → Fl R) (ysq : Fin m → Fl R) (xy : Fin n → Fin m → Fl R),
    (∀ i, SumOf R (List.ofFn fun k => X i k * X i k * param k) (xsq i)) ∧
    (∀ j, SumOf R (List.ofFn fun k => Y j k * Y j k * param k) (ysq j)) ∧
    (∀ i j, DotOf R (List.ofFn fun k => ((param k).sqrt * X i k, (param k).sqrt * Y j k)) (xy i j)) ∧
    ∀ i j, D i j = xsq i + ysq j - Fl.ofReal R 2 * xy i j

/-- The matrix returned by `RBF.get_kernel_matrix` and `RBF.__call__`, kernels.py:110-134 and 136-169 (for the already computed `10 ** param`): `K` is a possible outcome. -/
def IsKernelMatrix {R : Rounding p emin} {n m d : ℕ} (ex : ExpFn R) (param : Fin d → Fl R) (X : Fin n → Fin d → Fl R) (Y : Fin m → Fin d → Fl R) (K : Fin n → Fin m → Fl R) : Prop :=
  ∃ D, IsDist param X Y D ∧ ∀ i j, K i j = ex (-(D i j)) + (if i.val = j.val then 1 else 0) * Fl.ofReal R (10 ^ (-10 : ℤ))

/-- The covariance matrix of the training samples, `kernel(X, X, param) + np.eye(n) * sigma ** 2` (gaussian_process.py:232-234, 275-278; hierarchical_kriging.py:195-197,
235-238; co_kriging.py:575-577, 603-607). -/
def IsCovTrain {R : Rounding p emin} {n d : ℕ} (ex : ExpFn R) (param : Fin d → Fl R) (X : Fin n → Fin d → Fl R) (sigma : Fl R) (C : Fin n → Fin n → Fl R) : Prop :=
  ∃ K, IsKernelMatrix ex param X X K ∧ ∀ i j, C i j = K i j + (if i = j then 1 else 0) * (sigma * sigma)

/-- `np.linalg.cholesky` reads the lower triangle of its argument only (gaussian_process.py:235, 279): the symmetric matrix it factorises. -/
def lowerOf {R : Rounding p emin} {n : ℕ} (C : Fin n → Fin n → Fl R) : Matrix (Fin n) (Fin n) ℝ := fun i j => if j ≤ i then (C i j).val else (C j i).val

/-- `normalize_input`, gaussian_process.py:314-331 (also co_kriging.py:682-696 and mf_gaussian_process.py:142-156): `(x - low) / (high - low)`. -/
noncomputable def normalizeFl {R : Rounding p emin} {n d : ℕ} (low high : Fin d → Fl R) (X : Fin n → Fin d → Fl R) : Fin n → Fin d → Fl R :=
  fun i k => (X i k - low k) / (high k - low k)

end Mfpml.Rounded
