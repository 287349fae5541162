import Verif.Model.RoundedKernel

/-!
# Model of the normalisation of responses in floating-point arithmetic

Every operation rounds its result; the order in which `np.sum` adds is left open, and `sqrt` is correctly rounded (see `Verif.Model.RoundedKernel`).  Overflow is not modelled.
-/

namespace Mfpml.Rounded

variable {p : ℕ} {emin : ℤ} {R : Rounding p emin}

/-- `np.mean(Y)`: `m` is a possible outcome (gaussian_process.py:348, 373; co_kriging.py:711; mf_gaussian_process.py:171). -/
def IsMean {n : ℕ} (y : Fin n → Fl R) (m : Fl R) : Prop := ∃ s, SumOf R (List.ofFn y) s ∧ m = s / Fl.ofReal R n

/-- `np.std(Y)`: `s` is a possible outcome.  numpy computes the mean, the deviations from it, their squares, the mean of the squares and its root
(gaussian_process.py:349, 384; co_kriging.py:712; mf_gaussian_process.py:172). -/
def IsStd {n : ℕ} (y : Fin n → Fl R) (s : Fl R) : Prop := ∃ c v, IsMean y c ∧ IsMean (fun i => (y i - c) * (y i - c)) v ∧ s = v.sqrt

/-- The division of `normalize_output`; `none` stands for the `nan` or `inf` of a division by zero (gaussian_process.py:351; co_kriging.py:713; mf_gaussian_process.py:173). -/
noncomputable def normalizedOut (m s y : Fl R) : Option (Fl R) := if s.val = 0 then none else some ((y - m) / s)

/-- `normalize_output`, gaussian_process.py:333-351 (also co_kriging.py:698-713 and mf_gaussian_process.py:158-173): `z` is a possible outcome. -/
def IsNormalizedOut {n : ℕ} (y : Fin n → Fl R) (z : Fin n → Option (Fl R)) : Prop := ∃ m s, IsMean y m ∧ IsStd y s ∧ ∀ i, z i = normalizedOut m s (y i)

/-- `fmean*self.y_std + self.y_mean`, gaussian_process.py:123 (also hierarchical_kriging.py:93 and co_kriging.py:450): back to the scale of the responses. -/
def denormalizedOut (m s z : Fl R) : Fl R := z * s + m

end Mfpml.Rounded
