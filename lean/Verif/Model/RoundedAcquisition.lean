import Verif.Model.RoundedKernel

/-!
# Model of the acquisition functions in floating-point arithmetic

Every operation rounds its result; `norm.cdf` and `norm.pdf` are arbitrary functions on floats.  Overflow is not modelled.  `fmin` is the smallest response (a minimum is not rounded), `yhat` and `sigma` are what the
surrogate predicts.
-/

namespace Mfpml.Rounded

variable {p : ℕ} {emin : ℤ} {R : Rounding p emin}

/-- What `norm.cdf` or `norm.pdf` computes (sf_uncons_acqusitions.py:152-154, 197). -/
abbrev NormalFn (R : Rounding p emin) := Fl R → Fl R

/-- `(f_min - y_hat) / (sigma + 1e-9)`, sf_uncons_acqusitions.py:153-154, 197; sf_cons_acqusitions.py:123-124. -/
noncomputable def zFl (fmin yhat sigma : Fl R) : Fl R := (fmin - yhat) / (sigma + Fl.ofReal R (1e-9))

/-- One value of `EI.eval`, sf_uncons_acqusitions.py:152-156 (the same expression in sf_cons_acqusitions.py:122-124). -/
noncomputable def eiFl (cdf pdf : NormalFn R) (fmin yhat sigma : Fl R) : Fl R :=
  -((fmin - yhat) * cdf (zFl fmin yhat sigma) + sigma * pdf (zFl fmin yhat sigma))

/-- One value of `PI.eval`, sf_uncons_acqusitions.py:197-198. -/
noncomputable def piFl (cdf : NormalFn R) (fmin yhat sigma : Fl R) : Fl R := -(cdf (zFl fmin yhat sigma))

/-- One value of `LCB.eval`, sf_uncons_acqusitions.py:118-119. -/
noncomputable def lcbFl (kappa : Fl R × Fl R) (yhat sigma : Fl R) : Fl R := kappa.1 * yhat - kappa.2 * sigma

/-- `0-u_g / (mse_g + 1e-9)` for one constraint with predicted mean `u` and standard deviation `s`, sf_cons_acqusitions.py:138. -/
noncomputable def zConsFl (u s : Fl R) : Fl R := 0 - u / (s + Fl.ofReal R (1e-9))

/-- A product of several floats in any order, as `np.prod` computes it (sf_cons_acqusitions.py:138). -/
inductive ProdOf (R : Rounding p emin) : List (Fl R) → Fl R → Prop
  | nil : ProdOf R [] 1
  | single (a : Fl R) : ProdOf R [a] a
  | mul {l l' : List (Fl R)} {a b : Fl R} : ProdOf R l a → ProdOf R l' b → ProdOf R (l ++ l') (a * b)
  | perm {l l' : List (Fl R)} {a : Fl R} : l.Perm l' → ProdOf R l a → ProdOf R l' a

/-- `CEI.pof` for one point, sf_cons_acqusitions.py:127-139: `q` is a possible outcome for the predicted means `u` and standard deviations `s` of the constraints. -/
def IsPof {k : ℕ} (cdf : NormalFn R) (u s : Fin k → Fl R) (q : Fl R) : Prop := ProdOf R (List.ofFn fun i => cdf (zConsFl (u i) (s i))) q

/-- `CEI.eval` for one point, sf_cons_acqusitions.py:106-113 (`-ei_obj * pof` is `(-ei_obj) * pof`): `v` is a possible outcome. -/
def IsCei {k : ℕ} (cdf pdf : NormalFn R) (fmin yhat sigma : Fl R) (u s : Fin k → Fl R) (v : Fl R) : Prop := ∃ q, IsPof cdf u s q ∧ v = eiFl cdf pdf fmin yhat sigma * q

end Mfpml.Rounded
