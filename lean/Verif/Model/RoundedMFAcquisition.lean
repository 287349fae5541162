import Verif.Model.RoundedAcquisition

/-!
# Model of the multi-fidelity acquisition functions in floating-point arithmetic

One point at a time; every operation rounds its result; `norm.cdf` and `norm.pdf` are arbitrary functions on floats.  Overflow is not modelled.  `pre`, `std` are what `predict` returns, `preLf`, `stdLf` what `predict_lf`
returns.  Where the code first divides by a zero standard deviation and then overwrites the result, the model does not divide.
-/

namespace Mfpml.Rounded

variable {p : ℕ} {emin : ℤ} {R : Rounding p emin}

/-- `np.finfo(float).eps`, mf_acqusitions.py:126, 290, 517. -/
noncomputable def epsFl : Fl R := Fl.ofReal R (2 ^ (-52 : ℤ))

/-- `np.abs` of one number, mf_acqusitions.py:228, 611. -/
noncomputable def absFl (a : Fl R) : Fl R := if a < 0 then -a else a

/-- `AugmentedEI.corr` and `ExtendedPI.corr` for the low fidelity, mf_acqusitions.py:203-228, 586-611. -/
noncomputable def corrFl (pre std preLf stdLf : Fl R) : Fl R := stdLf / (absFl (pre - preLf) + std)

/-- The expected improvement in `AugmentedEI.eval`, mf_acqusitions.py:124-126. -/
noncomputable def plainEiFl (cdf pdf : NormalFn R) (fmin pre std : Fl R) : Fl R :=
  if std < epsFl then 0 else (fmin - pre) * cdf ((fmin - pre) / std) + std * pdf ((fmin - pre) / std)

/-- One value of `AugmentedEI.eval` for the high fidelity, mf_acqusitions.py:109-129 with `alpha1 = alpha3 = 1`. -/
noncomputable def augmentedHfFl (cdf pdf : NormalFn R) (fmin pre std : Fl R) : Fl R := -(plainEiFl cdf pdf fmin pre std * 1 * 1)

/-- One value of `AugmentedEI.eval` for the low fidelity, mf_acqusitions.py:109-129. -/
noncomputable def augmentedLfFl (cdf pdf : NormalFn R) (fmin pre std preLf stdLf costRatio : Fl R) : Fl R :=
  -(plainEiFl cdf pdf fmin pre std * corrFl pre std preLf stdLf * costRatio)

/-- One value of `VFEI.eval`, mf_acqusitions.py:287-291; `s` is the standard deviation compared with `eps`. -/
noncomputable def vfeiFl (cdf pdf : NormalFn R) (fmin pre std s : Fl R) : Fl R :=
  -(if s < epsFl then 0 else (fmin - pre) * cdf ((fmin - pre) / (std + Fl.ofReal R (1e-8))) + std * pdf ((fmin - pre) / (std + Fl.ofReal R (1e-8))))

/-- `VFEI.eval` for the high fidelity, mf_acqusitions.py:276-280. -/
noncomputable def vfeiHfFl (cdf pdf : NormalFn R) (fmin pre std : Fl R) : Fl R := vfeiFl cdf pdf fmin pre std std

/-- `VFEI.eval` for the low fidelity, mf_acqusitions.py:281-284; `beta` is the regression coefficient of the hierarchical Kriging model. -/
noncomputable def vfeiLfFl (cdf pdf : NormalFn R) (fmin pre std beta stdLf : Fl R) : Fl R := vfeiFl cdf pdf fmin pre std (beta * stdLf)

/-- One value of `VFLCB.eval` for the low fidelity, mf_acqusitions.py:392-405 (for the high fidelity the value is that of `LCB.eval`, `lcbFl`). -/
noncomputable def vflcbLfFl (kappa : Fl R × Fl R) (mean stdLf costRatio : Fl R) : Fl R := kappa.1 * mean - kappa.2 * (stdLf * costRatio)

/-- The probability of improvement in `ExtendedPI.eval`, mf_acqusitions.py:512-517. -/
noncomputable def plainPiFl (cdf : NormalFn R) (fmin pre std : Fl R) : Fl R := if std < epsFl then 0 else cdf ((fmin - pre) / std)

/-- One value of `ExtendedPI.eval` for the high fidelity, mf_acqusitions.py:512-527 with `corr = cr = 1`; `eta` is the computed product of correlations. -/
noncomputable def extendedHfFl (cdf : NormalFn R) (fmin pre std eta : Fl R) : Fl R := -plainPiFl cdf fmin pre std * 1 * 1 * eta

/-- One value of `ExtendedPI.eval` for the low fidelity, mf_acqusitions.py:512-527. -/
noncomputable def extendedLfFl (cdf : NormalFn R) (fmin pre std preLf stdLf costRatio eta : Fl R) : Fl R :=
  -plainPiFl cdf fmin pre std * corrFl pre std preLf stdLf * costRatio * eta

end Mfpml.Rounded
