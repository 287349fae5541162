import Verif.Lemmas.RoundedNormalize
import Verif.Model.LinAlg
import Verif.Spec.RoundedKernel

/-!
# Normalisation of responses in floating-point arithmetic (C181)

`R` ranges over all roundings to nearest with `p` significant bits (`float64`: `p = 53`, `emin = -1074`).
-/

open scoped BigOperators

namespace Mfpml.Props

open Mfpml.Rounded Mfpml.GP Mfpml.Spec

variable {p : ℕ} {emin : ℤ} {R : Rounding p emin} {n : ℕ}

/-- C181: **equal responses are recognised if their multiples are exact** (integers, for example): every normalised response is `nan` (or `inf`), in whatever order the sums are computed. -/
theorem C181_constant_partial (hn : 0 < n) (hfn : IsFloat p emin n) {y : Fin n → Fl R} {c : Fl R} (hy : ∀ i, y i = c) (hc : ∀ k : ℕ, k ≤ n → IsFloat p emin (k * c.val)) {z : Fin n → Option (Fl R)}
    (hz : IsNormalizedOut y z) (i : Fin n) : z i = none := by
  obtain ⟨m, s, -, hs, h⟩ := hz
  rw [h i]
  exact if_pos (std_const hn hs hy hc (.inr hfn))

/-- Fifty responses equal to one hundred. -/
example {R : Rounding 53 (-1074)} {y : Fin 50 → Fl R} (hy : ∀ i, (y i).val = 100) {z : Fin 50 → Option (Fl R)} (hz : IsNormalizedOut y z) (i : Fin 50) : z i = none := by
  have hf : ∀ k : ℕ, k ≤ 5000 → IsFloat 53 (-1074) (k : ℝ) := fun k hk =>
    ⟨k, 0, by rw [abs_of_nonneg (by positivity)]; exact_mod_cast lt_of_le_of_lt hk (by norm_num), by norm_num, by simp⟩
  refine C181_constant_partial (c := y 0) (by norm_num) (by exact_mod_cast hf 50 (by norm_num)) (fun j => Fl.val_injective (by rw [hy, hy])) (fun k hk => ?_) hz i
  rw [hy]
  have := hf (k * 100) (by omega)
  push_cast at this
  exact this

/-- C181: **responses that differ by more than an underflowing amount give numbers**: with at most `2 ^ k` responses it is enough that two of them differ by `2 ^ (f + 1)`, `emin + k ≤ 2 f`
(in double precision: by `2 ^ -500`, for up to `2 ^ 72` responses). -/
theorem C181_varied_partial (hp : 1 ≤ p) (he : emin ≤ 0) {k : ℕ} (hn : n ≤ 2 ^ k) {f : ℤ} (hf : emin + k ≤ 2 * f) {y : Fin n → Fl R} {i j : Fin n} (hij : 2 ^ (f + 1) ≤ |(y i).val - (y j).val|)
    {z : Fin n → Option (Fl R)} (hz : IsNormalizedOut y z) (l : Fin n) : ∃ v, z l = some v := by
  obtain ⟨m, s, -, hs, h⟩ := hz
  rw [h l]
  exact ⟨_, if_neg (std_pos hp he hs hn hf hij).ne'⟩

/-- In double precision, a thousand responses of which two differ by at least `2 ^ -500`. -/
example {R : Rounding 53 (-1074)} {y : Fin 1000 → Fl R} {i j : Fin 1000} (hij : 2 ^ (-500 : ℤ) ≤ |(y i).val - (y j).val|) {z : Fin 1000 → Option (Fl R)} (hz : IsNormalizedOut y z) (l : Fin 1000) : ∃ v, z l = some v :=
  C181_varied_partial (k := 10) (f := -501) (by norm_num) (by norm_num) (by norm_num) (by norm_num) (by rw [show (-501 : ℤ) + 1 = -500 by norm_num]; exact hij) hz l

/-- C181: **the computed mean is the mean up to rounding**: the error is at most `((1 + u) ^ (n + 1) - 1)` times the mean size of the responses, `u = 2 ^ -p`, in whatever order the sum is computed
(the last term accounts for underflow). -/
theorem C181_mean (hp : 1 ≤ p) (he : emin ≤ 0) (hn : 0 < n) (hnp : n < 2 ^ p) {y : Fin n → Fl R} {m : Fl R} (h : IsMean y m) :
    |m.val - GP.mean fun i => (y i).val| ≤ ((1 + 2 ^ (-(p : ℤ))) ^ (n + 1) - 1) * ((GP.mean fun i => |(y i).val|) + 2 ^ (emin + p - 1)) := by
  have hn' : (n : ℝ) ≠ 0 := by exact_mod_cast hn.ne'
  have h1 := mean_acc hp he hn hnp h (x := fun i => (y i).val) (w := fun i => |(y i).val| + 2 ^ (emin + p - 1)) (k := 0) fun i => ⟨by
    unfold Rounded.Acc; simp, le_rfl⟩
  unfold Rounded.Acc at h1
  rw [Finset.sum_add_distrib, Finset.sum_const, Finset.card_univ, Fintype.card_fin, nsmul_eq_mul, add_div, mul_div_cancel_left₀ _ hn', zero_add] at h1
  unfold GP.mean
  exact h1

/-- C181: **the computed standard deviation is the standard deviation up to rounding**: with `e = (1 + u) ^ (n + 4) - 1` (about `n u`), `u = 2 ^ -p`, the error is at most `3 e` times the sum of the standard deviation
and the mean size of the responses, in whatever order the sums are computed; the last term (in double precision about `2 ^ -509`) accounts for underflow. -/
theorem C181_std (hp : 1 ≤ p) (he : emin ≤ 0) (hn : 0 < n) (hnp : n < 2 ^ p) {y : Fin n → Fl R} {s : Fl R} (h : IsStd y s) {e : ℝ} (hE : (1 + 2 ^ (-(p : ℤ))) ^ (n + 4) - 1 = e) (he4 : e ≤ 1 / 4) :
    |s.val - GP.std fun i => (y i).val| ≤ 3 * e * ((GP.std fun i => (y i).val) + GP.mean fun i => |(y i).val|) + 3 * (2 ^ (emin + p - 1) + Real.sqrt (2 ^ (emin + p - 1))) :=
  std_acc hp he hn hnp h hE he4

/-- In double precision, a thousand responses: the relative error is below `1e-12`. -/
example {R : Rounding 53 (-1074)} {y : Fin 1000 → Fl R} {s : Fl R} (h : IsStd y s) :
    |s.val - GP.std fun i => (y i).val| ≤ 1e-12 * ((GP.std fun i => (y i).val) + GP.mean fun i => |(y i).val|) + 3 * (2 ^ (-1022 : ℤ) + Real.sqrt (2 ^ (-1022 : ℤ))) := by
  have h1 := one_add_pow_le (u := (2 : ℝ) ^ (-((53 : ℕ) : ℤ))) (by positivity) 1004 (by norm_num)
  have h2 : (1 + (2 : ℝ) ^ (-((53 : ℕ) : ℤ))) ^ (1000 + 4) - 1 ≤ 1e-12 / 3 := le_trans h1 (by norm_num)
  have h3 := C181_std (by norm_num) (by norm_num) (by norm_num) (by norm_num) h rfl (h2.trans (by norm_num))
  rw [show (-1074 : ℤ) + ((53 : ℕ) : ℤ) - 1 = -1022 by norm_num] at h3
  refine h3.trans (add_le_add_left ?_ _)
  refine mul_le_mul_of_nonneg_right ((mul_le_mul_of_nonneg_left h2 (by norm_num)).trans (by norm_num)) (add_nonneg (Real.sqrt_nonneg _) (div_nonneg (Finset.sum_nonneg fun i _ => abs_nonneg _) (by positivity)))

/-- C181: **denormalising a normalised response gives the response back** up to five roundings of the response and its deviation from the mean; the last term accounts for underflow.
This holds whatever mean and standard deviation were computed. -/
theorem C181_round_trip (hp : 7 ≤ p) {m s y z : Fl R} (hs : 0 < s.val) (hz : normalizedOut m s y = some z) :
    |(denormalizedOut m s z).val - y.val| ≤ 5 * 2 ^ (-(p : ℤ)) * (|y.val - m.val| + |y.val| + (1 + s.val) * 2 ^ (emin + p - 1)) := by
  have hp1 : 1 ≤ p := by omega
  unfold normalizedOut at hz
  rw [if_neg hs.ne'] at hz
  cases hz
  have hu0 : (0 : ℝ) < 2 ^ (-(p : ℤ)) := two_zpow_pos _
  have hu1 : (2 : ℝ) ^ (-(p : ℤ)) ≤ 1 / 128 := by
    calc (2 : ℝ) ^ (-(p : ℤ)) ≤ 2 ^ (-7 : ℤ) := zpow_le_zpow_right₀ (by norm_num) (by omega)
      _ = 1 / 128 := by norm_num
  have ht0 : (0 : ℝ) < 2 ^ (emin + p - 1) := two_zpow_pos _
  have e1 := fl_error hp1 R (y.val - m.val)
  have e2 := fl_error hp1 R (R.fl (y.val - m.val) / s.val)
  have e3 := fl_error hp1 R (R.fl (R.fl (y.val - m.val) / s.val) * s.val)
  have e4 := fl_error hp1 R (R.fl (R.fl (R.fl (y.val - m.val) / s.val) * s.val) + m.val)
  change |R.fl (R.fl (R.fl (R.fl (y.val - m.val) / s.val) * s.val) + m.val) - y.val| ≤ _
  generalize R.fl (y.val - m.val) = a at *
  generalize hq : R.fl (a / s.val) = q at *
  generalize R.fl (q * s.val) = w at *
  generalize R.fl (w + m.val) = v at *
  generalize (2 : ℝ) ^ (-(p : ℤ)) = u at *
  generalize (2 : ℝ) ^ (emin + p - 1) = t at *
  generalize hD : y.val - m.val = D at *
  have e2' : |q * s.val - a| ≤ u * (|a| + t * s.val) := by
    have h1 : |q * s.val - a| = |q - a / s.val| * s.val := by
      rw [← abs_of_pos hs, ← abs_mul, abs_of_pos hs]; congr 1; field_simp
    rw [h1]
    calc |q - a / s.val| * s.val ≤ u * (|a / s.val| + t) * s.val := mul_le_mul_of_nonneg_right e2 hs.le
      _ = u * (|a| + t * s.val) := by rw [abs_div, abs_of_pos hs]; field_simp
  have hts : 0 < t * s.val := mul_pos ht0 hs
  have b1 : |a| ≤ |D| + u * (|D| + t) := by
    have := abs_sub_abs_le_abs_sub a D
    linarith
  have b2 : |q * s.val| ≤ |a| + u * (|a| + t * s.val) := by
    have := abs_sub_abs_le_abs_sub (q * s.val) a
    linarith
  have b3 : |w - D| ≤ u * (|q * s.val| + t) + u * (|a| + t * s.val) + u * (|D| + t) := by
    have h1 : |w - D| ≤ |w - q * s.val| + |q * s.val - a| + |a - D| := by
      have := abs_add_le (w - q * s.val) (q * s.val - a)
      have h2 := abs_add_le (w - q * s.val + (q * s.val - a)) (a - D)
      rw [show w - q * s.val + (q * s.val - a) + (a - D) = w - D by ring] at h2
      linarith
    linarith
  have b4 : |w + m.val| ≤ |y.val| + |w - D| := by
    have := abs_add_le y.val (w - D)
    rwa [show y.val + (w - D) = w + m.val by rw [← hD]; ring] at this
  have b5 : |v - y.val| ≤ |v - (w + m.val)| + |w - D| := by
    have := abs_add_le (v - (w + m.val)) (w - D)
    rwa [show v - (w + m.val) + (w - D) = v - y.val by rw [← hD]; ring] at this
  have hD0 := abs_nonneg D
  have hy0 := abs_nonneg y.val
  -- replace the products of roundings
  have c1 : |a| ≤ 129 / 128 * |D| + 1 / 128 * t := by nlinarith
  have c2 : |q * s.val| ≤ 1.02 * |D| + 0.01 * t + 0.01 * (t * s.val) := by nlinarith [abs_nonneg a]
  have c3 : |w - D| ≤ u * (3.1 * |D| + 2.1 * t + 1.1 * (t * s.val)) := by nlinarith
  have c4 : |w - D| ≤ 0.03 * |D| + 0.02 * t + 0.01 * (t * s.val) := by nlinarith
  have c5 : |v - (w + m.val)| ≤ u * (|y.val| + 0.03 * |D| + 1.02 * t + 0.01 * (t * s.val)) := by nlinarith
  nlinarith

/-- C181 fails for equal responses whose multiples are not floats: **three responses equal to the double nearest to 0.1 are not recognised as equal**.  The computed mean differs from them in the last bit,
the computed standard deviation is that difference, and every normalised response is `-1` (with ties broken the other way, `1`): the model is trained on numbers, not on `nan`. -/
theorem C181_constant_counterexample : ∃ c : ℝ, |c - 0.1| ≤ 2 ^ (-57 : ℤ) ∧ IsFloat 53 (-1074) c ∧ ∀ {R : Rounding 53 (-1074)} {y : Fin 3 → Fl R}, (∀ i, (y i).val = c) →
    (∃ z, IsNormalizedOut y z) ∧ ∀ z, IsNormalizedOut y z → ∃ v : Fl R, |v.val| = 1 ∧ ∀ i, z i = some v := by
  have key : ∀ m : ℤ, |m| < 2 ^ 53 → ∀ e : ℤ, -1074 ≤ e → IsFloat 53 (-1074) ((m : ℝ) * 2 ^ e) := fun m hm e he => ⟨m, e, hm, he, rfl⟩
  refine ⟨(7205759403792794 : ℤ) * 2 ^ (-56 : ℤ), by rw [abs_le]; constructor <;> norm_num, key _ (by norm_num) _ (by norm_num), fun {R} {y} hy => ⟨normalizedOut_exists y, ?_⟩⟩
  have hcf : IsFloat 53 (-1074) (((7205759403792794 : ℤ) : ℝ) * 2 ^ (-56 : ℤ)) := key _ (by norm_num) _ (by norm_num)
  have h3f : IsFloat 53 (-1074) 3 := by have := key 3 (by norm_num) 0 (by norm_num); norm_num at this ⊢; exact this
  have hy' : ∀ i, y i = ⟨_, hcf⟩ := fun i => Fl.val_injective (hy i)
  -- the sum is one of the two neighbours of three times the number
  have hsum3 : R.fl (3 * (((7205759403792794 : ℤ) : ℝ) * 2 ^ (-56 : ℤ))) = ((5404319552844595 : ℤ) : ℝ) * 2 ^ (-54 : ℤ) ∨
      R.fl (3 * (((7205759403792794 : ℤ) : ℝ) * 2 ^ (-56 : ℤ))) = ((5404319552844596 : ℤ) : ℝ) * 2 ^ (-54 : ℤ) := by
    set x : ℝ := 3 * (((7205759403792794 : ℤ) : ℝ) * 2 ^ (-56 : ℤ)) with hx
    have h1 : ((5404319552844595 : ℤ) : ℝ) * 2 ^ (-54 : ℤ) ≤ R.fl x := R.le_fl (key _ (by norm_num) _ (by norm_num)) (by rw [hx]; norm_num)
    have h2 : R.fl x ≤ ((5404319552844596 : ℤ) : ℝ) * 2 ^ (-54 : ℤ) := R.fl_le (key _ (by norm_num) _ (by norm_num)) (by rw [hx]; norm_num)
    rcases h1.eq_or_lt with h | h
    · exact .inl h.symm
    · refine .inr (le_antisymm h2 (no_float_between (p := 53) (emin := -1074) (by norm_num) (by norm_num) (R.isFloat x) ?_))
      norm_num at h ⊢
      exact h
  have hmean : ∃ c : ℝ, (c = ((7205759403792793 : ℤ) : ℝ) * 2 ^ (-56 : ℤ) ∨ c = ((7205759403792795 : ℤ) : ℝ) * 2 ^ (-56 : ℤ)) ∧ ∀ m, IsMean y m → m.val = c := by
    refine ⟨R.fl (R.fl (3 * (((7205759403792794 : ℤ) : ℝ) * 2 ^ (-56 : ℤ))) / 3), ?_, ?_⟩
    · rcases hsum3 with h | h
      · refine .inl ?_
        rw [h]
        exact fl_eq (by norm_num) R (by norm_num) (by norm_num) (by norm_num) (by rw [abs_of_nonneg (by norm_num)]; norm_num)
      · refine .inr ?_
        rw [h]
        exact fl_eq (by norm_num) R (by norm_num) (by norm_num) (by norm_num) (by rw [abs_of_nonpos (by norm_num)]; norm_num)
    · rintro m ⟨s, hs, rfl⟩
      have h1 := hs.three (c := ⟨_, hcf⟩) (by
        have := key 7205759403792794 (by norm_num) (-55) (by norm_num)
        convert this using 1
        norm_num) (fun a ha => by obtain ⟨i, rfl⟩ := (List.mem_ofFn' _ _).mp ha; exact hy' i) (by simp)
      change R.fl (s.val / R.fl ((3 : ℕ) : ℝ)) = _
      rw [h1, List.length_ofFn]
      push_cast
      rw [R.fl_of_isFloat h3f]
  obtain ⟨c, hc, hm⟩ := hmean
  have hdev : ∃ d : ℝ, (d = 2 ^ (-56 : ℤ) ∨ d = -2 ^ (-56 : ℤ)) ∧ ∀ m i, IsMean y m → (y i - m).val = d := by
    have hone : IsFloat 53 (-1074) ((2 : ℝ) ^ (-56 : ℤ)) := isFloat_two_zpow (by norm_num) (by norm_num)
    refine ⟨(((7205759403792794 : ℤ) : ℝ) * 2 ^ (-56 : ℤ)) - c, ?_, fun m i h => ?_⟩
    · rcases hc with h | h <;> rw [h] <;> norm_num
    · change R.fl ((y i).val - m.val) = _
      rw [hy i, hm m h]
      rcases hc with h | h
      · rw [show (((7205759403792794 : ℤ) : ℝ) * 2 ^ (-56 : ℤ)) - c = 2 ^ (-56 : ℤ) by rw [h]; norm_num]
        exact R.fl_of_isFloat hone
      · rw [show (((7205759403792794 : ℤ) : ℝ) * 2 ^ (-56 : ℤ)) - c = -2 ^ (-56 : ℤ) by rw [h]; norm_num]
        exact R.fl_of_isFloat hone.neg
  obtain ⟨d, hd, hdm⟩ := hdev
  rintro z ⟨m, s, hmm, ⟨c', v, hc', hv, rfl⟩, hz⟩
  have hsqf : IsFloat 53 (-1074) ((2 : ℝ) ^ (-112 : ℤ)) := isFloat_two_zpow (by norm_num) (by norm_num)
  have hsq : ∀ i, (y i - c') * (y i - c') = (⟨_, hsqf⟩ : Fl R) := fun i => by
    refine Fl.val_injective ?_
    change R.fl ((y i - c').val * (y i - c').val) = 2 ^ (-112 : ℤ)
    rw [hdm c' i hc']
    have : d * d = 2 ^ (-112 : ℤ) := by rcases hd with h | h <;> rw [h] <;> norm_num
    rw [this, R.fl_of_isFloat hsqf]
  have hv' : v = ⟨_, hsqf⟩ := mean_const (by norm_num) hv hsq (fun k hk => by
    have := key k (by rw [abs_of_nonneg (by positivity)]; exact_mod_cast lt_of_le_of_lt hk (by norm_num)) (-112) (by norm_num)
    exact_mod_cast this) (.inr (by exact_mod_cast h3f))
  have hs : v.sqrt.val = 2 ^ (-56 : ℤ) := by
    change R.fl (Real.sqrt v.val) = _
    rw [hv']
    change R.fl (Real.sqrt (2 ^ (-112 : ℤ))) = _
    rw [show ((2 : ℝ) ^ (-112 : ℤ)) = (2 ^ (-56 : ℤ)) ^ 2 by norm_num, Real.sqrt_sq (two_zpow_pos _).le]
    exact R.fl_of_isFloat (isFloat_two_zpow (by norm_num) (by norm_num))
  have hone : IsFloat 53 (-1074) 1 := isFloat_one (by norm_num) (by norm_num)
  have hpos := two_zpow_pos (-56)
  have hq : ∀ i, |((y i - m) / v.sqrt).val| = 1 ∧ ((y i - m) / v.sqrt).val = R.fl (d / 2 ^ (-56 : ℤ)) := fun i => by
    have h1 : ((y i - m) / v.sqrt).val = R.fl (d / 2 ^ (-56 : ℤ)) := by
      change R.fl ((y i - m).val / v.sqrt.val) = _
      rw [hdm m i hmm, hs]
    refine ⟨?_, h1⟩
    rw [h1]
    rcases hd with h | h
    · rw [h, div_self hpos.ne', R.fl_of_isFloat hone, abs_one]
    · rw [h, neg_div, div_self hpos.ne', R.fl_of_isFloat hone.neg, abs_neg, abs_one]
  refine ⟨(y 0 - m) / v.sqrt, (hq 0).1, fun i => ?_⟩
  rw [hz i]
  unfold normalizedOut
  rw [if_neg (by rw [hs]; exact hpos.ne')]
  exact congrArg some (Fl.val_injective (by rw [(hq i).2, (hq 0).2]))

/-- C181 fails for responses of very small size: **in double precision the different responses 0 and 2 ^ -600 are refused like equal ones**, because the squares of the deviations underflow. -/
theorem C181_varied_counterexample {R : Rounding 53 (-1074)} {y : Fin 2 → Fl R} (h0 : (y 0).val = 0) (h1 : (y 1).val = 2 ^ (-600 : ℤ)) :
    (∃ z, IsNormalizedOut y z) ∧ ∀ z, IsNormalizedOut y z → ∀ i, z i = none := by
  refine ⟨normalizedOut_exists y, ?_⟩
  rintro z ⟨m, s, -, ⟨c, v, ⟨S, hS, hSc⟩, ⟨V, hV, rfl⟩, rfl⟩, hz⟩ i
  have hcb : 0 ≤ c.val ∧ c.val ≤ 2 ^ (-600 : ℤ) := by
    have h2f : IsFloat 53 (-1074) 2 := by simpa using isFloat_two_zpow (p := 53) (emin := -1074) (by norm_num) (f := 1) (by norm_num)
    obtain ⟨k, hk, hSk⟩ := hS.multiples (c := 2 ^ (-600 : ℤ)) (fun a ha => by
      obtain ⟨i, rfl⟩ := (List.mem_ofFn' _ _).mp ha
      fin_cases i
      · exact .inl h0
      · exact .inr h1) (fun k hk => by
        rw [List.length_ofFn] at hk
        exact ⟨k, -600, by rw [abs_of_nonneg (by positivity)]; exact_mod_cast lt_of_le_of_lt hk (by norm_num), by norm_num, by norm_num⟩)
    rw [List.length_ofFn] at hk
    have hk' : (k : ℝ) ≤ 2 := by exact_mod_cast hk
    have hk0 : (0 : ℝ) ≤ k := by positivity
    have hpos := two_zpow_pos (-600)
    have e : c.val = R.fl (S.val / R.fl ((2 : ℕ) : ℝ)) := by rw [hSc]; rfl
    push_cast at e
    rw [R.fl_of_isFloat h2f, hSk] at e
    rw [e]
    exact ⟨R.le_fl isFloat_zero (by positivity), R.fl_le (isFloat_two_zpow (by norm_num) (by norm_num)) (by rw [div_le_iff₀ (by norm_num)]; nlinarith)⟩
  have hdev : ∀ i, |(y i - c).val| ≤ 2 ^ (-600 : ℤ) := fun i => by
    have hf : IsFloat 53 (-1074) ((2 : ℝ) ^ (-600 : ℤ)) := isFloat_two_zpow (by norm_num) (by norm_num)
    have hb : |(y i).val - c.val| ≤ 2 ^ (-600 : ℤ) := by
      rw [abs_le]
      fin_cases i
      · simp only [Fin.mk_zero', Fin.isValue, h0]; constructor <;> linarith [two_zpow_pos (-600)]
      · simp only [Fin.mk_one, Fin.isValue, h1]; constructor <;> linarith [two_zpow_pos (-600)]
    exact abs_le.mpr ⟨R.le_fl hf.neg (abs_le.mp hb).1, R.fl_le hf (abs_le.mp hb).2⟩
  have hsq : ∀ i, (y i - c) * (y i - c) = (0 : Fl R) := fun i => by
    refine Fl.val_injective ?_
    change R.fl ((y i - c).val * (y i - c).val) = 0
    refine fl_tiny R ?_
    rw [abs_mul]
    have h2 := mul_le_mul (hdev i) (hdev i) (abs_nonneg _) (two_zpow_pos (-600)).le
    rw [← zpow_add₀ two_ne_zero] at h2
    calc 2 * (|(y i - c).val| * |(y i - c).val|) ≤ 2 * 2 ^ (-600 + -600 : ℤ) := by linarith
      _ = 2 ^ (-1199 : ℤ) := by rw [← two_zpow_succ]; norm_num
      _ < 2 ^ (-1074 : ℤ) := zpow_lt_zpow_right₀ (by norm_num) (by norm_num)
  have hv : V / Fl.ofReal R ((2 : ℕ) : ℝ) = 0 :=
    mean_const (y := fun i => (y i - c) * (y i - c)) (by norm_num) ⟨V, hV, rfl⟩ hsq (fun k _ => by change IsFloat 53 (-1074) (k * 0); rw [mul_zero]; exact isFloat_zero) (.inl rfl)
  rw [hz i]
  refine if_pos ?_
  change R.fl (Real.sqrt (V / Fl.ofReal R ((2 : ℕ) : ℝ)).val) = 0
  rw [hv]
  change R.fl (Real.sqrt 0) = 0
  rw [Real.sqrt_zero, R.fl_of_isFloat isFloat_zero]

end Mfpml.Props
