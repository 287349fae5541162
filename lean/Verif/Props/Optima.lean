import Mathlib.Analysis.Complex.ExponentialBounds
import Verif.Props.Problems
import Verif.Lemmas.Optima
import Verif.Lemmas.Hartman6

/-!
# C69, C70: documented optima of the benchmark problems
-/

set_option linter.unusedSectionVars false

namespace Mfpml.Props

open Mfpml.Problems
open Real

variable {d : ℕ}

theorem lowerBound_of_at {a : Attrs} {f : Batch d → Py Out} (g : (Fin d → ℝ) → ℝ) (hf : ∀ X, f X = .ok (X.map fun r => some (g r))) {o tol : ℝ}
    (ha : a.optimum = .num (some o)) (h : ∀ x, InDomain a.domain x → o - tol ≤ g x) : OptimumIsLowerBound a f tol := by
  refine ⟨o, ha, fun x y hx hy => ?_⟩
  obtain rfl : g x = y := Option.some.inj ((takesValue_iff _ hf x y).mp hy)
  exact h x hx

theorem not_lowerBound_of_at {a : Attrs} {f : Batch d → Py Out} (g : (Fin d → ℝ) → ℝ) (hf : ∀ X, f X = .ok (X.map fun r => some (g r))) {o tol : ℝ}
    (ha : a.optimum = .num (some o)) {x : Fin d → ℝ} (hx : InDomain a.domain x) (h : g x < o - tol) : ¬ OptimumIsLowerBound a f tol := by
  rintro ⟨o', ho', h'⟩
  obtain rfl : o = o' := Option.some.inj (Attr.num.inj (ha.symm.trans ho'))
  exact absurd (h' x _ hx ((takesValue_iff _ hf x _).mpr rfl)) (not_le.mpr h)

theorem takes_at {f : Batch d → Py Out} (g : (Fin d → ℝ) → ℝ) (hf : ∀ X, f X = .ok (X.map fun r => some (g r))) (x : Fin d → ℝ) : TakesValue f x (g x) :=
  (takesValue_iff _ hf x _).mpr rfl

theorem eta2 (x : Fin 2 → ℝ) : x = ![x 0, x 1] := by
  funext i; fin_cases i <;> rfl

theorem eta3 (x : Fin 3 → ℝ) : x = ![x 0, x 1, x 2] := by
  funext i; fin_cases i <;> rfl

theorem inDomain1 {a b : ℝ} {x : Fin 1 → ℝ} : InDomain [(a, b)] x ↔ a ≤ x 0 ∧ x 0 ≤ b := by
  simp [InDomain]

theorem inDomain2 {a b a' b' : ℝ} {x : Fin 2 → ℝ} : InDomain [(a, b), (a', b')] x ↔ (a ≤ x 0 ∧ x 0 ≤ b) ∧ a' ≤ x 1 ∧ x 1 ≤ b' := by
  simp [InDomain]

theorem inDomain3 {a b a' b' a'' b'' : ℝ} {x : Fin 3 → ℝ} :
    InDomain [(a, b), (a', b'), (a'', b'')] x ↔ (a ≤ x 0 ∧ x 0 ≤ b) ∧ (a' ≤ x 1 ∧ x 1 ≤ b') ∧ a'' ≤ x 2 ∧ x 2 ≤ b'' := by
  simp [InDomain]

/-! ## Values -/

theorem five_div_four_pi : 0.3978873 ≤ 5 / (4 * π) ∧ 5 / (4 * π) ≤ 0.3978874 := by
  have h1 := pi_gt_d20
  have h2 := pi_lt_d20
  constructor
  · rw [le_div_iff₀ (by positivity)]; linarith
  · rw [div_le_iff₀ (by positivity)]; linarith

theorem branin_form (x : Fin 2 → ℝ) :
    braninAt x = (x 1 - 5.1 / (4 * π ^ 2) * x 0 ^ 2 + 5.0 / π * x 0 - 6.0) ^ 2 + (10 - 5 / (4 * π)) * (1 + cos (x 0)) + 5 / (4 * π) := by
  have := pi_ne_zero
  unfold braninAt
  have e1 : (10.0 : ℝ) = 10 := by norm_num
  have e2 : 10 * (1 - 1 / (8 * π)) = 10 - 5 / (4 * π) := by field_simp; ring
  rw [e1, e2, one_mul]
  generalize (x 1 - 5.1 / (4 * π ^ 2) * x 0 ^ 2 + 5.0 / π * x 0 - 6.0) ^ 2 = q
  ring

theorem branin_ge (x : Fin 2 → ℝ) : 5 / (4 * π) ≤ braninAt x := by
  rw [branin_form]
  have h1 : 0 ≤ (10 - 5 / (4 * π)) * (1 + cos (x 0)) := mul_nonneg (by linarith [five_div_four_pi.2]) (by linarith [neg_one_le_cos (x 0)])
  have h2 := sq_nonneg (x 1 - 5.1 / (4 * π ^ 2) * x 0 ^ 2 + 5.0 / π * x 0 - 6.0)
  linarith

theorem branin_scheme1 : braninAt ![-π, 12.275] = 5 / (4 * π) := by
  have := pi_ne_zero
  rw [branin_form]
  simp only [Matrix.cons_val_zero, Matrix.cons_val_one, cos_neg, cos_pi]
  field_simp
  norm_num

theorem branin_scheme2 : braninAt ![π, 2.275] = 5 / (4 * π) := by
  have := pi_ne_zero
  rw [branin_form]
  simp only [Matrix.cons_val_zero, Matrix.cons_val_one, cos_pi]
  field_simp
  norm_num

theorem branin_scheme3 : |braninAt ![9.42478, 2.475] - 0.397887| ≤ 1e-6 := by
  have hp := pi_pos
  have h1 := pi_gt_d6
  have h2 := pi_lt_d6
  have h5 := five_div_four_pi
  have hge := branin_ge ![9.42478, 2.475]
  have hc : cos 9.42478 = -cos (9.42478 - 3 * π) := by
    rw [show (9.42478 : ℝ) = (9.42478 - 3 * π) + π + 2 * π by ring, cos_add_two_pi, cos_add_pi]
    ring_nf
  have hd : |9.42478 - 3 * π| ≤ 0.00001 := by rw [abs_le]; constructor <;> linarith
  have hc2 : 1 + cos 9.42478 ≤ 1e-10 := by
    rw [hc]
    have := one_sub_sq_div_two_le_cos (x := 9.42478 - 3 * π)
    have hs : (9.42478 - 3 * π) ^ 2 ≤ 0.00001 ^ 2 := sq_le_sq' (by linarith [(abs_le.mp hd).1]) (abs_le.mp hd).2
    norm_num at hs ⊢
    linarith
  have hc3 : 0 ≤ 1 + cos 9.42478 := by linarith [neg_one_le_cos 9.42478]
  -- in terms of `t = 9.42478 / π - 3`
  have hq : (2.475 : ℝ) - 5.1 / (4 * π ^ 2) * 9.42478 ^ 2 + 5.0 / π * 9.42478 - 6.0 = -1.275 * (9.42478 / π - 3) ^ 2 - 2.65 * (9.42478 / π - 3) := by
    have e1 : (5.0 : ℝ) = 5 := by norm_num
    have e2 : 5.1 / (4 * π ^ 2) * 9.42478 ^ 2 = 1.275 * (9.42478 / π) ^ 2 := by rw [div_pow]; ring
    have e3 : 5 / π * 9.42478 = 5 * (9.42478 / π) := by ring
    have e4 : (6.0 : ℝ) = 6 := by norm_num
    rw [e1, e2, e3, e4]
    generalize (9.42478 : ℝ) / π = t
    ring
  have ht : |9.42478 / π - 3| ≤ 0.00001 := by
    rw [show (9.42478 : ℝ) / π - 3 = (9.42478 - 3 * π) / π by field_simp, abs_div, abs_of_pos hp, div_le_iff₀ hp]
    linarith
  have hq2 : (-1.275 * (9.42478 / π - 3) ^ 2 - 2.65 * (9.42478 / π - 3)) ^ 2 ≤ 0.0001 ^ 2 := by
    generalize (9.42478 : ℝ) / π - 3 = t at ht
    obtain ⟨a, b⟩ := abs_le.mp ht
    have : t ^ 2 ≤ 0.00001 ^ 2 := sq_le_sq' (by linarith) b
    have := sq_nonneg t
    apply sq_le_sq' <;> norm_num at * <;> linarith
  have hle : braninAt ![9.42478, 2.475] ≤ 0.397888 := by
    rw [branin_form]
    simp only [Matrix.cons_val_zero, Matrix.cons_val_one]
    rw [hq]
    have : (10 - 5 / (4 * π)) * (1 + cos 9.42478) ≤ 10 * 1e-10 := mul_le_mul (by linarith) hc2 hc3 (by norm_num)
    norm_num at hq2 this h5 ⊢
    linarith
  rw [abs_le]
  norm_num at h5 hle ⊢
  constructor <;> linarith

theorem goldPrice_ge (x : Fin 2 → ℝ) : 3 ≤ goldPriceAt x := by
  unfold goldPriceAt
  have h1 : 1 ≤ 1 + (x 0 + x 1 + 1) ^ 2 * (19 - 14 * x 0 + 3 * x 0 ^ 2 - 14 * x 1 + 6 * x 0 * x 1 + 3 * x 1 ^ 2) := by
    have : 0 ≤ 19 - 14 * x 0 + 3 * x 0 ^ 2 - 14 * x 1 + 6 * x 0 * x 1 + 3 * x 1 ^ 2 := by nlinarith [sq_nonneg (3 * (x 0 + x 1) - 7)]
    nlinarith [mul_nonneg (sq_nonneg (x 0 + x 1 + 1)) this]
  have h2 : 3 ≤ 30 + (2 * x 0 - 3 * x 1) ^ 2 * (18 - 32 * x 0 + 12 * x 0 ^ 2 + 48 * x 1 - 36 * x 0 * x 1 + 27 * x 1 ^ 2) := by
    have h : 30 + (2 * x 0 - 3 * x 1) ^ 2 * (18 - 32 * x 0 + 12 * x 0 ^ 2 + 48 * x 1 - 36 * x 0 * x 1 + 27 * x 1 ^ 2)
        = 3 + (2 * x 0 - 3 * x 1 - 3) ^ 2 * (3 * (2 * x 0 - 3 * x 1) ^ 2 + 2 * (2 * x 0 - 3 * x 1) + 3) := by ring
    have : 0 ≤ 3 * (2 * x 0 - 3 * x 1) ^ 2 + 2 * (2 * x 0 - 3 * x 1) + 3 := by nlinarith [sq_nonneg (3 * (2 * x 0 - 3 * x 1) + 1)]
    rw [h]
    linarith [mul_nonneg (sq_nonneg (2 * x 0 - 3 * x 1 - 3)) this]
  nlinarith

theorem bohachevsky_ge (x : Fin 2 → ℝ) : 0 ≤ bohachevskyHfAt x := by
  unfold bohachevskyHfAt
  have h1 := cos_le_one (3 * π * x 0)
  have h2 := cos_le_one (4 * π * x 1)
  nlinarith [sq_nonneg (x 0), sq_nonneg (x 1)]

theorem booth_ge (x : Fin 2 → ℝ) : 0 ≤ boothHfAt x := by unfold boothHfAt; positivity

theorem ackleyN2_ge (x : Fin 2 → ℝ) : -200 ≤ ackleyN2At x := by
  unfold ackleyN2At
  have : exp (-0.2 * Real.sqrt (x 0 ^ 2 + x 1 ^ 2)) ≤ 1 := exp_le_one_iff.mpr (by have := Real.sqrt_nonneg (x 0 ^ 2 + x 1 ^ 2); norm_num)
  linarith

theorem hartman6_takes {x : Fin 6 → ℝ} {y : ℝ} (h : hartman6At x = some y) : y = -Real.log (hartmanSum hartman6A hartman6P hartman6C x) := by
  unfold hartman6At at h
  rw [negLogNeg_neg (hartmanSum_pos _ _ _ hartman6C_pos x)] at h
  exact (Option.some.inj h).symm

theorem hartman6_ge (x : Fin 6 → ℝ) : -Real.log 3.32236801141551 - 1e-3 ≤ -Real.log (hartmanSum hartman6A hartman6P hartman6C x) := by
  have hp := hartmanSum_pos hartman6A hartman6P hartman6C hartman6C_pos x
  have h := hartman6_sum_le x
  have h1 : Real.log (hartmanSum hartman6A hartman6P hartman6C x / 3.32236801141551) ≤ hartmanSum hartman6A hartman6P hartman6C x / 3.32236801141551 - 1 :=
    Real.log_le_sub_one_of_pos (by positivity)
  rw [Real.log_div hp.ne' (by norm_num)] at h1
  have h2 : hartmanSum hartman6A hartman6P hartman6C x / 3.32236801141551 - 1 ≤ 1e-3 := by
    rw [sub_le_iff_le_add, div_le_iff₀ (by norm_num)]
    refine h.trans ?_
    norm_num
  linarith

/-! ## C69 -/

/-- C69 for the problems where it holds exactly: Branin, Goldstein–Price, Bohachevsky and Booth. -/
theorem C69_exact : OptimumIsLowerBound SFName.branin.attrs (SFName.branin.f (d := 2)) 0 ∧ OptimumIsLowerBound SFName.goldPrice.attrs (SFName.goldPrice.f (d := 2)) 0 ∧
    OptimumIsLowerBound MFName.bohachevsky.attrs (MFName.bohachevsky.hf (d := 2)) 0 ∧ OptimumIsLowerBound MFName.booth.attrs (MFName.booth.hf (d := 2)) 0 := by
  refine ⟨lowerBound_of_at braninAt (SFName.f_map .branin) rfl fun x _ => ?_, lowerBound_of_at goldPriceAt (SFName.f_map .goldPrice) rfl fun x _ => ?_,
    lowerBound_of_at bohachevskyHfAt (MFName.hf_map .bohachevsky) rfl fun x _ => ?_, lowerBound_of_at boothHfAt (MFName.hf_map .booth) rfl fun x _ => ?_⟩
  · have h1 := branin_ge x
    have h2 := five_div_four_pi.1
    norm_num at h2 ⊢
    linarith
  · have h1 := goldPrice_ge x
    norm_num
    linarith
  · have h1 := bohachevsky_ge x
    norm_num
    linarith
  · have h1 := booth_ge x
    norm_num
    linarith

/-- C69 for `Ackley` objects: holds exactly in every dimension `≥ 1` when `a` and `b` are not negative (the defaults are 20 and 0.2). -/
theorem C69_ackley {cls cls' : Classes} {k : ℕ} (hk : k ≠ 0) {a b c : ℝ} (ha : 0 ≤ a) (hb : 0 ≤ b) {o : Obj} (h : construct cls (.ackley (some k) a b c) = .ok (o, cls')) :
    OptimumIsLowerBound (d := k) (o.attrs cls') o.f 0 := by
  obtain ⟨k', hk', rfl, rfl⟩ := construct_ackley h
  obtain rfl : k = k' := by simpa using hk'
  refine ⟨0, congrArg Attr.num (ackleyRow_zero hk a b c), fun x y _ hy => ?_⟩
  have hv := (takesValue_iff (ackleyRow a b c) (fun _ => rfl) x y).mp hy
  have hk'' : (k : ℝ) ≠ 0 := Nat.cast_ne_zero.mpr hk
  have hq : 0 ≤ (∑ j, x j ^ 2) / (k : ℝ) := by positivity
  have t1 : fmean (fun j => x j ^ 2) = some ((∑ j, x j ^ 2) / (k : ℝ)) := by unfold fmean fdiv; rw [if_neg hk'']
  have t2 : fsqrt ((∑ j, x j ^ 2) / (k : ℝ)) = some (Real.sqrt ((∑ j, x j ^ 2) / (k : ℝ))) := by unfold fsqrt; simp [hq]
  have t3 : fmean (fun j => cos (c * x j)) = some ((∑ j, cos (c * x j)) / (k : ℝ)) := by unfold fmean fdiv; rw [if_neg hk'']
  unfold ackleyRow at hv
  simp only [t1, t2, t3, Option.bind_eq_bind, Option.bind_some] at hv
  obtain rfl := Option.some.inj hv
  have e1 : exp (-b * Real.sqrt ((∑ j, x j ^ 2) / (k : ℝ))) ≤ 1 := exp_le_one_iff.mpr (by
    have := mul_nonneg hb (Real.sqrt_nonneg ((∑ j, x j ^ 2) / (k : ℝ)))
    linarith)
  have e2 : exp ((∑ j, cos (c * x j)) / (k : ℝ)) ≤ exp 1 := exp_le_exp.mpr (by
    rw [div_le_one (by positivity)]
    calc (∑ j, cos (c * x j)) ≤ ∑ _j : Fin k, (1 : ℝ) := Finset.sum_le_sum fun j _ => cos_le_one _
      _ = k := by simp)
  nlinarith [mul_le_mul_of_nonneg_left e1 ha]

/-- C69 for `Thevenot` objects of one dimension with `|β| ≥ 1` and `m ≥ 1` (the defaults are 15 and 5): holds exactly. -/
theorem C69_thevenot_line {cls cls' : Classes} {m : ℕ} (hm : m ≠ 0) {beta : ℝ} (hb : 1 ≤ |beta|) {o : Obj} (h : construct cls (.thevenot (some (1 : ℕ)) m beta) = .ok (o, cls')) :
    OptimumIsLowerBound (d := 1) (o.attrs cls') o.f 0 := by
  have hb0 : beta ≠ 0 := by rintro rfl; norm_num at hb
  obtain ⟨k', hk', rfl, rfl⟩ := construct_thevenot h
  obtain rfl : 1 = k' := by simpa [eq_comm] using hk'
  refine ⟨-1, congrArg Attr.num (thevenotRow_zero one_ne_zero hm hb0), fun x y _ hy => ?_⟩
  have hv := (takesValue_iff (thevenotRow m beta) (fun _ => rfl) x y).mp hy
  unfold thevenotRow at hv
  rw [if_neg (by tauto)] at hv
  obtain rfl := Option.some.inj hv
  simp only [Finset.univ_unique, Fin.default_eq_zero, Fin.isValue, Finset.sum_singleton, Finset.prod_singleton]
  generalize x 0 = t
  have hc : cos t ^ 2 ≤ 1 := cos_sq_le_one t
  have hc0 : 0 ≤ cos t ^ 2 := sq_nonneg _
  have hx : 0 < exp (-t ^ 2) := exp_pos _
  have hx1 : exp (-t ^ 2) ≤ 1 := exp_le_one_iff.mpr (by nlinarith [sq_nonneg t])
  have hcx : 2 * exp (-t ^ 2) * cos t ^ 2 ≤ 2 * exp (-t ^ 2) := by nlinarith
  have hb2 : 1 ≤ beta ^ 2 := by rw [← sq_abs]; nlinarith
  rcases le_total |t / beta| 1 with hle | hge
  · have h1 : (t / beta) ^ (2 * m) ≤ t ^ 2 := by
      rw [pow_mul]
      have h2 : (t / beta) ^ 2 ≤ 1 := by rw [← sq_abs]; exact pow_le_one₀ (abs_nonneg _) hle
      calc ((t / beta) ^ 2) ^ m ≤ (t / beta) ^ 2 := pow_le_of_le_one (sq_nonneg _) h2 hm
        _ = t ^ 2 / beta ^ 2 := div_pow _ _ _
        _ ≤ t ^ 2 := div_le_self (sq_nonneg t) hb2
    have h3 : exp (-t ^ 2) ≤ exp (-(t / beta) ^ (2 * m)) := exp_le_exp.mpr (by linarith)
    linarith
  · have h1 : 1 ≤ t ^ 2 := by
      rw [abs_div, one_le_div (by linarith)] at hge
      rw [← sq_abs]
      nlinarith
    have h2 : exp (-t ^ 2) ≤ exp (-1) := exp_le_exp.mpr (by linarith)
    have h3 : exp (-1 : ℝ) ≤ 1 / 2 := by
      rw [exp_neg, inv_eq_one_div]
      exact one_div_le_one_div_of_le (by norm_num) (by linarith [exp_one_gt_d9])
    have := exp_pos (-(t / beta) ^ (2 * m))
    linarith

/-- Partial C69 for `Thevenot` objects of every dimension: `optimum` exceeds no value by more than `d (2π/β)^(2m)`.  Missing: that it exceeds none at all, which fails from dimension 2 on
(`C69_thevenot_counterexample`). -/
theorem C69_thevenot_partial {cls cls' : Classes} {k : ℕ} (hk : k ≠ 0) {m : ℕ} (hm : m ≠ 0) {beta : ℝ} (hb : beta ≠ 0) {o : Obj}
    (h : construct cls (.thevenot (some k) m beta) = .ok (o, cls')) :
    OptimumIsLowerBound (d := k) (o.attrs cls') o.f (k * (2 * π / beta) ^ (2 * m)) := by
  obtain ⟨k', hk', rfl, rfl⟩ := construct_thevenot h
  obtain rfl : k = k' := by simpa using hk'
  refine ⟨-1, congrArg Attr.num (thevenotRow_zero hk hm hb), fun x y hx hy => ?_⟩
  have hv := (takesValue_iff (thevenotRow m beta) (fun _ => rfl) x y).mp hy
  unfold thevenotRow at hv
  rw [if_neg (by tauto)] at hv
  obtain rfl := Option.some.inj hv
  have hS : ∑ j, (x j / beta) ^ (2 * m) ≤ k * (2 * π / beta) ^ (2 * m) := by
    calc ∑ j, (x j / beta) ^ (2 * m) ≤ ∑ _j : Fin k, (2 * π / beta) ^ (2 * m) := Finset.sum_le_sum fun j _ => by
          have hj := inDomain_bounds hx j (lo := -2 * π) (hi := 2 * π) (by simp [Obj.attrs])
          rw [div_pow, div_pow]
          refine div_le_div_of_nonneg_right ?_ (by rw [pow_mul]; positivity)
          rw [pow_mul, pow_mul]
          exact pow_le_pow_left₀ (sq_nonneg _) (sq_le_sq' (by linarith [hj.1]) hj.2) m
      _ = k * (2 * π / beta) ^ (2 * m) := by simp
  have h1 := add_one_le_exp (-∑ j, (x j / beta) ^ (2 * m))
  have h2 : exp (-∏ j, x j ^ 2) ≤ 1 := exp_le_one_iff.mpr (by
    have : 0 ≤ ∏ j, x j ^ 2 := Finset.prod_nonneg fun j _ => sq_nonneg _
    linarith)
  have h3 : ∏ j, cos (x j) ^ 2 ≤ 1 := Finset.prod_le_one (fun j _ => sq_nonneg _) fun j _ => cos_sq_le_one _
  have h4 : 0 ≤ ∏ j, cos (x j) ^ 2 := Finset.prod_nonneg fun j _ => sq_nonneg _
  have h5 := exp_pos (-∏ j, x j ^ 2)
  nlinarith [mul_le_mul h2 h3 h4 zero_le_one]

/-- C69 fails for `Thevenot` objects of every dimension `≥ 2`, with every `m ≥ 1` and `β ≠ 0`: the point `(2π, 0, …, 0)` of the domain has a smaller value than `optimum`. -/
theorem C69_thevenot_counterexample {cls cls' : Classes} {k : ℕ} (hk : 2 ≤ k) {m : ℕ} (hm : m ≠ 0) {beta : ℝ} (hb : beta ≠ 0) {o : Obj}
    (h : construct cls (.thevenot (some k) m beta) = .ok (o, cls')) : ¬ OptimumIsLowerBound (d := k) (o.attrs cls') o.f 0 := by
  obtain ⟨k', hk', rfl, rfl⟩ := construct_thevenot h
  obtain rfl : k = k' := by simpa using hk'
  have hk0 : k ≠ 0 := by omega
  let i0 : Fin k := ⟨0, by omega⟩
  let i1 : Fin k := ⟨1, by omega⟩
  have h01 : i1 ≠ i0 := by simp [i0, i1]
  let x : Fin k → ℝ := fun j => if j = i0 then 2 * π else 0
  have hpi := pi_pos
  have hx : InDomain (List.replicate k (-2 * π, 2 * π)) x := by
    refine List.forall₂_iff_get.mpr ⟨by simp, fun i h1 h2 => ?_⟩
    simp only [List.get_eq_getElem, List.getElem_replicate, List.getElem_ofFn, x]
    split_ifs <;> constructor <;> linarith
  rintro ⟨v, hv, h'⟩
  obtain rfl : -1 = v := by
    have := (thevenotRow_zero hk0 hm hb).symm.trans (Attr.num.inj hv)
    exact Option.some.inj this
  have hval : thevenotRow m beta x = some (exp (-(2 * π / beta) ^ (2 * m)) - 2) := by
    unfold thevenotRow
    rw [if_neg (by tauto)]
    have hS : ∑ j, (x j / beta) ^ (2 * m) = (2 * π / beta) ^ (2 * m) := by
      rw [Finset.sum_eq_single i0 (fun j _ hj => by simp [x, hj, hm]) (by simp)]
      simp [x]
    have hP : ∏ j, x j ^ 2 = 0 := Finset.prod_eq_zero (Finset.mem_univ i1) (by simp [x, h01])
    have hC : ∏ j, cos (x j) ^ 2 = 1 := Finset.prod_eq_one fun j _ => by
      simp only [x]
      split_ifs <;> simp
    rw [hS, hP, hC]
    simp
  have h1 := h' x _ hx ((takesValue_iff (thevenotRow m beta) (fun _ => rfl) x _).mpr hval)
  have h2 : exp (-(2 * π / beta) ^ (2 * m)) < 1 := by
    rw [exp_lt_one_iff, neg_lt_zero, pow_mul]
    have : 2 * π / beta ≠ 0 := div_ne_zero (by positivity) hb
    positivity
  linarith

/-- Non-vacuity: with the default parameters both constructors return an object, in dimension 1 and in dimension 2. -/
example (cls : Classes) : (∃ r, construct cls (.ackley (some (2 : ℕ)) 20 0.2 (2 * π)) = .ok r) ∧ (∃ r, construct cls (.thevenot (some (1 : ℕ)) 5 15) = .ok r) ∧
    (∃ r, construct cls (.thevenot (some (2 : ℕ)) 5 15) = .ok r) ∧ (1 : ℝ) ≤ |15| :=
  ⟨⟨_, rfl⟩, ⟨_, rfl⟩, ⟨_, rfl⟩, by norm_num⟩

theorem forrester_lower {a : Attrs} {f : Batch 1 → Py Out} (hf : ∀ X, f X = .ok (X.map fun r => some (forresterAt r))) (ho : a.optimum = .num (some (-6.020740)))
    (hd : a.domain = [(0.0, 1.0)]) : OptimumIsLowerBound a f 1e-6 :=
  lowerBound_of_at forresterAt hf ho fun x hx => by
    rw [hd, inDomain1] at hx
    have := forrester_ge (x := x 0) (by linarith [hx.1]) (by linarith [hx.2])
    unfold forresterAt
    norm_num at this ⊢
    linarith

theorem sixhump_lower {a : Attrs} {f : Batch 2 → Py Out} (hf : ∀ X, f X = .ok (X.map fun r => some (sixhumpAt r))) (ho : a.optimum = .num (some (-1.0316)))
    (hd : ∀ x : Fin 2 → ℝ, InDomain a.domain x → (-3 ≤ x 0 ∧ x 0 ≤ 3) ∧ -2 ≤ x 1 ∧ x 1 ≤ 2) : OptimumIsLowerBound a f 1e-4 :=
  lowerBound_of_at sixhumpAt hf ho fun x hx => by
    obtain ⟨⟨h1, h2⟩, h3, h4⟩ := hd x hx
    have := sixhump_ge h1 h2 h3 h4
    rw [← eta2] at this
    norm_num at this ⊢
    linarith

theorem hartman3_lower {a : Attrs} {f : Batch 3 → Py Out} (hf : ∀ X, f X = .ok (X.map fun r => some (hartman3At r))) (ho : a.optimum = .num (some (-3.86278214782076)))
    (hd : a.domain = [(0.0, 1.0), (0.0, 1.0), (0.0, 1.0)]) : OptimumIsLowerBound a f 1e-5 :=
  lowerBound_of_at hartman3At hf ho fun x hx => by
    rw [hd, inDomain3] at hx
    obtain ⟨⟨h1, h2⟩, ⟨h3, h4⟩, h5, h6⟩ := hx
    have := hartman3_ge (x := x 0) (y := x 1) (z := x 2) (by linarith) (by linarith) (by linarith) (by linarith) (by linarith) (by linarith)
    rw [← eta3] at this
    norm_num at this ⊢
    linarith

theorem hartman6_lower {a : Attrs} {f : Batch 6 → Py Out} (hf : ∀ X, f X = .ok (X.map hartman6At)) (ho : a.optimum = .num (some (-Real.log 3.32236801141551))) :
    OptimumIsLowerBound a f 1e-3 :=
  ⟨_, ho, fun x y _ hy => by
    rw [hartman6_takes ((takesValue_iff _ hf x y).mp hy)]
    exact hartman6_ge x⟩

/-- C69 within one unit of the last printed digit of `optimum`, for the problems where it does not hold exactly (`C69_counterexample`): Forrester (with its multi-fidelity variants), six-hump
camel (with its multi-fidelity variant), Sasena, and `Branin_1` on the points that satisfy its constraint; `Branin_2` on the points that satisfy its constraint even exactly. -/
theorem C69_printed_precision_partial :
    OptimumIsLowerBound SFName.forrester.attrs (SFName.forrester.f (d := 1)) 1e-6 ∧ OptimumIsLowerBound MFName.forrester1a.attrs (MFName.forrester1a.hf (d := 1)) 1e-6 ∧
    OptimumIsLowerBound MFName.forrester1b.attrs (MFName.forrester1b.hf (d := 1)) 1e-6 ∧ OptimumIsLowerBound MFName.forrester1c.attrs (MFName.forrester1c.hf (d := 1)) 1e-6 ∧
    OptimumIsLowerBound SFName.sixhump.attrs (SFName.sixhump.f (d := 2)) 1e-4 ∧ OptimumIsLowerBound MFName.sixhump.attrs (MFName.sixhump.hf (d := 2)) 1e-4 ∧
    OptimumIsLowerBound SFName.sasena.attrs (SFName.sasena.f (d := 2)) 1e-4 ∧
    OptimumIsLowerBoundOn SFName.branin1.attrs (SFName.branin1.f (d := 2)) branin1Cons 1e-4 ∧
    OptimumIsLowerBoundOn SFName.branin2.attrs (SFName.branin2.f (d := 2)) branin2Cons 0 := by
  refine ⟨forrester_lower (SFName.f_map .forrester) rfl rfl, forrester_lower (MFName.hf_map .forrester1a) rfl rfl, forrester_lower (MFName.hf_map .forrester1b) rfl rfl,
    forrester_lower (MFName.hf_map .forrester1c) rfl rfl, sixhump_lower (SFName.f_map .sixhump) rfl fun x hx => ?_, sixhump_lower (MFName.hf_map .sixhump) rfl fun x hx => ?_,
    lowerBound_of_at sasenaAt (SFName.f_map .sasena) rfl fun x hx => ?_, ⟨_, rfl, fun x y c hx hy hc h0 => ?_⟩, ⟨_, rfl, fun x y c hx hy hc h0 => ?_⟩⟩
  · have := inDomain2.mp hx
    norm_num at this
    exact this
  · have := inDomain2.mp hx
    norm_num at this
    refine ⟨⟨?_, ?_⟩, this.2⟩ <;> linarith [this.1.1, this.1.2]
  · have hb := inDomain2.mp hx
    norm_num at hb
    have h := sasena_ge hb.1.1 hb.1.2 hb.2.1 hb.2.2
    rw [← eta2] at h
    norm_num at h ⊢
    linarith
  · have hb := inDomain2.mp hx
    norm_num at hb
    obtain rfl : braninConsAt x = y := Option.some.inj ((takesValue_iff _ braninConsF_map x y).mp hy)
    obtain rfl : branin1ConsAt x = c := Option.some.inj ((takesValue_iff _ branin1Cons_map x c).mp hc)
    rw [eta2 x] at h0 ⊢
    have h := branin1_ge hb.1.1 hb.1.2 hb.2.1 hb.2.2 h0
    norm_num at h ⊢
    linarith
  · have hb := inDomain2.mp hx
    norm_num at hb
    obtain rfl : braninConsAt x = y := Option.some.inj ((takesValue_iff _ braninConsF_map x y).mp hy)
    obtain rfl : branin2ConsAt x = c := Option.some.inj ((takesValue_iff _ branin2Cons_map x c).mp hc)
    rw [eta2 x] at h0 ⊢
    have h := branin2_ge hb.1.1 hb.1.2 hb.2.1 hb.2.2 h0
    norm_num at h ⊢
    linarith

/-- Partial C69 for the Hartman functions: no value is below `optimum` by more than `1e-5` (three dimensions) or `1e-3` (six dimensions).  Missing: the remaining digits. -/
theorem C69_hartman_partial : OptimumIsLowerBound SFName.hartman3.attrs (SFName.hartman3.f (d := 3)) 1e-5 ∧
    OptimumIsLowerBound MFName.hartman3.attrs (MFName.hartman3.hf (d := 3)) 1e-5 ∧ OptimumIsLowerBound SFName.hartman6.attrs (SFName.hartman6.f (d := 6)) 1e-3 ∧
    OptimumIsLowerBound MFName.hartman6.attrs (MFName.hartman6.hf (d := 6)) 1e-3 :=
  ⟨hartman3_lower (SFName.f_map .hartman3) rfl rfl, hartman3_lower (MFName.hf_map .hartman3) rfl rfl, hartman6_lower (SFName.f_map .hartman6) rfl,
    hartman6_lower (MFName.hf_map .hartman6) rfl⟩

theorem sixhump_point : sixhumpAt ![0.0898, -0.7126] < -1.0316 ∧ sixhumpAt ![-0.0898, 0.7126] < -1.0316 ∧ -1.0317 < sixhumpAt ![0.0898, -0.7126] ∧
    -1.0317 < sixhumpAt ![-0.0898, 0.7126] := by
  simp only [sixhumpAt, Matrix.cons_val_zero, Matrix.cons_val_one]
  norm_num

theorem forrester_not_lower {a : Attrs} {f : Batch 1 → Py Out} (hf : ∀ X, f X = .ok (X.map fun r => some (forresterAt r))) (ho : a.optimum = .num (some (-6.020740)))
    (hd : a.domain = [(0.0, 1.0)]) : ¬ OptimumIsLowerBound a f 0 :=
  not_lowerBound_of_at forresterAt hf ho (x := ![0.757248757841856]) (by rw [hd, inDomain1]; norm_num) (by
    have := forrester_point.2
    rw [forresterAt, Matrix.cons_val_zero]
    norm_num at this ⊢
    linarith)

/-- C69 fails: some point of the domain has a value below `optimum` for Forrester and its multi-fidelity variants, the six-hump camel function and its multi-fidelity variant, and Sasena
(in each case the point listed as `optimum_scheme` itself); for `Branin_1` some point of the domain that satisfies the constraint has. -/
theorem C69_counterexample :
    ¬ OptimumIsLowerBound SFName.forrester.attrs (SFName.forrester.f (d := 1)) 0 ∧ ¬ OptimumIsLowerBound MFName.forrester1a.attrs (MFName.forrester1a.hf (d := 1)) 0 ∧
    ¬ OptimumIsLowerBound MFName.forrester1b.attrs (MFName.forrester1b.hf (d := 1)) 0 ∧ ¬ OptimumIsLowerBound MFName.forrester1c.attrs (MFName.forrester1c.hf (d := 1)) 0 ∧
    ¬ OptimumIsLowerBound SFName.sixhump.attrs (SFName.sixhump.f (d := 2)) 0 ∧ ¬ OptimumIsLowerBound MFName.sixhump.attrs (MFName.sixhump.hf (d := 2)) 0 ∧
    ¬ OptimumIsLowerBound SFName.sasena.attrs (SFName.sasena.f (d := 2)) 0 ∧
    ¬ OptimumIsLowerBoundOn SFName.branin1.attrs (SFName.branin1.f (d := 2)) branin1Cons 0 := by
  refine ⟨forrester_not_lower (SFName.f_map .forrester) rfl rfl, forrester_not_lower (MFName.hf_map .forrester1a) rfl rfl, forrester_not_lower (MFName.hf_map .forrester1b) rfl rfl,
    forrester_not_lower (MFName.hf_map .forrester1c) rfl rfl, not_lowerBound_of_at sixhumpAt (SFName.f_map .sixhump) rfl (x := ![0.0898, -0.7126]) (inDomain2.mpr ?_) ?_,
    not_lowerBound_of_at sixhumpAt (MFName.hf_map .sixhump) rfl (x := ![0.0898, -0.7126]) (inDomain2.mpr ?_) ?_,
    not_lowerBound_of_at sasenaAt (SFName.f_map .sasena) rfl (x := ![2.5044, 2.5778]) (inDomain2.mpr ?_) ?_, ?_⟩
  · simp only [Matrix.cons_val_zero, Matrix.cons_val_one]; norm_num
  · rw [sub_zero]; exact sixhump_point.1
  · simp only [Matrix.cons_val_zero, Matrix.cons_val_one]; norm_num
  · rw [sub_zero]; exact sixhump_point.1
  · simp only [Matrix.cons_val_zero, Matrix.cons_val_one]; norm_num
  · have := sasena_point.2
    norm_num at this ⊢
    linarith
  · rintro ⟨o, ho, h⟩
    obtain rfl : 5.5757 = o := Option.some.inj (Attr.num.inj ho)
    have h1 := h ![0.96754, 0.20671] _ _ (inDomain2.mpr (by simp only [Matrix.cons_val_zero, Matrix.cons_val_one]; norm_num))
      (takes_at _ braninConsF_map _) (takes_at _ branin1Cons_map _) (by simp only [branin1ConsAt, Matrix.cons_val_zero, Matrix.cons_val_one]; norm_num)
    have h2 := branin1_better
    norm_num at h1 h2
    linarith

/-- C69 fails for `AckleyN2` with any tolerance, and C70 too: its `optimum` is not a number but the minimiser, and its `optimum_scheme` is the minimum.
With the two exchanged both properties hold exactly: `-200` is the smallest value and is attained at `(0, 0)`. -/
theorem C69_C70_ackleyN2_counterexample (tol : ℝ) : ¬ OptimumIsLowerBound SFName.ackleyN2.attrs (SFName.ackleyN2.f (d := 2)) tol ∧
    ¬ SchemeAttains SFName.ackleyN2.attrs (SFName.ackleyN2.f (d := 2)) tol ∧
    OptimumIsLowerBound { SFName.ackleyN2.attrs with optimum := SFName.ackleyN2.attrs.scheme } (SFName.ackleyN2.f (d := 2)) 0 ∧
    SchemeAttains { SFName.ackleyN2.attrs with optimum := SFName.ackleyN2.attrs.scheme, scheme := SFName.ackleyN2.attrs.optimum } (SFName.ackleyN2.f (d := 2)) 0 := by
  refine ⟨?_, ?_, lowerBound_of_at ackleyN2At (SFName.f_map .ackleyN2) rfl fun x _ => ?_, ⟨_, rfl, List.cons_ne_nil _ _, fun s hs => ?_⟩⟩
  · rintro ⟨o, ho, -⟩; cases ho
  · rintro ⟨o, ho, -⟩; cases ho
  · have := ackleyN2_ge x
    norm_num at this ⊢
    linarith
  · obtain rfl : s = [0.0, 0.0] := by simpa [Attr.points, SFName.attrs] using hs
    refine ⟨![0.0, 0.0], rfl, inDomain2.mpr (by simp only [Matrix.cons_val_zero, Matrix.cons_val_one]; norm_num), _, takes_at ackleyN2At (SFName.f_map .ackleyN2) _, ?_⟩
    simp only [ackleyN2At, Matrix.cons_val_zero, Matrix.cons_val_one]
    norm_num

/-! ## C70 -/

theorem scheme_one {a : Attrs} {f : Batch d → Py Out} (g : (Fin d → ℝ) → ℝ) (hf : ∀ X, f X = .ok (X.map fun r => some (g r))) {o tol : ℝ}
    (ha : a.optimum = .num (some o)) (x : Fin d → ℝ) (hs : a.scheme = .list (List.ofFn x)) (hd : InDomain a.domain x) (h : |g x - o| ≤ tol) : SchemeAttains a f tol := by
  refine ⟨o, ha, by rw [hs]; exact List.cons_ne_nil _ _, fun s h' => ?_⟩
  rw [hs] at h'
  obtain rfl : s = List.ofFn x := by simpa [Attr.points] using h'
  exact ⟨x, rfl, hd, _, takes_at g hf x, h⟩

/-- C70 exactly: Bohachevsky, Booth. -/
theorem C70_exact : SchemeAttains MFName.bohachevsky.attrs (MFName.bohachevsky.hf (d := 2)) 0 ∧ SchemeAttains MFName.booth.attrs (MFName.booth.hf (d := 2)) 0 := by
  refine ⟨scheme_one bohachevskyHfAt (MFName.hf_map .bohachevsky) rfl ![0.0, 0.0] rfl (inDomain2.mpr ?_) ?_,
    scheme_one boothHfAt (MFName.hf_map .booth) rfl ![1.0, 3.0] rfl (inDomain2.mpr ?_) ?_⟩
  · simp only [Matrix.cons_val_zero, Matrix.cons_val_one]; norm_num
  · simp only [bohachevskyHfAt, Matrix.cons_val_zero, Matrix.cons_val_one]; norm_num
  · simp only [Matrix.cons_val_zero, Matrix.cons_val_one]; norm_num
  · simp only [boothHfAt, Matrix.cons_val_zero, Matrix.cons_val_one]; norm_num

theorem ofFn_zero (k : ℕ) : List.ofFn (fun _ : Fin k => (0 : ℝ)) = List.replicate k 0 := by simp

/-- C70 exactly: `Ackley` objects of every dimension `≥ 1` and with all parameters, and `Thevenot` objects of every dimension `≥ 1` with `m ≥ 1` and `β ≠ 0`. -/
theorem C70_any_dimension {cls : Classes} {k : ℕ} (hk : k ≠ 0) :
    (∀ a b c o cls', construct cls (.ackley (some k) a b c) = .ok (o, cls') → SchemeAttains (d := k) (o.attrs cls') o.f 0) ∧
    (∀ m beta o cls', m ≠ 0 → beta ≠ 0 → construct cls (.thevenot (some k) m beta) = .ok (o, cls') → SchemeAttains (d := k) (o.attrs cls') o.f 0) := by
  have hpi := pi_pos
  constructor
  · intro a b c o cls' h
    obtain ⟨k', hk', rfl, rfl⟩ := construct_ackley h
    obtain rfl : k = k' := by simpa using hk'
    refine ⟨0, congrArg Attr.num (ackleyRow_zero hk a b c), List.cons_ne_nil _ _, fun s hs => ⟨fun _ => 0, ?_, ?_, 0, ?_, by simp⟩⟩
    · rw [ofFn_zero]; exact (List.mem_singleton.mp hs).symm
    · refine List.forall₂_iff_get.mpr ⟨by simp [Obj.attrs], fun i h1 h2 => ?_⟩
      simp [Obj.attrs]
    · exact (takesValue_iff (ackleyRow a b c) (fun _ => rfl) _ _).mpr (ackleyRow_zero hk a b c)
  · intro m beta o cls' hm hb h
    obtain ⟨k', hk', rfl, rfl⟩ := construct_thevenot h
    obtain rfl : k = k' := by simpa using hk'
    refine ⟨-1, congrArg Attr.num (thevenotRow_zero hk hm hb), List.cons_ne_nil _ _, fun s hs => ⟨fun _ => 0, ?_, ?_, -1, ?_, by simp⟩⟩
    · rw [ofFn_zero]; exact (List.mem_singleton.mp hs).symm
    · refine List.forall₂_iff_get.mpr ⟨by simp [Obj.attrs], fun i h1 h2 => ?_⟩
      simp [Obj.attrs, hpi.le]
    · exact (takesValue_iff (thevenotRow m beta) (fun _ => rfl) _ _).mpr (thevenotRow_zero hk hm hb)

theorem forrester_scheme {a : Attrs} {f : Batch 1 → Py Out} (hf : ∀ X, f X = .ok (X.map fun r => some (forresterAt r))) (ho : a.optimum = .num (some (-6.020740)))
    (hd : a.domain = [(0.0, 1.0)]) (hs : a.scheme = .list [0.757248757841856]) : SchemeAttains a f 1e-6 :=
  scheme_one forresterAt hf ho ![0.757248757841856] (by rw [hs]; simp) (by rw [hd, inDomain1]; norm_num) (by
    have h1 := forrester_point.1
    have h2 := forrester_point.2
    rw [forresterAt, Matrix.cons_val_zero, abs_le]
    norm_num at h1 h2 ⊢
    constructor <;> linarith)

theorem sixhump_scheme {a : Attrs} {f : Batch 2 → Py Out} (hf : ∀ X, f X = .ok (X.map fun r => some (sixhumpAt r))) (ho : a.optimum = .num (some (-1.0316)))
    (hd : ∀ x : Fin 2 → ℝ, (-1 ≤ x 0 ∧ x 0 ≤ 1) ∧ -1 ≤ x 1 ∧ x 1 ≤ 1 → InDomain a.domain x) (hs : a.scheme = .lists [[0.0898, -0.7126], [-0.0898, 0.7126]]) :
    SchemeAttains a f 1e-4 := by
  refine ⟨_, ho, by rw [hs]; exact List.cons_ne_nil _ _, fun s h' => ?_⟩
  rw [hs] at h'
  obtain ⟨p1, p2, p3, p4⟩ := sixhump_point
  rcases List.mem_cons.mp h' with rfl | h'
  · refine ⟨![0.0898, -0.7126], by simp, hd _ (by simp only [Matrix.cons_val_zero, Matrix.cons_val_one]; norm_num), _, takes_at sixhumpAt hf _, ?_⟩
    rw [abs_le]
    norm_num at p1 p3 ⊢
    constructor <;> linarith
  · obtain rfl := List.mem_singleton.mp h'
    refine ⟨![-0.0898, 0.7126], by simp, hd _ (by simp only [Matrix.cons_val_zero, Matrix.cons_val_one]; norm_num), _, takes_at sixhumpAt hf _, ?_⟩
    rw [abs_le]
    norm_num at p2 p4 ⊢
    constructor <;> linarith

theorem hartman6_scheme {a : Attrs} {f : Batch 6 → Py Out} (hf : ∀ X, f X = .ok (X.map hartman6At)) (ho : a.optimum = .num (some (-Real.log 3.32236801141551)))
    (hd : a.domain = List.replicate 6 (0.0, 1.0)) (hs : a.scheme = .list [0.20168952, 0.15001069, 0.47687398, 0.27533243, 0.31165162, 0.65730054]) : SchemeAttains a f 1e-8 := by
  refine ⟨_, ho, by rw [hs]; exact List.cons_ne_nil _ _, fun s h' => ?_⟩
  rw [hs] at h'
  obtain rfl := List.mem_singleton.mp h'
  refine ⟨![0.20168952, 0.15001069, 0.47687398, 0.27533243, 0.31165162, 0.65730054], by simp, ?_, _,
    (takesValue_iff _ hf _ _).mpr (negLogNeg_neg (hartmanSum_pos _ _ _ hartman6C_pos _)), ?_⟩
  · rw [hd]
    simp [InDomain, List.replicate]
    norm_num
  · have hp := hartmanSum_pos hartman6A hartman6P hartman6C hartman6C_pos ![0.20168952, 0.15001069, 0.47687398, 0.27533243, 0.31165162, 0.65730054]
    obtain ⟨l, u⟩ := hartman6_point
    generalize hartmanSum hartman6A hartman6P hartman6C ![0.20168952, 0.15001069, 0.47687398, 0.27533243, 0.31165162, 0.65730054] = S at *
    have h1 := Real.log_le_sub_one_of_pos (x := S / 3.32236801141551) (by positivity)
    have h2 := Real.log_le_sub_one_of_pos (x := 3.32236801141551 / S) (by positivity)
    rw [Real.log_div hp.ne' (by norm_num)] at h1
    rw [Real.log_div (by norm_num) hp.ne'] at h2
    have h3 : S / 3.32236801141551 - 1 ≤ 1e-8 := by
      rw [sub_le_iff_le_add, div_le_iff₀ (by norm_num)]
      refine u.trans ?_
      norm_num
    have h4 : 3.32236801141551 / S - 1 ≤ 1e-8 := by
      rw [sub_le_iff_le_add, div_le_iff₀ hp]
      norm_num at l ⊢
      linarith
    rw [abs_le]
    constructor <;> linarith

/-- C70 within one unit of the last printed digit of `optimum` (the Hartman function of six dimensions: within `1e-8`, as precise as its scheme is printed). -/
theorem C70_printed_precision :
    SchemeAttains SFName.branin.attrs (SFName.branin.f (d := 2)) 1e-6 ∧
    SchemeAttains SFName.forrester.attrs (SFName.forrester.f (d := 1)) 1e-6 ∧ SchemeAttains MFName.forrester1a.attrs (MFName.forrester1a.hf (d := 1)) 1e-6 ∧
    SchemeAttains MFName.forrester1b.attrs (MFName.forrester1b.hf (d := 1)) 1e-6 ∧ SchemeAttains MFName.forrester1c.attrs (MFName.forrester1c.hf (d := 1)) 1e-6 ∧
    SchemeAttains SFName.sixhump.attrs (SFName.sixhump.f (d := 2)) 1e-4 ∧ SchemeAttains MFName.sixhump.attrs (MFName.sixhump.hf (d := 2)) 1e-4 ∧
    SchemeAttains SFName.sasena.attrs (SFName.sasena.f (d := 2)) 1e-4 ∧ SchemeAttains SFName.branin1.attrs (SFName.branin1.f (d := 2)) 1e-4 ∧
    SchemeFeasible SFName.branin1.attrs (branin1Cons (d := 2)) 0 ∧
    SchemeAttains SFName.hartman6.attrs (SFName.hartman6.f (d := 6)) 1e-8 ∧ SchemeAttains MFName.hartman6.attrs (MFName.hartman6.hf (d := 6)) 1e-8 := by
  refine ⟨⟨_, rfl, List.cons_ne_nil _ _, fun s hs => ?_⟩, forrester_scheme (SFName.f_map .forrester) rfl rfl rfl, forrester_scheme (MFName.hf_map .forrester1a) rfl rfl rfl,
    forrester_scheme (MFName.hf_map .forrester1b) rfl rfl rfl, forrester_scheme (MFName.hf_map .forrester1c) rfl rfl rfl,
    sixhump_scheme (SFName.f_map .sixhump) rfl (fun x hx => inDomain2.mpr ?_) rfl, sixhump_scheme (MFName.hf_map .sixhump) rfl (fun x hx => inDomain2.mpr ?_) rfl,
    scheme_one sasenaAt (SFName.f_map .sasena) rfl ![2.5044, 2.5778] (by simp [SFName.attrs]) (inDomain2.mpr ?_) ?_,
    scheme_one braninConsAt (SFName.f_map .branin1) rfl ![0.96773, 0.20667] (by simp [SFName.attrs]) (inDomain2.mpr ?_) ?_, fun s hs => ?_,
    hartman6_scheme (SFName.f_map .hartman6) rfl rfl rfl, hartman6_scheme (MFName.hf_map .hartman6) rfl rfl rfl⟩
  · have h5 := five_div_four_pi
    have h1 := pi_gt_d6
    have h2 := pi_lt_d6
    have hs' : s = [-π, 12.275] ∨ s = [π, 2.275] ∨ s = [9.42478, 2.475] := by simpa [Attr.points, SFName.attrs] using hs
    rcases hs' with rfl | rfl | rfl
    · refine ⟨![-π, 12.275], by simp, inDomain2.mpr ?_, _, takes_at braninAt (SFName.f_map .branin) _, ?_⟩
      · simp only [Matrix.cons_val_zero, Matrix.cons_val_one]
        norm_num
        constructor <;> linarith
      · rw [branin_scheme1, abs_le]
        norm_num at h5 ⊢
        constructor <;> linarith
    · refine ⟨![π, 2.275], by simp, inDomain2.mpr ?_, _, takes_at braninAt (SFName.f_map .branin) _, ?_⟩
      · simp only [Matrix.cons_val_zero, Matrix.cons_val_one]
        norm_num
        constructor <;> linarith
      · rw [branin_scheme2, abs_le]
        norm_num at h5 ⊢
        constructor <;> linarith
    · refine ⟨![9.42478, 2.475], by simp, inDomain2.mpr ?_, _, takes_at braninAt (SFName.f_map .branin) _, branin_scheme3⟩
      simp only [Matrix.cons_val_zero, Matrix.cons_val_one]
      norm_num
  · norm_num
    refine ⟨⟨?_, ?_⟩, ?_, ?_⟩ <;> linarith [hx.1.1, hx.1.2, hx.2.1, hx.2.2]
  · norm_num
    refine ⟨⟨?_, ?_⟩, ?_, ?_⟩ <;> linarith [hx.1.1, hx.1.2, hx.2.1, hx.2.2]
  · simp only [Matrix.cons_val_zero, Matrix.cons_val_one]; norm_num
  · obtain ⟨l, u⟩ := sasena_point
    rw [abs_le]
    norm_num at l u ⊢
    constructor <;> linarith
  · simp only [Matrix.cons_val_zero, Matrix.cons_val_one]; norm_num
  · obtain ⟨l, u⟩ := branin1_point
    rw [abs_le]
    norm_num at l u ⊢
    constructor <;> linarith
  · have hs' : s = [0.96773, 0.20667] := by simpa [Attr.points, SFName.attrs] using hs
    subst hs'
    exact ⟨![0.96773, 0.20667], by simp, _, takes_at branin1ConsAt branin1Cons_map _, by simp only [branin1ConsAt, Matrix.cons_val_zero, Matrix.cons_val_one]; norm_num⟩

theorem goldPrice_scheme : goldPriceAt ![0.0, 1.0] = 28611 := by
  simp only [goldPriceAt, Matrix.cons_val_zero, Matrix.cons_val_one]
  norm_num

theorem not_scheme_one {a : Attrs} {f : Batch d → Py Out} (g : (Fin d → ℝ) → ℝ) (hf : ∀ X, f X = .ok (X.map fun r => some (g r))) {o tol : ℝ}
    (ha : a.optimum = .num (some o)) (x : Fin d → ℝ) (hs : a.scheme = .list (List.ofFn x)) (h : tol < |g x - o|) : ¬ SchemeAttains a f tol := by
  rintro ⟨o', ho', -, h'⟩
  obtain rfl : o = o' := Option.some.inj (Attr.num.inj (ha.symm.trans ho'))
  obtain ⟨x', hx', -, y, hy, hle⟩ := h' (List.ofFn x) (by rw [hs]; exact List.mem_singleton.mpr rfl)
  obtain rfl : x' = x := List.ofFn_injective hx'
  obtain rfl : g x' = y := Option.some.inj ((takesValue_iff _ hf x' y).mp hy)
  exact absurd hle (not_le.mpr h)

/-- C70 fails: the listed scheme of Goldstein–Price misses `optimum` by 28608, that of the Hartman function of three dimensions by more than `8e-5` (it is printed with eight digits, the
optimum with fourteen), and that of `Branin_2` by more than 0.04 — it does not even satisfy the constraint, by 0.01. -/
theorem C70_counterexample : ¬ SchemeAttains SFName.goldPrice.attrs (SFName.goldPrice.f (d := 2)) 28607 ∧
    ¬ SchemeAttains SFName.hartman3.attrs (SFName.hartman3.f (d := 3)) 8e-5 ∧ ¬ SchemeAttains MFName.hartman3.attrs (MFName.hartman3.hf (d := 3)) 8e-5 ∧
    ¬ SchemeAttains SFName.branin2.attrs (SFName.branin2.f (d := 2)) 0.04 ∧ ¬ SchemeFeasible SFName.branin2.attrs (branin2Cons (d := 2)) 0.009 := by
  refine ⟨not_scheme_one goldPriceAt (SFName.f_map .goldPrice) rfl ![0.0, 1.0] rfl ?_,
    not_scheme_one hartman3At (SFName.f_map .hartman3) rfl ![0.1, 0.55592003, 0.85218259] (by simp [SFName.attrs]) ?_,
    not_scheme_one hartman3At (MFName.hf_map .hartman3) rfl ![0.1, 0.55592003, 0.85218259] (by simp [MFName.attrs]) ?_,
    not_scheme_one braninConsAt (SFName.f_map .branin2) rfl ![0.941, 0.317] (by simp [SFName.attrs]) ?_, fun h => ?_⟩
  · rw [goldPrice_scheme]; norm_num
  · have h := hartman3_point
    rw [lt_abs]
    left
    norm_num at h ⊢
    linarith
  · have h := hartman3_point
    rw [lt_abs]
    left
    norm_num at h ⊢
    linarith
  · have h := branin2_point.1
    rw [lt_abs]
    right
    norm_num at h ⊢
    linarith
  · obtain ⟨x, hx, c, hc, hle⟩ := h [0.941, 0.317] (List.mem_singleton.mpr rfl)
    obtain rfl : x = ![0.941, 0.317] := List.ofFn_injective (hx.trans (by simp))
    obtain rfl : branin2ConsAt ![0.941, 0.317] = c := Option.some.inj ((takesValue_iff _ branin2Cons_map _ c).mp hc)
    have h := branin2_point.2
    norm_num at h hle
    linarith

end Mfpml.Props
