import Mathlib.Analysis.SpecialFunctions.Trigonometric.Bounds
import Mathlib.Analysis.SpecialFunctions.ExpDeriv
import Mathlib.Analysis.Complex.ExponentialBounds
import Mathlib.Tactic.Positivity
import Verif.Lemmas.Interval
import Verif.Lemmas.Trig

/-!
# Correctness of the interval arithmetic of `Verif.Lemmas.Interval`
-/

set_option linter.unusedSectionVars false

namespace Mfpml.IA

theorem N_pos : (0 : ℝ) < N := by unfold N; norm_num

theorem N_pos' : 0 < N := by unfold N; norm_num

/-! ## Integers -/

theorem forceN_eq {α : Type} (n : Nat) (k : Nat → α) : forceN n k = k n := by cases n <;> rfl

theorem forceZ_eq {α : Type} (n : Int) (k : Int → α) : forceZ n k = k n := by
  cases n with
  | ofNat m => exact forceN_eq m fun m => k (.ofNat m)
  | negSucc m => exact forceN_eq m fun m => k (.negSucc m)

theorem mk_eq (l h : Int) : mk l h = ⟨l, h⟩ := by unfold mk; rw [forceZ_eq, forceZ_eq]

theorem force_eq {α : Type} (a : I) (c : I → α) : force a c = c a := by unfold force; rw [forceZ_eq, forceZ_eq]

theorem ble_iff (a b : Int) : ble a b = true ↔ a ≤ b := by
  cases a with
  | ofNat m =>
    cases b with
    | ofNat n => show Nat.ble m n = true ↔ _; rw [Nat.ble_eq]; exact Int.ofNat_le.symm
    | negSucc n => show false = true ↔ _; simp only [Bool.false_eq_true, false_iff]; simp only [Int.ofNat_eq_natCast]; omega
  | negSucc m =>
    cases b with
    | ofNat n => show true = true ↔ _; simp only [true_iff]; simp only [Int.ofNat_eq_natCast]; omega
    | negSucc n => show Nat.ble n m = true ↔ _; rw [Nat.ble_eq]; omega

theorem zsubn_eq (m n : Nat) : zsubn m n = (m : Int) - n := by
  unfold zsubn
  cases h : Nat.ble n m with
  | true =>
    have := Nat.ble_eq.mp h
    show ((m.sub n : ℕ) : Int) = _
    exact Int.ofNat_sub this
  | false =>
    have h2 : ¬ n ≤ m := fun h' => by rw [Nat.ble_eq.mpr h'] at h; exact Bool.noConfusion h
    show Int.negSucc (Nat.pred (n - m)) = _
    rw [Int.negSucc_eq]
    have : ((Nat.pred (n - m) : ℕ) : Int) = (n : Int) - m - 1 := by
      rw [Nat.pred_eq_sub_one]
      omega
    rw [this]
    omega

theorem znegn_eq (n : Nat) : znegn n = -(n : Int) := by
  cases n with
  | zero => rfl
  | succ n => show Int.negSucc n = _; rw [Int.negSucc_eq]; omega

theorem zneg_eq (a : Int) : zneg a = -a := by
  cases a with
  | ofNat n => exact znegn_eq n
  | negSucc n => rfl

theorem zadd_eq (a b : Int) : zadd a b = a + b := by
  cases a with
  | ofNat m =>
    cases b with
    | ofNat n => rfl
    | negSucc n => exact (zsubn_eq m (n + 1)).trans (by rw [Int.negSucc_eq]; simp only [Int.ofNat_eq_natCast]; omega)
  | negSucc m =>
    cases b with
    | ofNat n => exact (zsubn_eq n (m + 1)).trans (by rw [Int.negSucc_eq]; simp only [Int.ofNat_eq_natCast]; omega)
    | negSucc n => show Int.negSucc (m + n + 1) = _; omega

theorem zsub_eq (a b : Int) : zsub a b = a - b := by
  cases a with
  | ofNat m =>
    cases b with
    | ofNat n => exact zsubn_eq m n
    | negSucc n => show ((m + (n + 1) : ℕ) : Int) = _; rw [Int.negSucc_eq]; simp only [Int.ofNat_eq_natCast]; omega
  | negSucc m =>
    cases b with
    | ofNat n => show Int.negSucc (m + n) = _; rw [Int.negSucc_eq, Int.negSucc_eq]; simp only [Int.ofNat_eq_natCast]; omega
    | negSucc n => exact (zsubn_eq n m).trans (by rw [Int.negSucc_eq, Int.negSucc_eq]; omega)

theorem zmul_eq (a b : Int) : zmul a b = a * b := by
  cases a with
  | ofNat m =>
    cases b with
    | ofNat n => rfl
    | negSucc n => exact (znegn_eq _).trans (by rw [Int.negSucc_eq]; simp only [Int.ofNat_eq_natCast, Nat.mul_eq]; push_cast; ring)
  | negSucc m =>
    cases b with
    | ofNat n => exact (znegn_eq _).trans (by rw [Int.negSucc_eq]; simp only [Int.ofNat_eq_natCast, Nat.mul_eq]; push_cast; ring)
    | negSucc n => rfl

theorem zmin_eq (a b : Int) : zmin a b = min a b := by
  unfold zmin
  cases h : ble a b with
  | true => exact (min_eq_left ((ble_iff a b).mp h)).symm
  | false =>
    have : ¬ a ≤ b := fun h' => by rw [(ble_iff a b).mpr h'] at h; exact Bool.noConfusion h
    show b = min a b
    exact (min_eq_right (by omega)).symm

theorem zmax_eq (a b : Int) : zmax a b = max a b := by
  unfold zmax
  cases h : ble a b with
  | true => exact (max_eq_right ((ble_iff a b).mp h)).symm
  | false =>
    have : ¬ a ≤ b := fun h' => by rw [(ble_iff a b).mpr h'] at h; exact Bool.noConfusion h
    show a = max a b
    exact (max_eq_left (by omega)).symm

theorem le_cdiv_mul (a : Nat) {b : Nat} (hb : 0 < b) : a ≤ cdiv a b * b := by
  show a ≤ (a + (b - 1)) / b * b
  have := Nat.lt_div_mul_add (a := a + (b - 1)) hb
  omega

theorem dn_mul_le (a : Int) {b : Nat} (hb : 0 < b) : dn a b * b ≤ a := by
  cases a with
  | ofNat n =>
    show ((n / b : ℕ) : Int) * b ≤ n
    exact_mod_cast Nat.div_mul_le_self n b
  | negSucc n =>
    show Int.negSucc (n / b) * b ≤ Int.negSucc n
    rw [Int.negSucc_eq, Int.negSucc_eq]
    have : n < n / b * b + b := Nat.lt_div_mul_add hb
    have h2 : (n : Int) < (n / b : ℕ) * b + b := by exact_mod_cast this
    linarith

theorem le_up_mul (a : Int) {b : Nat} (hb : 0 < b) : a ≤ up a b * b := by
  cases a with
  | ofNat n =>
    show (n : Int) ≤ (cdiv n b : ℕ) * b
    exact_mod_cast le_cdiv_mul n hb
  | negSucc n =>
    show Int.negSucc n ≤ znegn ((n + 1) / b) * b
    rw [znegn_eq, Int.negSucc_eq]
    have h2 : (((n + 1) / b * b : ℕ) : Int) ≤ (n + 1 : ℕ) := by exact_mod_cast Nat.div_mul_le_self (n + 1) b
    push_cast at h2 ⊢
    linarith

/-! ## Intervals -/

/-- The real number `x` lies in the interval. -/
def In (a : I) (x : ℝ) : Prop := (a.lo : ℝ) ≤ x * N ∧ x * N ≤ a.hi

theorem dn_le {a : Int} {x : ℝ} (h : (a : ℝ) ≤ x * N) : ((dn a N : Int) : ℝ) ≤ x := by
  have h1 : ((dn a N * N : Int) : ℝ) ≤ (a : ℝ) := by exact_mod_cast dn_mul_le a N_pos'
  push_cast at h1
  exact le_of_mul_le_mul_right (h1.trans h) N_pos

theorem le_up {a : Int} {x : ℝ} (h : x * N ≤ (a : ℝ)) : x ≤ ((up a N : Int) : ℝ) := by
  have h1 : (a : ℝ) ≤ ((up a N * N : Int) : ℝ) := by exact_mod_cast le_up_mul a N_pos'
  push_cast at h1
  exact le_of_mul_le_mul_right (h.trans h1) N_pos

theorem in_one : In one 1 := by simp [In, one]

theorem in_zero : In zero 0 := by
  have h : ((Int.ofNat (nat_lit 0) : Int) : ℝ) = 0 := by norm_num
  simp only [In, zero, h, zero_mul, le_refl, and_self]

theorem in_unit {x : ℝ} (h1 : -1 ≤ x) (h2 : x ≤ 1) : In unit x := by
  have hN := N_pos
  simp only [In, unit, znegn_eq, Int.cast_neg, Int.cast_natCast, Int.ofNat_eq_natCast]
  constructor <;> nlinarith

theorem in_add {a b : I} {x y : ℝ} (hx : In a x) (hy : In b y) : In (add a b) (x + y) := by
  simp only [In, add, mk_eq, zadd_eq, Int.cast_add, add_mul]
  exact ⟨add_le_add hx.1 hy.1, add_le_add hx.2 hy.2⟩

theorem in_neg {a : I} {x : ℝ} (hx : In a x) : In (neg a) (-x) := by
  simp only [In, neg, mk_eq, zneg_eq, Int.cast_neg, neg_mul]
  exact ⟨neg_le_neg hx.2, neg_le_neg hx.1⟩

theorem in_sub {a b : I} {x y : ℝ} (hx : In a x) (hy : In b y) : In (sub a b) (x - y) := by
  simp only [In, sub, mk_eq, zsub_eq, Int.cast_sub, sub_mul]
  exact ⟨sub_le_sub hx.1 hy.2, sub_le_sub hx.2 hy.1⟩

theorem in_dbl {a : I} {x : ℝ} (hx : In a x) : In (dbl a) (2 * x) := by
  have := in_add hx hx
  rw [← two_mul] at this
  exact this

theorem ble_false {a b : Int} (h : ble a b = false) : b < a := by
  by_contra h'
  rw [(ble_iff a b).mpr (by omega)] at h
  exact Bool.noConfusion h

theorem in_scl (n : Int) {a : I} {x : ℝ} (hx : In a x) : In (scl n a) ((n : ℝ) / N * x) := by
  have hN := N_pos
  have key : ∀ u : ℝ, (n : ℝ) / N * u * N = n * u := fun u => by field_simp
  unfold scl
  cases h : ble (.ofNat (nat_lit 0)) n with
  | true =>
    have h0 : (0 : ℝ) ≤ n := by exact_mod_cast (ble_iff _ _).mp h
    simp only [cond_true, In, mk_eq, zmul_eq, key]
    refine ⟨dn_le ?_, le_up ?_⟩
    · rw [Int.cast_mul, mul_assoc]; exact mul_le_mul_of_nonneg_left hx.1 h0
    · rw [Int.cast_mul, mul_assoc]; exact mul_le_mul_of_nonneg_left hx.2 h0
  | false =>
    have h0 : (n : ℝ) ≤ 0 := by exact_mod_cast (ble_false h).le
    simp only [cond_false, In, mk_eq, zmul_eq, key]
    refine ⟨dn_le ?_, le_up ?_⟩
    · rw [Int.cast_mul, mul_assoc]; exact mul_le_mul_of_nonpos_left hx.2 h0
    · rw [Int.cast_mul, mul_assoc]; exact mul_le_mul_of_nonpos_left hx.1 h0

/-- A product lies between the smallest and the largest product of bounds. -/
theorem mul_between {a b c d x y : ℝ} (hx : a ≤ x ∧ x ≤ b) (hy : c ≤ y ∧ y ≤ d) :
    min (min (a * c) (a * d)) (min (b * c) (b * d)) ≤ x * y ∧ x * y ≤ max (max (a * c) (a * d)) (max (b * c) (b * d)) := by
  have hxy : ∀ y, (a * y ≤ x * y ∧ x * y ≤ b * y) ∨ (b * y ≤ x * y ∧ x * y ≤ a * y) := by
    intro y
    rcases le_total 0 y with h | h
    · exact Or.inl ⟨mul_le_mul_of_nonneg_right hx.1 h, mul_le_mul_of_nonneg_right hx.2 h⟩
    · exact Or.inr ⟨mul_le_mul_of_nonpos_right hx.2 h, mul_le_mul_of_nonpos_right hx.1 h⟩
  have hay : ∀ a : ℝ, (a * c ≤ a * y ∧ a * y ≤ a * d) ∨ (a * d ≤ a * y ∧ a * y ≤ a * c) := by
    intro a
    rcases le_total 0 a with h | h
    · exact Or.inl ⟨mul_le_mul_of_nonneg_left hy.1 h, mul_le_mul_of_nonneg_left hy.2 h⟩
    · exact Or.inr ⟨mul_le_mul_of_nonpos_left hy.2 h, mul_le_mul_of_nonpos_left hy.1 h⟩
  constructor
  · rcases hxy y with ⟨h1, _⟩ | ⟨h1, _⟩
    · rcases hay a with ⟨h2, _⟩ | ⟨h2, _⟩
      · exact (min_le_left _ _).trans ((min_le_left _ _).trans (h2.trans h1))
      · exact (min_le_left _ _).trans ((min_le_right _ _).trans (h2.trans h1))
    · rcases hay b with ⟨h2, _⟩ | ⟨h2, _⟩
      · exact (min_le_right _ _).trans ((min_le_left _ _).trans (h2.trans h1))
      · exact (min_le_right _ _).trans ((min_le_right _ _).trans (h2.trans h1))
  · rcases hxy y with ⟨_, h1⟩ | ⟨_, h1⟩
    · rcases hay b with ⟨_, h2⟩ | ⟨_, h2⟩
      · exact (h1.trans h2).trans ((le_max_right _ _).trans (le_max_right _ _))
      · exact (h1.trans h2).trans ((le_max_left _ _).trans (le_max_right _ _))
    · rcases hay a with ⟨_, h2⟩ | ⟨_, h2⟩
      · exact (h1.trans h2).trans ((le_max_right _ _).trans (le_max_left _ _))
      · exact (h1.trans h2).trans ((le_max_left _ _).trans (le_max_left _ _))

theorem in_mulGen {a b : I} {x y : ℝ} (hx : In a x) (hy : In b y) :
    In (mulGen (zmul a.lo b.lo) (zmul a.lo b.hi) (zmul a.hi b.lo) (zmul a.hi b.hi)) (x * y) := by
  have h := mul_between hx hy
  have e : x * N * (y * N) = x * y * N * N := by ring
  rw [e] at h
  simp only [In, mulGen, mk_eq, zmul_eq, zmin_eq, zmax_eq]
  refine ⟨dn_le ?_, le_up ?_⟩
  · push_cast; exact h.1
  · push_cast; exact h.2

theorem in_mul {a b : I} {x y : ℝ} (hx : In a x) (hy : In b y) : In (mul a b) (x * y) := by
  unfold mul
  cases h : ble (.ofNat (nat_lit 0)) a.lo with
  | false => exact in_mulGen hx hy
  | true =>
    cases h' : ble (.ofNat (nat_lit 0)) b.lo with
    | false => exact in_mulGen hx hy
    | true =>
      have h0 : (0 : ℝ) ≤ a.lo := by exact_mod_cast (ble_iff _ _).mp h
      have h0' : (0 : ℝ) ≤ b.lo := by exact_mod_cast (ble_iff _ _).mp h'
      have e : x * N * (y * N) = x * y * N * N := by ring
      simp only [cond_true, In, mk_eq, zmul_eq]
      refine ⟨dn_le ?_, le_up ?_⟩
      · rw [← e]; push_cast; exact mul_le_mul hx.1 hy.1 h0' (h0.trans hx.1)
      · rw [← e]; push_cast; exact mul_le_mul hx.2 hy.2 (h0'.trans hy.1) ((h0.trans hx.1).trans hx.2)

theorem in_sq {a : I} {x : ℝ} (hx : In a x) : In (sq a) (x ^ 2) := by
  have e : x * N * (x * N) = x ^ 2 * N * N := by ring
  obtain ⟨h1, h2⟩ := hx
  unfold sq
  cases h : ble (.ofNat (nat_lit 0)) a.lo with
  | true =>
    have h0 : (0 : ℝ) ≤ a.lo := by exact_mod_cast (ble_iff _ _).mp h
    simp only [cond_true, In, mk_eq, zmul_eq]
    refine ⟨dn_le ?_, le_up ?_⟩
    · rw [← e]; push_cast; nlinarith
    · rw [← e]; push_cast; nlinarith
  | false =>
    cases h' : ble a.hi (.ofNat (nat_lit 0)) with
    | true =>
      have h0 : (a.hi : ℝ) ≤ 0 := by exact_mod_cast (ble_iff _ _).mp h'
      simp only [cond_true, cond_false, In, mk_eq, zmul_eq]
      refine ⟨dn_le ?_, le_up ?_⟩
      · rw [← e]; push_cast; nlinarith
      · rw [← e]; push_cast; nlinarith
    | false =>
      simp only [cond_false, In, mk_eq, zmul_eq, zmax_eq]
      refine ⟨?_, le_up ?_⟩
      · have hN := N_pos
        have hz : ((Int.ofNat (nat_lit 0) : Int) : ℝ) = 0 := by norm_num
        rw [hz]
        positivity
      · rw [← e]; push_cast
        rcases le_total 0 (x * N) with h0 | h0
        · exact le_max_of_le_right (mul_le_mul h2 h2 h0 (h0.trans h2))
        · exact le_max_of_le_left (by nlinarith)

/-! ## Exponential -/

/-- `1 - y / (k + 1) * (1 - y / (k + 2) * …)` with `n` levels and `t` in the innermost bracket. -/
noncomputable def hE (y t : ℝ) : ℕ → ℕ → ℝ
  | 0, _ => t
  | n + 1, k => 1 - y / (k + 1) * hE y t n (k + 1)

/-- The first `n` terms of the series of `exp (-y)`. -/
noncomputable def expT (n : ℕ) (y : ℝ) : ℝ := ∑ k ∈ Finset.range n, (-1) ^ k * y ^ k / k.factorial

theorem hE_eq (y t : ℝ) (n : ℕ) : ∀ k, hE y t n k = (∑ i ∈ Finset.range n, (-1) ^ i * y ^ i * k.factorial / (k + i).factorial) + (-1) ^ n * y ^ n * k.factorial / (k + n).factorial * t := by
  induction n with
  | zero =>
    intro k
    have : (k.factorial : ℝ) ≠ 0 := by positivity
    simp [hE, this]
  | succ n ih =>
    intro k
    rw [hE, ih (k + 1), Finset.sum_range_succ']
    have hk : (k.factorial : ℝ) ≠ 0 := by positivity
    have e1 : ∑ i ∈ Finset.range n, (-1) ^ (i + 1) * y ^ (i + 1) * (k.factorial : ℝ) / (k + (i + 1)).factorial
        = -(y / (k + 1)) * ∑ i ∈ Finset.range n, (-1) ^ i * y ^ i * ((k + 1).factorial : ℝ) / (k + 1 + i).factorial := by
      rw [Finset.mul_sum]
      refine Finset.sum_congr rfl fun i _ => ?_
      have e : k + (i + 1) = k + 1 + i := by ring
      rw [e, Nat.factorial_succ k]
      have hf : ((k + 1 + i).factorial : ℝ) ≠ 0 := by positivity
      have hk1 : (k : ℝ) + 1 ≠ 0 := by positivity
      push_cast
      field_simp
      ring
    rw [e1]
    generalize ∑ i ∈ Finset.range n, (-1) ^ i * y ^ i * ((k + 1).factorial : ℝ) / (k + 1 + i).factorial = s
    have e : k + (n + 1) = k + 1 + n := by ring
    rw [e, Nat.factorial_succ k]
    have hf : ((k + 1 + n).factorial : ℝ) ≠ 0 := by positivity
    have hk1 : (k : ℝ) + 1 ≠ 0 := by positivity
    simp only [pow_zero, Nat.add_zero, one_mul]
    push_cast
    field_simp
    ring

theorem hE_zero (n : ℕ) (y : ℝ) : hE y 0 n 0 = expT n y := by
  rw [hE_eq]
  simp [expT]

theorem hE_one (n : ℕ) (y : ℝ) : hE y 1 n 0 = expT (n + 1) y := by
  rw [hE_eq, expT, Finset.sum_range_succ]
  simp

theorem hasDerivAt_expT (n : ℕ) (x : ℝ) : HasDerivAt (expT (n + 1)) (-expT n x) x := by
  have : expT (n + 1) = fun x : ℝ => (∑ k ∈ Finset.range n, (-1) ^ (k + 1) * x ^ (k + 1) / (k + 1).factorial) + 1 := by
    funext x
    unfold expT
    rw [Finset.sum_range_succ']
    simp
  rw [this]
  unfold expT
  rw [← Finset.sum_neg_distrib]
  refine HasDerivAt.add_const 1 (HasDerivAt.fun_sum fun k _ => ?_)
  have h := ((hasDerivAt_pow (k + 1) x).const_mul ((-1) ^ (k + 1) : ℝ)).div_const ((k + 1).factorial : ℝ)
  refine h.congr_deriv ?_
  rw [Nat.factorial_succ k]
  have h1 : (k.factorial : ℝ) ≠ 0 := by positivity
  have hk1 : (k : ℝ) + 1 ≠ 0 := by positivity
  rw [Nat.add_sub_cancel]
  push_cast
  field_simp
  ring

/-- The series of `exp (-y)` alternates around it for `y ≥ 0`. -/
theorem expT_alternates (n : ℕ) : ∀ y, 0 ≤ y → 0 ≤ (-1) ^ n * (Real.exp (-y) - expT n y) := by
  induction n with
  | zero =>
    intro y _
    simp [expT, Real.exp_nonneg]
  | succ n ih =>
    intro y hy
    refine nonneg_of_deriv (f := fun x => (-1) ^ (n + 1) * (Real.exp (-x) - expT (n + 1) x)) (f' := fun x => (-1) ^ n * (Real.exp (-x) - expT n x)) ?_ (fun x => ?_) ih hy
    · have : expT (n + 1) 0 = 1 := by
        unfold expT
        rw [Finset.sum_range_succ', Finset.sum_eq_zero fun k _ => by simp]
        simp
      simp [this]
    · have h1 : HasDerivAt (fun x : ℝ => Real.exp (-x)) (Real.exp (-x) * (-1)) x := (hasDerivAt_neg x).exp
      have h := (h1.sub (hasDerivAt_expT n x)).const_mul ((-1 : ℝ) ^ (n + 1))
      refine h.congr_deriv ?_
      rw [pow_succ]
      ring

/-- A number between two consecutive partial sums. -/
theorem between_of_alternates {n : ℕ} {v a b : ℝ} (h1 : 0 ≤ (-1) ^ n * (v - a)) (h2 : 0 ≤ (-1) ^ (n + 1) * (v - b)) {l h : ℝ} (ha : l ≤ a ∧ a ≤ h) (hb : l ≤ b ∧ b ≤ h) :
    l ≤ v ∧ v ≤ h := by
  rw [pow_succ] at h2
  rcases neg_one_pow_eq_or ℝ n with e | e
  · rw [e] at h1 h2
    constructor <;> linarith
  · rw [e] at h1 h2
    constructor <;> linarith

theorem succ_cast (k : ℕ) : ((Nat.succ k : ℕ) : ℝ) = (k : ℝ) + 1 := by push_cast; ring

theorem div_le_real (a b : ℕ) : ((Nat.div a b : ℕ) : ℝ) ≤ (a : ℝ) / b := Nat.cast_div_le

theorem le_cdiv_real (a : ℕ) {b : ℕ} (hb : 0 < b) : (a : ℝ) / b ≤ (cdiv a b : ℕ) := by
  rw [div_le_iff₀ (by exact_mod_cast hb)]
  exact_mod_cast le_cdiv_mul a hb

theorem mul_cast (a b : ℕ) : ((Nat.mul a b : ℕ) : ℝ) = a * b := by rw [Nat.mul_eq]; push_cast; ring

/-- One level of a Horner scheme with rounding: `1 - y / e * u`. -/
theorem horner_step {y u : ℝ} {yl yh l h e : ℕ} (he : 0 < e) (hy0 : 0 ≤ y) (hye : y ≤ e) (hyl : (yl : ℝ) ≤ y * N) (hyh : y * N ≤ yh) (hl : (l : ℝ) ≤ u * N) (hh : u * N ≤ h)
    (hu0 : 0 ≤ u) (hu1 : u ≤ 1) :
    ((Nat.sub N (cdiv (Nat.mul yh h) (Nat.mul N e)) : ℕ) : ℝ) ≤ (1 - y / e * u) * N ∧ (1 - y / e * u) * N ≤ (Nat.sub N (Nat.div (Nat.mul yl l) (Nat.mul N e)) : ℕ) ∧
    0 ≤ 1 - y / e * u ∧ 1 - y / e * u ≤ 1 := by
  have hN := N_pos
  have he' : (0 : ℝ) < e := by exact_mod_cast he
  have hq0 : 0 ≤ y / e * u := by positivity
  have hq1 : y / e * u ≤ 1 := by
    have : y / e ≤ 1 := by rw [div_le_one he']; exact hye
    nlinarith
  have hNe : 0 < Nat.mul N e := Nat.mul_pos N_pos' he
  have hu : (yh : ℝ) * h / (N * e) ≤ (cdiv (Nat.mul yh h) (Nat.mul N e) : ℕ) := by
    have := le_cdiv_real (Nat.mul yh h) hNe
    rwa [mul_cast, mul_cast] at this
  have hd : ((Nat.div (Nat.mul yl l) (Nat.mul N e) : ℕ) : ℝ) ≤ (yl : ℝ) * l / (N * e) := by
    have := div_le_real (Nat.mul yl l) (Nat.mul N e)
    rwa [mul_cast, mul_cast] at this
  have e1 : y / e * u * N = y * N * (u * N) / (N * e) := by field_simp
  have hup : y / e * u * N ≤ (cdiv (Nat.mul yh h) (Nat.mul N e) : ℕ) := by
    refine le_trans ?_ hu
    rw [e1]
    apply div_le_div_of_nonneg_right _ (by positivity)
    exact mul_le_mul hyh hh (by positivity) (by positivity)
  have hdn : ((Nat.div (Nat.mul yl l) (Nat.mul N e) : ℕ) : ℝ) ≤ y / e * u * N := by
    refine hd.trans ?_
    rw [e1]
    apply div_le_div_of_nonneg_right _ (by positivity)
    exact mul_le_mul hyl hl (by positivity) (by positivity)
  refine ⟨?_, ?_, by linarith, by linarith⟩
  · show ((N - cdiv (Nat.mul yh h) (Nat.mul N e) : ℕ) : ℝ) ≤ _
    rcases le_total (cdiv (Nat.mul yh h) (Nat.mul N e)) N with hc | hc
    · rw [Nat.cast_sub hc]
      nlinarith
    · rw [Nat.sub_eq_zero_of_le hc, Nat.cast_zero]
      apply mul_nonneg _ hN.le
      linarith
  · show _ ≤ ((N - Nat.div (Nat.mul yl l) (Nat.mul N e) : ℕ) : ℝ)
    have hc : Nat.div (Nat.mul yl l) (Nat.mul N e) ≤ N := by
      have : ((Nat.div (Nat.mul yl l) (Nat.mul N e) : ℕ) : ℝ) ≤ N := hdn.trans (by nlinarith)
      exact_mod_cast this
    rw [Nat.cast_sub hc]
    nlinarith

theorem hornerE_eq {α : Type} {y : ℝ} {yl yh : ℕ} (hy0 : 0 ≤ y) (hy1 : y ≤ 1) (hyl : (yl : ℝ) ≤ y * N) (hyh : y * N ≤ yh) (n : ℕ) :
    ∀ k, ∃ l h : ℕ, (∀ c : ℕ → ℕ → α, hornerE yl yh n k c = c l h) ∧
      ∀ t, 0 ≤ t → t ≤ 1 → (l : ℝ) ≤ hE y t n k * N ∧ hE y t n k * N ≤ h ∧ 0 ≤ hE y t n k ∧ hE y t n k ≤ 1 := by
  have hN := N_pos
  induction n with
  | zero =>
    intro k
    refine ⟨nat_lit 0, N, fun c => rfl, fun t h0 h1 => ⟨?_, ?_, h0, h1⟩⟩
    · have hz : (((nat_lit 0) : ℕ) : ℝ) = 0 := by norm_num
      rw [hz]
      exact mul_nonneg h0 hN.le
    · exact mul_le_of_le_one_left hN.le h1
  | succ n ih =>
    intro k
    obtain ⟨l, h, hc, hb⟩ := ih (k + 1)
    refine ⟨Nat.sub N (cdiv (Nat.mul yh h) (Nat.mul N (Nat.succ k))), Nat.sub N (Nat.div (Nat.mul yl l) (Nat.mul N (Nat.succ k))), fun c => ?_, fun t h0 h1 => ?_⟩
    · have e : hornerE yl yh (n + 1) k c = hornerE yl yh n (k + 1) fun l h =>
        forceN (Nat.sub N (cdiv (Nat.mul yh h) (Nat.mul N (Nat.succ k)))) fun l' =>
        forceN (Nat.sub N (Nat.div (Nat.mul yl l) (Nat.mul N (Nat.succ k)))) fun h' => c l' h' := by delta hornerE; with_reducible rfl
      rw [e, hc, forceN_eq, forceN_eq]
    · obtain ⟨b1, b2, b3, b4⟩ := hb t h0 h1
      have hs := horner_step (e := Nat.succ k) (Nat.succ_pos k) hy0 (hy1.trans (by rw [succ_cast]; linarith [Nat.cast_nonneg (α := ℝ) k])) hyl hyh b1 b2 b3 b4
      rw [succ_cast] at hs
      exact hs

theorem squares_eq {α : Type} (n : ℕ) : ∀ {v : ℝ} {l h : ℕ}, 0 ≤ v → (l : ℝ) ≤ v * N → v * N ≤ h → ∃ l' h' : ℕ, (∀ c : ℕ → ℕ → α, squares c n l h = c l' h') ∧
    (l' : ℝ) ≤ v ^ 2 ^ n * N ∧ v ^ 2 ^ n * N ≤ h' := by
  have hN := N_pos
  induction n with
  | zero =>
    intro v l h _ h1 h2
    exact ⟨l, h, fun c => rfl, by simpa using h1, by simpa using h2⟩
  | succ n ih =>
    intro v l h h0 h1 h2
    have e1 : v ^ 2 * N = v * N * (v * N) / N := by field_simp
    have hl : ((Nat.div (Nat.mul l l) N : ℕ) : ℝ) ≤ v ^ 2 * N := by
      refine (div_le_real _ _).trans ?_
      rw [mul_cast, e1]
      exact div_le_div_of_nonneg_right (mul_le_mul h1 h1 (by positivity) (by positivity)) hN.le
    have hh : v ^ 2 * N ≤ (cdiv (Nat.mul h h) N : ℕ) := by
      refine le_trans ?_ (le_cdiv_real _ N_pos')
      rw [mul_cast, e1]
      exact div_le_div_of_nonneg_right (mul_le_mul h2 h2 (by positivity) (by positivity)) hN.le
    obtain ⟨l', h', hc, b1, b2⟩ := ih (by positivity) hl hh
    refine ⟨l', h', fun c => ?_, ?_, ?_⟩
    · have e : squares c (n + 1) l h = forceN (Nat.div (Nat.mul l l) N) fun l' => forceN (cdiv (Nat.mul h h) N) fun h' => squares c n l' h' := by delta squares; with_reducible rfl
      rw [e, forceN_eq, forceN_eq, hc]
    · rw [pow_succ 2 n, mul_comm (2 ^ n) 2, pow_mul]; exact b1
    · rw [pow_succ 2 n, mul_comm (2 ^ n) 2, pow_mul]; exact b2

theorem expn_eq {α : Type} (y : ℕ) : ∃ l h : ℕ, (∀ c : ℕ → ℕ → α, expn y c = c l h) ∧ (l : ℝ) ≤ Real.exp (-(y / N)) * N ∧ Real.exp (-(y / N)) * N ≤ h := by
  have hN := N_pos
  cases hle : Nat.ble (cdiv y (nat_lit 256)) N with
  | false =>
    refine ⟨nat_lit 0, N, fun c => ?_, ?_, ?_⟩
    · unfold expn
      rw [forceN_eq, forceN_eq, hle]
      rfl
    · have hz : (((nat_lit 0) : ℕ) : ℝ) = 0 := by norm_num
      rw [hz]
      positivity
    · apply mul_le_of_le_one_left hN.le
      rw [Real.exp_le_one_iff]
      have : (0 : ℝ) ≤ y / N := by positivity
      linarith
  | true =>
    have hle' := Nat.ble_eq.mp hle
    set v : ℝ := y / N / 256 with hv
    have hv0 : 0 ≤ v := by positivity
    have e256 : (((nat_lit 256) : ℕ) : ℝ) = 256 := by norm_num
    have hvN : v * N = y / 256 := by rw [hv]; field_simp
    have hyl : ((Nat.div y (nat_lit 256) : ℕ) : ℝ) ≤ v * N := by
      rw [hvN, ← e256]
      exact div_le_real _ _
    have hyh : v * N ≤ (cdiv y (nat_lit 256) : ℕ) := by
      rw [hvN, ← e256]
      exact le_cdiv_real _ (by norm_num)
    have hv1 : v ≤ 1 := by
      have : v * N ≤ 1 * N := hyh.trans (by rw [one_mul]; exact_mod_cast hle')
      exact le_of_mul_le_mul_right this hN
    obtain ⟨l, h, hc, hb⟩ := hornerE_eq (α := α) hv0 hv1 hyl hyh (nat_lit 9) (nat_lit 0)
    have b0 := hb 0 le_rfl zero_le_one
    have b1 := hb 1 zero_le_one le_rfl
    have t0 : hE v 0 (nat_lit 9) (nat_lit 0) = expT 9 v := hE_zero 9 v
    have t1 : hE v 1 (nat_lit 9) (nat_lit 0) = expT 10 v := hE_one 9 v
    rw [t0] at b0
    rw [t1] at b1
    have hbt : (l : ℝ) / N ≤ Real.exp (-v) ∧ Real.exp (-v) ≤ (h : ℝ) / N := by
      refine between_of_alternates (n := 9) (expT_alternates 9 v hv0) (expT_alternates 10 v hv0) ⟨?_, ?_⟩ ⟨?_, ?_⟩
      · rw [div_le_iff₀ hN]; exact b0.1
      · rw [le_div_iff₀ hN]; exact b0.2.1
      · rw [div_le_iff₀ hN]; exact b1.1
      · rw [le_div_iff₀ hN]; exact b1.2.1
    rw [div_le_iff₀ hN, le_div_iff₀ hN] at hbt
    obtain ⟨l', h', hc', s1, s2⟩ := squares_eq (α := α) (nat_lit 8) (Real.exp_nonneg (-v)) hbt.1 hbt.2
    have e8 : Real.exp (-v) ^ 2 ^ (nat_lit 8) = Real.exp (-(y / N)) := by
      rw [← Real.exp_nat_mul]
      congr 1
      rw [hv]
      have : ((2 ^ (nat_lit 8) : ℕ) : ℝ) = 256 := by norm_num
      rw [this]
      ring
    rw [e8] at s1 s2
    refine ⟨l', h', fun c => ?_, s1, s2⟩
    unfold expn
    rw [forceN_eq, forceN_eq, hle, cond_true, hc, hc']

theorem in_expNeg {a : I} {x : ℝ} (hx : In a x) : In (expNeg a) (Real.exp (-x)) := by
  have hN := N_pos
  obtain ⟨lo, hi⟩ := a
  obtain ⟨h1, h2⟩ := hx
  simp only at h1 h2
  cases lo with
  | ofNat p =>
    cases hi with
    | ofNat q =>
      obtain ⟨l, _, hc, b1, _⟩ := expn_eq (α := I) q
      obtain ⟨_, h, hc', _, b2⟩ := expn_eq (α := I) p
      have e : expNeg ⟨.ofNat p, .ofNat q⟩ = ⟨.ofNat l, .ofNat h⟩ := by
        show (expn q fun l _ => expn p fun _ h => (⟨.ofNat l, .ofNat h⟩ : I)) = _
        rw [hc, hc']
      rw [e]
      simp only [Int.ofNat_eq_natCast, Int.cast_natCast] at h1 h2
      constructor
      · show ((Int.ofNat l : Int) : ℝ) ≤ _
        simp only [Int.ofNat_eq_natCast, Int.cast_natCast]
        refine b1.trans (mul_le_mul_of_nonneg_right (Real.exp_le_exp.mpr ?_) hN.le)
        rw [neg_le_neg_iff, le_div_iff₀ hN]
        exact h2
      · show _ ≤ ((Int.ofNat h : Int) : ℝ)
        simp only [Int.ofNat_eq_natCast, Int.cast_natCast]
        refine le_trans (mul_le_mul_of_nonneg_right (Real.exp_le_exp.mpr ?_) hN.le) b2
        rw [neg_le_neg_iff, div_le_iff₀ hN]
        exact h1
    | negSucc q =>
      exfalso
      simp only [Int.ofNat_eq_natCast, Int.cast_natCast, Int.cast_negSucc] at h1 h2
      have : (0 : ℝ) ≤ p := Nat.cast_nonneg p
      have : (0 : ℝ) ≤ q := Nat.cast_nonneg q
      push_cast at h2
      linarith
  | negSucc n =>
    have e : expNeg ⟨.negSucc n, hi⟩ = ⟨.ofNat (nat_lit 0), .ofNat (Nat.mul N (Nat.pow (nat_lit 3) (cdiv (Nat.succ n) N)))⟩ := by
      show mk _ _ = _
      rw [mk_eq]
    rw [e]
    simp only [Int.cast_negSucc] at h1
    constructor
    · have hz : ((Int.ofNat (nat_lit 0) : Int) : ℝ) = 0 := by norm_num
      show ((Int.ofNat (nat_lit 0) : Int) : ℝ) ≤ _
      rw [hz]
      positivity
    · show _ ≤ ((Int.ofNat (Nat.mul N (Nat.pow (nat_lit 3) (cdiv (Nat.succ n) N))) : Int) : ℝ)
      rw [Int.ofNat_eq_natCast, Int.cast_natCast, mul_cast, mul_comm (N : ℝ)]
      refine mul_le_mul_of_nonneg_right ?_ hN.le
      have h3 : -x ≤ (cdiv (Nat.succ n) N : ℕ) := by
        refine le_trans ?_ (le_cdiv_real _ N_pos')
        rw [le_div_iff₀ hN]
        push_cast at h1 ⊢
        linarith
      calc Real.exp (-x) ≤ Real.exp (cdiv (Nat.succ n) N : ℕ) := Real.exp_le_exp.mpr h3
        _ = Real.exp 1 ^ (cdiv (Nat.succ n) N) := by rw [← Real.exp_nat_mul, mul_one]
        _ ≤ 3 ^ (cdiv (Nat.succ n) N) := pow_le_pow_left₀ (Real.exp_nonneg 1) (Real.exp_one_lt_d9.le.trans (by norm_num)) _
        _ = ((Nat.pow (nat_lit 3) (cdiv (Nat.succ n) N) : ℕ) : ℝ) := by
          have : Nat.pow (nat_lit 3) (cdiv (Nat.succ n) N) = 3 ^ (cdiv (Nat.succ n) N) := rfl
          rw [this]
          push_cast
          ring

/-! ## Sine and cosine -/

/-- `1 - z / ((k + 1) (k + 2)) * (1 - z / ((k + 3) (k + 4)) * …)` with `n` levels and `t` in the innermost bracket. -/
noncomputable def hT (z t : ℝ) : ℕ → ℕ → ℝ
  | 0, _ => t
  | n + 1, k => 1 - z / ((k + 1) * (k + 2)) * hT z t n (k + 2)

theorem hT_eq (z t : ℝ) (n : ℕ) : ∀ k, hT z t n k =
    (∑ i ∈ Finset.range n, (-1) ^ i * z ^ i * k.factorial / (k + 2 * i).factorial) + (-1) ^ n * z ^ n * k.factorial / (k + 2 * n).factorial * t := by
  induction n with
  | zero =>
    intro k
    have : (k.factorial : ℝ) ≠ 0 := by positivity
    simp [hT, this]
  | succ n ih =>
    intro k
    rw [hT, ih (k + 2), Finset.sum_range_succ']
    have hk : (k.factorial : ℝ) ≠ 0 := by positivity
    have hk1 : (k : ℝ) + 1 ≠ 0 := by positivity
    have hk2 : (k : ℝ) + 2 ≠ 0 := by positivity
    have ef : ((k + 2).factorial : ℝ) = ((k : ℝ) + 2) * (((k : ℝ) + 1) * k.factorial) := by
      rw [Nat.factorial_succ (k + 1), Nat.factorial_succ k]
      push_cast
      ring
    have e1 : ∑ i ∈ Finset.range n, (-1) ^ (i + 1) * z ^ (i + 1) * (k.factorial : ℝ) / (k + 2 * (i + 1)).factorial
        = -(z / ((k + 1) * (k + 2))) * ∑ i ∈ Finset.range n, (-1) ^ i * z ^ i * ((k + 2).factorial : ℝ) / (k + 2 + 2 * i).factorial := by
      rw [Finset.mul_sum]
      refine Finset.sum_congr rfl fun i _ => ?_
      have e : k + 2 * (i + 1) = k + 2 + 2 * i := by ring
      rw [e, ef]
      have hf : ((k + 2 + 2 * i).factorial : ℝ) ≠ 0 := by positivity
      field_simp
      ring
    rw [e1]
    generalize ∑ i ∈ Finset.range n, (-1) ^ i * z ^ i * ((k + 2).factorial : ℝ) / (k + 2 + 2 * i).factorial = s
    have e : k + 2 * (n + 1) = k + 2 + 2 * n := by ring
    rw [e, ef]
    have hf : ((k + 2 + 2 * n).factorial : ℝ) ≠ 0 := by positivity
    simp only [pow_zero, Nat.mul_zero, Nat.add_zero, one_mul]
    field_simp
    ring

theorem hT_cos_zero (n : ℕ) (y : ℝ) : hT (y ^ 2) 0 n 0 = cosT n y := by
  rw [hT_eq]
  simp [cosT, ← pow_mul]

theorem hT_cos_one (n : ℕ) (y : ℝ) : hT (y ^ 2) 1 n 0 = cosT (n + 1) y := by
  rw [hT_eq, cosT, Finset.sum_range_succ]
  simp [← pow_mul]

theorem hT_sin_zero (n : ℕ) (y : ℝ) : y * hT (y ^ 2) 0 n 1 = sinT n y := by
  rw [hT_eq, mul_zero, add_zero, sinT, Finset.mul_sum]
  refine Finset.sum_congr rfl fun i _ => ?_
  rw [← pow_mul, Nat.factorial_one, Nat.add_comm 1 (2 * i), pow_succ]
  push_cast
  ring

theorem hT_sin_one (n : ℕ) (y : ℝ) : y * hT (y ^ 2) 1 n 1 = sinT (n + 1) y := by
  rw [hT_eq, sinT, Finset.sum_range_succ, mul_add, Finset.mul_sum]
  congr 1
  · refine Finset.sum_congr rfl fun i _ => ?_
    rw [← pow_mul, Nat.factorial_one, Nat.add_comm 1 (2 * i), pow_succ]
    push_cast
    ring
  · rw [← pow_mul, Nat.factorial_one, Nat.add_comm 1 (2 * n), pow_succ]
    push_cast
    ring

theorem hornerT_succ {α : Type} (zl zh n k : ℕ) (c : ℕ → ℕ → α) : hornerT zl zh (n + 1) k c = hornerT zl zh n (k + 1 + 1) fun l h =>
    forceN (Nat.mul N (Nat.mul (Nat.succ k) (Nat.succ (Nat.succ k)))) fun d =>
    forceN (Nat.sub N (cdiv (Nat.mul zh h) d)) fun l' =>
    forceN (Nat.sub N (Nat.div (Nat.mul zl l) d)) fun h' => c l' h' := by delta hornerT; with_reducible rfl

theorem hornerT_eq {α : Type} {z : ℝ} {zl zh : ℕ} (hz0 : 0 ≤ z) (hz1 : z ≤ 1) (hzl : (zl : ℝ) ≤ z * N) (hzh : z * N ≤ zh) (n : ℕ) :
    ∀ k, ∃ l h : ℕ, (∀ c : ℕ → ℕ → α, hornerT zl zh n k c = c l h) ∧
      ∀ t, 0 ≤ t → t ≤ 1 → (l : ℝ) ≤ hT z t n k * N ∧ hT z t n k * N ≤ h ∧ 0 ≤ hT z t n k ∧ hT z t n k ≤ 1 := by
  have hN := N_pos
  induction n with
  | zero =>
    intro k
    refine ⟨nat_lit 0, N, fun c => rfl, fun t h0 h1 => ⟨?_, ?_, h0, h1⟩⟩
    · have hz : (((nat_lit 0) : ℕ) : ℝ) = 0 := by norm_num
      rw [hz]
      exact mul_nonneg h0 hN.le
    · exact mul_le_of_le_one_left hN.le h1
  | succ n ih =>
    intro k
    obtain ⟨l, h, hc, hb⟩ := ih (k + 1 + 1)
    refine ⟨Nat.sub N (cdiv (Nat.mul zh h) (Nat.mul N (Nat.mul (Nat.succ k) (Nat.succ (Nat.succ k))))),
      Nat.sub N (Nat.div (Nat.mul zl l) (Nat.mul N (Nat.mul (Nat.succ k) (Nat.succ (Nat.succ k))))), fun c => ?_, fun t h0 h1 => ?_⟩
    · rw [hornerT_succ, hc, forceN_eq, forceN_eq, forceN_eq]
    · obtain ⟨b1, b2, b3, b4⟩ := hb t h0 h1
      have hk : (0 : ℝ) ≤ k := Nat.cast_nonneg k
      have he : ((Nat.mul (Nat.succ k) (Nat.succ (Nat.succ k)) : ℕ) : ℝ) = ((k : ℝ) + 1) * (k + 2) := by
        rw [mul_cast, succ_cast, succ_cast, succ_cast]
        ring
      have hs := horner_step (e := Nat.mul (Nat.succ k) (Nat.succ (Nat.succ k))) (Nat.mul_pos (Nat.succ_pos k) (Nat.succ_pos _)) hz0
        (hz1.trans (by rw [he]; nlinarith)) hzl hzh b1 b2 b3 b4
      rw [he] at hs
      exact hs

theorem doubles_succ (n : ℕ) (s c : I) : doubles (n + 1) s c = doubles n (dbl (mul s c)) (sub one (sq2 s)) := by
  have : doubles (n + 1) s c = force (dbl (mul s c)) fun s' => force (sub one (sq2 s)) fun c' => doubles n s' c' := by delta doubles; with_reducible rfl
  rw [this, force_eq, force_eq]

theorem in_doubles (n : ℕ) : ∀ {s c : I} {θ : ℝ}, In s (Real.sin θ) → In c (Real.cos θ) →
    In (doubles n s c).1 (Real.sin (2 ^ n * θ)) ∧ In (doubles n s c).2 (Real.cos (2 ^ n * θ)) := by
  induction n with
  | zero =>
    intro s c θ hs hc
    have : doubles 0 s c = (s, c) := rfl
    rw [this, pow_zero, one_mul]
    exact ⟨hs, hc⟩
  | succ n ih =>
    intro s c θ hs hc
    rw [doubles_succ, pow_succ, mul_assoc]
    refine ih ?_ ?_
    · rw [Real.sin_two_mul, mul_assoc]
      exact in_dbl (in_mul hs hc)
    · have : Real.cos (2 * θ) = 1 - 2 * Real.sin θ ^ 2 := by rw [Real.cos_two_mul, Real.cos_sq']; ring
      rw [this]
      exact in_sub in_one (in_dbl (in_sq hs))

theorem in_sincosPos (c : ℕ) : In (sincosPos c).1 (Real.sin (c / N)) ∧ In (sincosPos c).2 (Real.cos (c / N)) := by
  have hN := N_pos
  unfold sincosPos
  rw [forceN_eq, forceN_eq]
  cases hle : Nat.ble (cdiv c (nat_lit 32)) N with
  | false =>
    rw [cond_false]
    exact ⟨in_unit (Real.neg_one_le_sin _) (Real.sin_le_one _), in_unit (Real.neg_one_le_cos _) (Real.cos_le_one _)⟩
  | true =>
    have hle' := Nat.ble_eq.mp hle
    rw [cond_true, forceN_eq, forceN_eq]
    set y : ℝ := c / N / 32 with hy
    have hy0 : 0 ≤ y := by positivity
    have e32 : (((nat_lit 32) : ℕ) : ℝ) = 32 := by norm_num
    have hyN : y * N = c / 32 := by rw [hy]; field_simp
    generalize hyl' : Nat.div c (nat_lit 32) = yl
    generalize hyh' : cdiv c (nat_lit 32) = yh at hle'
    have hyl : (yl : ℝ) ≤ y * N := by
      rw [hyN, ← e32, ← hyl']
      exact div_le_real _ _
    have hyh : y * N ≤ yh := by
      rw [hyN, ← e32, ← hyh']
      exact le_cdiv_real _ (by norm_num)
    have hy1 : y ≤ 1 := by
      have : y * N ≤ 1 * N := hyh.trans (by rw [one_mul]; exact_mod_cast hle')
      exact le_of_mul_le_mul_right this hN
    have ez : y ^ 2 * N = y * N * (y * N) / N := by field_simp
    have hz0 : 0 ≤ y ^ 2 := by positivity
    have hz1 : y ^ 2 ≤ 1 := by nlinarith
    have hzl : ((Nat.div (Nat.mul yl yl) N : ℕ) : ℝ) ≤ y ^ 2 * N := by
      refine (div_le_real _ _).trans ?_
      rw [mul_cast, ez]
      exact div_le_div_of_nonneg_right (mul_le_mul hyl hyl (by positivity) (by positivity)) hN.le
    have hzh : y ^ 2 * N ≤ (cdiv (Nat.mul yh yh) N : ℕ) := by
      refine le_trans ?_ (le_cdiv_real _ N_pos')
      rw [mul_cast, ez]
      exact div_le_div_of_nonneg_right (mul_le_mul hyh hyh (by positivity) (by positivity)) hN.le
    obtain ⟨sl, sh, hcs, hbs⟩ := hornerT_eq (α := I × I) hz0 hz1 hzl hzh (nat_lit 6) (nat_lit 1)
    obtain ⟨cl, ch, hcc, hbc⟩ := hornerT_eq (α := I × I) hz0 hz1 hzl hzh (nat_lit 6) (nat_lit 0)
    rw [hcs, hcc, forceN_eq, forceN_eq]
    have hcos : (cl : ℝ) / N ≤ Real.cos y ∧ Real.cos y ≤ (ch : ℝ) / N := by
      have b0 := hbc 0 le_rfl zero_le_one
      have b1 := hbc 1 zero_le_one le_rfl
      have t0 : hT (y ^ 2) 0 (nat_lit 6) (nat_lit 0) = cosT 6 y := hT_cos_zero 6 y
      have t1 : hT (y ^ 2) 1 (nat_lit 6) (nat_lit 0) = cosT 7 y := hT_cos_one 6 y
      rw [t0] at b0
      rw [t1] at b1
      refine between_of_alternates (n := 6) ((taylor_alternates 5).1 y hy0) ((taylor_alternates 6).1 y hy0) ⟨?_, ?_⟩ ⟨?_, ?_⟩
      · rw [div_le_iff₀ hN]; exact b0.1
      · rw [le_div_iff₀ hN]; exact b0.2.1
      · rw [div_le_iff₀ hN]; exact b1.1
      · rw [le_div_iff₀ hN]; exact b1.2.1
    have hsin : ((Nat.div (Nat.mul yl sl) N : ℕ) : ℝ) / N ≤ Real.sin y ∧ Real.sin y ≤ ((cdiv (Nat.mul yh sh) N : ℕ) : ℝ) / N := by
      have lower : ∀ u : ℝ, (sl : ℝ) ≤ u * N → 0 ≤ u → ((Nat.div (Nat.mul yl sl) N : ℕ) : ℝ) / N ≤ y * u := by
        intro u hu hu0
        rw [div_le_iff₀ hN]
        refine (div_le_real _ _).trans ?_
        rw [mul_cast, div_le_iff₀ hN]
        calc (yl : ℝ) * sl ≤ y * N * (u * N) := mul_le_mul hyl hu (by positivity) (by positivity)
          _ = y * u * N * N := by ring
      have upper : ∀ u : ℝ, u * N ≤ sh → 0 ≤ u → y * u ≤ ((cdiv (Nat.mul yh sh) N : ℕ) : ℝ) / N := by
        intro u hu hu0
        rw [le_div_iff₀ hN]
        refine le_trans ?_ (le_cdiv_real _ N_pos')
        rw [mul_cast, le_div_iff₀ hN]
        calc y * u * N * N = y * N * (u * N) := by ring
          _ ≤ (yh : ℝ) * sh := mul_le_mul hyh hu (by positivity) (by positivity)
      have b0 := hbs 0 le_rfl zero_le_one
      have b1 := hbs 1 zero_le_one le_rfl
      have t0 : y * hT (y ^ 2) 0 (nat_lit 6) (nat_lit 1) = sinT 6 y := hT_sin_zero 6 y
      have t1 : y * hT (y ^ 2) 1 (nat_lit 6) (nat_lit 1) = sinT 7 y := hT_sin_one 6 y
      refine between_of_alternates (n := 6) ((taylor_alternates 5).2 y hy0) ((taylor_alternates 6).2 y hy0) ⟨?_, ?_⟩ ⟨?_, ?_⟩
      · rw [← t0]; exact lower _ b0.1 b0.2.2.1
      · rw [← t0]; exact upper _ b0.2.1 b0.2.2.1
      · rw [← t1]; exact lower _ b1.1 b1.2.2.1
      · rw [← t1]; exact upper _ b1.2.1 b1.2.2.1
    rw [div_le_iff₀ hN, le_div_iff₀ hN] at hcos hsin
    have key := in_doubles (nat_lit 5) (s := ⟨.ofNat (Nat.div (Nat.mul yl sl) N), .ofNat (cdiv (Nat.mul yh sh) N)⟩) (c := ⟨.ofNat cl, .ofNat ch⟩) (θ := y)
      ⟨by simpa only [Int.ofNat_eq_natCast, Int.cast_natCast] using hsin.1, by simpa only [Int.ofNat_eq_natCast, Int.cast_natCast] using hsin.2⟩
      ⟨by simpa only [Int.ofNat_eq_natCast, Int.cast_natCast] using hcos.1, by simpa only [Int.ofNat_eq_natCast, Int.cast_natCast] using hcos.2⟩
    have e5 : (2 : ℝ) ^ (nat_lit 5) * y = c / N := by
      have : (2 : ℝ) ^ (nat_lit 5) = 32 := by norm_num
      rw [this, hy]
      ring
    rw [e5] at key
    exact key

theorem in_sincos (m : Int) : In (sincos m).1 (Real.sin (m / N)) ∧ In (sincos m).2 (Real.cos (m / N)) := by
  cases m with
  | ofNat c =>
    have e : ((Int.ofNat c : Int) : ℝ) = c := by simp
    rw [e]
    exact in_sincosPos c
  | negSucc c =>
    have e : ((Int.negSucc c : Int) : ℝ) / N = -(((c + 1 : ℕ) : ℝ) / N) := by
      rw [Int.cast_negSucc]
      ring
    have e2 : sincos (.negSucc c) = (neg (sincosPos (c + 1)).1, (sincosPos (c + 1)).2) := by
      have : sincos (.negSucc c) = forceN (Nat.succ c) fun c => ((neg (sincosPos c).1), (sincosPos c).2) := by delta sincos; with_reducible rfl
      rw [this, forceN_eq]
    rw [e, e2, Real.sin_neg, Real.cos_neg]
    have := in_sincosPos (c + 1)
    exact ⟨in_neg this.1, this.2⟩

theorem in_widen {a : I} {r : Int} {v w : ℝ} (hv : In a v) (h : |w - v| * N ≤ r) (h1 : -1 ≤ w) (h2 : w ≤ 1) : In (widen r a) w := by
  have hN := N_pos
  have hu := in_unit h1 h2
  simp only [In, unit, znegn_eq] at hu
  have h3 : (w - v) * N ≤ r := (mul_le_mul_of_nonneg_right (le_abs_self _) hN.le).trans h
  have h4 : -(w - v) * N ≤ r := (mul_le_mul_of_nonneg_right (neg_le_abs _) hN.le).trans h
  simp only [In, widen, mk_eq, zmax_eq, zmin_eq, zsub_eq, zadd_eq, znegn_eq, Int.cast_max, Int.cast_min, Int.cast_sub, Int.cast_add]
  refine ⟨max_le hu.1 ?_, le_min hu.2 ?_⟩
  · linarith [hv.1]
  · linarith [hv.2]

theorem in_rad {a : I} {x : ℝ} (hx : In a x) : |x - (mid a : ℝ) / N| * N ≤ rad a := by
  have hN := N_pos
  have e : (x - (mid a : ℝ) / N) * N = x * N - mid a := by field_simp
  rw [← abs_of_pos hN, ← abs_mul, abs_of_pos hN, e]
  simp only [rad, zmax_eq, zsub_eq, Int.cast_max, Int.cast_sub]
  rw [abs_le']
  constructor
  · exact le_max_of_le_left (by linarith [hx.2])
  · exact le_max_of_le_right (by linarith [hx.1])

theorem in_sin {a : I} {x : ℝ} (hx : In a x) : In (sin a) (Real.sin x) := by
  unfold sin
  rw [forceZ_eq]
  refine in_widen (in_sincos (mid a)).1 ((mul_le_mul_of_nonneg_right (Real.abs_sin_sub_sin_le x _) N_pos.le).trans (in_rad hx)) (Real.neg_one_le_sin _) (Real.sin_le_one _)

theorem in_cos {a : I} {x : ℝ} (hx : In a x) : In (cos a) (Real.cos x) := by
  unfold cos
  rw [forceZ_eq]
  refine in_widen (in_sincos (mid a)).2 ((mul_le_mul_of_nonneg_right (Real.abs_cos_sub_cos_le x _) N_pos.le).trans (in_rad hx)) (Real.neg_one_le_cos _) (Real.cos_le_one _)

/-! ## Expressions -/

/-- The value of an expression for coordinates `x` and parameters `q`. -/
noncomputable def E.eval (x q : ℕ → ℝ) : E → ℝ
  | .var i => x i
  | .par i => q i
  | .off n a => (n : ℝ) / N + a.eval x q
  | .scl n a => (n : ℝ) / N * a.eval x q
  | .add a b => a.eval x q + b.eval x q
  | .mul a b => a.eval x q * b.eval x q
  | .sq a => a.eval x q ^ 2
  | .sin a => Real.sin (a.eval x q)
  | .cos a => Real.cos (a.eval x q)
  | .expNeg a => Real.exp (-a.eval x q)

/-- The point lies in the box; coordinates beyond the box are `0`. -/
def Mem (box : List I) (x : ℕ → ℝ) : Prop := ∀ i, In (nth box i) (x i)

theorem in_const (n : Int) : In ⟨n, n⟩ ((n : ℝ) / N) := by
  have hN := N_pos
  have : (n : ℝ) / N * N = n := by field_simp
  simp [In, this]

theorem in_evalE {env : ℕ → DI} {pars : List I} {x q : ℕ → ℝ} (hx : ∀ i, In (env i).v (x i)) (hq : Mem pars q) (e : E) : In (evalE env pars e).v (e.eval x q) := by
  induction e with
  | var i => exact hx i
  | par i => exact hq i
  | off n a ih => exact in_add (in_const n) ih
  | scl n a ih => exact in_scl n ih
  | add a b iha ihb => exact in_add iha ihb
  | mul a b iha ihb => exact in_mul iha ihb
  | sq a ih => exact in_sq ih
  | sin a ih => exact in_sin ih
  | cos a ih => exact in_cos ih
  | expNeg a ih => exact in_expNeg ih

/-- Along a differentiable path, the derivative of an expression is a combination of the path's derivatives with coefficients in the computed intervals. -/
theorem hasDerivAt_evalE {env : ℕ → DI} {pars : List I} {p : ℝ → ℕ → ℝ} {q : ℕ → ℝ} {v : ℕ → ℝ} {t : ℝ} {n : ℕ}
    (hp : ∀ i, ∃ g : ℕ → ℝ, (∀ j < n, In ((env i).g j) (g j)) ∧ HasDerivAt (fun s => p s i) (∑ j ∈ Finset.range n, g j * v j) t)
    (hx : ∀ i, In (env i).v (p t i)) (hq : Mem pars q) (e : E) :
    ∃ g : ℕ → ℝ, (∀ j < n, In ((evalE env pars e).g j) (g j)) ∧ HasDerivAt (fun s => e.eval (p s) q) (∑ j ∈ Finset.range n, g j * v j) t := by
  induction e with
  | var i => exact hp i
  | par i =>
    refine ⟨fun _ => 0, fun j hj => in_zero, ?_⟩
    refine (hasDerivAt_const t (q i)).congr_deriv ?_
    simp
  | off n a ih =>
    obtain ⟨g, hg, hd⟩ := ih
    exact ⟨g, hg, hd.const_add _⟩
  | scl n a ih =>
    obtain ⟨g, hg, hd⟩ := ih
    refine ⟨fun j => (n : ℝ) / N * g j, fun j hj => in_scl n (hg j hj), (hd.const_mul _).congr_deriv ?_⟩
    rw [Finset.mul_sum]
    exact Finset.sum_congr rfl fun j _ => by ring
  | add a b iha ihb =>
    obtain ⟨g, hg, hd⟩ := iha
    obtain ⟨g', hg', hd'⟩ := ihb
    refine ⟨fun j => g j + g' j, fun j hj => in_add (hg j hj) (hg' j hj), (hd.add hd').congr_deriv ?_⟩
    rw [← Finset.sum_add_distrib]
    exact Finset.sum_congr rfl fun j _ => by ring
  | mul a b iha ihb =>
    obtain ⟨g, hg, hd⟩ := iha
    obtain ⟨g', hg', hd'⟩ := ihb
    refine ⟨fun j => g j * b.eval (p t) q + a.eval (p t) q * g' j,
      fun j hj => in_add (in_mul (hg j hj) (in_evalE hx hq b)) (in_mul (in_evalE hx hq a) (hg' j hj)), (hd.mul hd').congr_deriv ?_⟩
    rw [Finset.sum_mul, Finset.mul_sum, ← Finset.sum_add_distrib]
    exact Finset.sum_congr rfl fun j _ => by ring
  | sq a ih =>
    obtain ⟨g, hg, hd⟩ := ih
    refine ⟨fun j => 2 * (a.eval (p t) q * g j), fun j hj => in_dbl (in_mul (in_evalE hx hq a) (hg j hj)), (hd.pow 2).congr_deriv ?_⟩
    rw [Finset.mul_sum]
    refine Finset.sum_congr rfl fun j _ => ?_
    push_cast
    ring
  | sin a ih =>
    obtain ⟨g, hg, hd⟩ := ih
    refine ⟨fun j => Real.cos (a.eval (p t) q) * g j, fun j hj => in_mul (in_cos (in_evalE hx hq a)) (hg j hj), hd.sin.congr_deriv ?_⟩
    rw [Finset.mul_sum]
    exact Finset.sum_congr rfl fun j _ => by ring
  | cos a ih =>
    obtain ⟨g, hg, hd⟩ := ih
    refine ⟨fun j => -(Real.sin (a.eval (p t) q) * g j), fun j hj => in_neg (in_mul (in_sin (in_evalE hx hq a)) (hg j hj)), hd.cos.congr_deriv ?_⟩
    rw [Finset.mul_sum]
    exact Finset.sum_congr rfl fun j _ => by ring
  | expNeg a ih =>
    obtain ⟨g, hg, hd⟩ := ih
    refine ⟨fun j => -(Real.exp (-a.eval (p t) q) * g j), fun j hj => in_neg (in_mul (in_expNeg (in_evalE hx hq a)) (hg j hj)), hd.neg.exp.congr_deriv ?_⟩
    show Real.exp (-a.eval (p t) q) * _ = _
    rw [mul_neg, Finset.mul_sum, ← Finset.sum_neg_distrib]
    exact Finset.sum_congr rfl fun j _ => by ring

theorem in_evalD {box pars : List I} {x q : ℕ → ℝ} (hx : Mem box x) (hq : Mem pars q) (e : E) : In (evalD box pars e).v (e.eval x q) :=
  in_evalE (env := fun i => ⟨nth box i, fun j => cond (Nat.beq j i) one zero⟩) hx hq e

theorem hasDerivAt_evalD {box pars : List I} {p : ℝ → ℕ → ℝ} {q : ℕ → ℝ} {v : ℕ → ℝ} {t : ℝ} {n : ℕ} (hp : ∀ i, HasDerivAt (fun s => p s i) (v i) t) (hv : ∀ i, n ≤ i → v i = 0)
    (hx : Mem box (p t)) (hq : Mem pars q) (e : E) :
    ∃ g : ℕ → ℝ, (∀ j < n, In ((evalD box pars e).g j) (g j)) ∧ HasDerivAt (fun s => e.eval (p s) q) (∑ j ∈ Finset.range n, g j * v j) t := by
  refine hasDerivAt_evalE (env := fun i => ⟨nth box i, fun j => cond (Nat.beq j i) one zero⟩) (fun i => ?_) hx hq e
  refine ⟨fun j => if j = i then 1 else 0, fun j _ => ?_, ?_⟩
  · show In (cond (Nat.beq j i) one zero) (if j = i then 1 else 0)
    by_cases h : j = i
    · rw [if_pos h, Nat.beq_eq.mpr h]
      exact in_one
    · have : Nat.beq j i = false := by
        cases hb : Nat.beq j i with
        | false => rfl
        | true => exact absurd (Nat.beq_eq.mp hb) h
      rw [if_neg h, this]
      exact in_zero
  · refine (hp i).congr_deriv ?_
    simp only [ite_mul, one_mul, zero_mul, Finset.sum_ite_eq', Finset.mem_range]
    by_cases h : i < n
    · rw [if_pos h]
    · rw [if_neg h]; exact hv i (by omega)

/-! ## Branch and bound -/

theorem dn_eq (a : Int) {b : Nat} (hb : 0 < b) : dn a b = a / b := by
  cases a with
  | ofNat n => rfl
  | negSucc n =>
    show Int.negSucc (n / b) = _
    rw [Int.negSucc_ediv n (by exact_mod_cast hb), Int.negSucc_eq]
    rfl

theorem mid_eq (a : I) : mid a = (a.lo + a.hi) / 2 := by
  unfold mid
  rw [dn_eq _ (by norm_num), zadd_eq]
  rfl

theorem nth_nil (i : ℕ) : nth [] i = zero := rfl

theorem nth_centre (l : List I) : ∀ i, nth (centre l) i = ⟨mid (nth l i), mid (nth l i)⟩ := by
  induction l with
  | nil =>
    intro i
    have : mid zero = 0 := by rw [mid_eq]; rfl
    show zero = ⟨mid zero, mid zero⟩
    rw [this]
    rfl
  | cons a l ih =>
    intro i
    cases i with
    | zero => rfl
    | succ i => exact ih i

theorem nth_setNth (b : I) (l : List I) : ∀ j i, nth (setNth b l j) i = if i = j ∧ j < l.length then b else nth l i := by
  induction l with
  | nil => intro j i; simp; rfl
  | cons a l ih =>
    intro j i
    cases j with
    | zero =>
      cases i with
      | zero => simp; rfl
      | succ i => simp; rfl
    | succ j =>
      cases i with
      | zero => simp; rfl
      | succ i =>
        have := ih j i
        simp only [Nat.add_right_cancel_iff, List.length_cons, Nat.add_lt_add_iff_right]
        exact this

theorem forceL_eq {α : Type} (l : List I) : ∀ k : List I → α, forceL l k = k l := by
  induction l with
  | nil => intro k; rfl
  | cons a l ih =>
    intro k
    have : forceL (a :: l) k = force a fun a => forceL l fun as => k (a :: as) := rfl
    rw [this, force_eq, ih]

theorem slacks_cons (g : ℕ → I) (a : I) (l : List I) (j : ℕ) : slacks g (a :: l) j = zmul (mag (g j)) (rad a) :: slacks g l (j + 1) := by
  have : slacks g (a :: l) j = forceZ (zmul (mag (g j)) (rad a)) fun s => s :: slacks g l (j + 1) := rfl
  rw [this, forceZ_eq]

theorem abs_le_mag {a : I} {x : ℝ} (h : In a x) : |x| * N ≤ mag a := by
  have hN := N_pos
  have e : |x| * N = |x * N| := by rw [abs_mul, abs_of_pos hN]
  rw [e]
  simp only [mag, zmax_eq, zneg_eq, Int.cast_max, Int.cast_neg]
  rw [abs_le']
  exact ⟨le_max_of_le_right h.2, le_max_of_le_left (by linarith [h.1])⟩

theorem sum_le_slacks (g : ℕ → I) (G : ℕ → ℝ) (n : ℕ) (hG : ∀ j < n, In (g j) (G j)) (l : List I) : ∀ (j : ℕ) (v : ℕ → ℝ), j + l.length ≤ n → (∀ i, |v i| * N ≤ rad (nth l i)) →
    (∑ i ∈ Finset.range l.length, |G (j + i)| * |v i|) * N * N ≤ total (slacks g l j) := by
  have hN := N_pos
  induction l with
  | nil =>
    intro j v _ _
    show (0 : ℝ) * N * N ≤ ((Int.ofNat 0 : Int) : ℝ)
    simp
  | cons a l ih =>
    intro j v hn hv
    rw [List.length_cons] at hn
    rw [slacks_cons]
    have e : total (zmul (mag (g j)) (rad a) :: slacks g l (j + 1)) = zadd (zmul (mag (g j)) (rad a)) (total (slacks g l (j + 1))) := rfl
    rw [e, zadd_eq, zmul_eq, List.length_cons, Finset.sum_range_succ']
    have h1 := ih (j + 1) (fun i => v (i + 1)) (by omega) fun i => hv (i + 1)
    have h2 := mul_le_mul (abs_le_mag (hG j (by omega))) (hv 0) (by positivity) ((mul_nonneg (abs_nonneg (G j)) hN.le).trans (abs_le_mag (hG j (by omega))))
    have e2 : nth (a :: l) 0 = a := rfl
    rw [e2] at h2
    have e3 : ∑ i ∈ Finset.range l.length, |G (j + (i + 1))| * |v (i + 1)| = ∑ i ∈ Finset.range l.length, |G (j + 1 + i)| * |v (i + 1)| :=
      Finset.sum_congr rfl fun i _ => by rw [show j + (i + 1) = j + 1 + i by ring]
    rw [e3]
    have e4 : |G (j + 0)| = |G j| := rfl
    rw [e4]
    push_cast
    nlinarith

/-- The lower bound from the mean value theorem. -/
theorem mean_value {box : List I} {x : ℕ → ℝ} (hx : Mem box x) (F : (ℕ → ℝ) → ℝ) (D : DI) (lo : Int) (hc : ∀ c, Mem (centre box) c → (lo : ℝ) ≤ F c * N)
    (hD : ∀ (p : ℝ → ℕ → ℝ) (v : ℕ → ℝ) (t : ℝ), (∀ i, HasDerivAt (fun s => p s i) (v i) t) → (∀ i, box.length ≤ i → v i = 0) → Mem box (p t) →
      ∃ g : ℕ → ℝ, (∀ j < box.length, In (D.g j) (g j)) ∧ HasDerivAt (fun s => F (p s)) (∑ j ∈ Finset.range box.length, g j * v j) t) :
    (lo : ℝ) * N ≤ F x * N * N + total (slacks D.g box 0) := by
  have hN := N_pos
  set c : ℕ → ℝ := fun i => (mid (nth box i) : ℝ) / N with hcdef
  set p : ℝ → ℕ → ℝ := fun t i => c i + t * (x i - c i) with hp
  have hlen : ∀ (l : List I) i, l.length ≤ i → nth l i = zero := by
    intro l
    induction l with
    | nil => intro i _; rfl
    | cons a l ih =>
      intro i hi
      cases i with
      | zero => simp at hi
      | succ i => exact ih i (by simpa using hi)
  have hxlen : ∀ i, box.length ≤ i → x i - c i = 0 := by
    intro i hi
    have h0 := hx i
    rw [hlen box i hi] at h0
    have hz : ((zero.lo : Int) : ℝ) = 0 := by norm_num [zero]
    have hz' : ((zero.hi : Int) : ℝ) = 0 := by norm_num [zero]
    have hm : mid zero = 0 := by rw [mid_eq]; rfl
    have hxi : x i = 0 := by
      have h1 := h0.1
      have h2 := h0.2
      rw [hz] at h1
      rw [hz'] at h2
      have : x i * N = 0 := le_antisymm h2 h1
      rcases mul_eq_zero.mp this with h | h
      · exact h
      · exact absurd h hN.ne'
    rw [hxi, hcdef]
    simp only
    rw [hlen box i hi, hm]
    simp
  have hcm : Mem (centre box) c := by
    intro i
    rw [nth_centre]
    exact in_const _
  have hcb : Mem box c := by
    intro i
    have hb := hx i
    have hle : (nth box i).lo ≤ (nth box i).hi := by exact_mod_cast hb.1.trans hb.2
    have e : c i * N = mid (nth box i) := by rw [hcdef]; field_simp
    have hm := mid_eq (nth box i)
    constructor
    · rw [e]
      have : (nth box i).lo ≤ mid (nth box i) := by omega
      exact_mod_cast this
    · rw [e]
      have : mid (nth box i) ≤ (nth box i).hi := by omega
      exact_mod_cast this
  have hpb : ∀ t, 0 ≤ t → t ≤ 1 → Mem box (p t) := by
    intro t h0 h1 i
    have ha := hx i
    have hb := hcb i
    have e : p t i * N = (1 - t) * (c i * N) + t * (x i * N) := by rw [hp]; ring
    constructor
    · rw [e]
      nlinarith [mul_le_mul_of_nonneg_left ha.1 h0, mul_le_mul_of_nonneg_left hb.1 (sub_nonneg.mpr h1)]
    · rw [e]
      nlinarith [mul_le_mul_of_nonneg_left ha.2 h0, mul_le_mul_of_nonneg_left hb.2 (sub_nonneg.mpr h1)]
  have hder : ∀ t i, HasDerivAt (fun s => p s i) (x i - c i) t := by
    intro t i
    have := ((hasDerivAt_id t).mul_const (x i - c i)).const_add (c i)
    rw [one_mul] at this
    exact this
  have hD' : ∀ t, 0 ≤ t → t ≤ 1 → ∃ g : ℕ → ℝ, (∀ j < box.length, In (D.g j) (g j)) ∧
      HasDerivAt (fun s => F (p s)) (∑ j ∈ Finset.range box.length, g j * (x j - c j)) t :=
    fun t h0 h1 => hD p _ t (hder t) hxlen (hpb t h0 h1)
  choose! g hg hd using hD'
  obtain ⟨t, ht, hs⟩ := exists_hasDerivAt_eq_slope (fun s => F (p s)) (fun t => ∑ j ∈ Finset.range box.length, g t j * (x j - c j)) (zero_lt_one)
    (fun t ht => (hd t ht.1 ht.2).continuousAt.continuousWithinAt) (fun t ht => hd t ht.1.le ht.2.le)
  have e0 : p 0 = c := by funext i; simp [hp]
  have e1 : p 1 = x := by funext i; simp [hp]
  simp only [e0, e1, sub_zero, div_one] at hs
  have hfc := hc c hcm
  have hsum : -∑ j ∈ Finset.range box.length, |g t j| * |x j - c j| ≤ ∑ j ∈ Finset.range box.length, g t j * (x j - c j) := by
    rw [← Finset.sum_neg_distrib]
    refine Finset.sum_le_sum fun j _ => ?_
    rw [← abs_mul]
    exact neg_abs_le _
  have hsl := sum_le_slacks D.g (g t) box.length (hg t ht.1.le ht.2.le) box 0 (fun i => x i - c i) (by omega) fun i => in_rad (hx i)
  simp only [Nat.zero_add] at hsl
  have hNN : (0 : ℝ) < N * N := by positivity
  have h1 : F c - (∑ j ∈ Finset.range box.length, |g t j| * |x j - c j|) ≤ F x := by linarith
  have h2 := mul_le_mul_of_nonneg_right h1 hNN.le
  have h3 := mul_le_mul_of_nonneg_right hfc hN.le
  nlinarith

theorem check_succ (f : E) (excuses : List E) (m : Int) (pars : List I) (n : ℕ) (box : List I) : check f excuses m pars (n + 1) box =
    cond (List.any excuses fun c => ble (.ofNat (nat_lit 1)) (evalD box pars c).v.lo) true
      (cond (ble m (evalD box pars f).v.lo) true
        ((fun s : List Int =>
          cond (ble (zadd (zmul m (.ofNat N)) (total s)) (zmul (evalD (centre box) pars f).v.lo (.ofNat N))) true
            (forceN (worst s (nat_lit 0) (nat_lit 0) (.ofNat (nat_lit 0))) fun j =>
              cond (forceL (setNth ⟨(nth box j).lo, mid (nth box j)⟩ box j) (check f excuses m pars n))
                (forceL (setNth ⟨mid (nth box j), (nth box j).hi⟩ box j) (check f excuses m pars n)) false))
          (slacks (evalD box pars f).g box (nat_lit 0)))) := by delta check; with_reducible rfl

/-- The check is right: at every point of the box some excuse is positive or `f` is at least `m` units. -/
theorem check_sound {f : E} {excuses : List E} {m : Int} {pars : List I} {q : ℕ → ℝ} (hq : Mem pars q) (n : ℕ) : ∀ {box : List I}, check f excuses m pars n box = true →
    ∀ {x : ℕ → ℝ}, Mem box x → (∃ c ∈ excuses, 0 < c.eval x q) ∨ (m : ℝ) / N ≤ f.eval x q := by
  have hN := N_pos
  induction n with
  | zero => intro box h; exact Bool.noConfusion h
  | succ n ih =>
    intro box h x hx
    rw [check_succ] at h
    cases h1 : List.any excuses fun c => ble (.ofNat (nat_lit 1)) (evalD box pars c).v.lo with
    | true =>
      obtain ⟨c, hc, hb⟩ := List.any_eq_true.mp h1
      refine Or.inl ⟨c, hc, ?_⟩
      have hlo : (1 : ℝ) ≤ (evalD box pars c).v.lo := by exact_mod_cast (ble_iff _ _).mp hb
      have := (in_evalD hx hq c).1
      by_contra hneg
      have : c.eval x q * N ≤ 0 := mul_nonpos_of_nonpos_of_nonneg (not_lt.mp hneg) hN.le
      linarith
    | false =>
      rw [h1, cond_false] at h
      cases h2 : ble m (evalD box pars f).v.lo with
      | true =>
        refine Or.inr ?_
        have hlo : (m : ℝ) ≤ (evalD box pars f).v.lo := by exact_mod_cast (ble_iff _ _).mp h2
        rw [div_le_iff₀ hN]
        exact hlo.trans (in_evalD hx hq f).1
      | false =>
        rw [h2, cond_false] at h
        simp only at h
        cases h3 : ble (zadd (zmul m (.ofNat N)) (total (slacks (evalD box pars f).g box (nat_lit 0)))) (zmul (evalD (centre box) pars f).v.lo (.ofNat N)) with
        | true =>
          refine Or.inr ?_
          have hle := (ble_iff _ _).mp h3
          rw [zadd_eq, zmul_eq, zmul_eq] at hle
          have hle' : (m : ℝ) * N + total (slacks (evalD box pars f).g box 0) ≤ (evalD (centre box) pars f).v.lo * N := by exact_mod_cast hle
          have hmv := mean_value hx (fun y => f.eval y q) (evalD box pars f) _ (fun c hc => (in_evalD hc hq f).1)
            fun p v t h1 h2 h3 => hasDerivAt_evalD h1 h2 h3 hq f
          rw [div_le_iff₀ hN]
          have : (m : ℝ) * N ≤ f.eval x q * N * N := by linarith
          exact le_of_mul_le_mul_right this hN
        | false =>
          rw [h3, cond_false, forceN_eq, forceL_eq, forceL_eq] at h
          generalize worst (slacks (evalD box pars f).g box (nat_lit 0)) (nat_lit 0) (nat_lit 0) (.ofNat (nat_lit 0)) = j at h
          cases hl : check f excuses m pars n (setNth ⟨(nth box j).lo, mid (nth box j)⟩ box j) with
          | false => rw [hl] at h; exact Bool.noConfusion h
          | true =>
            rw [hl, cond_true] at h
            rcases le_total (x j * N) (mid (nth box j)) with hj | hj
            · refine ih hl fun i => ?_
              rw [nth_setNth]
              split
              · next hi => rw [hi.1]; exact ⟨(hx j).1, hj⟩
              · exact hx i
            · refine ih h fun i => ?_
              rw [nth_setNth]
              split
              · next hi => rw [hi.1]; exact ⟨hj, (hx j).2⟩
              · exact hx i

/-! ## Functions of quotients -/

theorem in_inv {a : I} {x : ℝ} (h : In a x) (hlo : ble (.ofNat (nat_lit 1)) a.lo = true) : 0 < x ∧ In (inv a) (1 / x) := by
  have hN := N_pos
  have h1 : (1 : Int) ≤ a.lo := (ble_iff _ _).mp hlo
  have h1' : (1 : ℝ) ≤ a.lo := by exact_mod_cast h1
  have hx : 0 < x := by
    by_contra hneg
    have : x * N ≤ 0 := mul_nonpos_of_nonpos_of_nonneg (not_lt.mp hneg) hN.le
    linarith [h.1]
  have hle : a.lo ≤ a.hi := by exact_mod_cast h.1.trans h.2
  have elo : ((a.lo.toNat : ℕ) : ℝ) = a.lo := by
    have : ((a.lo.toNat : ℕ) : Int) = a.lo := Int.toNat_of_nonneg (by omega)
    exact_mod_cast congrArg (Int.cast : Int → ℝ) this
  have ehi : ((a.hi.toNat : ℕ) : ℝ) = a.hi := by
    have : ((a.hi.toNat : ℕ) : Int) = a.hi := Int.toNat_of_nonneg (by omega)
    exact_mod_cast congrArg (Int.cast : Int → ℝ) this
  have e : 1 / x * N = N * N / (x * N) := by field_simp
  refine ⟨hx, ?_, ?_⟩
  · simp only [inv, mk_eq, Int.ofNat_eq_natCast, Int.cast_natCast]
    refine (div_le_real _ _).trans ?_
    rw [mul_cast, ehi, e]
    exact div_le_div_of_nonneg_left (by positivity) (by positivity) h.2
  · simp only [inv, mk_eq, Int.ofNat_eq_natCast, Int.cast_natCast]
    refine le_trans ?_ (le_cdiv_real _ (by omega))
    rw [mul_cast, elo, e]
    exact div_le_div_of_nonneg_left (by positivity) (by linarith) h.1

theorem nth_tab (g : ℕ → I) (m : ℕ) : ∀ j i, i < m → nth (tab g m j) i = g (j + i) := by
  induction m with
  | zero => intro j i h; omega
  | succ m ih =>
    intro j i h
    cases i with
    | zero => rfl
    | succ i =>
      have := ih (j + 1) i (by omega)
      rw [show j + (i + 1) = j + 1 + i by ring, ← this]
      rfl

/-- The `i`-th quotient. -/
noncomputable def quotAt (x : ℕ → ℝ) : List (E × E) → ℕ → ℝ
  | [], _ => 0
  | q :: _, 0 => q.1.eval x 0 / q.2.eval x 0
  | _ :: qs, i + 1 => quotAt x qs i

theorem mem_nil : Mem [] (0 : ℕ → ℝ) := fun _ => in_zero

/-- What `env` has to be. -/
def EnvFor (box : List I) (m : ℕ) (qs : List (E × E)) (env : List DI) : Prop :=
  (∀ x, Mem box x → ∀ i, In (nthD env i).v (quotAt x qs i)) ∧
  ∀ (p : ℝ → ℕ → ℝ) (v : ℕ → ℝ) (t : ℝ), (∀ i, HasDerivAt (fun s => p s i) (v i) t) → (∀ i, m ≤ i → v i = 0) → Mem box (p t) →
    ∀ i, ∃ g : ℕ → ℝ, (∀ j < m, In ((nthD env i).g j) (g j)) ∧ HasDerivAt (fun s => quotAt (p s) qs i) (∑ j ∈ Finset.range m, g j * v j) t

theorem withEnv_cons (box : List I) (m : ℕ) (q : E × E) (qs : List (E × E)) (k : List DI → Bool) : withEnv box m (q :: qs) k =
    (fun n d : DI => cond (ble (.ofNat (nat_lit 1)) d.v.lo)
      (force (inv d.v) fun r => force (mul n.v r) fun v => forceL (tab (quot n d r v).g m (nat_lit 0)) fun gs => withEnv box m qs fun xs => k (⟨v, nth gs⟩ :: xs)) false)
    (evalD box [] q.1) (evalD box [] q.2) := by delta withEnv; with_reducible rfl

theorem withEnv_sound {box : List I} {m : ℕ} (qs : List (E × E)) : ∀ {k : List DI → Bool}, withEnv box m qs k = true → ∃ env, k env = true ∧ EnvFor box m qs env := by
  induction qs with
  | nil =>
    intro k h
    refine ⟨[], h, fun x _ i => in_zero, fun p v t _ _ _ i => ⟨fun _ => 0, fun j _ => in_zero, ?_⟩⟩
    refine (hasDerivAt_const t (0 : ℝ)).congr_deriv ?_
    simp
  | cons q qs ih =>
    intro k h
    rw [withEnv_cons] at h
    simp only at h
    cases hb : ble (.ofNat (nat_lit 1)) (evalD box [] q.2).v.lo with
    | false => rw [hb] at h; exact Bool.noConfusion h
    | true =>
      rw [hb, cond_true, force_eq, force_eq, forceL_eq] at h
      obtain ⟨env, hk, h1, h2⟩ := ih h
      refine ⟨_, hk, fun x hx i => ?_, fun p v t hp hv hx i => ?_⟩
      · cases i with
        | zero =>
          have hd := in_inv (in_evalD hx mem_nil q.2) hb
          have := in_mul (in_evalD hx mem_nil q.1) hd.2
          rw [mul_one_div] at this
          exact this
        | succ i => exact h1 x hx i
      · cases i with
        | zero =>
          obtain ⟨gn, hgn, hdn⟩ := hasDerivAt_evalD hp hv hx mem_nil q.1
          obtain ⟨gd, hgd, hdd⟩ := hasDerivAt_evalD hp hv hx mem_nil q.2
          have hd := in_inv (in_evalD hx mem_nil q.2) hb
          have hq := in_mul (in_evalD hx mem_nil q.1) hd.2
          have hne := hd.1.ne'
          refine ⟨fun j => (gn j - q.1.eval (p t) 0 * (1 / q.2.eval (p t) 0) * gd j) * (1 / q.2.eval (p t) 0), fun j hj => ?_, ?_⟩
          · have e : (nthD (⟨mul (evalD box [] q.1).v (inv (evalD box [] q.2).v),
                nth (tab (quot (evalD box [] q.1) (evalD box [] q.2) (inv (evalD box [] q.2).v) (mul (evalD box [] q.1).v (inv (evalD box [] q.2).v))).g m 0)⟩ :: env) 0).g j
                = (quot (evalD box [] q.1) (evalD box [] q.2) (inv (evalD box [] q.2).v) (mul (evalD box [] q.1).v (inv (evalD box [] q.2).v))).g j := by
              have := nth_tab (quot (evalD box [] q.1) (evalD box [] q.2) (inv (evalD box [] q.2).v) (mul (evalD box [] q.1).v (inv (evalD box [] q.2).v))).g m 0 j hj
              rw [Nat.zero_add] at this
              exact this
            refine Eq.mpr (congrArg (fun I => In I _) e) ?_
            exact in_mul (in_sub (hgn j hj) (in_mul hq (hgd j hj))) hd.2
          · refine (hdn.div hdd hne).congr_deriv ?_
            rw [Finset.sum_mul, Finset.mul_sum, ← Finset.sum_sub_distrib, div_eq_mul_inv, Finset.sum_mul]
            refine Finset.sum_congr rfl fun j _ => ?_
            field_simp
        | succ i => exact h2 p v t hp hv hx i

theorem checkQ_succ (qs : List (E × E)) (f : E) (M : Int) (m n : ℕ) (box : List I) : checkQ qs f M m (n + 1) box = withEnv box m qs fun env =>
    (fun r : DI => cond (ble M r.v.lo) true
      ((fun s : List Int => cond (withEnv (centre box) (nat_lit 0) qs fun cenv =>
          ble (zadd (zmul M (.ofNat N)) (total s)) (zmul (evalE (nthD cenv) [] f).v.lo (.ofNat N))) true
        (forceN (worst s (nat_lit 0) (nat_lit 0) (.ofNat (nat_lit 0))) fun j =>
          cond (forceL (setNth ⟨(nth box j).lo, mid (nth box j)⟩ box j) (checkQ qs f M m n))
            (forceL (setNth ⟨mid (nth box j), (nth box j).hi⟩ box j) (checkQ qs f M m n)) false))
      (slacks r.g box (nat_lit 0)))) (evalE (nthD env) [] f) := by delta checkQ; with_reducible rfl

theorem length_setNth (b : I) (l : List I) : ∀ j, (setNth b l j).length = l.length := by
  induction l with
  | nil => intro j; rfl
  | cons a l ih =>
    intro j
    cases j with
    | zero => rfl
    | succ j => exact congrArg Nat.succ (ih j)

theorem checkQ_sound {qs : List (E × E)} {f : E} {M : Int} {m : ℕ} (n : ℕ) : ∀ {box : List I}, box.length = m → checkQ qs f M m n box = true →
    ∀ {x : ℕ → ℝ}, Mem box x → (M : ℝ) / N ≤ f.eval (quotAt x qs) 0 := by
  have hN := N_pos
  induction n with
  | zero => intro box _ h; exact Bool.noConfusion h
  | succ n ih =>
    intro box hlen h x hx
    rw [checkQ_succ] at h
    obtain ⟨env, h, henv⟩ := withEnv_sound qs h
    simp only at h
    cases h2 : ble M (evalE (nthD env) [] f).v.lo with
    | true =>
      have hlo : (M : ℝ) ≤ (evalE (nthD env) [] f).v.lo := by exact_mod_cast (ble_iff _ _).mp h2
      rw [div_le_iff₀ hN]
      exact hlo.trans (in_evalE (henv.1 x hx) mem_nil f).1
    | false =>
      rw [h2, cond_false] at h
      cases h3 : withEnv (centre box) (nat_lit 0) qs fun cenv => ble (zadd (zmul M (.ofNat N)) (total (slacks (evalE (nthD env) [] f).g box (nat_lit 0))))
          (zmul (evalE (nthD cenv) [] f).v.lo (.ofNat N)) with
      | true =>
        obtain ⟨cenv, h3, hcenv⟩ := withEnv_sound qs h3
        have hle := (ble_iff _ _).mp h3
        rw [zadd_eq, zmul_eq, zmul_eq] at hle
        have hle' : (M : ℝ) * N + total (slacks (evalE (nthD env) [] f).g box 0) ≤ (evalE (nthD cenv) [] f).v.lo * N := by exact_mod_cast hle
        have hmv := mean_value hx (fun y => f.eval (quotAt y qs) 0) (evalE (nthD env) [] f) _ (fun c hc => (in_evalE (hcenv.1 c hc) mem_nil f).1)
          fun p v t h1 h2 h3 => hasDerivAt_evalE (p := fun s => quotAt (p s) qs) (fun i => by rw [hlen]; exact henv.2 p v t h1 (by rw [← hlen]; exact h2) h3 i) (henv.1 _ h3) mem_nil f
        rw [div_le_iff₀ hN]
        have : (M : ℝ) * N ≤ f.eval (quotAt x qs) 0 * N * N := by linarith
        exact le_of_mul_le_mul_right this hN
      | false =>
        rw [h3, cond_false, forceN_eq, forceL_eq, forceL_eq] at h
        generalize worst (slacks (evalE (nthD env) [] f).g box (nat_lit 0)) (nat_lit 0) (nat_lit 0) (.ofNat (nat_lit 0)) = j at h
        cases hl : checkQ qs f M m n (setNth ⟨(nth box j).lo, mid (nth box j)⟩ box j) with
        | false => rw [hl] at h; exact Bool.noConfusion h
        | true =>
          rw [hl, cond_true] at h
          rcases le_total (x j * N) (mid (nth box j)) with hj | hj
          · refine ih (by rw [length_setNth, hlen]) hl fun i => ?_
            rw [nth_setNth]
            split
            · next hi => rw [hi.1]; exact ⟨(hx j).1, hj⟩
            · exact hx i
          · refine ih (by rw [length_setNth, hlen]) h fun i => ?_
            rw [nth_setNth]
            split
            · next hi => rw [hi.1]; exact ⟨hj, (hx j).2⟩
            · exact hx i

/-! ## Putting boxes together -/

/-- `P` holds on the box. -/
def OnBox (P : (ℕ → ℝ) → Prop) (box : List I) : Prop := ∀ x, Mem box x → P x

/-- Two boxes that share a face. -/
theorem OnBox.glue {P : (ℕ → ℝ) → Prop} {box : List I} (j : ℕ) (c : Int) (h1 : OnBox P (setNth ⟨(nth box j).lo, c⟩ box j)) (h2 : OnBox P (setNth ⟨c, (nth box j).hi⟩ box j)) :
    OnBox P box := by
  intro x hx
  rcases le_total (x j * N) c with hj | hj
  · refine h1 x fun i => ?_
    rw [nth_setNth]
    split
    · next hi => rw [hi.1]; exact ⟨(hx j).1, hj⟩
    · exact hx i
  · refine h2 x fun i => ?_
    rw [nth_setNth]
    split
    · next hi => rw [hi.1]; exact ⟨hj, (hx j).2⟩
    · exact hx i

/-- `f` is at least `m` units. -/
def Above (f : E) (m : Int) (x : ℕ → ℝ) : Prop := (m : ℝ) / N ≤ f.eval x 0

theorem above_of_check {f : E} {m : Int} {n : ℕ} {box : List I} (h : check f [] m [] n box = true) : OnBox (Above f m) box := by
  intro x hx
  rcases check_sound mem_nil n h hx with ⟨c, hc, _⟩ | h
  · simp at hc
  · exact h

/-- `c` is positive or `f` is at least `m` units, for any parameters in the given intervals. -/
def AboveOr (f c : E) (pars : List I) (m : Int) (x : ℕ → ℝ) : Prop := ∀ q, Mem pars q → 0 < c.eval x q ∨ (m : ℝ) / N ≤ f.eval x q

theorem aboveOr_of_check {f c : E} {pars : List I} {m : Int} {n : ℕ} {box : List I} (h : check f [c] m pars n box = true) : OnBox (AboveOr f c pars m) box := by
  intro x hx q hq
  rcases check_sound hq n h hx with ⟨c', hc, h⟩ | h
  · rw [List.mem_singleton.mp hc] at h
    exact Or.inl h
  · exact Or.inr h

/-- `f` is at least `m` units, for any parameters in the given intervals. -/
def AbovePar (f : E) (pars : List I) (m : Int) (x : ℕ → ℝ) : Prop := ∀ q, Mem pars q → (m : ℝ) / N ≤ f.eval x q

theorem abovePar_of_check {f : E} {pars : List I} {m : Int} {n : ℕ} {box : List I} (h : check f [] m pars n box = true) : OnBox (AbovePar f pars m) box := by
  intro x hx q hq
  rcases check_sound hq n h hx with ⟨c, hc, _⟩ | h
  · simp at hc
  · exact h

/-- `f` is at least `m` units at the quotients. -/
def AboveQ (qs : List (E × E)) (f : E) (m : Int) (x : ℕ → ℝ) : Prop := (m : ℝ) / N ≤ f.eval (quotAt x qs) 0

theorem aboveQ_of_check {qs : List (E × E)} {f : E} {M : Int} {n : ℕ} {box : List I} (h : checkQ qs f M box.length n box = true) :
    OnBox (AboveQ qs f M) box := fun _ hx => checkQ_sound n rfl h hx

/-! ## Points -/

/-- The point with the given coordinates. -/
def pt (l : List ℝ) : ℕ → ℝ := fun i => l.getD i 0

theorem mem_pt {box : List I} {l : List ℝ} (h : List.Forall₂ In box l) : Mem box (pt l) := by
  induction h with
  | nil => intro i; exact in_zero
  | cons ha _ ih =>
    intro i
    cases i with
    | zero => exact ha
    | succ i => exact ih i

theorem N_eq : (N : ℝ) = 10 ^ 15 := by
  unfold N
  norm_num

theorem in_of {lo hi : Int} {x : ℝ} (h1 : (lo : ℝ) ≤ x * 10 ^ 15) (h2 : x * 10 ^ 15 ≤ hi) : In ⟨lo, hi⟩ x := by
  unfold In
  rw [N_eq]
  exact ⟨h1, h2⟩

end Mfpml.IA
