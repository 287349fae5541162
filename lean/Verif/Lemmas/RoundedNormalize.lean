import Verif.Model.RoundedNormalize
import Verif.Lemmas.RoundedKernel
import Verif.Model.LinAlg
import Mathlib.Tactic.IntervalCases

/-!
# Means and standard deviations in floating-point arithmetic
-/

namespace Mfpml.Rounded

variable {p : ℕ} {emin : ℤ} {R : Rounding p emin} {n : ℕ}

theorem sumOf_exists : ∀ l : List (Fl R), ∃ s, SumOf R l s
  | [] => ⟨0, .nil⟩
  | a :: l => by
    obtain ⟨s, hs⟩ := sumOf_exists l
    exact ⟨a + s, SumOf.add (l := [a]) (.single a) hs⟩

theorem mean_exists (y : Fin n → Fl R) : ∃ m, IsMean y m := by
  obtain ⟨s, hs⟩ := sumOf_exists (List.ofFn y)
  exact ⟨_, s, hs, rfl⟩

theorem std_exists (y : Fin n → Fl R) : ∃ s, IsStd y s := by
  obtain ⟨c, hc⟩ := mean_exists y
  obtain ⟨v, hv⟩ := mean_exists fun i => (y i - c) * (y i - c)
  exact ⟨_, c, v, hc, hv, rfl⟩

theorem normalizedOut_exists (y : Fin n → Fl R) : ∃ z, IsNormalizedOut y z := by
  obtain ⟨m, hm⟩ := mean_exists y
  obtain ⟨s, hs⟩ := std_exists y
  exact ⟨_, m, s, hm, hs, fun _ => rfl⟩

/-- A sum of equal numbers is exact if all their multiples are floats. -/
theorem SumOf.const {c : Fl R} {l : List (Fl R)} {s : Fl R} (h : SumOf R l s) :
    (∀ a ∈ l, a = c) → (∀ k : ℕ, k ≤ l.length → IsFloat p emin (k * c.val)) → s.val = l.length * c.val := by
  induction h with
  | nil => intro _ _; change (0 : ℝ) = _; simp
  | single a => intro h _; simp [h a (by simp)]
  | @add l l' a b _ _ ih ih' =>
    intro h hk
    have h1 := ih (fun x hx => h x (by simp [hx])) (fun k hk' => hk k (by rw [List.length_append]; omega))
    have h2 := ih' (fun x hx => h x (by simp [hx])) (fun k hk' => hk k (by rw [List.length_append]; omega))
    change R.fl (a.val + b.val) = _
    have h3 : a.val + b.val = ((l ++ l').length : ℕ) * c.val := by rw [h1, h2, List.length_append]; push_cast; ring
    rw [h3]
    exact R.fl_of_isFloat (hk _ le_rfl)
  | perm hp _ ih =>
    intro h hk
    rw [← hp.length_eq]
    exact ih (fun x hx => h x (hp.mem_iff.mp hx)) (fun k hk' => hk k (by rw [← hp.length_eq]; exact hk'))

/-- A sum of numbers that are zero or equal to one number is a multiple of that number if all its multiples are floats. -/
theorem SumOf.multiples {c : ℝ} {l : List (Fl R)} {s : Fl R} (h : SumOf R l s) :
    (∀ a ∈ l, a.val = 0 ∨ a.val = c) → (∀ k : ℕ, k ≤ l.length → IsFloat p emin (k * c)) → ∃ k : ℕ, k ≤ l.length ∧ s.val = k * c := by
  induction h with
  | nil => intro _ _; exact ⟨0, le_rfl, by simp only [Nat.cast_zero, zero_mul]; rfl⟩
  | single a =>
    intro h _
    rcases h a (by simp) with h | h
    · exact ⟨0, by simp, by simp [h]⟩
    · exact ⟨1, by simp, by simp [h]⟩
  | @add l l' a b _ _ ih ih' =>
    intro h hk
    obtain ⟨k1, h1, e1⟩ := ih (fun x hx => h x (by simp [hx])) (fun k hk' => hk k (by rw [List.length_append]; omega))
    obtain ⟨k2, h2, e2⟩ := ih' (fun x hx => h x (by simp [hx])) (fun k hk' => hk k (by rw [List.length_append]; omega))
    have h3 : k1 + k2 ≤ (l ++ l').length := by rw [List.length_append]; omega
    refine ⟨k1 + k2, h3, ?_⟩
    change R.fl (a.val + b.val) = _
    rw [e1, e2, ← add_mul, ← Nat.cast_add]
    exact R.fl_of_isFloat (hk _ h3)
  | perm hp _ ih =>
    intro h hk
    rw [← hp.length_eq] at hk ⊢
    exact ih (fun x hx => h x (hp.mem_iff.mp hx)) hk

/-- The mean of equal numbers is exact if all their multiples are floats and the count is. -/
theorem mean_const (hn : 0 < n) {y : Fin n → Fl R} {c m : Fl R} (h : IsMean y m) (hy : ∀ i, y i = c) (hk : ∀ k : ℕ, k ≤ n → IsFloat p emin (k * c.val))
    (hf : c.val = 0 ∨ IsFloat p emin n) : m = c := by
  obtain ⟨s, hs, rfl⟩ := h
  have h1 := hs.const (c := c) (by simpa [List.mem_ofFn] using hy) (by rw [List.length_ofFn]; exact hk)
  rw [List.length_ofFn] at h1
  refine Fl.val_injective ?_
  change R.fl (s.val / R.fl n) = c.val
  rw [h1]
  rcases hf with hf | hf
  · rw [hf, mul_zero, zero_div, R.fl_of_isFloat isFloat_zero]
  · have hn' : (n : ℝ) ≠ 0 := by exact_mod_cast hn.ne'
    rw [R.fl_of_isFloat hf, mul_div_cancel_left₀ _ hn', R.fl_of_isFloat c.isFloat]

/-- Equal numbers with exact multiples: the standard deviation is zero. -/
theorem std_const (hn : 0 < n) {y : Fin n → Fl R} {c s : Fl R} (h : IsStd y s) (hy : ∀ i, y i = c) (hk : ∀ k : ℕ, k ≤ n → IsFloat p emin (k * c.val))
    (hf : c.val = 0 ∨ IsFloat p emin n) : s.val = 0 := by
  obtain ⟨m, v, hm, hv, rfl⟩ := h
  have h1 : m = c := mean_const hn hm hy hk hf
  have h2 : ∀ i, (y i - m) * (y i - m) = (0 : Fl R) := fun i => by
    refine Fl.val_injective ?_
    change R.fl (R.fl ((y i).val - m.val) * R.fl ((y i).val - m.val)) = 0
    rw [hy i, h1, sub_self, R.fl_of_isFloat isFloat_zero, mul_zero, R.fl_of_isFloat isFloat_zero]
  have h3 : v = 0 := mean_const hn hv h2 (fun k _ => by change IsFloat p emin (k * 0); rw [mul_zero]; exact isFloat_zero) (.inl rfl)
  change R.fl (Real.sqrt v.val) = 0
  rw [h3]
  change R.fl (Real.sqrt 0) = 0
  rw [Real.sqrt_zero, R.fl_of_isFloat isFloat_zero]

/-- A sum of nonnegative numbers is at least each of them. -/
theorem SumOf.ge {l : List (Fl R)} {s : Fl R} (h : SumOf R l s) : (∀ a ∈ l, 0 ≤ a.val) → 0 ≤ s.val ∧ ∀ a ∈ l, a.val ≤ s.val := by
  induction h with
  | nil => intro _; exact ⟨le_rfl, by simp⟩
  | single a => intro h; exact ⟨h a (by simp), by simp⟩
  | @add l l' a b _ _ ih ih' =>
    intro h
    obtain ⟨h1, h2⟩ := ih fun x hx => h x (by simp [hx])
    obtain ⟨h3, h4⟩ := ih' fun x hx => h x (by simp [hx])
    have h5 : a.val ≤ (a + b).val := R.le_fl a.isFloat (by linarith)
    have h6 : b.val ≤ (a + b).val := R.le_fl b.isFloat (by linarith)
    refine ⟨h1.trans h5, fun x hx => ?_⟩
    rcases List.mem_append.mp hx with hx | hx
    · exact (h2 x hx).trans h5
    · exact (h4 x hx).trans h6
  | perm hp _ ih =>
    intro h
    obtain ⟨h1, h2⟩ := ih fun x hx => h x (hp.mem_iff.mp hx)
    exact ⟨h1, fun x hx => h2 x (hp.mem_iff.mpr hx)⟩

/-- The standard deviation is not zero if two numbers differ enough for the squares not to underflow. -/
theorem std_pos (hp : 1 ≤ p) (he : emin ≤ 0) {y : Fin n → Fl R} {s : Fl R} (h : IsStd y s) {f : ℤ} {k : ℕ} (hn : n ≤ 2 ^ k) (hf : emin + k ≤ 2 * f) {i j : Fin n}
    (hij : 2 ^ (f + 1) ≤ |(y i).val - (y j).val|) : 0 < s.val := by
  obtain ⟨c, v, -, ⟨S, hS, rfl⟩, rfl⟩ := h
  have hef : emin ≤ f := by omega
  obtain ⟨l, hl⟩ : ∃ l, (2 : ℝ) ^ f ≤ |(y l).val - c.val| := by
    by_contra hc
    push Not at hc
    have h1 := hc i
    have h2 := hc j
    have h3 : |(y i).val - (y j).val| ≤ |(y i).val - c.val| + |(y j).val - c.val| := by
      rw [abs_sub_comm (y j).val]; exact abs_sub_le _ _ _
    rw [two_zpow_succ] at hij
    linarith
  have hdev : (2 : ℝ) ^ f ≤ |(y l - c).val| := two_zpow_le_abs_fl R hp hef hl
  have hsq : (2 : ℝ) ^ (2 * f) ≤ ((y l - c) * (y l - c)).val := by
    refine R.le_fl (isFloat_two_zpow hp (by omega)) ?_
    rw [← abs_mul_abs_self (y l - c).val, two_mul, zpow_add₀ two_ne_zero]
    exact mul_le_mul hdev hdev (two_zpow_pos f).le (abs_nonneg _)
  have hsum := (hS.ge (by
    intro a ha
    obtain ⟨q, rfl⟩ := (List.mem_ofFn' _ _).mp ha
    exact R.le_fl isFloat_zero (mul_self_nonneg _))).2 _ ((List.mem_ofFn' _ _).mpr ⟨l, rfl⟩)
  have hn0 : 0 < n := l.pos
  have hcnt : R.fl n ≤ 2 ^ (k : ℤ) := by
    refine R.fl_le (isFloat_two_zpow hp (by omega)) ?_
    rw [zpow_natCast]; exact_mod_cast hn
  have hcnt0 : 0 < R.fl n := by
    have : (1 : ℝ) ≤ R.fl n := R.le_fl (isFloat_one hp he) (by exact_mod_cast hn0)
    linarith
  have hv : (2 : ℝ) ^ emin ≤ (S / Fl.ofReal R n).val := by
    refine R.le_fl (isFloat_two_zpow hp le_rfl) ?_
    change (2 : ℝ) ^ emin ≤ S.val / R.fl n
    rw [le_div_iff₀ hcnt0]
    calc (2 : ℝ) ^ emin * R.fl n ≤ 2 ^ emin * 2 ^ (k : ℤ) := mul_le_mul_of_nonneg_left hcnt (two_zpow_pos _).le
      _ = 2 ^ (emin + k) := by rw [zpow_add₀ two_ne_zero]
      _ ≤ 2 ^ (2 * f) := zpow_le_zpow_right₀ (by norm_num) hf
      _ ≤ S.val := hsq.trans hsum
  have hs : (2 : ℝ) ^ emin ≤ R.fl (Real.sqrt (S / Fl.ofReal R n).val) := by
    refine R.le_fl (isFloat_two_zpow hp le_rfl) (Real.le_sqrt_of_sq_le ?_)
    have h1 : (2 : ℝ) ^ emin ≤ 1 := zpow_le_one_of_nonpos₀ (by norm_num) he
    have h2 := two_zpow_pos emin
    nlinarith
  exact lt_of_lt_of_le (two_zpow_pos emin) hs

/-- Numbers below half the least positive float are rounded to zero. -/
theorem fl_tiny (R : Rounding p emin) {x : ℝ} (h : 2 * |x| < 2 ^ emin) : R.fl x = 0 := by
  by_contra hc
  obtain ⟨k, hk⟩ := (R.isFloat x).multiple
  have hk0 : k ≠ 0 := fun h0 => hc (by rw [hk, h0]; simp)
  have h1 : (1 : ℝ) ≤ |(k : ℝ)| := by exact_mod_cast Int.one_le_abs hk0
  have h2 : (2 : ℝ) ^ emin ≤ |R.fl x| := by
    rw [hk, abs_mul, abs_of_pos (two_zpow_pos emin)]
    nlinarith [two_zpow_pos emin]
  have h3 := R.nearest x 0 isFloat_zero
  rw [sub_zero] at h3
  have h4 := abs_sub_abs_le_abs_sub (R.fl x) x
  rw [abs_sub_comm] at h4
  linarith

/-- Three equal numbers, added in any order. -/
theorem SumOf.three {c : Fl R} {l : List (Fl R)} {s : Fl R} (hc2 : IsFloat p emin (2 * c.val)) (h : SumOf R l s) : (∀ a ∈ l, a = c) → l.length ≤ 3 →
    s.val = R.fl (l.length * c.val) := by
  induction h with
  | nil => intro _ _; change (0 : ℝ) = _; simp [R.fl_of_isFloat isFloat_zero]
  | single a => intro h _; simp [h a (by simp), R.fl_of_isFloat c.isFloat]
  | @add l l' a b _ _ ih ih' =>
    intro h hl
    rw [List.length_append] at hl ⊢
    have h1 := ih (fun x hx => h x (by simp [hx])) (by omega)
    have h2 := ih' (fun x hx => h x (by simp [hx])) (by omega)
    change R.fl (a.val + b.val) = _
    rw [h1, h2]
    generalize l.length = q at hl ⊢
    generalize l'.length = q' at hl ⊢
    have e0 := R.fl_of_isFloat (isFloat_zero (p := p) (emin := emin))
    have e1 := R.fl_of_isFloat c.isFloat
    have e2 := R.fl_of_isFloat hc2
    have key : ∀ x, R.fl (R.fl x) = R.fl x := fun x => R.fl_of_isFloat (R.isFloat x)
    rcases q with _ | _ | _ | _ | q <;> rcases q' with _ | _ | _ | _ | q' <;> first | omega | skip
    all_goals (try simp [e0, e1, e2, key])
    all_goals (try congr 1; ring)
    · rw [mul_comm, e2, mul_comm]
  | perm hp _ ih =>
    intro h hl
    rw [← hp.length_eq] at hl ⊢
    exact ih (fun x hx => h x (hp.mem_iff.mp hx)) hl

/-- The computed mean: sums in any order, divided by the number of terms. -/
theorem mean_acc (hp : 1 ≤ p) (he : emin ≤ 0) (hn : 0 < n) (hnp : n < 2 ^ p) {y : Fin n → Fl R} {m : Fl R} (h : IsMean y m) {x w : Fin n → ℝ} {k : ℕ}
    (hx : ∀ i, Rounded.Acc (2 ^ (-(p : ℤ))) k (w i) (x i) (y i).val ∧ |x i| + 2 ^ (emin + p - 1) ≤ w i) :
    Rounded.Acc (2 ^ (-(p : ℤ))) (k + n + 1) ((∑ i, w i) / n) ((∑ i, x i) / n) m.val := by
  obtain ⟨s, hs, rfl⟩ := h
  have hu : (0 : ℝ) < 2 ^ (-(p : ℤ)) := two_zpow_pos _
  have hn' : (0 : ℝ) < n := by exact_mod_cast hn
  have hfn : IsFloat p emin n := ⟨n, 0, by rw [abs_of_nonneg (by positivity)]; exact_mod_cast hnp, he, by simp⟩
  have hd := (hs.dot hp he).acc hp (k := k) (List.ofFn fun i => (x i, w i)) (by
    rw [List.map_ofFn]
    refine forall₂_ofFn fun i => ⟨?_, (hx i).2⟩
    simpa using (hx i).1)
  rw [List.length_map, List.length_ofFn, List.map_ofFn, List.map_ofFn, List.sum_ofFn, List.sum_ofFn] at hd
  obtain ⟨h1, h2, -⟩ := hd
  have h3 : Rounded.Acc (2 ^ (-(p : ℤ))) (k + n) ((∑ i, w i) / n) ((∑ i, x i) / n) (s.val / n) := by
    unfold Rounded.Acc at h1 ⊢
    rw [← sub_div, abs_div, abs_of_pos hn', mul_div_assoc']
    exact div_le_div_of_nonneg_right h1 hn'.le
  have h4 := Acc.fl hp R h3 (by
    rw [abs_div, abs_of_pos hn', div_add' _ _ _ hn'.ne']
    refine div_le_div_of_nonneg_right ?_ hn'.le
    calc |∑ i, x i| + 2 ^ (emin + p - 1) * n ≤ (∑ i, |x i|) + ∑ _i : Fin n, 2 ^ (emin + p - 1) := by
            rw [Finset.sum_const, Finset.card_univ, Fintype.card_fin, nsmul_eq_mul, mul_comm (n : ℝ)]
            linarith [Finset.abs_sum_le_sum_abs x Finset.univ]
      _ = ∑ i, (|x i| + 2 ^ (emin + p - 1)) := by rw [Finset.sum_add_distrib]
      _ ≤ ∑ i, w i := Finset.sum_le_sum fun i _ => (hx i).2)
  change Rounded.Acc _ _ _ _ (R.fl (s.val / R.fl n))
  rw [R.fl_of_isFloat hfn]
  exact h4

/-- Error of a square root. -/
theorem sqrt_acc {a δ η v : ℝ} (ha : 0 ≤ a) (hδ : 0 ≤ δ) (hη : 0 ≤ η) (hv : 0 ≤ v) (h : |v - a ^ 2| ≤ η * (a + δ) ^ 2) : |Real.sqrt v - a| ≤ η * (a + δ) + δ := by
  obtain ⟨h1, h2⟩ := abs_le.mp h
  have hr : 0 ≤ η * (a + δ) := mul_nonneg hη (by linarith)
  rw [abs_le]
  constructor
  · rcases le_total (η * (a + δ) + δ) a with hle | hle
    · have : a - (η * (a + δ) + δ) ≤ Real.sqrt v := by
        refine Real.le_sqrt_of_sq_le ?_
        have h3 : (a - (η * (a + δ) + δ)) ^ 2 ≤ a * (a - (η * (a + δ) + δ)) := by nlinarith
        have h4 : δ * (η * (a + δ)) ≤ δ * a := mul_le_mul_of_nonneg_left (by linarith) hδ
        nlinarith
      linarith
    · have := Real.sqrt_nonneg v
      linarith
  · have : Real.sqrt v ≤ a + (η * (a + δ) + δ) := by
      refine Real.sqrt_le_iff.mpr ⟨by linarith, ?_⟩
      nlinarith [mul_nonneg hr (by linarith : (0 : ℝ) ≤ a + δ), mul_nonneg ha hδ, sq_nonneg (η * (a + δ)), mul_nonneg ha hr, mul_nonneg hδ hr, sq_nonneg δ]
    linarith

/-- The computed variance is near the mean square deviation from the computed mean. -/
theorem variance_acc (hp : 1 ≤ p) (he : emin ≤ 0) (hn : 0 < n) (hnp : n < 2 ^ p) {y : Fin n → Fl R} {c v : Fl R} (h : IsMean (fun i => (y i - c) * (y i - c)) v) :
    |v.val - (∑ i, ((y i).val - c.val) ^ 2) / n| ≤ ((1 + 2 ^ (-(p : ℤ))) ^ (n + 4) - 1) * ((∑ i, ((|(y i).val - c.val| + 2 ^ (emin + p - 1)) ^ 2 + 2 ^ (emin + p - 1))) / n) := by
  have hu : (0 : ℝ) < 2 ^ (-(p : ℤ)) := two_zpow_pos _
  have ht : (0 : ℝ) < 2 ^ (emin + p - 1) := two_zpow_pos _
  have h1 := mean_acc hp he hn hnp h (x := fun i => ((y i).val - c.val) ^ 2) (w := fun i => (|(y i).val - c.val| + 2 ^ (emin + p - 1)) ^ 2 + 2 ^ (emin + p - 1)) (k := 3) fun i => by
    have hw : |((y i).val - c.val) ^ 2| + 2 ^ (emin + p - 1) ≤ (|(y i).val - c.val| + 2 ^ (emin + p - 1)) ^ 2 + 2 ^ (emin + p - 1) := by
      rw [abs_pow]; nlinarith [abs_nonneg ((y i).val - c.val)]
    refine ⟨?_, hw⟩
    have hd : Rounded.Acc (2 ^ (-(p : ℤ))) 1 (|(y i).val - c.val| + 2 ^ (emin + p - 1)) ((y i).val - c.val) (y i - c).val :=
      Acc.fl hp R (acc_exact _ _) le_rfl
    have hm := hd.mul hu.le hd (by linarith) (by linarith)
    rw [← sq, ← sq] at hm
    exact Acc.fl hp R (hm.mono hu.le le_rfl (by linarith) (by positivity)) hw
  unfold Rounded.Acc at h1
  rw [show 3 + n + 1 = n + 4 by omega] at h1
  exact h1

/-- The root mean square is at least the mean size. -/
theorem mean_abs_le (hn : 0 < n) (D : Fin n → ℝ) : (∑ i, |D i|) / n ≤ Real.sqrt ((∑ i, D i ^ 2) / n) := by
  have hn' : (0 : ℝ) < n := by exact_mod_cast hn
  refine Real.le_sqrt_of_sq_le ?_
  have h1 : 0 ≤ ∑ i, (|D i| - (∑ i, |D i|) / n) ^ 2 := Finset.sum_nonneg fun i _ => sq_nonneg _
  have h2 : ∑ i, (|D i| - (∑ i, |D i|) / n) ^ 2 = (∑ i, D i ^ 2) - n * ((∑ i, |D i|) / n) ^ 2 := by
    have : ∀ i, (|D i| - (∑ i, |D i|) / n) ^ 2 = D i ^ 2 - 2 * ((∑ i, |D i|) / n) * |D i| + ((∑ i, |D i|) / n) ^ 2 := fun i => by rw [← sq_abs (D i)]; ring
    rw [Finset.sum_congr rfl fun i _ => this i, Finset.sum_add_distrib, Finset.sum_sub_distrib, ← Finset.mul_sum, Finset.sum_const, Finset.card_univ, Fintype.card_fin, nsmul_eq_mul]
    field_simp
    ring
  rw [le_div_iff₀ hn']
  linarith

/-- The mean square deviation from any number. -/
theorem mean_sq_dev (hn : 0 < n) (y : Fin n → ℝ) (c : ℝ) : (∑ i, (y i - c) ^ 2) / n = GP.std y ^ 2 + (GP.mean y - c) ^ 2 := by
  have hn' : (n : ℝ) ≠ 0 := by exact_mod_cast hn.ne'
  have h0 : ∑ i, y i = n * GP.mean y := by unfold GP.mean; field_simp
  unfold GP.std
  rw [Real.sq_sqrt (div_nonneg (Finset.sum_nonneg fun i _ => sq_nonneg _) (by positivity))]
  have h1 : ∀ i, (y i - c) ^ 2 = (y i - GP.mean y) ^ 2 + 2 * (GP.mean y - c) * y i + (c ^ 2 - GP.mean y ^ 2) := fun i => by ring
  rw [Finset.sum_congr rfl fun i _ => h1 i, Finset.sum_add_distrib, Finset.sum_add_distrib, ← Finset.mul_sum, h0, Finset.sum_const, Finset.card_univ, Fintype.card_fin, nsmul_eq_mul]
  field_simp
  ring

/-- The arithmetic behind `std_acc`. -/
theorem std_arith {η t A M B μ c v ε u s : ℝ} (hη0 : 0 ≤ η) (hη4 : η ≤ 1 / 4) (ht : 0 < t) (hA0 : 0 ≤ A) (hM0 : 0 ≤ M) (hvpos : 0 ≤ v) (hpow : ε ≤ η) (huη : u ≤ η)
    (hV : |v - (A ^ 2 + (μ - c) ^ 2)| ≤ η * (A ^ 2 + (μ - c) ^ 2 + 2 * t * B + (t ^ 2 + t))) (hM : |c - μ| ≤ ε * (M + t)) (hs : |s - Real.sqrt v| ≤ u * (|Real.sqrt v| + t))
    (hmabs : B ≤ Real.sqrt (A ^ 2 + (μ - c) ^ 2)) : |s - A| ≤ 3 * η * (A + M) + 3 * (t + Real.sqrt t) := by
  have ha2 : Real.sqrt (A ^ 2 + (μ - c) ^ 2) ^ 2 = A ^ 2 + (μ - c) ^ 2 := Real.sq_sqrt (by positivity)
  have ha0 := Real.sqrt_nonneg (A ^ 2 + (μ - c) ^ 2)
  have hst0 := Real.sqrt_nonneg t
  have hst := Real.sq_sqrt ht.le
  have he0 := abs_nonneg (c - μ)
  have he2 : (μ - c) ^ 2 = |c - μ| ^ 2 := by rw [sq_abs]; ring
  rw [← ha2] at hV
  have haA : Real.sqrt (A ^ 2 + (μ - c) ^ 2) ≤ A + |c - μ| := Real.sqrt_le_iff.mpr ⟨by positivity, by nlinarith⟩
  have hAa : A ≤ Real.sqrt (A ^ 2 + (μ - c) ^ 2) := Real.le_sqrt_of_sq_le (by nlinarith [sq_nonneg (μ - c)])
  generalize Real.sqrt (A ^ 2 + (μ - c) ^ 2) = a at *
  generalize hδ : t + Real.sqrt t = δ at *
  have hδ0 : 0 ≤ δ := by linarith
  have hW : a ^ 2 + 2 * t * B + (t ^ 2 + t) ≤ (a + δ) ^ 2 := by
    have h1 : t * B ≤ t * a := mul_le_mul_of_nonneg_left hmabs ht.le
    have h2 : (a + δ) ^ 2 = a ^ 2 + 2 * t * a + 2 * Real.sqrt t * a + (t ^ 2 + t) + 2 * t * Real.sqrt t := by rw [← hδ]; linear_combination hst
    linarith [mul_nonneg hst0 ha0, mul_nonneg ht.le hst0]
  have hroot := sqrt_acc ha0 hδ0 hη0 hvpos (hV.trans (mul_le_mul_of_nonneg_left hW hη0))
  have hr0 := Real.sqrt_nonneg v
  rw [abs_of_nonneg hr0] at hs
  generalize Real.sqrt v = r at *
  generalize |c - μ| = e at *
  have htδ : t ≤ δ := by linarith
  have he' : e ≤ η * (M + δ) := hM.trans (mul_le_mul hpow (by linarith) (by linarith) hη0)
  have hr : r ≤ a + η * (a + δ) + δ := by have := (abs_le.mp hroot).2; linarith
  have hs' : |s - r| ≤ η * (r + δ) := hs.trans (mul_le_mul huη (by linarith) (by linarith) hη0)
  have htri : |s - A| ≤ |s - r| + |r - a| + (a - A) := by
    have h1 := abs_add_le (s - r) (r - a)
    have h2 := abs_add_le (s - r + (r - a)) (a - A)
    rw [show s - r + (r - a) + (a - A) = s - A by ring, abs_of_nonneg (by linarith : 0 ≤ a - A)] at h2
    linarith
  have k1 : η * (r + δ) ≤ η * (1.25 * a + 2.25 * δ) := mul_le_mul_of_nonneg_left (by linarith [mul_le_mul_of_nonneg_right hη4 ha0, mul_le_mul_of_nonneg_right hη4 hδ0]) hη0
  have k2 : η * a ≤ η * (A + e) := mul_le_mul_of_nonneg_left haA hη0
  have k3 : η * e ≤ 1 / 4 * e := mul_le_mul_of_nonneg_right hη4 (by linarith)
  have k4 : η * δ ≤ 1 / 4 * δ := mul_le_mul_of_nonneg_right hη4 hδ0
  have k5 : 0 ≤ η * A := mul_nonneg hη0 hA0
  have k6 : 0 ≤ η * M := mul_nonneg hη0 hM0
  linarith

/-- Accuracy of the computed standard deviation, with an explicit bound of the rounding errors. -/
theorem std_acc (hp : 1 ≤ p) (he : emin ≤ 0) (hn : 0 < n) (hnp : n < 2 ^ p) {y : Fin n → Fl R} {s : Fl R} (h : IsStd y s) {η : ℝ} (hη : (1 + 2 ^ (-(p : ℤ))) ^ (n + 4) - 1 = η) (hη4 : η ≤ 1 / 4) :
    |s.val - GP.std fun i => (y i).val| ≤ 3 * η * ((GP.std fun i => (y i).val) + GP.mean fun i => |(y i).val|) + 3 * (2 ^ (emin + p - 1) + Real.sqrt (2 ^ (emin + p - 1))) := by
  obtain ⟨c, v, hc, hv, rfl⟩ := h
  have hn' : (0 : ℝ) < n := by exact_mod_cast hn
  have hu : (0 : ℝ) < 2 ^ (-(p : ℤ)) := two_zpow_pos _
  have ht : (0 : ℝ) < 2 ^ (emin + p - 1) := two_zpow_pos _
  have hV := variance_acc hp he hn hnp hv
  have hM := mean_acc hp he hn hnp hc (x := fun i => (y i).val) (w := fun i => |(y i).val| + 2 ^ (emin + p - 1)) (k := 0) fun i => ⟨by unfold Rounded.Acc; simp, le_rfl⟩
  have hs := fl_error hp R (Real.sqrt v.val)
  have huη : (2 : ℝ) ^ (-(p : ℤ)) ≤ η := by
    have := one_add_mul_le_pow (a := (2 : ℝ) ^ (-(p : ℤ))) (by linarith) (n + 4)
    push_cast at this
    nlinarith
  have hη0 : 0 ≤ η := hu.le.trans huη
  have hpow : (1 + (2 : ℝ) ^ (-(p : ℤ))) ^ (0 + n + 1) - 1 ≤ η := by
    have : (1 + (2 : ℝ) ^ (-(p : ℤ))) ^ (0 + n + 1) ≤ (1 + (2 : ℝ) ^ (-(p : ℤ))) ^ (n + 4) := pow_le_pow_right₀ (by linarith) (by omega)
    linarith
  have hvpos : 0 ≤ v.val := by
    obtain ⟨S, hS, rfl⟩ := hv
    have := (hS.ge (by
      intro a ha
      obtain ⟨q, rfl⟩ := (List.mem_ofFn' _ _).mp ha
      exact R.le_fl isFloat_zero (mul_self_nonneg _))).1
    exact R.le_fl isFloat_zero (div_nonneg this (R.le_fl isFloat_zero (by positivity)))
  have hdecomp := mean_sq_dev hn (fun i => (y i).val) c.val
  have hmabs := mean_abs_le hn fun i => (y i).val - c.val
  change |R.fl (Real.sqrt v.val) - _| ≤ _
  unfold Rounded.Acc at hM
  rw [Finset.sum_add_distrib, Finset.sum_const, Finset.card_univ, Fintype.card_fin, nsmul_eq_mul, add_div, mul_div_cancel_left₀ _ hn'.ne'] at hM
  change |c.val - GP.mean fun i => (y i).val| ≤ _ * ((GP.mean fun i => |(y i).val|) + _) at hM
  rw [hη] at hV
  have hM0 : 0 ≤ GP.mean fun i => |(y i).val| := div_nonneg (Finset.sum_nonneg fun i _ => abs_nonneg _) hn'.le
  have hA0 : 0 ≤ GP.std fun i => (y i).val := Real.sqrt_nonneg _
  have hsq : ∑ i, ((|(y i).val - c.val| + 2 ^ (emin + p - 1)) ^ 2 + 2 ^ (emin + p - 1)) =
      (∑ i, ((y i).val - c.val) ^ 2) + 2 * 2 ^ (emin + p - 1) * (∑ i, |(y i).val - c.val|) + n * ((2 ^ (emin + p - 1)) ^ 2 + 2 ^ (emin + p - 1)) := by
    have : ∀ i, (|(y i).val - c.val| + 2 ^ (emin + p - 1)) ^ 2 + 2 ^ (emin + p - 1) = ((y i).val - c.val) ^ 2 + 2 * 2 ^ (emin + p - 1) * |(y i).val - c.val| + ((2 ^ (emin + p - 1)) ^ 2 + 2 ^ (emin + p - 1)) :=
      fun i => by rw [← sq_abs ((y i).val - c.val)]; ring
    rw [Finset.sum_congr rfl fun i _ => this i, Finset.sum_add_distrib, Finset.sum_add_distrib, ← Finset.mul_sum, Finset.sum_const, Finset.card_univ, Fintype.card_fin, nsmul_eq_mul]
  rw [hsq, add_div, add_div, mul_div_cancel_left₀ _ hn'.ne', mul_div_assoc] at hV
  rw [hdecomp] at hmabs hV
  generalize R.fl (Real.sqrt v.val) = s at *
  generalize (∑ i, |(y i).val - c.val|) / (n : ℝ) = B at *
  generalize (GP.std fun i => (y i).val) = A at *
  generalize (GP.mean fun i => (y i).val) = μ at *
  generalize (GP.mean fun i => |(y i).val|) = M at *
  generalize (1 + (2 : ℝ) ^ (-(p : ℤ))) ^ (0 + n + 1) - 1 = ε at *
  generalize (2 : ℝ) ^ (-(p : ℤ)) = u at *
  generalize (2 : ℝ) ^ (emin + p - 1) = t at *
  exact std_arith hη0 hη4 ht hA0 hM0 hvpos hpow huη hV hM hs hmabs

end Mfpml.Rounded
