import Verif.Model.Rounded
import Mathlib.Tactic.Linarith
import Mathlib.Tactic.Ring
import Mathlib.Tactic.FieldSimp
import Mathlib.Tactic.Positivity
import Mathlib.Tactic.LinearCombination

/-!
# Lemmas about rounded arithmetic
-/

namespace Mfpml.Rounded

variable {p : ℕ} {emin : ℤ}

theorem two_zpow_pos (e : ℤ) : (0 : ℝ) < 2 ^ e := zpow_pos (by norm_num) e

theorem two_zpow_succ (e : ℤ) : (2 : ℝ) ^ (e + 1) = 2 * 2 ^ e := by
  rw [zpow_add₀ two_ne_zero]; ring

/-- A power of two times an integer is a coarser-to-finer change of exponent. -/
theorem refine_exp (m : ℤ) {e f : ℤ} (h : f ≤ e) : ∃ k : ℤ, (m : ℝ) * 2 ^ e = k * 2 ^ f := by
  obtain ⟨n, hn⟩ := Int.le.dest h
  refine ⟨m * 2 ^ n, ?_⟩
  rw [← hn, zpow_add₀ two_ne_zero]
  push_cast
  rw [zpow_natCast]
  ring

theorem isFloat_zero : IsFloat p emin 0 := ⟨0, emin, by positivity, le_refl _, by simp⟩

theorem IsFloat.neg {x : ℝ} (h : IsFloat p emin x) : IsFloat p emin (-x) := by
  obtain ⟨m, e, h1, h2, rfl⟩ := h
  exact ⟨-m, e, by rwa [abs_neg], h2, by push_cast; ring⟩

/-- `|m| ≤ 2 ^ p` is enough. -/
theorem isFloat_of_le (hp : 1 ≤ p) {m e : ℤ} (hm : |m| ≤ 2 ^ p) (he : emin ≤ e) : IsFloat p emin (m * 2 ^ e) := by
  rcases lt_or_eq_of_le hm with h | h
  · exact ⟨m, e, h, he, rfl⟩
  · obtain ⟨q, rfl⟩ : ∃ q, p = q + 1 := ⟨p - 1, by omega⟩
    have hq : (2 : ℤ) ^ q < 2 ^ (q + 1) := by rw [pow_succ]; have : (0 : ℤ) < 2 ^ q := by positivity
                                              linarith
    rcases abs_choice m with hc | hc
    · refine ⟨2 ^ q, e + 1, by rwa [abs_of_pos (by positivity)], by omega, ?_⟩
      rw [two_zpow_succ, ← hc, h]; push_cast; ring
    · refine ⟨-2 ^ q, e + 1, by rwa [abs_neg, abs_of_pos (by positivity)], by omega, ?_⟩
      have : m = -2 ^ (q + 1) := by omega
      rw [two_zpow_succ, this]; push_cast; ring

/-- Every float is a multiple of the least spacing. -/
theorem IsFloat.multiple {x : ℝ} (h : IsFloat p emin x) : ∃ k : ℤ, x = k * 2 ^ emin := by
  obtain ⟨m, e, _, h2, rfl⟩ := h
  exact refine_exp m h2

/-- A multiple of the least spacing that is small enough is a float. -/
theorem isFloat_of_multiple {k : ℤ} (h : |(k : ℝ) * 2 ^ emin| < 2 ^ p * 2 ^ emin) : IsFloat p emin (k * 2 ^ emin) := by
  rw [abs_mul, abs_of_pos (two_zpow_pos emin)] at h
  have h := lt_of_mul_lt_mul_right h (two_zpow_pos emin).le
  exact ⟨k, emin, by exact_mod_cast h, le_refl _, rfl⟩

/-- Normal form of a positive float. -/
theorem IsFloat.normal {x : ℝ} (h : IsFloat p emin x) (hx : 0 < x) :
    ∃ m e : ℤ, 0 < m ∧ m < 2 ^ p ∧ emin ≤ e ∧ x = m * 2 ^ e ∧ (2 ^ p ≤ 2 * m ∨ e = emin) := by
  obtain ⟨m, e, h1, h2, rfl⟩ := h
  obtain ⟨n, rfl⟩ := Int.le.dest h2
  clear h2
  induction n generalizing m with
  | zero =>
    have hm : (0 : ℝ) < m := pos_of_mul_pos_left hx (two_zpow_pos _).le
    have hm : 0 < m := by exact_mod_cast hm
    rw [abs_of_pos hm] at h1
    exact ⟨m, emin, hm, h1, le_refl _, by simp, Or.inr rfl⟩
  | succ n ih =>
    have hm : (0 : ℝ) < m := pos_of_mul_pos_left hx (two_zpow_pos _).le
    have hm : 0 < m := by exact_mod_cast hm
    have h1' := h1
    rw [abs_of_pos hm] at h1'
    by_cases hb : 2 ^ p ≤ 2 * m
    · exact ⟨m, _, hm, h1', by omega, rfl, Or.inl hb⟩
    · have e : (m : ℝ) * 2 ^ (emin + (n + 1 : ℕ)) = ((2 * m : ℤ) : ℝ) * 2 ^ (emin + (n : ℕ)) := by
        have : emin + (n + 1 : ℕ) = emin + n + 1 := by push_cast; ring
        rw [this, two_zpow_succ]; push_cast; ring
      rw [e] at hx ⊢
      exact ih (2 * m) (by rw [abs_of_pos (by omega)]; omega) hx

/-- No float lies strictly between a normalised one and its neighbour below. -/
theorem no_float_between (hp : 1 ≤ p) {m e : ℤ} (hm : 2 ^ p < 2 * m) {y : ℝ} (hy : IsFloat p emin y)
    (h : ((m - 1 : ℤ) : ℝ) * 2 ^ e < y) : (m : ℝ) * 2 ^ e ≤ y := by
  obtain ⟨k, f, h1, h2, rfl⟩ := hy
  rcases le_or_gt e f with hf | hf
  · obtain ⟨k', hk⟩ := refine_exp k hf
    rw [hk] at h ⊢
    have h := lt_of_mul_lt_mul_right h (two_zpow_pos e).le
    have h : m - 1 < k' := by exact_mod_cast h
    have h : m ≤ k' := by omega
    exact mul_le_mul_of_nonneg_right (by exact_mod_cast h) (two_zpow_pos e).le
  · exfalso
    obtain ⟨n, hn⟩ := Int.le.dest (show f + 1 ≤ e by omega)
    have hk : (k : ℝ) < 2 ^ p := by
      have : k < 2 ^ p := lt_of_le_of_lt (le_abs_self k) h1
      exact_mod_cast this
    have h3 : (k : ℝ) * 2 ^ f < 2 ^ p * 2 ^ f := mul_lt_mul_of_pos_right hk (two_zpow_pos f)
    have h4 : (2 : ℝ) ^ p ≤ ((2 * (m - 1) : ℤ) : ℝ) := by
      have : (2 : ℤ) ^ p ≤ 2 * (m - 1) := by
        rcases p with _ | p
        · omega
        · rw [pow_succ] at hm ⊢; omega
      exact_mod_cast this
    have h5 : (2 : ℝ) * 2 ^ f ≤ 2 ^ e := by
      rw [← two_zpow_succ]
      exact zpow_le_zpow_right₀ (by norm_num) (by omega)
    have h6 : (2 : ℝ) ^ p * 2 ^ f ≤ ((m - 1 : ℤ) : ℝ) * 2 ^ e := by
      have a1 : (2 : ℝ) ^ p * 2 ^ f ≤ ((2 * (m - 1) : ℤ) : ℝ) * 2 ^ f := mul_le_mul_of_nonneg_right h4 (two_zpow_pos f).le
      have a2 : (0 : ℝ) ≤ ((m - 1 : ℤ) : ℝ) := by
        have : (0 : ℝ) < 2 ^ p := by positivity
        push_cast at h4 ⊢; linarith
      have a3 := mul_le_mul_of_nonneg_left h5 a2
      push_cast at a1 a3 ⊢
      linarith
    linarith

namespace Rounding
variable (R : Rounding p emin)

theorem fl_of_isFloat {x : ℝ} (h : IsFloat p emin x) : R.fl x = x := by
  have := R.nearest x x h
  rw [sub_self, abs_zero] at this
  have := abs_nonpos_iff.mp this
  linarith

theorem fl_mono {x y : ℝ} (h : x ≤ y) : R.fl x ≤ R.fl y := by
  rcases eq_or_lt_of_le h with rfl | h
  · exact le_refl _
  by_contra hc
  push Not at hc
  have h1 := R.nearest x _ (R.isFloat y)
  have h2 := R.nearest y _ (R.isFloat x)
  have h1 := sq_le_sq.mpr h1
  have h2 := sq_le_sq.mpr h2
  nlinarith

theorem fl_le {x y : ℝ} (hy : IsFloat p emin y) (h : x ≤ y) : R.fl x ≤ y := by
  rw [← R.fl_of_isFloat hy]; exact R.fl_mono h

theorem le_fl {x y : ℝ} (hy : IsFloat p emin y) (h : y ≤ x) : y ≤ R.fl x := by
  rw [← R.fl_of_isFloat hy]; exact R.fl_mono h

/-- Rounding up past a float does not happen. -/
theorem le_of_lt_fl {x y : ℝ} (hy : IsFloat p emin y) (h : y < R.fl x) : y ≤ x := by
  by_contra hc
  push Not at hc
  exact absurd (R.fl_le hy hc.le) (not_le.mpr h)

end Rounding

/-- A float below one is at most `1 - 2^(-p)`. -/
theorem float_lt_one (hp : 1 ≤ p) {u : ℝ} (hu : IsFloat p emin u) (h1 : u < 1) : u ≤ 1 - 2 ^ (-(p : ℤ)) := by
  obtain ⟨m, e, hm, _, rfl⟩ := hu
  have hpp : (2 : ℝ) ^ p * 2 ^ (-(p : ℤ)) = 1 := by
    rw [zpow_neg, zpow_natCast]; exact mul_inv_cancel₀ (by positivity)
  rcases le_or_gt (-(p : ℤ)) e with he | he
  · obtain ⟨k, hk⟩ := refine_exp m he
    rw [hk] at h1 ⊢
    rw [← hpp] at h1 ⊢
    have h := lt_of_mul_lt_mul_right h1 (two_zpow_pos _).le
    have h : k < 2 ^ p := by exact_mod_cast h
    have h : (k : ℝ) ≤ 2 ^ p - 1 := by
      have : k ≤ 2 ^ p - 1 := by omega
      exact_mod_cast this
    have := mul_le_mul_of_nonneg_right h (two_zpow_pos (-(p : ℤ))).le
    linarith
  · have hk : (m : ℝ) ≤ 2 ^ p := by
      have : m < 2 ^ p := lt_of_le_of_lt (le_abs_self m) hm
      exact_mod_cast this.le
    have h2 : (2 : ℝ) * 2 ^ e ≤ 2 ^ (-(p : ℤ)) := by
      rw [← two_zpow_succ]; exact zpow_le_zpow_right₀ (by norm_num) (by omega)
    have h3 := mul_le_mul_of_nonneg_right hk (two_zpow_pos e).le
    have h4 := mul_le_mul_of_nonneg_left h2 (show (0 : ℝ) ≤ 2 ^ p by positivity)
    rw [hpp] at h4
    have h5 : (2 : ℝ) ^ (-(p : ℤ)) ≤ 2 ^ (-1 : ℤ) := zpow_le_zpow_right₀ (by norm_num) (by omega)
    have h6 : (2 : ℝ) ^ (-1 : ℤ) = 1 / 2 := by norm_num
    rw [h6] at h5
    linarith

/-- The heart of the matter: shrinking the rounded width of a box by a factor below one gives at most the exact width. -/
theorem shrink_le (R : Rounding p emin) (hp : 1 ≤ p) {l h u : ℝ} (hl : IsFloat p emin l) (hh : IsFloat p emin h)
    (hlh : l ≤ h) (hu : IsFloat p emin u) (hu0 : 0 ≤ u) (hu1 : u < 1) : R.fl (u * R.fl (h - l)) ≤ h - l := by
  have hd0 : 0 ≤ R.fl (h - l) := R.le_fl isFloat_zero (by linarith)
  have hud : u * R.fl (h - l) ≤ R.fl (h - l) := by nlinarith
  rcases le_or_gt (R.fl (h - l)) (h - l) with hle | hgt
  · exact le_trans (R.fl_le (R.isFloat _) hud) hle
  have hdpos : 0 < R.fl (h - l) := by linarith
  -- the difference is not itself a float
  have hnf : ¬ IsFloat p emin (h - l) := fun hf => by rw [R.fl_of_isFloat hf] at hgt; exact lt_irrefl _ hgt
  obtain ⟨k, hk⟩ : ∃ k : ℤ, h - l = k * 2 ^ emin := by
    obtain ⟨a, ha⟩ := hh.multiple
    obtain ⟨b, hb⟩ := hl.multiple
    exact ⟨a - b, by rw [ha, hb]; push_cast; ring⟩
  have hbig : (2 : ℝ) ^ p * 2 ^ emin ≤ h - l := by
    by_contra hc
    push Not at hc
    apply hnf
    rw [hk]
    apply isFloat_of_multiple
    rw [← hk, abs_of_nonneg (by linarith)]
    exact hc
  obtain ⟨m, e, hm0, hm1, he, hd, hnorm⟩ := (R.isFloat (h - l)).normal hdpos
  have hm1' : (m : ℝ) < 2 ^ p := by exact_mod_cast hm1
  have hee : emin < e := by
    rcases eq_or_lt_of_le he with rfl | h
    · exfalso
      have := mul_lt_mul_of_pos_right hm1' (two_zpow_pos emin)
      rw [← hd] at this
      linarith
    · exact h
  have hnorm : 2 ^ p ≤ 2 * m := by
    rcases hnorm with h | h
    · exact h
    · omega
  have hu2 := float_lt_one hp hu hu1
  have hpp : (2 : ℝ) ^ p * 2 ^ (-(p : ℤ)) = 1 := by
    rw [zpow_neg, zpow_natCast]; exact mul_inv_cancel₀ (by positivity)
  -- a float strictly below the rounded width which bounds the shrunk width
  suffices hs : ∃ q, IsFloat p emin q ∧ q < R.fl (h - l) ∧ R.fl (u * R.fl (h - l)) ≤ q by
    obtain ⟨q, hq1, hq2, hq3⟩ := hs
    exact le_trans hq3 (R.le_of_lt_fl hq1 hq2)
  have hue : u * R.fl (h - l) ≤ (1 - 2 ^ (-(p : ℤ))) * R.fl (h - l) := mul_le_mul_of_nonneg_right hu2 hd0
  have hE := two_zpow_pos e
  rcases eq_or_lt_of_le hnorm with heq | hlt
  · -- the rounded width is a power of two: its neighbour below is half a unit away
    refine ⟨((2 ^ p - 1 : ℤ) : ℝ) * 2 ^ (e - 1), ?_, ?_, ?_⟩
    · exact ⟨2 ^ p - 1, e - 1, by rw [abs_of_nonneg (by omega)]; omega, by omega, rfl⟩
    · have h2e : (2 : ℝ) ^ e = 2 * 2 ^ (e - 1) := by rw [← two_zpow_succ]; congr 1; ring
      have hmr : (2 : ℝ) * m = 2 ^ p := by exact_mod_cast heq.symm
      rw [hd, h2e]
      have := two_zpow_pos (e - 1)
      push_cast
      nlinarith
    · apply R.fl_le
      · exact ⟨2 ^ p - 1, e - 1, by rw [abs_of_nonneg (by omega)]; omega, by omega, rfl⟩
      · refine le_trans hue (le_of_eq ?_)
        have h2e : (2 : ℝ) ^ e = 2 * 2 ^ (e - 1) := by rw [← two_zpow_succ]; congr 1; ring
        have hmr : (2 : ℝ) * m = 2 ^ p := by exact_mod_cast heq.symm
        rw [hd, h2e]
        push_cast
        linear_combination (2 ^ (e - 1) : ℝ) * (1 - 2 ^ (-(p : ℤ))) * hmr - (2 ^ (e - 1) : ℝ) * hpp
  · refine ⟨((m - 1 : ℤ) : ℝ) * 2 ^ e, ⟨m - 1, e, by rw [abs_of_nonneg (by omega)]; omega, he, rfl⟩, ?_, ?_⟩
    · rw [hd]; push_cast; nlinarith
    · by_contra hc
      push Not at hc
      have h1 := no_float_between hp hlt (R.isFloat _) hc
      have hq : IsFloat p emin (((m - 1 : ℤ) : ℝ) * 2 ^ e) := ⟨m - 1, e, by rw [abs_of_nonneg (by omega)]; omega, he, rfl⟩
      have hlow := R.le_of_lt_fl hq hc
      have h2 := R.nearest (u * R.fl (h - l)) _ hq
      -- the shrunk width is less than half a unit above the neighbour
      have hhalf : u * R.fl (h - l) < ((m - 1 : ℤ) : ℝ) * 2 ^ e + 2 ^ e / 2 := by
        have hmr : (2 : ℝ) ^ p < 2 * m := by exact_mod_cast hlt
        have h3 : (1 : ℝ) < 2 * m * 2 ^ (-(p : ℤ)) := by
          rw [← hpp]; exact mul_lt_mul_of_pos_right hmr (two_zpow_pos _)
        have h4 := mul_lt_mul_of_pos_right h3 hE
        refine lt_of_le_of_lt hue ?_
        rw [hd]
        push_cast
        nlinarith
      have hm' : (m : ℝ) * 2 ^ e = ((m - 1 : ℤ) : ℝ) * 2 ^ e + 2 ^ e := by push_cast; ring
      rw [hm'] at h1
      rw [abs_of_nonpos (by linarith), abs_of_nonneg (by linarith)] at h2
      linarith

/-- Scaling a float in `[0, 1)` into a box, with all three operations rounded, stays in the box. -/
theorem scale_float (R : Rounding p emin) (hp : 1 ≤ p) {l h u : ℝ} (hl : IsFloat p emin l) (hh : IsFloat p emin h)
    (hlh : l ≤ h) (hu : IsFloat p emin u) (hu0 : 0 ≤ u) (hu1 : u < 1) :
    l ≤ R.fl (R.fl (u * R.fl (h - l)) + l) ∧ R.fl (R.fl (u * R.fl (h - l)) + l) ≤ h := by
  have hd0 : 0 ≤ R.fl (h - l) := R.le_fl isFloat_zero (by linarith)
  have h0 : 0 ≤ R.fl (u * R.fl (h - l)) := R.le_fl isFloat_zero (mul_nonneg hu0 hd0)
  have h1 := shrink_le R hp hl hh hlh hu hu0 hu1
  exact ⟨R.le_fl hl (by linarith), R.fl_le hh (by linarith)⟩

/-- `roundNearest` gives floats. -/
theorem roundNearest_isFloat (hp : 1 ≤ p) (x : ℝ) : IsFloat p emin (roundNearest p emin x) := by
  unfold roundNearest
  generalize hE : max emin (Int.log 2 |x| + 1 - p) = E
  have h1 : emin ≤ E := hE ▸ le_max_left _ _
  have h2 : Int.log 2 |x| + 1 ≤ E + p := by have := hE ▸ le_max_right emin (Int.log 2 |x| + 1 - p); omega
  apply isFloat_of_le hp _ h1
  have hx : |x| < 2 ^ (E + (p : ℤ)) := by
    have := Int.lt_zpow_succ_log_self (b := 2) (by norm_num) |x|
    refine lt_of_lt_of_le this ?_
    push_cast
    exact zpow_le_zpow_right₀ (by norm_num) h2
  have hx' : |x / 2 ^ E| < 2 ^ p := by
    rw [abs_div, abs_of_pos (two_zpow_pos E), div_lt_iff₀ (two_zpow_pos E)]
    rw [zpow_add₀ two_ne_zero, zpow_natCast, mul_comm] at hx
    exact hx
  have hx'' := abs_lt.mp hx'
  rw [abs_le]
  have hr := round_le (x / 2 ^ E) (2 ^ p)
  have hr' := round_le (x / 2 ^ E) (-2 ^ p)
  have hr := sq_le_sq.mpr hr
  have hr' := sq_le_sq.mpr hr'
  push_cast at hr hr'
  constructor
  · by_contra hc
    push Not at hc
    have hc : (round (x / 2 ^ E) : ℝ) < -2 ^ p := by exact_mod_cast hc
    nlinarith
  · by_contra hc
    push Not at hc
    have hc : (2 : ℝ) ^ p < round (x / 2 ^ E) := by exact_mod_cast hc
    nlinarith

/-- `roundNearest` is nearest. -/
theorem roundNearest_nearest (hp : 1 ≤ p) (x y : ℝ) (hy : IsFloat p emin y) : |x - roundNearest p emin x| ≤ |x - y| := by
  unfold roundNearest
  generalize hE : max emin (Int.log 2 |x| + 1 - p) = E
  -- among multiples of `2 ^ E` the chosen one is nearest
  have key : ∀ k : ℤ, |x - round (x / 2 ^ E) * 2 ^ E| ≤ |x - k * 2 ^ E| := by
    intro k
    have h := mul_le_mul_of_nonneg_right (round_le (x / 2 ^ E) k) (two_zpow_pos E).le
    have e : ∀ a : ℝ, |x / 2 ^ E - a| * 2 ^ E = |x - a * 2 ^ E| := by
      intro a
      have hE := two_zpow_pos E
      rw [show x - a * 2 ^ E = (x / 2 ^ E - a) * 2 ^ E by field_simp, abs_mul, abs_of_pos hE]
    rwa [e, e] at h
  obtain ⟨m, f, hm, hf, rfl⟩ := hy
  rcases le_or_gt E f with h | h
  · obtain ⟨k, hk⟩ := refine_exp m h
    rw [hk]
    exact key k
  · have hE' : E = Int.log 2 |x| + 1 - p := by
      rcases max_choice emin (Int.log 2 |x| + 1 - p) with h' | h' <;> omega
    rcases eq_or_ne x 0 with rfl | hx
    · have := key 0
      simp only [Int.cast_zero, zero_mul, sub_zero, abs_zero] at this
      exact le_trans this (abs_nonneg _)
    have hxp : 0 < |x| := abs_pos.mpr hx
    have hlog := Int.zpow_log_le_self (b := 2) (by norm_num) hxp
    push_cast at hlog
    -- a power of two between the candidate and `x`
    have hB : ∃ k : ℤ, (k : ℝ) * 2 ^ E = 2 ^ (Int.log 2 |x|) ∧ |(m : ℝ) * 2 ^ f| ≤ k * 2 ^ E := by
      rcases p with _ | q
      · omega
      · refine ⟨2 ^ q, ?_, ?_⟩
        · push_cast
          rw [← zpow_natCast, ← zpow_add₀ two_ne_zero]
          congr 1
          rw [hE']; push_cast; ring
        · rw [abs_mul, abs_of_pos (two_zpow_pos f)]
          have h1 : |(m : ℝ)| ≤ 2 ^ (q + 1) := by
            have := hm.le
            exact_mod_cast this
          have h2 : (2 : ℝ) * 2 ^ f ≤ 2 ^ E := by
            rw [← two_zpow_succ]; exact zpow_le_zpow_right₀ (by norm_num) (by omega)
          have h3 := mul_le_mul_of_nonneg_right h1 (two_zpow_pos f).le
          have h4 := mul_le_mul_of_nonneg_left h2 (show (0 : ℝ) ≤ 2 ^ q by positivity)
          push_cast
          rw [pow_succ] at h3
          linarith
    obtain ⟨k, hk1, hk2⟩ := hB
    have hkx : (k : ℝ) * 2 ^ E ≤ |x| := by rw [hk1]; exact hlog
    have hk0 : 0 ≤ (k : ℝ) * 2 ^ E := le_trans (abs_nonneg _) hk2
    rcases abs_cases x with ⟨ha, _⟩ | ⟨ha, _⟩
    · rw [ha] at hkx
      refine le_trans (key k) ?_
      rw [abs_of_nonneg (by linarith)]
      have := (abs_le.mp hk2).2
      exact le_trans (by linarith) (le_abs_self _)
    · rw [ha] at hkx
      refine le_trans (key (-k)) ?_
      push_cast
      rw [abs_of_nonpos (by linarith)]
      have := (abs_le.mp hk2).1
      exact le_trans (by linarith) (neg_le_abs (x - m * 2 ^ f))

end Mfpml.Rounded
