import Mathlib.Tactic.Linarith
import Mathlib.Tactic.Positivity
import Mathlib.Tactic.Ring
import Mathlib.Tactic.FieldSimp
import Mathlib.Algebra.BigOperators.Fin
import Verif.Model.RoundedKernel
import Verif.Lemmas.RoundedError

/-!
# Error analysis of sums and products in floating-point arithmetic
-/

namespace Mfpml.Rounded

variable {p : ℕ} {emin : ℤ} {R : Rounding p emin}

/-- Rounding changes a number by at most `u (|x| + t)`, where `u = 2^(-p)` and `t = 2^(emin + p - 1)` is the smallest normalised number. -/
theorem fl_error (hp : 1 ≤ p) (R : Rounding p emin) (x : ℝ) : |R.fl x - x| ≤ 2 ^ (-(p : ℤ)) * (|x| + 2 ^ (emin + p - 1)) := by
  have hu : (0 : ℝ) < 2 ^ (-(p : ℤ)) := two_zpow_pos _
  -- it is enough to find a float that near
  suffices h : ∃ y, IsFloat p emin y ∧ |x - y| ≤ 2 ^ (-(p : ℤ)) * (|x| + 2 ^ (emin + p - 1)) by
    obtain ⟨y, hy, hxy⟩ := h
    rw [abs_sub_comm]
    exact (R.nearest x y hy).trans hxy
  have near : ∀ e : ℤ, emin ≤ e → |x| ≤ 2 ^ (e + p) → ∃ y, IsFloat p emin y ∧ |x - y| ≤ 2 ^ (e - 1) := fun e he hx => by
    refine ⟨round (x / 2 ^ e) * 2 ^ e, isFloat_of_le hp ?_ he, ?_⟩
    · have hE := two_zpow_pos e
      have hx' : |x / 2 ^ e| ≤ 2 ^ p := by
        rw [abs_div, abs_of_pos hE, div_le_iff₀ hE]
        rw [zpow_add₀ two_ne_zero, zpow_natCast, mul_comm] at hx
        exact hx
      have h1 := abs_le.mp hx'
      rw [abs_le]
      constructor
      · rw [round_eq, Int.le_floor]
        push_cast
        linarith
      · rw [round_eq, ← Int.lt_add_one_iff, Int.floor_lt]
        push_cast
        linarith
    · have hE := two_zpow_pos e
      have h1 := abs_sub_round (x / 2 ^ e)
      have e2 : (2 : ℝ) ^ (e - 1) = 2 ^ e / 2 := by rw [zpow_sub_one₀ two_ne_zero]; ring
      rw [show x - round (x / 2 ^ e) * 2 ^ e = (x / 2 ^ e - round (x / 2 ^ e)) * 2 ^ e by field_simp, abs_mul, abs_of_pos hE, e2]
      nlinarith
  have hpow : ∀ e : ℤ, (2 : ℝ) ^ (-(p : ℤ)) * 2 ^ (e + p - 1) = 2 ^ (e - 1) := fun e => by rw [← zpow_add₀ two_ne_zero]; congr 1; ring
  rcases le_or_gt |x| (2 ^ (emin + p)) with hx | hx
  · obtain ⟨y, hy, h⟩ := near emin le_rfl hx
    refine ⟨y, hy, h.trans ?_⟩
    rw [mul_add, hpow]
    have := mul_nonneg hu.le (abs_nonneg x)
    linarith
  · have hx0 : 0 < |x| := (two_zpow_pos _).trans hx
    have h1 := Int.lt_zpow_succ_log_self (b := 2) (by norm_num) |x|
    have h2 := Int.zpow_log_le_self (b := 2) (by norm_num) hx0
    push_cast at h1 h2
    set l := Int.log 2 |x| with hl
    have hle : emin ≤ l + 1 - p := by
      have : (2 : ℝ) ^ (emin + p) < 2 ^ (l + 1) := hx.trans h1
      have := (zpow_lt_zpow_iff_right₀ (by norm_num : (1 : ℝ) < 2)).mp this
      omega
    obtain ⟨y, hy, h⟩ := near (l + 1 - p) hle (by rw [show l + 1 - (p : ℤ) + p = l + 1 by ring]; exact h1.le)
    refine ⟨y, hy, h.trans ?_⟩
    have e1 := hpow (l + 1 - p)
    rw [show l + 1 - (p : ℤ) + p - 1 = l by ring] at e1
    rw [← e1]
    apply mul_le_mul_of_nonneg_left _ hu.le
    have := two_zpow_pos (emin + p - 1)
    linarith

/-- A normalised float nearer than half a unit in the last place is the rounded number. -/
theorem fl_eq (hp : 1 ≤ p) (R : Rounding p emin) {m e : ℤ} (hm : 2 ^ p < 2 * m) (hm' : m < 2 ^ p) (he : emin ≤ e) {x : ℝ} (h : 2 * |x - m * 2 ^ e| < 2 ^ e) : R.fl x = m * 2 ^ e := by
  have hE := two_zpow_pos e
  have hm0 : 0 < m := by have : (0 : ℤ) < 2 ^ p := by positivity
                         omega
  have hy : IsFloat p emin (m * 2 ^ e) := ⟨m, e, by rw [abs_of_pos hm0]; exact hm', he, rfl⟩
  have h1 := R.nearest x _ hy
  have h2 : |R.fl x - m * 2 ^ e| < 2 ^ e := by
    calc |R.fl x - m * 2 ^ e| = |(x - m * 2 ^ e) - (x - R.fl x)| := by congr 1; ring
      _ ≤ |x - m * 2 ^ e| + |x - R.fl x| := abs_sub _ _
      _ < 2 ^ e := by linarith
  have h3 := abs_lt.mp h2
  refine le_antisymm ?_ (no_float_between hp hm (R.isFloat x) (by push_cast; linarith))
  by_contra hc
  push Not at hc
  have := no_float_between hp (m := m + 1) (e := e) (by omega) (R.isFloat x) (by push_cast; linarith)
  push_cast at this
  linarith

/-! ### Accumulated relative errors -/

/-- `b` is the value of `a` after `k` roundings with relative error `u`, measured against `w`. -/
def Acc (u : ℝ) (k : ℕ) (w a b : ℝ) : Prop := |b - a| ≤ ((1 + u) ^ k - 1) * w

section
variable {u : ℝ} {k l : ℕ} {w v a b a' b' : ℝ}

theorem one_le_acc (hu : 0 ≤ u) (k : ℕ) : 1 ≤ (1 + u) ^ k := one_le_pow₀ (by linarith)

theorem Acc.mono (h : Acc u k w a b) (hu : 0 ≤ u) (hkl : k ≤ l) (hw : w ≤ v) (h0 : 0 ≤ w) : Acc u l v a b := by
  unfold Acc at *
  have h1 : (1 + u) ^ k ≤ (1 + u) ^ l := pow_le_pow_right₀ (by linarith) hkl
  have h2 := one_le_acc hu k
  exact h.trans (mul_le_mul (by linarith) hw h0 (by linarith))

theorem acc_exact (w a : ℝ) : Acc u 0 w a a := by unfold Acc; simp

theorem Acc.add (h : Acc u k w a b) (h' : Acc u k v a' b') : Acc u k (w + v) (a + a') (b + b') := by
  unfold Acc at *
  calc |b + b' - (a + a')| = |(b - a) + (b' - a')| := by congr 1; ring
    _ ≤ |b - a| + |b' - a'| := abs_add_le _ _
    _ ≤ ((1 + u) ^ k - 1) * (w + v) := by rw [mul_add]; linarith

theorem Acc.neg (h : Acc u k w a b) : Acc u k w (-a) (-b) := by
  unfold Acc at *
  rwa [show -b - -a = -(b - a) by ring, abs_neg]

theorem Acc.mul (hu : 0 ≤ u) (h : Acc u k w a b) (h' : Acc u l v a' b') (ha : |a| ≤ w) (ha' : |a'| ≤ v) : Acc u (k + l) (w * v) (a * a') (b * b') := by
  unfold Acc at *
  have hw : 0 ≤ w := (abs_nonneg _).trans ha
  have hv : 0 ≤ v := (abs_nonneg _).trans ha'
  have h1 := one_le_acc hu k
  have h2 := one_le_acc hu l
  have hb' : |b'| ≤ (1 + u) ^ l * v := by
    calc |b'| = |(b' - a') + a'| := by congr 1; ring
      _ ≤ |b' - a'| + |a'| := abs_add_le _ _
      _ ≤ (1 + u) ^ l * v := by linarith
  calc |b * b' - a * a'| = |(b - a) * b' + a * (b' - a')| := by congr 1; ring
    _ ≤ |b - a| * |b'| + |a| * |b' - a'| := by
        refine (abs_add_le _ _).trans ?_
        rw [abs_mul, abs_mul]
    _ ≤ (((1 + u) ^ k - 1) * w) * ((1 + u) ^ l * v) + w * (((1 + u) ^ l - 1) * v) :=
        add_le_add (mul_le_mul h hb' (abs_nonneg _) (mul_nonneg (by linarith) hw)) (mul_le_mul ha h' (abs_nonneg _) hw)
    _ = ((1 + u) ^ (k + l) - 1) * (w * v) := by rw [pow_add]; ring

/-- One more rounding. -/
theorem Acc.fl (hp : 1 ≤ p) (R : Rounding p emin) (h : Acc (2 ^ (-(p : ℤ))) k w a b) (hw : |a| + 2 ^ (emin + p - 1) ≤ w) : Acc (2 ^ (-(p : ℤ))) (k + 1) w a (R.fl b) := by
  have hu : (0 : ℝ) < 2 ^ (-(p : ℤ)) := two_zpow_pos _
  have h1 := fl_error hp R b
  have h2 := one_le_acc hu.le k
  unfold Acc at *
  generalize (2 : ℝ) ^ (-(p : ℤ)) = u at *
  generalize (2 : ℝ) ^ (emin + (p : ℤ) - 1) = t at *
  have hb : |b| ≤ ((1 + u) ^ k - 1) * w + |a| := by
    calc |b| = |(b - a) + a| := by congr 1; ring
      _ ≤ |b - a| + |a| := abs_add_le _ _
      _ ≤ _ := by linarith
  have h3 : u * (|b| + t) ≤ u * ((1 + u) ^ k * w) := mul_le_mul_of_nonneg_left (by linarith) hu.le
  calc |R.fl b - a| = |(R.fl b - b) + (b - a)| := by congr 1; ring
    _ ≤ |R.fl b - b| + |b - a| := abs_add_le _ _
    _ ≤ ((1 + u) ^ (k + 1) - 1) * w := by rw [pow_succ]; linarith

end

/-! ### Sums and scalar products -/

theorem isFloat_one (hp : 1 ≤ p) (he : emin ≤ 0) : IsFloat p emin 1 := by
  have := isFloat_two_zpow (p := p) hp he
  simpa using this

theorem Fl.add_zero (a : Fl R) : a + 0 = a := Fl.val_injective (by
  change R.fl (a.val + 0) = a.val
  rw [_root_.add_zero, R.fl_of_isFloat a.isFloat])

theorem Fl.zero_add (a : Fl R) : 0 + a = a := Fl.val_injective (by
  change R.fl (0 + a.val) = a.val
  rw [_root_.zero_add, R.fl_of_isFloat a.isFloat])

theorem DotOf.nil_eq {l : List (Fl R × Fl R)} {s : Fl R} (h : DotOf R l s) (hl : l = []) : s = 0 := by
  induction h with
  | nil => rfl
  | mul => cases hl
  | add _ _ h1 h2 =>
    rw [List.append_eq_nil_iff] at hl
    rw [h1 hl.1, h2 hl.2, Fl.add_zero]
  | fma => cases hl
  | perm hp _ ih => exact ih (by rw [hl] at hp; exact hp.eq_nil)

theorem SumOf.dot (hp : 1 ≤ p) (he : emin ≤ 0) {l : List (Fl R)} {s : Fl R} (h : SumOf R l s) : DotOf R (l.map fun a => (a, ⟨1, isFloat_one hp he⟩)) s := by
  induction h with
  | nil => exact .nil
  | single a =>
    have : a * ⟨1, isFloat_one hp he⟩ = a := Fl.val_injective (by
      change R.fl (a.val * 1) = a.val
      rw [mul_one, R.fl_of_isFloat a.isFloat])
    have h2 := DotOf.mul (R := R) a ⟨1, isFloat_one hp he⟩
    rw [this] at h2
    exact h2
  | add _ _ h1 h2 => rw [List.map_append]; exact .add h1 h2
  | perm hp _ ih => exact .perm (hp.map _) ih

theorem forall₂_split {α β : Type} {P : α → β → Prop} : ∀ (l l' : List α) (g : List β), List.Forall₂ P (l ++ l') g → ∃ g1 g2, List.Forall₂ P l g1 ∧ List.Forall₂ P l' g2 ∧ g = g1 ++ g2
  | [], _, g, h => ⟨[], g, .nil, h, rfl⟩
  | _ :: l, l', _, .cons h1 h2 => by
    obtain ⟨g1, g2, a, b, rfl⟩ := forall₂_split l l' _ h2
    exact ⟨_ :: g1, g2, .cons h1 a, b, rfl⟩

/-- A scalar product, computed in whatever order: if the exact products are nonnegative and approximated by the computed ones, so is the sum. -/
theorem DotOf.acc (hp : 1 ≤ p) {k : ℕ} {l : List (Fl R × Fl R)} {s : Fl R} (h : DotOf R l s) :
    ∀ (g : List (ℝ × ℝ)), List.Forall₂ (fun (ab : Fl R × Fl R) (aw : ℝ × ℝ) => Acc (2 ^ (-(p : ℤ))) k aw.2 aw.1 (ab.1.val * ab.2.val) ∧ |aw.1| + 2 ^ (emin + p - 1) ≤ aw.2) l g →
      Acc (2 ^ (-(p : ℤ))) (k + l.length) (g.map Prod.snd).sum (g.map Prod.fst).sum s.val ∧ |(g.map Prod.fst).sum| ≤ (g.map Prod.snd).sum ∧
        (l ≠ [] → |(g.map Prod.fst).sum| + 2 ^ (emin + p - 1) ≤ (g.map Prod.snd).sum) := by
  have hu : (0 : ℝ) < 2 ^ (-(p : ℤ)) := two_zpow_pos _
  have ht : (0 : ℝ) < 2 ^ (emin + p - 1) := two_zpow_pos _
  induction h with
  | nil =>
    intro g hg
    cases hg
    refine ⟨?_, by simp, fun h => absurd rfl h⟩
    unfold Acc
    simp only [List.map_nil, List.sum_nil, mul_zero, sub_zero]
    exact (abs_zero).le
  | mul a b =>
    intro g hg
    cases hg with
    | cons h1 h2 =>
      cases h2
      simp only [List.map_cons, List.map_nil, List.sum_cons, List.sum_nil, _root_.add_zero, List.length_singleton]
      exact ⟨h1.1.fl hp R h1.2, by linarith [h1.2], fun _ => h1.2⟩
  | @add l l' a b hl hl' h1 h2 =>
    intro g hg
    obtain ⟨g1, g2, hg1, hg2, rfl⟩ : ∃ g1 g2, List.Forall₂ (fun (ab : Fl R × Fl R) (aw : ℝ × ℝ) => Acc (2 ^ (-(p : ℤ))) k aw.2 aw.1 (ab.1.val * ab.2.val) ∧ |aw.1| + 2 ^ (emin + p - 1) ≤ aw.2) l g1 ∧
        List.Forall₂ (fun (ab : Fl R × Fl R) (aw : ℝ × ℝ) => Acc (2 ^ (-(p : ℤ))) k aw.2 aw.1 (ab.1.val * ab.2.val) ∧ |aw.1| + 2 ^ (emin + p - 1) ≤ aw.2) l' g2 ∧ g = g1 ++ g2 :=
      forall₂_split _ _ _ hg
    obtain ⟨a1, b1, c1⟩ := h1 g1 hg1
    obtain ⟨a2, b2, c2⟩ := h2 g2 hg2
    simp only [List.map_append, List.sum_append, List.length_append]
    by_cases e1 : l = []
    · have := hl.nil_eq e1
      subst this
      subst e1
      cases hg1
      rw [Fl.zero_add]
      simp only [List.nil_append, List.map_nil, List.sum_nil, _root_.zero_add, List.length_nil]
      exact ⟨a2, b2, c2⟩
    · by_cases e2 : l' = []
      · have := hl'.nil_eq e2
        subst this
        subst e2
        cases hg2
        rw [Fl.add_zero]
        simp only [List.append_nil, List.map_nil, List.sum_nil, _root_.add_zero, List.length_nil]
        exact ⟨a1, b1, c1⟩
      · have n1 := List.length_pos_iff.mpr e1
        have n2 := List.length_pos_iff.mpr e2
        have w1 := (abs_nonneg _).trans b1
        have w2 := (abs_nonneg _).trans b2
        have hab := abs_add_le (g1.map Prod.fst).sum (g2.map Prod.fst).sum
        have key : |(g1.map Prod.fst).sum + (g2.map Prod.fst).sum| + 2 ^ (emin + p - 1) ≤ (g1.map Prod.snd).sum + (g2.map Prod.snd).sum := by linarith [c1 e1]
        refine ⟨?_, by linarith, fun _ => key⟩
        have s1 := a1.mono hu.le (l := k + (l.length + l'.length - 1)) (by omega) le_rfl w1
        have s2 := a2.mono hu.le (l := k + (l.length + l'.length - 1)) (by omega) le_rfl w2
        have := (s1.add s2).fl hp R key
        rwa [show k + (l.length + l'.length - 1) + 1 = k + (l.length + l'.length) by omega] at this
  | @fma l s a b hl ih =>
    intro g hg
    cases hg with
    | @cons _ aw _ g' h1 h2 =>
      obtain ⟨a2, b2, c2⟩ := ih g' h2
      simp only [List.map_cons, List.sum_cons, List.length_cons]
      have w2 := (abs_nonneg _).trans b2
      have w1 : 0 ≤ aw.2 := by linarith [h1.2, abs_nonneg aw.1]
      have hab := abs_add_le aw.1 (g'.map Prod.fst).sum
      have key : |aw.1 + (g'.map Prod.fst).sum| + 2 ^ (emin + p - 1) ≤ aw.2 + (g'.map Prod.snd).sum := by linarith [h1.2]
      refine ⟨?_, by linarith, fun _ => key⟩
      exact ((h1.1.mono hu.le (l := k + l.length) (by omega) le_rfl w1).add a2).fl hp R key
  | @perm l l' a hpm hl ih =>
    intro g hg
    obtain ⟨g', hg', hpg⟩ : ∃ g', List.Forall₂ (fun (ab : Fl R × Fl R) (aw : ℝ × ℝ) => Acc (2 ^ (-(p : ℤ))) k aw.2 aw.1 (ab.1.val * ab.2.val) ∧ |aw.1| + 2 ^ (emin + p - 1) ≤ aw.2) l g' ∧ g'.Perm g := by
      have := List.perm_comp_forall₂ hpm hg
      exact this
    obtain ⟨a1, b1, c1⟩ := ih g' hg'
    rw [← (hpg.map Prod.fst).sum_eq, ← (hpg.map Prod.snd).sum_eq, ← hpm.length_eq]
    exact ⟨a1, b1, fun h => c1 (fun h' => h (by rw [h'] at hpm; exact hpm.symm.eq_nil))⟩

theorem forall₂_ofFn {α β : Type} {P : α → β → Prop} : ∀ {d : ℕ} {f : Fin d → α} {g : Fin d → β}, (∀ k, P (f k) (g k)) → List.Forall₂ P (List.ofFn f) (List.ofFn g)
  | 0, _, _, _ => by simp
  | d + 1, f, g, h => by
    rw [List.ofFn_succ, List.ofFn_succ]
    exact .cons (h 0) (forall₂_ofFn fun k => h k.succ)

theorem one_add_pow_le {u : ℝ} (hu : 0 ≤ u) (k : ℕ) (hk : k * u ≤ 1 / 100) : (1 + u) ^ k - 1 ≤ 1.02 * (k * u) := by
  have key : ∀ k : ℕ, (1 + u) ^ k * (1 - k * u) ≤ 1 := fun k => by
    induction k with
    | zero => simp
    | succ k ih =>
      have h1 : (0 : ℝ) ≤ (1 + u) ^ k := by positivity
      have h2 : (1 + u) * (1 - (k + 1 : ℕ) * u) ≤ 1 - k * u := by
        push_cast
        nlinarith [mul_nonneg (mul_nonneg (Nat.cast_nonneg (α := ℝ) k) hu) hu, mul_nonneg hu hu]
      calc (1 + u) ^ (k + 1) * (1 - (k + 1 : ℕ) * u) = (1 + u) ^ k * ((1 + u) * (1 - (k + 1 : ℕ) * u)) := by rw [pow_succ]; ring
        _ ≤ (1 + u) ^ k * (1 - k * u) := mul_le_mul_of_nonneg_left h2 h1
        _ ≤ 1 := ih
  have h1 := key k
  have h2 : 0 ≤ k * u := by positivity
  by_contra hc
  push Not at hc
  generalize (k : ℝ) * u = z at *
  generalize (1 + u) ^ k = a at *
  nlinarith

end Mfpml.Rounded
