import Mathlib.Tactic.NormNum
import Mathlib.Tactic.Positivity
import Mathlib.Tactic.Linarith
import Verif.Lemmas.RoundedKernel
import Verif.Lemmas.RoundedCoKriging

/-!
# Error analysis of scalar products and means
-/

open scoped BigOperators

namespace Mfpml.Rounded

variable {p : ℕ} {emin : ℤ} {R : Rounding p emin} {n : ℕ}

/-- A scalar product of nearby numbers of size one with given coefficients. -/
theorem dot_near (hp : 1 ≤ p) {a b : Fin n → Fl R} {s : Fl R} (h : DotOf R (List.ofFn fun i => (a i, b i)) s) {A : Fin n → ℝ} {ε : ℝ} (hA : ∀ i, |(a i).val - A i| ≤ ε) (hA1 : ∀ i, |A i| ≤ 1) (hε : ε ≤ 1 / 5)
    (hn : n * (2 : ℝ) ^ (-(p : ℤ)) ≤ 1 / 100) :
    |s.val - ∑ i, A i * (b i).val| ≤ (ε + 1.3 * (n * 2 ^ (-(p : ℤ)))) * ∑ i, |(b i).val| + 1.1 * ((n * 2 ^ (-(p : ℤ))) * (n * 2 ^ (emin + p - 1))) := by
  have hu : (0 : ℝ) < 2 ^ (-(p : ℤ)) := two_zpow_pos _
  have ht : (0 : ℝ) < 2 ^ (emin + p - 1) := two_zpow_pos _
  obtain ⟨h1, -, -⟩ := DotOf.acc hp (k := 0) h (List.ofFn fun i => ((a i).val * (b i).val, |(a i).val * (b i).val| + 2 ^ (emin + p - 1))) (forall₂_ofFn fun i => ⟨acc_exact _ _, le_rfl⟩)
  rw [List.map_ofFn, List.map_ofFn, List.sum_ofFn, List.sum_ofFn, List.length_ofFn, Nat.zero_add] at h1
  unfold Acc at h1
  simp only [Function.comp] at h1
  rw [Finset.sum_add_distrib, Finset.sum_const, Finset.card_univ, Fintype.card_fin, nsmul_eq_mul] at h1
  have h2 := one_add_pow_le hu.le n hn
  have hB : 0 ≤ ∑ i, |(b i).val| := Finset.sum_nonneg fun i _ => abs_nonneg _
  have h3 : ∑ i, |(a i).val * (b i).val| ≤ 1.2 * ∑ i, |(b i).val| := by
    rw [Finset.mul_sum]
    refine Finset.sum_le_sum fun i _ => ?_
    rw [abs_mul]
    exact mul_le_mul_of_nonneg_right ((near_size (hA i) (hA1 i)).trans (by linarith)) (abs_nonneg _)
  have h4 : |∑ i, (a i).val * (b i).val - ∑ i, A i * (b i).val| ≤ ε * ∑ i, |(b i).val| := by
    rw [← Finset.sum_sub_distrib, Finset.mul_sum]
    refine (Finset.abs_sum_le_sum_abs _ _).trans (Finset.sum_le_sum fun i _ => ?_)
    rw [← sub_mul, abs_mul]
    exact mul_le_mul_of_nonneg_right (hA i) (abs_nonneg _)
  have h5 : |s.val - ∑ i, A i * (b i).val| ≤ |s.val - ∑ i, (a i).val * (b i).val| + |∑ i, (a i).val * (b i).val - ∑ i, A i * (b i).val| := abs_sub_le _ _ _
  have hnt : 0 ≤ n * (2 : ℝ) ^ (emin + (p : ℤ) - 1) := by positivity
  have hnu : 0 ≤ n * (2 : ℝ) ^ (-(p : ℤ)) := by positivity
  have h6 : ((1 + (2 : ℝ) ^ (-(p : ℤ))) ^ n - 1) * (∑ i, |(a i).val * (b i).val| + n * 2 ^ (emin + (p : ℤ) - 1)) ≤
      1.02 * (n * 2 ^ (-(p : ℤ))) * (1.2 * ∑ i, |(b i).val| + n * 2 ^ (emin + (p : ℤ) - 1)) :=
    mul_le_mul h2 (by linarith) (add_nonneg (Finset.sum_nonneg fun i _ => abs_nonneg _) hnt) (by positivity)
  generalize (2 : ℝ) ^ (-(p : ℤ)) = u at *
  generalize (2 : ℝ) ^ (emin + (p : ℤ) - 1) = t at *
  generalize ∑ i, |(b i).val| = B at *
  have e1 : 1.02 * (n * u) * (1.2 * B + n * t) = 1.224 * (n * u * B) + 1.02 * (n * u * (n * t)) := by ring
  have e2 : (ε + 1.3 * (n * u)) * B = ε * B + 1.3 * (n * u * B) := by ring
  have h7 : 0 ≤ n * u * B := by positivity
  have h8 : 0 ≤ n * u * (n * t) := by positivity
  rw [e1] at h6
  rw [e2]
  linarith

/-- Adding the two scalar products and scaling back. -/
theorem near_mean {f : ℝ → ℝ} {u t : ℝ} (hf : ∀ x, |f x - x| ≤ u * (|x| + t)) (hu : 0 < u) (ht : 0 < t) (hu1 : u ≤ 1 / 100) {N Q ε' B G a g α β s m : ℝ} (hN : 0 ≤ N) (hQ : 0 ≤ Q) (hNQ : (N + Q + 1) * u ≤ 1 / 100) (hε0 : 0 ≤ ε')
    (hε : ε' ≤ 1 / 5) (hB : 0 ≤ B) (hG : 0 ≤ G) (ha : |a - α| ≤ (2 * u + 1.3 * (Q * u)) * B + 1.1 * ((Q * u) * (Q * t))) (hg : |g - β| ≤ (ε' + 1.3 * (N * u)) * G + 1.1 * ((N * u) * (N * t))) (hα : |α| ≤ B) (hβ : |β| ≤ G) :
    |f (f (f (a + g) * s) + m) - (s * (α + β) + m)| ≤ (ε' + 2 * (N + Q + 4) * u) * (B + G + (N + Q + 1) * t) * |s| + u * (|m| + 3 * t) := by
  have hW : ∃ W, W = B + G + (N + Q + 1) * t := ⟨_, rfl⟩
  obtain ⟨W, hW⟩ := hW
  have hA : ∃ A, A = ε' + 2 * (N + Q + 1) * u := ⟨_, rfl⟩
  obtain ⟨A, hA⟩ := hA
  have hA0 : 0 ≤ A := by rw [hA]; positivity
  have hA1 : A ≤ 0.22 := by rw [hA]; linarith
  have hNt : 0 ≤ (N + Q) * t := by positivity
  have htW : t ≤ W := by rw [hW]; linarith
  have hW0 : 0 ≤ W := ht.le.trans htW
  have h1 : |a + g - (α + β)| ≤ A * W := by
    rw [show a + g - (α + β) = (a - α) + (g - β) by ring]
    refine (abs_add_le _ _).trans ((add_le_add ha hg).trans ?_)
    have a1 : (2 * u + 1.3 * (Q * u)) * B ≤ A * B := mul_le_mul_of_nonneg_right (by rw [hA]; nlinarith) hB
    have a2 : (ε' + 1.3 * (N * u)) * G ≤ A * G := mul_le_mul_of_nonneg_right (by rw [hA]; nlinarith) hG
    have a3 : 1.1 * ((Q * u) * (Q * t)) + 1.1 * ((N * u) * (N * t)) ≤ A * ((N + Q + 1) * t) := by
      have b1 : 0 ≤ u * t := by positivity
      have b2 : 0 ≤ N * Q * (u * t) := by positivity
      have b3 : 0 ≤ N * (u * t) := by positivity
      have b4 : 0 ≤ Q * (u * t) := by positivity
      have b5 : 0 ≤ N * N * (u * t) := by positivity
      have b6 : 0 ≤ Q * Q * (u * t) := by positivity
      have b7 : 0 ≤ ε' * ((N + Q + 1) * t) := by positivity
      have e : A * ((N + Q + 1) * t) = ε' * ((N + Q + 1) * t) + 2 * (N * N * (u * t)) + 2 * (Q * Q * (u * t)) + 4 * (N * Q * (u * t)) + 4 * (N * (u * t)) + 4 * (Q * (u * t)) + 2 * (u * t) := by rw [hA]; ring
      rw [e]
      linarith
    have e : A * W = A * B + A * G + A * ((N + Q + 1) * t) := by rw [hW]; ring
    rw [e]
    linarith
  have hM : |α + β| ≤ W := (abs_add_le _ _).trans (by rw [hW]; linarith)
  have h2 : |a + g| ≤ 1.3 * W := (near_size h1 hM).trans (by nlinarith)
  have h3 := near_round hf h1 h2 hu.le
  have h3' : |f (a + g) - (α + β)| ≤ (A + 2.3 * u) * W := h3.trans (by nlinarith)
  have h4 : |f (a + g)| ≤ 1.3 * W := (near_size h3' hM).trans (by nlinarith)
  have hs := abs_nonneg s
  have h5 : |f (a + g) * s - (α + β) * s| ≤ (A + 2.3 * u) * W * |s| := by
    rw [← sub_mul, abs_mul]
    exact mul_le_mul_of_nonneg_right h3' hs
  have h6 : |f (a + g) * s| ≤ 1.3 * W * |s| := by
    rw [abs_mul]
    exact mul_le_mul_of_nonneg_right h4 hs
  have h7 := near_round hf h5 h6 hu.le
  have hWs : 0 ≤ W * |s| := by positivity
  have hut : 0 ≤ u * t := by positivity
  have h8 : |f (f (a + g) * s) + m - ((α + β) * s + m)| ≤ (A + 2.3 * u) * W * |s| + u * (1.3 * W * |s| + t) := by rwa [add_sub_add_right_eq_sub]
  have h9 : |f (f (a + g) * s) + m| ≤ 1.4 * (W * |s|) + u * t + |m| := by
    have b1 : |(α + β) * s| ≤ W * |s| := by rw [abs_mul]; exact mul_le_mul_of_nonneg_right hM hs
    have b2 := near_size h7 b1
    refine (abs_add_le _ _).trans ?_
    have b3 : A * (W * |s|) ≤ 0.22 * (W * |s|) := mul_le_mul_of_nonneg_right hA1 hWs
    have b4 : u * (W * |s|) ≤ 1 / 100 * (W * |s|) := mul_le_mul_of_nonneg_right hu1 hWs
    have e : (A + 2.3 * u) * W * |s| + u * (1.3 * W * |s| + t) = A * (W * |s|) + 3.6 * (u * (W * |s|)) + u * t := by ring
    rw [e] at b2
    linarith
  have h10 := near_round hf h8 h9 hu.le
  rw [mul_comm s]
  refine h10.trans ?_
  have hm := abs_nonneg m
  have e1 : (A + 2.3 * u) * W * |s| + u * (1.3 * W * |s| + t) + u * (1.4 * (W * |s|) + u * t + |m| + t) = A * (W * |s|) + 5 * (u * (W * |s|)) + 2 * (u * t) + u * (u * t) + u * |m| := by ring
  have e2 : (ε' + 2 * (N + Q + 4) * u) * (B + G + (N + Q + 1) * t) * |s| + u * (|m| + 3 * t) = A * (W * |s|) + 6 * (u * (W * |s|)) + 3 * (u * t) + u * |m| := by rw [hA, hW]; ring
  rw [e1, e2]
  have b5 : u * (u * t) ≤ 1 / 100 * (u * t) := mul_le_mul_of_nonneg_right hu1 hut
  have b6 : 0 ≤ u * (W * |s|) := by positivity
  linarith

end Mfpml.Rounded
