import Mathlib.LinearAlgebra.FiniteDimensional.Lemmas
import Mathlib.LinearAlgebra.Matrix.ToLin
import Verif.Model.RoundedCholesky
import Verif.Spec.RoundedCholesky
import Verif.Lemmas.RoundedKernel

/-!
# Error analysis of the Cholesky factorisation
-/

set_option linter.unusedSectionVars false

open scoped BigOperators

namespace Mfpml.Rounded

variable {p : ℕ} {emin : ℤ} {R : Rounding p emin}

theorem quad_le {n : ℕ} {E : Fin n → Fin n → ℝ} {ε : ℝ} (hE : ∀ i j, |E i j| ≤ ε) (v : Fin n → ℝ) : |∑ i, ∑ j, v i * E i j * v j| ≤ n * ε * ∑ i, v i ^ 2 := by
  have h1 : |∑ i, ∑ j, v i * E i j * v j| ≤ ∑ i, ∑ j, ε / 2 * (v i ^ 2 + v j ^ 2) := by
    refine (Finset.abs_sum_le_sum_abs _ _).trans (Finset.sum_le_sum fun i _ => (Finset.abs_sum_le_sum_abs _ _).trans (Finset.sum_le_sum fun j _ => ?_))
    rw [abs_mul, abs_mul]
    have h := hE i j
    have h2 : |v i| * |v j| ≤ (v i ^ 2 + v j ^ 2) / 2 := by
      have := two_mul_le_add_sq |v i| |v j|
      rw [sq_abs, sq_abs] at this
      linarith
    have h3 : 0 ≤ |v i| * |v j| := by positivity
    have h4 := (abs_nonneg _).trans h
    nlinarith
  refine h1.trans (le_of_eq ?_)
  simp only [← Finset.mul_sum, Finset.sum_add_distrib, Finset.sum_const, Finset.card_univ, Fintype.card_fin, nsmul_eq_mul]
  ring

/-- Fewer columns than rows: the rows are linearly dependent. -/
theorem exists_dependent {c : ℕ} (G : Fin (c + 1) → Fin c → ℝ) : ∃ v : Fin (c + 1) → ℝ, (∃ a, v a ≠ 0) ∧ ∀ k, ∑ a, v a * G a k = 0 := by
  have h := LinearMap.ker_ne_bot_of_finrank_lt (f := Matrix.mulVecLin (Matrix.of fun k a => G a k)) (by simp)
  obtain ⟨v, hv, hne⟩ := Submodule.exists_mem_ne_zero_of_ne_bot h
  refine ⟨v, Function.ne_iff.mp hne, fun k => ?_⟩
  have := congrFun (LinearMap.mem_ker.mp hv) k
  simp only [Matrix.mulVecLin_apply, Matrix.mulVec, dotProduct, Matrix.of_apply, Pi.zero_apply] at this
  rw [← this]
  exact Finset.sum_congr rfl fun a _ => mul_comm _ _

/-- If the first `c` columns of the factor reproduce a well conditioned matrix, the entries left of the pivot in row `i` cannot use up the whole diagonal entry. -/
theorem chol_core {n c : ℕ} {a : Fin n → Fin n → ℝ} (hsym : ∀ i j, a i j = a j i) {lam ε : ℝ} (hlam : ∀ v : Fin n → ℝ, lam * ∑ i, v i ^ 2 ≤ ∑ i, ∑ j, v i * a i j * v j) (hε : 0 ≤ ε) (hn : n * ε < lam)
    {l : Fin n → ℕ → ℝ} (htri : ∀ (j : Fin n) k, j.val < k → l j k = 0) (i : Fin n) (hc : c ≤ i.val)
    (hE : ∀ x j : Fin n, j.val < c → j ≤ x → (x.val < c ∨ x = i) → |∑ k ∈ Finset.range (j.val + 1), l x k * l j k - a x j| ≤ ε) :
    ∑ k ∈ Finset.range c, l i k ^ 2 < a i i - ε := by
  by_contra hN
  push Not at hN
  -- rows 0, ..., c - 1 and i
  set ρ : Fin (c + 1) → Fin n := fun b => if h : b.val < c then ⟨b.val, by omega⟩ else i with hρ
  have hρlt : ∀ b : Fin (c + 1), b.val < c → (ρ b).val = b.val := fun b h => by simp only [hρ, h, dif_pos]
  have hρlast : ∀ b : Fin (c + 1), ¬ b.val < c → ρ b = i := fun b h => by simp only [hρ, h, dif_neg, not_false_eq_true]
  have hinj : Function.Injective ρ := fun b b' h => by
    have h' := congrArg Fin.val h
    by_cases h1 : b.val < c <;> by_cases h2 : b'.val < c
    · rw [hρlt b h1, hρlt b' h2] at h'; exact Fin.ext h'
    · rw [hρlt b h1, hρlast b' h2] at h'; omega
    · rw [hρlast b h1, hρlt b' h2] at h'; omega
    · exact Fin.ext (by have := b.isLt; have := b'.isLt; omega)
  obtain ⟨v, ⟨b0, hb0⟩, hv⟩ := exists_dependent fun (b : Fin (c + 1)) (k : Fin c) => l (ρ b) k.val
  have hsq : 0 < ∑ b, v b ^ 2 := Finset.sum_pos' (fun b _ => sq_nonneg _) ⟨b0, Finset.mem_univ _, by positivity⟩
  -- the quadratic form on these rows
  have hq : lam * ∑ b, v b ^ 2 ≤ ∑ b, ∑ b', v b * a (ρ b) (ρ b') * v b' := by
    have h := hlam (Function.extend ρ v 0)
    have hz : ∀ x, x ∉ Set.range ρ → Function.extend ρ v 0 x = 0 := fun x hx => by
      rw [Function.extend_apply' _ _ _ (by simpa using hx)]; rfl
    have he : ∀ b, Function.extend ρ v 0 (ρ b) = v b := fun b => hinj.extend_apply v 0 b
    rw [← Fintype.sum_of_injective ρ hinj (fun b => v b ^ 2) (fun x => Function.extend ρ v 0 x ^ 2) (fun x hx => by rw [hz x hx]; norm_num) (fun b => by rw [he])] at h
    rw [← Fintype.sum_of_injective ρ hinj (fun b => ∑ b', v b * a (ρ b) (ρ b') * v b') (fun x => ∑ y, Function.extend ρ v 0 x * a x y * Function.extend ρ v 0 y)
      (fun x hx => by simp only [hz x hx, zero_mul, Finset.sum_const_zero])
      (fun b => Fintype.sum_of_injective ρ hinj _ _ (fun y hy => by rw [hz y hy, mul_zero]) (fun b' => by rw [he, he]))] at h
    exact h
  -- the product of the factor with itself
  set B : Fin (c + 1) → Fin (c + 1) → ℝ := fun b b' => ∑ k : Fin c, l (ρ b) k.val * l (ρ b') k.val with hB
  have hB0 : ∑ b, ∑ b', v b * B b b' * v b' = 0 := by
    have h1 : ∑ k : Fin c, (∑ b, v b * l (ρ b) k.val) * (∑ b', v b' * l (ρ b') k.val) = ∑ b, ∑ b', v b * B b b' * v b' := by
      simp only [Finset.sum_mul_sum]
      rw [Finset.sum_comm]
      refine Finset.sum_congr rfl fun b _ => ?_
      rw [Finset.sum_comm]
      refine Finset.sum_congr rfl fun b' _ => ?_
      simp only [hB, Finset.mul_sum, Finset.sum_mul]
      exact Finset.sum_congr rfl fun k _ => by ring
    rw [← h1]
    exact Finset.sum_eq_zero fun k _ => by rw [hv k, zero_mul]
  have hBsym : ∀ b b', B b b' = B b' b := fun b b' => Finset.sum_congr rfl fun k _ => mul_comm _ _
  have hBe : ∀ b b' : Fin (c + 1), b'.val < c → b' ≤ b → |B b b' - a (ρ b) (ρ b')| ≤ ε := fun b b' hb' hle => by
    have hr := hρlt b' hb'
    have hle' : ρ b' ≤ ρ b := by
      by_cases h1 : b.val < c
      · exact Fin.le_def.mpr (by rw [hr, hρlt b h1]; exact hle)
      · rw [hρlast b h1]; exact Fin.le_def.mpr (by rw [hr]; omega)
    have h := hE (ρ b) (ρ b') (by rw [hr]; exact hb') hle' (by
      by_cases h1 : b.val < c
      · left; rw [hρlt b h1]; exact h1
      · right; exact hρlast b h1)
    have hsum : B b b' = ∑ k ∈ Finset.range ((ρ b').val + 1), l (ρ b) k * l (ρ b') k := by
      simp only [hB]
      rw [Fin.sum_univ_eq_sum_range (fun k => l (ρ b) k * l (ρ b') k) c]
      symm
      refine Finset.sum_subset (Finset.range_mono (by rw [hr]; omega)) fun k _ hk => ?_
      rw [Finset.mem_range] at hk
      rw [htri (ρ b') k (by omega), mul_zero]
    rw [hsum]
    exact h
  set D : Fin (c + 1) → Fin (c + 1) → ℝ := fun b b' => if b.val < c ∨ b'.val < c then B b b' - a (ρ b) (ρ b') else -ε with hD
  have hDle : ∀ b b', |D b b'| ≤ ε := fun b b' => by
    simp only [hD]
    by_cases h1 : b.val < c ∨ b'.val < c
    · rw [if_pos h1]
      rcases le_total b' b with h2 | h2
      · exact hBe b b' (by have := Fin.le_def.mp h2; rcases h1 with h | h <;> omega) h2
      · rw [hBsym, hsym]
        exact hBe b' b (by have := Fin.le_def.mp h2; rcases h1 with h | h <;> omega) h2
    · rw [if_neg h1, abs_neg, abs_of_nonneg hε]
  have hD2 := (abs_le.mp (quad_le hDle v)).1
  have hle : ∑ b, ∑ b', v b * (a (ρ b) (ρ b') + D b b') * v b' ≤ ∑ b, ∑ b', v b * B b b' * v b' := Finset.sum_le_sum fun b _ => Finset.sum_le_sum fun b' _ => by
    by_cases h1 : b.val < c ∨ b'.val < c
    · have : a (ρ b) (ρ b') + D b b' = B b b' := by simp only [hD]; rw [if_pos h1]; ring
      rw [this]
    · have hbb : b = b' := Fin.ext (by have := b.isLt; have := b'.isLt; omega)
      subst hbb
      have h2 : ¬ b.val < c := fun h => h1 (.inl h)
      have h3 : a (ρ b) (ρ b) + D b b ≤ B b b := by
        simp only [hD, hB]
        rw [if_neg h1, hρlast b h2, Fin.sum_univ_eq_sum_range (fun k => l i k * l i k) c]
        have : ∑ k ∈ Finset.range c, l i k * l i k = ∑ k ∈ Finset.range c, l i k ^ 2 := Finset.sum_congr rfl fun k _ => (sq (l i k)).symm
        rw [this]
        linarith
      have := mul_le_mul_of_nonneg_left h3 (mul_self_nonneg (v b))
      linarith
  have hsplit : ∑ b, ∑ b', v b * (a (ρ b) (ρ b') + D b b') * v b' = ∑ b, ∑ b', v b * a (ρ b) (ρ b') * v b' + ∑ b, ∑ b', v b * D b b' * v b' := by
    rw [← Finset.sum_add_distrib]
    refine Finset.sum_congr rfl fun b _ => ?_
    rw [← Finset.sum_add_distrib]
    exact Finset.sum_congr rfl fun b' _ => by ring
  have hcn : ((c + 1 : ℕ) : ℝ) * ε ≤ n * ε := mul_le_mul_of_nonneg_right (by exact_mod_cast (by have := i.isLt; omega)) hε
  nlinarith

/-! ### One entry -/

theorem Fl.sub_zero (a : Fl R) : a - 0 = a := Fl.val_injective (by
  change R.fl (a.val - 0) = a.val
  rw [_root_.sub_zero, R.fl_of_isFloat a.isFloat])

/-- The subtractions for one entry, in whatever order: at most one rounding for each product and one more. -/
theorem SubDot.acc (hp : 1 ≤ p) {a : Fl R} {l : List (Fl R × Fl R)} {s : Fl R} (h : SubDot R a l s) :
    Acc (2 ^ (-(p : ℤ))) (l.length + 1) (|a.val| + (l.map fun xy => |xy.1.val * xy.2.val| + 2 ^ (emin + p - 1)).sum) (a.val - (l.map fun xy => xy.1.val * xy.2.val).sum) s.val ∧
      |(l.map fun xy => xy.1.val * xy.2.val).sum| ≤ (l.map fun xy => |xy.1.val * xy.2.val| + 2 ^ (emin + p - 1)).sum ∧
      (l ≠ [] → |(l.map fun xy => xy.1.val * xy.2.val).sum| + 2 ^ (emin + p - 1) ≤ (l.map fun xy => |xy.1.val * xy.2.val| + 2 ^ (emin + p - 1)).sum) := by
  have hu : (0 : ℝ) < 2 ^ (-(p : ℤ)) := two_zpow_pos _
  have ht : (0 : ℝ) < 2 ^ (emin + p - 1) := two_zpow_pos _
  induction h with
  | start =>
    refine ⟨?_, by simp, fun h => absurd rfl h⟩
    simp only [List.map_nil, List.sum_nil, _root_.add_zero, _root_.sub_zero, List.length_nil]
    exact (acc_exact _ _).mono hu.le (by omega) le_rfl (abs_nonneg _)
  | @sub l l' s b hl hd ih =>
    obtain ⟨i1, i2, i3⟩ := ih
    obtain ⟨d1, d2, d3⟩ := hd.acc hp (k := 0) (l'.map fun xy => (xy.1.val * xy.2.val, |xy.1.val * xy.2.val| + 2 ^ (emin + p - 1)))
      (List.forall₂_map_right_iff.mpr (List.forall₂_same.mpr fun xy _ => ⟨acc_exact _ _, le_rfl⟩))
    simp only [List.map_map, Function.comp_def, _root_.zero_add] at d1 d2 d3
    simp only [List.map_append, List.sum_append, List.length_append]
    by_cases e : l' = []
    · have := hd.nil_eq e
      subst this
      subst e
      rw [Fl.sub_zero]
      simp only [List.map_nil, List.sum_nil, _root_.add_zero, List.append_nil, List.length_nil]
      exact ⟨i1, i2, i3⟩
    · have n1 := List.length_pos_iff.mpr e
      have d3' := d3 e
      have hab := abs_add_le (l.map fun xy => xy.1.val * xy.2.val).sum (l'.map fun xy => xy.1.val * xy.2.val).sum
      refine ⟨?_, by linarith, fun _ => by linarith⟩
      have w1 : 0 ≤ |a.val| + (l.map fun xy => |xy.1.val * xy.2.val| + 2 ^ (emin + (p : ℤ) - 1)).sum := by linarith [abs_nonneg a.val, (abs_nonneg _).trans i2]
      have w2 := (abs_nonneg _).trans d2
      have s1 := i1.mono hu.le (l := l.length + l'.length) (by omega) le_rfl w1
      have s2 := d1.neg.mono hu.le (l := l.length + l'.length) (by omega) le_rfl w2
      have hb : |a.val - (l.map fun xy => xy.1.val * xy.2.val).sum + -(l'.map fun xy => xy.1.val * xy.2.val).sum| + 2 ^ (emin + (p : ℤ) - 1) ≤
          |a.val| + (l.map fun xy => |xy.1.val * xy.2.val| + 2 ^ (emin + (p : ℤ) - 1)).sum + (l'.map fun xy => |xy.1.val * xy.2.val| + 2 ^ (emin + (p : ℤ) - 1)).sum := by
        have h1 := abs_add_le (a.val - (l.map fun xy => xy.1.val * xy.2.val).sum) (-(l'.map fun xy => xy.1.val * xy.2.val).sum)
        have h2 := abs_sub a.val (l.map fun xy => xy.1.val * xy.2.val).sum
        rw [abs_neg] at h1
        linarith
      have := (s1.add s2).fl hp R hb
      rw [show (s - b).val = R.fl (s.val + -b.val) by rw [← sub_eq_add_neg]; rfl]
      convert this using 1
      · ring
      · ring
  | @fnma l s x y hl ih =>
    obtain ⟨i1, i2, i3⟩ := ih
    simp only [List.map_cons, List.sum_cons, List.length_cons]
    have hab := abs_add_le (x.val * y.val) (l.map fun xy => xy.1.val * xy.2.val).sum
    have w1 : 0 ≤ |a.val| + (l.map fun xy => |xy.1.val * xy.2.val| + 2 ^ (emin + (p : ℤ) - 1)).sum := by linarith [abs_nonneg a.val, (abs_nonneg _).trans i2]
    refine ⟨?_, by linarith, fun _ => by linarith⟩
    have s2 : Acc (2 ^ (-(p : ℤ))) (l.length + 1) (|x.val * y.val| + 2 ^ (emin + (p : ℤ) - 1)) (-(x.val * y.val)) (-(x.val * y.val)) :=
      (acc_exact _ _).mono hu.le (by omega) le_rfl (by positivity)
    have hb : |a.val - (l.map fun xy => xy.1.val * xy.2.val).sum + -(x.val * y.val)| + 2 ^ (emin + (p : ℤ) - 1) ≤
        |a.val| + (l.map fun xy => |xy.1.val * xy.2.val| + 2 ^ (emin + (p : ℤ) - 1)).sum + (|x.val * y.val| + 2 ^ (emin + (p : ℤ) - 1)) := by
      have h1 := abs_add_le (a.val - (l.map fun xy => xy.1.val * xy.2.val).sum) (-(x.val * y.val))
      have h2 := abs_sub a.val (l.map fun xy => xy.1.val * xy.2.val).sum
      rw [abs_neg] at h1
      linarith
    have := (i1.add s2).fl hp R hb
    rw [show (Fl.ofReal R (s.val - x.val * y.val)).val = R.fl (s.val + -(x.val * y.val)) by rw [← sub_eq_add_neg]; rfl]
    convert this using 1
    · ring
    · ring
  | @perm l l' s hpm hl ih =>
    rw [← (hpm.map fun xy => xy.1.val * xy.2.val).sum_eq, ← (hpm.map fun xy => |xy.1.val * xy.2.val| + 2 ^ (emin + (p : ℤ) - 1)).sum_eq, ← hpm.length_eq]
    exact ⟨ih.1, ih.2.1, fun h => ih.2.2 (fun h' => h (by rw [h'] at hpm; exact hpm.symm.eq_nil))⟩

/-! ### Rounding errors of the last step, for real numbers -/

section
variable {u t M s l d r : ℝ}

theorem sqrt_step (hu : 0 < u) (hu1 : u ≤ 1 / 100) (ht : 0 < t) (htu : t ≤ u) (hM : 1 ≤ M) (hs : 0 < s) (hs2 : s ≤ 2.1 * M) (hl : |l - Real.sqrt s| ≤ u * (|Real.sqrt s| + t)) : |l ^ 2 - s| ≤ 5 * u * M := by
  have h0 := Real.sqrt_nonneg s
  have hq : Real.sqrt s ^ 2 = s := Real.sq_sqrt hs.le
  set q := Real.sqrt s with hqd
  rw [abs_of_nonneg h0] at hl
  have hq2 : q ≤ 1.5 * M := by nlinarith
  have htq : t * q ≤ 0.015 * M := by nlinarith
  have htt : t ^ 2 ≤ 0.0001 * M := by nlinarith
  have hqt : (q + t) ^ 2 ≤ 2.2 * M := by nlinarith
  have e1 : l ^ 2 - s = (l - q) * (l - q) + 2 * q * (l - q) := by rw [← hq]; ring
  rw [e1]
  have h1 := mul_le_mul hl hl (abs_nonneg _) (by positivity)
  calc |(l - q) * (l - q) + 2 * q * (l - q)| ≤ |l - q| * |l - q| + 2 * q * |l - q| := by
        refine (abs_add_le _ _).trans ?_
        rw [abs_mul, abs_mul, abs_of_nonneg (by positivity : (0 : ℝ) ≤ 2 * q)]
    _ ≤ u * (q + t) * (u * (q + t)) + 2 * q * (u * (q + t)) := add_le_add h1 (mul_le_mul_of_nonneg_left hl (by positivity))
    _ = u * (u * (q + t) ^ 2 + 2 * q ^ 2 + 2 * (t * q)) := by ring
    _ ≤ u * (5 * M) := by
        apply mul_le_mul_of_nonneg_left _ hu.le
        have : u * (q + t) ^ 2 ≤ 1 / 100 * (2.2 * M) := mul_le_mul hu1 hqt (by positivity) (by norm_num)
        linarith
    _ = 5 * u * M := by ring

theorem div_step (hu : 0 < u) (hu1 : u ≤ 1 / 100) (ht : 0 < t) (htu : t ≤ u) (hM : 1 ≤ M) (htM : M * t ≤ 1) (hs : |s| ≤ 2.1 * M) (hd : 0 < d) (hd2 : d ^ 2 ≤ 2.2 * M)
    (hl : |l - s / d| ≤ u * (|s / d| + t) ∨ |r - 1 / d| ≤ u * (|1 / d| + t) ∧ |l - s * r| ≤ u * (|s * r| + t)) : |l * d - s| ≤ 5 * u * M := by
  have htd : t * d ≤ 0.15 := by
    have h1 : (t * d) ^ 2 ≤ 0.15 ^ 2 := by
      have : (t * d) ^ 2 = t ^ 2 * d ^ 2 := by ring
      have h2 : t ^ 2 * d ^ 2 ≤ t ^ 2 * (2.2 * M) := mul_le_mul_of_nonneg_left hd2 (by positivity)
      have h3 : t ^ 2 * (2.2 * M) = 2.2 * t * (M * t) := by ring
      have h4 : 2.2 * t * (M * t) ≤ 2.2 * t * 1 := mul_le_mul_of_nonneg_left htM (by positivity)
      linarith
    exact (abs_le_of_sq_le_sq' h1 (by norm_num)).2
  have htd0 : 0 < t * d := by positivity
  rcases hl with hl | ⟨hr, hl⟩
  · have e1 : l * d - s = (l - s / d) * d := by field_simp
    rw [e1, abs_mul, abs_of_pos hd]
    calc |l - s / d| * d ≤ u * (|s / d| + t) * d := mul_le_mul_of_nonneg_right hl hd.le
      _ = u * (|s| + t * d) := by rw [abs_div, abs_of_pos hd]; field_simp
      _ ≤ u * (5 * M) := mul_le_mul_of_nonneg_left (by linarith) hu.le
      _ = 5 * u * M := by ring
  · have hr' : |r * d - 1| ≤ u * (1 + t * d) := by
      have e1 : r * d - 1 = (r - 1 / d) * d := by field_simp
      rw [e1, abs_mul, abs_of_pos hd]
      calc |r - 1 / d| * d ≤ u * (|1 / d| + t) * d := mul_le_mul_of_nonneg_right hr hd.le
        _ = u * (1 + t * d) := by rw [abs_div, abs_of_pos hd, abs_one]; field_simp
    have h1 : |r * d - 1| ≤ u * 1.15 := hr'.trans (mul_le_mul_of_nonneg_left (by linarith) hu.le)
    have h2 : |r * d| ≤ 1.0115 := by
      have := abs_add_le (r * d - 1) 1
      rw [abs_one, sub_add_cancel] at this
      linarith
    have e2 : l * d - s = (l - s * r) * d + s * (r * d - 1) := by ring
    rw [e2]
    refine (abs_add_le _ _).trans ?_
    rw [abs_mul, abs_mul, abs_of_pos hd]
    have h3 : |l - s * r| * d ≤ u * (|s| * |r * d| + t * d) := by
      calc |l - s * r| * d ≤ u * (|s * r| + t) * d := mul_le_mul_of_nonneg_right hl hd.le
        _ = u * (|s| * |r * d| + t * d) := by rw [abs_mul, abs_mul, abs_of_pos hd]; ring
    have h4 : |s| * |r * d| ≤ 2.1 * M * 1.0115 := mul_le_mul hs h2 (abs_nonneg _) (by positivity)
    have h5 : |s| * |r * d - 1| ≤ 2.1 * M * (u * 1.15) := mul_le_mul hs h1 (abs_nonneg _) (by positivity)
    have h6 : u * (|s| * |r * d| + t * d) ≤ u * (2.1 * M * 1.0115 + 0.15) := mul_le_mul_of_nonneg_left (by linarith) hu.le
    have h7 : u * 0.15 ≤ u * (0.15 * M) := mul_le_mul_of_nonneg_left (by linarith) hu.le
    have h8 : 0 ≤ u * M := by positivity
    linarith

end

/-! ### The whole factorisation -/

/-- Entries of the lower triangle, with natural numbers as column indices. -/
def lowEntry {n : ℕ} (L : Fin n → Fin n → Fl R) (i : Fin n) (k : ℕ) : ℝ := if h : k ≤ i.val then (L i ⟨k, h.trans_lt i.isLt⟩).val else 0

theorem lowEntry_of_le {n : ℕ} (L : Fin n → Fin n → Fl R) {i k : Fin n} (h : k ≤ i) : lowEntry L i k.val = (L i k).val := by
  unfold lowEntry
  rw [dif_pos (Fin.le_def.mp h)]

theorem sum_rowPairs {n : ℕ} (L : Fin n → Fin n → Fl R) {i j : Fin n} (hij : j ≤ i) (f : ℝ → ℝ) :
    ((rowPairs L i j).map fun xy => f (xy.1.val * xy.2.val)).sum = ∑ k ∈ Finset.range j.val, f (lowEntry L i k * lowEntry L j k) := by
  unfold rowPairs
  rw [List.map_ofFn, List.sum_ofFn, ← Fin.sum_univ_eq_sum_range (fun k => f (lowEntry L i k * lowEntry L j k)) j.val]
  refine Finset.sum_congr rfl fun k _ => ?_
  have h1 : lowEntry L i k.val = (L i (Fin.castLE j.isLt.le k)).val := lowEntry_of_le L (k := Fin.castLE j.isLt.le k) (Fin.le_def.mpr (by have := Fin.le_def.mp hij; have := k.isLt; simp only [Fin.val_castLE]; omega))
  have h2 : lowEntry L j k.val = (L j (Fin.castLE j.isLt.le k)).val := lowEntry_of_le L (k := Fin.castLE j.isLt.le k) (Fin.le_def.mpr (by have := k.isLt; simp only [Fin.val_castLE]; omega))
  simp only [Function.comp_apply, h1, h2]

theorem sum_abs_mul_le (c : ℕ) (x y : ℕ → ℝ) {M : ℝ} (hx : ∑ k ∈ Finset.range c, x k ^ 2 ≤ M) (hy : ∑ k ∈ Finset.range c, y k ^ 2 ≤ M) : ∑ k ∈ Finset.range c, |x k * y k| ≤ M := by
  have h : ∑ k ∈ Finset.range c, |x k * y k| ≤ ∑ k ∈ Finset.range c, (1 / 2 * x k ^ 2 + 1 / 2 * y k ^ 2) := Finset.sum_le_sum fun k _ => by
    rw [abs_mul]
    have := two_mul_le_add_sq |x k| |y k|
    rw [sq_abs, sq_abs] at this
    linarith
  rw [Finset.sum_add_distrib, ← Finset.mul_sum, ← Finset.mul_sum] at h
  linarith

/-- One entry after the subtractions. -/
theorem entry_step (hp : 1 ≤ p) (he : emin + 2 * p ≤ 1) {n : ℕ} {A L S : Fin n → Fin n → Fl R} {i j : Fin n} (hij : j ≤ i) {M : ℝ} (hM : 1 ≤ M) (hu : (n + 4) * (2 : ℝ) ^ (-(p : ℤ)) ≤ 1 / 100)
    (hA : |(A i j).val| ≤ M) (hNi : ∑ k ∈ Finset.range j.val, lowEntry L i k ^ 2 ≤ M) (hNj : ∑ k ∈ Finset.range j.val, lowEntry L j k ^ 2 ≤ M) (h : SubDot R (A i j) (rowPairs L i j) (S i j)) :
    |(S i j).val - ((A i j).val - ∑ k ∈ Finset.range j.val, lowEntry L i k * lowEntry L j k)| ≤ 2.06 * n * 2 ^ (-(p : ℤ)) * M ∧ |(S i j).val| ≤ 2.1 * M := by
  have hu0 : (0 : ℝ) < 2 ^ (-(p : ℤ)) := two_zpow_pos _
  have ht0 : (0 : ℝ) < 2 ^ (emin + (p : ℤ) - 1) := two_zpow_pos _
  have htu : (2 : ℝ) ^ (emin + (p : ℤ) - 1) ≤ 2 ^ (-(p : ℤ)) := zpow_le_zpow_right₀ (by norm_num) (by omega)
  have hacc := (h.acc hp).1
  have hlen : (rowPairs L i j).length = j.val := by unfold rowPairs; rw [List.length_ofFn]
  rw [sum_rowPairs L hij (fun x => |x| + 2 ^ (emin + (p : ℤ) - 1)), sum_rowPairs L hij (fun x => x), hlen, Finset.sum_add_distrib, Finset.sum_const, Finset.card_range, nsmul_eq_mul] at hacc
  have hsum := sum_abs_mul_le j.val (lowEntry L i) (lowEntry L j) hNi hNj
  have habs := Finset.abs_sum_le_sum_abs (fun k => lowEntry L i k * lowEntry L j k) (Finset.range j.val)
  unfold Rounded.Acc at hacc
  generalize (2 : ℝ) ^ (-(p : ℤ)) = u at *
  generalize (2 : ℝ) ^ (emin + (p : ℤ) - 1) = t at *
  have hjn : ((j.val + 1 : ℕ) : ℝ) ≤ n := by exact_mod_cast j.isLt
  have hju : ((j.val + 1 : ℕ) : ℝ) * u ≤ n * u := mul_le_mul_of_nonneg_right hjn hu0.le
  have hpow := one_add_pow_le hu0.le (j.val + 1) (by linarith)
  have hj0 : (j.val : ℝ) ≤ n := by push_cast at hjn; linarith
  have hjt : (j.val : ℝ) * t ≤ 0.01 * M := by
    have h1 : (j.val : ℝ) * t ≤ n * u := mul_le_mul hj0 htu ht0.le (Nat.cast_nonneg _)
    linarith
  set X := ∑ k ∈ Finset.range j.val, |lowEntry L i k * lowEntry L j k|
  have hX0 : 0 ≤ X := Finset.sum_nonneg fun k _ => abs_nonneg _
  have hw0 : 0 ≤ |(A i j).val| + (X + j.val * t) := by positivity
  have hb : ((1 + u) ^ (j.val + 1) - 1) * (|(A i j).val| + (X + j.val * t)) ≤ (1.02 * (n * u)) * (2.01 * M) :=
    mul_le_mul (by linarith) (by linarith) hw0 (by positivity)
  have hn0 : 0 ≤ n * u * M := by positivity
  have h1 : |(S i j).val - ((A i j).val - ∑ k ∈ Finset.range j.val, lowEntry L i k * lowEntry L j k)| ≤ 2.06 * n * u * M := by
    refine hacc.trans (hb.trans ?_)
    linarith
  refine ⟨h1, ?_⟩
  have h2 := abs_add_le ((S i j).val - ((A i j).val - ∑ k ∈ Finset.range j.val, lowEntry L i k * lowEntry L j k)) ((A i j).val - ∑ k ∈ Finset.range j.val, lowEntry L i k * lowEntry L j k)
  rw [sub_add_cancel] at h2
  have h3 := abs_sub (A i j).val (∑ k ∈ Finset.range j.val, lowEntry L i k * lowEntry L j k)
  have h4 : n * u * M ≤ 0.01 * M := mul_le_mul_of_nonneg_right (by linarith) (by linarith)
  linarith

section
variable {n : ℕ} {A L S : Fin n → Fin n → Fl R} {M lam : ℝ}

/-- Columns that have been computed reproduce the matrix. -/
theorem CholCols.error (hp : 1 ≤ p) (he : emin + 2 * p ≤ 1) (hM : 1 ≤ M) (hMt : M * 2 ^ (emin + (p : ℤ) - 1) ≤ 1) (hA : ∀ i j, |lowerOf A i j| ≤ M)
    (hlam : ∀ v : Fin n → ℝ, lam * ∑ i, v i ^ 2 ≤ ∑ i, ∑ j, v i * lowerOf A i j * v j) (hu : (n + 4) * (2 : ℝ) ^ (-(p : ℤ)) ≤ 1 / 100) (hn : n * Spec.cholAccuracy p n M < lam)
    {m r : ℕ} (h : CholCols A L S m r) : ∀ c, c ≤ m →
      (∀ x j : Fin n, j.val < c → x.val < r → j ≤ x → |∑ k ∈ Finset.range (j.val + 1), lowEntry L x k * lowEntry L j k - lowerOf A x j| ≤ Spec.cholAccuracy p n M) ∧
      ∀ x : Fin n, c ≤ x.val → x.val < r → ∑ k ∈ Finset.range c, lowEntry L x k ^ 2 < lowerOf A x x - Spec.cholAccuracy p n M := by
  have hu0 : (0 : ℝ) < 2 ^ (-(p : ℤ)) := two_zpow_pos _
  have ht0 : (0 : ℝ) < 2 ^ (emin + (p : ℤ) - 1) := two_zpow_pos _
  have htu : (2 : ℝ) ^ (emin + (p : ℤ) - 1) ≤ 2 ^ (-(p : ℤ)) := zpow_le_zpow_right₀ (by norm_num) (by omega)
  have hε0 : 0 ≤ Spec.cholAccuracy p n M := by unfold Spec.cholAccuracy; positivity
  have hn0 : (0 : ℝ) ≤ n := Nat.cast_nonneg n
  have hu1 : (2 : ℝ) ^ (-(p : ℤ)) ≤ 1 / 100 := by nlinarith
  have hsym : ∀ i j, lowerOf A i j = lowerOf A j i := fun i j => by
    unfold lowerOf
    rcases lt_trichotomy i j with h | h | h
    · rw [if_pos h.le, if_neg (not_le.mpr h)]
    · rw [h]
    · rw [if_pos h.le, if_neg (not_le.mpr h)]
  have htri : ∀ (j : Fin n) k, j.val < k → lowEntry L j k = 0 := fun j k h => by unfold lowEntry; rw [dif_neg (by omega)]
  -- the second part follows from the first
  have hcore : ∀ c, (∀ x j : Fin n, j.val < c → x.val < r → j ≤ x → |∑ k ∈ Finset.range (j.val + 1), lowEntry L x k * lowEntry L j k - lowerOf A x j| ≤ Spec.cholAccuracy p n M) →
      ∀ x : Fin n, c ≤ x.val → x.val < r → ∑ k ∈ Finset.range c, lowEntry L x k ^ 2 < lowerOf A x x - Spec.cholAccuracy p n M := fun c hc x hcx hxr =>
    chol_core hsym hlam hε0 hn htri x hcx fun y j hj hjy hy => hc y j hj (hy.elim (fun h => by omega) fun h => by rw [h]; exact hxr) hjy
  intro c
  induction c with
  | zero => exact fun _ => ⟨fun x j hj => absurd hj (by omega), hcore 0 fun x j hj => absurd hj (by omega)⟩
  | succ c ih =>
    intro hc
    obtain ⟨ih1, ih2⟩ := ih (by omega)
    have step : ∀ x j : Fin n, j.val < c + 1 → x.val < r → j ≤ x → |∑ k ∈ Finset.range (j.val + 1), lowEntry L x k * lowEntry L j k - lowerOf A x j| ≤ Spec.cholAccuracy p n M := fun x j hj hx hjx => by
      by_cases hjc : j.val < c
      · exact ih1 x j hjc hx hjx
      have hjc' : j.val = c := by omega
      have hjx' := Fin.le_def.mp hjx
      have hle : ∀ y : Fin n, j ≤ y → y.val < r → ∑ k ∈ Finset.range j.val, lowEntry L y k ^ 2 ≤ M := fun y hy hyr => by
        have h1 := ih2 y (by rw [← hjc']; exact Fin.le_def.mp hy) hyr
        rw [← hjc'] at h1
        have := (abs_le.mp (hA y y)).2
        linarith
      have hax : ∀ y : Fin n, j ≤ y → lowerOf A y j = (A y j).val := fun y hy => by unfold lowerOf; rw [if_pos hy]
      obtain ⟨c1, c2, c3, c4⟩ := h x j (by omega) hx hjx
      obtain ⟨d1, _, d3, _⟩ := h j j (by omega) (by omega) le_rfl
      have hAx := hA x j
      have hAj := hA j j
      rw [hax x hjx] at hAx ⊢
      rw [hax j le_rfl] at hAj
      obtain ⟨e1, e2⟩ := entry_step hp he hjx hM hu hAx (hle x hjx hx) (hle j le_rfl (by omega)) c1
      obtain ⟨_, f2⟩ := entry_step hp he (le_refl j) hM hu hAj (hle j le_rfl (by omega)) (hle j le_rfl (by omega)) d1
      have hL := d3 rfl
      have hLv : (L j j).val = R.fl (Real.sqrt (S j j).val) := by rw [hL]; rfl
      have hsq := sqrt_step hu0 hu1 ht0 htu hM c2 ((le_abs_self _).trans f2) (fl_error hp R (Real.sqrt (S j j).val))
      rw [← hLv] at hsq
      -- the last step
      have last : |lowEntry L x j.val * lowEntry L j j.val - (S x j).val| ≤ 5 * 2 ^ (-(p : ℤ)) * M := by
        rw [lowEntry_of_le L hjx, lowEntry_of_le L le_rfl]
        rcases hjx.eq_or_lt with e | hlt
        · subst e
          rw [← sq]
          exact hsq
        · have hpos : 0 < (L j j).val := by
            rw [hLv]
            rcases le_total (S j j).val 1 with h1 | h1
            · exact c2.trans_le (R.le_fl (Fl.isFloat _) (Real.le_sqrt_of_sq_le (by nlinarith)))
            · exact zero_lt_one.trans_le (R.le_fl (isFloat_one hp (by omega)) (Real.one_le_sqrt.mpr h1))
          have hd2 : (L j j).val ^ 2 ≤ 2.2 * M := by
            have h1 := (abs_le.mp hsq).2
            have h2 := (le_abs_self _).trans f2
            have h3 : 5 * 2 ^ (-(p : ℤ)) * M ≤ 0.05 * M := mul_le_mul_of_nonneg_right (by linarith) (by linarith)
            linarith
          rcases c4 hlt with e | e
          · exact div_step (r := 0) hu0 hu1 ht0 htu hM hMt e2 hpos hd2 (.inl (by rw [e]; exact fl_error hp R _))
          · refine div_step (r := R.fl (1 / (L j j).val)) hu0 hu1 ht0 htu hM hMt e2 hpos hd2 (.inr ⟨fl_error hp R _, ?_⟩)
            have hone : (1 : Fl R).val = 1 := R.fl_of_isFloat (isFloat_one hp (by omega))
            have : (L x j).val = R.fl ((S x j).val * R.fl (1 / (L j j).val)) := by
              rw [e]
              change R.fl ((S x j).val * R.fl ((1 : Fl R).val / (L j j).val)) = _
              rw [hone]
            rw [this]
            exact fl_error hp R _
      rw [Finset.sum_range_succ]
      have h1 := abs_add_le ((S x j).val - ((A x j).val - ∑ k ∈ Finset.range j.val, lowEntry L x k * lowEntry L j k)) (lowEntry L x j.val * lowEntry L j j.val - (S x j).val)
      have e3 : (S x j).val - ((A x j).val - ∑ k ∈ Finset.range j.val, lowEntry L x k * lowEntry L j k) + (lowEntry L x j.val * lowEntry L j j.val - (S x j).val) =
          ∑ k ∈ Finset.range j.val, lowEntry L x k * lowEntry L j k + lowEntry L x j.val * lowEntry L j j.val - (A x j).val := by ring
      rw [e3] at h1
      refine h1.trans ?_
      unfold Spec.cholAccuracy
      have : 0 ≤ n * 2 ^ (-(p : ℤ)) * M := by positivity
      have : 0 ≤ 2 ^ (-(p : ℤ)) * M := by positivity
      linarith
    exact ⟨step, hcore (c + 1) step⟩

end

end Mfpml.Rounded
