import Verif.Props.EvaluatedCK

/-!
# Co-Kriging predictions vary slowly (C193)
-/

set_option linter.unusedSectionVars false

open scoped BigOperators Matrix

namespace Mfpml.Props

open Mfpml.GP Mfpml.Spec
open Mfpml.EA (Box)

variable {nh nl n m d q : ℕ}

/-- The quadratic form of a joint covariance is at least that of its two processes without nuggets and noise. -/
theorem ck_quad_split {C : Matrix (Fin (nl + nh)) (Fin (nl + nh)) ℝ} {gl g : (Fin d → ℝ) → (Fin d → ℝ) → ℝ} {sl s2 ρ νl ν : ℝ} (hsl : 0 ≤ sl) (hs2 : 0 ≤ s2) (ul : Samples nl d) (uh : Samples nh d)
    (hll : ∀ i k, C (Fin.castAdd nh i) (Fin.castAdd nh k) = sl * (gl (ul i) (ul k) + if i = k then 1e-10 + νl ^ 2 else 0))
    (hlh : ∀ i k, C (Fin.castAdd nh i) (Fin.natAdd nl k) = ρ * sl * (gl (ul i) (uh k) + if i.val = k.val then 1e-10 else 0))
    (hhl : ∀ i k, C (Fin.natAdd nl i) (Fin.castAdd nh k) = ρ * sl * (gl (uh i) (ul k) + if i.val = k.val then 1e-10 else 0))
    (hhh : ∀ i k, C (Fin.natAdd nl i) (Fin.natAdd nl k) = ρ ^ 2 * sl * (gl (uh i) (uh k) + if i = k then 1e-10 else 0) + s2 * (g (uh i) (uh k) + if i = k then 1e-10 + ν ^ 2 else 0))
    (x : Fin nl → ℝ) (y : Fin nh → ℝ) :
    sl * (∑ a, ∑ b, Fin.append x (fun i => ρ * y i) a * Fin.append x (fun i => ρ * y i) b * gl (Fin.append ul uh a) (Fin.append ul uh b)) + s2 * (∑ i, ∑ k, y i * y k * g (uh i) (uh k)) ≤
      ∑ a, ∑ b, Fin.append x y a * Fin.append x y b * C a b := by
  simp only [Fin.sum_univ_add, Fin.append_left, Fin.append_right, hll, hlh, hhl, hhh, Finset.sum_add_distrib]
  have b1 : ∑ i, ∑ k, x i * x k * (sl * (gl (ul i) (ul k) + if i = k then 1e-10 + νl ^ 2 else 0)) = sl * ∑ i, ∑ k, x i * x k * gl (ul i) (ul k) + sl * (1e-10 + νl ^ 2) * ∑ i, x i ^ 2 := by
    simp only [mul_add, Finset.sum_add_distrib, mul_ite, mul_zero, Finset.sum_ite_eq, Finset.mem_univ, if_true, Finset.mul_sum]
    congr 1
    · exact Finset.sum_congr rfl fun i _ => Finset.sum_congr rfl fun k _ => by ring
    · rw [← Finset.sum_add_distrib]; exact Finset.sum_congr rfl fun i _ => by ring
  have b2 : ∑ i, ∑ k, x i * y k * (ρ * sl * (gl (ul i) (uh k) + if i.val = k.val then 1e-10 else 0)) = sl * ∑ i, ∑ k, x i * (ρ * y k) * gl (ul i) (uh k) + ρ * sl * 1e-10 * ∑ i : Fin nl, ∑ k : Fin nh, if i.val = k.val then x i * y k else 0 := by
    simp only [Finset.mul_sum, ← Finset.sum_add_distrib]
    exact Finset.sum_congr rfl fun i _ => Finset.sum_congr rfl fun k _ => by split <;> ring
  have b3 : ∑ i, ∑ k, y i * x k * (ρ * sl * (gl (uh i) (ul k) + if i.val = k.val then 1e-10 else 0)) = sl * ∑ i, ∑ k, ρ * y i * x k * gl (uh i) (ul k) + ρ * sl * 1e-10 * ∑ i : Fin nl, ∑ k : Fin nh, if i.val = k.val then x i * y k else 0 := by
    rw [Finset.sum_comm (f := fun (i : Fin nl) (k : Fin nh) => if i.val = k.val then x i * y k else 0)]
    simp only [Finset.mul_sum, ← Finset.sum_add_distrib]
    refine Finset.sum_congr rfl fun i _ => Finset.sum_congr rfl fun k _ => ?_
    simp only [eq_comm (a := i.val)]
    split <;> ring
  have b4 : ∑ i, ∑ k, y i * y k * (ρ ^ 2 * sl * (gl (uh i) (uh k) + if i = k then 1e-10 else 0) + s2 * (g (uh i) (uh k) + if i = k then 1e-10 + ν ^ 2 else 0)) =
      sl * ∑ i, ∑ k, ρ * y i * (ρ * y k) * gl (uh i) (uh k) + s2 * ∑ i, ∑ k, y i * y k * g (uh i) (uh k) + (ρ ^ 2 * sl * 1e-10 + s2 * (1e-10 + ν ^ 2)) * ∑ i, y i ^ 2 := by
    have e : (ρ ^ 2 * sl * 1e-10 + s2 * (1e-10 + ν ^ 2)) * ∑ i, y i ^ 2 = ∑ i, ∑ k, if i = k then (ρ ^ 2 * sl * 1e-10 + s2 * (1e-10 + ν ^ 2)) * (y i * y k) else 0 := by
      simp only [Finset.sum_ite_eq, Finset.mem_univ, if_true, Finset.mul_sum, pow_two]
    rw [e]
    simp only [Finset.mul_sum, ← Finset.sum_add_distrib]
    exact Finset.sum_congr rfl fun i _ => Finset.sum_congr rfl fun k _ => by split <;> ring
  -- the nuggets of the blocks together are a sum of squares
  have b5 : 0 ≤ ∑ i, x i ^ 2 + 2 * ρ * (∑ i : Fin nl, ∑ k : Fin nh, if i.val = k.val then x i * y k else 0) + ρ ^ 2 * ∑ k, y k ^ 2 := by
    have c1 : ∑ i : Fin nl, ∑ k : Fin nh, (if i.val = k.val then x i ^ 2 else 0) ≤ ∑ i, x i ^ 2 := by
      refine Finset.sum_le_sum fun i _ => ?_
      by_cases hi : i.val < nh
      · rw [Finset.sum_eq_single ⟨i.val, hi⟩]
        · simp
        · intro b _ hb; rw [if_neg fun h => hb (Fin.ext h.symm)]
        · intro hh; exact absurd (Finset.mem_univ _) hh
      · rw [Finset.sum_eq_zero fun b _ => by have := b.isLt; rw [if_neg (by omega)]]
        exact sq_nonneg _
    have c2 : ∑ i : Fin nl, ∑ k : Fin nh, (if i.val = k.val then y k ^ 2 else 0) ≤ ∑ k, y k ^ 2 := by
      rw [Finset.sum_comm]
      refine Finset.sum_le_sum fun k _ => ?_
      by_cases hk : k.val < nl
      · rw [Finset.sum_eq_single ⟨k.val, hk⟩]
        · simp
        · intro b _ hb; rw [if_neg fun h => hb (Fin.ext h)]
        · intro hh; exact absurd (Finset.mem_univ _) hh
      · rw [Finset.sum_eq_zero fun b _ => by have := b.isLt; rw [if_neg (by omega)]]
        exact sq_nonneg _
    have c3 : 0 ≤ ∑ i : Fin nl, ∑ k : Fin nh, (if i.val = k.val then (x i + ρ * y k) ^ 2 else 0) := Finset.sum_nonneg fun i _ => Finset.sum_nonneg fun k _ => by split <;> positivity
    have c4 : ∑ i : Fin nl, ∑ k : Fin nh, (if i.val = k.val then (x i + ρ * y k) ^ 2 else 0) = ∑ i : Fin nl, ∑ k : Fin nh, (if i.val = k.val then x i ^ 2 else 0) +
        2 * ρ * (∑ i : Fin nl, ∑ k : Fin nh, if i.val = k.val then x i * y k else 0) + ρ ^ 2 * ∑ i : Fin nl, ∑ k : Fin nh, (if i.val = k.val then y k ^ 2 else 0) := by
      simp only [Finset.mul_sum, ← Finset.sum_add_distrib]
      exact Finset.sum_congr rfl fun i _ => Finset.sum_congr rfl fun k _ => by split <;> ring
    have c5 := mul_le_mul_of_nonneg_left c2 (sq_nonneg ρ)
    linarith
  rw [b1, b2, b3, b4]
  have hx := Finset.sum_nonneg fun i (_ : i ∈ Finset.univ) => sq_nonneg (x i)
  have hy := Finset.sum_nonneg fun i (_ : i ∈ Finset.univ) => sq_nonneg (y i)
  have d1 := mul_nonneg (mul_nonneg hsl (sq_nonneg νl)) hx
  have d2 := mul_nonneg (mul_nonneg hs2 (by positivity : 0 ≤ 1e-10 + ν ^ 2)) hy
  have d3 := mul_nonneg (mul_nonneg hsl (by norm_num : (0 : ℝ) ≤ 1e-10)) b5
  generalize (∑ i : Fin nl, ∑ k : Fin nh, if i.val = k.val then x i * y k else 0) = P at *
  generalize ∑ i, x i ^ 2 = SX at *
  generalize ∑ i, y i ^ 2 = SY at *
  have e : sl * (1e-10 + νl ^ 2) * SX + (ρ * sl * 1e-10 * P) + (ρ * sl * 1e-10 * P) + (ρ ^ 2 * sl * 1e-10 + s2 * (1e-10 + ν ^ 2)) * SY =
    sl * νl ^ 2 * SX + s2 * (1e-10 + ν ^ 2) * SY + sl * 1e-10 * (SX + 2 * ρ * P + ρ ^ 2 * SY) := by ring
  linarith

/-- C193 (co-Kriging). The predictions at two points, in any rows of any batches, differ by at most `(|ρ| sqrt (2 σl² Q Dl) + sqrt (2 σd² Q D) + 2e-5 (|ρ| σl² + v) sqrt Q) std`, where `Dl` and `D` are the squared distances of the points scaled to the
unit box, weighted with the trained length scales of the low-fidelity process and of the difference, `v = ρ² σl² + σd²`, and `Q = ∑ z_a (y_a - mean)` is the squared Mahalanobis length of the scaled responses about the fitted mean: `z` solves
`A z = y - mean` for the joint covariance `A` (with the jitter `1e-10`). -/
theorem C193_ck (ck : CKObj d q) (w : CKWorld d) (Xh : Samples nh d) (yh : Fin nh → ℝ) (Xl : Samples nl d) (yl : Fin nl → ℝ)
    (ck' : CKObj d q) (t : CKFit nh nl d q) (h : ck.train w Xh yh Xl yl = .ok (ck', t)) {m' : ℕ} (Xa : Samples m d) (Xb : Samples m' d) (ja : Fin m) (jb : Fin m') :
    let u : (Fin d → ℝ) → Fin d → ℝ := fun x k => (x k - ck.box.low k) / (ck.box.high k - ck.box.low k)
    ∃ (μa : Fin m → ℝ) (μb : Fin m' → ℝ) (z : Fin (nl + nh) → ℝ) (Q : ℝ), ck'.predict t Xa = .ok μa ∧ ck'.predict t Xb = .ok μb ∧
      (∀ a, ∑ b, (t.C a b + if a = b then 1e-10 else 0) * z b = (Fin.append yl yh a - mean yh) / std yh - t.mu) ∧ Q = ∑ a, z a * ((Fin.append yl yh a - mean yh) / std yh - t.mu) ∧
      |μa ja - μb jb| ≤ (|t.rho| * Real.sqrt (2 * t.lfFit.gls.sigma2 * Q * ∑ k, ck'.lf.kernel.param k * (u (Xa ja) k - u (Xb jb) k) ^ 2) +
        Real.sqrt (2 * t.sigma2 * Q * ∑ k, ck'.kernel.param k * (u (Xa ja) k - u (Xb jb) k) ^ 2) +
        2e-5 * (|t.rho| * t.lfFit.gls.sigma2 + (t.rho ^ 2 * t.lfFit.gls.sigma2 + t.sigma2)) * Real.sqrt Q) * std yh := by
  intro u
  obtain ⟨s, hs, hl0, hd0, hll, hlh, hhl, hhh⟩ := C102_ck_covariance ck w Xh yh Xl yl ck' t h
  obtain ⟨hT, hyh, hyl, hm, hsd, hbox, hXh, hXl, hno, hlf⟩ := ckTrained_of_train h
  have hpl := fun k => (hT.lf.param k).le
  have hp := fun k => (ck_param_pos h k).le
  have hjit : jitter = 1e-10 := by unfold jitter; norm_num
  set A := t.C + jitter • (1 : Matrix (Fin (nl + nh)) (Fin (nl + nh)) ℝ) with hA
  have hAab : ∀ a b, A a b = t.C a b + if a = b then 1e-10 else 0 := by
    intro a b
    simp only [hA, Matrix.add_apply, Matrix.smul_apply, Matrix.one_apply, smul_eq_mul, hjit]
    split <;> ring
  set r : Fin (nl + nh) → ℝ := fun a => t.y a - t.mu with hr
  set z := A⁻¹ *ᵥ r with hz
  have hAz : A *ᵥ z = r := by
    rw [hz, Matrix.mulVec_mulVec, Matrix.mul_nonsing_inv _ hT.LC.isUnitA, Matrix.one_mulVec]
  have hya : ∀ a, r a = (Fin.append yl yh a - mean yh) / std yh - t.mu := by
    intro a
    simp only [hr, hT.y, hyh, hyl, hm, hsd]
    refine Fin.addCases (fun i => ?_) (fun i => ?_) a
    · rw [Fin.append_left, Fin.append_left]
    · rw [Fin.append_right, Fin.append_right]
  have hmean : ∀ {m : ℕ} (Xnew : Samples m d), ck'.predict t Xnew = .ok (fun j => (t.mu + ((crossCov ck' t (fun i => normPt ck'.box (Xnew i)))ᵀ *ᵥ z) j) * t.yhStd + t.yhMean) := fun Xnew =>
    Py.bind_ok.mpr ⟨_, normalizeInput_eq Xnew hT.range, Py.bind_ok.mpr ⟨_, cholSolveV_eq hT.LC _, rfl⟩⟩
  refine ⟨_, _, z, _, hmean Xa, hmean Xb, fun a => ?_, rfl, ?_⟩
  · rw [← hya, ← hAz]
    simp only [Matrix.mulVec, dotProduct, hAab]
  have hQ : ∑ a, z a * ((Fin.append yl yh a - mean yh) / std yh - t.mu) = z ⬝ᵥ (A *ᵥ z) := by
    rw [hAz]
    exact Finset.sum_congr rfl (fun a _ => by rw [hya])
  rw [hQ]
  have hge := ck_quad_ge hT s hs z
  have hQdef : z ⬝ᵥ (A *ᵥ z) = ∑ a, ∑ b, z a * z b * t.C a b + 1e-10 * ∑ a, z a ^ 2 := by
    simp only [dotProduct, Matrix.mulVec, hAab, Finset.mul_sum, ← Finset.sum_add_distrib]
    refine Finset.sum_congr rfl fun a _ => ?_
    have e : 1e-10 * z a ^ 2 = ∑ b, if a = b then 1e-10 * (z a * z b) else 0 := by
      simp only [Finset.sum_ite_eq, Finset.mem_univ, if_true, pow_two]
    rw [e, ← Finset.sum_add_distrib]
    exact Finset.sum_congr rfl fun b _ => by split <;> ring
  set zl : Fin nl → ℝ := fun i => z (Fin.castAdd nh i) with hzl
  set zh : Fin nh → ℝ := fun i => z (Fin.natAdd nl i) with hzh
  have hzapp : z = Fin.append zl zh := by
    funext a
    refine Fin.addCases (fun i => ?_) (fun i => ?_) a
    · rw [Fin.append_left]
    · rw [Fin.append_right]
  have hsplit := ck_quad_split (C := t.C) (gl := gaussCorr ck'.lf.kernel.param) (g := gaussCorr ck'.kernel.param) hl0 hd0 (fun i => u (Xl i)) (fun i => u (Xh i)) hll hlh hhl hhh zl zh
  rw [← hzapp] at hsplit
  set X : Samples (nl + nh) d := Fin.append (fun i => u (Xl i)) (fun i => u (Xh i)) with hX
  set av : Fin (nl + nh) → ℝ := Fin.append zl (fun i => t.rho * zh i) with hav
  set Q := z ⬝ᵥ (A *ᵥ z) with hQd
  have hqL := gauss_quad_nonneg ck'.lf.kernel.param hpl X av
  have hqH := gauss_quad_nonneg ck'.kernel.param hp (fun i => u (Xh i)) zh
  have hsum : t.lfFit.gls.sigma2 * (∑ a, ∑ b, av a * av b * gaussCorr ck'.lf.kernel.param (X a) (X b)) + t.sigma2 * (∑ i, ∑ k, zh i * zh k * gaussCorr ck'.kernel.param (u (Xh i)) (u (Xh k))) ≤ Q := by
    have : 0 ≤ (1e-10 : ℝ) * ∑ a, z a ^ 2 := mul_nonneg (by norm_num) (Finset.sum_nonneg fun _ _ => sq_nonneg _)
    linarith
  have hQ0 : 0 ≤ Q := le_trans (add_nonneg (mul_nonneg hl0 hqL) (mul_nonneg hd0 hqH)) hsum
  have hQL : t.lfFit.gls.sigma2 * (∑ a, ∑ b, av a * av b * gaussCorr ck'.lf.kernel.param (X a) (X b)) ≤ Q := by linarith [mul_nonneg hd0 hqH]
  have hQH : t.sigma2 * (∑ i, ∑ k, zh i * zh k * gaussCorr ck'.kernel.param (u (Xh i)) (u (Xh k))) ≤ Q := by linarith [mul_nonneg hl0 hqL]
  -- increments of the two processes
  have hinc : ∀ {N : ℕ} (θ : Fin d → ℝ) (_ : ∀ k, 0 ≤ θ k) (Y : Samples N d) (γ : Fin N → ℝ) (c : ℝ) (_ : 0 ≤ c) (_ : c * (∑ i, ∑ k, γ i * γ k * gaussCorr θ (Y i) (Y k)) ≤ Q) (x x' : Fin d → ℝ),
      |c * ∑ i, gaussCorr θ (Y i) x * γ i - c * ∑ i, gaussCorr θ (Y i) x' * γ i| ≤ Real.sqrt (2 * c * Q * ∑ k, θ k * (x k - x' k) ^ 2) := by
    intro N θ hθ Y γ c hc hcQ x x'
    refine Real.abs_le_sqrt ?_
    have h1 := kernel_increment θ hθ Y γ x x'
    have h2 := gaussCorr_ge θ x x'
    have h3 := gauss_quad_nonneg θ hθ Y γ
    have hD : 0 ≤ ∑ k, θ k * (x k - x' k) ^ 2 := Finset.sum_nonneg fun k _ => mul_nonneg (hθ k) (sq_nonneg _)
    simp only [sub_mul, Finset.sum_sub_distrib] at h1
    rw [← mul_sub, mul_pow]
    generalize (∑ i, ∑ k, γ i * γ k * gaussCorr θ (Y i) (Y k)) = q0 at *
    generalize ∑ k, θ k * (x k - x' k) ^ 2 = D at *
    have h4 := h1.trans (mul_le_mul_of_nonneg_left (mul_le_mul_of_nonneg_left h2 (by norm_num : (0:ℝ) ≤ 2)) h3)
    have h5 := mul_le_mul_of_nonneg_left h4 (sq_nonneg c)
    have h6 := mul_le_mul_of_nonneg_left hcQ (by positivity : 0 ≤ 2 * c * D)
    refine h5.trans ?_
    linarith
  -- nuggets
  have hs2 : 0 ≤ t.sigma2 * s ^ 2 := mul_nonneg hd0 (sq_nonneg _)
  have hL0 : 0 ≤ ∑ i : Fin nl, z (Fin.castAdd nh i) ^ 2 := Finset.sum_nonneg fun _ _ => sq_nonneg _
  have hH0 : 0 ≤ ∑ i : Fin nh, z (Fin.natAdd nl i) ^ 2 := Finset.sum_nonneg fun _ _ => sq_nonneg _
  have hzle : ∀ k : Fin nl, 1e-10 * |zl k| ≤ 1e-5 * Real.sqrt Q := by
    intro k
    refine le_trans (le_of_eq ?_) (abs_le_of_sq_le_sq (a := 1e-10 * zl k) ?_ (by positivity))
    · rw [abs_mul, abs_of_nonneg (by norm_num : (0:ℝ) ≤ 1e-10)]
    · rw [mul_pow, mul_pow, Real.sq_sqrt hQ0]
      have : zl k ^ 2 ≤ ∑ i : Fin nl, z (Fin.castAdd nh i) ^ 2 := Finset.single_le_sum (f := fun k => z (Fin.castAdd nh k) ^ 2) (fun a _ => sq_nonneg _) (Finset.mem_univ k)
      have := mul_nonneg (by positivity : (0:ℝ) ≤ 1e-10 + t.sigma2 * s ^ 2) hH0
      linarith
  have hzhe : ∀ k : Fin nh, 1e-10 * |zh k| ≤ 1e-5 * Real.sqrt Q := by
    intro k
    refine le_trans (le_of_eq ?_) (abs_le_of_sq_le_sq (a := 1e-10 * zh k) ?_ (by positivity))
    · rw [abs_mul, abs_of_nonneg (by norm_num : (0:ℝ) ≤ 1e-10)]
    · rw [mul_pow, mul_pow, Real.sq_sqrt hQ0]
      have : zh k ^ 2 ≤ ∑ i : Fin nh, z (Fin.natAdd nl i) ^ 2 := Finset.single_le_sum (f := fun k => z (Fin.natAdd nl k) ^ 2) (fun a _ => sq_nonneg _) (Finset.mem_univ k)
      have h1 := mul_nonneg hs2 hH0
      have h2 := mul_nonneg (by norm_num : (0:ℝ) ≤ 1e-10) hL0
      linarith
  have hpick : ∀ {k : ℕ} (x : Fin k → ℝ) (c : ℝ) (l : ℕ) (B : ℝ), 0 ≤ B → (∀ i, 1e-10 * |x i| ≤ B) → |c * ∑ b : Fin k, (if b.val = l then 1e-10 else 0) * x b| ≤ |c| * B := by
    intro k x c l B hB hx
    rw [abs_mul]
    refine mul_le_mul_of_nonneg_left ?_ (abs_nonneg _)
    by_cases hl : l < k
    · rw [Finset.sum_eq_single ⟨l, hl⟩]
      · rw [if_pos rfl, abs_mul, abs_of_nonneg (by norm_num : (0:ℝ) ≤ 1e-10)]
        exact hx _
      · intro b _ hb
        rw [if_neg (fun hbj => hb (Fin.ext hbj)), zero_mul]
      · intro hh; exact absurd (Finset.mem_univ _) hh
    · rw [Finset.sum_eq_zero (fun b _ => by have := b.isLt; rw [if_neg (by omega), zero_mul]), abs_zero]
      exact hB
  set v := t.rho ^ 2 * t.lfFit.gls.sigma2 + t.sigma2 with hv
  have hv0 : 0 ≤ v := add_nonneg (mul_nonneg (sq_nonneg _) hl0) hd0
  have hrow : ∀ {m : ℕ} (Xnew : Samples m d) (j : Fin m), ∃ e : ℝ, |e| ≤ 1e-5 * (|t.rho| * t.lfFit.gls.sigma2 + v) * Real.sqrt Q ∧
      ((crossCov ck' t (fun i => normPt ck'.box (Xnew i)))ᵀ *ᵥ z) j = t.rho * (t.lfFit.gls.sigma2 * ∑ a, gaussCorr ck'.lf.kernel.param (X a) (u (Xnew j)) * av a) +
        t.sigma2 * ∑ i, gaussCorr ck'.kernel.param (u (Xh i)) (u (Xnew j)) * zh i + e := by
    intro m Xnew j
    refine ⟨t.rho * t.lfFit.gls.sigma2 * (∑ b : Fin nl, (if b.val = j.val then 1e-10 else 0) * zl b) + v * ∑ b : Fin nh, (if b.val = j.val then 1e-10 else 0) * zh b, ?_, ?_⟩
    · have h1 := hpick zl (t.rho * t.lfFit.gls.sigma2) j.val _ (by positivity) hzle
      have h2 := hpick zh v j.val _ (by positivity) hzhe
      refine (abs_add_le _ _).trans ?_
      rw [abs_mul t.rho t.lfFit.gls.sigma2, abs_of_nonneg hl0] at h1
      rw [abs_of_nonneg hv0] at h2
      linarith
    · have hcol : ∀ {n : ℕ} (Y : Samples n d) (k : Fin n), rbfMatrix ck'.lf.kernel.param Y (fun i => normPt ck'.box (Xnew i)) k j =
          gaussCorr ck'.lf.kernel.param (Y k) (normPt ck'.box (Xnew j)) + if k.val = j.val then 1e-10 else 0 :=
        fun Y k => congrFun (rbfMatrix_col ck'.lf.kernel.param hpl Y (fun i => normPt ck'.box (Xnew i)) j) k
      have hcol' : ∀ {n : ℕ} (Y : Samples n d) (k : Fin n), rbfMatrix ck'.kernel.param Y (fun i => normPt ck'.box (Xnew i)) k j =
          gaussCorr ck'.kernel.param (Y k) (normPt ck'.box (Xnew j)) + if k.val = j.val then 1e-10 else 0 :=
        fun Y k => congrFun (rbfMatrix_col ck'.kernel.param hp Y (fun i => normPt ck'.box (Xnew i)) j) k
      have hu : normPt ck'.box (Xnew j) = u (Xnew j) := by rw [hbox]; rfl
      have hul : ∀ k, t.Xls k = u (Xl k) := fun k => by rw [hXl]; rfl
      have huh : ∀ k, t.Xhs k = u (Xh k) := fun k => by rw [hXh]; rfl
      have e0 : ((crossCov ck' t (fun i => normPt ck'.box (Xnew i)))ᵀ *ᵥ z) j = ∑ b, crossCov ck' t (fun i => normPt ck'.box (Xnew i)) b j * z b := rfl
      rw [e0, Fin.sum_univ_add, Fin.sum_univ_add]
      simp only [crossCov, finSumFinEquiv_symm_apply_castAdd, finSumFinEquiv_symm_apply_natAdd, RBF.getKernelMatrix, hcol, hcol', hu, hul, huh, hX, hav, Fin.append_left, Fin.append_right, hv]
      have e1 : ∑ b : Fin nl, t.rho * t.lfFit.gls.sigma2 * (gaussCorr ck'.lf.kernel.param (u (Xl b)) (u (Xnew j)) + if b.val = j.val then 1e-10 else 0) * z (Fin.castAdd nh b) =
          t.rho * t.lfFit.gls.sigma2 * ∑ b, gaussCorr ck'.lf.kernel.param (u (Xl b)) (u (Xnew j)) * zl b + t.rho * t.lfFit.gls.sigma2 * ∑ b : Fin nl, (if b.val = j.val then 1e-10 else 0) * zl b := by
        simp only [Finset.mul_sum, ← Finset.sum_add_distrib]
        exact Finset.sum_congr rfl fun b _ => by simp only [hzl]; ring
      have e2 : ∑ b : Fin nh, (t.rho ^ 2 * t.lfFit.gls.sigma2 * (gaussCorr ck'.lf.kernel.param (u (Xh b)) (u (Xnew j)) + if b.val = j.val then 1e-10 else 0) +
          t.sigma2 * (gaussCorr ck'.kernel.param (u (Xh b)) (u (Xnew j)) + if b.val = j.val then 1e-10 else 0)) * z (Fin.natAdd nl b) =
          t.rho * (t.lfFit.gls.sigma2 * ∑ b, gaussCorr ck'.lf.kernel.param (u (Xh b)) (u (Xnew j)) * (t.rho * zh b)) + t.sigma2 * ∑ b, gaussCorr ck'.kernel.param (u (Xh b)) (u (Xnew j)) * zh b +
          (t.rho ^ 2 * t.lfFit.gls.sigma2 + t.sigma2) * ∑ b : Fin nh, (if b.val = j.val then 1e-10 else 0) * zh b := by
        simp only [Finset.mul_sum, ← Finset.sum_add_distrib]
        exact Finset.sum_congr rfl fun b _ => by simp only [hzh]; ring
      rw [e1, e2]
      ring
  obtain ⟨ea, hea, ea'⟩ := hrow Xa ja
  obtain ⟨eb, heb, eb'⟩ := hrow Xb jb
  have i1 := hinc ck'.lf.kernel.param hpl X av t.lfFit.gls.sigma2 hl0 hQL (u (Xa ja)) (u (Xb jb))
  have i2 := hinc ck'.kernel.param hp (fun i => u (Xh i)) zh t.sigma2 hd0 hQH (u (Xa ja)) (u (Xb jb))
  rw [ea', eb', ← hsd]
  generalize t.lfFit.gls.sigma2 * ∑ a, gaussCorr ck'.lf.kernel.param (X a) (u (Xa ja)) * av a = LA at *
  generalize t.lfFit.gls.sigma2 * ∑ a, gaussCorr ck'.lf.kernel.param (X a) (u (Xb jb)) * av a = LB at *
  generalize t.sigma2 * ∑ i, gaussCorr ck'.kernel.param (u (Xh i)) (u (Xa ja)) * zh i = HA at *
  generalize t.sigma2 * ∑ i, gaussCorr ck'.kernel.param (u (Xh i)) (u (Xb jb)) * zh i = HB at *
  rw [show (t.mu + (t.rho * LA + HA + ea)) * t.yhStd + t.yhMean - ((t.mu + (t.rho * LB + HB + eb)) * t.yhStd + t.yhMean) = (t.rho * (LA - LB) + (HA - HB) + (ea - eb)) * t.yhStd by ring, abs_mul, abs_of_pos hT.stdpos]
  refine mul_le_mul_of_nonneg_right ?_ hT.stdpos.le
  refine (abs_add_le _ _).trans (add_le_add ((abs_add_le _ _).trans (add_le_add ?_ i2)) ((abs_sub _ _).trans ?_))
  · rw [abs_mul]
    exact mul_le_mul_of_nonneg_left i1 (abs_nonneg _)
  · linarith

/-- C193 (co-Kriging, standard deviation). The squared standard deviation at a point exceeds the bound at a high-fidelity sample (C188) by at most `2 (ρ² σl² Dl + σd² D) std²`, with the same weighted squared distances between the point and the
sample. -/
theorem C193_ck_std (ck : CKObj d q) (w : CKWorld d) (Xh : Samples nh d) (yh : Fin nh → ℝ) (Xl : Samples nl d) (yl : Fin nl → ℝ)
    (ck' : CKObj d q) (t : CKFit nh nl d q) (h : ck.train w Xh yh Xl yl = .ok (ck', t)) (Xnew : Samples m d) (j : Fin m) (i : Fin nh) :
    let u : (Fin d → ℝ) → Fin d → ℝ := fun x k => (x k - ck.box.low k) / (ck.box.high k - ck.box.low k)
    ∃ ck'' μ σ s, ck'.predictStd t Xnew = .ok (ck'', μ, σ) ∧ ck'.noise = some s ∧
      σ j ^ 2 ≤ (1e-10 * (t.rho ^ 2 * t.lfFit.gls.sigma2 + t.sigma2 + 1) + t.sigma2 * s ^ 2 + 2 * (t.rho ^ 2 * t.lfFit.gls.sigma2 * ∑ k, ck'.lf.kernel.param k * (u (Xh i) k - u (Xnew j) k) ^ 2 +
        t.sigma2 * ∑ k, ck'.kernel.param k * (u (Xh i) k - u (Xnew j) k) ^ 2)) * std yh ^ 2 + (s * std yh) ^ 2 := by
  intro u
  obtain ⟨s, hs, hl0, hd0, _, _, _, hhh⟩ := C102_ck_covariance ck w Xh yh Xl yl ck' t h
  obtain ⟨μ, σ, ck'', s', _, hpred, hs', hall⟩ := C102_ck_prediction_partial ck w Xh yh Xl yl ck' t h Xnew
  obtain ⟨hT, _⟩ := ckTrained_of_train h
  rw [hs] at hs'
  obtain rfl := Option.some.inj hs'
  obtain ⟨wt, hb, _, hσ, hq⟩ := hall j
  refine ⟨ck'', μ, σ, s, hpred, hs, ?_⟩
  have hDl : 0 ≤ ∑ k, ck'.lf.kernel.param k * (u (Xh i) k - u (Xnew j) k) ^ 2 := Finset.sum_nonneg fun k _ => mul_nonneg (hT.lf.param k).le (sq_nonneg _)
  have hD : 0 ≤ ∑ k, ck'.kernel.param k * (u (Xh i) k - u (Xnew j) k) ^ 2 := Finset.sum_nonneg fun k _ => mul_nonneg (ck_param_pos h k).le (sq_nonneg _)
  have hgl := gaussCorr_ge ck'.lf.kernel.param (u (Xh i)) (u (Xnew j))
  have hg := gaussCorr_ge ck'.kernel.param (u (Xh i)) (u (Xnew j))
  have h1 : 0 ≤ t.rho ^ 2 * t.lfFit.gls.sigma2 := mul_nonneg (sq_nonneg _) hl0
  rw [hσ]
  refine add_le_add (mul_le_mul_of_nonneg_right (max_le ?_ (by positivity)) (sq_nonneg _)) le_rfl
  refine (sub_le_self _ (div_nonneg (sq_nonneg _) hq.le)).trans ?_
  have hbest : ∀ (v : ℝ) (C : Fin (nl + nh) → Fin (nl + nh) → ℝ) (c : Fin (nl + nh) → ℝ), BestLinearUnbiased C c (fun _ (_ : Fin 1) => 1) (fun _ => 1) wt →
      predErr v C c wt ≤ v - 2 * c (Fin.natAdd nl i) + C (Fin.natAdd nl i) (Fin.natAdd nl i) := by
    intro v C c hb
    have h1 := best_le hb (unbiased_pick (fun _ (_ : Fin 1) => (1 : ℝ)) (fun _ => 1) (Fin.natAdd nl i) rfl)
    rw [predErr_pick] at h1
    simp only [predErr] at h1 ⊢
    linarith
  refine (hbest _ _ _ hb).trans ?_
  rw [Fin.append_right, hhh, if_pos rfl, if_pos rfl, if_pos rfl, gaussCorr_self, gaussCorr_self]
  have hfin : ∀ P G H δ Dl D : ℝ, 0 ≤ P → 0 ≤ δ → 1 - G ≤ Dl → 1 - H ≤ D →
      P + t.sigma2 - 2 * (P * (G + δ) + t.sigma2 * (H + δ)) + (P * (1 + 1e-10) + t.sigma2 * (1 + (1e-10 + s ^ 2)) + 1e-10) ≤ 1e-10 * (P + t.sigma2 + 1) + t.sigma2 * s ^ 2 + 2 * (P * Dl + t.sigma2 * D) := by
    intro P G H δ Dl D hP hδ hG hH
    have e1 := mul_le_mul_of_nonneg_left hG hP
    have e2 := mul_le_mul_of_nonneg_left hH hd0
    have e3 := mul_nonneg hP hδ
    have e4 := mul_nonneg hd0 hδ
    linarith
  exact hfin _ _ _ _ _ _ h1 (by split <;> norm_num) hgl hg

/-- The hypotheses of C193 are met, with known and with estimated noise. -/
example (noise : Option ℝ) (h0 : noise ≠ some 0) : ∃ ck' t, (exCK noise).train exCKWorld exX exY exX exY = .ok (ck', t) ∧ ∃ μ, ck'.predict t (fun _ => exX 1 : Samples 5 1) = .ok μ := by
  obtain ⟨ck', t, h⟩ := exCK_trains noise h0 exX exY exX exY 0 2 exY_ne (by norm_num)
  obtain ⟨μ, _, _, _, hμ, _⟩ := C193_ck _ _ _ _ _ _ _ _ h (fun _ => exX 1 : Samples 5 1) exX 0 1
  exact ⟨ck', t, h, μ, hμ⟩

end Mfpml.Props
