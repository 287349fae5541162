import Verif.Lemmas.Kernels
import Verif.Lemmas.LinAlg
import Verif.Lemmas.Stats
import Verif.Spec.Surrogate
import Verif.Spec.Evolutionary

/-!
# Properties of kernels, basis functions and normalisation (C26–C30)
-/

set_option linter.unusedSectionVars false

open scoped BigOperators Matrix

namespace Mfpml.Props

open Mfpml.GP Mfpml.Spec
open Mfpml.EA (Box)

variable {n m d : ℕ}

/-- C26 (values). With non-negative parameters, entry `(i, j)` of `get_kernel_matrix(X, Y)` is the Gaussian correlation of the two rows, plus `1e-10` when `i = j`. -/
theorem C26_rbf_values (k : RBF d) (hk : ∀ j, 0 ≤ k.param j) (X : Samples n d) (Y : Samples m d) (i : Fin n) (j : Fin m) :
    k.getKernelMatrix X Y i j = gaussCorr k.param (X i) (Y j) + (if i.val = j.val then 1e-10 else 0) := by
  unfold RBF.getKernelMatrix rbfMatrix gaussCorr
  rw [rbfDist_eq k.param hk]
  congr 1
  unfold nugget
  split <;> norm_num

/-- C26 (parameters): constructing with log10 parameters, setting them, or passing them to a call give the same positive parameters and the same matrix. -/
theorem C26_rbf_parameters (k : RBF d) (lo hi : ℝ) (theta : Fin d → ℝ) (X : Samples n d) (Y : Samples m d) :
    (∀ j, 0 < (RBF.mk' theta lo hi).param j ∧ (RBF.mk' theta lo hi).param j = (10 : ℝ) ^ theta j ∧
      (k.setParams theta).param j = (10 : ℝ) ^ theta j) ∧
    k.call X Y theta = (k.setParams theta).getKernelMatrix X Y ∧ k.call X Y theta = (RBF.mk' theta lo hi).getKernelMatrix X Y :=
  ⟨fun j => ⟨pow10_pos theta j, rfl, rfl⟩, rfl, rfl⟩

/-- C26 (consequences): symmetric on one sample set; off the diagonal in `(0, 1]`; unchanged when both sample sets are shifted by the same vector. -/
theorem C26_rbf_consequences (k : RBF d) (hk : ∀ j, 0 ≤ k.param j) (X : Samples n d) (Y : Samples m d) :
    (k.getKernelMatrix X X)ᵀ = k.getKernelMatrix X X ∧
    (∀ i j, i.val ≠ j.val → 0 < k.getKernelMatrix X Y i j ∧ k.getKernelMatrix X Y i j ≤ 1) ∧
    ∀ a : Fin d → ℝ, k.getKernelMatrix (fun i => X i + a) (fun j => Y j + a) = k.getKernelMatrix X Y := by
  refine ⟨?_, ?_, ?_⟩
  · ext i j
    rw [Matrix.transpose_apply, C26_rbf_values k hk, C26_rbf_values k hk]
    unfold gaussCorr
    congr 1
    · congr 2
      apply Finset.sum_congr rfl
      intro t _
      ring
    · by_cases h : i.val = j.val
      · rw [if_pos h, if_pos h.symm]
      · rw [if_neg h, if_neg (Ne.symm h)]
  · intro i j hij
    rw [C26_rbf_values k hk, if_neg hij, add_zero]
    unfold gaussCorr
    refine ⟨Real.exp_pos _, ?_⟩
    rw [Real.exp_le_one_iff, neg_nonpos]
    exact Finset.sum_nonneg (fun t _ => mul_nonneg (hk t) (sq_nonneg _))
  · intro a
    ext i j
    rw [C26_rbf_values k hk, C26_rbf_values k hk]
    unfold gaussCorr
    congr 3
    apply Finset.sum_congr rfl
    intro t _
    simp only [Pi.add_apply]
    ring

/-- C27. For every sample set (duplicates included), every parameter vector and every noise level, the kernel matrix plus `noise²` on the diagonal is positive definite, and
`cholesky` returns its factor: lower triangular, positive diagonal, `L Lᵀ = K`. -/
theorem C27_rbf_posDef (k : RBF d) (X : Samples n d) (noise : ℝ) :
    (k.getKernelMatrix X X + noise ^ 2 • (1 : Matrix (Fin n) (Fin n) ℝ)).PosDef ∧
    ∃ L, cholesky (k.getKernelMatrix X X + noise ^ 2 • (1 : Matrix (Fin n) (Fin n) ℝ)) = .ok L ∧
      (∀ i j, i < j → L i j = 0) ∧ (∀ i, 0 < L i i) ∧ L * Lᵀ = k.getKernelMatrix X X + noise ^ 2 • (1 : Matrix (Fin n) (Fin n) ℝ) := by
  have h := posDef_covTrain k.param X noise
  refine ⟨h, ?_⟩
  obtain ⟨L, hL, hc⟩ := cholesky_of_posDef h
  exact ⟨L, hL, hc.lower, hc.diag, hc.mul⟩

/-- A duplicated point: without the nugget the matrix would be singular, with it the factorisation exists. -/
example : ∃ L, cholesky ((RBF.mk' (fun _ : Fin 1 => 0) (-2) 3).getKernelMatrix (fun _ : Fin 2 => fun _ => (1 : ℝ)) (fun _ => fun _ => 1)
    + (0 : ℝ) ^ 2 • (1 : Matrix (Fin 2) (Fin 2) ℝ)) = .ok L :=
  (C27_rbf_posDef _ _ _).2.imp (fun _ h => h.1)

/-! ### Basis functions -/

theorem fillSlice_lt (f : Row) (j q c : ℕ) (vals : ℕ → ℝ) (h : c < j) : fillSlice f j q vals c = f c := by
  unfold fillSlice; rw [if_neg]; omega

theorem range_map_fillSlice (f : Row) (j q : ℕ) (vals : ℕ → ℝ) :
    (List.range (j + q)).map (fillSlice f j q vals) = (List.range j).map f ++ (List.range q).map vals := by
  rw [List.range_add, List.map_append, List.map_map]
  congr 1
  · apply List.map_congr_left
    intro c hc
    exact fillSlice_lt _ _ _ _ _ (List.mem_range.mp hc)
  · apply List.map_congr_left
    intro c hc
    have := List.mem_range.mp hc
    simp only [Function.comp, fillSlice]
    rw [if_pos ⟨by omega, by omega⟩]
    congr 1; omega

theorem range_map_xAt (x : Fin d → ℝ) (k : ℕ) (hk : k ≤ d) : (List.range (d - k)).map (fun t => xAt x (k + t)) = (List.ofFn x).drop k := by
  apply List.ext_getElem
  · simp
  · intro i h1 h2
    simp only [List.length_map, List.length_range] at h1
    simp only [List.getElem_map, List.getElem_range, List.getElem_drop, List.getElem_ofFn, xAt]
    rw [dif_pos (by omega)]

theorem quadLoop_spec (x : Fin d → ℝ) (more k j : ℕ) (f : Row) (hk : k + more = d) (hj : 2 * j + more * (more + 1) = 2 * numCol d) :
    ∃ f', quadLoop x more k j more f = .ok f' ∧ (List.range (numCol d)).map f' = (List.range j).map f ++ pairProducts ((List.ofFn x).drop k) := by
  induction more generalizing k j f with
  | zero =>
    refine ⟨f, rfl, ?_⟩
    have : j = numCol d := by omega
    rw [this, List.drop_of_length_le (by simp; omega)]
    simp [pairProducts]
  | succ more ih =>
    have e1 : (more + 1) * (more + 1 + 1) = more * (more + 1) + 2 * (more + 1) := by ring
    rw [e1] at hj
    have e0 : 0 ≤ more * (more + 1) := Nat.zero_le _
    unfold quadLoop
    rw [if_pos ⟨by omega, by omega⟩]
    obtain ⟨f', h1, h2⟩ := ih (k + 1) (j + (more + 1)) (fillSlice f j (more + 1) (fun t => xAt x k * xAt x (k + t))) (by omega) (by omega)
    refine ⟨f', h1, ?_⟩
    rw [h2, range_map_fillSlice, List.append_assoc]
    congr 1
    have hd : (List.ofFn x).drop k = x ⟨k, by omega⟩ :: (List.ofFn x).drop (k + 1) := by
      rw [List.drop_eq_getElem_cons (by simp; omega)]
      simp
    rw [hd, pairProducts, ← hd]
    congr 1
    rw [← range_map_xAt x k (by omega), List.map_map]
    have : d - k = more + 1 := by omega
    rw [this]
    apply List.map_congr_left
    intro t _
    simp only [Function.comp]
    congr 1
    unfold xAt
    rw [dif_pos (by omega)]

theorem two_mul_numCol (d : ℕ) : 2 * numCol d = (d + 1) * (d + 2) := by
  unfold numCol
  apply Nat.mul_div_cancel'
  have := Nat.even_mul_succ_self (d + 1)
  exact this.two_dvd

/-- C28 (quadratic basis). For every dimension the double loop never raises; the row it produces has `(d+1)(d+2)/2` columns which are, in this order, `1`, the coordinates, and all
products `x_k x_l` with `k ≤ l`, each exactly once. -/
theorem C28_quadratic (x : Fin d → ℝ) :
    ∃ f, quadratic x = .ok f ∧ (List.range (numCol d)).map f = quadCols (List.ofFn x) ∧ 2 * numCol d = (d + 1) * (d + 2) := by
  have h2 := two_mul_numCol d
  obtain ⟨f, h1, h3⟩ := quadLoop_spec x d 0 (d + 1) (fillSlice (fillSlice (fun _ => 0) 0 1 (fun _ => 1)) 1 d (fun t => xAt x t)) (by omega)
    (by rw [h2]; ring)
  refine ⟨f, h1, ?_, h2⟩
  rw [h3, List.drop_zero, quadCols, Nat.add_comm d 1, range_map_fillSlice]
  have := range_map_fillSlice (fun _ => 0) 0 1 (fun _ => 1)
  rw [Nat.zero_add] at this
  rw [this]
  have h0 := range_map_xAt x 0 (by omega)
  simp only [Nat.sub_zero, Nat.zero_add, List.drop_zero] at h0
  rw [h0]
  simp

/-- C28 (the quadratic basis as the models use it): row entry `c` is entry `c` of the quadratic row. -/
theorem C28_quadratic_basis (x : Fin d → ℝ) : List.ofFn (quadraticBasis d x) = quadCols (List.ofFn x) := by
  obtain ⟨f, h1, h2, _⟩ := C28_quadratic x
  rw [← h2]
  apply List.ext_getElem
  · simp
  · intro i h3 h4
    simp [quadraticBasis, h1]

/-- C28 (ordinary and linear basis). -/
theorem C28_ordinary_linear (x : Fin d → ℝ) :
    List.ofFn (ordinary d x) = [1] ∧ List.ofFn (linear d x) = 1 :: List.ofFn x := by
  refine ⟨by simp [ordinary], ?_⟩
  unfold linear
  rw [List.ofFn_succ]
  simp

example : quadCols [2, 3, 5] = [1, 2, 3, 5, 2 * 2, 2 * 3, 2 * 5, 3 * 3, 3 * 5, 5 * 5] := rfl

/-! ### Normalisation -/

/-- C29. With `lb < ub` in every dimension, `normalize_input` returns, and its result is row by row an injective affine map which sends the lower bounds to 0, the upper bounds to
1 and the design space onto the unit cube. -/
theorem C29_normalize_input (b : Box ℝ d) (hb : ∀ j, b.low j < b.high j) :
    (∀ (n : ℕ) (X : Samples n d), normalizeInput b X = .ok (fun i => normPt b (X i))) ∧
    normPt b b.low = (fun _ => 0) ∧ normPt b b.high = (fun _ => 1) ∧
    (∀ x, InBox b.low b.high x ↔ InBox (fun _ => 0) (fun _ => 1) (normPt b x)) ∧
    Function.Bijective (normPt b) ∧
    ∀ (s : ℝ) (x y : Fin d → ℝ), normPt b ((1 - s) • x + s • y) = (1 - s) • normPt b x + s • normPt b y := by
  have hpos : ∀ j, 0 < b.high j - b.low j := fun j => by have := hb j; linarith
  refine ⟨?_, ?_, ?_, ?_, ⟨?_, ?_⟩, ?_⟩
  · intro n X
    unfold normalizeInput
    rw [if_pos (fun j => (hpos j).ne')]
  · funext j; simp [normPt]
  · funext j; exact div_self (hpos j).ne'
  · intro x
    apply forall_congr'
    intro j
    unfold normPt
    rw [le_div_iff₀ (hpos j), div_le_iff₀ (hpos j)]
    constructor
    · rintro ⟨h1, h2⟩; constructor <;> linarith
    · rintro ⟨h1, h2⟩; constructor <;> linarith
  · intro x y hxy
    funext j
    have := congrFun hxy j
    unfold normPt at this
    rw [div_left_inj' (hpos j).ne'] at this
    linarith
  · intro u
    refine ⟨fun j => b.low j + u j * (b.high j - b.low j), ?_⟩
    funext j
    unfold normPt
    rw [add_sub_cancel_left, mul_div_assoc, div_self (hpos j).ne', mul_one]
  · intro s x y
    funext j
    simp only [normPt, Pi.add_apply, Pi.smul_apply, smul_eq_mul]
    have := (hpos j).ne'
    field_simp
    ring

/-- C29 (degenerate bounds): if some dimension has equal bounds the normalisation divides by zero. -/
theorem C29_normalize_input_degenerate (b : Box ℝ d) (j : Fin d) (hj : b.low j = b.high j) (X : Samples n d) :
    normalizeInput b X = .error .nonFinite := by
  unfold normalizeInput
  rw [if_neg]
  push Not
  exact ⟨j, by rw [hj]; ring⟩

/-- C30 (success and exact inverse). For responses that are not all equal, `normalize_output` returns a vector with mean 0 and standard deviation 1, and scaling back restores
the responses exactly. -/
theorem C30_normalize_output (y : Fin n → ℝ) (i0 j0 : Fin n) (hy : y i0 ≠ y j0) :
    ∃ ys, normalizeOutput y = .ok ys ∧ mean ys = 0 ∧ std ys = 1 ∧ ∀ i, ys i * std y + mean y = y i := by
  have hs : std y ≠ 0 := fun h => hy ((std_eq_zero_iff y).mp h i0 j0)
  have hn0 : 0 < n := lt_of_le_of_lt (Nat.zero_le _) i0.isLt
  refine ⟨fun i => (y i - mean y) / std y, ?_, ?_, ?_, ?_⟩
  · unfold normalizeOutput; rw [if_neg hs]
  · have := mean_affine hn0 (1 / std y) (-(mean y / std y)) y
    rw [show (fun i => (y i - mean y) / std y) = fun i => 1 / std y * y i + -(mean y / std y) from by funext i; ring, this]
    ring
  · have := std_affine (1 / std y) (-(mean y / std y)) y
    rw [show (fun i => (y i - mean y) / std y) = fun i => 1 / std y * y i + -(mean y / std y) from by funext i; ring, this,
      abs_of_nonneg (by have := std_nonneg y; positivity)]
    field_simp
  · intro i
    simp only
    rw [div_mul_cancel₀ _ hs]
    ring

/-- C30 (constant responses): with all responses equal (in particular with a single sample) the normalisation divides by zero. -/
theorem C30_normalize_output_constant (y : Fin n → ℝ) (hy : ∀ i j, y i = y j) : normalizeOutput y = .error .nonFinite := by
  unfold normalizeOutput
  rw [if_pos ((std_eq_zero_iff y).mpr hy)]

example : (![1, 3] : Fin 2 → ℝ) 0 ≠ ![1, 3] 1 := by norm_num

end Mfpml.Props
