import Verif.Spec.Trend
import Verif.Props.BestPrediction
import Verif.Props.Batch
import Verif.Props.Kernels

/-!
# Responses that follow the trend are reproduced everywhere (C133)
-/

set_option linter.unusedSectionVars false

open scoped BigOperators Matrix

namespace Mfpml.Props

open Mfpml.GP Mfpml.Spec
open Mfpml.EA (Box)

variable {nh nl n m d q : ℕ}

/-! ### The functions spanned by a basis -/

/-- The functions of the raw inputs that are linear combinations of the basis functions of the normalised inputs. -/
noncomputable def trendSpan (box : Box ℝ d) (r : Basis d q) : Submodule ℝ ((Fin d → ℝ) → ℝ) :=
  LinearMap.range ({ toFun := fun b x => ∑ k, r (normPt box x) k * b k
                     map_add' := fun a b => by funext x; simp [mul_add, Finset.sum_add_distrib]
                     map_smul' := fun a b => by funext x; simp only [Pi.smul_apply, smul_eq_mul, RingHom.id_apply, Finset.mul_sum]; exact Finset.sum_congr rfl fun k _ => by ring } :
    (Fin q → ℝ) →ₗ[ℝ] ((Fin d → ℝ) → ℝ))

theorem mem_trendSpan {box : Box ℝ d} {r : Basis d q} {g : (Fin d → ℝ) → ℝ} : g ∈ trendSpan box r ↔ ∃ b : Fin q → ℝ, ∀ x, g x = ∑ k, r (normPt box x) k * b k := by
  constructor
  · rintro ⟨b, rfl⟩
    exact ⟨b, fun x => rfl⟩
  · rintro ⟨b, hb⟩
    exact ⟨b, (funext hb).symm⟩

theorem basis_mem_trendSpan (box : Box ℝ d) (r : Basis d q) (k : Fin q) : (fun x => r (normPt box x) k) ∈ trendSpan box r :=
  mem_trendSpan.mpr ⟨fun k' => if k' = k then 1 else 0, fun x => by simp⟩

theorem raw_eq {box : Box ℝ d} (hr : ∀ j, box.high j - box.low j ≠ 0) (x : Fin d → ℝ) (k : Fin d) :
    x k = box.low k + (box.high k - box.low k) * normPt box x k := by
  have := hr k
  unfold normPt
  field_simp
  ring

theorem affine_mem {box : Box ℝ d} {r : Basis d q} (hr : ∀ j, box.high j - box.low j ≠ 0) (h1 : (fun _ => (1 : ℝ)) ∈ trendSpan box r)
    (hx : ∀ k, (fun x => normPt box x k) ∈ trendSpan box r) {g : (Fin d → ℝ) → ℝ} (hg : AffineFun g) : g ∈ trendSpan box r := by
  obtain ⟨c, l, hg⟩ := hg
  have h : g = c • (fun _ => (1 : ℝ)) + ∑ k, l k • (box.low k • (fun _ => (1 : ℝ)) + (box.high k - box.low k) • fun x => normPt box x k) := by
    funext x
    rw [hg x]
    simp only [Pi.add_apply, Pi.smul_apply, Finset.sum_apply, smul_eq_mul, mul_one]
    congr 1
    exact Finset.sum_congr rfl fun k _ => by rw [← raw_eq hr x k]
  rw [h]
  exact Submodule.add_mem _ (Submodule.smul_mem _ _ h1)
    (Submodule.sum_mem _ fun k _ => Submodule.smul_mem _ _ (Submodule.add_mem _ (Submodule.smul_mem _ _ h1) (Submodule.smul_mem _ _ (hx k))))

theorem quad_mem {box : Box ℝ d} {r : Basis d q} (hr : ∀ j, box.high j - box.low j ≠ 0) (h1 : (fun _ => (1 : ℝ)) ∈ trendSpan box r)
    (hx : ∀ k, (fun x => normPt box x k) ∈ trendSpan box r) (hxx : ∀ i j, (fun x => normPt box x i * normPt box x j) ∈ trendSpan box r)
    {g : (Fin d → ℝ) → ℝ} (hg : QuadraticFun g) : g ∈ trendSpan box r := by
  obtain ⟨c, l, A, hg⟩ := hg
  have ha : (fun x : Fin d → ℝ => c + ∑ k, l k * x k) ∈ trendSpan box r := affine_mem hr h1 hx ⟨c, l, fun _ => rfl⟩
  have h : g = (fun x : Fin d → ℝ => c + ∑ k, l k * x k) + ∑ i, ∑ j, A i j • ((box.low i * box.low j) • (fun _ => (1 : ℝ)) +
      (box.low i * (box.high j - box.low j)) • (fun x => normPt box x j) + ((box.high i - box.low i) * box.low j) • (fun x => normPt box x i) +
      ((box.high i - box.low i) * (box.high j - box.low j)) • (fun x => normPt box x i * normPt box x j)) := by
    funext x
    rw [hg x]
    simp only [Pi.add_apply, Pi.smul_apply, Finset.sum_apply, smul_eq_mul, mul_one]
    congr 1
    refine Finset.sum_congr rfl fun i _ => Finset.sum_congr rfl fun j _ => ?_
    conv_lhs => rw [raw_eq hr x i, raw_eq hr x j]
    ring
  rw [h]
  refine Submodule.add_mem _ ha (Submodule.sum_mem _ fun i _ => Submodule.sum_mem _ fun j _ => Submodule.smul_mem _ _ ?_)
  exact Submodule.add_mem _ (Submodule.add_mem _ (Submodule.add_mem _ (Submodule.smul_mem _ _ h1) (Submodule.smul_mem _ _ (hx j))) (Submodule.smul_mem _ _ (hx i)))
    (Submodule.smul_mem _ _ (hxx i j))

theorem entry_mem {box : Box ℝ d} {r : Basis d q} (idx : ℕ) (g : (Fin d → ℝ) → ℝ) (h : ∀ x, (List.ofFn (r x))[idx]? = some (g x)) :
    (fun x => g (normPt box x)) ∈ trendSpan box r := by
  have hlt : idx < q := by
    obtain ⟨hl, _⟩ := List.getElem?_eq_some_iff.mp (h 0)
    simpa using hl
  have : (fun x => g (normPt box x)) = fun x => r (normPt box x) ⟨idx, hlt⟩ := by
    funext x
    have := h (normPt box x)
    rw [List.getElem?_ofFn, dif_pos hlt] at this
    exact (Option.some.inj this).symm
  rw [this]
  exact basis_mem_trendSpan box r _

theorem pairProducts_entry : ∀ {d : ℕ} (i j : Fin d), i ≤ j → ∃ idx : ℕ, ∀ x : Fin d → ℝ, (pairProducts (List.ofFn x))[idx]? = some (x i * x j)
  | 0, i, _, _ => i.elim0
  | d + 1, i, j, hij => by
    obtain rfl | ⟨i', rfl⟩ := i.eq_zero_or_eq_succ
    · refine ⟨j, fun x => ?_⟩
      have := j.isLt
      rw [List.ofFn_succ, pairProducts, List.getElem?_append_left (by simp; omega), ← List.ofFn_succ, List.getElem?_map, List.getElem?_ofFn, dif_pos j.2]
      rfl
    · obtain rfl | ⟨j', rfl⟩ := j.eq_zero_or_eq_succ
      · exact absurd hij (by simp)
      · obtain ⟨idx, hidx⟩ := pairProducts_entry i' j' (by simpa using hij)
        refine ⟨d + 1 + idx, fun x => ?_⟩
        rw [List.ofFn_succ, pairProducts, List.getElem?_append_right (by simp)]
        have := hidx (fun k => x k.succ)
        simpa using this

theorem linear_one_coord (box : Box ℝ d) : (fun _ => (1 : ℝ)) ∈ trendSpan box (linear d) ∧ ∀ k, (fun x => normPt box x k) ∈ trendSpan box (linear d) := by
  refine ⟨entry_mem 0 (fun _ => 1) fun x => ?_, fun k => entry_mem (k.1 + 1) (fun x => x k) fun x => ?_⟩
  · rw [(C28_ordinary_linear x).2]; rfl
  · rw [(C28_ordinary_linear x).2]; simp

theorem quadratic_one_coord (box : Box ℝ d) : (fun _ => (1 : ℝ)) ∈ trendSpan box (quadraticBasis d) ∧ (∀ k, (fun x => normPt box x k) ∈ trendSpan box (quadraticBasis d)) ∧
    ∀ i j, (fun x => normPt box x i * normPt box x j) ∈ trendSpan box (quadraticBasis d) := by
  have key : ∀ i j, i ≤ j → (fun x => normPt box x i * normPt box x j) ∈ trendSpan box (quadraticBasis d) := by
    intro i j hij
    obtain ⟨idx, h⟩ := pairProducts_entry i j hij
    refine entry_mem (1 + d + idx) (fun x => x i * x j) fun x => ?_
    rw [C28_quadratic_basis, quadCols, List.getElem?_append_right (by simp; omega)]
    have := h x
    simpa [Nat.add_comm 1 d] using this
  refine ⟨entry_mem 0 (fun _ => 1) fun x => ?_, fun k => entry_mem (k.1 + 1) (fun x => x k) fun x => ?_, fun i j => ?_⟩
  · rw [C28_quadratic_basis]; rfl
  · rw [C28_quadratic_basis, quadCols]; simp [List.getElem?_append_left]
  · rcases le_total i j with h | h
    · exact key i j h
    · have := key j i h
      simpa only [mul_comm] using this

/-! ### Gaussian processes -/

theorem isGLS_exact_sigma2 {K : Matrix (Fin n) (Fin n) ℝ} {F : Matrix (Fin n) (Fin q) ℝ} {g : GLS n q} {b : Fin q → ℝ} (h : IsGLS K F (F *ᵥ b) g) : g.sigma2 = 0 := by
  rw [h.sigma2, (isGLS_exact h).2, dotProduct_zero, zero_div]

theorem gp_reproduces {gp : GPObj d q} {w : World d} {X : Samples n d} {g : (Fin d → ℝ) → ℝ} {gp' : GPObj d q} {t : GPFit n d q}
    (h : gp.train w X (fun i => g (X i)) = .ok (gp', t)) (h1 : (fun _ => (1 : ℝ)) ∈ trendSpan gp.box gp.regr) (hg : g ∈ trendSpan gp.box gp.regr) (Xnew : Samples m d) :
    predictStd gp' t Xnew = .ok (fun j => g (Xnew j), fun _ => |t.noise|) := by
  obtain ⟨hT, hX, hy, hbox, hregr, hno, hmn, hstd, hys⟩ := trained_of_train h
  have hs : std (fun i => g (X i)) ≠ 0 := by rw [← hstd]; exact hT.stdpos.ne'
  have hsc : (fun x => (g x - mean (fun i => g (X i))) / std (fun i => g (X i))) ∈ trendSpan gp.box gp.regr := by
    have : (fun x => (g x - mean (fun i => g (X i))) / std (fun i => g (X i))) =
        (std (fun i => g (X i)))⁻¹ • (g - mean (fun i => g (X i)) • fun _ => (1 : ℝ)) := by
      funext x
      simp [div_eq_inv_mul]
    rw [this]
    exact Submodule.smul_mem _ _ (Submodule.sub_mem _ hg (Submodule.smul_mem _ _ h1))
  obtain ⟨b, hb⟩ := mem_trendSpan.mp hsc
  have hF : t.F *ᵥ b = t.ys := by
    rw [hT.F, hT.Xs, hX, hys, hregr, hbox]
    funext i
    exact (hb (X i)).symm
  have hG := hT.gls
  rw [← hF] at hG
  obtain ⟨e1, e2⟩ := isGLS_exact hG
  have e3 := isGLS_exact_sigma2 hG
  have hmean : predictMean gp' t Xnew = .ok fun j => g (Xnew j) := by
    rw [predictMean_eq hT, e1, e2, Matrix.mulVec_zero, hregr, hbox, hstd, hmn]
    congr 1
    funext j
    have := hb (Xnew j)
    show ((∑ k, gp.regr (normPt gp.box (Xnew j)) k * b k) + 0) * _ + _ = _
    rw [add_zero, ← this]
    field_simp
    ring
  refine Py.bind_ok.mpr ⟨_, hmean, Py.bind_ok.mpr ⟨_, normalizeInput_eq Xnew hT.range, Py.bind_ok.mpr ⟨_, mse_entry hT.gls _ _, ?_⟩⟩⟩
  congr 2
  funext j
  rw [e3, zero_mul, zero_mul, zero_add, max_eq_left (sq_nonneg _), Real.sqrt_sq_eq_abs]

/-- C133 (linear trend). A process with the linear basis trained on samples of an affine function of the inputs predicts that function at every point, in every row of every batch,
however far from the samples, whatever the kernel parameters found and whatever the noise, and the standard deviation it reports is the noise alone. -/
theorem C133_linear (gp : GPObj d (d + 1)) (hreg : gp.regr = linear d) (w : World d) (X : Samples n d) (g : (Fin d → ℝ) → ℝ) (hg : AffineFun g)
    (gp' : GPObj d (d + 1)) (t : GPFit n d (d + 1)) (h : gp.train w X (fun i => g (X i)) = .ok (gp', t)) (Xnew : Samples m d) :
    predictMean gp' t Xnew = .ok (fun j => g (Xnew j)) ∧ predictStd gp' t Xnew = .ok (fun j => g (Xnew j), fun _ => |t.noise|) := by
  have hr : ∀ j, gp.box.high j - gp.box.low j ≠ 0 := by
    obtain ⟨hT, _, _, hbox, _⟩ := trained_of_train h
    rw [← hbox]; exact hT.range
  obtain ⟨h1, hx⟩ := linear_one_coord gp.box
  rw [← hreg] at h1 hx
  have := gp_reproduces h h1 (affine_mem hr h1 hx hg) Xnew
  exact ⟨C37_gp _ _ _ _ _ this, this⟩

/-- C133 (quadratic trend). The same for the quadratic basis and polynomials of degree at most 2, with all mixed products. -/
theorem C133_quadratic (gp : GPObj d (numCol d)) (hreg : gp.regr = quadraticBasis d) (w : World d) (X : Samples n d) (g : (Fin d → ℝ) → ℝ) (hg : QuadraticFun g)
    (gp' : GPObj d (numCol d)) (t : GPFit n d (numCol d)) (h : gp.train w X (fun i => g (X i)) = .ok (gp', t)) (Xnew : Samples m d) :
    predictMean gp' t Xnew = .ok (fun j => g (Xnew j)) ∧ predictStd gp' t Xnew = .ok (fun j => g (Xnew j), fun _ => |t.noise|) := by
  have hr : ∀ j, gp.box.high j - gp.box.low j ≠ 0 := by
    obtain ⟨hT, _, _, hbox, _⟩ := trained_of_train h
    rw [← hbox]; exact hT.range
  obtain ⟨h1, hx, hxx⟩ := quadratic_one_coord gp.box
  rw [← hreg] at h1 hx hxx
  have := gp_reproduces h h1 (quad_mem hr h1 hx hxx hg) Xnew
  exact ⟨C37_gp _ _ _ _ _ this, this⟩

/-! ### Hierarchical Kriging -/

/-- C133 (hierarchical Kriging, proportional fidelities). When the deviations of the high-fidelity responses from their average are `b` times the deviations, from the same average, of
the low-fidelity predictions at the samples, the same holds for the predictions at every point, and the standard deviation reported is the noise alone. -/
theorem C133_hk (hk : HKObj d q) (w : MFWorld d) (Xh : Samples nh d) (yh : Fin nh → ℝ) (Xl : Samples nl d) (yl : Fin nl → ℝ)
    (hk' : HKObj d q) (t : HKFit nh nl d q) (h : hk.train w Xh yh Xl yl = .ok (hk', t)) (lfh : Fin nh → ℝ) (hlf : hk'.predictLf t Xh = .ok lfh)
    (b : ℝ) (hb : ∀ i, yh i - mean yh = b * (lfh i - mean yh)) (Xnew : Samples m d) :
    ∃ lfn, hk'.predictLf t Xnew = .ok lfn ∧ hk'.predictStd t Xnew = .ok (fun j => mean yh + b * (lfn j - mean yh), fun _ => |t.noise|) := by
  obtain ⟨hT, hX, hy, hbox, hlf', hno, hmn, hstd, hys⟩ := hkTrained_of_train h
  obtain ⟨lfh', hlfh, hTF⟩ := hT.F
  rw [hX, hlf] at hlfh
  cases hlfh
  obtain ⟨lfn, hlfn⟩ := hkPredictLf_ok hT Xnew
  have hs : std yh ≠ 0 := by rw [← hstd]; exact hT.stdpos.ne'
  have hF : t.F *ᵥ (fun _ => b) = t.yhs := by
    rw [hTF, hys, hmn, hstd]
    funext i
    rw [hb i]
    simp [Matrix.mulVec, dotProduct, scaleCol]
    ring
  have hG := hT.gls
  rw [← hF] at hG
  obtain ⟨e1, e2⟩ := isGLS_exact hG
  have e3 := isGLS_exact_sigma2 hG
  have hmean : hk'.predict t Xnew = .ok fun j => mean yh + b * (lfn j - mean yh) := by
    rw [hkPredict_eq hT Xnew hlfn, e1, e2]
    congr 1
    funext j
    simp [Matrix.mulVec, dotProduct, scaleCol, hmn, hstd]
    field_simp
    ring
  refine ⟨lfn, hlfn, Py.bind_ok.mpr ⟨_, hmean, Py.bind_ok.mpr ⟨_, normalizeInput_eq Xnew hT.range, Py.bind_ok.mpr ⟨_, hlfn, Py.bind_ok.mpr ⟨_, mse_entry hT.gls _ _, ?_⟩⟩⟩⟩⟩
  show Except.ok (_, fun j => Real.sqrt ((Real.sqrt (max _ 0) * _) ^ 2 + _)) = _
  congr 2
  funext j
  simp only [e3, zero_mul, max_self, Real.sqrt_zero]
  rw [zero_pow two_ne_zero, zero_add, Real.sqrt_sq_eq_abs]

/-- C133 (hierarchical Kriging, equal fidelities). Given the same samples and responses at both fidelities and an exact low-fidelity model, the multi-fidelity model predicts exactly
what its low-fidelity model predicts, at every point, and the standard deviation reported is the noise alone. -/
theorem C133_hk_equal_fidelities (hk : HKObj d q) (hnoise : hk.lf.noise = some 0) (w : MFWorld d) (X : Samples n d) (y : Fin n → ℝ)
    (hk' : HKObj d q) (t : HKFit n n d q) (h : hk.train w X y X y = .ok (hk', t)) (Xnew : Samples m d) :
    ∃ lfn, hk'.predictLf t Xnew = .ok lfn ∧ hk'.predictStd t Xnew = .ok (lfn, fun _ => |t.noise|) := by
  obtain ⟨_, _, _, _, hlf', _⟩ := hkTrained_of_train h
  obtain ⟨lfn, h1, h2⟩ := C133_hk hk w X y X y hk' t h y (C34_interpolation _ _ _ _ hnoise _ _ hlf') 1 (fun i => by ring) Xnew
  refine ⟨lfn, h1, h2.trans ?_⟩
  congr 2
  funext j
  ring

/-! ### The hypotheses are met -/

example : ∃ hk' t, exHKB.train ⟨exWorld, exWorld⟩ exX exY exX exY = .ok (hk', t) ∧
    ∃ lfn, hk'.predictLf t (fun i _ => i.val : Samples 5 1) = .ok lfn ∧ hk'.predictStd t (fun i _ => i.val : Samples 5 1) = .ok (lfn, fun _ => 1) := by
  obtain ⟨hk', t, _, h, _⟩ := C105_hk_counterexample
  obtain ⟨lfn, h1, h2⟩ := C133_hk_equal_fidelities exHKB rfl _ _ _ hk' t h (fun i _ => i.val : Samples 5 1)
  obtain ⟨_, _, _, _, _, hno, _⟩ := hkTrained_of_train h
  rw [hno 1 rfl, abs_one] at h2
  exact ⟨hk', t, h, lfn, h1, h2⟩

/-- A process with the linear basis and noise 1. -/
noncomputable def exGPLin : GPObj 1 2 :=
  { box := { low := fun _ => 0, high := fun _ => 4 }, kernel := RBF.mk' (fun _ => 0) (-2) 3, regr := linear 1, optimizer := none, noise := some 1 }

example : ∃ gp' t, exGPLin.train exWorld exX (fun i => 3 - 2 * exX i 0) = .ok (gp', t) ∧
    predictStd gp' t (fun i _ => i.val : Samples 5 1) = .ok (fun i => 3 - 2 * (i.val : ℝ), fun _ => 1) := by
  obtain ⟨gp', t, h⟩ := C31_train_succeeds exGPLin exWorld exX (fun i => 3 - 2 * exX i 0) (fun _ => by simp [exGPLin]) (by simp [exGPLin, RBF.mk']; norm_num) cornerMinimizer_good
    (fun run h => by simp [exGPLin] at h) (by simp [exWorld]) (by simp [exWorld]) 0 2 (by simp [exX]) (fun c hc => by
      have h0 := congrFun hc 0
      have h2 := congrFun hc 2
      simp [Matrix.mulVec, dotProduct, Fin.sum_univ_two, exGPLin, linear, normPt, exX] at h0 h2
      funext k
      fin_cases k <;> simp <;> linarith) (fun h => by simp [exGPLin] at h)
  have hg : AffineFun (fun x : Fin 1 → ℝ => 3 - 2 * x 0) := ⟨3, fun _ => -2, fun x => by simp; ring⟩
  have h2 := (C133_linear exGPLin rfl exWorld exX _ hg gp' t h (fun i _ => i.val : Samples 5 1)).2
  obtain ⟨_, _, _, _, _, hno, _⟩ := trained_of_train h
  rw [hno 1 rfl, abs_one] at h2
  exact ⟨gp', t, h, h2⟩

/-- A process with the quadratic basis and noise 1. -/
noncomputable def exGPQuad : GPObj 1 (numCol 1) :=
  { box := { low := fun _ => 0, high := fun _ => 4 }, kernel := RBF.mk' (fun _ => 0) (-2) 3, regr := quadraticBasis 1, optimizer := none, noise := some 1 }

example : ∃ gp' t, exGPQuad.train exWorld (fun i _ => i.val : Samples 3 1) (fun i => (i.val : ℝ) ^ 2) = .ok (gp', t) ∧
    predictStd gp' t (fun i _ => i.val + 10 : Samples 5 1) = .ok (fun i => ((i.val : ℝ) + 10) ^ 2, fun _ => 1) := by
  have hcol : ∀ x : Fin 1 → ℝ, quadraticBasis 1 x = (![1, x 0, x 0 * x 0] : Fin 3 → ℝ) := fun x => List.ofFn_injective (by rw [C28_quadratic_basis]; simp [quadCols, pairProducts]; rfl)
  obtain ⟨gp', t, h⟩ := C31_train_succeeds exGPQuad exWorld (fun i _ => i.val : Samples 3 1) (fun i => (i.val : ℝ) ^ 2) (fun _ => by simp [exGPQuad]) (by simp [exGPQuad, RBF.mk']; norm_num)
    cornerMinimizer_good (fun run h => by simp [exGPQuad] at h) (by simp [exWorld]) (by simp [exWorld]) 0 2 (by simp; norm_num) (fun c hc => by
      have hs : ∀ i : Fin 3, c (0 : Fin 3) + (i.val : ℝ) / 4 * c (1 : Fin 3) + (i.val : ℝ) / 4 * ((i.val : ℝ) / 4) * c (2 : Fin 3) = 0 := by
        intro i
        have hi : ∑ k : Fin 3, quadraticBasis 1 (normPt exGPQuad.box fun _ => (i.val : ℝ)) k * c k = 0 := congrFun hc i
        rw [Fin.sum_univ_three, hcol] at hi
        simpa [normPt, exGPQuad] using hi
      have h0 := hs 0
      have h1 := hs 1
      have h2 := hs 2
      simp at h0 h1 h2
      have a0 : c (0 : Fin 3) = 0 := h0
      have a2 : c (2 : Fin 3) = 0 := by linarith
      have a1 : c (1 : Fin 3) = 0 := by linarith
      funext k
      show c k = 0
      have : ∀ k : Fin 3, c k = 0 := fun k => by fin_cases k; exacts [a0, a1, a2]
      exact this k) (fun h => by simp [exGPQuad] at h)
  have hg : QuadraticFun (fun x : Fin 1 → ℝ => x 0 ^ 2) := ⟨0, fun _ => 0, fun _ _ => 1, fun x => by simp; ring⟩
  have h2 := (C133_quadratic exGPQuad rfl exWorld _ _ hg gp' t h (fun i _ => i.val + 10 : Samples 5 1)).2
  obtain ⟨_, _, _, _, _, hno, _⟩ := trained_of_train h
  rw [hno 1 rfl, abs_one] at h2
  exact ⟨gp', t, h, h2⟩

end Mfpml.Props
