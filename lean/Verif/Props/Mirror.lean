import Verif.Props.VariableOrderMF

/-!
# Mirrored design variables (C178)

Some of the design variables are counted from the other end of their range: `x` becomes `low + high - x`.  The models are the same objects, over the same design space, with the same solvers.
-/

set_option linter.unusedSectionVars false

open scoped BigOperators Matrix

namespace Mfpml.Props

open Mfpml.GP Mfpml.Spec
open Mfpml.EA (Box)

variable {n m d q ql qd nh nl : ℕ}

/-! ### What mirroring means -/

/-- A point with the variables in `S` counted from the other end of their range. -/
def mirrorPt (S : Fin d → Bool) (b : Box ℝ d) (x : Fin d → ℝ) : Fin d → ℝ := fun k => if S k then b.low k + b.high k - x k else x k

/-- Samples with the variables in `S` counted from the other end of their range. -/
def mirrorSamples (S : Fin d → Bool) (b : Box ℝ d) (X : Samples n d) : Samples n d := fun i => mirrorPt S b (X i)

/-- Mirroring in the unit cube. -/
def unitFlip (S : Fin d → Bool) (x : Fin d → ℝ) : Fin d → ℝ := fun k => if S k then 1 - x k else x k

/-- The trend can express the same functions of the mirrored variables: its columns at a mirrored point are fixed linear combinations of its columns at the point. -/
def TrendMirrors (S : Fin d → Bool) (regr : Basis d q) : Prop := ∃ B : Matrix (Fin q) (Fin q) ℝ, ∀ x, regr (unitFlip S x) = regr x ᵥ* B

/-! ### The trends of the library do -/

theorem trendMirrors_of_span (S : Fin d → Bool) (regr : Basis d q) (h : ∀ c, (fun x => regr (unitFlip S x) c) ∈ Submodule.span ℝ (Set.range (fun c (x : Fin d → ℝ) => regr x c))) : TrendMirrors S regr := by
  have h' : ∀ c, ∃ b : Fin q → ℝ, ∀ x, regr (unitFlip S x) c = ∑ i, regr x i * b i := fun c => by
    obtain ⟨b, hb⟩ := (Submodule.mem_span_range_iff_exists_fun ℝ).mp (h c)
    refine ⟨b, fun x => ?_⟩
    rw [← congrFun hb x, Finset.sum_apply]
    exact Finset.sum_congr rfl fun i _ => by simp only [Pi.smul_apply, smul_eq_mul, mul_comm]
  choose b hb using h'
  exact ⟨fun i c => b c i, fun x => funext fun c => by rw [hb c x]; rfl⟩

theorem unitFlip_affine (S : Fin d → Bool) : ∃ α β : Fin d → ℝ, ∀ x k, unitFlip S x k = α k + β k * x k :=
  ⟨fun k => if S k then 1 else 0, fun k => if S k then -1 else 1, fun x k => by
    unfold unitFlip
    by_cases h : S k = true
    · simp only [h, if_true]; ring
    · simp only [h, Bool.false_eq_true, if_false]; ring⟩

/-- **C178 (trends).** Every trend the library offers can express the same functions of the mirrored variables. -/
theorem C178_trends (S : Fin d → Bool) : TrendMirrors S (ordinary d) ∧ TrendMirrors S (linear d) ∧ TrendMirrors S (quadraticBasis d) := by
  obtain ⟨α, β, hf⟩ := unitFlip_affine S
  refine ⟨⟨1, fun x => by rw [Matrix.vecMul_one]; rfl⟩, trendMirrors_of_span S _ fun c => ?_, trendMirrors_of_span S _ fun c => ?_⟩
  · have hm : ∀ c, (fun x => linear d x c) ∈ Submodule.span ℝ (Set.range (fun c (x : Fin d → ℝ) => linear d x c)) := fun c => Submodule.subset_span ⟨c, rfl⟩
    refine Fin.cases ?_ (fun j => ?_) c
    · have := hm 0
      simpa [linear] using this
    · have h : (fun x => linear d (unitFlip S x) j.succ) = α j • (fun x => linear d x 0) + β j • (fun x => linear d x j.succ) := by
        funext x
        simp [linear, hf]
      rw [h]
      exact Submodule.add_mem _ (Submodule.smul_mem _ _ (hm 0)) (Submodule.smul_mem _ _ (hm j.succ))
  · have hcols : ∀ x : Fin d → ℝ, List.ofFn (quadraticBasis d x) = (colsOf (List.ofFn id)).map (colVal x) := fun x => by
      rw [C28_quadratic_basis, ← quadCols_cols, List.map_ofFn]
      rfl
    have hlen : (colsOf (List.ofFn (id : Fin d → Fin d))).length = numCol d := by
      have := congrArg List.length (hcols (fun _ => 0))
      simpa using this.symm
    have hget : ∀ (c : Fin (numCol d)) (x : Fin d → ℝ), quadraticBasis d x c = colVal x ((colsOf (List.ofFn id))[c.val]'(by rw [hlen]; exact c.isLt)) := fun c x => by
      have h1 : (List.ofFn (quadraticBasis d x))[c.val]? = ((colsOf (List.ofFn id)).map (colVal x))[c.val]? := by rw [hcols]
      rw [List.getElem?_eq_getElem (by simp), List.getElem?_eq_getElem (by rw [List.length_map, hlen]; exact c.isLt)] at h1
      simpa using h1
    have hall : ∀ e : Col d, (fun x => colVal x e) ∈ Submodule.span ℝ (Set.range (fun c (x : Fin d → ℝ) => quadraticBasis d x c)) := fun e => by
      have hmem : e ∈ colsOf (List.ofFn (id : Fin d → Fin d)) := by
        unfold colsOf
        rw [List.mem_append]
        rcases e with (_ | j) | s
        · left; simp
        · left; simp
        · right
          refine List.mem_map.mpr ⟨s, ?_, rfl⟩
          refine Sym2.ind (fun a b => ?_) s
          exact List.mk_mem_sym2 (by simp) (by simp)
      obtain ⟨k, hk, hke⟩ := List.getElem_of_mem hmem
      refine Submodule.subset_span ⟨⟨k, by rw [← hlen]; exact hk⟩, funext fun x => ?_⟩
      simp only [hget, hke]
    have hflip : ∀ e : Col d, (fun x => colVal (unitFlip S x) e) ∈ Submodule.span ℝ (Set.range (fun c (x : Fin d → ℝ) => quadraticBasis d x c)) := fun e => by
      rcases e with (_ | j) | s
      · exact hall (.inl none)
      · have h : (fun x => colVal (unitFlip S x) (.inl (some j))) = α j • (fun x => colVal x (.inl none : Col d)) + β j • (fun x => colVal x (.inl (some j))) := by
          funext x
          simp [colVal, hf]
        rw [h]
        exact Submodule.add_mem _ (Submodule.smul_mem _ _ (hall _)) (Submodule.smul_mem _ _ (hall _))
      · refine Sym2.ind (fun a b => ?_) s
        have h : (fun x => colVal (unitFlip S x) (.inr s(a, b))) = (α a * α b) • (fun x => colVal x (.inl none : Col d)) + (α a * β b) • (fun x => colVal x (.inl (some b))) +
            (β a * α b) • (fun x => colVal x (.inl (some a))) + (β a * β b) • (fun x => colVal x (.inr s(a, b))) := by
          funext x
          simp [colVal, hf]
          ring
        rw [h]
        exact Submodule.add_mem _ (Submodule.add_mem _ (Submodule.add_mem _ (Submodule.smul_mem _ _ (hall _)) (Submodule.smul_mem _ _ (hall _))) (Submodule.smul_mem _ _ (hall _))) (Submodule.smul_mem _ _ (hall _))
    have := hflip ((colsOf (List.ofFn id))[c.val]'(by rw [hlen]; exact c.isLt))
    simpa only [hget] using this

/-! ### Least squares on other columns that span the same space -/

/-- Two sets of columns that are combinations of each other. -/
structure SameSpan (B : Matrix (Fin q) (Fin q) ℝ) (F F₁ : Matrix (Fin n) (Fin q) ℝ) : Prop where
  fwd : F₁ = F * B
  bwd : F = F₁ * B

theorem SameSpan.symm {B : Matrix (Fin q) (Fin q) ℝ} {F F₁ : Matrix (Fin n) (Fin q) ℝ} (h : SameSpan B F F₁) : SameSpan B F₁ F := ⟨h.bwd, h.fwd⟩

theorem SameSpan.sq {B : Matrix (Fin q) (Fin q) ℝ} {F F₁ : Matrix (Fin n) (Fin q) ℝ} (h : SameSpan B F F₁) (hF : Function.Injective F.mulVec) : B * B = 1 := by
  have h1 : F * (B * B) = F := by rw [← Matrix.mul_assoc, ← h.fwd, ← h.bwd]
  have h2 : ∀ v, (B * B) *ᵥ v = v := fun v => hF (by rw [Matrix.mulVec_mulVec, h1])
  ext i j
  have := congrFun (h2 (Pi.single j 1)) i
  rw [Matrix.mulVec_single_one] at this
  simpa [Matrix.one_apply, Pi.single_apply] using this

theorem SameSpan.inj_of {B : Matrix (Fin q) (Fin q) ℝ} {F F₁ : Matrix (Fin n) (Fin q) ℝ} (h : SameSpan B F F₁) (hF : Function.Injective F.mulVec) : Function.Injective F₁.mulVec := by
  intro u v huv
  rw [h.fwd, ← Matrix.mulVec_mulVec, ← Matrix.mulVec_mulVec] at huv
  have h1 := congrArg (B *ᵥ ·) (hF huv)
  simpa only [Matrix.mulVec_mulVec, h.sq hF, Matrix.one_mulVec] using h1

theorem SameSpan.inj {B : Matrix (Fin q) (Fin q) ℝ} {F F₁ : Matrix (Fin n) (Fin q) ℝ} (h : SameSpan B F F₁) : Function.Injective F₁.mulVec ↔ Function.Injective F.mulVec := ⟨h.symm.inj_of, h.inj_of⟩

theorem conj_inv {B M : Matrix (Fin q) (Fin q) ℝ} (hB : B * B = 1) : (Bᵀ * (M * B))⁻¹ = B * (M⁻¹ * Bᵀ) := by
  have hBi : B⁻¹ = B := Matrix.inv_eq_right_inv hB
  rw [Matrix.mul_inv_rev, Matrix.mul_inv_rev, ← Matrix.transpose_nonsing_inv, hBi, Matrix.mul_assoc]

theorem span_conj {B : Matrix (Fin q) (Fin q) ℝ} {F F₁ : Matrix (Fin n) (Fin q) ℝ} (h : SameSpan B F F₁) (A : Matrix (Fin n) (Fin n) ℝ) : F₁ᵀ * (A * F₁) = Bᵀ * (Fᵀ * (A * F) * B) := by
  rw [h.fwd, Matrix.transpose_mul]
  simp only [Matrix.mul_assoc]

theorem glsFit_span {B : Matrix (Fin q) (Fin q) ℝ} {F F₁ : Matrix (Fin n) (Fin q) ℝ} (h : SameSpan B F F₁) (K : Matrix (Fin n) (Fin n) ℝ) (y : Fin n → ℝ) :
    (∃ e, glsFit K F y = .error e ∧ glsFit K F₁ y = .error e) ∨
    ∃ g g', glsFit K F y = .ok g ∧ glsFit K F₁ y = .ok g' ∧ IsGLS K F y g ∧ IsGLS K F₁ y g' ∧ B * B = 1 ∧
      g'.L = g.L ∧ g'.beta = B *ᵥ g.beta ∧ g'.gamma = g.gamma ∧ g'.sigma2 = g.sigma2 := by
  by_cases hp : K.PosDef ∧ Function.Injective F.mulVec
  · rcases Nat.eq_zero_or_pos n with hn | hn
    · exact .inl ⟨_, glsFit_no_samples y hp.1 hp.2 hn, glsFit_no_samples y hp.1 (h.inj.mpr hp.2) hn⟩
    right
    obtain ⟨g, hg, hG⟩ := glsFit_succeeds y hp.1 hp.2 hn
    obtain ⟨g', hg', hG'⟩ := glsFit_succeeds y hp.1 (h.inj.mpr hp.2) hn
    have hB := h.sq hp.2
    have hBt : Bᵀ * Bᵀ = 1 := by rw [← Matrix.transpose_mul, hB, Matrix.transpose_one]
    refine ⟨g, g', hg, hg', hG, hG', hB, ?_, ?_⟩
    · have := glsFit_L hg'
      rw [glsFit_L hg, Except.ok.injEq] at this
      exact this.symm
    · have hb : g'.beta = B *ᵥ g.beta := by
        rw [hG'.beta, hG.beta, span_conj h, conj_inv hB]
        simp only [h.fwd, Matrix.transpose_mul, Matrix.mulVec_mulVec, Matrix.mul_assoc]
        rw [← Matrix.mul_assoc Bᵀ Bᵀ, hBt, Matrix.one_mul]
      have hr : F₁ *ᵥ g'.beta = F *ᵥ g.beta := by rw [hb, Matrix.mulVec_mulVec, ← h.bwd]
      have hγ : g'.gamma = g.gamma := by rw [hG'.gamma, hG.gamma, hr]
      exact ⟨hb, hγ, by rw [hG'.sigma2, hG.sigma2, hr, hγ]⟩
  · left
    exact ⟨_, glsFit_not_posDef y hp, glsFit_not_posDef y (by rwa [h.inj])⟩

theorem negLogLik_span {B : Matrix (Fin q) (Fin q) ℝ} {F F₁ : Matrix (Fin n) (Fin q) ℝ} (h : SameSpan B F F₁) (K : Matrix (Fin n) (Fin n) ℝ) (y : Fin n → ℝ) (z : Prop) :
    negLogLik K F₁ y z = negLogLik K F y z := by
  unfold negLogLik
  rcases glsFit_span h K y with ⟨e, h1, h2⟩ | ⟨g, g', h1, h2, -, -, -, hL, -, -, hs⟩
  · rw [h1, h2]
  · rw [h1, h2]; simp only [bind, Except.bind, hL, hs]

theorem mseCol_span {B : Matrix (Fin q) (Fin q) ℝ} (hB : B * B = 1) {F F₁ : Matrix (Fin n) (Fin q) ℝ} (h : SameSpan B F F₁) (s : ℝ) (K : Matrix (Fin n) (Fin n) ℝ) (k : Fin n → ℝ) (f : Fin q → ℝ) :
    mseCol s K F₁ k (f ᵥ* B) = mseCol s K F k f := by
  have hBt : Bᵀ * Bᵀ = 1 := by rw [← Matrix.transpose_mul, hB, Matrix.transpose_one]
  have hsub : f ᵥ* B - F₁ᵀ *ᵥ (K⁻¹ *ᵥ k) = Bᵀ *ᵥ (f - Fᵀ *ᵥ (K⁻¹ *ᵥ k)) := by
    rw [Matrix.mulVec_sub, Matrix.mulVec_transpose B f, h.fwd, Matrix.transpose_mul, Matrix.mulVec_mulVec, Matrix.mulVec_mulVec, Matrix.mulVec_mulVec, Matrix.mul_assoc]
  unfold mseCol
  rw [hsub, span_conj h, conj_inv hB]
  set u := f - Fᵀ *ᵥ (K⁻¹ *ᵥ k)
  have : (Bᵀ *ᵥ u) ⬝ᵥ ((B * ((Fᵀ * (K⁻¹ * F))⁻¹ * Bᵀ)) *ᵥ (Bᵀ *ᵥ u)) = u ⬝ᵥ ((Fᵀ * (K⁻¹ * F))⁻¹ *ᵥ u) := by
    rw [Matrix.mulVec_mulVec, Matrix.mul_assoc, Matrix.mul_assoc, hBt, Matrix.mul_one, Matrix.mulVec_transpose, ← Matrix.dotProduct_mulVec, Matrix.mulVec_mulVec, ← Matrix.mul_assoc, hB, Matrix.one_mul]
  rw [this]

theorem mseOf_span {B : Matrix (Fin q) (Fin q) ℝ} (hB : B * B = 1) {F F₁ : Matrix (Fin n) (Fin q) ℝ} (h : SameSpan B F F₁) {K : Matrix (Fin n) (Fin n) ℝ} {y : Fin n → ℝ} {g g' : GLS n q} (hG : IsGLS K F y g)
    (hG' : IsGLS K F₁ y g') (hs : g'.sigma2 = g.sigma2) (knew : Matrix (Fin n) (Fin m) ℝ) (f : Matrix (Fin m) (Fin q) ℝ) : mseOf g' F₁ knew (f * B) = mseOf g F knew f := by
  rw [mseOf_col hG', mseOf_col hG, hs]
  congr 1
  funext j
  exact mseCol_span hB h _ K _ (f j)

/-! ### Kernels and normalisation -/

def flipSamples (S : Fin d → Bool) (X : Samples n d) : Samples n d := fun i => unitFlip S (X i)

theorem unitFlip_flip (S : Fin d → Bool) (x : Fin d → ℝ) : unitFlip S (unitFlip S x) = x := by
  funext k
  unfold unitFlip
  by_cases h : S k = true
  · simp only [h, if_true]; ring
  · simp only [h, Bool.false_eq_true, if_false]

theorem rbfDist_flip (S : Fin d → Bool) {param : Fin d → ℝ} (hp : ∀ k, 0 ≤ param k) (x y : Fin d → ℝ) : rbfDist param (unitFlip S x) (unitFlip S y) = rbfDist param x y := by
  rw [rbfDist_eq param hp, rbfDist_eq param hp]
  refine Finset.sum_congr rfl fun k _ => ?_
  unfold unitFlip
  by_cases h : S k = true
  · simp only [h, if_true]; ring
  · simp only [h, Bool.false_eq_true, if_false]

theorem rbfMatrix_flip (S : Fin d → Bool) {param : Fin d → ℝ} (hp : ∀ k, 0 ≤ param k) (X : Samples n d) (Y : Samples m d) : rbfMatrix param (flipSamples S X) (flipSamples S Y) = rbfMatrix param X Y := by
  funext i j
  simp only [rbfMatrix, flipSamples, rbfDist_flip S hp]

theorem pow10_nonneg' (theta : Fin d → ℝ) (k : Fin d) : 0 ≤ pow10 theta k := (Real.rpow_pos_of_pos (by norm_num) _).le

theorem covTrain_flip (S : Fin d → Bool) {param : Fin d → ℝ} (hp : ∀ k, 0 ≤ param k) (Xs : Samples n d) (s : ℝ) : covTrain param (flipSamples S Xs) s = covTrain param Xs s := by
  unfold covTrain
  rw [rbfMatrix_flip S hp]

theorem normalizeInput_mirror (S : Fin d → Bool) (b : Box ℝ d) (X : Samples n d) : normalizeInput b (mirrorSamples S b X) = (normalizeInput b X).map (flipSamples S) := by
  by_cases h : ∀ j, b.high j - b.low j ≠ 0
  · rw [normalizeInput_eq X h, normalizeInput_eq _ h]
    refine congrArg Except.ok ?_
    funext i k
    have := h k
    simp only [normPt, mirrorSamples, mirrorPt, flipSamples, unitFlip]
    by_cases hS : S k = true
    · simp only [hS, if_true]; field_simp; ring
    · simp only [hS, Bool.false_eq_true, if_false]
  · unfold normalizeInput
    rw [if_neg h, if_neg h]; rfl

theorem regrMatrix_flip {S : Fin d → Bool} {regr : Basis d q} {B : Matrix (Fin q) (Fin q) ℝ} (h : ∀ x, regr (unitFlip S x) = regr x ᵥ* B) (X : Samples n d) : regrMatrix regr (flipSamples S X) = regrMatrix regr X * B := by
  funext i c
  exact congrFun (h (X i)) c

theorem regrMatrix_span {S : Fin d → Bool} {regr : Basis d q} {B : Matrix (Fin q) (Fin q) ℝ} (h : ∀ x, regr (unitFlip S x) = regr x ᵥ* B) (X : Samples n d) :
    SameSpan B (regrMatrix regr X) (regrMatrix regr (flipSamples S X)) := by
  refine ⟨regrMatrix_flip h X, ?_⟩
  rw [← regrMatrix_flip h]
  congr 1
  funext i
  exact (unitFlip_flip S (X i)).symm

/-! ### Kriging -/

theorem fitHyper_mirror {S : Fin d → Bool} {gp : GPObj d q} {B : Matrix (Fin q) (Fin q) ℝ} (hB : ∀ x, gp.regr (unitFlip S x) = gp.regr x ᵥ* B) (w : World d) (yStd : ℝ) (Xs : Samples n d) (ys : Fin n → ℝ) :
    gp.fitHyper w yStd (flipSamples S Xs) ys = gp.fitHyper w yStd Xs ys := by
  have h1 : ∀ s, gp.logLikKnown s yStd (flipSamples S Xs) ys = gp.logLikKnown s yStd Xs ys := fun s => by
    funext x
    unfold GPObj.logLikKnown
    rw [covTrain_flip S (pow10_nonneg' _), negLogLik_span (regrMatrix_span hB Xs)]
  have h2 : gp.logLikFree (flipSamples S Xs) ys = gp.logLikFree Xs ys := by
    funext x
    unfold GPObj.logLikFree
    rw [covTrain_flip S (pow10_nonneg' _), negLogLik_span (regrMatrix_span hB Xs)]
  unfold GPObj.fitHyper
  simp only [h1, h2]

/-- What the two trained models have in common. -/
structure MirrorFit (S : Fin d → Bool) (B : Matrix (Fin q) (Fin q) ℝ) (t t₁ : GPFit n d q) : Prop where
  Xs : t₁.Xs = flipSamples S t.Xs
  span : SameSpan B t.F t₁.F
  sq : B * B = 1
  gls : IsGLS t.K t.F t.ys t.gls
  gls₁ : IsGLS t.K t₁.F t.ys t₁.gls
  beta : t₁.gls.beta = B *ᵥ t.gls.beta
  gamma : t₁.gls.gamma = t.gls.gamma
  sigma2 : t₁.gls.sigma2 = t.gls.sigma2
  yMean : t₁.yMean = t.yMean
  yStd : t₁.yStd = t.yStd
  noise : t₁.noise = t.noise

/-- A trained model: kernel parameters that are not negative, the trend of the model before. -/
structure Trained (gp gp' : GPObj d q) : Prop where
  box : gp'.box = gp.box
  regr : gp'.regr = gp.regr
  param : ∀ k, 0 ≤ gp'.kernel.param k

theorem gp_train_mirror {S : Fin d → Bool} {gp : GPObj d q} {B : Matrix (Fin q) (Fin q) ℝ} (hB : ∀ x, gp.regr (unitFlip S x) = gp.regr x ᵥ* B) (w : World d) (X : Samples n d) (y : Fin n → ℝ) :
    (∃ e, gp.train w X y = .error e ∧ gp.train w (mirrorSamples S gp.box X) y = .error e) ∨
    ∃ gp' t t₁, gp.train w X y = .ok (gp', t) ∧ gp.train w (mirrorSamples S gp.box X) y = .ok (gp', t₁) ∧ Trained gp gp' ∧ MirrorFit S B t t₁ := by
  unfold GPObj.train
  rw [normalizeInput_mirror]
  cases normalizeInput gp.box X with
  | error e => exact .inl ⟨e, rfl, rfl⟩
  | ok Xs =>
    simp only [Except.map, bind, Except.bind]
    cases normalizeOutput y with
    | error e => exact .inl ⟨e, rfl, rfl⟩
    | ok ys =>
      simp only [fitHyper_mirror hB w (std y) Xs ys]
      cases gp.fitHyper w (std y) Xs ys with
      | error e => exact .inl ⟨e, rfl, rfl⟩
      | ok r =>
        simp only [RBF.setParams, covTrain_flip S (pow10_nonneg' r.1)]
        rcases glsFit_span (regrMatrix_span hB Xs) (covTrain (pow10 r.1) Xs (r.2 / std y)) ys with ⟨e, h1, h2⟩ | ⟨g, g', h1, h2, hG, hG', hsq, hL, hb, hγ, hs⟩
        · rw [h1, h2]; exact .inl ⟨e, rfl, rfl⟩
        · rw [h1, h2]
          exact .inr ⟨_, _, _, rfl, rfl, ⟨rfl, rfl, pow10_nonneg' r.1⟩, ⟨rfl, regrMatrix_span hB Xs, hsq, hG, hG', hb, hγ, hs, rfl, rfl, rfl⟩⟩

theorem gp_predictMean_mirror {S : Fin d → Bool} {gp : GPObj d q} {B : Matrix (Fin q) (Fin q) ℝ} (hB : ∀ x, gp.regr (unitFlip S x) = gp.regr x ᵥ* B) (hp : ∀ k, 0 ≤ gp.kernel.param k) {t t₁ : GPFit n d q}
    (ht : MirrorFit S B t t₁) (Xnew : Samples m d) : predictMean gp t₁ (mirrorSamples S gp.box Xnew) = predictMean gp t Xnew := by
  unfold predictMean
  rw [normalizeInput_mirror]
  cases normalizeInput gp.box Xnew with
  | error e => rfl
  | ok xs =>
    simp only [Except.map, bind, Except.bind, RBF.getKernelMatrix, ht.Xs, rbfMatrix_flip S hp, regrMatrix_flip hB, ht.beta, ht.gamma, Matrix.mulVec_mulVec, Matrix.mul_assoc, ht.sq, Matrix.mul_one, ht.yStd, ht.yMean]

theorem gp_predictStd_mirror {S : Fin d → Bool} {gp : GPObj d q} {B : Matrix (Fin q) (Fin q) ℝ} (hB : ∀ x, gp.regr (unitFlip S x) = gp.regr x ᵥ* B) (hp : ∀ k, 0 ≤ gp.kernel.param k) {t t₁ : GPFit n d q}
    (ht : MirrorFit S B t t₁) (Xnew : Samples m d) : predictStd gp t₁ (mirrorSamples S gp.box Xnew) = predictStd gp t Xnew := by
  unfold predictStd
  rw [gp_predictMean_mirror hB hp ht, normalizeInput_mirror]
  cases normalizeInput gp.box Xnew with
  | error e => rfl
  | ok xs =>
    simp only [Except.map, bind, Except.bind, RBF.getKernelMatrix, ht.Xs, rbfMatrix_flip S hp, regrMatrix_flip hB, mseOf_span ht.sq ht.span ht.gls ht.gls₁ ht.sigma2, ht.yStd, ht.noise]

/-- **C178 (Kriging).** Count some design variables from the other end of their range, in samples and prediction points.  Training raises the same exception, or it ends with the same length scales and noise (the same
object), and all predictions are the same. -/
theorem C178_gp (S : Fin d → Bool) (gp : GPObj d q) (hS : TrendMirrors S gp.regr) (w : World d) (X : Samples n d) (y : Fin n → ℝ) :
    (∀ e, gp.train w (mirrorSamples S gp.box X) y = .error e ↔ gp.train w X y = .error e) ∧
    ∀ gp' t, gp.train w X y = .ok (gp', t) → ∃ t₁, gp.train w (mirrorSamples S gp.box X) y = .ok (gp', t₁) ∧
      ∀ (m : ℕ) (Xnew : Samples m d), predictMean gp' t₁ (mirrorSamples S gp.box Xnew) = predictMean gp' t Xnew ∧ predictStd gp' t₁ (mirrorSamples S gp.box Xnew) = predictStd gp' t Xnew := by
  obtain ⟨B, hB⟩ := hS
  rcases gp_train_mirror hB w X y with ⟨e, h1, h2⟩ | ⟨gp', t, t₁, h1, h2, hr, ht⟩
  · rw [h1, h2]
    exact ⟨fun _ => Iff.rfl, fun _ _ h => by cases h⟩
  · rw [h1, h2]
    refine ⟨fun e => ⟨fun h => (nomatch h), fun h => (nomatch h)⟩, fun gp'' t' he => ?_⟩
    simp only [Except.ok.injEq, Prod.mk.injEq] at he
    obtain ⟨rfl, rfl⟩ := he
    rw [← hr.box]
    rw [← hr.regr] at hB
    exact ⟨t₁, rfl, fun m Xnew => ⟨gp_predictMean_mirror hB hr.param ht Xnew, gp_predictStd_mirror hB hr.param ht Xnew⟩⟩

/-! ### Hierarchical Kriging -/

theorem hk_fitHyper_mirror (S : Fin d → Bool) (hk : HKObj d q) (w : World d) (yStd : ℝ) (Xs : Samples n d) (F : Matrix (Fin n) (Fin 1) ℝ) (ys : Fin n → ℝ) :
    hk.fitHyper w yStd (flipSamples S Xs) F ys = hk.fitHyper w yStd Xs F ys := by
  have h1 : ∀ s, hkLogLikKnown s yStd (flipSamples S Xs) F ys = hkLogLikKnown s yStd Xs F ys := fun s => by
    funext x
    unfold hkLogLikKnown
    rw [covTrain_flip S (pow10_nonneg' _)]
  have h2 : hkLogLikFree (flipSamples S Xs) F ys = hkLogLikFree Xs F ys := by
    funext x
    unfold hkLogLikFree
    rw [covTrain_flip S (pow10_nonneg' _)]
  unfold HKObj.fitHyper
  simp only [h1, h2]

structure MirrorFitHK (S : Fin d → Bool) (B : Matrix (Fin q) (Fin q) ℝ) (t t₁ : HKFit nh nl d q) : Prop where
  lf : MirrorFit S B t.lfFit t₁.lfFit
  Xhs : t₁.Xhs = flipSamples S t.Xhs
  F : t₁.F = t.F
  gls : t₁.gls = t.gls
  yhMean : t₁.yhMean = t.yhMean
  yhStd : t₁.yhStd = t.yhStd
  noise : t₁.noise = t.noise

theorem hk_train_mirror {S : Fin d → Bool} {hk : HKObj d q} {B : Matrix (Fin q) (Fin q) ℝ} (hB : ∀ x, hk.lf.regr (unitFlip S x) = hk.lf.regr x ᵥ* B) (hb : hk.lf.box = hk.box) (w : MFWorld d)
    (Xh : Samples nh d) (yh : Fin nh → ℝ) (Xl : Samples nl d) (yl : Fin nl → ℝ) :
    (∃ e, hk.train w Xh yh Xl yl = .error e ∧ hk.train w (mirrorSamples S hk.box Xh) yh (mirrorSamples S hk.box Xl) yl = .error e) ∨
    ∃ hk' t t₁, hk.train w Xh yh Xl yl = .ok (hk', t) ∧ hk.train w (mirrorSamples S hk.box Xh) yh (mirrorSamples S hk.box Xl) yl = .ok (hk', t₁) ∧ Trained hk.lf hk'.lf ∧ hk'.box = hk.box ∧
      (∀ k, 0 ≤ hk'.kernel.param k) ∧ MirrorFitHK S B t t₁ := by
  unfold HKObj.train
  have hlf := gp_train_mirror hB w.lf Xl yl
  rw [hb] at hlf
  rcases hlf with ⟨e, h1, h2⟩ | ⟨lf, lt, lt₁, h1, h2, hr, ht⟩
  · rw [h1, h2]; exact .inl ⟨e, rfl, rfl⟩
  · rw [h1, h2, normalizeInput_mirror]
    cases normalizeInput hk.box Xh with
    | error e => exact .inl ⟨e, rfl, rfl⟩
    | ok Xhs =>
      simp only [Except.map, bind, Except.bind]
      cases normalizeOutput yh with
      | error e => exact .inl ⟨e, rfl, rfl⟩
      | ok yhs =>
        have hf : predictMean lf lt₁ (mirrorSamples S hk.box Xh) = predictMean lf lt Xh := by
          have := gp_predictMean_mirror (by rw [hr.regr]; exact hB) hr.param ht Xh
          rwa [hr.box, hb] at this
        simp only [hf]
        cases predictMean lf lt Xh with
        | error e => exact .inl ⟨e, rfl, rfl⟩
        | ok f =>
          simp only [hk_fitHyper_mirror]
          cases hk.fitHyper w.hf (std yh) Xhs (scaleCol f (mean yh) (std yh)) yhs with
          | error e => exact .inl ⟨e, rfl, rfl⟩
          | ok r =>
            simp only [RBF.setParams, rbfMatrix_flip S (pow10_nonneg' r.1)]
            cases glsFit (rbfMatrix (pow10 r.1) Xhs Xhs + ((r.2 / std yh) ^ 2) • (1 : Matrix (Fin nh) (Fin nh) ℝ)) (scaleCol f (mean yh) (std yh)) yhs with
            | error e => exact .inl ⟨e, rfl, rfl⟩
            | ok g => exact .inr ⟨_, _, _, rfl, rfl, hr, rfl, pow10_nonneg' r.1, ⟨ht, rfl, rfl, rfl, rfl, rfl, rfl⟩⟩

/-- **C178 (hierarchical Kriging).** The same for a hierarchical Kriging model and its low-fidelity model. -/
theorem C178_hk (S : Fin d → Bool) (hk : HKObj d q) (hS : TrendMirrors S hk.lf.regr) (hb : hk.lf.box = hk.box) (w : MFWorld d) (Xh : Samples nh d) (yh : Fin nh → ℝ) (Xl : Samples nl d) (yl : Fin nl → ℝ) :
    (∀ e, hk.train w (mirrorSamples S hk.box Xh) yh (mirrorSamples S hk.box Xl) yl = .error e ↔ hk.train w Xh yh Xl yl = .error e) ∧
    ∀ hk' t, hk.train w Xh yh Xl yl = .ok (hk', t) → ∃ t₁, hk.train w (mirrorSamples S hk.box Xh) yh (mirrorSamples S hk.box Xl) yl = .ok (hk', t₁) ∧
      ∀ (m : ℕ) (Xnew : Samples m d), hk'.predictLf t₁ (mirrorSamples S hk.box Xnew) = hk'.predictLf t Xnew ∧ hk'.predict t₁ (mirrorSamples S hk.box Xnew) = hk'.predict t Xnew ∧
        hk'.predictStd t₁ (mirrorSamples S hk.box Xnew) = hk'.predictStd t Xnew := by
  obtain ⟨B, hB⟩ := hS
  rcases hk_train_mirror hB hb w Xh yh Xl yl with ⟨e, h1, h2⟩ | ⟨hk', t, t₁, h1, h2, hr, hbox, hpar, ht⟩
  · rw [h1, h2]
    exact ⟨fun _ => Iff.rfl, fun _ _ h => by cases h⟩
  · rw [h1, h2]
    refine ⟨fun e => ⟨fun h => (nomatch h), fun h => (nomatch h)⟩, fun hk'' t' he => ?_⟩
    simp only [Except.ok.injEq, Prod.mk.injEq] at he
    obtain ⟨rfl, rfl⟩ := he
    refine ⟨t₁, rfl, fun m Xnew => ?_⟩
    have hl : hk'.predictLf t₁ (mirrorSamples S hk.box Xnew) = hk'.predictLf t Xnew := by
      have := gp_predictMean_mirror (by rw [hr.regr]; exact hB) hr.param ht.lf Xnew
      rwa [hr.box, hb] at this
    have hp : hk'.predict t₁ (mirrorSamples S hk.box Xnew) = hk'.predict t Xnew := by
      unfold HKObj.predict
      rw [hl, hbox, normalizeInput_mirror]
      cases normalizeInput hk.box Xnew with
      | error e => rfl
      | ok xs => simp only [Except.map, bind, Except.bind, RBF.getKernelMatrix, ht.Xhs, rbfMatrix_flip S hpar, ht.gls, ht.yhStd, ht.yhMean]
    refine ⟨hl, hp, ?_⟩
    unfold HKObj.predictStd
    rw [hl, hp, hbox, normalizeInput_mirror]
    cases normalizeInput hk.box Xnew with
    | error e => rfl
    | ok xs => simp only [Except.map, bind, Except.bind, RBF.getKernelMatrix, ht.Xhs, ht.F, rbfMatrix_flip S hpar, ht.gls, ht.yhStd, ht.yhMean, ht.noise]

/-! ### Scaled Kriging -/

theorem bumpRun_mirror {S : Fin d → Bool} {B : Matrix (Fin q) (Fin q) ℝ} (b : Box ℝ d) (Xh : Samples nh d) (yh lfAtXh : Fin nh → ℝ) : ∀ (evals : List (ℝ × World d)) (gp : GPObj d q), gp.box = b →
    (∀ x, gp.regr (unitFlip S x) = gp.regr x ᵥ* B) →
    bumpRun (mirrorSamples S b Xh) yh lfAtXh evals gp = bumpRun Xh yh lfAtXh evals gp ∧ ∀ gp', bumpRun Xh yh lfAtXh evals gp = .ok gp' → gp'.box = b ∧ gp'.regr = gp.regr
  | [], gp, hb, hB => ⟨rfl, fun gp' h => by cases h; exact ⟨hb, rfl⟩⟩
  | (r, w) :: l, gp, hb, hB => by
    simp only [bumpRun, evalBumpiness]
    have htr := gp_train_mirror hB w Xh (getDisc r lfAtXh yh)
    rw [hb] at htr
    rcases htr with ⟨e, e1, e2⟩ | ⟨gp', t, t₁, e1, e2, hr, ht⟩
    · rw [e1, e2]; exact ⟨rfl, fun gp' h => by cases h⟩
    · rw [e1, e2]
      have ih := bumpRun_mirror b Xh yh lfAtXh l gp' (hr.box.trans hb) (by rw [hr.regr]; exact hB)
      exact ⟨ih.1, fun gp'' h => ⟨(ih.2 gp'' h).1, (ih.2 gp'' h).2.trans hr.regr⟩⟩

theorem optimizeRho_mirror {S : Fin d → Bool} {sk : SKObj d ql qd} {B : Matrix (Fin qd) (Fin qd) ℝ} (hB : ∀ x, sk.disc.regr (unitFlip S x) = sk.disc.regr x ᵥ* B) (w : SKWorld d) (Xh : Samples nh d) (yh lfAtXh : Fin nh → ℝ) :
    sk.optimizeRho w (mirrorSamples S sk.disc.box Xh) yh lfAtXh = sk.optimizeRho w Xh yh lfAtXh ∧
    ∀ r, sk.optimizeRho w Xh yh lfAtXh = .ok r → r.2.box = sk.disc.box ∧ r.2.regr = sk.disc.regr := by
  have hbump := bumpRun_mirror sk.disc.box Xh yh lfAtXh w.bumpEvals sk.disc rfl hB
  unfold SKObj.optimizeRho
  cases sk.rhoMethod with
  | other => exact ⟨rfl, fun r h => by cases h⟩
  | bumpiness =>
    simp only [hbump.1]
    refine ⟨trivial, fun r h => ?_⟩
    cases hc : bumpRun Xh yh lfAtXh w.bumpEvals sk.disc with
    | error e => rw [hc] at h; cases h
    | ok gp' => rw [hc] at h; cases h; exact hbump.2 gp' hc
  | error =>
    refine ⟨rfl, fun r h => ?_⟩
    simp only at h
    cases ho : sk.rhoOptimizer with
    | none =>
      rw [ho] at h
      simp only at h
      cases hm : w.mini 1 (fun r => .ok (evalError lfAtXh yh r 0)) (fun _ => w.x0) (fun _ => sk.rhoLow) (fun _ => sk.rhoHigh) with
      | error e => rw [hm] at h; cases h
      | ok x => rw [hm] at h; cases h; exact ⟨rfl, rfl⟩
    | some run =>
      rw [ho] at h
      simp only at h
      cases hm : run 1 (fun r => .ok (evalError lfAtXh yh r 0)) (fun _ => sk.rhoLow) (fun _ => sk.rhoHigh) with
      | error e => rw [hm] at h; cases h
      | ok x => rw [hm] at h; cases h; exact ⟨rfl, rfl⟩

/-- **C178 (scaled Kriging).** The same for scaled Kriging, with every way of choosing the scale factor. -/
theorem C178_sk (S : Fin d → Bool) (sk : SKObj d ql qd) (hl : TrendMirrors S sk.lf.regr) (hd : TrendMirrors S sk.disc.regr) (b : Box ℝ d) (hbl : sk.lf.box = b) (hbd : sk.disc.box = b) (w : SKWorld d)
    (Xh : Samples nh d) (yh : Fin nh → ℝ) (Xl : Samples nl d) (yl : Fin nl → ℝ) :
    (∀ e, sk.train w (mirrorSamples S b Xh) yh (mirrorSamples S b Xl) yl = .error e ↔ sk.train w Xh yh Xl yl = .error e) ∧
    ∀ sk' t, sk.train w Xh yh Xl yl = .ok (sk', t) → ∃ t₁, sk.train w (mirrorSamples S b Xh) yh (mirrorSamples S b Xl) yl = .ok (sk', t₁) ∧
      ∀ (m : ℕ) (Xnew : Samples m d), sk'.predict t₁ (mirrorSamples S b Xnew) = sk'.predict t Xnew ∧ sk'.predictStd t₁ (mirrorSamples S b Xnew) = sk'.predictStd t Xnew := by
  obtain ⟨Bl, hBl⟩ := hl
  obtain ⟨Bd, hBd⟩ := hd
  have key : (∃ e, sk.train w Xh yh Xl yl = .error e ∧ sk.train w (mirrorSamples S b Xh) yh (mirrorSamples S b Xl) yl = .error e) ∨
      ∃ sk' t t₁, sk.train w Xh yh Xl yl = .ok (sk', t) ∧ sk.train w (mirrorSamples S b Xh) yh (mirrorSamples S b Xl) yl = .ok (sk', t₁) ∧
        Trained sk.lf sk'.lf ∧ Trained sk.disc sk'.disc ∧ MirrorFit S Bl t.lfFit t₁.lfFit ∧ MirrorFit S Bd t.discFit t₁.discFit := by
    unfold SKObj.train
    have hlf := gp_train_mirror hBl w.lf Xl yl
    rw [hbl] at hlf
    rcases hlf with ⟨e, e1, e2⟩ | ⟨lf, lt, lt₁, e1, e2, hr, ht⟩
    · rw [e1, e2]; exact .inl ⟨e, rfl, rfl⟩
    · rw [e1, e2]
      have hf : predictMean lf lt₁ (mirrorSamples S b Xh) = predictMean lf lt Xh := by
        have := gp_predictMean_mirror (by rw [hr.regr]; exact hBl) hr.param ht Xh
        rwa [hr.box, hbl] at this
      simp only [bind, Except.bind, hf]
      cases predictMean lf lt Xh with
      | error e => exact .inl ⟨e, rfl, rfl⟩
      | ok f =>
        have hopt := optimizeRho_mirror hBd w Xh yh f
        rw [hbd] at hopt
        simp only [hopt.1]
        have hrho : ∀ r, (if sk.rhoOptimize then sk.optimizeRho w Xh yh f else .ok (sk.rho, sk.disc) : Py (ℝ × GPObj d qd)) = .ok r → r.2.box = b ∧ r.2.regr = sk.disc.regr := fun r h => by
          by_cases ho : sk.rhoOptimize = true
          · rw [if_pos ho] at h; exact hopt.2 r h
          · rw [if_neg ho] at h; cases h; exact ⟨hbd, rfl⟩
        cases hc : (if sk.rhoOptimize then sk.optimizeRho w Xh yh f else .ok (sk.rho, sk.disc) : Py (ℝ × GPObj d qd)) with
        | error e => exact .inl ⟨e, rfl, rfl⟩
        | ok r =>
          rcases r with ⟨rho, disc⟩
          obtain ⟨hdb, hdr⟩ := hrho _ hc
          simp only at hdb hdr ⊢
          have htd := gp_train_mirror (gp := disc) (by rw [hdr]; exact hBd) w.disc Xh (getDisc rho f yh)
          rw [hdb] at htd
          rcases htd with ⟨e, e5, e6⟩ | ⟨dc, dt, dt₁, e5, e6, hrd, htd⟩
          · rw [e5, e6]; exact .inl ⟨e, rfl, rfl⟩
          · rw [e5, e6]; exact .inr ⟨_, _, _, rfl, rfl, hr, ⟨hrd.box.trans (hdb.trans hbd.symm), hrd.regr.trans hdr, hrd.param⟩, ht, htd⟩
  rcases key with ⟨e, h1, h2⟩ | ⟨sk', t, t₁, h1, h2, hrl, hrd, tl, td⟩
  · rw [h1, h2]
    exact ⟨fun _ => Iff.rfl, fun _ _ h => by cases h⟩
  · rw [h1, h2]
    refine ⟨fun e => ⟨fun h => (nomatch h), fun h => (nomatch h)⟩, fun sk'' t' he => ?_⟩
    simp only [Except.ok.injEq, Prod.mk.injEq] at he
    obtain ⟨rfl, rfl⟩ := he
    have hBl' : ∀ x, sk'.lf.regr (unitFlip S x) = sk'.lf.regr x ᵥ* Bl := by rw [hrl.regr]; exact hBl
    have hBd' : ∀ x, sk'.disc.regr (unitFlip S x) = sk'.disc.regr x ᵥ* Bd := by rw [hrd.regr]; exact hBd
    have bl : sk'.lf.box = b := hrl.box.trans hbl
    have bd : sk'.disc.box = b := hrd.box.trans hbd
    refine ⟨t₁, rfl, fun m Xnew => ⟨?_, ?_⟩⟩
    · unfold SKObj.predict
      have a1 := gp_predictMean_mirror hBl' hrl.param tl Xnew
      have a2 := gp_predictMean_mirror hBd' hrd.param td Xnew
      rw [bl] at a1
      rw [bd] at a2
      rw [a1, a2]
    · unfold SKObj.predictStd
      have a1 := gp_predictStd_mirror hBl' hrl.param tl Xnew
      have a2 := gp_predictStd_mirror hBd' hrd.param td Xnew
      rw [bl] at a1
      rw [bd] at a2
      rw [a1, a2]

/-! ### Co-Kriging -/

theorem raw_fitHyper_mirror {S : Fin d → Bool} {gp : RawGP d q} {B : Matrix (Fin q) (Fin q) ℝ} (hB : ∀ x, gp.regr (unitFlip S x) = gp.regr x ᵥ* B) (w : World d) (X : Samples n d) (y : Fin n → ℝ) :
    gp.fitHyper w (flipSamples S X) y = gp.fitHyper w X y := by
  have hc : ∀ (theta : Fin d → ℝ) s, covTrain (pow10 theta) (flipSamples S X) s = covTrain (pow10 theta) X s := fun theta s => covTrain_flip S (pow10_nonneg' theta) X s
  have hn : ∀ (K : Matrix (Fin n) (Fin n) ℝ) (z : Prop), negLogLik K (regrMatrix gp.regr (flipSamples S X)) y z = negLogLik K (regrMatrix gp.regr X) y z := fun K z => negLogLik_span (regrMatrix_span hB X) K y z
  unfold RawGP.fitHyper
  simp only [hc, hn]

/-- What the two trained low-fidelity models have in common. -/
structure MirrorRawFit (S : Fin d → Bool) (B : Matrix (Fin q) (Fin q) ℝ) (t t₁ : RawFit n d q) : Prop where
  X : t₁.X = flipSamples S t.X
  span : SameSpan B t.F t₁.F
  sq : B * B = 1
  K : t₁.K = t.K
  gls : IsGLS t.K t.F t.y t.gls
  gls₁ : IsGLS t.K t₁.F t.y t₁.gls
  beta : t₁.gls.beta = B *ᵥ t.gls.beta
  gamma : t₁.gls.gamma = t.gls.gamma
  sigma2 : t₁.gls.sigma2 = t.gls.sigma2
  noise : t₁.noise = t.noise

theorem raw_train_mirror {S : Fin d → Bool} {gp : RawGP d q} {B : Matrix (Fin q) (Fin q) ℝ} (hB : ∀ x, gp.regr (unitFlip S x) = gp.regr x ᵥ* B) (w : World d) (X : Samples n d) (y : Fin n → ℝ) :
    (∃ e, gp.train w X y = .error e ∧ gp.train w (flipSamples S X) y = .error e) ∨
    ∃ gp' t t₁, gp.train w X y = .ok (gp', t) ∧ gp.train w (flipSamples S X) y = .ok (gp', t₁) ∧ gp'.regr = gp.regr ∧ (∀ k, 0 ≤ gp'.kernel.param k) ∧ MirrorRawFit S B t t₁ := by
  unfold RawGP.train
  rw [raw_fitHyper_mirror hB]
  cases gp.fitHyper w X y with
  | error e => exact .inl ⟨e, rfl, rfl⟩
  | ok r =>
    simp only [bind, Except.bind, RBF.setParams, covTrain_flip S (pow10_nonneg' r.1)]
    rcases glsFit_span (regrMatrix_span hB X) (covTrain (pow10 r.1) X r.2) y with ⟨e, h1, h2⟩ | ⟨g, g', h1, h2, hG, hG', hsq, hL, hb, hγ, hs⟩
    · rw [h1, h2]; exact .inl ⟨e, rfl, rfl⟩
    · rw [h1, h2]
      exact .inr ⟨_, _, _, rfl, rfl, rfl, pow10_nonneg' r.1, ⟨rfl, regrMatrix_span hB X, hsq, rfl, hG, hG', hb, hγ, hs, rfl⟩⟩

theorem raw_predict_mirror {S : Fin d → Bool} {gp : RawGP d q} {B : Matrix (Fin q) (Fin q) ℝ} (hB : ∀ x, gp.regr (unitFlip S x) = gp.regr x ᵥ* B) (hp : ∀ k, 0 ≤ gp.kernel.param k) {t t₁ : RawFit n d q}
    (ht : MirrorRawFit S B t t₁) (Xnew : Samples m d) : gp.predict t₁ (flipSamples S Xnew) = gp.predict t Xnew ∧ gp.predictStd t₁ (flipSamples S Xnew) = gp.predictStd t Xnew := by
  have hm : gp.predict t₁ (flipSamples S Xnew) = gp.predict t Xnew := by
    unfold RawGP.predict
    simp only [RBF.getKernelMatrix, ht.X, rbfMatrix_flip S hp, regrMatrix_flip hB, ht.beta, ht.gamma, Matrix.mulVec_mulVec, Matrix.mul_assoc, ht.sq, Matrix.mul_one]
  refine ⟨hm, ?_⟩
  unfold RawGP.predictStd
  simp only [hm, RBF.getKernelMatrix, ht.X, rbfMatrix_flip S hp, regrMatrix_flip hB, mseOf_span ht.sq ht.span ht.gls ht.gls₁ ht.sigma2, ht.noise]

theorem ck_fitHyper_mirror (S : Fin d → Bool) (ck : CKObj d q) (w : CKWorld d) (noise : Option ℝ) (yStd : ℝ) (Xhs : Samples n d) (yhs pred : Fin n → ℝ) :
    ck.fitHyper w noise yStd (flipSamples S Xhs) yhs pred = ck.fitHyper w noise yStd Xhs yhs pred := by
  have hnl : ∀ rho (theta : Fin d → ℝ) s (z : Prop), ckNegLogLik (flipSamples S Xhs) yhs pred rho theta s z = ckNegLogLik Xhs yhs pred rho theta s z := fun rho theta s z => by
    unfold ckNegLogLik
    rw [covTrain_flip S (pow10_nonneg' _)]
  unfold CKObj.fitHyper
  simp only [hnl]

/-- What the two trained co-Kriging models have in common. -/
structure MirrorFitCK (S : Fin d → Bool) (B : Matrix (Fin q) (Fin q) ℝ) (t t₁ : CKFit nh nl d q) : Prop where
  Xhs : t₁.Xhs = flipSamples S t.Xhs
  Xls : t₁.Xls = flipSamples S t.Xls
  yhMean : t₁.yhMean = t.yhMean
  yhStd : t₁.yhStd = t.yhStd
  lf : MirrorRawFit S B t.lfFit t₁.lfFit
  rho : t₁.rho = t.rho
  sigma2 : t₁.sigma2 = t.sigma2
  LC : t₁.LC = t.LC
  y : t₁.y = t.y
  mu : t₁.mu = t.mu

theorem ckCov_flip (S : Fin d → Bool) (Kl : Matrix (Fin nl) (Fin nl) ℝ) {param : Fin d → ℝ} (hp : ∀ k, 0 ≤ param k) (s2l rho s2 : ℝ) (K : Matrix (Fin nh) (Fin nh) ℝ) (Xls : Samples nl d) (Xhs : Samples nh d) :
    ckCov Kl param s2l rho s2 K (flipSamples S Xls) (flipSamples S Xhs) = ckCov Kl param s2l rho s2 K Xls Xhs := by
  unfold ckCov
  rw [rbfMatrix_flip S hp, rbfMatrix_flip S hp, rbfMatrix_flip S hp]

theorem ck_train_mirror {S : Fin d → Bool} {ck : CKObj d q} {B : Matrix (Fin q) (Fin q) ℝ} (hB : ∀ x, ck.lf.regr (unitFlip S x) = ck.lf.regr x ᵥ* B) (w : CKWorld d)
    (Xh : Samples nh d) (yh : Fin nh → ℝ) (Xl : Samples nl d) (yl : Fin nl → ℝ) :
    (∃ e, ck.train w Xh yh Xl yl = .error e ∧ ck.train w (mirrorSamples S ck.box Xh) yh (mirrorSamples S ck.box Xl) yl = .error e) ∨
    ∃ ck' t t₁, ck.train w Xh yh Xl yl = .ok (ck', t) ∧ ck.train w (mirrorSamples S ck.box Xh) yh (mirrorSamples S ck.box Xl) yl = .ok (ck', t₁) ∧ ck'.box = ck.box ∧ ck'.lf.regr = ck.lf.regr ∧
      (∀ k, 0 ≤ ck'.lf.kernel.param k) ∧ (∀ k, 0 ≤ ck'.kernel.param k) ∧ MirrorFitCK S B t t₁ := by
  unfold CKObj.train
  rw [normalizeInput_mirror, normalizeInput_mirror]
  cases normalizeInput ck.box Xh with
  | error e => exact .inl ⟨e, rfl, rfl⟩
  | ok Xhs =>
    simp only [Except.map, bind, Except.bind]
    cases normalizeInput ck.box Xl with
    | error e => exact .inl ⟨e, rfl, rfl⟩
    | ok Xls =>
      simp only
      cases normalizeOutput yh with
      | error e => exact .inl ⟨e, rfl, rfl⟩
      | ok yhs =>
        simp only
        generalize ck.noise.map (· / std yh) = no
        rcases no with _ | s
        on_goal 1 => have hlf := hB
        on_goal 2 =>
          have hlf : ∀ x, ({ kernel := ck.lf.kernel, regr := ck.lf.regr, optimizer := ck.lf.optimizer, noise := some s } : RawGP d q).regr (unitFlip S x) = ck.lf.regr x ᵥ* B := hB
        all_goals
          rcases raw_train_mirror hlf w.lf Xls (fun i => (yl i - mean yh) / std yh) with ⟨e, h1, h2⟩ | ⟨lf, lt, lt₁, h1, h2, hr, hpar, ht⟩
          · rw [h1, h2]; exact .inl ⟨e, rfl, rfl⟩
          · rw [h1, h2]
            have hB' : ∀ x, lf.regr (unitFlip S x) = lf.regr x ᵥ* B := by rw [hr]; exact hlf
            simp only [(raw_predict_mirror hB' hpar ht Xhs).1, ck_fitHyper_mirror]
            generalize CKObj.fitHyper ck w _ (std yh) Xhs yhs (lf.predict lt Xhs) = fit
            cases fit with
            | error e => exact .inl ⟨e, rfl, rfl⟩
            | ok r =>
              rcases r with ⟨rho, theta, noise'⟩
              simp only [RBF.setParams, covTrain_flip S (pow10_nonneg' theta), ht.K, ht.sigma2, ckCov_flip S _ hpar]
              cases diffFit (covTrain (pow10 theta) Xhs noise') (fun i => yhs i - rho * lf.predict lt Xhs i) with
              | error e => exact .inl ⟨e, rfl, rfl⟩
              | ok g =>
                simp only
                cases cholesky (flat (ckCov lt.K lf.kernel.param lt.gls.sigma2 rho g.sigma2 (covTrain (pow10 theta) Xhs noise') Xls Xhs) + jitter • (1 : Matrix (Fin (nl + nh)) (Fin (nl + nh)) ℝ)) with
                | error e => exact .inl ⟨e, rfl, rfl⟩
                | ok LC =>
                  simp only
                  cases cholSolveV LC (Fin.append (fun i => (yl i - mean yh) / std yh) yhs) with
                  | error e => exact .inl ⟨e, rfl, rfl⟩
                  | ok a =>
                    simp only
                    cases cholSolveV LC (fun _ => 1) with
                    | error e => exact .inl ⟨e, rfl, rfl⟩
                    | ok b =>
                      simp only
                      cases npDiv ((fun _ => 1) ⬝ᵥ a) ((fun _ => 1) ⬝ᵥ b) with
                      | error e => exact .inl ⟨e, rfl, rfl⟩
                      | ok mu => exact .inr ⟨_, _, _, rfl, rfl, rfl, hr, hpar, pow10_nonneg' theta, ⟨rfl, rfl, rfl, rfl, ht, rfl, rfl, rfl, rfl, rfl⟩⟩

theorem crossCov_flip {S : Fin d → Bool} {B : Matrix (Fin q) (Fin q) ℝ} {ck : CKObj d q} (hl : ∀ k, 0 ≤ ck.lf.kernel.param k) (hp : ∀ k, 0 ≤ ck.kernel.param k) {t t₁ : CKFit nh nl d q} (ht : MirrorFitCK S B t t₁)
    (xs : Samples m d) : crossCov ck t₁ (flipSamples S xs) = crossCov ck t xs := by
  funext a j
  unfold crossCov
  simp only [RBF.getKernelMatrix, ht.Xhs, ht.Xls, rbfMatrix_flip S hl, rbfMatrix_flip S hp, ht.rho, ht.sigma2, ht.lf.sigma2]

/-- **C178 (co-Kriging).** The same for co-Kriging, also for its low-fidelity predictions. -/
theorem C178_ck (S : Fin d → Bool) (ck : CKObj d q) (hS : TrendMirrors S ck.lf.regr) (w : CKWorld d) (Xh : Samples nh d) (yh : Fin nh → ℝ) (Xl : Samples nl d) (yl : Fin nl → ℝ) :
    (∀ e, ck.train w (mirrorSamples S ck.box Xh) yh (mirrorSamples S ck.box Xl) yl = .error e ↔ ck.train w Xh yh Xl yl = .error e) ∧
    ∀ ck' t, ck.train w Xh yh Xl yl = .ok (ck', t) → ∃ t₁, ck.train w (mirrorSamples S ck.box Xh) yh (mirrorSamples S ck.box Xl) yl = .ok (ck', t₁) ∧ t₁.rho = t.rho ∧
      ∀ (m : ℕ) (Xnew : Samples m d), ck'.predict t₁ (mirrorSamples S ck.box Xnew) = ck'.predict t Xnew ∧ ck'.predictStd t₁ (mirrorSamples S ck.box Xnew) = ck'.predictStd t Xnew ∧
        ck'.predictLf t₁ (mirrorSamples S ck.box Xnew) = ck'.predictLf t Xnew ∧ ck'.predictLfStd t₁ (mirrorSamples S ck.box Xnew) = ck'.predictLfStd t Xnew := by
  obtain ⟨B, hB⟩ := hS
  rcases ck_train_mirror hB w Xh yh Xl yl with ⟨e, h1, h2⟩ | ⟨ck', t, t₁, h1, h2, hbox, hr, hl, hk, ht⟩
  · rw [h1, h2]
    exact ⟨fun _ => Iff.rfl, fun _ _ h => by cases h⟩
  · rw [h1, h2]
    refine ⟨fun e => ⟨fun h => (nomatch h), fun h => (nomatch h)⟩, fun ck'' t' he => ?_⟩
    simp only [Except.ok.injEq, Prod.mk.injEq] at he
    obtain ⟨rfl, rfl⟩ := he
    have hB' : ∀ x, ck'.lf.regr (unitFlip S x) = ck'.lf.regr x ᵥ* B := by rw [hr]; exact hB
    refine ⟨t₁, rfl, ht.rho, fun m Xnew => ?_⟩
    have hp : ck'.predict t₁ (mirrorSamples S ck.box Xnew) = ck'.predict t Xnew := by
      unfold CKObj.predict
      rw [hbox, normalizeInput_mirror]
      cases normalizeInput ck.box Xnew with
      | error e => rfl
      | ok xs => simp only [Except.map, bind, Except.bind, crossCov_flip hl hk ht, ht.LC, ht.y, ht.mu, ht.yhStd, ht.yhMean]
    refine ⟨hp, ?_, ?_, ?_⟩
    · unfold CKObj.predictStd
      rw [hp, hbox, normalizeInput_mirror]
      cases ck'.predict t Xnew with
      | error e => rfl
      | ok f =>
        cases normalizeInput ck.box Xnew with
        | error e => rfl
        | ok xs => simp only [Except.map, bind, Except.bind, crossCov_flip hl hk ht, ht.LC, ht.rho, ht.sigma2, ht.lf.sigma2, ht.yhStd]
    · unfold CKObj.predictLf
      rw [hbox, normalizeInput_mirror]
      cases normalizeInput ck.box Xnew with
      | error e => rfl
      | ok xs => simp only [Except.map, bind, Except.bind, (raw_predict_mirror hB' hl ht.lf xs).1, ht.yhStd, ht.yhMean]
    · unfold CKObj.predictLfStd
      rw [hbox, normalizeInput_mirror]
      cases normalizeInput ck.box Xnew with
      | error e => rfl
      | ok xs => simp only [Except.map, bind, Except.bind, (raw_predict_mirror hB' hl ht.lf xs).2, ht.yhStd, ht.yhMean]

/-! ### A concrete case -/

/-- Kriging on three samples over `[0, 4] × [0, 9]`: count the first variable from 4 down, and training still returns the same model, with the same predictions at mirrored points. -/
example (X : Samples 3 2) : ∃ gp' t t₁, (exGPSides 4 9).train exWorld2 X exY = .ok (gp', t) ∧ (exGPSides 4 9).train exWorld2 (fun i => ![4 - X i 0, X i 1]) exY = .ok (gp', t₁) ∧
    ∀ x : Fin 2 → ℝ, predictMean gp' t₁ (fun _ : Fin 1 => ![4 - x 0, x 1]) = predictMean gp' t (fun _ : Fin 1 => x) := by
  have hm : ∀ x : Fin 2 → ℝ, mirrorPt ![true, false] (exGPSides 4 9).box x = ![4 - x 0, x 1] := fun x => by
    funext j
    fin_cases j <;> simp [mirrorPt, exGPSides]
  have hu : Usual (exGPSides 4 9) exWorld2 := ⟨rfl, fun j => by fin_cases j <;> simp [exGPSides], by simp [exGPSides, RBF.mk']; norm_num, cornerMinimizer_good, fun run h => by simp [exGPSides] at h,
    by simp [exWorld2], by simp [exWorld2]⟩
  obtain ⟨gp', t, h⟩ := (usual_trains_iff hu X exY).mpr ⟨0, 2, exY_ne⟩
  obtain ⟨t₁, h₁, hp⟩ := (C178_gp ![true, false] (exGPSides 4 9) (C178_trends _).1 exWorld2 X exY).2 _ _ h
  have hX : mirrorSamples ![true, false] (exGPSides 4 9).box X = fun i => ![4 - X i 0, X i 1] := funext fun i => hm (X i)
  rw [hX] at h₁
  refine ⟨gp', t, t₁, h, h₁, fun x => ?_⟩
  have h2 := (hp 1 (fun _ => x)).1
  have hx : mirrorSamples ![true, false] (exGPSides 4 9).box (fun _ : Fin 1 => x) = fun _ => ![4 - x 0, x 1] := funext fun _ => hm x
  rwa [hx] at h2

end Mfpml.Props
