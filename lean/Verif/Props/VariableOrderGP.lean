import Verif.Props.VariableOrder
import Verif.Props.SampleOrder
import Verif.Props.LowFidelityUnits
import Verif.Model.GPOptimizers
import Verif.Props.Kernels
import Mathlib.Data.List.Sym

/-!
# The order of the design variables (C141): Kriging and hierarchical Kriging

The definitions of `Verif.Props.VariableOrder` say what renumbering means for points and design spaces.
-/

set_option linter.unusedSectionVars false
set_option linter.unusedDecidableInType false

open scoped BigOperators Matrix

namespace Mfpml.Props

open Mfpml.GP Mfpml.Spec
open Mfpml.EA (Box PSOCfg DECfg PSORand DERand psoRunM deRunM Pop)

variable {n m d q p nh nl : ℕ}

/-! ### What "the same problem with renumbered variables" means -/

/-- Samples with their variables renumbered. -/
def reorderSamples (σ : Equiv.Perm (Fin d)) (X : Samples n d) : Samples n d := fun i => reorderPt σ (X i)

/-- The same Kriging model with its variables renumbered: design space, kernel parameters and trend.  The trend functions may come in another order (`τ`), as the linear ones do. -/
structure ReorderedGP (σ : Equiv.Perm (Fin d)) (τ : Equiv.Perm (Fin q)) (gp gp₁ : GPObj d q) : Prop where
  box : gp₁.box = reorderBox σ gp.box
  param : gp₁.kernel.param = reorderPt σ gp.kernel.param
  low : gp₁.kernel.boundLow = gp.kernel.boundLow
  high : gp₁.kernel.boundHigh = gp.kernel.boundHigh
  regr : ∀ x c, gp₁.regr (reorderPt σ x) c = gp.regr x (τ c)
  noise : gp₁.noise = gp.noise

/-- The hyper-parameter search treats all variables alike: given the same objective with renumbered variables it finds the same point with renumbered coordinates (or raises the same exception). -/
def SearchFollows (ρ : Equiv.Perm (Fin p)) (opt opt₁ : Option PopOptimizer) (mini mini₁ : Minimizer) (starts starts₁ : List (Fin p → ℝ)) : Prop :=
  ∀ (obj obj₁ : (Fin p → ℝ) → Py ℝ) (lo hi : Fin p → ℝ), (∀ x, obj₁ (reorderPt ρ x) = obj x) →
    searchHyper opt₁ mini₁ obj₁ (reorderPt ρ lo) (reorderPt ρ hi) starts₁ = (searchHyper opt mini obj lo hi starts).map (reorderPt ρ)

/-- A renumbering of the kernel parameters when the noise is searched for too: the noise stays last. -/
def withNoise (σ : Equiv.Perm (Fin d)) : Equiv.Perm (Fin (d + 1)) where
  toFun := Fin.lastCases (Fin.last d) (fun j => (σ j).castSucc)
  invFun := Fin.lastCases (Fin.last d) (fun j => (σ.symm j).castSucc)
  left_inv j := by
    refine Fin.lastCases ?_ (fun j => ?_) j <;> simp
  right_inv j := by
    refine Fin.lastCases ?_ (fun j => ?_) j <;> simp

/-- Both searches of a model (noise known, noise searched for) treat all variables alike. -/
def SolverFollows (σ : Equiv.Perm (Fin d)) (opt opt₁ : Option PopOptimizer) (w w₁ : World d) : Prop :=
  SearchFollows σ opt opt₁ w.mini w₁.mini w.starts w₁.starts ∧ SearchFollows (withNoise σ) opt opt₁ w.mini w₁.mini w.startsNoise w₁.startsNoise

/-- A renumbering when something else comes before the variables, as in the columns of the linear trend or the searched parameters of co-Kriging: it stays first. -/
def withFirst {p : ℕ} (σ : Equiv.Perm (Fin p)) : Equiv.Perm (Fin (p + 1)) where
  toFun := Fin.cases 0 (fun j => (σ j).succ)
  invFun := Fin.cases 0 (fun j => (σ.symm j).succ)
  left_inv j := by
    refine Fin.cases ?_ (fun j => ?_) j <;> simp
  right_inv j := by
    refine Fin.cases ?_ (fun j => ?_) j <;> simp

theorem withFirst_apply {p : ℕ} (σ : Equiv.Perm (Fin p)) (x : Fin (p + 1) → ℝ) :
    reorderPt (withFirst σ) x 0 = x 0 ∧ (∀ j : Fin p, reorderPt (withFirst σ) x j.succ = x (σ j).succ) := by
  constructor
  · simp [reorderPt, withFirst]
  · intro j; simp [reorderPt, withFirst]

/-! ### The trends of the library do -/

/-- One column of the quadratic trend: the constant, a variable, or an unordered pair of variables. -/
abbrev Col (d : ℕ) := Option (Fin d) ⊕ Sym2 (Fin d)

def colVal (x : Fin d → ℝ) : Col d → ℝ
  | .inl none => 1
  | .inl (some j) => x j
  | .inr s => Sym2.lift ⟨fun a b => x a * x b, fun a b => mul_comm _ _⟩ s

def colsOf (l : List (Fin d)) : List (Col d) := Sum.inl none :: l.map (fun j => Sum.inl (some j)) ++ l.sym2.map Sum.inr

theorem pairProducts_sym2 (x : Fin d → ℝ) : ∀ l : List (Fin d), pairProducts (l.map x) = (l.sym2.map Sum.inr).map (colVal x)
  | [] => rfl
  | a :: r => by
    rw [List.map_cons, pairProducts, pairProducts_sym2 x r, List.sym2]
    simp [colVal]

theorem quadCols_cols (x : Fin d → ℝ) (l : List (Fin d)) : quadCols (l.map x) = (colsOf l).map (colVal x) := by
  rw [quadCols, colsOf, pairProducts_sym2]
  simp [colVal]

private theorem colsOf_nodup {l : List (Fin d)} (h : l.Nodup) : (colsOf l).Nodup := by
  unfold colsOf
  rw [List.nodup_append]
  refine ⟨?_, h.sym2.map Sum.inr_injective, ?_⟩
  · rw [List.nodup_cons]
    exact ⟨by simp, h.map (fun a b hab => by simpa using hab)⟩
  · intro a ha b hb hab
    subst hab
    simp only [List.mem_map] at hb
    obtain ⟨s, _, rfl⟩ := hb
    simp at ha

private theorem colsOf_perm {l l' : List (Fin d)} (h : l.Perm l') : (colsOf l).Perm (colsOf l') :=
  ((h.map _).cons _).append (h.sym2.map _)

/-- C141 (trends).  Every trend the library offers follows a renumbering of the variables: its columns are the same functions, in another order. -/
theorem C141_trends (σ : Equiv.Perm (Fin d)) :
    (∀ x c, ordinary d (reorderPt σ x) c = ordinary d x c) ∧ (∀ x c, linear d (reorderPt σ x) c = linear d x (withFirst σ c)) ∧
    ∃ τ : Equiv.Perm (Fin (numCol d)), ∀ x c, quadraticBasis d (reorderPt σ x) c = quadraticBasis d x (τ c) := by
  refine ⟨fun _ _ => rfl, fun x c => ?_, ?_⟩
  · refine Fin.cases ?_ (fun j => ?_) c
    · simp [linear, withFirst]
    · simp [linear, withFirst, reorderPt]
  · have hcols : ∀ (f : Fin d → Fin d) (x : Fin d → ℝ), List.ofFn (quadraticBasis d (fun j => x (f j))) = (colsOf (List.ofFn f)).map (colVal x) := fun f x => by
      rw [C28_quadratic_basis, ← quadCols_cols, List.map_ofFn]
      rfl
    have hlen : ∀ f : Fin d → Fin d, (colsOf (List.ofFn f)).length = numCol d := fun f => by
      have := congrArg List.length (hcols f (fun _ => 0))
      simpa using this.symm
    have hget : ∀ (f : Fin d → Fin d) (x : Fin d → ℝ) (c : Fin (numCol d)), quadraticBasis d (fun j => x (f j)) c = colVal x ((colsOf (List.ofFn f))[c.val]'(by rw [hlen]; exact c.isLt)) := fun f x c => by
      have h1 : (List.ofFn (quadraticBasis d (fun j => x (f j))))[c.val]? = ((colsOf (List.ofFn f)).map (colVal x))[c.val]? := by rw [hcols]
      rw [List.getElem?_eq_getElem (by simp), List.getElem?_eq_getElem (by rw [List.length_map, hlen]; exact c.isLt)] at h1
      simpa using h1
    have hperm : (colsOf (List.ofFn σ)).Perm (colsOf (List.ofFn (id : Fin d → Fin d))) := colsOf_perm (Equiv.Perm.ofFn_comp_perm σ id)
    have hnd : (colsOf (List.ofFn σ)).Nodup := colsOf_nodup (List.nodup_ofFn.mpr σ.injective)
    have hex : ∀ c : Fin (numCol d), ∃ c' : Fin (numCol d), (colsOf (List.ofFn (id : Fin d → Fin d)))[c'.val]'(by rw [hlen]; exact c'.isLt) = (colsOf (List.ofFn σ))[c.val]'(by rw [hlen]; exact c.isLt) := fun c => by
      have hmem : (colsOf (List.ofFn σ))[c.val]'(by rw [hlen]; exact c.isLt) ∈ colsOf (List.ofFn (id : Fin d → Fin d)) := hperm.mem_iff.mp (List.getElem_mem _)
      obtain ⟨k, hk, hke⟩ := List.getElem_of_mem hmem
      exact ⟨⟨k, by rw [← hlen id]; exact hk⟩, hke⟩
    choose τ hτ using hex
    have hinj : Function.Injective τ := fun a b hab => by
      have h1 := hτ a
      have h2 := hτ b
      rw [hab] at h1
      exact Fin.ext ((List.Nodup.getElem_inj_iff hnd).mp (h1.symm.trans h2))
    refine ⟨Equiv.ofBijective τ (Finite.injective_iff_bijective.mp hinj), fun x c => ?_⟩
    have h1 := hget σ x c
    have h2 := hget id x (τ c)
    rw [hτ c] at h2
    exact h1.trans h2.symm

/-! ### The solvers of the library do -/

/-- C141 (restarts).  With a local optimiser that treats all variables alike, started at the same points, so does the loop over restarts. -/
theorem C141_restarts (ρ : Equiv.Perm (Fin p)) (mini mini₁ : Minimizer) (starts : List (Fin p → ℝ))
    (h : ∀ (obj obj₁ : (Fin p → ℝ) → Py ℝ) (x0 lo hi : Fin p → ℝ), (∀ x, obj₁ (reorderPt ρ x) = obj x) →
      mini₁ p obj₁ (reorderPt ρ x0) (reorderPt ρ lo) (reorderPt ρ hi) = (mini p obj x0 lo hi).map (fun r => (reorderPt ρ r.1, r.2))) :
    SearchFollows ρ none none mini mini₁ starts (starts.map (reorderPt ρ)) := by
  intro obj obj₁ lo hi ho
  have key : ∀ best : WithTop ℝ × Option (Fin p → ℝ),
      restartLoop mini₁ obj₁ (reorderPt ρ lo) (reorderPt ρ hi) (starts.map (reorderPt ρ)) (best.1, best.2.map (reorderPt ρ)) =
        (restartLoop mini obj lo hi starts best).map (fun r => (r.1, r.2.map (reorderPt ρ))) := by
    induction starts with
    | nil => intro best; rfl
    | cons x0 rest ih =>
      intro best
      simp only [List.map_cons, restartLoop, h obj obj₁ x0 lo hi ho]
      cases mini p obj x0 lo hi with
      | error e => rfl
      | ok r =>
        simp only [bind, Except.bind, Except.map]
        split
        · exact ih (_, some _)
        · exact ih best
  have := key (⊤, none)
  simp only [Option.map_none] at this
  simp only [searchHyper, this]
  cases restartLoop mini obj lo hi starts (⊤, none) with
  | error e => rfl
  | ok r =>
    rcases r with ⟨f, x⟩
    cases x <;> rfl

theorem evalRows_reorder {P : ℕ} (ρ : Equiv.Perm (Fin p)) (obj obj₁ : (Fin p → ℝ) → Py ℝ) (ho : ∀ x, obj₁ (reorderPt ρ x) = obj x) : ∀ X : Pop ℝ P p, evalRows obj₁ P (reorderPop ρ X) = evalRows obj P X := by
  induction P with
  | zero => intro X; rfl
  | succ P ih =>
    intro X
    have h1 : obj₁ (reorderPop ρ X 0) = obj (X 0) := ho (X 0)
    have h2 : evalRows obj₁ P (fun i => reorderPop ρ X i.succ) = evalRows obj P (fun i => X i.succ) := ih (fun i => X i.succ)
    simp only [evalRows, h1, h2]

/-- C141 (the library's own optimisers).  A `PSO` or `DE` object given as optimiser treats all variables alike. -/
theorem C141_population_search {P : ℕ} (ρ : Equiv.Perm (Fin p)) (cfg : PSOCfg ℝ) (rnd rnd₁ : (p : ℕ) → PSORand ℝ P p) (cfgD : DECfg ℝ) (rndD rndD₁ : (p : ℕ) → DERand ℝ P p)
    (h : rnd₁ p = reorderPSORand ρ (rnd p)) (hD : rndD₁ p = reorderDERand ρ (rndD p)) (mini mini₁ : Minimizer) (starts starts₁ : List (Fin p → ℝ)) :
    SearchFollows ρ (some (psoSearch cfg rnd)) (some (psoSearch cfg rnd₁)) mini mini₁ starts starts₁ ∧ SearchFollows ρ (some (deSearch cfgD rndD)) (some (deSearch cfgD rndD₁)) mini mini₁ starts starts₁ := by
  constructor
  · intro obj obj₁ lo hi ho
    have := C141_pso_raising ρ cfg { low := lo, high := hi } (evalRows obj P) (evalRows obj₁ P) (evalRows_reorder ρ obj obj₁ ho) none (rnd p)
    simp only [reorderBox] at this
    simp only [searchHyper, psoSearch, h, this]
    cases psoRunM cfg { low := lo, high := hi } (evalRows obj P) none (rnd p) <;> rfl
  · intro obj obj₁ lo hi ho
    have := C141_de_raising ρ cfgD { low := lo, high := hi } (evalRows obj P) (evalRows obj₁ P) (evalRows_reorder ρ obj obj₁ ho) none (rndD p)
    simp only [reorderBox] at this
    simp only [searchHyper, deSearch, hD, this]
    cases deRunM cfgD { low := lo, high := hi } (evalRows obj P) none (rndD p) <;> rfl

/-! ### Kernels, trend columns, normalisation -/

theorem rbfDist_reorder (σ : Equiv.Perm (Fin d)) (param x y : Fin d → ℝ) : rbfDist (reorderPt σ param) (reorderPt σ x) (reorderPt σ y) = rbfDist param x y := by
  unfold rbfDist reorderPt
  simp only
  rw [Equiv.sum_comp σ (fun k => x k ^ 2 * param k), Equiv.sum_comp σ (fun k => y k ^ 2 * param k),
    Equiv.sum_comp σ (fun k => Real.sqrt (param k) * x k * (Real.sqrt (param k) * y k))]

theorem rbfMatrix_reorder (σ : Equiv.Perm (Fin d)) (param : Fin d → ℝ) (X : Samples n d) (Y : Samples m d) :
    rbfMatrix (reorderPt σ param) (reorderSamples σ X) (reorderSamples σ Y) = rbfMatrix param X Y := by
  funext i j
  simp only [rbfMatrix, reorderSamples, rbfDist_reorder]

theorem pow10_reorder (σ : Equiv.Perm (Fin d)) (theta : Fin d → ℝ) : pow10 (reorderPt σ theta) = reorderPt σ (pow10 theta) := rfl

theorem covTrain_reorder (σ : Equiv.Perm (Fin d)) (param : Fin d → ℝ) (Xs : Samples n d) (s : ℝ) : covTrain (reorderPt σ param) (reorderSamples σ Xs) s = covTrain param Xs s := by
  unfold covTrain
  rw [rbfMatrix_reorder]

theorem normalizeInput_reorder (σ : Equiv.Perm (Fin d)) (b : Box ℝ d) (X : Samples n d) : normalizeInput (reorderBox σ b) (reorderSamples σ X) = (normalizeInput b X).map (reorderSamples σ) := by
  have h : (∀ j, (reorderBox σ b).high j - (reorderBox σ b).low j ≠ 0) ↔ ∀ j, b.high j - b.low j ≠ 0 :=
    ⟨fun h j => by have := h (σ.symm j); simpa only [reorderBox, reorderPt, Equiv.apply_symm_apply] using this, fun h j => h (σ j)⟩
  unfold normalizeInput
  by_cases hb : ∀ j, b.high j - b.low j ≠ 0
  · rw [if_pos hb, if_pos (h.mpr hb)]; rfl
  · rw [if_neg hb, if_neg (fun h' => hb (h.mp h'))]; rfl

/-! Renumbering the trend functions -/

theorem cols_mulVec (τ : Equiv.Perm (Fin q)) (F : Matrix (Fin n) (Fin q) ℝ) (v : Fin q → ℝ) : F.submatrix id τ *ᵥ (v ∘ τ) = F *ᵥ v := by
  funext i
  simp only [Matrix.mulVec, dotProduct, Matrix.submatrix_apply, Function.comp, id]
  exact Equiv.sum_comp τ (fun c => F i c * v c)

theorem cols_conj (τ : Equiv.Perm (Fin q)) (A : Matrix (Fin n) (Fin n) ℝ) (F : Matrix (Fin n) (Fin q) ℝ) : (F.submatrix id τ)ᵀ * (A * F.submatrix id τ) = (Fᵀ * (A * F)).submatrix τ τ := by
  ext a b
  simp only [Matrix.mul_apply, Matrix.transpose_apply, Matrix.submatrix_apply, id]

theorem cols_transpose_mulVec (τ : Equiv.Perm (Fin q)) (F : Matrix (Fin n) (Fin q) ℝ) (v : Fin n → ℝ) : (F.submatrix id τ)ᵀ *ᵥ v = (Fᵀ *ᵥ v) ∘ τ := rfl

theorem cols_inj (τ : Equiv.Perm (Fin q)) (F : Matrix (Fin n) (Fin q) ℝ) : Function.Injective (F.submatrix id τ).mulVec ↔ Function.Injective F.mulVec := by
  constructor
  · intro h u v huv
    have := h (a₁ := u ∘ τ) (a₂ := v ∘ τ) (by rw [cols_mulVec, cols_mulVec]; exact huv)
    funext c
    simpa using congrFun this (τ.symm c)
  · intro h u v huv
    have e : ∀ u : Fin q → ℝ, u = (u ∘ τ.symm) ∘ τ := fun u => by funext c; simp
    rw [e u, e v, cols_mulVec, cols_mulVec] at huv
    have := h huv
    rw [e u, e v, this]

theorem glsFit_no_samples {K : Matrix (Fin n) (Fin n) ℝ} {F : Matrix (Fin n) (Fin q) ℝ} (y : Fin n → ℝ) (hK : K.PosDef) (hF : Function.Injective F.mulVec) (hn : n = 0) : glsFit K F y = .error .nonFinite := by
  obtain ⟨L, hL, hc⟩ := cholesky_of_posDef hK
  obtain ⟨ld, hld, hm⟩ := cholesky_of_posDef (posDef_conj hK hF)
  unfold glsFit
  rw [hL]
  have h0 : (n : ℝ) = 0 := by rw [hn, Nat.cast_zero]
  simp only [bind, Except.bind, cholSolveV_eq hc, cholSolve_eq hc, hld, cholSolveV_eq hm, npDiv, h0, if_true]

theorem glsFit_cols (τ : Equiv.Perm (Fin q)) (K : Matrix (Fin n) (Fin n) ℝ) (F : Matrix (Fin n) (Fin q) ℝ) (y : Fin n → ℝ) :
    (∃ e, glsFit K F y = .error e ∧ glsFit K (F.submatrix id τ) y = .error e) ∨
    ∃ g g', glsFit K F y = .ok g ∧ glsFit K (F.submatrix id τ) y = .ok g' ∧ IsGLS K F y g ∧ IsGLS K (F.submatrix id τ) y g' ∧
      g'.L = g.L ∧ g'.beta = g.beta ∘ τ ∧ g'.gamma = g.gamma ∧ g'.sigma2 = g.sigma2 := by
  by_cases h : K.PosDef ∧ Function.Injective F.mulVec
  · rcases Nat.eq_zero_or_pos n with hn | hn
    · exact .inl ⟨_, glsFit_no_samples y h.1 h.2 hn, glsFit_no_samples y h.1 ((cols_inj τ F).mpr h.2) hn⟩
    right
    obtain ⟨g, hg, hG⟩ := glsFit_succeeds y h.1 h.2 hn
    obtain ⟨g', hg', hG'⟩ := glsFit_succeeds y h.1 ((cols_inj τ F).mpr h.2) hn
    refine ⟨g, g', hg, hg', hG, hG', ?_, ?_⟩
    · have := glsFit_L hg'
      rw [glsFit_L hg, Except.ok.injEq] at this
      exact this.symm
    · have hb : g'.beta = g.beta ∘ τ := by
        rw [hG'.beta, hG.beta, cols_conj, cols_transpose_mulVec, Matrix.inv_submatrix_equiv, mulVec_perm]
      have hr : F.submatrix id τ *ᵥ g'.beta = F *ᵥ g.beta := by rw [hb, cols_mulVec]
      have hγ : g'.gamma = g.gamma := by rw [hG'.gamma, hG.gamma, hr]
      exact ⟨hb, hγ, by rw [hG'.sigma2, hG.sigma2, hr, hγ]⟩
  · left
    exact ⟨_, glsFit_not_posDef y h, glsFit_not_posDef y (by rwa [cols_inj])⟩

theorem negLogLik_cols (τ : Equiv.Perm (Fin q)) (K : Matrix (Fin n) (Fin n) ℝ) (F : Matrix (Fin n) (Fin q) ℝ) (y : Fin n → ℝ) (z : Prop) :
    negLogLik K (F.submatrix id τ) y z = negLogLik K F y z := by
  unfold negLogLik
  rcases glsFit_cols τ K F y with ⟨e, h, h'⟩ | ⟨g, g', h, h', -, -, hL, -, -, hs⟩
  · rw [h, h']
  · rw [h, h']; simp only [bind, Except.bind, hL, hs]

theorem mseCol_cols (τ : Equiv.Perm (Fin q)) (s : ℝ) (K : Matrix (Fin n) (Fin n) ℝ) (F : Matrix (Fin n) (Fin q) ℝ) (k : Fin n → ℝ) (f : Fin q → ℝ) :
    mseCol s K (F.submatrix id τ) k (f ∘ τ) = mseCol s K F k f := by
  have hsub : f ∘ τ - (Fᵀ *ᵥ (K⁻¹ *ᵥ k)) ∘ τ = (f - Fᵀ *ᵥ (K⁻¹ *ᵥ k)) ∘ τ := rfl
  unfold mseCol
  rw [cols_conj, cols_transpose_mulVec, hsub, Matrix.inv_submatrix_equiv, mulVec_perm, dotProduct_perm]

theorem mseOf_cols (τ : Equiv.Perm (Fin q)) {K : Matrix (Fin n) (Fin n) ℝ} {F : Matrix (Fin n) (Fin q) ℝ} {y : Fin n → ℝ} {g g' : GLS n q} (hG : IsGLS K F y g) (hG' : IsGLS K (F.submatrix id τ) y g')
    (hs : g'.sigma2 = g.sigma2) (knew : Matrix (Fin n) (Fin m) ℝ) (f : Matrix (Fin m) (Fin q) ℝ) : mseOf g' (F.submatrix id τ) knew (f.submatrix id τ) = mseOf g F knew f := by
  rw [mseOf_col hG', mseOf_col hG, hs]
  congr 1
  funext j
  exact mseCol_cols τ _ K F _ (f j)

theorem regrMatrix_reorder {σ : Equiv.Perm (Fin d)} {τ : Equiv.Perm (Fin q)} {gp gp₁ : GPObj d q} (h : ReorderedGP σ τ gp gp₁) (X : Samples n d) :
    regrMatrix gp₁.regr (reorderSamples σ X) = (regrMatrix gp.regr X).submatrix id τ := by
  funext i c
  exact h.regr (X i) c

theorem reorder_withNoise (σ : Equiv.Perm (Fin d)) (x : Fin (d + 1) → ℝ) : (fun j => reorderPt (withNoise σ) x j.castSucc) = reorderPt σ (fun j => x j.castSucc) ∧ reorderPt (withNoise σ) x (Fin.last d) = x (Fin.last d) := by
  constructor
  · funext j
    simp [reorderPt, withNoise]
  · simp [reorderPt, withNoise]

theorem snoc_withNoise (σ : Equiv.Perm (Fin d)) (a b : ℝ) : (Fin.snoc (fun _ => a) b : Fin (d + 1) → ℝ) = reorderPt (withNoise σ) (Fin.snoc (fun _ => a) b) := by
  funext j
  refine Fin.lastCases ?_ (fun j => ?_) j <;> simp [reorderPt, withNoise]

/-! ### Kriging -/

theorem fitHyper_reorder {σ : Equiv.Perm (Fin d)} {τ : Equiv.Perm (Fin q)} {gp gp₁ : GPObj d q} (h : ReorderedGP σ τ gp gp₁) {w w₁ : World d} (hw : SolverFollows σ gp.optimizer gp₁.optimizer w w₁)
    (yStd : ℝ) (Xs : Samples n d) (ys : Fin n → ℝ) : gp₁.fitHyper w₁ yStd (reorderSamples σ Xs) ys = (gp.fitHyper w yStd Xs ys).map (fun r => (reorderPt σ r.1, r.2)) := by
  unfold GPObj.fitHyper
  rw [h.noise]
  cases gp.noise with
  | some s =>
    have ho : ∀ x, gp₁.logLikKnown s yStd (reorderSamples σ Xs) ys (reorderPt σ x) = gp.logLikKnown s yStd Xs ys x := fun x => by
      unfold GPObj.logLikKnown
      rw [pow10_reorder, covTrain_reorder, regrMatrix_reorder h, negLogLik_cols τ _ _ _]
    have : searchHyper gp₁.optimizer w₁.mini (gp₁.logLikKnown s yStd (reorderSamples σ Xs) ys) (fun _ => gp.kernel.boundLow) (fun _ => gp.kernel.boundHigh) w₁.starts =
        (searchHyper gp.optimizer w.mini (gp.logLikKnown s yStd Xs ys) (fun _ => gp.kernel.boundLow) (fun _ => gp.kernel.boundHigh) w.starts).map (reorderPt σ) := hw.1 _ _ (fun _ => gp.kernel.boundLow) (fun _ => gp.kernel.boundHigh) ho
    simp only [h.low, h.high, this]
    cases searchHyper gp.optimizer w.mini (gp.logLikKnown s yStd Xs ys) (fun _ => gp.kernel.boundLow) (fun _ => gp.kernel.boundHigh) w.starts <;> rfl
  | none =>
    have ho : ∀ x, gp₁.logLikFree (reorderSamples σ Xs) ys (reorderPt (withNoise σ) x) = gp.logLikFree Xs ys x := fun x => by
      unfold GPObj.logLikFree
      rw [(reorder_withNoise σ x).1, (reorder_withNoise σ x).2, pow10_reorder, covTrain_reorder, regrMatrix_reorder h, negLogLik_cols τ _ _ _]
    have := hw.2 _ _ (Fin.snoc (fun _ => gp.kernel.boundLow) noiseLow) (Fin.snoc (fun _ => gp.kernel.boundHigh) noiseHigh) ho
    rw [← snoc_withNoise, ← snoc_withNoise] at this
    simp only [h.low, h.high, this]
    cases searchHyper gp.optimizer w.mini (gp.logLikFree Xs ys) (Fin.snoc (fun _ => gp.kernel.boundLow) noiseLow) (Fin.snoc (fun _ => gp.kernel.boundHigh) noiseHigh) w.startsNoise with
    | error e => rfl
    | ok x =>
      simp only [Except.map, bind, Except.bind, (reorder_withNoise σ x).1, (reorder_withNoise σ x).2]

/-- What the two trained models have in common. -/
structure SameFit (σ : Equiv.Perm (Fin d)) (τ : Equiv.Perm (Fin q)) (t t₁ : GPFit n d q) : Prop where
  Xs : t₁.Xs = reorderSamples σ t.Xs
  F : t₁.F = t.F.submatrix id τ
  ys : t₁.ys = t.ys
  K : t₁.K = t.K
  gls : IsGLS t.K t.F t.ys t.gls
  gls₁ : IsGLS t.K (t.F.submatrix id τ) t.ys t₁.gls
  beta : t₁.gls.beta = t.gls.beta ∘ τ
  gamma : t₁.gls.gamma = t.gls.gamma
  sigma2 : t₁.gls.sigma2 = t.gls.sigma2
  yMean : t₁.yMean = t.yMean
  yStd : t₁.yStd = t.yStd
  noise : t₁.noise = t.noise

theorem gp_train_reorder {σ : Equiv.Perm (Fin d)} {τ : Equiv.Perm (Fin q)} {gp gp₁ : GPObj d q} (h : ReorderedGP σ τ gp gp₁) {w w₁ : World d} (hw : SolverFollows σ gp.optimizer gp₁.optimizer w w₁)
    (X : Samples n d) (y : Fin n → ℝ) :
    (∃ e, gp.train w X y = .error e ∧ gp₁.train w₁ (reorderSamples σ X) y = .error e) ∨
    ∃ gp' t gp₁' t₁, gp.train w X y = .ok (gp', t) ∧ gp₁.train w₁ (reorderSamples σ X) y = .ok (gp₁', t₁) ∧ ReorderedGP σ τ gp' gp₁' ∧ SameFit σ τ t t₁ ∧
      gp'.optimizer = gp.optimizer ∧ gp₁'.optimizer = gp₁.optimizer := by
  unfold GPObj.train
  rw [h.box, normalizeInput_reorder]
  cases normalizeInput gp.box X with
  | error e => exact .inl ⟨e, rfl, rfl⟩
  | ok Xs =>
    simp only [Except.map, bind, Except.bind]
    cases normalizeOutput y with
    | error e => exact .inl ⟨e, rfl, rfl⟩
    | ok ys =>
      simp only [fitHyper_reorder h hw (std y) Xs ys]
      cases gp.fitHyper w (std y) Xs ys with
      | error e => exact .inl ⟨e, rfl, rfl⟩
      | ok r =>
        simp only [Except.map, RBF.setParams, pow10_reorder, covTrain_reorder, regrMatrix_reorder h]
        rcases glsFit_cols τ (covTrain (pow10 r.1) Xs (r.2 / std y)) (regrMatrix gp.regr Xs) ys with ⟨e, h1, h2⟩ | ⟨g, g', h1, h2, hG, hG', hL, hb, hγ, hs⟩
        · rw [h1, h2]; exact .inl ⟨e, rfl, rfl⟩
        · rw [h1, h2]
          refine .inr ⟨_, _, _, _, rfl, rfl, ⟨rfl, rfl, h.low, h.high, h.regr, rfl⟩, ⟨rfl, rfl, rfl, rfl, hG, hG', hb, hγ, hs, rfl, rfl, rfl⟩, rfl, rfl⟩

theorem gp_predictMean_reorder {σ : Equiv.Perm (Fin d)} {τ : Equiv.Perm (Fin q)} {gp gp₁ : GPObj d q} (h : ReorderedGP σ τ gp gp₁) {t t₁ : GPFit n d q} (ht : SameFit σ τ t t₁) (Xnew : Samples m d) :
    predictMean gp₁ t₁ (reorderSamples σ Xnew) = predictMean gp t Xnew := by
  unfold predictMean
  rw [h.box, normalizeInput_reorder]
  cases normalizeInput gp.box Xnew with
  | error e => rfl
  | ok xs =>
    simp only [Except.map, bind, Except.bind, RBF.getKernelMatrix, h.param, ht.Xs, rbfMatrix_reorder, regrMatrix_reorder h, ht.beta, ht.gamma, cols_mulVec, ht.yStd, ht.yMean]

theorem gp_predictStd_reorder {σ : Equiv.Perm (Fin d)} {τ : Equiv.Perm (Fin q)} {gp gp₁ : GPObj d q} (h : ReorderedGP σ τ gp gp₁) {t t₁ : GPFit n d q} (ht : SameFit σ τ t t₁) (Xnew : Samples m d) :
    predictStd gp₁ t₁ (reorderSamples σ Xnew) = predictStd gp t Xnew := by
  unfold predictStd
  rw [gp_predictMean_reorder h ht, h.box, normalizeInput_reorder]
  cases normalizeInput gp.box Xnew with
  | error e => rfl
  | ok xs =>
    simp only [Except.map, bind, Except.bind, RBF.getKernelMatrix, h.param, ht.Xs, ht.F, rbfMatrix_reorder, regrMatrix_reorder h, mseOf_cols τ ht.gls ht.gls₁ ht.sigma2, ht.yStd, ht.noise]

/-- **C141 (Kriging).** Renumber the design variables of samples, prediction points and design space, with a solver that treats the variables alike.  Training raises the same exception, or it finds the same noise and
the same length scales in the new order, and all predictions are the same. -/
theorem C141_gp (σ : Equiv.Perm (Fin d)) (τ : Equiv.Perm (Fin q)) (gp gp₁ : GPObj d q) (h : ReorderedGP σ τ gp gp₁) (w w₁ : World d) (hw : SolverFollows σ gp.optimizer gp₁.optimizer w w₁)
    (X : Samples n d) (y : Fin n → ℝ) :
    (∀ e, gp₁.train w₁ (reorderSamples σ X) y = .error e ↔ gp.train w X y = .error e) ∧
    ∀ gp' t, gp.train w X y = .ok (gp', t) →
      ∃ gp₁' t₁, gp₁.train w₁ (reorderSamples σ X) y = .ok (gp₁', t₁) ∧ gp₁'.kernel.param = reorderPt σ gp'.kernel.param ∧ gp₁'.noise = gp'.noise ∧
        ∀ (m : ℕ) (Xnew : Samples m d), predictMean gp₁' t₁ (reorderSamples σ Xnew) = predictMean gp' t Xnew ∧ predictStd gp₁' t₁ (reorderSamples σ Xnew) = predictStd gp' t Xnew := by
  rcases gp_train_reorder h hw X y with ⟨e, h1, h2⟩ | ⟨gp', t, gp₁', t₁, h1, h2, hr, ht, -, -⟩
  · rw [h1, h2]
    exact ⟨fun _ => Iff.rfl, fun _ _ h => by cases h⟩
  · rw [h1, h2]
    refine ⟨fun e => ⟨fun h => (nomatch h), fun h => (nomatch h)⟩, fun gp'' t' he => ?_⟩
    simp only [Except.ok.injEq, Prod.mk.injEq] at he
    obtain ⟨rfl, rfl⟩ := he
    exact ⟨gp₁', t₁, rfl, hr.param, hr.noise, fun m Xnew => ⟨gp_predictMean_reorder hr ht Xnew, gp_predictStd_reorder hr ht Xnew⟩⟩

/-! ### Hierarchical Kriging -/

/-- The same hierarchical Kriging model with its variables renumbered. -/
structure ReorderedHK (σ : Equiv.Perm (Fin d)) (τ : Equiv.Perm (Fin q)) (hk hk₁ : HKObj d q) : Prop where
  box : hk₁.box = reorderBox σ hk.box
  param : hk₁.kernel.param = reorderPt σ hk.kernel.param
  low : hk₁.kernel.boundLow = hk.kernel.boundLow
  high : hk₁.kernel.boundHigh = hk.kernel.boundHigh
  noise : hk₁.noise = hk.noise
  lf : ReorderedGP σ τ hk.lf hk₁.lf

theorem hk_fitHyper_reorder {σ : Equiv.Perm (Fin d)} {τ : Equiv.Perm (Fin q)} {hk hk₁ : HKObj d q} (h : ReorderedHK σ τ hk hk₁) {w w₁ : World d} (hw : SolverFollows σ hk.optimizer hk₁.optimizer w w₁)
    (yStd : ℝ) (Xs : Samples n d) (F : Matrix (Fin n) (Fin 1) ℝ) (ys : Fin n → ℝ) : hk₁.fitHyper w₁ yStd (reorderSamples σ Xs) F ys = (hk.fitHyper w yStd Xs F ys).map (fun r => (reorderPt σ r.1, r.2)) := by
  unfold HKObj.fitHyper
  rw [h.noise]
  cases hk.noise with
  | some s =>
    have ho : ∀ x, hkLogLikKnown s yStd (reorderSamples σ Xs) F ys (reorderPt σ x) = hkLogLikKnown s yStd Xs F ys x := fun x => by
      unfold hkLogLikKnown
      rw [pow10_reorder, covTrain_reorder]
    have : searchHyper hk₁.optimizer w₁.mini (hkLogLikKnown s yStd (reorderSamples σ Xs) F ys) (fun _ => hk.kernel.boundLow) (fun _ => hk.kernel.boundHigh) w₁.starts =
        (searchHyper hk.optimizer w.mini (hkLogLikKnown s yStd Xs F ys) (fun _ => hk.kernel.boundLow) (fun _ => hk.kernel.boundHigh) w.starts).map (reorderPt σ) := hw.1 _ _ (fun _ => hk.kernel.boundLow) (fun _ => hk.kernel.boundHigh) ho
    simp only [h.low, h.high, this]
    cases searchHyper hk.optimizer w.mini (hkLogLikKnown s yStd Xs F ys) (fun _ => hk.kernel.boundLow) (fun _ => hk.kernel.boundHigh) w.starts <;> rfl
  | none =>
    have ho : ∀ x, hkLogLikFree (reorderSamples σ Xs) F ys (reorderPt (withNoise σ) x) = hkLogLikFree Xs F ys x := fun x => by
      unfold hkLogLikFree
      rw [(reorder_withNoise σ x).1, (reorder_withNoise σ x).2, pow10_reorder, covTrain_reorder]
    have := hw.2 _ _ (Fin.snoc (fun _ => hk.kernel.boundLow) noiseLow) (Fin.snoc (fun _ => hk.kernel.boundHigh) noiseHigh) ho
    rw [← snoc_withNoise, ← snoc_withNoise] at this
    simp only [h.low, h.high, this]
    cases searchHyper hk.optimizer w.mini (hkLogLikFree Xs F ys) (Fin.snoc (fun _ => hk.kernel.boundLow) noiseLow) (Fin.snoc (fun _ => hk.kernel.boundHigh) noiseHigh) w.startsNoise with
    | error e => rfl
    | ok x =>
      simp only [Except.map, bind, Except.bind, (reorder_withNoise σ x).1, (reorder_withNoise σ x).2]

structure SameFitHK (σ : Equiv.Perm (Fin d)) (τ : Equiv.Perm (Fin q)) (t t₁ : HKFit nh nl d q) : Prop where
  lf : SameFit σ τ t.lfFit t₁.lfFit
  Xhs : t₁.Xhs = reorderSamples σ t.Xhs
  F : t₁.F = t.F
  gls : t₁.gls = t.gls
  yhMean : t₁.yhMean = t.yhMean
  yhStd : t₁.yhStd = t.yhStd
  noise : t₁.noise = t.noise

theorem hk_train_reorder {σ : Equiv.Perm (Fin d)} {τ : Equiv.Perm (Fin q)} {hk hk₁ : HKObj d q} (h : ReorderedHK σ τ hk hk₁) {w w₁ : MFWorld d} (hl : SolverFollows σ hk.lf.optimizer hk₁.lf.optimizer w.lf w₁.lf)
    (hw : SolverFollows σ hk.optimizer hk₁.optimizer w.hf w₁.hf) (Xh : Samples nh d) (yh : Fin nh → ℝ) (Xl : Samples nl d) (yl : Fin nl → ℝ) :
    (∃ e, hk.train w Xh yh Xl yl = .error e ∧ hk₁.train w₁ (reorderSamples σ Xh) yh (reorderSamples σ Xl) yl = .error e) ∨
    ∃ hk' t hk₁' t₁, hk.train w Xh yh Xl yl = .ok (hk', t) ∧ hk₁.train w₁ (reorderSamples σ Xh) yh (reorderSamples σ Xl) yl = .ok (hk₁', t₁) ∧ ReorderedHK σ τ hk' hk₁' ∧ SameFitHK σ τ t t₁ := by
  unfold HKObj.train
  rcases gp_train_reorder h.lf hl Xl yl with ⟨e, h1, h2⟩ | ⟨lf, lt, lf₁, lt₁, h1, h2, hr, ht, -, -⟩
  · rw [h1, h2]; exact .inl ⟨e, rfl, rfl⟩
  · rw [h1, h2, h.box, normalizeInput_reorder]
    cases normalizeInput hk.box Xh with
    | error e => exact .inl ⟨e, rfl, rfl⟩
    | ok Xhs =>
      simp only [Except.map, bind, Except.bind]
      cases normalizeOutput yh with
      | error e => exact .inl ⟨e, rfl, rfl⟩
      | ok yhs =>
        simp only [gp_predictMean_reorder hr ht]
        cases predictMean lf lt Xh with
        | error e => exact .inl ⟨e, rfl, rfl⟩
        | ok f =>
          simp only [hk_fitHyper_reorder h hw]
          cases hk.fitHyper w.hf (std yh) Xhs (scaleCol f (mean yh) (std yh)) yhs with
          | error e => exact .inl ⟨e, rfl, rfl⟩
          | ok r =>
            simp only [Except.map, RBF.setParams, pow10_reorder, rbfMatrix_reorder]
            cases glsFit (rbfMatrix (pow10 r.1) Xhs Xhs + ((r.2 / std yh) ^ 2) • (1 : Matrix (Fin nh) (Fin nh) ℝ)) (scaleCol f (mean yh) (std yh)) yhs with
            | error e => exact .inl ⟨e, rfl, rfl⟩
            | ok g => exact .inr ⟨_, _, _, _, rfl, rfl, ⟨rfl, rfl, h.low, h.high, rfl, hr⟩, ⟨ht, rfl, rfl, rfl, rfl, rfl, rfl⟩⟩

theorem hk_predict_reorder {σ : Equiv.Perm (Fin d)} {τ : Equiv.Perm (Fin q)} {hk hk₁ : HKObj d q} (h : ReorderedHK σ τ hk hk₁) {t t₁ : HKFit nh nl d q} (ht : SameFitHK σ τ t t₁) (Xnew : Samples m d) :
    hk₁.predictLf t₁ (reorderSamples σ Xnew) = hk.predictLf t Xnew ∧ hk₁.predict t₁ (reorderSamples σ Xnew) = hk.predict t Xnew ∧ hk₁.predictStd t₁ (reorderSamples σ Xnew) = hk.predictStd t Xnew := by
  have hl : hk₁.predictLf t₁ (reorderSamples σ Xnew) = hk.predictLf t Xnew := gp_predictMean_reorder h.lf ht.lf Xnew
  have hp : hk₁.predict t₁ (reorderSamples σ Xnew) = hk.predict t Xnew := by
    unfold HKObj.predict
    rw [hl, h.box, normalizeInput_reorder]
    cases normalizeInput hk.box Xnew with
    | error e => rfl
    | ok xs => simp only [Except.map, bind, Except.bind, RBF.getKernelMatrix, h.param, ht.Xhs, rbfMatrix_reorder, ht.gls, ht.yhStd, ht.yhMean]
  refine ⟨hl, hp, ?_⟩
  unfold HKObj.predictStd
  rw [hl, hp, h.box, normalizeInput_reorder]
  cases normalizeInput hk.box Xnew with
  | error e => rfl
  | ok xs => simp only [Except.map, bind, Except.bind, RBF.getKernelMatrix, h.param, ht.Xhs, ht.F, rbfMatrix_reorder, ht.gls, ht.yhStd, ht.yhMean, ht.noise]

/-- **C141 (hierarchical Kriging).** The same for a hierarchical Kriging model and its low-fidelity model. -/
theorem C141_hk (σ : Equiv.Perm (Fin d)) (τ : Equiv.Perm (Fin q)) (hk hk₁ : HKObj d q) (h : ReorderedHK σ τ hk hk₁) (w w₁ : MFWorld d) (hl : SolverFollows σ hk.lf.optimizer hk₁.lf.optimizer w.lf w₁.lf)
    (hw : SolverFollows σ hk.optimizer hk₁.optimizer w.hf w₁.hf) (Xh : Samples nh d) (yh : Fin nh → ℝ) (Xl : Samples nl d) (yl : Fin nl → ℝ) :
    (∀ e, hk₁.train w₁ (reorderSamples σ Xh) yh (reorderSamples σ Xl) yl = .error e ↔ hk.train w Xh yh Xl yl = .error e) ∧
    ∀ hk' t, hk.train w Xh yh Xl yl = .ok (hk', t) →
      ∃ hk₁' t₁, hk₁.train w₁ (reorderSamples σ Xh) yh (reorderSamples σ Xl) yl = .ok (hk₁', t₁) ∧ hk₁'.kernel.param = reorderPt σ hk'.kernel.param ∧ hk₁'.lf.kernel.param = reorderPt σ hk'.lf.kernel.param ∧
        hk₁'.noise = hk'.noise ∧ ∀ (m : ℕ) (Xnew : Samples m d), hk₁'.predictLf t₁ (reorderSamples σ Xnew) = hk'.predictLf t Xnew ∧ hk₁'.predict t₁ (reorderSamples σ Xnew) = hk'.predict t Xnew ∧
          hk₁'.predictStd t₁ (reorderSamples σ Xnew) = hk'.predictStd t Xnew := by
  rcases hk_train_reorder h hl hw Xh yh Xl yl with ⟨e, h1, h2⟩ | ⟨hk', t, hk₁', t₁, h1, h2, hr, ht⟩
  · rw [h1, h2]
    exact ⟨fun _ => Iff.rfl, fun _ _ h => by cases h⟩
  · rw [h1, h2]
    refine ⟨fun e => ⟨fun h => (nomatch h), fun h => (nomatch h)⟩, fun hk'' t' he => ?_⟩
    simp only [Except.ok.injEq, Prod.mk.injEq] at he
    obtain ⟨rfl, rfl⟩ := he
    exact ⟨hk₁', t₁, rfl, hr.param, hr.lf.param, hr.noise, fun m Xnew => hk_predict_reorder hr ht Xnew⟩

end Mfpml.Props
