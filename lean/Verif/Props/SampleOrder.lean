import Verif.Props.Batch

/-!
# Predictions and the order of the samples (C106)
-/

set_option linter.unusedSectionVars false

open scoped BigOperators Matrix

namespace Mfpml.Props

open Mfpml.GP Mfpml.Spec
open Mfpml.EA (Box)

variable {n m d q : ℕ}

theorem corrCol_perm (σ : Equiv.Perm (Fin n)) (param : Fin d → ℝ) (Xs : Samples n d) {k : ℕ} (hk : n ≤ k) (x : Fin d → ℝ) :
    corrCol param (fun i => Xs (σ i)) k x = corrCol param Xs k x ∘ σ := by
  funext i
  have h1 := i.isLt
  have h2 := (σ i).isLt
  simp only [corrCol, Function.comp]
  rw [if_neg (by omega), if_neg (by omega)]

theorem mseCol_perm (σ : Equiv.Perm (Fin n)) (s : ℝ) (K : Matrix (Fin n) (Fin n) ℝ) (F : Matrix (Fin n) (Fin q) ℝ) (k : Fin n → ℝ) (f : Fin q → ℝ) :
    mseCol s (K.submatrix σ σ) (F.submatrix σ id) (k ∘ σ) f = mseCol s K F k f := by
  unfold mseCol
  rw [Matrix.inv_submatrix_equiv K σ σ, conj_perm, mulVec_perm, basis_perm, dotProduct_perm]

/-- C106 (Kriging).  Training on the samples in another order with the same solver leaves the same hyper-parameters, and all predicted means and standard deviations agree in rows from
number `n` on.  In earlier rows the means differ by `1e-10 · std(y) · (γ_{σ k} - γ_k)`.  What is missing for C106 is that this term is not zero. -/
theorem C106_gp_order_partial (gp : GPObj d q) (w : World d) (σ : Equiv.Perm (Fin n)) (X : Samples n d) (y : Fin n → ℝ) (gp' : GPObj d q) (t : GPFit n d q)
    (h : gp.train w X y = .ok (gp', t)) :
    ∃ t', gp.train w (fun i => X (σ i)) (fun i => y (σ i)) = .ok (gp', t') ∧
      ∀ (m : ℕ) (Xnew : Samples m d), ∃ μ s μ' s', GP.predictStd gp' t Xnew = .ok (μ, s) ∧ GP.predictStd gp' t' Xnew = .ok (μ', s') ∧
        ∀ j : Fin m, (n ≤ j.val → μ' j = μ j ∧ s' j = s j) ∧ ∀ hj : j.val < n, μ' j = μ j + 1e-10 * std y * (t.gls.gamma (σ ⟨j.val, hj⟩) - t.gls.gamma ⟨j.val, hj⟩) := by
  obtain ⟨t', h', hno, hβ, hs2, hγ⟩ := C40_training_order gp w σ X y gp' t h
  refine ⟨t', h', fun m Xnew => ?_⟩
  obtain ⟨hT, hX, _, hbox, hreg, _, hm, hs, _⟩ := trained_of_train h
  obtain ⟨hT', hX', _, _, _, _, hm', hs', _⟩ := trained_of_train h'
  have hXs : t'.Xs = fun i => t.Xs (σ i) := by rw [hT'.Xs, hT.Xs, hX, hX']
  have hK : t'.K = t.K.submatrix σ σ := by rw [hT'.K, hT.K, hXs, hno, hs, hs', std_perm, covTrain_perm]
  have hF : t'.F = t.F.submatrix σ id := by rw [hT'.F, hT.F, hXs]; rfl
  have hγ' : t'.gls.gamma = t.gls.gamma ∘ σ := funext hγ
  refine ⟨_, _, _, _, Py.bind_ok.mpr ⟨_, predictMean_eq hT Xnew, Py.bind_ok.mpr ⟨_, normalizeInput_eq Xnew hT.range, Py.bind_ok.mpr ⟨_, mseOf_col hT.gls _ _, rfl⟩⟩⟩,
    Py.bind_ok.mpr ⟨_, predictMean_eq hT' Xnew, Py.bind_ok.mpr ⟨_, normalizeInput_eq Xnew hT.range, Py.bind_ok.mpr ⟨_, mseOf_col hT'.gls _ _, rfl⟩⟩⟩, fun j => ⟨fun hj => ⟨?_, ?_⟩, fun hj => ?_⟩⟩
  · show (gp'.regr (normPt gp'.box (Xnew j)) ⬝ᵥ t'.gls.beta + corrCol gp'.kernel.param t'.Xs j (normPt gp'.box (Xnew j)) ⬝ᵥ t'.gls.gamma) * t'.yStd + t'.yMean =
      (gp'.regr (normPt gp'.box (Xnew j)) ⬝ᵥ t.gls.beta + corrCol gp'.kernel.param t.Xs j (normPt gp'.box (Xnew j)) ⬝ᵥ t.gls.gamma) * t.yStd + t.yMean
    rw [hβ, hγ', hXs, corrCol_perm σ _ _ hj, dotProduct_perm, hm, hm', hs, hs', std_perm, mean_perm]
  · show Real.sqrt (max (mseCol t'.gls.sigma2 t'.K t'.F (corrCol gp'.kernel.param t'.Xs j (normPt gp'.box (Xnew j))) (gp'.regr (normPt gp'.box (Xnew j))) * t'.yStd ^ 2 + t'.noise ^ 2) 0) =
      Real.sqrt (max (mseCol t.gls.sigma2 t.K t.F (corrCol gp'.kernel.param t.Xs j (normPt gp'.box (Xnew j))) (gp'.regr (normPt gp'.box (Xnew j))) * t.yStd ^ 2 + t.noise ^ 2) 0)
    rw [hs2, hK, hF, hXs, corrCol_perm σ _ _ hj, mseCol_perm, hs, hs', std_perm, hno]
  · have hnug : nugget = 1e-10 := by unfold nugget; norm_num
    simp only [Pi.add_apply, rbf_gamma_row]
    rw [dif_pos hj, dif_pos hj, hβ, hγ', hXs, hm, hm', hs, hs', std_perm, mean_perm, hnug]
    have e : ∑ i, Real.exp (-rbfDist gp'.kernel.param (t.Xs (σ i)) (normPt gp'.box (Xnew j))) * (t.gls.gamma ∘ σ) i =
      ∑ i, Real.exp (-rbfDist gp'.kernel.param (t.Xs i) (normPt gp'.box (Xnew j))) * t.gls.gamma i :=
      Equiv.sum_comp σ (fun i => Real.exp (-rbfDist gp'.kernel.param (t.Xs i) (normPt gp'.box (Xnew j))) * t.gls.gamma i)
    rw [e]
    simp only [Function.comp]
    ring

/-- C106 is false: there is an order of three samples in which the prediction in row 0 is another one. -/
theorem C106_gp_counterexample : ∃ (gp' : GPObj 1 1) (t t' : GPFit 3 1 1) (σ : Equiv.Perm (Fin 3)) (μ μ' : Fin 1 → ℝ),
    (exGP (some 0)).train exWorld exX exY = .ok (gp', t) ∧ (exGP (some 0)).train exWorld (fun i => exX (σ i)) (fun i => exY (σ i)) = .ok (gp', t') ∧
    predictMean gp' t (fun _ _ => 2) = .ok μ ∧ predictMean gp' t' (fun _ _ => 2) = .ok μ' ∧ μ 0 ≠ μ' 0 := by
  obtain ⟨gp', t, h⟩ := exGP_trains (some 0) exX exY 0 2 exY_ne
  obtain ⟨hT, _, _, _, hreg, _, _, hs, _⟩ := trained_of_train h
  have hγ : t.gls.gamma ≠ 0 := fun h0 => by
    have := hT.gls.K_gamma
    rw [h0, Matrix.mulVec_zero] at this
    exact exGP_nofit _ _ _ 0 2 exY_ne _ _ h _ (sub_eq_zero.mp this.symm).symm
  have hsum : ∑ i, t.gls.gamma i = 0 := by
    have := congrFun hT.gls.normal 0
    rw [hT.F, hreg] at this
    simpa [Matrix.mulVec, dotProduct, regrMatrix, exGP, ordinary] using this
  have hex : ∃ i, t.gls.gamma i ≠ t.gls.gamma 0 := by
    by_contra hall
    push Not at hall
    have h0 : t.gls.gamma 0 = 0 := by
      rw [Fin.sum_univ_three, hall 1, hall 2] at hsum
      linarith
    exact hγ (funext fun i => by rw [hall i, h0]; rfl)
  obtain ⟨i, hi⟩ := hex
  obtain ⟨t', h', hp⟩ := C106_gp_order_partial _ _ (Equiv.swap 0 i) _ _ _ _ h
  obtain ⟨μ, s, μ', s', h1, h2, h3⟩ := hp 1 (fun _ _ => 2)
  refine ⟨gp', t, t', Equiv.swap 0 i, μ, μ', h, h', C37_gp _ _ _ _ _ h1, C37_gp _ _ _ _ _ h2, ?_⟩
  have := (h3 0).2 (by norm_num)
  rw [this]
  intro he
  have hpos : 0 < std exY := hs ▸ hT.stdpos
  have e : t.gls.gamma (Equiv.swap 0 i 0) - t.gls.gamma 0 = 0 := by
    have : std exY * (t.gls.gamma (Equiv.swap 0 i 0) - t.gls.gamma 0) = 0 := by
      have he' : μ 0 = μ 0 + 1e-10 * std exY * (t.gls.gamma (Equiv.swap 0 i 0) - t.gls.gamma 0) := he
      linarith
    exact (mul_eq_zero.mp this).resolve_left hpos.ne'
  rw [Equiv.swap_apply_left] at e
  exact hi (by linarith)

end Mfpml.Props
