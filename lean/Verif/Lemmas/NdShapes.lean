import Verif.Lemmas.SurrogatesNd

/-!
# Shapes of the results of array operations that succeed
-/

open scoped BigOperators Matrix

namespace Mfpml.GP

open Mfpml.GP.Nd

/-- An array with two axes of the given lengths. -/
def Nd.IsMat (a : Nd) (r c : ℕ) : Prop := ∃ M : Matrix (Fin r) (Fin c) ℝ, a = .mat M

theorem isMat_lsolve2 {n m c : ℕ} {L : Matrix (Fin n) (Fin n) ℝ} {B : Matrix (Fin m) (Fin c) ℝ} {x : Nd} (h : (Nd.mat L).lsolve2 (.mat B) = .ok x) : n = m ∧ x.IsMat n c := by
  by_cases hn : n = m
  · subst hn
    rw [lsolve2_mat] at h
    cases hc : cholSolve L B with
    | error e => rw [hc] at h; cases h
    | ok X => rw [hc] at h; cases h; exact ⟨rfl, _, rfl⟩
  · rw [Nd.lsolve2, lsolve_mat_ne _ _ hn] at h
    cases h

theorem isMat_zip {f : ℝ → ℝ → ℝ} {r c r' c' : ℕ} {A : Matrix (Fin r) (Fin c) ℝ} {B : Matrix (Fin r') (Fin c') ℝ} {x : Nd} (h : Nd.zip f (.mat A) (.mat B) = .ok x) :
    ∃ R C, bdim r r' = some R ∧ bdim c c' = some C ∧ x.IsMat R C := by
  unfold Nd.zip at h
  simp only [Nd.rows, Nd.cols, Nd.ndim] at h
  cases h1 : bdim r r' with
  | none => rw [h1] at h; cases h
  | some R =>
    cases h2 : bdim c c' with
    | none => rw [h1, h2] at h; cases h
    | some C => rw [h1, h2] at h; cases h; exact ⟨R, C, rfl, rfl, _, rfl⟩

theorem isMat_div {r c r' c' : ℕ} {A : Matrix (Fin r) (Fin c) ℝ} {B : Matrix (Fin r') (Fin c') ℝ} {x : Nd} (h : Nd.div (.mat A) (.mat B) = .ok x) :
    ∃ R C, bdim r r' = some R ∧ bdim c c' = some C ∧ x.IsMat R C := by
  obtain ⟨q, h1, h2⟩ := Py.bind_ok.mp h
  split at h2
  · cases h2; exact isMat_zip h1
  · cases h2

theorem isMat_dot {r k k' c : ℕ} {A : Matrix (Fin r) (Fin k) ℝ} {B : Matrix (Fin k') (Fin c) ℝ} {x : Nd} (h : (Nd.mat A).dot (.mat B) = .ok x) : k = k' ∧ x.IsMat r c := by
  by_cases hk : k = k'
  · subst hk
    rw [dot_mat_mat] at h
    cases h
    exact ⟨rfl, _, rfl⟩
  · rw [dot_mat_mat_ne _ _ hk] at h
    cases h

theorem isMat_div_scalar {r c : ℕ} {A : Matrix (Fin r) (Fin c) ℝ} {s : ℝ} {x : Nd} (h : Nd.div (.mat A) (.scalar s) = .ok x) : s ≠ 0 ∧ x.IsMat r c := by
  rw [div_scalar_eq, zip_mat_scalar] at h
  simp only [Except.bind] at h
  split at h
  · cases h
  · cases h; exact ⟨‹_›, _, rfl⟩

theorem isMat_sub_same {r c : ℕ} {A B : Matrix (Fin r) (Fin c) ℝ} {x : Nd} (h : Nd.sub (.mat A) (.mat B) = .ok x) : x.IsMat r c := by
  rw [Nd.sub, zip_mat_mat] at h
  cases h
  exact ⟨_, rfl⟩

theorem isMat_chol {n : ℕ} {A : Matrix (Fin n) (Fin n) ℝ} {x : Nd} (h : (Nd.mat A).chol = .ok x) : x.IsMat n n := by
  rw [chol_mat] at h
  cases hc : cholesky A with
  | error e => rw [hc] at h; cases h
  | ok X => rw [hc] at h; cases h; exact ⟨_, rfl⟩

theorem item_ok_size {a : Nd} {v : ℝ} (h : a.item = .ok v) : a.size = 1 := by
  unfold Nd.item at h
  split at h
  · assumption
  · cases h

theorem isMat_item {a : Nd} {r c : ℕ} (ha : a.IsMat r c) {v : ℝ} (h : a.item = .ok v) : r = 1 ∧ c = 1 := by
  obtain ⟨M, rfl⟩ := ha
  have := item_ok_size h
  exact ⟨Nat.eq_one_of_mul_eq_one_right this, Nat.eq_one_of_mul_eq_one_left this⟩

theorem isMat_normalizeOutput {r c : ℕ} {A : Matrix (Fin r) (Fin c) ℝ} {x : Nd} (h : ndNormalizeOutput (.mat A) = .ok x) : (Nd.mat A).stdAll ≠ 0 ∧ x.IsMat r c := by
  unfold ndNormalizeOutput at h
  rw [Nd.sub, zip_mat_scalar, pyBind_ok] at h
  exact isMat_div_scalar h

theorem isMat_scale {r c : ℕ} {A : Matrix (Fin r) (Fin c) ℝ} {m s : ℝ} {x : Nd} (h : ndScale (.mat A) m s = .ok x) : x.IsMat r c := by
  unfold ndScale at h
  rw [Nd.sub, zip_mat_scalar, pyBind_ok] at h
  exact (isMat_div_scalar h).2

theorem stdAll_one (A : Matrix (Fin 1) (Fin 1) ℝ) : (Nd.mat A).stdAll = 0 := by
  simp [Nd.stdAll, Nd.meanAll, Nd.total, Nd.size, Nd.rows, Nd.cols, Nd.map]

theorem stdAll_scalar (a : ℝ) : (Nd.scalar a).stdAll = 0 := by
  simp [Nd.stdAll, Nd.meanAll, Nd.total, Nd.size, Nd.rows, Nd.cols, Nd.map]

theorem normalizeOutput_scalar (a : ℝ) (x : Nd) : ndNormalizeOutput (.scalar a) ≠ .ok x := by
  intro h
  unfold ndNormalizeOutput at h
  rw [stdAll_scalar, Nd.sub, zip_scalar_scalar, pyBind_ok, div_scalar_eq, zip_scalar_scalar] at h
  simp [Except.bind] at h

/-- With a matrix of responses the variance of the fit is a matrix of the size of the number of response columns. -/
theorem isMat_gls {n q c m k : ℕ} {K : Matrix (Fin n) (Fin n) ℝ} {F : Matrix (Fin n) (Fin q) ℝ} {Y : Matrix (Fin m) (Fin c) ℝ} {g : NdGLS} (h : ndGls k (.mat K) (.ok (.mat F)) (.mat Y) = .ok g) :
    m = n ∧ g.sigma2.IsMat c c := by
  unfold ndGls at h
  obtain ⟨L, hL, h⟩ := Py.bind_ok.mp h
  obtain ⟨L, rfl⟩ := isMat_chol hL
  obtain ⟨F', hF, h⟩ := Py.bind_ok.mp h
  cases hF
  obtain ⟨alpha, ha, h⟩ := Py.bind_ok.mp h
  obtain ⟨hm, alpha, rfl⟩ := isMat_lsolve2 ha
  subst hm
  obtain ⟨KF, hKF, h⟩ := Py.bind_ok.mp h
  obtain ⟨-, KF, rfl⟩ := isMat_lsolve2 hKF
  obtain ⟨FKF, hFKF, h⟩ := Py.bind_ok.mp h
  obtain ⟨-, FKF, rfl⟩ := isMat_dot hFKF
  obtain ⟨ld, hld, h⟩ := Py.bind_ok.mp h
  obtain ⟨ld, rfl⟩ := isMat_chol hld
  obtain ⟨Fa, hFa, h⟩ := Py.bind_ok.mp h
  obtain ⟨-, Fa, rfl⟩ := isMat_dot hFa
  obtain ⟨beta, hbeta, h⟩ := Py.bind_ok.mp h
  obtain ⟨-, beta, rfl⟩ := isMat_lsolve2 hbeta
  obtain ⟨Fb, hFb, h⟩ := Py.bind_ok.mp h
  obtain ⟨-, Fb, rfl⟩ := isMat_dot hFb
  obtain ⟨res, hres, h⟩ := Py.bind_ok.mp h
  obtain ⟨res, rfl⟩ := isMat_sub_same hres
  obtain ⟨gamma, hgamma, h⟩ := Py.bind_ok.mp h
  obtain ⟨-, gamma, rfl⟩ := isMat_lsolve2 hgamma
  obtain ⟨qq, hq, h⟩ := Py.bind_ok.mp h
  obtain ⟨-, qq, rfl⟩ := isMat_dot hq
  obtain ⟨s2, hs, h⟩ := Py.bind_ok.mp h
  cases h
  exact ⟨rfl, (isMat_div_scalar hs).2⟩

theorem ndGls_vec_ne {n m k : ℕ} (h : n ≠ m) (K : Matrix (Fin n) (Fin n) ℝ) (F : Py Nd) (y : Fin m → ℝ) (g : NdGLS) : ndGls k (.mat K) F (.vec y) ≠ .ok g := by
  intro hg
  unfold ndGls at hg
  obtain ⟨L, hL, hg⟩ := Py.bind_ok.mp hg
  obtain ⟨L, rfl⟩ := isMat_chol hL
  obtain ⟨F', _, hg⟩ := Py.bind_ok.mp hg
  obtain ⟨a, h2, _⟩ := Py.bind_ok.mp hg
  rw [Nd.lsolve2, lsolve_vec_ne _ _ h] at h2
  cases h2

/-- The difference model of `CoKriging` when its trend has to be one number. -/
theorem isMat_diff {n r c k : ℕ} {K : Matrix (Fin n) (Fin n) ℝ} {yhs p : Nd} {rho : ℝ} {dd : Matrix (Fin r) (Fin c) ℝ} (hd : yhs.sub (p.map (rho * ·)) = .ok (.mat dd)) {g : NdDiff}
    (h : ndDiff k (.mat K) yhs p rho (fun q => do
      let v ← q.item
      .ok (.scalar v)) = .ok g) : r = n ∧ c = 1 := by
  unfold ndDiff at h
  obtain ⟨L, hL, h⟩ := Py.bind_ok.mp h
  obtain ⟨L, rfl⟩ := isMat_chol hL
  rw [hd, pyBind_ok] at h
  obtain ⟨alpha, ha, h⟩ := Py.bind_ok.mp h
  obtain ⟨hr, alpha, rfl⟩ := isMat_lsolve2 ha
  obtain ⟨beta, hb, h⟩ := Py.bind_ok.mp h
  obtain ⟨-, beta, rfl⟩ := isMat_lsolve2 hb
  obtain ⟨a, haa, h⟩ := Py.bind_ok.mp h
  obtain ⟨-, a, rfl⟩ := isMat_dot haa
  obtain ⟨b, hbb, h⟩ := Py.bind_ok.mp h
  obtain ⟨-, b, rfl⟩ := isMat_dot hbb
  obtain ⟨q, hq, h⟩ := Py.bind_ok.mp h
  obtain ⟨R, C, h1, h2, hqm⟩ := isMat_div hq
  obtain ⟨mu, hmu, _⟩ := Py.bind_ok.mp h
  obtain ⟨v, hv, _⟩ := Py.bind_ok.mp hmu
  have := isMat_item hqm hv
  rw [bdim_one_right] at h2
  rw [this.2] at h2
  exact ⟨hr.symm, Option.some.inj h2⟩

end Mfpml.GP
