import Verif.Lemmas.Normal
import Verif.Lemmas.Py
import Verif.Lemmas.BayesOpt
import Verif.Spec.Acquisitions

/-!
# Lemmas about the acquisition functions
-/

open MeasureTheory ProbabilityTheory Set

namespace Mfpml.Acq

open Mfpml.EA (Box)
open Mfpml.GP Mfpml.Spec
open Mfpml.BO (npMin npArgmin npRow npMin_isLeast)

theorem tiny9_pos : 0 < tiny9 := by norm_num [tiny9]
theorem tiny8_pos : 0 < tiny8 := by norm_num [tiny8]
theorem floatEps_pos : 0 < floatEps := by unfold floatEps; positivity

/-- The closed form of the expected improvement. -/
theorem expectedImprovement_eq (best μ : ℝ) {σ : ℝ} (h : 0 < σ) :
    expectedImprovement best μ σ = (best - μ) * normCdf ((best - μ) / σ) + σ * normPdf ((best - μ) / σ) := by
  unfold expectedImprovement normalLaw
  rw [integral_gaussianReal_affine μ σ (f := fun y => max (best - y) 0) (by fun_prop), ← integral_improve _ _ h]
  congr 1; ext z; rw [sub_add_eq_sub_sub]

theorem expectedImprovement_eq_integral (best μ σ : ℝ) : expectedImprovement best μ σ = ∫ z, max (best - μ - σ * z) 0 * normPdf z := by
  unfold expectedImprovement normalLaw
  rw [integral_gaussianReal_affine μ σ (f := fun y => max (best - y) 0) (by fun_prop)]
  congr 1; ext z; rw [sub_add_eq_sub_sub]

theorem expectedImprovement_nonneg (best μ σ : ℝ) : 0 ≤ expectedImprovement best μ σ :=
  integral_nonneg fun _ => le_max_right _ _

theorem expectedImprovement_lipschitz (best μ σ σ' : ℝ) : |expectedImprovement best μ σ - expectedImprovement best μ σ'| ≤ |σ - σ'| := by
  rw [expectedImprovement_eq_integral, expectedImprovement_eq_integral]
  exact improve_lipschitz _ _ _

theorem probAtMost_eq (a μ : ℝ) {σ : ℝ} (h : 0 < σ) : probAtMost a μ σ = normCdf ((a - μ) / σ) := gaussianReal_Iic μ h a

/-- The regularised formula `d Φ(d/(σ+ε)) + σ φ(d/(σ+ε))` compared with the expected improvement. -/
theorem regularised_ei (best μ : ℝ) {σ ε : ℝ} (hσ : 0 ≤ σ) (hε : 0 < ε) :
    (best - μ) * normCdf ((best - μ) / (σ + ε)) + σ * normPdf ((best - μ) / (σ + ε)) =
      expectedImprovement best μ (σ + ε) - ε * normPdf ((best - μ) / (σ + ε)) := by
  rw [expectedImprovement_eq best μ (by linarith : 0 < σ + ε)]; ring

theorem regularised_ei_near (best μ : ℝ) {σ ε : ℝ} (hσ : 0 ≤ σ) (hε : 0 < ε) :
    |((best - μ) * normCdf ((best - μ) / (σ + ε)) + σ * normPdf ((best - μ) / (σ + ε))) - expectedImprovement best μ σ| ≤ 2 * ε := by
  rw [regularised_ei best μ hσ hε]
  have h1 := abs_le.mp (expectedImprovement_lipschitz best μ (σ + ε) σ)
  rw [show σ + ε - σ = ε by ring, abs_of_pos hε] at h1
  have h2 := normPdf_le_half ((best - μ) / (σ + ε))
  have h3 := normPdf_pos ((best - μ) / (σ + ε))
  rw [abs_le]
  constructor <;> nlinarith [h1.1, h1.2]

theorem regularised_ei_lower (best μ : ℝ) {σ ε : ℝ} (hσ : 0 ≤ σ) (hε : 0 < ε) :
    -(ε / 2) ≤ (best - μ) * normCdf ((best - μ) / (σ + ε)) + σ * normPdf ((best - μ) / (σ + ε)) := by
  rw [regularised_ei best μ hσ hε]
  have h1 := expectedImprovement_nonneg best μ (σ + ε)
  have h2 := normPdf_le_half ((best - μ) / (σ + ε))
  nlinarith

/-- Far enough from the incumbent the regularised formula is negative. -/
theorem regularised_ei_neg {σ ε : ℝ} (hσ : 0 ≤ σ) (hε : 0 < ε) (best : ℝ) :
    ∃ μ, (best - μ) * normCdf ((best - μ) / (σ + ε)) + σ * normPdf ((best - μ) / (σ + ε)) < 0 := by
  have hpos : 0 < σ + ε := by linarith
  let t : ℝ := -((σ + ε) / ε + 1)
  have hq : 0 ≤ (σ + ε) / ε := by positivity
  have ht : t < 0 := by simp only [t]; linarith
  refine ⟨best - t * (σ + ε), ?_⟩
  rw [show best - (best - t * (σ + ε)) = t * (σ + ε) by ring, mul_div_cancel_right₀ _ hpos.ne']
  have h1 := gLoss_le_mills ht
  have h2 : t * (σ + ε) * normCdf t + σ * normPdf t = (σ + ε) * gLoss t - ε * normPdf t := by unfold gLoss; ring
  rw [h2]
  have h3 : (σ + ε) * gLoss t ≤ (σ + ε) * (normPdf t / t ^ 2) := mul_le_mul_of_nonneg_left h1 hpos.le
  have hp := normPdf_pos t
  have h4 : (σ + ε) / t ^ 2 < ε := by
    rw [div_lt_iff₀ (by have := mul_pos_of_neg_of_neg ht ht; nlinarith)]
    have : (σ + ε) = ε * ((σ + ε) / ε) := by field_simp
    have h5 : (σ + ε) / ε < t ^ 2 := by simp only [t]; nlinarith
    calc σ + ε = ε * ((σ + ε) / ε) := this
      _ < ε * t ^ 2 := mul_lt_mul_of_pos_left h5 hε
  have h6 : (σ + ε) * (normPdf t / t ^ 2) = (σ + ε) / t ^ 2 * normPdf t := by ring
  nlinarith

theorem single_ok {d : ℕ} {ev : Samples 1 d → Py (Fin 1 → ℝ)} {x : Fin d → ℝ} {v : ℝ} : single ev x = .ok v ↔ ∃ r, ev (onePoint x) = .ok r ∧ r 0 = v := by
  unfold single
  rw [Py.bind_ok]
  constructor
  · rintro ⟨r, h1, h2⟩; cases h2; exact ⟨r, h1, rfl⟩
  · rintro ⟨r, h1, rfl⟩; exact ⟨r, h1, rfl⟩

theorem mfChoose_ok {W : Type} {d : ℕ} {evalAt : ℤ → (Fin d → ℝ) → Py ℝ} {de : DiffEvo W d} {bound : Py (Box ℝ d)} {w w' : W} {x : Fin d → ℝ} {fid : ℤ}
    (h : mfChoose evalAt none de bound w = .ok ((x, fid), w')) :
    ∃ b hf wm lf, bound = .ok b ∧ de (evalAt 0) b w = .ok (hf, wm) ∧ de (evalAt 1) b wm = .ok (lf, w') ∧
      ((hf.2 ≤ lf.2 ∧ x = hf.1 ∧ fid = 0) ∨ (lf.2 < hf.2 ∧ x = lf.1 ∧ fid = 1)) := by
  simp only [mfChoose] at h
  obtain ⟨b, hb, h⟩ := Py.bind_ok.mp h
  obtain ⟨⟨hf, wm⟩, h1, h⟩ := Py.bind_ok.mp h
  obtain ⟨⟨lf, wm'⟩, h2, h⟩ := Py.bind_ok.mp h
  simp only at h h2
  split_ifs at h with hle
  · cases h; exact ⟨b, hf, wm, lf, hb, h1, h2, Or.inl ⟨hle, rfl, rfl⟩⟩
  · cases h; exact ⟨b, hf, wm, lf, hb, h1, h2, Or.inr ⟨not_le.mp hle, rfl, rfl⟩⟩

end Mfpml.Acq
