import Verif.Spec.Acquisitions

/-!
# Specification: the cost ratio of multi-fidelity acquisitions
-/

namespace Mfpml.Spec

open Mfpml.EA (Box)

/-- What a user expects of the argument `cost_ratio` (the cost of a high-fidelity evaluation divided by that of a low-fidelity one) of a query.  A query gets the cost ratio and the random state, and returns a point,
a fidelity (0 high, 1 low) and the new random state. `worth` says that low-fidelity evaluations are worth anything at all. -/
structure RespectsCost {W : Type} {d : ℕ} (query : ℝ → W → Py (((Fin d → ℝ) × ℤ) × W)) (worth : Prop) : Prop where
  /-- If the low fidelity is chosen, it is also chosen when it is cheaper still. -/
  monotone : ∀ cr cr' w w₁ w' w₁' x x' fid, 0 ≤ cr → cr ≤ cr' → query cr w = .ok ((x, 1), w₁) → query cr' w' = .ok ((x', fid), w₁') → fid = 1
  /-- Where the high fidelity would be evaluated does not depend on the costs. -/
  samePoint : ∀ cr cr' w w₁ w₁' x x', query cr w = .ok ((x, 0), w₁) → query cr' w = .ok ((x', 0), w₁') → x = x'
  /-- If the low fidelity is cheap enough, it is chosen. -/
  eventually : worth → (∃ cr w r, query cr w = .ok r) → ∃ C, ∀ cr, C ≤ cr → ∀ w w₁ x fid, query cr w = .ok ((x, fid), w₁) → fid = 1

/-- Somewhere in the design space the acquisition is negative at the low fidelity (all acquisitions are minimised; 0 means no improvement). -/
def WorthSomewhere {d : ℕ} (b : Py (Box ℝ d)) (value : (Fin d → ℝ) → Py ℝ) : Prop := ∃ box x v, b = .ok box ∧ InBounds box x ∧ value x = .ok v ∧ v < 0

end Mfpml.Spec
