import Verif.Model.EvolutionaryHeap

/-!
# How an objective function uses arrays for its return values

Only the type `Objective` of the model is used: `o.reply n` is the array that the `n`-th call of a run returns.
-/

namespace Mfpml.Spec

open Mfpml.EAHeap

variable {K : Type} {P D : ℕ}

/-- Every call makes a new array (the usual case). -/
def MakesNewArrays (o : Objective K P D) : Prop :=
  ∃ k : ℕ → ℕ, Function.Injective k ∧ ∀ n, o.reply n = .array (k n)

/-- The objective returns a slice `x[:, j]` of its argument. -/
def ReturnsColumn (o : Objective K P D) : Prop := ∃ j, ∀ n, o.reply n = .column j

/-- No later call of a run returns the array that the first call returned. -/
def FirstArrayNotReturnedAgain (o : Objective K P D) : Prop :=
  ∀ k, o.reply 0 = .array k → ∀ n, o.reply (n + 1) ≠ .array k

/-- Every call fills and returns the same array. -/
def ReturnsSameArray (o : Objective K P D) : Prop := ∃ k, ∀ n, o.reply n = .array k

theorem MakesNewArrays.first {o : Objective K P D} (h : MakesNewArrays o) : FirstArrayNotReturnedAgain o := by
  obtain ⟨k, hk, e⟩ := h
  intro k0 h0 n hn
  rw [e] at h0 hn
  injection h0 with h0
  injection hn with hn
  have := hk (h0.trans hn.symm)
  omega

theorem ReturnsColumn.first {o : Objective K P D} (h : ReturnsColumn o) : FirstArrayNotReturnedAgain o := by
  obtain ⟨j, e⟩ := h
  intro k0 h0
  rw [e] at h0
  cases h0

end Mfpml.Spec
