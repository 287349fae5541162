import Verif.Model.Samplers
import Mathlib.Data.Rat.Defs
import Mathlib.Algebra.Order.Ring.Rat
import Mathlib.Tactic.Linarith
import Mathlib.Tactic.NormNum
import Mathlib.Tactic.FieldSimp
import Mathlib.Tactic.Positivity
import Mathlib.Data.List.Nodup

/-!
# A concrete outside world for the samplers

Used to show that the hypotheses of the sampler theorems can be met and to build counterexamples.
-/

namespace Mfpml.Sampling

/-- A concrete world: the global generator is a counter, LHS is the diagonal design, the scrambled Sobol sequence is `0, 1/2, 0, 1/2 …` with a shift that
depends on the seed, `choice` picks the first or the last rows depending on the state. -/
def exEnv (d : ℕ) : Env ℚ d where
  S := ℕ
  lhs _ n s := ((List.range n).map (fun i : ℕ => fun _ => ((i : ℚ) + 1) / n), s)
  sobol sd s := (fun k _ => (((k + sd.getD s) % 2 : ℕ) : ℚ) / 2, s)
  seed sd _ := sd
  random n s := (List.replicate n (fun _ => ((s % 2 : ℕ) : ℚ) / 2), s + 1)
  choice m k s := (if s % 2 = 0 then List.range k else (List.range m).drop (m - k), s + 1)

theorem mod_two_unit (a : ℕ) : (0 : ℚ) ≤ ((a % 2 : ℕ) : ℚ) / 2 ∧ ((a % 2 : ℕ) : ℚ) / 2 ≤ 1 := by
  have h : a % 2 = 0 ∨ a % 2 = 1 := by omega
  rcases h with h | h <;> rw [h] <;> norm_num

theorem exEnv_lawful (d : ℕ) : (exEnv d).Lawful where
  lhs_len sd n s := by simp [exEnv]
  lhs_unit sd n s x hx j := by
    simp only [exEnv, List.mem_map, List.mem_range] at hx
    obtain ⟨i, hi, rfl⟩ := hx
    have hn : (0 : ℚ) < n := by exact_mod_cast (by omega : 0 < n)
    refine ⟨by positivity, ?_⟩
    rw [div_le_one hn]
    exact_mod_cast (by omega : i + 1 ≤ n)
  lhs_seeded sd n s s' := ⟨rfl, rfl⟩
  sobol_unit sd s k j := mod_two_unit _
  sobol_seeded sd s s' := ⟨rfl, rfl⟩
  seed_reset sd s s' := rfl
  random_len n s := by simp [exEnv]
  random_unit n s x hx j := by
    simp only [exEnv] at hx
    rw [List.eq_of_mem_replicate hx]
    exact mod_two_unit _
  choice_len m k s h := by
    simp only [exEnv]; split
    · simp
    · simp; omega
  choice_nodup m k s h := by
    simp only [exEnv]; split
    · exact List.nodup_range
    · exact (List.drop_sublist _ _).nodup List.nodup_range
  choice_lt m k s h i hi := by
    simp only [exEnv] at hi; split at hi
    · exact lt_of_lt_of_le (List.mem_range.mp hi) h
    · exact List.mem_range.mp ((List.drop_sublist _ _).subset hi)

end Mfpml.Sampling
