import Mathlib.Tactic.NormNum
import Mathlib.Tactic.FieldSimp
import Mathlib.Tactic.IntervalCases
import Mathlib.Data.Fintype.EquivFin
import Verif.Model.Samplers
import Verif.Spec.Sampling
import Verif.Spec.RoundedLatin
import Verif.Lemmas.RoundedCoKriging
import Verif.Props.Rounded

/-!
# Latin hypercubes in floating-point arithmetic (C185)

`R` ranges over all roundings to nearest with `p` significant bits (`float64`: `p = 53`, `emin = -1074`).  The sampler is the one of `Verif.Model.Samplers`, run on floats.
-/

set_option linter.unusedSectionVars false

namespace Mfpml.Props

open Mfpml.Rounded Mfpml.Sampling Mfpml.Spec

variable {p : ℕ} {emin : ℤ} {R : Rounding p emin} {d : ℕ}

/-- The exact values of the rows of a sample array. -/
def rowVals (l : List (Fin d → Fl R)) : List (Fin d → ℝ) := l.map fun x j => (x j).val

/-- An entry of the exact values. -/
theorem rowVals_get (l : List (Fin d → Fl R)) (j : Fin d) (i : ℕ) (hi : i < (rowVals l).length) : (rowVals l)[i] j = ((l[i]'(by simpa [rowVals] using hi)) j).val :=
  congrFun (List.getElem_map (fun (x : Fin d → Fl R) j => (x j).val) (h := hi)) j

/-- The rounding error of scaling. -/
theorem scale_near {f : ℝ → ℝ} {u t : ℝ} (hf : ∀ x, |f x - x| ≤ u * (|x| + t)) (hu : 0 < u) (hu1 : u ≤ 1 / 100) (ht : 0 < t) {lo w a : ℝ} (hw : 0 ≤ w) (ha : 0 ≤ a) (ha1 : a ≤ 1) :
    |f (lo + f (a * f w)) - (lo + a * w)| ≤ 4 * u * (|lo| + w + t) := by
  have h1 := hf w
  rw [abs_of_nonneg hw] at h1
  have hwt : 0 ≤ u * (w + t) := by positivity
  have h2 : |a * f w - a * w| ≤ u * (w + t) := by
    rw [← mul_sub, abs_mul, abs_of_nonneg ha]
    exact (mul_le_of_le_one_left (abs_nonneg _) ha1).trans h1
  have h3 : |a * w| ≤ w := by
    rw [abs_of_nonneg (mul_nonneg ha hw)]
    exact mul_le_of_le_one_left hw ha1
  have h4 := near_round hf h2 (near_size h2 h3) hu.le
  have h5 : |lo + f (a * f w) - (lo + a * w)| ≤ u * (w + t) + u * (w + u * (w + t) + t) := by rwa [add_sub_add_left_eq_sub]
  have h6 : |lo + a * w| ≤ |lo| + w := (abs_add_le _ _).trans (by linarith)
  refine (near_round hf h5 (near_size h5 h6) hu.le).trans ?_
  have hlo : 0 ≤ u * |lo| := by positivity
  have b1 : u * (u * (w + t)) ≤ 1 / 100 * (u * (w + t)) := mul_le_mul_of_nonneg_right hu1 hwt
  have b2 : u * (u * (u * (w + t))) ≤ 1 / 100 * (u * (u * (w + t))) := mul_le_mul_of_nonneg_right hu1 (by positivity)
  have e : u * (w + t) + u * (w + u * (w + t) + t) + u * (|lo| + w + (u * (w + t) + u * (w + u * (w + t) + t)) + t) =
    3 * (u * (w + t)) + 3 * (u * (u * (w + t))) + u * (u * (u * (w + t))) + u * |lo| := by ring
  have e2 : 4 * u * (|lo| + w + t) = 4 * (u * (w + t)) + 4 * (u * |lo|) := by ring
  rw [e, e2]
  linarith

/-- The rows of a Latin hypercube, sorted along an axis. -/
theorem latin_sorted {l : List (Fin d → ℝ)} (h : IsLatin (fun _ => 0) (fun _ => 1) l) (j : Fin d) :
    ∃ σ : Fin l.length ≃ Fin l.length, ∀ k : Fin l.length, (k : ℝ) / l.length < l[σ k] j ∧ l[σ k] j ≤ ((k : ℝ) + 1) / l.length := by
  have h1 : ∀ k : Fin l.length, ∃ i : Fin l.length, (k : ℝ) / l.length < l[i] j ∧ l[i] j ≤ ((k : ℝ) + 1) / l.length := fun k => by
    obtain ⟨i, ⟨x, hx, h2, h3⟩, -⟩ := h j k k.2
    obtain ⟨hi, rfl⟩ := List.getElem?_eq_some_iff.mp hx
    refine ⟨⟨i, hi⟩, ?_, ?_⟩
    · have : (k : ℝ) / l.length = 0 + (k : ℝ) * ((1 - 0) / l.length) := by ring
      rw [this]; exact h2
    · have : ((k : ℝ) + 1) / l.length = 0 + ((k : ℝ) + 1) * ((1 - 0) / l.length) := by ring
      rw [this]; exact h3
  choose f hf using h1
  have hinj : Function.Injective f := by
    have key : ∀ k k' : Fin l.length, f k = f k' → k ≤ k' := fun k k' hk => by
      by_contra hlt
      push Not at hlt
      have hN : (0 : ℝ) < l.length := by exact_mod_cast (Nat.zero_lt_of_lt k.2)
      have h4 := (hf k).1
      have h5 := (hf k').2
      rw [hk] at h4
      have h6 : (k : ℝ) / l.length < ((k' : ℝ) + 1) / l.length := h4.trans_le h5
      rw [div_lt_div_iff_of_pos_right hN] at h6
      have h7 : k.val < k'.val + 1 := by exact_mod_cast h6
      have h8 : k'.val < k.val := hlt
      omega
    exact fun k k' hk => le_antisymm (key k k' hk) (key k' k hk.symm)
  exact ⟨Equiv.ofBijective f (Finite.injective_iff_bijective.mp hinj), hf⟩

/-- C185 (partial).  If scipy's engine returns a Latin hypercube of the unit cube, the samples computed by `LatinHyperCube.get_samples` form one of the design space up to four roundings of the lower bound and of the range:
along every axis, the `k`-th smallest sample lies in the `k`-th cell or at most that far outside.  (Full claim: without this tolerance; see `C185_counterexample`.) -/
theorem C185_latin_partial (hp : 7 ≤ p) (E : Env (Fl R) d) (b : EA.Box (Fl R) d) (hb : ∀ j, b.low j < b.high j) (n : ℕ) (seed : Option ℕ) (s : E.S)
    (hlat : IsLatin (fun _ => (0 : ℝ)) (fun _ => 1) (rowVals (E.lhs seed n s).1)) :
    IsLatinUpTo (fun j => 4 * 2 ^ (-(p : ℤ)) * (|(b.low j).val| + ((b.high j).val - (b.low j).val) + 2 ^ (emin + p - 1))) (fun j => (b.low j).val) (fun j => (b.high j).val) (rowVals (lhsSamples E b n seed s).1) := by
  intro j
  have hp1 : 1 ≤ p := by omega
  have hu1 : (2 : ℝ) ^ (-(p : ℤ)) ≤ 1 / 100 := (zpow_le_zpow_right₀ (by norm_num) (by omega : -(p : ℤ) ≤ -7)).trans (by norm_num)
  have hrows : (lhsSamples E b n seed s).1 = (E.lhs seed n s).1.map (scalePt b) := rfl
  rw [hrows]
  clear hrows
  generalize (E.lhs seed n s).1 = U at *
  obtain ⟨σ, hσ⟩ := latin_sorted hlat j
  have hlen : (rowVals (U.map (scalePt b))).length = (rowVals U).length := by simp [rowVals]
  have hw : 0 < (b.high j).val - (b.low j).val := sub_pos.mpr (hb j)
  have hval : ∀ k : Fin (rowVals (U.map (scalePt b))).length, (rowVals (U.map (scalePt b)))[((finCongr hlen).trans (σ.trans (finCongr hlen.symm))) k] j = R.fl ((b.low j).val + R.fl ((rowVals U)[σ (Fin.cast hlen k)] j * R.fl ((b.high j).val - (b.low j).val))) := fun k => by
    change ((rowVals (U.map (scalePt b)))[(σ (Fin.cast hlen k)).val]'((σ (Fin.cast hlen k)).2.trans_eq hlen.symm)) j = R.fl ((b.low j).val + R.fl (((rowVals U)[(σ (Fin.cast hlen k)).val]'((σ (Fin.cast hlen k)).2)) j * R.fl ((b.high j).val - (b.low j).val)))
    rw [rowVals_get, rowVals_get, List.getElem_map]
    rfl
  refine ⟨(finCongr hlen).trans (σ.trans (finCongr hlen.symm)), fun k => ?_, fun k k' hk => ?_⟩
  · rw [hval]
    have hk := hσ (Fin.cast hlen k)
    have hN : (0 : ℝ) < (rowVals U).length := by exact_mod_cast (Nat.zero_lt_of_lt (Fin.cast hlen k).2)
    have hkN : (((Fin.cast hlen k : Fin _) : ℕ) : ℝ) + 1 ≤ (rowVals U).length := by exact_mod_cast (Fin.cast hlen k).2
    have hlenR : ((rowVals (U.map (scalePt b))).length : ℝ) = (rowVals U).length := by rw [hlen]
    rw [hlenR]
    simp only [Fin.val_cast] at hk hkN
    generalize (rowVals U)[σ (Fin.cast hlen k)] j = a at *
    have ha0 : 0 ≤ a := (div_nonneg (Nat.cast_nonneg _) hN.le).trans hk.1.le
    have ha1 : a ≤ 1 := hk.2.trans ((div_le_one hN).mpr hkN)
    have h1 := abs_le.mp (scale_near (f := R.fl) (fl_error hp1 R) (two_zpow_pos _) hu1 (two_zpow_pos _) (lo := (b.low j).val) hw.le ha0 ha1)
    have h2 : (k : ℝ) * (((b.high j).val - (b.low j).val) / (rowVals U).length) ≤ a * ((b.high j).val - (b.low j).val) := by
      rw [← mul_div_assoc, mul_div_right_comm]
      exact mul_le_mul_of_nonneg_right hk.1.le hw.le
    have h3 : a * ((b.high j).val - (b.low j).val) ≤ ((k : ℝ) + 1) * (((b.high j).val - (b.low j).val) / (rowVals U).length) := by
      rw [← mul_div_assoc, mul_div_right_comm]
      exact mul_le_mul_of_nonneg_right hk.2 hw.le
    constructor <;> linarith [h1.1, h1.2]
  · rw [hval, hval]
    rcases eq_or_lt_of_le hk with rfl | hlt
    · exact le_rfl
    have h1 := (hσ (Fin.cast hlen k)).2
    have h2 := (hσ (Fin.cast hlen k')).1
    have hN : (0 : ℝ) < (rowVals U).length := by exact_mod_cast (Nat.zero_lt_of_lt (Fin.cast hlen k).2)
    have h3 : (((Fin.cast hlen k : Fin _) : ℕ) : ℝ) + 1 ≤ ((Fin.cast hlen k' : Fin _) : ℕ) := by
      have : (Fin.cast hlen k).val + 1 ≤ (Fin.cast hlen k').val := hlt
      exact_mod_cast this
    have h4 := (div_le_div_iff_of_pos_right hN).mpr h3
    have hw' : 0 ≤ R.fl ((b.high j).val - (b.low j).val) := R.le_fl isFloat_zero hw.le
    refine R.fl_mono (add_le_add_right (R.fl_mono (mul_le_mul_of_nonneg_right ?_ hw')) _)
    linarith

/-- C185: **false without a tolerance.**  In double precision, for the design space `[2^53, 2^53 + 4]` and four samples at the middle of the cells of the unit interval, the second and the third sample are the same number; so the design
is not a Latin hypercube. -/
theorem C185_counterexample {R : Rounding 53 (-1074)} (E : Env (Fl R) 1) (b : EA.Box (Fl R) 1) (hlow : (b.low 0).val = 2 ^ 53) (hhigh : (b.high 0).val = 2 ^ 53 + 4) (seed : Option ℕ) (s : E.S)
    (hE : rowVals (E.lhs seed 4 s).1 = [fun _ => 1 / 8, fun _ => 3 / 8, fun _ => 5 / 8, fun _ => 7 / 8]) :
    IsLatin (fun _ => (0 : ℝ)) (fun _ => 1) (rowVals (E.lhs seed 4 s).1) ∧
    (∃ x, (rowVals (lhsSamples E b 4 seed s).1)[1]? = some x ∧ (rowVals (lhsSamples E b 4 seed s).1)[2]? = some x) ∧
    ¬IsLatin (fun j => (b.low j).val) (fun j => (b.high j).val) (rowVals (lhsSamples E b 4 seed s).1) := by
  have f4 : R.fl 4 = 4 := R.fl_of_isFloat ⟨1, 2, by norm_num, by norm_num, by norm_num⟩
  have f3 : R.fl (3 / 2) = 3 / 2 := R.fl_of_isFloat ⟨3, -1, by norm_num, by norm_num, by norm_num⟩
  have f5 : R.fl (5 / 2) = 5 / 2 := R.fl_of_isFloat ⟨5, -1, by norm_num, by norm_num, by norm_num⟩
  have g3 : R.fl (2 ^ 53 + 3 / 2) = 2 ^ 53 + 2 := by
    rw [fl_eq (by norm_num) R (m := 2 ^ 52 + 1) (e := 1) (by norm_num) (by norm_num) (by norm_num) (by norm_num [abs_of_neg])]
    norm_num
  have g5 : R.fl (2 ^ 53 + 5 / 2) = 2 ^ 53 + 2 := by
    rw [fl_eq (by norm_num) R (m := 2 ^ 52 + 1) (e := 1) (by norm_num) (by norm_num) (by norm_num) (by norm_num [abs_of_pos])]
    norm_num
  have hrows : ∀ (i : ℕ) (a : ℝ), (rowVals (E.lhs seed 4 s).1)[i]? = some (fun _ => a) → (rowVals (lhsSamples E b 4 seed s).1)[i]? = some fun _ => R.fl (2 ^ 53 + R.fl (a * 4)) := fun i a hi => by
    change (rowVals ((E.lhs seed 4 s).1.map (scalePt b)))[i]? = _
    unfold rowVals at hi ⊢
    rw [List.getElem?_map, Option.map_eq_some_iff] at hi
    obtain ⟨x, hx, hxa⟩ := hi
    rw [List.map_map, List.getElem?_map, hx, Option.map_some]
    congr 1
    funext j
    have hj : j = 0 := Subsingleton.elim _ _
    subst hj
    change R.fl ((b.low 0).val + R.fl ((x 0).val * R.fl ((b.high 0).val - (b.low 0).val))) = _
    rw [hlow, hhigh, show (2 : ℝ) ^ 53 + 4 - 2 ^ 53 = 4 by norm_num, f4, ← congrFun hxa 0]
  have r1 := hrows 1 (3 / 8) (by rw [hE]; rfl)
  have r2 := hrows 2 (5 / 8) (by rw [hE]; rfl)
  rw [show (3 / 8 : ℝ) * 4 = 3 / 2 by norm_num, f3, g3] at r1
  rw [show (5 / 8 : ℝ) * 4 = 5 / 2 by norm_num, f5, g5] at r2
  refine ⟨?_, ⟨_, r1, r2⟩, fun hlat => ?_⟩
  · rw [hE]
    intro j k hk
    simp only [List.length_cons, List.length_nil] at hk ⊢
    have hmem : ∀ (i : ℕ) (x : Fin 1 → ℝ), ([fun _ => 1 / 8, fun _ => 3 / 8, fun _ => 5 / 8, fun _ => 7 / 8] : List (Fin 1 → ℝ))[i]? = some x → i < 4 ∧ x j = (2 * (i : ℝ) + 1) / 8 := fun i x hx => by
      obtain ⟨hi, rfl⟩ := List.getElem?_eq_some_iff.mp hx
      simp only [List.length_cons, List.length_nil] at hi
      refine ⟨hi, ?_⟩
      interval_cases i <;> norm_num
    refine ⟨k, ?_, ?_⟩
    · have hk4 : k < ([fun _ => 1 / 8, fun _ => 3 / 8, fun _ => 5 / 8, fun _ => 7 / 8] : List (Fin 1 → ℝ)).length := hk
      refine ⟨_, List.getElem?_eq_getElem hk4, ?_⟩
      rw [(hmem k _ (List.getElem?_eq_getElem hk4)).2]
      push_cast
      constructor <;> linarith
    · rintro i ⟨x, hx, h1, h2⟩
      rw [(hmem i x hx).2] at h1 h2
      push_cast at h1 h2
      have h3 : (k : ℝ) < i + 1 := by linarith
      have h4 : (i : ℝ) < k + 1 := by linarith
      have h5 : k < i + 1 := by exact_mod_cast h3
      have h6 : i < k + 1 := by exact_mod_cast h4
      omega
  · have hlen : (rowVals (lhsSamples E b 4 seed s).1).length = 4 := by
      have h1 : (rowVals (lhsSamples E b 4 seed s).1).length = (rowVals (E.lhs seed 4 s).1).length := by simp [rowVals, lhsSamples, scaleSamples]
      rw [h1, hE]; rfl
    obtain ⟨i, -, huniq⟩ := hlat 0 1 (by rw [hlen]; norm_num)
    simp only [hlen, hlow, hhigh] at huniq
    have u1 := huniq 1 ⟨_, r1, by norm_num, by norm_num⟩
    have u2 := huniq 2 ⟨_, r2, by norm_num, by norm_num⟩
    omega

/-- Environments as in the counterexample exist. -/
example {R : Rounding 53 (-1074)} : ∃ E : Env (Fl R) 1, ∀ seed s, rowVals (E.lhs seed 4 s).1 = [fun _ => 1 / 8, fun _ => 3 / 8, fun _ => 5 / 8, fun _ => 7 / 8] := by
  let c : ℤ → Fin 1 → Fl R := fun m _ => Fl.ofReal R ((m : ℝ) * 2 ^ (-3 : ℤ))
  have hc : ∀ m : ℤ, |m| < 2 ^ 53 → (fun j => (c m j).val) = fun _ => (m : ℝ) * 2 ^ (-3 : ℤ) := fun m hm => by
    funext j
    exact R.fl_of_isFloat ⟨m, -3, hm, by norm_num, rfl⟩
  refine ⟨⟨Unit, fun _ _ s => ([c 1, c 3, c 5, c 7], s), fun _ s => (fun _ => c 1, s), fun _ s => s, fun _ s => ([], s), fun _ _ s => ([], s)⟩, fun seed s => ?_⟩
  simp only [rowVals, List.map_cons, List.map_nil]
  rw [hc 1 (by norm_num), hc 3 (by norm_num), hc 5 (by norm_num), hc 7 (by norm_num)]
  norm_num

/-- In double precision, for design variables between -1000 and 1000, the tolerance is below `2e-12`. -/
example (lo hi : ℝ) (h1 : -1000 ≤ lo) (h2 : lo ≤ hi) (h3 : hi ≤ 1000) : 4 * 2 ^ (-((53 : ℕ) : ℤ)) * (|lo| + (hi - lo) + (2 : ℝ) ^ ((-1074 : ℤ) + ((53 : ℕ) : ℤ) - 1)) ≤ 2e-12 := by
  have h4 : (2 : ℝ) ^ ((-1074 : ℤ) + ((53 : ℕ) : ℤ) - 1) ≤ 2 ^ (0 : ℤ) := zpow_le_zpow_right₀ (by norm_num) (by norm_num)
  have h5 : |lo| ≤ 1000 := abs_le.mpr ⟨h1, h2.trans h3⟩
  generalize (2 : ℝ) ^ ((-1074 : ℤ) + ((53 : ℕ) : ℤ) - 1) = t at *
  norm_num at h4 ⊢
  linarith

end Mfpml.Props
