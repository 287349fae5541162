import Verif.Lemmas.Rounded
import Verif.Spec.Rounded
import Verif.Props.PSO
import Verif.Props.DE
import Verif.Props.SFSamplers
import Verif.Props.MFSamplers

/-!
# Confinement in floating-point arithmetic (C96)

`R` ranges over all roundings to nearest, for every number `p ≥ 1` of significant bits and every least exponent (`float64`: 53 and -1074); `Fl R` are the
floating-point numbers with every operation rounded by `R`.
-/

namespace Mfpml.Props

open Mfpml.Rounded Mfpml.EA Mfpml.Sampling Mfpml.Spec

variable {p : ℕ} {emin : ℤ} {R : Rounding p emin} {P D : ℕ}

/-- Scaling draws from `[0, 1)` into a box of floats, rounding after every operation, gives points of the box. -/
theorem scalesIntoBox_float (hp : 1 ≤ p) {low high u : Fin D → Fl R} (hb : ∀ j, low j ≤ high j) (hu : ∀ j, HalfOpenUnit (u j)) :
    ScalesIntoBox low high u := fun j =>
  scale_float R hp (low j).isFloat (high j).isFloat (hb j) (u j).isFloat (hu j).1 (hu j).2

/-- C96 (PSO). With every operation rounded, every array the objective is called with, every recorded sample and the returned best point lie exactly in the
design space. -/
theorem C96_pso_confined (hp : 1 ≤ p) {cfg : PSOCfg (Fl R)} {b : Box (Fl R) D} {func : Pop (Fl R) P D → Fin P → Fl R} {stop : Option (Fl R)}
    {rnd : PSORand (Fl R) P D} {r : PSOResult (Fl R) P D} (hb : ∀ j, b.low j ≤ b.high j) (hpos : ∀ i j, HalfOpenUnit (rnd.pos i j))
    (hrepl : ∀ t k i j, HalfOpenUnit (rnd.repl t k i j)) (h : psoRun cfg b func stop rnd = .ok r) :
    (∀ q ∈ r.calls, ∀ i, InBox b.low b.high (q i)) ∧ InBox b.low b.high r.retX ∧
    ∀ last, LastGen cfg.numGen stop r.bestYHist last →
      ∀ g ≤ last, (∀ i, InBox b.low b.high (r.allSamples g i)) ∧ InBox b.low b.high (r.bestXHist g) :=
  C01_pso_in_design_space_any_arithmetic (fun i => scalesIntoBox_float hp hb (hpos i)) (fun t k i => scalesIntoBox_float hp hb (hrepl t k i)) h

/-- C96 (DE). The same for differential evolution. -/
theorem C96_de_confined (hp : 1 ≤ p) {cfg : DECfg (Fl R)} {b : Box (Fl R) D} {func : Pop (Fl R) P D → Fin P → Fl R} {stop : Option (Fl R)}
    {rnd : DERand (Fl R) P D} {r : Result (Fl R) P D} (hb : ∀ j, b.low j ≤ b.high j) (hpos : ∀ i j, HalfOpenUnit (rnd.pos i j))
    (hrepl : ∀ t k i j, HalfOpenUnit (rnd.repl t k i j)) (h : deRun cfg b func stop rnd = .ok r) :
    (∀ q ∈ r.calls, ∀ i, InBox b.low b.high (q i)) ∧ InBox b.low b.high r.retX ∧
    ∀ last, LastGen cfg.numGen stop r.bestYHist last →
      ∀ g ≤ last, (∀ i, InBox b.low b.high (r.allSamples g i)) ∧ InBox b.low b.high (r.bestXHist g) :=
  C08_de_in_design_space_any_arithmetic (fun i => scalesIntoBox_float hp hb (hpos i)) (fun t k i => scalesIntoBox_float hp hb (hrepl t k i)) h

/-- C96 (single-fidelity samplers). With every operation rounded, all samples of the Latin hypercube, random and Sobol samplers lie exactly in the design space. -/
theorem C96_sf_samplers_confined (hp : 1 ≤ p) (E : Env (Fl R) D) (hE : E.Contract) (hQ : E.DrawsIn HalfOpenUnit) (b : Box (Fl R) D)
    (hb : ∀ j, b.low j ≤ b.high j) (n : ℕ) (s : E.S) :
    (∀ seed, (lhsSamples E b n seed s).1.length = n ∧ ∀ x ∈ (lhsSamples E b n seed s).1, InBox b.low b.high x) ∧
    (∀ seed, (randomSamples E b n seed s).1.length = n ∧ ∀ x ∈ (randomSamples E b n seed s).1, InBox b.low b.high x) ∧
    (∀ numSkip seed xs s', sobolSamples E b numSkip n seed s = .ok (xs, s') →
      xs.length = n ∧ ∀ x ∈ xs, InBox b.low b.high x) := by
  refine C15_samples_in_bounds_any_arithmetic E hE hQ b (fun u hu j => ?_) n s
  have h := scalesIntoBox_float hp hb hu j
  have hc : ∀ a c : Fl R, a + c = c + a := fun a c => congrArg (Fl.ofReal R) (add_comm _ _)
  rw [show (fun j => b.low j + u j * (b.high j - b.low j)) j = u j * (b.high j - b.low j) + b.low j from hc _ _]
  exact h

/-- C96 (multi-fidelity samplers). With every operation rounded, all samples of all fidelities lie exactly in the shared design space, nested or not. -/
theorem C96_mf_samplers_confined (hp : 1 ≤ p) (E : Env (Fl R) D) (hE : E.Contract) (hQ : E.DrawsIn HalfOpenUnit) (sobol : Bool) (b : Box (Fl R) D)
    (hb : ∀ j, b.low j ≤ b.high j) (numFidelity : ℕ) (nested : Bool) (numSkip : Option ℕ) (ns : List ℕ) (seed : Option ℕ) (s : E.S) {data left s'}
    (h : getSamples E (mkShared sobol b numFidelity nested numSkip) ns seed s = .ok (data, left, s')) :
    ∀ xs ∈ data, ∀ x ∈ xs, InBox b.low b.high x :=
  C22_mf_bounds_shared_any_arithmetic_partial E hE hQ sobol b (fun _ hu => scalesIntoBox_float hp hb hu) numFidelity nested numSkip ns seed s h

/-- The half-open interval matters, at every precision: there is a box of floats for which the draw `1` leads outside, above the upper bound. -/
theorem C96_closed_draws_counterexample (hp : 2 ≤ p) (hemin : emin ≤ -1) (R : Rounding p emin) :
    ∃ (low high u : Fin 1 → Fl R), (∀ j, low j < high j) ∧ (∀ j, ClosedUnit (u j)) ∧ ¬ ScalesIntoBox low high u := by
  have hp1 : 1 ≤ p := by omega
  obtain ⟨q, rfl⟩ : ∃ q, p = q + 2 := ⟨p - 2, by omega⟩
  have hB : (4 : ℝ) ≤ 2 ^ (q + 2) := by
    have : (1 : ℝ) ≤ 2 ^ q := one_le_pow₀ (by norm_num)
    rw [pow_add]; linarith
  have hBi : (4 : ℤ) ≤ 2 ^ (q + 2) := by exact_mod_cast hB
  have hl : IsFloat (q + 2) emin (-(2 : ℝ) ^ (q + 2)) := by
    have := isFloat_of_le (p := q + 2) (emin := emin) hp1 (m := -2 ^ (q + 2)) (e := 0) (by rw [abs_neg, abs_of_pos (by positivity)]) (by omega)
    simpa using this
  have hh : IsFloat (q + 2) emin (3 / 2 : ℝ) := ⟨3, -1, by rw [abs_of_pos (by norm_num)]; omega, hemin, by norm_num⟩
  have h1 : IsFloat (q + 2) emin (1 : ℝ) := ⟨1, 0, by rw [abs_of_pos (by norm_num)]; omega, by omega, by norm_num⟩
  have h2 : IsFloat (q + 2) emin (2 : ℝ) := ⟨2, 0, by rw [abs_of_pos (by norm_num)]; omega, by omega, by norm_num⟩
  -- the width `2 ^ p + 3/2` is rounded up to `2 ^ p + 2`
  have hw : IsFloat (q + 2) emin ((2 : ℝ) ^ (q + 2) + 2) := by
    refine ⟨2 ^ (q + 1) + 1, 1, ?_, by omega, ?_⟩
    · rw [abs_of_pos (by positivity), pow_succ 2 (q + 1)]
      have : (2 : ℤ) ≤ 2 ^ (q + 1) := by rw [pow_succ]; have : (1 : ℤ) ≤ 2 ^ q := one_le_pow₀ (by norm_num)
                                         linarith
      linarith
    · push_cast; rw [pow_succ 2 (q + 1)]; ring
  have hfl : (2 : ℝ) ^ (q + 2) + 2 ≤ R.fl (3 / 2 - -2 ^ (q + 2)) := by
    have hn := R.nearest (3 / 2 - -2 ^ (q + 2)) _ hw
    rw [show (3 / 2 - -(2 : ℝ) ^ (q + 2) - (2 ^ (q + 2) + 2)) = -(1 / 2) by ring, abs_neg, abs_of_pos (show (0 : ℝ) < 1 / 2 by norm_num)] at hn
    have hn := (abs_le.mp hn).2
    have hm : (2 : ℤ) ^ (q + 2) < 2 * (2 ^ (q + 1) + 1) := by rw [pow_succ 2 (q + 1)]; omega
    have := no_float_between hp1 (m := 2 ^ (q + 1) + 1) (e := 1) hm (R.isFloat (3 / 2 - -2 ^ (q + 2))) (by
      push_cast; rw [pow_succ 2 (q + 1)] at hn ⊢; norm_num at hn ⊢; linarith)
    push_cast at this
    rw [pow_succ 2 (q + 1)] at this ⊢
    norm_num at this ⊢
    linarith
  refine ⟨fun _ => ⟨_, hl⟩, fun _ => ⟨_, hh⟩, fun _ => ⟨_, h1⟩, ?_, ?_, ?_⟩
  · intro _
    change -(2 : ℝ) ^ (q + 2) < 3 / 2
    linarith
  · intro _
    exact ⟨by norm_num, by norm_num⟩
  · intro hc
    have hc := (hc 0).2
    change R.fl (R.fl (1 * R.fl (3 / 2 - -2 ^ (q + 2))) + -2 ^ (q + 2)) ≤ 3 / 2 at hc
    rw [one_mul, R.fl_of_isFloat (R.isFloat _)] at hc
    have : (2 : ℝ) ≤ R.fl (R.fl (3 / 2 - -2 ^ (q + 2)) + -2 ^ (q + 2)) := R.le_fl h2 (by linarith)
    linarith

/-! ### The hypotheses can be met -/

/-- There is a rounding to nearest, for every precision. -/
noncomputable def nearestRounding (p : ℕ) (emin : ℤ) (hp : 1 ≤ p) : Rounding p emin where
  fl := roundNearest p emin
  isFloat := roundNearest_isFloat hp
  nearest := roundNearest_nearest hp

/-- The numbers of numpy's `float64` (without a largest one). -/
noncomputable abbrev Double := Fl (nearestRounding 53 (-1074) (by norm_num))

/-- The float `1/2`. -/
noncomputable def half : Double := ⟨1 / 2, 1, -1, by norm_num, by norm_num, by norm_num⟩
/-- The float `1`. -/
noncomputable def oneD : Double := ⟨1, 1, 0, by norm_num, by norm_num, by norm_num⟩

/-- The unit interval of doubles. -/
noncomputable def unitD : Box Double 1 := ⟨fun _ => 0, fun _ => oneD⟩

/-- A PSO run in double precision that meets the hypotheses of `C96_pso_confined`: it returns, whatever the objective and the threshold. -/
example (func : Pop Double 3 1 → Fin 3 → Double) (stop : Option Double) :
    let cfg : PSOCfg Double := { numGen := 5, cognition := half, social := half, weight := half, maxVRate := half }
    let rnd : PSORand Double 3 1 := { pos := fun _ _ => half, vel := fun _ _ => half, repl := fun _ _ _ _ => half }
    (∀ j, unitD.low j ≤ unitD.high j) ∧ (∀ i j, HalfOpenUnit (rnd.pos i j)) ∧ (∀ t k i j, HalfOpenUnit (rnd.repl t k i j)) ∧
      ∃ r, psoRun cfg unitD func stop rnd = .ok r := by
  have hh : HalfOpenUnit half := ⟨by norm_num [half], by norm_num [half]⟩
  have h01 : ∀ j, unitD.low j ≤ unitD.high j := fun _ => by
    change (0 : ℝ) ≤ 1
    norm_num
  refine ⟨h01, fun _ _ => hh, fun _ _ _ _ => hh, ((C14_pso_returns_iff _ unitD func stop _ ?_).1).mpr ⟨by norm_num, by norm_num, by norm_num⟩⟩
  intro j
  change (0 : ℝ) ≤ (nearestRounding 53 (-1074) (by norm_num)).fl ((nearestRounding 53 (-1074) (by norm_num)).fl (1 - 0) * (1 / 2))
  refine Rounding.le_fl _ isFloat_zero (mul_nonneg (Rounding.le_fl _ isFloat_zero (by norm_num)) (by norm_num))

/-- The bookkeeping theorems hold in double precision as well, e.g. C02 and C03. -/
example {cfg : PSOCfg Double} {b : Box Double D} {func : Pop Double P D → Fin P → Double} {stop : Option Double} {rnd : PSORand Double P D}
    {r : PSOResult Double P D} (h : psoRun cfg b func stop rnd = .ok r) (last : ℕ) (hl : LastGen cfg.numGen stop r.bestYHist last) :
    RunningMin r.allResponses last r.retY := (C02_pso_running_minimum h last hl).2.2

/-- `C96_closed_draws_counterexample` applies to double precision. -/
example : ∃ (low high u : Fin 1 → Double), (∀ j, low j < high j) ∧ (∀ j, ClosedUnit (u j)) ∧ ¬ ScalesIntoBox low high u :=
  C96_closed_draws_counterexample (by norm_num) (by norm_num) _

end Mfpml.Props
