import Verif.Lemmas.Overflow
import Verif.Lemmas.OverflowSamplers
import Verif.Lemmas.OverflowPSO

/-!
# Very large design spaces (C180)

`XFl R emax` are the floats of IEEE 754 with `p` bits and largest exponent `emax` (`float64`: `p = 53`, `emin = -1074`, `emax = 1024`), with infinities and `nan`; `R` is any rounding to nearest.
-/

namespace Mfpml.Props

open Mfpml.Rounded Mfpml.EA Mfpml.Sampling Mfpml.Overflow Mfpml.Spec

variable {p : ℕ} {emin emax : ℤ} {R : Rounding p emin} {P D : ℕ}

/-- C180 (PSO), the part that holds.  If bounds of size up to `2 ^ k` and settings of size up to `2 ^ c` satisfy `2 k + 3 c + 4 < emax` (with the default settings: bounds up to `2 ^ 508` for doubles), then a run with
overflowing floats does exactly what the run without overflow does, whatever the objective, and every point it evaluates has finite coordinates between the bounds. -/
theorem C180_pso_partial (hp : 1 ≤ p) (he : emin ≤ 0) {cfg : PSOCfg (Fl R)} {c : ℕ} (hc : CfgUpTo cfg c) {b : Box (Fl R) D} (hb : ∀ j, b.low j ≤ b.high j) {k : ℕ} (hk : BoundsUpTo b k)
    (hov : 2 * (k : ℤ) + 3 * c + 4 < emax) (func : Pop (XFl R emax) P D → Fin P → Fl R) (stop : Option (Fl R)) {rnd : PSORand (Fl R) P D} (hpos : ∀ i j, HalfOpenUnit (rnd.pos i j))
    (hvel : ∀ i j, HalfOpenUnit (rnd.vel i j)) (hrepl : ∀ t k i j, HalfOpenUnit (rnd.repl t k i j)) :
    psoRunX (numPSOCfg emax cfg) (numBox emax b) func stop (numPSORand emax rnd) =
      (psoRun cfg b (fun X => func (numPop emax X)) stop rnd).map (fun r => numResult emax r.toResult) ∧
    ∀ r, psoRunX (numPSOCfg emax cfg) (numBox emax b) func stop (numPSORand emax rnd) = .ok r → ∀ q ∈ r.calls, ∀ i, FiniteInBox b (q i) := by
  rcases P with _ | P
  · exact ⟨rfl, fun r hr => by cases hr⟩
  by_cases hD : D = 0
  · unfold psoRunX psoRun
    dsimp only
    rw [if_pos hD, if_pos hD]
    exact ⟨rfl, fun r hr => by cases hr⟩
  obtain ⟨i1, i2⟩ := psoInit_num hp he hc hb hk (by omega) func hpos hvel
  have hv : ∀ j, 0 ≤ vMax cfg b j := vMax_nonneg hc.rate_nonneg hb
  unfold psoRunX psoRun
  dsimp only
  rw [if_neg hD, if_neg hD, if_pos hv]
  cases hg : cfg.numGen with
  | zero =>
    have hg' : (numPSOCfg emax cfg).numGen = 0 := hg
    rw [hg']
    exact ⟨rfl, fun r hr => by cases hr⟩
  | succ g =>
    have hg' : (numPSOCfg emax cfg).numGen = g + 1 := hg
    rw [hg']
    obtain ⟨l1, t, l2⟩ := psoLoop_num hp he hc hb hk hov func hrepl stop g 0 _ i2
    dsimp only
    rw [i1, l1]
    refine ⟨rfl, fun r hr => ?_⟩
    cases hr
    intro q hq i j
    obtain ⟨y, hy, rfl⟩ := List.mem_map.mp hq
    exact ⟨y i j, rfl, l2.calls y hy i j⟩

/-- C180 (DE), the part that holds: bounds of size up to `2 ^ k` and a step size of size up to `2 ^ c` with `k + c + 2 < emax`. -/
theorem C180_de_partial (hp : 1 ≤ p) (he : emin ≤ 0) {cfg : DECfg (Fl R)} {c : ℕ} (hc : |cfg.stepSize.val| ≤ 2 ^ c) {b : Box (Fl R) D} (hb : ∀ j, b.low j ≤ b.high j) {k : ℕ} (hk : BoundsUpTo b k)
    (hov : (k : ℤ) + c + 2 < emax) (func : Pop (XFl R emax) P D → Fin P → Fl R) (stop : Option (Fl R)) {rnd : DERand (Fl R) P D} (hpos : ∀ i j, HalfOpenUnit (rnd.pos i j))
    (hrepl : ∀ t k i j, HalfOpenUnit (rnd.repl t k i j)) :
    deRunX (numDECfg emax cfg) (numBox emax b) func stop (numDERand emax rnd) = (deRun cfg b (fun X => func (numPop emax X)) stop rnd).map (numResult emax) ∧
    ∀ r, deRunX (numDECfg emax cfg) (numBox emax b) func stop (numDERand emax rnd) = .ok r → ∀ q ∈ r.calls, ∀ i, FiniteInBox b (q i) := by
  rcases P with _ | P
  · exact ⟨rfl, fun r hr => by cases hr⟩
  by_cases hD : D = 0
  · unfold deRunX deRun
    dsimp only
    rw [if_pos hD, if_pos hD]
    exact ⟨rfl, fun r hr => by cases hr⟩
  obtain ⟨i1, i2⟩ := deInit_num hp he hb hk (by omega) func hpos
  unfold deRunX deRun
  dsimp only
  rw [if_neg hD, if_neg hD]
  cases hg : cfg.numGen with
  | zero =>
    have hg' : (numDECfg emax cfg).numGen = 0 := hg
    rw [hg']
    exact ⟨rfl, fun r hr => by cases hr⟩
  | succ g =>
    have hg' : (numDECfg emax cfg).numGen = g + 1 := hg
    rw [hg']
    obtain ⟨l1, l2⟩ := deLoop_num hp he hc hb hk hov func hrepl stop g 0 _ i2
    dsimp only
    rw [i1, l1]
    cases hl : deLoop cfg b (fun X => func (numPop emax X)) rnd stop g 0 (deInit b (fun X => func (numPop emax X)) rnd) with
    | error e => exact ⟨rfl, fun r hr => by cases hr⟩
    | ok s =>
      obtain ⟨t, ht⟩ := l2 s hl
      refine ⟨rfl, fun r hr => ?_⟩
      cases hr
      intro q hq i j
      obtain ⟨y, hy, rfl⟩ := List.mem_map.mp hq
      exact ⟨y i j, rfl, ht.calls y hy i j⟩

/-- C180 (samplers), the part that holds: for bounds of size up to `2 ^ k` with `k + 1 < emax` all samples have finite coordinates between the bounds. -/
theorem C180_samplers_partial (hp : 1 ≤ p) (he : emin ≤ 0) (E : Env (XFl R emax) D) (hQ : E.DrawsIn fun u => ∃ a : Fl R, u = .num a ∧ HalfOpenUnit a) {b : Box (Fl R) D} (hb : ∀ j, b.low j ≤ b.high j)
    {k : ℕ} (hk : BoundsUpTo b k) (hov : (k : ℤ) + 1 < emax) (n : ℕ) (s : E.S) :
    (∀ seed, ∀ x ∈ (lhsSamples E (numBox emax b) n seed s).1, FiniteInBox b x) ∧ (∀ seed, ∀ x ∈ (randomSamples E (numBox emax b) n seed s).1, FiniteInBox b x) ∧
      ∀ numSkip seed xs s', sobolSamples E (numBox emax b) numSkip n seed s = .ok (xs, s') → ∀ x ∈ xs, FiniteInBox b x := by
  refine samples_satisfy E hQ _ (fun u hu j => ?_) n s
  obtain ⟨a, ha, hua⟩ := hu j
  have hw := upto_width hp he hk j
  have hm := Upto.mul hp he (upto_unit hua) hw
  have hc : ∀ a c : Fl R, a + c = c + a := fun a c => congrArg (Fl.ofReal R) (add_comm _ _)
  have hx : b.low j ≤ b.low j + a * (b.high j - b.low j) ∧ b.low j + a * (b.high j - b.low j) ≤ b.high j := by
    rw [hc]
    exact scale_float R hp (b.low j).isFloat (b.high j).isFloat (hb j) a.isFloat hua.1 hua.2
  refine ⟨b.low j + a * (b.high j - b.low j), ?_, hx⟩
  show (XFl.num (b.low j) : XFl R emax) + u j * (XFl.num (b.high j) - XFl.num (b.low j)) = _
  rw [ha, num_sub hw (emax := emax) (by push_cast; omega), num_mul hm (emax := emax) (by push_cast; omega)]
  exact num_add (emax := emax) (upto_of_mem hk hx.1 hx.2) (by omega)

/-- C180, counterexample.  If the width of the design space in some variable is not a float, then no sample of the samplers and no initial point of the optimisers has a finite coordinate there. -/
theorem C180_wide_counterexample (b : Box (Fl R) D) (j : Fin D) (hw : 2 ^ emax ≤ (b.high j - b.low j).val) :
    (∀ (u : Pop (Fl R) P D), (∀ i j, HalfOpenUnit (u i j)) → ∀ i, ∀ a : Fl R, locInit (numBox emax b) (numPop emax u) i j ≠ .num a) ∧
    ∀ (E : Env (XFl R emax) D), (E.DrawsIn fun u => ∃ a : Fl R, u = .num a ∧ HalfOpenUnit a) → ∀ (n : ℕ) (s : E.S),
      (∀ seed, ∀ x ∈ (lhsSamples E (numBox emax b) n seed s).1, ∀ a : Fl R, x j ≠ .num a) ∧ (∀ seed, ∀ x ∈ (randomSamples E (numBox emax b) n seed s).1, ∀ a : Fl R, x j ≠ .num a) ∧
        ∀ numSkip seed xs s', sobolSamples E (numBox emax b) numSkip n seed s = .ok (xs, s') → ∀ x ∈ xs, ∀ a : Fl R, x j ≠ .num a := by
  have hpos : (0 : ℝ) < (b.high j - b.low j).val := lt_of_lt_of_le (zpow_pos (by norm_num) _) hw
  have hsub : (XFl.num (b.high j) - XFl.num (b.low j) : XFl R emax) = .inf false := by
    show XFl.ofFl _ = _
    unfold XFl.ofFl
    rw [if_neg (not_lt.mpr (le_trans hw (le_abs_self _)))]
    simp [hpos.le]
  have hmul : ∀ a : Fl R, HalfOpenUnit a → (XFl.num a * XFl.inf false : XFl R emax) = .nan ∨ (XFl.num a * XFl.inf false : XFl R emax) = .inf false := by
    intro a ha
    show (if a.val = 0 then XFl.nan else XFl.inf (decide (a.val < 0) != false)) = _ ∨ (if a.val = 0 then XFl.nan else XFl.inf (decide (a.val < 0) != false)) = _
    by_cases h0 : a.val = 0
    · exact Or.inl (if_pos h0)
    · refine Or.inr ?_
      rw [if_neg h0]
      simp [not_lt.mpr ha.1]
  refine ⟨fun u hu i a h => ?_, fun E hQ n s => samples_satisfy E hQ _ (T := fun x => ∀ a : Fl R, x j ≠ .num a) (fun u hu a h => ?_) n s⟩
  · have h : (XFl.num (u i j) : XFl R emax) * (XFl.num (b.high j) - XFl.num (b.low j)) + XFl.num (b.low j) = .num a := h
    rw [hsub] at h
    rcases hmul _ (hu i j) with h' | h' <;> rw [h'] at h <;> cases h
  · obtain ⟨c, hc, hcu⟩ := hu j
    have h : (XFl.num (b.low j) : XFl R emax) + u j * (XFl.num (b.high j) - XFl.num (b.low j)) = .num a := h
    rw [hsub, hc] at h
    rcases hmul _ hcu with h' | h' <;> rw [h'] at h <;> cases h

/-- C180, counterexample (PSO with its default settings).  In the design space `[-2 ^ k, 2 ^ k]` with `2 k ≥ emax + 1` (for doubles: from `2.7e154` on, although the width is a float by far) there are draws for which PSO
calls every objective with `nan` as a coordinate. -/
theorem C180_pso_counterexample (hp : 4 ≤ p) (he : emin ≤ -3) {k : ℕ} (hk1 : emax + 1 ≤ 2 * k) (hk2 : (k : ℤ) + 5 < emax) :
    ∃ rnd : PSORand (Fl R) 2 1, (∀ i j, HalfOpenUnit (rnd.pos i j)) ∧ (∀ i j, HalfOpenUnit (rnd.vel i j)) ∧ (∀ t k i j, HalfOpenUnit (rnd.repl t k i j)) ∧
      ∀ func : Pop (XFl R emax) 2 1 → Fin 2 → Fl R,
        ∃ r, psoRunX (numPSOCfg emax { numGen := 2, cognition := Fl.ofReal R 1.5, social := Fl.ofReal R 1.5, weight := Fl.ofReal R 0.8, maxVRate := Fl.ofReal R 0.2 })
            (numBox emax { low := fun _ => Fl.ofReal R (-2 ^ k), high := fun _ => Fl.ofReal R (2 ^ k) }) func none (numPSORand emax rnd) = .ok r ∧
          ∃ q ∈ r.calls, ∃ i, q i 0 = .nan := by
  have hk : 6 ≤ k := by omega
  have hf34 : IsFloat p emin (3 / 4) := by
    have := isFloat_int (emin := emin) hp (m := 3) (by norm_num) (e := -2) (by omega)
    norm_num at this ⊢; exact this
  have h34 : (Fl.ofReal R (3 / 4)).val = 3 / 4 := ofReal_val hf34
  have hpos : ∀ i j, HalfOpenUnit ((someDraws R).pos i j) := by
    intro i j
    show HalfOpenUnit (if i = 0 then 0 else Fl.ofReal R (3 / 4))
    split
    · exact ⟨le_refl _, zero_lt_one⟩
    · unfold HalfOpenUnit; rw [h34]; norm_num
  refine ⟨someDraws R, hpos, fun _ _ => ⟨le_refl _, zero_lt_one⟩, fun _ _ _ _ => ⟨le_refl _, zero_lt_one⟩, fun func => ?_⟩
  have hb := sym_le (R := R) hp (by omega) k
  have hbd := sym_bounds (R := R) hp (by omega) k
  obtain ⟨i1, i2⟩ := psoInit_num (emax := emax) (by omega) (by omega) (defaults_upTo (R := R) hp he) hb hbd (by push_cast; omega) func hpos (rnd := someDraws R) (fun _ _ => ⟨le_refl _, zero_lt_one⟩)
  set s0 := psoInit (defaults R) (symBox R k) (fun X => func (numPop emax X)) (someDraws R) with hs0
  -- the two starting points
  have hf0 : R.fl 0 = 0 := R.fl_of_isFloat isFloat_zero
  have hw := width_val (R := R) hp (by omega) k
  have h2k : (2 : ℝ) ^ (k + 1) = 4 * 2 ^ (k - 1) ∧ (2 : ℝ) ^ k = 2 * 2 ^ (k - 1) := by
    obtain ⟨m, rfl⟩ := Nat.exists_eq_add_of_le (show 1 ≤ k by omega)
    rw [show 1 + m - 1 = m from by omega]
    constructor <;> ring
  have hx0 : (s0.x 0 0).val = -2 ^ k := by
    show R.fl (R.fl ((0 : ℝ) * ((symBox R k).high 0 - (symBox R k).low 0).val) + (Fl.ofReal R (-2 ^ k)).val) = _
    rw [zero_mul, hf0, zero_add, low_val hp (by omega)]
    exact R.fl_of_isFloat (isFloat_two_pow (by omega) (by omega) k).neg
  have hx1 : (s0.x 1 0).val = 2 ^ (k - 1) := by
    show R.fl (R.fl ((Fl.ofReal R (3 / 4)).val * ((symBox R k).high 0 - (symBox R k).low 0).val) + (Fl.ofReal R (-2 ^ k)).val) = _
    have h3 : IsFloat p emin (3 * 2 ^ (k - 1)) := by simpa using isFloat_nat (emin := emin) hp (by omega) (m := 3) (by norm_num) (k - 1)
    rw [h34, hw, low_val hp (by omega), h2k.1, h2k.2, show (3 / 4 : ℝ) * (4 * 2 ^ (k - 1)) = 3 * 2 ^ (k - 1) from by ring, R.fl_of_isFloat h3,
      show (3 : ℝ) * 2 ^ (k - 1) + -(2 * 2 ^ (k - 1)) = 2 ^ (k - 1) from by ring]
    exact R.fl_of_isFloat (isFloat_two_pow (by omega) (by omega) _)
  have hdist : ∀ a i : Fin 2, a ≠ i → |(s0.x a 0).val - (s0.x i 0).val| = 3 * 2 ^ (k - 1) := by
    have hpw : (0 : ℝ) < 2 ^ (k - 1) := by positivity
    intro a i hai
    fin_cases a <;> fin_cases i
    · exact absurd rfl hai
    · show |(s0.x 0 0).val - (s0.x 1 0).val| = _
      rw [hx0, hx1, h2k.2, abs_of_neg (by linarith)]; ring
    · show |(s0.x 1 0).val - (s0.x 0 0).val| = _
      rw [hx0, hx1, h2k.2, abs_of_pos (by linarith)]; ring
    · exact absurd rfl hai
  have hux : ∀ i, Upto (s0.x i 0) k := fun i => upto_of_mem hbd (i2.x i 0).1 (i2.x i 0).2
  have hv0 : ∀ i, s0.v i 0 = 0 := by
    intro i
    exact Fl.val_injective (show R.fl ((0 : ℝ) * _) = 0 by rw [zero_mul, hf0])
  -- the best individual `a` and the other one
  set a := argmin s0.obj with ha
  have hg0 : s0.genBestXs 0 0 = s0.x a 0 := rfl
  obtain ⟨i, hi⟩ : ∃ i : Fin 2, a ≠ i := by
    by_cases h : a = 0
    · exact ⟨1, by rw [h]; decide⟩
    · exact ⟨0, h⟩
  have hother : ∀ i' : Fin 2, i' = a ∨ i' = i := by
    intro i'
    revert hi
    generalize a = a'
    revert a' i i'
    decide
  -- first generation
  set S0 := numState emax s0 with hS0
  obtain ⟨⟨σ, hvi⟩, xi, hxi, huxi⟩ := first_move (R := R) (emax := emax) (k := k) hp he (by omega) (by omega) hk2 (s := S0) (i := i) (t := 0) (x := s0.x i 0) (g := s0.x a 0) rfl rfl
    (by show XFl.num (s0.v i 0) = _; rw [hv0]) rfl (hdist a i hi)
  obtain ⟨xa, hxa, huxa⟩ := rest_move (R := R) (emax := emax) (k := k) hp he (by omega) hk2 (s := S0) (i := a) (t := 0) (x := s0.x a 0) rfl rfl (by show XFl.num (s0.v a 0) = _; rw [hv0]) rfl (hux a)
  set S1 := psoUpdatePopX (runCfg R emax) (runBox R emax k) (runRnd R emax) 0 S0 with hS1
  have hfin : ∀ i', ∃ y : Fl R, S1.x i' 0 = .num y ∧ Upto y k := by
    intro i'
    rcases hother i' with rfl | rfl
    · exact ⟨xa, hxa, huxa⟩
    · exact ⟨xi, hxi, huxi⟩
  set T1 := psoUpdateObjX func 0 S1 with hT1
  have hpb : ∃ y : Fl R, T1.popBestX i 0 = .num y ∧ Upto y k := by
    show ∃ y : Fl R, (if func S1.x i ≤ S1.popBest i then S1.x i else S1.popBestX i) 0 = .num y ∧ Upto y k
    split
    · exact hfin i
    · exact ⟨s0.x i 0, rfl, hux i⟩
  have hgb : ∃ y : Fl R, T1.genBestXs 1 0 = .num y ∧ Upto y k := by
    show ∃ y : Fl R, (updateGenOptimumX 0 S1.genBest S1.genBestXs S1.x (func S1.x)).2 1 0 = .num y ∧ Upto y k
    unfold updateGenOptimumX
    split
    · simpa using hfin _
    · simpa using ⟨s0.x a 0, rfl, hux a⟩
  obtain ⟨y, hy, huy⟩ := hpb
  obtain ⟨g, hg, hug⟩ := hgb
  -- second generation
  have hnan := second_move (R := R) (emax := emax) (k := k) hp he (by omega) hk2 (s := T1) (i := i) (t := 1) (σ := σ) hxi hy hvi hg huxi huy hug
  have hinit : psoInitX (runCfg R emax) (runBox R emax k) func (runRnd R emax) = S0 := i1
  refine ⟨_, rfl, (psoUpdatePopX (runCfg R emax) (runBox R emax k) (runRnd R emax) 1 T1).x, ?_, i, hnan⟩
  show _ ∈ (psoLoopX (runCfg R emax) (runBox R emax k) func (runRnd R emax) none 1 0 (psoInitX (runCfg R emax) (runBox R emax k) func (runRnd R emax))).1.calls
  rw [hinit]
  show _ ∈ T1.calls ++ [(psoUpdatePopX (runCfg R emax) (runBox R emax k) (runRnd R emax) 1 T1).x]
  simp

/-- The hypotheses are met by doubles: default settings, bounds up to `2 ^ 508`. -/
example (R : Rounding 53 (-1074)) : CfgUpTo (R := R) { numGen := 100, cognition := Fl.ofReal R 1.5, social := Fl.ofReal R 1.5, weight := Fl.ofReal R 0.8, maxVRate := Fl.ofReal R 0.2 } 1 ∧
    BoundsUpTo (symBox R 508) 508 ∧ 2 * ((508 : ℕ) : ℤ) + 3 * ((1 : ℕ) : ℤ) + 4 < 1024 :=
  have h := defaults_upTo (R := R) (by norm_num) (by norm_num)
  ⟨⟨h.weight, h.cognition, h.social, h.rate, h.rate_nonneg⟩, sym_bounds (by norm_num) (by norm_num) 508, by norm_num⟩

/-- Doubles also meet those of the counterexamples: `[-2 ^ 513, 2 ^ 513]` is a design space with a `nan` among the evaluated points, and the width of `[-2 ^ 1023, 2 ^ 1023]` overflows. -/
example (R : Rounding 53 (-1074)) : (1024 : ℤ) + 1 ≤ 2 * ((513 : ℕ) : ℤ) ∧ ((513 : ℕ) : ℤ) + 5 < 1024 ∧ (2 : ℝ) ^ (1024 : ℤ) ≤ ((symBox R 1023).high 0 - (symBox R 1023).low 0).val := by
  refine ⟨by norm_num, by norm_num, ?_⟩
  rw [width_val (by norm_num) (by norm_num) 1023 0, ← zpow_natCast]
  exact le_of_eq rfl

end Mfpml.Props
