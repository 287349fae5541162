import Verif.Spec.ConsIncumbent
import Verif.Lemmas.TradeOff
import Verif.Props.ResamplingExample

/-!
# C157: what the constrained optimiser looks for

`CEI` compares with the smallest of *all* observed objective values, those of infeasible designs included.

Vocabulary: `Verif/Spec/ConsIncumbent.lean`.
-/

namespace Mfpml.Props

open Mfpml Mfpml.Acq Mfpml.GP Mfpml.Spec Mfpml.BO
open Mfpml.EA (Box)

variable {d : ℕ}

theorem view_nonneg {k : Kriging d} {v : SFSurr d} (h : k.view = .ok v) : SFNonneg v := by
  unfold Kriging.view at h
  split at h
  · cases h; exact ofGP_nonneg _ _
  · cases h

theorem mapM_view_nonneg : ∀ {ks : List (Kriging d)} {cs : List (SFSurr d)}, ks.mapM Kriging.view = .ok cs → ∀ s ∈ cs, SFNonneg s
  | [], cs, h => by
    rw [List.mapM_nil] at h
    cases h
    simp
  | k :: ks, cs, h => by
    rw [List.mapM_cons] at h
    obtain ⟨v, hv, h⟩ := Py.bind_ok.mp h
    obtain ⟨vs, hvs, h⟩ := Py.bind_ok.mp h
    cases h
    intro s hs
    rcases List.mem_cons.mp hs with rfl | hs
    · exact view_nonneg hv
    · exact mapM_view_nonneg hvs s hs

/-- The expected improvement grows by at most the difference of the incumbents. -/
theorem expectedImprovement_incumbent {a b : ℝ} (h : a ≤ b) (μ σ : ℝ) : expectedImprovement b μ σ ≤ expectedImprovement a μ σ + (b - a) := by
  have hi : MeasureTheory.Integrable (fun z => (b - a) * normPdf z) := normPdf_integrable.const_mul _
  have h1 : ∫ z, (b - a) * normPdf z = b - a := by
    rw [MeasureTheory.integral_const_mul]
    have : ∫ z, normPdf z = 1 := ProbabilityTheory.integral_gaussianPDFReal_eq_one 0 one_ne_zero
    rw [this, mul_one]
  rw [expectedImprovement_eq_integral, expectedImprovement_eq_integral]
  calc _ ≤ ∫ z, (max (a - μ - σ * z) 0 * normPdf z + (b - a) * normPdf z) := by
        refine MeasureTheory.integral_mono (improve_integrable _ _) ((improve_integrable _ _).add hi) fun z => ?_
        have hp := normPdf_pos z
        have : max (b - μ - σ * z) 0 ≤ max (a - μ - σ * z) 0 + (b - a) :=
          max_le (by have := le_max_left (a - μ - σ * z) 0; linarith) (by have := le_max_right (a - μ - σ * z) 0; linarith)
        calc _ ≤ (max (a - μ - σ * z) 0 + (b - a)) * normPdf z := mul_le_mul_of_nonneg_right this hp.le
          _ = _ := by ring
    _ = _ := by rw [MeasureTheory.integral_add (improve_integrable _ _) hi, h1]

/-- C157, what holds. In every reachable state the function that the constrained optimiser minimises is, up to `2e-9`, minus the weighted improvement over the smallest objective value `fmin` observed at *any*
sample. This is never more than the weighted improvement over the reported `best`, and less by at most `best - fmin`; if the smallest value was observed at a feasible sample, `best` is that value. -/
theorem C157_value_partial {c : ℕ} (o : Outside d) (b : Box ℝ d) {f : List (Fin d → ℝ) → Py (List ℝ)} {g : (Fin d → ℝ) → ℝ} (hf : Rowwise f g)
    {fCons : List (Fin d → ℝ) → Py (List (Fin c → ℝ))} {gc : (Fin d → ℝ) → Fin c → ℝ} (hc : Rowwise fCons gc) (optimum : Option ℝ) (opt : Option (PopOpt o.env.S d)) (numInit seed : ℕ)
    {s : ConsState ℝ (Fin d → ℝ) (Kriging d × List (Kriging d)) o.env.S c} (h : ConsReachable (consBO o b f fCons c optimum opt numInit seed) s) :
    ∃ v cs fmin, s.surrogate.1.view = .ok v ∧ s.surrogate.2.mapM Kriging.view = .ok cs ∧ v.bounds = b ∧
      (∃ z ∈ s.sample, g z = fmin) ∧ (∀ z ∈ s.sample, fmin ≤ g z) ∧ ((∃ z ∈ s.sample, g z = fmin ∧ ∀ j, gc z j ≤ 0) → s.best = (fmin : WithTop ℝ)) ∧
      ∀ x, ∃ r u, ceiEval v cs (onePoint x) = .ok r ∧ WeightedImprovement v cs fmin x u ∧ |(-r 0 0) - u| ≤ 2e-9 ∧
        ∀ best : ℝ, s.best = (best : WithTop ℝ) → ∃ u', WeightedImprovement v cs best x u' ∧ u ≤ u' ∧ u' ≤ u + (best - fmin) := by
  obtain ⟨hfit, hl, hfc, ⟨y0, hy0, _⟩, _⟩ := cons_fitted h
  obtain ⟨v, h1, h2, h3, h4, _⟩ := hfit.view
  obtain ⟨cs, hcs, hps⟩ := mapM_view _ 0 hfc
  obtain ⟨e1, e2, e3, e4⟩ := C89_cons_responses o b hf hc optimum opt numInit seed h
  have hne : v.sampleY ≠ [] := by rw [h3]; rintro e; rw [e] at hy0; cases hy0
  obtain ⟨fmin, hm⟩ : ∃ m, npMin v.sampleY = .ok m := by
    cases hv : v.sampleY with
    | nil => exact absurd hv hne
    | cons a l => exact ⟨_, rfl⟩
  have hleast := npMin_isLeast hm
  have hleast' := hleast
  rw [h3, e1] at hleast'
  have hall : ∀ z ∈ s.sample, fmin ≤ g z := fun z hz => hleast'.2 (List.mem_map_of_mem hz)
  refine ⟨v, cs, fmin, h1, hcs, h2, ?_, hall, ?_, fun x => ?_⟩
  · obtain ⟨z, hz, e⟩ := List.mem_map.mp hleast'.1
    exact ⟨z, hz, e⟩
  · rintro ⟨z, hz, e, hg⟩
    refine le_antisymm (e ▸ e4 z hz hg) ?_
    rcases e3 with ⟨x, hx, _, e⟩ | ⟨e, _⟩
    · rw [e]; exact_mod_cast hall x hx
    · rw [e]; exact le_top
  · obtain ⟨r, hr⟩ : ∃ r, ceiEval v cs (onePoint x) = .ok r := by
      obtain ⟨mean, std, hp⟩ := h4 1 (onePoint x)
      have hpof : ∀ l : List (SFSurr d), (∀ v ∈ l, ∀ m X, ∃ μ σ, v.predict m X = .ok (μ, σ)) → ∃ ps, pofColumns (onePoint x) l = .ok ps := by
        intro l
        induction l with
        | nil => intro _; exact ⟨[], rfl⟩
        | cons a l ih =>
          intro hl
          obtain ⟨ps, hps⟩ := ih fun v hv => hl v (by simp [hv])
          obtain ⟨μ, σ, ha⟩ := hl a (by simp) 1 (onePoint x)
          refine ⟨(μ, σ) :: ps, Py.bind_ok.mpr ⟨_, ha, ?_⟩⟩
          rw [if_pos rfl]
          exact Py.bind_ok.mpr ⟨_, hps, rfl⟩
      obtain ⟨ps, hps⟩ := hpof cs hps
      exact ⟨_, Py.bind_ok.mpr ⟨_, Py.bind_ok.mpr ⟨_, hm, Py.bind_ok.mpr ⟨_, hp, rfl⟩⟩, Py.bind_ok.mpr ⟨_, Py.bind_ok.mpr ⟨_, hps, rfl⟩, rfl⟩⟩⟩
    obtain ⟨fmin', mean, std, ps, ei, pof, hl', hp, hf2, hr0, hei, hpof, hp0, hp1⟩ := C65_cei_partial (view_nonneg h1) (mapM_view_nonneg hcs) hr
    obtain rfl := hl'.unique hleast
    refine ⟨r, _, hr, ⟨mean, std, ps, hp, hf2, rfl⟩, ?_, ?_⟩
    · rw [hr0, neg_neg, ← hpof, ← sub_mul, abs_mul, abs_of_nonneg hp0]
      exact (mul_le_of_le_one_right (abs_nonneg _) hp1).trans hei
    · intro best hbest
      have hle : fmin' ≤ best := by
        rcases e3 with ⟨z, hz, _, e⟩ | ⟨e, _⟩
        · rw [hbest] at e
          rw [WithTop.coe_inj.mp e]
          exact hall z hz
        · rw [hbest] at e
          exact absurd e (WithTop.coe_ne_top)
      refine ⟨_, ⟨mean, std, ps, hp, hf2, rfl⟩, ?_, ?_⟩
      · rw [← hpof]
        exact mul_le_mul_of_nonneg_right (expectedImprovement_mono_diff (by linarith) _) hp0
      · rw [← hpof]
        have h5 := expectedImprovement_incumbent hle (mean 0) (std 0)
        have h6 := mul_le_mul_of_nonneg_right h5 hp0
        have h7 : (best - fmin') * pof ≤ best - fmin' := mul_le_of_le_one_right (by linarith) hp1
        linarith

theorem predicted_unique {x : Fin d → ℝ} {cs : List (SFSurr d)} {ps : List ((Fin 1 → ℝ) × (Fin 1 → ℝ))} (h : List.Forall₂ (fun (s : SFSurr d) p => s.predict 1 (onePoint x) = .ok p) cs ps) :
    ∀ {ps' : List ((Fin 1 → ℝ) × (Fin 1 → ℝ))}, List.Forall₂ (fun (s : SFSurr d) p => s.predict 1 (onePoint x) = .ok p) cs ps' → ps = ps' := by
  induction h with
  | nil => intro ps' h'; cases h'; rfl
  | cons p1 _ ih =>
    intro ps' h'
    cases h' with
    | cons q1 q2 => exact congrArg₂ _ (Except.ok.inj (p1.symm.trans q1)) (ih q2)

/-- C157 (proposals), what holds. With a search that comes within `ε` of the minimum, no design of the domain has a weighted improvement over the reported `best` that exceeds that of the proposed design by more than
`best - fmin + ε + 4e-9`, where `fmin` is the smallest objective value observed at any sample. If that value was observed at a feasible sample, `best - fmin = 0`. -/
theorem C157_proposal_partial {c : ℕ} (o : Outside d) {ε : ℝ} (hde : ApproxSearch ε o.de) (b : Box ℝ d) {f : List (Fin d → ℝ) → Py (List ℝ)} {g : (Fin d → ℝ) → ℝ} (hf : Rowwise f g)
    {fCons : List (Fin d → ℝ) → Py (List (Fin c → ℝ))} {gc : (Fin d → ℝ) → Fin c → ℝ} (hc : Rowwise fCons gc) (optimum : Option ℝ) (numInit seed : ℕ)
    {s : ConsState ℝ (Fin d → ℝ) (Kriging d × List (Kriging d)) o.env.S c} (h : ConsReachable (consBO o b f fCons c optimum none numInit seed) s) {best : ℝ} (hbest : s.best = (best : WithTop ℝ))
    {x : Fin d → ℝ} {w : o.env.S} (hq : (consBO o b f fCons c optimum none numInit seed).query s.surrogate s.rng = .ok (x, w)) :
    ∃ v cs fmin u, s.surrogate.1.view = .ok v ∧ s.surrogate.2.mapM Kriging.view = .ok cs ∧ (∃ z ∈ s.sample, g z = fmin) ∧ (∀ z ∈ s.sample, fmin ≤ g z) ∧
      ((∃ z ∈ s.sample, g z = fmin ∧ ∀ j, gc z j ≤ 0) → best = fmin) ∧ InBounds b x ∧ WeightedImprovement v cs best x u ∧
      ∀ x' u', InBounds b x' → WeightedImprovement v cs best x' u' → u' ≤ u + (best - fmin) + ε + 4e-9 := by
  obtain ⟨v, cs, fmin, h1, h2, h3, h4, h5, h6, h7⟩ := C157_value_partial o b hf hc optimum none numInit seed h
  obtain ⟨v', hv', hq⟩ := Py.bind_ok.mp hq
  obtain rfl := Except.ok.inj (h1.symm.trans hv')
  obtain ⟨cs', hcs', hq⟩ := Py.bind_ok.mp hq
  obtain rfl := Except.ok.inj (h2.symm.trans hcs')
  obtain ⟨hin, m, hm, hopt⟩ := (C61_default_partial hde v cs (fun _ => eiEval)).2 hq
  obtain ⟨r, u, hr, hu, hb, hcmp⟩ := h7 x
  obtain ⟨ub, hub, hle, _⟩ := hcmp best hbest
  rw [hr] at hm
  obtain rfl : r 0 0 = m := Except.ok.inj hm
  refine ⟨v, cs, fmin, ub, h1, h2, h4, h5, ?_, h3 ▸ hin, hub, ?_⟩
  · intro hz
    exact WithTop.coe_inj.mp (hbest.symm.trans (h6 hz))
  · intro x' u' hx' hu'
    obtain ⟨r', w', hr', hw', hb', hcmp'⟩ := h7 x'
    obtain ⟨ub', hub', _, hle'⟩ := hcmp' best hbest
    have huniq : u' = ub' := by
      obtain ⟨μ, σ, ps, a1, a2, rfl⟩ := hu'
      obtain ⟨μ', σ', ps', b1, b2, rfl⟩ := hub'
      obtain ⟨rfl, rfl⟩ := Prod.mk.inj (Except.ok.inj (a1.symm.trans b1))
      have : ps = ps' := predicted_unique a2 b2
      rw [this]
    have h8 := hopt x' (r' 0 0) (by rw [h3]; exact hx') (by rw [hr']; rfl)
    have h9 := (abs_le.mp hb).2
    have h10 := (abs_le.mp hb').1
    rw [huniq]
    norm_num at h9 h10 ⊢
    linarith

/-- C157 is false, in general: where the model is certain of an objective value between the smallest observed one and the best feasible one, `CEI` sees no improvement, however large the improvement over the best
feasible value is. -/
theorem C157_blind_counterexample {obj : SFSurr d} {cons : List (SFSurr d)} (hc : ∀ s ∈ cons, SFNonneg s) {x : Fin d → ℝ} {mean : Fin 1 → ℝ} (hp : obj.predict 1 (onePoint x) = .ok (mean, fun _ => 0))
    {fmin : ℝ} (hmin : IsLeast {y | y ∈ obj.sampleY} fmin) (hle : fmin ≤ mean 0) {r : Fin 1 → Fin 1 → ℝ} (hr : ceiEval obj cons (onePoint x) = .ok r) : 0 ≤ r 0 0 := by
  unfold ceiEval at hr
  obtain ⟨ei, he, hr⟩ := Py.bind_ok.mp hr
  obtain ⟨pof, hpf, hr⟩ := Py.bind_ok.mp hr
  cases hr
  obtain ⟨fm, hm, he⟩ := Py.bind_ok.mp he
  obtain rfl := (npMin_isLeast hm).unique hmin
  obtain ⟨q, hq, he⟩ := Py.bind_ok.mp he
  obtain rfl := Except.ok.inj (hp.symm.trans hq)
  cases he
  obtain ⟨ps, _, hpf⟩ := Py.bind_ok.mp hpf
  cases hpf
  have h1 : eiFormula fm (mean 0) 0 ≤ 0 := by
    unfold eiFormula
    rw [zero_mul, add_zero]
    exact mul_nonpos_of_nonpos_of_nonneg (by linarith) (normCdf_nonneg _)
  have h2 : 0 ≤ (ps.map fun p => normCdf (0 - p.1 0 / (p.2 0 + tiny9))).prod := by
    apply List.prod_nonneg
    intro a ha
    obtain ⟨p, _, rfl⟩ := List.mem_map.mp ha
    exact normCdf_nonneg _
  show 0 ≤ -eiFormula fm (mean 0) 0 * _
  exact mul_nonneg (by linarith) h2

theorem expectedImprovement_certain {best μ : ℝ} (h : μ ≤ best) : expectedImprovement best μ 0 = best - μ := by
  rw [expectedImprovement_eq_integral]
  have : ∀ z, max (best - μ - 0 * z) 0 * normPdf z = (best - μ) * normPdf z := by
    intro z
    rw [zero_mul, sub_zero, max_eq_left (by linarith)]
  simp only [this]
  rw [MeasureTheory.integral_const_mul, show ∫ z, normPdf z = 1 from ProbabilityTheory.integral_gaussianPDFReal_eq_one 0 one_ne_zero, mul_one]

/-- A numerical example of `C157_blind_counterexample`: the smallest of all observed values is 0, the best feasible one 10; the model is certain of the objective value 5 and that the constraint is just met. The
improvement over 10 is 5, with probability 1/2, and `CEI` returns a value that is not negative: it sees no improvement. -/
example : ∃ r u, ceiEval { constSurr 0 5 0 with sampleY := [0, 10] } [constSurr 0 0 0] (onePoint fun _ => 0) = .ok r ∧ 0 ≤ r 0 0 ∧
    WeightedImprovement { constSurr 0 5 0 with sampleY := [0, 10] } [constSurr 0 0 0] 10 (fun _ => 0) u ∧ u = 5 / 2 := by
  have hr : ceiEval { constSurr 0 5 0 with sampleY := [0, 10] } [constSurr 0 0 0] (onePoint fun _ => 0) =
      .ok (fun _ _ => -eiFormula (min 0 10) 5 0 * ([normCdf (0 - 0 / (0 + tiny9))].prod)) := rfl
  refine ⟨_, _, hr, ?_, ⟨_, _, _, rfl, .cons rfl .nil, rfl⟩, ?_⟩
  · refine C157_blind_counterexample (fmin := 0) ?_ rfl ?_ (by norm_num) hr
    · intro s hs
      rw [List.mem_singleton.mp hs]
      exact constSurr_nonneg _ _ le_rfl
    · constructor
      · simp
      · intro y hy
        simp only [List.mem_cons, List.not_mem_nil, or_false, Set.mem_setOf_eq] at hy
        rcases hy with rfl | rfl <;> norm_num
  · rw [expectedImprovement_certain (by norm_num)]
    simp only [List.map_cons, List.map_nil, List.prod_cons, List.prod_nil, mul_one]
    rw [probAtMost_eq _ _ (by norm_num)]
    norm_num [normCdf_zero]

theorem normCdf_tenth : 9 / 20 ≤ normCdf (-(1 / 10)) := by
  obtain ⟨t, _, ht⟩ := exists_hasDerivAt_eq_slope normCdf normPdf (by norm_num : (-(1 / 10) : ℝ) < 0) normCdf_continuous.continuousOn fun t _ => normCdf_hasDerivAt t
  have h := normPdf_le_half t
  rw [ht, normCdf_zero, div_le_iff₀ (by norm_num)] at h
  linarith

/-- C157 is false of reachable states: objective `1000 x` and constraint `1e-10 - x ≤ 0` on the unit interval, samples 0 (infeasible) and 1/2. `best` is 500. At 0 the model is certain of the objective value 0, and
feasibility has probability at least 9/20: the weighted improvement is at least 225. `CEI` is 0 there. (Also the search is exact and the query succeeds, so that the hypotheses of `C157_proposal_partial` are met.) -/
theorem C157_counterexample : ApproxSearch 0 edgeOutside.de ∧ ∃ s, ConsReachable (consBO edgeOutside exInterval (fun xs => .ok (xs.map fun x => 1000 * x 0)) (fun xs => .ok (xs.map fun x (_ : Fin 1) => 1e-10 - x 0)) 1 none none 2 1996) s ∧
    s.best = ((500 : ℝ) : WithTop ℝ) ∧ (∃ x w, (consBO edgeOutside exInterval (fun xs => .ok (xs.map fun x => 1000 * x 0)) (fun xs => .ok (xs.map fun x (_ : Fin 1) => 1e-10 - x 0)) 1 none none 2 1996).query s.surrogate s.rng = .ok (x, w)) ∧ ∃ v cs r u, s.surrogate.1.view = .ok v ∧ s.surrogate.2.mapM Kriging.view = .ok cs ∧
      ceiEval v cs (onePoint fun _ => 0) = .ok r ∧ r 0 0 = 0 ∧ WeightedImprovement v cs 500 (fun _ => 0) u ∧ 225 ≤ u := by
  have hxs : (Sampling.lhsSamples edgeOutside.env exInterval 2 (some 1996) (edgeOutside.env.seed 1996 (0 : ℕ))).1 = [fun _ => 0, fun _ => 1 / 2] := by
    simp only [Sampling.lhsSamples, Sampling.scaleSamples, edgeOutside, edgeEnv, List.range_succ, List.range_zero, List.nil_append, List.map_append, List.map_cons, List.map_nil, exInterval, List.cons_append]
    congr 1
    · funext j; norm_num [Sampling.scalePt]
    · congr 1; funext j; norm_num [Sampling.scalePt]
  have m0 : (fun _ => 0 : Fin 1 → ℝ) ∈ [(fun _ => 0 : Fin 1 → ℝ), fun _ => 1 / 2] := by simp
  have m1 : (fun _ => 1 / 2 : Fin 1 → ℝ) ∈ [(fun _ => 0 : Fin 1 → ℝ), fun _ => 1 / 2] := by simp
  have hxs' : (Sampling.lhsSamples edgeEnv.env exInterval 2 (some 1996) (edgeEnv.env.seed 1996 (0 : ℕ))).1 = [fun _ => 0, fun _ => 1 / 2] := hxs
  obtain ⟨s, hs⟩ := ((C89_cons_succeeds edgeEnv edgeEnv_lawful one_pos exInterval (fun _ => by simp [exInterval]) (f := fun xs => .ok (xs.map fun x => 1000 * x 0)) (g := fun x => 1000 * x 0)
    (fun _ => rfl) (fCons := fun xs => .ok (xs.map fun x (_ : Fin 1) => 1e-10 - x 0)) (gc := fun x _ => 1e-10 - x 0) (fun _ => rfl) none 2 1996).1 (0 : ℕ)).mpr
      (by rw [hxs']; exact ⟨⟨_, m0, _, m1, by norm_num⟩, fun _ => ⟨_, m0, _, m1, by norm_num⟩⟩)
  have hreach : ConsReachable (consBO edgeOutside exInterval (fun xs => .ok (xs.map fun x => 1000 * x 0)) (fun xs => .ok (xs.map fun x (_ : Fin 1) => 1e-10 - x 0)) 1 none none 2 1996) s := .new (0 : ℕ) hs
  have hx : s.sample = [fun _ => 0, fun _ => 1 / 2] := by
    obtain ⟨w1, h1, _⟩ := cons_new_steps hs
    have := (Prod.mk.inj (Except.ok.inj h1)).1
    rw [← this]
    exact hxs
  obtain ⟨e1, e2, e3, e4⟩ := C89_cons_responses edgeOutside exInterval (f := fun xs => .ok (xs.map fun x => 1000 * x 0)) (g := fun x => 1000 * x 0)
    (fun _ => rfl) (fCons := fun xs => .ok (xs.map fun x (_ : Fin 1) => 1e-10 - x 0)) (gc := fun x _ => 1e-10 - x 0) (fun _ => rfl) none none 2 1996 hreach
  rw [hx] at e1 e2 e3
  have hbest : s.best = ((500 : ℝ) : WithTop ℝ) := by
    rcases e3 with ⟨z, hz, hg, e⟩ | ⟨_, hno⟩
    · rcases List.mem_cons.mp hz with rfl | hz
      · have := hg 0; norm_num at this
      · rw [List.mem_singleton.mp hz] at e
        rw [e]; norm_num
    · obtain ⟨j, hj⟩ := hno _ m1
      norm_num at hj
  obtain ⟨hfit, hl, hfc, _, _⟩ := cons_fitted hreach
  obtain ⟨k, hk⟩ : ∃ k, s.surrogate.2 = [k] := List.length_eq_one_iff.mp hl
  obtain ⟨hlt, hfk⟩ := hfc 0 k (by rw [hk]; rfl)
  have first : ∀ {ys : List ℝ} {k : Kriging 1} (y0 : ℝ), ys[0]? = some y0 → Fitted exInterval s.sample ys k → ∃ v, k.view = .ok v ∧ v.sampleY = ys ∧ v.predict 1 (onePoint fun _ => 0) = .ok (fun _ => y0, fun _ => 0) := by
    intro ys k y0 hy hfit
    obtain ⟨v, h1, h2, h3, _, σ, h4, h5⟩ := hfit.view
    obtain ⟨⟨μ', σ', _, _, hp⟩, _⟩ := fitted_continuous hfit h1
    refine ⟨v, h1, h3, ?_⟩
    have hpos' : 0 < s.sample.length := by rw [hx]; simp
    have h0 : s.sample[0] = fun _ => 0 := by simp [hx]
    rw [hp] at h4 ⊢
    simp only [Except.ok.injEq, Prod.mk.injEq] at h4
    have e1 := congrFun h4.1 ⟨0, hpos'⟩
    have e2 := (congrFun h4.2 ⟨0, hpos'⟩).trans (h5 _)
    simp only [rows, List.getD_eq_getElem?_getD, hy, Option.getD_some] at e1 e2
    have hr : s.sample[(⟨0, hpos'⟩ : Fin s.sample.length)] = fun _ => 0 := h0
    rw [hr] at e1 e2
    congr 2
    · funext j
      rw [Fin.fin_one_eq_zero j]
      exact e1
    · funext j
      rw [Fin.fin_one_eq_zero j]
      exact e2
  obtain ⟨v, hv, hvy, hvp⟩ := first 0 (by rw [e1]; norm_num) hfit
  obtain ⟨vc, hvc, _, hvcp⟩ := first (1e-10 : ℝ) (by rw [e2]; norm_num) hfk
  have hcs : s.surrogate.2.mapM Kriging.view = .ok [vc] := by
    rw [hk, List.mapM_cons]
    exact Py.bind_ok.mpr ⟨_, hvc, rfl⟩
  have hm : npMin v.sampleY = .ok 0 := by
    rw [hvy, e1]
    norm_num [npMin]
  have hquery : ∃ x w, (consBO edgeOutside exInterval (fun xs => .ok (xs.map fun x => 1000 * x 0)) (fun xs => .ok (xs.map fun x (_ : Fin 1) => 1e-10 - x 0)) 1 none none 2 1996).query s.surrogate s.rng = .ok (x, w) := by
    obtain ⟨v1, cs1, q1, q2, hmin⟩ := C118_cons_reachable edgeOutside exInterval (fun _ => by simp [exInterval]) _ _ none none 2 1996 hreach
    obtain ⟨v2, q3, hbd, _⟩ := hfit.view
    obtain rfl := Except.ok.inj (q1.symm.trans q3)
    refine ⟨hmin.choose, s.rng, Py.bind_ok.mpr ⟨v1, q1, Py.bind_ok.mpr ⟨cs1, q2, Py.bind_ok.mpr ⟨((hmin.choose, hmin.choose_spec.choose), s.rng), ?_, rfl⟩⟩⟩⟩
    show exactSearch (W := ℕ) (fun w => w) (single fun x => do let r ← ceiEval v1 cs1 x; .ok (fun i => r i i)) v1.bounds s.rng = _
    unfold exactSearch
    rw [hbd, dif_pos hmin]
    rfl
  refine ⟨exactSearch_spec _, s, hreach, hbest, hquery, v, [vc], _, _, hv, hcs, Py.bind_ok.mpr ⟨_, Py.bind_ok.mpr ⟨_, hm, Py.bind_ok.mpr ⟨_, hvp, rfl⟩⟩, Py.bind_ok.mpr ⟨_, Py.bind_ok.mpr ⟨_, Py.bind_ok.mpr ⟨_, hvcp, rfl⟩, rfl⟩, rfl⟩⟩, ?_,
    ⟨_, _, _, hvp, .cons hvcp .nil, rfl⟩, ?_⟩
  · simp [eiFormula]
  · rw [expectedImprovement_certain (by norm_num)]
    simp only [List.map_cons, List.map_nil, List.prod_cons, List.prod_nil, mul_one]
    rw [probAtMost_eq _ _ (by norm_num)]
    have := normCdf_tenth
    norm_num at this ⊢
    linarith

end Mfpml.Props
