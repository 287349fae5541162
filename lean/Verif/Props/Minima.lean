import Mathlib.Topology.Order.Compact
import Mathlib.Analysis.SpecialFunctions.Log.Basic
import Mathlib.Analysis.SpecialFunctions.Trigonometric.Basic
import Mathlib.Analysis.Real.Pi.Bounds
import Mathlib.Analysis.Complex.ExponentialBounds
import Verif.Props.Problems
import Verif.Spec.Minima

/-!
# The test problems have a minimum on their input domain (C170)
-/

set_option linter.unusedSectionVars false

namespace Mfpml.Props

open Mfpml.Problems
open Real

variable {d : ℕ}

/-- Every lower bound is at most the upper bound. -/
def Proper (dom : List (ℝ × ℝ)) : Prop := ∀ b ∈ dom, b.1 ≤ b.2

theorem inDomain_iff {dom : List (ℝ × ℝ)} (hl : dom.length = d) (x : Fin d → ℝ) :
    InDomain dom x ↔ ∀ i : Fin d, (dom[(i : ℕ)]'(by rw [hl]; exact i.2)).1 ≤ x i ∧ x i ≤ (dom[(i : ℕ)]'(by rw [hl]; exact i.2)).2 := by
  unfold InDomain
  rw [List.forall₂_iff_get]
  simp only [List.length_ofFn, List.get_eq_getElem, List.getElem_ofFn]
  exact ⟨fun h i => h.2 i (by rw [hl]; exact i.2) i.2, fun h => ⟨hl, fun i h1 h2 => h ⟨i, h2⟩⟩⟩

theorem isCompact_domain {dom : List (ℝ × ℝ)} (hl : dom.length = d) : IsCompact {x : Fin d → ℝ | InDomain dom x} := by
  have : {x : Fin d → ℝ | InDomain dom x} = Set.pi Set.univ fun i : Fin d => Set.Icc (dom[(i : ℕ)]'(by rw [hl]; exact i.2)).1 (dom[(i : ℕ)]'(by rw [hl]; exact i.2)).2 := by
    ext x
    simp only [Set.mem_ofPred_eq, inDomain_iff hl, Set.mem_pi, Set.mem_univ, true_implies, Set.mem_Icc]
  rw [this]
  exact isCompact_univ_pi fun j => isCompact_Icc

theorem domain_nonempty {dom : List (ℝ × ℝ)} (hl : dom.length = d) (hp : Proper dom) : {x : Fin d → ℝ | InDomain dom x}.Nonempty :=
  ⟨fun i => (dom[(i : ℕ)]'(by rw [hl]; exact i.2)).1, (inDomain_iff hl _).mpr fun _ => ⟨le_rfl, hp _ (List.getElem_mem _)⟩⟩

/-- A problem whose values on the domain are those of a continuous function has a minimum. -/
theorem attains_of_continuousOn {a : Attrs} (hl : a.domain.length = d) (hp : Proper a.domain) {f : Batch d → Py Out} {g : (Fin d → ℝ) → Option ℝ} (hf : ∀ X, f X = .ok (X.map g)) (h : (Fin d → ℝ) → ℝ)
    (hgh : ∀ x, InDomain a.domain x → g x = some (h x)) (hc : ContinuousOn h {x | InDomain a.domain x}) : AttainsMinimum a f := by
  obtain ⟨x, hx, hm⟩ := (isCompact_domain hl).exists_isMinOn (domain_nonempty hl hp) hc
  refine ⟨x, h x, hx, (takesValue_iff g hf _ _).mpr (hgh x hx), fun x' y' hx' hy' => ?_⟩
  have := (takesValue_iff g hf _ _).mp hy'
  rw [hgh x' hx'] at this
  cases this
  exact hm hx'

theorem attains_of_continuous {a : Attrs} (hl : a.domain.length = d) (hp : Proper a.domain) {f : Batch d → Py Out} {g : (Fin d → ℝ) → Option ℝ} (hf : ∀ X, f X = .ok (X.map g)) (h : (Fin d → ℝ) → ℝ)
    (hgh : ∀ x, g x = some (h x)) (hc : Continuous h) : AttainsMinimum a f :=
  attains_of_continuousOn hl hp hf h (fun x _ => hgh x) hc.continuousOn

theorem continuous_hartmanSum {k : ℕ} (a p : Fin 4 → Fin k → ℝ) (c : Fin 4 → ℝ) : Continuous (hartmanSum a p c) := by
  unfold hartmanSum
  fun_prop

theorem continuous_hartman6 (a p : Fin 4 → Fin d → ℝ) (c : Fin 4 → ℝ) (hc : ∀ i, 0 < c i) : Continuous fun x => -Real.log (hartmanSum a p c x) :=
  ((continuous_hartmanSum a p c).log fun x => (hartmanSum_pos a p c hc x).ne').neg

theorem cont_forrester : Continuous forresterAt := by unfold forresterAt forresterExpr; fun_prop
theorem cont_branin : Continuous braninAt := by unfold braninAt; fun_prop
theorem cont_goldPrice : Continuous goldPriceAt := by unfold goldPriceAt; fun_prop
theorem cont_sixhump : Continuous sixhumpAt := by unfold sixhumpAt; fun_prop
theorem cont_sasena : Continuous sasenaAt := by unfold sasenaAt; fun_prop
theorem cont_hartman3 : Continuous hartman3At := (continuous_hartmanSum _ _ _).neg
theorem cont_ackleyN2 : Continuous ackleyN2At := by unfold ackleyN2At; fun_prop
theorem cont_braninCons : Continuous braninConsAt := by unfold braninConsAt; fun_prop
theorem cont_branin1Cons : Continuous branin1ConsAt := by unfold branin1ConsAt; fun_prop
theorem cont_branin2Cons : Continuous branin2ConsAt := by unfold branin2ConsAt; fun_prop

/-- C170 for the single-fidelity problems of fixed dimension. -/
theorem C170_single_fidelity (p : SFName) (hd : p.attrs.numDim = some d) : AttainsMinimum p.attrs (p.f (d := d)) := by
  obtain rfl : d = p.attrs.numDim.getD 0 := by rw [hd]; rfl
  cases p with
  | forrester => exact attains_of_continuous rfl (by intro b hb; simp [SFName.attrs] at hb; subst hb; norm_num) (SFName.f_map .forrester) forresterAt (fun _ => rfl) cont_forrester
  | branin => exact attains_of_continuous rfl (by intro b hb; simp [SFName.attrs] at hb; rcases hb with rfl | rfl <;> norm_num) (SFName.f_map .branin) braninAt (fun _ => rfl) cont_branin
  | goldPrice => exact attains_of_continuous rfl (by intro b hb; simp [SFName.attrs] at hb; subst hb; norm_num) (SFName.f_map .goldPrice) goldPriceAt (fun _ => rfl) cont_goldPrice
  | sixhump => exact attains_of_continuous rfl (by intro b hb; simp [SFName.attrs] at hb; rcases hb with rfl | rfl <;> norm_num) (SFName.f_map .sixhump) sixhumpAt (fun _ => rfl) cont_sixhump
  | sasena => exact attains_of_continuous rfl (by intro b hb; simp [SFName.attrs] at hb; subst hb; norm_num) (SFName.f_map .sasena) sasenaAt (fun _ => rfl) cont_sasena
  | hartman3 => exact attains_of_continuous rfl (by intro b hb; simp [SFName.attrs] at hb; subst hb; norm_num) (SFName.f_map .hartman3) hartman3At (fun _ => rfl) cont_hartman3
  | hartman6 =>
    exact attains_of_continuous rfl (by intro b hb; rw [List.eq_of_mem_replicate hb]; norm_num) (SFName.f_map .hartman6) (fun x => -Real.log (hartmanSum hartman6A hartman6P hartman6C x))
      (fun _ => negLogNeg_neg (hartmanSum_pos _ _ _ hartman6C_pos _)) (continuous_hartman6 _ _ _ hartman6C_pos)
  | ackleyN2 => exact attains_of_continuous rfl (by intro b hb; simp [SFName.attrs] at hb; subst hb; norm_num) (SFName.f_map .ackleyN2) ackleyN2At (fun _ => rfl) cont_ackleyN2
  | branin1 => exact attains_of_continuous rfl (by intro b hb; simp [SFName.attrs] at hb; rcases hb with rfl | rfl <;> norm_num) (SFName.f_map .branin1) braninConsAt (fun _ => rfl) cont_braninCons
  | branin2 => exact attains_of_continuous rfl (by intro b hb; simp [SFName.attrs] at hb; rcases hb with rfl | rfl <;> norm_num) (SFName.f_map .branin2) braninConsAt (fun _ => rfl) cont_braninCons

/-- A constrained problem with continuous objective and constraint and a feasible point has a minimum on the feasible set. -/
theorem attains_feasible {a : Attrs} (hl : a.domain.length = d) {f cons : Batch d → Py Out} {g c : (Fin d → ℝ) → ℝ} (hf : ∀ X, f X = .ok (X.map fun r => some (g r)))
    (hcons : ∀ X, cons X = .ok (X.map fun r => some (c r))) (hg : Continuous g) (hc : Continuous c) (x₀ : Fin d → ℝ) (hx₀ : InDomain a.domain x₀) (h₀ : c x₀ ≤ 0) : AttainsFeasibleMinimum a f cons := by
  have hK : IsCompact ({x : Fin d → ℝ | InDomain a.domain x} ∩ {x | c x ≤ 0}) := (isCompact_domain hl).inter_right (isClosed_le hc continuous_const)
  obtain ⟨x, ⟨hx, hcx⟩, hm⟩ := hK.exists_isMinOn ⟨x₀, hx₀, h₀⟩ hg.continuousOn
  refine ⟨x, g x, c x, hx, (takesValue_iff _ hf _ _).mpr rfl, (takesValue_iff _ hcons _ _).mpr rfl, hcx, fun x' y' c' hx' hy' hc' hle => ?_⟩
  have e1 := Option.some.inj ((takesValue_iff _ hf _ _).mp hy')
  have e2 := Option.some.inj ((takesValue_iff _ hcons _ _).mp hc')
  rw [← e1]
  rw [← e2] at hle
  exact hm ⟨hx', hle⟩

/-- C170 for the constrained problems: they have a minimum on the feasible set, which is not empty. -/
theorem C170_constrained : AttainsFeasibleMinimum SFName.branin1.attrs (SFName.branin1.f (d := 2)) SFName.branin1.fCons ∧
    AttainsFeasibleMinimum SFName.branin2.attrs (SFName.branin2.f (d := 2)) SFName.branin2.fCons := by
  constructor
  · refine attains_feasible rfl braninConsF_map branin1Cons_map cont_braninCons cont_branin1Cons (fun _ => 1) ?_ ?_
    · refine (inDomain_iff rfl _).mpr fun i => ?_
      fin_cases i <;> norm_num [SFName.attrs]
    · unfold branin1ConsAt; norm_num
  · have p1 := Real.pi_gt_d2
    have p2 := Real.pi_lt_d2
    refine attains_feasible rfl braninConsF_map branin2Cons_map cont_braninCons cont_branin2Cons ![1 - π / 24, 1 - 5 * π / 24] ?_ ?_
    · refine (inDomain_iff rfl _).mpr fun i => ?_
      fin_cases i
      · show (0 : ℝ) ≤ 1 - π / 24 ∧ 1 - π / 24 ≤ 1
        constructor <;> linarith
      · show (0.0 : ℝ) ≤ 1 - 5 * π / 24 ∧ 1 - 5 * π / 24 ≤ 1
        norm_num
        constructor <;> linarith
    · unfold branin2ConsAt
      have s1 : sin (6 * (1 - (2 * (1 - π / 24) - 1))) = 1 := by
        rw [show 6 * (1 - (2 * (1 - π / 24) - 1)) = π / 2 by ring, sin_pi_div_two]
      have s2 : sin (6 * (1 - (2 * (1 - 5 * π / 24) - 1))) = 1 := by
        rw [show 6 * (1 - (2 * (1 - 5 * π / 24) - 1)) = π / 2 + 2 * π by ring, sin_add_two_pi, sin_pi_div_two]
      show 6 - ((4 - 2.1 * (2 * (1 - π / 24) - 1) ^ 2 + (2 * (1 - π / 24) - 1) ^ 4 / 3) * (2 * (1 - π / 24) - 1) ^ 2 + (2 * (1 - π / 24) - 1) * (2 * (1 - 5 * π / 24) - 1)
        + (-4 + 4 * (2 * (1 - 5 * π / 24) - 1) ^ 2) * (2 * (1 - 5 * π / 24) - 1) ^ 2 + 3 * sin (6 * (1 - (2 * (1 - π / 24) - 1))) + 3 * sin (6 * (1 - (2 * (1 - 5 * π / 24) - 1)))) ≤ 0
      rw [s1, s2]
      have hu : (2 * (1 - π / 24) - 1) = 1 - π / 12 := by ring
      have hv : (2 * (1 - 5 * π / 24) - 1) = 1 - 5 * π / 12 := by ring
      rw [hu, hv]
      obtain ⟨u, hu⟩ : ∃ u, u = 1 - π / 12 := ⟨_, rfl⟩
      obtain ⟨v, hv⟩ : ∃ v, v = 1 - 5 * π / 12 := ⟨_, rfl⟩
      rw [← hu, ← hv]
      have u1 : 0.73 ≤ u := by rw [hu]; linarith
      have u2 : u ≤ 0.74 := by rw [hu]; linarith
      have v1 : -0.32 ≤ v := by rw [hv]; linarith
      have v2 : v ≤ -0.30 := by rw [hv]; linarith
      have a1 : (0.53 : ℝ) ≤ u ^ 2 := by nlinarith
      have a2 : u ^ 2 ≤ 0.55 := by nlinarith
      have b2 : v ^ 2 ≤ 0.11 := by nlinarith
      have b1 : 0 ≤ v ^ 2 := sq_nonneg v
      have c1 : -0.24 ≤ u * v := by nlinarith
      have e1 : 0.53 * 2.8 ≤ (4 - 2.1 * u ^ 2 + u ^ 4 / 3) * u ^ 2 := by
        have : 2.8 ≤ 4 - 2.1 * u ^ 2 + u ^ 4 / 3 := by nlinarith [sq_nonneg (u ^ 2)]
        nlinarith
      have e2 : -0.44 ≤ (-4 + 4 * v ^ 2) * v ^ 2 := by nlinarith
      norm_num at *
      linarith

/-- C170 for `Thevenot` and `Ackley` in every dimension, on the domain their constructors set. -/
theorem C170_any_dimension {cls : Classes} {k : ℕ} (hk : k ≠ 0) (m : ℕ) (beta a b c : ℝ) (hb : beta ≠ 0) :
    (∀ o cls', construct cls (.thevenot (some k) m beta) = .ok (o, cls') → AttainsMinimum (o.attrs cls') (o.f (d := k))) ∧
    ∀ o cls', construct cls (.ackley (some k) a b c) = .ok (o, cls') → AttainsMinimum (o.attrs cls') (o.f (d := k)) := by
  have hk' : ¬((k : ℤ) < 0) := by omega
  have hpos : (k : ℝ) ≠ 0 := Nat.cast_ne_zero.mpr hk
  constructor
  · intro o cls' h
    simp only [construct, anyDimCheck, if_neg hk', rangeOf, Int.toNat_natCast] at h
    cases h
    refine attains_of_continuous (g := fun r => if beta = 0 ∧ k ≠ 0 then none else some (exp (-∑ j, (r j / beta) ^ (2 * m)) - 2 * exp (-∏ j, r j ^ 2) * ∏ j, cos (r j) ^ 2)) ?_ ?_ (fun _ => rfl)
      (fun r => exp (-∑ j, (r j / beta) ^ (2 * m)) - 2 * exp (-∏ j, r j ^ 2) * ∏ j, cos (r j) ^ 2) (fun x => if_neg (by tauto)) ?_
    · exact List.length_replicate
    · intro b hb
      rw [List.eq_of_mem_replicate hb]
      show -2 * π ≤ 2 * π
      linarith [pi_pos]
    · fun_prop
  · intro o cls' h
    simp only [construct, anyDimCheck, if_neg hk', rangeOf, Int.toNat_natCast] at h
    cases h
    refine attains_of_continuous (g := ackleyRow a b c) ?_ ?_ (fun _ => rfl)
      (fun x => -a * exp (-b * Real.sqrt ((∑ j, x j ^ 2) / k)) - exp ((∑ j, cos (c * x j)) / k) + a + exp 1) (fun x => ?_) ?_
    · exact List.length_replicate
    · intro b hb
      rw [List.eq_of_mem_replicate hb]
      show (-32 : ℝ) ≤ 32
      norm_num
    · have t1 : fmean (fun j => x j ^ 2) = some ((∑ j, x j ^ 2) / k) := if_neg hpos
      have t2 : fsqrt ((∑ j, x j ^ 2) / k) = some _ := if_neg (not_lt.mpr (div_nonneg (Finset.sum_nonneg fun j _ => sq_nonneg _) (Nat.cast_nonneg _)))
      have t3 : fmean (fun j => cos (c * x j)) = some ((∑ j, cos (c * x j)) / k) := if_neg hpos
      unfold ackleyRow
      simp only [t1, t2, t3, Option.bind_eq_bind, Option.bind_some]
    · fun_prop

/-! ## The multi-fidelity problems -/

theorem cont_forrester1aLf : Continuous forrester1aLfAt := by unfold forrester1aLfAt; fun_prop
theorem cont_forrester1bLf : Continuous forrester1bLfAt := by unfold forrester1bLfAt; fun_prop
theorem cont_forrester1cLf : Continuous forrester1cLfAt := by unfold forrester1cLfAt; fun_prop
theorem cont_hartman3Lf : Continuous hartman3LfAt := by unfold hartman3LfAt; fun_prop
theorem cont_sixhumpLf : Continuous sixhumpLfAt := by unfold sixhumpLfAt; fun_prop
theorem cont_contNonlinLf : Continuous contNonlinLfAt := by unfold contNonlinLfAt; fun_prop
theorem cont_contNonlinHf : Continuous contNonlinHfAt := by unfold contNonlinHfAt; fun_prop
theorem cont_phaseShiftHf : Continuous phaseShiftHfAt := by unfold phaseShiftHfAt; fun_prop
theorem cont_bohachevskyLf : Continuous bohachevskyLfAt := by unfold bohachevskyLfAt; fun_prop
theorem cont_bohachevskyHf : Continuous bohachevskyHfAt := by unfold bohachevskyHfAt; fun_prop
theorem cont_boothLf : Continuous boothLfAt := by unfold boothLfAt; fun_prop
theorem cont_boothHf : Continuous boothHfAt := by unfold boothHfAt; fun_prop
theorem cont_himmelblauLf : Continuous himmelblauLfAt := by unfold himmelblauLfAt; fun_prop
theorem cont_himmelblauHf : Continuous himmelblauHfAt := by unfold himmelblauHfAt; fun_prop
theorem cont_park91BHf : Continuous park91BHfAt := by unfold park91BHfAt; fun_prop
theorem cont_park91BLf : Continuous park91BLfAt := by unfold park91BLfAt; exact (continuous_const.mul cont_park91BHf).sub continuous_const

/-- A function on `[0, 1]` that jumps up behind 1/2 has a minimum. -/
theorem attains_jump {a : Attrs} (ha : a.domain = [(0.0, 1.0)]) {f : Batch 1 → Py Out} {g : (Fin 1 → ℝ) → Option ℝ} (hf : ∀ X, f X = .ok (X.map g)) (h : ℝ → ℝ) (hc : Continuous h) (jump : ℝ)
    (hj : 0 ≤ jump) (h1 : ∀ x, x 0 ≤ 0.5 → g x = some (h (x 0))) (h2 : ∀ x, ¬x 0 ≤ 0.5 → g x = some (h (x 0) + jump)) : AttainsMinimum a f := by
  have hd : ∀ x : Fin 1 → ℝ, InDomain a.domain x ↔ 0 ≤ x 0 ∧ x 0 ≤ 1 := by
    intro x
    rw [ha, inDomain_iff rfl]
    constructor
    · intro h
      have := h 0
      norm_num at this
      exact this
    · intro h i
      fin_cases i
      norm_num
      exact h
  obtain ⟨u, hu, hum⟩ := (isCompact_Icc (a := (0 : ℝ)) (b := 0.5)).exists_isMinOn ⟨0, by norm_num⟩ hc.continuousOn
  obtain ⟨v, hv, hvm⟩ := (isCompact_Icc (a := (0.5 : ℝ)) (b := 1)).exists_isMinOn ⟨1, by norm_num⟩ hc.continuousOn
  have htv : ∀ x y, TakesValue f x y ↔ g x = some y := fun x y => takesValue_iff g hf x y
  have low : ∀ x' y', InDomain a.domain x' → TakesValue f x' y' → (h u ≤ y' ∨ h v + jump ≤ y') := by
    intro x' y' hx' hy'
    rw [htv] at hy'
    obtain ⟨b1, b2⟩ := (hd x').mp hx'
    by_cases hle : x' 0 ≤ 0.5
    · rw [h1 _ hle] at hy'
      cases hy'
      exact Or.inl (hum ⟨b1, hle⟩)
    · rw [h2 _ hle] at hy'
      cases hy'
      have := hvm (show x' 0 ∈ Set.Icc (0.5 : ℝ) 1 from ⟨(not_le.mp hle).le, b2⟩)
      exact Or.inr (by simpa using this)
  by_cases hcmp : h u ≤ h v + jump
  · refine ⟨fun _ => u, h u, (hd _).mpr ⟨hu.1, hu.2.trans (by norm_num)⟩, (htv _ _).mpr (h1 _ hu.2), fun x' y' hx' hy' => ?_⟩
    rcases low x' y' hx' hy' with q | q
    · exact q
    · exact hcmp.trans q
  · have hne : ¬v ≤ 0.5 := by
      intro hle
      have : v = 0.5 := le_antisymm hle hv.1
      have q : h u ≤ h 0.5 := hum (show (0.5 : ℝ) ∈ Set.Icc (0 : ℝ) 0.5 by norm_num)
      rw [this] at hcmp
      linarith
    refine ⟨fun _ => v, h v + jump, (hd _).mpr ⟨(by norm_num : (0 : ℝ) ≤ 0.5).trans hv.1, hv.2⟩, (htv _ _).mpr (h2 _ hne), fun x' y' hx' hy' => ?_⟩
    rcases low x' y' hx' hy' with q | q
    · exact (not_le.mp hcmp).le.trans q
    · exact q

/-- The value of the borehole function where it is defined. -/
noncomputable def boreholeVal (a b : ℝ) (x : Fin 8 → ℝ) : ℝ :=
  a * x 2 * (x 3 - x 5) / (Real.log (x 1 / x 0) * (b + 2 * x 6 * x 2 / (Real.log (x 1 / x 0) * x 0 ^ 2 * x 7) + x 2 / x 4))

theorem borehole_signs {x : Fin 8 → ℝ} (hx : InDomain MFName.borehole.attrs.domain x) : 0 < x 0 ∧ 0 < x 2 ∧ 0 < x 4 ∧ 0 < x 6 ∧ 0 < x 7 ∧ 1 < x 1 / x 0 := by
  have h0 := inDomain_bounds hx 0 (lo := 0.05) (hi := 0.15) rfl
  have h1 := inDomain_bounds hx 1 (lo := 100) (hi := 50000) rfl
  have h2 := inDomain_bounds hx 2 (lo := 63070) (hi := 115600) rfl
  have h4 := inDomain_bounds hx 4 (lo := 63.1) (hi := 116) rfl
  have h6 := inDomain_bounds hx 6 (lo := 1120) (hi := 1680) rfl
  have h7 := inDomain_bounds hx 7 (lo := 9855) (hi := 12045) rfl
  norm_num at h0 h4
  have p0 : 0 < x 0 := by linarith
  refine ⟨p0, by linarith, by linarith, by linarith, by linarith, ?_⟩
  rw [lt_div_iff₀ p0]
  linarith

theorem borehole_value {a b : ℝ} (hb : 0 ≤ b) {x : Fin 8 → ℝ} (hx : InDomain MFName.borehole.attrs.domain x) : boreholeAt a b x = some (boreholeVal a b x) := by
  obtain ⟨p0, p2, p4, p6, p7, q1⟩ := borehole_signs hx
  have hlog : 0 < Real.log (x 1 / x 0) := Real.log_pos q1
  have t1 : fdiv (x 1) (x 0) = some (x 1 / x 0) := if_neg p0.ne'
  have t2 : flog (x 1 / x 0) = some (Real.log (x 1 / x 0)) := if_pos (by linarith)
  have t3 : fdiv (2 * x 6 * x 2) (Real.log (x 1 / x 0) * x 0 ^ 2 * x 7) = some _ := if_neg (by positivity)
  have t4 : fdiv (x 2) (x 4) = some (x 2 / x 4) := if_neg p4.ne'
  have t5 : fdiv (a * x 2 * (x 3 - x 5)) (Real.log (x 1 / x 0) * (b + 2 * x 6 * x 2 / (Real.log (x 1 / x 0) * x 0 ^ 2 * x 7) + x 2 / x 4)) = some _ :=
    if_neg (by positivity)
  unfold boreholeAt
  simp only [t1, t2, t3, t4, Option.bind_eq_bind, Option.bind_some]
  exact t5

theorem cont_borehole {a b : ℝ} (hb : 0 ≤ b) : ContinuousOn (boreholeVal a b) {x | InDomain MFName.borehole.attrs.domain x} := by
  have c : ∀ j : Fin 8, ContinuousOn (fun x : Fin 8 → ℝ => x j) {x | InDomain MFName.borehole.attrs.domain x} := fun j => (continuous_apply j).continuousOn
  have hq : ContinuousOn (fun x : Fin 8 → ℝ => x 1 / x 0) {x | InDomain MFName.borehole.attrs.domain x} := (c 1).div (c 0) fun x hx => (borehole_signs hx).1.ne'
  have hl : ContinuousOn (fun x : Fin 8 → ℝ => Real.log (x 1 / x 0)) {x | InDomain MFName.borehole.attrs.domain x} := hq.log fun x hx => (lt_trans zero_lt_one (borehole_signs hx).2.2.2.2.2).ne'
  have lp : ∀ x : Fin 8 → ℝ, InDomain MFName.borehole.attrs.domain x → 0 < Real.log (x 1 / x 0) := fun x hx => Real.log_pos (borehole_signs hx).2.2.2.2.2
  have h1 : ContinuousOn (fun x : Fin 8 → ℝ => 2 * x 6 * x 2 / (Real.log (x 1 / x 0) * x 0 ^ 2 * x 7)) {x | InDomain MFName.borehole.attrs.domain x} := by
    refine ((continuousOn_const.mul (c 6)).mul (c 2)).div ((hl.mul ((c 0).pow 2)).mul (c 7)) fun x hx => ?_
    obtain ⟨p0, p2, p4, p6, p7, q1⟩ := borehole_signs hx
    have := lp x hx
    positivity
  have h2 : ContinuousOn (fun x : Fin 8 → ℝ => x 2 / x 4) {x | InDomain MFName.borehole.attrs.domain x} := (c 2).div (c 4) fun x hx => (borehole_signs hx).2.2.1.ne'
  refine (((continuousOn_const.mul (c 2)).mul ((c 3).sub (c 5)))).div (hl.mul ((continuousOn_const.add h1).add h2)) fun x hx => ?_
  obtain ⟨p0, p2, p4, p6, p7, q1⟩ := borehole_signs hx
  have := lp x hx
  positivity

theorem borehole_proper : Proper MFName.borehole.attrs.domain := by
  intro b hb
  simp only [MFName.attrs, List.mem_cons, List.not_mem_nil, or_false] at hb
  rcases hb with rfl | rfl | rfl | rfl | rfl | rfl | rfl | rfl <;> norm_num

/-! ### The Currin function -/

open Classical in
/-- The first factor of the Currin function. -/
noncomputable def currinT (v : ℝ) : ℝ := if v ≤ 1e-8 then 1 else 1 - exp (-1 / (2 * v))

/-- The second factor. -/
noncomputable def currinR (u : ℝ) : ℝ := (2300 * u ^ 3 + 1900 * u ^ 2 + 2092 * u + 60) / (100 * u ^ 3 + 500 * u ^ 2 + 4 * u + 20)

theorem currinT_anti {v w : ℝ} (h : v ≤ w) : currinT w ≤ currinT v := by
  unfold currinT
  by_cases hv : v ≤ 1e-8
  · rw [if_pos hv]
    split_ifs
    · exact le_rfl
    · linarith [exp_pos (-1 / (2 * w))]
  · have hw : ¬w ≤ 1e-8 := fun q => hv (h.trans q)
    rw [if_neg hv, if_neg hw]
    have v0 : 0 < v := lt_trans (by norm_num) (not_le.mp hv)
    have w0 : 0 < w := lt_of_lt_of_le v0 h
    have : exp (-1 / (2 * v)) ≤ exp (-1 / (2 * w)) := by
      refine exp_le_exp.mpr ?_
      rw [neg_div, neg_div, neg_le_neg_iff]
      exact one_div_le_one_div_of_le (by linarith) (by linarith)
    linarith

theorem currinT_pos (v : ℝ) : 0 ≤ currinT v := by
  unfold currinT
  split_ifs with hv
  · norm_num
  · have v0 : 0 < v := lt_trans (by norm_num) (not_le.mp hv)
    have : exp (-1 / (2 * v)) ≤ 1 := exp_le_one_iff.mpr (by rw [neg_div]; have : 0 < 1 / (2 * v) := by positivity
                                                            linarith)
    linarith

theorem currinDen_pos {u : ℝ} (hu : -0.05 ≤ u) : 0 < 100 * u ^ 3 + 500 * u ^ 2 + 4 * u + 20 := by
  have h : 0 ≤ (u + 0.05) * u ^ 2 := mul_nonneg (by linarith) (sq_nonneg u)
  nlinarith [sq_nonneg u]

theorem currinHf_value {x : Fin 2 → ℝ} (hu : -0.05 ≤ x 0) : currinHfAt x = some (currinT (x 1) * currinR (x 0)) := by
  unfold currinHfAt currinT currinR fdiv
  rw [if_neg (currinDen_pos hu).ne', mul_div_assoc]

theorem cont_currinR (s : ℝ) (hs : -0.05 ≤ s) : ContinuousOn (fun u => currinR (u + s)) (Set.Icc 0 1) := by
  unfold currinR
  refine ContinuousOn.div (by fun_prop) (by fun_prop) fun u hu => (currinDen_pos ?_).ne'
  linarith [hu.1]

theorem currinR_ge {u : ℝ} (hu : 0 ≤ u) : 3 ≤ currinR u := by
  unfold currinR
  rw [le_div_iff₀ (currinDen_pos (by linarith))]
  nlinarith [pow_nonneg hu 3, pow_nonneg hu 2]

theorem currinR_ge_neg {u : ℝ} (hu : -0.05 ≤ u) : -3 ≤ currinR u := by
  unfold currinR
  rw [le_div_iff₀ (currinDen_pos hu)]
  have h : 0 ≤ (u + 0.05) * u ^ 2 := mul_nonneg (by linarith) (sq_nonneg u)
  nlinarith [sq_nonneg u]

theorem currin_domain (x : Fin 2 → ℝ) : InDomain MFName.currinExp.attrs.domain x ↔ (0 ≤ x 0 ∧ x 0 ≤ 1) ∧ 0 ≤ x 1 ∧ x 1 ≤ 1 := by
  rw [inDomain_iff (d := 2) rfl]
  exact ⟨fun h => ⟨h 0, h 1⟩, fun h i => by fin_cases i; exacts [h.1, h.2]⟩

theorem currinLf_value {x : Fin 2 → ℝ} (hu : 0 ≤ x 0) :
    currinLfAt .float x = some ((currinT (x 1 + 0.05) + currinT (x 1 - 0.05)) * (currinR (x 0 + 0.05) + currinR (x 0 - 0.05)) / 4) := by
  have a1 : addAt .float 1 (-0.05) (addAt .float 0 0.05 x) = ![x 0 + 0.05, x 1 - 0.05] := by
    funext k
    fin_cases k
    · simp [addAt, DType.store]
    · simp [addAt, DType.store, sub_eq_add_neg]
  have a2 : addAt .float 1 0.05 (addAt .float 0 (-0.05) x) = ![x 0 - 0.05, x 1 + 0.05] := by
    funext k
    fin_cases k
    · simp [addAt, DType.store, sub_eq_add_neg]
    · simp [addAt, DType.store]
  have m1 : (-0.05 : ℝ) ≤ x 0 - 0.05 := by linarith
  have m2 : (-0.05 : ℝ) ≤ x 0 + 0.05 := by norm_num; linarith
  unfold currinLfAt
  rw [a1, a2, currinHf_value (x := fun k => x k + 0.05) m2, currinHf_value (x := ![x 0 + 0.05, x 1 - 0.05]) m2, currinHf_value (x := ![x 0 - 0.05, x 1 + 0.05]) m1,
    currinHf_value (x := fun k => x k - 0.05) m1]
  refine congrArg some ?_
  show (currinT (x 1 + 0.05) * currinR (x 0 + 0.05) + currinT (x 1 - 0.05) * currinR (x 0 + 0.05) + currinT (x 1 + 0.05) * currinR (x 0 - 0.05) + currinT (x 1 - 0.05) * currinR (x 0 - 0.05)) / 4.0 = _
  norm_num
  ring

theorem currin_attains : AttainsMinimum MFName.currinExp.attrs (MFName.currinExp.hf (d := 2)) ∧ AttainsMinimum MFName.currinExp.attrs (MFName.currinExp.lf (d := 2) .float) := by
  constructor
  · obtain ⟨u, hu, hm⟩ := (isCompact_Icc (a := (0 : ℝ)) (b := 1)).exists_isMinOn ⟨0, by norm_num⟩ (cont_currinR 0 (by norm_num))
    simp only [add_zero] at hm
    have neg05 : (-0.05 : ℝ) ≤ 0 := by norm_num
    refine ⟨![u, 1], _, (currin_domain _).mpr ⟨hu, by norm_num⟩, (takesValue_iff _ (MFName.hf_map .currinExp) _ _).mpr (currinHf_value (x := ![u, 1]) (neg05.trans hu.1)), fun x' y' hx' hy' => ?_⟩
    obtain ⟨q0, q1⟩ := (currin_domain _).mp hx'
    have e := (takesValue_iff _ (MFName.hf_map .currinExp) _ _).mp hy'
    rw [show MFName.currinExp.hfAt x' = _ from currinHf_value (x := x') (neg05.trans q0.1)] at e
    cases e
    exact mul_le_mul (currinT_anti q1.2) (hm q0) (le_trans (by norm_num) (currinR_ge hu.1)) (currinT_pos _)
  · have hc : ContinuousOn (fun u => currinR (u + 0.05) + currinR (u - 0.05)) (Set.Icc 0 1) := by
      have := (cont_currinR 0.05 (by norm_num)).add (cont_currinR (-0.05) (by norm_num))
      simpa only [sub_eq_add_neg, Pi.add_def] using this
    obtain ⟨u, hu, hm⟩ := (isCompact_Icc (a := (0 : ℝ)) (b := 1)).exists_isMinOn ⟨0, by norm_num⟩ hc
    refine ⟨![u, 1], _, (currin_domain _).mpr ⟨hu, by norm_num⟩, (takesValue_iff _ (MFName.lf_map .currinExp .float) _ _).mpr (currinLf_value (x := ![u, 1]) hu.1), fun x' y' hx' hy' => ?_⟩
    obtain ⟨q0, q1⟩ := (currin_domain _).mp hx'
    have e := (takesValue_iff _ (MFName.lf_map .currinExp .float) _ _).mp hy'
    rw [show MFName.currinExp.lfAt .float x' = _ from currinLf_value (x := x') q0.1] at e
    cases e
    have hge : ∀ w : ℝ, 0 ≤ w → 0 ≤ currinR (w + 0.05) + currinR (w - 0.05) := fun w hw => by
      have := currinR_ge (u := w + 0.05) (by norm_num; linarith)
      have := currinR_ge_neg (u := w - 0.05) (by linarith)
      linarith
    refine div_le_div_of_nonneg_right ?_ (by norm_num)
    refine mul_le_mul (add_le_add (currinT_anti ?_) (currinT_anti ?_)) (hm q0) (hge u hu.1) (add_nonneg (currinT_pos _) (currinT_pos _))
    · show x' 1 + 0.05 ≤ 1 + 0.05
      linarith [q1.2]
    · show x' 1 - 0.05 ≤ 1 - 0.05
      linarith [q1.2]

/-- C170 for the multi-fidelity problems and arrays of floats, both fidelities. Missing: `mf_Park91A`, which has no minimum. -/
theorem C170_multi_fidelity_partial (p : MFName) (hp : p ≠ .park91A) (hd : p.attrs.numDim = some d) : AttainsMinimum p.attrs (p.hf (d := d)) ∧ AttainsMinimum p.attrs (p.lf (d := d) .float) := by
  obtain rfl : d = p.attrs.numDim.getD 0 := by rw [hd]; rfl
  have h1 := MFName.hf_map p
  have h2 := MFName.lf_map p .float
  cases p with
  | park91A => exact absurd rfl hp
  | currinExp => exact currin_attains
  | borehole =>
    exact ⟨attains_of_continuousOn rfl borehole_proper h1 (boreholeVal (2 * π) 1) (fun x hx => borehole_value (by norm_num) hx) (cont_borehole (by norm_num)),
      attains_of_continuousOn rfl borehole_proper h2 (boreholeVal 5 1.5) (fun x hx => borehole_value (by norm_num) hx) (cont_borehole (by norm_num))⟩
  | discontinuous =>
    refine ⟨attains_jump rfl h1 (fun x => 2 * (0.5 * (6 * x - 2) ^ 2 * sin (12 * x - 4) + 10 * (x - 0.5) - 5) - 20 * x + 20) (by fun_prop) 10 (by norm_num) (fun x hx => ?_) (fun x hx => ?_),
      attains_jump rfl h2 (fun x => 0.5 * (6 * x - 2) ^ 2 * sin (12 * x - 4) + 10 * (x - 0.5) - 5) (by fun_prop) 3 (by norm_num) (fun x hx => ?_) (fun x hx => ?_)⟩
    · exact congrArg some (if_pos hx)
    · refine congrArg some ((if_neg hx).trans ?_)
      ring
    · exact congrArg some (if_pos hx)
    · refine congrArg some ((if_neg hx).trans ?_)
      ring
  | hartman6 =>
    have hpr : Proper MFName.hartman6.attrs.domain := by intro b hb; rw [List.eq_of_mem_replicate hb]; norm_num
    refine ⟨attains_of_continuous rfl hpr h1 (fun x => -Real.log (hartmanSum hartman6A hartman6P hartman6C x)) (fun _ => negLogNeg_neg (hartmanSum_pos _ _ _ hartman6C_pos _)) (continuous_hartman6 _ _ _ hartman6C_pos),
      attains_of_continuous rfl hpr h2 (fun x => -Real.log (hartmanSum hartman6A hartman6P hartman6LfC fun j => hartman6LfL j * x j)) (fun _ => negLogNeg_neg (hartmanSum_pos _ _ _ hartman6LfC_pos _)) ?_⟩
    exact (continuous_hartman6 hartman6A hartman6P hartman6LfC hartman6LfC_pos).comp (by fun_prop)
  | forrester1a =>
    have hpr : Proper MFName.forrester1a.attrs.domain := by intro b hb; simp [MFName.attrs] at hb; subst hb; norm_num
    exact ⟨attains_of_continuous rfl hpr h1 forresterAt (fun _ => rfl) cont_forrester, attains_of_continuous rfl hpr h2 forrester1aLfAt (fun _ => rfl) cont_forrester1aLf⟩
  | forrester1b =>
    have hpr : Proper MFName.forrester1b.attrs.domain := by intro b hb; simp [MFName.attrs] at hb; subst hb; norm_num
    exact ⟨attains_of_continuous rfl hpr h1 forresterAt (fun _ => rfl) cont_forrester, attains_of_continuous rfl hpr h2 forrester1bLfAt (fun _ => rfl) cont_forrester1bLf⟩
  | forrester1c =>
    have hpr : Proper MFName.forrester1c.attrs.domain := by intro b hb; simp [MFName.attrs] at hb; subst hb; norm_num
    exact ⟨attains_of_continuous rfl hpr h1 forresterAt (fun _ => rfl) cont_forrester, attains_of_continuous rfl hpr h2 forrester1cLfAt (fun _ => rfl) cont_forrester1cLf⟩
  | hartman3 =>
    have hpr : Proper MFName.hartman3.attrs.domain := by intro b hb; simp [MFName.attrs] at hb; subst hb; norm_num
    exact ⟨attains_of_continuous rfl hpr h1 hartman3At (fun _ => rfl) cont_hartman3, attains_of_continuous rfl hpr h2 hartman3LfAt (fun _ => rfl) cont_hartman3Lf⟩
  | sixhump =>
    have hpr : Proper MFName.sixhump.attrs.domain := by intro b hb; simp [MFName.attrs] at hb; subst hb; norm_num
    exact ⟨attains_of_continuous rfl hpr h1 sixhumpAt (fun _ => rfl) cont_sixhump, attains_of_continuous rfl hpr h2 sixhumpLfAt (fun _ => rfl) cont_sixhumpLf⟩
  | contNonlin1D =>
    have hpr : Proper MFName.contNonlin1D.attrs.domain := by intro b hb; simp [MFName.attrs] at hb; subst hb; norm_num
    exact ⟨attains_of_continuous rfl hpr h1 contNonlinHfAt (fun _ => rfl) cont_contNonlinHf, attains_of_continuous rfl hpr h2 contNonlinLfAt (fun _ => rfl) cont_contNonlinLf⟩
  | phaseShift =>
    have hpr : Proper MFName.phaseShift.attrs.domain := by intro b hb; simp [MFName.attrs] at hb; subst hb; norm_num
    exact ⟨attains_of_continuous rfl hpr h1 phaseShiftHfAt (fun _ => rfl) cont_phaseShiftHf, attains_of_continuous rfl hpr h2 contNonlinLfAt (fun _ => rfl) cont_contNonlinLf⟩
  | bohachevsky =>
    have hpr : Proper MFName.bohachevsky.attrs.domain := by intro b hb; simp [MFName.attrs] at hb; subst hb; norm_num
    exact ⟨attains_of_continuous rfl hpr h1 bohachevskyHfAt (fun _ => rfl) cont_bohachevskyHf, attains_of_continuous rfl hpr h2 bohachevskyLfAt (fun _ => rfl) cont_bohachevskyLf⟩
  | booth =>
    have hpr : Proper MFName.booth.attrs.domain := by intro b hb; simp [MFName.attrs] at hb; subst hb; norm_num
    exact ⟨attains_of_continuous rfl hpr h1 boothHfAt (fun _ => rfl) cont_boothHf, attains_of_continuous rfl hpr h2 boothLfAt (fun _ => rfl) cont_boothLf⟩
  | himmelblau =>
    have hpr : Proper MFName.himmelblau.attrs.domain := by intro b hb; simp [MFName.attrs] at hb; subst hb; norm_num
    exact ⟨attains_of_continuous rfl hpr h1 himmelblauHfAt (fun _ => rfl) cont_himmelblauHf, attains_of_continuous rfl hpr h2 himmelblauLfAt (fun _ => rfl) cont_himmelblauLf⟩
  | park91B =>
    have hpr : Proper MFName.park91B.attrs.domain := by intro b hb; rw [List.eq_of_mem_replicate hb]; norm_num
    exact ⟨attains_of_continuous rfl hpr h1 park91BHfAt (fun _ => rfl) cont_park91BHf, attains_of_continuous rfl hpr h2 park91BLfAt (fun _ => rfl) cont_park91BLf⟩

/-- On its input domain the function of `mf_Park91A` is at least `e` times the first variable, with equality where the last two variables vanish. -/
theorem park91A_low {x : Fin 4 → ℝ} (hx : InDomain MFName.park91A.attrs.domain x) {y : ℝ} (hy : park91AHfAt x = some y) : 0 < x 0 ∧ exp 1 * x 0 ≤ y := by
  have h0 := inDomain_bounds hx 0 (lo := 0.0) (hi := 1.0) rfl
  have h1 := inDomain_bounds hx 1 (lo := 0.0) (hi := 1.0) rfl
  have h2 := inDomain_bounds hx 2 (lo := 0.0) (hi := 1.0) rfl
  have h3 := inDomain_bounds hx 3 (lo := 0.0) (hi := 1.0) rfl
  norm_num at h0 h1 h2 h3
  have hne : x 0 ≠ 0 := by
    intro h
    unfold park91AHfAt fdiv at hy
    rw [h] at hy
    norm_num at hy
    cases hy
  have hpos : 0 < x 0 := lt_of_le_of_ne h0.1 (Ne.symm hne)
  refine ⟨hpos, ?_⟩
  have hq : 0 ≤ (x 1 + x 2 ^ 2) * x 3 / x 0 ^ 2 := by
    have := h1.1
    have := h3.1
    positivity
  have t1 : fdiv ((x 1 + x 2 ^ 2) * x 3) (x 0 ^ 2) = some ((x 1 + x 2 ^ 2) * x 3 / x 0 ^ 2) := if_neg (by positivity)
  have t2 : fsqrt (1 + (x 1 + x 2 ^ 2) * x 3 / x 0 ^ 2) = some (Real.sqrt (1 + (x 1 + x 2 ^ 2) * x 3 / x 0 ^ 2)) := if_neg (by linarith)
  unfold park91AHfAt at hy
  simp only [t1, t2, Option.bind_eq_bind, Option.bind_some, Option.some.injEq] at hy
  rw [← hy]
  have hs : 1 ≤ Real.sqrt (1 + (x 1 + x 2 ^ 2) * x 3 / x 0 ^ 2) := by
    rw [Real.one_le_sqrt]
    linarith
  have hsin : 0 ≤ sin (x 2) := sin_nonneg_of_nonneg_of_le_pi h2.1 (h2.2.trans (by linarith [pi_gt_three]))
  have hexp : exp 1 ≤ exp (1 + sin (x 2)) := exp_le_exp.mpr (by linarith)
  have a1 : 0 ≤ x 0 / 2 * (Real.sqrt (1 + (x 1 + x 2 ^ 2) * x 3 / x 0 ^ 2) - 1) := mul_nonneg (by linarith) (by linarith)
  have a2 : x 0 * exp 1 ≤ (x 0 + 3 * x 3) * exp (1 + sin (x 2)) := mul_le_mul (by linarith [h3.1]) hexp (exp_pos 1).le (by linarith [h3.1])
  linarith

/-- **C170 is false for `mf_Park91A`**: neither fidelity has a minimum on the input domain; the values decrease towards the face `x1 = 0`, where the function has no value. -/
theorem C170_counterexample : ¬AttainsMinimum MFName.park91A.attrs (MFName.park91A.hf (d := 4)) ∧ ¬AttainsMinimum MFName.park91A.attrs (MFName.park91A.lf (d := 4) .float) := by
  have hdom : ∀ s : ℝ, 0 < s → s ≤ 1 → InDomain MFName.park91A.attrs.domain (![s, 0, 0, 0] : Fin 4 → ℝ) := by
    intro s hs hs1
    refine (inDomain_iff rfl _).mpr fun i => ?_
    fin_cases i
    · show (0.0 : ℝ) ≤ s ∧ s ≤ 1.0
      norm_num
      exact ⟨hs.le, hs1⟩
    · show (0.0 : ℝ) ≤ 0 ∧ (0 : ℝ) ≤ 1.0
      norm_num
    · show (0.0 : ℝ) ≤ 0 ∧ (0 : ℝ) ≤ 1.0
      norm_num
    · show (0.0 : ℝ) ≤ 0 ∧ (0 : ℝ) ≤ 1.0
      norm_num
  have hval : ∀ s : ℝ, 0 < s → park91AHfAt ![s, 0, 0, 0] = some (s * exp 1) := by
    intro s hs
    have t1 : fdiv (((0 : ℝ) + 0 ^ 2) * 0) (s ^ 2) = some 0 := (if_neg (by positivity)).trans (by norm_num)
    have t2 : fsqrt (1 + 0) = some 1 := (if_neg (by norm_num)).trans (by norm_num)
    unfold park91AHfAt
    show (fdiv (((0 : ℝ) + 0 ^ 2) * 0) (s ^ 2) >>= fun q => fsqrt (1 + q) >>= fun r => some (s / 2 * (r - 1) + (s + 3 * 0) * exp (1 + sin 0))) = _
    simp only [t1, t2, Option.bind_eq_bind, Option.bind_some, Option.some.injEq, sin_zero]
    norm_num
  have e2 : (2 : ℝ) ≤ exp 1 := by linarith [add_one_le_exp (1 : ℝ)]
  have e3 : (2.7182818283 : ℝ) < exp 1 := exp_one_gt_d9
  constructor
  · rintro ⟨x, y, hx, hy, hm⟩
    have hy' : park91AHfAt x = some y := (takesValue_iff _ (MFName.hf_map .park91A) _ _).mp hy
    obtain ⟨h0, hlow⟩ := park91A_low hx hy'
    have h1 := (inDomain_bounds hx 0 (lo := 0.0) (hi := 1.0) rfl).2
    norm_num at h1
    have := hm ![x 0 / 2, 0, 0, 0] (x 0 / 2 * exp 1) (hdom _ (by linarith) (by linarith)) ((takesValue_iff _ (MFName.hf_map .park91A) _ _).mpr (hval _ (by linarith)))
    nlinarith
  · rintro ⟨x, y, hx, hy, hm⟩
    have hy' : park91ALfAt x = some y := (takesValue_iff _ (MFName.lf_map .park91A .float) _ _).mp hy
    unfold park91ALfAt at hy'
    cases hv : park91AHfAt x with
    | none => rw [hv] at hy'; cases hy'
    | some v =>
      rw [hv] at hy'
      obtain ⟨h0, hlow⟩ := park91A_low hx hv
      have h1 := (inDomain_bounds hx 0 (lo := 0.0) (hi := 1.0) rfl).2
      norm_num at h1
      have hy2 : (1 + sin (x 0) / 10) * v + (-2 * x 0 + x 1 ^ 2 + x 2 ^ 2 + 0.5) = y := Option.some.inj hy'
      have hsin : 0 ≤ sin (x 0) := sin_nonneg_of_nonneg_of_le_pi h0.le (h1.trans (by linarith [pi_gt_three]))
      have hyge : 0.5 + 0.7 * x 0 ≤ y := by
        have : exp 1 * x 0 ≤ (1 + sin (x 0) / 10) * v := by nlinarith [mul_pos (exp_pos 1) h0]
        rw [← hy2]
        norm_num at *
        nlinarith [sq_nonneg (x 1), sq_nonneg (x 2)]
      have hs0 : 0 < x 0 / 4 := by linarith
      have := hm ![x 0 / 4, 0, 0, 0] ((1 + sin (x 0 / 4) / 10) * (x 0 / 4 * exp 1) + (-2 * (x 0 / 4) + 0 ^ 2 + 0 ^ 2 + 0.5)) (hdom _ hs0 (by linarith))
        ((takesValue_iff _ (MFName.lf_map .park91A .float) _ _).mpr (by
          show park91ALfAt _ = _
          unfold park91ALfAt
          rw [hval _ hs0]
          rfl))
      have hsle : sin (x 0 / 4) ≤ x 0 / 4 := sin_le hs0.le
      have e4 : exp 1 < (2.7182818286 : ℝ) := exp_one_lt_d9
      have hup : (1 + sin (x 0 / 4) / 10) * (x 0 / 4 * exp 1) ≤ (1 + 1 / 40) * (x 0 / 4 * 2.72) := by
        refine mul_le_mul (by linarith) (mul_le_mul_of_nonneg_left (by linarith) hs0.le) (by positivity) (by norm_num)
      norm_num at *
      nlinarith

end Mfpml.Props
