import Mathlib.Tactic.FieldSimp
import Mathlib.Tactic.Positivity
import Mathlib.Tactic.IntervalCases
import Verif.Lemmas.Problems
import Verif.Spec.Problems

/-!
# C68, C71–C75: the benchmark problems
-/

set_option linter.unusedSectionVars false

namespace Mfpml.Props

open Mfpml.Problems
open Real

variable {d : ℕ}

theorem rowByRow_of_map {f : Batch d → Py Out} (g : (Fin d → ℝ) → Option ℝ) (h : ∀ X, f X = .ok (X.map g)) : RowByRow f where
  one_per_sample X := ⟨_, h X, List.length_map _⟩
  alone X Y hY i hi hj := by
    obtain rfl : X.map g = Y := Except.ok.inj ((h X).symm.trans hY)
    rw [h]
    simp
  concat X Y X' Y' hY hY' := by
    obtain rfl : X.map g = Y := Except.ok.inj ((h X).symm.trans hY)
    obtain rfl : X'.map g = Y' := Except.ok.inj ((h X').symm.trans hY')
    rw [h, List.map_append]
  reorder X Y hY is _ := by
    obtain rfl : X.map g = Y := Except.ok.inj ((h X).symm.trans hY)
    rw [h, List.map_filterMap]
    refine congrArg Except.ok (congrArg (fun q => List.filterMap q is) (funext fun i => ?_))
    rw [List.getElem?_map]

/-! ## C68: row by row -/

/-- C68 for the single-fidelity problems of fixed dimension: batches whose rows have `num_dim` entries. -/
theorem C68_single_fidelity (p : SFName) (hd : p.attrs.numDim = some d) : RowByRow (p.f (d := d)) := by
  obtain rfl : d = p.attrs.numDim.getD 0 := by rw [hd]; rfl
  exact rowByRow_of_map p.at p.f_map

/-- C68 for the constraints of the constrained problems. -/
theorem C68_constraints (p : SFName) (hp : p = .branin1 ∨ p = .branin2) : RowByRow (p.fCons (d := 2)) := by
  rcases hp with rfl | rfl
  · exact rowByRow_of_map _ branin1Cons_map
  · exact rowByRow_of_map _ branin2Cons_map

/-- C68 for `Thevenot` and `Ackley` objects, of any dimension and with any parameters; a one-dimensional argument gives the same response as the batch that consists of it. -/
theorem C68_any_dimension (m : ℕ) (beta a b c : ℝ) :
    RowByRow (thevenotF (d := d) m beta) ∧ RowByRow (ackleyF (d := d) a b c) ∧
    (∀ x : Fin d → ℝ, thevenotF m beta [x] = .ok [thevenotRow m beta x]) ∧ (∀ x : Fin d → ℝ, ackleyF a b c [x] = .ok [ackleyRow a b c x]) ∧
    (∀ x : Fin 2 → ℝ, ∃ y, ackleyN2Row x = .ok y ∧ TakesValue ackleyN2F x y) :=
  ⟨rowByRow_of_map (thevenotRow m beta) fun _ => rfl, rowByRow_of_map (ackleyRow a b c) fun _ => rfl, fun _ => rfl, fun _ => rfl, fun _ => ⟨_, rfl, rfl⟩⟩

/-- C68 for both fidelities of the multi-fidelity problems. -/
theorem C68_multi_fidelity (p : MFName) (t : DType) (hd : p.attrs.numDim = some d) : RowByRow (p.hf (d := d)) ∧ RowByRow (p.lf (d := d) t) := by
  obtain rfl : d = p.attrs.numDim.getD 0 := by rw [hd]; rfl
  exact ⟨rowByRow_of_map p.hfAt p.hf_map, rowByRow_of_map (p.lfAt t) (p.lf_map t)⟩

/-- A batch of two samples and its responses. -/
example : (MFName.booth).hf [![1, 3], ![0, 0]] = .ok [some 0, some 74] := by
  refine (MFName.hf_map .booth _).trans ?_
  show Except.ok [some (boothHfAt ![1, 3]), some (boothHfAt ![0, 0])] = _
  norm_num [boothHfAt]

/-! ## C71: the low-fidelity functions as transforms of the high-fidelity ones -/

theorem takesValue_iff {f : Batch d → Py Out} (g : (Fin d → ℝ) → Option ℝ) (h : ∀ X, f X = .ok (X.map g)) (x : Fin d → ℝ) (y : ℝ) :
    TakesValue f x y ↔ g x = some y := by
  unfold TakesValue
  rw [h]
  constructor
  · intro e
    have := Except.ok.inj e
    simpa using this
  · intro e; simp [e]

/-- C71 for the one-dimensional problems and `mf_Park91B`, `mf_Park91A`: the documented relation between `lf` and `hf`, at every sample. -/
theorem C71_same_point :
    IsTransform (d := 1) MFName.forrester1a.hf (MFName.forrester1a.lf .float) (fun _ y => y - 5) ∧
    IsTransform (d := 1) MFName.forrester1b.hf (MFName.forrester1b.lf .float) (fun x y => 0.5 * y + 10 * (x 0 - 0.5) - 5) ∧
    IsTransform (d := 1) (MFName.discontinuous.lf .float) MFName.discontinuous.hf
      (fun x y => if x 0 ≤ 0.5 then 2 * y - 20 * x 0 + 20 else 4 + 2 * y - 20 * x 0 + 20) ∧
    IsTransform (d := 1) (MFName.contNonlin1D.lf .float) MFName.contNonlin1D.hf (fun x y => y ^ 2 * (x 0 - √2)) ∧
    IsTransform (d := 4) MFName.park91A.hf (MFName.park91A.lf .float) (fun x y => (1 + sin (x 0) / 10) * y - 2 * x 0 + x 1 ^ 2 + x 2 ^ 2 + 0.5) ∧
    IsTransform (d := 4) MFName.park91B.hf (MFName.park91B.lf .float) (fun _ y => 1.2 * y - 1) := by
  refine ⟨fun x y h => ?_, fun x y h => ?_, fun x y h => ?_, fun x y h => ?_, fun x y h => ?_, fun x y h => ?_⟩
  · have h := (takesValue_iff _ (MFName.hf_map .forrester1a) x y).mp h
    obtain rfl := Option.some.inj h
    exact (takesValue_iff _ (MFName.lf_map .forrester1a .float) x _).mpr rfl
  · have h := (takesValue_iff _ (MFName.hf_map .forrester1b) x y).mp h
    obtain rfl := Option.some.inj h
    exact (takesValue_iff _ (MFName.lf_map .forrester1b .float) x _).mpr rfl
  · have h := (takesValue_iff _ (MFName.lf_map .discontinuous .float) x y).mp h
    obtain rfl := Option.some.inj h
    refine (takesValue_iff _ (MFName.hf_map .discontinuous) x _).mpr (congrArg some ?_)
    show (if x 0 ≤ 0.5 then _ else _) = (if x 0 ≤ 0.5 then 2 * (if x 0 ≤ 0.5 then _ else _) - 20 * x 0 + 20 else 4 + 2 * (if x 0 ≤ 0.5 then _ else _) - 20 * x 0 + 20)
    split_ifs <;> rfl
  · have h := (takesValue_iff _ (MFName.lf_map .contNonlin1D .float) x y).mp h
    obtain rfl := Option.some.inj h
    exact (takesValue_iff _ (MFName.hf_map .contNonlin1D) x _).mpr rfl
  · have h := (takesValue_iff _ (MFName.hf_map .park91A) x y).mp h
    refine (takesValue_iff _ (MFName.lf_map .park91A .float) x _).mpr ?_
    show ((park91AHfAt x).map _).map _ = _
    rw [show park91AHfAt x = some y from h]
    refine congrArg some ?_
    ring
  · have h := (takesValue_iff _ (MFName.hf_map .park91B) x y).mp h
    obtain rfl := Option.some.inj h
    exact (takesValue_iff _ (MFName.lf_map .park91B .float) x _).mpr rfl

/-- C71 for the problems whose `lf` evaluates `hf` at another point: `Forrester_1c` shifts, `mf_Sixhump`, `mf_Bohachevsky`, `mf_Booth` and `mf_Himmelblau` scale the variables and add a
term.  Responses of `hf` exist at every point, so the hypotheses can always be met. -/
theorem C71_other_point :
    (∀ (x : Fin 1 → ℝ) y, TakesValue MFName.forrester1c.hf (fun j => x j + 0.2) y → TakesValue (MFName.forrester1c.lf .float) x y) ∧
    (∀ (x : Fin 2 → ℝ) y, TakesValue MFName.sixhump.hf (fun j => 0.7 * x j) y → TakesValue (MFName.sixhump.lf .float) x (y - x 0 * x 1 - 15)) ∧
    (∀ (x : Fin 2 → ℝ) y, TakesValue MFName.bohachevsky.hf ![0.7 * x 0, x 1] y → TakesValue (MFName.bohachevsky.lf .float) x (y + x 0 * x 1 - 12)) ∧
    (∀ (x : Fin 2 → ℝ) y, TakesValue MFName.booth.hf ![0.4 * x 0, x 1] y → TakesValue (MFName.booth.lf .float) x (y + 1.7 * x 0 * x 1 - x 0 + 2 * x 1)) ∧
    (∀ (x : Fin 2 → ℝ) y, TakesValue MFName.himmelblau.hf ![0.5 * x 0, 0.8 * x 1] y →
      TakesValue (MFName.himmelblau.lf .float) x (y + x 1 ^ 3 - (x 0 + 1) ^ 2)) := by
  refine ⟨fun x y h => ?_, fun x y h => ?_, fun x y h => ?_, fun x y h => ?_, fun x y h => ?_⟩
  · have h := (takesValue_iff _ (MFName.hf_map .forrester1c) _ y).mp h
    obtain rfl := Option.some.inj h
    exact (takesValue_iff _ (MFName.lf_map .forrester1c .float) x _).mpr rfl
  · have h := (takesValue_iff _ (MFName.hf_map .sixhump) _ y).mp h
    obtain rfl := Option.some.inj h
    refine (takesValue_iff _ (MFName.lf_map .sixhump .float) x _).mpr (congrArg some ?_)
    simp only [sixhumpLfAt, sixhumpAt]
    ring
  · have h := (takesValue_iff _ (MFName.hf_map .bohachevsky) _ y).mp h
    obtain rfl := Option.some.inj h
    refine (takesValue_iff _ (MFName.lf_map .bohachevsky .float) x _).mpr (congrArg some ?_)
    simp only [bohachevskyLfAt, bohachevskyHfAt, Matrix.cons_val_zero, Matrix.cons_val_one]
    ring
  · have h := (takesValue_iff _ (MFName.hf_map .booth) _ y).mp h
    obtain rfl := Option.some.inj h
    refine (takesValue_iff _ (MFName.lf_map .booth .float) x _).mpr (congrArg some ?_)
    simp only [boothLfAt, boothHfAt, Matrix.cons_val_zero, Matrix.cons_val_one]
    ring
  · have h := (takesValue_iff _ (MFName.hf_map .himmelblau) _ y).mp h
    obtain rfl := Option.some.inj h
    refine (takesValue_iff _ (MFName.lf_map .himmelblau .float) x _).mpr (congrArg some ?_)
    simp only [himmelblauLfAt, himmelblauHfAt, Matrix.cons_val_zero, Matrix.cons_val_one]
    ring

/-- C71 for `mf_CurrinExp`, samples in an array of floats: `lf` is the mean of `hf` at the four corners `x ± 0.05`. -/
theorem C71_currin_partial (x : Fin 2 → ℝ) (y1 y2 y3 y4 : ℝ) (h1 : TakesValue MFName.currinExp.hf ![x 0 + 0.05, x 1 + 0.05] y1)
    (h2 : TakesValue MFName.currinExp.hf ![x 0 + 0.05, x 1 - 0.05] y2) (h3 : TakesValue MFName.currinExp.hf ![x 0 - 0.05, x 1 + 0.05] y3)
    (h4 : TakesValue MFName.currinExp.hf ![x 0 - 0.05, x 1 - 0.05] y4) :
    TakesValue (MFName.currinExp.lf .float) x ((y1 + y2 + y3 + y4) / 4) := by
  have h1 : currinHfAt _ = some y1 := (takesValue_iff _ (MFName.hf_map .currinExp) _ _).mp h1
  have h2 : currinHfAt _ = some y2 := (takesValue_iff _ (MFName.hf_map .currinExp) _ _).mp h2
  have h3 : currinHfAt _ = some y3 := (takesValue_iff _ (MFName.hf_map .currinExp) _ _).mp h3
  have h4 : currinHfAt _ = some y4 := (takesValue_iff _ (MFName.hf_map .currinExp) _ _).mp h4
  refine (takesValue_iff _ (MFName.lf_map .currinExp .float) x _).mpr ?_
  have e1 : (fun k => x k + 0.05) = ![x 0 + 0.05, x 1 + 0.05] := by funext k; fin_cases k <;> rfl
  have e4 : (fun k => x k - 0.05) = ![x 0 - 0.05, x 1 - 0.05] := by funext k; fin_cases k <;> rfl
  have e2 : addAt .float 1 (-0.05) (addAt .float 0 0.05 x) = ![x 0 + 0.05, x 1 - 0.05] := by
    funext k; fin_cases k <;> simp [addAt, DType.store, sub_eq_add_neg]
  have e3 : addAt .float 1 0.05 (addAt .float 0 (-0.05) x) = ![x 0 - 0.05, x 1 + 0.05] := by
    funext k; fin_cases k <;> simp [addAt, DType.store, sub_eq_add_neg]
  show mean4 (currinHfAt _) (currinHfAt _) (currinHfAt _) (currinHfAt _) = _
  rw [e1, e2, e3, e4, h1, h2, h3, h4]
  show some ((y1 + y2 + y3 + y4) / 4.0) = _
  norm_num

theorem currinHfAt_some (x : Fin 2 → ℝ) (h0 : -0.05 ≤ x 0) : ∃ y, currinHfAt x = some y := by
  have h0 : -(1 / 20) ≤ x 0 := by norm_num at h0 ⊢; linarith
  have hden : (100 * x 0 ^ 3 + 500 * x 0 ^ 2 + 4 * x 0 + 20 : ℝ) ≠ 0 := by
    have : 0 < 100 * x 0 ^ 3 + 500 * x 0 ^ 2 + 4 * x 0 + 20 := by
      have h1 : 0 ≤ x 0 ^ 2 * (x 0 + 1 / 20) := mul_nonneg (sq_nonneg _) (by linarith)
      nlinarith [sq_nonneg (x 0)]
    exact this.ne'
  unfold currinHfAt fdiv
  rw [if_neg hden]
  exact ⟨_, rfl⟩

/-- The corners of every sample of the input domain have values, so `C71_currin_partial` applies to it. -/
example (x : Fin 2 → ℝ) (hx : InDomain MFName.currinExp.attrs.domain x) : ∃ y1 y2 y3 y4,
    TakesValue MFName.currinExp.hf ![x 0 + 0.05, x 1 + 0.05] y1 ∧ TakesValue MFName.currinExp.hf ![x 0 + 0.05, x 1 - 0.05] y2 ∧
    TakesValue MFName.currinExp.hf ![x 0 - 0.05, x 1 + 0.05] y3 ∧ TakesValue MFName.currinExp.hf ![x 0 - 0.05, x 1 - 0.05] y4 := by
  have h0 : 0 ≤ x 0 := by
    simp only [InDomain, MFName.attrs, List.ofFn_succ, List.forall₂_cons] at hx
    exact hx.1.1
  have key : ∀ v w : ℝ, -0.05 ≤ v → ∃ y, TakesValue MFName.currinExp.hf ![v, w] y := fun v w hv => by
    obtain ⟨y, hy⟩ := currinHfAt_some ![v, w] hv
    exact ⟨y, (takesValue_iff _ (MFName.hf_map .currinExp) _ _).mpr hy⟩
  have e : (-0.05 : ℝ) ≤ x 0 - 0.05 := by linarith
  have e' : (-0.05 : ℝ) ≤ x 0 + 0.05 := by norm_num; linarith
  obtain ⟨y1, g1⟩ := key (x 0 + 0.05) (x 1 + 0.05) e'
  obtain ⟨y2, g2⟩ := key (x 0 + 0.05) (x 1 - 0.05) e'
  obtain ⟨y3, g3⟩ := key (x 0 - 0.05) (x 1 + 0.05) e
  obtain ⟨y4, g4⟩ := key (x 0 - 0.05) (x 1 - 0.05) e
  exact ⟨y1, y2, y3, y4, g1, g2, g3, g4⟩

/-- The value of `mf_CurrinExp.hf` away from `x2 = 0`. -/
noncomputable def currinVal (u v : ℝ) : ℝ :=
  (1 - exp (-1 / (2 * v))) * (2300 * u ^ 3 + 1900 * u ^ 2 + 2092 * u + 60) / (100 * u ^ 3 + 500 * u ^ 2 + 4 * u + 20)

theorem currinHfAt_eq (u v : ℝ) (h1 : 1e-8 < v) (hden : 0 < 100 * u ^ 3 + 500 * u ^ 2 + 4 * u + 20) : currinHfAt ![u, v] = some (currinVal u v) := by
  show fdiv ((if v ≤ 1e-8 then 1 else 1 - exp (-1 / (2 * v))) * (2300 * u ^ 3 + 1900 * u ^ 2 + 2092 * u + 60))
    (100 * u ^ 3 + 500 * u ^ 2 + 4 * u + 20) = _
  unfold fdiv
  rw [if_neg (show ¬ (100 * u ^ 3 + 500 * u ^ 2 + 4 * u + 20 = 0) from hden.ne'), if_neg (not_le.mpr h1)]
  rfl

/-- C71 fails for `mf_CurrinExp` when the samples are integers: the shifted columns are stored into a copy of the integer array and lose their fractional part.  At the corner `(1, 1)` of the
input domain (which the class itself gives as an array of integers), the value of `lf` is not the mean of the four values of `hf`. -/
theorem C71_counterexample : ∃ y1 y2 y3 y4 z : ℝ,
    TakesValue MFName.currinExp.hf ![1 + 0.05, 1 + 0.05] y1 ∧ TakesValue MFName.currinExp.hf ![1 + 0.05, 1 - 0.05] y2 ∧
    TakesValue MFName.currinExp.hf ![1 - 0.05, 1 + 0.05] y3 ∧ TakesValue MFName.currinExp.hf ![1 - 0.05, 1 - 0.05] y4 ∧
    TakesValue (MFName.currinExp.lf .int) ![1, 1] z ∧ z ≠ (y1 + y2 + y3 + y4) / 4 := by
  have c1 := currinHfAt_eq (1 + 0.05) (1 + 0.05) (by norm_num) (by norm_num)
  have c2 := currinHfAt_eq (1 + 0.05) (1 - 0.05) (by norm_num) (by norm_num)
  have c3 := currinHfAt_eq (1 - 0.05) (1 + 0.05) (by norm_num) (by norm_num)
  have c4 := currinHfAt_eq (1 - 0.05) (1 - 0.05) (by norm_num) (by norm_num)
  have c5 : currinHfAt ![1, 0] = some (6352 / 624) := by
    unfold currinHfAt fdiv
    norm_num
  have c6 := currinHfAt_eq (0) (1) (by norm_num) (by norm_num)
  have s1 : DType.int.store (1 + 0.05) = 1 := by
    show (if (0 : ℝ) ≤ 1 + 0.05 then ((⌊(1 + 0.05 : ℝ)⌋ : ℤ) : ℝ) else _) = 1
    rw [if_pos (by norm_num), Int.floor_eq_iff.mpr (show ((1 : ℤ) : ℝ) ≤ _ ∧ _ from by constructor <;> norm_num)]
    norm_num
  have s0 : DType.int.store (1 + -0.05) = 0 := by
    show (if (0 : ℝ) ≤ 1 + -0.05 then ((⌊(1 + -0.05 : ℝ)⌋ : ℤ) : ℝ) else _) = 0
    rw [if_pos (by norm_num), Int.floor_eq_iff.mpr (show ((0 : ℤ) : ℝ) ≤ _ ∧ _ from by constructor <;> norm_num)]
    norm_num
  have e1 : (fun k => ![(1 : ℝ), 1] k + 0.05) = ![1 + 0.05, 1 + 0.05] := by funext k; fin_cases k <;> rfl
  have e4 : (fun k => ![(1 : ℝ), 1] k - 0.05) = ![1 - 0.05, 1 - 0.05] := by funext k; fin_cases k <;> rfl
  have e2 : addAt .int 1 (-0.05) (addAt .int 0 0.05 ![1, 1]) = ![1, 0] := by
    funext k; fin_cases k
    · exact s1
    · exact s0
  have e3 : addAt .int 1 0.05 (addAt .int 0 (-0.05) ![1, 1]) = ![0, 1] := by
    funext k; fin_cases k
    · exact s0
    · exact s1
  have hz : currinLfAt .int ![1, 1] = some ((currinVal (1 + 0.05) (1 + 0.05) + 6352 / 624 + currinVal 0 1 + currinVal (1 - 0.05) (1 - 0.05)) / 4.0) := by
    show mean4 (currinHfAt _) (currinHfAt _) (currinHfAt _) (currinHfAt _) = _
    rw [e1, e2, e3, e4, c1, c4, c5, c6]
    rfl
  refine ⟨_, _, _, _, _, (takesValue_iff _ (MFName.hf_map .currinExp) _ _).mpr c1, (takesValue_iff _ (MFName.hf_map .currinExp) _ _).mpr c2,
    (takesValue_iff _ (MFName.hf_map .currinExp) _ _).mpr c3, (takesValue_iff _ (MFName.hf_map .currinExp) _ _).mpr c4,
    (takesValue_iff _ (MFName.lf_map .currinExp .int) _ _).mpr hz, ?_⟩
  · have x2 := add_one_le_exp (-1 / (2 * (1 - 0.05)) : ℝ)
    have x3 := add_one_le_exp (-1 / (2 * (1 + 0.05)) : ℝ)
    have x6 : exp (-1 / (2 * 1) : ℝ) ≤ 2 / 3 := by
      have h := add_one_le_exp (1 / 2 : ℝ)
      have : exp (-1 / (2 * 1) : ℝ) * exp (1 / 2) = 1 := by rw [← exp_add]; norm_num
      nlinarith [exp_pos (-1 / (2 * 1) : ℝ)]
    unfold currinVal
    generalize exp (-1 / (2 * (1 - 0.05)) : ℝ) = a at *
    generalize exp (-1 / (2 * (1 + 0.05)) : ℝ) = b at *
    generalize exp (-1 / (2 * 1) : ℝ) = c at *
    intro h
    norm_num at h x2 x3
    linarith

/-! ## C72: defined on the whole input domain -/

theorem inDomain_bounds {dom : List (ℝ × ℝ)} {x : Fin d → ℝ} (hx : InDomain dom x) (i : Fin d) {lo hi : ℝ} (h : dom[(i : ℕ)]? = some (lo, hi)) :
    lo ≤ x i ∧ x i ≤ hi := by
  have hl := List.Forall₂.length_eq hx
  obtain ⟨h1, h2⟩ := List.getElem?_eq_some_iff.mp h
  have h3 := List.forall₂_iff_get.mp hx
  have h4 := h3.2 i h1 (by rw [List.length_ofFn]; exact i.2)
  simp only [List.get_eq_getElem, h2, List.getElem_ofFn] at h4
  exact h4

theorem hartmanSum_pos {k : ℕ} (a p : Fin 4 → Fin k → ℝ) (c : Fin 4 → ℝ) (hc : ∀ i, 0 < c i) (x : Fin k → ℝ) : 0 < hartmanSum a p c x :=
  Finset.sum_pos (fun i _ => mul_pos (hc i) (exp_pos _)) ⟨0, Finset.mem_univ _⟩

theorem negLogNeg_neg {s : ℝ} (hs : 0 < s) : negLogNeg (-s) = some (-Real.log s) := by
  unfold negLogNeg flog
  rw [neg_neg, if_pos hs]
  rfl

theorem hartman6C_pos (i : Fin 4) : 0 < hartman6C i := by fin_cases i <;> norm_num [hartman6C]

theorem hartman6LfC_pos (i : Fin 4) : 0 < hartman6LfC i := by fin_cases i <;> norm_num [hartman6LfC]

theorem borehole_defined {x : Fin 8 → ℝ} (hx : InDomain MFName.borehole.attrs.domain x) {a b : ℝ} (hb : 0 ≤ b) : ∃ y, boreholeAt a b x = some y := by
  have h0 := inDomain_bounds hx 0 (lo := 0.05) (hi := 0.15) rfl
  have h1 := inDomain_bounds hx 1 (lo := 100) (hi := 50000) rfl
  have h2 := inDomain_bounds hx 2 (lo := 63070) (hi := 115600) rfl
  have h4 := inDomain_bounds hx 4 (lo := 63.1) (hi := 116) rfl
  have h6 := inDomain_bounds hx 6 (lo := 1120) (hi := 1680) rfl
  have h7 := inDomain_bounds hx 7 (lo := 9855) (hi := 12045) rfl
  norm_num at h0 h4
  have p0 : 0 < x 0 := by linarith
  have p2 : 0 < x 2 := by linarith
  have p4 : 0 < x 4 := by linarith
  have p6 : 0 < x 6 := by linarith
  have p7 : 0 < x 7 := by linarith
  have q1 : 1 < x 1 / x 0 := by rw [lt_div_iff₀ p0]; linarith
  have hlog : 0 < Real.log (x 1 / x 0) := Real.log_pos q1
  have t1 : fdiv (x 1) (x 0) = some (x 1 / x 0) := if_neg p0.ne'
  have t2 : flog (x 1 / x 0) = some (Real.log (x 1 / x 0)) := if_pos (by linarith)
  have t3 : fdiv (2 * x 6 * x 2) (Real.log (x 1 / x 0) * x 0 ^ 2 * x 7) = some _ := if_neg (by positivity)
  have t4 : fdiv (x 2) (x 4) = some (x 2 / x 4) := if_neg p4.ne'
  have t5 : fdiv (a * x 2 * (x 3 - x 5)) (Real.log (x 1 / x 0) * (b + 2 * x 6 * x 2 / (Real.log (x 1 / x 0) * x 0 ^ 2 * x 7) + x 2 / x 4)) = some _ :=
    if_neg (by positivity)
  unfold boreholeAt
  simp only [t1, t2, t3, t4, Option.bind_eq_bind, Option.bind_some]
  exact ⟨_, t5⟩

theorem store_ge (t : DType) {v : ℝ} (h : -0.05 ≤ v) : -0.05 ≤ t.store v := by
  cases t with
  | float => exact h
  | int =>
    show -0.05 ≤ (if 0 ≤ v then ((⌊v⌋ : ℤ) : ℝ) else ((⌈v⌉ : ℤ) : ℝ))
    split_ifs with h0
    · have : (0 : ℝ) ≤ ((⌊v⌋ : ℤ) : ℝ) := by exact_mod_cast Int.floor_nonneg.mpr h0
      linarith
    · exact h.trans (Int.le_ceil v)

theorem currinLf_defined (t : DType) {x : Fin 2 → ℝ} (h0 : 0 ≤ x 0) : ∃ y, currinLfAt t x = some y := by
  have hm : (-0.05 : ℝ) ≤ x 0 - 0.05 := by linarith
  have hp : (-0.05 : ℝ) ≤ x 0 + 0.05 := by norm_num; linarith
  have hm' : (-0.05 : ℝ) ≤ x 0 + -0.05 := by linarith
  obtain ⟨y1, e1⟩ := currinHfAt_some (fun k => x k + 0.05) hp
  obtain ⟨y2, e2⟩ := currinHfAt_some (addAt t 1 (-0.05) (addAt t 0 0.05 x)) (store_ge t hp)
  obtain ⟨y3, e3⟩ := currinHfAt_some (addAt t 1 0.05 (addAt t 0 (-0.05) x)) (store_ge t hm')
  obtain ⟨y4, e4⟩ := currinHfAt_some (fun k => x k - 0.05) hm
  unfold currinLfAt
  rw [e1, e2, e3, e4]
  exact ⟨_, rfl⟩

theorem park91A_defined {x : Fin 4 → ℝ} (hx : InDomain MFName.park91A.attrs.domain x) (h : x 0 ≠ 0) : ∃ y, park91AHfAt x = some y := by
  have h1 := inDomain_bounds hx 1 (lo := 0.0) (hi := 1.0) rfl
  have h3 := inDomain_bounds hx 3 (lo := 0.0) (hi := 1.0) rfl
  norm_num at h1 h3
  have t1 : fdiv ((x 1 + x 2 ^ 2) * x 3) (x 0 ^ 2) = some _ := if_neg (by positivity)
  have t2 : fsqrt (1 + (x 1 + x 2 ^ 2) * x 3 / x 0 ^ 2) = some _ := if_neg (by
    have := h1.1
    have := h3.1
    have : 0 ≤ (x 1 + x 2 ^ 2) * x 3 / x 0 ^ 2 := by positivity
    linarith)
  unfold park91AHfAt
  simp only [t1, t2, Option.bind_eq_bind, Option.bind_some]
  exact ⟨_, rfl⟩

/-- C72 for the single-fidelity problems of fixed dimension: every point of the input domain, and indeed every point, has a finite value; so have the constraints. -/
theorem C72_single_fidelity (p : SFName) (hd : p.attrs.numDim = some d) (x : Fin d → ℝ) : ∃ y, TakesValue p.f x y := by
  obtain rfl : d = p.attrs.numDim.getD 0 := by rw [hd]; rfl
  have key : ∃ y, p.at x = some y := by
    cases p with
    | hartman6 => exact ⟨_, negLogNeg_neg (hartmanSum_pos _ _ _ hartman6C_pos _)⟩
    | forrester => exact ⟨_, rfl⟩
    | branin => exact ⟨_, rfl⟩
    | goldPrice => exact ⟨_, rfl⟩
    | sixhump => exact ⟨_, rfl⟩
    | sasena => exact ⟨_, rfl⟩
    | hartman3 => exact ⟨_, rfl⟩
    | ackleyN2 => exact ⟨_, rfl⟩
    | branin1 => exact ⟨_, rfl⟩
    | branin2 => exact ⟨_, rfl⟩
  obtain ⟨y, hy⟩ := key
  exact ⟨y, (takesValue_iff _ p.f_map _ _).mpr hy⟩

/-- C72 for `Thevenot` and `Ackley` objects of positive dimension (and `beta ≠ 0`): every point has a finite value. -/
theorem C72_any_dimension (hd : d ≠ 0) (m : ℕ) (beta a b c : ℝ) (hb : beta ≠ 0) (x : Fin d → ℝ) :
    (∃ y, TakesValue (thevenotF m beta) x y) ∧ ∃ y, TakesValue (ackleyF a b c) x y := by
  refine ⟨⟨_, (takesValue_iff _ (fun _ => rfl) _ _).mpr (if_neg (by tauto))⟩, ?_⟩
  have hd' : (d : ℝ) ≠ 0 := Nat.cast_ne_zero.mpr hd
  have t1 : fmean (fun j => x j ^ 2) = some _ := if_neg hd'
  have t2 : fsqrt ((∑ j, x j ^ 2) / d) = some _ := if_neg (not_lt.mpr (div_nonneg (Finset.sum_nonneg fun j _ => sq_nonneg _) (Nat.cast_nonneg _)))
  have t3 : fmean (fun j => cos (c * x j)) = some _ := if_neg hd'
  have key : ∃ y, ackleyRow a b c x = some y := by
    unfold ackleyRow
    simp only [t1, t2, t3, Option.bind_eq_bind, Option.bind_some]
    exact ⟨_, rfl⟩
  obtain ⟨y, hy⟩ := key
  exact ⟨y, (takesValue_iff (ackleyRow a b c) (fun _ => rfl) _ _).mpr hy⟩

/-- C72 for the multi-fidelity problems.  Missing from the claim: `mf_Park91A` has a value only where `x1 ≠ 0`. -/
theorem C72_multi_fidelity_partial (p : MFName) (t : DType) (hd : p.attrs.numDim = some d) (x : Fin d → ℝ) (hx : InDomain p.attrs.domain x)
    (hpark : p = .park91A → ∀ i : Fin d, (i : ℕ) = 0 → x i ≠ 0) : (∃ y, TakesValue p.hf x y) ∧ ∃ y, TakesValue (p.lf t) x y := by
  obtain rfl : d = p.attrs.numDim.getD 0 := by rw [hd]; rfl
  have key : (∃ y, p.hfAt x = some y) ∧ ∃ y, p.lfAt t x = some y := by
    cases p with
    | forrester1a => exact ⟨⟨_, rfl⟩, ⟨_, rfl⟩⟩
    | forrester1b => exact ⟨⟨_, rfl⟩, ⟨_, rfl⟩⟩
    | forrester1c => exact ⟨⟨_, rfl⟩, ⟨_, rfl⟩⟩
    | hartman3 => exact ⟨⟨_, rfl⟩, ⟨_, rfl⟩⟩
    | sixhump => exact ⟨⟨_, rfl⟩, ⟨_, rfl⟩⟩
    | hartman6 => exact ⟨⟨_, negLogNeg_neg (hartmanSum_pos _ _ _ hartman6C_pos _)⟩, ⟨_, negLogNeg_neg (hartmanSum_pos _ _ _ hartman6LfC_pos _)⟩⟩
    | discontinuous => exact ⟨⟨_, rfl⟩, ⟨_, rfl⟩⟩
    | contNonlin1D => exact ⟨⟨_, rfl⟩, ⟨_, rfl⟩⟩
    | phaseShift => exact ⟨⟨_, rfl⟩, ⟨_, rfl⟩⟩
    | bohachevsky => exact ⟨⟨_, rfl⟩, ⟨_, rfl⟩⟩
    | booth => exact ⟨⟨_, rfl⟩, ⟨_, rfl⟩⟩
    | borehole => exact ⟨borehole_defined hx (by norm_num), borehole_defined hx (by norm_num)⟩
    | currinExp =>
      have h0 := inDomain_bounds hx (⟨0, by norm_num⟩ : Fin 2) (lo := 0) (hi := 1) rfl
      refine ⟨currinHfAt_some x ?_, currinLf_defined t h0.1⟩
      exact le_trans (by norm_num) h0.1
    | himmelblau => exact ⟨⟨_, rfl⟩, ⟨_, rfl⟩⟩
    | park91A =>
      obtain ⟨y, hy⟩ := park91A_defined hx (hpark rfl (⟨0, by norm_num⟩ : Fin 4) rfl)
      refine ⟨⟨y, hy⟩, ?_⟩
      show ∃ y, park91ALfAt x = some y
      unfold park91ALfAt
      rw [hy]
      exact ⟨_, rfl⟩
    | park91B => exact ⟨⟨_, rfl⟩, ⟨_, rfl⟩⟩
  obtain ⟨⟨y, hy⟩, ⟨z, hz⟩⟩ := key
  exact ⟨⟨y, (takesValue_iff _ p.hf_map _ _).mpr hy⟩, ⟨z, (takesValue_iff _ (p.lf_map t) _ _).mpr hz⟩⟩

/-- C72 fails for `mf_Park91A`: at every point of the input domain with `x1 = 0`, e.g. the origin, neither fidelity has a value (the code divides by `x1 ** 2`). -/
theorem C72_counterexample : ¬ DefinedOn MFName.park91A.attrs (MFName.park91A.hf (d := 4)) ∧ ¬ DefinedOn MFName.park91A.attrs (MFName.park91A.lf (d := 4) .float) := by
  have hx : InDomain MFName.park91A.attrs.domain (fun _ : Fin 4 => (0 : ℝ)) := by
    show List.Forall₂ _ [((0.0 : ℝ), (1.0 : ℝ)), (0.0, 1.0), (0.0, 1.0), (0.0, 1.0)] [(0 : ℝ), 0, 0, 0]
    norm_num
  have h0 : park91AHfAt (fun _ => 0) = none := by
    unfold park91AHfAt fdiv
    norm_num
  constructor
  · intro h
    obtain ⟨y, hy⟩ := h _ hx
    have hy : park91AHfAt _ = some y := (takesValue_iff _ (MFName.hf_map .park91A) _ _).mp hy
    rw [h0] at hy
    cases hy
  · intro h
    obtain ⟨y, hy⟩ := h _ hx
    have hy : park91ALfAt _ = some y := (takesValue_iff _ (MFName.lf_map .park91A .float) _ _).mp hy
    unfold park91ALfAt at hy
    rw [h0] at hy
    cases hy

/-- The hypotheses of `C72_multi_fidelity_partial` hold e.g. at the centre of the domain of `mf_Park91A`. -/
example : (∃ y, TakesValue MFName.park91A.hf (fun _ : Fin 4 => (1 / 2 : ℝ)) y) ∧ ∃ y, TakesValue (MFName.park91A.lf .float) (fun _ : Fin 4 => (1 / 2 : ℝ)) y :=
  C72_multi_fidelity_partial .park91A .float rfl _
    (by
      show List.Forall₂ _ [((0.0 : ℝ), (1.0 : ℝ)), (0.0, 1.0), (0.0, 1.0), (0.0, 1.0)] [(1 / 2 : ℝ), 1 / 2, 1 / 2, 1 / 2]
      norm_num)
    (fun _ _ _ => by norm_num)

/-! ## C73: instances are independent -/

theorem ackleyRow_zero (hd : d ≠ 0) (a b c : ℝ) : ackleyRow a b c (fun _ : Fin d => 0) = some 0 := by
  have hd' : (d : ℝ) ≠ 0 := Nat.cast_ne_zero.mpr hd
  have t1 : fmean (fun _ : Fin d => (0 : ℝ) ^ 2) = some 0 := by
    unfold fmean fdiv
    rw [if_neg hd']
    simp
  have t2 : fsqrt 0 = some 0 := by unfold fsqrt; simp
  have t3 : fmean (fun _ : Fin d => cos (c * 0)) = some 1 := by
    unfold fmean fdiv
    rw [if_neg hd']
    simp [hd']
  unfold ackleyRow
  simp only [t1, t2, t3, Option.bind_eq_bind, Option.bind_some]
  simp only [mul_zero, exp_zero, mul_one]
  exact congrArg some (by ring)

theorem thevenotRow_zero (hd : d ≠ 0) {m : ℕ} (hm : m ≠ 0) {beta : ℝ} (hb : beta ≠ 0) : thevenotRow m beta (fun _ : Fin d => 0) = some (-1) := by
  have : NeZero d := ⟨hd⟩
  unfold thevenotRow
  rw [if_neg (by tauto)]
  have hp : (∏ _j : Fin d, (0 : ℝ) ^ 2) = 0 := Finset.prod_eq_zero (Finset.mem_univ (0 : Fin d)) (by norm_num)
  rw [hp]
  have : (0 : ℝ) ^ (2 * m) = 0 := zero_pow (by omega)
  simp only [zero_div, this, Finset.sum_const_zero, neg_zero, exp_zero, cos_zero, one_pow, Finset.prod_const_one]
  norm_num

theorem construct_thevenot {cls : Classes} {nd : DimArg} {m : ℕ} {beta : ℝ} {o : Obj} {cls' : Classes} (h : construct cls (.thevenot nd m beta) = .ok (o, cls')) :
    ∃ k : ℕ, nd = some (k : ℤ) ∧ o = .thevenot k (List.replicate k (-2 * π, 2 * π)) m beta ∧
      cls' = { cls with thevenot := ⟨some k, List.replicate k (-2 * π, 2 * π), .num (thevenotRow m beta (fun _ : Fin k => 0)), .list (List.replicate k 0)⟩ } := by
  cases nd with
  | none => cases h
  | some z =>
    rcases lt_or_ge z 0 with hz | hz
    · obtain ⟨_, h1, _⟩ := Py.bind_ok.mp h
      rw [anyDimCheck, if_pos hz] at h1
      cases h1
    · obtain ⟨_, _, h2⟩ := Py.bind_ok.mp h
      obtain ⟨k, hk, h3⟩ := Py.bind_ok.mp h2
      obtain rfl : z.toNat = k := Except.ok.inj hk
      have h4 := Except.ok.inj h3
      exact ⟨z.toNat, by rw [Int.toNat_of_nonneg hz], (congrArg Prod.fst h4).symm, (congrArg Prod.snd h4).symm⟩

theorem construct_ackley {cls : Classes} {nd : DimArg} {a b c : ℝ} {o : Obj} {cls' : Classes} (h : construct cls (.ackley nd a b c) = .ok (o, cls')) :
    ∃ k : ℕ, nd = some (k : ℤ) ∧ o = .ackley k (List.replicate k (-32, 32)) a b c ∧
      cls' = { cls with ackley := ⟨some k, List.replicate k (-32, 32), .num (ackleyRow a b c (fun _ : Fin k => 0)), .list (List.replicate k 0)⟩ } := by
  cases nd with
  | none => cases h
  | some z =>
    rcases lt_or_ge z 0 with hz | hz
    · obtain ⟨_, h1, _⟩ := Py.bind_ok.mp h
      rw [anyDimCheck, if_pos hz] at h1
      cases h1
    · obtain ⟨_, _, h2⟩ := Py.bind_ok.mp h
      obtain ⟨k, hk, h3⟩ := Py.bind_ok.mp h2
      obtain rfl : z.toNat = k := Except.ok.inj hk
      have h4 := Except.ok.inj h3
      exact ⟨z.toNat, by rw [Int.toNat_of_nonneg hz], (congrArg Prod.fst h4).symm, (congrArg Prod.snd h4).symm⟩

theorem construct_sf {cls : Classes} {p : SFName} {nd : DimArg} {o : Obj} {cls' : Classes} (h : construct cls (.sf p nd) = .ok (o, cls')) :
    o = .sf p ∧ cls' = cls := by
  obtain ⟨_, _, h2⟩ := Py.bind_ok.mp h
  have h4 := Except.ok.inj h2
  exact ⟨(congrArg Prod.fst h4).symm, (congrArg Prod.snd h4).symm⟩

theorem construct_mf {cls : Classes} {p : MFName} {nd : DimArg} {o : Obj} {cls' : Classes} (h : construct cls (.mf p nd) = .ok (o, cls')) :
    o = .mf p ∧ cls' = cls := by
  obtain ⟨_, _, h2⟩ := Py.bind_ok.mp h
  have h4 := Except.ok.inj h2
  exact ⟨(congrArg Prod.fst h4).symm, (congrArg Prod.snd h4).symm⟩

/-- A property of the class attributes that every constructor call in a list keeps, holds after the list. -/
theorem constructAll_inv (P : Classes → Prop) (l : List Ctor) (hP : ∀ c ∈ l, ∀ cls o cls', P cls → construct cls c = .ok (o, cls') → P cls') :
    ∀ cls, P cls → P (constructAll cls l) := by
  induction l with
  | nil => exact fun cls h => h
  | cons c l ih =>
    intro cls h
    have ih' := ih fun c' hc' => hP c' (List.mem_cons_of_mem _ hc')
    unfold constructAll
    cases e : construct cls c with
    | error _ => exact ih' cls h
    | ok r => exact ih' r.2 (hP c (List.mem_cons_self ..) cls r.1 r.2 h e)

/-- C73, the part that holds for every history: whatever objects are created later, `num_dim` and `input_domain` of an existing object and its objective stay the same; an object of a class of
fixed dimension keeps all its attributes; and if only ordinary arguments are used, an object keeps its `optimum`.
Missing (false, see `C73_counterexample`): `optimum_scheme` and what `_get_dimension`, `_input_domain` report for `Thevenot` and `Ackley` objects. -/
theorem C73_partial (cls0 cls : Classes) (c : Ctor) (o : Obj) (hc : construct cls0 c = .ok (o, cls)) (later : List Ctor) :
    (o.attrs (constructAll cls later)).numDim = (o.attrs cls).numDim ∧ (o.attrs (constructAll cls later)).domain = (o.attrs cls).domain ∧
    ((∀ m beta nd, c ≠ .thevenot nd m beta) → (∀ a b k nd, c ≠ .ackley nd a b k) →
      o.attrs (constructAll cls later) = o.attrs cls ∧ o.classAttrs (constructAll cls later) = o.classAttrs cls) ∧
    (c.Ordinary → (∀ c' ∈ later, c'.Ordinary) → (o.attrs (constructAll cls later)).optimum = (o.attrs cls).optimum) := by
  have keepA : (∀ c' ∈ later, c'.Ordinary) → cls.ackley.optimum = .num (some 0) → (constructAll cls later).ackley.optimum = .num (some 0) := by
    intro hl
    refine constructAll_inv (fun t => t.ackley.optimum = .num (some 0)) later ?_ cls
    intro c' hc' t o' t' ht e
    cases c' with
    | sf p nd => rw [(construct_sf e).2]; exact ht
    | mf p nd => rw [(construct_mf e).2]; exact ht
    | thevenot nd m beta => obtain ⟨k, _, _, rfl⟩ := construct_thevenot e; exact ht
    | ackley nd a b g =>
      obtain ⟨k, hk, _, rfl⟩ := construct_ackley e
      have ho : nd ≠ some 0 := hl _ hc'
      have hk0 : k ≠ 0 := by rintro rfl; exact ho hk
      exact congrArg Attr.num (ackleyRow_zero hk0 a b g)
  have keepT : (∀ c' ∈ later, c'.Ordinary) → cls.thevenot.optimum = .num (some (-1)) → (constructAll cls later).thevenot.optimum = .num (some (-1)) := by
    intro hl
    refine constructAll_inv (fun t => t.thevenot.optimum = .num (some (-1))) later ?_ cls
    intro c' hc' t o' t' ht e
    cases c' with
    | sf p nd => rw [(construct_sf e).2]; exact ht
    | mf p nd => rw [(construct_mf e).2]; exact ht
    | ackley nd a b g => obtain ⟨k, _, _, rfl⟩ := construct_ackley e; exact ht
    | thevenot nd m beta =>
      obtain ⟨k, hk, _, rfl⟩ := construct_thevenot e
      have ho : nd ≠ some 0 ∧ m ≠ 0 ∧ beta ≠ 0 := hl _ hc'
      have hk0 : k ≠ 0 := by rintro rfl; exact ho.1 hk
      exact congrArg Attr.num (thevenotRow_zero hk0 ho.2.1 ho.2.2)
  cases c with
  | sf p nd =>
    obtain ⟨rfl, rfl⟩ := construct_sf hc
    exact ⟨rfl, rfl, fun _ _ => ⟨rfl, rfl⟩, fun _ _ => rfl⟩
  | mf p nd =>
    obtain ⟨rfl, rfl⟩ := construct_mf hc
    exact ⟨rfl, rfl, fun _ _ => ⟨rfl, rfl⟩, fun _ _ => rfl⟩
  | thevenot nd m beta =>
    obtain ⟨k, hk, rfl, hcls⟩ := construct_thevenot hc
    refine ⟨rfl, rfl, fun h _ => absurd rfl (h m beta nd), fun ho hl => ?_⟩
    have ho : nd ≠ some 0 ∧ m ≠ 0 ∧ beta ≠ 0 := ho
    have hk0 : k ≠ 0 := by rintro rfl; exact ho.1 hk
    have h1 : cls.thevenot.optimum = .num (some (-1)) := by rw [hcls]; exact congrArg Attr.num (thevenotRow_zero hk0 ho.2.1 ho.2.2)
    exact (keepT hl h1).trans h1.symm
  | ackley nd a b g =>
    obtain ⟨k, hk, rfl, hcls⟩ := construct_ackley hc
    refine ⟨rfl, rfl, fun _ h => absurd rfl (h a b g nd), fun ho hl => ?_⟩
    have ho : nd ≠ some 0 := ho
    have hk0 : k ≠ 0 := by rintro rfl; exact ho hk
    have h1 : cls.ackley.optimum = .num (some 0) := by rw [hcls]; exact congrArg Attr.num (ackleyRow_zero hk0 a b g)
    exact (keepA hl h1).trans h1.symm

/-- C73 in full, for histories in which later objects of the same class have the same dimension (and ordinary arguments): all that an object reports stays the same. -/
theorem C73_same_dimension (cls0 cls : Classes) (c : Ctor) (o : Obj) (hc : construct cls0 c = .ok (o, cls)) (later : List Ctor) (ho : c.Ordinary)
    (hl : ∀ c' ∈ later, c'.Ordinary ∧ (c'.sameClass o → c'.dim = c.dim)) :
    o.attrs (constructAll cls later) = o.attrs cls ∧ o.classAttrs (constructAll cls later) = o.classAttrs cls := by
  cases c with
  | sf p nd =>
    obtain ⟨rfl, rfl⟩ := construct_sf hc
    exact ⟨rfl, rfl⟩
  | mf p nd =>
    obtain ⟨rfl, rfl⟩ := construct_mf hc
    exact ⟨rfl, rfl⟩
  | thevenot nd m beta =>
    obtain ⟨k, hk, rfl, hcls⟩ := construct_thevenot hc
    have ho : nd ≠ some 0 ∧ m ≠ 0 ∧ beta ≠ 0 := ho
    have hk0 : k ≠ 0 := by rintro rfl; exact ho.1 hk
    have key : (constructAll cls later).thevenot = cls.thevenot := by
      refine constructAll_inv (fun t => t.thevenot = cls.thevenot) later ?_ cls rfl
      intro c' hc' t o' t' ht e
      cases c' with
      | sf p nd => rw [(construct_sf e).2]; exact ht
      | mf p nd => rw [(construct_mf e).2]; exact ht
      | ackley nd a b g => obtain ⟨k, _, _, rfl⟩ := construct_ackley e; exact ht
      | thevenot nd' m' beta' =>
        obtain ⟨k', hk', _, rfl⟩ := construct_thevenot e
        have h1 : nd' ≠ some 0 ∧ m' ≠ 0 ∧ beta' ≠ 0 := (hl _ hc').1
        have h2 : nd' = nd := (hl _ hc').2 trivial
        obtain rfl : k' = k := by
          have : some (k' : ℤ) = some (k : ℤ) := hk'.symm.trans (h2.trans hk)
          exact_mod_cast Option.some.inj this
        rw [hcls]
        show Attrs.mk _ _ _ _ = Attrs.mk _ _ _ _
        rw [thevenotRow_zero hk0 h1.2.1 h1.2.2, thevenotRow_zero hk0 ho.2.1 ho.2.2]
    simp only [Obj.attrs, Obj.classAttrs, key, and_self]
  | ackley nd a b g =>
    obtain ⟨k, hk, rfl, hcls⟩ := construct_ackley hc
    have ho : nd ≠ some 0 := ho
    have hk0 : k ≠ 0 := by rintro rfl; exact ho hk
    have key : (constructAll cls later).ackley = cls.ackley := by
      refine constructAll_inv (fun t => t.ackley = cls.ackley) later ?_ cls rfl
      intro c' hc' t o' t' ht e
      cases c' with
      | sf p nd => rw [(construct_sf e).2]; exact ht
      | mf p nd => rw [(construct_mf e).2]; exact ht
      | thevenot nd m beta => obtain ⟨k, _, _, rfl⟩ := construct_thevenot e; exact ht
      | ackley nd' a' b' g' =>
        obtain ⟨k', hk', _, rfl⟩ := construct_ackley e
        have h2 : nd' = nd := (hl _ hc').2 trivial
        obtain rfl : k' = k := by
          have : some (k' : ℤ) = some (k : ℤ) := hk'.symm.trans (h2.trans hk)
          exact_mod_cast Option.some.inj this
        rw [hcls]
        show Attrs.mk _ _ _ _ = Attrs.mk _ _ _ _
        rw [ackleyRow_zero hk0, ackleyRow_zero hk0]
    simp only [Obj.attrs, Obj.classAttrs, key, and_self]

/-- C73 fails: after `p = Ackley(2)`, creating `Ackley(3)` changes `p.optimum_scheme` from `[0, 0]` to `[0, 0, 0]` and `p._get_dimension` from 2 to 3, while `p.num_dim` still is 2. -/
theorem C73_counterexample : ∃ (p : Obj) (cls : Classes), construct .initial (.ackley (some 2) 20 0.2 (2 * π)) = .ok (p, cls) ∧
    (p.attrs cls).scheme = .list [0, 0] ∧ (p.classAttrs cls).numDim = some 2 ∧
    (p.attrs (constructAll cls [.ackley (some 3) 20 0.2 (2 * π)])).scheme = .list [0, 0, 0] ∧
    (p.classAttrs (constructAll cls [.ackley (some 3) 20 0.2 (2 * π)])).numDim = some 3 ∧
    (p.attrs (constructAll cls [.ackley (some 3) 20 0.2 (2 * π)])).numDim = some 2 :=
  ⟨_, _, rfl, rfl, rfl, rfl, rfl, rfl⟩

/-- The hypotheses of `C73_same_dimension` can be met: two `Ackley(2)` objects and a `Thevenot(4)`. -/
example : ∃ p cls, construct .initial (.ackley (some 2) 20 0.2 (2 * π)) = .ok (p, cls) ∧
    p.attrs (constructAll cls [.thevenot (some 4) 5 15, .ackley (some 2) 10 0.1 π]) = p.attrs cls :=
  ⟨_, _, rfl, (C73_same_dimension .initial _ (.ackley (some 2) 20 0.2 (2 * π)) _ rfl _ (by norm_num [Ctor.Ordinary])
    (by simp [Ctor.Ordinary, Ctor.sameClass, Ctor.dim])).1⟩

/-! ## C74: dimension checks -/

/-- C74 for all classes but `AckleyN2`: a constructor that accepts `num_dim` gets an object whose objectives work on samples of that many variables.
Missing: `AckleyN2` (false), `Ackley` of dimension 0 (false); for `Thevenot`, `beta ≠ 0` is assumed. -/
theorem C74_partial (cls cls' : Classes) (c : Ctor) (o : Obj) (h : construct cls c = .ok (o, cls')) (h2 : ∀ nd, c ≠ .sf .ackleyN2 nd)
    (h3 : ∀ a b k, c ≠ .ackley (some 0) a b k) (h4 : ∀ nd m, c ≠ .thevenot nd m 0) :
    ∃ d : ℕ, Ctor.dim c = some (d : ℤ) ∧
      match o with
      | .mf p => WorksOn (p.hf (d := d)) ∧ ∀ t, WorksOn (p.lf (d := d) t)
      | o => WorksOn (o.f (d := d)) := by
  cases c with
  | sf p nd =>
    obtain ⟨rfl, rfl⟩ := construct_sf h
    obtain ⟨_, h1, _⟩ := Py.bind_ok.mp h
    rw [if_neg (by rintro rfl; exact h2 nd rfl)] at h1
    obtain ⟨d, hd⟩ : ∃ d, p.attrs.numDim = some d := by cases p <;> exact ⟨_, rfl⟩
    refine ⟨d, ?_, fun X => ?_, (fun _ => 0), C72_single_fidelity p hd _⟩
    · cases nd with
      | none => rw [fixedDimCheck, hd, if_neg (by simp)] at h1; cases h1
      | some z =>
        rw [fixedDimCheck, hd] at h1
        split_ifs at h1 with h5
        exact (show some (d : ℤ) = some z from h5).symm
    · obtain ⟨Y, hY, _⟩ := (C68_single_fidelity p hd).one_per_sample X
      exact ⟨Y, hY⟩
  | mf p nd =>
    obtain ⟨rfl, rfl⟩ := construct_mf h
    obtain ⟨_, h1, _⟩ := Py.bind_ok.mp h
    obtain ⟨d, hd⟩ : ∃ d, p.attrs.numDim = some d := by cases p <;> exact ⟨_, rfl⟩
    have hx : ∃ x : Fin d → ℝ, InDomain p.attrs.domain x ∧ (∀ i, x i ≠ 0) := by
      cases p with
      | borehole =>
        obtain rfl : 8 = d := Option.some.inj hd
        refine ⟨![0.1, 1000, 100000, 1000, 100, 800, 1500, 10000], ?_, ?_⟩
        · show List.Forall₂ _ [((0.05 : ℝ), (0.15 : ℝ)), (100, 50000), (63070, 115600), (990, 1110), (63.1, 116), (700, 820), (1120, 1680), (9855, 12045)]
            [0.1, 1000, 100000, 1000, 100, 800, 1500, 10000]
          norm_num
        · intro i; fin_cases i <;> norm_num
      | _ =>
        obtain rfl := Option.some.inj hd
        refine ⟨fun _ => 1 / 2, ?_, fun _ => by norm_num⟩
        norm_num [InDomain, MFName.attrs, List.ofFn_succ, List.replicate]
    obtain ⟨x, hx, hx0⟩ := hx
    have hv := fun t => C72_multi_fidelity_partial p t hd x hx (fun _ i _ => hx0 i)
    refine ⟨d, ?_, ⟨fun X => ?_, x, (hv .float).1⟩, fun t => ⟨fun X => ?_, x, (hv t).2⟩⟩
    · cases nd with
      | none => rw [fixedDimCheck, hd, if_neg (by simp)] at h1; cases h1
      | some z =>
        rw [fixedDimCheck, hd] at h1
        split_ifs at h1 with h5
        exact (show some (d : ℤ) = some z from h5).symm
    · obtain ⟨Y, hY, _⟩ := (C68_multi_fidelity p .float hd).1.one_per_sample X
      exact ⟨Y, hY⟩
    · obtain ⟨Y, hY, _⟩ := (C68_multi_fidelity p t hd).2.one_per_sample X
      exact ⟨Y, hY⟩
  | thevenot nd m beta =>
    obtain ⟨k, hk, rfl, _⟩ := construct_thevenot h
    refine ⟨k, hk, fun X => ⟨_, rfl⟩, (fun _ => 0), ?_⟩
    refine ⟨_, (takesValue_iff (thevenotRow m beta) (fun _ => rfl) _ _).mpr (if_neg ?_)⟩
    rintro ⟨rfl, _⟩
    exact h4 nd m rfl
  | ackley nd a b g =>
    obtain ⟨k, hk, rfl, _⟩ := construct_ackley h
    have hk0 : k ≠ 0 := by
      rintro rfl
      subst hk
      exact h3 a b g rfl
    exact ⟨k, hk, fun X => ⟨_, rfl⟩, (fun _ => 0), (C72_any_dimension hk0 1 1 a b g one_ne_zero _).2⟩

/-- C74, the converse for the classes of fixed dimension (all but `Thevenot`, `Ackley`, `AckleyN2`): the constructor accepts exactly `num_dim`, and otherwise raises `AssertionError`.  No constructor
accepts a negative dimension; `Thevenot` and `Ackley` do not accept `None`. -/
theorem C74_rejects (cls : Classes) (nd : DimArg) :
    (∀ p : SFName, p ≠ .ackleyN2 → ∀ d, p.attrs.numDim = some d →
      construct cls (.sf p nd) = if nd = some (d : ℤ) then .ok (.sf p, cls) else .error .assertionError) ∧
    (∀ (p : MFName) (d : ℕ), p.attrs.numDim = some d → construct cls (.mf p nd) = if nd = some (d : ℤ) then .ok (.mf p, cls) else .error .assertionError) ∧
    (∀ c : Ctor, (∃ z < 0, Ctor.dim c = some z) → construct cls c = .error .assertionError) ∧
    (∀ m beta a b k, construct cls (.thevenot none m beta) = .error .typeError ∧ construct cls (.ackley none a b k) = .error .typeError) := by
  have key : ∀ d : ℕ, fixedDimCheck (some d) nd = if nd = some (d : ℤ) then .ok () else .error .assertionError := by
    intro d
    cases nd with
    | none => rfl
    | some z =>
      show (if some (d : ℤ) = some z then _ else _) = _
      by_cases e : z = d
      · subst e; simp
      · rw [if_neg (fun h => e (Option.some.inj h).symm), if_neg (fun h => e (Option.some.inj h))]
  refine ⟨fun p hp d hd => ?_, fun p d hd => ?_, ?_, fun m beta a b k => ⟨rfl, rfl⟩⟩
  · unfold construct
    simp only [if_neg hp, hd, key]
    split_ifs <;> rfl
  · unfold construct
    simp only [hd, key]
    split_ifs <;> rfl
  · rintro c ⟨z, hz, hc⟩
    cases c with
    | sf p nd' =>
      obtain rfl : nd' = some z := hc
      by_cases hp : p = .ackleyN2
      · unfold construct
        simp only [if_pos hp, anyDimCheck, if_pos hz]
        rfl
      · obtain ⟨d, hd⟩ : ∃ d, p.attrs.numDim = some d := by cases p <;> exact ⟨_, rfl⟩
        unfold construct
        simp only [if_neg hp, hd, fixedDimCheck]
        rw [if_neg (by
          intro e
          have : (d : ℤ) = z := Option.some.inj e
          omega)]
        rfl
    | mf p nd' =>
      obtain rfl : nd' = some z := hc
      obtain ⟨d, hd⟩ : ∃ d, p.attrs.numDim = some d := by cases p <;> exact ⟨_, rfl⟩
      unfold construct
      simp only [hd, fixedDimCheck]
      rw [if_neg (by
        intro e
        have : (d : ℤ) = z := Option.some.inj e
        omega)]
      rfl
    | thevenot nd' m beta =>
      obtain rfl : nd' = some z := hc
      unfold construct
      simp only [anyDimCheck, if_pos hz]
      rfl
    | ackley nd' a b k =>
      obtain rfl : nd' = some z := hc
      unfold construct
      simp only [anyDimCheck, if_pos hz]
      rfl

/-- C74 fails: `AckleyN2(3)` is accepted although its objective raises `ValueError` for every sample with 3 variables, and `Ackley(0)` is accepted although its objective has no value. -/
theorem C74_counterexample (cls : Classes) :
    construct cls (.sf .ackleyN2 (some 3)) = .ok (.sf .ackleyN2, cls) ∧ (∀ x : Fin 3 → ℝ, SFName.ackleyN2.f [x] = .error .valueError) ∧
    ∃ o cls', construct cls (.ackley (some 0) 20 0.2 (2 * π)) = .ok (o, cls') ∧ ∀ (x : Fin 0 → ℝ) (y : ℝ), ¬ TakesValue o.f x y := by
  refine ⟨rfl, fun x => rfl, _, _, rfl, fun x y h => ?_⟩
  have h' : ackleyRow 20 0.2 (2 * π) x = some y := (takesValue_iff (ackleyRow 20 0.2 (2 * π)) (fun _ => rfl) _ _).mp h
  unfold ackleyRow at h'
  have : fmean (fun j => x j ^ 2) = none := if_pos (by norm_num)
  rw [this] at h'
  cases h'

/-- `C74_partial` applies e.g. to `Branin(2)`, `mf_Booth(2)` and `Ackley(7)`. -/
example (cls : Classes) : (∃ r, construct cls (.sf .branin (some 2)) = .ok r) ∧ (∃ r, construct cls (.mf .booth (some 2)) = .ok r) ∧
    ∃ r, construct cls (.ackley (some 7) 20 0.2 (2 * π)) = .ok r :=
  ⟨⟨_, rfl⟩, ⟨_, rfl⟩, ⟨_, rfl⟩⟩

/-! ## C75: calling a multi-fidelity problem -/

theorem callFrom_ignores (p : MFName) (t : DType) (Xs : List (Batch d)) : ∀ i, 2 ≤ i → p.callFrom t i Xs = .ok [] := by
  induction Xs with
  | nil => intro i _; rfl
  | cons X Xs ih =>
    intro i hi
    unfold MFName.callFrom
    rw [if_neg (by omega), if_neg (by omega)]
    exact ih (i + 1) (by omega)

/-- C75 for at most two sample arrays: one response array per sample array, the first computed by `hf` and the second by `lf`; a call raises only if `hf` or `lf` does.
Missing: further arrays get no response (`C75_counterexample`). -/
theorem C75_call_partial (p : MFName) (t : DType) (hd : p.attrs.numDim = some d) (Xs : List (Batch d)) (h : Xs.length ≤ 2) :
    ∃ Ys, p.call t Xs = .ok Ys ∧ Ys.length = Xs.length ∧
      (∀ X Y, Xs[0]? = some X → Ys[0]? = some Y → p.hf X = .ok Y) ∧ (∀ X Y, Xs[1]? = some X → Ys[1]? = some Y → p.lf t X = .ok Y) := by
  have hh := (C68_multi_fidelity p t hd).1.one_per_sample
  have hl := (C68_multi_fidelity p t hd).2.one_per_sample
  match Xs, h with
  | [], _ => exact ⟨[], rfl, rfl, by simp, by simp⟩
  | [X], _ =>
    obtain ⟨Y, hY, _⟩ := hh X
    refine ⟨[Y], Py.bind_ok.mpr ⟨Y, hY, rfl⟩, rfl, ?_, by simp⟩
    intro X' Y' e1 e2
    obtain rfl : X = X' := Option.some.inj e1
    obtain rfl : Y = Y' := Option.some.inj e2
    exact hY
  | [X, Z], _ =>
    obtain ⟨Y, hY, _⟩ := hh X
    obtain ⟨W, hW, _⟩ := hl Z
    refine ⟨[Y, W], Py.bind_ok.mpr ⟨Y, hY, Py.bind_ok.mpr ⟨[W], Py.bind_ok.mpr ⟨W, hW, rfl⟩, rfl⟩⟩, rfl, ?_, ?_⟩
    · intro X' Y' e1 e2
      obtain rfl : X = X' := Option.some.inj e1
      obtain rfl : Y = Y' := Option.some.inj e2
      exact hY
    · intro X' Y' e1 e2
      obtain rfl : Z = X' := Option.some.inj e1
      obtain rfl : W = Y' := Option.some.inj e2
      exact hW

/-- What a call with more arrays does: the third and later arrays are ignored. -/
theorem C75_rest_ignored (p : MFName) (t : DType) (X Z : Batch d) (rest : List (Batch d)) : p.call t (X :: Z :: rest) = p.call t [X, Z] := by
  show (do let y ← p.hf X; let ys ← p.callFrom t 1 (Z :: rest); Except.ok (y :: ys)) = (do let y ← p.hf X; let ys ← p.callFrom t 1 [Z]; Except.ok (y :: ys))
  have : p.callFrom t 1 (Z :: rest) = p.callFrom t 1 [Z] := by
    show (do let y ← p.lf t Z; let ys ← p.callFrom t 2 rest; Except.ok (y :: ys)) = (do let y ← p.lf t Z; let ys ← p.callFrom t 2 []; Except.ok (y :: ys))
    rw [callFrom_ignores p t rest 2 le_rfl]
    rfl
  rw [this]

/-- C75 fails for three sample arrays: every multi-fidelity problem returns two response arrays. -/
theorem C75_counterexample (p : MFName) (t : DType) (hd : p.attrs.numDim = some d) (X Y Z : Batch d) : ∃ Ys, p.call t [X, Y, Z] = .ok Ys ∧ Ys.length = 2 := by
  rw [C75_rest_ignored]
  obtain ⟨Ys, h1, h2, _⟩ := C75_call_partial p t hd [X, Y] le_rfl
  exact ⟨Ys, h1, h2⟩

end Mfpml.Props
