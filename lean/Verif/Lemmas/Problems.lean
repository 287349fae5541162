import Mathlib.Tactic.Linarith
import Mathlib.Tactic.Ring
import Mathlib.Tactic.NormNum
import Verif.Model.Problems
import Verif.Lemmas.Py

/-!
# The problems sample by sample
Every objective of `Verif.Model.Problems`, given samples of the right dimension, is a function of one sample mapped over the batch.
-/

set_option linter.unusedSectionVars false

namespace Mfpml.Problems

open Real

variable {d : ℕ}

theorem ofFn_get_map {α β : Type} (l : List α) (g : α → β) : (List.ofFn fun i : Fin l.length => g (l.get i)) = l.map g := by
  apply List.ext_getElem
  · simp
  · intro i h1 h2; simp

theorem column_get (X : Batch d) (g : (Fin d → ℝ) → ℝ) : column (fun i : Fin X.length => g (X.get i)) = X.map fun r => some (g r) :=
  ofFn_get_map X fun r => some (g r)

theorem columnOpt_get (X : Batch d) (g : (Fin d → ℝ) → Option ℝ) : columnOpt (fun i : Fin X.length => g (X.get i)) = X.map g :=
  ofFn_get_map X g

theorem col_ok (X : Batch d) (j : ℕ) (h : j < d) : col X j = .ok fun i => X.get i ⟨j, h⟩ := dif_pos h

theorem mapM_ok {α β : Type} (l : List α) (g : α → β) : (l.mapM fun r => (Except.ok (g r) : Py β)) = .ok (l.map g) := by
  induction l with
  | nil => rfl
  | cons a l ih => rw [List.mapM_cons, ih]; rfl

theorem flatten_one (X : Batch 1) (g : ℝ → ℝ) : flatten (ew g X) = X.map fun r => some (g (r 0)) := by
  unfold flatten ew
  induction X with
  | nil => rfl
  | cons a l ih =>
    rw [List.map_cons, List.map_cons, List.flatten_cons, ih]
    simp

theorem reshapeN1_one (X : Batch 1) (g : ℝ → ℝ) : reshapeN1 (ew g X) = .ok (X.map fun r => some (g (r 0))) := by
  unfold reshapeN1
  rw [if_pos (by rw [Nat.mul_one]), flatten_one]

/-! ## The functions of one sample -/

noncomputable def forresterAt (x : Fin 1 → ℝ) : ℝ := forresterExpr (x 0)

noncomputable def braninAt (x : Fin 2 → ℝ) : ℝ :=
  1 * (x 1 - 5.1 / (4 * π ^ 2) * x 0 ^ 2 + 5.0 / π * x 0 - 6.0) ^ 2 + 10.0 * (1 - 1 / (8 * π)) * cos (x 0) + 10.0

noncomputable def goldPriceAt (x : Fin 2 → ℝ) : ℝ :=
    (1 + (x 0 + x 1 + 1) ^ 2 * (19 - 14 * x 0 + 3 * x 0 ^ 2 - 14 * x 1 + 6 * x 0 * x 1 + 3 * x 1 ^ 2)) *
    (30 + (2 * x 0 - 3 * x 1) ^ 2 * (18 - 32 * x 0 + 12 * x 0 ^ 2 + 48 * x 1 - 36 * x 0 * x 1 + 27 * x 1 ^ 2))

noncomputable def sixhumpAt (x : Fin 2 → ℝ) : ℝ :=
  (4 - 2.1 * x 0 ^ 2 + x 0 ^ 4 / 3) * x 0 ^ 2 + x 0 * x 1 + (-4 + 4 * x 1 ^ 2) * x 1 ^ 2

noncomputable def sasenaAt (x : Fin 2 → ℝ) : ℝ :=
  2 + 0.01 * (x 1 - x 0 ^ 2) ^ 2 + (1 - x 0) ^ 2 + 2 * (2 - x 1) ^ 2 + 7 * sin (0.5 * x 0) * sin (0.7 * x 0 * x 1)

noncomputable def hartman3At (x : Fin 3 → ℝ) : ℝ := -hartmanSum hartman3A hartman3P hartman3C x

noncomputable def hartman6At (x : Fin 6 → ℝ) : Option ℝ := negLogNeg (-hartmanSum hartman6A hartman6P hartman6C x)

noncomputable def ackleyN2At (x : Fin 2 → ℝ) : ℝ := -200 * exp (-0.2 * Real.sqrt (x 0 ^ 2 + x 1 ^ 2))

noncomputable def braninConsAt (x : Fin 2 → ℝ) : ℝ :=
  (15 * x 1 - 5.1 / (4 * π ^ 2) * (15 * x 0 - 5.0) ^ 2 + 5 / π * (15 * x 0 - 5.0) - 6) ^ 2 + 10 * (1 - 1 / (8 * π)) * cos (15 * x 0 - 5.0) + 10 + 5 * x 0

noncomputable def branin1ConsAt (x : Fin 2 → ℝ) : ℝ := -x 0 * x 1 + 0.2

noncomputable def branin2ConsAt (x : Fin 2 → ℝ) : ℝ :=
  6 - ((4 - 2.1 * (2 * x 0 - 1) ^ 2 + (2 * x 0 - 1) ^ 4 / 3) * (2 * x 0 - 1) ^ 2 + (2 * x 0 - 1) * (2 * x 1 - 1)
    + (-4 + 4 * (2 * x 1 - 1) ^ 2) * (2 * x 1 - 1) ^ 2 + 3 * sin (6 * (1 - (2 * x 0 - 1))) + 3 * sin (6 * (1 - (2 * x 1 - 1))))

/-- The value of a single-fidelity objective at one sample. -/
noncomputable def SFName.at (p : SFName) : (Fin (p.attrs.numDim.getD 0) → ℝ) → Option ℝ :=
  match p with
  | .forrester => fun x => some (forresterAt x)
  | .branin => fun x => some (braninAt x)
  | .goldPrice => fun x => some (goldPriceAt x)
  | .sixhump => fun x => some (sixhumpAt x)
  | .sasena => fun x => some (sasenaAt x)
  | .hartman3 => fun x => some (hartman3At x)
  | .hartman6 => fun x => hartman6At x
  | .ackleyN2 => fun x => some (ackleyN2At x)
  | .branin1 => fun x => some (braninConsAt x)
  | .branin2 => fun x => some (braninConsAt x)

theorem braninF_map (X : Batch 2) : braninF X = .ok (X.map fun r => some (braninAt r)) :=
  congrArg Except.ok (column_get X braninAt)

theorem goldPriceF_map (X : Batch 2) : goldPriceF X = .ok (X.map fun r => some (goldPriceAt r)) :=
  congrArg Except.ok (column_get X goldPriceAt)

theorem sixhumpF_map (X : Batch 2) : sixhumpF X = .ok (X.map fun r => some (sixhumpAt r)) :=
  congrArg Except.ok (column_get X sixhumpAt)

theorem sasenaF_map (X : Batch 2) : sasenaF X = .ok (X.map fun r => some (sasenaAt r)) :=
  congrArg Except.ok (column_get X sasenaAt)

theorem hartman3F_map (X : Batch 3) : hartman3F X = .ok (X.map fun r => some (hartman3At r)) :=
  mapM_ok X fun r => some (hartman3At r)

theorem hartman6F_map (X : Batch 6) : hartman6F X = .ok (X.map hartman6At) := mapM_ok X hartman6At

theorem ackleyN2F_map (X : Batch 2) : ackleyN2F X = .ok (X.map fun r => some (ackleyN2At r)) := mapM_ok X fun r => some (ackleyN2At r)

theorem braninConsF_map (X : Batch 2) : braninConsF X = .ok (X.map fun r => some (braninConsAt r)) :=
  congrArg Except.ok (column_get X braninConsAt)

theorem branin1Cons_map (X : Batch 2) : branin1Cons X = .ok (X.map fun r => some (branin1ConsAt r)) :=
  congrArg Except.ok (column_get X branin1ConsAt)

theorem branin2Cons_map (X : Batch 2) : branin2Cons X = .ok (X.map fun r => some (branin2ConsAt r)) :=
  congrArg Except.ok (column_get X branin2ConsAt)

theorem SFName.f_map (p : SFName) (X : Batch (p.attrs.numDim.getD 0)) : p.f X = .ok (X.map p.at) := by
  cases p with
  | forrester => exact reshapeN1_one X forresterExpr
  | branin => exact braninF_map X
  | goldPrice => exact goldPriceF_map X
  | sixhump => exact sixhumpF_map X
  | sasena => exact sasenaF_map X
  | hartman3 => exact hartman3F_map X
  | hartman6 => exact hartman6F_map X
  | ackleyN2 => exact ackleyN2F_map X
  | branin1 => exact braninConsF_map X
  | branin2 => exact braninConsF_map X


noncomputable def forrester1aLfAt (x : Fin 1 → ℝ) : ℝ := (6 * x 0 - 2) ^ 2 * sin (12 * x 0 - 4) - 5

noncomputable def forrester1bLfAt (x : Fin 1 → ℝ) : ℝ := 0.5 * ((6 * x 0 - 2) ^ 2 * sin (12 * x 0 - 4)) + 10 * (x 0 - 0.5) - 5

noncomputable def forrester1cLfAt (x : Fin 1 → ℝ) : ℝ := (6 * (x 0 + 0.2) - 2) ^ 2 * sin (12 * (x 0 + 0.2) - 4)

noncomputable def hartman3LfAt (x : Fin 3 → ℝ) : ℝ :=
  0.585 - 0.324 * x 0 - 0.379 * x 1 - 0.431 * x 2 - 0.208 * x 0 * x 1 + 0.326 * x 0 * x 2 + 0.193 * x 1 * x 2
    + 0.225 * x 0 ^ 2 + 0.263 * x 1 ^ 2 + 0.274 * x 2 ^ 2

noncomputable def sixhumpLfAt (x : Fin 2 → ℝ) : ℝ :=
  ((4 - 2.1 * (0.7 * x 0) ^ 2 + (0.7 * x 0) ^ 4 / 3) * (0.7 * x 0) ^ 2 + 0.7 * x 0 * 0.7 * x 1 + (-4 + 4 * (0.7 * x 1) ^ 2) * (0.7 * x 1) ^ 2)
    + (-x 0 * x 1 - 15)

noncomputable def hartman6LfAt (x : Fin 6 → ℝ) : Option ℝ :=
  negLogNeg (-hartmanSum hartman6A hartman6P hartman6LfC (fun j => hartman6LfL j * x j))

open Classical in
noncomputable def discontinuousLfAt (x : Fin 1 → ℝ) : ℝ :=
  if x 0 ≤ 0.5 then 0.5 * (6 * x 0 - 2) ^ 2 * sin (12 * x 0 - 4) + 10 * (x 0 - 0.5) - 5
  else 3 + 0.5 * (6 * x 0 - 2) ^ 2 * sin (12 * x 0 - 4) + 10 * (x 0 - 0.5) - 5

open Classical in
noncomputable def discontinuousHfAt (x : Fin 1 → ℝ) : ℝ :=
  if x 0 ≤ 0.5 then 2 * (0.5 * (6 * x 0 - 2) ^ 2 * sin (12 * x 0 - 4) + 10 * (x 0 - 0.5) - 5) - 20 * x 0 + 20
  else 4 + 2 * (3 + 0.5 * (6 * x 0 - 2) ^ 2 * sin (12 * x 0 - 4) + 10 * (x 0 - 0.5) - 5) - 20 * x 0 + 20

noncomputable def contNonlinLfAt (x : Fin 1 → ℝ) : ℝ := sin (8 * π * x 0)

noncomputable def contNonlinHfAt (x : Fin 1 → ℝ) : ℝ := sin (8 * π * x 0) ^ 2 * (x 0 - Real.sqrt 2)

noncomputable def phaseShiftHfAt (x : Fin 1 → ℝ) : ℝ := x 0 ^ 2 + sin (8 * π * x 0 + π / 10) ^ 2

noncomputable def bohachevskyLfAt (x : Fin 2 → ℝ) : ℝ :=
  ((0.7 * x 0) ^ 2 + 2 * x 1 ^ 2) - 0.3 * cos (3 * π * (0.7 * x 0)) - 0.4 * cos (4 * π * x 1) + 0.7 + (x 0 * x 1 - 12)

noncomputable def bohachevskyHfAt (x : Fin 2 → ℝ) : ℝ :=
  (x 0 ^ 2 + 2 * x 1 ^ 2) - 0.3 * cos (3 * π * x 0) - 0.4 * cos (4 * π * x 1) + 0.7

noncomputable def boothLfAt (x : Fin 2 → ℝ) : ℝ :=
  (0.4 * x 0 + 2 * x 1 - 7) ^ 2 + (2 * (0.4 * x 0) + x 1 - 5) ^ 2 + (1.7 * x 0 * x 1 - x 0 + 2 * x 1)

noncomputable def boothHfAt (x : Fin 2 → ℝ) : ℝ := (x 0 + 2 * x 1 - 7) ^ 2 + (2 * x 0 + x 1 - 5) ^ 2

noncomputable def boreholeAt (a b : ℝ) (x : Fin 8 → ℝ) : Option ℝ := do
  let term1 := a * x 2 * (x 3 - x 5)
  let q ← fdiv (x 1) (x 0)
  let term2 ← flog q
  let q1 ← fdiv (2 * x 6 * x 2) (term2 * x 0 ^ 2 * x 7)
  let q2 ← fdiv (x 2) (x 4)
  let term3 := b + q1 + q2
  fdiv term1 (term2 * term3)

open Classical in
noncomputable def currinHfAt (x : Fin 2 → ℝ) : Option ℝ :=
  fdiv ((if x 1 ≤ 1e-8 then 1 else 1 - exp (-1 / (2 * x 1))) * (2300 * x 0 ^ 3 + 1900 * x 0 ^ 2 + 2092 * x 0 + 60))
    (100 * x 0 ^ 3 + 500 * x 0 ^ 2 + 4 * x 0 + 20)

noncomputable def addAt (t : DType) (j : ℕ) (v : ℝ) (x : Fin d → ℝ) : Fin d → ℝ := fun k => if (k : ℕ) = j then t.store (x k + v) else x k

noncomputable def currinLfAt (t : DType) (x : Fin 2 → ℝ) : Option ℝ :=
  mean4 (currinHfAt fun k => x k + 0.05) (currinHfAt (addAt t 1 (-0.05) (addAt t 0 0.05 x))) (currinHfAt (addAt t 1 0.05 (addAt t 0 (-0.05) x)))
    (currinHfAt fun k => x k - 0.05)

noncomputable def himmelblauLfAt (x : Fin 2 → ℝ) : ℝ :=
  ((0.5 * x 0) ^ 2 + 0.8 * x 1 - 11) ^ 2 + (0.5 * x 0 + (0.8 * x 1) ^ 2 - 7) ^ 2 + (x 1 ^ 3 - (x 0 + 1) ^ 2)

noncomputable def himmelblauHfAt (x : Fin 2 → ℝ) : ℝ := (x 0 ^ 2 + x 1 - 11) ^ 2 + (x 0 + x 1 ^ 2 - 7) ^ 2

noncomputable def park91AHfAt (x : Fin 4 → ℝ) : Option ℝ := do
  let q ← fdiv ((x 1 + x 2 ^ 2) * x 3) (x 0 ^ 2)
  let s ← fsqrt (1 + q)
  some (x 0 / 2 * (s - 1) + (x 0 + 3 * x 3) * exp (1 + sin (x 2)))

noncomputable def park91ALfAt (x : Fin 4 → ℝ) : Option ℝ :=
  ((park91AHfAt x).map fun v => (1 + sin (x 0) / 10) * v).map fun v => v + (-2 * x 0 + x 1 ^ 2 + x 2 ^ 2 + 0.5)

noncomputable def park91BHfAt (x : Fin 4 → ℝ) : ℝ := 2 / 3 * exp (x 0 + x 1) - x 3 * sin (x 2) + x 2

noncomputable def park91BLfAt (x : Fin 4 → ℝ) : ℝ := 1.2 * park91BHfAt x - 1

/-- The value of `hf` at one sample. -/
noncomputable def MFName.hfAt (p : MFName) : (Fin (p.attrs.numDim.getD 0) → ℝ) → Option ℝ :=
  match p with
  | .forrester1a => fun x => some (forresterAt x)
  | .forrester1b => fun x => some (forresterAt x)
  | .forrester1c => fun x => some (forresterAt x)
  | .hartman3 => fun x => some (hartman3At x)
  | .sixhump => fun x => some (sixhumpAt x)
  | .hartman6 => hartman6At
  | .discontinuous => fun x => some (discontinuousHfAt x)
  | .contNonlin1D => fun x => some (contNonlinHfAt x)
  | .phaseShift => fun x => some (phaseShiftHfAt x)
  | .bohachevsky => fun x => some (bohachevskyHfAt x)
  | .booth => fun x => some (boothHfAt x)
  | .borehole => boreholeAt (2 * π) 1
  | .currinExp => currinHfAt
  | .himmelblau => fun x => some (himmelblauHfAt x)
  | .park91A => park91AHfAt
  | .park91B => fun x => some (park91BHfAt x)

/-- The value of `lf` at one sample. -/
noncomputable def MFName.lfAt (p : MFName) (t : DType) : (Fin (p.attrs.numDim.getD 0) → ℝ) → Option ℝ :=
  match p with
  | .forrester1a => fun x => some (forrester1aLfAt x)
  | .forrester1b => fun x => some (forrester1bLfAt x)
  | .forrester1c => fun x => some (forrester1cLfAt x)
  | .hartman3 => fun x => some (hartman3LfAt x)
  | .sixhump => fun x => some (sixhumpLfAt x)
  | .hartman6 => hartman6LfAt
  | .discontinuous => fun x => some (discontinuousLfAt x)
  | .contNonlin1D => fun x => some (contNonlinLfAt x)
  | .phaseShift => fun x => some (contNonlinLfAt x)
  | .bohachevsky => fun x => some (bohachevskyLfAt x)
  | .booth => fun x => some (boothLfAt x)
  | .borehole => boreholeAt 5 1.5
  | .currinExp => currinLfAt t
  | .himmelblau => fun x => some (himmelblauLfAt x)
  | .park91A => park91ALfAt
  | .park91B => fun x => some (park91BLfAt x)

theorem discontinuousHf_map (X : Batch 1) : discontinuousHf X = .ok (X.map fun r => some (discontinuousHfAt r)) := by
  refine Eq.trans ?_ (mapM_ok X fun r => some (discontinuousHfAt r))
  refine congrArg (fun g => List.mapM g X) (funext fun r => ?_)
  show (if r 0 ≤ 0.5 then _ else _) = Except.ok (some (if r 0 ≤ 0.5 then _ else _))
  split_ifs <;> rfl

theorem discontinuousLf_map (X : Batch 1) : discontinuousLf X = .ok (X.map fun r => some (discontinuousLfAt r)) := by
  refine Eq.trans ?_ (mapM_ok X fun r => some (discontinuousLfAt r))
  refine congrArg (fun g => List.mapM g X) (funext fun r => ?_)
  show (if r 0 ≤ 0.5 then _ else _) = Except.ok (some (if r 0 ≤ 0.5 then _ else _))
  split_ifs <;> rfl

theorem currinHf_map (X : Batch 2) : currinHf X = .ok (X.map currinHfAt) := congrArg Except.ok (columnOpt_get X currinHfAt)

theorem addToCol_map (t : DType) (j : ℕ) (v : ℝ) (X : Batch d) (h : j < d) : addToCol t j v X = .ok (X.map (addAt t j v)) := if_pos h

theorem mean4Cols_map {α : Type} (l : List α) (g1 g2 g3 g4 : α → Option ℝ) :
    mean4Cols (l.map g1) (l.map g2) (l.map g3) (l.map g4) = l.map fun a => mean4 (g1 a) (g2 a) (g3 a) (g4 a) := by
  induction l with
  | nil => rfl
  | cons a l ih => simp only [List.map_cons, mean4Cols, ih]

theorem currinLf_map (t : DType) (X : Batch 2) : currinLfOf t X = .ok (X.map (currinLfAt t)) := by
  have h := mean4Cols_map X (fun x => currinHfAt fun k => x k + 0.05) (fun x => currinHfAt (addAt t 1 (-0.05) (addAt t 0 0.05 x)))
    (fun x => currinHfAt (addAt t 1 0.05 (addAt t 0 (-0.05) x))) (fun x => currinHfAt fun k => x k - 0.05)
  have e : currinLfOf t X = .ok (mean4Cols ((ew (fun x => x + 0.05) X).map currinHfAt) (((X.map (addAt t 0 0.05)).map (addAt t 1 (-0.05))).map currinHfAt)
      (((X.map (addAt t 0 (-0.05))).map (addAt t 1 0.05)).map currinHfAt) ((ew (fun x => x - 0.05) X).map currinHfAt)) :=
    Py.bind_ok.mpr ⟨_, currinHf_map _, Py.bind_ok.mpr ⟨_, addToCol_map t 0 0.05 X (by norm_num), Py.bind_ok.mpr ⟨_, addToCol_map t 1 (-0.05) _ (by norm_num),
      Py.bind_ok.mpr ⟨_, currinHf_map _, Py.bind_ok.mpr ⟨_, addToCol_map t 0 (-0.05) X (by norm_num), Py.bind_ok.mpr ⟨_, addToCol_map t 1 0.05 _ (by norm_num),
        Py.bind_ok.mpr ⟨_, currinHf_map _, Py.bind_ok.mpr ⟨_, currinHf_map _, rfl⟩⟩⟩⟩⟩⟩⟩⟩
  rw [e]
  refine congrArg Except.ok (Eq.trans ?_ h)
  simp only [ew, List.map_map]
  rfl

theorem park91AHf_map (X : Batch 4) : park91AHf X = .ok (X.map park91AHfAt) := congrArg Except.ok (columnOpt_get X park91AHfAt)

theorem zipWith_map_self {α β γ δ : Type} (l : List α) (f : β → γ → δ) (g : α → β) (h : α → γ) :
    List.zipWith f (l.map g) (l.map h) = l.map fun a => f (g a) (h a) := by
  induction l with
  | nil => rfl
  | cons a l ih => simp only [List.map_cons, List.zipWith_cons_cons, ih]

theorem park91ALf_map (X : Batch 4) : park91ALf X = .ok (X.map park91ALfAt) := by
  show (do
    let h ← park91AHf X
    Except.ok (List.zipWith (fun (y : Option ℝ) (u : ℝ) => y.map fun v => v + u)
      (List.zipWith (fun (u : ℝ) (y : Option ℝ) => y.map fun v => u * v) (List.ofFn fun i : Fin X.length => 1 + sin (X.get i 0) / 10) h)
      (List.ofFn fun i : Fin X.length => -2 * X.get i 0 + X.get i 1 ^ 2 + X.get i 2 ^ 2 + 0.5))) = _
  rw [park91AHf_map]
  refine congrArg Except.ok ?_
  rw [ofFn_get_map X fun r => 1 + sin (r 0) / 10, ofFn_get_map X fun r => -2 * r 0 + r 1 ^ 2 + r 2 ^ 2 + 0.5, zipWith_map_self, zipWith_map_self]
  rfl

theorem park91BHf_map (X : Batch 4) : park91BHf X = .ok (X.map fun r => some (park91BHfAt r)) := congrArg Except.ok (column_get X park91BHfAt)

theorem park91BLf_map (X : Batch 4) : park91BLf X = .ok (X.map fun r => some (park91BLfAt r)) := by
  unfold park91BLf
  rw [park91BHf_map]
  refine congrArg Except.ok ?_
  rw [List.map_map]
  rfl

theorem MFName.hf_map (p : MFName) (X : Batch (p.attrs.numDim.getD 0)) : p.hf X = .ok (X.map p.hfAt) := by
  cases p with
  | forrester1a => exact reshapeN1_one X forresterExpr
  | forrester1b => exact reshapeN1_one X forresterExpr
  | forrester1c => exact reshapeN1_one X forresterExpr
  | hartman3 => exact hartman3F_map X
  | sixhump => exact sixhumpF_map X
  | hartman6 => exact hartman6F_map X
  | discontinuous => exact discontinuousHf_map X
  | contNonlin1D => exact congrArg Except.ok (flatten_one X _)
  | phaseShift => exact congrArg Except.ok (flatten_one X _)
  | bohachevsky => exact congrArg Except.ok (column_get X bohachevskyHfAt)
  | booth => exact congrArg Except.ok (column_get X boothHfAt)
  | borehole => exact congrArg Except.ok (columnOpt_get X (boreholeAt (2 * π) 1))
  | currinExp => exact currinHf_map X
  | himmelblau => exact congrArg Except.ok (column_get X himmelblauHfAt)
  | park91A => exact park91AHf_map X
  | park91B => exact park91BHf_map X

theorem MFName.lf_map (p : MFName) (t : DType) (X : Batch (p.attrs.numDim.getD 0)) : p.lf t X = .ok (X.map (p.lfAt t)) := by
  cases p with
  | forrester1a => exact reshapeN1_one X _
  | forrester1b => exact reshapeN1_one X _
  | forrester1c => exact reshapeN1_one X _
  | hartman3 => exact congrArg Except.ok (column_get X hartman3LfAt)
  | sixhump => exact congrArg Except.ok (column_get X sixhumpLfAt)
  | hartman6 => exact mapM_ok X hartman6LfAt
  | discontinuous => exact discontinuousLf_map X
  | contNonlin1D => exact congrArg Except.ok (flatten_one X _)
  | phaseShift => exact congrArg Except.ok (flatten_one X _)
  | bohachevsky => exact congrArg Except.ok (column_get X bohachevskyLfAt)
  | booth => exact congrArg Except.ok (column_get X boothLfAt)
  | borehole => exact congrArg Except.ok (columnOpt_get X (boreholeAt 5 1.5))
  | currinExp => exact currinLf_map t X
  | himmelblau => exact congrArg Except.ok (column_get X himmelblauLfAt)
  | park91A => exact park91ALf_map X
  | park91B => exact park91BLf_map X

end Mfpml.Problems
