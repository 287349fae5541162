import Mathlib.Analysis.SpecialFunctions.Trigonometric.Basic
import Mathlib.Analysis.SpecialFunctions.Log.Basic
import Mathlib.Analysis.SpecialFunctions.Sqrt
import Mathlib.Data.Fin.VecNotation
import Verif.Model.Prelude

/-!
# Model of the benchmark problems
`src/mfpml/problems/functions.py`, `sf_functions.py`, `sf_cons_functions.py`, `mf_functions.py`

Numbers are exact reals, `np.pi` is `π` and decimal literals are the decimals they spell.  A sample array of shape `(n, d)` is the list of its `n` rows, each a `Fin d → ℝ`.  A
response array of shape `(n, 1)` is the list of its `n` entries; an entry is `none` when numpy would compute it with a division by zero, the logarithm of a non-positive number or the
square root of a negative one (`nan` or `inf`, numpy goes on with the other rows).  Sample arrays are two-dimensional; the one-dimensional branch of `Ackley.f`, `Thevenot.f` and
`AckleyN2.f` is `…Row`.  Column expressions are written entry by entry (`fun i => …`), as numpy broadcasts them.
-/

set_option linter.unusedSectionVars false

namespace Mfpml.Problems

open Real

variable {d : ℕ}

/-- A sample array of shape `(n, d)`: the list of its rows (sf_functions.py:36-41). -/
abbrev Batch (d : ℕ) := List (Fin d → ℝ)

/-- A response array of shape `(n, 1)`: the list of its entries, `none` for a `nan` or `inf` (sf_functions.py:39-41). -/
abbrev Out := List (Option ℝ)

/-- `x[:, j]`: a column; `IndexError` when there is no such column (also for an array without rows) (sf_functions.py:77-78). -/
def col (X : Batch d) (j : ℕ) : Py (Fin X.length → ℝ) :=
  if h : j < d then .ok (fun i => X.get i ⟨j, h⟩) else .error .indexError

/-- `np.reshape(obj, (n, 1))` of a one-dimensional array of length `n` (sf_functions.py:85). -/
def column {n : ℕ} (v : Fin n → ℝ) : Out := List.ofFn fun i => some (v i)

/-- The same for a column that may contain `nan`s (sf_functions.py:343-346). -/
def columnOpt {n : ℕ} (v : Fin n → Option ℝ) : Out := List.ofFn v

/-- `obj.reshape((-1, 1))` of an array of shape `(n, d)`: all its entries, row after row (mf_functions.py:444). -/
def flatten (v : Batch d) : Out := (v.map fun r => List.ofFn fun j => some (r j)).flatten

/-- `np.reshape(obj, (x.shape[0], 1))` of an array of shape `(n, d)`: `ValueError` unless it has `n` entries (sf_functions.py:39). -/
def reshapeN1 (v : Batch d) : Py Out := if v.length * d = v.length then .ok (flatten v) else .error .valueError

/-- An operation applied to every entry of an array (sf_functions.py:38). -/
def ew (g : ℝ → ℝ) (X : Batch d) : Batch d := X.map fun r j => g (r j)

/-- `x / y` of numbers, `none` for a division by zero (mf_functions.py:701, 953). -/
noncomputable def fdiv (x y : ℝ) : Option ℝ := if y = 0 then none else some (x / y)

/-- `np.log` of a number, `none` unless it is positive (sf_functions.py:346). -/
noncomputable def flog (x : ℝ) : Option ℝ := if 0 < x then some (Real.log x) else none

/-- `np.sqrt` of a number, `none` if it is negative (mf_functions.py:953). -/
noncomputable def fsqrt (x : ℝ) : Option ℝ := if x < 0 then none else some (Real.sqrt x)

/-! ## Single-fidelity problems: sf_functions.py -/

/-- `(6 * x - 2) ** 2 * np.sin(12 * x - 4)`, sf_functions.py:38 and mf_functions.py:51, 85, 121. -/
noncomputable def forresterExpr (x : ℝ) : ℝ := (6 * x - 2) ^ 2 * sin (12 * x - 4)

/-- `Forrester.f`, sf_functions.py:36-41: computed on the whole array, then reshaped. -/
noncomputable def forresterF (X : Batch d) : Py Out := reshapeN1 (ew forresterExpr X)

/-- `Branin.f`, sf_functions.py:69-86. -/
noncomputable def braninF (X : Batch d) : Py Out := do
  let a : ℝ := 1
  let b : ℝ := 5.1 / (4 * π ^ 2)
  let c : ℝ := 5.0 / π
  let dd : ℝ := 6.0
  let h : ℝ := 10.0
  let ff : ℝ := 1 / (8 * π)
  let x1 ← col X 0
  let x2 ← col X 1
  .ok (column fun i => a * (x2 i - b * x1 i ^ 2 + c * x1 i - dd) ^ 2 + h * (1 - ff) * cos (x1 i) + h)

/-- `GoldPrice.f`, sf_functions.py:114-142. -/
noncomputable def goldPriceF (X : Batch d) : Py Out := do
  let x1 ← col X 0
  let x2 ← col X 1
  .ok (column fun i =>
    (1 + (x1 i + x2 i + 1) ^ 2 * (19 - 14 * x1 i + 3 * x1 i ^ 2 - 14 * x2 i + 6 * x1 i * x2 i + 3 * x2 i ^ 2)) *
    (30 + (2 * x1 i - 3 * x2 i) ^ 2 * (18 - 32 * x1 i + 12 * x1 i ^ 2 + 48 * x2 i - 36 * x1 i * x2 i + 27 * x2 i ^ 2)))

/-- `Sixhump.f`, sf_functions.py:170-181; the same text in `mf_Sixhump.hf`, mf_functions.py:225-237. -/
noncomputable def sixhumpF (X : Batch d) : Py Out := do
  let x1 ← col X 0
  let x2 ← col X 1
  let term1 := fun i => (4 - 2.1 * x1 i ^ 2 + x1 i ^ 4 / 3) * x1 i ^ 2
  let term2 := fun i => x1 i * x2 i
  let term3 := fun i => (-4 + 4 * x2 i ^ 2) * x2 i ^ 2
  .ok (column fun i => term1 i + term2 i + term3 i)

/-- `Sasena.f`, sf_functions.py:209-221. -/
noncomputable def sasenaF (X : Batch d) : Py Out := do
  let x1 ← col X 0
  let x2 ← col X 1
  .ok (column fun i => 2 + 0.01 * (x2 i - x1 i ^ 2) ^ 2 + (1 - x1 i) ^ 2 + 2 * (2 - x2 i) ^ 2 + 7 * sin (0.5 * x1 i) * sin (0.7 * x1 i * x2 i))

/-- The coefficient array `a` of `Hartman3.f`, sf_functions.py:251-258. -/
noncomputable def hartman3A : Fin 4 → Fin 3 → ℝ := ![![3.0, 10.0, 30.0], ![0.1, 10.0, 35.0], ![3.0, 10.0, 30.0], ![0.1, 10.0, 35.0]]

/-- The array `p` of `Hartman3.f`, sf_functions.py:259-266. -/
noncomputable def hartman3P : Fin 4 → Fin 3 → ℝ :=
  ![![0.3689, 0.117, 0.2673], ![0.4699, 0.4387, 0.747], ![0.1091, 0.8732, 0.5547], ![0.03815, 0.5743, 0.8828]]

/-- The array `c` of `Hartman3.f`, sf_functions.py:267. -/
noncomputable def hartman3C : Fin 4 → ℝ := ![1, 1.2, 3, 3.2]

/-- Broadcasting a row of length `d` against rows of length `k`: the row itself, or its single entry repeated; `ValueError` otherwise (sf_functions.py:268-274). -/
def broadcastRow (k : ℕ) (r : Fin d → ℝ) : Py (Fin k → ℝ) :=
  if h : d = k then .ok (fun j => r (j.cast h.symm))
  else if h1 : d = 1 then .ok (fun _ => r ⟨0, by omega⟩)
  else .error .valueError

/-- `np.dot(c, np.exp(-np.sum(a * (x - p) ** 2, axis=1)))` (sf_functions.py:268-274). -/
noncomputable def hartmanSum {k : ℕ} (a p : Fin 4 → Fin k → ℝ) (c : Fin 4 → ℝ) (x : Fin k → ℝ) : ℝ :=
  ∑ i, c i * exp (-∑ j, a i j * (x j - p i j) ^ 2)

/-- `Hartman3.f`, sf_functions.py:249-275, and `mf_Hartman3.hf`, mf_functions.py:162-188 (the `obj.reshape` whose result is dropped there has no effect): a loop over the rows. -/
noncomputable def hartman3F (X : Batch d) : Py Out :=
  X.mapM fun r => do
    let x ← broadcastRow 3 r
    .ok (some (-hartmanSum hartman3A hartman3P hartman3C x))

/-- The coefficient array `a` of `Hartman6.f`, sf_functions.py:322-329. -/
noncomputable def hartman6A : Fin 4 → Fin 6 → ℝ :=
  ![![10.00, 3.0, 17.00, 3.5, 1.7, 8], ![0.05, 10.0, 17.00, 0.1, 8.0, 14], ![3.00, 3.5, 1.70, 10.0, 17.0, 8], ![17.00, 8.0, 0.05, 10.0, 0.1, 14]]

/-- The array `p` of `Hartman6.f`, sf_functions.py:330-337. -/
noncomputable def hartman6P : Fin 4 → Fin 6 → ℝ :=
  ![![0.1312, 0.1696, 0.5569, 0.0124, 0.8283, 0.5886], ![0.2329, 0.4135, 0.8307, 0.3736, 0.1004, 0.9991],
    ![0.2348, 0.1451, 0.3522, 0.2883, 0.3047, 0.6650], ![0.4047, 0.8828, 0.8732, 0.5743, 0.1091, 0.0381]]

/-- The array `c` of `Hartman6.f`, sf_functions.py:338. -/
noncomputable def hartman6C : Fin 4 → ℝ := ![1.0, 1.2, 3.0, 3.2]

/-- `-np.log(-obj)` for an entry (sf_functions.py:346). -/
noncomputable def negLogNeg (obj : ℝ) : Option ℝ := (flog (-obj)).map fun l => -l

/-- `Hartman6.f`, sf_functions.py:320-346, and `mf_Hartman6.hf`, mf_functions.py:297-325. -/
noncomputable def hartman6F (X : Batch d) : Py Out :=
  X.mapM fun r => do
    let x ← broadcastRow 6 r
    .ok (negLogNeg (-hartmanSum hartman6A hartman6P hartman6C x))

/-- `Thevenot.f` of a one-dimensional `x`, sf_functions.py:388-391.  Simplification: `2 * m` is an even natural number (the default `m = 5.0` is), so that `** (2 * m)` is defined for
negative numbers; for `beta = 0` the entry counts as not finite. -/
noncomputable def thevenotRow (m : ℕ) (beta : ℝ) (x : Fin d → ℝ) : Option ℝ :=
  if beta = 0 ∧ d ≠ 0 then none
  else some (exp (-∑ j, (x j / beta) ^ (2 * m)) - 2 * exp (-∏ j, x j ^ 2) * ∏ j, cos (x j) ^ 2)

/-- `Thevenot.f` of a two-dimensional `x`, sf_functions.py:392-403: a loop over the rows. -/
noncomputable def thevenotF (m : ℕ) (beta : ℝ) (X : Batch d) : Py Out :=
  .ok (X.map fun r =>
    if beta = 0 ∧ d ≠ 0 then none
    else some (exp (-∑ j, (r j / beta) ^ (2 * m)) - 2 * exp (-∏ j, r j ^ 2) * ∏ j, cos (r j) ^ 2))

/-- `np.mean` of a row: `nan` for an empty one (sf_functions.py:464-469). -/
noncomputable def fmean (v : Fin d → ℝ) : Option ℝ := fdiv (∑ j, v j) d

/-- `Ackley.f` of a one-dimensional `x`, sf_functions.py:464-469. -/
noncomputable def ackleyRow (a b c : ℝ) (x : Fin d → ℝ) : Option ℝ := do
  let q ← fmean fun j => x j ^ 2
  let s ← fsqrt q
  let t ← fmean fun j => cos (c * x j)
  some (-a * exp (-b * s) - exp t + a + exp 1)

/-- `Ackley.f` of a two-dimensional `x`, sf_functions.py:470-482: a loop over the rows. -/
noncomputable def ackleyF (a b c : ℝ) (X : Batch d) : Py Out :=
  .ok (X.map fun r => do
    let q ← fmean fun j => r j ^ 2
    let s ← fsqrt q
    let t ← fmean fun j => cos (c * r j)
    some (-a * exp (-b * s) - exp t + a + exp 1))

/-- `x1, x2 = x`: `ValueError` unless there are exactly two (sf_functions.py:526-529). -/
def unpack2 (r : Fin d → ℝ) : Py (ℝ × ℝ) := if h : d = 2 then .ok (r ⟨0, by omega⟩, r ⟨1, by omega⟩) else .error .valueError

/-- `AckleyN2.f` of a one-dimensional `x`, sf_functions.py:526-529. -/
noncomputable def ackleyN2Row (x : Fin d → ℝ) : Py ℝ := do
  let (x1, x2) ← unpack2 x
  .ok (-200 * exp (-0.2 * Real.sqrt (x1 ^ 2 + x2 ^ 2)))

/-- `AckleyN2.f` of a two-dimensional `x`, sf_functions.py:530-537: a loop over the rows. -/
noncomputable def ackleyN2F (X : Batch d) : Py Out :=
  X.mapM fun r => do
    let (x1, x2) ← unpack2 r
    .ok (some (-200 * exp (-0.2 * Real.sqrt (x1 ^ 2 + x2 ^ 2))))

/-! ## Constrained problems: sf_cons_functions.py -/

/-- `Branin_1.f`, sf_cons_functions.py:34-45, and the same text in `Branin_2.f`, 81-92. -/
noncomputable def braninConsF (X : Batch d) : Py Out := do
  let c0 ← col X 0
  let c1 ← col X 1
  let x1 := fun i => 15 * c0 i - 5.0
  let x2 := fun i => 15 * c1 i
  .ok (column fun i => (x2 i - 5.1 / (4 * π ^ 2) * x1 i ^ 2 + 5 / π * x1 i - 6) ^ 2 + 10 * (1 - 1 / (8 * π)) * cos (x1 i) + 10 + 5 * c0 i)

/-- `Branin_1.f_cons`, sf_cons_functions.py:47-53. -/
noncomputable def branin1Cons (X : Batch d) : Py Out := do
  let c0 ← col X 0
  let c1 ← col X 1
  .ok (column fun i => -c0 i * c1 i + 0.2)

/-- `Branin_2.f_cons`, sf_cons_functions.py:94-104. -/
noncomputable def branin2Cons (X : Batch d) : Py Out := do
  let c0 ← col X 0
  let c1 ← col X 1
  let x1 := fun i => 2 * c0 i - 1
  let x2 := fun i => 2 * c1 i - 1
  .ok (column fun i => 6 - ((4 - 2.1 * x1 i ^ 2 + x1 i ^ 4 / 3) * x1 i ^ 2 + x1 i * x2 i + (-4 + 4 * x2 i ^ 2) * x2 i ^ 2
    + 3 * sin (6 * (1 - x1 i)) + 3 * sin (6 * (1 - x2 i))))

/-! ## Multi-fidelity problems: mf_functions.py -/

/-- `Forrester_1a.lf`, mf_functions.py:56-60. -/
noncomputable def forrester1aLf (X : Batch d) : Py Out := reshapeN1 (ew (fun x => (6 * x - 2) ^ 2 * sin (12 * x - 4) - 5) X)

/-- `Forrester_1b.lf`, mf_functions.py:90-96. -/
noncomputable def forrester1bLf (X : Batch d) : Py Out :=
  reshapeN1 (ew (fun x => 0.5 * ((6 * x - 2) ^ 2 * sin (12 * x - 4)) + 10 * (x - 0.5) - 5) X)

/-- `Forrester_1c.lf`, mf_functions.py:126-130. -/
noncomputable def forrester1cLf (X : Batch d) : Py Out := reshapeN1 (ew (fun x => (6 * (x + 0.2) - 2) ^ 2 * sin (12 * (x + 0.2) - 4)) X)

/-- `mf_Hartman3.lf`, mf_functions.py:190-204. -/
noncomputable def hartman3Lf (X : Batch d) : Py Out := do
  let x0 ← col X 0
  let x1 ← col X 1
  let x2 ← col X 2
  .ok (column fun i => 0.585 - 0.324 * x0 i - 0.379 * x1 i - 0.431 * x2 i - 0.208 * x0 i * x1 i + 0.326 * x0 i * x2 i + 0.193 * x1 i * x2 i
    + 0.225 * x0 i ^ 2 + 0.263 * x1 i ^ 2 + 0.274 * x2 i ^ 2)

/-- `mf_Sixhump.lf`, mf_functions.py:239-253. -/
noncomputable def sixhumpLf (X : Batch d) : Py Out := do
  let x1 ← col X 0
  let x2 ← col X 1
  let term1 := fun i => (4 - 2.1 * (0.7 * x1 i) ^ 2 + (0.7 * x1 i) ^ 4 / 3) * (0.7 * x1 i) ^ 2
  let term2 := fun i => 0.7 * x1 i * 0.7 * x2 i
  let term3 := fun i => (-4 + 4 * (0.7 * x2 i) ^ 2) * (0.7 * x2 i) ^ 2
  .ok (column fun i => (term1 i + term2 i + term3 i) + (-x1 i * x2 i - 15))

/-- The array `c` of `mf_Hartman6.lf`, mf_functions.py:347. -/
noncomputable def hartman6LfC : Fin 4 → ℝ := ![1.1, 0.8, 2.5, 3]

/-- The array `l_array` of `mf_Hartman6.lf`, mf_functions.py:348. -/
noncomputable def hartman6LfL : Fin 6 → ℝ := ![0.75, 1, 0.8, 1.3, 0.7, 1.1]

/-- `mf_Hartman6.lf`, mf_functions.py:327-358. -/
noncomputable def hartman6Lf (X : Batch d) : Py Out :=
  X.mapM fun r => do
    let x ← broadcastRow 6 r
    .ok (negLogNeg (-hartmanSum hartman6A hartman6P hartman6LfC (fun j => hartman6LfL j * x j)))

/-- `x[ii, 0]` (mf_functions.py:390). -/
def entry0 (r : Fin d → ℝ) : Py ℝ := if h : 0 < d then .ok (r ⟨0, h⟩) else .error .indexError

open Classical in
/-- `mf_Discontinuous.lf`, mf_functions.py:384-397. -/
noncomputable def discontinuousLf (X : Batch d) : Py Out :=
  X.mapM fun r => do
    let x ← entry0 r
    if x ≤ 0.5 then .ok (some (0.5 * (6 * x - 2) ^ 2 * sin (12 * x - 4) + 10 * (x - 0.5) - 5))
    else .ok (some (3 + 0.5 * (6 * x - 2) ^ 2 * sin (12 * x - 4) + 10 * (x - 0.5) - 5))

open Classical in
/-- `mf_Discontinuous.hf`, mf_functions.py:399-414. -/
noncomputable def discontinuousHf (X : Batch d) : Py Out :=
  X.mapM fun r => do
    let x ← entry0 r
    if x ≤ 0.5 then .ok (some (2 * (0.5 * (6 * x - 2) ^ 2 * sin (12 * x - 4) + 10 * (x - 0.5) - 5) - 20 * x + 20))
    else .ok (some (4 + 2 * (3 + 0.5 * (6 * x - 2) ^ 2 * sin (12 * x - 4) + 10 * (x - 0.5) - 5) - 20 * x + 20))

/-- `ContinuousNonlinearCorrelation1D.lf`, mf_functions.py:440-444: reshaped with `(-1, 1)`, so every entry counts. -/
noncomputable def contNonlinLf (X : Batch d) : Py Out := .ok (flatten (ew (fun x => sin (8 * π * x)) X))

/-- `ContinuousNonlinearCorrelation1D.hf`, mf_functions.py:446-451. -/
noncomputable def contNonlinHf (X : Batch d) : Py Out := .ok (flatten (ew (fun x => sin (8 * π * x) ^ 2 * (x - Real.sqrt 2)) X))

/-- `PhaseShiftedOscillations.lf`, mf_functions.py:478-481. -/
noncomputable def phaseShiftLf (X : Batch d) : Py Out := .ok (flatten (ew (fun x => sin (8 * π * x)) X))

/-- `PhaseShiftedOscillations.hf`, mf_functions.py:483-488. -/
noncomputable def phaseShiftHf (X : Batch d) : Py Out := .ok (flatten (ew (fun x => x ^ 2 + sin (8 * π * x + π / 10) ^ 2) X))

/-- `mf_Bohachevsky.lf`, mf_functions.py:523-543. -/
noncomputable def bohachevskyLf (X : Batch d) : Py Out := do
  let c0 ← col X 0
  let x11 := fun i => 0.7 * c0 i
  let x1 ← col X 0
  let x2 ← col X 1
  let term1 := fun i => x11 i ^ 2 + 2 * x2 i ^ 2
  let term2 := fun i => 0.3 * cos (3 * π * x11 i)
  let term3 := fun i => 0.4 * cos (4 * π * x2 i)
  let term4 := fun i => x1 i * x2 i - 12
  .ok (column fun i => term1 i - term2 i - term3 i + 0.7 + term4 i)

/-- `mf_Bohachevsky.hf`, mf_functions.py:545-560. -/
noncomputable def bohachevskyHf (X : Batch d) : Py Out := do
  let x1 ← col X 0
  let x2 ← col X 1
  let term1 := fun i => x1 i ^ 2 + 2 * x2 i ^ 2
  let term2 := fun i => 0.3 * cos (3 * π * x1 i)
  let term3 := fun i => 0.4 * cos (4 * π * x2 i)
  .ok (column fun i => term1 i - term2 i - term3 i + 0.7)

/-- `mf_Booth.lf`, mf_functions.py:596-615. -/
noncomputable def boothLf (X : Batch d) : Py Out := do
  let c0 ← col X 0
  let x11 := fun i => 0.4 * c0 i
  let x1 ← col X 0
  let x2 ← col X 1
  let term1 := fun i => (x11 i + 2 * x2 i - 7) ^ 2
  let term2 := fun i => (2 * x11 i + x2 i - 5) ^ 2
  let term3 := fun i => 1.7 * x1 i * x2 i - x1 i + 2 * x2 i
  .ok (column fun i => term1 i + term2 i + term3 i)

/-- `mf_Booth.hf`, mf_functions.py:617-631. -/
noncomputable def boothHf (X : Batch d) : Py Out := do
  let x1 ← col X 0
  let x2 ← col X 1
  let term1 := fun i => (x1 i + 2 * x2 i - 7) ^ 2
  let term2 := fun i => (2 * x1 i + x2 i - 5) ^ 2
  .ok (column fun i => term1 i + term2 i)

/-- `mf_Borehole.base`, mf_functions.py:679-703.  Simplification: an infinite intermediate value counts as a result that is not finite, although `x / inf` would be `0`. -/
noncomputable def boreholeBase (a b : ℝ) (X : Batch d) : Py Out := do
  let rw ← col X 0
  let r ← col X 1
  let Tu ← col X 2
  let Hu ← col X 3
  let Tl ← col X 4
  let Hl ← col X 5
  let L ← col X 6
  let Kw ← col X 7
  .ok (columnOpt fun i => do
    let term1 := a * Tu i * (Hu i - Hl i)
    let q ← fdiv (r i) (rw i)
    let term2 ← flog q
    let q1 ← fdiv (2 * L i * Tu i) (term2 * rw i ^ 2 * Kw i)
    let q2 ← fdiv (Tu i) (Tl i)
    let term3 := b + q1 + q2
    fdiv term1 (term2 * term3))

/-- `mf_Borehole.lf`, mf_functions.py:705-710. -/
noncomputable def boreholeLf (X : Batch d) : Py Out := boreholeBase 5 1.5 X

/-- `mf_Borehole.hf`, mf_functions.py:712-717. -/
noncomputable def boreholeHf (X : Batch d) : Py Out := boreholeBase (2 * π) 1 X

open Classical in
/-- `mf_CurrinExp.hf`, mf_functions.py:786-808. -/
noncomputable def currinHf (X : Batch d) : Py Out := do
  let x1 ← col X 0
  let x2 ← col X 1
  let term1 : Fin X.length → ℝ := fun i => if x2 i ≤ 1e-8 then 1 else 1 - exp (-1 / (2 * x2 i))
  let term2 := fun i => 2300 * x1 i ^ 3 + 1900 * x1 i ^ 2 + 2092 * x1 i + 60
  let term3 := fun i => 100 * x1 i ^ 3 + 500 * x1 i ^ 2 + 4 * x1 i + 20
  .ok (columnOpt fun i => fdiv (term1 i * term2 i) (term3 i))

/-- The element type of a sample array (mf_functions.py:753-784). -/
inductive DType
  | float
  | int

/-- Storing a number in an array: an array of integers drops the fractional part (truncation towards zero) (mf_functions.py:753-784). -/
noncomputable def DType.store : DType → ℝ → ℝ
  | .float, x => x
  | .int, x => if 0 ≤ x then ⌊x⌋ else ⌈x⌉

/-- `xx[:, j] = xx[:, j] + v`: an assignment into the array keeps its element type (mf_functions.py:753-784). -/
noncomputable def addToCol (t : DType) (j : ℕ) (v : ℝ) (X : Batch d) : Py (Batch d) :=
  if j < d then .ok (X.map fun r k => if (k : ℕ) = j then t.store (r k + v) else r k) else .error .indexError

/-- The sum of four entries divided by four (mf_functions.py:783). -/
noncomputable def mean4 (t1 t2 t3 t4 : Option ℝ) : Option ℝ := do
  let a ← t1
  let b ← t2
  let c ← t3
  let e ← t4
  some ((a + b + c + e) / 4.0)

/-- `((term1 + term2 + term3 + term4) / 4.0)` for four response arrays of the same length (mf_functions.py:783). -/
noncomputable def mean4Cols : Out → Out → Out → Out → Out
  | a :: as, b :: bs, c :: cs, e :: es => mean4 a b c e :: mean4Cols as bs cs es
  | _, _, _, _ => []

/-- `mf_CurrinExp.lf`, mf_functions.py:753-784.  `xx + 0.05` and `xx - 0.05` make new float arrays, the column assignments write into a copy of `x`, which has the element type of `x`. -/
noncomputable def currinLfOf (t : DType) (X : Batch d) : Py Out := do
  let term1 ← currinHf (ew (fun x => x + 0.05) X)
  let xx ← addToCol t 0 0.05 X
  let xx ← addToCol t 1 (-0.05) xx
  let term2 ← currinHf xx
  let xx ← addToCol t 0 (-0.05) X
  let xx ← addToCol t 1 0.05 xx
  let term3 ← currinHf xx
  let term4 ← currinHf (ew (fun x => x - 0.05) X)
  .ok (mean4Cols term1 term2 term3 term4)

/-- `mf_Himmelblau.lf`, mf_functions.py:843-863. -/
noncomputable def himmelblauLf (X : Batch d) : Py Out := do
  let c0 ← col X 0
  let x11 := fun i => 0.5 * c0 i
  let c1 ← col X 1
  let x22 := fun i => 0.8 * c1 i
  let x1 ← col X 0
  let x2 ← col X 1
  let term1 := fun i => (x11 i ^ 2 + x22 i - 11) ^ 2
  let term2 := fun i => (x11 i + x22 i ^ 2 - 7) ^ 2
  let term3 := fun i => x2 i ^ 3 - (x1 i + 1) ^ 2
  .ok (column fun i => term1 i + term2 i + term3 i)

/-- `mf_Himmelblau.hf`, mf_functions.py:865-879. -/
noncomputable def himmelblauHf (X : Batch d) : Py Out := do
  let x1 ← col X 0
  let x2 ← col X 1
  let term1 := fun i => (x1 i ^ 2 + x2 i - 11) ^ 2
  let term2 := fun i => (x1 i + x2 i ^ 2 - 7) ^ 2
  .ok (column fun i => term1 i + term2 i)

/-- `mf_Park91A.hf`, mf_functions.py:941-959. -/
noncomputable def park91AHf (X : Batch d) : Py Out := do
  let x1 ← col X 0
  let x2 ← col X 1
  let x3 ← col X 2
  let x4 ← col X 3
  .ok (columnOpt fun i => do
    let q ← fdiv ((x2 i + x3 i ^ 2) * x4 i) (x1 i ^ 2)
    let s ← fsqrt (1 + q)
    let term1 := x1 i / 2 * (s - 1)
    let term2 := (x1 i + 3 * x4 i) * exp (1 + sin (x3 i))
    some (term1 + term2))

/-- `mf_Park91A.lf`, mf_functions.py:919-939. -/
noncomputable def park91ALf (X : Batch d) : Py Out := do
  let x1 ← col X 0
  let x2 ← col X 1
  let x3 ← col X 2
  let factor := List.ofFn fun i => 1 + sin (x1 i) / 10
  let h ← park91AHf X
  let term1 := List.zipWith (fun u y => y.map fun v => u * v) factor h
  let term2 := List.ofFn fun i => -2 * x1 i + x2 i ^ 2 + x3 i ^ 2 + 0.5
  .ok (List.zipWith (fun y u => y.map fun v => v + u) term1 term2)

/-- `mf_Park91B.hf`, mf_functions.py:1011-1028. -/
noncomputable def park91BHf (X : Batch d) : Py Out := do
  let x1 ← col X 0
  let x2 ← col X 1
  let x3 ← col X 2
  let x4 ← col X 3
  .ok (column fun i => 2 / 3 * exp (x1 i + x2 i) - x4 i * sin (x3 i) + x3 i)

/-- `mf_Park91B.lf`, mf_functions.py:998-1009. -/
noncomputable def park91BLf (X : Batch d) : Py Out := do
  let h ← park91BHf X
  .ok (h.map fun y => y.map fun v => 1.2 * v - 1)

/-! ## The problem classes -/

/-- The single-fidelity problem classes whose dimension is fixed: sf_functions.py, sf_cons_functions.py (sf_functions.py:12-303, 503-511; sf_cons_functions.py:9-64). -/
inductive SFName
  | forrester | branin | goldPrice | sixhump | sasena | hartman3 | hartman6 | ackleyN2 | branin1 | branin2
  deriving DecidableEq

/-- The multi-fidelity problem classes: mf_functions.py (mf_functions.py:32-1028). -/
inductive MFName
  | forrester1a | forrester1b | forrester1c | hartman3 | sixhump | hartman6 | discontinuous | contNonlin1D | phaseShift
  | bohachevsky | booth | borehole | currinExp | himmelblau | park91A | park91B
  deriving DecidableEq

/-- The value of a class attribute: `None`, a number, a list of numbers or a list of lists of numbers.  `num none` is a `nan` (functions.py:10-15). -/
inductive Attr
  | none
  | num (x : Option ℝ)
  | list (l : List ℝ)
  | lists (l : List (List ℝ))

/-- The class attributes `num_dim`, `input_domain`, `optimum` and `optimum_scheme` (functions.py:10-15). -/
structure Attrs where
  numDim : Option ℕ
  domain : List (ℝ × ℝ)
  optimum : Attr
  scheme : Attr

/-- The class attributes of the single-fidelity problems: sf_functions.py:15-22, 46-52, 91-97, 147-153, 186-192, 226-232, 280-303, 505-511; sf_cons_functions.py:11-17, 58-64.
(`AckleyN2` lists its optimum under `optimum_scheme` and its minimiser under `optimum`.) -/
noncomputable def SFName.attrs : SFName → Attrs
  | .forrester => ⟨some 1, [(0.0, 1.0)], .num (some (-6.020740)), .list [0.757248757841856]⟩
  | .branin => ⟨some 2, [(-5.0, 10.0), (0.0, 15.0)], .num (some 0.397887), .lists [[-π, 12.275], [π, 2.275], [9.42478, 2.475]]⟩
  | .goldPrice => ⟨some 2, [(-2.0, 2.0), (-2.0, 2.0)], .num (some 3.0), .list [0.0, 1.0]⟩
  | .sixhump => ⟨some 2, [(-3.0, 3.0), (-2.0, 2.0)], .num (some (-1.0316)), .lists [[0.0898, -0.7126], [-0.0898, 0.7126]]⟩
  | .sasena => ⟨some 2, [(0.0, 5.0), (0.0, 5.0)], .num (some (-1.4565)), .list [2.5044, 2.5778]⟩
  | .hartman3 => ⟨some 3, [(0.0, 1.0), (0.0, 1.0), (0.0, 1.0)], .num (some (-3.86278214782076)), .list [0.1, 0.55592003, 0.85218259]⟩
  | .hartman6 => ⟨some 6, List.replicate 6 (0.0, 1.0), .num (some (-Real.log 3.32236801141551)),
      .list [0.20168952, 0.15001069, 0.47687398, 0.27533243, 0.31165162, 0.65730054]⟩
  | .ackleyN2 => ⟨some 2, [(-32.0, 32.0), (-32.0, 32.0)], .list [0.0, 0.0], .num (some (-200.0))⟩
  | .branin1 => ⟨some 2, [(0, 1), (0.0, 1)], .num (some 5.5757), .list [0.96773, 0.20667]⟩
  | .branin2 => ⟨some 2, [(0, 1), (0.0, 1)], .num (some 12.001), .list [0.941, 0.317]⟩

/-- The method `f` of the single-fidelity problems (sf_functions.py:36-537). -/
noncomputable def SFName.f (p : SFName) (X : Batch d) : Py Out :=
  match p with
  | .forrester => forresterF X
  | .branin => braninF X
  | .goldPrice => goldPriceF X
  | .sixhump => sixhumpF X
  | .sasena => sasenaF X
  | .hartman3 => hartman3F X
  | .hartman6 => hartman6F X
  | .ackleyN2 => ackleyN2F X
  | .branin1 => braninConsF X
  | .branin2 => braninConsF X

/-- The method `f_cons`; the base class's raises `NotImplementedError`, functions.py:154-174. -/
noncomputable def SFName.fCons (p : SFName) (X : Batch d) : Py Out :=
  match p with
  | .branin1 => branin1Cons X
  | .branin2 => branin2Cons X
  | _ => .error .notImplemented

/-- The class attributes of the multi-fidelity problems: mf_functions.py:34-41, 68-75, 104-111, 147-154, 209-216, 258-288, 370-377, 426-433, 463-470, 500-515, 573-588, 644-671, 730-745, 820-835,
892-911, 971-990. -/
noncomputable def MFName.attrs : MFName → Attrs
  | .forrester1a => ⟨some 1, [(0.0, 1.0)], .num (some (-6.020740)), .list [0.757248757841856]⟩
  | .forrester1b => ⟨some 1, [(0.0, 1.0)], .num (some (-6.020740)), .list [0.757248757841856]⟩
  | .forrester1c => ⟨some 1, [(0.0, 1.0)], .num (some (-6.020740)), .list [0.757248757841856]⟩
  | .hartman3 => ⟨some 3, [(0.0, 1.0), (0.0, 1.0), (0.0, 1.0)], .num (some (-3.86278214782076)), .list [0.1, 0.55592003, 0.85218259]⟩
  | .sixhump => ⟨some 2, [(-2.0, 2.0), (-2.0, 2.0)], .num (some (-1.0316)), .lists [[0.0898, -0.7126], [-0.0898, 0.7126]]⟩
  | .hartman6 => ⟨some 6, List.replicate 6 (0.0, 1.0), .num (some (-Real.log 3.32236801141551)),
      .list [0.20168952, 0.15001069, 0.47687398, 0.27533243, 0.31165162, 0.65730054]⟩
  | .discontinuous => ⟨some 1, [(0.0, 1.0)], .none, .none⟩
  | .contNonlin1D => ⟨some 1, [(0.0, 1.0)], .none, .none⟩
  | .phaseShift => ⟨some 1, [(0.0, 1.0)], .none, .none⟩
  | .bohachevsky => ⟨some 2, [(-5.0, 5.0), (-5.0, 5.0)], .num (some 0.0), .list [0.0, 0.0]⟩
  | .booth => ⟨some 2, [(-10.0, 10.0), (-10.0, 10.0)], .num (some 0.0), .list [1.0, 3.0]⟩
  | .borehole => ⟨some 8, [(0.05, 0.15), (100, 50000), (63070, 115600), (990, 1110), (63.1, 116), (700, 820), (1120, 1680), (9855, 12045)], .none, .none⟩
  | .currinExp => ⟨some 2, [(0, 1), (0, 1)], .none, .none⟩
  | .himmelblau => ⟨some 2, [(-4.0, 4.0), (-4.0, 4.0)], .none, .none⟩
  | .park91A => ⟨some 4, List.replicate 4 (0.0, 1.0), .none, .none⟩
  | .park91B => ⟨some 4, List.replicate 4 (0.0, 1.0), .none, .none⟩

/-- The method `hf` (mf_functions.py:49-1028). -/
noncomputable def MFName.hf (p : MFName) (X : Batch d) : Py Out :=
  match p with
  | .forrester1a => reshapeN1 (ew forresterExpr X)
  | .forrester1b => reshapeN1 (ew forresterExpr X)
  | .forrester1c => reshapeN1 (ew forresterExpr X)
  | .hartman3 => hartman3F X
  | .sixhump => sixhumpF X
  | .hartman6 => hartman6F X
  | .discontinuous => discontinuousHf X
  | .contNonlin1D => contNonlinHf X
  | .phaseShift => phaseShiftHf X
  | .bohachevsky => bohachevskyHf X
  | .booth => boothHf X
  | .borehole => boreholeHf X
  | .currinExp => currinHf X
  | .himmelblau => himmelblauHf X
  | .park91A => park91AHf X
  | .park91B => park91BHf X

/-- The method `lf`, for an array of element type `t` (only `mf_CurrinExp` writes into an array of that type) (mf_functions.py:56-1009). -/
noncomputable def MFName.lf (p : MFName) (t : DType) (X : Batch d) : Py Out :=
  match p with
  | .forrester1a => forrester1aLf X
  | .forrester1b => forrester1bLf X
  | .forrester1c => forrester1cLf X
  | .hartman3 => hartman3Lf X
  | .sixhump => sixhumpLf X
  | .hartman6 => hartman6Lf X
  | .discontinuous => discontinuousLf X
  | .contNonlin1D => contNonlinLf X
  | .phaseShift => phaseShiftLf X
  | .bohachevsky => bohachevskyLf X
  | .booth => boothLf X
  | .borehole => boreholeLf X
  | .currinExp => currinLfOf t X
  | .himmelblau => himmelblauLf X
  | .park91A => park91ALf X
  | .park91B => park91BLf X

/-- The loop of `MultiFidelityFunctions.__call__`, mf_functions.py:22-27, from position `i` on: only positions 0 and 1 append to the result. -/
noncomputable def MFName.callFrom (p : MFName) (t : DType) : ℕ → List (Batch d) → Py (List Out)
  | _, [] => .ok []
  | i, X :: rest =>
    if i = 0 then do
      let y ← p.hf X
      let ys ← p.callFrom t (i + 1) rest
      .ok (y :: ys)
    else if i = 1 then do
      let y ← p.lf t X
      let ys ← p.callFrom t (i + 1) rest
      .ok (y :: ys)
    else p.callFrom t (i + 1) rest

/-- `MultiFidelityFunctions.__call__`, mf_functions.py:19-29. -/
noncomputable def MFName.call (p : MFName) (t : DType) (Xs : List (Batch d)) : Py (List Out) := p.callFrom t 0 Xs

/-! ## Constructors and the class attributes they change -/

/-- The argument `num_dim` of a constructor: `None` or an integer (sf_functions.py:32). -/
abbrev DimArg := Option ℤ

/-- A constructor call: the class, `num_dim` and the parameters of `Thevenot` and `Ackley` (sf_functions.py:32, 366, 434). -/
inductive Ctor
  | sf (p : SFName) (numDim : DimArg)
  | mf (p : MFName) (numDim : DimArg)
  | thevenot (numDim : DimArg) (m : ℕ) (beta : ℝ)
  | ackley (numDim : DimArg) (a b c : ℝ)

/-- A problem object: its class and parameters, and the attributes `num_dim` and `input_domain` that `Thevenot` and `Ackley` set on the object itself (sf_functions.py:366-384, 434-457). -/
inductive Obj
  | sf (p : SFName)
  | mf (p : MFName)
  | thevenot (numDim : ℕ) (domain : List (ℝ × ℝ)) (m : ℕ) (beta : ℝ)
  | ackley (numDim : ℕ) (domain : List (ℝ × ℝ)) (a b c : ℝ)

/-- The class attributes that constructors change: those of `Thevenot` and of `Ackley` (sf_functions.py:351-357, 419-425). -/
structure Classes where
  thevenot : Attrs
  ackley : Attrs

/-- The class attributes after importing the module, sf_functions.py:351-357, 419-425. -/
def Classes.initial : Classes := ⟨⟨none, [], .none, .none⟩, ⟨none, [], .none, .none⟩⟩

/-- `is_dim_compatible` of `Thevenot`, `Ackley` (sf_functions.py:359-364, 427-432) and, with another return value that nobody reads, `AckleyN2` (513-518): `None` and the non-negative
integers pass.  Simplification: arguments that are neither `None` nor integers, which fail here too, are not modelled. -/
def anyDimCheck : DimArg → Py Unit
  | none => .ok ()
  | some k => if k < 0 then .error .assertionError else .ok ()

/-- `is_dim_compatible` of the other classes, e.g. sf_functions.py:24-30, mf_functions.py:12-18. -/
def fixedDimCheck (own : Option ℕ) : DimArg → Py Unit
  | none => if own = none then .ok () else .error .assertionError
  | some k => if own.map Int.ofNat = some k then .ok () else .error .assertionError

/-- `[… for _ in range(num_dim)]`: `TypeError` for `None` (sf_functions.py:366-384). -/
def rangeOf : DimArg → Py ℕ
  | none => .error .typeError
  | some k => .ok k.toNat

/-- Calling a constructor: sf_functions.py:32-34, 62-67, 366-384, 434-457, 520-521 and the like, with `__update_parameters`, 405-414, 484-500, which writes the attributes of the class.
Returns the new object and the class attributes; a constructor that raises changes nothing.  The `cost` argument of some multi-fidelity classes is not modelled. -/
noncomputable def construct (cls : Classes) : Ctor → Py (Obj × Classes)
  | .sf p nd => do
    (if p = .ackleyN2 then anyDimCheck nd else fixedDimCheck p.attrs.numDim nd : Py Unit)
    .ok (.sf p, cls)
  | .mf p nd => do
    fixedDimCheck p.attrs.numDim nd
    .ok (.mf p, cls)
  | .thevenot nd m beta => do
    anyDimCheck nd
    let k ← rangeOf nd
    let domain := List.replicate k (-2 * π, 2 * π)
    .ok (.thevenot k domain m beta,
      { cls with thevenot := ⟨some k, domain, .num (thevenotRow m beta (fun _ : Fin k => 0)), .list (List.replicate k 0)⟩ })
  | .ackley nd a b c => do
    anyDimCheck nd
    let k ← rangeOf nd
    let domain := List.replicate k (-32, 32)
    .ok (.ackley k domain a b c,
      { cls with ackley := ⟨some k, domain, .num (ackleyRow a b c (fun _ : Fin k => 0)), .list (List.replicate k 0)⟩ })

/-- The attributes of an object's class: what `_get_dimension`, `_input_domain`, `_optimum` and `_optimum_variable` return, functions.py:220-277. -/
noncomputable def Obj.classAttrs (cls : Classes) : Obj → Attrs
  | .sf p => p.attrs
  | .mf p => p.attrs
  | .thevenot .. => cls.thevenot
  | .ackley .. => cls.ackley

/-- What `obj.num_dim`, `obj.input_domain`, `obj.optimum` and `obj.optimum_scheme` return: attributes of the object come before those of its class (functions.py:220-277). -/
noncomputable def Obj.attrs (cls : Classes) : Obj → Attrs
  | .thevenot k dom _ _ => { cls.thevenot with numDim := some k, domain := dom }
  | .ackley k dom _ _ _ => { cls.ackley with numDim := some k, domain := dom }
  | o => o.classAttrs cls

/-- The method `f` of an object; multi-fidelity classes inherit the one that raises, functions.py:17-37. -/
noncomputable def Obj.f (o : Obj) (X : Batch d) : Py Out :=
  match o with
  | .sf p => p.f X
  | .mf _ => .error .notImplemented
  | .thevenot _ _ m beta => thevenotF m beta X
  | .ackley _ _ a b c => ackleyF a b c X

/-- Python code that creates objects one after the other; constructors that raise are caught and leave nothing behind (sf_functions.py:32-34, 366-384, 434-457). -/
noncomputable def constructAll (cls : Classes) : List Ctor → Classes
  | [] => cls
  | c :: cs =>
    match construct cls c with
    | .ok (_, cls') => constructAll cls' cs
    | .error _ => constructAll cls cs

end Mfpml.Problems
