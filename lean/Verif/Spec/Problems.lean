import Verif.Model.Problems

/-!
# What the properties of the benchmark problems mean

The properties C68–C75, in terms of what a caller sees: arrays of samples go in, arrays of responses come out.
-/

namespace Mfpml.Problems

variable {d : ℕ}

/-- A sample lies in a box given by the rows `(low, high)` of an `input_domain` array. -/
def InDomain (dom : List (ℝ × ℝ)) (x : Fin d → ℝ) : Prop := List.Forall₂ (fun b v => b.1 ≤ v ∧ v ≤ b.2) dom (List.ofFn x)

/-- Evaluating the objective `f` at the single sample `x` returns the real number `y`. -/
def TakesValue (f : Batch d → Py Out) (x : Fin d → ℝ) (y : ℝ) : Prop := f [x] = .ok [some y]

/-- C68: a batch function works row by row. -/
structure RowByRow (f : Batch d → Py Out) : Prop where
  /-- Every batch is evaluated, with one response per sample. -/
  one_per_sample : ∀ X, ∃ Y, f X = .ok Y ∧ Y.length = X.length
  /-- The response to a sample in a batch is the response to the sample alone. -/
  alone : ∀ X Y, f X = .ok Y → ∀ (i : ℕ) (hi : i < X.length) (hj : i < Y.length), f [X[i]] = .ok [Y[i]]
  /-- Concatenated batches give concatenated responses. -/
  concat : ∀ X Y X' Y', f X = .ok Y → f X' = .ok Y' → f (X ++ X') = .ok (Y ++ Y')
  /-- Reordering the samples (or repeating or leaving out some) does the same to the responses. -/
  reorder : ∀ X Y, f X = .ok Y → ∀ is : List ℕ, (∀ i ∈ is, i < X.length) → f (is.filterMap fun i => X[i]?) = .ok (is.filterMap fun i => Y[i]?)

/-- C69, up to `tol`: the class attribute `optimum` is a number and no point of `input_domain` has a value smaller than it (by more than `tol`). -/
def OptimumIsLowerBound (a : Attrs) (f : Batch d → Py Out) (tol : ℝ) : Prop :=
  ∃ o : ℝ, a.optimum = .num (some o) ∧ ∀ x y, InDomain a.domain x → TakesValue f x y → o - tol ≤ y

/-- The same for a constrained problem: only points that satisfy the constraint (`f_cons ≤ 0`) count. -/
def OptimumIsLowerBoundOn (a : Attrs) (f cons : Batch d → Py Out) (tol : ℝ) : Prop :=
  ∃ o : ℝ, a.optimum = .num (some o) ∧ ∀ x y c, InDomain a.domain x → TakesValue f x y → TakesValue cons x c → c ≤ 0 → o - tol ≤ y

/-- The minimisers an `optimum_scheme` attribute lists: it is one point or a list of points. -/
def Attr.points : Attr → List (List ℝ)
  | .list l => [l]
  | .lists ls => ls
  | _ => []

/-- C70, up to `tol`: `optimum` is a number, `optimum_scheme` lists at least one point, and every listed point lies in `input_domain` and has that value. -/
def SchemeAttains (a : Attrs) (f : Batch d → Py Out) (tol : ℝ) : Prop :=
  ∃ o : ℝ, a.optimum = .num (some o) ∧ a.scheme.points ≠ [] ∧
    ∀ s ∈ a.scheme.points, ∃ x : Fin d → ℝ, List.ofFn x = s ∧ InDomain a.domain x ∧ ∃ y, TakesValue f x y ∧ |y - o| ≤ tol

/-- C70 for a constrained problem, up to `tol`: every point `optimum_scheme` lists satisfies the constraint (`f_cons ≤ 0`). -/
def SchemeFeasible (a : Attrs) (cons : Batch d → Py Out) (tol : ℝ) : Prop :=
  ∀ s ∈ a.scheme.points, ∃ x : Fin d → ℝ, List.ofFn x = s ∧ ∃ c, TakesValue cons x c ∧ c ≤ tol

/-- C72: every point of the domain has a finite value. -/
def DefinedOn (a : Attrs) (f : Batch d → Py Out) : Prop := ∀ x, InDomain a.domain x → ∃ y, TakesValue f x y

/-- C71: at every sample, the response of `lf` is `T` of the sample and the response of `hf`. -/
def IsTransform (hf lf : Batch d → Py Out) (T : (Fin d → ℝ) → ℝ → ℝ) : Prop := ∀ x y, TakesValue hf x y → TakesValue lf x (T x y)

/-- The argument `num_dim` of a constructor call. -/
def Ctor.dim : Ctor → DimArg
  | .sf _ nd => nd
  | .mf _ nd => nd
  | .thevenot nd _ _ => nd
  | .ackley nd _ _ _ => nd

/-- A constructor call for the same class as the object. -/
def Ctor.sameClass : Ctor → Obj → Prop
  | .sf p _, .sf q => p = q
  | .mf p _, .mf q => p = q
  | .thevenot .., .thevenot .. => True
  | .ackley .., .ackley .. => True
  | _, _ => False

/-- A constructor call with ordinary arguments: dimension not 0, and for `Thevenot` also `m` and `beta` not 0. -/
def Ctor.Ordinary : Ctor → Prop
  | .thevenot nd m beta => nd ≠ some 0 ∧ m ≠ 0 ∧ beta ≠ 0
  | .ackley nd _ _ _ => nd ≠ some 0
  | _ => True

/-- An object's objective works on batches of width `d`: no batch makes it raise, and some sample has a value. -/
def WorksOn (f : Batch d → Py Out) : Prop := (∀ X, ∃ Y, f X = .ok Y) ∧ ∃ x y, TakesValue f x y

end Mfpml.Problems
