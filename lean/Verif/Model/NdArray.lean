import Verif.Model.GP

/-!
# numpy arrays with their shapes

The other model files take arrays whose shapes are right: a `(n, 1)` column is a vector there.  Here an array carries its shape, an operation checks the shapes of its operands as
numpy does (broadcasting, `ValueError`), and `Model/SurrogatesNd.lean` transcribes the surrogate models line by line in these operations.  numpy itself is outside the model; these
definitions are its documented behaviour for the calls that occur in the code, in exact arithmetic.
-/

open scoped BigOperators Matrix

namespace Mfpml.GP

/-- A float array with 0, 1 or 2 axes (the arrays of gaussian_process.py, hierarchical_kriging.py, co_kriging.py and scale_kriging.py have no more). -/
inductive Nd
  | scalar (a : ℝ)
  | vec {n : ℕ} (v : Fin n → ℝ)
  | mat {r c : ℕ} (M : Matrix (Fin r) (Fin c) ℝ)

namespace Nd

/-- `x.ndim` (used implicitly by every numpy call, for example gaussian_process.py:331). -/
def ndim : Nd → ℕ
  | scalar _ => 0
  | vec _ => 1
  | mat _ => 2

/-- Length of the first of two axes; a missing axis counts as 1 when shapes are broadcast (gaussian_process.py:331). -/
def rows : Nd → ℕ
  | scalar _ => 1
  | vec _ => 1
  | @mat r _ _ => r

/-- Length of the last axis; a missing axis counts as 1 when shapes are broadcast (gaussian_process.py:331). -/
def cols : Nd → ℕ
  | scalar _ => 1
  | @vec n _ => n
  | @mat _ c _ => c

/-- The entry that a broadcast array shows at position `(i, j)`: an axis of length 1 is repeated (gaussian_process.py:331). -/
def get : Nd → ℕ → ℕ → ℝ
  | scalar a, _, _ => a
  | @vec n v, _, j => if h : (if n = 1 then 0 else j) < n then v ⟨_, h⟩ else 0
  | @mat r c M, i, j => if h : (if r = 1 then 0 else i) < r ∧ (if c = 1 then 0 else j) < c then M ⟨_, h.1⟩ ⟨_, h.2⟩ else 0

/-- Two lengths of one axis: equal, or one of them is 1 (numpy's broadcasting rule, used at gaussian_process.py:331). -/
def bdim (a b : ℕ) : Option ℕ := if a = b then some a else if a = 1 then some b else if b = 1 then some a else none

/-- An elementwise operation of two arrays, with broadcasting; `ValueError` if the shapes do not fit (`+`, `-`, `*` of arrays, for example gaussian_process.py:123, 250, 331). -/
def zip (f : ℝ → ℝ → ℝ) (a b : Nd) : Py Nd :=
  match bdim a.rows b.rows, bdim a.cols b.cols with
  | some r, some c =>
    match max a.ndim b.ndim with
    | 0 => .ok (scalar (f (a.get 0 0) (b.get 0 0)))
    | 1 => .ok (vec fun j : Fin c => f (a.get 0 j) (b.get 0 j))
    | _ => .ok (mat <| Matrix.of fun (i : Fin r) (j : Fin c) => f (a.get i j) (b.get i j))
  | _, _ => .error .valueError

/-- `a + b` (gaussian_process.py:122). -/
noncomputable def add (a b : Nd) : Py Nd := zip (· + ·) a b
/-- `a - b` (gaussian_process.py:250). -/
noncomputable def sub (a b : Nd) : Py Nd := zip (· - ·) a b
/-- `a * b` (kernels.py:129). -/
noncomputable def mul (a b : Nd) : Py Nd := zip (· * ·) a b

open Classical in
/-- `a / b`; a zero denominator gives `inf`/`nan`, where the model stops (gaussian_process.py:331, 351). -/
noncomputable def div (a b : Nd) : Py Nd := do
  let q ← zip (· / ·) a b
  if ∀ i < b.rows, ∀ j < b.cols, b.get i j ≠ 0 then .ok q else .error .nonFinite

/-- A function of one number applied to every entry (`x**2`, `np.sqrt`, `np.exp`, multiplication by a number; kernels.py:129-134). -/
def map (f : ℝ → ℝ) : Nd → Nd
  | scalar a => scalar (f a)
  | vec v => vec fun i => f (v i)
  | mat M => mat <| Matrix.of fun i j => f (M i j)

/-- `x.T`: the axes in reverse order; nothing happens to a flat array (gaussian_process.py:122, 240). -/
def T : Nd → Nd
  | scalar a => scalar a
  | vec v => vec v
  | mat M => mat Mᵀ

/-- `np.atleast_2d(x)`: a flat array becomes one row (gaussian_process.py:117; kernels.py:127-128). -/
def atleast2d : Nd → Nd
  | scalar a => mat <| Matrix.of fun (_ _ : Fin 1) => a
  | vec v => mat <| Matrix.of fun (_ : Fin 1) j => v j
  | mat M => mat M

/-- `x.reshape(-1, 1)`, row by row (gaussian_process.py:83, 140; scale_kriging.py:101). -/
def reshapeCol : Nd → Nd
  | scalar a => mat <| Matrix.of fun (_ _ : Fin 1) => a
  | vec v => mat <| Matrix.of fun i (_ : Fin 1) => v i
  | @mat _ _ M => mat <| Matrix.of fun k (_ : Fin 1) => M k.divNat k.modNat

/-- `x.shape[0]`; a 0-dimensional array has no axis (gaussian_process.py:79; basis_functions.py:25). -/
def shape0 : Nd → Py ℕ
  | scalar _ => .error .indexError
  | @vec n _ => .ok n
  | @mat r _ _ => .ok r

/-- `x.size` (used by `np.mean`, `.item()` and the assignment of gaussian_process.py:261). -/
def size (a : Nd) : ℕ := a.rows * a.cols

/-- `np.sum(x)` (co_kriging.py:592; also inside `np.mean` and `np.std`, gaussian_process.py:348-349). -/
def total : Nd → ℝ
  | scalar a => a
  | vec v => ∑ i, v i
  | mat M => ∑ i, ∑ j, M i j

/-- `np.mean(x)` of all entries (gaussian_process.py:348, 373). -/
noncomputable def meanAll (a : Nd) : ℝ := a.total / a.size

/-- `np.std(x)` of all entries (gaussian_process.py:349, 384). -/
noncomputable def stdAll (a : Nd) : ℝ := Real.sqrt ((a.map fun x => (x - a.meanAll) ^ 2).total / a.size)

/-- `np.sum(x, axis=1)`; a flat array has no axis 1 (kernels.py:130). -/
def sumAxis1 : Nd → Py Nd
  | mat M => .ok (vec fun i => ∑ j, M i j)
  | _ => .error .valueError

/-- `np.sum(x, axis=1, keepdims=True)` (kernels.py:129). -/
def sumAxis1Keep : Nd → Py Nd
  | mat M => .ok (mat <| Matrix.of fun i (_ : Fin 1) => ∑ j, M i j)
  | _ => .error .valueError

/-- `np.dot(a, b)` for arrays with at most two axes (gaussian_process.py:122, 244). -/
def dot : Nd → Nd → Py Nd
  | scalar a, b => .ok (b.map (a * ·))
  | a, scalar b => .ok (a.map (· * b))
  | @vec n v, @vec m w => if h : n = m then .ok (scalar (∑ k, v k * w (Fin.cast h k))) else .error .valueError
  | @vec n v, @mat k _ M => if h : n = k then .ok (vec fun j => ∑ l, v l * M (Fin.cast h l) j) else .error .valueError
  | @mat _ k M, @vec n v => if h : k = n then .ok (vec fun i => ∑ l, M i l * v (Fin.cast h l)) else .error .valueError
  | @mat _ k M, @mat k' _ N => if h : k = k' then .ok (mat <| Matrix.of fun i j => ∑ l, M i l * N (Fin.cast h l) j) else .error .valueError

/-- `np.diag(x)`: the diagonal of a matrix, the diagonal matrix of a flat array (gaussian_process.py:132-133, 257). -/
def diag : Nd → Py Nd
  | scalar _ => .error .valueError
  | vec v => .ok (mat (Matrix.diagonal v))
  | @mat r c M => .ok (vec fun k : Fin (min r c) => M ⟨k, by omega⟩ ⟨k, by omega⟩)

/-- `np.eye(r, c)` (kernels.py:134; gaussian_process.py:234). -/
def eye (r c : ℕ) : Nd := mat <| Matrix.of fun (i : Fin r) (j : Fin c) => if i.val = j.val then 1 else 0

/-- `np.ones((r, c))` (basis_functions.py:27; co_kriging.py:584). -/
def ones (r c : ℕ) : Nd := mat <| Matrix.of fun (_ : Fin r) (_ : Fin c) => 1

/-- `numpy.linalg.cholesky(A)`: `LinAlgError` unless `A` is a square matrix with a Cholesky factor (gaussian_process.py:235). -/
noncomputable def chol : Nd → Py Nd
  | @mat r c M => if h : r = c then do
      let L ← cholesky (M.submatrix id (Fin.cast h))
      .ok (mat L)
    else .error .linAlgError
  | _ => .error .linAlgError

/-- `numpy.linalg.solve(A, B)`: `B` is one right-hand side if it is flat and a matrix of right-hand sides otherwise; `LinAlgError` unless `A` is square, `ValueError` unless the
numbers of rows agree (gaussian_process.py:240). -/
noncomputable def lsolve : Nd → Nd → Py Nd
  | @mat r c A, b => if h : r = c then
      match b with
      | scalar _ => .error .valueError
      | @vec n v => if h' : r = n then do
          let x ← GP.solveV (A.submatrix id (Fin.cast h)) (fun i => v (Fin.cast h' i))
          .ok (vec x)
        else .error .valueError
      | @mat n _ B => if h' : r = n then do
          let x ← GP.solve (A.submatrix id (Fin.cast h)) (B.submatrix (Fin.cast h') id)
          .ok (mat x)
        else .error .valueError
    else .error .linAlgError
  | _, _ => .error .linAlgError

/-- `solve(L.T, solve(L, b))` (gaussian_process.py:240). -/
noncomputable def lsolve2 (L b : Nd) : Py Nd := do
  let z ← lsolve L b
  lsolve L.T z

open Classical in
/-- `np.log(x)`; `-inf`/`nan` unless every entry is positive (gaussian_process.py:256). -/
noncomputable def log (a : Nd) : Py Nd :=
  if ∀ i < a.rows, ∀ j < a.cols, 0 < a.get i j then .ok (a.map Real.log) else .error .nonFinite

/-- `x.item()`, and the value stored by `out[i] = x.ravel()`: the only entry; `ValueError` for any other number of entries (co_kriging.py:616; gaussian_process.py:261). -/
def item (a : Nd) : Py ℝ := if a.size = 1 then .ok (a.get 0 0) else .error .valueError

/-- `x.squeeze()`: axes of length 1 are dropped (co_kriging.py:588). -/
def squeeze : Nd → Nd
  | scalar a => scalar a
  | @vec n v => if h : n = 1 then scalar (v ⟨0, by omega⟩) else vec v
  | @mat r c M =>
    if hr : r = 1 then (if hc : c = 1 then scalar (M ⟨0, by omega⟩ ⟨0, by omega⟩) else vec fun j => M ⟨0, by omega⟩ j)
    else if hc : c = 1 then vec fun i => M i ⟨0, by omega⟩ else mat M

/-- `np.concatenate((a, b), axis=0)`: same number of axes and same remaining length (co_kriging.py:432, 652). -/
def concat0 : Nd → Nd → Py Nd
  | vec v, vec w => .ok (vec (Fin.append v w))
  | @mat r c A, @mat r' c' B => if h : c = c' then
      .ok (mat <| Matrix.of fun (i : Fin (r + r')) (j : Fin c) => Fin.append (fun i => A i j) (fun i => B i (Fin.cast h j)) i)
    else .error .valueError
  | _, _ => .error .valueError

/-- `np.concatenate((a, b), axis=1)` (co_kriging.py:624). -/
def concat1 : Nd → Nd → Py Nd
  | @mat r c A, @mat r' c' B => if h : r = r' then
      .ok (mat <| Matrix.of fun (i : Fin r) (j : Fin (c + c')) => Fin.append (fun j => A i j) (fun j => B (Fin.cast h i) j) j)
    else .error .valueError
  | _, _ => .error .valueError

/-- A column as a `(n, 1)` array (the documented shape of responses, gaussian_process.py:108). -/
def col {n : ℕ} (v : Fin n → ℝ) : Nd := mat <| Matrix.of fun i (_ : Fin 1) => v i

end Nd

end Mfpml.GP
