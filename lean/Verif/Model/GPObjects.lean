import Verif.Model.GP

/-!
# `GaussianProcessRegression` objects and what they share

`Verif.Model.GP` treats a model as a value.  Here it is a Python object among others: several models may hold the same kernel object, `sample_y` is a view of the caller's response array, `bounds` is the caller's
array, and a `train` call that raises has already assigned some attributes.  All objects exist from the start (constructors neither read nor change other objects, so creating them later is the same).
-/

open scoped BigOperators Matrix

namespace Mfpml.GPObjects

open Mfpml.EA (Box)
open Mfpml.GP

/-- An object reference: a name for a Python object that several attributes may hold (gaussian_process.py:47-53, 87). -/
abbrev Ref := ℕ

/-- The attributes of a `GaussianProcessRegression` object.  The first five are set by the constructor (gaussian_process.py:46-64), the others by `train`: `sample_scaled_x` and `sample_y` before the search
(85-87), `L` and `f` together after the first Cholesky factorisation (279-283), `ld` (288), then `beta`, `gamma`, `sigma2` (290-298).  `None` means that the attribute does not exist yet (for `noise`: Python's
`None`).  `sample_x`, `num_samples`, `sample_y_scaled`, `opt_param`, `K`, `alpha`, `logp` are not read by `predict` and are rewritten by `train` before it reads them; they are left out. -/
structure Model (d q : ℕ) where
  bounds : Ref
  kernel : Ref
  regr : Basis d q
  optimizer : Option PopOptimizer
  noise : Option ℝ
  scaledX : Option (Σ n, Samples n d)
  sampleY : Option Ref
  fac : Option (Σ n, Matrix (Fin n) (Fin n) ℝ × Matrix (Fin n) (Fin q) ℝ)
  ld : Option (Matrix (Fin q) (Fin q) ℝ)
  beta : Option (Fin q → ℝ)
  gamma : Option (Σ n, Fin n → ℝ)
  sigma2 : Option ℝ

/-- The objects of a program: design-space arrays, kernels, response arrays, models (gaussian_process.py:17-95). -/
structure Heap (d q : ℕ) where
  boxes : Ref → Box ℝ d
  kernels : Ref → RBF d
  arrays : Ref → (Σ n, Fin n → ℝ)
  models : Ref → Model d q

variable {d q : ℕ}

/-- `GaussianProcessRegression(design_space, kernel, regr, optimizer, noise_prior)`: a new object, gaussian_process.py:46-64.  (With `kernel=None` the kernel is a new `RBF` object that no other model holds.) -/
def newModel (bounds kernel : Ref) (regr : Basis d q) (optimizer : Option PopOptimizer) (noise : Option ℝ) : Model d q :=
  { bounds, kernel, regr, optimizer, noise, scaledX := none, sampleY := none, fac := none, ld := none, beta := none, gamma := none, sigma2 := none }

/-- Replacing the attributes of model `g` (an assignment to `self.…`; gaussian_process.py:85-87, 272-298). -/
def Heap.setModel (h : Heap d q) (g : Ref) (m : Model d q) : Heap d q := { h with models := Function.update h.models g m }

/-- The constructor-time attributes of model `g` with the current state of the objects they refer to (gaussian_process.py:144-170 reads them). -/
def Heap.view (h : Heap d q) (g : Ref) : GPObj d q :=
  { box := h.boxes (h.models g).bounds, kernel := h.kernels (h.models g).kernel, regr := (h.models g).regr, optimizer := (h.models g).optimizer, noise := (h.models g).noise }

/-- `kernel.set_params(theta)` on the kernel object `k`: kernels.py:171-175. -/
noncomputable def Heap.setParams (h : Heap d q) (k : Ref) (theta : Fin d → ℝ) : Heap d q := { h with kernels := Function.update h.kernels k ((h.kernels k).setParams theta) }

/-- The part of `_update_kernel_matrix` after the kernel has been updated, gaussian_process.py:274-298: the attributes as they are left, and the exception if there is one. -/
noncomputable def fitAttrs {n : ℕ} (m : Model d q) (K : Matrix (Fin n) (Fin n) ℝ) (F : Matrix (Fin n) (Fin q) ℝ) (ys : Fin n → ℝ) : Model d q × Py Unit :=
  match cholesky K with
  | .error e => (m, .error e)
  | .ok L =>
    let m : Model d q := { m with fac := some ⟨n, L, F⟩ }
    match (do
      let alpha ← cholSolveV L ys
      let KF ← cholSolve L F
      let ld ← cholesky (Fᵀ * KF)
      .ok (alpha, ld) : Py ((Fin n → ℝ) × Matrix (Fin q) (Fin q) ℝ)) with
    | .error e => (m, .error e)
    | .ok (alpha, ld) =>
      let m : Model d q := { m with ld := some ld }
      match (do
        let beta ← cholSolveV ld (Fᵀ *ᵥ alpha)
        let gamma ← cholSolveV L (ys - F *ᵥ beta)
        let sigma2 ← npDiv ((ys - F *ᵥ beta) ⬝ᵥ gamma) n
        .ok (beta, gamma, sigma2) : Py ((Fin q → ℝ) × (Fin n → ℝ) × ℝ)) with
      | .error e => (m, .error e)
      | .ok (beta, gamma, sigma2) => ({ m with beta := some beta, gamma := some ⟨n, gamma⟩, sigma2 := some sigma2 }, .ok ())

/-- `gp.train(X, Y)` on the object `g`, with `Y` the array object `a`: gaussian_process.py:66-95 and 265-302.  The state after the call and the exception, if there is one.  The likelihood raises `ValueError` when
`Y` does not have as many entries as `X` has rows (its first evaluation, 240). -/
noncomputable def Heap.train (h : Heap d q) (g : Ref) (w : World d) (X : Σ n, Samples n d) (a : Ref) : Heap d q × Py Unit :=
  match normalizeInput (h.boxes (h.models g).bounds) X.2 with
  | .error e => (h, .error e)
  | .ok Xs =>
    let m : Model d q := { h.models g with scaledX := some ⟨X.1, Xs⟩, sampleY := some a }
    if hn : (h.arrays a).1 = X.1 then
      let y : Fin X.1 → ℝ := fun i => (h.arrays a).2 (Fin.cast hn.symm i)
      match normalizeOutput y with
      | .error e => (h.setModel g m, .error e)
      | .ok ys =>
        match (h.view g).fitHyper w (std y) Xs ys with
        | .error e => (h.setModel g m, .error e)
        | .ok (theta, noise) =>
          let h := h.setParams m.kernel theta
          let r := fitAttrs { m with noise := some noise } (covTrain (h.kernels m.kernel).param Xs (noise / std y)) (regrMatrix m.regr Xs) ys
          (h.setModel g r.1, r.2)
    else (h.setModel g m, .error .valueError)

/-- Reading an attribute that may not exist (gaussian_process.py:119-136). -/
def attr {α : Type} : Option α → Py α
  | some a => .ok a
  | none => .error .attributeError

/-- `np.dot(knew.T, gamma)`, gaussian_process.py:122: `ValueError` unless the numbers of rows agree. -/
noncomputable def dotT {n m : ℕ} (knew : Matrix (Fin n) (Fin m) ℝ) (gamma : Σ n, Fin n → ℝ) : Py (Fin m → ℝ) :=
  if h : gamma.1 = n then .ok (knewᵀ *ᵥ fun i => gamma.2 (Fin.cast h.symm i)) else .error .valueError

/-- `gp.predict(X)`, gaussian_process.py:116-126.  `y_std` and `y_mean` are computed from `self.sample_y` at every call (364-384). -/
noncomputable def Heap.predictMean {m : ℕ} (h : Heap d q) (g : Ref) (Xnew : Samples m d) : Py (Fin m → ℝ) := do
  let M := h.models g
  let xs ← normalizeInput (h.boxes M.bounds) Xnew
  let Xs ← attr M.scaledX
  let knew := (h.kernels M.kernel).getKernelMatrix Xs.2 xs
  let f := regrMatrix M.regr xs
  let beta ← attr M.beta
  let gamma ← attr M.gamma
  let kg ← dotT knew gamma
  let a ← attr M.sampleY
  .ok fun j => (f *ᵥ beta + kg) j * std (h.arrays a).2 + mean (h.arrays a).2

/-- `gp.predict(X, return_std=True)`, gaussian_process.py:116-142.  `solve(L, knew)` raises `ValueError` unless the numbers of rows agree, `self.noise**2` raises `TypeError` for `None`. -/
noncomputable def Heap.predictStd {m : ℕ} (h : Heap d q) (g : Ref) (Xnew : Samples m d) : Py ((Fin m → ℝ) × (Fin m → ℝ)) := do
  let fmean ← h.predictMean g Xnew
  let M := h.models g
  let xs ← normalizeInput (h.boxes M.bounds) Xnew
  let Xs ← attr M.scaledX
  let knew := (h.kernels M.kernel).getKernelMatrix Xs.2 xs
  let f := regrMatrix M.regr xs
  let LF ← attr M.fac
  if hn : LF.1 = Xs.1 then do
    let delta ← cholSolve LF.2.1 (fun i j => knew (Fin.cast hn i) j)
    let R := fᵀ - LF.2.2ᵀ * delta
    let sigma2 ← attr M.sigma2
    let ld ← attr M.ld
    let S ← cholSolve ld R
    let a ← attr M.sampleY
    match M.noise with
    | none => .error .typeError
    | some noise =>
      .ok (fmean, fun j => Real.sqrt (max (sigma2 * (1 - ∑ i, knew (Fin.cast hn i) j * delta i j + (Rᵀ * S) j j) * std (h.arrays a).2 ^ 2 + noise ^ 2) 0))
  else .error .valueError

/-! ## Programs -/

/-- What a program may do between two predictions: train a model, write into a response array or a design-space array in place, set the parameters of a kernel object (kernels.py:171-175), change a model's
optimiser (gaussian_process.py:304-312). -/
inductive Call (d : ℕ)
  | train (g : Ref) (w : World d) (X : Σ n, Samples n d) (a : Ref)
  | writeResponses (a : Ref) (y : ℕ → ℝ)
  | writeBounds (b : Ref) (box : Box ℝ d)
  | setParams (k : Ref) (theta : Fin d → ℝ)
  | changeOptimizer (g : Ref) (opt : Option PopOptimizer)

/-- One call; exceptions are caught by the program.  Writing into an array keeps its length (numpy assignment `Y[...] = …`; gaussian_process.py:87 keeps a view). -/
noncomputable def Heap.step (h : Heap d q) : Call d → Heap d q
  | .train g w X a => (h.train g w X a).1
  | .writeResponses a y => { h with arrays := Function.update h.arrays a ⟨(h.arrays a).1, fun i => y i⟩ }
  | .writeBounds b box => { h with boxes := Function.update h.boxes b box }
  | .setParams k theta => h.setParams k theta
  | .changeOptimizer g opt => h.setModel g { h.models g with optimizer := opt }

/-- A program (gaussian_process.py:66-95, 304-312; any sequence of calls). -/
noncomputable def Heap.exec (h : Heap d q) (l : List (Call d)) : Heap d q := l.foldl Heap.step h

end Mfpml.GPObjects
