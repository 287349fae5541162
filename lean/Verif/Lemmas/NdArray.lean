import Verif.Model.NdArray
import Verif.Lemmas.Py
import Verif.Lemmas.GP

/-!
# What the array operations do for given shapes
-/

open scoped BigOperators Matrix

namespace Mfpml.GP.Nd

theorem bdim_self (a : ℕ) : bdim a a = some a := by simp [bdim]
theorem bdim_one_left (a : ℕ) : bdim 1 a = some a := by
  unfold bdim
  split
  · rename_i h; rw [h]
  · rfl
theorem bdim_one_right (a : ℕ) : bdim a 1 = some a := by
  unfold bdim
  split
  · rfl
  · simp
theorem bdim_ne {a b : ℕ} (h : a ≠ b) (ha : a ≠ 1) (hb : b ≠ 1) : bdim a b = none := by simp [bdim, h, ha, hb]

theorem get_vec {n : ℕ} (v : Fin n → ℝ) (i : ℕ) (j : Fin n) : (vec v).get i j = v j := by
  have h : (if n = 1 then 0 else j.val) = j.val := by
    split
    · have := j.isLt; omega
    · rfl
  simp [get, h]

theorem get_mat {r c : ℕ} (M : Matrix (Fin r) (Fin c) ℝ) (i : Fin r) (j : Fin c) : (mat M).get i j = M i j := by
  have h1 : (if r = 1 then 0 else i.val) = i.val := by
    split
    · have := i.isLt; omega
    · rfl
  have h2 : (if c = 1 then 0 else j.val) = j.val := by
    split
    · have := j.isLt; omega
    · rfl
  simp [get, h1, h2]

theorem get_mat_col {r : ℕ} (M : Matrix (Fin r) (Fin 1) ℝ) (i : Fin r) (j : ℕ) : (mat M).get i j = M i 0 := by
  have h1 : (if r = 1 then 0 else i.val) = i.val := by
    split
    · have := i.isLt; omega
    · rfl
  simp [get, h1]

theorem get_mat_row {c : ℕ} (M : Matrix (Fin 1) (Fin c) ℝ) (i : ℕ) (j : Fin c) : (mat M).get i j = M 0 j := by
  have h2 : (if c = 1 then 0 else j.val) = j.val := by
    split
    · have := j.isLt; omega
    · rfl
  simp [get, h2]

theorem get_mat_one (M : Matrix (Fin 1) (Fin 1) ℝ) (i j : ℕ) : (mat M).get i j = M 0 0 := by simp [get]

theorem get_scalar (a : ℝ) (i j : ℕ) : (scalar a).get i j = a := rfl

theorem get_vec_one (v : Fin 1 → ℝ) (i j : ℕ) : (vec v).get i j = v 0 := by simp [get]

/-! ## Elementwise operations -/

variable (f : ℝ → ℝ → ℝ)

theorem zip_mat_mat {r c : ℕ} (A B : Matrix (Fin r) (Fin c) ℝ) : zip f (mat A) (mat B) = .ok (mat <| Matrix.of fun i j => f (A i j) (B i j)) := by
  simp [zip, rows, cols, ndim, bdim_self, get_mat]

theorem zip_vec_vec {n : ℕ} (v w : Fin n → ℝ) : zip f (vec v) (vec w) = .ok (vec fun i => f (v i) (w i)) := by
  simp only [zip, rows, cols, ndim, bdim_self, get_vec]
  rfl

theorem zip_mat_vec {r c : ℕ} (A : Matrix (Fin r) (Fin c) ℝ) (v : Fin c → ℝ) : zip f (mat A) (vec v) = .ok (mat <| Matrix.of fun i j => f (A i j) (v j)) := by
  simp [zip, rows, cols, ndim, bdim_self, bdim_one_right, get_mat, get_vec]

theorem zip_vec_mat {r c : ℕ} (v : Fin c → ℝ) (A : Matrix (Fin r) (Fin c) ℝ) : zip f (vec v) (mat A) = .ok (mat <| Matrix.of fun i j => f (v j) (A i j)) := by
  simp [zip, rows, cols, ndim, bdim_self, bdim_one_left, get_mat, get_vec]

theorem zip_col_vec {r c : ℕ} (A : Matrix (Fin r) (Fin 1) ℝ) (v : Fin c → ℝ) : zip f (mat A) (vec v) = .ok (mat <| Matrix.of fun i j => f (A i 0) (v j)) := by
  simp [zip, rows, cols, ndim, bdim_one_left, bdim_one_right, get_mat_col, get_vec]

theorem zip_vec_col {r c : ℕ} (v : Fin c → ℝ) (A : Matrix (Fin r) (Fin 1) ℝ) : zip f (vec v) (mat A) = .ok (mat <| Matrix.of fun i j => f (v j) (A i 0)) := by
  simp [zip, rows, cols, ndim, bdim_one_left, bdim_one_right, get_mat_col, get_vec]

theorem zip_mat_scalar {r c : ℕ} (A : Matrix (Fin r) (Fin c) ℝ) (a : ℝ) : zip f (mat A) (scalar a) = .ok (mat <| Matrix.of fun i j => f (A i j) a) := by
  simp [zip, rows, cols, ndim, bdim_one_right, get_mat, get_scalar]

theorem zip_scalar_mat {r c : ℕ} (a : ℝ) (A : Matrix (Fin r) (Fin c) ℝ) : zip f (scalar a) (mat A) = .ok (mat <| Matrix.of fun i j => f a (A i j)) := by
  simp [zip, rows, cols, ndim, bdim_one_left, get_mat, get_scalar]

theorem zip_vec_scalar {n : ℕ} (v : Fin n → ℝ) (a : ℝ) : zip f (vec v) (scalar a) = .ok (vec fun i => f (v i) a) := by
  simp only [zip, rows, cols, ndim, bdim_one_right, bdim_self, get_vec, get_scalar]
  rfl

theorem zip_scalar_vec {n : ℕ} (a : ℝ) (v : Fin n → ℝ) : zip f (scalar a) (vec v) = .ok (vec fun i => f a (v i)) := by
  simp only [zip, rows, cols, ndim, bdim_one_left, bdim_self, get_vec, get_scalar]
  rfl

theorem zip_scalar_scalar (a b : ℝ) : zip f (scalar a) (scalar b) = .ok (scalar (f a b)) := by
  simp only [zip, rows, cols, ndim, bdim_self, get]
  rfl

theorem zip_mat_one {r c : ℕ} (A : Matrix (Fin r) (Fin c) ℝ) (a : Matrix (Fin 1) (Fin 1) ℝ) : zip f (mat A) (mat a) = .ok (mat <| Matrix.of fun i j => f (A i j) (a 0 0)) := by
  simp [zip, rows, cols, ndim, bdim_one_right, get_mat, get_mat_one]

theorem zip_one_mat {r c : ℕ} (a : Matrix (Fin 1) (Fin 1) ℝ) (A : Matrix (Fin r) (Fin c) ℝ) : zip f (mat a) (mat A) = .ok (mat <| Matrix.of fun i j => f (a 0 0) (A i j)) := by
  simp [zip, rows, cols, ndim, bdim_one_left, get_mat, get_mat_one]

theorem zip_one_vec {n : ℕ} (a : Matrix (Fin 1) (Fin 1) ℝ) (v : Fin n → ℝ) : zip f (mat a) (vec v) = .ok (mat <| Matrix.of fun (_ : Fin 1) j => f (a 0 0) (v j)) := by
  simp [zip, rows, cols, ndim, bdim_one_left, bdim_one_right, get_vec, get_mat_one]

theorem zip_mat_col {r c : ℕ} (A : Matrix (Fin r) (Fin c) ℝ) (b : Matrix (Fin r) (Fin 1) ℝ) : zip f (mat A) (mat b) = .ok (mat <| Matrix.of fun i j => f (A i j) (b i 0)) := by
  simp [zip, rows, cols, ndim, bdim_self, bdim_one_right, get_mat, get_mat_col]

theorem zip_mat_rows_ne {r c r' c' : ℕ} (A : Matrix (Fin r) (Fin c) ℝ) (B : Matrix (Fin r') (Fin c') ℝ) (h : r ≠ r') (h1 : r ≠ 1) (h2 : r' ≠ 1) : zip f (mat A) (mat B) = .error .valueError := by
  simp [zip, rows, bdim_ne h h1 h2]

/-! ## Division -/

theorem div_scalar_eq (a : Nd) (s : ℝ) : div a (scalar s) = (zip (· / ·) a (scalar s)).bind fun q => if s = 0 then .error .nonFinite else .ok q := by
  unfold div
  cases zip (· / ·) a (scalar s) with
  | error e => rfl
  | ok q =>
    by_cases hs : s = 0
    · simp [bind, Except.bind, rows, cols, get, hs]
    · simp [bind, Except.bind, rows, cols, get, hs]

theorem div_mat_scalar {r c : ℕ} (A : Matrix (Fin r) (Fin c) ℝ) {s : ℝ} (hs : s ≠ 0) : div (mat A) (scalar s) = .ok (mat <| Matrix.of fun i j => A i j / s) := by
  rw [div_scalar_eq, zip_mat_scalar]; simp [Except.bind, hs]

theorem div_vec_scalar {n : ℕ} (v : Fin n → ℝ) {s : ℝ} (hs : s ≠ 0) : div (vec v) (scalar s) = .ok (vec fun i => v i / s) := by
  rw [div_scalar_eq, zip_vec_scalar]; simp [Except.bind, hs]

open Classical in
theorem div_mat_vec {r c : ℕ} (A : Matrix (Fin r) (Fin c) ℝ) (v : Fin c → ℝ) : div (mat A) (vec v) = if ∀ j, v j ≠ 0 then .ok (mat <| Matrix.of fun i j => A i j / v j) else .error .nonFinite := by
  unfold div
  rw [zip_mat_vec]
  have : (∀ i < (vec v).rows, ∀ j < (vec v).cols, (vec v).get i j ≠ 0) ↔ ∀ j, v j ≠ 0 := by
    constructor
    · intro h j
      have := h 0 (by simp [rows]) j (by simp [cols])
      rwa [get_vec] at this
    · intro h i _ j hj
      have := h ⟨j, hj⟩
      rwa [← get_vec v i ⟨j, hj⟩] at this
  simp [bind, Except.bind, this]

open Classical in
theorem div_vec_vec {c : ℕ} (u v : Fin c → ℝ) : div (vec u) (vec v) = if ∀ j, v j ≠ 0 then .ok (vec fun j => u j / v j) else .error .nonFinite := by
  unfold div
  rw [zip_vec_vec]
  have : (∀ i < (vec v).rows, ∀ j < (vec v).cols, (vec v).get i j ≠ 0) ↔ ∀ j, v j ≠ 0 := by
    constructor
    · intro h j
      have := h 0 (by simp [rows]) j (by simp [cols])
      rwa [get_vec] at this
    · intro h i _ j hj
      have := h ⟨j, hj⟩
      rwa [← get_vec v i ⟨j, hj⟩] at this
  simp [bind, Except.bind, this]

theorem div_one_one (a b : Matrix (Fin 1) (Fin 1) ℝ) : div (mat a) (mat b) = (npDiv (a 0 0) (b 0 0)).map fun x => mat <| Matrix.of fun (_ _ : Fin 1) => x := by
  unfold div npDiv
  rw [zip_one_mat]
  by_cases h : b 0 0 = 0
  · simp [bind, Except.bind, Except.map, rows, cols, get_mat_one, h]
  · simp only [bind, Except.bind, Except.map, rows, cols, get_mat_one, h]
    simp only [ne_eq, not_false_eq_true, implies_true, if_true, if_false, h]
    congr 2
    funext i j
    rw [Subsingleton.elim i 0, Subsingleton.elim j 0]
    rfl

/-! ## Products, factorisations, solutions -/

theorem dot_mat_mat {r k c : ℕ} (M : Matrix (Fin r) (Fin k) ℝ) (N : Matrix (Fin k) (Fin c) ℝ) : dot (mat M) (mat N) = .ok (mat (M * N)) := by
  simp only [dot, dite_true]
  rfl

theorem dot_mat_vec {r k : ℕ} (M : Matrix (Fin r) (Fin k) ℝ) (v : Fin k → ℝ) : dot (mat M) (vec v) = .ok (vec (M *ᵥ v)) := by
  simp only [dot, dite_true]
  rfl

theorem dot_vec_vec {k : ℕ} (v w : Fin k → ℝ) : dot (vec v) (vec w) = .ok (scalar (v ⬝ᵥ w)) := by
  simp only [dot, dite_true]
  rfl

theorem dot_mat_mat_ne {r k k' c : ℕ} (M : Matrix (Fin r) (Fin k) ℝ) (N : Matrix (Fin k') (Fin c) ℝ) (h : k ≠ k') : dot (mat M) (mat N) = .error .valueError := by
  simp [dot, h]

theorem chol_mat {n : ℕ} (A : Matrix (Fin n) (Fin n) ℝ) : chol (mat A) = (cholesky A).map fun L => mat L := by
  simp only [chol, dite_true]
  show (do let L ← cholesky A; .ok (mat L)) = _
  cases cholesky A <;> rfl

theorem lsolve_vec {n : ℕ} (A : Matrix (Fin n) (Fin n) ℝ) (b : Fin n → ℝ) : lsolve (mat A) (vec b) = (solveV A b).map fun x => vec x := by
  simp only [lsolve, dite_true]
  show (do let x ← solveV A b; .ok (vec x)) = _
  cases solveV A b <;> rfl

theorem lsolve_mat {n m : ℕ} (A : Matrix (Fin n) (Fin n) ℝ) (B : Matrix (Fin n) (Fin m) ℝ) : lsolve (mat A) (mat B) = (solve A B).map fun x => mat x := by
  simp only [lsolve, dite_true]
  show (do let x ← solve A B; .ok (mat x)) = _
  cases solve A B <;> rfl

theorem solve_col {n : ℕ} (A : Matrix (Fin n) (Fin n) ℝ) (b : Fin n → ℝ) : solve A (fun i (_ : Fin 1) => b i) = (solveV A b).map fun x i (_ : Fin 1) => x i := by
  unfold solve solveV
  split <;> rfl

theorem lsolve_col {n : ℕ} (A : Matrix (Fin n) (Fin n) ℝ) (b : Fin n → ℝ) : lsolve (mat A) (col b) = (solveV A b).map fun x => col x := by
  refine (lsolve_mat A fun i (_ : Fin 1) => b i).trans ?_
  rw [solve_col]
  cases solveV A b <;> rfl

theorem lsolve2_vec {n : ℕ} (L : Matrix (Fin n) (Fin n) ℝ) (b : Fin n → ℝ) : lsolve2 (mat L) (vec b) = (cholSolveV L b).map fun x => vec x := by
  unfold lsolve2 cholSolveV
  rw [lsolve_vec]
  cases solveV L b with
  | error e => rfl
  | ok z => exact lsolve_vec _ _

theorem lsolve2_col {n : ℕ} (L : Matrix (Fin n) (Fin n) ℝ) (b : Fin n → ℝ) : lsolve2 (mat L) (col b) = (cholSolveV L b).map fun x => col x := by
  unfold lsolve2 cholSolveV
  rw [lsolve_col]
  cases solveV L b with
  | error e => rfl
  | ok z => exact lsolve_col _ _

theorem lsolve2_mat {n m : ℕ} (L : Matrix (Fin n) (Fin n) ℝ) (B : Matrix (Fin n) (Fin m) ℝ) : lsolve2 (mat L) (mat B) = (cholSolve L B).map fun x => mat x := by
  unfold lsolve2 cholSolve
  rw [lsolve_mat]
  cases solve L B with
  | error e => rfl
  | ok z => exact lsolve_mat _ _

theorem lsolve_mat_ne {n m c : ℕ} (A : Matrix (Fin n) (Fin n) ℝ) (B : Matrix (Fin m) (Fin c) ℝ) (h : n ≠ m) : lsolve (mat A) (mat B) = .error .valueError := by
  simp [lsolve, h]

theorem lsolve_vec_ne {n m : ℕ} (A : Matrix (Fin n) (Fin n) ℝ) (b : Fin m → ℝ) (h : n ≠ m) : lsolve (mat A) (vec b) = .error .valueError := by
  simp [lsolve, h]

/-! ## Reshaping and statistics -/

theorem mat_ext {r c r' c' : ℕ} (hr : r = r') (hc : c = c') {M : Matrix (Fin r) (Fin c) ℝ} {M' : Matrix (Fin r') (Fin c') ℝ} (h : ∀ i j, M i j = M' (Fin.cast hr i) (Fin.cast hc j)) : mat M = mat M' := by
  subst hr hc
  congr
  funext i j
  exact h i j

theorem vec_ext {n n' : ℕ} (h : n = n') {v : Fin n → ℝ} {v' : Fin n' → ℝ} (hv : ∀ i, v i = v' (Fin.cast h i)) : vec v = vec v' := by
  subst h
  congr
  funext i
  exact hv i

theorem reshapeCol_vec {n : ℕ} (v : Fin n → ℝ) : (vec v).reshapeCol = col v := rfl

theorem reshapeCol_mat_col {n : ℕ} (M : Matrix (Fin n) (Fin 1) ℝ) : (mat M).reshapeCol = col fun i => M i 0 := by
  refine mat_ext (Nat.mul_one n) rfl fun i j => ?_
  have h1 : i.divNat = Fin.cast (Nat.mul_one n) i := by
    apply Fin.ext
    simp
  show M i.divNat i.modNat = M (Fin.cast _ i) 0
  rw [h1, Subsingleton.elim i.modNat 0]

theorem reshapeCol_col {n : ℕ} (v : Fin n → ℝ) : (col v).reshapeCol = col v := reshapeCol_mat_col _

theorem reshapeCol_mat_row {n : ℕ} (M : Matrix (Fin 1) (Fin n) ℝ) : (mat M).reshapeCol = col fun i => M 0 i := by
  refine mat_ext (Nat.one_mul n) rfl fun i j => ?_
  have h1 : i.modNat = Fin.cast (Nat.one_mul n) i := by
    apply Fin.ext
    have := i.isLt
    simp only [Fin.coe_modNat, Fin.val_cast]
    exact Nat.mod_eq_of_lt (by omega)
  show M i.divNat i.modNat = M 0 (Fin.cast _ i)
  rw [h1, Subsingleton.elim i.divNat 0]

theorem meanAll_col {n : ℕ} (v : Fin n → ℝ) : (col v).meanAll = mean v := by
  simp [meanAll, col, total, size, rows, cols, mean]

theorem meanAll_vec {n : ℕ} (v : Fin n → ℝ) : (vec v).meanAll = mean v := by
  simp [meanAll, total, size, rows, cols, mean]

theorem stdAll_col {n : ℕ} (v : Fin n → ℝ) : (col v).stdAll = std v := by
  unfold stdAll std
  rw [meanAll_col]
  simp [col, map, total, size, rows, cols]

theorem stdAll_vec {n : ℕ} (v : Fin n → ℝ) : (vec v).stdAll = std v := by
  unfold stdAll std
  rw [meanAll_vec]
  simp [map, total, size, rows, cols]

theorem item_scalar (a : ℝ) : (scalar a).item = .ok a := by simp [item, size, rows, cols, get]

theorem item_one (M : Matrix (Fin 1) (Fin 1) ℝ) : (mat M).item = .ok (M 0 0) := by simp [item, size, rows, cols, get_mat_one]

theorem item_ne {a : Nd} (h : a.size ≠ 1) : a.item = .error .valueError := by simp [item, h]

end Mfpml.GP.Nd
