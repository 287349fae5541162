import Verif.Model.RoundedKernel

/-!
# Model of the Cholesky factorisation in floating-point arithmetic

`np.linalg.cholesky` calls LAPACK's `dpotrf` on the lower triangle.  What the library and the processor leave open is left open here: whether rows or columns are completed first, how the updates are
blocked, in which order the products of one entry are subtracted, whether products and additions are fused, and whether entries are divided by the pivot or multiplied by its reciprocal.
-/

namespace Mfpml.Rounded

variable {p : ℕ} {emin : ℤ}

/-- `a - (sum of the products of the pairs in the list)`, computed in some order: products may be summed up in blocks before they are subtracted, or subtracted one by one with or without rounding in between
(`dpotrf`, called by gaussian_process.py:235, 279). -/
inductive SubDot (R : Rounding p emin) (a : Fl R) : List (Fl R × Fl R) → Fl R → Prop
  | start : SubDot R a [] a
  | sub {l l' : List (Fl R × Fl R)} {s b : Fl R} : SubDot R a l s → DotOf R l' b → SubDot R a (l ++ l') (s - b)
  | fnma {l : List (Fl R × Fl R)} {s : Fl R} (x y : Fl R) : SubDot R a l s → SubDot R a ((x, y) :: l) (Fl.ofReal R (s.val - x.val * y.val))
  | perm {l l' : List (Fl R × Fl R)} {s : Fl R} : l.Perm l' → SubDot R a l s → SubDot R a l' s

/-- The products subtracted from entry `(i, j)`: those of the entries of rows `i` and `j` left of column `j` (`dpotrf`, called by gaussian_process.py:235, 279). -/
def rowPairs {R : Rounding p emin} {n : ℕ} (L : Fin n → Fin n → Fl R) (i j : Fin n) : List (Fl R × Fl R) :=
  List.ofFn fun k : Fin j.val => (L i (Fin.castLE j.isLt.le k), L j (Fin.castLE j.isLt.le k))

/-- The first `m` columns of the first `r` rows of the factor have been computed without meeting a bad pivot: `S` are the entries of the matrix after the subtractions (`dpotrf`, called by gaussian_process.py:235, 279). -/
def CholCols {R : Rounding p emin} {n : ℕ} (A L S : Fin n → Fin n → Fl R) (m r : ℕ) : Prop :=
  ∀ i j : Fin n, j.val < m → i.val < r → j ≤ i →
    SubDot R (A i j) (rowPairs L i j) (S i j) ∧ 0 < (S j j).val ∧ (i = j → L i j = (S i j).sqrt) ∧ (j < i → L i j = S i j / L j j ∨ L i j = S i j * (1 / L j j))

/-- `np.linalg.cholesky(A)` may raise `LinAlgError`: a pivot that is not positive is met (`dpotrf`, called by gaussian_process.py:235, 279; hierarchical_kriging.py:198, 239; co_kriging.py:134, 177, 578, 608). -/
def CholFails {R : Rounding p emin} {n : ℕ} (A : Fin n → Fin n → Fl R) : Prop :=
  ∃ (L S : Fin n → Fin n → Fl R) (j : Fin n), CholCols A L S j.val (j.val + 1) ∧ SubDot R (A j j) (rowPairs L j j) (S j j) ∧ (S j j).val ≤ 0

/-- `np.linalg.cholesky(A)` may return `L` (its lower triangle; the rest is zero) (`dpotrf`, called by gaussian_process.py:235, 279; hierarchical_kriging.py:198, 239; co_kriging.py:134, 177, 578, 608). -/
def CholReturns {R : Rounding p emin} {n : ℕ} (A L : Fin n → Fin n → Fl R) : Prop := ∃ S, CholCols A L S n n

end Mfpml.Rounded
