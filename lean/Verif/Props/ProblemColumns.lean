import Verif.Props.Problems

/-!
# Samples with the wrong number of columns (C143)
-/

set_option linter.unusedSectionVars false
set_option linter.unusedTactic false
set_option linter.unreachableTactic false

namespace Mfpml.Props

open Mfpml.Problems
open Real

variable {d : ℕ}

/-! ### What the theorems say -/

/-- The first `k` columns of a sample array. -/
def firstColumns {k : ℕ} (h : k ≤ d) (X : Batch d) : Batch k := X.map fun r j => r (Fin.castLE h j)

/-- A sample array with one column, with this column repeated `k` times. -/
def repeatColumn (k : ℕ) (X : Batch 1) : Batch k := X.map fun r _ => r 0

/-- The single-fidelity problems that look at single columns of the samples. -/
def SFByColumn (p : SFName) : Prop := p = .branin ∨ p = .goldPrice ∨ p = .sixhump ∨ p = .sasena ∨ p = .branin1 ∨ p = .branin2

/-- The multi-fidelity problems both of whose functions look at single columns of the samples. -/
def MFByColumn (p : MFName) : Prop :=
  p = .sixhump ∨ p = .discontinuous ∨ p = .bohachevsky ∨ p = .booth ∨ p = .borehole ∨ p = .currinExp ∨ p = .himmelblau ∨ p = .park91A ∨ p = .park91B

/-! ### Too few columns -/

theorem col_error (X : Batch d) (j : ℕ) (h : ¬ j < d) : col X j = .error .indexError := dif_neg h

theorem mapM_error {α β : Type} (f : α → Py β) (e : PyErr) (h : ∀ a, f a = .error e) : ∀ l : List α, l ≠ [] → l.mapM f = .error e
  | [], h0 => absurd rfl h0
  | a :: l, _ => by rw [List.mapM_cons, h a]; rfl

theorem broadcastRow_error {k : ℕ} (h1 : d ≠ k) (h2 : d ≠ 1) (r : Fin d → ℝ) : broadcastRow k r = .error .valueError := by
  unfold broadcastRow
  rw [dif_neg h1, dif_neg h2]

theorem hartman3F_error (X : Batch d) (h1 : d ≠ 3) (h2 : d ≠ 1) (hX : X ≠ []) : hartman3F X = .error .valueError :=
  mapM_error _ _ (fun r => by rw [broadcastRow_error h1 h2]; rfl) X hX

theorem hartman6F_error (X : Batch d) (h1 : d ≠ 6) (h2 : d ≠ 1) (hX : X ≠ []) : hartman6F X = .error .valueError :=
  mapM_error _ _ (fun r => by rw [broadcastRow_error h1 h2]; rfl) X hX

theorem hartman6Lf_error (X : Batch d) (h1 : d ≠ 6) (h2 : d ≠ 1) (hX : X ≠ []) : hartman6Lf X = .error .valueError :=
  mapM_error _ _ (fun r => by rw [broadcastRow_error h1 h2]; rfl) X hX

theorem ackleyN2F_error (X : Batch d) (h1 : d ≠ 2) (hX : X ≠ []) : ackleyN2F X = .error .valueError :=
  mapM_error _ _ (fun r => by unfold unpack2; rw [dif_neg h1]; rfl) X hX

theorem reshapeN1_error (g : ℝ → ℝ) (X : Batch d) (h1 : d ≠ 1) (hX : X ≠ []) : reshapeN1 (ew g X) = .error .valueError := by
  unfold reshapeN1
  rw [if_neg]
  intro h
  have hl : 0 < (ew g X).length := by
    unfold ew
    rw [List.length_map]
    exact List.length_pos_iff.mpr hX
  exact h1 (Nat.eq_of_mul_eq_mul_left hl (h.trans (Nat.mul_one _).symm))

theorem borehole_error (a b : ℝ) (X : Batch d) (h : d < 8) : boreholeBase a b X = .error .indexError := by
  have : d = 0 ∨ d = 1 ∨ d = 2 ∨ d = 3 ∨ d = 4 ∨ d = 5 ∨ d = 6 ∨ d = 7 := by omega
  rcases this with rfl | rfl | rfl | rfl | rfl | rfl | rfl | rfl <;> rfl

theorem park91AHf_error (X : Batch d) (h : d < 4) : park91AHf X = .error .indexError := by
  have : d = 0 ∨ d = 1 ∨ d = 2 ∨ d = 3 := by omega
  rcases this with rfl | rfl | rfl | rfl <;> rfl

theorem park91BHf_error (X : Batch d) (h : d < 4) : park91BHf X = .error .indexError := by
  have : d = 0 ∨ d = 1 ∨ d = 2 ∨ d = 3 := by omega
  rcases this with rfl | rfl | rfl | rfl <;> rfl

theorem park91ALf_error (X : Batch d) (h : d < 4) : park91ALf X = .error .indexError := by
  have : d = 0 ∨ d = 1 ∨ d = 2 ∨ d = 3 := by omega
  rcases this with rfl | rfl | rfl | rfl <;> rfl

theorem park91BLf_error (X : Batch d) (h : d < 4) : park91BLf X = .error .indexError := by
  unfold park91BLf
  rw [park91BHf_error X h]
  rfl

theorem hartman3Lf_error (X : Batch d) (h : d < 3) : hartman3Lf X = .error .indexError := by
  have : d = 0 ∨ d = 1 ∨ d = 2 := by omega
  rcases this with rfl | rfl | rfl <;> rfl

theorem currinHf_error (X : Batch d) (h : d < 2) : currinHf X = .error .indexError := by
  have : d = 0 ∨ d = 1 := by omega
  rcases this with rfl | rfl <;> rfl

theorem currinLf_error (t : DType) (X : Batch d) (h : d < 2) : currinLfOf t X = .error .indexError := by
  unfold currinLfOf
  rw [currinHf_error _ h]
  rfl

/-- C143 (too few columns), partial: with at least one column but fewer than the problem has variables, every problem raises an exception, except the Hartman functions given exactly one column.
Missing: that case (`C143_one_column_counterexample`). -/
theorem C143_too_few_partial (hd : 1 ≤ d) {k : ℕ} (hk : d < k) (X : Batch d) (hX : X ≠ []) :
    (∀ p : SFName, p.attrs.numDim = some k → (p = .hartman3 ∨ p = .hartman6 → d ≠ 1) → ∃ e, p.f X = .error e) ∧
    (∀ p : SFName, p.attrs.numDim = some k → p = .branin1 ∨ p = .branin2 → ∃ e, p.fCons X = .error e) ∧
    (∀ p : MFName, p.attrs.numDim = some k → (p = .hartman3 ∨ p = .hartman6 → d ≠ 1) → ∃ e, p.hf X = .error e) ∧
    (∀ (p : MFName) (t : DType), p.attrs.numDim = some k → (p = .hartman6 → d ≠ 1) → ∃ e, p.lf t X = .error e) := by
  refine ⟨fun p hp hh => ?_, fun p hp hh => ?_, fun p hp hh => ?_, fun p t hp hh => ?_⟩
  · cases p <;> simp only [SFName.attrs, Option.some.injEq] at hp <;> subst hp
    · omega
    iterate 4 exact ⟨.indexError, (by obtain rfl : d = 1 := by omega
                                      rfl)⟩
    · exact ⟨_, hartman3F_error X (by omega) (hh (.inl rfl)) hX⟩
    · exact ⟨_, hartman6F_error X (by omega) (hh (.inr rfl)) hX⟩
    · exact ⟨_, ackleyN2F_error X (by omega) hX⟩
    iterate 2 exact ⟨.indexError, (by obtain rfl : d = 1 := by omega
                                      rfl)⟩
  · rcases hh with rfl | rfl <;> simp only [SFName.attrs, Option.some.injEq] at hp <;> subst hp <;> exact ⟨.indexError, (by
      obtain rfl : d = 1 := by omega
      rfl)⟩
  · cases p <;> simp only [MFName.attrs, Option.some.injEq] at hp <;> subst hp
    iterate 3 omega
    · exact ⟨_, hartman3F_error X (by omega) (hh (.inl rfl)) hX⟩
    · exact ⟨.indexError, (by obtain rfl : d = 1 := by omega
                              rfl)⟩
    · exact ⟨_, hartman6F_error X (by omega) (hh (.inr rfl)) hX⟩
    iterate 3 omega
    iterate 2 exact ⟨.indexError, (by obtain rfl : d = 1 := by omega
                                      rfl)⟩
    · exact ⟨_, borehole_error _ _ X hk⟩
    · exact ⟨_, currinHf_error X hk⟩
    · exact ⟨.indexError, (by obtain rfl : d = 1 := by omega
                              rfl)⟩
    · exact ⟨_, park91AHf_error X hk⟩
    · exact ⟨_, park91BHf_error X hk⟩
  · cases p <;> simp only [MFName.attrs, Option.some.injEq] at hp <;> subst hp
    iterate 3 omega
    · exact ⟨_, hartman3Lf_error X hk⟩
    · exact ⟨.indexError, (by obtain rfl : d = 1 := by omega
                              rfl)⟩
    · exact ⟨_, hartman6Lf_error X (by omega) (hh rfl) hX⟩
    iterate 3 omega
    iterate 2 exact ⟨.indexError, (by obtain rfl : d = 1 := by omega
                                      rfl)⟩
    · exact ⟨_, borehole_error _ _ X hk⟩
    · exact ⟨_, currinLf_error t X hk⟩
    · exact ⟨.indexError, (by obtain rfl : d = 1 := by omega
                              rfl)⟩
    · exact ⟨_, park91ALf_error X hk⟩
    · exact ⟨_, park91BLf_error X hk⟩

/-! ### Too many columns -/

/-- C143 (too many columns), partial: the Forrester functions, the Hartman functions and Ackley N. 2 raise `ValueError` for samples with too many columns.  Missing: the other problems (`C143_extra_columns_counterexample`, `C143_flattened_counterexample`). -/
theorem C143_too_many_partial {k : ℕ} (hk : k < d) (X : Batch d) (hX : X ≠ []) :
    (∀ p : SFName, p.attrs.numDim = some k → ¬ SFByColumn p → p.f X = .error .valueError) ∧
    (∀ p : MFName, p.attrs.numDim = some k → p = .forrester1a ∨ p = .forrester1b ∨ p = .forrester1c ∨ p = .hartman3 ∨ p = .hartman6 → p.hf X = .error .valueError) ∧
    (∀ (p : MFName) (t : DType), p.attrs.numDim = some k → p = .forrester1a ∨ p = .forrester1b ∨ p = .forrester1c ∨ p = .hartman6 → p.lf t X = .error .valueError) := by
  refine ⟨fun p hp hh => ?_, fun p hp hh => ?_, fun p t hp hh => ?_⟩
  · cases p <;> simp only [SFName.attrs, Option.some.injEq] at hp <;> subst hp <;> simp only [SFByColumn, reduceCtorEq, or_self, or_true, true_or, not_true, not_false_iff] at hh
    · exact reshapeN1_error _ X (by omega) hX
    · exact hartman3F_error X (by omega) (by omega) hX
    · exact hartman6F_error X (by omega) (by omega) hX
    · exact ackleyN2F_error X (by omega) hX
  · rcases hh with rfl | rfl | rfl | rfl | rfl <;> simp only [MFName.attrs, Option.some.injEq] at hp <;> subst hp
    iterate 3 exact reshapeN1_error _ X (by omega) hX
    · exact hartman3F_error X (by omega) (by omega) hX
    · exact hartman6F_error X (by omega) (by omega) hX
  · rcases hh with rfl | rfl | rfl | rfl <;> simp only [MFName.attrs, Option.some.injEq] at hp <;> subst hp
    iterate 3 exact reshapeN1_error _ X (by omega) hX
    · exact hartman6Lf_error X (by omega) (by omega) hX

theorem first_column {k : ℕ} (h : k ≤ d) (X : Batch d) (g : (Fin k → ℝ) → ℝ) : column (fun i : Fin X.length => g fun j => X.get i (Fin.castLE h j)) = (firstColumns h X).map fun r => some (g r) := by
  rw [firstColumns, List.map_map]
  exact column_get X fun r => g fun j => r (Fin.castLE h j)

theorem first_columnOpt {k : ℕ} (h : k ≤ d) (X : Batch d) (g : (Fin k → ℝ) → Option ℝ) : columnOpt (fun i : Fin X.length => g fun j => X.get i (Fin.castLE h j)) = (firstColumns h X).map g := by
  rw [firstColumns, List.map_map]
  exact columnOpt_get X fun r => g fun j => r (Fin.castLE h j)

theorem firstColumns_ew {k : ℕ} (h : k ≤ d) (g : ℝ → ℝ) (X : Batch d) : firstColumns h (ew g X) = ew g (firstColumns h X) := by
  simp only [firstColumns, ew, List.map_map]
  rfl

theorem firstColumns_add {k : ℕ} (h : k ≤ d) (t : DType) (j : ℕ) (hj : j < k) (v : ℝ) (X : Batch d) : (addToCol t j v X).map (firstColumns h) = addToCol t j v (firstColumns h X) := by
  unfold addToCol
  rw [if_pos (by omega), if_pos hj]
  simp only [Except.map, firstColumns, List.map_map]
  rfl

theorem currinHf_first (h : 2 ≤ d) (X : Batch d) : currinHf X = currinHf (firstColumns h X) := by
  rw [currinHf_map]
  unfold currinHf
  rw [col_ok X 0 (by omega), col_ok X 1 (by omega)]
  exact congrArg Except.ok (first_columnOpt h X currinHfAt)

theorem currinLf_first (h : 2 ≤ d) (t : DType) (X : Batch d) : currinLfOf t X = currinLfOf t (firstColumns h X) := by
  unfold currinLfOf
  have hadd : ∀ (j : ℕ) (hj : j < 2) (v : ℝ) (Y : Batch d), ∃ Z, addToCol t j v Y = .ok Z ∧ addToCol t j v (firstColumns h Y) = .ok (firstColumns h Z) := fun j hj v Y => by
    have := firstColumns_add h t j hj v Y
    rw [addToCol_map t j v Y (by omega)] at this ⊢
    exact ⟨_, rfl, this.symm⟩
  obtain ⟨A, a1, a2⟩ := hadd 0 (by omega) 0.05 X
  obtain ⟨B, b1, b2⟩ := hadd 1 (by omega) (-0.05) A
  obtain ⟨A', a1', a2'⟩ := hadd 0 (by omega) (-0.05) X
  obtain ⟨B', b1', b2'⟩ := hadd 1 (by omega) 0.05 A'
  rw [currinHf_first h (ew (fun x => x + 0.05) X), currinHf_first h (ew (fun x => x - 0.05) X), firstColumns_ew, firstColumns_ew, a1, a2, a1', a2']
  simp only [bind, Except.bind]
  rw [b1, b2, b1', b2']
  simp only [currinHf_first h B, currinHf_first h B']

theorem park91AHf_first (h : 4 ≤ d) (X : Batch d) : park91AHf X = park91AHf (firstColumns h X) := by
  rw [park91AHf_map]
  unfold park91AHf
  rw [col_ok X 0 (by omega), col_ok X 1 (by omega), col_ok X 2 (by omega), col_ok X 3 (by omega)]
  exact congrArg Except.ok (first_columnOpt h X park91AHfAt)

theorem park91BHf_first (h : 4 ≤ d) (X : Batch d) : park91BHf X = park91BHf (firstColumns h X) := by
  rw [park91BHf_map]
  unfold park91BHf
  rw [col_ok X 0 (by omega), col_ok X 1 (by omega), col_ok X 2 (by omega), col_ok X 3 (by omega)]
  exact congrArg Except.ok (first_column h X park91BHfAt)

theorem first_ofFn {k : ℕ} (h : k ≤ d) (X : Batch d) (g : (Fin k → ℝ) → ℝ) : (List.ofFn fun i : Fin X.length => g fun j => X.get i (Fin.castLE h j)) = (firstColumns h X).map g := by
  rw [firstColumns, List.map_map]
  exact ofFn_get_map X fun r => g fun j => r (Fin.castLE h j)

theorem park91ALf_first (h : 4 ≤ d) (X : Batch d) : park91ALf X = park91ALf (firstColumns h X) := by
  rw [park91ALf_map]
  unfold park91ALf
  rw [col_ok X 0 (by omega), col_ok X 1 (by omega), col_ok X 2 (by omega), park91AHf_first h, park91AHf_map]
  refine congrArg Except.ok ?_
  have e1 := first_ofFn h X fun r => 1 + sin (r 0) / 10
  have e2 := first_ofFn h X fun r => -2 * r 0 + r 1 ^ 2 + r 2 ^ 2 + 0.5
  refine Eq.trans (congrArg₂ (fun a b => List.zipWith (fun (y : Option ℝ) (u : ℝ) => y.map fun v => v + u)
    (List.zipWith (fun (u : ℝ) (y : Option ℝ) => y.map fun v => u * v) a (List.map park91AHfAt (firstColumns h X))) b) e1 e2) ?_
  rw [zipWith_map_self, zipWith_map_self]
  rfl

theorem park91BLf_first (h : 4 ≤ d) (X : Batch d) : park91BLf X = park91BLf (firstColumns h X) := by
  unfold park91BLf
  rw [park91BHf_first h]

theorem borehole_first (h : 8 ≤ d) (a b : ℝ) (X : Batch d) : boreholeBase a b X = .ok ((firstColumns h X).map (boreholeAt a b)) := by
  unfold boreholeBase
  rw [col_ok X 0 (by omega), col_ok X 1 (by omega), col_ok X 2 (by omega), col_ok X 3 (by omega), col_ok X 4 (by omega), col_ok X 5 (by omega), col_ok X 6 (by omega), col_ok X 7 (by omega)]
  exact congrArg Except.ok (first_columnOpt h X (boreholeAt a b))

theorem entry0_ok (h : 1 ≤ d) (r : Fin d → ℝ) : entry0 r = entry0 fun j : Fin 1 => r (Fin.castLE h j) := by
  unfold entry0
  rw [dif_pos (by omega)]
  rfl

theorem mapM_map {α β γ : Type} (f : β → Py γ) (g : α → β) : ∀ l : List α, (l.map g).mapM f = l.mapM fun a => f (g a)
  | [] => rfl
  | a :: l => by rw [List.map_cons, List.mapM_cons, List.mapM_cons, mapM_map f g l]

theorem discontinuous_first (h : 1 ≤ d) (X : Batch d) : discontinuousHf X = discontinuousHf (firstColumns h X) ∧ discontinuousLf X = discontinuousLf (firstColumns h X) := by
  unfold discontinuousHf discontinuousLf firstColumns
  constructor
  · rw [mapM_map]
    exact congrArg (fun g => List.mapM g X) (funext fun r => by rw [entry0_ok h])
  · rw [mapM_map]
    exact congrArg (fun g => List.mapM g X) (funext fun r => by rw [entry0_ok h])

/-- C143 is false of most problems: additional columns are ignored.  For every problem that looks at single columns, a sample array with too many columns gives the responses of its first `num_dim` columns. -/
theorem C143_extra_columns_counterexample {k : ℕ} (hk : k ≤ d) (X : Batch d) :
    (∀ p : SFName, p.attrs.numDim = some k → SFByColumn p → p.f X = p.f (firstColumns hk X)) ∧
    (∀ p : SFName, p.attrs.numDim = some k → p.fCons X = p.fCons (firstColumns hk X)) ∧
    (∀ p : MFName, p.attrs.numDim = some k → MFByColumn p → p.hf X = p.hf (firstColumns hk X)) ∧
    (∀ (p : MFName) (t : DType), p.attrs.numDim = some k → MFByColumn p ∨ p = .hartman3 → p.lf t X = p.lf t (firstColumns hk X)) := by
  refine ⟨fun p hp hh => ?_, fun p hp => ?_, fun p hp hh => ?_, fun p t hp hh => ?_⟩
  · cases p <;> simp only [SFName.attrs, Option.some.injEq] at hp <;> subst hp <;> simp only [SFByColumn, reduceCtorEq, or_self, or_true, true_or] at hh
    · refine Eq.trans ?_ (braninF_map _).symm
      unfold SFName.f braninF
      simp only [col_ok X 0 (by omega), col_ok X 1 (by omega)]
      exact congrArg Except.ok (first_column hk X braninAt)
    · refine Eq.trans ?_ (goldPriceF_map _).symm
      unfold SFName.f goldPriceF
      simp only [col_ok X 0 (by omega), col_ok X 1 (by omega)]
      exact congrArg Except.ok (first_column hk X goldPriceAt)
    · refine Eq.trans ?_ (sixhumpF_map _).symm
      unfold SFName.f sixhumpF
      simp only [col_ok X 0 (by omega), col_ok X 1 (by omega)]
      exact congrArg Except.ok (first_column hk X sixhumpAt)
    · refine Eq.trans ?_ (sasenaF_map _).symm
      unfold SFName.f sasenaF
      simp only [col_ok X 0 (by omega), col_ok X 1 (by omega)]
      exact congrArg Except.ok (first_column hk X sasenaAt)
    · refine Eq.trans ?_ (braninConsF_map _).symm
      unfold SFName.f braninConsF
      simp only [col_ok X 0 (by omega), col_ok X 1 (by omega)]
      exact congrArg Except.ok (first_column hk X braninConsAt)
    · refine Eq.trans ?_ (braninConsF_map _).symm
      unfold SFName.f braninConsF
      simp only [col_ok X 0 (by omega), col_ok X 1 (by omega)]
      exact congrArg Except.ok (first_column hk X braninConsAt)
  · cases p <;> try rfl
    · simp only [SFName.attrs, Option.some.injEq] at hp
      subst hp
      refine Eq.trans ?_ (branin1Cons_map _).symm
      unfold SFName.fCons branin1Cons
      simp only [col_ok X 0 (by omega), col_ok X 1 (by omega)]
      exact congrArg Except.ok (first_column hk X branin1ConsAt)
    · simp only [SFName.attrs, Option.some.injEq] at hp
      subst hp
      refine Eq.trans ?_ (branin2Cons_map _).symm
      unfold SFName.fCons branin2Cons
      simp only [col_ok X 0 (by omega), col_ok X 1 (by omega)]
      exact congrArg Except.ok (first_column hk X branin2ConsAt)
  · rcases hh with rfl | rfl | rfl | rfl | rfl | rfl | rfl | rfl | rfl <;> simp only [MFName.attrs, Option.some.injEq] at hp <;> subst hp
    · refine Eq.trans ?_ (sixhumpF_map _).symm
      unfold MFName.hf sixhumpF
      simp only [col_ok X 0 (by omega), col_ok X 1 (by omega)]
      exact congrArg Except.ok (first_column hk X sixhumpAt)
    · exact (discontinuous_first hk X).1
    · refine Eq.trans ?_ (MFName.hf_map .bohachevsky _).symm
      unfold MFName.hf bohachevskyHf
      simp only [col_ok X 0 (by omega), col_ok X 1 (by omega)]
      exact congrArg Except.ok (first_column hk X bohachevskyHfAt)
    · refine Eq.trans ?_ (MFName.hf_map .booth _).symm
      unfold MFName.hf boothHf
      simp only [col_ok X 0 (by omega), col_ok X 1 (by omega)]
      exact congrArg Except.ok (first_column hk X boothHfAt)
    · exact (borehole_first hk _ _ X).trans (MFName.hf_map .borehole _).symm
    · exact currinHf_first hk X
    · refine Eq.trans ?_ (MFName.hf_map .himmelblau _).symm
      unfold MFName.hf himmelblauHf
      simp only [col_ok X 0 (by omega), col_ok X 1 (by omega)]
      exact congrArg Except.ok (first_column hk X himmelblauHfAt)
    · exact park91AHf_first hk X
    · exact park91BHf_first hk X
  · rcases hh with (rfl | rfl | rfl | rfl | rfl | rfl | rfl | rfl | rfl) | rfl <;> simp only [MFName.attrs, Option.some.injEq] at hp <;> subst hp
    · refine Eq.trans ?_ (MFName.lf_map .sixhump t _).symm
      unfold MFName.lf sixhumpLf
      simp only [col_ok X 0 (by omega), col_ok X 1 (by omega)]
      exact congrArg Except.ok (first_column hk X sixhumpLfAt)
    · exact (discontinuous_first hk X).2
    · refine Eq.trans ?_ (MFName.lf_map .bohachevsky t _).symm
      unfold MFName.lf bohachevskyLf
      simp only [col_ok X 0 (by omega), col_ok X 1 (by omega)]
      exact congrArg Except.ok (first_column hk X bohachevskyLfAt)
    · refine Eq.trans ?_ (MFName.lf_map .booth t _).symm
      unfold MFName.lf boothLf
      simp only [col_ok X 0 (by omega), col_ok X 1 (by omega)]
      exact congrArg Except.ok (first_column hk X boothLfAt)
    · exact (borehole_first hk _ _ X).trans (MFName.lf_map .borehole t _).symm
    · exact currinLf_first hk t X
    · refine Eq.trans ?_ (MFName.lf_map .himmelblau t _).symm
      unfold MFName.lf himmelblauLf
      simp only [col_ok X 0 (by omega), col_ok X 1 (by omega)]
      exact congrArg Except.ok (first_column hk X himmelblauLfAt)
    · exact park91ALf_first hk X
    · exact park91BLf_first hk X
    · refine Eq.trans ?_ (MFName.lf_map .hartman3 t _).symm
      unfold MFName.lf hartman3Lf
      simp only [col_ok X 0 (by omega), col_ok X 1 (by omega), col_ok X 2 (by omega)]
      exact congrArg Except.ok (first_column hk X hartman3LfAt)

/-- C143 is false of the Hartman functions given one column: the single coordinate of each sample is used for all variables. -/
theorem C143_one_column_counterexample (t : DType) (X : Batch 1) :
    SFName.hartman3.f X = SFName.hartman3.f (repeatColumn 3 X) ∧ SFName.hartman6.f X = SFName.hartman6.f (repeatColumn 6 X) ∧
    MFName.hartman3.hf X = MFName.hartman3.hf (repeatColumn 3 X) ∧ MFName.hartman6.hf X = MFName.hartman6.hf (repeatColumn 6 X) ∧
    MFName.hartman6.lf t X = MFName.hartman6.lf t (repeatColumn 6 X) := by
  have hb : ∀ (k : ℕ) (hk : 1 ≠ k) (r : Fin 1 → ℝ), broadcastRow k r = broadcastRow k fun _ : Fin k => r 0 := fun k hk r => by
    unfold broadcastRow
    rw [dif_neg hk, dif_pos rfl, dif_pos rfl]
    rfl
  have h3 : hartman3F X = hartman3F (repeatColumn 3 X) := by
    unfold hartman3F repeatColumn
    rw [mapM_map]
    exact congrArg (fun g => List.mapM g X) (funext fun r => by rw [hb 3 (by omega)])
  have h6 : hartman6F X = hartman6F (repeatColumn 6 X) := by
    unfold hartman6F repeatColumn
    rw [mapM_map]
    exact congrArg (fun g => List.mapM g X) (funext fun r => by rw [hb 6 (by omega)])
  refine ⟨h3, h6, h3, h6, ?_⟩
  change hartman6Lf X = hartman6Lf _
  unfold hartman6Lf repeatColumn
  rw [mapM_map]
  exact congrArg (fun g => List.mapM g X) (funext fun r => by rw [hb 6 (by omega)])

theorem flatten_length : ∀ X : Batch d, (flatten X).length = X.length * d
  | [] => by simp [flatten]
  | r :: X => by
    have := flatten_length X
    unfold flatten at this ⊢
    rw [List.map_cons, List.flatten_cons, List.length_append, this, List.length_ofFn, List.length_cons]
    ring

/-- C143 is false of `ContinuousNonlinearCorrelation1D` and `PhaseShiftedOscillations`: `n` samples with `d` columns give `n * d` responses. -/
theorem C143_flattened_counterexample (t : DType) (X : Batch d) (p : MFName) (hp : p = .contNonlin1D ∨ p = .phaseShift) :
    (∃ Y, p.hf X = .ok Y ∧ Y.length = X.length * d) ∧ ∃ Y, p.lf t X = .ok Y ∧ Y.length = X.length * d := by
  rcases hp with rfl | rfl <;> exact ⟨⟨_, rfl, by rw [flatten_length, ew, List.length_map]⟩, ⟨_, rfl, by rw [flatten_length, ew, List.length_map]⟩⟩

/-- Branin given three columns: the third is ignored. -/
example : SFName.branin.f ([![0, 0, 7]] : Batch 3) = SFName.branin.f ([![0, 0]] : Batch 2) := by
  refine ((C143_extra_columns_counterexample (by omega) _).1 .branin rfl (.inl rfl)).trans ?_
  refine congrArg _ ?_
  simp only [firstColumns, List.map_cons, List.map_nil, List.cons.injEq, and_true]
  funext j
  fin_cases j <;> rfl

/-- Two samples for the Booth function with one column each. -/
example : ∃ e, MFName.booth.hf ([![1], ![2]] : Batch 1) = .error e :=
  (C143_too_few_partial (k := 2) le_rfl (by norm_num) _ (by simp)).2.2.1 .booth rfl (by simp)

end Mfpml.Props
