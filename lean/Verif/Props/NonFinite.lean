import Mathlib.Tactic.NormNum
import Mathlib.Tactic.Positivity
import Verif.Spec.NonFinite
import Verif.Lemmas.BayesOpt

/-!
# Failed evaluations: trainings refuse `nan` and infinities (C155)
-/

namespace Mfpml.Props

open Mfpml.NonFinite Mfpml.Spec Mfpml.BO

/-! ## Arithmetic with `nan` -/

theorem xadd_nan_right (A : Arith) (a : XF) : A.add a .nan = .nan := by cases a <;> rfl
theorem xadd_nan_left (A : Arith) (a : XF) : A.add .nan a = .nan := rfl
theorem xsub_nan_left (A : Arith) (a : XF) : A.sub .nan a = .nan := rfl
theorem xmul_nan_left (A : Arith) (a : XF) : A.mul .nan a = .nan := rfl
theorem xmul_nan_right (A : Arith) (a : XF) : A.mul a .nan = .nan := by cases a <;> rfl
theorem xdiv_nan_left (A : Arith) (a : XF) : A.div .nan a = .nan := rfl
theorem xdiv_nan_right (A : Arith) (a : XF) : A.div a .nan = .nan := by cases a <;> rfl
theorem xlog_nan (A : Arith) : A.log .nan = .nan := rfl
theorem xsqrt_nan (A : Arith) : A.sqrt .nan = .nan := rfl

theorem foldl_add_nan (A : Arith) (l : List XF) : l.foldl A.add .nan = .nan := by
  induction l with
  | nil => rfl
  | cons a l ih => exact ih

theorem xsum_nan (A : Arith) {l : List XF} (h : .nan ∈ l) : A.sum l = .nan := by
  unfold Arith.sum
  generalize XF.num 0 = a
  induction l generalizing a with
  | nil => simp at h
  | cons b l ih =>
    rcases List.mem_cons.mp h with h | h
    · rw [← h, List.foldl_cons, xadd_nan_right, foldl_add_nan]
    · exact ih h _

theorem foldl_add_inf (A : Arith) (s : Bool) (l : List XF) : l.foldl A.add (.inf s) = .nan ∨ l.foldl A.add (.inf s) = .inf s := by
  induction l with
  | nil => exact Or.inr rfl
  | cons a l ih =>
    rw [List.foldl_cons]
    have h : A.add (.inf s) a = .nan ∨ A.add (.inf s) a = .inf s := by
      cases a with
      | nan => exact Or.inl rfl
      | num v => exact Or.inr rfl
      | inf t =>
        by_cases ht : s = t
        · right; simp [Arith.add, ht]
        · left; simp [Arith.add, ht]
    rcases h with h | h
    · rw [h]; exact Or.inl (foldl_add_nan A l)
    · rw [h]; exact ih

theorem xsum_inf (A : Arith) {s : Bool} {l : List XF} (h : .inf s ∈ l) : A.sum l = .nan ∨ A.sum l = .inf s := by
  unfold Arith.sum
  generalize XF.num 0 = a
  induction l generalizing a with
  | nil => simp at h
  | cons b l ih =>
    rcases List.mem_cons.mp h with h | h
    · rw [← h, List.foldl_cons]
      have e : A.add a (.inf s) = .nan ∨ A.add a (.inf s) = .inf s := by
        cases a with
        | nan => exact Or.inl rfl
        | num v => exact Or.inr rfl
        | inf t =>
          by_cases ht : t = s
          · right; simp [Arith.add, ht]
          · left; simp [Arith.add, ht]
      rcases e with e | e
      · rw [e]; exact Or.inl (foldl_add_nan A l)
      · rw [e]; exact foldl_add_inf A s l
    · exact ih h _

/-- The standard deviation of responses that are not all proper numbers is `nan`. -/
theorem xstd_nan (A : Arith) {ys : List XF} (h : ¬AllFinite ys) : A.std ys = .nan := by
  unfold AllFinite at h
  push Not at h
  obtain ⟨y, hy, hn⟩ := h
  have key : A.sub y (A.mean ys) = .nan := by
    cases y with
    | num v => exact absurd ⟨v, rfl⟩ hn
    | nan => rfl
    | inf s =>
      have hm : A.mean ys = .nan ∨ A.mean ys = .inf s := by
        unfold Arith.mean
        rcases xsum_inf A hy with e | e
        · rw [e]; exact Or.inl rfl
        · rw [e]; right
          have : ¬((ys.length : ℝ) < 0) := not_lt.mpr (Nat.cast_nonneg _)
          simp [Arith.div, this]
      rcases hm with e | e
      · rw [e]; rfl
      · rw [e]; simp [Arith.sub, Arith.neg, Arith.add]
  unfold Arith.std
  simp only
  rw [xsum_nan A (List.mem_map.mpr ⟨y, hy, by rw [key]; rfl⟩)]
  rfl

theorem normalizeOutput_nan (A : Arith) {ys : List XF} (h : ¬AllFinite ys) (i : Fin ys.length) : normalizeOutput A ys i 0 = .nan := by
  unfold normalizeOutput
  rw [xstd_nan A h, xdiv_nan_right]

/-- With a `nan` among the scaled responses the likelihood is `nan`, whatever the linear algebra returns. -/
theorem nll_nan {Θ W : Type} (A : Arith) (L : Lib Θ W) {n p : ℕ} {noise : Option XF} {sigma : XF} {kern : Mat n n} {f : Mat n p} {y : Mat n 1} (i : Fin n) (hy : y i 0 = .nan) {v : XF}
    (h : nll A L noise sigma kern f y = .ok v) : v = .nan := by
  unfold nll at h
  obtain ⟨l, -, h⟩ := Py.bind_ok.mp h
  obtain ⟨alpha, -, h⟩ := Py.bind_ok.mp h
  obtain ⟨kf, -, h⟩ := Py.bind_ok.mp h
  obtain ⟨ld, -, h⟩ := Py.bind_ok.mp h
  obtain ⟨beta, -, h⟩ := Py.bind_ok.mp h
  obtain ⟨gamma, -, h⟩ := Py.bind_ok.mp h
  have hs : dot A (tr (matSub A y (dot A f beta))) gamma 0 0 = .nan := by
    unfold dot
    apply xsum_nan
    rw [List.mem_ofFn]
    refine ⟨i, ?_⟩
    simp only [tr, matSub]
    rw [hy]; rfl
  simp only [hs, xdiv_nan_left, xlog_nan, ite_self, xmul_nan_right] at h
  cases h
  rfl

theorem restarts_none {Θ W : Type} {L : Lib Θ W} (hL : ReportsValues L) {obj : Θ → Py XF} (ho : ∀ t v, obj t = .ok v → v = .nan) (k : ℕ) (w : W) {r : Option Θ × W}
    (h : restarts L obj k (.inf false, none) w = .ok r) : r.1 = none := by
  induction k generalizing w with
  | zero => cases h; rfl
  | succ k ih =>
    unfold restarts at h
    obtain ⟨⟨⟨t, v⟩, w'⟩, hm, h⟩ := Py.bind_ok.mp h
    obtain ⟨t', ht⟩ := hL _ _ _ _ hm
    have hv : v = .nan := ho t' v ht
    subst hv
    exact ih w' h

theorem search_raises {Θ W : Type} {L : Lib Θ W} (hL : ReportsValues L) {obj : Θ → Py XF} (ho : ∀ t v, obj t = .ok v → v = .nan) (k : ℕ) (w : W) : ∃ e, search L obj k w = .error e := by
  unfold search
  cases h : restarts L obj (k + 1) (.inf false, none) w with
  | error e => exact ⟨e, rfl⟩
  | ok r =>
    have := restarts_none hL ho _ _ h
    obtain ⟨r1, r2⟩ := r
    simp only at this
    subst this
    exact ⟨.unboundLocal, rfl⟩

theorem bind_raises {α β : Type} {m : Py α} {f : α → Py β} (h : ∃ e, m = .error e) : ∃ e, (m >>= f) = .error e := by
  obtain ⟨e, rfl⟩ := h
  exact ⟨e, rfl⟩

theorem bind_raises' {α β : Type} {m : Py α} {f : α → Py β} (h : ∀ a, ∃ e, f a = .error e) : ∃ e, (m >>= f) = .error e := by
  cases m with
  | error e => exact ⟨e, rfl⟩
  | ok a => exact h a

theorem exists_bad {ys : List XF} (h : ¬AllFinite ys) : ∃ i : Fin ys.length, ¬XFinite ys[i] := by
  unfold AllFinite at h
  push Not at h
  obtain ⟨y, hy, hn⟩ := h
  obtain ⟨i, hi, rfl⟩ := List.getElem_of_mem hy
  exact ⟨⟨i, hi⟩, hn⟩

/-- **C155 (Kriging).** Training a Kriging model on responses one of which is `nan` or infinite raises, for every noise setting, kernel, basis, number of restarts, way of rounding and behaviour of the linear algebra, if only
`minimize` reports values of its objective. -/
theorem C155_kriging {Θ W X S : Type} (A : Arith) {L : Lib Θ W} (hL : ReportsValues L) (o : KObj X Θ S) (xs : List X) (ys : List XF) (w : W) (h : ¬AllFinite ys) : ∃ e, o.train A L xs ys w = .error e := by
  unfold KObj.train
  split_ifs
  · exact bind_raises (search_raises hL (fun t v hv => nll_nan A L (exists_bad h).choose (normalizeOutput_nan A h _) hv) _ _)
  · exact ⟨_, rfl⟩

/-- **C155 (hierarchical Kriging).** The same for either fidelity. -/
theorem C155_hk {Θ W X SL S : Type} (A : Arith) {L : Lib Θ W} (hL : ReportsValues L) (lf : KObj X Θ SL) (hf : KObj X Θ S) (predLf : SL → List X → Py (List XF)) (xs : List X × List X) (ys : List XF × List XF) (w : W)
    (h : ¬(AllFinite ys.1 ∧ AllFinite ys.2)) : ∃ e, trainHK A L lf hf predLf xs ys w = .error e := by
  unfold trainHK
  by_cases h2 : AllFinite ys.2
  · have h1 : ¬AllFinite ys.1 := fun h1 => h ⟨h1, h2⟩
    refine bind_raises' fun r => bind_raises' fun fs => bind_raises ?_
    unfold KObj.trainHf
    split_ifs
    · exact bind_raises (search_raises hL (fun t v hv => nll_nan A L (exists_bad h1).choose (normalizeOutput_nan A h1 _) hv) _ _)
    · exact ⟨_, rfl⟩
  · exact bind_raises (C155_kriging A hL lf _ _ _ h2)

/-- **C155 (scaled Kriging, fixed scale factor).** The same for either fidelity. -/
theorem C155_sk {Θ W X SL S : Type} (A : Arith) {L : Lib Θ W} (hL : ReportsValues L) (rho : ℝ) (lf : KObj X Θ SL) (disc : KObj X Θ S) (predLf : SL → List X → Py (List XF)) (xs : List X × List X) (ys : List XF × List XF) (w : W)
    (h : ¬(AllFinite ys.1 ∧ AllFinite ys.2)) : ∃ e, trainSK A L rho lf disc predLf xs ys w = .error e := by
  unfold trainSK
  by_cases h2 : AllFinite ys.2
  · have h1 : ¬AllFinite ys.1 := fun h1 => h ⟨h1, h2⟩
    obtain ⟨i, hi⟩ := exists_bad h1
    refine bind_raises' fun r => bind_raises' fun fs => bind_raises (C155_kriging A hL disc _ _ _ fun hd => ?_)
    obtain ⟨v, hv⟩ := hd _ (List.mem_ofFn.mpr ⟨i, rfl⟩)
    revert hi hv
    generalize ys.1[i] = y
    generalize A.mul (.num rho) (fs.getD i .nan) = z
    intro hi hv
    cases y with
    | num v => exact hi ⟨v, rfl⟩
    | nan => cases hv
    | inf s =>
      cases z with
      | num u => cases hv
      | nan => cases hv
      | inf t =>
        simp only [Arith.sub, Arith.neg, Arith.add] at hv
        split_ifs at hv
  · exact bind_raises (C155_kriging A hL lf _ _ _ h2)

/-- **C155 (co-Kriging).** Training a co-Kriging model raises if a high-fidelity response is `nan` or infinite or a low-fidelity response is `nan`.  An infinite low-fidelity response is left out. -/
theorem C155_ck_partial {Θ W X SL S : Type} (A : Arith) {L : Lib Θ W} (hL : ReportsValues L) (lf : KObj X Θ SL) (rest : SL → List X × List X → List XF × List XF → W → Py (S × W)) (xs : List X × List X)
    (ys : List XF × List XF) (w : W) (hne : ys.2 ≠ []) (h : ¬AllFinite ys.1 ∨ XF.nan ∈ ys.2) : ∃ e, trainCK A L lf rest xs ys w = .error e := by
  unfold trainCK
  split_ifs
  · obtain ⟨i, hi⟩ : ∃ i : Fin ys.2.length, A.div (A.sub ys.2[i] (A.mean ys.1)) (A.std ys.1) = .nan := by
      rcases h with h | h
      · exact ⟨⟨0, List.length_pos_iff.mpr hne⟩, by rw [xstd_nan A h, xdiv_nan_right]⟩
      · obtain ⟨i, hi, e⟩ := List.getElem_of_mem h
        exact ⟨⟨i, hi⟩, by simp only [Fin.getElem_fin, e]; rfl⟩
    exact bind_raises (search_raises hL (fun t v hv => nll_nan A L i hi hv) _ _)
  · exact ⟨_, rfl⟩

/-- **C155 (constrained).** Training the surrogates of the constrained optimiser raises if an objective value or an entry of a constraint row is `nan` or infinite. -/
theorem C155_columns {Θ W X S : Type} {c : ℕ} (A : Arith) {L : Lib Θ W} (hL : ReportsValues L) (obj : KObj X Θ S) (o : Fin c → KObj X Θ S) (xs : List X) (ys : List XF) (gs : List (Fin c → XF)) (w : W)
    (h : ¬(AllFinite ys ∧ ∀ g ∈ gs, ∀ j, XFinite (g j))) : ∃ e, trainConsX A L obj o xs ys gs w = .error e := by
  unfold trainConsX
  by_cases h1 : AllFinite ys
  · have h2 : ¬∀ g ∈ gs, ∀ j, XFinite (g j) := fun h2 => h ⟨h1, h2⟩
    push Not at h2
    obtain ⟨g, hg, j, hj⟩ := h2
    have key : ∀ (js : List (Fin c)) (w : W), j ∈ js → ∃ e, trainColumns A L o xs gs js w = .error e := by
      intro js
      induction js with
      | nil => intro w h; simp at h
      | cons i js ih =>
        intro w hm
        unfold trainColumns
        by_cases hij : j = i
        · subst hij
          exact bind_raises (C155_kriging A hL _ _ _ _ fun ha => hj (ha _ (List.mem_map.mpr ⟨g, hg, rfl⟩)))
        · exact bind_raises' fun r => bind_raises (ih r.2 ((List.mem_cons.mp hm).resolve_left hij))
    exact bind_raises' fun r => bind_raises (key _ r.2 (List.mem_finRange j))
  · exact bind_raises (C155_kriging A hL obj _ _ _ h1)

end Mfpml.Props
