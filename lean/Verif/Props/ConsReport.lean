import Verif.Spec.ConsReport
import Verif.Props.BayesOptNonFinite

/-!
# The reports of the constrained optimiser, whatever floats objective and constraints return (C169)
-/

namespace Mfpml.Props

open Mfpml.NonFinite Mfpml.Spec Mfpml.BO

variable {X S W : Type} {c : ℕ}

theorem le0_iff (v : XF) : v.le0 = true ↔ ∃ e, value v = some e ∧ e ≤ 0 := by
  cases v with
  | nan => simp [XF.le0, value]
  | inf s => cases s <;> simp [XF.le0, value]
  | num v =>
    simp only [XF.le0, value, decide_eq_true_eq, Option.some.injEq, exists_eq_left']
    exact EReal.coe_nonpos.symm

theorem eqf_iff {u v : XF} (hv : v ≠ .nan) : u.eqf v = true ↔ u = v := by
  cases u <;> cases v <;> simp_all [XF.eqf]

theorem eqf_nan (u : XF) : u.eqf .nan = false := by cases u <;> rfl

theorem mem_feasibleX {cons : List (Fin c → XF)} {i : ℕ} : i ∈ feasibleX c cons ↔ ∃ g, cons[i]? = some g ∧ ∀ j, ∃ v, value (g j) = some v ∧ v ≤ 0 := by
  unfold feasibleX
  rw [List.mem_filter, List.mem_range]
  constructor
  · rintro ⟨hi, h⟩
    rw [List.getElem?_eq_getElem hi] at h ⊢
    simp only [decide_eq_true_eq] at h
    refine ⟨_, rfl, fun j => (le0_iff _).mp ?_⟩
    have h1 : List.countP (fun j => (cons[i] j).le0) (List.finRange c) = (List.finRange c).length := by rw [h, List.length_finRange]
    exact List.countP_eq_length.mp h1 j (List.mem_finRange j)
  · rintro ⟨g, hg, h⟩
    refine ⟨(List.getElem?_eq_some_iff.mp hg).1, ?_⟩
    rw [hg]
    simp only [decide_eq_true_eq]
    have h1 : List.countP (fun j => (g j).le0) (List.finRange c) = (List.finRange c).length := List.countP_eq_length.mpr fun j _ => (le0_iff _).mpr (h j)
    rw [h1, List.length_finRange]

theorem mem_positionsX {y : XF} {obj : List XF} {i : ℕ} : i ∈ positionsX y obj ↔ ∃ z, obj[i]? = some z ∧ z.eqf y = true := by
  unfold positionsX
  rw [List.mem_filter, List.mem_range]
  constructor
  · rintro ⟨hi, h⟩
    rw [List.getElem?_eq_getElem hi] at h ⊢
    exact ⟨_, rfl, h⟩
  · rintro ⟨z, hz, h⟩
    refine ⟨(List.getElem?_eq_some_iff.mp hz).1, ?_⟩
    rw [hz]
    exact h

theorem mapM_npRow_all {α : Type} (l : List α) : ∀ (is : List ℕ), (∀ i ∈ is, i < l.length) → ∃ xs, is.mapM (npRow l) = .ok xs ∧ xs.length = is.length ∧ ∀ x, x ∈ xs ↔ ∃ i ∈ is, l[i]? = some x := by
  intro is
  induction is with
  | nil => intro _; exact ⟨[], rfl, rfl, by simp⟩
  | cons i is ih =>
    intro h
    obtain ⟨xs, h1, h2, h3⟩ := ih fun k hk => h k (List.mem_cons_of_mem _ hk)
    have hi := h i List.mem_cons_self
    refine ⟨l[i] :: xs, ?_, by simp [h2], fun x => ?_⟩
    · rw [List.mapM_cons]
      exact Py.bind_ok.mpr ⟨l[i], npRow_ok.mpr (List.getElem?_eq_getElem hi), Py.bind_ok.mpr ⟨xs, h1, rfl⟩⟩
    · rw [List.mem_cons, h3]
      constructor
      · rintro (rfl | ⟨k, hk, hx⟩)
        · exact ⟨i, List.mem_cons_self, List.getElem?_eq_getElem hi⟩
        · exact ⟨k, List.mem_cons_of_mem _ hk, hx⟩
      · rintro ⟨k, hk, hx⟩
        rcases List.mem_cons.mp hk with rfl | hk
        · rw [List.getElem?_eq_getElem hi] at hx
          exact Or.inl (Option.some.inj hx).symm
        · exact Or.inr ⟨k, hk, hx⟩

/-- Order of the extended real numbers and of the floats. -/
theorem not_lt_value {a b : XF} (ha : a ≠ .nan) (hb : b ≠ .nan) (h : b.lt a = false) : ∃ u v, value a = some u ∧ value b = some v ∧ u ≤ v := by
  cases a with
  | nan => exact absurd rfl ha
  | inf s =>
    cases b with
    | nan => exact absurd rfl hb
    | inf t => cases s <;> cases t <;> simp_all [XF.lt, value]
    | num v => cases s <;> simp_all [XF.lt, value]
  | num u =>
    cases b with
    | nan => exact absurd rfl hb
    | inf t => cases t <;> simp_all [XF.lt, value]
    | num v =>
      simp only [XF.lt, decide_eq_false_iff_not, not_lt] at h
      exact ⟨_, _, rfl, rfl, EReal.coe_le_coe_iff.mpr h⟩

/-- `np.min`: `nan` if there is one, otherwise the smallest number. -/
theorem foldl_min2 : ∀ (l : List XF) (a : XF), ((a = .nan ∨ .nan ∈ l) → l.foldl XF.min2 a = .nan) ∧
    (a ≠ .nan → .nan ∉ l → l.foldl XF.min2 a ≠ .nan ∧ ∀ y, y = a ∨ y ∈ l → ∃ u v, value (l.foldl XF.min2 a) = some u ∧ value y = some v ∧ u ≤ v) := by
  intro l
  induction l with
  | nil =>
    intro a
    refine ⟨fun h => ?_, fun ha _ => ⟨ha, fun y hy => ?_⟩⟩
    · rcases h with h | h
      · exact h
      · cases h
    · rcases hy with rfl | hy
      · exact not_lt_value ha ha (by cases y with
          | nan => rfl
          | inf s => cases s <;> rfl
          | num v => simp [XF.lt])
      · cases hy
  | cons b l ih =>
    intro a
    rw [List.foldl_cons]
    obtain ⟨i1, i2⟩ := ih (XF.min2 a b)
    refine ⟨fun h => i1 ?_, fun ha hb => ?_⟩
    · rcases h with rfl | h
      · left; cases b <;> rfl
      · rcases List.mem_cons.mp h with h | h
        · left; subst h; cases a <;> rfl
        · exact Or.inr h
    · have hb1 : b ≠ .nan := fun e => hb (by rw [e]; exact List.mem_cons_self)
      have hb2 : XF.nan ∉ l := fun e => hb (List.mem_cons_of_mem _ e)
      have hmin : XF.min2 a b = if b.lt a then b else a := by
        cases a <;> cases b <;> first | (exact absurd rfl ha) | (exact absurd rfl hb1) | rfl
      have hne : XF.min2 a b ≠ .nan := by rw [hmin]; split <;> assumption
      obtain ⟨j1, j2⟩ := i2 hne hb2
      refine ⟨j1, fun y hy => ?_⟩
      have hlow : ∀ z, z = a ∨ z = b → ∃ u v, value (XF.min2 a b) = some u ∧ value z = some v ∧ u ≤ v := by
        intro z hz
        rw [hmin]
        by_cases hlt : b.lt a = true
        · rw [if_pos hlt]
          rcases hz with rfl | rfl
          · refine not_lt_value hb1 ha ?_
            cases z with
            | nan => exact absurd rfl ha
            | inf s =>
              cases b with
              | nan => exact absurd rfl hb1
              | inf t => cases s <;> cases t <;> simp_all [XF.lt]
              | num v => cases s <;> simp_all [XF.lt]
            | num u =>
              cases b with
              | nan => exact absurd rfl hb1
              | inf t => cases t <;> simp_all [XF.lt]
              | num v =>
                simp only [XF.lt, decide_eq_true_eq] at hlt
                simp [XF.lt, hlt.le]
          · exact not_lt_value hb1 hb1 (by cases z with
              | nan => rfl
              | inf s => cases s <;> rfl
              | num v => simp [XF.lt])
        · rw [if_neg hlt]
          rcases hz with rfl | rfl
          · exact not_lt_value ha ha (by cases z with
              | nan => rfl
              | inf s => cases s <;> rfl
              | num v => simp [XF.lt])
          · exact not_lt_value ha hb1 (by simpa using hlt)
      rcases hy with rfl | hy
      · obtain ⟨u, v, h1, h2, h3⟩ := hlow y (Or.inl rfl)
        obtain ⟨u', v', k1, k2, k3⟩ := j2 _ (Or.inl rfl)
        rw [h1] at k2
        cases k2
        exact ⟨u', v, k1, h2, k3.trans h3⟩
      · rcases List.mem_cons.mp hy with rfl | hy
        · obtain ⟨u, v, h1, h2, h3⟩ := hlow y (Or.inr rfl)
          obtain ⟨u', v', k1, k2, k3⟩ := j2 _ (Or.inl rfl)
          rw [h1] at k2
          cases k2
          exact ⟨u', v, k1, h2, k3.trans h3⟩
        · exact j2 y (Or.inr hy)

/-- The report computed from observations with one row per design. -/
theorem consParaX_report (s : ConsStateX X S W c) (h1 : s.objResponse.length = s.sample.length) (h2 : s.consResponse.length = s.sample.length)
    (hp : (s.best, s.bestX) = consParaX c s.sample s.objResponse s.consResponse) :
    ((∀ i, MeetsAll s i → s.objResponse[i]? ≠ some .nan) → RightReport s) ∧ ((∃ i, MeetsAll s i ∧ s.objResponse[i]? = some .nan) → LostReport s) := by
  have hfi : ∀ i ∈ feasibleX c s.consResponse, i < s.objResponse.length := by
    intro i hi
    obtain ⟨g, hg, _⟩ := mem_feasibleX.mp hi
    rw [h1, ← h2]
    exact (List.getElem?_eq_some_iff.mp hg).1
  obtain ⟨vs, v1, v2, v3⟩ := mapM_npRow_all s.objResponse _ hfi
  have v3' : ∀ y, y ∈ vs ↔ ∃ i, MeetsAll s i ∧ s.objResponse[i]? = some y := by
    intro y
    rw [v3]
    exact ⟨fun ⟨i, a, b⟩ => ⟨i, mem_feasibleX.mp a, b⟩, fun ⟨i, a, b⟩ => ⟨i, mem_feasibleX.mpr a, b⟩⟩
  cases vs with
  | nil =>
    have hno : ¬∃ i, MeetsAll s i := by
      rintro ⟨i, hi⟩
      have := mem_feasibleX.mpr hi
      rw [List.eq_nil_of_length_eq_zero v2.symm] at this
      cases this
    have hres : consParaX c s.sample s.objResponse s.consResponse = (.inf false, none) := by
      unfold consParaX consBestX
      rw [v1]
      rfl
    rw [hres, Prod.mk.injEq] at hp
    exact ⟨fun _ => Or.inl ⟨hno, hp.1, hp.2⟩, fun ⟨i, hi, _⟩ => absurd ⟨i, hi⟩ hno⟩
  | cons a l =>
    set m := l.foldl XF.min2 a with hm
    have hmin : npMinX (a :: l) = .ok m := rfl
    have hpi : ∀ i ∈ positionsX m s.objResponse, i < s.sample.length := by
      intro i hi
      obtain ⟨z, hz, _⟩ := mem_positionsX.mp hi
      rw [← h1]
      exact (List.getElem?_eq_some_iff.mp hz).1
    obtain ⟨xs, x1, x2, x3⟩ := mapM_npRow_all s.sample _ hpi
    have hres : consParaX c s.sample s.objResponse s.consResponse = (m, some xs) := by
      unfold consParaX
      have : consBestX c s.sample s.objResponse s.consResponse = .ok (m, xs) := Py.bind_ok.mpr ⟨_, v1, Py.bind_ok.mpr ⟨_, hmin, Py.bind_ok.mpr ⟨_, x1, rfl⟩⟩⟩
      rw [this]
    rw [hres, Prod.mk.injEq] at hp
    obtain ⟨hb, hx⟩ := hp
    obtain ⟨f1, f2⟩ := foldl_min2 l a
    constructor
    · intro hnan
      have hal : XF.nan ∉ a :: l := fun h => by
        obtain ⟨i, hi, hy⟩ := (v3' _).mp h
        exact hnan i hi hy
      have ha : a ≠ .nan := fun h => hal (by rw [h]; exact List.mem_cons_self)
      obtain ⟨g1, g2⟩ := f2 ha fun h => hal (List.mem_cons_of_mem _ h)
      have hmem : m ∈ a :: l := npMinX_mem hmin
      refine Or.inr ⟨?_, fun i y hi hy => ?_, xs, hx, fun x => ?_⟩
      · rw [hb]
        exact (v3' m).mp hmem
      · rw [hb]
        have : y ∈ a :: l := (v3' y).mpr ⟨i, hi, hy⟩
        exact g2 y (List.mem_cons.mp this)
      · rw [x3, hb]
        constructor
        · rintro ⟨i, hi, hs⟩
          obtain ⟨z, hz, he⟩ := mem_positionsX.mp hi
          rw [(eqf_iff g1).mp he] at hz
          exact ⟨i, hs, hz⟩
        · rintro ⟨i, hs, hz⟩
          exact ⟨i, mem_positionsX.mpr ⟨m, hz, (eqf_iff g1).mpr rfl⟩, hs⟩
    · rintro ⟨i, hi, hy⟩
      have hin : XF.nan ∈ a :: l := (v3' _).mpr ⟨i, hi, hy⟩
      have hmn : m = .nan := by
        refine f1 ?_
        rcases List.mem_cons.mp hin with h | h
        · exact Or.inl h.symm
        · exact Or.inr h
      have hxs : xs = [] := by
        cases xs with
        | nil => rfl
        | cons x xs =>
          obtain ⟨k, hk, _⟩ := (x3 x).mp List.mem_cons_self
          obtain ⟨z, _, he⟩ := mem_positionsX.mp hk
          rw [hmn, eqf_nan] at he
          cases he
      exact ⟨hb.trans hmn, by rw [hx, hxs]⟩

theorem consNew_ok {p : ConsProblemX X S W c} {w : W} {s : ConsStateX X S W c} (h : consNew p w = .ok s) :
    p.f s.sample = .ok s.objResponse ∧ p.fCons s.sample = .ok s.consResponse ∧ (s.best, s.bestX) = consParaX p.numCons s.sample s.objResponse s.consResponse := by
  unfold consNew at h
  obtain ⟨⟨x, r⟩, _, h⟩ := Py.bind_ok.mp h
  obtain ⟨y, hy, h⟩ := Py.bind_ok.mp h
  obtain ⟨g, hg, h⟩ := Py.bind_ok.mp h
  obtain ⟨⟨su, r'⟩, ht, h⟩ := Py.bind_ok.mp h
  cases h
  exact ⟨hy, hg, rfl⟩

theorem consIterate_lengths {p : ConsProblemX X S W c} (hf : RowPerDesign p.f) (hg : RowPerDesign p.fCons) {s s' : ConsStateX X S W c} (h : consIterate p s = .ok s')
    (h1 : s.objResponse.length = s.sample.length) (h2 : s.consResponse.length = s.sample.length) : s'.objResponse.length = s'.sample.length ∧ s'.consResponse.length = s'.sample.length := by
  unfold consIterate at h
  obtain ⟨⟨x, r⟩, _, h⟩ := Py.bind_ok.mp h
  obtain ⟨y, hy, h⟩ := Py.bind_ok.mp h
  obtain ⟨g, hgx, h⟩ := Py.bind_ok.mp h
  dsimp only at h
  obtain ⟨⟨su, r'⟩, ht, h⟩ := Py.bind_ok.mp h
  cases h
  simp only [List.length_append]
  exact ⟨by rw [h1, hf _ _ hy], by rw [h2, hg _ _ hgx]⟩

/-- C169. Whatever floats objective and constraints return and whatever the surrogates do: after the constructor and after every iteration that returned, the constrained optimiser reports the smallest objective value of the
feasible designs seen so far and the designs that have it (infinity and `None` if there is no feasible design), unless the objective of a feasible design is `nan`: then `best` is `nan` and `best_x` is empty. -/
theorem C169_reports (p : ConsProblemX X S W c) (hnum : p.numCons = c) (hf : RowPerDesign p.f) (hg : RowPerDesign p.fCons) (w : W) (s₀ : ConsStateX X S W c) (h₀ : consNew p w = .ok s₀) (s : ConsStateX X S W c)
    (hs : s = s₀ ∨ ∃ t, ConsLater p s₀ t ∧ consIterate p t = .ok s) :
    ((∀ i, MeetsAll s i → s.objResponse[i]? ≠ some .nan) → RightReport s) ∧ ((∃ i, MeetsAll s i ∧ s.objResponse[i]? = some .nan) → LostReport s) := by
  obtain ⟨n1, n2, n3⟩ := consNew_ok h₀
  have l0 : s₀.objResponse.length = s₀.sample.length ∧ s₀.consResponse.length = s₀.sample.length := ⟨hf _ _ n1, hg _ _ n2⟩
  rcases hs with rfl | ⟨t, ht, hit⟩
  · rw [hnum] at n3
    exact consParaX_report s l0.1 l0.2 n3
  · have lt : t.objResponse.length = t.sample.length ∧ t.consResponse.length = t.sample.length := by
      clear hit
      induction ht with
      | now => exact l0
      | step _ h ih => exact consIterate_lengths hf hg h ih.1 ih.2
      | crash _ h ih =>
        cases h with
        | query => exact ih
        | objective => exact ih
        | constraints => exact ih
        | training hq hy hgx ht =>
          simp only [List.length_append]
          exact ⟨by rw [ih.1, hf _ _ hy], by rw [ih.2, hg _ _ hgx]⟩
    obtain ⟨a, b⟩ := consIterate_lengths hf hg hit lt.1 lt.2
    obtain ⟨_, _, _, _, hp, _⟩ := consIterate_ok hit
    rw [hnum] at hp
    exact consParaX_report s a b hp

/-- Designs are numbers. The objective is `nan` at 0 and 3, minus infinity at 2, and the number itself elsewhere; the constraint is `nan` at 0 and violated at 2. -/
noncomputable def floaty : ConsProblemX ℕ Unit Unit 1 where
  f := fun xs => .ok (xs.map fun x => if x = 0 ∨ x = 3 then .nan else if x = 2 then .inf true else .num x)
  fCons := fun xs => .ok (xs.map fun x _ => if x = 0 then .nan else if x = 2 then .num 1 else .num 0)
  numCons := 1
  optimum := none
  init := fun w => .ok ([0, 5, 2, 1], w)
  fresh := ()
  train := fun s _ _ _ w => .ok (s, w)
  query := fun _ w => .ok (3, w)

/-- Non-vacuous: the first report is 1 at design 1, although other designs have `nan` and minus infinity; the feasible design with objective `nan` that follows destroys it. -/
example : ∃ s₀ s₁, consNew floaty () = .ok s₀ ∧ consIterate floaty s₀ = .ok s₁ ∧ RightReport s₀ ∧ s₀.best = .num 1 ∧ s₀.bestX = some [1] ∧ LostReport s₁ := by
  have hf : RowPerDesign floaty.f := fun xs ys h => by cases h; simp
  have hg : RowPerDesign floaty.fCons := fun xs ys h => by cases h; simp
  have h0 : ∃ s₀, consNew floaty () = .ok s₀ := ⟨_, rfl⟩
  obtain ⟨s₀, h0⟩ := h0
  have e0 := h0
  unfold consNew at e0
  have h1 : ∃ s₁, consIterate floaty s₀ = .ok s₁ := ⟨_, rfl⟩
  obtain ⟨s₁, h1⟩ := h1
  have hs : s₀.sample = [0, 5, 2, 1] := by cases e0; rfl
  have ho : s₀.objResponse = [.nan, .num 5, .inf true, .num 1] := by cases e0; simp
  have hc : s₀.consResponse = [fun _ => .nan, fun _ => .num 0, fun _ => .num 1, fun _ => .num 0] := by cases e0; simp
  have feas : ∀ i, MeetsAll s₀ i → i = 1 ∨ i = 3 := by
    rintro i ⟨g, hg, h⟩
    rw [hc] at hg
    obtain ⟨v, hv, hle⟩ := h 0
    rcases i with _ | _ | _ | _ | i
    · simp only [List.getElem?_cons_zero, Option.some.injEq] at hg
      subst hg; cases hv
    · exact Or.inl rfl
    · simp only [List.getElem?_cons_succ, List.getElem?_cons_zero, Option.some.injEq] at hg
      subst hg; cases hv
      exact absurd (EReal.coe_nonpos.mp hle) (by norm_num)
    · exact Or.inr rfl
    · simp at hg
  have m3 : MeetsAll s₀ 3 := ⟨fun _ => .num 0, by rw [hc]; rfl, fun _ => ⟨_, rfl, by norm_num⟩⟩
  have hr : RightReport s₀ := (C169_reports floaty rfl hf hg () s₀ h0 s₀ (Or.inl rfl)).1 fun i hi => by
    rcases feas i hi with rfl | rfl <;> rw [ho] <;> simp
  refine ⟨s₀, s₁, h0, h1, hr, ?_⟩
  rcases hr with ⟨hn, -⟩ | ⟨⟨i, hi, hb⟩, hmin, xs, hx, hxs⟩
  · exact absurd ⟨3, m3⟩ hn
  have hb1 : s₀.best = .num 1 := by
    rcases feas i hi with rfl | rfl
    · rw [ho] at hb
      have hb' : s₀.best = .num 5 := (Option.some.inj hb).symm
      obtain ⟨a, b, ha, hb2, hab⟩ := hmin 3 (.num 1) m3 (by rw [ho]; rfl)
      rw [hb'] at ha
      cases ha; cases hb2
      rw [EReal.coe_le_coe_iff] at hab
      norm_num at hab
    · rw [ho] at hb
      exact (Option.some.inj hb).symm
  refine ⟨hb1, ?_, ?_⟩
  · have hlist : s₀.bestX = (consParaX 1 s₀.sample s₀.objResponse s₀.consResponse).2 := by cases e0; rfl
    have hpos : positionsX (.num 1) s₀.objResponse = [3] := by
      rw [ho]; unfold positionsX; simp [List.range, List.range.loop, XF.eqf]
    have hpair : consBestX 1 s₀.sample s₀.objResponse s₀.consResponse = .ok (s₀.best, xs) := by
      have hb2 : s₀.best = (consParaX 1 s₀.sample s₀.objResponse s₀.consResponse).1 := by cases e0; rfl
      unfold consParaX at hlist hb2
      cases hcb : consBestX 1 s₀.sample s₀.objResponse s₀.consResponse with
      | error e => rw [hcb, hx] at hlist; cases hlist
      | ok q =>
        rw [hcb] at hlist hb2
        rw [hx] at hlist
        cases hlist
        rw [hb2]
    unfold consBestX at hpair
    obtain ⟨vs, -, hpair⟩ := Py.bind_ok.mp hpair
    obtain ⟨m, -, hpair⟩ := Py.bind_ok.mp hpair
    obtain ⟨ys, hys, hpair⟩ := Py.bind_ok.mp hpair
    cases hpair
    rw [hb1, hpos, hs] at hys
    rw [hx]
    exact congrArg some (Except.ok.inj hys).symm
  · refine (C169_reports floaty rfl hf hg () s₀ h0 s₁ (Or.inr ⟨s₀, .now, h1⟩)).2 ⟨4, ?_, ?_⟩
    · refine ⟨fun _ => .num 0, ?_, fun _ => ⟨_, rfl, by norm_num⟩⟩
      cases h1
      show (s₀.consResponse ++ _)[4]? = _
      rw [hc]; simp
    · cases h1
      show (s₀.objResponse ++ _)[4]? = _
      rw [ho]; simp

end Mfpml.Props
