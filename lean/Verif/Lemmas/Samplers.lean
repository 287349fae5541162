import Verif.Model.Samplers
import Mathlib.Data.List.Perm.Subperm
import Mathlib.Data.List.Pairwise
import Mathlib.Tactic.Linarith
import Mathlib.Tactic.Ring

set_option linter.unusedSectionVars false

namespace Mfpml.Sampling

open Mfpml.EA (Box)

variable {K : Type} [Add K] [Sub K] [Mul K]

theorem rules_ok_iff (ns : List ℕ) : rules ns = .ok () ↔ ns.Pairwise (· ≤ ·) := by
  induction ns with
  | nil => simp [rules]
  | cons a t ih =>
    cases t with
    | nil => simp [rules]
    | cons b t =>
      rw [rules]
      split
      · rename_i h
        rw [ih]
        simp only [List.pairwise_cons, List.mem_cons]
        constructor
        · rintro ⟨h1, h2⟩
          refine ⟨?_, h1, h2⟩
          rintro c (rfl | hc)
          · exact h
          · exact h.trans (h1 c hc)
        · rintro ⟨_, h2, h3⟩
          exact ⟨h2, h3⟩
      · rename_i h
        constructor
        · intro h2; cases h2
        · intro h2
          simp only [List.pairwise_cons, List.mem_cons] at h2
          exact absurd (h2.1 b (Or.inl rfl)) h

theorem rules_error (ns : List ℕ) (h : ¬ ns.Pairwise (· ≤ ·)) : rules ns = .error .assertionError := by
  induction ns with
  | nil => simp at h
  | cons a t ih =>
    cases t with
    | nil => simp at h
    | cons b t =>
      rw [rules]
      split
      · rename_i hab
        apply ih
        intro hp
        exact h ((rules_ok_iff _).mp (by rw [rules, if_pos hab]; exact (rules_ok_iff _).mpr hp))
      · rfl

/-- One step of the sampling loop. -/
def step {d : ℕ} (E : Env K d) (m : MFSampler K d) (seed : Option ℕ) (n fid : ℕ) (lower : List (Pt K d)) (s : E.S) :
    Py (List (Pt K d) × E.S) :=
  if m.nested then nestedFrom E m n lower s else nonNested E m seed n fid s

theorem mfLoop_cons {d : ℕ} (E : Env K d) (m : MFSampler K d) (seed : Option ℕ) (n : ℕ) (rev : List ℕ)
    (data0 : List (Pt K d)) (rest : List (List (Pt K d))) (s : E.S) :
    mfLoop E m seed (n :: rev) data0 rest s =
      (step E m seed n rev.length data0 s).bind (fun p => mfLoop E m seed rev p.1 (data0 :: rest) p.2) := by
  rw [mfLoop]
  unfold step
  split <;> rfl

theorem mfLoop_char {d : ℕ} (E : Env K d) (m : MFSampler K d) (seed : Option ℕ) (rev : List ℕ)
    (data0 : List (Pt K d)) (rest : List (List (Pt K d))) (s : E.S) {data left s'}
    (h : mfLoop E m seed rev data0 rest s = .ok (data, left, s')) :
    ∃ pre, data = pre ++ data0 :: rest ∧ pre.length = rev.length ∧ left = [] ∧
      ∀ k < rev.length, ∃ n xs ys s1 s2, rev.reverse[k]? = some n ∧ data[k]? = some xs ∧ data[k + 1]? = some ys ∧
        step E m seed n k ys s1 = .ok (xs, s2) := by
  induction rev generalizing data0 rest s with
  | nil =>
    rw [mfLoop] at h
    simp only [Except.ok.injEq, Prod.mk.injEq] at h
    exact ⟨[], by simp [h.1], rfl, h.2.1.symm, by simp⟩
  | cons n rev ih =>
    rw [mfLoop_cons] at h
    cases hs : step E m seed n rev.length data0 s with
    | error e => rw [hs] at h; cases h
    | ok p =>
      obtain ⟨sample, s1⟩ := p
      rw [hs] at h
      obtain ⟨pre, hd, hlen, hl, hk⟩ := ih sample (data0 :: rest) s1 h
      refine ⟨pre ++ [sample], by simp [hd], by simp [hlen], hl, ?_⟩
      intro k hkl
      simp only [List.length_cons] at hkl
      rcases Nat.lt_or_ge k rev.length with hlt | hge
      · obtain ⟨n', xs, ys, s1', s2', h1, h2, h3, h4⟩ := hk k hlt
        refine ⟨n', xs, ys, s1', s2', ?_, h2, h3, h4⟩
        rw [List.reverse_cons, List.getElem?_append_left (by simpa using hlt)]
        exact h1
      · obtain rfl : k = rev.length := by omega
        refine ⟨n, sample, data0, s, s1, ?_, ?_, ?_, hs⟩
        · simp
        · rw [hd, ← hlen]; simp
        · rw [hd, ← hlen]; simp

theorem getSamples_char {d : ℕ} (E : Env K d) (m : MFSampler K d) (ns : List ℕ) (seed : Option ℕ) (s : E.S)
    {data left s'} (h : getSamples E m ns seed s = .ok (data, left, s')) :
    ns.Pairwise (· ≤ ·) ∧ data.length = ns.length ∧ left = [] ∧ 0 < ns.length ∧
    (∃ n xs s2, ns[ns.length - 1]? = some n ∧ data[ns.length - 1]? = some xs ∧
      nonNested E m seed n (ns.length - 1) s = .ok (xs, s2)) ∧
    ∀ k, k + 1 < ns.length → ∃ n xs ys s1 s2, ns[k]? = some n ∧ data[k]? = some xs ∧ data[k + 1]? = some ys ∧
      step E m seed n k ys s1 = .ok (xs, s2) := by
  unfold getSamples at h
  cases hr : rules ns with
  | error e => rw [hr] at h; cases h
  | ok u =>
    rw [hr] at h
    refine ⟨(rules_ok_iff ns).mp hr, ?_⟩
    cases hrev : ns.reverse with
    | nil => rw [hrev] at h; cases h
    | cons n rev =>
      rw [hrev] at h
      have hns : ns = rev.reverse ++ [n] := by
        have := congrArg List.reverse hrev
        simpa using this
      change (nonNested E m seed n rev.length s).bind _ = _ at h
      cases hn : nonNested E m seed n rev.length s with
      | error e => rw [hn] at h; cases h
      | ok p =>
        obtain ⟨low, s1⟩ := p
        rw [hn] at h
        change (mfLoop E m seed rev low [] s1).bind _ = _ at h
        cases hm : mfLoop E m seed rev low [] s1 with
        | error e => rw [hm] at h; cases h
        | ok q =>
          obtain ⟨data', left', s3⟩ := q
          rw [hm] at h
          change Except.ok (data', left'.reverse, s3) = Except.ok (data, left, s') at h
          simp only [Except.ok.injEq, Prod.mk.injEq] at h
          obtain ⟨rfl, rfl, rfl⟩ := h
          obtain ⟨pre, hd, hlen, hl, hk⟩ := mfLoop_char E m seed rev low [] s1 hm
          have hlns : ns.length = rev.length + 1 := by rw [hns]; simp
          refine ⟨by rw [hd, hlns]; simp [hlen], by simp [hl], by omega, ?_, ?_⟩
          · refine ⟨n, low, s1, ?_, ?_, ?_⟩
            · rw [hlns, hns]; simp
            · rw [hlns, hd]; simp [← hlen]
            · rw [hlns]; exact hn
          · intro k hk1
            obtain ⟨n', xs, ys, s1', s2', h1, h2, h3, h4⟩ := hk k (by omega)
            refine ⟨n', xs, ys, s1', s2', ?_, h2, h3, h4⟩
            rw [hns, List.getElem?_append_left (by simp; omega)]
            exact h1

/-! ### the pieces -/

theorem mfScale_length {d : ℕ} (b : Box K d) (us : List (Pt K d)) : (mfScale b us).length = us.length := by
  simp [mfScale]

theorem SobolEngine.random_ok {d : ℕ} (e : SobolEngine K d) (n : ℕ) {us e'} (h : e.random n = .ok (us, e')) :
    us = (List.range n).map (fun k => e.seq (e.generated + k)) ∧ us.length = n := by
  unfold SobolEngine.random at h
  split at h
  · rename_i h0
    simp only [Except.ok.injEq, Prod.mk.injEq] at h
    subst h0
    simp [← h.1]
  · split at h
    · cases h
    · simp only [Except.ok.injEq, Prod.mk.injEq] at h
      simp [← h.1]

/-- What `nonNested` returns: scaled unit points. -/
theorem Env.Lawful.drawsIn [Zero K] [One K] [LE K] {d : ℕ} {E : Env K d} (hE : E.Lawful) : E.DrawsIn (fun u => 0 ≤ u ∧ u ≤ 1) :=
  ⟨hE.lhs_unit, hE.sobol_unit, hE.random_unit⟩

theorem nonNested_ok {d : ℕ} (E : Env K d) (hE : E.Contract) (m : MFSampler K d) (seed : Option ℕ) (n fid : ℕ) (s : E.S)
    {xs s'} (h : nonNested E m seed n fid s = .ok (xs, s')) :
    ∃ b us, m.spaces[fid]? = some b ∧ xs = mfScale b us ∧ us.length = n ∧
      (∀ Q, E.DrawsIn Q → ∀ u ∈ us, ∀ j, Q (u j)) ∧
      (∀ skip, m.kind = .sobol skip → us = (List.range n).map (fun k => (E.sobol seed s).1 (skip + k))) ∧
      (m.kind = .lhs → us = (E.lhs (seed.map (· + fid)) n s).1) := by
  unfold nonNested at h
  cases hk : m.kind with
  | lhs =>
    rw [hk] at h
    simp only at h
    cases hb : m.spaces[fid]? with
    | none => rw [hb] at h; cases h
    | some b =>
      rw [hb] at h
      simp only [Except.ok.injEq, Prod.mk.injEq] at h
      refine ⟨b, _, rfl, h.1.symm, hE.lhs_len _ _ _, fun Q hQ => hQ.lhs _ _ _, ?_, fun _ => rfl⟩
      intro skip hs
      cases hs
  | sobol skip =>
    rw [hk] at h
    simp only at h
    let e : SobolEngine K d := ((SobolEngine.mk (E.sobol seed s).1 0).reset).fastForward skip
    change (e.random n).bind (fun p => _) = _ at h
    cases hr : e.random n with
    | error er => rw [hr] at h; cases h
    | ok p =>
      obtain ⟨us, e'⟩ := p
      rw [hr] at h
      obtain ⟨hu, hl⟩ := SobolEngine.random_ok e n hr
      simp only [Except.bind] at h
      cases hb : m.spaces[fid]? with
      | none => rw [hb] at h; cases h
      | some b =>
        rw [hb] at h
        simp only [Except.ok.injEq, Prod.mk.injEq] at h
        have hu' : us = (List.range n).map (fun k => (E.sobol seed s).1 (skip + k)) := by
          rw [hu]
          simp [e, SobolEngine.reset, SobolEngine.fastForward]
        refine ⟨b, us, rfl, h.1.symm, hl, ?_, ?_, ?_⟩
        · intro Q hQ u hu2
          rw [hu'] at hu2
          obtain ⟨k, _, rfl⟩ := List.mem_map.mp hu2
          exact fun j => hQ.sobol _ _ _ j
        · intro skip' hs
          cases hs
          exact hu'
        · intro hs; cases hs

theorem filterMap_getElem?_subperm {α : Type*} (l : List α) (idx : List ℕ) (hn : idx.Nodup) (hlt : ∀ i ∈ idx, i < l.length) :
    (idx.filterMap (fun i => l[i]?)).Subperm l ∧ (idx.filterMap (fun i => l[i]?)).length = idx.length := by
  constructor
  · have h1 : idx.Subperm (List.range l.length) :=
      List.subperm_of_subset hn (fun i hi => List.mem_range.mpr (hlt i hi))
    have h2 : ((List.range l.length).filterMap (fun i => l[i]?)) = l := by
      apply List.ext_getElem?
      intro i
      have : (List.range l.length).filterMap (fun i => l[i]?) = (List.finRange l.length).map (fun i => l[i]) := by
        rw [← List.map_coe_finRange_eq_range, List.filterMap_map]
        rw [← List.filterMap_eq_map]
        apply List.filterMap_congr
        intro x _
        simp
      rw [this]
      simp
    obtain ⟨l', hp, hs⟩ := h1
    have h3 : (l'.filterMap (fun i => l[i]?)).Sublist l := by
      have := hs.filterMap (fun i => l[i]?)
      rwa [h2] at this
    exact ⟨_, hp.filterMap _, h3⟩
  · clear hn
    induction idx with
    | nil => simp
    | cons a t ih =>
      have ha := hlt a (by simp)
      rw [List.filterMap_cons, List.getElem?_eq_getElem ha]
      simp only [List.length_cons]
      rw [ih (fun i hi => hlt i (by simp [hi]))]

theorem nestedFrom_ok {d : ℕ} (E : Env K d) (hE : E.Contract) (m : MFSampler K d) (n : ℕ) (lower : List (Pt K d)) (s : E.S)
    {xs s'} (h : nestedFrom E m n lower s = .ok (xs, s')) (hn : n ≤ lower.length) :
    xs.Subperm lower ∧ xs.length = n ∧ (∀ skip, m.kind = .sobol skip → xs = lower.take n) := by
  unfold nestedFrom at h
  cases hk : m.kind with
  | lhs =>
    rw [hk] at h
    simp only at h
    rw [if_neg (by omega)] at h
    simp only [Except.ok.injEq, Prod.mk.injEq] at h
    obtain ⟨h1, h2⟩ := filterMap_getElem?_subperm lower _ (hE.choice_nodup _ _ s hn) (hE.choice_lt _ _ s hn)
    rw [← h.1]
    exact ⟨h1, by rw [h2]; exact hE.choice_len _ _ s hn, fun skip hs => by cases hs⟩
  | sobol skip =>
    rw [hk] at h
    simp only [Except.ok.injEq, Prod.mk.injEq] at h
    rw [← h.1]
    exact ⟨(List.take_sublist _ _).subperm, by simp [hn], fun _ _ => rfl⟩

/-! ### success -/

theorem nonNested_succeeds {d : ℕ} (E : Env K d) (m : MFSampler K d) (seed : Option ℕ) (n fid : ℕ) (s : E.S)
    (hf : fid < m.spaces.length) (hc : ∀ skip, m.kind = .sobol skip → n = 0 ∨ skip + n ≤ sobolMax) :
    ∃ p, nonNested E m seed n fid s = .ok p := by
  unfold nonNested
  cases hk : m.kind with
  | lhs => simp [List.getElem?_eq_getElem hf]
  | sobol skip =>
    simp only
    rw [List.getElem?_eq_getElem hf]
    have : ∃ q, (((SobolEngine.mk (E.sobol seed s).1 0).reset).fastForward skip).random n = .ok q := by
      unfold SobolEngine.random
      split
      · exact ⟨_, rfl⟩
      · rename_i h0
        rw [if_neg]
        · exact ⟨_, rfl⟩
        · rcases hc skip hk with h | h
          · exact absurd h h0
          · simp only [SobolEngine.reset, SobolEngine.fastForward]; omega
    obtain ⟨q, hq⟩ := this
    rw [hq]
    exact ⟨_, rfl⟩

theorem nonNested_fid_error {d : ℕ} (E : Env K d) (m : MFSampler K d) (seed : Option ℕ) (n fid : ℕ) (s : E.S)
    (hf : ¬ fid < m.spaces.length) (p) : nonNested E m seed n fid s ≠ .ok p := by
  intro h
  unfold nonNested at h
  rw [List.getElem?_eq_none (by omega)] at h
  cases hk : m.kind with
  | lhs => rw [hk] at h; cases h
  | sobol skip =>
    rw [hk] at h
    simp only at h
    change (Except.bind _ _) = _ at h
    cases hr : (((SobolEngine.mk (E.sobol seed s).1 0).reset).fastForward skip).random n with
    | error er => rw [hr] at h; cases h
    | ok p => rw [hr] at h; cases h

theorem step_length {d : ℕ} (E : Env K d) (hE : E.Contract) (m : MFSampler K d) (seed : Option ℕ) (n fid : ℕ) (lower : List (Pt K d)) (s : E.S)
    {xs s'} (hn : n ≤ lower.length) (h : step E m seed n fid lower s = .ok (xs, s')) : xs.length = n := by
  unfold step at h
  split at h
  · exact (nestedFrom_ok E hE m n lower s h hn).2.1
  · obtain ⟨b, us, _, hx, hl, _⟩ := nonNested_ok E hE m seed n fid s h
    rw [hx, mfScale_length, hl]

theorem mfLoop_succeeds {d : ℕ} (E : Env K d) (hE : E.Contract) (m : MFSampler K d) (seed : Option ℕ) (rev : List ℕ)
    (data0 : List (Pt K d)) (rest : List (List (Pt K d))) (s : E.S)
    (hsort : (rev.reverse ++ [data0.length]).Pairwise (· ≤ ·))
    (hf : rev.length ≤ m.spaces.length)
    (hc : ∀ n ∈ rev, ∀ skip, m.kind = .sobol skip → n = 0 ∨ skip + n ≤ sobolMax) :
    ∃ p, mfLoop E m seed rev data0 rest s = .ok p := by
  induction rev generalizing data0 rest s with
  | nil => exact ⟨_, by rw [mfLoop]⟩
  | cons n rev ih =>
    rw [mfLoop_cons]
    have hn : n ≤ data0.length := by
      rw [List.pairwise_append] at hsort
      exact hsort.2.2 n (by simp) _ (by simp)
    have : ∃ p, step E m seed n rev.length data0 s = .ok p := by
      unfold step
      split
      · unfold nestedFrom
        cases hk : m.kind with
        | lhs => simp only; rw [if_neg (by omega)]; exact ⟨_, rfl⟩
        | sobol skip => exact ⟨_, rfl⟩
      · exact nonNested_succeeds E m seed n rev.length s (by simp at hf; omega) (hc n (by simp))
    obtain ⟨⟨sample, s1⟩, hp⟩ := this
    have hlen := step_length E hE m seed n rev.length data0 s hn hp
    rw [hp]
    refine ih sample (data0 :: rest) s1 ?_ (by simp at hf; omega) (fun n' h' => hc n' (by simp [h']))
    rw [hlen]
    rw [List.reverse_cons] at hsort
    exact (List.pairwise_append.mp hsort).1

/-! ### determinism -/

/-- `a` and `b` are the same result up to the state of the world. -/
def SameOutput {α S : Type*} (a b : Py (α × S)) : Prop := a.map Prod.fst = b.map Prod.fst

theorem mfLoop_deterministic {d : ℕ} (E : Env K d) (m : MFSampler K d) (seed : Option ℕ)
    (hstep : ∀ n fid lower s s', SameOutput (step E m seed n fid lower s) (step E m seed n fid lower s'))
    (rev : List ℕ) (data0 : List (Pt K d)) (rest : List (List (Pt K d))) (s s' : E.S) :
    SameOutput (mfLoop E m seed rev data0 rest s) (mfLoop E m seed rev data0 rest s') := by
  induction rev generalizing data0 rest s s' with
  | nil => simp [mfLoop, SameOutput, Except.map]
  | cons n rev ih =>
    rw [mfLoop_cons, mfLoop_cons]
    have h := hstep n rev.length data0 s s'
    unfold SameOutput at h
    cases h1 : step E m seed n rev.length data0 s with
    | error e1 =>
      cases h2 : step E m seed n rev.length data0 s' with
      | error e2 =>
        rw [h1, h2] at h
        simp only [Except.map, Except.error.injEq] at h
        simp [SameOutput, Except.bind, Except.map, h]
      | ok p2 => rw [h1, h2] at h; cases h
    | ok p1 =>
      cases h2 : step E m seed n rev.length data0 s' with
      | error e2 => rw [h1, h2] at h; cases h
      | ok p2 =>
        rw [h1, h2] at h
        simp only [Except.map, Except.ok.injEq] at h
        simp only [Except.bind]
        rw [h]
        exact ih _ _ _ _

end Mfpml.Sampling

namespace Mfpml.Sampling

open Mfpml.EA (Box)

variable {K : Type} [Add K] [Sub K] [Mul K]

/-- Samplers never raise `AssertionError` themselves. -/
theorem nonNested_ne_assertion {d : ℕ} (E : Env K d) (m : MFSampler K d) (seed : Option ℕ) (n fid : ℕ) (s : E.S) :
    nonNested E m seed n fid s ≠ .error .assertionError := by
  intro h
  unfold nonNested at h
  cases hk : m.kind with
  | lhs =>
    rw [hk] at h
    simp only at h
    split at h <;> simp at h
  | sobol skip =>
    rw [hk] at h
    simp only at h
    change (Except.bind _ _) = _ at h
    cases hr : (((SobolEngine.mk (E.sobol seed s).1 0).reset).fastForward skip).random n with
    | error er =>
      rw [hr] at h
      unfold SobolEngine.random at hr
      split at hr
      · cases hr
      · split at hr
        · simp only [Except.bind, Except.error.injEq] at h hr
          rw [← hr] at h; cases h
        · cases hr
    | ok p =>
      rw [hr] at h
      simp only [Except.bind] at h
      split at h <;> simp at h

theorem step_ne_assertion {d : ℕ} (E : Env K d) (m : MFSampler K d) (seed : Option ℕ) (n fid : ℕ) (lower) (s : E.S) :
    step E m seed n fid lower s ≠ .error .assertionError := by
  unfold step
  split
  · intro h
    unfold nestedFrom at h
    split at h
    · split at h <;> simp at h
    · cases h
  · exact nonNested_ne_assertion E m seed n fid s

theorem mfLoop_ne_assertion {d : ℕ} (E : Env K d) (m : MFSampler K d) (seed : Option ℕ) (rev : List ℕ)
    (data0 : List (Pt K d)) (rest : List (List (Pt K d))) (s : E.S) :
    mfLoop E m seed rev data0 rest s ≠ .error .assertionError := by
  induction rev generalizing data0 rest s with
  | nil => simp [mfLoop]
  | cons n rev ih =>
    rw [mfLoop_cons]
    cases hs : step E m seed n rev.length data0 s with
    | error e =>
      have := step_ne_assertion E m seed n rev.length data0 s
      rw [hs] at this
      intro h
      simp only [Except.bind, Except.error.injEq] at h
      exact this (by rw [h])
    | ok p => exact ih _ _ _

theorem nonNested_capacity {d : ℕ} (E : Env K d) (m : MFSampler K d) (seed : Option ℕ) (n fid : ℕ) (s : E.S)
    {p} (h : nonNested E m seed n fid s = .ok p) : ∀ skip, m.kind = .sobol skip → n = 0 ∨ skip + n ≤ sobolMax := by
  intro skip hk
  unfold nonNested at h
  rw [hk] at h
  simp only at h
  change (Except.bind _ _) = _ at h
  by_contra hc
  push Not at hc
  have : (((SobolEngine.mk (E.sobol seed s).1 0).reset).fastForward skip).random n = .error .valueError := by
    unfold SobolEngine.random
    rw [if_neg hc.1, if_pos]
    simp only [SobolEngine.reset, SobolEngine.fastForward]; omega
  rw [this] at h
  cases h

/-- The unfolded `get_samples`, for a non-empty list. -/
theorem getSamples_append {d : ℕ} (E : Env K d) (m : MFSampler K d) (init : List ℕ) (n : ℕ) (seed : Option ℕ) (s : E.S)
    (hr : (init ++ [n]).Pairwise (· ≤ ·)) :
    getSamples E m (init ++ [n]) seed s =
      (nonNested E m seed n init.length s).bind (fun p =>
        (mfLoop E m seed init.reverse p.1 [] p.2).bind (fun q => .ok (q.1, q.2.1.reverse, q.2.2))) := by
  unfold getSamples
  rw [(rules_ok_iff _).mpr hr]
  simp only [List.reverse_append, List.reverse_cons, List.reverse_nil, List.nil_append, List.singleton_append, List.length_reverse]
  rfl

end Mfpml.Sampling
