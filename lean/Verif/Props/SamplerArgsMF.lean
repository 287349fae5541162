import Verif.Props.SamplerArgs

/-!
# Malformed design spaces, and design spaces of several fidelities (C150-C152)
-/

set_option linter.unusedSectionVars false

namespace Mfpml.Props

open Mfpml.Sampling
open Mfpml.EA (Box)

section AnyArithmetic
variable {K : Type} [Add K] [Sub K] [Mul K] {d : ℕ}

/-! ## C150: malformed design spaces -/

/-- The rows written down by an argument; a flat list is one row. -/
def writtenRows : SpaceArg K → List (List K)
  | .flat xs => [xs]
  | .rows r rs => r :: rs

/-- The argument with every row cut to its first two numbers. -/
def cutRows : SpaceArg K → SpaceArg K
  | .flat xs => .flat (xs.take 2)
  | .rows r rs => .rows (r.take 2) (rs.map (List.take 2))

theorem atleast2d_eq (a : SpaceArg K) : ((∀ r ∈ writtenRows a, ∀ r' ∈ writtenRows a, r.length = r'.length) → a.atleast2d = .ok (writtenRows a)) ∧
    ((∃ r ∈ writtenRows a, ∃ r' ∈ writtenRows a, r.length ≠ r'.length) → a.atleast2d = .error .valueError) := by
  cases a with
  | flat xs =>
    refine ⟨fun _ => rfl, ?_⟩
    rintro ⟨r, hr, r', hr', hne⟩
    obtain rfl := List.mem_singleton.mp hr
    obtain rfl := List.mem_singleton.mp hr'
    exact absurd rfl hne
  | rows r rs =>
    constructor
    · intro h
      show (if (rs.all fun r' => r'.length == r.length) = true then Except.ok (r :: rs) else Except.error PyErr.valueError) = _
      rw [if_pos]
      · rfl
      · rw [List.all_eq_true]
        intro r' hr'
        rw [h r' (List.mem_cons_of_mem _ hr') r List.mem_cons_self]
        exact beq_self_eq_true _
    · rintro ⟨r1, h1, r2, h2, hne⟩
      show (if (rs.all fun r' => r'.length == r.length) = true then Except.ok (r :: rs) else Except.error PyErr.valueError) = _
      rw [if_neg]
      intro hall
      rw [List.all_eq_true] at hall
      have key : ∀ r' ∈ r :: rs, r'.length = r.length := fun r' hr' => by
        rcases List.mem_cons.mp hr' with rfl | hr'
        · rfl
        · exact eq_of_beq (hall r' hr')
      exact hne ((key r1 h1).trans (key r2 h2).symm)

theorem scaleRaw_short (L : List (List K)) {r : List K} (hr : r ∈ L) (h : r.length < 2) (us : List (List K)) : scaleRaw L us = .error .indexError := by
  unfold scaleRaw
  rcases Nat.lt_or_ge r.length 1 with h1 | h1
  · rw [rawColumn_error L 0 hr (by omega)]
    rfl
  · cases h0 : column L 0 with
    | error e =>
      have : ∀ (L : List (List K)), column L 0 = .error e → e = .indexError := by
        intro L
        induction L with
        | nil => intro h; cases h
        | cons r L ih =>
          intro h
          unfold column at h ih
          rw [List.mapM_cons] at h
          rcases Py.bind_error.mp h with h | ⟨x, _, h⟩
          · unfold entry at h
            split at h
            · cases h
            · cases h; rfl
          · rcases Py.bind_error.mp h with h | ⟨x, _, h⟩
            · exact ih h
            · cases h
      rw [this L h0]
      rfl
    | ok v =>
      show (column L 1 >>= _) = _
      rw [rawColumn_error L 1 hr (by omega)]
      rfl

theorem rawColumn_take (L : List (List K)) (k : ℕ) (hk : k < 2) : column (L.map (List.take 2)) k = column L k := by
  unfold column
  rw [List.mapM_map]
  congr 1
  funext r
  show entry k (r.take 2) = entry k r
  unfold entry
  rw [List.getElem?_take_of_lt hk]

theorem scaleRaw_take (L : List (List K)) (us : List (List K)) : scaleRaw (L.map (List.take 2)) us = scaleRaw L us := by
  unfold scaleRaw
  rw [rawColumn_take L 0 (by omega), rawColumn_take L 1 (by omega)]

/-- C150, partial.  Rows of different lengths: the constructor raises `ValueError`.  Rows with fewer than two numbers: the constructor returns, and all calls that scale samples raise (`IndexError` for Latin hypercube and random samples).
Otherwise the constructor and all calls return what they return for the rows cut to two numbers.  Missing: rows with more than two numbers are not reported, nor is a flat list with the bounds of several variables. -/
theorem C150_partial (E : EnvAll K) (a : SpaceArg K) (k : ℕ) :
    ((∃ r ∈ writtenRows a, ∃ r' ∈ writtenRows a, r.length ≠ r'.length) → mkSF a (some k) = .error .valueError) ∧
    ((∀ r ∈ writtenRows a, ∀ r' ∈ writtenRows a, r.length = r'.length) → ∃ o, mkSF a (some k) = .ok o ∧
      ((∃ r ∈ writtenRows a, r.length < 2) → (∀ n seed s, lhsRaw E o n seed s = .error .indexError) ∧ (∀ n seed s, randomRaw E o n seed s = .error .indexError) ∧ ∀ n seed s xs, sobolRaw E o n seed s ≠ .ok xs) ∧
      ∃ o', mkSF (cutRows a) (some k) = .ok o' ∧ (∀ n seed s, lhsRaw E o n seed s = lhsRaw E o' n seed s) ∧ (∀ n seed s, randomRaw E o n seed s = randomRaw E o' n seed s) ∧ ∀ n seed s, sobolRaw E o n seed s = sobolRaw E o' n seed s) := by
  constructor
  · intro h
    unfold mkSF
    rw [(atleast2d_eq a).2 h]
    rfl
  · intro h
    have hc : writtenRows (cutRows a) = (writtenRows a).map (List.take 2) := by cases a <;> rfl
    refine ⟨⟨writtenRows a, k⟩, ?_, ?_, ⟨(writtenRows a).map (List.take 2), k⟩, ?_, ?_, ?_, ?_⟩
    · unfold mkSF
      rw [(atleast2d_eq a).1 h]
      rfl
    · rintro ⟨r, hr, hlt⟩
      refine ⟨fun n seed s => ?_, fun n seed s => ?_, fun n seed s xs hx => ?_⟩
      · unfold lhsRaw
        simp only [scaleRaw_short _ hr hlt]
        rfl
      · unfold randomRaw
        simp only [scaleRaw_short _ hr hlt]
        rfl
      · unfold sobolRaw at hx
        simp only [scaleRaw_short _ hr hlt] at hx
        obtain ⟨_, _, hx⟩ := Py.bind_ok.mp hx
        obtain ⟨_, _, hx⟩ := Py.bind_ok.mp hx
        cases hx
    · unfold mkSF
      rw [(atleast2d_eq (cutRows a)).1, hc]
      · rfl
      · rw [hc]
        intro r hr r' hr'
        obtain ⟨q, hq, rfl⟩ := List.mem_map.mp hr
        obtain ⟨q', hq', rfl⟩ := List.mem_map.mp hr'
        rw [List.length_take, List.length_take, h q hq q' hq']
    · intro n seed s
      have key : ∀ L L' : List (List K), L'.length = L.length → (∀ us, scaleRaw L' us = scaleRaw L us) → lhsRaw E ⟨L, k⟩ n seed s = lhsRaw E ⟨L', k⟩ n seed s := by
        intro L L' hl hs
        unfold lhsRaw
        simp only [hs]
        rw [hl]
      exact key _ _ (List.length_map _) (scaleRaw_take _)
    · intro n seed s
      have key : ∀ L L' : List (List K), L'.length = L.length → (∀ us, scaleRaw L' us = scaleRaw L us) → randomRaw E ⟨L, k⟩ n seed s = randomRaw E ⟨L', k⟩ n seed s := by
        intro L L' hl hs
        unfold randomRaw
        simp only [hs]
        rw [hl]
      exact key _ _ (List.length_map _) (scaleRaw_take _)
    · intro n seed s
      have key : ∀ L L' : List (List K), L'.length = L.length → (∀ us, scaleRaw L' us = scaleRaw L us) → sobolRaw E ⟨L, k⟩ n seed s = sobolRaw E ⟨L', k⟩ n seed s := by
        intro L L' hl hs
        unfold sobolRaw
        simp only [hs]
        rw [hl]
      exact key _ _ (List.length_map _) (scaleRaw_take _)

/-! ## C151: design spaces of several fidelities -/

/-- The two-column array of a design space. -/
def boxArray (b : Box K d) : MFItem K := .array 2 (List.ofFn fun j => ![b.low j, b.high j])

theorem boxArray_bound (bs : List (Box K d)) (i : ℕ) :
    (bound (bs.map boxArray) i 0 = match bs[i]? with | none => .error .indexError | some b => .ok (List.ofFn b.low)) ∧
    (bound (bs.map boxArray) i 1 = match bs[i]? with | none => .error .indexError | some b => .ok (List.ofFn b.high)) := by
  unfold bound
  rw [List.getElem?_map]
  cases bs[i]? with
  | none => exact ⟨rfl, rfl⟩
  | some b =>
    simp only [Option.map_some, boxArray]
    rw [dif_pos (by omega), dif_pos (by omega), List.map_ofFn, List.map_ofFn]
    exact ⟨rfl, rfl⟩

theorem scaleBroadcast_box (b : Box K d) (us : List (Pt K d)) : scaleBroadcast d (List.ofFn b.low) (List.ofFn b.high) (us.map List.ofFn) = .ok ((mfScale b us).map List.ofFn) := by
  unfold scaleBroadcast mfScale
  rw [if_pos List.length_ofFn, List.map_map, List.map_map]
  congr 1
  refine List.map_congr_left fun u _ => ?_
  apply List.ext_getElem
  · simp
  · intro i h1 h2
    simp

theorem nonNestedRaw_eq (E : EnvAll K) (o : MFRaw K) (m : MFSampler K d) (hk : o.kind = m.kind) (hd : o.numDim = d) (hi : o.items = m.spaces.map boxArray) (seed : Option ℕ) (n f : ℕ) (s : E.S) :
    nonNestedRaw E o seed n f s = (nonNested (E.at d) m seed n f s).map asRows := by
  obtain ⟨kind, items, nd, nested⟩ := o
  obtain rfl : nd = d := hd
  obtain rfl : kind = m.kind := hk
  obtain rfl : items = m.spaces.map boxArray := hi
  unfold nonNestedRaw nonNested drawRaw
  simp only [(boxArray_bound m.spaces f).1, (boxArray_bound m.spaces f).2]
  cases m.kind with
  | lhs =>
    cases hb : m.spaces[f]? with
    | none => simp only [hb]; rfl
    | some b =>
      simp only [hb, bind, Except.bind, scaleBroadcast_box]
      rfl
  | sobol skip =>
    show (Except.bind (Except.bind ((({ seq := (E.sobol nd seed s).1, generated := 0 } : SobolEngine K nd).reset.fastForward skip).random n) _) _) =
      Except.map asRows (Except.bind ((({ seq := (E.sobol nd seed s).1, generated := 0 } : SobolEngine K nd).reset.fastForward skip).random n) _)
    generalize (({ seq := (E.sobol nd seed s).1, generated := 0 } : SobolEngine K nd).reset.fastForward skip).random n = q
    cases q with
    | error e => rfl
    | ok r =>
      cases hb : m.spaces[f]? with
      | none => simp only [Except.bind, bind, hb]; rfl
      | some b =>
        simp only [bind, Except.bind, hb, scaleBroadcast_box]
        rfl

theorem nestedRaw_eq (E : EnvAll K) (o : MFRaw K) (m : MFSampler K d) (hk : o.kind = m.kind) (n : ℕ) (lower : List (Pt K d)) (s : E.S) :
    nestedRaw E o n (lower.map List.ofFn) s = (nestedFrom (E.at d) m n lower s).map asRows := by
  unfold nestedRaw nestedFrom
  rw [hk]
  cases m.kind with
  | lhs =>
    simp only [List.length_map]
    split
    · rfl
    · show Except.ok _ = Except.ok _
      congr 1
      unfold asRows
      refine Prod.ext ?_ rfl
      show List.filterMap _ _ = List.map _ (List.filterMap _ _)
      rw [List.map_filterMap]
      congr 1
      funext i
      rw [List.getElem?_map]
  | sobol skip =>
    show Except.ok _ = Except.ok _
    rw [← List.map_take]
    rfl

theorem mfLoop_cons (E : Env K d) (m : MFSampler K d) (seed : Option ℕ) (n : ℕ) (rev : List ℕ) (data0 : List (Pt K d)) (rest : List (List (Pt K d))) (s : E.S) :
    mfLoop E m seed (n :: rev) data0 rest s = Except.bind (if m.nested then nestedFrom E m n data0 s else nonNested E m seed n rev.length s) (fun r => mfLoop E m seed rev r.1 (data0 :: rest) r.2) := by
  conv_lhs => rw [mfLoop]
  cases m.nested <;> rfl

theorem mfLoopRaw_eq (E : EnvAll K) (o : MFRaw K) (m : MFSampler K d) (hk : o.kind = m.kind) (hd : o.numDim = d) (hi : o.items = m.spaces.map boxArray) (hn : o.nested = m.nested) (seed : Option ℕ) :
    ∀ (rev : List ℕ) (data0 : List (Pt K d)) (rest : List (List (Pt K d))) (s : E.S),
    mfLoopRaw E o seed rev (data0.map List.ofFn) (rest.map fun x => x.map List.ofFn) s =
      (mfLoop (E.at d) m seed rev data0 rest s).map fun r => (r.1.map fun x => x.map List.ofFn, r.2.2)
  | [], data0, rest, s => rfl
  | n :: rev, data0, rest, s => by
    have hstep : stepRaw E o seed n rev.length (data0.map List.ofFn) s =
        (if m.nested then nestedFrom (E.at d) m n data0 s else nonNested (E.at d) m seed n rev.length s).map asRows := by
      unfold stepRaw
      rw [hn]
      cases m.nested
      · exact nonNestedRaw_eq E o m hk hd hi seed n rev.length s
      · exact nestedRaw_eq E o m hk n data0 s
    have hL : mfLoop (E.at d) m seed (n :: rev) data0 rest s = Except.bind (if m.nested then nestedFrom (E.at d) m n data0 s else nonNested (E.at d) m seed n rev.length s)
        (fun r => mfLoop (E.at d) m seed rev r.1 (data0 :: rest) r.2) := mfLoop_cons (E.at d) m seed n rev data0 rest s
    rw [hL]
    show Except.bind (stepRaw E o seed n rev.length (data0.map List.ofFn) s) _ = _
    rw [hstep]
    generalize (if m.nested then nestedFrom (E.at d) m n data0 s else nonNested (E.at d) m seed n rev.length s) = q
    cases q with
    | error e => rfl
    | ok r => exact mfLoopRaw_eq E o m hk hd hi hn seed rev r.1 (data0 :: rest) r.2

theorem getSamplesRaw_eq (E : EnvAll K) (o : MFRaw K) (m : MFSampler K d) (hk : o.kind = m.kind) (hd : o.numDim = d) (hi : o.items = m.spaces.map boxArray) (hn : o.nested = m.nested) (ns : List ℕ) (seed : Option ℕ) (s : E.S) :
    getSamplesRaw E o ns seed s = (getSamples (E.at d) m ns seed s).map fun r => (r.1.map fun x => x.map List.ofFn, r.2.2) := by
  unfold getSamplesRaw getSamples
  cases rules ns with
  | error e => rfl
  | ok u =>
    cases ns.reverse with
    | nil => rfl
    | cons n rev =>
      simp only [bind, Except.bind]
      rw [nonNestedRaw_eq E o m hk hd hi]
      cases nonNested (E.at d) m seed n rev.length s with
      | error e => rfl
      | ok r =>
        have := mfLoopRaw_eq E o m hk hd hi hn seed rev r.1 [] r.2
        show mfLoopRaw E o seed rev (r.1.map List.ofFn) [] r.2 = _
        refine this.trans ?_
        simp only
        cases mfLoop (E.at d) m seed rev r.1 [] r.2 <;> rfl

/-- C151, partial (samplers constructed from arrays): with one two-column array and `num_fidelity`, or a list of two-column arrays with one row per variable, the samples are those of the design spaces (the ones of all other properties).
Missing: nested Python lists, which the single-fidelity samplers accept. -/
theorem C151_partial (E : EnvAll K) (sobol nested : Bool) (numSkip : Option ℕ) :
    (∀ (b : Box K d) (f : ℕ), ∃ o, mkMF sobol (.array 2 (List.ofFn fun j => ![b.low j, b.high j])) (some f) nested numSkip = .ok o ∧
      ∀ ns seed s, getSamplesRaw E o ns seed s = (getSamples (E.at d) (mkShared sobol b f nested numSkip) ns seed s).map fun r => (r.1.map fun x => x.map List.ofFn, r.2.2)) ∧
    (∀ (bs : List (Box K d)) (m : MFSampler K d) (f : Option ℕ), mkList sobol bs nested numSkip = .ok m → ∃ o, mkMF sobol (.list (bs.map boxArray)) f nested numSkip = .ok o ∧
      ∀ ns seed s, getSamplesRaw E o ns seed s = (getSamples (E.at d) m ns seed s).map fun r => (r.1.map fun x => x.map List.ofFn, r.2.2)) := by
  constructor
  · intro b f
    refine ⟨_, rfl, fun ns seed s => getSamplesRaw_eq E _ _ ?_ List.length_ofFn ?_ rfl ns seed s⟩
    · simp only [List.length_ofFn]
      rfl
    · unfold mkShared
      rw [List.map_replicate]
      rfl
  · intro bs m f hm
    unfold mkList at hm
    split at hm
    · cases hm
    · obtain rfl := Except.ok.inj hm
      cases bs with
      | nil => exact absurd rfl ‹_›
      | cons b bs =>
        refine ⟨_, rfl, fun ns seed s => getSamplesRaw_eq E _ _ ?_ ?_ rfl rfl ns seed s⟩
        · simp only [List.length_map, List.length_cons]
        · exact List.length_ofFn

/-- C151, what happens to nested Python lists: if the design space of the lowest fidelity is a Python list, no call returns samples; Latin hypercube samplers raise `TypeError` for every admissible list of sample numbers. -/
theorem C151_python_lists (E : EnvAll K) (o : MFRaw K) (ns : List ℕ) (k : ℕ) (h : o.items[ns.length - 1]? = some (.pyList k)) (seed : Option ℕ) (s : E.S) :
    (∀ r, getSamplesRaw E o ns seed s ≠ .ok r) ∧ (o.kind = .lhs → ns ≠ [] → rules ns = .ok () → getSamplesRaw E o ns seed s = .error .typeError) := by
  have hb : bound o.items (ns.length - 1) 1 = .error .typeError := by
    unfold bound
    rw [h]
  cases hrev : ns.reverse with
  | nil =>
    have hns : ns = [] := by simpa using hrev
    refine ⟨fun r hr => ?_, fun _ hne => absurd hns hne⟩
    unfold getSamplesRaw at hr
    obtain ⟨_, _, hr⟩ := Py.bind_ok.mp hr
    rw [hrev] at hr
    cases hr
  | cons n rev =>
    have hl : rev.length = ns.length - 1 := by
      have := congrArg List.length hrev
      rw [List.length_reverse, List.length_cons] at this
      omega
    constructor
    · intro r hr
      unfold getSamplesRaw at hr
      obtain ⟨_, _, hr⟩ := Py.bind_ok.mp hr
      rw [hrev] at hr
      obtain ⟨_, hr, _⟩ := Py.bind_ok.mp hr
      unfold nonNestedRaw at hr
      obtain ⟨_, _, hr⟩ := Py.bind_ok.mp hr
      rw [hl, hb] at hr
      cases hr
    · intro hk _ hrules
      have hN : nonNestedRaw E o seed n rev.length s = .error .typeError := by
        unfold nonNestedRaw drawRaw
        rw [hk, hl]
        simp only [bind, Except.bind, hb]
      unfold getSamplesRaw
      rw [hrules, hrev]
      simp only [bind, Except.bind, hN]

/-! ## C152: different numbers of variables -/

theorem mfLoopRaw_each (E : EnvAll K) (o : MFRaw K) (hn : o.nested = false) (seed : Option ℕ) :
    ∀ (rev : List ℕ) (data0 : List (List K)) (rest : List (List (List K))) (s : E.S) (r), mfLoopRaw E o seed rev data0 rest s = .ok r →
      ∀ i < rev.length, ∃ n s r, nonNestedRaw E o seed n i s = .ok r
  | [], _, _, _, _, _, i, hi => absurd hi (Nat.not_lt_zero i)
  | n :: rev, data0, rest, s, r, h, i, hi => by
    unfold mfLoopRaw at h
    obtain ⟨r1, h1, h2⟩ := Py.bind_ok.mp h
    unfold stepRaw at h1
    rw [hn] at h1
    rcases Nat.lt_or_ge i rev.length with hlt | hge
    · exact mfLoopRaw_each E o hn seed rev _ _ _ _ h2 i hlt
    · obtain rfl : i = rev.length := by
        rw [List.length_cons] at hi
        omega
      exact ⟨n, s, r1, h1⟩

/-- C152, partial: design spaces with two columns whose numbers of variables differ from that of the first one are refused where they are sampled (every fidelity; only the lowest for nested designs), unless one of the two numbers is 1.
Missing: numbers of variables 1, see the counterexamples. -/
theorem C152_partial (E : EnvAll K) (o : MFRaw K) (ns : List ℕ) (seed : Option ℕ) (s : E.S) (i : ℕ) (hi : i < ns.length) (hn : o.nested = false ∨ i = ns.length - 1)
    (rows : List (Fin 2 → K)) (h : o.items[i]? = some (.array 2 rows)) (hne : rows.length ≠ o.numDim) (h1 : rows.length ≠ 1) (h2 : o.numDim ≠ 1) (r) :
    getSamplesRaw E o ns seed s ≠ .ok r := by
  intro hr
  have key : ∃ n s r, nonNestedRaw E o seed n i s = .ok r := by
    unfold getSamplesRaw at hr
    obtain ⟨_, _, hr⟩ := Py.bind_ok.mp hr
    cases hrev : ns.reverse with
    | nil => rw [hrev] at hr; cases hr
    | cons n rev =>
      rw [hrev] at hr
      obtain ⟨r1, hr1, hr2⟩ := Py.bind_ok.mp hr
      have hl : rev.length + 1 = ns.length := by rw [← List.length_reverse (as := ns), hrev, List.length_cons]
      rcases Nat.lt_or_ge i rev.length with hlt | hge
      · exact mfLoopRaw_each E o (hn.resolve_right (by omega)) seed _ _ _ _ _ hr2 i hlt
      · obtain rfl : i = rev.length := by omega
        exact ⟨_, _, _, hr1⟩
  obtain ⟨n, s, r, hk⟩ := key
  unfold nonNestedRaw at hk
  obtain ⟨us, _, hk⟩ := Py.bind_ok.mp hk
  obtain ⟨ub, hub, hk⟩ := Py.bind_ok.mp hk
  obtain ⟨lb, hlb, hk⟩ := Py.bind_ok.mp hk
  obtain ⟨xs, hx, _⟩ := Py.bind_ok.mp hk
  unfold bound at hlb
  rw [h] at hlb
  simp only [Nat.zero_lt_succ, dif_pos] at hlb
  have hlen : lb.length = rows.length := by
    rw [← Except.ok.inj hlb, List.length_map]
  unfold scaleBroadcast at hx
  rw [if_neg (by omega)] at hx
  split at hx
  · exact h1 (by rw [← hlen]; rfl)
  · rw [if_neg h2] at hx
    cases hx

end AnyArithmetic

/-- C150, counterexample: a row with three numbers is accepted, and the bounds of two variables in one flat list are taken for those of a single variable. -/
theorem C150_counterexample :
    (mkSF (.rows [0, 1, 5] []) none >>= fun o => (lhsRaw exEnvAll o 2 none ()).map Prod.fst) = .ok [[0], [1 / 16]] ∧
    (mkSF (.flat [0, 1, 10, 20]) none >>= fun o => (lhsRaw exEnvAll o 2 none ()).map Prod.fst) = .ok [[0], [1 / 16]] ∧
    (mkSF (.rows [0, 1] [[10, 20]]) none >>= fun o => (lhsRaw exEnvAll o 2 none ()).map Prod.fst) = .ok [[0, 10], [1 / 16, 10 + 10 / 16]] := by
  refine ⟨?_, ?_, ?_⟩ <;> decide +kernel

/-- C151, counterexample: the bounds of two variables as a nested Python list, and an array without `num_fidelity`. -/
theorem C151_counterexample :
    (mkMF (K := ℚ) false (.list [.pyList 2, .pyList 2]) (some 2) false none >>= fun o => (getSamplesRaw exEnvAll o [2, 3] (some 1) ()).map Prod.fst) = .error .typeError ∧
    (mkMF (K := ℚ) false (.array 2 [![0, 1], ![0, 1]]) none false none >>= fun o => (getSamplesRaw exEnvAll o [2, 3] (some 1) ()).map Prod.fst) = .error .typeError := by
  constructor <;> decide +kernel

/-- C152, counterexamples.  First fidelity with one variable, second with two: the low-fidelity samples get two columns that are driven by the same draw, so all of them lie on a diagonal.  First fidelity with two variables, second
with one: both columns of the low-fidelity samples are scaled to the same bounds. -/
theorem C152_counterexample :
    (mkMF (K := ℚ) false (.list [.array 2 [![0, 1]], .array 2 [![0, 1], ![10, 20]]]) none false none >>= fun o => (getSamplesRaw exEnvAll o [1, 2] (some 1) ()).map Prod.fst) =
      .ok [[[0]], [[0, 10], [1 / 16, 10 + 10 / 16]]] ∧
    (mkMF (K := ℚ) false (.list [.array 2 [![0, 1], ![10, 20]], .array 2 [![0, 1]]]) none false none >>= fun o => (getSamplesRaw exEnvAll o [1, 2] (some 1) ()).map Prod.fst) =
      .ok [[[0, 10]], [[0, 0], [1 / 16, 1 / 16]]] := by
  constructor <;> decide +kernel

/-- The hypotheses of `C152_partial` are met: three and two variables. -/
example : ∀ r, getSamplesRaw exEnvAll (K := ℚ) ⟨.lhs, [.array 2 [![0, 1], ![0, 1], ![0, 1]], .array 2 [![0, 1], ![0, 1]]], 3, false⟩ [1, 2] (some 1) () ≠ .ok r :=
  C152_partial _ _ _ _ _ 1 (by decide) (Or.inl rfl) _ rfl (by decide) (by decide) (by decide)

end Mfpml.Props
