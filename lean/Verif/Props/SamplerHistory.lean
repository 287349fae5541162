import Verif.Spec.SamplerHistory
import Verif.Props.SamplerObjects

/-!
# Seeded sampler objects in programs (C174, C175)
-/

set_option linter.unusedSectionVars false

namespace Mfpml.Props

open Mfpml.Sampling Mfpml.Spec
open Mfpml.EA (Box)

section Any

variable {K : Type} [Add K] [Sub K] [Mul K] {d : ℕ} {E : Env K d}

/-- With a seed a single-fidelity sampler does not look at the generators. -/
theorem sfValues_seeded (hE : E.Contract) (k : SFKind K d) (b : Box K d) (n sd : ℕ) (s s' : E.S) : (sfValues E k b n (some sd) s).map Prod.fst = (sfValues E k b n (some sd) s').map Prod.fst := by
  cases k with
  | fixed p => rfl
  | lhs => simp only [sfValues, lhsSamples, (hE.lhs_seeded sd n s s').1, Except.map]
  | random => simp only [sfValues, randomSamples, hE.seed_reset sd s s']
  | sobol skip =>
    simp only [sfValues, sobolSamples, (hE.sobol_seeded sd s s').1]
    cases SobolEngine.randomBase2 (K := K) (d := d) { seq := (E.sobol (some sd) s').1, generated := 0 } n with
    | error e => rfl
    | ok p =>
      simp only [bind, Except.bind]
      cases ((p.2.reset).fastForward (sobolSkip d skip)).random n <;> rfl

/-- What `get_samples` of a single-fidelity sampler gives. -/
theorem sfGet_result (st : SState E) (o n : ℕ) (seed : Option ℕ) (sErr : E.S) (ob : SFObj K d) (b : Box K d) (h1 : st.sf[o]? = some ob) (h2 : st.spaceOf ob.space = some b) :
    (sstep st (.sfGet o n seed sErr)).2 = (match sfValues E ob.kind b n seed st.s with | .error e => .error e | .ok (v, _) => .ok (.array ⟨st.bufs.length, v.length⟩)) ∧
    ∀ v s', sfValues E ob.kind b n seed st.s = .ok (v, s') → (sstep st (.sfGet o n seed sErr)).1.contents ⟨st.bufs.length, v.length⟩ = v ∧ (sstep st (.sfGet o n seed sErr)).1.s = s' := by
  simp only [sstep, h1, h2]
  cases hv : sfValues E ob.kind b n seed st.s with
  | error e => exact ⟨rfl, fun v s' h => by cases h⟩
  | ok r =>
    obtain ⟨v, s'⟩ := r
    refine ⟨rfl, fun v' s'' h => ?_⟩
    obtain ⟨rfl, rfl⟩ := Prod.mk.inj (Except.ok.inj h)
    exact ⟨by simp [SState.contents], rfl⟩

/-- What `get_samples` of a multi-fidelity sampler gives. -/
theorem mfGet_result (st : SState E) (o : ℕ) (ns : List ℕ) (seed : Option ℕ) (sErr : E.S) (ob : MFObj) (h1 : st.mf[o]? = some ob) :
    (∀ e, getSamples E (st.mfSampler ob) ns seed st.s = .error e → (sstep st (.mfGet o ns seed sErr)).2 = .error e) ∧
    ∀ data left s', getSamples E (st.mfSampler ob) ns seed st.s = .ok (data, left, s') →
      ∃ as, (sstep st (.mfGet o ns seed sErr)).2 = .ok (.arrays as) ∧ as.map (sstep st (.mfGet o ns seed sErr)).1.contents = data ∧ (sstep st (.mfGet o ns seed sErr)).1.s = s' := by
  cases hv : getSamples E (st.mfSampler ob) ns seed st.s with
  | error e =>
    refine ⟨fun e' h => ?_, fun _ _ _ h => by cases h⟩
    simp only [sstep, h1, hv]
    rw [← Except.error.inj h]
  | ok r =>
    obtain ⟨data, left, s'⟩ := r
    refine ⟨(fun _ h => by cases h), fun data' left' s'' h => ?_⟩
    obtain ⟨rfl, h2⟩ := Prod.mk.inj (Except.ok.inj h)
    obtain ⟨rfl, rfl⟩ := Prod.mk.inj h2
    have hok : (sstep st (.mfGet o ns seed sErr)).2 = .ok (.arrays (mfAlloc ob.kind ob.nested data st.bufs.length).2) := by simp only [sstep, h1, hv]
    obtain ⟨ob', data', left', s'', e1, e2, e3, -⟩ := (C134_returned st).2 o ns seed sErr _ hok
    obtain rfl : ob = ob' := Option.some.inj (h1.symm.trans e1)
    rw [hv] at e2
    obtain ⟨rfl, -⟩ := Prod.mk.inj (Except.ok.inj e2)
    exact ⟨_, hok, e3, by simp only [sstep, h1, hv]⟩

/-- The sampler is still what it was after a program that does not write into its design space. -/
theorem sfIs_run {st : SState E} {o : ℕ} {kind : SFKind K d} {b : Box K d} (h : SFIs st o kind b) {ops : List (SOp E)} (hw : KeepsSFSpace st o ops) : SFIs (srun st ops).1 o kind b := by
  obtain ⟨ob, h1, h2, h3⟩ := h
  obtain ⟨ob', e1, e2, e3⟩ := srun_sf_kept st ops o ob h1
  refine ⟨ob', e1, e2.trans h2, ?_⟩
  rw [e3]
  cases hsp : ob.space with
  | own b' => rw [hsp] at h3; exact h3
  | shared i => rw [hsp] at h3; exact srun_space_kept st ops i b h3 (hw ob i h1 hsp)

theorem mfIs_run {st : SState E} {o : ℕ} {kind : Kind} {nested : Bool} {bs : List (Box K d)} (h : MFIs st o kind nested bs) {ops : List (SOp E)} (hw : KeepsMFSpaces st o ops) : MFIs (srun st ops).1 o kind nested bs := by
  obtain ⟨ob, h1, h2, h3, h4⟩ := h
  obtain ⟨ob', e1, e2, e3, e4⟩ := srun_mf_kept st ops o ob h1
  refine ⟨ob', e1, e2.trans h2, e3.trans h3, ?_⟩
  rw [e4, ← h4]
  refine List.map_congr_left fun i hi => ?_
  have : st.spaces[i]? ∈ bs.map some := h4 ▸ List.mem_map_of_mem hi
  obtain ⟨b, -, hb⟩ := List.mem_map.mp this
  rw [← hb, srun_space_kept st ops i b hb.symm (hw ob h1 i hi)]

theorem sfSamples_eq {st : SState E} {o : ℕ} {kind : SFKind K d} {b : Box K d} (h : SFIs st o kind b) (n : ℕ) (seed : Option ℕ) (sErr : E.S) : sfSamples st o n seed sErr = (sfValues E kind b n seed st.s).map Prod.fst := by
  obtain ⟨ob, h1, rfl, h3⟩ := h
  obtain ⟨e1, e2⟩ := sfGet_result st o n seed sErr ob b h1 h3
  unfold sfSamples
  cases hv : sfValues E ob.kind b n seed st.s with
  | error e =>
    rw [hv] at e1
    rw [← Prod.mk.eta (p := sstep st (.sfGet o n seed sErr)), e1]; rfl
  | ok r =>
    obtain ⟨v, s'⟩ := r
    rw [hv] at e1
    rw [← Prod.mk.eta (p := sstep st (.sfGet o n seed sErr)), e1]
    exact congrArg Except.ok (e2 v s' hv).1

theorem mfSampler_eq {st : SState E} {ob : MFObj} {bs : List (Box K d)} (h : ob.spaces.map (st.spaces[·]?) = bs.map some) : st.mfSampler ob = { kind := ob.kind, spaces := bs, nested := ob.nested } := by
  have : ob.spaces.filterMap (st.spaces[·]?) = bs := by
    have e : (ob.spaces.map (st.spaces[·]?)).filterMap id = (bs.map some).filterMap id := by rw [h]
    simpa [List.filterMap_map, Function.comp_def] using e
  unfold SState.mfSampler
  rw [this]

theorem mfSamples_eq {st : SState E} {o : ℕ} {kind : Kind} {nested : Bool} {bs : List (Box K d)} (h : MFIs st o kind nested bs) (ns : List ℕ) (seed : Option ℕ) (sErr : E.S) :
    mfSamples st o ns seed sErr = (getSamples E { kind := kind, spaces := bs, nested := nested } ns seed st.s).map Prod.fst := by
  obtain ⟨ob, h1, rfl, rfl, h4⟩ := h
  obtain ⟨e1, e2⟩ := mfGet_result st o ns seed sErr ob h1
  rw [mfSampler_eq h4] at e1 e2
  unfold mfSamples
  cases hv : getSamples E { kind := ob.kind, spaces := bs, nested := ob.nested } ns seed st.s with
  | error e => rw [← Prod.mk.eta (p := sstep st (.mfGet o ns seed sErr)), e1 e hv]; rfl
  | ok r =>
    obtain ⟨data, left, s'⟩ := r
    obtain ⟨as, g1, g2, -⟩ := e2 data left s' hv
    rw [← Prod.mk.eta (p := sstep st (.mfGet o ns seed sErr)), g1]
    exact congrArg Except.ok g2

/-- **C174 (single fidelity).** Two samplers of the same class and arguments on the same bounds, in two programs (or at two places of one program) that do whatever they like with other objects, arrays, files and the random number
generators, but do not write into the two design spaces: `get_samples` with the same number and seed gives the same samples, or the same exception. -/
theorem C174_sf (hE : E.Contract) {st st' : SState E} {o o' : ℕ} {kind : SFKind K d} {b : Box K d} (h : SFIs st o kind b) (h' : SFIs st' o' kind b) (ops ops' : List (SOp E)) (hw : KeepsSFSpace st o ops)
    (hw' : KeepsSFSpace st' o' ops') (n sd : ℕ) (sErr sErr' : E.S) : sfSamples (srun st ops).1 o n (some sd) sErr = sfSamples (srun st' ops').1 o' n (some sd) sErr' := by
  rw [sfSamples_eq (sfIs_run h hw), sfSamples_eq (sfIs_run h' hw')]
  exact sfValues_seeded hE kind b n sd _ _

/-- **C174 (multi fidelity, partial).** The same for multi-fidelity samplers.  Missing: nested Latin hypercubes (`C174_counterexample`). -/
theorem C174_mf_partial (hE : E.Contract) {st st' : SState E} {o o' : ℕ} {kind : Kind} {nested : Bool} {bs : List (Box K d)} (h : MFIs st o kind nested bs) (h' : MFIs st' o' kind nested bs)
    (hm : nested = false ∨ ∃ skip, kind = .sobol skip) (ops ops' : List (SOp E)) (hw : KeepsMFSpaces st o ops) (hw' : KeepsMFSpaces st' o' ops') (ns : List ℕ) (sd : ℕ) (sErr sErr' : E.S) :
    mfSamples (srun st ops).1 o ns (some sd) sErr = mfSamples (srun st' ops').1 o' ns (some sd) sErr' := by
  rw [mfSamples_eq (mfIs_run h hw), mfSamples_eq (mfIs_run h' hw')]
  exact C24_mf_reproducible_partial E hE _ hm ns sd _ _

/-! ## C175: seeded samples and the random numbers of the rest of the program -/

theorem sfValues_generator (hE : E.Contract) (k : SFKind K d) (hk : k ≠ .random) (b : Box K d) (n sd : ℕ) (s : E.S) {v : List (Pt K d)} {s' : E.S} (h : sfValues E k b n (some sd) s = .ok (v, s')) : s' = s := by
  cases k with
  | fixed p => exact (Prod.mk.inj (Except.ok.inj h)).2.symm
  | lhs => exact (Prod.mk.inj (Except.ok.inj h)).2.symm.trans (hE.lhs_seeded sd n s s).2
  | random => exact absurd rfl hk
  | sobol skip =>
    unfold sfValues sobolSamples at h
    obtain ⟨p, -, h⟩ := Py.bind_ok.mp h
    obtain ⟨q, -, h⟩ := Py.bind_ok.mp h
    exact (Prod.mk.inj (Except.ok.inj h)).2.symm.trans (hE.sobol_seeded sd s s).2

theorem nonNested_generator (hE : E.Contract) (m : MFSampler K d) (n fid sd : ℕ) (s : E.S) {v : List (Pt K d)} {s' : E.S} (h : nonNested E m (some sd) n fid s = .ok (v, s')) : s' = s := by
  unfold nonNested at h
  cases hk : m.kind with
  | lhs =>
    rw [hk] at h
    dsimp only at h
    split at h
    · cases h
    · exact (Prod.mk.inj (Except.ok.inj h)).2.symm.trans (hE.lhs_seeded (sd + fid) n s s).2
  | sobol skip =>
    rw [hk] at h
    obtain ⟨p, -, h⟩ := Py.bind_ok.mp h
    dsimp only at h
    split at h
    · cases h
    · exact (Prod.mk.inj (Except.ok.inj h)).2.symm.trans (hE.sobol_seeded sd s s).2

theorem mfLoop_generator (hE : E.Contract) (m : MFSampler K d) (hm : m.nested = false ∨ ∃ skip, m.kind = .sobol skip) (sd : ℕ) (rev : List ℕ) (data0 : List (Pt K d)) (rest : List (List (Pt K d))) (s : E.S)
    {r : List (List (Pt K d)) × List ℕ × E.S} (h : mfLoop E m (some sd) rev data0 rest s = .ok r) : r.2.2 = s := by
  induction rev generalizing data0 rest s with
  | nil => rw [← Except.ok.inj h]
  | cons n rev ih =>
    unfold mfLoop at h
    dsimp only at h
    split at h
    · rename_i hn
      obtain ⟨⟨v, s1⟩, h1, h⟩ := Py.bind_ok.mp h
      rcases hm with hm | ⟨skip, hm⟩
      · rw [hm] at hn; cases hn
      · unfold nestedFrom at h1
        rw [hm] at h1
        obtain rfl := (Prod.mk.inj (Except.ok.inj h1)).2
        exact ih _ _ _ h
    · obtain ⟨⟨v, s1⟩, h1, h2⟩ := Py.bind_ok.mp h
      exact (ih _ _ _ h2).trans (nonNested_generator hE m n rev.length sd s h1)

theorem getSamples_generator (hE : E.Contract) (m : MFSampler K d) (hm : m.nested = false ∨ ∃ skip, m.kind = .sobol skip) (ns : List ℕ) (sd : ℕ) (s : E.S) {r : List (List (Pt K d)) × List ℕ × E.S}
    (h : getSamples E m ns (some sd) s = .ok r) : r.2.2 = s := by
  unfold getSamples at h
  obtain ⟨-, -, h⟩ := Py.bind_ok.mp h
  split at h
  · cases h
  · obtain ⟨⟨low, s1⟩, h1, h⟩ := Py.bind_ok.mp h
    obtain ⟨⟨data, left, s2⟩, h2, h⟩ := Py.bind_ok.mp h
    rw [← Except.ok.inj h]
    have e1 := nonNested_generator hE m _ _ sd s h1
    have e2 := mfLoop_generator hE m hm sd _ _ _ _ h2
    exact e2.trans e1

/-- **C175 (single fidelity, partial).** A successful `get_samples` call with a seed leaves the random number generators of the process as they were.  Missing: `RandomSampler` (`C175_random_counterexample`). -/
theorem C175_sf_partial (hE : E.Contract) {st : SState E} {o : ℕ} {kind : SFKind K d} {b : Box K d} (h : SFIs st o kind b) (hk : kind ≠ .random) (n sd : ℕ) (sErr : E.S) {v : List (Pt K d)}
    (hv : sfSamples st o n (some sd) sErr = .ok v) : (sstep st (.sfGet o n (some sd) sErr)).1.s = st.s := by
  rw [sfSamples_eq h] at hv
  obtain ⟨ob, h1, rfl, h3⟩ := h
  cases hr : sfValues E ob.kind b n (some sd) st.s with
  | error e => rw [hr] at hv; cases hv
  | ok r =>
    obtain ⟨v, s'⟩ := r
    rw [((sfGet_result st o n (some sd) sErr ob b h1 h3).2 v s' hr).2]
    exact sfValues_generator hE ob.kind hk b n sd st.s hr

/-- **C175 (multi fidelity, partial).** The same for multi-fidelity samplers.  Missing: nested Latin hypercubes (`C175_nested_counterexample`). -/
theorem C175_mf_partial (hE : E.Contract) {st : SState E} {o : ℕ} {kind : Kind} {nested : Bool} {bs : List (Box K d)} (h : MFIs st o kind nested bs) (hm : nested = false ∨ ∃ skip, kind = .sobol skip) (ns : List ℕ) (sd : ℕ)
    (sErr : E.S) {v : List (List (Pt K d))} (hv : mfSamples st o ns (some sd) sErr = .ok v) : (sstep st (.mfGet o ns (some sd) sErr)).1.s = st.s := by
  rw [mfSamples_eq h] at hv
  obtain ⟨ob, h1, rfl, rfl, h4⟩ := h
  cases hr : getSamples E { kind := ob.kind, spaces := bs, nested := ob.nested } ns (some sd) st.s with
  | error e => rw [hr] at hv; cases hv
  | ok r =>
    obtain ⟨data, left, s'⟩ := r
    obtain ⟨as, -, -, g3⟩ := (mfGet_result st o ns (some sd) sErr ob h1).2 data left s' (by rw [mfSampler_eq h4]; exact hr)
    rw [g3]
    exact getSamples_generator hE _ hm ns sd st.s hr

end Any

/-! ## Examples and counterexamples -/

/-- A program with a nested Latin hypercube sampler and a random sampler. -/
def exHistory : List (SOp (exEnv 1)) := [.newSpace exSpace, .newMFShared false 0 (some 2) true none, .newSF .random (.shared 0), .newSF .lhs (.shared 0), .newMFShared true 0 (some 2) true none]

/-- Its state, the generators at `s`. -/
def exHistoryState (s : ℕ) : SState (exEnv 1) := (srun (sinit (fun _ => none) s) exHistory).1

/-- The hypotheses are met: samplers of all kinds, and programs in between that draw other samples, without and with a seed, write into samples, save and overwrite files. -/
example (s : ℕ) : SFIs (exHistoryState s) 0 .random exSpace ∧ SFIs (exHistoryState s) 1 .lhs exSpace ∧ MFIs (exHistoryState s) 1 (.sobol 1) true [exSpace, exSpace] ∧
    KeepsSFSpace (exHistoryState s) 0 [.sfGet 1 3 none (5 : ℕ), .mfGet 0 [1, 2] (some 3) (6 : ℕ), .write ⟨0, 3⟩ 0 ![7], .sfSave 1 "doe", .mfSave 0 "doe"] ∧
    (∃ v, sfSamples (exHistoryState s) 0 2 (some 1) (0 : ℕ) = .ok v) ∧ ∃ v, mfSamples (exHistoryState s) 1 [1, 2] (some 1) (0 : ℕ) = .ok v := by
  refine ⟨⟨_, rfl, rfl, rfl⟩, ⟨_, rfl, rfl, rfl⟩, ⟨_, rfl, rfl, rfl, rfl⟩, ?_, ⟨_, rfl⟩, _, rfl⟩
  intro ob i _ _ op hop b'
  simp only [List.mem_cons, List.not_mem_nil, or_false] at hop
  rcases hop with rfl | rfl | rfl | rfl | rfl <;> exact fun h => by cases h

/-- C174 is false for nested Latin hypercubes: the same sampler, sizes and seed give other samples after another sampler has been used. -/
theorem C174_counterexample : ∃ (E : Env ℚ 1) (st : SState E) (ops : List (SOp E)) (sErr : E.S), E.Lawful ∧ MFIs st 0 .lhs true [exSpace, exSpace] ∧ KeepsMFSpaces st 0 ops ∧
    (∃ v, mfSamples st 0 [1, 2] (some 7) sErr = .ok v) ∧ mfSamples (srun st ops).1 0 [1, 2] (some 7) sErr ≠ mfSamples st 0 [1, 2] (some 7) sErr := by
  refine ⟨exEnv 1, exHistoryState (0 : ℕ), [.sfGet 0 1 (some 0) (0 : ℕ)], (0 : ℕ), exEnv_lawful 1, ⟨_, rfl, rfl, rfl, rfl⟩, ?_, ⟨_, rfl⟩, ?_⟩
  · intro ob _ i _ op hop b'
    rw [List.mem_singleton.mp hop]
    exact fun h => by cases h
  · intro h
    have h0 := congrArg (fun l => ((l.toOption.bind List.head?).bind List.head?).map (fun p => p 0)) h
    have h1 := Option.some.inj h0
    norm_num [exSpace] at h1

/-- C175 is false for `RandomSampler`: it sets the state of numpy's global generator. -/
theorem C175_random_counterexample : ∃ (E : Env ℚ 1) (st : SState E) (sErr : E.S), E.Lawful ∧ SFIs st 0 .random exSpace ∧ (∃ v, sfSamples st 0 1 (some 7) sErr = .ok v) ∧ (sstep st (.sfGet 0 1 (some 7) sErr)).1.s ≠ st.s :=
  ⟨exEnv 1, exHistoryState (0 : ℕ), (0 : ℕ), exEnv_lawful 1, ⟨_, rfl, rfl, rfl⟩, ⟨_, rfl⟩, show (8 : ℕ) ≠ 0 by decide⟩

/-- C175 is false for nested Latin hypercubes: they draw rows from numpy's global generator. -/
theorem C175_nested_counterexample : ∃ (E : Env ℚ 1) (st : SState E) (sErr : E.S), E.Lawful ∧ MFIs st 0 .lhs true [exSpace, exSpace] ∧ (∃ v, mfSamples st 0 [1, 2] (some 7) sErr = .ok v) ∧
    (sstep st (.mfGet 0 [1, 2] (some 7) sErr)).1.s ≠ st.s :=
  ⟨exEnv 1, exHistoryState (0 : ℕ), (0 : ℕ), exEnv_lawful 1, ⟨_, rfl, rfl, rfl, rfl⟩, ⟨_, rfl⟩, show (1 : ℕ) ≠ 0 by decide⟩

end Mfpml.Props
