import Verif.Lemmas.SamplerObjects
import Verif.Props.SFSamplers
import Verif.Props.MFSamplers

/-!
# Sampler objects: saved files, shared memory, design spaces (C134-C137)
-/

namespace Mfpml.Props

open Mfpml.Sampling Mfpml.Spec
open Mfpml.EA (Box)

section Any

variable {K : Type} [Add K] [Sub K] [Mul K] {d : ℕ} {E : Env K d}

/-! ## C134: `save_data` saves the samples returned last -/

/-- C134 (single fidelity). In every program `save_data` returns normally and leaves in the file the present contents of the array that the sampler's last successful `get_samples`
returned, or a pickled `None` if there was none. -/
theorem C134_sf_save (files : String → Option (Content K d)) (s : E.S) (ops : List (SOp E)) (o : ℕ) (name : String) :
    let p := srun (sinit files s) ops
    o < p.1.sf.length →
      (sstep p.1 (.sfSave o name)).2 = .ok .unit ∧
      (sstep p.1 (.sfSave o name)).1.files (name ++ ".pickle") =
        some (match lastSF o p.2 with | none => .pickledNone | some a => .array (p.1.contents a)) := by
  intro p ho
  have h := (sInv files s ops).sf o
  rw [List.getElem?_eq_getElem ho] at h
  change (p.1.sf[o]'ho).samples = lastSF o p.2 at h
  rw [← h]
  simp only [sstep, List.getElem?_eq_getElem ho]
  cases (p.1.sf[o]'ho).samples with
  | none => exact ⟨rfl, by simp [SState.putFile]⟩
  | some a => exact ⟨rfl, by simp [SState.putFile]⟩

/-- C134 (multi fidelity). In every program, once a `get_samples` call of the sampler succeeded, `save_data` returns normally and leaves in the file the present contents of the arrays
the last such call returned. -/
theorem C134_mf_save (files : String → Option (Content K d)) (s : E.S) (ops : List (SOp E)) (o : ℕ) (name : String) (as : List ArrRef) :
    let p := srun (sinit files s) ops
    lastMF o p.2 = some as →
      (sstep p.1 (.mfSave o name)).2 = .ok .unit ∧
      (sstep p.1 (.mfSave o name)).1.files (name ++ ".pickle") = some (.arrays (as.map p.1.contents)) := by
  intro p has
  have h := (sInv files s ops).mf o
  change (p.1.mf[o]?.bind fun ob => ob.data) = lastMF o p.2 at h
  rw [has] at h
  obtain ⟨ob, h1, h2⟩ := Option.bind_eq_some_iff.mp h
  simp only [sstep, h1, h2]
  exact ⟨trivial, by simp [SState.putFile]⟩

/-- C134 (what is returned). The array returned by a successful `get_samples` call contains the samples drawn, and the arrays of a multi-fidelity call contain the samples of each
fidelity. -/
theorem C134_returned (st : SState E) :
    (∀ o n seed sErr a, (sstep st (.sfGet o n seed sErr)).2 = .ok (.array a) →
      ∃ ob b v s', st.sf[o]? = some ob ∧ st.spaceOf ob.space = some b ∧ sfValues E ob.kind b n seed st.s = .ok (v, s') ∧
        (sstep st (.sfGet o n seed sErr)).1.contents a = v ∧ (sstep st (.sfGet o n seed sErr)).1.s = s') ∧
    (∀ o ns seed sErr as, (sstep st (.mfGet o ns seed sErr)).2 = .ok (.arrays as) →
      ∃ ob data left s', st.mf[o]? = some ob ∧ getSamples E (st.mfSampler ob) ns seed st.s = .ok (data, left, s') ∧
        as.map (sstep st (.mfGet o ns seed sErr)).1.contents = data ∧ (sstep st (.mfGet o ns seed sErr)).1.s = s') := by
  constructor
  · intro o n seed sErr a h
    simp only [sstep] at h ⊢
    split at h
    · cases h
    · rename_i ob hob
      split at h
      · cases h
      · rename_i b hb
        split at h
        · cases h
        · rename_i v s' hv
          simp only [Except.ok.injEq, Ret.array.injEq] at h
          subst h
          refine ⟨ob, b, v, s', hob, hb, hv, ?_, rfl⟩
          simp [SState.contents]
  · intro o ns seed sErr as h
    simp only [sstep] at h ⊢
    split at h
    · cases h
    · rename_i ob hob
      split at h
      · cases h
      · rename_i data left s' hd
        simp only [Except.ok.injEq, Ret.arrays.injEq] at h
        subst h
        refine ⟨ob, data, left, s', hob, hd, ?_, rfl⟩
        exact mfAlloc_contents st (st.mfSampler ob) ns seed st.s hd _ rfl

theorem findSome?_append_none {α β : Type} (f : α → Option β) (l l' : List α) (h : ∀ x ∈ l, f x = none) : (l ++ l').findSome? f = l'.findSome? f := by
  rw [List.findSome?_append, List.findSome?_eq_none_iff.mpr h, Option.none_or]

/-- C134 (round trip, single fidelity). Get samples, do anything but write into them or get others from the same sampler, save, do anything but save under the same name: the file
contains the samples as they were returned. -/
theorem C134_sf_round_trip (files : String → Option (Content K d)) (s : E.S) (pre mid post : List (SOp E)) (o n : ℕ) (seed : Option ℕ) (sErr : E.S) (name : String) (a : ArrRef)
    (hget : (sstep (srun (sinit files s) pre).1 (.sfGet o n seed sErr)).2 = .ok (.array a))
    (hmid : ∀ e ∈ (srun (srun (sinit files s) (pre ++ [.sfGet o n seed sErr])).1 mid).2, returnedBySF o e = none)
    (hwrite : ∀ op ∈ mid, ¬ WritesInto a op) (hpost : ∀ op ∈ post, ¬ SavesTo (name ++ ".pickle") op) :
    (srun (sinit files s) (pre ++ [.sfGet o n seed sErr] ++ mid ++ [.sfSave o name] ++ post)).1.files (name ++ ".pickle") =
      some (.array ((srun (sinit files s) (pre ++ [.sfGet o n seed sErr])).1.contents a)) := by
  have hl : lastSF o (srun (sinit files s) (pre ++ [.sfGet o n seed sErr] ++ mid)).2 = some a := by
    rw [srun_append]
    unfold lastSF
    rw [List.reverse_append, findSome?_append_none _ _ _ (fun x hx => hmid x (List.mem_reverse.mp hx))]
    show lastSF o (srun (sinit files s) (pre ++ [.sfGet o n seed sErr])).2 = _
    rw [srun_snoc, lastSF_snoc, hget]
    simp [returnedBySF]
  have ho : o < (srun (sinit files s) (pre ++ [.sfGet o n seed sErr] ++ mid)).1.sf.length := by
    have h := (sInv files s (pre ++ [.sfGet o n seed sErr] ++ mid)).sf o
    rw [hl] at h
    obtain ⟨ob, h1, _⟩ := Option.bind_eq_some_iff.mp h
    exact (List.getElem?_eq_some_iff.mp h1).1
  have h1 := (C134_sf_save files s (pre ++ [.sfGet o n seed sErr] ++ mid) o name ho).2
  rw [hl] at h1
  have hb : a.buf < (srun (sinit files s) (pre ++ [.sfGet o n seed sErr])).1.bufs.length := by
    refine (sInv files s (pre ++ [.sfGet o n seed sErr])).bound (.sfGet o n seed sErr, .ok (.array a)) ?_ a (by simp [arraysOf])
    rw [srun_snoc, hget]; simp
  have hc : (srun (sinit files s) (pre ++ [.sfGet o n seed sErr] ++ mid)).1.contents a = (srun (sinit files s) (pre ++ [.sfGet o n seed sErr])).1.contents a := by
    rw [srun_append]
    exact srun_contents _ mid a hb hwrite
  rw [srun_append, srun_files _ post _ hpost, srun_snoc]
  rw [← hc]
  exact h1

/-- C134 (round trip, multi fidelity). -/
theorem C134_mf_round_trip (files : String → Option (Content K d)) (s : E.S) (pre mid post : List (SOp E)) (o : ℕ) (ns : List ℕ) (seed : Option ℕ) (sErr : E.S) (name : String)
    (as : List ArrRef)
    (hget : (sstep (srun (sinit files s) pre).1 (.mfGet o ns seed sErr)).2 = .ok (.arrays as))
    (hmid : ∀ e ∈ (srun (srun (sinit files s) (pre ++ [.mfGet o ns seed sErr])).1 mid).2, returnedByMF o e = none)
    (hwrite : ∀ op ∈ mid, ∀ a ∈ as, ¬ WritesInto a op) (hpost : ∀ op ∈ post, ¬ SavesTo (name ++ ".pickle") op) :
    (srun (sinit files s) (pre ++ [.mfGet o ns seed sErr] ++ mid ++ [.mfSave o name] ++ post)).1.files (name ++ ".pickle") =
      some (.arrays (as.map (srun (sinit files s) (pre ++ [.mfGet o ns seed sErr])).1.contents)) := by
  have hl : lastMF o (srun (sinit files s) (pre ++ [.mfGet o ns seed sErr] ++ mid)).2 = some as := by
    rw [srun_append]
    unfold lastMF
    rw [List.reverse_append, findSome?_append_none _ _ _ (fun x hx => hmid x (List.mem_reverse.mp hx))]
    show lastMF o (srun (sinit files s) (pre ++ [.mfGet o ns seed sErr])).2 = _
    rw [srun_snoc, lastMF_snoc, hget]
    simp [returnedByMF]
  have h1 := (C134_mf_save files s (pre ++ [.mfGet o ns seed sErr] ++ mid) o name as hl).2
  have hc : ∀ a ∈ as, (srun (sinit files s) (pre ++ [.mfGet o ns seed sErr] ++ mid)).1.contents a = (srun (sinit files s) (pre ++ [.mfGet o ns seed sErr])).1.contents a := by
    intro a ha
    rw [srun_append]
    refine srun_contents _ mid a ?_ (fun op hop => hwrite op hop a ha)
    refine (sInv files s (pre ++ [.mfGet o ns seed sErr])).bound (.mfGet o ns seed sErr, .ok (.arrays as)) ?_ a (by simpa [arraysOf] using ha)
    rw [srun_snoc, hget]; simp
  rw [srun_append, srun_files _ post _ hpost, srun_snoc, ← List.map_congr_left hc]
  exact h1

/-! ## C135: saving never destroys files -/

/-- C135 (partial). A file is changed only by a `save_data` call with its name, and the only `save_data` call that raises is that of a multi-fidelity sampler without a successful
`get_samples` call (the objects exist); that call raises `AttributeError` and leaves the file empty, whatever it contained. -/
theorem C135_files_partial (files : String → Option (Content K d)) (s : E.S) (ops : List (SOp E)) :
    let p := srun (sinit files s) ops
    (∀ op f, ¬ SavesTo f op → (sstep p.1 op).1.files f = p.1.files f) ∧
    (∀ o name, o < p.1.sf.length → (sstep p.1 (.sfSave o name)).2 = .ok .unit) ∧
    (∀ o name, o < p.1.mf.length → ((sstep p.1 (.mfSave o name)).2 = .ok .unit ↔ lastMF o p.2 ≠ none)) ∧
    (∀ o name, o < p.1.mf.length → lastMF o p.2 = none →
      (sstep p.1 (.mfSave o name)).2 = .error .attributeError ∧ (sstep p.1 (.mfSave o name)).1.files (name ++ ".pickle") = some .empty) := by
  intro p
  have hnone : ∀ o name, o < p.1.mf.length → lastMF o p.2 = none →
      (sstep p.1 (.mfSave o name)).2 = .error .attributeError ∧ (sstep p.1 (.mfSave o name)).1.files (name ++ ".pickle") = some .empty := by
    intro o name ho hl
    have h := (sInv files s ops).mf o
    rw [List.getElem?_eq_getElem ho] at h
    change (p.1.mf[o]'ho).data = lastMF o p.2 at h
    rw [hl] at h
    simp only [sstep, List.getElem?_eq_getElem ho, h]
    exact ⟨trivial, by simp [SState.putFile]⟩
  refine ⟨fun op f hf => sstep_files _ _ _ hf, fun o name ho => (C134_sf_save files s ops o name ho).1, fun o name ho => ⟨fun h hl => ?_, fun h => ?_⟩, hnone⟩
  · rw [(hnone o name ho hl).1] at h; cases h
  · obtain ⟨as, has⟩ := Option.ne_none_iff_exists'.mp h
    exact (C134_mf_save files s ops o name as has).1

/-! ## C136: the returned arrays are independent -/

/-- C136 (different calls). Arrays returned by different `get_samples` calls, of the same or of different samplers, never share memory: at no later time does a write into one of them
change the other. -/
theorem C136_calls_partial (files : String → Option (Content K d)) (s : E.S) (ops : List (SOp E)) (p q : ℕ) (e e' : SOp E × Py Ret) (hpq : p ≠ q)
    (hp : (srun (sinit files s) ops).2[p]? = some e) (hq : (srun (sinit files s) ops).2[q]? = some e')
    (a a' : ArrRef) (ha : a ∈ arraysOf e.2) (ha' : a' ∈ arraysOf e'.2) (i : ℕ) (x : Pt K d) :
    (sstep (srun (sinit files s) ops).1 (.write a i x)).1.contents a' = (srun (sinit files s) ops).1.contents a' := by
  have hI := sInv files s ops
  have hne : a.buf ≠ a'.buf := by
    obtain ⟨h1, h1'⟩ := List.getElem?_eq_some_iff.mp hp
    obtain ⟨h2, h2'⟩ := List.getElem?_eq_some_iff.mp hq
    have hs := List.pairwise_iff_getElem.mp hI.sep
    rcases Nat.lt_or_gt_of_ne hpq with h | h
    · have := hs p q h1 h2 h; rw [h1', h2'] at this; exact (this a ha a' ha').ne
    · have := hs q p h2 h1 h; rw [h1', h2'] at this; exact (this a' ha' a ha).ne'
  refine sstep_contents _ _ _ (hI.bound e' ?_ a' ha') hne
  exact List.mem_of_getElem? hq

/-- What a successful multi-fidelity call returned, in terms of its sampler's kind. -/
theorem mfGet_alloc (files : String → Option (Content K d)) (s : E.S) (pre post : List (SOp E)) (o : ℕ) (ns : List ℕ) (seed : Option ℕ) (sErr : E.S) (as : List ArrRef)
    (hget : (sstep (srun (sinit files s) pre).1 (.mfGet o ns seed sErr)).2 = .ok (.arrays as)) :
    (∀ a ∈ as, a.buf < (srun (sinit files s) (pre ++ [.mfGet o ns seed sErr] ++ post)).1.bufs.length) ∧
    ∃ ob, (srun (sinit files s) pre).1.mf[o]? = some ob ∧ ∃ data : List (List (Pt K d)), as = (mfAlloc ob.kind ob.nested data (srun (sinit files s) pre).1.bufs.length).2 ∧
      data.length = ns.length ∧ ns.Pairwise (· ≤ ·) ∧ (∀ skip, ob.kind = .sobol skip → ob.nested = true → ∀ i v w, data[i]? = some v → data[i + 1]? = some w → v.length ≤ w.length) := by
  constructor
  · intro a ha
    have h1 : a.buf < (srun (sinit files s) (pre ++ [.mfGet o ns seed sErr])).1.bufs.length := by
      refine (sInv files s (pre ++ [.mfGet o ns seed sErr])).bound (.mfGet o ns seed sErr, .ok (.arrays as)) ?_ a (by simpa [arraysOf] using ha)
      rw [srun_snoc, hget]; simp
    rw [srun_append]
    exact h1.trans_le (srun_bufs_len _ post)
  · simp only [sstep] at hget
    split at hget
    · cases hget
    · rename_i ob hob
      split at hget
      · cases hget
      · rename_i data left s' hd
        simp only [Except.ok.injEq, Ret.arrays.injEq] at hget
        obtain ⟨hp, hl, _, hpos, _, hk⟩ := getSamples_char E _ ns seed _ hd
        refine ⟨ob, hob, data, hget.symm, hl, hp, fun skip hkind hn i v w hv hw => ?_⟩
        have hi : i + 1 < ns.length := by
          rw [← hl]; exact (List.getElem?_eq_some_iff.mp hw).1
        obtain ⟨n, xs, ys, s1, s2, _, h2, h3, h4⟩ := hk i hi
        rw [hv] at h2
        rw [hw] at h3
        obtain rfl := Option.some.inj h2
        obtain rfl := Option.some.inj h3
        unfold step at h4
        rw [show ((srun (sinit files s) pre).1.mfSampler ob).nested = true from hn, if_pos rfl] at h4
        unfold nestedFrom at h4
        rw [show ((srun (sinit files s) pre).1.mfSampler ob).kind = .sobol skip from hkind] at h4
        have h6 : w.take n = v := (Prod.mk.inj (Except.ok.inj h4)).1
        rw [← h6, List.length_take]
        exact min_le_right _ _

/-- C136 (fidelities of one call). With the Latin hypercube sampler, and with the Sobol sampler unless it is nested, the arrays of the different fidelities never share memory: at no
later time does a write into one of them change another. -/
theorem C136_fidelities_partial (files : String → Option (Content K d)) (s : E.S) (pre post : List (SOp E)) (o : ℕ) (ns : List ℕ) (seed : Option ℕ) (sErr : E.S) (as : List ArrRef)
    (hget : (sstep (srun (sinit files s) pre).1 (.mfGet o ns seed sErr)).2 = .ok (.arrays as)) (ob : MFObj) (hob : (srun (sinit files s) pre).1.mf[o]? = some ob)
    (hkind : ob.kind = .lhs ∨ ob.nested = false) (k l : ℕ) (hkl : k ≠ l) (a a' : ArrRef) (ha : as[k]? = some a) (ha' : as[l]? = some a') (i : ℕ) (x : Pt K d) :
    (sstep (srun (sinit files s) (pre ++ [.mfGet o ns seed sErr] ++ post)).1 (.write a i x)).1.contents a' =
      (srun (sinit files s) (pre ++ [.mfGet o ns seed sErr] ++ post)).1.contents a' := by
  obtain ⟨hb, ob', hob', data, has, _⟩ := mfGet_alloc files s pre post o ns seed sErr as hget
  rw [hob] at hob'
  obtain rfl := Option.some.inj hob'
  refine sstep_contents _ _ _ (hb a' (List.mem_of_getElem? ha')) ?_
  have hal : as = data.mapIdx fun i v => ⟨(srun (sinit files s) pre).1.bufs.length + i, v.length⟩ := by
    rw [has]
    unfold mfAlloc
    split
    · rename_i h1 h2
      rcases hkind with h | h
      · rw [h1] at h; cases h
      · rw [h2] at h; cases h
    · rfl
  rw [hal, List.getElem?_mapIdx] at ha ha'
  obtain ⟨v, _, rfl⟩ := Option.map_eq_some_iff.mp ha
  obtain ⟨w, _, rfl⟩ := Option.map_eq_some_iff.mp ha'
  show ¬ _ + k = _ + l
  omega

/-- C136 (nested Sobol designs: what happens instead). At every later time the array of a higher fidelity consists of the first rows of the array of a lower fidelity, and a write into
one of its rows writes into that row of the other. -/
theorem C136_nested_sobol_shared (files : String → Option (Content K d)) (s : E.S) (pre post : List (SOp E)) (o : ℕ) (ns : List ℕ) (seed : Option ℕ) (sErr : E.S) (as : List ArrRef)
    (hget : (sstep (srun (sinit files s) pre).1 (.mfGet o ns seed sErr)).2 = .ok (.arrays as)) (ob : MFObj) (hob : (srun (sinit files s) pre).1.mf[o]? = some ob)
    (skip : ℕ) (hkind : ob.kind = .sobol skip) (hnested : ob.nested = true) (k l : ℕ) (hkl : k ≤ l) (a a' : ArrRef) (ha : as[k]? = some a) (ha' : as[l]? = some a') :
    let st := (srun (sinit files s) (pre ++ [.mfGet o ns seed sErr] ++ post)).1
    st.contents a <+: st.contents a' ∧
    ∀ i x, i < (st.contents a).length → (sstep st (.write a i x)).1.contents a' = (st.contents a').set i x ∧ (sstep st (.write a i x)).1.contents a = (st.contents a).set i x := by
  intro st
  obtain ⟨hb, ob', hob', data, has, _, _, hlen⟩ := mfGet_alloc files s pre post o ns seed sErr as hget
  rw [hob] at hob'
  obtain rfl := Option.some.inj hob'
  have hal : as = data.map fun v => ⟨(srun (sinit files s) pre).1.bufs.length, v.length⟩ := by
    rw [has, hkind, hnested]; rfl
  have hmono : ∀ t v w, data[k]? = some v → data[k + t]? = some w → v.length ≤ w.length := by
    intro t
    induction t with
    | zero => intro v w hv hw; rw [Nat.add_zero, hv] at hw; rw [Option.some.inj hw]
    | succ t ih =>
      intro v w hv hw
      have hi : k + t < data.length := by have := (List.getElem?_eq_some_iff.mp hw).1; omega
      exact (ih v _ hv (List.getElem?_eq_getElem hi)).trans (hlen skip hkind hnested (k + t) _ w (List.getElem?_eq_getElem hi) hw)
  have hba' := hb a' (List.mem_of_getElem? ha')
  rw [hal, List.getElem?_map] at ha ha'
  obtain ⟨v, hv, rfl⟩ := Option.map_eq_some_iff.mp ha
  obtain ⟨w, hw, rfl⟩ := Option.map_eq_some_iff.mp ha'
  have hvw := hmono (l - k) v w hv (by rwa [Nat.add_sub_cancel' hkl])
  constructor
  · exact List.take_prefix_take_left hvw
  · intro i x hi
    have hset : ∀ m, ((st.bufs.modify (srun (sinit files s) pre).1.bufs.length fun u => u.set i x)[(srun (sinit files s) pre).1.bufs.length]?.getD []).take m =
        ((st.bufs[(srun (sinit files s) pre).1.bufs.length]?.getD []).take m).set i x := by
      intro m
      rw [List.getElem?_modify_eq, List.getElem?_eq_getElem hba']
      simp [List.take_set]
    simp only [sstep, if_pos hi]
    exact ⟨hset _, hset _⟩

/-! ## C137: a sampler keeps the design space it was constructed with -/

/-- What one step can do to a single-fidelity sampler object and to a design-space array. -/
theorem sstep_sf_kept (st : SState E) (op : SOp E) (o : ℕ) (ob : SFObj K d) (h : st.sf[o]? = some ob) :
    ∃ ob', (sstep st op).1.sf[o]? = some ob' ∧ ob'.kind = ob.kind ∧ ob'.space = ob.space := by
  have hlt := (List.getElem?_eq_some_iff.mp h).1
  cases op with
  | newSpace b => exact ⟨ob, h, rfl, rfl⟩
  | writeSpace i b => simp only [sstep]; split <;> exact ⟨ob, h, rfl, rfl⟩
  | newSF k sp => exact ⟨ob, by simp only [sstep]; rw [List.getElem?_append_left hlt]; exact h, rfl, rfl⟩
  | newMFShared a b c e f => cases c <;> exact ⟨ob, h, rfl, rfl⟩
  | newMFList a b c e => simp only [sstep]; split <;> exact ⟨ob, h, rfl, rfl⟩
  | sfGet o' n seed sErr =>
    simp only [sstep]
    split
    · exact ⟨ob, h, rfl, rfl⟩
    · rename_i ob' hob
      split
      · exact ⟨ob, h, rfl, rfl⟩
      · split
        · exact ⟨ob, h, rfl, rfl⟩
        · by_cases ho : o' = o
          · subst ho
            obtain rfl := Option.some.inj (h.symm.trans hob)
            exact ⟨_, List.getElem?_set_self hlt, rfl, rfl⟩
          · exact ⟨ob, by simp only [List.getElem?_set_ne ho]; exact h, rfl, rfl⟩
  | mfGet o' ns seed sErr => simp only [sstep]; split <;> [exact ⟨ob, h, rfl, rfl⟩; (split <;> exact ⟨ob, h, rfl, rfl⟩)]
  | sfSave o' name => simp only [sstep]; split <;> [exact ⟨ob, h, rfl, rfl⟩; (split <;> exact ⟨ob, h, rfl, rfl⟩)]
  | mfSave o' name => simp only [sstep]; split <;> [exact ⟨ob, h, rfl, rfl⟩; (split <;> exact ⟨ob, h, rfl, rfl⟩)]
  | write a i x => simp only [sstep]; split <;> exact ⟨ob, h, rfl, rfl⟩

theorem sstep_mf_kept (st : SState E) (op : SOp E) (o : ℕ) (ob : MFObj) (h : st.mf[o]? = some ob) :
    ∃ ob', (sstep st op).1.mf[o]? = some ob' ∧ ob'.kind = ob.kind ∧ ob'.nested = ob.nested ∧ ob'.spaces = ob.spaces := by
  have hlt := (List.getElem?_eq_some_iff.mp h).1
  cases op with
  | newSpace b => exact ⟨ob, h, rfl, rfl, rfl⟩
  | writeSpace i b => simp only [sstep]; split <;> exact ⟨ob, h, rfl, rfl, rfl⟩
  | newSF k sp => exact ⟨ob, h, rfl, rfl, rfl⟩
  | newMFShared a b c e f =>
    cases c with
    | none => exact ⟨ob, h, rfl, rfl, rfl⟩
    | some nf => exact ⟨ob, by simp only [sstep]; rw [List.getElem?_append_left hlt]; exact h, rfl, rfl, rfl⟩
  | newMFList a b c e =>
    simp only [sstep]
    split
    · exact ⟨ob, h, rfl, rfl, rfl⟩
    · exact ⟨ob, by simp only []; rw [List.getElem?_append_left hlt]; exact h, rfl, rfl, rfl⟩
  | sfGet o' n seed sErr => simp only [sstep]; split <;> [exact ⟨ob, h, rfl, rfl, rfl⟩; (split <;> [exact ⟨ob, h, rfl, rfl, rfl⟩; (split <;> exact ⟨ob, h, rfl, rfl, rfl⟩)])]
  | mfGet o' ns seed sErr =>
    simp only [sstep]
    split
    · exact ⟨ob, h, rfl, rfl, rfl⟩
    · rename_i ob' hob
      split
      · exact ⟨ob, h, rfl, rfl, rfl⟩
      · by_cases ho : o' = o
        · subst ho
          obtain rfl := Option.some.inj (h.symm.trans hob)
          exact ⟨_, List.getElem?_set_self hlt, rfl, rfl, rfl⟩
        · exact ⟨ob, by simp only [List.getElem?_set_ne ho]; exact h, rfl, rfl, rfl⟩
  | sfSave o' name => simp only [sstep]; split <;> [exact ⟨ob, h, rfl, rfl, rfl⟩; (split <;> exact ⟨ob, h, rfl, rfl, rfl⟩)]
  | mfSave o' name => simp only [sstep]; split <;> [exact ⟨ob, h, rfl, rfl, rfl⟩; (split <;> exact ⟨ob, h, rfl, rfl, rfl⟩)]
  | write a i x => simp only [sstep]; split <;> exact ⟨ob, h, rfl, rfl, rfl⟩

theorem sstep_space_kept (st : SState E) (op : SOp E) (i : ℕ) (b : Box K d) (h : st.spaces[i]? = some b) (hw : ∀ b', op ≠ .writeSpace i b') :
    (sstep st op).1.spaces[i]? = some b := by
  have hlt := (List.getElem?_eq_some_iff.mp h).1
  cases op with
  | newSpace b => simp only [sstep]; rw [List.getElem?_append_left hlt]; exact h
  | writeSpace j b' =>
    have : j ≠ i := fun hji => hw b' (by rw [hji])
    simp only [sstep]
    split
    · simp only [List.getElem?_set_ne this]; exact h
    · exact h
  | newSF k sp => exact h
  | newMFShared a b c e f => cases c <;> exact h
  | newMFList a b c e => simp only [sstep]; split <;> exact h
  | sfGet o' n seed sErr => simp only [sstep]; split <;> [exact h; (split <;> [exact h; (split <;> exact h)])]
  | mfGet o' ns seed sErr => simp only [sstep]; split <;> [exact h; (split <;> exact h)]
  | sfSave o' name => simp only [sstep]; split <;> [exact h; (split <;> exact h)]
  | mfSave o' name => simp only [sstep]; split <;> [exact h; (split <;> exact h)]
  | write a i x => simp only [sstep]; split <;> exact h

theorem srun_sf_kept (st : SState E) (ops : List (SOp E)) (o : ℕ) (ob : SFObj K d) (h : st.sf[o]? = some ob) :
    ∃ ob', (srun st ops).1.sf[o]? = some ob' ∧ ob'.kind = ob.kind ∧ ob'.space = ob.space := by
  induction ops generalizing st ob with
  | nil => exact ⟨ob, h, rfl, rfl⟩
  | cons op ops ih =>
    obtain ⟨ob1, h1, h2, h3⟩ := sstep_sf_kept st op o ob h
    obtain ⟨ob2, h4, h5, h6⟩ := ih _ ob1 h1
    exact ⟨ob2, h4, h5.trans h2, h6.trans h3⟩

theorem srun_mf_kept (st : SState E) (ops : List (SOp E)) (o : ℕ) (ob : MFObj) (h : st.mf[o]? = some ob) :
    ∃ ob', (srun st ops).1.mf[o]? = some ob' ∧ ob'.kind = ob.kind ∧ ob'.nested = ob.nested ∧ ob'.spaces = ob.spaces := by
  induction ops generalizing st ob with
  | nil => exact ⟨ob, h, rfl, rfl, rfl⟩
  | cons op ops ih =>
    obtain ⟨ob1, h1, h2, h3, h3'⟩ := sstep_mf_kept st op o ob h
    obtain ⟨ob2, h4, h5, h6, h6'⟩ := ih _ ob1 h1
    exact ⟨ob2, h4, h5.trans h2, h6.trans h3, h6'.trans h3'⟩

theorem srun_space_kept (st : SState E) (ops : List (SOp E)) (i : ℕ) (b : Box K d) (h : st.spaces[i]? = some b) (hw : ∀ op ∈ ops, ∀ b', op ≠ .writeSpace i b') :
    (srun st ops).1.spaces[i]? = some b := by
  induction ops generalizing st with
  | nil => exact h
  | cons op ops ih => exact ih _ (sstep_space_kept st op i b h (hw op List.mem_cons_self)) (fun op' h' => hw op' (List.mem_cons_of_mem _ h'))

end Any

section Exact

variable {K : Type} [Field K] [LinearOrder K] [IsStrictOrderedRing K] {d : ℕ} {E : Env K d}

/-- C137 (single fidelity, partial). A sampler constructed from a list, or from an array that is not written to afterwards, draws all samples from the design space it was constructed
with, whatever else the program does. -/
theorem C137_sf_partial (hE : E.Lawful) (st : SState E) (kind : SFKind K d) (hkind : ∀ p, kind ≠ .fixed p) (space : SpaceOf K d) (b : Box K d) (hb : st.spaceOf space = some b)
    (hle : ∀ j, b.low j ≤ b.high j) (mid : List (SOp E)) (hw : ∀ i, space = .shared i → ∀ op ∈ mid, ∀ b', op ≠ .writeSpace i b') (n : ℕ) (seed : Option ℕ) (sErr : E.S) (a : ArrRef)
    (hget : (sstep (srun st (.newSF kind space :: mid)).1 (.sfGet st.sf.length n seed sErr)).2 = .ok (.array a)) :
    ∀ x ∈ (sstep (srun st (.newSF kind space :: mid)).1 (.sfGet st.sf.length n seed sErr)).1.contents a, InBox b.low b.high x := by
  obtain ⟨ob, b', v, s', h1, h2, h3, h4, -⟩ := (C134_returned _).1 _ _ _ _ _ hget
  rw [h4]
  obtain ⟨ob', e1, e2, e3⟩ := srun_sf_kept (sstep st (.newSF kind space)).1 mid st.sf.length ⟨kind, space, none⟩ (by simp [sstep])
  obtain rfl : ob' = ob := Option.some.inj (e1.symm.trans h1)
  have hb' : b' = b := by
    rw [e3] at h2
    cases space with
    | own b0 => exact (Option.some.inj h2).symm.trans (Option.some.inj hb)
    | shared i => exact Option.some.inj (h2.symm.trans (srun_space_kept (sstep st (.newSF kind (.shared i))).1 mid i b hb (hw i rfl)))
  subst hb'
  obtain ⟨c1, c2, c3⟩ := C15_samples_in_bounds E hE b' hle n (srun st (.newSF kind space :: mid)).1.s
  rw [e2] at h3
  unfold sfValues at h3
  cases kind with
  | fixed p => exact absurd rfl (hkind p)
  | lhs => rw [← (Prod.mk.inj (Except.ok.inj h3)).1]; exact (c1 seed).2
  | random =>
    cases seed with
    | none => cases h3
    | some sd => rw [← (Prod.mk.inj (Except.ok.inj h3)).1]; exact (c2 sd).2
  | sobol skip => exact (c3 skip seed v s' h3).2

/-- C134 (number of samples). The array a successful `get_samples(n)` call of a single-fidelity sampler object returns has exactly `n` rows, whatever the program did before; for `FixNumberSampler` all of them are
its fixed point. -/
theorem C134_rows (hE : E.Lawful) (st : SState E) (o n : ℕ) (seed : Option ℕ) (sErr : E.S) (a : ArrRef) (h : (sstep st (.sfGet o n seed sErr)).2 = .ok (.array a)) :
    ((sstep st (.sfGet o n seed sErr)).1.contents a).length = n ∧
    ∀ ob p, st.sf[o]? = some ob → ob.kind = .fixed p → ∀ x ∈ (sstep st (.sfGet o n seed sErr)).1.contents a, x = p := by
  obtain ⟨ob, b, v, s', h1, _, h3, h4, -⟩ := (C134_returned st).1 _ _ _ _ _ h
  rw [h4]
  unfold sfValues at h3
  constructor
  · cases hk : ob.kind with
    | fixed p =>
      rw [hk] at h3
      rw [← (Prod.mk.inj (Except.ok.inj h3)).1]
      exact List.length_replicate
    | lhs =>
      rw [hk] at h3
      rw [← (Prod.mk.inj (Except.ok.inj h3)).1]
      simp [lhsSamples, scaleSamples, hE.lhs_len]
    | random =>
      rw [hk] at h3
      cases seed with
      | none => cases h3
      | some sd =>
        rw [← (Prod.mk.inj (Except.ok.inj h3)).1]
        simp [randomSamples, scaleSamples, hE.random_len]
    | sobol skip =>
      rw [hk] at h3
      obtain ⟨p, e1, h3⟩ := Py.bind_ok.mp h3
      obtain ⟨q, e2, h3⟩ := Py.bind_ok.mp h3
      rw [← (Prod.mk.inj (Except.ok.inj h3)).1]
      simp [scaleSamples, (SobolEngine.random_ok _ n e2).2]
  · intro ob' p hob hp x hx
    obtain rfl : ob' = ob := Option.some.inj (hob.symm.trans h1)
    rw [hp] at h3
    rw [← (Prod.mk.inj (Except.ok.inj h3)).1] at hx
    exact List.eq_of_mem_replicate hx

theorem filterMap_replicate_some {α β : Type} (f : α → Option β) (x : α) (y : β) (h : f x = some y) (n : ℕ) : (List.replicate n x).filterMap f = List.replicate n y := by
  induction n with
  | zero => rfl
  | succ n ih => rw [List.replicate_succ, List.filterMap_cons_some h, ih, List.replicate_succ]

/-- C137 (multi fidelity with one design space, partial). The same for multi-fidelity samplers constructed from one array. -/
theorem C137_mf_partial (hE : E.Lawful) (st : SState E) (sobol : Bool) (i nf : ℕ) (nested : Bool) (numSkip : Option ℕ) (b : Box K d) (hb : st.spaces[i]? = some b)
    (hle : ∀ j, b.low j ≤ b.high j) (mid : List (SOp E)) (hw : ∀ op ∈ mid, ∀ b', op ≠ .writeSpace i b') (ns : List ℕ) (seed : Option ℕ) (sErr : E.S) (as : List ArrRef)
    (hget : (sstep (srun st (.newMFShared sobol i (some nf) nested numSkip :: mid)).1 (.mfGet st.mf.length ns seed sErr)).2 = .ok (.arrays as)) :
    ∀ a ∈ as, ∀ x ∈ (sstep (srun st (.newMFShared sobol i (some nf) nested numSkip :: mid)).1 (.mfGet st.mf.length ns seed sErr)).1.contents a, InBox b.low b.high x := by
  obtain ⟨ob, data, left, s', h1, h2, h3, -⟩ := (C134_returned _).2 _ _ _ _ _ hget
  obtain ⟨ob', e1, e2, e3, e4⟩ := srun_mf_kept (sstep st (.newMFShared sobol i (some nf) nested numSkip)).1 mid st.mf.length
    ⟨if sobol then .sobol (numSkip.getD d) else .lhs, nested, List.replicate nf i, none⟩ (by simp [sstep])
  obtain rfl : ob' = ob := Option.some.inj (e1.symm.trans h1)
  have hsp := srun_space_kept (sstep st (.newMFShared sobol i (some nf) nested numSkip)).1 mid i b hb hw
  have hm : (srun st (.newMFShared sobol i (some nf) nested numSkip :: mid)).1.mfSampler ob' = mkShared sobol b nf nested numSkip := by
    unfold SState.mfSampler mkShared
    rw [e2, e3, e4]
    congr 1
    exact filterMap_replicate_some _ i b hsp nf
  rw [hm] at h2
  have := C22_mf_bounds_shared_partial E hE sobol b hle nf nested numSkip ns seed _ h2
  intro a ha x hx
  exact this _ (by rw [← h3]; exact List.mem_map_of_mem ha) x hx

end Exact

/-! ## Examples and counterexamples -/

/-- A design space for the examples. -/
def exSpace : Box ℚ 1 := ⟨![0], ![1]⟩

/-- A program: a nested Sobol sampler, a Latin hypercube sampler, samples of both, a saved file. -/
def exProgram : List (SOp (exEnv 1)) :=
  [.newSpace exSpace, .newMFShared true 0 (some 2) true none, .newSF .lhs (.shared 0), .mfGet 0 [1, 2] (some 3) (0 : ℕ), .sfGet 0 2 (some 1) (0 : ℕ), .mfSave 0 "doe"]

/-- All calls of the example succeed and return the arrays expected; the arrays of the nested design share a block. -/
example : (srun (sinit (E := exEnv 1) (fun _ => none) (0 : ℕ)) exProgram).2.map Prod.snd =
    [.ok (.obj 0), .ok (.obj 0), .ok (.obj 0), .ok (.arrays [⟨0, 1⟩, ⟨0, 2⟩]), .ok (.array ⟨1, 2⟩), .ok .unit] := rfl

/-- The hypotheses of C134 are met by the example: after more operations the file contains the two designs. -/
example : (srun (sinit (E := exEnv 1) (fun _ => none) (0 : ℕ)) (exProgram ++ [.write ⟨0, 2⟩ 0 ![7], .sfSave 0 "other"])).1.files ("doe" ++ ".pickle") =
    some (.arrays [[fun _ => 0], [fun _ => 0, fun _ => 1 / 2]]) := by
  have h := C134_mf_round_trip (E := exEnv 1) (fun _ => none) (0 : ℕ)
    [.newSpace exSpace, .newMFShared true 0 (some 2) true none, .newSF .lhs (.shared 0)] [.sfGet 0 2 (some 1) (0 : ℕ)] [.write ⟨0, 2⟩ 0 ![7], .sfSave 0 "other"]
    0 [1, 2] (some 3) (0 : ℕ) "doe" [⟨0, 1⟩, ⟨0, 2⟩] rfl
    (by intro e he; simp [srun] at he; rw [he]; rfl) (by intro op hop a ha; simp at hop; rw [hop]; exact id)
    (by intro op hop; simp at hop; rcases hop with rfl | rfl <;> simp [SavesTo])
  refine h.trans ?_
  congr 2
  show [[_], [_, _]] = _
  congr 1
  · congr 1; funext j; fin_cases j; show ((((1 + 3) % 2 : ℕ) : ℚ) / 2 * (exSpace.high 0 - exSpace.low 0) + exSpace.low 0) = 0; norm_num [exSpace]
  · congr 2
    · funext j; fin_cases j; show ((((1 + 3) % 2 : ℕ) : ℚ) / 2 * (exSpace.high 0 - exSpace.low 0) + exSpace.low 0) = 0; norm_num [exSpace]
    · congr 1; funext j; fin_cases j; show ((((2 + 3) % 2 : ℕ) : ℚ) / 2 * (exSpace.high 0 - exSpace.low 0) + exSpace.low 0) = 1 / 2; norm_num [exSpace]

/-- Three rows of a fixed point. -/
example : ∃ a, (sstep (srun (sinit (E := exEnv 1) (fun _ => none) (0 : ℕ)) [.newSpace exSpace, .newSF (.fixed ![5]) (.shared 0)]).1 (.sfGet 0 3 (some 1) (0 : ℕ))).2 = .ok (.array a) := ⟨_, rfl⟩

/-- C135 is false: the design saved in a file is lost when a new sampler object, without samples yet, is saved under the same name; the call raises. -/
theorem C135_counterexample : ∃ (E : Env ℚ 1) (ops : List (SOp E)) (s : E.S) (vs : List (List (Pt ℚ 1))), E.Lawful ∧
    let p := srun (sinit (fun _ => none) s) ops
    p.1.files ("doe" ++ ".pickle") = some (.arrays vs) ∧
    (sstep p.1 (.mfSave 1 "doe")).2 = .error .attributeError ∧ (sstep p.1 (.mfSave 1 "doe")).1.files ("doe" ++ ".pickle") = some .empty :=
  ⟨exEnv 1, exProgram ++ [.newMFShared true 0 (some 2) true none], (0 : ℕ), _, exEnv_lawful 1, rfl, rfl, rfl⟩

/-- C136 is false for nested Sobol designs: writing into the high-fidelity samples changes the low-fidelity samples. -/
theorem C136_counterexample : ∃ (E : Env ℚ 1) (ops : List (SOp E)) (s : E.S) (a a' : ArrRef), E.Lawful ∧
    let p := srun (sinit (fun _ => none) s) ops
    (p.2[3]?.map fun e => arraysOf e.2) = some [a, a'] ∧ (sstep p.1 (.write a 0 ![5])).1.contents a' ≠ p.1.contents a' := by
  refine ⟨exEnv 1, exProgram, (0 : ℕ), ⟨0, 1⟩, ⟨0, 2⟩, exEnv_lawful 1, rfl, ?_⟩
  intro h
  have h1 : (![5] : Pt ℚ 1) = fun j => (((1 + 3) % 2 : ℕ) : ℚ) / 2 * (exSpace.high j - exSpace.low j) + exSpace.low j := (List.cons.inj h).1
  have := congrFun h1 0
  norm_num [exSpace] at this

/-- C137 is false: a sampler constructed from an array draws from the bounds the array has when samples are drawn. -/
theorem C137_counterexample : ∃ (E : Env ℚ 1) (ops : List (SOp E)) (s : E.S) (a : ArrRef), E.Lawful ∧
    let p := srun (sinit (fun _ => none) s) (.newSpace exSpace :: .newSF .lhs (.shared 0) :: ops)
    (sstep p.1 (.sfGet 0 1 (some 1) s)).2 = .ok (.array a) ∧ ∃ x ∈ (sstep p.1 (.sfGet 0 1 (some 1) s)).1.contents a, ¬ InBox exSpace.low exSpace.high x := by
  refine ⟨exEnv 1, [.writeSpace 0 ⟨![10], ![11]⟩], (0 : ℕ), ⟨0, 1⟩, exEnv_lawful 1, rfl, _, List.mem_cons_self, ?_⟩
  intro h
  have h1 := (h 0).2
  norm_num [exSpace, exEnv, scalePt] at h1

/-- The hypotheses of C137 are met: the sampler of the example program, after writes to another array. -/
example : ∃ a, (sstep (srun (srun (sinit (E := exEnv 1) (fun _ => none) (0 : ℕ)) [.newSpace exSpace, .newSpace exSpace]).1
      [.newSF .lhs (.shared 0), .writeSpace 1 ⟨![10], ![11]⟩]).1 (.sfGet 0 2 (some 1) (0 : ℕ))).2 = .ok (.array a) :=
  ⟨⟨0, 2⟩, rfl⟩

end Mfpml.Props
