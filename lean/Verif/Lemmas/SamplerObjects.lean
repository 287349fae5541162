import Verif.Spec.SamplerObjects
import Verif.Lemmas.Samplers

/-!
# Invariants of programs that use sampler objects
-/

namespace Mfpml.Sampling

open Mfpml.EA (Box)
open Mfpml.Spec

variable {K : Type} [Add K] [Sub K] [Mul K] {d : ℕ} {E : Env K d}

theorem srun_append (st : SState E) (a b : List (SOp E)) :
    srun st (a ++ b) = ((srun (srun st a).1 b).1, (srun st a).2 ++ (srun (srun st a).1 b).2) := by
  induction a generalizing st with
  | nil => simp [srun]
  | cons op a ih => simp [srun, ih]

theorem srun_snoc (st : SState E) (a : List (SOp E)) (op : SOp E) :
    srun st (a ++ [op]) = ((sstep (srun st a).1 op).1, (srun st a).2 ++ [(op, (sstep (srun st a).1 op).2)]) := by
  rw [srun_append]; rfl

theorem lastSF_snoc (o : ℕ) (tr : List (SOp E × Py Ret)) (e : SOp E × Py Ret) :
    lastSF o (tr ++ [e]) = match returnedBySF o e with | some a => some a | none => lastSF o tr := by
  unfold lastSF
  rw [List.reverse_append, List.reverse_singleton, List.singleton_append, List.findSome?_cons]
  cases returnedBySF o e <;> rfl

theorem lastMF_snoc (o : ℕ) (tr : List (SOp E × Py Ret)) (e : SOp E × Py Ret) :
    lastMF o (tr ++ [e]) = match returnedByMF o e with | some a => some a | none => lastMF o tr := by
  unfold lastMF
  rw [List.reverse_append, List.reverse_singleton, List.singleton_append, List.findSome?_cons]
  cases returnedByMF o e <;> rfl

theorem mfAlloc_bufs (kind : Kind) (nested : Bool) (data : List (List (Pt K d))) (base : ℕ) :
    ∀ a ∈ (mfAlloc kind nested data base).2, base ≤ a.buf ∧ a.buf < base + (mfAlloc kind nested data base).1.length := by
  intro a ha
  unfold mfAlloc at ha ⊢
  split at ha
  · simp only [List.mem_map] at ha
    obtain ⟨v, _, rfl⟩ := ha
    simp
  · simp only [List.mem_mapIdx] at ha
    obtain ⟨i, hi, rfl⟩ := ha
    constructor
    · simp
    · simpa using hi

/-- What one step does to the blocks of memory and which arrays it returns. -/
theorem sstep_mem (st : SState E) (op : SOp E) :
    (∃ new, (sstep st op).1.bufs = st.bufs ++ new ∧ ∀ a ∈ arraysOf (sstep st op).2, st.bufs.length ≤ a.buf ∧ a.buf < st.bufs.length + new.length) ∨
    (arraysOf (sstep st op).2 = [] ∧ ∃ a i x, op = .write a i x ∧ (sstep st op).1.bufs = st.bufs.modify a.buf fun v => v.set i x) := by
  cases op with
  | newSpace b => exact .inl ⟨[], by simp [sstep], by simp [sstep, arraysOf]⟩
  | writeSpace i b => refine .inl ⟨[], ?_, ?_⟩ <;> simp only [sstep] <;> split <;> simp [arraysOf]
  | newSF k sp => exact .inl ⟨[], by simp [sstep], by simp [sstep, arraysOf]⟩
  | newMFShared a b c e f => cases c <;> exact .inl ⟨[], by simp [sstep], by simp [sstep, arraysOf]⟩
  | newMFList a b c e => refine .inl ⟨[], ?_, ?_⟩ <;> simp only [sstep] <;> split <;> simp [arraysOf]
  | sfGet o n seed sErr =>
    left
    simp only [sstep]
    split
    · exact ⟨[], by simp, by simp [arraysOf]⟩
    · split
      · exact ⟨[], by simp, by simp [arraysOf]⟩
      · split
        · exact ⟨[], by simp, by simp [arraysOf]⟩
        · exact ⟨_, rfl, by simp [arraysOf]⟩
  | mfGet o ns seed sErr =>
    left
    simp only [sstep]
    split
    · exact ⟨[], by simp, by simp [arraysOf]⟩
    · split
      · exact ⟨[], by simp, by simp [arraysOf]⟩
      · exact ⟨_, rfl, fun a ha => mfAlloc_bufs _ _ _ _ a (by simpa [arraysOf] using ha)⟩
  | sfSave o name =>
    left
    simp only [sstep]
    split
    · exact ⟨[], by simp, by simp [arraysOf]⟩
    · split <;> exact ⟨[], by simp [SState.putFile], by simp [arraysOf]⟩
  | mfSave o name =>
    left
    simp only [sstep]
    split
    · exact ⟨[], by simp, by simp [arraysOf]⟩
    · split <;> exact ⟨[], by simp [SState.putFile], by simp [arraysOf]⟩
  | write a i x =>
    simp only [sstep]
    split
    · exact .inr ⟨by simp [arraysOf], a, i, x, rfl, rfl⟩
    · exact .inl ⟨[], by simp, by simp [arraysOf]⟩

/-- What is true after every program. -/
structure SInv (st : SState E) (tr : List (SOp E × Py Ret)) : Prop where
  sf : ∀ o, (st.sf[o]?.bind fun ob => ob.samples) = lastSF o tr
  mf : ∀ o, (st.mf[o]?.bind fun ob => ob.data) = lastMF o tr
  bound : ∀ e ∈ tr, ∀ a ∈ arraysOf e.2, a.buf < st.bufs.length
  sep : tr.Pairwise fun e e' => ∀ a ∈ arraysOf e.2, ∀ a' ∈ arraysOf e'.2, a.buf < a'.buf

theorem getElem?_snoc_bind {α β : Type} (l : List α) (x : α) (f : α → Option β) (hx : f x = none) (o : ℕ) : (l ++ [x])[o]?.bind f = l[o]?.bind f := by
  rcases Nat.lt_trichotomy o l.length with h | h | h
  · rw [List.getElem?_append_left h]
  · subst h; simp [hx]
  · rw [List.getElem?_append_right h.le, List.getElem?_eq_none (by simp; omega), List.getElem?_eq_none h.le]

theorem sstep_sf (st : SState E) (tr : List (SOp E × Py Ret)) (h : ∀ o, (st.sf[o]?.bind fun ob => ob.samples) = lastSF o tr) (op : SOp E) :
    ∀ o, ((sstep st op).1.sf[o]?.bind fun ob => ob.samples) = lastSF o (tr ++ [(op, (sstep st op).2)]) := by
  intro o
  rw [lastSF_snoc]
  cases op with
  | newSpace b => exact h o
  | writeSpace i b => simp only [sstep]; split <;> exact h o
  | newSF k sp => simpa [returnedBySF, sstep, getElem?_snoc_bind] using h o
  | newMFShared a b c e f => cases c <;> exact h o
  | newMFList a b c e => simp only [sstep]; split <;> exact h o
  | sfGet o' n seed sErr =>
    simp only [sstep]
    split
    · exact h o
    · rename_i ob hob
      split
      · exact h o
      · split
        · exact h o
        · simp only [returnedBySF]
          have hlt : o' < st.sf.length := (List.getElem?_eq_some_iff.mp hob).1
          by_cases ho : o' = o
          · subst ho; simp [hlt]
          · simp only [ho, if_false, List.getElem?_set_ne ho]; exact h o
  | mfGet o' ns seed sErr => simp only [sstep]; split <;> [exact h o; (split <;> exact h o)]
  | sfSave o' name => simp only [sstep]; split <;> [exact h o; (split <;> exact h o)]
  | mfSave o' name => simp only [sstep]; split <;> [exact h o; (split <;> exact h o)]
  | write a i x => simp only [sstep]; split <;> exact h o

theorem sstep_mf (st : SState E) (tr : List (SOp E × Py Ret)) (h : ∀ o, (st.mf[o]?.bind fun ob => ob.data) = lastMF o tr) (op : SOp E) :
    ∀ o, ((sstep st op).1.mf[o]?.bind fun ob => ob.data) = lastMF o (tr ++ [(op, (sstep st op).2)]) := by
  intro o
  rw [lastMF_snoc]
  cases op with
  | newSpace b => exact h o
  | writeSpace i b => simp only [sstep]; split <;> exact h o
  | newSF k sp => exact h o
  | newMFShared a b c e f =>
    cases c with
    | none => exact h o
    | some nf => simpa [returnedByMF, sstep, getElem?_snoc_bind] using h o
  | newMFList a b c e =>
    simp only [sstep]
    split
    · exact h o
    · simpa [returnedByMF, sstep, getElem?_snoc_bind] using h o
  | sfGet o' n seed sErr => simp only [sstep]; split <;> [exact h o; (split <;> [exact h o; (split <;> exact h o)])]
  | mfGet o' ns seed sErr =>
    simp only [sstep]
    split
    · exact h o
    · rename_i ob hob
      split
      · exact h o
      · simp only [returnedByMF]
        have hlt : o' < st.mf.length := (List.getElem?_eq_some_iff.mp hob).1
        by_cases ho : o' = o
        · subst ho; simp [hlt]
        · simp only [ho, if_false, List.getElem?_set_ne ho]; exact h o
  | sfSave o' name => simp only [sstep]; split <;> [exact h o; (split <;> exact h o)]
  | mfSave o' name => simp only [sstep]; split <;> [exact h o; (split <;> exact h o)]
  | write a i x => simp only [sstep]; split <;> exact h o

theorem sstep_bufs_len (st : SState E) (op : SOp E) : st.bufs.length ≤ (sstep st op).1.bufs.length := by
  rcases sstep_mem st op with ⟨new, h, _⟩ | ⟨_, a, i, x, _, h⟩
  · rw [h]; simp
  · rw [h]; simp

theorem sInv_step {st : SState E} {tr : List (SOp E × Py Ret)} (h : SInv st tr) (op : SOp E) : SInv (sstep st op).1 (tr ++ [(op, (sstep st op).2)]) := by
  refine ⟨sstep_sf st tr h.sf op, sstep_mf st tr h.mf op, ?_, ?_⟩
  · intro e he a ha
    rcases List.mem_append.mp he with he | he
    · exact (h.bound e he a ha).trans_le (sstep_bufs_len st op)
    · rw [List.mem_singleton] at he
      subst he
      rcases sstep_mem st op with ⟨new, h1, h2⟩ | ⟨h1, _⟩
      · rw [h1, List.length_append]; exact (h2 a ha).2
      · simp [h1] at ha
  · rw [List.pairwise_append]
    refine ⟨h.sep, List.pairwise_singleton _ _, fun e he e' he' a ha a' ha' => ?_⟩
    rw [List.mem_singleton] at he'
    subst he'
    rcases sstep_mem st op with ⟨new, h1, h2⟩ | ⟨h1, _⟩
    · exact (h.bound e he a ha).trans_le (h2 a' ha').1
    · simp [h1] at ha'

theorem sInv_run (st : SState E) (tr : List (SOp E × Py Ret)) (h : SInv st tr) (ops : List (SOp E)) : SInv (srun st ops).1 (tr ++ (srun st ops).2) := by
  induction ops generalizing st tr with
  | nil => simpa [srun] using h
  | cons op ops ih =>
    have := ih _ _ (sInv_step h op)
    simpa [srun] using this

theorem sInv_init (files : String → Option (Content K d)) (s : E.S) : SInv (sinit files s) [] :=
  ⟨fun o => by simp [sinit, lastSF], fun o => by simp [sinit, lastMF], by simp, by simp⟩

theorem sInv (files : String → Option (Content K d)) (s : E.S) (ops : List (SOp E)) : SInv (srun (sinit files s) ops).1 (srun (sinit files s) ops).2 := by
  simpa using sInv_run _ _ (sInv_init files s) ops

/-! ### Memory -/

/-- The contents of an array change only by writes into its memory. -/
theorem sstep_contents (st : SState E) (op : SOp E) (a : ArrRef) (ha : a.buf < st.bufs.length) (hw : ¬ WritesInto a op) : (sstep st op).1.contents a = st.contents a := by
  unfold SState.contents
  rcases sstep_mem st op with ⟨new, h, _⟩ | ⟨_, a', i, x, rfl, h⟩
  · rw [h, List.getElem?_append_left ha]
  · rw [h, List.getElem?_modify]
    have : a'.buf ≠ a.buf := hw
    simp [this]

theorem srun_bufs_len (st : SState E) (ops : List (SOp E)) : st.bufs.length ≤ (srun st ops).1.bufs.length := by
  induction ops generalizing st with
  | nil => exact le_rfl
  | cons op ops ih => exact (sstep_bufs_len st op).trans (ih _)

theorem srun_contents (st : SState E) (ops : List (SOp E)) (a : ArrRef) (ha : a.buf < st.bufs.length) (hw : ∀ op ∈ ops, ¬ WritesInto a op) :
    (srun st ops).1.contents a = st.contents a := by
  induction ops generalizing st with
  | nil => rfl
  | cons op ops ih =>
    show (srun (sstep st op).1 ops).1.contents a = _
    rw [ih _ (ha.trans_le (sstep_bufs_len st op)) (fun op' h => hw op' (List.mem_cons_of_mem _ h)), sstep_contents st op a ha (hw op (List.mem_cons_self))]

/-! ### Files -/

theorem sstep_files (st : SState E) (op : SOp E) (f : String) (hf : ¬ SavesTo f op) : (sstep st op).1.files f = st.files f := by
  cases op with
  | newSpace b => rfl
  | writeSpace i b => simp only [sstep]; split <;> rfl
  | newSF k sp => rfl
  | newMFShared a b c e f => cases c <;> rfl
  | newMFList a b c e => simp only [sstep]; split <;> rfl
  | sfGet o' n seed sErr => simp only [sstep]; split <;> [rfl; (split <;> [rfl; (split <;> rfl)])]
  | mfGet o' ns seed sErr => simp only [sstep]; split <;> [rfl; (split <;> rfl)]
  | sfSave o' name =>
    have : ¬ f = name ++ ".pickle" := fun h => hf h.symm
    simp only [sstep]
    split
    · rfl
    · split <;> simp [SState.putFile, this]
  | mfSave o' name =>
    have : ¬ f = name ++ ".pickle" := fun h => hf h.symm
    simp only [sstep]
    split
    · rfl
    · split <;> simp [SState.putFile, this]
  | write a i x => simp only [sstep]; split <;> rfl

theorem srun_files (st : SState E) (ops : List (SOp E)) (f : String) (hf : ∀ op ∈ ops, ¬ SavesTo f op) : (srun st ops).1.files f = st.files f := by
  induction ops generalizing st with
  | nil => rfl
  | cons op ops ih =>
    show (srun (sstep st op).1 ops).1.files f = _
    rw [ih _ (fun op' h => hf op' (List.mem_cons_of_mem _ h)), sstep_files st op f (hf op (List.mem_cons_self))]

/-! ### Multi-fidelity arrays -/

theorem nested_sobol_prefix (m : MFSampler K d) (skip : ℕ) (hk : m.kind = .sobol skip) (hm : m.nested = true) (ns : List ℕ) (seed : Option ℕ) (s : E.S)
    {data left s'} (h : getSamples E m ns seed s = .ok (data, left, s')) : ∀ v ∈ data, v = (data.getLast?.getD []).take v.length := by
  obtain ⟨_, hl, _, hpos, ⟨n, xs, s2, _, h2, _⟩, hall⟩ := getSamples_char E m ns seed s h
  have key : ∀ t k, k + t + 1 = ns.length → ∃ v, data[k]? = some v ∧ v = xs.take v.length := by
    intro t
    induction t with
    | zero =>
      intro k hk'
      obtain rfl : k = ns.length - 1 := by omega
      exact ⟨xs, h2, by simp⟩
    | succ t ih =>
      intro k hk'
      obtain ⟨n', xs', ys, s1, s2', _, h4, h5, h6⟩ := hall k (by omega)
      obtain ⟨v, hv, hv'⟩ := ih (k + 1) (by omega)
      obtain rfl : v = ys := Option.some.inj (hv.symm.trans h5)
      refine ⟨xs', h4, ?_⟩
      unfold step at h6
      rw [hm, if_pos rfl] at h6
      unfold nestedFrom at h6
      rw [hk] at h6
      have h6 : v.take n' = xs' := (Prod.mk.inj (Except.ok.inj h6)).1
      rw [← h6]
      conv_lhs => rw [hv']
      rw [List.take_take, List.length_take]
  intro v hv
  obtain ⟨k, hk', rfl⟩ := List.getElem_of_mem hv
  have hlast : data.getLast?.getD [] = xs := by rw [List.getLast?_eq_getElem?, hl, h2]; rfl
  obtain ⟨v, h1, h2⟩ := key (ns.length - 1 - k) k (by omega)
  rw [List.getElem?_eq_getElem hk'] at h1
  rw [Option.some.inj h1, hlast]
  exact h2

/-- The arrays returned contain the samples computed. -/
theorem mfAlloc_contents (st : SState E) (m : MFSampler K d) (ns : List ℕ) (seed : Option ℕ) (s : E.S) {data left s'}
    (h : getSamples E m ns seed s = .ok (data, left, s')) (st' : SState E) (hb : st'.bufs = st.bufs ++ (mfAlloc m.kind m.nested data st.bufs.length).1) :
    (mfAlloc m.kind m.nested data st.bufs.length).2.map st'.contents = data := by
  unfold mfAlloc at hb ⊢
  split at hb
  · rename_i skip hk hn
    simp only [List.map_map]
    conv_rhs => rw [← List.map_id data]
    apply List.map_congr_left
    intro v hv
    simp only [Function.comp, SState.contents, hb, id]
    rw [List.getElem?_append_right le_rfl]
    simp only [Nat.sub_self, List.getElem?_cons_zero, Option.getD_some]
    exact (nested_sobol_prefix m skip hk hn ns seed s h v hv).symm
  · apply List.ext_getElem
    · simp
    · intro i h1 h2
      simp only [List.getElem_map, List.getElem_mapIdx, SState.contents, hb]
      rw [List.getElem?_append_right (by omega)]
      simp only [Nat.add_sub_cancel_left, List.getElem?_eq_getElem h2, Option.getD_some, List.take_length]

end Mfpml.Sampling
