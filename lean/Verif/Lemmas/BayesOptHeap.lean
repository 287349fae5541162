import Verif.Spec.BayesOptHeap
import Verif.Lemmas.Py
import Verif.Lemmas.BayesOpt

/-! # Lemmas for the Bayesian optimisers with arrays in memory -/

namespace Mfpml.BOHeap

open Mfpml.BO Mfpml.Spec

variable {K : Type} [Field K] [LinearOrder K] {X S W : Type}

theorem Agree.refl {α : Type} (a : Py α) : Agree Eq a a := by
  cases a with
  | error e => exact Or.inl ⟨e, rfl, rfl⟩
  | ok x => exact Or.inr ⟨x, x, rfl, rfl, rfl⟩

theorem Agree.ok {α β : Type} {R : α → β → Prop} {x : α} {y : β} (h : R x y) : Agree R (.ok x : Py α) (.ok y : Py β) := Or.inr ⟨x, y, rfl, rfl, h⟩

theorem Agree.bind {α β γ δ : Type} {R : α → β → Prop} {R' : γ → δ → Prop} {a : Py α} {b : Py β} {f : α → Py γ} {g : β → Py δ} (h : Agree R a b)
    (hf : ∀ x y, R x y → Agree R' (f x) (g y)) : Agree R' (a >>= f) (b >>= g) := by
  rcases h with ⟨e, rfl, rfl⟩ | ⟨x, y, rfl, rfl, h⟩
  · exact Or.inl ⟨e, rfl, rfl⟩
  · exact hf x y h

theorem Agree.bind_same {α γ δ : Type} {R' : γ → δ → Prop} (a : Py α) {f : α → Py γ} {g : α → Py δ} (hf : ∀ x, a = .ok x → Agree R' (f x) (g x)) : Agree R' (a >>= f) (a >>= g) := by
  cases a with
  | error e => exact Or.inl ⟨e, rfl, rfl⟩
  | ok x => exact hf x rfl

theorem Agree.mono {α β : Type} {R R' : α → β → Prop} {a : Py α} {b : Py β} (h : Agree R a b) (hR : ∀ x y, R x y → R' x y) : Agree R' a b := by
  rcases h with h | ⟨x, y, h1, h2, h⟩
  · exact Or.inl h
  · exact Or.inr ⟨x, y, h1, h2, hR _ _ h⟩

/-! ## Memory -/

theorem rows_append_left (m l : Blocks X) {b : ℕ} (h : b < m.length) : (m ++ l : Blocks X).rows b = m.rows b := by
  unfold Blocks.rows
  rw [List.getElem?_append_left h]

theorem rows_append_length (m : Blocks X) (a : List X) (l : Blocks X) : (m ++ a :: l : Blocks X).rows m.length = a := by
  simp [Blocks.rows]

theorem rows_append_length_succ (m : Blocks X) (a a' : List X) (l : Blocks X) : (m ++ a :: a' :: l : Blocks X).rows (m.length + 1) = a' := by
  simp [Blocks.rows]

theorem lt_of_read {m : Blocks X} {r : RowRef} {x : X} (h : m.read r = some x) : r.block < m.length := by
  by_contra hc
  have : m[r.block]? = none := by simpa using hc
  simp [Blocks.read, Blocks.rows, this] at h

theorem read_append {m : Blocks X} (l : Blocks X) {r : RowRef} (h : r.block < m.length) : (m ++ l : Blocks X).read r = m.read r := by
  unfold Blocks.read
  rw [rows_append_left m l h]

theorem rows_write_ne (m : Blocks X) (r : RowRef) (x : X) {b : ℕ} (h : r.block ≠ b) : (m.write r x).rows b = m.rows b := by
  unfold Blocks.rows Blocks.write
  rw [List.getElem?_modify]
  simp [h]

theorem rows_write_eq (m : Blocks X) (r : RowRef) (x : X) : (m.write r x).rows r.block = (m.rows r.block).set r.row x := by
  unfold Blocks.rows Blocks.write
  rw [List.getElem?_modify]
  cases m[r.block]? <;> simp

theorem length_write (m : Blocks X) (r : RowRef) (x : X) : (m.write r x).length = m.length := by simp [Blocks.write]

theorem map_read_append {m : Blocks X} (l : Blocks X) {rs : List RowRef} {xs : List X} (h : rs.map m.read = xs.map some) : rs.map (m ++ l : Blocks X).read = xs.map some := by
  rw [← h]
  refine List.map_congr_left fun r hr => ?_
  have : m.read r ∈ xs.map some := h ▸ List.mem_map_of_mem hr
  obtain ⟨x, _, hx⟩ := List.mem_map.mp this
  exact read_append l (lt_of_read hx.symm)

/-! ## Single fidelity -/

/-- The arrays of a single-fidelity optimiser: one for the initial design, one for its copy, one per iteration; entry `k` of the history is a row of the initial design (`k = 0`) or of the array of its iteration. -/
structure SFHeapInv (s : SFObj K X S W) : Prop where
  init : s.initSample = 0
  sample : s.sample = s.historyBest.length
  blocks : s.blocks.length = s.historyBest.length + 1
  length : s.historyBestX.length = s.historyBest.length
  pos : 0 < s.historyBest.length
  refs : ∀ k r, s.historyBestX[k]? = some r → r.block = if k = 0 then 0 else k + 1
  last : s.historyBestX[s.historyBest.length - 1]? = some s.bestX

theorem sfHeapInv_new {p : SFProblem K X S W} {rng : W} {s : SFObj K X S W} (h : sfNew p rng = .ok s) : SFHeapInv s := by
  obtain ⟨⟨sample, rng'⟩, h1, h⟩ := Py.bind_ok.mp h
  obtain ⟨response, h2, h⟩ := Py.bind_ok.mp h
  obtain ⟨⟨su, rng2⟩, h3, h⟩ := Py.bind_ok.mp h
  obtain ⟨best, h4, h⟩ := Py.bind_ok.mp h
  obtain ⟨i, h5, h⟩ := Py.bind_ok.mp h
  obtain ⟨x, h6, h⟩ := Py.bind_ok.mp h
  cases h
  refine ⟨rfl, rfl, rfl, rfl, Nat.one_pos, ?_, rfl⟩
  intro k r hk
  rcases k.eq_zero_or_eq_succ_pred with rfl | hk0
  · simp at hk; subst hk; rfl
  · rw [hk0] at hk; simp at hk

/-- What one iteration does to the object. -/
theorem sfIterate_ok {p : SFProblem K X S W} {s s' : SFObj K X S W} (h : sfIterate p s = .ok s') :
    ∃ i sample, s'.initSample = s.initSample ∧ s'.sample = s.blocks.length ∧ s'.blocks = s.blocks ++ [sample] ∧ s'.bestX = ⟨s.blocks.length, i⟩ ∧
      s'.historyBestX = s.historyBestX ++ [s'.bestX] ∧ s'.historyBest = s.historyBest ++ [s'.best] ∧ npArgmin s'.response = .ok i := by
  obtain ⟨⟨x, rng'⟩, h1, h⟩ := Py.bind_ok.mp h
  obtain ⟨y, h2, h⟩ := Py.bind_ok.mp h
  obtain ⟨⟨su, rng2⟩, h3, h⟩ := Py.bind_ok.mp h
  obtain ⟨best, h4, h⟩ := Py.bind_ok.mp h
  obtain ⟨i, h5, h⟩ := Py.bind_ok.mp h
  obtain ⟨_, h6, h⟩ := Py.bind_ok.mp h
  cases h
  exact ⟨i, _, rfl, rfl, rfl, rfl, rfl, rfl, h5⟩

theorem sfHeapInv_iterate {p : SFProblem K X S W} {s s' : SFObj K X S W} (hs : SFHeapInv s) (h : sfIterate p s = .ok s') : SFHeapInv s' := by
  obtain ⟨i, sample, h1, h2, h3, h4, h5, h6, _⟩ := sfIterate_ok h
  refine ⟨h1.trans hs.init, ?_, ?_, ?_, ?_, ?_, ?_⟩
  · rw [h2, h6, hs.blocks]; simp
  · rw [h3, h6]; simp [hs.blocks]
  · rw [h5, h6]; simp [hs.length]
  · rw [h6]; simp
  · intro k r hk
    rw [h5] at hk
    rcases lt_or_ge k s.historyBestX.length with hlt | hge
    · rw [List.getElem?_append_left hlt] at hk
      exact hs.refs k r hk
    · rw [List.getElem?_append_right hge] at hk
      have hk' : k = s.historyBestX.length := by
        by_contra hne
        have : k - s.historyBestX.length ≠ 0 := by omega
        obtain ⟨j, hj⟩ := Nat.exists_eq_succ_of_ne_zero this
        rw [hj] at hk; simp at hk
      subst hk'
      simp at hk
      subst hk
      have := hs.pos
      have h7 := hs.length
      rw [if_neg (by omega), h4]
      show s.blocks.length = _
      rw [hs.blocks, h7]
  · rw [h6, h5]
    simp [← hs.length]

theorem sfHeapInv_loop {p : SFProblem K X S W} {stop : K} : ∀ {k : ℕ} {s s' : SFObj K X S W}, SFHeapInv s → sfLoop p stop k s = .ok s' → SFHeapInv s' := by
  intro k
  induction k with
  | zero => intro s s' hs h; cases h; exact hs
  | succ k ih =>
    intro s s' hs h
    unfold sfLoop at h
    split at h
    · obtain ⟨t, h1, h2⟩ := Py.bind_ok.mp h
      exact ih (sfHeapInv_iterate hs h1) h2
    · cases h; exact hs

theorem sfHeapInv_write {s : SFObj K X S W} (hs : SFHeapInv s) (r : RowRef) (x : X) : SFHeapInv { s with blocks := s.blocks.write r x } :=
  ⟨hs.init, hs.sample, (length_write _ _ _).trans hs.blocks, hs.length, hs.pos, hs.refs, hs.last⟩

theorem sfHeapInv_step {p : SFProblem K X S W} {s s' : SFObj K X S W} {o : SFOp K X} (hs : SFHeapInv s) (h : sfStep p s o = .ok s') : SFHeapInv s' := by
  cases o with
  | run k stop => exact sfHeapInv_loop hs h
  | writeHistory k x =>
    simp only [sfStep] at h
    split at h <;> cases h
    · exact sfHeapInv_write hs _ _
    · exact hs
  | writeBest x => cases h; exact sfHeapInv_write hs _ _

theorem sfHeapInv_exec {p : SFProblem K X S W} {ops : List (SFOp K X)} : ∀ {s s' : SFObj K X S W}, SFHeapInv s → sfExec p ops s = .ok s' → SFHeapInv s' := by
  induction ops with
  | nil => intro s s' hs h; cases h; exact hs
  | cons o l ih =>
    intro s s' hs h
    obtain ⟨t, h1, h2⟩ := Py.bind_ok.mp h
    exact ih (sfHeapInv_step hs h1) h2

/-- An iteration depends on the record only. -/
theorem sfIterate_agree (p : SFProblem K X S W) {s t : SFObj K X S W} (h : sfRecord s = sfRecord t) : Agree (fun a b => sfRecord a = sfRecord b) (sfIterate p s) (sfIterate p t) := by
  simp only [sfRecord, SFRecord.mk.injEq] at h
  obtain ⟨h1, h2, h3, h4, h5, h6, h7⟩ := h
  unfold sfIterate
  rw [h1, h2, h4, h5, h6, h7]
  refine Agree.bind_same _ fun a _ => ?_
  refine Agree.bind_same _ fun y _ => ?_
  refine Agree.bind_same _ fun a' _ => ?_
  refine Agree.bind_same _ fun best _ => ?_
  refine Agree.bind_same _ fun i _ => ?_
  refine Agree.bind_same _ fun _ _ => ?_
  refine Agree.ok ?_
  simp only [sfRecord, rows_append_length]

theorem sfLoop_agree (p : SFProblem K X S W) (stop : K) : ∀ (k : ℕ) {s t : SFObj K X S W}, sfRecord s = sfRecord t →
    Agree (fun a b => sfRecord a = sfRecord b) (sfLoop p stop k s) (sfLoop p stop k t) := by
  intro k
  induction k with
  | zero => intro s t h; exact Agree.ok h
  | succ k ih =>
    intro s t h
    have hb : s.best = t.best := congrArg SFRecord.best h
    unfold sfLoop
    rw [hb]
    split
    · exact Agree.bind (sfIterate_agree p h) fun a b hab => ih hab
    · exact Agree.ok h

/-- An iteration of the object shows the iteration of the values. -/
theorem sfIterate_shows (p : SFProblem K X S W) {s : SFObj K X S W} {v : SFState K X S W} (hs : SFHeapInv s) (h : SFShows s v) :
    Agree SFShows (sfIterate p s) (p.iterate v) := by
  unfold sfIterate SFProblem.iterate
  rw [h.surrogate, h.rng, h.sample, h.response, h.historyBest, h.calls]
  refine Agree.bind_same _ fun a _ => ?_
  refine Agree.bind_same _ fun y _ => ?_
  refine Agree.bind_same _ fun a' _ => ?_
  refine Agree.bind_same _ fun best _ => ?_
  refine Agree.bind_same _ fun i _ => ?_
  refine Agree.bind_same _ fun x hx => ?_
  have hx := npRow_ok.mp hx
  have hr : ∀ l : List X, l[i]? = some x → (s.blocks ++ [l] : Blocks X).read ⟨s.blocks.length, i⟩ = some x := fun l hl => by
    simp only [Blocks.read, rows_append_length, hl]
  refine Agree.ok ⟨?_, h.initResponse, ?_, rfl, rfl, rfl, hr _ hx, rfl, ?_, rfl, rfl⟩
  · have := hs.blocks
    rw [← h.initSample]
    exact rows_append_left _ _ (by rw [hs.init]; omega)
  · exact rows_append_length _ _ _
  · rw [List.map_append, List.map_append, map_read_append _ h.historyBestX]
    simp only [List.map_cons, List.map_nil, hr _ hx]

theorem sfLoop_shows (p : SFProblem K X S W) (stop : K) : ∀ (k : ℕ) {s : SFObj K X S W} {v : SFState K X S W}, SFHeapInv s → SFShows s v →
    Agree (fun a b => SFHeapInv a ∧ SFShows a b) (sfLoop p stop k s) (p.loop stop k v) := by
  intro k
  induction k with
  | zero => intro s v hs h; exact Agree.ok ⟨hs, h⟩
  | succ k ih =>
    intro s v hs h
    unfold sfLoop SFProblem.loop
    rw [h.best]
    split
    · rcases sfIterate_shows p hs h with ⟨e, h1, h2⟩ | ⟨a, b, h1, h2, h3⟩
      · exact Or.inl ⟨e, by rw [h1]; rfl, by rw [h2]; rfl⟩
      · rw [h1, h2]
        exact ih (sfHeapInv_iterate hs h1) h3
    · exact Agree.ok ⟨hs, h⟩

theorem sfNew_shows (p : SFProblem K X S W) (rng : W) : Agree (fun a b => SFHeapInv a ∧ SFShows a b) (sfNew p rng) (p.new rng) := by
  have : Agree SFShows (sfNew p rng) (p.new rng) := by
    unfold sfNew SFProblem.new
    refine Agree.bind_same _ fun a _ => ?_
    refine Agree.bind_same _ fun y _ => ?_
    refine Agree.bind_same _ fun a' _ => ?_
    refine Agree.bind_same _ fun best _ => ?_
    refine Agree.bind_same _ fun i _ => ?_
    refine Agree.bind_same _ fun x hx => ?_
    have hx := npRow_ok.mp hx
    exact Agree.ok ⟨rfl, rfl, rfl, rfl, rfl, rfl, hx, rfl, congrArg (fun z => [z]) hx, rfl, rfl⟩
  rcases this with h | ⟨a, b, h1, h2, h3⟩
  · exact Or.inl h
  · exact Or.inr ⟨a, b, h1, h2, sfHeapInv_new h1, h3⟩

/-! ## Multi-fidelity -/

/-- Where the arrays of a multi-fidelity optimiser are: a view of the incumbent is never a row of the low-fidelity samples, and a row of the high-fidelity samples only as long as these are the initial design. -/
structure MFHeapInv (s : MFObj K X S W) : Prop where
  initH : s.initSampleH = 0
  initL : s.initSampleL = 1
  two : 2 ≤ s.blocks.length
  ltH : s.sampleH < s.blocks.length
  ltL : s.sampleL < s.blocks.length
  posL : s.sampleL ≠ 0
  refs : ∀ r ∈ s.historyBestX, r.block < s.blocks.length ∧ r.block ≠ s.sampleL ∧ (r.block = s.sampleH → s.sampleH = 0)
  last : s.bestX ∈ s.historyBestX
  order : 0 ∈ s.fidelityOrder ↔ s.sampleH ≠ 0

theorem mfHeapInv_new {p : MFProblem K X S W} {rng : W} {s : MFObj K X S W} (h : mfNew p rng = .ok s) : MFHeapInv s := by
  obtain ⟨⟨sample, rng'⟩, h1, h⟩ := Py.bind_ok.mp h
  obtain ⟨response, h2, h⟩ := Py.bind_ok.mp h
  obtain ⟨su0, h0, h⟩ := Py.bind_ok.mp h
  obtain ⟨⟨su, rng2⟩, h3, h⟩ := Py.bind_ok.mp h
  obtain ⟨best, h4, h⟩ := Py.bind_ok.mp h
  obtain ⟨i, h5, h⟩ := Py.bind_ok.mp h
  obtain ⟨x, h6, h⟩ := Py.bind_ok.mp h
  cases h
  exact ⟨rfl, rfl, le_refl _, by simp, by simp, by simp, by simp, by simp, by simp⟩

theorem mfHeapInv_iterate {p : MFProblem K X S W} {cr : K} {s s' : MFObj K X S W} (hs : MFHeapInv s) (h : mfIterate p cr s = .ok s') : MFHeapInv s' := by
  obtain ⟨⟨⟨x, fid⟩, rng'⟩, h1, h⟩ := Py.bind_ok.mp h
  have hlen := hs.two
  have hH := hs.ltH
  have hL := hs.ltL
  have hold : ∀ r ∈ s.historyBestX, r.block < s.blocks.length + 2 := fun r hr => by have := (hs.refs r hr).1; omega
  by_cases hf : fid = 0
  · subst hf
    simp only [if_true] at h
    obtain ⟨⟨t, y⟩, h2, h⟩ := Py.bind_ok.mp h
    obtain ⟨y', h3, h2⟩ := Py.bind_ok.mp h2
    cases h2
    obtain ⟨⟨su, rng2⟩, h4, h⟩ := Py.bind_ok.mp h
    obtain ⟨⟨best, bestX⟩, h5, h⟩ := Py.bind_ok.mp h
    obtain ⟨y0, h6, h5⟩ := Py.bind_ok.mp h5
    have hb : bestX ∈ s.historyBestX ∨ bestX.block = s.blocks.length := by
      split at h5 <;> cases h5
      · exact Or.inr rfl
      · exact Or.inl hs.last
    cases h
    refine ⟨hs.initH, hs.initL, ?_, ?_, ?_, hs.posL, ?_, ?_, ?_⟩
    · simp
    · simp
    · simp; omega
    · intro r hr
      rcases List.mem_append.mp hr with hr | hr
      · have := hs.refs r hr
        refine ⟨by simp; omega, this.2.1, fun he => ?_⟩
        have he : r.block = s.blocks.length + 1 := he
        omega
      · cases List.mem_singleton.mp hr
        rcases hb with hb | hb
        · have := hs.refs _ hb
          refine ⟨by simp; omega, this.2.1, fun he => ?_⟩
          have he : bestX.block = s.blocks.length + 1 := he
          omega
        · refine ⟨by simp; omega, ?_, fun he => ?_⟩
          · show bestX.block ≠ s.sampleL
            omega
          · have he : bestX.block = s.blocks.length + 1 := he
            omega
    · simp
    · simp
  · simp only [if_neg hf] at h
    obtain ⟨⟨t, y⟩, h2, h⟩ := Py.bind_ok.mp h
    obtain ⟨y', h3, h2⟩ := Py.bind_ok.mp h2
    cases h2
    obtain ⟨⟨su, rng2⟩, h4, h⟩ := Py.bind_ok.mp h
    cases h
    refine ⟨hs.initH, hs.initL, ?_, ?_, ?_, ?_, ?_, ?_, ?_⟩
    · simp
    · simp; omega
    · simp
    · simp
    · intro r hr
      have hr : r ∈ s.historyBestX := by
        rcases List.mem_append.mp hr with hr | hr
        · exact hr
        · cases List.mem_singleton.mp hr
          exact hs.last
      have := hs.refs r hr
      refine ⟨by simp; omega, ?_, this.2.2⟩
      show r.block ≠ s.blocks.length + 1
      omega
    · simp
    · show (0 : ℤ) ∈ s.fidelityOrder ++ [fid] ↔ s.sampleH ≠ 0
      rw [← hs.order]
      simp [Ne.symm hf]

theorem mfHeapInv_loop {p : MFProblem K X S W} {cr stop : K} : ∀ {k : ℕ} {s s' : MFObj K X S W}, MFHeapInv s → mfLoop p cr stop k s = .ok s' → MFHeapInv s' := by
  intro k
  induction k with
  | zero => intro s s' hs h; cases h; exact hs
  | succ k ih =>
    intro s s' hs h
    unfold mfLoop at h
    split at h
    · obtain ⟨t, h1, h2⟩ := Py.bind_ok.mp h
      exact ih (mfHeapInv_iterate hs h1) h2
    · cases h; exact hs

theorem mfHeapInv_write {s : MFObj K X S W} (hs : MFHeapInv s) (r : RowRef) (x : X) : MFHeapInv { s with blocks := s.blocks.write r x } := by
  have h := length_write s.blocks r x
  refine ⟨hs.initH, hs.initL, h ▸ hs.two, h ▸ hs.ltH, h ▸ hs.ltL, hs.posL, fun r' hr => ?_, hs.last, hs.order⟩
  exact ⟨h ▸ (hs.refs r' hr).1, (hs.refs r' hr).2⟩

theorem mfHeapInv_step {p : MFProblem K X S W} {s s' : MFObj K X S W} {o : MFOp K X} (hs : MFHeapInv s) (h : mfStep p s o = .ok s') : MFHeapInv s' := by
  cases o with
  | run k cr stop => exact mfHeapInv_loop hs h
  | writeHistory k x =>
    simp only [mfStep] at h
    split at h <;> cases h
    · exact mfHeapInv_write hs _ _
    · exact hs
  | writeBest x => cases h; exact mfHeapInv_write hs _ _

theorem mfHeapInv_exec {p : MFProblem K X S W} {ops : List (MFOp K X)} : ∀ {s s' : MFObj K X S W}, MFHeapInv s → mfExec p ops s = .ok s' → MFHeapInv s' := by
  induction ops with
  | nil => intro s s' hs h; cases h; exact hs
  | cons o l ih =>
    intro s s' hs h
    obtain ⟨t, h1, h2⟩ := Py.bind_ok.mp h
    exact ih (mfHeapInv_step hs h1) h2

theorem mfIterate_agree (p : MFProblem K X S W) (cr : K) {s t : MFObj K X S W} (hs : MFHeapInv s) (ht : MFHeapInv t) (h : mfRecord s = mfRecord t) :
    Agree (fun a b => mfRecord a = mfRecord b) (mfIterate p cr s) (mfIterate p cr t) := by
  simp only [mfRecord, MFRecord.mk.injEq] at h
  obtain ⟨h1, h2, h3, h4, h5, h6, h7, h8, h9, h10⟩ := h
  unfold mfIterate
  rw [h5, h8, h9]
  refine Agree.bind_same _ fun a _ => ?_
  obtain ⟨⟨x, fid⟩, rng⟩ := a
  by_cases hf : fid = 0
  · subst hf
    simp only [if_true]
    refine Agree.bind (R := fun a b => mfRecord a.1 = mfRecord b.1 ∧ a.2 = b.2) ?_ ?_
    · refine Agree.bind_same _ fun y _ => Agree.ok ⟨?_, rfl⟩
      simp only [mfRecord, rows_append_length_succ, rows_append_left _ _ hs.ltL, rows_append_left _ _ ht.ltL, h1, h2, h3, h4, h5, h6, h7, h8, h9, h10]
    · rintro ⟨s', y⟩ ⟨t', y'⟩ ⟨hr, hy⟩
      simp only [mfRecord, MFRecord.mk.injEq] at hr
      obtain ⟨h1, h2, h3, h4, h5, h6, h7, h8, h9, h10⟩ := hr
      simp only at hy
      subst hy
      simp only [h1, h2, h3, h4, h5, h6, h7, h8, h9, h10]
      refine Agree.bind_same _ fun a _ => ?_
      refine Agree.bind (R := fun a b => a.1 = b.1) ?_ ?_
      · refine Agree.bind_same _ fun y0 _ => ?_
        split
        · exact Agree.ok rfl
        · exact Agree.ok rfl
      · rintro ⟨b, bx⟩ ⟨b', bx'⟩ hb
        simp only at hb
        subst hb
        refine Agree.ok ?_
        simp only [mfRecord, h1, h2]
  · simp only [if_neg hf]
    refine Agree.bind (R := fun a b => mfRecord a.1 = mfRecord b.1 ∧ a.2 = b.2) ?_ ?_
    · refine Agree.bind_same _ fun y _ => Agree.ok ⟨?_, rfl⟩
      simp only [mfRecord, rows_append_length_succ, rows_append_left _ _ hs.ltH, rows_append_left _ _ ht.ltH, h1, h2, h3, h4, h5, h6, h7, h8, h9, h10]
    · rintro ⟨s', y⟩ ⟨t', y'⟩ ⟨hr, hy⟩
      simp only [mfRecord, MFRecord.mk.injEq] at hr
      obtain ⟨h1, h2, h3, h4, h5, h6, h7, h8, h9, h10⟩ := hr
      simp only at hy
      subst hy
      simp only [h1, h2, h3, h4, h5, h6, h7, h8, h9, h10]
      refine Agree.bind_same _ fun a _ => ?_
      refine Agree.ok ?_
      simp only [mfRecord, h1, h2, h5]

theorem mfLoop_agree (p : MFProblem K X S W) (cr stop : K) : ∀ (k : ℕ) {s t : MFObj K X S W}, MFHeapInv s → MFHeapInv t → mfRecord s = mfRecord t →
    Agree (fun a b => mfRecord a = mfRecord b) (mfLoop p cr stop k s) (mfLoop p cr stop k t) := by
  intro k
  induction k with
  | zero => intro s t _ _ h; exact Agree.ok h
  | succ k ih =>
    intro s t hs ht h
    have hb : s.best = t.best := congrArg MFRecord.best h
    unfold mfLoop
    rw [hb]
    split
    · rcases mfIterate_agree p cr hs ht h with ⟨e, h1, h2⟩ | ⟨a, b, h1, h2, h3⟩
      · exact Or.inl ⟨e, by rw [h1]; rfl, by rw [h2]; rfl⟩
      · rw [h1, h2]
        exact ih (mfHeapInv_iterate hs h1) (mfHeapInv_iterate ht h2) h3
    · exact Agree.ok h

theorem mfIterate_shows (p : MFProblem K X S W) (cr : K) {s : MFObj K X S W} {v : MFState K X S W} (hs : MFHeapInv s) (h : MFShows s v) :
    Agree MFShows (mfIterate p cr s) (p.iterate cr v) := by
  unfold mfIterate MFProblem.iterate
  rw [h.surrogate, h.rng, h.best]
  refine Agree.bind_same _ fun a _ => ?_
  obtain ⟨⟨x, fid⟩, rng⟩ := a
  have htwo := hs.two
  have hi1 : ∀ l, (s.blocks ++ l : Blocks X).rows s.initSampleH = s.blocks.rows s.initSampleH := fun l => rows_append_left _ _ (by rw [hs.initH]; omega)
  have hi2 : ∀ l, (s.blocks ++ l : Blocks X).rows s.initSampleL = s.blocks.rows s.initSampleL := fun l => rows_append_left _ _ (by rw [hs.initL]; omega)
  have hread : ∀ l, (s.blocks ++ l : Blocks X).read s.bestX = some v.bestX := fun l => (read_append l (hs.refs _ hs.last).1).trans h.bestX
  by_cases hf : fid = 0
  · subst hf
    simp only [if_true]
    refine Agree.bind (R := fun a b => MFShows a.1 b.1 ∧ a.2 = b.2 ∧ a.1.blocks.read ⟨s.blocks.length, 0⟩ = some x) ?_ ?_
    · refine Agree.bind_same _ fun y _ => Agree.ok ⟨?_, rfl, ?_⟩
      · refine ⟨?_, ?_, ?_, ?_, h.responseL, rfl, rfl, hread _, h.historyBest, map_read_append _ h.historyBestX, h.fidelityOrder, rfl, ?_⟩
        · rw [← h.initSample]; simp only [hi1, hi2]
        · simp only [rows_append_length_succ, h.sampleH]
        · simp only [rows_append_left _ _ hs.ltL, h.sampleL]
        · simp only [h.responseH]
        · simp only [h.calls]
      · simp [Blocks.read, rows_append_length]
    · rintro ⟨s', y⟩ ⟨v', y'⟩ ⟨hr, hy, hx⟩
      simp only at hr hy hx
      subst hy
      simp only [hr.sampleH, hr.sampleL, hr.responseH, hr.responseL, hr.surrogate]
      refine Agree.bind_same _ fun a _ => ?_
      unfold mfUpdatePara
      simp only [if_true]
      refine Agree.bind (R := fun a b => a.1 = b.1 ∧ s'.blocks.read a.2 = some b.2) ?_ ?_
      · refine Agree.bind_same _ fun y0 _ => ?_
        rw [hr.best]
        split
        · exact Agree.ok ⟨rfl, hx⟩
        · exact Agree.ok ⟨rfl, hr.bestX⟩
      · rintro ⟨b, bx⟩ ⟨b', bx'⟩ ⟨hb, hbx⟩
        simp only at hb hbx
        subst hb
        refine Agree.ok ⟨hr.initSample, hr.sampleH, hr.sampleL, rfl, rfl, rfl, rfl, hbx, ?_, ?_, ?_, rfl, hr.calls⟩
        · simp only [hr.historyBest]
        · simp only [List.map_append, hr.historyBestX, List.map_cons, List.map_nil, hbx]
        · simp only [hr.fidelityOrder]
  · simp only [if_neg hf]
    refine Agree.bind (R := fun a b => MFShows a.1 b.1 ∧ a.2 = b.2) ?_ ?_
    · refine Agree.bind_same _ fun y _ => Agree.ok ⟨?_, rfl⟩
      refine ⟨?_, ?_, ?_, h.responseH, ?_, rfl, rfl, hread _, h.historyBest, map_read_append _ h.historyBestX, h.fidelityOrder, rfl, ?_⟩
      · rw [← h.initSample]; simp only [hi1, hi2]
      · simp only [rows_append_left _ _ hs.ltH, h.sampleH]
      · simp only [rows_append_length_succ, h.sampleL]
      · simp only [h.responseL]
      · simp only [h.calls]
    · rintro ⟨s', y⟩ ⟨v', y'⟩ ⟨hr, hy⟩
      simp only at hr hy
      subst hy
      simp only [hr.sampleH, hr.sampleL, hr.responseH, hr.responseL, hr.surrogate]
      refine Agree.bind_same _ fun a _ => ?_
      unfold mfUpdatePara
      simp only [if_neg hf]
      refine Agree.ok ⟨hr.initSample, hr.sampleH, hr.sampleL, rfl, rfl, rfl, hr.best, hr.bestX, ?_, ?_, ?_, rfl, hr.calls⟩
      · simp only [hr.historyBest, hr.best]
      · simp only [List.map_append, hr.historyBestX, List.map_cons, List.map_nil, hr.bestX]
      · simp only [hr.fidelityOrder]

theorem mfLoop_shows (p : MFProblem K X S W) (cr stop : K) : ∀ (k : ℕ) {s : MFObj K X S W} {v : MFState K X S W}, MFHeapInv s → MFShows s v →
    Agree (fun a b => MFHeapInv a ∧ MFShows a b) (mfLoop p cr stop k s) (p.loop cr stop k v) := by
  intro k
  induction k with
  | zero => intro s v hs h; exact Agree.ok ⟨hs, h⟩
  | succ k ih =>
    intro s v hs h
    unfold mfLoop MFProblem.loop
    rw [h.best]
    split
    · rcases mfIterate_shows p cr hs h with ⟨e, h1, h2⟩ | ⟨a, b, h1, h2, h3⟩
      · exact Or.inl ⟨e, by rw [h1]; rfl, by rw [h2]; rfl⟩
      · rw [h1, h2]
        exact ih (mfHeapInv_iterate hs h1) h3
    · exact Agree.ok ⟨hs, h⟩

theorem mfNew_shows (p : MFProblem K X S W) (rng : W) : Agree (fun a b => MFHeapInv a ∧ MFShows a b) (mfNew p rng) (p.new rng) := by
  have : Agree MFShows (mfNew p rng) (p.new rng) := by
    unfold mfNew MFProblem.new
    refine Agree.bind_same _ fun a _ => ?_
    refine Agree.bind_same _ fun y _ => ?_
    refine Agree.bind_same _ fun su _ => ?_
    refine Agree.bind_same _ fun a' _ => ?_
    refine Agree.bind_same _ fun best _ => ?_
    refine Agree.bind_same _ fun i _ => ?_
    refine Agree.bind_same _ fun x hx => ?_
    have hx := npRow_ok.mp hx
    exact Agree.ok ⟨rfl, rfl, rfl, rfl, rfl, rfl, rfl, hx, rfl, congrArg (fun z => [z]) hx, rfl, rfl, rfl⟩
  rcases this with h | ⟨a, b, h1, h2, h3⟩
  · exact Or.inl h
  · exact Or.inr ⟨a, b, h1, h2, mfHeapInv_new h1, h3⟩

/-! ## Constrained -/

/-- The arrays handed out by a constrained optimiser are neither its samples nor its initial design. -/
structure ConsHeapInv {c : ℕ} (s : ConsObj K X S W c) : Prop where
  ltI : s.initSample < s.blocks.length
  ltS : s.sample < s.blocks.length
  refs : ∀ b, some b ∈ s.historyBestX → b < s.blocks.length ∧ b ≠ s.sample ∧ b ≠ s.initSample
  last : s.bestX ∈ s.historyBestX

theorem ownArray_spec (m : Blocks X) (xs : Option (List X)) : (∃ l, (ownArray m xs).1 = m ++ l) ∧ (∀ b, (ownArray m xs).2 = some b → b = m.length ∧ b < (ownArray m xs).1.length) ∧
    (ownArray m xs).2.map (ownArray m xs).1.rows = xs := by
  cases xs with
  | none => exact ⟨⟨[], by simp [ownArray]⟩, by simp [ownArray], rfl⟩
  | some xs =>
    refine ⟨⟨[xs], rfl⟩, ?_, ?_⟩
    · intro b hb
      cases hb
      exact ⟨rfl, by simp [ownArray]⟩
    · simp [ownArray, Blocks.rows]

theorem consHeapInv_new {c : ℕ} {p : ConsProblem K X S W c} {rng : W} {s : ConsObj K X S W c} (h : consNew p rng = .ok s) : ConsHeapInv s := by
  obtain ⟨⟨sample, rng'⟩, h1, h⟩ := Py.bind_ok.mp h
  obtain ⟨obj, h2, h⟩ := Py.bind_ok.mp h
  obtain ⟨cons, h0, h⟩ := Py.bind_ok.mp h
  obtain ⟨⟨su, rng2⟩, h3, h⟩ := Py.bind_ok.mp h
  dsimp only at h
  rcases hc : consPara p.numCons sample obj cons with ⟨best, bestX⟩
  rw [hc] at h
  dsimp only at h
  obtain ⟨⟨l, hl⟩, ho, _⟩ := ownArray_spec [sample, sample] bestX
  rcases hb : ownArray [sample, sample] bestX with ⟨blocks, ref⟩
  rw [hb] at h hl ho
  cases h
  dsimp only at hl ho
  refine ⟨?_, ?_, ?_, ?_⟩
  · show 0 < blocks.length
    rw [hl]; simp
  · show 1 < blocks.length
    rw [hl]; simp
  · intro b hb
    have := ho b (List.mem_singleton.mp hb).symm
    exact ⟨this.2, by rw [this.1]; simp, by rw [this.1]; simp⟩
  · exact List.mem_singleton.mpr rfl

theorem consHeapInv_iterate {c : ℕ} {p : ConsProblem K X S W c} {s s' : ConsObj K X S W c} (hs : ConsHeapInv s) (h : consIterate p s = .ok s') : ConsHeapInv s' := by
  obtain ⟨⟨x, rng'⟩, h1, h⟩ := Py.bind_ok.mp h
  obtain ⟨y, h2, h⟩ := Py.bind_ok.mp h
  obtain ⟨g, h0, h⟩ := Py.bind_ok.mp h
  obtain ⟨⟨su, rng2⟩, h3, h⟩ := Py.bind_ok.mp h
  dsimp only at h
  rcases hc : consPara p.numCons (s.blocks.rows s.sample ++ [x]) (s.objResponse ++ y) (s.consResponse ++ g) with ⟨best, bestX⟩
  rw [hc] at h
  dsimp only at h
  obtain ⟨⟨l, hl⟩, ho, _⟩ := ownArray_spec (s.blocks ++ [s.blocks.rows s.sample ++ [x]]) bestX
  rcases hb : ownArray (s.blocks ++ [s.blocks.rows s.sample ++ [x]]) bestX with ⟨blocks, ref⟩
  rw [hb] at h hl ho
  have hI := hs.ltI
  cases h
  dsimp only at hl ho
  refine ⟨?_, ?_, ?_, ?_⟩
  · show s.initSample < blocks.length
    rw [hl]; simp; omega
  · show s.blocks.length < blocks.length
    rw [hl]; simp
  · intro b hb
    rcases List.mem_append.mp hb with hb | hb
    · have := hs.refs b hb
      refine ⟨?_, ?_, this.2.2⟩
      · show b < blocks.length
        rw [hl]; simp; omega
      · show b ≠ s.blocks.length
        omega
    · have := ho b (List.mem_singleton.mp hb).symm
      simp at this
      refine ⟨this.2, ?_, ?_⟩
      · show b ≠ s.blocks.length
        omega
      · show b ≠ s.initSample
        omega
  · exact List.mem_append_right _ (List.mem_singleton.mpr rfl)

theorem consHeapInv_loop {c : ℕ} {p : ConsProblem K X S W c} {stop : K} : ∀ {k : ℕ} {s s' : ConsObj K X S W c}, ConsHeapInv s → consLoop p stop k s = .ok s' → ConsHeapInv s' := by
  intro k
  induction k with
  | zero => intro s s' hs h; cases h; exact hs
  | succ k ih =>
    intro s s' hs h
    unfold consLoop at h
    split at h
    · obtain ⟨t, h1, h2⟩ := Py.bind_ok.mp h
      exact ih (consHeapInv_iterate hs h1) h2
    · cases h; exact hs

theorem length_writeOwn (m : Blocks X) (xs : List X) (r : Option ℕ) : (writeOwn m xs r).length = m.length := by
  cases r <;> simp [writeOwn]

theorem rows_writeOwn_ne (m : Blocks X) (xs : List X) (r : Option ℕ) {b : ℕ} (h : r ≠ some b) : (writeOwn m xs r).rows b = m.rows b := by
  cases r with
  | none => rfl
  | some a =>
    have : a ≠ b := fun hab => h (by rw [hab])
    simp [writeOwn, Blocks.rows, List.getElem?_set_ne this]

theorem consHeapInv_write {c : ℕ} {s : ConsObj K X S W c} (hs : ConsHeapInv s) (xs : List X) (r : Option ℕ) : ConsHeapInv { s with blocks := writeOwn s.blocks xs r } := by
  have h := length_writeOwn s.blocks xs r
  exact ⟨h ▸ hs.ltI, h ▸ hs.ltS, fun b hb => ⟨h ▸ (hs.refs b hb).1, (hs.refs b hb).2⟩, hs.last⟩

/-- Writing into an array that was handed out does not change the record. -/
theorem consRecord_write {c : ℕ} {s : ConsObj K X S W c} (hs : ConsHeapInv s) (xs : List X) {r : Option ℕ} (hr : r ∈ s.historyBestX) :
    consRecord { s with blocks := writeOwn s.blocks xs r } = consRecord s := by
  have h1 : r ≠ some s.sample := fun h => (hs.refs s.sample (h ▸ hr)).2.1 rfl
  have h2 : r ≠ some s.initSample := fun h => (hs.refs s.initSample (h ▸ hr)).2.2 rfl
  simp only [consRecord, rows_writeOwn_ne _ _ _ h1, rows_writeOwn_ne _ _ _ h2]

theorem consHeapInv_step {c : ℕ} {p : ConsProblem K X S W c} {s s' : ConsObj K X S W c} {o : ConsOp K X} (hs : ConsHeapInv s) (h : consStep p s o = .ok s') : ConsHeapInv s' := by
  cases o with
  | run k stop => exact consHeapInv_loop hs h
  | writeHistory k x =>
    simp only [consStep] at h
    split at h <;> cases h
    · exact consHeapInv_write hs _ _
    · exact hs
  | writeBest x => cases h; exact consHeapInv_write hs _ _

theorem consHeapInv_exec {c : ℕ} {p : ConsProblem K X S W c} {ops : List (ConsOp K X)} : ∀ {s s' : ConsObj K X S W c}, ConsHeapInv s → consExec p ops s = .ok s' → ConsHeapInv s' := by
  induction ops with
  | nil => intro s s' hs h; cases h; exact hs
  | cons o l ih =>
    intro s s' hs h
    obtain ⟨t, h1, h2⟩ := Py.bind_ok.mp h
    exact ih (consHeapInv_step hs h1) h2

theorem consIterate_agree {c : ℕ} (p : ConsProblem K X S W c) {s t : ConsObj K X S W c} (hs : ConsHeapInv s) (ht : ConsHeapInv t) (h : consRecord s = consRecord t) :
    Agree (fun a b => consRecord a = consRecord b) (consIterate p s) (consIterate p t) := by
  simp only [consRecord, ConsRecord.mk.injEq] at h
  obtain ⟨h0, h1, h2, h3, h4, h5, h6, h7, h8⟩ := h
  unfold consIterate
  rw [h1, h2, h3, h5, h6, h7, h8]
  refine Agree.bind_same _ fun a _ => ?_
  refine Agree.bind_same _ fun y _ => ?_
  refine Agree.bind_same _ fun g _ => ?_
  refine Agree.bind_same _ fun a' _ => ?_
  obtain ⟨x, rng⟩ := a
  obtain ⟨su, rng2⟩ := a'
  dsimp only
  rcases consPara p.numCons (t.blocks.rows t.sample ++ [x]) (t.objResponse ++ y) (t.consResponse ++ g) with ⟨best, bestX⟩
  dsimp only
  obtain ⟨⟨l, hl⟩, -, -⟩ := ownArray_spec (s.blocks ++ [t.blocks.rows t.sample ++ [x]]) bestX
  obtain ⟨⟨l', hl'⟩, -, -⟩ := ownArray_spec (t.blocks ++ [t.blocks.rows t.sample ++ [x]]) bestX
  rcases hb : ownArray (s.blocks ++ [t.blocks.rows t.sample ++ [x]]) bestX with ⟨blocks, ref⟩
  rcases hb' : ownArray (t.blocks ++ [t.blocks.rows t.sample ++ [x]]) bestX with ⟨blocks', ref'⟩
  rw [hb] at hl
  rw [hb'] at hl'
  dsimp only at hl hl' ⊢
  subst hl hl'
  refine Agree.ok ?_
  simp only [consRecord, ConsRecord.mk.injEq, List.append_assoc, List.singleton_append, rows_append_length, rows_append_left _ _ hs.ltI, rows_append_left _ _ ht.ltI, and_true, h0]

theorem consLoop_agree {c : ℕ} (p : ConsProblem K X S W c) (stop : K) : ∀ (k : ℕ) {s t : ConsObj K X S W c}, ConsHeapInv s → ConsHeapInv t → consRecord s = consRecord t →
    Agree (fun a b => consRecord a = consRecord b) (consLoop p stop k s) (consLoop p stop k t) := by
  intro k
  induction k with
  | zero => intro s t _ _ h; exact Agree.ok h
  | succ k ih =>
    intro s t hs ht h
    have hb : s.best = t.best := congrArg ConsRecord.best h
    unfold consLoop
    rw [hb]
    split
    · rcases consIterate_agree p hs ht h with ⟨e, h1, h2⟩ | ⟨a, b, h1, h2, h3⟩
      · exact Or.inl ⟨e, by rw [h1]; rfl, by rw [h2]; rfl⟩
      · rw [h1, h2]
        exact ih (consHeapInv_iterate hs h1) (consHeapInv_iterate ht h2) h3
    · exact Agree.ok h

theorem consIterate_shows {c : ℕ} (p : ConsProblem K X S W c) {s : ConsObj K X S W c} {v : ConsState K X S W c} (hs : ConsHeapInv s) (h : ConsShows s v) :
    Agree ConsShows (consIterate p s) (p.iterate v) := by
  unfold consIterate ConsProblem.iterate
  rw [h.surrogate, h.rng, h.sample, h.objResponse, h.consResponse, h.historyBest, h.calls]
  refine Agree.bind_same _ fun a _ => ?_
  refine Agree.bind_same _ fun y _ => ?_
  refine Agree.bind_same _ fun g _ => ?_
  refine Agree.bind_same _ fun a' _ => ?_
  obtain ⟨x, rng⟩ := a
  obtain ⟨su, rng2⟩ := a'
  dsimp only
  rcases consPara p.numCons (v.sample ++ [x]) (v.objResponse ++ y) (v.consResponse ++ g) with ⟨best, bestX⟩
  dsimp only
  obtain ⟨⟨l, hl⟩, -, hm⟩ := ownArray_spec (s.blocks ++ [v.sample ++ [x]]) bestX
  rcases hb : ownArray (s.blocks ++ [v.sample ++ [x]]) bestX with ⟨blocks, ref⟩
  rw [hb] at hl hm
  dsimp only at hl hm ⊢
  refine Agree.ok ⟨?_, rfl, rfl, rfl, rfl, hm, rfl, ?_, rfl, rfl⟩
  · show blocks.rows s.blocks.length = _
    rw [hl]
    simp only [List.append_assoc, List.singleton_append, rows_append_length]
  · show (s.historyBestX ++ [ref]).map (fun r => r.map blocks.rows) = v.historyBestX ++ [_]
    rw [List.map_append, List.map_cons, List.map_nil, hm, ← h.historyBestX]
    congr 1
    refine List.map_congr_left fun r hr => ?_
    cases r with
    | none => rfl
    | some b =>
      simp only [Option.map_some, hl, List.append_assoc]
      rw [rows_append_left _ _ (hs.refs b hr).1]

theorem consLoop_shows {c : ℕ} (p : ConsProblem K X S W c) (stop : K) : ∀ (k : ℕ) {s : ConsObj K X S W c} {v : ConsState K X S W c}, ConsHeapInv s → ConsShows s v →
    Agree (fun a b => ConsHeapInv a ∧ ConsShows a b) (consLoop p stop k s) (p.loop stop k v) := by
  intro k
  induction k with
  | zero => intro s v hs h; exact Agree.ok ⟨hs, h⟩
  | succ k ih =>
    intro s v hs h
    unfold consLoop ConsProblem.loop
    rw [h.best]
    split
    · rcases consIterate_shows p hs h with ⟨e, h1, h2⟩ | ⟨a, b, h1, h2, h3⟩
      · exact Or.inl ⟨e, by rw [h1]; rfl, by rw [h2]; rfl⟩
      · rw [h1, h2]
        exact ih (consHeapInv_iterate hs h1) h3
    · exact Agree.ok ⟨hs, h⟩

theorem consNew_shows {c : ℕ} (p : ConsProblem K X S W c) (rng : W) : Agree (fun a b => ConsHeapInv a ∧ ConsShows a b) (consNew p rng) (p.new rng) := by
  have : Agree ConsShows (consNew p rng) (p.new rng) := by
    unfold consNew ConsProblem.new
    refine Agree.bind_same _ fun a _ => ?_
    refine Agree.bind_same _ fun y _ => ?_
    refine Agree.bind_same _ fun g _ => ?_
    refine Agree.bind_same _ fun a' _ => ?_
    obtain ⟨sample, rng⟩ := a
    obtain ⟨su, rng2⟩ := a'
    dsimp only
    rcases consPara p.numCons sample y g with ⟨best, bestX⟩
    dsimp only
    obtain ⟨⟨l, hl⟩, -, hm⟩ := ownArray_spec [sample, sample] bestX
    rcases hb : ownArray [sample, sample] bestX with ⟨blocks, ref⟩
    rw [hb] at hl hm
    dsimp only at hl hm ⊢
    refine Agree.ok ⟨?_, rfl, rfl, rfl, rfl, hm, rfl, congrArg (fun z => [z]) hm, rfl, rfl⟩
    show blocks.rows 1 = _
    rw [hl]; rfl
  rcases this with h | ⟨a, b, h1, h2, h3⟩
  · exact Or.inl h
  · exact Or.inr ⟨a, b, h1, h2, consHeapInv_new h1, h3⟩

end Mfpml.BOHeap
