import Verif.Props.GPObjects
import Verif.Model.MFObjects

/-! # Lemmas about `ScaledKriging` objects -/

open scoped BigOperators Matrix

namespace Mfpml.GPObjects

open Mfpml.Spec Mfpml.GP Mfpml.Props
open Mfpml.EA (Box)

variable {d q n : ℕ}

theorem SamePredictions.trans {h1 h2 h3 : Heap d q} {g : Ref} (a : SamePredictions h1 h2 g) (b : SamePredictions h2 h3 g) : SamePredictions h1 h3 g :=
  fun m X => ⟨(b m X).1.trans (a m X).1, (b m X).2.trans (a m X).2⟩

theorem SamePredictions.refl (h : Heap d q) (g : Ref) : SamePredictions h h g := fun _ _ => ⟨rfl, rfl⟩

theorem view_afterTrain_self {h : Heap d q} {g : Ref} {w : World d} {X : Σ n, Samples n d} {a : Ref} (hn : (h.arrays a).1 = X.1) {gp' : GPObj d q} {t : GPFit X.1 d q}
    (ht : (h.view g).train w X.2 (respCol h a hn) = .ok (gp', t)) : (afterTrain h g X a gp' t).view g = gp' := by
  obtain ⟨hr, hs, theta, noise, h3, e1, h4, e2⟩ := train_ok_iff.mp ht
  rw [e1, e2]
  simp [afterTrain, Heap.view]

theorem view_afterTrain_other {h : Heap d q} {g g' : Ref} {X : Σ n, Samples n d} {a : Ref} {gp' : GPObj d q} {t : GPFit X.1 d q}
    (hg : g' ≠ g) (hk : (h.models g').kernel ≠ (h.models g).kernel) : (afterTrain h g X a gp' t).view g' = h.view g' := by
  simp only [afterTrain, Heap.view]
  rw [Function.update_of_ne hg, Function.update_of_ne hk]

theorem kernel_afterTrain (h : Heap d q) (g g' : Ref) (X : Σ n, Samples n d) (a : Ref) (gp' : GPObj d q) (t : GPFit X.1 d q) :
    ((afterTrain h g X a gp' t).models g').kernel = (h.models g').kernel := by
  by_cases hg : g' = g
  · subst hg; simp [afterTrain]
  · simp only [afterTrain]; rw [Function.update_of_ne hg]

/-- A new array does not matter to a model that holds another one. -/
theorem newArray_same (h : Heap d q) (g a : Ref) {n : ℕ} (y : Fin n → ℝ) (ha : (h.models g).sampleY ≠ some a) : SamePredictions h (h.newArray a y) g := by
  apply predict_congr
  · exact ⟨_, rfl⟩
  · rfl
  · rfl
  · intro a' ha'
    have : a' ≠ a := by rintro rfl; exact ha ha'
    simp only [Heap.newArray]
    rw [Function.update_of_ne this]

theorem train_same (h : Heap d q) (g g' : Ref) (w : World d) (X : Σ n, Samples n d) (a : Ref) (hg : g' ≠ g) (hk : (h.models g').kernel ≠ (h.models g).kernel) :
    SamePredictions h (h.train g' w X a).1 g := by
  have := C94_models_independent_partial [Call.train g' w X a] h g (by
    intro c hc
    rw [List.mem_singleton] at hc
    subst hc
    exact ⟨hg, hk⟩)
  exact this

/-- What a training of the discrepancy model keeps: the low-fidelity model predicts as in `h1`, the discrepancy model's settings are `gd`. -/
structure Inv (h1 h : Heap d q) (lf disc al : Ref) (gd : GPObj d q) : Prop where
  ne : lf ≠ disc
  ker : (h.models lf).kernel ≠ (h.models disc).kernel
  sy : (h.models lf).sampleY = some al
  view : h.view disc = gd
  same : SamePredictions h1 h lf

theorem respCol_newArray (h : Heap d q) (a : Ref) (y : Fin n → ℝ) (hn : ((h.newArray a y).arrays a).1 = n) : respCol (h.newArray a y) a hn = y := by
  have key : ∀ (u : Σ n, Fin n → ℝ) (hu : u.1 = n), u = ⟨n, y⟩ → (fun i : Fin n => u.2 (Fin.cast hu.symm i)) = y := by
    rintro u hu rfl; rfl
  exact key _ hn (by simp [Heap.newArray])

theorem inv_step {h1 h : Heap d q} {lf disc al : Ref} {gd : GPObj d q} (I : Inv h1 h lf disc al gd) (w : World d) (X : Samples n d) (a : Ref) (ha : a ≠ al) (y : Fin n → ℝ) :
    (∀ gp' t, gd.train w X y = .ok (gp', t) → ∃ h', (h.newArray a y).train disc w ⟨n, X⟩ a = (h', .ok ()) ∧ Inv h1 h' lf disc al gp' ∧
      ∀ (m : ℕ) (Xnew : Samples m d), h'.predictMean disc Xnew = GP.predictMean gp' t Xnew ∧ h'.predictStd disc Xnew = GP.predictStd gp' t Xnew) ∧
    ((∀ r, gd.train w X y ≠ .ok r) → ∃ e, ((h.newArray a y).train disc w ⟨n, X⟩ a).2 = .error e) := by
  have hn : ((h.newArray a y).arrays a).1 = n := by simp [Heap.newArray]
  have hv : (h.newArray a y).view disc = gd := I.view
  have hk : ((h.newArray a y).models lf).kernel ≠ ((h.newArray a y).models disc).kernel := I.ker
  refine ⟨fun gp' t ht => ?_, fun hno => ?_⟩
  · have ht' : ((h.newArray a y).view disc).train w (Sigma.mk n X : Σ n, Samples n d).2 (respCol (h.newArray a y) a hn) = .ok (gp', t) := by
      rw [respCol_newArray h a y hn, hv]; exact ht
    have e := train_of_view (X := ⟨n, X⟩) hn ht'
    refine ⟨_, e, ⟨I.ne, ?_, ?_, view_afterTrain_self (X := ⟨n, X⟩) hn ht', ?_⟩, fun m Xnew => ⟨predictMean_afterTrain (X := ⟨n, X⟩) hn ht' Xnew, predictStd_afterTrain (X := ⟨n, X⟩) hn ht' Xnew⟩⟩
    · rw [kernel_afterTrain, kernel_afterTrain]; exact hk
    · simp only [afterTrain]
      rw [Function.update_of_ne I.ne]
      exact I.sy
    · refine SamePredictions.trans I.same (SamePredictions.trans (newArray_same h lf a y ?_) ?_)
      · rw [I.sy]; intro hh; exact ha (Option.some.inj hh).symm
      · have := train_same (h.newArray a y) lf disc w ⟨n, X⟩ a (Ne.symm I.ne) (Ne.symm hk)
        rw [e] at this
        exact this
  · rcases train_cases (h.newArray a y) disc w ⟨n, X⟩ a with ⟨hn', gp', t, ht⟩ | ⟨he, _⟩
    · exfalso
      have e : respCol (h.newArray a y) a hn' = y := respCol_newArray h a y hn'
      rw [e, hv] at ht
      exact hno _ ht
    · exact he

theorem bumpRun_obj {h1 : Heap d q} {s : SKModel} {al : Ref} {Xh : Samples n d} {yh f : Fin n → ℝ} {fresh : ℕ → Ref} (hf : ∀ k, fresh k ≠ al) (hlf : h1.predictMean s.lf Xh = .ok f) :
    ∀ (l : List (ℝ × World d)) (k : ℕ) (h : Heap d q) (gd : GPObj d q), Inv h1 h s.lf s.disc al gd →
      (∀ gd', GP.bumpRun Xh yh f l gd = .ok gd' → ∃ h', Heap.bumpRun s Xh yh fresh l k h = (h', .ok ()) ∧ Inv h1 h' s.lf s.disc al gd') ∧
      ((∀ gd', GP.bumpRun Xh yh f l gd ≠ .ok gd') → ∃ e, (Heap.bumpRun s Xh yh fresh l k h).2 = .error e) := by
  intro l
  induction l with
  | nil =>
    intro k h gd I
    refine ⟨fun gd' hgd => ?_, fun hno => absurd rfl (hno gd)⟩
    simp only [GP.bumpRun, Except.ok.injEq] at hgd
    subst hgd
    exact ⟨h, rfl, I⟩
  | cons p l ih =>
    obtain ⟨r, w⟩ := p
    intro k h gd I
    have hp : h.predictMean s.lf Xh = .ok f := ((I.same n Xh).1).trans hlf
    have S := inv_step I w Xh (fresh k) (hf k) (getDisc r f yh)
    cases ht : gd.train w Xh (getDisc r f yh) with
    | error e =>
      have hb : ∀ gd', GP.bumpRun Xh yh f ((r, w) :: l) gd ≠ .ok gd' := by
        intro gd' hh
        simp [GP.bumpRun, evalBumpiness, ht, bind, Except.bind] at hh
      refine ⟨fun gd' hgd => absurd hgd (hb gd'), fun _ => ?_⟩
      obtain ⟨e', he'⟩ := S.2 (by intro r hr; rw [ht] at hr; cases hr)
      refine ⟨e', ?_⟩
      simp only [Heap.bumpRun, hp]
      generalize (h.newArray (fresh k) (getDisc r f yh)).train s.disc w ⟨n, Xh⟩ (fresh k) = R at he'
      obtain ⟨R1, R2⟩ := R
      simp only at he'
      subst he'
      rfl
    | ok gt =>
      obtain ⟨gp', t⟩ := gt
      obtain ⟨h', e', I', _⟩ := S.1 gp' t ht
      obtain ⟨i1, i2⟩ := ih (k + 1) h' gp' I'
      have hb : GP.bumpRun Xh yh f ((r, w) :: l) gd = GP.bumpRun Xh yh f l gp' := by
        simp [GP.bumpRun, evalBumpiness, ht, bind, Except.bind]
      have hb' : Heap.bumpRun s Xh yh fresh ((r, w) :: l) k h = Heap.bumpRun s Xh yh fresh l (k + 1) h' := by
        conv_lhs => unfold Heap.bumpRun
        simp only [hp, e']
      rw [hb, hb']
      exact ⟨i1, i2⟩

/-- The search for the scale factor on the objects is the one on values. -/
theorem optimizeRho_obj {h1 : Heap d q} {s : SKModel} {al : Ref} {Xh : Samples n d} {yh f : Fin n → ℝ} {fresh : ℕ → Ref} (hf : ∀ k, fresh k ≠ al) (hlf : h1.predictMean s.lf Xh = .ok f)
    (w : SKWorld d) (box : Box ℝ d) (lf0 gd : GPObj d q) (I : Inv h1 h1 s.lf s.disc al gd)
    (sk : SKObj d q q) (hsk : sk = { box := box, lf := lf0, disc := gd, rho := s.rho, rhoOptimize := s.rhoOptimize, rhoMethod := s.rhoMethod, rhoLow := s.rhoLow, rhoHigh := s.rhoHigh, rhoOptimizer := s.rhoOptimizer }) :
    (∀ rho gd', sk.optimizeRho w Xh yh f = .ok (rho, gd') → ∃ h', h1.optimizeRho s w Xh yh fresh = (h', .ok rho) ∧ Inv h1 h' s.lf s.disc al gd') ∧
    ((∀ r, sk.optimizeRho w Xh yh f ≠ .ok r) → ∃ e, (h1.optimizeRho s w Xh yh fresh).2 = .error e) := by
  subst hsk
  unfold SKObj.optimizeRho Heap.optimizeRho
  simp only [hlf]
  cases hm : s.rhoMethod with
  | error =>
    cases ho : s.rhoOptimizer with
    | none =>
      simp only
      cases hw : w.mini 1 (fun r => .ok (evalError f yh r 0)) (fun _ => w.x0) (fun _ => s.rhoLow) (fun _ => s.rhoHigh) with
      | error e => simp [bind, Except.bind]
      | ok x =>
        simp only [bind, Except.bind, Except.ok.injEq, Prod.mk.injEq]
        refine ⟨?_, fun hno => absurd rfl (hno _)⟩
        rintro rho gd' ⟨rfl, rfl⟩
        exact ⟨h1, ⟨rfl, rfl⟩, I⟩
    | some run =>
      simp only
      cases hw : run 1 (fun r => .ok (evalError f yh r 0)) (fun _ => s.rhoLow) (fun _ => s.rhoHigh) with
      | error e => simp [bind, Except.bind]
      | ok x =>
        simp only [bind, Except.bind, Except.ok.injEq, Prod.mk.injEq]
        refine ⟨?_, fun hno => absurd rfl (hno _)⟩
        rintro rho gd' ⟨rfl, rfl⟩
        exact ⟨h1, ⟨rfl, rfl⟩, I⟩
  | bumpiness =>
    simp only
    obtain ⟨b1, b2⟩ := bumpRun_obj (yh := yh) hf hlf w.bumpEvals 0 h1 gd I
    cases hb : GP.bumpRun Xh yh f w.bumpEvals gd with
    | error e =>
      refine ⟨fun rho gd' hh => by simp [bind, Except.bind] at hh, fun _ => ?_⟩
      obtain ⟨e', he'⟩ := b2 (by intro gd' hh; rw [hb] at hh; cases hh)
      generalize Heap.bumpRun s Xh yh fresh w.bumpEvals 0 h1 = R at he'
      obtain ⟨R1, R2⟩ := R
      simp only at he'
      subst he'
      exact ⟨e', rfl⟩
    | ok gd'' =>
      obtain ⟨h', e', I'⟩ := b1 gd'' hb
      rw [e']
      simp only [bind, Except.bind, Except.ok.injEq, Prod.mk.injEq]
      refine ⟨?_, fun hno => absurd rfl (hno _)⟩
      rintro rho gd' ⟨rfl, rfl⟩
      exact ⟨h', ⟨rfl, rfl⟩, I'⟩
  | other => simp

/-- Nothing that model `g` reads has changed. -/
structure Frame (h h' : Heap d q) (g : Ref) : Prop where
  models : h'.models g = h.models g
  boxes : h'.boxes = h.boxes
  kernels : h'.kernels (h.models g).kernel = h.kernels (h.models g).kernel
  arrays : ∀ a, (h.models g).sampleY = some a → h'.arrays a = h.arrays a
  kernelRefs : ∀ g', (h'.models g').kernel = (h.models g').kernel

theorem Frame.refl (h : Heap d q) (g : Ref) : Frame h h g := ⟨rfl, rfl, rfl, fun _ _ => rfl, fun _ => rfl⟩

theorem Frame.trans {h1 h2 h3 : Heap d q} {g : Ref} (a : Frame h1 h2 g) (b : Frame h2 h3 g) : Frame h1 h3 g := by
  refine ⟨b.models.trans a.models, b.boxes.trans a.boxes, ?_, fun x hx => ?_, fun g' => (b.kernelRefs g').trans (a.kernelRefs g')⟩
  · have := b.kernels
    rw [a.models] at this
    exact this.trans a.kernels
  · exact (b.arrays x (by rw [a.models]; exact hx)).trans (a.arrays x hx)

theorem Frame.same {h h' : Heap d q} {g : Ref} (f : Frame h h' g) : SamePredictions h h' g :=
  predict_congr ⟨_, f.models⟩ (by rw [f.boxes]) f.kernels f.arrays

theorem frame_newArray (h : Heap d q) (g a : Ref) {n : ℕ} (y : Fin n → ℝ) (ha : (h.models g).sampleY ≠ some a) : Frame h (h.newArray a y) g := by
  refine ⟨rfl, rfl, rfl, fun a' ha' => ?_, fun _ => rfl⟩
  have : a' ≠ a := by rintro rfl; exact ha ha'
  simp only [Heap.newArray]
  rw [Function.update_of_ne this]

theorem frame_train (h : Heap d q) (g g' : Ref) (w : World d) (X : Σ n, Samples n d) (a : Ref) (hg : g' ≠ g) (hk : (h.models g').kernel ≠ (h.models g).kernel) :
    Frame h (h.train g' w X a).1 g := by
  obtain ⟨_, _, h3, h4, h5⟩ := step_frame h g (.train g' w X a) ⟨hg, hk⟩
  have key : (h.train g' w X a).1.models g = h.models g ∧ (h.train g' w X a).1.boxes = h.boxes := by
    rcases train_cases h g' w X a with ⟨hn, gp', t, ht⟩ | ⟨_, ⟨e, _⟩ | ⟨mm, k, _, e, _⟩⟩
    · rw [train_of_view hn ht]
      refine ⟨?_, rfl⟩
      simp only [afterTrain]
      rw [Function.update_of_ne (Ne.symm hg)]
    · rw [e]; exact ⟨rfl, rfl⟩
    · rw [e]
      refine ⟨?_, rfl⟩
      simp only
      rw [Function.update_of_ne (Ne.symm hg)]
  exact ⟨key.1, key.2, h3, h4, h5⟩

theorem train_kernelRefs (h : Heap d q) (g : Ref) (w : World d) (X : Σ n, Samples n d) (a : Ref) (g' : Ref) : ((h.train g w X a).1.models g').kernel = (h.models g').kernel := by
  rcases train_cases h g w X a with ⟨hn, gp', t, ht⟩ | ⟨_, ⟨e, _⟩ | ⟨mm, k, _, e, _, _, _, _, _, hk, _⟩⟩
  · rw [train_of_view hn ht]
    exact kernel_afterTrain _ _ _ _ _ _ _
  · rw [e]
  · rw [e]
    by_cases hg : g' = g
    · subst hg; simp [hk]
    · simp only; rw [Function.update_of_ne hg]

/-- Predictions after the response array that the model holds has been overwritten. -/
theorem predictMean_write {h : Heap d q} {g a : Ref} {k : ℕ} {Xnew : Samples k d} {μ : Fin k → ℝ} (hp : h.predictMean g Xnew = .ok μ) (ha : (h.models g).sampleY = some a) (y' : ℕ → ℝ) :
    ∃ v : Fin k → ℝ, (∀ j, μ j = v j * std (h.arrays a).2 + mean (h.arrays a).2) ∧
      (h.step (.writeResponses a y')).predictMean g Xnew = .ok fun j => v j * std (fun i : Fin (h.arrays a).1 => y' i) + mean (fun i : Fin (h.arrays a).1 => y' i) := by
  unfold Heap.predictMean at hp ⊢
  simp only [Heap.step] at hp ⊢
  obtain ⟨xs, h1, hp⟩ := Py.bind_ok.mp hp
  obtain ⟨Xs, h2, hp⟩ := Py.bind_ok.mp hp
  obtain ⟨beta, h3, hp⟩ := Py.bind_ok.mp hp
  obtain ⟨gamma, h4, hp⟩ := Py.bind_ok.mp hp
  obtain ⟨kg, h5, hp⟩ := Py.bind_ok.mp hp
  obtain ⟨a', h6, hp⟩ := Py.bind_ok.mp hp
  have ea : a' = a := by rw [ha] at h6; exact (Except.ok.inj h6).symm
  subst ea
  rw [h1, h2, h3, h4, h6]
  simp only [bind, Except.bind]
  rw [h5]
  refine ⟨fun j => (regrMatrix (h.models g).regr xs *ᵥ beta + kg) j, fun j => ?_, ?_⟩
  · rw [← Except.ok.inj hp]
  · simp only
    rw [Function.update_self]

/-- The evaluations of the bumpiness objective only concern the discrepancy model. -/
theorem frame_bumpRun (s : SKModel) (Xh : Samples n d) (yh : Fin n → ℝ) (fresh : ℕ → Ref) (g : Ref) (hg : s.disc ≠ g) :
    ∀ (l : List (ℝ × World d)) (k : ℕ) (h : Heap d q), (h.models s.disc).kernel ≠ (h.models g).kernel → (∀ k, (h.models g).sampleY ≠ some (fresh k)) →
      Frame h (Heap.bumpRun s Xh yh fresh l k h).1 g := by
  intro l
  induction l with
  | nil => exact fun _ h _ _ => Frame.refl h g
  | cons c l ih =>
    intro k h hk ha
    obtain ⟨r, w⟩ := c
    unfold Heap.bumpRun
    cases hp : h.predictMean s.lf Xh with
    | error e => exact Frame.refl h g
    | ok f =>
      simp only
      have F1 := frame_newArray h g (fresh k) (getDisc r f yh) (ha k)
      have F2 := frame_train (h.newArray (fresh k) (getDisc r f yh)) g s.disc w ⟨n, Xh⟩ (fresh k) hg hk
      have F := F1.trans F2
      generalize (h.newArray (fresh k) (getDisc r f yh)).train s.disc w ⟨n, Xh⟩ (fresh k) = R at F
      obtain ⟨R1, R2⟩ := R
      simp only at F
      cases R2 with
      | error e => exact F
      | ok u =>
        simp only
        refine F.trans (ih (k + 1) R1 ?_ ?_)
        · rw [F.kernelRefs, F.kernelRefs]; exact hk
        · rw [F.models]; exact ha

theorem frame_optimizeRho (h : Heap d q) (s : SKModel) (w : SKWorld d) (Xh : Samples n d) (yh : Fin n → ℝ) (fresh : ℕ → Ref) (g : Ref) (hg : s.disc ≠ g)
    (hk : (h.models s.disc).kernel ≠ (h.models g).kernel) (ha : ∀ k, (h.models g).sampleY ≠ some (fresh k)) : Frame h (h.optimizeRho s w Xh yh fresh).1 g := by
  unfold Heap.optimizeRho
  cases s.rhoMethod with
  | error =>
    simp only
    cases h.predictMean s.lf Xh with
    | error e => exact Frame.refl h g
    | ok f =>
      simp only
      cases s.rhoOptimizer with
      | none => exact Frame.refl h g
      | some run => exact Frame.refl h g
  | bumpiness =>
    simp only
    have F := frame_bumpRun s Xh yh fresh g hg w.bumpEvals 0 h hk ha
    generalize Heap.bumpRun s Xh yh fresh w.bumpEvals 0 h = R at F
    obtain ⟨R1, R2⟩ := R
    cases R2 with
    | error e => exact F
    | ok u => exact F
  | other => exact Frame.refl h g

/-- A training after its low-fidelity part. -/
theorem skTrain_after_lf {h : Heap d q} {s : SKModel} {w : SKWorld d} {Xh Xl : Σ n, Samples n d} {ah al : Ref} {fresh : ℕ → Ref} {h1 : Heap d q} (hlf : h.train s.lf w.lf Xl al = (h1, .ok ()))
    (g : Ref) (hg : s.disc ≠ g) (hk : (h1.models s.disc).kernel ≠ (h1.models g).kernel) (ha : ∀ k, (h1.models g).sampleY ≠ some (fresh k)) :
    Frame h1 (h.skTrain s w Xh ah Xl al fresh).1 g := by
  unfold Heap.skTrain
  rw [hlf]
  simp only
  by_cases hn : (h1.arrays ah).1 = Xh.1
  swap
  · rw [dif_neg hn]; exact Frame.refl h1 g
  rw [dif_pos hn]
  have F1 : Frame h1 (if s.rhoOptimize then h1.optimizeRho s w Xh.2 (fun i => (h1.arrays ah).2 (Fin.cast hn.symm i)) fresh else (h1, .ok s.rho) : Heap d q × Py ℝ).1 g := by
    split
    · exact frame_optimizeRho h1 s w Xh.2 _ fresh g hg hk ha
    · exact Frame.refl h1 g
  generalize (if s.rhoOptimize then h1.optimizeRho s w Xh.2 (fun i => (h1.arrays ah).2 (Fin.cast hn.symm i)) fresh else (h1, .ok s.rho) : Heap d q × Py ℝ) = R at F1
  obtain ⟨R1, R2⟩ := R
  cases R2 with
  | error e => exact F1
  | ok rho =>
    simp only
    cases R1.predictMean s.lf Xh.2 with
    | error e => exact F1
    | ok f =>
      simp only at F1 ⊢
      refine F1.trans ((frame_newArray R1 g (fresh w.bumpEvals.length) _ (by rw [F1.models]; exact ha _)).trans (frame_train _ g s.disc w.disc Xh _ hg ?_))
      show (R1.models s.disc).kernel ≠ (R1.models g).kernel
      rw [F1.kernelRefs, F1.kernelRefs]
      exact hk

end Mfpml.GPObjects
