import Verif.Spec.CostRatio
import Verif.Props.Acquisitions

/-!
# C160: the cost ratio

Vocabulary: `Verif/Spec/CostRatio.lean`.
-/

namespace Mfpml.Props

open Mfpml Mfpml.Acq Mfpml.GP Mfpml.Spec
open Mfpml.EA (Box)

variable {W : Type} {d : ℕ}

/-! ### The common part of the queries -/

theorem choose_monotone {ev ev' : ℤ → (Fin d → ℝ) → Py ℝ} (h0 : ev' 0 = ev 0) (h1 : ∀ x v, ev 1 x = .ok v → ∃ v', ev' 1 x = .ok v' ∧ v' ≤ v) {ε : ℝ} {de : DiffEvo W d} (hde : ApproxSearch ε de) {bound : Py (Box ℝ d)}
    {w w₁ w' w₁' : W} {x x' : Fin d → ℝ} {fid : ℤ} (h : mfChoose ev none de bound w = .ok ((x, 1), w₁)) (h' : mfChoose ev' none de bound w' = .ok ((x', fid), w₁')) :
    fid = 1 ∨ ∃ vh vl, ev 0 x' = .ok vh ∧ ev 1 x = .ok vl ∧ vl < vh + ε ∧ vh ≤ vl + ε := by
  obtain ⟨b, v, hb, hx, _, hv, _, hlt⟩ := query_best hde h
  obtain ⟨b', v', hb', hx', hf, hv', hle, _⟩ := query_best hde h'
  rw [hb] at hb'
  cases hb'
  rcases hf with rfl | rfl
  · right
    rw [h0] at hv'
    obtain ⟨u, hu, huv⟩ := h1 x v hv
    exact ⟨v', v, hv', hv, hlt rfl x' v' hx' hv', (hle 1 (Or.inr rfl) x u hx hu).trans (by linarith)⟩
  · exact Or.inl rfl

theorem choose_samePoint {ev ev' : ℤ → (Fin d → ℝ) → Py ℝ} (h0 : ev' 0 = ev 0) {de : DiffEvo W d} {bound : Py (Box ℝ d)} {w w₁ w₁' : W} {x x' : Fin d → ℝ}
    (h : mfChoose ev none de bound w = .ok ((x, 0), w₁)) (h' : mfChoose ev' none de bound w = .ok ((x', 0), w₁')) : x = x' := by
  obtain ⟨b, hf, wm, lf, hb, h1, h2, hc⟩ := mfChoose_ok h
  obtain ⟨b', hf', wm', lf', hb', h1', h2', hc'⟩ := mfChoose_ok h'
  rw [hb] at hb'
  cases hb'
  rw [h0, h1] at h1'
  cases h1'
  rcases hc with ⟨_, e, _⟩ | ⟨_, _, e⟩
  · rcases hc' with ⟨_, e', _⟩ | ⟨_, _, e'⟩
    · exact e.trans e'.symm
    · exact absurd e' (by norm_num)
  · exact absurd e (by norm_num)

theorem choose_eventually {ev : ℝ → ℤ → (Fin d → ℝ) → Py ℝ} (h0 : ∀ cr cr', ev cr 0 = ev cr' 0) {de : DiffEvo W d} (hde : ApproxSearch 0 de) {bound : Py (Box ℝ d)} {b : Box ℝ d} (hb : bound = .ok b) {x₀ : Fin d → ℝ}
    (hx₀ : InBounds b x₀) {p q : ℝ} (hq : q < 0) (hev : ∀ cr, ev cr 1 x₀ = .ok (p + cr * q)) {cr₀ : ℝ} {w₀ : W} {r : ((Fin d → ℝ) × ℤ) × W} (h : mfChoose (ev cr₀) none de bound w₀ = .ok r) :
    ∃ C, ∀ cr, C ≤ cr → ∀ w w₁ x fid, mfChoose (ev cr) none de bound w = .ok ((x, fid), w₁) → fid = 1 := by
  obtain ⟨⟨x₁, fid₁⟩, w₁⟩ := r
  obtain ⟨b₁, v₁, hb₁, _, _, _, hle, _⟩ := query_best hde h
  rw [hb] at hb₁
  cases hb₁
  refine ⟨(v₁ - 1 - p) / q, fun cr hcr w w' x fid h' => ?_⟩
  obtain ⟨b₂, v, hb₂, hx, hf, hv, hle', _⟩ := query_best hde h'
  rw [hb] at hb₂
  cases hb₂
  rcases hf with rfl | rfl
  · exfalso
    rw [h0 cr cr₀] at hv
    have e1 := hle 0 (Or.inl rfl) x v hx hv
    have e2 := hle' 1 (Or.inr rfl) x₀ _ hx₀ (hev cr)
    have e3 : cr * q ≤ v₁ - 1 - p := by
      have := mul_le_mul_of_nonpos_right hcr hq.le
      rwa [div_mul_cancel₀ _ hq.ne] at this
    linarith
  · rfl

/-! ### Augmented expected improvement -/

theorem aei_hf_cost (s : MFSurr d) (cr cr' : ℝ) : single (aeiEval s cr 0) = single (aeiEval s cr' 0) := by
  have : (aeiEval s cr 0 : Samples 1 d → Py (Fin 1 → ℝ)) = aeiEval s cr' 0 := by
    funext x
    unfold aeiEval
    simp only [if_true]
  rw [this]

theorem aei_lf_cost {s : MFSurr d} (hs : MFNonneg s) {cr : ℝ} {x : Fin d → ℝ} {v : ℝ} (h : single (aeiEval s cr 1) x = .ok v) : ∃ u, u ≤ 0 ∧ v = cr * u ∧ ∀ cr', single (aeiEval s cr' 1) x = .ok (cr' * u) := by
  unfold single at h
  obtain ⟨g, hg, h⟩ := Py.bind_ok.mp h
  cases h
  obtain ⟨mean, std, meanL, stdL, corr, v0, _, _, h0, hc, hall, hv, _, _⟩ := C66_aei_lf_partial hs hg
  obtain ⟨fm, mean', std', _, _, hnn⟩ := C66_aei_hf h0
  refine ⟨corr 0 * v0 0, ?_, by rw [hv]; ring, fun cr' => ?_⟩
  · exact mul_nonpos_of_nonneg_of_nonpos (hc 0).2.1 (by linarith [(hnn 0).2.2])
  · unfold single
    rw [hall cr']
    simp only [bind, Except.bind, mul_assoc]

/-- **C160 (augmented EI).** The cost ratio acts as intended. -/
theorem C160_aei {s : MFSurr d} (hs : MFNonneg s) {de : DiffEvo W d} (hde : ApproxSearch 0 de) (fmin : ℝ) :
    RespectsCost (fun cr w => aeiQuery none de s cr fmin w) (WorthSomewhere s.bound fun x => (aeiEval s 1 1 (onePoint x)).map (· 0)) where
  monotone := by
    intro cr cr' w w₁ w' w₁' x x' fid h0 hle h h'
    have hm : ∀ y v, single (aeiEval s cr 1) y = .ok v → ∃ v', single (aeiEval s cr' 1) y = .ok v' ∧ v' ≤ v := by
      intro y v hv
      obtain ⟨u, hu, rfl, hall⟩ := aei_lf_cost hs hv
      exact ⟨_, hall cr', mul_le_mul_of_nonpos_right hle hu⟩
    rcases choose_monotone (ev := fun f => single (aeiEval s cr f)) (ev' := fun f => single (aeiEval s cr' f)) (aei_hf_cost s cr' cr) hm hde h h' with e | ⟨vh, vl, _, _, h1, h2⟩
    · exact e
    · linarith
  samePoint := fun cr cr' w w₁ w₁' x x' h h' => choose_samePoint (aei_hf_cost s cr' cr) h h'
  eventually := by
    rintro ⟨b, x, v, hb, hx, hv, hneg⟩ ⟨cr₀, w₀, r, h⟩
    have hv' : single (aeiEval s 1 1) x = .ok v := by
      unfold single
      simp only at hv
      cases hg : aeiEval s 1 1 (onePoint x) with
      | error e => rw [hg] at hv; cases hv
      | ok g => rw [hg] at hv; exact hv
    obtain ⟨u, hu, rfl, hall⟩ := aei_lf_cost hs hv'
    rw [one_mul] at hneg
    exact choose_eventually (p := 0) (q := u) (fun cr cr' => aei_hf_cost s cr cr') hde hb hx hneg (fun cr => by rw [zero_add]; exact hall cr) h

/-! ### Lower confidence bound -/

theorem vflcb_hf_cost (kappa : ℝ × ℝ) (s : MFSurr d) (cr cr' : ℝ) : single (vflcbEval kappa s cr 0) = single (vflcbEval kappa s cr' 0) := by
  have : (vflcbEval kappa s cr 0 : Samples 1 d → Py (Fin 1 → ℝ)) = vflcbEval kappa s cr' 0 := by
    funext x
    unfold vflcbEval
    simp only [if_true]
  rw [this]

theorem vflcb_lf_cost {kappa : ℝ × ℝ} {s : MFSurr d} {x : Fin d → ℝ} {mean std meanL stdL : Fin 1 → ℝ} (h1 : s.predictStd 1 (onePoint x) = .ok (mean, std)) (h2 : s.predictLfStd 1 (onePoint x) = .ok (meanL, stdL)) (cr : ℝ) :
    single (vflcbEval kappa s cr 1) x = .ok (kappa.1 * mean 0 + cr * -(kappa.2 * stdL 0)) := by
  unfold single vflcbEval
  rw [h1]
  simp only [bind, Except.bind, h2, one_ne_zero, if_false, if_true]
  congr 1
  ring

/-- **C160 (lower confidence bound).** The cost ratio acts as intended, if the weight of the standard deviation is not negative (the low fidelity is worth something where it is uncertain). -/
theorem C160_vflcb {s : MFSurr d} (hs : MFNonneg s) {de : DiffEvo W d} (hde : ApproxSearch 0 de) {kappa : ℝ × ℝ} (hk : 0 ≤ kappa.2) (fmin : ℝ) :
    RespectsCost (fun cr w => vflcbQuery kappa none de s cr fmin w)
      (0 < kappa.2 ∧ WorthSomewhere s.bound fun x => do let _ ← s.predictStd 1 (onePoint x); let r ← s.predictLfStd 1 (onePoint x); .ok (-r.2 0)) where
  monotone := by
    intro cr cr' w w₁ w' w₁' x x' fid h0 hle h h'
    have hm : ∀ y v, single (vflcbEval kappa s cr 1) y = .ok v → ∃ v', single (vflcbEval kappa s cr' 1) y = .ok v' ∧ v' ≤ v := by
      intro y v hv
      have hv' := hv
      unfold single at hv'
      obtain ⟨g, hg, _⟩ := Py.bind_ok.mp hv'
      obtain ⟨mean, std, meanL, stdL, h1, h2, _⟩ := C64_vflcb hg
      refine ⟨_, vflcb_lf_cost h1 h2 cr', ?_⟩
      rw [vflcb_lf_cost h1 h2 cr] at hv
      cases hv
      have := mul_le_mul_of_nonpos_right hle (neg_nonpos.mpr (mul_nonneg hk (hs.2 _ _ _ _ h2 0)))
      linarith
    rcases choose_monotone (ev := fun f => single (vflcbEval kappa s cr f)) (ev' := fun f => single (vflcbEval kappa s cr' f)) (vflcb_hf_cost kappa s cr' cr) hm hde h h' with e | ⟨vh, vl, _, _, h1, h2⟩
    · exact e
    · linarith
  samePoint := fun cr cr' w w₁ w₁' x x' h h' => choose_samePoint (vflcb_hf_cost kappa s cr' cr) h h'
  eventually := by
    rintro ⟨hk, b, x, v, hb, hx, hv, hneg⟩ ⟨cr₀, w₀, r, h⟩
    obtain ⟨⟨mean, std⟩, h1, hv⟩ := Py.bind_ok.mp hv
    obtain ⟨⟨meanL, stdL⟩, h2, hv⟩ := Py.bind_ok.mp hv
    cases hv
    exact choose_eventually (fun cr cr' => vflcb_hf_cost kappa s cr cr') hde hb hx (neg_neg_iff_pos.mpr (mul_pos hk (by simpa using hneg))) (fun cr => vflcb_lf_cost h1 h2 cr) h

/-! ### Extended probability of improvement -/

/-- `_eval_corr` never returns negative numbers. -/
def CorrNonneg (s : MFSurr d) : Prop := ∀ m k X X' fid R, s.evalCorr m k X X' fid = .ok (some R) → ∀ i j, 0 ≤ R i j

theorem rbfMatrix_nonneg {n m : ℕ} (param : Fin d → ℝ) (X : Samples n d) (Y : Samples m d) (i : Fin n) (j : Fin m) : 0 ≤ rbfMatrix param X Y i j := by
  unfold rbfMatrix
  have := nugget_pos
  split_ifs <;> positivity

theorem ofHK_corrNonneg {nh nl q : ℕ} (hk : HKObj d q) (t : HKFit nh nl d q) : CorrNonneg (MFSurr.ofHK hk t) := by
  intro m k X X' fid R h i j
  simp only [MFSurr.ofHK, HKObj.evalCorr] at h
  obtain ⟨_, _, h⟩ := Py.bind_ok.mp h
  obtain ⟨_, _, h⟩ := Py.bind_ok.mp h
  split_ifs at h
  · cases h; exact rbfMatrix_nonneg _ _ _ _ _
  · cases h; exact rbfMatrix_nonneg _ _ _ _ _
  · cases h

theorem ofSK_corrNonneg {nh nl ql qd : ℕ} (sk : SKObj d ql qd) (t : SKFit nh nl d ql qd) : CorrNonneg (MFSurr.ofSK sk t) := by
  intro m k X X' fid R h i j
  simp only [MFSurr.ofSK] at h
  obtain ⟨_, _, h⟩ := Py.bind_ok.mp h
  obtain ⟨_, _, h⟩ := Py.bind_ok.mp h
  split_ifs at h
  · cases h; exact rbfMatrix_nonneg _ _ _ _ _
  · cases h; exact rbfMatrix_nonneg _ _ _ _ _
  · cases h

/-- The acquisition ExtendedPI at one point. -/
noncomputable def epiAt (s : MFSurr d) (fmin cr : ℝ) (fid : ℤ) : (Fin d → ℝ) → Py ℝ := single (fun x => do let v ← epiEval s fmin cr fid x; .ok (fun i => v i i))

theorem epi_hf_cost (s : MFSurr d) (fmin cr cr' : ℝ) : epiAt s fmin cr 0 = epiAt s fmin cr' 0 := by
  have : (epiEval s fmin cr 0 : Samples 1 d → _) = epiEval s fmin cr' 0 := by
    funext x
    unfold epiEval
    simp only [if_true]
  unfold epiAt
  rw [this]

theorem epiAt_eq (s : MFSurr d) (fmin cr : ℝ) (fid : ℤ) (x : Fin d → ℝ) : epiAt s fmin cr fid x = (epiEval s fmin cr fid (onePoint x)).map fun v => v 0 0 := by
  unfold epiAt single
  cases hv : epiEval s fmin cr fid (onePoint x) <;> simp [hv, bind, Except.bind, Except.map]

theorem epi_lf_cost {s : MFSurr d} (hs : MFNonneg s) (hc : CorrNonneg s) {fmin cr : ℝ} {x : Fin d → ℝ} {v : ℝ} (h : epiAt s fmin cr 1 x = .ok v) :
    ∃ u, u ≤ 0 ∧ v = cr * u ∧ ∀ cr', epiAt s fmin cr' 1 x = .ok (cr' * u) := by
  rw [epiAt_eq] at h
  cases hg : epiEval s fmin cr 1 (onePoint x) with
  | error e => rw [hg] at h; cases h
  | ok g =>
    rw [hg] at h
    cases h
    have hg' := hg
    unfold epiEval at hg
    obtain ⟨⟨mean, std⟩, hp, hg⟩ := Py.bind_ok.mp hg
    obtain ⟨c, hcc, hg⟩ := Py.bind_ok.mp hg
    cases c with
    | none => cases hg
    | some c =>
      simp only [one_ne_zero, if_false] at hg
      obtain ⟨r, hr, hg⟩ := Py.bind_ok.mp hg
      cases r with
      | none => cases hg
      | some R =>
        cases hg
        have hc0 : 0 ≤ c 0 := by
          simp only [fidelityCorr, one_ne_zero, if_false, if_true] at hcc
          obtain ⟨⟨mean', std'⟩, hp', hcc⟩ := Py.bind_ok.mp hcc
          obtain ⟨⟨meanL, stdL⟩, hl, hcc⟩ := Py.bind_ok.mp hcc
          simp only at hcc
          split_ifs at hcc
          cases hcc
          exact div_nonneg (hs.2 _ _ _ _ hl 0) (add_nonneg (abs_nonneg _) (hs.1 _ _ _ _ hp' 0))
        have hf0 : 0 ≤ epiFormula fmin (mean 0) (std 0) := by
          unfold epiFormula
          split_ifs
          · exact le_rfl
          · exact normCdf_nonneg _
        have hR0 : 0 ≤ ∏ k, R 0 k := Finset.prod_nonneg fun k _ => hc _ _ _ _ _ _ hr _ _
        refine ⟨-(epiFormula fmin (mean 0) (std 0) * c 0 * ∏ k, R 0 k), neg_nonpos.mpr (by positivity), by ring, fun cr' => ?_⟩
        rw [epiAt_eq]
        unfold epiEval
        rw [hp]
        simp only [bind, Except.bind, hcc, one_ne_zero, if_false, hr, Except.map]
        congr 1
        ring

/-- What an exact query of extended PI does: it minimises the acquisition for the least predicted mean. -/
theorem epiQuery_ok {s : MFSurr d} {de : DiffEvo W d} {cr fmin : ℝ} {w : W} {r : ((Fin d → ℝ) × ℤ) × W} (h : epiQuery none de s cr fmin w = .ok r) :
    ∃ b pm w₂, s.bound = .ok b ∧ de (single (s.predict 1)) b w = .ok (pm, w₂) ∧ mfChoose (epiAt s pm.2 cr) none de s.bound w₂ = .ok r := by
  unfold epiQuery at h
  obtain ⟨b, hb, h⟩ := Py.bind_ok.mp h
  obtain ⟨⟨pm, w₂⟩, hpm, h⟩ := Py.bind_ok.mp h
  exact ⟨b, pm, w₂, hb, hpm, h⟩

theorem epi_min_unique {s : MFSurr d} {de : DiffEvo W d} (hde : ApproxSearch 0 de) {b : Box ℝ d} {w w₂ w' w₂' : W} {pm pm' : (Fin d → ℝ) × ℝ} (h : de (single (s.predict 1)) b w = .ok (pm, w₂))
    (h' : de (single (s.predict 1)) b w' = .ok (pm', w₂')) : pm.2 = pm'.2 := by
  obtain ⟨g1, g2⟩ := hde.1 _ _ _ _ _ _ h
  obtain ⟨g1', g2'⟩ := hde.1 _ _ _ _ _ _ h'
  have m := hde.2 _ _ _ _ _ _ h _ _ g1' g2'
  have m' := hde.2 _ _ _ _ _ _ h' _ _ g1 g2
  linarith

/-- **C160 (extended PI).** The cost ratio acts as intended (`y` is the least predicted mean). -/
theorem C160_epi {s : MFSurr d} (hs : MFNonneg s) (hc : CorrNonneg s) {de : DiffEvo W d} (hde : ApproxSearch 0 de) (fmin : ℝ) :
    RespectsCost (fun cr w => epiQuery none de s cr fmin w) (∃ x, ∀ y, ∃ box v, s.bound = .ok box ∧ InBounds box x ∧ (epiEval s y 1 1 (onePoint x)).map (fun v => v 0 0) = .ok v ∧ v < 0) where
  monotone := by
    intro cr cr' w w₁ w' w₁' x x' fid h0 hle h h'
    obtain ⟨b, pm, w₂, hb, hpm, h⟩ := epiQuery_ok h
    obtain ⟨b', pm', w₂', hb', hpm', h'⟩ := epiQuery_ok h'
    rw [hb] at hb'
    cases hb'
    rw [← epi_min_unique hde hpm hpm'] at h'
    have hm : ∀ y v, epiAt s pm.2 cr 1 y = .ok v → ∃ v', epiAt s pm.2 cr' 1 y = .ok v' ∧ v' ≤ v := by
      intro y v hv
      obtain ⟨u, hu, rfl, hall⟩ := epi_lf_cost hs hc hv
      exact ⟨_, hall cr', mul_le_mul_of_nonpos_right hle hu⟩
    rcases choose_monotone (epi_hf_cost s pm.2 cr' cr) hm hde h h' with e | ⟨vh, vl, _, _, h1, h2⟩
    · exact e
    · linarith
  samePoint := by
    intro cr cr' w w₁ w₁' x x' h h'
    obtain ⟨b, pm, w₂, hb, hpm, h⟩ := epiQuery_ok h
    obtain ⟨b', pm', w₂', hb', hpm', h'⟩ := epiQuery_ok h'
    rw [hb] at hb'
    cases hb'
    rw [hpm] at hpm'
    cases hpm'
    exact choose_samePoint (epi_hf_cost s pm.2 cr' cr) h h'
  eventually := by
    rintro ⟨x, hx⟩ ⟨cr₀, w₀, r, h⟩
    obtain ⟨b, pm, w₂, hb, hpm, h⟩ := epiQuery_ok h
    obtain ⟨b', v, hb', hin, hv, hneg⟩ := hx pm.2
    rw [hb] at hb'
    cases hb'
    rw [← epiAt_eq] at hv
    obtain ⟨u, hu, rfl, hall⟩ := epi_lf_cost hs hc hv
    rw [one_mul] at hneg
    obtain ⟨C, hC⟩ := choose_eventually (p := 0) (q := u) (fun cr cr' => epi_hf_cost s pm.2 cr cr') hde hb hin hneg (fun cr => by rw [zero_add]; exact hall cr) h
    refine ⟨C, fun cr hcr w w₁ x fid h' => ?_⟩
    obtain ⟨b', pm', w₂', hb', hpm', h'⟩ := epiQuery_ok h'
    rw [hb] at hb'
    cases hb'
    rw [← epi_min_unique hde hpm hpm'] at h'
    exact hC cr hcr _ _ _ _ h'

/-! ### Approximate searches -/

/-- With searches that are exact up to `ε`, a larger cost ratio can bring back the high fidelity only in a tie: the two acquisition values differ by at most `ε`. -/
theorem C160_near {s : MFSurr d} (hs : MFNonneg s) {ε : ℝ} {de : DiffEvo W d} (hde : ApproxSearch ε de) {kappa : ℝ × ℝ} (hk : 0 ≤ kappa.2) {fmin cr cr' : ℝ} (hle : cr ≤ cr') {w w₁ w' w₁' : W} {x x' : Fin d → ℝ} :
    (aeiQuery none de s cr fmin w = .ok ((x, 1), w₁) → aeiQuery none de s cr' fmin w' = .ok ((x', 0), w₁') →
      ∃ vh vl, (aeiEval s cr 0 (onePoint x')).map (· 0) = .ok vh ∧ (aeiEval s cr 1 (onePoint x)).map (· 0) = .ok vl ∧ |vh - vl| ≤ ε) ∧
    (vflcbQuery kappa none de s cr fmin w = .ok ((x, 1), w₁) → vflcbQuery kappa none de s cr' fmin w' = .ok ((x', 0), w₁') →
      ∃ vh vl, (vflcbEval kappa s cr 0 (onePoint x')).map (· 0) = .ok vh ∧ (vflcbEval kappa s cr 1 (onePoint x)).map (· 0) = .ok vl ∧ |vh - vl| ≤ ε) := by
  have hmap : ∀ (ev : Samples 1 d → Py (Fin 1 → ℝ)) x v, single ev x = .ok v → (ev (onePoint x)).map (· 0) = .ok v := by
    intro ev x v h
    unfold single at h
    obtain ⟨g, hg, h⟩ := Py.bind_ok.mp h
    cases h
    rw [hg]
    rfl
  constructor
  · intro h h'
    have hm : ∀ y v, single (aeiEval s cr 1) y = .ok v → ∃ v', single (aeiEval s cr' 1) y = .ok v' ∧ v' ≤ v := by
      intro y v hv
      obtain ⟨u, hu, rfl, hall⟩ := aei_lf_cost hs hv
      exact ⟨_, hall cr', mul_le_mul_of_nonpos_right hle hu⟩
    rcases choose_monotone (ev := fun f => single (aeiEval s cr f)) (ev' := fun f => single (aeiEval s cr' f)) (aei_hf_cost s cr' cr) hm hde h h' with e | ⟨vh, vl, e1, e2, h1, h2⟩
    · exact absurd e (by norm_num)
    · exact ⟨vh, vl, hmap _ _ _ e1, hmap _ _ _ e2, abs_le.mpr ⟨by linarith, by linarith⟩⟩
  · intro h h'
    have hm : ∀ y v, single (vflcbEval kappa s cr 1) y = .ok v → ∃ v', single (vflcbEval kappa s cr' 1) y = .ok v' ∧ v' ≤ v := by
      intro y v hv
      have hv' := hv
      unfold single at hv'
      obtain ⟨g, hg, _⟩ := Py.bind_ok.mp hv'
      obtain ⟨mean, std, meanL, stdL, h1, h2, _⟩ := C64_vflcb hg
      refine ⟨_, vflcb_lf_cost h1 h2 cr', ?_⟩
      rw [vflcb_lf_cost h1 h2 cr] at hv
      cases hv
      have := mul_le_mul_of_nonpos_right hle (neg_nonpos.mpr (mul_nonneg hk (hs.2 _ _ _ _ h2 0)))
      linarith
    rcases choose_monotone (ev := fun f => single (vflcbEval kappa s cr f)) (ev' := fun f => single (vflcbEval kappa s cr' f)) (vflcb_hf_cost kappa s cr' cr) hm hde h h' with e | ⟨vh, vl, e1, e2, h1, h2⟩
    · exact absurd e (by norm_num)
    · exact ⟨vh, vl, hmap _ _ _ e1, hmap _ _ _ e2, abs_le.mpr ⟨by linarith, by linarith⟩⟩

/-! ### VFEI -/

/-- **C160 (VFEI, what holds).** The first two clauses, because the cost ratio is ignored. A query proposes the low fidelity only where the high-fidelity prediction is certain (standard deviation below machine epsilon), or
if no point promises an improvement at the high fidelity. -/
theorem C160_vfei_partial (s : MFSurr d) {de : DiffEvo W d} (hde : ApproxSearch 0 de) (fmin : ℝ) :
    RespectsCost (fun cr w => vfeiQuery none de s cr fmin w) False ∧ (∀ cr cr' w, vfeiQuery none de s cr fmin w = vfeiQuery none de s cr' fmin w) ∧
    ∀ cr w w₁ x, vfeiQuery none de s cr fmin w = .ok ((x, 1), w₁) →
      (∃ mean std, s.predictStd 1 (onePoint x) = .ok (mean, std) ∧ std 0 < 2 ^ (-52 : ℤ)) ∨
      ∃ b, s.bound = .ok b ∧ ∀ x' v, InBounds b x' → (vfeiEval fmin s 0 (onePoint x')).map (· 0) = .ok v → 0 < v := by
  have hsing : ∀ (ev : Samples 1 d → Py (Fin 1 → ℝ)) x, single ev x = (ev (onePoint x)).map (· 0) := by
    intro ev x
    unfold single
    cases hv : ev (onePoint x) <;> simp [hv, bind, Except.bind, Except.map]
  refine ⟨⟨?_, ?_, nofun⟩, fun _ _ _ => rfl, ?_⟩
  · intro cr cr' w w₁ w' w₁' x x' fid _ _ h h'
    rcases choose_monotone (ev := fun f => single (vfeiEval fmin s f)) rfl (fun y v hv => ⟨v, hv, le_rfl⟩) hde h h' with e | ⟨vh, vl, _, _, h1, h2⟩
    · exact e
    · linarith
  · exact fun cr cr' w w₁ w₁' x x' h h' => choose_samePoint (ev := fun f => single (vfeiEval fmin s f)) rfl h h'
  · intro cr w w₁ x h
    obtain ⟨b, v, hb, hx, _, hv, _, hlt⟩ := query_best (evalAt := fun f => single (vfeiEval fmin s f)) hde h
    have hlt := hlt rfl
    simp only [hsing] at hv hlt
    by_cases hk : s.isHK = false
    · rw [C67_vfei_rejects hk] at hv
      cases hv
    unfold vfeiEval at hv
    rw [if_neg hk] at hv
    cases hp : s.predictStd 1 (onePoint x) with
    | error e => rw [hp] at hv; cases hv
    | ok r =>
      obtain ⟨mean, std⟩ := r
      have h0 : vfeiEval fmin s 0 (onePoint x) = .ok fun j => -vfeiFormula fmin (mean j) (std j) (std j) := by
        unfold vfeiEval
        rw [if_neg hk, hp]
        rfl
      by_cases hstd : std 0 < 2 ^ (-52 : ℤ)
      · exact Or.inl ⟨mean, std, rfl, hstd⟩
      right
      refine ⟨b, hb, ?_⟩
      rw [hp] at hv
      simp only [bind, Except.bind, one_ne_zero, if_false, if_true] at hv
      cases hl : s.predictLfStd 1 (onePoint x) with
      | error e => rw [hl] at hv; cases hv
      | ok rl =>
        rw [hl] at hv
        simp only at hv
        cases hbeta : s.beta with
        | error e => rw [hbeta] at hv; cases hv
        | ok beta =>
          rw [hbeta] at hv
          cases hv
          by_cases hz : beta * rl.2 0 < floatEps
          · intro x' v' hx' hv'
            have := hlt x' v' hx' hv'
            simp only [vfeiFormula, if_pos hz, neg_zero, add_zero] at this
            exact this
          · exfalso
            have := hlt x _ hx (by rw [h0]; rfl)
            have hstd' : ¬ std 0 < floatEps := hstd
            simp only [vfeiFormula, if_neg hz, if_neg hstd', add_zero, lt_irrefl] at this

/-- The constant surrogate of the examples: every acquisition value is the same at all points, so the search at the corner is exact. -/
theorem corner_constant (c : ℝ) : cornerSearch 1 (fun _ => .ok c) ⟨fun _ => 0, fun _ => 1⟩ () = .ok ((fun _ => 0, c), ()) := by
  simp only [cornerSearch, bind, Except.bind]
  rw [if_pos ⟨fun j => by norm_num, fun x v' _ e => by cases e; exact le_rfl⟩]

/-- **C160 is false for VFEI**: a low-fidelity evaluation promises an improvement, but however cheap it is the high fidelity is chosen. -/
theorem C160_counterexample : MFNonneg (constMF true 0 1 0 1 1) ∧
    ¬ RespectsCost (fun cr w => vfeiQuery none (cornerSearch 1) (constMF true 0 1 0 1 1) cr 0 w) (WorthSomewhere (constMF true 0 1 0 1 1).bound fun x => (vfeiEval 0 (constMF true 0 1 0 1 1) 1 (onePoint x)).map (· 0)) := by
  have he : ¬ (1 : ℝ) < floatEps := by
    have : floatEps ≤ 1 := by
      unfold floatEps
      exact zpow_le_one_of_nonpos₀ (by norm_num) (by norm_num)
    linarith
  have hv : ∀ fid : ℤ, fid = 0 ∨ fid = 1 → single (vfeiEval 0 (constMF true 0 1 0 1 1) fid) = fun _ => .ok (-normPdf 0) := by
    intro fid hf
    funext x
    rcases hf with rfl | rfl
    · show Except.ok (-vfeiFormula 0 0 1 1) = _
      simp [vfeiFormula, he]
    · show Except.ok (-vfeiFormula 0 0 1 (1 * 1)) = _
      simp [vfeiFormula, he]
  have hq : ∀ cr, vfeiQuery none (cornerSearch 1) (constMF true 0 1 0 1 1) cr 0 () = .ok ((fun _ => 0, 0), ()) := by
    intro cr
    unfold vfeiQuery mfChoose
    simp only [hv 0 (Or.inl rfl), hv 1 (Or.inr rfl)]
    show (do let b ← (Except.ok (⟨fun _ => 0, fun _ => 1⟩ : Box ℝ 1) : Py _); _) = _
    simp only [bind, Except.bind, corner_constant, le_refl, if_true]
  refine ⟨constMF_nonneg _ _ _ _ zero_le_one zero_le_one, fun h => ?_⟩
  obtain ⟨C, hC⟩ := h.eventually ⟨⟨fun _ => 0, fun _ => 1⟩, fun _ => 0, -normPdf 0, rfl, fun _ => ⟨le_rfl, zero_le_one⟩, by
    have := congrFun (hv 1 (Or.inr rfl)) (fun _ => 0)
    exact this, neg_neg_iff_pos.mpr (normPdf_pos 0)⟩ ⟨0, (), _, hq 0⟩
  exact absurd (hC C le_rfl () () _ 0 (hq C)) (by norm_num)

/-- The hypotheses are met: with the lower confidence bound and the constant surrogate the high fidelity is chosen at cost ratio 0 and the low fidelity at cost ratio 2. -/
example : vflcbQuery (1, 1) none (cornerSearch 1) (constMF true 0 1 0 1 1) 0 0 () = .ok ((fun _ => 0, 0), ()) ∧ vflcbQuery (1, 1) none (cornerSearch 1) (constMF true 0 1 0 1 1) 2 0 () = .ok ((fun _ => 0, 1), ()) := by
  have hv : ∀ cr : ℝ, single (vflcbEval (1, 1) (constMF true 0 1 0 1 1) cr 0) = (fun _ => .ok (-1)) ∧ single (vflcbEval (1, 1) (constMF true 0 1 0 1 1) cr 1) = fun _ => .ok (-cr) := by
    intro cr
    constructor
    · funext x
      show Except.ok (1 * 0 - 1 * 1 : ℝ) = _
      norm_num
    · funext x
      show Except.ok (1 * 0 - 1 * (1 * cr) : ℝ) = _
      norm_num
  constructor
  · unfold vflcbQuery mfChoose
    simp only [(hv 0).1, (hv 0).2]
    show (do let b ← (Except.ok (⟨fun _ => 0, fun _ => 1⟩ : Box ℝ 1) : Py _); _) = _
    simp only [bind, Except.bind, corner_constant]
    norm_num
  · unfold vflcbQuery mfChoose
    simp only [(hv 2).1, (hv 2).2]
    show (do let b ← (Except.ok (⟨fun _ => 0, fun _ => 1⟩ : Box ℝ 1) : Py _); _) = _
    simp only [bind, Except.bind, corner_constant]
    norm_num

end Mfpml.Props
