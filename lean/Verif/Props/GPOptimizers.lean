import Verif.Model.GPOptimizers
import Verif.Props.EvolutionaryRaise
import Verif.Props.PSO
import Verif.Props.DE
import Verif.Props.GP

/-!
# C84: hyper-parameter searches with the library's own PSO and DE
-/

set_option linter.unusedSectionVars false

namespace Mfpml.Props

open Mfpml Mfpml.GP Mfpml.Spec Mfpml.EA

theorem evalRows_ok {D : ℕ} {obj : (Fin D → ℝ) → Py ℝ} {g : (Fin D → ℝ) → ℝ} : ∀ (P : ℕ) (X : Pop ℝ P D), (∀ i, obj (X i) = .ok (g (X i))) → evalRows obj P X = .ok fun i => g (X i) := by
  intro P
  induction P with
  | zero => intro X _; exact congrArg Except.ok (funext fun i => i.elim0)
  | succ P ih =>
    intro X h
    simp only [evalRows, h 0, ih (fun i => X i.succ) (fun i => h i.succ), bind, Except.bind]
    congr 1
    funext i
    refine Fin.cases ?_ (fun k => ?_) i
    · rfl
    · rfl

theorem evalRows_inv {D : ℕ} {obj : (Fin D → ℝ) → Py ℝ} : ∀ (P : ℕ) (X : Pop ℝ P D) (y : Fin P → ℝ), evalRows obj P X = .ok y → ∀ i, obj (X i) = .ok (y i) := by
  intro P
  induction P with
  | zero => intro X y _ i; exact i.elim0
  | succ P ih =>
    intro X y h
    simp only [evalRows] at h
    obtain ⟨y0, h0, h⟩ := Py.bind_ok.mp h
    obtain ⟨ys, h1, h⟩ := Py.bind_ok.mp h
    cases h
    intro i
    refine Fin.cases ?_ (fun k => ?_) i
    · exact h0
    · exact ih _ _ h1 k

open Classical in
/-- The values of an objective, 0 where it raises. -/
noncomputable def valueOf {D : ℕ} (obj : (Fin D → ℝ) → Py ℝ) (x : Fin D → ℝ) : ℝ := if h : ∃ v, obj x = .ok v then h.choose else 0

theorem valueOf_eq {D : ℕ} {obj : (Fin D → ℝ) → Py ℝ} {x : Fin D → ℝ} {v : ℝ} (h : obj x = .ok v) : valueOf obj x = v := by
  have hx : ∃ v, obj x = .ok v := ⟨v, h⟩
  unfold valueOf
  rw [dif_pos hx]
  exact (Except.ok.inj (h.symm.trans hx.choose_spec)).symm

theorem valueOf_ok {D : ℕ} {obj : (Fin D → ℝ) → Py ℝ} {x : Fin D → ℝ} (h : ∃ v, obj x = .ok v) : obj x = .ok (valueOf obj x) := by
  obtain ⟨v, hv⟩ := h
  rw [valueOf_eq hv, hv]

theorem evalRows_extends {D P : ℕ} (obj : (Fin D → ℝ) → Py ℝ) : Extends (fun X i => valueOf obj (X i)) (evalRows obj P) := by
  intro X y h
  funext i
  exact valueOf_eq (evalRows_inv P X y h i)

/-- C84 (PSO). A hyper-parameter search with a `PSO` object with at least one particle, one generation and a non-negative velocity rate returns, for every objective that does not raise inside the bounds, a
point inside the bounds, and no candidate the run evaluated has a smaller objective value. -/
theorem C84_pso_search {P p : ℕ} (cfg : PSOCfg ℝ) (rnd : (p : ℕ) → PSORand ℝ P p) (hP : 0 < P) (hg : 0 < cfg.numGen) (hv : 0 ≤ cfg.maxVRate) (hu : PSOUnitDraws (rnd p)) (hp : 0 < p)
    (obj : (Fin p → ℝ) → Py ℝ) (lo hi : Fin p → ℝ) (hb : ∀ j, lo j ≤ hi j) (hobj : ∀ x, Between lo hi x → ∃ v, obj x = .ok v) :
    ∃ x v r, psoSearch cfg rnd p obj lo hi = .ok x ∧ Between lo hi x ∧ obj x = .ok v ∧
      psoRunM cfg { low := lo, high := hi } (evalRows obj P) none (rnd p) = .ok r ∧ r.calls.length = cfg.numGen + 1 ∧
      ∀ X ∈ r.calls, ∀ i, ∃ v', obj (X i) = .ok v' ∧ v ≤ v' := by
  have hext := evalRows_extends (P := P) obj
  obtain ⟨r, hr⟩ := ((C14_pso_returns_iff cfg { low := lo, high := hi } (fun X i => valueOf obj (X i)) none (rnd p)
    (fun j => mul_nonneg (sub_nonneg.mpr (hb j)) hv)).1).mpr ⟨hP, hp, hg⟩
  obtain ⟨hin, hx, _⟩ := C01_pso_in_design_space (b := { low := lo, high := hi }) hb hu hr
  obtain ⟨last, hl, hcalls, hy, hx2, _⟩ := C05_pso_stopping_rule hr
  have hlast : last = cfg.numGen := by
    rcases hl.why with h | h
    · exact h
    · exact h.elim
  obtain ⟨hdict, _⟩ := C04_pso_dictionary_partial hr
  obtain ⟨_, _, hmin⟩ := C02_pso_running_minimum hr last hl
  obtain ⟨hrec, hval⟩ := C03_pso_best_attained hr
  have hM : psoRunM cfg { low := lo, high := hi } (evalRows obj P) none (rnd p) = .ok r := by
    cases hM : psoRunM cfg { low := lo, high := hi } (evalRows obj P) none (rnd p) with
    | ok r' =>
      have := ((C83_pso_raise cfg (rnd p) hext).1 r' hM).2
      rw [hr] at this
      exact this.symm
    | error e =>
      have hok : ∀ X ∈ r.calls, ∃ y, evalRows obj P X = .ok y := fun X hX => ⟨_, evalRows_ok (g := valueOf obj) P X fun i => valueOf_ok (hobj _ (hin X hX i))⟩
      rcases (C83_pso_raise cfg (rnd p) hext).2 e hM with h | h | ⟨r', h1, pre, X, post, h2, _, h3⟩
      · rw [hr] at h; cases h
      · have h0 : locInit { low := lo, high := hi } (rnd p).pos ∈ r.calls := by
          cases P with
          | zero => omega
          | succ P' =>
            obtain ⟨last', _, _, _, _, _, _, _, _, _, _, h9, _⟩ := psoRun_ok cfg _ _ _ hr
            rw [h9, psoSeq_calls, List.mem_map]
            refine ⟨0, by simp, ?_⟩
            rw [(psoSeq_row cfg _ _ _ last' 0 (by omega)).1]
            rfl
        obtain ⟨y, hy⟩ := hok _ h0
        rw [hy] at h; cases h
      · rw [hr] at h1; cases h1
        obtain ⟨y, hy⟩ := hok X (by rw [h2]; simp)
        rw [hy] at h3; cases h3
  have hbx : r.bestX = r.retX := (hdict rfl).1
  refine ⟨r.bestX, r.retY, r, by unfold psoSearch; rw [hM]; rfl, ?_, ?_, hM, ?_, ?_⟩
  · rw [hbx]; exact hx
  · rw [hbx, ← hval (valueOf obj) (fun _ _ => rfl)]
    exact valueOf_ok (hobj _ hx)
  · rw [hcalls, hlast]; simp
  · intro X hX i
    refine ⟨valueOf obj (X i), valueOf_ok (hobj _ (hin X hX i)), ?_⟩
    rw [hcalls] at hX
    obtain ⟨g, hg', rfl⟩ := List.mem_map.mp hX
    have hg' : g ≤ last := by have := List.mem_range.mp hg'; omega
    have := hmin.1 g hg' i
    rw [(hrec last hl).2.1 g hg'] at this
    exact this

/-- C84 (DE). The same for a `DE` object with a known strategy and a large enough population. -/
theorem C84_de_search {P p : ℕ} (cfg : DECfg ℝ) (rnd : (p : ℕ) → DERand ℝ P p) (hg : 0 < cfg.numGen)
    (hP : cfg.strategy = "DE/rand/1/bin" ∧ 3 ≤ P ∨ cfg.strategy = "DE/best/1/bin" ∧ 2 ≤ P) (hu : DEUnitDraws (rnd p)) (hp : 0 < p)
    (obj : (Fin p → ℝ) → Py ℝ) (lo hi : Fin p → ℝ) (hb : ∀ j, lo j ≤ hi j) (hobj : ∀ x, Between lo hi x → ∃ v, obj x = .ok v) :
    ∃ x v r, deSearch cfg rnd p obj lo hi = .ok x ∧ Between lo hi x ∧ obj x = .ok v ∧
      deRunM cfg { low := lo, high := hi } (evalRows obj P) none (rnd p) = .ok r ∧ r.calls.length = cfg.numGen + 1 ∧
      ∀ X ∈ r.calls, ∀ i, ∃ v', obj (X i) = .ok v' ∧ v ≤ v' := by
  have hext := evalRows_extends (P := P) obj
  obtain ⟨r, hr⟩ := ((C14_de_returns_iff cfg { low := lo, high := hi } (fun X i => valueOf obj (X i)) none (rnd p)).1).mpr ⟨hp, hg, hP⟩
  obtain ⟨hin, hx, _⟩ := C08_de_in_design_space (b := { low := lo, high := hi }) hb hu hr
  obtain ⟨last, hl, hlen, hc0, hr0, hy, hx2, _⟩ := de_call_log hr
  have hlast : last = cfg.numGen := by
    rcases hl.why with h | h
    · exact h
    · exact h.elim
  obtain ⟨hdict, _⟩ := C11_de_dictionary_partial hr
  obtain ⟨hmin, _, hry, _, hval⟩ := C10_de_running_minimum hr last hl
  obtain ⟨hsel, _, _⟩ := C09_de_selection hr last hl
  have hM : deRunM cfg { low := lo, high := hi } (evalRows obj P) none (rnd p) = .ok r := by
    cases hM : deRunM cfg { low := lo, high := hi } (evalRows obj P) none (rnd p) with
    | ok r' =>
      have := ((C83_de_raise cfg (rnd p) hext).1 r' hM).2
      rw [hr] at this
      exact this.symm
    | error e =>
      have hok : ∀ X ∈ r.calls, ∃ y, evalRows obj P X = .ok y := fun X hX => ⟨_, evalRows_ok (g := valueOf obj) P X fun i => valueOf_ok (hobj _ (hin X hX i))⟩
      rcases (C83_de_raise cfg (rnd p) hext).2 e hM with h | h | ⟨r', h1, pre, X, post, h2, _, h3⟩
      · rw [hr] at h; cases h
      · have h0 : locInit { low := lo, high := hi } (rnd p).pos ∈ r.calls := by
          cases P with
          | zero => omega
          | succ P' =>
            obtain ⟨last', _, _, _, _, _, _, _, h5, _, _, _, _⟩ := deRun_ok cfg _ _ _ hr
            have : r.allSamples 0 = locInit { low := lo, high := hi } (rnd p).pos := by
              rw [h5, (deSeq_row cfg _ _ _ last' 0 (by omega)).1]; rfl
            rw [← this]
            exact List.mem_of_getElem? hc0
        obtain ⟨y, hy⟩ := hok _ h0
        rw [hy] at h; cases h
      · rw [hr] at h1; cases h1
        obtain ⟨y, hy⟩ := hok X (by rw [h2]; simp)
        rw [hy] at h3; cases h3
  have hbx : r.bestX = r.retX := (hdict rfl).1
  refine ⟨r.bestX, r.retY, r, by unfold deSearch; rw [hM]; rfl, ?_, ?_, hM, ?_, ?_⟩
  · rw [hbx]; exact hx
  · rw [hbx, ← hval (valueOf obj) (fun _ _ => rfl)]
    exact valueOf_ok (hobj _ hx)
  · rw [hlen, hlast]
  · intro X hX i
    refine ⟨valueOf obj (X i), valueOf_ok (hobj _ (hin X hX i)), ?_⟩
    have hbest : ∀ g ≤ last, ∀ i, r.retY ≤ r.allResponses g i := by
      intro g hg' i
      rw [hry]
      exact (hmin last (le_refl _)).1.1 g hg' i
    obtain ⟨g, hg', rfl⟩ := List.mem_iff_getElem.mp hX
    cases g with
    | zero =>
      have h1 := hbest 0 (by omega) i
      rw [hr0] at h1
      have h2 : r.calls[0] = r.allSamples 0 := by
        rw [List.getElem?_eq_getElem hg', Option.some.injEq] at hc0
        exact hc0
      rw [h2]; exact h1
    | succ g =>
      obtain ⟨q, hq, hs⟩ := hsel g (by omega)
      rw [List.getElem?_eq_getElem hg', Option.some.injEq] at hq
      rw [hq]
      have h1 := hbest (g + 1) (by omega) i
      by_cases hlt : valueOf obj (q i) < r.allResponses g i
      · rw [((hs i).1 hlt).2] at h1
        exact h1
      · exact le_trans (hbest g (by omega) i) (not_lt.mp hlt)

/-- C84 (assumption discharged). The library's optimisers satisfy the assumption about population optimisers under which training succeeds (C31, C41, C44, C48). -/
theorem C84_good {P : ℕ} (cfg : PSOCfg ℝ) (rnd : (p : ℕ) → PSORand ℝ P p) (cfgD : DECfg ℝ) (rndD : (p : ℕ) → DERand ℝ P p) :
    (0 < P → 0 < cfg.numGen → 0 ≤ cfg.maxVRate → (∀ p, PSOUnitDraws (rnd p)) → GoodPopOptimizer (psoSearch cfg rnd)) ∧
    (0 < cfgD.numGen → (cfgD.strategy = "DE/rand/1/bin" ∧ 3 ≤ P ∨ cfgD.strategy = "DE/best/1/bin" ∧ 2 ≤ P) → (∀ p, DEUnitDraws (rndD p)) → GoodPopOptimizer (deSearch cfgD rndD)) := by
  constructor
  · intro hP hg hv hu p hp obj lo hi hb hobj
    obtain ⟨x, v, r, h1, h2, _⟩ := C84_pso_search cfg rnd hP hg hv (hu p) hp obj lo hi hb hobj
    exact ⟨x, h1, h2⟩
  · intro hg hP hu p hp obj lo hi hb hobj
    obtain ⟨x, v, r, h1, h2, _⟩ := C84_de_search cfgD rndD hg hP (hu p) hp obj lo hi hb hobj
    exact ⟨x, h1, h2⟩

/-- C84 (training). A Gaussian process with a constant trend, known noise and a PSO or DE object as optimiser trains on every sample set with non-constant responses; its kernel parameters are `10^θ` with `θ`
inside the kernel's bounds, and no candidate the optimiser evaluated has a smaller negative log-likelihood. -/
theorem C84_gp_training {n d P : ℕ} (gp : GPObj d 1) (w : World d) (X : Samples n d) (y : Fin n → ℝ) (s : ℝ) (hnoise : gp.noise = some s) (hregr : gp.regr = ordinary d) (hd : 0 < d)
    (hbox : ∀ j, gp.box.low j < gp.box.high j) (hkb : gp.kernel.boundLow ≤ gp.kernel.boundHigh) (i0 j0 : Fin n) (hy : y i0 ≠ y j0) :
    (∀ (cfg : PSOCfg ℝ) (rnd : (p : ℕ) → PSORand ℝ P p), gp.optimizer = some (psoSearch cfg rnd) → 0 < P → 0 < cfg.numGen → 0 ≤ cfg.maxVRate → PSOUnitDraws (rnd d) →
      ∃ gp' t theta v r, gp.train w X y = .ok (gp', t) ∧ (∀ j, gp'.kernel.param j = (10 : ℝ) ^ theta j) ∧ (∀ j, gp.kernel.boundLow ≤ theta j ∧ theta j ≤ gp.kernel.boundHigh) ∧
        gp.logLikKnown s (std y) (fun i => normPt gp.box (X i)) (fun i => (y i - mean y) / std y) theta = .ok v ∧
        psoRunM cfg { low := fun _ => gp.kernel.boundLow, high := fun _ => gp.kernel.boundHigh }
          (evalRows (gp.logLikKnown s (std y) (fun i => normPt gp.box (X i)) (fun i => (y i - mean y) / std y)) P) none (rnd d) = .ok r ∧
        ∀ C ∈ r.calls, ∀ i, ∃ v', gp.logLikKnown s (std y) (fun i => normPt gp.box (X i)) (fun i => (y i - mean y) / std y) (C i) = .ok v' ∧ v ≤ v') ∧
    ∀ (cfg : DECfg ℝ) (rnd : (p : ℕ) → DERand ℝ P p), gp.optimizer = some (deSearch cfg rnd) → 0 < cfg.numGen →
      (cfg.strategy = "DE/rand/1/bin" ∧ 3 ≤ P ∨ cfg.strategy = "DE/best/1/bin" ∧ 2 ≤ P) → DEUnitDraws (rnd d) →
      ∃ gp' t theta v r, gp.train w X y = .ok (gp', t) ∧ (∀ j, gp'.kernel.param j = (10 : ℝ) ^ theta j) ∧ (∀ j, gp.kernel.boundLow ≤ theta j ∧ theta j ≤ gp.kernel.boundHigh) ∧
        gp.logLikKnown s (std y) (fun i => normPt gp.box (X i)) (fun i => (y i - mean y) / std y) theta = .ok v ∧
        deRunM cfg { low := fun _ => gp.kernel.boundLow, high := fun _ => gp.kernel.boundHigh }
          (evalRows (gp.logLikKnown s (std y) (fun i => normPt gp.box (X i)) (fun i => (y i - mean y) / std y)) P) none (rnd d) = .ok r ∧
        ∀ C ∈ r.calls, ∀ i, ∃ v', gp.logLikKnown s (std y) (fun i => normPt gp.box (X i)) (fun i => (y i - mean y) / std y) (C i) = .ok v' ∧ v ≤ v' := by
  have hs : std y ≠ 0 := fun h => hy ((std_eq_zero_iff y).mp h i0 j0)
  have hn : 0 < n := lt_of_le_of_lt (Nat.zero_le _) i0.isLt
  have hr : ∀ j, gp.box.high j - gp.box.low j ≠ 0 := fun j => by have := hbox j; linarith
  have hF : IndepColumns (regrMatrix gp.regr (fun i => normPt gp.box (X i))) := by rw [hregr]; exact ordinary_indep _ hn
  have hne : ∀ b, Matrix.mulVec (regrMatrix gp.regr (fun i => normPt gp.box (X i))) b ≠ fun i => (y i - mean y) / std y := by
    intro b hb
    rw [hregr] at hb
    have h1 := congrFun hb i0
    have h2 := congrFun hb j0
    rw [ordinary_mulVec] at h1 h2
    rw [h1, div_left_inj' hs] at h2
    exact hy (by linarith)
  have hobj : ∀ x, Between (fun _ => gp.kernel.boundLow) (fun _ => gp.kernel.boundHigh) x →
      ∃ v, gp.logLikKnown s (std y) (fun i => normPt gp.box (X i)) (fun i => (y i - mean y) / std y) x = .ok v :=
    fun x _ => negLogLik_ok _ (posDef_covTrain _ _ _) hF hn (fun _ => hne)
  have train : ∀ x, searchHyper gp.optimizer w.mini (gp.logLikKnown s (std y) (fun i => normPt gp.box (X i)) (fun i => (y i - mean y) / std y))
      (fun _ => gp.kernel.boundLow) (fun _ => gp.kernel.boundHigh) w.starts = .ok x → ∃ gp' t, gp.train w X y = .ok (gp', t) ∧ ∀ j, gp'.kernel.param j = (10 : ℝ) ^ x j := by
    intro x hx
    have h3 : gp.fitHyper w (std y) (fun i => normPt gp.box (X i)) (fun i => (y i - mean y) / std y) = .ok (x, s) := by
      unfold GPObj.fitHyper
      rw [hnoise]
      exact Py.bind_ok.mpr ⟨x, hx, rfl⟩
    obtain ⟨g, h4, _⟩ := glsFit_succeeds (fun i => (y i - mean y) / std y) (posDef_covTrain (pow10 x) (fun i => normPt gp.box (X i)) (s / std y)) ((indep_iff _).mp hF) hn
    exact ⟨_, _, Py.bind_ok.mpr ⟨_, normalizeInput_eq X hr, Py.bind_ok.mpr ⟨_, normalizeOutput_eq hs, Py.bind_ok.mpr ⟨_, h3, Py.bind_ok.mpr ⟨_, h4, rfl⟩⟩⟩⟩, fun j => rfl⟩
  constructor
  · intro cfg rnd ho hP hg hv hu
    obtain ⟨x, v, r, h1, h2, h3, h4, _, h5⟩ := C84_pso_search cfg rnd hP hg hv hu hd _ (fun _ => gp.kernel.boundLow) (fun _ => gp.kernel.boundHigh) (fun _ => hkb) hobj
    obtain ⟨gp', t, h6, h7⟩ := train x (by rw [ho]; exact h1)
    exact ⟨gp', t, x, v, r, h6, h7, h2, h3, h4, h5⟩
  · intro cfg rnd ho hg hP hu
    obtain ⟨x, v, r, h1, h2, h3, h4, _, h5⟩ := C84_de_search cfg rnd hg hP hu hd _ (fun _ => gp.kernel.boundLow) (fun _ => gp.kernel.boundHigh) (fun _ => hkb) hobj
    obtain ⟨gp', t, h6, h7⟩ := train x (by rw [ho]; exact h1)
    exact ⟨gp', t, x, v, r, h6, h7, h2, h3, h4, h5⟩

/-- Settings and draws that meet the hypotheses: five particles, three generations. -/
example : ∃ (cfg : PSOCfg ℝ) (rnd : (p : ℕ) → PSORand ℝ 5 p), 0 < cfg.numGen ∧ 0 ≤ cfg.maxVRate ∧ (∀ p, PSOUnitDraws (rnd p)) ∧
    ∃ gp' t, ({ exGP (some 0) with optimizer := some (psoSearch cfg rnd) } : GPObj 1 1).train exWorld exX exY = .ok (gp', t) := by
  let cfg : PSOCfg ℝ := { numGen := 3, cognition := 1, social := 1, weight := 1, maxVRate := 1 / 2 }
  let rnd : (p : ℕ) → PSORand ℝ 5 p := fun p => { pos := fun _ _ => 1 / 2, vel := fun _ _ => 1 / 4, repl := fun _ _ _ _ => 1 / 3 }
  have hu : ∀ p, PSOUnitDraws (rnd p) := fun p =>
    ⟨fun i j => by constructor <;> norm_num [rnd], fun i j => by constructor <;> norm_num [rnd], fun t k i j => by constructor <;> norm_num [rnd]⟩
  refine ⟨cfg, rnd, by simp [cfg], by norm_num [cfg], hu, ?_⟩
  obtain ⟨gp', t, _, _, _, h, _⟩ := (C84_gp_training (P := 5) { exGP (some 0) with optimizer := some (psoSearch cfg rnd) } exWorld exX exY 0 rfl rfl Nat.one_pos
    (fun _ => by simp [exGP]) (by simp [exGP, RBF.mk']; norm_num) 0 2 exY_ne).1 cfg rnd rfl (by norm_num) (by simp [cfg]) (by norm_num [cfg]) (hu 1)
  exact ⟨gp', t, h⟩

end Mfpml.Props
