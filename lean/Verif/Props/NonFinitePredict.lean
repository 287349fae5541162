import Verif.Model.NonFinitePredict
import Verif.Props.NonFinite

/-!
# Improper training data never give proper predictions (C164)
-/

namespace Mfpml.Props

open Mfpml.Spec Mfpml.NonFinite

variable {X Θ W : Type}

/-! ### Operations on improper values -/

theorem improper_add_left (A : Arith) {a b : XF} (h : ¬XFinite a) : ¬XFinite (A.add a b) := by
  rintro ⟨v, hv⟩
  cases a with
  | num u => exact h ⟨u, rfl⟩
  | nan => cases hv
  | inf s =>
    cases b with
    | num u => cases hv
    | nan => cases hv
    | inf t =>
      simp only [Arith.add] at hv
      split_ifs at hv

theorem improper_add_right (A : Arith) {a b : XF} (h : ¬XFinite b) : ¬XFinite (A.add a b) := by
  rintro ⟨v, hv⟩
  cases b with
  | num u => exact h ⟨u, rfl⟩
  | nan => rw [xadd_nan_right] at hv; cases hv
  | inf s =>
    cases a with
    | num u => cases hv
    | nan => cases hv
    | inf t =>
      simp only [Arith.add] at hv
      split_ifs at hv

theorem improper_sub_left (A : Arith) {a b : XF} (h : ¬XFinite a) : ¬XFinite (A.sub a b) := improper_add_left A h

theorem improper_mul_left (A : Arith) {a b : XF} (h : ¬XFinite a) : ¬XFinite (A.mul a b) := by
  rintro ⟨v, hv⟩
  cases a with
  | num u => exact h ⟨u, rfl⟩
  | nan => cases hv
  | inf s =>
    cases b with
    | num u =>
      simp only [Arith.mul] at hv
      split_ifs at hv
    | nan => cases hv
    | inf t => cases hv

theorem improper_mul_right (A : Arith) {a b : XF} (h : ¬XFinite b) : ¬XFinite (A.mul a b) := by
  rintro ⟨v, hv⟩
  cases b with
  | num u => exact h ⟨u, rfl⟩
  | nan => rw [xmul_nan_right] at hv; cases hv
  | inf s =>
    cases a with
    | num u =>
      simp only [Arith.mul] at hv
      split_ifs at hv
    | nan => cases hv
    | inf t => cases hv

theorem improper_div_num (A : Arith) {a : XF} {v : ℝ} (h : ¬XFinite a) : ¬XFinite (A.div a (.num v)) := by
  rintro ⟨u, hu⟩
  cases a with
  | num u => exact h ⟨u, rfl⟩
  | nan => cases hu
  | inf s => cases hu

theorem improper_sum (A : Arith) {l : List XF} {a : XF} (ha : a ∈ l) (h : ¬XFinite a) : ¬XFinite (A.sum l) := by
  rintro ⟨v, hv⟩
  cases a with
  | num u => exact h ⟨u, rfl⟩
  | nan => rw [xsum_nan A ha] at hv; cases hv
  | inf s => rcases xsum_inf A ha with e | e <;> · rw [e] at hv; cases hv

theorem ofFn_improper {n : ℕ} {ys : Fin n → XF} (h : ¬∀ i, XFinite (ys i)) : ¬AllFinite (List.ofFn ys) := fun ha => h fun i => ha _ (List.mem_ofFn.mpr ⟨i, rfl⟩)

/-! ### One model -/

theorem trainOn_std {A : Arith} {L : Lib Θ W} {p n : ℕ} {g : Krig X Θ} {opt : Opt Θ W} {f : Mat n p} {xs : Fin n → X} {ys : Fin n → XF} {w : W} {r : Fit X Θ n p × W} (h : trainOn A L g opt f xs ys w = .ok r) :
    r.1.std = A.std (List.ofFn ys) ∧ r.1.mean = A.mean (List.ofFn ys) ∧ r.1.f = f := by
  unfold trainOn at h
  obtain ⟨q, -, h⟩ := Py.bind_ok.mp h
  obtain ⟨m, hm, h⟩ := Py.bind_ok.mp h
  have h := Except.ok.inj h
  subst h
  unfold refit at hm
  obtain ⟨l, -, hm⟩ := Py.bind_ok.mp hm
  obtain ⟨alpha, -, hm⟩ := Py.bind_ok.mp hm
  obtain ⟨kf, -, hm⟩ := Py.bind_ok.mp hm
  obtain ⟨ld, -, hm⟩ := Py.bind_ok.mp hm
  obtain ⟨beta, -, hm⟩ := Py.bind_ok.mp hm
  obtain ⟨gamma, -, hm⟩ := Py.bind_ok.mp hm
  have hm := Except.ok.inj hm
  subst hm
  exact ⟨rfl, rfl, rfl⟩

theorem meanAt_nan (A : Arith) {n p k : ℕ} {m : Fit X Θ n p} (h : m.std = .nan) (knew : Mat n k) (f : Mat k p) (i : Fin k) : m.meanAt A knew f i = .nan := by
  unfold Fit.meanAt
  rw [h, xmul_nan_right]
  rfl

theorem max0_nan : XF.max0 .nan = .nan := rfl

/-- **C164 (Kriging).** If training on responses one of which is `nan` or infinite completes, all means and all standard deviations predicted are `nan`: whatever the optimiser does, for all samples, settings, roundings and linear algebra. -/
theorem C164_kriging (A : Arith) (L : Lib Θ W) (g : Krig X Θ) (opt : Opt Θ W) {n k : ℕ} (xs : Fin n → X) (ys : Fin n → XF) (w : W) (r : Fit X Θ n g.cols × W) (hy : ¬∀ i, XFinite (ys i))
    (h : g.trainBy A L opt xs ys w = .ok r) (x : Fin k → X) (i : Fin k) : g.mean A r.1 x i = .nan ∧ ∀ s, g.std A L r.1 x = .ok s → s i = .nan := by
  have hs : r.1.std = .nan := (trainOn_std h).1.trans (xstd_nan A (ofFn_improper hy))
  refine ⟨meanAt_nan A hs _ _ _, fun s hstd => ?_⟩
  unfold Krig.std at hstd
  obtain ⟨mse, -, hstd⟩ := Py.bind_ok.mp hstd
  have hstd := Except.ok.inj hstd
  subst hstd
  show A.sqrt (A.add (A.mul (mse i) (A.mul r.1.std r.1.std)) _).max0 = _
  rw [hs, xmul_nan_right, xmul_nan_right]
  rfl

/-! ### Hierarchical Kriging -/

/-- **C164 (hierarchical Kriging).** The same, for improper responses of either fidelity. -/
theorem C164_hk (A : Arith) (L : Lib Θ W) (lf hf : Krig X Θ) (optL optH : Opt Θ W) {nl nh k : ℕ} (xl : Fin nl → X) (yl : Fin nl → XF) (xh : Fin nh → X) (yh : Fin nh → XF) (w : W)
    (r : (Fit X Θ nl lf.cols × Fit X Θ nh 1) × W) (hy : ¬((∀ i, XFinite (yl i)) ∧ ∀ i, XFinite (yh i))) (h : trainHKBy A L lf hf optL optH xl yl xh yh w = .ok r) (x : Fin k → X) (i : Fin k) :
    hkMean A lf hf r.1 x i = .nan ∧ ∀ s, hkStd A L lf hf r.1 x = .ok s → s i = .nan := by
  unfold trainHKBy at h
  obtain ⟨a, ha, h⟩ := Py.bind_ok.mp h
  obtain ⟨b, hb, h⟩ := Py.bind_ok.mp h
  have h := Except.ok.inj h
  subst h
  by_cases h2 : ∀ i, XFinite (yh i)
  · -- the low-fidelity predictions are `nan`
    have h1 : ¬∀ i, XFinite (yl i) := fun h1 => hy ⟨h1, h2⟩
    have hl : ∀ {m : ℕ} (z : Fin m → X) (j : Fin m), lf.mean A a.1 z j = .nan := fun z j => (C164_kriging A L lf optL xl yl w a h1 ha z j).1
    have hf' : scaled A (lf.mean A a.1 x) b.1.mean b.1.std i 0 = .nan := by
      unfold scaled
      rw [hl]
      rfl
    constructor
    · show A.add (A.mul (A.add (dot A (scaled A (lf.mean A a.1 x) b.1.mean b.1.std) b.1.beta i 0) _) b.1.std) b.1.mean = .nan
      have : dot A (scaled A (lf.mean A a.1 x) b.1.mean b.1.std) b.1.beta i 0 = .nan := by
        unfold dot
        apply xsum_nan
        rw [List.mem_ofFn]
        exact ⟨0, by rw [hf']; rfl⟩
      rw [this]
      rfl
    · intro s hs
      unfold hkStd at hs
      obtain ⟨mse, hm, hs⟩ := Py.bind_ok.mp hs
      have hs := Except.ok.inj hs
      subst hs
      unfold Fit.mseAt at hm
      obtain ⟨delta, -, hm⟩ := Py.bind_ok.mp hm
      obtain ⟨q, -, hm⟩ := Py.bind_ok.mp hm
      have hm := Except.ok.inj hm
      have hR : matSub A (tr (scaled A (lf.mean A a.1 x) b.1.mean b.1.std)) (dot A (tr b.1.f) delta) 0 i = .nan := by
        show A.sub (scaled A (lf.mean A a.1 x) b.1.mean b.1.std i 0) _ = .nan
        rw [hf']
        rfl
      have hmse : mse i = .nan := by
        rw [← hm]
        have : dot A (tr (matSub A (tr (scaled A (lf.mean A a.1 x) b.1.mean b.1.std)) (dot A (tr b.1.f) delta))) q i i = .nan := by
          unfold dot
          apply xsum_nan
          rw [List.mem_ofFn]
          refine ⟨0, ?_⟩
          show A.mul (matSub A (tr (scaled A (lf.mean A a.1 x) b.1.mean b.1.std)) (dot A (tr b.1.f) delta) 0 i) _ = .nan
          rw [hR]
          rfl
        show A.mul b.1.sigma2 (A.add _ (dot A (tr (matSub A (tr (scaled A (lf.mean A a.1 x) b.1.mean b.1.std)) (dot A (tr b.1.f) delta))) q i i)) = .nan
        rw [this, xadd_nan_right, xmul_nan_right]
      simp only [hmse]
      rfl
  · have hs : b.1.std = .nan := (trainOn_std hb).1.trans (xstd_nan A (ofFn_improper h2))
    refine ⟨meanAt_nan A hs _ _ _, fun s hstd => ?_⟩
    unfold hkStd at hstd
    obtain ⟨mse, -, hstd⟩ := Py.bind_ok.mp hstd
    have hstd := Except.ok.inj hstd
    subst hstd
    simp only [hs, xmul_nan_right]
    rfl

/-! ### Scaled Kriging -/

/-- **C164 (scaled Kriging).** The same, for improper responses of either fidelity and any scale factor. -/
theorem C164_sk (A : Arith) (L : Lib Θ W) (lf disc : Krig X Θ) (optL optD : Opt Θ W) (rho : XF) {nl nh k : ℕ} (xl : Fin nl → X) (yl : Fin nl → XF) (xh : Fin nh → X) (yh : Fin nh → XF) (w : W)
    (r : (Fit X Θ nl lf.cols × Fit X Θ nh disc.cols) × W) (hy : ¬((∀ i, XFinite (yl i)) ∧ ∀ i, XFinite (yh i))) (h : trainSKBy A L lf disc optL optD rho xl yl xh yh w = .ok r) (x : Fin k → X) (i : Fin k) :
    skMean A lf disc rho r.1 x i = .nan ∧ ∀ q, skBoth A L lf disc rho r.1 x = .ok q → q.1 i = .nan ∧ q.2 i = .nan := by
  unfold trainSKBy at h
  obtain ⟨a, ha, h⟩ := Py.bind_ok.mp h
  obtain ⟨b, hb, h⟩ := Py.bind_ok.mp h
  have h := Except.ok.inj h
  subst h
  by_cases h2 : ∀ i, XFinite (yl i)
  · have h1 : ¬∀ i, XFinite (yh i) := fun h1 => hy ⟨h2, h1⟩
    have hd : ¬∀ i, XFinite (A.sub (yh i) (A.mul rho (lf.mean A a.1 xh i))) := by
      push Not at h1 ⊢
      obtain ⟨i, hi⟩ := h1
      exact ⟨i, improper_sub_left A hi⟩
    obtain ⟨e1, e2⟩ := C164_kriging A L disc optD xh _ a.2 b hd hb x i
    refine ⟨by unfold skMean; rw [e1]; rfl, fun q hq => ?_⟩
    unfold skBoth at hq
    obtain ⟨sl, -, hq⟩ := Py.bind_ok.mp hq
    obtain ⟨sd, hsd, hq⟩ := Py.bind_ok.mp hq
    have hq := Except.ok.inj hq
    subst hq
    refine ⟨by simp only [e1, xadd_nan_right], ?_⟩
    simp only [e2 sd hsd, xmul_nan_right, xadd_nan_right]
    rfl
  · obtain ⟨e1, e2⟩ := C164_kriging A L lf optL xl yl w a h2 ha x i
    refine ⟨by unfold skMean; rw [e1, xadd_nan_right], fun q hq => ?_⟩
    unfold skBoth at hq
    obtain ⟨sl, hsl, hq⟩ := Py.bind_ok.mp hq
    obtain ⟨sd, -, hq⟩ := Py.bind_ok.mp hq
    have hq := Except.ok.inj hq
    subst hq
    refine ⟨by simp only [e1, xmul_nan_right]; rfl, ?_⟩
    simp only [e2 sl hsl, xmul_nan_right]
    rfl

/-! ### Co-Kriging -/

theorem trainCKLow_improper {A : Arith} {L : Lib Θ W} {g : Krig X Θ} {noise : Option XF} {opt : Opt Θ W} {n : ℕ} {xs : Fin n → X} {y : Mat n 1} {w : W} {a : Fit X Θ n g.cols × W} {j : Fin n} (hy : ¬XFinite (y j 0))
    (ha : trainCKLow A L g noise opt xs y w = .ok a) : ¬XFinite a.1.sigma2 := by
  unfold trainCKLow at ha
  obtain ⟨q, -, ha⟩ := Py.bind_ok.mp ha
  obtain ⟨m, hm, ha⟩ := Py.bind_ok.mp ha
  have ha := Except.ok.inj ha
  subst ha
  unfold refit at hm
  obtain ⟨l, -, hm⟩ := Py.bind_ok.mp hm
  obtain ⟨alpha, -, hm⟩ := Py.bind_ok.mp hm
  obtain ⟨kf, -, hm⟩ := Py.bind_ok.mp hm
  obtain ⟨ld, -, hm⟩ := Py.bind_ok.mp hm
  obtain ⟨beta, -, hm⟩ := Py.bind_ok.mp hm
  obtain ⟨gamma, -, hm⟩ := Py.bind_ok.mp hm
  have hm := Except.ok.inj hm
  subst hm
  refine improper_div_num A ?_
  unfold dot
  refine improper_sum A (List.mem_ofFn.mpr ⟨j, rfl⟩) (improper_mul_left A ?_)
  exact improper_sub_left A hy

theorem improper_scaled (A : Arith) {a m s : XF} (h : ¬XFinite a) : ¬XFinite (A.div (A.sub a m) s) := by
  have hsub : ¬XFinite (A.sub a m) := improper_sub_left A h
  revert hsub
  generalize A.sub a m = u
  intro hsub
  cases s with
  | num v => exact improper_div_num A hsub
  | nan =>
    rw [xdiv_nan_right]
    rintro ⟨v, hv⟩
    cases hv
  | inf s =>
    rintro ⟨v, hv⟩
    cases u with
    | num u => exact hsub ⟨u, rfl⟩
    | nan => cases hv
    | inf t => cases hv

/-- **C164 (co-Kriging).** If training completes although a response of either fidelity is `nan` or infinite, every mean predicted is `nan` or infinite.  If a high-fidelity response is, all means and all standard deviations are `nan`. -/
theorem C164_ck (A : Arith) (L : Lib Θ W) (lf : Krig X Θ) (noise : Option XF) (kh : (n k : ℕ) → (Fin n → X) → (Fin k → X) → Θ → Mat n k) (opt : Opt Θ W) {nl nh k : ℕ} (rest : CKRest X Θ W nl nh lf.cols) (xl : Fin nl → X)
    (yl : Fin nl → XF) (xh : Fin nh → X) (yh : Fin nh → XF) (w : W) (r : CKFit X Θ nl nh lf.cols × W) (h : trainCKBy A L lf noise opt rest xl yl xh yh w = .ok r) (x : Fin k → X) (i : Fin k) :
    ((¬∀ i, XFinite (yh i)) → (∀ q, ckMean A L lf kh r.1 x = .ok q → q i = .nan) ∧ ∀ s, ckStd A L lf kh r.1 x = .ok s → s i = .nan) ∧
    (¬((∀ i, XFinite (yl i)) ∧ ∀ i, XFinite (yh i)) → ∀ q, ckMean A L lf kh r.1 x = .ok q → ¬XFinite (q i)) := by
  unfold trainCKBy at h
  obtain ⟨a, ha, h⟩ := Py.bind_ok.mp h
  obtain ⟨b, hb, h⟩ := Py.bind_ok.mp h
  have h := Except.ok.inj h
  have hstd : r.1.std = A.std (List.ofFn yh) := by rw [← h]
  have hlow : r.1.low = a.1 := by rw [← h]
  have key : (¬∀ i, XFinite (yh i)) → (∀ q, ckMean A L lf kh r.1 x = .ok q → q i = .nan) ∧ ∀ s, ckStd A L lf kh r.1 x = .ok s → s i = .nan := by
    intro h2
    have hs : r.1.std = .nan := hstd.trans (xstd_nan A (ofFn_improper h2))
    constructor
    · intro q hq
      unfold ckMean at hq
      obtain ⟨v, -, hq⟩ := Py.bind_ok.mp hq
      have hq := Except.ok.inj hq
      subst hq
      simp only [hs, xmul_nan_right]
      rfl
    · intro s hq
      unfold ckStd at hq
      obtain ⟨v, -, hq⟩ := Py.bind_ok.mp hq
      have hq := Except.ok.inj hq
      subst hq
      simp only [hs, xmul_nan_right]
      rfl
  refine ⟨key, fun hy q hq => ?_⟩
  by_cases h2 : ∀ i, XFinite (yh i)
  swap
  · rw [(key h2).1 q hq]
    rintro ⟨v, hv⟩
    cases hv
  have h1 : ¬∀ i, XFinite (yl i) := fun h1 => hy ⟨h1, h2⟩
  push Not at h1
  obtain ⟨j, hj⟩ := h1
  have hsig : ¬XFinite r.1.low.sigma2 := by
    rw [hlow]
    exact trainCKLow_improper (j := j) (improper_scaled A hj) ha
  unfold ckMean at hq
  obtain ⟨v, -, hq⟩ := Py.bind_ok.mp hq
  have hq := Except.ok.inj hq
  subst hq
  refine improper_add_left A (improper_mul_left A (improper_add_right A ?_))
  unfold dot
  refine improper_sum A (List.mem_ofFn.mpr ⟨Fin.castAdd nh j, rfl⟩) (improper_mul_left A ?_)
  unfold tr ckCov
  rw [Fin.append_left]
  exact improper_mul_left A (improper_mul_right A hsig)

/-! ### Training does complete -/

/-- An optimiser that keeps its first candidate, as those of this repository do if every value is `nan` (C148). -/
def keepFirst : Opt Unit Unit := fun _ w => .ok ((), w)

/-- A linear algebra library that never refuses a matrix. -/
def lenientLib : Lib Unit Unit where
  cholesky := fun m => .ok m
  solve := fun _ b => .ok b
  minimize := fun _ w => .ok (((), .nan), w)

/-- A Kriging model with one constant basis function. -/
def constKrig : Krig ℝ Unit where
  noise := some (.num 0)
  cols := 1
  kern := fun _ _ _ _ _ => .num 1
  basis := fun _ _ _ => .num 1
  sigmaOf := fun _ => .num 0

/-- Two samples, the second response is `nan`: training completes and the theorem applies. -/
example : (¬∀ i, XFinite ((![.num 1, .nan] : Fin 2 → XF) i)) ∧ ∃ r, constKrig.trainBy ⟨.num⟩ lenientLib keepFirst ![0, 1] ![.num 1, .nan] () = .ok r :=
  ⟨fun h => (by obtain ⟨v, hv⟩ := h 1; cases hv), ⟨_, rfl⟩⟩

/-- The same for hierarchical and scaled Kriging with an infinite low-fidelity response, and for co-Kriging. -/
example : (¬∀ i, XFinite ((![.num 1, .inf false] : Fin 2 → XF) i)) ∧
    (∃ r, trainHKBy ⟨.num⟩ lenientLib constKrig constKrig keepFirst keepFirst ![0, 1] ![.num 1, .inf false] ![0, 1] ![.num 1, .num 2] () = .ok r) ∧
    (∃ r, trainSKBy ⟨.num⟩ lenientLib constKrig constKrig keepFirst keepFirst (.num 1) ![0, 1] ![.num 1, .inf false] ![0, 1] ![.num 1, .num 2] () = .ok r) ∧
    ∃ r, trainCKBy ⟨.num⟩ lenientLib constKrig none keepFirst (fun _ _ _ _ w => .ok ((.num 1, (), .num 0, .num 1, .num 0, fun _ _ => .num 0), w)) ![0, 1] ![.num 1, .inf false] ![0, 1] ![.num 1, .num 2] () = .ok r :=
  ⟨fun h => (by obtain ⟨v, hv⟩ := h 1; cases hv), ⟨_, rfl⟩, ⟨_, rfl⟩, ⟨_, rfl⟩⟩

end Mfpml.Props
