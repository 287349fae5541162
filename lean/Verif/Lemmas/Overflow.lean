import Verif.Lemmas.RoundedKernel
import Verif.Spec.Overflow
import Verif.Props.Rounded

/-!
# Helper lemmas for C180: sizes of intermediate results
-/

namespace Mfpml.Overflow

open Mfpml.Rounded Mfpml.EA Mfpml.Spec Mfpml.Props

variable {p : ℕ} {emin emax : ℤ} {R : Rounding p emin}

/-- Size at most `2 ^ n`. -/
def Upto (a : Fl R) (n : ℕ) : Prop := |a.val| ≤ 2 ^ n

theorem isFloat_two_pow (hp : 1 ≤ p) (he : emin ≤ 0) (n : ℕ) : IsFloat p emin (2 ^ n) := by
  have h := isFloat_of_le (p := p) (emin := emin) hp (m := 1) (e := n) (by simp; exact one_le_pow₀ (by norm_num)) (by omega)
  simpa using h

theorem upto_ofReal (hp : 1 ≤ p) (he : emin ≤ 0) {x : ℝ} {n : ℕ} (h : |x| ≤ 2 ^ n) : Upto (Fl.ofReal R x) n := by
  have hf := isFloat_two_pow (p := p) (emin := emin) hp he n
  rw [abs_le] at h
  exact abs_le.mpr ⟨R.le_fl hf.neg h.1, R.fl_le hf h.2⟩

theorem Upto.mono {a : Fl R} {m n : ℕ} (h : Upto a m) (hmn : m ≤ n) : Upto a n :=
  le_trans h (pow_le_pow_right₀ (by norm_num) hmn)

theorem Upto.add (hp : 1 ≤ p) (he : emin ≤ 0) {a b : Fl R} {n : ℕ} (ha : Upto a n) (hb : Upto b n) : Upto (a + b) (n + 1) :=
  upto_ofReal hp he (by have := abs_add_le a.val b.val; unfold Upto at ha hb; rw [pow_succ]; linarith)

theorem Upto.sub (hp : 1 ≤ p) (he : emin ≤ 0) {a b : Fl R} {n : ℕ} (ha : Upto a n) (hb : Upto b n) : Upto (a - b) (n + 1) :=
  upto_ofReal hp he (by have := abs_sub a.val b.val; unfold Upto at ha hb; rw [pow_succ]; linarith)

theorem Upto.mul (hp : 1 ≤ p) (he : emin ≤ 0) {a b : Fl R} {m n : ℕ} (ha : Upto a m) (hb : Upto b n) : Upto (a * b) (m + n) :=
  upto_ofReal hp he (by rw [abs_mul, pow_add]; exact mul_le_mul ha hb (abs_nonneg _) (by positivity))

theorem Upto.num {a : Fl R} {n : ℕ} (h : Upto a n) (hn : (n : ℤ) < emax) : (XFl.ofFl a : XFl R emax) = .num a := by
  have : |a.val| < (2 : ℝ) ^ emax := lt_of_le_of_lt h (by rw [← zpow_natCast]; exact zpow_lt_zpow_right₀ (by norm_num) hn)
  exact if_pos this

theorem num_add {a b : Fl R} {n : ℕ} (h : Upto (a + b) n) (hn : (n : ℤ) < emax) : (XFl.num a + XFl.num b : XFl R emax) = .num (a + b) := h.num hn
theorem num_sub {a b : Fl R} {n : ℕ} (h : Upto (a - b) n) (hn : (n : ℤ) < emax) : (XFl.num a - XFl.num b : XFl R emax) = .num (a - b) := h.num hn
theorem num_mul {a b : Fl R} {n : ℕ} (h : Upto (a * b) n) (hn : (n : ℤ) < emax) : (XFl.num a * XFl.num b : XFl R emax) = .num (a * b) := h.num hn
theorem num_div {a b : Fl R} (hb : b.val ≠ 0) {n : ℕ} (h : Upto (a / b) n) (hn : (n : ℤ) < emax) : (XFl.num a / XFl.num b : XFl R emax) = .num (a / b) :=
  (if_neg hb).trans (h.num hn)

theorem npAbs_val (a : Fl R) : (npAbs a).val = |a.val| := by
  have hn : (-a).val = -a.val := R.fl_of_isFloat a.isFloat.neg
  unfold npAbs
  rcases le_total a (-a) with h | h
  · rw [max_eq_right h, hn, abs_of_nonpos]
    have : a.val ≤ (-a).val := h
    rw [hn] at this; linarith
  · rw [max_eq_left h, abs_of_nonneg]
    have : (-a).val ≤ a.val := h
    rw [hn] at this; linarith

/-- `v * vmax / |v|` is no larger than the power of two that bounds `vmax`. -/
theorem upto_clip (hp : 1 ≤ p) (he : emin ≤ 0) {v m : Fl R} {n : ℕ} (hm : Upto m n) (hv : v.val ≠ 0) : Upto (v * m / npAbs v) n := by
  refine upto_ofReal hp he ?_
  rw [npAbs_val, abs_div, abs_abs, div_le_iff₀ (abs_pos.mpr hv)]
  have hf : IsFloat p emin (2 ^ n * |v.val|) := by
    have hva : IsFloat p emin |v.val| := by
      rcases abs_choice v.val with h | h <;> rw [h]
      · exact v.isFloat
      · exact v.isFloat.neg
    obtain ⟨M, e, hM, hee, hx⟩ := hva
    refine ⟨M, e + n, hM, by omega, ?_⟩
    rw [hx, zpow_add₀ (by norm_num), zpow_natCast]; ring
  have hle : |v.val * m.val| ≤ 2 ^ n * |v.val| := by
    rw [abs_mul, mul_comm]; exact mul_le_mul_of_nonneg_right hm (abs_nonneg _)
  rw [abs_le] at hle
  exact abs_le.mpr ⟨R.le_fl hf.neg hle.1, R.fl_le hf hle.2⟩

/-! ## Points of the box -/

theorem upto_of_mem {D : ℕ} {b : Box (Fl R) D} {k : ℕ} (hk : BoundsUpTo b k) {j : Fin D} {a : Fl R} (h1 : b.low j ≤ a) (h2 : a ≤ b.high j) : Upto a k := by
  have h1 : (b.low j).val ≤ a.val := h1
  have h2 : a.val ≤ (b.high j).val := h2
  have hl := (abs_le.mp (hk j).1).1
  have hh := (abs_le.mp (hk j).2).2
  exact abs_le.mpr ⟨by linarith, by linarith⟩

theorem upto_unit {u : Fl R} (h : HalfOpenUnit u) : Upto u 0 := by
  unfold Upto; rw [abs_of_nonneg h.1]; simpa using h.2.le

theorem upto_width (hp : 1 ≤ p) (he : emin ≤ 0) {D : ℕ} {b : Box (Fl R) D} {k : ℕ} (hk : BoundsUpTo b k) (j : Fin D) : Upto (b.high j - b.low j) (k + 1) :=
  Upto.sub hp he (hk j).2 (hk j).1

theorem mem_locInit (hp : 1 ≤ p) {P D : ℕ} {b : Box (Fl R) D} (hb : ∀ j, b.low j ≤ b.high j) {u : Pop (Fl R) P D} {i : Fin P} {j : Fin D} (hu : HalfOpenUnit (u i j)) :
    b.low j ≤ locInit b u i j ∧ locInit b u i j ≤ b.high j :=
  scale_float R hp (b.low j).isFloat (b.high j).isFloat (hb j) (u i j).isFloat hu.1 hu.2

theorem locInit_num (hp : 1 ≤ p) (he : emin ≤ 0) {P D : ℕ} {b : Box (Fl R) D} (hb : ∀ j, b.low j ≤ b.high j) {k : ℕ} (hk : BoundsUpTo b k) (hov : (k : ℤ) + 1 < emax) {u : Pop (Fl R) P D}
    {i : Fin P} {j : Fin D} (hu : HalfOpenUnit (u i j)) : locInit (numBox emax b) (numPop emax u) i j = .num (locInit b u i j) := by
  have hw := upto_width hp he hk j
  have hm := Upto.mul hp he (upto_unit hu) hw
  have hx := mem_locInit hp hb (u := u) hu
  have e1 := num_sub hw (emax := emax) (by push_cast; omega)
  have e2 := num_mul hm (emax := emax) (by push_cast; omega)
  have e3 := num_add (emax := emax) (upto_of_mem hk hx.1 hx.2) (by omega)
  show (XFl.num (u i j) : XFl R emax) * (XFl.num (b.high j) - XFl.num (b.low j)) + XFl.num (b.low j) = _
  rw [e1, e2]
  exact e3

theorem locConsX_num (hp : 1 ≤ p) (he : emin ≤ 0) {P D : ℕ} {b : Box (Fl R) D} (hb : ∀ j, b.low j ≤ b.high j) {k : ℕ} (hk : BoundsUpTo b k) (hov : (k : ℤ) + 1 < emax) {u : Fin D → Pop (Fl R) P D}
    (hu : ∀ k i j, HalfOpenUnit (u k i j)) (x : Pop (Fl R) P D) :
    locConsX (numBox emax b) (fun k => numPop emax (u k)) (numPop emax x) = numPop emax (locCons b u x) := by
  funext i j
  have hc : ((numPop emax x i j).lt ((numBox emax b).low j) ∨ ((numBox emax b).high j).lt (numPop emax x i j)) ↔ (x i j < b.low j ∨ x i j > b.high j) := Iff.rfl
  unfold locConsX numPop locCons
  by_cases h : x i j < b.low j ∨ x i j > b.high j
  · rw [if_pos h]
    exact (if_pos (hc.mpr h)).trans (locInit_num hp he hb hk hov (hu j i j))
  · rw [if_neg h]
    exact if_neg (fun h' => h (hc.mp h'))

theorem mem_locCons (hp : 1 ≤ p) {P D : ℕ} {b : Box (Fl R) D} (hb : ∀ j, b.low j ≤ b.high j) {u : Fin D → Pop (Fl R) P D} (hu : ∀ k i j, HalfOpenUnit (u k i j)) (x : Pop (Fl R) P D) (i : Fin P) (j : Fin D) :
    b.low j ≤ locCons b u x i j ∧ locCons b u x i j ≤ b.high j := by
  unfold locCons
  split
  · exact mem_locInit hp hb (hu j i j)
  · rename_i h
    push Not at h
    exact h

/-! ## PSO -/

/-- What a state without overflow is as a state of floats. -/
def numState (emax : ℤ) {P D : ℕ} (s : PSOState (Fl R) P D) : PSOStateX (XFl R emax) (Fl R) P D :=
  { x := numPop emax s.x, v := numPop emax s.v, obj := s.obj, popBest := s.popBest, popBestX := numPop emax s.popBestX, genBest := s.genBest, genBestXs := fun t j => .num (s.genBestXs t j)
    samples := fun t => numPop emax (s.samples t), responses := s.responses, calls := s.calls.map (numPop emax) }

/-- Invariant of PSO runs: points in the box, velocities bounded. -/
structure Inv {P D : ℕ} (b : Box (Fl R) D) (n : ℕ) (iter : ℕ) (s : PSOState (Fl R) P D) : Prop where
  x : ∀ i j, b.low j ≤ s.x i j ∧ s.x i j ≤ b.high j
  v : ∀ i j, Upto (s.v i j) n
  popBestX : ∀ i j, b.low j ≤ s.popBestX i j ∧ s.popBestX i j ≤ b.high j
  genBestXs : ∀ j, b.low j ≤ s.genBestXs iter j ∧ s.genBestXs iter j ≤ b.high j
  calls : ∀ q ∈ s.calls, ∀ i j, b.low j ≤ q i j ∧ q i j ≤ b.high j

theorem upto_vMax (hp : 1 ≤ p) (he : emin ≤ 0) {D : ℕ} {cfg : PSOCfg (Fl R)} {c : ℕ} (hc : CfgUpTo cfg c) {b : Box (Fl R) D} {k : ℕ} (hk : BoundsUpTo b k) (j : Fin D) : Upto (vMax cfg b j) (k + 1 + c) :=
  Upto.mul hp he (upto_width hp he hk j) hc.rate

theorem vMax_num (hp : 1 ≤ p) (he : emin ≤ 0) {D : ℕ} {cfg : PSOCfg (Fl R)} {c : ℕ} (hc : CfgUpTo cfg c) {b : Box (Fl R) D} {k : ℕ} (hk : BoundsUpTo b k) (hov : (k : ℤ) + 1 + c < emax) (j : Fin D) :
    vMax (numPSOCfg emax cfg) (numBox emax b) j = .num (vMax cfg b j) := by
  have e1 := num_sub (emax := emax) (upto_width hp he hk j) (by push_cast; omega)
  have e2 := num_mul (emax := emax) (upto_vMax hp he hc hk j) (by push_cast; omega)
  show ((XFl.num (b.high j) : XFl R emax) - XFl.num (b.low j)) * XFl.num cfg.maxVRate = _
  rw [e1]; exact e2

theorem vMax_nonneg {D : ℕ} {cfg : PSOCfg (Fl R)} (hr : 0 ≤ cfg.maxVRate) {b : Box (Fl R) D} (hb : ∀ j, b.low j ≤ b.high j) (j : Fin D) : 0 ≤ vMax cfg b j := by
  have h0 : IsFloat p emin 0 := isFloat_zero
  have hbj : (b.low j).val ≤ (b.high j).val := hb j
  have hrv : (0 : ℝ) ≤ cfg.maxVRate.val := hr
  have hw : (0 : ℝ) ≤ (b.high j - b.low j).val := R.le_fl h0 (by linarith)
  show (0 : ℝ) ≤ R.fl _
  exact R.le_fl h0 (mul_nonneg hw hrv)

theorem psoInit_num (hp : 1 ≤ p) (he : emin ≤ 0) {q D : ℕ} {cfg : PSOCfg (Fl R)} {c : ℕ} (hc : CfgUpTo cfg c) {b : Box (Fl R) D} (hb : ∀ j, b.low j ≤ b.high j) {k : ℕ} (hk : BoundsUpTo b k)
    (hov : (k : ℤ) + 1 + c < emax) (func : Pop (XFl R emax) (q + 1) D → Fin (q + 1) → Fl R) {rnd : PSORand (Fl R) (q + 1) D} (hpos : ∀ i j, HalfOpenUnit (rnd.pos i j)) (hvel : ∀ i j, HalfOpenUnit (rnd.vel i j)) :
    psoInitX (numPSOCfg emax cfg) (numBox emax b) func (numPSORand emax rnd) = numState emax (psoInit cfg b (fun X => func (numPop emax X)) rnd) ∧
      Inv b (k + 1 + c) 0 (psoInit cfg b (fun X => func (numPop emax X)) rnd) := by
  have hx : locInit (numBox emax b) (numPop emax rnd.pos) = numPop emax (locInit b rnd.pos) := by
    funext i j; exact locInit_num hp he hb hk (by omega) (hpos i j)
  have hvb : ∀ i j, Upto (rnd.vel i j * vMax cfg b j) (k + 1 + c) := fun i j => (Upto.mul hp he (upto_unit (hvel i j)) (upto_vMax hp he hc hk j)).mono (by omega)
  have hv : (fun i j => numPop emax rnd.vel i j * vMax (numPSOCfg emax cfg) (numBox emax b) j) = numPop emax (fun i j => rnd.vel i j * vMax cfg b j) := by
    funext i j
    rw [vMax_num hp he hc hk hov j]
    exact num_mul (hvb i j) (by push_cast; omega)
  have hin : ∀ i j, b.low j ≤ locInit b rnd.pos i j ∧ locInit b rnd.pos i j ≤ b.high j := fun i j => mem_locInit hp hb (hpos i j)
  constructor
  · unfold psoInitX psoInit numState
    simp only [show (numPSORand emax rnd).pos = numPop emax rnd.pos from rfl, show (numPSORand emax rnd).vel = numPop emax rnd.vel from rfl, hx, hv]
    congr 1
    · funext t j
      by_cases ht : t = 0
      · subst ht; simp [genBestX, numPop]
      · simp [Function.update_of_ne ht]; rfl
    · funext t
      by_cases ht : t = 0
      · subst ht; simp
      · simp [Function.update_of_ne ht]; rfl
  · refine ⟨hin, hvb, hin, fun j => ?_, fun q hq => ?_⟩
    · simpa [psoInit, genBestX] using hin _ j
    · rw [show q = locInit b rnd.pos from by simpa [psoInit] using hq]; exact hin

theorem updateGenOptimumX_num {q D : ℕ} (iter : ℕ) (genBest : ℕ → Fl R) (genBestXs : ℕ → Fin D → Fl R) (x : Pop (Fl R) (q + 1) D) (obj : Fin (q + 1) → Fl R) :
    updateGenOptimumX iter genBest (fun t j => (XFl.num (genBestXs t j) : XFl R emax)) (numPop emax x) obj =
      ((updateGenOptimum iter genBest genBestXs x obj).1, fun t j => .num ((updateGenOptimum iter genBest genBestXs x obj).2 t j)) := by
  unfold updateGenOptimumX updateGenOptimum
  split
  · refine Prod.ext rfl ?_
    funext t j
    by_cases ht : t = iter + 1
    · subst ht; simp [genBestX, numPop]
    · simp [Function.update_of_ne ht]
  · refine Prod.ext rfl ?_
    funext t j
    by_cases ht : t = iter + 1
    · subst ht; simp
    · simp [Function.update_of_ne ht]

theorem updateGenOptimum_mem {q D : ℕ} {b : Box (Fl R) D} {iter : ℕ} {genBest : ℕ → Fl R} {genBestXs : ℕ → Fin D → Fl R} {x : Pop (Fl R) (q + 1) D} {obj : Fin (q + 1) → Fl R}
    (hx : ∀ i j, b.low j ≤ x i j ∧ x i j ≤ b.high j) (hg : ∀ j, b.low j ≤ genBestXs iter j ∧ genBestXs iter j ≤ b.high j) (j : Fin D) :
    b.low j ≤ (updateGenOptimum iter genBest genBestXs x obj).2 (iter + 1) j ∧ (updateGenOptimum iter genBest genBestXs x obj).2 (iter + 1) j ≤ b.high j := by
  unfold updateGenOptimum
  split
  · simpa [genBestX] using hx _ j
  · simpa using hg j

theorem psoStep_num (hp : 1 ≤ p) (he : emin ≤ 0) {q D : ℕ} {cfg : PSOCfg (Fl R)} {c : ℕ} (hc : CfgUpTo cfg c) {b : Box (Fl R) D} (hb : ∀ j, b.low j ≤ b.high j) {k : ℕ} (hk : BoundsUpTo b k)
    (hov : 2 * (k : ℤ) + 3 * c + 4 < emax) (func : Pop (XFl R emax) (q + 1) D → Fin (q + 1) → Fl R) {rnd : PSORand (Fl R) (q + 1) D} (hrepl : ∀ t k i j, HalfOpenUnit (rnd.repl t k i j)) {iter : ℕ}
    {s : PSOState (Fl R) (q + 1) D} (hs : Inv b (k + 1 + c) iter s) :
    psoStepX (numPSOCfg emax cfg) (numBox emax b) func (numPSORand emax rnd) iter (numState emax s) = numState emax (psoStep cfg b (fun X => func (numPop emax X)) rnd iter s) ∧
      Inv b (k + 1 + c) (iter + 1) (psoStep cfg b (fun X => func (numPop emax X)) rnd iter s) := by
  -- the new velocities before they are clipped
  set v' : Pop (Fl R) (q + 1) D := fun i j => cfg.weight * s.v i j + cfg.cognition * (s.popBestX i j - s.x i j) + cfg.social * (s.genBestXs iter j - s.x i j) with hv'
  have hX : ∀ i j, Upto (s.x i j) k := fun i j => upto_of_mem hk (hs.x i j).1 (hs.x i j).2
  have hP : ∀ i j, Upto (s.popBestX i j) k := fun i j => upto_of_mem hk (hs.popBestX i j).1 (hs.popBestX i j).2
  have hG : ∀ j, Upto (s.genBestXs iter j) k := fun j => upto_of_mem hk (hs.genBestXs j).1 (hs.genBestXs j).2
  have ha : ∀ i j, Upto (cfg.weight * s.v i j) (k + 1 + 2 * c) := fun i j => (Upto.mul hp he hc.weight (hs.v i j)).mono (by omega)
  have hd1 : ∀ i j, Upto (s.popBestX i j - s.x i j) (k + 1) := fun i j => Upto.sub hp he (hP i j) (hX i j)
  have hd2 : ∀ i j, Upto (s.genBestXs iter j - s.x i j) (k + 1) := fun i j => Upto.sub hp he (hG j) (hX i j)
  have hb1 : ∀ i j, Upto (cfg.cognition * (s.popBestX i j - s.x i j)) (k + 1 + 2 * c) := fun i j => (Upto.mul hp he hc.cognition (hd1 i j)).mono (by omega)
  have hb2 : ∀ i j, Upto (cfg.social * (s.genBestXs iter j - s.x i j)) (k + 1 + 2 * c + 1) := fun i j => (Upto.mul hp he hc.social (hd2 i j)).mono (by omega)
  have hs1 : ∀ i j, Upto (cfg.weight * s.v i j + cfg.cognition * (s.popBestX i j - s.x i j)) (k + 1 + 2 * c + 1) := fun i j => Upto.add hp he (ha i j) (hb1 i j)
  have hV : ∀ i j, Upto (v' i j) (k + 1 + 2 * c + 1 + 1) := fun i j => Upto.add hp he (hs1 i j) (hb2 i j)
  have hvm : ∀ j, Upto (vMax cfg b j) (k + 1 + c) := upto_vMax hp he hc hk
  have e1 : (fun i j => (numPSOCfg emax cfg).weight * (numState emax s).v i j + (numPSOCfg emax cfg).cognition * ((numState emax s).popBestX i j - (numState emax s).x i j) +
      (numPSOCfg emax cfg).social * ((numState emax s).genBestXs iter j - (numState emax s).x i j)) = numPop emax v' := by
    funext i j
    show (XFl.num cfg.weight : XFl R emax) * XFl.num (s.v i j) + XFl.num cfg.cognition * (XFl.num (s.popBestX i j) - XFl.num (s.x i j)) + XFl.num cfg.social * (XFl.num (s.genBestXs iter j) - XFl.num (s.x i j)) = _
    rw [num_mul (ha i j) (by push_cast; omega), num_sub (hd1 i j) (by push_cast; omega), num_sub (hd2 i j) (by push_cast; omega), num_mul (hb1 i j) (by push_cast; omega),
      num_mul (hb2 i j) (by push_cast; omega), num_add (hs1 i j) (by push_cast; omega), num_add (hV i j) (by push_cast; omega)]
    rfl
  -- clipping
  have hclip : ∀ i j, npAbs (v' i j) > vMax cfg b j → (v' i j).val ≠ 0 := by
    intro i j h h0
    have h' : (vMax cfg b j).val < (npAbs (v' i j)).val := h
    rw [npAbs_val, h0, abs_zero] at h'
    have := vMax_nonneg hc.rate_nonneg hb j
    exact absurd h' (not_lt.mpr this)
  have hW : ∀ i j, Upto (velocityCons (vMax cfg b) v' i j) (k + 1 + c) := by
    intro i j
    unfold velocityCons
    split
    · rename_i h; exact upto_clip hp he (hvm j) (hclip i j h)
    · rename_i h
      have h' : (npAbs (v' i j)).val ≤ (vMax cfg b j).val := not_lt.mp h
      rw [npAbs_val] at h'
      exact le_trans (le_trans h' (le_abs_self _)) (hvm j)
  have e2 : velocityConsX (vMax (numPSOCfg emax cfg) (numBox emax b)) (numPop emax v') = numPop emax (velocityCons (vMax cfg b) v') := by
    funext i j
    unfold velocityConsX
    rw [vMax_num hp he hc hk (by omega) j]
    have hcond : (XFl.num (vMax cfg b j) : XFl R emax).lt (numPop emax v' i j).abs ↔ npAbs (v' i j) > vMax cfg b j := Iff.rfl
    by_cases h : npAbs (v' i j) > vMax cfg b j
    · rw [if_pos (hcond.mpr h)]
      have hWij := hW i j
      unfold velocityCons at hWij
      unfold numPop velocityCons
      rw [if_pos h] at hWij ⊢
      have hm := Upto.mul hp he (hV i j) (hvm j)
      show (XFl.num (v' i j) : XFl R emax) * XFl.num (vMax cfg b j) / XFl.num (npAbs (v' i j)) = _
      rw [num_mul hm (by push_cast; omega)]
      refine num_div ?_ hWij (by push_cast; omega)
      rw [npAbs_val]; exact abs_ne_zero.mpr (hclip i j h)
    · rw [if_neg (fun h' => h (hcond.mp h'))]
      unfold numPop velocityCons
      rw [if_neg h]
  -- positions
  have e3 : (fun i j => (numState emax s).x i j + numPop emax (velocityCons (vMax cfg b) v') i j) = numPop emax (fun i j => s.x i j + velocityCons (vMax cfg b) v' i j) := by
    funext i j
    exact num_add (Upto.add hp he ((hX i j).mono (by omega : k ≤ k + 1 + c)) (hW i j)) (by push_cast; omega)
  set x' : Pop (Fl R) (q + 1) D := locCons b (rnd.repl iter) (fun i j => s.x i j + velocityCons (vMax cfg b) v' i j) with hx'
  have e4 : locConsX (numBox emax b) ((numPSORand emax rnd).repl iter) (numPop emax (fun i j => s.x i j + velocityCons (vMax cfg b) v' i j)) = numPop emax x' :=
    locConsX_num hp he hb hk (by omega) (hrepl iter) _
  have hin : ∀ i j, b.low j ≤ x' i j ∧ x' i j ≤ b.high j := mem_locCons hp hb (hrepl iter) _
  have hup : psoUpdatePopX (numPSOCfg emax cfg) (numBox emax b) (numPSORand emax rnd) iter (numState emax s) = numState emax (psoUpdatePop cfg b rnd iter s) := by
    unfold psoUpdatePopX psoUpdatePop
    simp only [e1, e2, e3, e4, ← hv', ← hx']
    unfold numState
    congr 1
    funext t
    by_cases ht : t = iter + 1
    · subst ht; simp
    · simp [Function.update_of_ne ht]
  have hpx : (psoUpdatePop cfg b rnd iter s).x = x' := rfl
  have hpv : (psoUpdatePop cfg b rnd iter s).v = velocityCons (vMax cfg b) v' := rfl
  constructor
  · unfold psoStepX
    rw [hup]
    unfold psoUpdateObjX psoStep psoUpdateGenOptimum psoUpdatePopOptimum psoUpdateObj
    generalize psoUpdatePop cfg b rnd iter s = s1
    have hg := updateGenOptimumX_num (emax := emax) iter s1.genBest s1.genBestXs s1.x (func (numPop emax s1.x))
    unfold numState
    simp only [hg]
    congr 1
    · funext i j
      simp only [numPop]
      split <;> rfl
    · simp
  · refine ⟨hin, hW, fun i j => ?_, fun j => ?_, fun q' hq' => ?_⟩
    · show b.low j ≤ (if _ then x' i else s.popBestX i) j ∧ (if _ then x' i else s.popBestX i) j ≤ b.high j
      split
      · exact hin i j
      · exact hs.popBestX i j
    · exact updateGenOptimum_mem (genBestXs := s.genBestXs) hin hs.genBestXs j
    · rcases List.mem_append.mp (show q' ∈ s.calls ++ [x'] from hq') with h | h
      · exact hs.calls q' h
      · rw [List.mem_singleton.mp h]; exact hin

theorem psoLoop_num (hp : 1 ≤ p) (he : emin ≤ 0) {q D : ℕ} {cfg : PSOCfg (Fl R)} {c : ℕ} (hc : CfgUpTo cfg c) {b : Box (Fl R) D} (hb : ∀ j, b.low j ≤ b.high j) {k : ℕ} (hk : BoundsUpTo b k)
    (hov : 2 * (k : ℤ) + 3 * c + 4 < emax) (func : Pop (XFl R emax) (q + 1) D → Fin (q + 1) → Fl R) {rnd : PSORand (Fl R) (q + 1) D} (hrepl : ∀ t k i j, HalfOpenUnit (rnd.repl t k i j))
    (stop : Option (Fl R)) : ∀ (more iter : ℕ) (s : PSOState (Fl R) (q + 1) D), Inv b (k + 1 + c) iter s →
      psoLoopX (numPSOCfg emax cfg) (numBox emax b) func (numPSORand emax rnd) stop more iter (numState emax s) =
        (numState emax (psoLoop cfg b (fun X => func (numPop emax X)) rnd stop more iter s).1, (psoLoop cfg b (fun X => func (numPop emax X)) rnd stop more iter s).2) ∧
      ∃ t, Inv b (k + 1 + c) t (psoLoop cfg b (fun X => func (numPop emax X)) rnd stop more iter s).1
  | 0, iter, s, hs => by
    obtain ⟨h1, h2⟩ := psoStep_num hp he hc hb hk hov func hrepl hs
    exact ⟨Prod.ext h1 rfl, _, h2⟩
  | more + 1, iter, s, hs => by
    obtain ⟨h1, h2⟩ := psoStep_num hp he hc hb hk hov func hrepl hs
    unfold psoLoopX psoLoop
    dsimp only
    rw [h1]
    have hgb : (numState emax (psoStep cfg b (fun X => func (numPop emax X)) rnd iter s)).genBest = (psoStep cfg b (fun X => func (numPop emax X)) rnd iter s).genBest := rfl
    rw [hgb]
    split
    · exact ⟨rfl, _, h2⟩
    · exact psoLoop_num hp he hc hb hk hov func hrepl stop more (iter + 1) _ h2

/-! ## DE -/

/-- What a state without overflow is as a state of floats. -/
def numDEState (emax : ℤ) {P D : ℕ} (s : DEState (Fl R) P D) : DEStateX (XFl R emax) (Fl R) P D :=
  { x := numPop emax s.x, obj := s.obj, genBest := s.genBest, genBestXs := fun t j => .num (s.genBestXs t j), samples := fun t => numPop emax (s.samples t), responses := s.responses
    calls := s.calls.map (numPop emax) }

/-- Invariant of DE runs: points in the box. -/
structure DEInv {P D : ℕ} (b : Box (Fl R) D) (iter : ℕ) (s : DEState (Fl R) P D) : Prop where
  x : ∀ i j, b.low j ≤ s.x i j ∧ s.x i j ≤ b.high j
  genBestXs : ∀ j, b.low j ≤ s.genBestXs iter j ∧ s.genBestXs iter j ≤ b.high j
  calls : ∀ q ∈ s.calls, ∀ i j, b.low j ≤ q i j ∧ q i j ≤ b.high j

theorem deInit_num (hp : 1 ≤ p) (he : emin ≤ 0) {q D : ℕ} {b : Box (Fl R) D} (hb : ∀ j, b.low j ≤ b.high j) {k : ℕ} (hk : BoundsUpTo b k) (hov : (k : ℤ) + 1 < emax)
    (func : Pop (XFl R emax) (q + 1) D → Fin (q + 1) → Fl R) {rnd : DERand (Fl R) (q + 1) D} (hpos : ∀ i j, HalfOpenUnit (rnd.pos i j)) :
    deInitX (numBox emax b) func (numDERand emax rnd) = numDEState emax (deInit b (fun X => func (numPop emax X)) rnd) ∧ DEInv b 0 (deInit b (fun X => func (numPop emax X)) rnd) := by
  have hx : locInit (numBox emax b) (numPop emax rnd.pos) = numPop emax (locInit b rnd.pos) := by
    funext i j; exact locInit_num hp he hb hk hov (hpos i j)
  have hin : ∀ i j, b.low j ≤ locInit b rnd.pos i j ∧ locInit b rnd.pos i j ≤ b.high j := fun i j => mem_locInit hp hb (hpos i j)
  constructor
  · unfold deInitX deInit numDEState
    simp only [show (numDERand emax rnd).pos = numPop emax rnd.pos from rfl, hx]
    congr 1
    · funext t j
      by_cases ht : t = 0
      · subst ht; simp [genBestX, numPop]
      · simp [Function.update_of_ne ht]; rfl
    · funext t
      by_cases ht : t = 0
      · subst ht; simp
      · simp [Function.update_of_ne ht]; rfl
  · refine ⟨hin, fun j => ?_, fun q hq => ?_⟩
    · simpa [deInit, genBestX] using hin _ j
    · rw [show q = locInit b rnd.pos from by simpa [deInit] using hq]; exact hin

theorem donor_num (hp : 1 ≤ p) (he : emin ≤ 0) {k c : ℕ} (hov : (k : ℤ) + c + 2 < emax) {F a d e : Fl R} (hF : Upto F c) (ha : Upto a k) (hd : Upto d k) (hee : Upto e k) :
    (XFl.num a + XFl.num F * (XFl.num d - XFl.num e) : XFl R emax) = .num (a + F * (d - e)) := by
  have h1 := Upto.sub hp he hd hee
  have h2 := Upto.mul hp he hF h1
  have h3 := Upto.add hp he (ha.mono (by omega : k ≤ c + (k + 1))) h2
  rw [num_sub h1 (by push_cast; omega), num_mul h2 (by push_cast; omega)]
  exact num_add h3 (by push_cast; omega)

theorem deTrial_num (hp : 1 ≤ p) (he : emin ≤ 0) {q D : ℕ} {cfg : DECfg (Fl R)} {c : ℕ} (hc : Upto cfg.stepSize c) {b : Box (Fl R) D} (hb : ∀ j, b.low j ≤ b.high j) {k : ℕ} (hk : BoundsUpTo b k)
    (hov : (k : ℤ) + c + 2 < emax) {rnd : DERand (Fl R) (q + 1) D} (hrepl : ∀ t k i j, HalfOpenUnit (rnd.repl t k i j)) {iter : ℕ} {s : DEState (Fl R) (q + 1) D} (hs : DEInv b iter s) :
    deTrialX (numDECfg emax cfg) (numBox emax b) (numDERand emax rnd) iter (numDEState emax s) = numPop emax (deTrial cfg b rnd iter s) ∧
      ∀ i j, b.low j ≤ deTrial cfg b rnd iter s i j ∧ deTrial cfg b rnd iter s i j ≤ b.high j := by
  have hX : ∀ i j, Upto (s.x i j) k := fun i j => upto_of_mem hk (hs.x i j).1 (hs.x i j).2
  have hG : ∀ j, Upto (s.genBestXs iter j) k := fun j => upto_of_mem hk (hs.genBestXs j).1 (hs.genBestXs j).2
  refine ⟨?_, mem_locCons hp hb (hrepl iter) _⟩
  refine Eq.trans ?_ (locConsX_num hp he hb hk (by omega) (hrepl iter) _)
  unfold deTrialX
  dsimp only
  congr 1
  funext i j
  unfold crossoverX numPop crossover
  have hd : (if (numDECfg emax cfg).strategy = "DE/rand/1/bin" then donorRand (numDECfg emax cfg).stepSize (numDEState emax s).x i ((numDERand emax rnd).choice3 iter i)
      else donorBest (numDECfg emax cfg).stepSize (numDEState emax s).x ((numDEState emax s).genBestXs iter) i ((numDERand emax rnd).choice2 iter i)) j =
      .num ((if cfg.strategy = "DE/rand/1/bin" then donorRand cfg.stepSize s.x i (rnd.choice3 iter i) else donorBest cfg.stepSize s.x (s.genBestXs iter) i (rnd.choice2 iter i)) j) := by
    by_cases h : cfg.strategy = "DE/rand/1/bin"
    · rw [if_pos h, if_pos (show (numDECfg emax cfg).strategy = _ from h)]
      exact donor_num hp he hov hc (hX _ j) (hX _ j) (hX _ j)
    · rw [if_neg h, if_neg (show ¬(numDECfg emax cfg).strategy = _ from h)]
      exact donor_num hp he hov hc (hG j) (hX _ j) (hX _ j)
  rw [hd]
  dsimp only
  have hcond : (((numDERand emax rnd).cr iter i j).lt (numDECfg emax cfg).crossoverRate ∨ (numDERand emax rnd).c iter i = j.val) ↔ (rnd.cr iter i j < cfg.crossoverRate ∨ rnd.c iter i = j.val) := Iff.rfl
  by_cases h : rnd.cr iter i j < cfg.crossoverRate ∨ rnd.c iter i = j.val
  · rw [if_pos h]; exact if_pos (hcond.mpr h)
  · rw [if_neg h]; exact if_neg (fun h' => h (hcond.mp h'))

theorem deStep_num (hp : 1 ≤ p) (he : emin ≤ 0) {q D : ℕ} {cfg : DECfg (Fl R)} {c : ℕ} (hc : Upto cfg.stepSize c) {b : Box (Fl R) D} (hb : ∀ j, b.low j ≤ b.high j) {k : ℕ} (hk : BoundsUpTo b k)
    (hov : (k : ℤ) + c + 2 < emax) (func : Pop (XFl R emax) (q + 1) D → Fin (q + 1) → Fl R) {rnd : DERand (Fl R) (q + 1) D} (hrepl : ∀ t k i j, HalfOpenUnit (rnd.repl t k i j)) {iter : ℕ}
    {s : DEState (Fl R) (q + 1) D} (hs : DEInv b iter s) :
    deStepX (numDECfg emax cfg) (numBox emax b) func (numDERand emax rnd) iter (numDEState emax s) = numDEState emax (deStep cfg b (fun X => func (numPop emax X)) rnd iter s) ∧
      DEInv b (iter + 1) (deStep cfg b (fun X => func (numPop emax X)) rnd iter s) := by
  obtain ⟨hu, hin⟩ := deTrial_num hp he hc hb hk hov hrepl hs
  unfold deStepX deStep
  rw [hu]
  generalize deTrial cfg b rnd iter s = u at hin ⊢
  have hx : ∀ i j, b.low j ≤ (if func (numPop emax u) i < s.obj i then u i else s.x i) j ∧ (if func (numPop emax u) i < s.obj i then u i else s.x i) j ≤ b.high j := by
    intro i j
    split
    · exact hin i j
    · exact hs.x i j
  constructor
  · unfold deUpdateObjX deUpdateGenOptimum deUpdateObj
    have hxe : (fun i => if func (numPop emax u) i < s.obj i then numPop emax u i else (numDEState emax s).x i) = numPop emax (fun i => if func (numPop emax u) i < s.obj i then u i else s.x i) := by
      funext i j
      simp only [numPop]
      split <;> rfl
    have hg := updateGenOptimumX_num (emax := emax) iter s.genBest s.genBestXs (fun i => if func (numPop emax u) i < s.obj i then u i else s.x i)
      (fun i => if func (numPop emax u) i < s.obj i then func (numPop emax u) i else s.obj i)
    simp only [show (numDEState emax s).obj = s.obj from rfl, show (numDEState emax s).genBest = s.genBest from rfl, show (numDEState emax s).genBestXs = fun t j => .num (s.genBestXs t j) from rfl, hxe, hg]
    unfold numDEState
    congr 1
    · funext t
      by_cases ht : t = iter + 1
      · subst ht; simp
      · simp [Function.update_of_ne ht]
    · simp
  · refine ⟨hx, fun j => ?_, fun q' hq' => ?_⟩
    · exact updateGenOptimum_mem (genBestXs := s.genBestXs) hx hs.genBestXs j
    · rcases List.mem_append.mp (show q' ∈ s.calls ++ [u] from hq') with h | h
      · exact hs.calls q' h
      · rw [List.mem_singleton.mp h]; exact hin

theorem deLoop_num (hp : 1 ≤ p) (he : emin ≤ 0) {q D : ℕ} {cfg : DECfg (Fl R)} {c : ℕ} (hc : Upto cfg.stepSize c) {b : Box (Fl R) D} (hb : ∀ j, b.low j ≤ b.high j) {k : ℕ} (hk : BoundsUpTo b k)
    (hov : (k : ℤ) + c + 2 < emax) (func : Pop (XFl R emax) (q + 1) D → Fin (q + 1) → Fl R) {rnd : DERand (Fl R) (q + 1) D} (hrepl : ∀ t k i j, HalfOpenUnit (rnd.repl t k i j)) (stop : Option (Fl R)) :
    ∀ (more iter : ℕ) (s : DEState (Fl R) (q + 1) D), DEInv b iter s →
      deLoopX (numDECfg emax cfg) (numBox emax b) func (numDERand emax rnd) stop more iter (numDEState emax s) =
        (deLoop cfg b (fun X => func (numPop emax X)) rnd stop more iter s).map (fun r => (numDEState emax r.1, r.2)) ∧
      ∀ r, deLoop cfg b (fun X => func (numPop emax X)) rnd stop more iter s = .ok r → ∃ t, DEInv b t r.1
  | 0, iter, s, hs => by
    obtain ⟨h1, h2⟩ := deStep_num hp he hc hb hk hov func hrepl hs
    have hk' : deCheck (numDECfg emax cfg) (q + 1) = deCheck cfg (q + 1) := rfl
    unfold deLoopX deLoop
    rw [hk', h1]
    cases hcheck : deCheck cfg (q + 1) with
    | error e => exact ⟨rfl, fun r hr => by cases hr⟩
    | ok u => exact ⟨rfl, fun r hr => by cases hr; exact ⟨_, h2⟩⟩
  | more + 1, iter, s, hs => by
    obtain ⟨h1, h2⟩ := deStep_num hp he hc hb hk hov func hrepl hs
    have hk' : deCheck (numDECfg emax cfg) (q + 1) = deCheck cfg (q + 1) := rfl
    unfold deLoopX deLoop
    rw [hk', h1]
    cases hcheck : deCheck cfg (q + 1) with
    | error e => exact ⟨rfl, fun r hr => by cases hr⟩
    | ok u =>
      have hgb : (numDEState emax (deStep cfg b (fun X => func (numPop emax X)) rnd iter s)).genBest = (deStep cfg b (fun X => func (numPop emax X)) rnd iter s).genBest := rfl
      show (if stopNow stop ((numDEState emax (deStep cfg b (fun X => func (numPop emax X)) rnd iter s)).genBest (iter + 1)) then _ else _) =
        Except.map _ (if stopNow stop ((deStep cfg b (fun X => func (numPop emax X)) rnd iter s).genBest (iter + 1)) then _ else _) ∧
        ∀ r, (if stopNow stop ((deStep cfg b (fun X => func (numPop emax X)) rnd iter s).genBest (iter + 1)) then _ else _) = Except.ok r → _
      rw [hgb]
      split
      · exact ⟨rfl, fun r hr => by cases hr; exact ⟨_, h2⟩⟩
      · exact deLoop_num hp he hc hb hk hov func hrepl stop more (iter + 1) _ h2

end Mfpml.Overflow
