import Verif.Lemmas.Overflow

/-!
# Helper lemmas for C180: how PSO gets to `nan`
-/

namespace Mfpml.Overflow

open Mfpml.Rounded Mfpml.EA Mfpml.Spec

variable {p : ℕ} {emin emax : ℤ} {R : Rounding p emin}

/-- The default settings of `PSO`, two generations. -/
noncomputable def defaults (R : Rounding p emin) : PSOCfg (Fl R) :=
  { numGen := 2, cognition := Fl.ofReal R 1.5, social := Fl.ofReal R 1.5, weight := Fl.ofReal R 0.8, maxVRate := Fl.ofReal R 0.2 }

/-- The design space `[-2 ^ k, 2 ^ k]`. -/
noncomputable def symBox (R : Rounding p emin) (k : ℕ) : Box (Fl R) 1 := { low := fun _ => Fl.ofReal R (-2 ^ k), high := fun _ => Fl.ofReal R (2 ^ k) }

/-- Draws: the first individual starts at the lower bound, the second at three quarters of the width; velocities and replacements are drawn as zero. -/
noncomputable def someDraws (R : Rounding p emin) : PSORand (Fl R) 2 1 :=
  { pos := fun i _ => if i = 0 then 0 else Fl.ofReal R (3 / 4), vel := fun _ _ => 0, repl := fun _ _ _ _ => 0 }

theorem isFloat_int (hp : 4 ≤ p) {m : ℤ} (hm : |m| ≤ 9) {e : ℤ} (he : emin ≤ e) : IsFloat p emin (m * 2 ^ e) := by
  refine ⟨m, e, lt_of_le_of_lt hm ?_, he, rfl⟩
  calc (9 : ℤ) < 2 ^ 4 := by norm_num
    _ ≤ 2 ^ p := pow_le_pow_right₀ (by norm_num) hp

theorem ofReal_val {x : ℝ} (h : IsFloat p emin x) : (Fl.ofReal R x).val = x := R.fl_of_isFloat h

theorem isFloat_nat (hp : 4 ≤ p) (he : emin ≤ 0) {m : ℤ} (hm : |m| ≤ 9) (n : ℕ) : IsFloat p emin (m * 2 ^ n) := by
  have := isFloat_int (emin := emin) hp hm (e := n) (by omega)
  simpa using this

theorem low_val (hp : 4 ≤ p) (he : emin ≤ 0) (k : ℕ) : (Fl.ofReal R (-2 ^ k)).val = -2 ^ k := ofReal_val (isFloat_two_pow (by omega) he k).neg
theorem high_val (hp : 4 ≤ p) (he : emin ≤ 0) (k : ℕ) : (Fl.ofReal R (2 ^ k)).val = 2 ^ k := ofReal_val (isFloat_two_pow (by omega) he k)

theorem sym_bounds (hp : 4 ≤ p) (he : emin ≤ 0) (k : ℕ) : BoundsUpTo (symBox R k) k := by
  intro j
  show |(Fl.ofReal R (-2 ^ k)).val| ≤ 2 ^ k ∧ |(Fl.ofReal R (2 ^ k)).val| ≤ 2 ^ k
  rw [low_val hp he, high_val hp he, abs_neg, abs_of_pos (by positivity)]
  exact ⟨le_refl _, le_refl _⟩

theorem sym_le (hp : 4 ≤ p) (he : emin ≤ 0) (k : ℕ) (j : Fin 1) : (symBox R k).low j ≤ (symBox R k).high j := by
  show (Fl.ofReal R (-2 ^ k)).val ≤ (Fl.ofReal R (2 ^ k)).val
  rw [low_val hp he, high_val hp he]
  have : (0 : ℝ) < 2 ^ k := by positivity
  linarith

theorem width_val (hp : 4 ≤ p) (he : emin ≤ 0) (k : ℕ) (j : Fin 1) : ((symBox R k).high j - (symBox R k).low j).val = 2 ^ (k + 1) := by
  show R.fl ((Fl.ofReal R (2 ^ k)).val - (Fl.ofReal R (-2 ^ k)).val) = _
  rw [low_val hp he, high_val hp he, show (2 : ℝ) ^ k - -2 ^ k = 2 ^ (k + 1) from by ring]
  exact R.fl_of_isFloat (isFloat_two_pow (by omega) he _)

theorem rate_val (hp : 4 ≤ p) (he : emin ≤ -3) : 1 / 8 ≤ (defaults R).maxVRate.val ∧ (defaults R).maxVRate.val ≤ 1 / 4 := by
  have h1 : IsFloat p emin (1 / 8) := by
    have := isFloat_int (emin := emin) hp (m := 1) (by norm_num) (e := -3) he
    norm_num at this ⊢; exact this
  have h2 : IsFloat p emin (1 / 4) := by
    have := isFloat_int (emin := emin) hp (m := 1) (by norm_num) (e := -2) (by omega)
    norm_num at this ⊢; exact this
  exact ⟨R.le_fl h1 (by norm_num), R.fl_le h2 (by norm_num)⟩

theorem weight_pos (hp : 4 ≤ p) (he : emin ≤ -3) : 0 < (defaults R).weight.val ∧ |(defaults R).weight.val| ≤ 2 := by
  have h1 : IsFloat p emin (1 / 2) := by
    have := isFloat_int (emin := emin) hp (m := 1) (by norm_num) (e := -1) (by omega)
    norm_num at this ⊢; exact this
  have h2 : IsFloat p emin 1 := isFloat_one (by omega) (by omega)
  have a : 1 / 2 ≤ (defaults R).weight.val := R.le_fl h1 (by norm_num)
  have b : (defaults R).weight.val ≤ 1 := R.fl_le h2 (by norm_num)
  exact ⟨by linarith, abs_le.mpr ⟨by linarith, by linarith⟩⟩

theorem rate_three_halves (hp : 4 ≤ p) (he : emin ≤ -3) : (Fl.ofReal R 1.5).val = 3 / 2 := by
  have := isFloat_int (emin := emin) hp (m := 3) (by norm_num) (e := -1) (by omega)
  rw [ofReal_val]
  · norm_num
  · norm_num at this ⊢; exact this

theorem defaults_upTo (hp : 4 ≤ p) (he : emin ≤ -3) : CfgUpTo (defaults R) 1 := by
  have hr := rate_val (R := R) hp he
  have ht : |(Fl.ofReal R 1.5).val| ≤ 2 ^ 1 := by rw [rate_three_halves hp he]; norm_num [abs_le]
  refine ⟨by simpa using (weight_pos (R := R) hp he).2, ht, ht, ?_, ?_⟩
  · rw [abs_le]; constructor <;> linarith [hr.1, hr.2]
  · show (0 : ℝ) ≤ (defaults R).maxVRate.val
    linarith [hr.1]

theorem vmax_val (hp : 4 ≤ p) (he : emin ≤ -3) {k : ℕ} (hk : 2 ≤ k) (j : Fin 1) : 2 ^ (k - 2) ≤ (vMax (defaults R) (symBox R k) j).val ∧ (vMax (defaults R) (symBox R k) j).val ≤ 2 ^ (k - 1) := by
  have hr := rate_val (R := R) hp he
  have e1 : (2 : ℝ) ^ (k + 1) = 8 * 2 ^ (k - 2) := by
    obtain ⟨m, rfl⟩ := Nat.exists_eq_add_of_le hk
    rw [show 2 + m + 1 = m + 3 from by omega, show 2 + m - 2 = m from by omega, pow_add]; norm_num; ring
  have e2 : (2 : ℝ) ^ (k - 1) = 2 * 2 ^ (k - 2) := by
    obtain ⟨m, rfl⟩ := Nat.exists_eq_add_of_le hk
    rw [show 2 + m - 1 = m + 1 from by omega, show 2 + m - 2 = m from by omega, pow_add]; norm_num; ring
  have hpw : (0 : ℝ) < 2 ^ (k - 2) := by positivity
  show _ ≤ R.fl (((symBox R k).high j - (symBox R k).low j).val * (defaults R).maxVRate.val) ∧ R.fl (((symBox R k).high j - (symBox R k).low j).val * (defaults R).maxVRate.val) ≤ _
  rw [width_val hp (by omega)]
  refine ⟨R.le_fl (isFloat_two_pow (by omega) (by omega) _) ?_, R.fl_le (isFloat_two_pow (by omega) (by omega) _) ?_⟩
  · rw [e1]; nlinarith [hr.1]
  · rw [e1, e2]; nlinarith [hr.2]

/-- The floats of the run. -/
noncomputable abbrev runCfg (R : Rounding p emin) (emax : ℤ) := numPSOCfg emax (defaults R)
noncomputable abbrev runBox (R : Rounding p emin) (emax : ℤ) (k : ℕ) := numBox emax (symBox R k)
noncomputable abbrev runRnd (R : Rounding p emin) (emax : ℤ) := numPSORand emax (someDraws R)

variable {k : ℕ}

theorem vmax_num (hp : 4 ≤ p) (he : emin ≤ -3) (hk2 : (k : ℤ) + 5 < emax) (j : Fin 1) : vMax (runCfg R emax) (runBox R emax k) j = .num (vMax (defaults R) (symBox R k) j) :=
  vMax_num (by omega) (by omega) (defaults_upTo hp he) (sym_bounds hp (by omega) k) (by push_cast; omega) j

theorem locInit_zero (hp : 4 ≤ p) (he : emin ≤ -3) (hk2 : (k : ℤ) + 5 < emax) (t : ℕ) (j : Fin 1) (i : Fin 2) :
    ∃ a : Fl R, locInit (runBox R emax k) ((runRnd R emax).repl t j) i j = .num a ∧ Upto a k := by
  have hu : HalfOpenUnit ((someDraws R).repl t j i j) := ⟨le_refl _, zero_lt_one⟩
  refine ⟨_, locInit_num (by omega) (by omega) (sym_le hp (by omega) k) (sym_bounds hp (by omega) k) (by omega) hu, ?_⟩
  have := mem_locInit (by omega) (sym_le (R := R) hp (by omega) k) hu
  exact upto_of_mem (sym_bounds hp (by omega) k) this.1 this.2

theorem add_num_inf (a : Fl R) (σ : Bool) : (XFl.num a + XFl.inf σ : XFl R emax) = .inf σ := rfl
theorem add_inf_num (a : Fl R) (σ : Bool) : (XFl.inf σ + XFl.num a : XFl R emax) = .inf σ := rfl
theorem add_num_nan (a : Fl R) : (XFl.num a + XFl.nan : XFl R emax) = .nan := rfl

/-- A coordinate at infinity is replaced. -/
theorem locCons_inf (hp : 4 ≤ p) (he : emin ≤ -3) (hk2 : (k : ℤ) + 5 < emax) (t : ℕ) {x : Pop (XFl R emax) 2 1} {i : Fin 2} {σ : Bool} (hx : x i 0 = .inf σ) :
    ∃ a : Fl R, locConsX (runBox R emax k) ((runRnd R emax).repl t) x i 0 = .num a ∧ Upto a k := by
  obtain ⟨a, ha, hu⟩ := locInit_zero (R := R) hp he hk2 t 0 i
  refine ⟨a, ?_, hu⟩
  unfold locConsX
  rw [if_pos, ha]
  rw [hx]
  cases σ
  · exact Or.inr trivial
  · exact Or.inl trivial

/-- A coordinate that is `nan` stays. -/
theorem locCons_nan (t : ℕ) {x : Pop (XFl R emax) 2 1} {i : Fin 2} (hx : x i 0 = .nan) : locConsX (runBox R emax k) ((runRnd R emax).repl t) x i 0 = .nan := by
  unfold locConsX
  rw [if_neg, hx]
  rw [hx]
  rintro (h | h) <;> exact h

open Classical in
theorem velocity_of {cfg : PSOCfg (XFl R emax)} {b : Box (XFl R emax) 1} {rnd : PSORand (XFl R emax) 2 1} {t : ℕ} {s : PSOStateX (XFl R emax) (Fl R) 2 1} {i : Fin 2} {w m : XFl R emax}
    (hw : cfg.weight * s.v i 0 + cfg.cognition * (s.popBestX i 0 - s.x i 0) + cfg.social * (s.genBestXs t 0 - s.x i 0) = w) (hm : vMax cfg b 0 = m) :
    (psoUpdatePopX cfg b rnd t s).v i 0 = if m.lt w.abs then w * m / w.abs else w := by
  subst hw hm; rfl

/-- The first move of an individual that is not the best one: its velocity becomes infinite. -/
theorem first_move (hp : 4 ≤ p) (he : emin ≤ -3) (hk : 2 ≤ k) (hk1 : emax ≤ 2 * k - 1) (hk2 : (k : ℤ) + 5 < emax) {s : PSOStateX (XFl R emax) (Fl R) 2 1} {i : Fin 2} {t : ℕ} {x g : Fl R}
    (hx : s.x i 0 = .num x) (hpb : s.popBestX i 0 = .num x) (hv : s.v i 0 = .num 0) (hg : s.genBestXs t 0 = .num g) (hd : |g.val - x.val| = 3 * 2 ^ (k - 1)) :
    (∃ σ, (psoUpdatePopX (runCfg R emax) (runBox R emax k) (runRnd R emax) t s).v i 0 = .inf σ) ∧
      ∃ a : Fl R, (psoUpdatePopX (runCfg R emax) (runBox R emax k) (runRnd R emax) t s).x i 0 = .num a ∧ Upto a k := by
  have hf0 : R.fl 0 = 0 := R.fl_of_isFloat isFloat_zero
  have z1 : (defaults R).weight * 0 = (0 : Fl R) := Fl.val_injective (show R.fl ((defaults R).weight.val * 0) = 0 by rw [mul_zero, hf0])
  have z2 : x - x = (0 : Fl R) := Fl.val_injective (show R.fl (x.val - x.val) = 0 by rw [sub_self, hf0])
  have z3 : (defaults R).cognition * 0 = (0 : Fl R) := Fl.val_injective (show R.fl ((defaults R).cognition.val * 0) = 0 by rw [mul_zero, hf0])
  have z4 : (0 : Fl R) + 0 = 0 := Fl.add_zero 0
  have u0 : ∀ n, Upto (0 : Fl R) n := fun n => by show |(0 : ℝ)| ≤ 2 ^ n; rw [abs_zero]; positivity
  have e2k : (2 : ℝ) ^ (k - 1) = 2 * 2 ^ (k - 2) := by
    obtain ⟨m, rfl⟩ := Nat.exists_eq_add_of_le hk
    rw [show 2 + m - 1 = m + 1 from by omega, show 2 + m - 2 = m from by omega, pow_add]; norm_num; ring
  have hq : (0 : ℝ) < 2 ^ (k - 2) := by positivity
  -- the difference to the best point
  obtain ⟨ε, hε, hεd⟩ : ∃ ε : ℤ, |ε| = 1 ∧ g.val - x.val = (3 * ε : ℤ) * 2 ^ (k - 1) := by
    rcases abs_choice (g.val - x.val) with h | h
    · exact ⟨1, by norm_num, by push_cast; linarith⟩
    · exact ⟨-1, by norm_num, by push_cast; linarith⟩
  have hm3 : |3 * ε| ≤ 9 := by rw [abs_mul, hε]; norm_num
  have hm9 : |9 * ε| ≤ 9 := by rw [abs_mul, hε]; norm_num
  have hdv : (g - x).val = (3 * ε : ℤ) * 2 ^ (k - 1) := by
    show R.fl (g.val - x.val) = _
    rw [hεd]; exact R.fl_of_isFloat (isFloat_nat hp (by omega) hm3 _)
  have habs : |((ε : ℤ) : ℝ)| = 1 := by rw [← Int.cast_abs, hε]; norm_num
  have hwv : ((defaults R).social * (g - x)).val = (9 * ε : ℤ) * 2 ^ (k - 2) := by
    show R.fl ((Fl.ofReal R 1.5).val * (g - x).val) = _
    rw [hdv, rate_three_halves hp he, e2k, show (3 / 2 : ℝ) * ((3 * ε : ℤ) * (2 * 2 ^ (k - 2))) = (9 * ε : ℤ) * 2 ^ (k - 2) from by push_cast; ring]
    exact R.fl_of_isFloat (isFloat_nat hp (by omega) hm9 _)
  have hk' : (2 : ℝ) ^ k = 4 * 2 ^ (k - 2) := by
    obtain ⟨m, rfl⟩ := Nat.exists_eq_add_of_le hk
    rw [show 2 + m - 2 = m from by omega, pow_add]; norm_num
  have ud : Upto (g - x) (k + 2) := by
    show |(g - x).val| ≤ _
    rw [hdv, abs_mul, abs_of_pos (by positivity : (0 : ℝ) < 2 ^ (k - 1)), e2k, pow_add, hk']
    push_cast
    rw [abs_mul, habs]; norm_num; nlinarith
  have uw : Upto ((defaults R).social * (g - x)) (k + 2) := by
    show |((defaults R).social * (g - x)).val| ≤ _
    rw [hwv, abs_mul, abs_of_pos hq, pow_add, hk']
    push_cast
    rw [abs_mul, habs]; norm_num; nlinarith
  set w := (defaults R).social * (g - x) with hw
  have hwabs : |w.val| = 9 * 2 ^ (k - 2) := by
    rw [hwv, abs_mul, abs_of_pos hq]; push_cast; rw [abs_mul, habs]; norm_num
  -- the new velocity
  have hvm := vmax_val (R := R) hp he hk 0
  set m := vMax (defaults R) (symBox R k) 0 with hmdef
  have hv' : (runCfg R emax).weight * s.v i 0 + (runCfg R emax).cognition * (s.popBestX i 0 - s.x i 0) + (runCfg R emax).social * (s.genBestXs t 0 - s.x i 0) = .num w := by
    rw [hx, hpb, hv, hg]
    show (XFl.num (defaults R).weight : XFl R emax) * XFl.num 0 + XFl.num (defaults R).cognition * (XFl.num x - XFl.num x) + XFl.num (defaults R).social * (XFl.num g - XFl.num x) = _
    rw [num_mul (n := 0) (by rw [z1]; exact u0 0) (by push_cast; omega), num_sub (n := 0) (a := x) (by rw [z2]; exact u0 0) (by push_cast; omega), z1, z2,
      num_mul (n := 0) (by rw [z3]; exact u0 0) (by push_cast; omega), z3, num_add (n := 0) (by rw [z4]; exact u0 0) (by push_cast; omega), z4, num_sub ud (by push_cast; omega),
      num_mul uw (by push_cast; omega), num_add (n := k + 2) (by rw [Fl.zero_add]; exact uw) (by push_cast; omega), Fl.zero_add]
  have hclip : (XFl.num m : XFl R emax).lt (XFl.num w : XFl R emax).abs := by
    show m.val < (npAbs w).val
    rw [npAbs_val, hwabs]
    have := hvm.2
    rw [e2k] at this
    linarith
  have hbig : ¬ |(w * m).val| < (2 : ℝ) ^ emax := by
    rw [not_lt]
    have hp1 : (2 : ℝ) ^ emax ≤ 2 ^ (2 * k - 1) := by
      rw [← zpow_natCast]
      exact zpow_le_zpow_right₀ (by norm_num) (by omega)
    refine le_trans hp1 ?_
    have hx2 : (2 : ℝ) ^ (2 * k - 1) = 8 * (2 ^ (k - 2) * 2 ^ (k - 2)) := by
      obtain ⟨n, rfl⟩ := Nat.exists_eq_add_of_le hk
      rw [show 2 * (2 + n) - 1 = n + n + 3 from by omega, show 2 + n - 2 = n from by omega, pow_add, pow_add]; norm_num; ring
    have hprod : (2 : ℝ) ^ (2 * k - 1) ≤ |w.val * m.val| := by
      rw [abs_mul, hwabs, abs_of_pos (by linarith [hvm.1]), hx2]
      nlinarith [hvm.1]
    have hfl := isFloat_two_pow (p := p) (emin := emin) (by omega) (by omega) (2 * k - 1)
    show _ ≤ |R.fl (w.val * m.val)|
    rcases le_total 0 (w.val * m.val) with h | h
    · rw [abs_of_nonneg h] at hprod
      exact le_trans (R.le_fl hfl hprod) (le_abs_self _)
    · rw [abs_of_nonpos h] at hprod
      have := R.fl_le hfl.neg (x := w.val * m.val) (by linarith)
      exact le_trans (by linarith) (neg_le_abs _)
  have hvel : (psoUpdatePopX (runCfg R emax) (runBox R emax k) (runRnd R emax) t s).v i 0 = .inf (decide ((w * m).val < 0)) := by
    rw [velocity_of hv' (vmax_num hp he hk2 0), if_pos hclip]
    show XFl.div (XFl.ofFl (w * m)) (XFl.num (npAbs w)) = _
    unfold XFl.ofFl
    rw [if_neg hbig]
    show XFl.inf (decide ((w * m).val < 0) != decide ((npAbs w).val < 0)) = _
    rw [npAbs_val, decide_eq_false (not_lt.mpr (abs_nonneg w.val))]
    simp
  refine ⟨⟨_, hvel⟩, ?_⟩
  exact locCons_inf hp he hk2 t (x := fun i j => s.x i j + (psoUpdatePopX (runCfg R emax) (runBox R emax k) (runRnd R emax) t s).v i j) (σ := decide ((w * m).val < 0))
    (by show s.x i 0 + _ = _; rw [hvel, hx]; rfl)

/-- A move of an individual whose velocity is infinite: its coordinate becomes `nan`. -/
theorem second_move (hp : 4 ≤ p) (he : emin ≤ -3) (hk : 2 ≤ k) (hk2 : (k : ℤ) + 5 < emax) {s : PSOStateX (XFl R emax) (Fl R) 2 1} {i : Fin 2} {t : ℕ} {σ : Bool} {x y g : Fl R}
    (hx : s.x i 0 = .num x) (hpb : s.popBestX i 0 = .num y) (hv : s.v i 0 = .inf σ) (hg : s.genBestXs t 0 = .num g) (ux : Upto x k) (uy : Upto y k) (ug : Upto g k) :
    (psoUpdatePopX (runCfg R emax) (runBox R emax k) (runRnd R emax) t s).x i 0 = .nan := by
  have hp1 : 1 ≤ p := by omega
  have he0 : emin ≤ 0 := by omega
  have hc := defaults_upTo (R := R) hp he
  have h1 := Upto.sub hp1 he0 uy ux
  have h2 := Upto.sub hp1 he0 ug ux
  have h3 := Upto.mul hp1 he0 hc.cognition h1
  have h4 := Upto.mul hp1 he0 hc.social h2
  have hw := (weight_pos (R := R) hp he).1
  have hwi : ((runCfg R emax).weight * XFl.inf σ : XFl R emax) = .inf σ := by
    show (if (defaults R).weight.val = 0 then XFl.nan else XFl.inf (decide ((defaults R).weight.val < 0) != σ)) = _
    rw [if_neg hw.ne', decide_eq_false (not_lt.mpr hw.le)]
    simp
  have hv' : (runCfg R emax).weight * s.v i 0 + (runCfg R emax).cognition * (s.popBestX i 0 - s.x i 0) + (runCfg R emax).social * (s.genBestXs t 0 - s.x i 0) = .inf σ := by
    rw [hx, hpb, hv, hg, hwi, num_sub h1 (by push_cast; omega), num_sub h2 (by push_cast; omega)]
    show XFl.inf σ + (XFl.num (defaults R).cognition : XFl R emax) * XFl.num (y - x) + XFl.num (defaults R).social * XFl.num (g - x) = _
    rw [num_mul h3 (by push_cast; omega), num_mul h4 (by push_cast; omega)]
    rfl
  have hvm := vmax_val (R := R) hp he hk 0
  have hm : (vMax (defaults R) (symBox R k) 0).val ≠ 0 := (lt_of_lt_of_le (by positivity) hvm.1).ne'
  have hvel : (psoUpdatePopX (runCfg R emax) (runBox R emax k) (runRnd R emax) t s).v i 0 = .nan := by
    rw [velocity_of hv' (vmax_num hp he hk2 0), if_pos (show (XFl.num (vMax (defaults R) (symBox R k) 0) : XFl R emax).lt (XFl.inf σ : XFl R emax).abs from trivial)]
    show XFl.div (if (vMax (defaults R) (symBox R k) 0).val = 0 then XFl.nan else XFl.inf _) (XFl.inf false) = _
    rw [if_neg hm]
    rfl
  exact locCons_nan t (x := fun i j => s.x i j + (psoUpdatePopX (runCfg R emax) (runBox R emax k) (runRnd R emax) t s).v i j) (by show s.x i 0 + _ = _; rw [hvel, hx]; rfl)

/-- A move of an individual at rest at the best point. -/
theorem rest_move (hp : 4 ≤ p) (he : emin ≤ -3) (hk : 2 ≤ k) (hk2 : (k : ℤ) + 5 < emax) {s : PSOStateX (XFl R emax) (Fl R) 2 1} {i : Fin 2} {t : ℕ} {x : Fl R}
    (hx : s.x i 0 = .num x) (hpb : s.popBestX i 0 = .num x) (hv : s.v i 0 = .num 0) (hg : s.genBestXs t 0 = .num x) (ux : Upto x k) :
    ∃ a : Fl R, (psoUpdatePopX (runCfg R emax) (runBox R emax k) (runRnd R emax) t s).x i 0 = .num a ∧ Upto a k := by
  have hf0 : R.fl 0 = 0 := R.fl_of_isFloat isFloat_zero
  have z1 : (defaults R).weight * 0 = (0 : Fl R) := Fl.val_injective (show R.fl ((defaults R).weight.val * 0) = 0 by rw [mul_zero, hf0])
  have z2 : x - x = (0 : Fl R) := Fl.val_injective (show R.fl (x.val - x.val) = 0 by rw [sub_self, hf0])
  have z3 : (Fl.ofReal R 1.5) * 0 = (0 : Fl R) := Fl.val_injective (show R.fl ((Fl.ofReal R 1.5).val * 0) = 0 by rw [mul_zero, hf0])
  have z4 : (0 : Fl R) + 0 = 0 := Fl.add_zero 0
  have u0 : ∀ n, Upto (0 : Fl R) n := fun n => by show |(0 : ℝ)| ≤ 2 ^ n; rw [abs_zero]; positivity
  have hv' : (runCfg R emax).weight * s.v i 0 + (runCfg R emax).cognition * (s.popBestX i 0 - s.x i 0) + (runCfg R emax).social * (s.genBestXs t 0 - s.x i 0) = .num 0 := by
    rw [hx, hpb, hv, hg]
    show (XFl.num (defaults R).weight : XFl R emax) * XFl.num 0 + XFl.num (Fl.ofReal R 1.5) * (XFl.num x - XFl.num x) + XFl.num (Fl.ofReal R 1.5) * (XFl.num x - XFl.num x) = _
    rw [num_mul (n := 0) (by rw [z1]; exact u0 0) (by push_cast; omega), num_sub (n := 0) (a := x) (by rw [z2]; exact u0 0) (by push_cast; omega), z1, z2,
      num_mul (n := 0) (by rw [z3]; exact u0 0) (by push_cast; omega), z3, num_add (n := 0) (by rw [z4]; exact u0 0) (by push_cast; omega), z4, num_add (n := 0) (by rw [z4]; exact u0 0) (by push_cast; omega), z4]
  have hvm := vmax_val (R := R) hp he hk 0
  have hvel : (psoUpdatePopX (runCfg R emax) (runBox R emax k) (runRnd R emax) t s).v i 0 = .num 0 := by
    rw [velocity_of hv' (vmax_num hp he hk2 0), if_neg]
    show ¬ (vMax (defaults R) (symBox R k) 0).val < (npAbs (0 : Fl R)).val
    rw [npAbs_val]
    have : (0 : ℝ) < 2 ^ (k - 2) := by positivity
    show ¬ _ < |(0 : ℝ)|
    rw [abs_zero]
    linarith [hvm.1]
  have hsum : s.x i 0 + (psoUpdatePopX (runCfg R emax) (runBox R emax k) (runRnd R emax) t s).v i 0 = .num x := by
    rw [hvel, hx, num_add (n := k) (by rw [Fl.add_zero]; exact ux) (by omega), Fl.add_zero]
  have hloc : ∀ y : Pop (XFl R emax) 2 1, y i 0 = .num x → ∃ a : Fl R, locConsX (runBox R emax k) ((runRnd R emax).repl t) y i 0 = .num a ∧ Upto a k := by
    intro y hy
    unfold locConsX
    split
    · exact locInit_zero hp he hk2 t 0 i
    · exact ⟨x, hy, ux⟩
  exact hloc (fun i j => s.x i j + (psoUpdatePopX (runCfg R emax) (runBox R emax k) (runRnd R emax) t s).v i j) hsum

end Mfpml.Overflow
