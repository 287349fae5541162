import Verif.Props.Uniform
import Verif.Props.RunRelations

/-!
# Longer runs (C163)
-/

open MeasureTheory ProbabilityTheory

namespace Mfpml.Props

open Mfpml.Spec Mfpml.EA

/-! ### Longer runs are not worse -/

section longer
set_option linter.unusedSectionVars false
variable {K : Type} [Field K] [LinearOrder K] [IsStrictOrderedRing K] {p D : ℕ}

/-- Lies in the cube with the given centre and half width. -/
def InCube (c : Fin D → K) (δ : K) (x : Fin D → K) : Prop := ∀ j, |x j - c j| ≤ δ

theorem InCube.mono {c : Fin D → K} {δ ε : K} {x : Fin D → K} (h : InCube c δ x) (hε : δ ≤ ε) : InCube c ε x := fun j => (h j).trans hε

theorem locCons_id (b : Box K D) {P : ℕ} (u : Fin D → Pop K P D) (x : Pop K P D) (i : Fin P) (h : InBox b.low b.high (x i)) : locCons b u x i = x i := by
  funext j
  have := h j
  simp only [locCons]
  rw [if_neg]
  push Not
  exact ⟨this.1, this.2⟩

/-! ### Differential evolution -/

theorem deTrial_cube (cfg : DECfg K) (b : Box K D) (func : Pop K (p + 1) D → Fin (p + 1) → K) (rnd : DERand K (p + 1) D) (c : Fin D → K) (δ : K)
    (hbox : ∀ x, InCube c ((1 + 2 * |cfg.stepSize|) * δ) x → InBox b.low b.high x) (n : ℕ) (hx : ∀ i, InCube c δ ((deSeq cfg b func rnd n).x i)) (i : Fin (p + 1)) :
    InCube c ((1 + 2 * |cfg.stepSize|) * δ) (deTrialSeq cfg b func rnd n i) := by
  have hd : ∀ (a a' a'' : Fin D → K), InCube c δ a → InCube c δ a' → InCube c δ a'' → InCube c ((1 + 2 * |cfg.stepSize|) * δ) fun j => a j + cfg.stepSize * (a' j - a'' j) := by
    intro a a' a'' h h' h'' j
    have e : a j + cfg.stepSize * (a' j - a'' j) - c j = (a j - c j) + cfg.stepSize * ((a' j - c j) - (a'' j - c j)) := by ring
    have h1 : |(a' j - c j) - (a'' j - c j)| ≤ 2 * δ := (abs_sub _ _).trans (by linarith [h' j, h'' j])
    show |a j + cfg.stepSize * (a' j - a'' j) - c j| ≤ _
    rw [e]
    refine (abs_add_le _ _).trans ?_
    rw [abs_mul]
    have h2 := mul_le_mul_of_nonneg_left h1 (abs_nonneg cfg.stepSize)
    linarith [h j]
  have hxd : ∀ i, InCube c ((1 + 2 * |cfg.stepSize|) * δ) ((deSeq cfg b func rnd n).x i) := by
    intro i j
    have hδ : 0 ≤ δ := (abs_nonneg _).trans (hx i j)
    have : δ ≤ (1 + 2 * |cfg.stepSize|) * δ := by nlinarith [mul_nonneg (abs_nonneg cfg.stepSize) hδ]
    exact (hx i j).trans this
  have hb : InCube c δ ((deSeq cfg b func rnd n).genBestXs n) := by
    obtain ⟨_, k, hk, _⟩ := deSeq_best cfg b func rnd n
    rw [← hk]
    exact hx k
  have hdon : ∀ i, InCube c ((1 + 2 * |cfg.stepSize|) * δ) (if cfg.strategy = "DE/rand/1/bin" then donorRand cfg.stepSize (deSeq cfg b func rnd n).x i (rnd.choice3 n i)
      else donorBest cfg.stepSize (deSeq cfg b func rnd n).x ((deSeq cfg b func rnd n).genBestXs n) i (rnd.choice2 n i)) := by
    intro i
    split
    · exact hd _ _ _ (hx _) (hx _) (hx _)
    · exact hd _ _ _ hb (hx _) (hx _)
  simp only [deTrialSeq, deTrial]
  rw [locCons_id]
  · intro j
    simp only [crossover]
    split
    · exact hdon i j
    · exact hxd i j
  · refine hbox _ fun j => ?_
    simp only [crossover]
    split
    · exact hdon i j
    · exact hxd i j

theorem deSeq_cube (cfg : DECfg K) (b : Box K D) (f : (Fin D → K) → K) (rnd : DERand K (p + 1) D) (c : Fin D → K) (δ : K)
    (hbox : ∀ x, InCube c ((1 + 2 * |cfg.stepSize|) * δ) x → InBox b.low b.high x)
    (hbasin : ∀ x y, InCube c δ x → InCube c ((1 + 2 * |cfg.stepSize|) * δ) y → f y ≤ f x → InCube c δ y)
    (h0 : ∀ i, InCube c δ (locInit b rnd.pos i)) (n : ℕ) (i : Fin (p + 1)) :
    InCube c δ ((deSeq cfg b (fun q i => f (q i)) rnd n).x i) ∧ (deSeq cfg b (fun q i => f (q i)) rnd n).obj i = f ((deSeq cfg b (fun q i => f (q i)) rnd n).x i) := by
  induction n generalizing i with
  | zero => exact ⟨h0 i, rfl⟩
  | succ n ih =>
    rcases deSeq_succ cfg b (fun q i => f (q i)) rnd n i with ⟨h1, h2, h3⟩ | ⟨_, h2, h3⟩
    · refine ⟨?_, by rw [h2, h3]⟩
      rw [h2]
      refine hbasin _ _ (ih i).1 (deTrial_cube cfg b _ rnd c δ hbox n (fun i => (ih i).1) i) ?_
      rw [← (ih i).2]
      exact h1.le
    · rw [h2, h3]
      exact ih i

/-- **C163 (DE, what can happen).** If the first population lies in a cube, a wider cube (wider by the factor `1 + 2 * step_size`) lies in the design space, and the objective is larger between the two cubes than anywhere in the smaller
one it is compared with, then every point evaluated lies in the wider cube and the point returned in the smaller one: for every draw, strategy, crossover rate and number of generations. -/
theorem C163_de_confined {P : ℕ} (cfg : DECfg K) (b : Box K D) (f : (Fin D → K) → K) (stop : Option K) (rnd : DERand K P D) (r : Result K P D) (h : deRun cfg b (fun q i => f (q i)) stop rnd = .ok r)
    (c : Fin D → K) (δ : K) (hbox : ∀ x, InCube c ((1 + 2 * |cfg.stepSize|) * δ) x → InBox b.low b.high x)
    (hbasin : ∀ x y, InCube c δ x → InCube c ((1 + 2 * |cfg.stepSize|) * δ) y → f y ≤ f x → InCube c δ y) (hstart : ∀ i, InCube c δ (r.allSamples 0 i)) :
    (∀ q ∈ r.calls, ∀ i, InCube c ((1 + 2 * |cfg.stepSize|) * δ) (q i)) ∧ InCube c δ r.retX ∧ r.retY = f r.retX := by
  cases P with
  | zero => simp [deRun] at h
  | succ p =>
    obtain ⟨last, hl, _, hD, _, _, _, _, h5, _, h7, h8, h9⟩ := deRun_ok cfg b _ rnd h
    have h0 : ∀ i, InCube c δ (locInit b rnd.pos i) := by
      intro i
      have := hstart i
      rw [h5, (deSeq_rows_stable cfg b _ rnd last 0 (Nat.zero_le _)).1] at this
      simpa [deSeq, deInit] using this
    have hs := deSeq_cube cfg b f rnd c δ hbox hbasin h0
    have hδ : 0 ≤ δ := (abs_nonneg _).trans (h0 0 ⟨0, Nat.pos_of_ne_zero hD⟩)
    have hle : δ ≤ (1 + 2 * |cfg.stepSize|) * δ := by nlinarith [abs_nonneg cfg.stepSize, mul_nonneg (abs_nonneg cfg.stepSize) hδ]
    refine ⟨?_, ?_⟩
    · intro q hq i
      rw [h9, deSeq_calls] at hq
      rcases List.mem_cons.mp hq with rfl | hq
      · exact (hs 0 i).1.mono hle
      · obtain ⟨n, _, rfl⟩ := List.mem_map.mp hq
        exact deTrial_cube cfg b _ rnd c δ hbox n (fun i => (hs n i).1) i
    · obtain ⟨_, i, h1, h2⟩ := deSeq_best cfg b (fun q i => f (q i)) rnd last
      rw [h8, h7, ← h1, ← h2]
      exact hs last i

/-! ### Particle swarm with the default weights -/

/-- One step of a particle, in one coordinate relative to the centre, with the default weights: `e` position, `v` velocity, `a`, `g` the two attractors. -/
theorem pso_energy {e v a g δ cog soc : K} (hc : 0 ≤ cog) (hs : 0 ≤ soc) (hcs : cog + soc = 3) (ha : |a| ≤ δ) (hg : |g| ≤ δ) (v' : K) (hv' : v' = 4 / 5 * v + cog * (a - e) + soc * (g - e))
    (hE : e ^ 2 + 6 / 5 * e * (e - v) + 4 / 5 * (e - v) ^ 2 ≤ (30 * δ) ^ 2) :
    (e + v') ^ 2 + 6 / 5 * (e + v') * e + 4 / 5 * e ^ 2 ≤ (30 * δ) ^ 2 := by
  have hδ : 0 ≤ δ := (abs_nonneg _).trans ha
  set u := cog * a + soc * g with hu
  have hub : |u| ≤ 3 * δ := by
    rw [hu]
    refine (abs_add_le _ _).trans ?_
    rw [abs_mul, abs_mul, abs_of_nonneg hc, abs_of_nonneg hs]
    have h1 := mul_le_mul_of_nonneg_left ha hc
    have h2 := mul_le_mul_of_nonneg_left hg hs
    calc cog * |a| + soc * |g| ≤ (cog + soc) * δ := by linarith
      _ = 3 * δ := by rw [hcs]
  have hv'' : e + v' = -(6 / 5) * e - 4 / 5 * (e - v) + u := by
    have : soc = 3 - cog := by linarith
    rw [hv', hu, this]; ring
  rw [hv'']
  set b := e - v
  have hub2 := abs_le.mp hub
  -- the value without attractors is 4/5 of the old one, and the mixed term is at most `u` times its root
  have key : (-(6 / 5) * e - 4 / 5 * b + u) ^ 2 + 6 / 5 * (-(6 / 5) * e - 4 / 5 * b + u) * e + 4 / 5 * e ^ 2
      = 4 / 5 * (e ^ 2 + 6 / 5 * e * b + 4 / 5 * b ^ 2) + 2 * u * (-(3 / 5) * e - 4 / 5 * b) + u ^ 2 := by ring
  rw [key]
  have hm : (-(3 / 5) * e - 4 / 5 * b) ^ 2 ≤ 4 / 5 * (e ^ 2 + 6 / 5 * e * b + 4 / 5 * b ^ 2) := by nlinarith [sq_nonneg e]
  have hm2 : (-(3 / 5) * e - 4 / 5 * b) ^ 2 ≤ (27 * δ) ^ 2 := by nlinarith [sq_nonneg δ]
  have hm3 := abs_le_of_sq_le_sq hm2 (by linarith)
  have h1 : u * (-(3 / 5) * e - 4 / 5 * b) ≤ 3 * δ * (27 * δ) := by
    refine (le_abs_self _).trans ?_
    rw [abs_mul]
    exact mul_le_mul hub hm3 (abs_nonneg _) (by linarith)
  have h2 : u ^ 2 ≤ (3 * δ) ^ 2 := sq_le_sq' hub2.1 hub2.2
  nlinarith [sq_nonneg δ]

theorem pso_energy_bounds {a b δ : K} (hδ : 0 ≤ δ) (hE : a ^ 2 + 6 / 5 * a * b + 4 / 5 * b ^ 2 ≤ (30 * δ) ^ 2) : |a| ≤ 41 * δ ∧ |a - b| ≤ 79 * δ := by
  refine ⟨abs_le_of_sq_le_sq ?_ (by linarith), abs_le_of_sq_le_sq ?_ (by linarith)⟩
  · nlinarith [sq_nonneg (3 / 4 * a + b), sq_nonneg δ]
  · nlinarith [sq_nonneg (a + 7 / 8 * b), sq_nonneg δ]

/-- The energy of every particle in every coordinate is bounded. -/
def PsoTame (c : Fin D → K) (δ : K) (s : PSOState K (p + 1) D) : Prop :=
  ∀ i j, (s.x i j - c j) ^ 2 + 6 / 5 * (s.x i j - c j) * (s.x i j - c j - s.v i j) + 4 / 5 * (s.x i j - c j - s.v i j) ^ 2 ≤ (30 * δ) ^ 2

theorem psoSeq_tame (cfg : PSOCfg K) (b : Box K D) (f : (Fin D → K) → K) (rnd : PSORand K (p + 1) D) (hc : 0 ≤ cfg.cognition) (hs : 0 ≤ cfg.social) (hcs : cfg.cognition + cfg.social = 3)
    (hw : cfg.weight = 4 / 5) (c : Fin D → K) (δ : K) (hδ : 0 ≤ δ) (hvm : ∀ j, 79 * δ ≤ vMax cfg b j) (hbox : ∀ x, InCube c (41 * δ) x → InBox b.low b.high x)
    (hbasin : ∀ x y, InCube c δ x → InCube c (41 * δ) y → f y ≤ f x → InCube c δ y) (h0 : ∀ i, InCube c δ (locInit b rnd.pos i))
    (ht : PsoTame c δ (psoSeq cfg b (fun q i => f (q i)) rnd 0)) (n : ℕ) :
    ∀ k ≤ n, PsoTame c δ (psoSeq cfg b (fun q i => f (q i)) rnd k) := by
  induction n with
  | zero =>
    intro k hk
    obtain rfl : k = 0 := by omega
    exact ht
  | succ n ih =>
    intro k hk
    rcases Nat.lt_or_ge n k with h | h
    swap
    · exact ih k h
    obtain rfl : k = n + 1 := by omega
    have hshell : ∀ k ≤ n, ∀ i, InCube c (41 * δ) ((psoSeq cfg b (fun q i => f (q i)) rnd k).x i) := fun k hk i j => (pso_energy_bounds hδ (ih k hk i j)).1
    have hpb : ∀ i, InCube c δ ((psoSeq cfg b (fun q i => f (q i)) rnd n).popBestX i) := by
      intro i
      obtain ⟨h1, k, hk, h2, h3⟩ := psoSeq_own cfg b (fun q i => f (q i)) rnd n i
      rw [← h2]
      refine hbasin _ _ (h0 i) (hshell k hk i) ?_
      have := h1 0 (Nat.zero_le _)
      rw [← h3] at this
      exact this
    have hgb : InCube c δ ((psoSeq cfg b (fun q i => f (q i)) rnd n).genBestXs n) := by
      obtain ⟨h1, k, hk, i, h2, h3⟩ := psoSeq_best cfg b (fun q i => f (q i)) rnd n
      rw [← h2]
      refine hbasin _ _ (h0 i) (hshell k hk i) ?_
      have := h1 0 (Nat.zero_le _) i
      rw [← h3] at this
      exact this
    generalize hst : psoSeq cfg b (fun q i => f (q i)) rnd n = s at *
    have hT : PsoTame c δ s := by rw [← hst]; exact ih n le_rfl
    let v' : Pop K (p + 1) D := fun i j => cfg.weight * s.v i j + cfg.cognition * (s.popBestX i j - s.x i j) + cfg.social * (s.genBestXs n j - s.x i j)
    have hen : ∀ i j, (s.x i j - c j + v' i j) ^ 2 + 6 / 5 * (s.x i j - c j + v' i j) * (s.x i j - c j) + 4 / 5 * (s.x i j - c j) ^ 2 ≤ (30 * δ) ^ 2 := by
      intro i j
      refine pso_energy hc hs hcs (hpb i j) (hgb j) (v' i j) ?_ (hT i j)
      simp only [v', hw]
      ring
    have hvel : velocityCons (vMax cfg b) v' = v' := by
      funext i j
      have h1 := (pso_energy_bounds hδ (hen i j)).2
      have h2 : s.x i j - c j + v' i j - (s.x i j - c j) = v' i j := by ring
      rw [h2] at h1
      simp only [velocityCons]
      rw [if_neg]
      show ¬ |v' i j| > _
      exact not_lt.mpr (h1.trans (hvm j))
    have hpos : locCons b (rnd.repl n) (fun i j => s.x i j + v' i j) = fun i j => s.x i j + v' i j := by
      funext i
      rw [locCons_id]
      refine hbox _ fun j => ?_
      have h1 := (pso_energy_bounds hδ (hen i j)).1
      have h2 : s.x i j + v' i j - c j = s.x i j - c j + v' i j := by ring
      show |s.x i j + v' i j - c j| ≤ _
      rw [h2]
      exact h1
    have e1 : (psoStep cfg b (fun q i => f (q i)) rnd n s).v = velocityCons (vMax cfg b) v' := rfl
    have e2 : (psoStep cfg b (fun q i => f (q i)) rnd n s).x = locCons b (rnd.repl n) (fun i j => s.x i j + velocityCons (vMax cfg b) v' i j) := rfl
    rw [hvel] at e1 e2
    rw [hpos] at e2
    have e3 : psoSeq cfg b (fun q i => f (q i)) rnd (n + 1) = psoStep cfg b (fun q i => f (q i)) rnd n s := by rw [← hst]; rfl
    rw [e3]
    intro i j
    rw [e1, e2]
    have := hen i j
    have h1 : s.x i j + v' i j - c j = s.x i j - c j + v' i j := by ring
    have h2 : s.x i j + v' i j - c j - v' i j = s.x i j - c j := by ring
    rw [h2, h1]
    exact this

/-- **C163 (PSO, what can happen).** With the default weights (`weight = 0.8`, `cognition_rate + social_rate = 3`): if the first population lies in a cube of half width `δ` and its velocities are at most `20 δ`, the cube of half width
`41 δ` lies in the design space, the velocity bound is at least `79 δ`, and the objective is larger between the two cubes than at the points of the smaller one it is compared with, then every point evaluated lies in the wider cube and
the point returned in the smaller one: for every replacement draw and number of generations. -/
theorem C163_pso_confined {P : ℕ} (cfg : PSOCfg K) (b : Box K D) (f : (Fin D → K) → K) (stop : Option K) (rnd : PSORand K P D) (r : PSOResult K P D) (h : psoRun cfg b (fun q i => f (q i)) stop rnd = .ok r)
    (hc : 0 ≤ cfg.cognition) (hs : 0 ≤ cfg.social) (hcs : cfg.cognition + cfg.social = 3) (hw : cfg.weight = 4 / 5)
    (c : Fin D → K) (δ : K) (hvm : ∀ j, 79 * δ ≤ (b.high j - b.low j) * cfg.maxVRate) (hbox : ∀ x, InCube c (41 * δ) x → InBox b.low b.high x)
    (hbasin : ∀ x y, InCube c δ x → InCube c (41 * δ) y → f y ≤ f x → InCube c δ y) (hstart : ∀ i, InCube c δ (r.allSamples 0 i))
    (hvel : ∀ i j, |rnd.vel i j * ((b.high j - b.low j) * cfg.maxVRate)| ≤ 20 * δ) :
    (∀ q ∈ r.calls, ∀ i, InCube c (41 * δ) (q i)) ∧ InCube c δ r.retX ∧ r.retY = f r.retX := by
  cases P with
  | zero => simp [psoRun] at h
  | succ p =>
    have hD : D ≠ 0 := by
      rintro rfl
      simp [psoRun] at h
    obtain ⟨last, _, _, _, _, _, _, h5, _, h7, h8, h9, _⟩ := psoRun_ok cfg b _ rnd h
    have h0 : ∀ i, InCube c δ (locInit b rnd.pos i) := by
      intro i
      have := hstart i
      rw [h5, (psoSeq_row cfg b _ rnd last 0 (Nat.zero_le _)).1] at this
      exact this
    have hδ : 0 ≤ δ := (abs_nonneg _).trans (h0 0 ⟨0, Nat.pos_of_ne_zero hD⟩)
    have ht : PsoTame c δ (psoSeq cfg b (fun q i => f (q i)) rnd 0) := by
      intro i j
      have h1 : |(psoSeq cfg b (fun q i => f (q i)) rnd 0).x i j - c j| ≤ δ := h0 i j
      have h2 : |(psoSeq cfg b (fun q i => f (q i)) rnd 0).v i j| ≤ 20 * δ := hvel i j
      generalize (psoSeq cfg b (fun q i => f (q i)) rnd 0).x i j - c j = e at *
      generalize (psoSeq cfg b (fun q i => f (q i)) rnd 0).v i j = v at *
      have h3 : |e - v| ≤ 21 * δ := (abs_sub _ _).trans (by linarith)
      generalize e - v = w at *
      have a1 : e ^ 2 ≤ δ ^ 2 := sq_le_sq' (abs_le.mp h1).1 (abs_le.mp h1).2
      have a2 : w ^ 2 ≤ (21 * δ) ^ 2 := sq_le_sq' (abs_le.mp h3).1 (abs_le.mp h3).2
      have a3 : e * w ≤ δ * (21 * δ) := (le_abs_self _).trans (by rw [abs_mul]; exact mul_le_mul h1 h3 (abs_nonneg _) hδ)
      nlinarith [sq_nonneg δ]
    have hT := fun k => psoSeq_tame cfg b f rnd hc hs hcs hw c δ hδ hvm hbox hbasin h0 ht k k le_rfl
    have hshell : ∀ k i, InCube c (41 * δ) ((psoSeq cfg b (fun q i => f (q i)) rnd k).x i) := fun k i j => (pso_energy_bounds hδ (hT k i j)).1
    refine ⟨?_, ?_⟩
    · intro q hq i
      rw [h9, psoSeq_calls] at hq
      obtain ⟨k, hk, rfl⟩ := List.mem_map.mp hq
      have hk := List.mem_range.mp hk
      rw [(psoSeq_row cfg b _ rnd last k (by omega)).1]
      exact hshell k i
    · obtain ⟨h1, k, hk, i, h2, h3⟩ := psoSeq_best cfg b (fun q i => f (q i)) rnd last
      rw [h8, h7, ← h2, ← h3]
      refine ⟨hbasin _ _ (h0 i) (hshell k i) ?_, rfl⟩
      have := h1 0 (Nat.zero_le _) i
      rw [← h3] at this
      exact this

end longer

/-! ### Probabilities -/

variable {p D : ℕ}

/-- **C163 (PSO, proved part).** The probability of reaching a given value does not decrease with the number of generations. -/
theorem C163_pso_partial {Ω : Type} [MeasurableSpace Ω] (P : Measure Ω) (cfg : PSOCfg ℝ) (b : Box ℝ D) (func : Pop ℝ p D → Fin p → ℝ) (rnd : Ω → PSORand ℝ p D) (v : ℝ) :
    Monotone fun g => P {ω | ∃ r, psoRun { cfg with numGen := g } b func none (rnd ω) = .ok r ∧ r.retY ≤ v} := by
  intro g₁ g₂ hg
  refine measure_mono ?_
  rintro ω ⟨r₁, h₁, hv⟩
  have h₂ : ∃ r₂, psoRun { cfg with numGen := g₂ } b func none (rnd ω) = .ok r₂ := by
    cases p with
    | zero => simp [psoRun] at h₁
    | succ p =>
      simp only [psoRun] at h₁ ⊢
      split at h₁
      · cases h₁
      rename_i hD
      rw [if_neg hD]
      split at h₁
      · rename_i hV
        have hV' : ∀ j, 0 ≤ vMax { cfg with numGen := g₂ } b j := hV
        rw [if_pos hV']
        cases g₁ with
        | zero => cases h₁
        | succ g₁ =>
          cases g₂ with
          | zero => omega
          | succ g₂ => exact ⟨_, rfl⟩
      · cases h₁
  obtain ⟨r₂, h₂⟩ := h₂
  have hlen := C120_pso_longer cfg g₁ g₂ b func none none (rnd ω) r₁ r₂ h₁ h₂ hg (fun _ h => h)
  exact ⟨r₂, h₂, (C120_pso_prefix cfg g₁ g₂ b func none none (rnd ω) r₁ r₂ h₁ h₂ hlen).2.1.trans hv⟩

/-- **C163 (DE, proved part).** -/
theorem C163_de_partial {Ω : Type} [MeasurableSpace Ω] (P : Measure Ω) (cfg : DECfg ℝ) (b : Box ℝ D) (func : Pop ℝ p D → Fin p → ℝ) (rnd : Ω → DERand ℝ p D) (v : ℝ) :
    Monotone fun g => P {ω | ∃ r, deRun { cfg with numGen := g } b func none (rnd ω) = .ok r ∧ r.retY ≤ v} := by
  intro g₁ g₂ hg
  refine measure_mono ?_
  rintro ω ⟨r₁, h₁, hv⟩
  have h₂ : ∃ r₂, deRun { cfg with numGen := g₂ } b func none (rnd ω) = .ok r₂ := by
    obtain ⟨a1, a2, a3⟩ := (C14_de_returns_iff { cfg with numGen := g₁ } b func none (rnd ω)).1.mp ⟨r₁, h₁⟩
    exact (C14_de_returns_iff { cfg with numGen := g₂ } b func none (rnd ω)).1.mpr ⟨a1, lt_of_lt_of_le a2 hg, a3⟩
  obtain ⟨r₂, h₂⟩ := h₂
  have hlen := C120_de_longer cfg g₁ g₂ b func none none (rnd ω) r₁ r₂ h₁ h₂ hg (fun _ h => h)
  exact ⟨r₂, h₂, (C120_de_prefix cfg g₁ g₂ b func none none (rnd ω) r₁ r₂ h₁ h₂ hlen).2.1.trans hv⟩

/-- All entries of the draws are near `a`. -/
def drawsNear (a ε : ℝ) : Set (Fin p → Fin D → ℝ) := Set.univ.pi fun _ => Set.univ.pi fun _ => Set.Ioo (a - ε) (a + ε)

theorem drawsNear_meas (a ε : ℝ) : MeasurableSet (drawsNear a ε : Set (Fin p → Fin D → ℝ)) :=
  MeasurableSet.univ_pi fun _ => MeasurableSet.univ_pi fun _ => measurableSet_Ioo

theorem drawsNear_pos {a ε : ℝ} (ha : a ∈ Set.Icc (0 : ℝ) 1) (hε : 0 < ε) : 0 < independentUniform p (fun _ : Fin D => 0) (fun _ => 1) (drawsNear a ε) := by
  have h0 : IsProbabilityMeasure (uniformIcc 0 1) := uniformIcc_prob one_pos
  have h1 : IsProbabilityMeasure (uniformBox (fun _ : Fin D => 0) fun _ => 1) := uniformBox_prob fun _ => one_pos
  unfold independentUniform drawsNear
  rw [Measure.pi_pi]
  refine CanonicallyOrderedAdd.prod_pos.mpr fun i _ => ?_
  unfold uniformBox
  rw [Measure.pi_pi]
  exact CanonicallyOrderedAdd.prod_pos.mpr fun j _ => uniformIcc_near one_pos ha hε

/-- A continuous function with a local minimum of 0 at 0 and its minimum of -1 at 250. -/
noncomputable def trapF (x : Fin 1 → ℝ) : ℝ := min |x 0| (|x 0 - 250| - 1)

/-- Its design space. -/
def trapBox : Box ℝ 1 := ⟨fun _ => -500, fun _ => 500⟩

theorem trapF_near {x : Fin 1 → ℝ} (h : |x 0| ≤ 41) : trapF x = |x 0| := by
  have h1 := abs_le.mp h
  unfold trapF
  refine min_eq_left ?_
  rw [abs_of_neg (by linarith : x 0 - 250 < 0)]
  linarith

theorem trapF_basin (x y : Fin 1 → ℝ) (hx : InCube (fun _ => 0) 1 x) (hy : InCube (fun _ => 0) 41 y) (h : trapF y ≤ trapF x) : InCube (fun _ => 0) 1 y := by
  have hx0 : |x 0| ≤ 1 := by simpa using hx 0
  have hy0 : |y 0| ≤ 41 := by simpa using hy 0
  rw [trapF_near hy0, trapF_near (hx0.trans (by norm_num))] at h
  intro j
  fin_cases j
  simpa using h.trans hx0

theorem trap_box (x : Fin 1 → ℝ) (hx : InCube (fun _ => 0) 41 x) : InBox trapBox.low trapBox.high x := by
  intro j
  have := abs_le.mp (hx j)
  simp only [trapBox]
  constructor <;> linarith

theorem trap_start {u : Fin p → Fin 1 → ℝ} (hu : u ∈ drawsNear (1 / 2) (1 / 1000)) (i : Fin p) : InCube (fun _ => 0) 1 (locInit trapBox u i) := by
  intro j
  have h := hu i (Set.mem_univ _) j (Set.mem_univ _)
  simp only [locInit, trapBox]
  rw [abs_le]
  constructor <;> linarith [h.1, h.2]

/-- The minimum of the function is -1, at 250. -/
theorem trapF_min : trapF (fun _ => 250) = -1 ∧ ∀ y, -1 ≤ trapF y := by
  constructor
  · norm_num [trapF]
  · intro y
    exact le_min (by linarith [abs_nonneg (y 0)]) (by linarith [abs_nonneg (y 0 - 250)])

theorem trapF_cont : Continuous trapF := by
  unfold trapF
  fun_prop

/-- PSO with its default settings (evolutionary_algorithms.py:136-145). -/
noncomputable def defaultPSO (numGen : ℕ) : PSOCfg ℝ := { numGen := numGen, cognition := 3 / 2, social := 3 / 2, weight := 4 / 5, maxVRate := 1 / 5 }

/-- DE with its default settings (evolutionary_algorithms.py:346-354). -/
noncomputable def defaultDE (numGen : ℕ) : DECfg ℝ := { numGen := numGen, stepSize := 1 / 2, crossoverRate := 1 / 2, strategy := "DE/rand/1/bin" }

/-- **C163 (DE, counterexample).** A continuous objective on an interval for which the probability of getting within 1/2 of the minimum stays below a bound less than one, however many generations are allowed: with any step size up to 20 (the
default is 0.5), any crossover rate and any draws of which the initial ones are independent and uniform. -/
theorem C163_de_counterexample (p : ℕ) : ∃ (b : Box ℝ 1) (f : (Fin 1 → ℝ) → ℝ) (x : Fin 1 → ℝ), (∀ j, b.low j < b.high j) ∧ Continuous f ∧ InBox b.low b.high x ∧ (∀ y, f x ≤ f y) ∧
    ∃ s < 1, ∀ (cfg : DECfg ℝ), |cfg.stepSize| ≤ 20 → ∀ (stop : Option ℝ) (Ω : Type) [MeasurableSpace Ω] (P : Measure Ω) (rnd : Ω → DERand ℝ p 1),
      HasLaw (fun ω => (rnd ω).pos) (independentUniform p (fun _ => 0) fun _ => 1) P →
      P {ω | ∃ r, deRun cfg b (fun q i => f (q i)) stop (rnd ω) = .ok r ∧ r.retY ≤ f x + 1 / 2} ≤ s := by
  have h1 : IsProbabilityMeasure (uniformBox (fun _ : Fin 1 => 0) fun _ => 1) := uniformBox_prob fun _ => one_pos
  have h2 : IsProbabilityMeasure (independentUniform p (fun _ : Fin 1 => 0) fun _ => 1) := by unfold independentUniform; infer_instance
  refine ⟨trapBox, trapF, fun _ => 250, fun _ => by norm_num [trapBox], trapF_cont, fun _ => by norm_num [trapBox], fun y => by rw [trapF_min.1]; exact trapF_min.2 y,
    independentUniform p (fun _ : Fin 1 => 0) (fun _ => 1) (drawsNear (1 / 2) (1 / 1000))ᶜ, ?_, ?_⟩
  · rw [prob_compl_eq_one_sub (drawsNear_meas _ _)]
    exact ENNReal.sub_lt_self (by simp) (by simp) (drawsNear_pos (by norm_num) (by norm_num)).ne'
  · intro cfg hF stop Ω _ P rnd hu
    refine le_of_le_of_eq (measure_mono ?_) (hu.measure_eq (drawsNear_meas (1 / 2) (1 / 1000)).compl)
    rintro ω ⟨r, hr, hv⟩ hin
    have hle : (1 + 2 * |cfg.stepSize|) * (1 : ℝ) ≤ 41 := by linarith
    obtain ⟨_, h3, h4⟩ := C163_de_confined cfg trapBox trapF stop (rnd ω) r hr (fun _ => 0) 1 (fun x hx => trap_box x (hx.mono hle)) (fun x y hx hy => trapF_basin x y hx (hy.mono hle))
      (fun i => by rw [(de_first hr).1]; exact trap_start hin i)
    rw [h4, trapF_near (by have := h3 0; simp at this; linarith), trapF_min.1] at hv
    linarith [abs_nonneg (r.retX 0)]

/-- **C163 (PSO, counterexample).** The same for PSO with its default rates. -/
theorem C163_pso_counterexample (p : ℕ) : ∃ (b : Box ℝ 1) (f : (Fin 1 → ℝ) → ℝ) (x : Fin 1 → ℝ), (∀ j, b.low j < b.high j) ∧ Continuous f ∧ InBox b.low b.high x ∧ (∀ y, f x ≤ f y) ∧
    ∃ s < 1, ∀ (numGen : ℕ) (stop : Option ℝ) (Ω : Type) [MeasurableSpace Ω] (P : Measure Ω) (rnd : Ω → PSORand ℝ p 1),
      HasLaw (fun ω => ((rnd ω).pos, (rnd ω).vel)) ((independentUniform p (fun _ => 0) fun _ => 1).prod (independentUniform p (fun _ => 0) fun _ => 1)) P →
      P {ω | ∃ r, psoRun (defaultPSO numGen) b (fun q i => f (q i)) stop (rnd ω) = .ok r ∧ r.retY ≤ f x + 1 / 2} ≤ s := by
  have h1 : IsProbabilityMeasure (uniformBox (fun _ : Fin 1 => 0) fun _ => 1) := uniformBox_prob fun _ => one_pos
  have h2 : IsProbabilityMeasure (independentUniform p (fun _ : Fin 1 => 0) fun _ => 1) := by unfold independentUniform; infer_instance
  have hm : MeasurableSet ((drawsNear (1 / 2) (1 / 1000) : Set (Fin p → Fin 1 → ℝ)) ×ˢ (drawsNear 0 (1 / 10) : Set (Fin p → Fin 1 → ℝ))) := (drawsNear_meas _ _).prod (drawsNear_meas _ _)
  refine ⟨trapBox, trapF, fun _ => 250, fun _ => by norm_num [trapBox], trapF_cont, fun _ => by norm_num [trapBox], fun y => by rw [trapF_min.1]; exact trapF_min.2 y,
    (independentUniform p (fun _ : Fin 1 => 0) fun _ => 1).prod (independentUniform p (fun _ : Fin 1 => 0) fun _ => 1) (drawsNear (1 / 2) (1 / 1000) ×ˢ drawsNear 0 (1 / 10))ᶜ, ?_, ?_⟩
  · rw [prob_compl_eq_one_sub hm, Measure.prod_prod]
    exact ENNReal.sub_lt_self (by simp) (by simp) (ENNReal.mul_pos (drawsNear_pos (by norm_num) (by norm_num)).ne' (drawsNear_pos (by norm_num) (by norm_num)).ne').ne'
  · intro numGen stop Ω _ P rnd hu
    refine le_of_le_of_eq (measure_mono ?_) (hu.measure_eq hm.compl)
    rintro ω ⟨r, hr, hv⟩ hin
    obtain ⟨_, h3, h4⟩ := C163_pso_confined _ trapBox trapF stop (rnd ω) r hr (by norm_num [defaultPSO]) (by norm_num [defaultPSO]) (by norm_num [defaultPSO]) rfl (fun _ => 0) 1 (fun j => by norm_num [trapBox, defaultPSO])
      (fun x hx => trap_box x (hx.mono (by norm_num))) (fun x y hx hy => trapF_basin x y hx (hy.mono (by norm_num)))
      (fun i => by rw [pso_first hr]; exact trap_start hin.1 i)
      (fun i j => by
        have := hin.2 i (Set.mem_univ _) j (Set.mem_univ _)
        simp only [trapBox, defaultPSO]
        rw [abs_le]
        constructor <;> linarith [this.1, this.2])
    rw [h4, trapF_near (by have := h3 0; simp at this; linarith), trapF_min.1] at hv
    linarith [abs_nonneg (r.retX 0)]

/-- The runs of both counterexamples return, for all draws. -/
example (g p : ℕ) (rnd : DERand ℝ (p + 3) 1) (rnd' : PSORand ℝ (p + 3) 1) : (∃ r, deRun (defaultDE (g + 1)) trapBox (fun q i => trapF (q i)) none rnd = .ok r) ∧
    ∃ r, psoRun (defaultPSO (g + 1)) trapBox (fun q i => trapF (q i)) none rnd' = .ok r :=
  ⟨(C14_de_returns_iff _ _ _ _ _).1.mpr ⟨by norm_num, by simp [defaultDE], .inl ⟨rfl, by omega⟩⟩, (C14_pso_returns_iff _ _ _ _ _ (fun j => by norm_num [trapBox, defaultPSO])).1.mpr ⟨by omega, by norm_num, by simp [defaultPSO]⟩⟩

/-- The hypotheses of `C163_de_confined` are met. -/
example (rnd : DERand ℝ 4 1) (hpos : rnd.pos = fun (i : Fin 4) _ => 1 / 2 + (i.val : ℝ) / 4000) : ∃ r, deRun { defaultDE 7 with strategy := "DE/best/1/bin" } trapBox (fun q i => trapF (q i)) none rnd = .ok r ∧
    (∀ i, InCube (fun _ => 0) 1 (r.allSamples 0 i)) ∧ (∀ q ∈ r.calls, ∀ i, InCube (fun _ => 0) 2 (q i)) := by
  obtain ⟨r, hr⟩ := (C14_de_returns_iff { defaultDE 7 with strategy := "DE/best/1/bin" } trapBox (fun q i => trapF (q i)) none rnd).1.mpr ⟨by norm_num, by norm_num [defaultDE], .inr ⟨rfl, by omega⟩⟩
  have h0 : ∀ i, InCube (fun _ => 0) 1 (r.allSamples 0 i) := by
    intro i
    rw [(de_first hr).1, hpos]
    intro j
    fin_cases i <;> norm_num [locInit, trapBox]
  have he : (1 + 2 * |(1 : ℝ) / 2|) * 1 = 2 := by norm_num
  obtain ⟨h1, _⟩ := C163_de_confined _ trapBox trapF none rnd r hr (fun _ => 0) 1 (fun x hx => trap_box x (hx.mono (he.le.trans (by norm_num)))) (fun x y hx hy => trapF_basin x y hx (hy.mono (he.le.trans (by norm_num)))) h0
  exact ⟨r, hr, h0, fun q hq i => (h1 q hq i).mono he.le⟩

end Mfpml.Props
