import Verif.Spec.Figures
import Verif.Lemmas.SamplerObjects
import Verif.Props.SamplerObjects
import Verif.Props.PSO
import Verif.Props.DE

/-!
# Figures (C145, C146)
-/

set_option linter.unusedSectionVars false

namespace Mfpml.Props

open Mfpml.Sampling Mfpml.Figures Mfpml.Spec
open Mfpml.EA (Box)

section Samplers

variable {K : Type} [Add K] [Sub K] [Mul K] [Zero K] {d : ℕ} {E : Env K d}

private theorem coords_eq (hd : d = 1 ∨ d = 2 ∨ d = 3) (x : Pt K d) : coords x = asDrawn x := by
  rcases hd with rfl | rfl | rfl <;> simp [coords, asDrawn, List.ofFn_succ] <;> rfl

private theorem coords_fun (hd : d = 1 ∨ d = 2 ∨ d = 3) : (coords : Pt K d → List K) = asDrawn := funext (coords_eq hd)

/-- C145 (single fidelity).  Take any program, construct a visualisation of a sampler, continue with any program and plot.  The constructor raises `ValueError` exactly if no `get_samples` call of the sampler has succeeded.
Otherwise the figure, for one to three variables, shows the present contents of the array the sampler returned last, one mark per sample; with more variables plotting raises `ValueError`. -/
theorem C145_sf (files : String → Option (Content K d)) (s : E.S) (ops₁ ops₂ : List (SOp E)) (o : ℕ) (saveFigure : Bool) (filename : String) :
    let p₁ := srun (sinit files s) ops₁
    let p := srun (sinit files s) (ops₁ ++ ops₂)
    o < p₁.1.sf.length →
      (sfVisualization p₁.1 o = .error .valueError ↔ lastSF o p₁.2 = none) ∧
      (sfVisualization p₁.1 o = .ok () →
        (d = 1 ∨ d = 2 ∨ d = 3 → ∃ a t, lastSF o p.2 = some a ∧ sfPlot p.1 o saveFigure filename = .ok { series := [t], out := if saveFigure then .saved filename else .shown } ∧
          Shows t (p.1.contents a)) ∧
        (¬ (d = 1 ∨ d = 2 ∨ d = 3) → sfPlot p.1 o saveFigure filename = .error .valueError)) := by
  intro p₁ p ho
  have h₁ := (sInv files s ops₁).sf o
  change (p₁.1.sf[o]?.bind fun ob => ob.samples) = lastSF o p₁.2 at h₁
  have h := (sInv files s (ops₁ ++ ops₂)).sf o
  change (p.1.sf[o]?.bind fun ob => ob.samples) = lastSF o p.2 at h
  have hp : p.2 = p₁.2 ++ (srun p₁.1 ops₂).2 := by
    show (srun (sinit files s) (ops₁ ++ ops₂)).2 = _
    rw [srun_append]
  have hlast : lastSF o p₁.2 ≠ none → ∃ a, lastSF o p.2 = some a := by
    intro hn
    rw [hp]
    unfold lastSF at hn ⊢
    rw [List.reverse_append, List.findSome?_append]
    cases hx : List.findSome? (returnedBySF o) (srun p₁.1 ops₂).2.reverse with
    | some a => exact ⟨a, rfl⟩
    | none => exact ⟨_, (Option.some_get (Option.isSome_iff_ne_none.mpr hn)).symm⟩
  rw [List.getElem?_eq_getElem ho, Option.bind_some] at h₁
  refine ⟨?_, fun hv => ?_⟩
  · unfold sfVisualization
    rw [List.getElem?_eq_getElem ho, ← h₁]
    dsimp only
    cases (p₁.1.sf[o]'ho).samples with
    | none => simp
    | some a => simp
  · have hn : lastSF o p₁.2 ≠ none := by
      rw [← h₁]
      intro hc
      unfold sfVisualization at hv
      rw [List.getElem?_eq_getElem ho] at hv
      simp [hc] at hv
    obtain ⟨a, ha⟩ := hlast hn
    rw [ha] at h
    obtain ⟨ob, h1, h2⟩ := Option.bind_eq_some_iff.mp h
    unfold sfPlot
    simp only [h1, h2]
    refine ⟨fun hd => ⟨a, _, ha, by rw [if_pos hd]; rfl, ?_⟩, fun hd => by rw [if_neg hd]⟩
    show _ = _
    rw [coords_fun hd]

/-- C145 (multi fidelity, constructor).  `MFSamplerVisualization` raises `AssertionError` exactly if no `get_samples` call of the sampler has succeeded. -/
theorem C145_mf_constructor (files : String → Option (Content K d)) (s : E.S) (ops : List (SOp E)) (o : ℕ) :
    let p := srun (sinit files s) ops
    o < p.1.mf.length → (mfVisualization p.1 o = .error .assertionError ↔ lastMF o p.2 = none) ∧ (mfVisualization p.1 o = .ok () ↔ lastMF o p.2 ≠ none) := by
  intro p ho
  have h := (sInv files s ops).mf o
  change (p.1.mf[o]?.bind fun ob => ob.data) = lastMF o p.2 at h
  rw [List.getElem?_eq_getElem ho, Option.bind_some] at h
  rw [← h]
  unfold mfVisualization
  rw [List.getElem?_eq_getElem ho]
  dsimp only
  cases (p.1.mf[o]'ho).data with
  | none => simp
  | some a => simp

private theorem scatterAll_few (l : List (List (Pt K d))) (k : ℕ) (hk : k + l.length ≤ 5) :
    mfScatterAll ((l.zipIdx k).reverse) = .ok ((l.zipIdx k).reverse.map fun e =>
      { label := some e.2, color := colors[e.2]?.getD "", marker := markers[e.2]?.getD "", size := 30 + 10 * e.2, points := e.1.map coords }) := by
  have gen : ∀ L : List (List (Pt K d) × ℕ), (∀ e ∈ L, e.2 < 5) → mfScatterAll L = .ok (L.map fun e =>
      { label := some e.2, color := colors[e.2]?.getD "", marker := markers[e.2]?.getD "", size := 30 + 10 * e.2, points := e.1.map coords }) := by
    intro L hL
    induction L with
    | nil => rfl
    | cons e L ih =>
      obtain ⟨v, f⟩ := e
      have hf : f < 5 := hL _ List.mem_cons_self
      have h1 : colors[f]? = some (colors[f]'(by simpa [colors] using hf)) := List.getElem?_eq_getElem _
      have h2 : markers[f]? = some (markers[f]'(by simp [markers]; omega)) := List.getElem?_eq_getElem _
      simp only [mfScatterAll, mfScatter, getIdx, h1, h2, bind, Except.bind, ih fun e he => hL e (List.mem_cons_of_mem _ he), List.map_cons, Option.getD_some]
  refine gen _ fun e he => ?_
  rw [List.mem_reverse] at he
  have := List.snd_lt_add_of_mem_zipIdx he
  omega

private theorem scatterAll_many (L : List (List (Pt K d) × ℕ)) (v : List (Pt K d)) (f : ℕ) (hf : 5 ≤ f) : mfScatterAll ((v, f) :: L) = .error .indexError := by
  have h1 : colors[f]? = none := List.getElem?_eq_none (by simpa [colors] using hf)
  simp [mfScatterAll, mfScatter, getIdx, h1, bind, Except.bind]

/-- C145 (multi fidelity), partial: in every program, for one to three variables and at most five fidelities, the figure shows for every fidelity the present contents of the array that the last successful `get_samples`
returned for it, labelled with its number, one mark per sample; different fidelities have different colours and markers.  With more variables plotting raises `ValueError`.
Missing: more than five fidelities (`C145_six_fidelities_counterexample`). -/
theorem C145_mf_partial (files : String → Option (Content K d)) (s : E.S) (ops : List (SOp E)) (o : ℕ) (saveFigure : Bool) (filename : String) (as : List ArrRef) :
    let p := srun (sinit files s) ops
    lastMF o p.2 = some as →
      (d = 1 ∨ d = 2 ∨ d = 3 → as.length ≤ 5 → ∃ fig, mfPlot p.1 o saveFigure filename = .ok fig ∧ fig.out = (if saveFigure then .saved filename else .shown) ∧
        fig.series.length = as.length ∧ (∀ i a, as[i]? = some a → ∃ t ∈ fig.series, t.label = some i ∧ Shows t (p.1.contents a)) ∧
        (fig.series.map Series.label).Nodup ∧ (fig.series.map Series.color).Nodup ∧ (fig.series.map Series.marker).Nodup) ∧
      (¬ (d = 1 ∨ d = 2 ∨ d = 3) → mfPlot p.1 o saveFigure filename = .error .valueError) := by
  intro p has
  have h := (sInv files s ops).mf o
  change (p.1.mf[o]?.bind fun ob => ob.data) = lastMF o p.2 at h
  rw [has] at h
  obtain ⟨ob, h1, h2⟩ := Option.bind_eq_some_iff.mp h
  unfold mfPlot
  simp only [h1, h2]
  refine ⟨fun hd hl => ?_, fun hd => by rw [if_neg hd]⟩
  rw [if_pos hd, scatterAll_few (as.map p.1.contents) 0 (by simpa using hl)]
  simp only [bind, Except.bind]
  have hnd : ∀ (g : ℕ → String), (∀ i < 5, ∀ j < 5, g i = g j → i = j) →
      (((as.map p.1.contents).zipIdx 0).reverse.map fun e => g e.2).Nodup := by
    intro g hg
    rw [List.map_reverse, List.nodup_reverse, show (fun e : List (Pt K d) × ℕ => g e.2) = g ∘ Prod.snd from rfl, ← List.map_map, List.zipIdx_map_snd]
    refine List.Nodup.map_on ?_ (List.nodup_range')
    intro i hi j hj
    simp only [List.mem_range', List.length_map] at hi hj
    exact hg i (by omega) j (by omega)
  refine ⟨_, rfl, rfl, by simp, ?_, ?_, ?_, ?_⟩
  · intro i a ha
    refine ⟨_, List.mem_map.mpr ⟨(p.1.contents a, i), ?_, rfl⟩, rfl, ?_⟩
    · rw [List.mem_reverse]
      exact List.mem_zipIdx_iff_getElem?.mpr (by simp [ha])
    · show _ = _
      rw [coords_fun hd]
  · rw [List.map_map]
    show (List.map (fun e : List (Pt K d) × ℕ => some e.2) _).Nodup
    rw [List.map_reverse, List.nodup_reverse, show (fun e : List (Pt K d) × ℕ => some e.2) = some ∘ Prod.snd from rfl, ← List.map_map, List.zipIdx_map_snd]
    exact (List.nodup_range').map (Option.some_injective _)
  · rw [List.map_map]
    exact hnd (fun i => colors[i]?.getD "") (by decide)
  · rw [List.map_map]
    exact hnd (fun i => markers[i]?.getD "") (by decide)

/-- C145 is false for six and more fidelities: there are only five colours, and plotting any such design raises `IndexError`. -/
theorem C145_six_fidelities_counterexample (files : String → Option (Content K d)) (s : E.S) (ops : List (SOp E)) (o : ℕ) (saveFigure : Bool) (filename : String) (as : List ArrRef) :
    let p := srun (sinit files s) ops
    lastMF o p.2 = some as → (d = 1 ∨ d = 2 ∨ d = 3) → 6 ≤ as.length → mfPlot p.1 o saveFigure filename = .error .indexError := by
  intro p has hd hl
  have h := (sInv files s ops).mf o
  change (p.1.mf[o]?.bind fun ob => ob.data) = lastMF o p.2 at h
  rw [has] at h
  obtain ⟨ob, h1, h2⟩ := Option.bind_eq_some_iff.mp h
  unfold mfPlot
  simp only [h1, h2, if_pos hd]
  obtain ⟨init, lastA, hA⟩ : ∃ init x, as = init ++ [x] := ⟨as.dropLast, as.getLast (by rintro rfl; simp at hl), (List.dropLast_append_getLast _).symm⟩
  have hlen : 5 ≤ init.length := by rw [hA] at hl; simp at hl; omega
  rw [hA, List.map_append, List.map_cons, List.map_nil, List.zipIdx_append, List.reverse_append]
  simp only [List.zipIdx_cons, List.zipIdx_nil, List.reverse_cons, List.reverse_nil, List.nil_append, List.singleton_append, List.length_map]
  rw [scatterAll_many _ _ _ (by omega)]
  rfl

end Samplers

/-- The figure of the example program: the two fidelities of the nested design. -/
example : ∃ fig, mfPlot (srun (sinit (E := exEnv 1) (fun _ => none) (0 : ℕ)) exProgram).1 0 true "doe.png" = .ok fig ∧ fig.out = .saved "doe.png" ∧ fig.series.length = 2 := by
  obtain ⟨fig, h1, h2, h3, _⟩ := (C145_mf_partial (E := exEnv 1) (fun _ => none) (0 : ℕ) exProgram 0 true "doe.png" [⟨0, 1⟩, ⟨0, 2⟩] rfl).1 (.inl rfl) (by simp)
  exact ⟨fig, h1, h2, h3⟩

/-- The single-fidelity sampler of the example program can be visualised, and the figure shows the samples drawn later. -/
example : sfVisualization (srun (sinit (E := exEnv 1) (fun _ => none) (0 : ℕ)) exProgram).1 0 = .ok () ∧
    lastSF 0 (srun (sinit (E := exEnv 1) (fun _ => none) (0 : ℕ)) (exProgram ++ [.sfGet 0 3 (some 2) (0 : ℕ)])).2 = some ⟨2, 3⟩ := ⟨rfl, rfl⟩

/-- A design with six fidelities. -/
example : lastMF 0 (srun (sinit (E := exEnv 1) (fun _ => none) (0 : ℕ)) [.newSpace exSpace, .newMFShared true 0 (some 6) true none, .mfGet 0 [1, 1, 1, 1, 1, 2] (some 3) (0 : ℕ)]).2 =
    some [⟨0, 1⟩, ⟨0, 1⟩, ⟨0, 1⟩, ⟨0, 1⟩, ⟨0, 1⟩, ⟨0, 2⟩] := rfl

/-! ## C146: the plot of the optimisation history -/

section History

open Mfpml.EA

variable {K : Type} [Add K] [Sub K] [Mul K] [Div K] [Neg K] [Zero K] [LinearOrder K] {P D : ℕ}

/-- C146 (PSO), partial: the curve has one point for every generation from 0 to `num_gen`, and up to the last generation that ran its height is the smallest value found so far.  If all generations ran this is the complete
claim.  Missing: the points after an early stop, which are drawn at height 0 whatever the objective. -/
theorem C146_pso_partial {cfg : PSOCfg K} {b : Box K D} {func : Pop K P D → Fin P → K} {stop : Option K} {rnd : PSORand K P D} {r : PSOResult K P D} (h : psoRun cfg b func stop rnd = .ok r) :
    (historyCurve cfg.numGen r.bestYHist).map Prod.fst = List.range (cfg.numGen + 1) ∧
    ∃ last, LastGen cfg.numGen stop r.bestYHist last ∧
      (∀ g y, (g, y) ∈ historyCurve cfg.numGen r.bestYHist → g ≤ last → RunningMin r.allResponses g y) ∧
      (∀ g y, (g, y) ∈ historyCurve cfg.numGen r.bestYHist → last < g → y = 0) ∧ (stop = none → last = cfg.numGen) := by
  obtain ⟨last, hl, _, _, _, hz⟩ := C05_pso_stopping_rule h
  refine ⟨by simp [historyCurve, Function.comp_def], last, hl, ?_, ?_, ?_⟩
  · intro g y hg hgl
    obtain ⟨g', _, e⟩ := List.mem_map.mp hg
    obtain ⟨rfl, rfl⟩ := Prod.mk.inj e
    exact (C02_pso_running_minimum h last hl).1 g' hgl
  · intro g y hg hgl
    obtain ⟨g', _, e⟩ := List.mem_map.mp hg
    obtain ⟨rfl, rfl⟩ := Prod.mk.inj e
    exact (hz g' hgl).2.2.1
  · intro hs
    rcases hl.why with e | e
    · exact e
    · rw [hs] at e; exact absurd e id

/-- C146 (DE), partial: as `C146_pso_partial`. -/
theorem C146_de_partial {cfg : DECfg K} {b : Box K D} {func : Pop K P D → Fin P → K} {stop : Option K} {rnd : DERand K P D} {r : Result K P D} (h : deRun cfg b func stop rnd = .ok r) :
    (historyCurve cfg.numGen r.bestYHist).map Prod.fst = List.range (cfg.numGen + 1) ∧
    ∃ last, LastGen cfg.numGen stop r.bestYHist last ∧
      (∀ g y, (g, y) ∈ historyCurve cfg.numGen r.bestYHist → g ≤ last → RunningMin r.allResponses g y) ∧ (stop = none → last = cfg.numGen) := by
  obtain ⟨last, hl, _⟩ := de_call_log h
  refine ⟨by simp [historyCurve, Function.comp_def], last, hl, ?_, ?_⟩
  · intro g y hg hgl
    obtain ⟨g', _, e⟩ := List.mem_map.mp hg
    obtain ⟨rfl, rfl⟩ := Prod.mk.inj e
    exact ((C10_de_running_minimum h last hl).1 g' hgl).1
  · intro hs
    rcases hl.why with e | e
    · exact e
    · rw [hs] at e; exact absurd e id

end History

open Mfpml.EA in
/-- C146 is false after an early stop: there are runs of PSO and of DE whose returned optimum is below `-4` while the curve ends at height 0. -/
theorem C146_counterexample :
    (∃ r, psoRun exCfg exBox exFunc (some 0) exRnd = .ok r ∧ r.retY < -4 ∧ (exCfg.numGen, (0 : ℚ)) ∈ historyCurve exCfg.numGen r.bestYHist) ∧
    (∃ r, deRun exDECfg exDEBox exDEFunc (some 0) exDERnd = .ok r ∧ r.retY < -4 ∧ (exDECfg.numGen, (0 : ℚ)) ∈ historyCurve exDECfg.numGen r.bestYHist) := by
  constructor
  · obtain ⟨r, hr, h1, h2⟩ := C04_pso_dictionary_counterexample
    refine ⟨r, hr, h1, List.mem_map.mpr ⟨exCfg.numGen, by simp, ?_⟩⟩
    obtain ⟨last, hl, _, e1, e2, e3, e4, _⟩ := psoRun_ok exCfg exBox exFunc exRnd hr
    rw [e4, ← e2, h2]
  · obtain ⟨r, hr, h1, h2⟩ := C11_de_dictionary_counterexample
    refine ⟨r, hr, h1, List.mem_map.mpr ⟨exDECfg.numGen, by simp, ?_⟩⟩
    obtain ⟨last, hl, _, _, e1, e2, e3, e4, _⟩ := deRun_ok exDECfg exDEBox exDEFunc exDERnd hr
    rw [e4, ← e2, h2]

end Mfpml.Props
