import Verif.Model.SamplerObjects
import Verif.Model.Evolutionary

/-!
# Figures: `samplers_visualization.py` and `EABase.plot_optimization_history`

A figure is modelled by the data that is drawn into it.  Fonts, grids, titles, the axes' names and the width of lines are left out; `matplotlib` itself is assumed to draw what it is given.
-/

namespace Mfpml.Figures

open Mfpml.Sampling

variable {K : Type}

/-- One `ax.scatter` call: the label (the number of the fidelity, or nothing for `"samples"`), colour, marker, size and the positions (samplers_visualization.py:41-42, 66-72, 99-100, 149-154, 181-187, 213-217). -/
structure Series (K : Type) where
  label : Option ℕ
  color : String
  marker : String
  size : ℕ
  points : List (List K)

/-- Where a figure goes: `plt.savefig(filename)` or `plt.show()` (samplers_visualization.py:57-61). -/
inductive Output
  | shown
  | saved (file : String)
  deriving DecidableEq

/-- A finished figure (samplers_visualization.py:39-61 and the other plot functions). -/
structure Figure (K : Type) where
  series : List (Series K)
  out : Output

/-- The output selected by the arguments of `plot_samples` (samplers_visualization.py:24-26, 57-61). -/
def output (saveFigure : Bool) (filename : String) : Output := if saveFigure then .saved filename else .shown

/-- The position at which a sample is drawn: `_plot_1D` puts a zero on the second axis (samplers_visualization.py:99, 213), `_plot_2D` and `_plot_3D` use the columns (41, 66-68, 149-150, 181-183). -/
def coords [Zero K] : {d : ℕ} → Pt K d → List K
  | 1, x => [x 0, 0]
  | 2, x => [x 0, x 1]
  | 3, x => [x 0, x 1, x 2]
  | _, _ => []

variable [Add K] [Sub K] [Mul K] [Zero K] {d : ℕ} {E : Env K d}

/-- `SFSamplerVisualization(sampler)`, samplers_visualization.py:16-22; a sampler that does not exist is `outOfModel`. -/
def sfVisualization (st : SState E) (o : ℕ) : Py Unit :=
  match st.sf[o]? with
  | none => .error .outOfModel
  | some ob =>
    match ob.samples with
    | none => .error .valueError
    | some _ => .ok ()

/-- `SFSamplerVisualization.plot_samples`, samplers_visualization.py:24-37 with the three plot functions; the samples are looked up when the figure is drawn (`None[:, 0]` raises `TypeError`). -/
def sfPlot (st : SState E) (o : ℕ) (saveFigure : Bool) (filename : String) : Py (Figure K) :=
  match st.sf[o]? with
  | none => .error .outOfModel
  | some ob =>
    if d = 1 ∨ d = 2 ∨ d = 3 then
      match ob.samples with
      | none => .error .typeError
      | some a => .ok { series := [{ label := none, color := "#EE7733", marker := "*", size := 50, points := (st.contents a).map coords }], out := output saveFigure filename }
    else .error .valueError

/-- `MFSamplerVisualization(sampler)`, samplers_visualization.py:118-128. -/
def mfVisualization (st : SState E) (o : ℕ) : Py Unit :=
  match st.mf[o]? with
  | none => .error .outOfModel
  | some ob =>
    match ob.data with
    | none => .error .assertionError
    | some _ => .ok ()

/-- `__get_color`, samplers_visualization.py:236-238. -/
def colors : List String := ["#EE7733", "#0077BB", "#009988", "#EE3377", "#CC3311"]

/-- `__get_marker`, samplers_visualization.py:240-242. -/
def markers : List String := ["+", "o", "v", "^", "s", "D"]

/-- `l[i]` (samplers_visualization.py:238, 242). -/
def getIdx (l : List String) (i : ℕ) : Py String :=
  match l[i]? with
  | none => .error .indexError
  | some x => .ok x

/-- The `scatter` call for one fidelity (samplers_visualization.py:149-154, 181-187, 213-217). -/
def mfScatter (samples : List (Pt K d)) (fidelity : ℕ) : Py (Series K) := do
  let c ← getIdx colors fidelity
  let m ← getIdx markers fidelity
  .ok { label := some fidelity, color := c, marker := m, size := 30 + 10 * fidelity, points := samples.map coords }

/-- `for fidelity, samples in reversed(list(enumerate(data)))` (samplers_visualization.py:148, 180, 212): the fidelities from the last to the first; the argument is the reversed list. -/
def mfScatterAll : List (List (Pt K d) × ℕ) → Py (List (Series K))
  | [] => .ok []
  | (samples, fidelity) :: rest => do
    let s ← mfScatter samples fidelity
    let ss ← mfScatterAll rest
    .ok (s :: ss)

/-- `MFSamplerVisualization.plot_samples`, samplers_visualization.py:130-142 with the three plot functions (144-234). -/
def mfPlot (st : SState E) (o : ℕ) (saveFigure : Bool) (filename : String) : Py (Figure K) :=
  match st.mf[o]? with
  | none => .error .outOfModel
  | some ob =>
    if d = 1 ∨ d = 2 ∨ d = 3 then
      match ob.data with
      | none => .error .attributeError
      | some as => do
        let ss ← mfScatterAll ((as.map st.contents).zipIdx.reverse)
        .ok { series := ss, out := output saveFigure filename }
    else .error .valueError

/-- The curve of `plot_optimization_history`, evolutionary_algorithms.py:38-47: `np.linspace(0, num_gen, num_gen + 1)` against `gen_best` (abscissas are the integers from 0 to `num_gen`; rounding of `linspace` is left out). -/
def historyCurve (numGen : ℕ) (genBest : ℕ → K) : List (ℕ × K) := (List.range (numGen + 1)).map fun g => (g, genBest g)

end Mfpml.Figures
