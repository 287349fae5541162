import Verif.Model.Figures

/-!
# What a plot of samples should show (specification for C145)
-/

namespace Mfpml.Spec

open Mfpml.Sampling Mfpml.Figures

variable {K : Type} [Zero K] {d : ℕ}

/-- A sample drawn in a coordinate system with at least two axes: its coordinates, and zero on an axis it has no coordinate for. -/
def asDrawn (x : Pt K d) : List K := List.ofFn x ++ List.replicate (2 - d) 0

/-- A series shows exactly the given samples: one mark per sample, at the sample's coordinates. -/
def Shows (s : Series K) (samples : List (Pt K d)) : Prop := s.points = samples.map asDrawn

end Mfpml.Spec
