import Mathlib.Analysis.InnerProductSpace.PiL2
import Mathlib.Analysis.Calculus.Deriv.Basic
import Mathlib.Analysis.SpecialFunctions.Trigonometric.Basic

/-!
# Two-body motion, and the frame that turns with a satellite in circular orbit
-/

namespace Openspace.Spec

open Real

/-- Euclidean space -/
abbrev Space := EuclideanSpace ℝ (Fin 3)

/-- on the set `I` of times, `R` moves under the attraction `-mu R / |R|³` of a fixed centre, with velocity `V` -/
structure TwoBody (mu : ℝ) (I : Set ℝ) (R V : ℝ → Space) : Prop where
  velocity : ∀ t ∈ I, HasDerivAt R (V t) t
  attraction : ∀ t ∈ I, HasDerivAt V (-(mu / ‖R t‖ ^ 3) • R t) t

noncomputable section

/-- directions, at time `t`, radially outward from, and along the motion of, a satellite that turns at the rate `n` from
the first towards the second vector of the basis; the third is normal to the orbit -/
def radial (b : OrthonormalBasis (Fin 3) ℝ Space) (n t : ℝ) : Space := cos (n * t) • b 0 + sin (n * t) • b 1
def inTrack (b : OrthonormalBasis (Fin 3) ℝ Space) (n t : ℝ) : Space := -sin (n * t) • b 0 + cos (n * t) • b 1

/-- the satellite, in a circular orbit of radius `a` -/
def circular (b : OrthonormalBasis (Fin 3) ℝ Space) (a n t : ℝ) : Space := a • radial b n t

/-- components in that turning frame of a displacement `d` from the satellite -/
def relX (b : OrthonormalBasis (Fin 3) ℝ Space) (n t : ℝ) (d : Space) : ℝ := inner ℝ (radial b n t) d
def relY (b : OrthonormalBasis (Fin 3) ℝ Space) (n t : ℝ) (d : Space) : ℝ := inner ℝ (inTrack b n t) d
def relZ (b : OrthonormalBasis (Fin 3) ℝ Space) (d : Space) : ℝ := inner ℝ (b 2) d

end

end Openspace.Spec
