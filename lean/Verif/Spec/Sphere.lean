import Mathlib.Analysis.SpecialFunctions.Trigonometric.Basic

/-!
# Specification: directions on the sphere
-/

namespace Verif.Spec

/-- A vector. -/
@[ext] structure Vec where
  x : ℝ
  y : ℝ
  z : ℝ

namespace Vec

def dot (u v : Vec) : ℝ := u.x * v.x + u.y * v.y + u.z * v.z

/-- `a u + b v + c w`. -/
def comb (a : ℝ) (u : Vec) (b : ℝ) (v : Vec) (c : ℝ) (w : Vec) : Vec :=
  ⟨a * u.x + b * v.x + c * w.x, a * u.y + b * v.y + c * w.y, a * u.z + b * v.z + c * w.z⟩

end Vec

/-- The direction with longitude `θ` and latitude `φ`. -/
noncomputable def direction (θ φ : ℝ) : Vec := ⟨Real.cos φ * Real.cos θ, Real.cos φ * Real.sin θ, Real.sin φ⟩

/-- The tangent at `(θ, φ)` towards the north. -/
noncomputable def north (θ φ : ℝ) : Vec := ⟨-(Real.sin φ * Real.cos θ), -(Real.sin φ * Real.sin θ), Real.cos φ⟩

/-- The tangent at longitude `θ` towards decreasing longitude. -/
noncomputable def west (θ : ℝ) : Vec := ⟨Real.sin θ, -Real.cos θ, 0⟩

/-- The direction at the distance `d` and the position angle `p` from `(θ, φ)`; the angle is counted from north over decreasing longitude. -/
noncomputable def polar (θ φ d p : ℝ) : Vec :=
  Vec.comb (Real.cos d) (direction θ φ) (Real.sin d * Real.cos p) (north θ φ) (Real.sin d * Real.sin p) (west θ)

end Verif.Spec
