import Mathlib.Analysis.Calculus.Deriv.Basic
import Verif.Spec.Sphere

/-!
# Specification: motion around a mass
-/

namespace Verif.Spec

/-- The length of a vector. -/
noncomputable def Vec.norm (u : Vec) : ℝ := √(u.dot u)

def Vec.cross (u v : Vec) : Vec := ⟨u.y * v.z - u.z * v.y, u.z * v.x - u.x * v.z, u.x * v.y - u.y * v.x⟩

/-- The square of the eccentricity of the orbit, from the energy and the angular momentum. -/
noncomputable def eccSq (gm : ℝ) (r v : Vec) : ℝ := 1 - (2 / r.norm - v.dot v / gm) * ((r.cross v).dot (r.cross v) / gm)

/-- `a u + b v`. -/
def Vec.comb2 (a : ℝ) (u : Vec) (b : ℝ) (v : Vec) : Vec := ⟨a * u.x + b * v.x, a * u.y + b * v.y, a * u.z + b * v.z⟩

/-- At the time `t` the vector `x` changes at the rate `d`. -/
def Rate (x : ℝ → Vec) (d : Vec) (t : ℝ) : Prop :=
  HasDerivAt (fun s => (x s).x) d.x t ∧ HasDerivAt (fun s => (x s).y) d.y t ∧ HasDerivAt (fun s => (x s).z) d.z t

/-- Newton: position `x` and velocity `v` of a body moving around a mass at the origin; `gm` is its mass times the constant of gravity. -/
def Falls (gm : ℝ) (x v : ℝ → Vec) : Prop :=
  ∀ t, Rate x (v t) t ∧ Rate v (Vec.comb2 (-gm / (x t).norm ^ 3) (x t) 0 (x t)) t

/-- The direction of the perihelion, from the longitude of the node, the inclination and the argument of the perihelion. -/
noncomputable def towardsPerihelion (node incl arg : ℝ) : Vec :=
  ⟨Real.cos node * Real.cos arg - Real.sin node * Real.sin arg * Real.cos incl,
    Real.sin node * Real.cos arg + Real.cos node * Real.sin arg * Real.cos incl, Real.sin arg * Real.sin incl⟩

/-- The direction of motion at the perihelion: a quarter of a turn further on. -/
noncomputable def ahead (node incl arg : ℝ) : Vec := towardsPerihelion node incl (arg + Real.pi / 2)

end Verif.Spec
