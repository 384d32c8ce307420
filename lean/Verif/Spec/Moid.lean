import Verif.Spec.Orbit

/-!
# Specification: conics around a focus and the distance between two of them
-/

namespace Verif.Spec

/-- The distance of two points. -/
noncomputable def apart (u v : Vec) : ℝ := √((u.x - v.x) ^ 2 + (u.y - v.y) ^ 2 + (u.z - v.z) ^ 2)

/-- A conic with one focus at the origin: distance of the perihelion, eccentricity, direction of the perihelion, and the direction a
quarter of a turn further on. -/
structure Conic where
  q : ℝ
  ecc : ℝ
  peri : Vec
  side : Vec

namespace Conic

/-- The distance from the focus at the true anomaly `θ`. -/
noncomputable def radius (c : Conic) (θ : ℝ) : ℝ := c.q * (1 + c.ecc) / (1 + c.ecc * Real.cos θ)

/-- The point at the true anomaly `θ`. -/
noncomputable def place (c : Conic) (θ : ℝ) : Vec := Vec.comb2 (c.radius θ * Real.cos θ) c.peri (c.radius θ * Real.sin θ) c.side

/-- The distance of the aphelion. -/
noncomputable def far (c : Conic) : ℝ := c.q * (1 + c.ecc) / (1 - c.ecc)

/-- The conic is an ellipse. -/
structure Closed (c : Conic) : Prop where
  q : 0 < c.q
  ecc : 0 ≤ c.ecc
  one : c.ecc < 1
  pp : c.peri.dot c.peri = 1
  ss : c.side.dot c.side = 1
  ps : c.peri.dot c.side = 0

/-- The conic with the usual elements. -/
noncomputable def ofElements (q ecc node incl arg : ℝ) : Conic := ⟨q, ecc, towardsPerihelion node incl arg, ahead node incl arg⟩

end Conic

end Verif.Spec
