import Mathlib.Analysis.SpecialFunctions.Trigonometric.Basic

/-!
# Spec: Poisson series in blocks, and how they are stored

A block gives each coordinate as a polynomial of degree three in a variable `x`, which goes from -1 to 1 in the block, plus waves whose
amplitudes are 1, `x` or `x²`.
-/

namespace Verif.Spec.Poisson

/-- A wave: its frequency in radians per day, and the numbers for cosine and sine in each coordinate. -/
structure Wave where
  fq : ℝ
  cosine : Fin 3 → ℝ
  sine : Fin 3 → ℝ

/-- The series of a block that begins at `start`. -/
structure Block where
  start : ℝ
  days : ℝ
  poly : Fin 3 → Fin 4 → ℝ
  constant : List Wave
  linear : List Wave
  square : List Wave

/-- The sum of some waves, at `τ` days after the middle of the block. -/
noncomputable def waves (i : Fin 3) (τ : ℝ) (l : List Wave) : ℝ :=
  (l.map fun w => w.cosine i * Real.cos (w.fq * τ) + w.sine i * Real.sin (w.fq * τ)).sum

/-- The coordinate in au: the numbers are in units of 10⁻¹⁰ au. -/
noncomputable def coordinate (b : Block) (i : Fin 3) (jd : ℝ) : ℝ :=
  let τ := jd - (b.start + b.days / 2)
  let x := τ / (b.days / 2)
  (b.poly i 0 + b.poly i 1 * x + b.poly i 2 * x ^ 2 + b.poly i 3 * x ^ 3 +
    waves i τ b.constant + x * waves i τ b.linear + x ^ 2 * waves i τ b.square) / 10 ^ 10

end Verif.Spec.Poisson
