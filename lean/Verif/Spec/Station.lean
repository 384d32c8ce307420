import Verif.Spec.MpcLine

/-!
# Specification: lines about observing stations

The format of the list of stations of the Minor Planet Center, and that of rovers.txt.
-/

namespace Verif.Spec

/-- Blanks, perhaps a sign, digits, perhaps a point and more digits. -/
inductive Written : List Nat → ℚ → Prop
  | whole {l ds : List Nat} {neg : Bool} : Lead l neg → AllDigits ds → ds ≠ [] → Written (l ++ ds) (signed neg (value ds))
  | decimal {l ds fs : List Nat} {neg : Bool} : Lead l neg → AllDigits ds → ds ≠ [] → AllDigits fs →
      Written (l ++ (ds ++ 46 :: fs)) (signed neg (value ds + (value fs : ℚ) / 10 ^ fs.length))

/-- A byte of a station code: printing, no blank, no exclamation mark. -/
def CodeByte (c : Nat) : Prop := 33 < c ∧ c < 127

/-- A sign or a blank in its place. -/
def SignByte (c : Nat) : Prop := c = 43 ∨ c = 45 ∨ c = 32

/-- A line of the list of stations: three bytes of code, the longitude in degrees (three columns, five decimals at most), the parallax
    constants (six decimals at most), and the name.  The numbers of decimals are those of the longitude and the first constant. -/
inductive StationLine : List Nat → List Nat → ℚ → ℚ → ℚ → Nat → Nat → Prop
  | mk {c0 c1 c2 k p v d q w e q' w' sgn : Nat} {ds f g h name : List Nat} : CodeByte c0 → CodeByte c1 → CodeByte c2 →
      AllDigits ds → ds ≠ [] → k + ds.length = 3 → Column 5 p v f → 48 ≤ d → d ≤ 57 → Column 6 q w g → SignByte sgn →
      48 ≤ e → e ≤ 57 → Column 6 q' w' h →
      StationLine
        ([c0, c1, c2, 32] ++ ((List.replicate k 32 ++ (ds ++ 46 :: f)) ++ ((d :: 46 :: g) ++ ((sgn :: e :: 46 :: h) ++ name))))
        [c0, c1, c2] (value ds + (v : ℚ) / 10 ^ p) (((d - 48 : Nat) : ℚ) + (w : ℚ) / 10 ^ q)
        (signed (sgn == 45) (((e - 48 : Nat) : ℚ) + (w' : ℚ) / 10 ^ q')) p q

/-- The beginning of a line of rovers.txt: a code of three or four bytes in four columns, an exclamation mark, longitude, latitude, height. -/
inductive RoverHead : List Nat → List Nat → ℚ → ℚ → ℚ → Prop
  | three {c0 c1 c2 : Nat} {a b c : List Nat} {x y z : ℚ} : CodeByte c0 → CodeByte c1 → CodeByte c2 → Written a x → Written (32 :: b) y →
      Written (32 :: c) z → RoverHead ([c0, c1, c2, 32, 33] ++ (a ++ ((32 :: b) ++ (32 :: c)))) [c0, c1, c2] x y z
  | four {c0 c1 c2 c3 : Nat} {a b c : List Nat} {x y z : ℚ} : CodeByte c0 → CodeByte c1 → CodeByte c2 → CodeByte c3 → Written a x →
      Written (32 :: b) y → Written (32 :: c) z →
      RoverHead ([c0, c1, c2, c3, 33] ++ (a ++ ((32 :: b) ++ (32 :: c)))) [c0, c1, c2, c3] x y z

/-- The planet in the rest of a line of rovers.txt: a number after the first `@`, or the Earth. -/
inductive Planet : List Nat → Int → Prop
  | earth {r : List Nat} : (∀ c ∈ r, c ≠ 64) → Planet r 3
  | other {a l ds b : List Nat} {neg : Bool} : (∀ c ∈ a, c ≠ 64) → Lead l neg → AllDigits ds → ds ≠ [] →
      (∀ c, b.head? = some c → c < 48 ∨ 57 < c) → Planet (a ++ 64 :: (l ++ (ds ++ b))) (if neg then -(value ds : Int) else value ds)

end Verif.Spec
