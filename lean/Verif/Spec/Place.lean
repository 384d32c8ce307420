import Verif.Spec.MpcLine

/-!
# Specification: latitudes, longitudes and heights as people write them

The forms described in the comment before `get_lat_lon_info`, /repo/mpc_code.cpp:601-612.
-/

namespace Verif.Spec

/-- Blanks and a number that `quick_strtod` can hold; `true` for a whole number without point. -/
inductive Figure : List Nat → ℚ → Bool → Prop
  | whole {k : Nat} {ds : List Nat} : AllDigits ds → ds ≠ [] → value ds < 2 ^ 31 → Figure (List.replicate k 32 ++ ds) (value ds) true
  | decimal {k : Nat} {ds fs : List Nat} : AllDigits ds → ds ≠ [] → value ds < 2 ^ 31 → AllDigits fs → fs.length ≤ 9 →
      Figure (List.replicate k 32 ++ (ds ++ 46 :: fs)) (value ds + (value fs : ℚ) / 10 ^ fs.length) false

/-- Degrees; degrees and minutes; degrees, minutes and seconds, up to 60 of each, separated by blanks.  Only the last number may have
    decimals.  The value and the number of numbers. -/
inductive Angle : List Nat → ℚ → Nat → Prop
  | degrees {a : List Nat} {x : ℚ} {w : Bool} : Figure a x w → Angle a x 1
  | minutes {a b : List Nat} {x y : ℚ} {w : Bool} : Figure a x true → Figure (32 :: b) y w → y ≤ 60 →
      Angle (a ++ 32 :: b) (x + y / 60) 2
  | seconds {a b c : List Nat} {x y z : ℚ} {w : Bool} : Figure a x true → Figure (32 :: b) y true → y ≤ 60 → Figure (32 :: c) z w →
      z ≤ 60 → Angle (a ++ 32 :: (b ++ 32 :: c)) (x + y / 60 + z / 3600) 3

/-- Letters for north, south, east, west: `true` for a latitude, `true` for negative values. -/
inductive Compass : Nat → Bool → Bool → Prop
  | north {c : Nat} : c = 110 ∨ c = 78 → Compass c true false
  | south {c : Nat} : c = 115 ∨ c = 83 → Compass c true true
  | east {c : Nat} : c = 101 ∨ c = 69 → Compass c false false
  | west {c : Nat} : c = 119 ∨ c = 87 → Compass c false true

/-- A latitude (`true`) or longitude with its letter before or after it, perhaps followed by a comma.  The last argument tells whether the
    text could go on, with a blank or more digits, without changing the parts already there. -/
inductive Coordinate : List Nat → Bool → ℚ → Bool → Prop
  | before {i j c n : Nat} {lat neg : Bool} {t : List Nat} {x : ℚ} : Compass c lat neg → Angle t x n →
      Coordinate (List.replicate i 32 ++ c :: (t ++ List.replicate j 32)) lat (signed neg x) true
  | beforeComma {i j c n : Nat} {lat neg : Bool} {t : List Nat} {x : ℚ} : Compass c lat neg → Angle t x n →
      Coordinate (List.replicate i 32 ++ c :: (t ++ (List.replicate j 32 ++ [44]))) lat (signed neg x) false
  | after {j c n : Nat} {lat neg : Bool} {t : List Nat} {x : ℚ} : Compass c lat neg → Angle t x n →
      Coordinate (t ++ (List.replicate j 32 ++ [c])) lat (signed neg x) false
  | afterComma {j c n : Nat} {lat neg : Bool} {t : List Nat} {x : ℚ} : Compass c lat neg → Angle t x n →
      Coordinate (t ++ (List.replicate j 32 ++ [c, 44])) lat (signed neg x) false

/-- "alt" or "alt." in capitals or not, or nothing. -/
inductive AltWord : List Nat → Prop
  | none : AltWord []
  | word {a b c : Nat} : (a = 97 ∨ a = 65) → (b = 108 ∨ b = 76) → (c = 116 ∨ c = 84) → AltWord [a, b, c]
  | point {a b c : Nat} : (a = 97 ∨ a = 65) → (b = 108 ∨ b = 76) → (c = 116 ∨ c = 84) → AltWord [a, b, c, 46]

/-- A height in metres or feet, in metres. -/
inductive Height : List Nat → ℚ → Prop
  | metres {i j : Nat} {a t : List Nat} {x : ℚ} : AltWord a → Angle t x 1 →
      Height (List.replicate i 32 ++ (a ++ (t ++ (List.replicate j 32 ++ [109])))) x
  | feet {i j : Nat} {a t : List Nat} {x : ℚ} : AltWord a → Angle t x 1 →
      Height (List.replicate i 32 ++ (a ++ (t ++ (List.replicate j 32 ++ [102, 116])))) (x * (3048 / 10000))

end Verif.Spec
