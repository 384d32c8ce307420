import Verif.Spec.Decimal
import Verif.Spec.Calendar

/-!
# Specification: written times

A time of day or a date written with digits, and the number of units of its last place that it stands for.
-/

namespace Verif.Spec

/-- Decimals after a point; nothing at all for no places. -/
def Decimals (p v : Nat) (s : List Nat) : Prop :=
  (p = 0 ∧ v = 0 ∧ s = []) ∨ (0 < p ∧ ∃ ds, Padded p v ds ∧ s = 46 :: ds)

/-- A number below 100 in two bytes, the first of which may be a blank instead of a zero. -/
def TwoBytes (zeroes : Bool) (n : Nat) (s : List Nat) : Prop :=
  if zeroes = true ∨ 10 ≤ n then Padded 2 n s else s = [32, 48 + n]

/-- How finely a time of day is written. -/
inductive Clock where
  | seconds | minutes | hours
deriving DecidableEq

/-- Units in a day. -/
def Clock.perDay : Clock → Nat
  | .seconds => 86400
  | .minutes => 1440
  | .hours => 24

/-- `s` is the time of day with `n` units of `10^-p` seconds (minutes, hours) since midnight. -/
def TimeOfDay (zeroes : Bool) (c : Clock) (p n : Nat) (s : List Nat) : Prop :=
  ∃ v frac, Decimals p v frac ∧
    match c with
    | .seconds => ∃ h m sec hh mm ss, TwoBytes zeroes h hh ∧ Padded 2 m mm ∧ Padded 2 sec ss ∧ h < 24 ∧ m < 60 ∧ sec < 60 ∧
        n = ((h * 60 + m) * 60 + sec) * 10 ^ p + v ∧ s = hh ++ 58 :: mm ++ 58 :: ss ++ frac
    | .minutes => ∃ h m hh mm, TwoBytes zeroes h hh ∧ Padded 2 m mm ∧ h < 24 ∧ m < 60 ∧
        n = (h * 60 + m) * 10 ^ p + v ∧ s = hh ++ 58 :: mm ++ frac
    | .hours => ∃ h hh, TwoBytes zeroes h hh ∧ h < 24 ∧ n = h * 10 ^ p + v ∧ s = hh ++ frac

/-- `s` is the Gregorian date with day number `j` as year, month and day with leading zeros. -/
def IsoDate (j : Int) (s : List Nat) : Prop :=
  ∃ (d m y : Nat) (dd mm yyyy : List Nat), gregorian.Exists d m y ∧ gregorian.dayNumber d m y = j ∧ Padded 4 y yyyy ∧
    Padded 2 m mm ∧ Padded 2 d dd ∧ s = yyyy ++ 32 :: mm ++ 32 :: dd

end Verif.Spec
