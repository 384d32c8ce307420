import Mathlib.Algebra.Order.Ring.Rat
import Verif.Spec.Stamp

/-!
# Specification: columns of an MPC observation

The formats described in the comments of /repo/mpc_fmt.cpp, written as relations between a text and what it means.
-/

namespace Verif.Spec

/-- `p` digits with the value `v`, then blanks up to `w` bytes. -/
def Column (w p v : Nat) (s : List Nat) : Prop := ∃ ds, Padded p v ds ∧ p ≤ w ∧ s = ds ++ List.replicate (w - p) 32

/-- A date and time in columns 16-32: the text, the day, month, year and part of the day gone by, and the number of
    the format. -/
inductive CivilField : List Nat → Nat → Nat → Nat → ℚ → Nat → Prop
  | standard {z z' : Bool} {d m y p v : Nat} {yyyy mm dd s : List Nat} : Padded 4 y yyyy → TwoBytes z m mm → TwoBytes z' d dd →
      Column 6 p v s → CivilField (yyyy ++ 32 :: (mm ++ 32 :: (dd ++ 46 :: s))) d m y ((v : ℚ) / 10 ^ p) p
  | compact {c d m y p v : Nat} {yy mm dd s : List Nat} : 72 ≤ c → c ≤ 75 → Padded 2 y yy → Padded 2 m mm → Padded 2 d dd →
      Column 9 p v s → 2 ≤ p →
      CivilField (c :: (yy ++ (mm ++ (dd ++ 46 :: s)))) d m (1700 + 100 * (c - 72) + y) ((v : ℚ) / 10 ^ p) (30 + p)
  | seconds {c d m y hour minute second p v : Nat} {yy mm dd h n sec s : List Nat} : 72 ≤ c → c ≤ 75 → Padded 2 y yy →
      Padded 2 m mm → Padded 2 d dd → Padded 2 hour h → Padded 2 minute n → Padded 2 second sec → Column 3 p v s →
      CivilField (c :: (yy ++ (mm ++ (dd ++ 58 :: (h ++ (n ++ (sec ++ s))))))) d m (1700 + 100 * (c - 72) + y)
        ((hour : ℚ) / 24 + (minute : ℚ) / 1440 + ((second : ℚ) + (v : ℚ) / 10 ^ p) / 86400) (20 + p)
  | minutes {c d m y hour minute : Nat} {yy mm dd h n : List Nat} : 72 ≤ c → c ≤ 75 → Padded 2 y yy →
      Padded 2 m mm → Padded 2 d dd → Padded 2 hour h → Padded 2 minute n →
      CivilField (c :: (yy ++ (mm ++ (dd ++ 58 :: (h ++ (n ++ List.replicate 5 32)))))) d m (1700 + 100 * (c - 72) + y)
        ((hour : ℚ) / 24 + (minute : ℚ) / 1440) 50

/-- A Julian Date or Modified Julian Date in columns 16-32: the text, the Julian Date and the number of the format. -/
inductive CountField : List Nat → ℚ → Nat → Prop
  | jd {n p v : Nat} {a s : List Nat} : Padded 7 n a → Column 9 p v s → 2 ≤ p →
      CountField (a ++ 46 :: s) ((n : ℚ) + (v : ℚ) / 10 ^ p) (10 + p)
  | mjd {n p v : Nat} {a s : List Nat} : Padded 6 n a → Column 9 p v s → 2 ≤ p →
      CountField (77 :: (a ++ 46 :: s)) (2400000 + 1 / 2 + ((n : ℚ) + (v : ℚ) / 10 ^ p)) (40 + p)

/-- A line with 80 to 82 bytes, nothing unusual in column 13, a station code in columns 78-80, and the text `t` in
    columns 16-32. -/
structure ObsLine (line t : List Nat) : Prop where
  long : 80 ≤ line.length
  short : line.length ≤ 82
  mark : line[12]? = some 32 ∨ line[12]? = some 42 ∨ line[12]? = some 45
  code : ∀ i, 77 ≤ i → i < 80 → ∃ c, line[i]? = some c ∧ 33 ≤ c ∧ c ≤ 122
  field : (line.drop 15).take 17 = t

/-- `n` is the day number of the date in the calendar that changed from Julian to Gregorian after 4 October 1582. -/
def MixedDate (d m y : Nat) (n : Int) : Prop :=
  (julian.Exists d m y ∧ ¬ DateLt 4 10 1582 d m y ∧ julian.dayNumber d m y = n) ∨
  (gregorian.Exists d m y ∧ ¬ DateLt d m y 15 10 1582 ∧ gregorian.dayNumber d m y = n)

/-- What may come before the digits of a number, and whether it makes the number negative. -/
inductive Lead : List Nat → Bool → Prop
  | none (k : Nat) : Lead (List.replicate k 32) false
  | plus (k : Nat) : Lead (List.replicate k 32 ++ [43]) false
  | minus (k : Nat) : Lead (List.replicate k 32 ++ [45]) true

/-- `x` or `-x`. -/
def signed (neg : Bool) (x : ℚ) : ℚ := if neg then -x else x

/-- A right ascension or declination, table in the comment of lines 286-325: twelve bytes, the value (in hours for a right
    ascension, otherwise in degrees), the number of the format, and the precision in seconds.  Some formats are for right
    ascensions only (`ra`). -/
inductive AngleField (ra : Bool) : List Nat → ℚ → Int → ℚ → Prop
  | seconds {z m s p v : Nat} {zz mm ss f : List Nat} : Padded 2 z zz → Padded 2 m mm → Padded 2 s ss → Column 3 p v f →
      AngleField ra (zz ++ 32 :: (mm ++ 32 :: (ss ++ 46 :: f))) ((z : ℚ) + (m : ℚ) / 60 + ((s : ℚ) + (v : ℚ) / 10 ^ p) / 3600)
        p (1 / 10 ^ p)
  | wholeSeconds {z m s : Nat} {zz mm ss : List Nat} : Padded 2 z zz → Padded 2 m mm → Padded 2 s ss →
      AngleField ra (zz ++ 32 :: (mm ++ 32 :: (ss ++ List.replicate 4 32))) ((z : ℚ) + (m : ℚ) / 60 + (s : ℚ) / 3600) 0 1
  | minutes {z m p v : Nat} {zz mm f : List Nat} : Padded 2 z zz → Padded 2 m mm → Column 6 p v f →
      AngleField ra (zz ++ 32 :: (mm ++ 46 :: f)) ((z : ℚ) + ((m : ℚ) + (v : ℚ) / 10 ^ p) / 60) (-(p + 1)) (60 / 10 ^ p)
  | wholeMinutes {z m : Nat} {zz mm : List Nat} : Padded 2 z zz → Padded 2 m mm →
      AngleField ra (zz ++ 32 :: (mm ++ List.replicate 7 32)) ((z : ℚ) + (m : ℚ) / 60) (-1) 60
  | decimal {z p v : Nat} {zz f : List Nat} : Padded 2 z zz → Column 9 p v f →
      AngleField ra (zz ++ 46 :: f) ((z : ℚ) + (v : ℚ) / 10 ^ p) (100 + p) (3600 / 10 ^ p)
  | degrees {d p v : Nat} {dd f : List Nat} : ra = true → Padded 3 d dd → Column 8 p v f →
      AngleField ra (dd ++ 46 :: f) (((d : ℚ) + (v : ℚ) / 10 ^ p) / 15) (200 + p) (3600 / 15 / 10 ^ p)
  | packed {z m s p v : Nat} {zz mm ss f : List Nat} : Padded 2 z zz → Padded 2 m mm → Padded 2 s ss → Column 6 p v f → 1 ≤ p →
      AngleField ra (zz ++ (mm ++ (ss ++ f))) ((z : ℚ) + (m : ℚ) / 60 + ((s : ℚ) + (v : ℚ) / 10 ^ p) / 3600) (306 + p) (1 / 10 ^ p)
  | degreeSeconds {d m s p v : Nat} {dd mm ss f : List Nat} : ra = true → Padded 3 d dd → Padded 2 m mm → Padded 2 s ss →
      Column 2 p v f →
      AngleField ra (dd ++ 32 :: (mm ++ 32 :: (ss ++ 46 :: f)))
        (((d : ℚ) + (m : ℚ) / 60 + ((s : ℚ) + (v : ℚ) / 10 ^ p) / 3600) / 15) (400 + p) (1 / 15 / 10 ^ p)
  | wholeDegreeSeconds {d m s : Nat} {dd mm ss : List Nat} : ra = true → Padded 3 d dd → Padded 2 m mm → Padded 2 s ss →
      AngleField ra (dd ++ 32 :: (mm ++ 32 :: (ss ++ List.replicate 3 32)))
        (((d : ℚ) + (m : ℚ) / 60 + (s : ℚ) / 3600) / 15) 400 (1 / 15)

/-- The same with minutes and seconds below 60 and no point without decimals after it. -/
inductive CleanAngle (ra : Bool) : List Nat → ℚ → Int → ℚ → Prop
  | seconds {z m s p v : Nat} {zz mm ss f : List Nat} : Padded 2 z zz → Padded 2 m mm → Padded 2 s ss → Column 3 p v f →
      m < 60 → s < 60 → 1 ≤ p →
      CleanAngle ra (zz ++ 32 :: (mm ++ 32 :: (ss ++ 46 :: f))) ((z : ℚ) + (m : ℚ) / 60 + ((s : ℚ) + (v : ℚ) / 10 ^ p) / 3600)
        p (1 / 10 ^ p)
  | wholeSeconds {z m s : Nat} {zz mm ss : List Nat} : Padded 2 z zz → Padded 2 m mm → Padded 2 s ss → m < 60 → s < 60 →
      CleanAngle ra (zz ++ 32 :: (mm ++ 32 :: (ss ++ List.replicate 4 32))) ((z : ℚ) + (m : ℚ) / 60 + (s : ℚ) / 3600) 0 1
  | minutes {z m p v : Nat} {zz mm f : List Nat} : Padded 2 z zz → Padded 2 m mm → Column 6 p v f → m < 60 → 1 ≤ p →
      CleanAngle ra (zz ++ 32 :: (mm ++ 46 :: f)) ((z : ℚ) + ((m : ℚ) + (v : ℚ) / 10 ^ p) / 60) (-(p + 1)) (60 / 10 ^ p)
  | wholeMinutes {z m : Nat} {zz mm : List Nat} : Padded 2 z zz → Padded 2 m mm → m < 60 →
      CleanAngle ra (zz ++ 32 :: (mm ++ List.replicate 7 32)) ((z : ℚ) + (m : ℚ) / 60) (-1) 60
  | decimal {z p v : Nat} {zz f : List Nat} : Padded 2 z zz → Column 9 p v f → 1 ≤ p →
      CleanAngle ra (zz ++ 46 :: f) ((z : ℚ) + (v : ℚ) / 10 ^ p) (100 + p) (3600 / 10 ^ p)
  | degrees {d p v : Nat} {dd f : List Nat} : ra = true → Padded 3 d dd → Column 8 p v f → 1 ≤ p →
      CleanAngle ra (dd ++ 46 :: f) (((d : ℚ) + (v : ℚ) / 10 ^ p) / 15) (200 + p) (3600 / 15 / 10 ^ p)
  | packed {z m s p v : Nat} {zz mm ss f : List Nat} : Padded 2 z zz → Padded 2 m mm → Padded 2 s ss → Column 6 p v f →
      m < 60 → s < 60 → 1 ≤ p →
      CleanAngle ra (zz ++ (mm ++ (ss ++ f))) ((z : ℚ) + (m : ℚ) / 60 + ((s : ℚ) + (v : ℚ) / 10 ^ p) / 3600) (306 + p) (1 / 10 ^ p)
  | degreeSeconds {d m s p v : Nat} {dd mm ss f : List Nat} : ra = true → Padded 3 d dd → Padded 2 m mm → Padded 2 s ss →
      Column 2 p v f → m < 60 → s < 60 → 1 ≤ p →
      CleanAngle ra (dd ++ 32 :: (mm ++ 32 :: (ss ++ 46 :: f)))
        (((d : ℚ) + (m : ℚ) / 60 + ((s : ℚ) + (v : ℚ) / 10 ^ p) / 3600) / 15) (400 + p) (1 / 15 / 10 ^ p)
  | wholeDegreeSeconds {d m s : Nat} {dd mm ss : List Nat} : ra = true → Padded 3 d dd → Padded 2 m mm → Padded 2 s ss →
      m < 60 → s < 60 →
      CleanAngle ra (dd ++ 32 :: (mm ++ 32 :: (ss ++ List.replicate 3 32)))
        (((d : ℚ) + (m : ℚ) / 60 + (s : ℚ) / 3600) / 15) 400 (1 / 15)

end Verif.Spec
