import Verif.Model.Orbit
import Verif.Model.Date
import Verif.Model.MpcLine

/-!
# Model of the orbital elements in lines of `mpcorb.dat` and `astorb.dat`, /repo/mpcorb.cpp

Real numbers for `double`; `atof`, `%lf` and `atoi` as in the models of the scanner.  Overflow of `long` is not modelled.
-/

namespace Verif.MpcOrb

open Verif Verif.Date Verif.Orbit

/-- `SOLAR_GM`, lines 32-33. -/
noncomputable def solarGm : ℝ := 0.01720209895 * 0.01720209895

/-- `buff[i]`. -/
def byte (l : List Nat) (i : Nat) : Nat := l.getD i 0

/-- `atof`. -/
noncomputable def number (s : List Nat) : ℝ := ((MpcLine.atof s : ℚ) : ℝ)

/-- `extended_hex_to_int`, lines 39-50; `char` is signed. -/
def extendedHex (c : Nat) : Int :=
  if 48 ≤ c ∧ c ≤ 57 then (c : Int) - 48
  else if 65 ≤ c ∧ c ≤ 90 then (c : Int) - 65 + 10
  else MpcLine.sbyte c - 97 + 10 + 26

/-- `extract_mpc_epoch`, lines 52-61. `none`: `dmy_to_day` reads outside its table. -/
def mpcEpoch (b : List Nat) : Option Int :=
  dmyToDay (extendedHex (byte b 4)) (extendedHex (byte b 3))
    (100 * extendedHex (byte b 0) + 10 * extendedHex (byte b 1) + extendedHex (byte b 2)) GREGORIAN

/-- What is stored: `struct elements` with the epoch and the magnitudes. -/
structure Asteroid where
  el : Elements
  epoch : ℝ
  absMag : ℝ
  slopeParam : ℝ

/-- `do_remaining_element_setup`, lines 63-82. -/
noncomputable def setUp (epoch : ℝ) (e : Elements) : Elements :=
  let e := { e with meanAnomaly := e.meanAnomaly * (Real.pi / 180), argPer := e.argPer * (Real.pi / 180),
                    ascNode := e.ascNode * (Real.pi / 180), incl := e.incl * (Real.pi / 180), q := e.majorAxis * (1 - e.ecc) }
  let e := derive e solarGm
  let e := { e with angularMomentum := √(solarGm * e.q * (1 + e.ecc)) }
  let ma := e.meanAnomaly
  let ma := if ma > Real.pi then ma - (Real.pi + Real.pi) else ma
  { e with perihTime := epoch - ma * e.t0, gm := solarGm }

/-- `extract_mpcorb_dat` with `elem` given, lines 91-119: the value returned, and the structure if it was filled.  `old` is what was in it. -/
noncomputable def extractMpcorb (old : Elements) (buff : List Nat) : Outcome (Int × Option Asteroid) :=
  if buff.length > 200 ∧ byte buff 47 = 32 ∧ byte buff 82 = 46 ∧ byte buff 25 = 32 ∧ byte buff 29 = 46 ∧ byte buff 36 = 32 then
    match mpcEpoch (buff.drop 20) with
    | none => .ub
    | some jd =>
      let epoch : ℝ := (jd : ℝ) - 0.5
      .ok (jd, some
        { epoch := epoch
          el := setUp epoch { old with meanAnomaly := number (buff.drop 26), argPer := number (buff.drop 37), ascNode := number (buff.drop 48)
                                       incl := number (buff.drop 59), ecc := number (buff.drop 69), majorAxis := number (buff.drop 92) }
          absMag := if byte buff 10 = 46 then number (buff.drop 8) else 0
          slopeParam := if byte buff 16 = 46 then number (buff.drop 14) else 0 })
  else .ok (0, none)

/-- The second loop of `extract_long`, lines 131-136; `ub`: past the end of the string. -/
def longLoop : Int → List Nat → Outcome Int
  | _, [] => .ub
  | v, c :: s => if c = 32 then .ok v else longLoop (if c = 46 then v else v * 10 + (MpcLine.sbyte c - 48)) s

/-- `extract_long`, lines 125-138. -/
def extractLong (s : List Nat) : Outcome Int := longLoop 0 (MpcLine.skipBlanks s)

/-- `extract_astorb_dat` with `elem` given, lines 140-167.  `old` is what was in `telem`. -/
noncomputable def extractAstorb (old : Elements) (buff : List Nat) : Outcome (Int × Option Asteroid) :=
  if buff.length > 267 then
    match Scan.scanReal (K := ℚ) (buff.drop 41) with
    | none => .ok (0, none)
    | some (h, rest) => match Scan.scanReal (K := ℚ) rest with
      | none => .ok (0, none)
      | some (g, _) =>
        let ymd := atoi (buff.drop 106)
        (extractLong (buff.drop 115)).bind fun ma =>
        (extractLong (buff.drop 126)).bind fun arg =>
        (extractLong (buff.drop 137)).bind fun node =>
        (extractLong (buff.drop 148)).bind fun incl =>
        (extractLong (buff.drop 160)).bind fun ecc =>
        match dmyToDay (ymd.tmod 100) ((ymd.tdiv 100).tmod 100) (ymd.tdiv 10000) GREGORIAN with
        | none => .ub
        | some jd =>
          let epoch : ℝ := (jd : ℝ) - 0.5
          .ok (jd, some
            { epoch := epoch
              el := setUp epoch { old with meanAnomaly := (ma : ℝ) / 10 ^ 6, argPer := (arg : ℝ) / 10 ^ 6, ascNode := (node : ℝ) / 10 ^ 6
                                           incl := (incl : ℝ) / 10 ^ 6, ecc := (ecc : ℝ) / 10 ^ 8, majorAxis := number (buff.drop 169) }
              absMag := (h : ℝ)
              slopeParam := (g : ℝ) })
  else .ok (0, none)

end Verif.MpcOrb
