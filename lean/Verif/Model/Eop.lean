import Mathlib.Analysis.SpecialFunctions.Trigonometric.Basic
import Verif.Model.MpcLine
import Verif.Model.Spline

/-!
# Model of the Earth orientation parameters, /repo/eop_prec.cpp:81-246

Real numbers for `double`.  A file is the list of the strings that `fgets` with a buffer of 200 bytes gives one after another; there is no
NUL in it, and memory can always be had.  A null pointer for the file or for `params` is not modelled.
-/

namespace Verif.Eop

open Verif

/-- `arcsec_to_radians`, line 33. -/
noncomputable def arcsec : ℝ := Real.pi / (180 * 3600)

/-- `marcsec_to_radians`, line 34. -/
noncomputable def marcsec : ℝ := Real.pi / (180 * 3600000)

/-- `atof`. -/
noncomputable def number (s : List Nat) : ℝ := ((MpcLine.atof s : ℚ) : ℝ)

/-- `buff[i]`. -/
def byte (l : List Nat) (i : Nat) : Nat := l.getD i 0

/-- `is_valid_eop_line`, lines 86-94. -/
def isValid (l : List Nat) : Bool :=
  l.length == 188 && byte l 12 == 46 && byte l 27 == 32 && byte l 20 == 46 && byte l 13 == 48 && byte l 14 == 48

/-- The five numbers of a day; `eop_data` has them in five columns. -/
structure Row where
  dX : ℝ
  dY : ℝ
  dT : ℝ
  dPsi : ℝ
  dEps : ℝ

/-- TD - UT1, lines 149-152; `prev` is the number of the day before. -/
noncomputable def deltaT (init : ℝ) (prev : Option ℝ) (l : List Nat) : ℝ :=
  let t := -number (l.drop 58) + init
  match prev with
  | none => t
  | some p => t + (⌊p - t + 1 / 2⌋ : ℝ)

/-- The buffer after `fgets` has put a line into it: what was beyond the end of the line stays. -/
def putLine (old l : List Nat) : List Nat := l ++ 0 :: old.drop (l.length + 1)

/-- One line, lines 143-165; the memory was set to zero. -/
noncomputable def row (init : ℝ) (prev : Option ℝ) (l : List Nat) : Row :=
  { dX := number (l.drop 18) * arcsec
    dY := number (l.drop 37) * arcsec
    dT := deltaT init prev l
    dPsi := if byte l 95 ≠ 32 then number (l.drop 97) * marcsec else 0
    dEps := if byte l 95 ≠ 32 then number (l.drop 116) * marcsec else 0 }

/-- What the loop leaves: rows, `eop_usable_nutation`, `*file_date` if it was set, and the buffer. -/
structure Table where
  rows : List Row
  nutation : Nat
  date : Option Int
  buff : List Nat

/-- The loop, lines 140-169; the first argument is `eop_size - i`. -/
noncomputable def loop (init : ℝ) : Nat → Option ℝ → List Nat → List (List Nat) → Table
  | 0, _, buff, _ => ⟨[], 0, none, buff⟩
  | _ + 1, _, buff, [] => ⟨[], 0, none, buff⟩
  | n + 1, prev, buff, l :: ls =>
    if byte l 16 ≠ 32 ∧ isValid l = true then
      let r := row init prev l
      let t := loop init n (some r.dT) (putLine buff l) ls
      ⟨r :: t.rows, (if byte l 95 ≠ 32 then 1 else 0) + t.nutation,
       match t.date with
       | some d => some d
       | none => if byte l 16 = 73 then some (atoi (l.drop 7)) else none, t.buff⟩
    else ⟨[], 0, none, putLine buff l⟩

/-- The data kept: `eop_jd0`, `eop_data`, `eop_usable_nutation`; `eop_usable` is the number of rows. -/
structure Data where
  jd0 : ℝ
  rows : List Row
  nutation : Nat

/-- `load_earth_orientation_params` with a filename, lines 113-184: the data (or none), `*file_date`, the number returned.
    `none` for the lines: the file cannot be opened.  `tdUtc` is `td_minus_utc`. -/
noncomputable def load (tdUtc : ℝ → ℝ) : Option (List (List Nat)) → Option Data × Option Int × Int
  | none => (none, none, -1)
  | some [] => (none, none, -1)
  | some (l :: ls) =>
    if isValid l = false ∨ byte l 16 ≠ 73 then (none, none, -2)
    else
      let jd0 := number (l.drop 7) + 2400000.5
      let t := loop (tdUtc (jd0 + 0.1)) (((l :: ls).map List.length).sum / 188) none (putLine [] l) (l :: ls)
      if t.rows.length < 16371 then (none, t.date, -2)
      else (some ⟨jd0, t.rows, t.nutation⟩, t.date, atoi (t.buff.drop 7) - 1)

/-- The same with a null filename and an array, lines 101-112. -/
noncomputable def info : Option Data → (Int × Int × Int) × Int
  | none => ((0, 0, 0), -1)
  | some d =>
    let first := Spline.trunc (d.jd0 - 2400000.499)
    ((first, first + d.rows.length, first + d.nutation), 0)

/-- Column `i` of the data as a table. -/
noncomputable def column (d : Data) (i : Nat) (k : Int) : ℝ :=
  match d.rows[k.toNat]? with
  | none => 0
  | some r => if k < 0 then 0 else match i with
    | 0 => r.dX
    | 1 => r.dY
    | 2 => r.dT
    | 3 => r.dPsi
    | _ => r.dEps

/-- What is looked up for parameter `i`, lines 213-223. -/
noncomputable def lookUp (d : Data) (jd : ℝ) (i : Nat) : ℝ × Int :=
  Spline.cubic (column d i) (if i < 3 then d.rows.length else d.nutation) (jd - d.jd0)

/-- `results[i]`. -/
noncomputable def result (d : Option Data) (jd : ℝ) (mask i : Nat) : ℝ :=
  match d with
  | none => 0
  | some d => if mask / 2 ^ i % 2 = 1 ∧ (lookUp d jd i).2 = 0 then (lookUp d jd i).1 else 0

/-- The bit of `rval` for parameter `i`. -/
noncomputable def flag (d : Data) (jd : ℝ) (mask i : Nat) : Nat := if mask / 2 ^ i % 2 = 1 ∧ (lookUp d jd i).2 ≠ 0 then 2 ^ i else 0

/-- The assertions, lines 234-241. -/
def InRange (x y psi eps : ℝ) : Prop :=
  x > -0.28 * arcsec ∧ x < 0.36 * arcsec ∧ y > -0.03 * arcsec ∧ y < 0.61 * arcsec ∧ psi > -130 * marcsec ∧ psi < 55 * marcsec ∧ eps < 10 * marcsec ∧ eps > -18 * marcsec

open Classical in
/-- `get_earth_orientation_params`, lines 196-246.  `standard` is `default_td_minus_ut`. -/
noncomputable def get (standard : ℝ → ℝ) (d : Option Data) (jd : ℝ) (mask : Nat) : Outcome (Row × Int) :=
  let r : Row := ⟨result d jd mask 0, result d jd mask 1, result d jd mask 2, result d jd mask 3, result d jd mask 4⟩
  let rval : Int := match d with
    | none => -1
    | some d => flag d jd mask 0 + flag d jd mask 1 + flag d jd mask 2 + flag d jd mask 3 + flag d jd mask 4
  if InRange r.dX r.dY r.dPsi r.dEps then
    .ok (if mask / 4 % 2 = 1 ∧ r.dT = 0 then { r with dT := standard jd } else r, rval)
  else .abort

end Verif.Eop
