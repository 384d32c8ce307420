import Mathlib.Analysis.SpecialFunctions.Trigonometric.Basic
import Verif.Model.Bytes
import Verif.Model.GetBin
import Verif.Model.AltAz
import Verif.Model.Ps1996

/-!
# Model of the planetary positions from VSOP87, /repo/vsopson.cpp:52-108 and /repo/big_vsop.cpp:122-188

Real numbers for `double`; what number eight bytes are is a parameter `real`.  The machine is little-endian, `short` has sixteen bits.
`planet` is not negative.  A file can be read at any place, and is shorter than 2³¹ terms.
-/

namespace Verif.Vsop

open Verif Verif.GetBin
open Verif.Ps1996 (ptr)

/-- `fmod( rval, TWO_PI)`, made positive: vsopson.cpp:102-105, big_vsop.cpp:184-186. -/
noncomputable def positive (x : ℝ) : ℝ :=
  let r := AltAz.fmod x (2 * Real.pi)
  if r < 0 then r + 2 * Real.pi else r

/-- `rval`, `power` and `prec` of either function. -/
structure Progress where
  rval : ℝ
  power : ℝ
  prec : ℝ

/-! ## vsopson.cpp -/

/-- The loop of lines 83-94 over the terms of a series; a term that is not all in the data is `ub`. -/
noncomputable def addTerms (real : List Nat → ℝ) (t prec : ℝ) : Nat → List Nat → ℝ → Outcome ℝ
  | 0, _, sum => .ok sum
  | n + 1, s, sum =>
    if s.length < 24 then .ub
    else
      let amplitude := real (s.take 8)
      addTerms real t prec n (s.drop 24)
        (if amplitude > prec ∨ amplitude < -prec then sum + amplitude * Real.cos (real ((s.drop 8).take 8) + real ((s.drop 16).take 8) * t) else sum)

/-- One turn of the loop of lines 69-99; `loc` counts the numbers of sixteen bits before it. -/
noncomputable def turn (real : List Nat → ℝ) (data : List Nat) (t : ℝ) (loc : Nat) (g : Progress) : Outcome Progress :=
  let loc0 := get16sbits (ptr (data.drop (2 * loc)))
  let loc1 := get16sbits (ptr (data.drop (2 * (loc + 1))))
  if ¬ (0 ≤ loc0 ∧ loc0 ≤ loc1 ∧ loc1 ≤ 0x97e) then .abort
  else
    let prec := if g.prec < 0 then -g.prec else g.prec
    (addTerms real t prec (loc1 - loc0).toNat (data.drop (290 + 24 * loc0.toNat)) 0).bind fun sum =>
    .ok { rval := g.rval + sum * g.power, power := g.power * t, prec := if t ≠ 0 then prec / t else prec }

/-- `n` turns. -/
noncomputable def turns (real : List Nat → ℝ) (data : List Nat) (t : ℝ) : Nat → Nat → Progress → Outcome Progress
  | 0, _, g => .ok g
  | n + 1, loc, g => (turn real data t loc g).bind fun g => turns real data t n (loc + 1) g

/-- `calc_vsop_loc`, lines 52-108. -/
noncomputable def vsopLoc (real : List Nat → ℝ) (data : List Nat) (planet value : Nat) (t prec : ℝ) : Outcome ℝ :=
  if planet = 0 then .ok 0
  else if ¬ (planet < 9 ∧ value ≤ 2) then .abort
  else if data.length ≤ 0xea0a then .ub
  else if ¬ (ptr data 2 = 38 ∧ ptr data 20 = 120 ∧ ptr data 0xea0a = 113 ∧ get16bits (ptr (data.drop 0x10c)) = 0x93e) then .abort
  else
    (turns real data (t / 10) 6 ((planet - 1) * 18 + value * 6) { rval := 0, power := 1, prec := prec }).bind fun g =>
    let rval := if ptr data 2 = 38 then g.rval * 1e-8 else g.rval
    .ok (if value = 0 then positive rval else rval)

/-! ## big_vsop.cpp -/

/-- The static variables: the 38 bytes of `cache`, and `curr_planet`. -/
structure Memory where
  cache : List Nat
  planet : Nat

/-- At the start of the program, lines 125-126. -/
def fresh : Memory := { cache := List.replicate 38 0, planet := 99 }

/-- The loop of lines 162-172 over `n` terms of the file; `none` if the file has ended, for the value -3.  The bytes of a term cut off by the
    end of the file were never set, or are of another term: `ub`. -/
noncomputable def readTerms (real : List Nat → ℝ) (t prec : ℝ) : Nat → List Nat → ℝ → Outcome (Option (ℝ × List Nat))
  | 0, s, sum => .ok (some (sum, s))
  | n + 1, s, sum =>
    if s.length < 3 then .ok none
    else if s.length < 24 then .ub
    else
      let amplitude := real (s.take 8)
      readTerms real t prec n (s.drop 24)
        (if amplitude > prec ∨ amplitude < -prec then sum + amplitude * Real.cos (real ((s.drop 8).take 8) + real ((s.drop 16).take 8) * t) else sum)

/-- The same for the number of terms `j`: one less than nothing goes on to the end of the file. -/
noncomputable def readSeries (real : List Nat → ℝ) (t prec : ℝ) (j : Int) (s : List Nat) : Outcome (Option (ℝ × List Nat)) :=
  if 0 ≤ j then readTerms real t prec j.toNat s 0
  else if s.length % 24 < 3 then .ok none
  else .ub

/-- `cache[i]`. -/
def entry (cache : List Nat) (i : Nat) : Int := get16sbits (ptr (cache.drop (2 * i)))

/-- The turns of the loop of lines 157-178: `loc` is the place in `cache`, `s` what of the file comes next. -/
noncomputable def readPowers (real : List Nat → ℝ) (cache : List Nat) (t : ℝ) : Nat → Nat → List Nat → Progress → Outcome (Option ℝ)
  | 0, _, _, g => .ok (some g.rval)
  | n + 1, loc, s, g =>
    (readSeries real t g.prec (entry cache (loc + 1) - entry cache loc) s).bind fun
      | none => .ok none
      | some (sum, s) =>
        readPowers real cache t n (loc + 1) s
          { rval := g.rval + sum * g.power, power := g.power * t, prec := if t ≠ 0 then g.prec / t else g.prec }

/-- The turn of the loop of lines 146-180 for a value.  `ub` if the place of the series is before the beginning of the file: what is read
    then depends on what was read before. -/
noncomputable def readValue (real : List Nat → ℝ) (file cache : List Nat) (t prec0 : ℝ) (value : Nat) : Outcome (Option ℝ) :=
  let place := 290 + 24 * entry cache (6 * value)
  if place < 0 then .ub
  else readPowers real cache t 6 (6 * value) (file.drop place.toNat) { rval := 0, power := 1, prec := if prec0 < 0 then -prec0 else prec0 }

/-- What a call leaves: its value, `ovals`, and whether a file opened by it is still open. -/
structure Reply where
  code : Int
  vals : ℝ × ℝ × ℝ
  leak : Bool

/-- The values, lines 145-187. -/
noncomputable def readValues (real : List Nat → ℝ) (file cache : List Nat) (t prec0 : ℝ) (own : Bool) : Outcome Reply :=
  let t := t / 10
  (readValue real file cache t prec0 0).bind fun
    | none => .ok { code := -3, vals := (0, 0, 0), leak := own }
    | some a =>
      (readValue real file cache t prec0 1).bind fun
        | none => .ok { code := -3, vals := (a, 0, 0), leak := own }
        | some b =>
          (readValue real file cache t prec0 2).bind fun
            | none => .ok { code := -3, vals := (a, b, 0), leak := own }
            | some c => .ok { code := 0, vals := (positive a, b, c), leak := false }

/-- `fread` of 38 bytes in two pieces of 19 over `cache`, line 141. -/
def over (cache s : List Nat) : List Nat := s.take 38 ++ cache.drop (s.take 38).length

/-- `calc_big_vsop_loc`, lines 122-188: the file that is given, or `disk`, the file `big_vsop.bin`. -/
noncomputable def bigVsop (real : List Nat → ℝ) (disk : Option (List Nat)) (m : Memory) (given : Option (List Nat)) (planet : Nat) (t prec0 : ℝ) :
    Outcome (Reply × Memory) :=
  if planet = 0 then .ok ({ code := 0, vals := (0, 0, 0), leak := false }, m)
  else
    match given.or disk with
    | none => .ok ({ code := -1, vals := (0, 0, 0), leak := false }, m)
    | some file =>
      if m.planet = planet then (readValues real file m.cache t prec0 given.isNone).bind fun r => .ok (r, m)
      else
        let s := file.drop ((planet - 1) * 36)
        let cache := over m.cache s
        if s.length < 19 then .ok ({ code := -2, vals := (0, 0, 0), leak := given.isNone }, { m with cache := cache })
        else (readValues real file cache t prec0 given.isNone).bind fun r => .ok (r, { cache := cache, planet := planet })

end Verif.Vsop
