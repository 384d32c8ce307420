import Mathlib.Analysis.SpecialFunctions.Trigonometric.Basic
import Verif.Model.Bytes
import Verif.Model.Scan
import Verif.Model.GetTime
import Verif.Model.Rotation

/-!
# Model: orientations of planets and satellites (/repo/cospar.cpp)

Real numbers for `double`.  `char` is signed.  A file is the list of the strings that `fgets` with a buffer of 300 bytes gives one after
another, without zeros; memory is never short.  What was never set is `none`.  Reading beyond the zero of a line, or beyond the lines, is
`ub`; an endless loop is `hang`.
-/

namespace Verif.Cospar

open Verif Verif.Scan
open Verif.GetTime (Run)

/-- `NO_OBJECT_SELECTED` and `FREE_INTERNAL_DATA`, and `PLANET_SELECTED`, lines 31-33. -/
def noObject : Int := -99999
def planetSelected : Int := -99998

/-- The byte at an index; zero at the end. -/
def byte (s : List Nat) (i : Nat) : Nat := s.getD i 0

/-! ## The file -/

/-- Lines 93-94: up to a comment, a control character, or a byte above 127, which is negative as a `char`. -/
def shown (l : List Nat) : List Nat := l.takeWhile fun c => decide (32 ≤ c ∧ c < 128 ∧ c ≠ 35)

/-- Lines 95-105: what is kept of a line, without blanks unless it begins with `Remap:`. -/
def kept (l : List Nat) : Option (List Nat) :=
  let t := shown l
  if t = [] then none
  else if t.take 6 = [82, 101, 109, 97, 112, 58] then some t
  else some (t.filter fun c => decide (c ≠ 32))

/-- Lines 76-124: the lines up to one that begins with `END`. -/
def load (file : List (List Nat)) : List (List Nat) := (file.takeWhile fun l => decide (l.take 3 ≠ [69, 78, 68])).filterMap kept

/-! ## Terms -/

/-- What is asked for: pointers that are not NULL, the system, and days from 2000. -/
structure Ask where
  pole : Bool
  omega : Bool
  radii : Bool
  system : Int
  d : ℝ

/-- `t_cen`, line 60. -/
noncomputable def Ask.t (q : Ask) : ℝ := q.d / 36525

/-- `*oval`, `*is_retrograde` and `err`. -/
structure Value where
  value : ℝ
  retro : Bool
  err : Int

/-- The text after the first `=`. -/
def afterEquals : List Nat → Option (List Nat)
  | [] => none
  | c :: s => if c = 61 then some s else afterEquals s

/-- Lines 237-248: the angle in degrees. -/
noncomputable def angleOf (q : Ask) (l : List Nat) : Run ℝ :=
  match afterEquals l with
  | none => .ub
  | some s =>
    let c := strtold (K := ℝ) s
    let b := strtold (K := ℝ) c.2
    if byte b.2 0 = 100 then .ok (c.1 + b.1 * q.d)
    else if byte b.2 0 = 84 then .ok (c.1 + b.1 * q.t)
    else .abort

/-- Lines 220-261: a sine or cosine; `r` is the text after the coefficient. -/
noncomputable def periodic (q : Ask) (lines : List (List Nat)) (planet angular : Nat) (coeff : ℝ) (r : List Nat) (g : Value) : Run Value :=
  if r.length < 4 then .ub
  else if byte r 3 ≠ planet ∧ r.length < 5 then .ub
  else
    let multiplier : Int := if byte r 3 = planet then 1 else atoi (r.drop 3)
    let idx : Int := if byte r 3 = planet then atoi (r.drop 4) else atoi (r.drop 5)
    let err := if byte r 3 ≠ planet ∧ byte r 4 ≠ planet then -4 else g.err
    if angular = 0 then .abort
    else if (angular : Int) + idx < 0 then .ub
    else match lines[((angular : Int) + idx).toNat]? with
      | none => .ub
      | some l => (angleOf q l).bind fun a =>
        let angle := a * ((multiplier : ℝ) * Real.pi / 180)
        if multiplier = 0 then .ok { g with value := g.value + coeff, err := -5 }
        else if angle = 0 then .ok { g with value := g.value + coeff, err := -3 }
        else if byte r 0 = 115 then .ok { g with value := g.value + coeff * Real.sin angle, err := err }
        else if byte r 0 = 99 then .ok { g with value := g.value + coeff * Real.cos angle, err := err }
        else .ok { g with value := g.value + coeff, err := -2 }

/-- Lines 196-262: a term; `inr` if the function returns with the rate of rotation. -/
noncomputable def term (q : Ask) (lines : List (List Nat)) (planet angular : Nat) (isOmega : Bool) (coeff : ℝ) (r : List Nat) (g : Value) : Run (Value ⊕ Value) :=
  if byte r 0 = 100 then
    let c := if byte r 1 = 50 then coeff * q.d else coeff
    let retro := g.retro || (byte r 1 ≠ 50 && decide (coeff < 0) && isOmega)
    if isOmega && !q.pole then .ok (.inr { g with value := c, retro := retro })
    else .ok (.inl { g with value := g.value + c * q.d, retro := retro })
  else if byte r 0 = 84 then
    let c := if byte r 1 = 50 then coeff * q.t else coeff
    let retro := g.retro || (byte r 1 ≠ 50 && decide (coeff < 0) && isOmega)
    .ok (.inl { g with value := g.value + c * q.t, retro := retro })
  else (periodic q lines planet angular coeff r g).bind fun g => .ok (.inl g)

/-- The loop of lines 191-263. -/
noncomputable def terms (q : Ask) (lines : List (List Nat)) (planet angular : Nat) (isOmega : Bool) (s : List Nat) (g : Value) : Run (Value ⊕ Value) :=
  match s with
  | [] => .ok (.inl g)
  | c :: cs =>
    if c ≠ 43 ∧ c ≠ 45 then terms q lines planet angular isOmega cs g
    else
      let v := strtold (K := ℝ) (c :: cs)
      (term q lines planet angular isOmega v.1 v.2 g).bind fun x =>
        match x with
        | .inr y => .ok (.inr y)
        | .inl y => if h : v.2.length < cs.length + 1 then terms q lines planet angular isOmega v.2 y else .hang
termination_by s.length
decreasing_by
  · simp
  · exact h

/-- Lines 185-263. -/
noncomputable def expression (q : Ask) (lines : List (List Nat)) (planet angular : Nat) (isOmega retro : Bool) (l : List Nat) : Run (Value ⊕ Value) :=
  match afterEquals l with
  | none => .ub
  | some s =>
    terms q lines planet angular isOmega (if byte s 0 = 45 then s.drop 1 else s) { value := (strtold (K := ℝ) s).1, retro := retro, err := 0 }

/-! ## Lines -/

structure State where
  planet : Nat
  object : Int
  curr : Int
  line : Nat
  angular : Nat
  finished : Bool
  gotOmega : Bool
  err : Int
  ra : Option ℝ
  dec : Option ℝ
  omega : Option ℝ
  radii : ℝ × ℝ × ℝ
  retro : Bool

/-- The loop of lines 140-145; a turn takes two characters at least, so that `n` is the length of the text. -/
def remap (object : Int) : Nat → List Nat → Int
  | 0, _ => object
  | n + 1, s =>
    match scanInt s with
    | none => object
    | some a => match scanInt a.2 with
      | none => object
      | some b => remap (if object = b.1 then a.1 else object) n b.2

/-- `sscanf( ..., "%lf,%lf,%lf", ...)`, line 171. -/
noncomputable def scanRadii (s : List Nat) (v : ℝ × ℝ × ℝ) : ℝ × ℝ × ℝ :=
  match scanReal (K := ℝ) s with
  | none => v
  | some a =>
    if byte a.2 0 ≠ 44 then (a.1, v.2)
    else match scanReal (K := ℝ) (a.2.drop 1) with
      | none => (a.1, v.2)
      | some b =>
        if byte b.2 0 ≠ 44 then (a.1, b.1, v.2.2)
        else match scanReal (K := ℝ) (b.2.drop 1) with
          | none => (a.1, b.1, v.2.2)
          | some c => (a.1, b.1, c.1)

/-- Lines 164-265: a line of the object; `inr` if the function returns. -/
noncomputable def own (q : Ask) (lines : List (List Nat)) (l : List Nat) (g : State) : Run (State ⊕ State) :=
  if byte l 0 = 114 then
    if q.radii then (if l.length < 2 then .ub else .ok (.inl { g with radii := scanRadii (l.drop 2) g.radii })) else .ok (.inl g)
  else if byte l 0 = 97 then
    if q.pole then
      (expression q lines g.planet g.angular false g.retro l).bind fun x =>
        match x with
        | .inl v => .ok (.inl { g with ra := some v.value, retro := v.retro, err := v.err })
        | .inr v => .ok (.inr { g with ra := some v.value, retro := v.retro })
    else .ok (.inl g)
  else if byte l 0 = 100 then
    if q.pole then
      (expression q lines g.planet g.angular false g.retro l).bind fun x =>
        match x with
        | .inl v => .ok (.inl { g with dec := some v.value, retro := v.retro, err := v.err })
        | .inr v => .ok (.inr { g with dec := some v.value, retro := v.retro })
    else .ok (.inl g)
  else if g.gotOmega = false ∧ byte l 0 = 87 ∧ ((byte l 1 : Int) = (q.system + 48) % 256 ∨ byte l 1 = 61) then
    if q.omega then
      (expression q lines g.planet g.angular true g.retro l).bind fun x =>
        match x with
        | .inl v => .ok (.inl { g with omega := some v.value, retro := v.retro, err := v.err, gotOmega := true })
        | .inr v => .ok (.inr { g with omega := some v.value, retro := v.retro, gotOmega := true })
    else .ok (.inl { g with gotOmega := true })
  else .ok (.inl g)

/-- Lines 133-265: one line. -/
noncomputable def step (q : Ask) (lines : List (List Nat)) (l : List Nat) (g : State) : Run (State ⊕ State) :=
  let g := if byte l 0 = 82 ∧ 9 < g.object ∧ g.object < 1000 then { g with object := remap g.object l.length (l.drop 6) } else g
  if byte l 0 = 80 then
    .ok (.inl { g with planet := byte l 7, finished := g.finished || decide (g.curr = g.object), curr := planetSelected })
  else if byte l 0 = 79 then
    .ok (.inl { g with finished := g.finished || decide (g.curr = g.object), curr := atoi (l.drop 4) })
  else if g.planet ≠ 0 ∧ g.curr = planetSelected ∧ byte l 0 = g.planet ∧ byte l 1 = 49 ∧ byte l 2 = 61 then
    .ok (.inl { g with angular := g.line - 1 })
  else if g.curr = g.object then own q lines l g
  else .ok (.inl g)

/-- The loop of lines 131-266. -/
noncomputable def steps (q : Ask) (lines : List (List Nat)) : List (List Nat) → State → Run (State ⊕ State)
  | [], g => .ok (.inl g)
  | l :: ls, g =>
    if g.finished = true ∨ g.err ≠ 0 then .ok (.inl g)
    else (step q lines l g).bind fun x =>
      match x with
      | .inr h => .ok (.inr h)
      | .inl h => steps q lines ls { h with line := h.line + 1 }

/-- The value of the function, and what has been set. -/
structure Answer where
  code : Int
  ra : Option ℝ
  dec : Option ℝ
  omega : Option ℝ
  radii : Option (ℝ × ℝ × ℝ)
  retro : Option Bool

/-- At line 131. -/
def begin_ (object : Int) : State :=
  { planet := 0, object := object, curr := noObject, line := 0, angular := 0, finished := false, gotOmega := false, err := 0,
    ra := none, dec := none, omega := none, radii := (0, 0, 0), retro := false }

/-- Lines 128-281, with the text in memory. -/
noncomputable def search (q : Ask) (object : Int) (lines : List (List Nat)) : Run Answer :=
  (steps q lines lines (begin_ object)).bind fun x =>
    match x with
    | .inr g => .ok { code := 0, ra := g.ra, dec := g.dec, omega := g.omega, radii := if q.radii then some g.radii else none, retro := some g.retro }
    | .inl g =>
      if g.err ≠ 0 then .ok { code := g.err, ra := g.ra, dec := g.dec, omega := g.omega, radii := if q.radii then some g.radii else none, retro := some g.retro }
      else if g.finished then
        .ok { code := 0, ra := g.ra, dec := g.dec, omega := g.omega, radii := if q.radii then some g.radii else none, retro := some g.retro }
      else
        .ok { code := -1, ra := if q.pole then some (g.object * 20) else none, dec := if q.pole then some (g.object * 20) else none,
              omega := if q.omega then some (q.d * 360 / 1.3) else none, radii := if q.radii then some g.radii else none, retro := some g.retro }

/-- The text in memory; `none` for NULL. -/
abbrev Text := Option (List (List Nat))

/-- `get_cospar_data_from_text_file`, lines 53-281; `file` is `none` if it cannot be opened. -/
noncomputable def getData (file : Text) (text : Text) (object : Int) (q : Ask) : Run (Answer × Text) :=
  let nothing (c : Int) : Answer := { code := c, ra := none, dec := none, omega := none, radii := none, retro := none }
  if object = noObject then .ok (nothing 0, none)
  else match text with
    | some lines => (search q object lines).bind fun a => .ok (a, text)
    | none => match file with
      | none => .ok (nothing (-1), none)
      | some f =>
        if q.omega then (search q object (load f)).bind fun a => .ok (a, some (load f))
        else .ok (nothing 0, some (load f))

/-! ## What others call -/

/-- `load_cospar_file`, lines 288-299: for a name that is not NULL; the value, and the text in memory. -/
def loadFile (file : Text) : Int × Text :=
  match file with
  | none => (-1, none)
  | some f => (0, some (load f))

/-- `planet_radii`, lines 321-329: the value, what is set, and the text in memory. -/
noncomputable def planetRadii (file text : Text) (planet : Int) : Run (Answer × Text) :=
  getData file text planet { pole := false, omega := false, radii := true, system := 0, d := 0 }

/-- The static variables of `planet_rotation_rate`, lines 305-306. -/
structure RateMemory where
  planet : Int
  system : Int
  omega : ℝ

noncomputable def RateMemory.start : RateMemory := ⟨-99, 0, 0⟩

/-- `planet_rotation_rate`, lines 301-319. -/
noncomputable def rotationRate (file text : Text) (m : RateMemory) (planet system : Int) : Run (ℝ × RateMemory × Text) :=
  if planet ≠ m.planet ∨ system ≠ m.system then
    (getData file text planet { pole := false, omega := true, radii := false, system := system, d := 0 }).bind fun a =>
      let omega := if a.1.code ≠ 0 then 0 else a.1.omega.getD m.omega
      .ok (omega, ⟨planet, system, omega⟩, a.2)
  else .ok (m.omega, m, text)

/-- `polar3_to_cartesian`, /repo/miscell.cpp:465-472. -/
noncomputable def polar3 (lon lat : ℝ) : List ℝ := [Real.cos lon * Real.cos lat, Real.sin lon * Real.cos lat, Real.sin lat]

/-- Lines 388-397, in degrees. -/
noncomputable def orient (ra dec omega : ℝ) (retro : Bool) : Nat → ℝ :=
  let a := ra * (Real.pi / 180)
  let b := dec * (Real.pi / 180)
  let m : Nat → ℝ := fun i => (polar3 (a - Real.pi / 2) 0 ++ polar3 (a - Real.pi) (Real.pi / 2 - b) ++ polar3 a b).getD i 0
  let w := omega * Real.pi / 180 + Real.pi
  let m := Rot.spinMatrix m 0 3 (Real.cos w) (Real.sin w)
  if retro then fun i => if 3 ≤ i ∧ i < 6 then m i * -1 else m i else m

/-- The static variables of `calc_planet_orientation`, lines 350-353. -/
structure Memory where
  planet : Int
  system : Int
  jd : ℝ
  code : Int
  matrix : Nat → ℝ

noncomputable def Memory.start : Memory := ⟨noObject, noObject, -1, 0, fun _ => 0⟩

/-- `calc_planet_orientation`, lines 346-401; `tdt` and `earth` stand for line 368 and for `setup_precession_with_nutation_eops`. -/
noncomputable def planetOrientation (tdt : ℝ → ℝ) (earth : ℝ → Nat → ℝ) (file text : Text) (m : Memory) (planet system : Int) (jd : ℝ) :
    Run (Int × (Nat → ℝ) × Memory × Text) :=
  if planet = m.planet ∧ system = m.system ∧ jd = m.jd then .ok (m.code, m.matrix, m, text)
  else if planet = 3 then
    let e := earth (2000 + (tdt jd - 2451545) / 365.25)
    let x : Nat → ℝ := fun i => if 3 ≤ i ∧ i < 6 then -e i else e i
    .ok (0, x, ⟨planet, system, jd, 0, x⟩, text)
  else
    (getData file text planet { pole := true, omega := true, radii := false, system := system, d := tdt jd - 2451545 }).bind fun a =>
      match a.1.ra, a.1.dec, a.1.omega, a.1.retro with
      | some ra, some dec, some omega, some retro =>
        let x := orient ra dec omega retro
        .ok (a.1.code, x, ⟨planet, system, jd, a.1.code, x⟩, a.2)
      | _, _, _, _ => .ub

end Verif.Cospar
