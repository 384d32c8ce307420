import Verif.Model.Multipart
import Verif.Model.MpcLine
import Verif.Model.Ctime

/-!
# Model of the program that makes .b32 files from Horizons ephemerides, /repo/jpl2b32.cpp

A file is the list of the pieces that `fgets` gives: lines, cut after 199 bytes.  `double`s are rational numbers.  The text
that `%g` makes of the scale, the date of the compilation and the time of day are parameters.  The messages are left out.
-/

namespace Verif.B32

/-- How a part of the program ends: as it should, with the value -2, or with undefined behaviour. -/
inductive Run (α : Type) where
  | ok (a : α)
  | failed
  | ub

def Run.bind {α β : Type} (x : Run α) (f : α → Run β) : Run β :=
  match x with
  | .ok a => f a
  | .failed => .failed
  | .ub => .ub

/-- `n_written`, `jd0`, `step_size`, `max_ordinate`, the numbers written to the file and `buff`, lines 36-40. -/
structure State where
  n : Nat
  jd0 : ℚ
  step : ℚ
  max : ℚ
  out : List Int
  buf : List Nat

/-- `fgets`: the piece and a NUL, before what the buffer had there, lines 70 and 77. -/
def load (buf l : List Nat) : List Nat := l ++ 0 :: buf.drop (l.length + 1)

/-- `atof( buff + i)`. -/
def number (buf : List Nat) (i : Nat) : ℚ := MpcLine.atof (Multipart.cstr (buf.drop i))

/-- The line before a position, lines 71-73. -/
def isHead (buf : List Nat) : Bool :=
  decide (2000000 < number buf 0) && decide (number buf 0 < 3000000) && decide (54 < (Multipart.cstr buf).length) &&
    (buf.drop 17).take 7 == bytes " = A.D." && (buf.drop 37).take 18 == bytes "00:00:00.0000 (CT)"

/-- The first date and the first step, lines 82-85. -/
def date (jd : ℚ) (s : State) : State :=
  if s.n = 0 then { s with jd0 := jd } else if s.n = 1 then { s with step := jd - s.jd0 } else s

/-- The first pass looks for the largest ordinate, lines 90-94. -/
def note (x : ℚ) (s : State) : State := if s.max < |x| then { s with max := |x| } else s

/-- Toward zero, as `(int32_t)` does. -/
def trunc (x : ℚ) : Int := if x < 0 then -⌊-x⌋ else ⌊x⌋

/-- The second pass writes it, lines 97-100; what does not fit an `int32_t`, such as 0/0, is undefined. -/
def emit (x : ℚ) (s : State) : Run State :=
  if s.max = 0 then .ub
  else
    let v := trunc (x * 1500000000 / s.max)
    if v < -2147483648 ∨ 2147483647 < v then .ub else .ok { s with out := s.out ++ [v] }

/-- One ordinate, lines 88-101. -/
def ordinate (second : Bool) (x : ℚ) (s : State) : Run State := if second then emit x s else .ok (note x s)

/-- `n_written++`, line 103. -/
def count (s : State) : State := { s with n := s.n + 1 }

def State.with (s : State) (b : List Nat) : State := { s with buf := b }

/-- The three ordinates of a line, lines 86-103. -/
def row (second : Bool) (s : State) : Run State :=
  (((ordinate second (number s.buf 1) s).bind (ordinate second (number s.buf 24))).bind (ordinate second (number s.buf 47))).bind
    fun t => .ok (count t)

/-- The loop over the lines, lines 70-104. -/
def rows (second : Bool) : List (List Nat) → State → Run State
  | [], s => .ok s
  | [l], s => if isHead (load s.buf l) then .failed else .ok (s.with (load s.buf l))
  | l :: d :: ls, s =>
    let b := load s.buf l
    if isHead b then (row second ((date (number b 0) s).with (load b d))).bind (rows second ls)
    else rows second (d :: ls) (s.with b)

/-- A pass begins, line 68. -/
def again (s : State) : State := { s with n := 0 }

/-- An `int32_t` in the file; the machine is little-endian. -/
def put32 (v : Int) : List Nat := [(v % 256).toNat, (v / 256 % 256).toNat, (v / 65536 % 256).toNat, (v / 16777216 % 256).toNat]

/-- `%10.1f`. -/
def tenOne (x : ℚ) : List Nat := List.replicate (10 - (Time.fmtFixed 1 x).length) 32 ++ Time.fmtFixed 1 x

/-- The text of the header, lines 116-119. -/
def headText (g : ℚ → List Nat) (id : Nat) (s : State) : List Nat :=
  bytes "128 " ++ dec id ++ 32 :: tenOne s.jd0 ++ 32 :: Time.fmtFixed 6 s.step ++ 32 :: dec s.n ++ bytes " 6 " ++ g (s.max / 1500000000) ++
    bytes " 32 0 "

/-- 128 bytes, filled up with NULs, lines 115-120. -/
def header (t : List Nat) : List Nat := t.take 127 ++ List.replicate (128 - (t.take 127).length) 0

/-- The texts after the numbers, lines 107-109. -/
def trailer (date now : List Nat) : List Nat :=
  bytes "Ephemeris from JPL Horizons output\nCreated using 'jpl2b32', version " ++ date ++ bytes "\nEphemeris converted " ++ now

/-- The program, lines 33-123, for a satellite number from 1 to 9999: the file that it writes.  `junk` is what `buff` has at
    first. -/
def make (g : ℚ → List Nat) (day now junk : List Nat) (id : Nat) (lines : List (List Nat)) : Run (List Nat) :=
  (rows false lines { n := 0, jd0 := 0, step := 0, max := 0, out := [], buf := junk }).bind fun s =>
  (rows true lines (again s)).bind fun s =>
  .ok (header (headText g id s) ++ s.out.flatMap put32 ++ trailer day now)

end Verif.B32
