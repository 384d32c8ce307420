import Verif.Model.Bytes

/-!
# Model: the name of a comet in a line (/repo/com_file.cpp)

Texts are their bytes without the zero at the end.  The code under `OBSOLETE`, which is not defined, is not modelled.
-/

namespace Verif.ComFile

open Verif

/-- `istr[i]`: zero at the end. -/
def byte (s : List Nat) (i : Nat) : Nat := s.getD i 0

/-- `strstr( istr, "P)")`, line 59: where it begins. -/
def mark : List Nat → Option Nat
  | [] => none
  | c :: cs => if c = 80 ∧ byte cs 0 = 41 then some 0 else (mark cs).map (· + 1)

/-- The loop of lines 64-65: back to a parenthesis. -/
def back (s : List Nat) : Nat → Nat
  | 0 => 0
  | i + 1 => if byte s (i + 1) ≠ 40 then back s i else i + 1

/-- Lines 59-72. -/
def permanent (s : List Nat) : Option (List Nat) :=
  match mark s with
  | none => none
  | some e =>
    let i := back s e
    if byte s i = 40 then some ((s.drop (i + 1)).take (e - i)) else none

def isDigit (c : Nat) : Bool := decide (48 ≤ c ∧ c ≤ 57)
def isUpper (c : Nat) : Bool := decide (65 ≤ c ∧ c ≤ 90)
def isBlank (c : Nat) : Bool := decide (c = 32)

/-- Lines 79-99: from the letter and the slash. -/
def copied (s : List Nat) : List Nat :=
  let start := s.take 2
  let r := (s.drop 2).dropWhile isBlank
  let year := r.takeWhile isDigit
  let r := (r.dropWhile isDigit).dropWhile isBlank
  let letters := r.takeWhile isUpper
  let r := r.dropWhile isUpper
  let digits := r.takeWhile isDigit
  let r := r.dropWhile isDigit
  let part := if byte r 0 = 45 then 45 :: (r.drop 1).takeWhile isUpper else []
  start ++ (year ++ (32 :: (letters ++ (digits ++ part))))

/-- The loop of lines 74-101. -/
def provisional : List Nat → Option (List Nat)
  | [] => none
  | c :: cs =>
    if (c = 80 ∨ c = 67) ∧ byte cs 0 = 47 ∧ 49 ≤ byte cs 1 ∧ byte cs 1 ≤ 57 then some (copied (c :: cs)) else provisional cs

/-- The loop of lines 104-114. -/
def bracketed : List Nat → Option (List Nat)
  | [] => none
  | c :: cs =>
    if c = 40 ∧ 1000 < atoi cs ∧ atoi cs < 2300 then some (cs.takeWhile fun x => decide (x ≠ 41)) else bracketed cs

/-- `extract_periodic_name`, lines 54-116: `none` if the value is 0. -/
def extractPeriodicName (s : List Nat) : Option (List Nat) :=
  match permanent s with
  | some r => some r
  | none =>
    match provisional s with
    | some r => some r
    | none => bracketed s

end Verif.ComFile
