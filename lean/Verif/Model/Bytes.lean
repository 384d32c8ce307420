/-!
# Byte strings

A C `char` is a `Nat` (its unsigned code; only ASCII behaviour is modelled, see DESIGN.md), a C string
is the list of its bytes without the terminating NUL.  `at? s i` is `s[i]` in C: beyond the end the
model gives 0, which in C is right for the terminator itself and unspecified past it.
-/

namespace Verif

/-- Bytes of a Lean string literal. -/
def bytes (s : String) : List Nat := s.toList.map Char.toNat

/-- `s[i]`. -/
def at? (s : List Nat) (i : Nat) : Nat := s.getD i 0

/-- `isdigit`, C locale. -/
def isDigit (c : Nat) : Bool := 48 ≤ c && c ≤ 57
/-- `isupper`. -/
def isUpper (c : Nat) : Bool := 65 ≤ c && c ≤ 90
/-- `islower`. -/
def isLower (c : Nat) : Bool := 97 ≤ c && c ≤ 122
/-- `isalpha`. -/
def isAlpha (c : Nat) : Bool := isUpper c || isLower c
/-- `isalnum`. -/
def isAlnum (c : Nat) : Bool := isDigit c || isAlpha c
/-- `isspace`. -/
def isSpace (c : Nat) : Bool := c == 32 || (9 ≤ c && c ≤ 13)
/-- `toupper`. -/
def toUpper (c : Nat) : Nat := if isLower c then c - 32 else c
/-- `strchr( set, c) != NULL`; note that the terminating NUL is found too. -/
def strchr (set : List Nat) (c : Nat) : Bool := c == 0 || set.contains c

/-- `%d` of a non-negative value, with fuel for the number of digits. -/
def decAux : Nat → Nat → List Nat
  | 0, n => [48 + n % 10]
  | k + 1, n => if n < 10 then [48 + n] else decAux k (n / 10) ++ [48 + n % 10]

/-- `%d` (or `%u`) of a non-negative value. -/
def dec (n : Nat) : List Nat := decAux n n

/-- `%d` of any value. -/
def decInt (z : Int) : List Nat := if z < 0 then 45 :: dec z.natAbs else dec z.toNat

/-- `%0wd` of a non-negative value. -/
def pad (w n : Nat) : List Nat := List.replicate (w - (dec n).length) 48 ++ dec n

/-- Number of leading digits. -/
def digitCount : List Nat → Nat
  | [] => 0
  | c :: cs => if isDigit c then digitCount cs + 1 else 0

/-- Value accumulated over the leading digits, starting from `acc`. -/
def readDigits : Nat → List Nat → Nat
  | acc, [] => acc
  | acc, c :: cs => if isDigit c then readDigits (acc * 10 + (c - 48)) cs else acc

/-- `atoi`: leading white space, optional sign, digits.  (Overflow is not modelled.) -/
def atoi : List Nat → Int
  | [] => 0
  | c :: cs =>
    if isSpace c then atoi cs
    else if c = 45 then -(readDigits 0 cs : Int)
    else if c = 43 then readDigits 0 cs
    else readDigits 0 (c :: cs)

/-- How a modelled call can end: normally, by a failed assertion or `exit`, or in undefined
    behaviour (read of an uninitialised buffer, write through NULL or past a buffer). -/
inductive Outcome (α : Type) where
  | ok (a : α)
  | abort
  | ub
deriving DecidableEq, Repr

def Outcome.bind {α β : Type} (x : Outcome α) (f : α → Outcome β) : Outcome β :=
  match x with
  | .ok a => f a
  | .abort => .abort
  | .ub => .ub

instance : Monad Outcome where
  pure := .ok
  bind := Outcome.bind

end Verif
