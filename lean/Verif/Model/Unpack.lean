import Verif.Model.MutantHex

/-!
# Model of the designation unpacking in /repo/unpack.cpp

`packed` is the list of bytes at the `packed` pointer up to the terminating NUL; the C code reads the
first twelve bytes whatever they are, so the model is exact for strings of at least twelve bytes (and
reads 0 beyond the end of shorter ones).  Bytes are assumed to be below 128 (`isdigit` etc. are
undefined on negative `char`s).
-/

namespace Verif.Desig

/-- /repo/mpc_func.h:86-93. -/
def OBJ_DESIG_OTHER : Int := -1
def OBJ_DESIG_ASTEROID_PROVISIONAL : Int := 0
def OBJ_DESIG_ASTEROID_NUMBERED : Int := 1
def OBJ_DESIG_COMET_PROVISIONAL : Int := 2
def OBJ_DESIG_COMET_NUMBERED : Int := 3
def OBJ_DESIG_NATSAT_PROVISIONAL : Int := 4
def OBJ_DESIG_NATSAT_NUMBERED : Int := 5
def OBJ_DESIG_ARTSAT : Int := 6

/-- What `unpack_provisional_packed_desig` does: return value, and the string stored (`none`: nothing
    was stored, so a freshly declared buffer stays uninitialised). -/
structure Prov where
  rval : Int
  out : Option (List Nat)
deriving DecidableEq, Repr

/-- `unpack_provisional_packed_desig( obuff, obuff_size, ibuff)` with non-NULL `obuff`,
    /repo/unpack.cpp:80-140.  The buffer sizes used by the callers (16, 40) are never exceeded:
    at most 13 bytes are stored. -/
def unpackProv (s : List Nat) : Prov :=
  if at? s 0 = 95 ∧ at? s 2 ≥ 65 ∧ at? s 2 ≤ 90 then            -- '_'
    let year := mutantHexCharToInt (at? s 1)
    let desigNum := getMutantHexValue (s.drop 3) 4
    if year < 0 ∨ desigNum < 0 then ⟨-1, none⟩
    else
      let letter := 65 + (desigNum.tmod 25).toNat
      let letter := if letter ≥ 73 then letter + 1 else letter     -- skip 'I'
      ⟨0, some (decInt (year + 2000) ++ [32, at? s 2, letter] ++ decInt (620 + desigNum.tdiv 25))⟩
  else if at? s 0 ≥ 71 ∧ at? s 0 ≤ 75 ∧ isDigit (at? s 1) ∧ isDigit (at? s 2) ∧ isUpper (at? s 3)
      ∧ isDigit (at? s 5) ∧ (isAlpha (at? s 6) ∨ at? s 6 = 48) then
    let outputNo := mutantHexCharToInt (at? s 4)
    let rval : Int := if outputNo = -1 then -2 else 0
    let o := [if at? s 0 ≥ 75 then 50 else 49, 48 + (at? s 0 - 65) % 10, at? s 1, at? s 2, 32, at? s 3]
    let o := if isUpper (at? s 6) then o ++ [at? s 6] else o
    let outputNo := outputNo * 10 + (at? s 5 : Int) - 48
    let o := if outputNo ≠ 0 then o ++ decInt outputNo else o
    let o := if isLower (at? s 6) then o ++ [45, at? s 6 + 65 - 97] else o
    ⟨rval, some o⟩
  else ⟨-1, some []⟩

/-- One test of the loop in `is_artsat_desig`. -/
def artsatHere (s : List Nat) : Bool :=
  at? s 4 == 45 && decide (atoi s > 1956) && decide (atoi s < 2100) && isDigit (at? s 5)
    && isDigit (at? s 6) && isDigit (at? s 7) && isUpper (at? s 8)

/-- `is_artsat_desig`, /repo/unpack.cpp:144-154: some suffix of at least nine bytes matches. -/
def isArtsatDesig : List Nat → Bool
  | [] => false
  | c :: cs => (decide ((c :: cs).length > 8) && artsatHere (c :: cs)) || isArtsatDesig cs

/-- `planet_names_in_english`, /repo/unpack.cpp:156. -/
def planetNames : List (List Nat) :=
  [bytes "Venus", bytes "Earth", bytes "Mars", bytes "Jupiter", bytes "Saturn", bytes "Uranus",
   bytes "Neptune", bytes "Pluto"]

/-- /repo/unpack.cpp:193-198. -/
def romanDigits : List (List Nat) :=
  [[], bytes "I", bytes "II", bytes "III", bytes "IV", bytes "V", bytes "VI", bytes "VII", bytes "VIII",
   bytes "IX"]
def romanTens : List (List Nat) :=
  [[], bytes "X", bytes "XX", bytes "XXX", bytes "XL", bytes "L", bytes "LX", bytes "LXX", bytes "LXXX",
   bytes "XC"]
def romanHundreds : List (List Nat) :=
  [[], bytes "C", bytes "CC", bytes "CCC", bytes "CD", bytes "D", bytes "DC", bytes "DCC", bytes "DCCC",
   bytes "CM"]

/-- `strlcat_err( obuff, s, 16)`: the program exits when the result does not fit. -/
def catErr (size : Nat) (o s : List Nat) : Outcome (List Nat) :=
  if (o ++ s).length ≥ size then .abort else .ok (o ++ s)

/-- One of the three appends of Roman numeral parts. -/
def appendPart (o : List Nat) (d : Nat) (t : List (List Nat)) : Outcome (List Nat) :=
  if d ≠ 0 then catErr 16 o (t.getD d []) else .ok o

/-- The three appends of Roman numeral parts, /repo/unpack.cpp:207-212. -/
def appendRoman (o : List Nat) (n : Nat) : Outcome (List Nat) :=
  (appendPart o (n / 100) romanHundreds).bind fun o =>
    (appendPart o (n / 10 % 10) romanTens).bind fun o => appendPart o (n % 10) romanDigits

/-- Tests on the `digit_mask` and `space_mask` bits, /repo/unpack.cpp:180-184. -/
def digitsAt (p : List Nat) (is : List Nat) : Bool := is.all fun i => isDigit (at? p i)
def spacesAt (p : List Nat) (is : List Nat) : Bool := is.all fun i => at? p i == 32
/-- `space_mask` has exactly these bits (of 12). -/
def spacesExactly (p : List Nat) (is : List Nat) : Bool :=
  (List.range 12).all fun i => (at? p i == 32) == is.contains i

/-- The natural-satellite part, /repo/unpack.cpp:186-238: code so far and output so far. -/
def unpackNatsat (p : List Nat) : Outcome (Int × List Nat) :=
  if at? p 4 ≠ 83 then .ok (OBJ_DESIG_OTHER, [])                                  -- 'S'
  else if strchr (bytes "MVEJSUNP") (at? p 0) ∧ digitsAt p [1, 2, 3] ∧ spacesAt p [5, 6, 7, 8, 9, 10, 11] then
    let n := readDigits 0 (p.drop 1)
    let o := match planetNames.filter (fun nm => at? nm 0 == at? p 0) with
      | nm :: _ => nm ++ [32]
      | [] => []
    do
      let o ← appendRoman o n
      .ok (OBJ_DESIG_NATSAT_NUMBERED, o)
  else if strchr (bytes "MVEJSUNP") (at? p 8) ∧ digitsAt p [6, 7, 10, 11] ∧ spacesExactly p [0, 1, 2, 3]
      ∧ mutantHexCharToInt (at? p 9) ≥ 0 ∧ at? p 11 = 48 ∧ at? p 5 ≥ 72 ∧ at? p 5 ≤ 90 then
    let digit := (mutantHexCharToInt (at? p 9)).toNat
    let o := bytes "S/" ++ decInt (20 + (at? p 5 : Int) - 75) ++ [at? p 6, at? p 7, 32, at? p 8, 32]
    let o := if digit > 10 then o ++ [48 + digit / 10] else o
    let o := if digit ≠ 0 then o ++ [48 + digit % 10] else o
    .ok (OBJ_DESIG_NATSAT_PROVISIONAL, o ++ [at? p 10])
  else .ok (OBJ_DESIG_OTHER, [])

/-- Output for a numbered comet, /repo/unpack.cpp:286-311. -/
def cometNumberedOut (p : List Nat) : List Nat :=
  let rest := p.dropWhile (· == 48)
  let o := rest.take (digitCount rest) ++ [at? p 4]
  if isLower (at? p 11) then
    let o := o ++ [45]
    let o := if isLower (at? p 10) then o ++ [at? p 10 + 65 - 97] else o
    o ++ [at? p 11 + 65 - 97]
  else o

/-- The name "as is": leading spaces skipped, trailing spaces (and control characters) dropped,
    /repo/unpack.cpp:348-357. -/
def asIs (p : List Nat) : List Nat :=
  (((p.take 12).dropWhile (· == 32)).reverse.dropWhile (· ≤ 32)).reverse

/-- The part of `unpack_mpc_desig` from the check for provisional designations on,
    /repo/unpack.cpp:316-361. -/
def unpackRest (p : List Nat) (rval : Int) (o : List Nat) : Int × List Nat :=
  let tryProv : Bool := rval = OBJ_DESIG_OTHER ∧ spacesAt p [0, 1, 2, 3] ∧ strchr (bytes " PCDXA") (at? p 4)
  let pre := if tryProv ∧ at? p 4 ≠ 32 then [at? p 4, 47] else []
  let pr := unpackProv (p.drop 5)
  let (rval, o) :=
    if tryProv ∧ pr.rval = 0 then
      (if at? p 4 = 32 ∨ at? p 4 = 65 then OBJ_DESIG_ASTEROID_PROVISIONAL else OBJ_DESIG_COMET_PROVISIONAL,
       pre ++ pr.out.getD [])
    else (rval, o)
  let (rval, o) :=
    if rval = OBJ_DESIG_OTHER ∧ spacesExactly p [0, 1, 2, 3, 4] ∧ digitsAt p [8, 9, 10, 11] ∧ at? p 7 = 83
        ∧ ((at? p 5 = 80 ∧ at? p 6 = 76) ∨ (at? p 5 = 84 ∧ at? p 6 ≥ 49 ∧ at? p 6 ≤ 51)) then
      (OBJ_DESIG_ASTEROID_PROVISIONAL,
       [at? p 8, at? p 9, at? p 10, at? p 11, 32, at? p 5, 45, at? p 6])
    else (rval, o)
  let o := if rval = OBJ_DESIG_OTHER then pre ++ asIs p else o
  let rval := if rval = OBJ_DESIG_OTHER ∧ isArtsatDesig p then OBJ_DESIG_ARTSAT else rval
  (rval, o)

/-- `snprintf_append( o, size, ...)`: a failed assertion when the result does not fit. -/
def appendErr (size : Nat) (o s : List Nat) : Outcome (List Nat) :=
  if (o ++ s).length ≥ size then .abort else .ok (o ++ s)

/-- `unpack_mpc_desig( obuff, packed)` with non-NULL `obuff`, /repo/unpack.cpp:166-362: the code
    returned and the string stored. -/
def unpackMpcDesig (p : List Nat) : Outcome (Int × List Nat) :=
  if at? p 0 = 36 then                                                            -- '$'
    if (p.drop 1).length ≥ 16 then .abort else .ok (OBJ_DESIG_ASTEROID_NUMBERED, p.drop 1)
  else do
    let (rval, o) ← unpackNatsat p
    let prov := (unpackProv (p.drop 5)).out
    let num := getMutantHexValue (p.drop 1) 4
    if at? p 0 = 126 ∧ (spacesAt p [5, 6, 7, 8, 9] ∨ ¬ [5, 6, 7, 8, 9].any (fun i => at? p i == 32))
        ∧ num ≥ 0 then                                                            -- '~'
      let o := [40] ++ decInt (num + 620000) ++ [41]
      match prov with
      | none => .ub
      | some [] => .ok (OBJ_DESIG_ASTEROID_NUMBERED, o)
      | some pv => do
        let o ← appendErr 24 o (32 :: pv)
        .ok (OBJ_DESIG_ASTEROID_NUMBERED, o)
    else if isAlnum (at? p 0) ∧ digitsAt p [1, 2, 3] ∧ ¬ spacesAt p [5, 6, 7, 8, 9] ∧ prov = none then
      .ub                      -- reads the uninitialised `provisional_desig`
    else if isAlnum (at? p 0) ∧ digitsAt p [1, 2, 3]
        ∧ (spacesAt p [5, 6, 7, 8, 9] ∨ prov ≠ some []) ∧ isDigit (at? p 4) then
      let number := mutantHexCharToInt (at? p 0) * 10000 + readDigits 0 (p.drop 1)
      let o := [40] ++ decInt number ++ [41]
      match prov with
      | some (c :: cs) => do
        let o ← appendErr 23 o (bytes " = " ++ (c :: cs))
        .ok (unpackRest p OBJ_DESIG_ASTEROID_NUMBERED o)
      | _ => .ok (unpackRest p OBJ_DESIG_ASTEROID_NUMBERED o)
    else if isAlnum (at? p 0) ∧ digitsAt p [1, 2, 3]
        ∧ (spacesAt p [5, 6, 7, 8, 9] ∨ prov ≠ some []) ∧ strchr (bytes "PCDXAI") (at? p 4) then
      .ok (unpackRest p OBJ_DESIG_COMET_NUMBERED (cometNumberedOut p))
    else .ok (unpackRest p rval o)

/-- `unpack_unaligned_mpc_desig`, /repo/unpack.cpp:368-388.  (For words longer than twelve bytes the
    C code copies twelve bytes without a terminator; the output is then not a C string, `none`.) -/
def unpackUnaligned (s : List Nat) : Outcome (Int × Option (List Nat)) :=
  let w := (s.dropWhile (· == 32)).takeWhile (fun c => decide (c > 32) && decide (c < 127))
  if w.length > 12 then .ok (OBJ_DESIG_OTHER, none)
  else
    let column := if w.length = 7 ∨ w.length = 8 then 12 - w.length else 0
    let aligned := List.replicate column 32 ++ w ++ List.replicate (12 - column - w.length) 32
    match unpackMpcDesig aligned with
    | .ok (c, o) => .ok (c, some o)
    | .abort => .abort
    | .ub => .ub

end Verif.Desig
