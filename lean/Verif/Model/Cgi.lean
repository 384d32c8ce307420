/-!
# Model of the URL-encoded form reader, /repo/cgi_func.cpp:108-155

A C string is the list of its bytes before the terminating NUL, and the pointer into it is what is left of the
list; reading at the end gives 0.  `char` is signed, as on the platforms the makefiles are written for, so that
`c > 13` holds for the bytes 14 to 127.  `size_t` has 64 bits.  The output buffer is the list of bytes stored
from its start.
-/

namespace Verif.Cgi

/-- `*tptr`. -/
def peek : List Nat → Nat
  | [] => 0
  | c :: _ => c

/-- `c > 13` for a signed `char`, /repo/cgi_func.cpp:115. -/
def goesOn (c : Nat) : Bool := decide (13 < c ∧ c < 128)

/-- One hexadecimal digit, /repo/cgi_func.cpp:128-133; only capitals. -/
def hexDigit (c : Nat) : Option Nat :=
  if 48 ≤ c ∧ c ≤ 57 then some (c - 48)
  else if 65 ≤ c ∧ c ≤ 70 then some (c - 65 + 10)
  else none

/-- Result of `get_urlencoded_piece`: `fail` is the return of -1, with the bytes stored so far and no
    terminating NUL; `done` has the value returned, the bytes stored including the NUL, and the new `*idata`. -/
inductive Piece where
  | fail (stored : List Nat)
  | done (c : Nat) (stored : List Nat) (rest : List Nat)
  deriving DecidableEq

/-- Bytes that were stored. -/
def Piece.stored : Piece → List Nat
  | .fail s => s
  | .done _ s _ => s

/-- After the loop, /repo/cgi_func.cpp:138-142; `tptr` is before the byte `c` was read. -/
def stop (endChar : Nat) (tptr : List Nat) (buff : List Nat) : Piece :=
  .done (peek tptr) (buff ++ [0]) (if peek tptr ≠ endChar then tptr else tptr.tail)

/-- The byte to store and the pointer after it, /repo/cgi_func.cpp:117-135, for a byte `c` already read;
    `none` is the return of -1.  The NUL is not a hexadecimal digit, so that reading never goes past it. -/
def decode (c : Nat) (t : List Nat) : Option (Nat × List Nat) :=
  if c = 43 then some (32, t)
  else if c = 37 then
    match hexDigit (peek t), hexDigit (peek t.tail) with
    | some x, some y => some (x * 16 + y, t.tail.tail)
    | _, _ => none
  else some (c, t)

/-- The loop of `get_urlencoded_piece`, /repo/cgi_func.cpp:115-142, with `max_buff` as already decremented
    and the bytes stored so far.  Each round uses up one of `max_buff`. -/
def loop (endChar : Nat) : Nat → List Nat → List Nat → Piece
  | 0, tptr, buff => stop endChar tptr buff
  | maxBuff + 1, tptr, buff =>
    if goesOn (peek tptr) = true ∧ peek tptr ≠ endChar then
      match decode (peek tptr) tptr.tail with
      | none => .fail buff
      | some (b, t) => loop endChar maxBuff t (buff ++ [b])
    else stop endChar tptr buff

/-- `max_buff--`, /repo/cgi_func.cpp:114, wrapping at zero. -/
def decr (n : Nat) : Nat := if n = 0 then 2 ^ 64 - 1 else n - 1

/-- `get_urlencoded_piece`, /repo/cgi_func.cpp:108-143. -/
def piece (idata : List Nat) (maxBuff endChar : Nat) : Piece := loop endChar (decr maxBuff) idata []

/-- Result of `get_urlencoded_form_data`: the value returned, bytes stored in `field` and in `buff`, and the
    new `*idata`. -/
structure Form where
  rval : Int
  field : List Nat
  buff : List Nat
  rest : List Nat
  deriving DecidableEq

/-- `get_urlencoded_form_data`, /repo/cgi_func.cpp:145-155.  If the second piece fails, -1 is neither '&' nor
    above 13 and the result is 0. -/
def formData (idata : List Nat) (maxField maxBuff : Nat) : Form :=
  match piece idata maxField 61 with
  | .fail s => ⟨-1, s, [], idata⟩
  | .done c s r =>
    if c ≠ 61 then ⟨-1, s, [], r⟩
    else
      match piece r maxBuff 38 with
      | .fail s' => ⟨0, s, s', r⟩
      | .done c' s' r' => ⟨if c' ≠ 38 ∧ goesOn c' = true then 1 else 0, s, s', r'⟩

/-- A caller's loop, as in /repo/cgi_func.cpp:277-303 and the programs which use it: read fields as long as
    the result is zero, at most `n` of them. -/
def readAll (maxField maxBuff : Nat) : Nat → List Nat → List (List Nat × List Nat)
  | 0, _ => []
  | n + 1, idata =>
    let f := formData idata maxField maxBuff
    if f.rval = 0 then (f.field, f.buff) :: readAll maxField maxBuff n f.rest else []

end Verif.Cgi
