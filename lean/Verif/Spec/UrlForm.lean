/-!
# Specification: application/x-www-form-urlencoded text

`Encodes stop raw text`: `text` is one of the ways of writing the bytes `raw` in a piece ended by the byte
`stop`.  A space may be a plus sign; any byte may be a percent sign and two capital hexadecimal digits; printing
characters other than `+`, `%` and `stop` may stand for themselves.
-/

namespace Verif.UrlForm

/-- Capital hexadecimal digit. -/
def hex (d : Nat) : Nat := if d < 10 then 48 + d else 55 + d

/-- The ways of writing a byte string. -/
inductive Encodes (stop : Nat) : List Nat → List Nat → Prop
  | nil : Encodes stop [] []
  | plain (b : Nat) (raw text : List Nat) (lo : 14 ≤ b) (hi : b ≤ 127) (h1 : b ≠ stop) (h2 : b ≠ 43) (h3 : b ≠ 37)
      (h : Encodes stop raw text) : Encodes stop (b :: raw) (b :: text)
  | plus (raw text : List Nat) (h : Encodes stop raw text) : Encodes stop (32 :: raw) (43 :: text)
  | percent (b : Nat) (raw text : List Nat) (hb : b < 256) (h : Encodes stop raw text) :
      Encodes stop (b :: raw) (37 :: hex (b / 16) :: hex (b % 16) :: text)

/-- The usual encoder: letters, digits and `*-._` stand for themselves, spaces become plus signs, and all
    other bytes are escaped. -/
def encode : List Nat → List Nat
  | [] => []
  | b :: raw =>
    if (48 ≤ b ∧ b ≤ 57) ∨ (65 ≤ b ∧ b ≤ 90) ∨ (97 ≤ b ∧ b ≤ 122) ∨ b = 42 ∨ b = 45 ∨ b = 46 ∨ b = 95 then b :: encode raw
    else if b = 32 then 43 :: encode raw
    else 37 :: hex (b / 16) :: hex (b % 16) :: encode raw

/-- A form: fields joined by ampersands, each a name, an equals sign and a value. -/
inductive EncodesForm : List (List Nat × List Nat) → List Nat → Prop
  | one (name value tn tv : List Nat) (h1 : Encodes 61 name tn) (h2 : Encodes 38 value tv) :
      EncodesForm [(name, value)] (tn ++ 61 :: tv)
  | more (name value tn tv : List Nat) (h1 : Encodes 61 name tn) (h2 : Encodes 38 value tv)
      (fields : List (List Nat × List Nat)) (text : List Nat) (h : EncodesForm fields text) :
      EncodesForm ((name, value) :: fields) (tn ++ 61 :: (tv ++ 38 :: text))

end Verif.UrlForm
