import Verif.Model.Bytes

/-!
# Specification: multipart/form-data

A form is a boundary line followed by parts.  A part is a line with its name, possibly the name of a file and further
lines of header, an empty line, the value and another boundary line.
-/

namespace Verif.MultipartSpec

/-- End of line. -/
def crlf : List Nat := [13, 10]

/-- A part of a form. -/
structure Part where
  name : List Nat
  file : Option (List Nat)
  /-- Further lines of the header, such as the type of the content. -/
  more : List (List Nat)
  value : List Nat

/-- The line with the name. -/
def Part.disposition (p : Part) : List Nat :=
  bytes "Content-Disposition: form-data; name=\"" ++ (p.name ++ (34 :: (match p.file with
    | none => crlf
    | some f => bytes "; filename=\"" ++ (f ++ (34 :: crlf)))))

/-- The part up to the line with the boundary. -/
def Part.text (p : Part) : List Nat :=
  p.disposition ++ (p.more.flatMap (· ++ crlf) ++ (crlf ++ (p.value ++ crlf)))

/-- No line of `s` begins with `b`. -/
def NoLine (b s : List Nat) : Prop := ∀ a t, s = a ++ t → a = [] ∨ a.getLast? = some 10 → ¬ b <+: t

/-- A form: the parts and, after each, the line with the boundary.  After the last one that line
    ends in two dashes. -/
inductive Form (b : List Nat) : List Part → List Nat → Prop
  | last {p : Part} : Form b [p] (p.text ++ (b ++ (bytes "--" ++ crlf)))
  | cons {p : Part} {rest : List Nat} {ps : List Part} : Form b ps rest → Form b (p :: ps) (p.text ++ (b ++ (crlf ++ rest)))

end Verif.MultipartSpec
