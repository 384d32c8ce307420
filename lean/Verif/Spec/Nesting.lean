/-!
# Nested elements

A document is a sequence of tokens.  Elements are known by a code; the innermost open element comes first in the stack.
-/

namespace Verif.Spec

/-- A token: an opening or closing tag of a known element, some text, or a tag that is not known. -/
inductive Tok where
  | opn (t : Int)
  | cls (t : Int)
  | text
  | other
  deriving DecidableEq

/-- `Nest room s ts s'`: reading `ts` with the elements `s` open leaves `s'` open.  A closing tag closes the innermost
    element, text stands inside some element, and never more than `room` elements are open. -/
inductive Nest (room : Nat) : List Int → List Tok → List Int → Prop where
  | nil (s) : Nest room s [] s
  | opn {t s ts s'} : s.length < room → Nest room (t :: s) ts s' → Nest room s (.opn t :: ts) s'
  | cls {t s ts s'} : Nest room s ts s' → Nest room (t :: s) (.cls t :: ts) s'
  | text {s ts s'} : s ≠ [] → Nest room s ts s' → Nest room s (.text :: ts) s'
  | other {s ts s'} : Nest room s ts s' → Nest room s (.other :: ts) s'

/-- Contents of an element, `h` bounding how deep elements go. -/
inductive Balanced : Nat → List Tok → Prop where
  | nil (h) : Balanced h []
  | text {h ts} : Balanced h ts → Balanced h (.text :: ts)
  | other {h ts} : Balanced h ts → Balanced h (.other :: ts)
  | elem {h t us ts} : Balanced h us → Balanced (h + 1) ts → Balanced (h + 1) (.opn t :: (us ++ .cls t :: ts))

end Verif.Spec
