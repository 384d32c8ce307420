import Mathlib.Analysis.SpecialFunctions.Trigonometric.Basic
import Verif.Spec.Decimal

/-!
# Spec: sums in the reports on cartographic coordinates

An angle is a constant, plus terms in days and in centuries from 2000, and sines and cosines of other angles, all in degrees.
-/

namespace Verif.Spec.Orientation

/-- What a coefficient is multiplied by. -/
inductive Kind
  | days
  | days2
  | centuries
  | centuries2
  | sine (multiple index : Nat)
  | cosine (multiple index : Nat)

structure Term where
  minus : Bool
  size : ℝ
  kind : Kind

def Term.coefficient (t : Term) : ℝ := if t.minus then -t.size else t.size

/-- The value of a term `d` days after 2000, with `angle` giving the arguments in degrees. -/
noncomputable def Term.value (d : ℝ) (angle : Nat → ℝ) (t : Term) : ℝ :=
  match t.kind with
  | .days => t.coefficient * d
  | .days2 => t.coefficient * d ^ 2
  | .centuries => t.coefficient * (d / 36525)
  | .centuries2 => t.coefficient * (d / 36525) ^ 2
  | .sine m n => t.coefficient * Real.sin (m * angle n * (Real.pi / 180))
  | .cosine m n => t.coefficient * Real.cos (m * angle n * (Real.pi / 180))

noncomputable def total (d : ℝ) (angle : Nat → ℝ) (c : ℝ) (ts : List Term) : ℝ := c + (ts.map (Term.value d angle)).sum

/-- The term says that the angle goes down. -/
def Term.Falls (t : Term) : Prop := (t.kind = .days ∨ t.kind = .centuries) ∧ t.coefficient < 0

/-- The angles that a term needs. -/
def Term.Needs (t : Term) (n : Nat) : Prop := ∃ m, t.kind = .sine m n ∨ t.kind = .cosine m n

/-! ## As texts -/

/-- The multiple of an angle: nothing for 1. -/
inductive MultipleText : Nat → List Nat → Prop
  | one : MultipleText 1 []
  | digit (m : Nat) (h : 1 ≤ m) (h' : m ≤ 9) : MultipleText m [48 + m]

/-- The text after a coefficient, where angles have a letter of the planet: `d`, `d2`, `T`, `T2`, `sinJ3`, `cos2J3`. -/
inductive KindText (letter : Nat) : Kind → List Nat → Prop
  | days : KindText letter .days [100]
  | days2 : KindText letter .days2 [100, 50]
  | centuries : KindText letter .centuries [84]
  | centuries2 : KindText letter .centuries2 [84, 50]
  | sine {m : Nat} {ms ds : List Nat} (hm : MultipleText m ms) (hd : AllDigits ds) (hne : ds ≠ []) :
      KindText letter (.sine m (value ds)) ([115, 105, 110] ++ ms ++ letter :: ds)
  | cosine {m : Nat} {ms ds : List Nat} (hm : MultipleText m ms) (hd : AllDigits ds) (hne : ds ≠ []) :
      KindText letter (.cosine m (value ds)) ([99, 111, 115] ++ ms ++ letter :: ds)

/-- A number without sign: digits, perhaps decimals, perhaps a power of ten. -/
inductive NumberText : List Nat → ℝ → Prop
  | whole {ds : List Nat} (hd : AllDigits ds) (hne : ds ≠ []) : NumberText ds (value ds)
  | decimal {ds fs : List Nat} (hd : AllDigits ds) (hf : AllDigits fs) (hne : ds ≠ [] ∨ fs ≠ []) :
      NumberText (ds ++ 46 :: fs) (value ds + value fs / 10 ^ fs.length)
  | small {ds fs es : List Nat} (hd : AllDigits ds) (hf : AllDigits fs) (hne : ds ≠ [] ∨ fs ≠ []) (he : AllDigits es) (hene : es ≠ []) :
      NumberText (ds ++ 46 :: fs ++ 101 :: 45 :: es) ((value ds + value fs / 10 ^ fs.length) / 10 ^ value es)

def signByte (minus : Bool) : Nat := if minus then 45 else 43

inductive TermText (letter : Nat) : Term → List Nat → Prop
  | mk {minus : Bool} {x : ℝ} {k : Kind} {t u : List Nat} (ht : NumberText t x) (hk : KindText letter k u) :
      TermText letter ⟨minus, x, k⟩ (signByte minus :: (t ++ u))

inductive TermsText (letter : Nat) : List Term → List Nat → Prop
  | nil : TermsText letter [] []
  | cons {t : Term} {ts : List Term} {u us : List Nat} (h : TermText letter t u) (hs : TermsText letter ts us) : TermsText letter (t :: ts) (u ++ us)

/-- The constant, without exponent: with or without a minus. -/
inductive ConstantText : ℝ → List Nat → Prop
  | plus {x : ℝ} {t : List Nat} (h : NumberText t x) (hs : ∀ c ∈ t, c ≠ 45) : ConstantText x t
  | minus {x : ℝ} {t : List Nat} (h : NumberText t x) (hs : ∀ c ∈ t, c ≠ 45) : ConstantText (-x) (45 :: t)

/-- A line: a name, `=`, the constant and the terms. -/
inductive SumText (letter : Nat) : ℝ → List Term → List Nat → Prop
  | mk {c : ℝ} {ts : List Term} {name t u : List Nat} (hn : 61 ∉ name) (hc : ConstantText c t) (ht : TermsText letter ts u) :
      SumText letter c ts (name ++ 61 :: (t ++ u))

/-- The line of an angle: constant and rate, per day or per century. -/
inductive AngleText (d : ℝ) : ℝ → List Nat → Prop
  | days {c x : ℝ} {minus : Bool} {name t u more : List Nat} (hn : 61 ∉ name) (hc : ConstantText c t) (hx : NumberText u x) :
      AngleText d (c + (if minus then -x else x) * d) (name ++ 61 :: (t ++ signByte minus :: (u ++ 100 :: more)))
  | centuries {c x : ℝ} {minus : Bool} {name t u more : List Nat} (hn : 61 ∉ name) (hc : ConstantText c t) (hx : NumberText u x) :
      AngleText d (c + (if minus then -x else x) * (d / 36525)) (name ++ 61 :: (t ++ signByte minus :: (u ++ 84 :: more)))

end Verif.Spec.Orientation
