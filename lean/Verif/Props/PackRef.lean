import Verif.Model.PackRef
import Verif.Lemmas.Decimal
import Verif.Props.MutantHex

/-!
# Property theorems: packed references (C45)
-/

namespace Verif.Props

open Verif Verif.Desig Verif.Ades Verif.Spec

/-- A reference: an electronic circular (half-month letter and number; the year is in the text but not in the
    code), a Minor Planet Supplement page, or a Minor Planet Circular page. -/
inductive Ref where
  | mpec (letter n : Nat)
  | mps (n : Nat)
  | mpc (n : Nat)

/-- `text` is the usual way of writing a reference which has a code. -/
def Ref.Written : Ref → List Nat → Prop
  | .mpec letter n, text => 65 ≤ letter ∧ letter ≤ 90 ∧ n < 1000 ∧
      ∃ year num, Padded 4 year num ∧ ∃ digits, Numeral n digits ∧ text = bytes "MPEC " ++ num ++ [45, letter] ++ digits
  | .mps n, text => n < 260000 + 62 ^ 4 ∧ ∃ digits, Numeral n digits ∧ text = bytes "MPS " ++ digits
  | .mpc n, text => n < 110000 + 62 ^ 4 ∧ ∃ digits, Numeral n digits ∧ text = bytes "MPC " ++ digits

/-- The code of a Minor Planet Supplement page. -/
def mpsCode (n : Nat) : List Nat :=
  if n < 260000 then (97 + n / 10000) :: pad 4 (n % 10000) else 126 :: (encodeMutantHex 4 (n - 260000 : Nat)).1

/-- The code of a Minor Planet Circular page. -/
def mpcCode (n : Nat) : List Nat :=
  if n < 100000 then pad 5 n else if n < 110000 then 64 :: pad 4 (n - 100000) else 35 :: (encodeMutantHex 4 (n - 110000 : Nat)).1

/-- The code of a reference. -/
def Ref.code : Ref → List Nat
  | .mpec letter n => 69 :: letter :: pad 3 n
  | .mps n => mpsCode n
  | .mpc n => mpcCode n

theorem mps_lo {n : Nat} (c : n < 260000) : (Ref.mps n).code = (97 + n / 10000) :: pad 4 (n % 10000) := if_pos c
theorem mps_hi {n : Nat} (c : ¬ n < 260000) : (Ref.mps n).code = 126 :: (encodeMutantHex 4 (n - 260000 : Nat)).1 := if_neg c
theorem mpc_lo {n : Nat} (c : n < 100000) : (Ref.mpc n).code = pad 5 n := if_pos c
theorem mpc_mid {n : Nat} (c : ¬ n < 100000) (c' : n < 110000) : (Ref.mpc n).code = 64 :: pad 4 (n - 100000) :=
  (if_neg c).trans (if_pos c')
theorem mpc_hi {n : Nat} (c' : ¬ n < 110000) : (Ref.mpc n).code = 35 :: (encodeMutantHex 4 (n - 110000 : Nat)).1 :=
  (if_neg (by omega)).trans (if_neg c')

theorem ref_atoi_dec (n : Nat) : atoi (dec n) = n := by
  have hd := dec_digits n
  have hne := dec_ne_nil n
  have hr := readDigits_dec n
  cases h : dec n with
  | nil => exact absurd h hne
  | cons c cs =>
    have hc := hd c (by rw [h]; simp)
    rw [h] at hr
    unfold atoi
    rw [if_neg, if_neg (by omega), if_neg (by omega), hr]
    simp [isSpace]; omega

/-- **C45.** What each kind of reference is packed to. -/
theorem C45_packs (r : Ref) (text : List Nat) (h : r.Written text) : packMpcReference text = some r.code := by
  cases r with
  | mpec letter n =>
    obtain ⟨h1, h2, h3, year, num, hy, digits, hn, rfl⟩ := h
    have hnum := hy.width
    rw [hn.eq_dec]
    match num, hnum with
    | [y1, y2, y3, y4], _ =>
      have hl : 0 < (dec n).length ∧ (dec n).length ≤ 3 := ⟨dec_length_pos n, dec_length_le (k := 2) (by omega)⟩
      have e5 : bytes "MPEC " = [77, 80, 69, 67, 32] := rfl
      unfold packMpcReference
      simp only [e5, List.cons_append, List.nil_append, List.length_cons]
      rw [if_pos ⟨by omega, by omega, rfl, rfl⟩]
      have hdrop : List.drop 11 (77 :: 80 :: 69 :: 67 :: 32 :: y1 :: y2 :: y3 :: y4 :: 45 :: letter :: dec n) = dec n := rfl
      have hat : at? (77 :: 80 :: 69 :: 67 :: 32 :: y1 :: y2 :: y3 :: y4 :: 45 :: letter :: dec n) 10 = letter := rfl
      rw [hdrop, hat]
      have hc : (Ref.mpec letter n).code = 69 :: letter :: (List.replicate (3 - (dec n).length) 48 ++ dec n) := rfl
      rw [hc]
      by_cases c1 : n < 10
      · rw [dec1 c1]; rfl
      · by_cases c2 : n < 100
        · rw [dec2 (by omega) c2]; rfl
        · rw [dec3 (by omega) h3]; rfl
  | mps n =>
    obtain ⟨h1, digits, hn, rfl⟩ := h
    rw [hn.eq_dec]
    have e5 : bytes "MPS " = [77, 80, 83, 32] := rfl
    unfold packMpcReference
    simp only [e5, List.cons_append, List.nil_append]
    rw [if_neg (by rintro ⟨-, -, h, -⟩; cases h), if_pos (by rfl)]
    have hdrop : List.drop 4 (77 :: 80 :: 83 :: 32 :: dec n) = dec n := rfl
    rw [hdrop, ref_atoi_dec, Int.toNat_natCast]
    by_cases c : n < 260000
    · rw [if_pos c, mps_lo c]
    · rw [if_neg c, mps_hi c, Int.ofNat_sub (by omega)]; rfl
  | mpc n =>
    obtain ⟨h1, digits, hn, rfl⟩ := h
    rw [hn.eq_dec]
    have e5 : bytes "MPC " = [77, 80, 67, 32] := rfl
    unfold packMpcReference
    simp only [e5, List.cons_append, List.nil_append]
    rw [if_neg (by rintro ⟨-, -, h, -⟩; cases h), if_neg (by intro h; cases h), if_pos (by rfl)]
    have hdrop : List.drop 4 (77 :: 80 :: 67 :: 32 :: dec n) = dec n := rfl
    rw [hdrop, ref_atoi_dec, Int.toNat_natCast]
    by_cases c1 : n < 100000
    · rw [if_pos (by omega), if_pos c1, mpc_lo c1, Nat.mod_eq_of_lt c1]
    · by_cases c2 : n < 110000
      · rw [if_pos c2, if_neg c1, mpc_mid c1 c2]
        have : n % 100000 = n - 100000 := by omega
        rw [this]
      · rw [if_neg c2, mpc_hi c2, Int.ofNat_sub (by omega)]; rfl

/-- What can be decoded. -/
def Ref.InRange : Ref → Prop
  | .mpec _ n => n < 1000
  | .mps n => n < 260000 + 62 ^ 4
  | .mpc n => n < 110000 + 62 ^ 4

theorem pad_inj {w n m : Nat} (hn : n < 10 ^ w) (hm : m < 10 ^ w) (hw : 0 < w) (h : pad w n = pad w m) : n = m := by
  have a := (padded_pad hn hw).value
  have b := (padded_pad hm hw).value
  rw [h] at a
  omega

theorem encode_inj {n m : Nat} (hn : n < 62 ^ 4) (hm : m < 62 ^ 4) (h : (encodeMutantHex 4 n).1 = (encodeMutantHex 4 m).1) : n = m := by
  have a := (encode_decode 4 n (by omega)).2
  have b := (encode_decode 4 m (by omega)).2
  rw [h] at a
  rw [Int.emod_eq_of_lt (by omega) (by omega)] at a b
  omega

theorem pad5_digit (n : Nat) (hn : n < 100000) : ∃ d t, pad 5 n = d :: t ∧ 48 ≤ d ∧ d ≤ 57 := by
  have p := padded_pad (w := 5) (n := n) (by omega) (by omega)
  cases h : pad 5 n with
  | nil => have := p.width; rw [h] at this; simp at this
  | cons d t => exact ⟨d, t, rfl, p.digits d (by rw [h]; simp)⟩

/-- **C45.** Two references, of whatever kinds, with the same code are the same (but for the year of an
    electronic circular). -/
theorem C45_injective (r r' : Ref) (h : r.InRange) (h' : r'.InRange) (e : r.code = r'.code) : r = r' := by
  have first : ∀ r : Ref, r.InRange → ∃ d t, r.code = d :: t ∧
      (match r with
        | .mpec _ _ => d = 69
        | .mps n => (n < 260000 ∧ d = 97 + n / 10000) ∨ (260000 ≤ n ∧ d = 126)
        | .mpc n => (n < 100000 ∧ 48 ≤ d ∧ d ≤ 57) ∨ (100000 ≤ n ∧ n < 110000 ∧ d = 64) ∨ (110000 ≤ n ∧ d = 35)) := by
    intro r hr
    cases r with
    | mpec l n => exact ⟨_, _, rfl, rfl⟩
    | mps n =>
      by_cases c : n < 260000
      · refine ⟨_, _, mps_lo c, Or.inl ⟨c, rfl⟩⟩
      · refine ⟨_, _, mps_hi c, Or.inr ⟨by omega, rfl⟩⟩
    | mpc n =>
      by_cases c : n < 100000
      · obtain ⟨d, t, hd, h1, h2⟩ := pad5_digit n c
        refine ⟨d, t, (mpc_lo c).trans hd, Or.inl ⟨c, h1, h2⟩⟩
      · by_cases c' : n < 110000
        · refine ⟨_, _, mpc_mid c c', Or.inr (Or.inl ⟨by omega, c', rfl⟩)⟩
        · refine ⟨_, _, mpc_hi c', Or.inr (Or.inr ⟨by omega, rfl⟩)⟩
  obtain ⟨d, t, hd, c⟩ := first r h
  obtain ⟨d', t', hd', c'⟩ := first r' h'
  rw [hd, hd'] at e
  injection e with e1 e2
  subst e1
  cases r with
  | mpec l n =>
    cases r' with
    | mpec l' n' =>
      simp only [Ref.code] at hd hd'
      injection hd with _ hd; injection hd' with _ hd'
      rw [e2, ← hd'] at hd
      injection hd with g1 g2
      rw [g1, pad_inj (w := 3) h h' (by omega) g2]
    | mps n' => simp only [Ref.InRange] at h'; simp only at c c'; omega
    | mpc n' => simp only at c c'; omega
  | mps n =>
    cases r' with
    | mpec l' n' => simp only [Ref.InRange] at h; simp only at c c'; omega
    | mps n' =>
      simp only [Ref.InRange] at h h'
      simp only at c c'
      rcases c with ⟨k1, k2⟩ | ⟨k1, k2⟩ <;> rcases c' with ⟨k1', k2'⟩ | ⟨k1', k2'⟩ <;> try omega
      · rw [mps_lo k1] at hd; rw [mps_lo k1'] at hd'
        injection hd with _ hd; injection hd' with _ hd'
        have := pad_inj (w := 4) (Nat.mod_lt _ (by omega)) (Nat.mod_lt _ (by omega)) (by omega) (by rw [hd, hd', e2] : pad 4 (n % 10000) = pad 4 (n' % 10000))
        rw [show n = n' by omega]
      · rw [mps_hi (by omega)] at hd; rw [mps_hi (by omega)] at hd'
        injection hd with _ hd; injection hd' with _ hd'
        have := encode_inj (n := n - 260000) (m := n' - 260000) (by omega) (by omega) (by rw [hd, hd', e2])
        rw [show n = n' by omega]
    | mpc n' => simp only [Ref.InRange] at h h'; simp only at c c'; omega
  | mpc n =>
    cases r' with
    | mpec l' n' => simp only at c c'; omega
    | mps n' => simp only [Ref.InRange] at h h'; simp only at c c'; omega
    | mpc n' =>
      simp only [Ref.InRange] at h h'
      simp only at c c'
      rcases c with ⟨k1, k2⟩ | ⟨k1, k3, k2⟩ | ⟨k1, k2⟩ <;> rcases c' with ⟨k1', k2'⟩ | ⟨k1', k3', k2'⟩ | ⟨k1', k2'⟩ <;> try omega
      · rw [mpc_lo k1] at hd; rw [mpc_lo k1'] at hd'
        have := pad_inj (w := 5) (n := n) (m := n') (by omega) (by omega) (by omega) (by rw [hd, hd', e2])
        rw [this]
      · rw [mpc_mid (by omega) k3] at hd; rw [mpc_mid (by omega) k3'] at hd'
        have hd := (List.cons.inj hd).2
        have hd' := (List.cons.inj hd').2
        have := pad_inj (w := 4) (n := n - 100000) (m := n' - 100000) (by omega) (by omega) (by omega) (by rw [hd, hd', e2])
        rw [show n = n' by omega]
      · rw [mpc_hi (by omega)] at hd; rw [mpc_hi (by omega)] at hd'
        injection hd with _ hd; injection hd' with _ hd'
        have := encode_inj (n := n - 110000) (m := n' - 110000) (by omega) (by omega) (by rw [hd, hd', e2])
        rw [show n = n' by omega]

/-- **C45.** Every code has five bytes. -/
theorem C45_five (r : Ref) (h : r.InRange) : r.code.length = 5 := by
  cases r with
  | mpec l n => simp only [Ref.code, List.length_cons]; rw [(padded_pad (w := 3) h (by omega)).width]
  | mps n =>
    by_cases c : n < 260000
    · rw [mps_lo c, List.length_cons, (padded_pad (w := 4) (n := n % 10000) (by omega) (by omega)).width]
    · rw [mps_hi c, List.length_cons, encode_length]
  | mpc n =>
    by_cases c : n < 100000
    · rw [mpc_lo c, (padded_pad (w := 5) (n := n) (by omega) (by omega)).width]
    · by_cases c' : n < 110000
      · rw [mpc_mid c c', List.length_cons, (padded_pad (w := 4) (n := n - 100000) (by omega) (by omega)).width]
      · rw [mpc_hi c', List.length_cons, encode_length]

/-- **C45.** Finding: the year of an electronic circular is lost, and page numbers from 260000 + 62^4 on (MPS)
    start again from the first code. -/
theorem C45_collisions :
    packMpcReference (bytes "MPEC 2020-D85") = packMpcReference (bytes "MPEC 2021-D85") ∧
    packMpcReference (bytes "MPS 260000") = packMpcReference (bytes "MPS 15036336") := by decide +kernel

/-- **C45.** Finding: the number of an electronic circular is not checked to be one. -/
theorem C45_unchecked : packMpcReference (bytes "MPEC 20x1-?#!") = some (bytes "E?0#!") := by decide +kernel

example : packMpcReference (bytes "MPEC 2021-D85") = some (bytes "ED085") := by decide +kernel
example : (Ref.mpec 68 85).Written (bytes "MPEC 2021-D85") :=
  ⟨by decide, by decide, by decide, 2021, bytes "2021", ⟨by unfold AllDigits; decide, by decide, by decide⟩, bytes "85",
    ⟨by decide, by unfold AllDigits; decide, by decide, by decide⟩, by decide⟩
example : packMpcReference (bytes "MPC 105123") = some (bytes "@5123") := by decide +kernel

/-- **C45.** A reference that begins with an exclamation mark is stored as it is, cut or filled with blanks to five bytes. -/
theorem C45_other (ref : List Nat) :
    packMpcReference (33 :: ref) = some (33 :: (ref.take 4 ++ List.replicate (4 - ref.length) 32)) := by
  unfold packMpcReference
  have s1 : startsWith (bytes "MPEC ") (33 :: ref) = false := by simp [startsWith, bytes]; try decide
  have s2 : startsWith (bytes "MPS ") (33 :: ref) = false := by simp [startsWith, bytes]; try decide
  have s3 : startsWith (bytes "MPC ") (33 :: ref) = false := by simp [startsWith, bytes]; try decide
  simp only [s1, s2, s3]
  rw [if_neg (by simp), if_neg (by simp), if_neg (by simp), if_pos (by simp [at?])]
  rw [List.cons_append, List.take_succ_cons, List.take_append]
  congr 3
  rw [List.take_replicate]
  congr 1
  omega

end Verif.Props
