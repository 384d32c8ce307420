import Verif.Props.Provisional

/-! # Comet designations (C51, C52) -/

namespace Verif.Props
open Verif.Desig Verif.Spec

/-- Comet prefix letters accepted by both packer and unpacker. -/
def CometLetter (x : Nat) : Prop := x = 80 ∨ x = 67 ∨ x = 88 ∨ x = 68 ∨ x = 65

/-- Order letter: absent (0) or a capital. -/
def orderLetter (m : Nat) : List Nat := if m = 0 then [] else [m]

/-- Fragment: absent (0) or `-A`. -/
def fragment (f : Nat) : List Nat := if f = 0 then [] else [45, f]

/-- `s` spells a provisional comet designation: prefix, year, half-month letter, optional order letter,
    subscript, optional fragment: `C/1995 O1`, `P/1999 AB12`, `C/2018 F4-A`. -/
def CometProv (x y l m k f : Nat) (s : List Nat) : Prop :=
  ∃ ys ks, Padded 4 y ys ∧ Subscript k ks ∧ s = [x, 47] ++ ys ++ [32, l] ++ orderLetter m ++ ks ++ fragment f

theorem trimLen_last (s : List Nat) (h : ∀ c ∈ s, c ≠ 32) (p : List Nat) (hp : s ≠ []) :
    trimLen (p ++ s) (p ++ s).length = (p ++ s).length := by
  rcases List.eq_nil_or_concat s with rfl | ⟨t, x, rfl⟩
  · exact absurd rfl hp
  · rw [List.concat_eq_append] at *
    rw [← List.append_assoc]
    exact trimLen_full _ _ (h x (by simp))

theorem packProv_comet {a b c d l m x y f : Nat} {ks : List Nat} (hl : 65 ≤ l ∧ l ≤ 90)
    (hm : m = 0 ∨ (65 ≤ m ∧ m ≤ 90)) (hf : f = 0 ∨ (65 ≤ f ∧ f ≤ 90)) (hx : CometLetter x)
    (hk : Digits ks) (hy : y < 6200) (hn : readDigits 0 ks < 620) :
    packProvisional (a :: b :: c :: d :: 32 :: l :: (orderLetter m ++ ks ++ fragment f)) 5
      (6 + (orderLetter m ++ ks ++ fragment f).length) y x =
      (0, [32, 32, 32, 32, x, intToMutantHexChar (y / 100 : Nat), c, d, l,
        intToMutantHexChar (readDigits 0 ks / 10 : Nat), intToMutantHexChar (readDigits 0 ks % 10 : Nat),
        if f = 0 then (if m = 0 then 48 else m) else f + 32]) := by
  have hlow : isLower l = false := by rw [isLower_false]; omega
  have hx0 : x ≠ 0 := by unfold CometLetter at hx; omega
  have hfd : isDigit (at? (fragment f) 0) = false := by
    unfold fragment; split
    · decide
    · rw [at_zero]; decide
  have hdc : digitCount (ks ++ fragment f) = ks.length := by
    rw [digitCount_append _ _ hk, digitCount_stop _ hfd]; omega
  have hrd : readDigits 0 (ks ++ fragment f) = readDigits 0 ks := by
    rw [readDigits_append _ _ _ hk, readDigits_stop _ _ hfd]
  have hu : isUpper (at? (ks ++ fragment f) 0) = false := by
    cases ks with
    | nil =>
      rw [List.nil_append]
      unfold fragment; split
      · decide
      · rw [at_zero]; decide
    | cons c ks =>
      have := hk c (by simp)
      rw [List.cons_append, at_zero, isUpper_false]; omega
  have hat : at? (ks ++ fragment f) ks.length = at? (fragment f) 0 := at_append_length _ _
  have hat1 : at? (ks ++ fragment f) (ks.length + 1) = at? (fragment f) 1 := at_append_right _ _ 1
  rcases hm with rfl | hm
  · have a6 : ∀ i, at? (a :: b :: c :: d :: 32 :: l :: (ks ++ fragment f)) (6 + i) = at? (ks ++ fragment f) i := by
      intro i
      exact at_append_right [a, b, c, d, 32, l] (ks ++ fragment f) i
    have d6 : (a :: b :: c :: d :: 32 :: l :: (ks ++ fragment f)).drop 6 = ks ++ fragment f := rfl
    simp only [orderLetter, if_true, List.nil_append]
    unfold packProvisional
    have u0 : isUpper (at? (a :: b :: c :: d :: 32 :: l :: (ks ++ fragment f)) (5 + 1)) = false := by
      rw [show 5 + 1 = 6 + 0 from rfl, a6]; exact hu
    simp only [u0, Bool.false_eq_true, if_false, hx0, (show (5 + 1) = 6 from rfl), d6, hrd, hy, hn, if_true, hdc,
      Nat.add_assoc, a6, hat, hat1]
    rcases hf with rfl | hf
    · simp [fragment, at?, hlow, toUpper, blank12, List.replicate, hx0]
    · have hf0 : f ≠ 0 := by omega
      have h97 : f + 97 - 65 = f + 32 := by omega
      simp [fragment, at?, hlow, toUpper, blank12, List.replicate, hx0, hf0, upper_is hf]
  · have hm0 : m ≠ 0 := by omega
    have a6 : ∀ i, at? (a :: b :: c :: d :: 32 :: l :: m :: (ks ++ fragment f)) (7 + i) = at? (ks ++ fragment f) i := by
      intro i
      exact at_append_right [a, b, c, d, 32, l, m] (ks ++ fragment f) i
    have d6 : (a :: b :: c :: d :: 32 :: l :: m :: (ks ++ fragment f)).drop 7 = ks ++ fragment f := rfl
    simp only [orderLetter, hm0, if_false, List.cons_append, List.nil_append]
    unfold packProvisional
    have a6' : at? (a :: b :: c :: d :: 32 :: l :: m :: (ks ++ fragment f)) (5 + 1) = m := rfl
    simp only [upper_is hm, a6', if_true, hx0, (show (5 + 1 + 1) = 7 from rfl), d6, hrd, hy, hn, hdc,
      Nat.add_assoc, a6, hat, hat1]
    rcases hf with rfl | hf
    · simp [fragment, at?, hlow, toUpper, blank12, List.replicate, hx0]; omega
    · have hf0 : f ≠ 0 := by omega
      simp [fragment, at?, hlow, toUpper, blank12, List.replicate, hx0, hf0, upper_is hf]; omega

theorem create_cometProv (x y l m k f : Nat) (s : List Nat) (hs : CometProv x y l m k f s) (hx : CometLetter x)
    (hl : Capital l) (hm : m = 0 ∨ Capital m) (hf : f = 0 ∨ Capital f) (h1 : 1000 ≤ y) (h2 : y ≤ 2999)
    (hk : k < 620)
    (h0 : 1 ≤ k ∨ m ≠ 0) :
    createPackedDesig s = (0, [32, 32, 32, 32, x, intToMutantHexChar (y / 100 : Nat), 48 + y / 10 % 10, 48 + y % 10, l,
        intToMutantHexChar (k / 10 : Nat), intToMutantHexChar (k % 10 : Nat),
        if f = 0 then (if m = 0 then 48 else m) else f + 32]) := by
  obtain ⟨ys, ks, hys, hks, rfl⟩ := hs
  obtain ⟨hd, hr, -⟩ := subscript_read hks
  have hy := year_shape hys (by omega)
  subst hy
  have hpk := packProv_comet (a := 48 + y / 1000) (b := 48 + y / 100 % 10) (c := 48 + y / 10 % 10) (d := 48 + y % 10)
    hl hm hf hx hd (show y < 6200 by omega) (by omega)
  rw [hr] at hpk
  simp only [List.cons_append, List.nil_append, List.append_assoc] at hpk ⊢
  rw [create_comet x _ hx]
  generalize hrest : orderLetter m ++ (ks ++ fragment f) = rest at *
  have hrest0 : ∀ c ∈ (l :: rest), c ≠ 32 := by
    subst hrest
    unfold Capital Digits orderLetter fragment at *
    intro c hc
    have hkd : c ∈ ks → c ≠ 32 := fun h => by have := hd c h; omega
    rcases hm with rfl | hm <;> rcases hf with rfl | hf
    · simp at hc; rcases hc with hc | hc
      · omega
      · exact hkd hc
    · simp [show f ≠ 0 by omega] at hc; rcases hc with hc | hc | hc | hc
      · omega
      · exact hkd hc
      · omega
      · omega
    · simp [show m ≠ 0 by omega] at hc; rcases hc with hc | hc | hc
      · omega
      · omega
      · exact hkd hc
    · simp [show m ≠ 0 by omega, show f ≠ 0 by omega] at hc; rcases hc with hc | hc | hc | hc | hc
      · omega
      · omega
      · exact hkd hc
      · omega
      · omega
  have htl : trimLen ((48 + y / 1000) :: (48 + y / 100 % 10) :: (48 + y / 10 % 10) :: (48 + y % 10) :: 32 :: l :: rest)
      ((48 + y / 1000) :: (48 + y / 100 % 10) :: (48 + y / 10 % 10) :: (48 + y % 10) :: 32 :: l :: rest).length =
      6 + rest.length := by
    have := trimLen_last (l :: rest) hrest0
      [48 + y / 1000, 48 + y / 100 % 10, 48 + y / 10 % 10, 48 + y % 10, 32] (by simp)
    simp only [List.cons_append, List.nil_append] at this
    rw [this]; simp; omega
  have hyr := year_read (a := 48 + y / 1000) (b := 48 + y / 100 % 10) (c := 48 + y / 10 % 10) (d := 48 + y % 10)
    (by omega) (by omega) (by omega) (by omega) (32 :: l :: rest) (by rw [at_zero]; decide)
  rw [year_value (show y < 10000 by omega)] at hyr
  unfold createCore
  simp only [hyr, Bool.false_eq_true, if_false, htl, show y % 4294967296 = y by omega]
  have e1 : strchr (bytes "PDI") 32 = false := by decide
  have hsv : surveys.find? (fun s => (l :: rest) == s.1) = none := by
    rw [List.find?_eq_none]
    intro sv hsv h
    have h := beq_iff_eq.1 h
    have h3 : ∀ s ∈ surveys, at? s.1 1 = 45 := by decide
    have q1 := h3 sv hsv
    rw [← h, at_succ] at q1
    have : 48 ≤ at? rest 0 := by
      subst hrest
      unfold Capital orderLetter at *
      by_cases hm0 : m = 0
      · rw [if_pos hm0, List.nil_append]
        rcases hks with ⟨h, -⟩ | ⟨-, h⟩
        · omega
        · cases ks with
          | nil => exact absurd rfl h.nonempty
          | cons c ks => exact (h.digits c (by simp)).1
      · rw [if_neg hm0]
        show 48 ≤ m
        omega
    omega
  have hl2 : 4 < 6 + rest.length := by omega
  have hy3 : 999 < y := by omega
  have hy4 : y < 9000 := by omega
  unfold createBranch
  simp only [at_succ, at_zero, e1, Bool.false_eq_true, and_false, if_false, hl2, and_self, if_true, hy3, hy4,
    upper_is hl, List.drop_succ_cons, List.drop_zero, hsv, hpk]

theorem unpack_cometProv (x y l m k f : Nat) (hx : CometLetter x) (hl : Capital l) (hm : m = 0 ∨ Capital m)
    (hf : f = 0 ∨ Capital f) (h1 : 1600 ≤ y) (h2 : y ≤ 2099) (hk : k < 620) :
    unpackMpcDesig [32, 32, 32, 32, x, intToMutantHexChar (y / 100 : Nat), 48 + y / 10 % 10, 48 + y % 10, l,
        intToMutantHexChar (k / 10 : Nat), intToMutantHexChar (k % 10 : Nat),
        if f = 0 then (if m = 0 then 48 else m) else f + 32] =
      .ok (if x = 65 then 0 else 2, [x, 47, 48 + y / 1000, 48 + y / 100 % 10, 48 + y / 10 % 10, 48 + y % 10, 32, l] ++
        (if f = 0 then orderLetter m else []) ++ (if k = 0 then [] else dec k) ++ fragment f) := by
  have hx2 : x ≠ 32 := by unfold CometLetter at hx; omega
  have hcl := centuryLetter ⟨y / 100 - 16, by omega⟩
  have hce : (16 + (y / 100 - 16)) = y / 100 := by omega
  simp only [hce] at hcl
  have hdig := digitChar ⟨k % 10, by omega⟩
  simp only at hdig
  rw [hcl.1, hdig]
  have hh := charToInt_toChar (v := ((k / 10 : Nat) : Int)) (by omega) (by omega)
  generalize hq : (if f = 0 then (if m = 0 then 48 else m) else f + 32) = q
  have hqa : isAlpha q = true ∨ q = 48 := by
    unfold Capital at *
    rw [isAlpha_iff]
    split at hq
    · split at hq <;> omega
    · omega
  have hu := unpackProv_classic (k := 71 + (y / 100 - 16)) (c := 48 + y / 10 % 10) (d := 48 + y % 10) (l := l)
    (h := intToMutantHexChar ((k / 10 : Nat) : Int)) (t := 48 + k % 10) (m := q) (by omega) (by omega) (by omega) hl
    (by rw [hh]; omega) (by omega) hqa
  rw [hh] at hu
  have hv : ((k / 10 : Nat) : Int) * 10 + (48 + k % 10 : Nat) - 48 = k := by omega
  have hmi : 48 + y / 100 / 10 = 48 + y / 1000 := by omega
  rw [hv, hcl.2.1, hcl.2.2, hmi] at hu
  have hup : (if isUpper q = true then [q] else []) = (if f = 0 then orderLetter m else []) := by
    unfold Capital orderLetter at *
    by_cases hf0 : f = 0
    · rw [if_pos hf0] at hq ⊢
      by_cases hm0 : m = 0
      · rw [if_pos hm0] at hq ⊢; rw [← hq]; decide
      · rw [if_neg hm0] at hq ⊢; rw [← hq, if_pos (upper_is (by omega))]
    · rw [if_neg hf0] at hq ⊢
      have : isUpper q = false := by rw [isUpper_false]; omega
      rw [this]; rfl
  have hlo : (if isLower q = true then [45, q - 32] else []) = fragment f := by
    unfold Capital fragment at *
    by_cases hf0 : f = 0
    · rw [if_pos hf0] at hq ⊢
      have : isLower q = false := by
        rw [isLower_false]; split at hq <;> omega
      rw [this]; rfl
    · rw [if_neg hf0] at hq ⊢
      rw [if_pos ((isLower_iff q).2 (by omega)), ← hq]; rfl
  have hkk : (if (k : Int) = 0 then [] else decInt (k : Int)) = if k = 0 then [] else dec k := by
    by_cases hz : k = 0
    · simp [hz]
    · rw [if_neg (by omega), if_neg hz, decInt, if_neg (by omega)]; rfl
  rw [hup, hlo, hkk] at hu
  rw [unpack_prov (x := x) (by unfold CometLetter at hx; omega) hu]
  simp [hx2]

/-- **C51**, provisional comets of 1600 to 2099 with subscript below 620, with an order letter or a
    fragment letter but not both: packed in twelve bytes that unpack to the same designation, with the
    code of a provisional comet (2), or asteroid (0) for the prefix `A/`.
    Full statement (false, see `C51_order_letter_lost`, `C51_large_subscript`): the same without `hmf`
    and `hk`. -/
theorem C51_comet_partial (x y l m k f : Nat) (s : List Nat) (hs : CometProv x y l m k f s) (hx : CometLetter x)
    (hl : Capital l) (hm : m = 0 ∨ Capital m) (hf : f = 0 ∨ Capital f) (h1 : 1600 ≤ y) (h2 : y ≤ 2099)
    (hk : k < 620) (h0 : 1 ≤ k ∨ m ≠ 0) (hmf : m = 0 ∨ f = 0) :
    (createPackedDesig s).1 = 0 ∧ (createPackedDesig s).2.length = 12 ∧
      unpackMpcDesig (createPackedDesig s).2 = .ok (if x = 65 then 0 else 2, s) := by
  rw [create_cometProv x y l m k f s hs hx hl hm hf (by omega) (by omega) hk h0]
  refine ⟨rfl, rfl, ?_⟩
  simp only []
  rw [unpack_cometProv x y l m k f hx hl hm hf h1 h2 hk]
  obtain ⟨ys, ks, hys, hks, rfl⟩ := hs
  obtain ⟨-, -, hks2⟩ := subscript_read hks
  rw [year_shape hys (by omega), ← hks2]
  have : (if f = 0 then orderLetter m else []) = orderLetter m := by
    rcases hmf with rfl | rfl
    · simp [orderLetter]
    · simp
  rw [this]
  simp

example : CometProv 67 2018 70 0 4 65 (bytes "C/2018 F4-A") :=
  ⟨bytes "2018", bytes "4", ⟨by intro c hc; revert c; decide, by decide, by decide⟩,
    Or.inr ⟨by decide, ⟨by decide, by intro c hc; revert c; decide, by decide, by decide⟩⟩, by decide⟩
example : createPackedDesig (bytes "C/2018 F4-A") = (0, bytes "    CK18F04a") := by decide +kernel
example : createPackedDesig (bytes "P/1999 AB12") = (0, bytes "    PJ99A12B") := by decide +kernel

/-- **C51** is violated with both an order letter and a fragment: the fragment letter overwrites the
    order letter, so that designations with different order letters are packed alike. -/
theorem C51_order_letter_lost (x y l m m' k f : Nat) (s s' : List Nat) (hs : CometProv x y l m k f s)
    (hs' : CometProv x y l m' k f s') (hx : CometLetter x) (hl : Capital l) (hm : Capital m) (hm' : Capital m')
    (hf : Capital f) (h1 : 1600 ≤ y) (h2 : y ≤ 2099) (hk : k < 620) :
    (createPackedDesig s).1 = 0 ∧ createPackedDesig s' = createPackedDesig s := by
  have hf0 : f ≠ 0 := by unfold Capital at hf; omega
  have hm0 : m ≠ 0 := by unfold Capital at hm; omega
  have hm0' : m' ≠ 0 := by unfold Capital at hm'; omega
  rw [create_cometProv x y l m k f s hs hx hl (Or.inr hm) (Or.inr hf) (by omega) (by omega) hk (Or.inr hm0),
    create_cometProv x y l m' k f s' hs' hx hl (Or.inr hm') (Or.inr hf) (by omega) (by omega) hk (Or.inr hm0')]
  simp [hf0]

example : createPackedDesig (bytes "P/1999 AB12-C") = createPackedDesig (bytes "P/1999 AD12-C") := by decide +kernel

/-- **C51** is violated for subscripts from 620 on: they come back as a different designation. -/
theorem C51_large_subscript : (createPackedDesig (bytes "C/2004 A621")).1 = 0 ∧
    unpackMpcDesig (createPackedDesig (bytes "C/2004 A621")).2 = .ok (2, bytes "C/2004 AJ620") := by decide +kernel

/-- **C51**: with no subscript, fragment L of comet half-month P is taken for a survey object. -/
theorem C51_survey_clash : unpackMpcDesig (createPackedDesig (bytes "C/1960 P-L")).2 = .ok (0, bytes "1960 P-L") := by
  decide +kernel

/-! ## Numbered comets -/

/-- Fragment letters of a numbered comet: none, one, or two capitals. -/
def fragments (fs : List Nat) : List Nat := if fs = [] then [] else 45 :: fs

/-- The last two bytes of the packed form. -/
def fragBytes : List Nat → List Nat
  | [] => [32, 32]
  | [f] => [32, f + 32]
  | f :: g :: _ => [f + 32, g + 32]

theorem dropZeros (n : Nat) (h : 0 < n) (rest : List Nat) :
    (pad 4 n ++ rest).dropWhile (· == 48) = dec n ++ rest := by
  have hd : ∀ k, (List.replicate k 48 ++ (dec n ++ rest)).dropWhile (· == 48) = dec n ++ rest := by
    intro k
    induction k with
    | zero =>
      have hn := numeral_dec n
      cases hdn : dec n with
      | nil => exact absurd hdn hn.nonempty
      | cons c cs =>
        rw [hdn] at hn
        simp only [List.replicate_zero, List.nil_append, List.cons_append]
        rw [List.dropWhile_cons_of_neg]
        intro hc
        have hc : c = 48 := by simpa using hc
        have := hn.noLeadingZero (by rw [hc]; rfl)
        have hcs : cs = [] := by simpa using this
        have hv := hn.value
        rw [hc, hcs] at hv
        simp [value] at hv
        omega
    | succ k ih => rw [List.replicate_succ, List.cons_append, List.dropWhile_cons_of_pos (by simp)]; exact ih
  unfold pad
  rw [List.append_assoc]
  exact hd _

/-- **C52**, the packed form: four digits, the type letter, five spaces and the fragment letters in lower
    case, right-aligned in the last two columns. -/
theorem C52_packed (n t : Nat) (ns fs : List Nat) (hn : Numeral n ns) (h1 : 1 ≤ n) (h2 : n ≤ 9999)
    (ht : t = 80 ∨ t = 68 ∨ t = 73) (hfs : ∀ c ∈ fs, Capital c) (hlen : fs.length ≤ 2) :
    createPackedDesig (ns ++ [t] ++ fragments fs) =
      (0, pad 4 n ++ [t, 32, 32, 32, 32, 32] ++ fragBytes fs) := by
  have hnd := hn.eq_dec
  have htd : isDigit t = false := by rw [isDigit_false]; omega
  have hrd : readDigits 0 (ns ++ [t] ++ fragments fs) = n := by
    rw [hnd, List.append_assoc]; exact readDigits_dec_append n _ htd
  have hdc : digitCount (ns ++ [t] ++ fragments fs) = ns.length := by
    rw [hnd, List.append_assoc]; exact digitCount_dec_append n _ htd
  have hat : ∀ i, at? (ns ++ [t] ++ fragments fs) (ns.length + i) = at? (t :: fragments fs) i := by
    intro i
    rw [List.append_assoc]; exact at_append_right ns _ i
  have hall : ∀ c ∈ ns ++ [t] ++ fragments fs, c ≠ 47 := by
    intro c hc
    simp only [List.mem_append, List.mem_singleton, fragments] at hc
    rcases hc with (hc | hc) | hc
    · have := hn.digits c hc; omega
    · omega
    · split at hc
      · simp at hc
      · rcases List.mem_cons.1 hc with hc | hc
        · omega
        · have := hfs c hc; unfold Capital at this; omega
  have h0 : 48 ≤ at? (ns ++ [t] ++ fragments fs) 0 ∧ at? (ns ++ [t] ++ fragments fs) 0 ≤ 57 := by
    cases hns : ns with
    | nil => exact absurd hns hn.nonempty
    | cons c cs =>
      have := hn.digits c (by rw [hns]; simp)
      simpa [at?] using this
  have h47 : at? (ns ++ [t] ++ fragments fs) 1 ≠ 47 := by
    rcases at_mem_or_zero (ns ++ [t] ++ fragments fs) 1 with h | h
    · exact hall _ h
    · omega
  have hst : strchr (bytes "PDI") t = true := by rcases ht with rfl | rfl | rfl <;> decide
  rw [create_plain _ (by omega) (by omega) h47]
  unfold createCore
  simp only [hrd, hdc, show n % 4294967296 = n by omega]
  unfold createBranch
  rw [if_pos]
  · have q0 := hat 0
    have q1 := hat 1
    have q2 := hat 2
    have q3 := hat 3
    simp only [Nat.add_zero, at_zero, at_succ] at q0 q1 q2 q3
    simp only [q0, q1, q2, q3]
    have hp4 := pad4 (show n < 10000 by omega)
    rw [hp4]
    match fs, hlen, hfs with
    | [], _, _ => rfl
    | [f], _, hf =>
      have := hf f (by simp)
      unfold Capital at this
      have hu : isUpper f = true := upper_is this
      have e0 : isUpper 0 = false := by decide
      simp [fragments, fragBytes, at?, hu, e0, put, blank12, List.replicate]
    | [f, g], _, hf =>
      have h3 := hf f (by simp)
      have h4 := hf g (by simp)
      unfold Capital at h3 h4
      have hu : isUpper f = true := upper_is h3
      have hv : isUpper g = true := upper_is h4
      simp [fragments, fragBytes, at?, hu, hv, put, blank12, List.replicate]
  · have q0 := hat 0
    have q1 := hat 1
    simp only [Nat.add_zero, at_zero, at_succ] at q0 q1
    rw [q0, q1]
    refine ⟨by omega, by omega, by omega, ?_, hst⟩
    unfold fragments
    split
    · left; rfl
    · right; rfl

example : createPackedDesig (bytes "73P-BC") = (0, bytes "0073P     bc") := by decide +kernel

/-- **C52**, numbered comets and interstellar objects `nP`, `nD`, `nI` with 1 ≤ n ≤ 9999 and at most two
    fragment letters: packed in twelve bytes that unpack to the same designation with the code of a
    numbered comet (3). -/
theorem C52_numbered_comet (n t : Nat) (ns fs : List Nat) (hn : Numeral n ns) (h1 : 1 ≤ n) (h2 : n ≤ 9999)
    (ht : t = 80 ∨ t = 68 ∨ t = 73) (hfs : ∀ c ∈ fs, Capital c) (hlen : fs.length ≤ 2) :
    (createPackedDesig (ns ++ [t] ++ fragments fs)).1 = 0 ∧
      (createPackedDesig (ns ++ [t] ++ fragments fs)).2.length = 12 ∧
      unpackMpcDesig (createPackedDesig (ns ++ [t] ++ fragments fs)).2 = .ok (3, ns ++ [t] ++ fragments fs) := by
  have hst2 : strchr (bytes "PCDXAI") t = true := by rcases ht with rfl | rfl | rfl <;> decide
  have hnd := hn.eq_dec
  have htd : isDigit t = false := by rw [isDigit_false]; omega
  have hcreate := C52_packed n t ns fs hn h1 h2 ht hfs hlen
  rw [hcreate]
  refine ⟨rfl, ?_, ?_⟩
  · rw [pad4 (by omega)]
    match fs, hlen with
    | [], _ => rfl
    | [f], _ => rfl
    | [f, g], _ => rfl
  generalize htail : fragBytes fs = tail
  have htail2 : ∃ u v, tail = [u, v] := by
    subst htail
    match fs, hlen with
    | [], _ => exact ⟨_, _, rfl⟩
    | [f], _ => exact ⟨_, _, rfl⟩
    | [f, g], _ => exact ⟨_, _, rfl⟩
  obtain ⟨u, v, huv⟩ := htail2
  have hout : cometNumberedOut (pad 4 n ++ [t, 32, 32, 32, 32, 32] ++ tail) = ns ++ [t] ++ fragments fs := by
    unfold cometNumberedOut
    rw [List.append_assoc, dropZeros n (by omega)]
    simp only []
    rw [digitCount_dec_append n _ (show isDigit (at? ([t, 32, 32, 32, 32, 32] ++ tail) 0) = false from htd),
      List.take_left, ← hnd]
    have a4 : at? (pad 4 n ++ ([t, 32, 32, 32, 32, 32] ++ tail)) 4 = t := by rw [pad4 (by omega)]; rfl
    have a10 : at? (pad 4 n ++ ([t, 32, 32, 32, 32, 32] ++ tail)) 10 = at? tail 0 := by
      rw [pad4 (by omega), huv]; rfl
    have a11 : at? (pad 4 n ++ ([t, 32, 32, 32, 32, 32] ++ tail)) 11 = at? tail 1 := by
      rw [pad4 (by omega), huv]; rfl
    rw [a4, a10, a11]
    subst htail
    have hlow : ∀ f, Capital f → isLower (f + 32) = true := by
      intro f hf; unfold Capital at hf; rw [isLower_iff]; omega
    have e32 : isLower 32 = false := by decide
    match fs, hlen, hfs with
    | [], _, _ => simp [at?, fragments, fragBytes, e32]
    | [f], _, hf => simp [at?, fragments, fragBytes, e32, hlow f (hf f (by simp))]
    | [f, g], _, hf => simp [at?, fragments, fragBytes, hlow f (hf f (by simp)), hlow g (hf g (by simp))]
  have hp4 := pad4 (show n < 10000 by omega)
  have d0 : 48 ≤ 48 + n / 1000 ∧ 48 + n / 1000 ≤ 57 := by omega
  have d1 : 48 ≤ 48 + n / 100 % 10 ∧ 48 + n / 100 % 10 ≤ 57 := by omega
  have d2 : 48 ≤ 48 + n / 10 % 10 ∧ 48 + n / 10 % 10 ≤ 57 := by omega
  rw [hp4, huv] at hout
  rw [hp4, huv]
  generalize 48 + n / 1000 = a at *
  generalize 48 + n / 100 % 10 = b at *
  generalize 48 + n / 10 % 10 = c at *
  generalize 48 + n % 10 = d at *
  simp only [List.cons_append, List.nil_append] at hout ⊢
  have hpv : unpackProv [32, 32, 32, 32, 32, u, v] = ⟨-1, some []⟩ := by
    unfold unpackProv
    rw [if_neg (by rw [at_zero]; omega), if_neg (by rw [at_zero]; omega)]
  have hdg : digitsAt [a, b, c, d, t, 32, 32, 32, 32, 32, u, v] [1, 2, 3] = true := by
    have hd3 : isDigit d = true := by
      have h3 := padded_pad (w := 4) (n := n) (by omega) (by decide)
      rw [hp4] at h3
      exact digit_is (h3.digits d (by simp))
    simp [digitsAt, at?, digit_is d1, digit_is d2, hd3]
  have hsp : spacesAt [a, b, c, d, t, 32, 32, 32, 32, 32, u, v] [5, 6, 7, 8, 9] = true := by simp [spacesAt, at?]
  have hal : isAlnum a = true := by rw [isAlnum_iff]; omega
  unfold unpackMpcDesig
  simp only [at_zero, at_succ, unpackNatsat, show ¬ a = 36 by omega, show ¬ a = 126 by omega, show t ≠ 83 by omega,
    List.drop_succ_cons, List.drop_zero, hpv, hdg, hsp, hal, htd, hst2, hout, Bool.false_eq_true, false_and, if_false,
    ne_eq, not_false_eq_true, if_true, bind, Outcome.bind, not_true_eq_false, and_false, true_or, and_self]
  simp [unpackRest, OBJ_DESIG_OTHER, OBJ_DESIG_COMET_NUMBERED]

example : createPackedDesig (bytes "73P-BC") = (0, bytes "0073P     bc") := by decide +kernel
example : Numeral 73 (bytes "73") := ⟨by decide, by intro c hc; revert c; decide, by decide, by decide⟩

/-- **C52** with more after the two fragment letters, or nothing after the hyphen: still accepted, and
    packed as another object. -/
theorem C52_trailing_ignored : createPackedDesig (bytes "73P-BCD") = createPackedDesig (bytes "73P-BC") ∧
    createPackedDesig (bytes "73P-") = createPackedDesig (bytes "73P") ∧
    (createPackedDesig (bytes "73P-BCD")).1 = 0 := by decide +kernel

end Verif.Props
