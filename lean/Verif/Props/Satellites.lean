import Verif.Props.Provisional
import Verif.Spec.Roman

/-! # Roman numerals and planetary satellites (C23, C24) -/

namespace Verif.Props
open Verif.Desig Verif.Spec

/-- Checked over the whole table of numbers the notation has. -/
theorem roman_table : ∀ (m : Fin 4) (c x i : Fin 10),
    extractRoman (roman (m.val * 1000 + c.val * 100 + x.val * 10 + i.val)) =
      ((m.val * 1000 + c.val * 100 + x.val * 10 + i.val : Nat) : Int) := by decide +kernel

/-- **C24.** `extract_roman_numeral` reads every Roman numeral up to 3999. -/
theorem C24_read (n : Nat) (h : n < 4000) : extractRoman (roman n) = n := by
  have := roman_table ⟨n / 1000, by omega⟩ ⟨n / 100 % 10, by omega⟩ ⟨n / 10 % 10, by omega⟩ ⟨n % 10, by omega⟩
  simp only [show n / 1000 * 1000 + n / 100 % 10 * 100 + n / 10 % 10 * 10 + n % 10 = n by omega] at this
  exact this

example : roman 748 = bytes "DCCXLVIII" ∧ extractRoman (bytes "DCCXLVIII") = 748 := by decide

theorem romanParts_table : ∀ d : Fin 10, romanHundreds.getD d.val [] = romanPlace 67 68 77 d.val ∧
    romanTens.getD d.val [] = romanPlace 88 76 67 d.val ∧ romanDigits.getD d.val [] = romanPlace 73 86 88 d.val := by
  decide

theorem roman_split {n : Nat} (h : n < 1000) :
    roman n = romanHundreds.getD (n / 100) [] ++ romanTens.getD (n / 10 % 10) [] ++ romanDigits.getD (n % 10) [] := by
  have h1 := romanParts_table ⟨n / 100, by omega⟩
  have h2 := romanParts_table ⟨n / 10 % 10, by omega⟩
  have h3 := romanParts_table ⟨n % 10, by omega⟩
  rw [h1.1, h2.2.1, h3.2.2, roman, show n / 1000 = 0 by omega, show n / 100 % 10 = n / 100 by omega]
  rfl

/-- Appending the parts: all of the numeral, or the program exits. -/
theorem appendRoman_eq (o : List Nat) (n : Nat) (h : n < 1000) (ho : o.length < 16) :
    appendRoman o n = if (o ++ roman n).length < 16 then .ok (o ++ roman n) else .abort := by
  rw [roman_split h]
  have z1 : romanHundreds.getD 0 [] = [] := rfl
  have z2 : romanTens.getD 0 [] = [] := rfl
  have z3 : romanDigits.getD 0 [] = [] := rfl
  have step : ∀ (o : List Nat) (d : Nat) (t : List (List Nat)), t.getD 0 [] = [] → o.length < 16 →
      appendPart o d t =
        if (o ++ t.getD d []).length < 16 then .ok (o ++ t.getD d []) else .abort := by
    intro o d t ht ho
    unfold appendPart
    by_cases hd : d = 0
    · subst hd; simp only [ht, ne_eq, not_true_eq_false, if_false, List.append_nil]; rw [if_pos ho]
    · rw [if_pos hd, catErr]
      by_cases hl : (o ++ t.getD d []).length < 16
      · rw [if_pos hl, if_neg (by omega)]
      · rw [if_neg hl, if_pos (by omega)]
  unfold appendRoman
  rw [step o (n / 100) _ z1 ho]
  by_cases l1 : (o ++ romanHundreds.getD (n / 100) []).length < 16
  · rw [if_pos l1]
    simp only [Outcome.bind]
    rw [step _ (n / 10 % 10) _ z2 l1]
    by_cases l2 : (o ++ romanHundreds.getD (n / 100) [] ++ romanTens.getD (n / 10 % 10) []).length < 16
    · rw [if_pos l2]
      simp only []
      rw [step _ (n % 10) _ z3 l2]
      simp only [List.append_assoc]
    · rw [if_neg l2, if_neg]
      simp only [List.length_append] at l2 ⊢; omega
  · rw [if_neg l1, if_neg]
    · rfl
    simp only [List.length_append] at l1 ⊢; omega

/-- **C24.** Every Roman numeral the library writes (numbers below 1000, after a planet name) is read
    back. -/
theorem C24_written_read (o : List Nat) (n : Nat) (h : n < 1000) (ho : o.length < 16) (r : List Nat)
    (hr : appendRoman o n = .ok (o ++ r)) : extractRoman r = n := by
  rw [appendRoman_eq o n h ho] at hr
  split at hr
  · have : o ++ roman n = o ++ r := by injection hr
    rw [← List.append_cancel_left this]
    exact C24_read n (by omega)
  · cases hr

example : appendRoman (bytes "Saturn ") 63 = .ok (bytes "Saturn LXIII") := by decide

/-- **C24** is violated in the other direction: other spellings are accepted. -/
theorem C24_other_spellings : extractRoman (bytes "IIII") = extractRoman (bytes "IV") ∧
    extractRoman (bytes "VX") = 15 ∧ extractRoman (bytes "IVIV") = 8 ∧ extractRoman [] = 0 := by decide

/-! ## Permanent designations -/

/-- Planets with their names. -/
def planets : List (List Nat) :=
  [bytes "Venus", bytes "Earth", bytes "Mars", bytes "Jupiter", bytes "Saturn", bytes "Uranus", bytes "Neptune",
   bytes "Pluto"]

/-- The packed form of satellite `n` of the planet with initial `c`. -/
def packedSat (c n : Nat) : List Nat := c :: pad 3 n ++ [83, 32, 32, 32, 32, 32, 32, 32]

theorem unpack_permanent (pl : List Nat) (hp : pl ∈ planets) (n : Nat) (h1 : 1 ≤ n) (h2 : n ≤ 999) :
    unpackMpcDesig (packedSat (at? pl 0) n) =
      if (pl ++ [32] ++ roman n).length < 16 then .ok (5, pl ++ [32] ++ roman n) else .abort := by
  have hpl : ∀ pl ∈ planets, pl.length < 15 ∧ strchr (bytes "MVEJSUNP") (at? pl 0) = true ∧
      planetNames.filter (fun nm => at? nm 0 == at? pl 0) = [pl] ∧ 65 ≤ at? pl 0 ∧ at? pl 0 ≤ 90 := by decide
  obtain ⟨hlen, hst, hfil, hc1, hc2⟩ := hpl pl hp
  unfold packedSat
  rw [pad3 (by omega)]
  have d1 : 48 ≤ 48 + n / 100 ∧ 48 + n / 100 ≤ 57 := by omega
  have d2 : 48 ≤ 48 + n / 10 % 10 ∧ 48 + n / 10 % 10 ≤ 57 := by omega
  have d3 : 48 ≤ 48 + n % 10 ∧ 48 + n % 10 ≤ 57 := by omega
  have hr : readDigits 0 [48 + n / 100, 48 + n / 10 % 10, 48 + n % 10, 83, 32, 32, 32, 32, 32, 32, 32] = n := by
    have : [48 + n / 100, 48 + n / 10 % 10, 48 + n % 10, 83, 32, 32, 32, 32, 32, 32, 32] =
      [48 + n / 100, 48 + n / 10 % 10, 48 + n % 10] ++ [83, 32, 32, 32, 32, 32, 32, 32] := rfl
    rw [this, readDigits_append _ _ _ (by intro c hc; simp at hc; omega),
      readDigits_eq _ (by intro c hc; simp at hc; omega)]
    rw [readDigits_stop _ _ (by decide)]
    simp [value]; omega
  generalize 48 + n / 100 = a at *
  generalize 48 + n / 10 % 10 = b at *
  generalize 48 + n % 10 = d at *
  generalize hcc : at? pl 0 = c at *
  have hpv : unpackProv [32, 32, 32, 32, 32, 32, 32] = ⟨-1, some []⟩ := by decide
  have hdig : digitsAt [c, a, b, d, 83, 32, 32, 32, 32, 32, 32, 32] [1, 2, 3] = true := by
    simp [digitsAt, at?, digit_is d1, digit_is d2, digit_is d3]
  have hsp : spacesAt [c, a, b, d, 83, 32, 32, 32, 32, 32, 32, 32] [5, 6, 7, 8, 9, 10, 11] = true := by
    simp [spacesAt, at?]
  have hnat : unpackNatsat [c, a, b, d, 83, 32, 32, 32, 32, 32, 32, 32] =
      if (pl ++ [32] ++ roman n).length < 16 then .ok (5, pl ++ [32] ++ roman n) else .abort := by
    unfold unpackNatsat
    simp only [at_zero, at_succ, ne_eq, not_true_eq_false, if_false, hst, hdig, hsp, and_self, if_true,
      List.drop_succ_cons, List.drop_zero, hr, hfil]
    rw [appendRoman_eq _ _ (by omega) (by simp; omega)]
    split <;> rfl
  simp only [List.cons_append, List.nil_append] at hnat ⊢
  unfold unpackMpcDesig
  rw [hnat]
  have e1 : isDigit 83 = false := by decide
  have e2 : strchr (bytes "PCDXAI") 83 = false := by decide
  simp only [at_zero, at_succ]
  rw [if_neg (by omega)]
  split
  · simp only [bind, Outcome.bind, List.drop_succ_cons, List.drop_zero, hpv, e1, e2, Bool.false_eq_true, and_false,
      if_false, show ¬ c = 126 by omega, false_and, reduceCtorEq]
    simp [unpackRest, OBJ_DESIG_OTHER]
  · rfl

theorem create_permanent (pl : List Nat) (hp : pl ∈ planets) (rest : List Nat) (n : Nat) (h1 : 1 ≤ n) (h2 : n ≤ 999)
    (hr : (if atoi rest = 0 then extractRoman rest else atoi rest) = n) :
    createPackedDesig (pl ++ [32] ++ rest) = (0, packedSat (at? pl 0) n) := by
  have hpl : ∀ pl ∈ planets, at? pl 0 ≠ 32 ∧ at? pl 0 ≠ 40 ∧ at? pl 1 ≠ 47 ∧ isDigit (at? pl 0) = false ∧
      2 ≤ pl.length := by decide
  obtain ⟨c0, c1, c2, c3, c4⟩ := hpl pl hp
  have hat : ∀ i, i < pl.length → at? (pl ++ [32] ++ rest) i = at? pl i := by
    intro i hi; simp [at?, List.getElem?_append_left, hi]
  have h0 := hat 0 (by omega)
  have h1' := hat 1 (by omega)
  rw [create_plain _ (by rw [h0]; exact c0) (by rw [h0]; exact c1) (by rw [h1']; exact c2)]
  unfold createCore
  have hrd : readDigits 0 (pl ++ [32] ++ rest) = 0 := readDigits_stop _ _ (by rw [h0]; exact c3)
  have hdc : digitCount (pl ++ [32] ++ rest) = 0 := digitCount_stop _ (by rw [h0]; exact c3)
  simp only [hrd, hdc, Bool.false_eq_true, if_false, Nat.zero_mod]
  unfold createBranch
  have hpk : packPermanentNatsat (pl ++ [32] ++ rest) = some (packedSat (at? pl 0) n) := by
    have hst : ∀ nm ∈ planetNames, startsWith nm (pl ++ [32] ++ rest) = true → nm = pl := by
      intro nm hnm hs
      have hf : ∀ nm ∈ planetNames, ∀ pl ∈ planets, at? nm 0 = at? pl 0 → nm = pl := by decide
      apply hf nm hnm pl hp
      rw [← h0]
      have := beq_iff_eq.1 hs
      obtain ⟨x, xs, rfl, -, -⟩ := planet_first nm hnm
      rw [← this]
      simp [at?]
    have hself : startsWith pl (pl ++ [32] ++ rest) = true := by simp [startsWith]
    have hat2 : at? (pl ++ [32] ++ rest) pl.length = 32 := by
      rw [List.append_assoc, at_append_length]; rfl
    have hdr : (pl ++ [32] ++ rest).drop (pl.length + 1) = rest := by
      have : (pl ++ [32]).length = pl.length + 1 := by simp
      rw [← this, List.drop_left]
    have hmem : pl ∈ planetNames := hp
    have hval : (if startsWith pl (pl ++ [32] ++ rest) ∧ at? (pl ++ [32] ++ rest) pl.length = 32 then
        (let rest' := (pl ++ [32] ++ rest).drop (pl.length + 1)
         let n := if atoi rest' = 0 then extractRoman rest' else atoi rest'
         if n > 0 ∧ n < 1000 then some ([at? (pl ++ [32] ++ rest) 0] ++ pad 3 n.toNat ++ bytes "S       ") else none)
        else none) = some (packedSat (at? pl 0) n) := by
      rw [if_pos ⟨hself, hat2⟩]
      simp only [hdr, hr]
      rw [if_pos ⟨by omega, by omega⟩, h0]
      rfl
    unfold packPermanentNatsat
    have gen : ∀ (l : List (List Nat)) (f : List Nat → Option (List Nat)) (v : List Nat), pl ∈ l → f pl = some v →
        (∀ nm ∈ l, nm ≠ pl → f nm = none) → l.findSome? f = some v := by
      intro l f v hm hf hn
      induction l with
      | nil => simp at hm
      | cons x l ih =>
        rw [List.findSome?_cons]
        by_cases hx : x = pl
        · rw [hx, hf]
        · rw [hn x (by simp) hx]
          exact ih (by simpa [Ne.symm hx] using hm) (fun nm h => hn nm (by simp [h]))
    apply gen _ _ _ hmem hval
    intro nm hnm hne
    rw [if_neg]
    rintro ⟨hs, -⟩
    exact hne (hst nm hnm hs)
  simp only [Nat.lt_irrefl, false_and, if_false, ne_eq, not_true_eq_false, and_false,
    (by decide : ¬ (999 < 0)), (by decide : ¬ (1957 ≤ 0)), hpk]

theorem atoi_roman_table : ∀ c x i : Fin 10, atoi (roman (c.val * 100 + x.val * 10 + i.val)) = 0 := by
  decide +kernel

theorem atoi_roman {n : Nat} (h : n < 1000) : atoi (roman n) = 0 := by
  have := atoi_roman_table ⟨n / 100 % 10, by omega⟩ ⟨n / 10 % 10, by omega⟩ ⟨n % 10, by omega⟩
  simp only [show n / 100 % 10 * 100 + n / 10 % 10 * 10 + n % 10 = n by omega] at this
  exact this

/-- **C23**, permanent designations, planet name and Roman numeral in at most 15 characters: packed in
    twelve bytes that unpack to the same designation, with the code for a numbered satellite (5).
    Full statement (false, see `C23_permanent_exits`): the same without `hfit`. -/
theorem C23_permanent_partial (pl : List Nat) (hp : pl ∈ planets) (n : Nat) (h1 : 1 ≤ n) (h2 : n ≤ 999)
    (hfit : (pl ++ [32] ++ roman n).length ≤ 15) :
    (createPackedDesig (pl ++ [32] ++ roman n)).1 = 0 ∧
      (createPackedDesig (pl ++ [32] ++ roman n)).2.length = 12 ∧
      unpackMpcDesig (createPackedDesig (pl ++ [32] ++ roman n)).2 = .ok (5, pl ++ [32] ++ roman n) := by
  rw [create_permanent pl hp (roman n) n h1 h2
    (by rw [atoi_roman (show n < 1000 by omega), if_pos rfl]; exact C24_read n (by omega))]
  refine ⟨rfl, by rw [packedSat, pad3 (by omega)]; rfl, ?_⟩
  rw [unpack_permanent pl hp n h1 h2, if_pos (by omega)]

example : (bytes "Saturn" ++ [32] ++ roman 148).length ≤ 15 := by decide
example : createPackedDesig (bytes "Saturn CXLVIII") = (0, bytes "S148S       ") := by decide +kernel

/-- **C23** is violated for longer names: they are packed, but unpacking makes the program exit. -/
theorem C23_permanent_exits (pl : List Nat) (hp : pl ∈ planets) (n : Nat) (h1 : 1 ≤ n) (h2 : n ≤ 999)
    (hbig : 16 ≤ (pl ++ [32] ++ roman n).length) :
    (createPackedDesig (pl ++ [32] ++ roman n)).1 = 0 ∧
      unpackMpcDesig (createPackedDesig (pl ++ [32] ++ roman n)).2 = .abort := by
  rw [create_permanent pl hp (roman n) n h1 h2
    (by rw [atoi_roman (show n < 1000 by omega), if_pos rfl]; exact C24_read n (by omega))]
  refine ⟨rfl, ?_⟩
  rw [unpack_permanent pl hp n h1 h2, if_neg (by omega)]

example : 16 ≤ (bytes "Jupiter" ++ [32] ++ roman 88).length - 0 ∧ roman 88 = bytes "LXXXVIII" := by decide

/-- **C23.** With an Arabic number the same packed form results. -/
theorem C23_arabic (pl : List Nat) (hp : pl ∈ planets) (n : Nat) (s : List Nat) (hs : Numeral n s)
    (h1 : 1 ≤ n) (h2 : n ≤ 999) :
    createPackedDesig (pl ++ [32] ++ s) = createPackedDesig (pl ++ [32] ++ roman n) := by
  rw [create_permanent pl hp (roman n) n h1 h2
    (by rw [atoi_roman (show n < 1000 by omega), if_pos rfl]; exact C24_read n (by omega))]
  have hat : atoi s = n := by
    have hrd : readDigits 0 s = n := by rw [readDigits_eq s hs.digits, hs.value]
    cases s with
    | nil => exact absurd rfl hs.nonempty
    | cons c s =>
      have := hs.digits c (by simp)
      have hsp : isSpace c = false := by simp [isSpace]; omega
      unfold atoi
      rw [hsp, if_neg (by simp), if_neg (by omega), if_neg (by omega), hrd]
  rw [create_permanent pl hp s n h1 h2 (by rw [hat, if_neg (by omega)])]

example : createPackedDesig (bytes "Uranus 24") = (0, bytes "U024S       ") := by decide +kernel

/-! ## Provisional designations -/

/-- Initials of the planets. -/
def planetInitials : List Nat := bytes "MVEJSUNP"

/-- `s` spells `S/YYYY P n`. -/
def SatelliteProv (y p n : Nat) (s : List Nat) : Prop :=
  ∃ ys ns, Padded 4 y ys ∧ Numeral n ns ∧ s = [83, 47] ++ ys ++ [32, p, 32] ++ ns

theorem atoi_digits (c : Nat) (s : List Nat) (h : 48 ≤ c ∧ c ≤ 57) : atoi (c :: s) = readDigits 0 (c :: s) := by
  have hsp : isSpace c = false := by simp [isSpace]; omega
  unfold atoi
  rw [hsp, if_neg (by simp), if_neg (by omega), if_neg (by omega)]

theorem create_satprov (y p n : Nat) (s : List Nat) (hs : SatelliteProv y p n s) (hp : p ∈ planetInitials)
    (h1 : 1901 ≤ y) (h2 : y ≤ 2099) (h3 : 1 ≤ n) (h4 : n ≤ 619) :
    createPackedDesig s = (0, [32, 32, 32, 32, 83, 65 + y / 100 - 10, 48 + y / 10 % 10, 48 + y % 10, p,
      intToMutantHexChar ((n / 10 : Nat) : Int), 48 + n % 10, 48]) := by
  obtain ⟨ys, ns, hys, hns, rfl⟩ := hs
  have hy := year_shape hys (by omega)
  subst hy
  have hnat : atoi ns = n := by
    have hrd : readDigits 0 ns = n := by rw [readDigits_eq ns hns.digits, hns.value]
    cases ns with
    | nil => exact absurd rfl hns.nonempty
    | cons c s => rw [atoi_digits c s (hns.digits c (by simp)), hrd]
  have hlen : 0 < ns.length := List.length_pos_iff.2 hns.nonempty
  simp only [List.cons_append, List.nil_append]
  have hst : ∀ p ∈ planetInitials, strchr (bytes "MVEMJSUNP") p = true := by decide
  have e0 : strchr (bytes "PCXDA") 83 = false := by decide
  rw [create_head _ (by rw [at_zero]; omega) (by rw [at_zero]; omega), createComet, at_zero, e0,
    if_neg (by simp)]
  unfold createCore
  have hrd : ∀ t, readDigits 0 (83 :: t) = 0 := fun t => readDigits_stop _ _ (by rw [at_zero]; decide)
  have hdc : ∀ t, digitCount (83 :: t) = 0 := fun t => digitCount_stop _ (by rw [at_zero]; decide)
  simp only [hrd, hdc, Bool.false_eq_true, if_false, Nat.zero_mod]
  unfold createBranch
  have hperm : ∀ t, packPermanentNatsat (83 :: 47 :: t) = none := by
    intro t
    unfold packPermanentNatsat
    rw [List.findSome?_eq_none_iff]
    intro nm hnm
    rw [if_neg]
    rintro ⟨hs, -⟩
    have hf : ∀ nm ∈ planetNames, 2 ≤ nm.length ∧ at? nm 1 ≠ 47 := by decide
    obtain ⟨hl, h47⟩ := hf nm hnm
    have := beq_iff_eq.1 hs
    match nm, hl with
    | a :: b :: nm, _ =>
      simp only [List.length_cons, List.take_succ_cons, List.cons.injEq] at this
      exact h47 this.2.1.symm
  have hyat : atoi ((48 + y / 1000) :: (48 + y / 100 % 10) :: (48 + y / 10 % 10) :: (48 + y % 10) :: 32 :: p :: 32 :: ns)
      = y := by
    rw [atoi_digits _ _ (by omega), (year_read (by omega) (by omega) (by omega) (by omega) _ (by rw [at_zero]; decide)).1,
      year_value (by omega)]
  have hprov : packProvisionalNatsat (83 :: 47 :: (48 + y / 1000) :: (48 + y / 100 % 10) :: (48 + y / 10 % 10) ::
      (48 + y % 10) :: 32 :: p :: 32 :: ns) = some [32, 32, 32, 32, 83, 65 + y / 100 - 10, 48 + y / 10 % 10,
        48 + y % 10, p, intToMutantHexChar ((n / 10 : Nat) : Int), 48 + n % 10, 48] := by
    unfold packProvisionalNatsat
    simp only [at_zero, at_succ, List.drop_succ_cons, List.drop_zero, hyat, hnat]
    rw [if_pos ⟨trivial, trivial, by simp; omega, trivial, trivial, hst p hp⟩, if_pos (by omega)]
    have hb : bytes "    S" = [32, 32, 32, 32, 83] := by decide
    rw [hb, Int.toNat_natCast, Int.toNat_natCast, pad2 (by omega)]
    simp
    omega
  simp only [Nat.lt_irrefl, false_and, if_false, ne_eq, not_true_eq_false, and_false,
    (by decide : ¬ (999 < 0)), (by decide : ¬ (1957 ≤ 0)), hperm, hprov]

/-- What the unpacker makes of the packed form. -/
theorem unpack_satprov (y p n : Nat) (hp : p ∈ planetInitials) (h1 : 1901 ≤ y) (h2 : y ≤ 2099) (h4 : n ≤ 619) :
    unpackMpcDesig [32, 32, 32, 32, 83, 65 + y / 100 - 10, 48 + y / 10 % 10, 48 + y % 10, p,
      intToMutantHexChar ((n / 10 : Nat) : Int), 48 + n % 10, 48] =
    .ok (4, [83, 47, 48 + y / 1000, 48 + y / 100 % 10, 48 + y / 10 % 10, 48 + y % 10, 32, p, 32] ++
      (if n / 10 > 10 then [48 + n / 100] else []) ++ (if n / 10 ≠ 0 then [48 + n / 10 % 10] else []) ++
      [48 + n % 10]) := by
  have hpp : ∀ p ∈ planetInitials, strchr (bytes "MVEJSUNP") p = true ∧ p ≠ 32 := by decide
  obtain ⟨hst, hp32⟩ := hpp p hp
  have d1 : 48 ≤ 48 + y / 10 % 10 ∧ 48 + y / 10 % 10 ≤ 57 := by omega
  have d2 : 48 ≤ 48 + y % 10 ∧ 48 + y % 10 ≤ 57 := by omega
  have d3 : 48 ≤ 48 + n % 10 ∧ 48 + n % 10 ≤ 57 := by omega
  have hh := charToInt_toChar (v := ((n / 10 : Nat) : Int)) (by omega) (by omega)
  have hhal := intToChar_alnum (v := ((n / 10 : Nat) : Int)) (by omega) (by omega)
  rw [isAlnum_iff] at hhal
  have hcen : decInt (20 + ((65 + y / 100 - 10 : Nat) : Int) - 75) = [48 + y / 1000, 48 + y / 100 % 10] := by
    rw [show 20 + ((65 + y / 100 - 10 : Nat) : Int) - 75 = ((y / 100 : Nat) : Int) by omega, decInt, if_neg (by omega),
      Int.toNat_natCast, dec2 (by omega) (by omega)]
    simp; omega
  have hc5 : 72 ≤ 65 + y / 100 - 10 ∧ 65 + y / 100 - 10 ≤ 90 := by omega
  have hn1 : n / 10 / 10 = n / 100 := by omega
  generalize 65 + y / 100 - 10 = c at *
  generalize 48 + y / 10 % 10 = b at *
  generalize 48 + y % 10 = a at *
  generalize 48 + n % 10 = d at *
  generalize intToMutantHexChar ((n / 10 : Nat) : Int) = x at *
  have hdig : digitsAt [32, 32, 32, 32, 83, c, b, a, p, x, d, 48] [6, 7, 10, 11] = true := by
    simp [digitsAt, at?, digit_is d1, digit_is d2, digit_is d3]; decide
  have n1 : c ≠ 32 := by omega
  have n2 : b ≠ 32 := by omega
  have n3 : a ≠ 32 := by omega
  have n4 : x ≠ 32 := by omega
  have n5 : d ≠ 32 := by omega
  have hsp : spacesExactly [32, 32, 32, 32, 83, c, b, a, p, x, d, 48] [0, 1, 2, 3] = true := by
    simp [spacesExactly, List.range, List.range.loop, at?, n1, n2, n3, n4, n5, hp32]
  have e0 : strchr (bytes "MVEJSUNP") 32 = false := by decide
  have e1 : isAlnum 32 = false := by decide
  have hs2 : bytes "S/" = [83, 47] := by decide
  have hnat : unpackNatsat [32, 32, 32, 32, 83, c, b, a, p, x, d, 48] =
      .ok (4, [83, 47, 48 + y / 1000, 48 + y / 100 % 10, b, a, 32, p, 32] ++
      (if n / 10 > 10 then [48 + n / 100] else []) ++ (if n / 10 ≠ 0 then [48 + n / 10 % 10] else []) ++ [d]) := by
    unfold unpackNatsat
    simp only [at_zero, at_succ, ne_eq, not_true_eq_false, if_false, e0, Bool.false_eq_true, false_and]
    rw [if_pos ⟨hst, hdig, hsp, by rw [hh]; omega, trivial, hc5⟩]
    simp only [hh, Int.toNat_natCast, hcen, hn1, hs2]
    by_cases q1 : n / 10 > 10 <;> by_cases q2 : n / 10 = 0 <;> simp [q1, q2, OBJ_DESIG_NATSAT_PROVISIONAL]
  unfold unpackMpcDesig
  rw [hnat]
  simp only [at_zero, e1, Bool.false_eq_true, false_and, if_false, bind, Outcome.bind, (by decide : ¬ (32 = 36)),
    (by decide : ¬ (32 = 126))]
  simp [unpackRest, OBJ_DESIG_OTHER]

/-- **C23**, provisional designations, numbers 1 to 99 and 110 to 619: packed in twelve bytes that unpack
    to the same designation with the code for a provisional satellite designation (4).
    Full statement (false, see `C23_provisional_loses_digit`): the same without `h5`. -/
theorem C23_provisional_partial (y p n : Nat) (s : List Nat) (hs : SatelliteProv y p n s) (hp : p ∈ planetInitials)
    (h1 : 1901 ≤ y) (h2 : y ≤ 2099) (h3 : 1 ≤ n) (h4 : n ≤ 619) (h5 : n < 100 ∨ 109 < n) :
    (createPackedDesig s).1 = 0 ∧ (createPackedDesig s).2.length = 12 ∧
      unpackMpcDesig (createPackedDesig s).2 = .ok (4, s) := by
  rw [create_satprov y p n s hs hp h1 h2 h3 h4]
  refine ⟨rfl, rfl, ?_⟩
  simp only []
  rw [unpack_satprov y p n hp h1 h2 h4]
  obtain ⟨ys, ns, hys, hns, rfl⟩ := hs
  rw [year_shape hys (by omega), hns.eq_dec]
  congr 2
  by_cases q1 : n < 10
  · rw [dec1 q1, if_neg (by omega), if_neg (by omega)]; simp; omega
  by_cases q2 : n < 100
  · rw [dec2 (by omega) q2, if_neg (by omega), if_pos (by omega)]; simp; omega
  · rw [dec3 (by omega) (by omega), if_pos (by omega), if_pos (by omega)]; simp

example : SatelliteProv 2003 74 12 (bytes "S/2003 J 12") :=
  ⟨bytes "2003", bytes "12", ⟨by intro c hc; revert c; decide, by decide, by decide⟩,
    ⟨by decide, by intro c hc; revert c; decide, by decide, by decide⟩, by decide⟩
example : createPackedDesig (bytes "S/2003 J 12") = (0, bytes "    SK03J120") := by decide +kernel

/-- **C23** is violated for the provisional numbers 100 to 109: the leading 1 is lost on unpacking, so
    that no such designation survives. -/
theorem C23_provisional_loses_digit (y p n : Nat) (s : List Nat) (hs : SatelliteProv y p n s)
    (hp : p ∈ planetInitials) (h1 : 1901 ≤ y) (h2 : y ≤ 2099) (h3 : 100 ≤ n) (h4 : n ≤ 109) :
    (createPackedDesig s).1 = 0 ∧ ∃ t, unpackMpcDesig (createPackedDesig s).2 = .ok (4, t) ∧ t ≠ s := by
  rw [create_satprov y p n s hs hp h1 h2 (by omega) (by omega)]
  refine ⟨rfl, _, unpack_satprov y p n hp h1 h2 (by omega), ?_⟩
  obtain ⟨ys, ns, hys, hns, rfl⟩ := hs
  rw [year_shape hys (by omega), hns.eq_dec, dec3 (by omega) (by omega), if_neg (by omega), if_pos (by omega)]
  simp

example : unpackMpcDesig (createPackedDesig (bytes "S/2003 J 105")).2 = .ok (4, bytes "S/2003 J 05") := by
  decide +kernel

end Verif.Props
