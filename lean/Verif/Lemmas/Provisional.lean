import Verif.Lemmas.Desig

/-! # Lemmas about provisional designations -/

namespace Verif.Desig

theorem trimLen_full (s : List Nat) (c : Nat) (h : c ≠ 32) : trimLen (s ++ [c]) (s ++ [c]).length = (s ++ [c]).length := by
  unfold trimLen
  rw [List.take_length, List.reverse_append, List.reverse_singleton, List.singleton_append,
    List.dropWhile_cons_of_neg (by simp [h])]
  simp

theorem trimLen_digits (s ks : List Nat) (c : Nat) (h : c ≠ 32) (hk : Digits ks) :
    trimLen (s ++ c :: ks) (s ++ c :: ks).length = (s ++ c :: ks).length := by
  rcases List.eq_nil_or_concat ks with rfl | ⟨t, d, rfl⟩
  · exact trimLen_full s c h
  · rw [List.concat_eq_append] at hk ⊢
    have := hk d (by simp)
    have e : s ++ c :: (t ++ [d]) = (s ++ c :: t) ++ [d] := by simp
    rw [e]; exact trimLen_full _ _ (by omega)

theorem digit_is {a : Nat} (h : 48 ≤ a ∧ a ≤ 57) : isDigit a = true := (isDigit_iff a).2 h
theorem upper_is {a : Nat} (h : 65 ≤ a ∧ a ≤ 90) : isUpper a = true := (isUpper_iff a).2 h

theorem create_head (o : List Nat) (h0 : at? o 0 ≠ 32) (h1 : at? o 0 ≠ 40) :
    createPackedDesig o = createComet o false := by
  have hd : o.dropWhile (· == 32) = o := by
    cases o with
    | nil => rfl
    | cons c o => rw [at_zero] at h0; rw [List.dropWhile_cons_of_neg (by simp [h0])]
  unfold createPackedDesig
  simp only [hd, h1, false_and, if_false]

theorem create_plain (o : List Nat) (h0 : at? o 0 ≠ 32) (h1 : at? o 0 ≠ 40) (h2 : at? o 1 ≠ 47) :
    createPackedDesig o = createCore o o 0 false := by
  rw [create_head o h0 h1, createComet, if_neg (fun h => h2 h.1)]

theorem create_comet (c : Nat) (o : List Nat) (h0 : c = 80 ∨ c = 67 ∨ c = 88 ∨ c = 68 ∨ c = 65) :
    createPackedDesig (c :: 47 :: o) = createCore (c :: 47 :: o) o c false := by
  rw [create_head _ (by rw [at_zero]; omega) (by rw [at_zero]; omega), createComet, if_pos]
  · rfl
  · refine ⟨rfl, ?_⟩
    rw [at_zero]
    rcases h0 with rfl | rfl | rfl | rfl | rfl <;> decide

/-- The leading year of a name: value and digit count. -/
theorem year_read {a b c d : Nat} (ha : 48 ≤ a ∧ a ≤ 57) (hb : 48 ≤ b ∧ b ≤ 57) (hc : 48 ≤ c ∧ c ≤ 57)
    (hd : 48 ≤ d ∧ d ≤ 57) (rest : List Nat) (hr : isDigit (at? rest 0) = false) :
    readDigits 0 (a :: b :: c :: d :: rest) = (a - 48) * 1000 + (b - 48) * 100 + (c - 48) * 10 + (d - 48) ∧
    digitCount (a :: b :: c :: d :: rest) = 4 := by
  simp only [readDigits, digitCount, digit_is ha, digit_is hb, digit_is hc, digit_is hd, if_true,
    readDigits_stop _ _ hr, digitCount_stop _ hr, and_true]
  omega

/-- No survey name starts with two capitals. -/
theorem survey_none (l m : Nat) (rest : List Nat) (h : 65 ≤ m) :
    surveys.find? (fun s => (l :: m :: rest) == s.1) = none := by
  rw [List.find?_eq_none]
  intro s hs
  have h1 : ∀ s ∈ surveys, at? s.1 1 = 45 := by decide
  have := h1 s hs
  intro h2
  rw [← beq_iff_eq.1 h2, at_succ, at_zero] at this
  omega

/-- The packer on `YYYY LM<digits>` reaches the provisional branch. -/
theorem create_prov {a b c d l m : Nat} {ks : List Nat} (ha : 48 ≤ a ∧ a ≤ 57) (hb : 48 ≤ b ∧ b ≤ 57)
    (hc : 48 ≤ c ∧ c ≤ 57) (hd : 48 ≤ d ∧ d ≤ 57) (hl : 65 ≤ l ∧ l ≤ 90) (hm : 65 ≤ m ∧ m ≤ 90)
    (hk : Digits ks) (hy : a = 49 ∨ a = 50) :
    createPackedDesig (a :: b :: c :: d :: 32 :: l :: m :: ks) =
      (let y := (a - 48) * 1000 + (b - 48) * 100 + (c - 48) * 10 + (d - 48)
       let r := packProvisional (a :: b :: c :: d :: 32 :: l :: m :: ks) 5 (7 + ks.length) y 0
       if r.1 = 0 then r
       else packFallback r.2 (a :: b :: c :: d :: 32 :: l :: m :: ks) (7 + ks.length)) := by
  have hyr := year_read ha hb hc hd (32 :: l :: m :: ks) (by rw [at_zero]; decide)
  have htl : trimLen (a :: b :: c :: d :: 32 :: l :: m :: ks) (a :: b :: c :: d :: 32 :: l :: m :: ks).length
      = 7 + ks.length := by
    have := trimLen_digits [a, b, c, d, 32, l] ks m (by omega) hk
    simp only [List.cons_append, List.nil_append] at this
    rw [this]; simp; omega
  have e1 : strchr (bytes "PDI") 32 = false := by decide
  rw [create_plain _ (by rw [at_zero]; omega) (by rw [at_zero]; omega) (by rw [at_succ, at_zero]; omega)]
  unfold createCore
  simp only [hyr, Bool.false_eq_true, if_false, htl]
  have hy2 : ((a - 48) * 1000 + (b - 48) * 100 + (c - 48) * 10 + (d - 48)) % 4294967296 =
    (a - 48) * 1000 + (b - 48) * 100 + (c - 48) * 10 + (d - 48) := by omega
  rw [hy2]
  have hy3 : 999 < (a - 48) * 1000 + (b - 48) * 100 + (c - 48) * 10 + (d - 48) := by omega
  have hy4 : (a - 48) * 1000 + (b - 48) * 100 + (c - 48) * 10 + (d - 48) < 9000 := by omega
  generalize (a - 48) * 1000 + (b - 48) * 100 + (c - 48) * 10 + (d - 48) = y at *
  unfold createBranch
  have hl2 : 4 < 7 + ks.length := by omega
  have a4 : at? (a :: b :: c :: d :: 32 :: l :: m :: ks) 4 = 32 := by simp [at?]
  have a5 : at? (a :: b :: c :: d :: 32 :: l :: m :: ks) 5 = l := by simp [at?]
  have hdr : (a :: b :: c :: d :: 32 :: l :: m :: ks).drop 5 = l :: m :: ks := rfl
  simp only [a4, e1, Bool.false_eq_true, and_false, if_false, hl2, if_true, a5, hy3, hy4, upper_is hl,
    hdr, survey_none l m ks hm.1, ne_eq, not_true_eq_false, and_self]

/-- The classic packed form. -/
theorem packProv_classic {a b c d l m y : Nat} {ks : List Nat} (hl : 65 ≤ l ∧ l ≤ 90) (hm : 65 ≤ m ∧ m ≤ 90)
    (hk : Digits ks) (hy : y < 6200) (hn : readDigits 0 ks < 620) :
    packProvisional (a :: b :: c :: d :: 32 :: l :: m :: ks) 5 (7 + ks.length) y 0 =
      (0, [32, 32, 32, 32, 32, intToMutantHexChar (y / 100 : Nat), c, d, l,
        intToMutantHexChar (readDigits 0 ks / 10 : Nat), intToMutantHexChar (readDigits 0 ks % 10 : Nat), m]) := by
  have hdc : digitCount ks = ks.length := by
    have := digitCount_append ks [] hk
    simpa [digitCount] using this
  have hlow : isLower l = false := by rw [isLower_false]; omega
  have h7 : (a :: b :: c :: d :: 32 :: l :: m :: ks).drop 7 = ks := rfl
  unfold packProvisional
  simp [at?, upper_is hm, hy, hn, toUpper, hlow, hdc, blank12, List.replicate]

/-- The extended packed form. -/
theorem packProv_extended {a b c d l m y : Nat} {ks : List Nat} (hl : 65 ≤ l ∧ l ≤ 90) (hm : 65 ≤ m ∧ m ≤ 90)
    (hk : Digits ks) (hy1 : 2000 ≤ y) (hy2 : y < 2062) (hn : 620 ≤ readDigits 0 ks)
    (h : ((readDigits 0 ks : Int) - 620) * 25 + m - 65 - (if 73 < m then 1 else 0) < 62 ^ 4) :
    packProvisional (a :: b :: c :: d :: 32 :: l :: m :: ks) 5 (7 + ks.length) y 0 =
      (0, [32, 32, 32, 32, 32, 95, intToMutantHexChar ((y : Int) - 2000), l] ++
        (encodeMutantHex 4 (((readDigits 0 ks : Int) - 620) * 25 + m - 65 - (if 73 < m then 1 else 0))).1) := by
  have hdc : digitCount ks = ks.length := by
    have := digitCount_append ks [] hk
    simpa [digitCount] using this
  have hlow : isLower l = false := by rw [isLower_false]; omega
  have h1 : y < 6200 := by omega
  have h2 : ¬ readDigits 0 ks < 620 := by omega
  have hl := encode_length 4 (((readDigits 0 ks : Int) - 620) * 25 + m - 65 - (if 73 < m then 1 else 0))
  have e : (if m > 73 then ((readDigits 0 ks : Int) - 620) * 25 + m - 65 - 1 else
      ((readDigits 0 ks : Int) - 620) * 25 + m - 65) =
      ((readDigits 0 ks : Int) - 620) * 25 + m - 65 - (if 73 < m then 1 else 0) := by split <;> omega
  unfold packProvisional
  simp only [at?, List.getD_cons_succ, List.getD_cons_zero, upper_is hm, h1, h2, toUpper, hlow, blank12,
    List.replicate, if_true, if_false, Bool.false_eq_true, List.set_cons_succ, List.set_cons_zero, hy1, hy2,
    List.drop_succ_cons, List.drop_zero, e, decide_true, decide_false, Bool.not_false, Bool.and_true, Bool.not_true,
    Bool.false_and, Bool.false_or, Bool.true_and, hdc]
  generalize ((readDigits 0 ks : Int) - 620) * 25 + m - 65 - (if 73 < m then 1 else 0) = n at *
  have h3 : ¬ n ≥ 62 * 62 * 62 * 62 := by omega
  generalize (encodeMutantHex 4 n).1 = e at *
  match e, hl with
  | [p, q, r, s], _ =>
    simp [put]
    exact ⟨by omega, fun h => by omega⟩

/-- A provisional designation in columns 6-12, with an optional comet letter in column 5. -/
theorem unpack_prov {x : Nat} {s o : List Nat} (hx : x = 32 ∨ x = 80 ∨ x = 67 ∨ x = 88 ∨ x = 68 ∨ x = 65)
    (hs : unpackProv s = ⟨0, some o⟩) :
    unpackMpcDesig (32 :: 32 :: 32 :: 32 :: x :: s) =
      .ok (if x = 32 ∨ x = 65 then 0 else 2, (if x = 32 then [] else [x, 47]) ++ o) := by
  have h83 : x ≠ 83 := by omega
  have e1 : isAlnum 32 = false := by decide
  have e2 : strchr (bytes " PCDXA") x = true := by
    rcases hx with rfl | rfl | rfl | rfl | rfl | rfl <;> decide
  unfold unpackMpcDesig
  simp only [at_zero, at_succ, unpackNatsat, h83, List.drop_succ_cons, List.drop_zero, hs, e1, Bool.false_eq_true,
    false_and, if_false, ne_eq, not_false_eq_true, if_true, bind, Outcome.bind, (by decide : ¬ (32 = 36)),
    (by decide : ¬ (32 = 126))]
  unfold unpackRest
  have e3 : spacesAt (32 :: 32 :: 32 :: 32 :: x :: s) [0, 1, 2, 3] = true := by
    simp [spacesAt, at?]
  simp only [e3, at_zero, at_succ, e2, List.drop_succ_cons, List.drop_zero, hs]
  by_cases h1 : x = 32
  · subst h1
    simp [OBJ_DESIG_OTHER, OBJ_DESIG_ASTEROID_PROVISIONAL]
  · by_cases h2 : x = 65
    · simp [h2, OBJ_DESIG_OTHER, OBJ_DESIG_ASTEROID_PROVISIONAL]
    · simp [h1, h2, OBJ_DESIG_OTHER, OBJ_DESIG_COMET_PROVISIONAL]

/-- Unpacking the classic form: `K04J42X` and the like. -/
theorem unpackProv_classic {k c d l h t m : Nat} (hk : 71 ≤ k ∧ k ≤ 75) (hc : 48 ≤ c ∧ c ≤ 57) (hd : 48 ≤ d ∧ d ≤ 57)
    (hl : 65 ≤ l ∧ l ≤ 90) (hh : 0 ≤ mutantHexCharToInt h) (ht : 48 ≤ t ∧ t ≤ 57)
    (hm : isAlpha m = true ∨ m = 48) :
    unpackProv [k, c, d, l, h, t, m] = ⟨0, some ([if k ≥ 75 then 50 else 49, 48 + (k - 65) % 10, c, d, 32, l] ++
      (if isUpper m then [m] else []) ++
      (if mutantHexCharToInt h * 10 + t - 48 = 0 then [] else decInt (mutantHexCharToInt h * 10 + t - 48)) ++
      (if isLower m then [45, m - 32] else []))⟩ := by
  have h1 : ¬ k = 95 := by omega
  have h2 : mutantHexCharToInt h ≠ -1 := by omega
  have h3 : m + 65 - 97 = m - 32 := by omega
  unfold unpackProv
  simp only [at_zero, at_succ, h1, false_and, if_false]
  rw [if_pos ⟨hk.1, hk.2, digit_is hc, digit_is hd, upper_is hl, digit_is ht, hm⟩]
  simp only [h2, if_false, h3]
  congr 2
  by_cases e1 : isUpper m = true <;> by_cases e2 : isLower m = true <;>
    by_cases e3 : mutantHexCharToInt h * 10 + (t : Int) - 48 = 0 <;> simp [e1, e2, e3]

/-- Unpacking the extended form. -/
theorem unpackProv_extended {y l a b c d : Nat} {n : Int} (hy : 0 ≤ mutantHexCharToInt y) (hl : 65 ≤ l ∧ l ≤ 90)
    (hn : getMutantHexLoop 0 [a, b, c, d] = n) (h0 : 0 ≤ n) :
    unpackProv [95, y, l, a, b, c, d] = ⟨0, some (decInt (mutantHexCharToInt y + 2000) ++
      [32, l, if n % 25 ≥ 8 then 66 + (n % 25).toNat else 65 + (n % 25).toNat] ++ decInt (620 + n / 25))⟩ := by
  have hv : getMutantHexValue [a, b, c, d] 4 = n := by rw [← hn]; exact getValue_eq [a, b, c, d] []
  unfold unpackProv
  simp only [at_zero, at_succ, List.drop_succ_cons, List.drop_zero, hv]
  have e : ∀ z : Int, 0 ≤ z → (if 65 + z.toNat ≥ 73 then 65 + z.toNat + 1 else 65 + z.toNat) =
      (if z ≥ 8 then 66 + z.toNat else 65 + z.toNat) := by
    intro z hz; split <;> split <;> omega
  rw [if_pos ⟨trivial, hl⟩, if_neg (by omega), Int.tmod_eq_emod_of_nonneg h0, Int.tdiv_eq_ediv_of_nonneg h0,
    e _ (by omega)]

end Verif.Desig
