import Verif.Props.Satellites
import Verif.Props.Comets

/-! # Shape of packed designations, totality of unpacking (C53, C54) -/

namespace Verif.Props
open Verif.Desig Verif.Spec

theorem put_length (p : List Nat) (i : Nat) (bs : List Nat) : (put p i bs).length = p.length := by
  induction bs generalizing p i with
  | nil => rfl
  | cons b bs ih => rw [put, ih, List.length_set]

theorem fallback_shape (p full : List Nat) (len : Nat) (h : p.length = 12) :
    (packFallback p full len).1 = -1 ∧ (packFallback p full len).2.length = 12 := by
  unfold packFallback
  split <;> simp [put_length, h]

theorem packProvisional_shape (o : List Nat) (i len number comet : Nat) :
    ((packProvisional o i len number comet).1 = 0 ∨ (packProvisional o i len number comet).1 = -1) ∧
      (packProvisional o i len number comet).2.length = 12 := by
  have hb : blank12.length = 12 := rfl
  have hif : ∀ (c : Prop) [Decidable c] (a b : List Nat), a.length = 12 → b.length = 12 → (if c then a else b).length = 12 := by
    intro c _ a b ha hb; split <;> assumption
  unfold packProvisional
  extract_lets p1 p2 p3 p4 p5 i1 second mangled p6 i2 sub n1 n2 ext mangled2 p7 i3 p8 frag p9 i4
  have h1 : p1.length = 12 := rfl
  have h2 : p2.length = 12 := hif _ _ _ (by rw [List.length_set, h1]) h1
  have h3 : p3.length = 12 := by rw [List.length_set, h2]
  have h4 : p4.length = 12 := by rw [List.length_set, h3]
  have h5 : p5.length = 12 := by rw [List.length_set, h4]
  have h6 : p6.length = 12 := hif _ _ _ (by rw [List.length_set, h5]) (hif _ _ _ h5 (by rw [List.length_set, h5]))
  split
  · have h7 : p7.length = 12 := by
      apply hif
      · rw [List.length_set, List.length_set, h6]
      · apply hif
        · rw [put_length, List.length_set, List.length_set, List.length_set, h6]
        · exact h6
    have h8 : p8.length = 12 := hif _ _ _ (by rw [List.length_set, h7]) h7
    have h9 : p9.length = 12 := hif _ _ _ (by rw [List.length_set, h8]) h8
    refine ⟨?_, h9⟩
    show (if _ then (0 : Int) else -1) = 0 ∨ (if _ then (0 : Int) else -1) = -1
    split <;> simp
  · exact ⟨Or.inr rfl, h6⟩

theorem permanent_length (o p : List Nat) (h : packPermanentNatsat o = some p) : p.length = 12 := by
  unfold packPermanentNatsat at h
  obtain ⟨nm, -, h2⟩ := List.exists_of_findSome?_eq_some h
  split at h2
  · simp only [] at h2
    generalize (if atoi (List.drop (nm.length + 1) o) = 0 then _ else _ : Int) = n at h2
    split at h2
    · rename_i hn
      have : p = _ := (Option.some.inj h2).symm
      rw [this, pad3 (by omega)]; rfl
    · cases h2
  · cases h2

theorem provisional_length (o p : List Nat) (h : packProvisionalNatsat o = some p) : p.length = 12 := by
  unfold packProvisionalNatsat at h
  split at h
  · simp only [] at h
    split at h
    · have : p = _ := (Option.some.inj h).symm
      rw [this, pad2 (by omega)]; rfl
    · cases h
  · cases h

theorem branch_shape (full o : List Nat) (comet : Nat) (paren : Bool) (number i len : Nat) :
    ((createBranch full o comet paren number i len).1 = 0 ∨ (createBranch full o comet paren number i len).1 = -1) ∧
      (createBranch full o comet paren number i len).2.length = 12 := by
  have hfb : ∀ p : List Nat, p.length = 12 → ∀ len, ((packFallback p full len).1 = 0 ∨ (packFallback p full len).1 = -1) ∧
      (packFallback p full len).2.length = 12 := fun p hp len =>
    ⟨Or.inr (fallback_shape p full len hp).1, (fallback_shape p full len hp).2⟩
  have hb : blank12.length = 12 := rfl
  unfold createBranch
  extract_lets fallback p i2 r nfrag q
  split
  · have hp : p.length = 12 := by rw [put_length, hb]
    split
    · split <;> simp [hp]
    · simp [hp]
  · split
    · split
      · simp [put_length, hb]
      · have hr := packProvisional_shape o i2 len number comet
        split
        · exact hr
        · exact hfb _ hr.2 _
    · split
      · split
        · refine ⟨Or.inl rfl, ?_⟩
          simp only []
          rw [pad4 (by omega)]; rfl
        · refine ⟨Or.inl rfl, ?_⟩
          simp only []
          rw [put_length, hb]
      · split
        · rename_i hn
          have hp : (pad 4 number ++ [comet] ++ bytes "       ").length = 12 := by rw [pad4 hn.1]; rfl
          split
          · split
            · exact ⟨Or.inl rfl, by rw [List.length_set]; exact hp⟩
            · split
              · exact ⟨Or.inl rfl, by rw [List.length_set, List.length_set]; exact hp⟩
              · exact ⟨Or.inl rfl, hp⟩
          · exact hfb _ hb _
        · split
          · split
            · exact ⟨Or.inl rfl, by simp only []; rw [put_length, hb]⟩
            · exact hfb _ hb _
          · split
            · rename_i p hp
              exact ⟨Or.inl rfl, permanent_length o p hp⟩
            · split
              · rename_i p hp
                exact ⟨Or.inl rfl, provisional_length o p hp⟩
              · exact hfb _ hb _

/-- **C53.** Whatever the name, the packer returns 0 or -1 and stores exactly twelve bytes. -/
theorem C53_twelve_bytes (name : List Nat) :
    ((createPackedDesig name).1 = 0 ∨ (createPackedDesig name).1 = -1) ∧ (createPackedDesig name).2.length = 12 := by
  have h : ∀ o paren, ((createComet o paren).1 = 0 ∨ (createComet o paren).1 = -1) ∧ (createComet o paren).2.length = 12 := by
    intro o paren
    unfold createComet
    split <;> exact branch_shape _ _ _ _ _ _ _
  unfold createPackedDesig
  extract_lets o j
  split <;> exact h _ _

example : createPackedDesig (bytes "An unusual name") = (-1, bytes "$An unusual ") := by decide +kernel

/-- **C53**, the part that is violated: the twelve bytes are promised to be a string, but one of them
    can be NUL. -/
theorem C53_embedded_nul : (createPackedDesig (bytes "C/2004 A620")).1 = 0 ∧
    0 ∈ (createPackedDesig (bytes "C/2004 A620")).2 := by decide +kernel

/-! ## Unpacking is total -/

theorem decInt_small (z : Int) (h1 : -10 ≤ z) (h2 : z < 1000) : (decInt z).length ≤ 3 := by
  unfold decInt
  split
  · have : (dec z.natAbs).length ≤ 2 := dec_length_le (k := 1) (by omega)
    simp; omega
  · exact dec_length_le (k := 2) (by omega)

theorem prov_length (s : List Nat) (h : at? s 0 ≠ 95) : ∃ o, (unpackProv s).out = some o ∧ o.length ≤ 11 := by
  unfold unpackProv
  rw [if_neg (fun h1 => h h1.1)]
  split
  · rename_i hc
    refine ⟨_, rfl, ?_⟩
    have ht := (isDigit_iff _).1 hc.2.2.2.2.2.1
    have hr := charToInt_range (at? s 4)
    have hl := decInt_small (mutantHexCharToInt (at? s 4) * 10 + (at? s 5 : Int) - 48) (by omega) (by omega)
    have hul : ¬ (isUpper (at? s 6) = true ∧ isLower (at? s 6) = true) := by
      rw [isUpper_iff, isLower_iff]; omega
    by_cases q1 : isUpper (at? s 6) = true <;> by_cases q2 : isLower (at? s 6) = true
    · exact absurd ⟨q1, q2⟩ hul
    all_goals
      by_cases q3 : mutantHexCharToInt (at? s 4) * 10 + (at? s 5 : Int) - 48 = 0 <;> simp [q1, q2, q3] <;> omega
  · exact ⟨[], rfl, by simp⟩

theorem prov_nonempty (s : List Nat) (h : at? s 0 ≠ 95) (hn : (unpackProv s).out ≠ some []) :
    71 ≤ at? s 0 ∧ at? s 0 ≤ 75 := by
  unfold unpackProv at hn
  rw [if_neg (fun h1 => h h1.1)] at hn
  split at hn
  · rename_i hc; exact ⟨hc.1, hc.2.1⟩
  · exact absurd rfl hn

theorem charToInt_alnum (c : Nat) (h : isAlnum c = true) : mutantHexCharToInt c ≠ -1 := by
  rw [isAlnum_iff] at h
  unfold mutantHexCharToInt
  split_ifs <;> omega

theorem readDigits_four (p : List Nat) (hp : p.length = 12) (h : isDigit (at? p 5) = false) :
    readDigits 0 (p.drop 1) < 10000 := by
  obtain ⟨c0, c1, c2, c3, c4, c5, rest, rfl⟩ : ∃ c0 c1 c2 c3 c4 c5 rest, p = c0 :: c1 :: c2 :: c3 :: c4 :: c5 :: rest := by
    match p, hp with
    | c0 :: c1 :: c2 :: c3 :: c4 :: c5 :: rest, _ => exact ⟨_, _, _, _, _, _, _, rfl⟩
  have h' : isDigit c5 = false := h
  have hb : ∀ c, isDigit c = true → c - 48 < 10 := by
    intro c hc; rw [isDigit_iff] at hc; omega
  simp only [List.drop_succ_cons, List.drop_zero, readDigits]
  split
  · rename_i q1
    have := hb _ q1
    split
    · rename_i q2
      have := hb _ q2
      split
      · rename_i q3
        have := hb _ q3
        split
        · rename_i q4
          have := hb _ q4
          rw [if_neg (by simp [h'])]
          omega
        · omega
      · omega
    · omega
  · omega

/-- **C54**, packed strings without an underscore in column 6 and not of the numbered satellite form:
    unpacking returns normally, whatever the twelve bytes are.
    Full statement (false, see `C54_underscore_uninitialised`, `C54_too_long`, `C23_permanent_exits`):
    the same without `h5` and `hS`. -/
theorem C54_total_partial (p : List Nat) (hp : p.length = 12) (h5 : at? p 5 ≠ 95) 
    (hS : ¬ (at? p 4 = 83 ∧ isDigit (at? p 1) = true ∧ isDigit (at? p 2) = true ∧ isDigit (at? p 3) = true)) :
    ∃ r, unpackMpcDesig p = .ok r := by
  have h5' : at? (p.drop 5) 0 ≠ 95 := by
    have : at? (p.drop 5) 0 = at? p 5 := by simp [at?]
    rw [this]; exact h5
  obtain ⟨pv, hpv, hpl⟩ := prov_length (p.drop 5) h5'
  unfold unpackMpcDesig
  split
  · rw [if_neg (by simp [hp])]; exact ⟨_, rfl⟩
  · have hnat : ∃ q, unpackNatsat p = .ok q := by
      unfold unpackNatsat
      split
      · exact ⟨_, rfl⟩
      · rename_i q4
        rw [if_neg]
        · split <;> exact ⟨_, rfl⟩
        · intro hd
          have hd := List.all_eq_true.1 hd.2.1
          exact hS ⟨by omega, hd 1 (by simp), hd 2 (by simp), hd 3 (by simp)⟩
    obtain ⟨q, hq⟩ := hnat
    simp only [bind, Outcome.bind, hpv, hq]
    split
    · rename_i hn
      cases pv with
      | nil => exact ⟨_, rfl⟩
      | cons c cs =>
        simp only []
        have hlen : (decInt (getMutantHexValue (p.drop 1) 4 + 620000)).length ≤ 8 := by
          have hlt : getMutantHexValue (p.drop 1) 4 < 62 ^ 4 := by
            by_cases hv : ∀ x ∈ (List.range 4).map (at? (p.drop 1)), mutantHexCharToInt x ≠ -1
            · have := (loop_range _ hv).2
              simpa [getMutantHexValue] using this
            · have hv' : ∃ x ∈ (List.range 4).map (at? (p.drop 1)), mutantHexCharToInt x = -1 := by
                rcases Classical.em (∃ x ∈ (List.range 4).map (at? (p.drop 1)), mutantHexCharToInt x = -1) with h | h
                · exact h
                · exact absurd (fun x hx h2 => h ⟨x, hx, h2⟩) hv
              have := loop_invalid 0 _ hv'
              unfold getMutantHexValue; omega
          unfold decInt
          rw [if_neg (by omega)]
          exact dec_length_le (k := 7) (by omega)
        rw [appendErr, if_neg]
        · exact ⟨_, rfl⟩
        · simp only [List.length_append, List.length_cons, List.length_nil] at hpl ⊢; omega
    · split
      · rename_i h; simp at h
      · split
        · rename_i hc
          have h5d : isDigit (at? p 5) = false := by
            rw [isDigit_false]
            rcases hc.2.2.1 with hs | hs
            · have : at? p 5 = 32 := by
                have := List.all_eq_true.1 hs 5 (by simp)
                simpa using this
              omega
            · have := prov_nonempty (p.drop 5) h5' (by rw [hpv]; exact hs)
              have e : at? (p.drop 5) 0 = at? p 5 := by simp [at?]
              omega
          have hrd := readDigits_four p hp h5d
          have hr := charToInt_range (at? p 0)
          have hlen : (decInt (mutantHexCharToInt (at? p 0) * 10000 + (readDigits 0 (p.drop 1) : Int))).length ≤ 6 := by
            have h0 : mutantHexCharToInt (at? p 0) ≠ -1 := charToInt_alnum _ hc.1
            unfold decInt
            rw [if_neg (by omega)]
            exact dec_length_le (k := 5) (by omega)
          cases pv with
          | nil => exact ⟨_, rfl⟩
          | cons c cs =>
            simp only []
            rw [appendErr, if_neg]
            · exact ⟨_, rfl⟩
            · have : (bytes " = ").length = 3 := rfl
              simp only [List.length_append, List.length_cons, List.length_nil, this] at hpl ⊢; omega
        · split <;> exact ⟨_, rfl⟩

example : unpackMpcDesig (bytes "!@#$%^&*()+=") = .ok (OBJ_DESIG_OTHER, bytes "!@#$%^&*()+=") := by decide +kernel

/-- **C54**, violated: a number followed by an underscore form with a bad digit makes the unpacker
    read an array it has not written. -/
theorem C54_underscore_uninitialised : unpackMpcDesig (bytes "00433_0A!!!!") = .ub := by decide +kernel

/-- **C54**, violated: a number followed by the longest underscore form does not fit in the buffer and
    the program aborts. -/
theorem C54_too_long : unpackMpcDesig (bytes "~zzzz_0Azzzz") = .abort ∧
    unpackMpcDesig (bytes "z9999_0Azzzz") = .abort := by decide +kernel

end Verif.Props
