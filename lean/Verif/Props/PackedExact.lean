import Verif.Props.Packed
import Verif.Props.MutantHex

/-! # Exactly which packed designations make the unpacker fail (C54) -/

namespace Verif.Props
open Verif.Desig Verif.Spec

/-- All bytes are base-62 digits. -/
def Base62 (ds : List Nat) : Prop := ∀ d ∈ ds, d ∈ base62Alphabet

/-- Columns 6-12 hold an underscore designation (`_QC0000` and the like); `v` is its number. -/
def GoodUnderscore (u : List Nat) (v : Nat) : Prop :=
  ∃ y l ds, u = [95, y, l] ++ ds ∧ ds.length = 4 ∧ Capital l ∧ Base62 (y :: ds) ∧ base62Value ds = v

/-- The same shape, but one of the five digits is not a base-62 digit. -/
def BadUnderscore (u : List Nat) : Prop :=
  ∃ y l ds, u = [95, y, l] ++ ds ∧ ds.length = 4 ∧ Capital l ∧ ¬ Base62 (y :: ds)

/-- Columns 1-5 hold a number from 620000 on: tilde and four base-62 digits. -/
def TildeNumber (h : List Nat) (n : Nat) : Prop :=
  ∃ ds, h = 126 :: ds ∧ Base62 ds ∧ n = 620000 + base62Value ds

/-- Columns 1-4 hold a base-62 digit and three decimal digits: a minor planet or comet number. -/
def NumberHead (h : List Nat) : Prop :=
  ∃ c ds x, h = c :: ds ++ [x] ∧ ds.length = 3 ∧ c ∈ base62Alphabet ∧ AllDigits ds

/-- Columns 1-5 hold the minor planet number `n`. -/
def PlanetNumber (h : List Nat) (n : Nat) : Prop :=
  ∃ c ds, h = c :: ds ∧ ds.length = 4 ∧ c ∈ base62Alphabet ∧ AllDigits ds ∧
    n = base62Alphabet.idxOf c * 10000 + value ds

/-- A numbered satellite whose name takes sixteen characters or more. -/
def LongSatellite (p : List Nat) : Prop :=
  ∃ pl ∈ planets, ∃ n ds, Padded 3 n ds ∧ p = [at? pl 0] ++ ds ++ [83] ++ List.replicate 7 32 ∧
    16 ≤ (pl ++ [32] ++ roman n).length

/-- The two numbers have at least `k` digits together. -/
def DigitsTogether (n m k : Nat) : Prop := ∃ ns ms, Numeral n ns ∧ Numeral m ms ∧ k ≤ ns.length + ms.length

theorem digitsTogether_iff (n m k : Nat) : DigitsTogether n m k ↔ k ≤ (dec n).length + (dec m).length := by
  constructor
  · rintro ⟨ns, ms, h1, h2, h3⟩
    rw [← h1.eq_dec, ← h2.eq_dec]; exact h3
  · intro h
    exact ⟨_, _, numeral_dec n, numeral_dec m, h⟩

theorem alnum_iff_alphabet (c : Nat) : isAlnum c = true ↔ c ∈ base62Alphabet := by
  by_cases hc : c < 123
  · have h : ∀ c : Fin 123, isAlnum c.val = true ↔ c.val ∈ base62Alphabet := by decide +kernel
    exact h ⟨c, hc⟩
  · have h1 : ∀ x ∈ base62Alphabet, x < 123 := by decide +kernel
    constructor
    · intro h; rw [isAlnum_iff] at h; omega
    · intro h; exact absurd (h1 c h) hc

theorem char_value {c : Nat} (h : c ∈ base62Alphabet) : mutantHexCharToInt c = base62Alphabet.idxOf c := by
  have h1 : ∀ x ∈ base62Alphabet, mutantHexCharToInt x = base62Alphabet.idxOf x := by decide +kernel
  exact h1 c h

theorem prov_length' (s : List Nat) (h : ¬ (at? s 0 = 95 ∧ Capital (at? s 2))) :
    ∃ o, (unpackProv s).out = some o ∧ o.length ≤ 11 ∧ (o ≠ [] → 71 ≤ at? s 0 ∧ at? s 0 ≤ 75) := by
  by_cases h0 : at? s 0 = 95
  · refine ⟨[], ?_, by simp, by simp⟩
    unfold unpackProv
    rw [if_neg (fun h1 => h ⟨h1.1, h1.2⟩), if_neg (by omega)]
  · obtain ⟨o, h1, h2⟩ := prov_length s h0
    refine ⟨o, h1, h2, fun hne => prov_nonempty s h0 ?_⟩
    rw [h1]; simpa using hne

theorem prov_good {y l : Nat} {ds : List Nat} (hds : ds.length = 4) (hl : Capital l) (hb : Base62 (y :: ds)) :
    ∃ o, (unpackProv ([95, y, l] ++ ds)).out = some o ∧ o ≠ [] ∧
      o.length = 7 + (dec (620 + base62Value ds / 25)).length := by
  have hv := C18_decode ds [] (fun d hd => hb d (by simp [hd]))
  rw [List.append_nil, hds] at hv
  have hy := char_value (hb y (by simp))
  have hy2 : base62Alphabet.idxOf y < 62 := by
    have : base62Alphabet.length = 62 := by decide +kernel
    rw [← this]; exact List.idxOf_lt_length_of_mem (hb y (by simp))
  have hd3 : ([95, y, l] ++ ds).drop 3 = ds := rfl
  have e0 : at? ([95, y, l] ++ ds) 0 = 95 := rfl
  have e1 : at? ([95, y, l] ++ ds) 1 = y := rfl
  have e2 : at? ([95, y, l] ++ ds) 2 = l := rfl
  unfold unpackProv
  rw [e0, e1, e2, hd3, hv, hy, if_pos ⟨rfl, hl⟩]
  simp only []
  rw [if_neg (by omega)]
  refine ⟨_, rfl, by simp, ?_⟩
  have h1 : decInt ((base62Alphabet.idxOf y : Int) + 2000) = dec (base62Alphabet.idxOf y + 2000) := by
    rw [decInt, if_neg (by omega)]; congr 1
  have h2 : decInt (620 + Int.tdiv (base62Value ds : Int) 25) = dec (620 + base62Value ds / 25) := by
    rw [Int.tdiv_eq_ediv_of_nonneg (by omega), decInt, if_neg (by omega)]; congr 1
  rw [h1, h2, dec4 (by omega) (by omega)]
  simp; omega

theorem prov_bad {y l : Nat} {ds : List Nat} (hds : ds.length = 4) (hl : Capital l) (hb : ¬ Base62 (y :: ds)) :
    (unpackProv ([95, y, l] ++ ds)).out = none := by
  have hd3 : ([95, y, l] ++ ds).drop 3 = ds := rfl
  have e0 : at? ([95, y, l] ++ ds) 0 = 95 := rfl
  have e1 : at? ([95, y, l] ++ ds) 1 = y := rfl
  have e2 : at? ([95, y, l] ++ ds) 2 = l := rfl
  unfold unpackProv
  rw [e0, e1, e2, hd3, if_pos ⟨rfl, hl⟩]
  simp only []
  rw [if_pos]
  by_cases hy : y ∈ base62Alphabet
  · right
    have : ∃ d ∈ ds, d ∉ base62Alphabet := by
      by_contra hn
      push Not at hn
      apply hb
      intro d hd
      rcases List.mem_cons.1 hd with rfl | hd
      · exact hy
      · exact hn d hd
    have hv := C18_decode_invalid ds [] this
    rw [List.append_nil, hds] at hv
    omega
  · left
    have := charToInt_range y
    have hn := (valid_iff y).not.2 hy
    omega

theorem tilde_value {a b c d : Nat} (rest : List Nat) :
    (Base62 [a, b, c, d] ∧ getMutantHexValue ([a, b, c, d] ++ rest) 4 = base62Value [a, b, c, d]) ∨
    (¬ Base62 [a, b, c, d] ∧ getMutantHexValue ([a, b, c, d] ++ rest) 4 = -1) := by
  by_cases h : Base62 [a, b, c, d]
  · exact Or.inl ⟨h, C18_decode [a, b, c, d] rest h⟩
  · refine Or.inr ⟨h, C18_decode_invalid [a, b, c, d] rest ?_⟩
    unfold Base62 at h
    push Not at h
    exact h

theorem natsat_exact (p : List Nat) (hp : p.length = 12) (h0 : at? p 0 ≠ 0) :
    (LongSatellite p ∧ unpackNatsat p = .abort) ∨ (¬ LongSatellite p ∧ ∃ q, unpackNatsat p = .ok q) := by
  have hplanet : ∀ x ∈ bytes "MVEJSUNP", ∃ pl ∈ planets, at? pl 0 = x ∧ pl.length < 15 ∧
      planetNames.filter (fun nm => at? nm 0 == x) = [pl] := by decide
  have hinit : ∀ pl ∈ planets, strchr (bytes "MVEJSUNP") (at? pl 0) = true := by decide
  have huniq : ∀ pl ∈ planets, ∀ pl' ∈ planets, at? pl 0 = at? pl' 0 → pl = pl' := by decide
  match p, hp with
  | [c0, c1, c2, c3, c4, c5, c6, c7, c8, c9, c10, c11], _ =>
    by_cases hc : c4 = 83 ∧ strchr (bytes "MVEJSUNP") c0 = true ∧
        digitsAt [c0, c1, c2, c3, c4, c5, c6, c7, c8, c9, c10, c11] [1, 2, 3] = true ∧
        spacesAt [c0, c1, c2, c3, c4, c5, c6, c7, c8, c9, c10, c11] [5, 6, 7, 8, 9, 10, 11] = true
    · obtain ⟨h4, hst, hdg, hsp⟩ := hc
      have hd : isDigit c1 = true ∧ isDigit c2 = true ∧ isDigit c3 = true := by
        simpa [digitsAt, at?] using hdg
      have hs : c5 = 32 ∧ c6 = 32 ∧ c7 = 32 ∧ c8 = 32 ∧ c9 = 32 ∧ c10 = 32 ∧ c11 = 32 := by
        simpa [spacesAt, at?] using hsp
      obtain ⟨d1, d2, d3⟩ := hd
      obtain ⟨rfl, rfl, rfl, rfl, rfl, rfl, rfl⟩ := hs
      subst h4
      have hc0 : c0 ∈ bytes "MVEJSUNP" := by
        have hz : c0 ≠ 0 := h0
        simpa [strchr, hz] using hst
      obtain ⟨pl, hpl, hpl0, hlen, hfil⟩ := hplanet c0 hc0
      rw [isDigit_iff] at d1 d2 d3
      have hn3 : value [c1, c2, c3] = (c1 - 48) * 100 + (c2 - 48) * 10 + (c3 - 48) := by simp [value]; omega
      have hpad : Padded 3 (value [c1, c2, c3]) [c1, c2, c3] :=
        ⟨by intro c hc; simp at hc; omega, rfl, rfl⟩
      have hr : readDigits 0 [c1, c2, c3, 83, 32, 32, 32, 32, 32, 32, 32] = value [c1, c2, c3] := by
        have : [c1, c2, c3, 83, 32, 32, 32, 32, 32, 32, 32] = [c1, c2, c3] ++ [83, 32, 32, 32, 32, 32, 32, 32] := rfl
        rw [this, readDigits_append _ _ _ hpad.digits, readDigits_eq _ hpad.digits,
          readDigits_stop _ _ (by decide)]
      have hlt : value [c1, c2, c3] < 1000 := by omega
      have hval : unpackNatsat [c0, c1, c2, c3, 83, 32, 32, 32, 32, 32, 32, 32] =
          if (pl ++ [32] ++ roman (value [c1, c2, c3])).length < 16 then
            .ok (5, pl ++ [32] ++ roman (value [c1, c2, c3])) else .abort := by
        unfold unpackNatsat
        simp only [at_zero, at_succ, ne_eq, not_true_eq_false, if_false, hst, hdg, hsp, and_self, if_true,
          List.drop_succ_cons, List.drop_zero, hr, hfil]
        rw [appendRoman_eq _ _ hlt (by simp; omega)]
        split <;> rfl
      by_cases hfit : (pl ++ [32] ++ roman (value [c1, c2, c3])).length < 16
      · right
        rw [hval, if_pos hfit]
        refine ⟨?_, _, rfl⟩
        rintro ⟨pl', hpl', n, ds, hpd, he, hlong⟩
        obtain ⟨x1, x2, x3, rfl⟩ : ∃ x1 x2 x3, ds = [x1, x2, x3] := by
          match ds, hpd.width with
          | [x1, x2, x3], _ => exact ⟨_, _, _, rfl⟩
        simp only [List.cons_append, List.nil_append, List.replicate, List.cons.injEq, true_and, and_true] at he
        obtain ⟨e0, rfl, rfl, rfl⟩ := he
        have := huniq pl hpl pl' hpl' (by rw [hpl0, e0])
        subst this
        rw [← hpd.value] at hlong
        omega
      · left
        rw [hval, if_neg hfit]
        exact ⟨⟨pl, hpl, _, _, hpad, by rw [hpl0]; rfl, by omega⟩, rfl⟩
    · right
      constructor
      · rintro ⟨pl', hpl', n, ds, hpd, he, hlong⟩
        obtain ⟨x1, x2, x3, rfl⟩ : ∃ x1 x2 x3, ds = [x1, x2, x3] := by
          match ds, hpd.width with
          | [x1, x2, x3], _ => exact ⟨_, _, _, rfl⟩
        have hdd := hpd.digits
        simp only [List.cons_append, List.nil_append, List.replicate, List.cons.injEq, and_true] at he
        obtain ⟨rfl, rfl, rfl, rfl, rfl, rfl, rfl, rfl, rfl, rfl, rfl, rfl⟩ := he
        apply hc
        have d1 := digit_is (hdd c1 (by simp))
        have d2 := digit_is (hdd c2 (by simp))
        have d3 := digit_is (hdd c3 (by simp))
        exact ⟨rfl, hinit _ hpl', by simp [digitsAt, at?, d1, d2, d3], by simp [spacesAt, at?]⟩
      · unfold unpackNatsat
        split
        · exact ⟨_, rfl⟩
        · rename_i h83
          rw [if_neg]
          · split <;> exact ⟨_, rfl⟩
          · rintro ⟨q1, q2, q3⟩
            exact hc ⟨by simpa [at?] using h83, q1, q2, q3⟩

theorem loop_lt (ds : List Nat) (hds : ds.length = 4) (hb : Base62 ds) : base62Value ds < 62 ^ 4 := by
  have hv := C18_decode ds [] hb
  rw [getValue_eq] at hv
  have := (loop_range ds (fun x hx => (valid_iff x).2 (hb x hx))).2
  rw [hv, hds] at this
  exact_mod_cast this

/-- Without an underscore designation, everything after the satellites returns normally. -/
theorem unpack_ok (p : List Nat) (hp : p.length = 12) (hu : ¬ (at? p 5 = 95 ∧ Capital (at? p 7)))
    (hq : ∃ q, unpackNatsat p = .ok q) : ∃ r, unpackMpcDesig p = .ok r := by
  have e5 : at? (p.drop 5) 0 = at? p 5 := by simp [at?]
  have e7 : at? (p.drop 5) 2 = at? p 7 := by simp [at?]
  obtain ⟨pv, hpv, hpl, hne⟩ := prov_length' (p.drop 5) (by rw [e5, e7]; exact hu)
  obtain ⟨q, hq⟩ := hq
  unfold unpackMpcDesig
  split
  · rw [if_neg (by simp [hp])]; exact ⟨_, rfl⟩
  · simp only [bind, Outcome.bind, hpv, hq]
    split
    · rename_i hn
      cases pv with
      | nil => exact ⟨_, rfl⟩
      | cons c cs =>
        simp only []
        have hlen : (decInt (getMutantHexValue (p.drop 1) 4 + 620000)).length ≤ 8 := by
          have hlt : getMutantHexValue (p.drop 1) 4 < 62 ^ 4 := by
            match p, hp with
            | c0 :: c1 :: c2 :: c3 :: c4 :: rest, _ =>
              rcases tilde_value (a := c1) (b := c2) (c := c3) (d := c4) rest with ⟨h1, h2⟩ | ⟨h1, h2⟩
              · have := loop_lt [c1, c2, c3, c4] rfl h1
                show getMutantHexValue ([c1, c2, c3, c4] ++ rest) 4 < _
                rw [h2]; exact_mod_cast this
              · show getMutantHexValue ([c1, c2, c3, c4] ++ rest) 4 < _
                rw [h2]; decide
          unfold decInt
          rw [if_neg (by omega)]
          exact dec_length_le (k := 7) (by omega)
        rw [appendErr, if_neg]
        · exact ⟨_, rfl⟩
        · simp only [List.length_append, List.length_cons, List.length_nil] at hpl ⊢; omega
    · split
      · rename_i h; simp at h
      · split
        · rename_i hc
          have h5d : isDigit (at? p 5) = false := by
            rw [isDigit_false]
            rcases hc.2.2.1 with hs | hs
            · have : at? p 5 = 32 := by
                have := List.all_eq_true.1 hs 5 (by simp)
                simpa using this
              omega
            · have := hne (by simpa using hs)
              omega
          have hrd := readDigits_four p hp h5d
          have hr := charToInt_range (at? p 0)
          have hlen : (decInt (mutantHexCharToInt (at? p 0) * 10000 + (readDigits 0 (p.drop 1) : Int))).length ≤ 6 := by
            have h0 : mutantHexCharToInt (at? p 0) ≠ -1 := charToInt_alnum _ hc.1
            unfold decInt
            rw [if_neg (by omega)]
            exact dec_length_le (k := 5) (by omega)
          cases pv with
          | nil => exact ⟨_, rfl⟩
          | cons c cs =>
            simp only []
            rw [appendErr, if_neg]
            · exact ⟨_, rfl⟩
            · have : (bytes " = ").length = 3 := rfl
              simp only [List.length_append, List.length_cons, List.length_nil, this] at hpl ⊢; omega
        · split <;> exact ⟨_, rfl⟩

/-- What makes the unpacker read memory it has not set. -/
def ReadsUnset (h u : List Nat) : Prop :=
  BadUnderscore u ∧ (((∃ n, TildeNumber h n) ∧ ∀ c ∈ u.take 5, c ≠ 32) ∨ NumberHead h)

/-- What makes it stop the program. -/
def Aborts (h u : List Nat) : Prop :=
  LongSatellite (h ++ u) ∨ ∃ v, GoodUnderscore u v ∧
    ((∃ n, TildeNumber h n ∧ DigitsTogether n (620 + v / 25) 14) ∨
     (∃ n, PlanetNumber h n ∧ DigitsTogether n (620 + v / 25) 11))

theorem unpack_dollar (name : List Nat) (h : name.length ≤ 15) : unpackMpcDesig (36 :: name) = .ok (1, name) := by
  unfold unpackMpcDesig
  rw [if_pos (at_zero 36 name), List.drop_one, List.tail_cons, if_neg (by omega)]
  rfl

/-- The stages of the unpacker after the satellites. -/
def Tilde (p : List Nat) : Prop :=
  at? p 0 = 126 ∧ (spacesAt p [5, 6, 7, 8, 9] = true ∨ ¬ ([5, 6, 7, 8, 9].any fun i => at? p i == 32) = true) ∧
    getMutantHexValue (p.drop 1) 4 ≥ 0
def Number (p : List Nat) : Prop := isAlnum (at? p 0) = true ∧ digitsAt p [1, 2, 3] = true

section
variable {p : List Nat} {q : Int × List Nat} (h36 : at? p 0 ≠ 36) (hq : unpackNatsat p = .ok q)
include h36 hq

theorem stage_tilde_unset (ht : Tilde p) (ho : (unpackProv (p.drop 5)).out = none) : unpackMpcDesig p = .ub := by
  obtain ⟨q1, q2⟩ := q
  unfold Tilde at ht
  unfold unpackMpcDesig
  rw [if_neg h36]
  simp only [bind, Outcome.bind, hq, ho]
  rw [if_pos ht]

theorem stage_tilde (ht : Tilde p) {o : List Nat} (ho : (unpackProv (p.drop 5)).out = some o) (hne : o ≠ []) :
    ∃ r, unpackMpcDesig p =
      if 24 ≤ ([40] ++ decInt (getMutantHexValue (p.drop 1) 4 + 620000) ++ [41] ++ 32 :: o).length then .abort
      else .ok r := by
  obtain ⟨q1, q2⟩ := q
  obtain ⟨c, cs, rfl⟩ := List.exists_cons_of_ne_nil hne
  unfold Tilde at ht
  unfold unpackMpcDesig
  rw [if_neg h36]
  simp only [bind, Outcome.bind, hq, ho]
  rw [if_pos ht, appendErr]
  by_cases hc : 24 ≤ ([40] ++ decInt (getMutantHexValue (p.drop 1) 4 + 620000) ++ [41] ++ 32 :: c :: cs).length
  · simp only [ge_iff_le, if_pos hc]
    exact ⟨(0, []), trivial⟩
  · simp only [ge_iff_le, if_neg hc]
    exact ⟨_, rfl⟩

theorem stage_number_unset (ht : ¬ Tilde p) (hn : Number p) (hs : spacesAt p [5, 6, 7, 8, 9] = false)
    (ho : (unpackProv (p.drop 5)).out = none) : unpackMpcDesig p = .ub := by
  obtain ⟨q1, q2⟩ := q
  unfold Tilde at ht
  unfold unpackMpcDesig
  rw [if_neg h36]
  simp only [bind, Outcome.bind, hq, ho]
  rw [if_neg ht, if_pos ⟨hn.1, hn.2, by simp [hs], trivial⟩]

theorem stage_number (ht : ¬ Tilde p) (hn : Number p) (h4 : isDigit (at? p 4) = true) {o : List Nat}
    (ho : (unpackProv (p.drop 5)).out = some o) (hne : o ≠ []) :
    ∃ r, unpackMpcDesig p =
      if 23 ≤ ([40] ++ decInt (mutantHexCharToInt (at? p 0) * 10000 + readDigits 0 (p.drop 1)) ++ [41] ++
        (bytes " = " ++ o)).length then .abort else .ok r := by
  obtain ⟨q1, q2⟩ := q
  obtain ⟨c, cs, rfl⟩ := List.exists_cons_of_ne_nil hne
  unfold Tilde at ht
  unfold unpackMpcDesig
  rw [if_neg h36]
  simp only [bind, Outcome.bind, hq, ho]
  rw [if_neg ht, if_neg (by simp), if_pos ⟨hn.1, hn.2, Or.inr (by simp), h4⟩, appendErr]
  by_cases hc : 23 ≤ ([40] ++ decInt (mutantHexCharToInt (at? p 0) * 10000 + readDigits 0 (p.drop 1)) ++ [41] ++
        (bytes " = " ++ c :: cs)).length
  · simp only [ge_iff_le, if_pos hc]
    exact ⟨(0, []), trivial⟩
  · simp only [ge_iff_le, if_neg hc]
    exact ⟨_, rfl⟩

theorem stage_other (ht : ¬ Tilde p) (hn : ¬ (Number p ∧ isDigit (at? p 4) = true))
    (ho : ¬ Number p ∨ (unpackProv (p.drop 5)).out ≠ none) : ∃ r, unpackMpcDesig p = .ok r := by
  obtain ⟨q1, q2⟩ := q
  unfold Tilde at ht
  unfold unpackMpcDesig
  rw [if_neg h36]
  simp only [bind, Outcome.bind, hq]
  rw [if_neg ht, if_neg, if_neg]
  · split <;> exact ⟨_, rfl⟩
  · rintro ⟨h1, h2, -, h4⟩; exact hn ⟨⟨h1, h2⟩, h4⟩
  · rintro ⟨h1, h2, -, h4⟩
    rcases ho with h | h
    · exact h ⟨h1, h2⟩
    · exact h h4
end

set_option maxHeartbeats 1000000 in
/-- **C54**, exactly: a twelve-byte packed designation (columns 1-5 and 6-12) makes the unpacker read unset
    memory if and only if it is a number followed by an underscore designation with a bad digit; makes it stop the
    program if and only if it is a satellite with too long a name or a number and an underscore designation
    with too many digits; and otherwise the unpacker returns normally. -/
theorem C54_exact (h u : List Nat) (hh : h.length = 5) (hu : u.length = 7) (h0 : ∀ c ∈ h ++ u, c ≠ 0) :
    (unpackMpcDesig (h ++ u) = .ub ↔ ReadsUnset h u) ∧ (unpackMpcDesig (h ++ u) = .abort ↔ Aborts h u) ∧
    ((∃ r, unpackMpcDesig (h ++ u) = .ok r) ↔ ¬ ReadsUnset h u ∧ ¬ Aborts h u) := by
  have key : ∀ (o : Outcome (Int × List Nat)), (o = .ub ∧ ReadsUnset h u ∧ ¬ Aborts h u) ∨
      (o = .abort ∧ ¬ ReadsUnset h u ∧ Aborts h u) ∨ ((∃ r, o = .ok r) ∧ ¬ ReadsUnset h u ∧ ¬ Aborts h u) →
      (o = .ub ↔ ReadsUnset h u) ∧ (o = .abort ↔ Aborts h u) ∧
      ((∃ r, o = .ok r) ↔ ¬ ReadsUnset h u ∧ ¬ Aborts h u) := by
    rintro o (⟨rfl, a, b⟩ | ⟨rfl, a, b⟩ | ⟨⟨r, rfl⟩, a, b⟩) <;> simp [a, b]
  apply key
  clear key
  match h, u, hh, hu with
  | [c0, c1, c2, c3, c4], [c5, c6, c7, c8, c9, c10, c11], _, _ =>
  have hp : ([c0, c1, c2, c3, c4] ++ [c5, c6, c7, c8, c9, c10, c11]).length = 12 := rfl
  have hc0 : at? ([c0, c1, c2, c3, c4] ++ [c5, c6, c7, c8, c9, c10, c11]) 0 ≠ 0 := h0 _ (by simp [at?])
  by_cases hus : c5 = 95 ∧ Capital c7
  · -- an underscore designation
    obtain ⟨rfl, hl⟩ := hus
    have hnat : ¬ LongSatellite ([c0, c1, c2, c3, c4] ++ [95, c6, c7, c8, c9, c10, c11]) := by
      rintro ⟨pl, -, n, ds, hpd, he, -⟩
      obtain ⟨x1, x2, x3, rfl⟩ : ∃ x1 x2 x3, ds = [x1, x2, x3] := by
        match ds, hpd.width with
        | [x1, x2, x3], _ => exact ⟨_, _, _, rfl⟩
      simp [List.replicate] at he
    obtain ⟨⟨q1, q2⟩, hq⟩ : ∃ q, unpackNatsat ([c0, c1, c2, c3, c4] ++ [95, c6, c7, c8, c9, c10, c11]) = .ok q := by
      rcases natsat_exact _ hp hc0 with h | h
      · exact absurd h.1 hnat
      · exact h.2
    have hdrop5 : ([c0, c1, c2, c3, c4] ++ [95, c6, c7, c8, c9, c10, c11]).drop 5 = [95, c6, c7] ++ [c8, c9, c10, c11] := rfl
    have hdrop1 : ([c0, c1, c2, c3, c4] ++ [95, c6, c7, c8, c9, c10, c11]).drop 1 =
        [c1, c2, c3, c4] ++ [95, c6, c7, c8, c9, c10, c11] := rfl
    have hsp5 : spacesAt ([c0, c1, c2, c3, c4] ++ [95, c6, c7, c8, c9, c10, c11]) [5, 6, 7, 8, 9] = false := by
      simp [spacesAt, at?]
    have hany : ([5, 6, 7, 8, 9].any fun i => at? ([c0, c1, c2, c3, c4] ++ [95, c6, c7, c8, c9, c10, c11]) i == 32) = true ↔
        ¬ ∀ c ∈ [95, c6, c7, c8, c9, c10, c11].take 5, c ≠ 32 := by
      simp [at?]; tauto
    have a0 : at? ([c0, c1, c2, c3, c4] ++ [95, c6, c7, c8, c9, c10, c11]) 0 = c0 := rfl
    have a4 : at? ([c0, c1, c2, c3, c4] ++ [95, c6, c7, c8, c9, c10, c11]) 4 = c4 := rfl
    have hdg : digitsAt ([c0, c1, c2, c3, c4] ++ [95, c6, c7, c8, c9, c10, c11]) [1, 2, 3] = true ↔
        AllDigits [c1, c2, c3] := by
      simp [digitsAt, at?, AllDigits, isDigit_iff]
    have hgood : ∀ v, GoodUnderscore [95, c6, c7, c8, c9, c10, c11] v ↔
        Base62 [c6, c8, c9, c10, c11] ∧ base62Value [c8, c9, c10, c11] = v := by
      intro v
      constructor
      · rintro ⟨y, l, ds, he, hds, -, hb, hv⟩
        match ds, hds with
        | [x1, x2, x3, x4], _ =>
          simp only [List.cons_append, List.nil_append, List.cons.injEq, and_true, true_and] at he
          obtain ⟨rfl, rfl, rfl, rfl, rfl, rfl⟩ := he
          exact ⟨hb, hv⟩
      · rintro ⟨hb, hv⟩
        exact ⟨c6, c7, [c8, c9, c10, c11], rfl, rfl, hl, hb, hv⟩
    have hbad : BadUnderscore [95, c6, c7, c8, c9, c10, c11] ↔ ¬ Base62 [c6, c8, c9, c10, c11] := by
      constructor
      · rintro ⟨y, l, ds, he, hds, -, hb⟩
        match ds, hds with
        | [x1, x2, x3, x4], _ =>
          simp only [List.cons_append, List.nil_append, List.cons.injEq, and_true, true_and] at he
          obtain ⟨rfl, rfl, rfl, rfl, rfl, rfl⟩ := he
          exact hb
      · intro hb
        exact ⟨c6, c7, [c8, c9, c10, c11], rfl, rfl, hl, hb⟩
    have htilde : ∀ n, TildeNumber [c0, c1, c2, c3, c4] n ↔
        c0 = 126 ∧ Base62 [c1, c2, c3, c4] ∧ n = 620000 + base62Value [c1, c2, c3, c4] := by
      intro n
      constructor
      · rintro ⟨ds, he, hb, hn⟩
        obtain ⟨rfl, rfl⟩ := List.cons.inj he
        exact ⟨rfl, hb, hn⟩
      · rintro ⟨rfl, hb, hn⟩
        exact ⟨_, rfl, hb, hn⟩
    have hhead : NumberHead [c0, c1, c2, c3, c4] ↔ c0 ∈ base62Alphabet ∧ AllDigits [c1, c2, c3] := by
      constructor
      · rintro ⟨c, ds, x, he, hds, hc, hd⟩
        match ds, hds with
        | [x1, x2, x3], _ =>
          simp only [List.cons_append, List.nil_append, List.cons.injEq, and_true] at he
          obtain ⟨rfl, rfl, rfl, rfl, rfl⟩ := he
          exact ⟨hc, hd⟩
      · rintro ⟨hc, hd⟩
        exact ⟨c0, [c1, c2, c3], c4, rfl, rfl, hc, hd⟩
    have hplanet : ∀ n, PlanetNumber [c0, c1, c2, c3, c4] n ↔ c0 ∈ base62Alphabet ∧ AllDigits [c1, c2, c3, c4] ∧
        n = base62Alphabet.idxOf c0 * 10000 + value [c1, c2, c3, c4] := by
      intro n
      constructor
      · rintro ⟨c, ds, he, hds, hc, hd, hn⟩
        obtain ⟨rfl, rfl⟩ := List.cons.inj he
        exact ⟨hc, hd, hn⟩
      · rintro ⟨hc, hd, hn⟩
        exact ⟨_, _, rfl, rfl, hc, hd, hn⟩
    have h126 : (126 : Nat) ∉ base62Alphabet := by decide +kernel
    have h36 : (36 : Nat) ∉ base62Alphabet := by decide +kernel
    have hT : Tilde ([c0, c1, c2, c3, c4] ++ [95, c6, c7, c8, c9, c10, c11]) ↔
        (∃ n, TildeNumber [c0, c1, c2, c3, c4] n) ∧ ∀ c ∈ [95, c6, c7, c8, c9, c10, c11].take 5, c ≠ 32 := by
      unfold Tilde
      rw [a0, hsp5, hany, hdrop1, not_not]
      simp only [Bool.false_eq_true, false_or, htilde]
      rcases tilde_value (a := c1) (b := c2) (c := c3) (d := c4) [95, c6, c7, c8, c9, c10, c11] with ⟨hb1, hv1⟩ | ⟨hb1, hv1⟩
      · rw [hv1]
        constructor
        · rintro ⟨h1, h2, -⟩; exact ⟨⟨_, h1, hb1, rfl⟩, h2⟩
        · rintro ⟨⟨n, h1, -, -⟩, h2⟩; exact ⟨h1, h2, by omega⟩
      · rw [hv1]
        constructor
        · rintro ⟨-, -, h⟩; exact absurd h (by decide)
        · rintro ⟨⟨n, -, h, -⟩, -⟩; exact absurd h hb1
    have hN : Number ([c0, c1, c2, c3, c4] ++ [95, c6, c7, c8, c9, c10, c11]) ↔ NumberHead [c0, c1, c2, c3, c4] := by
      unfold Number
      rw [a0, hdg, alnum_iff_alphabet, hhead]
    have hTN : Tilde ([c0, c1, c2, c3, c4] ++ [95, c6, c7, c8, c9, c10, c11]) →
        ¬ Number ([c0, c1, c2, c3, c4] ++ [95, c6, c7, c8, c9, c10, c11]) := by
      intro h1 h2
      rw [hT] at h1
      obtain ⟨⟨n, h1⟩, -⟩ := h1
      rw [hN, hhead] at h2
      rw [htilde] at h1
      exact h126 (h1.1 ▸ h2.1)
    by_cases h36' : c0 = 36
    · right; right
      refine ⟨?_, ?_, ?_⟩
      · subst h36'
        exact ⟨_, unpack_dollar _ (by simp)⟩
      · rintro ⟨-, ⟨⟨n, h⟩, -⟩ | h⟩
        · rw [htilde] at h; omega
        · rw [hhead] at h; exact h36 (h36' ▸ h.1)
      · rintro (h | ⟨v, -, ⟨n, h, -⟩ | ⟨n, h, -⟩⟩)
        · exact hnat h
        · rw [htilde] at h; omega
        · rw [hplanet] at h; exact h36 (h36' ▸ h.1)
    have h36'' : at? ([c0, c1, c2, c3, c4] ++ [95, c6, c7, c8, c9, c10, c11]) 0 ≠ 36 := h36'
    by_cases hb : Base62 [c6, c8, c9, c10, c11]
    · -- good digits
      obtain ⟨o, ho, hne, hol⟩ := prov_good (y := c6) (l := c7) (ds := [c8, c9, c10, c11]) rfl hl hb
      rw [← hdrop5] at ho
      have hnu : ¬ ReadsUnset [c0, c1, c2, c3, c4] [95, c6, c7, c8, c9, c10, c11] := by
        rintro ⟨h, -⟩
        exact (hbad.1 h) hb
      have hnosp : ∀ c ∈ [95, c6, c7, c8, c9, c10, c11].take 5, c ≠ 32 := by
        have h32 : (32 : Nat) ∉ base62Alphabet := by decide +kernel
        intro c hc
        unfold Capital at hl
        simp only [List.take_succ_cons, List.take_zero, List.mem_cons, List.not_mem_nil, or_false] at hc
        rcases hc with rfl | rfl | rfl | rfl | rfl
        · decide
        · intro h; exact h32 (h ▸ hb _ (by simp))
        · omega
        · intro h; exact h32 (h ▸ hb _ (by simp))
        · intro h; exact h32 (h ▸ hb _ (by simp))
      have hab : Aborts [c0, c1, c2, c3, c4] [95, c6, c7, c8, c9, c10, c11] ↔
          ((∃ n, TildeNumber [c0, c1, c2, c3, c4] n ∧ DigitsTogether n (620 + base62Value [c8, c9, c10, c11] / 25) 14) ∨
           (∃ n, PlanetNumber [c0, c1, c2, c3, c4] n ∧ DigitsTogether n (620 + base62Value [c8, c9, c10, c11] / 25) 11)) := by
        unfold Aborts
        constructor
        · rintro (h | ⟨v, hv, h⟩)
          · exact absurd h hnat
          · rw [hgood] at hv; rw [hv.2]; exact h
        · intro h
          exact Or.inr ⟨_, (hgood _).2 ⟨hb, rfl⟩, h⟩
      rw [hab]
      by_cases ht : Tilde ([c0, c1, c2, c3, c4] ++ [95, c6, c7, c8, c9, c10, c11])
      · obtain ⟨r, hr⟩ := stage_tilde h36'' hq ht ho hne
        obtain ⟨⟨n, hn⟩, -⟩ := hT.1 ht
        have hn' := (htilde n).1 hn
        have hv : getMutantHexValue (List.drop 1 ([c0, c1, c2, c3, c4] ++ [95, c6, c7, c8, c9, c10, c11])) 4 + 620000 = (n : Int) := by
          rw [hdrop1]
          rcases tilde_value (a := c1) (b := c2) (c := c3) (d := c4) [95, c6, c7, c8, c9, c10, c11] with ⟨hb1, hv1⟩ | ⟨hb1, hv1⟩
          · rw [hv1, hn'.2.2]; omega
          · exact absurd hn'.2.1 hb1
        have hdn : decInt (n : Int) = dec n := by
          rw [decInt, if_neg (by omega), Int.toNat_natCast]
        rw [hv, hdn] at hr
        have hlen : 24 ≤ ([40] ++ dec n ++ [41] ++ 32 :: o).length ↔
            DigitsTogether n (620 + base62Value [c8, c9, c10, c11] / 25) 14 := by
          rw [digitsTogether_iff]
          simp only [List.length_append, List.length_cons, List.length_nil] at hol ⊢; omega
        by_cases hl24 : DigitsTogether n (620 + base62Value [c8, c9, c10, c11] / 25) 14
        · rw [if_pos (hlen.2 hl24)] at hr
          right; left
          exact ⟨hr, hnu, Or.inl ⟨n, hn, hl24⟩⟩
        · rw [if_neg (fun h => hl24 (hlen.1 h))] at hr
          right; right
          refine ⟨⟨r, hr⟩, hnu, ?_⟩
          rintro (⟨m, hm, h⟩ | ⟨m, hm, -⟩)
          · have hm' := (htilde m).1 hm
            rw [hm'.2.2, ← hn'.2.2] at h
            exact hl24 h
          · have hm' := (hplanet m).1 hm
            exact h126 (hn'.1 ▸ hm'.1)
      · have hnt : ¬ ∃ n, TildeNumber [c0, c1, c2, c3, c4] n := fun h => ht (hT.2 ⟨h, hnosp⟩)
        by_cases hnum : Number ([c0, c1, c2, c3, c4] ++ [95, c6, c7, c8, c9, c10, c11]) ∧
            isDigit (at? ([c0, c1, c2, c3, c4] ++ [95, c6, c7, c8, c9, c10, c11]) 4) = true
        · obtain ⟨r, hr⟩ := stage_number h36'' hq ht hnum.1 hnum.2 ho hne
          have hh := hhead.1 (hN.1 hnum.1)
          have h4 : isDigit c4 = true := hnum.2
          have hall : AllDigits [c1, c2, c3, c4] := by
            intro c hc
            simp only [List.mem_cons, List.not_mem_nil, or_false] at hc
            rw [isDigit_iff] at h4
            rcases hc with rfl | rfl | rfl | rfl
            · exact hh.2 _ (by simp)
            · exact hh.2 _ (by simp)
            · exact hh.2 _ (by simp)
            · exact h4
          have hrd : readDigits 0 ([c1, c2, c3, c4] ++ [95, c6, c7, c8, c9, c10, c11]) = value [c1, c2, c3, c4] := by
            rw [readDigits_append _ _ _ hall, readDigits_eq _ hall, readDigits_stop _ _ (by simp [at?]; decide)]
          have hdi : decInt (mutantHexCharToInt c0 * 10000 + (value [c1, c2, c3, c4] : Int)) =
              dec (base62Alphabet.idxOf c0 * 10000 + value [c1, c2, c3, c4]) := by
            rw [char_value hh.1, decInt, if_neg (by omega)]; congr 1
          rw [hdrop1, hrd, a0, hdi] at hr
          have h3 : (bytes " = ").length = 3 := rfl
          have hlen : 23 ≤ ([40] ++ dec (base62Alphabet.idxOf c0 * 10000 + value [c1, c2, c3, c4]) ++ [41] ++
              (bytes " = " ++ o)).length ↔ DigitsTogether (base62Alphabet.idxOf c0 * 10000 + value [c1, c2, c3, c4])
                (620 + base62Value [c8, c9, c10, c11] / 25) 11 := by
            rw [digitsTogether_iff]
            simp only [List.length_append, List.length_cons, List.length_nil, h3] at hol ⊢; omega
          by_cases hl23 : DigitsTogether (base62Alphabet.idxOf c0 * 10000 + value [c1, c2, c3, c4])
                (620 + base62Value [c8, c9, c10, c11] / 25) 11
          · rw [if_pos (hlen.2 hl23)] at hr
            right; left
            exact ⟨hr, hnu, Or.inr ⟨_, (hplanet _).2 ⟨hh.1, hall, rfl⟩, hl23⟩⟩
          · rw [if_neg (fun h => hl23 (hlen.1 h))] at hr
            right; right
            refine ⟨⟨r, hr⟩, hnu, ?_⟩
            rintro (⟨m, hm, -⟩ | ⟨m, hm, h⟩)
            · exact hnt ⟨m, hm⟩
            · have hm' := (hplanet m).1 hm
              rw [hm'.2.2] at h
              exact hl23 h
        · right; right
          refine ⟨stage_other h36'' hq ht hnum (Or.inr (by rw [ho]; simp)), hnu, ?_⟩
          rintro (⟨m, hm, -⟩ | ⟨m, hm, -⟩)
          · exact hnt ⟨m, hm⟩
          · have hm' := (hplanet m).1 hm
            apply hnum
            refine ⟨hN.2 (hhead.2 ⟨hm'.1, fun c hc => hm'.2.1 c ?_⟩), digit_is (hm'.2.1 c4 (by simp))⟩
            simp only [List.mem_cons, List.not_mem_nil, or_false] at hc
            rcases hc with h | h | h <;> simp [h]
    · -- a bad digit
      have ho := prov_bad (y := c6) (l := c7) (ds := [c8, c9, c10, c11]) rfl hl hb
      rw [← hdrop5] at ho
      have hna : ¬ Aborts [c0, c1, c2, c3, c4] [95, c6, c7, c8, c9, c10, c11] := by
        rintro (h | ⟨v, hv, -⟩)
        · exact hnat h
        · exact hb ((hgood v).1 hv).1
      by_cases ht : Tilde ([c0, c1, c2, c3, c4] ++ [95, c6, c7, c8, c9, c10, c11])
      · exact Or.inl ⟨stage_tilde_unset h36'' hq ht ho, ⟨hbad.2 hb, Or.inl (hT.1 ht)⟩, hna⟩
      · by_cases hnum : Number ([c0, c1, c2, c3, c4] ++ [95, c6, c7, c8, c9, c10, c11])
        · exact Or.inl ⟨stage_number_unset h36'' hq ht hnum hsp5 ho, ⟨hbad.2 hb, Or.inr (hN.1 hnum)⟩, hna⟩
        · right; right
          refine ⟨stage_other h36'' hq ht (fun h => hnum h.1) (Or.inl hnum), ?_, hna⟩
          rintro ⟨-, h | h⟩
          · exact ht (hT.2 h)
          · exact hnum (hN.2 h)
  · -- anything else
    have hnb : ¬ ReadsUnset [c0, c1, c2, c3, c4] [c5, c6, c7, c8, c9, c10, c11] := by
      rintro ⟨⟨y, l, ds, he, -, hl, -⟩, -⟩
      simp only [List.cons_append, List.nil_append, List.cons.injEq] at he
      exact hus ⟨he.1, he.2.2.1 ▸ hl⟩
    have hng : ∀ v, ¬ GoodUnderscore [c5, c6, c7, c8, c9, c10, c11] v := by
      rintro v ⟨y, l, ds, he, -, hl, -⟩
      simp only [List.cons_append, List.nil_append, List.cons.injEq] at he
      exact hus ⟨he.1, he.2.2.1 ▸ hl⟩
    rcases natsat_exact _ hp hc0 with ⟨hs, hab⟩ | ⟨hs, hq⟩
    · right; left
      refine ⟨?_, hnb, Or.inl hs⟩
      unfold unpackMpcDesig
      have h36 : ¬ at? ([c0, c1, c2, c3, c4] ++ [c5, c6, c7, c8, c9, c10, c11]) 0 = 36 := by
        obtain ⟨pl, hpl, n, ds, -, he, -⟩ := hs
        rw [he]
        have : ∀ pl ∈ planets, at? pl 0 ≠ 36 := by decide
        exact this pl hpl
      rw [if_neg h36, hab]
      rfl
    · right; right
      refine ⟨unpack_ok _ hp hus hq, hnb, ?_⟩
      rintro (h | ⟨v, h, -⟩)
      · exact hs h
      · exact hng v h

example : ReadsUnset (bytes "00433") (bytes "_0A!!!!") := by
  refine ⟨⟨48, 65, bytes "!!!!", by decide, by decide, by unfold Capital; decide, ?_⟩, Or.inr ?_⟩
  · intro h; exact absurd (h 33 (by decide)) (by decide +kernel)
  · exact ⟨48, bytes "043", 51, by decide, by decide, by decide +kernel, by unfold AllDigits; decide⟩
example : LongSatellite (bytes "S888S       ") :=
  ⟨bytes "Saturn", by decide, 888, bytes "888", ⟨by unfold AllDigits; decide, by decide, by decide⟩, by decide, by decide⟩
example : unpackMpcDesig (bytes "S888S       ") = .abort := by decide +kernel
example : unpackMpcDesig (bytes "00433_0A0000") = .ok (1, bytes "(433) = 2000 AA620") := by decide +kernel

end Verif.Props
