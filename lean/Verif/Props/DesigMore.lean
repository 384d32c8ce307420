import Verif.Props.Comets
import Verif.Props.Numbers
import Verif.Props.PackedExact
import Verif.Props.Surveys

/-! # More about names the packer does not recognise, bare numbers, comet prefixes and unaligned
designations (C20, C52, C53, C54) -/

namespace Verif.Props
open Verif.Desig Verif.Spec

theorem put_append (a b bs : List Nat) (h : bs.length ≤ b.length) :
    put (a ++ b) a.length bs = a ++ bs ++ b.drop bs.length := by
  induction bs generalizing a b with
  | nil => simp [put]
  | cons x bs ih =>
    cases b with
    | nil => simp at h
    | cons y b =>
      have := ih (a ++ [x]) b (by simpa using h)
      simp only [List.length_append, List.length_singleton] at this
      rw [put]
      have e : (a ++ y :: b).set a.length x = a ++ [x] ++ b := by simp
      rw [e, this]; simp

theorem put_blank (i : Nat) (bs : List Nat) (h : i + bs.length ≤ 12) :
    put blank12 i bs = List.replicate i 32 ++ bs ++ List.replicate (12 - i - bs.length) 32 := by
  have e : blank12 = List.replicate i 32 ++ List.replicate (12 - i) 32 := by
    rw [blank12, List.replicate_append_replicate]; congr 1; omega
  have := put_append (List.replicate i 32) (List.replicate (12 - i) 32) bs (by simp; omega)
  rw [List.length_replicate] at this
  rw [e, this, List.drop_replicate]

theorem trim_spaces (s : List Nat) (b : Nat) (hs : ∀ x ∈ s.getLast?, x ≠ 32) :
    trimLen (s ++ List.replicate b 32) (s ++ List.replicate b 32).length = s.length := by
  unfold trimLen
  rw [List.take_length, List.reverse_append, List.reverse_replicate]
  have : ∀ k, (List.replicate k 32 ++ s.reverse).dropWhile (· == 32) = s.reverse := by
    intro k
    induction k with
    | zero =>
      rcases List.eq_nil_or_concat s with rfl | ⟨t, x, rfl⟩
      · rfl
      · rw [List.concat_eq_append] at *
        have := hs x (by simp)
        rw [List.reverse_append]
        simp [this]
    | succ k ih => rw [List.replicate_succ, List.cons_append, List.dropWhile_cons_of_pos (by simp)]; exact ih
  rw [this]; simp

/-- The packed form of a name that is not a designation: five spaces and the name if it has at most seven
    bytes, else a dollar sign and the first eleven bytes; filled with spaces to twelve bytes. -/
def Unrecognised (name packed : List Nat) : Prop :=
  (name.length ≤ 7 ∧ ∃ k, packed = List.replicate 5 32 ++ name ++ List.replicate k 32 ∧ packed.length = 12) ∨
  (7 < name.length ∧ ∃ k, packed = 36 :: name.take 11 ++ List.replicate k 32 ∧ packed.length = 12)

/-- **C53**, names that start with neither digit, capital, space nor opening parenthesis (with any number of
    spaces before and after): -1 is returned and the name itself is stored, as described by
    `Unrecognised`. -/
theorem C53_unknown (c : Nat) (rest : List Nat) (a b : Nat) (h0 : c ≠ 0) (hd : ¬ (48 ≤ c ∧ c ≤ 57))
    (hc : ¬ (65 ≤ c ∧ c ≤ 90)) (hs : c ≠ 32) (hp : c ≠ 40) (hl : ∀ x ∈ (c :: rest).getLast?, x ≠ 32) :
    (createPackedDesig (List.replicate a 32 ++ (c :: rest) ++ List.replicate b 32)).1 = -1 ∧
      Unrecognised (c :: rest)
        (createPackedDesig (List.replicate a 32 ++ (c :: rest) ++ List.replicate b 32)).2 := by
  have hdrop : createPackedDesig (List.replicate a 32 ++ (c :: rest) ++ List.replicate b 32) =
      createPackedDesig ((c :: rest) ++ List.replicate b 32) := by
    have : ∀ k, (List.replicate k 32 ++ ((c :: rest) ++ List.replicate b 32)).dropWhile (· == 32) =
        (c :: rest) ++ List.replicate b 32 := by
      intro k
      induction k with
      | zero => simp [hs]
      | succ k ih => rw [List.replicate_succ, List.cons_append, List.dropWhile_cons_of_pos (by simp)]; exact ih
    unfold createPackedDesig
    rw [List.append_assoc, this a]
    have t := this 0
    rw [List.replicate_zero, List.nil_append] at t
    rw [t]
  have hcapital : strchr (bytes "PCXDA") c = false := by
    have : ∀ x ∈ bytes "PCXDA", 65 ≤ x ∧ x ≤ 90 := by decide
    unfold strchr
    rw [Bool.eq_false_iff]
    intro h
    simp only [Bool.or_eq_true, beq_iff_eq, h0, List.contains_eq_mem, decide_eq_true_eq, false_or,
      or_false] at h
    exact hc (this c (by simpa using h))
  have hcreate : createPackedDesig ((c :: rest) ++ List.replicate b 32) =
      packFallback blank12 ((c :: rest) ++ List.replicate b 32) (c :: rest).length := by
    rw [create_head _ (by simpa [at?] using hs) (by simpa [at?] using hp), createComet, if_neg]
    · have hd' : isDigit (at? (c :: rest ++ List.replicate b 32) 0) = false := by
        rw [isDigit_false]; rw [List.cons_append, at_zero]; omega
      have hrd : readDigits 0 (c :: rest ++ List.replicate b 32) = 0 := readDigits_stop _ _ hd'
      have hdc : digitCount (c :: rest ++ List.replicate b 32) = 0 := digitCount_stop _ hd'
      have hperm := permanent_none (c :: rest ++ List.replicate b 32)
        (by rw [List.cons_append, at_zero]; omega)
      have hprov := provisional_none (c :: rest ++ List.replicate b 32)
        (by rw [List.cons_append, at_zero]; omega)
      unfold createCore
      simp only [hrd, hdc, Bool.false_eq_true, if_false, trim_spaces _ b hl, Nat.zero_mod]
      unfold createBranch
      have hc0 : at? (c :: rest ++ List.replicate b 32) 0 = c := rfl
      simp only [hperm, hprov, hc0, hs, Nat.lt_irrefl, false_and, and_false, if_false, Bool.false_eq_true,
        Bool.false_or, decide_false, Bool.and_false, Bool.false_and, Nat.not_lt_zero, ne_eq,
        not_true_eq_false, Nat.reduceLeDiff]
    · rw [List.cons_append, at_zero, hcapital]; simp
  rw [hdrop, hcreate]
  unfold packFallback Unrecognised
  by_cases h7 : (c :: rest).length ≤ 7
  · rw [if_pos h7]
    refine ⟨rfl, Or.inl ⟨h7, 12 - 5 - (c :: rest).length, ?_⟩⟩
    rw [List.take_left, put_blank 5 _ (by omega)]
    refine ⟨rfl, ?_⟩
    simp only [List.length_append, List.length_replicate]; omega
  · rw [if_neg h7]
    refine ⟨rfl, Or.inr ⟨by omega, 11 - (c :: rest).length, ?_⟩⟩
    have h8 : 8 ≤ (c :: rest).length := by omega
    rw [put_blank 0 _ (by simp only [List.length_cons, List.length_take]; omega)]
    simp only [List.replicate_zero, List.nil_append, Nat.sub_zero]
    rw [List.take_append, List.take_replicate, List.cons_append, List.cons_append, List.append_assoc,
      List.replicate_append_replicate]
    have e : min (11 - (c :: rest).length) b +
        (12 - (36 :: ((c :: rest).take 11 ++
          List.replicate (min (11 - (c :: rest).length) b) 32)).length) = 11 - (c :: rest).length := by
      simp only [List.length_cons, List.length_append, List.length_take, List.length_replicate] at h8 ⊢
      omega
    rw [e]
    refine ⟨rfl, ?_⟩
    simp only [List.length_cons, List.length_append, List.length_take, List.length_replicate] at h8 ⊢
    omega

example : createPackedDesig (bytes " xyz ") = (-1, bytes "     xyz    ") := by decide +kernel
example : createPackedDesig (bytes "wt1190f x  ") = (-1, bytes "$wt1190f x  ") := by decide +kernel
example : Unrecognised (bytes "wt1190f x") (bytes "$wt1190f x  ") :=
  Or.inr ⟨by decide, 2, by decide, by decide⟩

/-- **C54**, names stored after a dollar sign: unpacked as they are, with the code of a numbered
    asteroid (1). -/
theorem C54_dollar (name : List Nat) (h : name.length ≤ 15) :
    unpackMpcDesig (36 :: name) = .ok (1, name) := unpack_dollar name h

example : unpackMpcDesig (bytes "$wt1190f x  ") = .ok (1, bytes "wt1190f x  ") := by decide +kernel

/-- **C20**, a number without parentheses: packed, exactly as with parentheses, if it has at least five digits
    and its value (modulo 2^32) is between 1 and 999999; otherwise -1. -/
theorem C20_bare (s : List Nat) (hs : AllDigits s) (hne : s ≠ []) :
    ((createPackedDesig s).1 = 0 ↔ 5 ≤ s.length ∧ 1 ≤ value s % 2 ^ 32 ∧ value s % 2 ^ 32 ≤ 999999) ∧
    ((createPackedDesig s).1 = 0 → createPackedDesig s = createPackedDesig (parens s)) ∧
    ((createPackedDesig s).1 = 0 ∨ (createPackedDesig s).1 = -1) := by
  have hmem : ∀ k, (48 ≤ at? s k ∧ at? s k ≤ 57) ∨ at? s k = 0 := by
    intro k
    rcases at_mem_or_zero s k with h | h
    · exact Or.inl (hs _ h)
    · exact Or.inr h
  have h0 : 48 ≤ at? s 0 ∧ at? s 0 ≤ 57 := by
    cases s with
    | nil => exact absurd rfl hne
    | cons c s => exact hs c (by simp)
  have hcreate : createPackedDesig s =
      (let v := readDigits 0 s % 4294967296
       if 5 ≤ s.length ∧ 0 < v ∧ v < 1000000 then (0, packNumber v) else packFallback blank12 s s.length) := by
    have hdc : digitCount s = s.length := by
      have := digitCount_append s [] hs
      rw [List.append_nil] at this
      rw [this]; simp [digitCount]
    have hend : at? s s.length = 0 := by simp [at?]
    have h4 : at? s 4 ≠ 45 := by rcases hmem 4 with h | h <;> omega
    have hperm := permanent_none s (by omega)
    have hprov := provisional_none s (by omega)
    have htl : trimLen s s.length = s.length := by
      have := trim_spaces s 0 (by
        intro x hx
        have := hs x (List.mem_of_getLast? hx)
        omega)
      simpa using this
    have e2 : isUpper 0 = false := by decide
    rw [create_plain s (by omega) (by omega) (by rcases hmem 1 with h | h <;> omega)]
    unfold createCore
    simp only [hdc, Bool.false_eq_true, if_false, htl]
    unfold createBranch
    simp only [hend, e2, Bool.false_eq_true, ne_eq, not_true_eq_false, false_and, and_false, if_false,
      Nat.lt_irrefl, h4, hperm, hprov, true_and, and_true, Bool.false_or, beq_self_eq_true, Bool.true_and,
      Bool.and_eq_true, decide_eq_true_eq]
    unfold packNumber
    by_cases hv : 5 ≤ s.length ∧ 0 < readDigits 0 s % 4294967296 ∧ readDigits 0 s % 4294967296 < 1000000
    · rw [if_pos hv, if_pos ⟨⟨hv.2, hv.1⟩, by omega, by omega⟩]; split <;> rfl
    · rw [if_neg hv, if_neg (by intro h; exact hv ⟨h.1.2, h.1.1⟩)]
  have hfb : (packFallback blank12 s s.length).1 = -1 := by unfold packFallback; split <;> rfl
  rw [hcreate]
  simp only [readDigits_eq s hs]
  by_cases hv : 5 ≤ s.length ∧ 0 < value s % 4294967296 ∧ value s % 4294967296 < 1000000
  · rw [if_pos hv]
    refine ⟨⟨fun _ => ⟨hv.1, by omega, by omega⟩, fun _ => rfl⟩, fun _ => ?_, Or.inl rfl⟩
    rw [parens, create_paren s hs]
    simp only [readDigits_eq s hs]
    rw [if_pos ⟨hv.2.1, by omega⟩]
  · rw [if_neg hv, hfb]
    refine ⟨⟨fun h => by omega, fun h => absurd ⟨h.1, by omega, by omega⟩ hv⟩, fun h => by omega, Or.inr rfl⟩

example : createPackedDesig (bytes "00433") = (0, bytes "00433       ") ∧
    (createPackedDesig (bytes "433")).1 = -1 := by decide +kernel

/-- **C52**, comet numbers written with a prefix: `P/73-BC` and `73P-BC` are packed in the same twelve
    bytes.  (For `C`, `X` and `A` the packed form has that letter.) -/
theorem C52_prefix (n t : Nat) (ns fs : List Nat) (hn : Numeral n ns) (h1 : 1 ≤ n) (h2 : n ≤ 9999)
    (ht : CometLetter t) (hfs : ∀ c ∈ fs, Capital c) (hlen : fs.length ≤ 2) :
    createPackedDesig ([t, 47] ++ ns ++ fragments fs) =
      (0, pad 4 n ++ [t, 32, 32, 32, 32, 32] ++ fragBytes fs) ∧
    (t = 80 ∨ t = 68 → createPackedDesig ([t, 47] ++ ns ++ fragments fs) =
      createPackedDesig (ns ++ [t] ++ fragments fs)) := by
  have hnd := hn.eq_dec
  have hf0 : isDigit (at? (fragments fs) 0) = false := by
    unfold fragments
    split <;> simp [at?] <;> decide
  have hrd : readDigits 0 (ns ++ fragments fs) = n := by
    rw [hnd]
    rw [readDigits_append _ _ _ (digits_dec n), readDigits_stop _ _ hf0]
    rw [readDigits_eq _ (digits_dec n), (numeral_dec n).value]
  have hdc : digitCount (ns ++ fragments fs) = ns.length := by
    rw [digitCount_append _ _ hn.digits, digitCount_stop _ hf0]; omega
  have hat : ∀ i, at? (ns ++ fragments fs) (ns.length + i) = at? (fragments fs) i := fun i =>
    at_append_right ns _ i
  have htl : trimLen (ns ++ fragments fs) (ns ++ fragments fs).length = ns.length + (fragments fs).length := by
    have := trim_spaces (ns ++ fragments fs) 0 (by
      intro x hx
      have := List.mem_of_getLast? hx
      rcases List.mem_append.1 this with h | h
      · have := hn.digits x h; omega
      · unfold fragments at h
        split at h
        · simp at h
        · rcases List.mem_cons.1 h with h | h
          · omega
          · have := hfs x h; unfold Capital at this; omega)
    simpa using this
  have hcreate : createPackedDesig ([t, 47] ++ ns ++ fragments fs) =
      (0, pad 4 n ++ [t, 32, 32, 32, 32, 32] ++ fragBytes fs) := by
    have e : [t, 47] ++ ns ++ fragments fs = t :: 47 :: (ns ++ fragments fs) := by simp
    rw [e, create_comet t _ ht]
    unfold createCore
    simp only [hrd, hdc, Bool.false_eq_true, if_false, htl, show n % 4294967296 = n by omega]
    have q0 := hat 0
    have q1 := hat 1
    have q2 := hat 2
    simp only [Nat.add_zero] at q0
    have ht0 : t ≠ 0 := by unfold CometLetter at ht; omega
    have e0 : isUpper 0 = false := by decide
    have e45 : isUpper 45 = false := by decide
    have s45 : strchr (bytes "PDI") 45 = false := by decide
    unfold createBranch
    have hp4 := pad4 (show n < 10000 by omega)
    have hn0 : 0 < n := by omega
    have hn1 : n < 10000 := by omega
    have hb : bytes "       " = [32, 32, 32, 32, 32, 32, 32] := by decide
    simp only [q0, q1, q2]
    match fs, hlen, hfs with
    | [], _, _ => simp [fragments, fragBytes, at?, e0, ht0, hn0, hn1, hb]
    | [f], _, hf =>
      have := hf f (by simp)
      unfold Capital at this
      have hu : isUpper f = true := upper_is this
      simp [fragments, fragBytes, at?, e45, s45, ht0, hn0, hn1, hb, hu, hp4]
    | [f, g], _, hf =>
      have h3 := hf f (by simp)
      have h4 := hf g (by simp)
      unfold Capital at h3 h4
      have hu : isUpper f = true := upper_is h3
      have hv : isUpper g = true := upper_is h4
      simp [fragments, fragBytes, at?, e45, s45, ht0, hn0, hn1, hb, hu, hv, hp4]
  refine ⟨hcreate, fun htt => ?_⟩
  rw [hcreate, C52_packed n t ns fs hn h1 h2 (by omega) hfs hlen]

example : createPackedDesig (bytes "P/73-BC") = (0, bytes "0073P     bc") ∧
    createPackedDesig (bytes "73P-BC") = (0, bytes "0073P     bc") := by decide +kernel

/-! ## Anything after a provisional designation -/

theorem packProv_trailing {o : List Nat} {len y : Nat} (h6 : isUpper (at? o 6) = true)
    (hlen : 7 + digitCount (o.drop 7) ≠ len) : (packProvisional o 5 len y 0).1 = -1 := by
  unfold packProvisional
  simp only [h6, if_true, ne_eq, not_true_eq_false, false_and, decide_false, Bool.false_eq_true, if_false]
  split
  · simp only []
    rw [if_neg]
    rintro ⟨h, -⟩
    exact hlen h
  · rfl

/-- **C21**, no designation with something behind it is taken for the designation: `2004 JX42b` and the like
    are reported with -1. -/
theorem C21_trailing (y l m : Nat) (ys ks junk : List Nat) (hy : Padded 4 y ys) (h1 : 1000 ≤ y) (h2 : y ≤ 2999)
    (hl : Capital l) (hm : Capital m) (hk : AllDigits ks) (hj : junk ≠ [])
    (hj0 : ¬ (48 ≤ at? junk 0 ∧ at? junk 0 ≤ 57)) (hjl : ∀ x ∈ junk.getLast?, x ≠ 32) :
    (createPackedDesig (ys ++ [32, l, m] ++ ks ++ junk)).1 = -1 := by
  have hys := year_shape hy (by omega)
  subst hys
  have ha : 48 ≤ 48 + y / 1000 ∧ 48 + y / 1000 ≤ 57 := by omega
  have hb : 48 ≤ 48 + y / 100 % 10 ∧ 48 + y / 100 % 10 ≤ 57 := by omega
  have hc : 48 ≤ 48 + y / 10 % 10 ∧ 48 + y / 10 % 10 ≤ 57 := by omega
  have hd : 48 ≤ 48 + y % 10 ∧ 48 + y % 10 ≤ 57 := by omega
  have ha2 : 48 + y / 1000 = 49 ∨ 48 + y / 1000 = 50 := by omega
  generalize 48 + y / 1000 = a at *
  generalize 48 + y / 100 % 10 = b at *
  generalize 48 + y / 10 % 10 = c at *
  generalize 48 + y % 10 = d at *
  simp only [List.cons_append, List.nil_append]
  have hjd : isDigit (at? junk 0) = false := by rw [isDigit_false]; omega
  have hdc : digitCount (ks ++ junk) = ks.length := by
    rw [digitCount_append _ _ hk, digitCount_stop _ hjd]; omega
  have hjlen : 0 < junk.length := List.length_pos_iff.2 hj
  have hyr := year_read ha hb hc hd (32 :: l :: m :: (ks ++ junk)) (by rw [at_zero]; decide)
  have htl : trimLen (a :: b :: c :: d :: 32 :: l :: m :: (ks ++ junk))
      (a :: b :: c :: d :: 32 :: l :: m :: (ks ++ junk)).length = 7 + (ks ++ junk).length := by
    have := trim_spaces (a :: b :: c :: d :: 32 :: l :: m :: (ks ++ junk)) 0 (by
      intro x hx
      apply hjl x
      have e : a :: b :: c :: d :: 32 :: l :: m :: (ks ++ junk) = (a :: b :: c :: d :: 32 :: l :: m :: ks) ++ junk := by
        simp
      rw [e, List.getLast?_append] at hx
      cases hg : junk.getLast? with
      | none => rw [List.getLast?_eq_none_iff] at hg; exact absurd hg hj
      | some z => rw [hg] at hx; simpa using hx)
    simp only [List.replicate_zero, List.append_nil] at this
    rw [this]; simp; omega
  have e1 : strchr (bytes "PDI") 32 = false := by decide
  rw [create_plain _ (by rw [at_zero]; omega) (by rw [at_zero]; omega) (by rw [at_succ, at_zero]; omega)]
  unfold createCore
  simp only [hyr, Bool.false_eq_true, if_false, htl]
  have hy2 : ((a - 48) * 1000 + (b - 48) * 100 + (c - 48) * 10 + (d - 48)) % 4294967296 =
    (a - 48) * 1000 + (b - 48) * 100 + (c - 48) * 10 + (d - 48) := by omega
  rw [hy2]
  have hy3 : 999 < (a - 48) * 1000 + (b - 48) * 100 + (c - 48) * 10 + (d - 48) := by omega
  have hy4 : (a - 48) * 1000 + (b - 48) * 100 + (c - 48) * 10 + (d - 48) < 9000 := by omega
  generalize (a - 48) * 1000 + (b - 48) * 100 + (c - 48) * 10 + (d - 48) = y at *
  unfold createBranch
  have hl2 : 4 < 7 + (ks ++ junk).length := by omega
  have a4 : at? (a :: b :: c :: d :: 32 :: l :: m :: (ks ++ junk)) 4 = 32 := by simp [at?]
  have a5 : at? (a :: b :: c :: d :: 32 :: l :: m :: (ks ++ junk)) 5 = l := by simp [at?]
  have a6 : isUpper (at? (a :: b :: c :: d :: 32 :: l :: m :: (ks ++ junk)) 6) = true := by
    have : at? (a :: b :: c :: d :: 32 :: l :: m :: (ks ++ junk)) 6 = m := by simp [at?]
    rw [this]; exact upper_is hm
  have hdr : (a :: b :: c :: d :: 32 :: l :: m :: (ks ++ junk)).drop 5 = l :: m :: (ks ++ junk) := rfl
  have hr := packProv_trailing (o := a :: b :: c :: d :: 32 :: l :: m :: (ks ++ junk))
    (len := 7 + (ks ++ junk).length) (y := y) a6 (by
      show 7 + digitCount (ks ++ junk) ≠ _
      rw [hdc, List.length_append]; omega)
  simp only [a4, e1, Bool.false_eq_true, and_false, if_false, hl2, if_true, a5, hy3, hy4, upper_is hl,
    hdr, survey_none l m (ks ++ junk) hm.1, ne_eq, not_true_eq_false, and_self]
  simp only [hr]
  rw [if_neg (by decide)]
  exact (fallback_shape _ _ _ (packProvisional_shape _ _ _ _ _).2).1

example : (createPackedDesig (bytes "2004 JX42b")).1 = -1 := by decide +kernel

/-- **C22**, the other four-digit numbers: reported with -1, and the name is stored after a dollar sign. -/
theorem C22_reported (n : Nat) (ns sv : List Nat) (hn : Padded 4 n ns) (hsv : sv ∈ surveyNames) (h4 : n ≤ 9999)
    (h : n < 1000 ∨ 9000 ≤ n) :
    createPackedDesig (ns ++ [32] ++ sv) = (-1, [36] ++ ns ++ [32] ++ sv ++ [32, 32, 32]) := by
  have hy := year_shape hn (by omega)
  subst hy
  have ha : 48 ≤ 48 + n / 1000 ∧ 48 + n / 1000 ≤ 57 := by omega
  have hb : 48 ≤ 48 + n / 100 % 10 ∧ 48 + n / 100 % 10 ≤ 57 := by omega
  have hc : 48 ≤ 48 + n / 10 % 10 ∧ 48 + n / 10 % 10 ≤ 57 := by omega
  have hd : 48 ≤ 48 + n % 10 ∧ 48 + n % 10 ≤ 57 := by omega
  have hv := year_value (y := n) (by omega)
  generalize 48 + n / 1000 = a at *
  generalize 48 + n / 100 % 10 = b at *
  generalize 48 + n / 10 % 10 = c at *
  generalize 48 + n % 10 = d at *
  have key : ∀ x y z, z ≠ 32 →
      createPackedDesig [a, b, c, d, 32, x, y, z] = (-1, [36, a, b, c, d, 32, x, y, z, 32, 32, 32]) := by
    intro x y z hz
    have hyr := year_read ha hb hc hd [32, x, y, z] (by rw [at_zero]; decide)
    rw [create_plain _ (by rw [at_zero]; omega) (by rw [at_zero]; omega) (by rw [at_succ, at_zero]; omega)]
    have htl : trimLen [a, b, c, d, 32, x, y, z] [a, b, c, d, 32, x, y, z].length = 8 :=
      trimLen_full [a, b, c, d, 32, x, y] z hz
    have hperm := permanent_none [a, b, c, d, 32, x, y, z] (by rw [at_zero]; omega)
    have hprov := provisional_none [a, b, c, d, 32, x, y, z] (by rw [at_zero]; omega)
    have e1 : strchr (bytes "PDI") 32 = false := by decide
    unfold createCore
    simp only [hyr, Bool.false_eq_true, if_false, htl, hv, show n % 4294967296 = n by omega]
    unfold createBranch
    have a4 : at? [a, b, c, d, 32, x, y, z] 4 = 32 := rfl
    have hnr : ¬ (999 < n ∧ n < 9000) := by omega
    simp only [a4, e1, Bool.false_eq_true, and_false, if_false, if_true, (by decide : 4 < 8), true_and, and_true,
      hperm, hprov, ne_eq, not_true_eq_false, false_and, Bool.false_or, beq_iff_eq, Bool.and_eq_true,
      (by decide : ((4 : Nat) == 8) = false), Bool.false_and, (by decide : ¬ (32 : Nat) = 45),
      (by decide : ¬ (4 + 1 : Nat) = 8)]
    rw [if_neg (fun h => hnr ⟨h.1, h.2.1⟩)]
    rfl
  simp only [surveyNames, List.mem_cons, List.not_mem_nil, or_false] at hsv
  rcases hsv with rfl | rfl | rfl | rfl
  · exact key 80 45 76 (by decide)
  · exact key 84 45 49 (by decide)
  · exact key 84 45 50 (by decide)
  · exact key 84 45 51 (by decide)

example : createPackedDesig (bytes "0123 T-2") = (-1, bytes "$0123 T-2   ") := by decide +kernel

/-- A packed designation as printed somewhere in a text: spaces, the word, and the end or a byte that is not
    printable. -/
def InText (w s : List Nat) : Prop :=
  ∃ a t, s = List.replicate a 32 ++ w ++ t ∧ (∀ c ∈ t.head?, c ≤ 32 ∨ 127 ≤ c)

theorem unaligned_word (w s : List Nat) (hw : ∀ c ∈ w, 32 < c ∧ c < 127) (hne : w ≠ []) (h : InText w s) :
    (s.dropWhile (· == 32)).takeWhile (fun c => decide (c > 32) && decide (c < 127)) = w := by
  obtain ⟨a, t, rfl, ht⟩ := h
  have h1 : (List.replicate a 32 ++ w ++ t).dropWhile (· == 32) = w ++ t := by
    rw [List.append_assoc]
    induction a with
    | zero =>
      cases w with
      | nil => exact absurd rfl hne
      | cons c w =>
        have := hw c (by simp)
        rw [List.replicate_zero, List.nil_append, List.cons_append, List.dropWhile_cons_of_neg]
        simp; omega
    | succ k ih => rw [List.replicate_succ, List.cons_append, List.dropWhile_cons_of_pos (by simp)]; exact ih
  rw [h1, List.takeWhile_append_of_pos (by intro c hc; have := hw c hc; simp; omega)]
  have : t.takeWhile (fun c => decide (c > 32) && decide (c < 127)) = [] := by
    cases t with
    | nil => rfl
    | cons c t =>
      have := ht c (by simp)
      rw [List.takeWhile_cons_of_neg]; simp; omega
  rw [this, List.append_nil]

/-- **C54**, `unpack_unaligned_mpc_desig`: a word of seven or eight bytes is read as the right end of the
    twelve columns, any other word of at most twelve bytes as the left end, and the result is that of
    `unpack_mpc_desig`; a longer word is refused. -/
theorem C54_unaligned (w s : List Nat) (hw : ∀ c ∈ w, 32 < c ∧ c < 127) (hne : w ≠ []) (h : InText w s) :
    (∀ p c o, p.length = 12 → (∃ k, (w.length = 7 ∨ w.length = 8) ∧ p = List.replicate k 32 ++ w) ∨
        (∃ k, w.length ≠ 7 ∧ w.length ≠ 8 ∧ p = w ++ List.replicate k 32) →
      unpackMpcDesig p = .ok (c, o) → unpackUnaligned s = .ok (c, some o)) ∧
    (12 < w.length → unpackUnaligned s = .ok (-1, none)) := by
  have hww := unaligned_word w s hw hne h
  constructor
  · intro p c o hp hal hu
    have hle : w.length ≤ 12 := by
      rcases hal with ⟨k, -, rfl⟩ | ⟨k, -, -, rfl⟩ <;> simp at hp <;> omega
    unfold unpackUnaligned
    simp only [hww]
    rw [if_neg (by omega)]
    have : (List.replicate (if w.length = 7 ∨ w.length = 8 then 12 - w.length else 0) 32 ++ w ++
        List.replicate (12 - (if w.length = 7 ∨ w.length = 8 then 12 - w.length else 0) - w.length) 32) = p := by
      rcases hal with ⟨k, h7, rfl⟩ | ⟨k, h7, h8, rfl⟩
      · rw [if_pos h7]
        simp only [List.length_append, List.length_replicate] at hp
        have e1 : 12 - w.length = k := by omega
        have e2 : 12 - k - w.length = 0 := by omega
        rw [e1, e2]; simp
      · rw [if_neg (by omega)]
        simp only [List.length_append, List.length_replicate] at hp
        have e2 : 12 - 0 - w.length = k := by omega
        rw [e2]; simp
    rw [this, hu]
  · intro hlong
    unfold unpackUnaligned
    simp only [hww]
    rw [if_pos (by omega)]; rfl

example : InText (bytes "K10A00B") (bytes "  K10A00B x") := ⟨2, bytes " x", by decide, by decide⟩
example : unpackUnaligned (bytes "  K10A00B x") = .ok (0, some (bytes "2010 AB")) := by decide +kernel
example : unpackUnaligned (bytes "PK10A00B") = .ok (2, some (bytes "P/2010 AB")) := by decide +kernel
example : unpackUnaligned (bytes "00433") = .ok (1, some (bytes "(433)")) := by decide +kernel

end Verif.Props
