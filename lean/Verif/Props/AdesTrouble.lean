import Verif.Props.AdesRead

/-!
# C85: an observation as an example, and values that are not read back
-/

namespace Verif.Props

open Verif Verif.Ades Verif.AdesObs Verif.Spec Verif.MpcLine

/-- `get_time_from_stringl` is not needed here. -/
def noTime : Ext := ⟨fun _ => .abort⟩

/-- Elements one after the other. -/
def feed (e : Ext) : Ctx → List Elem → Outcome Ctx
  | c, [] => .ok c
  | c, x :: xs => (processTag e c x.1 x.2.1 x.2.2).bind fun r => feed e r.1 xs

theorem feed_fed {e : Ext} {c d k : Ctx} {pre els : List Elem} (hp : Fed e c pre d) (h : feed e d els = .ok k) : Fed e c (pre ++ els) k := by
  induction els generalizing pre d with
  | nil =>
    rw [feed, Outcome.ok.injEq] at h
    rw [List.append_nil, ← h]
    exact hp
  | cons x xs ih =>
    rw [feed] at h
    obtain ⟨r, hr, h⟩ := bind_ok h
    have := ih (.next x hp hr) h
    simpa using this

/-- What follows a value in PSV. -/
def bar : List Nat := [124]

/-- An observation whose right ascension comes before the time. -/
def sampleEls : List Elem := [(75, bytes "1234", bar), (96, bytes "5.125", bar), (29, bytes "-1.1234567", bar), (65, bytes "2020-01-02T03:04:05.25Z", bar),
  (52, bytes "CCD", bar), (132, bytes "703", bar), (50, bytes "18.25", bar), (19, bytes "V", bar)]

/-- The columns that come out. -/
def shown (els : List Elem) : Option (List Nat) := match feed noTime (setup init) els with
  | .ok k => some (columns k)
  | _ => none

theorem shown_some {els : List Elem} {s : List Nat} (h : shown els = some s) : ∃ k, Fed noTime (setup init) els k ∧ columns k = s := by
  unfold shown at h
  split at h
  · rename_i k hk
    exact ⟨k, feed_fed .nil hk, by simpa using h⟩
  · cases h

theorem sample_columns : shown sampleEls = some (bytes "01234         CK200102:03040525 005.125     -01.1234567          18.25V      703") := by
  decide +kernel

theorem pads (w n : Nat) (s : String) (h1 : (bytes s).length = w) (h2 : ∀ c ∈ bytes s, 48 ≤ c ∧ c ≤ 57) (h3 : value (bytes s) = n) :
    Padded w n (bytes s) := padded_of h1 h2 h3

/-- The hypotheses of `C85_observation` can be met. -/
example : ∃ k, Fed noTime (setup init) sampleEls k ∧ ∃ l : List Nat, l.take 80 = columns k ∧
    extractDate l = (2458851 - 1 / 2 + (3 / 24 + 4 / 1440 + (5 + 25 / 10 ^ 2) / 86400), some 22) := by
  obtain ⟨k, hk, -⟩ := shown_some sample_columns
  refine ⟨k, hk, columns k ++ [10], by simp [columns], ?_⟩
  have ht : AdesTime (bytes "2020-01-02T03:04:05.25Z") 2 1 2020 3 4 5 2 25 := by
    have := AdesTime.mk (pads 4 2020 "2020" rfl (by decide +kernel) rfl) (pads 2 1 "01" rfl (by decide +kernel) rfl)
      (pads 2 2 "02" rfl (by decide +kernel) rfl) (pads 2 3 "03" rfl (by decide +kernel) rfl) (pads 2 4 "04" rfl (by decide +kernel) rfl)
      (pads 2 5 "05" rfl (by decide +kernel) rfl) (p := 2) (v := 25) (Or.inr ⟨by omega, _, pads 2 25 "25" rfl (by decide +kernel) rfl, rfl⟩)
    exact this
  have hr : AdesDegrees 3 (bytes "5.125") 5 3 125 :=
    AdesDegrees.mk (w := 1) (by omega) (by omega) (pads 1 5 "5" rfl (by decide +kernel) rfl) (pads 3 125 "125" rfl (by decide +kernel) rfl)
  have hd : AdesDegrees 2 (bytes "1.1234567") 1 7 1234567 :=
    AdesDegrees.mk (w := 1) (by omega) (by omega) (pads 1 1 "1" rfl (by decide +kernel) rfl)
      (pads 7 1234567 "1234567" rfl (by decide +kernel) rfl)
  have hn : MixedDate 2 1 2020 2458851 := 
    Or.inr ⟨⟨by decide, by decide, 31, by decide +kernel, by decide⟩, by unfold DateLt; omega, by decide +kernel⟩
  have ho : Observation sampleEls (65, bytes "2020-01-02T03:04:05.25Z", bar) (96, plusSign false ++ bytes "5.125", bar)
      (29, [45] ++ bytes "1.1234567", bar) (132, bytes "703", bar) :=
    ⟨rfl, rfl, rfl, rfl, by decide +kernel, by decide +kernel, by decide +kernel, by decide +kernel, by decide +kernel, by decide +kernel,
      by decide +kernel, by decide +kernel⟩
  have := (C85_observation hk ho ht (by omega) (by omega) (by omega) hn hr (by omega) .minus hd (fun _ => ⟨rfl, by decide, by decide, by decide⟩)
    rfl (by decide +kernel) (l := columns k ++ [10]) (by simp [columns]) (by simp [columns])).1
  rw [this]
  norm_num

/-- C85: the bytes stored for a time, however many decimals it has.  It must end in `Z`. -/
theorem C85_long_time {e : Ext} {c : Ctx} {s more : List Nat} {d m y hour minute second p v : Nat}
    (h : AdesTime s d m y hour minute second p v) (h1 : 1700 ≤ y) (h2 : y ≤ 2099) (hp : 4 ≤ p) {r : Ctx × List Nat × Int}
    (hr : processTag e c 65 s more = .ok r) :
    (∀ i, r.1.line i = blit c.line 15 (fitsTime (s ++ more)) i) ∧ (fitsTime (s ++ more)).length = 14 + p ∧ r.1.t2k ≠ none := by
  have hl := time_length (more := more) h h1 h2
  have ha := atoi_time (more := more) h
  have hr : obsTime e c s more = .ok r.1 := quiet_ok hr
  unfold obsTime blitIn at hr
  simp only [hl, ha] at hr
  split at hr
  · simp only [Outcome.bind] at hr
    rw [if_pos (by omega)] at hr
    have hr := named_ok hr
    obtain ⟨x, -, hr⟩ := bind_ok hr
    rw [Outcome.ok.injEq] at hr
    rw [← hr]
    refine ⟨fun i => ?_, hl, by simp⟩
    rw [if_neg (by simp; omega)]
  · simp [Outcome.bind] at hr

/-- **Finding** (C85): a time of four or more decimals that comes after the right ascension is written over it.  The digit in column 33 is
    then the fourth decimal of the second. -/
theorem C85_ra_overwritten {e : Ext} {c : Ctx} {s more : List Nat} {d m y hour minute second p v : Nat}
    (h : AdesTime s d m y hour minute second p v) (h1 : 1700 ≤ y) (h2 : y ≤ 2099) (hp : 4 ≤ p) {r : Ctx × List Nat × Int}
    (hr : processTag e c 65 s more = .ok r) {j : Nat} (hj : j < p - 3) : ∃ ds, Padded p v ds ∧ r.1.line (32 + j) = at? ds (3 + j) := by
  obtain ⟨hline, hlen, -⟩ := C85_long_time h h1 h2 hp hr
  obtain ⟨c', yy, ty, mm, dd, hh, nn, ss, ds, -, -, -, p1, p2, p3, p4, p5, p6, p7, e'⟩ := fitsTime_eq (more := more) h h1 h2
  refine ⟨ds, p7, ?_⟩
  rw [hline, blit_in (by omega), e', show 32 + j - 15 = 17 + j by omega]
  obtain ⟨_, _, rfl, -⟩ := padded_two p1
  obtain ⟨_, _, rfl, -⟩ := padded_two p2
  obtain ⟨_, _, rfl, -⟩ := padded_two p3
  obtain ⟨_, _, rfl, -⟩ := padded_two p4
  obtain ⟨_, _, rfl, -⟩ := padded_two p5
  obtain ⟨_, _, rfl, -⟩ := padded_two p6
  rw [show 17 + j = (3 + j) + 14 by omega]
  rfl

/-- Elements with a time of six decimals after the right ascension. -/
def lateTime : List Elem := [(96, bytes "123.5", bar), (65, bytes "2020-01-02T03:04:05.123456Z", bar)]

/-- The hypotheses can be met, and the right ascension of 123.5 degrees has become 456.5. -/
example : ∃ k, feed ⟨fun _ => .ok 0⟩ (setup init) lateTime = .ok k ∧ (List.range' 32 5).map k.line = bytes "456.5" := by
  have : (match feed ⟨fun _ => .ok 0⟩ (setup init) lateTime with
    | .ok k => some ((List.range' 32 5).map k.line)
    | _ => none) = some (bytes "456.5") := by decide +kernel
  split at this
  · rename_i k hk
    exact ⟨k, hk, by simpa using this⟩
  · cases this

/-- **Finding** (C85): in a time that does not end in `Z` the digits of the fields after it are taken for more of it. -/
theorem C85_no_z : shown [(65, bytes "2020-01-02T03:04:05", bytes "|12|5|")] =
    some (bytes "               K200102:030405125                                                ") := by decide +kernel

/-- **Finding** (C85): a right ascension with a minus sign, of up to two figures and seven decimals, gets zeroes before the sign. -/
theorem C85_negative_ra {e : Ext} {c : Ctx} {s more : List Nat} {z p v : Nat} (h : AdesDegrees 2 s z p v) (hp : p ≤ 7) :
    ∃ r w, processTag e c 96 (45 :: s) more = .ok r ∧ r.1.line 32 = (if w = 1 then 48 else 45) ∧ (w = 1 → r.1.line 33 = 45) ∧
      (w = 1 ∨ w = 2) := by
  cases h with
  | @mk w z p v a f h1 h2 ha hf =>
  have hpl := place_short (a := 45 :: a) (more := more) (k := 3) (by simp [ha.width]; omega) hf hp
  have hq : processTag e c 96 (45 :: (a ++ 46 :: f)) more =
      .ok ({ c with line := blit c.line 32 (List.replicate (3 - (45 :: a).length) 48 ++ (45 :: a ++ 46 :: f)) }, [], 0) := by
    rw [tag_ra]
    unfold placeRa
    simp only [show at? (45 :: (a ++ 46 :: f)) 0 = 45 from rfl, show (45 : Nat) ≠ 43 by omega, if_false]
    rw [show 45 :: (a ++ 46 :: f) = 45 :: a ++ 46 :: f from rfl, hpl]
    simp [Outcome.bind]
  have hwa := ha.width
  refine ⟨_, w, hq, ?_, ?_, by omega⟩
  · simp only
    rw [blit_in (by simp)]
    obtain rfl | rfl : w = 1 ∨ w = 2 := by omega
    · simp [hwa, at?]
    · simp [hwa, at?]
  · rintro rfl
    simp only
    rw [blit_in (by simp; omega)]
    simp [hwa, at?]

/-- **Finding** (C85): with one figure it is then read as zero degrees. -/
theorem C85_negative_ra_zero {a p v : Nat} {f s : List Nat} (hf : Column 8 p v f) (ha : a ≠ 46)
    (hs : s.take 12 = 48 :: 45 :: a :: 46 :: f) : getRaDec s = .ok (0, 200 + (p : Int), 3600 / 15 / 10 ^ p) := by
  rw [getRaDec_unsigned hs (by simp [column_length hf]) (by simp [at?]) (by simp [at?])]
  have hq : quickAtof (48 :: 45 :: a :: 46 :: f) = .ok 0 := by
    have := C73_integer (.none 0) (ds := [48]) (rest := 45 :: a :: 46 :: f) (by simp [AllDigits]) (by simp) rfl (by simp [at?]) (by decide)
    unfold quickAtof
    rw [show 48 :: 45 :: a :: 46 :: f = List.replicate 0 32 ++ ([48] ++ 45 :: a :: 46 :: f) from rfl, this]
    simp [Spec.signed, value, Outcome.bind]
  have hc : digitCount (48 :: 45 :: a :: 46 :: f) = 1 := count_padded (w := 1) (n := 0) (s := [48]) (rest := 45 :: a :: 46 :: f)
    ⟨by simp [AllDigits], by simp [value], rfl⟩ rfl
  unfold angle
  rw [hq, hc]
  simp only [Outcome.bind]
  rw [if_neg (by omega), if_neg (by simpa [at?] using ha), if_pos (by simp [at?])]
  simp only [List.drop_succ_cons, List.drop_zero, count_column hf]
  simp

/-- The hypotheses can be met. -/
example : shown [(96, bytes "-5.125", bar)] = some (List.replicate 32 32 ++ bytes "0-5.125" ++ List.replicate 41 32) := by decide +kernel

/-- **Finding** (C85): a station code of two bytes takes the delimiter as its third. -/
theorem C85_short_station {e : Ext} {c : Ctx} {a b x : Nat} {more : List Nat} :
    ∃ r, processTag e c 132 [a, b] (x :: more) = .ok r ∧ r.1.line 79 = x := ⟨_, rfl, rfl⟩

/-- **Finding** (C85): a right ascension of more than seven decimals that is rounded to a thousand degrees, or has four figures, ends the program. -/
theorem C85_ra_abort {e : Ext} {c : Ctx} {b : Bool} {s more : List Nat} {z p v : Nat} (h : AdesDegrees 3 s z p v) (hp : 8 ≤ p)
    (hm : Scan.Stops more) (hx : (1000 : ℚ) - 1 / 2 / 10 ^ 8 < (z : ℚ) + (v : ℚ) / 10 ^ p) : processTag e c 96 (plusSign b ++ s) more = .abort := by
  rw [tag_ra]
  unfold placeRa
  simp only [drop_plus h]
  obtain ⟨h1, h3, ha, hf⟩ := h
  rw [place_long h1 h3 ha hf hp hm, if_neg]
  · rfl
  · intro hl
    have hx0 : (0 : ℚ) ≤ (z : ℚ) + (v : ℚ) / 10 ^ p := by positivity
    obtain ⟨n, u, hu, e, hd⟩ := fixed_parts hx0
    obtain ⟨q, hq⟩ := dec_padded n
    have hpad := padded_pad hu (by omega)
    have e3 : (rounded 3 ((z : ℚ) + (v : ℚ) / 10 ^ p)).length = 12 - (q + 1 + 9) + (q + 1 + 9) := by
      unfold rounded fixed8
      rw [if_neg (by omega), e]
      simp [hq.width, hpad.width]
    have hn := padded_lt hq
    have hn3 : n < 10 ^ 3 := lt_of_lt_of_le hn (Nat.pow_le_pow_right (by omega) (by omega))
    have hN : n * 10 ^ 8 + u < 1000 * 10 ^ 8 := by omega
    have hN' : (n : ℚ) + (u : ℚ) / 10 ^ 8 ≤ 1000 - 1 / 10 ^ 8 := by
      have : ((n * 10 ^ 8 + u + 1 : Nat) : ℚ) ≤ ((1000 * 10 ^ 8 : Nat) : ℚ) := by exact_mod_cast hN
      push_cast at this
      norm_num
      linarith
    have := (abs_le.1 hd).1
    norm_num at hN' this hx
    linarith

/-- The hypotheses can be met. -/
example : (1000 : ℚ) - 1 / 2 / 10 ^ 8 < ((999 : Nat) : ℚ) + ((999999999 : Nat) : ℚ) / 10 ^ 9 := by norm_num

/-- **Finding** (C85): the text of a right ascension of more than seven decimals is kept in an array of 26 bytes without a check. -/
theorem C85_ra_overflow {e : Ext} {c : Ctx} {b : Bool} {s more : List Nat} {z p v : Nat} (h : AdesDegrees 3 s z p v) (hp : 8 ≤ p)
    (hm : Scan.Stops more) (hs : 26 ≤ s.length) : processTag e c 96 (plusSign b ++ s) more = .ub ∨
      processTag e c 96 (plusSign b ++ s) more = .abort := by
  rw [tag_ra]
  unfold placeRa
  simp only [drop_plus h]
  cases h with
  | @mk w z p v a f h1 h3 ha hf =>
  rw [place_long h1 h3 ha hf hp hm]
  split
  · simp only [Outcome.bind, if_true]
    rw [if_neg (by omega)]
    exact Or.inl rfl
  · exact Or.inr rfl

theorem fed_beyond {e : Ext} {c k : Ctx} {els : List Elem} (hfed : Fed e c els k) (hs : ShortTimes els) {i : Nat} (hi : 80 ≤ i) :
    k.line i = c.line i := by
  induction hfed with
  | nil => rfl
  | state st _ ih => exact ih hs
  | @next els d r y hf hp ih =>
    rw [processTag_frame hp (hs y (by simp)), ih fun z hz => hs z (by simp [hz])]
    intro a b hab hj'
    have : ∀ q ∈ ranges, q.2 < 80 := by decide
    have := this _ (own_mem hab)
    simp only at this
    omega

/-- C85: the line given out is the 80 columns and the end of the line, if none of the bytes is zero. -/
theorem C85_given_out {e : Ext} {c k : Ctx} {els : List Elem} (hfed : Fed e (setup c) els k) (hs : ShortTimes els)
    (hz : ∀ i, i < 80 → k.line i ≠ 0) : text k.line 0 = columns k ++ [10] := by
  have h0 := fed_beyond hfed hs (i := 80) (by omega)
  have h1 := fed_beyond hfed hs (i := 81) (by omega)
  have h2 := fed_beyond hfed hs (i := 82) (by omega)
  have e : (List.range' 0 (83 - 0)).map k.line = columns k ++ [10, 0, 0] := by
    rw [show List.range' 0 (83 - 0) = List.range 80 ++ [80, 81, 82] by decide +kernel, List.map_append]
    simp only [List.map_cons, List.map_nil, h0, h1, h2]
    rfl
  unfold text
  rw [e, List.takeWhile_append_of_pos]
  · simp
  · intro x hx
    obtain ⟨i, hi, rfl⟩ := List.mem_map.1 hx
    simpa using hz i (by simpa using hi)

end Verif.Props
