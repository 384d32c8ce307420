import Verif.Model.ThemCat
import Verif.Spec.Tle
import Verif.Lemmas.Scan
import Mathlib.Tactic.SplitIfs
import Mathlib.Tactic.Ring
import Mathlib.Tactic.Linarith
import Mathlib.Data.List.Forall2
import Mathlib.Data.Rat.Floor

/-!
# C111: joining files of TLEs
-/

namespace Verif.Props

open Verif Verif.Spec Verif.Spec.Tle Verif.ThemCat

/-! ## Lines -/

theorem bytes_size (p : String) : (bytes p).length = p.length := by
  unfold bytes
  rw [List.length_map, String.length_toList]

theorem starts_iff (p : String) (l : List Nat) : starts p l = true ↔ Begins p l := by
  unfold starts Begins
  rw [beq_iff_eq]
  constructor
  · intro h
    exact ⟨l.drop p.length, by rw [← h, List.take_append_drop]⟩
  · rintro ⟨r, rfl⟩
    exact List.take_left' (bytes_size p)

theorem starts_not {p : String} {l : List Nat} (h : ¬Begins p l) : starts p l = false := by
  rw [← Bool.not_eq_true, starts_iff]; exact h

/-- Two texts that differ at some place are not both at the beginning of a line. -/
theorem begins_differ {p q : String} {l : List Nat} (i : Nat) (hp : i < (bytes p).length) (hq : i < (bytes q).length)
    (hne : (bytes p)[i]? ≠ (bytes q)[i]?) (h : Begins p l) : ¬Begins q l := by
  rintro ⟨s, rfl⟩
  obtain ⟨r, e⟩ := h
  apply hne
  have := congrArg (fun t => t[i]?) e
  simp only [List.getElem?_append_left hp, List.getElem?_append_left hq] at this
  exact this.symm

theorem begins_take {p : String} {l : List Nat} (h : Begins p l) {i : Nat} (hi : p.length ≤ i) (t : List Nat) : Begins p (l.take i ++ t) := by
  obtain ⟨r, rfl⟩ := h
  refine ⟨r.take (i - p.length) ++ t, ?_⟩
  rw [List.take_append, bytes_size, List.take_of_length_le (by rw [bytes_size]; exact hi), List.append_assoc]

theorem no_comment {p : String} {l : List Nat} (h : l.head? ≠ some 35) (hp : (bytes p).head? = some 35) : ¬Begins p l := by
  rintro ⟨r, rfl⟩
  apply h
  cases hb : bytes p with
  | nil => rw [hb] at hp; simp at hp
  | cons c s => rw [hb] at hp; simpa using hp

theorem updated_edit {last : ℚ} {newEnd now l l' : List Nat} (h : Updated (Time.fmtFixed 6 last ++ bytes " 1.000000\n") newEnd now l l')
    (hb : Begins "# Ephemeris end:" newEnd) (ht : (Time.fmtFixed 6 last ++ bytes " 1.000000\n").length < 172) :
    edit last newEnd now l = .ok l' := by
  unfold edit editRange
  cases h with
  | range h hl =>
    rw [if_pos ((starts_iff _ _).2 h)]
    simp only
    rw [if_neg (by omega)]
    simp only [Outcome.bind]
    unfold over
    rw [if_neg (by omega)]
    have h1 := begins_take h (i := 28) (by decide) (Time.fmtFixed 6 last ++ bytes " 1.000000\n")
    have h2 : ¬Begins "# Ephemeris end:" _ := begins_differ 7 (by decide) (by decide) (by decide) h1
    have h3 : ¬Begins "# Last updated with" _ := begins_differ 2 (by decide) (by decide) (by decide) h1
    unfold editEnd
    rw [starts_not h2, if_neg (by simp)]
    unfold editTime
    rw [starts_not h3, if_neg (by simp)]
  | last h =>
    have h1 : ¬Begins "# Ephem range:" l := begins_differ 7 (by decide) (by decide) (by decide) h
    have h3 : ¬Begins "# Last updated with" newEnd := begins_differ 2 (by decide) (by decide) (by decide) hb
    rw [starts_not h1, if_neg (by simp)]
    simp only [Outcome.bind]
    unfold editEnd
    rw [if_pos ((starts_iff _ _).2 h)]
    unfold editTime
    rw [starts_not h3, if_neg (by simp)]
  | time h hl =>
    have h1 : ¬Begins "# Ephem range:" l := begins_differ 2 (by decide) (by decide) (by decide) h
    have h2 : ¬Begins "# Ephemeris end:" l := begins_differ 2 (by decide) (by decide) (by decide) h
    rw [starts_not h1, if_neg (by simp)]
    simp only [Outcome.bind]
    unfold editEnd
    rw [starts_not h2, if_neg (by simp)]
    unfold editTime
    rw [if_pos ((starts_iff _ _).2 h)]
    unfold over
    rw [if_neg (by omega)]
  | same h1 h2 h3 =>
    rw [starts_not h1, if_neg (by simp)]
    simp only [Outcome.bind]
    unfold editEnd
    rw [starts_not h2, if_neg (by simp)]
    unfold editTime
    rw [starts_not h3, if_neg (by simp)]

theorem updated_mjd {e newEnd now l l' : List Nat} (h : Updated e newEnd now l l') (hb : Begins "# Ephemeris end:" newEnd)
    (hm : ¬Begins "# MJD " l) : ¬Begins "# MJD " l' := by
  cases h with
  | range h hl => exact begins_differ 2 (by decide) (by decide) (by decide) (begins_take h (by decide) _)
  | last h => exact begins_differ 2 (by decide) (by decide) (by decide) hb
  | time h hl => exact begins_differ 2 (by decide) (by decide) (by decide) (begins_take h (by decide) _)
  | same h1 h2 h3 => exact hm

theorem updated_twice {e newEnd now l l' : List Nat} (h : Updated e newEnd now l l') (hb : Begins "# Ephemeris end:" newEnd) :
    Updated e newEnd now l' l' := by
  cases h with
  | range h hl =>
    have := Updated.range (endText := e) (newEnd := newEnd) (now := now) _ (begins_take h (i := 28) (by decide) e) (by simp; omega)
    rwa [List.take_left' (by simp; omega)] at this
  | last h => exact .last _ hb
  | time h hl =>
    have := Updated.time (endText := e) (newEnd := newEnd) (now := now) _ (begins_take h (i := 42) (by decide) now) (by simp; omega)
    rwa [List.take_left' (by simp; omega)] at this
  | same h1 h2 h3 => exact .same _ h1 h2 h3

/-! ## The old file -/

section
variable {jd0 last : ℚ} {newEnd now : List Nat}

theorem edit_same {l : List Nat} (h1 : ¬Begins "# Ephem range:" l) (h2 : ¬Begins "# Ephemeris end:" l) (h3 : ¬Begins "# Last updated with" l) :
    edit last newEnd now l = .ok l := by
  unfold edit editRange
  rw [starts_not h1, if_neg (by simp)]
  simp only [Outcome.bind]
  unfold editEnd
  rw [starts_not h2, if_neg (by simp)]
  unfold editTime
  rw [starts_not h3, if_neg (by simp)]

theorem copy_step {l l' : List Nat} (he : edit last newEnd now l = .ok l') (hl : isLast jd0 l' = false) (ls : List (List Nat)) :
    copy jd0 last newEnd now (l :: ls) = (copy jd0 last newEnd now ls).bind fun r => .ok (l' :: r.1, r.2) := by
  rw [copy, he]
  simp only [Outcome.bind, hl]
  rfl

theorem copy_header {hs hs' : List (List Nat)} (h : List.Forall₂ (Updated (Time.fmtFixed 6 last ++ bytes " 1.000000\n") newEnd now) hs hs')
    (hH : Header hs) (hb : Begins "# Ephemeris end:" newEnd) (ht : (Time.fmtFixed 6 last ++ bytes " 1.000000\n").length < 172) (ls : List (List Nat)) :
    copy jd0 last newEnd now (hs ++ ls) = (copy jd0 last newEnd now ls).bind fun r => .ok (hs' ++ r.1, r.2) := by
  induction h with
  | nil => rw [List.nil_append]; cases copy jd0 last newEnd now ls <;> rfl
  | @cons l l' hs hs' hl hr ih =>
    have hm := updated_mjd hl hb (hH l (by simp))
    rw [List.cons_append, copy_step (updated_edit hl hb ht) (by unfold isLast; rw [starts_not hm]; rfl), ih (fun k hk => hH k (by simp [hk]))]
    cases copy jd0 last newEnd now ls <;> rfl

theorem stops_of {r : List Nat} (h : r = [] ∨ r.head? = some 32 ∨ r.head? = some 10) : Scan.Stops r := by
  have e : at? r 0 = 0 ∨ at? r 0 = 32 ∨ at? r 0 = 10 := by
    cases r with
    | nil => exact Or.inl rfl
    | cons c r =>
      rcases h with h | h | h
      · simp at h
      · right; left; simpa [at?] using h
      · right; right; simpa [at?] using h
  unfold Scan.Stops
  rcases e with e | e | e <;> rw [e] <;> decide

theorem block_head {k : Block} (hk : k.Valid) : edit last newEnd now k.head = .ok k.head ∧ isLast jd0 k.head = decide (k.day = jd0 - 1) := by
  obtain ⟨⟨t, r, ⟨ds, fs, hd, hne, hf, rfl, hv⟩, hh, hr⟩, -⟩ := hk
  have hb : Begins "# MJD " k.head := ⟨_, by rw [hh, List.append_assoc]⟩
  refine ⟨edit_same (begins_differ 2 (by decide) (by decide) (by decide) hb) (begins_differ 2 (by decide) (by decide) (by decide) hb)
    (begins_differ 2 (by decide) (by decide) (by decide) hb), ?_⟩
  unfold isLast
  rw [(starts_iff _ _).2 hb, hh, List.append_assoc, List.drop_left' (show (bytes "# MJD ").length = 6 from rfl)]
  unfold MpcLine.atof
  rw [Scan.strtold_decimal (K := ℚ) hd hne hf (stops_of hr), hv]
  rfl

theorem block_other {k : Block} (hk : k.Valid) {l : List Nat} (hl : l ∈ [k.a, k.b, k.c]) : edit last newEnd now l = .ok l ∧ isLast jd0 l = false := by
  have h := hk.2 l hl
  refine ⟨edit_same (no_comment h (by decide)) (no_comment h (by decide)) (no_comment h (by decide)), ?_⟩
  unfold isLast
  rw [starts_not (no_comment h (by decide))]
  rfl

theorem copy_block {k : Block} (hk : k.Valid) (hd : k.day ≠ jd0 - 1) (ls : List (List Nat)) :
    copy jd0 last newEnd now (k.lines ++ ls) = (copy jd0 last newEnd now ls).bind fun r => .ok (k.lines ++ r.1, r.2) := by
  obtain ⟨h1, h2⟩ := block_head (jd0 := jd0) (last := last) (newEnd := newEnd) (now := now) hk
  obtain ⟨a1, a2⟩ := block_other (jd0 := jd0) (last := last) (newEnd := newEnd) (now := now) hk (l := k.a) (by simp)
  obtain ⟨b1, b2⟩ := block_other (jd0 := jd0) (last := last) (newEnd := newEnd) (now := now) hk (l := k.b) (by simp)
  obtain ⟨c1, c2⟩ := block_other (jd0 := jd0) (last := last) (newEnd := newEnd) (now := now) hk (l := k.c) (by simp)
  unfold Block.lines
  simp only [List.cons_append, List.nil_append]
  rw [copy_step h1 (by rw [h2, decide_eq_false hd]), copy_step a1 a2, copy_step b1 b2, copy_step c1 c2]
  cases copy jd0 last newEnd now ls <;> rfl

theorem copy_blocks {ks : List Block} (hk : ∀ k ∈ ks, k.Valid ∧ k.day ≠ jd0 - 1) (ls : List (List Nat)) :
    copy jd0 last newEnd now (Tle.lines ks ++ ls) = (copy jd0 last newEnd now ls).bind fun r => .ok (Tle.lines ks ++ r.1, r.2) := by
  induction ks with
  | nil => show copy jd0 last newEnd now ls = _; cases copy jd0 last newEnd now ls <;> rfl
  | cons k ks ih =>
    have e : Tle.lines (k :: ks) = k.lines ++ Tle.lines ks := by simp [Tle.lines]
    rw [e, List.append_assoc, copy_block (hk k (by simp)).1 (hk k (by simp)).2, ih (fun j hj => hk j (by simp [hj]))]
    cases copy jd0 last newEnd now ls <;> simp [Outcome.bind]

theorem copy_last {k : Block} (hk : k.Valid) (hd : k.day = jd0 - 1) (ls : List (List Nat)) :
    copy jd0 last newEnd now (k.lines ++ ls) = .ok ([k.head], [k.a, k.b, k.c] ++ ls) := by
  obtain ⟨h1, h2⟩ := block_head (jd0 := jd0) (last := last) (newEnd := newEnd) (now := now) hk
  unfold Block.lines
  simp only [List.cons_append, List.nil_append]
  rw [copy, h1]
  simp only [Outcome.bind, h2, hd]
  rfl

end

/-! ## The new file -/

theorem range_found {pre : List (List Nat)} (hp : ∀ l ∈ pre, ¬Begins "# Ephem range:" l) {r : List Nat} (hr : Begins "# Ephem range:" r)
    (ls : List (List Nat)) : range (pre ++ r :: ls) = some (r, ls) := by
  induction pre with
  | nil => rw [List.nil_append, range, if_pos ((starts_iff _ _).2 hr)]
  | cons l pre ih =>
    rw [List.cons_append, range, starts_not (hp l (by simp)), if_neg (by simp)]
    exact ih (fun k hk => hp k (by simp [hk]))

theorem scan_blank (l : List Nat) : Scan.scanReal (K := ℚ) (32 :: l) = Scan.scanReal l := by
  unfold Scan.scanReal
  rw [show Scan.skipSpace (32 :: l) = Scan.skipSpace l from Scan.skipSpace_blanks 1 l]

theorem range_numbers {l : List Nat} {a b : ℚ} (h : RangeText l a b) : twoNumbers l = some (a, b) ∧ Begins "# Ephem range:" l := by
  obtain ⟨s, t, r, ⟨ds, fs, hd, hne, hf, rfl, rfl⟩, ⟨es, gs, he, hene, hg, rfl, rfl⟩, rfl⟩ := h
  constructor
  · have e : (bytes "# Ephem range: " ++ (ds ++ 46 :: fs) ++ 32 :: (es ++ 46 :: gs) ++ 32 :: r).drop 15 =
        ds ++ 46 :: fs ++ 32 :: (es ++ 46 :: gs ++ 32 :: r) := by
      rw [List.append_assoc, List.append_assoc, List.drop_left' (show (bytes "# Ephem range: ").length = 15 from rfl)]
      simp
    unfold twoNumbers
    rw [e, Scan.scanReal_decimal (K := ℚ) hd hne hf (stops_of (Or.inr (Or.inl rfl)))]
    simp only
    rw [scan_blank, Scan.scanReal_decimal (K := ℚ) he hene hg (stops_of (Or.inr (Or.inl rfl)))]
  · exact ⟨32 :: ((ds ++ 46 :: fs) ++ 32 :: (es ++ 46 :: gs) ++ 32 :: r), by
      rw [show bytes "# Ephem range: " = bytes "# Ephem range:" ++ [32] from rfl]; simp⟩

/-- A new file: lines before the range, the range, two lines, the last date in words, the rest. -/
structure NewFile where
  pre : List (List Nat)
  range : List Nat
  x : List Nat
  y : List Nat
  last : List Nat
  rest : List (List Nat)

def NewFile.lines (n : NewFile) : List (List Nat) := n.pre ++ n.range :: n.x :: n.y :: n.last :: n.rest

def NewFile.Valid (n : NewFile) (a b : ℚ) : Prop :=
  (∀ l ∈ n.pre, ¬Begins "# Ephem range:" l) ∧ RangeText n.range a b ∧ Begins "# Ephemeris end:" n.last ∧
    (Time.fmtFixed 6 b ++ bytes " 1.000000\n").length < 172

theorem merge_is {n : NewFile} {a b : ℚ} (hn : n.Valid a b) (now : List Nat) (old : List (List Nat)) :
    merge now old n.lines = (copy a b n.last now old).bind fun o => .ok (o.1 ++ o.2.take 3 ++ n.rest) := by
  obtain ⟨h1, h2⟩ := range_numbers hn.2.1
  unfold merge NewFile.lines
  rw [range_found hn.1 h2]
  simp only [h1]
  rfl

/-! ## The property -/

/-- C111: the old file's header is brought up to date, its TLEs are kept up to that of the day before the new file begins, and
    what the new file has after its last date follows. -/
theorem C111_merge {hs hs' : List (List Nat)} {ks : List Block} {k : Block} {after : List (List Nat)} {n : NewFile} {a b : ℚ} {now : List Nat}
    (hn : n.Valid a b) (hH : Header hs)
    (hU : List.Forall₂ (Updated (Time.fmtFixed 6 b ++ bytes " 1.000000\n") n.last now) hs hs') (hks : ∀ j ∈ ks, j.Valid ∧ j.day ≠ a - 1)
    (hk : k.Valid) (hd : k.day = a - 1) :
    merge now (hs ++ (Tle.lines ks ++ (k.lines ++ after))) n.lines = .ok (hs' ++ (Tle.lines ks ++ (k.lines ++ n.rest))) := by
  rw [merge_is hn, copy_header hU hH hn.2.2.1 hn.2.2.2, copy_blocks hks, copy_last hk hd]
  simp only [Outcome.bind]
  unfold Block.lines
  simp

theorem lines_append (ks js : List Block) : Tle.lines (ks ++ js) = Tle.lines ks ++ Tle.lines js := by
  unfold Tle.lines
  rw [List.flatMap_append]

theorem lines_cons (k : Block) (ks : List Block) : Tle.lines (k :: ks) = k.lines ++ Tle.lines ks := rfl

/-- C111: if the old file has one TLE a day, and the new one has from day `s + i + 1` on, the result has one TLE a day from
    the beginning of the old to the end of the new. -/
theorem C111_days {hs hs' g : List (List Nat)} {ks js : List Block} {n : NewFile} {s b : ℚ} {i : Nat} {now : List Nat}
    (hn : n.Valid (s + i + 1) b) (hH : Header hs)
    (hU : List.Forall₂ (Updated (Time.fmtFixed 6 b ++ bytes " 1.000000\n") n.last now) hs hs') (hks : ∀ j ∈ ks, j.Valid)
    (hD : Daily s ks) (hi : i < ks.length) (hr : n.rest = g ++ Tle.lines js) (hJ : Daily (s + i + 1) js) :
    merge now (hs ++ Tle.lines ks) n.lines = .ok (hs' ++ (Tle.lines (ks.take (i + 1)) ++ (g ++ Tle.lines js))) ∧
      Daily s (ks.take (i + 1) ++ js) := by
  constructor
  · have e : ks = ks.take i ++ ks[i] :: ks.drop (i + 1) := by rw [← List.drop_eq_getElem_cons hi, List.take_append_drop]
    have hl : Tle.lines ks = Tle.lines (ks.take i) ++ (ks[i].lines ++ Tle.lines (ks.drop (i + 1))) := by
      have h := congrArg Tle.lines e
      rw [lines_append, lines_cons] at h
      exact h
    have hday : ks[i].day = s + i := hD i _ (List.getElem?_eq_getElem hi)
    rw [hl, C111_merge hn hH hU (ks := ks.take i) (k := ks[i]) ?_ (hks _ (List.getElem_mem hi)) (by rw [hday]; ring)]
    · rw [List.take_succ_eq_append_getElem hi, lines_append, hr]
      simp [Tle.lines]
    · intro j hj
      refine ⟨hks j (List.mem_of_mem_take hj), ?_⟩
      obtain ⟨m, hm⟩ := List.getElem?_of_mem hj
      rw [List.getElem?_take] at hm
      split_ifs at hm with hmi
      rw [hD m j hm]
      intro hc
      have : (m : ℚ) = i := by linarith
      have : m = i := by exact_mod_cast this
      omega
  · intro m k hm
    by_cases h : m < i + 1
    · rw [List.getElem?_append_left (by simp; omega), List.getElem?_take, if_pos h] at hm
      exact hD m k hm
    · have hlen : (ks.take (i + 1)).length = i + 1 := by simp; omega
      rw [List.getElem?_append_right (by omega), hlen] at hm
      rw [hJ _ _ hm, Nat.cast_sub (by omega)]
      push_cast
      ring

/-- C111: without a TLE for the day before the new file begins (a gap, or a new file that begins before the old one), the
    assertion fails, and the old file is not replaced. -/
theorem C111_gap {hs hs' : List (List Nat)} {ks : List Block} {n : NewFile} {a b : ℚ} {now : List Nat} (hn : n.Valid a b) (hH : Header hs)
    (hU : List.Forall₂ (Updated (Time.fmtFixed 6 b ++ bytes " 1.000000\n") n.last now) hs hs') (hks : ∀ j ∈ ks, j.Valid ∧ j.day ≠ a - 1) :
    merge now (hs ++ Tle.lines ks) n.lines = .abort := by
  have h := copy_blocks (last := b) (newEnd := n.last) (now := now) hks []
  rw [List.append_nil] at h
  rw [merge_is hn, copy_header hU hH hn.2.2.1 hn.2.2.2, h]
  rfl

theorem header_updated {e newEnd now : List Nat} {hs hs' : List (List Nat)} (h : List.Forall₂ (Updated e newEnd now) hs hs') (hH : Header hs)
    (hb : Begins "# Ephemeris end:" newEnd) : Header hs' ∧ List.Forall₂ (Updated e newEnd now) hs' hs' := by
  induction h with
  | nil => exact ⟨by intro l hl; simp at hl, .nil⟩
  | @cons l l' hs hs' hl hr ih =>
    obtain ⟨i1, i2⟩ := ih (fun k hk => hH k (by simp [hk]))
    refine ⟨?_, .cons (updated_twice hl hb) i2⟩
    intro k hk
    rcases List.mem_cons.1 hk with rfl | hk
    · exact updated_mjd hl hb (hH l (by simp))
    · exact i1 k hk

/-- C111: joining the same new file again, at the same time, changes nothing. -/
theorem C111_again {hs hs' : List (List Nat)} {ks : List Block} {k : Block} {after : List (List Nat)} {n : NewFile} {a b : ℚ} {now : List Nat}
    (hn : n.Valid a b) (hH : Header hs)
    (hU : List.Forall₂ (Updated (Time.fmtFixed 6 b ++ bytes " 1.000000\n") n.last now) hs hs') (hks : ∀ j ∈ ks, j.Valid ∧ j.day ≠ a - 1)
    (hk : k.Valid) (hd : k.day = a - 1) :
    ((merge now (hs ++ (Tle.lines ks ++ (k.lines ++ after))) n.lines).bind fun old => merge now old n.lines) =
      merge now (hs ++ (Tle.lines ks ++ (k.lines ++ after))) n.lines := by
  obtain ⟨h1, h2⟩ := header_updated hU hH hn.2.2.1
  rw [C111_merge hn hH hU hks hk hd]
  simp only [Outcome.bind]
  exact C111_merge hn h1 h2 hks hk hd

/-- Finding: a range too short for its second number (27 bytes or fewer) is left as it is. -/
theorem C111_short_range {l : List Nat} (h : Begins "# Ephem range:" l) (hl : l.length < 28) {b : ℚ} (newEnd now : List Nat)
    (ht : (Time.fmtFixed 6 b ++ bytes " 1.000000\n").length < 172) : edit b newEnd now l = .ok l := by
  unfold edit editRange
  rw [if_pos ((starts_iff _ _).2 h)]
  simp only
  rw [if_neg (by omega)]
  simp only [Outcome.bind]
  unfold over
  rw [if_pos hl]
  unfold editEnd
  rw [starts_not (begins_differ 7 (by decide) (by decide) (by decide) h), if_neg (by simp)]
  unfold editTime
  rw [starts_not (begins_differ 2 (by decide) (by decide) (by decide) h), if_neg (by simp)]

/-! ## Examples -/

def tle (d : ℚ) (s : String) : Block := ⟨d, bytes "# MJD " ++ bytes s ++ bytes ".000000\n", bytes "THEMIS-A\n", bytes "1 30580U\n", bytes "2 30580 \n"⟩

theorem tle_valid {d : ℚ} {s : String} (hs : (bytes s).all (fun c => decide (48 ≤ c ∧ c ≤ 57)) = true) (hne : bytes s ≠ [])
    (hd : d = (value (bytes s) : ℚ)) : (tle d s).Valid := by
  have all : ∀ t : List Nat, t.all (fun c => decide (48 ≤ c ∧ c ≤ 57)) = true → AllDigits t := by
    intro t h c hc
    simpa using List.all_eq_true.1 h c hc
  refine ⟨⟨bytes s ++ 46 :: bytes "000000", bytes "\n", ⟨bytes s, bytes "000000", all _ hs, hne, all _ (by decide), rfl, ?_⟩, ?_, by decide⟩, ?_⟩
  · rw [show value (bytes "000000") = 0 from by decide]
    simpa [tle] using hd
  · show bytes "# MJD " ++ bytes s ++ bytes ".000000\n" = _
    rw [show bytes ".000000\n" = 46 :: bytes "000000" ++ bytes "\n" from rfl]
    simp
  · show ∀ l ∈ [bytes "THEMIS-A\n", bytes "1 30580U\n", bytes "2 30580 \n"], l.head? ≠ some 35
    decide

def oldHeader : List (List Nat) :=
  [bytes "# Ephem range: 58849.000000 58852.000000 1.000000\n", bytes "# Ephemeris end: 2020 Jan 4\n", bytes "# Ref\n"]

def aNew : NewFile :=
  { pre := [bytes "# Made by eph2tle\n"], range := bytes "# Ephem range: 58851.000000 58853.000000 1.000000\n", x := bytes "# x\n", y := bytes "# y\n",
    last := bytes "# Ephemeris end: 2020 Jan 5\n", rest := Tle.lines [tle 58851 "58851", tle 58852 "58852"] }

theorem a_new : aNew.Valid (58849 + (1 : Nat) + 1) 58853 := by
  have all : ∀ t : List Nat, t.all (fun c => decide (48 ≤ c ∧ c ≤ 57)) = true → AllDigits t := by
    intro t h c hc
    simpa using List.all_eq_true.1 h c hc
  refine ⟨?_, ⟨bytes "58851.000000", bytes "58853.000000", bytes "1.000000\n", ⟨bytes "58851", bytes "000000", all _ (by decide), by decide, all _ (by decide), rfl, by decide +kernel⟩,
    ⟨bytes "58853", bytes "000000", all _ (by decide), by decide, all _ (by decide), rfl, by decide +kernel⟩, by decide⟩, ⟨bytes " 2020 Jan 5\n", rfl⟩, by decide +kernel⟩
  intro l hl
  rw [show aNew.pre = [bytes "# Made by eph2tle\n"] from rfl, List.mem_singleton] at hl
  subst hl
  rw [← starts_iff]
  decide

/-- Three days and two from the third on: `C111_days` gives four TLEs, and a header with the new end. -/
example (now : List Nat) :
    merge now (oldHeader ++ Tle.lines [tle 58849 "58849", tle 58850 "58850", tle 58851 "58851"]) aNew.lines =
      .ok ([bytes "# Ephem range: 58849.000000 58853.000000 1.000000\n", bytes "# Ephemeris end: 2020 Jan 5\n", bytes "# Ref\n"] ++
        (Tle.lines [tle 58849 "58849", tle 58850 "58850"] ++ ([] ++ Tle.lines [tle 58851 "58851", tle 58852 "58852"]))) := by
  refine (C111_days (s := 58849) (i := 1) (b := 58853) (ks := [tle 58849 "58849", tle 58850 "58850", tle 58851 "58851"]) a_new ?_ ?_ ?_ ?_ (by decide) rfl ?_).1
  · intro l hl
    rw [← starts_iff]
    revert l
    decide
  · refine .cons ?_ (.cons (.last _ ⟨bytes " 2020 Jan 4\n", rfl⟩) (.cons ?_ .nil))
    · have h := Updated.range (endText := Time.fmtFixed 6 (58853 : ℚ) ++ bytes " 1.000000\n") (newEnd := aNew.last) (now := now)
        (bytes "# Ephem range: 58849.000000 58852.000000 1.000000\n") ⟨bytes " 58849.000000 58852.000000 1.000000\n", rfl⟩ (by decide)
      rw [show (bytes "# Ephem range: 58849.000000 58852.000000 1.000000\n").take 28 ++ (Time.fmtFixed 6 (58853 : ℚ) ++ bytes " 1.000000\n") =
        bytes "# Ephem range: 58849.000000 58853.000000 1.000000\n" by decide +kernel] at h
      exact h
    · refine .same _ ?_ ?_ ?_ <;> (rw [← starts_iff]; decide)
  · intro j hj
    simp only [List.mem_cons, List.not_mem_nil, or_false] at hj
    rcases hj with rfl | rfl | rfl <;> exact tle_valid (by decide) (by decide) (by decide +kernel)
  · intro i k h
    rcases i with _ | _ | _ | i <;> simp at h <;> subst h <;> norm_num [tle]
  · intro i k h
    rcases i with _ | _ | i <;> simp at h <;> subst h <;> norm_num [tle]

end Verif.Props
