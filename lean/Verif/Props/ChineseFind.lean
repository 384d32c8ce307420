import Verif.Props.ChineseYear

/-!
# C108: the table of Chinese years

Logs for which the table isn't right, and one for which it is.
-/

namespace Verif.Props

open Verif Verif.Date Verif.Spec Verif.Spec.Lunisolar Verif.ChinesePack

/-! ## Logs as text -/

/-- A day in seven columns. -/
def dayText (d : Nat) : List Nat := List.replicate (7 - (dec d).length) 32 ++ dec d

/-- The line of an event. -/
def eventLine : Event → List Nat
  | .term => List.replicate 8 48 ++ [122]
  | .moon d => dayText d.toNat ++ [32, 32]

/-- The line of a solstice. -/
def solsticeLine (year : Int) : List Nat := List.replicate 8 48 ++ [122] ++ List.replicate 24 32 ++ [49, 49] ++ decInt year

/-- The lines of a sui. -/
def suiLines (s : Sui) : List (List Nat) := solsticeLine s.year :: s.events.map eventLine

/-- New moons with a term between any two. -/
def evenly : List Int → List Event
  | [] => []
  | [d] => [.moon d]
  | d :: ds => .moon d :: .term :: evenly ds

/-- Days from lengths. -/
def daysFrom (d : Int) : List Int → List Int
  | [] => []
  | x :: xs => d :: daysFrom (d + x) xs

theorem value_dec (n : Nat) : value (dec n) = n := by
  rw [← readDigits_eq _ (dec_digits n), readDigits_dec]

theorem event_line {e : Event} (h : ∀ d, e = .moon d → 0 ≤ d ∧ (dec d.toNat).length ≤ 7) : Line (EventText · e) (eventLine e) := by
  cases e with
  | term => exact Or.inl ⟨by decide, by decide, by unfold Mark; decide⟩
  | moon d =>
    obtain ⟨h1, h2⟩ := h d rfl
    have hl : (dayText d.toNat).length = 7 := by unfold dayText; simp; omega
    have hlen : (eventLine (.moon d)).length = 9 := by unfold eventLine; simp [hl]
    refine Or.inl ⟨by rw [List.getElem?_eq_none (by omega)]; decide, ?_, ?_, ?_⟩
    · unfold eventLine
      rw [List.getElem?_append_right (by omega), hl]
      rfl
    · unfold Mark
      rw [List.getElem?_eq_none (by omega)]
      simp
    · refine ⟨7 - (dec d.toNat).length, false, dec d.toNat, [32, 32], by simp [eventLine, dayText], ?_, dec_digits _, ?_, ?_⟩
      · intro e0
        have := value_dec d.toNat
        rw [e0] at this
        have hz : d.toNat = 0 := by simpa [value] using this.symm
        rw [hz] at e0
        exact absurd e0 (by decide)
      · intro c hc
        simp at hc
        omega
      · rw [value_dec]; simp; omega

theorem solstice_line (year : Int) : Line (SolsticeText · year) (solsticeLine year) := by
  refine Or.inl ⟨by simp [solsticeLine], by simp [solsticeLine], ⟨by simp [solsticeLine], by simp [solsticeLine]⟩, ?_⟩
  have hd : (solsticeLine year).drop 35 = decInt year := by simp [solsticeLine]
  have hne : ∀ n, dec n ≠ [] := by
    intro n e0
    have := value_dec n
    rw [e0] at this
    have hz : n = 0 := by simpa [value] using this.symm
    rw [hz] at e0
    exact absurd e0 (by decide)
  rw [hd]
  unfold decInt
  split_ifs with h
  · exact ⟨0, true, dec year.natAbs, [], by simp, hne _, dec_digits _, by simp, by rw [value_dec, if_pos rfl]; omega⟩
  · exact ⟨0, false, dec year.toNat, [], by simp, hne _, dec_digits _, by simp, by rw [value_dec]; simp; omega⟩

theorem sui_lines {s : Sui} (h : ∀ e ∈ s.events, ∀ d, e = Event.moon d → 0 ≤ d ∧ (dec d.toNat).length ≤ 7) : SuiLines s (suiLines s) := by
  refine ⟨_, _, rfl, solstice_line s.year, ?_⟩
  obtain ⟨year, es⟩ := s
  dsimp only at h ⊢
  induction es with
  | nil => exact .nil
  | cons e es ih => exact .cons (event_line (h e (by simp))) (ih (fun x hx => h x (by simp [hx])))

/-- Twelve lengths, from which those of a year are made. -/
def lens12 : List Int := [30, 29, 30, 29, 30, 29, 30, 29, 30, 29, 30, 29]

/-- A sui of twelve months, the one after it with thirteen, and a third. -/
def suiA : Sui := ⟨4636, evenly (daysFrom 2451520 lens12)⟩
def suiB : Sui := ⟨4637, evenly (daysFrom 2451874 [29, 30, 30, 29]) ++ evenly (daysFrom 2451992 [29, 30, 29, 30, 29, 30, 29, 30, 29])⟩
def suiC : Sui := ⟨4638, evenly (daysFrom 2452257 lens12)⟩

/-- A log, for the theorem: the leap month of year 4638 is the third. -/
theorem log_example : IsLog suiA [suiB, suiC] (suiLines suiA ++ (suiLines suiB ++ (suiLines suiC ++ suiLines ⟨4639, []⟩))) where
  lines := by
    have hA : ∀ e ∈ suiA.events, ∀ d, e = Event.moon d → 0 ≤ d ∧ (dec d.toNat).length ≤ 7 := by
      rintro e he d rfl
      revert he
      have : ∀ e ∈ suiA.events, (match e with | .term => true | .moon d => decide (0 ≤ d ∧ (dec d.toNat).length ≤ 7)) = true := by decide +kernel
      intro he
      simpa using this _ he
    have hB : ∀ e ∈ suiB.events, ∀ d, e = Event.moon d → 0 ≤ d ∧ (dec d.toNat).length ≤ 7 := by
      rintro e he d rfl
      have : ∀ e ∈ suiB.events, (match e with | .term => true | .moon d => decide (0 ≤ d ∧ (dec d.toNat).length ≤ 7)) = true := by decide +kernel
      simpa using this _ he
    have hC : ∀ e ∈ suiC.events, ∀ d, e = Event.moon d → 0 ≤ d ∧ (dec d.toNat).length ≤ 7 := by
      rintro e he d rfl
      have : ∀ e ∈ suiC.events, (match e with | .term => true | .moon d => decide (0 ≤ d ∧ (dec d.toNat).length ≤ 7)) = true := by decide +kernel
      simpa using this _ he
    refine ⟨[suiLines suiA, suiLines suiB, suiLines suiC], ⟨4639, []⟩, suiLines ⟨4639, []⟩, .cons (sui_lines hA) (.cons (sui_lines hB) (.cons (sui_lines hC) .nil)),
      sui_lines (by simp), by decide, by simp⟩
  valid := by
    intro s hs
    rcases List.mem_cons.1 hs with rfl | hs
    · exact ⟨by decide +kernel, by decide +kernel⟩
    · rcases List.mem_cons.1 hs with rfl | hs
      · exact ⟨by decide +kernel, by decide +kernel⟩
      · rw [List.mem_singleton.1 hs]
        exact ⟨by decide +kernel, by decide +kernel⟩
  years := by
    intro i s h
    match i, h with
    | 0, h => cases h; rfl
    | 1, h => cases h; rfl
    | 2, h => cases h; rfl
    | i + 3, h => simp at h

example : (make 2 (suiLines suiA ++ (suiLines suiB ++ (suiLines suiC ++ suiLines ⟨4639, []⟩)))).bind (fun file => ChinesePack.read file 4638)
    = some (⟨2451904, [30, 30, 29, 29, 30, 29, 30, 29, 30, 29, 30, 29, 30]⟩, 3) := by decide +kernel

/-! ## Findings -/

/-- A sui with a leap month after month 12. -/
def suiL : Sui := ⟨4637, [.moon 2451874, .term, .moon 2451903] ++ evenly (daysFrom 2451933 [30, 30, 29, 30, 29, 30, 29, 30, 29, 30, 29])⟩

/-- A leap month 12 is taken for the beginning of the next year: its length goes to the year's first month, and the thirteenth is always 29 days.
    The month of 29 days that begins the year of this log becomes one of 30, and the last with its 30 days becomes one of 29. -/
theorem C108_leap_twelve : ∃ (first : Sui) (suis : List Sui) (last : Sui) (file : List Nat), first.Valid ∧ (∀ s ∈ suis, s.Valid) ∧ make 3 ((suiLines first ++ suis.flatMap suiLines) ++ suiLines last) = some file ∧
    (((first :: suis).flatMap Sui.months).filter (fun m => m.year = 4637)).map (fun m => (m.number, m.leap, m.day)) =
      [(1, false, 2451550), (2, false, 2451579), (3, false, 2451609), (4, false, 2451638), (5, false, 2451668), (6, false, 2451697), (7, false, 2451727),
       (8, false, 2451756), (9, false, 2451786), (10, false, 2451815), (11, false, 2451845), (12, false, 2451874), (12, true, 2451903)] ∧
    (((first :: suis).flatMap Sui.months).find? (fun m => m.year = 4638)).map Month.day = some 2451933 ∧
    ChinesePack.read file 4637 = some (⟨2451551, [30, 30, 29, 30, 29, 30, 29, 30, 29, 30, 29, 29, 29]⟩, 13) := by
  refine ⟨suiA, [suiL], ⟨4638, []⟩, (make 3 ((suiLines suiA ++ [suiL].flatMap suiLines) ++ suiLines ⟨4638, []⟩)).getD [], ⟨by decide +kernel, by decide +kernel⟩, ?_,
    by decide +kernel, by decide +kernel, by decide +kernel, by decide +kernel⟩
  intro s hs
  rw [List.mem_singleton.1 hs]
  exact ⟨by decide +kernel, by decide +kernel⟩

/-- A year that begins 147 days or more after where the table counts from doesn't fit three bytes: the reader begins it 146 days or more too early. -/
theorem C108_offset {s : Static} (hn : 0 ≤ s.n ∧ s.n < 32768) (h0 : -32768 ≤ s.year0 ∧ s.year0 < 32768) {y : Int} (hy : HasYear s y)
    (hm : (entry s y).mask < 8192) (hi : (entry s y).inter ≤ 12) (ho : 147 ≤ (entry s y).offset ∧ (entry s y).offset < 256) :
    ∃ d p, ChinesePack.read (write s) y = some (d, p) ∧ d.start + 146 ≤ y * 365 + y.tdiv 4 + 757862 + (entry s y).offset := by
  have e0 : s16 ((ChinesePack.byte (write s) 3 * 256 + ChinesePack.byte (write s) 2 : Nat) : Int) = s.year0 := s16_put _ h0
  have e1 : s16 ((ChinesePack.byte (write s) 1 * 256 + ChinesePack.byte (write s) 0 : Nat) : Int) = s.n := s16_put _ ⟨by omega, hn.2⟩
  unfold HasYear at hy
  have hi' : (((y - s.year0).toNat : Nat) : Int) = y - s.year0 := by omega
  have hlt : (y - s.year0).toNat < s.n.toNat := by omega
  have b0 := write_byte s (y - s.year0).toNat 0 (by decide) hlt
  have b1 := write_byte s (y - s.year0).toNat 1 (by decide) hlt
  have b2 := write_byte s (y - s.year0).toNat 2 (by decide) hlt
  rw [hi'] at b0 b1 b2
  change _ = (put24 (packed (entry s y))).getD 0 0 at b0
  change _ = (put24 (packed (entry s y))).getD 1 0 at b1
  change _ = (put24 (packed (entry s y))).getD 2 0 at b2
  rw [Nat.add_zero] at b0
  unfold ChinesePack.read
  rw [e0, e1]
  dsimp only
  rw [if_neg (by omega), b0, b1, b2]
  refine ⟨_, _, rfl, ?_⟩
  unfold chineseUnpack packed CHINESE_CALENDAR_EPOCH
  dsimp only
  generalize (entry s y) = e at *
  rw [Nat.shiftRight_eq_div_pow]
  simp only [put24, List.getD_cons_zero, List.getD_cons_succ]
  omega

example : ∃ (s : Static) (y : Int), (0 ≤ s.n ∧ s.n < 32768) ∧ (-32768 ≤ s.year0 ∧ s.year0 < 32768) ∧ HasYear s y ∧ (entry s y).mask < 8192 ∧ (entry s y).inter ≤ 12 ∧
    147 ≤ (entry s y).offset ∧ (entry s y).offset < 256 :=
  ⟨⟨1, 5, 1, 0, fun _ => ⟨0, 0, 186⟩⟩, 5, by decide, by decide, ⟨by decide, by decide⟩, by decide, by decide, by decide, by decide⟩

/-- A log from year -1 on: year 0 is where the table is to begin, which the program takes for not known; the table begins with year 1, which has
    months of year 0 in its entry. -/
theorem C108_year_zero : ∃ (suis : List Sui) (last : Sui) (file : List Nat), (∀ s ∈ suis, s.Valid) ∧ suis.map Sui.year = [-1, 0, 1] ∧ make 3 (suis.flatMap suiLines ++ suiLines last) = some file ∧
    ChinesePack.read file 0 = none ∧
    ((suis.flatMap Sui.months).filter (fun m => m.year = 1)).map (fun m => m.day) =
      [758246, 758275, 758304, 758333, 758362, 758391, 758420, 758449, 758478, 758507, 758536, 758565] ∧
    ((suis.flatMap Sui.months).find? (fun m => m.year = 2)).map Month.day = some 758594 ∧
    ChinesePack.read file 1 = some (⟨758247, [29, 30, 29, 30, 29, 30, 29, 30, 29, 30, 29, 29, 0]⟩, 0) := by
  refine ⟨[⟨-1, evenly (daysFrom 757862 lens12)⟩, ⟨0, evenly (daysFrom 758216 [30, 29, 29, 29, 29, 29, 29, 29, 29, 29, 29, 29])⟩,
    ⟨1, evenly (daysFrom 758565 [29, 29, 29, 29, 29, 29, 29, 29, 29, 29, 29, 29])⟩], ⟨2, []⟩, 
    (make 3 ([⟨-1, evenly (daysFrom 757862 lens12)⟩, ⟨0, evenly (daysFrom 758216 [30, 29, 29, 29, 29, 29, 29, 29, 29, 29, 29, 29])⟩,
    ⟨1, evenly (daysFrom 758565 [29, 29, 29, 29, 29, 29, 29, 29, 29, 29, 29, 29])⟩].flatMap suiLines ++ suiLines ⟨2, []⟩)).getD [], ?_, rfl,
    by decide +kernel, by decide +kernel, by decide +kernel, by decide +kernel, by decide +kernel⟩
  intro s hs
  simp only [List.mem_cons, List.not_mem_nil, or_false] at hs
  rcases hs with rfl | rfl | rfl
  · exact ⟨by decide +kernel, by decide +kernel⟩
  · exact ⟨by decide +kernel, by decide +kernel⟩
  · exact ⟨by decide +kernel, by decide +kernel⟩

end Verif.Props
