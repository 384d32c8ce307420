import Verif.Model.Eop
import Verif.Spec.Eop
import Verif.Lemmas.Scan
import Verif.Props.Spline
import Mathlib.Tactic.Linarith
import Mathlib.Tactic.SplitIfs

/-!
# C100: Earth orientation parameters
-/

namespace Verif.Props

open Verif Verif.Spec Verif.Eop

/-! ## Reading the lines -/

theorem strtold_signed {t r : List Nat} {x : ℚ} (h : Decimal t x) (hr : Scan.Stops r) : (Scan.strtold (K := ℚ) (t ++ r)).1 = x := by
  obtain ⟨k, neg, ds, fs, rfl, hd, hf, hne, rfl⟩ := h
  unfold Scan.strtold
  have e : List.replicate k 32 ++ ((if neg = true then [45] else []) ++ (ds ++ 46 :: fs)) ++ r
      = List.replicate k 32 ++ ((if neg = true then [45] else []) ++ (ds ++ 46 :: fs ++ r)) := by simp
  rw [e, Scan.skipSpace_blanks]
  have hs : Scan.sign (Scan.skipSpace ((if neg = true then [45] else []) ++ (ds ++ 46 :: fs ++ r))) = (neg, ds ++ 46 :: fs ++ r) := by
    cases neg with
    | true =>
      simp only [if_true]
      rw [Scan.skipSpace_of (by rfl)]
      rfl
    | false =>
      simp only [Bool.false_eq_true, if_false, List.nil_append]
      by_cases h0 : ds = []
      · subst h0
        rw [Scan.skipSpace_of (by rfl), Scan.sign_of (by simp [at?]) (by simp [at?])]
      · rw [List.append_assoc, Scan.start_digits hd h0]
  rw [hs]
  simp only [Scan.mantissa_decimal hd hf hne hr.1, Scan.exponent_none hr.2.2.1 hr.2.2.2, Scan.real_zero]
  have : (10 : ℚ) ^ fs.length ≠ 0 := pow_ne_zero _ (by norm_num)
  cases neg <;> simp <;> field_simp
  ring

theorem stops_at_blank (r : List Nat) : Scan.Stops (32 :: r) := by
  simp [Scan.Stops, at?, isDigit]

theorem field_drop {line t : List Nat} {c : Nat} (h : FieldAt line c t) : ∃ r, line.drop c = t ++ 32 :: r := by
  obtain ⟨pre, r, rfl, rfl⟩ := h
  exact ⟨r, by simp⟩

theorem number_field {line t : List Nat} {c : Nat} {x : ℚ} (h : FieldAt line c t) (hx : Decimal t x) : number (line.drop c) = (x : ℝ) := by
  obtain ⟨r, e⟩ := field_drop h
  unfold number MpcLine.atof
  rw [e, strtold_signed hx (stops_at_blank r)]

theorem atoi_field {ds r : List Nat} (hd : AllDigits ds) (hne : ds ≠ []) (hr : isDigit (at? r 0) = false) : atoi (ds ++ r) = value ds := by
  have h := Scan.head_digit hd hne
  cases ds with
  | nil => exact absurd rfl hne
  | cons c s =>
    have hsp : isSpace c = false := by simp [isSpace]; simp [at?] at h; omega
    simp [at?] at h
    rw [List.cons_append, atoi, hsp, if_neg (by simp), if_neg (by omega), if_neg (by omega), ← List.cons_append,
      (Scan.digits_span hd hr 0).2, readDigits_eq _ hd]

theorem byte_of {l : List Nat} {i c : Nat} (h : l[i]? = some c) : byte l i = c := by
  simp [byte, List.getD, h]

/-- The bytes of the date. -/
theorem date_bytes {line ds : List Nat} (h : FieldAt line 7 (ds ++ [46, 48, 48])) (hl : ds.length = 5) :
    byte line 12 = 46 ∧ byte line 13 = 48 ∧ byte line 14 = 48 := by
  obtain ⟨pre, r, rfl, hp⟩ := h
  have e : ∀ j, byte (pre ++ (ds ++ [46, 48, 48] ++ 32 :: r)) (12 + j) = ([46, 48, 48] ++ 32 :: r).getD j 0 := by
    intro j
    unfold byte
    rw [List.getD_eq_getElem?_getD, List.getElem?_append_right (by omega), List.append_assoc, List.getElem?_append_right (by omega),
      ← List.getD_eq_getElem?_getD]
    congr 1
    omega
  exact ⟨e 0, e 1, e 2⟩

theorem date_number {line ds : List Nat} (h : FieldAt line 7 (ds ++ [46, 48, 48])) (hd : AllDigits ds) :
    number (line.drop 7) = (value ds : ℝ) := by
  rw [number_field (x := value ds) h ⟨0, false, ds, [48, 48], by simp, hd, by intro c hc; simp at hc; omega, Or.inr (by simp), by simp [value]⟩]
  simp

theorem date_atoi {line ds : List Nat} (h : FieldAt line 7 (ds ++ [46, 48, 48])) (hd : AllDigits ds) (hl : ds.length = 5) (m : List Nat) :
    atoi (line.drop 7 ++ m) = value ds := by
  obtain ⟨r, e⟩ := field_drop h
  rw [e, List.append_assoc, List.append_assoc, atoi_field hd (by intro h; simp [h] at hl) (by rfl)]

/-- The date in the buffer. -/
theorem date_buffer {line ds : List Nat} (old : List Nat) (h : FieldAt line 7 (ds ++ [46, 48, 48])) (hd : AllDigits ds) (hl : ds.length = 5) :
    atoi ((putLine old line).drop 7) = value ds := by
  have : 7 ≤ line.length := by
    obtain ⟨pre, r, rfl, hp⟩ := h
    simp; omega
  unfold putLine
  rw [List.drop_append_of_le_length this, date_atoi h hd hl]

/-- A line of a day is taken. -/
theorem line_good {line : List Nat} {d : EopDay} (h : EopLine line d) : byte line 16 ≠ 32 ∧ isValid line = true := by
  obtain ⟨ds, hf, hd, hl, hv⟩ := h.date
  obtain ⟨h1, h2, h3⟩ := date_bytes hf hl
  constructor
  · rw [byte_of h.flag]; split_ifs <;> decide
  · unfold isValid
    rw [h1, h2, h3, byte_of h.point, byte_of h.blank, h.long]
    rfl

theorem arcsec_eq : arcsec = Real.pi / 648000 := by unfold arcsec; norm_num

theorem marcsec_eq : marcsec = Real.pi / 648000000 := by unfold marcsec; norm_num

/-- What a day's row should be: radians, and TD - UT1. -/
noncomputable def wantedRow (D : ℝ) (d : EopDay) : Row :=
  { dX := d.x * (Real.pi / 648000)
    dY := d.y * (Real.pi / 648000)
    dT := D
    dPsi := match d.nutation with
      | none => 0
      | some (p, _) => p * (Real.pi / 648000000)
    dEps := match d.nutation with
      | none => 0
      | some (_, e) => e * (Real.pi / 648000000) }

/-- What the rows should be. -/
noncomputable def wantedRows : (Nat → ℝ) → List EopDay → List Row
  | _, [] => []
  | D, d :: ds => wantedRow (D 0) d :: wantedRows (fun i => D (i + 1)) ds

theorem wantedRows_get : ∀ (days : List EopDay) (D : Nat → ℝ) (i : Nat), (wantedRows D days)[i]? = (days[i]?).map (wantedRow (D i))
  | [], _, _ => by simp [wantedRows]
  | _ :: _, _, 0 => by simp [wantedRows]
  | _ :: ds, D, i + 1 => by simp [wantedRows, wantedRows_get ds]

theorem wantedRows_length : ∀ (days : List EopDay) (D : Nat → ℝ), (wantedRows D days).length = days.length
  | [], _ => rfl
  | _ :: ds, D => by simp [wantedRows, wantedRows_length ds]

theorem row_of {line : List Nat} {d : EopDay} (h : EopLine line d) {init : ℝ} {prev : Option ℝ} {D : ℝ}
    (hD : deltaT init prev line = D) : row init prev line = wantedRow D d := by
  obtain ⟨tx, hx, hx'⟩ := h.x
  obtain ⟨ty, hy, hy'⟩ := h.y
  have hn := h.nut
  unfold row wantedRow
  rw [number_field hx hx', number_field hy hy', hD, arcsec_eq, marcsec_eq]
  cases hc : d.nutation with
  | none =>
    rw [hc] at hn
    simp only [byte_of hn, ne_eq, not_true, if_false]
  | some pe =>
    obtain ⟨p, e⟩ := pe
    rw [hc] at hn
    obtain ⟨⟨c, hb, hne⟩, ⟨tp, hp, hp'⟩, te, he, he'⟩ := hn
    simp only [byte_of hb, ne_eq, hne, not_false_iff, if_true, number_field hp hp', number_field he he']

/-- Leap seconds are taken out. -/
theorem deltaT_next {line : List Nat} {d : EopDay} (h : EopLine line d) {init p D : ℝ} (hz : ∃ z : Int, D + d.ut1Utc = init + z)
    (hs : |D - p| < 1 / 2) : deltaT init (some p) line = D := by
  obtain ⟨tu, hu, hu'⟩ := h.ut
  obtain ⟨z, hz⟩ := hz
  unfold deltaT
  simp only [number_field hu hu']
  rw [abs_lt] at hs
  have : ⌊p - (-(d.ut1Utc : ℝ) + init) + 1 / 2⌋ = z := by
    rw [Int.floor_eq_iff]
    constructor <;> linarith
  rw [this]
  linarith

theorem deltaT_first {line : List Nat} {d : EopDay} (h : EopLine line d) (init : ℝ) : deltaT init none line = init - d.ut1Utc := by
  obtain ⟨tu, hu, hu'⟩ := h.ut
  unfold deltaT
  simp only [number_field hu hu']
  ring

/-- How the loop ends after the days: at the end of the file, at its computed size, or at a line that is not one of a day. -/
def Halts (m : Nat) (rest : List (List Nat)) : Prop :=
  m = 0 ∨ rest = [] ∨ ∃ l ls, rest = l :: ls ∧ ¬ (byte l 16 ≠ 32 ∧ isValid l = true)

/-- What is in the buffer in the end. -/
def lastBuffer : List Nat → List (List Nat) → Nat → List (List Nat) → List Nat
  | buff, [], 0, _ => buff
  | buff, [], _ + 1, [] => buff
  | buff, [], _ + 1, l :: _ => putLine buff l
  | buff, l :: ls, m, rest => lastBuffer (putLine buff l) ls m rest

theorem loop_halts {m : Nat} {rest : List (List Nat)} (h : Halts m rest) (init : ℝ) (prev : Option ℝ) (buff : List Nat) :
    loop init m prev buff rest = ⟨[], 0, none, lastBuffer buff [] m rest⟩ := by
  cases m with
  | zero => simp [loop, lastBuffer]
  | succ m =>
    rcases h with h | h | ⟨l, ls, rfl, h⟩
    · omega
    · subst h; simp [loop, lastBuffer]
    · rw [loop, if_neg h, lastBuffer]

theorem loop_days {init : ℝ} {rest : List (List Nat)} {m : Nat} (hh : Halts m rest) :
    ∀ {lines : List (List Nat)} {days : List EopDay}, List.Forall₂ EopLine lines days → ∀ (prev : Option ℝ) (buff : List Nat) (D : Nat → ℝ),
      (∀ i d, days[i]? = some d → ∃ z : Int, D i + d.ut1Utc = init + z) →
      (∀ i, i + 1 < days.length → |D (i + 1) - D i| < 1 / 2) →
      (match prev with
        | none => ∀ d, days[0]? = some d → D 0 = init - d.ut1Utc
        | some p => days ≠ [] → |D 0 - p| < 1 / 2) →
      loop init (lines.length + m) prev buff (lines ++ rest) =
        ⟨wantedRows D days, (days.filter (·.nutation.isSome)).length,
         ((days.filter (·.observed)).getLast?).map (fun d => (d.mjd : Int)), lastBuffer buff lines m rest⟩ := by
  intro lines days hl
  induction hl with
  | nil =>
    intro prev buff D _ _ _
    simp only [List.length_nil, Nat.zero_add, List.nil_append]
    rw [loop_halts hh]
    simp [wantedRows]
  | @cons line d lines days h hl ih =>
    intro prev buff D hz hs hp
    have hD : deltaT init prev line = D 0 := by
      cases prev with
      | none => rw [deltaT_first h, hp d (by simp)]
      | some p => exact deltaT_next h (hz 0 d (by simp)) (hp (by simp))
    have hr := row_of h hD
    rw [List.length_cons, show lines.length + 1 + m = (lines.length + m) + 1 by omega, List.cons_append, loop, if_pos (line_good h)]
    simp only []
    have hrec := ih (some (D 0)) (putLine buff line) (fun i => D (i + 1)) (fun i e he => hz (i + 1) e (by simpa using he))
      (fun i hi => hs (i + 1) (by simp; omega)) (fun hne => hs 0 (by simp; exact List.length_pos_of_ne_nil hne))
    have hdT : (row init prev line).dT = D 0 := by rw [hr]; rfl
    rw [hdT, hrec, hr]
    obtain ⟨ds, hf, hdd, hdl, hv⟩ := h.date
    have hat : atoi (line.drop 7) = d.mjd := by
      have := date_atoi hf hdd hdl []
      rw [List.append_nil] at this
      rw [this, hv]
    have h16 := byte_of h.flag
    have h95 : (byte line 95 ≠ 32) ↔ d.nutation.isSome = true := by
      have hn := h.nut
      cases hc : d.nutation with
      | none => rw [hc] at hn; simp [byte_of hn]
      | some pe =>
        obtain ⟨p, e⟩ := pe
        rw [hc] at hn
        obtain ⟨⟨c, hb, hne⟩, _⟩ := hn
        simp [byte_of hb, hne]
    congr 1
    · by_cases hc : d.nutation.isSome = true
      · rw [if_pos (h95.2 hc)]
        simp only [List.filter, hc, List.length_cons, Nat.add_comm]
      · rw [if_neg (fun x => hc (h95.1 x))]
        rw [Bool.not_eq_true] at hc
        simp only [List.filter, hc, Nat.zero_add]
    · by_cases hc : d.observed = true
      · rw [List.filter_cons_of_pos hc]
        cases hg : (days.filter (·.observed)).getLast? with
        | none =>
          rw [List.getLast?_eq_none_iff] at hg
          rw [hg, h16, hc]
          simp [hat]
        | some e => rw [List.getLast?_cons]; simp [hg]
      · rw [List.filter_cons_of_neg hc, h16]
        cases hg : (days.filter (·.observed)).getLast? with
        | none => simp [hc]
        | some e => simp

theorem load_days {tdUtc : ℝ → ℝ} {line : List Nat} {lines rest : List (List Nat)} {d : EopDay} {days : List EopDay} {D : Nat → ℝ}
    (h : EopLine line d) (hl : List.Forall₂ EopLine lines days) (ho : d.observed = true) (hn : 16371 ≤ days.length + 1)
    (hr : ∀ l ls, rest = l :: ls → ¬ (byte l 16 ≠ 32 ∧ isValid l = true)) (hc : SlowClock (tdUtc (d.mjd + 2400000.5 + 0.1)) (d :: days) D) :
    (load tdUtc (some (line :: lines ++ rest))).1 =
      some ⟨d.mjd + 2400000.5, wantedRows D (d :: days), ((d :: days).filter (·.nutation.isSome)).length⟩ ∧
    (load tdUtc (some (line :: lines ++ rest))).2.1 = (((d :: days).filter (·.observed)).getLast?).map (fun d => (d.mjd : Int)) ∧
    (load tdUtc (some (line :: lines ++ rest))).2.2 =
      atoi ((lastBuffer (putLine [] line) (line :: lines) ((rest.map List.length).sum / 188) rest).drop 7) - 1 := by
  obtain ⟨ds, hf, hdd, hdl, hv⟩ := h.date
  have hall : List.Forall₂ EopLine (line :: lines) (d :: days) := .cons h hl
  have hlen : ∀ {ls : List (List Nat)} {es : List EopDay}, List.Forall₂ EopLine ls es → (ls.map List.length).sum = 188 * ls.length := by
    intro ls es hx
    induction hx with
    | nil => rfl
    | cons hx _ ih => rw [List.map_cons, List.sum_cons, ih, hx.long, List.length_cons]; omega
  have hsize : ((line :: (lines ++ rest)).map List.length).sum / 188 = (line :: lines).length + (rest.map List.length).sum / 188 := by
    rw [← List.cons_append, List.map_append, List.sum_append, hlen hall]
    omega
  have hh : Halts ((rest.map List.length).sum / 188) rest := by
    cases rest with
    | nil => exact Or.inr (Or.inl rfl)
    | cons l ls => exact Or.inr (Or.inr ⟨l, ls, rfl, hr l ls rfl⟩)
  have hlp := loop_days (init := tdUtc (d.mjd + 2400000.5 + 0.1)) hh hall none (putLine [] line) D hc.leap hc.slow hc.start
  have hg := line_good h
  have h16 := byte_of h.flag
  rw [ho] at h16
  rw [List.cons_append, load, if_neg (by rw [hg.2, h16]; simp)]
  simp only []
  rw [hsize, date_number hf hdd, hv, ← List.cons_append, hlp]
  simp only []
  rw [if_neg (by rw [wantedRows_length, List.length_cons]; omega)]
  exact ⟨rfl, rfl, rfl⟩

/-- Not a line of a day: too short or too long, blank where the flag should be, or something else at one of the places that are looked at. -/
def NotADay (l : List Nat) : Prop :=
  l.length ≠ 188 ∨ l.getD 16 0 = 32 ∨ l.getD 12 0 ≠ 46 ∨ l.getD 27 0 ≠ 32 ∨ l.getD 20 0 ≠ 46 ∨ l.getD 13 0 ≠ 48 ∨ l.getD 14 0 ≠ 48

theorem notADay_iff (l : List Nat) : NotADay l ↔ ¬ (byte l 16 ≠ 32 ∧ isValid l = true) := by
  unfold NotADay isValid byte
  simp only [Bool.and_eq_true, beq_iff_eq]
  tauto

/-- **C100.** A file of lines for days, one after another, with something else or nothing after them, gives a table with the numbers of the lines: the
    positions of the pole and the corrections of the nutation in radians, and TD - UT1 without the jumps that leap seconds make in UT1 - UTC.
    The date reported is the one of the last day with observations. -/
theorem C100_table {tdUtc : ℝ → ℝ} {line : List Nat} {lines rest : List (List Nat)} {d : EopDay} {days : List EopDay} {D : Nat → ℝ}
    (h : EopLine line d) (hl : List.Forall₂ EopLine lines days) (ho : d.observed = true) (hn : 16371 ≤ days.length + 1)
    (hr : ∀ l ls, rest = l :: ls → NotADay l) (hc : SlowClock (tdUtc (d.mjd + 2400000.5 + 0.1)) (d :: days) D) :
    (load tdUtc (some (line :: lines ++ rest))).1 =
      some ⟨d.mjd + 2400000.5, wantedRows D (d :: days), ((d :: days).filter (·.nutation.isSome)).length⟩ ∧
    (load tdUtc (some (line :: lines ++ rest))).2.1 = (((d :: days).filter (·.observed)).getLast?).map (fun d => (d.mjd : Int)) := by
  have := load_days h hl ho hn (fun l ls e => (notADay_iff l).1 (hr l ls e)) hc
  exact ⟨this.1, this.2.1⟩

theorem lastBuffer_append (m : Nat) (rest : List (List Nat)) : ∀ (lines : List (List Nat)) (buff l : List Nat),
    ∃ b, lastBuffer buff (lines ++ [l]) m rest = lastBuffer (putLine b l) [] m rest
  | [], buff, l => ⟨buff, by simp [lastBuffer]⟩
  | k :: ks, buff, l => by
    obtain ⟨b, e⟩ := lastBuffer_append m rest ks (putLine buff k) l
    exact ⟨b, by rw [List.cons_append, lastBuffer, e]⟩

theorem lastBuffer_nonempty (m : Nat) (rest : List (List Nat)) (buff line : List Nat) (lines : List (List Nat)) :
    ∃ b l, l ∈ (line :: lines).getLast? ∧ lastBuffer buff (line :: lines) m rest = lastBuffer (putLine b l) [] m rest := by
  obtain ⟨ks, l, e⟩ : ∃ ks l, line :: lines = ks ++ [l] := ⟨_, _, (List.dropLast_append_getLast (by simp)).symm⟩
  rw [e]
  obtain ⟨b, hb⟩ := lastBuffer_append m rest ks buff l
  exact ⟨b, l, by simp, hb⟩

/-- **C100.** When a line without numbers follows, the value returned is the day before the one of that line, the last one with numbers if no
    day is left out. -/
theorem C100_last_day {tdUtc : ℝ → ℝ} {line l : List Nat} {lines rest : List (List Nat)} {d : EopDay} {days : List EopDay} {D : Nat → ℝ} {mjd : Nat}
    (h : EopLine line d) (hl : List.Forall₂ EopLine lines days) (ho : d.observed = true) (hn : 16371 ≤ days.length + 1)
    (hr : EopEmpty l mjd) (hc : SlowClock (tdUtc (d.mjd + 2400000.5 + 0.1)) (d :: days) D) :
    (load tdUtc (some (line :: lines ++ l :: rest))).2.2 = mjd - 1 := by
  have hnot : NotADay l := Or.inr (Or.inl (by rw [List.getD_eq_getElem?_getD, hr.flag]; rfl))
  rw [(load_days h hl ho hn (fun k ks e => by rw [List.cons.injEq] at e; exact (notADay_iff k).1 (e.1 ▸ hnot)) hc).2.2]
  obtain ⟨b, k, _, hb⟩ := lastBuffer_nonempty (((l :: rest).map List.length).sum / 188) (l :: rest) (putLine [] line) line lines
  obtain ⟨ds, hf, hdd, hdl, hv⟩ := hr.date
  rw [hb]
  obtain ⟨m, hm⟩ : ∃ m, ((l :: rest).map List.length).sum / 188 = m + 1 := by
    rw [List.map_cons, List.sum_cons, hr.long]
    exact ⟨(rest.map List.length).sum / 188, by omega⟩
  rw [hm, lastBuffer, date_buffer _ hf hdd hdl, hv]

/-- **C100, finding.** When the file ends with the last day, or not even the length of a line comes after it, the value is one day too early. -/
theorem C100_day_early {tdUtc : ℝ → ℝ} {line : List Nat} {lines rest : List (List Nat)} {d : EopDay} {days : List EopDay} {D : Nat → ℝ}
    (h : EopLine line d) (hl : List.Forall₂ EopLine lines days) (ho : d.observed = true) (hn : 16371 ≤ days.length + 1)
    (hr : ∀ l ls, rest = l :: ls → NotADay l) (hs : (rest.map List.length).sum < 188)
    (hc : SlowClock (tdUtc (d.mjd + 2400000.5 + 0.1)) (d :: days) D) :
    ∃ e ∈ (d :: days).getLast?, (load tdUtc (some (line :: lines ++ rest))).2.2 = e.mjd - 1 := by
  rw [(load_days h hl ho hn (fun l ls e => (notADay_iff l).1 (hr l ls e)) hc).2.2]
  rw [show (rest.map List.length).sum / 188 = 0 by omega]
  obtain ⟨b, k, hk, hb⟩ := lastBuffer_nonempty 0 rest (putLine [] line) line lines
  rw [hb, lastBuffer]
  have hall : List.Forall₂ EopLine (line :: lines) (d :: days) := .cons h hl
  have hlast : ∀ {ls : List (List Nat)} {es : List EopDay}, List.Forall₂ EopLine ls es → ∀ k ∈ ls.getLast?, ∃ e ∈ es.getLast?, EopLine k e := by
    intro ls es hx
    induction hx with
    | nil => intro k hk; simp at hk
    | @cons a b as bs h1 h2 ih =>
      intro k hk
      cases h2 with
      | nil => simp at hk; subst hk; exact ⟨b, by simp, h1⟩
      | cons h3 h4 =>
        obtain ⟨e, he, he'⟩ := ih k (by simpa [List.getLast?_cons_cons] using hk)
        exact ⟨e, by simpa [List.getLast?_cons_cons] using he, he'⟩
  obtain ⟨e, he, he'⟩ := hlast hall k hk
  obtain ⟨ds, hf, hdd, hdl, hv⟩ := he'.date
  exact ⟨e, he, by rw [date_buffer _ hf hdd hdl, hv]⟩

theorem loop_rows_le (init : ℝ) : ∀ (n : Nat) (prev : Option ℝ) (buff : List Nat) (lines : List (List Nat)),
    (loop init n prev buff lines).rows.length ≤ lines.length
  | 0, _, _, _ => by simp [loop]
  | _ + 1, _, _, [] => by simp [loop]
  | n + 1, prev, buff, l :: ls => by
    rw [loop]
    by_cases h : byte l 16 ≠ 32 ∧ isValid l = true
    · rw [if_pos h]
      simpa using loop_rows_le init n _ _ ls
    · rw [if_neg h]
      simp

/-- **C100.** Without a file, or with a file that does not begin with the line of a day with observations or has fewer than 16371 lines, there is a
    negative number and no data. -/
theorem C100_refused (tdUtc : ℝ → ℝ) :
    load tdUtc none = (none, none, -1) ∧ load tdUtc (some []) = (none, none, -1) ∧
    (∀ l ls, NotADay l ∨ l.getD 16 0 ≠ 73 → load tdUtc (some (l :: ls)) = (none, none, -2)) ∧
    ∀ lines, lines ≠ [] → lines.length < 16371 → (load tdUtc (some lines)).1 = none ∧ (load tdUtc (some lines)).2.2 = -2 := by
  refine ⟨rfl, rfl, fun l ls h => ?_, fun lines hne h => ?_⟩
  · rw [load, if_pos]
    rcases h with h | h
    · rw [notADay_iff] at h
      by_cases h16 : byte l 16 = 73
      · left
        rw [Bool.eq_false_iff]
        intro hv
        exact h ⟨by omega, hv⟩
      · exact Or.inr h16
    · exact Or.inr h
  · cases lines with
    | nil => exact absurd rfl hne
    | cons l ls =>
      rw [load]
      split_ifs with h1
      · exact ⟨rfl, rfl⟩
      · have := loop_rows_le (tdUtc (number (l.drop 7) + 2400000.5 + 0.1)) (((l :: ls).map List.length).sum / 188) none (putLine [] l) (l :: ls)
        simp only []
        rw [if_pos (by omega)]
        exact ⟨rfl, rfl⟩

/-! ## Looking up -/

theorem lookUp_inside (d : Data) (jd : ℝ) (i : Nat) :
    (lookUp d jd i).2 = 0 ↔ 1 ≤ jd - d.jd0 ∧ jd - d.jd0 < ((if i < 3 then d.rows.length else d.nutation : Nat) : ℝ) - 2 := by
  unfold lookUp Spline.cubic Spline.cubicIndex
  generalize hn : (if i < 3 then d.rows.length else d.nutation : Nat) = n
  have e : (if i < 3 then (d.rows.length : Int) else d.nutation) = n := by rw [← hn]; split_ifs <;> rfl
  generalize jd - d.jd0 = x
  have g1 : (1 ≤ x) ↔ 1 ≤ ⌊x⌋ := by rw [Int.le_floor]; norm_num
  have l2 : (x < (n : ℝ) - 2) ↔ ⌊x⌋ < (n : Int) - 2 := by rw [Int.floor_lt]; push_cast; rfl
  rw [g1, l2]
  simp only [e]
  split_ifs <;> simp <;> omega

open Classical in
/-- **C100.** A bit of the number returned for every number that was asked for and is outside the table: before its second day, or not
    before the last but one. -/
theorem C100_flags {standard : ℝ → ℝ} {d : Data} {jd : ℝ} {mask : Nat} {r : Row} {v : Int} (h : get standard (some d) jd mask = .ok (r, v))
    {f : Nat → Nat} (hf : ∀ i, f i = if mask / 2 ^ i % 2 = 1 ∧
      ¬ (1 ≤ jd - d.jd0 ∧ jd - d.jd0 < ((if i < 3 then d.rows.length else d.nutation : Nat) : ℝ) - 2) then 2 ^ i else 0) :
    v = f 0 + f 1 + f 2 + f 3 + f 4 := by
  have e : ∀ i, flag d jd mask i = f i := by
    intro i
    unfold flag
    rw [hf]
    simp only [← lookUp_inside, ne_eq]
  unfold Eop.get at h
  simp only [] at h
  split at h
  · simp only [Outcome.ok.injEq, Prod.mk.injEq] at h
    rw [← h.2, e, e, e, e, e]
  · cases h

theorem column_wanted {jd0 : ℝ} {D : Nat → ℝ} {days : List EopDay} {m k : Nat} {d : EopDay} (hd : days[k]? = some d) (i : Nat) :
    column ⟨jd0, wantedRows D days, m⟩ i (k : Int) =
      match i with
      | 0 => (wantedRow (D k) d).dX
      | 1 => (wantedRow (D k) d).dY
      | 2 => (wantedRow (D k) d).dT
      | 3 => (wantedRow (D k) d).dPsi
      | _ => (wantedRow (D k) d).dEps := by
  unfold column
  simp only [Int.toNat_natCast, wantedRows_get, hd, Option.map_some]
  rw [if_neg (by omega)]
  rfl

theorem lookUp_day {jd0 : ℝ} {D : Nat → ℝ} {days : List EopDay} {m k : Nat} (i : Nat) (h1 : 1 ≤ k)
    (h2 : k + 3 ≤ if i < 3 then days.length else m) :
    lookUp ⟨jd0, wantedRows D days, m⟩ (jd0 + k) i = (column ⟨jd0, wantedRows D days, m⟩ i (k : Int), 0) := by
  have hin : (lookUp ⟨jd0, wantedRows D days, m⟩ (jd0 + k) i).2 = 0 := by
    rw [lookUp_inside]
    simp only [wantedRows_length]
    have a : (1 : ℝ) ≤ k := by exact_mod_cast h1
    have b : ((k + 3 : Nat) : ℝ) ≤ ((if i < 3 then days.length else m : Nat) : ℝ) := by exact_mod_cast h2
    rw [Nat.cast_add, Nat.cast_ofNat] at b
    constructor <;> linarith
  refine Prod.ext ?_ hin
  unfold lookUp
  simp only [wantedRows_length]
  have := C37_passes_through_partial (column ⟨jd0, wantedRows D days, m⟩ i) (if i < 3 then (days.length : Int) else m) (by split_ifs at h2 ⊢ <;> omega)
    k (by omega) (by split_ifs at h2 ⊢ <;> omega)
  rw [← this]
  congr 2
  push_cast
  ring

/-- The results when everything asked for is in the table, or the nutation is not. -/
theorem get_rows {jd0 : ℝ} {D : Nat → ℝ} {days : List EopDay} {m k mask : Nat} {d : EopDay} (hd : days[k]? = some d) (h1 : 1 ≤ k)
    (h2 : k + 3 ≤ days.length) :
    (∀ i, i < 3 → (lookUp ⟨jd0, wantedRows D days, m⟩ (jd0 + k) i).2 = 0) ∧
    result (some ⟨jd0, wantedRows D days, m⟩) (jd0 + k) mask 0 = (if mask / 2 ^ 0 % 2 = 1 then d.x * (Real.pi / 648000) else 0) ∧
    result (some ⟨jd0, wantedRows D days, m⟩) (jd0 + k) mask 1 = (if mask / 2 ^ 1 % 2 = 1 then d.y * (Real.pi / 648000) else 0) ∧
    result (some ⟨jd0, wantedRows D days, m⟩) (jd0 + k) mask 2 = (if mask / 2 ^ 2 % 2 = 1 then D k else 0) := by
  have hl : ∀ i, i < 3 → lookUp ⟨jd0, wantedRows D days, m⟩ (jd0 + k) i = (column ⟨jd0, wantedRows D days, m⟩ i (k : Int), 0) :=
    fun i hi => lookUp_day i h1 (by rw [if_pos hi]; exact h2)
  refine ⟨fun i hi => by rw [hl i hi], ?_, ?_, ?_⟩
  all_goals
    unfold result
    simp only [hl _ (show 0 < 3 by omega), hl _ (show 1 < 3 by omega), hl _ (show 2 < 3 by omega), column_wanted hd, and_true]
    rfl

theorem scaled_range {x : ℚ} {a b c : ℝ} (hc : 0 < c) (h1 : a < x) (h2 : (x : ℝ) < b) (ha : a < 0) (hb : 0 < b) (p : Prop) [Decidable p] :
    (if p then (x : ℝ) * c else 0) > a * c ∧ (if p then (x : ℝ) * c else 0) < b * c := by
  split_ifs
  · exact ⟨by nlinarith, by nlinarith⟩
  · exact ⟨by nlinarith, by nlinarith⟩

/-- The ranges of the last decades, in seconds and milliseconds of arc. -/
def Historical (x y : ℚ) : Prop := -0.28 < (x : ℝ) ∧ (x : ℝ) < 0.36 ∧ -0.03 < (y : ℝ) ∧ (y : ℝ) < 0.61

/-- The same for the nutation. -/
def HistoricalNutation (p e : ℚ) : Prop := -130 < (p : ℝ) ∧ (p : ℝ) < 55 ∧ -18 < (e : ℝ) ∧ (e : ℝ) < 10

/-- **C100.** At 0h of a day in the table (not one of the first or of the last two), what was asked for is what the file says of that day. -/
theorem C100_day {standard : ℝ → ℝ} {jd0 : ℝ} {D : Nat → ℝ} {days : List EopDay} {m k mask : Nat} {d : EopDay} {p e : ℚ}
    (hd : days[k]? = some d) (h1 : 1 ≤ k) (h2 : k + 3 ≤ days.length) (h3 : k + 3 ≤ m) (hn : d.nutation = some (p, e))
    (hr : Historical d.x d.y) (hr' : HistoricalNutation p e) (hD : D k ≠ 0) :
    Eop.get standard (some ⟨jd0, wantedRows D days, m⟩) (jd0 + k) mask =
      .ok (⟨if mask / 2 ^ 0 % 2 = 1 then d.x * (Real.pi / 648000) else 0, if mask / 2 ^ 1 % 2 = 1 then d.y * (Real.pi / 648000) else 0,
            if mask / 2 ^ 2 % 2 = 1 then D k else 0,
            if mask / 2 ^ 3 % 2 = 1 then p * (Real.pi / 648000000) else 0, if mask / 2 ^ 4 % 2 = 1 then e * (Real.pi / 648000000) else 0⟩, 0) := by
  obtain ⟨hz, e0, e1, e2⟩ := get_rows (jd0 := jd0) (D := D) (m := m) (mask := mask) hd h1 h2
  have hl : ∀ i, 3 ≤ i → lookUp ⟨jd0, wantedRows D days, m⟩ (jd0 + k) i = (column ⟨jd0, wantedRows D days, m⟩ i (k : Int), 0) :=
    fun i hi => lookUp_day i h1 (by rw [if_neg (by omega)]; exact h3)
  have e3 : result (some ⟨jd0, wantedRows D days, m⟩) (jd0 + k) mask 3 = (if mask / 2 ^ 3 % 2 = 1 then p * (Real.pi / 648000000) else 0) := by
    unfold result
    simp only [hl 3 (by omega), column_wanted hd, and_true, wantedRow, hn]
  have e4 : result (some ⟨jd0, wantedRows D days, m⟩) (jd0 + k) mask 4 = (if mask / 2 ^ 4 % 2 = 1 then e * (Real.pi / 648000000) else 0) := by
    unfold result
    simp only [hl 4 (by omega), column_wanted hd, and_true, wantedRow, hn]
  have hfl : ∀ i, flag ⟨jd0, wantedRows D days, m⟩ (jd0 + k) mask i = 0 := by
    intro i
    unfold flag
    rw [if_neg]
    rintro ⟨_, h⟩
    apply h
    by_cases hi : i < 3
    · exact hz i hi
    · rw [hl i (by omega)]
  have hpi := Real.pi_pos
  unfold Eop.get
  simp only [e0, e1, e2, e3, e4, hfl]
  rw [if_pos, if_neg]
  · rfl
  · rintro ⟨ha, hb⟩
    rw [if_pos (by simpa using ha)] at hb
    exact hD hb
  · rw [e0, e1, e3, e4]
    unfold InRange
    rw [arcsec_eq, marcsec_eq]
    obtain ⟨a1, a2, a3, a4⟩ := hr
    obtain ⟨a5, a6, a7, a8⟩ := hr'
    have b1 := scaled_range (c := Real.pi / 648000) (by positivity) a1 a2 (by norm_num) (by norm_num) (mask / 2 ^ 0 % 2 = 1)
    have b2 := scaled_range (c := Real.pi / 648000) (by positivity) a3 a4 (by norm_num) (by norm_num) (mask / 2 ^ 1 % 2 = 1)
    have b3 := scaled_range (c := Real.pi / 648000000) (by positivity) a5 a6 (by norm_num) (by norm_num) (mask / 2 ^ 3 % 2 = 1)
    have b4 := scaled_range (c := Real.pi / 648000000) (by positivity) a7 a8 (by norm_num) (by norm_num) (mask / 2 ^ 4 % 2 = 1)
    exact ⟨b1.1, b1.2, b2.1, b2.2, b3.1, b3.2, b4.2, b4.1⟩

theorem inRange_zero : InRange 0 0 0 0 := by
  have hpi := Real.pi_pos
  unfold InRange
  rw [arcsec_eq, marcsec_eq]
  refine ⟨?_, ?_, ?_, ?_, ?_, ?_, ?_, ?_⟩ <;> nlinarith

/-- **C100.** On a day with predictions of the pole and of UT1 - UTC but without those of the nutation, the former are given, and the latter are 0
    with bits 3 and 4 set if they were asked for. -/
theorem C100_no_nutation {standard : ℝ → ℝ} {jd0 : ℝ} {D : Nat → ℝ} {days : List EopDay} {m k mask : Nat} {d : EopDay}
    (hd : days[k]? = some d) (h1 : 1 ≤ k) (h2 : k + 3 ≤ days.length) (h3 : m < k + 3)
    (hr : Historical d.x d.y) (hD : D k ≠ 0) :
    Eop.get standard (some ⟨jd0, wantedRows D days, m⟩) (jd0 + k) mask =
      .ok (⟨if mask / 2 ^ 0 % 2 = 1 then d.x * (Real.pi / 648000) else 0, if mask / 2 ^ 1 % 2 = 1 then d.y * (Real.pi / 648000) else 0,
            if mask / 2 ^ 2 % 2 = 1 then D k else 0, 0, 0⟩, ((8 * (mask / 8 % 4) : Nat) : Int)) := by
  obtain ⟨hz, e0, e1, e2⟩ := get_rows (jd0 := jd0) (D := D) (m := m) (mask := mask) hd h1 h2
  have hl : ∀ i, 3 ≤ i → (lookUp ⟨jd0, wantedRows D days, m⟩ (jd0 + k) i).2 ≠ 0 := by
    intro i hi h
    rw [lookUp_inside, if_neg (by omega)] at h
    have : ((m : Nat) : ℝ) < ((k + 3 : Nat) : ℝ) := by exact_mod_cast h3
    have h4 : ((m : Nat) : ℝ) + 1 ≤ ((k + 3 : Nat) : ℝ) := by exact_mod_cast h3
    push_cast at h4
    have := h.2
    simp only [] at this
    linarith
  have e3 : result (some ⟨jd0, wantedRows D days, m⟩) (jd0 + k) mask 3 = 0 := by
    unfold result
    exact if_neg (fun h => hl 3 (by omega) h.2)
  have e4 : result (some ⟨jd0, wantedRows D days, m⟩) (jd0 + k) mask 4 = 0 := by
    unfold result
    exact if_neg (fun h => hl 4 (by omega) h.2)
  have hfl : ∀ i, i < 3 → flag ⟨jd0, wantedRows D days, m⟩ (jd0 + k) mask i = 0 := by
    intro i hi
    unfold flag
    rw [if_neg]
    rintro ⟨_, h⟩
    exact h (hz i hi)
  have hfl' : ∀ i, 3 ≤ i → flag ⟨jd0, wantedRows D days, m⟩ (jd0 + k) mask i = if mask / 2 ^ i % 2 = 1 then 2 ^ i else 0 := by
    intro i hi
    unfold flag
    simp only [hl i hi, ne_eq, not_false_iff, and_true]
  have hpi := Real.pi_pos
  unfold Eop.get
  simp only [e0, e1, e2, e3, e4, hfl 0 (by omega), hfl 1 (by omega), hfl 2 (by omega), hfl' 3 (by omega), hfl' 4 (by omega)]
  rw [if_pos, if_neg]
  · congr 2
    have : (if mask / 2 ^ 3 % 2 = 1 then 2 ^ 3 else 0) + (if mask / 2 ^ 4 % 2 = 1 then 2 ^ 4 else 0) = 8 * (mask / 8 % 4) := by
      split_ifs <;> omega
    rw [← this]
    push_cast
    ring
  · rintro ⟨ha, hb⟩
    rw [if_pos (by simpa using ha)] at hb
    exact hD hb
  · rw [e0, e1, e3, e4]
    unfold InRange
    rw [arcsec_eq, marcsec_eq]
    obtain ⟨a1, a2, a3, a4⟩ := hr
    have b1 := scaled_range (c := Real.pi / 648000) (by positivity) a1 a2 (by norm_num) (by norm_num) (mask / 2 ^ 0 % 2 = 1)
    have b2 := scaled_range (c := Real.pi / 648000) (by positivity) a3 a4 (by norm_num) (by norm_num) (mask / 2 ^ 1 % 2 = 1)
    refine ⟨b1.1, b1.2, b2.1, b2.2, ?_, ?_, ?_, ?_⟩ <;> nlinarith

/-- **C100.** At a time outside the table there are zeroes with the bits set of everything that was asked for, and TD - UT1 is the one of the general formulas. -/
theorem C100_outside {standard : ℝ → ℝ} {d : Data} {jd : ℝ} {mask : Nat} (hm : d.nutation ≤ d.rows.length)
    (h : jd < d.jd0 + 1 ∨ d.jd0 + d.rows.length - 2 ≤ jd) :
    Eop.get standard (some d) jd mask = .ok (⟨0, 0, if mask / 4 % 2 = 1 then standard jd else 0, 0, 0⟩, ((mask % 32 : Nat) : Int)) := by
  have hl : ∀ i, (lookUp d jd i).2 ≠ 0 := by
    intro i hi
    rw [lookUp_inside] at hi
    have hm' : (d.nutation : ℝ) ≤ d.rows.length := by exact_mod_cast hm
    split_ifs at hi <;> rcases h with h | h <;> linarith [hi.1, hi.2]
  have e : ∀ i, result (some d) jd mask i = 0 := by
    intro i
    unfold result
    exact if_neg (fun h => hl i h.2)
  have hfl : ∀ i, flag d jd mask i = if mask / 2 ^ i % 2 = 1 then 2 ^ i else 0 := by
    intro i
    unfold flag
    simp only [hl i, ne_eq, not_false_iff, and_true]
  unfold Eop.get
  simp only [e, hfl, and_true]
  rw [if_pos (by rw [e, e, e, e]; exact inRange_zero)]
  have hb : (if mask / 2 ^ 0 % 2 = 1 then 2 ^ 0 else 0) + (if mask / 2 ^ 1 % 2 = 1 then 2 ^ 1 else 0) + (if mask / 2 ^ 2 % 2 = 1 then 2 ^ 2 else 0)
      + (if mask / 2 ^ 3 % 2 = 1 then 2 ^ 3 else 0) + (if mask / 2 ^ 4 % 2 = 1 then 2 ^ 4 else 0) = mask % 32 := by
    have h1 : mask / 2 = mask / 2 ^ 1 := by simp
    split_ifs <;> omega
  congr 2
  · split_ifs <;> rfl
  · rw [← hb]
    push_cast
    rfl

/-- **C100.** Without data: zeroes, TD - UT1 of the general formulas, and -1. -/
theorem C100_no_data (standard : ℝ → ℝ) (jd : ℝ) (mask : Nat) :
    Eop.get standard none jd mask = .ok (⟨0, 0, if mask / 4 % 2 = 1 then standard jd else 0, 0, 0⟩, -1) := by
  unfold Eop.get result
  simp only [and_true]
  rw [if_pos inRange_zero]
  congr 2
  split_ifs <;> rfl

/-- **C100, finding.** On a day when the pole is outside the range that was usual, the program ends if its position is asked for. -/
theorem C100_aborts {standard : ℝ → ℝ} {jd0 : ℝ} {D : Nat → ℝ} {days : List EopDay} {m k mask : Nat} {d : EopDay}
    (hd : days[k]? = some d) (h1 : 1 ≤ k) (h2 : k + 3 ≤ days.length) (hm : mask % 2 = 1) (hx : 0.36 ≤ (d.x : ℝ)) :
    Eop.get standard (some ⟨jd0, wantedRows D days, m⟩) (jd0 + k) mask = .abort := by
  obtain ⟨hz, e0, e1, e2⟩ := get_rows (jd0 := jd0) (D := D) (m := m) (mask := mask) hd h1 h2
  rw [if_pos (by simpa using hm)] at e0
  have hpi := Real.pi_pos
  unfold Eop.get
  simp only []
  rw [if_neg]
  rw [e0]
  unfold InRange
  rw [arcsec_eq]
  rintro ⟨_, h, _⟩
  have : (0 : ℝ) < Real.pi / 648000 := by positivity
  nlinarith

/-- **C100, finding.** The dates of the ends of the data, as they are reported, are one day after the last day with data. -/
theorem C100_reported_range (D : Nat → ℝ) (days : List EopDay) (m mjd : Nat) :
    info (some ⟨mjd + 2400000.5, wantedRows D days, m⟩) = (((mjd : Int), (mjd + days.length : Int), (mjd + m : Int)), 0) := by
  have : Spline.trunc ((mjd : ℝ) + 2400000.5 - 2400000.499) = (mjd : Int) := by
    have h0 : (0 : ℝ) ≤ mjd := Nat.cast_nonneg _
    unfold Spline.trunc
    rw [if_pos (by linarith), Int.floor_eq_iff]
    push_cast
    constructor <;> linarith
  unfold info
  simp only [this, wantedRows_length]

/-! ## Examples -/

/-- A line of the file, for 2017 September 4. -/
def exampleEop : List Nat :=
  [49, 55, 32, 57, 32, 52, 32, 53, 56, 48, 48, 48, 46, 48, 48, 32, 73, 32, 32, 48, 46, 50, 50, 50,
   48, 57, 51, 32, 48, 46, 48, 48, 48, 48, 50, 51, 32, 32, 48, 46, 51, 54, 52, 48, 52, 49, 32, 48,
   46, 48, 48, 48, 48, 50, 56, 32, 32, 73, 32, 48, 46, 51, 50, 52, 49, 51, 55, 50, 32, 48, 46, 48,
   48, 48, 48, 48, 53, 53, 32, 32, 48, 46, 54, 53, 51, 49, 32, 32, 32, 32, 32, 32, 32, 32, 32, 73,
   32, 32, 32, 32, 45, 57, 54, 46, 49, 50, 51, 32, 32, 32, 48, 46, 49, 54, 48, 32, 32, 32, 32, 45,
   57, 46, 50, 53, 51, 32, 32, 32, 32, 32, 48, 46, 49, 54, 48, 32, 32, 32, 32, 32, 32, 32, 32, 32,
   32, 32, 32, 32, 32, 32, 32, 32, 32, 32, 32, 32, 32, 32, 32, 32, 32, 32, 32, 32, 32, 32, 32, 32,
   32, 32, 32, 32, 32, 32, 32, 32, 32, 32, 32, 32, 32, 32, 32, 32, 32, 32, 32, 10]

/-- What it says. -/
def exampleEopDay : EopDay := ⟨58000, true, 222093 / 1000000, 364041 / 1000000, 3241372 / 10000000, some (-96123 / 1000, -9253 / 1000)⟩

theorem field_example {c n : Nat} {r : List Nat} (h : exampleEop.drop (c + n) = 32 :: r) (hc : c ≤ 188) :
    FieldAt exampleEop c ((exampleEop.drop c).take n) := by
  refine ⟨exampleEop.take c, r, ?_, by rw [List.length_take]; exact Nat.min_eq_left hc⟩
  rw [← h, ← List.drop_drop, List.take_append_drop, List.take_append_drop]

theorem line_example : EopLine exampleEop exampleEopDay where
  long := rfl
  date := ⟨[53, 56, 48, 48, 48], field_example (c := 7) (n := 8) rfl (by omega), by unfold AllDigits; decide, rfl, rfl⟩
  flag := rfl
  point := rfl
  blank := rfl
  x := ⟨_, field_example (c := 18) (n := 9) rfl (by omega),
    1, false, [48], [50, 50, 50, 48, 57, 51], rfl, by unfold AllDigits; decide, by unfold AllDigits; decide, Or.inl (by simp), by norm_num [value, exampleEopDay]⟩
  y := ⟨_, field_example (c := 37) (n := 9) rfl (by omega),
    1, false, [48], [51, 54, 52, 48, 52, 49], rfl, by unfold AllDigits; decide, by unfold AllDigits; decide, Or.inl (by simp), by norm_num [value, exampleEopDay]⟩
  ut := ⟨_, field_example (c := 58) (n := 10) rfl (by omega),
    1, false, [48], [51, 50, 52, 49, 51, 55, 50], rfl, by unfold AllDigits; decide, by unfold AllDigits; decide, Or.inl (by simp), by norm_num [value, exampleEopDay]⟩
  nut := by
    refine ⟨⟨73, rfl, by omega⟩, ⟨_, field_example (c := 97) (n := 10) rfl (by omega),
      3, true, [57, 54], [49, 50, 51], rfl, by unfold AllDigits; decide, by unfold AllDigits; decide, Or.inl (by simp), by norm_num [value]⟩,
      _, field_example (c := 116) (n := 9) rfl (by omega),
      3, true, [57], [50, 53, 51], rfl, by unfold AllDigits; decide, by unfold AllDigits; decide, Or.inl (by simp), by norm_num [value]⟩

theorem lines_example (n : Nat) : List.Forall₂ EopLine (List.replicate n exampleEop) (List.replicate n exampleEopDay) := by
  induction n with
  | zero => exact .nil
  | succ n ih => exact .cons line_example ih

theorem clock_example (init : ℝ) (n : Nat) : SlowClock init (List.replicate n exampleEopDay) (fun _ => init - exampleEopDay.ut1Utc) where
  start := by
    intro d hd
    rw [List.getElem?_replicate] at hd
    split_ifs at hd
    cases hd
    rfl
  leap := by
    intro i d hd
    rw [List.getElem?_replicate] at hd
    split_ifs at hd
    cases hd
    exact ⟨0, by push_cast; ring⟩
  slow := by intro i _; norm_num

/-- The hypotheses of `C100_table` can be met; `C100_day_early` applies to the same file, which ends with the line of a day. -/
example (tdUtc : ℝ → ℝ) :
    (load tdUtc (some (List.replicate (16370 + 1) exampleEop ++ []))).2.1 ≠ none ∧
    (load tdUtc (some (List.replicate (16370 + 1) exampleEop ++ []))).2.2 = 57999 := by
  have hc := clock_example (tdUtc ((exampleEopDay.mjd : ℝ) + 2400000.5 + 0.1)) (16370 + 1)
  rw [List.replicate_succ] at hc
  rw [List.replicate_succ]
  have h1 := C100_table (rest := []) line_example (lines_example 16370) rfl (by rw [List.length_replicate]) (by simp) hc
  obtain ⟨e, he, h2⟩ := C100_day_early (rest := []) line_example (lines_example 16370) rfl (by rw [List.length_replicate]) (by simp) (by simp) hc
  constructor
  · rw [h1.2, List.filter_cons_of_pos (by rfl), List.getLast?_cons]
    exact Option.some_ne_none _
  · rw [h2]
    have : e = exampleEopDay := by
      have := List.mem_of_getLast? he
      rw [List.mem_cons, List.mem_replicate] at this
      rcases this with h | h
      · exact h
      · exact h.2
    rw [this]
    rfl

/-- A line without numbers for `C100_last_day`. -/
example : EopEmpty (exampleEop.take 15 ++ List.replicate 173 32) 58000 where
  long := rfl
  date := ⟨[53, 56, 48, 48, 48], ⟨exampleEop.take 7, List.replicate 172 32, rfl, rfl⟩, by unfold AllDigits; decide, rfl, rfl⟩
  flag := rfl

/-- The hypotheses of `C100_day` and `C100_flags`. -/
example (standard : ℝ → ℝ) (jd0 : ℝ) : ∃ r, Eop.get standard (some ⟨jd0, wantedRows (fun _ => 69) (List.replicate 5 exampleEopDay), 5⟩) (jd0 + (2 : Nat)) 31 = .ok (r, 0) ∧
    r.dT = 69 := by
  refine ⟨_, C100_day (d := exampleEopDay) rfl (by omega) (by simp) (by omega) rfl ?_ ?_ (by norm_num), by norm_num⟩
  · norm_num [Historical, exampleEopDay]
  · norm_num [HistoricalNutation]

/-- The hypotheses of `C100_no_nutation`. -/
example (standard : ℝ → ℝ) (jd0 : ℝ) : ∃ r, Eop.get standard (some ⟨jd0, wantedRows (fun _ => 69) (List.replicate 5 exampleEopDay), 0⟩) (jd0 + (2 : Nat)) 31 = .ok (r, 24) := by
  refine ⟨_, C100_no_nutation (d := exampleEopDay) rfl (by omega) (by simp) (by omega) ?_ (by norm_num)⟩
  norm_num [Historical, exampleEopDay]

/-- The hypotheses of `C100_outside`. -/
example (standard : ℝ → ℝ) : ∃ r, Eop.get standard (some ⟨0, wantedRows (fun _ => 69) (List.replicate 5 exampleEopDay), 5⟩) 3 31 = .ok (r, 31) :=
  ⟨_, C100_outside (by rw [wantedRows_length]; simp) (Or.inr (by rw [wantedRows_length]; norm_num))⟩

/-- The hypotheses of `C100_aborts`. -/
example (standard : ℝ → ℝ) (jd0 : ℝ) :
    Eop.get standard (some ⟨jd0, wantedRows (fun _ => 69) (List.replicate 5 { exampleEopDay with x := 1 / 2 }), 5⟩) (jd0 + (2 : Nat)) 1 = .abort :=
  C100_aborts (d := { exampleEopDay with x := 1 / 2 }) rfl (by omega) (by simp) rfl (by norm_num)

end Verif.Props
