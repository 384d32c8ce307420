import Verif.Model.Themis
import Verif.Spec.Oem
import Verif.Props.Mms
import Verif.Props.B32

/-!
# C113: ephemerides of the THEMIS satellites
-/

namespace Verif.Props

open Verif Verif.Spec Verif.Spec.Oem
open Verif.Spec.Mms (everyNth)
open Verif.Mms (Run getArg)
open Verif.B32 (load trunc)

/-! ## The buffer -/

theorem load_get (buf l : List Nat) (i : Nat) (h : i ≤ l.length) : at? (load buf l) i = at? l i := by
  unfold load at? List.getD
  by_cases hi : i < l.length
  · rw [List.getElem?_append_left hi]
  · have : i = l.length := by omega
    subst this
    rw [List.getElem?_append_right le_rfl, Nat.sub_self, List.getElem?_eq_none le_rfl]
    rfl

theorem load_far (buf l : List Nat) (i : Nat) (h : l.length < i) : at? (load buf l) i = at? buf i := by
  unfold load at? List.getD
  rw [List.getElem?_append_right h.le, show i - l.length = (i - l.length - 1) + 1 by omega, List.getElem?_cons_succ, List.getElem?_drop]
  congr 2
  omega

theorem load_says (buf l : List Nat) (p : List Nat) (hp : p.length = 9) (h0 : 0 ∉ p) : (load buf l).take 9 = p ↔ l.take 9 = p := by
  unfold load
  by_cases h : 9 ≤ l.length
  · rw [List.take_append_of_le_length h]
  · constructor
    · intro e
      exfalso
      apply h0
      rw [← e, List.take_append, show 9 - l.length = (9 - l.length - 1) + 1 by omega, List.take_succ_cons]
      simp
    · intro e
      rw [← e, List.length_take] at hp
      omega

theorem cstr_line {l : List Nat} (h0 : 0 ∉ l) (rest : List Nat) : Multipart.cstr (l ++ 0 :: rest) = l := by
  unfold Multipart.cstr
  rw [List.takeWhile_append_of_pos]
  · simp
  · intro c hc
    have : c ≠ 0 := fun h => h0 (h ▸ hc)
    simpa using this

theorem load_drop (buf : List Nat) {l : List Nat} (h0 : 0 ∉ l) {i : Nat} (hi : i ≤ l.length) : Multipart.cstr ((load buf l).drop i) = l.drop i := by
  unfold load
  rw [List.drop_append_of_le_length hi]
  exact cstr_line (fun h => h0 (List.mem_of_mem_drop h)) _

theorem pos_row {l : List Nat} (h : PosLine l) (buf : List Nat) : Themis.isRow (load buf l) = true := by
  obtain ⟨h1, h2, h3, h4, h5, -⟩ := h
  unfold Themis.isRow
  rw [load_get _ _ _ (by omega), load_get _ _ _ (by omega), load_get _ _ _ (by omega), load_get _ _ _ (by omega)]
  rw [(at_some (by decide)).2 h1, (at_some (by decide)).2 h2, (at_some (by decide)).2 h3, (at_some (by decide)).2 h4]
  rfl

theorem other_row {l : List Nat} (h : OtherLine l) (buf : List Nat) : Themis.isRow (load buf l) = false := by
  rw [Bool.eq_false_iff]
  intro hc
  unfold Themis.isRow at hc
  simp only [Bool.and_eq_true, beq_iff_eq] at hc
  obtain ⟨⟨⟨h1, h2⟩, h3⟩, h4⟩ := hc
  rcases h with ⟨hl, h⟩ | ⟨hl, h⟩ | ⟨hl, h⟩ | ⟨hl, h⟩
  · rw [load_get _ _ _ hl, at_some (by decide)] at h1; exact h h1
  · rw [load_get _ _ _ hl, at_some (by decide)] at h2; exact h h2
  · rw [load_get _ _ _ hl, at_some (by decide)] at h3; exact h h3
  · rw [load_get _ _ _ hl, at_some (by decide)] at h4; exact h h4

/-! ## A line -/

instance (p : String) (l : List Nat) : Decidable (Says p l) := inferInstanceAs (Decidable (_ = _))

theorem take_eq (time : List Nat → ℚ) (l : List Nat) (s : Themis.State) :
    (s.take time l).n = s.n ∧ (s.take time l).buf = load s.buf l ∧
    (s.take time l).norad = (if Says "OBJECT_ID" l then atoi (Themis.field (load s.buf l)) else s.norad) ∧
    (s.take time l).start = (if Says "START_TIM" l then time (Themis.field (load s.buf l)) else s.start) ∧
    (s.take time l).stop = (if Says "STOP_TIME" l then time (Themis.field (load s.buf l)) else s.stop) := by
  have h1 := load_says s.buf l (bytes "OBJECT_ID") (by decide) (by decide)
  have h2 := load_says s.buf l (bytes "START_TIM") (by decide) (by decide)
  have h3 := load_says s.buf l (bytes "STOP_TIME") (by decide) (by decide)
  unfold Themis.State.take Themis.State.object Themis.State.begins Themis.State.ends Says
  simp only [h1, h2, h3]
  by_cases c1 : l.take 9 = bytes "OBJECT_ID"
  · have c2 : l.take 9 ≠ bytes "START_TIM" := by rw [c1]; decide
    have c3 : l.take 9 ≠ bytes "STOP_TIME" := by rw [c1]; decide
    simp only [if_pos c1, if_neg c2, if_neg c3]; exact ⟨trivial, trivial, (if_pos c1).symm, (if_neg c2).symm, (if_neg c3).symm⟩
  · by_cases c2 : l.take 9 = bytes "START_TIM"
    · have c3 : l.take 9 ≠ bytes "STOP_TIME" := by rw [c2]; decide
      simp only [if_neg c1, if_pos c2, if_neg c3]; exact ⟨trivial, trivial, (if_neg c1).symm, (if_pos c2).symm, (if_neg c3).symm⟩
    · by_cases c3 : l.take 9 = bytes "STOP_TIME"
      · simp only [if_neg c1, if_neg c2, if_pos c3]; exact ⟨trivial, trivial, (if_neg c1).symm, (if_neg c2).symm, (if_pos c3).symm⟩
      · simp only [if_neg c1, if_neg c2, if_neg c3]; exact ⟨trivial, trivial, (if_neg c1).symm, (if_neg c2).symm, (if_neg c3).symm⟩

theorem field_eq (buf : List Nat) {l : List Nat} (h0 : 0 ∉ l) (hl : 23 ≤ l.length) : Themis.field (load buf l) = l.drop 23 := load_drop buf h0 hl

theorem pos_says {l : List Nat} (h : PosLine l) : ¬Says "OBJECT_ID" l ∧ ¬Says "START_TIM" l ∧ ¬Says "STOP_TIME" l := by
  have h1 : (l.take 9)[4]? = some 45 := by rw [List.getElem?_take, if_pos (by decide)]; exact h.1
  refine ⟨?_, ?_, ?_⟩ <;> intro e <;> unfold Says at e <;> rw [e] at h1 <;> revert h1 <;> decide

/-- The state after lines that are no positions. -/
def quiet (time : List Nat → ℚ) (ls : List (List Nat)) (s : Themis.State) : Themis.State := ls.foldl (fun s l => s.take time l) s

theorem loop_quiet (time : List Nat → ℚ) (f : Int) {pre : List (List Nat)} (h : ∀ l ∈ pre, OtherLine l) (ls : List (List Nat)) (s : Themis.State) :
    Themis.loop time f (pre ++ ls) s = Themis.loop time f ls (quiet time pre s) := by
  induction pre generalizing s with
  | nil => rfl
  | cons l pre ih =>
    rw [List.cons_append, Themis.loop, if_neg, ih (fun k hk => h k (by simp [hk]))]
    · rfl
    · rw [(take_eq time l s).2.1, other_row (h l (by simp))]
      decide

theorem quiet_append (time : List Nat → ℚ) (a b : List (List Nat)) (s : Themis.State) : quiet time (a ++ b) s = quiet time b (quiet time a s) :=
  List.foldl_append

theorem quiet_n (time : List Nat → ℚ) (ls : List (List Nat)) (s : Themis.State) : (quiet time ls s).n = s.n := by
  induction ls generalizing s with
  | nil => rfl
  | cons l ls ih =>
    show (quiet time ls (s.take time l)).n = s.n
    rw [ih, (take_eq time l s).1]

theorem quiet_norad (time : List Nat → ℚ) {ls : List (List Nat)} {v : List Nat} (h : Value "OBJECT_ID" ls v) (s : Themis.State) :
    (quiet time ls s).norad = atoi v := by
  obtain ⟨a, l, b, rfl, h1, h2, h3, rfl, h4⟩ := h
  rw [quiet_append]
  generalize quiet time a s = s
  show (quiet time b (s.take time l)).norad = _
  have keep : ∀ (b : List (List Nat)), (∀ k ∈ b, ¬Says "OBJECT_ID" k) → ∀ s, (quiet time b s).norad = s.norad := by
    intro b
    induction b with
    | nil => intro _ s; rfl
    | cons k b ih =>
      intro h s
      show (quiet time b (s.take time k)).norad = _
      rw [ih (fun k hk => h k (by simp [hk])), (take_eq time k s).2.2.1, if_neg (h k (by simp))]
  rw [keep b h4, (take_eq time l s).2.2.1, if_pos h1, field_eq _ h3 h2]

theorem quiet_start (time : List Nat → ℚ) {ls : List (List Nat)} {v : List Nat} (h : Value "START_TIM" ls v) (s : Themis.State) :
    (quiet time ls s).start = time v := by
  obtain ⟨a, l, b, rfl, h1, h2, h3, rfl, h4⟩ := h
  rw [quiet_append]
  generalize quiet time a s = s
  show (quiet time b (s.take time l)).start = _
  have keep : ∀ (b : List (List Nat)), (∀ k ∈ b, ¬Says "START_TIM" k) → ∀ s, (quiet time b s).start = s.start := by
    intro b
    induction b with
    | nil => intro _ s; rfl
    | cons k b ih =>
      intro h s
      show (quiet time b (s.take time k)).start = _
      rw [ih (fun k hk => h k (by simp [hk])), (take_eq time k s).2.2.2.1, if_neg (h k (by simp))]
  rw [keep b h4, (take_eq time l s).2.2.2.1, if_pos h1, field_eq _ h3 h2]

theorem quiet_stop (time : List Nat → ℚ) {ls : List (List Nat)} {v : List Nat} (h : Value "STOP_TIME" ls v) (s : Themis.State) :
    (quiet time ls s).stop = time v := by
  obtain ⟨a, l, b, rfl, h1, h2, h3, rfl, h4⟩ := h
  rw [quiet_append]
  generalize quiet time a s = s
  show (quiet time b (s.take time l)).stop = _
  have keep : ∀ (b : List (List Nat)), (∀ k ∈ b, ¬Says "STOP_TIME" k) → ∀ s, (quiet time b s).stop = s.stop := by
    intro b
    induction b with
    | nil => intro _ s; rfl
    | cons k b ih =>
      intro h s
      show (quiet time b (s.take time k)).stop = _
      rw [ih (fun k hk => h k (by simp [hk])), (take_eq time k s).2.2.2.2, if_neg (h k (by simp))]
  rw [keep b h4, (take_eq time l s).2.2.2.2, if_pos h1, field_eq _ h3 h2]

/-! ## The positions -/

/-- The first line of the output. -/
def ThemisHeader (start step : ℚ) (count id : Int) (c : Nat) : List Nat :=
  Time.fmtFixed 6 start ++ bytes " " ++ Time.fmtFixed 6 step ++ bytes " " ++ decInt count ++
    bytes " -1,149597870.7,86400 (500) Geocentric: NORAD " ++ decInt id ++ bytes " = 2007-004" ++ [c] ++ bytes " = THEMIS " ++ [c] ++ bytes "\n"

/-- A line of the output. -/
def themisLine (r : ℚ × List Nat) : List Nat := Time.fmtFixed 6 r.1 ++ bytes " " ++ r.2.drop 24

theorem letter_craft {id : Int} {c : Nat} (h : Spec.Oem.Craft id c) : Themis.letter id = c ∧ id ≠ 0 ∧ c ≠ 0 := by
  unfold Spec.Oem.Craft at h
  rcases h with ⟨rfl, rfl⟩ | ⟨rfl, rfl⟩ | ⟨rfl, rfl⟩ | ⟨rfl, rfl⟩ | ⟨rfl, rfl⟩ <;> decide

theorem letter_none {id : Int} (h : ∀ c, ¬Spec.Oem.Craft id c) : Themis.letter id = 0 := by
  unfold Themis.letter
  rw [if_neg, if_neg]
  · rintro ⟨h1, h2⟩
    have : id = 30580 ∨ id = 30581 ∨ id = 30582 := by omega
    rcases this with rfl | rfl | rfl
    · exact h 65 (.inl ⟨rfl, rfl⟩)
    · exact h 66 (.inr (.inl ⟨rfl, rfl⟩))
    · exact h 67 (.inr (.inr (.inl ⟨rfl, rfl⟩)))
  · rintro (rfl | rfl)
    · exact h 68 (.inr (.inr (.inr (.inl ⟨rfl, rfl⟩))))
    · exact h 69 (.inr (.inr (.inr (.inr ⟨rfl, rfl⟩))))

/-- The positions with their times, the first with number `n`. -/
def timed (start : ℚ) (n : Nat) (rs : List (List Nat)) : List (ℚ × List Nat) := (rs.zipIdx n).map fun r => (start + (r.2 : ℚ) / 1440, r.1)

theorem loop_body (time : List Nat → ℚ) (f : Int) {ls rs : List (List Nat)} (hB : Body ls rs) {c : Nat} (s : Themis.State)
    (h1 : Themis.minJd < s.start) (h2 : Themis.minJd < s.stop) (hc : Spec.Oem.Craft s.norad c) :
    ∃ s', s'.start = s.start ∧ s'.stop = s.stop ∧
      Themis.loop time f ls s = .ok ((if s.n = 0 ∧ rs ≠ [] then
        [ThemisHeader s.start ((f : ℚ) / 1440) ((trunc (s.stop - s.start) * 1440).tdiv f) s.norad c] else []) ++
        (skim f.natAbs (timed s.start s.n rs) s.n).map themisLine, s') := by
  induction hB generalizing s with
  | done => exact ⟨s, rfl, rfl, by rw [Themis.loop, if_neg (by simp)]; rfl⟩
  | other l ls rs h n1 n2 n3 t ih =>
    obtain ⟨e1, e2, e3, e4, e5⟩ := take_eq time l s
    rw [if_neg n1] at e3
    rw [if_neg n2] at e4
    rw [if_neg n3] at e5
    obtain ⟨s', i1, i2, i3⟩ := ih (s.take time l) (by rw [e4]; exact h1) (by rw [e5]; exact h2) (by rw [e3]; exact hc)
    rw [e4] at i1
    rw [e5] at i2
    refine ⟨s', i1, i2, ?_⟩
    rw [Themis.loop]
    rw [if_neg (by rw [e2, other_row h]; decide), i3, e1, e3, e4, e5]
  | row l ls rs h t ih =>
    obtain ⟨e1, e2, e3, e4, e5⟩ := take_eq time l s
    obtain ⟨n1, n2, n3⟩ := pos_says h
    rw [if_neg n1] at e3
    rw [if_neg n2] at e4
    rw [if_neg n3] at e5
    obtain ⟨s', i1, i2, i3⟩ := ih (s.take time l).next (by show _ < (s.take time l).start; rw [e4]; exact h1)
      (by show _ < (s.take time l).stop; rw [e5]; exact h2) (by show Spec.Oem.Craft (s.take time l).norad c; rw [e3]; exact hc)
    have i1' : s'.start = s.start := by rw [i1]; exact e4
    have i2' : s'.stop = s.stop := by rw [i2]; exact e5
    have en : (s.take time l).next.n = s.n + 1 := by show (s.take time l).n + 1 = _; rw [e1]
    have es : (s.take time l).next.start = s.start := e4
    refine ⟨s', i1', i2', ?_⟩
    rw [Themis.loop]
    rw [if_pos (by rw [e2, pos_row h])]
    have hh : Themis.head f (s.take time l) = .ok (if s.n = 0 ∧ l :: rs ≠ [] then
        [ThemisHeader s.start ((f : ℚ) / 1440) ((trunc (s.stop - s.start) * 1440).tdiv f) s.norad c] else []) := by
      obtain ⟨c1, c2, c3⟩ := letter_craft hc
      unfold Themis.head
      rw [e1, e3, e4, e5, c1]
      by_cases hn : s.n = 0
      · rw [if_pos hn, if_pos ⟨h1, h2, c2, c3⟩, if_pos ⟨hn, by simp⟩]
        unfold ThemisHeader
        simp [show bytes " " = [32] from rfl, show bytes "\n" = [10] from rfl]
      · rw [if_neg hn, if_neg (by tauto)]
    have hb : Themis.body f (s.take time l) = if s.n % f.natAbs = 0 then [themisLine (s.start + (s.n : ℚ) / 1440, l)] else [] := by
      unfold Themis.body
      rw [e1, e2, e4, load_drop _ h.2.2.2.2.2 h.2.2.2.2.1]
      by_cases hm : s.n % f.natAbs = 0
      · rw [if_pos ((mod_iff s.n f).2 hm), if_pos hm]
        unfold themisLine
        simp [show bytes " " = [32] from rfl]
      · rw [if_neg (fun e => hm ((mod_iff s.n f).1 e)), if_neg hm]
    rw [hh]
    simp only [Run.bind]
    rw [i3, hb, en, es]
    simp only
    have hcons : timed s.start s.n (l :: rs) = (s.start + (s.n : ℚ) / 1440, l) :: timed s.start (s.n + 1) rs := by
      unfold timed
      rw [List.zipIdx_cons, List.map_cons]
    rw [hcons, skim, if_neg (c := s.n + 1 = 0 ∧ rs ≠ []) (fun h => by omega), List.nil_append, List.append_assoc]
    congr 3
    split_ifs <;> simp

/-- C113: the output has a header with the first time, the step, a number and the satellite; then the positions 0, f, 2f, ...,
    each with its time, the positions being a minute apart; then the first and last date. -/
theorem C113_table (time : List Nat → ℚ) (ctime : ℚ → List Nat) (junk : List Nat) {f : Nat} (hf : 0 < f) {pre ls rs : List (List Nat)}
    (hp : ∀ l ∈ pre, OtherLine l) (hB : Body ls rs) {a b id : List Nat} (ha : Value "START_TIM" pre a) (hb : Value "STOP_TIME" pre b)
    (hi : Value "OBJECT_ID" pre id) {c : Nat} (hc : Spec.Oem.Craft (atoi id) c) (h1 : 2454101 + 1 / 2 < time a) (h2 : 2454101 + 1 / 2 < time b) (hne : rs ≠ []) :
    Themis.convert time ctime junk f (pre ++ ls) =
      .ok (ThemisHeader (time a) ((f : ℚ) / 1440) ((trunc (time b - time a) * 1440).tdiv f) (atoi id) c ::
        (everyNth f (minutes (time a) rs)).map themisLine ++
        [bytes "\nCreated from 'themis.cpp' (q.v.)\n", bytes "Ephemeris start: " ++ ctime (time a) ++ bytes "\n",
         bytes "Ephemeris end:   " ++ ctime (time b) ++ bytes "\n"]) := by
  unfold Themis.convert
  rw [loop_quiet time f hp]
  have q1 := quiet_start time ha { start := 0, stop := 0, norad := 0, n := 0, buf := junk }
  have q2 := quiet_stop time hb { start := 0, stop := 0, norad := 0, n := 0, buf := junk }
  have q3 := quiet_norad time hi { start := 0, stop := 0, norad := 0, n := 0, buf := junk }
  have q4 := quiet_n time pre { start := 0, stop := 0, norad := 0, n := 0, buf := junk }
  generalize quiet time pre { start := 0, stop := 0, norad := 0, n := 0, buf := junk } = s at *
  obtain ⟨s', i1, i2, i3⟩ := loop_body time f hB (c := c) s (by rw [q1]; exact h1) (by rw [q2]; exact h2) (by rw [q3]; exact hc)
  rw [i3]
  simp only [Run.bind]
  unfold Themis.trailer
  rw [i1, i2, q1, q2, if_pos ⟨h1, h2⟩]
  simp only
  rw [q4, q3, if_pos ⟨rfl, hne⟩, skim_every _ (by omega) _ 0 0 (by omega) (by simp), List.drop_zero]
  simp [show bytes "\n" = [10] from rfl, timed, minutes]

/-- The j-th line written is the position j f of the file, j f minutes after the first. -/
theorem C113_times {f : Nat} (hf : 0 < f) (start : ℚ) (rs : List (List Nat)) (j : Nat) :
    (everyNth f (minutes start rs))[j]? = (rs[j * f]?).map fun l => (start + j * ((f : ℚ) / 1440), l) := by
  rw [every_get f hf]
  unfold minutes
  rw [List.getElem?_map, List.getElem?_zipIdx]
  cases rs[j * f]? with
  | none => rfl
  | some l =>
    simp only [Option.map_some]
    congr 2
    push_cast
    ring

/-- Finding: if the file has a position for each minute from the first to the last time, `d` days and `m` minutes later, the
    header's number is that of `d` whole days; the lines are `m / f + 1` more. -/
theorem C113_count {f d m : Nat} (hf : f ∣ 1440) (hm : m < 1440) {start stop : ℚ} (hs : stop - start = d + (m : ℚ) / 1440)
    {rs : List (List Nat)} (hr : rs.length = 1440 * d + m + 1) :
    (((everyNth f (minutes start rs)).length : Nat) : Int) = (trunc (stop - start) * 1440).tdiv f + (m / f : Nat) + 1 := by
  have hf0 : 0 < f := Nat.pos_of_dvd_of_pos hf (by decide)
  have ht : trunc (stop - start) = d := by
    unfold trunc
    have hm' : (m : ℚ) / 1440 < 1 := by
      rw [div_lt_one (by norm_num)]
      exact_mod_cast hm
    have hp : (0 : ℚ) ≤ (m : ℚ) / 1440 := by positivity
    have hd : (0 : ℚ) ≤ d := by positivity
    rw [hs, if_neg (by linarith), Int.floor_eq_iff]
    push_cast
    constructor <;> linarith
  obtain ⟨g, hg⟩ := hf
  rw [every_length f hf0, ht]
  have hl : (minutes start rs).length = rs.length := by unfold minutes; simp
  rw [hl, hr, hg, show f * g * d + m + 1 + f - 1 = m + f * (g * d + 1) by ring_nf; omega, Nat.add_mul_div_left _ _ hf0]
  have e : ((d : Int) * 1440).tdiv f = (g * d : Nat) := by
    rw [show ((d : Int) * 1440) = (f : Int) * (g * d : Nat) by
      rw [show (1440 : Int) = ((1440 : Nat) : Int) from rfl, hg]; push_cast; ring]
    exact Int.mul_tdiv_cancel_left _ (by omega)
  rw [e]
  push_cast
  ring

/-- Finding: a line of fewer than four bytes after a position, such as an empty one, counts as another position, a minute
    later, and the text of the position before it is written again. -/
theorem C113_empty_line (time : List Nat → ℚ) {l k : List Nat} (hl : PosLine l) (hk : k.length < 4) (s : Themis.State) (hn : s.n ≠ 0) :
    ∃ s', s'.n = s.n + 2 ∧
    Themis.loop time 1 [l, k] s = .ok ([themisLine (s.start + (s.n : ℚ) / 1440, l), themisLine (s.start + ((s.n + 1 : Nat) : ℚ) / 1440, l)], s') := by
  obtain ⟨e1, e2, e3, e4, e5⟩ := take_eq time l s
  obtain ⟨n1, n2, n3⟩ := pos_says hl
  rw [if_neg n2] at e4
  have ks : ∀ p : String, (bytes p).length = 9 → ¬Says p k := by
    intro p hp e
    unfold Says at e
    have := congrArg List.length e
    rw [hp, List.length_take] at this
    omega
  obtain ⟨f1, f2, f3, f4, f5⟩ := take_eq time k (s.take time l).next
  rw [if_neg (ks _ (by decide))] at f4
  have g1 : (s.take time l).next.n = s.n + 1 := by show (s.take time l).n + 1 = _; rw [e1]
  have g2 : (s.take time l).next.start = s.start := e4
  have g3 : (s.take time l).next.buf = load s.buf l := e2
  rw [g1] at f1
  rw [g2] at f4
  rw [g3] at f2
  have hrow : Themis.isRow (load (load s.buf l) k) = true := by
    have := pos_row hl s.buf
    unfold Themis.isRow at this ⊢
    rw [load_far _ k 4 (by omega), load_far _ k 7 (by omega), load_far _ k 10 (by omega), load_far _ k 13 (by omega)]
    exact this
  have hdrop : (load (load s.buf l) k).drop 24 = (load s.buf l).drop 24 := by
    conv_lhs => unfold load
    rw [List.drop_append, List.drop_eq_nil_of_le (by omega), List.nil_append, show 24 - k.length = (23 - k.length) + 1 by omega, List.drop_succ_cons,
      List.drop_drop]
    unfold load
    congr 1
    omega
  have hb : ∀ (t : Themis.State), Themis.body 1 t = [Time.fmtFixed 6 (t.start + (t.n : ℚ) / 1440) ++ 32 :: Multipart.cstr (t.buf.drop 24)] := by
    intro t
    unfold Themis.body
    rw [if_pos (Int.tmod_one _)]
  refine ⟨((s.take time l).next.take time k).next, ?_, ?_⟩
  · show ((s.take time l).next.take time k).n + 1 = _
    rw [f1]
  · rw [Themis.loop]
    rw [if_pos (by rw [e2, pos_row hl]), show Themis.head 1 (s.take time l) = .ok [] by unfold Themis.head; rw [if_neg (by rw [e1]; exact hn)]]
    simp only [Run.bind]
    rw [Themis.loop]
    rw [if_pos (by rw [f2, hrow]), show Themis.head 1 ((s.take time l).next.take time k) = .ok [] by unfold Themis.head; rw [if_neg (by rw [f1]; omega)]]
    simp only [Run.bind]
    rw [Themis.loop, hb, hb, e1, e2, e4, f1, f2, f4, hdrop, load_drop _ hl.2.2.2.2.2 hl.2.2.2.2.1]
    unfold themisLine
    simp [show bytes " " = [32] from rfl]

/-- A file of another satellite, or without the number, fails the assertion if it has a position. -/
theorem C113_other_craft (time : List Nat → ℚ) (ctime : ℚ → List Nat) (junk : List Nat) (f : Int) {pre rest : List (List Nat)} {l id : List Nat}
    (hp : ∀ l ∈ pre, OtherLine l) (hl : PosLine l) (hi : Value "OBJECT_ID" pre id) (hc : ∀ c, ¬Spec.Oem.Craft (atoi id) c) :
    Themis.convert time ctime junk f (pre ++ l :: rest) = .abort := by
  unfold Themis.convert
  rw [loop_quiet time f hp]
  have q3 := quiet_norad time hi { start := 0, stop := 0, norad := 0, n := 0, buf := junk }
  have q4 := quiet_n time pre { start := 0, stop := 0, norad := 0, n := 0, buf := junk }
  generalize quiet time pre { start := 0, stop := 0, norad := 0, n := 0, buf := junk } = s at *
  obtain ⟨e1, e2, e3, -, -⟩ := take_eq time l s
  rw [if_neg (pos_says hl).1] at e3
  rw [Themis.loop]
  rw [if_pos (by rw [e2, pos_row hl])]
  have : Themis.head f (s.take time l) = .abort := by
    unfold Themis.head
    rw [if_pos (by rw [e1, q4]), if_neg]
    rintro ⟨-, -, -, h⟩
    exact h (by rw [e3, q3, letter_none hc])
  rw [this]
  rfl

/-! ## Arguments -/

/-- Without options every 144th position is written to the standard output; `-f` and `-o` take the next argument or the rest of their own. -/
theorem C113_options (opens : List Nat → Bool) (t : List Nat) (ht : t ≠ []) (ht' : t.head? ≠ some 45) (f : Int) (o : Option (List Nat)) :
    Themis.options opens [] f o = .ok (f, o) ∧
    Themis.options opens [bytes "-f", t] f o = (if atoi t = 0 ∨ (1440 : Int).tmod (atoi t) ≠ 0 then .exit else .ok (atoi t, o)) ∧
    Themis.options opens [bytes "-f" ++ t] f o = (if atoi t = 0 ∨ (1440 : Int).tmod (atoi t) ≠ 0 then .exit else .ok (atoi t, o)) ∧
    Themis.options opens [bytes "-o", t] f o = (if opens t then .ok (f, some t) else .exit) ∧
    Themis.options opens [bytes "-o" ++ t] f o = (if opens t then .ok (f, some t) else .exit) := by
  have h2 : at? t 0 ≠ 45 := by cases t with
    | nil => decide
    | cons x a => simpa [at?] using ht'
  refine ⟨rfl, ?_, ?_, ?_, ?_⟩
  · rw [Themis.options, if_pos (by decide), show getArg (bytes "-f") [t] = .ok t from rfl]
    simp only [Run.bind]
    rw [if_pos (by decide), Themis.options, if_neg h2]
    rfl
  · rw [Themis.options, if_pos (by rfl), show getArg (bytes "-f" ++ t) [] = .ok t from by simp [getArg, bytes]]
    simp only [Run.bind]
    rw [if_pos (by rfl)]
    rfl
  · rw [Themis.options, if_pos (by decide), show getArg (bytes "-o") [t] = .ok t from rfl]
    simp only [Run.bind]
    rw [if_neg (by decide), if_pos (by decide), Themis.options, if_neg h2]
    rfl
  · rw [Themis.options, if_pos (by rfl), show getArg (bytes "-o" ++ t) [] = .ok t from by simp [getArg, bytes]]
    simp only [Run.bind]
    rw [show at? (bytes "-o" ++ t) 1 = 111 from rfl, if_neg (by decide), if_pos rfl]
    rfl

/-- The options with others after them. -/
theorem C113_more (opens : List Nat → Bool) (t : List Nat) (ht : t ≠ []) (rest : List (List Nat)) (f : Int) (o : Option (List Nat)) :
    Themis.options opens (bytes "-f" :: t :: rest) f o =
      (if atoi t = 0 ∨ (1440 : Int).tmod (atoi t) ≠ 0 then .exit else Themis.options opens (t :: rest) (atoi t) o) ∧
    Themis.options opens ((bytes "-f" ++ t) :: rest) f o =
      (if atoi t = 0 ∨ (1440 : Int).tmod (atoi t) ≠ 0 then .exit else Themis.options opens rest (atoi t) o) ∧
    Themis.options opens (bytes "-o" :: t :: rest) f o = (if opens t then Themis.options opens (t :: rest) f (some t) else .exit) ∧
    Themis.options opens ((bytes "-o" ++ t) :: rest) f o = (if opens t then Themis.options opens rest f (some t) else .exit) := by
  have hl : 0 < t.length := List.length_pos_iff.2 ht
  have hg : ∀ a b, getArg ([a, b] ++ t) rest = .ok t := by
    intro a b
    unfold getArg
    rw [if_neg (by simp)]
    cases rest with
    | nil => rfl
    | cons c rest =>
      simp only
      rw [if_pos (by rw [List.length_append, show [a, b].length = 2 from rfl]; omega)]
      rfl
  refine ⟨?_, ?_, ?_, ?_⟩
  · rw [Themis.options, if_pos (by decide), show getArg (bytes "-f") (t :: rest) = .ok t from rfl]
    simp only [Run.bind]
    rw [if_pos (by decide)]
  · rw [Themis.options, if_pos (by rfl), show bytes "-f" ++ t = [45, 102] ++ t from rfl, hg]
    simp only [Run.bind]
    rw [if_pos (by rfl)]
  · rw [Themis.options, if_pos (by decide), show getArg (bytes "-o") (t :: rest) = .ok t from rfl]
    simp only [Run.bind]
    rw [if_neg (by decide), if_pos (by decide)]
  · rw [Themis.options, if_pos (by rfl), show bytes "-o" ++ t = [45, 111] ++ t from rfl, hg]
    simp only [Run.bind]
    rw [show at? ([45, 111] ++ t) 1 = 111 from rfl, if_neg (by decide), if_pos rfl]

/-- The program without options. -/
theorem C113_default (opens : List Nat → Bool) (time : List Nat → ℚ) (ctime : ℚ → List Nat) (junk : List Nat) (lines : List (List Nat)) :
    Themis.main opens time ctime junk [] lines = (Themis.convert time ctime junk 144 lines).bind fun t => .ok (none, t) := rfl

/-! ## Example -/

def themisPre : List (List Nat) :=
  [bytes "OBJECT_NAME          = THEMIS_D\n", bytes "OBJECT_ID            = 30797\n", bytes "START_TIME           = 2019-02-10T00:00:00.000\n",
   bytes "STOP_TIME            = 2019-02-10T00:01:00.000\n", bytes "META_STOP\n"]

def themisBody : List (List Nat) :=
  [bytes "2019-02-10T00:00:00.000 1 2 3 4 5 6\n", bytes "COMMENT none\n", bytes "2019-02-10T00:01:00.000 2 3 4 5 6 7\n"]

example : Body themisBody [bytes "2019-02-10T00:00:00.000 1 2 3 4 5 6\n", bytes "2019-02-10T00:01:00.000 2 3 4 5 6 7\n"] := by
  refine .row _ _ _ (by unfold PosLine; decide) (.other _ _ _ (by unfold OtherLine; decide) (by unfold Says; decide) (by unfold Says; decide)
    (by unfold Says; decide) (.row _ _ _ (by unfold PosLine; decide) .done))

example : (∀ l ∈ themisPre, OtherLine l) ∧ Value "OBJECT_ID" themisPre (bytes "30797\n") ∧ Spec.Oem.Craft (atoi (bytes "30797\n")) 68 := by
  refine ⟨?_, ⟨[_], _, _, rfl, by unfold Says; decide, by decide, by decide, by decide, by unfold Says; decide⟩, ?_⟩
  · unfold OtherLine themisPre; decide
  · unfold Spec.Oem.Craft; decide

example : Value "START_TIM" themisPre (bytes "2019-02-10T00:00:00.000\n") ∧ Value "STOP_TIME" themisPre (bytes "2019-02-10T00:01:00.000\n") :=
  ⟨⟨[_, _], _, _, rfl, by unfold Says; decide, by decide, by decide, by decide, by unfold Says; decide⟩,
   ⟨[_, _, _], _, _, rfl, by unfold Says; decide, by decide, by decide, by decide, by unfold Says; decide⟩⟩

/-- `C113_count`: a day and a half, every 144th minute: 16 lines, where the header says 10. -/
example : (36 * 60 + 144 : Nat) / 144 = 16 ∧ (1440 : Int).tdiv 144 = 10 := by decide

end Verif.Props
