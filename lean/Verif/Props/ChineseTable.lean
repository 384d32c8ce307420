import Verif.Props.ChinesePack
import Mathlib.Tactic.SplitIfs
import Mathlib.Data.Nat.Bitwise

/-!
# C108: the table of Chinese years

What the table has for a year, and what the reader makes of it.
-/

namespace Verif.Props

open Verif Verif.Date Verif.Spec Verif.Spec.Lunisolar Verif.ChinesePack

/-! ## A month's effect on the entry of a year -/

theorem set_other (s : Static) {y z : Int} (h : y ≠ z) (f) : (s.set y f).data (z - s.year0) = s.data (z - s.year0) := by
  unfold Static.set
  split_ifs
  · dsimp only
    rw [if_neg (by omega)]
  · rfl

theorem set_same (s : Static) {y : Int} (h : s.year0 ≤ y ∧ y < s.year0 + s.n) (f) : (s.set y f).data (y - s.year0) = f (s.data (y - s.year0)) := by
  unfold Static.set
  rw [if_pos ⟨h.1, h.2⟩]
  dsimp only
  rw [if_pos rfl]

/-- The entry of a year. -/
def entry (s : Static) (y : Int) : Year := s.data (y - s.year0)

/-- The years in the table. -/
def HasYear (s : Static) (y : Int) : Prop := s.year0 ≤ y ∧ y < s.year0 + s.n

theorem entry_set_other (s : Static) {y z : Int} (h : y ≠ z) (f) : entry (s.set y f) z = entry s z := by
  unfold entry; rw [set_year0]; exact set_other s h f

theorem entry_set_same (s : Static) {y : Int} (h : HasYear s y) (f) : entry (s.set y f) y = f (entry s y) := by
  unfold entry; rw [set_year0]; exact set_same s h f

theorem hasYear_account {s : Static} {y : Int} (h : HasYear s y) (m : Month) : HasYear (account s m) y := by
  unfold HasYear; rw [(account_fixed s m).1, (account_fixed s m).2]; exact h

theorem entry_bit_other (s : Static) {y z : Int} (h : y ≠ z) (d : Int) : entry (s.bit d y) z = entry s z := by
  unfold Static.bit
  dsimp only
  split_ifs
  · exact entry_set_other s h _
  · rfl

theorem entry_bit_same (s : Static) {y : Int} (h : HasYear s y) (d : Int) :
    entry (s.bit d y) y = { entry s y with mask := if d - s.prevJd = 30 then (entry s y).mask ||| s.bitmask else (entry s y).mask } := by
  unfold Static.bit
  dsimp only
  split_ifs
  · exact entry_set_same s h _
  · rfl

theorem bit_bitmask (s : Static) (d y : Int) : (s.bit d y).bitmask = s.bitmask * 2 % 65536 := by
  unfold Static.bit
  dsimp only
  split_ifs <;> simp

theorem hasYear_bit {s : Static} {y : Int} (h : HasYear s y) (d z : Int) : HasYear (s.bit d z) y := by
  unfold HasYear Static.bit at *
  dsimp only
  split_ifs <;> simpa using h

theorem entry_begin_other (s : Static) {y z : Int} (h : y ≠ z) (d : Int) : entry (s.begin d y) z = entry s z := by
  unfold Static.begin
  exact entry_set_other _ h _

theorem entry_begin_same (s : Static) {y : Int} (h : HasYear s y) (d : Int) :
    entry (s.begin d y) y = { entry s y with offset := ((d - (y * 365 + y.tdiv 4 + 757861)) % 256).toNat } := by
  unfold Static.begin
  exact entry_set_same { s with bitmask := 1 } h _

theorem hasYear_begin {s : Static} {y : Int} (h : HasYear s y) (d z : Int) : HasYear (s.begin d z) y := by
  unfold HasYear Static.begin at *
  simpa using h

/-- Months of earlier years leave the mask and the leap month alone. -/
theorem account_before (s : Static) {m : Month} {y : Int} (hm : m.year < y) :
    (entry (account s m) y).mask = (entry s y).mask ∧ (entry (account s m) y).inter = (entry s y).inter := by
  unfold account Static.keep
  have hb : ∀ (t : Static) (z : Int), (entry (t.begin m.day z) y).mask = (entry t y).mask ∧ (entry (t.begin m.day z) y).inter = (entry t y).inter := by
    intro t z
    by_cases h : z = y
    · subst h
      unfold Static.begin Static.set entry
      split_ifs <;> simp
    · rw [entry_begin_other _ h]
      exact ⟨rfl, rfl⟩
  have h1 : ∀ z, z < y → entry (s.bit m.day z) y = entry s y := fun z hz => entry_bit_other s (by omega) _
  have hz : (if m.leap = false ∧ m.number = 1 then m.year - 1 else m.year) < y := by split_ifs <;> omega
  have h2 := h1 _ hz
  generalize s.bit m.day (if m.leap = false ∧ m.number = 1 then m.year - 1 else m.year) = t at h2
  generalize (if m.leap = true then m.year + 1 else m.year) = fy
  have h3 : ∀ t : Static, entry (t.leap m.year m.number) y = entry t y := fun t => entry_set_other t (by omega) _
  have h4 : (entry (if Begins m then t.begin m.day fy else t) y).mask = (entry s y).mask ∧
      (entry (if Begins m then t.begin m.day fy else t) y).inter = (entry s y).inter := by
    rw [← h2]
    split_ifs
    · exact hb _ _
    · exact ⟨rfl, rfl⟩
  dsimp only
  generalize (if Begins m then t.begin m.day fy else t) = u at h4 ⊢
  change (entry (if m.leap = true then u.leap m.year m.number else u) y).mask = _ ∧ (entry (if m.leap = true then u.leap m.year m.number else u) y).inter = _
  split_ifs
  · rw [h3]; exact h4
  · exact h4

/-- Months after the first of the next year leave it alone altogether. -/
theorem account_after (s : Static) {m : Month} {y : Int} (hm : y < m.year) (hf : ¬ (m.year = y + 1 ∧ m.leap = false ∧ m.number = 1)) :
    entry (account s m) y = entry s y := by
  unfold account Static.keep
  have h1 : entry (s.bit m.day (if m.leap = false ∧ m.number = 1 then m.year - 1 else m.year)) y = entry s y := by
    apply entry_bit_other
    split_ifs with h
    · intro e; exact hf ⟨by omega, h⟩
    · omega
  have hb : ∀ (t : Static) (z : Int), y < z → entry (t.begin m.day z) y = entry t y := fun t z hz => entry_begin_other t (by omega) _
  have h3 : ∀ t : Static, entry (t.leap m.year m.number) y = entry t y := fun t => entry_set_other t (by omega) _
  have hz : y < (if m.leap = true then m.year + 1 else m.year) := by split_ifs <;> omega
  generalize s.bit m.day (if m.leap = false ∧ m.number = 1 then m.year - 1 else m.year) = t at h1
  generalize (if m.leap = true then m.year + 1 else m.year) = fy at hz
  have h4 : entry (if Begins m then t.begin m.day fy else t) y = entry s y := by
    rw [← h1]
    split_ifs
    · exact hb _ _ hz
    · rfl
  dsimp only
  generalize (if Begins m then t.begin m.day fy else t) = u at h4 ⊢
  change entry (if m.leap = true then u.leap m.year m.number else u) y = _
  split_ifs
  · rw [h3]; exact h4
  · exact h4

/-- The first month of a year. -/
theorem account_first {s : Static} {y : Int} (hy : HasYear s y) {m : Month} (h1 : m.year = y) (h2 : m.leap = false) (h3 : m.number = 1) :
    entry (account s m) y = { entry s y with offset := ((m.day - (y * 365 + y.tdiv 4 + 757861)) % 256).toNat } ∧
    (account s m).bitmask = 1 ∧ (account s m).prevJd = m.day := by
  have hbg : Begins m := Or.inl ⟨h2, h3⟩
  unfold account Static.keep
  dsimp only
  simp only [h2, h3, hbg, if_true, and_self, Bool.false_eq_true, if_false, h1]
  refine ⟨?_, ?_, trivial⟩
  · change entry ((s.bit m.day (y - 1)).begin m.day y) y = _
    rw [entry_begin_same _ (hasYear_bit hy _ _), entry_bit_other _ (by omega)]
  · simp [Static.begin]

/-- The first month of the next year. -/
theorem account_next {s : Static} {y : Int} (hy : HasYear s y) {m : Month} (h1 : m.year = y + 1) (h2 : m.leap = false) (h3 : m.number = 1) :
    entry (account s m) y = { entry s y with mask := if m.day - s.prevJd = 30 then (entry s y).mask ||| s.bitmask else (entry s y).mask } := by
  have hbg : Begins m := Or.inl ⟨h2, h3⟩
  unfold account Static.keep
  dsimp only
  simp only [h2, h3, hbg, if_true, and_self, Bool.false_eq_true, if_false, h1]
  change entry ((s.bit m.day (y + 1 - 1)).begin m.day (y + 1)) y = _
  rw [entry_begin_other _ (by omega), show y + 1 - 1 = y by omega, entry_bit_same s hy]

/-- Another month of the year. -/
theorem account_within {s : Static} {y : Int} (hy : HasYear s y) {m : Month} (h1 : m.year = y) (h2 : ¬ Begins m) (h3 : m.number < 256) :
    entry (account s m) y = { entry s y with
      mask := if m.day - s.prevJd = 30 then (entry s y).mask ||| s.bitmask else (entry s y).mask
      inter := if m.leap = true then m.number else (entry s y).inter } ∧
    (account s m).bitmask = s.bitmask * 2 % 65536 ∧ (account s m).prevJd = m.day := by
  have h4 : ¬ (m.leap = false ∧ m.number = 1) := fun h => h2 (Or.inl h)
  unfold account Static.keep
  dsimp only
  rw [if_neg h4, if_neg h2, h1]
  refine ⟨?_, ?_, rfl⟩
  · cases hl : m.leap with
    | false =>
      simp only [Bool.false_eq_true, if_false]
      change entry (s.bit m.day y) y = _
      rw [entry_bit_same s hy]
    | true =>
      simp only [if_true]
      change entry ((s.bit m.day y).leap y m.number) y = _
      unfold Static.leap
      rw [entry_set_same _ (hasYear_bit hy _ _), entry_bit_same s hy, Nat.mod_eq_of_lt h3]
  · split_ifs
    · unfold Static.leap
      rw [set_bitmask, bit_bitmask]
    · rw [bit_bitmask]

/-! ## A year's months -/

/-- The days since the day before for each of some months. -/
def steps (day : Int) : List Month → List Int
  | [] => []
  | m :: ms => (m.day - day) :: steps m.day ms

theorem steps_length : ∀ (ms : List Month) (d : Int), (steps d ms).length = ms.length
  | [], _ => rfl
  | m :: ms, _ => by simp [steps, steps_length ms]

theorem steps_lengths (next : Month) : ∀ (ms : List Month) (m : Month), steps m.day (ms ++ [next]) = lengths next.day (m :: ms)
  | [], m => rfl
  | x :: ms, m => by
    rw [List.cons_append, steps, lengths, steps_lengths next ms x]

/-- The bits are those of the months with thirty days. -/
def Bits (mask : Nat) (ls : List Int) : Prop := ∀ i, mask.testBit i = decide (ls[i]? = some 30)

theorem bits_step {mask : Nat} {ls : List Int} (h : Bits mask ls) (x : Int) : Bits (if x = 30 then mask ||| 2 ^ ls.length else mask) (ls ++ [x]) := by
  intro i
  have hi := h i
  rcases Nat.lt_trichotomy i ls.length with c | c | c
  · rw [List.getElem?_append_left c, ← hi]
    split_ifs
    · rw [Nat.testBit_or, Nat.testBit_two_pow_of_ne (by omega), Bool.or_false]
    · rfl
  · subst c
    have : mask.testBit ls.length = false := by rw [hi]; simp
    rw [List.getElem?_append_right (by omega)]
    simp
    split_ifs with hx
    · simp [hx]
    · simp [hx, this]
  · rw [List.getElem?_eq_none (by simp; omega)]
    have : mask.testBit i = false := by rw [hi, List.getElem?_eq_none (by omega)]; rfl
    simp
    split_ifs
    · rw [Nat.testBit_or, this, Nat.testBit_two_pow_of_ne (by omega)]; rfl
    · exact this

/-- The leap month's number after some months. -/
def leapAfter (n : Nat) (ms : List Month) : Nat := ms.foldl (fun n m => if m.leap = true then m.number else n) n

theorem accounts_within {y : Int} : ∀ (ms : List Month), (∀ m ∈ ms, m.year = y ∧ ¬ Begins m ∧ m.number < 256) → ∀ (s : Static) (ls : List Int),
    HasYear s y → Bits (entry s y).mask ls → s.bitmask = 2 ^ ls.length → ls.length + ms.length ≤ 15 →
    HasYear (ms.foldl account s) y ∧ Bits (entry (ms.foldl account s) y).mask (ls ++ steps s.prevJd ms) ∧
    (ms.foldl account s).bitmask = 2 ^ (ls.length + ms.length) ∧
    (entry (ms.foldl account s) y).inter = leapAfter (entry s y).inter ms ∧ (entry (ms.foldl account s) y).offset = (entry s y).offset ∧
    (ms.foldl account s).prevJd = (ms.getLast?.map Month.day).getD s.prevJd
  | [], _ => by
    intro s ls hy hb hm _
    exact ⟨hy, by simpa [steps] using hb, by simpa using hm, rfl, rfl, rfl⟩
  | m :: ms, h => by
    intro s ls hy hb hm hl
    rw [List.length_cons] at hl
    obtain ⟨m1, m2, m3⟩ := h m (by simp)
    obtain ⟨e1, e2, e3⟩ := account_within hy m1 m2 m3
    have hb' : Bits (entry (account s m) y).mask (ls ++ [m.day - s.prevJd]) := by
      rw [e1, hm]
      exact bits_step hb _
    have hlen : 2 ^ ls.length * 2 % 65536 = 2 ^ (ls.length + 1) := by
      rw [← Nat.pow_succ]
      apply Nat.mod_eq_of_lt
      calc 2 ^ (ls.length + 1) ≤ 2 ^ 15 := Nat.pow_le_pow_right (by decide) (by omega)
        _ < 65536 := by decide
    obtain ⟨r1, r2, r3, r4, r5, r6⟩ := accounts_within ms (fun x hx => h x (by simp [hx])) (account s m) (ls ++ [m.day - s.prevJd])
      (hasYear_account hy m) hb' (by rw [e2, hm, hlen]; simp) (by simp; omega)
    rw [List.foldl_cons]
    refine ⟨r1, ?_, ?_, ?_, ?_, ?_⟩
    · rw [e3] at r2
      simpa [steps] using r2
    · rw [r3]; simp; omega
    · rw [r4, e1]; rfl
    · rw [r5, e1]
    · rw [r6, e3]
      cases ms with
      | nil => rfl
      | cons x xs =>
        rw [List.getLast?_cons_cons]
        cases hh : (x :: xs).getLast? with
        | none => simp at hh
        | some _ => rfl

theorem accounts_before {y : Int} : ∀ (ms : List Month), (∀ m ∈ ms, m.year < y) → ∀ (s : Static),
    (entry (ms.foldl account s) y).mask = (entry s y).mask ∧ (entry (ms.foldl account s) y).inter = (entry s y).inter
  | [], _ => fun _ => ⟨rfl, rfl⟩
  | m :: ms, h => fun s => by
    have h1 := accounts_before ms (fun x hx => h x (by simp [hx])) (account s m)
    have h2 := account_before s (h m (by simp))
    exact ⟨h1.1.trans h2.1, h1.2.trans h2.2⟩

theorem accounts_after {y : Int} : ∀ (ms : List Month), (∀ m ∈ ms, y < m.year ∧ ¬ (m.year = y + 1 ∧ m.leap = false ∧ m.number = 1)) →
    ∀ (s : Static), entry (ms.foldl account s) y = entry s y
  | [], _ => fun _ => rfl
  | m :: ms, h => fun s => by
    have h1 := accounts_after ms (fun x hx => h x (by simp [hx])) (account s m)
    have h2 := account_after s (h m (by simp)).1 (h m (by simp)).2
    exact h1.trans h2

/-- All that is entered for a year. -/
theorem year_entry {s : Static} {y : Int} (hy : HasYear s y) (h0 : (entry s y).mask = 0 ∧ (entry s y).inter = 0) {pre ms post : List Month} {f next : Month}
    (hpre : ∀ m ∈ pre, m.year < y) (hf : f.year = y ∧ f.leap = false ∧ f.number = 1)
    (hms : ∀ m ∈ ms, m.year = y ∧ ¬ Begins m ∧ m.number < 256) (hlen : ms.length ≤ 12) (hn : next.year = y + 1 ∧ next.leap = false ∧ next.number = 1)
    (hpost : ∀ m ∈ post, y < m.year ∧ ¬ (m.year = y + 1 ∧ m.leap = false ∧ m.number = 1)) :
    let e := entry ((pre ++ f :: (ms ++ next :: post)).foldl account s) y
    Bits e.mask (lengths next.day (f :: ms)) ∧ e.inter = leapAfter 0 ms ∧ e.offset = ((f.day - (y * 365 + y.tdiv 4 + 757861)) % 256).toNat := by
  intro e
  have p1 := accounts_before pre hpre s
  set s1 := pre.foldl account s with hs1
  have hy1 : HasYear s1 y := by unfold HasYear; rw [hs1, (accounts_fixed _ _).1, (accounts_fixed _ _).2]; exact hy
  obtain ⟨f1, f2, f3⟩ := account_first hy1 hf.1 hf.2.1 hf.2.2
  have hb : Bits (entry (account s1 f) y).mask [] := by
    rw [f1]
    intro i
    change (entry s1 y).mask.testBit i = _
    rw [p1.1, h0.1]
    simp
  obtain ⟨w1, w2, w3, w4, w5, w6⟩ := accounts_within ms hms (account s1 f) [] (hasYear_account hy1 f) hb (by rw [f2]; rfl) (by simp; omega)
  set s2 := ms.foldl account (account s1 f) with hs2
  have n1 := account_next w1 hn.1 hn.2.1 hn.2.2
  have he : e = entry (account s2 next) y := by
    change entry ((pre ++ f :: (ms ++ next :: post)).foldl account s) y = _
    rw [List.foldl_append, ← hs1, List.foldl_cons, List.foldl_append, ← hs2, List.foldl_cons]
    exact accounts_after post hpost _
  have hlast : ∀ (ms : List Month) (d : Int), steps d (ms ++ [next]) = steps d ms ++ [next.day - (ms.getLast?.map Month.day).getD d] := by
    intro ms
    induction ms with
    | nil => intro d; rfl
    | cons m ms ih =>
      intro d
      rw [List.cons_append, steps, steps, ih, List.cons_append]
      cases ms with
      | nil => rfl
      | cons x xs =>
        rw [List.getLast?_cons_cons]
        cases hh : (x :: xs).getLast? with
        | none => simp at hh
        | some _ => rfl
  refine ⟨?_, ?_, ?_⟩
  · rw [he, n1, ← steps_lengths, hlast, w6, w3, f3]
    rw [List.nil_append, f3] at w2
    have := bits_step w2 (next.day - (ms.getLast?.map Month.day).getD f.day)
    rw [steps_length] at this
    simpa using this
  · rw [he, n1]
    change (entry s2 y).inter = _
    rw [w4, f1]
    change leapAfter (entry s1 y).inter ms = _
    rw [p1.2, h0.2]
  · rw [he, n1]
    change (entry s2 y).offset = _
    rw [w5, f1]

end Verif.Props
