import Verif.Props.ChineseTable
import Mathlib.Tactic.SplitIfs

/-!
# C108: the table of Chinese years

The years, from their suis, and the reader's result.
-/

namespace Verif.Props

open Verif Verif.Date Verif.Spec Verif.Spec.Lunisolar Verif.ChinesePack

/-! ## The shape of a sui -/

/-- Months one after the other, none of them a leap month. -/
def Runs (year : Int) : Nat → List Month → Prop
  | _, [] => True
  | k, m :: l => (∃ d, m = nth year (k + 1) false d) ∧ Runs year (k + 1) l

theorem months_runs {thirteen seen : Bool} (h : seen = true ∨ thirteen = false) (year : Int) : ∀ (es : List Event) (k : Nat),
    Runs year k (months thirteen year k seen es) ∧ (months thirteen year k seen es).length = moonsIn es
  | [], _ => ⟨trivial, rfl⟩
  | .term :: es, k => by
    rw [months, moonsIn_term]
    exact months_runs h year es k
  | .moon d :: es, k => by
    have := months_runs h year es (k + 1)
    rw [months, if_neg (by rcases h with h | h <;> simp [h]), moonsIn_moon]
    exact ⟨⟨⟨d, rfl⟩, this.1⟩, by simp [this.2]⟩

theorem months_pair (year : Int) : ∀ (es : List Event) (k : Nat), Pair es → ∃ (a : List Month) (d : Int) (b : List Month),
    months true year k false es = a ++ nth year (k + a.length) true d :: b ∧ Runs year k a ∧ Runs year (k + a.length) b ∧ a.length + 1 + b.length = moonsIn es
  | [], _, h => h.elim
  | .term :: es, k, h => by
    rw [months, moonsIn_term]
    exact months_pair year es k (h.resolve_left (fun x => by simp [Event.isMoon] at x))
  | .moon d :: es, k, h => by
    rw [months, moonsIn_moon]
    by_cases hp : (es.head?.map Event.isMoon).getD false = true
    · rw [if_pos (by simp [hp])]
      have := months_runs (thirteen := true) (seen := true) (Or.inl rfl) year es k
      exact ⟨[], d, months true year k true es, rfl, trivial, this.1, by rw [this.2, List.length_nil]; omega⟩
    · rw [if_neg (by simp [hp])]
      obtain ⟨a, d', b, e, ha, hb, hl⟩ := months_pair year es (k + 1) (h.resolve_left (fun x => hp x.2))
      refine ⟨nth year (k + 1) false d :: a, d', b, ?_, ⟨⟨d, rfl⟩, ha⟩, ?_, ?_⟩
      · rw [e, List.length_cons, show k + (a.length + 1) = k + 1 + a.length by omega]
        rfl
      · rw [List.length_cons, show k + (a.length + 1) = k + 1 + a.length by omega]
        exact hb
      · rw [List.length_cons]; omega

/-- Ten months that aren't leap months, or these and a leap month with the number of the one before it. -/
def Tail (l : List Month) : Prop :=
  ((∀ m ∈ l, m.leap = false) ∧ l.length = 10) ∨ ∃ (a : List Month) (x : Month) (b : List Month), l = a ++ x :: b ∧ (∀ m ∈ a, m.leap = false) ∧ (∀ m ∈ b, m.leap = false) ∧ x.leap = true ∧
    x.number = a.length + 1 ∧ a.length + b.length = 10

/-- Month 12, and perhaps a leap month beside it. -/
def Head (year : Int) (l : List Month) : Prop :=
  (∃ d, l = [⟨year, 12, false, d⟩]) ∨ (∃ d d', l = [⟨year, 11, true, d⟩, ⟨year, 12, false, d'⟩]) ∨ (∃ d d', l = [⟨year, 12, false, d⟩, ⟨year, 12, true, d'⟩])

theorem runs_mem {year : Int} : ∀ {l : List Month} {k : Nat}, Runs year k l → 2 ≤ k → k + l.length ≤ 12 →
    ∀ m ∈ l, m.year = year + 1 ∧ m.leap = false ∧ 2 ≤ m.number ∧ m.number ≤ 11
  | [], _, _, _, _ => by simp
  | x :: l, k, h, hk, hl => by
    obtain ⟨⟨d, rfl⟩, h2⟩ := h
    rw [List.length_cons] at hl
    intro m hm
    rcases List.mem_cons.1 hm with rfl | hm
    · rw [nth, if_neg (by omega), if_neg (by omega)]
      refine ⟨rfl, rfl, ?_, ?_⟩ <;> dsimp only <;> omega
    · exact runs_mem h2 (by omega) (by omega) m hm

theorem sui_split {s : Sui} (h : s.Valid) : ∃ (head : List Month) (f : Month) (rest : List Month), s.months = head ++ f :: rest ∧ Head s.year head ∧
    (f.year = s.year + 1 ∧ f.leap = false ∧ f.number = 1) ∧
    (∀ m ∈ rest, m.year = s.year + 1 ∧ ¬ (m.leap = false ∧ m.number = 1) ∧ m.number ≤ 11) ∧ Tail rest := by
  have hroom := valid_room h
  have hm : moonsIn s.events = 12 ∨ moonsIn s.events = 13 := h.2
  have two : ∀ {l : List Month} {k : Nat}, Runs s.year k l → 2 ≤ k → k + l.length ≤ 12 →
      ∀ m ∈ l, m.year = s.year + 1 ∧ ¬ (m.leap = false ∧ m.number = 1) ∧ m.number ≤ 11 := by
    intro l k h1 h2 h3 m hm
    obtain ⟨a, b, c, d⟩ := runs_mem h1 h2 h3 m hm
    exact ⟨a, fun x => by omega, d⟩
  have no : ∀ {l : List Month} {k : Nat}, Runs s.year k l → 2 ≤ k → k + l.length ≤ 12 → ∀ m ∈ l, m.leap = false := by
    intro l k h1 h2 h3 m hm
    exact (runs_mem h1 h2 h3 m hm).2.1
  by_cases h13 : moonsIn s.events = 13
  · have hp : Pair s.events := by
      rcases hroom with ⟨x, _⟩ | ⟨_, _, _, x⟩
      · simp [h13] at x
      · exact x
    obtain ⟨a, d, b, e, ha, hb, hl⟩ := months_pair s.year s.events 0 hp
    have e' : s.months = a ++ nth s.year (0 + a.length) true d :: b := by
      unfold Sui.months
      rw [← e]
      congr 1
      exact decide_eq_true h13
    rw [h13] at hl
    rw [e']
    rw [Nat.zero_add] at *
    match a, ha with
    | [], _ =>
      match b, hb with
      | m1 :: m2 :: b', ⟨⟨d1, e1⟩, ⟨d2, e2⟩, hb'⟩ =>
        simp only [List.length_cons, List.length_nil] at hl
        refine ⟨[nth s.year 0 true d, m1], m2, b', by simp, Or.inr (Or.inl ⟨d, d1, by rw [e1]; rfl⟩), by rw [e2]; exact ⟨rfl, rfl, rfl⟩, two hb' (by simp) (by simp; omega),
          Or.inl ⟨no hb' (by simp) (by simp; omega), by omega⟩⟩
      | [], _ => simp at hl
      | [_], _ => simp at hl
    | [m1], ⟨⟨d1, e1⟩, _⟩ =>
      match b, hb with
      | m2 :: b', ⟨⟨d2, e2⟩, hb'⟩ =>
        simp only [List.length_cons, List.length_nil] at hl
        refine ⟨[m1, nth s.year 1 true d], m2, b', by simp, Or.inr (Or.inr ⟨d1, d, by rw [e1]; rfl⟩), by rw [e2]; exact ⟨rfl, rfl, rfl⟩, two hb' (by simp) (by simp; omega),
          Or.inl ⟨no hb' (by simp) (by simp; omega), by omega⟩⟩
      | [], _ => simp at hl
    | m1 :: m2 :: a', ⟨⟨d1, e1⟩, ⟨d2, e2⟩, ha'⟩ =>
      simp only [List.length_cons] at hl hb
      have hx : nth s.year (a'.length + 2) true d = ⟨s.year + 1, a'.length + 1, true, d⟩ := by
        rw [nth, if_neg (by omega), if_neg (by omega)]; rfl
      refine ⟨[m1], m2, a' ++ nth s.year (a'.length + 2) true d :: b, by simp, Or.inl ⟨d1, by rw [e1]; rfl⟩, by rw [e2]; exact ⟨rfl, rfl, rfl⟩, ?_, ?_⟩
      · intro m hm
        rcases List.mem_append.1 hm with hm | hm
        · exact two ha' (by simp) (by simp; omega) m hm
        · rcases List.mem_cons.1 hm with rfl | hm
          · rw [hx]
            exact ⟨rfl, fun x => absurd x.1 (by simp), by dsimp only; omega⟩
          · exact two hb (by omega) (by omega) m hm
      · exact Or.inr ⟨a', _, b, rfl, no ha' (by simp) (by simp; omega), no hb (by omega) (by omega), by rw [hx], by rw [hx], by omega⟩
  · obtain ⟨hr, hl⟩ := months_runs (thirteen := decide (moonsIn s.events = 13)) (seen := false) (Or.inr (decide_eq_false h13)) s.year s.events 0
    change Runs s.year 0 s.months at hr
    change s.months.length = _ at hl
    match hs : s.months, hr with
    | m1 :: m2 :: l, ⟨⟨d1, e1⟩, ⟨d2, e2⟩, hr⟩ =>
      rw [hs] at hl
      simp only [List.length_cons] at hl
      exact ⟨[m1], m2, l, by simp, Or.inl ⟨d1, by rw [e1]; rfl⟩, by rw [e2]; exact ⟨rfl, rfl, rfl⟩, two hr (by simp) (by simp; omega),
        Or.inl ⟨no hr (by simp) (by simp; omega), by omega⟩⟩
    | [], _ => rw [hs] at hl; simp at hl; omega
    | [_], _ => rw [hs] at hl; simp at hl; omega

theorem head_mem {year : Int} {l : List Month} (h : Head year l) : ∀ m ∈ l, m.year = year ∧ 11 ≤ m.number ∧ m.number ≤ 12 := by
  rcases h with ⟨d, rfl⟩ | ⟨d, d', rfl⟩ | ⟨d, d', rfl⟩ <;> simp

theorem sui_mem {s : Sui} (h : s.Valid) : ∀ m ∈ s.months, (m.year = s.year ∧ 11 ≤ m.number) ∨ m.year = s.year + 1 := by
  obtain ⟨head, f, rest, e, h1, h2, h3, _⟩ := sui_split h
  rw [e]
  intro m hm
  rcases List.mem_append.1 hm with hm | hm
  · exact Or.inl ⟨(head_mem h1 m hm).1, (head_mem h1 m hm).2.1⟩
  · rcases List.mem_cons.1 hm with rfl | hm
    · exact Or.inr h2.1
    · exact Or.inr (h3 m hm).1

/-! ## The file -/

theorem put24_all (f : Nat → Nat) : ∀ (xs : List Nat) (i r x : Nat), r < 3 → xs[i]? = some x →
    ((xs.flatMap fun a => put24 (f a)).getD (3 * i + r) 0) = (put24 (f x)).getD r 0
  | [], _, _, _, _, h => by simp at h
  | a :: xs, 0, r, x, hr, h => by
    simp at h
    subst h
    rw [List.flatMap_cons, List.getD_eq_getElem?_getD, List.getElem?_append_left (by simp [put24]; omega), Nat.mul_zero, Nat.zero_add, ← List.getD_eq_getElem?_getD]
  | a :: xs, i + 1, r, x, hr, h => by
    rw [List.flatMap_cons, List.getD_eq_getElem?_getD, List.getElem?_append_right (by simp [put24]; omega), ← List.getD_eq_getElem?_getD,
      show 3 * (i + 1) + r - (put24 (f a)).length = 3 * i + r by simp [put24]; omega]
    exact put24_all f xs i r x hr (by simpa using h)

theorem s16_put (v : Int) (h : -32768 ≤ v ∧ v < 32768) : s16 (((v / 256 % 256).toNat * 256 + (v % 256).toNat : Nat) : Int) = v := by
  unfold s16; omega

theorem write_byte (s : Static) (i r : Nat) (hr : r < 3) (hi : i < s.n.toNat) :
    ChinesePack.byte (write s) (4 + 3 * i + r) = (put24 (packed (s.data (i : Int)))).getD r 0 := by
  unfold ChinesePack.byte write
  rw [List.getD_eq_getElem?_getD, List.getElem?_append_right (by simp [put16]; omega), ← List.getD_eq_getElem?_getD,
    show 4 + 3 * i + r - (put16 s.n ++ put16 s.year0).length = 3 * i + r by simp [put16]; omega]
  exact put24_all (fun i => packed (s.data (i : Int))) _ i r i hr (by simp [hi])

/-- The reader finds what was written. -/
theorem read_write {s : Static} (hn : 0 ≤ s.n ∧ s.n < 32768) (h0 : -32768 ≤ s.year0 ∧ s.year0 < 32768) {y : Int} (hy : HasYear s y)
    (hp : packed (entry s y) < 16777216) :
    ChinesePack.read (write s) y = some (chineseUnpack y (packed (entry s y)),
      if (packed (entry s y) >>> 13) % 14 ≠ 0 then (packed (entry s y) >>> 13) % 14 + 1 else 0) := by
  have e0 : s16 ((ChinesePack.byte (write s) 3 * 256 + ChinesePack.byte (write s) 2 : Nat) : Int) = s.year0 := s16_put _ h0
  have e1 : s16 ((ChinesePack.byte (write s) 1 * 256 + ChinesePack.byte (write s) 0 : Nat) : Int) = s.n := s16_put _ ⟨by omega, hn.2⟩
  unfold HasYear at hy
  have hi : (((y - s.year0).toNat : Nat) : Int) = y - s.year0 := by omega
  have hlt : (y - s.year0).toNat < s.n.toNat := by omega
  have b0 := write_byte s (y - s.year0).toNat 0 (by decide) hlt
  have b1 := write_byte s (y - s.year0).toNat 1 (by decide) hlt
  have b2 := write_byte s (y - s.year0).toNat 2 (by decide) hlt
  rw [hi] at b0 b1 b2
  change _ = (put24 (packed (entry s y))).getD 0 0 at b0
  change _ = (put24 (packed (entry s y))).getD 1 0 at b1
  change _ = (put24 (packed (entry s y))).getD 2 0 at b2
  unfold ChinesePack.read
  rw [e0, e1]
  dsimp only
  rw [if_neg (by omega)]
  rw [Nat.add_zero] at b0
  rw [b0, b1, b2]
  generalize packed (entry s y) = v at hp ⊢
  have hv : (put24 v).getD 2 0 * 65536 + (put24 v).getD 1 0 * 256 + (put24 v).getD 0 0 = v := by
    simp [put24]; omega
  rw [hv]

/-- The mask, the leap month and the days in what is packed. -/
theorem unpack_packed {e : Year} {ls : List Int} (hb : Bits e.mask ls) (hl : ls.length ≤ 13) :
    packed e >>> 13 = e.inter + 14 * e.offset ∧ ∀ i (h : i < ls.length), (ls[i] = 29 ∨ ls[i] = 30) → chineseMonth (packed e) i = ls[i] := by
  have hm : e.mask < 2 ^ 13 := by
    apply Nat.lt_pow_two_of_testBit
    intro i hi
    rw [hb i, List.getElem?_eq_none (by omega)]
    rfl
  have hp : packed e = 2 ^ 13 * (e.inter + 14 * e.offset) + e.mask := by
    unfold packed
    ring
  constructor
  · rw [Nat.shiftRight_eq_div_pow, hp]
    omega
  · intro i h hx
    have : (packed e >>> i) % 2 = 1 ↔ ls[i] = 30 := by
      have h1 : (packed e).testBit i = e.mask.testBit i := by
        rw [hp, Nat.testBit_two_pow_mul_add _ hm, if_pos (by omega)]
      rw [hb i, Nat.testBit_eq_decide_div_mod_eq] at h1
      rw [Nat.shiftRight_eq_div_pow]
      have h2 := decide_eq_decide.1 h1
      rw [h2, List.getElem?_eq_getElem h]
      simp
    unfold chineseMonth
    rcases hx with hx | hx
    · rw [if_neg (by rw [this, hx]; decide), hx]
    · rw [if_pos (this.2 hx), hx]

theorem months_of {v : Nat} {ls : List Int} (h : ∀ i (h : i < ls.length), chineseMonth v i = ls[i]) : (List.range ls.length).map (chineseMonth v) = ls := by
  apply List.ext_getElem
  · simp
  · intro i h1 h2
    simp [h i h2]

/-! ## Years -/

/-- Where the leap month is, counted from one; zero if there is none. -/
def leapPlace (ms : List Month) : Nat := match ms.findIdx? Month.leap with
  | some i => i + 1
  | none => 0

theorem leapAfter_none : ∀ (ms : List Month) (n : Nat), (∀ m ∈ ms, m.leap = false) → leapAfter n ms = n
  | [], _, _ => rfl
  | m :: ms, n, h => by
    unfold leapAfter
    rw [List.foldl_cons, if_neg (by rw [h m (by simp)]; decide)]
    exact leapAfter_none ms n (fun x hx => h x (by simp [hx]))

theorem leapAfter_one {a b : List Month} {x : Month} (hb : ∀ m ∈ b, m.leap = false) (hx : x.leap = true) (n : Nat) :
    leapAfter n (a ++ x :: b) = x.number := by
  unfold leapAfter
  rw [List.foldl_append, List.foldl_cons, if_pos hx]
  exact leapAfter_none b _ hb

theorem lengths_length (d : Int) : ∀ (ms : List Month), (lengths d ms).length = ms.length
  | [] => rfl
  | [_] => rfl
  | m :: x :: ms => by rw [lengths, List.length_cons, lengths_length d (x :: ms)]; rfl

/-- Eleven months after the first, or twelve with a leap month among them. -/
theorem year_form {y : Int} {t h : List Month} (ht : Tail t) (hh : Head y h) (h12 : ∀ m ∈ t ++ h, ¬ (m.leap = true ∧ m.number = 12))
    (hone : ((t ++ h).filter Month.leap).length ≤ 1) :
    ((∀ m ∈ t ++ h, m.leap = false) ∧ (t ++ h).length = 11) ∨
    ∃ (a : List Month) (x : Month) (b : List Month), t ++ h = a ++ x :: b ∧ (∀ m ∈ a, m.leap = false) ∧ (∀ m ∈ b, m.leap = false) ∧ x.leap = true ∧
      x.number = a.length + 1 ∧ a.length + b.length = 11 := by
  rcases ht with ⟨t1, t2⟩ | ⟨a, x, b, rfl, ha, hb, hx, hn, hl⟩
  · rcases hh with ⟨d, rfl⟩ | ⟨d, d', rfl⟩ | ⟨d, d', rfl⟩
    · left
      refine ⟨?_, by simp [t2]⟩
      intro m hm
      rcases List.mem_append.1 hm with hm | hm
      · exact t1 m hm
      · simp at hm; rw [hm]
    · right
      exact ⟨t, ⟨y, 11, true, d⟩, [⟨y, 12, false, d'⟩], rfl, t1, by simp, rfl, by simp [t2], by simp [t2]⟩
    · exact absurd ⟨rfl, rfl⟩ (h12 ⟨y, 12, true, d'⟩ (by simp))
  · rcases hh with ⟨d, rfl⟩ | ⟨d, d', rfl⟩ | ⟨d, d', rfl⟩
    · right
      refine ⟨a, x, b ++ [⟨y, 12, false, d⟩], by simp, ha, ?_, hx, hn, by simp; omega⟩
      intro m hm
      rcases List.mem_append.1 hm with hm | hm
      · exact hb m hm
      · simp at hm; rw [hm]
    · simp [hx] at hone
      omega
    · exact absurd ⟨rfl, rfl⟩ (h12 ⟨y, 12, true, d'⟩ (by simp))

/-- The reader's result for the entry of a year. -/
theorem entry_read {e : Year} {y : Int} {f next : Month} {t h : List Month} (ht : Tail t) (hh : Head y h)
    (h12 : ∀ m ∈ t ++ h, ¬ (m.leap = true ∧ m.number = 12)) (hone : ((t ++ h).filter Month.leap).length ≤ 1) (hf : f.leap = false)
    (hlens : ∀ x ∈ lengths next.day (f :: (t ++ h)), x = 29 ∨ x = 30) (hoff : 0 ≤ f.day - (365 * y + y.tdiv 4 + 757861) ∧ f.day - (365 * y + y.tdiv 4 + 757861) ≤ 145)
    (e1 : Bits e.mask (lengths next.day (f :: (t ++ h)))) (e2 : e.inter = leapAfter 0 (t ++ h))
    (e3 : e.offset = ((f.day - (y * 365 + y.tdiv 4 + 757861)) % 256).toNat) :
    packed e < 16777216 ∧
    (chineseUnpack y (packed e), if (packed e >>> 13) % 14 ≠ 0 then (packed e >>> 13) % 14 + 1 else 0)
      = (⟨f.day + 1, lengths next.day (f :: (t ++ h)) ++ (if leapPlace (f :: (t ++ h)) = 0 then [0] else [])⟩, leapPlace (f :: (t ++ h))) := by
  have hll := lengths_length next.day (f :: (t ++ h))
  rw [List.length_cons] at hll
  have hof : e.offset = (f.day - (365 * y + y.tdiv 4 + 757861)).toNat := by rw [e3]; omega
  have hm : ∀ k, (lengths next.day (f :: (t ++ h))).length ≤ 13 → e.inter = k → k < 14 →
      packed e < 16777216 ∧ packed e >>> 13 = k + 14 * e.offset ∧
      (List.range (lengths next.day (f :: (t ++ h))).length).map (chineseMonth (packed e)) = lengths next.day (f :: (t ++ h)) := by
    intro k hk h1 h2
    obtain ⟨u1, u2⟩ := unpack_packed e1 hk
    refine ⟨?_, by rw [u1, h1], months_of (fun i hi => u2 i hi (hlens _ (List.getElem_mem hi)))⟩
    rw [Nat.shiftRight_eq_div_pow] at u1
    omega
  have key : ∀ k, packed e >>> 13 = k + 14 * e.offset → k < 14 → (packed e >>> 13) % 14 = k ∧
      y * 365 + y.tdiv 4 + CHINESE_CALENDAR_EPOCH + ((packed e >>> 13) / 14 : Nat) = f.day + 1 := by
    intro k h1 h2
    have : (packed e >>> 13) / 14 = e.offset := by omega
    refine ⟨by omega, ?_⟩
    rw [this, hof]
    unfold CHINESE_CALENDAR_EPOCH
    omega
  rcases year_form ht hh h12 hone with ⟨n1, n2⟩ | ⟨a, x, b, n1, ha, hb, hx, hn, hl⟩
  · obtain ⟨p1, p2, p3⟩ := hm 0 (by omega) (by rw [e2, leapAfter_none _ _ n1]) (by decide)
    obtain ⟨k1, k2⟩ := key 0 p2 (by decide)
    have hp : leapPlace (f :: (t ++ h)) = 0 := by
      unfold leapPlace
      have : (f :: (t ++ h)).findIdx? Month.leap = none := by
        rw [List.findIdx?_eq_none_iff]
        intro m hm
        rcases List.mem_cons.1 hm with rfl | hm
        · exact hf
        · exact n1 m hm
      rw [this]
    rw [hll, n2] at p3
    refine ⟨p1, ?_⟩
    rw [hp, if_pos rfl]
    unfold chineseUnpack
    simp only [k1, ne_eq, not_true_eq_false, if_false]
    rw [k2, p3]
  · have h13 : (t ++ h).length = 12 := by rw [n1]; simp; omega
    obtain ⟨p1, p2, p3⟩ := hm (a.length + 1) (by omega) (by rw [e2, n1, leapAfter_one hb hx, hn]) (by omega)
    obtain ⟨k1, k2⟩ := key _ p2 (by omega)
    have hp : leapPlace (f :: (t ++ h)) = a.length + 2 := by
      unfold leapPlace
      have : (f :: (t ++ h)).findIdx? Month.leap = some (a.length + 1) := by
        rw [n1, List.findIdx?_cons, hf, List.findIdx?_append, List.findIdx?_eq_none_iff.2 ha, List.findIdx?_cons, hx]
        simp
      rw [this]
    rw [hll, h13, List.range_succ, List.map_append] at p3
    refine ⟨p1, ?_⟩
    rw [hp, if_neg (show ¬ a.length + 2 = 0 by omega), List.append_nil]
    unfold chineseUnpack
    simp only [k1, ne_eq, Nat.add_eq_zero_iff, one_ne_zero, and_false, not_false_eq_true, if_true]
    rw [k2, ← p3]
    rfl

/-- A log of one sui after the other, of which the last need not be complete. -/
structure IsLog (first : Sui) (suis : List Sui) (lines : List (List Nat)) : Prop where
  lines : ∃ (lss : List (List (List Nat))) (last : Sui) (lls : List (List Nat)), List.Forall₂ SuiLines (first :: suis) lss ∧ SuiLines last lls ∧
    last.events.length ≤ 24 ∧ lines = lss.flatten ++ lls
  valid : ∀ s ∈ first :: suis, s.Valid
  years : ∀ (i : Nat) (s : Sui), (first :: suis)[i]? = some s → s.year = first.year + i

/-- The table made from a log tells, for each of its years between two complete suis, when the year begins, how long its months are and which
    is a leap month: if no leap month follows month 12, there is at most one in the year, months have 29 or 30 days, and the year begins within
    145 days of where the table counts from. -/
theorem C108_table {first : Sui} {suis : List Sui} {lines : List (List Nat)} (hlog : IsLog first suis lines) {n : Int} (hn : 0 ≤ n ∧ n < 32768)
    (h0 : first.year + 1 ≠ 0) (h16 : -32768 ≤ first.year + 1 ∧ first.year + 1 < 32768) :
    ∃ file, make n lines = some file ∧ ∀ y : Int, first.year < y → y ≤ first.year + suis.length → y ≤ first.year + n →
      ∃ (f : Month) (ms : List Month) (next : Month), ((first :: suis).flatMap Sui.months).filter (fun m => m.year = y) = f :: ms ∧
        next ∈ (first :: suis).flatMap Sui.months ∧ (f.leap = false ∧ f.number = 1) ∧ (next.year = y + 1 ∧ next.leap = false ∧ next.number = 1) ∧
        ((∀ m ∈ ms, ¬ (m.leap = true ∧ m.number = 12)) → (ms.filter Month.leap).length ≤ 1 →
          (∀ x ∈ lengths next.day (f :: ms), x = 29 ∨ x = 30) →
          (0 ≤ f.day - (365 * y + y.tdiv 4 + 757861) ∧ f.day - (365 * y + y.tdiv 4 + 757861) ≤ 145) →
          ChinesePack.read file y = some (⟨f.day + 1, lengths next.day (f :: ms) ++ (if leapPlace (f :: ms) = 0 then [0] else [])⟩, leapPlace (f :: ms))) := by
  obtain ⟨lss, last, lls, h1, h2, h3, rfl⟩ := hlog.lines
  have e16 : s16 (first.year + 1) = first.year + 1 := by unfold s16; omega
  have hmake := loop_log h1 hlog.valid h2 h3 (by rw [e16]; exact h0) n
  rw [e16] at hmake
  refine ⟨_, by unfold make; rw [hmake, Option.map_some], ?_⟩
  intro y y1 y2 y3
  have hget : ∀ i (h : i < (first :: suis).length), (first :: suis)[i].year = first.year + i := fun i h => hlog.years i _ (List.getElem?_eq_getElem h)
  obtain ⟨i, hi⟩ : ∃ i : Nat, y = first.year + 1 + i := ⟨(y - first.year - 1).toNat, by omega⟩
  have hlen : i + 1 < (first :: suis).length := by simp; omega
  set all := first :: suis with hall
  have hsplit : all = all.take i ++ all[i] :: all[i + 1] :: all.drop (i + 2) := by
    rw [← List.drop_eq_getElem_cons hlen, ← List.drop_eq_getElem_cons (by omega), List.take_append_drop]
  have hA := hlog.valid all[i] (List.getElem_mem _)
  have hB := hlog.valid all[i + 1] (List.getElem_mem _)
  have yA := hget i (by omega)
  have yB := hget (i + 1) hlen
  obtain ⟨headA, f, restA, eA, hA1, hA2, hA3, hA4⟩ := sui_split hA
  obtain ⟨headB, next, restB, eB, hB1, hB2, hB3, _⟩ := sui_split hB
  rw [yA] at hA1 hA2 hA3
  rw [yB] at hB1 hB2 hB3
  set pre := (all.take i).flatMap Sui.months ++ headA with hpre
  set post := restB ++ (all.drop (i + 2)).flatMap Sui.months with hpost
  have hstream : all.flatMap Sui.months = pre ++ f :: ((restA ++ headB) ++ next :: post) := by
    conv_lhs => rw [hsplit]
    rw [List.flatMap_append, List.flatMap_cons, List.flatMap_cons, eA, eB, hpre, hpost]
    simp
  have hyB : Head y headB := by rw [hi]; convert hB1 using 1; push_cast; omega
  have p1 : ∀ m ∈ pre, m.year < y := by
    intro m hm
    rcases List.mem_append.1 hm with hm | hm
    · obtain ⟨s, hs, hm⟩ := List.mem_flatMap.1 hm
      obtain ⟨j, hj, rfl⟩ := List.mem_iff_getElem.1 hs
      rw [List.length_take] at hj
      have := sui_mem (hlog.valid _ (List.mem_of_mem_take hs)) m hm
      rw [List.getElem_take, hget j (by omega)] at this
      omega
    · have := (head_mem hA1 m hm).1
      omega
  have p2 : ∀ m ∈ restA ++ headB, m.year = y ∧ ¬ (m.leap = false ∧ m.number = 1) ∧ (m.number ≤ 12) := by
    intro m hm
    rcases List.mem_append.1 hm with hm | hm
    · obtain ⟨a, b, c⟩ := hA3 m hm
      exact ⟨by omega, b, by omega⟩
    · obtain ⟨a, b, c⟩ := head_mem hyB m hm
      exact ⟨a, fun x => by omega, c⟩
  have p3 : ∀ m ∈ post, y < m.year ∧ ¬ (m.year = y + 1 ∧ m.leap = false ∧ m.number = 1) := by
    intro m hm
    rcases List.mem_append.1 hm with hm | hm
    · obtain ⟨a, b, c⟩ := hB3 m hm
      push_cast at a
      exact ⟨by omega, fun x => b x.2⟩
    · obtain ⟨s, hs, hm⟩ := List.mem_flatMap.1 hm
      obtain ⟨j, hj, rfl⟩ := List.mem_iff_getElem.1 hs
      rw [List.length_drop] at hj
      have := sui_mem (hlog.valid _ (List.mem_of_mem_drop hs)) m hm
      rw [List.getElem_drop, hget (i + 2 + j) (by omega)] at this
      push_cast at this
      exact ⟨by omega, fun x => by omega⟩
  have hfy : f.year = y := by omega
  have hny : next.year = y + 1 := by have := hB2.1; push_cast at this; omega
  refine ⟨f, restA ++ headB, next, ?_, ?_, hA2.2, ⟨hny, hB2.2⟩, ?_⟩
  · rw [hstream, List.filter_append, List.filter_eq_nil_iff.2 (fun m hm => by have := p1 m hm; simp; omega), List.nil_append,
      List.filter_cons_of_pos (by simp [hfy]), List.filter_append, List.filter_eq_self.2 (fun m hm => by simp [(p2 m hm).1]),
      List.filter_cons_of_neg (by simp [hny]), List.filter_eq_nil_iff.2 (fun m hm => by have := (p3 m hm).1; simp; omega), List.append_nil]
  · rw [hstream]
    simp
  · intro h12 hone hlens hoff
    set s0 : Static := { Static.start n with year0 := first.year + 1 } with hs0
    have hy0 : HasYear s0 y := ⟨by change first.year + 1 ≤ y; omega, by change y < first.year + 1 + n; omega⟩
    have hlen12 : (restA ++ headB).length ≤ 12 := by
      rcases year_form hA4 hyB h12 hone with ⟨_, x⟩ | ⟨a, x, b, e, _, _, _, _, w⟩
      · omega
      · rw [e]; simp; omega
    obtain ⟨q1, q2, q3⟩ := year_entry hy0 ⟨rfl, rfl⟩ p1 ⟨hfy, hA2.2⟩ (fun m hm => ⟨(p2 m hm).1, fun x => x.elim (p2 m hm).2.1 (h12 m hm),
      by have := (p2 m hm).2.2; omega⟩) hlen12 ⟨hny, hB2.2⟩ p3
    rw [← hstream] at q1 q2 q3
    obtain ⟨r1, r2⟩ := entry_read (y := y) (f := f) (next := next) hA4 hyB h12 hone hA2.2.1 hlens hoff q1 q2 q3
    have hfix := accounts_fixed (all.flatMap Sui.months) s0
    have hfin : HasYear ((all.flatMap Sui.months).foldl account s0) y := by unfold HasYear; rw [hfix.1, hfix.2]; exact hy0
    have := read_write (s := (all.flatMap Sui.months).foldl account s0) (by rw [hfix.2]; exact hn) (by rw [hfix.1]; exact h16) hfin r1
    rw [this, r2]

end Verif.Props
