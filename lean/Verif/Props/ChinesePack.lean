import Verif.Model.ChinesePack
import Verif.Spec.Lunisolar
import Verif.Lemmas.Scan
import Mathlib.Tactic.SplitIfs
import Mathlib.Tactic.Ring

/-!
# C108: the table of Chinese years

From the log's lines to the months that the program enters in its table.
-/

namespace Verif.Props

open Verif Verif.Spec Verif.Spec.Lunisolar Verif.ChinesePack

/-! ## Lines -/

theorem pack_byte {l : List Nat} {i c : Nat} (h : l[i]? = some c) : ChinesePack.byte l i = c := by
  simp [ChinesePack.byte, List.getD, h]

theorem pack_byte_iff {l : List Nat} {i c : Nat} (h : c ≠ 0) : ChinesePack.byte l i = c ↔ l[i]? = some c := by
  constructor
  · intro e
    unfold ChinesePack.byte List.getD at e
    cases hl : l[i]? with
    | none => rw [hl] at e; exact absurd e.symm h
    | some x => rw [hl] at e; simpa using e
  · exact pack_byte

theorem shift_line {P : List Nat → Prop} {l : List Nat} (h : Line P l) : P (shift l) := by
  unfold shift
  rcases h with ⟨h, hp⟩ | ⟨a, b, c, rfl, ha, h, hp⟩
  · rw [if_neg (fun e => h ((pack_byte_iff (by decide)).1 e))]
    exact hp
  · rw [if_pos (pack_byte h), List.take_append_of_le_length (by omega), List.take_of_length_le (by omega), List.drop_append,
      List.drop_of_length_le (by omega), show 18 - a.length = 1 by omega]
    exact hp

theorem marked_iff (l : List Nat) : marked l = true ↔ Mark l := by
  unfold marked Mark
  rw [Bool.and_eq_true, decide_eq_true_iff, decide_eq_true_iff, pack_byte_iff (by decide), pack_byte_iff (by decide)]

theorem number_atoi {l : List Nat} {v : Int} (h : Number l v) : atoi l = v := by
  obtain ⟨k, neg, ds, rest, rfl, hne, hd, hr, rfl⟩ := h
  have hr' : isDigit (at? rest 0) = false := by
    cases rest with
    | nil => rfl
    | cons c r =>
      have := hr c rfl
      simp [at?, isDigit]
      omega
  have hv : readDigits 0 (ds ++ rest) = value ds := by rw [(Scan.digits_span hd hr' 0).2, readDigits_eq _ hd]
  induction k with
  | succ k ih => rw [List.replicate_succ, List.cons_append, atoi, if_pos (by decide)]; exact ih
  | zero =>
    cases neg with
    | true => simp [atoi, hv, show isSpace 45 = false from rfl]
    | false =>
      have h0 := Scan.head_digit hd hne
      cases ds with
      | nil => exact absurd rfl hne
      | cons c s =>
        simp [at?] at h0
        have hsp : isSpace c = false := by simp [isSpace]; omega
        simp only [List.replicate_zero, List.nil_append, Bool.false_eq_true, if_false, List.cons_append]
        rw [atoi, hsp, if_neg (by simp), if_neg (by omega), if_neg (by omega), ← List.cons_append, hv]

/-! ## The months of a sui -/

/-- How many new moons. -/
def moonsIn (es : List Event) : Nat := (es.filter Event.isMoon).length

/-- Somewhere a new moon follows another. -/
def Pair : List Event → Prop
  | [] => False
  | e :: es => (e.isMoon = true ∧ (es.head?.map Event.isMoon).getD false = true) ∨ Pair es

theorem pair_two : ∀ {es : List Event}, Pair es → 2 ≤ moonsIn es
  | [], h => h.elim
  | e :: es, h => by
    rcases h with ⟨h1, h2⟩ | h
    · cases es with
      | nil => simp at h2
      | cons x xs =>
        simp at h2
        simp [moonsIn, h1, h2]
    · have := pair_two h
      unfold moonsIn at this ⊢
      rw [List.filter_cons]
      split_ifs
      · simp; omega
      · exact this

theorem moonsIn_term (es : List Event) : moonsIn (.term :: es) = moonsIn es := by simp [moonsIn, Event.isMoon]
theorem moonsIn_moon (d : Int) (es : List Event) : moonsIn (.moon d :: es) = moonsIn es + 1 := by
  simp [moonsIn, show (Event.moon d).isMoon = true from rfl]

/-- Without such, there is a term between any two new moons. -/
theorem pigeon : ∀ (es : List Event), ¬ Pair es → moonsIn es ≤ (es.filter (fun e => !e.isMoon)).length + 1 ∧
    ((es.head?.map Event.isMoon).getD false = false → moonsIn es ≤ (es.filter (fun e => !e.isMoon)).length)
  | [], _ => by simp [moonsIn]
  | .term :: es, h => by
    have := pigeon es (fun p => h (Or.inr p))
    rw [moonsIn_term]
    simp only [List.filter_cons, show (!Event.term.isMoon) = true from rfl, if_true, List.length_cons]
    exact ⟨by omega, fun _ => this.1⟩
  | .moon d :: es, h => by
    have h1 := pigeon es (fun p => h (Or.inr p))
    have h2 : (es.head?.map Event.isMoon).getD false = false := by
      by_contra hc
      exact h (Or.inl ⟨rfl, by simpa using hc⟩)
    have := h1.2 h2
    rw [moonsIn_moon]
    simp only [List.filter_cons, show (!(Event.moon d).isMoon) = false from rfl, Bool.false_eq_true, if_false]
    exact ⟨by omega, fun x => by simp [Event.isMoon] at x⟩

/-- Room for the months that are to come. -/
def Room (thirteen : Bool) (k : Nat) (seen : Bool) (es : List Event) : Prop :=
  ((seen = true ∨ thirteen = false) ∧ k + moonsIn es ≤ 12) ∨ (seen = false ∧ thirteen = true ∧ k + moonsIn es ≤ 13 ∧ Pair es)

theorem valid_room {s : Sui} (h : s.Valid) : Room (moonsIn s.events = 13) 0 false s.events := by
  obtain ⟨h1, h2⟩ := h
  change moonsIn s.events = 12 ∨ moonsIn s.events = 13 at h2
  by_cases h3 : moonsIn s.events = 13
  · refine Or.inr ⟨rfl, by simpa using h3, by omega, ?_⟩
    by_contra hp
    have := (pigeon _ hp).1
    omega
  · exact Or.inl ⟨Or.inr (by simpa using h3), by omega⟩

/-- Does the program begin a year with this month?  A leap month 12 is taken for one that does. -/
def Begins (m : Month) : Prop := (m.leap = false ∧ m.number = 1) ∨ (m.leap = true ∧ m.number = 12)

instance (m : Month) : Decidable (Begins m) := inferInstanceAs (Decidable (_ ∨ _))

/-- What the program does with a month. -/
def account (s : Static) (m : Month) : Static :=
  let s1 := s.bit m.day (if m.leap = false ∧ m.number = 1 then m.year - 1 else m.year)
  let s2 := if Begins m then s1.begin m.day (if m.leap = true then m.year + 1 else m.year) else s1
  let s3 := if m.leap = true then s2.leap m.year m.number else s2
  s3.keep m.day

/-- The variables of `dump_data` after `k` months that aren't leap months. -/
def At (year : Int) (k : Nat) (seen : Bool) (g : Loop) : Prop :=
  g.month = (if k = 0 then 12 else (k : Int)) ∧ g.year = (if k = 0 then year else year + 1) ∧ (g.inter = 0 ↔ seen = false) ∧ (g.inter = 1 → 2 ≤ k)

theorem moon_leap {year : Int} {k all : Nat} {g : Loop} (h : At year k false g) (hk : k ≤ 11) (ha : all = 25) (d : Int) :
    At year k true (moon all true d g) ∧ (moon all true d g).s = account g.s (nth year k true d) := by
  obtain ⟨h1, h2, h3, h4⟩ := h
  have h0 : g.inter = 0 := h3.2 rfl
  obtain ⟨gm, gy, gi, gs⟩ := g
  dsimp only at h0 h1 h2
  subst h0 ha
  by_cases k0 : k = 0
  · subst k0
    simp only [if_true] at h1 h2
    subst h1 h2
    refine ⟨⟨rfl, ?_, by simp [moon], fun e => absurd e (by simp [moon])⟩, ?_⟩
    · simp [moon]
    · simp [moon, account, Begins, nth]
  · by_cases k1 : k = 1
    · subst k1
      simp only [if_neg (by decide : ¬ (1 : Nat) = 0), Nat.cast_one] at h1 h2
      subst h1 h2
      refine ⟨⟨rfl, ?_, by simp [moon], fun e => absurd e (by simp [moon])⟩, ?_⟩
      · simp [moon]
      · simp [moon, account, Begins, nth]
    · rw [if_neg k0] at h1 h2
      subst h1 h2
      have e : (((k : Int) + 10).tmod 12 + 1) = ((k - 1 : Nat) : Int) := by
        rw [Int.tmod_eq_emod_of_nonneg (by omega)]; omega
      have n1 : ¬ (k : Int) = 1 := by omega
      have n2 : ¬ ((k - 1 : Nat) : Int) = 12 := by omega
      refine ⟨⟨by simp [moon, k0], by simp [moon, k0], by simp [moon, e]; omega, fun x => by simp [moon, e] at x; omega⟩, ?_⟩
      simp [moon, e, account, Begins, nth, k0, k1, n1, n2, show ¬ k - 1 = 12 by omega]

theorem moon_plain {year : Int} {k all : Nat} {seen next : Bool} {g : Loop} (h : At year k seen g) (hk : k ≤ 11)
    (hc : ¬ (all = 25 ∧ g.inter = 0 ∧ next = true)) (d : Int) :
    At year (k + 1) seen (moon all next d g) ∧ (moon all next d g).s = account g.s (nth year (k + 1) false d) := by
  obtain ⟨h1, h2, h3, h4⟩ := h
  obtain ⟨gm, gy, gi, gs⟩ := g
  dsimp only at h1 h2 h3 h4 hc
  unfold moon
  simp only [if_neg hc]
  by_cases k0 : k = 0
  · subst k0
    simp only [if_true] at h1 h2
    subst h1 h2
    refine ⟨⟨by simp, by simp, h3, fun e => absurd (h4 e) (by omega)⟩, ?_⟩
    simp [account, Begins, nth]
  · by_cases k1 : k = 1
    · subst k1
      simp only [if_neg (by decide : ¬ (1 : Nat) = 0), Nat.cast_one] at h1 h2
      have hi : gi ≠ 1 := fun e => absurd (h4 e) (by omega)
      subst h1 h2
      refine ⟨⟨by simp, by simp, h3, fun e => absurd e hi⟩, ?_⟩
      simp [account, Begins, nth, hi]
    · rw [if_neg k0] at h1 h2
      subst h1 h2
      have e : (((k : Int) + 10).tmod 12 + 1) = ((k - 1 : Nat) : Int) := by
        rw [Int.tmod_eq_emod_of_nonneg (by omega)]; omega
      have n1 : ¬ (k : Int) = 1 := by omega
      have n2 : ¬ ((k - 1 : Nat) : Int) = 12 := by omega
      have n3 : ¬ (k : Int) + 1 = 13 := by omega
      refine ⟨⟨by simp [n3], by simp [n3], by simpa [n3] using h3, fun x => by simp [n3] at x; have := h4 x; omega⟩, ?_⟩
      simp [account, Begins, nth, k0, k1, n1, n2, n3, e]

/-- The loop of `dump_data`. -/
theorem moons_account {thirteen : Bool} {all : Nat} (ha : all = 25 ↔ thirteen = true) {year : Int} {after : List Nat}
    (haf : after[8]? ≠ some 32) : ∀ {ls : List (List Nat)} {es : List Event}, List.Forall₂ EventText ls es → ∀ (k : Nat) (seen : Bool) (g : Loop),
    At year k seen g → Room thirteen k seen es → (moons all after ls g).s = (months thirteen year k seen es).foldl account g.s
  | _, _, .nil => by
    intro k seen g _ _
    rfl
  | _, _, .cons (a := l) (b := .term) (l₁ := ls) (l₂ := es) h ht => by
    intro k seen g hg hr
    rw [moons, if_neg (by rw [pack_byte h.1]; decide), months]
    refine moons_account ha haf ht _ _ _ hg ?_
    unfold Room at hr ⊢
    rw [moonsIn_term] at hr
    rcases hr with hr | ⟨a, b, c, d⟩
    · exact Or.inl hr
    · exact Or.inr ⟨a, b, c, d.resolve_left (fun x => by simp [Event.isMoon] at x)⟩
  | _, _, .cons (a := l) (b := .moon d) (l₁ := ls) (l₂ := es) h ht => by
    intro k seen g hg hr
    have hb : (decide (ChinesePack.byte (ls.headD after) 8 = 32)) = (es.head?.map Event.isMoon).getD false := by
      cases ht with
      | nil =>
        exact decide_eq_false (fun e => haf ((pack_byte_iff (by decide)).1 e))
      | @cons a b _ _ hx _ =>
        cases b with
        | term => simp [pack_byte hx.1, Event.isMoon]
        | moon _ => simp [pack_byte hx.1, Event.isMoon]
    rw [moons, if_pos (pack_byte h.1), months, number_atoi h.2.2, hb]
    unfold Room at hr
    rw [moonsIn_moon] at hr
    cases hp : (es.head?.map Event.isMoon).getD false with
    | true =>
      have hm : 1 ≤ moonsIn es := by
        cases es with
        | nil => simp at hp
        | cons x xs => simp at hp; simp [moonsIn, hp]
      by_cases hc : thirteen = true ∧ seen = false
      · obtain ⟨c1, c2⟩ := hc
        subst c1 c2
        have hle : k + moonsIn es ≤ 12 := by
          rcases hr with ⟨x, _⟩ | ⟨_, _, x, _⟩
          · simp at x
          · omega
        obtain ⟨a1, a2⟩ := moon_leap hg (by omega) (ha.2 rfl) d
        rw [if_pos (by rfl), List.foldl_cons, ← a2]
        exact moons_account ha haf ht _ _ _ a1 (Or.inl ⟨Or.inl rfl, hle⟩)
      · have hle : (seen = true ∨ thirteen = false) ∧ k + 1 + moonsIn es ≤ 12 := by
          rcases hr with ⟨x, y⟩ | ⟨x, y, _⟩
          · exact ⟨x, by omega⟩
          · exact absurd ⟨y, x⟩ hc
        have hn : ¬ (all = 25 ∧ g.inter = 0 ∧ true = true) := fun x => hc ⟨ha.1 x.1, hg.2.2.1.1 x.2.1⟩
        obtain ⟨a1, a2⟩ := moon_plain hg (by omega) hn d
        rw [if_neg (by cases thirteen <;> cases seen <;> simp_all), List.foldl_cons, ← a2]
        exact moons_account ha haf ht _ _ _ a1 (Or.inl hle)
    | false =>
      have hk : k ≤ 11 ∧ Room thirteen (k + 1) seen es := by
        rcases hr with ⟨x, y⟩ | ⟨x, y, z, w⟩
        · exact ⟨by omega, Or.inl ⟨x, by omega⟩⟩
        · have w' : Pair es := w.resolve_left (fun q => by rw [hp] at q; exact absurd q.2 (by decide))
          have := pair_two w'
          exact ⟨by omega, Or.inr ⟨x, y, by omega, w'⟩⟩
      obtain ⟨a1, a2⟩ := moon_plain (next := false) hg hk.1 (all := all) (by simp) d
      rw [if_neg (by simp), List.foldl_cons, ← a2]
      exact moons_account ha haf ht _ _ _ a1 hk.2

/-! ## The log -/

/-- The lines of a sui without what is too much in them. -/
def SuiText (s : Sui) (text : List (List Nat)) : Prop :=
  ∃ l more, text = l :: more ∧ SolsticeText l s.year ∧ List.Forall₂ EventText more s.events

theorem events_length (es : List Event) : es.length = (es.filter (fun e => !e.isMoon)).length + moonsIn es := by
  unfold moonsIn
  induction es with
  | nil => rfl
  | cons e es ih => cases h : e.isMoon <;> simp [h, ih] <;> omega

theorem valid_length {s : Sui} (h : s.Valid) : s.events.length = 11 + moonsIn s.events := by
  rw [events_length, h.1]

/-- `year0`, when it isn't known yet. -/
def known (s : Static) (year : Int) : Static := if s.year0 = 0 then { s with year0 := s16 (year + 1) } else s

theorem dump_sui {s : Sui} {text : List (List Nat)} (hv : s.Valid) (h : SuiText s text) {after : List Nat} (ha : after[8]? ≠ some 32) (t : Static) :
    dump text after t = s.months.foldl account (known t s.year) := by
  obtain ⟨l, more, rfl, hl, hm⟩ := h
  have hlen : (l :: more).length = 25 ↔ decide (moonsIn s.events = 13) = true := by
    rw [List.length_cons, hm.length_eq, valid_length hv, decide_eq_true_iff]
    omega
  unfold dump
  simp only [List.headD_cons, number_atoi hl.2.2]
  rw [moons, if_neg (by rw [pack_byte hl.1]; decide)]
  exact moons_account hlen ha hm 0 false _ ⟨rfl, rfl, by simp, fun e => by simp at e⟩ (valid_room hv)

theorem unmarked {l : List Nat} {e : Event} (h : EventText l e) : marked l = false := by
  by_contra hc
  have := (marked_iff l).1 (by simpa using hc)
  cases e with
  | term => exact h.2 this
  | moon d => exact h.2.1 this

/-- Lines between solstices are kept. -/
theorem loop_events {rest : List (List Nat)} {t : Static} : ∀ {ls : List (List Nat)} {es : List Event},
    List.Forall₂ (fun x e => Line (EventText · e) x) ls es → ∀ (text : List (List Nat)), text.length + ls.length ≤ 25 →
    loop (ls ++ rest) text t = loop rest (text ++ ls.map shift) t
  | _, _, .nil => by intro text _; simp
  | _, _, .cons (a := l) (b := e) (l₁ := ls) (l₂ := es) h ht => by
    intro text hl
    have hu : marked (shift l) = false := unmarked (shift_line (P := (EventText · e)) h)
    rw [List.length_cons] at hl
    rw [List.cons_append, loop]
    simp only [hu, Bool.false_eq_true, false_and, if_false]
    rw [if_neg (by rw [List.length_append, List.length_singleton]; omega),
      loop_events ht _ (by rw [List.length_append, List.length_singleton]; omega)]
    simp

theorem map_shift {ls : List (List Nat)} {es : List Event} (h : List.Forall₂ (fun x e => Line (EventText · e) x) ls es) :
    List.Forall₂ EventText (ls.map shift) es := by
  induction h with
  | nil => exact .nil
  | cons h _ ih => exact .cons (shift_line (P := (EventText · _)) h) ih

/-- The lines of a sui, when those of another were before them. -/
theorem loop_sui {s : Sui} {ls : List (List Nat)} (h : SuiLines s ls) (hl : s.events.length ≤ 24) : ∃ text', SuiText s text' ∧
    ∀ (rest : List (List Nat)) (t : Static),
      loop (ls ++ rest) [] t = loop rest text' t ∧
      ∀ (r : Sui) (text : List (List Nat)), r.Valid → SuiText r text → loop (ls ++ rest) text t = loop rest text' (r.months.foldl account (known t r.year)) := by
  obtain ⟨l, more, rfl, h1, h2⟩ := h
  have h1' : SolsticeText (shift l) s.year := shift_line (P := (SolsticeText · s.year)) h1
  have hm : marked (shift l) = true := (marked_iff _).2 h1'.2.1
  have hlen := h2.length_eq
  have h25 : ¬ (([] : List (List Nat)) ++ [shift l]).length > 25 := by simp
  refine ⟨shift l :: more.map shift, ⟨_, _, rfl, h1', map_shift h2⟩, fun rest t => ⟨?_, fun r text hr hx => ?_⟩⟩
  · rw [List.cons_append, loop]
    simp only [hm, List.length_nil, if_true]
    rw [if_neg h25, if_neg (by decide), loop_events h2 _ (by simp; omega)]
    rfl
  · have hx' := hx
    obtain ⟨l', more', rfl, _, hm'⟩ := hx'
    have e : (l' :: more').length = 24 ∨ (l' :: more').length = 25 := by
      have h3 : moonsIn r.events = 12 ∨ moonsIn r.events = 13 := hr.2
      rw [List.length_cons, hm'.length_eq, valid_length hr]
      omega
    rw [List.cons_append, loop]
    simp only [hm, if_true]
    rw [if_neg h25, if_pos ⟨trivial, e⟩, dump_sui hr hx (by rw [h1'.1]; decide), loop_events h2 _ (by simp; omega)]
    rfl

theorem known_of {s : Static} (h : s.year0 ≠ 0) (y : Int) : known s y = s := by rw [known, if_neg h]

@[simp] theorem set_year0 (s : Static) (y : Int) (f) : (s.set y f).year0 = s.year0 := by unfold Static.set; split_ifs <;> rfl
@[simp] theorem set_n (s : Static) (y : Int) (f) : (s.set y f).n = s.n := by unfold Static.set; split_ifs <;> rfl
@[simp] theorem set_bitmask (s : Static) (y : Int) (f) : (s.set y f).bitmask = s.bitmask := by unfold Static.set; split_ifs <;> rfl
@[simp] theorem set_prevJd (s : Static) (y : Int) (f) : (s.set y f).prevJd = s.prevJd := by unfold Static.set; split_ifs <;> rfl

theorem account_fixed (s : Static) (m : Month) : (account s m).year0 = s.year0 ∧ (account s m).n = s.n := by
  unfold account Static.keep Static.leap Static.begin Static.bit
  constructor <;> · dsimp only; split_ifs <;> simp

theorem accounts_fixed (ms : List Month) : ∀ (s : Static), (ms.foldl account s).year0 = s.year0 ∧ (ms.foldl account s).n = s.n := by
  induction ms with
  | nil => intro s; exact ⟨rfl, rfl⟩
  | cons m ms ih => intro s; exact ⟨(ih _).1.trans (account_fixed s m).1, (ih _).2.trans (account_fixed s m).2⟩

/-- The suis that follow one. -/
theorem loop_suis : ∀ {suis : List Sui} {lss : List (List (List Nat))}, List.Forall₂ SuiLines suis lss → (∀ s ∈ suis, s.Valid) →
    ∀ (last : Sui) (lls : List (List Nat)), SuiLines last lls → last.events.length ≤ 24 → ∀ (r : Sui) (text : List (List Nat)) (t : Static),
    r.Valid → SuiText r text → t.year0 ≠ 0 → loop (lss.flatten ++ lls) text t = some ((r.months ++ suis.flatMap Sui.months).foldl account t)
  | _, _, .nil, _ => by
    intro last lls hl hlen r text t hr hx ht
    obtain ⟨text', _, hw⟩ := loop_sui hl hlen
    have := (hw [] t).2 r text hr hx
    rw [List.append_nil] at this
    simp only [List.flatten_nil, List.nil_append, List.flatMap_nil, List.append_nil]
    rw [this, loop, known_of ht]
  | _, _, .cons (a := s) (b := ls) (l₁ := suis) (l₂ := lss) h hs, hv => by
    intro last lls hl hlen r text t hr hx ht
    have hv1 : s.Valid := hv s (by simp)
    have hmo : moonsIn s.events = 12 ∨ moonsIn s.events = 13 := hv1.2
    obtain ⟨text', hx', hw⟩ := loop_sui h (by rw [valid_length hv1]; omega)
    rw [List.flatten_cons, List.append_assoc, (hw _ t).2 r text hr hx, known_of ht,
      loop_suis hs (fun x hx => hv x (by simp [hx])) _ _ hl hlen s text' _ hv1 hx' (by rw [(accounts_fixed _ _).1]; exact ht)]
    rw [List.flatMap_cons, ← List.foldl_append]

/-- The whole log: the months of all suis but the last, which isn't complete, are entered. -/
theorem loop_log {first : Sui} {suis : List Sui} {lss : List (List (List Nat))} {last : Sui} {lls : List (List Nat)}
    (h : List.Forall₂ SuiLines (first :: suis) lss) (hv : ∀ s ∈ first :: suis, s.Valid) (hl : SuiLines last lls) (hlen : last.events.length ≤ 24)
    (hy : s16 (first.year + 1) ≠ 0) (n : Int) :
    loop (lss.flatten ++ lls) [] (Static.start n)
      = some (((first :: suis).flatMap Sui.months).foldl account { Static.start n with year0 := s16 (first.year + 1) }) := by
  cases h with
  | @cons _ ls _ lss h hs =>
    have hv1 : first.Valid := hv first (by simp)
    have hmo : moonsIn first.events = 12 ∨ moonsIn first.events = 13 := hv1.2
    obtain ⟨text', hx', hw⟩ := loop_sui h (by rw [valid_length hv1]; omega)
    have hk : known (Static.start n) first.year = { Static.start n with year0 := s16 (first.year + 1) } := by
      unfold known; rw [if_pos (show (Static.start n).year0 = 0 from rfl)]
    rw [List.flatten_cons, List.append_assoc, (hw _ _).1, List.flatMap_cons]
    cases hs with
    | nil =>
      obtain ⟨text2, _, hw2⟩ := loop_sui hl hlen
      have := (hw2 [] (Static.start n)).2 first text' hv1 hx'
      rw [List.append_nil] at this
      simp only [List.flatten_nil, List.nil_append, List.flatMap_nil, List.append_nil]
      rw [this, loop, hk]
    | @cons s ls2 suis' lss' h2 hs2 =>
      have hv2 : s.Valid := hv s (by simp)
      have hmo2 : moonsIn s.events = 12 ∨ moonsIn s.events = 13 := hv2.2
      obtain ⟨text2, hx2, hw2⟩ := loop_sui h2 (by rw [valid_length hv2]; omega)
      rw [List.flatten_cons, List.append_assoc, (hw2 _ _).2 first text' hv1 hx', hk,
        loop_suis hs2 (fun x hx => hv x (by simp [hx])) _ _ hl hlen s text2 _ hv2 hx2 (by rw [(accounts_fixed _ _).1]; exact hy)]
      rw [List.flatMap_cons, ← List.foldl_append]

end Verif.Props
