import Verif.Props.AdesXml

/-!
# C88: the same values in XML and in columns

Several elements are read beyond the end of their values: a number up to the first byte that is no part of it, a station code three bytes
long, a time up to the `Z`.  For values that are whole this makes no difference, so that the two forms of a file give out the same lines.
-/

set_option linter.unusedSimpArgs false

namespace Verif.Props

open Verif Verif.Ades Verif.AdesObs Verif.Spec

/-- What may follow a value: nothing, a blank, a bar, the start of a tag. -/
def Ends (m : List Nat) : Prop := ∀ b ∈ m.head?, b = 32 ∨ b = 124 ∨ b = 60

/-- A value that does not end too soon. -/
structure WholeValue (t : Int) (s : List Nat) : Prop where
  last : ∃ b, s.getLast? = some b ∧ 32 < b
  stn : t = 132 → 3 ≤ s.length
  time : t = 65 → 14 ≤ s.length ∧ 90 ∈ s.drop 2

theorem at_append {s : List Nat} {i : Nat} (h : i < s.length) (m : List Nat) : at? (s ++ m) i = at? s i := by
  unfold at?
  simp [List.getElem?_append_left h]

theorem ends_zero {m : List Nat} (h : Ends m) : at? m 0 = 0 ∨ at? m 0 = 32 ∨ at? m 0 = 124 ∨ at? m 0 = 60 := by
  cases m with
  | nil => left; rfl
  | cons b m => right; exact h b (by simp)

theorem ends_digit {m : List Nat} (h : Ends m) : digitCount m = 0 ∧ ∀ v, readDigits v m = v := by
  cases m with
  | nil => exact ⟨rfl, fun _ => rfl⟩
  | cons b m =>
    have : isDigit b = false := by
      rcases h b (by simp) with rfl | rfl | rfl <;> rfl
    simp [digitCount, readDigits, this]

theorem digitCount_ends {m : List Nat} (h : Ends m) : ∀ s, digitCount (s ++ m) = digitCount s
  | [] => (ends_digit h).1
  | c :: s => by
    rw [List.cons_append, digitCount, digitCount, digitCount_ends h s]

theorem readDigits_ends {m : List Nat} (h : Ends m) : ∀ v s, readDigits v (s ++ m) = readDigits v s
  | v, [] => (ends_digit h).2 v
  | v, c :: s => by
    rw [List.cons_append, readDigits, readDigits, readDigits_ends h _ s]

theorem digitCount_le' : ∀ s, digitCount s ≤ s.length
  | [] => by simp [digitCount]
  | c :: s => by
    rw [digitCount]
    have := digitCount_le' s
    split <;> simp <;> omega

theorem sign_ends {m : List Nat} (h : Ends m) (s : List Nat) : Scan.sign (s ++ m) = ((Scan.sign s).1, (Scan.sign s).2 ++ m) := by
  cases s with
  | nil =>
    cases m with
    | nil => rfl
    | cons b m => rcases h b (by simp) with rfl | rfl | rfl <;> rfl
  | cons c s =>
    unfold Scan.sign
    simp only [List.cons_append]
    split <;> simp_all

theorem atof_ends {m : List Nat} (h : Ends m) {s : List Nat} (hs : ∃ b ∈ s, isSpace b = false) : MpcLine.atof (s ++ m) = MpcLine.atof s := by
  have hskip : ∀ s : List Nat, (∃ b ∈ s, isSpace b = false) → Scan.skipSpace (s ++ m) = Scan.skipSpace s ++ m := by
    intro s
    induction s with
    | nil => rintro ⟨b, hb, -⟩; simp at hb
    | cons c s ih =>
      rintro ⟨b, hb, hb'⟩
      rw [List.cons_append, Scan.skipSpace, Scan.skipSpace]
      by_cases hc : isSpace c = true
      · rw [if_pos hc, if_pos hc]
        refine ih ⟨b, ?_, hb'⟩
        rcases List.mem_cons.1 hb with rfl | hb
        · rw [hc] at hb'; cases hb'
        · exact hb
      · rw [if_neg hc, if_neg hc]; rfl
  have hat : ∀ r : List Nat, ∀ x, (x = 46 ∨ x = 101 ∨ x = 69) → (at? (r ++ m) 0 = x ↔ at? r 0 = x) := by
    intro r x hx
    cases r with
    | nil =>
      have := ends_zero h
      rw [List.nil_append, show at? [] 0 = 0 from rfl]
      omega
    | cons b r => rfl
  have hdrop : ∀ r : List Nat, (r ++ m).drop (digitCount r) = r.drop (digitCount r) ++ m := by
    intro r
    rw [List.drop_append_of_le_length (digitCount_le' r)]
  have hman : ∀ t : List Nat, Scan.mantissa (t ++ m) = (Scan.mantissa t).map fun q => (q.1, q.2.1, q.2.2 ++ m) := by
    intro t
    unfold Scan.mantissa
    simp only [digitCount_ends h, hdrop, readDigits_ends h, hat _ 46 (by simp)]
    by_cases h46 : at? (t.drop (digitCount t)) 0 = 46
    · rw [if_pos h46, if_pos h46]
      obtain ⟨r, hr⟩ : ∃ r, t.drop (digitCount t) = 46 :: r := by
        cases hr : t.drop (digitCount t) with
        | nil => rw [hr] at h46; cases h46
        | cons b r => rw [hr] at h46; exact ⟨r, by rw [show b = 46 from h46]⟩
      rw [hr]
      simp only [List.cons_append, List.drop_succ_cons, List.drop_zero, digitCount_ends h, readDigits_ends h]
      split
      · rfl
      · simp only [Option.map_some]
        rw [List.drop_append_of_le_length (digitCount_le' r)]
    · rw [if_neg h46, if_neg h46]
      split <;> rfl
  have hexp : ∀ r : List Nat, (Scan.exponent (r ++ m)).map (·.1) = (Scan.exponent r).map (·.1) := by
    intro r
    unfold Scan.exponent
    simp only [hat _ 101 (by simp), hat _ 69 (by simp)]
    by_cases he : at? r 0 = 101 ∨ at? r 0 = 69
    · rw [if_pos he, if_pos he]
      obtain ⟨b, r', rfl⟩ : ∃ b r', r = b :: r' := by
        cases r with
        | nil => rw [show at? [] 0 = 0 from rfl] at he; omega
        | cons b r => exact ⟨b, r, rfl⟩
      simp only [List.cons_append, List.drop_succ_cons, List.drop_zero, sign_ends h, digitCount_ends h, readDigits_ends h]
      split <;> rfl
    · rw [if_neg he, if_neg he]
  unfold MpcLine.atof Scan.strtold
  rw [hskip s hs, sign_ends h]
  simp only [hman]
  cases hm : Scan.mantissa (Scan.sign (Scan.skipSpace s)).2 with
  | none => rfl
  | some q =>
    obtain ⟨v, p, r⟩ := q
    simp only [Option.map_some]
    have := hexp r
    cases h1 : Scan.exponent (r ++ m) <;> cases h2 : Scan.exponent r <;> rw [h1, h2] at this <;> simp at this
    · simp only
      rw [this]

theorem atoi_ends {m : List Nat} (h : Ends m) : ∀ {s : List Nat}, (∃ b ∈ s, isSpace b = false) → atoi (s ++ m) = atoi s
  | [], ⟨b, hb, _⟩ => by simp at hb
  | c :: s, ⟨b, hb, hb'⟩ => by
    rw [List.cons_append, atoi, atoi]
    by_cases hc : isSpace c = true
    · rw [if_pos hc, if_pos hc]
      refine atoi_ends h ⟨b, ?_, hb'⟩
      rcases List.mem_cons.1 hb with rfl | hb
      · rw [hc] at hb'; cases hb'
      · exact hb
    · rw [if_neg hc, if_neg hc, ← List.cons_append, readDigits_ends h, readDigits_ends h]

theorem space_last {s : List Nat} (h : ∃ b, s.getLast? = some b ∧ 32 < b) : ∃ b ∈ s, isSpace b = false := by
  obtain ⟨b, h1, h2⟩ := h
  refine ⟨b, List.mem_of_getLast? h1, ?_⟩
  rw [Bool.eq_false_iff]
  intro h
  unfold isSpace at h
  simp only [Bool.or_eq_true, beq_iff_eq, Bool.and_eq_true, decide_eq_true_eq] at h
  omega

theorem placeValue_ends {m : List Nat} (h : Ends m) {s : List Nat} (hs : s = [] ∨ ∃ b, s.getLast? = some b ∧ 32 < b) (k : Nat) :
    placeValue s m k = placeValue s [] k := by
  rcases hs with rfl | hs
  · unfold placeValue
    simp only [List.length_nil]
    rw [if_neg (show ¬ (0 - pointLoc [] 0 0 > 8) by omega), if_neg (show ¬ (0 - pointLoc [] 0 0 > 8) by omega)]
  · unfold placeValue
    rw [atof_ends h (space_last hs), List.append_nil]

theorem timeBytes_whole : ∀ {s : List Nat} (m : List Nat), 90 ∈ s → timeBytes (s ++ m) = timeBytes s
  | [], m, h => by simp at h
  | c :: s, m, h => by
    rw [List.cons_append, timeBytes, timeBytes]
    by_cases hc : c = 90
    · rw [if_pos hc, if_pos hc]
    · have hs : 90 ∈ s := by
        rcases List.mem_cons.1 h with h | h
        · exact absurd h.symm hc
        · exact h
      rw [if_neg hc, if_neg hc, timeBytes_whole m hs]

theorem last_drop {s : List Nat} (h : ∃ b, s.getLast? = some b ∧ 32 < b) : s.drop 1 = [] ∨ ∃ b, (s.drop 1).getLast? = some b ∧ 32 < b := by
  obtain ⟨b, h1, h2⟩ := h
  rcases s with _ | ⟨a, _ | ⟨a', s⟩⟩
  · left; rfl
  · left; rfl
  · right
    exact ⟨b, by simpa using h1, h2⟩

/-- **C88.** What follows a whole value makes no difference. -/
theorem C88_whole (e : Ext) (c : Ctx) {t : Int} {s m : List Nat} (hs : WholeValue t s) (hm : Ends m) : processTag e c t s m = processTag e c t s [] := by
  have hne : 0 < s.length := by
    obtain ⟨b, h1, -⟩ := hs.last
    cases s with
    | nil => cases h1
    | cons => simp
  have hsp := space_last hs.last
  by_cases h132 : t = 132
  · have h3 := hs.stn h132
    subst h132
    have hq : ∀ m, processTag e c 132 s m = .ok (c.put 77 [at? (s ++ m) 0, at? (s ++ m) 1, at? (s ++ m) 2], [], 0) := fun _ => rfl
    rw [hq, hq, at_append (by omega), at_append (by omega), at_append (by omega), List.append_nil]
  by_cases h65 : t = 65
  · obtain ⟨h14, hz⟩ := hs.time h65
    subst h65
    have hf : fitsTime (s ++ m) = fitsTime (s ++ []) := by
      unfold fitsTime
      rw [List.append_nil, at_append (by omega), at_append (by omega), at_append (by omega), at_append (by omega), at_append (by omega),
        at_append (by omega), List.drop_append_of_le_length (by omega), timeBytes_whole m hz]
    have hq : ∀ m, processTag e c 65 s m = (obsTime e c s m).bind fun c => .ok (c, [], 0) := fun _ => rfl
    rw [hq, hq]
    unfold obsTime
    rw [hf, atoi_ends hm hsp, List.append_nil]
  by_cases h19 : t = 19
  · subst h19
    have hb : bandByte (s ++ m) = bandByte (s ++ []) := by
      have h0 : at? (s ++ m) 0 = at? s 0 := at_append hne m
      by_cases h2 : 1 < s.length
      · have h1 : at? (s ++ m) 1 = at? s 1 := at_append h2 m
        unfold bandByte
        rw [h0, h1, List.append_nil]
      · obtain ⟨a, rfl⟩ : ∃ a, s = [a] := by
          rcases s with _ | ⟨a, _ | ⟨a', s⟩⟩
          · simp at hne
          · exact ⟨a, rfl⟩
          · simp at h2
        have h1 : at? ([a] ++ m) 1 = at? m 0 := rfl
        have h1' : at? ([a] ++ []) 1 = 0 := rfl
        have hz := ends_zero hm
        have hno : ∀ x, (x = 0 ∨ x = 32 ∨ x = 124 ∨ x = 60) → x ∉ bytes "grizwy" := by
          rintro x (rfl | rfl | rfl | rfl) <;> decide
        unfold bandByte
        rw [h1, h1', if_neg (fun h => hno _ hz h.2), if_neg (by omega), if_neg (by omega), if_neg (fun h => hno _ (.inl rfl) h.2), if_neg (by omega),
          if_neg (by omega)]
        rfl
    have hq : ∀ m, processTag e c 19 s m = ((check (0 < s.length ∧ s.length < 4)).bind fun _ => .ok { c.put 70 [bandByte (s ++ m)] with band := s }).bind
      fun c => .ok (c, [], 0) := fun _ => rfl
    rw [hq, hq, hb]
  by_cases h37 : t = 37
  · subst h37
    have hq : ∀ m, processTag e c 37 s m = .ok ((if at? (s ++ m) 0 = 42 then c.put 12 [42] else c), [], 0) := fun _ => rfl
    rw [hq, hq, at_append hne, List.append_nil]
  by_cases h94 : t = 94
  · subst h94
    have ha : atoi (s ++ m) = atoi (s ++ []) := by rw [atoi_ends hm hsp, List.append_nil]
    have hq : ∀ m, processTag e c 94 s m = ((check (s.length < 3)).bind fun _ => .ok { (if 0 ≤ atoi (s ++ m) ∧ atoi (s ++ m) ≤ 34 then
      c.put 13 [at? programs (atoi (s ++ m)).toNat] else c) with prog := s }).bind fun c => .ok (c, [], 0) := fun _ => rfl
    rw [hq, hq, ha]
  by_cases h96 : t = 96
  · subst h96
    rw [tag_ra, tag_ra]
    unfold placeRa
    simp only
    split
    · rw [placeValue_ends hm (last_drop hs.last)]
    · rw [placeValue_ends hm (.inr hs.last)]
  by_cases h29 : t = 29
  · subst h29
    rw [tag_dec, tag_dec]
    unfold placeDec
    simp only
    split
    · rw [placeValue_ends hm (last_drop hs.last)]
    · rw [placeValue_ends hm (.inr hs.last)]
  unfold processTag
  extract_lets quiet
  refine ite_congr rfl (fun _ => rfl) fun _ => ?_
  refine ite_congr rfl (fun _ => rfl) fun _ => ?_
  refine ite_congr rfl (fun h => absurd h h132) fun _ => ?_
  refine ite_congr rfl (fun h => absurd h h65) fun _ => ?_
  refine ite_congr rfl (fun h => absurd h h19) fun _ => ?_
  refine ite_congr rfl (fun _ => rfl) fun _ => ?_
  refine ite_congr rfl (fun _ => rfl) fun _ => ?_
  refine ite_congr rfl (fun h => absurd h h37) fun _ => ?_
  refine ite_congr rfl (fun _ => rfl) fun _ => ?_
  refine ite_congr rfl (fun h => absurd h h94) fun _ => ?_
  refine ite_congr rfl (fun _ => rfl) fun _ => ?_
  refine ite_congr rfl (fun _ => rfl) fun _ => ?_
  refine ite_congr rfl (fun _ => rfl) fun _ => ?_
  refine ite_congr rfl (fun _ => rfl) fun _ => ?_
  refine ite_congr rfl (fun h => absurd h h96) fun _ => ?_
  refine ite_congr rfl (fun h => absurd h h29) fun _ => ?_
  rfl

/-- The same values for the same elements, whatever follows them. -/
inductive SameValues : List Elem → List Elem → Prop where
  | nil : SameValues [] []
  | cons {t : Int} {s m m' : List Nat} {x y : List Elem} : WholeValue t s → Ends m → Ends m' → SameValues x y →
      SameValues ((t, s, m) :: x) ((t, s, m') :: y)

/-- **C88.** The same values leave the same fields. -/
theorem C88_same {e : Ext} {c k : Ctx} {x y : List Elem} (h : SameValues x y) (ht : Taken e c x k) : Taken e c y k := by
  induction h generalizing c with
  | nil => exact ht
  | cons hs hm hm' _ ih =>
    cases ht with
    | cons hn hp hr =>
      refine .cons (o := _) hn (Eq.trans ?_ hp) (ih hr)
      rw [C88_whole e _ hs hm', ← C88_whole e _ hs hm]

/-- **C88.** The same values in columns and in XML: the same lines are given out. -/
theorem C88_same_lines {e : Ext} {n : Nat} (hn : 9 ≤ n) {ts : List Int} {c c' k : Ctx} (hc : InSection ts c) (ht : ∀ t ∈ ts, 0 ≤ t)
    {xs : List PsvCell} (hx : DataRow ts xs) {st : List Int} (hc' : InFile st c') (hst : st.length < 19)
    (hcc : c' = dress c'.st c'.psv c'.passed c'.getting c) {ls : List (List Nat)} {els : List Elem} (hl : XmlObs st ls els)
    (hs : SameValues (psvElems ts xs) els) (hk : Taken e (setup c) (psvElems ts xs) k) (hm : Moderate k) (h0 : k.line 0 ≠ 0) :
    ∃ d d' out, rounds e n c (psvRow xs) = some (.ok (d, out)) ∧ translate e n c' ls = some (.ok (d', out)) ∧
      InSection ts d ∧ InFile st d' := by
  obtain ⟨d, h1, h2, -⟩ := C87_line hc ht hx hk.feed hm
  have hk' : Taken e (setup c') els (dress c'.st c'.psv c'.passed c'.getting k) := by
    have := (C88_same hs hk).dress c'.st c'.psv c'.passed c'.getting
    rw [hcc]
    exact this
  have hsh : Short c' := by
    rw [hcc]
    exact { hc.short with }
  obtain ⟨d', s, h3, h4, -, -⟩ := C88_observation e hn hl hc' hsh hst hk' ⟨hm.center, hm.time, hm.vel⟩ h0
  exact ⟨d, d', _, h1 n hn, h3, h2, h4⟩

/-! ### The hypotheses can be met -/

/-- The same station and mark of a discovery in a line of columns and in an observation. -/
def samplePsv : List Elem := [(132, bytes "703", bytes " |*"), (37, bytes "*", [])]

def sampleXml : List Elem := [(132, bytes "703", bytes "</stn> <disc>* </disc> </optical>"), (37, bytes "*", bytes " </disc> </optical>")]

theorem sample_same : SameValues samplePsv sampleXml :=
  .cons ⟨⟨51, by decide, by decide⟩, fun _ => by decide, fun h => absurd h (by decide)⟩ (by unfold Ends; decide) (by unfold Ends; decide)
    (.cons ⟨⟨42, by decide, by decide⟩, fun h => absurd h (by decide), fun h => absurd h (by decide)⟩ (by unfold Ends; decide) (by unfold Ends; decide) .nil)

theorem sample_inner {st : List Int} (hs : st.length < 18) :
    Inner (bytes "<stn>703</stn> <disc>* </disc> </optical>") (optical :: st) sampleXml (bytes "</optical>") (optical :: st) := by
  refine .opn (body := bytes "stn") (ws := []) (rest := bytes "703</stn> <disc>* </disc> </optical>") (t := 132) (by decide) (by decide) (by decide)
    (by decide +kernel) (by decide) (by simp; omega) ?_
  refine .text (s := bytes "703") (ws := []) (rest := bytes "</stn> <disc>* </disc> </optical>") (by decide) (by decide) (by decide) (by decide)
    (by decide) ?_
  refine .cls (body := bytes "/stn") (ws := [32]) (rest := bytes "<disc>* </disc> </optical>") (t := 132) (by decide) (by decide) (by decide)
    (by decide +kernel) (by decide) ?_
  refine .opn (body := bytes "disc") (ws := []) (rest := bytes "* </disc> </optical>") (t := 37) (by decide) (by decide) (by decide)
    (by decide +kernel) (by decide) (by simp; omega) ?_
  refine .text (s := bytes "*") (ws := [32]) (rest := bytes "</disc> </optical>") (by decide) (by decide) (by decide) (by decide) (by decide) ?_
  exact .cls (body := bytes "/disc") (ws := [32]) (rest := bytes "</optical>") (t := 37) (by decide) (by decide) (by decide)
    (by decide +kernel) (by decide) (.nil (by decide))

theorem sample_taken (e : Ext) (c : Ctx) : Taken e c sampleXml ((c.put 77 (bytes "703")).put 12 [42]) :=
  .cons (o := []) (by decide) rfl (.cons (o := []) (by decide) rfl .nil)

/-- An observation on two lines. -/
theorem sample_obs {st : List Int} (hs : st.length < 18) :
    XmlObs st [bytes " <optical>", bytes "<stn>703</stn> <disc>* </disc> </optical>"] sampleXml :=
  .mk (ws := [32]) (l := []) (ls := [bytes "<stn>703</stn> <disc>* </disc> </optical>"]) (by decide)
    ⟨.inl (by decide), by decide, .inl (by decide)⟩
    (by
      intro l hl
      rw [List.mem_singleton.1 hl]
      exact ⟨.inl (by decide), by decide, .inl (by decide)⟩)
    (.more (ws := []) (line := []) (els := []) (by decide) (by decide) (.nil (by decide)) (by simp)
      (.last (ws := []) (ws' := []) (by decide) (by decide) (by decide) (sample_inner hs)))

/-- C88_observation applies to it, and the lines come out. -/
example (e : Ext) {c : Ctx} (hc : InFile [0] c) (hs : Short c) (hv : c.vel = (0, 0, 0)) :
    ∃ d s k, translate e 9 c [bytes " <optical>", bytes "<stn>703</stn> <disc>* </disc> </optical>"] =
      some (.ok (d, (report k).map fun l => (trim l, (1 : Int)))) ∧ InFile [0] d ∧ Rest { k with st := s, getting := true } d ∧
      k.line 77 = 55 ∧ k.line 12 = 42 := by
  obtain ⟨d, s, h1, h2, -, h3⟩ := C88_observation e (n := 9) (by omega) (sample_obs (st := [0]) (by decide)) hc hs (by decide) (sample_taken e _)
    ⟨by change (decInt 399).length ≤ 8; decide, (by intro x hx; cases hx), by
      intro l hl
      rw [velLine, if_pos (by exact hv)] at hl
      cases hl⟩ (by change (32 : Nat) ≠ 0; decide)
  exact ⟨d, s, _, h1, h2, h3, by rfl, by rfl⟩

end Verif.Props
