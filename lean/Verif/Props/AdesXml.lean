import Verif.Props.AdesPsv

/-!
# C88: ADES files in XML

A line is written as tags and texts (`Inner`), which says which element each text belongs to.  An observation may be spread over any
number of lines.  It gives out the lines described in C86, and the same ones as the same values in columns (C87).
-/

set_option linter.unusedSimpArgs false

namespace Verif.Props

open Verif Verif.Ades Verif.AdesObs Verif.Spec

/-! ### Reading a line -/

/-- `line` is written as tags and texts, each followed by any white space, up to `tail`.  `st` are the elements open before it, the
    innermost first, `st'` those open after it; `els` are the texts with the elements they stand in and what follows them. -/
inductive Inner : List Nat → List Int → List Elem → List Nat → List Int → Prop where
  | nil {tail st} : (∀ c ∈ tail.head?, c = 60) → Inner tail st [] tail st
  | opn {body ws rest t st els tail st'} : (∀ c ∈ body, c ≠ 62) → (∀ c ∈ ws, isSpace c = true) → (∀ c ∈ rest.head?, isSpace c = false) →
      tokOf body = .opn t → t ≠ optical → st.length < 19 → Inner rest (t :: st) els tail st' →
      Inner (60 :: (body ++ 62 :: (ws ++ rest))) st els tail st'
  | cls {body ws rest t st els tail st'} : (∀ c ∈ body, c ≠ 62) → (∀ c ∈ ws, isSpace c = true) → (∀ c ∈ rest.head?, isSpace c = false) →
      tokOf body = .cls t → t ≠ optical → Inner rest st els tail st' →
      Inner (60 :: (body ++ 62 :: (ws ++ rest))) (t :: st) els tail st'
  | other {body ws rest st els tail st'} : (∀ c ∈ body, c ≠ 62) → (∀ c ∈ ws, isSpace c = true) → (∀ c ∈ rest.head?, isSpace c = false) →
      tokOf body = .other → Inner rest st els tail st' → Inner (60 :: (body ++ 62 :: (ws ++ rest))) st els tail st'
  | text {s ws rest t st els tail st'} : (∀ c ∈ s, c ≠ 60) → (∀ c ∈ s.getLast?, 32 < c) → s ≠ [] → (∀ c ∈ ws, isSpace c = true) →
      (∀ c ∈ rest.head?, c = 60) → Inner rest (t :: st) els tail st' →
      Inner (s ++ (ws ++ rest)) (t :: st) ((t, s, ws ++ rest) :: els) tail st'

/-- The elements are taken in one after the other, none of them being a header or a bad position. -/
inductive Taken (e : Ext) : Ctx → List Elem → Ctx → Prop where
  | nil {c} : Taken e c [] c
  | cons {c d k : Ctx} {t : Int} {s more o : List Nat} {els : List Elem} : ¬ (t = 55 ∨ t = 47 ∨ t = 46) →
      processTag e c t s more = .ok (d, o, 0) → Taken e d els k → Taken e c ((t, s, more) :: els) k

theorem Taken.feed {e : Ext} {c k : Ctx} {els : List Elem} (h : Taken e c els k) : feed e c els = .ok k := by
  induction h with
  | nil => rfl
  | cons _ h _ ih => rw [Props.feed, h]; exact ih

theorem Taken.append {e : Ext} {c d k : Ctx} {els els' : List Elem} (h : Taken e c els d) (h' : Taken e d els' k) : Taken e c (els ++ els') k := by
  induction h with
  | nil => exact h'
  | cons a b _ ih => exact .cons a b (ih h')

/-- The nesting, the columns and the flags play no part. -/
theorem Taken.dress {e : Ext} {c k : Ctx} {els : List Elem} (h : Taken e c els k) (a : St) (b : Option (List Int)) (p g : Bool) :
    Taken e (dress a b p g c) els (dress a b p g k) := by
  induction h with
  | nil => exact .nil
  | @cons _ _ _ _ _ _ o _ hn h _ ih =>
    refine .cons (o := o) hn ?_ ih
    rw [processTag_dress e a b p g _ hn, h]
    rfl

theorem xmlStep_tag (e : Ext) (body ws rest : List Nat) (c : Ctx) (out : List Nat) {r : Int} (hr : 0 ≤ r) (h : ∀ c ∈ body, c ≠ 62)
    (hw : ∀ c ∈ ws, isSpace c = true) (hh : ∀ c ∈ rest.head?, isSpace c = false) :
    (∀ t, tokOf body = .opn t → xmlStep e (60 :: (body ++ 62 :: (ws ++ rest))) c out r = (tagStep c.st r false t).bind fun q =>
      .ok (.next rest (if t = optical then setup { c with st := q.1 } else { c with st := q.1 }) out q.2)) ∧
    (∀ t, tokOf body = .cls t → xmlStep e (60 :: (body ++ 62 :: (ws ++ rest))) c out r = (tagStep c.st r true t).bind fun q =>
      .ok (.next rest (if t = optical then { c with st := q.1, getting := true } else { c with st := q.1 }) out q.2)) ∧
    (tokOf body = .other → xmlStep e (60 :: (body ++ 62 :: (ws ++ rest))) c out r = .ok (.next rest c out r)) := by
  have h2 := takeWhile_body (rest := ws ++ rest) h
  have h3 := findTag_tok body (ws ++ rest) h
  rw [Prod.ext_iff] at h3
  obtain ⟨h4, h5⟩ := h3
  have key : xmlStep e (60 :: (body ++ 62 :: (ws ++ rest))) c out r =
      (tagStep c.st r (at? (body ++ 62 :: (ws ++ rest)) 0 == 47) (findTag (body ++ 62 :: (ws ++ rest)) body.length)).bind fun q =>
        .ok (.next rest (if findTag (body ++ 62 :: (ws ++ rest)) body.length = optical then
          (if (at? (body ++ 62 :: (ws ++ rest)) 0 == 47) = true then { c with st := q.1, getting := true } else setup { c with st := q.1 })
          else { c with st := q.1 }) out q.2) := by
    unfold xmlStep
    rw [if_neg (by omega)]
    simp only [if_true]
    rw [h2.2, h2.1]
    simp only [skipWs_eq hw hh]
  refine ⟨fun t ht => ?_, fun t ht => ?_, fun ht => ?_⟩
  · rw [ht] at h4 h5
    simp only at h4 h5
    rw [key, h4, h5]
    rfl
  · rw [ht] at h4 h5
    simp only at h4 h5
    rw [key, h4, h5]
    rfl
  · rw [ht] at h5
    simp only at h5
    rw [key, h5]
    simp [tagStep, Outcome.bind, optical]

theorem xmlStep_text (e : Ext) (s ws rest : List Nat) (c : Ctx) (out : List Nat) {r : Int} (hr : 0 ≤ r) {t : Int} {st : List Int} (h : ∀ c ∈ s, c ≠ 60)
    (hl : ∀ c ∈ s.getLast?, 32 < c) (hs : s ≠ []) (hw : ∀ c ∈ ws, isSpace c = true) (hh : ∀ c ∈ rest.head?, c = 60)
    (hk : Keeps c.st (t :: st)) (hlen : st.length < 20) :
    xmlStep e (s ++ (ws ++ rest)) c out r = (processTag e c t s (ws ++ rest)).bind fun r => .ok (.next rest r.1 r.2.1 r.2.2) := by
  have hlen' := textLen_eq s ws rest h hl hs hw hh
  have hskip : skipWs (ws ++ rest) = rest := by
    refine skipWs_eq hw fun c hc => ?_
    rw [hh c hc]; decide
  have h1 := hk.1
  have h2 := hk.top
  simp only [List.length_cons] at h1
  have h3 : c.st.depth - 1 = (st.length : Int) := by omega
  have hread : c.st.read (c.st.depth - 1) = .ok t := by
    rw [h3]
    unfold St.read
    rw [if_pos (by omega), h2]
  cases s with
  | nil => exact (hs rfl).elim
  | cons b cs =>
    unfold xmlStep
    rw [if_neg (by omega)]
    simp only [List.cons_append]
    rw [if_neg (h b (by simp)), if_pos (by omega), hread]
    rw [← List.cons_append, hlen', List.drop_left, hskip, List.take_left]
    rfl

/-- Reading goes on at `tail`, the texts having been taken in. -/
theorem run_inner (e : Ext) (buff : List Nat) {line tail : List Nat} {st st' : List Int} {els : List Elem} (h : Inner line st els tail st') :
    ∀ {c k : Ctx} {out : List Nat} {r : Int} {n : Nat}, 0 ≤ r → Keeps c.st st → st.length ≤ 19 → Taken e c els k → line.length < n →
    ∃ m s out' r', xmlRun e buff n line c out r = xmlRun e buff m tail { k with st := s } out' r' ∧ Keeps s st' ∧ st'.length ≤ 19 ∧
      tail.length < m ∧ 0 ≤ r' ∧ (r = 0 → r' = 0) := by
  induction h with
  | nil _ =>
    intro c k out r n hr hk hl ht hn
    cases ht
    exact ⟨n, c.st, out, r, rfl, hk, hl, hn, hr, id⟩
  | @opn body ws rest t st els tail st' hb hw hh htok hopt hlen _ ih =>
    intro c k out r n hr hk hl ht hn
    obtain ⟨n, rfl⟩ : ∃ m, n = m + 1 := ⟨n - 1, by omega⟩
    have ht0 := (tokOf_code (body := body)).1 t htok
    have hstep := (xmlStep_tag e body ws rest c out hr hb hw hh).1 t htok
    rw [tagStep_opn hk t r ht0 (by omega), if_neg (by omega), Outcome.bind, if_neg hopt] at hstep
    have hk' := hk.push t
    obtain ⟨m, s, out', r', h1, h2, h3⟩ := ih (c := { c with st := ⟨c.st.depth + 1, fun j => if j = c.st.depth then t else c.st.tags j⟩ })
      (k := dress ⟨c.st.depth + 1, fun j => if j = c.st.depth then t else c.st.tags j⟩ k.psv k.passed k.getting k) (out := out) (n := n)
      hr hk' (by simp; omega) (by
        obtain ⟨a1, a2, a3, a4⟩ := feed_kept ht.feed
        rw [a2, a3, a4]
        exact ht.dress _ _ _ _) (by simp at hn; omega)
    refine ⟨m, s, out', r', ?_, h2, h3⟩
    rw [xmlRun, hstep]
    exact h1
  | @cls body ws rest t st els tail st' hb hw hh htok hopt _ ih =>
    intro c k out r n hr hk hl ht hn
    obtain ⟨n, rfl⟩ : ∃ m, n = m + 1 := ⟨n - 1, by omega⟩
    have ht0 := (tokOf_code (body := body)).2.1 t htok
    have hstep := (xmlStep_tag e body ws rest c out hr hb hw hh).2.1 t htok
    rw [tagStep_cls hk r ht0 (by simp at hl; omega), if_neg hopt, Outcome.bind, if_neg hopt] at hstep
    obtain ⟨m, s, out', r', h1, h2, h3⟩ := ih (c := { c with st := ⟨c.st.depth - 1, c.st.tags⟩ })
      (k := dress ⟨c.st.depth - 1, c.st.tags⟩ k.psv k.passed k.getting k) (out := out) (n := n)
      hr hk.pop (by simp at hl; omega) (by
        obtain ⟨a1, a2, a3, a4⟩ := feed_kept ht.feed
        rw [a2, a3, a4]
        exact ht.dress _ _ _ _) (by simp at hn; omega)
    refine ⟨m, s, out', r', ?_, h2, h3⟩
    rw [xmlRun, hstep]
    exact h1
  | @other body ws rest st els tail st' hb hw hh htok _ ih =>
    intro c k out r n hr hk hl ht hn
    obtain ⟨n, rfl⟩ : ∃ m, n = m + 1 := ⟨n - 1, by omega⟩
    have hstep := (xmlStep_tag e body ws rest c out hr hb hw hh).2.2 htok
    obtain ⟨m, s, out', r', h1, h2⟩ := ih (out := out) (n := n) hr hk hl ht (by simp at hn; omega)
    refine ⟨m, s, out', r', ?_, h2⟩
    rw [xmlRun, hstep]
    exact h1
  | @text s ws rest t st els tail st' hb hlast hne hw hh _ ih =>
    intro c k out r n hr hk hl ht hn
    obtain ⟨n, rfl⟩ : ∃ m, n = m + 1 := ⟨n - 1, by omega⟩
    cases ht with
    | @cons _ d _ _ _ _ o _ hnn hp htk =>
      have hstep := xmlStep_text e s ws rest c out hr hb hlast hne hw hh hk (by simp at hl; omega)
      rw [hp, Outcome.bind] at hstep
      obtain ⟨m, s', out', r', h1, h2, h3, h4, h5, h6⟩ := ih (out := o) (n := n) (r := 0) (by omega) (by rw [(processTag_kept hp).1]; exact hk) hl htk (by
        have : 0 < s.length := List.length_pos_iff.2 hne
        simp at hn; omega)
      refine ⟨m, s', out', r', ?_, h2, h3, h4, h5, fun _ => h6 rfl⟩
      rw [xmlRun, hstep]
      exact h1

/-! ### Lines of an observation -/

/-- Neither a header of columns nor the start of a header section nor a line with sigmas in columns 81 to 92. -/
structure PlainLine (s : List Nat) : Prop where
  header : s.count 124 < 3 ∨ isLower (at? (skipWs s) 0) = false
  hash : at? s 1 = 32 → at? s 0 ≠ 35 ∧ at? s 0 ≠ 33
  sigmas : s.length < 92 ∨ at? s 80 ≠ 32 ∨ at? s 82 ≠ 46 ∨ at? s 86 ≠ 32 ∨ at? s 88 ≠ 46

/-- Inside an XML file, with these elements open. -/
structure InFile (st : List Int) (c : Ctx) : Prop where
  psv : c.psv = none
  passed : c.passed = false
  getting : c.getting = false
  keeps : Keeps c.st st
  open_ : st ≠ []
  room : st.length ≤ 19

theorem xlate_xml (e : Ext) (n : Nat) {c : Ctx} {st : List Int} (hc : InFile st c) {s : List Nat} (hs : PlainLine s) :
    xlate e n c s = xmlRun e s n (skipWs s) c [] 0 := by
  have hd : c.st.depth ≠ 0 := by
    rw [hc.keeps.1]
    have := List.length_pos_iff.2 hc.open_
    omega
  have hh : psvHeader c s = .ok none := by
    unfold psvHeader
    rw [if_pos]
    rcases hs.header with h | h
    · right
      have := headerFields_length (s.length + 1) s
      omega
    · left
      rw [headerFields, List.all_cons, h]
      rfl
  have ht : tholen c s = none := by
    unfold tholen
    simp only
    rw [if_neg]
    rintro ⟨h1, h2, h3, h4, h5, h6, -⟩
    rcases hs.sigmas with h | h | h | h | h
    · omega
    all_goals contradiction
  have hx : ¬ (at? s 1 = 32 ∧ (at? s 0 = 35 ∨ at? s 0 = 33)) := by
    rintro ⟨h1, h2⟩
    have := hs.hash h1
    omega
  unfold xlate
  rw [if_neg (by simp [hc.passed]), if_neg (by simp [hc.getting])]
  simp only [show ¬ (c.st.depth = 0 ∧ strstr s (bytes "<optical>") = true) from fun h => hd h.1, if_false, hh, psvTry, hc.psv, ht, if_neg hx]
  rw [if_neg (by omega), if_neg (by omega), if_neg (fun h => hd h.1)]

/-- The call with the line `buff` comes to read `line`, with `c0`. -/
def Comes (e : Ext) (c : Ctx) (buff : List Nat) (c0 : Ctx) (line : List Nat) : Prop :=
  ∃ m out, line.length < m ∧ xlate e (buff.length + 1) c buff = xmlRun e buff m line c0 out 0

theorem comes_line (e : Ext) {c : Ctx} {st : List Int} (hc : InFile st c) {ws line : List Nat} (hw : ∀ c ∈ ws, isSpace c = true)
    (hh : ∀ c ∈ line.head?, isSpace c = false) (hp : PlainLine (ws ++ line)) : Comes e c (ws ++ line) c line := by
  refine ⟨(ws ++ line).length + 1, [], by simp; omega, ?_⟩
  rw [xlate_xml e _ hc hp, skipWs_eq hw hh]

theorem inside_run (e : Ext) {c c0 k : Ctx} {st st' : List Int} {els : List Elem} {buff line : List Nat} (hx : Comes e c buff c0 line)
    (h : Inner line st els [] st') (hc : InFile st c0) (ht : Taken e c0 els k) (hne : st' ≠ []) :
    ∃ s, (∀ n, 1 ≤ n → rounds e n c buff = some (.ok ({ k with st := s }, []))) ∧ InFile st' { k with st := s } := by
  obtain ⟨a1, a2, a3, a4⟩ := feed_kept ht.feed
  obtain ⟨m0, out, hm0, hx⟩ := hx
  obtain ⟨m, s, out', r', h1, h2, h3, h4, h5, h6⟩ := run_inner e buff h (out := out) (r := 0) (n := m0) (by omega) hc.keeps hc.room ht hm0
  refine ⟨s, ?_, ⟨a2.trans hc.psv, a3.trans hc.passed, a4.trans hc.getting, h2, hne, h3⟩⟩
  intro n hn
  obtain ⟨n, rfl⟩ : ∃ m, n = m + 1 := ⟨n - 1, by omega⟩
  obtain ⟨m, rfl⟩ : ∃ j, m = j + 1 := ⟨m - 1, by simp at h4; omega⟩
  obtain rfl := h6 rfl
  rw [rounds, hx, h1]
  simp [xmlRun, xmlStep]

/-- **C88.** A line inside an observation: the texts are taken in, and nothing is given out. -/
theorem C88_inside (e : Ext) {c k : Ctx} {st st' : List Int} {els : List Elem} {ws line : List Nat} (hw : ∀ c ∈ ws, isSpace c = true)
    (hh : ∀ c ∈ line.head?, isSpace c = false) (hp : PlainLine (ws ++ line)) (h : Inner line st els [] st') (hc : InFile st c)
    (ht : Taken e c els k) (hne : st' ≠ []) :
    ∃ s, (∀ n, 1 ≤ n → rounds e n c (ws ++ line) = some (.ok ({ k with st := s }, []))) ∧ InFile st' { k with st := s } :=
  inside_run e (comes_line e hc hw hh hp) h hc ht hne

/-- The lines of an observation after `<optical>`, `st` being the elements open; the last of them ends in `</optical>`. -/
inductive Body : List (List Nat) → List Int → List Elem → List Int → Prop where
  | last {ws line ws' st els st'} : (∀ c ∈ ws, isSpace c = true) → (∀ c ∈ line.head?, isSpace c = false) → (∀ c ∈ ws', isSpace c = true) →
      Inner line st els (bytes "</optical>" ++ ws') (optical :: st') → Body [ws ++ line] st els st'
  | more {ws line ls st els st1 els' st'} : (∀ c ∈ ws, isSpace c = true) → (∀ c ∈ line.head?, isSpace c = false) →
      Inner line st els [] st1 → st1 ≠ [] → Body ls st1 els' st' → Body ((ws ++ line) :: ls) st (els ++ els') st'

/-- All of them. -/
inductive XmlObs (st : List Int) : List (List Nat) → List Elem → Prop where
  | mk {ws l ls els} : (∀ c ∈ ws, isSpace c = true) → PlainLine (ws ++ (bytes "<optical>" ++ l)) → (∀ l ∈ ls, PlainLine l) →
      Body (l :: ls) (optical :: st) els st → XmlObs st ((ws ++ (bytes "<optical>" ++ l)) :: ls) els

theorem getLine_some {c : Ctx} (h0 : c.line 0 ≠ 0) {d : Ctx} {o : Option (List Nat)} {b : Bool} (h : getLine c = .ok (d, o, b)) :
    o ≠ none ∧ b = c.getting := by
  unfold getLine at h
  extract_lets give m at h
  have hg : ∀ {c' : Ctx} {s : List Nat}, give c' s = .ok (d, o, b) → o ≠ none ∧ b = c'.getting := by
    intro c' s h
    obtain ⟨s', -, h⟩ := bind_ok h
    simp only [Outcome.ok.injEq, Prod.mk.injEq] at h
    obtain ⟨-, h2, h3⟩ := h
    exact ⟨by rw [← h2]; simp, h3.symm⟩
  have hg' : ∀ {c' : Ctx} {s : List Nat}, give c' s = .ok (d, o, b) → c'.getting = c.getting → o ≠ none ∧ b = c.getting := by
    intro c' s h h'
    rw [← h']
    exact hg h
  by_cases h1 : c.rmsRa ≠ []
  · rw [if_pos h1] at h; exact hg' h rfl
  rw [if_neg h1] at h
  by_cases h2 : c.trkSub ≠ [] ∨ c.obsId ≠ [] ∨ c.trkId ≠ []
  · rw [if_pos h2] at h; exact hg' h rfl
  rw [if_neg h2] at h
  by_cases h3 : c.fullRa ≠ [] ∨ c.fullDec ≠ [] ∨ c.t2k ≠ none
  · rw [if_pos h3] at h; exact hg' h rfl
  rw [if_neg h3] at h
  by_cases h4 : c.fullMag ≠ []
  · rw [if_pos h4] at h; exact hg' h rfl
  rw [if_neg h4] at h
  by_cases h5 : at? c.band 1 ≠ 0 ∨ (32 < at? c.notes 0 ∧ at? c.notes 0 < 128) ∨ (32 ≤ at? c.prog 0 ∧ at? c.prog 0 < 128)
  · rw [if_pos h5] at h; exact hg' h rfl
  rw [if_neg h5] at h
  by_cases h6 : c.vel ≠ (0, 0, 0)
  · rw [if_pos h6] at h; exact hg' h rfl
  rw [if_neg h6, if_pos h0] at h
  obtain ⟨s', -, h⟩ := bind_ok h
  simp only [Outcome.ok.injEq, Prod.mk.injEq] at h
  obtain ⟨-, h2, h3⟩ := h
  exact ⟨by rw [← h2]; simp, h3.symm⟩

theorem tok_optical : tokOf (bytes "optical") = .opn optical := by decide +kernel
theorem tok_optical' : tokOf (bytes "/optical") = .cls optical := by decide +kernel

theorem end_run (e : Ext) {c c0 k : Ctx} {st st' : List Int} {els : List Elem} {buff line ws' : List Nat}
    (hx : ∃ m out r, 0 ≤ r ∧ line.length < m ∧ xlate e (buff.length + 1) c buff = xmlRun e buff m line c0 out r)
    (hw' : ∀ c ∈ ws', isSpace c = true) (h : Inner line st els (bytes "</optical>" ++ ws') (optical :: st')) (hpsv : c0.psv = none)
    (hpass : c0.passed = false) (hkeep : Keeps c0.st st) (hroom : st.length ≤ 19) (hs : Short c0)
    (ht : Taken e c0 els k) (hm : Moderate k) (h0 : k.line 0 ≠ 0) (hne : st' ≠ []) :
    ∃ d s, (∀ n, 9 ≤ n → rounds e n c buff = some (.ok (d, (report k).map fun l => (trim l, (1 : Int))))) ∧ InFile st' d ∧ Short d ∧
      Rest { k with st := s, getting := true } d := by
  obtain ⟨a1, a2, a3, a4⟩ := feed_kept ht.feed
  have hks : Short k := feed_short ht.feed hs
  obtain ⟨m0, out, r0, hr0, hm0, hx0⟩ := hx
  obtain ⟨m, s, out', r', h1, h2, h3, h4, h5, h6⟩ := run_inner e buff h (out := out) (r := r0) (n := m0) hr0 hkeep hroom ht hm0
  obtain ⟨m, rfl⟩ : ∃ j, m = j + 2 := ⟨m - 2, by rw [show bytes "</optical>" = [60, 47, 111, 112, 116, 105, 99, 97, 108, 62] by decide] at h4; simp at h4; omega⟩
  have hstep := (xmlStep_tag e (bytes "/optical") ws' [] { k with st := s } out' h5 (by decide) hw' (by simp)).2.1 optical tok_optical'
  rw [tagStep_cls h2 r' (by decide) (by simp at h3; omega), Outcome.bind, if_pos rfl, if_pos rfl, List.append_nil] at hstep
  have hx : xlate e (buff.length + 1) c buff =
      handOut buff { k with st := ⟨s.depth - 1, s.tags⟩, getting := true } := by
    rw [hx0, h1, xmlRun]
    rw [show bytes "</optical>" ++ ws' = 60 :: (bytes "/optical" ++ 62 :: ws') from rfl, hstep]
    simp only
    rw [xmlRun]
    simp only [xmlStep, show ¬ ((1 : Int) < 0) by omega, if_false]
    rw [if_neg (by omega), handOut]
    cases hg : getLine { k with st := ⟨s.depth - 1, s.tags⟩, getting := true } with
    | abort => rfl
    | ub => rfl
    | ok g =>
      obtain ⟨g1, g2, g3⟩ := g
      obtain ⟨q1, q2⟩ := getLine_some (c := { k with st := ⟨s.depth - 1, s.tags⟩, getting := true }) h0 hg
      simp only at q2
      subst q2
      obtain ⟨y, rfl⟩ := Option.ne_none_iff_exists'.1 q1
      simp [Outcome.bind]
  have hkp : k.passed = false := a3.trans hpass
  obtain ⟨d, hd, hr⟩ := C86_drains e (c := { k with st := ⟨s.depth - 1, s.tags⟩, getting := true }) rfl hkp
    (fits_of_short { hks with } hm.center hm.time hm.vel)
  have hsame : ∀ n, xlate e n { k with st := ⟨s.depth - 1, s.tags⟩, getting := true } buff =
      handOut buff { k with st := ⟨s.depth - 1, s.tags⟩, getting := true } := by
    intro n
    unfold xlate
    rw [if_neg (by simp [hkp]), if_pos rfl]
  refine ⟨d, ⟨s.depth - 1, s.tags⟩, ?_, ⟨?_, hr.passed, hr.getting, ?_, hne, by simp at h3; omega⟩, ?_, hr⟩
  · intro n hn
    have := hd n buff hn
    obtain ⟨n, rfl⟩ : ∃ m, n = m + 1 := ⟨n - 1, by omega⟩
    rw [rounds, hsame] at this
    rw [rounds, hx]
    exact this
  · rw [hr.psv]
    exact a2.trans hpsv
  · rw [hr.st]
    exact h2.pop
  · exact rounds_short (hd 9 [] (by omega)) { hks with }

theorem last_run (e : Ext) {c c0 k : Ctx} {st st' : List Int} {els : List Elem} {buff line ws' : List Nat} (hx : Comes e c buff c0 line)
    (hw' : ∀ c ∈ ws', isSpace c = true) (h : Inner line st els (bytes "</optical>" ++ ws') (optical :: st')) (hc : InFile st c0) (hs : Short c0)
    (ht : Taken e c0 els k) (hm : Moderate k) (h0 : k.line 0 ≠ 0) (hne : st' ≠ []) :
    ∃ d s, (∀ n, 9 ≤ n → rounds e n c buff = some (.ok (d, (report k).map fun l => (trim l, (1 : Int))))) ∧ InFile st' d ∧ Short d ∧
      Rest { k with st := s, getting := true } d := by
  obtain ⟨m, out, h1, h2⟩ := hx
  exact end_run e ⟨m, out, 0, le_refl _, h1, h2⟩ hw' h hc.psv hc.passed hc.keeps hc.room hs ht hm h0 hne

/-- **C88.** The line with the end of an observation: the lines of C86 are given out. -/
theorem C88_last (e : Ext) {c k : Ctx} {st st' : List Int} {els : List Elem} {ws line ws' : List Nat} (hw : ∀ c ∈ ws, isSpace c = true)
    (hh : ∀ c ∈ line.head?, isSpace c = false) (hw' : ∀ c ∈ ws', isSpace c = true) (hp : PlainLine (ws ++ line))
    (h : Inner line st els (bytes "</optical>" ++ ws') (optical :: st')) (hc : InFile st c) (hs : Short c) (ht : Taken e c els k)
    (hm : Moderate k) (h0 : k.line 0 ≠ 0) (hne : st' ≠ []) :
    ∃ d s, (∀ n, 9 ≤ n → rounds e n c (ws ++ line) = some (.ok (d, (report k).map fun l => (trim l, (1 : Int))))) ∧ InFile st' d ∧ Short d ∧
      Rest { k with st := s, getting := true } d := last_run e (comes_line e hc hw hh hp) hw' h hc hs ht hm h0 hne

/-! ### Observations over several lines -/

theorem Taken.split {e : Ext} : ∀ {els els' : List Elem} {c k : Ctx}, Taken e c (els ++ els') k → ∃ d, Taken e c els d ∧ Taken e d els' k
  | [], _, _, _, h => ⟨_, .nil, h⟩
  | _ :: _, _, _, _, .cons h1 h2 h3 => by
    obtain ⟨d, h4, h5⟩ := Taken.split h3
    exact ⟨d, .cons h1 h2 h4, h5⟩

/-- The first line has been read up to the start of the first of `ls`; the others follow. -/
theorem body_run (e : Ext) {n : Nat} (hn : 9 ≤ n) {ls : List (List Nat)} {st st' : List Int} {els : List Elem} (h : Body ls st els st') :
    ∀ {c c0 k : Ctx} {l buff : List Nat} {r : List (List Nat)}, ls = l :: r → (∀ ws line, (∀ c ∈ ws, isSpace c = true) →
      (∀ c ∈ line.head?, isSpace c = false) → l = ws ++ line → Comes e c buff c0 line) → (∀ l ∈ r, PlainLine l) → InFile st c0 → Short c0 →
      Taken e c0 els k → Moderate k → k.line 0 ≠ 0 → st' ≠ [] →
    ∃ d s, translate e n c (buff :: r) = some (.ok (d, (report k).map fun l => (trim l, (1 : Int)))) ∧ InFile st' d ∧ Short d ∧
      Rest { k with st := s, getting := true } d := by
  induction h with
  | @last ws line ws' st els st' hw hh hw' hi =>
    intro c c0 k l buff r hl hx hp hc hs ht hm h0 hne
    cases hl
    obtain ⟨d, s, h1, h2, h3⟩ := last_run e (hx ws line hw hh rfl) hw' hi hc hs ht hm h0 hne
    refine ⟨d, s, ?_, h2, h3⟩
    rw [translate, h1 n hn]
    simp [translate]
  | @more ws line ls st els st1 els' st' hw hh hi hne1 hb ih =>
    intro c c0 k l buff r hl hx hp hc hs ht hm h0 hne
    cases hl
    obtain ⟨d, ht1, ht2⟩ := ht.split
    obtain ⟨s, h1, h2⟩ := inside_run e (hx ws line hw hh rfl) hi hc ht1 hne1
    obtain ⟨l', r', rfl⟩ : ∃ l' r', ls = l' :: r' := by
      cases hb with
      | last => exact ⟨_, _, rfl⟩
      | more => exact ⟨_, _, rfl⟩
    obtain ⟨b1, b2, b3, b4⟩ := feed_kept ht2.feed
    obtain ⟨d', s', h3, h4, h5, h6⟩ := ih (c := { d with st := s }) (c0 := { d with st := s }) (k := dress s k.psv k.passed k.getting k)
      (buff := l') rfl (by
        intro ws line hw hh hl
        subst hl
        exact comes_line e h2 hw hh (hp _ (by simp))) (fun x hx => hp x (by simp [hx])) h2 { feed_short ht1.feed hs with } (by
        rw [b2, b3, b4]
        exact ht2.dress _ _ _ _) ⟨hm.center, hm.time, hm.vel⟩ h0 hne
    refine ⟨d', s', ?_, h4, h5, h6⟩
    rw [translate, h1 n (by omega)]
    simp only [h3]
    rfl

/-- **C88.** A whole observation, on any number of lines, from `<optical>` to `</optical>`. -/
theorem C88_observation (e : Ext) {n : Nat} (hn : 9 ≤ n) {c k : Ctx} {st : List Int} {ls : List (List Nat)} {els : List Elem}
    (h : XmlObs st ls els) (hc : InFile st c) (hs : Short c) (hst : st.length < 19) (ht : Taken e (setup c) els k) (hm : Moderate k)
    (h0 : k.line 0 ≠ 0) :
    ∃ d s, translate e n c ls = some (.ok (d, (report k).map fun l => (trim l, (1 : Int)))) ∧ InFile st d ∧ Short d ∧
      Rest { k with st := s, getting := true } d := by
  cases h with
  | @mk ws l ls els hw hp hpl hb =>
    have hin : InFile (optical :: st) (setup { c with st := ⟨c.st.depth + 1, fun j => if j = c.st.depth then optical else c.st.tags j⟩ }) :=
      ⟨hc.psv, hc.passed, hc.getting, hc.keeps.push optical, by simp, by simp; omega⟩
    obtain ⟨b1, b2, b3, b4⟩ := feed_kept ht.feed
    obtain ⟨d, s, h1, h2, h3, h4⟩ := body_run e hn hb (c := c) (buff := ws ++ (bytes "<optical>" ++ l))
      (k := dress ⟨c.st.depth + 1, fun j => if j = c.st.depth then optical else c.st.tags j⟩ k.psv k.passed k.getting k) rfl (by
        intro ws' line hw' hh hl
        subst hl
        have := comes_line e hc (line := bytes "<optical>" ++ (ws' ++ line)) hw (by
          intro b hb'
          rw [show bytes "<optical>" ++ (ws' ++ line) = 60 :: (bytes "optical" ++ 62 :: (ws' ++ line)) from rfl] at hb'
          simp at hb'
          rw [← hb']
          decide) hp
        obtain ⟨m, out, hm', hx⟩ := this
        have hstep := (xmlStep_tag e (bytes "optical") ws' line c out (r := 0) (by omega) (by decide) hw' hh).1 optical tok_optical
        rw [tagStep_opn hc.keeps optical 0 (by decide) (by omega), if_neg (by omega), Outcome.bind, if_pos rfl] at hstep
        obtain ⟨m, rfl⟩ : ∃ j, m = j + 1 := ⟨m - 1, by omega⟩
        refine ⟨m, out, ?_, ?_⟩
        · rw [show bytes "<optical>" ++ (ws' ++ line) = 60 :: (bytes "optical" ++ 62 :: (ws' ++ line)) from rfl] at hm'
          simp at hm'
          omega
        · rw [hx, show bytes "<optical>" ++ (ws' ++ line) = 60 :: (bytes "optical" ++ 62 :: (ws' ++ line)) from rfl, xmlRun, hstep])
      hpl hin (setup_short { hs with }) (by
        rw [b2, b3, b4]
        exact ht.dress _ _ _ _) ⟨hm.center, hm.time, hm.vel⟩ h0 hc.open_
    exact ⟨d, s, h1, h2, h3, h4⟩

theorem translate_append (e : Ext) (n : Nat) : ∀ (a b : List (List Nat)) {c d : Ctx} {o : List (List Nat × Int)},
    translate e n c a = some (.ok (d, o)) → translate e n c (a ++ b) = match translate e n d b with
      | some (.ok (d', o')) => some (.ok (d', o ++ o'))
      | x => x
  | [], b, c, d, o, h => by
    simp only [translate, Option.some.injEq, Outcome.ok.injEq, Prod.mk.injEq] at h
    obtain ⟨rfl, rfl⟩ := h
    rw [List.nil_append]
    split
    · rename_i h; rw [h]; rfl
    · rfl
  | l :: a, b, c, d, o, h => by
    rw [translate] at h
    rw [List.cons_append, translate]
    cases hr : rounds e n c l with
    | none => rw [hr] at h; simp at h
    | some x =>
      rw [hr] at h
      cases x with
      | abort => simp at h
      | ub => simp at h
      | ok y =>
        obtain ⟨c1, o1⟩ := y
        simp only at h ⊢
        cases ha : translate e n c1 a with
        | none => rw [ha] at h; simp at h
        | some x =>
          rw [ha] at h
          cases x with
          | abort => simp at h
          | ub => simp at h
          | ok y =>
            obtain ⟨c2, o2⟩ := y
            simp only [Option.some.injEq, Outcome.ok.injEq, Prod.mk.injEq] at h
            obtain ⟨rfl, rfl⟩ := h
            rw [translate_append e n a b ha]
            cases hb : translate e n c2 b with
            | none => rfl
            | some x =>
              cases x with
              | abort => rfl
              | ub => rfl
              | ok y => simp

/-- Every observation can be processed: no value makes the program abort. -/
def ObsFit (e : Ext) (st : List Int) : Ctx → List (List (List Nat) × List Elem) → Prop
  | _, [] => True
  | c, x :: r => XmlObs st x.1 x.2 ∧ ∃ k, Taken e (setup c) x.2 k ∧ Moderate k ∧ k.line 0 ≠ 0 ∧
      ∀ d s, InFile st d → Short d → Rest { k with st := s, getting := true } d → ObsFit e st d r

/-- **C88.** Any number of observations, one after the other: each gives out its own lines, once. -/
theorem C88_observations (e : Ext) {n : Nat} (hn : 9 ≤ n) {st : List Int} (hst : st.length < 19) :
    ∀ {xs : List (List (List Nat) × List Elem)} {c : Ctx}, InFile st c → Short c → ObsFit e st c xs →
    ∃ ks d, translate e n c (xs.flatMap (·.1)) = some (.ok (d, (ks.flatMap report).map fun l => (trim l, (1 : Int)))) ∧ InFile st d ∧ Short d ∧
      List.Forall₂ (fun x k => ∃ c', InFile st c' ∧ Fed e (setup c') x.2 k) xs ks
  | [], c, hc, hs, _ => ⟨[], c, rfl, hc, hs, .nil⟩
  | x :: r, c, hc, hs, ⟨hx, k, hk, hm, h0, hnext⟩ => by
    obtain ⟨d, s, h1, h2, h3, h4⟩ := C88_observation e hn hx hc hs hst hk hm h0
    obtain ⟨ks, d', h5, h6, h7, h8⟩ := C88_observations e hn hst h2 h3 (hnext d s h2 h3 h4)
    refine ⟨k :: ks, d', ?_, h6, h7, .cons ⟨c, hc, feed_fed .nil hk.feed⟩ h8⟩
    rw [List.flatMap_cons, translate_append e n _ _ h1, h5]
    simp

/-! ### Headers -/

/-- What a name or code in the header of a file is told as, `p` being the element it stands in. -/
def headerWord (t p : Int) : Option String :=
  if t = 53 then some "COD "
  else if t = 55 ∨ t = 47 ∨ t = 46 then
    (if p = 27 then some "COM " else if p = 66 then some "COM Observatory name " else if p = 67 then some "OBS " else if p = 51 then some "MEA "
      else if p = 135 then some "CON " else none)
  else none

theorem getLine_drained {c : Ctx} (hd : Drained c) (hg : c.getting = false) : getLine c = .ok (c, none, false) := by
  unfold getLine
  have ht := hd.tags
  unfold HasTags Visible at ht
  rw [if_neg (by simp [hd.rmsRa]), if_neg (by simp [hd.trkSub, hd.obsId, hd.trkId]), if_neg (by simp [hd.fullRa, hd.fullDec, hd.t2k]),
    if_neg (by simp [hd.fullMag]), if_neg (by intro h; apply ht; omega), if_neg (by simp [hd.vel]), if_neg (by simp [hd.line]),
    if_neg (by simp [hd.line2])]
  cases c
  simp only at hg
  rw [hg]

theorem process_container (e : Ext) (c : Ctx) {p : Int} (hp : p = 27 ∨ p = 51 ∨ p = 66 ∨ p = 67 ∨ p = 135) (s more : List Nat) :
    ∃ o, processTag e c p s more = .ok (c, o, 0) := by
  rcases hp with rfl | rfl | rfl | rfl | rfl <;> exact ⟨_, rfl⟩

theorem headerWord_bytes {t p : Int} {w : String} (h : headerWord t p = some w) :
    (∀ b ∈ bytes w, 32 ≤ b ∧ b ≠ 60) ∧ (∀ b ∈ (bytes w).head?, isSpace b = false) ∧ bytes w ≠ [] ∧ (bytes w).length ≤ 21 := by
  have : w = "COD " ∨ w = "COM " ∨ w = "COM Observatory name " ∨ w = "OBS " ∨ w = "MEA " ∨ w = "CON " := by
    unfold headerWord at h
    split_ifs at h <;> cases h <;> simp
  rcases this with rfl | rfl | rfl | rfl | rfl | rfl <;> decide

theorem header_text {c : Ctx} {t p : Int} {st : List Int} (hk : Keeps c.st (t :: p :: st)) (hst : st.length < 18) {w : String}
    (hn : t = 55 ∨ t = 47 ∨ t = 46) (hw : headerWord t p = some w) (s : List Nat) : headerText c s = fit 221 (bytes w ++ s ++ [10]) := by
  have hr : c.st.read (c.st.depth - 2) = .ok p := by
    have h1 := hk.1
    simp only [List.length_cons] at h1
    have h3 := hk.pop.top
    unfold St.read
    rw [show c.st.depth - 2 = (st.length : Int) by omega, if_pos (by omega)]
    rw [show (⟨c.st.depth - 1, c.st.tags⟩ : St).tags st.length = c.st.tags st.length from rfl] at h3
    rw [h3]
  have hdep : c.st.depth > 1 := by
    have h1 := hk.1
    simp only [List.length_cons] at h1
    omega
  unfold headerWord at hw
  rw [if_neg (by omega), if_pos hn] at hw
  unfold headerText
  rw [if_pos hdep, hr]
  simp only [Outcome.bind]
  by_cases p1 : p = 27
  · rw [if_pos p1] at hw; cases hw
    rw [if_pos (.inr p1)]
  rw [if_neg p1] at hw
  by_cases p2 : p = 66
  · rw [if_pos p2] at hw; cases hw
    rw [if_neg (by omega), if_pos p2]
  rw [if_neg p2] at hw
  by_cases p3 : p = 67
  · rw [if_pos p3] at hw; cases hw
    rw [if_neg (by omega), if_neg p2, if_pos p3]
  rw [if_neg p3] at hw
  by_cases p4 : p = 51
  · rw [if_pos p4] at hw; cases hw
    rw [if_neg (by omega), if_neg p2, if_neg p3, if_pos p4]
  rw [if_neg p4] at hw
  by_cases p5 : p = 135
  · rw [if_pos p5] at hw; cases hw
    rw [if_neg (by omega), if_neg p2, if_neg p3, if_neg p4, if_pos p5]
  rw [if_neg p5] at hw
  cases hw

theorem process_header (e : Ext) {c : Ctx} {t p : Int} {st : List Int} (hk : Keeps c.st (t :: p :: st)) (hst : st.length < 18) {w : String}
    (hw : headerWord t p = some w) {s : List Nat} (hlen : if t = 53 then s.length < 40 else s.length < 190) (more : List Nat) :
    processTag e c t s more = .ok (c, bytes w ++ s ++ [10], 1) := by
  have hw4 := (headerWord_bytes hw).2.2.2
  by_cases h53 : t = 53
  · rw [if_pos h53] at hlen
    rw [headerWord, if_pos h53] at hw
    cases hw
    unfold processTag
    simp only [if_pos h53]
    unfold named
    rw [if_pos hlen]
  · rw [if_neg h53] at hlen
    by_cases hn : t = 55 ∨ t = 47 ∨ t = 46
    · unfold processTag
      rw [if_neg h53, if_pos hn, header_text hk hst hn hw]
      unfold fit
      rw [if_pos (by simp; omega)]
      rfl
    · rw [headerWord, if_neg h53, if_neg hn] at hw
      cases hw

/-- **C88.** A header: the code or name is given out with the word for the element it stands in. -/
theorem C88_header (e : Ext) {c : Ctx} {t p : Int} {st : List Int} (hc : InFile (p :: st) c) (hst : st.length < 18) (hd : Drained c)
    (hpp : p = 27 ∨ p = 51 ∨ p = 66 ∨ p = 67 ∨ p = 135) {w : String} (hw : headerWord t p = some w) {ws name ws1 s ws2 ws3 : List Nat}
    (hn : codeOf name = some t) (hn62 : ∀ b ∈ name, b ≠ 62) (hn47 : name.head? ≠ some 47) (h0 : ∀ b ∈ ws, isSpace b = true)
    (h1 : ∀ b ∈ ws1, isSpace b = true) (h2 : ∀ b ∈ ws2, isSpace b = true) (h3 : ∀ b ∈ ws3, isSpace b = true) (hs : s ≠ [])
    (hsc : ∀ b ∈ s, 32 ≤ b ∧ b ≠ 60) (hsf : s.head? ≠ some 32) (hsl : s.getLast? ≠ some 32) (hlen : if t = 53 then s.length < 40 else s.length < 190)
    (hp : PlainLine (ws ++ (60 :: (name ++ 62 :: (ws1 ++ (s ++ (ws2 ++ (60 :: ((47 :: name) ++ 62 :: (ws3 ++ []))))))))))
    (hb : PlainLine (bytes w ++ s)) :
    ∃ d, (∀ n, 2 ≤ n → rounds e n c (ws ++ (60 :: (name ++ 62 :: (ws1 ++ (s ++ (ws2 ++ (60 :: ((47 :: name) ++ 62 :: (ws3 ++ [])))))))))
      = some (.ok ({ c with st := d }, [(bytes w ++ s, 1)]))) ∧ InFile (p :: st) { c with st := d } := by
  obtain ⟨w1, w2, w3, w4⟩ := headerWord_bytes hw
  have ht0 : 0 ≤ t := codeOf_nonneg hn
  have hnopt : t ≠ optical := by
    rintro rfl
    rw [headerWord, if_neg (by decide), if_neg (by decide)] at hw
    cases hw
  have tok1 : tokOf name = .opn t := by
    unfold tokOf
    split
    · simp at hn47
    · rw [hn]
  have tok2 : tokOf (47 :: name) = .cls t := by
    have htok : tokOf (47 :: name) = match codeOf name with | some c => .cls c | none => .other := rfl
    rw [htok, hn]
  have hsp : ∀ b, isSpace b = true → b ≤ 32 := by
    intro b hb
    unfold isSpace at hb
    simp only [Bool.or_eq_true, beq_iff_eq, Bool.and_eq_true, decide_eq_true_eq] at hb
    omega
  have hsf' : ∀ b ∈ s.head?, isSpace b = false := by
    intro b hb
    rw [Bool.eq_false_iff]
    intro h
    have h1 := (hsc b (List.mem_of_mem_head? hb)).1
    have h2 := hsp b h
    apply hsf
    rw [show b = 32 by omega] at hb
    exact hb
  have hsl' : ∀ b ∈ s.getLast?, 32 < b := by
    intro b hb
    have h1 := (hsc b (List.mem_of_getLast? hb)).1
    have : b ≠ 32 := by
      rintro rfl
      exact hsl hb
    omega
  have hk1 := hc.keeps.push t
  have hroom := hc.room
  simp only [List.length_cons] at hroom
  -- the three steps
  have s1 := (xmlStep_tag e name ws1 (s ++ (ws2 ++ (60 :: ((47 :: name) ++ 62 :: (ws3 ++ []))))) c [] (r := 0) (by omega) hn62 h1 (by
    obtain ⟨b, bs, rfl⟩ := List.exists_cons_of_ne_nil hs
    intro b' hb'
    exact hsf' b' (by simpa using hb'))).1 t tok1
  rw [tagStep_opn hc.keeps t 0 ht0 (by simp; omega), if_neg (by simp; omega), Outcome.bind, if_neg hnopt] at s1
  have s2 := xmlStep_text e s ws2 (60 :: ((47 :: name) ++ 62 :: (ws3 ++ [])))
    { c with st := ⟨c.st.depth + 1, fun j => if j = c.st.depth then t else c.st.tags j⟩ } [] (r := 0) (by omega) (fun b hb' => (hsc b hb').2) hsl' hs h2 (by simp) hk1
    (by simp; omega)
  rw [process_header e hk1 hst hw hlen, Outcome.bind] at s2
  have s3 := (xmlStep_tag e (47 :: name) ws3 [] { c with st := ⟨c.st.depth + 1, fun j => if j = c.st.depth then t else c.st.tags j⟩ }
    (bytes w ++ s ++ [10]) (r := 1) (by omega) (by
      intro b hb'
      rcases List.mem_cons.1 hb' with rfl | hb'
      · omega
      · exact hn62 b hb') h3 (by simp)).2.1 t tok2
  rw [tagStep_cls hk1 1 ht0 (by simp; omega), if_neg hnopt, Outcome.bind, if_neg hnopt] at s3
  have hk2 := hk1.pop
  have hin : InFile (p :: st) { c with st := ⟨c.st.depth + 1 - 1, fun j => if j = c.st.depth then t else c.st.tags j⟩ } :=
    ⟨hc.psv, hc.passed, hc.getting, hk2, by simp, hc.room⟩
  refine ⟨_, ?_, hin⟩
  intro n hn2
  obtain ⟨n, rfl⟩ : ∃ m, n = m + 2 := ⟨n - 2, by omega⟩
  have htrim : trim (bytes w ++ s ++ [10]) = bytes w ++ s := by
    unfold trim
    refine takeWhile_stop ?_ ?_
    · intro b hb'
      have : 32 ≤ b := by
        rcases List.mem_append.1 hb' with h | h
        · exact (w1 b h).1
        · exact (hsc b h).1
      simp
      omega
    · simp
  have hfirst : xlate e ((ws ++ (60 :: (name ++ 62 :: (ws1 ++ (s ++ (ws2 ++ (60 :: ((47 :: name) ++ 62 :: (ws3 ++ []))))))))).length + 1) c
      (ws ++ (60 :: (name ++ 62 :: (ws1 ++ (s ++ (ws2 ++ (60 :: ((47 :: name) ++ 62 :: (ws3 ++ []))))))))) =
      some (.ok ({ c with st := ⟨c.st.depth + 1 - 1, fun j => if j = c.st.depth then t else c.st.tags j⟩ }, bytes w ++ s ++ [10], 1)) := by
    rw [xlate_xml e _ hc hp, skipWs_eq h0 (by simp [isSpace])]
    obtain ⟨m, hm⟩ : ∃ m, (ws ++ (60 :: (name ++ 62 :: (ws1 ++ (s ++ (ws2 ++ (60 :: ((47 :: name) ++ 62 :: (ws3 ++ []))))))))).length + 1 = m + 4 :=
      Nat.exists_eq_add_of_le' (by simp; omega)
    rw [hm, xmlRun, s1]
    simp only
    rw [xmlRun, s2]
    simp only
    rw [xmlRun, s3]
    simp only
    rw [xmlRun]
    simp only [xmlStep, show ¬ ((1 : Int) < 0) by omega, if_false]
    rw [if_neg (by omega), getLine_drained (c := { c with st := ⟨c.st.depth + 1 - 1, fun j => if j = c.st.depth then t else c.st.tags j⟩ })
      ⟨hd.1, hd.2, hd.3, hd.4, hd.5, hd.6, hd.7, hd.8, hd.9, hd.10, hd.11, hd.12⟩ hc.getting]
    rfl
  have hb0 : ∀ b ∈ (bytes w ++ s).head?, isSpace b = false := by
    obtain ⟨b, bs, hbs⟩ := List.exists_cons_of_ne_nil w3
    rw [hbs] at w2 ⊢
    simpa using w2
  obtain ⟨o, ho⟩ := process_container e { c with st := ⟨c.st.depth + 1 - 1, fun j => if j = c.st.depth then t else c.st.tags j⟩ } hpp (bytes w ++ s) ([] ++ [])
  have t1 := xmlStep_text e (bytes w ++ s) [] [] { c with st := ⟨c.st.depth + 1 - 1, fun j => if j = c.st.depth then t else c.st.tags j⟩ } []
    (r := 0) (by omega) (by
      intro b hb'
      rcases List.mem_append.1 hb' with h | h
      · exact (w1 b h).2
      · exact (hsc b h).2) (by
      rw [List.getLast?_append_of_ne_nil _ hs]
      exact hsl') (by simp [hs]) (by simp) (by simp) hk2 (by omega)
  rw [ho, Outcome.bind, List.append_nil, List.append_nil] at t1
  have hsecond : xlate e ((bytes w ++ s).length + 1) { c with st := ⟨c.st.depth + 1 - 1, fun j => if j = c.st.depth then t else c.st.tags j⟩ } (bytes w ++ s) =
      some (.ok ({ c with st := ⟨c.st.depth + 1 - 1, fun j => if j = c.st.depth then t else c.st.tags j⟩ }, o, 0)) := by
    rw [xlate_xml e _ hin hb]
    have := skipWs_eq (ws := []) (rest := bytes w ++ s) (by simp) hb0
    rw [List.nil_append] at this
    rw [this]
    obtain ⟨m, hm⟩ : ∃ m, (bytes w ++ s).length + 1 = m + 2 := ⟨(bytes w ++ s).length - 1, by
      have : 0 < s.length := List.length_pos_iff.2 hs
      simp; omega⟩
    rw [hm, xmlRun, t1]
    simp [xmlRun, xmlStep]
  rw [rounds, hfirst]
  simp only [htrim]
  rw [if_neg (by omega), rounds, hsecond]
  simp

/-! ### Where it goes wrong -/

/-- **Finding** (C88): a line with a tag that does not end on it, such as the first line of a comment of several lines, is given to the
    caller for ever, with -4. -/
theorem C88_unended_tag (e : Ext) {c : Ctx} {st : List Int} (hc : InFile st c) {ws b : List Nat} (hw : ∀ c ∈ ws, isSpace c = true)
    (hb : 62 ∉ b) (hp : PlainLine (ws ++ 60 :: b)) (htr : ∀ c ∈ ws ++ 60 :: b, c ≠ 10 ∧ c ≠ 13 ∧ c ≠ 0) :
    ∀ n, rounds e n c (ws ++ 60 :: b) = none
  | 0 => rfl
  | n + 1 => by
    have hx : xlate e ((ws ++ 60 :: b).length + 1) c (ws ++ 60 :: b) = some (.ok (c, ws ++ 60 :: b, -4)) := by
      rw [xlate_xml e _ hc hp, skipWs_eq hw (by simp [isSpace]), xmlRun]
      have hd : b.dropWhile (fun x => decide (x ≠ 62)) = [] := by
        have := dropWhile_stop (p := fun x => decide (x ≠ 62)) (a := b) (b := []) (by
          intro x hx
          simp only [ne_eq, decide_eq_true_eq]
          rintro rfl
          exact hb hx) (by simp)
        rwa [List.append_nil] at this
      unfold xmlStep
      rw [if_neg (by omega)]
      simp only [if_true, hd]
    have ht : trim (ws ++ 60 :: b) = ws ++ 60 :: b := by
      unfold trim
      have := takeWhile_stop (p := fun c => decide (c ≠ 10 ∧ c ≠ 13 ∧ c ≠ 0)) (a := ws ++ 60 :: b) (b := []) (fun c hc => by simpa using htr c hc) (by simp)
      rwa [List.append_nil] at this
    rw [rounds, hx]
    simp only [ht]
    rw [if_neg (by omega), C88_unended_tag e hc hw hb hp htr n]

/-- The hypotheses can be met. -/
example (e : Ext) {c : Ctx} (hc : InFile [0] c) (n : Nat) : rounds e n c (bytes "<!-- Observed in") = none :=
  C88_unended_tag e (ws := []) (b := bytes "!-- Observed in") hc (by simp) (by decide) ⟨.inl (by decide), by decide, .inl (by decide)⟩ (by decide) n

/-- **Finding** (C88): when a name in a header does not end on the line it begins on, the line given out for it is read as the name again
    and again, growing each time, until the program is aborted. -/
theorem C88_name_not_ended (e : Ext) {c : Ctx} {t p : Int} {st : List Int} (hc : InFile (t :: p :: st) c) (hst : st.length < 18) (hd : Drained c)
    (ht : t = 55 ∨ t = 47 ∨ t = 46) {w : String} (hw : headerWord t p = some w) {s : List Nat} (hs : s ≠ [])
    (hsc : ∀ b ∈ s, 32 ≤ b ∧ b ≠ 60 ∧ b ≠ 46 ∧ b ≠ 124) (hsf : s.head? ≠ some 32) (hsl : s.getLast? ≠ some 32)
    (hsh : at? s 1 = 32 → at? s 0 ≠ 35 ∧ at? s 0 ≠ 33) : ∃ N, ∀ n, N ≤ n → rounds e n c s = some .abort := by
  obtain ⟨w1, w2, w3, w4⟩ := headerWord_bytes hw
  have hwc : ∀ b ∈ bytes w, b ≠ 46 ∧ b ≠ 124 := by
    have : w = "COD " ∨ w = "COM " ∨ w = "COM Observatory name " ∨ w = "OBS " ∨ w = "MEA " ∨ w = "CON " := by
      unfold headerWord at hw
      split_ifs at hw <;> cases hw <;> simp
    rcases this with rfl | rfl | rfl | rfl | rfl | rfl <;> decide
  have hwh : (bytes w).head? ≠ some 32 ∧ at? (bytes w) 1 ≠ 32 ∧ 2 ≤ (bytes w).length := by
    have : w = "COD " ∨ w = "COM " ∨ w = "COM Observatory name " ∨ w = "OBS " ∨ w = "MEA " ∨ w = "CON " := by
      unfold headerWord at hw
      split_ifs at hw <;> cases hw <;> simp
    rcases this with rfl | rfl | rfl | rfl | rfl | rfl <;> decide
  have hroom := hc.room
  simp only [List.length_cons] at hroom
  have hsp : ∀ b, isSpace b = true → b ≤ 32 := by
    intro b hb
    unfold isSpace at hb
    simp only [Bool.or_eq_true, beq_iff_eq, Bool.and_eq_true, decide_eq_true_eq] at hb
    omega
  have hstep : ∀ {s : List Nat}, s ≠ [] → (∀ b ∈ s, 32 ≤ b ∧ b ≠ 60 ∧ b ≠ 46 ∧ b ≠ 124) → s.head? ≠ some 32 → s.getLast? ≠ some 32 →
      (at? s 1 = 32 → at? s 0 ≠ 35 ∧ at? s 0 ≠ 33) → xlate e (s.length + 1) c s =
        some ((fit 221 (bytes w ++ s ++ [10])).bind fun o => .ok (c, o, 1)) := by
    intro s hs hsc hsf hsl hsh
    have hcount : s.count 124 = 0 := List.count_eq_zero.2 fun h => (hsc 124 h).2.2.2 rfl
    have hp : PlainLine s := by
      refine ⟨.inl (by omega), hsh, .inr (.inr (.inl ?_))⟩
      by_cases hl : 82 < s.length
      · have : at? s 82 ∈ s := by
          unfold at?
          rw [List.getD_eq_getElem?_getD, List.getElem?_eq_getElem hl]
          exact List.getElem_mem hl
        exact (hsc _ this).2.2.1
      · have : at? s 82 = 0 := by
          unfold at?
          rw [List.getD_eq_getElem?_getD, List.getElem?_eq_none (by omega)]
          rfl
        omega
    have h0 : ∀ b ∈ s.head?, isSpace b = false := by
      intro b hb
      rw [Bool.eq_false_iff]
      intro h
      have h1 := (hsc b (List.mem_of_mem_head? hb)).1
      have h2 := hsp b h
      apply hsf
      rw [show b = 32 by omega] at hb
      exact hb
    have hl : ∀ b ∈ s.getLast?, 32 < b := by
      intro b hb
      have h1 := (hsc b (List.mem_of_getLast? hb)).1
      have : b ≠ 32 := by
        rintro rfl
        exact hsl hb
      omega
    have t1 := xmlStep_text e s [] [] c [] (r := 0) (by omega) (fun b hb => (hsc b hb).2.1) hl hs (by simp) (by simp) hc.keeps (by simp; omega)
    rw [List.append_nil, List.append_nil] at t1
    have hpt : processTag e c t s [] = (fit 221 (bytes w ++ s ++ [10])).bind fun o => .ok (c, o, 1) := by
      unfold processTag
      rw [if_neg (by omega), if_pos ht, header_text hc.keeps hst ht hw]
    rw [hpt] at t1
    have hsk := skipWs_eq (ws := []) (rest := s) (by simp) h0
    rw [List.nil_append] at hsk
    rw [xlate_xml e _ hc hp, hsk]
    obtain ⟨m, hm⟩ : ∃ m, s.length + 1 = m + 2 := Nat.exists_eq_add_of_le' (by
      have : 0 < s.length := List.length_pos_iff.2 hs
      omega)
    rw [hm, xmlRun, t1]
    cases hf : fit 221 (bytes w ++ s ++ [10]) with
    | abort => rfl
    | ub => rfl
    | ok o =>
      simp only [Outcome.bind, xmlRun, xmlStep, show ¬ ((1 : Int) < 0) by omega, if_false]
      rw [if_neg (by omega), getLine_drained hd hc.getting]
      rfl
  suffices h : ∀ (j : Nat) {s : List Nat}, 221 ≤ s.length + j → s ≠ [] → (∀ b ∈ s, 32 ≤ b ∧ b ≠ 60 ∧ b ≠ 46 ∧ b ≠ 124) → s.head? ≠ some 32 →
      s.getLast? ≠ some 32 → (at? s 1 = 32 → at? s 0 ≠ 35 ∧ at? s 0 ≠ 33) → ∃ N, ∀ n, N ≤ n → rounds e n c s = some .abort from
    h 221 (by omega) hs hsc hsf hsl hsh
  intro j
  induction j with
  | zero =>
    intro s hlen hs hsc hsf hsl hsh
    refine ⟨1, fun n hn => ?_⟩
    obtain ⟨n, rfl⟩ : ∃ m, n = m + 1 := ⟨n - 1, by omega⟩
    rw [rounds, hstep hs hsc hsf hsl hsh, fit, if_neg (by simp; omega)]
    rfl
  | succ j ih =>
    intro s hlen hs hsc hsf hsl hsh
    by_cases hf : (bytes w ++ s ++ [10]).length < 221
    · have hbb : ∀ b ∈ bytes w ++ s, 32 ≤ b ∧ b ≠ 60 ∧ b ≠ 46 ∧ b ≠ 124 := by
        intro b hb
        rcases List.mem_append.1 hb with h | h
        · exact ⟨(w1 b h).1, (w1 b h).2, hwc b h⟩
        · exact hsc b h
      obtain ⟨x, y, r, hxy⟩ : ∃ x y r, bytes w = x :: y :: r := by
        rcases hbw : bytes w with _ | ⟨x, _ | ⟨y, r⟩⟩
        · exact absurd hbw w3
        · rw [hbw] at hwh; simp at hwh
        · exact ⟨x, y, r, rfl⟩
      obtain ⟨N, hN⟩ := ih (s := bytes w ++ s) (by simp; omega) (by simp [hs]) hbb (by
          rw [hxy]
          have := hwh.1
          rw [hxy] at this
          simpa using this) (by
          rw [List.getLast?_append_of_ne_nil _ hs]
          exact hsl) (by
          intro h
          have := hwh.2.1
          rw [hxy] at this h
          exact absurd h this)
      refine ⟨N + 1, fun n hn => ?_⟩
      obtain ⟨n, rfl⟩ : ∃ m, n = m + 1 := ⟨n - 1, by omega⟩
      have htrim : trim (bytes w ++ s ++ [10]) = bytes w ++ s := by
        unfold trim
        refine takeWhile_stop ?_ ?_
        · intro b hb'
          have := (hbb b hb').1
          simp
          omega
        · simp
      rw [rounds, hstep hs hsc hsf hsl hsh, fit, if_pos hf]
      simp only [Outcome.bind, htrim]
      rw [if_neg (by omega), hN n (by omega)]
    · refine ⟨1, fun n hn => ?_⟩
      obtain ⟨n, rfl⟩ : ∃ m, n = m + 1 := ⟨n - 1, by omega⟩
      rw [rounds, hstep hs hsc hsf hsl hsh, fit, if_neg hf]
      rfl

/-- The hypotheses can be met: `<observers><name>Smith`. -/
example (e : Ext) {c : Ctx} (hc : InFile [55, 67, 0] c) (hd : Drained c) : ∃ N, ∀ n, N ≤ n → rounds e n c (bytes "Smith") = some .abort :=
  C88_name_not_ended e hc (by simp) hd (by simp) (w := "OBS ") rfl (by decide) (by decide) (by decide) (by decide) (by decide)

/-- **Finding** (C88): of two observations on one line only the second is given out. -/
theorem C88_two_on_a_line (e : Ext) {c k1 k2 : Ctx} {st : List Int} {els1 els2 : List Elem} {ws w1 line1 w2 w3 line2 w4 : List Nat}
    (hw : ∀ c ∈ ws, isSpace c = true) (hw1 : ∀ c ∈ w1, isSpace c = true) (hw2 : ∀ c ∈ w2, isSpace c = true) (hw3 : ∀ c ∈ w3, isSpace c = true)
    (hw4 : ∀ c ∈ w4, isSpace c = true) (hh1 : ∀ c ∈ line1.head?, isSpace c = false) (hh2 : ∀ c ∈ line2.head?, isSpace c = false)
    (h1 : Inner line1 (optical :: st) els1 (bytes "</optical>" ++ (w2 ++ (bytes "<optical>" ++ (w3 ++ line2)))) (optical :: st))
    (h2 : Inner line2 (optical :: st) els2 (bytes "</optical>" ++ w4) (optical :: st)) (hc : InFile st c) (hst : st.length < 19) (hs : Short c)
    (hp : PlainLine (ws ++ (bytes "<optical>" ++ (w1 ++ line1)))) (ht1 : Taken e (setup c) els1 k1) (ht2 : Taken e (setup k1) els2 k2)
    (hm : Moderate k2) (h0 : k2.line 0 ≠ 0) :
    ∃ d, ∀ n, 9 ≤ n → rounds e n c (ws ++ (bytes "<optical>" ++ (w1 ++ line1))) = some (.ok (d, (report k2).map fun l => (trim l, (1 : Int)))) := by
  have e1 : ∀ x, bytes "<optical>" ++ x = 60 :: (bytes "optical" ++ 62 :: x) := fun _ => rfl
  have e2 : ∀ x, bytes "</optical>" ++ x = 60 :: (bytes "/optical" ++ 62 :: x) := fun _ => rfl
  obtain ⟨m, out, hm', hx⟩ := comes_line e hc (line := bytes "<optical>" ++ (w1 ++ line1)) hw (by
    intro b hb'
    rw [e1] at hb'
    simp at hb'
    rw [← hb']
    decide) hp
  have hstep := (xmlStep_tag e (bytes "optical") w1 line1 c out (r := 0) (by omega) (by decide) hw1 hh1).1 optical tok_optical
  rw [tagStep_opn hc.keeps optical 0 (by decide) (by omega), if_neg (by omega), Outcome.bind, if_pos rfl] at hstep
  obtain ⟨m, rfl⟩ : ∃ j, m = j + 1 := ⟨m - 1, by omega⟩
  rw [e1] at hm'
  rw [e1, xmlRun, hstep, ← e1] at hx
  simp only at hx
  obtain ⟨b1, b2, b3, b4⟩ := feed_kept ht1.feed
  obtain ⟨m1, s1, o1, r1, q1, q2, q3, q4, q5, q6⟩ := run_inner e (ws ++ (bytes "<optical>" ++ (w1 ++ line1))) h1 (out := out) (r := 0) (n := m) (by omega)
    (hc.keeps.push optical) (by simp; omega) (ht1.dress ⟨c.st.depth + 1, fun j => if j = c.st.depth then optical else c.st.tags j⟩
      (setup c).psv (setup c).passed (setup c).getting) (by simp at hm'; omega)
  obtain ⟨m1, rfl⟩ : ∃ j, m1 = j + 2 := ⟨m1 - 2, by rw [e2, e1] at q4; simp at q4; omega⟩
  rw [e2, e1] at q4
  have hstep2 := (xmlStep_tag e (bytes "/optical") w2 (bytes "<optical>" ++ (w3 ++ line2)) (dress s1 (setup c).psv (setup c).passed (setup c).getting k1)
    o1 q5 (by decide) hw2 (by
      intro b hb'
      rw [e1] at hb'
      simp at hb'
      rw [← hb']
      decide)).2.1 optical tok_optical'
  rw [tagStep_cls (s := (dress s1 (setup c).psv (setup c).passed (setup c).getting k1).st) q2 r1 (by decide) (by omega), Outcome.bind, if_pos rfl,
    if_pos rfl] at hstep2
  have hstep3 := (xmlStep_tag e (bytes "optical") w3 line2
    (dress ⟨s1.depth - 1, s1.tags⟩ (setup c).psv (setup c).passed true k1) o1 (r := 1) (by omega) (by decide) hw3 hh2).1 optical tok_optical
  rw [tagStep_opn (s := (dress ⟨s1.depth - 1, s1.tags⟩ (setup c).psv (setup c).passed true k1).st) q2.pop optical 1 (by decide) (by omega), if_neg (by omega), Outcome.bind, if_pos rfl] at hstep3
  obtain ⟨d, s', h3, -⟩ := end_run e (c := c) (buff := ws ++ (bytes "<optical>" ++ (w1 ++ line1)))
    (c0 := setup (dress ⟨s1.depth - 1 + 1, fun j => if j = s1.depth - 1 then optical else s1.tags j⟩ (setup c).psv (setup c).passed true k1))
    (k := dress ⟨s1.depth - 1 + 1, fun j => if j = s1.depth - 1 then optical else s1.tags j⟩ (setup c).psv (setup c).passed true k2)
    ⟨m1, o1, 1, by omega, by simp at q4; omega, by
      rw [hx]
      refine q1.trans ?_
      have hd : ({ dress ⟨c.st.depth + 1, fun j => if j = c.st.depth then optical else c.st.tags j⟩ (setup c).psv (setup c).passed (setup c).getting k1 with
        st := s1 } : Ctx) = dress s1 (setup c).psv (setup c).passed (setup c).getting k1 := rfl
      rw [hd, e2, xmlRun, hstep2]
      have hd2 : ({ dress s1 (setup c).psv (setup c).passed (setup c).getting k1 with st := ⟨s1.depth - 1, s1.tags⟩, getting := true } : Ctx) =
        dress ⟨s1.depth - 1, s1.tags⟩ (setup c).psv (setup c).passed true k1 := rfl
      simp only
      refine (congrArg (fun z => xmlRun e _ (m1 + 1) _ z o1 1) hd2).trans ?_
      rw [e1 (w3 ++ line2), xmlRun, hstep3]
      rfl⟩
    hw4 h2 hc.psv hc.passed (q2.pop.push optical) (by simp; omega) (setup_short { feed_short ht1.feed (setup_short hs) with })
    (ht2.dress _ _ _ _) ⟨hm.center, hm.time, hm.vel⟩ h0 hc.open_
  exact ⟨d, h3⟩

end Verif.Props
