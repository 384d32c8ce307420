import Verif.Props.AdesLines
import Verif.Props.AdesShort
import Verif.Props.AdesTags
import Verif.Props.AdesTrouble

/-!
# C87: observations in lines of values separated by bars (PSV)
-/

namespace Verif.Props

open Verif Verif.Ades Verif.AdesObs Verif.Spec

/-- The text after the first field. -/
def psvRest : List PsvCell → List Nat
  | [] => []
  | x :: r => 124 :: psvRow (x :: r)

/-- The elements of a line: each value that is not empty, with what follows it in the line. -/
def psvElems : List Int → List PsvCell → List Elem
  | t :: ts, x :: xs => (if x.value = [] then [] else [(t, x.value, List.replicate x.after 32 ++ psvRest xs)]) ++ psvElems ts xs
  | _, _ => []

theorem psvRow_cons (x : PsvCell) (r : List PsvCell) : psvRow (x :: r) = x.text ++ psvRest r := by
  cases r <;> simp [psvRow, psvRest]

theorem psvRest_head (r : List PsvCell) : ∀ c ∈ (psvRest r).head?, c = 124 := by
  cases r <;> simp [psvRest]

theorem cell_no_bar {x : PsvCell} (h : x.Ok) : ∀ c ∈ x.text, c ≠ 124 := by
  intro c hc
  simp only [PsvCell.text, List.mem_append, List.mem_replicate] at hc
  rcases hc with ⟨-, rfl⟩ | hc | ⟨-, rfl⟩
  · omega
  · exact (h.printable c hc).2.2
  · omega

theorem takeWhile_stop {p : Nat → Bool} {a b : List Nat} (ha : ∀ c ∈ a, p c = true) (hb : ∀ c ∈ b.head?, p c = false) :
    (a ++ b).takeWhile p = a := by
  rw [List.takeWhile_append_of_pos ha]
  cases b with
  | nil => simp
  | cons c b => simp [hb c (by simp)]

theorem dropWhile_stop {p : Nat → Bool} {a b : List Nat} (ha : ∀ c ∈ a, p c = true) (hb : ∀ c ∈ b.head?, p c = false) :
    (a ++ b).dropWhile p = b := by
  rw [List.dropWhile_append_of_pos ha]
  cases b with
  | nil => simp
  | cons c b => simp [hb c (by simp)]

/-- What comes after the bar, if there is one. -/
def nextRow : List PsvCell → Option (List Nat)
  | [] => none
  | y :: r => some (psvRow (y :: r))

theorem cut_row {x : PsvCell} (h : x.Ok) (r : List PsvCell) :
    cut (psvRow (x :: r)) = (x.text, nextRow r) := by
  have hb : ∀ c ∈ x.text, decide (c ≠ 124) = true := fun c hc => by simpa using cell_no_bar h c hc
  have hr : ∀ c ∈ (psvRest r).head?, decide (c ≠ 124) = false := fun c hc => by simpa using psvRest_head r c hc
  unfold cut
  rw [psvRow_cons, takeWhile_stop hb hr, dropWhile_stop hb hr]
  cases r <;> rfl

theorem count_bars (x : PsvCell) (xs : List PsvCell) (h : ∀ y ∈ x :: xs, y.Ok) : (psvRow (x :: xs)).count 124 = xs.length := by
  induction xs generalizing x with
  | nil =>
    rw [psvRow, List.length_nil, List.count_eq_zero]
    exact fun hc => cell_no_bar (h x (by simp)) 124 hc rfl
  | cons y ys ih =>
    have h0 : x.text.count 124 = 0 := List.count_eq_zero.2 fun hc => cell_no_bar (h x (by simp)) 124 hc rfl
    rw [psvRow, List.count_append, h0, List.count_cons_self, ih y (fun z hz => h z (by simp at hz ⊢; tauto))]
    simp

theorem blanks_space (n : Nat) : ∀ c ∈ List.replicate n 32, isSpace c = true := by
  intro c hc
  rw [List.eq_of_mem_replicate hc]
  rfl

theorem space_small {c : Nat} (h : 32 < c) : isSpace c = false := by
  unfold isSpace
  simp
  omega

/-- The start of a value. -/
theorem skip_cell {x : PsvCell} (h : x.Ok) (r : List PsvCell) :
    skipWs (psvRow (x :: r)) = if x.value = [] then psvRest r else x.value ++ (List.replicate x.after 32 ++ psvRest r) := by
  rw [psvRow_cons, PsvCell.text]
  have hr : ∀ c ∈ (psvRest r).head?, isSpace c = false := fun c hc => by rw [psvRest_head r c hc]; rfl
  split
  · rename_i hv
    rw [hv, List.nil_append, List.append_assoc, ← List.append_assoc]
    rw [List.append_assoc, skipWs, List.dropWhile_append_of_pos (blanks_space _)]
    exact skipWs_eq (blanks_space _) hr
  · rename_i hv
    rw [List.append_assoc, List.append_assoc]
    apply skipWs_eq (blanks_space _)
    intro c hc
    obtain ⟨b, bs, e⟩ := List.exists_cons_of_ne_nil hv
    rw [e] at hc
    simp only [List.cons_append, List.head?_cons, Option.mem_def, Option.some.injEq] at hc
    have h1 := h.printable b (by rw [e]; simp)
    have h2 := h.first
    rw [e] at h2
    simp only [List.head?_cons, ne_eq, Option.some.injEq] at h2
    exact space_small (by omega)

theorem trim_blanks {v : List Nat} (n : Nat) (h : v.getLast? ≠ some 32) : ((v ++ List.replicate n 32).reverse.dropWhile (· = 32)).length = v.length := by
  rw [List.reverse_append, List.reverse_replicate, List.dropWhile_append_of_pos (by intro c hc; simp [List.eq_of_mem_replicate hc])]
  have : v.reverse.dropWhile (· = 32) = v.reverse := by
    cases hv : v.reverse with
    | nil => rfl
    | cons c cs =>
      have : v.getLast? = some c := by rw [← List.head?_reverse, hv]; rfl
      rw [this] at h
      have h : c ≠ 32 := by simpa using h
      simp [h]
  rw [this, List.length_reverse]

/-- The value of a field, and what follows it. -/
theorem value_cell {x : PsvCell} (h : x.Ok) (r : List PsvCell) :
    (x.value = [] → (psvValue (psvRow (x :: r))).1 = []) ∧
    (x.value ≠ [] → psvValue (psvRow (x :: r)) = (x.value, List.replicate x.after 32 ++ psvRest r)) := by
  have hr : ∀ c ∈ (psvRest r).head?, decide (c ≠ 124 ∧ 32 ≤ c ∧ c < 128) = false := fun c hc => by rw [psvRest_head r c hc]; rfl
  constructor
  · intro hv
    unfold psvValue
    simp only [skip_cell h, if_pos hv]
    have := takeWhile_stop (a := []) (by simp) hr
    rw [List.nil_append] at this
    rw [this]
    rfl
  · intro hv
    unfold psvValue
    simp only [skip_cell h, if_neg hv]
    have := takeWhile_stop (p := fun c => decide (c ≠ 124 ∧ 32 ≤ c ∧ c < 128)) (a := x.value ++ List.replicate x.after 32) (b := psvRest r) (by
      intro c hc
      rcases List.mem_append.1 hc with hc | hc
      · have := h.printable c hc
        simp
        omega
      · rw [List.eq_of_mem_replicate hc]
        rfl) hr
    rw [← List.append_assoc, this, trim_blanks _ h.last, List.append_assoc]
    simp

theorem psvTag_cell (e : Ext) (c : Ctx) {t : Int} (ht : 0 ≤ t) {x : PsvCell} (h : x.Ok) (r : List PsvCell) :
    psvTag e c t (psvRow (x :: r)) = feed e c (if x.value = [] then [] else [(t, x.value, List.replicate x.after 32 ++ psvRest r)]) := by
  unfold psvTag
  by_cases hv : x.value = []
  · simp [(value_cell h r).1 hv, hv, feed]
  · simp [(value_cell h r).2 hv, hv, feed, ht]

theorem feed_append (e : Ext) (c : Ctx) (a b : List Elem) : feed e c (a ++ b) = (feed e c a).bind fun d => feed e d b := by
  induction a generalizing c with
  | nil => rfl
  | cons x xs ih =>
    rw [List.cons_append, feed, feed]
    cases processTag e c x.1 x.2.1 x.2.2 with
    | ok r => exact ih r.1
    | abort => rfl
    | ub => rfl

theorem psvFields_row (e : Ext) (c : Ctx) : ∀ (ts : List Int) (xs : List PsvCell), ts.length = xs.length → ts ≠ [] → (∀ t ∈ ts, 0 ≤ t) → (∀ x ∈ xs, x.Ok) →
    psvFields e c ts (psvRow xs) = feed e c (psvElems ts xs)
  | [], _, _, hn, _, _ => absurd rfl hn
  | [t], [x], _, _, ht, hx => by
    have h := hx x (by simp)
    rw [psvFields, psvTag_cell e c (ht t (by simp)) h, cut_row h, psvElems, psvElems, List.append_nil]
    · cases feed e c (if x.value = [] then [] else [(t, x.value, List.replicate x.after 32 ++ psvRest [])]) <;> rfl
    · intro _ _ _ _ h; cases h
  | t :: u :: ts, x :: y :: xs, hl, _, ht, hx => by
    have h := hx x (by simp)
    rw [psvFields, psvTag_cell e c (ht t (by simp)) h, cut_row h, psvElems, feed_append]
    · cases feed e c (if x.value = [] then [] else [(t, x.value, List.replicate x.after 32 ++ psvRest (y :: xs))]) with
      | ok d => exact psvFields_row e d (u :: ts) (y :: xs) (by simpa using hl) (by simp) (fun z hz => ht z (by simp at hz ⊢; tauto))
                  (fun z hz => hx z (by simp at hz ⊢; tauto))
      | abort => rfl
      | ub => rfl
    · simp
  | [t], [], hl, _, _, _ => by simp at hl
  | [t], x :: y :: xs, hl, _, _, _ => by simp at hl
  | t :: u :: ts, [], hl, _, _, _ => by simp at hl
  | t :: u :: ts, [x], hl, _, _, _ => by simp at hl

/-- **C87.** A line with as many fields as the header is one observation: the values that are not empty are processed in their order, each for
    the element its column has in the header. -/
theorem C87_row (e : Ext) (c : Ctx) {ts : List Int} {xs : List PsvCell} (hl : ts.length = xs.length) (hn : ts ≠ []) (ht : ∀ t ∈ ts, 0 ≤ t)
    (hx : ∀ x ∈ xs, x.Ok) : psvLine e c ts (psvRow xs) = (feed e (setup c) (psvElems ts xs)).bind fun k => .ok (some k) := by
  unfold psvLine
  obtain ⟨x, xs, rfl⟩ : ∃ x r, xs = x :: r := by
    cases xs with
    | nil => simp at hl; exact absurd hl hn
    | cons x r => exact ⟨x, r, rfl⟩
  rw [count_bars x xs hx, if_neg (by rw [hl]; simp), psvFields_row e _ _ _ hl hn ht hx]

/-- **C87.** A line with another number of fields is none. -/
theorem C87_other_count (e : Ext) (c : Ctx) {ts : List Int} {s : List Nat} (h : s.count 124 + 1 ≠ ts.length) : psvLine e c ts s = .ok none := by
  unfold psvLine
  rw [if_pos h]

/-! ### Headers -/

/-- The rest of the line from each value on. -/
def starts : List PsvCell → List (List Nat)
  | [] => []
  | x :: r => skipWs (psvRow (x :: r)) :: starts r

theorem starts_length (xs : List PsvCell) : (starts xs).length = xs.length := by
  induction xs with
  | nil => rfl
  | cons x r ih => simp [starts, ih]

theorem cut_skip {x : PsvCell} (h : x.Ok) (r : List PsvCell) :
    (cut (skipWs (psvRow (x :: r)))).2 = nextRow r := by
  have hr : ∀ c ∈ (psvRest r).head?, decide (c ≠ 124) = false := fun c hc => by simpa using psvRest_head r c hc
  have key : ∀ a : List Nat, (∀ c ∈ a, c ≠ 124) → (cut (a ++ psvRest r)).2 = nextRow r := by
    intro a ha
    unfold cut
    rw [dropWhile_stop (fun c hc => by simpa using ha c hc) hr]
    cases r <;> rfl
  rw [skip_cell h]
  split
  · exact key [] (by simp)
  · rw [← List.append_assoc]
    apply key
    intro c hc
    rcases List.mem_append.1 hc with hc | hc
    · exact (h.printable c hc).2.2
    · rw [List.eq_of_mem_replicate hc]; decide

theorem headerFields_row : ∀ (n : Nat) (x : PsvCell) (xs : List PsvCell), xs.length < n → (∀ y ∈ x :: xs, y.Ok) →
    headerFields n (psvRow (x :: xs)) = starts (x :: xs)
  | 0, _, _, hn, _ => by omega
  | n + 1, x, xs, hn, h => by
    rw [headerFields, cut_skip (h x (by simp)), starts]
    cases xs with
    | nil => rfl
    | cons y ys =>
      simp only [nextRow]
      rw [headerFields_row n y ys (by simp at hn; omega) (fun z hz => h z (by simp at hz ⊢; tauto))]

theorem row_length (x : PsvCell) (xs : List PsvCell) (h : ∀ y ∈ x :: xs, y.Ok) : xs.length < (psvRow (x :: xs)).length + 1 := by
  have := count_bars x xs h
  have := List.count_le_length (a := 124) (l := psvRow (x :: xs))
  omega

/-- A value that begins with a small letter. -/
def LowerFirst (x : PsvCell) : Prop := ∃ b, x.value.head? = some b ∧ isLower b = true

theorem start_lower {x : PsvCell} (h : x.Ok) (r : List PsvCell) : isLower (at? (skipWs (psvRow (x :: r))) 0) = true ↔ LowerFirst x := by
  rw [skip_cell h]
  unfold LowerFirst
  split
  · rename_i hv
    rw [hv]
    have := psvRest_head r
    cases hr : psvRest r with
    | nil => simp [at?, isLower]
    | cons b t =>
      rw [hr] at this
      have hb : b = 124 := this b (by simp)
      simp [at?, hb, isLower]
  · rename_i hv
    obtain ⟨b, bs, e⟩ := List.exists_cons_of_ne_nil hv
    rw [e]
    simp [at?]

theorem starts_lower : ∀ xs : List PsvCell, (∀ x ∈ xs, x.Ok) →
    ((starts xs).all (fun f => isLower (at? f 0)) = true ↔ ∀ x ∈ xs, LowerFirst x)
  | [], _ => by simp [starts]
  | x :: xs, h => by
    rw [starts, List.all_cons, Bool.and_eq_true, start_lower (h x (by simp)), starts_lower xs (fun y hy => h y (by simp [hy]))]
    simp

theorem findName_rest (b rest : List Nat) (hr : ∀ c ∈ rest.head?, c = 32 ∨ c = 124) : findName (b ++ rest) b.length = (codeOf b).getD (-1) := by
  unfold findName codeOf
  have : (b ++ rest).take 4 = bytes "ades" ↔ b.take 4 = bytes "ades" := by
    have hd : bytes "ades" = [97, 100, 101, 115] := by decide
    rw [hd]
    cases rest with
    | nil => simp
    | cons x rest =>
      have hx := hr x (by simp)
      rcases b with _ | ⟨b0, _ | ⟨b1, _ | ⟨b2, _ | ⟨b3, b⟩⟩⟩⟩ <;> simp <;> omega
  by_cases h : b.take 4 = bytes "ades"
  · rw [if_pos (this.2 h), if_pos h]; rfl
  · rw [if_neg (fun h' => h (this.1 h')), if_neg h]
    exact findFrom_eq b rest tags tagCodes 0 tags_no_nul codes_table

/-- The code of the name of a column, -1 when there is none. -/
def columnCode (x : PsvCell) : Int := (codeOf x.value).getD (-1)

/-- A name: without blanks, beginning with a small letter. -/
structure IsName (x : PsvCell) : Prop where
  ok : x.Ok
  lower : LowerFirst x
  solid : 32 ∉ x.value

theorem start_code {x : PsvCell} (h : IsName x) (r : List PsvCell) :
    findTag (skipWs (psvRow (x :: r))) ((skipWs (psvRow (x :: r))).takeWhile fun c => c ≠ 124 ∧ 32 < c ∧ c < 128).length = columnCode x := by
  obtain ⟨b, hb, hlow⟩ := h.lower
  have hv : x.value ≠ [] := by intro hv; rw [hv] at hb; cases hb
  rw [skip_cell h.ok, if_neg hv]
  have hrest : ∀ c ∈ (List.replicate x.after 32 ++ psvRest r).head?, c = 32 ∨ c = 124 := by
    intro c hc
    cases ha : x.after with
    | zero =>
      rw [ha] at hc
      exact Or.inr (psvRest_head r c (by simpa using hc))
    | succ k =>
      rw [ha, List.replicate_succ] at hc
      left
      simpa using hc.symm
  have htw := takeWhile_stop (p := fun c => decide (c ≠ 124 ∧ 32 < c ∧ c < 128)) (a := x.value) (b := List.replicate x.after 32 ++ psvRest r)
    (by
      intro c hc
      have h1 := h.ok.printable c hc
      have h2 : c ≠ 32 := fun he => h.solid (he ▸ hc)
      simp
      omega)
    (by
      intro c hc
      rcases hrest c hc with rfl | rfl <;> rfl)
  rw [htw]
  unfold findTag
  rw [if_neg, findName_rest _ _ hrest, columnCode]
  obtain ⟨b', bs, e⟩ := List.exists_cons_of_ne_nil hv
  rw [e] at hb ⊢
  simp only [List.head?_cons, Option.some.injEq] at hb
  subst hb
  have : isLower b' = true → b' ≠ 47 := by unfold isLower; intro h; simp at h; omega
  simpa [at?] using this hlow

theorem starts_codes : ∀ xs : List PsvCell, (∀ x ∈ xs, IsName x) →
    ((starts xs).map fun f => findTag f (f.takeWhile fun c => c ≠ 124 ∧ 32 < c ∧ c < 128).length) = xs.map columnCode
  | [], _ => rfl
  | x :: xs, h => by
    rw [starts, List.map_cons, List.map_cons, start_code (h x (by simp)), starts_codes xs (fun y hy => h y (by simp [hy]))]

theorem psvHeader_names (c : Ctx) {xs : List PsvCell} (h4 : 4 ≤ xs.length) (h : ∀ x ∈ xs, IsName x) :
    psvHeader c (psvRow xs) = if (xs.map columnCode).all (0 < ·) then .ok (some { c with psv := some (xs.map columnCode) }) else .abort := by
  have hok : ∀ x ∈ xs, x.Ok := fun x hx => (h x hx).ok
  obtain ⟨x, r, rfl⟩ : ∃ x r, xs = x :: r := by
    cases xs with
    | nil => simp at h4
    | cons x r => exact ⟨x, r, rfl⟩
  unfold psvHeader
  simp only [headerFields_row _ x r (row_length x r hok) hok]
  rw [if_neg, starts_codes _ h]
  rw [starts_length]
  rintro (hl | hl)
  · rw [(starts_lower _ hok).2 (fun y hy => (h y hy).lower)] at hl
    cases hl
  · omega

/-- What is not a header: a line with a value that does not begin with a small letter, or has none. -/
theorem psvHeader_none (c : Ctx) {xs : List PsvCell} (hok : ∀ x ∈ xs, x.Ok) (h : ∃ x ∈ xs, ¬ LowerFirst x) : psvHeader c (psvRow xs) = .ok none := by
  obtain ⟨x, r, rfl⟩ : ∃ x r, xs = x :: r := by
    obtain ⟨x, hx, -⟩ := h
    cases xs with
    | nil => simp at hx
    | cons x r => exact ⟨x, r, rfl⟩
  unfold psvHeader
  simp only [headerFields_row _ x r (row_length x r hok) hok]
  rw [if_pos]
  left
  rw [Bool.eq_false_iff]
  intro hall
  obtain ⟨y, hy, hn⟩ := h
  exact hn ((starts_lower _ hok).1 hall y hy)

/-- **C87.** Four or more names of elements in a line, with bars between them, are a header: from now on these are the columns.  Nothing is
    given out. -/
theorem C87_header (e : Ext) (n : Nat) {c : Ctx} (hp : c.passed = false) (hg : c.getting = false) {xs : List PsvCell} (h4 : 4 ≤ xs.length)
    (h : ∀ x ∈ xs, IsName x) (hc : ∀ x ∈ xs, 0 < columnCode x) :
    rounds e (n + 1) c (psvRow xs) = some (.ok ({ c with psv := some (xs.map columnCode), st := ⟨1, c.st.tags⟩ }, [])) := by
  have hall : (xs.map columnCode).all (0 < ·) = true := by
    rw [List.all_eq_true]
    intro t ht
    obtain ⟨x, hx, rfl⟩ := List.mem_map.1 ht
    simpa using hc x hx
  rw [rounds, xlate, if_neg (by simp [hp]), if_neg (by simp [hg])]
  simp only [psvHeader_names _ h4 h, hall, if_true]
  split_ifs <;> rfl

/-- **Finding** (C87): when one of the names is not known, the program is aborted.  It need not be an ADES file: four words with bars
    between them are enough. -/
theorem C87_unknown_name (e : Ext) (n : Nat) {c : Ctx} (hp : c.passed = false) (hg : c.getting = false) {xs : List PsvCell} (h4 : 4 ≤ xs.length)
    (h : ∀ x ∈ xs, IsName x) {x : PsvCell} (hx : x ∈ xs) (hc : codeOf x.value = none) : rounds e (n + 1) c (psvRow xs) = some .abort := by
  have hall : (xs.map columnCode).all (0 < ·) = false := by
    rw [List.all_eq_false]
    exact ⟨columnCode x, List.mem_map_of_mem hx, by simp [columnCode, hc]⟩
  rw [rounds, xlate, if_neg (by simp [hp]), if_neg (by simp [hg])]
  simp only [psvHeader_names _ h4 h, hall]
  rfl

/-! ### Files -/

theorem feed_kept {e : Ext} {c k : Ctx} {els : List Elem} (h : feed e c els = .ok k) :
    k.st = c.st ∧ k.psv = c.psv ∧ k.passed = c.passed ∧ k.getting = c.getting := by
  induction els generalizing c with
  | nil =>
    rw [feed, Outcome.ok.injEq] at h
    rw [h]
    exact ⟨rfl, rfl, rfl, rfl⟩
  | cons x xs ih =>
    rw [feed] at h
    obtain ⟨r, hr, h⟩ := bind_ok h
    obtain ⟨h1, h2, h3, h4⟩ := ih h
    obtain ⟨k1, k2, k3, k4⟩ := processTag_kept hr
    exact ⟨h1.trans k1, h2.trans k2, h3.trans k3, h4.trans k4⟩

theorem feed_short {e : Ext} {c k : Ctx} {els : List Elem} (h : feed e c els = .ok k) (hs : Short c) : Short k := by
  induction els generalizing c with
  | nil =>
    rw [feed, Outcome.ok.injEq] at h
    rwa [← h]
  | cons x xs ih =>
    rw [feed] at h
    obtain ⟨r, hr, h⟩ := bind_ok h
    exact ih h (processTag_short hr hs)

/-- Between two observations of a PSV section with these columns. -/
structure InSection (ts : List Int) (c : Ctx) : Prop where
  psv : c.psv = some ts
  depth : c.st.depth ≠ 0
  passed : c.passed = false
  getting : c.getting = false
  short : Short c
  drained : Drained c

/-- A line of values: as many as there are columns, one of them at least not beginning with a small letter (or empty). -/
structure DataRow (ts : List Int) (xs : List PsvCell) : Prop where
  length : ts.length = xs.length
  ok : ∀ x ∈ xs, x.Ok
  notHeader : ∃ x ∈ xs, ¬ LowerFirst x

/-- The numbers in an observation fit in the lines. -/
structure Moderate (k : Ctx) : Prop where
  center : (decInt k.center).length ≤ 8
  time : ∀ x, k.t2k = some x → (Time.fmtFixed 15 x).length ≤ 150
  vel : ∀ l ∈ velLine k, l.length < 221

/-- **C87.** A line of values, read on its own: the lines of the observation are given out, and the section goes on. -/
theorem C87_line {e : Ext} {ts : List Int} {c k : Ctx} (hc : InSection ts c) (ht : ∀ t ∈ ts, 0 ≤ t) {xs : List PsvCell} (hx : DataRow ts xs)
    (hk : feed e (setup c) (psvElems ts xs) = .ok k) (hm : Moderate k) :
    ∃ d, (∀ n, 9 ≤ n → rounds e n c (psvRow xs) = some (.ok (d, (report k).map fun l => (trim l, (1 : Int))))) ∧
      InSection ts d ∧ Rest { k with getting := true } d := by
  obtain ⟨k1, k2, k3, k4⟩ := feed_kept hk
  have hks : Short k := feed_short hk (setup_short hc.short)
  have hne : ts ≠ [] := by
    obtain ⟨x, hx1, -⟩ := hx.notHeader
    intro h
    have := hx.length
    rw [h] at this
    simp only [List.length_nil] at this
    rw [List.length_eq_zero_iff.1 this.symm] at hx1
    simp at hx1
  have hkp : k.passed = false := k3.trans hc.passed
  obtain ⟨d, hd, hr⟩ := C86_drains e (c := { k with getting := true }) rfl hkp
    (fits_of_short { hks with } hm.center hm.time hm.vel)
  have hfirst : ∀ n, xlate e n c (psvRow xs) = handOut (psvRow xs) { k with getting := true } := by
    intro n
    have hd0 : ¬ (c.st.depth = 0 ∧ strstr (psvRow xs) (bytes "<optical>") = true) := fun h => hc.depth h.1
    unfold xlate
    rw [if_neg (by simp [hc.passed]), if_neg (by simp [hc.getting])]
    simp only [if_neg hd0, psvHeader_none c hx.ok hx.notHeader, psvTry, hc.psv, C87_row e c hx.length hne ht hx.ok, hk, Outcome.bind]
  have hsame : ∀ n, xlate e n { k with getting := true } (psvRow xs) = handOut (psvRow xs) { k with getting := true } := by
    intro n
    unfold xlate
    rw [if_neg (by simp [hkp]), if_pos rfl]
  refine ⟨d, ?_, ⟨?_, ?_, hr.passed, hr.getting, ?_, hr.drained⟩, hr⟩
  · intro n hn
    have := hd n (psvRow xs) hn
    obtain ⟨n, rfl⟩ : ∃ m, n = m + 1 := ⟨n - 1, by omega⟩
    rw [rounds, hsame] at this
    rw [rounds, hfirst]
    exact this
  · rw [hr.psv]
    exact k2.trans hc.psv
  · rw [hr.st]
    change k.st.depth ≠ 0
    rw [k1]
    exact hc.depth
  · exact rounds_short (hd 9 [] (by omega)) { hks with }

/-- Every line can be processed: no value makes the program abort. -/
def RowsFit (e : Ext) (ts : List Int) : Ctx → List (List PsvCell) → Prop
  | _, [] => True
  | c, xs :: rows => DataRow ts xs ∧ ∃ k, feed e (setup c) (psvElems ts xs) = .ok k ∧ Moderate k ∧
      ∀ d, InSection ts d → Rest { k with getting := true } d → RowsFit e ts d rows

/-- **C87.** A whole section: line by line, in their order, the observations are given out, each once.  Between them nothing is lost and
    nothing is added. -/
theorem C87_section {e : Ext} {ts : List Int} (ht : ∀ t ∈ ts, 0 ≤ t) {n : Nat} (hn : 9 ≤ n) : ∀ {rows : List (List PsvCell)} {c : Ctx},
    InSection ts c → RowsFit e ts c rows →
    ∃ ks d, translate e n c (rows.map psvRow) = some (.ok (d, (ks.flatMap report).map fun l => (trim l, (1 : Int)))) ∧ InSection ts d ∧
      List.Forall₂ (fun xs k => ∃ c', InSection ts c' ∧ Fed e (setup c') (psvElems ts xs) k) rows ks
  | [], c, hc, _ => ⟨[], c, rfl, hc, .nil⟩
  | xs :: rows, c, hc, ⟨hx, k, hk, hm, hnext⟩ => by
    obtain ⟨d, hd, hi, hr⟩ := C87_line hc ht hx hk hm
    obtain ⟨ks, d', h1, h2, h3⟩ := C87_section ht hn hi (hnext d hi hr)
    refine ⟨k :: ks, d', ?_, h2, .cons ⟨c, hc, feed_fed .nil hk⟩ h3⟩
    rw [List.map_cons, translate, hd n hn]
    simp only [h1]
    simp

/-- **C87.** A header and the lines after it. -/
theorem C87_file {e : Ext} {n : Nat} (hn : 9 ≤ n) {c : Ctx} (hp : c.passed = false) (hg : c.getting = false) (hs : Short c) (hd : Drained c)
    {names : List PsvCell} (h4 : 4 ≤ names.length) (h : ∀ x ∈ names, IsName x) (hc : ∀ x ∈ names, 0 < columnCode x) {rows : List (List PsvCell)}
    (hr : ∀ c', InSection (names.map columnCode) c' → RowsFit e (names.map columnCode) c' rows) :
    ∃ ks d, translate e n c ((names :: rows).map psvRow) = some (.ok (d, (ks.flatMap report).map fun l => (trim l, (1 : Int)))) ∧
      InSection (names.map columnCode) d ∧
      List.Forall₂ (fun xs k => ∃ c', InSection (names.map columnCode) c' ∧ Fed e (setup c') (psvElems (names.map columnCode) xs) k) rows ks := by
  obtain ⟨n, rfl⟩ : ∃ m, n = m + 1 := ⟨n - 1, by omega⟩
  have hi : InSection (names.map columnCode) { c with psv := some (names.map columnCode), st := ⟨1, c.st.tags⟩ } :=
    ⟨rfl, by simp, hp, hg, { hs with }, ⟨hd.1, hd.2, hd.3, hd.4, hd.5, hd.6, hd.7, hd.8, hd.9, hd.10, hd.11, hd.12⟩⟩
  obtain ⟨ks, d, h1, h2, h3⟩ := C87_section (e := e) (ts := names.map columnCode) (by
    intro t ht
    obtain ⟨x, hx, rfl⟩ := List.mem_map.1 ht
    exact (hc x hx).le) hn hi (hr _ hi)
  refine ⟨ks, d, ?_, h2, h3⟩
  rw [List.map_cons, translate, C87_header e n hp hg h4 h hc]
  simp only [h1]
  simp

theorem headerFields_length : ∀ (n : Nat) (s : List Nat), (headerFields n s).length ≤ s.count 124 + 1
  | 0, s => by simp [headerFields]
  | n + 1, s => by
    rw [headerFields, List.length_cons]
    have hsub : (skipWs s).count 124 ≤ s.count 124 := (List.dropWhile_sublist _).count_le 124
    cases hc : (cut (skipWs s)).2 with
    | none => simp
    | some r =>
      have ih := headerFields_length n r
      simp only
      have : r.count 124 + 1 ≤ (skipWs s).count 124 := by
        unfold cut at hc
        have hd : ((skipWs s).dropWhile (· ≠ 124)).count 124 ≤ (skipWs s).count 124 := (List.dropWhile_sublist _).count_le 124
        cases hl : (skipWs s).dropWhile (· ≠ 124) with
        | nil => rw [hl] at hc; cases hc
        | cons b t =>
          rw [hl] at hc hd
          simp only [Option.some.injEq] at hc
          have hb : b = 124 := by
            have := List.head?_dropWhile_not (p := fun x => decide (x ≠ 124)) (skipWs s)
            rw [hl] at this
            simpa using this
          rw [hb, List.count_cons_self] at hd
          rw [← hc]
          exact hd
      omega

/-- **C87.** A line with another number of fields, fewer than four, ends the section.  It is given out as it is, and so is, up to the next
    header, every line that is no part of ADES. -/
theorem C87_section_ends (e : Ext) {ts : List Int} {c : Ctx} (hc : InSection ts c) {s : List Nat} (h1 : s.count 124 + 1 ≠ ts.length)
    (h2 : s.count 124 < 3) (h3 : s.length < 92) (h4 : at? s 1 = 32 → at? s 0 ≠ 35 ∧ at? s 0 ≠ 33)
    (h5 : strstr s (bytes "<ades version") = false) {n : Nat} (hn : 2 ≤ n) :
    rounds e n c s = some (.ok ({ c with psv := none, st := ⟨0, c.st.tags⟩ }, [(trim s, 1)])) := by
  obtain ⟨n, rfl⟩ : ∃ m, n = m + 2 := ⟨n - 2, by omega⟩
  have hh : psvHeader c s = .ok none := by
    unfold psvHeader
    rw [if_pos]
    right
    have := headerFields_length (s.length + 1) s
    omega
  have ht : ∀ c' : Ctx, tholen c' s = none := by
    intro c'
    unfold tholen
    rw [if_neg (fun h => absurd h.1 (by omega))]
  have hd0 : ¬ (c.st.depth = 0 ∧ strstr s (bytes "<optical>") = true) := fun h => hc.depth h.1
  have hx : ¬ (at? s 1 = 32 ∧ (at? s 0 = 35 ∨ at? s 0 = 33)) := by
    rintro ⟨h, h' | h'⟩
    · exact (h4 h).1 h'
    · exact (h4 h).2 h'
  have key : xlate e (s.length + 1) c s = some (.ok ({ c with psv := none, st := ⟨0, c.st.tags⟩, passed := true }, s, 1)) := by
    unfold xlate
    rw [if_neg (by simp [hc.passed]), if_neg (by simp [hc.getting])]
    simp only [if_neg hd0, hh, psvTry, hc.psv, C87_other_count e c h1, Outcome.bind, ht, if_neg hx, h5]
    rfl
  rw [rounds, key]
  simp only
  rw [if_neg (by decide), rounds, xlate, if_pos rfl]
  simp only [if_true]
  obtain ⟨⟩ := c
  have := hc.passed
  simp only at this
  subst this
  rfl

/-! ### An example -/

/-- A header of five names. -/
def sampleNames : List PsvCell := [⟨0, bytes "permID", 1⟩, ⟨0, bytes "mode", 0⟩, ⟨1, bytes "stn", 1⟩, ⟨0, bytes "obsTime", 4⟩, ⟨0, bytes "mag", 0⟩]

/-- Two lines of values. -/
def sampleRows : List (List PsvCell) := [
  [⟨3, bytes "1234", 1⟩, ⟨0, bytes "CCD", 0⟩, ⟨1, bytes "703", 1⟩, ⟨0, bytes "2020-01-02T03:04:05Z", 0⟩, ⟨0, bytes "18.2", 0⟩],
  [⟨0, bytes "99942", 1⟩, ⟨0, bytes "CCD", 0⟩, ⟨1, bytes "F51", 1⟩, ⟨0, bytes "2020-01-02T03:04:06Z", 2⟩, ⟨0, [], 3⟩]]

theorem sample_codes : sampleNames.map columnCode = [75, 52, 132, 65, 50] := by decide +kernel

theorem ok_of {x : PsvCell} (h : x.value.all (fun c => 32 ≤ c && c < 128 && c != 124) && x.value.head? != some 32 && x.value.getLast? != some 32) :
    x.Ok := by
  simp only [Bool.and_eq_true, List.all_eq_true, bne_iff_ne, decide_eq_true_eq] at h
  exact ⟨fun c hc => ⟨(h.1.1 c hc).1.1, (h.1.1 c hc).1.2, (h.1.1 c hc).2⟩, h.1.2, h.2⟩

theorem name_of {x : PsvCell} (h : x.value.all (fun c => 32 < c && c < 128 && c != 124) && x.value.head?.any isLower) : IsName x := by
  simp only [Bool.and_eq_true, List.all_eq_true, bne_iff_ne, decide_eq_true_eq, Option.any_eq_true] at h
  obtain ⟨h1, b, h2, h3⟩ := h
  have hne : ∀ c ∈ x.value, c ≠ 32 := fun c hc => by have := h1 c hc; omega
  refine ⟨⟨fun c hc => ?_, ?_, ?_⟩, ⟨b, h2, h3⟩, fun hc => hne 32 hc rfl⟩
  · have := h1 c hc
    omega
  · intro hc
    exact hne 32 (List.mem_of_mem_head? hc) rfl
  · intro hc
    exact hne 32 (List.mem_of_getLast? hc) rfl

theorem moderate_of {k : Ctx} (h1 : k.center = 399) (h2 : k.t2k = none) (h3 : k.vel = (0, 0, 0)) : Moderate k := by
  refine ⟨by rw [h1]; decide, fun x hx => ?_, fun l hl => ?_⟩
  · rw [h2] at hx
    cases hx
  · unfold velLine at hl
    rw [if_pos h3] at hl
    simp at hl

theorem sample_rows (c : Ctx) (hc : InSection [75, 52, 132, 65, 50] c) : RowsFit noTime [75, 52, 132, 65, 50] c sampleRows := by
  have hok : ∀ xs ∈ sampleRows, ∀ x ∈ xs, x.Ok := by
    intro xs hxs x hx
    refine ok_of ?_
    revert xs x
    decide +kernel
  have hrow : ∀ xs ∈ sampleRows, DataRow [75, 52, 132, 65, 50] xs := by
    intro xs hxs
    have hh : ∃ x ∈ xs, x.value.head?.any isLower = false := by revert xs; decide +kernel
    have hlen : [75, 52, 132, 65, 50].length = xs.length := by clear hh; revert xs; decide +kernel
    obtain ⟨x, hx, hx'⟩ := hh
    refine ⟨hlen, hok xs hxs, x, hx, ?_⟩
    rintro ⟨b, h1, h2⟩
    rw [h1] at hx'
    simp [h2] at hx'
  have hm : ∀ xs ∈ sampleRows, ∀ c, Drained c → ∃ k, feed noTime (setup c) (psvElems [75, 52, 132, 65, 50] xs) = .ok k ∧ Moderate k := by
    intro xs hxs c hc
    simp only [sampleRows, List.mem_cons, List.not_mem_nil, or_false] at hxs
    rcases hxs with rfl | rfl
    · exact ⟨_, rfl, moderate_of rfl rfl hc.vel⟩
    · exact ⟨_, rfl, moderate_of rfl rfl hc.vel⟩
  obtain ⟨k, h1, h2⟩ := hm _ List.mem_cons_self c hc.drained
  refine ⟨hrow _ (by simp [sampleRows]), k, h1, h2, fun d hd _ => ?_⟩
  obtain ⟨k, h1, h2⟩ := hm _ (List.mem_cons_of_mem _ List.mem_cons_self) d hd.drained
  exact ⟨hrow _ (by simp [sampleRows]), k, h1, h2, fun _ _ _ => trivial⟩

theorem init_drained : Drained AdesObs.init := by
  refine ⟨rfl, rfl, rfl, rfl, rfl, rfl, rfl, rfl, ?_, rfl, rfl, rfl⟩
  decide

/-- The hypotheses can be met: a file of two observations. -/
example : ∃ (ks : List Ctx) (d : Ctx), translate noTime 9 AdesObs.init ((sampleNames :: sampleRows).map psvRow) =
      some (.ok (d, (ks.flatMap report).map fun l => (trim l, (1 : Int)))) ∧ ks.length = 2 := by
  have hn : ∀ x ∈ sampleNames, IsName x := by
    intro x hx
    refine name_of ?_
    revert x
    decide +kernel
  have hc : ∀ x ∈ sampleNames, 0 < columnCode x := by decide +kernel
  obtain ⟨ks, d, h1, -, h3⟩ := C87_file (e := noTime) (n := 9) (by omega) (c := AdesObs.init) rfl rfl init_short init_drained
    (names := sampleNames) (by decide) hn hc (rows := sampleRows) (by rw [sample_codes]; exact sample_rows)
  exact ⟨ks, d, h1, h3.length_eq.symm⟩

/-- **Finding** (C87): a line of values that all begin with small letters is taken for a header.  With four or more unknown words the
    program is aborted. -/
theorem C87_lower_case (e : Ext) {ts : List Int} {c : Ctx} (hc : InSection ts c) (n : Nat) :
    rounds e (n + 1) c (bytes "a|b|c|d") = some .abort := by
  have hn : ∀ x ∈ [(⟨0, bytes "a", 0⟩ : PsvCell), ⟨0, bytes "b", 0⟩, ⟨0, bytes "c", 0⟩, ⟨0, bytes "d", 0⟩], IsName x := by
    intro x hx
    refine name_of ?_
    revert x
    decide +kernel
  exact C87_unknown_name e n hc.passed hc.getting (by simp) hn (x := ⟨0, bytes "a", 0⟩) (by simp) (by decide +kernel)

end Verif.Props
