import Verif.Model.AdesTags
import Verif.Spec.Nesting
import Verif.Lemmas.Order
import Batteries.Data.List.Lemmas

/-!
# Property theorems: ADES tags (C40, C41, C63)
-/

namespace Verif.Props

open Verif Verif.Ades Verif.Spec

/-! ## C40 -/

/-- The code of an element name: 0 for anything that begins with `ades`, else from the list of macros. -/
def codeOf (name : List Nat) : Option Int :=
  if name.take 4 = bytes "ades" then some 0 else (tagCodes.find? fun p => bytes p.1 == name).map (·.2)

theorem memEq_iff : ∀ (a b : List Nat) (rest : List Nat), (∀ c ∈ a, c ≠ 0) → (memEq a (b ++ rest) b.length = true ↔ a = b)
  | [], [], rest, _ => by simp [memEq, at?]
  | x :: a, [], rest, h => by
    have := h x (by simp)
    simp [memEq, at?, this]
  | [], y :: b, rest, _ => by simp [memEq]
  | x :: a, y :: b, rest, h => by
    have := memEq_iff a b rest (fun c hc => h c (by simp [hc]))
    simp only [List.length_cons, List.cons_append, memEq, Bool.and_eq_true, beq_iff_eq, List.cons.injEq, this]

theorem tags_no_nul : ∀ t ∈ tags, ∀ c ∈ t, c ≠ 0 := by decide +kernel

/-- What the search loop finds, for any table of names. -/
theorem findFrom_eq (b rest : List Nat) : ∀ (ts : List (List Nat)) (cs : List (String × Int)) (i : Int),
    (∀ t ∈ ts, ∀ c ∈ t, c ≠ 0) → cs.map (fun p => (bytes p.1, p.2)) = ts.zipIdx.map (fun p => (p.1, i + p.2 + 1)) →
    findFrom (b ++ rest) b.length ts i = ((cs.find? fun p => bytes p.1 == b).map (·.2)).getD (-1)
  | [], [], i, _, _ => rfl
  | [], _ :: _, i, _, h => by simp at h
  | _ :: _, [], i, _, h => by simp at h
  | t :: ts, p :: cs, i, hn, h => by
    simp only [List.map_cons, List.zipIdx_cons, List.cons.injEq, Prod.mk.injEq] at h
    obtain ⟨⟨h1, h2⟩, h3⟩ := h
    rw [findFrom, List.find?_cons]
    have hm := memEq_iff t b rest (hn t (by simp))
    by_cases hb : t = b
    · rw [if_pos (hm.2 hb)]
      subst hb
      simp [h1, h2]
    · rw [if_neg (fun h => hb (hm.1 h))]
      have : (bytes p.1 == b) = false := by rw [h1]; simp [hb]
      rw [this]
      refine findFrom_eq b rest ts cs (i + 1) (fun t' ht => hn t' (by simp [ht])) ?_
      rw [h3]
      rw [show ((0 : Nat) + 1) = 1 from rfl, List.zipIdx_eq_map_add]
      simp only [List.map_map]
      apply List.map_congr_left
      intro q _
      simp only [Function.comp_apply, Prod.mk.injEq, true_and]
      omega

theorem codes_table : tagCodes.map (fun p => (bytes p.1, p.2)) = tags.zipIdx.map (fun p => (p.1, (0 : Int) + p.2 + 1)) := by
  decide +kernel

theorem findName_eq (b rest : List Nat) (hb : ∀ c ∈ b, c ≠ 62) :
    findName (b ++ 62 :: rest) b.length = (codeOf b).getD (-1) := by
  unfold findName codeOf
  have : (b ++ 62 :: rest).take 4 = bytes "ades" ↔ b.take 4 = bytes "ades" := by
    have hd : bytes "ades" = [97, 100, 101, 115] := by decide
    rw [hd]
    rcases b with _ | ⟨b0, _ | ⟨b1, _ | ⟨b2, _ | ⟨b3, b⟩⟩⟩⟩ <;> simp
  by_cases h : b.take 4 = bytes "ades"
  · rw [if_pos (this.2 h), if_pos h]; rfl
  · rw [if_neg (fun h' => h (this.1 h')), if_neg h]
    exact findFrom_eq b (62 :: rest) tags tagCodes 0 tags_no_nul codes_table

/-- **C40.** An opening tag has the code of its name, and -1 when it has none. -/
theorem C40_opening (name rest : List Nat) (h : ∀ c ∈ name, c ≠ 62) (hs : name.head? ≠ some 47) :
    findTag (name ++ 62 :: rest) name.length = (codeOf name).getD (-1) := by
  unfold findTag
  rw [if_neg, findName_eq name rest h]
  cases name with
  | nil => simp [at?]
  | cons c cs => simpa [at?] using hs

/-- **C40.** A closing tag has the same code as the opening one. -/
theorem C40_closing (name rest : List Nat) (h : ∀ c ∈ name, c ≠ 62) :
    findTag (47 :: name ++ 62 :: rest) (47 :: name).length = (codeOf name).getD (-1) := by
  unfold findTag
  rw [if_pos (by simp [at?])]
  simpa using findName_eq name rest h

theorem names_chain : (tagCodes.map fun p => bytes p.1).IsChain (· < ·) := by decide +kernel

theorem names_sorted : (tagCodes.map fun p => bytes p.1).Pairwise (· < ·) := List.isChain_iff_pairwise.1 names_chain

theorem find_sorted : ∀ l : List (String × Int), ((l.map fun p => bytes p.1).Pairwise (· < ·)) →
    ∀ p ∈ l, (l.find? fun q => bytes q.1 == bytes p.1) = some p
  | [], _, p, h => by simp at h
  | c :: l, hs, p, h => by
    simp only [List.map_cons, List.pairwise_cons] at hs
    rcases List.mem_cons.1 h with rfl | h
    · simp
    · have : bytes c.1 ≠ bytes p.1 := by
        intro he
        have := hs.1 (bytes p.1) (List.mem_map_of_mem h)
        rw [he] at this
        exact List.lt_irrefl _ this
      rw [List.find?_cons, show (bytes c.1 == bytes p.1) = false by simpa using this]
      exact find_sorted l hs.2 p h

theorem codes_find : ∀ p ∈ tagCodes, (tagCodes.find? fun q => bytes q.1 == bytes p.1) = some p := find_sorted _ names_sorted
theorem codes_not_ades : ∀ p ∈ tagCodes, p.1 ≠ "ades" → ¬ (bytes p.1).take 4 = bytes "ades" := by decide +kernel

/-- **C40.** Every name in the list has its own code; only `ades` itself has another one, zero. -/
theorem C40_codes (s : String) (c : Int) (h : (s, c) ∈ tagCodes) : codeOf (bytes s) = some (if s = "ades" then 0 else c) := by
  unfold codeOf
  by_cases hs : s = "ades"
  · subst hs; simp only [if_true]; decide
  · rw [if_neg (codes_not_ades _ h hs), codes_find _ h, if_neg hs]; rfl

/-- **C40.** The codes are the numbers from 1 to 145, in order, and the names are sorted. -/
theorem C40_numbering : tagCodes.map (·.2) = (List.range 145).map (fun (i : Nat) => (i : Int) + 1) ∧
    (tagCodes.map fun p => bytes p.1).Pairwise (· < ·) := ⟨by decide +kernel, names_sorted⟩

theorem codes_pos : ∀ p ∈ tagCodes, 1 ≤ p.2 := by decide +kernel
theorem codes_sorted : tagCodes.Pairwise fun p q => p.2 < q.2 := by
  have : (tagCodes.map (·.2)).Pairwise (· < ·) := by
    rw [C40_numbering.1]
    exact List.pairwise_map.2 (List.Pairwise.imp (fun h => by omega) List.pairwise_lt_range)
  exact List.pairwise_map.1 this

theorem inj_sorted : ∀ l : List (String × Int), (l.Pairwise fun p q => p.2 < q.2) → ∀ p ∈ l, ∀ q ∈ l, p.2 = q.2 → p.1 = q.1
  | [], _, _, hp, _, _, _ => by simp at hp
  | c :: l, hs, p, hp, q, hq, h => by
    rw [List.pairwise_cons] at hs
    rcases List.mem_cons.1 hp with rfl | hp'
    · rcases List.mem_cons.1 hq with rfl | hq'
      · rfl
      · have := hs.1 q hq'
        omega
    · rcases List.mem_cons.1 hq with rfl | hq'
      · have := hs.1 p hp'
        omega
      · exact inj_sorted l hs.2 p hp' q hq' h

theorem codes_nodup : ∀ p ∈ tagCodes, ∀ q ∈ tagCodes, p.2 = q.2 → p.1 = q.1 := inj_sorted _ codes_sorted

/-- **C40.** Nothing else has a code: it is a name of the list, or begins with `ades`. -/
theorem C40_only (name : List Nat) (c : Int) (h : codeOf name = some c) :
    (∃ s, name = bytes s ∧ (s, c) ∈ tagCodes) ∨ (c = 0 ∧ name.take 4 = bytes "ades") := by
  unfold codeOf at h
  split at h
  · rename_i h4
    exact .inr ⟨(Option.some.inj h).symm, h4⟩
  · obtain ⟨p, hp, rfl⟩ := Option.map_eq_some_iff.1 h
    have h1 := List.find?_some hp
    have h2 := List.mem_of_find?_eq_some hp
    exact .inl ⟨p.1, (eq_of_beq h1).symm, h2⟩

/-- **C40.** Different names have different codes, those beginning with `ades` apart. -/
theorem C40_injective (n n' : List Nat) (c : Int) (h : codeOf n = some c) (h' : codeOf n' = some c) (hc : c ≠ 0) : n = n' := by
  rcases C40_only n c h with ⟨s, rfl, hs⟩ | ⟨rfl, -⟩
  · rcases C40_only n' c h' with ⟨s', rfl, hs'⟩ | ⟨rfl, -⟩
    · have : s = s' := codes_nodup (s, c) hs (s', c) hs' rfl
      rw [this]
    · exact (hc rfl).elim
  · exact (hc rfl).elim

/-- **C40.** Outside the list: any longer name beginning with `ades` passes for `ades`. -/
theorem C40_ades_prefix : findTag (bytes "adestination>") 12 = 0 := by decide +kernel

example : findTag (bytes "obsTime>2020") 7 = 65 ∧ findTag (bytes "/obsTime>") 8 = 65 ∧ findTag (bytes "obstime>") 7 = -1 := by
  decide +kernel

/-! ## C41 -/

/-- The stack of open elements, as the code keeps it. -/
def Keeps (s : St) (stack : List Int) : Prop :=
  s.depth = stack.length ∧ ∀ i : Nat, i < stack.length → some (s.tags i) = stack.reverse[i]?

/-- The token that the inside of a tag stands for. -/
def tokOf (body : List Nat) : Tok :=
  match body with
  | 47 :: name => match codeOf name with
    | some c => .cls c
    | none => .other
  | name => match codeOf name with
    | some c => .opn c
    | none => .other

/-- A line written as tags and texts, each followed by any amount of white space. -/
inductive Writes : List Nat → List Tok → Prop where
  | nil : Writes [] []
  | tag {body ws rest ts} : (∀ c ∈ body, c ≠ 62) → (∀ c ∈ ws, isSpace c = true) → (∀ c ∈ rest.head?, isSpace c = false) →
      Writes rest ts → Writes (60 :: (body ++ 62 :: (ws ++ rest))) (tokOf body :: ts)
  | text {s ws rest ts} : (∀ c ∈ s, c ≠ 60) → (∀ c ∈ s.getLast?, 32 < c) → s ≠ [] → (∀ c ∈ ws, isSpace c = true) →
      (∀ c ∈ rest.head?, c = 60) → Writes rest ts → Writes (s ++ (ws ++ rest)) (.text :: ts)

theorem keeps_init : Keeps init [] := ⟨rfl, by simp⟩

theorem Keeps.top {s : St} {t : Int} {st : List Int} (h : Keeps s (t :: st)) : s.tags st.length = t := by
  have := h.2 st.length (by simp)
  simpa using this

theorem Keeps.pop {s : St} {t : Int} {st : List Int} (h : Keeps s (t :: st)) : Keeps ⟨s.depth - 1, s.tags⟩ st := by
  refine ⟨by have := h.1; simp at this ⊢; omega, fun i hi => ?_⟩
  have := h.2 i (by simp; omega)
  rw [List.reverse_cons, List.getElem?_append_left (by simpa using hi)] at this
  exact this

theorem Keeps.push {s : St} {st : List Int} (h : Keeps s st) (t : Int) :
    Keeps ⟨s.depth + 1, fun j => if j = s.depth then t else s.tags j⟩ (t :: st) := by
  refine ⟨by have := h.1; simp at this ⊢; omega, fun i hi => ?_⟩
  have h1 := h.1
  simp only [List.length_cons] at hi
  simp only [List.reverse_cons]
  by_cases he : i = st.length
  · subst he
    rw [if_pos h1.symm]
    simp
  · rw [if_neg (by omega), h.2 i (by omega), List.getElem?_append_left (by simp; omega)]

theorem codeOf_nonneg {name : List Nat} {c : Int} (h : codeOf name = some c) : 0 ≤ c := by
  rcases C40_only name c h with ⟨s, -, hs⟩ | ⟨rfl, -⟩
  · have := codes_pos _ hs
    simp only at this
    omega
  · omega

theorem skipWs_eq {ws rest : List Nat} (h : ∀ c ∈ ws, isSpace c = true) (hr : ∀ c ∈ rest.head?, isSpace c = false) :
    skipWs (ws ++ rest) = rest := by
  unfold skipWs
  induction ws with
  | nil =>
    cases rest with
    | nil => rfl
    | cons c cs => simp [hr c (by simp)]
  | cons c cs ih =>
    simp only [List.cons_append, List.dropWhile_cons, h c (by simp), if_true]
    exact ih (fun d hd => h d (by simp [hd]))

theorem takeWhile_body {body rest : List Nat} (h : ∀ c ∈ body, c ≠ 62) :
    (body ++ 62 :: rest).takeWhile (fun x => decide (x ≠ 62)) = body ∧
    (body ++ 62 :: rest).dropWhile (fun x => decide (x ≠ 62)) = 62 :: rest := by
  induction body with
  | nil => simp
  | cons c cs ih =>
    have hc : c ≠ 62 := h c (by simp)
    obtain ⟨i1, i2⟩ := ih (fun d hd => h d (by simp [hd]))
    constructor
    · simp only [List.cons_append, List.takeWhile_cons]
      simp only [ne_eq, hc, not_false_eq_true, decide_true, if_true]
      simp only [ne_eq] at i1
      rw [i1]
    · simp only [List.cons_append, List.dropWhile_cons]
      simp only [ne_eq, hc, not_false_eq_true, decide_true, if_true]
      exact i2

theorem findTag_tok (body rest : List Nat) (h : ∀ c ∈ body, c ≠ 62) :
    (at? (body ++ 62 :: rest) 0 == 47, findTag (body ++ 62 :: rest) body.length) =
    match tokOf body with
    | .cls c => (true, c)
    | .opn c => (false, c)
    | _ => (at? (body ++ 62 :: rest) 0 == 47, -1) := by
  by_cases h47 : body.head? = some 47
  · obtain ⟨name, rfl⟩ : ∃ name, body = 47 :: name := by
      cases body with
      | nil => simp at h47
      | cons c cs => exact ⟨cs, by simpa using h47⟩
    have := C40_closing name rest (fun c hc => h c (by simp [hc]))
    rw [this]
    have htok : tokOf (47 :: name) = match codeOf name with | some c => .cls c | none => .other := rfl
    rw [htok]
    cases codeOf name <;> simp [at?]
  · have := C40_opening body rest h h47
    rw [this]
    have htok : tokOf body = match codeOf body with | some c => .opn c | none => .other := by
      unfold tokOf
      split
      · simp at h47
      · rfl
    have h0 : (at? (body ++ 62 :: rest) 0 == 47) = false := by
      cases body with
      | nil => simp [at?]
      | cons c cs => simpa [at?] using h47
    rw [htok]
    cases codeOf body <;> simp [h0]

theorem stepLine_tag (P) (body ws rest : List Nat) (s : St) (r : Int) (hr : 0 ≤ r) (h : ∀ c ∈ body, c ≠ 62)
    (hw : ∀ c ∈ ws, isSpace c = true) (hh : ∀ c ∈ rest.head?, isSpace c = false) :
    stepLine P (60 :: (body ++ 62 :: (ws ++ rest))) s r =
      (match tokOf body with
        | .cls c => tagStep s r true c
        | .opn c => tagStep s r false c
        | _ => Outcome.ok (s, r)).bind fun q => .ok (.next rest q.1 q.2) := by
  have h2 := takeWhile_body (rest := ws ++ rest) h
  have h3 := findTag_tok body (ws ++ rest) h
  unfold stepLine
  rw [if_neg (by omega)]
  simp only [if_true]
  rw [h2.2, h2.1]
  simp only [skipWs_eq hw hh]
  rw [Prod.ext_iff] at h3
  obtain ⟨h4, h5⟩ := h3
  simp only at h4 h5
  cases ht : tokOf body with
  | cls c => rw [ht] at h4 h5; simp only at h4 h5; rw [h4, h5]
  | opn c => rw [ht] at h4 h5; simp only at h4 h5; rw [h4, h5]
  | text =>
    rw [ht] at h5; simp only at h5; rw [h5]
    simp [tagStep, Outcome.bind]
  | other =>
    rw [ht] at h5; simp only at h5; rw [h5]
    simp [tagStep, Outcome.bind]

theorem textLen_eq (s ws rest : List Nat) (h : ∀ c ∈ s, c ≠ 60) (hl : ∀ c ∈ s.getLast?, 32 < c) (hs : s ≠ [])
    (hw : ∀ c ∈ ws, isSpace c = true) (hh : ∀ c ∈ rest.head?, c = 60) : textLen (s ++ (ws ++ rest)) = s.length := by
  have hsp : ∀ c ∈ ws, c ≤ 32 := by
    intro c hc
    have := hw c hc
    unfold isSpace at this
    simp only [Bool.or_eq_true, beq_iff_eq, Bool.and_eq_true, decide_eq_true_eq] at this
    omega
  have htw : (s ++ (ws ++ rest)).takeWhile (fun x => decide (x ≠ 60)) = s ++ ws := by
    have h1 : ∀ (l : List Nat), (∀ c ∈ l, c ≠ 60) → (l ++ rest).takeWhile (fun x => decide (x ≠ 60)) = l := by
      intro l
      induction l with
      | nil =>
        intro _
        cases rest with
        | nil => rfl
        | cons c cs => simp [hh c (by simp)]
      | cons c cs ih =>
        intro hl
        have h2 := ih (fun d hd => hl d (by simp [hd]))
        have hc : c ≠ 60 := hl c (by simp)
        simp only [List.cons_append, List.takeWhile_cons, ne_eq, hc, not_false_eq_true, decide_true, if_true]
        simp only [ne_eq] at h2
        rw [h2]
    rw [← List.append_assoc]
    refine h1 _ fun c hc => ?_
    rcases List.mem_append.1 hc with hc | hc
    · exact h c hc
    · have := hsp c hc; omega
  unfold textLen
  rw [htw]
  have hd : ∀ (l m : List Nat), (∀ c ∈ l, c ≤ 32) → (l ++ m).dropWhile (fun x => decide (x ≤ 32)) = m.dropWhile (fun x => decide (x ≤ 32)) := by
    intro l m
    induction l with
    | nil => intro _; rfl
    | cons c cs ih =>
      intro hl
      simp [hl c (by simp), ih (fun d hd => hl d (by simp [hd]))]
  rw [List.reverse_append, hd _ _ (by intro c hc; exact hsp c (List.mem_reverse.1 hc))]
  obtain ⟨c, cs, hc⟩ : ∃ c cs, s.reverse = c :: cs := by
    cases hr : s.reverse with
    | nil => simp at hr; exact (hs hr).elim
    | cons c cs => exact ⟨c, cs, rfl⟩
  have hlast : s.getLast? = some c := by rw [← List.head?_reverse, hc]; rfl
  have := hl c (by rw [hlast]; rfl)
  rw [hc]
  simp only [List.dropWhile_cons, show decide (c ≤ 32) = false by simp; omega]
  simp only [Bool.false_eq_true, if_false]
  rw [← hc]; simp

theorem stepLine_text (P) (s ws rest : List Nat) (st : St) (r : Int) (hr : 0 ≤ r) (h : ∀ c ∈ s, c ≠ 60)
    (hl : ∀ c ∈ s.getLast?, 32 < c) (hs : s ≠ []) (hw : ∀ c ∈ ws, isSpace c = true) (hh : ∀ c ∈ rest.head?, c = 60)
    (hd : st.depth ≠ 0) :
    stepLine P (s ++ (ws ++ rest)) st r = (st.read (st.depth - 1)).bind fun itag => (P st.depth itag s).bind fun v =>
      .ok (.next rest st v) := by
  have hlen := textLen_eq s ws rest h hl hs hw hh
  have hskip : skipWs (ws ++ rest) = rest := by
    refine skipWs_eq hw fun c hc => ?_
    rw [hh c hc]; decide
  cases s with
  | nil => exact (hs rfl).elim
  | cons c cs =>
    unfold stepLine
    rw [if_neg (by omega)]
    simp only [List.cons_append]
    rw [if_neg (h c (by simp)), if_pos hd]
    rw [← List.cons_append, hlen]
    rw [List.drop_left, hskip, List.take_left]

/-- Readers of text that neither stop the program nor report an error. -/
def Mild (P : Int → Int → List Nat → Outcome Int) : Prop := ∀ d t s, ∃ v, P d t s = .ok v ∧ 0 ≤ v

theorem tagStep_opn {s : St} {st : List Int} (hk : Keeps s st) (t r : Int) (ht : 0 ≤ t) (hl : st.length < 20) :
    tagStep s r false t = .ok (⟨s.depth + 1, fun j => if j = s.depth then t else s.tags j⟩,
      if st.length = 19 then -3 else r) := by
  have := hk.1
  unfold tagStep
  rw [if_neg (by omega)]
  simp only [Bool.false_eq_true, if_false]
  unfold St.write
  rw [if_pos (by omega)]
  simp only [Outcome.bind]
  congr 3
  simp only [eq_iff_iff]
  omega

theorem tagStep_cls {s : St} {t : Int} {st : List Int} (hk : Keeps s (t :: st)) (r : Int) (ht : 0 ≤ t)
    (hl : st.length < 20) : tagStep s r true t = .ok (⟨s.depth - 1, s.tags⟩, if t = optical then 1 else r) := by
  have h1 := hk.1
  have h2 := hk.top
  simp only [List.length_cons] at h1
  have h3 : s.depth - 1 = (st.length : Int) := by omega
  unfold tagStep
  rw [if_neg (by omega)]
  simp only [if_true]
  rw [if_neg (by omega), h3]
  unfold St.read
  rw [if_pos (by omega)]
  simp [Outcome.bind, h2]

theorem tokOf_code {body : List Nat} : (∀ c, tokOf body = .opn c → 0 ≤ c) ∧ (∀ c, tokOf body = .cls c → 0 ≤ c) ∧
    tokOf body ≠ .text := by
  unfold tokOf
  refine ⟨?_, ?_, ?_⟩
  · intro c h
    split at h
    · split at h <;> cases h
    · split at h
      · rename_i hc; cases h; exact codeOf_nonneg hc
      · cases h
  · intro c h
    split at h
    · split at h
      · rename_i hc; cases h; exact codeOf_nonneg hc
      · cases h
    · split at h <;> cases h
  · intro h
    split at h
    · split at h <;> cases h
    · split at h <;> cases h

/-- **C41.** A correctly nested line, with at most 19 elements open at any time, is followed exactly: no access outside
    the 20 slots, no error, and at the end the elements still open are on the stack. -/
theorem C41_follows (P) (hP : Mild P) : ∀ (line : List Nat) (toks : List Tok), Writes line toks →
    ∀ (s : St) (stack stack' : List Int) (r : Int), Keeps s stack → stack.length ≤ 19 → Nest 19 stack toks stack' → 0 ≤ r →
    ∃ n s' r', runLine P n line s r = some (.ok (s', r')) ∧ Keeps s' stack' ∧ 0 ≤ r' := by
  intro line toks hw
  induction hw with
  | nil =>
    intro s stack stack' r hk hl hn hr
    cases hn
    exact ⟨1, s, r, by simp [runLine, stepLine], hk, hr⟩
  | @tag body ws rest ts hb hws hh hw ih =>
    intro s stack stack' r hk hl hn hr
    have hstep := stepLine_tag P body ws rest s r hr hb hws hh
    obtain ⟨c1, c2, c3⟩ := tokOf_code (body := body)
    cases ht : tokOf body with
    | text => exact (c3 ht).elim
    | other =>
      rw [ht] at hn hstep
      cases hn with
      | other hn =>
        obtain ⟨n, s', r', h1, h2, h3⟩ := ih s stack stack' r hk hl hn hr
        exact ⟨n + 1, s', r', by rw [runLine, hstep]; exact h1, h2, h3⟩
    | opn c =>
      rw [ht] at hn hstep
      cases hn with
      | opn hlt hn =>
        simp only at hstep
        rw [tagStep_opn hk c r (c1 c ht) (by omega)] at hstep
        obtain ⟨n, s', r', h1, h2, h3⟩ := ih _ _ stack' r (hk.push c) (by simp; omega) hn hr
        refine ⟨n + 1, s', r', ?_, h2, h3⟩
        rw [runLine, hstep]
        simp only [Outcome.bind]
        rw [if_neg (by omega)]
        exact h1
    | cls c =>
      rw [ht] at hn hstep
      cases hn with
      | @cls _ st _ _ hn =>
        simp only [List.length_cons] at hl
        simp only at hstep
        rw [tagStep_cls hk r (c2 c ht) (by omega)] at hstep
        obtain ⟨n, s', r', h1, h2, h3⟩ := ih _ _ stack' (if c = optical then 1 else r) hk.pop (by omega) hn (by split <;> omega)
        exact ⟨n + 1, s', r', by rw [runLine, hstep]; exact h1, h2, h3⟩
  | @text t ws rest ts ht hl' hne hws hh hw ih =>
    intro s stack stack' r hk hl hn hr
    cases hn with
    | text hst hn =>
      have hd := hk.1
      have hpos : 0 < stack.length := by cases stack with | nil => exact (hst rfl).elim | cons a b => simp
      have hstep := stepLine_text P t ws rest s r hr ht hl' hne hws hh (by omega)
      unfold St.read at hstep
      rw [if_pos (by omega)] at hstep
      simp only [Outcome.bind] at hstep
      obtain ⟨v, hv, hv0⟩ := hP s.depth (s.tags (s.depth - 1)) t
      rw [hv] at hstep
      simp only at hstep
      obtain ⟨n, s', r', h1, h2, h3⟩ := ih s stack stack' v hk hl hn hv0
      exact ⟨n + 1, s', r', by rw [runLine, hstep]; exact h1, h2, h3⟩

theorem Nest.append {room : Nat} {s ts s'} (h : Nest room s ts s') : ∀ {us s''}, Nest room s' us s'' → Nest room s (ts ++ us) s'' := by
  induction h with
  | nil s => intro us s'' h; exact h
  | opn h _ ih => intro us s'' h'; exact .opn h (ih h')
  | cls _ ih => intro us s'' h'; exact .cls (ih h')
  | text h _ ih => intro us s'' h'; exact .text h (ih h')
  | other _ ih => intro us s'' h'; exact .other (ih h')

theorem balanced_nest {h : Nat} {ts : List Tok} (hb : Balanced h ts) : ∀ (s : List Int), s ≠ [] → s.length + h ≤ 19 → Nest 19 s ts s := by
  induction hb with
  | nil h => intro s _ _; exact .nil s
  | text _ ih => intro s h1 h2; exact .text h1 (ih s h1 h2)
  | other _ ih => intro s h1 h2; exact .other (ih s h1 h2)
  | @elem h t us ts _ _ ih1 ih2 =>
    intro s h1 h2
    refine .opn (by omega) ?_
    refine Nest.append (ih1 (t :: s) (by simp) (by simp; omega)) ?_
    exact .cls (ih2 s h1 h2)

/-- **C41.** A whole document, one root element with contents no more than 18 deep, leaves the stack empty:
    `free_ades2mpc_context` returns 0. -/
theorem C41_document (P) (hP : Mild P) (line : List Nat) (t : Int) (us : List Tok) (hb : Balanced 18 us)
    (hw : Writes line (.opn t :: (us ++ [.cls t]))) :
    ∃ n s' r', runLine P n line init 0 = some (.ok (s', r')) ∧ s'.depth = 0 ∧ 0 ≤ r' := by
  have hn : Nest 19 [] (.opn t :: (us ++ [.cls t])) [] := by
    refine .opn (by simp) ?_
    exact Nest.append (balanced_nest hb [t] (by simp) (by simp)) (.cls (.nil _))
  obtain ⟨n, s', r', h1, h2, h3⟩ := C41_follows P hP line _ hw init [] [] 0 keeps_init (by simp) hn (by omega)
  exact ⟨n, s', r', h1, by simpa using h2.1, h3⟩

/-- **C41.** A closing tag that does not fit the innermost open element is reported, whatever follows it (`optical`
    apart: see `C41_optical_unopened`). -/
theorem C41_rejects_closing (P) (s : St) (stack : List Int) (r : Int) (hk : Keeps s stack) (hl : stack.length ≤ 19) (hr : 0 ≤ r)
    (body rest : List Nat) (hb : ∀ c ∈ body, c ≠ 62) (t : Int) (ht : tokOf body = .cls t) (hne : stack.head? ≠ some t)
    (hopt : t ≠ optical) :
    ∃ s', runLine P 2 (60 :: (body ++ 62 :: rest)) s r = some (.ok (s', -2)) := by
  have ht0 : 0 ≤ t := (tokOf_code (body := body)).2.1 t ht
  have hstep : ∃ rest', stepLine P (60 :: (body ++ 62 :: rest)) s r =
      (tagStep s r true t).bind fun q => .ok (.next rest' q.1 q.2) := by
    refine ⟨skipWs rest, ?_⟩
    have h2 := takeWhile_body (rest := rest) hb
    have h3 := findTag_tok body rest hb
    rw [ht, Prod.ext_iff] at h3
    simp only at h3
    unfold stepLine
    rw [if_neg (by omega)]
    simp only [if_true]
    rw [h2.2, h2.1, h3.1, h3.2]
  obtain ⟨rest', hstep⟩ := hstep
  have htag : tagStep s r true t = .ok (⟨s.depth - 1, s.tags⟩, -2) := by
    unfold tagStep
    rw [if_neg (by omega)]
    simp only [if_true]
    have hd := hk.1
    cases stack with
    | nil =>
      simp only [List.length_nil] at hd
      rw [if_pos (by omega)]
      simp [Outcome.bind, hopt]
    | cons a st =>
      simp only [List.length_cons] at hd hl
      rw [if_neg (by omega), show s.depth - 1 = (st.length : Int) by omega]
      unfold St.read
      rw [if_pos (by omega)]
      have := hk.top
      simp only [Outcome.bind]
      rw [if_neg hopt, if_pos]
      rw [this]
      simpa using hne
  refine ⟨⟨s.depth - 1, s.tags⟩, ?_⟩
  rw [runLine, hstep, htag]
  simp [Outcome.bind, runLine, stepLine]

/-- **C41.** The twentieth open element is reported. -/
theorem C41_rejects_depth (P) (s : St) (stack : List Int) (r : Int) (hk : Keeps s stack) (hl : stack.length = 19) (hr : 0 ≤ r)
    (body rest : List Nat) (hb : ∀ c ∈ body, c ≠ 62) (t : Int) (ht : tokOf body = .opn t) :
    ∃ s', runLine P 2 (60 :: (body ++ 62 :: rest)) s r = some (.ok (s', -3)) := by
  have ht0 : 0 ≤ t := (tokOf_code (body := body)).1 t ht
  have hstep : stepLine P (60 :: (body ++ 62 :: rest)) s r =
      (tagStep s r false t).bind fun q => .ok (.next (skipWs rest) q.1 q.2) := by
    have h2 := takeWhile_body (rest := rest) hb
    have h3 := findTag_tok body rest hb
    rw [ht, Prod.ext_iff] at h3
    simp only at h3
    unfold stepLine
    rw [if_neg (by omega)]
    simp only [if_true]
    rw [h2.2, h2.1, h3.1, h3.2]
  rw [tagStep_opn hk t r ht0 (by omega), if_pos hl] at hstep
  rw [runLine, hstep]
  simp only [Outcome.bind]
  rw [runLine]
  simp only [stepLine, show ((-3 : Int) < 0) by omega, if_true]
  exact ⟨_, rfl⟩

/-! ### Every line -/

/-- No byte that `skip_whitespace` stops at but that is cut off from the end of a text. -/
def NoControl (line : List Nat) : Prop := ∀ c ∈ line, c ≤ 32 → isSpace c = true

theorem mem_skipWs {l : List Nat} {c : Nat} (h : c ∈ skipWs l) : c ∈ l := (List.dropWhile_sublist _).subset h
theorem length_skipWs (l : List Nat) : (skipWs l).length ≤ l.length := (List.dropWhile_sublist _).length_le

theorem skipWs_head (l : List Nat) : ∀ c ∈ (skipWs l).head?, isSpace c = false := by
  unfold skipWs
  induction l with
  | nil => simp
  | cons c cs ih =>
    simp only [List.dropWhile_cons]
    split
    · exact ih
    · rename_i h; simpa using h

theorem textLen_pos {c : Nat} {cs : List Nat} (h1 : c ≠ 60) (h2 : 32 < c) : 0 < textLen (c :: cs) := by
  unfold textLen
  rw [List.takeWhile_cons]
  simp only [ne_eq, h1, not_false_eq_true, decide_true, if_true, List.reverse_cons]
  rw [List.length_pos_iff]
  intro h
  have hall : ∀ (l : List Nat), (l ++ [c]).dropWhile (fun x => decide (x ≤ 32)) ≠ [] := by
    intro l
    induction l with
    | nil => simp [List.dropWhile_cons]; omega
    | cons x xs ih =>
      simp only [List.cons_append, List.dropWhile_cons]
      split
      · exact ih
      · simp
  exact hall _ h

/-- **C41.** The loop stops on every line without control characters, after at most one pass per byte. -/
theorem C41_stops (P) : ∀ (n : Nat) (line : List Nat) (s : St) (r : Int), line.length < n → NoControl line →
    (∀ c ∈ line.head?, isSpace c = false) → ∃ o, runLine P n line s r = some o
  | 0, line, s, r, h, _, _ => by omega
  | n + 1, line, s, r, h, hc, hh => by
    rw [runLine]
    cases hs : stepLine P line s r with
    | abort => exact ⟨_, rfl⟩
    | ub => exact ⟨_, rfl⟩
    | ok st =>
      cases st with
      | done s' r' => exact ⟨_, rfl⟩
      | next rest s' r' =>
        simp only
        have key : rest.length < line.length ∧ (∀ c ∈ rest, c ∈ line) ∧ (∀ c ∈ rest.head?, isSpace c = false) := by
          unfold stepLine at hs
          split at hs
          · cases hs
          · split at hs
            · cases hs
            · rename_i c cs
              split at hs
              · split at hs
                · cases hs
                · rename_i d rest0 hd
                  have hsub : (d :: rest0).Sublist cs := hd ▸ List.dropWhile_sublist _
                  unfold Outcome.bind at hs
                  split at hs
                  · cases hs
                    refine ⟨?_, ?_, skipWs_head _⟩
                    · have h1 := length_skipWs rest0
                      have h2 := hsub.length_le
                      simp only [List.length_cons] at h2 ⊢
                      omega
                    · intro x hx
                      exact List.mem_cons_of_mem _ (hsub.subset (List.mem_cons_of_mem _ (mem_skipWs hx)))
                  · cases hs
                  · cases hs
              · rename_i h60
                split at hs
                · unfold Outcome.bind at hs
                  split at hs
                  · simp only at hs
                    split at hs
                    · cases hs
                      have hcs : isSpace c = false := hh c (by simp)
                      have hgt : 32 < c := by
                        by_contra hle
                        rw [hc c (by simp) (by omega)] at hcs
                        cases hcs
                      have hp := textLen_pos (cs := cs) h60 hgt
                      refine ⟨?_, ?_, skipWs_head _⟩
                      · have h1 := length_skipWs ((c :: cs).drop (textLen (c :: cs)))
                        rw [List.length_drop] at h1
                        simp only [List.length_cons] at h1 ⊢
                        omega
                      · intro x hx
                        exact List.mem_of_mem_drop (mem_skipWs hx)
                    · cases hs
                    · cases hs
                  · cases hs
                  · cases hs
                · cases hs
        obtain ⟨k1, k2, k3⟩ := key
        exact C41_stops P n rest s' r' (by omega) (fun c hcm => hc c (k2 c hcm)) k3

/-- The counters are where they should be; after an error they may be one off. -/
def Sound (s : St) (r : Int) : Prop := -1 ≤ s.depth ∧ s.depth ≤ 20 ∧ (0 ≤ r → 0 ≤ s.depth ∧ s.depth ≤ 19)

theorem tokOf_optical {body : List Nat} (h : tokOf body = .cls optical) : body = bytes "/optical" := by
  unfold tokOf at h
  split at h
  · rename_i name
    split at h
    · rename_i c hc
      cases h
      have : codeOf (bytes "optical") = some 70 := by decide +kernel
      rw [C40_injective _ _ _ hc this (by decide)]
      decide
    · cases h
  · split at h <;> cases h

theorem tagStep_sound {s : St} {r : Int} {closing : Bool} {t : Int} (hs : Sound s r) (hr : 0 ≤ r)
    (h : ¬ (closing = true ∧ t = optical)) :
    ∃ s' r', tagStep s r closing t = .ok (s', r') ∧ Sound s' r' := by
  obtain ⟨h1, h2, h3⟩ := hs
  obtain ⟨h4, h5⟩ := h3 hr
  unfold tagStep
  split
  · exact ⟨s, r, rfl, h1, h2, h3⟩
  · split
    · rename_i hc
      have ht : t ≠ optical := fun e => h ⟨hc, e⟩
      simp only
      split
      · exact ⟨_, _, rfl, by simp only; omega, by simp only; omega, by simp⟩
      · unfold St.read
        rw [if_pos (by omega)]
        simp only [Outcome.bind]
        refine ⟨_, _, rfl, by simp only; omega, by simp only; omega, ?_⟩
        intro _
        simp only
        omega
    · unfold St.write
      rw [if_pos (by omega)]
      simp only [Outcome.bind]
      refine ⟨_, _, rfl, by simp only; omega, by simp only; omega, ?_⟩
      simp only
      split
      · intro h; omega
      · intro _; omega

/-- **C41.** Any line whatever that does not contain `</optical>`, read from any state with at most 19 open elements,
    stays inside the 20 slots; unless an error is returned, at most 19 elements are open afterwards. -/
theorem C41_safe (P) (hP : ∀ d t s, P d t s ≠ .ub) : ∀ (n : Nat) (line : List Nat) (s : St) (r : Int), Sound s r →
    ¬ bytes "</optical>" <:+: line →
    runLine P n line s r ≠ some .ub ∧ ∀ s' r', runLine P n line s r = some (.ok (s', r')) → Sound s' r'
  | 0, line, s, r, _, _ => by simp [runLine]
  | n + 1, line, s, r, hs, hno => by
    rw [runLine]
    have key : (∃ s' r', stepLine P line s r = .ok (.done s' r') ∧ Sound s' r') ∨
        (∃ rest s' r', stepLine P line s r = .ok (.next rest s' r') ∧ Sound s' r' ∧ rest <:+ line) ∨
        stepLine P line s r = .abort := by
      unfold stepLine
      split
      · exact .inl ⟨_, _, rfl, hs⟩
      · rename_i hr
        split
        · exact .inl ⟨_, _, rfl, hs⟩
        · rename_i c cs
          split
          · rename_i hc
            split
            · exact .inl ⟨_, _, rfl, hs.1, hs.2.1, by intro h; omega⟩
            · rename_i d rest0 hd
              have hcat : cs = cs.takeWhile (fun x => decide (x ≠ 62)) ++ d :: rest0 := by
                rw [← hd]; exact List.takeWhile_append_dropWhile.symm
              have hd62 : d = 62 := by
                have := List.head?_dropWhile_not (p := fun x => decide (x ≠ 62)) cs
                rw [hd] at this
                simpa using this
              subst hd62
              have hbody : ∀ x ∈ cs.takeWhile (fun x => decide (x ≠ 62)), x ≠ 62 := by
                intro x hx
                have := List.all_eq_true.1 (List.all_takeWhile (p := fun x => decide (x ≠ 62)) (l := cs)) x hx
                simpa using this
              generalize hbe : cs.takeWhile (fun x => decide (x ≠ 62)) = body at hcat hbody
              have hf := findTag_tok body rest0 hbody
              rw [← hcat, Prod.ext_iff] at hf
              obtain ⟨s', r', h1, h2⟩ := tagStep_sound (closing := at? cs 0 == 47) (t := findTag cs body.length) hs (by omega) (by
                rintro ⟨e1, e2⟩
                apply hno
                have ht : tokOf body = .cls optical := by
                  obtain ⟨f1, f2⟩ := hf
                  simp only at f1 f2
                  rw [e1] at f1
                  rw [e2] at f2
                  cases htb : tokOf body with
                  | cls c => rw [htb] at f2; simp only at f2; rw [f2]
                  | opn c => rw [htb] at f1; simp at f1
                  | text => rw [htb] at f2; simp [optical] at f2
                  | other => rw [htb] at f2; simp [optical] at f2
                have hb := tokOf_optical ht
                refine ⟨[], rest0, ?_⟩
                rw [hcat, hb, hc]
                have : bytes "</optical>" = 60 :: (bytes "/optical" ++ [62]) := by decide
                rw [this]
                simp)
              rw [h1]
              refine .inr (.inl ⟨_, s', r', rfl, h2, ?_⟩)
              refine List.IsSuffix.trans (List.dropWhile_suffix _) ?_
              rw [hcat]
              exact ⟨c :: body ++ [62], by simp⟩
          · split
            · obtain ⟨h1, h2, h3⟩ := hs
              obtain ⟨h4, h5⟩ := h3 (by omega)
              unfold St.read
              rw [if_pos (by omega)]
              simp only [Outcome.bind]
              cases hp : P s.depth (s.tags (s.depth - 1)) ((c :: cs).take (textLen (c :: cs))) with
              | ub => exact (hP _ _ _ hp).elim
              | abort => exact .inr (.inr rfl)
              | ok v =>
                refine .inr (.inl ⟨_, s, v, rfl, ⟨h1, h2, fun _ => ⟨h4, h5⟩⟩, ?_⟩)
                exact List.IsSuffix.trans (List.dropWhile_suffix _) (List.drop_suffix _ _)
            · exact .inl ⟨_, _, rfl, hs⟩
    rcases key with ⟨s', r', h1, h2⟩ | ⟨rest, s', r', h1, h2, h3⟩ | h1
    · rw [h1]
      refine ⟨by simp, ?_⟩
      intro s'' r'' he
      simp only [Option.some.injEq, Outcome.ok.injEq, Prod.mk.injEq] at he
      obtain ⟨rfl, rfl⟩ := he
      exact h2
    · rw [h1]
      exact C41_safe P hP n rest s' r' h2 (fun hi => hno (hi.trans h3.isInfix))
    · rw [h1]
      simp

/-- **C41.** With a control character the loop may never end: a lone byte 1 inside an element. -/
theorem C41_control_hangs (P) (hP : ∀ d t s, P d t s = .ok 0) (s : St) (hd : 0 < s.depth) (hd' : s.depth ≤ 20) :
    ∀ n, runLine P n [1] s 0 = none
  | 0 => rfl
  | n + 1 => by
    have : stepLine P [1] s 0 = .ok (.next [1] s 0) := by
      unfold stepLine
      rw [if_neg (by omega)]
      simp only
      rw [if_neg (by omega), if_pos (by omega)]
      unfold St.read
      rw [if_pos (by omega)]
      simp only [Outcome.bind, hP]
      rfl
    rw [runLine, this]
    exact C41_control_hangs P hP s hd hd' n

/-- **C41.** Violated: `</optical>` with nothing open goes unreported and leaves the depth at -1, and the next opening
    tag on the line is stored outside the table. -/
theorem C41_optical_unopened :
    (runLine (fun _ _ _ => .ok 0) 9 (bytes "<ades version='2017'></ades></optical>") init 0).map (fun o => o.bind fun q => .ok (q.1.depth, q.2))
      = some (.ok (-1, 1)) ∧
    (runLine (fun _ _ _ => .ok 0) 9 (bytes "<ades version='2017'></ades></optical><ra>") init 0).map (fun o => o.bind fun q => .ok (q.1.depth, q.2))
      = some .ub := by decide +kernel

/-- **C41.** Violated when reading goes on after an error, as `fgets_with_ades_xlation` does: a closing tag too many is
    reported, but the next opening tag is stored outside the table. -/
theorem C41_after_error (P) (s : St) (hs : s.depth = 0) :
    ∃ s', runLine P 2 (bytes "</ra>") s 0 = some (.ok (s', -2)) ∧ runLine P 2 (bytes "<ra>") s' 0 = some .ub := by
  obtain ⟨d, tg⟩ := s
  simp only at hs
  subst hs
  have e1 : bytes "</ra>" = 60 :: ([47, 114, 97] ++ 62 :: ([] ++ [])) := by decide
  have e2 : bytes "<ra>" = 60 :: ([114, 97] ++ 62 :: ([] ++ [])) := by decide
  have t1 : tokOf [47, 114, 97] = .cls 96 := by decide +kernel
  have t2 : tokOf [114, 97] = .opn 96 := by decide +kernel
  refine ⟨⟨-1, tg⟩, ?_, ?_⟩
  · rw [e1, runLine, stepLine_tag P _ [] [] _ 0 (by omega) (by decide) (by simp) (by simp), t1]
    simp [tagStep, Outcome.bind, optical, runLine, stepLine]
  · rw [e2, runLine, stepLine_tag P _ [] [] _ 0 (by omega) (by decide) (by simp) (by simp), t2]
    simp [tagStep, Outcome.bind, St.write]

example : Sound init 0 ∧ ¬ bytes "</optical>" <:+: bytes "<ra>12</ra>" := by
  refine ⟨⟨by decide, by decide, fun _ => ⟨by decide, by decide⟩⟩, by decide +kernel⟩

example : Balanced 18 [.opn 95, .text, .cls 95, .other] :=
  .elem (us := [.text]) (.text (.nil _)) (.other (.nil _))

example : Writes (bytes "<ra>1 </ra> ") [.opn 96, .text, .cls 96] := by
  have e : bytes "<ra>1 </ra> " = 60 :: ([114, 97] ++ 62 :: ([] ++ ([49] ++ ([32] ++ 60 :: ([47, 114, 97] ++ 62 :: ([32] ++ [])))))) := by decide
  have t1 : tokOf [114, 97] = .opn 96 := by decide +kernel
  have t2 : tokOf [47, 114, 97] = .cls 96 := by decide +kernel
  rw [e, ← t1, ← t2]
  refine Writes.tag (by decide) (by simp) (by decide) ?_
  refine Writes.text (by decide) (by decide) (by decide) (by decide) (by decide) ?_
  exact Writes.tag (by decide) (by decide) (by simp) .nil

/-! ## C63 -/

theorem exchangePass_spec : ∀ (x : List Nat) (l : List (List Nat)),
    ((exchangePass x l).1 :: (exchangePass x l).2).Perm (x :: l) ∧ (∀ y ∈ x :: l, (exchangePass x l).1 ≤ y) ∧
    (exchangePass x l).2.length = l.length
  | x, [] => by simp [exchangePass]
  | x, y :: ys => by
    unfold exchangePass
    split
    · rename_i h
      obtain ⟨h1, h2, h3⟩ := exchangePass_spec y ys
      refine ⟨?_, ?_, by simp [h3]⟩
      · simp only
        refine (List.Perm.swap _ _ _).trans ?_
        exact List.Perm.cons x h1
      · intro z hz
        simp only [List.mem_cons] at hz
        rcases hz with rfl | rfl | hz
        · exact List.le_trans (h2 y (by simp)) (List.le_of_lt h)
        · exact h2 _ (by simp)
        · exact h2 z (by simp [hz])
    · rename_i h
      obtain ⟨h1, h2, h3⟩ := exchangePass_spec x ys
      refine ⟨?_, ?_, by simp [h3]⟩
      · simp only
        refine (List.Perm.swap _ _ _).trans ?_
        exact (List.Perm.cons y h1).trans (List.Perm.swap _ _ _)
      · intro z hz
        simp only [List.mem_cons] at hz
        rcases hz with rfl | rfl | hz
        · exact h2 _ (by simp)
        · exact List.le_trans (h2 x (by simp)) (List.not_lt.1 h)
        · exact h2 z (by simp [hz])

/-- **C63.** The sort of `adestags.c` sorts, for any list of names. -/
theorem C63_sorts : ∀ (n : Nat) (l : List (List Nat)), l.length ≤ n →
    (exchangeSort n l).Perm l ∧ (exchangeSort n l).Pairwise (· ≤ ·)
  | 0, l, h => by
    have : l = [] := List.length_eq_zero_iff.1 (by omega)
    subst this
    simp [exchangeSort]
  | n + 1, [], _ => by simp [exchangeSort]
  | n + 1, x :: xs, h => by
    obtain ⟨h1, h2, h3⟩ := exchangePass_spec x xs
    obtain ⟨i1, i2⟩ := C63_sorts n (exchangePass x xs).2 (by simp at h; omega)
    unfold exchangeSort
    refine ⟨(List.Perm.cons _ i1).trans h1, ?_⟩
    refine List.pairwise_cons.2 ⟨?_, i2⟩
    intro y hy
    exact h2 y (h1.subset (List.mem_cons_of_mem _ (i1.subset hy)))

/-- **C63.** Run on its own list it gives the table in `ades2mpc.cpp`, so that every documented tag is known. -/
theorem C63_table : exchangeSort 145 (documentedTags.map bytes) = tags ∧ documentedTags.length = 145 := by decide +kernel

/-- **C63.** Exactly the documented tags are in the table. -/
theorem C63_complete (s : String) : bytes s ∈ documentedTags.map bytes ↔ bytes s ∈ tags := by
  have h := (C63_sorts 145 (documentedTags.map bytes) (by decide +kernel)).1
  rw [C63_table.1] at h
  exact h.mem_iff.symm

end Verif.Props
