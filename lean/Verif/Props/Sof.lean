import Verif.Model.Sof
import Verif.Spec.Sof

/-!
# Property theorems: Standard Orbit Format records (C46)
-/

namespace Verif.Props

open Verif Verif.Sof Verif.Spec.Sof

/-- How the name of a column begins. -/
def sofName : Item → List Nat
  | .q => bytes "q "
  | .ecc => bytes "e "
  | .incl => bytes "i "
  | .node => bytes "O"
  | .argPer => bytes "o"
  | .absMag => bytes "H "
  | .slope => bytes "G "
  | .central => bytes "C "
  | .tPerih => bytes "Tp"
  | .tEpoch => bytes "Te"
  | .tWritten => bytes "Tw"
  | .tFirst => bytes "Tf"
  | .tLast => bytes "Tl"
  | .rms => bytes "rms"

/-- Items that are only kept if the caller asks for them. -/
def isExtra : Item → Bool
  | .tWritten | .tFirst | .tLast | .rms => true
  | _ => false

/-- A column is the one for an item. -/
def IsFor (extra : Bool) (e : Item) (col : List Nat) : Prop := sofName e <+: col ∧ (isExtra e = true → extra = true)

instance (extra : Bool) (e : Item) : DecidablePred (IsFor extra e) := fun _ => by unfold IsFor; infer_instance

/-- What the loop does, in terms of columns. -/
def expected (extra : Bool) : List (List Nat) → Items → List Nat → Outcome (Option Items)
  | [], st, _ => .ok (some st)
  | c :: cs, st, buff =>
    if c.length < 2 ∨ c.length ≥ 80 then .ok none
    else if c.length > buff.length then .ub
    else expected extra cs (fun e => if IsFor extra e c then some (buff.take c.length) else st e) (buff.drop (c.length + 1))

theorem inColumn_iff (c : Nat) : inColumn c = true ↔ ColumnByte c := by
  unfold inColumn printable ColumnByte
  simp only [Bool.and_eq_true, decide_eq_true_eq, bne_iff_ne, and_assoc]

theorem takeWhile_column (c h : List Nat) (hc : ∀ b ∈ c, ColumnByte b) (hh : ∀ b, h.head? = some b → ¬ ColumnByte b) :
    (c ++ h).takeWhile inColumn = c := by
  induction c with
  | nil =>
    cases h with
    | nil => rfl
    | cons b h =>
      have hb : inColumn b = false := by
        rw [← Bool.not_eq_true, inColumn_iff]; exact hh b rfl
      simp [hb]
  | cons a c ih =>
    have ha : inColumn a = true := (inColumn_iff a).2 (hc a (by simp))
    rw [List.cons_append, List.takeWhile_cons, ha]
    simp [ih fun b hb => hc b (by simp [hb])]

theorem columnItems_iff (extra : Bool) (e : Item) (c h : List Nat) (hl : 2 ≤ c.length)
    (hh : ∀ b, h.head? = some b → b ≠ 115) : e ∈ columnItems extra (c ++ h) ↔ IsFor extra e c := by
  match c, hl with
  | a :: b :: c, _ =>
    have h0 : at? (a :: b :: c ++ h) 0 = a := rfl
    have h1 : at? (a :: b :: c ++ h) 1 = b := rfl
    have h3 : (a :: b :: c ++ h).take 3 = [114, 109, 115] ↔ bytes "rms" <+: a :: b :: c := by
      have e5 : bytes "rms" = [114, 109, 115] := rfl
      rw [e5]
      cases c with
      | nil =>
        cases h with
        | nil => simp
        | cons d h => have := hh d rfl; simp; omega
      | cons d c => simp [List.cons_prefix_cons, eq_comm]
    unfold columnItems IsFor
    simp only [h0, h1, h3, List.mem_append]
    have hif : ∀ (p : Prop) [Decidable p] (l l' : List Item), e ∈ (if p then l else l') ↔ (p ∧ e ∈ l) ∨ (¬ p ∧ e ∈ l') := by
      intro p _ l l'; by_cases hp : p <;> simp [hp]
    simp only [hif, List.mem_singleton, List.not_mem_nil, and_false, or_false]
    clear hif hh h0 h1 h3
    have two : ∀ x y : Nat, [x, y] <+: a :: b :: c ↔ a = x ∧ b = y := by
      intro x y
      simp [List.cons_prefix_cons, eq_comm]
    have one : ∀ x : Nat, [x] <+: a :: b :: c ↔ a = x := by
      intro x
      simp [List.cons_prefix_cons, eq_comm]
    have e1 : bytes "q " = [113, 32] := rfl
    have e2 : bytes "e " = [101, 32] := rfl
    have e3 : bytes "i " = [105, 32] := rfl
    have e4 : bytes "O" = [79] := rfl
    have e5 : bytes "o" = [111] := rfl
    have e6 : bytes "H " = [72, 32] := rfl
    have e7 : bytes "G " = [71, 32] := rfl
    have e8 : bytes "C " = [67, 32] := rfl
    have e9 : bytes "Tp" = [84, 112] := rfl
    have e10 : bytes "Te" = [84, 101] := rfl
    have e11 : bytes "Tw" = [84, 119] := rfl
    have e12 : bytes "Tf" = [84, 102] := rfl
    have e13 : bytes "Tl" = [84, 108] := rfl
    cases extra <;> cases e <;>
      simp only [sofName, isExtra, e1, e2, e3, e4, e5, e6, e7, e8, e9, e10, e11, e12, e13, one, two, reduceCtorEq,
        and_false, or_false, false_or, and_true, false_and, true_and, forall_const, IsEmpty.forall_iff,
        Bool.false_eq_true] <;> omega

theorem printable_iff (h : List Nat) : printable (at? h 0) = true ↔ ¬ Ends h := by
  cases h with
  | nil => simp [at?, printable, Ends]
  | cons c h => simp [at?, printable, Ends]

theorem not_column_of_ends {h : List Nat} (he : Ends h) (b : Nat) (hb : h.head? = some b) : ¬ ColumnByte b := by
  have := he b hb
  unfold ColumnByte
  omega

theorem loop_eq (extra : Bool) (cols : List (List Nat)) (header : List Nat) (hc : Columns cols header) :
    ∀ (fuel : Nat) (st : Items) (buff : List Nat), cols.length < fuel →
      sofLoop extra fuel st header buff = some (expected extra cols st buff) := by
  induction hc with
  | stop h =>
    intro fuel st buff hf
    obtain ⟨fuel, rfl⟩ : ∃ k, fuel = k + 1 := ⟨fuel - 1, by omega⟩
    rw [sofLoop, if_neg (by rw [printable_iff]; simpa using h)]
    rfl
  | @last c h h0 h1 h2 =>
    intro fuel st buff hf
    obtain ⟨fuel, rfl⟩ : ∃ k, fuel = k + 1 + 1 := ⟨fuel - 2, by simp at hf; omega⟩
    have hp : printable (at? (c ++ h) 0) = true := by
      cases c with
      | nil => exact absurd rfl h0
      | cons a c => have := h1 a (by simp); unfold ColumnByte at this; simp [at?, printable]; omega
    have hi : (c ++ h).takeWhile inColumn = c := takeWhile_column c h h1 (not_column_of_ends h2)
    rw [sofLoop, if_pos hp, hi]
    unfold expected
    by_cases hw : c.length < 2 ∨ c.length ≥ 80
    · simp only [if_pos hw]
    · simp only [if_neg hw]
      by_cases hb : c.length > buff.length
      · rw [if_pos (Or.inl hb), if_pos hb]
      · rw [if_neg (by omega), if_neg hb]
        have hat : at? (c ++ h) c.length ≠ 124 := by
          unfold at?
          rw [List.getD_eq_getElem?_getD, List.getElem?_append_right (by omega), Nat.sub_self]
          cases h with
          | nil => simp
          | cons b h => have := h2 b rfl; simp; omega
        rw [if_neg hat, List.drop_left, sofLoop, if_neg (by rw [printable_iff]; simpa using h2)]
        unfold expected
        congr 4
        funext e
        unfold store
        have := columnItems_iff extra e c h (by omega) (by intro b hb; have := h2 b hb; omega)
        by_cases hh : IsFor extra e c
        · rw [if_pos (this.2 hh), if_pos hh]
        · rw [if_neg (fun h => hh (this.1 h)), if_neg hh]
  | @more c cs h h1 _ ih =>
    intro fuel st buff hf
    obtain ⟨fuel, rfl⟩ : ∃ k, fuel = k + 1 := ⟨fuel - 1, by simp at hf; omega⟩
    have hp : printable (at? (c ++ 124 :: h) 0) = true := by
      cases c with
      | nil => simp [at?, printable]
      | cons a c => have := h1 a (by simp); unfold ColumnByte at this; simp [at?, printable]; omega
    have hi : (c ++ 124 :: h).takeWhile inColumn = c :=
      takeWhile_column c _ h1 (by intro b hb; have : b = 124 := by simpa using hb.symm
                                  unfold ColumnByte; omega)
    rw [sofLoop, if_pos hp, hi]
    unfold expected
    by_cases hw : c.length < 2 ∨ c.length ≥ 80
    · simp only [if_pos hw]
    · simp only [if_neg hw]
      by_cases hb : c.length > buff.length
      · rw [if_pos (Or.inl hb), if_pos hb]
      · rw [if_neg (by omega), if_neg hb]
        have hat : at? (c ++ 124 :: h) c.length = 124 := by
          unfold at?
          rw [List.getD_eq_getElem?_getD, List.getElem?_append_right (by omega), Nat.sub_self]
          rfl
        rw [if_pos hat]
        have hd : (c ++ 124 :: h).drop (c.length + 1) = h := by
          rw [show c ++ 124 :: h = (c ++ [124]) ++ h by simp, show c.length + 1 = (c ++ [124]).length by simp, List.drop_left]
        rw [hd, ih _ _ _ (by simp at hf; omega)]
        congr 2
        funext e
        unfold store
        have := columnItems_iff extra e c (124 :: h) (by omega) (by intro b hb; have : b = 124 := by simpa using hb.symm
                                                                    omega)
        by_cases hh : IsFor extra e c
        · rw [if_pos (this.2 hh), if_pos hh]
        · rw [if_neg (fun h => hh (this.1 h)), if_neg hh]

/-- Bytes of a record up to the end of the last column. -/
def span : List (List Nat) → Nat
  | [] => 0
  | [c] => c.length
  | c :: cs => c.length + 1 + span cs

theorem expected_ok (extra : Bool) (cols : List (List Nat)) (st : Items) (buff : List Nat)
    (hw : ∀ c ∈ cols, 2 ≤ c.length ∧ c.length < 80) (hb : span cols ≤ buff.length) :
    expected extra cols st buff = .ok (some fun e =>
      match lastText (IsFor extra e) cols buff with
      | some t => some t
      | none => st e) := by
  induction cols generalizing st buff with
  | nil => simp [expected, lastText]
  | cons c cs ih =>
    have hc := hw c (by simp)
    have hlen : c.length ≤ buff.length := by
      cases cs with
      | nil => exact hb
      | cons d ds => simp only [span] at hb; omega
    have hb' : span cs ≤ (buff.drop (c.length + 1)).length := by
      rw [List.length_drop]
      cases cs with
      | nil => simp [span]
      | cons d ds => simp only [span] at hb ⊢; omega
    rw [expected, if_neg (by omega), if_neg (by omega), ih _ _ (fun d hd => hw d (by simp [hd])) hb']
    congr 2
    funext e
    rw [lastText]
    cases lastText (IsFor extra e) cs (buff.drop (c.length + 1)) with
    | some t => rfl
    | none => by_cases h : IsFor extra e c <;> simp [h]

/-- **C46.** With columns of two to 79 bytes and a record that is long enough, every item is taken from the text
    under the last column for it, and the result is success exactly if the six items needed have columns. -/
theorem C46_result (extra : Bool) (cols : List (List Nat)) (header buff : List Nat) (fuel : Nat)
    (hc : Columns cols header) (hf : cols.length < fuel)
    (hw : ∀ c ∈ cols, 2 ≤ c.length ∧ c.length < 80) (hb : span cols ≤ buff.length) :
    ∃ code items, extractSofData extra fuel buff header = some (.ok (code, items)) ∧
      (∀ e, items e = lastText (IsFor extra e) cols buff) ∧
      (code = 0 ∨ code = -1) ∧
      (code = 0 ↔ ∀ e ∈ [Item.q, .ecc, .tPerih, .incl, .node, .argPer], ∃ c ∈ cols, IsFor extra e c) := by
  have h := loop_eq extra cols header hc fuel (fun _ => none) buff hf
  rw [expected_ok extra cols _ buff hw hb] at h
  have hst : (fun e => match lastText (IsFor extra e) cols buff with | some t => some t | none => (none : Option (List Nat)))
      = fun e => lastText (IsFor extra e) cols buff := by
    funext e; cases lastText (IsFor extra e) cols buff <;> rfl
  rw [hst] at h
  unfold extractSofData
  rw [h]
  refine ⟨_, _, rfl, fun e => rfl, by split <;> simp, ?_⟩
  have hall : (needed.all fun i => (lastText (IsFor extra i) cols buff).isSome) = true ↔
      ∀ e ∈ [Item.q, .ecc, .tPerih, .incl, .node, .argPer], ∃ c ∈ cols, IsFor extra e c := by
    rw [List.all_eq_true]
    constructor
    · intro h e he; exact (lastText_isSome _ _ _).1 (h e he)
    · intro h e he; exact (lastText_isSome _ _ _).2 (h e he)
  rw [← hall]
  split <;> simp_all

theorem expected_no_ub (extra : Bool) (cols : List (List Nat)) (st : Items) (buff : List Nat) (hb : span cols ≤ buff.length) :
    ∃ r, expected extra cols st buff = .ok r ∧ ((∃ c ∈ cols, c.length < 2 ∨ c.length ≥ 80) ↔ r = none) := by
  induction cols generalizing st buff with
  | nil => exact ⟨_, rfl, by simp⟩
  | cons c cs ih =>
    have hlen : c.length ≤ buff.length := by
      cases cs with
      | nil => exact hb
      | cons d ds => simp only [span] at hb; omega
    have hb' : span cs ≤ (buff.drop (c.length + 1)).length := by
      rw [List.length_drop]
      cases cs with
      | nil => simp [span]
      | cons d ds => simp only [span] at hb ⊢; omega
    rw [expected]
    by_cases hw : c.length < 2 ∨ c.length ≥ 80
    · rw [if_pos hw]; exact ⟨_, rfl, by simp [hw]⟩
    · rw [if_neg hw, if_neg (by omega)]
      obtain ⟨r, h1, h2⟩ := ih (fun e => if IsFor extra e c then some (buff.take c.length) else st e) _ hb'
      refine ⟨r, h1, ?_⟩
      rw [← h2]
      simp only [List.mem_cons, exists_eq_or_imp]
      exact ⟨fun h => h.resolve_left hw, Or.inr⟩

/-- **C46.** A column that is too short or too long makes the call fail. -/
theorem C46_bad_width (extra : Bool) (cols : List (List Nat)) (header buff : List Nat) (fuel : Nat)
    (hc : Columns cols header) (hf : cols.length < fuel) (hb : span cols ≤ buff.length)
    (hw : ∃ c ∈ cols, c.length < 2 ∨ c.length ≥ 80) :
    ∃ items, extractSofData extra fuel buff header = some (.ok (-1, items)) := by
  obtain ⟨r, h1, h2⟩ := expected_no_ub extra cols (fun _ => none) buff hb
  have h := loop_eq extra cols header hc fuel (fun _ => none) buff hf
  rw [h1, h2.1 hw] at h
  unfold extractSofData
  rw [h]
  exact ⟨_, rfl⟩

theorem span_le {cols : List (List Nat)} {header : List Nat} (hc : Columns cols header) :
    span cols ≤ header.length ∧ cols.length ≤ header.length := by
  induction hc with
  | stop _ => simp [span]
  | @last c h h0 h1 h2 =>
    have : 0 < c.length := List.length_pos_iff.2 h0
    simp only [span, List.length_append, List.length_singleton]
    omega
  | @more c cs h h1 h2 ih =>
    simp only [List.length_append, List.length_cons]
    cases cs with
    | nil => simp only [span, List.length_nil] at ih ⊢; omega
    | cons d ds => simp only [span, List.length_cons] at ih ⊢; omega

/-- **C46.** For every header line and every record at least as long, the call ends within one round per byte of
    the header, and neither overruns the 80-byte buffer nor reads past the end of the record. -/
theorem C46_safe (extra : Bool) (header buff : List Nat) (hb : header.length ≤ buff.length) :
    ∃ code items, extractSofData extra (header.length + 1) buff header = some (.ok (code, items)) := by
  obtain ⟨cols, hc⟩ := columns_exist header.length header le_rfl
  have hs := span_le hc
  obtain ⟨r, h1, -⟩ := expected_no_ub extra cols (fun _ => none) buff (by omega)
  have h := loop_eq extra cols header hc (header.length + 1) (fun _ => none) buff (by omega)
  rw [h1] at h
  unfold extractSofData
  rw [h]
  cases r with
  | none => exact ⟨_, _, rfl⟩
  | some st => exact ⟨_, _, rfl⟩

theorem expected_short (extra : Bool) (cols : List (List Nat)) (st st' : Items) (buff : List Nat)
    (h : expected extra cols st buff = .ok (some st')) :
    (∀ c ∈ cols, 2 ≤ c.length ∧ c.length < 80) ∧ ∀ e, (st' e).isSome → (st e).isSome ∨ ∃ c ∈ cols, IsFor extra e c := by
  induction cols generalizing st buff with
  | nil =>
    simp only [expected, Outcome.ok.injEq, Option.some.injEq] at h
    subst h
    exact ⟨by simp, fun e he => Or.inl he⟩
  | cons c cs ih =>
    rw [expected] at h
    by_cases hw : c.length < 2 ∨ c.length ≥ 80
    · rw [if_pos hw] at h; simp at h
    · rw [if_neg hw] at h
      by_cases hb : c.length > buff.length
      · rw [if_pos hb] at h; simp at h
      · rw [if_neg hb] at h
        obtain ⟨h1, h2⟩ := ih _ _ h
        refine ⟨?_, fun e he => ?_⟩
        · intro d hd
          rcases List.mem_cons.1 hd with rfl | hd
          · omega
          · exact h1 d hd
        · rcases h2 e he with h3 | ⟨d, hd, h3⟩
          · by_cases hi : IsFor extra e c
            · exact Or.inr ⟨c, by simp, hi⟩
            · rw [if_neg hi] at h3; exact Or.inl h3
          · exact Or.inr ⟨d, by simp [hd], h3⟩

/-- **C46.** Whatever the header and the record, success means that the header has a column for each of the six
    items needed, and only columns of two to 79 bytes. -/
theorem C46_success (extra : Bool) (fuel : Nat) (header buff : List Nat) (items : Items) (cols : List (List Nat))
    (hc : Columns cols header) (hf : cols.length < fuel)
    (h : extractSofData extra fuel buff header = some (.ok (0, items))) :
    (∀ c ∈ cols, 2 ≤ c.length ∧ c.length < 80) ∧
    ∀ e ∈ [Item.q, .ecc, .tPerih, .incl, .node, .argPer], ∃ c ∈ cols, IsFor extra e c := by
  have hl := loop_eq extra cols header hc fuel (fun _ => none) buff hf
  unfold extractSofData at h
  rw [hl] at h
  cases he : expected extra cols (fun _ => none) buff with
  | ub => rw [he] at h; simp at h
  | abort => rw [he] at h; simp at h
  | ok r =>
    rw [he] at h
    cases r with
    | none => simp at h
    | some st =>
      obtain ⟨h1, h2⟩ := expected_short extra cols _ st buff he
      refine ⟨h1, fun e hm => ?_⟩
      have hall : (needed.all fun i => (st i).isSome) = true := by
        by_contra hn
        simp [hn] at h
      have := List.all_eq_true.1 hall e hm
      rcases h2 e this with h3 | h3
      · simp at h3
      · exact h3

/-- **C46.** Finding: any column beginning with `o` or `O` passes for the argument of perihelion or the node;
    here the observation count "obs" is the argument of perihelion. -/
theorem C46_other_o : ((extractSofData false 20 (bytes "5.0 |0.1|20210101|10.0|20.0|123") (bytes "q   |e  |Tp      |i   |Om  |obs")).map
    fun o => match o with
      | .ok (c, st) => (c, st .argPer)
      | _ => (-2, none)) = some (0, some (bytes "123")) := by decide +kernel

/-- **C46.** Finding: a record shorter than the header is read past its end. -/
theorem C46_short_record : extractSofData false 20 (bytes "5.0") (bytes "q     |e  ") = some .ub := by rfl

example : Columns [bytes "q ", bytes "Tp"] (bytes "q |Tp\n") :=
  .more (c := bytes "q ") (by unfold ColumnByte; decide) (.last (c := bytes "Tp") (by decide) (by unfold ColumnByte; decide)
    (h := [10]) (by intro c hc; simp at hc; omega))

end Verif.Props
