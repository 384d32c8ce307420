import Verif.Model.Names
import Mathlib.Data.List.Induction

/-!
# Property theorems: name tables (C15)
-/

namespace Verif.Props

open Verif.Names

/-- Specification: the name most recently given to month `slot` in a call sequence. -/
def lastMonthName (slot : Int) (cs : List Call) : Option String :=
  (cs.filterMap fun c => match c with
    | .month s n => if s = slot then n else none
    | .day _ _ => none).getLast?

def lastDayName (slot : Int) (cs : List Call) : Option String :=
  (cs.filterMap fun c => match c with
    | .day s n => if s = slot then n else none
    | .month _ _ => none).getLast?

def defaultMonth : Int → Option String
  | 1 => some "Jan" | 2 => some "Feb" | 3 => some "Mar" | 4 => some "Apr" | 5 => some "May"
  | 6 => some "Jun" | 7 => some "Jul" | 8 => some "Aug" | 9 => some "Sep" | 10 => some "Oct"
  | 11 => some "Nov" | 12 => some "Dec" | _ => none

def defaultDay : Int → Option String
  | 0 => some "Sun" | 1 => some "Mon" | 2 => some "Tue" | 3 => some "Wed" | 4 => some "Thu"
  | 5 => some "Fri" | 6 => some "Sat" | _ => none

/-- Is the slot number of the call acceptable? -/
def Call.InRange : Call → Prop
  | .month s _ => 1 ≤ s ∧ s ≤ 13
  | .day s _ => 0 ≤ s ∧ s ≤ 6

private theorem run_append (cs : List Call) (c : Call) (st : State) :
    run (cs ++ [c]) st = match run cs st with
      | none => none
      | some st' => (step c st').map Prod.fst := by
  induction cs generalizing st with
  | nil => simp only [List.nil_append, run]; cases step c st <;> rfl
  | cons a l ih =>
    simp only [List.cons_append, run]
    cases step a st with
    | none => rfl
    | some p => exact ih _

/-- C15: a sequence of calls fails (by assertion) exactly if one of the slot numbers is bad. -/
theorem C15_assertion (cs : List Call) (st : State) :
    run cs st = none ↔ ∃ c ∈ cs, ¬ Call.InRange c := by
  induction cs generalizing st with
  | nil => simp [run]
  | cons c l ih =>
    simp only [run, List.mem_cons, exists_eq_or_imp]
    cases h : step c st with
    | none =>
      simp only [true_iff]
      left
      cases c <;> simp only [step, setMonthName, setDayOfWeekName, Call.InRange] at h ⊢ <;> split at h <;>
        first | omega | simp at h
    | some p =>
      have hc : Call.InRange c := by
        cases c <;> simp only [step, setMonthName, setDayOfWeekName, Call.InRange] at h ⊢ <;> split at h <;>
          first | omega | simp at h
      simp [ih, hc]

private theorem invariant (cs : List Call) : ∀ st, run cs State.init = some st →
    (st.months.length = 13 ∧ st.days.length = 7) ∧
    (∀ s, 1 ≤ s → s ≤ 13 → st.months.getD (s - 1).toNat none = (lastMonthName s cs).or (defaultMonth s)) ∧
    (∀ s, 0 ≤ s → s ≤ 6 → st.days.getD s.toNat none = (lastDayName s cs).or (defaultDay s)) := by
  induction cs using List.reverseRecOn with
  | nil =>
    intro st h
    cases h
    refine ⟨⟨rfl, rfl⟩, ?_, ?_⟩
    · intro s h1 h2
      have : s = 1 ∨ s = 2 ∨ s = 3 ∨ s = 4 ∨ s = 5 ∨ s = 6 ∨ s = 7 ∨ s = 8 ∨ s = 9 ∨ s = 10 ∨ s = 11 ∨
        s = 12 ∨ s = 13 := by omega
      rcases this with h | h | h | h | h | h | h | h | h | h | h | h | h <;> subst h <;> rfl
    · intro s h1 h2
      have : s = 0 ∨ s = 1 ∨ s = 2 ∨ s = 3 ∨ s = 4 ∨ s = 5 ∨ s = 6 := by omega
      rcases this with h | h | h | h | h | h | h <;> subst h <;> rfl
  | append_singleton l c ih =>
    intro st h
    rw [run_append] at h
    cases hl : run l State.init with
    | none => rw [hl] at h; cases h
    | some st0 =>
      rw [hl] at h
      obtain ⟨⟨l1, l2⟩, im, id⟩ := ih st0 hl
      have hm : ∀ s, lastMonthName s (l ++ [c]) = (match c with
          | .month s' n => if s' = s then n else none | .day _ _ => none).or (lastMonthName s l) := by
        intro s
        unfold lastMonthName
        rw [List.filterMap_append, List.getLast?_append]
        cases c with
        | month s' n =>
          simp only [List.filterMap_cons, List.filterMap_nil]
          by_cases hs : s' = s
          · simp only [hs, if_true]; cases n <;> rfl
          · simp only [hs, if_false]; rfl
        | day s' n => rfl
      have hd : ∀ s, lastDayName s (l ++ [c]) = (match c with
          | .day s' n => if s' = s then n else none | .month _ _ => none).or (lastDayName s l) := by
        intro s
        unfold lastDayName
        rw [List.filterMap_append, List.getLast?_append]
        cases c with
        | day s' n =>
          simp only [List.filterMap_cons, List.filterMap_nil]
          by_cases hs : s' = s
          · simp only [hs, if_true]; cases n <;> rfl
          · simp only [hs, if_false]; rfl
        | month s' n => rfl
      cases c with
      | month s' n =>
        simp only [step, setMonthName] at h
        split at h
        case isFalse => cases h
        rename_i hr
        simp only [Option.map_some, Option.some.injEq] at h
        cases n with
        | none =>
          simp only [Option.isSome_none, Bool.false_eq_true, if_false] at h
          subst h
          refine ⟨⟨l1, l2⟩, ?_, ?_⟩
          · intro s a b; rw [hm, im s a b]; simp
          · intro s a b; rw [hd, id s a b]; rfl
        | some nm =>
          simp only [Option.isSome_some, if_true] at h
          subst h
          refine ⟨⟨by simpa using l1, l2⟩, ?_, ?_⟩
          · intro s a b
            rw [hm]
            by_cases hs : s' = s
            · subst hs
              simp only [if_true, Option.some_or]
              rw [List.getD_eq_getElem?_getD, List.getElem?_set_self (by omega)]
              rfl
            · simp only [hs, if_false, Option.none_or]
              rw [List.getD_eq_getElem?_getD, List.getElem?_set_ne (by omega), ← List.getD_eq_getElem?_getD]
              exact im s a b
          · intro s a b; rw [hd]; exact id s a b
      | day s' n =>
        simp only [step, setDayOfWeekName] at h
        split at h
        case isFalse => cases h
        rename_i hr
        simp only [Option.map_some, Option.some.injEq] at h
        cases n with
        | none =>
          simp only [Option.isSome_none, Bool.false_eq_true, if_false] at h
          subst h
          refine ⟨⟨l1, l2⟩, ?_, ?_⟩
          · intro s a b; rw [hm, im s a b]; rfl
          · intro s a b; rw [hd, id s a b]; simp
        | some nm =>
          simp only [Option.isSome_some, if_true] at h
          subst h
          refine ⟨⟨l1, by simpa using l2⟩, ?_, ?_⟩
          · intro s a b; rw [hm]; exact im s a b
          · intro s a b
            rw [hd]
            by_cases hs : s' = s
            · subst hs
              simp only [if_true, Option.some_or]
              rw [List.getD_eq_getElem?_getD, List.getElem?_set_self (by omega)]
              rfl
            · simp only [hs, if_false, Option.none_or]
              rw [List.getD_eq_getElem?_getD, List.getElem?_set_ne (by omega), ← List.getD_eq_getElem?_getD]
              exact id s a b

/-- C15: after any sequence of calls, querying a month slot returns the name most recently given to
    it, or the default, and changes nothing. -/
theorem C15_month_query (cs : List Call) (st : State) (h : run cs State.init = some st) (s : Int)
    (h1 : 1 ≤ s) (h2 : s ≤ 13) :
    setMonthName s none st = some (st, (lastMonthName s cs).or (defaultMonth s)) := by
  have := (invariant cs st h).2.1 s h1 h2
  unfold setMonthName
  rw [if_pos ⟨h1, h2⟩]
  simp only [Option.isSome_none, Bool.false_eq_true, if_false, this]

/-- C15: the same for weekday slots. -/
theorem C15_day_query (cs : List Call) (st : State) (h : run cs State.init = some st) (s : Int)
    (h1 : 0 ≤ s) (h2 : s ≤ 6) :
    setDayOfWeekName s none st = some (st, (lastDayName s cs).or (defaultDay s)) := by
  have := (invariant cs st h).2.2 s h1 h2
  unfold setDayOfWeekName
  rw [if_pos ⟨h1, by omega⟩]
  simp only [Option.isSome_none, Bool.false_eq_true, if_false, this]

/-- C15: a setting call returns the new name. -/
theorem C15_set_returns (cs : List Call) (st : State) (h : run cs State.init = some st) (s : Int) (n : String) :
    (1 ≤ s → s ≤ 13 → ∃ st', setMonthName s (some n) st = some (st', some n)) ∧
    (0 ≤ s → s ≤ 6 → ∃ st', setDayOfWeekName s (some n) st = some (st', some n)) := by
  obtain ⟨⟨l1, l2⟩, _, _⟩ := invariant cs st h
  constructor
  · intro h1 h2
    unfold setMonthName
    rw [if_pos ⟨h1, h2⟩]
    refine ⟨{ st with months := st.months.set (s - 1).toNat (some n) }, ?_⟩
    simp only [Option.isSome_some, if_true]
    rw [List.getD_eq_getElem?_getD, List.getElem?_set_self (by omega)]
    rfl
  · intro h1 h2
    unfold setDayOfWeekName
    rw [if_pos ⟨h1, by omega⟩]
    refine ⟨{ st with days := st.days.set s.toNat (some n) }, ?_⟩
    simp only [Option.isSome_some, if_true]
    rw [List.getD_eq_getElem?_getD, List.getElem?_set_self (by omega)]
    rfl

/-- A call sequence that succeeds: German month name, a query, then another name. -/
example : ∃ st, run [.month 3 (some "Mrz"), .day 0 none, .month 13 (some "Adar II"), .month 3 (some "Mär")]
    State.init = some st ∧ setMonthName 3 none st = some (st, some "Mär") := ⟨_, rfl, rfl⟩

end Verif.Props
