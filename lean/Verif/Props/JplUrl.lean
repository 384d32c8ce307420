import Mathlib.Tactic.Linarith
import Mathlib.Tactic.NormNum
import Mathlib.Data.Rat.Floor
import Verif.Model.JplUrl
import Verif.Spec.Address

/-!
# Property theorems: addresses of ephemerides of spacecraft (C117)
-/

namespace Verif.Props

open Verif Verif.JplUrl Verif.Spec.Address

/-- The table is not cut short. -/
theorem rows_whole : rows.length = 37 ∧ AddOff.xrefs.length = 37 := by decide

/-- C117: any argument fits at most one spacecraft. -/
theorem C117_unique (a : List Nat) {r q : (List Nat × Int) × List Nat} (hr : r ∈ rows) (hq : q ∈ rows) (h1 : fits a r = true) (h2 : fits a q = true) :
    r = q := by
  have code : ∀ r ∈ rows, ∀ q ∈ rows, fits r.1.1 q = true → r = q := by decide +kernel
  have desig : ∀ r ∈ rows, ∀ q ∈ rows, fits r.2 q = true → r = q := by decide +kernel
  have num : ∀ r ∈ rows, ∀ q ∈ rows, r.1.2 = q.1.2 → r = q := by decide +kernel
  have h1' : (a = r.1.1 ∨ a = r.2) ∨ atoi a = r.1.2 := by simpa [fits] using h1
  have h2' : (a = q.1.1 ∨ a = q.2) ∨ atoi a = q.1.2 := by simpa [fits] using h2
  rcases h1' with (rfl | rfl) | h1'
  · exact code r hr q hq h2
  · exact desig r hr q hq h2
  · rcases h2' with (rfl | rfl) | h2'
    · exact (code q hq r hr h1).symm
    · exact (desig q hq r hr h1).symm
    · exact num r hr q hq (h1'.symm.trans h2')

/-- C117: each spacecraft is found by its code, its designation and its number. -/
theorem C117_found {r : (List Nat × Int) × List Nat} (hr : r ∈ rows) {a : List Nat} (h : a = r.1.1 ∨ a = r.2 ∨ a = decInt r.1.2) :
    rows.find? (fits a) = some r := by
  have num : ∀ r ∈ rows, atoi (decInt r.1.2) = r.1.2 := by decide +kernel
  have hf : fits a r = true := by
    rcases h with rfl | rfl | rfl
    · simp [fits]
    · simp [fits]
    · simp [fits, num r hr]
  cases e : rows.find? (fits a) with
  | none => exact absurd hf (by simpa using List.find?_eq_none.1 e r hr)
  | some q => rw [C117_unique a (List.mem_of_find?_eq_some e) hr (by simpa using List.find?_some e) hf]

/-- The steps, if the second time is not before the first. -/
theorem steps_near {x : ℚ} (h : 0 ≤ x) : ∃ n : Nat, B32.trunc (x * 10 + 1 / 2) = n ∧ |(n : ℚ) - x * 10| ≤ 1 / 2 := by
  unfold B32.trunc
  rw [if_neg (by linarith)]
  have h0 : 0 ≤ ⌊x * 10 + 1 / 2⌋ := Int.floor_nonneg.2 (by linarith)
  obtain ⟨n, hn⟩ := Int.eq_ofNat_of_zero_le h0
  refine ⟨n, hn, ?_⟩
  have a := Int.floor_le (x * 10 + 1 / 2)
  have b := Int.lt_floor_add_one (x * 10 + 1 / 2)
  rw [hn] at a b
  push_cast at a b
  rw [abs_le]
  constructor <;> linarith

/-- C117: the address has the spacecraft's number, the times, and a step for each tenth of a day. -/
theorem C117_url (time : ℚ → List Nat → ℚ) (a b c : List Nat) {r : (List Nat × Int) × List Nat} (hr : r ∈ rows)
    (h : a = r.1.1 ∨ a = r.2 ∨ a = decInt r.1.2) (h1 : minJd ≤ time 0 b) (h2 : time 0 b ≤ time (time 0 b) c) :
    ∃ n, Steps (time 0 b) (time (time 0 b) c) n ∧ main time a b c = .ok (address [("COMMAND", decInt r.1.2), ("OBJ_DATA", bytes "YES"), ("TABLE_TYPE", bytes "V"),
      ("START_TIME", bytes "JD" ++ Time.fmtFixed 6 (time 0 b)), ("STOP_TIME", bytes "JD" ++ Time.fmtFixed 6 (time (time 0 b) c)), ("STEP_SIZE", decInt n),
      ("VEC_TABLE", bytes "2"), ("VEC_LABELS", bytes "NO")]) := by
  obtain ⟨n, e, hn⟩ := steps_near (x := time (time 0 b) c - time 0 b) (by linarith)
  refine ⟨n, hn, ?_⟩
  unfold main
  rw [C117_found hr h]
  simp only
  rw [if_neg (by rintro (h | h) <;> linarith)]
  unfold url
  rw [e]
  generalize Time.fmtFixed 6 (time 0 b) = u
  generalize Time.fmtFixed 6 (time (time 0 b) c) = v
  generalize decInt r.1.2 = w
  generalize decInt (n : Int) = x
  have k1 : bytes "&COMMAND='" = 38 :: bytes "COMMAND" ++ [61, 39] := by decide
  have k2 : bytes "&OBJ_DATA='YES'&TABLE_TYPE='V'" = (38 :: bytes "OBJ_DATA" ++ 61 :: 39 :: bytes "YES" ++ [39]) ++ (38 :: bytes "TABLE_TYPE" ++ 61 :: 39 :: bytes "V" ++ [39]) := by decide
  have k3 : bytes "&START_TIME='JD" = 38 :: bytes "START_TIME" ++ 61 :: 39 :: bytes "JD" := by decide
  have k4 : bytes "&STOP_TIME='JD" = 38 :: bytes "STOP_TIME" ++ 61 :: 39 :: bytes "JD" := by decide
  have k5 : bytes "&STEP_SIZE='" = 38 :: bytes "STEP_SIZE" ++ [61, 39] := by decide
  have k6 : bytes "&VEC_TABLE='2'&VEC_LABELS='NO'\n" = (38 :: bytes "VEC_TABLE" ++ 61 :: 39 :: bytes "2" ++ [39]) ++ (38 :: bytes "VEC_LABELS" ++ 61 :: 39 :: bytes "NO" ++ [39]) ++ [10] := by decide
  have k7 : bytes "'" = [39] := by decide
  rw [k1, k2, k3, k4, k5, k6, k7]
  unfold address
  simp only [List.flatMap_cons, List.flatMap_nil, List.append_assoc, List.cons_append, List.nil_append, List.append_nil]

/-- C117: an argument that is no name of a spacecraft, or a time before 1990, gives no address. -/
theorem C117_refused (time : ℚ → List Nat → ℚ) (a b c : List Nat) :
    main time a b c = .abort ↔ (∀ r ∈ rows, a ≠ r.1.1 ∧ a ≠ r.2 ∧ atoi a ≠ r.1.2) ∨ time 0 b < minJd ∨ time (time 0 b) c < minJd := by
  have hn : rows.find? (fits a) = none ↔ ∀ r ∈ rows, a ≠ r.1.1 ∧ a ≠ r.2 ∧ atoi a ≠ r.1.2 := by
    rw [List.find?_eq_none]
    refine forall_congr' fun r => forall_congr' fun _ => ?_
    simp [fits, not_or, and_assoc]
  rw [← hn]
  unfold main
  cases e : rows.find? (fits a) with
  | none => simp
  | some r =>
    simp only [reduceCtorEq, false_or]
    by_cases h : time 0 b < minJd ∨ time (time 0 b) c < minJd
    · simp [h]
    · rw [if_neg h]
      simp [h]

/-- Finding: a span that ends before it begins is not refused; the number of steps is negative. -/
theorem C117_backwards (time : ℚ → List Nat → ℚ) (a b c : List Nat) {r : (List Nat × Int) × List Nat} (hr : r ∈ rows)
    (h : a = r.1.1 ∨ a = r.2 ∨ a = decInt r.1.2) (h1 : minJd ≤ time (time 0 b) c) (h2 : time (time 0 b) c + 3 / 20 ≤ time 0 b) :
    main time a b c = .ok (url r.1.2 (time 0 b) (time (time 0 b) c)) ∧ B32.trunc ((time (time 0 b) c - time 0 b) * 10 + 1 / 2) < 0 := by
  unfold main
  rw [C117_found hr h]
  simp only
  rw [if_neg (by rintro (h | h) <;> linarith)]
  refine ⟨rfl, ?_⟩
  unfold B32.trunc
  rw [if_pos (by linarith)]
  have : 1 ≤ ⌊-((time (time 0 b) c - time 0 b) * 10 + 1 / 2)⌋ := Int.le_floor.2 (by push_cast; linarith)
  omega

/-- `C117_url`: Gaia for the year 2020, and the steps in the comment for it. -/
example : ((bytes "258", -139479), bytes "2013-074A") ∈ rows ∧ Steps (2458849 + 1 / 2) (2459215 + 1 / 2) 3660 := by
  refine ⟨by decide, ?_⟩
  unfold Steps
  norm_num

/-- `C117_refused`: no spacecraft. -/
example : ∀ r ∈ rows, bytes "500" ≠ r.1.1 ∧ bytes "500" ≠ r.2 ∧ atoi (bytes "500") ≠ r.1.2 := by decide +kernel

end Verif.Props
