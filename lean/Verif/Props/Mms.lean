import Verif.Model.Mms
import Verif.Spec.EveryNth
import Verif.Lemmas.Scan
import Mathlib.Tactic.SplitIfs
import Mathlib.Tactic.Ring
import Mathlib.Tactic.Linarith
import Mathlib.Tactic.FieldSimp
import Mathlib.Data.Rat.Floor

/-!
# C110: ephemerides of the MMS satellites
-/

namespace Verif.Props

open Verif Verif.Spec Verif.Spec.Mms Verif.Mms

/-! ## Lines -/

theorem at_some {l : List Nat} {i c : Nat} (hc : c ≠ 0) : at? l i = c ↔ l[i]? = some c := by
  unfold at? List.getD
  cases l[i]? with
  | none => simp [hc.symm]
  | some x => simp

theorem isRow_iff (l : List Nat) : isRow l = true ↔ 150 < l.length ∧ l[4]? = some 45 ∧ l[8]? = some 47 ∧ l[11]? = some 58 := by
  unfold isRow
  simp only [Bool.and_eq_true, decide_eq_true_eq, beq_iff_eq, at_some (show (45 : Nat) ≠ 0 by decide), at_some (show (47 : Nat) ≠ 0 by decide),
    at_some (show (58 : Nat) ≠ 0 by decide)]
  tauto

theorem mms_row {l : List Nat} {d : ℚ} (h : RowText l d) : ephemJd l = julian d ∧ julian d ≠ 0 := by
  obtain ⟨h1, h2, h3, h4, k, ds, fs, rest, hd, hne, hf, e, rfl⟩ := h
  have hr : isRow l = true := (isRow_iff l).2 ⟨h1, h2, h3, h4⟩
  have hs := Scan.strtold_decimal (K := ℚ) (rest := 32 :: rest) hd hne hf (by
    have e : at? (32 :: rest) 0 = 32 := rfl
    unfold Scan.Stops
    rw [e]
    decide)
  have hb : (Scan.strtold (K := ℚ) (List.replicate k 32 ++ (ds ++ 46 :: fs ++ 32 :: rest))).1 =
      (Scan.strtold (K := ℚ) (ds ++ 46 :: fs ++ 32 :: rest)).1 := by
    have hsk : Scan.skipSpace (List.replicate k 32 ++ (ds ++ 46 :: fs ++ 32 :: rest)) = Scan.skipSpace (ds ++ 46 :: fs ++ 32 :: rest) :=
      Scan.skipSpace_blanks k _
    unfold Scan.strtold
    rw [hsk]
    simp only
    split
    · rfl
    · split <;> rfl
  constructor
  · unfold ephemJd MpcLine.atof
    rw [if_pos hr, e, show List.replicate k 32 ++ ds ++ 46 :: fs ++ 32 :: rest = List.replicate k 32 ++ (ds ++ 46 :: fs ++ 32 :: rest) by simp, hb, hs]
    unfold jan1958 julian
    ring
  · unfold julian
    positivity

theorem mms_other {l : List Nat} (h : Other l) : ephemJd l = 0 := by
  unfold ephemJd
  rw [if_neg]
  rw [isRow_iff]
  unfold Other at h
  rintro ⟨h1, h2, h3, h4⟩
  rcases h with h | h | h | h
  · omega
  · exact h h2
  · exact h h3
  · exact h h4

/-! ## The first reading -/

theorem name_keeps (l : List Nat) (s : Found) : (s.name l).n = s.n ∧ (s.name l).start = s.start := by
  unfold Found.name
  split_ifs <;> exact ⟨rfl, rfl⟩

theorem row_craft (jd : ℚ) (s : Found) : (s.row jd).craft = s.craft := by
  unfold Found.row
  split_ifs <;> rfl

theorem first_found {ls : List (List Nat)} {rs : List (ℚ × List Nat)} (hF : File ls rs) (s : Found) :
    (first ls s).n = s.n + rs.length ∧
      (first ls s).start = if s.start = 0 then (rs.head?.map fun r => julian r.1).getD 0 else s.start := by
  induction hF generalizing s with
  | done => refine ⟨rfl, ?_⟩; rw [first]; split_ifs with h <;> simp [h]
  | other l ls rs h t ih =>
    have e : s.row (ephemJd l) = s := by unfold Found.row; rw [mms_other h, if_neg (by simp)]
    obtain ⟨i1, i2⟩ := ih (s.name l)
    obtain ⟨n1, n2⟩ := name_keeps l s
    rw [first, e, i1, i2, n1, n2]
    exact ⟨rfl, rfl⟩
  | row l ls d rs h t ih =>
    obtain ⟨h1, h2⟩ := mms_row h
    have e : s.row (ephemJd l) = ⟨s.n + 1, if s.start = 0 then julian d else s.start, s.craft⟩ := by
      unfold Found.row; rw [h1, if_pos h2]
    obtain ⟨i1, i2⟩ := ih ((s.row (ephemJd l)).name l)
    obtain ⟨n1, n2⟩ := name_keeps l (s.row (ephemJd l))
    rw [first, i1, i2, n1, n2, e]
    simp only [List.length_cons, List.head?_cons, Option.map_some, Option.getD_some]
    refine ⟨by omega, ?_⟩
    by_cases hs : s.start = 0
    · rw [if_pos hs, if_neg h2]
    · rw [if_neg hs, if_neg hs]

theorem first_append (a b : List (List Nat)) (s : Found) : first (a ++ b) s = first b (first a s) := by
  induction a generalizing s with
  | nil => rfl
  | cons l a ih => rw [List.cons_append, first, ih, ← first]

theorem first_craft {ls : List (List Nat)} (h : ∀ k ∈ ls, k.take 16 ≠ bytes "Spacecraft = MMS") (s : Found) : (first ls s).craft = s.craft := by
  induction ls generalizing s with
  | nil => rfl
  | cons l ls ih =>
    have e : (s.row (ephemJd l)).name l = s.row (ephemJd l) := if_neg (h l (by simp))
    rw [first, ih (fun k hk => h k (by simp [hk])), e, row_craft]

theorem craft_found {ls : List (List Nat)} {c : Nat} (h : Craft ls c) (s : Found) : (first ls s).craft = c := by
  obtain ⟨a, l, b, rfl, hl, hb⟩ := h
  rw [first_append, first, first_craft hb]
  have h16 : l.take 16 = bytes "Spacecraft = MMS" := by
    have := congrArg (List.take 16) hl
    rw [List.take_take] at this
    rw [show (16 : Nat) = min 16 17 by decide, this]
    exact List.take_left' rfl
  have hc : at? l 16 = c := by
    have := congrArg (fun t => at? t 16) hl
    simp only [at?, List.getD, List.getElem?_take] at this
    rw [if_pos (by decide)] at this
    unfold at? List.getD
    rw [this]
    rfl
  unfold Found.name
  rw [if_pos h16]
  exact hc

/-! ## The second reading -/

/-- The elements whose number, counted from `n`, is a multiple of `f`. -/
def skim (f : Nat) : List (ℚ × List Nat) → Nat → List (ℚ × List Nat)
  | [], _ => []
  | r :: rs, n => if n % f = 0 then r :: skim f rs (n + 1) else skim f rs (n + 1)

theorem every_nil {α : Type} (f : Nat) (hf : 0 < f) : everyNth f ([] : List α) = [] := by
  unfold everyNth
  rw [show (([] : List α).length + f - 1) / f = 0 by
    rw [List.length_nil, Nat.div_eq_of_lt (by omega)]]
  rfl

theorem every_cons {α : Type} (f : Nat) (hf : 0 < f) (r : α) (rs : List α) : everyNth f (r :: rs) = r :: everyNth f (rs.drop (f - 1)) := by
  unfold everyNth
  have hlen : ((r :: rs).length + f - 1) / f = ((rs.drop (f - 1)).length + f - 1) / f + 1 := by
    rw [List.length_cons, List.length_drop]
    by_cases h : f - 1 ≤ rs.length
    · rw [show rs.length + 1 + f - 1 = (rs.length - (f - 1) + f - 1) + f by omega, Nat.add_div_right _ hf]
    · rw [show rs.length + 1 + f - 1 = rs.length + f by omega, Nat.add_div_right _ hf, Nat.div_eq_of_lt (by omega),
        Nat.div_eq_of_lt (by omega)]
  rw [hlen, List.range_succ_eq_map, List.filterMap_cons, List.filterMap_map]
  simp only [Nat.zero_mul, List.getElem?_cons_zero]
  congr 1
  apply List.filterMap_congr
  intro j _
  simp only [Function.comp, List.getElem?_drop]
  rw [show (Nat.succ j) * f = (f - 1 + j * f) + 1 by rw [Nat.succ_mul]; omega, List.getElem?_cons_succ]

theorem skim_every (f : Nat) (hf : 0 < f) (rs : List (ℚ × List Nat)) (n r : Nat) (hr : r < f) (hn : (n + r) % f = 0) :
    skim f rs n = everyNth f (rs.drop r) := by
  induction rs generalizing n r with
  | nil => rw [List.drop_nil, every_nil f hf]; rfl
  | cons a rs ih =>
    rw [skim]
    cases r with
    | zero =>
      rw [if_pos (by simpa using hn), List.drop_zero, every_cons f hf, ih (n + 1) (f - 1) (by omega)]
      rw [show n + 1 + (f - 1) = n + f by omega, Nat.add_mod_right]
      simpa using hn
    | succ r =>
      have hne : n % f ≠ 0 := by
        intro h
        rw [Nat.add_mod, h, Nat.zero_add, Nat.mod_mod, Nat.mod_eq_of_lt hr] at hn
        omega
      rw [if_neg hne, List.drop_succ_cons]
      exact ih (n + 1) r (by omega) (by rw [← hn]; congr 1; omega)

/-- What is written of a line. -/
def lineText (r : ℚ × List Nat) : List Nat := Time.fmtFixed 6 (julian r.1) ++ 32 :: (r.2.take 184).drop 44 ++ [10]

theorem mod_iff (n : Nat) (f : Int) : (n : Int).tmod f = 0 ↔ n % f.natAbs = 0 := by
  rw [← Nat.dvd_iff_mod_eq_zero, ← Int.natCast_dvd_natCast, Int.natCast_natAbs, abs_dvd]
  exact (Int.dvd_iff_tmod_eq_zero ..).symm

theorem second_lines {ls : List (List Nat)} {rs : List (ℚ × List Nat)} (hF : File ls rs) (f : Int) (n : Nat) :
    second f ls n = ((skim f.natAbs rs n).map lineText, n + rs.length) := by
  induction hF generalizing n with
  | done => rfl
  | other l ls rs h t ih => rw [second, if_neg (by rw [mms_other h]; simp), ih]
  | row l ls d rs h t ih =>
    obtain ⟨h1, h2⟩ := mms_row h
    rw [second, h1, if_pos h2]
    dsimp only
    rw [ih, skim]
    by_cases hn : n % f.natAbs = 0
    · rw [if_pos ((mod_iff n f).2 hn), if_pos hn]
      simp only [List.map_cons, List.length_cons, Prod.mk.injEq]
      exact ⟨rfl, by omega⟩
    · rw [if_neg (fun e => hn ((mod_iff n f).1 e)), if_neg hn]
      simp only [List.length_cons, Prod.mk.injEq]
      exact ⟨trivial, by omega⟩

/-! ## The program -/

/-- The first line of the output: the first time, the step, the number of positions, the satellite. -/
def MmsHeader (start step : ℚ) (count : Int) (c : Nat) : List Nat :=
  Time.fmtFixed 6 start ++ bytes " " ++ Time.fmtFixed 6 step ++ bytes " " ++ decInt count ++
    bytes " 0,149597870.7,86400 (500) Geocentric: MMS" ++ [c] ++ bytes " = 2015-011" ++ [c + 16] ++ bytes "\n"

theorem convert_lines {ls : List (List Nat)} {rs : List (ℚ × List Nat)} (hF : File ls rs) {c : Nat} (hC : Craft ls c)
    (hc : 49 ≤ c ∧ c ≤ 52) {f : Int} (hf : f ≠ 0) (ctime : ℚ → List Nat) :
    convert ctime f ls = .ok (MmsHeader ((rs.head?.map fun r => julian r.1).getD 0) ((f : ℚ) / 720) ((rs.length : Int).tdiv f) c ::
      (everyNth f.natAbs rs).map lineText ++ trailer ctime ((rs.head?.map fun r => julian r.1).getD 0) rs.length f) := by
  obtain ⟨h1, h2⟩ := first_found hF ⟨0, 0, 0⟩
  have h3 := craft_found hC ⟨0, 0, 0⟩
  unfold convert
  simp only
  rw [if_pos (by rw [h3]; exact hc), second_lines hF, skim_every _ (by omega) rs 0 0 (by omega) (by simp), List.drop_zero]
  rw [if_pos rfl] at h2
  simp only [header, h1, h2, h3, Nat.zero_add, MmsHeader]
  congr 2
  simp [show bytes " " = [32] from rfl, show bytes "\n" = [10] from rfl]

/-- C110: the output has a header with the first time, the step of `f` two-minute intervals and the number of lines divided
    by `f`; then the lines 0, f, 2f, ..., each with its time as a Julian date; then the dates of the first and last. -/
theorem C110_table {ls : List (List Nat)} {rs : List (ℚ × List Nat)} (hF : File ls rs) {c : Nat} (hC : Craft ls c)
    (hc : 49 ≤ c ∧ c ≤ 52) {f : Nat} (hf : 0 < f) (hne : rs ≠ []) (ctime : ℚ → List Nat) :
    ∃ t0, rs.head?.map Prod.fst = some t0 ∧
    convert ctime f ls = .ok (MmsHeader (julian t0) ((f : ℚ) / 720) (rs.length / f : Nat) c :: (everyNth f rs).map lineText ++
      [bytes "\n", bytes "Created from 'mms.cpp' (q.v.)\n", bytes "Ephemeris start: " ++ ctime (julian t0) ++ bytes "\n",
       bytes "Ephemeris end:   " ++ ctime (julian t0 + (rs.length / f : Nat) * ((f : ℚ) / 720)) ++ bytes "\n"]) := by
  cases rs with
  | nil => exact absurd rfl hne
  | cons r rs =>
    refine ⟨r.1, rfl, ?_⟩
    rw [convert_lines hF hC hc (f := (f : Int)) (by omega)]
    simp only [List.head?_cons, Option.map_some, Option.getD_some, Int.natAbs_natCast, trailer, Int.cast_natCast,
      Int.tdiv_eq_ediv_of_nonneg (Int.natCast_nonneg _)]
    congr 3
    simp [show bytes "\n" = [10] from rfl]
    congr 2
    rw [← Int.natCast_one, ← Int.natCast_add, ← Int.natCast_div, Int.cast_natCast]
    ring

/-- The j-th line written is the line j f of the file. -/
theorem every_get {α : Type} (f : Nat) (hf : 0 < f) (rs : List α) (j : Nat) : (everyNth f rs)[j]? = rs[j * f]? := by
  induction j generalizing rs with
  | zero =>
    cases rs with
    | nil => rw [every_nil f hf]; simp
    | cons r rs => rw [every_cons f hf]; simp
  | succ j ih =>
    cases rs with
    | nil => rw [every_nil f hf]; simp
    | cons r rs =>
      rw [every_cons f hf, List.getElem?_cons_succ, ih, List.getElem?_drop, show (j + 1) * f = (f - 1 + j * f) + 1 by rw [Nat.succ_mul]; omega,
        List.getElem?_cons_succ]

theorem every_length {α : Type} (f : Nat) (hf : 0 < f) (rs : List α) : (everyNth f rs).length = (rs.length + f - 1) / f := by
  by_contra hne
  have h1 : ∀ j, j < (everyNth f rs).length ↔ j * f < rs.length := by
    intro j
    rw [← not_iff_not, not_lt, not_lt, ← List.getElem?_eq_none_iff, every_get f hf, List.getElem?_eq_none_iff]
  rcases Nat.lt_or_gt_of_ne hne with h | h
  · have := mt (h1 (everyNth f rs).length).2 (by omega)
    have h2 : (everyNth f rs).length + 1 ≤ (rs.length + f - 1) / f := h
    rw [Nat.le_div_iff_mul_le hf, Nat.succ_mul] at h2
    omega
  · have h2 := (h1 ((rs.length + f - 1) / f)).1 h
    have h3 := Nat.lt_div_mul_add (a := rs.length + f - 1) hf
    omega

/-- C110: if the lines of the file are two minutes apart, the j-th line written is j steps after the time in the header. -/
theorem C110_times {rs : List (ℚ × List Nat)} {t0 : ℚ} (ht : ∀ (k : Nat) (r : ℚ × List Nat), rs[k]? = some r → r.1 = t0 + (k : ℚ) / 720) {f : Nat} (hf : 0 < f)
    {j : Nat} {r : ℚ × List Nat} (hj : (everyNth f rs)[j]? = some r) : julian r.1 = julian t0 + j * ((f : ℚ) / 720) := by
  rw [every_get f hf] at hj
  rw [ht _ _ hj]
  unfold julian
  push_cast
  ring

/-- Finding: the number in the header is that of the lines only if it divides the number of lines in the file without
    remainder; else it is one too small. -/
theorem C110_count (rs : List (ℚ × List Nat)) {f : Nat} (hf : 0 < f) :
    (everyNth f rs).length = rs.length / f + (if f ∣ rs.length then 0 else 1) := by
  rw [every_length f hf]
  have e := Nat.div_add_mod rs.length f
  have hm := Nat.mod_lt rs.length hf
  generalize rs.length / f = q at *
  generalize rs.length % f = m at *
  split_ifs with h
  · have h0 : m = 0 := by
      rw [← e] at h
      exact Nat.eq_zero_of_dvd_of_lt ((Nat.dvd_add_right (Dvd.intro q rfl)).1 h) hm
    rw [← e, h0, Nat.add_zero, Nat.add_sub_assoc hf, Nat.add_comm, Nat.add_mul_div_left _ _ hf, Nat.div_eq_of_lt (by omega)]
    omega
  · have h0 : m ≠ 0 := fun h0 => h (by rw [← e, h0]; simp)
    rw [← e, show f * q + m + f - 1 = m - 1 + f * (q + 1) by rw [Nat.mul_succ]; omega, Nat.add_mul_div_left _ _ hf, Nat.div_eq_of_lt (by omega)]
    omega

/-- Finding: the last date is that of the last line only if there is a remainder; else it is one step later. -/
theorem C110_end {rs : List (ℚ × List Nat)} {t0 : ℚ} (ht : ∀ (k : Nat) (r : ℚ × List Nat), rs[k]? = some r → r.1 = t0 + (k : ℚ) / 720) {f : Nat} (hf : 0 < f)
    {r : ℚ × List Nat} (hr : (everyNth f rs).getLast? = some r) :
    julian t0 + (rs.length / f : Nat) * ((f : ℚ) / 720) = julian r.1 + if f ∣ rs.length then (f : ℚ) / 720 else 0 := by
  rw [List.getLast?_eq_getElem?] at hr
  rw [C110_times ht hf hr, C110_count rs hf]
  split_ifs with h
  · have hpos : 1 ≤ rs.length / f := by
      rcases Nat.eq_zero_or_pos (rs.length / f) with h0 | h0
      · have hc := C110_count rs hf
        rw [if_pos h, h0] at hc
        rw [List.length_eq_zero_iff.1 hc] at hr
        simp at hr
      · exact h0
    rw [Nat.add_zero, Nat.cast_sub hpos]
    push_cast
    ring
  · rw [Nat.add_sub_cancel]
    ring

/-- Finding: a negative interval is accepted if it divides 720; the header then has a negative step and number, and the lines
    are those of the positive one. -/
theorem C110_negative {ls : List (List Nat)} {rs : List (ℚ × List Nat)} (hF : File ls rs) {c : Nat} (hC : Craft ls c)
    (hc : 49 ≤ c ∧ c ≤ 52) {f : Nat} (hf : 0 < f) (ctime : ℚ → List Nat) :
    ∃ last, convert ctime (-f) ls = .ok (MmsHeader ((rs.head?.map fun r => julian r.1).getD 0) (-((f : ℚ) / 720)) (-((rs.length / f : Nat) : Int)) c ::
      (everyNth f rs).map lineText ++ last) := by
  refine ⟨trailer ctime ((rs.head?.map fun r => julian r.1).getD 0) rs.length (-(f : Int)), ?_⟩
  rw [convert_lines hF hC hc (f := -(f : Int)) (by omega), Int.tdiv_neg, Int.tdiv_eq_ediv_of_nonneg (Int.natCast_nonneg _)]
  simp only [Int.natAbs_neg, Int.natAbs_natCast]
  congr 3
  push_cast
  ring_nf

/-- A file that names no satellite, or none from 1 to 4, fails the assertion. -/
theorem C110_no_craft {ls : List (List Nat)} (h : ∀ k ∈ ls, k.take 16 ≠ bytes "Spacecraft = MMS") (f : Int) (ctime : ℚ → List Nat) :
    convert ctime f ls = .abort := by
  unfold convert
  simp only
  rw [first_craft h, if_neg (by simp)]

/-! ## Arguments -/

/-- Without arguments, or with a file's name only, every 72nd line is taken. -/
theorem C110_default (opens : List Nat → Bool) (ctime : ℚ → List Nat) (args lines : List (List Nat))
    (h : ∀ a ∈ args, a.head? ≠ some 45) (ho : ∀ a, args.head? = some a → opens a = true) :
    Mms.main opens ctime args lines = convert ctime 72 lines := by
  have hop : ∀ (as : List (List Nat)), (∀ a ∈ as, a.head? ≠ some 45) → options as 72 = .ok 72 := by
    intro as
    induction as with
    | nil => intro _; rfl
    | cons a as ih =>
      intro h
      have h1 := h a (by simp)
      rw [options, if_neg, ih (fun b hb => h b (by simp [hb]))]
      cases a with
      | nil => decide
      | cons x a => simpa [at?] using h1
  unfold Mms.main
  rw [hop args h]
  simp only [Run.bind]
  cases args with
  | nil => cases convert ctime 72 lines <;> rfl
  | cons a as =>
    cases convert ctime 72 lines with
    | ok out => simp [ho a rfl]
    | exit => rfl
    | abort => rfl
    | ub => rfl

/-- `-f` and the interval in two arguments or in one, with others after them. -/
theorem C110_more (t : List Nat) (ht : t ≠ []) (rest : List (List Nat)) (f : Int) :
    options (bytes "-f" :: t :: rest) f = (if atoi t = 0 ∨ (720 : Int).tmod (atoi t) ≠ 0 then .exit else options (t :: rest) (atoi t)) ∧
    options ((bytes "-f" ++ t) :: rest) f = (if atoi t = 0 ∨ (720 : Int).tmod (atoi t) ≠ 0 then .exit else options rest (atoi t)) := by
  constructor
  · rw [options, if_pos (by decide)]
    rw [show getArg (bytes "-f") (t :: rest) = .ok t from rfl]
    simp only [Run.bind]
    rw [if_pos (by decide)]
  · rw [options, if_pos (by rfl)]
    have hg : getArg (bytes "-f" ++ t) rest = .ok t := by
      have hl : 0 < t.length := List.length_pos_iff.2 ht
      unfold getArg
      rw [if_neg (by simp [bytes])]
      cases rest with
      | nil => rfl
      | cons a rest =>
        simp only
        rw [if_pos (by rw [List.length_append, show (bytes "-f").length = 2 from rfl]; omega)]
        rfl
    rw [hg]
    simp only [Run.bind]
    rw [if_pos (by rfl)]

/-- `-f` and the interval in two arguments or in one, after the name of the output. -/
theorem C110_interval (opens : List Nat → Bool) (ctime : ℚ → List Nat) (out t : List Nat) (lines : List (List Nat))
    (hn : out.head? ≠ some 45) (ho : opens out = true) (ht : t ≠ []) (ht' : t.head? ≠ some 45) :
    Mms.main opens ctime [out, bytes "-f", t] lines = Mms.main opens ctime [out, bytes "-f" ++ t] lines ∧
    Mms.main opens ctime [out, bytes "-f", t] lines = if atoi t = 0 ∨ (720 : Int).tmod (atoi t) ≠ 0 then .exit else convert ctime (atoi t) lines := by
  have h1 : at? out 0 ≠ 45 := by cases out with
    | nil => decide
    | cons x a => simpa [at?] using hn
  have h2 : at? t 0 ≠ 45 := by cases t with
    | nil => decide
    | cons x a => simpa [at?] using ht'
  have e1 : options [out, bytes "-f", t] 72 = if atoi t = 0 ∨ (720 : Int).tmod (atoi t) ≠ 0 then .exit else .ok (atoi t) := by
    rw [options, if_neg h1, options, if_pos (by decide)]
    rw [show getArg (bytes "-f") [t] = .ok t from rfl]
    simp only [Run.bind]
    rw [if_pos (by decide), options, if_neg h2]
    rfl
  have e2 : options [out, bytes "-f" ++ t] 72 = if atoi t = 0 ∨ (720 : Int).tmod (atoi t) ≠ 0 then .exit else .ok (atoi t) := by
    rw [options, if_neg h1, options, if_pos (by rfl)]
    rw [show getArg (bytes "-f" ++ t) [] = .ok t from by simp [getArg, bytes]]
    simp only [Run.bind]
    rw [if_pos (by rfl)]
    rfl
  have hm : ∀ rest, Mms.main opens ctime (out :: rest) lines = (options (out :: rest) 72).bind fun f => convert ctime f lines := by
    intro rest
    unfold Mms.main
    cases options (out :: rest) 72 with
    | ok f =>
      simp only [Run.bind]
      cases convert ctime f lines <;> simp [ho]
    | exit => rfl
    | abort => rfl
    | ub => rfl
  rw [hm, hm, e1, e2]
  refine ⟨rfl, ?_⟩
  split_ifs <;> rfl

/-- Findings: `-f` at the end and a lone `-`; an output that cannot be opened. -/
theorem C110_arguments (opens : List Nat → Bool) (ctime : ℚ → List Nat) (out : List Nat) (lines : List (List Nat)) :
    Mms.main opens ctime [bytes "-f"] lines = .exit ∧ Mms.main opens ctime [bytes "-"] lines = .ub ∧
    (out.head? ≠ some 45 → opens out = false → (∃ o, convert ctime 72 lines = .ok o) → Mms.main opens ctime [out] lines = .ub) := by
  refine ⟨rfl, rfl, ?_⟩
  rintro h1 h2 ⟨o, h3⟩
  have h4 : at? out 0 ≠ 45 := by cases out with
    | nil => decide
    | cons x a => simpa [at?] using h1
  unfold Mms.main
  rw [options, if_neg h4, options]
  simp only [Run.bind, h3]
  rw [if_pos ⟨h4, h2⟩]

/-! ## Examples -/

/-- Three lines of positions, two minutes apart. -/
def mmsRow (t : String) : List Nat := bytes "2019-155/00:00:00.000  " ++ bytes t ++ 32 :: List.replicate 130 48 ++ [10]

def mmsFile : List (List Nat) :=
  [bytes "Spacecraft = MMS2\n", mmsRow "22434.50", mmsRow "22434.75", bytes "\n", mmsRow "22435.00"]

def mmsRows : List (ℚ × List Nat) :=
  [(44869 / 2, mmsRow "22434.50"), (89739 / 4, mmsRow "22434.75"), (22435, mmsRow "22435.00")]

theorem mms_digits {s : List Nat} (h : s.all (fun c => decide (48 ≤ c ∧ c ≤ 57)) = true) : AllDigits s := by
  intro c hc
  simpa using List.all_eq_true.1 h c hc

theorem mms_file : File mmsFile mmsRows := by
  refine .other _ _ _ (Or.inl (by decide)) (.row _ _ _ _ ?_ (.row _ _ _ _ ?_ (.other _ _ _ (Or.inl (by decide)) (.row _ _ _ _ ?_ .done))))
  · exact ⟨by decide +kernel, by decide, by decide, by decide, 0, bytes "22434", bytes "50", List.replicate 130 48 ++ [10], mms_digits (by decide),
      by decide, mms_digits (by decide), by decide +kernel, by decide +kernel⟩
  · exact ⟨by decide +kernel, by decide, by decide, by decide, 0, bytes "22434", bytes "75", List.replicate 130 48 ++ [10], mms_digits (by decide),
      by decide, mms_digits (by decide), by decide +kernel, by decide +kernel⟩
  · exact ⟨by decide +kernel, by decide, by decide, by decide, 0, bytes "22435", bytes "00", List.replicate 130 48 ++ [10], mms_digits (by decide),
      by decide, mms_digits (by decide), by decide +kernel, by decide +kernel⟩

theorem mms_craft : Craft mmsFile 50 := ⟨[], _, _, rfl, by decide, by decide⟩

/-- Every second line of three: two are written, the header says one. -/
example (ctime : ℚ → List Nat) : ∃ rest, convert ctime 2 mmsFile = .ok (MmsHeader (julian (44869 / 2)) (2 / 720) 1 50 ::
    lineText (44869 / 2, mmsRow "22434.50") :: lineText (22435, mmsRow "22435.00") :: rest) := by
  obtain ⟨t0, h, e⟩ := C110_table mms_file mms_craft (by decide) (f := 2) (by decide) (by simp [mmsRows]) ctime
  have h' : t0 = 44869 / 2 := by simpa [mmsRows] using h.symm
  subst h'
  exact ⟨_, e⟩

/-- `C110_times`, `C110_end`: lines two minutes apart. -/
example : ∀ (k : Nat) (r : ℚ × List Nat), [((5 : ℚ), ([] : List Nat)), (5 + 1 / 720, [])][k]? = some r → r.1 = 5 + (k : ℚ) / 720 := by
  intro k r h
  rcases k with _ | _ | k
  · simp at h; subst h; norm_num
  · simp at h; subst h; norm_num
  · simp at h

/-- `C110_interval`: 36 and 7. -/
example (opens : List Nat → Bool) (ctime : ℚ → List Nat) (lines : List (List Nat)) (ho : opens (bytes "x.eph") = true) :
    Mms.main opens ctime [bytes "x.eph", bytes "-f", bytes "36"] lines = convert ctime 36 lines ∧
    Mms.main opens ctime [bytes "x.eph", bytes "-f", bytes "7"] lines = .exit := by
  rw [(C110_interval opens ctime _ _ lines (by decide) ho (by decide) (by decide)).2,
    (C110_interval opens ctime _ _ lines (by decide) ho (by decide) (by decide)).2]
  exact ⟨if_neg (by decide), if_pos (by decide)⟩

end Verif.Props
