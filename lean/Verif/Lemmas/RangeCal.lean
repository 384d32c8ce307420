import Verif.Lemmas.Refine

/-! The year search for calendars known only for a range of years, and possibly with gaps between
years. -/

namespace Verif.Date

open Verif.Spec

/-- Years `lo..hi`, and only those, have data `f`; none is empty; each ends no later than the next
    one starts. -/
structure Chain (data : Int → Option YearData) (f : Int → YearData) (lo hi : Int) : Prop where
  data_eq : ∀ y, lo ≤ y → y ≤ hi → data y = some (f y)
  below : ∀ y, y < lo → data y = none
  above : ∀ y, hi < y → data y = none
  nonempty : ∀ y, lo ≤ y → y ≤ hi → (f y).start < (f y).stop
  chain : ∀ y, lo ≤ y → y < hi → (f y).stop ≤ (f (y + 1)).start

variable {data : Int → Option YearData} {f : Int → YearData} {lo hi : Int}

theorem Chain.stop_le_start (h : Chain data f lo hi) {y z : Int} (h1 : lo ≤ y) (h2 : y < z)
    (h3 : z ≤ hi) : (f y).stop ≤ (f z).start := by
  have key : ∀ n : Nat, y + (n + 1 : Nat) ≤ hi → (f y).stop ≤ (f (y + (n + 1 : Nat))).start := by
    intro n
    induction n with
    | zero => intro hn; exact h.chain y h1 (by omega)
    | succ n ih =>
      intro hn
      have a := ih (by omega)
      have b := h.nonempty (y + (n + 1 : Nat)) (by omega) (by omega)
      have c := h.chain (y + (n + 1 : Nat)) (by omega) (by omega)
      rw [show y + ((n + 1 + 1 : Nat) : Int) = y + (n + 1 : Nat) + 1 by omega]
      omega
  have := key (z - y - 1).toNat (by omega)
  rwa [show y + (((z - y - 1).toNat + 1 : Nat) : Int) = z by omega] at this

theorem step_up {jd g : Int} (hd : data g = some (f g)) (h1 : (f g).start ≤ jd)
    (h2 : (f g).stop ≤ jd) : searchStep data jd g = .inr (g + 1) := by
  unfold searchStep
  rw [hd]
  have h1' : ¬ (f g).start > jd := by omega
  simp [h1', h2]

theorem step_down {jd g : Int} (hd : data g = some (f g)) (h1 : jd < (f g).start)
    (h2 : jd < (f g).stop) : searchStep data jd g = .inr (g - 1) := by
  unfold searchStep
  rw [hd]
  have h2' : ¬ (f g).stop ≤ jd := by omega
  simp [h1, h2']

theorem step_found {jd g : Int} (hd : data g = some (f g)) (h1 : (f g).start ≤ jd)
    (h2 : jd < (f g).stop) : searchStep data jd g = .inl (.found g (f g)) := by
  unfold searchStep
  rw [hd]
  have h1' : ¬ (f g).start > jd := by omega
  have h2' : ¬ (f g).stop ≤ jd := by omega
  simp [h1', h2']

theorem step_failed {jd g : Int} (hd : data g = none) : searchStep data jd g = .inl (.failed g) := by
  unfold searchStep; rw [hd]

/-- A day inside a known year is found from any first guess in the range. -/
theorem Chain.search_in (h : Chain data f lo hi) {jd Y : Int} (hY : lo ≤ Y) (hY' : Y ≤ hi)
    (h1 : (f Y).start ≤ jd) (h2 : jd < (f Y).stop) {g : Int} (hg : lo ≤ g) (hg' : g ≤ hi) :
    ∃ fuel, searchYear data jd fuel g = some (.found Y (f Y)) := by
  have key : ∀ (n : Nat) (g : Int), lo ≤ g → g ≤ hi → (g - Y).natAbs = n →
      searchYear data jd (n + 1) g = some (.found Y (f Y)) := by
    intro n
    induction n with
    | zero =>
      intro g hg hg' hn
      have : g = Y := by omega
      subst this
      rw [searchYear, step_found (h.data_eq g hY hY') h1 h2]
    | succ n ih =>
      intro g hg hg' hn
      by_cases hlt : g < Y
      · have a := h.stop_le_start hg hlt hY'
        have b := h.nonempty g hg hg'
        rw [searchYear, step_up (h.data_eq g hg hg') (by omega) (by omega)]
        exact ih (g + 1) (by omega) (by omega) (by omega)
      · have a := h.stop_le_start hY (z := g) (by omega) hg'
        have b := h.nonempty g hg hg'
        rw [searchYear, step_down (h.data_eq g hg hg') (by omega) (by omega)]
        exact ih (g - 1) (by omega) (by omega) (by omega)
  exact ⟨_, key _ g hg hg' rfl⟩

/-- Before the first known day the search fails. -/
theorem Chain.search_below (h : Chain data f lo hi) {jd : Int} (h1 : jd < (f lo).start) {g : Int}
    (hg' : g ≤ hi) : ∃ fuel y, searchYear data jd fuel g = some (.failed y) := by
  have key : ∀ (n : Nat) (g : Int), g ≤ hi → g < lo + n →
      ∃ y, searchYear data jd (n + 1) g = some (.failed y) := by
    intro n
    induction n with
    | zero =>
      intro g _ hg
      exact ⟨g, by rw [searchYear, step_failed (h.below g (by omega))]⟩
    | succ n ih =>
      intro g hg' hg
      by_cases hlo : g < lo
      · exact ⟨g, by rw [searchYear, step_failed (h.below g hlo)]⟩
      · have b := h.nonempty g (by omega) hg'
        have a : (f lo).start ≤ (f g).start := by
          by_cases e : g = lo
          · rw [e]; omega
          · have a := h.stop_le_start (y := lo) (z := g) (by omega) (by omega) hg'
            have c := h.nonempty lo (by omega) (by omega)
            omega
        rw [searchYear, step_down (h.data_eq g (by omega) hg') (by omega) (by omega)]
        exact ih (g - 1) (by omega) (by omega)
  obtain ⟨y, hy⟩ := key (g - lo + 1).toNat g hg' (by omega)
  exact ⟨_, y, hy⟩

/-- After the last known day the search fails. -/
theorem Chain.search_above (h : Chain data f lo hi) {jd : Int} (h1 : (f hi).stop ≤ jd) {g : Int}
    (hg' : lo ≤ g) : ∃ fuel y, searchYear data jd fuel g = some (.failed y) := by
  have key : ∀ (n : Nat) (g : Int), lo ≤ g → hi < g + n →
      ∃ y, searchYear data jd (n + 1) g = some (.failed y) := by
    intro n
    induction n with
    | zero =>
      intro g _ hg
      exact ⟨g, by rw [searchYear, step_failed (h.above g (by omega))]⟩
    | succ n ih =>
      intro g hg' hg
      by_cases hlo : hi < g
      · exact ⟨g, by rw [searchYear, step_failed (h.above g hlo)]⟩
      · have b := h.nonempty g hg' (by omega)
        have a : (f g).stop ≤ (f hi).stop := by
          by_cases e : g = hi
          · rw [e]; omega
          · have a := h.stop_le_start (y := g) (z := hi) (by omega) (by omega) (by omega)
            have c := h.nonempty hi (by omega) (by omega)
            omega
        rw [searchYear, step_up (h.data_eq g hg' (by omega)) (by omega) (by omega)]
        exact ih (g + 1) (by omega) (by omega)
  obtain ⟨y, hy⟩ := key (hi - g + 1).toNat g hg' (by omega)
  exact ⟨_, y, hy⟩

/-- A day in a gap between two known years makes the search run forever. -/
theorem Chain.search_gap (h : Chain data f lo hi) {jd Y : Int} (hY : lo ≤ Y) (hY' : Y < hi)
    (h1 : (f Y).stop ≤ jd) (h2 : jd < (f (Y + 1)).start) :
    ∀ (fuel : Nat) (g : Int), lo ≤ g → g ≤ hi → searchYear data jd fuel g = none := by
  intro fuel
  induction fuel with
  | zero => intro g _ _; rfl
  | succ n ih =>
    intro g hg hg'
    have b := h.nonempty g hg hg'
    by_cases hlt : g ≤ Y
    · have a : (f g).stop ≤ jd := by
        by_cases e : g = Y
        · rw [e]; exact h1
        · have a := h.stop_le_start hg (z := Y) (by omega) (by omega)
          have c := h.nonempty Y hY (by omega)
          omega
      rw [searchYear, step_up (h.data_eq g hg hg') (by omega) a]
      exact ih (g + 1) (by omega) (by omega)
    · have a : jd < (f g).start := by
        by_cases e : g = Y + 1
        · rw [e]; exact h2
        · have a := h.stop_le_start (y := Y + 1) (z := g) (by omega) (by omega) hg'
          have c := h.nonempty (Y + 1) (by omega) (by omega)
          omega
      rw [searchYear, step_down (h.data_eq g hg hg') a (by omega)]
      exact ih (g - 1) (by omega) (by omega)

/-- If there are no gaps except where `gap` says so, every day of the range is in a year or in a
    gap. -/
theorem Chain.locate (_h : Chain data f lo hi) (hle : lo ≤ hi) {jd : Int} (h1 : (f lo).start ≤ jd)
    (h2 : jd < (f hi).stop) :
    (∃ Y, lo ≤ Y ∧ Y ≤ hi ∧ (f Y).start ≤ jd ∧ jd < (f Y).stop) ∨
    (∃ Y, lo ≤ Y ∧ Y < hi ∧ (f Y).stop ≤ jd ∧ jd < (f (Y + 1)).start) := by
  have key : ∀ (n : Nat), lo + n ≤ hi → jd < (f (lo + n)).stop →
      (∃ Y, lo ≤ Y ∧ Y ≤ hi ∧ (f Y).start ≤ jd ∧ jd < (f Y).stop) ∨
      (∃ Y, lo ≤ Y ∧ Y < hi ∧ (f Y).stop ≤ jd ∧ jd < (f (Y + 1)).start) := by
    intro n
    induction n with
    | zero =>
      intro hn hs
      left
      refine ⟨lo, by omega, by omega, h1, ?_⟩
      simpa using hs
    | succ n ih =>
      intro hn hs
      by_cases a : (f (lo + (n + 1 : Nat))).start ≤ jd
      · left; exact ⟨_, by omega, hn, a, hs⟩
      · by_cases b : jd < (f (lo + n)).stop
        · exact ih (by omega) b
        · right
          refine ⟨lo + n, by omega, by omega, by omega, ?_⟩
          rw [show lo + (n : Int) + 1 = lo + (n + 1 : Nat) by omega]; omega
  apply key (hi - lo).toNat (by omega)
  rwa [show lo + ((hi - lo).toNat : Int) = hi by omega]

/-! ### The first guess -/

theorem approxYearCore_eq (jd epoch n1 n2 : Int) (h2 : 0 < n2) (h1 : 0 ≤ n1) :
    approxYearCore jd epoch n1 n2 = ((jd - epoch) * n1) / n2 := by
  unfold approxYearCore
  simp only [cmod_eq _ n2 h2]
  have hm := Int.emod_nonneg (jd - epoch) (by omega : n2 ≠ 0)
  have e := Int.mul_ediv_add_emod (jd - epoch) n2
  have e1 : (jd - epoch - (jd - epoch) % n2).tdiv n2 = (jd - epoch) / n2 := by
    have : jd - epoch - (jd - epoch) % n2 = n2 * ((jd - epoch) / n2) := by omega
    rw [this, Int.mul_tdiv_cancel_left _ (by omega)]
  rw [e1, tdiv_of_nonneg (Int.mul_nonneg hm h1)]
  generalize hq : (jd - epoch) / n2 = q at *
  generalize hr : (jd - epoch) % n2 = r at *
  rw [← e, Int.add_mul, Int.mul_assoc, Int.add_comm (n2 * (q * n1)), Int.add_mul_ediv_left _ _ (by omega)]
  rw [Int.mul_comm n1 q]
  omega

theorem approxYearCore_mono (epoch n1 n2 : Int) (h2 : 0 < n2) (h1 : 0 ≤ n1) {a b : Int}
    (h : a ≤ b) : approxYearCore a epoch n1 n2 ≤ approxYearCore b epoch n1 n2 := by
  rw [approxYearCore_eq _ _ _ _ h2 h1, approxYearCore_eq _ _ _ _ h2 h1]
  apply Int.ediv_le_ediv h2
  exact Int.mul_le_mul_of_nonneg_right (by omega) h1

theorem approxYear_mono (cal : Int) {a b : Int} (h : a ≤ b) : approxYear a cal ≤ approxYear b cal := by
  unfold approxYear
  repeat' split
  all_goals first
    | exact approxYearCore_mono _ _ _ (by decide) (by decide) h
    | omega

end Verif.Date
