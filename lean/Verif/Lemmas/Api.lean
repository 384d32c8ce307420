import Verif.Lemmas.RomanCal
import Verif.Lemmas.OtherCal

/-! From `Refines` to statements about the API functions only. -/

namespace Verif.Date

open Verif.Spec

/-- A date is one the library itself admits: month slot 1..13, day between 1 and `days_in_month`. -/
def ApiDate (cal d m y : Int) : Prop :=
  1 ≤ m ∧ m ≤ 13 ∧ 1 ≤ d ∧ ∃ n, daysInMonth m y cal = some n ∧ d ≤ n

/-- The calendars computed by a rule for every year. -/
def ruleCalendars : List Int := [GREGORIAN, JULIAN, ISLAMIC, REVOLUTIONARY, MODERN_PERSIAN]

theorem rule_refines {cal : Int} (h : cal ∈ ruleCalendars) : ∃ c, Refines cal c := by
  simp only [ruleCalendars, List.mem_cons, List.not_mem_nil, or_false] at h
  rcases h with rfl | rfl | rfl | rfl | rfl
  · exact ⟨_, gregorian_refines⟩
  · exact ⟨_, julian_refines⟩
  · exact ⟨_, islamic_refines⟩
  · exact ⟨_, french_refines⟩
  · exact ⟨_, persian_refines⟩

theorem Refines.apiDate_iff {cal : Int} {c : Calendar} (h : Refines cal c) (d m y : Int) :
    ApiDate cal d m y ↔ c.Exists d m y := by
  constructor
  · rintro ⟨h1, h2, h3, n, hn, hle⟩
    obtain ⟨n', hn', _, hg, _⟩ := h.daysInMonth (y := y) h1 h2
    rw [hn] at hn'
    cases hn'
    exact ⟨h1, h3, n, hg, hle⟩
  · intro e
    have hm := Exists.month_le h.toWF e
    obtain ⟨h1, h3, len, hg, hle⟩ := e
    obtain ⟨n', hn', _, hg', _⟩ := h.daysInMonth (y := y) h1 hm
    rw [hg] at hg'
    cases hg'
    exact ⟨h1, hm, h3, len, hn', hle⟩

/-- `Refines.dmyToDay` for existing dates. -/
theorem Refines.dmyToDay_exists {cal : Int} {c : Calendar} (h : Refines cal c) {d m y : Int}
    (e : c.Exists d m y) : Date.dmyToDay d m y cal = some (c.dayNumber d m y) := by
  have hm := Exists.month_le h.toWF e
  exact h.dmyToDay (by have := e.2.1; omega) (by omega)

/-- The search finds the one year containing `jd`, in as many passes as the guess is off plus one. -/
theorem Refines.search_steps {cal : Int} {c : Calendar} (h : Refines cal c) (jd : Int) :
    ∃ Y yd, yd.start ≤ jd ∧ jd < yd.stop ∧ getCalendarData Y cal = some yd ∧
      ∀ g, searchYear (fun y => getCalendarData y cal) jd ((g - Y).natAbs + 1) g = some (.found Y yd) := by
  obtain ⟨_, Y, _, h1, h2⟩ := h.coversAll.search jd 0
  refine ⟨Y, _, h1, h2, h.data Y, ?_⟩
  have key : ∀ (n : Nat) (g : Int), (g - Y).natAbs = n →
      searchYear (fun y => getCalendarData y cal) jd (n + 1) g = some (.found Y ⟨c.newYear Y, c.months Y⟩) := by
    have hstop : ∀ y, (⟨c.newYear y, c.months y⟩ : YearData).stop = c.newYear (y + 1) := by
      intro y; rw [c.newYear_succ]; rfl
    rw [hstop] at h2
    simp only at h1
    intro n
    induction n with
    | zero =>
      intro g hn
      have : g = Y := by omega
      subst this
      simp only [searchYear, searchStep, h.data, hstop]
      have a : ¬ c.newYear g > jd := by omega
      have b : ¬ c.newYear (g + 1) ≤ jd := by omega
      simp [a, b]
    | succ n ih =>
      intro g hn
      rw [searchYear]
      by_cases hlt : g < Y
      · have a := h.newYear_le (y := g + 1) (z := Y) (by omega)
        have b := h.newYear_lt (y := g) (z := g + 1) (by omega)
        have a' : ¬ c.newYear g > jd := by omega
        have b' : c.newYear (g + 1) ≤ jd := by omega
        simp only [searchStep, h.data, hstop, a', b', or_true, if_true, if_false]
        have ih1 := ih (g + 1) (by omega)
        simp only [h.data] at ih1
        exact ih1
      · have a := h.newYear_le (y := Y + 1) (z := g) (by omega)
        have b := h.newYear_lt (y := g) (z := g + 1) (by omega)
        have a' : c.newYear g > jd := by omega
        have b' : ¬ c.newYear (g + 1) ≤ jd := by omega
        simp only [searchStep, h.data, hstop, a', b', true_or, if_true, if_false]
        have ih1 := ih (g - 1) (by omega)
        simp only [h.data] at ih1
        exact ih1
  intro g
  exact key _ g rfl

end Verif.Date
