import Mathlib.Tactic.Linarith
import Mathlib.Tactic.Ring
import Mathlib.Tactic.NormNum
import Mathlib.Data.Rat.Floor
import Verif.Model.TimeSplit
import Verif.Props.Calendars

/-!
# Property theorems: splitting a time (C44)
-/

namespace Verif.Props

open Verif Verif.Date Verif.Spec Verif.Time

variable {K : Type} [Field K] [LinearOrder K] [IsStrictOrderedRing K] [FloorRing K]

theorem splitCore_spec (t : K) :
    ∃ jd hr min sec, splitCore t = (jd, hr, min, sec) ∧ 0 ≤ hr ∧ hr ≤ 23 ∧ 0 ≤ min ∧ min ≤ 59 ∧ 0 ≤ sec ∧ sec < 60 ∧
      (jd : K) - 1 / 2 + ((hr * 60 + min : Int) : K) / 1440 + sec / 86400 = t + 2451545 := by
  have hf0 := Int.floor_le (t + 1 / 2)
  have hf1 := Int.lt_floor_add_one (t + 1 / 2)
  generalize hn : ⌊t + 1 / 2⌋ = n at hf0 hf1
  have m0 : 0 ≤ (t + 1 / 2 - n) * 1440 := by nlinarith
  have m1 : (t + 1 / 2 - n) * 1440 < 1440 := by nlinarith
  have g0 := Int.floor_le ((t + 1 / 2 - n) * 1440)
  have g1 := Int.lt_floor_add_one ((t + 1 / 2 - n) * 1440)
  have k0 : 0 ≤ ⌊(t + 1 / 2 - n) * 1440⌋ := Int.floor_nonneg.2 m0
  have k1 : ⌊(t + 1 / 2 - n) * 1440⌋ < 1440 := by
    rw [Int.floor_lt]; exact_mod_cast m1
  have ht : trunc ((t + 1 / 2 - n) * 1440) = ⌊(t + 1 / 2 - n) * 1440⌋ := if_pos m0
  generalize hk : ⌊(t + 1 / 2 - n) * 1440⌋ = k at g0 g1 k0 k1 ht
  refine ⟨n + 2451545, k / 60, k % 60, ((t + 1 / 2 - n) * 1440 - k) * 60, ?_, by omega, by omega, by omega, by omega, ?_, ?_, ?_⟩
  · unfold splitCore
    simp only [hn, ht]
    have hc : ¬ k = 1440 := by omega
    simp only [if_neg hc]
    rw [Int.tdiv_eq_ediv_of_nonneg k0, Int.tmod_eq_emod_of_nonneg k0]
  · linarith
  · linarith
  · have : k / 60 * 60 + k % 60 = k := by omega
    rw [this]
    push_cast
    ring

/-- **C44.** In every calendar in which `day_to_dmy` returns, every time is split into the date `day_to_dmy` gives
    and hours, minutes and seconds in their usual ranges, which add up to the time again. -/
theorem C44_split (t : K) (cal : Int) (hret : ∀ jd, ∃ r, dayToDmyReturns jd cal r) :
    ∃ jd date hr min sec, SplitTimel t cal date hr min sec ∧ dayToDmyReturns jd cal date ∧
      0 ≤ hr ∧ hr ≤ 23 ∧ 0 ≤ min ∧ min ≤ 59 ∧ 0 ≤ sec ∧ sec < 60 ∧
      (jd : K) - 1 / 2 + (hr : K) / 24 + (min : K) / 1440 + sec / 86400 = t + 2451545 := by
  obtain ⟨jd, hr, min, sec, h, h1, h2, h3, h4, h5, h6, h7⟩ := splitCore_spec t
  obtain ⟨date, hd⟩ := hret jd
  refine ⟨jd, date, hr, min, sec, ⟨jd, h, hd⟩, hd, h1, h2, h3, h4, h5, h6, ?_⟩
  rw [← h7]
  push_cast
  ring

/-- A civil time of the Gregorian calendar, and the Julian Date it stands for. -/
structure Civil (K : Type) where
  d : Int
  m : Int
  y : Int
  hr : Int
  min : Int
  sec : K

def Civil.Valid (c : Civil K) : Prop :=
  gregorian.Exists c.d c.m c.y ∧ 0 ≤ c.hr ∧ c.hr ≤ 23 ∧ 0 ≤ c.min ∧ c.min ≤ 59 ∧ 0 ≤ c.sec ∧ c.sec < 60

/-- Midnight of the day (its noon is the day number) plus the hours, minutes and seconds. -/
def Civil.jd (c : Civil K) : K :=
  (gregorian.dayNumber c.d c.m c.y : K) - 1 / 2 + (c.hr : K) / 24 + (c.min : K) / 1440 + c.sec / 86400

/-- **C44.** A Julian Date splits into a valid Gregorian civil time that stands for that Julian Date. -/
theorem C44_gregorian (jd : K) :
    ∃ c : Civil K, SplitTime jd GREGORIAN ⟨c.d, some c.m, c.y⟩ c.hr c.min c.sec ∧ c.Valid ∧ c.jd = jd := by
  obtain ⟨n, hr, min, sec, h, h1, h2, h3, h4, h5, h6, h7⟩ := splitCore_spec (jd - 2451545)
  obtain ⟨d, m, y, hd, he, hj⟩ := gregorian_refines.roundtrip n
  refine ⟨⟨d, m, y, hr, min, sec⟩, ⟨n, h, hd⟩, ⟨he, h1, h2, h3, h4, h5, h6⟩, ?_⟩
  unfold Civil.jd
  simp only [hj]
  push_cast at h7
  linarith

theorem civil_parts (c : Civil K) (hv : c.Valid) :
    ∃ f : K, c.jd = (gregorian.dayNumber c.d c.m c.y : K) - 1 / 2 + f ∧ 0 ≤ f ∧ f < 1 ∧
      f * 1440 = ((c.hr * 60 + c.min : Int) : K) + c.sec / 60 := by
  obtain ⟨-, h1, h2, h3, h4, h5, h6⟩ := hv
  have a1 : (0 : K) ≤ c.hr := by exact_mod_cast h1
  have a2 : (c.hr : K) ≤ 23 := by exact_mod_cast h2
  have a3 : (0 : K) ≤ c.min := by exact_mod_cast h3
  have a4 : (c.min : K) ≤ 59 := by exact_mod_cast h4
  refine ⟨(c.hr : K) / 24 + (c.min : K) / 1440 + c.sec / 86400, ?_, ?_, ?_, ?_⟩
  · unfold Civil.jd; ring
  · positivity
  · linarith
  · push_cast; ring

/-- **C44.** Only one valid Gregorian civil time stands for a Julian Date, so the split is the only possible one. -/
theorem C44_unique (c c' : Civil K) (hv : c.Valid) (hv' : c'.Valid) (h : c.jd = c'.jd) : c = c' := by
  obtain ⟨f, hf, f0, f1, hm⟩ := civil_parts c hv
  obtain ⟨f', hf', f0', f1', hm'⟩ := civil_parts c' hv'
  obtain ⟨he, h1, h2, h3, h4, h5, h6⟩ := hv
  obtain ⟨he', h1', h2', h3', h4', h5', h6'⟩ := hv'
  rw [hf, hf'] at h
  have hday : gregorian.dayNumber c.d c.m c.y = gregorian.dayNumber c'.d c'.m c'.y := by
    have g1 : (gregorian.dayNumber c.d c.m c.y : K) < (gregorian.dayNumber c'.d c'.m c'.y : K) + 1 := by linarith
    have g2 : (gregorian.dayNumber c'.d c'.m c'.y : K) < (gregorian.dayNumber c.d c.m c.y : K) + 1 := by linarith
    have g1 : gregorian.dayNumber c.d c.m c.y < gregorian.dayNumber c'.d c'.m c'.y + 1 := by exact_mod_cast g1
    have g2 : gregorian.dayNumber c'.d c'.m c'.y < gregorian.dayNumber c.d c.m c.y + 1 := by exact_mod_cast g2
    omega
  obtain ⟨e1, e2, e3⟩ := gregorian_wf.dayNumber_inj he he' hday
  rw [hday] at h
  have hff : f = f' := by linarith
  rw [hff, hm'] at hm
  have hmin : c.hr * 60 + c.min = c'.hr * 60 + c'.min := by
    have g1 : ((c.hr * 60 + c.min : Int) : K) < ((c'.hr * 60 + c'.min : Int) : K) + 1 := by linarith
    have g2 : ((c'.hr * 60 + c'.min : Int) : K) < ((c.hr * 60 + c.min : Int) : K) + 1 := by linarith
    have g1 : c.hr * 60 + c.min < c'.hr * 60 + c'.min + 1 := by exact_mod_cast g1
    have g2 : c'.hr * 60 + c'.min < c.hr * 60 + c.min + 1 := by exact_mod_cast g2
    omega
  rw [hmin] at hm
  have hsec : c.sec = c'.sec := by linarith
  have e4 : c.hr = c'.hr := by omega
  have e5 : c.min = c'.min := by omega
  cases c; cases c'
  simp_all

/-- **C44.** Splitting the Julian Date of a valid Gregorian civil time gives that civil time back. -/
theorem C44_roundtrip (c : Civil K) (hv : c.Valid) :
    SplitTime c.jd GREGORIAN ⟨c.d, some c.m, c.y⟩ c.hr c.min c.sec := by
  obtain ⟨c', h, hv', hj⟩ := C44_gregorian c.jd
  rw [C44_unique c c' hv hv' hj.symm]
  rw [C44_unique c c' hv hv' hj.symm] at h
  exact h

/-- **C44.** Later times split into later civil times. -/
theorem C44_order (c c' : Civil K) (hv : c.Valid) (hv' : c'.Valid) :
    c.jd < c'.jd ↔ DateLt c.d c.m c.y c'.d c'.m c'.y ∨ (c.d = c'.d ∧ c.m = c'.m ∧ c.y = c'.y ∧
      (c.hr < c'.hr ∨ (c.hr = c'.hr ∧ (c.min < c'.min ∨ (c.min = c'.min ∧ c.sec < c'.sec))))) := by
  have key : ∀ c c' : Civil K, c.Valid → c'.Valid →
      (DateLt c.d c.m c.y c'.d c'.m c'.y ∨ (c.d = c'.d ∧ c.m = c'.m ∧ c.y = c'.y ∧
      (c.hr < c'.hr ∨ (c.hr = c'.hr ∧ (c.min < c'.min ∨ (c.min = c'.min ∧ c.sec < c'.sec)))))) → c.jd < c'.jd := by
    intro c c' hv hv' h
    obtain ⟨f, hf, f0, f1, hm⟩ := civil_parts c hv
    obtain ⟨f', hf', f0', f1', hm'⟩ := civil_parts c' hv'
    obtain ⟨he, h1, h2, h3, h4, h5, h6⟩ := hv
    obtain ⟨he', h1', h2', h3', h4', h5', h6'⟩ := hv'
    rw [hf, hf']
    rcases h with h | ⟨e1, e2, e3, h⟩
    · have := gregorian_wf.dayNumber_lt he he' h
      have : (gregorian.dayNumber c.d c.m c.y : K) + 1 ≤ gregorian.dayNumber c'.d c'.m c'.y := by exact_mod_cast this
      linarith
    · rw [e1, e2, e3]
      rcases h with h | ⟨e4, h | ⟨e5, h⟩⟩
      · have : c.hr * 60 + c.min + 1 ≤ c'.hr * 60 + c'.min := by omega
        have : ((c.hr * 60 + c.min : Int) : K) + 1 ≤ ((c'.hr * 60 + c'.min : Int) : K) := by exact_mod_cast this
        linarith
      · have : c.hr * 60 + c.min + 1 ≤ c'.hr * 60 + c'.min := by omega
        have : ((c.hr * 60 + c.min : Int) : K) + 1 ≤ ((c'.hr * 60 + c'.min : Int) : K) := by exact_mod_cast this
        linarith
      · rw [e4, e5] at hm
        linarith
  constructor
  · intro h
    by_contra hn
    have tri : (DateLt c'.d c'.m c'.y c.d c.m c.y ∨ (c'.d = c.d ∧ c'.m = c.m ∧ c'.y = c.y ∧
      (c'.hr < c.hr ∨ (c'.hr = c.hr ∧ (c'.min < c.min ∨ (c'.min = c.min ∧ c'.sec < c.sec)))))) ∨ c = c' := by
      by_cases hs : c.sec = c'.sec
      · by_cases hd : c.d = c'.d ∧ c.m = c'.m ∧ c.y = c'.y ∧ c.hr = c'.hr ∧ c.min = c'.min
        · right; cases c; cases c'; simp_all
        · left
          unfold DateLt at hn ⊢
          simp only [hs, lt_irrefl, and_false, or_false] at hn ⊢
          omega
      · rcases lt_or_gt_of_ne hs with hs | hs
        · left
          unfold DateLt at hn ⊢
          simp only [hs, not_lt.2 hs.le, and_false, and_true, or_false] at hn ⊢
          omega
        · left
          unfold DateLt at hn ⊢
          simp only [hs, not_lt.2 hs.le, and_false, and_true, or_false] at hn ⊢
          omega
    rcases tri with t | t
    · exact absurd (key c' c hv' hv t) (not_lt.2 h.le)
    · rw [t] at h; exact lt_irrefl _ h
  · exact key c c' hv hv'

example : splitCore (0 : ℚ) = (2451545, 12, 0, 0) := by decide +kernel
example : (⟨29, 2, 2000, 23, 59, 119 / 2⟩ : Civil ℚ).Valid :=
  ⟨⟨by decide, by decide, 29, by decide, by decide⟩, by decide, by decide, by decide, by decide, by decide +kernel, by decide +kernel⟩

end Verif.Props
