import Verif.Lemmas.Refine

/-! Arithmetic of the Hebrew calendar code. -/

namespace Verif.Date

open Verif.Spec

theorem lun_eq (y : Int) : lunationsToTishri1 y = (235 * y - 234) / 19 := by
  unfold lunationsToTishri1
  simp only [cmod_eq _ 19 (by omega : (0:Int) < 19)]
  have e : (y - 1 - (y - 1) % 19).tdiv 19 = (y - 1) / 19 := by
    by_cases h : 1 ≤ y
    · rw [tdiv_of_nonneg (by omega)]; omega
    · rw [tdiv_of_nonpos (by omega)]; omega
  rw [e, tdiv_of_nonneg (by omega)]
  omega

theorem tishri_eq (y : Int) : findTishri1 y = (hebrewMolad y / 25920, hebrewMolad y % 25920) := by
  unfold findTishri1 lunationsToDaysAndHalakim hebrewMolad HALAKIM_IN_DAY
  simp only [lun_eq, cmod_eq _ 25920 (by omega : (0:Int) < 25920)]
  generalize (235 * y - 234) / 19 = L
  have e : (L - L % 25920).tdiv 25920 = L / 25920 := by
    by_cases h : 0 ≤ L
    · rw [tdiv_of_nonneg (by omega)]; omega
    · rw [tdiv_of_nonpos (by omega)]; omega
  rw [e, tdiv_of_nonneg (by omega), Int.tmod_eq_emod_of_nonneg (by omega)]
  ext <;> simp only <;> omega

theorem leap_iff (y : Int) : isHebrewLeapYear y = true ↔ hebrewLeap y := by
  unfold isHebrewLeapYear hebrewLeap
  rw [cmod_eq _ 19 (by omega)]
  have h : ∀ r : Fin 19, (((r.val : Int) * 7 - 6) % 19 ≥ 12 ↔ (r.val : Int) ∈ [0, 3, 6, 8, 11, 14, 17]) := by
    decide
  have := h ⟨(y % 19).toNat, by omega⟩
  have e : (((y % 19).toNat : Nat) : Int) = y % 19 := by omega
  simp only [e] at this
  rw [← this]
  have e2 : (y * 7 - 6) % 19 = (y % 19 * 7 - 6) % 19 := by omega
  simp [e2]

theorem leap_omega (y : Int) : isHebrewLeapYear y = true ↔ (y * 7 - 6) % 19 ≥ 12 := by
  unfold isHebrewLeapYear
  rw [cmod_eq _ 19 (by omega)]
  simp

/-- The postponements as coded, as a function of the day and parts of the molad and of whether the
    previous and current years are leap years. -/
def hebPost (D h : Int) (lp lt : Bool) : Int :=
  if D % 7 = 3 ∧ h ≥ 9924 ∧ lt = false then D + 2
  else if D % 7 = 2 ∧ h ≥ 16789 ∧ lp = true then D + 1
  else if h > 19440 then
    if (D + 1) % 7 = 1 ∨ (D + 1) % 7 = 4 ∨ (D + 1) % 7 = 6 then D + 2 else D + 1
  else if D % 7 = 1 ∨ D % 7 = 4 ∨ D % 7 = 6 then D + 1 else D

theorem hebrewNewYear_eq (y : Int) : hebrewNewYear y =
    hebPost (hebrewMolad y / 25920) (hebrewMolad y % 25920) (isHebrewLeapYear (y - 1))
      (isHebrewLeapYear y) + HEBREW_CALENDAR_EPOCH := by
  unfold hebrewNewYear hebPost
  rw [tishri_eq]
  simp only [cmod_eq _ 7 (by omega : (0:Int) < 7)]
  congr 1
  generalize hebrewMolad y / 25920 = D
  generalize hebrewMolad y % 25920 = h
  by_cases h1 : D % 7 = 3 ∧ h ≥ 9924 ∧ isHebrewLeapYear y = false
  · rw [if_pos (by simpa using h1), if_pos h1]
  rw [if_neg (by simpa using h1), if_neg h1]
  by_cases h2 : D % 7 = 2 ∧ h ≥ 16789 ∧ isHebrewLeapYear (y - 1) = true
  · rw [if_pos (by simpa using h2), if_pos h2]
  rw [if_neg (by simpa using h2), if_neg h2]
  by_cases h3 : h > 19440
  · simp only [h3, show h > 18 * 1080 from h3, if_true]
    split <;> omega
  · simp only [h3, show ¬ h > 18 * 1080 from h3, if_false]

theorem molad_succ (y : Int) : hebrewMolad (y + 1) =
    hebrewMolad y + if isHebrewLeapYear y then 13 * 765433 else 12 * 765433 := by
  unfold hebrewMolad
  have h := leap_omega y
  obtain ⟨k, hk⟩ : ∃ k, y * 7 = k := ⟨_, rfl⟩
  have e1 : (235 * (y + 1) - 234) / 19 = 12 * y + (k + 1) / 19 := by omega
  have e2 : (235 * y - 234) / 19 = 12 * y + (k - 6) / 19 - 12 := by omega
  rw [e1, e2]
  rw [hk] at h
  clear e1 e2 hk
  by_cases hl : isHebrewLeapYear y = true
  · simp only [hl, if_true]
    have := h.1 hl
    have : (k + 1) / 19 = (k - 6) / 19 + 1 := by omega
    omega
  · have hf : isHebrewLeapYear y = false := by simpa using hl
    have : ¬ (k - 6) % 19 ≥ 12 := fun x => hl (h.2 x)
    have : (k + 1) / 19 = (k - 6) / 19 := by omega
    simp only [hf]
    simp only [Bool.false_eq_true, if_false]
    omega

theorem leap_not_both (y : Int) (h : isHebrewLeapYear y = true) : isHebrewLeapYear (y + 1) = false := by
  have a := (leap_omega y).1 h
  have b := leap_omega (y + 1)
  cases e : isHebrewLeapYear (y + 1)
  · rfl
  · exfalso
    have b' := b.1 e
    obtain ⟨k, hk⟩ : ∃ k, y * 7 = k := ⟨_, rfl⟩
    rw [show (y + 1) * 7 - 6 = k + 1 by omega] at b'
    rw [hk] at a
    clear b hk
    omega

/-- Every value of `hebPost` falls on an allowed weekday. -/
theorem hebPost_weekday (D h : Int) (lp lt : Bool) :
    hebPost D h lp lt % 7 ∈ [0, 2, 3, 5] := by
  simp only [List.mem_cons, List.not_mem_nil, or_false]
  unfold hebPost
  split
  · omega
  split
  · omega
  split
  · split <;> omega
  · split <;> omega

/-- What `hebPost` adds to the day, as a function of the weekday. -/
def hebAdd (r h : Int) (lp lt : Bool) : Int :=
  if r = 3 ∧ h ≥ 9924 ∧ lt = false then 2
  else if r = 2 ∧ h ≥ 16789 ∧ lp = true then 1
  else if h > 19440 then
    if (r + 1) % 7 = 1 ∨ (r + 1) % 7 = 4 ∨ (r + 1) % 7 = 6 then 2 else 1
  else if r = 1 ∨ r = 4 ∨ r = 6 then 1 else 0

theorem hebPost_add (D h : Int) (lp lt : Bool) : hebPost D h lp lt = D + hebAdd (D % 7) h lp lt := by
  unfold hebPost hebAdd
  have : (D % 7 + 1) % 7 = (D + 1) % 7 := by omega
  rw [this]
  split
  · rfl
  split
  · rfl
  split
  · split <;> rfl
  · split
    · rfl
    · omega

theorem mod7_cases (D : Int) : D % 7 = 0 ∨ D % 7 = 1 ∨ D % 7 = 2 ∨ D % 7 = 3 ∨ D % 7 = 4 ∨ D % 7 = 5 ∨ D % 7 = 6 := by
  omega

theorem add_common (r c h : Int) (lp ln : Bool) (h0 : 0 ≤ h) (h1 : h < 25920)
    (hr : r = 0 ∨ r = 1 ∨ r = 2 ∨ r = 3 ∨ r = 4 ∨ r = 5 ∨ r = 6)
    (hc : (c = 0 ∧ h + 9516 < 25920) ∨ (c = 1 ∧ 25920 ≤ h + 9516)) :
    let len := 354 + c + hebAdd ((r + 4 + c) % 7) (h + 9516 - 25920 * c) false ln - hebAdd r h lp false
    len = 353 ∨ len = 354 ∨ len = 355 ∨ (len = 352 ∧ r = 3 ∧ h = 9924) := by
  rcases hc with ⟨rfl, hc⟩ | ⟨rfl, hc⟩ <;> rcases hr with rfl | rfl | rfl | rfl | rfl | rfl | rfl <;>
    cases lp <;> cases ln <;> simp [hebAdd] <;> (repeat' split) <;> omega

theorem add_leap (r c h : Int) (h0 : 0 ≤ h) (h1 : h < 25920)
    (hr : r = 0 ∨ r = 1 ∨ r = 2 ∨ r = 3 ∨ r = 4 ∨ r = 5 ∨ r = 6)
    (hc : (c = 0 ∧ h + 23269 < 25920) ∨ (c = 1 ∧ 25920 ≤ h + 23269)) :
    let len := 383 + c + hebAdd ((r + 5 + c) % 7) (h + 23269 - 25920 * c) true false - hebAdd r h false true
    len = 383 ∨ len = 384 ∨ len = 385 := by
  rcases hc with ⟨rfl, hc⟩ | ⟨rfl, hc⟩ <;> rcases hr with rfl | rfl | rfl | rfl | rfl | rfl | rfl <;>
    simp [hebAdd] <;> (repeat' split) <;> omega

/-- Length of a Hebrew year as coded. -/
theorem hebrew_length (y : Int) :
    let len := hebrewNewYear (y + 1) - hebrewNewYear y
    (isHebrewLeapYear y = true → len = 383 ∨ len = 384 ∨ len = 385) ∧
    (isHebrewLeapYear y = false → len = 353 ∨ len = 354 ∨ len = 355 ∨
      (len = 352 ∧ hebrewMolad y % 181440 = 87684)) := by
  intro len
  have key : len = hebrewNewYear (y + 1) - hebrewNewYear y := rfl
  have e := molad_succ y
  rw [hebrewNewYear_eq, hebrewNewYear_eq, hebPost_add, hebPost_add, e,
    show y + 1 - 1 = y by omega] at key
  have hm := Int.emod_nonneg (hebrewMolad y) (by omega : (25920:Int) ≠ 0)
  have hm' := Int.emod_lt_of_pos (hebrewMolad y) (by omega : (0:Int) < 25920)
  constructor
  · intro hl
    rw [leap_not_both y hl] at key
    have hp : isHebrewLeapYear (y - 1) = false := by
      cases h : isHebrewLeapYear (y - 1)
      · rfl
      · have := leap_not_both _ h
        rw [show y - 1 + 1 = y by omega, hl] at this
        cases this
    rw [hl, hp] at key
    simp only [if_true] at key
    generalize hebrewMolad y = M at *
    by_cases hc : M % 25920 + 23269 < 25920
    · have := add_leap (M / 25920 % 7) 0 (M % 25920) hm hm' (mod7_cases _) (Or.inl ⟨rfl, hc⟩)
      rw [show (M + 13 * 765433) / 25920 = M / 25920 + 383 by omega,
        show (M + 13 * 765433) % 25920 = M % 25920 + 23269 - 25920 * 0 by omega,
        show (M / 25920 + 383) % 7 = (M / 25920 % 7 + 5 + 0) % 7 by omega] at key
      simp only at this
      generalize hebAdd _ _ true false = u at *
      generalize hebAdd _ _ false true = v at *
      omega
    · have := add_leap (M / 25920 % 7) 1 (M % 25920) hm hm' (mod7_cases _) (Or.inr ⟨rfl, by omega⟩)
      rw [show (M + 13 * 765433) / 25920 = M / 25920 + 384 by omega,
        show (M + 13 * 765433) % 25920 = M % 25920 + 23269 - 25920 * 1 by omega,
        show (M / 25920 + 384) % 7 = (M / 25920 % 7 + 5 + 1) % 7 by omega] at key
      simp only at this
      generalize hebAdd _ _ true false = u at *
      generalize hebAdd _ _ false true = v at *
      omega
  · intro hl
    rw [hl] at key
    simp only [Bool.false_eq_true, if_false] at key
    generalize isHebrewLeapYear (y + 1) = ln at *
    generalize isHebrewLeapYear (y - 1) = lp at *
    generalize hebrewMolad y = M at *
    by_cases hc : M % 25920 + 9516 < 25920
    · have := add_common (M / 25920 % 7) 0 (M % 25920) lp ln hm hm' (mod7_cases _) (Or.inl ⟨rfl, hc⟩)
      rw [show (M + 12 * 765433) / 25920 = M / 25920 + 354 by omega,
        show (M + 12 * 765433) % 25920 = M % 25920 + 9516 - 25920 * 0 by omega,
        show (M / 25920 + 354) % 7 = (M / 25920 % 7 + 4 + 0) % 7 by omega] at key
      simp only at this
      generalize hebAdd _ _ false ln = u at *
      generalize hebAdd _ _ lp false = v at *
      omega
    · have := add_common (M / 25920 % 7) 1 (M % 25920) lp ln hm hm' (mod7_cases _) (Or.inr ⟨rfl, by omega⟩)
      rw [show (M + 12 * 765433) / 25920 = M / 25920 + 355 by omega,
        show (M + 12 * 765433) % 25920 = M % 25920 + 9516 - 25920 * 1 by omega,
        show (M / 25920 + 355) % 7 = (M / 25920 % 7 + 4 + 1) % 7 by omega] at key
      simp only at this
      generalize hebAdd _ _ false ln = u at *
      generalize hebAdd _ _ lp false = v at *
      omega

theorem year_cases (y : Int) : ∃ c : Int,
    (y = 19 * c + 0 ∧ (235 * y - 234) / 19 = 235 * c - 13) ∨
    (y = 19 * c + 1 ∧ (235 * y - 234) / 19 = 235 * c + 0) ∨
    (y = 19 * c + 2 ∧ (235 * y - 234) / 19 = 235 * c + 12) ∨
    (y = 19 * c + 3 ∧ (235 * y - 234) / 19 = 235 * c + 24) ∨
    (y = 19 * c + 4 ∧ (235 * y - 234) / 19 = 235 * c + 37) ∨
    (y = 19 * c + 5 ∧ (235 * y - 234) / 19 = 235 * c + 49) ∨
    (y = 19 * c + 6 ∧ (235 * y - 234) / 19 = 235 * c + 61) ∨
    (y = 19 * c + 7 ∧ (235 * y - 234) / 19 = 235 * c + 74) ∨
    (y = 19 * c + 8 ∧ (235 * y - 234) / 19 = 235 * c + 86) ∨
    (y = 19 * c + 9 ∧ (235 * y - 234) / 19 = 235 * c + 99) ∨
    (y = 19 * c + 10 ∧ (235 * y - 234) / 19 = 235 * c + 111) ∨
    (y = 19 * c + 11 ∧ (235 * y - 234) / 19 = 235 * c + 123) ∨
    (y = 19 * c + 12 ∧ (235 * y - 234) / 19 = 235 * c + 136) ∨
    (y = 19 * c + 13 ∧ (235 * y - 234) / 19 = 235 * c + 148) ∨
    (y = 19 * c + 14 ∧ (235 * y - 234) / 19 = 235 * c + 160) ∨
    (y = 19 * c + 15 ∧ (235 * y - 234) / 19 = 235 * c + 173) ∨
    (y = 19 * c + 16 ∧ (235 * y - 234) / 19 = 235 * c + 185) ∨
    (y = 19 * c + 17 ∧ (235 * y - 234) / 19 = 235 * c + 197) ∨
    (y = 19 * c + 18 ∧ (235 * y - 234) / 19 = 235 * c + 210) := by
  refine ⟨y / 19, ?_⟩
  have h : y % 19 = 0 ∨ y % 19 = 1 ∨ y % 19 = 2 ∨ y % 19 = 3 ∨ y % 19 = 4 ∨ y % 19 = 5 ∨
    y % 19 = 6 ∨ y % 19 = 7 ∨ y % 19 = 8 ∨ y % 19 = 9 ∨ y % 19 = 10 ∨ y % 19 = 11 ∨ y % 19 = 12 ∨
    y % 19 = 13 ∨ y % 19 = 14 ∨ y % 19 = 15 ∨ y % 19 = 16 ∨ y % 19 = 17 ∨ y % 19 = 18 := by omega
  have e : y = 19 * (y / 19) + y % 19 := by omega
  generalize y / 19 = c at *
  rcases h with h | h | h | h | h | h | h | h | h | h | h | h | h | h | h | h | h | h | h
  · exact Or.inl ⟨by omega, by omega⟩
  · exact Or.inr <| Or.inl ⟨by omega, by omega⟩
  · exact Or.inr <| Or.inr <| Or.inl ⟨by omega, by omega⟩
  · exact Or.inr <| Or.inr <| Or.inr <| Or.inl ⟨by omega, by omega⟩
  · exact Or.inr <| Or.inr <| Or.inr <| Or.inr <| Or.inl ⟨by omega, by omega⟩
  · exact Or.inr <| Or.inr <| Or.inr <| Or.inr <| Or.inr <| Or.inl ⟨by omega, by omega⟩
  · exact Or.inr <| Or.inr <| Or.inr <| Or.inr <| Or.inr <| Or.inr <| Or.inl ⟨by omega, by omega⟩
  · exact Or.inr <| Or.inr <| Or.inr <| Or.inr <| Or.inr <| Or.inr <| Or.inr <| Or.inl ⟨by omega, by omega⟩
  · exact Or.inr <| Or.inr <| Or.inr <| Or.inr <| Or.inr <| Or.inr <| Or.inr <| Or.inr <| Or.inl ⟨by omega, by omega⟩
  · exact Or.inr <| Or.inr <| Or.inr <| Or.inr <| Or.inr <| Or.inr <| Or.inr <| Or.inr <| Or.inr <| Or.inl ⟨by omega, by omega⟩
  · exact Or.inr <| Or.inr <| Or.inr <| Or.inr <| Or.inr <| Or.inr <| Or.inr <| Or.inr <| Or.inr <| Or.inr <| Or.inl ⟨by omega, by omega⟩
  · exact Or.inr <| Or.inr <| Or.inr <| Or.inr <| Or.inr <| Or.inr <| Or.inr <| Or.inr <| Or.inr <| Or.inr <| Or.inr <| Or.inl ⟨by omega, by omega⟩
  · exact Or.inr <| Or.inr <| Or.inr <| Or.inr <| Or.inr <| Or.inr <| Or.inr <| Or.inr <| Or.inr <| Or.inr <| Or.inr <| Or.inr <| Or.inl ⟨by omega, by omega⟩
  · exact Or.inr <| Or.inr <| Or.inr <| Or.inr <| Or.inr <| Or.inr <| Or.inr <| Or.inr <| Or.inr <| Or.inr <| Or.inr <| Or.inr <| Or.inr <| Or.inl ⟨by omega, by omega⟩
  · exact Or.inr <| Or.inr <| Or.inr <| Or.inr <| Or.inr <| Or.inr <| Or.inr <| Or.inr <| Or.inr <| Or.inr <| Or.inr <| Or.inr <| Or.inr <| Or.inr <| Or.inl ⟨by omega, by omega⟩
  · exact Or.inr <| Or.inr <| Or.inr <| Or.inr <| Or.inr <| Or.inr <| Or.inr <| Or.inr <| Or.inr <| Or.inr <| Or.inr <| Or.inr <| Or.inr <| Or.inr <| Or.inr <| Or.inl ⟨by omega, by omega⟩
  · exact Or.inr <| Or.inr <| Or.inr <| Or.inr <| Or.inr <| Or.inr <| Or.inr <| Or.inr <| Or.inr <| Or.inr <| Or.inr <| Or.inr <| Or.inr <| Or.inr <| Or.inr <| Or.inr <| Or.inl ⟨by omega, by omega⟩
  · exact Or.inr <| Or.inr <| Or.inr <| Or.inr <| Or.inr <| Or.inr <| Or.inr <| Or.inr <| Or.inr <| Or.inr <| Or.inr <| Or.inr <| Or.inr <| Or.inr <| Or.inr <| Or.inr <| Or.inr <| Or.inl ⟨by omega, by omega⟩
  · exact Or.inr <| Or.inr <| Or.inr <| Or.inr <| Or.inr <| Or.inr <| Or.inr <| Or.inr <| Or.inr <| Or.inr <| Or.inr <| Or.inr <| Or.inr <| Or.inr <| Or.inr <| Or.inr <| Or.inr <| Or.inr <| ⟨by omega, by omega⟩

/-- The years of irregular length, exactly. -/
theorem irregular_iff (y : Int) : (hebrewMolad y % 181440 = 87684 ∧ isHebrewLeapYear y = false) ↔
    y % 689472 ∈ [193151, 383856, 574561] := by
  rw [show (isHebrewLeapYear y = false) = ¬ (isHebrewLeapYear y = true) by simp, leap_omega]
  have hL : hebrewMolad y % 181440 = 87684 ↔ ((235 * y - 234) / 19) % 181440 = 30240 := by
    unfold hebrewMolad
    generalize (235 * y - 234) / 19 = L
    omega
  rw [hL]
  simp only [List.mem_cons, List.not_mem_nil, or_false]
  obtain ⟨c, hc⟩ := year_cases y
  clear hL
  rcases hc with ⟨rfl, e⟩ | ⟨rfl, e⟩ | ⟨rfl, e⟩ | ⟨rfl, e⟩ | ⟨rfl, e⟩ | ⟨rfl, e⟩ | ⟨rfl, e⟩ | ⟨rfl, e⟩ | ⟨rfl, e⟩ | ⟨rfl, e⟩ | ⟨rfl, e⟩ | ⟨rfl, e⟩ | ⟨rfl, e⟩ | ⟨rfl, e⟩ | ⟨rfl, e⟩ | ⟨rfl, e⟩ | ⟨rfl, e⟩ | ⟨rfl, e⟩ | ⟨rfl, e⟩ <;> rw [e] <;> clear e
  · constructor
    · rintro ⟨h, h'⟩
      exfalso
      clear h'
      omega
    · intro h
      exfalso
      have h2 : (19 * c + 0) % 689472 % 19 = 0 := by omega
      rcases h with h | h | h <;> rw [h] at h2 <;> omega
  · have h1 : (235 * c + 0) % 181440 = 30240 ↔ c % 36288 = 30240 := by omega
    rw [h1]
    constructor
    · rintro ⟨h, _⟩
      have : (19 * c + 1) % 689472 = 574561 := by omega
      omega
    · intro h
      have : c % 36288 = 30240 := by
        have h2 : (19 * c + 1) % 689472 % 19 = 1 := by omega
        rcases h with h | h | h <;> omega
      refine ⟨this, ?_⟩
      omega
  · constructor
    · rintro ⟨h, h'⟩
      exfalso
      clear h'
      omega
    · intro h
      exfalso
      have h2 : (19 * c + 2) % 689472 % 19 = 2 := by omega
      rcases h with h | h | h <;> rw [h] at h2 <;> omega
  · constructor
    · rintro ⟨h, h'⟩
      exfalso
      clear h'
      omega
    · intro h
      exfalso
      have h2 : (19 * c + 3) % 689472 % 19 = 3 := by omega
      rcases h with h | h | h <;> rw [h] at h2 <;> omega
  · constructor
    · rintro ⟨h, h'⟩
      exfalso
      clear h'
      omega
    · intro h
      exfalso
      have h2 : (19 * c + 4) % 689472 % 19 = 4 := by omega
      rcases h with h | h | h <;> rw [h] at h2 <;> omega
  · constructor
    · rintro ⟨h, h'⟩
      exfalso
      clear h'
      omega
    · intro h
      exfalso
      have h2 : (19 * c + 5) % 689472 % 19 = 5 := by omega
      rcases h with h | h | h <;> rw [h] at h2 <;> omega
  · constructor
    · rintro ⟨h, h'⟩
      exfalso
      clear h'
      omega
    · intro h
      exfalso
      have h2 : (19 * c + 6) % 689472 % 19 = 6 := by omega
      rcases h with h | h | h <;> rw [h] at h2 <;> omega
  · constructor
    · rintro ⟨h, h'⟩
      exfalso
      clear h'
      omega
    · intro h
      exfalso
      have h2 : (19 * c + 7) % 689472 % 19 = 7 := by omega
      rcases h with h | h | h <;> rw [h] at h2 <;> omega
  · constructor
    · rintro ⟨h, h'⟩
      exfalso
      clear h'
      omega
    · intro h
      exfalso
      have h2 : (19 * c + 8) % 689472 % 19 = 8 := by omega
      rcases h with h | h | h <;> rw [h] at h2 <;> omega
  · constructor
    · rintro ⟨h, h'⟩
      exfalso
      clear h'
      omega
    · intro h
      exfalso
      have h2 : (19 * c + 9) % 689472 % 19 = 9 := by omega
      rcases h with h | h | h <;> rw [h] at h2 <;> omega
  · constructor
    · rintro ⟨h, h'⟩
      exfalso
      clear h'
      omega
    · intro h
      exfalso
      have h2 : (19 * c + 10) % 689472 % 19 = 10 := by omega
      rcases h with h | h | h <;> rw [h] at h2 <;> omega
  · constructor
    · rintro ⟨h, h'⟩
      exfalso
      clear h'
      omega
    · intro h
      exfalso
      have h2 : (19 * c + 11) % 689472 % 19 = 11 := by omega
      rcases h with h | h | h <;> rw [h] at h2 <;> omega
  · constructor
    · rintro ⟨h, h'⟩
      exfalso
      clear h'
      omega
    · intro h
      exfalso
      have h2 : (19 * c + 12) % 689472 % 19 = 12 := by omega
      rcases h with h | h | h <;> rw [h] at h2 <;> omega
  · constructor
    · rintro ⟨h, h'⟩
      exfalso
      clear h'
      omega
    · intro h
      exfalso
      have h2 : (19 * c + 13) % 689472 % 19 = 13 := by omega
      rcases h with h | h | h <;> rw [h] at h2 <;> omega
  · constructor
    · rintro ⟨h, h'⟩
      exfalso
      clear h
      omega
    · intro h
      exfalso
      have h2 : (19 * c + 14) % 689472 % 19 = 14 := by omega
      rcases h with h | h | h <;> rw [h] at h2 <;> omega
  · constructor
    · rintro ⟨h, h'⟩
      exfalso
      clear h'
      omega
    · intro h
      exfalso
      have h2 : (19 * c + 15) % 689472 % 19 = 15 := by omega
      rcases h with h | h | h <;> rw [h] at h2 <;> omega
  · have h1 : (235 * c + 185) % 181440 = 30240 ↔ c % 36288 = 10165 := by omega
    rw [h1]
    constructor
    · rintro ⟨h, _⟩
      have : (19 * c + 16) % 689472 = 193151 := by omega
      omega
    · intro h
      have : c % 36288 = 10165 := by
        have h2 : (19 * c + 16) % 689472 % 19 = 16 := by omega
        rcases h with h | h | h <;> omega
      refine ⟨this, ?_⟩
      omega
  · constructor
    · rintro ⟨h, h'⟩
      exfalso
      clear h'
      omega
    · intro h
      exfalso
      have h2 : (19 * c + 17) % 689472 % 19 = 17 := by omega
      rcases h with h | h | h <;> rw [h] at h2 <;> omega
  · have h1 : (235 * c + 210) % 181440 = 30240 ↔ c % 36288 = 20202 := by omega
    rw [h1]
    constructor
    · rintro ⟨h, _⟩
      have : (19 * c + 18) % 689472 = 383856 := by omega
      omega
    · intro h
      have : c % 36288 = 20202 := by
        have h2 : (19 * c + 18) % 689472 % 19 = 18 := by omega
        rcases h with h | h | h <;> omega
      refine ⟨this, ?_⟩
      omega

theorem irregular_length (y : Int) (h : y % 689472 ∈ [193151, 383856, 574561]) :
    hebrewNewYear (y + 1) - hebrewNewYear y = 352 := by
  obtain ⟨h1, h2⟩ := (irregular_iff y).2 h
  have e := molad_succ y
  rw [hebrewNewYear_eq, hebrewNewYear_eq, e, show y + 1 - 1 = y by omega, h2]
  simp only [Bool.false_eq_true, if_false]
  generalize isHebrewLeapYear (y + 1) = ln at *
  generalize isHebrewLeapYear (y - 1) = lp at *
  generalize hebrewMolad y = M at *
  rw [show (M + 12 * 765433) / 25920 = M / 25920 + 354 by omega,
    show (M + 12 * 765433) % 25920 = 19440 by omega, show M % 25920 = 9924 by omega]
  have h3 : M / 25920 % 7 = 3 := by omega
  have h0 : (M / 25920 + 354) % 7 = 0 := by omega
  rw [hebPost_add, hebPost_add, h3, h0]
  have a : hebAdd 3 9924 lp false = 2 := by simp [hebAdd]
  have b : hebAdd 0 19440 false ln = 0 := by simp [hebAdd]
  rw [a, b]
  omega

theorem hebrew_months_sum (y : Int) :
    (hebrewYearData y).months.sum =
      if y % 689472 ∈ [193151, 383856, 574561] then 354
      else hebrewNewYear (y + 1) - hebrewNewYear y := by
  have hl := hebrew_length y
  have hi := irregular_length y
  have hii := irregular_iff y
  simp only [hebrewYearData]
  simp only at hl
  generalize hebrewNewYear (y + 1) - hebrewNewYear y = len at *
  by_cases hm : y % 689472 ∈ [193151, 383856, 574561]
  · have h352 := hi hm
    have := (hii.2 hm).2
    subst h352
    simp [this, hm]
  · simp only [hm, if_false]
    cases e : isHebrewLeapYear y
    · rcases hl.2 e with h | h | h | ⟨_, h⟩
      · subst h; simp
      · subst h; simp
      · subst h; simp
      · exact absurd (hii.1 ⟨h, e⟩) hm
    · rcases hl.1 e with h | h | h <;> subst h <;> simp

theorem hebrew_months_nonneg (y : Int) : ∀ m ∈ (hebrewYearData y).months, 0 ≤ m := by
  intro m hm
  unfold hebrewYearData at hm
  simp only [List.mem_cons, List.not_mem_nil, or_false] at hm
  rcases hm with h | h | h | h | h | h | h | h | h | h | h | h | h <;> subst h <;> (try split) <;> omega

theorem hebrew_coversAll :
    CoversAll (fun y => getCalendarData y HEBREW) hebrewYearData := by
  have hd : ∀ y, getCalendarData y HEBREW = some (hebrewYearData y) := by
    intro y; simp [getCalendarData, GREGORIAN, JULIAN, HEBREW]
  have hs : ∀ y, (hebrewYearData y).start = hebrewNewYear y := fun y => rfl
  refine ⟨hd, ?_, ?_⟩
  · intro y
    rw [hs, hs]
    have hl := hebrew_length y
    cases e : isHebrewLeapYear y
    · rcases hl.2 e with h | h | h | ⟨h, _⟩ <;> omega
    · rcases hl.1 e with h | h | h <;> omega
  · intro y
    unfold YearData.stop
    rw [hs, hs, hebrew_months_sum]
    split
    · rename_i h; have := irregular_length y h; omega
    · omega

/-- The rule as coded and the traditional rule differ only when the molad falls exactly at the
    eighteenth hour. -/
theorem hebrewNewYear_spec (y : Int) (h : hebrewMolad y % 25920 ≠ 18 * 1080) :
    hebrewNewYear y = hebrewNewYearDay y + HEBREW_CALENDAR_EPOCH := by
  rw [hebrewNewYear_eq]
  unfold hebrewNewYearDay hebPost
  have l1 := leap_iff y
  have l2 := leap_iff (y - 1)
  congr 1
  simp only [← l1, ← l2, List.mem_cons, List.not_mem_nil, or_false]
  generalize hebrewMolad y / 25920 = D
  generalize hebrewMolad y % 25920 = p at *
  cases isHebrewLeapYear y <;> cases isHebrewLeapYear (y - 1) <;> simp <;> (repeat' split) <;> omega

/-- ... and that never happens between years -3839 and 75794. -/
theorem molad_not_noon (y : Int) (h1 : -3839 ≤ y) (h2 : y ≤ 75794) :
    hebrewMolad y % 25920 ≠ 18 * 1080 := by
  have hL : hebrewMolad y % 25920 = 18 * 1080 ↔ ((235 * y - 234) / 19) % 25920 = 4332 := by
    unfold hebrewMolad
    generalize (235 * y - 234) / 19 = L
    omega
  rw [Ne, hL]
  obtain ⟨c, hc⟩ := year_cases y
  clear hL
  rcases hc with ⟨rfl, e⟩ | ⟨rfl, e⟩ | ⟨rfl, e⟩ | ⟨rfl, e⟩ | ⟨rfl, e⟩ | ⟨rfl, e⟩ | ⟨rfl, e⟩ | ⟨rfl, e⟩ | ⟨rfl, e⟩ | ⟨rfl, e⟩ | ⟨rfl, e⟩ | ⟨rfl, e⟩ | ⟨rfl, e⟩ | ⟨rfl, e⟩ | ⟨rfl, e⟩ | ⟨rfl, e⟩ | ⟨rfl, e⟩ | ⟨rfl, e⟩ | ⟨rfl, e⟩ <;> rw [e] <;> clear e <;> omega

end Verif.Date
