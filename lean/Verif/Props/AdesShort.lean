import Verif.Props.AdesLines
import Verif.Props.AdesValues

/-!
# What every element leaves alone, and an invariant of all contexts (C86)
-/

namespace Verif.Props

open Verif Verif.Ades Verif.AdesObs

set_option linter.unusedSimpArgs false

/-- The texts are as short as the arrays they are stored in. -/
structure Short (c : Ctx) : Prop where
  rmsRa : c.rmsRa.length < 26
  rmsDec : c.rmsDec.length < 26
  corr : c.corr.length < 26
  rmsMag : c.rmsMag.length < 26
  rmsTime : c.rmsTime.length < 26
  fullRa : c.fullRa.length < 26
  fullDec : c.fullDec.length < 26
  fullMag : c.fullMag.length < 9
  notes : c.notes.length < 7
  prog : c.prog.length < 3
  trkSub : c.trkSub.length < 14
  obsId : c.obsId.length < 26
  trkId : c.trkId.length < 12
  band : c.band.length < 4

/-- Another nesting, other columns, other flags. -/
def dress (a : St) (b : Option (List Int)) (p g : Bool) (c : Ctx) : Ctx := { c with st := a, psv := b, passed := p, getting := g }

theorem dress_line (a : St) (b : Option (List Int)) (p g : Bool) (c : Ctx) : (dress a b p g c).line = c.line := rfl

theorem dress_line2 (a : St) (b : Option (List Int)) (p g : Bool) (c : Ctx) : (dress a b p g c).line2 = c.line2 := rfl

theorem obind_ite {α β : Type} {q : Prop} [Decidable q] (x y : Outcome α) (f : α → Outcome β) :
    (if q then x else y).bind f = if q then x.bind f else y.bind f := by split <;> rfl

theorem obind_assoc {α β γ : Type} (x : Outcome α) (f : α → Outcome β) (g : β → Outcome γ) : (x.bind f).bind g = x.bind fun a => (f a).bind g := by
  cases x <;> rfl

theorem obind_named {α β : Type} (s : List Nat) (f : List Nat → Outcome α) (g : α → Outcome β) : (named s f).bind g = named s fun n => (f n).bind g := by
  unfold named; exact obind_ite _ _ _

theorem dress_idSet (a : St) (b : Option (List Int)) (p g : Bool) (c : Ctx) : (dress a b p g c).idSet = c.idSet := rfl

theorem dress_ignore (a : St) (b : Option (List Int)) (p g : Bool) (c : Ctx) : (dress a b p g c).ignoreArtsat = c.ignoreArtsat := rfl

theorem satellite_only {c : Ctx} {k : Nat} {n : List Nat} {r : Ctx × Bool} (h : satellite c k n = .ok r) : ∃ l, r.1 = { c with line2 := l } := by
  unfold satellite at h
  extract_lets a b d n1 n2 bare n3 n4 l2 at h
  split at h
  · cases h
  · split at h
    · cases h
    · split at h
      · cases h
      · split at h
        · cases h
        · split at h
          · cases h
          · split at h
            · simp only [Outcome.ok.injEq] at h
              rw [← h]
              exact ⟨_, rfl⟩
            · simp only [Outcome.ok.injEq] at h
              rw [← h]
              exact ⟨_, rfl⟩

theorem rover_only {c d : Ctx} {k : Nat} {n : List Nat} (h : rover c k n = .ok d) : ∃ l, d = { c with line2 := l } := by
  have key : ∀ {m : Card} {a : Nat} {s : List Nat}, ((blitIn m a s).bind fun l => Outcome.ok { c with line2 := l }) = .ok d → ∃ l, d = { c with line2 := l } := by
    intro m a s h
    obtain ⟨l, -, h⟩ := bind_ok h
    simp only [Outcome.ok.injEq] at h
    exact ⟨l, h.symm⟩
  unfold rover at h
  extract_lets len signed line2 name1 at h
  split at h
  · split at h
    · cases h
    · split at h
      · cases h
      · exact key h
  · split at h
    · split at h
      · cases h
      · split at h
        · cases h
        · exact key h
    · exact key h

theorem satellite_dress (a : St) (b : Option (List Int)) (p g : Bool) (c : Ctx) (k : Nat) (n : List Nat) :
    satellite (dress a b p g c) k n = (satellite c k n).bind fun r => .ok (dress a b p g r.1, r.2) := by
  unfold satellite
  extract_lets a1 b1 d n1 n2 bare n3 n4 l2 b1' l2' b2 l3
  rw [obind_ite, obind_ite]
  refine if_congr Iff.rfl rfl (if_congr Iff.rfl rfl ?_)
  cases firstPoint n3 with
  | none => rfl
  | some q =>
    simp only [obind_ite]
    rfl

theorem rover_dress (a : St) (b : Option (List Int)) (p g : Bool) (c : Ctx) (k : Nat) (n : List Nat) :
    rover (dress a b p g c) k n = (rover c k n).bind fun r => .ok (dress a b p g r) := by
  unfold rover
  extract_lets len signed line2 name1 line2'
  rw [obind_ite, obind_ite]
  refine if_congr Iff.rfl ?_ (if_congr Iff.rfl ?_ ?_)
  · cases firstPoint n with
    | none => rfl
    | some q => simp only [obind_ite, obind_assoc]; rfl
  · cases firstPoint name1 with
    | none => rfl
    | some q => simp only [obind_ite, obind_assoc]; rfl
  · rw [obind_assoc]; rfl

/-- The texts stay short whatever element is processed. -/
theorem processTag_short {e : Ext} {c : Ctx} {t : Int} {s more : List Nat} {r : Ctx × List Nat × Int}
    (h : processTag e c t s more = .ok r) (hs : Short c) : Short r.1 := by
  unfold processTag at h
  extract_lets quiet c19 idx c94 l136 c136 c136' c56 c16 c140 c50 at h
  by_cases h1 : t = 53
  · rw [if_pos h1] at h
    have := named_ok h
    simp only [Outcome.ok.injEq] at this
    rw [← this]
    exact hs
  rw [if_neg h1] at h
  by_cases h2 : t = 55 ∨ t = 47 ∨ t = 46
  · rw [if_pos h2] at h
    obtain ⟨o, -, this⟩ := bind_ok h
    simp only [Outcome.ok.injEq] at this
    rw [← this]
    exact hs
  rw [if_neg h2] at h
  by_cases h3 : t = 132
  · rw [if_pos h3] at h
    have := quiet_ok h
    simp only [Outcome.ok.injEq] at this
    rw [← this]
    exact { hs with }
  rw [if_neg h3] at h
  by_cases h4 : t = 65
  · rw [if_pos h4] at h
    have := quiet_ok h
    unfold obsTime at this
    extract_lets future t at this
    obtain ⟨l, -, this⟩ := bind_ok this
    split at this
    · obtain ⟨x, -, this⟩ := bind_ok (named_ok this)
      simp only [Outcome.ok.injEq] at this
      rw [← this]
      exact { hs with }
    · simp only [Outcome.ok.injEq] at this
      rw [← this]
      exact { hs with }
  rw [if_neg h4] at h
  by_cases h5 : t = 19
  · rw [if_pos h5] at h
    obtain ⟨hs', this⟩ := check_ok (quiet_ok h)
    simp only [Outcome.ok.injEq] at this
    rw [← this]
    have hs' := of_decide_eq_true hs'
    exact { hs with band := hs'.2 }
  rw [if_neg h5] at h
  by_cases h6 : t = 52
  · rw [if_pos h6] at h
    have := quiet_ok h
    simp only [Outcome.ok.injEq] at this
    rw [← this]
    split
    · exact { hs with }
    · exact hs
  rw [if_neg h6] at h
  by_cases h7 : t = 34
  · rw [if_pos h7] at h
    have := quiet_ok h
    simp only [Outcome.ok.injEq] at this
    rw [← this]
    exact { hs with }
  rw [if_neg h7] at h
  by_cases h8 : t = 37
  · rw [if_pos h8] at h
    have := quiet_ok h
    simp only [Outcome.ok.injEq] at this
    rw [← this]
    split
    · exact { hs with }
    · exact hs
  rw [if_neg h8] at h
  by_cases h9 : t = 101
  · rw [if_pos h9] at h
    have := quiet_ok h
    simp only [Outcome.ok.injEq] at this
    rw [← this]
    split
    · exact { hs with }
    · exact hs
  rw [if_neg h9] at h
  by_cases h10 : t = 94
  · rw [if_pos h10] at h
    obtain ⟨hs', this⟩ := check_ok (quiet_ok h)
    simp only [Outcome.ok.injEq] at this
    rw [← this]
    have hs' := of_decide_eq_true hs'
    have hc : Short c94 := by
      simp only [c94]
      split
      · exact { hs with }
      · exact hs
    exact { hc with prog := hs' }
  rw [if_neg h10] at h
  by_cases h11 : t = 136
  · rw [if_pos h11] at h
    have := named_ok (quiet_ok h)
    split at this
    · simp only [Outcome.ok.injEq] at this
      rw [← this]
      exact { hs with }
    · split at this
      · simp only [Outcome.ok.injEq] at this
        rw [← this]
        exact { hs with }
      · split at this
        · simp only [Outcome.ok.injEq] at this
          rw [← this]
          exact { hs with }
        · cases this
  rw [if_neg h11] at h
  by_cases h12 : t = 28
  · rw [if_pos h12] at h
    have := named_ok (quiet_ok h)
    simp only [Outcome.ok.injEq] at this
    rw [← this]
    exact { hs with }
  rw [if_neg h12] at h
  by_cases h13 : t = 143 ∨ t = 144 ∨ t = 145
  · rw [if_pos h13] at h
    obtain ⟨-, this⟩ := check_ok (quiet_ok h)
    have := named_ok this
    simp only [Outcome.ok.injEq] at this
    rw [← this]
    exact { hs with }
  rw [if_neg h13] at h
  by_cases h14 : t = 82 ∨ t = 83 ∨ t = 84
  · rw [if_pos h14] at h
    obtain ⟨-, this⟩ := check_ok h
    have := named_ok this
    split at this
    · obtain ⟨x, hx, this⟩ := bind_ok this
      simp only [Outcome.ok.injEq] at this
      rw [← this]
      obtain ⟨l, hl⟩ := satellite_only hx
      simp only [hl]
      exact { hs with }
    · obtain ⟨l, hl⟩ := rover_only (quiet_ok this)
      rw [hl]
      exact { hs with }
  rw [if_neg h14] at h
  by_cases h15 : t = 96
  · rw [if_pos h15] at h
    have := quiet_ok h
    unfold placeRa at this
    extract_lets s' at this
    obtain ⟨x, hx, this⟩ := bind_ok this
    split at this
    · split at this
      · rename_i h26
        simp only [Outcome.ok.injEq] at this
        rw [← this]
        exact { hs with fullRa := h26 }
      · cases this
    · simp only [Outcome.ok.injEq] at this
      rw [← this]
      exact { hs with }
  rw [if_neg h15] at h
  by_cases h16 : t = 29
  · rw [if_pos h16] at h
    have := quiet_ok h
    unfold placeDec at this
    extract_lets sg si s' at this
    obtain ⟨x, hx, this⟩ := bind_ok this
    extract_lets line at this
    split at this
    · split at this
      · rename_i h26
        simp only [Outcome.ok.injEq] at this
        rw [← this]
        exact { hs with fullDec := h26 }
      · cases this
    · simp only [Outcome.ok.injEq] at this
      rw [← this]
      exact { hs with }
  rw [if_neg h16] at h
  by_cases h17 : t = 17
  · rw [if_pos h17] at h
    obtain ⟨-, this⟩ := check_ok (quiet_ok h)
    obtain ⟨x, -, this⟩ := bind_ok this
    obtain ⟨-, this⟩ := check_ok this
    simp only [Outcome.ok.injEq] at this
    rw [← this]
    exact { hs with }
  rw [if_neg h17] at h
  by_cases h18 : t = 116
  · rw [if_pos h18] at h
    obtain ⟨hs', this⟩ := check_ok (quiet_ok h)
    simp only [Outcome.ok.injEq] at this
    rw [← this]
    have hs' := of_decide_eq_true hs'
    exact { hs with rmsRa := hs' }
  rw [if_neg h18] at h
  by_cases h19 : t = 56
  · rw [if_pos h19] at h
    obtain ⟨hs', this⟩ := check_ok (quiet_ok h)
    simp only [Outcome.ok.injEq] at this
    rw [← this]
    have hs' := of_decide_eq_true hs'
    exact { hs with notes := hs' }
  rw [if_neg h19] at h
  by_cases h20 : t = 109
  · rw [if_pos h20] at h
    obtain ⟨hs', this⟩ := check_ok (quiet_ok h)
    simp only [Outcome.ok.injEq] at this
    rw [← this]
    have hs' := of_decide_eq_true hs'
    exact { hs with rmsDec := hs' }
  rw [if_neg h20] at h
  by_cases h21 : t = 108
  · rw [if_pos h21] at h
    obtain ⟨hs', this⟩ := check_ok (quiet_ok h)
    simp only [Outcome.ok.injEq] at this
    rw [← this]
    have hs' := of_decide_eq_true hs'
    exact { hs with corr := hs' }
  rw [if_neg h21] at h
  by_cases h22 : t = 117
  · rw [if_pos h22] at h
    obtain ⟨hs', this⟩ := check_ok (quiet_ok h)
    simp only [Outcome.ok.injEq] at this
    rw [← this]
    have hs' := of_decide_eq_true hs'
    exact { hs with rmsTime := hs' }
  rw [if_neg h22] at h
  by_cases h23 : t = 114
  · rw [if_pos h23] at h
    obtain ⟨hs', this⟩ := check_ok (quiet_ok h)
    simp only [Outcome.ok.injEq] at this
    rw [← this]
    have hs' := of_decide_eq_true hs'
    exact { hs with rmsMag := hs' }
  rw [if_neg h23] at h
  by_cases h24 : t = 95 ∧ c.idSet = 75
  · rw [if_pos h24] at h
    have := quiet_ok h
    simp only [Outcome.ok.injEq] at this
    rw [← this]
    exact hs
  rw [if_neg h24] at h
  by_cases h25 : t = 95 ∨ t = 75
  · rw [if_pos h25] at h
    have := quiet_ok h
    unfold setDesig at this
    split at this
    · cases this
    · obtain ⟨d, -, this⟩ := bind_ok this
      simp only [Outcome.ok.injEq] at this
      rw [← this]
      exact { hs with }
  rw [if_neg h25] at h
  by_cases h26 : t = 16
  · rw [if_pos h26] at h
    obtain ⟨hs', this⟩ := check_ok (quiet_ok h)
    simp only [Outcome.ok.injEq] at this
    rw [← this]
    split
    · exact { hs with }
    · exact hs
  rw [if_neg h26] at h
  by_cases h27 : t = 140
  · rw [if_pos h27] at h
    obtain ⟨hs', this⟩ := check_ok (quiet_ok h)
    simp only [Outcome.ok.injEq] at this
    rw [← this]
    have hs' := of_decide_eq_true hs'
    split
    · exact { hs with trkSub := by simp only; omega }
    · exact { hs with trkSub := by simp only; omega }
  rw [if_neg h27] at h
  by_cases h28 : t = 138
  · rw [if_pos h28] at h
    obtain ⟨hs', this⟩ := check_ok (quiet_ok h)
    simp only [Outcome.ok.injEq] at this
    rw [← this]
    have hs' := of_decide_eq_true hs'
    exact { hs with trkId := hs' }
  rw [if_neg h28] at h
  by_cases h29 : t = 63
  · rw [if_pos h29] at h
    obtain ⟨hs', this⟩ := check_ok (quiet_ok h)
    simp only [Outcome.ok.injEq] at this
    rw [← this]
    have hs' := of_decide_eq_true hs'
    exact { hs with obsId := hs' }
  rw [if_neg h29] at h
  by_cases h30 : t = 50
  · rw [if_pos h30] at h
    have := quiet_ok h
    split at this
    · obtain ⟨m, hm, this⟩ := bind_ok (named_ok this)
      have hm' : m.length < 9 := by
        unfold fit at hm
        split at hm
        · rename_i h9
          simp only [Outcome.ok.injEq] at hm
          rwa [← hm]
        · cases hm
      simp only [Outcome.ok.injEq] at this
      rw [← this]
      exact { hs with fullMag := hm' }
    · simp only [Outcome.ok.injEq] at this
      rw [← this]
      exact { hs with }
  rw [if_neg h30] at h
  by_cases h31 : t = 139
  · rw [if_pos h31] at h
    have := quiet_ok h
    simp only [Outcome.ok.injEq] at this
    rw [← this]
    exact hs
  rw [if_neg h31] at h
  simp only [Outcome.ok.injEq] at h
  rw [← h]
  exact hs

/-- Apart from the names in a header, nesting, columns of a PSV file and the two flags are neither used nor changed. -/
theorem processTag_dress (e : Ext) (a : St) (b : Option (List Int)) (p g : Bool) (c : Ctx) {t : Int} (ht : ¬ (t = 55 ∨ t = 47 ∨ t = 46)) (s more : List Nat) :
    processTag e (dress a b p g c) t s more = (processTag e c t s more).bind fun r => .ok (dress a b p g r.1, r.2) := by
  unfold processTag
  by_cases h1 : t = 53
  · rw [if_pos h1, if_pos h1]
    simp only [obind_ite, obind_assoc, obind_named, satellite_dress, rover_dress, placeRa, placeDec, setDesig]
    rfl
  rw [if_neg h1, if_neg h1]
  rw [if_neg ht, if_neg ht]
  by_cases h3 : t = 132
  · rw [if_pos h3, if_pos h3]
    rfl
  rw [if_neg h3, if_neg h3]
  by_cases h4 : t = 65
  · rw [if_pos h4, if_pos h4]
    simp only [obsTime, obind_ite, obind_assoc, obind_named]; rfl
  rw [if_neg h4, if_neg h4]
  by_cases h5 : t = 19
  · rw [if_pos h5, if_pos h5]
    cases check (0 < s.length ∧ s.length < 4) <;> rfl
  rw [if_neg h5, if_neg h5]
  by_cases h6 : t = 52
  · rw [if_pos h6, if_pos h6]
    split <;> rfl
  rw [if_neg h6, if_neg h6]
  by_cases h7 : t = 34
  · rw [if_pos h7, if_pos h7]
    rfl
  rw [if_neg h7, if_neg h7]
  by_cases h8 : t = 37
  · rw [if_pos h8, if_pos h8]
    split <;> rfl
  rw [if_neg h8, if_neg h8]
  by_cases h9 : t = 101
  · rw [if_pos h9, if_pos h9]
    cases (if s.length < 40 then packMpcReference s else none) <;> rfl
  rw [if_neg h9, if_neg h9]
  by_cases h10 : t = 94
  · rw [if_pos h10, if_pos h10]
    cases check (s.length < 3) <;> (simp only [Outcome.bind]; try split <;> rfl)
  rw [if_neg h10, if_neg h10]
  by_cases h11 : t = 136
  · rw [if_pos h11, if_pos h11]
    simp only [obind_ite, obind_assoc, obind_named, satellite_dress, rover_dress, placeRa, placeDec, setDesig]
    rfl
  rw [if_neg h11, if_neg h11]
  by_cases h12 : t = 28
  · rw [if_pos h12, if_pos h12]
    simp only [obind_ite, obind_assoc, obind_named, satellite_dress, rover_dress, placeRa, placeDec, setDesig]
    rfl
  rw [if_neg h12, if_neg h12]
  by_cases h13 : t = 143 ∨ t = 144 ∨ t = 145
  · rw [if_pos h13, if_pos h13]
    simp only [obind_ite, obind_assoc, obind_named, satellite_dress, rover_dress, placeRa, placeDec, setDesig]
    rfl
  rw [if_neg h13, if_neg h13]
  by_cases h14 : t = 82 ∨ t = 83 ∨ t = 84
  · rw [if_pos h14, if_pos h14]
    simp only [obind_ite, obind_assoc, obind_named, satellite_dress, rover_dress, placeRa, placeDec, setDesig]
    rfl
  rw [if_neg h14, if_neg h14]
  by_cases h15 : t = 96
  · rw [if_pos h15, if_pos h15]
    simp only [obind_ite, obind_assoc, obind_named, satellite_dress, rover_dress, placeRa, placeDec, setDesig]
    rfl
  rw [if_neg h15, if_neg h15]
  by_cases h16 : t = 29
  · rw [if_pos h16, if_pos h16]
    simp only [obind_ite, obind_assoc, obind_named, satellite_dress, rover_dress, placeRa, placeDec, setDesig]
    rfl
  rw [if_neg h16, if_neg h16]
  by_cases h17 : t = 17
  · rw [if_pos h17, if_pos h17]
    simp only [obind_ite, obind_assoc, obind_named, satellite_dress, rover_dress, placeRa, placeDec, setDesig]
    rfl
  rw [if_neg h17, if_neg h17]
  by_cases h18 : t = 116
  · rw [if_pos h18, if_pos h18]
    cases check (s.length < 26) <;> rfl
  rw [if_neg h18, if_neg h18]
  by_cases h19 : t = 56
  · rw [if_pos h19, if_pos h19]
    cases check (s.length < 7) <;> rfl
  rw [if_neg h19, if_neg h19]
  by_cases h20 : t = 109
  · rw [if_pos h20, if_pos h20]
    cases check (s.length < 26) <;> rfl
  rw [if_neg h20, if_neg h20]
  by_cases h21 : t = 108
  · rw [if_pos h21, if_pos h21]
    cases check (s.length < 26) <;> rfl
  rw [if_neg h21, if_neg h21]
  by_cases h22 : t = 117
  · rw [if_pos h22, if_pos h22]
    cases check (s.length < 26) <;> rfl
  rw [if_neg h22, if_neg h22]
  by_cases h23 : t = 114
  · rw [if_pos h23, if_pos h23]
    cases check (s.length < 26) <;> rfl
  rw [if_neg h23, if_neg h23]
  by_cases h24 : t = 95 ∧ c.idSet = 75
  · rw [if_pos h24, if_pos (show t = 95 ∧ (dress a b p g c).idSet = 75 from h24)]
    rfl
  rw [if_neg h24, if_neg (show ¬ (t = 95 ∧ (dress a b p g c).idSet = 75) from h24)]
  by_cases h25 : t = 95 ∨ t = 75
  · rw [if_pos h25, if_pos h25]
    simp only [obind_ite, obind_assoc, obind_named, satellite_dress, rover_dress, placeRa, placeDec, setDesig]
    rfl
  rw [if_neg h25, if_neg h25]
  by_cases h26 : t = 16
  · rw [if_pos h26, if_pos h26]
    cases check (s.length < 13) with
    | ok u =>
      by_cases hq : c.idSet = 0 ∧ c.ignoreArtsat = false
      · have e1 : ∀ x y : Ctx, (if (dress a b p g c).idSet = 0 ∧ (dress a b p g c).ignoreArtsat = false then x else y) = x := fun x y => if_pos hq
        simp only [Outcome.bind, e1, if_pos hq]
        rfl
      · have e1 : ∀ x y : Ctx, (if (dress a b p g c).idSet = 0 ∧ (dress a b p g c).ignoreArtsat = false then x else y) = y := fun x y => if_neg hq
        simp only [Outcome.bind, e1, if_neg hq]
        try rfl
    | abort => rfl
    | ub => rfl
  rw [if_neg h26, if_neg h26]
  by_cases h27 : t = 140
  · rw [if_pos h27, if_pos h27]
    cases check (s.length < 13) with
    | ok u =>
      by_cases hq : c.idSet = 0
      · have e1 : ∀ x y : Ctx, (if (dress a b p g c).idSet = 0 then x else y) = x := fun x y => if_pos hq
        simp only [Outcome.bind, e1, if_pos hq]
        rfl
      · have e1 : ∀ x y : Ctx, (if (dress a b p g c).idSet = 0 then x else y) = y := fun x y => if_neg hq
        simp only [Outcome.bind, e1, if_neg hq]
        try rfl
    | abort => rfl
    | ub => rfl
  rw [if_neg h27, if_neg h27]
  by_cases h28 : t = 138
  · rw [if_pos h28, if_pos h28]
    cases check (s.length < 12) <;> rfl
  rw [if_neg h28, if_neg h28]
  by_cases h29 : t = 63
  · rw [if_pos h29, if_pos h29]
    cases check (s.length < 26) <;> rfl
  rw [if_neg h29, if_neg h29]
  by_cases h30 : t = 50
  · rw [if_pos h30, if_pos h30]
    simp only [obind_ite, obind_assoc, obind_named, satellite_dress, rover_dress, placeRa, placeDec, setDesig]
    rfl
  rw [if_neg h30, if_neg h30]
  by_cases h31 : t = 139
  · rw [if_pos h31, if_pos h31]
    rfl
  rw [if_neg h31, if_neg h31]
  rfl

/-- The context after an element, for the names in a header too. -/
theorem processTag_kept {e : Ext} {c : Ctx} {t : Int} {s more : List Nat} {r : Ctx × List Nat × Int} (h : processTag e c t s more = .ok r) :
    r.1.st = c.st ∧ r.1.psv = c.psv ∧ r.1.passed = c.passed ∧ r.1.getting = c.getting := by
  by_cases ht : t = 55 ∨ t = 47 ∨ t = 46
  · unfold processTag at h
    rw [if_neg (by omega), if_pos ht] at h
    obtain ⟨o, -, h⟩ := bind_ok h
    simp only [Outcome.ok.injEq] at h
    rw [← h]
    exact ⟨rfl, rfl, rfl, rfl⟩
  · have := processTag_dress e c.st c.psv c.passed c.getting c ht s more
    rw [show dress c.st c.psv c.passed c.getting c = c from rfl, h, Outcome.bind, Outcome.ok.injEq] at this
    rw [this]
    exact ⟨rfl, rfl, rfl, rfl⟩

theorem setup_short {c : Ctx} (h : Short c) : Short (setup c) := { h with }

theorem drop_bound {n : Nat} {s : List Nat} (h : s.length < n) (k : Nat) : (s.take k).length < n := by
  rw [List.length_take]; omega

/-- Giving out a line leaves the texts short. -/
theorem getLine_short {c d : Ctx} {o : Option (List Nat)} {b : Bool} (h : getLine c = .ok (d, o, b)) (hs : Short c) : Short d := by
  unfold getLine at h
  extract_lets give m at h
  have hg : ∀ {k : Ctx} {l : List Nat}, give k l = .ok (d, o, b) → Short k → Short d := by
    intro k l hk hs
    obtain ⟨x, -, hk⟩ := bind_ok hk
    simp only [Outcome.ok.injEq, Prod.mk.injEq] at hk
    rw [← hk.1]
    exact hs
  split at h
  · exact hg h { hs with rmsRa := by simp, rmsMag := by simp, rmsTime := by simp }
  · split at h
    · exact hg h { hs with trkSub := by simp, obsId := by simp, trkId := by simp }
    · split at h
      · exact hg h { hs with fullRa := by simp, fullDec := by simp }
      · split at h
        · exact hg h { hs with fullMag := by simp }
        · split at h
          · exact hg h { hs with band := drop_bound hs.band 1, notes := by simp, prog := by simp }
          · split at h
            · exact hg h { hs with }
            · split at h
              · obtain ⟨x, -, h⟩ := bind_ok h
                simp only [Outcome.ok.injEq, Prod.mk.injEq] at h
                rw [← h.1]
                exact { hs with }
              · split at h
                · exact hg h { hs with }
                · simp only [Outcome.ok.injEq, Prod.mk.injEq] at h
                  rw [← h.1]
                  exact { hs with }

theorem handOut_short {c d : Ctx} {s o : List Nat} {r : Int} (h : handOut s c = some (.ok (d, o, r))) (hs : Short c) : Short d := by
  unfold handOut at h
  obtain ⟨g, hg, h⟩ := bind_ok (Option.some.inj h)
  simp only [Outcome.ok.injEq, Prod.mk.injEq] at h
  rw [← h.1]
  exact getLine_short hg hs

theorem psvTag_short {e : Ext} {c d : Ctx} {t : Int} {s : List Nat} (h : psvTag e c t s = .ok d) (hs : Short c) : Short d := by
  unfold psvTag at h
  extract_lets v at h
  split at h
  · obtain ⟨r, hr, h⟩ := bind_ok h
    simp only [Outcome.ok.injEq] at h
    rw [← h]
    exact processTag_short hr hs
  · simp only [Outcome.ok.injEq] at h
    rwa [← h]

theorem psvFields_short {e : Ext} : ∀ {c d : Ctx} {ts : List Int} {s : List Nat}, psvFields e c ts s = .ok d → Short c → Short d
  | c, d, [], s, h, hs => by
    simp only [psvFields, Outcome.ok.injEq] at h
    rwa [← h]
  | c, d, [t], s, h, hs => by
    rw [psvFields] at h
    obtain ⟨x, hx, h⟩ := bind_ok h
    obtain ⟨-, h⟩ := check_ok h
    simp only [Outcome.ok.injEq] at h
    rw [← h]
    exact psvTag_short hx hs
  | c, d, t :: u :: ts, s, h, hs => by
    rw [psvFields] at h
    · obtain ⟨x, hx, h⟩ := bind_ok h
      split at h
      · cases h
      · exact psvFields_short h (psvTag_short hx hs)
    · simp

theorem psvHeader_short {c d : Ctx} {s : List Nat} (h : psvHeader c s = .ok (some d)) (hs : Short c) : Short d := by
  unfold psvHeader at h
  extract_lets fs ts at h
  split at h
  · simp at h
  · split at h
    · simp only [Outcome.ok.injEq, Option.some.injEq] at h
      rw [← h]
      exact { hs with }
    · cases h

theorem psvTry_short {e : Ext} {c d : Ctx} {s : List Nat} {b : Bool} (h : psvTry e c s = .ok (d, b)) (hs : Short c) : Short d := by
  unfold psvTry at h
  split at h
  · simp only [Outcome.ok.injEq, Prod.mk.injEq] at h
    rw [← h.1]
    exact hs
  · obtain ⟨r, hr, h⟩ := bind_ok h
    split at h
    · simp only [Outcome.ok.injEq, Prod.mk.injEq] at h
      rw [← h.1]
      unfold psvLine at hr
      split at hr
      · simp at hr
      · obtain ⟨x, hx, hr⟩ := bind_ok hr
        simp only [Outcome.ok.injEq, Option.some.injEq] at hr
        rw [← hr]
        exact psvFields_short hx (setup_short hs)
    · simp only [Outcome.ok.injEq, Prod.mk.injEq] at h
      rw [← h.1]
      exact { hs with }

theorem tholen_short {c d : Ctx} {s : List Nat} (h : tholen c s = some d) (hs : Short c) : Short d := by
  unfold tholen at h
  extract_lets l c' dd line at h
  split at h
  · simp only [Option.some.injEq] at h
    rw [← h]
    have h1 : ∀ k, ((s.drop k).take 5).length < 26 := fun k => by rw [List.length_take]; omega
    exact { setup_short hs with rmsRa := h1 81, rmsDec := h1 87 }
  · cases h

theorem hashLine_short {e : Ext} {c : Ctx} {s : List Nat} {r : Ctx × List Nat × Int} (h : hashLine e c s = .ok r) (hs : Short c) : Short r.1 := by
  unfold hashLine at h
  extract_lets n itag v len at h
  split at h
  · simp only [Outcome.ok.injEq] at h
    rw [← h]
    exact hs
  · split at h
    · obtain ⟨x, -, h⟩ := bind_ok h
      simp only [Outcome.ok.injEq] at h
      rw [← h]
      exact { hs with }
    · obtain ⟨x, -, h⟩ := bind_ok h
      obtain ⟨y, hy, h⟩ := bind_ok h
      simp only [Outcome.ok.injEq] at h
      rw [← h]
      exact { processTag_short hy { hs with } with }

/-- What a pass over an XML line leaves short. -/
def XStep.Short : XStep → Prop
  | .next _ c _ _ => Props.Short c
  | .done c _ _ => Props.Short c
  | .stop c _ => Props.Short c

theorem xmlStep_short {e : Ext} {c : Ctx} {s out : List Nat} {rv : Int} {x : XStep} (h : xmlStep e s c out rv = .ok x) (hs : Short c) : XStep.Short x := by
  unfold xmlStep at h
  split at h
  · simp only [Outcome.ok.injEq] at h
    rw [← h]
    exact hs
  · split at h
    · simp only [Outcome.ok.injEq] at h
      rw [← h]
      exact hs
    · split at h
      · split at h
        · simp only [Outcome.ok.injEq] at h
          rw [← h]
          exact hs
        · extract_lets t closing at h
          obtain ⟨y, -, h⟩ := bind_ok h
          extract_lets c1 c2 at h
          simp only [Outcome.ok.injEq] at h
          rw [← h]
          have h1 : Short c1 := { hs with }
          have h2 : Short c2 := by
            simp only [c2]
            split
            · split
              · exact { h1 with }
              · exact setup_short h1
            · exact h1
          exact h2
      · split at h
        · obtain ⟨y, -, h⟩ := bind_ok h
          obtain ⟨z, hz, h⟩ := bind_ok h
          simp only [Outcome.ok.injEq] at h
          rw [← h]
          exact processTag_short hz hs
        · simp only [Outcome.ok.injEq] at h
          rw [← h]
          exact hs

theorem xmlRun_short {e : Ext} {buff : List Nat} : ∀ {n : Nat} {s out o : List Nat} {c d : Ctx} {rv r : Int},
    xmlRun e buff n s c out rv = some (.ok (d, o, r)) → Short c → Short d
  | 0, s, out, o, c, d, rv, r, h, hs => by simp [xmlRun] at h
  | n + 1, s, out, o, c, d, rv, r, h, hs => by
    rw [xmlRun] at h
    split at h
    · rename_i c1 o1 r1 hx
      have hc : Short c1 := xmlStep_short hx hs
      have h := Option.some.inj h
      split at h
      · simp only [Outcome.ok.injEq, Prod.mk.injEq] at h
        rw [← h.1]
        exact hc
      · obtain ⟨g, hg, h⟩ := bind_ok h
        simp only [Outcome.ok.injEq, Prod.mk.injEq] at h
        rw [← h.1]
        exact getLine_short hg hc
    · rename_i c1 r1 hx
      have hc : Short c1 := xmlStep_short hx hs
      simp only [Option.some.injEq, Outcome.ok.injEq, Prod.mk.injEq] at h
      rw [← h.1]
      exact hc
    · rename_i rest c1 o1 r1 hx
      have hc : Short c1 := xmlStep_short hx hs
      exact xmlRun_short h hc
    · simp at h
    · simp at h

theorem xlate_short {e : Ext} {n : Nat} {c d : Ctx} {s o : List Nat} {r : Int} (h : xlate e n c s = some (.ok (d, o, r))) (hs : Short c) : Short d := by
  unfold xlate at h
  split at h
  · simp only [Option.some.injEq, Outcome.ok.injEq, Prod.mk.injEq] at h
    rw [← h.1]
    exact { hs with }
  · split at h
    · exact handOut_short h hs
    · extract_lets c1 at h
      have h1 : Short c1 := by
        simp only [c1]
        split
        · exact { hs with }
        · exact hs
      split at h
      · simp at h
      · simp at h
      · rename_i c2 hx
        simp only [Option.some.injEq, Outcome.ok.injEq, Prod.mk.injEq] at h
        rw [← h.1]
        exact { psvHeader_short hx h1 with }
      · split at h
        · simp at h
        · simp at h
        · rename_i c2 hx
          exact handOut_short h { psvTry_short hx h1 with }
        · rename_i c2 hx
          have h2 := psvTry_short hx h1
          split at h
          · rename_i c3 hx
            exact handOut_short h { tholen_short hx h2 with }
          · split at h
            · simp at h
            · simp at h
            · rename_i c3 o3 r3 hx
              have h3 : Short c3 := by
                split at hx
                · exact hashLine_short hx h2
                · simp only [Outcome.ok.injEq, Prod.mk.injEq] at hx
                  rw [← hx.1]
                  exact h2
              split at h
              · simp only [Option.some.injEq, Outcome.ok.injEq, Prod.mk.injEq] at h
                rw [← h.1]
                exact { h3 with }
              · split at h
                · simp only [Option.some.injEq, Outcome.ok.injEq, Prod.mk.injEq] at h
                  rw [← h.1]
                  exact h3
                · split at h
                  · simp only [Option.some.injEq, Outcome.ok.injEq, Prod.mk.injEq] at h
                    rw [← h.1]
                    exact { h3 with }
                  · exact xmlRun_short h h3

theorem rounds_short {e : Ext} : ∀ {n : Nat} {c d : Ctx} {s : List Nat} {outs : List (List Nat × Int)},
    rounds e n c s = some (.ok (d, outs)) → Short c → Short d
  | 0, c, d, s, outs, h, hs => by simp [rounds] at h
  | n + 1, c, d, s, outs, h, hs => by
    rw [rounds] at h
    split at h
    · simp at h
    · simp at h
    · simp at h
    · rename_i c1 o1 r1 hx
      have h1 := xlate_short hx hs
      split at h
      · simp only [Option.some.injEq, Outcome.ok.injEq, Prod.mk.injEq] at h
        rw [← h.1]
        exact h1
      · split at h
        · rename_i c2 o2 hy
          simp only [Option.some.injEq, Outcome.ok.injEq, Prod.mk.injEq] at h
          rw [← h.1]
          exact rounds_short hy h1
        · exact rounds_short h h1

/-- **C86.** Whatever lines have been read, and in whatever order: the texts kept for the next lines are as short as `C86_drains` asks,
    so that `strlcpy_err` and `snprintf_err` have nothing to complain about. -/
theorem C86_short {e : Ext} {n : Nat} : ∀ {ls : List (List Nat)} {c d : Ctx} {outs : List (List Nat × Int)},
    translate e n c ls = some (.ok (d, outs)) → Short c → Short d
  | [], c, d, outs, h, hs => by
    simp only [translate, Option.some.injEq, Outcome.ok.injEq, Prod.mk.injEq] at h
    rw [← h.1]
    exact hs
  | l :: ls, c, d, outs, h, hs => by
    rw [translate] at h
    split at h
    · rename_i c1 o1 hx
      have h1 := rounds_short hx hs
      split at h
      · rename_i c2 o2 hy
        simp only [Option.some.injEq, Outcome.ok.injEq, Prod.mk.injEq] at h
        rw [← h.1]
        exact C86_short hy h1
      · exact C86_short h h1
    · exact rounds_short h hs

/-- The context at the beginning. -/
theorem init_short : Short AdesObs.init := by constructor <;> decide

/-- What is left to ask for `C86_drains`. -/
theorem fits_of_short {c : Ctx} (h : Short c) (h1 : (decInt c.center).length ≤ 8)
    (h2 : ∀ x, c.t2k = some x → (Time.fmtFixed 15 x).length ≤ 150) (h3 : ∀ l ∈ velLine c, l.length < 221) : Fits c :=
  ⟨h.1, h.2, h.3, h.4, h.5, h.6, h.7, h.8, h.9, h.10, h.11, h.12, h.13, h.14, h1, h2, h3⟩

end Verif.Props
