import Verif.Props.AdesLines
import Verif.Props.MpcAngle
import Verif.Props.MpcDate
import Verif.Props.CtimeCount
import Verif.Props.PackRef
import Verif.Props.Packed
import Verif.Spec.Ades

/-!
# C85: values of ADES elements in the columns of an observation
-/

namespace Verif.Props

open Verif Verif.Ades Verif.AdesObs Verif.Spec Verif.MpcLine

/-! ## Times -/

theorem timeBytes_digits {ds rest : List Nat} (h : AllDigits ds) : timeBytes (ds ++ rest) = ds ++ timeBytes rest := by
  induction ds with
  | nil => rfl
  | cons c ds ih =>
    have hc := h c (by simp)
    rw [List.cons_append, timeBytes, if_neg (by omega), if_pos (digit_true hc), ih fun x hx => h x (by simp [hx])]
    rfl

theorem timeBytes_other {c : Nat} {rest : List Nat} (h : c = 45 ∨ c = 58 ∨ c = 46) : timeBytes (c :: rest) = timeBytes rest := by
  rcases h with rfl | rfl | rfl <;> rfl

theorem timeBytes_t {rest : List Nat} : timeBytes (84 :: rest) = 58 :: timeBytes rest := rfl

theorem timeBytes_z {rest : List Nat} : timeBytes (90 :: rest) = [] := rfl

/-- The decimals alone. -/
theorem decimals_only {p v : Nat} {f : List Nat} (h : Decimals p v f) : ∃ ds, Padded p v ds ∧ timeBytes (f ++ 90 :: rest) = ds := by
  rcases h with ⟨rfl, rfl, rfl⟩ | ⟨_, ds, hd, rfl⟩
  · exact ⟨[], ⟨by simp [AllDigits], rfl, rfl⟩, rfl⟩
  · refine ⟨ds, hd, ?_⟩
    rw [List.cons_append, timeBytes_other (by simp), timeBytes_digits hd.digits, timeBytes_z, List.append_nil]

/-- The bytes stored for a time. -/
theorem fitsTime_eq {s more : List Nat} {d m y hour minute second p v : Nat} (h : AdesTime s d m y hour minute second p v)
    (h1 : 1700 ≤ y) (h2 : y ≤ 2099) :
    ∃ (c yy : Nat) (ty mm dd hh nn ss ds : List Nat), 72 ≤ c ∧ c ≤ 75 ∧ y = 1700 + 100 * (c - 72) + yy ∧ Padded 2 yy ty ∧ Padded 2 m mm ∧
      Padded 2 d dd ∧ Padded 2 hour hh ∧ Padded 2 minute nn ∧ Padded 2 second ss ∧ Padded p v ds ∧
      fitsTime (s ++ more) = c :: (ty ++ (mm ++ (dd ++ 58 :: (hh ++ (nn ++ (ss ++ ds)))))) := by
  obtain ⟨hy, hm, hd, hh, hn, hs, hf⟩ := h
  rename_i yyyy mm dd hh' nn ss f
  obtain ⟨ds, hds, et⟩ := decimals_only (rest := more) hf
  obtain ⟨a, b, c, e, rfl, ha, hb, hc, he⟩ := padded_list4 hy
  have hval : y = (a - 48) * 1000 + (b - 48) * 100 + (c - 48) * 10 + (e - 48) := by
    rw [← hy.value]; simp [value]; omega
  have m2 := hm.width
  have d2 := hd.width
  have h2' := hh.width
  refine ⟨72 + (y / 100 - 17), y % 100, [c, e], mm, dd, hh', nn, ss, ds, by omega, by omega, by omega, ?_, hm, hd, hh, hn, hs, hds, ?_⟩
  · refine ⟨by intro x hx; simp at hx; rcases hx with rfl | rfl <;> omega, by simp [value]; omega, rfl⟩
  · obtain ⟨m1, m2', rfl, hm1, hm2, _⟩ := padded_two hm
    obtain ⟨d1, d2', rfl, hd1, hd2, _⟩ := padded_two hd
    obtain ⟨g1, g2, rfl, hg1, hg2, _⟩ := padded_two hh
    unfold fitsTime
    have e4 : ∀ r : List Nat, at? ([a, b, c, e] ++ 45 :: ([m1, m2'] ++ 45 :: ([d1, d2'] ++ 84 :: ([g1, g2] ++ 58 :: r))) ) 4 = 45 ∧
      at? ([a, b, c, e] ++ 45 :: ([m1, m2'] ++ 45 :: ([d1, d2'] ++ 84 :: ([g1, g2] ++ 58 :: r))) ) 7 = 45 ∧
      at? ([a, b, c, e] ++ 45 :: ([m1, m2'] ++ 45 :: ([d1, d2'] ++ 84 :: ([g1, g2] ++ 58 :: r))) ) 10 = 84 ∧
      at? ([a, b, c, e] ++ 45 :: ([m1, m2'] ++ 45 :: ([d1, d2'] ++ 84 :: ([g1, g2] ++ 58 :: r))) ) 13 = 58 ∧
      at? ([a, b, c, e] ++ 45 :: ([m1, m2'] ++ 45 :: ([d1, d2'] ++ 84 :: ([g1, g2] ++ 58 :: r))) ) 0 = a ∧
      at? ([a, b, c, e] ++ 45 :: ([m1, m2'] ++ 45 :: ([d1, d2'] ++ 84 :: ([g1, g2] ++ 58 :: r))) ) 1 = b := fun r => ⟨rfl, rfl, rfl, rfl, rfl, rfl⟩
    have shape : ([a, b, c, e] ++ 45 :: ([m1, m2'] ++ 45 :: ([d1, d2'] ++ 84 :: ([g1, g2] ++ 58 :: (nn ++ 58 :: (ss ++ (f ++ [90]))))))) ++ more =
      [a, b, c, e] ++ 45 :: ([m1, m2'] ++ 45 :: ([d1, d2'] ++ 84 :: ([g1, g2] ++ 58 :: (nn ++ 58 :: (ss ++ (f ++ 90 :: more)))))) := by simp
    rw [shape]
    obtain ⟨q4, q7, q10, q13, q0, q1⟩ := e4 (nn ++ 58 :: (ss ++ (f ++ 90 :: more)))
    rw [if_pos ⟨q4, q7, q10, q13⟩, q0, q1]
    congr 1
    · unfold sbyte
      rw [if_pos (by omega), if_pos (by omega)]
      have : (a : Int) * 10 + b - 48 * 11 = (y / 100 : Nat) := by omega
      rw [this]
      unfold Desig.intToMutantHexChar
      rw [if_neg (by omega), if_neg (by omega), if_pos (by omega)]
      omega
    · have dr : ([a, b, c, e] ++ 45 :: ([m1, m2'] ++ 45 :: ([d1, d2'] ++ 84 :: ([g1, g2] ++ 58 :: (nn ++ 58 :: (ss ++ (f ++ 90 :: more))))))).drop 2 =
        [c, e] ++ 45 :: ([m1, m2'] ++ 45 :: ([d1, d2'] ++ 84 :: ([g1, g2] ++ 58 :: (nn ++ 58 :: (ss ++ (f ++ 90 :: more)))))) := rfl
      have hce : AllDigits [c, e] := by intro x hx; simp at hx; rcases hx with rfl | rfl <;> omega
      rw [dr, timeBytes_digits hce, timeBytes_other (by simp), timeBytes_digits hm.digits, timeBytes_other (by simp),
        timeBytes_digits hd.digits, timeBytes_t, timeBytes_digits hh.digits, timeBytes_other (by simp), timeBytes_digits hn.digits,
        timeBytes_other (by simp), timeBytes_digits hs.digits, et]

/-! ## Columns of each element -/

/-- First and last of the columns written for a tag, counted from 0. -/
def own (t : Int) : Option (Nat × Nat) :=
  if t = 75 ∨ t = 95 ∨ t = 16 ∨ t = 140 then some (0, 11)
  else if t = 37 then some (12, 12)
  else if t = 94 ∨ t = 56 then some (13, 13)
  else if t = 52 ∨ t = 34 ∨ t = 136 then some (14, 14)
  else if t = 65 then some (15, 31)
  else if t = 96 then some (32, 43)
  else if t = 29 then some (44, 56)
  else if t = 50 then some (65, 69)
  else if t = 19 then some (70, 70)
  else if t = 17 then some (71, 71)
  else if t = 101 then some (72, 76)
  else if t = 132 then some (77, 79)
  else none

theorem own_table : ∀ p ∈ tagCodes, (columnsOf.filter (·.1 = p.1)).map (fun e => (e.2.1 - 1, e.2.2 - 1)) = (own p.2).toList := by
  decide +kernel

theorem columns_positive : ∀ e ∈ columnsOf, 1 ≤ e.2.1 ∧ 1 ≤ e.2.2 := by decide +kernel

theorem own_spec {name : String} {t : Int} (hn : (name, t) ∈ tagCodes) {i : Nat} (hi : ¬ OwnColumn name (i + 1)) :
    ∀ a b, own t = some (a, b) → ¬ (a ≤ i ∧ i ≤ b) := by
  intro a b hab h
  have e := own_table _ hn
  simp only [hab, Option.toList_some] at e
  have hm : (a, b) ∈ (columnsOf.filter (·.1 = name)).map (fun e => (e.2.1 - 1, e.2.2 - 1)) := by rw [e]; simp
  obtain ⟨x, hx, hx'⟩ := List.mem_map.1 hm
  obtain ⟨hx1, hx2⟩ := List.mem_filter.1 hx
  have h1 := columns_positive x hx1
  simp only [Prod.mk.injEq] at hx'
  exact hi ⟨x, hx1, by simpa using hx2, by omega, by omega⟩

theorem quiet_ok {q : Outcome Ctx} {r : Ctx × List Nat × Int} (h : (q.bind fun c => Outcome.ok (c, ([] : List Nat), (0 : Int))) = .ok r) :
    q = .ok r.1 := by
  cases q with
  | ok c => simp only [Outcome.bind, Outcome.ok.injEq] at h; rw [← h]
  | abort => simp [Outcome.bind] at h
  | ub => simp [Outcome.bind] at h

theorem check_ok {α : Type} {b : Bool} {f : Unit → Outcome α} {r : α} (h : (check b).bind f = .ok r) : b = true ∧ f () = .ok r := by
  unfold check at h
  cases b <;> simp [Outcome.bind] at h ⊢
  exact h

theorem named_ok {α : Type} {s : List Nat} {f : List Nat → Outcome α} {r : α} (h : named s f = .ok r) : f s = .ok r := by
  unfold named at h
  split at h
  · exact h
  · cases h

theorem bind_ok {α β : Type} {q : Outcome α} {f : α → Outcome β} {r : β} (h : q.bind f = .ok r) : ∃ x, q = .ok x ∧ f x = .ok r := by
  cases q with
  | ok x => exact ⟨x, rfl, h⟩
  | abort => simp [Outcome.bind] at h
  | ub => simp [Outcome.bind] at h

theorem put_out {c : Ctx} {a i : Nat} {s : List Nat} (h : ¬ (a ≤ i ∧ i < a + s.length)) : (c.put a s).line i = c.line i := blit_out h

theorem put_one {c : Ctx} {a i x : Nat} (h : i ≠ a) : (c.put a [x]).line i = c.line i := put_out (by simp; omega)

theorem reference_length {s r : List Nat} (h : packMpcReference s = some r) : r.length = 5 := by
  unfold packMpcReference at h
  extract_lets len p n at h
  split at h
  · simp only [Option.some.injEq] at h
    rw [← h, put_length]
    rfl
  · split at h
    · split at h <;> simp only [Option.some.injEq] at h <;> rw [← h] <;> simp [Desig.encode_length, (padded_pad (w := 4) (n := n % 10000) (by omega) (by omega)).width]
    · split at h
      · split at h
        · split at h
          · simp only [Option.some.injEq] at h
            rw [← h, (padded_pad (w := 5) (n := n % 100000) (by omega) (by omega)).width]
          · simp only [Option.some.injEq] at h
            rw [← h]
            simp [(padded_pad (w := 4) (n := n % 100000) (by omega) (by omega)).width]
        · simp only [Option.some.injEq] at h
          rw [← h]
          simp [Desig.encode_length]
      · split at h
        · simp only [Option.some.injEq] at h
          rw [← h]
          simp
        · cases h

theorem placeValue_length {s more : List Nat} {k : Nat} {r : List Nat × Bool} (h : placeValue s more k = .ok r) :
    r.1.length ≤ if r.2 then 12 else k + 8 := by
  unfold placeValue at h
  extract_lets p t at h
  split at h
  · cases h
  · split at h
    · split at h
      · simp only [Outcome.ok.injEq] at h
        rw [← h]
        simp only [if_true]
        omega
      · cases h
    · simp only [Outcome.ok.injEq] at h
      rw [← h]
      simp only [List.length_append, List.length_replicate, List.length_take, Bool.false_eq_true, if_false]
      omega

theorem ades_satellite {c : Ctx} {k : Nat} {n : List Nat} {r : Ctx × Bool} (h : satellite c k n = .ok r) : r.1.line = c.line := by
  unfold satellite at h
  extract_lets a b d n1 n2 bare n3 n4 l2 at h
  split at h
  · cases h
  · split at h
    · cases h
    · split at h
      · cases h
      · split at h
        · cases h
        · split at h
          · cases h
          · split at h
            · simp only [Outcome.ok.injEq] at h
              rw [← h]
            · simp only [Outcome.ok.injEq] at h
              rw [← h]

theorem ades_rover {c d : Ctx} {k : Nat} {n : List Nat} (h : rover c k n = .ok d) : d.line = c.line := by
  have key : ∀ {m : Card} {a : Nat} {s : List Nat}, ((blitIn m a s).bind fun l => Outcome.ok { c with line2 := l }) = .ok d → d.line = c.line := by
    intro m a s h
    obtain ⟨l, -, h⟩ := bind_ok h
    simp only [Outcome.ok.injEq] at h
    rw [← h]
  unfold rover at h
  extract_lets len signed line2 name1 at h
  split at h
  · split at h
    · cases h
    · split at h
      · cases h
      · exact key h
  · split at h
    · split at h
      · cases h
      · split at h
        · cases h
        · exact key h
    · exact key h

/-- What is left alone by each tag. -/
theorem processTag_frame {e : Ext} {c : Ctx} {t : Int} {s more : List Nat} {r : Ctx × List Nat × Int}
    (h : processTag e c t s more = .ok r) (h17 : t = 65 → (fitsTime (s ++ more)).length ≤ 17) {i : Nat}
    (hi : ∀ a b, own t = some (a, b) → ¬ (a ≤ i ∧ i ≤ b)) : r.1.line i = c.line i := by
  unfold processTag at h
  extract_lets quiet c19 idx c94 l136 c136 c136' c56 c16 c140 c50 at h
  by_cases h1 : t = 53
  · rw [if_pos h1] at h
    have := named_ok h
    simp only [Outcome.ok.injEq] at this
    rw [← this]
  rw [if_neg h1] at h
  by_cases h2 : t = 55 ∨ t = 47 ∨ t = 46
  · rw [if_pos h2] at h
    obtain ⟨o, -, h⟩ := bind_ok h
    simp only [Outcome.ok.injEq] at h
    rw [← h]
  rw [if_neg h2] at h
  by_cases h3 : t = 132
  · rw [if_pos h3] at h
    have := quiet_ok h
    simp only [Outcome.ok.injEq] at this
    rw [← this]
    subst h3
    have := hi 77 79 rfl
    exact put_out (by simp; omega)
  rw [if_neg h3] at h
  by_cases h4 : t = 65
  · rw [if_pos h4] at h
    have := quiet_ok h
    have hl := h17 h4
    subst h4
    have hc := hi 15 31 rfl
    unfold obsTime at this
    extract_lets future t at this
    obtain ⟨l, hl1, this⟩ := bind_ok this
    have hl2 : l i = c.line i := by
      unfold blitIn at hl1
      split at hl1
      · simp only [Outcome.ok.injEq] at hl1
        rw [← hl1]
        have : t.length ≤ 17 := hl
        exact blit_out (by omega)
      · cases hl1
    split at this
    · obtain ⟨x, -, this⟩ := bind_ok (named_ok this)
      simp only [Outcome.ok.injEq] at this
      rw [← this]
      simp only
      split
      · rw [blit_out (by simp; omega), hl2]
      · exact hl2
    · simp only [Outcome.ok.injEq] at this
      rw [← this]
      exact hl2
  rw [if_neg h4] at h
  by_cases h5 : t = 19
  · rw [if_pos h5] at h
    obtain ⟨-, this⟩ := check_ok (quiet_ok h)
    simp only [Outcome.ok.injEq] at this
    rw [← this]
    subst h5
    have := hi 70 70 rfl
    exact put_one (by omega)
  rw [if_neg h5] at h
  by_cases h6 : t = 52
  · rw [if_pos h6] at h
    have := quiet_ok h
    simp only [Outcome.ok.injEq] at this
    rw [← this]
    subst h6
    have := hi 14 14 rfl
    split
    · exact put_one (by omega)
    · rfl
  rw [if_neg h6] at h
  by_cases h7 : t = 34
  · rw [if_pos h7] at h
    have := quiet_ok h
    simp only [Outcome.ok.injEq] at this
    rw [← this]
    subst h7
    have := hi 14 14 rfl
    exact put_one (by omega)
  rw [if_neg h7] at h
  by_cases h8 : t = 37
  · rw [if_pos h8] at h
    have := quiet_ok h
    simp only [Outcome.ok.injEq] at this
    rw [← this]
    subst h8
    have := hi 12 12 rfl
    split
    · exact put_one (by omega)
    · rfl
  rw [if_neg h8] at h
  by_cases h9 : t = 101
  · rw [if_pos h9] at h
    have := quiet_ok h
    simp only [Outcome.ok.injEq] at this
    rw [← this]
    subst h9
    have := hi 72 76 rfl
    split
    · rename_i r hr
      split at hr
      · have := reference_length hr
        exact put_out (by omega)
      · cases hr
    · rfl
  rw [if_neg h9] at h
  by_cases h10 : t = 94
  · rw [if_pos h10] at h
    obtain ⟨-, this⟩ := check_ok (quiet_ok h)
    simp only [Outcome.ok.injEq] at this
    rw [← this]
    subst h10
    have := hi 13 13 rfl
    simp only [c94]
    split
    · exact put_one (by omega)
    · rfl
  rw [if_neg h10] at h
  by_cases h11 : t = 136
  · rw [if_pos h11] at h
    have := named_ok (quiet_ok h)
    subst h11
    have hc := hi 14 14 rfl
    split at this
    · simp only [Outcome.ok.injEq] at this
      rw [← this]
      exact put_one (by omega)
    · split at this
      · simp only [Outcome.ok.injEq] at this
        rw [← this]
        exact put_one (by omega)
      · split at this
        · simp only [Outcome.ok.injEq] at this
          rw [← this]
          exact put_one (by omega)
        · cases this
  rw [if_neg h11] at h
  by_cases h12 : t = 28
  · rw [if_pos h12] at h
    have := named_ok (quiet_ok h)
    simp only [Outcome.ok.injEq] at this
    rw [← this]
  rw [if_neg h12] at h
  by_cases h13 : t = 143 ∨ t = 144 ∨ t = 145
  · rw [if_pos h13] at h
    obtain ⟨-, this⟩ := check_ok (quiet_ok h)
    have := named_ok this
    simp only [Outcome.ok.injEq] at this
    rw [← this]
  rw [if_neg h13] at h
  by_cases h14 : t = 82 ∨ t = 83 ∨ t = 84
  · rw [if_pos h14] at h
    obtain ⟨-, this⟩ := check_ok h
    have := named_ok this
    split at this
    · obtain ⟨x, hx, this⟩ := bind_ok this
      simp only [Outcome.ok.injEq] at this
      rw [← this]
      simp only [ades_satellite hx]
    · rw [ades_rover (quiet_ok this)]
  rw [if_neg h14] at h
  by_cases h15 : t = 96
  · rw [if_pos h15] at h
    have := quiet_ok h
    subst h15
    have hc := hi 32 43 rfl
    unfold placeRa at this
    extract_lets s' at this
    obtain ⟨x, hx, this⟩ := bind_ok this
    have hl := placeValue_length hx
    split at this
    · rename_i h2
      rw [if_pos h2] at hl
      split at this
      · simp only [Outcome.ok.injEq] at this
        rw [← this]
        exact blit_out (by omega)
      · cases this
    · rename_i h2
      rw [if_neg h2] at hl
      simp only [Outcome.ok.injEq] at this
      rw [← this]
      exact blit_out (by omega)
  rw [if_neg h15] at h
  by_cases h16 : t = 29
  · rw [if_pos h16] at h
    have := quiet_ok h
    subst h16
    have hc := hi 44 56 rfl
    unfold placeDec at this
    extract_lets sg si s' at this
    obtain ⟨x, hx, this⟩ := bind_ok this
    have hl := placeValue_length hx
    extract_lets line at this
    have hline : line i = c.line i := by
      have : x.1.length ≤ 12 := by split at hl <;> omega
      simp only [line]
      rw [blit_out (by omega), blit_out (by simp; omega)]
    split at this
    · split at this
      · simp only [Outcome.ok.injEq] at this
        rw [← this]
        exact hline
      · cases this
    · simp only [Outcome.ok.injEq] at this
      rw [← this]
      exact hline
  rw [if_neg h16] at h
  by_cases h17' : t = 17
  · rw [if_pos h17'] at h
    obtain ⟨-, this⟩ := check_ok (quiet_ok h)
    obtain ⟨x, -, this⟩ := bind_ok this
    obtain ⟨-, this⟩ := check_ok this
    simp only [Outcome.ok.injEq] at this
    rw [← this]
    subst h17'
    have := hi 71 71 rfl
    exact put_one (by omega)
  rw [if_neg h17'] at h
  by_cases h18 : t = 116
  · rw [if_pos h18] at h
    obtain ⟨-, this⟩ := check_ok (quiet_ok h)
    simp only [Outcome.ok.injEq] at this
    rw [← this]
  rw [if_neg h18] at h
  by_cases h19 : t = 56
  · rw [if_pos h19] at h
    obtain ⟨-, this⟩ := check_ok (quiet_ok h)
    simp only [Outcome.ok.injEq] at this
    rw [← this]
    subst h19
    have := hi 13 13 rfl
    exact put_one (by omega)
  rw [if_neg h19] at h
  by_cases h20 : t = 109
  · rw [if_pos h20] at h
    obtain ⟨-, this⟩ := check_ok (quiet_ok h)
    simp only [Outcome.ok.injEq] at this
    rw [← this]
  rw [if_neg h20] at h
  by_cases h21 : t = 108
  · rw [if_pos h21] at h
    obtain ⟨-, this⟩ := check_ok (quiet_ok h)
    simp only [Outcome.ok.injEq] at this
    rw [← this]
  rw [if_neg h21] at h
  by_cases h22 : t = 117
  · rw [if_pos h22] at h
    obtain ⟨-, this⟩ := check_ok (quiet_ok h)
    simp only [Outcome.ok.injEq] at this
    rw [← this]
  rw [if_neg h22] at h
  by_cases h23 : t = 114
  · rw [if_pos h23] at h
    obtain ⟨-, this⟩ := check_ok (quiet_ok h)
    simp only [Outcome.ok.injEq] at this
    rw [← this]
  rw [if_neg h23] at h
  by_cases h24 : t = 95 ∧ c.idSet = 75
  · rw [if_pos h24] at h
    have := quiet_ok h
    simp only [Outcome.ok.injEq] at this
    rw [← this]
  rw [if_neg h24] at h
  by_cases h25 : t = 95 ∨ t = 75
  · rw [if_pos h25] at h
    have := quiet_ok h
    have hc : ¬ (0 ≤ i ∧ i ≤ 11) := hi 0 11 (by unfold own; rw [if_pos (by tauto)])
    unfold setDesig at this
    split at this
    · cases this
    · obtain ⟨d, -, this⟩ := bind_ok this
      simp only [Outcome.ok.injEq] at this
      rw [← this]
      have := (C53_twelve_bytes d).2
      exact blit_out (by omega)
  rw [if_neg h25] at h
  by_cases h26 : t = 16
  · rw [if_pos h26] at h
    obtain ⟨hs, this⟩ := check_ok (quiet_ok h)
    simp only [Outcome.ok.injEq] at this
    rw [← this]
    subst h26
    have hc := hi 0 11 rfl
    have hs' : s.length < 13 := by simpa using hs
    split
    · exact blit_out (by omega)
    · rfl
  rw [if_neg h26] at h
  by_cases h27 : t = 140
  · rw [if_pos h27] at h
    obtain ⟨hs, this⟩ := check_ok (quiet_ok h)
    simp only [Outcome.ok.injEq] at this
    rw [← this]
    subst h27
    have hc := hi 0 11 rfl
    have hs' : s.length < 13 := by simpa using hs
    split
    · exact blit_out (by split <;> omega)
    · rfl
  rw [if_neg h27] at h
  by_cases h28 : t = 138
  · rw [if_pos h28] at h
    obtain ⟨-, this⟩ := check_ok (quiet_ok h)
    simp only [Outcome.ok.injEq] at this
    rw [← this]
  rw [if_neg h28] at h
  by_cases h29 : t = 63
  · rw [if_pos h29] at h
    obtain ⟨-, this⟩ := check_ok (quiet_ok h)
    simp only [Outcome.ok.injEq] at this
    rw [← this]
  rw [if_neg h29] at h
  by_cases h30 : t = 50
  · rw [if_pos h30] at h
    have := quiet_ok h
    subst h30
    have hc := hi 65 69 rfl
    have hl : c50.line i = c.line i := put_out (by rw [List.length_take]; omega)
    split at this
    · obtain ⟨m, -, this⟩ := bind_ok (named_ok this)
      simp only [Outcome.ok.injEq] at this
      rw [← this]
      exact hl
    · simp only [Outcome.ok.injEq] at this
      rw [← this]
      exact hl
  rw [if_neg h30] at h
  by_cases h31 : t = 139
  · rw [if_pos h31] at h
    have := quiet_ok h
    simp only [Outcome.ok.injEq] at this
    rw [← this]
  rw [if_neg h31] at h
  simp only [Outcome.ok.injEq] at h
  rw [← h]

/-- C85: an element changes only the columns that belong to it.  (A time of more than 17 bytes goes on into the right ascension.) -/
theorem C85_own_columns {e : Ext} {c : Ctx} {name : String} {t : Int} (hn : (name, t) ∈ tagCodes) {s more : List Nat}
    {r : Ctx × List Nat × Int} (h : processTag e c t s more = .ok r) (h17 : t = 65 → (fitsTime (s ++ more)).length ≤ 17) {i : Nat}
    (hi : ¬ OwnColumn name (i + 1)) : r.1.line i = c.line i := processTag_frame h h17 (own_spec hn hi)

/-- The hypotheses can be met: a magnitude leaves the station alone. -/
example : ∃ r, processTag ⟨fun _ => .abort⟩ (setup init) 50 (bytes "18.25") (bytes "|") = .ok r ∧ r.1.line 77 = 32 := by
  refine ⟨_, rfl, ?_⟩
  have := C85_own_columns (name := "mag") (t := 50) (e := ⟨fun _ => .abort⟩) (c := setup init) (s := bytes "18.25") (more := bytes "|") (i := 77)
    (by decide +kernel) rfl (by decide) (by
      rintro ⟨x, hx, h1, h2⟩
      revert x
      decide +kernel)
  rw [this]
  rfl

end Verif.Props
