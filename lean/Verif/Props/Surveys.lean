import Verif.Props.Provisional

/-! # Survey and artificial satellite designations (C22, C25) -/

namespace Verif.Props
open Verif.Desig Verif.Spec

/-- The four survey designations. -/
def surveyNames : List (List Nat) := [bytes "P-L", bytes "T-1", bytes "T-2", bytes "T-3"]

theorem create_survey {a b c d : Nat} (ha : 49 ≤ a ∧ a ≤ 56) (hb : 48 ≤ b ∧ b ≤ 57) (hc : 48 ≤ c ∧ c ≤ 57)
    (hd : 48 ≤ d ∧ d ≤ 57) (sv : List Nat × List Nat) (hs : sv ∈ surveys) :
    createPackedDesig ([a, b, c, d, 32] ++ sv.1) =
      (0, [32, 32, 32, 32, 32] ++ sv.2 ++ [a, b, c, d]) := by
  have hyr := fun r hr => year_read (a := a) (by omega) hb hc hd r hr
  have h1 : 999 < (a - 48) * 1000 + (b - 48) * 100 + (c - 48) * 10 + (d - 48) := by omega
  have h2 : (a - 48) * 1000 + (b - 48) * 100 + (c - 48) * 10 + (d - 48) < 9000 := by omega
  have h3 : ((a - 48) * 1000 + (b - 48) * 100 + (c - 48) * 10 + (d - 48)) % 4294967296 =
      (a - 48) * 1000 + (b - 48) * 100 + (c - 48) * 10 + (d - 48) := by omega
  have e1 : strchr (bytes "PDI") 32 = false := by decide
  have key : ∀ x y z u v w, sv = ([x, y, z], [u, v, w]) → z ≠ 32 → isUpper x = true →
      surveys.find? (fun s => [x, y, z] == s.1) = some sv →
      createPackedDesig ([a, b, c, d, 32] ++ sv.1) = (0, [32, 32, 32, 32, 32] ++ sv.2 ++ [a, b, c, d]) := by
    intro x y z u v w hsv hz hx hf
    subst hsv
    simp only [List.cons_append, List.nil_append]
    rw [create_plain _ (by rw [at_zero]; omega) (by rw [at_zero]; omega) (by rw [at_succ, at_zero]; omega)]
    have htl : trimLen [a, b, c, d, 32, x, y, z] [a, b, c, d, 32, x, y, z].length = 8 :=
      trimLen_full [a, b, c, d, 32, x, y] z hz
    unfold createCore
    simp only [hyr [32, x, y, z] (by rw [at_zero]; decide), h3, Bool.false_eq_true, if_false, htl]
    generalize (a - 48) * 1000 + (b - 48) * 100 + (c - 48) * 10 + (d - 48) = n at *
    unfold createBranch
    have a4 : at? [a, b, c, d, 32, x, y, z] 4 = 32 := rfl
    have a5 : at? [a, b, c, d, 32, x, y, z] 5 = x := rfl
    simp only [a4, a5, e1, Bool.false_eq_true, and_false, if_false, if_true, h1, h2, hx, and_self,
      (by decide : 4 < 8), List.drop_succ_cons, List.drop_zero, hf]
    rfl
  simp only [surveys, List.mem_cons, List.not_mem_nil, or_false] at hs
  rcases hs with rfl | rfl | rfl | rfl
  · exact key 80 45 76 80 76 83 rfl (by decide) (by decide) (by decide)
  · exact key 84 45 49 84 49 83 rfl (by decide) (by decide) (by decide)
  · exact key 84 45 50 84 50 83 rfl (by decide) (by decide) (by decide)
  · exact key 84 45 51 84 51 83 rfl (by decide) (by decide) (by decide)

theorem unpack_survey {a b c d x y : Nat} (ha : 48 ≤ a ∧ a ≤ 57) (hb : 48 ≤ b ∧ b ≤ 57) (hc : 48 ≤ c ∧ c ≤ 57)
    (hd : 48 ≤ d ∧ d ≤ 57) (hxy : (x = 80 ∧ y = 76) ∨ (x = 84 ∧ 49 ≤ y ∧ y ≤ 51)) :
    unpackMpcDesig [32, 32, 32, 32, 32, x, y, 83, a, b, c, d] = .ok (0, [a, b, c, d, 32, x, 45, y]) := by
  have hp : unpackProv [x, y, 83, a, b, c, d] = ⟨-1, some []⟩ := by
    unfold unpackProv
    rw [if_neg (by rw [at_zero]; omega), if_neg (by rw [at_zero]; omega)]
  have e1 : isAlnum 32 = false := by decide
  have e2 : strchr (bytes " PCDXA") 32 = true := by decide
  have hx : x ≠ 32 := by omega
  have hy : y ≠ 32 := by omega
  have h1 : a ≠ 32 := by omega
  have h2 : b ≠ 32 := by omega
  have h3 : c ≠ 32 := by omega
  have h4 : d ≠ 32 := by omega
  have hse : spacesExactly [32, 32, 32, 32, 32, x, y, 83, a, b, c, d] [0, 1, 2, 3, 4] = true := by
    simp [spacesExactly, List.range, List.range.loop, at?, hx, hy, h1, h2, h3, h4]
  unfold unpackMpcDesig
  simp only [at_zero, at_succ, unpackNatsat, List.drop_succ_cons, List.drop_zero, hp, e1, Bool.false_eq_true,
    false_and, if_false, ne_eq, not_false_eq_true, if_true, bind, Outcome.bind, (by decide : ¬ (32 = 36)),
    (by decide : ¬ (32 = 126)), (by decide : ¬ (32 = 83))]
  unfold unpackRest
  simp [hp, hse, digitsAt, at?, digit_is ha, digit_is hb, digit_is hc, digit_is hd, OBJ_DESIG_OTHER, hxy,
    OBJ_DESIG_ASTEROID_PROVISIONAL]

/-- **C22**, survey numbers 1000 to 8999: packing `nnnn P-L` (and T-1, T-2, T-3) succeeds and unpacking
    gives it back with the code of a provisional asteroid designation.
    Full statement (false, see `C22_large_number`): the same for all four-digit numbers. -/
theorem C22_survey_partial (n : Nat) (ns sv : List Nat) (hn : Padded 4 n ns) (hsv : sv ∈ surveyNames)
    (h1 : 1000 ≤ n) (h2 : n ≤ 8999) :
    (createPackedDesig (ns ++ [32] ++ sv)).1 = 0 ∧ (createPackedDesig (ns ++ [32] ++ sv)).2.length = 12 ∧
      unpackMpcDesig (createPackedDesig (ns ++ [32] ++ sv)).2 = .ok (0, ns ++ [32] ++ sv) := by
  have hy := year_shape hn (by omega)
  subst hy
  have ha : 49 ≤ 48 + n / 1000 ∧ 48 + n / 1000 ≤ 56 := by omega
  have hb : 48 ≤ 48 + n / 100 % 10 ∧ 48 + n / 100 % 10 ≤ 57 := by omega
  have hc : 48 ≤ 48 + n / 10 % 10 ∧ 48 + n / 10 % 10 ≤ 57 := by omega
  have hd : 48 ≤ 48 + n % 10 ∧ 48 + n % 10 ≤ 57 := by omega
  have ha' : 48 ≤ 48 + n / 1000 ∧ 48 + n / 1000 ≤ 57 := by omega
  have hsv' : ∃ x y u, sv = [x, 45, y] ∧ ([x, 45, y], [x, u, 83]) ∈ surveys ∧ u = y ∧
      ((x = 80 ∧ y = 76) ∨ (x = 84 ∧ 49 ≤ y ∧ y ≤ 51)) := by
    simp only [surveyNames, List.mem_cons, List.not_mem_nil, or_false] at hsv
    rcases hsv with rfl | rfl | rfl | rfl
    · exact ⟨80, 76, 76, by decide, by decide, by decide, by decide⟩
    · exact ⟨84, 49, 49, by decide, by decide, by decide, by decide⟩
    · exact ⟨84, 50, 50, by decide, by decide, by decide, by decide⟩
    · exact ⟨84, 51, 51, by decide, by decide, by decide, by decide⟩
  obtain ⟨x, y, u, rfl, hmem, rfl, hxy⟩ := hsv'
  have := create_survey ha hb hc hd _ hmem
  simp only [List.cons_append, List.nil_append] at this ⊢
  rw [this]
  exact ⟨rfl, rfl, unpack_survey ha' hb hc hd hxy⟩

example : createPackedDesig (bytes "6743 P-L") = (0, bytes "     PLS6743") := by decide +kernel
example : Padded 4 6743 (bytes "6743") := ⟨by intro c hc; revert c; decide, by decide, by decide⟩

/-- **C22** is violated for the survey numbers from 9000 on (such as 9538 P-L): they are not packed. -/
theorem C22_large_number : createPackedDesig (bytes "9538 P-L") = (-1, bytes "$9538 P-L   ") := by decide +kernel

/-- `YYYY-NNN` followed by one to three capitals. -/
structure International (y n : Nat) (ls s : List Nat) : Prop where
  shape : ∃ ys ns, Padded 4 y ys ∧ Padded 3 n ns ∧ s = ys ++ [45] ++ ns ++ ls
  letters : ∀ c ∈ ls, Capital c
  count : 1 ≤ ls.length ∧ ls.length ≤ 3

theorem unpack_artsat {a b c d e f g : Nat} {t : List Nat} (ha : 48 ≤ a ∧ a ≤ 57) (hb : 48 ≤ b ∧ b ≤ 57)
    (hc : 48 ≤ c ∧ c ≤ 57) (hd : 48 ≤ d ∧ d ≤ 57) (he : 48 ≤ e ∧ e ≤ 57) (hf : 48 ≤ f ∧ f ≤ 57)
    (hg : 48 ≤ g ∧ g ≤ 57) (hy1 : 1956 < (a - 48) * 1000 + (b - 48) * 100 + (c - 48) * 10 + (d - 48))
    (hy2 : (a - 48) * 1000 + (b - 48) * 100 + (c - 48) * 10 + (d - 48) < 2100)
    (hl : isUpper (at? t 0) = true) (ht : t.length = 4) :
    unpackMpcDesig (a :: b :: c :: d :: 45 :: e :: f :: g :: t) =
      .ok (6, asIs (a :: b :: c :: d :: 45 :: e :: f :: g :: t)) := by
  have hp : unpackProv (e :: f :: g :: t) = ⟨-1, some []⟩ := by
    unfold unpackProv
    rw [if_neg (by rw [at_zero]; omega), if_neg (by rw [at_zero]; omega)]
  have hae : a ≠ 36 := by omega
  have ha2 : a ≠ 126 := by omega
  have ha3 : a ≠ 32 := by omega
  have he3 : e ≠ 32 := by omega
  have e1 : isDigit 45 = false := by decide
  have e2 : strchr (bytes "PCDXAI") 45 = false := by decide
  have hart : isArtsatDesig (a :: b :: c :: d :: 45 :: e :: f :: g :: t) = true := by
    have h0 : artsatHere (a :: b :: c :: d :: 45 :: e :: f :: g :: t) = true := by
      have hat : atoi (a :: b :: c :: d :: 45 :: e :: f :: g :: t) =
          (((a - 48) * 1000 + (b - 48) * 100 + (c - 48) * 10 + (d - 48) : Nat) : Int) := by
        unfold atoi
        have hsp : isSpace a = false := by simp [isSpace]; omega
        rw [hsp, if_neg (by simp), if_neg (by omega), if_neg (by omega),
          (year_read ha hb hc hd (45 :: e :: f :: g :: t) (by rw [at_zero]; decide)).1]
      unfold artsatHere
      rw [hat]
      simp only [at_succ, at_zero, digit_is he, digit_is hf, digit_is hg, hl]
      simp
      omega
    unfold isArtsatDesig
    rw [h0]
    simp [ht]
  have hs1 : spacesAt (a :: b :: c :: d :: 45 :: e :: f :: g :: t) [0, 1, 2, 3] = false := by
    simp [spacesAt, at?, ha3]
  have hs2 : spacesAt (a :: b :: c :: d :: 45 :: e :: f :: g :: t) [5, 6, 7, 8, 9] = false := by
    simp [spacesAt, at?, he3]
  have hs3 : spacesExactly (a :: b :: c :: d :: 45 :: e :: f :: g :: t) [0, 1, 2, 3, 4] = false := by
    simp [spacesExactly, List.range, List.range.loop, at?, ha3]
  unfold unpackMpcDesig
  simp only [at_zero, at_succ, unpackNatsat, List.drop_succ_cons, List.drop_zero, hp, hae, ha2, hs2, e1, e2,
    Bool.false_eq_true, false_and, if_false, ne_eq, not_false_eq_true, if_true, bind, Outcome.bind,
    (by decide : ¬ (45 = 83)), not_true_eq_false, or_false, and_false, reduceCtorEq]
  unfold unpackRest
  simp [hs1, hs3, hart, OBJ_DESIG_OTHER, OBJ_DESIG_ARTSAT]

/-- **C25.** Every international designator of a year from 1957 to 2099 is packed as it stands (filled
    with spaces) and unpacks to itself with the code of an artificial satellite (6). -/
theorem C25_artsat (y n : Nat) (ls s : List Nat) (hs : International y n ls s) (h1 : 1957 ≤ y) (h2 : y ≤ 2099)
    (h3 : n ≤ 999) :
    createPackedDesig s = (0, s ++ List.replicate (12 - s.length) 32) ∧
      unpackMpcDesig (createPackedDesig s).2 = .ok (6, s) := by
  obtain ⟨⟨ys, ns, hys, hns, rfl⟩, hlet, hcnt⟩ := hs
  have hy := year_shape hys (by omega)
  have hn : ns = [48 + n / 100, 48 + n / 10 % 10, 48 + n % 10] := by
    rw [hns.eq_pad (by decide), pad3 (by omega)]
  subst hy hn
  have ha : 48 ≤ 48 + y / 1000 ∧ 48 + y / 1000 ≤ 57 := by omega
  have hb : 48 ≤ 48 + y / 100 % 10 ∧ 48 + y / 100 % 10 ≤ 57 := by omega
  have hc : 48 ≤ 48 + y / 10 % 10 ∧ 48 + y / 10 % 10 ≤ 57 := by omega
  have hd : 48 ≤ 48 + y % 10 ∧ 48 + y % 10 ≤ 57 := by omega
  have he : 48 ≤ 48 + n / 100 ∧ 48 + n / 100 ≤ 57 := by omega
  have hf : 48 ≤ 48 + n / 10 % 10 ∧ 48 + n / 10 % 10 ≤ 57 := by omega
  have hg : 48 ≤ 48 + n % 10 ∧ 48 + n % 10 ≤ 57 := by omega
  have hv := year_value (y := y) (by omega)
  generalize 48 + y / 1000 = a at *
  generalize 48 + y / 100 % 10 = b at *
  generalize 48 + y / 10 % 10 = c at *
  generalize 48 + y % 10 = d at *
  generalize 48 + n / 100 = e at *
  generalize 48 + n / 10 % 10 = f at *
  generalize 48 + n % 10 = g at *
  simp only [List.cons_append, List.nil_append]
  have hl0 : Capital (at? ls 0) := by
    cases ls with
    | nil => simp at hcnt
    | cons l ls => exact hlet l (by simp)
  have hcreate : createPackedDesig (a :: b :: c :: d :: 45 :: e :: f :: g :: ls) =
      (0, put blank12 0 (a :: b :: c :: d :: 45 :: e :: f :: g :: ls)) := by
    rw [create_plain _ (by rw [at_zero]; omega) (by rw [at_zero]; omega) (by rw [at_succ, at_zero]; omega)]
    have htl : trimLen (a :: b :: c :: d :: 45 :: e :: f :: g :: ls) (a :: b :: c :: d :: 45 :: e :: f :: g :: ls).length
        = 8 + ls.length := by
      rcases List.eq_nil_or_concat ls with rfl | ⟨t, x, rfl⟩
      · simp at hcnt
      · rw [List.concat_eq_append] at *
        have hx : Capital x := hlet x (by simp)
        have := trimLen_full (a :: b :: c :: d :: 45 :: e :: f :: g :: t) x (by unfold Capital at hx; omega)
        simp only [List.cons_append] at this
        rw [this]; simp; omega
    have hyr := year_read ha hb hc hd (45 :: e :: f :: g :: ls) (by rw [at_zero]; decide)
    unfold createCore
    simp only [hyr, Bool.false_eq_true, if_false, htl]
    rw [hv, show y % 4294967296 = y by omega]
    have e1 : strchr (bytes "PDI") 45 = false := by decide
    have e2 : isUpper 45 = false := by decide
    have hne : (4 == 8 + ls.length) = false := by simp; omega
    have hl9 : 9 ≤ 8 + ls.length ∧ 8 + ls.length ≤ 11 := by omega
    have hy1 : 1957 ≤ y ∧ y < 2100 := by omega
    unfold createBranch
    have htake : (a :: b :: c :: d :: 45 :: e :: f :: g :: ls).take (8 + ls.length) =
        a :: b :: c :: d :: 45 :: e :: f :: g :: ls := by
      apply List.take_of_length_le; simp; omega
    simp only [at_succ, at_zero, e1, e2, Bool.false_eq_true, and_false, if_false, hne, Bool.false_and, Bool.or_false,
      false_and, ne_eq, not_true_eq_false, (by decide : ¬ (45 = 32)), hl9, hy1, true_and, and_self, if_true,
      digit_is he, digit_is hf, digit_is hg, upper_is hl0, htake]
  have hput : put blank12 0 (a :: b :: c :: d :: 45 :: e :: f :: g :: ls) =
      a :: b :: c :: d :: 45 :: e :: f :: g :: ls ++ List.replicate (12 - (a :: b :: c :: d :: 45 :: e :: f :: g :: ls).length) 32 := by
    match ls, hcnt with
    | [p], _ => rfl
    | [p, q], _ => rfl
    | [p, q, r], _ => rfl
    | [], h => simp at h
    | p :: q :: r :: t :: u, h => simp at h
  rw [hcreate, hput]
  refine ⟨rfl, ?_⟩
  have hu := unpack_artsat (a := a) (b := b) (c := c) (d := d) (e := e) (f := f) (g := g)
    (t := ls ++ List.replicate (12 - (a :: b :: c :: d :: 45 :: e :: f :: g :: ls).length) 32)
    ha hb hc hd he hf hg (by omega) (by omega)
    (by
      cases ls with
      | nil => simp at hcnt
      | cons l ls => exact upper_is hl0)
    (by simp; omega)
  simp only [List.cons_append] at hu ⊢
  rw [hu]
  congr 2
  have ha3 : a ≠ 32 := by omega
  have hcap : ∀ x, Capital x → ¬ x ≤ 32 := by unfold Capital; intro x hx; omega
  match ls, hcnt, hlet with
  | [p], _, hl => simp [asIs, List.replicate, ha3, hcap p (hl p (by simp))]
  | [p, q], _, hl => simp [asIs, List.replicate, ha3, hcap q (hl q (by simp))]
  | [p, q, r], _, hl => simp [asIs, List.replicate, ha3, hcap r (hl r (by simp))]
  | [], h, _ => simp at h
  | p :: q :: r :: t :: u, h, _ => simp at h

example : createPackedDesig (bytes "2000-357KHA") = (0, bytes "2000-357KHA ") := by decide +kernel
example : International 1992 44 [65] (bytes "1992-044A") :=
  ⟨⟨bytes "1992", bytes "044", ⟨by intro c hc; revert c; decide, by decide, by decide⟩,
    ⟨by intro c hc; revert c; decide, by decide, by decide⟩, by decide⟩, by simp [Capital], by decide⟩

end Verif.Props
