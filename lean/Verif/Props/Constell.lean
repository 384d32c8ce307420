import Verif.Model.Constell
import Verif.Spec.Sky
import Mathlib.Algebra.Order.Floor.Semiring
import Mathlib.Data.Rat.Floor
import Mathlib.Tactic.Linarith

/-!
# Property theorems: constellation lookup (C39)
-/

namespace Verif.Props

open Verif Verif.Constell Verif.Spec

/-- The table as a list of lines on the sky. -/
def skyLines : List Line := bounds.map fun b => ⟨b.spd, b.ra, b.dRa, b.idx⟩

/-! ## The table -/

/-- What a pair of rows, the first one earlier in the table, has to satisfy. -/
def rowsOk (a b : Bound) : Bool :=
  decide (b.spd ≤ a.spd) && (!decide (a.spd = b.spd) ||
    ((decide (a.ra + a.dRa ≤ b.ra) || decide (b.ra + b.dRa ≤ a.ra)) &&
     (decide (a.ra + a.dRa ≤ b.ra + 86400) || decide (b.ra + 86400 + b.dRa ≤ a.ra)) &&
     (decide (a.ra + a.dRa ≤ b.ra - 86400) || decide (b.ra - 86400 + b.dRa ≤ a.ra))))

theorem bounds_length : bounds.length = 324 := by decide +kernel

theorem bounds_rows : ∀ b ∈ bounds, b.idx < 88 ∧ b.ra < 86400 ∧ 0 < b.dRa ∧ b.dRa ≤ 86400 ∧ b.ra + b.dRa ≤ 172800 := by
  decide +kernel

/-- The same for a whole table, with fewer comparisons. -/
def tableOk : List Bound → Bool
  | [] => true
  | a :: l => (l.takeWhile fun b => Nat.beq (a.raSpd / 131072) (b.raSpd / 131072)).all (rowsOk a) &&
      (l.head?.all fun b => Nat.ble (b.raSpd / 131072) (a.raSpd / 131072)) && tableOk l

theorem tableOk_sorted : ∀ l : List Bound, tableOk l = true → ∀ a ∈ l.head?, ∀ b ∈ l, b.spd ≤ a.spd
  | [], _, a, h, _, _ => by simp at h
  | c :: l, h, a, ha, b, hb => by
    simp only [tableOk, Bool.and_eq_true] at h
    simp only [List.head?_cons, Option.mem_def, Option.some.injEq] at ha
    subst ha
    rcases List.mem_cons.1 hb with rfl | hb
    · omega
    · cases l with
      | nil => simp at hb
      | cons d l =>
        have h1 := tableOk_sorted (d :: l) h.2 d (by simp) b hb
        have h2 : Nat.ble (d.raSpd / 131072) (c.raSpd / 131072) = true := by simpa using h.1.2
        have h2 := Nat.le_of_ble_eq_true h2
        unfold Bound.spd at h1 ⊢
        omega

theorem tableOk_pairs : ∀ l : List Bound, tableOk l = true → l.Pairwise fun a b => rowsOk a b = true
  | [], _ => List.Pairwise.nil
  | a :: l, h => by
    have hs := tableOk_sorted (a :: l) h a (by simp)
    simp only [tableOk, Bool.and_eq_true] at h
    refine List.pairwise_cons.2 ⟨fun b hb => ?_, tableOk_pairs l h.2⟩
    by_cases hq : b ∈ l.takeWhile fun b => Nat.beq (a.raSpd / 131072) (b.raSpd / 131072)
    · exact List.all_eq_true.1 h.1.1 b hq
    · have hne : a.spd ≠ b.spd := by
        intro he
        apply hq
        have hle : ∀ c ∈ l, (c.raSpd / 131072) ≤ a.raSpd / 131072 := by
          intro c hc
          have := hs c (by simp [hc])
          unfold Bound.spd at this
          omega
        have heq : b.raSpd / 131072 = a.raSpd / 131072 := by unfold Bound.spd at he; omega
        have hall := h.2
        clear hs hq h he
        induction l with
        | nil => simp at hb
        | cons d l ih =>
          have hd : d.raSpd / 131072 = a.raSpd / 131072 := by
            have h1 := hle d (by simp)
            have h2 := tableOk_sorted (d :: l) hall d (by simp) b hb
            unfold Bound.spd at h2
            omega
          rw [List.takeWhile_cons, if_pos (by rw [hd]; exact Nat.beq_refl _)]
          rcases List.mem_cons.1 hb with rfl | hb
          · simp
          · simp only [tableOk, Bool.and_eq_true] at hall
            exact List.mem_cons_of_mem _ (ih hb (fun c hc => hle c (by simp [hc])) hall.2)
      have hle := hs b (by simp [hb])
      unfold rowsOk
      simp [hne, hle]

theorem bounds_ok : tableOk bounds = true := by decide +kernel

theorem bounds_pairs : bounds.Pairwise fun a b => rowsOk a b = true := tableOk_pairs _ bounds_ok

theorem ra_nonneg (b : Bound) : 0 ≤ b.ra := by unfold Bound.ra; omega

theorem entry_ok {i : Nat} (h : i < 324) : ∃ b, bounds[i]? = some b ∧ entry i = .ok b := by
  have : i < bounds.length := by rw [bounds_length]; exact h
  refine ⟨bounds[i], List.getElem?_eq_getElem this, ?_⟩
  unfold entry
  simp [List.getElem?_eq_getElem this]

theorem pair_at {i j : Nat} {a b : Bound} (hij : i < j) (ha : bounds[i]? = some a) (hb : bounds[j]? = some b) :
    rowsOk a b = true := by
  obtain ⟨hi, rfl⟩ := List.getElem?_eq_some_iff.1 ha
  obtain ⟨hj, rfl⟩ := List.getElem?_eq_some_iff.1 hb
  exact List.pairwise_iff_getElem.1 bounds_pairs i j hi hj hij

theorem spd_at {i j : Nat} {a b : Bound} (hij : i < j) (ha : bounds[i]? = some a) (hb : bounds[j]? = some b) :
    b.spd ≤ a.spd := by
  have := pair_at hij ha hb
  unfold rowsOk at this
  simp only [Bool.and_eq_true, decide_eq_true_eq] at this
  exact this.1

/-- The test in the code is the test on the circle. -/
theorem inRange_iff {b : Bound} (hb : b ∈ bounds) {ra : Int} (h0 : 0 ≤ ra) (h1 : ra < 86400) :
    inRange ra b = true ↔ Line.Over ⟨b.spd, b.ra, b.dRa, b.idx⟩ ra := by
  obtain ⟨-, h2, -, -, h4⟩ := bounds_rows b hb
  have h5 := ra_nonneg b
  unfold inRange Line.Over
  simp only [Bool.or_eq_true, Bool.and_eq_true, decide_eq_true_eq, ge_iff_le]
  constructor
  · rintro (⟨h, h'⟩ | ⟨h, h'⟩)
    · exact ⟨0, by omega, by omega⟩
    · exact ⟨1, by omega, by omega⟩
  · rintro ⟨k, h, h'⟩
    have : k = 0 ∨ k = 1 := by omega
    rcases this with rfl | rfl
    · left; omega
    · right; omega

/-- Two rows of the same declination have no right ascension in common. -/
theorem rows_disjoint {i j : Nat} {a b : Bound} (hij : i < j) (ha : bounds[i]? = some a) (hb : bounds[j]? = some b)
    (hs : a.spd = b.spd) {ra : Int} (h1 : Line.Over ⟨a.spd, a.ra, a.dRa, a.idx⟩ ra)
    (h2 : Line.Over ⟨b.spd, b.ra, b.dRa, b.idx⟩ ra) : False := by
  have h := pair_at hij ha hb
  obtain ⟨-, a2, -, -, a4⟩ := bounds_rows a (List.mem_of_getElem? ha)
  obtain ⟨-, b2, -, -, b4⟩ := bounds_rows b (List.mem_of_getElem? hb)
  have a5 := ra_nonneg a
  have b5 := ra_nonneg b
  unfold rowsOk at h
  simp only [Bool.and_eq_true, Bool.or_eq_true, Bool.not_eq_true', decide_eq_true_eq, decide_eq_false_iff_not] at h
  obtain ⟨k, p, p'⟩ := h1
  obtain ⟨l, q, q'⟩ := h2
  simp only at p p' q q'
  obtain ⟨-, h | ⟨⟨h3, h4⟩, h5⟩⟩ := h
  · exact h hs
  · have hkl : k - l = -1 ∨ k - l = 0 ∨ k - l = 1 := by omega
    rcases hkl with e | e | e
    · have : k = l - 1 := by omega
      subst this; omega
    · have : k = l := by omega
      subst this; omega
    · have : k = l + 1 := by omega
      subst this; omega

/-! ## The search -/

theorem search_spec (spd : Int) : ∀ (k : Nat) (idx : Int), -1 ≤ idx → idx < 324 →
    (∀ i : Nat, (i : Int) ≤ idx → ∀ b, bounds[i]? = some b → spd < b.spd) →
    (∀ i : Nat, idx + 2 ^ k ≤ i → ∀ b, bounds[i]? = some b → ¬ spd < b.spd) →
    ∃ r, search spd k idx = .ok r ∧ -1 ≤ r ∧ r < 324 ∧
      (∀ i : Nat, (i : Int) ≤ r → ∀ b, bounds[i]? = some b → spd < b.spd) ∧
      (∀ i : Nat, r < i → ∀ b, bounds[i]? = some b → ¬ spd < b.spd)
  | 0, idx, h1, h2, h3, h4 => ⟨idx, rfl, h1, h2, h3, fun i hi => h4 i (by simp; omega)⟩
  | k + 1, idx, h1, h2, h3, h4 => by
    have hp : (0 : Int) < 2 ^ k := by positivity
    rw [search]
    split
    · rename_i hlt
      obtain ⟨n, hn⟩ : ∃ n : Nat, (n : Int) = idx + 2 ^ k := ⟨(idx + 2 ^ k).toNat, by omega⟩
      obtain ⟨b, hb, he⟩ := entry_ok (i := n) (by omega)
      rw [← hn, he]
      simp only [Outcome.bind]
      split
      · rename_i hs
        refine search_spec spd k n (by omega) (by omega) ?_ ?_
        · intro i hi c hc
          rcases Nat.lt_or_ge i n with h | h
          · exact lt_of_lt_of_le hs (spd_at h hc hb)
          · have : i = n := by omega
            subst this
            rw [hb] at hc
            exact Option.some.inj hc ▸ hs
        · intro i hi
          exact h4 i (by rw [pow_succ]; omega)
      · rename_i hs
        refine search_spec spd k idx h1 h2 h3 ?_
        intro i hi c hc hlt
        rcases Nat.lt_or_ge n i with h | h
        · exact hs (lt_of_lt_of_le hlt (spd_at h hb hc))
        · have : i = n := by omega
          subst this
          rw [hb] at hc
          exact hs (Option.some.inj hc ▸ hlt)
    · rename_i hge
      refine search_spec spd k idx h1 h2 h3 ?_
      intro i hi c hc
      obtain ⟨hi', -⟩ := List.getElem?_eq_some_iff.1 hc
      rw [bounds_length] at hi'
      omega

theorem scan_spec (ra : Int) : ∀ n : Nat, n ≤ 324 →
    (∃ i b, i < n ∧ bounds[i]? = some b ∧ inRange ra b = true ∧ scan ra n = .ok b.idx ∧
      ∀ j c, i < j → j < n → bounds[j]? = some c → ¬ inRange ra c = true) ∨
    ((∀ j c, j < n → bounds[j]? = some c → ¬ inRange ra c = true) ∧ scan ra n = .ok 83)
  | 0, _ => .inr ⟨by intro j c h; omega, rfl⟩
  | n + 1, h => by
    obtain ⟨b, hb, he⟩ := entry_ok (i := n) (by omega)
    rw [scan, he]
    simp only [Outcome.bind]
    by_cases hr : inRange ra b = true
    · rw [if_pos hr]
      exact .inl ⟨n, b, by omega, hb, hr, rfl, by intro j c h1 h2; omega⟩
    · rw [if_neg hr]
      rcases scan_spec ra n (by omega) with ⟨i, c, h1, h2, h3, h4, h5⟩ | ⟨h1, h2⟩
      · refine .inl ⟨i, c, by omega, h2, h3, h4, ?_⟩
        intro j d hj hj' hd
        rcases Nat.lt_or_ge j n with h' | h'
        · exact h5 j d hj h' hd
        · have : j = n := by omega
          subst this
          rw [hb] at hd
          exact Option.some.inj hd ▸ hr
      · refine .inr ⟨?_, h2⟩
        intro j d hj hd
        rcases Nat.lt_or_ge j n with h' | h'
        · exact h1 j d h' hd
        · have : j = n := by omega
          subst this
          rw [hb] at hd
          exact Option.some.inj hd ▸ hr

/-! ## The properties -/

/-- **C39.** The lookup stops without leaving the table, gives a number from 0 to 87, and it is the region of the
    first line to the north, or Ursa Minor when there is none. -/
theorem C39_lookup (ra spd : Int) (h0 : 0 ≤ ra) (h1 : ra < 86400) :
    ∃ r, constellCore ra spd = .ok r ∧ 0 ≤ r ∧ r ≤ 87 ∧ RegionAt skyLines 83 ra spd r := by
  obtain ⟨idx, hs, hi1, hi2, hn, hsth⟩ := search_spec spd 9 (-1) (by omega) (by omega)
    (by intro i hi; omega)
    (by intro i hi c hc
        obtain ⟨hi', -⟩ := List.getElem?_eq_some_iff.1 hc
        rw [bounds_length] at hi'
        omega)
  unfold constellCore
  rw [hs]
  simp only [Outcome.bind]
  have hmem : ∀ l ∈ skyLines, ∃ (j : Nat) (c : Bound), bounds[j]? = some c ∧ l = ⟨c.spd, c.ra, c.dRa, c.idx⟩ := by
    intro l hl
    obtain ⟨c, hc, rfl⟩ := List.mem_map.1 hl
    obtain ⟨j, hj⟩ := List.mem_iff_getElem?.1 hc
    exact ⟨j, c, hj, rfl⟩
  rcases scan_spec ra (idx + 1).toNat (by omega) with ⟨i, b, p1, p2, p3, p4, p5⟩ | ⟨p1, p2⟩
  · have hbm := List.mem_of_getElem? p2
    have hb := bounds_rows b hbm
    refine ⟨b.idx, p4, by omega, by omega, .inl ⟨⟨b.spd, b.ra, b.dRa, b.idx⟩, ⟨?_, ?_, ?_, ?_⟩, rfl⟩⟩
    · exact List.mem_map.2 ⟨b, hbm, rfl⟩
    · exact (inRange_iff hbm h0 h1).1 p3
    · exact hn i (by omega) b p2
    · intro l hl hov hlt
      obtain ⟨j, c, hj, rfl⟩ := hmem l hl
      have hji : j ≤ i := by
        by_contra hcon
        refine p5 j c (by omega) ?_ hj ((inRange_iff (List.mem_of_getElem? hj) h0 h1).2 hov)
        by_contra hc2
        exact hsth j (by omega) c hj hlt
      rcases Nat.lt_or_ge j i with h | h
      · exact spd_at h hj p2
      · have : j = i := by omega
        subst this
        rw [p2] at hj
        obtain rfl := Option.some.inj hj
        exact le_refl _
  · refine ⟨83, p2, by omega, by omega, .inr ⟨?_, rfl⟩⟩
    intro l hl hov hlt
    obtain ⟨j, c, hj, rfl⟩ := hmem l hl
    refine p1 j c ?_ hj ((inRange_iff (List.mem_of_getElem? hj) h0 h1).2 hov)
    by_contra hc2
    exact hsth j (by omega) c hj hlt

/-- **C39.** The region of a point is unique: lines at the same declination never overlap. -/
theorem C39_unique (ra spd r r' : Int) (h : RegionAt skyLines 83 ra spd r) (h' : RegionAt skyLines 83 ra spd r') :
    r = r' := by
  rcases h with ⟨l, ⟨m, o, n, f⟩, rfl⟩ | ⟨n, rfl⟩
  · rcases h' with ⟨l', ⟨m', o', n', f'⟩, rfl⟩ | ⟨n', rfl⟩
    · have hs : l.spd = l'.spd := le_antisymm (f l' m' o' n') (f' l m o n)
      obtain ⟨b, hb, rfl⟩ := List.mem_map.1 m
      obtain ⟨b', hb', rfl⟩ := List.mem_map.1 m'
      obtain ⟨i, hi⟩ := List.mem_iff_getElem?.1 hb
      obtain ⟨j, hj⟩ := List.mem_iff_getElem?.1 hb'
      rcases Nat.lt_trichotomy i j with h | h | h
      · exact (rows_disjoint h hi hj hs o o').elim
      · subst h
        rw [hi] at hj
        obtain rfl := Option.some.inj hj
        rfl
      · exact (rows_disjoint h hj hi hs.symm o' o).elim
    · exact (n' l m o n).elim
  · rcases h' with ⟨l', ⟨m', o', n', f'⟩, rfl⟩ | ⟨n', rfl⟩
    · exact (n l' m' o' n').elim
    · rfl

/-- The standard abbreviations, in the order of the codes. -/
def abbreviations : List String := ["And", "Ant", "Aps", "Aql", "Aqr", "Ara", "Ari", "Aur", "Boo", "Cae", "Cam", "Cap",
  "Car", "Cas", "Cen", "Cep", "Cet", "Cha", "Cir", "CMa", "CMi", "Cnc", "Col", "Com", "CrA", "CrB", "Crt", "Cru",
  "Crv", "CVn", "Cyg", "Del", "Dor", "Dra", "Equ", "Eri", "For", "Gem", "Gru", "Her", "Hor", "Hya", "Hyi", "Ind",
  "Lac", "Leo", "Lep", "Lib", "LMi", "Lup", "Lyn", "Lyr", "Men", "Mic", "Mon", "Mus", "Nor", "Oct", "Oph", "Ori",
  "Pav", "Peg", "Per", "Phe", "Pic", "PsA", "Psc", "Pup", "Pyx", "Ret", "Scl", "Sco", "Sct", "Ser", "Sex", "Sge",
  "Sgr", "Tau", "Tel", "TrA", "Tri", "Tuc", "UMa", "UMi", "Vel", "Vir", "Vol", "Vul"]

theorem names_table : (List.range 88).map (fun (i : Nat) => nameOf i) = abbreviations.map fun s => .ok (bytes s) := by
  decide +kernel

/-- **C39.** Every code has its abbreviation. -/
theorem C39_name (r : Nat) (h : r < 88) :
    ∃ s, abbreviations[r]? = some s ∧ nameOf r = .ok (bytes s) := by
  have h1 : abbreviations.length = 88 := by decide +kernel
  have ha : r < abbreviations.length := by omega
  refine ⟨abbreviations[r], List.getElem?_eq_getElem ha, ?_⟩
  have := congrArg (fun l => l[r]?) names_table
  simpa [List.getElem?_map, List.getElem?_range h, List.getElem?_eq_getElem ha] using this

/-- **C39.** The 88 abbreviations are different. -/
theorem C39_names_differ : abbreviations.Nodup ∧ abbreviations.length = 88 := by decide +kernel

/-- One point in each constellation. -/
def samplePoints : List (Int × Int) := [
  (600, 6664), (34200, 3024), (49200, 839), (68400, 4699), (79200, 3924), (60600, 1499), (6000, 5999), (21600,
  7109), (48600, 5909), (15600, 2509), (12000, 8564), (72000, 3764), (33000, 1199), (600, 8219), (40800,
  1584), (79200, 8579), (0, 3924), (27600, 839), (49200, 1349), (22200, 3529), (26400, 5489), (28800, 5849),
  (18000, 2879), (43200, 6259), (64200, 2759), (55200, 7019), (39000, 3936), (42600, 1584), (42600, 3936),
  (48000, 7139), (69600, 7079), (73200, 5564), (16800, 1349), (66000, 8279), (75000, 5564), (4800, 1919),
  (6000, 3014), (22800, 6149), (79200, 2009), (58200, 5669), (7800, 1499), (39000, 3419), (0, 839), (76800,
  1199), (82200, 7499), (39000, 5159), (17400, 3809), (54000, 3649), (37800, 6824), (51000, 2129), (28200,
  7439), (68400, 6959), (12600, 449), (73200, 2759), (21000, 4799), (40800, 1199), (55200, 1859), (0, 299),
  (60600, 3629), (18600, 4799), (64800, 1199), (78000, 5519), (10200, 7244), (0, 1919), (21600, 1584), (76800,
  3194), (0, 5039), (21600, 2399), (30600, 3239), (12000, 1499), (0, 3014), (59400, 2759), (66000, 4499),
  (61800, 4499), (34800, 4799), (71400, 6359), (69000, 2759), (12000, 5399), (64800, 2009), (53400, 1349),
  (6000, 6929), (3000, 899), (39600, 7199), (50400, 9389), (31800, 2099), (46200, 4199), (24000, 1199),
  (69600, 6569)]

theorem sample_table : samplePoints.map (fun p => constellCore p.1 p.2) = (List.range 88).map fun (i : Nat) => .ok (i : Int) := by
  decide +kernel

/-- **C39.** All 88 constellations occur. -/
theorem C39_all_occur (r : Nat) (h : r < 88) :
    ∃ ra spd : Int, 0 ≤ ra ∧ ra < 86400 ∧ 0 ≤ spd ∧ spd ≤ 10800 ∧ constellCore ra spd = .ok r := by
  have hl : samplePoints.length = 88 := by decide +kernel
  have hr : ∀ p ∈ samplePoints, 0 ≤ p.1 ∧ p.1 < 86400 ∧ 0 ≤ p.2 ∧ p.2 ≤ 10800 := by decide +kernel
  have ha : r < samplePoints.length := by omega
  obtain ⟨h1, h2, h3, h4⟩ := hr _ (List.getElem_mem ha)
  refine ⟨samplePoints[r].1, samplePoints[r].2, h1, h2, h3, h4, ?_⟩
  have := congrArg (fun l => l[r]?) sample_table
  simpa [List.getElem?_map, List.getElem?_range h, List.getElem?_eq_getElem ha] using this

/-- **C39.** Everything within two degrees of the north pole is in Ursa Minor, everything within five degrees of the
    south pole in Octans. -/
theorem C39_poles (ra spd : Int) (h0 : 0 ≤ ra) (h1 : ra < 86400) :
    (10680 ≤ spd → constellCore ra spd = .ok 83) ∧ (spd < 300 → constellCore ra spd = .ok 57) := by
  obtain ⟨r, hr, -, -, hreg⟩ := C39_lookup ra spd h0 h1
  rw [hr]
  refine ⟨fun h => ?_, fun h => ?_⟩
  · have : RegionAt skyLines 83 ra spd 83 := by
      refine .inr ⟨?_, rfl⟩
      have hmax : ∀ l ∈ skyLines, l.spd ≤ 10680 := by decide +kernel
      intro l hl _ hlt
      have := hmax l hl
      omega
    rw [C39_unique ra spd r 83 hreg this]
  · have hmin : ∀ l ∈ skyLines, 300 ≤ l.spd := by decide +kernel
    have m1 : (⟨300, 0, 43200, 57⟩ : Line) ∈ skyLines := by decide +kernel
    have m2 : (⟨300, 43200, 43200, 57⟩ : Line) ∈ skyLines := by decide +kernel
    have : RegionAt skyLines 83 ra spd 57 := by
      by_cases hh : ra < 43200
      · exact .inl ⟨_, ⟨m1, ⟨0, by simp; omega, by simp; omega⟩, h, fun l hl _ _ => hmin l hl⟩, rfl⟩
      · exact .inl ⟨_, ⟨m2, ⟨0, by simp; omega, by simp; omega⟩, h, fun l hl _ _ => hmin l hl⟩, rfl⟩
    rw [C39_unique ra spd r 57 hreg this]

/-- Directly south of both ends of the line a different constellation begins. -/
def fullWidth (b : Bound) : Bool :=
  constellCore ((b.ra - 1) % 86400) (b.spd - 1) != .ok b.idx &&
  constellCore ((b.ra + b.dRa) % 86400) (b.spd - 1) != .ok b.idx

theorem fullWidth_table : ∀ b ∈ bounds, b.idx = 57 ∨ fullWidth b = true := by decide +kernel

/-- **C39.** The table fits together: each line outside Octans stretches over the full width that its constellation
    has just south of it, and no further. -/
theorem C39_full_width (l : Line) (h : l ∈ skyLines) (h57 : l.region ≠ 57) (ra : Int) (hr : ra = l.ra - 1 ∨ ra = l.ra + l.width) :
    ¬ RegionAt skyLines 83 (ra % 86400) (l.spd - 1) l.region := by
  intro hreg
  obtain ⟨b, hb, rfl⟩ := List.mem_map.1 h
  obtain ⟨r, e, -, -, hreg'⟩ := C39_lookup (ra % 86400) (b.spd - 1) (by omega) (by omega)
  have := C39_unique _ _ _ _ hreg' hreg
  subst this
  rcases fullWidth_table b hb with h2 | h2
  · exact h57 (by simp [h2])
  · unfold fullWidth at h2
    simp only [Bool.and_eq_true, bne_iff_ne, ne_eq] at h2
    rcases hr with rfl | rfl
    · exact h2.1 e
    · exact h2.2 e

/-- **C39.** Along the whole line, its constellation is the one just south of it. -/
theorem C39_south_of_line (l : Line) (h : l ∈ skyLines) (ra : Int) (ho : l.Over ra) :
    RegionAt skyLines 83 ra (l.spd - 1) l.region :=
  .inl ⟨l, ⟨h, ho, by omega, fun _ _ _ h' => by omega⟩, rfl⟩

section
variable {K : Type*} [Field K] [LinearOrder K] [IsStrictOrderedRing K] [FloorRing K]

/-- **C39.** For a position with right ascension from 0 up and declination from -90 to 90, the lookup gives the region
    of the cell, one second of right ascension by one minute of declination, in which the position lies; and its
    name. -/
theorem C39_position (ra dec : K) (h0 : 0 ≤ ra) (h1 : ra ≤ 8900000) (h2 : -90 ≤ dec) (h3 : dec ≤ 90) :
    ∃ (r : Nat) (s : String), abbreviations[r]? = some s ∧ constell ra dec = .ok ((r : Int), bytes s) ∧
      RegionAt skyLines 83 (⌊ra * 240⌋ % 86400) ⌊(dec + 90) * 60⌋ r := by
  have t1 : 0 ≤ ⌊ra * 240⌋ := Int.floor_nonneg.2 (by linarith)
  have t2 : ⌊ra * 240⌋ ≤ 2136000000 := by
    have : (⌊ra * 240⌋ : K) ≤ ra * 240 := Int.floor_le _
    have h : (⌊ra * 240⌋ : K) ≤ ((2136000000 : Int) : K) := by push_cast; linarith
    exact_mod_cast h
  have s1 : 0 ≤ ⌊(dec + 90) * 60⌋ := Int.floor_nonneg.2 (by nlinarith)
  have s2 : ⌊(dec + 90) * 60⌋ ≤ 10800 := by
    have : (⌊(dec + 90) * 60⌋ : K) ≤ (dec + 90) * 60 := Int.floor_le _
    have h : (⌊(dec + 90) * 60⌋ : K) ≤ ((10800 : Int) : K) := by push_cast; linarith
    exact_mod_cast h
  obtain ⟨r, hr, r0, r87, hreg⟩ := C39_lookup (⌊ra * 240⌋ % 86400) ⌊(dec + 90) * 60⌋ (by omega) (by omega)
  obtain ⟨n, rfl⟩ : ∃ n : Nat, r = n := ⟨r.toNat, by omega⟩
  obtain ⟨s, hs, hn⟩ := C39_name n (by omega)
  refine ⟨n, s, hs, ?_, hreg⟩
  have e1 : trunc (ra * 240) = ⌊ra * 240⌋ := by unfold trunc; rw [if_pos (by linarith)]
  have e2 : trunc ((dec + 90) * 60) = ⌊(dec + 90) * 60⌋ := by unfold trunc; rw [if_pos (by nlinarith)]
  unfold constell
  simp only [e1, e2]
  rw [if_neg (by omega), if_neg (by omega), Int.tmod_eq_emod_of_nonneg (by omega),
    show (⌊ra * 240⌋ + 864000) % 86400 = ⌊ra * 240⌋ % 86400 by omega, hr]
  simp only [Outcome.bind, hn]

/-- **C39.** A full turn more makes no difference. -/
theorem C39_periodic (ra dec : K) (h0 : 0 ≤ ra) (h1 : ra + 360 ≤ 8900000) (h2 : -90 ≤ dec) (h3 : dec ≤ 90) :
    constell (ra + 360) dec = constell ra dec := by
  obtain ⟨r, s, hs, he, hr⟩ := C39_position ra dec h0 (by linarith) h2 h3
  obtain ⟨r', s', hs', he', hr'⟩ := C39_position (ra + 360) dec (by linarith) h1 h2 h3
  have e : ⌊(ra + 360) * 240⌋ = ⌊ra * 240⌋ + 86400 := by
    rw [show (ra + 360) * 240 = ra * 240 + ((86400 : Int) : K) by push_cast; ring, Int.floor_add_intCast]
  rw [e, Int.add_emod_right] at hr'
  have := C39_unique _ _ _ _ hr hr'
  have hrr : r = r' := by exact_mod_cast this
  subst hrr
  rw [hs] at hs'
  obtain rfl := Option.some.inj hs'
  rw [he, he']

end

/-- **C39.** Outside the quantifier: a negative right ascension is cut towards zero, so that in the last second before
    a boundary the answer differs from that for the same direction counted as positive. -/
theorem C39_negative_ra :
    constell (-7201 / 480 : ℚ) (10679 / 60 - 90) = .ok (15, bytes "Cep") ∧
    constell (-7201 / 480 + 360 : ℚ) (10679 / 60 - 90) = .ok (83, bytes "UMi") := by decide +kernel

/-- **C39.** Outside the quantifier: more than ten turns below zero the lines that run across right ascension zero are
    missed. -/
theorem C39_far_negative_ra :
    constell (300 / 240 - 3960 : ℚ) (10679 / 60 - 90) = .ok (83, bytes "UMi") ∧
    constell (300 / 240 : ℚ) (10679 / 60 - 90) = .ok (15, bytes "Cep") := by decide +kernel

example : constell (101 : ℚ) (-16) = .ok (19, bytes "CMa") := by decide +kernel

end Verif.Props
