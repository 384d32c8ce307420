import Verif.Model.Date
import Verif.Lemmas.CInt
import Verif.Spec.Calendar

/-!
Lemmas about the year search and month scan of `day_to_dmy`, for an arbitrary family of year
data whose years follow each other without gaps.
-/

namespace Verif.Date

/-- Years `lo..hi` have data `f`, start in increasing order and leave no gaps. -/
structure Covers (data : Int → Option YearData) (f : Int → YearData) (lo hi : Int) : Prop where
  data_eq : ∀ y, lo ≤ y → y ≤ hi → data y = some (f y)
  mono : ∀ y, lo ≤ y → y < hi → (f y).start < (f (y + 1)).start
  cover : ∀ y, lo ≤ y → y < hi → (f (y + 1)).start ≤ (f y).stop

variable {data : Int → Option YearData} {f : Int → YearData} {lo hi : Int}

theorem searchYear_mono (data : Int → Option YearData) (jd : Int) :
    ∀ (n : Nat) (g : Int) (r : Search) (k : Nat),
      searchYear data jd n g = some r → searchYear data jd (n + k) g = some r := by
  intro n
  induction n with
  | zero => intro g r k h; simp [searchYear] at h
  | succ n ih =>
    intro g r k h
    rw [show n + 1 + k = (n + k) + 1 by omega]
    simp only [searchYear] at h ⊢
    split at h <;> rename_i h' <;> simp_all

theorem searchYear_unique (data : Int → Option YearData) (jd : Int) (n m : Nat) (g : Int)
    (r r' : Search) (h : searchYear data jd n g = some r) (h' : searchYear data jd m g = some r') :
    r = r' := by
  have a := searchYear_mono data jd n g r m h
  have b := searchYear_mono data jd m g r' n h'
  rw [show m + n = n + m by omega] at b
  rw [a] at b; exact Option.some.inj b

theorem Covers.start_le (h : Covers data f lo hi) :
    ∀ (n : Nat) (y : Int), lo ≤ y → y + n ≤ hi → (f y).start + n ≤ (f (y + n)).start := by
  intro n
  induction n with
  | zero => intro y _ _; simp
  | succ n ih =>
    intro y h1 h2
    have a := ih y h1 (by omega)
    have b := h.mono (y + n) (by omega) (by omega)
    rw [show y + ((n + 1 : Nat) : Int) = y + n + 1 by omega]
    omega

theorem Covers.start_lt (h : Covers data f lo hi) {y z : Int} (h1 : lo ≤ y) (h2 : y < z)
    (h3 : z ≤ hi) : (f y).start < (f z).start := by
  have a := h.start_le (z - y).toNat y h1 (by omega)
  rw [show y + ((z - y).toNat : Int) = z by omega] at a
  omega

/-- The search ends in a year containing `jd`, starting above. -/
theorem Covers.search_down (h : Covers data f lo hi) (jd : Int) (hlo : (f lo).start ≤ jd) :
    ∀ (n : Nat) (g : Int), lo + n = g → g ≤ hi → (g < hi → jd < (f (g + 1)).start) →
      (jd < (f g).stop) →
      ∃ y, searchYear data jd (n + 1) g = some (.found y (f y)) ∧ lo ≤ y ∧ y ≤ g ∧
        (f y).start ≤ jd ∧ jd < (f y).stop := by
  intro n
  induction n with
  | zero =>
    intro g hg hgh hj hs
    have : g = lo := by omega
    subst this
    refine ⟨g, ?_, by omega, by omega, hlo, hs⟩
    simp only [searchYear, searchStep, h.data_eq g (by omega) hgh]
    have h1 : ¬ (f g).start > jd := by omega
    have h2 : ¬ (f g).stop ≤ jd := by omega
    simp [h1, h2]
  | succ n ih =>
    intro g hg hgh hj hs
    by_cases hc : (f g).start ≤ jd
    · refine ⟨g, ?_, by omega, by omega, hc, hs⟩
      simp only [searchYear, searchStep, h.data_eq g (by omega) hgh]
      have h1 : ¬ (f g).start > jd := by omega
      have h2 : ¬ (f g).stop ≤ jd := by omega
      simp [h1, h2]
    · have c := h.cover (g - 1) (by omega) (by omega)
      rw [show g - 1 + 1 = g by omega] at c
      obtain ⟨y, e, a1, a2, a3, a4⟩ := ih (g - 1) (by omega) (by omega)
        (by intro _; rw [show g - 1 + 1 = g by omega]; omega) (by omega)
      refine ⟨y, ?_, a1, by omega, a3, a4⟩
      rw [searchYear, searchStep, h.data_eq g (by omega) hgh]
      have h1 : (f g).start > jd := by omega
      have h2 : ¬ (f g).stop ≤ jd := by omega
      simp [h1, h2, e]

/-- The search ends in a year containing `jd`, starting at or below. -/
theorem Covers.search_up (h : Covers data f lo hi) (jd : Int) (hhi : jd < (f hi).stop) :
    ∀ (n : Nat) (g : Int), g + n = hi → lo ≤ g → (f g).start ≤ jd →
      ∃ y, searchYear data jd (n + 1) g = some (.found y (f y)) ∧ g ≤ y ∧ y ≤ hi ∧
        (f y).start ≤ jd ∧ jd < (f y).stop := by
  intro n
  induction n with
  | zero =>
    intro g hg hgl hs
    have : g = hi := by omega
    subst this
    refine ⟨g, ?_, by omega, by omega, hs, hhi⟩
    simp only [searchYear, searchStep, h.data_eq g (by omega) (by omega)]
    have h1 : ¬ (f g).start > jd := by omega
    have h2 : ¬ (f g).stop ≤ jd := by omega
    simp [h1, h2]
  | succ n ih =>
    intro g hg hgl hs
    by_cases hc : jd < (f g).stop
    · refine ⟨g, ?_, by omega, by omega, hs, hc⟩
      simp only [searchYear, searchStep, h.data_eq g (by omega) (by omega)]
      have h1 : ¬ (f g).start > jd := by omega
      have h2 : ¬ (f g).stop ≤ jd := by omega
      simp [h1, h2]
    · have c := h.cover g (by omega) (by omega)
      obtain ⟨y, e, a1, a2, a3, a4⟩ := ih (g + 1) (by omega) (by omega) (by omega)
      refine ⟨y, ?_, by omega, a2, a3, a4⟩
      rw [searchYear, searchStep, h.data_eq g (by omega) (by omega)]
      have h1 : ¬ (f g).start > jd := by omega
      have h2 : (f g).stop ≤ jd := by omega
      simp [h1, h2, e]

/-- Search terminates, from any first guess in the range, in a year containing `jd`. -/
theorem Covers.search (h : Covers data f lo hi) (jd g : Int) (hg : lo ≤ g) (hg' : g ≤ hi)
    (hlo : (f lo).start ≤ jd) (hhi : jd < (f hi).stop) :
    ∃ fuel y, searchYear data jd fuel g = some (.found y (f y)) ∧ lo ≤ y ∧ y ≤ hi ∧
        (f y).start ≤ jd ∧ jd < (f y).stop := by
  by_cases hc : (f g).start ≤ jd
  · obtain ⟨y, e, a1, a2, a3, a4⟩ :=
      h.search_up jd hhi (hi - g).toNat g (by omega) hg hc
    exact ⟨_, y, e, by omega, a2, a3, a4⟩
  · have hgt : lo < g := by
      by_cases hh : g = lo
      · subst hh; omega
      · omega
    have c := h.cover (g - 1) (by omega) (by omega)
    rw [show g - 1 + 1 = g by omega] at c
    obtain ⟨y, e, a1, a2, a3, a4⟩ :=
      h.search_down jd hlo (g - 1 - lo).toNat (g - 1) (by omega) (by omega)
        (by intro _; rw [show g - 1 + 1 = g by omega]; omega) (by omega)
    refine ⟨(g - 1 - lo).toNat + 1 + 1, y, ?_, a1, by omega, a3, a4⟩
    rw [searchYear, searchStep, h.data_eq g (by omega) hg']
    have h1 : (f g).start > jd := by omega
    by_cases h2 : (f g).stop ≤ jd
    · exfalso
      by_cases hh : g = hi
      · subst hh; omega
      · have c1 := h.cover g (by omega) (by omega)
        have c2 := h.mono g (by omega) (by omega)
        omega
    · simp [h1, h2, e]

/-- Every year: no bounds. -/
structure CoversAll (data : Int → Option YearData) (f : Int → YearData) : Prop where
  data_eq : ∀ y, data y = some (f y)
  mono : ∀ y, (f y).start < (f (y + 1)).start
  cover : ∀ y, (f (y + 1)).start ≤ (f y).stop

theorem CoversAll.covers (h : CoversAll data f) (lo hi : Int) : Covers data f lo hi :=
  ⟨fun y _ _ => h.data_eq y, fun y _ _ => h.mono y, fun y _ _ => h.cover y⟩

theorem CoversAll.start_lt (h : CoversAll data f) {y z : Int} (h2 : y < z) :
    (f y).start < (f z).start := (h.covers y z).start_lt (by omega) h2 (by omega)

theorem CoversAll.start_ge (h : CoversAll data f) (y : Int) (n : Nat) :
    (f y).start + n ≤ (f (y + n)).start := (h.covers y (y + n)).start_le n y (by omega) (by omega)

theorem CoversAll.search (h : CoversAll data f) (jd g : Int) :
    ∃ fuel y, searchYear data jd fuel g = some (.found y (f y)) ∧
        (f y).start ≤ jd ∧ jd < (f y).stop := by
  -- bounds far enough on both sides
  have a := h.start_ge (g - ((f g).start - jd).toNat) ((f g).start - jd).toNat
  rw [show g - (((f g).start - jd).toNat : Int) + (((f g).start - jd).toNat : Int) = g by omega] at a
  have b := h.start_ge g (jd - (f g).start).toNat
  have c := h.cover (g + (jd - (f g).start).toNat)
  have d := h.mono (g + (jd - (f g).start).toNat)
  obtain ⟨fuel, y, e, _, _, h1, h2⟩ :=
    (h.covers (g - ((f g).start - jd).toNat) (g + (jd - (f g).start).toNat)).search jd g
      (by omega) (by omega) (by omega) (by omega)
  exact ⟨fuel, y, e, h1, h2⟩

/-- The month loop finds the month containing the day, if all lengths are non-negative and
    `jd` lies within the year. -/
theorem scanMonths_spec (jd : Int) :
    ∀ (ms : List Int) (i : Nat) (cur last : Int), (∀ m ∈ ms, 0 ≤ m) → cur ≤ jd →
      jd < cur + ms.sum →
      ∃ (k : Nat) (len : Int), ms[k]? = some len ∧
        scanMonths jd i cur ms last = (jd - (cur + (ms.take k).sum) + 1, (i : Int) + k + 1) ∧
        cur + (ms.take k).sum ≤ jd ∧ jd < cur + (ms.take k).sum + len := by
  intro ms
  induction ms with
  | nil => intro i cur last _ h1 h2; simp at h2; omega
  | cons m ms ih =>
    intro i cur last hm h1 h2
    simp only [List.sum_cons] at h2
    by_cases hc : jd - cur < m
    · refine ⟨0, m, by simp, ?_, by simpa using h1, by simp; omega⟩
      simp [scanMonths, hc]
    · have hm0 := hm m (by simp)
      obtain ⟨k, len, e1, e2, e3, e4⟩ := ih (i + 1) (cur + m) (jd - cur)
        (fun x hx => hm x (by simp [hx])) (by omega) (by omega)
      refine ⟨k + 1, len, by simpa using e1, ?_, ?_, ?_⟩
      · simp only [scanMonths, hc, if_false, e2, List.take_succ_cons, List.sum_cons]
        ext
        · simp; omega
        · simp; omega
      · simp only [List.take_succ_cons, List.sum_cons]; omega
      · simp only [List.take_succ_cons, List.sum_cons]; omega

end Verif.Date
