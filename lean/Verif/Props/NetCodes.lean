import Verif.Model.NetCodes
import Verif.Lemmas.Bytes

/-!
# Property theorems: catalogue codes (C26)
-/

namespace Verif.Props

open Verif Verif.Net

/-! Specification: how loosely names are compared. -/

/-- Two names agree when hyphens and spaces are left out and case is ignored. -/
def SameLetters (a b : List Nat) : Prop :=
  (a.filter fun c => c != 45 && c != 32).map toUpper = (b.filter fun c => c != 45 && c != 32).map toUpper

/-- Names free of the special combinations ".0" and "DR" (in either case). -/
def Plain (a : List Nat) : Prop := ∀ c ∈ a, c ≠ 46 ∧ c ≠ 68 ∧ c ≠ 100

/-- Facts about the whole table. -/
theorem table_nodup_except : ∀ e ∈ netCodes, ∀ f ∈ netCodes,
    reduceNetName (e.drop 1) = reduceNetName (f.drop 1) → e = f := by decide +kernel

theorem table_short : ∀ e ∈ netCodes, (reduceNetName (e.drop 1)).length < 80 := by decide +kernel
theorem table_code : ∀ e ∈ netCodes, at? e 0 ≠ 0 ∧ at? e 0 ≠ 63 := by decide +kernel

theorem search_none (r : List Nat) (es : List (List Nat)) (v : Nat)
    (h : ∀ e ∈ es, r ≠ reduceNetName (e.drop 1)) : netSearch r es v = v := by
  induction es generalizing v with
  | nil => rfl
  | cons e es ih =>
    rw [netSearch, if_neg (h e (by simp))]
    exact ih v fun f hf => h f (by simp [hf])

theorem search_some (r : List Nat) (es : List (List Nat)) (v : Nat) (e : List Nat) (he : e ∈ es)
    (hr : r = reduceNetName (e.drop 1))
    (hu : ∀ f ∈ es, reduceNetName (f.drop 1) = reduceNetName (e.drop 1) → f = e) :
    netSearch r es v = at? e 0 := by
  induction es generalizing v with
  | nil => cases he
  | cons f es ih =>
    by_cases hin : e ∈ es
    · rw [netSearch]
      exact ih _ hin fun g hg => hu g (by simp [hg])
    · have hfe : f = e := by
        rcases List.mem_cons.1 he with h | h
        · exact h.symm
        · exact absurd h hin
      subst hfe
      rw [netSearch, if_pos hr]
      apply search_none
      intro g hg hrg
      have := hu g (by simp [hg]) (by rw [← hrg, hr])
      exact hin (this ▸ hg)

/-- **C26.** The code found for a name is that of the one table entry that has the same reduced name. -/
theorem C26_found (name e : List Nat) (he : e ∈ netCodes)
    (hr : reduceNetName name = reduceNetName (e.drop 1)) : netNameToByteCode name = .ok (at? e 0) := by
  have hs := table_short e he
  unfold netNameToByteCode
  simp only []
  rw [if_neg (by rw [hr]; omega),
    search_some _ netCodes 0 e he hr (fun f hf hh => table_nodup_except f hf e he hh),
    if_neg (table_code e he).1]

/-- **C26.** A name that matches no entry is reported as unknown ('?'), provided it fits the 80-byte
    work space.  Full statement (false, `C26_overflow`): the same without `hl`. -/
theorem C26_unknown_partial (name : List Nat) (hl : (reduceNetName name).length < 80)
    (h : ∀ e ∈ netCodes, reduceNetName name ≠ reduceNetName (e.drop 1)) :
    netNameToByteCode name = .ok 63 := by
  unfold netNameToByteCode
  simp only []
  rw [if_neg (by omega), search_none _ _ _ h, if_pos rfl]

example : netNameToByteCode (bytes "Tycho-9") = .ok 63 := by decide +kernel

/-- **C26.** Codes to names and back: every code known to the library. -/
theorem C26_code_name_code (code : Nat) (name : List Nat) (h : byteCodeToNetName code = some name) :
    netNameToByteCode name = .ok code := by
  unfold byteCodeToNetName at h
  rw [Option.map_eq_some_iff] at h
  obtain ⟨e, he, rfl⟩ := h
  have h1 := List.mem_of_find?_eq_some he
  have h2 : at? e 0 = code := by simpa using List.find?_some he
  rw [← h2]
  exact C26_found _ e h1 rfl

example : byteCodeToNetName 86 = some (bytes "Gaia-DR2") := by decide +kernel

/-- **C26.** A code has a name exactly if it is an ASCII letter. -/
theorem C26_known_codes (code : Nat) : (byteCodeToNetName code).isSome = true ↔ isAlpha code = true := by
  have hall : ∀ e ∈ netCodes, isAlpha (at? e 0) = true := by decide +kernel
  constructor
  · intro h
    obtain ⟨n, hn⟩ := Option.isSome_iff_exists.1 h
    unfold byteCodeToNetName at hn
    rw [Option.map_eq_some_iff] at hn
    obtain ⟨e, he, -⟩ := hn
    have h2 : at? e 0 = code := by simpa using List.find?_some he
    rw [← h2]; exact hall e (List.mem_of_find?_eq_some he)
  · intro h
    have hlt : code < 128 := by rw [isAlpha_iff] at h; omega
    have hd : ∀ c : Fin 128, isAlpha c.val = true → (byteCodeToNetName c.val).isSome = true := by decide +kernel
    exact hd ⟨code, hlt⟩ h

/-- **C26.** Names to codes and back, up to the documented loose comparison: all table names but one. -/
theorem C26_name_code_name_partial : ∀ e ∈ netCodes, e.drop 1 ≠ bytes "Gaia-3E" →
    ∃ c, netNameToByteCode (e.drop 1) = .ok c ∧ byteCodeToNetName c = some (e.drop 1) := by
  intro e he hne
  refine ⟨at? e 0, C26_found _ e he rfl, ?_⟩
  have hd : ∀ e ∈ netCodes, e.drop 1 ≠ bytes "Gaia-3E" → byteCodeToNetName (at? e 0) = some (e.drop 1) := by
    decide +kernel
  exact hd e he hne

/-- **C26**, violated: "Gaia-3E" comes back as "Gaia-EDR3". -/
theorem C26_gaia_3E : netNameToByteCode (bytes "Gaia-3E") = .ok 88 ∧
    byteCodeToNetName 88 = some (bytes "Gaia-EDR3") := by decide +kernel

theorem reduce_plain (a : List Nat) (h : Plain a) :
    reduceNetName a = (a.filter fun c => c != 45 && c != 32).map toUpper := by
  induction a with
  | nil => rfl
  | cons c cs ih =>
    have hc := h c (by simp)
    have ih := ih fun x hx => h x (by simp [hx])
    cases cs with
    | nil =>
      by_cases h1 : c = 45
      · simp [reduceNetName, h1]
      · by_cases h2 : c = 32 <;> simp [reduceNetName, h1, h2]
    | cons d ds =>
      rw [reduceNetName, if_neg (c := c = 46 ∧ d = 48) (fun q => hc.1 q.1), if_neg (c := c = 68 ∧ d = 82) (fun q => hc.2.1 q.1), ih]
      by_cases h1 : c = 45
      · simp [h1]
      · by_cases h2 : c = 32
        · simp [h2]
        · simp [h1, h2]

/-- **C26.** Hyphens, spaces and case do not matter, in names without the special combinations. -/
theorem C26_loose (a b : List Nat) (ha : Plain a) (hb : Plain b) (h : SameLetters a b) :
    netNameToByteCode a = netNameToByteCode b := by
  have : reduceNetName a = reduceNetName b := by rw [reduce_plain a ha, reduce_plain b hb]; exact h
  unfold netNameToByteCode
  rw [this]

example : Plain (bytes "u c-ac 4") ∧ SameLetters (bytes "u c-ac 4") (bytes "UCAC-4") ∧
    netNameToByteCode (bytes "UCAC-4") = .ok 113 := by unfold Plain SameLetters; decide +kernel

/-- **C26**, violated: the spelling "Gaiadr1", which the comment in the source says is understood, is
    not; the other four are. -/
theorem C26_documented_spelling : netNameToByteCode (bytes "Gaiadr1") = .ok 63 ∧
    ∀ s ∈ [bytes "Gaia DR1.0", bytes "Gaia DR1", bytes "Gaia-DR1", bytes "Gaia1"],
      netNameToByteCode s = .ok 85 := by decide +kernel

/-- **C26**, violated: a name of eighty letters is written past the end of the work space. -/
theorem C26_overflow (n : Nat) (h : 80 ≤ n) : netNameToByteCode (List.replicate n 65) = .ub := by
  have hp : Plain (List.replicate n 65) := by
    intro c hc; rw [List.eq_of_mem_replicate hc]; decide
  have : (reduceNetName (List.replicate n 65)).length = n := by
    rw [reduce_plain _ hp, List.length_map, List.filter_eq_self.2]
    · simp
    · intro c hc; rw [List.eq_of_mem_replicate hc]; decide
  unfold netNameToByteCode
  simp only []
  rw [if_pos (by omega)]

end Verif.Props
