import Verif.Model.CString
import Verif.Spec.CString
import Verif.Lemmas.Desig

/-!
# Property theorems: bounded string functions (C28), remove_char (C29), appending (C55)
-/

namespace Verif.Props

open Verif Verif.CString Verif.Spec

theorem at_lt {s : List Nat} (hs : NoNul s) {i : Nat} (h : i < s.length) : at? s i ≠ 0 := by
  have : at? s i = s[i] := by simp [at?, h]
  rw [this]; exact hs _ (List.getElem_mem h)

theorem at_ge {s : List Nat} {i : Nat} (h : s.length ≤ i) : at? s i = 0 := by
  simp [at?, h]

/-- What the copying loop does: `k` bytes are copied, `k` being the lesser of the room and the string
    (with its terminator, if that fits). -/
theorem cpyLoop_eq (src : List Nat) (hs : NoNul src) (n : Nat) (m : Mem) (d s : Nat) (hss : s ≤ src.length) :
    cpyLoop src n m d s =
      if n ≤ src.length - s then
        ((fun a => if d ≤ a ∧ a < d + n then at? src (a - d + s) else m a), 0, d + n, s + n)
      else
        ((fun a => if d ≤ a ∧ a < d + (src.length - s) + 1 then at? src (a - d + s) else m a),
          n - (src.length - s), d + (src.length - s) + 1, src.length + 1) := by
  induction n generalizing m d s with
  | zero =>
    rw [if_pos (Nat.zero_le _), cpyLoop]
    simp only [Nat.add_zero, Prod.mk.injEq, and_true]
    funext a
    rw [if_neg (by omega)]
  | succ n ih =>
    rw [cpyLoop]
    by_cases h0 : s = src.length
    · subst h0
      rw [at_ge (Nat.le_refl _), if_pos rfl, if_neg (by omega)]
      simp only [Nat.sub_self, Nat.add_zero, Prod.mk.injEq, and_true, Nat.sub_zero]
      funext a
      unfold write
      by_cases ha : a = d
      · subst ha; rw [if_pos rfl, if_pos (by omega), at_ge (by omega)]
      · rw [if_neg ha, if_neg (by omega)]
    · have hlt : s < src.length := by omega
      rw [if_neg (at_lt hs hlt), ih _ _ _ (by omega)]
      by_cases hn : n + 1 ≤ src.length - s
      · rw [if_pos hn, if_pos (by omega)]
        simp only [Prod.mk.injEq]
        refine ⟨?_, trivial, by omega, by omega⟩
        funext a
        unfold write
        by_cases ha : a = d
        · subst ha; rw [if_neg (by omega), if_pos rfl, if_pos (by omega), Nat.sub_self, Nat.zero_add]
        · by_cases hb : d + 1 ≤ a ∧ a < d + 1 + n
          · rw [if_pos hb, if_pos (by omega)]; congr 1; omega
          · rw [if_neg hb, if_neg ha, if_neg (by omega)]
      · rw [if_neg hn, if_neg (by omega)]
        simp only [Prod.mk.injEq]
        refine ⟨?_, by omega, by omega, trivial⟩
        funext a
        unfold write
        by_cases ha : a = d
        · subst ha; rw [if_neg (by omega), if_pos rfl, if_pos (by omega), Nat.sub_self, Nat.zero_add]
        · by_cases hb : d + 1 ≤ a ∧ a < d + 1 + (src.length - (s + 1)) + 1
          · rw [if_pos hb, if_pos (by omega)]; congr 1; omega
          · rw [if_neg hb, if_neg ha, if_neg (by omega)]

theorem skipToEnd_eq (src : List Nat) (hs : NoNul src) (fuel s : Nat) (h : s ≤ src.length) (hf : src.length - s ≤ fuel) :
    skipToEnd src fuel s = src.length + 1 := by
  induction fuel generalizing s with
  | zero => rw [skipToEnd]; omega
  | succ n ih =>
    rw [skipToEnd]
    by_cases h0 : s = src.length
    · subst h0; rw [at_ge (Nat.le_refl _), if_pos rfl]
    · rw [if_neg (at_lt hs (by omega))]
      exact ih _ (by omega) (by omega)

/-- The memory after `strlcpy`, byte by byte. -/
theorem strlcpy_eq (m : Mem) (dst : Nat) (src : List Nat) (dsize : Nat) (hs : NoNul src) :
    strlcpy m dst src dsize =
      ((fun a => if dst ≤ a ∧ a < dst + dsize ∧ a ≤ dst + src.length then
          (if a + 1 = dst + dsize then 0 else at? src (a - dst)) else m a), src.length) := by
  unfold strlcpy
  by_cases h0 : dsize = 0
  · subst h0
    simp only [ne_eq, not_true_eq_false, ↓reduceIte]
    rw [skipToEnd_eq src hs _ _ (by omega) (by omega)]
    simp only [Nat.add_sub_cancel, Prod.mk.injEq, and_true]
    funext a
    rw [if_neg (by omega)]
  · rw [if_pos h0, cpyLoop_eq src hs _ _ _ _ (Nat.zero_le _)]
    by_cases hn : dsize - 1 ≤ src.length - 0
    · rw [if_pos hn]
      simp only [↓reduceIte]
      rw [if_pos h0, skipToEnd_eq src hs _ _ (by omega) (by omega)]
      simp only [Nat.add_sub_cancel, Prod.mk.injEq, and_true]
      funext a
      unfold write
      by_cases ha : a = dst + (dsize - 1)
      · rw [if_pos ha, if_pos (by omega), if_pos (by omega)]
      · by_cases hb : dst ≤ a ∧ a < dst + (dsize - 1)
        · rw [if_neg ha]
          show (if _ then _ else _) = _
          rw [if_pos hb, if_pos (by omega), if_neg (by omega), Nat.add_zero]
        · rw [if_neg ha]
          show (if _ then _ else _) = _
          rw [if_neg hb, if_neg (by omega)]
    · rw [if_neg hn]
      simp only []
      rw [if_neg (by omega)]
      simp only [Nat.add_sub_cancel, Prod.mk.injEq, and_true]
      funext a
      by_cases hb : dst ≤ a ∧ a < dst + (src.length - 0) + 1
      · rw [if_pos hb, if_pos (by omega), if_neg (by omega), Nat.add_zero]
      · rw [if_neg hb, if_neg (by omega)]

/-- **C28.** `strlcpy`: it returns the length of the source, changes nothing outside the buffer, and
    (for a non-empty buffer) leaves there the longest prefix that fits, terminated. -/
theorem C28_strlcpy (m : Mem) (dst : Nat) (src : List Nat) (dsize : Nat) (hs : NoNul src) :
    (strlcpy m dst src dsize).2 = src.length ∧
    Only m (strlcpy m dst src dsize).1 dst dsize ∧
    (0 < dsize → Holds (strlcpy m dst src dsize).1 dst (src.take (dsize - 1))) := by
  rw [strlcpy_eq m dst src dsize hs]
  refine ⟨rfl, ?_, ?_⟩
  · intro a ha
    simp only []
    rw [if_neg (by omega)]
  · intro hd
    refine ⟨?_, ?_⟩
    · intro i hi
      rw [List.length_take] at hi
      simp only []
      rw [if_pos (by omega), if_neg (by omega)]
      simp [at?, show i < dsize - 1 by omega]
    · rw [List.length_take]
      simp only []
      rw [if_pos (by omega)]
      by_cases h : dst + min (dsize - 1) src.length + 1 = dst + dsize
      · rw [if_pos h]
      · rw [if_neg h, at_ge (by omega)]

example : NoNul (bytes "Gaia") ∧ (strlcpy (fun _ => 7) 100 (bytes "Gaia") 3).2 = 4 := by
  unfold NoNul; decide

/-- The end of the string in the buffer is found, or the end of the buffer. -/
theorem findEnd_eq (m : Mem) (n d : Nat) (s : List Nat) (hs : NoNul s) (h : Holds m d s) :
    findEnd m n d = d + min n s.length := by
  induction n generalizing d s with
  | zero => simp [findEnd]
  | succ n ih =>
    rw [findEnd]
    cases s with
    | nil =>
      have : m d = 0 := h.2
      rw [if_neg (by simp [this])]; simp
    | cons c cs =>
      have h1 : m d = c := by simpa using h.1 0 (by simp)
      have hc : c ≠ 0 := hs c (by simp)
      rw [if_pos (by rw [h1]; exact hc), ih (d + 1) cs (fun x hx => hs x (by simp [hx])) ⟨?_, ?_⟩]
      · simp only [List.length_cons]; omega
      · intro i hi
        have := h.1 (i + 1) (by simp; omega)
        rw [show d + 1 + i = d + (i + 1) by omega, this]; simp
      · have := h.2
        rw [List.length_cons] at this
        rw [show d + 1 + cs.length = d + (cs.length + 1) by omega, this]

/-- Without a terminator in the buffer, the end of the buffer is found. -/
theorem findEnd_full (m : Mem) (n d : Nat) (h : ∀ i, i < n → m (d + i) ≠ 0) : findEnd m n d = d + n := by
  induction n generalizing d with
  | zero => rfl
  | succ n ih =>
    rw [findEnd, if_pos (by simpa using h 0 (by omega)), ih]
    · omega
    · intro i hi
      rw [show d + 1 + i = d + (i + 1) by omega]; exact h _ (by omega)

theorem catLoop_eq (src : List Nat) (m : Mem) (n d : Nat) :
    catLoop src m n d =
      ((fun a => if d ≤ a ∧ a < d + min n src.length then at? src (a - d) else m a), d + min n src.length) := by
  induction src generalizing m n d with
  | nil =>
    simp only [catLoop, List.length_nil, Nat.min_zero, Nat.add_zero, Prod.mk.injEq, and_true]
    funext a
    rw [if_neg (by omega)]
  | cons c cs ih =>
    rw [catLoop]
    by_cases hn : n = 0
    · subst hn
      rw [if_neg (by simp), ih]
      simp only [Nat.zero_min, Nat.add_zero, Prod.mk.injEq, and_true]
      funext a
      rw [if_neg (by omega), if_neg (by omega)]
    · rw [if_pos hn, ih]
      simp only [Prod.mk.injEq, List.length_cons]
      refine ⟨?_, by omega⟩
      funext a
      unfold write
      by_cases ha : a = d
      · subst ha
        rw [if_neg (by omega), if_pos rfl, if_pos (by omega), Nat.sub_self]; rfl
      · by_cases hb : d + 1 ≤ a ∧ a < d + 1 + min (n - 1) cs.length
        · rw [if_pos hb, if_pos (by omega), show a - d = (a - (d + 1)) + 1 by omega]; rfl
        · rw [if_neg hb, if_neg ha, if_neg (by omega)]

/-- **C28.** `strlcat` on a buffer that holds a terminated string shorter than its size: it returns the
    length wanted, changes nothing outside the buffer, and leaves the longest prefix of the
    concatenation that fits, terminated. -/
theorem C28_strlcat (m : Mem) (dst : Nat) (old src : List Nat) (dsize : Nat) (ho : NoNul old)
    (hold : Holds m dst old) (hl : old.length < dsize) :
    (strlcat m dst src dsize).2 = old.length + src.length ∧
    Only m (strlcat m dst src dsize).1 dst dsize ∧
    Holds (strlcat m dst src dsize).1 dst ((old ++ src).take (dsize - 1)) := by
  have hfe : findEnd m dsize dst = dst + old.length := by
    rw [findEnd_eq m dsize dst old ho hold]; omega
  unfold strlcat
  simp only [hfe, Nat.add_sub_cancel_left]
  rw [if_neg (by omega), catLoop_eq]
  refine ⟨rfl, ?_, ?_, ?_⟩
  · intro a ha
    simp only [write]
    rw [if_neg (by omega), if_neg (by omega)]
  · intro i hi
    rw [List.length_take, List.length_append] at hi
    simp only [write]
    rw [if_neg (by omega)]
    have e : ((old ++ src).take (dsize - 1)).getD i 0 = at? (old ++ src) i := by
      simp [at?, show i < dsize - 1 by omega]
    rw [e]
    by_cases h : i < old.length
    · rw [if_neg (by omega), hold.1 i h]
      simp [at?, List.getElem?_append, h]
    · rw [if_pos (by omega), show dst + i - (dst + old.length) = i - old.length by omega]
      simp [at?, List.getElem?_append, h]
  · rw [List.length_take, List.length_append]
    simp only [write]
    rw [if_pos (by omega)]

/-- **C28.** `strlcat` on a buffer without a terminator changes nothing and returns a value that shows
    the truncation. -/
theorem C28_strlcat_full (m : Mem) (dst : Nat) (src : List Nat) (dsize : Nat)
    (h : ∀ i, i < dsize → m (dst + i) ≠ 0) : strlcat m dst src dsize = (m, dsize + src.length) := by
  unfold strlcat
  simp only [findEnd_full m dsize dst h, Nat.add_sub_cancel_left, Nat.sub_self, if_true]

example : NoNul (bytes "ab") ∧ Holds (fun a => if a = 5 then 97 else if a = 6 then 98 else 0) 5 (bytes "ab") := by
  refine ⟨by unfold NoNul; decide, ?_, by decide⟩
  intro i hi
  have : i < 2 := hi
  have hd : ∀ i : Fin 2, (fun a => if a = 5 then 97 else if a = 6 then 98 else 0) (5 + i.val) = (bytes "ab").getD i.val 0 := by decide
  exact hd ⟨i, this⟩

/-- **C28.** The `_err` forms return exactly when nothing was lost, and then the buffer holds the whole
    string. -/
theorem C28_strlcpy_err (m : Mem) (dst : Nat) (src : List Nat) (dsize : Nat) (hs : NoNul src) :
    (src.length < dsize → ∃ m', strlcpyErr m dst src dsize = .ok (m', src.length) ∧ Holds m' dst src ∧ Only m m' dst dsize) ∧
    (dsize ≤ src.length → strlcpyErr m dst src dsize = .abort) := by
  obtain ⟨h1, h2, h3⟩ := C28_strlcpy m dst src dsize hs
  refine ⟨fun hl => ⟨(strlcpy m dst src dsize).1, ?_, ?_, h2⟩, fun hl => ?_⟩
  · unfold strlcpyErr
    simp only []
    rw [if_neg (by omega), ← h1]
  · have := h3 (by omega)
    rwa [List.take_of_length_le (by omega)] at this
  · unfold strlcpyErr
    simp only []
    rw [if_pos (by omega)]

theorem C28_strlcat_err (m : Mem) (dst : Nat) (old src : List Nat) (dsize : Nat) (ho : NoNul old)
    (hold : Holds m dst old) (hl : old.length < dsize) :
    (old.length + src.length < dsize → ∃ m', strlcatErr m dst src dsize = .ok (m', old.length + src.length) ∧
      Holds m' dst (old ++ src) ∧ Only m m' dst dsize) ∧
    (dsize ≤ old.length + src.length → strlcatErr m dst src dsize = .abort) := by
  obtain ⟨h1, h2, h3⟩ := C28_strlcat m dst old src dsize ho hold hl
  refine ⟨fun hl => ⟨(strlcat m dst src dsize).1, ?_, ?_, h2⟩, fun hl => ?_⟩
  · unfold strlcatErr
    simp only []
    rw [if_neg (by omega), ← h1]
  · rwa [List.take_of_length_le (by simp; omega)] at h3
  · unfold strlcatErr
    simp only []
    rw [if_pos (by omega)]

/-- **C55.** Appending formatted text, lenient form: the length wanted is returned, the buffer holds the
    longest prefix that fits and nothing outside is changed. -/
theorem C55_append_trunc (m : Mem) (dst : Nat) (old txt : List Nat) (maxLen : Nat) (ht : NoNul txt)
    (hold : Holds m dst old) (hl : old.length < maxLen) :
    ∃ m', snAppend false m dst old.length maxLen txt = .ok (m', txt.length + old.length) ∧
      Holds m' dst ((old ++ txt).take (maxLen - 1)) ∧ Only m m' dst maxLen := by
  obtain ⟨h1, h2, h3⟩ := C28_strlcpy m (dst + old.length) txt (maxLen - old.length) ht
  have h3 := h3 (by omega)
  refine ⟨(strlcpy m (dst + old.length) txt (maxLen - old.length)).1, ?_, ⟨?_, ?_⟩, ?_⟩
  · unfold snAppend vsnprintf
    rw [if_neg (by omega)]
    simp only [h1]
    simp
  · intro i hi
    rw [List.length_take, List.length_append] at hi
    have e : ((old ++ txt).take (maxLen - 1)).getD i 0 = at? (old ++ txt) i := by
      simp [at?, show i < maxLen - 1 by omega]
    rw [e]
    by_cases h : i < old.length
    · rw [h2 _ (by omega), hold.1 i h]
      simp [at?, List.getElem?_append, h]
    · have := h3.1 (i - old.length) (by rw [List.length_take]; omega)
      rw [show dst + old.length + (i - old.length) = dst + i by omega] at this
      rw [this]
      simp [at?, List.getElem?_append, h, show i - old.length < maxLen - old.length - 1 by omega]
  · have := h3.2
    rw [List.length_take] at this
    rw [List.length_take, List.length_append,
      show dst + min (maxLen - 1) (old.length + txt.length) = dst + old.length + min (maxLen - old.length - 1) txt.length by omega]
    exact this
  · intro a ha
    exact h2 a (by omega)

/-- **C55.** Strict form: it returns exactly when everything fits (and then gives the same result),
    otherwise the program stops. -/
theorem C55_append (m : Mem) (dst : Nat) (old txt : List Nat) (maxLen : Nat) (ht : NoNul txt)
    (hold : Holds m dst old) (hl : old.length < maxLen) :
    (old.length + txt.length < maxLen →
      ∃ m', snAppend true m dst old.length maxLen txt = .ok (m', txt.length + old.length) ∧
        Holds m' dst (old ++ txt) ∧ Only m m' dst maxLen) ∧
    (maxLen ≤ old.length + txt.length → snAppend true m dst old.length maxLen txt = .abort) := by
  obtain ⟨h1, -, -⟩ := C28_strlcpy m (dst + old.length) txt (maxLen - old.length) ht
  constructor
  · intro hlt
    obtain ⟨m', e1, e2, e3⟩ := C55_append_trunc m dst old txt maxLen ht hold hl
    refine ⟨m', ?_, ?_, e3⟩
    · rw [← e1]
      unfold snAppend vsnprintf
      rw [if_neg (by omega), if_neg (by omega)]
      simp only [h1]
      rw [if_neg (by omega), if_neg (by omega)]
    · rwa [List.take_of_length_le (by simp; omega)] at e2
  · intro hge
    unfold snAppend vsnprintf
    rw [if_neg (by omega)]
    simp only [h1]
    rw [if_pos ⟨by omega, by trivial⟩]

/-! ## remove_char -/

theorem removeLoop_eq (removed buff : Nat) (s done : List Nat) (gap : Nat) (m : Mem) (fuel : Nat)
    (hs : NoNul s)
    (hd : ∀ i, i < done.length → m (buff + i) = done.getD i 0)
    (hsrc : ∀ i, i < s.length → m (buff + (done.length + gap + i)) = s.getD i 0)
    (hz : m (buff + (done.length + gap + s.length)) = 0) (hf : s.length < fuel) :
    ∃ m', removeLoop removed buff fuel m (done.length + gap) done.length = some m' ∧
      Holds m' buff (done ++ s.filter (· != removed)) ∧ Only m m' buff (done.length + gap + s.length + 1) := by
  induction s generalizing done gap m fuel with
  | nil =>
    obtain ⟨f, rfl⟩ : ∃ f, fuel = f + 1 := ⟨fuel - 1, by simp at hf; omega⟩
    have hz' : m (buff + (done.length + gap)) = 0 := hz
    rw [removeLoop, if_pos hz']
    refine ⟨_, rfl, ?_, ?_⟩
    · simp only [List.filter_nil, List.append_nil]
      refine ⟨fun i hi => ?_, ?_⟩
      · unfold write
        rw [if_neg (by omega)]; exact hd i hi
      · unfold write; rw [if_pos rfl]
    · intro a ha
      unfold write
      rw [if_neg]
      simp only [List.length_nil] at ha; omega
  | cons c cs ih =>
    obtain ⟨f, rfl⟩ : ∃ f, fuel = f + 1 := ⟨fuel - 1, by simp at hf; omega⟩
    have hc : m (buff + (done.length + gap)) = c := by simpa using hsrc 0 (by simp)
    have hc0 : c ≠ 0 := hs c (by simp)
    have hf' : cs.length < f := by simp only [List.length_cons] at hf; omega
    have hs' : NoNul cs := fun x hx => hs x (by simp [hx])
    rw [removeLoop, if_neg (by rw [hc]; exact hc0), hc]
    by_cases hr : c = removed
    · rw [if_neg (by simp [hr])]
      obtain ⟨m', e1, e2, e3⟩ := ih done (gap + 1) m f hs' hd
        (fun i hi => by
          have := hsrc (i + 1) (by simp; omega)
          rw [show done.length + (gap + 1) + i = done.length + gap + (i + 1) by omega, this]; simp)
        (by rw [← hz]; congr 1; simp only [List.length_cons]; omega) hf'
      refine ⟨m', ?_, ?_, ?_⟩
      · rw [← e1]; rfl
      · rw [List.filter_cons, if_neg (by simp [hr])]; exact e2
      · intro a ha
        apply e3
        simp only [List.length_cons] at ha; omega
    · rw [if_pos hr]
      have hlen : (done ++ [c]).length = done.length + 1 := by simp
      obtain ⟨m', e1, e2, e3⟩ := ih (done ++ [c]) gap (write m (buff + done.length) c) f hs'
        (fun i hi => by
          rw [hlen] at hi
          unfold write
          by_cases h : i = done.length
          · subst h; rw [if_pos rfl]; simp
          · rw [if_neg (by omega), hd i (by omega)]
            simp [List.getElem?_append, show i < done.length by omega])
        (fun i hi => by
          rw [hlen]
          have := hsrc (i + 1) (by simp; omega)
          unfold write
          rw [if_neg (by omega), show done.length + 1 + gap + i = done.length + gap + (i + 1) by omega, this]; simp)
        (by
          rw [hlen]
          unfold write
          rw [if_neg (by omega), ← hz]; congr 1; simp only [List.length_cons]; omega) hf'
      rw [hlen] at e1 e3
      refine ⟨m', ?_, ?_, ?_⟩
      · rw [← e1]
        congr 1; omega
      · rw [List.filter_cons, if_pos (by simp [hr])]
        simpa using e2
      · intro a ha
        simp only [List.length_cons] at ha
        rw [e3 a (by omega)]
        unfold write
        rw [if_neg (by omega)]

/-- **C29.** `remove_char` stops, and leaves exactly the characters other than the given one, in order,
    terminated, changing no memory outside the string. -/
theorem C29_remove_char (m : Mem) (buff removed : Nat) (s : List Nat) (hs : NoNul s) (h : Holds m buff s)
    (fuel : Nat) (hf : s.length < fuel) :
    ∃ m', removeChar fuel m buff removed = some m' ∧ Holds m' buff (s.filter (· != removed)) ∧
      Only m m' buff (s.length + 1) := by
  obtain ⟨m', e1, e2, e3⟩ := removeLoop_eq removed buff s [] 0 m fuel hs (fun i hi => by simp at hi)
    (fun i hi => by rw [← h.1 i hi]; congr 1; simp)
    (by simpa using h.2) hf
  refine ⟨m', e1, by simpa using e2, ?_⟩
  intro a ha
  apply e3
  simp only [List.length_nil]; omega

end Verif.Props
