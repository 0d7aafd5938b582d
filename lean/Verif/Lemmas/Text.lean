import Verif.Model.Text
import Mathlib.Data.List.TakeWhile
import Mathlib.Tactic.Ring
import Mathlib.Tactic.Linarith
namespace Verif.Text

theorem dec_digit (n : ℕ) (c : Char) (h : c ∈ dec n) : c.isDigit = true :=
  Nat.isDigit_of_mem_toDigits (by norm_num) (by norm_num) h

theorem dec_ne_nil (n : ℕ) : dec n ≠ [] := Nat.toDigits_ne_nil

theorem ofDigit_dec (n : ℕ) : Nat.ofDigitChars 10 (dec n) 0 = n := Nat.ofDigitChars_ten_toDigits

theorem dec_injective {a b : ℕ} (h : dec a = dec b) : a = b := by
  rw [← ofDigit_dec a, h, ofDigit_dec]

theorem digit_not_space (c : Char) (h : c.isDigit = true) : isSpace c = false := by
  by_contra hc
  rw [Bool.not_eq_false] at hc
  unfold isSpace at hc
  simp only [Bool.or_eq_true, beq_iff_eq] at hc
  rcases hc with ((((rfl | rfl) | rfl) | rfl) | rfl) | rfl <;> exact absurd h (by decide)

/-- Splitting at the first character that is not in the class. -/
theorem takeWhile_append_stop {p : Char → Bool} (w : Str) (s : Str) (hw : ∀ c ∈ w, p c = true) (hs : ∀ c t, s = c :: t → p c = false) :
    (w ++ s).takeWhile p = w ∧ (w ++ s).dropWhile p = s := by
  induction w with
  | nil =>
    cases s with
    | nil => simp
    | cons c t => simp [hs c t rfl]
  | cons a w ih =>
    have := ih (fun c hc => hw c (List.mem_cons_of_mem _ hc))
    simp [hw a (by simp), this]

/-- The text before the first separator. -/
theorem sep_unique {c : Char} {a b s t : Str} (ha : c ∉ a) (hb : c ∉ b) (h : a ++ c :: s = b ++ c :: t) : a = b ∧ s = t := by
  induction a generalizing b with
  | nil =>
    cases b with
    | nil => simpa using h
    | cons x b =>
      simp only [List.nil_append, List.cons_append, List.cons.injEq] at h
      exact absurd (by rw [h.1]; simp) hb
  | cons x a ih =>
    cases b with
    | nil =>
      simp only [List.nil_append, List.cons_append, List.cons.injEq] at h
      exact absurd (by rw [h.1]; simp) ha
    | cons y b =>
      simp only [List.cons_append, List.cons.injEq] at h
      obtain ⟨rfl, h⟩ := h
      obtain ⟨h1, h2⟩ := ih (fun hc => ha (List.mem_cons_of_mem _ hc)) (fun hc => hb (List.mem_cons_of_mem _ hc)) h
      exact ⟨by rw [h1], h2⟩

theorem not_mem_dec (n : ℕ) (c : Char) (hc : c.isDigit = false) : c ∉ dec n := by
  intro h
  rw [dec_digit n c h] at hc
  cases hc

theorem skipWs_of (s : Str) (h : ∀ c t, s = c :: t → isSpace c = false) : skipWs s = s := by
  cases s with
  | nil => rfl
  | cons c t => simp [skipWs, h c t rfl]

theorem dec_append_head (n : ℕ) (s : Str) : ∀ c t, dec n ++ s = c :: t → isSpace c = false := by
  intro c t h
  cases hd : dec n with
  | nil => exact absurd hd (dec_ne_nil n)
  | cons a l =>
    rw [hd] at h
    simp only [List.cons_append, List.cons.injEq] at h
    rw [← h.1]
    exact digit_not_space _ (dec_digit n a (by rw [hd]; simp))

/-- Extraction of a number followed by something that is not a digit. -/
theorem readUInt_dec (n : ℕ) (s : Str) (hn : n < 2 ^ 32) (hs : ∀ c t, s = c :: t → c.isDigit = false) :
    readUInt (dec n ++ s) = some (n, s) := by
  unfold readUInt
  rw [skipWs_of _ (dec_append_head n s)]
  obtain ⟨h1, h2⟩ := takeWhile_append_stop (p := Char.isDigit) (dec n) s (dec_digit n) hs
  simp only [h1, h2, ofDigit_dec, if_neg (dec_ne_nil n), if_pos hn]

theorem skipWs_cons (c : Char) (s : Str) (h : isSpace c = true) : skipWs (c :: s) = skipWs s := by
  simp [skipWs, h]

theorem readUInt_ws (c : Char) (s : Str) (h : isSpace c = true) : readUInt (c :: s) = readUInt s := by
  unfold readUInt
  rw [skipWs_cons c s h]

theorem readInt_ws (c : Char) (s : Str) (h : isSpace c = true) : readInt (c :: s) = readInt s := by
  unfold readInt
  rw [skipWs_cons c s h]

theorem readWord_ws (c : Char) (s : Str) (h : isSpace c = true) : readWord (c :: s) = readWord s := by
  unfold readWord
  rw [skipWs_cons c s h]

theorem readInt_decInt (z : ℤ) (s : Str) (h1 : -2 ^ 31 ≤ z) (h2 : z < 2 ^ 31) (hs : ∀ c t, s = c :: t → c.isDigit = false) :
    readInt (decInt z ++ s) = some (z, s) := by
  unfold readInt decInt
  by_cases hz : z < 0
  · rw [if_pos hz]
    have hsk : skipWs ('-' :: dec z.natAbs ++ s) = '-' :: (dec z.natAbs ++ s) := by
      simp [skipWs, isSpace]
    rw [hsk]
    obtain ⟨e1, e2⟩ := takeWhile_append_stop (p := Char.isDigit) (dec z.natAbs) s (dec_digit _) hs
    have hv : (-(z.natAbs : ℤ)) = z := by omega
    simp only [List.head?_cons, BEq.rfl, if_true, List.tail_cons, e1, e2, if_neg (dec_ne_nil _), ofDigit_dec, hv]
    rw [if_pos ⟨h1, h2⟩]
  · rw [if_neg hz]
    rw [skipWs_of _ (dec_append_head _ s)]
    have hh : ((dec z.natAbs ++ s).head? == some '-') = false := by
      cases hd : dec z.natAbs with
      | nil => exact absurd hd (dec_ne_nil _)
      | cons a l =>
        have := dec_digit z.natAbs a (by rw [hd]; simp)
        simp only [List.cons_append, List.head?_cons]
        rw [beq_eq_false_iff_ne]
        intro h
        cases h
        exact absurd this (by decide)
    obtain ⟨e1, e2⟩ := takeWhile_append_stop (p := Char.isDigit) (dec z.natAbs) s (dec_digit _) hs
    have hv : ((z.natAbs : ℤ)) = z := by omega
    simp only [hh, Bool.false_eq_true, if_false, e1, e2, if_neg (dec_ne_nil _), ofDigit_dec, hv]
    rw [if_pos ⟨h1, h2⟩]

theorem readWord_append (w s : Str) (hw : ∀ c ∈ w, isSpace c = false) (hne : w ≠ []) (hs : ∀ c t, s = c :: t → isSpace c = true) :
    readWord (w ++ s) = some (w, s) := by
  unfold readWord
  have hsk : skipWs (w ++ s) = w ++ s := by
    apply skipWs_of
    intro c t h
    cases w with
    | nil => exact absurd rfl hne
    | cons a l =>
      simp only [List.cons_append, List.cons.injEq] at h
      rw [← h.1]
      exact hw a (by simp)
  rw [hsk]
  obtain ⟨e1, e2⟩ := takeWhile_append_stop (p := fun c => !isSpace c) w s (fun c hc => by simp [hw c hc]) (fun c t h => by simp [hs c t h])
  simp only [e1, e2, if_neg hne]

theorem readChar_of (c : Char) (s : Str) (h : isSpace c = false) : readChar (c :: s) = some (c, s) := by
  simp [readChar, skipWs, h]

theorem lines_cons_line (w s : Str) (hw : '\n' ∉ w) : lines (w ++ '\n' :: s) = w :: lines s := by
  induction w with
  | nil => simp [lines]
  | cons a w ih =>
    have ha : a ≠ '\n' := fun h => hw (by rw [h]; simp)
    have := ih (fun h => hw (List.mem_cons_of_mem _ h))
    simp [lines, ha, this]

theorem findLast_append (c : Char) (a b : Str) (hb : c ∉ b) : findLast c (a ++ c :: b) = some a.length := by
  unfold findLast
  have : (a ++ c :: b).reverse = b.reverse ++ c :: a.reverse := by simp
  rw [this]
  have hi : (b.reverse ++ c :: a.reverse).idxOf? c = some b.length := by
    generalize hr : b.reverse = r
    have hc : c ∉ r := by rw [← hr]; simpa using hb
    have hl : b.length = r.length := by rw [← hr]; simp
    rw [hl]
    clear hr hl
    induction r with
    | nil => simp [List.idxOf?_cons]
    | cons x r ih =>
      have hx : x ≠ c := fun h => hc (by rw [h]; simp)
      have := ih (fun h => hc (List.mem_cons_of_mem _ h))
      simp [List.idxOf?_cons, hx, this]
  rw [hi]
  simp

theorem replaceAt_append (a b w s : Str) : replaceAt a.length b.length w (a ++ b ++ s) = a ++ w ++ s := by
  unfold replaceAt
  simp

end Verif.Text
