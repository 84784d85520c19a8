import Verif.Props.FetchIndex
import Verif.Lemmas.Strings
/-!
# What the tool reads from the web page, and where it writes (C59)
-/

namespace Tacho
open Spec

/-! ## Splitting -/

theorem splitOn_none {sep : UInt8} {p : Bytes} (h : sep ∉ p) : splitOn sep p = [p] := by
  induction p with
  | nil => rfl
  | cons b p ih =>
    simp only [List.mem_cons, not_or] at h
    rw [splitOn, if_neg (Ne.symm h.1), ih h.2]

theorem splitOn_cons {sep : UInt8} {p : Bytes} (h : sep ∉ p) (r : Bytes) :
    splitOn sep (p ++ sep :: r) = p :: splitOn sep r := by
  induction p with
  | nil => simp [splitOn]
  | cons b p ih =>
    simp only [List.mem_cons, not_or] at h
    rw [List.cons_append, splitOn, if_neg (Ne.symm h.1), ih h.2]

theorem splitOn_ne_nil (sep : UInt8) (s : Bytes) : splitOn sep s ≠ [] := by
  cases s with
  | nil => simp [splitOn]
  | cons b s => rw [splitOn]; split <;> (try split) <;> simp

/-- The text up to the first separator, and the rest. -/
theorem splitOn_step (sep : UInt8) (s : Bytes) :
    sep ∉ s ∨ ∃ p r, sep ∉ p ∧ s = p ++ sep :: r := by
  induction s with
  | nil => simp
  | cons b s ih =>
    by_cases hb : b = sep
    · exact .inr ⟨[], s, by simp, by rw [hb]; rfl⟩
    · rcases ih with h | ⟨p, r, h, rfl⟩
      · exact .inl (by simp [h, Ne.symm hb])
      · exact .inr ⟨b :: p, r, by simp [h, Ne.symm hb], rfl⟩

theorem splitOn_three {sep : UInt8} {s a b c : Bytes} (h : splitOn sep s = [a, b, c]) :
    s = a ++ sep :: (b ++ sep :: c) ∧ sep ∉ a ∧ sep ∉ b ∧ sep ∉ c := by
  rcases splitOn_step sep s with h0 | ⟨p, r, hp, rfl⟩
  · rw [splitOn_none h0] at h; simp at h
  · rw [splitOn_cons hp, List.cons.injEq] at h
    obtain ⟨rfl, h⟩ := h
    rcases splitOn_step sep r with h0 | ⟨q, r', hq, rfl⟩
    · rw [splitOn_none h0] at h; simp at h
    · rw [splitOn_cons hq, List.cons.injEq] at h
      obtain ⟨rfl, h⟩ := h
      rcases splitOn_step sep r' with h0 | ⟨u, r'', hu, rfl⟩
      · rw [splitOn_none h0, List.cons.injEq] at h
        obtain ⟨rfl, _⟩ := h
        exact ⟨rfl, hp, hq, h0⟩
      · rw [splitOn_cons hu, List.cons.injEq] at h
        exact absurd h.2 (splitOn_ne_nil _ _)

theorem splitOn_of_three {sep : UInt8} {a b c : Bytes} (ha : sep ∉ a) (hb : sep ∉ b) (hc : sep ∉ c) :
    splitOn sep (a ++ sep :: (b ++ sep :: c)) = [a, b, c] := by
  rw [splitOn_cons ha, splitOn_cons hb, splitOn_none hc]

/-! ## Trimming -/

theorem space_ascii {b : UInt8} (h : b.toNat < 0x80) : isSpaceRune b.toNat = true ↔ AsciiSpace b := by
  have key : ∀ n : Fin 256, (UInt8.ofNat n.val).toNat < 0x80 →
      (isSpaceRune (UInt8.ofNat n.val).toNat = true ↔ AsciiSpace (UInt8.ofNat n.val)) := by decide +kernel
  have := key ⟨b.toNat, byte_lt b⟩
  simp only [UInt8.ofNat_toNat] at this
  exact this h

theorem asciiSpace_lt {b : UInt8} (h : AsciiSpace b) : b.toNat < 0x80 := by
  rcases h with h | h | h | h | h | h <;> subst h <;> decide

theorem trimSpaceLeft_spaces (p v : Bytes) (n : Nat) (hp : ∀ b ∈ p, AsciiSpace b) (hn : p.length ≤ n)
    (hv : ∀ b t, v = b :: t → b.toNat < 0x80 ∧ ¬ AsciiSpace b) : trimSpaceLeft n (p ++ v) = v := by
  induction p generalizing n with
  | nil =>
    cases n with
    | zero => rfl
    | succ n =>
      rw [List.nil_append, trimSpaceLeft]
      cases v with
      | nil => simp
      | cons b t =>
        obtain ⟨h1, h2⟩ := hv b t rfl
        rw [decodeRune_ascii b t h1, if_neg]
        rw [space_ascii h1]; simp [h2]
  | cons b p ih =>
    cases n with
    | zero => simp at hn
    | succ n =>
      have hb := hp b (by simp)
      rw [List.cons_append, trimSpaceLeft, decodeRune_ascii b _ (asciiSpace_lt hb),
        if_pos ⟨by simp, (space_ascii (asciiSpace_lt hb)).mpr hb⟩]
      exact ih n (fun x hx => hp x (by simp [hx])) (by simpa using hn)

theorem trimSpaceRight_spaces (p v : Bytes) (n : Nat) (hp : ∀ b ∈ p, AsciiSpace b) (hn : p.length ≤ n)
    (hv : ∀ b t, v = t ++ [b] → b.toNat < 0x80 ∧ ¬ AsciiSpace b) : trimSpaceRight n (v ++ p.reverse) = v := by
  induction p generalizing n with
  | nil =>
    simp only [List.reverse_nil, List.append_nil]
    cases n with
    | zero => rfl
    | succ n =>
      rw [trimSpaceRight]
      rcases List.eq_nil_or_concat v with rfl | ⟨t, b, rfl⟩
      · simp
      · simp only [List.concat_eq_append] at *
        obtain ⟨h1, h2⟩ := hv b t rfl
        rw [decodeLastRune_ascii t b h1, if_neg]
        rw [space_ascii h1]; simp [h2]
  | cons b p ih =>
    cases n with
    | zero => simp at hn
    | succ n =>
      have hb := hp b (by simp)
      rw [List.reverse_cons, ← List.append_assoc, trimSpaceRight, decodeLastRune_ascii _ b (asciiSpace_lt hb),
        if_pos ⟨by simp; omega, (space_ascii (asciiSpace_lt hb)).mpr hb⟩]
      have : ((v ++ p.reverse) ++ [b]).take (((v ++ p.reverse) ++ [b]).length - 1) = v ++ p.reverse := by
        rw [List.length_append, List.length_singleton, Nat.add_sub_cancel, List.take_left]
      rw [this]
      exact ih n (fun x hx => hp x (by simp [hx])) (by simpa using hn)

/-- White space around a text is removed. -/
theorem trimSpace_around (p q v : Bytes) (hp : ∀ b ∈ p, AsciiSpace b) (hq : ∀ b ∈ q, AsciiSpace b) (hne : v ≠ [])
    (h1 : ∀ b t, v = b :: t → b.toNat < 0x80 ∧ ¬ AsciiSpace b)
    (h2 : ∀ b t, v = t ++ [b] → b.toNat < 0x80 ∧ ¬ AsciiSpace b) : trimSpace (p ++ v ++ q) = v := by
  unfold trimSpace
  dsimp only
  have e : trimSpaceLeft (p ++ v ++ q).length (p ++ v ++ q) = v ++ q := by
    rw [List.append_assoc]
    apply trimSpaceLeft_spaces _ _ _ hp (by simp)
    intro b t hbt
    cases v with
    | nil => exact absurd rfl hne
    | cons x v =>
      rw [List.cons_append, List.cons.injEq] at hbt
      exact h1 b v (by rw [hbt.1])
  rw [e]
  have := trimSpaceRight_spaces q.reverse v (v ++ q).length (by intro b hb; simp at hb; exact hq b hb)
    (by simp) h2
  rwa [List.reverse_reverse] at this

theorem trimSpaceLeft_suffix (n : Nat) (s : Bytes) : ∃ p, s = p ++ trimSpaceLeft n s := by
  induction n generalizing s with
  | zero => exact ⟨[], rfl⟩
  | succ n ih =>
    rw [trimSpaceLeft]
    split
    · obtain ⟨p, hp⟩ := ih (s.drop (decodeRune s).2)
      refine ⟨s.take (decodeRune s).2 ++ p, ?_⟩
      rw [List.append_assoc, ← hp, List.take_append_drop]
    · exact ⟨[], rfl⟩

theorem trimSpaceRight_prefix (n : Nat) (s : Bytes) : ∃ q, s = trimSpaceRight n s ++ q := by
  induction n generalizing s with
  | zero => exact ⟨[], (List.append_nil _).symm⟩
  | succ n ih =>
    rw [trimSpaceRight]
    split
    · obtain ⟨q, hq⟩ := ih (s.take (s.length - (decodeLastRune s).2))
      refine ⟨q ++ s.drop (s.length - (decodeLastRune s).2), ?_⟩
      rw [← List.append_assoc, ← hq, List.take_append_drop]
    · exact ⟨[], (List.append_nil _).symm⟩

/-- Trimming keeps a connected piece of the text. -/
theorem trimSpace_infix (s : Bytes) : ∃ p q, s = p ++ trimSpace s ++ q := by
  obtain ⟨p, hp⟩ := trimSpaceLeft_suffix s.length s
  obtain ⟨q, hq⟩ := trimSpaceRight_prefix (trimSpaceLeft s.length s).length (trimSpaceLeft s.length s)
  refine ⟨p, q, ?_⟩
  rw [List.append_assoc]
  unfold trimSpace
  dsimp only
  rw [← hq, ← hp]

/-! ## Dates -/

theorem pad2_mem {n : Nat} {b : UInt8} (h : b ∈ pad2 n) : 48 ≤ b.toNat ∧ b.toNat ≤ 57 := by
  simp only [pad2, List.mem_cons, List.not_mem_nil, or_false] at h
  rcases h with rfl | rfl <;> rw [digit_ofNat_toNat] <;> omega

theorem last_digit {x t : Bytes} {n : Nat} {b : UInt8} (h : x ++ pad2 n = t ++ [b]) : 48 ≤ b.toNat ∧ b.toNat ≤ 57 := by
  apply pad2_mem (n := n)
  obtain ⟨u, v, hp⟩ : ∃ u v, pad2 n = [u, v] := ⟨_, _, rfl⟩
  rw [hp, show x ++ [u, v] = (x ++ [u]) ++ [v] from by simp] at h
  have := (List.append_inj' h rfl).2
  simp only [List.cons.injEq, and_true] at this
  rw [hp, this]; simp

theorem pad4_mem {n : Nat} {b : UInt8} (h : b ∈ pad4 n) : 48 ≤ b.toNat ∧ b.toNat ≤ 57 := by
  rw [pad4, List.mem_append] at h
  rcases h with h | h <;> exact pad2_mem h

theorem not_mem_pad (n : Nat) {b : UInt8} (h : b.toNat < 48) : b ∉ pad2 n ∧ b ∉ pad4 n :=
  ⟨fun hb => by have := pad2_mem hb; omega, fun hb => by have := pad4_mem hb; omega⟩

theorem dayText_iff (s : Bytes) (y m d : Nat) : DayText s y m d ↔
    y < 10000 ∧ ValidDate y m d ∧ (s = pad2 d ++ 0x2F :: (pad2 m ++ 0x2F :: pad4 y) ∨
      s = pad4 y ++ 0x2D :: (pad2 m ++ 0x2D :: pad2 d)) := by
  unfold DayText
  simp only [digits2_iff, digits4_iff]
  have a1 : ascii "/" = [0x2F] := rfl
  have a2 : ascii "-" = [0x2D] := rfl
  rw [a1, a2]
  constructor
  · rintro ⟨_, _, _, ⟨h1, rfl⟩, ⟨h2, rfl⟩, ⟨h3, rfl⟩, hv, h⟩
    exact ⟨h1, hv, by simpa using h⟩
  · rintro ⟨h1, hv, h⟩
    have hv' := (validDate_iff _ _ _).mp hv
    have := daysIn_le m y
    exact ⟨_, _, _, ⟨h1, rfl⟩, ⟨by omega, rfl⟩, ⟨by omega, rfl⟩, hv, by simpa using h⟩

theorem isoDay_iff (t : Bytes) (y m d : Nat) :
    isoDay t = pad4 y ++ [0x2D] ++ pad2 m ++ [0x2D] ++ pad2 d ↔
      t = pad2 d ++ 0x2F :: (pad2 m ++ 0x2F :: pad4 y) ∨ t = pad4 y ++ 0x2D :: (pad2 m ++ 0x2D :: pad2 d) := by
  have hs : (0x2F : UInt8).toNat < 48 := by decide
  have hd : (0x2D : UInt8).toNat < 48 := by decide
  unfold isoDay
  constructor
  · intro e
    split at e
    · split at e
      · rename_i a b c' hsp
        obtain ⟨rfl, ha, hb, hc'⟩ := splitOn_three hsp
        have hcount := congrArg (List.count 0x2D) e
        have hz : ∀ {l : Bytes}, (0x2D : UInt8) ∉ l → l.count 0x2D = 0 := fun h => List.count_eq_zero.mpr h
        simp only [List.count_append, hz (not_mem_pad _ hd).1, hz (not_mem_pad _ hd).2] at hcount
        have h1 : List.count (0x2D : UInt8) [0x2D] = 1 := rfl
        rw [h1] at hcount
        have na : (0x2D : UInt8) ∉ a := List.count_eq_zero.mp (by omega)
        have nb : (0x2D : UInt8) ∉ b := List.count_eq_zero.mp (by omega)
        have nc : (0x2D : UInt8) ∉ c' := List.count_eq_zero.mp (by omega)
        have e' := congrArg (splitOn 0x2D) e
        simp only [List.append_assoc, List.cons_append, List.nil_append] at e'
        rw [splitOn_of_three nc nb na,
          splitOn_of_three (not_mem_pad _ hd).2 (not_mem_pad _ hd).1 (not_mem_pad _ hd).1] at e'
        simp only [List.cons.injEq, and_true] at e'
        obtain ⟨rfl, rfl, rfl⟩ := e'
        exact .inl rfl
      · simp [pad4, pad2] at e
    · split at e
      · split at e
        · split at e
          · exact .inr (by rw [e]; simp)
          · simp [pad4, pad2] at e
        · simp [pad4, pad2] at e
      · simp [pad4, pad2] at e
  · rintro (rfl | rfl)
    · rw [if_pos (by simp), splitOn_of_three (not_mem_pad _ hs).1 (not_mem_pad _ hs).1 (not_mem_pad _ hs).2]
    · have h1 : (0x2F : UInt8) ∉ pad4 y ++ 0x2D :: (pad2 m ++ 0x2D :: pad2 d) := by
        simp [(not_mem_pad y hs).2, (not_mem_pad m hs).1, (not_mem_pad d hs).1]
      rw [if_neg h1, if_pos (by simp),
        splitOn_of_three (not_mem_pad _ hd).2 (not_mem_pad _ hd).1 (not_mem_pad _ hd).1]
      dsimp only
      rw [if_pos (by simp [pad4, pad2])]
      simp

/-- The date of a page text, on the trimmed text. -/
theorem parseDate_iff (s out : Bytes) (hne : out ≠ []) :
    parseDateString s = out ↔ ∃ y m d, DayText (trimSpace s) y m d ∧ TimeText out y m d 0 0 0 := by
  simp only [dayText_iff, timeText_iff, ← isoDay_iff]
  unfold parseDateString
  dsimp only
  generalize isoDay (trimSpace s) = t
  constructor
  · intro h
    split at h
    · exact absurd h.symm hne
    · split at h
      · exact absurd h.symm hne
      · rename_i c hc
        obtain ⟨y, m, d, rfl, hy, hv, e⟩ := (parseDay_iff _ _).mp hc
        exact ⟨y, m, d, ⟨hy, hv, e⟩, h.symm, hy, hv, by simp, by simp, by simp⟩
  · rintro ⟨y, m, d, ⟨hy, hv, rfl⟩, rfl, _, _⟩
    rw [if_neg (by simp [pad4, pad2]), (parseDay_iff _ _).mpr ⟨y, m, d, rfl, hy, hv, rfl⟩]

mutual
theorem text_one : ∀ n, Texts [n] (htmlText n)
  | .text d => by simpa [htmlText] using Texts.text d .nil
  | .element name attrs cs => by simpa [htmlText] using Texts.element (name := name) (attrs := attrs) (text_all cs) .nil
  | .other cs => by simpa [htmlText] using Texts.other (text_all cs) .nil
theorem text_all : ∀ ns, Texts ns (htmlTexts ns)
  | [] => by simpa [htmlTexts] using Texts.nil
  | n :: ns => by
    have h := text_all ns
    cases n with
    | text d => simpa [htmlTexts, htmlText] using Texts.text d h
    | element name attrs cs => simpa [htmlTexts, htmlText] using Texts.element (name := name) (attrs := attrs) (text_all cs) h
    | other cs => simpa [htmlTexts, htmlText] using Texts.other (text_all cs) h
end

theorem isDate_iff (s : Bytes) : isDateString s = true ↔ DateLike s := by
  simp [isDateString, DateLike]

theorem dayText_isDate {s : Bytes} {y m d : Nat} (h : DayText (trimSpace s) y m d) : isDateString s = true := by
  obtain ⟨_, _, h | h⟩ := (dayText_iff _ _ _ _).mp h
  all_goals
    unfold isDateString
    rw [h]
    have hs : (0x2F : UInt8).toNat < 48 := by decide
    have hd : (0x2D : UInt8).toNat < 48 := by decide
    have hz : ∀ {b : UInt8} {l : Bytes}, b ∉ l → l.count b = 0 := fun h => List.count_eq_zero.mpr h
    have hl : ∀ n, (pad2 n).length = 2 ∧ (pad4 n).length = 4 := fun n => ⟨rfl, rfl⟩
    simp [List.count_append, List.count_cons, hz (not_mem_pad _ hs).1, hz (not_mem_pad _ hs).2,
      hz (not_mem_pad _ hd).1, hz (not_mem_pad _ hd).2, hl]

/-- C59. A day in either notation of the page, with any white space around it, is read as that day. -/
theorem page_date_read (p q day : Bytes) (y m d : Nat) (h : DayText day y m d) (hp : ∀ b ∈ p, AsciiSpace b)
    (hq : ∀ b ∈ q, AsciiSpace b) :
    isDateString (p ++ day ++ q) = true ∧ TimeText (parseDateString (p ++ day ++ q)) y m d 0 0 0 := by
  have hdig : ∀ b : UInt8, 48 ≤ b.toNat ∧ b.toNat ≤ 57 → b.toNat < 0x80 ∧ ¬ AsciiSpace b := by
    intro b hb
    refine ⟨by omega, ?_⟩
    rintro (h | h | h | h | h | h) <;> subst h <;> revert hb <;> decide
  have hends : day ≠ [] ∧ (∀ b t, day = b :: t → 48 ≤ b.toNat ∧ b.toNat ≤ 57) ∧
      (∀ b t, day = t ++ [b] → 48 ≤ b.toNat ∧ b.toNat ≤ 57) := by
    obtain ⟨_, _, h | h⟩ := (dayText_iff _ _ _ _).mp h
    · refine ⟨by rw [h]; simp, ?_, ?_⟩
      · intro b t e
        rw [h, pad2, List.cons_append, List.cons.injEq] at e
        exact pad2_mem (n := d) (by rw [← e.1]; simp [pad2])
      · intro b t e
        refine last_digit (x := pad2 d ++ 0x2F :: (pad2 m ++ 0x2F :: pad2 (y / 100))) (n := y) (t := t) ?_
        rw [← e, h, pad4]; simp
    · refine ⟨by rw [h]; simp, ?_, ?_⟩
      · intro b t e
        rw [h, pad4, pad2, List.cons_append, List.cons_append, List.cons.injEq] at e
        exact pad2_mem (n := y / 100) (by rw [← e.1]; simp [pad2])
      · intro b t e
        refine last_digit (x := pad4 y ++ 0x2D :: (pad2 m ++ [0x2D])) (n := d) (t := t) ?_
        rw [← e, h]; simp
  have ht := trimSpace_around p q day hp hq hends.1 (fun b t e => hdig b (hends.2.1 b t e))
    (fun b t e => hdig b (hends.2.2 b t e))
  have hday : DayText (trimSpace (p ++ day ++ q)) y m d := by rw [ht]; exact h
  refine ⟨dayText_isDate hday, ?_⟩
  obtain ⟨hy, hv, _⟩ := (dayText_iff _ _ _ _).mp h
  have hval : (⟨y, m, d, 0, 0, 0⟩ : Civil).Valid := ⟨hv, by simp, by simp, by simp⟩
  have htt : TimeText (rfc3339 ⟨y, m, d, 0, 0, 0⟩) y m d 0 0 0 := (timeText_iff _ _ _ _ _ _ _).mpr ⟨rfl, hy, hval⟩
  rw [(parseDate_iff _ _ (rfc3339_ne_nil _)).mpr ⟨y, m, d, hday, htt⟩]
  exact htt

/-- C59. Nothing else is read as a date: a date in the index stands, as a day of the calendar in one of the two
notations, in the text it was read from. -/
theorem page_date_sound (s : Bytes) (h : parseDateString s ≠ []) :
    ∃ p day q y m d, s = p ++ day ++ q ∧ DayText day y m d ∧ TimeText (parseDateString s) y m d 0 0 0 := by
  obtain ⟨y, m, d, h1, h2⟩ := (parseDate_iff s _ h).mp rfl
  obtain ⟨p, q, hs⟩ := trimSpace_infix s
  exact ⟨p, _, q, y, m, d, hs, h1, h2⟩

theorem parseDate_form (s : Bytes) : DateOrNone (parseDateString s) := by
  by_cases h : parseDateString s = []
  · exact .inl h
  · obtain ⟨y, m, d, _, h2⟩ := (parseDate_iff s _ h).mp rfl
    exact .inr ⟨y, m, d, 0, 0, 0, h2⟩

/-- 29 February 2024 with white space around it; and the day after it, written as 30 February, is no day. -/
example : TimeText (parseDateString (ascii " 29/02/2024\n")) 2024 2 29 0 0 0 ∧
    parseDateString (ascii "30/02/2024") = [] ∧ parseDateString (ascii "29/02/2023") = [] := by
  refine ⟨?_, by decide +kernel, by decide +kernel⟩
  rw [timeText_iff]
  exact ⟨by decide +kernel, by decide, (validDate_iff _ _ _).mpr (by decide), by decide, by decide, by decide⟩

/-! ## Rows -/

theorem containsBytes_iff (sub s : Bytes) : containsBytes sub s = true ↔ ∃ a b, s = a ++ sub ++ b := by
  induction s with
  | nil =>
    rw [containsBytes, List.isEmpty_iff]
    constructor
    · rintro rfl; exact ⟨[], [], rfl⟩
    · rintro ⟨a, b, h⟩
      have := congrArg List.length h
      simp at this
      exact List.length_eq_zero_iff.mp (by omega)
  | cons x t ih =>
    rw [containsBytes, Bool.or_eq_true, ih, List.isPrefixOf_iff_prefix]
    constructor
    · rintro (⟨b, h⟩ | ⟨a, b, rfl⟩)
      · exact ⟨[], b, by simpa using h.symm⟩
      · exact ⟨x :: a, b, rfl⟩
    · rintro ⟨a, b, h⟩
      cases a with
      | nil => exact .inl ⟨b, by simpa using h.symm⟩
      | cons y a =>
        simp only [List.cons_append, List.cons.injEq] at h
        exact .inr ⟨a, b, h.2⟩

section
variable [LowerCase]

theorem containsBytes_false_iff (sub s : Bytes) : containsBytes sub s = false ↔ ¬ ∃ a b, s = a ++ sub ++ b := by
  rw [← containsBytes_iff, Bool.not_eq_true]

theorem readCell_plausible (acc : Bytes × Bytes) (c : Bytes) (h : acc.1 = []) (hp : Plausible c) :
    readCell acc c = (c, acc.2) := by
  obtain ⟨h1, h2, h3, h4⟩ := hp
  unfold readCell
  rw [← isDate_iff] at h1
  rw [if_neg h1, if_pos ⟨by rintro rfl; simp at h2, (containsBytes_false_iff _ _).mpr h3, h2⟩,
    if_pos ⟨h, (containsBytes_false_iff _ _).mpr h4⟩]

theorem readCell_country (acc : Bytes × Bytes) (c : Bytes) (h : acc.1 ≠ [] ∨ ¬ Plausible c) :
    (readCell acc c).1 = acc.1 := by
  unfold readCell
  split
  · rfl
  · rename_i hd
    split
    · rename_i h1
      rw [if_neg]
      rintro ⟨h2, h3⟩
      rcases h with h | h
      · exact h h2
      · exact h ⟨by rwa [← isDate_iff], h1.2.2, (containsBytes_false_iff _ _).mp h1.2.1, (containsBytes_false_iff _ _).mp h3⟩
    · rfl

theorem readCell_expiration (acc : Bytes × Bytes) (c : Bytes) :
    (readCell acc c).2 = if isDateString c = true then parseDateString c else acc.2 := by
  unfold readCell
  split
  · rfl
  · split
    · split <;> rfl
    · rfl

/-- The country is the first plausible cell. -/
theorem cells_country (cells : List Bytes) : FirstOr Plausible cells [] (cells.foldl readCell ([], [])).1 := by
  have kept : ∀ (cells : List Bytes) (acc : Bytes × Bytes), acc.1 ≠ [] → (cells.foldl readCell acc).1 = acc.1 := by
    intro cells
    induction cells with
    | nil => intros; rfl
    | cons c cs ih =>
      intro acc h
      have := readCell_country acc c (.inl h)
      rw [List.foldl_cons, ih _ (by rw [this]; exact h), this]
  have go : ∀ (cells : List Bytes) (acc : Bytes × Bytes), acc.1 = [] →
      FirstOr Plausible cells [] (cells.foldl readCell acc).1 := by
    intro cells
    induction cells with
    | nil => intro acc h; exact .inr ⟨by simp, h⟩
    | cons c cs ih =>
      intro acc h
      rw [List.foldl_cons]
      by_cases hp : Plausible c
      · rw [readCell_plausible acc c h hp, kept]
        · exact .inl ⟨[], cs, rfl, hp, by simp⟩
        · rintro rfl
          have h2 := hp.2.1
          simp at h2
      · have := readCell_country acc c (.inr hp)
        rcases ih (readCell acc c) (by rw [this, h]) with ⟨b, a, h1, h2, h3⟩ | ⟨h1, h2⟩
        · refine .inl ⟨c :: b, a, ?_, h2, ?_⟩
          · rw [List.cons_append, ← h1]
          · intro y hy
            rcases List.mem_cons.mp hy with rfl | hy
            · exact hp
            · exact h3 y hy
        · refine .inr ⟨?_, h2⟩
          intro y hy
          rcases List.mem_cons.mp hy with rfl | hy
          · exact hp
          · exact h1 y hy
  exact go cells _ rfl

/-- The expiration is read from the last cell that looks like a date. -/
theorem cells_expiration (cells : List Bytes) :
    (∃ before c after, cells = before ++ c :: after ∧ isDateString c = true ∧ (∀ x ∈ after, isDateString x = false) ∧
      (cells.foldl readCell ([], [])).2 = parseDateString c) ∨
    (∀ x ∈ cells, isDateString x = false) ∧ (cells.foldl readCell ([], [])).2 = [] := by
  have go : ∀ (cells : List Bytes) (acc : Bytes × Bytes),
      (∃ before c after, cells = before ++ c :: after ∧ isDateString c = true ∧ (∀ x ∈ after, isDateString x = false) ∧
        (cells.foldl readCell acc).2 = parseDateString c) ∨
      (∀ x ∈ cells, isDateString x = false) ∧ (cells.foldl readCell acc).2 = acc.2 := by
    intro cells
    induction cells with
    | nil => intro acc; exact .inr ⟨by simp, rfl⟩
    | cons c cs ih =>
      intro acc
      rw [List.foldl_cons]
      rcases ih (readCell acc c) with ⟨b, x, a, h1, h2, h3, h4⟩ | ⟨h1, h2⟩
      · exact .inl ⟨c :: b, x, a, by rw [List.cons_append, ← h1], h2, h3, h4⟩
      · rw [readCell_expiration] at h2
        by_cases hd : isDateString c = true
        · rw [if_pos hd] at h2
          exact .inl ⟨[], c, cs, rfl, hd, h1, h2⟩
        · rw [if_neg hd] at h2
          refine .inr ⟨?_, h2⟩
          intro y hy
          rcases List.mem_cons.mp hy with rfl | hy
          · simpa using hd
          · exact h1 y hy
  exact go cells _

omit [LowerCase] in
theorem getLastD_filter (l : List Bytes) (h : (l.filter (· ≠ [])).getLastD [] ≠ []) :
    ∃ before after, l = before ++ (l.filter (· ≠ [])).getLastD [] :: after ∧ ∀ x ∈ after, x = [] := by
  induction l with
  | nil => simp at h
  | cons a l ih =>
    by_cases ha : a = []
    · subst ha
      have e : ([] :: l).filter (· ≠ []) = l.filter (· ≠ []) := by simp
      rw [e] at h ⊢
      obtain ⟨b, c, h1, h2⟩ := ih h
      exact ⟨[] :: b, c, by rw [List.cons_append, ← h1], h2⟩
    · have e : (a :: l).filter (· ≠ []) = a :: l.filter (· ≠ []) := by simp [ha]
      rw [e, List.getLastD_cons]
      cases hf : l.filter (· ≠ []) with
      | nil =>
        refine ⟨[], l, rfl, ?_⟩
        intro x hx
        have := List.filter_eq_nil_iff.mp hf x hx
        simpa using this
      | cons y ys =>
        have e2 : (y :: ys).getLastD a = (l.filter (· ≠ [])).getLastD [] := by
          rw [hf, List.getLastD_cons, List.getLastD_cons]
        have hne : (l.filter (· ≠ [])).getLastD [] ≠ [] := by
          rw [e, List.getLastD_cons, hf, e2] at h; exact h
        obtain ⟨b, c, h1, h2⟩ := ih hne
        exact ⟨a :: b, c, by rw [e2, List.cons_append, ← h1], h2⟩

omit [LowerCase] in
theorem getLastD_mem_of_ne {l : List Bytes} (h : l ≠ []) : l.getLastD [] ∈ l := by
  cases l with
  | nil => exact absurd rfl h
  | cons x xs => rw [List.getLastD_cons]; exact List.getLastD_mem_cons

theorem row_parts (base : Bytes) (row : List Html) (m : CertMeta) (h : tableRow base row = some m) :
    let tds := row.filter isCell
    let cells := tds.map fun td => trimSpace (htmlText td)
    3 ≤ tds.length ∧
    (∃ before td after, tds = before ++ td :: after ∧ downloadLink td ≠ [] ∧ (∀ x ∈ after, downloadLink x = []) ∧
      m.url = base ++ ascii "/" ++ downloadLink td ∧ m.name = certificateName (downloadLink td)) ∧
    FirstOr Plausible cells [] m.country ∧
    ((∃ before c after, cells = before ++ c :: after ∧ isDateString c = true ∧
        (∀ x ∈ after, isDateString x = false) ∧ m.expiration = parseDateString c) ∨
      (∀ x ∈ cells, isDateString x = false) ∧ m.expiration = []) := by
  intro tds cells
  unfold tableRow at h
  dsimp only at h
  split at h
  · simp at h
  · rename_i hc
    simp only [not_or, List.length_map, Nat.not_lt] at hc
    rw [Option.some.injEq] at h
    subst h
    refine ⟨hc.2, ?_, cells_country _, cells_expiration _⟩
    obtain ⟨b, a, h1, h2⟩ := getLastD_filter (tds.map downloadLink) hc.1
    obtain ⟨tb, ta, e1, e2, e3⟩ := List.map_eq_append_iff.mp h1
    obtain ⟨td, ta', rfl, e4, e5⟩ := List.map_eq_cons_iff.mp e3
    refine ⟨tb, td, ta', e1, ?_, ?_, ?_, ?_⟩
    · rw [e4]; exact hc.1
    · intro x hx
      exact h2 _ (e5 ▸ List.mem_map.mpr ⟨x, hx, rfl⟩)
    · rw [e4]; rfl
    · rw [e4]

theorem row_none_iff (base : Bytes) (row : List Html) :
    tableRow base row = none ↔
      (row.filter isCell).length < 3 ∨ ∀ td ∈ row.filter isCell, downloadLink td = [] := by
  unfold tableRow
  dsimp only
  split
  · rename_i hc
    simp only [true_iff]
    rcases hc with hc | hc
    · right
      by_contra hne
      simp only [not_forall] at hne
      obtain ⟨td, h1, h2⟩ := hne
      have hm : downloadLink td ∈ ((row.filter isCell).map downloadLink).filter (· ≠ []) := by
        rw [List.mem_filter]
        exact ⟨List.mem_map.mpr ⟨td, h1, rfl⟩, by simpa using h2⟩
      have hl := getLastD_mem_of_ne (List.ne_nil_of_mem hm)
      rw [hc, List.mem_filter] at hl
      simp at hl
    · left; simpa using hc
  · rename_i hc
    simp only [not_or, List.length_map, Nat.not_lt] at hc
    simp only [reduceCtorEq, false_iff, not_or, not_forall]
    refine ⟨by omega, ?_⟩
    obtain ⟨b, a, h1, h2⟩ := getLastD_filter ((row.filter isCell).map downloadLink) hc.1
    obtain ⟨tb, ta, e1, e2, e3⟩ := List.map_eq_append_iff.mp h1
    obtain ⟨td, ta', rfl, e4, e5⟩ := List.map_eq_cons_iff.mp e3
    exact ⟨td, by rw [e1]; simp, by rw [e4]; exact hc.1⟩

omit [LowerCase] in
theorem cells_filter : ∀ row, Cells row (row.filter isCell)
  | [] => .nil
  | .text d :: row => .skip (by simp) (cells_filter row)
  | .other cs :: row => .skip (by simp) (cells_filter row)
  | .element name attrs cs :: row => by
    by_cases h : name = ascii "td" ∨ name = ascii "th"
    · rw [List.filter_cons_of_pos (by simpa [isCell] using h)]
      exact .cell h (cells_filter row)
    · rw [List.filter_cons_of_neg (by simpa [isCell] using h)]
      refine .skip (fun a c => ⟨?_, ?_⟩) (cells_filter row)
      · rintro ⟨⟩; exact h (.inl rfl)
      · rintro ⟨⟩; exact h (.inr rfl)

omit [LowerCase] in
theorem cells_unique {row tds : List Html} (h : Cells row tds) : tds = row.filter isCell := by
  induction h with
  | nil => rfl
  | cell h _ ih => rw [List.filter_cons_of_pos (by simpa [isCell] using h), ih]
  | @skip x rest tds h _ ih =>
    rw [List.filter_cons_of_neg ?_, ih]
    cases x with
    | text => simp [isCell]
    | other => simp [isCell]
    | element name attrs cs =>
      simp only [isCell, Bool.or_eq_true, beq_iff_eq]
      rintro (rfl | rfl)
      · exact (h attrs cs).1 rfl
      · exact (h attrs cs).2 rfl

omit [LowerCase] in
theorem texts_unique {ns : List Html} {t : Bytes} (h : Texts ns t) : t = htmlTexts ns := by
  induction h with
  | nil => simp [htmlTexts]
  | text d _ ih => simp [htmlTexts, htmlText, ih]
  | element _ _ ih1 ih2 => simp [htmlTexts, htmlText, ih1, ih2]
  | other _ _ ih1 ih2 => simp [htmlTexts, htmlText, ih1, ih2]

/-- C59. A row of the page is taken for a certificate exactly when it has at least three cells and one of
them has a download link. The address is the site's followed by the link of the last such cell, the
country is the first cell that can name one, and the expiration comes from the last cell that looks
like a date. -/
theorem row_read (base : Bytes) (row tds : List Html) (cells : List Bytes) (m : CertMeta) (htds : Cells row tds)
    (hcells : List.Forall₂ (fun td cell => ∃ t, Texts [td] t ∧ cell = trimSpace t) tds cells) (h : tableRow base row = some m) :
    3 ≤ tds.length ∧
    (∃ before td after, tds = before ++ td :: after ∧ downloadLink td ≠ [] ∧ (∀ x ∈ after, downloadLink x = []) ∧
      m.url = base ++ ascii "/" ++ downloadLink td ∧ m.name = certificateName (downloadLink td)) ∧
    FirstOr Plausible cells [] m.country ∧
    ((∃ before c after, cells = before ++ c :: after ∧ DateLike c ∧ (∀ x ∈ after, ¬ DateLike x) ∧ m.expiration = parseDateString c) ∨
      (∀ x ∈ cells, ¬ DateLike x) ∧ m.expiration = []) := by
  have hc : cells = tds.map fun td => trimSpace (htmlText td) := by
    clear htds
    induction hcells with
    | nil => rfl
    | cons h _ ih =>
      obtain ⟨t, ht, rfl⟩ := h
      have := texts_unique ht
      simp only [htmlTexts, List.append_nil] at this
      simp only [List.map_cons, ← ih, this]
  have ht := cells_unique htds
  subst ht hc
  have := row_parts base row m h
  simpa only [← isDate_iff, Bool.not_eq_true] using this

omit [LowerCase] in
/-- C59. Every row has cells, and every cell a text. -/
theorem row_cells (row : List Html) : ∃ tds cells, Cells row tds ∧
    List.Forall₂ (fun td cell => ∃ t, Texts [td] t ∧ cell = trimSpace t) tds cells := by
  refine ⟨_, (row.filter isCell).map fun td => trimSpace (htmlText td), cells_filter row, ?_⟩
  generalize row.filter isCell = tds
  induction tds with
  | nil => exact .nil
  | cons td tds ih => exact .cons ⟨_, text_one td, rfl⟩ ih

/-- The other direction: which rows are skipped. -/
theorem row_skipped_iff (base : Bytes) (row tds : List Html) (htds : Cells row tds) :
    tableRow base row = none ↔ tds.length < 3 ∨ ∀ td ∈ tds, downloadLink td = [] := by
  rw [cells_unique htds]
  exact row_none_iff base row

end

/-! ## Links and rows of the whole page -/

theorem within_element {x : Html} {name : Bytes} {attrs : List (Bytes × Bytes)} {cs : List Html} :
    Within x (.element name attrs cs) ↔ x = .element name attrs cs ∨ ∃ c ∈ cs, Within x c := by
  constructor
  · intro h
    cases h with
    | self => exact .inl rfl
    | inElement h hc => exact .inr ⟨_, hc, h⟩
  · rintro (rfl | ⟨c, hc, h⟩)
    · exact .self _
    · exact .inElement h hc

theorem within_other {x : Html} {cs : List Html} :
    Within x (.other cs) ↔ x = .other cs ∨ ∃ c ∈ cs, Within x c := by
  constructor
  · intro h
    cases h with
    | self => exact .inl rfl
    | inOther h hc => exact .inr ⟨_, hc, h⟩
  · rintro (rfl | ⟨c, hc, h⟩)
    · exact .self _
    · exact .inOther h hc

theorem lookup_mem {l : List (Bytes × Bytes)} {k v : Bytes} (h : l.lookup k = some v) : (k, v) ∈ l := by
  induction l with
  | nil => simp at h
  | cons x l ih =>
    obtain ⟨a, b⟩ := x
    rw [List.lookup_cons] at h
    split at h
    · rename_i he
      rw [Option.some.injEq] at h
      rw [eq_of_beq he, h]; simp
    · exact List.mem_cons_of_mem _ (ih h)

theorem linkOfAttrs_mem (href : Option Bytes) (all attrs : List (Bytes × Bytes)) (l : Bytes)
    (hh : ∀ v, href = some v → (ascii "href", v) ∈ all) (hs : ∀ x ∈ attrs, x ∈ all)
    (h : linkOfAttrs href attrs = some l) : (ascii "href", l) ∈ all := by
  induction attrs with
  | nil => simp [linkOfAttrs] at h
  | cons x rest ih =>
    obtain ⟨k, v⟩ := x
    have hr : ∀ x ∈ rest, x ∈ all := fun x hx => hs x (List.mem_cons_of_mem _ hx)
    unfold linkOfAttrs at h
    split at h
    · rename_i hc
      rw [Option.some.injEq] at h
      rw [← hc.1, ← h]
      exact hs _ (by simp)
    · split at h
      · split at h
        · rename_i v' 
          rw [Option.some.injEq] at h
          rw [← h]; exact hh _ rfl
        · exact ih hr h
      · exact ih hr h

mutual
/-- C59. The link followed is the address of a link element in the cell. -/
theorem download_link_sound (n : Html) (h : downloadLink n ≠ []) :
    ∃ attrs cs, Within (.element (ascii "a") attrs cs) n ∧ (ascii "href", downloadLink n) ∈ attrs := by
  match n with
  | .text _ => simp [downloadLink] at h
  | .element name attrs cs =>
    rw [downloadLink] at h ⊢
    split at h
    · rename_i l hl
      split at hl
      · rename_i hn
        subst hn
        exact ⟨attrs, cs, .self _, linkOfAttrs_mem _ _ _ _ (fun v hv => lookup_mem hv) (fun x hx => hx) hl⟩
      · simp at hl
    · obtain ⟨c, hc, a, ch, h1, h2⟩ := download_links_sound cs h
      exact ⟨a, ch, .inElement h1 hc, h2⟩
  | .other cs =>
    rw [downloadLink] at h ⊢
    obtain ⟨c, hc, a, ch, h1, h2⟩ := download_links_sound cs h
    exact ⟨a, ch, .inOther h1 hc, h2⟩
theorem download_links_sound (cs : List Html) (h : downloadLinks cs ≠ []) :
    ∃ c ∈ cs, ∃ attrs ch, Within (.element (ascii "a") attrs ch) c ∧ (ascii "href", downloadLinks cs) ∈ attrs := by
  match cs with
  | [] => simp [downloadLinks] at h
  | c :: cs =>
    rw [downloadLinks] at h ⊢
    split
    · rename_i hc
      obtain ⟨a, ch, h1, h2⟩ := download_link_sound c hc
      exact ⟨c, by simp, a, ch, h1, h2⟩
    · rename_i hc
      rw [if_neg hc] at h
      obtain ⟨x, hx, a, ch, h1, h2⟩ := download_links_sound cs h
      exact ⟨x, by simp [hx], a, ch, h1, h2⟩
end

section
variable [LowerCase]

mutual
/-- C59. The certificates found are those of the row elements of the page, at any depth. -/
theorem table_rows_iff (base : Bytes) (doc : Html) (m : CertMeta) :
    m ∈ tableRows base doc ↔ ∃ attrs cs, Within (.element (ascii "tr") attrs cs) doc ∧ tableRow base cs = some m := by
  match doc with
  | .text d =>
    simp only [tableRows, List.not_mem_nil, false_iff, not_exists, not_and]
    intro a cs h
    cases h
  | .element name attrs cs =>
    rw [tableRows, List.mem_append, table_rows_in_iff base cs m]
    constructor
    · rintro (h | ⟨c, hc, a, ch, h1, h2⟩)
      · split at h
        · rename_i hn
          subst hn
          exact ⟨attrs, cs, .self _, by simpa using h⟩
        · simp at h
      · exact ⟨a, ch, .inElement h1 hc, h2⟩
    · rintro ⟨a, ch, h1, h2⟩
      rcases within_element.mp h1 with h1 | ⟨c, hc, h1⟩
      · simp only [Html.element.injEq] at h1
        obtain ⟨rfl, rfl, rfl⟩ := h1
        left
        rw [if_pos rfl, h2]; simp
      · exact .inr ⟨c, hc, a, ch, h1, h2⟩
  | .other cs =>
    rw [tableRows, table_rows_in_iff base cs m]
    constructor
    · rintro ⟨c, hc, a, ch, h1, h2⟩
      exact ⟨a, ch, .inOther h1 hc, h2⟩
    · rintro ⟨a, ch, h1, h2⟩
      rcases within_other.mp h1 with h1 | ⟨c, hc, h1⟩
      · simp at h1
      · exact ⟨c, hc, a, ch, h1, h2⟩
theorem table_rows_in_iff (base : Bytes) (cs : List Html) (m : CertMeta) :
    m ∈ tableRowsIn base cs ↔
      ∃ c ∈ cs, ∃ attrs ch, Within (.element (ascii "tr") attrs ch) c ∧ tableRow base ch = some m := by
  match cs with
  | [] => simp [tableRowsIn]
  | c :: cs =>
    rw [tableRowsIn, List.mem_append, table_rows_iff base c m, table_rows_in_iff base cs m]
    constructor
    · rintro (⟨a, ch, h⟩ | ⟨x, hx, h⟩)
      · exact ⟨c, by simp, a, ch, h⟩
      · exact ⟨x, by simp [hx], h⟩
    · rintro ⟨x, hx, a, ch, h⟩
      rcases List.mem_cons.mp hx with rfl | hx
      · exact .inl ⟨a, ch, h⟩
      · exact .inr ⟨x, hx, a, ch, h⟩
end

/-- The expiration of a row is a date or missing. -/
theorem row_expiration_form (base : Bytes) (row : List Html) (m : CertMeta) (h : tableRow base row = some m) :
    DateOrNone m.expiration := by
  obtain ⟨_, _, _, ⟨_, c, _, _, _, _, e⟩ | ⟨_, e⟩⟩ := row_parts base row m h
  · rw [e]; exact parseDate_form c
  · exact .inl e

/-- Finding: a later cell that looks like a date but is none removes the expiration an earlier one gave. -/
theorem later_cell_removes_date (c1 : Bytes) :
    (readCell (readCell ([], []) c1) (ascii "99/99/9999")).2 = [] := by
  rw [readCell_expiration, if_pos (by decide +kernel)]
  decide +kernel

end

end Tacho
