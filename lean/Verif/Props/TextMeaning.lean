import Verif.Props.Strings
import Verif.Spec.TextMeaning

/-!
# C69: the text of string fields, for all bytes
-/

namespace Tacho
open Spec

theorem enc_ne_nil (c : Char) : String.utf8EncodeChar c ≠ [] := by
  obtain ⟨b, t, h, -⟩ := utf8EncodeChar_cons c
  simp [h]

/-- The first byte of a character is no continuation byte, the others are. -/
theorem enc_shape (c : Char) : ∃ b t, String.utf8EncodeChar c = b :: t ∧ isCont b = false ∧
    (∀ x ∈ t, isCont x = true) ∧ t.length ≤ 3 ∧ (t = [] → b.toNat < 0x80) ∧ (t ≠ [] → 0x80 ≤ b.toNat) := by
  have hval : c.val.toNat.isValidChar := c.valid
  unfold Nat.isValidChar at hval
  have nc : ∀ x : UInt8, (x.toNat < 0x80 ∨ 0xBF < x.toNat) → isCont x = false := by
    intro x hx
    rw [← Bool.not_eq_true, isCont_iff]
    omega
  unfold String.utf8EncodeChar
  generalize c.val.toNat = v at *
  dsimp only
  have hc : ∀ u, u % 64 + 0x80 < 256 ∧ isCont (UInt8.ofNat (u % 64 + 0x80)) = true := by
    intro u
    have : u % 64 + 0x80 < 256 := by omega
    exact ⟨this, by rw [isCont_iff, toNat_ofNat_lt this]; omega⟩
  split
  · refine ⟨_, _, rfl, nc _ ?_, by simp, by simp, ?_, by simp⟩ <;> rw [toNat_ofNat_lt (by omega)] <;> omega
  · split
    · refine ⟨_, _, rfl, nc _ ?_, ?_, by simp, by simp, fun _ => ?_⟩
      · rw [toNat_ofNat_lt (by omega)]; omega
      · intro x hx
        simp only [List.mem_cons, List.not_mem_nil, or_false] at hx
        subst hx
        exact (hc _).2
      · rw [toNat_ofNat_lt (by omega)]; omega
    · split
      · refine ⟨_, _, rfl, nc _ ?_, ?_, by simp, by simp, fun _ => ?_⟩
        · rw [toNat_ofNat_lt (by omega)]; omega
        · intro x hx
          simp only [List.mem_cons, List.not_mem_nil, or_false] at hx
          rcases hx with rfl | rfl <;> exact (hc _).2
        · rw [toNat_ofNat_lt (by omega)]; omega
      · refine ⟨_, _, rfl, nc _ ?_, ?_, by simp, by simp, fun _ => ?_⟩
        · rw [toNat_ofNat_lt (by omega)]; omega
        · intro x hx
          simp only [List.mem_cons, List.not_mem_nil, or_false] at hx
          rcases hx with rfl | rfl | rfl <;> exact (hc _).2
        · rw [toNat_ofNat_lt (by omega)]; omega

theorem char_toNat_inj {c d : Char} (h : c.toNat = d.toNat) : c = d :=
  Char.ext (UInt32.toNat_inj.mp h)

/-- Two characters that begin the same bytes are the same. -/
theorem enc_prefix {c d : Char} {r r' : Bytes} (h : String.utf8EncodeChar c ++ r = String.utf8EncodeChar d ++ r') :
    c = d ∧ r = r' := by
  have h1 := decodeRune_encode c r
  rw [h, decodeRune_encode d r', Prod.mk.injEq] at h1
  have hc : c = d := char_toNat_inj h1.1.symm
  subst hc
  exact ⟨rfl, List.append_cancel_left h⟩

theorem enc_ascii {b : UInt8} (h : b.toNat < 0x80) : String.utf8EncodeChar (Char.ofNat b.toNat) = [b] := by
  have hv : Nat.isValidChar b.toNat := by unfold Nat.isValidChar; omega
  unfold String.utf8EncodeChar
  rw [char_val _ hv]
  dsimp only
  rw [if_pos (by omega), UInt8.ofNat_toNat]

/-- A stray byte is what decoding rejects. -/
theorem stray_iff (b : UInt8) (t : Bytes) :
    (∀ c more, b :: t ≠ String.utf8EncodeChar c ++ more) ↔ (0x80 ≤ b.toNat ∧ decodeRune (b :: t) = (0xFFFD, 1)) := by
  constructor
  · intro h
    rcases decodeRune_cases b t with ⟨h1, -⟩ | h1 | ⟨-, c, rest, hs, -⟩
    · exact absurd (by rw [enc_ascii h1]; rfl) (h (Char.ofNat b.toNat) t)
    · exact h1
    · exact absurd hs (h c rest)
  · rintro ⟨h1, h2⟩ c more he
    have hd := decodeRune_encode c more
    rw [← he, h2, Prod.mk.injEq] at hd
    obtain ⟨x, y, hxy, -, -, -, -, hy⟩ := enc_shape c
    rw [hxy] at hd he
    obtain ⟨rfl, -⟩ := List.cons.injEq .. ▸ he
    obtain ⟨x', y', hxy', h'⟩ := utf8EncodeChar_cons c
    rw [hxy] at hxy'
    obtain ⟨rfl, rfl⟩ := List.cons.injEq .. ▸ hxy'
    rcases h' with ⟨h', -⟩ | ⟨-, h'⟩
    · omega
    · have := List.length_pos_iff.2 h'
      have hd := hd.2
      simp only [List.length_cons] at hd
      omega

/-- C69: every byte string can be read. -/
theorem reads_exists (s : Bytes) : ∃ ss, Reads s ss := by
  generalize hn : s.length = n
  induction n using Nat.strongRecOn generalizing s with
  | _ n ih =>
    cases s with
    | nil => exact ⟨[], .nil⟩
    | cons b t =>
      rcases Classical.em (∃ c more, b :: t = String.utf8EncodeChar c ++ more) with ⟨c, more, he⟩ | h
      · have hl : more.length < n := by
          have := congrArg List.length he
          have := List.length_pos_iff.2 (enc_ne_nil c)
          simp at *; omega
        obtain ⟨ss, hs⟩ := ih _ hl more rfl
        rw [he]
        exact ⟨_, .char c hs⟩
      · obtain ⟨ss, hs⟩ := ih t.length (by simp at hn; omega) t rfl
        exact ⟨_, .stray b (fun c more he => h ⟨c, more, he⟩) hs⟩

/-- C69: in one way only. -/
theorem reads_unique {s : Bytes} {a b : List Symbol} (ha : Reads s a) (hb : Reads s b) : a = b := by
  induction ha generalizing b with
  | nil =>
    generalize hs : ([] : Bytes) = s at hb
    cases hb with
    | nil => rfl
    | char c _ => exact absurd (List.append_eq_nil_iff.1 hs.symm).1 (enc_ne_nil c)
    | stray b _ _ => cases hs
  | @char c rest ss _ ih =>
    generalize hs : String.utf8EncodeChar c ++ rest = s at hb
    cases hb with
    | nil => exact absurd (List.append_eq_nil_iff.1 hs).1 (enc_ne_nil c)
    | char d h =>
      obtain ⟨rfl, rfl⟩ := enc_prefix hs
      rw [ih h]
    | stray b h _ => exact absurd hs.symm (h c rest)
  | @stray x rest ss hx _ ih =>
    generalize hs : x :: rest = s at hb
    cases hb with
    | nil => cases hs
    | char d h => exact absurd hs (hx d _)
    | stray y h h' =>
      obtain ⟨rfl, rfl⟩ := List.cons.injEq .. ▸ hs
      rw [ih h']

/-- The bytes of a symbol. -/
def Spec.Symbol.bytes : Symbol → Bytes
  | .char c => String.utf8EncodeChar c
  | .stray b => [b]

/-- The rune Go gives for a symbol. -/
def Spec.Symbol.rune : Symbol → Nat
  | .char c => c.toNat
  | .stray _ => 0xFFFD

theorem padding_iff (x : Symbol) : inCutset x.rune = true ↔ x.Padding := by
  cases x with
  | stray b => simp [Spec.Symbol.rune, Spec.Symbol.Padding, inCutset]
  | char c =>
    have hc : ∀ d : Char, c.toNat = d.toNat ↔ c = d := fun d => ⟨char_toNat_inj, congrArg _⟩
    simp only [Spec.Symbol.rune, Spec.Symbol.Padding, inCutset, Bool.or_eq_true, beq_iff_eq, List.mem_cons,
      List.not_mem_nil, or_false, ← hc]
    constructor
    · rintro (((((((h | h) | h) | h) | h) | h) | h) | h) <;> simp [h]
    · rintro (h | h | h | h | h | h | h | h) <;> simp [h]

theorem reads_bytes {s : Bytes} {ss : List Symbol} (h : Reads s ss) : s = ss.flatMap Symbol.bytes := by
  induction h with
  | nil => rfl
  | char c _ ih => rw [List.flatMap_cons, ← ih]; rfl
  | stray b _ _ ih => rw [List.flatMap_cons, ← ih]; rfl

theorem symbol_bytes_pos (x : Symbol) : 0 < x.bytes.length := by
  cases x with
  | char c => exact List.length_pos_iff.2 (enc_ne_nil c)
  | stray b => simp [Spec.Symbol.bytes]

/-- Decoding finds the first symbol. -/
theorem reads_decode {s : Bytes} {x : Symbol} {ss : List Symbol} (h : Reads s (x :: ss)) :
    decodeRune s = (x.rune, x.bytes.length) ∧ Reads (s.drop x.bytes.length) ss := by
  cases h with
  | char c h =>
    refine ⟨decodeRune_encode c _, ?_⟩
    simpa [Spec.Symbol.bytes] using h
  | stray b hb h => exact ⟨((stray_iff _ _).1 hb).2, h⟩

theorem reads_of_append {s : Bytes} {a b : List Symbol} (h : Reads s (a ++ b)) :
    ∃ s1 s2, s = s1 ++ s2 ∧ Reads s1 a ∧ Reads s2 b := by
  induction a generalizing s with
  | nil => exact ⟨[], s, rfl, .nil, h⟩
  | cons x a ih =>
    cases h with
    | char c h =>
      obtain ⟨s1, s2, rfl, h1, h2⟩ := ih h
      exact ⟨_, s2, (List.append_assoc ..).symm, .char c h1, h2⟩
    | @stray b rest _ hb h =>
      obtain ⟨s1, s2, rfl, h1, h2⟩ := ih h
      refine ⟨b :: s1, s2, rfl, .stray b ?_ h1, h2⟩
      intro c more he
      exact hb c (more ++ s2) (by rw [← List.append_assoc, ← he]; rfl)

/-- A character can be put after any bytes. -/
theorem reads_snoc {s : Bytes} {ss : List Symbol} (h : Reads s ss) (c : Char) :
    Reads (s ++ String.utf8EncodeChar c) (ss ++ [.char c]) := by
  induction h with
  | nil => simpa using Reads.char c .nil
  | char d _ ih => rw [List.append_assoc]; exact .char d ih
  | @stray b rest ss hb _ ih =>
    refine .stray b ?_ ih
    intro d more he
    obtain ⟨x, t, hx, hnx, -⟩ := enc_shape c
    obtain ⟨y, u, hy, -, hu, -⟩ := enc_shape d
    rcases List.append_eq_append_iff.1 (show (b :: rest) ++ String.utf8EncodeChar c = _ from he) with
      ⟨as, h1, h2⟩ | ⟨as, h1, -⟩
    · cases as with
      | nil => exact hb d [] (by rw [List.append_nil] at h1 ⊢; exact h1.symm)
      | cons a as =>
        rw [hx] at h2
        obtain ⟨rfl, -⟩ := List.cons.injEq .. ▸ h2
        rw [hy] at h1
        obtain ⟨-, h1⟩ := List.cons.injEq .. ▸ h1
        have := hu x (by rw [h1]; simp)
        rw [hnx] at this
        cases this
    · exact hb d as h1

/-- Decoding from the end finds the last symbol. -/
theorem reads_decodeLast {s : Bytes} {ss : List Symbol} {x : Symbol} (h : Reads s (ss ++ [x])) :
    decodeLastRune s = (x.rune, x.bytes.length) := by
  obtain ⟨s1, s2, rfl, h1, h2⟩ := reads_of_append h
  have e2 := reads_bytes h2
  rw [List.flatMap_singleton] at e2
  subst e2
  cases x with
  | char c =>
    obtain ⟨b, t, hb, hnb, ht, htl, ha, hna⟩ := enc_shape c
    have hd := decodeRune_encode c []
    rw [List.append_nil] at hd
    simp only [Spec.Symbol.bytes, Spec.Symbol.rune]
    rw [hb] at hd ⊢
    have rs : runeStart b = true := by simp [runeStart, hnb]
    match t, ha, hna, ht, htl with
    | [], ha, _, _, _ =>
      have := ha rfl
      rw [decodeLastRune_ascii _ _ this]
      rw [decodeRune_ascii _ _ this] at hd
      exact hd
    | [x], _, hna, ht, _ =>
      have hx := ht x (by simp)
      have hx' := (isCont_iff x).1 hx
      have el : lastStart (s1 ++ [b, x]) = s1.length := by
        simp [lastStart, rs]
      simp only [decodeLastRune, el]
      simp [hd, show ¬ x.toNat < 128 by omega]
    | [x, y], _, hna, ht, _ =>
      have hx := ht x (by simp)
      have hy := ht y (by simp)
      have hy' := (isCont_iff y).1 hy
      have el : lastStart (s1 ++ [b, x, y]) = s1.length := by
        have : ¬ runeStart x = true := by simp [runeStart, hx]
        simp [lastStart, rs, this, show s1.length + 3 - 2 = s1.length + 1 by omega, List.getElem?_append_right]
      simp only [decodeLastRune, el]
      simp [hd, show ¬ y.toNat < 128 by omega]
    | [x, y, z], _, hna, ht, _ =>
      have hx := ht x (by simp)
      have hy := ht y (by simp)
      have hz := ht z (by simp)
      have hz' := (isCont_iff z).1 hz
      have el : lastStart (s1 ++ [b, x, y, z]) = s1.length := by
        have e1 : ¬ runeStart x = true := by simp [runeStart, hx]
        have e2 : ¬ runeStart y = true := by simp [runeStart, hy]
        simp [lastStart, rs, e1, e2, show s1.length + 4 - 2 = s1.length + 2 by omega,
          show s1.length + 4 - 3 = s1.length + 1 by omega, List.getElem?_append_right]
      simp only [decodeLastRune, el]
      simp [hd, show ¬ z.toNat < 128 by omega]
  | stray b =>
    simp only [Spec.Symbol.bytes, Spec.Symbol.rune] at h ⊢
    have hs : 0x80 ≤ b.toNat := by
      clear h
      generalize hx : (Symbol.stray b).bytes = x at h2
      generalize hy : [Symbol.stray b] = y at h2
      cases h2 with
      | nil => cases hy
      | char c _ => cases hy
      | stray b' hb _ =>
        simp only [List.cons.injEq, Symbol.stray.injEq] at hy
        obtain ⟨rfl, -⟩ := hy
        exact ((stray_iff _ _).1 hb).1
    unfold decodeLastRune
    simp only [List.getLast?_append, List.getLast?_singleton, Option.some_or]
    rw [if_neg (by omega)]
    split
    · rfl
    · rename_i hlen
      have hlen : lastStart (s1 ++ [b]) + (decodeRune ((s1 ++ [b]).drop (lastStart (s1 ++ [b])))).2
          = (s1 ++ [b]).length := Classical.byContradiction hlen
      have hstart : lastStart (s1 ++ [b]) < (s1 ++ [b]).length ∧
          (2 ≤ (s1 ++ [b]).length → lastStart (s1 ++ [b]) + 2 ≤ (s1 ++ [b]).length) := by
        unfold lastStart
        dsimp only
        have : 1 ≤ (s1 ++ [b]).length := by simp
        split
        · omega
        · split
          · omega
          · split <;> omega
      cases hdrop : (s1 ++ [b]).drop (lastStart (s1 ++ [b])) with
      | nil =>
        have := congrArg List.length hdrop
        simp only [List.length_drop, List.length_nil] at this
        omega
      | cons y t =>
        rw [hdrop] at hlen
        rcases decodeRune_cases y t with ⟨hy, hd⟩ | ⟨hy, hd⟩ | ⟨hy, c, rest, hc, hd, -⟩
        · rw [hd] at hlen ⊢
          dsimp only at hlen ⊢
          have : s1 = [] := by
            cases s1 with
            | nil => rfl
            | cons _ _ =>
              have := hstart.2 (by simp)
              omega
          subst this
          have : lastStart [b] = 0 := rfl
          simp only [List.nil_append, this, List.drop_zero, List.cons.injEq] at hdrop
          rw [← hdrop.1] at hy
          omega
        · rw [hd]; rfl
        · exfalso
          rw [hd] at hlen
          dsimp only at hlen
          have hl := congrArg List.length hdrop
          rw [hc] at hl hdrop
          simp only [List.length_drop, List.length_append] at hl hlen
          have hr : rest = [] := List.length_eq_zero_iff.1 (by omega)
          subst hr
          rw [List.append_nil] at hdrop
          obtain ⟨as, ha⟩ := reads_exists ((s1 ++ [b]).take (lastStart (s1 ++ [b])))
          have := reads_snoc ha c
          rw [← hdrop, List.take_append_drop] at this
          have := reads_unique h this
          have := congrArg List.getLast? this
          simp at this

theorem reads_trimLeft {p m : List Symbol} (hp : ∀ x ∈ p, x.Padding) (hm : ∀ x t, m = x :: t → ¬ x.Padding)
    {s : Bytes} (h : Reads s (p ++ m)) {n : Nat} (hn : s.length ≤ n) : Reads (trimLeftN n s) m := by
  induction p generalizing s n with
  | nil =>
    cases n with
    | zero => exact h
    | succ n =>
      rw [trimLeftN]
      split
      · rename_i hc
        cases m with
        | nil =>
          cases h
          simp at hc
        | cons x t =>
          rw [(reads_decode h).1] at hc
          exact absurd ((padding_iff x).1 hc.2) (hm x t rfl)
      · exact h
  | cons x p ih =>
    have hd := reads_decode h
    have hl := congrArg List.length (reads_bytes h)
    have := symbol_bytes_pos x
    rw [List.cons_append, List.flatMap_cons, List.length_append] at hl
    cases n with
    | zero => omega
    | succ n =>
      rw [trimLeftN, hd.1, if_pos ⟨by omega, (padding_iff x).2 (hp x (by simp))⟩]
      exact ih (fun y hy => hp y (by simp [hy])) hd.2 (by rw [List.length_drop]; omega)

theorem reads_trimRight {q m : List Symbol} (hq : ∀ x ∈ q, x.Padding) (hm : ∀ x t, m = t ++ [x] → ¬ x.Padding)
    {s : Bytes} (h : Reads s (m ++ q.reverse)) {n : Nat} (hn : s.length ≤ n) : Reads (trimRightN n s) m := by
  induction q generalizing s n with
  | nil =>
    rw [List.reverse_nil, List.append_nil] at h
    cases n with
    | zero => exact h
    | succ n =>
      rw [trimRightN]
      split
      · rename_i hc
        rcases List.eq_nil_or_concat m with rfl | ⟨t, x, rfl⟩
        · cases h
          simp at hc
        · rw [List.concat_eq_append] at *
          rw [reads_decodeLast h] at hc
          exact absurd ((padding_iff x).1 hc.2) (hm x t rfl)
      · exact h
  | cons x q ih =>
    rw [List.reverse_cons, ← List.append_assoc] at h
    have hd := reads_decodeLast h
    obtain ⟨s1, s2, rfl, h1, h2⟩ := reads_of_append h
    have e2 := reads_bytes h2
    rw [List.flatMap_singleton] at e2
    have := symbol_bytes_pos x
    rw [List.length_append, e2] at hn
    cases n with
    | zero => omega
    | succ n =>
      rw [trimRightN, hd, if_pos ⟨by rw [List.length_append, e2]; omega, (padding_iff x).2 (hq x (by simp))⟩]
      dsimp only
      rw [List.length_append, e2, Nat.add_sub_cancel, List.take_left]
      exact ih (fun y hy => hq y (by simp [hy])) h1 (by omega)

/-- What is shown, with a look at the symbol before instead of the one after. -/
def shownAfter : Bool → List Symbol → Bytes
  | _, [] => []
  | _, .char c :: ss => String.utf8EncodeChar c ++ shownAfter false ss
  | invalid, .stray _ :: ss => (if invalid then [] else runeErrorBytes) ++ shownAfter true ss

theorem shownAfter_eq (ss : List Symbol) : (shown ss).flatMap String.utf8EncodeChar = shownAfter false ss ∧
    ∀ b, (shown (.stray b :: ss)).flatMap String.utf8EncodeChar = runeErrorBytes ++ shownAfter true ss := by
  have hr : String.utf8EncodeChar '�' = runeErrorBytes := by decide
  induction ss with
  | nil => exact ⟨rfl, fun b => by simp [shown, shownAfter, hr]⟩
  | cons x ss ih =>
    cases x with
    | char c =>
      refine ⟨?_, fun b => ?_⟩
      · simp [shown, shownAfter, ih.1]
      · simp [shown, shownAfter, ih.1, hr]
    | stray a =>
      refine ⟨?_, fun b => ?_⟩
      · rw [ih.2 a]; simp [shownAfter]
      · rw [shown, ih.2 a]; simp [shownAfter]

theorem reads_toValid {s : Bytes} {ss : List Symbol} (h : Reads s ss) {n : Nat} (hn : s.length ≤ n) (inv : Bool) :
    toValidN n s inv = shownAfter inv ss := by
  induction h generalizing n inv with
  | nil => cases n <;> rfl
  | @char c rest ss h ih =>
    obtain ⟨b, t, hb, hh⟩ := utf8EncodeChar_cons c
    have hd := decodeRune_encode c rest
    cases n with
    | zero => rw [List.length_append, hb] at hn; simp at hn
    | succ n =>
      rw [List.length_append, hb] at hn
      simp only [List.length_cons] at hn
      rw [shownAfter, hb, List.cons_append, toValidN]
      split
      · rename_i ha
        rcases hh with ⟨-, rfl⟩ | ⟨hh, -⟩
        · rw [List.nil_append, ih (by simp at hn; omega)]
          rfl
        · omega
      · rename_i ha
        rw [hb] at hd
        rw [← List.cons_append, hd]
        dsimp only
        rcases hh with ⟨hh, -⟩ | ⟨-, hh⟩
        · omega
        · have := List.length_pos_iff.2 hh
          rw [if_neg (by simp; omega), List.take_left, List.drop_left, ih (by omega)]
  | @stray b rest ss hb h ih =>
    obtain ⟨h1, h2⟩ := (stray_iff _ _).1 hb
    cases n with
    | zero => simp at hn
    | succ n =>
      rw [toValidN, if_neg (by omega), h2, if_pos rfl, shownAfter, ih (by simp at hn; omega)]

/-- C69: cleaning up text gives what its bytes show, and nothing else. -/
theorem cleaned_iff (s text : Bytes) : toValidUTF8 (trimSpaceAndZeroBytes s) = text ↔ Shows s text := by
  have key : ∀ {t}, Shows s t → toValidUTF8 (trimSpaceAndZeroBytes s) = t := by
    rintro t ⟨p, m, q, hr, hp, hq, h1, h2, rfl⟩
    have r1 : ∃ p', (∀ x ∈ p', x.Padding) ∧ Reads (trimRight s) (p' ++ m) := by
      by_cases hm : m = []
      · subst hm
        refine ⟨[], by simp, reads_trimRight (q := (p ++ q).reverse) (m := []) ?_ (by simp) (by simpa using hr) (Nat.le_refl _)⟩
        intro x hx
        rw [List.mem_reverse, List.mem_append] at hx
        exact hx.elim (hp x) (hq x)
      · refine ⟨p, hp, reads_trimRight (q := q.reverse) (m := p ++ m) ?_ ?_ (by simpa using hr) (Nat.le_refl _)⟩
        · intro x hx
          exact hq x (by simpa using hx)
        · intro x t ht
          rcases List.eq_nil_or_concat m with rfl | ⟨u, y, rfl⟩
          · exact absurd rfl hm
          · rw [List.concat_eq_append] at *
            rw [← List.append_assoc] at ht
            have := (List.append_inj' ht rfl).2
            rw [List.singleton_inj] at this
            exact this ▸ h2 y u rfl
    obtain ⟨p', hp', r1⟩ := r1
    have r2 := reads_trimLeft hp' h1 r1 (Nat.le_refl _)
    unfold toValidUTF8 trimSpaceAndZeroBytes
    rw [(shownAfter_eq m).1]
    exact reads_toValid r2 (Nat.le_refl _) false
  have ex : ∃ t, Shows s t := by
    obtain ⟨ss, hs⟩ := reads_exists s
    have left : ∀ l : List Symbol, ∃ p m, l = p ++ m ∧ (∀ x ∈ p, x.Padding) ∧ (∀ x t, m = x :: t → ¬ x.Padding) := by
      intro l
      induction l with
      | nil => exact ⟨[], [], rfl, by simp, by simp⟩
      | cons x l ih =>
        by_cases hx : x.Padding
        · obtain ⟨p, m, rfl, hp, hm⟩ := ih
          refine ⟨x :: p, m, rfl, ?_, hm⟩
          intro y hy
          rcases List.mem_cons.1 hy with rfl | hy
          · exact hx
          · exact hp y hy
        · refine ⟨[], x :: l, rfl, by simp, ?_⟩
          rintro y t h
          obtain ⟨rfl, -⟩ := List.cons.injEq .. ▸ h
          exact hx
    obtain ⟨q, m', he, hq, hm'⟩ := left ss.reverse
    obtain ⟨p, m, he', hp, hm⟩ := left m'.reverse
    have e : ss = p ++ m ++ q.reverse := by
      rw [← he', ← List.reverse_append, ← he, List.reverse_reverse]
    refine ⟨_, p, m, q.reverse, e ▸ hs, hp, fun x hx => hq x (by simpa using hx), hm, ?_, rfl⟩
    rintro x t rfl
    have : m' = x :: (p ++ t).reverse := by
      rw [← List.reverse_reverse (as := m'), he']
      simp
    exact hm' x _ this
  constructor
  · rintro rfl
    obtain ⟨t, ht⟩ := ex
    rw [key ht]
    exact ht
  · exact key

/-- C69: the IA5 fields, exactly: raw bytes, length and the text shown. -/
theorem ia5_value_iff (d : Bytes) (s : Ia5StringValue) : unmarshalIa5StringValue d = .ok s ↔
    d ≠ [] ∧ s.rawData = some d ∧ s.length = some (wrap32 d.length) ∧ Shows d s.value := by
  unfold unmarshalIa5StringValue
  obtain ⟨raw, len, v⟩ := s
  cases d with
  | nil => simp
  | cons b t =>
    rw [if_neg (by simp)]
    simp only [Res.ok.injEq, Ia5StringValue.mk.injEq, cleaned_iff]
    constructor
    · rintro ⟨rfl, rfl, h⟩
      exact ⟨by simp, rfl, rfl, h⟩
    · rintro ⟨-, rfl, rfl, h⟩
      exact ⟨rfl, rfl, h⟩

theorem tableFor_iff (cp : UInt8) (h : cp ≠ 255) (t : Table) : TableFor cp t ↔ t = charmapOf cp := by
  have key : ∀ cp : UInt8, cp ≠ 255 → (TableFor cp (charmapOf cp) ∧
      (∀ p ∈ pageTables, p.1 = cp.toNat → p.2 = charmapOf cp) ∧
      (¬ KnownCodePage cp → Table.iso8859_1 = charmapOf cp)) := by
    unfold TableFor
    apply forall_byte
    decide +kernel
  obtain ⟨k1, k2, k3⟩ := key cp h
  constructor
  · rintro (h' | ⟨h', rfl⟩)
    · exact k2 _ h' rfl
    · exact k3 h'
  · rintro rfl
    exact k1

theorem encodingFor_iff (cp : UInt8) (e : Int) : EncodingFor cp e ↔ e = getEncodingFromCodePage cp := by
  have key : ∀ cp : UInt8, EncodingFor cp (getEncodingFromCodePage cp) ∧
      (∀ p ∈ codePages, p.1 = cp.toNat → p.2 = getEncodingFromCodePage cp) ∧
      (¬ KnownCodePage cp → 1 = getEncodingFromCodePage cp) := by
    unfold EncodingFor
    apply forall_byte
    decide +kernel
  obtain ⟨k1, k2, k3⟩ := key cp
  constructor
  · rintro (h' | ⟨h', rfl⟩)
    · exact k2 _ h' rfl
    · exact k3 h'
  · rintro rfl
    exact k1

/-- C69: the code page fields, exactly: raw bytes, length, encoding and the text shown. -/
theorem stringValue_value_iff [Charmap] (d : Bytes) (s : StringValue) : unmarshalStringValue d = .ok s ↔
    ∃ cp t, d = cp :: t ∧ t ≠ [] ∧ s.rawData = some d ∧ s.length = some (wrap32 t.length) ∧
      EncodingFor cp s.encoding ∧ PageShows cp t s.value := by
  have hv : ∀ cp t v, decodeWithCodePage cp t = v ↔ PageShows cp t v := by
    intro cp t v
    have ha : (t.any fun b => decide (0 < b.toNat) && decide (b.toNat < 255)) = true ↔ ∃ b ∈ t, b ≠ 0 ∧ b ≠ 255 := by
      rw [List.any_eq_true]
      refine exists_congr fun b => and_congr_right fun _ => ?_
      have hb := byte_lt b
      have h0 : b = 0 ↔ b.toNat = 0 := ⟨fun h => by rw [h]; rfl, fun h => byte_ext h⟩
      have h1 : b = 255 ↔ b.toNat = 255 := ⟨fun h => by rw [h]; rfl, fun h => byte_ext h⟩
      rw [ne_eq, ne_eq, h0, h1]
      simp only [Bool.and_eq_true, decide_eq_true_eq]
      omega
    unfold decodeWithCodePage PageShows
    by_cases h1 : cp = 255
    · simp [h1, eq_comm]
    · rw [if_neg h1]
      by_cases h2 : ∃ b ∈ t, b ≠ 0 ∧ b ≠ 255
      · rw [if_pos (ha.2 h2), cleaned_iff]
        have : ¬ ∀ b ∈ t, b = 0 ∨ b = 255 := by
          intro hh
          obtain ⟨b, hb, h3, h4⟩ := h2
          exact (hh b hb).elim h3 h4
        simp only [h1, this, false_or, false_and, ne_eq, not_false_eq_true, true_and, tableFor_iff cp h1]
        simp only [exists_eq_left]
        exact ⟨fun h => ⟨h2, h⟩, fun h => h.2⟩
      · rw [if_neg (fun h => h2 (ha.1 h))]
        have : ∀ b ∈ t, b = 0 ∨ b = 255 := by
          intro b hb
          by_cases h3 : b = 0
          · exact .inl h3
          · by_cases h4 : b = 255
            · exact .inr h4
            · exact absurd ⟨b, hb, h3, h4⟩ h2
        constructor
        · rintro rfl
          exact .inl ⟨.inr this, rfl⟩
        · rintro (⟨-, rfl⟩ | ⟨-, h, -⟩)
          · rfl
          · exact absurd h h2
  constructor
  · intro h
    have hl := (stringValue_accepts_iff d).1 ⟨s, h⟩
    match d with
    | [] => simp at hl
    | [_] => simp at hl
    | b :: c :: t =>
      rw [unmarshalStringValue_eq b (c :: t) (by simp), Res.ok.injEq] at h
      subst h
      exact ⟨b, c :: t, rfl, by simp, rfl, rfl, (encodingFor_iff _ _).2 rfl, (hv _ _ _).1 rfl⟩
  · rintro ⟨cp, t, rfl, ht, h1, h2, h3, h4⟩
    rw [unmarshalStringValue_eq cp t ht, (hv _ _ _).2 h4, ← h1, ← h2, ← (encodingFor_iff _ _).1 h3]

/-- Stray bytes at the ends are dropped, and a run of them inside becomes one U+FFFD. -/
example : Shows [0xFF, 0x20, 0x41, 0xFF, 0xFE, 0x42, 0x85] [0x41, 0xEF, 0xBF, 0xBD, 0x42] :=
  (cleaned_iff _ _).1 (by decide +kernel)

/-- Under an unknown code page (4) text is read as Latin-1. -/
example : @PageShows latin1 4 [0x20, 0x41, 0xE9, 0] [0x41, 0xC3, 0xA9] := by
  have h : @unmarshalStringValue latin1 (4 :: [0x20, 0x41, 0xE9, 0])
      = .ok ⟨1, some [4, 0x20, 0x41, 0xE9, 0], some 4, [0x41, 0xC3, 0xA9]⟩ := by decide +kernel
  obtain ⟨cp, t, h1, -, -, -, -, h2⟩ := (@stringValue_value_iff latin1 _ _).1 h
  obtain ⟨rfl, rfl⟩ := List.cons.injEq .. ▸ h1
  exact h2

/-- Finding: a Latin-1 field filled up with the byte A0 or FF (no-break space, ÿ), which the code means to
trim, keeps it: the table has turned it into a character. -/
example : (@unmarshalStringValue latin1 [1, 0x41, 0xA0, 0xFF]) =
    .ok ⟨4, some [1, 0x41, 0xA0, 0xFF], some 3, [0x41, 0xC2, 0xA0, 0xC3, 0xBF]⟩ := by decide +kernel

end Tacho
