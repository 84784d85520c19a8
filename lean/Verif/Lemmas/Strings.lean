import Verif.Model.Strings
import Verif.Spec.Text
import Verif.Lemmas.Prim
/-!
# Lemmas about Go's UTF-8 helpers
-/

namespace Tacho
open Spec

theorem utf8_nil : Utf8 [] := ⟨[], rfl⟩

theorem utf8_append {a b : Bytes} (ha : Utf8 a) (hb : Utf8 b) : Utf8 (a ++ b) := by
  obtain ⟨x, rfl⟩ := ha
  obtain ⟨y, rfl⟩ := hb
  exact ⟨x ++ y, by simp⟩

theorem utf8_char (c : Char) : Utf8 (String.utf8EncodeChar c) := ⟨[c], by simp⟩

theorem char_val (v : Nat) (h : v.isValidChar) : (Char.ofNat v).val.toNat = v := by
  simp only [Char.ofNat, h, dif_pos, Char.ofNatAux]
  rfl

theorem utf8_runeError : Utf8 runeErrorBytes := ⟨[Char.ofNat 0xFFFD], by decide⟩

theorem utf8_ascii_byte (b : UInt8) (h : b.toNat < 0x80) : Utf8 [b] := by
  refine ⟨[Char.ofNat b.toNat], ?_⟩
  have hv := char_val b.toNat (Or.inl (by omega))
  simp only [List.flatMap_cons, List.flatMap_nil, List.append_nil, String.utf8EncodeChar, hv]
  rw [if_pos (by omega)]
  simp

theorem isCont_iff (b : UInt8) : isCont b = true ↔ 0x80 ≤ b.toNat ∧ b.toNat ≤ 0xBF := by
  simp [isCont]

theorem acc_bounds (x : Nat) : 0x80 ≤ accLo x ∧ accHi x ≤ 0xBF := by
  unfold accLo accHi
  constructor
  · split
    · omega
    · split <;> omega
  · split
    · omega
    · split <;> omega

/-- The three outcomes of decoding a non-empty slice: an ASCII byte, an invalid byte, or a
well-formed sequence of two to four bytes encoding a scalar value. -/
theorem decodeRune_cases (b : UInt8) (t : Bytes) :
    (b.toNat < 0x80 ∧ decodeRune (b :: t) = (b.toNat, 1)) ∨
    (0x80 ≤ b.toNat ∧ decodeRune (b :: t) = (0xFFFD, 1)) ∨
    (0x80 ≤ b.toNat ∧ ∃ c : Char, ∃ rest, b :: t = String.utf8EncodeChar c ++ rest ∧
      decodeRune (b :: t) = (c.toNat, (String.utf8EncodeChar c).length) ∧
      2 ≤ (String.utf8EncodeChar c).length) := by
  have hb := byte_lt b
  by_cases h0 : b.toNat < 0x80
  · left; simp [decodeRune, h0]
  right
  by_cases h1 : 0xC2 ≤ b.toNat ∧ b.toNat ≤ 0xDF
  · match t with
    | [] => left; simp [decodeRune, h0, h1]; omega
    | b1 :: t =>
      by_cases hc : isCont b1 = true
      · right
        refine ⟨by omega, ?_⟩
        rw [isCont_iff] at hc
        have hv := char_val (b.toNat % 32 * 64 + b1.toNat % 64) (Or.inl (by omega))
        have he : String.utf8EncodeChar (Char.ofNat (b.toNat % 32 * 64 + b1.toNat % 64)) = [b, b1] := by
          simp only [String.utf8EncodeChar, hv]
          rw [if_neg (by omega), if_pos (by omega)]
          congr 1
          · apply byte_ext; rw [toNat_ofNat_lt (by omega)]; omega
          · congr 1
            apply byte_ext; rw [toNat_ofNat_lt (by omega)]; omega
        refine ⟨Char.ofNat (b.toNat % 32 * 64 + b1.toNat % 64), t, ?_, ?_, ?_⟩
        · rw [he]; rfl
        · have : isCont b1 = true := (isCont_iff b1).mpr hc
          rw [he]
          simp only [decodeRune, h0, h1, this, if_true, if_false, and_self]
          rw [show (Char.ofNat (b.toNat % 32 * 64 + b1.toNat % 64)).toNat = _ from hv]
          rfl
        · rw [he]; simp
      · left
        simp [decodeRune, h0, h1, hc]; omega
  · by_cases h2 : 0xE0 ≤ b.toNat ∧ b.toNat ≤ 0xEF
    · match t with
      | [] => left; simp only [decodeRune, h0, h1, h2, if_true, if_false, and_self, and_true]; omega
      | [_] => left; simp only [decodeRune, h0, h1, h2, if_true, if_false, and_self, and_true]; omega
      | b1 :: b2 :: t =>
        by_cases hc : accLo b.toNat ≤ b1.toNat ∧ b1.toNat ≤ accHi b.toNat ∧ isCont b2 = true
        · right
          refine ⟨by omega, ?_⟩
          have hc' := hc
          obtain ⟨c1, c2, c3⟩ := hc'
          rw [isCont_iff] at c3
          have hacc := acc_bounds b.toNat
          have hs : b.toNat = 0xE0 → 0xA0 ≤ b1.toNat := by
            intro e; rw [e] at c1; simpa [accLo] using c1
          have hs' : b.toNat = 0xED → b1.toNat ≤ 0x9F := by
            intro e; rw [e] at c2; simpa [accHi] using c2
          have hvalid : (b.toNat % 16 * 4096 + b1.toNat % 64 * 64 + b2.toNat % 64).isValidChar := by
            unfold Nat.isValidChar
            by_cases e : b.toNat < 0xED
            · left; omega
            · by_cases e' : b.toNat = 0xED
              · have := hs' e'; left; omega
              · right; omega
          have hv := char_val _ hvalid
          have he : String.utf8EncodeChar (Char.ofNat (b.toNat % 16 * 4096 + b1.toNat % 64 * 64 + b2.toNat % 64))
              = [b, b1, b2] := by
            simp only [String.utf8EncodeChar, hv]
            have l1 : ¬ (b.toNat % 16 * 4096 + b1.toNat % 64 * 64 + b2.toNat % 64 ≤ 0x7f) := by
              by_cases e : b.toNat = 0xE0
              · have := hs e; omega
              · omega
            have l2 : ¬ (b.toNat % 16 * 4096 + b1.toNat % 64 * 64 + b2.toNat % 64 ≤ 0x7ff) := by
              by_cases e : b.toNat = 0xE0
              · have := hs e; omega
              · omega
            rw [if_neg l1, if_neg l2, if_pos (by omega)]
            congr 1
            · apply byte_ext; rw [toNat_ofNat_lt (by omega)]; omega
            · congr 1
              · apply byte_ext; rw [toNat_ofNat_lt (by omega)]; omega
              · congr 1
                apply byte_ext; rw [toNat_ofNat_lt (by omega)]; omega
          refine ⟨Char.ofNat (b.toNat % 16 * 4096 + b1.toNat % 64 * 64 + b2.toNat % 64), t, ?_, ?_, ?_⟩
          · rw [he]; rfl
          · rw [he]
            simp only [decodeRune, h0, h1, h2, hc, if_true, if_false, and_self]
            rw [show (Char.ofNat (b.toNat % 16 * 4096 + b1.toNat % 64 * 64 + b2.toNat % 64)).toNat = _ from hv]
            rfl
          · rw [he]; simp
        · left
          simp only [decodeRune, h0, h1, h2, hc, if_true, if_false, and_self, and_true]; omega
    · by_cases h3 : 0xF0 ≤ b.toNat ∧ b.toNat ≤ 0xF4
      · match t with
        | [] => left; simp only [decodeRune, h0, h1, h2, h3, if_true, if_false, and_self, and_true]; omega
        | [_] => left; simp only [decodeRune, h0, h1, h2, h3, if_true, if_false, and_self, and_true]; omega
        | [_, _] => left; simp only [decodeRune, h0, h1, h2, h3, if_true, if_false, and_self, and_true]; omega
        | b1 :: b2 :: b3 :: t =>
          by_cases hc : accLo b.toNat ≤ b1.toNat ∧ b1.toNat ≤ accHi b.toNat ∧ isCont b2 = true ∧ isCont b3 = true
          · right
            refine ⟨by omega, ?_⟩
            have hc' := hc
            obtain ⟨c1, c2, c3, c4⟩ := hc'
            rw [isCont_iff] at c3 c4
            have hacc := acc_bounds b.toNat
            have hs : b.toNat = 0xF0 → 0x90 ≤ b1.toNat := by
              intro e; rw [e] at c1; simpa [accLo] using c1
            have hs' : b.toNat = 0xF4 → b1.toNat ≤ 0x8F := by
              intro e; rw [e] at c2; simpa [accHi] using c2
            have lower : 0xFFFF < b.toNat % 8 * 262144 + b1.toNat % 64 * 4096 + b2.toNat % 64 * 64 + b3.toNat % 64 := by
              by_cases e : b.toNat = 0xF0
              · have := hs e; omega
              · omega
            have upper : b.toNat % 8 * 262144 + b1.toNat % 64 * 4096 + b2.toNat % 64 * 64 + b3.toNat % 64 < 0x110000 := by
              by_cases e : b.toNat = 0xF4
              · have := hs' e; omega
              · omega
            have hv := char_val _ (Or.inr ⟨by omega, upper⟩)
            have he : String.utf8EncodeChar (Char.ofNat (b.toNat % 8 * 262144 + b1.toNat % 64 * 4096
                + b2.toNat % 64 * 64 + b3.toNat % 64)) = [b, b1, b2, b3] := by
              simp only [String.utf8EncodeChar, hv]
              rw [if_neg (by omega), if_neg (by omega), if_neg (by omega)]
              congr 1
              · apply byte_ext; rw [toNat_ofNat_lt (by omega)]; omega
              · congr 1
                · apply byte_ext; rw [toNat_ofNat_lt (by omega)]; omega
                · congr 1
                  · apply byte_ext; rw [toNat_ofNat_lt (by omega)]; omega
                  · congr 1
                    apply byte_ext; rw [toNat_ofNat_lt (by omega)]; omega
            refine ⟨Char.ofNat (b.toNat % 8 * 262144 + b1.toNat % 64 * 4096
                + b2.toNat % 64 * 64 + b3.toNat % 64), t, ?_, ?_, ?_⟩
            · rw [he]; rfl
            · rw [he]
              simp only [decodeRune, h0, h1, h2, h3, hc, if_true, if_false, and_self]
              rw [show (Char.ofNat (b.toNat % 8 * 262144 + b1.toNat % 64 * 4096
                + b2.toNat % 64 * 64 + b3.toNat % 64)).toNat = _ from hv]
              rfl
            · rw [he]; simp
          · left
            simp only [decodeRune, h0, h1, h2, h3, hc, if_true, if_false, and_self, and_true]; omega
      · left
        simp only [decodeRune, h0, h1, h2, h3, if_false, and_true]; omega

theorem decodeRune_ascii (b : UInt8) (t : Bytes) (h : b.toNat < 0x80) :
    decodeRune (b :: t) = (b.toNat, 1) := by
  rcases decodeRune_cases b t with ⟨_, h'⟩ | ⟨h', _⟩ | ⟨h', _⟩
  · exact h'
  · omega
  · omega

/-- Decoding finds the scalar value whose encoding starts the slice. -/
theorem decodeRune_encode (c : Char) (rest : Bytes) :
    decodeRune (String.utf8EncodeChar c ++ rest) = (c.toNat, (String.utf8EncodeChar c).length) := by
  have hval : c.val.toNat.isValidChar := c.valid
  unfold Nat.isValidChar at hval
  have hcv : c.toNat = c.val.toNat := rfl
  unfold String.utf8EncodeChar
  rw [hcv]
  generalize c.val.toNat = v at *
  dsimp only
  by_cases h1 : v ≤ 0x7f
  · rw [if_pos h1]
    have e : (UInt8.ofNat v).toNat = v := toNat_ofNat_lt (by omega)
    rw [List.singleton_append, decodeRune_ascii _ _ (by omega), e]
    rfl
  rw [if_neg h1]
  by_cases h2 : v ≤ 0x7ff
  · rw [if_pos h2]
    have e1 : (UInt8.ofNat (v / 64 % 32 + 0xc0)).toNat = v / 64 % 32 + 0xc0 := toNat_ofNat_lt (by omega)
    have e2 : (UInt8.ofNat (v % 64 + 0x80)).toNat = v % 64 + 0x80 := toNat_ofNat_lt (by omega)
    have c2 : isCont (UInt8.ofNat (v % 64 + 0x80)) = true := by rw [isCont_iff]; omega
    simp only [List.cons_append, List.nil_append, decodeRune, e1, e2, c2, if_true]
    rw [if_neg (by omega), if_pos (by omega)]
    simp only [List.length_cons, List.length_nil, Prod.mk.injEq, and_true]
    omega
  rw [if_neg h2]
  by_cases h3 : v ≤ 0xffff
  · rw [if_pos h3]
    have e1 : (UInt8.ofNat (v / 4096 % 16 + 0xe0)).toNat = v / 4096 % 16 + 0xe0 := toNat_ofNat_lt (by omega)
    have e2 : (UInt8.ofNat (v / 64 % 64 + 0x80)).toNat = v / 64 % 64 + 0x80 := toNat_ofNat_lt (by omega)
    have e3 : (UInt8.ofNat (v % 64 + 0x80)).toNat = v % 64 + 0x80 := toNat_ofNat_lt (by omega)
    have c3 : isCont (UInt8.ofNat (v % 64 + 0x80)) = true := by rw [isCont_iff]; omega
    have lo : accLo (v / 4096 % 16 + 0xe0) ≤ v / 64 % 64 + 0x80 := by
      unfold accLo; split
      · omega
      · split <;> omega
    have hi : v / 64 % 64 + 0x80 ≤ accHi (v / 4096 % 16 + 0xe0) := by
      unfold accHi; split
      · omega
      · split <;> omega
    simp only [List.cons_append, List.nil_append, decodeRune, e1, e2, e3, c3, lo, hi, if_true, and_self]
    rw [if_neg (by omega), if_neg (by omega), if_pos (by omega)]
    simp only [List.length_cons, List.length_nil, Prod.mk.injEq, and_true]
    omega
  rw [if_neg h3]
  have e1 : (UInt8.ofNat (v / 262144 % 8 + 0xf0)).toNat = v / 262144 % 8 + 0xf0 := toNat_ofNat_lt (by omega)
  have e2 : (UInt8.ofNat (v / 4096 % 64 + 0x80)).toNat = v / 4096 % 64 + 0x80 := toNat_ofNat_lt (by omega)
  have e3 : (UInt8.ofNat (v / 64 % 64 + 0x80)).toNat = v / 64 % 64 + 0x80 := toNat_ofNat_lt (by omega)
  have e4 : (UInt8.ofNat (v % 64 + 0x80)).toNat = v % 64 + 0x80 := toNat_ofNat_lt (by omega)
  have c3 : isCont (UInt8.ofNat (v / 64 % 64 + 0x80)) = true := by rw [isCont_iff]; omega
  have c4 : isCont (UInt8.ofNat (v % 64 + 0x80)) = true := by rw [isCont_iff]; omega
  have lo : accLo (v / 262144 % 8 + 0xf0) ≤ v / 4096 % 64 + 0x80 := by
    unfold accLo; split
    · omega
    · split <;> omega
  have hi : v / 4096 % 64 + 0x80 ≤ accHi (v / 262144 % 8 + 0xf0) := by
    unfold accHi; split
    · omega
    · split <;> omega
  simp only [List.cons_append, List.nil_append, decodeRune, e1, e2, e3, e4, c3, c4, lo, hi, if_true, and_self]
  rw [if_neg (by omega), if_neg (by omega), if_neg (by omega), if_pos (by omega)]
  simp only [List.length_cons, List.length_nil, Prod.mk.injEq, and_true]
  omega

/-- Whatever the input, the result of `ToValidUTF8` is valid UTF-8. -/
theorem utf8_toValidN (n : Nat) (s : Bytes) (inv : Bool) : Utf8 (toValidN n s inv) := by
  induction n generalizing s inv with
  | zero => exact utf8_nil
  | succ n ih =>
    cases s with
    | nil => exact utf8_nil
    | cons b t =>
      rw [toValidN]
      rcases decodeRune_cases b t with ⟨h, hd⟩ | ⟨h, hd⟩ | ⟨h, c, rest, hs, hd, hl⟩
      · rw [if_pos h]
        exact utf8_append (a := [b]) (utf8_ascii_byte b h) (ih _ _)
      · rw [if_neg (by omega), hd, if_pos rfl]
        apply utf8_append _ (ih _ _)
        split
        · exact utf8_nil
        · exact utf8_runeError
      · rw [if_neg (by omega), hd]
        rw [if_neg (show ¬ ((c.toNat, (String.utf8EncodeChar c).length).2 = 1) from by
          show ¬ ((String.utf8EncodeChar c).length = 1); omega)]
        dsimp only
        rw [hs, List.take_left, List.drop_left]
        exact utf8_append (utf8_char c) (ih _ _)

theorem utf8EncodeChar_cons (c : Char) : ∃ b t, String.utf8EncodeChar c = b :: t ∧
    ((b.toNat < 0x80 ∧ t = []) ∨ (0x80 ≤ b.toNat ∧ t ≠ [])) := by
  have hval : c.val.toNat.isValidChar := c.valid
  unfold Nat.isValidChar at hval
  unfold String.utf8EncodeChar
  generalize c.val.toNat = v at *
  dsimp only
  split
  · exact ⟨_, _, rfl, Or.inl ⟨by rw [toNat_ofNat_lt (by omega)]; omega, rfl⟩⟩
  · split
    · exact ⟨_, _, rfl, Or.inr ⟨by rw [toNat_ofNat_lt (by omega)]; omega, by simp⟩⟩
    · split
      · exact ⟨_, _, rfl, Or.inr ⟨by rw [toNat_ofNat_lt (by omega)]; omega, by simp⟩⟩
      · exact ⟨_, _, rfl, Or.inr ⟨by rw [toNat_ofNat_lt (by omega)]; omega, by simp⟩⟩

/-- Valid text is left alone. -/
theorem toValidN_of_utf8 (cs : List Char) (n : Nat) (inv : Bool)
    (h : (cs.flatMap String.utf8EncodeChar).length ≤ n) :
    toValidN n (cs.flatMap String.utf8EncodeChar) inv = cs.flatMap String.utf8EncodeChar := by
  induction cs generalizing n inv with
  | nil => cases n <;> rfl
  | cons c cs ih =>
    rw [List.flatMap_cons] at h ⊢
    have hd := decodeRune_encode c (cs.flatMap String.utf8EncodeChar)
    obtain ⟨b, t, he, hb⟩ := utf8EncodeChar_cons c
    have hlen : (String.utf8EncodeChar c).length = t.length + 1 := by rw [he]; rfl
    rw [List.length_append, hlen] at h
    cases n with
    | zero => omega
    | succ n =>
      rcases hb with ⟨hb, rfl⟩ | ⟨hb, ht⟩
      · rw [he, List.singleton_append, toValidN, if_pos hb, ih n false (by simp only [List.length_nil] at h; omega)]
      · have htl : 0 < t.length := List.length_pos_iff.mpr ht
        have e : String.utf8EncodeChar c ++ cs.flatMap String.utf8EncodeChar
            = b :: (t ++ cs.flatMap String.utf8EncodeChar) := by rw [he]; rfl
        rw [e, toValidN, if_neg (by omega), ← e, hd]
        dsimp only
        rw [if_neg (by omega), List.take_left, List.drop_left, ih n false (by omega)]

theorem toValidUTF8_of_utf8 {s : Bytes} (h : Utf8 s) : toValidUTF8 s = s := by
  obtain ⟨cs, rfl⟩ := h
  exact toValidN_of_utf8 cs _ _ (Nat.le_refl _)

theorem utf8_toValid (s : Bytes) : Utf8 (toValidUTF8 s) := utf8_toValidN _ _ _

theorem utf8_of_ascii {s : Bytes} (h : Ascii s) : Utf8 s := by
  induction s with
  | nil => exact utf8_nil
  | cons b t ih =>
    exact utf8_append (a := [b]) (utf8_ascii_byte b (h b (by simp)))
      (ih (fun x hx => h x (by simp [hx])))

/-! ### trimming -/

theorem blank_cutset {b : UInt8} (h : b.toNat < 0x80) : inCutset b.toNat = true ↔ Blank b := by
  have key : ∀ n : Fin 256, (UInt8.ofNat n.val).toNat < 0x80 →
      (inCutset (UInt8.ofNat n.val).toNat = true ↔ Blank (UInt8.ofNat n.val)) := by decide +kernel
  have := key ⟨b.toNat, byte_lt b⟩
  simp only [UInt8.ofNat_toNat] at this
  exact this h

theorem blank_lt {b : UInt8} (h : Blank b) : b.toNat < 0x80 := by
  rcases h with h | h | h | h | h | h | h <;> subst h <;> decide

theorem trimLeftN_blanks (p v : Bytes) (n : Nat) (hp : ∀ b ∈ p, Blank b) (hn : p.length ≤ n)
    (hv : ∀ b t, v = b :: t → b.toNat < 0x80 ∧ ¬ Blank b) : trimLeftN n (p ++ v) = v := by
  induction p generalizing n with
  | nil =>
    cases n with
    | zero => rfl
    | succ n =>
      rw [List.nil_append, trimLeftN]
      cases v with
      | nil => simp
      | cons b t =>
        obtain ⟨h1, h2⟩ := hv b t rfl
        rw [decodeRune_ascii b t h1, if_neg]
        rw [blank_cutset h1]; simp [h2]
  | cons b p ih =>
    cases n with
    | zero => simp at hn
    | succ n =>
      have hb := hp b (by simp)
      rw [List.cons_append, trimLeftN, decodeRune_ascii b _ (blank_lt hb),
        if_pos ⟨by simp, (blank_cutset (blank_lt hb)).mpr hb⟩]
      exact ih n (fun x hx => hp x (by simp [hx])) (by simpa using hn)

theorem decodeLastRune_ascii (v : Bytes) (b : UInt8) (h : b.toNat < 0x80) :
    decodeLastRune (v ++ [b]) = (b.toNat, 1) := by
  simp [decodeLastRune, h]

theorem trimRightN_blanks (p v : Bytes) (n : Nat) (hp : ∀ b ∈ p, Blank b) (hn : p.length ≤ n)
    (hv : ∀ b t, v = t ++ [b] → b.toNat < 0x80 ∧ ¬ Blank b) : trimRightN n (v ++ p.reverse) = v := by
  induction p generalizing n with
  | nil =>
    simp only [List.reverse_nil, List.append_nil]
    cases n with
    | zero => rfl
    | succ n =>
      rw [trimRightN]
      rcases List.eq_nil_or_concat v with rfl | ⟨t, b, rfl⟩
      · simp
      · simp only [List.concat_eq_append] at *
        obtain ⟨h1, h2⟩ := hv b t rfl
        rw [decodeLastRune_ascii t b h1, if_neg]
        rw [blank_cutset h1]; simp [h2]
  | cons b p ih =>
    cases n with
    | zero => simp at hn
    | succ n =>
      have hb := hp b (by simp)
      rw [List.reverse_cons, ← List.append_assoc, trimRightN, decodeLastRune_ascii _ b (blank_lt hb),
        if_pos ⟨by simp; omega, (blank_cutset (blank_lt hb)).mpr hb⟩]
      have : ((v ++ p.reverse) ++ [b]).take (((v ++ p.reverse) ++ [b]).length - 1) = v ++ p.reverse := by
        rw [List.length_append, List.length_singleton, Nat.add_sub_cancel, List.take_left]
      rw [this]
      exact ih n (fun x hx => hp x (by simp [hx])) (by simpa using hn)

/-- Trimming removes blanks around ASCII text and nothing else. -/
theorem trim_ascii (p q v : Bytes) (hp : ∀ b ∈ p, Blank b) (hq : ∀ b ∈ q, Blank b) (hv : Ascii v)
    (h1 : ∀ b t, v = b :: t → ¬ Blank b) (h2 : ∀ b t, v = t ++ [b] → ¬ Blank b) :
    trimSpaceAndZeroBytes (p ++ v ++ q) = v := by
  unfold trimSpaceAndZeroBytes trimLeft trimRight
  have hv1 : ∀ b t, v = b :: t → b.toNat < 0x80 ∧ ¬ Blank b := by
    rintro b t rfl; exact ⟨hv b (by simp), h1 b t rfl⟩
  have hv2 : ∀ b t, v = t ++ [b] → b.toNat < 0x80 ∧ ¬ Blank b := by
    rintro b t rfl; exact ⟨hv b (by simp), h2 b t rfl⟩
  rcases List.eq_nil_or_concat v with rfl | ⟨t, x, rfl⟩
  · have e : trimRightN (p ++ [] ++ q).length (p ++ [] ++ q) = [] := by
      have := trimRightN_blanks (p ++ q).reverse [] (p ++ [] ++ q).length
        (by intro b hb; simp at hb; rcases hb with hb | hb <;> first | exact hp b hb | exact hq b hb)
        (by simp; omega) (by simp)
      simpa using this
    rw [e]; rfl
  · simp only [List.concat_eq_append] at *
    have e : trimRightN (p ++ (t ++ [x]) ++ q).length (p ++ (t ++ [x]) ++ q) = p ++ (t ++ [x]) := by
      have := trimRightN_blanks q.reverse (p ++ (t ++ [x])) (p ++ (t ++ [x]) ++ q).length
        (by intro b hb; simp at hb; exact hq b hb) (by simp; omega)
        (by
          intro b u hu
          rw [← List.append_assoc] at hu
          have := List.append_inj' hu rfl
          simp only [List.cons.injEq, and_true] at this
          obtain ⟨_, rfl⟩ := this
          exact hv2 x t rfl)
      simpa using this
    rw [e]
    exact trimLeftN_blanks p (t ++ [x]) _ hp (by simp) hv1

end Tacho
