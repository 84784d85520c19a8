import Verif.Lemmas.Strings
/-!
# Properties of strings (C20, C21, C43)

`Spec.Utf8`, `Spec.Ascii` and `Spec.Blank` are in Verif/Spec/Text.lean. All statements about
code-page strings hold for every table of character maps.
-/

namespace Tacho
open Spec

/-- The encoding enum of a parsed string is the one annotated with its code page. -/
theorem encoding_of_codePage : ∀ p ∈ Spec.codePages,
    getEncodingFromCodePage (UInt8.ofNat p.1) = p.2 ∧ getCodePageFromEncoding p.2 = UInt8.ofNat p.1 ∧
      marshalEnum encodingTable p.2 = .ok (UInt8.ofNat p.1) := by decide +kernel

theorem codePage_roundtrip (b : UInt8) :
    getCodePageFromEncoding (getEncodingFromCodePage b) = if KnownCodePage b then b else 255 := by
  revert b
  apply forall_byte
  decide +kernel

section
variable [Charmap]

theorem unmarshalStringValue_eq (b : UInt8) (t : Bytes) (ht : t ≠ []) :
    unmarshalStringValue (b :: t) = .ok {
      encoding := getEncodingFromCodePage b
      rawData := some (b :: t)
      length := some (wrap32 t.length)
      value := decodeWithCodePage b t } := by
  have hl := List.length_pos_iff.mpr ht
  have h2 : ¬ (t.length + 1 < 2) := by omega
  have h3 : 1 ≤ t.length + 1 := by omega
  simp only [unmarshalStringValue, h2, h3, if_true, if_false, Res.pure_eq, Res.bind_ok, at?,
    List.getElem?_cons_zero, from?, List.length_cons, List.drop_succ_cons, List.drop_zero]

theorem stringValue_accepts_iff (d : Bytes) : (∃ s, unmarshalStringValue d = .ok s) ↔ 2 ≤ d.length := by
  constructor
  · rintro ⟨s, h⟩
    by_cases h2 : d.length < 2
    · simp [unmarshalStringValue, h2] at h
    · omega
  · intro h
    match d with
    | [] => simp at h
    | [_] => simp at h
    | b :: c :: t => exact ⟨_, unmarshalStringValue_eq b (c :: t) (by simp)⟩

/-- C20: parse then append keeps every byte of the string; the code page byte is kept when it is
known and becomes FF otherwise. (The length bound is the int32 range of the length field.) -/
theorem stringValue_roundtrip (b : UInt8) (t dst : Bytes) (ht : t ≠ []) (hl : t.length < 2 ^ 31)
    (s : StringValue) (h : unmarshalStringValue (b :: t) = .ok s) :
    appendStringValue dst (some s) = .ok (dst ++ (if KnownCodePage b then b else 255) :: t) := by
  rw [unmarshalStringValue_eq b t ht, Res.ok.injEq] at h
  subst h
  rw [wrap32_id (by omega) (by omega)]
  simp only [appendStringValue, Option.any_some, List.length_cons, codePage_roundtrip, List.drop_succ_cons,
    List.drop_zero]
  rw [if_neg (by omega), if_neg]
  rw [decide_eq_true_eq]
  intro hh
  apply hh
  omega

/-- C20, as asked: with a known code page the bytes are identical. -/
theorem stringValue_roundtrip_known (b : UInt8) (t dst : Bytes) (ht : t ≠ []) (hl : t.length < 2 ^ 31)
    (hb : KnownCodePage b) (s : StringValue) (h : unmarshalStringValue (b :: t) = .ok s) :
    appendStringValue dst (some s) = .ok (dst ++ b :: t) := by
  rw [stringValue_roundtrip b t dst ht hl s h, if_pos hb]

/-- C20, finding: an unknown code page byte is lost. -/
theorem stringValue_unknown_lost (b : UInt8) (t : Bytes) (ht : t ≠ []) (hl : t.length < 2 ^ 31)
    (hb : ¬ KnownCodePage b) (s : StringValue) (h : unmarshalStringValue (b :: t) = .ok s) :
    appendStringValue [] (some s) ≠ .ok (b :: t) := by
  rw [stringValue_roundtrip b t [] ht hl s h, if_neg hb]
  intro hh
  simp only [List.nil_append, Res.ok.injEq, List.cons.injEq, and_true] at hh
  exact hb (by rw [← hh]; decide)

/-- C43: the decoded text of a code-page string is valid UTF-8, whatever the character map does. -/
theorem stringValue_utf8 (d : Bytes) (s : StringValue) (h : unmarshalStringValue d = .ok s) :
    Utf8 s.value := by
  have hl := (stringValue_accepts_iff d).mp ⟨s, h⟩
  match d with
  | [] => simp at hl
  | [_] => simp at hl
  | b :: c :: t =>
    rw [unmarshalStringValue_eq b (c :: t) (by simp), Res.ok.injEq] at h
    subst h
    simp only [decodeWithCodePage]
    split
    · exact utf8_nil
    · split
      · exact utf8_toValid _
      · exact utf8_nil

/-- C20: the decoded text of ASCII content between blank padding is the content, for any character
map that leaves ASCII text alone (all the ISO 8859 and KOI8 maps do). -/
theorem stringValue_text (cp : UInt8) (p q v : Bytes) (hcp : cp ≠ 255)
    (hmap : ∀ x, Ascii x → Charmap.decode (charmapOf cp) x = x)
    (hp : ∀ b ∈ p, Blank b) (hq : ∀ b ∈ q, Blank b) (hv : Ascii v)
    (h1 : ∀ b t, v = b :: t → ¬ Blank b) (h2 : ∀ b t, v = t ++ [b] → ¬ Blank b)
    (hne : p ++ v ++ q ≠ []) :
    ∃ s, unmarshalStringValue (cp :: (p ++ v ++ q)) = .ok s ∧ s.value = v := by
  refine ⟨_, unmarshalStringValue_eq cp _ hne, ?_⟩
  have hasc : Ascii (p ++ v ++ q) := by
    intro b hb
    simp only [List.mem_append] at hb
    rcases hb with (hb | hb) | hb
    · exact blank_lt (hp b hb)
    · exact hv b hb
    · exact blank_lt (hq b hb)
  have htrim := trim_ascii p q v hp hq hv h1 h2
  simp only [decodeWithCodePage, if_neg hcp]
  split
  · rw [hmap _ hasc, htrim, toValidUTF8_of_utf8 (utf8_of_ascii hv)]
  · rename_i hany
    cases v with
    | nil => rfl
    | cons b t =>
      exfalso
      apply hany
      rw [List.any_eq_true]
      refine ⟨b, by simp, ?_⟩
      have hb := hv b (by simp)
      have hnb := h1 b t rfl
      have : b.toNat ≠ 0 := by
        intro e
        apply hnb
        have : b = 0 := byte_ext e
        subst this; decide
      simp only [Bool.and_eq_true, decide_eq_true_eq]
      omega

end

/-- C20: a hand-built value (no raw bytes) with a length is written as exactly one code page byte
and `length` bytes, the text padded with spaces; or refused when the text is longer. -/
theorem stringValue_build (dst v : Bytes) (e l : Int) (he : getCodePageFromEncoding e ≠ 255) :
    appendStringValue dst (some ⟨e, none, some l, v⟩) =
      if (v.length : Int) ≤ l then
        .ok (dst ++ getCodePageFromEncoding e :: (v ++ List.replicate (l.toNat - v.length) 0x20))
      else .err "encoded string length exceeds allowed length" := by
  simp only [appendStringValue, encodeWithCodePage, if_neg he, padSpaces]
  by_cases h : (v.length : Int) ≤ l
  · rw [if_neg (by omega), if_pos h]
  · rw [if_pos (by omega), if_neg h]

theorem stringValue_length (dst out v : Bytes) (e l : Int)
    (h : appendStringValue dst (some ⟨e, none, some l, v⟩) = .ok out) :
    ∃ x, out = dst ++ x ∧ (x.length : Int) = 1 + l := by
  simp only [appendStringValue] at h
  split at h
  · cases h
  · rename_i hlt
    rw [Res.ok.injEq] at h
    refine ⟨_, h.symm, ?_⟩
    simp only [padSpaces, List.length_cons, List.length_append, List.length_replicate]
    omega

/-- C20: raw bytes that contradict the length are refused, as are empty raw bytes. -/
theorem stringValue_bad_raw (dst raw v : Bytes) (e l : Int) (h : (raw.length : Int) ≠ 1 + l) :
    ∃ m, appendStringValue dst (some ⟨e, some raw, some l, v⟩) = .err m := by
  simp only [appendStringValue, Option.any_some]
  split
  · exact ⟨_, rfl⟩
  · rw [if_pos (by simpa using h)]
    exact ⟨_, rfl⟩

/-- C20: appending a missing string writes the single byte FF. -/
theorem stringValue_nil (dst : Bytes) : appendStringValue dst none = .ok (dst ++ [0xFF]) := rfl

/-- Latin-1 as an example of a character map (only used in examples). -/
@[instance_reducible] def Spec.latin1 : Charmap := ⟨fun _ s => s.flatMap (fun b => String.utf8EncodeChar (Char.ofNat b.toNat))⟩

example : (@unmarshalStringValue Spec.latin1 [1, 0x20, 0x41, 0xE9, 0x42, 0]) =
    .ok ⟨4, some [1, 0x20, 0x41, 0xE9, 0x42, 0], some 5, [0x41, 0xC3, 0xA9, 0x42]⟩ := by decide +kernel
example : KnownCodePage 15 ∧ ¬ KnownCodePage 4 := by decide

/-! ## IA5 -/

theorem ia5_accepts_iff (d : Bytes) : (∃ s, unmarshalIa5StringValue d = .ok s) ↔ d ≠ [] := by
  unfold unmarshalIa5StringValue
  cases d with
  | nil => simp
  | cons b t => simp

/-- C21: parse then append is the identity on every non-empty input. -/
theorem ia5_roundtrip (d dst : Bytes) (hl : d.length < 2 ^ 31) (s : Ia5StringValue)
    (h : unmarshalIa5StringValue d = .ok s) : appendIa5StringValue dst (some s) = .ok (dst ++ d) := by
  unfold unmarshalIa5StringValue at h
  split at h
  · cases h
  · rw [Res.ok.injEq] at h
    subst h
    rw [wrap32_id (by omega) (by omega)]
    simp only [appendIa5StringValue]
    rw [if_neg (by simp)]

/-- C43: the decoded IA5 text is valid UTF-8. -/
theorem ia5_utf8 (d : Bytes) (s : Ia5StringValue) (h : unmarshalIa5StringValue d = .ok s) :
    Utf8 s.value := by
  unfold unmarshalIa5StringValue at h
  split at h
  · cases h
  · rw [Res.ok.injEq] at h
    subst h
    exact utf8_toValid _

/-- C21: the decoded text of ASCII content between blank padding is the content. -/
theorem ia5_text (p q v : Bytes) (hp : ∀ b ∈ p, Blank b) (hq : ∀ b ∈ q, Blank b) (hv : Ascii v)
    (h1 : ∀ b t, v = b :: t → ¬ Blank b) (h2 : ∀ b t, v = t ++ [b] → ¬ Blank b)
    (hne : p ++ v ++ q ≠ []) :
    ∃ s, unmarshalIa5StringValue (p ++ v ++ q) = .ok s ∧ s.value = v := by
  have : (p ++ v ++ q).length ≠ 0 := by
    have := List.length_pos_iff.mpr hne; omega
  unfold unmarshalIa5StringValue
  rw [if_neg this]
  refine ⟨_, rfl, ?_⟩
  simp only
  rw [trim_ascii p q v hp hq hv h1 h2, toValidUTF8_of_utf8 (utf8_of_ascii hv)]

/-- C21: a hand-built value is space-padded to its length, or refused when longer. -/
theorem ia5_build (dst v : Bytes) (l : Int) :
    appendIa5StringValue dst (some ⟨none, some l, v⟩) =
      if (v.length : Int) ≤ l then .ok (dst ++ (v ++ List.replicate (l.toNat - v.length) 0x20))
      else .err "string value is longer than the allowed length" := by
  simp only [appendIa5StringValue, padSpaces]
  by_cases h : (v.length : Int) ≤ l
  · rw [if_neg (by omega), if_pos h]
  · rw [if_pos (by omega), if_neg h]

/-- C21: missing length and contradicting length are errors; a nil value writes nothing. -/
theorem ia5_refused (dst : Bytes) (s : Ia5StringValue)
    (h : s.length = none ∨ ∃ raw l, s.rawData = some raw ∧ s.length = some l ∧ (raw.length : Int) ≠ l) :
    ∃ m, appendIa5StringValue dst (some s) = .err m := by
  obtain ⟨raw, len, v⟩ := s
  rcases h with h | ⟨r, l, h1, h2, h3⟩
  · simp only at h
    subst h
    exact ⟨_, rfl⟩
  · simp only at h1 h2
    subst h1 h2
    simp [appendIa5StringValue, h3]

theorem ia5_length (dst out v : Bytes) (raw : Option Bytes) (l : Int)
    (h : appendIa5StringValue dst (some ⟨raw, some l, v⟩) = .ok out) :
    ∃ x, out = dst ++ x ∧ (x.length : Int) = l := by
  simp only [appendIa5StringValue] at h
  cases raw with
  | some r =>
    simp only at h
    split at h
    · cases h
    · rename_i hh
      rw [Res.ok.injEq] at h
      exact ⟨r, h.symm, by simpa using hh⟩
  | none =>
    simp only at h
    split at h
    · cases h
    · rename_i hlt
      rw [Res.ok.injEq] at h
      refine ⟨_, h.symm, ?_⟩
      simp only [padSpaces, List.length_append, List.length_replicate]
      omega

/-- C21: encode then decode: ASCII text without blank ends survives. -/
theorem ia5_encode_decode (v : Bytes) (l : Nat) (hl : v.length ≤ l) (hl' : 0 < l) (hv : Ascii v)
    (h1 : ∀ b t, v = b :: t → ¬ Blank b) (h2 : ∀ b t, v = t ++ [b] → ¬ Blank b) (dst : Bytes) :
    ∃ e s, appendIa5StringValue dst (some ⟨none, some (l : Int), v⟩) = .ok (dst ++ e) ∧
      unmarshalIa5StringValue e = .ok s ∧ s.value = v := by
  have hb := ia5_build dst v (l : Int)
  rw [if_pos (by omega)] at hb
  obtain ⟨s, hs, hsv⟩ := ia5_text [] (List.replicate ((l : Int).toNat - v.length) 0x20) v (by simp)
    (by intro b hb; have := (List.mem_replicate.mp hb).2; subst this; decide) hv h1 h2
    (by
      intro hh
      have := congrArg List.length hh
      simp only [List.length_append, List.length_replicate, List.length_nil] at this
      omega)
  rw [List.nil_append] at hs
  exact ⟨_, s, hb, hs, hsv⟩

example : unmarshalIa5StringValue [0x20, 0x41, 0x20, 0x42, 0, 0] =
    .ok ⟨some [0x20, 0x41, 0x20, 0x42, 0, 0], some 6, [0x41, 0x20, 0x42]⟩ := by decide +kernel

/-- An IA5 field with a stray high byte: trimmed at the ends, replaced inside. -/
example : (unmarshalIa5StringValue [0xFF, 0x41, 0xFF, 0xFE, 0x42, 0xFF]) =
    .ok ⟨some [0xFF, 0x41, 0xFF, 0xFE, 0x42, 0xFF], some 6, [0x41, 0xEF, 0xBF, 0xBD, 0x42]⟩ := by
  decide +kernel

end Tacho
