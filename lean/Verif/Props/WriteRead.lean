import Verif.Spec.WriteRead
import Verif.Props.RecordFields
import Verif.Props.Vehicle
import Verif.Props.TextMeaning
/-!
# C61: what is written is what the message says

For messages parsed, edited or built by hand: writing succeeds whenever the values fit, and reading the
output gives the message back.
-/

namespace Tacho
open Spec

/-! ## Single values -/

theorem time_write {t : Option Timestamp} (h : TimeOk t) :
    ∃ e, e.length = 4 ∧ WritesBytes (appendTimeReal · t) e ∧ unmarshalTimeReal e = .ok t := by
  cases t with
  | none => exact ⟨zeros 4, rfl, fun dst => rfl, by decide⟩
  | some x =>
    obtain ⟨s, n⟩ := x
    obtain ⟨h1, h2, h3⟩ := h _ rfl
    simp only at h1 h2 h3
    subst h3
    obtain ⟨k, rfl⟩ : ∃ k : Nat, s = k := ⟨s.toNat, by omega⟩
    refine ⟨beBytes 4 k, by simp, fun dst => ?_, ?_⟩
    · simp only [appendTimeReal, low]
      rw [if_neg (by omega)]
      congr 3
      omega
    · rw [timeReal_value _ (by simp), beNat_beBytes_of_lt (by omega), if_neg (by omega)]

theorem low_fits {n : Nat} {v : Int} (hn : n ≤ 32) (h : Fits n v) : low 32 v = v.toNat ∧ v.toNat < 2 ^ n := by
  have : (2 : Int) ^ n ≤ 2 ^ 32 := by
    have : (2 : Nat) ^ n ≤ 2 ^ 32 := Nat.pow_le_pow_right (by omega) hn
    exact_mod_cast this
  have h1 := h.1
  have h2 := h.2
  constructor
  · unfold low
    rw [Int.emod_eq_of_lt h1 (by omega)]
  · have : ((2 : Nat) ^ n : Int) = (2 : Int) ^ n := by norm_cast
    omega

theorem byte_fits {v : Int} (h : Fits 8 v) : ((i2b v).toNat : Int) = v := by
  obtain ⟨h1, h2⟩ := h
  obtain ⟨k, rfl⟩ : ∃ k : Nat, v = k := ⟨v.toNat, by omega⟩
  have : k < 256 := by omega
  simp only [i2b, low]
  rw [toNat_ofNat_lt (by omega)]
  omega

theorem named_byte {t : EnumTable} (ht : t ∈ allEnumTables) {v : Int} (h : Named t v) :
    ∃ b, marshalEnum t v = .ok b ∧ unmarshalEnum t b = .ok v := by
  obtain ⟨b, hb⟩ := h
  have hw := unmarshalEnum_of_mem (enumTables_ok t ht) hb
  exact ⟨b, enum_decode_encode t ht b v hw, hw⟩

theorem code_byte {t : EnumTable} (ht : t ∈ allEnumTables) (h1 : (1, none) ∈ t) {v : Int} {u : Option Int} (h : CodeOk t v u) :
    ∃ b, enumByte t v u = .ok b ∧ enumByteLax t v u = b ∧ enumOrUnrecognized t b = (v, u) := by
  obtain ⟨b, ⟨hb, rfl⟩ | ⟨hn, rfl, rfl⟩⟩ := h
  · have hw := unmarshalEnum_of_mem (enumTables_ok t ht) hb
    have hm := enum_decode_encode t ht b v hw
    have hv : v ≠ enumUnrecognized := by
      rintro rfl
      have := nodup_fst_unique (Ok_parts (enumTables_ok t ht)).1 hb h1
      cases this
    refine ⟨b, ?_, ?_, ?_⟩
    · rw [enumByte, if_neg hv, hm]
    · rw [enumByteLax, if_neg hv, hm]
    · rw [enumOrUnrecognized, hw]
  · have e : i2b ((some (b.toNat : Int)).getD 0) = b := by
      have hb := byte_lt b
      have : ((b.toNat : Int) % 256).toNat = b.toNat := by omega
      simp only [Option.getD_some, i2b, this, UInt8.ofNat_toNat]
    refine ⟨b, ?_, ?_, ?_⟩
    · exact congrArg Res.ok e
    · exact e
    · rw [enumOrUnrecognized]
      have : ∀ w, unmarshalEnum t b ≠ .ok w := fun w hw => hn w (unmarshalEnum_ok hw)
      cases hx : unmarshalEnum t b with
      | ok w => exact absurd hx (this w)
      | err m => rfl
      | panic => rfl

theorem odometer_write {v : Int} (h : Fits 24 v) :
    (appendOdometer [] (low 32 v)).length = 3 ∧ (beNat (appendOdometer [] (low 32 v)) : Int) = v ∧
    appendOdometer [] (low 32 v) = beBytes 3 (low 32 v) := by
  obtain ⟨e, hlt⟩ := low_fits (by omega) h
  have h1 := h.1
  refine ⟨by simp [appendOdometer], ?_, by rw [appendOdometer, odometer_drop, List.nil_append]⟩
  rw [appendOdometer, odometer_drop, List.nil_append, e, beNat_beBytes_of_lt (by omega)]
  omega

theorem canvas_ok {raw : Option Bytes} {n : Nat} (h : RawFits raw n) : ∃ c, canvasNonEmpty raw n = .ok c ∧ c.length = n := by
  unfold canvasNonEmpty
  cases raw with
  | none => exact ⟨zeros n, by simp, by simp [zeros]⟩
  | some r =>
    rcases h r rfl with rfl | hr
    · exact ⟨zeros n, by simp, by simp [zeros]⟩
    · by_cases h0 : r.length > 0
      · exact ⟨r, by simp [h0, hr]; intro; omega, hr⟩
      · exact ⟨zeros n, by simp [h0], by simp [zeros]⟩

theorem geo_write {g : GeoCoordinates} (h1 : Fits24 g.latitude) (h2 : Fits24 g.longitude) :
    ∃ e, e.length = 6 ∧ WritesBytes (appendGeoCoordinates · g) e ∧ unmarshalGeoCoordinates e = .ok g := by
  obtain ⟨a, b⟩ := g
  refine ⟨appendInt24 [] a ++ appendInt24 [] b, by simp [appendInt24], fun dst => by simp [appendGeoCoordinates, appendInt24], ?_⟩
  obtain ⟨e, he, hu⟩ := geo_encode_decode a b h1.1 h1.2 h2.1 h2.2 []
  have : e = appendInt24 [] a ++ appendInt24 [] b := by
    simp only [appendGeoCoordinates, List.nil_append, Res.ok.injEq] at he
    rw [← he]; simp [appendInt24]
  rw [← this, hu]

/-! ## Text -/

theorem plain_pad {v : Bytes} (n : Nat) (h : PlainText v) (hne : v ++ List.replicate n 0x20 ≠ []) :
    ∃ s, unmarshalIa5StringValue (v ++ List.replicate n 0x20) = .ok s ∧ s.value = v := by
  have := ia5_text [] (List.replicate n 0x20) v (by simp) (by simp [Blank]) h.1 h.2.1 h.2.2 (by simpa using hne)
  simpa using this

/-- Plain text is text of whole characters. -/
theorem plain_whole {v : Bytes} (h : PlainText v) : WholeText v := by
  obtain ⟨h1, h2, h3⟩ := h
  have hp : ∀ b : UInt8, b.toNat < 0x80 → ¬ Blank b → ¬ (Symbol.char (Char.ofNat b.toNat)).Padding := by
    unfold Symbol.Padding
    apply forall_byte
    decide +kernel
  refine ⟨v.map fun b => Char.ofNat b.toNat, ?_, ?_, ?_⟩
  · clear h2 h3
    induction v with
    | nil => rfl
    | cons b v ih =>
      simp only [List.map_cons, List.flatMap_cons, enc_ascii (h1 b (by simp)), List.cons_append, List.nil_append]
      exact congrArg _ (ih fun x hx => h1 x (by simp [hx]))
  · intro c t he
    cases v with
    | nil => cases he
    | cons b v =>
      simp only [List.map_cons, List.cons.injEq] at he
      rw [← he.1]
      exact hp b (h1 b (by simp)) (h2 b v rfl)
  · intro c t he
    rcases List.eq_nil_or_concat v with rfl | ⟨v, b, rfl⟩
    · cases t <;> cases he
    · simp only [List.concat_eq_append, List.map_append, List.map_cons, List.map_nil] at he
      obtain ⟨-, he⟩ := List.append_inj' he rfl
      simp only [List.cons.injEq, and_true] at he
      rw [← he]
      exact hp b (h1 b (by simp)) (h3 b v (by simp))

theorem reads_spaced (cs : List Char) (n : Nat) :
    Reads (cs.flatMap String.utf8EncodeChar ++ List.replicate n 0x20) (cs.map Symbol.char ++ List.replicate n (.char ' ')) := by
  induction cs with
  | nil =>
    induction n with
    | zero => exact .nil
    | succ n ih => exact Reads.char ' ' ih
  | cons c cs ih =>
    rw [List.flatMap_cons, List.append_assoc]
    exact Reads.char c ih

theorem shown_chars (cs : List Char) : shown (cs.map Symbol.char) = cs := by
  induction cs with
  | nil => rfl
  | cons c cs ih => simp only [List.map_cons, shown, ih]

/-- Text of whole characters, followed by spaces, is what is shown. -/
theorem whole_shows {v : Bytes} (n : Nat) (h : WholeText v) : Shows (v ++ List.replicate n 0x20) v := by
  obtain ⟨cs, rfl, h1, h2⟩ := h
  have hr := reads_spaced cs n
  refine ⟨[], cs.map Symbol.char, List.replicate n (.char ' '), hr, by simp, ?_, ?_, ?_, ?_⟩
  · intro x hx
    rw [(List.mem_replicate.1 hx).2]
    simp [Symbol.Padding]
  · intro x t he
    cases cs with
    | nil => cases he
    | cons c cs =>
      simp only [List.map_cons, List.cons.injEq] at he
      rw [← he.1]
      exact h1 c cs rfl
  · intro x t he
    rcases List.eq_nil_or_concat cs with rfl | ⟨cs, c, rfl⟩
    · cases t <;> cases he
    · simp only [List.concat_eq_append, List.map_append, List.map_cons, List.map_nil] at he
      obtain ⟨-, he⟩ := List.append_inj' he rfl
      simp only [List.cons.injEq, and_true] at he
      rw [← he]
      exact h2 c cs (by simp)
  · rw [shown_chars]

theorem whole_pad {v : Bytes} (n : Nat) (h : WholeText v) (hne : v ++ List.replicate n 0x20 ≠ []) :
    ∃ s, unmarshalIa5StringValue (v ++ List.replicate n 0x20) = .ok s ∧ s.value = v := by
  have hs := whole_shows n h
  revert hne hs
  generalize v ++ List.replicate n 0x20 = d
  exact fun hne hs => ⟨⟨some d, some (wrap32 d.length), v⟩, (ia5_value_iff _ _).2 ⟨hne, rfl, rfl, hs⟩, rfl⟩

theorem ia5_write {w : Nat} {s : Ia5StringValue} (h0 : 0 < w) (hw : w < 2 ^ 31) (h : Ia5Ok w s) :
    ∃ e s', e.length = w ∧ WritesBytes (appendIa5StringValue · (some s)) e ∧ unmarshalIa5StringValue e = .ok s' ∧ SameIa5 s s' := by
  obtain ⟨raw, len, v⟩ := s
  obtain ⟨rfl, h⟩ := h
  have hlen : ∀ (e : Bytes) (s' : Ia5StringValue), e.length = w → unmarshalIa5StringValue e = .ok s' →
      s'.length = some (w : Int) ∧ s'.rawData = some e := by
    intro e s' he hs
    unfold unmarshalIa5StringValue at hs
    split at hs
    · cases hs
    · rw [Res.ok.injEq] at hs
      subst hs
      exact ⟨by simp only [he]; rw [wrap32_id (by omega) (by omega)], rfl⟩
  rcases h with ⟨r, hr, hl⟩ | ⟨hr, hl, hp⟩
  · simp only at hr
    subst hr
    obtain ⟨s', hs'⟩ := (ia5_accepts_iff r).mpr (by rintro rfl; simp at hl; omega)
    obtain ⟨a, b⟩ := hlen r s' hl hs'
    refine ⟨r, s', hl, fun dst => ?_, hs', a, ?_, by simp⟩
    · simp [appendIa5StringValue, hl]
    · intro r' hr'
      simp only [Option.some.injEq] at hr'
      subst hr'
      exact ⟨b, ((ia5_value_iff _ _).1 hs').2.2.2⟩
  · simp only at hr hl hp
    subst hr
    have hle : (v ++ List.replicate (w - v.length) 0x20).length = w := by simp; omega
    obtain ⟨s', hs', hv⟩ := whole_pad (w - v.length) hp (by intro hh; rw [hh] at hle; simp at hle; omega)
    refine ⟨_, s', hle, fun dst => ?_, hs', (hlen _ s' hle hs').1, by simp, fun _ => hv⟩
    have := ia5_build dst v (w : Int)
    rw [if_pos (by omega)] at this
    simpa using this

section
variable [Charmap]

theorem text_write {w : Nat} {s : StringValue} (h0 : 0 < w) (hw : w < 2 ^ 31) (h : TextOk w s) :
    ∃ e s', e.length = w + 1 ∧ WritesBytes (appendStringValue · (some s)) e ∧ unmarshalStringValue e = .ok s' ∧ SameText s s' := by
  obtain ⟨enc, raw, len, v⟩ := s
  obtain ⟨rfl, ⟨p, hp, rfl⟩, h⟩ := h
  obtain ⟨e1, e2, _⟩ := encoding_of_codePage p hp
  have hp256 : p.1 < 256 := (by decide +kernel : ∀ p ∈ Spec.codePages, p.1 < 256) p hp
  rcases h with ⟨r, hr, hl⟩ | ⟨hr, hl, ht, hm⟩
  · simp only at hr
    subst hr
    have hd : (r.drop 1).length = w := by simp; omega
    have hne : r.drop 1 ≠ [] := by intro hh; rw [hh] at hd; simp at hd; omega
    refine ⟨UInt8.ofNat p.1 :: r.drop 1, _, by simp; omega, fun dst => ?_, unmarshalStringValue_eq _ _ hne, ?_, e1, ?_, by simp⟩
    · simp only [appendStringValue, e2]
      rw [if_neg (by omega), if_neg (by simp; omega)]
    · simp only [hd]; rw [wrap32_id (by omega) (by omega)]
    · intro r' hr'
      simp only [Option.some.injEq] at hr'
      subst hr'
      refine ⟨_, by rw [toNat_ofNat_lt hp256]; exact hp, rfl, ?_⟩
      obtain ⟨cp, t, ht, -, -, -, -, hs⟩ := (stringValue_value_iff _ _).1 (unmarshalStringValue_eq (UInt8.ofNat p.1) _ hne)
      cases ht
      exact hs
  · simp only at hr hl ht
    subst hr
    have hm := hm p hp rfl
    have hle : (v ++ List.replicate (w - v.length) 0x20).length = w := by simp; omega
    have hne : v ++ List.replicate (w - v.length) 0x20 ≠ [] := by intro hh; rw [hh] at hle; simp at hle; omega
    by_cases h255 : p.1 = 255
    · rw [if_pos h255] at hm
      simp only at hm
      subst hm
      refine ⟨UInt8.ofNat p.1 :: ([] ++ List.replicate (w - ([] : Bytes).length) 0x20), _, by simpa using hle, fun dst => ?_,
        unmarshalStringValue_eq _ _ hne, ?_, e1, by simp, fun _ => ?_⟩
      · simp only [appendStringValue, e2, encodeWithCodePage, h255]
        simp [padSpaces]
      · simp only [hle]; rw [wrap32_id (by omega) (by omega)]
      · simp [decodeWithCodePage, h255]
    · rw [if_neg h255] at hm
      have hcp : UInt8.ofNat p.1 ≠ 255 := by
        intro hh
        have := congrArg UInt8.toNat hh
        rw [toNat_ofNat_lt hp256] at this
        exact h255 this
      obtain ⟨s', hs', hv⟩ := stringValue_text (UInt8.ofNat p.1) [] (List.replicate (w - v.length) 0x20) v hcp hm (by simp)
        (by simp [Blank]) ht.1 ht.2.1 ht.2.2 (by simpa using hne)
      rw [List.nil_append] at hs'
      have he := unmarshalStringValue_eq (UInt8.ofNat p.1) _ hne
      rw [hs', Res.ok.injEq] at he
      refine ⟨_, s', ?_, fun dst => ?_, hs', ?_, ?_, by simp, fun _ => hv⟩
      · simp; omega
      · have := stringValue_build dst v p.2 (w : Int) (by rw [e2]; exact hcp)
        rw [if_pos (by omega), e2] at this
        simpa using this
      · rw [he]; simp only [hle]; rw [wrap32_id (by omega) (by omega)]
      · rw [he]; exact e1

/-- C61, finding: when a string carries raw data, its `value` is never looked at. Changing the text of a
parsed message without clearing the raw bytes changes nothing in the output. -/
theorem text_edit_ignored (dst r v v' : Bytes) (e : Int) (l : Option Int) :
    appendStringValue dst (some ⟨e, some r, l, v⟩) = appendStringValue dst (some ⟨e, some r, l, v'⟩) ∧
    appendIa5StringValue dst (some ⟨some r, l, v⟩) = appendIa5StringValue dst (some ⟨some r, l, v'⟩) := ⟨rfl, rfl⟩

end

end Tacho
