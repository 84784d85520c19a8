import Verif.Spec.HandText
import Verif.Props.TextMeaning
import Verif.Props.CardAgain
/-!
# C89: which text, put into a message by a program, is read back from the file
-/

namespace Tacho
open Spec

/-- Bytes beyond ASCII in a text. -/
private def high (s : Bytes) : Nat := s.countP fun b => decide (0x80 ≤ b.toNat)

private theorem high_append (a b : Bytes) : high (a ++ b) = high a + high b := List.countP_append ..

private theorem high_ascii {s : Bytes} (h : Ascii s) : high s = 0 := by
  unfold high
  rw [List.countP_eq_zero]
  intro b hb
  have := h b hb
  simp only [decide_eq_true_eq]
  omega

private theorem ascii_high {s : Bytes} (h : high s = 0) : Ascii s := by
  unfold high at h
  rw [List.countP_eq_zero] at h
  intro b hb
  have := h b hb
  simp only [decide_eq_true_eq] at this
  omega

private theorem high_enc (c : Char) (h : 0x80 ≤ c.toNat) : 2 ≤ high (String.utf8EncodeChar c) := by
  obtain ⟨b, t, he, -, hc, -, h1, h2⟩ := enc_shape c
  have hne : t ≠ [] := by
    intro ht
    have hb := h1 ht
    have e := enc_ascii hb
    have := enc_prefix (c := c) (d := Char.ofNat b.toNat) (r := []) (r' := []) (by rw [he, e, ht])
    have hcb : c = Char.ofNat b.toNat := this.1
    have : c.toNat = b.toNat := by
      rw [hcb]
      exact char_val b.toNat (Or.inl (by omega))
    omega
  have hb := h2 hne
  cases t with
  | nil => exact absurd rfl hne
  | cons x t =>
    have hx := (isCont_iff x).1 (hc x (by simp))
    rw [he]
    unfold high
    rw [List.countP_cons_of_pos (by simpa using hb), List.countP_cons_of_pos (by simpa using hx.1)]
    omega

private theorem reads_table (f : UInt8 → Char) (s : Bytes) :
    Reads (s.flatMap fun b => String.utf8EncodeChar (f b)) (s.map fun b => .char (f b)) := by
  induction s with
  | nil => exact .nil
  | cons b t ih =>
    rw [List.flatMap_cons, List.map_cons]
    exact .char (f b) ih

private theorem shown_table (f : UInt8 → Char) (s : Bytes) :
    (shown (s.map fun b => .char (f b))).flatMap String.utf8EncodeChar = s.flatMap fun b => String.utf8EncodeChar (f b) := by
  induction s with
  | nil => rfl
  | cons b t ih =>
    rw [List.map_cons, shown, List.flatMap_cons, List.flatMap_cons, ih]

private theorem high_chars {f : UInt8 → Char} (hf : ∀ b, 0x80 ≤ b.toNat → 0x80 ≤ (f b).toNat) (s : Bytes) :
    2 * high s ≤ high (s.flatMap fun b => String.utf8EncodeChar (f b)) := by
  induction s with
  | nil => simp [high]
  | cons b t ih =>
    rw [List.flatMap_cons, high_append]
    by_cases hb : 0x80 ≤ b.toNat
    · have := high_enc (f b) (hf b hb)
      have e : high (b :: t) = high t + 1 := List.countP_cons_of_pos (by simpa using hb)
      omega
    · have e : high (b :: t) = high t := List.countP_cons_of_neg (by simpa using hb)
      omega

private theorem ascii_chars {f : UInt8 → Char} (hf : ∀ b, b.toNat < 0x80 → f b = Char.ofNat b.toNat) {s : Bytes} (h : Ascii s) :
    (s.flatMap fun b => String.utf8EncodeChar (f b)) = s := by
  induction s with
  | nil => rfl
  | cons b t ih =>
    rw [List.flatMap_cons, ih (fun x hx => h x (by simp [hx])), hf b (h b (by simp)), enc_ascii (h b (by simp))]
    rfl

private theorem blank_padding {b : UInt8} (h : Blank b) : (Symbol.char (Char.ofNat b.toNat)).Padding := by
  rcases h with h | h | h | h | h | h | h <;> subst h <;> simp [Symbol.Padding]

section
variable [Charmap]

/-- What a field shows whose bytes are a text and blanks behind it. -/
private theorem shows_padded {cp : UInt8} {f : UInt8 → Char} (hf : SingleByte cp f) {v pad : Bytes}
    (hv : ∀ b ∈ v, f b ≠ '�') (hpad : ∀ b ∈ pad, b = 0x20)
    (h : Shows ((v ++ pad).flatMap fun b => String.utf8EncodeChar (f b)) v) : PlainText v := by
  obtain ⟨p, m, q, hr, hp, hq, h1, h2, ht⟩ := h
  have e := reads_unique hr (reads_table f (v ++ pad))
  obtain ⟨pm, bq, e1, epm, eq⟩ := List.map_eq_append_iff.1 e.symm
  obtain ⟨bp, bm, e2, ep, em⟩ := List.map_eq_append_iff.1 epm
  have low : ∀ b ∈ v ++ pad, (Symbol.char (f b)).Padding → b.toNat < 0x80 := by
    intro b hb hpd
    rw [List.mem_append] at hb
    rcases hb with hb | hb
    · apply Nat.lt_of_not_le
      intro hge
      have hc := hf.2.2 b hge
      have hne := hv b hb
      simp only [Symbol.Padding, List.mem_cons, List.not_mem_nil, or_false] at hpd
      rcases hpd with h | h | h | h | h | h | h | h
      all_goals first
        | exact hne h
        | (rw [h] at hc; exact absurd hc (by decide))
    · rw [hpad b hb]; decide
  have hbp : Ascii bp := by
    intro b hb
    exact low b (by rw [e1, e2]; simp [hb]) (hp _ (by rw [← ep]; exact List.mem_map.2 ⟨b, hb, rfl⟩))
  have hbq : Ascii bq := by
    intro b hb
    exact low b (by rw [e1]; simp [hb]) (hq _ (by rw [← eq]; exact List.mem_map.2 ⟨b, hb, rfl⟩))
  have hpd : Ascii pad := by
    intro b hb
    rw [hpad b hb]; decide
  rw [← em, shown_table] at ht
  have hh := high_chars hf.2.2 bm
  rw [← ht] at hh
  have hc : high (v ++ pad) = high (bp ++ bm ++ bq) := by rw [e1, e2]
  rw [high_append, high_append, high_append, high_ascii hbp, high_ascii hbq, high_ascii hpd] at hc
  have hva : Ascii v := ascii_high (by omega)
  have hma : Ascii bm := ascii_high (by omega)
  rw [ascii_chars hf.2.1 hma] at ht
  subst ht
  refine ⟨hva, ?_, ?_⟩
  · rintro b t rfl hb
    refine h1 _ _ em.symm ?_
    show (Symbol.char (f b)).Padding
    rw [hf.2.1 b (hva b (by simp))]
    exact blank_padding hb
  · intro b t e hb
    subst e
    rw [List.map_append] at em
    refine h2 _ _ em.symm ?_
    show (Symbol.char (f b)).Padding
    rw [hf.2.1 b (hva b (by simp))]
    exact blank_padding hb

/-- C89: a text that a program puts into a field of `w` bytes under a code page is written and can be read; the text
that is read is the one the bytes of the UTF-8 text show under the code page. It is the text that was put there exactly
if that is seven bit text without blanks at its ends. -/
theorem text_read_back_iff {cp : UInt8} {e : Int} {f : UInt8 → Char} {v : Bytes} {w : Nat} (hcp : (cp.toNat, e) ∈ codePages)
    (h255 : cp ≠ 255) (hf : SingleByte cp f) (hv : ∀ b ∈ v, f b ≠ '�') (h0 : 0 < w) (hl : v.length ≤ w) (dst : Bytes) :
    ∃ out s, appendStringValue dst (some ⟨e, none, some w, v⟩) = .ok (dst ++ out) ∧ unmarshalStringValue out = .ok s ∧
      PageShows cp (v ++ List.replicate (w - v.length) 0x20) s.value ∧ (s.value = v ↔ PlainText v) := by
  obtain ⟨-, e2, -⟩ := encoding_of_codePage _ hcp
  simp only [UInt8.ofNat_toNat] at e2
  have hne : v ++ List.replicate (w - v.length) 0x20 ≠ [] := by
    intro hh
    have := congrArg List.length hh
    rw [List.length_append, List.length_replicate, List.length_nil] at this
    omega
  have hu := unmarshalStringValue_eq cp _ hne
  obtain ⟨cp', t, ht, -, -, -, -, hs⟩ := (stringValue_value_iff _ _).1 hu
  obtain ⟨rfl, rfl⟩ := List.cons.injEq .. ▸ ht
  refine ⟨cp :: (v ++ List.replicate (w - v.length) 0x20), _, ?_, hu, hs, ?_, ?_⟩
  · have := stringValue_build dst v e (w : Int) (by rw [e2]; exact h255)
    rw [if_pos (by omega), e2] at this
    simpa using this
  · intro hval
    simp only at hval
    rw [hval] at hs
    rcases hs with ⟨-, rfl⟩ | ⟨-, -, table, htab, hsh⟩
    · exact ⟨by simp [Ascii], by simp, by simp⟩
    · rw [hf.1 _ _ htab] at hsh
      exact shows_padded hf hv (by simp) hsh
  · intro hp
    have hmap : ∀ x, Ascii x → Charmap.decode (charmapOf cp) x = x := by
      intro x hx
      rw [hf.1 x _ ((tableFor_iff cp h255 _).2 rfl)]
      exact ascii_chars hf.2.1 hx
    obtain ⟨s', hs', hv'⟩ := stringValue_text cp [] (List.replicate (w - v.length) 0x20) v h255 hmap (by simp)
      (by simp [Blank]) hp.1 hp.2.1 hp.2.2 (by simpa using hne)
    rw [List.nil_append, hu, Res.ok.injEq] at hs'
    rw [hs']
    exact hv'

/-- C89, finding: without a recognised code page (also with the default, an unset encoding) the text is dropped without
an error, however long it is: spaces are written, and no text is read back. -/
theorem text_without_page_lost {e : Int} {v : Bytes} {w : Nat} (he : ∀ p ∈ codePages, p.2 = e → p.1 = 255) (h0 : 0 < w)
    (dst : Bytes) :
    ∃ s, appendStringValue dst (some ⟨e, none, some w, v⟩) = .ok (dst ++ 255 :: List.replicate w 0x20) ∧
      unmarshalStringValue (255 :: List.replicate w 0x20) = .ok s ∧ s.value = [] ∧ s.encoding = 3 := by
  have h255 : getCodePageFromEncoding e = 255 := by
    unfold getCodePageFromEncoding
    have hh : ∀ n : Int, ∀ c : Nat, (c, n) ∈ codePages → c ≠ 255 → e ≠ n := fun n c hm hc hen => hc (he _ hm hen.symm)
    simp only [hh 2 0 (by decide) (by decide), hh 4 1 (by decide) (by decide), hh 5 2 (by decide) (by decide),
      hh 6 3 (by decide) (by decide), hh 7 5 (by decide) (by decide), hh 8 7 (by decide) (by decide),
      hh 9 9 (by decide) (by decide), hh 10 13 (by decide) (by decide), hh 11 15 (by decide) (by decide),
      hh 12 16 (by decide) (by decide), hh 13 80 (by decide) (by decide), hh 14 85 (by decide) (by decide), if_false]
  have hne : List.replicate w (0x20 : UInt8) ≠ [] := by
    intro hh
    have := congrArg List.length hh
    simp at this
    omega
  refine ⟨_, ?_, unmarshalStringValue_eq 255 _ hne, rfl, rfl⟩
  simp [appendStringValue, h255, encodeWithCodePage, padSpaces]

end

/-- C89: a text that a program puts into an IA5 field is read back exactly if it is whole characters in UTF-8 without
padding at its ends. -/
theorem ia5_read_back_iff {v : Bytes} {w : Nat} (h0 : 0 < w) (hl : v.length ≤ w) (dst : Bytes) :
    ∃ out s, appendIa5StringValue dst (some ⟨none, some w, v⟩) = .ok (dst ++ out) ∧ unmarshalIa5StringValue out = .ok s ∧
      (s.value = v ↔ WholeText v) := by
  have hne : v ++ List.replicate (w - v.length) 0x20 ≠ [] := by
    intro hh
    have := congrArg List.length hh
    rw [List.length_append, List.length_replicate, List.length_nil] at this
    omega
  obtain ⟨s, hs⟩ := (ia5_accepts_iff (v ++ List.replicate (w - v.length) 0x20)).2 hne
  refine ⟨_, s, ?_, hs, ?_, ?_⟩
  · have := ia5_build dst v (w : Int)
    rw [if_pos (by omega)] at this
    simpa using this
  · intro hv
    have := ((ia5_value_iff _ _).1 hs).2.2.2
    rw [hv] at this
    exact shows_whole this
  · intro hv
    obtain ⟨s', hs', hv'⟩ := whole_pad (w - v.length) hv hne
    rw [hs, Res.ok.injEq] at hs'
    rw [hs']
    exact hv'

/-- The characters of Latin-1. -/
def latin1Char (b : UInt8) : Char := Char.ofNat b.toNat

/-- Latin-1 is a table with one character for each byte, none of them missing. -/
theorem latin1_singleByte : @SingleByte Spec.latin1 1 latin1Char ∧ ∀ b, latin1Char b ≠ '�' := by
  have hn : ∀ b : UInt8, (latin1Char b).toNat = b.toNat := fun b => by
    have := byte_lt b
    exact char_val b.toNat (Or.inl (by omega))
  refine ⟨⟨fun _ _ _ => rfl, fun _ _ => rfl, fun b h => by rw [hn]; exact h⟩, fun b h => ?_⟩
  have := congrArg Char.toNat h
  rw [hn] at this
  have hb := byte_lt b
  have : b.toNat = 0xFFFD := this
  omega

/-- C89, finding: the name Åsa, put into a field by a program, is read back as another name. -/
theorem text_beyond_ascii_changed : ∃ out s,
    appendStringValue [] (some ⟨4, none, some 35, [0xC3, 0x85, 0x73, 0x61]⟩) = .ok out ∧
    @unmarshalStringValue Spec.latin1 out = .ok s ∧ s.value ≠ [0xC3, 0x85, 0x73, 0x61] ∧
    s.value = [0xC3, 0x83, 0xC2, 0x85, 0x73, 0x61] := by
  exact ⟨_, _, rfl, rfl, by decide +kernel, by decide +kernel⟩

/-- Plain text meets the hypotheses, and is read back. -/
example : ∃ out s, appendStringValue [] (some ⟨4, none, some 35, [0x41, 0x73, 0x61]⟩) = .ok ([] ++ out) ∧
    @unmarshalStringValue Spec.latin1 out = .ok s ∧ s.value = [0x41, 0x73, 0x61] := by
  obtain ⟨out, s, h1, h2, -, h3⟩ := @text_read_back_iff Spec.latin1 1 4 latin1Char [0x41, 0x73, 0x61] 35 (by decide) (by decide)
    latin1_singleByte.1 (fun b _ => latin1_singleByte.2 b) (by decide) (by decide) []
  refine ⟨out, s, h1, h2, h3.2 ⟨?_, ?_, ?_⟩⟩
  · unfold Ascii; decide
  · intro b t h
    cases h
    decide
  · intro b t h
    have := congrArg List.getLast? h
    rw [List.getLast?_append] at this
    cases this
    decide

/-- The unset encoding is one without a code page. -/
example : ∀ p ∈ codePages, p.2 = 0 → p.1 = 255 := by decide

end Tacho
