import Verif.Props.WriteLists
/-!
# C61: EF_Identification, written, then read
-/

namespace Tacho
open Spec

theorem plain_single {b : UInt8} (h1 : b < 128) (h2 : ¬ Blank b) : ∃ s, unmarshalIa5StringValue [b] = .ok s ∧ s.value = [b] := by
  have hp : PlainText [b] := by
    refine ⟨?_, ?_, ?_⟩
    · intro x hx
      simp only [List.mem_singleton] at hx
      subst hx
      exact h1
    · intro x t hx
      simp only [List.cons.injEq] at hx
      rw [← hx.1]
      exact h2
    · intro x t hx
      match t, hx with
      | [], hx =>
        simp only [List.nil_append, List.cons.injEq, and_true] at hx
        rw [← hx]
        exact h2
      | _ :: t, hx =>
        simp at hx
  have := plain_pad 0 hp (by simp)
  simpa using this

theorem digit_plain {b : UInt8} (h : CardIdentOk.Digit b) : b < 128 ∧ ¬ Blank b := by
  obtain ⟨h1, h2⟩ := h
  rw [UInt8.le_iff_toNat_le] at h1 h2
  refine ⟨UInt8.lt_iff_toNat_lt.2 (Nat.lt_of_le_of_lt h2 (by decide)), ?_⟩
  rintro (rfl | rfl | rfl | rfl | rfl | rfl | rfl) <;> exact absurd h1 (by decide)

theorem number_pad {w : Nat} (h0 : 0 < w) {s : Ia5StringValue} (h : NumberOk w s) :
    ∃ e s', e.length = w ∧ padSpaces (s.value.take w) w = e ∧ unmarshalIa5StringValue e = .ok s' ∧ SameValue s s' := by
  obtain ⟨h1, h2⟩ := h
  have hl : (s.value ++ List.replicate (w - s.value.length) 0x20).length = w := by
    simp; omega
  obtain ⟨s', p1, p2⟩ := whole_pad (w - s.value.length) h2 (fun hc => by rw [hc] at hl; simp at hl; omega)
  exact ⟨_, s', hl, by rw [padSpaces, List.take_of_length_le h1], p1, p2⟩

theorem index_write {P : UInt8 → Prop} {o : Option Ia5StringValue} (h : Has (IndexOk P) o) (d : UInt8) :
    ∃ s b, o = some s ∧ s.value = [b] ∧ P b ∧ firstByteOr o d = b := by
  obtain ⟨s, rfl, b, hb, hP⟩ := h
  exact ⟨s, b, rfl, hb, hP, by simp [firstByteOr, hb]⟩

theorem indexText_write {o : Option Ia5StringValue} (h : Has IndexText o) :
    ∃ s b s', o = some s ∧ firstByteOr o 0 = b ∧ unmarshalIa5StringValue [b] = .ok s' ∧ SameValue s s' ∧
      (CardIdentOk.Digit b → Has (IndexOk CardIdentOk.Digit) o) := by
  obtain ⟨s, rfl, h | ⟨b, hb, h1, h2⟩⟩ := h
  · exact ⟨s, 0, _, rfl, by simp [firstByteOr, h], rfl, by rw [SameValue, h]; decide, fun hd => absurd hd (by unfold CardIdentOk.Digit; decide)⟩
  · obtain ⟨s', p1, p2⟩ := plain_single h1 h2
    exact ⟨s, b, s', rfl, by simp [firstByteOr, hb], p1, by rw [SameValue, p2, hb], fun hd => ⟨s, rfl, b, hb, hd⟩⟩

theorem sl?_single (b : UInt8) : sl? [b] 0 1 = .ok [b] := rfl

section
variable [Charmap]

theorem cardNumberBytes_write {m : CardIdent} (h : CardIdentOk m) : ∃ e ct d' o', e.length = 16 ∧ cardNumberBytes m = e ∧
    unmarshalCardNumber e = .ok (ct, d', o') ∧ ct = (if m.driver.isSome then CardType.driverCard else .workshopCard) ∧
    ((Both (fun d d' => Both SameValue d.number d'.number ∧ Both SameValue d.replacement d'.replacement ∧ Both SameValue d.renewal d'.renewal)
      m.driver d' ∧ o' = none) ∨
    (d' = none ∧ Both (fun o o' => Both SameValue o.owner o'.owner ∧ Both SameValue o.consecutive o'.consecutive ∧
      Both SameValue o.replacement o'.replacement ∧ Both SameValue o.renewal o'.renewal) m.owner o')) := by
  obtain ⟨_, h, _⟩ := h
  rcases h with ⟨⟨d, hd, ⟨n, hn, hn'⟩, hr, hw⟩, ho⟩ | ⟨hd, o, ho, ⟨n, hn, hn'⟩, hc, hr, hw, hbc⟩
  · obtain ⟨r, b, hr, hr1, hb, hrb⟩ := index_write hr 0x30
    obtain ⟨w, c, hw, hw1, hc, hwc⟩ := index_write hw 0x30
    obtain ⟨e, n', e1, e2, e3, e4⟩ := number_pad (by omega) hn'
    obtain ⟨r', r1, r2⟩ := plain_single (digit_plain hb).1 (digit_plain hb).2
    obtain ⟨w', w1, w2⟩ := plain_single (digit_plain hc).1 (digit_plain hc).2
    refine ⟨e ++ ([b] ++ [c]), .driverCard, some ⟨some n', some r', some w'⟩, none, by simp [e1], ?_, ?_, by rw [hd]; rfl,
      Or.inl ⟨⟨d, _, hd, rfl, ⟨n, n', hn, rfl, e4⟩, ⟨r, r', hr, rfl, by rw [SameValue, r2, hr1]⟩, w, w', hw, rfl, by rw [SameValue, w2, hw1]⟩, rfl⟩⟩
    · simp only [cardNumberBytes, hd, hn, e2, hrb, hwc]
      rfl
    · have hb1 : ([b] : Bytes).length = 1 := rfl
      simp only [unmarshalCardNumber, sl?_head e1, sl?_tail e1, at?_tail e1, at?_head, at?_next, at?_single, sl?_head hb1, sl?_next, sl?_single,
        Nat.le_refl, Nat.reduceLeDiff, Nat.reduceSub, Res.bind_ok, Res.pure_eq, e3, r1, w1]
      rw [if_pos ⟨hb.1, hb.2, hc.1, hc.2⟩]
  · obtain ⟨k, a, k', hk, hka, k1, k2, -⟩ := indexText_write hc
    obtain ⟨r, b', r', hr2, hrb, r1, r2, hb⟩ := indexText_write hr
    obtain ⟨w, c', w', hw2, hwc, w1, w2, hc⟩ := indexText_write hw
    obtain ⟨e, n', e1, e2, e3, e4⟩ := number_pad (by omega) hn'
    have ha1 : ([a] : Bytes).length = 1 := rfl
    have hbr1 : ([b'] : Bytes).length = 1 := rfl
    refine ⟨e ++ ([a] ++ ([b'] ++ [c'])), .workshopCard, none, some ⟨some n', some k', some r', some w'⟩, by simp [e1], ?_, ?_, by rw [hd]; rfl,
      Or.inr ⟨rfl, o, _, ho, rfl, ⟨n, n', hn, rfl, e4⟩, ⟨k, k', hk, rfl, k2⟩, ⟨r, r', hr2, rfl, r2⟩, w, w', hw2, rfl, w2⟩⟩
    · simp only [cardNumberBytes, hd, ho, hn, e2, hka, hrb, hwc]
      rfl
    · have h14 : ∃ s, sl? (e ++ ([a] ++ ([b'] ++ [c']))) 0 14 = .ok (e ++ [a]) ∧ unmarshalIa5StringValue (e ++ [a]) = .ok s := by
        obtain ⟨s, this⟩ : ∃ s, unmarshalIa5StringValue (e ++ [a]) = .ok s := ⟨_, if_neg (by simp)⟩
        refine ⟨_, ?_, this⟩
        rw [← List.append_assoc]
        exact sl?_head (by simp [e1])
      obtain ⟨s, h14, hs⟩ := h14
      simp only [unmarshalCardNumber, h14, hs, sl?_head e1, sl?_tail e1, at?_tail e1, at?_head, at?_next, at?_single, sl?_head ha1, sl?_head hbr1,
        sl?_next, sl?_single, Nat.le_refl, Nat.reduceLeDiff, Nat.reduceSub, Res.bind_ok, Res.pure_eq, e3, k1, r1, w1]
      rw [if_neg fun hx => hbc ⟨hb ⟨hx.1, hx.2.1⟩, hc ⟨hx.2.2.1, hx.2.2.2⟩⟩]

/-- C61: EF_Identification. -/
theorem identification_write_read (i : Identification) (c : CardIdent) (d : DriverHolder) (hc : i.card = some c) (hd : i.driverHolder = some d)
    (hc' : CardIdentOk c) (hd' : HolderOk d) :
    ∃ e i', e.length = 143 ∧ WritesBytes (appendIdentification · i) e ∧ unmarshalIdentification e = .ok i' ∧
      i'.cardType = (if c.driver.isSome then CardType.driverCard else .workshopCard) ∧
      Both SameCardIdent i.card i'.card ∧ Both SameHolder i.driverHolder i'.driverHolder := by
  obtain ⟨N, ct, dr, ow, N1, N2, N3, N4, N5⟩ := cardNumberBytes_write hc'
  obtain ⟨hn, _, ⟨a, ha, ha'⟩, h1, h2, h3⟩ := hc'
  obtain ⟨⟨s, hs, hs'⟩, ⟨f, hf, hf'⟩, ⟨bd, hbd, hbd'⟩, l, hl, hl'⟩ := hd'
  obtain ⟨b, b1, b2⟩ := named_byte (by decide) hn
  obtain ⟨A, a', A1, A2, A3, A4⟩ := text_write (by omega) (by omega) ha'
  obtain ⟨T, T1, T2, T3⟩ := time_write h1
  obtain ⟨U, U1, U2, U3⟩ := time_write h2
  obtain ⟨V, V1, V2, V3⟩ := time_write h3
  obtain ⟨S, s', S1, S2, S3, S4⟩ := text_write (by omega) (by omega) hs'
  obtain ⟨F, f', F1, F2, F3, F4⟩ := text_write (by omega) (by omega) hf'
  obtain ⟨B, bd', B1, B2, B3, B4⟩ := date_write hbd'
  obtain ⟨L, l', L1, L2, L3, L4⟩ := ia5_write (by omega) (by omega) hl'
  have hlen : ([b] ++ (N ++ (A ++ (T ++ (U ++ (V ++ (S ++ (F ++ (B ++ L))))))))).length = 143 := by
    simp [N1, A1, T1, U1, V1, S1, F1, B1, L1]
  have hun : c.issuingState ≠ enumUnrecognized := named_ne (by decide) (by decide) hn
  refine ⟨_, ⟨ct, some ⟨c.issuingState, dr, ow, some a', c.issueDate, c.validityBegin, c.expiryDate⟩, some ⟨some s', some f', some bd', some l'⟩⟩, hlen,
    fun dst => ?_, ?_, N4, ⟨c, _, hc, rfl, rfl, N5, ⟨a, a', ha, rfl, A4⟩, rfl, rfl, rfl⟩,
    d, _, hd, rfl, ⟨s, s', hs, rfl, S4⟩, ⟨f, f', hf, rfl, F4⟩, ⟨bd, bd', hbd, rfl, B4⟩, l, l', hl, rfl, L4⟩
  · simp only [appendIdentification, appendCardIdentification, appendDriverHolder, hc, hd, ha, hs, hf, hbd, hl, if_neg hun, b1, N2, Res.bind_ok]
    rw [show ∀ d, appendStringValue d (some a) = .ok (d ++ A) from A2, Res.bind_ok,
      show ∀ d, appendTimeReal d c.issueDate = .ok (d ++ T) from T2, Res.bind_ok,
      show ∀ d, appendTimeReal d c.validityBegin = .ok (d ++ U) from U2, Res.bind_ok,
      show ∀ d, appendTimeReal d c.expiryDate = .ok (d ++ V) from V2, Res.bind_ok,
      show ∀ d, appendStringValue d (some s) = .ok (d ++ S) from S2, Res.bind_ok,
      show ∀ d, appendStringValue d (some f) = .ok (d ++ F) from F2, Res.bind_ok,
      show ∀ d, appendDate d bd = .ok (d ++ B) from B2, Res.bind_ok,
      show ∀ d, appendIa5StringValue d (some l) = .ok (d ++ L) from L2]
    simp
  · simp only [unmarshalIdentification, hlen, Nat.lt_irrefl, if_false, Res.bind_ok, Res.pure_eq, at?_head, sl?_next, sl?_head N1, sl?_tail N1,
      sl?_head A1, sl?_tail A1, sl?_head T1, sl?_tail T1, sl?_head U1, sl?_tail U1, sl?_head V1, sl?_tail V1, sl?_head S1, sl?_tail S1,
      sl?_head F1, sl?_tail F1, sl?_head B1, sl?_tail B1, sl?_all L1, Nat.le_refl, Nat.reduceLeDiff, Nat.reduceAdd, Nat.reduceSub,
      N3, A3, T3, U3, V3, S3, F3, B3, L3, enumOr1_of b2]

end

end Tacho
