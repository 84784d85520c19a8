import Verif.Props.AnonymizeVehicles
import Verif.Props.WriteIdent
/-!
# What an anonymised driver card says about its holder when it is read back
-/

namespace Tacho
open Spec

theorem testText_ok [Charmap] (hmap : ∀ x, Ascii x → Charmap.decode (charmapOf 1) x = x) {s : String} {v : Bytes} (hs : s.toUTF8.toList = v)
    (h1 : v.length ≤ 35) (h2 : PlainText v) : Has (TextOk 35) (testText s) := by
  refine ⟨_, rfl, rfl, ⟨(1, encoding_iso88591), by decide, rfl⟩, .inr ⟨rfl, by dsimp only; rw [hs]; exact h1, by dsimp only; rw [hs]; exact h2, fun p hp he => ?_⟩⟩
  have : ∀ p ∈ Spec.codePages, p.2 = encoding_iso88591 → p.1 = 1 := by decide
  rw [this p hp he]
  exact hmap

theorem plain_of {v : Bytes} (h : v.all (fun b => decide (0x20 < b) && decide (b < 128)) = true) : PlainText v := by
  have hb : ∀ b ∈ v, 0x20 < b ∧ b < 128 := by simpa using h
  have hnb : ∀ b ∈ v, ¬ Blank b := by
    intro b hb' hblank
    have := (hb b hb').1
    rcases hblank with rfl | rfl | rfl | rfl | rfl | rfl | rfl <;> exact absurd this (by decide)
  refine ⟨fun b h => (hb b h).2, ?_, ?_⟩
  · rintro b t rfl; exact hnb b (by simp)
  · rintro b t rfl; exact hnb b (by simp)

variable [Charmap] in
/-- C40: the anonymised identification of a driver card of a known nation is written, and reads back as the driver card
`DRIVER00000001` with indices 0 of the holder TEST_FIRSTNAME TEST_SURNAME, born on the first of January 2000, issued by TEST_AUTHORITY
for the years 2020 to 2024; the nation and the language are those of the card. -/
theorem anonymize_driver_card_reads (d : Bytes) (m : Identification) (h : unmarshalIdentification d = .ok m)
    (hd : m.cardType = .driverCard) (hk : ByteAt d 0 (Known nationNumericTable))
    (hmap : ∀ x, Ascii x → Charmap.decode (charmapOf 1) x = x) :
    ∃ (b : Bytes) (m' : Identification),
      appendIdentification [] (anonymizeIdentification { toIdentification := m }).toIdentification = .ok b ∧
      unmarshalIdentification b = .ok m' ∧ m'.cardType = .driverCard ∧
      (∃ c c' n r w a, m.card = some c ∧ m'.card = some c' ∧ c'.issuingState = c.issuingState ∧
        c'.driver = some ⟨some n, some r, some w⟩ ∧ c'.owner = none ∧
        n.value = "DRIVER00000001".toUTF8.toList ∧ r.value = "0".toUTF8.toList ∧ w.value = "0".toUTF8.toList ∧
        c'.authority = some a ∧ a.value = "TEST_AUTHORITY".toUTF8.toList ∧
        c'.issueDate = some ⟨1577836800, 0⟩ ∧ c'.validityBegin = some ⟨1577836800, 0⟩ ∧ c'.expiryDate = some ⟨1735689599, 0⟩) ∧
      ∃ o o' s f t, m.driverHolder = some o ∧ m'.driverHolder = some o' ∧
        o'.surname = some s ∧ s.value = "TEST_SURNAME".toUTF8.toList ∧
        o'.firstNames = some f ∧ f.value = "TEST_FIRSTNAME".toUTF8.toList ∧
        o'.birthDate = some t ∧ (t.year, t.month, t.day) = (2000, 1, 1) ∧ o'.language = o.language := by
  have hfields := identification_fields d m h
  obtain ⟨hl, n, ct, dr, ow, au, ti, tb, te, sn, fn, bd, la, hn, hcn, hau, hti, htb, hte, hsn, hfn, hbd, hla, rfl⟩ :=
    identification_parse h
  obtain ⟨c, p, hc, hp, _, hdr, _⟩ := hfields
  dsimp only at hc hd
  cases hc
  subst hd
  obtain ⟨how, n', r', w', hdrv, _⟩ := hdr rfl
  dsimp only at how hdrv
  subst how hdrv
  rw [byteAt_of_sl hn] at hk
  have hnamed : Named nationNumericTable (enumOr1 nationNumericTable n) := by
    obtain ⟨v, hv⟩ := known_iff.mp hk
    rw [enumOr1_of hv]
    exact ⟨n, unmarshalEnum_ok hv⟩
  let zero : Ia5StringValue := ⟨none, some 1, [0x30]⟩
  let card : CardIdent := ⟨enumOr1 nationNumericTable n, some ⟨some ⟨none, some 14, anonDriverNumber⟩, some zero, some zero⟩, none,
    testText "TEST_AUTHORITY", some ⟨1577836800, 0⟩, some ⟨1577836800, 0⟩, some ⟨1735689599, 0⟩⟩
  let holder : DriverHolder := ⟨testText "TEST_SURNAME", testText "TEST_FIRSTNAME", some testBirthDate, some la⟩
  have hb : testBirthDate = ⟨some [0x20, 0, 1, 1], 2000, 1, 1⟩ := by decide +kernel
  have hll : (sl d 141 143).length = 2 := by simp; omega
  have hla' : la = ⟨some (sl d 141 143), some 2, toValidUTF8 (trimSpaceAndZeroBytes (sl d 141 143))⟩ := by
    rw [unmarshalIa5StringValue, if_neg (by omega), hll] at hla
    cases hla
    rfl
  obtain ⟨e, i', e1, e2, e3, e4, e5, e6⟩ := identification_write_read ⟨.driverCard, some card, some holder⟩ card holder rfl rfl
    ⟨hnamed, .inl ⟨⟨_, rfl, ⟨_, rfl, by decide, plain_whole (plain_of (by decide))⟩, ⟨zero, rfl, 0x30, rfl, by unfold CardIdentOk.Digit; decide⟩, ⟨zero, rfl, 0x30, rfl, by unfold CardIdentOk.Digit; decide⟩⟩, rfl⟩,
      testText_ok hmap (v := [0x54, 0x45, 0x53, 0x54, 0x5F, 0x41, 0x55, 0x54, 0x48, 0x4F, 0x52, 0x49, 0x54, 0x59]) (by decide +kernel) (by decide) (plain_of (by decide)),
      by intro x hx; cases hx; decide, by intro x hx; cases hx; decide, by intro x hx; cases hx; decide⟩
    ⟨testText_ok hmap (v := [0x54, 0x45, 0x53, 0x54, 0x5F, 0x53, 0x55, 0x52, 0x4E, 0x41, 0x4D, 0x45]) (by decide +kernel) (by decide) (plain_of (by decide)),
      testText_ok hmap (v := [0x54, 0x45, 0x53, 0x54, 0x5F, 0x46, 0x49, 0x52, 0x53, 0x54, 0x4E, 0x41, 0x4D, 0x45]) (by decide +kernel) (by decide) (plain_of (by decide)),
      ⟨_, rfl, by rw [hb]; exact ⟨by intro r hr; cases hr; rfl, by decide, by decide, by decide, by decide, by decide, by decide⟩⟩,
      ⟨la, rfl, by rw [hla']; rfl, .inl ⟨_, by rw [hla'], hll⟩⟩⟩
  refine ⟨e, i', ?_, e3, e4, ?_, ?_⟩
  · have := e2 []
    dsimp only at this
    rw [List.nil_append] at this
    rw [← this]
    rfl
  · obtain ⟨c, c', hc, hc', s1, s2, ⟨a, a', ha, ha', s3⟩, s4, s5, s6⟩ := e5
    cases hc
    rcases s2 with ⟨⟨dd, dd', h1, h2, ⟨n1, n2, h3, h4, h5⟩, ⟨r1, r2, h6, h7, h8⟩, w1, w2, h9, h10, h11⟩, h12⟩ | ⟨_, _, _, hx, _⟩
    · cases h1; cases h3; cases h6; cases h9; cases ha
      obtain ⟨_, _, _⟩ := dd'
      dsimp only at h4 h7 h10
      subst h4 h7 h10
      exact ⟨_, c', n2, r2, w2, a', rfl, hc', s1, h2, h12, h5.trans (by decide +kernel), h8.trans (by decide +kernel),
        h11.trans (by decide +kernel), ha', s3.2.2.2 rfl, s4, s5, s6⟩
    · cases hx
  · obtain ⟨o, o', ho, ho', ⟨s, s', hs, hs', t1⟩, ⟨f, f', hf, hf', t2⟩, ⟨b, b', hb1, hb2, t3⟩, l, l', hl1, hl2, t4⟩ := e6
    cases ho; cases hs; cases hf; cases hb1; cases hl1
    refine ⟨_, o', s', f', b', rfl, ho', hs', t1.2.2.2 rfl, hf', t2.2.2.2 rfl, hb2, ?_, ?_⟩
    · rw [t3.1, t3.2.1, t3.2.2, hb]
    · rw [hl2]
      obtain ⟨t5, t6, _⟩ := t4
      obtain ⟨t7, t8⟩ := t6 (sl d 141 143) (by rw [hla'])
      rw [← cleaned_iff] at t8
      obtain ⟨_, _, _⟩ := l'
      dsimp only at t5 t7 t8
      rw [t5, t7, ← t8, hla']

variable [Charmap] in
example : ∃ d m, unmarshalIdentification d = .ok m ∧ m.cardType = .driverCard ∧ ByteAt d 0 (Known nationNumericTable) := by
  obtain ⟨m, hm⟩ := (identification_accepts_iff (13 :: List.replicate 142 0x30)).mpr (by simp)
  exact ⟨_, m, hm, (identification_cardType _ m hm).1.mpr ⟨⟨0x30, rfl, by decide⟩, ⟨0x30, rfl, by decide⟩⟩, 13, rfl, 16, by decide⟩

end Tacho
