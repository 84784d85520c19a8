import Verif.Props.CardReread
/-!
# C63: writing a driver card and reading the file gives the card back

`CardOk` and `SameCard` are in Spec/CardReread.lean.
-/

namespace Tacho
open Spec Spec.Regulation

/-! ## The parts -/

section
variable [Charmap]

omit [Charmap] in
theorem written_empty {f : Bytes → Res Bytes} {e : Bytes} (h : WritesBytes f e) : f [] = .ok e := by
  rw [h []]; rfl

omit [Charmap] in
/-- C63: EF_Driver_Activity_Data. -/
theorem activity_write_read (m : DriverActivityData) (h : ActivityOk m) :
    ∃ e m', appendDriverActivity [] (some m) = .ok e ∧ e.length ≤ 65530 ∧ unmarshalDriverActivityData e = .ok m' ∧ SameActivity m m' := by
  obtain ⟨o, n, raw, recs⟩ := m
  obtain ⟨ho, ⟨b, hb, hne, hl, hn, hp⟩ | ⟨hr, rs, last, hrs, hw, h365, hn, hsum⟩⟩ := h
  · simp only at hb hn hp ho
    subst hb
    have hpos : 0 < b.length := List.length_pos_iff.2 hne
    have e1 : (beNat (beBytes 2 (low 16 n)) : Int) = n := by
      rw [beNat_beBytes]; unfold Fits at hn; unfold low; omega
    have e2 : (beNat (beBytes 2 (low 16 o)) : Int) = o := by
      rw [beNat_beBytes]; unfold Fits at ho; unfold low; omega
    have hl4 : (beBytes 2 (low 16 o) ++ beBytes 2 (low 16 n)).length = 4 := by simp
    refine ⟨beBytes 2 (low 16 o) ++ beBytes 2 (low 16 n) ++ b, ⟨o, n, some b, recs⟩, ?_, ?_, ?_, rfl, rfl, fun _ => rfl, ?_⟩
    · simp [appendDriverActivity, hpos]
    · simp at hl4 ⊢; omega
    · rw [driverActivity_decode]
      have d1 : sl (beBytes 2 (low 16 o) ++ beBytes 2 (low 16 n) ++ b) 0 2 = beBytes 2 (low 16 o) := by
        simp [sl, List.append_assoc]
      have d2 : sl (beBytes 2 (low 16 o) ++ beBytes 2 (low 16 n) ++ b) 2 4 = beBytes 2 (low 16 n) := by
        unfold sl
        rw [List.take_left' hl4, List.drop_left' (by simp)]
      rw [d1, d2, List.drop_left' hl4]
      refine ⟨by simp at hl4 ⊢; omega, e2.symm, e1.symm, rfl, hp⟩
    · intro h; cases h
  · simp only at hr hrs hw h365 hn hsum ho
    subst hr hrs
    have hs : n < 65536 := by
      rw [List.map_append, List.sum_append] at hsum
      omega
    obtain ⟨b, out, h1, h2, h3, h4⟩ := activity_rebuild rs last hw h365
    obtain ⟨f, m, g1, g2, g3, g4, g5⟩ := activity_rebuild_file rs last o n hw h365 hn hs
    refine ⟨f, m, g1, ?_, g2, ?_, g3, fun h => absurd rfl h, fun _ => g5⟩
    · have : f = beBytes 2 (low 16 o) ++ beBytes 2 (low 16 n) ++ b := by
        simp [appendDriverActivity, h1] at g1
        simp [← g1]
      rw [this]
      rw [List.map_append, List.sum_append] at hsum
      simp at hsum ⊢
      omega
    · rw [g4]
      unfold Fits at ho
      show o % 65536 = o
      omega

/-- C63: EF_Specific_Conditions of the second generation. -/
theorem conditionsG2_fit_write_read (m : RecordFile SpecificConditionRecord) (h : ConditionsG2Ok m) :
    ∃ e m', appendSpecificConditionsG2 [] (some m) = .ok e ∧ e.length ≤ 65530 ∧ unmarshalSpecificConditionsG2 e = .ok m' ∧
      m'.newest = m.newest ∧ m'.records = m.records := by
  rcases h with ⟨r, hl, hr⟩ | ⟨h1, h2, h3, h4⟩
  · have := specificConditionsG2_restores r [] m hr
    exact ⟨r, m, by rw [this]; rfl, hl, hr, rfl, rfl⟩
  · obtain ⟨e, m', g1, g2, g3, g4, g5⟩ := conditionsG2_write_read m h1 h2 h4
    exact ⟨e, m', written_empty g1, by omega, g3, g4, g5⟩

omit [Charmap] in
theorem rsa_fits {o : Option RsaCert} (h : Each RsaOk o) : CertOk RsaCert.raw o unmarshalRsa := by
  intro m hm
  rcases h m hm with h | h
  · exact .inl h
  · exact .inr ⟨by omega, ⟨{ car := decimal (beNat (sl m.raw 186 194)), raw := m.raw }, by
      simp [unmarshalRsa, h, sl?_ok], rfl⟩⟩

omit [Charmap] in
theorem ecc_fits {o : Option EccCert} (h : Each EccOk o) : CertOk EccCert.raw o unmarshalEcc := by
  intro m hm
  rcases h m hm with h | h
  · exact .inl h
  · obtain ⟨x, hx⟩ : ∃ x, unmarshalEcc m.raw = .ok x := h.elim ecc_conforms id
    obtain ⟨_, _, f, full, _, hr⟩ := (ecc_parse_iff _ _).1 hx
    exact .inr ⟨by omega, x, hx, hr.2.2.2.2.2.2.2.2.1⟩

/-- Parts that fit the format can be written and read. -/
theorem parts_ok {c : DriverCard} (h : CardOk c) : PartsOk c where
  icc := by
    intro m hm
    obtain ⟨i, hi, ho⟩ := h.icc
    cases hi.symm.trans hm
    obtain ⟨e, m', g1, g2, g3, g4⟩ := icc_write_read _ ho
    exact ⟨e, m', written_empty g2, by omega, g3, g4⟩
  ic := by
    intro m hm
    obtain ⟨e, g1, g2, g3⟩ := ic_write_read _ (h.ic m hm).1 (h.ic m hm).2
    exact ⟨e, m, written_empty g2, by omega, g3, rfl⟩
  appId := by
    intro m hm
    obtain ⟨e, m', g1, g2, g3, g4⟩ := appId_write_read _ (h.gen1.applicationIdentification m hm).1
      (h.gen1.applicationIdentification m hm).2.1 (h.gen1.applicationIdentification m hm).2.2
    exact ⟨e, m', written_empty g2, by omega, g3, g4⟩
  licence := by
    intro m hm
    obtain ⟨e, m', g1, g2, g3, g4⟩ := licence_write_read _ (h.gen1.drivingLicenceInfo m hm)
    exact ⟨e, m', written_empty g2, by omega, g3, g4⟩
  ident := by
    intro m hm
    obtain ⟨⟨ci, hc, hc'⟩, ⟨d, hd, hd'⟩⟩ := h.gen1.identification m hm
    obtain ⟨e, m', g1, g2, g3, g4, g5, g6⟩ := identification_write_read _ ci d hc hd hc' hd'
    refine ⟨e, m', written_empty g2, by omega, g3, ?_, g5, g6⟩
    intro x hx
    cases hc.symm.trans hx
    exact g4
  events := by
    intro m hm
    obtain ⟨h1, h2⟩ := h.gen1.eventsData m hm
    obtain ⟨e, m', g1, g2, g3, g4⟩ := events_write_read _ h1 h2
    exact ⟨e, m', written_empty g1, by omega, g3, g4⟩
  faults := by
    intro m hm
    obtain ⟨h1, h2⟩ := h.gen1.faultsData m hm
    obtain ⟨e, m', g1, g2, g3, g4⟩ := events_write_read _ h1 h2
    exact ⟨e, m', written_empty g1, by omega, g3, g4⟩
  activity := by
    intro m hm
    exact activity_write_read _ (h.gen1.driverActivityData m hm)
  vehicles := by
    intro m hm
    obtain ⟨h1, h2, h3⟩ := h.gen1.vehiclesUsed m hm
    obtain ⟨e, m', g1, g2, g3, g4⟩ := vehiclesUsed_write_read _ h1 h3
    exact ⟨e, m', written_empty g1, by omega, g3, g4⟩
  places := by
    intro m hm
    obtain ⟨h1, h2, h3⟩ := h.gen1.places m hm
    obtain ⟨e, m', g1, g2, g3, g4⟩ := places_write_read _ h1 h3
    exact ⟨e, m', written_empty g1, by omega, g3, g4⟩
  usage := by
    intro m hm
    obtain ⟨e, m', g1, g2, g3, g4⟩ := currentUsage_write_read _ (h.gen1.currentUsage m hm)
    exact ⟨e, m', written_empty g2, by omega, g3, g4⟩
  control := by
    intro m hm
    obtain ⟨e, m', g1, g2, g3, g4⟩ := control_write_read _ (h.gen1.controlActivityData m hm)
    exact ⟨e, m', written_empty g2, by omega, g3, g4⟩
  conditions := by
    intro m hm
    obtain ⟨h1, h2⟩ := h.gen1.specificConditions m hm
    obtain ⟨e, m', g1, g2, g3, g4⟩ := conditions_write_read _ h2
    exact ⟨e, m', written_empty g1, by omega, g3, g4⟩
  download := by
    intro m hm
    obtain ⟨e, g1, g2, g3⟩ := cardDownload_write_read _ (h.gen1.cardDownload m hm)
    exact ⟨e, m, written_empty g2, by omega, g3, rfl⟩
  appIdG2 := by
    intro m hm
    obtain ⟨e, m', g1, g2, g3, g4⟩ := appIdG2_write_read _ (h.gen2.applicationIdentification m hm).1
      (h.gen2.applicationIdentification m hm).2.1 (h.gen2.applicationIdentification m hm).2.2
    exact ⟨e, m', written_empty g2, by omega, g3, g4⟩
  vehiclesG2 := by
    intro m hm
    obtain ⟨h1, h2, h3⟩ := h.gen2.vehiclesUsed m hm
    obtain ⟨e, m', g1, g2, g3, g4⟩ := vehiclesUsedG2_write_read _ h1 h3
    exact ⟨e, m', written_empty g1, by omega, g3, g4⟩
  placesG2 := by
    intro m hm
    obtain ⟨h1, h2, h3⟩ := h.gen2.places m hm
    obtain ⟨e, m', g1, g2, g3, g4⟩ := placesG2_write_read _ h1 h3
    exact ⟨e, m', written_empty g1, by omega, g3, g4⟩
  conditionsG2 := by
    intro m hm
    exact conditionsG2_fit_write_read _ (h.gen2.specificConditions m hm)
  units := by
    intro m hm
    obtain ⟨h1, h2, h3⟩ := h.gen2.vehicleUnitsUsed m hm
    obtain ⟨e, g1, g2, g3⟩ := vehicleUnits_write_read _ _ h1 h2 h3
    exact ⟨e, _, written_empty g1, by omega, g3, rfl⟩
  gnss := by
    intro m hm
    obtain ⟨h1, h2, h3⟩ := h.gen2.gnssPlaces m hm
    obtain ⟨e, g1, g2, g3⟩ := gnssPlaces_write_read _ _ h1 h3
    exact ⟨e, _, written_empty g1, by omega, g3, rfl⟩
  appIdV2 := by
    intro m hm
    obtain ⟨h1, h2, h3, h4⟩ := h.gen2.applicationIdentificationV2 m hm
    obtain ⟨e, g1, g2, g3⟩ := appIdV2_write_read _ h1 h2 h3 h4
    exact ⟨e, _, written_empty g2, by omega, g3, rfl⟩
  cardCert := rsa_fits h.gen1.cardCertificate
  caCert := rsa_fits h.gen1.caCertificate
  maCert := h.gen2.cardMaCertificate
  signCert := ecc_fits h.gen2.cardSignCertificate
  caCertG2 := ecc_fits h.gen2.caCertificate
  linkCert := ecc_fits h.gen2.linkCertificate

/-! ## The property -/

/-- C63: a driver card message whose parts fit the format is written without an error, and reading the file gives a
driver card with the same contents. Lost are the signatures, eight files of the Gen2 application, and what
verification added to the certificates. -/
theorem driver_card_write_read (c : DriverCard) (h : CardOk c) :
    ∃ out c', marshalFile (some { type := .driverCard, driverCard := some c }) = .ok out ∧
      unmarshalFile out = .ok { type := .driverCard, driverCard := some c' } ∧ SameCard c c' := by
  have hp := parts_ok h
  have he := entries_ok hp
  have hi : c.icc ≠ none := by
    obtain ⟨i, hi, _⟩ := h.icc
    rw [hi]; simp
  obtain ⟨vs, hv⟩ : ∃ vs, List.Forall₂ (fun (e : Spec.Entry) v => e.content = .ok v) (entries c) vs := by
    generalize entries c = es at he
    induction es with
    | nil => exact ⟨[], .nil⟩
    | cons e es ih =>
      obtain ⟨vs, hv⟩ := ih fun x hx => he x (by simp [hx])
      obtain ⟨v, hv', _⟩ := he e (by simp)
      exact ⟨v :: vs, .cons hv' hv⟩
  have hm := (driver_card_written_iff c _).2 ⟨vs, hv, rfl⟩
  refine ⟨_, _, hm, ?_, blocks_same hp hi⟩
  rw [written_card_read c _ hm ?_ hi, (driver_card_iff _ _).2 ⟨_, rfl, ?_, rfl⟩]
  · rfl
  · intro b hb
    refine ⟨?_, blocks_readable hp b hb⟩
    obtain ⟨o, ho, hb⟩ := List.mem_filterMap.1 hb
    obtain ⟨k, _, hk⟩ := mem_of_forall₂ (cardBlocks_keyed c) ho
    exact (hk b hb).2
  · intro e hm v hv
    obtain ⟨v', h1, h2⟩ := he e hm
    rw [hv] at h1
    cases h1
    exact h2

/-! ## Why an ICC is needed, and no certificate for mutual authentication -/

omit [Charmap] in
theorem entry_start {α : Type} {hi lo a : UInt8} {sg : Bool} {msg : Option α} {w : α → Res Bytes} (h1 : hi ≠ 0x76)
    (h2 : ¬ (hi = 0 ∧ lo = 2)) : ∀ e ∈ entry hi lo a sg msg w, e.fidHi ≠ 0x76 ∧ ¬ (e.fidHi = 0 ∧ e.fidLo = 2) := by
  intro e he
  cases msg with
  | none => simp [entry] at he
  | some m =>
    simp only [entry, List.mem_singleton] at he
    subst he
    exact ⟨h1, h2⟩

omit [Charmap] in
theorem certificate_start {hi lo a : UInt8} {r : Option Bytes} (h1 : hi ≠ 0x76)
    (h2 : ¬ (hi = 0 ∧ lo = 2)) : ∀ e ∈ certificate hi lo a r, e.fidHi ≠ 0x76 ∧ ¬ (e.fidHi = 0 ∧ e.fidLo = 2) := by
  intro e he
  cases r with
  | none => simp [certificate] at he
  | some r =>
    simp only [certificate] at he
    split at he
    · simp at he
    · simp only [List.mem_singleton] at he
      subst he
      exact ⟨h1, h2⟩

/-- C63, finding: a message without an ICC is written, if its other parts can be, to a file that is always refused. -/
theorem driver_card_without_icc (c : DriverCard) (out : Bytes) (hi : c.icc = none)
    (h : marshalFile (some { type := .driverCard, driverCard := some c }) = .ok out) : ∃ m, unmarshalFile out = .err m := by
  obtain ⟨vs, hv, rfl⟩ := (driver_card_written_iff c out).1 h
  have hall : ∀ e ∈ entries c, e.fidHi ≠ 0x76 ∧ ¬ (e.fidHi = 0 ∧ e.fidLo = 2) := by
    unfold entries gen1Entries gen2Entries gen1Certificates gen2Certificates
    simp only [hi, List.append_assoc, List.forall_mem_append]
    and_intros
    all_goals first
      | exact entry_start (by decide) (by decide)
      | exact certificate_start (by decide) (by decide)
      | (intro e he; simp [entry] at he)
  generalize entries c = es at hall hv
  cases hv with
  | nil => exact file_refused _ (by simp [bytesOf]) (by simp [bytesOf])
  | @cons e v es vs h1 _ =>
    obtain ⟨g1, g2⟩ := hall e (by simp)
    refine file_refused _ ?_ ?_
    · intro rest hr
      simp only [bytesOf, List.zip_cons_cons, List.flatMap_cons, Entry.bytes, List.cons_append, List.cons.injEq] at hr
      exact absurd hr.1 g1
    · intro rest hr
      simp only [bytesOf, List.zip_cons_cons, List.flatMap_cons, Entry.bytes, List.cons_append, List.cons.injEq] at hr
      exact g2 ⟨hr.1, hr.2.1⟩

/-- C63, finding: a message with a certificate for mutual authentication is written, if its parts can be, to a file
that is always refused: the file id of that certificate is the one of the Gen1 card certificate. -/
theorem driver_card_with_ma_certificate (c : DriverCard) (out : Bytes) (t : TachographG2) (m : EccCert)
    (ht : c.tachographG2 = some t) (hm : t.cardMaCertificate = some m) (hr : m.raw ≠ [])
    (hs : ∀ e ∈ entries c, ∀ v, e.content = .ok v → v.length ≤ 65530)
    (h : marshalFile (some { type := .driverCard, driverCard := some c }) = .ok out) : ∃ m, unmarshalFile out = .err m := by
  by_cases hi : c.icc = none
  · exact driver_card_without_icc c out hi h
  · have hread := written_card_read c out h hs hi
    cases hu : unmarshalDriverCard (((cardBlocks c).filterMap id).flatMap Block.records) with
    | err e => exact ⟨e, by rw [hread, hu]; rfl⟩
    | panic => exact absurd hu (driver_card_total _)
    | ok card =>
      exfalso
      obtain ⟨bs, hbs, hg, -⟩ := (driver_card_iff _ _).1 hu
      have hb : blockOf 0xC1 0x00 2 false m.raw ∈ (cardBlocks c).filterMap id := by
        rw [List.mem_filterMap]
        refine ⟨some _, ?_, rfl⟩
        simp only [cardBlocks, ht, Option.getD_some, hm, writtenCert, Option.map_some, if_neg hr]
        simp
      have hgood : ∀ b ∈ (cardBlocks c).filterMap id, b.Good := by
        intro b hb
        obtain ⟨o, ho, hb⟩ := List.mem_filterMap.1 hb
        obtain ⟨k, _, hk⟩ := mem_of_forall₂ (cardBlocks_keyed c) ho
        exact (hk b hb).2
      have := blocks_unique _ _ hgood (fun b hb => (hg b hb).1) hbs
      rw [this] at hb
      have hk := (keyed_block (hi := 0xC1) (lo := 0x00) (a := 2) (sg := false) (k := (.cardCertificate, .gen2)) (some m.raw)
        (by decide +kernel) (by decide) (by decide) (by decide) _ rfl).1
      obtain ⟨hf, hgen⟩ := Prod.mk.inj hk
      generalize blockOf 0xC1 0x00 2 false m.raw = b at hb hf hgen
      have hread := (hg b hb).2
      unfold Block.Readable at hread
      rw [hf] at hread
      rw [hgen] at hread
      exact absurd hread.2.1 (by decide)

end

end Tacho
