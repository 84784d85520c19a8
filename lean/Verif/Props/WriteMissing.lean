import Verif.Props.WriteIdent
/-!
# C62: what missing parts and edits do to the written file

Parts of a message that may be absent, and edits that are lost. Each theorem says which bytes are written
and what the reader of the same library makes of them.
-/

namespace Tacho
open Spec

/-- C62: a missing text is one byte FF, a missing IA5 text is no byte at all: nothing takes the place of the field. -/
theorem missing_text : WritesBytes (appendStringValue · none) [0xFF] ∧ WritesBytes (appendIa5StringValue · none) [] :=
  ⟨fun _ => rfl, fun _ => by simp [appendIa5StringValue]⟩

/-! ## Control types: a flag can be set, but not cleared -/

theorem flags_over (b : UInt8) : ∀ x1 x2 x3 x4 x5 : Bool,
    let e := if x1 then b ||| 0x80 else b
    let e := if x2 then e ||| 0x40 else e
    let e := if x3 then e ||| 0x20 else e
    let e := if x4 then e ||| 0x10 else e
    let e := if x5 then e ||| 0x08 else e
    (e &&& 0x80 != 0) = ((b &&& 0x80 != 0) || x1) ∧ (e &&& 0x40 != 0) = ((b &&& 0x40 != 0) || x2) ∧
    (e &&& 0x20 != 0) = ((b &&& 0x20 != 0) || x3) ∧ (e &&& 0x10 != 0) = ((b &&& 0x10 != 0) || x4) ∧
    (e &&& 0x08 != 0) = ((b &&& 0x08 != 0) || x5) :=
  forall_byte (P := fun b => ∀ x1 x2 x3 x4 x5 : Bool,
    let e := if x1 then b ||| 0x80 else b
    let e := if x2 then e ||| 0x40 else e
    let e := if x3 then e ||| 0x20 else e
    let e := if x4 then e ||| 0x10 else e
    let e := if x5 then e ||| 0x08 else e
    (e &&& 0x80 != 0) = ((b &&& 0x80 != 0) || x1) ∧ (e &&& 0x40 != 0) = ((b &&& 0x40 != 0) || x2) ∧
    (e &&& 0x20 != 0) = ((b &&& 0x20 != 0) || x3) ∧ (e &&& 0x10 != 0) = ((b &&& 0x10 != 0) || x4) ∧
    (e &&& 0x08 != 0) = ((b &&& 0x08 != 0) || x5)) (by decide +kernel) b

/-- C62: when the raw byte is still there, a flag is read back as set if it is set in the message or was set in the raw byte. -/
theorem control_flag_stays (c : ControlType) (b : UInt8) (h : c.rawData = some [b]) :
    ∃ e c', WritesBytes (appendControlType · c) [e] ∧ unmarshalControlType [e] = .ok c' ∧
      c'.cardDownloading = ((b &&& 0x80 != 0) || c.cardDownloading) ∧ c'.vuDownloading = ((b &&& 0x40 != 0) || c.vuDownloading) ∧
      c'.printing = ((b &&& 0x20 != 0) || c.printing) ∧ c'.display = ((b &&& 0x10 != 0) || c.display) ∧
      c'.calibrationChecking = ((b &&& 0x08 != 0) || c.calibrationChecking) := by
  obtain ⟨raw, x1, x2, x3, x4, x5⟩ := c
  simp only at h
  subst h
  refine ⟨_, _, fun dst => rfl, rfl, ?_⟩
  exact flags_over b x1 x2 x3 x4 x5

/-- C62: without raw data the flags are written as they are. -/
theorem control_flags_fresh (c : ControlType) (h : c.rawData = none) :
    ∃ e c', WritesBytes (appendControlType · c) [e] ∧ unmarshalControlType [e] = .ok c' ∧ SameControl c c' := by
  obtain ⟨raw, x1, x2, x3, x4, x5⟩ := c
  simp only at h
  subst h
  refine ⟨_, _, fun dst => rfl, rfl, ?_⟩
  simp only [SameControl]
  revert x1 x2 x3 x4 x5
  decide +kernel

section
variable [Charmap]

/-- C62: a name without surname is written as 37 bytes, which the reader refuses. -/
theorem holderName_without_surname (h : HolderName) (h1 : h.surname = none) (h2 : Has (TextOk 35) h.firstNames) :
    ∃ e, e.length = 37 ∧ WritesBytes (appendHolderName · (some h)) e ∧ ∀ h', unmarshalHolderName e ≠ .ok h' := by
  obtain ⟨f, hf, hf'⟩ := h2
  obtain ⟨F, f', F1, F2, F3, F4⟩ := text_write (by omega) (by omega) hf'
  refine ⟨[0xFF] ++ F, by simp [F1], fun dst => ?_, fun h' hh => ?_⟩
  · simp only [appendHolderName, h1, hf]
    rw [show appendStringValue dst none = .ok (dst ++ [0xFF]) from rfl, Res.bind_ok,
      show ∀ d, appendStringValue d (some f) = .ok (d ++ F) from F2, List.append_assoc]
  · have := (holderName_accepts_iff _).1 ⟨h', hh⟩
    simp [F1] at this

/-- C62: a driving licence without issuing authority is written as 18 bytes, which the reader refuses. -/
theorem licence_without_authority (m : DrivingLicenceInfo) (h1 : m.authority = none) (h2 : Named nationNumericTable m.nation)
    (h3 : Has (Ia5Ok 16) m.number) :
    ∃ e, e.length = 18 ∧ WritesBytes (appendDrivingLicenceInfo · (some m)) e ∧ ∃ msg, unmarshalDrivingLicenceInfo e = .err msg := by
  obtain ⟨n, hn, hn'⟩ := h3
  obtain ⟨b, b1, b2⟩ := named_byte (by decide) h2
  obtain ⟨N, n', N1, N2, N3, N4⟩ := ia5_write (by omega) (by omega) hn'
  have hl : ([0xFF] ++ ([b] ++ N)).length = 18 := by simp [N1]
  refine ⟨_, hl, fun dst => ?_, _, by rw [unmarshalDrivingLicenceInfo, if_pos (by omega)]; rfl⟩
  simp only [appendDrivingLicenceInfo, h1, hn, b1]
  rw [show appendStringValue dst none = .ok (dst ++ [0xFF]) from rfl, Res.bind_ok, Res.bind_ok,
    show ∀ d, appendIa5StringValue d (some n) = .ok (d ++ N) from N2]
  simp

/-- C62: a driving licence without number is written as 37 bytes, which the reader refuses. -/
theorem licence_without_number (m : DrivingLicenceInfo) (h1 : Has (TextOk 35) m.authority) (h2 : Named nationNumericTable m.nation)
    (h3 : m.number = none) :
    ∃ e, e.length = 37 ∧ WritesBytes (appendDrivingLicenceInfo · (some m)) e ∧ ∃ msg, unmarshalDrivingLicenceInfo e = .err msg := by
  obtain ⟨a, ha, ha'⟩ := h1
  obtain ⟨b, b1, b2⟩ := named_byte (by decide) h2
  obtain ⟨A, a', A1, A2, A3, A4⟩ := text_write (by omega) (by omega) ha'
  have hl : (A ++ [b]).length = 37 := by simp [A1]
  refine ⟨_, hl, fun dst => ?_, _, by rw [unmarshalDrivingLicenceInfo, if_pos (by omega)]; rfl⟩
  simp only [appendDrivingLicenceInfo, ha, h3, b1]
  rw [show ∀ d, appendStringValue d (some a) = .ok (d ++ A) from A2, Res.bind_ok, Res.bind_ok]
  simp [appendIa5StringValue]

/-- C62: EF_Control_Activity_Data has room for 18 characters of card number, but as many are written as the number
has: 14 for a driver number, 13 for the owner number of a workshop or company card. The file is then 42 or 41 bytes
long, and the reader refuses it. -/
theorem control_short (m : ControlActivity) (hv : m.valid = true) (h3 : TimeOk m.controlTime) (h6 : TimeOk m.periodBegin) (h7 : TimeOk m.periodEnd)
    (hr : Has RegOk m.registration) (c : FullCardNumberAndGeneration) (n : FullCardNumber) (hc : m.cardNumber = some c) (hn : c.number = some n)
    (w : Nat) (hw : (n.cardType = equipmentType_driverCard ∧ w = 14 ∧ Has (fun d => Has (Ia5Ok 14) d.number) n.driver) ∨
      ((n.cardType = equipmentType_workshopCard ∨ n.cardType = equipmentType_companyCard) ∧ w = 13 ∧
        Has (fun o => Has (Ia5Ok 13) o.owner) n.owner)) :
    ∃ e, e.length = 28 + w ∧ WritesBytes (appendControlActivity · (some m)) e ∧ ∃ msg, unmarshalControlActivity e = .err msg := by
  obtain ⟨T, T1, T2, T3⟩ := time_write h3
  obtain ⟨B, B1, B2, B3⟩ := time_write h6
  obtain ⟨E, E1, E2, E3⟩ := time_write h7
  obtain ⟨v, hv', hv''⟩ := hr
  obtain ⟨V, v', V1, V2, V3, V4⟩ := registration_write_read v hv''
  obtain ⟨N, N1, N2⟩ : ∃ N : Bytes, N.length = w ∧ ∀ dst, appendFullCardNumberAsString dst (some n) = .ok (dst ++ N) := by
    rcases hw with ⟨ht, rfl, d, hd, s, hs, hs'⟩ | ⟨ht, rfl, o, ho, s, hs, hs'⟩
    · obtain ⟨N, _, N1, N2, _⟩ := ia5_write (by omega) (by omega) hs'
      refine ⟨N, N1, fun dst => ?_⟩
      simp only [appendFullCardNumberAsString, ht, if_pos, hd, hs]
      exact N2 dst
    · obtain ⟨N, _, N1, N2, _⟩ := ia5_write (by omega) (by omega) hs'
      refine ⟨N, N1, fun dst => ?_⟩
      have hne : n.cardType ≠ equipmentType_driverCard := by
        rcases ht with h | h <;> rw [h] <;> decide
      simp only [appendFullCardNumberAsString, if_neg hne, if_pos ht, ho, hs]
      exact N2 dst
  have hw18 : w < 18 := by rcases hw with ⟨_, rfl, _⟩ | ⟨_, rfl, _⟩ <;> omega
  obtain ⟨b, hb⟩ : ∃ b : UInt8, ∀ dst, appendControlActivity dst (some m) = (appendTimeReal (dst ++ [b]) m.controlTime >>= fun dst =>
      appendFullCardNumberAsString dst (m.cardNumber.bind (·.number)) >>= fun dst => appendVehicleRegistration dst m.registration >>= fun dst =>
      appendTimeReal dst m.periodBegin >>= fun dst => appendTimeReal dst m.periodEnd) := by
    cases hct : m.controlType with
    | none => exact ⟨0, fun dst => by simp only [appendControlActivity, hv, Bool.true_eq_false, if_false, hct]⟩
    | some t =>
      exact ⟨(if t.cardDownloading then 0x80 else 0) ||| (if t.vuDownloading then 0x40 else 0) ||| (if t.printing then 0x20 else 0) |||
        (if t.display then 0x10 else 0) ||| (if t.calibrationChecking then 0x08 else 0),
        fun dst => by simp only [appendControlActivity, hv, Bool.true_eq_false, if_false, hct]⟩
  have hl : ([b] ++ (T ++ (N ++ (V ++ (B ++ E))))).length = 28 + w := by simp [T1, N1, V1, B1, E1]; omega
  refine ⟨_, hl, fun dst => ?_, _, by rw [unmarshalControlActivity, if_pos (by omega)]; rfl⟩
  simp only [hb, hv', hc, Option.bind_some, hn]
  rw [show ∀ d, appendTimeReal d m.controlTime = .ok (d ++ T) from T2, Res.bind_ok, N2, Res.bind_ok,
    show ∀ d, appendVehicleRegistration d (some v) = .ok (d ++ V) from V2, Res.bind_ok,
    show ∀ d, appendTimeReal d m.periodBegin = .ok (d ++ B) from B2, Res.bind_ok,
    show ∀ d, appendTimeReal d m.periodEnd = .ok (d ++ E) from E2]
  simp

/-- C62: an empty control (not valid): the raw bytes if there are 46 of them, zeros otherwise; both are read as empty again
provided the time in the raw bytes is zero. -/
theorem control_empty (m : ControlActivity) (hv : m.valid = false) :
    WritesBytes (appendControlActivity · (some m))
      (if (m.rawData.getD []).length = 46 then m.rawData.getD [] else List.replicate 46 0) := by
  intro dst
  simp only [appendControlActivity, hv, if_pos]
  by_cases h : (m.rawData.getD []).length = 46
  · rw [if_neg (by omega), if_pos h]
  · rw [if_pos h, if_neg h]; rfl

/-- C62: EF_Identification without first names (or surname) is 108 bytes long, and refused. -/
theorem identification_without_firstNames (i : Identification) (c : CardIdent) (d : DriverHolder) (hc : i.card = some c)
    (hd : i.driverHolder = some d) (hc' : CardIdentOk c) (hs : Has (TextOk 35) d.surname) (hf : d.firstNames = none)
    (hb : Has DateOk d.birthDate) (hl : Has (Ia5Ok 2) d.language) :
    ∃ e, e.length = 108 ∧ WritesBytes (appendIdentification · i) e ∧ ∃ msg, unmarshalIdentification e = .err msg := by
  obtain ⟨N, ct, dr, ow, N1, N2, N3, N4, N5⟩ := cardNumberBytes_write hc'
  obtain ⟨hn, _, ⟨a, ha, ha'⟩, h1, h2, h3⟩ := hc'
  obtain ⟨s, hs, hs'⟩ := hs
  obtain ⟨bd, hbd, hbd'⟩ := hb
  obtain ⟨l, hl, hl'⟩ := hl
  obtain ⟨b, b1, b2⟩ := named_byte (by decide) hn
  obtain ⟨A, a', A1, A2, A3, A4⟩ := text_write (by omega) (by omega) ha'
  obtain ⟨T, T1, T2, T3⟩ := time_write h1
  obtain ⟨U, U1, U2, U3⟩ := time_write h2
  obtain ⟨V, V1, V2, V3⟩ := time_write h3
  obtain ⟨S, s', S1, S2, S3, S4⟩ := text_write (by omega) (by omega) hs'
  obtain ⟨B, bd', B1, B2, B3, B4⟩ := date_write hbd'
  obtain ⟨L, l', L1, L2, L3, L4⟩ := ia5_write (by omega) (by omega) hl'
  have hlen : ([b] ++ (N ++ (A ++ (T ++ (U ++ (V ++ (S ++ ([0xFF] ++ (B ++ L))))))))).length = 108 := by
    simp [N1, A1, T1, U1, V1, S1, B1, L1]
  have hun : c.issuingState ≠ enumUnrecognized := named_ne (by decide) (by decide) hn
  refine ⟨_, hlen, fun dst => ?_, _, by rw [unmarshalIdentification, if_pos (by omega)]; rfl⟩
  simp only [appendIdentification, appendCardIdentification, appendDriverHolder, hc, hd, ha, hs, hf, hbd, hl, if_neg hun, b1, N2, Res.bind_ok]
  rw [show ∀ d, appendStringValue d (some a) = .ok (d ++ A) from A2, Res.bind_ok,
    show ∀ d, appendTimeReal d c.issueDate = .ok (d ++ T) from T2, Res.bind_ok,
    show ∀ d, appendTimeReal d c.validityBegin = .ok (d ++ U) from U2, Res.bind_ok,
    show ∀ d, appendTimeReal d c.expiryDate = .ok (d ++ V) from V2, Res.bind_ok,
    show ∀ d, appendStringValue d (some s) = .ok (d ++ S) from S2, Res.bind_ok,
    show ∀ d, appendStringValue d none = .ok (d ++ [0xFF]) from fun _ => rfl, Res.bind_ok,
    show ∀ d, appendDate d bd = .ok (d ++ B) from B2, Res.bind_ok,
    show ∀ d, appendIa5StringValue d (some l) = .ok (d ++ L) from L2]
  simp

/-- C62: EF_Identification without a birth date is written with zeros in its place, and read back with a birth date of
day 0, month 0, year 0; the rest is the same. -/
theorem identification_without_birthDate (i : Identification) (c : CardIdent) (d : DriverHolder) (hc : i.card = some c)
    (hd : i.driverHolder = some d) (hc' : CardIdentOk c) (hs : Has (TextOk 35) d.surname) (hf : Has (TextOk 35) d.firstNames)
    (hb : d.birthDate = none) (hl : Has (Ia5Ok 2) d.language) :
    ∃ e i' h', e.length = 143 ∧ sl e 137 141 = zeros 4 ∧ WritesBytes (appendIdentification · i) e ∧ unmarshalIdentification e = .ok i' ∧
      Both SameCardIdent i.card i'.card ∧ i'.driverHolder = some h' ∧ h'.birthDate = some ⟨some (zeros 4), 0, 0, 0⟩ ∧
      Both SameText d.surname h'.surname ∧ Both SameText d.firstNames h'.firstNames ∧ Both SameIa5 d.language h'.language := by
  obtain ⟨N, ct, dr, ow, N1, N2, N3, N4, N5⟩ := cardNumberBytes_write hc'
  obtain ⟨hn, _, ⟨a, ha, ha'⟩, h1, h2, h3⟩ := hc'
  obtain ⟨s, hs, hs'⟩ := hs
  obtain ⟨f, hf, hf'⟩ := hf
  obtain ⟨l, hl, hl'⟩ := hl
  obtain ⟨b, b1, b2⟩ := named_byte (by decide) hn
  obtain ⟨A, a', A1, A2, A3, A4⟩ := text_write (by omega) (by omega) ha'
  obtain ⟨T, T1, T2, T3⟩ := time_write h1
  obtain ⟨U, U1, U2, U3⟩ := time_write h2
  obtain ⟨V, V1, V2, V3⟩ := time_write h3
  obtain ⟨S, s', S1, S2, S3, S4⟩ := text_write (by omega) (by omega) hs'
  obtain ⟨F, f', F1, F2, F3, F4⟩ := text_write (by omega) (by omega) hf'
  obtain ⟨L, l', L1, L2, L3, L4⟩ := ia5_write (by omega) (by omega) hl'
  have B1 : (zeros 4).length = 4 := rfl
  have B3 : unmarshalDate (zeros 4) = .ok ⟨some (zeros 4), 0, 0, 0⟩ := by decide +kernel
  generalize hZ : zeros 4 = B at B1 B3
  have hlen : ([b] ++ (N ++ (A ++ (T ++ (U ++ (V ++ (S ++ (F ++ (B ++ L))))))))).length = 143 := by
    simp [N1, A1, T1, U1, V1, S1, F1, B1, L1]
  have hun : c.issuingState ≠ enumUnrecognized := named_ne (by decide) (by decide) hn
  refine ⟨_, ⟨ct, some ⟨c.issuingState, dr, ow, some a', c.issueDate, c.validityBegin, c.expiryDate⟩, some ⟨some s', some f', some ⟨some B, 0, 0, 0⟩, some l'⟩⟩,
    _, hlen, ?_, fun dst => ?_, ?_, ⟨c, _, hc, rfl, rfl, N5, ⟨a, a', ha, rfl, A4⟩, rfl, rfl, rfl⟩, rfl, rfl,
    ⟨s, s', hs, rfl, S4⟩, ⟨f, f', hf, rfl, F4⟩, l, l', hl, rfl, L4⟩
  · have : sl? ([b] ++ (N ++ (A ++ (T ++ (U ++ (V ++ (S ++ (F ++ (B ++ L))))))))) 137 141 = .ok B := by
      simp only [sl?_next, sl?_tail N1, sl?_tail A1, sl?_tail T1, sl?_tail U1, sl?_tail V1, sl?_tail S1, sl?_tail F1, sl?_head B1,
        Nat.le_refl, Nat.reduceLeDiff, Nat.reduceAdd, Nat.reduceSub]
    exact (sl?_iff.1 this).2.2.symm
  · simp only [appendIdentification, appendCardIdentification, appendDriverHolder, hc, hd, ha, hs, hf, hb, hl, if_neg hun, b1, N2, Res.bind_ok]
    rw [show ∀ d, appendStringValue d (some a) = .ok (d ++ A) from A2, Res.bind_ok,
      show ∀ d, appendTimeReal d c.issueDate = .ok (d ++ T) from T2, Res.bind_ok,
      show ∀ d, appendTimeReal d c.validityBegin = .ok (d ++ U) from U2, Res.bind_ok,
      show ∀ d, appendTimeReal d c.expiryDate = .ok (d ++ V) from V2, Res.bind_ok,
      show ∀ d, appendStringValue d (some s) = .ok (d ++ S) from S2, Res.bind_ok,
      show ∀ d, appendStringValue d (some f) = .ok (d ++ F) from F2, Res.bind_ok,
      show ([0, 0, 0, 0] : Bytes) = B from hZ,
      show ∀ d, appendIa5StringValue d (some l) = .ok (d ++ L) from L2]
    simp
  · simp only [unmarshalIdentification, hlen, Nat.lt_irrefl, if_false, Res.bind_ok, Res.pure_eq, at?_head, sl?_next, sl?_head N1, sl?_tail N1,
      sl?_head A1, sl?_tail A1, sl?_head T1, sl?_tail T1, sl?_head U1, sl?_tail U1, sl?_head V1, sl?_tail V1, sl?_head S1, sl?_tail S1,
      sl?_head F1, sl?_tail F1, sl?_head B1, sl?_tail B1, sl?_all L1, Nat.le_refl, Nat.reduceLeDiff, Nat.reduceAdd, Nat.reduceSub,
      N3, A3, T3, U3, V3, S3, F3, B3, L3, enumOr1_of b2]

/-- C62: a full card number without its number part is the generation byte alone, and refused. -/
theorem cardNumberGen_without_number (g : Int) (hg : Named generationTable g) :
    ∃ b, WritesBytes (appendFullCardNumberAndGeneration · (some ⟨none, g⟩)) [b] ∧
      ∀ m, unmarshalFullCardNumberAndGeneration [b] ≠ .ok m := by
  obtain ⟨b, b1, b2⟩ := named_byte (by decide) hg
  refine ⟨b, fun dst => by simp [appendFullCardNumberAndGeneration, b1], fun m hm => ?_⟩
  have : unmarshalFullCardNumber [] = .err _ := rfl
  simp [unmarshalFullCardNumberAndGeneration, at?_single, b2, sl?_ok (d := [b]) (lo := 0) (hi := 0) (by omega) (by simp), sl, this] at hm

end

end Tacho
