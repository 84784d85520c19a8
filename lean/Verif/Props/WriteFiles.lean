import Verif.Props.WriteRecords
import Verif.Props.ScannedFiles
import Verif.Props.Anonymize
import Verif.Spec.WriteFiles
/-!
# C61: elementary files

For every file of a driver card except the activity ring: writing succeeds whenever the values fit, and
reading the output gives the message back.
-/

namespace Tacho
open Spec

/-! ## Fixed files -/

/-- C61: EF_Card_Download. -/
theorem cardDownload_write_read (m : CardDownload) (h : TimeOk m.timestamp) :
    ∃ e, e.length = 4 ∧ WritesBytes (appendCardDownload · (some m)) e ∧ unmarshalCardDownload e = .ok m := by
  obtain ⟨t, t1, t2, t3⟩ := time_write h
  refine ⟨t, t1, fun dst => t2 dst, ?_⟩
  simp only [unmarshalCardDownload, t1, Nat.lt_irrefl, if_false, Res.bind_ok, Res.pure_eq, sl?_all t1, t3]

/-- C61: EF_IC. -/
theorem ic_write_read (m : Ic) (h1 : m.serialNumber.length = 4) (h2 : m.manufacturingReferences.length = 4) :
    ∃ e, e.length = 8 ∧ WritesBytes (appendCardIc · (some m)) e ∧ unmarshalIc e = .ok m := by
  refine ⟨m.serialNumber ++ m.manufacturingReferences, by simp [h1, h2], fun dst => ?_, ?_⟩
  · simp [appendCardIc, fit4, h1, h2, List.take_of_length_le]
  · have hl : (m.serialNumber ++ m.manufacturingReferences).length = 8 := by simp [h1, h2]
    simp only [unmarshalIc, hl, Nat.lt_irrefl, if_false, Res.bind_ok, Res.pure_eq, sl?_head h1, sl?_tail h1, Nat.le_refl,
      Nat.reduceLeDiff, Nat.reduceSub, sl?_all h2]

/-- The serial number as EF_ICC writes it. -/
theorem serialString_write {m : ExtendedSerialNumber} (h : SerialOk m) :
    ∃ (s e : Bytes) (y : MonthYear) (b : UInt8), s.length = 4 ∧ e.length = 2 ∧
      WritesBytes (appendExtendedSerialNumberAsString · (some m)) (s ++ (e ++ ([b] ++ [i2b m.manufacturerCode]))) ∧
      (beNat s : Int) = m.serialNumber ∧ unmarshalMonthYear e = .ok y ∧ Both SameMonthYear m.monthYear (some y) ∧
      unmarshalEnum equipmentTypeTable b = .ok m.type := by
  obtain ⟨h1, ⟨y, hy, hy'⟩, h3, h4⟩ := h
  obtain ⟨l1, l2⟩ := low_fits (by omega) h1
  obtain ⟨b, b1, b2⟩ := named_byte (by decide) h3
  obtain ⟨e, y', e1, e2, e3, e4⟩ := monthYear_write hy'
  have h10 := h1.1
  have hn : (beNat (beBytes 4 (low 32 m.serialNumber)) : Int) = m.serialNumber := by
    rw [l1, beNat_beBytes_of_lt (by omega)]
    omega
  refine ⟨beBytes 4 (low 32 m.serialNumber), e, y', b, by simp, e1, fun dst => ?_, hn, e3, ⟨y, y', hy, rfl, e4⟩, b2⟩
  have hs : (if m.serialNumber ≠ 0 then beBytes 4 (low 32 m.serialNumber) else zeros 4) = beBytes 4 (low 32 m.serialNumber) := by
    split
    · rfl
    · rename_i hz
      have hz : m.serialNumber = 0 := by simpa using hz
      rw [hz]; decide
  have hc : (if m.manufacturerCode ≠ 0 then i2b m.manufacturerCode else 0) = i2b m.manufacturerCode := by
    split
    · rfl
    · rename_i hz
      have hz : m.manufacturerCode = 0 := by simpa using hz
      rw [hz]; decide
  have ht : m.type ≠ enumUnspecified := by
    intro hz
    rw [hz, show marshalEnum equipmentTypeTable enumUnspecified = .err _ from rfl] at b1
    cases b1
  simp only [appendExtendedSerialNumberAsString, hs, hc, hy, Option.getD_some, if_pos ht, b1]
  rw [show appendMonthYear [] y = .ok e from writesBytes_nil e2]
  simp [e1, List.take_of_length_le]

/-- C61: EF_ICC. -/
theorem icc_write_read (m : Icc) (h : IccOk m) :
    ∃ e m', e.length = 25 ∧ WritesBytes (appendIcc · m) e ∧ unmarshalIcc e = .ok m' ∧ SameIcc m m' := by
  obtain ⟨h1, ⟨sn, hsn, hsn'⟩, ⟨ap, hap, hap'⟩, h4, ⟨em, hem, ⟨cc, hcc, hcc'⟩, ⟨me, hme, hme'⟩, h5⟩, h6⟩ := h
  obtain ⟨c, c1, c2⟩ := named_byte (by decide) h1
  obtain ⟨s, y, my, t, s1, y1, s2, s3, y3, y4, t3⟩ := serialString_write hsn'
  obtain ⟨A, ap', A1, A2, A3, A4⟩ := ia5_write (by omega) (by omega) hap'
  obtain ⟨C, cc', C1, C2, C3, C4⟩ := ia5_write (by omega) (by omega) hcc'
  obtain ⟨M, me', M1, M2, M3, M4⟩ := ia5_write (by omega) (by omega) hme'
  have hl : ([c] ++ ((s ++ (y ++ ([t] ++ [i2b sn.manufacturerCode]))) ++ (A ++ ([i2b m.personaliserId] ++
      ((C ++ (M ++ [i2b em.manufacturerInformation])) ++ m.icIdentifier))))).length = 25 := by
    simp [s1, y1, A1, C1, M1, h6]
  have l2 : (s ++ (y ++ ([t] ++ [i2b sn.manufacturerCode]))).length = 8 := by simp [s1, y1]
  have l3 : (C ++ (M ++ [i2b em.manufacturerInformation])).length = 5 := by simp [C1, M1]
  refine ⟨_, ⟨m.clockStop, some ⟨sn.serialNumber, some my, sn.type, sn.manufacturerCode⟩, some ap', m.personaliserId,
    some ⟨some cc', some me', em.manufacturerInformation⟩, m.icIdentifier⟩, hl, fun dst => ?_, ?_, rfl, ⟨sn, _, hsn, rfl, rfl, y4, rfl, rfl⟩,
    ⟨ap, ap', hap, rfl, A4⟩, rfl, ⟨em, _, hem, rfl, ⟨cc, cc', hcc, rfl, C4⟩, ⟨me, me', hme, rfl, M4⟩, rfl⟩, rfl⟩
  · simp only [appendIcc, c1, hsn, hap, hem, Res.bind_ok]
    rw [show appendExtendedSerialNumberAsString (dst ++ [c]) (some sn) = .ok (dst ++ [c] ++ (s ++ (y ++ ([t] ++ [i2b sn.manufacturerCode])))) from s2 _,
      Res.bind_ok, show appendIa5StringValue (dst ++ [c] ++ (s ++ (y ++ ([t] ++ [i2b sn.manufacturerCode])))) (some ap) = _ from A2 _, Res.bind_ok]
    simp only [appendEmbedderId, hcc, hme]
    rw [show ∀ d, appendIa5StringValue d (some cc) = .ok (d ++ C) from C2, Res.bind_ok,
      show ∀ d, appendIa5StringValue d (some me) = .ok (d ++ M) from M2, Res.bind_ok]
    simp
  · have hf := byte_fits h4
    have hf2 := byte_fits h5
    have hf3 := byte_fits hsn'.2.2.2
    simp only [unmarshalIcc, hl, Nat.lt_irrefl, if_false, Res.bind_ok, Res.pure_eq, at?_head, c2, sl?_next, sl?_head l2, sl?_head s1,
      sl?_tail s1, sl?_head y1, at?_tail s1, at?_tail y1, at?_next, at?_single, sl?_tail l2, sl?_head A1, at?_tail l2, at?_tail A1, sl?_tail A1,
      sl?_head l3, sl?_tail l3, sl?_head C1, sl?_tail C1, sl?_head M1, at?_tail C1, at?_tail M1, Nat.le_refl, Nat.reduceLeDiff, Nat.reduceSub,
      sl?_all h6, s3, y3, t3, A3, C3, M3, hf, hf2, hf3]

/-- C61: without an embedder five zero bytes are written in its place and nothing else changes. -/
theorem icc_without_embedder (m : Icc) (h : IccOk m) : ∃ a x b, a.length = 18 ∧ x.length = 5 ∧ b.length = 2 ∧
    WritesBytes (appendIcc · m) (a ++ (x ++ b)) ∧ WritesBytes (appendIcc · { m with embedder := none }) (a ++ ([0, 0, 0, 0, 0] ++ b)) := by
  obtain ⟨h1, ⟨sn, hsn, hsn'⟩, ⟨ap, hap, hap'⟩, h4, ⟨em, hem, ⟨cc, hcc, hcc'⟩, ⟨me, hme, hme'⟩, h5⟩, h6⟩ := h
  obtain ⟨c, c1, c2⟩ := named_byte (by decide) h1
  obtain ⟨s, y, my, t, s1, y1, s2, s3, y3, y4, t3⟩ := serialString_write hsn'
  obtain ⟨A, ap', A1, A2, A3, A4⟩ := ia5_write (by omega) (by omega) hap'
  obtain ⟨C, cc', C1, C2, C3, C4⟩ := ia5_write (by omega) (by omega) hcc'
  obtain ⟨M, me', M1, M2, M3, M4⟩ := ia5_write (by omega) (by omega) hme'
  refine ⟨[c] ++ ((s ++ (y ++ ([t] ++ [i2b sn.manufacturerCode]))) ++ (A ++ [i2b m.personaliserId])), C ++ (M ++ [i2b em.manufacturerInformation]),
    m.icIdentifier, by simp [s1, y1, A1], by simp [C1, M1], h6, fun dst => ?_, fun dst => ?_⟩
  · simp only [appendIcc, c1, hsn, hap, hem, Res.bind_ok]
    rw [show ∀ d, appendExtendedSerialNumberAsString d (some sn) = .ok (d ++ (s ++ (y ++ ([t] ++ [i2b sn.manufacturerCode])))) from s2,
      Res.bind_ok, show ∀ d, appendIa5StringValue d (some ap) = .ok (d ++ A) from A2, Res.bind_ok]
    simp only [appendEmbedderId, hcc, hme]
    rw [show ∀ d, appendIa5StringValue d (some cc) = .ok (d ++ C) from C2, Res.bind_ok,
      show ∀ d, appendIa5StringValue d (some me) = .ok (d ++ M) from M2, Res.bind_ok]
    simp
  · simp only [appendIcc, c1, hsn, hap, Res.bind_ok]
    rw [show ∀ d, appendExtendedSerialNumberAsString d (some sn) = .ok (d ++ (s ++ (y ++ ([t] ++ [i2b sn.manufacturerCode])))) from s2,
      Res.bind_ok, show ∀ d, appendIa5StringValue d (some ap) = .ok (d ++ A) from A2, Res.bind_ok]
    simp [appendEmbedderId, zeros]

theorem version_write {v : CardStructureVersion} (h : VersionOk v) :
    ∃ e v', e.length = 2 ∧ WritesBytes (appendCardStructureVersion · v) e ∧ unmarshalCardStructureVersion e = .ok v' ∧ SameVersion v v' := by
  obtain ⟨raw, a, b⟩ := v
  obtain ⟨hr, a0, a1, b0, b1⟩ := h
  simp only at hr a0 a1 b0 b1
  obtain ⟨a, rfl⟩ : ∃ k : Nat, a = k := ⟨a.toNat, by omega⟩
  obtain ⟨b, rfl⟩ : ∃ k : Nat, b = k := ⟨b.toNat, by omega⟩
  have p : ∀ n : Nat, n < 160 → i2b ((n : Int).tdiv 10 * 16) ||| i2b ((n : Int).tmod 10) = UInt8.ofNat (n / 10 * 16 + n % 10) :=
    fun n hn => packNib_eq (a := n / 10) (b := n % 10) (by omega) (by omega)
  have q : ∀ n : Nat, n < 160 → bcd2 (UInt8.ofNat (n / 10 * 16 + n % 10)) = n := by
    intro n hn
    unfold bcd2
    rw [toNat_ofNat_lt (by omega)]
    omega
  have hc : ∃ c, canvasOf raw 2 = .ok c := by
    cases raw with
    | none => exact ⟨_, rfl⟩
    | some r => exact ⟨r, by simp [canvasOf, hr r rfl]⟩
  obtain ⟨c, hc⟩ := hc
  refine ⟨[UInt8.ofNat (a / 10 * 16 + a % 10), UInt8.ofNat (b / 10 * 16 + b % 10)], _, rfl, fun dst => ?_, rfl, ?_, ?_⟩
  · simp only [appendCardStructureVersion, hc, Res.bind_ok, Res.pure_eq]
    rw [p a (by omega), p b (by omega)]
  · exact q a (by omega)
  · exact q b (by omega)

theorem word_fits {v : Int} (h : Fits 16 v) : (beBytes 2 (low 16 v)).length = 2 ∧ (beNat (beBytes 2 (low 16 v)) : Int) = v := by
  have h1 := h.1
  have h2 := h.2
  refine ⟨by simp, ?_⟩
  rw [beNat_beBytes_of_lt (by unfold low; omega)]
  unfold low
  omega

theorem lax_of {t : EnumTable} {v : Int} {b : UInt8} (h : marshalEnum t v = .ok b) : marshalEnumLax t v = b := by
  simp [marshalEnumLax, h]

/-- C61: EF_Application_Identification. -/
theorem appId_write_read (m : AppId) (h1 : Named equipmentTypeTable m.typeOfCard) (h2 : Has VersionOk m.structureVersion)
    (h3 : Has CountsOk m.driver) :
    ∃ e m', e.length = 10 ∧ WritesBytes (appendAppId · (some m)) e ∧ unmarshalAppId e = .ok m' ∧ m'.typeOfCard = m.typeOfCard ∧
      Both SameVersion m.structureVersion m'.structureVersion ∧ m'.driver = m.driver := by
  obtain ⟨v, hv, hv'⟩ := h2
  obtain ⟨d, hd, d1, d2, d3, d4, d5⟩ := h3
  obtain ⟨b, b1, b2⟩ := named_byte (by decide) h1
  obtain ⟨e, v', e1, e2, e3, e4⟩ := version_write hv'
  obtain ⟨A1, A2⟩ := word_fits d3
  obtain ⟨B1, B2⟩ := word_fits d4
  have hl : ([b] ++ (e ++ ([i2b d.eventsPerType] ++ ([i2b d.faultsPerType] ++ (beBytes 2 (low 16 d.activityLength) ++
      (beBytes 2 (low 16 d.vehicleRecords) ++ [i2b d.placeRecords])))))).length = 10 := by simp [e1]
  refine ⟨_, ⟨m.typeOfCard, some v', some d⟩, hl, fun dst => ?_, ?_, rfl, ⟨v, v', hv, rfl, e4⟩, hd.symm⟩
  · simp only [appendAppId, lax_of b1, hv, hd]
    rw [show appendCardStructureVersion (dst ++ [b]) v = .ok (dst ++ [b] ++ e) from e2 _]
    simp
  · simp only [unmarshalAppId, hl, ne_eq, not_true_eq_false, if_false, Res.bind_ok, Res.pure_eq, at?_head, b2, sl?_next, at?_next,
      sl?_head e1, sl?_tail e1, at?_tail e1, sl?_head A1, sl?_tail A1, at?_tail A1, sl?_head B1, at?_tail B1, at?_single, Nat.le_refl,
      Nat.reduceLeDiff, Nat.reduceSub, e3, A2, B2, byte_fits d1, byte_fits d2, byte_fits d5]

/-- C61: EF_Application_Identification of the second generation. -/
theorem appIdG2_write_read (m : AppIdG2) (h1 : Named equipmentTypeTable m.typeOfCard) (h2 : Has VersionOk m.structureVersion)
    (h3 : Has CountsG2Ok m.driver) :
    ∃ e m', e.length = 17 ∧ WritesBytes (appendAppIdG2 · (some m)) e ∧ unmarshalAppIdG2 e = .ok m' ∧ m'.typeOfCard = m.typeOfCard ∧
      Both SameVersion m.structureVersion m'.structureVersion ∧ m'.driver = m.driver := by
  obtain ⟨v, hv, hv'⟩ := h2
  obtain ⟨d, hd, d1, d2, d3, d4, d5, d6, d7, d8⟩ := h3
  obtain ⟨b, b1, b2⟩ := named_byte (by decide) h1
  obtain ⟨e, v', e1, e2, e3, e4⟩ := version_write hv'
  obtain ⟨A1, A2⟩ := word_fits d3
  obtain ⟨B1, B2⟩ := word_fits d4
  obtain ⟨C1, C2⟩ := word_fits d5
  obtain ⟨D1, D2⟩ := word_fits d6
  obtain ⟨E1, E2⟩ := word_fits d7
  obtain ⟨F1, F2⟩ := word_fits d8
  have hl : ([b] ++ (e ++ ([i2b d.eventsPerType] ++ ([i2b d.faultsPerType] ++ (beBytes 2 (low 16 d.activityLength) ++
      (beBytes 2 (low 16 d.vehicleRecords) ++ (beBytes 2 (low 16 d.placeRecords) ++ (beBytes 2 (low 16 d.gnssRecords) ++
      (beBytes 2 (low 16 d.conditionRecords) ++ beBytes 2 (low 16 d.vehicleUnitRecords)))))))))).length = 17 := by simp [e1]
  refine ⟨_, ⟨m.typeOfCard, some v', some d⟩, hl, fun dst => ?_, ?_, rfl, ⟨v, v', hv, rfl, e4⟩, hd.symm⟩
  · simp only [appendAppIdG2, lax_of b1, hv, hd]
    rw [show appendCardStructureVersion (dst ++ [b]) v = .ok (dst ++ [b] ++ e) from e2 _]
    simp
  · simp only [unmarshalAppIdG2, hl, ne_eq, not_true_eq_false, if_false, Res.bind_ok, Res.pure_eq, at?_head, b2, sl?_next, at?_next,
      sl?_head e1, sl?_tail e1, at?_tail e1, sl?_head A1, sl?_tail A1, sl?_head B1, sl?_tail B1, sl?_head C1, sl?_tail C1,
      sl?_head D1, sl?_tail D1, sl?_head E1, sl?_tail E1, Nat.le_refl,
      Nat.reduceLeDiff, Nat.reduceSub, sl?_all F1, e3, A2, B2, C2, D2, E2, F2, byte_fits d1, byte_fits d2]

/-- C61: what is written in place of a missing structure version (0001) and of missing sizes (zeros). -/
theorem appId_missing (m : AppId) (h1 : Named equipmentTypeTable m.typeOfCard) (h2 : m.structureVersion = none) (h3 : m.driver = none) :
    ∃ b, WritesBytes (appendAppId · (some m)) [b, 0, 1, 0, 0, 0, 0, 0, 0, 0] ∧ unmarshalEnum equipmentTypeTable b = .ok m.typeOfCard := by
  obtain ⟨b, b1, b2⟩ := named_byte (by decide) h1
  exact ⟨b, fun dst => by simp [appendAppId, lax_of b1, h2, h3, zeros], b2⟩

/-- The same in the second generation, with 14 zero bytes. -/
theorem appIdG2_missing (m : AppIdG2) (h1 : Named equipmentTypeTable m.typeOfCard) (h2 : m.structureVersion = none) (h3 : m.driver = none) :
    ∃ b, WritesBytes (appendAppIdG2 · (some m)) [b, 0, 1, 0, 0, 0, 0, 0, 0, 0, 0, 0, 0, 0, 0, 0, 0] ∧
      unmarshalEnum equipmentTypeTable b = .ok m.typeOfCard := by
  obtain ⟨b, b1, b2⟩ := named_byte (by decide) h1
  exact ⟨b, fun dst => by simp [appendAppIdG2, lax_of b1, h2, h3, zeros], b2⟩

/-- C61: EF_Application_Identification_V2. -/
theorem appIdV2_write_read (m : AppIdV2) (h1 : Fits 8 m.borderCrossings) (h2 : Fits 8 m.loadUnload) (h3 : Fits 8 m.loadTypes)
    (h4 : Fits 8 m.vuConfigurationLength) :
    ∃ e, e.length = 4 ∧ WritesBytes (appendAppIdV2 · (some m)) e ∧ unmarshalAppIdV2 e = .ok m := by
  have hl : ([i2b m.borderCrossings] ++ ([i2b m.loadUnload] ++ ([i2b m.loadTypes] ++ [i2b m.vuConfigurationLength]))).length = 4 := rfl
  refine ⟨_, hl, fun dst => by simp [appendAppIdV2], ?_⟩
  simp only [unmarshalAppIdV2, hl, Nat.lt_irrefl, if_false, Res.bind_ok, Res.pure_eq, at?_head, at?_next, at?_single, Nat.le_refl,
    Nat.reduceLeDiff, Nat.reduceSub, byte_fits h1, byte_fits h2, byte_fits h3, byte_fits h4]

section
variable [Charmap]

/-- C61: EF_Current_Usage. -/
theorem currentUsage_write_read (m : CurrentUsage) (h : UsageOk m) :
    ∃ e m', e.length = 19 ∧ WritesBytes (appendCurrentUsage · (some m)) e ∧ unmarshalCurrentUsage e = .ok m' ∧ SameUsage m m' := by
  obtain ⟨h1, v, hv, hv'⟩ := h
  obtain ⟨t, t1, t2, t3⟩ := time_write h1
  obtain ⟨r, v', r1, r2, r3, r4⟩ := registration_write_read v hv'
  have hl : (t ++ r).length = 19 := by simp [t1, r1]
  refine ⟨t ++ r, ⟨m.openTime, some v'⟩, hl, fun dst => ?_, ?_, rfl, v, v', hv, rfl, r4⟩
  · simp only [appendCurrentUsage, hv]
    rw [show ∀ d, appendTimeReal d m.openTime = .ok (d ++ t) from t2, Res.bind_ok,
      show ∀ d, appendVehicleRegistration d (some v) = .ok (d ++ r) from r2, List.append_assoc]
  · simp only [unmarshalCurrentUsage, hl, Nat.lt_irrefl, if_false, Res.bind_ok, Res.pure_eq, sl?_head t1, sl?_tail t1, Nat.le_refl,
      Nat.reduceLeDiff, Nat.reduceSub, sl?_all r1, t3, r3]

/-- C61: without a vehicle, fifteen zero bytes follow the time. -/
theorem currentUsage_without_vehicle (m : CurrentUsage) (h1 : TimeOk m.openTime) (h2 : m.vehicle = none) :
    ∃ t, t.length = 4 ∧ unmarshalTimeReal t = .ok m.openTime ∧ WritesBytes (appendCurrentUsage · (some m)) (t ++ List.replicate 15 0) := by
  obtain ⟨t, t1, t2, t3⟩ := time_write h1
  refine ⟨t, t1, t3, fun dst => ?_⟩
  simp only [appendCurrentUsage, h2]
  rw [show ∀ d, appendTimeReal d m.openTime = .ok (d ++ t) from t2]
  simp [zeros]

/-- C61: EF_Driving_Licence_Info. -/
theorem licence_write_read (m : DrivingLicenceInfo) (h : LicenceOk m) :
    ∃ e m', e.length = 53 ∧ WritesBytes (appendDrivingLicenceInfo · (some m)) e ∧ unmarshalDrivingLicenceInfo e = .ok m' ∧ SameLicence m m' := by
  obtain ⟨⟨a, ha, ha'⟩, hn, n, hn1, hn2⟩ := h
  obtain ⟨A, a', A1, A2, A3, A4⟩ := text_write (by omega) (by omega) ha'
  obtain ⟨b, b1, b2⟩ := named_byte (by decide) hn
  obtain ⟨N, n', N1, N2, N3, N4⟩ := ia5_write (by omega) (by omega) hn2
  have hl : (A ++ ([b] ++ N)).length = 53 := by simp [A1, N1]
  refine ⟨_, ⟨some a', m.nation, some n'⟩, hl, fun dst => ?_, ?_, ⟨a, a', ha, rfl, A4⟩, rfl, n, n', hn1, rfl, N4⟩
  · simp only [appendDrivingLicenceInfo, ha, hn1, b1]
    rw [show ∀ d, appendStringValue d (some a) = .ok (d ++ A) from A2, Res.bind_ok, Res.bind_ok,
      show ∀ d, appendIa5StringValue d (some n) = .ok (d ++ N) from N2]
    simp
  · simp only [unmarshalDrivingLicenceInfo, hl, Nat.lt_irrefl, if_false, Res.bind_ok, Res.pure_eq, sl?_head A1, sl?_tail A1, at?_tail A1,
      at?_head, sl?_next, Nat.le_refl, Nat.reduceLeDiff, Nat.reduceAdd, Nat.reduceSub, sl?_all N1, A3, N3, enumOr1_of b2]

theorem control_flags : ∀ x1 x2 x3 x4 x5 : Bool,
    let b := (if x1 then (0x80 : UInt8) else 0) ||| (if x2 then 0x40 else 0) ||| (if x3 then 0x20 else 0) ||| (if x4 then 0x10 else 0) |||
      (if x5 then 0x08 else 0)
    (b &&& 0x80 != 0) = x1 ∧ (b &&& 0x40 != 0) = x2 ∧ (b &&& 0x20 != 0) = x3 ∧ (b &&& 0x10 != 0) = x4 ∧ (b &&& 0x08 != 0) = x5 := by
  decide

/-- C61: EF_Control_Activity_Data. -/
theorem control_write_read (m : ControlActivity) (h : ControlOk m) :
    ∃ e m', e.length = 46 ∧ WritesBytes (appendControlActivity · (some m)) e ∧ unmarshalControlActivity e = .ok m' ∧
      SameControlActivity m m' := by
  rcases h with h | ⟨h1, h2⟩
  swap
  · have hx : ∃ e : Bytes, e.length = 46 ∧ e = (if (m.rawData.getD []).length = 46 then m.rawData.getD [] else List.replicate 46 0) ∧
        sl e 1 5 = [0, 0, 0, 0] := by
      by_cases hr : (m.rawData.getD []).length = 46
      · exact ⟨m.rawData.getD [], hr, by rw [if_pos hr], h2 hr⟩
      · exact ⟨List.replicate 46 0, by simp, by rw [if_neg hr], by decide⟩
    obtain ⟨e, he, hee, hz⟩ := hx
    refine ⟨e, ⟨false, some e, none, none, none, none, none, none⟩, he, fun dst => ?_, ?_, h1.symm, ?_, ?_⟩
    · simp only [appendControlActivity, h1, if_true, hee]
      by_cases hr : (m.rawData.getD []).length = 46
      · simp [hr]
      · simp [hr, zeros]
    · have h15 : sl? e 1 5 = .ok [0, 0, 0, 0] := by
        rw [sl?_ok (by omega) (by omega), hz]
      simp only [unmarshalControlActivity, he, Nat.lt_irrefl, if_false, Res.bind_ok, h15, show beNat [0, 0, 0, 0] = 0 from by decide,
        if_true, Res.pure_eq]
    · intro hc; rw [h1] at hc; cases hc
    · intro _; rw [hee]
  obtain ⟨h1, ⟨c, hc⟩, h3, h3', ⟨n, hn, f, hf, hf1, d, hd, s, hs, hs'⟩, ⟨v, hv, hv'⟩, h6, h7⟩ := h
  obtain ⟨T, T1, T2, T3⟩ := time_write h3
  obtain ⟨N, s', N1, N2, N3, N4⟩ := ia5_write (by omega) (by omega) hs'
  obtain ⟨V, v', V1, V2, V3, V4⟩ := registration_write_read v hv'
  obtain ⟨B, B1, B2, B3⟩ := time_write h6
  obtain ⟨E, E1, E2, E3⟩ := time_write h7
  have hT : beNat T ≠ 0 := by
    intro hz
    simp only [unmarshalTimeReal, T1, ne_eq, not_true_eq_false, if_false, hz, if_pos, Res.ok.injEq] at T3
    exact h3' T3.symm
  generalize hb : ((if c.cardDownloading then (0x80 : UInt8) else 0) ||| (if c.vuDownloading then 0x40 else 0) |||
          (if c.printing then 0x20 else 0) ||| (if c.display then 0x10 else 0) |||
          (if c.calibrationChecking then 0x08 else 0)) = b
  have hct : ∃ c', unmarshalControlType [b] = .ok c' ∧ SameControl c c' := by
    refine ⟨_, rfl, ?_⟩
    obtain ⟨_, x1, x2, x3, x4, x5⟩ := c
    subst hb
    exact control_flags x1 x2 x3 x4 x5
  obtain ⟨c', hc1, hc2⟩ := hct
  have hb1 : ([b] : Bytes).length = 1 := rfl
  have hl : ([b] ++ (T ++ (N ++ (V ++ (B ++ E))))).length = 46 := by simp [T1, N1, V1, B1, E1]
  refine ⟨_, ⟨true, none, some c', m.controlTime, some ⟨some ⟨equipmentType_driverCard, 0, some ⟨some s', none, none⟩, none⟩, 1⟩, some v',
    m.periodBegin, m.periodEnd⟩, hl, fun dst => ?_, ?_, h1.symm, fun _ => ⟨⟨c, c', hc, rfl, hc2⟩, rfl,
    ⟨n, _, hn, rfl, f, _, hf, rfl, hf1.symm, d, _, hd, rfl, s, s', hs, rfl, N4⟩, ⟨v, v', hv, rfl, V4⟩, rfl, rfl⟩,
    fun hx => by rw [h1] at hx; cases hx⟩
  · have hfc : ∀ dst, appendFullCardNumberAsString dst (m.cardNumber.bind (·.number)) = .ok (dst ++ N) := by
      intro dst
      simp only [hn, Option.bind_some, hf, appendFullCardNumberAsString, hf1, if_pos, hd, hs]
      exact N2 dst
    simp only [appendControlActivity, h1, Bool.true_eq_false, if_false, hc, hb, hv]
    rw [show ∀ d, appendTimeReal d m.controlTime = .ok (d ++ T) from T2, Res.bind_ok, hfc, Res.bind_ok,
      show ∀ d, appendVehicleRegistration d (some v) = .ok (d ++ V) from V2, Res.bind_ok,
      show ∀ d, appendTimeReal d m.periodBegin = .ok (d ++ B) from B2, Res.bind_ok,
      show ∀ d, appendTimeReal d m.periodEnd = .ok (d ++ E) from E2]
    simp
  · simp only [unmarshalControlActivity, hl, Nat.lt_irrefl, if_false, Res.bind_ok, Res.pure_eq, sl?_next, sl?_head hb1, sl?_head T1, sl?_tail T1,
      sl?_head N1, sl?_tail N1, sl?_head V1, sl?_tail V1, sl?_head B1, sl?_tail B1, Nat.le_refl, Nat.reduceLeDiff, Nat.reduceSub,
      sl?_all E1, if_neg hT, hc1, T3, N3, V3, B3, E3]

end

end Tacho
