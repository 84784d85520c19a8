import Verif.Props.Append
import Verif.Spec.Fields
/-!
# The fields of decoded records are the bytes the layout assigns to them (C48), and examples
-/

namespace Tacho
open Spec

theorem timeReal_instant {d : Bytes} {t : Option Timestamp} (h : unmarshalTimeReal d = .ok t) : t = instant d := by
  have hl := (timeReal_accepts_iff d).mp ⟨t, h⟩
  rw [timeReal_value d hl, Res.ok.injEq] at h
  exact h.symm

theorem enumOrUnrecognized_coded (t : EnumTable) (b : UInt8) :
    Coded t b (enumOrUnrecognized t b).1 (enumOrUnrecognized t b).2 := by
  unfold enumOrUnrecognized
  by_cases h : Known t b
  · obtain ⟨v, hv⟩ := known_iff.mp h
    rw [hv]
    exact Or.inl ⟨unmarshalEnum_ok hv, rfl⟩
  · have hn : ∀ v, unmarshalEnum t b ≠ .ok v := fun v hv => h (known_iff.mpr ⟨v, hv⟩)
    right
    refine ⟨fun w hw => h ⟨w, hw⟩, ?_⟩
    cases hx : unmarshalEnum t b with
    | ok v => exact absurd hx (hn v)
    | err e => exact ⟨rfl, rfl⟩
    | panic => exact ⟨rfl, rfl⟩

theorem enumOr1_coded (t : EnumTable) (b : UInt8) : CodedLossy t b (enumOr1 t b) := by
  unfold enumOr1
  by_cases h : Known t b
  · obtain ⟨v, hv⟩ := known_iff.mp h
    rw [hv]
    exact Or.inl (unmarshalEnum_ok hv)
  · have hn : ∀ v, unmarshalEnum t b ≠ .ok v := fun v hv => h (known_iff.mpr ⟨v, hv⟩)
    right
    refine ⟨fun w hw => h ⟨w, hw⟩, ?_⟩
    cases hx : unmarshalEnum t b with
    | ok v => exact absurd hx (hn v)
    | err e => rfl
    | panic => rfl

theorem geo_fields {d : Bytes} {g : GeoCoordinates} (h : unmarshalGeoCoordinates d = .ok g) :
    IsInt24 (d.take 3) g.latitude ∧ IsInt24 (d.drop 3) g.longitude := by
  obtain ⟨hl, rfl⟩ := (geo_accepts_iff d g).mp h
  exact ⟨readInt24_spec _ (by simp; omega), readInt24_spec _ (by simp; omega)⟩

theorem bcd_pair_value {d : Bytes} (hl : d.length = 2) {s : BcdString} (h : unmarshalBcdString d = .ok s) :
    s = ⟨bcdPair d, 2⟩ := by
  match d, hl with
  | [x, y], _ =>
    have h0 : ¬ ([x, y] : Bytes).length = 0 := by simp
    simp only [unmarshalBcdString, h0, if_false, Res.pure_eq, bind_eq_ok, Res.ok.injEq] at h
    obtain ⟨v, hv, rfl⟩ := h
    obtain ⟨_, rfl, _⟩ := (bcd_decode_iff [x, y] v).mp hv
    have hx := byte_lt x
    have hy := byte_lt y
    have : Spec.decimal (Spec.hexDigits [x, y]) = (x.toNat / 16 * 10 + x.toNat % 16) * 100 + (y.toNat / 16 * 10 + y.toNat % 16) := by
      simp [Spec.decimal, Spec.hexDigits]
      try omega
    rw [this]
    simp only [bcdPair, List.foldl_cons, List.foldl_nil, List.length_cons, List.length_nil, Nat.zero_add, Nat.zero_mul]
    rw [wrap32_id (by omega) (by omega), wrap32_id (by omega) (by omega)]
    rfl

section
variable [Charmap]

/-- C48: byte 0 is the nation, bytes 1 to 14 the code-paged number. -/
theorem registration_fields (d : Bytes) (m : VehicleRegistration) (h : unmarshalVehicleRegistration d = .ok m) :
    ByteAt d 0 (fun b => CodedLossy nationNumericTable b m.nation) ∧
    ∃ s, m.number = some s ∧ unmarshalStringValue (sl d 1 15) = .ok s := by
  obtain ⟨n, c, t, rfl, hl, hn, s, hs, hm⟩ := registration_parse h
  refine ⟨⟨n, rfl, hn ▸ enumOr1_coded _ n⟩, s, hm, ?_⟩
  rw [← hs, sl_to_end (by simp; omega)]
  rfl

theorem holderName_fields (d : Bytes) (m : HolderName) (h : unmarshalHolderName d = .ok m) :
    (∃ s, m.surname = some s ∧ unmarshalStringValue (sl d 0 36) = .ok s) ∧
    (∃ s, m.firstNames = some s ∧ unmarshalStringValue (sl d 36 72) = .ok s) := by
  obtain ⟨_, s, f, hs, hf, rfl⟩ := holderName_parse h
  exact ⟨⟨s, rfl, hs⟩, f, rfl, hf⟩

theorem driverIdentification_fields (d : Bytes) (m : DriverIdentification)
    (h : unmarshalDriverIdentification d = .ok m) :
    ∃ s, m.number = some s ∧ unmarshalIa5StringValue d = .ok s := by
  obtain ⟨_, s, hs, rfl⟩ := driverIdentification_parse h
  exact ⟨s, rfl, hs⟩

theorem ownerIdentification_fields (d : Bytes) (m : OwnerIdentification)
    (h : unmarshalOwnerIdentification d = .ok m) :
    (∃ s, m.owner = some s ∧ unmarshalIa5StringValue (sl d 0 13) = .ok s) ∧
    (∃ s, m.consecutive = some s ∧ unmarshalIa5StringValue (sl d 13 14) = .ok s) ∧
    (∃ s, m.replacement = some s ∧ unmarshalIa5StringValue (sl d 14 15) = .ok s) ∧
    (∃ s, m.renewal = some s ∧ unmarshalIa5StringValue (sl d 15 16) = .ok s) := by
  obtain ⟨_, o, c, r, n, ho, hc, hr, hn, rfl⟩ := ownerIdentification_parse h
  exact ⟨⟨o, rfl, ho⟩, ⟨c, rfl, hc⟩, ⟨r, rfl, hr⟩, n, rfl, hn⟩

theorem extendedSerialNumber_fields (d : Bytes) (m : ExtendedSerialNumber)
    (h : unmarshalExtendedSerialNumber d = .ok m) :
    m.serialNumber = beNat (sl d 0 4) ∧ (∃ s, m.monthYear = some s ∧ unmarshalMonthYear (sl d 4 6) = .ok s) ∧
    ByteAt d 6 (fun b => CodedLossy equipmentTypeTable b m.type) ∧
    ByteAt d 7 (fun b => m.manufacturerCode = b.toNat) := by
  obtain ⟨_, my, t, c, hmy, ht, hc, rfl⟩ := extendedSerialNumber_parse h
  exact ⟨rfl, ⟨my, rfl, hmy⟩, byteAt_of_sl ht |>.mpr (enumOr1_coded _ _), (byteAt_of_sl hc).mpr rfl⟩

theorem gnss_fields (d : Bytes) (m : GNSSPlaceRecord) (h : unmarshalGNSSPlaceRecord d = .ok m) :
    m.timestamp = instant (sl d 0 4) ∧ ByteAt d 4 (fun b => m.accuracy = b.toNat) ∧
    ∃ g, m.geo = some g ∧ IsInt24 (sl d 5 8) g.latitude ∧ IsInt24 (sl d 8 11) g.longitude := by
  obtain ⟨hl, ts, a, g, hts, ha, hg, rfl⟩ := gnss_parse h
  have := geo_fields hg
  refine ⟨timeReal_instant hts, (byteAt_of_sl ha).mpr rfl, g, rfl, ?_, ?_⟩
  · have e : (sl d 5 11).take 3 = sl d 5 8 := by simp [sl, List.take_drop, List.take_take]
    rw [← e]; exact this.1
  · have e : (sl d 5 11).drop 3 = sl d 8 11 := by simp [sl]
    rw [← e]; exact this.2

theorem gnssAuth_fields (d : Bytes) (m : GNSSPlaceAuthRecord) (h : unmarshalGNSSPlaceAuthRecord d = .ok m) :
    m.timestamp = instant (sl d 0 4) ∧ ByteAt d 4 (fun b => m.accuracy = b.toNat) ∧
    (∃ g, m.geo = some g ∧ IsInt24 (sl d 5 8) g.latitude ∧ IsInt24 (sl d 8 11) g.longitude) ∧
    ByteAt d 11 (fun b => Coded positionAuthenticationStatusTable b m.authStatus m.unrecognizedAuthStatus) := by
  obtain ⟨hl, ts, a, g, s, hts, ha, hg, hs, rfl⟩ := gnssAuth_parse h
  have := geo_fields hg
  refine ⟨timeReal_instant hts, (byteAt_of_sl ha).mpr rfl, ⟨g, rfl, ?_, ?_⟩,
    (byteAt_of_sl hs).mpr (enumOrUnrecognized_coded _ _)⟩
  · have e : (sl d 5 11).take 3 = sl d 5 8 := by simp [sl, List.take_drop, List.take_take]
    rw [← e]; exact this.1
  · have e : (sl d 5 11).drop 3 = sl d 8 11 := by simp [sl]
    rw [← e]; exact this.2

/-- The five fields a Gen1 and a Gen2 place record share. -/
def Spec.PlaceFields (d : Bytes) (m : PlaceRecord) : Prop :=
  m.rawData = some d ∧ m.entryTime = instant (sl d 0 4) ∧
  ByteAt d 4 (fun b => Coded entryTypeDailyWorkPeriodTable b m.entryType m.unrecognizedEntryType) ∧
  ByteAt d 5 (fun b => Coded nationNumericTable b m.country m.unrecognizedCountry) ∧
  ByteAt d 6 (fun b => m.region = [b]) ∧ m.odometerKm = beNat (sl d 7 10)

theorem place_fields (d : Bytes) (m : PlaceRecord) (h : unmarshalPlaceRecord d = .ok m) : PlaceFields d m := by
  obtain ⟨hl, ts, e, c, r, hts, he, hc, hr, rfl⟩ := place_parse h
  exact ⟨rfl, timeReal_instant hts, (byteAt_of_sl he).mpr (enumOrUnrecognized_coded _ _),
    (byteAt_of_sl hc).mpr (enumOrUnrecognized_coded _ _), (byteAt_of_sl hr).mpr rfl, rfl⟩

theorem placeG2_fields (d : Bytes) (m : PlaceRecordG2) (h : unmarshalPlaceRecordG2 d = .ok m) :
    PlaceFields d m.base ∧ ∃ g, m.gnss = some g ∧ unmarshalGNSSPlaceRecord (sl d 10 21) = .ok g := by
  obtain ⟨hl, ts, e, c, r, g, hts, he, hc, hr, hg, rfl⟩ := placeG2_parse h
  exact ⟨⟨rfl, timeReal_instant hts, (byteAt_of_sl he).mpr (enumOrUnrecognized_coded _ _),
    (byteAt_of_sl hc).mpr (enumOrUnrecognized_coded _ _), (byteAt_of_sl hr).mpr rfl, rfl⟩, g, rfl, hg⟩

theorem specificCondition_fields (d : Bytes) (m : SpecificConditionRecord)
    (h : unmarshalSpecificConditionRecord d = .ok m) :
    m.entryTime = instant (sl d 0 4) ∧
    ByteAt d 4 (fun b => Coded specificConditionTypeTable b m.type m.unrecognizedType) := by
  obtain ⟨hl, ts, b, hts, hb, rfl⟩ := specificCondition_parse h
  exact ⟨timeReal_instant hts, (byteAt_of_sl hb).mpr (enumOrUnrecognized_coded _ _)⟩

/-- The fields of a vehicle record, shared by both generations. -/
def Spec.VehicleFields (d : Bytes) (m : CardVehicleRecord) : Prop :=
  m.rawData = some d ∧ m.odometerBegin = beNat (sl d 0 3) ∧ m.odometerEnd = beNat (sl d 3 6) ∧
  m.firstUse = instant (sl d 6 10) ∧ m.lastUse = instant (sl d 10 14) ∧
  (∃ r, m.registration = some r ∧ unmarshalVehicleRegistration (sl d 14 29) = .ok r) ∧
  m.counter = some ⟨bcdPair (sl d 29 31), 2⟩

theorem vehicleFields_spec {d : Bytes} {m : CardVehicleRecord} (h : unmarshalCardVehicleFields d = .ok m) :
    VehicleFields d m := by
  obtain ⟨hl, t1, t2, reg, c, h1, h2, h3, h4, rfl⟩ := vehicleFields_parse h
  refine ⟨rfl, rfl, rfl, timeReal_instant h1, timeReal_instant h2, ⟨reg, rfl, h3⟩, ?_⟩
  rw [bcd_pair_value (by simp; omega) h4]; rfl

theorem cardVehicle_fields (d : Bytes) (m : CardVehicleRecord) (h : unmarshalCardVehicleRecord d = .ok m) :
    VehicleFields d m := by
  unfold unmarshalCardVehicleRecord at h
  by_cases hl : d.length = 31
  · simp only [hl, ne_eq, not_true_eq_false, if_false] at h
    exact vehicleFields_spec h
  · simp [hl] at h

theorem cardVehicleG2_fields (d : Bytes) (m : CardVehicleRecordG2) (h : unmarshalCardVehicleRecordG2 d = .ok m) :
    VehicleFields d m.base := by
  obtain ⟨_, b, hb, rfl⟩ := cardVehicleG2_parse h
  exact vehicleFields_spec hb

/-- C48: the VIN is its 17-byte field without the NUL bytes and spaces at its end. -/
theorem cardVehicleG2_vin_exact (d : Bytes) (m : CardVehicleRecordG2) (h : unmarshalCardVehicleRecordG2 d = .ok m) :
    Unfilled (sl d 31 48) m.vin := by
  obtain ⟨_, b, hb, rfl⟩ := cardVehicleG2_parse h
  obtain ⟨f, e1, e2, e3⟩ := trimNulSpace_spec (sl d 31 48)
  exact ⟨f, e1, e2, e3⟩

/-- A field has only one such text. -/
theorem unfilled_unique {s v w : Bytes} (hv : Unfilled s v) (hw : Unfilled s w) : v = w := by
  obtain ⟨f, rfl, hf, hv⟩ := hv
  obtain ⟨g, e, hg, hw⟩ := hw
  rcases List.append_eq_append_iff.mp e with ⟨c, rfl, rfl⟩ | ⟨c, rfl, rfl⟩
  · rcases List.eq_nil_or_concat c with rfl | ⟨t, b, rfl⟩
    · simp
    · have := hw (v ++ t) b (by simp)
      have := hf b (by simp)
      grind
  · rcases List.eq_nil_or_concat c with rfl | ⟨t, b, rfl⟩
    · simp
    · have := hv (w ++ t) b (by simp)
      have := hg b (by simp)
      grind

theorem previousVehicle_fields (d : Bytes) (m : PreviousVehicleInfo)
    (h : unmarshalPreviousVehicleInfo d = .ok m) :
    m.rawData = some d ∧ (∃ r, m.registration = some r ∧ unmarshalVehicleRegistration (sl d 0 15) = .ok r) ∧
    m.withdrawalTime = instant (sl d 15 19) := by
  unfold unmarshalPreviousVehicleInfo at h
  by_cases hl : d.length = 19
  · simp only [hl, ne_eq, not_true_eq_false, if_false] at h
    obtain ⟨_, reg, ts, h1, h2, rfl⟩ := previousFields_parse h
    exact ⟨rfl, ⟨reg, rfl, h1⟩, timeReal_instant h2⟩
  · simp [hl] at h

theorem previousVehicleG2_fields (d : Bytes) (m : PreviousVehicleInfoG2)
    (h : unmarshalPreviousVehicleInfoG2 d = .ok m) :
    m.base.rawData = some d ∧
    (∃ r, m.base.registration = some r ∧ unmarshalVehicleRegistration (sl d 0 15) = .ok r) ∧
    m.base.withdrawalTime = instant (sl d 15 19) ∧ ByteAt d 19 (fun b => m.vuGeneration = b.toNat) := by
  obtain ⟨_, b, g, v, hb, hg, hv, rfl⟩ := previousVehicleG2_parse h
  obtain ⟨_, reg, ts, h1, h2, rfl⟩ := previousFields_parse hb
  refine ⟨rfl, ⟨reg, rfl, h1⟩, timeReal_instant h2, (byteAt_of_sl hg).mpr ?_⟩
  have := unmarshalEnum_ok hv
  simp only [generationTable, List.mem_cons, Prod.mk.injEq, Option.some.injEq, List.not_mem_nil, or_false] at this
  simp at this
  dsimp only; omega

/-- C48: the fields of an insertion/withdrawal record. -/
theorem iw_fields (d : Bytes) (m : VuCardIWRecord) (h : unmarshalVuCardIWRecord d = .ok m) :
    m.rawData = some d ∧ (∃ x, m.holderName = some x ∧ unmarshalHolderName (sl d 0 72) = .ok x) ∧
    (∃ x, m.fullCardNumber = some x ∧ unmarshalFullCardNumber (sl d 72 90) = .ok x) ∧
    (∃ x, m.expiryDate = some x ∧ unmarshalDate (sl d 90 94) = .ok x) ∧
    m.insertionTime = instant (sl d 94 98) ∧ m.odometerAtInsertion = beNat (sl d 98 101) ∧
    ByteAt d 101 (fun b => (m.slot, some b.toNat) ∈ cardSlotNumberTable) ∧
    m.withdrawalTime = instant (sl d 102 106) ∧ m.odometerAtWithdrawal = beNat (sl d 106 109) ∧
    (∃ x, m.previousVehicle = some x ∧ unmarshalPreviousVehicleInfo (sl d 109 128) = .ok x) ∧
    ByteAt d 128 (fun b => m.manualInput = true ↔ b ≠ 0) := by
  obtain ⟨_, hn, fc, ex, t1, sb, sv, t2, pv, fl, h1, h2, h3, h4, h6, h7, h8, h10, h11, rfl⟩ := iw_parse h
  exact ⟨rfl, ⟨hn, rfl, h1⟩, ⟨fc, rfl, h2⟩, ⟨ex, rfl, h3⟩, timeReal_instant h4, rfl,
    (byteAt_of_sl h6).mpr (unmarshalEnum_ok h7), timeReal_instant h8, rfl, ⟨pv, rfl, h10⟩,
    (byteAt_of_sl h11).mpr (by simp)⟩

/-! ## The hypotheses of the round-trip theorems are met by realistic records -/

/-- A vehicle registration: nation 15 (Spain), ISO 8859-1, "AB 1234-CD   ". -/
def Spec.sampleRegistration : Bytes :=
  [0x0F, 0x01, 0x41, 0x42, 0x20, 0x31, 0x32, 0x33, 0x34, 0x2D, 0x43, 0x44, 0x20, 0x20, 0x20]

/-- A vehicle record: odometers, times, registration, counter. -/
def Spec.sampleVehicle : Bytes :=
  [0x01, 0xE2, 0x40, 0x01, 0xE3, 0x00, 0x5F, 0x00, 0x00, 0x01, 0x5F, 0x01, 0x00, 0x02] ++ sampleRegistration ++ [0x12, 0x34]

theorem sample_known : Known nationNumericTable 0x0F ∧ KnownCodePage 0x01 :=
  ⟨known_iff.mpr ⟨18, by decide⟩, by decide⟩

example : ∃ m, unmarshalVehicleRegistration sampleRegistration = .ok m ∧
    ∀ dst, appendVehicleRegistration dst (some m) = .ok (dst ++ sampleRegistration) := by
  obtain ⟨m, h⟩ := (registration_accepts_iff sampleRegistration).mpr (by decide)
  exact ⟨m, h, fun dst => (registration_roundtrip_iff _ dst m h).mpr
    ⟨⟨_, rfl, sample_known.1⟩, _, rfl, sample_known.2⟩⟩

example : ∃ m, unmarshalCardVehicleRecord sampleVehicle = .ok m ∧
    m.odometerBegin = 123456 ∧ m.counter = some ⟨1234, 2⟩ ∧
    ∀ dst, appendCardVehicleRecord dst m = .ok (dst ++ sampleVehicle) := by
  obtain ⟨m, h⟩ := (cardVehicle_accepts_iff sampleVehicle).mpr
    ⟨by decide, ⟨_, rfl, by decide⟩, ⟨_, rfl, by decide⟩⟩
  obtain ⟨_, ho, _, _, _, _, hc⟩ := cardVehicle_fields _ m h
  exact ⟨m, h, ho.trans (by decide), hc.trans (by decide), fun dst => (cardVehicle_roundtrip_iff _ dst m h).mpr
    ⟨⟨_, rfl, sample_known.1⟩, _, rfl, sample_known.2⟩⟩

/-- The hypotheses of the insertion/withdrawal theorems are met too. -/
example : ∃ m, unmarshalVuCardIWRecord (List.replicate 72 0x20 ++ [1] ++ List.replicate 56 0) = .ok m :=
  (iw_accepts_iff _).mpr ⟨by simp, ⟨1, by simp, Or.inl rfl⟩, ⟨0, by simp, Or.inl rfl⟩⟩

end

end Tacho
