import Verif.Spec.Reduce
import Verif.Props.WriteRead
/-!
# C74: values that do not fit are cut, not refused
-/

namespace Tacho
open Spec

/-! ## Numbers, times, codes -/

theorem i2b_cutDown (v : Int) : i2b (lowBits 8 v) = i2b v := by
  simp only [i2b, lowBits]
  congr 2
  omega

theorem be2_cutDown (v : Int) : beBytes 2 (low 16 (lowBits 16 v)) = beBytes 2 (low 16 v) := by
  simp only [low, lowBits]
  congr 2
  omega

theorem be3_cutDown (v : Int) : beBytes 3 (low 32 (lowBits 24 v)) = beBytes 3 (low 32 v) := by
  rw [← beBytes_mod 3 (low 32 v), ← beBytes_mod 3 (low 32 (lowBits 24 v))]
  simp only [low, lowBits]
  congr 1
  omega

theorem be4_cutDown (v : Int) : beBytes 4 (low 32 (lowBits 32 v)) = beBytes 4 (low 32 v) := by
  simp only [low, lowBits]
  congr 2
  omega

theorem odo_cutDown (dst : Bytes) (v : Int) : appendOdometer dst (low 32 (lowBits 24 v)) = appendOdometer dst (low 32 v) := by
  simp only [appendOdometer, odometer_drop, be3_cutDown]

theorem int24_cutDown (dst : Bytes) (v : Int) : appendInt24 dst (signed24 v) = appendInt24 dst v := by
  simp only [appendInt24, low, signed24]
  congr 3
  omega

theorem time_cutDown (dst : Bytes) (t : Option Timestamp) : appendTimeReal dst (cutTime t) = appendTimeReal dst t := by
  cases t with
  | none => rfl
  | some t =>
    obtain ⟨s, n⟩ := t
    simp only [cutTime]
    by_cases hn : n > 0
    · simp [hn]
    · by_cases hs : s % 2 ^ 32 = 0
      · simp only [hn, hs, if_true, if_false, appendTimeReal, low]
        simp
      · simp only [hn, hs, if_false, appendTimeReal, low, Int.lt_irrefl, gt_iff_lt]
        rw [Int.emod_emod_of_dvd _ (Int.dvd_refl _)]

theorem lax_unknown {t : EnumTable} {v : Int} (h : t.any (fun p => p.1 == v && p.2.isSome) = false) : marshalEnumLax t v = 0 := by
  have : ∀ b, marshalEnum t v ≠ .ok b := by
    intro b hb
    obtain ⟨p, hp, -⟩ := marshalEnum_ok hb
    rw [List.any_eq_false] at h
    exact h _ hp (by simp)
  unfold marshalEnumLax
  cases hm : marshalEnum t v with
  | ok b => exact absurd hm (this b)
  | err m => rfl
  | panic => rfl

theorem lax_cutDown {t : EnumTable} (h2 : marshalEnumLax t 2 = 0) (v : Int) : marshalEnumLax t (cutCode t v) = marshalEnumLax t v := by
  unfold cutCode
  by_cases h : t.any (fun p => p.1 == v && p.2.isSome) = true
  · rw [if_pos h]
  · rw [if_neg h, h2, lax_unknown (by simpa using h)]

theorem enumByteLax_eq (t : EnumTable) (v : Int) (u : Option Int) :
    enumByteLax t v u = if v = 1 then i2b (u.getD 0) else marshalEnumLax t v := rfl

theorem readCode_byte {t : EnumTable} (ht : t ∈ allEnumTables) (h1 : (1, none) ∈ t) (b : UInt8) : CodeOk t (readCode t b.toNat).1 (readCode t b.toNat).2 ∧
    enumByte t (readCode t b.toNat).1 (readCode t b.toNat).2 = .ok b := by
  have hok := enumTables_ok t ht
  unfold readCode
  cases hf : t.find? (fun p => p.2 == some b.toNat) with
  | some p =>
    obtain ⟨v, q⟩ := p
    have h1' := List.mem_of_find?_eq_some hf
    have h2 := List.find?_some hf
    simp only [beq_iff_eq] at h2
    subst h2
    refine ⟨⟨b, .inl ⟨h1', rfl⟩⟩, ?_⟩
    have : v ≠ enumUnrecognized := by
      rintro rfl
      have := nodup_fst_unique (Ok_parts hok).1 h1' h1
      cases this
    simp only [enumByte, if_neg this]
    rw [marshalEnum_of_mem hok h1', UInt8.ofNat_toNat]
  | none =>
    rw [List.find?_eq_none] at hf
    refine ⟨⟨b, .inr ⟨fun w hw => hf _ hw (by simp), rfl, rfl⟩⟩, ?_⟩
    have hb := byte_lt b
    have : ((b.toNat : Int) % 256).toNat = b.toNat := by omega
    simp only [enumByte, enumUnrecognized, if_true, Option.getD_some, i2b, this, UInt8.ofNat_toNat]

theorem companion_byte (u : Int) : (lowBits 8 u).toNat = (i2b u).toNat := by
  simp only [lowBits, i2b]
  rw [toNat_ofNat_lt (by omega)]
  rfl

theorem lax_of_byte {t : EnumTable} {v : Int} {u : Option Int} {b : UInt8} (h : enumByte t v u = .ok b) : enumByteLax t v u = b := by
  unfold enumByte at h
  unfold enumByteLax
  split at h
  · rename_i hv; rw [if_pos hv]; cases h; rfl
  · rename_i hv; rw [if_neg hv, h]

theorem coded_cutDown {t : EnumTable} (ht : t ∈ allEnumTables) (h1 : (1, none) ∈ t) (h2 : marshalEnumLax t 2 = 0) (v : Int) (u : Option Int) :
    enumByteLax t (cutCoded t v u).1 (cutCoded t v u).2 = enumByteLax t v u := by
  unfold cutCoded
  by_cases h : v = 1
  · rw [if_pos h, companion_byte, lax_of_byte (readCode_byte ht h1 _).2, enumByteLax_eq, if_pos h]
  · have : cutCode t v ≠ 1 := by
      unfold cutCode
      split
      · exact h
      · decide
    rw [if_neg h, enumByteLax_eq, enumByteLax_eq, if_neg this, if_neg h, lax_cutDown h2]

theorem codedStrict_cutDown {t : EnumTable} (ht : t ∈ allEnumTables) (h1 : (1, none) ∈ t) (v : Int) (u : Option Int) :
    enumByte t (cutCodedStrict t v u).1 (cutCodedStrict t v u).2 = enumByte t v u := by
  unfold cutCodedStrict
  by_cases h : v = 1
  · rw [if_pos h, companion_byte, (readCode_byte ht h1 _).2]
    simp only [enumByte, h, enumUnrecognized, if_true]
  · rw [if_neg h]
    simp only [enumByte, enumUnrecognized, h, if_false]

/-! ## Records -/

theorem geo_cutDown (dst : Bytes) (g : GeoCoordinates) : appendGeoCoordinates dst (cutGeo g) = appendGeoCoordinates dst g := by
  simp only [appendGeoCoordinates, cutGeo, int24_cutDown]

theorem geo_default_cut (g : Option GeoCoordinates) (dst : Bytes) :
    appendGeoCoordinates dst ((g.map cutGeo).getD default) = appendGeoCoordinates dst (g.getD default) := by
  cases g with
  | none => rfl
  | some g => exact geo_cutDown dst g

theorem gnss_cutDown (dst : Bytes) (r : Option GNSSPlaceRecord) : appendGNSSPlaceRecord dst (r.map cutGnss) = appendGNSSPlaceRecord dst r := by
  cases r with
  | none => rfl
  | some r => simp only [Option.map_some, appendGNSSPlaceRecord, cutGnss, time_cutDown, geo_default_cut]

theorem gnssAuth_cutDown (dst : Bytes) (r : Option GNSSPlaceAuthRecord) :
    appendGNSSPlaceAuthRecord dst (r.map cutGnssAuth) = appendGNSSPlaceAuthRecord dst r := by
  cases r with
  | none => rfl
  | some r => simp only [Option.map_some, appendGNSSPlaceAuthRecord, cutGnssAuth, time_cutDown, geo_default_cut, i2b_cutDown,
      codedStrict_cutDown (t := positionAuthenticationStatusTable) (by decide) (by decide)]

theorem change_cutDown (dst : Bytes) (c : ActivityChangeInfo) : appendActivityChangeInfo dst (cutChange c) = appendActivityChangeInfo dst c := by
  have : low 16 (lowBits 11 c.timeOfChangeMinutes) % 2 ^ 11 = low 16 c.timeOfChangeMinutes % 2 ^ 11 := by
    simp only [low, lowBits]; omega
  simp only [appendActivityChangeInfo, cutChange, this]; rfl

theorem changes_cutDown (dst : Bytes) (cs : List ActivityChangeInfo) : appendChanges dst (cs.map cutChange) = appendChanges dst cs := by
  induction cs generalizing dst with
  | nil => rfl
  | cons c cs ih => simp only [List.map_cons, appendChanges, change_cutDown, ih]

theorem dayBytes_cutDown (r : DailyRecord) (prev cur : Nat) : marshalRecordWithHeader (cutDay r) prev cur = marshalRecordWithHeader r prev cur := by
  simp only [marshalRecordWithHeader, cutDay, time_cutDown, be2_cutDown, changes_cutDown]

theorem recordSizes_cutDown (rs : List DailyRecord) : recordSizes (rs.map cutDay) = recordSizes rs := by
  induction rs with
  | nil => rfl
  | cons r rs ih =>
    simp only [List.map_cons, recordSizes, ih]
    simp only [cutDay, calculateRecordSize, List.length_map]; rfl

theorem writeRecords_cutDown (rs : List DailyRecord) (sizes : List Nat) (buffer : Bytes) (pos prev : Nat) :
    writeRecords buffer pos prev ((rs.map cutDay).zip sizes) = writeRecords buffer pos prev (rs.zip sizes) := by
  induction rs generalizing sizes buffer pos prev with
  | nil => rfl
  | cons r rs ih =>
    cases sizes with
    | nil => rfl
    | cons s sizes =>
      simp only [List.map_cons, List.zip_cons_cons, writeRecords, dayBytes_cutDown, ih]
      simp only [cutDay]; rfl

theorem activity_cutDown (dst : Bytes) (a : DriverActivityData) : appendDriverActivity dst (some (cutActivity a)) = appendDriverActivity dst (some a) := by
  simp only [appendDriverActivity, cutActivity, be2_cutDown, buildCyclicBuffer, recordSizes_cutDown, writeRecords_cutDown, List.length_map]

theorem paintPlace_cutDown (canvas : Bytes) (r : PlaceRecord) : paintPlace canvas (cutPlace r) = paintPlace canvas r := by
  have h1 : marshalEnumLax entryTypeDailyWorkPeriodTable 2 = 0 := by decide
  have h2 : marshalEnumLax nationNumericTable 2 = 0 := by decide
  simp only [paintPlace, cutPlace, time_cutDown, coded_cutDown (t := entryTypeDailyWorkPeriodTable) (by decide) (by decide) h1,
    coded_cutDown (t := nationNumericTable) (by decide) (by decide) h2, odo_cutDown, List.take_take, Nat.min_self]

theorem place_cutDown (dst : Bytes) (r : PlaceRecord) : appendPlaceRecord dst (cutPlace r) = appendPlaceRecord dst r := by
  simp only [appendPlaceRecord, paintPlace_cutDown]; rfl

theorem placeG2_cutDown (dst : Bytes) (r : PlaceRecordG2) : appendPlaceRecordG2 dst (cutPlaceG2 r) = appendPlaceRecordG2 dst r := by
  simp only [appendPlaceRecordG2, cutPlaceG2, paintPlace_cutDown, gnss_cutDown]; rfl

theorem condition_cutDown (dst : Bytes) (r : SpecificConditionRecord) :
    appendSpecificConditionRecord dst (some (cutCondition r)) = appendSpecificConditionRecord dst (some r) := by
  simp only [appendSpecificConditionRecord, cutCondition, time_cutDown,
    codedStrict_cutDown (t := specificConditionTypeTable) (by decide) (by decide)]

theorem paintVehicle_cutDown (canvas : Bytes) (r : CardVehicleRecord) : paintCardVehicle canvas (cutVehicle r) = paintCardVehicle canvas r := by
  simp only [paintCardVehicle, cutVehicle, time_cutDown, be3_cutDown]

theorem vehicle_cutDown (dst : Bytes) (r : CardVehicleRecord) : appendCardVehicleRecord dst (cutVehicle r) = appendCardVehicleRecord dst r := by
  simp only [appendCardVehicleRecord, paintVehicle_cutDown]; rfl

theorem vehicleG2_cutDown (dst : Bytes) (r : CardVehicleRecordG2) : appendCardVehicleRecordG2 dst (cutVehicleG2 r) = appendCardVehicleRecordG2 dst r := by
  simp only [appendCardVehicleRecordG2, cutVehicleG2, paintVehicle_cutDown, List.take_take, Nat.min_self]; rfl

theorem event_cutDown (dst : Bytes) (r : EventRecord) : appendEventRecord dst (cutEvent r) = appendEventRecord dst r := by
  have h : marshalEnumLax eventFaultTypeTable 2 = 0 := by decide
  simp only [appendEventRecord, cutEvent, time_cutDown, lax_cutDown h]

theorem serial_cutDown (dst : Bytes) (e : Option ExtendedSerialNumber) :
    appendExtendedSerialNumberAsString dst (e.map cutSerial) = appendExtendedSerialNumberAsString dst e := by
  cases e with
  | none => rfl
  | some e =>
    have h1 : (if lowBits 32 e.serialNumber ≠ 0 then beBytes 4 (low 32 (lowBits 32 e.serialNumber)) else zeros 4)
        = if e.serialNumber ≠ 0 then beBytes 4 (low 32 e.serialNumber) else zeros 4 := by
      rw [be4_cutDown]
      by_cases a : e.serialNumber = 0
      · simp [a, lowBits]
      · by_cases b : lowBits 32 e.serialNumber = 0
        · simp only [a, b, ne_eq, not_true, not_false_iff, if_true, if_false]
          rw [← be4_cutDown, b]; rfl
        · simp [a, b]
    have h2 : (if lowBits 8 e.manufacturerCode ≠ 0 then i2b (lowBits 8 e.manufacturerCode) else 0)
        = if e.manufacturerCode ≠ 0 then i2b e.manufacturerCode else 0 := by
      rw [i2b_cutDown]
      by_cases a : e.manufacturerCode = 0
      · simp [a, lowBits]
      · by_cases b : lowBits 8 e.manufacturerCode = 0
        · simp only [a, b, ne_eq, not_true, not_false_iff, if_true, if_false]
          rw [← i2b_cutDown, b]; rfl
        · simp [a, b]
    simp only [Option.map_some, appendExtendedSerialNumberAsString, cutSerial, h1, h2]

theorem icc_cutDown (dst : Bytes) (i : Icc) : appendIcc dst (cutIcc i) = appendIcc dst i := by
  have : ∀ d, appendEmbedderId d (i.embedder.map fun e => { e with manufacturerInformation := lowBits 8 e.manufacturerInformation })
      = appendEmbedderId d i.embedder := by
    intro d
    cases i.embedder with
    | none => rfl
    | some e => simp only [Option.map_some, appendEmbedderId, i2b_cutDown]
  simp only [appendIcc, cutIcc, serial_cutDown, i2b_cutDown, this]

theorem fit4_cutDown (b : Bytes) : fit4 (cutBytes 4 b) = fit4 b := by
  have hl : (cutBytes 4 b).length = 4 := by simp [cutBytes]
  simp only [fit4, hl, ge_iff_le, Nat.le_refl, if_true]
  simp only [cutBytes, List.take_take, Nat.min_self]
  split
  · rename_i h
    rw [List.take_append_of_le_length h]
  · rename_i h
    rw [List.take_append, List.take_of_length_le (by omega)]
    rw [List.take_replicate, zeros]
    congr 2; omega

theorem ic_cutDown (dst : Bytes) (i : Ic) : appendCardIc dst (some (cutIc i)) = appendCardIc dst (some i) := by
  simp only [appendCardIc, cutIc, fit4_cutDown]

theorem appId_cutDown (dst : Bytes) (a : AppId) : appendAppId dst (some (cutAppId a)) = appendAppId dst (some a) := by
  have h : marshalEnumLax equipmentTypeTable 2 = 0 := by decide
  cases hd : a.driver <;> simp only [appendAppId, cutAppId, lax_cutDown h, hd, Option.map_none, Option.map_some, i2b_cutDown, be2_cutDown]

theorem appIdG2_cutDown (dst : Bytes) (a : AppIdG2) : appendAppIdG2 dst (some (cutAppIdG2 a)) = appendAppIdG2 dst (some a) := by
  have h : marshalEnumLax equipmentTypeTable 2 = 0 := by decide
  cases hd : a.driver <;> simp only [appendAppIdG2, cutAppIdG2, lax_cutDown h, hd, Option.map_none, Option.map_some, i2b_cutDown, be2_cutDown]

theorem appIdV2_cutDown (dst : Bytes) (a : AppIdV2) : appendAppIdV2 dst (some (cutAppIdV2 a)) = appendAppIdV2 dst (some a) := by
  simp only [appendAppIdV2, cutAppIdV2, i2b_cutDown]

theorem index_cutDown (d : UInt8) (s : Option Ia5StringValue) : firstByteOr (cutIndex d s) d = firstByteOr s d := by
  rcases s with _ | ⟨r, l, _ | ⟨c, v⟩⟩ <;> rfl

theorem cardNumber_cutDown (c : CardIdent) : cardNumberBytes (cutCardIdent c) = cardNumberBytes c := by
  rcases hd : c.driver with _ | ⟨n, a, b⟩
  · rcases ho : c.owner with _ | ⟨n, a, b, e⟩
    · simp only [cardNumberBytes, cutCardIdent, hd, ho, Option.map_none]
    · rcases n with _ | n <;>
        simp only [cardNumberBytes, cutCardIdent, hd, ho, Option.map_none, Option.map_some, cutOwnerNumber, index_cutDown, List.take_take, Nat.min_self]
  · rcases n with _ | n <;>
      simp only [cardNumberBytes, cutCardIdent, hd, Option.map_none, Option.map_some, cutDriverNumber, index_cutDown, List.take_take, Nat.min_self]

theorem identification_cutDown (dst : Bytes) (i : Identification) : appendIdentification dst (cutIdentification i) = appendIdentification dst i := by
  have : ∀ d, appendCardIdentification d (i.card.map cutCardIdent) = appendCardIdentification d i.card := by
    intro d
    cases i.card with
    | none => rfl
    | some c =>
      simp only [Option.map_some, appendCardIdentification, cardNumber_cutDown]
      simp only [cutCardIdent, time_cutDown]
  simp only [appendIdentification, cutIdentification, this]

theorem control_cutDown (dst : Bytes) (c : ControlActivity) : appendControlActivity dst (some (cutControl c)) = appendControlActivity dst (some c) := by
  simp only [appendControlActivity, cutControl, time_cutDown]; rfl

theorem usage_cutDown (dst : Bytes) (c : CurrentUsage) : appendCurrentUsage dst (some (cutUsage c)) = appendCurrentUsage dst (some c) := by
  simp only [appendCurrentUsage, cutUsage, time_cutDown]

theorem gnssEntry_cutDown (dst : Bytes) (r : GnssPlaceEntry) : appendGnssPlaceEntry dst (cutGnssEntry r) = appendGnssPlaceEntry dst r := by
  simp only [appendGnssPlaceEntry, cutGnssEntry, time_cutDown, gnss_cutDown]; rfl

theorem unit_cutDown (dst : Bytes) (r : VehicleUnitRecord) : appendVehicleUnitRecord dst (cutUnit r) = appendVehicleUnitRecord dst r := by
  obtain ⟨t, m, d, s⟩ := r
  have e1 : (d ++ List.replicate (1 - d.length) 0).length > 1 ↔ d.length > 1 := by simp; omega
  have e2 : (s ++ List.replicate (4 - s.length) 0).length > 4 ↔ s.length > 4 := by simp; omega
  have e3 : (d ++ List.replicate (1 - d.length) 0).headD 0 = d.headD 0 := by cases d <;> rfl
  have e4 : s.length ≤ 4 → (s ++ List.replicate (4 - s.length) 0) ++ zeros (4 - (s ++ List.replicate (4 - s.length) (0 : UInt8)).length)
      = s ++ zeros (4 - s.length) := by
    intro h
    have : (s ++ List.replicate (4 - s.length) (0 : UInt8)).length = 4 := by simp; omega
    rw [this]; simp [zeros]
  simp only [appendVehicleUnitRecord, cutUnit, time_cutDown, e1, e2, e3]
  by_cases h : s.length > 4
  · simp only [h, if_true]; rfl
  · simp only [h, if_false, e4 (by omega)]

/-! ## Files -/

theorem appendEach_cutDown {α : Type} {f : Bytes → α → Res Bytes} {g : α → α} (h : ∀ d x, f d (g x) = f d x) (dst : Bytes) (xs : List α) :
    appendEach f dst (xs.map g) = appendEach f dst xs := by
  induction xs generalizing dst with
  | nil => rfl
  | cons x xs ih => simp only [List.map_cons, appendEach, h, ih]

theorem appendEachNew_cutDown {α : Type} {f : Bytes → α → Res Bytes} {g : α → α} (h : ∀ d x, f d (g x) = f d x) (dst : Bytes) (xs : List α) :
    appendEachNew f dst (xs.map g) = appendEachNew f dst xs := by
  induction xs generalizing dst with
  | nil => rfl
  | cons x xs ih => simp only [List.map_cons, appendEachNew, h, ih]

theorem paintEach_cutDown {α : Type} {f : Bytes → α → Res Bytes} {g : α → α} (h : ∀ d x, f d (g x) = f d x) (n : Nat) (canvas : Bytes) (off : Nat)
    (xs : List α) : paintEach f n canvas off (xs.map g) = paintEach f n canvas off xs := by
  induction xs generalizing canvas off with
  | nil => rfl
  | cons x xs ih => simp only [List.map_cons, paintEach, h, ih]

theorem recordFile2_cutDown {α : Type} {f : Bytes → α → Res Bytes} {g : α → α} (h : ∀ d x, f d (g x) = f d x) (n : Nat) (dst : Bytes)
    (v : RecordFile α) : appendRecordFile2 f n dst (some (cutFile 16 g v)) = appendRecordFile2 f n dst (some v) := by
  simp only [appendRecordFile2, cutFile, be2_cutDown, List.length_map, paintEach_cutDown h, appendEachNew_cutDown h]

theorem places_cutDown (dst : Bytes) (v : RecordFile PlaceRecord) : appendPlaces dst (some (cutFile 8 cutPlace v)) = appendPlaces dst (some v) := by
  simp only [appendPlaces, cutFile, i2b_cutDown, List.length_map, paintEach_cutDown place_cutDown, appendEachNew_cutDown place_cutDown]

theorem conditions_cutDown (dst : Bytes) (v : RecordFile SpecificConditionRecord) :
    appendSpecificConditions dst (some (cutFile 16 cutCondition v)) = appendSpecificConditions dst (some v) := by
  simp only [appendSpecificConditions, cutFile, List.length_map,
    paintEach_cutDown (f := fun d r => appendSpecificConditionRecord d (some r)) (g := cutCondition) condition_cutDown,
    appendEach_cutDown (f := fun d r => appendSpecificConditionRecord d (some r)) (g := cutCondition) condition_cutDown]

theorem paintConditionsG2_cutDown (canvas : Bytes) (off : Nat) (rs : List SpecificConditionRecord) :
    paintConditionsG2 canvas off (rs.map cutCondition) = paintConditionsG2 canvas off rs := by
  induction rs generalizing canvas off with
  | nil => rfl
  | cons r rs ih => simp only [List.map_cons, paintConditionsG2, condition_cutDown, ih]

theorem conditionsG2_cutDown (dst : Bytes) (v : RecordFile SpecificConditionRecord) :
    appendSpecificConditionsG2 dst (some (cutFile 16 cutCondition v)) = appendSpecificConditionsG2 dst (some v) := by
  simp only [appendSpecificConditionsG2, cutFile, be2_cutDown, paintConditionsG2_cutDown,
    appendEach_cutDown (f := fun d r => appendSpecificConditionRecord d (some r)) (g := cutCondition) condition_cutDown]

/-! ## The card -/

theorem tlv_cutDown {α : Type} {f : Bytes → α → Res Bytes} {g : α → α} (h : ∀ d x, f d (g x) = f d x) (dst : Bytes) (e : EF) (m : Option α) :
    appendTlv dst e (m.map g) f = appendTlv dst e m f := by
  cases m with
  | none => rfl
  | some m => simp only [Option.map_some, appendTlv, h]

theorem tlvUnsigned_cutDown {α : Type} {f : Bytes → α → Res Bytes} {g : α → α} (h : ∀ d x, f d (g x) = f d x) (dst : Bytes) (e : EF) (m : Option α) :
    appendTlvUnsigned dst e (m.map g) f = appendTlvUnsigned dst e m f := by
  cases m with
  | none => rfl
  | some m => simp only [Option.map_some, appendTlvUnsigned, h]

theorem tlvG2_cutDown {α : Type} {f : Bytes → α → Res Bytes} {g : α → α} (h : ∀ d x, f d (g x) = f d x) (dst : Bytes) (e : EF) (m : Option α) :
    appendTlvG2 dst e (m.map g) f = appendTlvG2 dst e m f := by
  cases m with
  | none => rfl
  | some m => simp only [Option.map_some, appendTlvG2, h]

theorem gen1_cutDown (dst : Bytes) (c : DriverCard) : appendGen1 dst (cutCard c) = appendGen1 dst c := by
  have e : (c.tachograph.map cutTachograph).getD {} = cutTachograph (c.tachograph.getD {}) := by
    cases c.tachograph <;> rfl
  simp only [appendGen1, cutCard, e]
  generalize c.tachograph.getD {} = t
  simp only [cutTachograph]
  simp only [tlvUnsigned_cutDown icc_cutDown,
    tlvUnsigned_cutDown (f := fun d m => appendCardIc d (some m)) (g := cutIc) ic_cutDown,
    tlv_cutDown (f := fun d (m : Signed AppId) => appendAppId d (some m.data)) (g := cutSigned cutAppId) fun d x => appId_cutDown d x.data,
    tlv_cutDown (f := fun d (m : Signed Identification) => appendIdentification d m.data) (g := cutSigned cutIdentification)
      fun d x => identification_cutDown d x.data,
    tlv_cutDown (f := fun d (m : Signed (List EventRecord)) => appendEventsData d m.data) (g := cutSigned (List.map cutEvent))
      fun d x => appendEach_cutDown event_cutDown d x.data,
    tlv_cutDown (f := fun d (m : Signed DriverActivityData) => appendDriverActivity d (some m.data)) (g := cutSigned cutActivity)
      fun d x => activity_cutDown d x.data,
    tlv_cutDown (f := fun d (m : Signed (RecordFile CardVehicleRecord)) => appendVehiclesUsed d (some m.data))
      (g := cutSigned (cutFile 16 cutVehicle)) fun d x => recordFile2_cutDown vehicle_cutDown 31 d x.data,
    tlv_cutDown (f := fun d (m : Signed (RecordFile PlaceRecord)) => appendPlaces d (some m.data))
      (g := cutSigned (cutFile 8 cutPlace)) fun d x => places_cutDown d x.data,
    tlv_cutDown (f := fun d (m : Signed CurrentUsage) => appendCurrentUsage d (some m.data)) (g := cutSigned cutUsage)
      fun d x => usage_cutDown d x.data,
    tlv_cutDown (f := fun d (m : Signed ControlActivity) => appendControlActivity d (some m.data)) (g := cutSigned cutControl)
      fun d x => control_cutDown d x.data,
    tlv_cutDown (f := fun d (m : Signed (RecordFile SpecificConditionRecord)) => appendSpecificConditions d (some m.data))
      (g := cutSigned (cutFile 16 cutCondition)) fun d x => conditions_cutDown d x.data,
    tlvUnsigned_cutDown (f := fun d m => appendCardDownload d (some m)) (g := cutDownload) fun d x => time_cutDown d x.timestamp]

theorem gen2_cutDown (dst : Bytes) (t : TachographG2) : appendGen2 dst (cutTachographG2 t) = appendGen2 dst t := by
  simp only [appendGen2, cutTachographG2]
  simp only [
    tlvG2_cutDown (f := fun d (m : Signed AppIdG2) => appendAppIdG2 d (some m.data)) (g := cutSigned cutAppIdG2) fun d x => appIdG2_cutDown d x.data,
    tlvG2_cutDown (f := fun d (m : Signed (RecordFile CardVehicleRecordG2)) => appendVehiclesUsedG2 d (some m.data))
      (g := cutSigned (cutFile 16 cutVehicleG2)) fun d x => recordFile2_cutDown vehicleG2_cutDown 48 d x.data,
    tlvG2_cutDown (f := fun d (m : Signed (RecordFile PlaceRecordG2)) => appendPlacesG2 d (some m.data))
      (g := cutSigned (cutFile 16 cutPlaceG2)) fun d x => recordFile2_cutDown placeG2_cutDown 21 d x.data,
    tlvG2_cutDown (f := fun d (m : Signed (RecordFile SpecificConditionRecord)) => appendSpecificConditionsG2 d (some m.data))
      (g := cutSigned (cutFile 16 cutCondition)) fun d x => conditionsG2_cutDown d x.data,
    tlvG2_cutDown (f := fun d (m : Signed (Int × List VehicleUnitRecord)) => appendVehicleUnitsUsed d (some m.data))
      (g := cutSigned fun v => (lowBits 16 v.1, v.2.map cutUnit)) fun d x => by
        simp only [cutSigned, appendVehicleUnitsUsed, be2_cutDown, appendEach_cutDown unit_cutDown],
    tlvG2_cutDown (f := fun d (m : Signed (Int × List GnssPlaceEntry)) => appendGnssPlaces d (some m.data))
      (g := cutSigned fun v => (lowBits 16 v.1, v.2.map cutGnssEntry)) fun d x => by
        simp only [cutSigned, appendGnssPlaces, be2_cutDown, appendEach_cutDown gnssEntry_cutDown],
    tlvG2_cutDown (f := fun d (m : Signed AppIdV2) => appendAppIdV2 d (some m.data)) (g := cutSigned cutAppIdV2) fun d x => appIdV2_cutDown d x.data]

/-- C74: a driver card is written exactly as the card whose values are cut down to what the format holds. -/
theorem card_cutDown (c : DriverCard) : marshalDriverCard (some (cutCard c)) = marshalDriverCard (some c) := by
  have h : ∀ dst, appendCertificates dst (cutCard c) = appendCertificates dst c := by
    intro dst
    obtain ⟨a, b, t, t2⟩ := c
    cases t <;> cases t2 <;> rfl
  obtain ⟨a, b, t, t2⟩ := c
  cases t2 with
  | none =>
    simp only [marshalDriverCard, appendDriverCard, gen1_cutDown, h]
    rfl
  | some t2 =>
    simp only [marshalDriverCard, appendDriverCard, gen1_cutDown, h]
    show (appendGen1 [] _ >>= fun dst => appendGen2 dst (cutTachographG2 t2) >>= _) = _
    simp only [gen2_cutDown]

/-- C74: the same for whole files. -/
theorem file_cutDown (f : File) : marshalFile (some (cutFileMessage f)) = marshalFile (some f) := by
  obtain ⟨ty, vu, dc, raw⟩ := f
  cases ty <;> cases dc <;> first | rfl | exact card_cutDown _

end Tacho
