import Verif.Props.Reduce
import Verif.Props.CardWriteRead
/-!
# C74, continued: what is read back of values that did not fit, and what is refused
-/

namespace Tacho
open Spec

/-! ## What is cut fits, and what fits is not cut -/

theorem lowBits_fits (n : Nat) (v : Int) : Fits n (lowBits n v) := by
  have h : (0 : Int) < 2 ^ n := Int.pow_pos (by decide)
  exact ⟨Int.emod_nonneg _ (by omega), Int.emod_lt_of_pos _ h⟩

/-- C74: a number that fits is written as it is. -/
theorem lowBits_of_fits {n : Nat} {v : Int} (h : Fits n v) : lowBits n v = v := Int.emod_eq_of_lt h.1 h.2

theorem signed24_fits (v : Int) : Fits24 (signed24 v) := by
  unfold signed24 Fits24; omega

theorem signed24_of_fits {v : Int} (h : Fits24 v) : signed24 v = v := by
  unfold Fits24 at h
  unfold signed24; omega

/-- No time, or one without a fraction of a second. -/
def WholeSeconds (t : Option Timestamp) : Prop := ∀ x, t = some x → x.nanos ≤ 0

theorem cutTime_ok {t : Option Timestamp} (h : WholeSeconds t) : TimeOk (cutTime t) := by
  cases t with
  | none => intro x hx; cases hx
  | some t =>
    have hn := h t rfl
    intro x hx
    simp only [cutTime, if_neg (show ¬ t.nanos > 0 by omega)] at hx
    split at hx
    · cases hx
    · cases hx
      refine ⟨?_, ?_, rfl⟩ <;> simp only <;> omega

theorem cutTime_of_ok {t : Option Timestamp} (h : TimeOk t) : cutTime t = t := by
  cases t with
  | none => rfl
  | some t =>
    obtain ⟨s, n⟩ := t
    obtain ⟨h1, h2, h3⟩ := h _ rfl
    simp only at h1 h2 h3
    subst h3
    simp only [cutTime]
    rw [if_neg (by decide), if_neg (by omega)]
    congr 2
    omega

theorem cutCode_named {t : EnumTable} (ht : t ∈ allEnumTables) (h2 : (2, some 0) ∈ t) (v : Int) : Named t (cutCode t v) := by
  unfold cutCode
  split
  · rename_i h
    rw [List.any_eq_true] at h
    obtain ⟨⟨a, q⟩, hm, hp⟩ := h
    simp only [Bool.and_eq_true, beq_iff_eq] at hp
    obtain ⟨rfl, hq⟩ := hp
    cases q with
    | none => cases hq
    | some q =>
      have := (Ok_parts (enumTables_ok t ht)).2.2 _ _ hm
      refine ⟨UInt8.ofNat q, ?_⟩
      rw [toNat_ofNat_lt this]
      exact hm
  · exact ⟨0, h2⟩

theorem cutCode_of_named {t : EnumTable} {v : Int} (h : Named t v) : cutCode t v = v := by
  obtain ⟨b, hb⟩ := h
  unfold cutCode
  rw [if_pos]
  rw [List.any_eq_true]
  exact ⟨_, hb, by simp⟩

theorem cutCoded_ok {t : EnumTable} (ht : t ∈ allEnumTables) (h1 : (1, none) ∈ t) (h2 : (2, some 0) ∈ t) (v : Int) (u : Option Int) :
    CodeOk t (cutCoded t v u).1 (cutCoded t v u).2 := by
  unfold cutCoded
  split
  · rw [companion_byte]; exact (readCode_byte ht h1 _).1
  · obtain ⟨b, hb⟩ := cutCode_named ht h2 v
    exact ⟨b, .inl ⟨hb, rfl⟩⟩

theorem cutCodedStrict_ok {t : EnumTable} (ht : t ∈ allEnumTables) (h1 : (1, none) ∈ t) {v : Int} {u : Option Int} (h : v = 1 ∨ Named t v) :
    CodeOk t (cutCodedStrict t v u).1 (cutCodedStrict t v u).2 := by
  unfold cutCodedStrict
  split
  · rw [companion_byte]; exact (readCode_byte ht h1 _).1
  · rename_i hv
    obtain ⟨b, hb⟩ := h.resolve_left hv
    exact ⟨b, .inl ⟨hb, rfl⟩⟩

/-! ## Read back

Each theorem: the message is written, and what is read back is the message cut down. The hypotheses are what is
refused (fractions of a second, unknown strict codes, raw data of a wrong size) or missing. -/

/-- C74: a time. -/
theorem time_any {t : Option Timestamp} (h : WholeSeconds t) (dst : Bytes) :
    ∃ e, appendTimeReal dst t = .ok (dst ++ e) ∧ unmarshalTimeReal e = .ok (cutTime t) := by
  obtain ⟨e, -, he, hu⟩ := time_write (cutTime_ok h)
  exact ⟨e, by rw [← time_cutDown]; exact he dst, hu⟩

/-- C74: a fraction of a second is refused. -/
theorem time_fraction {t : Option Timestamp} (dst : Bytes) : (∃ e, appendTimeReal dst t = .ok e) ↔ WholeSeconds t := by
  constructor
  · rintro ⟨e, he⟩ x rfl
    simp only [appendTimeReal] at he
    split at he
    · cases he
    · omega
  · intro h
    obtain ⟨e, he, -⟩ := time_any h dst
    exact ⟨_, he⟩

/-- C74: coordinates. -/
theorem geo_any (g : GeoCoordinates) (dst : Bytes) :
    ∃ e, appendGeoCoordinates dst g = .ok (dst ++ e) ∧ unmarshalGeoCoordinates e = .ok (cutGeo g) := by
  obtain ⟨e, -, he, hu⟩ := geo_write (g := cutGeo g) (signed24_fits _) (signed24_fits _)
  exact ⟨e, by rw [← geo_cutDown]; exact he dst, hu⟩

/-- C74: a place. -/
theorem place_any (r : PlaceRecord) (hraw : RawFits r.rawData 10) (ht : WholeSeconds r.entryTime) (hr : r.region ≠ []) (dst : Bytes) :
    ∃ e, appendPlaceRecord dst r = .ok (dst ++ e) ∧ unmarshalPlaceRecord e = .ok { cutPlace r with rawData := some e } := by
  have hok : PlaceOk (cutPlace r) := by
    refine ⟨cutTime_ok ht, cutCoded_ok (by decide) (by decide) (by decide) _ _, cutCoded_ok (by decide) (by decide) (by decide) _ _, ?_,
      lowBits_fits _ _⟩
    cases hx : r.region with
    | nil => exact absurd hx hr
    | cons a t => simp [cutPlace, hx]
  obtain ⟨e, -, he, hu⟩ := place_write_read (cutPlace r) hraw hok
  exact ⟨e, by rw [← place_cutDown]; exact he dst, hu⟩

/-- C74: a position; an accuracy beyond a byte is refused. -/
theorem gnss_any (r : GNSSPlaceRecord) (ht : WholeSeconds r.timestamp) (ha : Fits 8 r.accuracy) (hg : r.geo ≠ none) (dst : Bytes) :
    ∃ e, appendGNSSPlaceRecord dst (some r) = .ok (dst ++ e) ∧ unmarshalGNSSPlaceRecord e = .ok (cutGnss r) := by
  have hok : GnssOk (cutGnss r) := by
    refine ⟨cutTime_ok ht, ha, ?_⟩
    cases hx : r.geo with
    | none => exact absurd hx hg
    | some g => exact ⟨cutGeo g, by simp [cutGnss, hx], signed24_fits _, signed24_fits _⟩
  obtain ⟨e, -, he, hu⟩ := gnss_write_read (cutGnss r) hok
  exact ⟨e, by rw [← gnss_cutDown]; exact he dst, hu⟩

theorem gnss_accuracy_refused (r : GNSSPlaceRecord) (h : ¬ Fits 8 r.accuracy) (dst : Bytes) : ∀ e, appendGNSSPlaceRecord dst (some r) ≠ .ok e := by
  intro e he
  simp only [appendGNSSPlaceRecord] at he
  rw [bind_eq_ok] at he
  obtain ⟨x, -, he⟩ := he
  have : r.accuracy < 0 ∨ r.accuracy > 255 := by unfold Fits at h; omega
  rw [if_pos this] at he
  cases he

/-- C74: a position with authentication status: its accuracy is cut. -/
theorem gnssAuth_any (r : GNSSPlaceAuthRecord) (ht : WholeSeconds r.timestamp) (hg : r.geo ≠ none)
    (hs : r.authStatus = 1 ∨ Named positionAuthenticationStatusTable r.authStatus) (dst : Bytes) :
    ∃ e, appendGNSSPlaceAuthRecord dst (some r) = .ok (dst ++ e) ∧ unmarshalGNSSPlaceAuthRecord e = .ok (cutGnssAuth r) := by
  have hok : GnssAuthOk (cutGnssAuth r) := by
    refine ⟨cutTime_ok ht, lowBits_fits _ _, ?_, cutCodedStrict_ok (by decide) (by decide) hs⟩
    cases hx : r.geo with
    | none => exact absurd hx hg
    | some g => exact ⟨cutGeo g, by simp [cutGnssAuth, hx], signed24_fits _, signed24_fits _⟩
  obtain ⟨e, -, he, hu⟩ := gnssAuth_write_read (cutGnssAuth r) hok
  exact ⟨e, by rw [← gnssAuth_cutDown]; exact he dst, hu⟩

/-- C74: a specific condition; a type that is neither named nor UNRECOGNIZED is refused. -/
theorem condition_any (r : SpecificConditionRecord) (ht : WholeSeconds r.entryTime) (hs : r.type = 1 ∨ Named specificConditionTypeTable r.type)
    (dst : Bytes) :
    ∃ e, appendSpecificConditionRecord dst (some r) = .ok (dst ++ e) ∧ unmarshalSpecificConditionRecord e = .ok (cutCondition r) := by
  obtain ⟨e, -, he, hu⟩ := condition_write_read (cutCondition r) ⟨cutTime_ok ht, cutCodedStrict_ok (by decide) (by decide) hs⟩
  exact ⟨e, by rw [← condition_cutDown]; exact he dst, hu⟩

theorem strict_refused {t : EnumTable} {v : Int} (h : ¬ Named t v) (ht : t ∈ allEnumTables) : ∀ b, marshalEnum t v ≠ .ok b := by
  intro b hb
  obtain ⟨p, hp, -⟩ := marshalEnum_ok hb
  have := (Ok_parts (enumTables_ok t ht)).2.2 _ _ hp
  exact h ⟨UInt8.ofNat p, by rw [toNat_ofNat_lt this]; exact hp⟩

theorem condition_refused (r : SpecificConditionRecord) (h1 : r.type ≠ 1) (h2 : ¬ Named specificConditionTypeTable r.type) (dst : Bytes) :
    ∀ e, appendSpecificConditionRecord dst (some r) ≠ .ok e := by
  intro e he
  simp only [appendSpecificConditionRecord, enumByte, enumUnrecognized] at he
  rw [bind_eq_ok] at he
  obtain ⟨x, -, he⟩ := he
  rw [bind_eq_ok] at he
  obtain ⟨b, hb, -⟩ := he
  have hb : (if r.type = enumUnrecognized then Res.ok (i2b (r.unrecognizedType.getD 0)) else
      marshalEnum specificConditionTypeTable r.type) = Res.ok b := hb
  rw [if_neg (show r.type ≠ enumUnrecognized from h1)] at hb
  exact strict_refused h2 (by decide) b hb

/-- C74: a registration whose nation is not named is refused, and with it every record that holds one. -/
theorem registration_refused (v : VehicleRegistration) (h : ¬ Named nationNumericTable v.nation) (dst : Bytes) :
    ∀ e, appendVehicleRegistration dst (some v) ≠ .ok e := by
  intro e he
  simp only [appendVehicleRegistration] at he
  split at he
  · cases he
  · rw [bind_eq_ok] at he
    obtain ⟨b, hb, -⟩ := he
    exact strict_refused h (by decide) b hb

section
variable [Charmap]

/-- C74: a vehicle. -/
theorem vehicle_any (r : CardVehicleRecord) (hraw : RawFits r.rawData 31) (h1 : WholeSeconds r.firstUse) (h2 : WholeSeconds r.lastUse)
    (h3 : Has RegOk r.registration) (h4 : Has (fun c => c.length = 2 ∧ 0 ≤ c.value ∧ c.value < 10000) r.counter) (dst : Bytes) :
    ∃ e r', appendCardVehicleRecord dst r = .ok (dst ++ e) ∧ unmarshalCardVehicleRecord e = .ok r' ∧ SameCardVehicle (cutVehicle r) r' := by
  obtain ⟨e, r', -, he, hu, hs, -⟩ := cardVehicle_write_read (cutVehicle r) hraw
    ⟨lowBits_fits _ _, lowBits_fits _ _, cutTime_ok h1, cutTime_ok h2, h3, h4⟩
  exact ⟨e, r', by rw [← vehicle_cutDown]; exact he dst, hu, hs⟩

/-- C74: an event or fault: a type nobody knows is read back as the type with code 0. -/
theorem event_any (r : EventRecord) (hv : r.valid = true) (h1 : WholeSeconds r.beginTime) (h1' : cutTime r.beginTime ≠ none)
    (h2 : WholeSeconds r.endTime) (h3 : Has RegOk r.registration) (dst : Bytes) :
    ∃ e r', appendEventRecord dst r = .ok (dst ++ e) ∧ eventOf e = .ok r' ∧ SameEvent (cutEvent r) r' := by
  obtain ⟨e, r', -, he, hu, hs⟩ := event_write_read (cutEvent r)
    (.inl ⟨hv, cutCode_named (by decide) (by decide) _, cutTime_ok h1, h1', cutTime_ok h2, h3⟩)
  exact ⟨e, r', by rw [← event_cutDown]; exact he dst, hu, hs⟩

end

/-- C74: EF_Application_Identification: counts are cut to their one or two bytes, and a type of card nobody knows
is read back as the one with code 0. -/
theorem appId_any (a : AppId) (h1 : Has VersionOk a.structureVersion) (h2 : a.driver ≠ none) (dst : Bytes) :
    ∃ e a', appendAppId dst (some a) = .ok (dst ++ e) ∧ unmarshalAppId e = .ok a' ∧ a'.typeOfCard = cutCode equipmentTypeTable a.typeOfCard ∧
      Both SameVersion a.structureVersion a'.structureVersion ∧ a'.driver = (cutAppId a).driver := by
  have hd : Has CountsOk (cutAppId a).driver := by
    cases hx : a.driver with
    | none => exact absurd hx h2
    | some d =>
      exact ⟨_, by rw [cutAppId, hx]; rfl, lowBits_fits _ _, lowBits_fits _ _, lowBits_fits _ _, lowBits_fits _ _, lowBits_fits _ _⟩
  obtain ⟨e, a', -, he, hu, ht, hv, hs⟩ := appId_write_read (cutAppId a) (cutCode_named (by decide) (by decide) _) h1 hd
  exact ⟨e, a', by rw [← appId_cutDown]; exact he dst, hu, ht, hv, hs⟩

/-- C74: the same in the second generation. -/
theorem appIdG2_any (a : AppIdG2) (h1 : Has VersionOk a.structureVersion) (h2 : a.driver ≠ none) (dst : Bytes) :
    ∃ e a', appendAppIdG2 dst (some a) = .ok (dst ++ e) ∧ unmarshalAppIdG2 e = .ok a' ∧ a'.typeOfCard = cutCode equipmentTypeTable a.typeOfCard ∧
      Both SameVersion a.structureVersion a'.structureVersion ∧ a'.driver = (cutAppIdG2 a).driver := by
  have hd : Has CountsG2Ok (cutAppIdG2 a).driver := by
    cases hx : a.driver with
    | none => exact absurd hx h2
    | some d =>
      exact ⟨_, by rw [cutAppIdG2, hx]; rfl, lowBits_fits _ _, lowBits_fits _ _, lowBits_fits _ _, lowBits_fits _ _, lowBits_fits _ _,
        lowBits_fits _ _, lowBits_fits _ _, lowBits_fits _ _⟩
  obtain ⟨e, a', -, he, hu, ht, hv, hs⟩ := appIdG2_write_read (cutAppIdG2 a) (cutCode_named (by decide) (by decide) _) h1 hd
  exact ⟨e, a', by rw [← appIdG2_cutDown]; exact he dst, hu, ht, hv, hs⟩

/-- C74: EF_Application_Identification_V2. -/
theorem appIdV2_any (a : AppIdV2) (dst : Bytes) :
    ∃ e, appendAppIdV2 dst (some a) = .ok (dst ++ e) ∧ unmarshalAppIdV2 e = .ok (cutAppIdV2 a) := by
  obtain ⟨e, -, he, hu⟩ := appIdV2_write_read (cutAppIdV2 a) (lowBits_fits _ _) (lowBits_fits _ _) (lowBits_fits _ _) (lowBits_fits _ _)
  exact ⟨e, by rw [← appIdV2_cutDown]; exact he dst, hu⟩

/-- C74: EF_IC: byte strings are cut or filled up to four bytes. -/
theorem ic_any (i : Ic) (dst : Bytes) : ∃ e, appendCardIc dst (some i) = .ok (dst ++ e) ∧ unmarshalIc e = .ok (cutIc i) := by
  obtain ⟨e, -, he, hu⟩ := ic_write_read (cutIc i) (by simp [cutIc, cutBytes]) (by simp [cutIc, cutBytes])
  exact ⟨e, by rw [← ic_cutDown]; exact he dst, hu⟩

/-- C74: an entry of EF_GNSS_Places; an odometer beyond 999 999 km is refused. -/
theorem gnssEntry_any (r : GnssPlaceEntry) (ht : WholeSeconds r.timestamp)
    (hp : Has (fun g => WholeSeconds g.timestamp ∧ Fits 8 g.accuracy ∧ g.geo ≠ none) r.place) (ho : 0 ≤ r.odometerKm ∧ r.odometerKm ≤ 999999) (dst : Bytes) :
    ∃ e, appendGnssPlaceEntry dst r = .ok (dst ++ e) ∧ unmarshalGnssPlaceEntry e = .ok (cutGnssEntry r) := by
  obtain ⟨g, hg, g1, g2, g3⟩ := hp
  have hok : GnssEntryOk (cutGnssEntry r) := by
    refine ⟨cutTime_ok ht, ⟨cutGnss g, by simp [cutGnssEntry, hg], cutTime_ok g1, g2, ?_⟩, ho⟩
    cases hx : g.geo with
    | none => exact absurd hx g3
    | some c => exact ⟨cutGeo c, by simp [cutGnss, hx], signed24_fits _, signed24_fits _⟩
  obtain ⟨e, -, he, hu⟩ := gnssEntry_write_read (cutGnssEntry r) hok
  exact ⟨e, by rw [← gnssEntry_cutDown]; exact he dst, hu⟩

theorem gnssEntry_odometer_refused (r : GnssPlaceEntry) (h : ¬ (0 ≤ r.odometerKm ∧ r.odometerKm ≤ 999999)) (dst : Bytes) :
    ∀ e, appendGnssPlaceEntry dst r ≠ .ok e := by
  intro e he
  simp only [appendGnssPlaceEntry] at he
  rw [bind_eq_ok] at he
  obtain ⟨x, -, he⟩ := he
  rw [bind_eq_ok] at he
  obtain ⟨y, -, he⟩ := he
  rw [if_pos (by omega)] at he
  cases he

/-- C74: an entry of EF_Vehicle_Units_Used. -/
theorem unit_any (r : VehicleUnitRecord) (ht : WholeSeconds r.timestamp) (hm : Fits 8 r.manufacturerCode) (hd : r.deviceId.length ≤ 1)
    (hs : r.softwareVersion.length ≤ 4) (dst : Bytes) :
    ∃ e, appendVehicleUnitRecord dst r = .ok (dst ++ e) ∧ vehicleUnitOf e = cutUnit r := by
  obtain ⟨e, -, he, hu⟩ := unit_write_read (cutUnit r) ⟨cutTime_ok ht, hm, by simp [cutUnit]; omega, by simp [cutUnit]; omega⟩
  exact ⟨e, by rw [← unit_cutDown]; exact he dst, hu⟩

/-- C74: a change of activity. -/
theorem change_any (c : ActivityChangeInfo) (hr : ∀ r, c.rawData = some r → r.length = 2) (h1 : Named cardSlotNumberTable c.slot)
    (h2 : Named driverActivityValueTable c.activity) (dst : Bytes) :
    ∃ e, appendActivityChangeInfo dst c = .ok (dst ++ e) ∧ unmarshalActivityChangeInfo e = .ok { cutChange c with rawData := some e } := by
  have hs : c.slot = 2 ∨ c.slot = 3 := by
    obtain ⟨b, hb⟩ := h1
    simp only [cardSlotNumberTable, List.mem_cons, Prod.mk.injEq, List.not_mem_nil, or_false] at hb
    simp at hb
    omega
  have ha : c.activity = 2 ∨ c.activity = 3 ∨ c.activity = 4 ∨ c.activity = 5 := by
    obtain ⟨b, hb⟩ := h2
    simp only [driverActivityValueTable, List.mem_cons, Prod.mk.injEq, List.not_mem_nil, or_false] at hb
    simp at hb
    omega
  have hm := lowBits_fits 11 c.timeOfChangeMinutes
  obtain ⟨hm1, hm2⟩ := hm
  let x : Spec.AciBits := ⟨(c.slot - 2).toNat, if c.crew then 1 else 0, if c.inserted then 0 else 1, (c.activity - 2).toNat,
    (lowBits 11 c.timeOfChangeMinutes).toNat⟩
  have hx : x.Valid := by
    refine ⟨?_, ?_, ?_, ?_, ?_⟩ <;> simp only [x]
    · omega
    · split <;> omega
    · split <;> omega
    · omega
    · omega
  have hmsg : ∀ raw, x.message raw = { cutChange c with rawData := raw } := by
    intro raw
    simp only [Spec.AciBits.message, x, cutChange, ActivityChangeInfo.mk.injEq, true_and]
    refine ⟨by omega, ?_, ?_, by omega, by omega⟩
    · cases c.crew <;> rfl
    · cases c.inserted <;> rfl
  refine ⟨beBytes 2 x.word, ?_, ?_⟩
  · rw [← change_cutDown]
    have := aci_encode x hx c.rawData hr dst
    rw [hmsg] at this
    exact this
  · have hw : x.word < 256 ^ 2 := by
      obtain ⟨a1, a2, a3, a4, a5⟩ := hx
      unfold Spec.AciBits.word; omega
    have := aci_decode x hx (beBytes 2 x.word) (by simp) (beNat_beBytes_of_lt hw)
    rw [hmsg] at this
    exact this

variable [Charmap]

/-- C74: a whole card whose values need not fit: what is read back is the card cut down. -/
theorem card_any (c : DriverCard) (h : CardOk (cutCard c)) :
    ∃ out c', marshalFile (some { type := .driverCard, driverCard := some c }) = .ok out ∧
      unmarshalFile out = .ok { type := .driverCard, driverCard := some c' } ∧ SameCard (cutCard c) c' := by
  obtain ⟨out, c', h1, h2, h3⟩ := driver_card_write_read (cutCard c) h
  exact ⟨out, c', by rw [← file_cutDown]; exact h1, h2, h3⟩

end Tacho
