import Verif.Props.Layouts
import Verif.Props.AnonymizeVehicles
import Verif.Spec.AnonymizeBytes
/-!
# Anonymising, from the bytes of a file to the bytes of its anonymised copy (C40)

The fields are those of the layouts in Verif.Spec.Regulation.
-/

namespace Tacho
open Spec Spec.Regulation

/-- A coded byte can be recovered from what is reported. -/
theorem Coded.byte_unique {t : EnumTable} (ht : t ∈ allEnumTables) {b b' : UInt8} {v : Int} {u : Option Int} (h : Coded t b v u)
    (h' : Coded t b' v u) : b = b' := by
  have hb : ∀ {x y : UInt8}, x.toNat = y.toNat → x = y := UInt8.toNat.inj
  rcases h with ⟨h1, h2⟩ | ⟨_, _, h3⟩
  · rcases h' with ⟨h1', _⟩ | ⟨_, _, h3'⟩
    · have := nodup_fst_unique (Ok_parts (enumTables_ok t ht)).1 h1 h1'
      exact hb (Option.some.inj this)
    · rw [h2] at h3'; cases h3'
  · rcases h' with ⟨_, h2'⟩ | ⟨_, _, h3'⟩
    · rw [h3] at h2'; cases h2'
    · rw [h3] at h3'
      exact hb (Int.ofNat_inj.mp (Option.some.inj h3'))

theorem forall₂_getElem? {α β : Type} {R : α → β → Prop} {xs : List α} {ys : List β} (h : List.Forall₂ R xs ys) {k : Nat} {x : α}
    (hk : xs[k]? = some x) : ∃ y, ys[k]? = some y ∧ R x y := by
  induction h generalizing k with
  | nil => simp at hk
  | cons hr _ ih =>
    cases k with
    | zero => simp only [List.getElem?_cons_zero, Option.some.injEq] at hk; subst hk; exact ⟨_, rfl, hr⟩
    | succ k => simp only [List.getElem?_cons_succ] at hk ⊢; exact ih hk

theorem finland_byte (b : UInt8) (u : Option Int) (h : Coded nationNumericTable b nationNumeric_finland u) : b = 0x12 := by
  rcases h with ⟨h, _⟩ | ⟨_, h, _⟩
  · revert h
    revert b
    exact forall_byte (by decide +kernel)
  · exact absurd h (by decide)

/-- The time fields of an anonymised record. -/
theorem instant_inv {d : Bytes} {o : Option Timestamp} (h : o = instant d) : (o.isSome ↔ beNat d ≠ 0) ∧
    ∀ i, o = some (testHour i) → beNat d = 1577836800 + 3600 * i := by
  unfold instant at h
  split at h
  · next h0 => subst h; simp [h0]
  · next h0 =>
    subst h
    refine ⟨by simp [h0], fun i hi => ?_⟩
    simp only [testHour, Option.some.injEq, Timestamp.mk.injEq] at hi
    omega

theorem placeAnonymized_of (get : String → Bytes → Bytes) {k : Nat} {x y : Bytes} {r a : PlaceRecord}
    (v1 : a.entryTime = (if k == 0 || r.entryTime.isSome then some (testHour k) else none))
    (v2 : a.country = nationNumeric_finland) (v4 : a.region = [1])
    (v5 : a.odometerKm = r.odometerKm - r.odometerKm.tmod 100)
    (v6 : a.entryType = r.entryType) (v7 : a.unrecognizedEntryType = r.unrecognizedEntryType)
    (x1 : r.entryTime = instant (get "entryTime" x))
    (x2 : ByteIs (get "entryTypeDailyWorkPeriod" x)
      (fun b => Coded entryTypeDailyWorkPeriodTable b r.entryType r.unrecognizedEntryType))
    (x5 : r.odometerKm = beNat (get "vehicleOdometerValue" x))
    (y1 : a.entryTime = instant (get "entryTime" y))
    (y2 : ByteIs (get "entryTypeDailyWorkPeriod" y)
      (fun b => Coded entryTypeDailyWorkPeriodTable b a.entryType a.unrecognizedEntryType))
    (y3 : ByteIs (get "dailyWorkPeriodCountry" y) (fun b => Coded nationNumericTable b a.country a.unrecognizedCountry))
    (y4 : a.region = get "dailyWorkPeriodRegion" y) (y5 : a.odometerKm = beNat (get "vehicleOdometerValue" y)) :
    PlaceAnonymized get k x y := by
  obtain ⟨xb, x2, x2'⟩ := x2
  obtain ⟨yb, y2, y2'⟩ := y2
  obtain ⟨yc, y3, y3'⟩ := y3
  refine ⟨?_, ?_, ?_, ?_, ?_⟩
  · obtain ⟨i1, i2⟩ := instant_inv y1
    have ix := (instant_inv x1).1
    rw [v1] at i1 i2
    by_cases hc : k = 0 ∨ r.entryTime.isSome
    · rw [if_pos (by simpa using hc)] at i2
      rw [if_pos (by rcases hc with hc | hc; exact .inl hc; exact .inr (ix.mp hc))]
      exact i2 k rfl
    · rw [if_neg (by simpa using hc)] at i1
      rw [if_neg (by rw [not_or] at hc ⊢; exact ⟨hc.1, fun hh => hc.2 (ix.mpr hh)⟩)]
      simpa using i1
  · rw [v6, v7] at y2'
    rw [x2, y2, Coded.byte_unique (by simp [allEnumTables]) y2' x2']
  · rw [v2] at y3'
    rw [y3, finland_byte yc _ y3']
  · rw [← y4, v4]
  · rw [v5, x5] at y5
    have : (beNat (get "vehicleOdometerValue" x) : Int).tmod 100 = ((beNat (get "vehicleOdometerValue" x) % 100 : Nat) : Int) := rfl
    rw [this] at y5
    omega

variable [Charmap]

/-- C40: anonymising a file of places, in terms of the bytes: as many records, with the same pointer to the newest; each is at
the next full hour of the first of January 2020 (or undated, if it is not the first and was undated), of the same type, in
Finland, in region 1, and its odometer value is rounded down to the hundred. -/
theorem anonymize_places_bytes (d : Bytes) (p : RecordFile PlaceRecord) (h : unmarshalPlaces d = .ok p)
    (hn : p.records.length ≤ 754000) :
    ∃ b : Bytes, (anonymizePlaces p).rawData = some b ∧ placesG1.newest b = placesG1.newest d ∧
      (placesG1.recordsOf b).length = (placesG1.recordsOf d).length ∧
      ∀ k x y, (placesG1.recordsOf d)[k]? = some x → (placesG1.recordsOf b)[k]? = some y →
        PlaceAnonymized placeRecordG1.get k x y := by
  obtain ⟨b, _, hb, hu⟩ := anonymize_places_reparses d p h hn
  obtain ⟨hr, hw, _⟩ := anonymizePlaces_records p
  obtain ⟨n1, f1⟩ := places_regulation d p h
  obtain ⟨n2, f2⟩ := places_regulation b _ hu
  rw [hr] at f2
  rw [hw, n1] at n2
  have l1 := f1.length_eq
  have l2 := f2.length_eq
  refine ⟨b, hb, by omega, by rw [l2, l1, List.length_mapIdx], fun k x y hx hy => ?_⟩
  obtain ⟨r, hrk, hxr⟩ := forall₂_getElem? f1 hx
  obtain ⟨a, hak, hya⟩ := forall₂_getElem? f2 hy
  rw [List.getElem?_mapIdx, hrk] at hak
  simp only [Option.map_some, Option.some.injEq] at hak
  subst hak
  obtain ⟨_, v1, v2, v3, v4, v5, v6, v7, _⟩ := placeAt_values k r
  obtain ⟨_, x1, x2, _, _, x5⟩ := place_regulation x r hxr
  obtain ⟨_, y1, y2, y3, y4, y5⟩ := place_regulation y _ hya
  exact placeAnonymized_of _ v1 v2 v4 v5 v6 v7 x1 x2 x5 y1 y2 y3 y4 y5

/-- C40: the same for generation 2, where a record also has a satellite fix: it moves to Helsinki, its time is the time of the
record (or none, if it had none) and its accuracy stays. -/
theorem anonymize_placesG2_bytes (d : Bytes) (p : RecordFile PlaceRecordG2) (h : unmarshalPlacesG2 d = .ok p)
    (hn : p.records.length ≤ 754000) :
    ∃ b : Bytes, (anonymizePlacesG2 p).rawData = some b ∧ placesG2.newest b = placesG2.newest d ∧
      (placesG2.recordsOf b).length = (placesG2.recordsOf d).length ∧
      ∀ k x y, (placesG2.recordsOf d)[k]? = some x → (placesG2.recordsOf b)[k]? = some y →
        PlaceAnonymized placeRecordG2.get k x y ∧
        FixAnonymized k (placeRecordG2.get "entryGNSSPlaceRecord" x) (placeRecordG2.get "entryGNSSPlaceRecord" y) := by
  obtain ⟨b, _, hb, hu⟩ := anonymize_placesG2_reparses d p h hn
  obtain ⟨hr, hw, _⟩ := anonymizePlacesG2_records p
  obtain ⟨n1, f1⟩ := placesG2_regulation d p h
  obtain ⟨n2, f2⟩ := placesG2_regulation b _ hu
  rw [hr] at f2
  rw [hw, n1] at n2
  have l1 := f1.length_eq
  have l2 := f2.length_eq
  refine ⟨b, hb, by omega, by rw [l2, l1, List.length_mapIdx], fun k x y hx hy => ?_⟩
  obtain ⟨r, hrk, hxr⟩ := forall₂_getElem? f1 hx
  obtain ⟨a, hak, hya⟩ := forall₂_getElem? f2 hy
  rw [List.getElem?_mapIdx, hrk] at hak
  simp only [Option.map_some, Option.some.injEq] at hak
  subst hak
  obtain ⟨_, v1, v2, v3, v4, v5, v6, v7, v8, _⟩ := placeG2At_values k r
  obtain ⟨_, x1, x2, _, _, x5, g, xg, hg⟩ := placeG2_regulation x r hxr
  obtain ⟨_, y1, y2, y3, y4, y5, g', yg, hg'⟩ := placeG2_regulation y _ hya
  rw [xg, Option.map_some, yg, Option.some.injEq] at v8
  subst v8
  refine ⟨placeAnonymized_of _ v1 v2 v4 v5 v6 v7 x1 x2 x5 y1 y2 y3 y4 y5, ?_⟩
  obtain ⟨_, t1, ⟨c, a1, a2⟩, _⟩ := gnss_regulation _ _ hg
  obtain ⟨_, t2, ⟨c', b1, b2⟩, q, hq, o1, o2⟩ := gnss_regulation _ _ hg'
  simp only [Option.some.injEq] at hq
  subst hq
  refine ⟨?_, ?_, o1, o2⟩
  · obtain ⟨i1, i2⟩ := instant_inv t2
    have ix := (instant_inv t1).1
    cases ht : g.timestamp with
    | none =>
      rw [ht] at ix i1
      rw [if_neg (by simpa using ix)]
      simpa using i1
    | some t =>
      rw [ht] at ix i2
      rw [if_pos (by simpa using ix)]
      exact i2 k rfl
  · rw [a1, b1]
    simp only at b2
    rw [a2] at b2
    rw [UInt8.toNat.inj (Int.ofNat_inj.mp b2)]

omit [Charmap] in
theorem CodedLossy.nation_unique {b b' : UInt8} {v : Int} (h : CodedLossy nationNumericTable b v) (hk : Known nationNumericTable b)
    (h' : CodedLossy nationNumericTable b' v) : b' = b := by
  have ht : nationNumericTable ∈ allEnumTables := by simp [allEnumTables]
  have hn := (Ok_parts (enumTables_ok _ ht)).1
  rcases h with h | ⟨h, _⟩
  · rcases h' with h' | ⟨_, h1⟩
    · exact UInt8.toNat.inj (Option.some.inj (nodup_fst_unique hn h' h))
    · subst h1
      cases nodup_fst_unique hn h (show ((1 : Int), none) ∈ nationNumericTable by decide)
  · obtain ⟨w, hw⟩ := hk
    exact absurd hw (h w)

/-- C40: anonymising a file of vehicles used, all of known nations, in terms of the bytes; the registration number reads TEST-VRN.
The character table of code page 1 is taken to keep ASCII. -/
theorem anonymize_vehicles_bytes (d : Bytes) (p : RecordFile CardVehicleRecord) (h : unmarshalVehiclesUsed d = .ok p)
    (hn : p.records.length ≤ 31447) (hk : AllRecords 2 31 d (ByteAt · 14 (Known nationNumericTable)))
    (hmap : ∀ x, Ascii x → Charmap.decode (charmapOf 1) x = x) :
    ∃ b : Bytes, (anonymizeVehiclesUsed p).rawData = some b ∧ vehiclesUsedG1.newest b = vehiclesUsedG1.newest d ∧
      (vehiclesUsedG1.recordsOf b).length = (vehiclesUsedG1.recordsOf d).length ∧
      ∀ k x y, (vehiclesUsedG1.recordsOf d)[k]? = some x → (vehiclesUsedG1.recordsOf b)[k]? = some y →
        VehicleAnonymized k x y ∧
        ∃ s, unmarshalStringValue ((vehicleRecordG1.get "vehicleRegistration" y).drop 1) = .ok s ∧ s.value = "TEST-VRN".toUTF8.toList := by
  obtain ⟨b, p', _, hb, happ, hu, han, hsame⟩ := (anonymize_vehiclesUsed_reparses d p h hn).1 hk
  have hsame := hsame hmap
  obtain ⟨hr, hw, _⟩ := anonymizeVehiclesUsed_records p
  have hw' := (anonymizeVehiclesUsed_records p').2.1
  obtain ⟨n1, f1⟩ := vehiclesUsed_regulation d p h
  obtain ⟨n2, f2⟩ := vehiclesUsed_regulation b _ hu
  rw [← hw', han, hw, n1] at n2
  rw [hr] at hsame
  have l1 := f1.length_eq
  have l2 := f2.length_eq
  have l3 := hsame.length_eq
  rw [List.length_mapIdx] at l3
  refine ⟨b, hb, by omega, by omega, fun k x y hx hy => ?_⟩
  obtain ⟨r, hrk, hxr⟩ := forall₂_getElem? f1 hx
  obtain ⟨a, hak, hya⟩ := forall₂_getElem? f2 hy
  have hmk : (p.records.mapIdx (fun i r => anonymizeCardVehicleRecord r i))[k]? = some (anonymizeCardVehicleRecord r k) := by
    rw [List.getElem?_mapIdx, hrk]; rfl
  obtain ⟨a', hak', s1, s2, s3, s4, s5, s6⟩ := forall₂_getElem? hsame hmk
  rw [hak, Option.some.injEq] at hak'
  subst hak'
  obtain ⟨v1, v2, v3, v4, v5, v6⟩ := anonymize_vehicle_values r k
  obtain ⟨xl, x1, x2, _, _, ⟨rx, x5, x5'⟩, x6⟩ := vehicle_regulation x r hxr
  obtain ⟨yl, y1, y2, y3, y4, ⟨ry, y5, y5'⟩, y6⟩ := vehicle_regulation y a hya
  rw [s1, v4, x1] at y1
  rw [s2, v5, x2] at y2
  rw [s3, v1] at y3
  rw [s4, v2] at y4
  rw [s6, v6, x6] at y6
  rw [v3, x5, Option.map_some, y5] at s5
  obtain ⟨_, _, e1, e2, s5, s5'⟩ := s5
  cases e1
  cases e2
  have kx : ByteAt x 14 (Known nationNumericTable) := by
    have hki : k < (vehiclesUsedG1.recordsOf d).length := by
      rw [List.getElem?_eq_some_iff] at hx; exact hx.1
    have := hk k (by
      rw [CyclicFile.recordsOf, List.length_map, List.length_range] at hki
      exact hki)
    have e : record 2 31 k d = x := by
      rw [List.getElem?_eq_some_iff] at hx
      obtain ⟨_, hx⟩ := hx
      rw [← hx]
      simp only [CyclicFile.recordsOf, List.getElem_map, List.getElem_range, List.drop_drop]
      rfl
    rwa [e] at this
  obtain ⟨⟨nx, hnx, hcx⟩, _⟩ := registration_fields _ _ x5'
  obtain ⟨⟨ny, hny, hcy⟩, sy, hsy, hsy'⟩ := registration_fields _ _ y5'
  have hreg : ∀ z : Bytes, vehicleRecordG1.get "vehicleRegistration" z = (z.drop 14).take 15 := fun z => by
    simp [Layout.get, vehicleRecordG1]
  have tm : ∀ n : Nat, (n : Int).tmod 1000 = ((n % 1000 : Nat) : Int) := fun _ => rfl
  have day : ∀ {e : Bytes} {t : Nat}, some (⟨(t : Int), 0⟩ : Timestamp) = instant e → beNat e = t := fun {e t} hh => by
    unfold instant at hh
    split at hh
    · cases hh
    · simp only [Option.some.injEq, Timestamp.mk.injEq] at hh; omega
  refine ⟨⟨day (by rw [← y3]; rfl), day (by rw [← y4]; rfl), ?_, ?_, ?_, ?_⟩, ?_⟩
  · have := tm (beNat (vehicleRecordG1.get "vehicleOdometerBegin" x))
    omega
  · have := tm (beNat (vehicleRecordG1.get "vehicleOdometerEnd" x))
    omega
  · have kn : Known nationNumericTable nx := by
      obtain ⟨c, hc, hc'⟩ := kx
      rw [hreg, List.getElem?_take_of_lt (by omega), List.getElem?_drop] at hnx
      rw [show 14 + 0 = 14 by rfl, hc] at hnx
      cases hnx
      exact hc'
    rw [s5] at hcy
    have := CodedLossy.nation_unique hcx kn hcy
    subst this
    have t1 : ∀ {z : Bytes} {c : UInt8}, z[0]? = some c → z.take 1 = [c] := fun {z c} hz => by
      cases z with
      | nil => simp at hz
      | cons => simp at hz; simp [hz]
    rw [t1 hnx, t1 hny]
  · simp only [Option.some.injEq, BcdString.mk.injEq, and_true] at y6
    exact y6.symm
  · refine ⟨sy, ?_, ?_⟩
    · rw [← hsy', sl_to_end]
      rw [hreg, List.length_take, List.length_drop, yl]
      decide
    · rcases s5' with ⟨t, t', e1, e2, _, _, _, h4⟩ | ⟨h0, _⟩
      · cases e1
        rw [hsy] at e2
        cases e2
        rw [h4 rfl]
        decide +kernel
      · cases h0

/-- Two records in Germany, the second one undated, and their anonymised copies. -/
def placeBytesBefore : Bytes :=
  [1, 0x5E, 0x0B, 0xE1, 0x02, 1, 13, 4, 0, 0x30, 0x39,
   0, 0, 0, 0, 0, 13, 4, 0, 0x30, 0x3A]

example : ∃ p, unmarshalPlaces placeBytesBefore = .ok p ∧ p.records.length ≤ 754000 := by
  obtain ⟨p, hp⟩ := (places_accepts_iff placeBytesBefore).mpr (by decide)
  refine ⟨p, hp, ?_⟩
  rw [((places_ok_iff _ _).mp hp).2.2.2.1]
  decide

example : (placesG1.recordsOf placeBytesBefore).length = 2 := by decide +kernel

omit [Charmap] in
example : PlaceAnonymized placeRecordG1.get 0 [0x5E, 0x0B, 0xE1, 0x02, 1, 13, 4, 0, 0x30, 0x39]
    [0x5E, 0x0B, 0xE1, 0, 1, 0x12, 1, 0, 0x30, 0x0C] := by unfold PlaceAnonymized; decide +kernel
omit [Charmap] in
/-- It may not stay in Germany, and not keep its hour. -/
example : ¬ PlaceAnonymized placeRecordG1.get 0 [0x5E, 0x0B, 0xE1, 0x02, 1, 13, 4, 0, 0x30, 0x39]
    [0x5E, 0x0B, 0xE1, 0, 1, 13, 1, 0, 0x30, 0x0C] := by unfold PlaceAnonymized; decide +kernel
omit [Charmap] in
example : ¬ PlaceAnonymized placeRecordG1.get 0 [0x5E, 0x0B, 0xE1, 0x02, 1, 13, 4, 0, 0x30, 0x39]
    [0x5E, 0x0B, 0xE1, 0x02, 1, 0x12, 1, 0, 0x30, 0x0C] := by unfold PlaceAnonymized; decide +kernel

/-- A vehicle, and what becomes of it. -/
example : ∃ p, unmarshalVehiclesUsed (twoVehicles.take 33) = .ok p ∧ p.records.length ≤ 31447 ∧
    AllRecords 2 31 (twoVehicles.take 33) (ByteAt · 14 (Known nationNumericTable)) := by
  have key : ∀ {P : Bytes → Prop}, P (record 2 31 0 twoVehicles) → AllRecords 2 31 (twoVehicles.take 33) P := fun h i hi => by
    have : i = 0 := by
      have : recordCount 2 31 (twoVehicles.take 33) = 1 := rfl
      omega
    subst this
    exact h
  obtain ⟨p, hp, hn⟩ := anonymized_vehicles_read (d := twoVehicles.take 33) (n := 1) (by decide) rfl (key ⟨⟨0x12, rfl, by decide⟩, ⟨0x34, rfl, by decide⟩⟩)
  exact ⟨p, hp, by omega, key ⟨13, rfl, 16, by decide⟩⟩

omit [Charmap] in
example : VehicleAnonymized 0 ((twoVehicles.drop 2).take 31)
    [0, 0x2E, 0xE0, 0, 0x2E, 0xE0, 0x5E, 0x0B, 0xE1, 0, 0x5E, 0x0D, 0x32, 0x7F, 13, 1, 0x54, 0x45, 0x53, 0x54, 0x2D, 0x56, 0x52, 0x4E,
     0x20, 0x20, 0x20, 0x20, 0x20, 0x12, 0x34] := by unfold VehicleAnonymized; decide +kernel

/-- A record of generation 2 meets the hypotheses. -/
example : ∃ p, unmarshalPlacesG2 ([0, 0, 0x5E, 0x0B, 0xE1, 0x02, 1, 13, 4, 0, 0x30, 0x39, 0x5E, 0x0B, 0xE1, 0x01, 7, 0x00, 0xC0, 0x00,
    0xFF, 0xF0, 0x00] : Bytes) = .ok p ∧ p.records.length ≤ 754000 := by
  obtain ⟨p, hp⟩ := (placesG2_accepts_iff ([0, 0, 0x5E, 0x0B, 0xE1, 0x02, 1, 13, 4, 0, 0x30, 0x39, 0x5E, 0x0B, 0xE1, 0x01, 7, 0x00, 0xC0,
    0x00, 0xFF, 0xF0, 0x00] : Bytes)).mpr (by decide)
  refine ⟨p, hp, ?_⟩
  rw [((placesG2_ok_iff _ _).mp hp).2.2.2.1]
  decide

omit [Charmap] in
example : FixAnonymized 3 [0x5E, 0x0B, 0xE1, 0x01, 7, 0x00, 0xC0, 0x00, 0xFF, 0xF0, 0x00]
    [0x5E, 0x0C, 0x0B, 0x30, 7, 0x00, 0xEA, 0xC4, 0x00, 0x5F, 0xF0] := by unfold FixAnonymized IsInt24; decide +kernel

end Tacho
