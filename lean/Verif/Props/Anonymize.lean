import Verif.Spec.Anonymize
import Verif.Props.RecordFiles
import Verif.Props.Records
import Verif.Props.Identification
import Verif.Props.ActivityRebuild
/-!
# Anonymisation (C40)

For every anonymiser: the exact information that survives (`… = … ↔` the kept parts agree), the documented
replacement values, idempotence, and that the copy can be written and read back.
-/

namespace Tacho
open Spec

/-! ## Record level -/

/-- The replacement registration number. -/
def Spec.testPlate : StringValue :=
  { encoding := encoding_iso88591, rawData := none, length := some 13, value := "TEST-VRN".toUTF8.toList }

/-- C40: the values of an anonymised vehicle record: day `i` of 2020, the test registration number, odometers
rounded down to the thousand, nation and counter kept. -/
theorem anonymize_vehicle_values (r : CardVehicleRecord) (i : Nat) :
    let a := anonymizeCardVehicleRecord r i
    a.firstUse = some ⟨1577836800 + 86400 * (i : Int), 0⟩ ∧
    a.lastUse = some ⟨1577836800 + 86400 * (i : Int) + 86399, 0⟩ ∧
    a.registration = r.registration.map (fun v => ⟨v.nation, some testPlate⟩) ∧
    a.odometerBegin = r.odometerBegin - r.odometerBegin.tmod 1000 ∧
    a.odometerEnd = r.odometerEnd - r.odometerEnd.tmod 1000 ∧
    a.counter = r.counter := by
  have hp : testPlate = { encoding := encoding_iso88591, rawData := none, length := some 13
                          value := [0x54, 0x45, 0x53, 0x54, 0x2D, 0x56, 0x52, 0x4E] } := by decide +kernel
  have e : ∀ x : Int, x.tdiv 1000 * 1000 = x - x.tmod 1000 := fun x => by
    have := Int.mul_tdiv_add_tmod x 1000; omega
  dsimp only
  unfold anonymizeCardVehicleRecord
  dsimp only
  rw [hp, ← e, ← e]
  refine ⟨?_, ?_, ?_, ?_, ?_, ?_⟩
  · split <;> simp only [Option.some.injEq, Timestamp.mk.injEq, and_true] <;> omega
  · split <;> simp only [Option.some.injEq, Timestamp.mk.injEq, and_true] <;> omega
  all_goals split <;> rfl

/-- The rest of an anonymised vehicle record decides its raw data. -/
theorem anonymize_vehicle_raw (r : CardVehicleRecord) (i : Nat) :
    (anonymizeCardVehicleRecord r i).rawData =
      match appendCardVehicleRecord [] { anonymizeCardVehicleRecord r i with rawData := none } with
      | .ok b => some b
      | _ => none := by
  have h : ({ anonymizeCardVehicleRecord r i with rawData := none } : CardVehicleRecord) = {
      rawData := none
      odometerBegin := r.odometerBegin.tdiv 1000 * 1000
      odometerEnd := r.odometerEnd.tdiv 1000 * 1000
      firstUse := some ⟨1577836800 + (i : Int) * 86400, 0⟩
      lastUse := some ⟨1577836800 + (i : Int) * 86400 + 86400 - 1, 0⟩
      registration := r.registration.map (fun v => {
        nation := v.nation
        number := some {
          encoding := encoding_iso88591, rawData := none, length := some 13
          value := [0x54, 0x45, 0x53, 0x54, 0x2D, 0x56, 0x52, 0x4E] } })
      counter := r.counter } := by
    unfold anonymizeCardVehicleRecord
    dsimp only
    split <;> rfl
  rw [h]
  unfold anonymizeCardVehicleRecord
  dsimp only
  split <;> simp_all

theorem tmod_sub_iff {x y k : Int} (hk : 0 < k) : x - x.tmod k = y - y.tmod k ↔ x.tdiv k = y.tdiv k := by
  have h1 := Int.mul_tdiv_add_tmod x k
  have h2 := Int.mul_tdiv_add_tmod y k
  constructor
  · intro h
    have : k * x.tdiv k = k * y.tdiv k := by omega
    exact Int.eq_of_mul_eq_mul_left (by omega) this
  · intro h
    rw [h] at h1
    omega

theorem tdiv_tmod_sub {x k : Int} (hk : 0 < k) : (x - x.tmod k).tdiv k = x.tdiv k := by
  have h1 := Int.mul_tdiv_add_tmod x k
  have : x - x.tmod k = k * x.tdiv k := by omega
  rw [this, Int.mul_tdiv_cancel_left _ (by omega)]

/-- C40: two vehicle records are anonymised alike exactly when they agree on the odometers to the thousand,
the nation and the counter. -/
theorem anonymize_vehicle_iff (r r' : CardVehicleRecord) (i : Nat) :
    anonymizeCardVehicleRecord r i = anonymizeCardVehicleRecord r' i ↔ vehicleKept r = vehicleKept r' := by
  obtain ⟨a1, a2, a3, a4, a5, a6⟩ := anonymize_vehicle_values r i
  obtain ⟨b1, b2, b3, b4, b5, b6⟩ := anonymize_vehicle_values r' i
  have ar := anonymize_vehicle_raw r i
  have br := anonymize_vehicle_raw r' i
  have hreg : (r.registration.map (fun v => (⟨v.nation, some testPlate⟩ : VehicleRegistration))
      = r'.registration.map (fun v => ⟨v.nation, some testPlate⟩)) ↔
      r.registration.map (·.nation) = r'.registration.map (·.nation) := by
    cases r.registration <;> cases r'.registration <;> simp
  generalize anonymizeCardVehicleRecord r i = a at *
  generalize anonymizeCardVehicleRecord r' i = b at *
  simp only [vehicleKept, Prod.mk.injEq]
  rw [← hreg, ← tmod_sub_iff (by decide), ← tmod_sub_iff (x := r.odometerEnd) (by decide)]
  constructor
  · rintro rfl
    exact ⟨a4.symm.trans b4, a5.symm.trans b5, a3.symm.trans b3, a6.symm.trans b6⟩
  · rintro ⟨h1, h2, h3, h4⟩
    obtain ⟨ra, oa, ea, fa, la, ga, ca⟩ := a
    obtain ⟨rb, ob, eb, fb, lb, gb, cb⟩ := b
    dsimp only at *
    subst a1 a2 a3 a4 a5 a6 b1 b2 b3 b4 b5 b6
    rw [h1, h2, h3, h4] at *
    rw [ar, br]

theorem vehicleKept_anonymize (r : CardVehicleRecord) (i : Nat) :
    vehicleKept (anonymizeCardVehicleRecord r i) = vehicleKept r := by
  obtain ⟨a1, a2, a3, a4, a5, a6⟩ := anonymize_vehicle_values r i
  simp only [vehicleKept, a3, a4, a5, a6, tdiv_tmod_sub (k := 1000) (by decide), Option.map_map, Function.comp_def]

/-- C40: anonymising twice is anonymising once. -/
theorem anonymize_vehicle_idem (r : CardVehicleRecord) (i : Nat) :
    anonymizeCardVehicleRecord (anonymizeCardVehicleRecord r i) i = anonymizeCardVehicleRecord r i :=
  (anonymize_vehicle_iff _ _ i).mpr (vehicleKept_anonymize r i)

/-! ### Places -/

/-- C40: the values of an anonymised place record: Finland, region 1, odometer rounded down to the hundred,
entry type kept. The entry time is kept too, although the documentation of the function says it is shifted. -/
theorem anonymize_place_values (r : PlaceRecord) :
    let a := anonymizePlaceRecord r
    a.valid = false ∧ a.country = nationNumeric_finland ∧ a.unrecognizedCountry = none ∧ a.region = [1] ∧
    a.odometerKm = r.odometerKm - r.odometerKm.tmod 100 ∧
    a.entryType = r.entryType ∧ a.unrecognizedEntryType = r.unrecognizedEntryType ∧ a.entryTime = r.entryTime := by
  have e : ∀ x : Int, x.tdiv 100 * 100 = x - x.tmod 100 := fun x => by
    have := Int.mul_tdiv_add_tmod x 100; omega
  dsimp only
  rw [← e]
  unfold anonymizePlaceRecord
  dsimp only
  refine ⟨?_, ?_, ?_, ?_, ?_, ?_, ?_, ?_⟩ <;> split <;> rfl

theorem anonymize_place_raw (r : PlaceRecord) :
    (anonymizePlaceRecord r).rawData =
      match appendPlaceRecord [] { anonymizePlaceRecord r with rawData := none } with
      | .ok b => some b
      | _ => none := by
  have h : ({ anonymizePlaceRecord r with rawData := none } : PlaceRecord) = {
      rawData := none
      entryTime := r.entryTime
      entryType := r.entryType
      unrecognizedEntryType := r.unrecognizedEntryType
      country := nationNumeric_finland
      unrecognizedCountry := none
      region := [1]
      odometerKm := r.odometerKm.tdiv 100 * 100 } := by
    unfold anonymizePlaceRecord
    dsimp only
    split <;> rfl
  rw [h]
  unfold anonymizePlaceRecord
  dsimp only
  split <;> simp_all

/-- C40: two place records are anonymised alike exactly when they agree on the entry time and type and on the
odometer to the hundred. -/
theorem anonymize_place_iff (r r' : PlaceRecord) :
    anonymizePlaceRecord r = anonymizePlaceRecord r' ↔ placeKept r = placeKept r' := by
  obtain ⟨av, a1, a2, a3, a4, a5, a6, a7⟩ := anonymize_place_values r
  obtain ⟨bv, b1, b2, b3, b4, b5, b6, b7⟩ := anonymize_place_values r'
  have ar := anonymize_place_raw r
  have br := anonymize_place_raw r'
  generalize anonymizePlaceRecord r = a at *
  generalize anonymizePlaceRecord r' = b at *
  simp only [placeKept, Prod.mk.injEq]
  rw [← tmod_sub_iff (by decide)]
  constructor
  · rintro rfl
    exact ⟨a7.symm.trans b7, a5.symm.trans b5, a6.symm.trans b6, a4.symm.trans b4⟩
  · rintro ⟨h1, h2, h3, h4⟩
    obtain ⟨ra, ta, ea, ua, ca, va, ga, oa, ma⟩ := a
    obtain ⟨rb, tb, eb, ub, cb, vb, gb, ob, mb⟩ := b
    dsimp only at *
    subst av bv a1 a2 a3 a4 a5 a6 a7 b1 b2 b3 b4 b5 b6 b7
    rw [h1, h2, h3, h4] at *
    rw [ar, br]

theorem placeKept_anonymize (r : PlaceRecord) : placeKept (anonymizePlaceRecord r) = placeKept r := by
  obtain ⟨av, a1, a2, a3, a4, a5, a6, a7⟩ := anonymize_place_values r
  simp only [placeKept, a4, a5, a6, a7, tdiv_tmod_sub (k := 100) (by decide)]

theorem anonymize_place_idem (r : PlaceRecord) : anonymizePlaceRecord (anonymizePlaceRecord r) = anonymizePlaceRecord r :=
  (anonymize_place_iff _ _).mpr (placeKept_anonymize r)

/-- C40: GNSS positions become Helsinki; time and accuracy are kept. -/
theorem anonymize_gnss_values (g : GNSSPlaceRecord) :
    anonymizeGNSSPlaceRecord (some g) = some ⟨g.timestamp, g.accuracy, some ⟨60100, 24560⟩⟩ := rfl

theorem anonymize_gnss_iff (g g' : Option GNSSPlaceRecord) :
    anonymizeGNSSPlaceRecord g = anonymizeGNSSPlaceRecord g' ↔ g.map gnssKept = g'.map gnssKept := by
  cases g <;> cases g' <;> simp [anonymizeGNSSPlaceRecord, gnssKept]

/-- C40 -/
theorem anonymize_gnss_idem (g : Option GNSSPlaceRecord) :
    anonymizeGNSSPlaceRecord (anonymizeGNSSPlaceRecord g) = anonymizeGNSSPlaceRecord g := by
  cases g <;> rfl

/-- C40: a Gen2 place record: as Gen1, Helsinki for the position, and no raw data. -/
theorem anonymize_placeG2_values (r : PlaceRecordG2) :
    let a := anonymizePlaceRecordG2 r
    a.base.valid = false ∧ a.base.rawData = none ∧ a.base.country = nationNumeric_finland ∧ a.base.unrecognizedCountry = none ∧
    a.base.region = [1] ∧ a.base.odometerKm = r.base.odometerKm - r.base.odometerKm.tmod 100 ∧
    a.base.entryType = r.base.entryType ∧ a.base.unrecognizedEntryType = r.base.unrecognizedEntryType ∧
    a.base.entryTime = r.base.entryTime ∧
    a.gnss = r.gnss.map (fun g => ⟨g.timestamp, g.accuracy, some ⟨60100, 24560⟩⟩) := by
  refine ⟨rfl, rfl, rfl, rfl, rfl, ?_, rfl, rfl, rfl, rfl⟩
  have := Int.mul_tdiv_add_tmod r.base.odometerKm 100
  simp only [anonymizePlaceRecordG2]
  omega

theorem anonymize_placeG2_iff (r r' : PlaceRecordG2) :
    anonymizePlaceRecordG2 r = anonymizePlaceRecordG2 r' ↔ placeG2Kept r = placeG2Kept r' := by
  have e : ∀ x y : Int, x.tdiv 100 * 100 = y.tdiv 100 * 100 ↔ x.tdiv 100 = y.tdiv 100 := fun x y => by omega
  simp only [anonymizePlaceRecordG2, placeG2Kept, placeKept, PlaceRecordG2.mk.injEq, PlaceRecord.mk.injEq,
    Prod.mk.injEq, anonymize_gnss_iff, e, true_and, and_true]

theorem anonymize_placeG2_idem (r : PlaceRecordG2) :
    anonymizePlaceRecordG2 (anonymizePlaceRecordG2 r) = anonymizePlaceRecordG2 r := by
  have := anonymize_placeG2_values r
  obtain ⟨_, _, _, _, _, h, _⟩ := this
  rw [anonymize_placeG2_iff]
  simp only [placeG2Kept, placeKept, h, tdiv_tmod_sub (k := 100) (by decide)]
  cases hg : r.gnss <;> simp [anonymizePlaceRecordG2, hg, anonymizeGNSSPlaceRecord, gnssKept]

/-! ### Activity changes, driver identification -/

/-- C40: activity changes are moved to half-hour steps within the day, everything else but the raw bytes is
kept. -/
theorem anonymize_activity_values (a : ActivityChangeInfo) (i : Nat) :
    anonymizeActivityChangeInfo a i = {
      rawData := none, slot := a.slot, crew := a.crew, inserted := a.inserted, activity := a.activity
      timeOfChangeMinutes := (30 * (i % 48) : Nat) } := by
  unfold anonymizeActivityChangeInfo
  congr 2
  omega

theorem anonymize_activity_iff (a a' : ActivityChangeInfo) (i : Nat) :
    anonymizeActivityChangeInfo a i = anonymizeActivityChangeInfo a' i ↔ activityKept a = activityKept a' := by
  simp [anonymizeActivityChangeInfo, activityKept]

theorem anonymize_activity_idem (a : ActivityChangeInfo) (i : Nat) :
    anonymizeActivityChangeInfo (anonymizeActivityChangeInfo a i) i = anonymizeActivityChangeInfo a i := rfl

/-- C40: nothing of a driver identification survives, only that there is one. -/
theorem anonymize_driver_iff (d d' : Option DriverIdentification) :
    anonymizeDriverIdentification d = anonymizeDriverIdentification d' ↔ d.isSome = d'.isSome := by
  cases d <;> cases d' <;> simp [anonymizeDriverIdentification]

theorem anonymize_driver_value (d : DriverIdentification) :
    anonymizeDriverIdentification (some d) =
      some { number := some ⟨none, some 14, "DRIVER00000001".toUTF8.toList⟩ } := by
  have : "DRIVER00000001".toUTF8.toList = anonDriverNumber := by decide +kernel
  rw [this]
  rfl

/-! ## File level -/

theorem list3 {t : Bytes} (h : t.length = 3) : ∃ a b c, t = [a, b, c] := by
  match t, h with
  | [a, b, c], _ => exact ⟨a, b, c, rfl⟩

theorem list10 {t : Bytes} (h : 10 ≤ t.length) : ∃ a b c d e f g i j k r, t = a :: b :: c :: d :: e :: f :: g :: i :: j :: k :: r := by
  match t, h with
  | a :: b :: c :: d :: e :: f :: g :: i :: j :: k :: r, _ => exact ⟨a, b, c, d, e, f, g, i, j, k, r, rfl⟩

theorem timeReal_size {t : Bytes} {ts : Option Timestamp} (h : appendTimeReal [] ts = .ok t) : t.length = 4 := by
  simpa using (appendsExactly_result (appendTimeReal_exact ts) [] t h).2

/-- The ten bytes painted for a place with a region do not depend on the canvas. -/
theorem paintPlace_written {canvas t : Bytes} {r : PlaceRecord} {x : UInt8} (hl : 10 ≤ canvas.length)
    (ht : appendTimeReal [] r.entryTime = .ok t) (hr : r.region = [x]) :
    paintPlace canvas r = .ok (t ++ [enumByteLax entryTypeDailyWorkPeriodTable r.entryType r.unrecognizedEntryType,
      enumByteLax nationNumericTable r.country r.unrecognizedCountry, x] ++ beBytes 3 (low 32 r.odometerKm) ++ canvas.drop 10) := by
  have htl : t.length = 4 := timeReal_size ht
  obtain ⟨o1, o2, o3, ho⟩ := list3 (t := beBytes 3 (low 32 r.odometerKm)) (by simp)
  obtain ⟨t1, t2, t3, t4, rfl⟩ := list4 htl
  obtain ⟨a, b, c, d, e, f, g, i, j, k, rest, rfl⟩ := list10 hl
  simp only [paintPlace, ht, Res.bind_ok, Res.pure_eq, appendOdometer_eq, ho, hr, List.nil_append]
  rfl

/-- A place whose fields come from some bytes: its time, entry type, country, region and odometer are all
representable. -/
structure Spec.PlaceFits (r : PlaceRecord) : Prop where
  time : r.entryTime = none ∨ ∃ s : Int, r.entryTime = some ⟨s, 0⟩ ∧ 1 ≤ s ∧ s < 2 ^ 32
  entryType : ∃ b, (r.entryType, r.unrecognizedEntryType) = enumOrUnrecognized entryTypeDailyWorkPeriodTable b
  country : ∃ b, (r.country, r.unrecognizedCountry) = enumOrUnrecognized nationNumericTable b
  region : ∃ x, r.region = [x]
  odometer : 0 ≤ r.odometerKm ∧ r.odometerKm < 2 ^ 24
  unmarked : r.valid = false

theorem place_bytes {r : PlaceRecord} (h : PlaceFits r) : ∃ b : Bytes, b.length = 10 ∧
    (∀ canvas : Bytes, 10 ≤ canvas.length → paintPlace canvas r = .ok (b ++ canvas.drop 10)) ∧
    ∃ e c x, unmarshalTimeReal (sl b 0 4) = .ok r.entryTime ∧ sl b 4 5 = [e] ∧ sl b 5 6 = [c] ∧ sl b 6 7 = [x] ∧
      ∀ raw, placeOf raw b r.entryTime e c x = { r with rawData := some raw } := by
  obtain ⟨h1, ⟨e, h2⟩, ⟨c, h3⟩, ⟨x, h4⟩, ⟨h5, h6⟩, h7⟩ := h
  obtain ⟨t, htl, ht, hti⟩ := timeReal_writable h1
  have e1 := enumByteLax_roundtrip (t := entryTypeDailyWorkPeriodTable) (by decide) (by decide) e
  have e2 := enumByteLax_roundtrip (t := nationNumericTable) (by decide) (by decide) c
  rw [← h2] at e1
  rw [← h3] at e2
  obtain ⟨o1, o2, o3, ho⟩ := list3 (t := beBytes 3 (low 32 r.odometerKm)) (by simp)
  have hn : beNat [o1, o2, o3] = low 32 r.odometerKm := by
    rw [← ho, beNat_beBytes_of_lt]
    simp only [low]; omega
  have htr := timeReal_value t htl
  obtain ⟨t1, t2, t3, t4, rfl⟩ := list4 htl
  refine ⟨[t1, t2, t3, t4, e, c, x, o1, o2, o3], rfl, ?_, e, c, x, ?_, rfl, rfl, rfl, ?_⟩
  · intro canvas hc
    have := paintPlace_written hc (ht []) h4
    rw [e1, e2, ho] at this
    rw [this]
    rfl
  · exact htr.trans (congrArg Res.ok hti)
  · intro raw
    have : sl [t1, t2, t3, t4, e, c, x, o1, o2, o3] 7 10 = [o1, o2, o3] := rfl
    simp only [placeOf, this, hn, ← h2, ← h3]
    obtain ⟨⟩ := r
    simp only [PlaceRecord.mk.injEq, true_and]
    dsimp only at *
    subst h4 h7
    simp only [low, true_and, and_true]; omega

theorem place_encode {r : PlaceRecord} (h : PlaceFits r) : ∃ b : Bytes, b.length = 10 ∧
    (∀ raw, (raw = none ∨ ∃ c : Bytes, raw = some c ∧ c.length = 10) → appendPlaceRecord [] { r with rawData := raw } = .ok b) ∧
    unmarshalPlaceRecord b = .ok { r with rawData := some b } := by
  obtain ⟨b, hl, hp, e, c, x, h1, h2, h3, h4, h5⟩ := place_bytes h
  refine ⟨b, hl, ?_, ?_⟩
  · intro raw hr
    have hp' : ∀ canvas : Bytes, canvas.length = 10 → paintPlace canvas { r with rawData := raw } = .ok b := fun canvas hc => by
      have := hp canvas (by omega)
      rw [List.drop_eq_nil_of_le (by omega), List.append_nil] at this
      exact this
    rcases hr with rfl | ⟨cv, rfl, hc⟩
    · simp [appendPlaceRecord, canvasNonEmpty, hp' (zeros 10) (by simp)]
    · simp [appendPlaceRecord, canvasNonEmpty_raw hc (by omega), hp' cv hc]
  · obtain ⟨m, hm⟩ := (place_accepts_iff b).mpr hl
    obtain ⟨_, ts', e', c', x', q1, q2, q3, q4, rfl⟩ := place_parse hm
    rw [hm, Res.ok.injEq, ← h5 b]
    rw [h1] at q1; rw [h2] at q2; rw [h3] at q3; rw [h4] at q4
    cases q1; cases q2; cases q3; cases q4
    rfl

theorem place_fits {d : Bytes} {r : PlaceRecord} (h : unmarshalPlaceRecord d = .ok r) : PlaceFits r := by
  obtain ⟨hl, ts, e, c, x, q1, q2, q3, q4, rfl⟩ := place_parse h
  have ht := timeReal_instant q1
  have hb := beNat_lt (sl d 7 10)
  have hbt := beNat_lt (sl d 0 4)
  have l1 : (sl d 7 10).length = 3 := by simp; omega
  have l2 : (sl d 0 4).length = 4 := by simp; omega
  rw [l1] at hb; rw [l2] at hbt
  refine ⟨?_, ⟨e, rfl⟩, ⟨c, rfl⟩, ⟨x, rfl⟩, ⟨?_, ?_⟩, rfl⟩
  · rw [ht]
    simp only [instant]
    by_cases h0 : beNat (sl d 0 4) = 0
    · exact .inl (by simp [placeOf, h0])
    · refine .inr ⟨_, by simp only [placeOf, h0, if_false]; rfl, by omega, by omega⟩
  · simp [placeOf]
  · simp only [placeOf]; omega

/-- A GNSS record at the test position whose time and accuracy are representable. -/
structure Spec.GnssFits (g : GNSSPlaceRecord) : Prop where
  time : g.timestamp = none ∨ ∃ s : Int, g.timestamp = some ⟨s, 0⟩ ∧ 1 ≤ s ∧ s < 2 ^ 32
  accuracy : 0 ≤ g.accuracy ∧ g.accuracy ≤ 255
  position : g.geo = some ⟨60100, 24560⟩

theorem gnss_encode {g : GNSSPlaceRecord} (h : GnssFits g) : ∃ b : Bytes, b.length = 11 ∧
    appendGNSSPlaceRecord [] (some g) = .ok b ∧ unmarshalGNSSPlaceRecord b = .ok g := by
  obtain ⟨h1, ⟨h2, h3⟩, h4⟩ := h
  obtain ⟨t, htl, ht, hti⟩ := timeReal_writable h1
  have htr := timeReal_value t htl
  obtain ⟨t1, t2, t3, t4, rfl⟩ := list4 htl
  have hw : appendGNSSPlaceRecord [] (some g) = .ok [t1, t2, t3, t4, i2b g.accuracy, 0, 0xEA, 0xC4, 0, 0x5F, 0xF0] := by
    simp only [appendGNSSPlaceRecord, ht, Res.bind_ok, List.nil_append, h4, Option.getD_some]
    rw [if_neg (by omega)]
    rfl
  refine ⟨_, rfl, hw, ?_⟩
  obtain ⟨m, hm⟩ := (gnss_accepts_iff [t1, t2, t3, t4, i2b g.accuracy, 0, 0xEA, 0xC4, 0, 0x5F, 0xF0]).mpr rfl
  obtain ⟨_, ts, a, geo, q1, q2, q3, rfl⟩ := gnss_parse hm
  rw [hm, Res.ok.injEq]
  have q1' : unmarshalTimeReal [t1, t2, t3, t4] = .ok ts := q1
  have q2' : [i2b g.accuracy] = [a] := q2
  have q3' : unmarshalGeoCoordinates [0, 0xEA, 0xC4, 0, 0x5F, 0xF0] = .ok geo := q3
  have hg : unmarshalGeoCoordinates [0, 0xEA, 0xC4, 0, 0x5F, 0xF0] = .ok ⟨60100, 24560⟩ := by decide
  rw [hg] at q3'
  cases q3'
  cases q2'
  rw [htr] at q1'
  obtain ⟨ts0, acc, geo0⟩ := g
  cases h4
  simp only [GNSSPlaceRecord.mk.injEq, and_true]
  refine ⟨(Res.ok.inj q1').symm.trans hti, ?_⟩
  dsimp only at h2 h3 ⊢
  obtain ⟨n, rfl⟩ : ∃ n : Nat, acc = n := ⟨acc.toNat, by omega⟩
  rw [i2b_nat n (by omega)]

theorem placeG2_encode {r : PlaceRecordG2} {g : GNSSPlaceRecord} (h : PlaceFits r.base) (hg : r.gnss = some g) (hf : GnssFits g)
    (hr : r.base.rawData = none) : ∃ b : Bytes, b.length = 21 ∧ appendPlaceRecordG2 [] r = .ok b ∧
    unmarshalPlaceRecordG2 b = .ok { r with base := { r.base with rawData := some b } } := by
  obtain ⟨b, hl, hp, e, c, x, h1, h2, h3, h4, h5⟩ := place_bytes h
  obtain ⟨gb, hgl, hgw, hgr⟩ := gnss_encode hf
  refine ⟨b ++ gb, by simp [hl, hgl], ?_, ?_⟩
  · have hcv : canvasNonEmpty r.base.rawData 21 = .ok (zeros 21) := by simp [hr, canvasNonEmpty]
    simp only [appendPlaceRecordG2, hcv, Res.bind_ok, hp (zeros 21) (by simp), hg, hgw, Res.pure_eq, List.nil_append]
    rw [paint_eq hgl, List.take_left' hl, List.drop_eq_nil_of_le (by simp [hl]), List.append_nil]
  · have s1 : ∀ i j, j ≤ 10 → sl (b ++ gb) i j = sl b i j := fun i j hj => by
      unfold sl
      rw [List.take_append_of_le_length (by omega)]
    have s2 : sl (b ++ gb) 10 21 = gb := by
      unfold sl
      rw [List.take_of_length_le (by simp [hl, hgl]), List.drop_left' hl]
    obtain ⟨m, hm⟩ := (placeG2_accepts_iff (b ++ gb)).mpr (by simp [hl, hgl])
    obtain ⟨_, ts', e', c', x', g', q1, q2, q3, q4, q5, rfl⟩ := placeG2_parse hm
    rw [s1 _ _ (by decide)] at q1 q2 q3 q4
    rw [s2] at q5
    rw [hm, Res.ok.injEq, ← h5]
    rw [h1] at q1; rw [h2] at q2; rw [h3] at q3; rw [h4] at q4; rw [hgr] at q5
    cases q1; cases q2; cases q3; cases q4; cases q5
    simp only [placeOf, s1 7 10 (by decide), hg]

theorem placeG2_fits {d : Bytes} {r : PlaceRecordG2} (h : unmarshalPlaceRecordG2 d = .ok r) :
    PlaceFits r.base ∧ ∃ g, r.gnss = some g ∧ (g.timestamp = none ∨ ∃ s : Int, g.timestamp = some ⟨s, 0⟩ ∧ 1 ≤ s ∧ s < 2 ^ 32) ∧
      0 ≤ g.accuracy ∧ g.accuracy ≤ 255 := by
  obtain ⟨hl, ts, e, c, x, g, q1, q2, q3, q4, q5, rfl⟩ := placeG2_parse h
  obtain ⟨_, ts', a, geo, p1, p2, p3, rfl⟩ := gnss_parse q5
  have inst : ∀ {d : Bytes} {t : Option Timestamp}, unmarshalTimeReal d = .ok t →
      t = none ∨ ∃ s : Int, t = some ⟨s, 0⟩ ∧ 1 ≤ s ∧ s < 2 ^ 32 := fun {d t} h => by
    have hl := (timeReal_accepts_iff d).mp ⟨t, h⟩
    have hb := beNat_lt d
    rw [hl] at hb
    rw [timeReal_instant h]
    simp only [instant]
    by_cases h0 : beNat d = 0
    · exact .inl (by simp [h0])
    · exact .inr ⟨_, by simp only [h0, if_false]; rfl, by omega, by omega⟩
  have hb := beNat_lt (sl d 7 10)
  have l1 : (sl d 7 10).length = 3 := by simp; omega
  rw [l1] at hb
  have := a.toNat_lt
  refine ⟨⟨inst q1, ⟨e, rfl⟩, ⟨c, rfl⟩, ⟨x, rfl⟩, ⟨?_, ?_⟩, rfl⟩, _, rfl, inst p1, ?_, ?_⟩
  · simp [placeOf]
  · simp only [placeOf]; omega
  · simp
  · dsimp only; omega

/-! ### Whole files of places -/

theorem cut_of_flatten {n : Nat} (h0 : 0 < n) (xs : List Bytes) (h : ∀ x ∈ xs, x.length = n) : cut n xs.flatten = xs := by
  induction xs with
  | nil => exact cut_nil (by simpa using h0)
  | cons x xs ih =>
    rw [List.forall_mem_cons] at h
    rw [List.flatten_cons, cut_cons h0 (by simp [h.1]), List.take_left' h.1, List.drop_left' h.1, ih h.2]

theorem outs_of {α : Type} {p : Bytes → Res α} {w : α → Res Bytes} {n : Nat} {rs : List α}
    (h : ∀ r ∈ rs, ∃ b : Bytes, b.length = n ∧ p b = .ok r) (hw : ∀ b r, p b = .ok r → w r = .ok b) :
    ∃ outs : List Bytes, (∀ x ∈ outs, x.length = n) ∧ mapRes p outs = .ok rs ∧ mapRes w rs = .ok outs ∧
      outs.length = rs.length := by
  induction rs with
  | nil => exact ⟨[], by simp, rfl, rfl, rfl⟩
  | cons r rs ih =>
    rw [List.forall_mem_cons] at h
    obtain ⟨outs, h1, h2, h3, h4⟩ := ih h.2
    obtain ⟨b, hb, hp⟩ := h.1
    exact ⟨b :: outs, by simpa [hb] using h1, by simp [mapRes, hp, h2], by simp [mapRes, hw b r hp, h3], by simp [h4]⟩

theorem flatten_size {n : Nat} {xs : List Bytes} (h : ∀ x ∈ xs, x.length = n) : xs.flatten.length = xs.length * n := by
  induction xs with
  | nil => simp
  | cons x xs ih =>
    rw [List.forall_mem_cons] at h
    rw [List.flatten_cons, List.length_append, ih h.2, h.1, List.length_cons, Nat.succ_mul]; omega

/-- C28, C40: a place file built from representable records is written and read back. -/
theorem places_encode (m : RecordFile PlaceRecord) (h1 : 0 ≤ m.newest) (h2 : m.newest < 256)
    (h : ∀ r ∈ m.records, ∃ b : Bytes, b.length = 10 ∧ unmarshalPlaceRecord b = .ok r) :
    ∃ B : Bytes, B.length = 1 + 10 * m.records.length ∧ appendPlaces [] (some m) = .ok B ∧
      unmarshalPlaces B = .ok { m with rawData := some B } := by
  obtain ⟨outs, o1, o2, o3, o4⟩ := outs_of (w := appendPlaceRecord []) h
    (fun b r hb => by simpa using place_roundtrip b [] r hb)
  refine ⟨[i2b m.newest] ++ outs.flatten, by simp [flatten_size o1, o4]; omega, ?_, ?_⟩
  · rw [appendPlaces_eq, o3]; simp
  · have hn : ((i2b m.newest).toNat : Int) = m.newest := by
      obtain ⟨n, hn⟩ : ∃ n : Nat, m.newest = n := ⟨m.newest.toNat, by omega⟩
      rw [hn, i2b_nat n (by omega)]
    have hc : mapRes parsePlace outs = .ok m.records := by
      rw [← o2]; exact mapRes_congr fun x hx => parsePlace_of_length (o1 x hx)
    simp only [unmarshalPlaces, List.singleton_append, List.length_cons, at?, from?]
    simp [cut_of_flatten (by decide) outs o1, hc, hn]

theorem placesG2_encode (m : RecordFile PlaceRecordG2) (h1 : 0 ≤ m.newest) (h2 : m.newest < 65536)
    (h : ∀ r ∈ m.records, ∃ b : Bytes, b.length = 21 ∧ unmarshalPlaceRecordG2 b = .ok r) :
    ∃ B : Bytes, B.length = 2 + 21 * m.records.length ∧ appendPlacesG2 [] (some m) = .ok B ∧
      unmarshalPlacesG2 B = .ok { m with rawData := some B } := by
  obtain ⟨outs, o1, o2, o3, o4⟩ := outs_of (w := appendPlaceRecordG2 []) h
    (fun b r hb => by simpa using placeG2_roundtrip b [] r hb)
  obtain ⟨n, hn⟩ : ∃ n : Nat, m.newest = n := ⟨m.newest.toNat, by omega⟩
  have hlow : low 16 m.newest = n := by simp only [low]; omega
  have hN : beNat (beBytes 2 n) = n := beNat_beBytes_of_lt (by omega)
  refine ⟨beBytes 2 n ++ outs.flatten, by simp [flatten_size o1, o4]; omega, ?_, ?_⟩
  · unfold appendPlacesG2
    rw [appendRecordFile2_eq _ (fun r _ => appendPlaceRecordG2_exact r), o3, hlow]; simp
  · have hc : mapRes parsePlaceG2 outs = .ok m.records := by
      rw [← o2]; exact mapRes_congr fun x hx => parsePlaceG2_of_length (o1 x hx)
    have hd : (beBytes 2 n ++ outs.flatten).drop 2 = outs.flatten := List.drop_left' (by simp)
    have ht : sl (beBytes 2 n ++ outs.flatten) 0 2 = beBytes 2 n := by
      unfold sl; rw [List.take_left' (by simp)]; rfl
    rw [placesG2_ok_iff]
    refine ⟨by simp, rfl, by rw [ht, hN, hn], ?_⟩
    rw [← mapRes_cut_iff (by decide), hd, cut_of_flatten (by decide) outs o1, o2]

/-- The `i`-th record of an anonymised place file. -/
def placeAt (i : Nat) (r : PlaceRecord) : PlaceRecord :=
  regeneratePlace (let a := anonymizePlaceRecord r
    if a.entryTime.isSome ∨ i = 0 then { a with entryTime := some ⟨1577836800 + (i : Int) * 3600, 0⟩ } else a)

theorem anonymizeTimestamps_eq (i : Nat) (rs : List PlaceRecord) :
    anonymizeTimestamps i rs = rs.mapIdx fun j r =>
      if r.entryTime.isSome ∨ i + j = 0 then { r with entryTime := some ⟨1577836800 + ((i + j : Nat) : Int) * 3600, 0⟩ } else r := by
  induction rs generalizing i with
  | nil => rfl
  | cons r rs ih =>
    rw [anonymizeTimestamps, ih, List.mapIdx_cons]
    simp only [Nat.add_zero, Nat.add_assoc, Nat.add_comm 1]

theorem anonymizePlaces_records (p : RecordFile PlaceRecord) :
    (anonymizePlaces p).records = p.records.mapIdx placeAt ∧ (anonymizePlaces p).newest = p.newest ∧
    (anonymizePlaces p).rawData =
      match appendPlaces [] (some ⟨none, p.newest, p.records.mapIdx placeAt⟩) with
      | .ok b => some b
      | _ => none := by
  have h : (anonymizeTimestamps 0 (p.records.map anonymizePlaceRecord)).map regeneratePlace = p.records.mapIdx placeAt := by
    rw [anonymizeTimestamps_eq]
    apply List.ext_getElem
    · simp
    · intro i h1 h2
      simp [placeAt]
  unfold anonymizePlaces
  rw [h]
  dsimp only
  refine ⟨?_, ?_, ?_⟩ <;> split <;> first | rfl | simp_all

theorem appendPlace_canvas {r : PlaceRecord} {x : UInt8} (hr : r.region = [x])
    (hraw : r.rawData = none ∨ ∃ c : Bytes, r.rawData = some c ∧ c.length = 10) :
    appendPlaceRecord [] r = appendPlaceRecord [] { r with rawData := none } := by
  have key : ∀ (c : Bytes), c.length = 10 → ∀ raw, paintPlace c { r with rawData := raw } = paintPlace (zeros 10) { r with rawData := none } := by
    intro c hc raw
    cases ht : appendTimeReal [] r.entryTime with
    | ok t =>
      rw [paintPlace_written (r := { r with rawData := raw }) (by omega) ht hr,
        paintPlace_written (r := { r with rawData := none }) (by simp) ht hr,
        List.drop_eq_nil_of_le (by omega), List.drop_eq_nil_of_le (by simp)]
    | err m => simp [paintPlace, ht]
    | panic => simp [paintPlace, ht]
  rcases hraw with h | ⟨c, h, hl⟩
  · rw [show r = { r with rawData := none } by rw [← h]]
  · have := key c hl r.rawData
    simp only [appendPlaceRecord, h, canvasNonEmpty_raw hl (by decide), Res.bind_ok] at this ⊢
    rw [show paintPlace c r = _ from this]
    simp [canvasNonEmpty]

theorem anonymize_place_canvas (r : PlaceRecord) :
    (anonymizePlaceRecord r).rawData = none ∨ ∃ c : Bytes, (anonymizePlaceRecord r).rawData = some c ∧ c.length = 10 := by
  rw [anonymize_place_raw]
  split
  · rename_i b hb
    exact .inr ⟨b, rfl, by simpa using (appendsExactly_result (appendPlaceRecord_exact _) [] b hb).2⟩
  · exact .inl rfl

/-- C40: the records of an anonymised place file. -/
theorem placeAt_values (i : Nat) (r : PlaceRecord) :
    let a := placeAt i r
    a.valid = false ∧ a.entryTime = (if i == 0 || r.entryTime.isSome then some (testHour i) else none) ∧
    a.country = nationNumeric_finland ∧ a.unrecognizedCountry = none ∧ a.region = [1] ∧
    a.odometerKm = r.odometerKm - r.odometerKm.tmod 100 ∧
    a.entryType = r.entryType ∧ a.unrecognizedEntryType = r.unrecognizedEntryType ∧
    ∃ b : Bytes, a.rawData = some b ∧ b.length = 10 ∧ appendPlaceRecord [] { a with rawData := none } = .ok b := by
  obtain ⟨av, a1, a2, a3, a4, a5, a6, a7⟩ := anonymize_place_values r
  have hc := anonymize_place_canvas r
  have hx : ∀ x : PlaceRecord, x.region = [1] → (x.rawData = none ∨ ∃ c : Bytes, x.rawData = some c ∧ c.length = 10) →
      (x.entryTime = none ∨ ∃ s, x.entryTime = some ⟨s, 0⟩) →
      ∃ b : Bytes, b.length = 10 ∧ regeneratePlace x = { x with rawData := some b } ∧
        appendPlaceRecord [] { x with rawData := none } = .ok b := by
    intro x h1 h2 h3
    have he := appendPlace_canvas h1 h2
    have : ∃ t, appendTimeReal [] x.entryTime = .ok t := by
      rcases h3 with h3 | ⟨s, h3⟩ <;> rw [h3] <;> exact ⟨_, rfl⟩
    obtain ⟨t, ht⟩ := this
    have hw := paintPlace_written (canvas := zeros 10) (r := { x with rawData := none }) (by simp) ht h1
    obtain ⟨w, hw'⟩ : ∃ w, appendPlaceRecord [] { x with rawData := none } = .ok w := by
      simp only [appendPlaceRecord, canvasNonEmpty, Option.getD_none, List.length_nil, Nat.lt_irrefl, if_false, gt_iff_lt,
        Res.bind_ok, hw, Res.pure_eq, List.nil_append]
      exact ⟨_, rfl⟩
    refine ⟨_, ?_, ?_, hw'⟩
    · simpa using (appendsExactly_result (appendPlaceRecord_exact _) [] _ hw').2
    · unfold regeneratePlace
      rw [he, hw']
  unfold placeAt
  generalize anonymizePlaceRecord r = a at *
  dsimp only
  by_cases ht : a.entryTime.isSome ∨ i = 0
  · rw [if_pos ht]
    obtain ⟨b, hb, hb1, hb2⟩ := hx { a with entryTime := some ⟨1577836800 + (i : Int) * 3600, 0⟩ } a3 hc (.inr ⟨_, rfl⟩)
    rw [hb1]
    have : (i == 0 || r.entryTime.isSome) = true := by
      rw [a7] at ht
      rcases ht with h | h <;> simp [h]
    simp only [this, if_true]
    exact ⟨av, by simp only [testHour, Option.some.injEq, Timestamp.mk.injEq, and_true]; omega, a1, a2, a3, a4, a5, a6, b, rfl, hb, hb2⟩
  · rw [if_neg ht]
    have hn : a.entryTime = none := by
      cases h : a.entryTime
      · rfl
      · simp [h] at ht
    obtain ⟨b, hb, hb1, hb2⟩ := hx a a3 hc (.inl hn)
    rw [hb1]
    have : (i == 0 || r.entryTime.isSome) = false := by
      rw [a7] at ht
      simp only [not_or, Bool.not_eq_true] at ht
      simp [ht]
    simp only [this]
    exact ⟨av, hn, a1, a2, a3, a4, a5, a6, b, rfl, hb, hb2⟩

theorem placeAt_iff (i : Nat) (r r' : PlaceRecord) : placeAt i r = placeAt i r' ↔ placeInFileKept i r = placeInFileKept i r' := by
  obtain ⟨av, a1, a2, a3, a4, a5, a6, a7, b, a8, a9, a10⟩ := placeAt_values i r
  obtain ⟨bv, b1, b2, b3, b4, b5, b6, b7, b', b8, b9, b10⟩ := placeAt_values i r'
  generalize placeAt i r = a at *
  generalize placeAt i r' = c at *
  simp only [placeInFileKept, Prod.mk.injEq]
  rw [← tmod_sub_iff (by decide)]
  constructor
  · rintro rfl
    refine ⟨?_, a6.symm.trans b6, a7.symm.trans b7, a5.symm.trans b5⟩
    rw [a1] at b1
    cases hp : (i == 0 || r.entryTime.isSome) <;> cases hq : (i == 0 || r'.entryTime.isSome) <;> simp [hp, hq] at b1 ⊢
  · rintro ⟨h1, h2, h3, h4⟩
    obtain ⟨ra, ta, ea, ua, ca, va, ga, oa, ma⟩ := a
    obtain ⟨rb, tb, eb, ub, cb, vb, gb, ob, mb⟩ := c
    dsimp only at *
    subst av bv a1 a2 a3 a4 a5 a6 a7 a8 b1 b2 b3 b4 b5 b6 b7 b8
    rw [h1, h2, h3, h4] at *
    rw [a10, Res.ok.injEq] at b10
    rw [b10]

theorem mapIdx_iff {α β γ : Type} {f : Nat → α → β} {kept : Nat → α → γ} (h : ∀ i x y, f i x = f i y ↔ kept i x = kept i y)
    (xs ys : List α) : xs.mapIdx f = ys.mapIdx f ↔ AgreeOn kept xs ys := by
  rw [List.ext_getElem_iff]
  simp only [List.length_mapIdx, List.getElem_mapIdx, h, AgreeOn]

/-- C40: two place files are anonymised alike exactly when they agree on the newest-record index, on the number
of records, and for each record on whether it is dated (for the first one not even that), on the entry type and
on the odometer to the hundred. -/
theorem anonymize_places_iff (p p' : RecordFile PlaceRecord) :
    anonymizePlaces p = anonymizePlaces p' ↔ p.newest = p'.newest ∧ AgreeOn placeInFileKept p.records p'.records := by
  obtain ⟨a1, a2, a3⟩ := anonymizePlaces_records p
  obtain ⟨b1, b2, b3⟩ := anonymizePlaces_records p'
  generalize anonymizePlaces p = a at *
  generalize anonymizePlaces p' = b at *
  rw [← mapIdx_iff placeAt_iff]
  constructor
  · rintro rfl
    exact ⟨a2.symm.trans b2, a1.symm.trans b1⟩
  · rintro ⟨h1, h2⟩
    obtain ⟨⟩ := a
    obtain ⟨⟩ := b
    dsimp only at *
    subst a1 a2 a3 b1 b2 b3
    rw [h1, h2]

theorem agree_placeAt (rs : List PlaceRecord) : AgreeOn placeInFileKept (rs.mapIdx placeAt) rs := by
  refine ⟨by simp, fun i h h' => ?_⟩
  rw [List.getElem_mapIdx]
  obtain ⟨av, a1, a2, a3, a4, a5, a6, a7, _⟩ := placeAt_values i rs[i]
  simp only [placeInFileKept, a1, a5, a6, a7, tdiv_tmod_sub (k := 100) (by decide), Prod.mk.injEq, and_true]
  cases hq : (i == 0 || rs[i].entryTime.isSome) <;> simp_all

theorem anonymize_places_idem (p : RecordFile PlaceRecord) : anonymizePlaces (anonymizePlaces p) = anonymizePlaces p := by
  obtain ⟨a1, a2, a3⟩ := anonymizePlaces_records p
  rw [anonymize_places_iff, a1, a2]
  exact ⟨rfl, agree_placeAt _⟩

theorem round_bounds {x : Int} (h : 0 ≤ x) : 0 ≤ x - x.tmod 100 ∧ x - x.tmod 100 ≤ x := by
  have h1 := Int.tmod_nonneg 100 h
  have h2 := Int.mul_tdiv_add_tmod x 100
  have h3 : 0 ≤ x.tdiv 100 := Int.tdiv_nonneg h (by decide)
  omega

/-- C40: an anonymised place record carries raw bytes that parse to exactly that record. -/
theorem anonymize_place_reparses (d : Bytes) (r : PlaceRecord) (h : unmarshalPlaceRecord d = .ok r) :
    ∃ b : Bytes, b.length = 10 ∧ (anonymizePlaceRecord r).rawData = some b ∧
      unmarshalPlaceRecord b = .ok (anonymizePlaceRecord r) := by
  obtain ⟨f1, f2, _, _, ⟨f5, f6⟩, _⟩ := place_fits h
  obtain ⟨av, a1, a2, a3, a4, a5, a6, a7⟩ := anonymize_place_values r
  have hraw := anonymize_place_raw r
  generalize anonymizePlaceRecord r = a at *
  have hq := round_bounds f5
  have hf : PlaceFits a := ⟨by rw [a7]; exact f1, by rw [a5, a6]; exact f2,
    ⟨0x12, by rw [a1, a2]; decide +kernel⟩, ⟨1, a3⟩, ⟨by rw [a4]; omega, by rw [a4]; omega⟩, av⟩
  obtain ⟨b, hb, hb1, hb2⟩ := place_encode hf
  rw [hb1 none (.inl rfl)] at hraw
  dsimp only at hraw
  refine ⟨b, hb, hraw, ?_⟩
  rw [hb2, ← hraw]

/-- C40: an anonymised place file (of a card file, at most 754000 records) carries raw bytes that parse to exactly
that file: the round trip the code promises. -/
theorem anonymize_places_reparses (d : Bytes) (p : RecordFile PlaceRecord) (h : unmarshalPlaces d = .ok p)
    (hn : p.records.length ≤ 754000) :
    ∃ b : Bytes, b.length = 1 + 10 * p.records.length ∧ (anonymizePlaces p).rawData = some b ∧
      unmarshalPlaces b = .ok (anonymizePlaces p) := by
  obtain ⟨hl, _, hnew, hrs⟩ := (places_ok_iff d p).mp h
  have hb := beNat_lt (sl d 0 1)
  rw [show (sl d 0 1).length = 1 by simp; omega] at hb
  obtain ⟨a1, a2, a3⟩ := anonymizePlaces_records p
  have hrec : ∀ r ∈ p.records.mapIdx placeAt, ∃ b : Bytes, b.length = 10 ∧ unmarshalPlaceRecord b = .ok r := by
    intro r hr
    rw [List.mem_mapIdx] at hr
    obtain ⟨i, hi, rfl⟩ := hr
    obtain ⟨f1, f2, _, _, ⟨f5, f6⟩, _⟩ := place_fits (hrs.2 i hi)
    have hq := round_bounds f5
    obtain ⟨qv, q1, q2, q3, q4, q5, q6, q7, b, q8, q9, q10⟩ := placeAt_values i p.records[i]
    generalize placeAt i p.records[i] = a at *
    have hf : PlaceFits a := by
      refine ⟨?_, by rw [q6, q7]; exact f2, ⟨0x12, by rw [q2, q3]; decide +kernel⟩, ⟨1, q4⟩, ⟨by rw [q5]; omega, by rw [q5]; omega⟩, qv⟩
      rw [q1]
      split
      · exact .inr ⟨_, rfl, by omega, by omega⟩
      · exact .inl rfl
    obtain ⟨b', hb, hb1, hb2⟩ := place_encode hf
    rw [hb1 none (.inl rfl), Res.ok.injEq] at q10
    subst q10
    exact ⟨b', hb, by rw [hb2, ← q8]⟩
  obtain ⟨B, hB, hB1, hB2⟩ := places_encode ⟨none, p.newest, p.records.mapIdx placeAt⟩ (by dsimp only; omega) (by dsimp only; omega) hrec
  rw [hB1] at a3
  refine ⟨B, by simpa using hB, a3, ?_⟩
  rw [hB2, Res.ok.injEq]
  generalize anonymizePlaces p = a at *
  obtain ⟨⟩ := a
  dsimp only at *
  subst a1 a2 a3
  rfl

/-! ### Whole files of Gen2 places -/

/-- The `i`-th record of an anonymised Gen2 place file. -/
def placeG2At (i : Nat) (r : PlaceRecordG2) : PlaceRecordG2 :=
  let t : Option Timestamp := some ⟨1577836800 + (i : Int) * 3600, 0⟩
  let a := anonymizePlaceRecordG2 r
  regeneratePlaceG2 {
    base := if a.base.entryTime.isSome ∨ i = 0 then { a.base with entryTime := t } else a.base
    gnss := a.gnss.map fun g => if g.timestamp.isSome then { g with timestamp := t } else g }

theorem anonymizeTimestampsG2_eq (i : Nat) (rs : List PlaceRecordG2) :
    anonymizeTimestampsG2 i rs = rs.mapIdx fun j r =>
      { base := if r.base.entryTime.isSome ∨ i + j = 0 then
          { r.base with entryTime := some ⟨1577836800 + ((i + j : Nat) : Int) * 3600, 0⟩ } else r.base
        gnss := r.gnss.map fun g => if g.timestamp.isSome then
          { g with timestamp := some ⟨1577836800 + ((i + j : Nat) : Int) * 3600, 0⟩ } else g } := by
  induction rs generalizing i with
  | nil => rfl
  | cons r rs ih =>
    rw [anonymizeTimestampsG2, ih, List.mapIdx_cons]
    simp only [Nat.add_zero, Nat.add_assoc, Nat.add_comm 1]

theorem anonymizePlacesG2_records (p : RecordFile PlaceRecordG2) :
    (anonymizePlacesG2 p).records = p.records.mapIdx placeG2At ∧ (anonymizePlacesG2 p).newest = p.newest ∧
    (anonymizePlacesG2 p).rawData =
      match appendPlacesG2 [] (some ⟨none, p.newest, p.records.mapIdx placeG2At⟩) with
      | .ok b => some b
      | _ => none := by
  have h : (anonymizeTimestampsG2 0 (p.records.map anonymizePlaceRecordG2)).map regeneratePlaceG2 = p.records.mapIdx placeG2At := by
    rw [anonymizeTimestampsG2_eq]
    apply List.ext_getElem
    · simp
    · intro i h1 h2
      simp [placeG2At]
  unfold anonymizePlacesG2
  rw [h]
  dsimp only
  refine ⟨?_, ?_, ?_⟩ <;> split <;> first | rfl | simp_all

/-- C40: the records of an anonymised Gen2 place file. -/
theorem placeG2At_values (i : Nat) (r : PlaceRecordG2) :
    let a := placeG2At i r
    a.base.valid = false ∧ a.base.entryTime = (if i == 0 || r.base.entryTime.isSome then some (testHour i) else none) ∧
    a.base.country = nationNumeric_finland ∧ a.base.unrecognizedCountry = none ∧ a.base.region = [1] ∧
    a.base.odometerKm = r.base.odometerKm - r.base.odometerKm.tmod 100 ∧
    a.base.entryType = r.base.entryType ∧ a.base.unrecognizedEntryType = r.base.unrecognizedEntryType ∧
    a.gnss = r.gnss.map (fun g => ⟨g.timestamp.map (fun _ => testHour i), g.accuracy, some ⟨60100, 24560⟩⟩) ∧
    a.base.rawData = match appendPlaceRecordG2 [] { a with base := { a.base with rawData := none } } with
      | .ok b => some b
      | _ => none := by
  obtain ⟨av, a0, a1, a2, a3, a4, a5, a6, a7, a8⟩ := anonymize_placeG2_values r
  have hx : ∀ x : PlaceRecordG2, x.base.rawData = none →
      (regeneratePlaceG2 x).gnss = x.gnss ∧ (regeneratePlaceG2 x).base = { x.base with rawData := match appendPlaceRecordG2 [] x with
        | .ok b => some b
        | _ => none } := by
    intro x h
    unfold regeneratePlaceG2
    cases appendPlaceRecordG2 [] x with
    | ok b => exact ⟨rfl, rfl⟩
    | err m => exact ⟨rfl, by dsimp only; rw [← h]⟩
    | panic => exact ⟨rfl, by dsimp only; rw [← h]⟩
  have ht : (⟨1577836800 + (i : Int) * 3600, 0⟩ : Timestamp) = testHour i := by
    simp only [testHour, Timestamp.mk.injEq, and_true]; omega
  unfold placeG2At
  dsimp only
  rw [ht]
  generalize anonymizePlaceRecordG2 r = a at *
  obtain ⟨g1, g2⟩ := hx { base := if a.base.entryTime.isSome ∨ i = 0 then { a.base with entryTime := some (testHour i) } else a.base
                          gnss := a.gnss.map fun g => if g.timestamp.isSome then { g with timestamp := some (testHour i) } else g }
    (by dsimp only; split <;> exact a0)
  have hg : (a.gnss.map fun g => if g.timestamp.isSome then { g with timestamp := some (testHour i) } else g) =
      r.gnss.map (fun g => ⟨g.timestamp.map (fun _ => testHour i), g.accuracy, some ⟨60100, 24560⟩⟩) := by
    rw [a8, Option.map_map]
    congr 1
    funext g
    obtain ⟨t, _, _⟩ := g
    cases t <;> rfl
  generalize regeneratePlaceG2 _ = y at *
  obtain ⟨yb, yg⟩ := y
  dsimp only at g1 g2 ⊢
  subst g1 g2
  rw [hg]
  have hb : (if a.base.entryTime.isSome ∨ i = 0 then { a.base with entryTime := some (testHour i) } else a.base)
      = { a.base with entryTime := if i == 0 || r.base.entryTime.isSome then some (testHour i) else none } := by
    rw [← a7]
    split
    · rename_i h
      have : (i == 0 || a.base.entryTime.isSome) = true := by rcases h with h | h <;> simp [h]
      simp [this]
    · rename_i h
      simp only [not_or, Bool.not_eq_true] at h
      have : (i == 0 || a.base.entryTime.isSome) = false := by simp [h]
      have hn : a.base.entryTime = none := by simpa using h.1
      simp only [this, Bool.false_eq_true, if_false]
      rw [← hn]
  rw [hb]
  refine ⟨av, rfl, a1, a2, a3, a4, a5, a6, rfl, ?_⟩
  dsimp only
  rw [a0]

theorem placeG2At_iff (i : Nat) (r r' : PlaceRecordG2) :
    placeG2At i r = placeG2At i r' ↔ placeG2InFileKept i r = placeG2InFileKept i r' := by
  obtain ⟨av, a1, a2, a3, a4, a5, a6, a7, a8, a9⟩ := placeG2At_values i r
  obtain ⟨bv, b1, b2, b3, b4, b5, b6, b7, b8, b9⟩ := placeG2At_values i r'
  have hg : (r.gnss.map (fun g => (⟨g.timestamp.map (fun _ => testHour i), g.accuracy, some ⟨60100, 24560⟩⟩ : GNSSPlaceRecord)) =
      r'.gnss.map (fun g => ⟨g.timestamp.map (fun _ => testHour i), g.accuracy, some ⟨60100, 24560⟩⟩)) ↔
      (r.gnss.map fun g => (g.timestamp.isSome, g.accuracy)) = r'.gnss.map fun g => (g.timestamp.isSome, g.accuracy) := by
    rcases r.gnss with _ | ⟨_ | t, a, g⟩ <;> rcases r'.gnss with _ | ⟨_ | t', a', g'⟩ <;> simp
  generalize placeG2At i r = a at *
  generalize placeG2At i r' = c at *
  simp only [placeG2InFileKept, placeInFileKept, Prod.mk.injEq]
  rw [← tmod_sub_iff (by decide), ← hg]
  constructor
  · rintro rfl
    refine ⟨⟨?_, a6.symm.trans b6, a7.symm.trans b7, a5.symm.trans b5⟩, a8.symm.trans b8⟩
    rw [a1] at b1
    cases hp : (i == 0 || r.base.entryTime.isSome) <;> cases hq : (i == 0 || r'.base.entryTime.isSome) <;> simp [hp, hq] at b1 ⊢
  · rintro ⟨⟨h1, h2, h3, h4⟩, h5⟩
    obtain ⟨⟨ra, ta, ea, ua, ca, va, ga, oa, ma⟩, na⟩ := a
    obtain ⟨⟨rb, tb, eb, ub, cb, vb, gb, ob, mb⟩, nb⟩ := c
    dsimp only at *
    subst av bv a1 a2 a3 a4 a5 a6 a7 a8 b1 b2 b3 b4 b5 b6 b7 b8
    rw [h1, h2, h3, h4, h5] at *
    rw [a9, b9]

/-- C40: what survives in an anonymised Gen2 place file, exactly. -/
theorem anonymize_placesG2_iff (p p' : RecordFile PlaceRecordG2) :
    anonymizePlacesG2 p = anonymizePlacesG2 p' ↔ p.newest = p'.newest ∧ AgreeOn placeG2InFileKept p.records p'.records := by
  obtain ⟨a1, a2, a3⟩ := anonymizePlacesG2_records p
  obtain ⟨b1, b2, b3⟩ := anonymizePlacesG2_records p'
  generalize anonymizePlacesG2 p = a at *
  generalize anonymizePlacesG2 p' = b at *
  rw [← mapIdx_iff placeG2At_iff]
  constructor
  · rintro rfl
    exact ⟨a2.symm.trans b2, a1.symm.trans b1⟩
  · rintro ⟨h1, h2⟩
    obtain ⟨⟩ := a
    obtain ⟨⟩ := b
    dsimp only at *
    subst a1 a2 a3 b1 b2 b3
    rw [h1, h2]

theorem agree_placeG2At (rs : List PlaceRecordG2) : AgreeOn placeG2InFileKept (rs.mapIdx placeG2At) rs := by
  refine ⟨by simp, fun i h h' => ?_⟩
  rw [List.getElem_mapIdx]
  obtain ⟨av, a1, a2, a3, a4, a5, a6, a7, a8, _⟩ := placeG2At_values i rs[i]
  simp only [placeG2InFileKept, placeInFileKept, a1, a5, a6, a7, a8, tdiv_tmod_sub (k := 100) (by decide), Prod.mk.injEq, and_true,
    Option.map_map, Function.comp_def, Option.isSome_map]
  cases hq : (i == 0 || rs[i].base.entryTime.isSome) <;> simp_all

theorem anonymize_placesG2_idem (p : RecordFile PlaceRecordG2) : anonymizePlacesG2 (anonymizePlacesG2 p) = anonymizePlacesG2 p := by
  obtain ⟨a1, a2, a3⟩ := anonymizePlacesG2_records p
  rw [anonymize_placesG2_iff, a1, a2]
  exact ⟨rfl, agree_placeG2At _⟩

/-- C40: an anonymised Gen2 place file parses back to exactly that file. -/
theorem anonymize_placesG2_reparses (d : Bytes) (p : RecordFile PlaceRecordG2) (h : unmarshalPlacesG2 d = .ok p)
    (hn : p.records.length ≤ 754000) :
    ∃ b : Bytes, b.length = 2 + 21 * p.records.length ∧ (anonymizePlacesG2 p).rawData = some b ∧
      unmarshalPlacesG2 b = .ok (anonymizePlacesG2 p) := by
  obtain ⟨hl, _, hnew, hrs⟩ := (placesG2_ok_iff d p).mp h
  have hb := beNat_lt (sl d 0 2)
  rw [show (sl d 0 2).length = 2 by simp; omega] at hb
  obtain ⟨a1, a2, a3⟩ := anonymizePlacesG2_records p
  have hrec : ∀ r ∈ p.records.mapIdx placeG2At, ∃ b : Bytes, b.length = 21 ∧ unmarshalPlaceRecordG2 b = .ok r := by
    intro r hr
    rw [List.mem_mapIdx] at hr
    obtain ⟨i, hi, rfl⟩ := hr
    obtain ⟨⟨f1, f2, _, _, ⟨f5, f6⟩, _⟩, g, hg, hg1, hg2, hg3⟩ := placeG2_fits (hrs.2 i hi)
    have hq := round_bounds f5
    obtain ⟨qv, q1, q2, q3, q4, q5, q6, q7, q8, q9⟩ := placeG2At_values i p.records[i]
    generalize placeG2At i p.records[i] = a at *
    have hf : PlaceFits a.base := by
      refine ⟨?_, by rw [q6, q7]; exact f2, ⟨0x12, by rw [q2, q3]; decide +kernel⟩, ⟨1, q4⟩, ⟨by rw [q5]; omega, by rw [q5]; omega⟩, qv⟩
      rw [q1]
      split
      · exact .inr ⟨_, rfl, by omega, by omega⟩
      · exact .inl rfl
    rw [hg, Option.map_some] at q8
    obtain ⟨b', hb, hb1, hb2⟩ := placeG2_encode (r := { a with base := { a.base with rawData := none } })
      (g := ⟨g.timestamp.map (fun _ => testHour i), g.accuracy, some ⟨60100, 24560⟩⟩)
      ⟨hf.time, hf.entryType, hf.country, hf.region, hf.odometer, hf.unmarked⟩ q8
      ⟨by cases g.timestamp
          · exact .inl rfl
          · exact .inr ⟨_, rfl, by omega, by omega⟩, ⟨hg2, hg3⟩, rfl⟩ rfl
    rw [hb1] at q9
    dsimp only at q9 hb2
    exact ⟨b', hb, by rw [hb2, ← q9]⟩
  obtain ⟨B, hB, hB1, hB2⟩ := placesG2_encode ⟨none, p.newest, p.records.mapIdx placeG2At⟩ (by dsimp only; omega) (by dsimp only; omega) hrec
  rw [hB1] at a3
  refine ⟨B, by simpa using hB, a3, ?_⟩
  rw [hB2, Res.ok.injEq]
  generalize anonymizePlacesG2 p = a at *
  obtain ⟨⟩ := a
  dsimp only at *
  subst a1 a2 a3
  rfl

/-! ### Vehicles used -/

theorem anonymizeVehicleRecords_eq (i : Nat) (rs : List CardVehicleRecord) :
    anonymizeVehicleRecords i rs = rs.mapIdx fun j r => anonymizeCardVehicleRecord r (i + j) := by
  induction rs generalizing i with
  | nil => rfl
  | cons r rs ih =>
    rw [anonymizeVehicleRecords, ih, List.mapIdx_cons]
    simp only [Nat.add_zero, Nat.add_assoc, Nat.add_comm 1]

theorem anonymizeVehiclesUsed_records (p : RecordFile CardVehicleRecord) :
    (anonymizeVehiclesUsed p).records = p.records.mapIdx (fun i r => anonymizeCardVehicleRecord r i) ∧
    (anonymizeVehiclesUsed p).newest = p.newest ∧
    (anonymizeVehiclesUsed p).rawData =
      match appendVehiclesUsed [] (some ⟨none, p.newest, p.records.mapIdx (fun i r => anonymizeCardVehicleRecord r i)⟩) with
      | .ok b => some b
      | _ => none := by
  have h : anonymizeVehicleRecords 0 p.records = p.records.mapIdx (fun i r => anonymizeCardVehicleRecord r i) := by
    rw [anonymizeVehicleRecords_eq]; simp only [Nat.zero_add]
  unfold anonymizeVehiclesUsed
  rw [h]
  dsimp only
  refine ⟨?_, ?_, ?_⟩ <;> split <;> first | rfl | simp_all

/-- C40: what survives in an anonymised EF_Vehicles_Used, exactly. -/
theorem anonymize_vehiclesUsed_iff (p p' : RecordFile CardVehicleRecord) :
    anonymizeVehiclesUsed p = anonymizeVehiclesUsed p' ↔
      p.newest = p'.newest ∧ AgreeOn (fun _ => vehicleKept) p.records p'.records := by
  obtain ⟨a1, a2, a3⟩ := anonymizeVehiclesUsed_records p
  obtain ⟨b1, b2, b3⟩ := anonymizeVehiclesUsed_records p'
  generalize anonymizeVehiclesUsed p = a at *
  generalize anonymizeVehiclesUsed p' = b at *
  rw [← mapIdx_iff (f := fun i r => anonymizeCardVehicleRecord r i) (fun i x y => anonymize_vehicle_iff x y i)]
  constructor
  · rintro rfl
    exact ⟨a2.symm.trans b2, a1.symm.trans b1⟩
  · rintro ⟨h1, h2⟩
    obtain ⟨⟩ := a
    obtain ⟨⟩ := b
    dsimp only at *
    subst a1 a2 a3 b1 b2 b3
    rw [h1, h2]

theorem anonymize_vehiclesUsed_idem (p : RecordFile CardVehicleRecord) :
    anonymizeVehiclesUsed (anonymizeVehiclesUsed p) = anonymizeVehiclesUsed p := by
  obtain ⟨a1, a2, a3⟩ := anonymizeVehiclesUsed_records p
  rw [anonymize_vehiclesUsed_iff, a1, a2]
  refine ⟨rfl, by simp, fun i h h' => ?_⟩
  rw [List.getElem_mapIdx]
  exact vehicleKept_anonymize _ i

section
variable [Charmap]

/-- C40: an anonymised vehicle record is written as 31 bytes that parse again, to a record that is anonymised
alike; and when the nation byte is unknown it cannot be written, and has no raw data. -/
theorem anonymize_vehicle_reparses (d : Bytes) (r : CardVehicleRecord) (h : unmarshalCardVehicleRecord d = .ok r) (i : Nat)
    (hi : i ≤ 31446) :
    (ByteAt d 14 (Known nationNumericTable) → ∃ (b : Bytes) (r' : CardVehicleRecord), b.length = 31 ∧
      (anonymizeCardVehicleRecord r i).rawData = some b ∧ unmarshalCardVehicleRecord b = .ok r' ∧
      r'.firstUse = (anonymizeCardVehicleRecord r i).firstUse ∧ r'.lastUse = (anonymizeCardVehicleRecord r i).lastUse ∧
      anonymizeCardVehicleRecord r' i = anonymizeCardVehicleRecord r i) ∧
    (¬ ByteAt d 14 (Known nationNumericTable) → (anonymizeCardVehicleRecord r i).rawData = none) := by
  unfold unmarshalCardVehicleRecord at h
  by_cases hl : d.length = 31
  case neg => simp [hl] at h
  simp only [hl, ne_eq, not_true_eq_false, if_false] at h
  obtain ⟨_, t1, t2, reg, c, h1, h2, h3, h4, rfl⟩ := vehicleFields_parse h
  have hc2 : (sl d 29 31).length = 2 := by simp; omega
  have hbcd := bcdString_roundtrip (sl d 29 31) [] c (by omega) h4
  rw [List.nil_append] at hbcd
  obtain ⟨a1, a2, a3, a4, a5, a6⟩ := anonymize_vehicle_values (vehicleOf d t1 t2 reg c) i
  have hraw := anonymize_vehicle_raw (vehicleOf d t1 t2 reg c) i
  have hn := sl_eq_singleton (d := d) (i := 14) (by omega)
  generalize d[14] = n at hn
  have hb14 : ByteAt d 14 (Known nationNumericTable) ↔ Known nationNumericTable n := byteAt_of_sl hn
  have hreg : reg.nation = enumOr1 nationNumericTable n := by
    simp only [unmarshalVehicleRegistration, Res.pure_eq, guard_eq_ok, bind_eq_ok, Res.ok.injEq, sl?_iff, at?_iff] at h3
    obtain ⟨_, b0, ⟨_, hb0⟩, _, _, _, _, rfl⟩ := h3
    rw [sl_sl (by omega), hn] at hb0
    cases hb0
    rfl
  have hreg2 : (vehicleOf d t1 t2 reg c).registration.map (·.nation) = some (enumOr1 nationNumericTable n) := by
    simp [vehicleOf, hreg]
  obtain ⟨e1, e2⟩ := enumOr1_known (t := nationNumericTable) (by decide) (by decide) n
  rw [← hreg] at e1 e2
  rw [hb14]
  have hcv : canvasNonEmpty none 31 = .ok (zeros 31) := rfl
  have hp : (some testPlate : Option StringValue).getD emptyVrn = testPlate := rfl
  have hplate : ∀ dst, appendStringValue dst (some testPlate) =
      .ok (dst ++ [1, 0x54, 0x45, 0x53, 0x54, 0x2D, 0x56, 0x52, 0x4E, 0x20, 0x20, 0x20, 0x20, 0x20]) := by
    intro dst
    have : testPlate = { encoding := encoding_iso88591, rawData := none, length := some 13
                         value := [0x54, 0x45, 0x53, 0x54, 0x2D, 0x56, 0x52, 0x4E] } := by decide +kernel
    rw [this]
    rfl
  have ho1 : ∀ x : Int, 0 ≤ x → x < 2 ^ 24 → beNat (beBytes 3 (low 32 (x - x.tmod 1000))) = (x - x.tmod 1000).toNat ∧ 0 ≤ x - x.tmod 1000 := by
    intro x h1 h2
    have q1 := Int.tmod_nonneg 1000 h1
    have q2 := Int.mul_tdiv_add_tmod x 1000
    have q3 : 0 ≤ x.tdiv 1000 := Int.tdiv_nonneg h1 (by decide)
    obtain ⟨y, hy⟩ : ∃ y : Nat, x - x.tmod 1000 = y := ⟨(x - x.tmod 1000).toNat, by omega⟩
    have hy2 : y < 2 ^ 24 := by omega
    rw [hy, low_nat _ _ (by omega), beNat_beBytes_of_lt (by omega)]
    omega
  have lt3 : ∀ a, (sl d a (a + 3)).length = 3 → ((beNat (sl d a (a + 3)) : Nat) : Int) < 2 ^ 24 := fun a ha => by
    have := beNat_lt (sl d a (a + 3)); rw [ha] at this; omega
  obtain ⟨u1, w1⟩ := ho1 (beNat (sl d 0 3)) (by omega) (lt3 0 (by simp; omega))
  obtain ⟨u2, w2⟩ := ho1 (beNat (sl d 3 6)) (by omega) (lt3 3 (by simp; omega))
  obtain ⟨t, htl, ht, hti⟩ := timeReal_writable (t := some ⟨1577836800 + 86400 * (i : Int), 0⟩) (.inr ⟨_, rfl, by omega, by omega⟩)
  obtain ⟨v, hvl, hv, hvi⟩ := timeReal_writable (t := some ⟨1577836800 + 86400 * (i : Int) + 86399, 0⟩) (.inr ⟨_, rfl, by omega, by omega⟩)
  have htr := timeReal_value t htl
  have hvr := timeReal_value v hvl
  constructor
  · intro hk
    have hm := e1 hk
    have hnu : reg.nation ≠ enumUnrecognized := by
      intro hu
      rw [hu] at hm
      have h2 := enum_encode_decode nationNumericTable (by decide) n _ hm
      exact absurd h2 (unrec_not_named (by decide) (by decide) n)
    obtain ⟨o1, o2, o3, ho⟩ := list3 (t := beBytes 3 (low 32 ((beNat (sl d 0 3) : Int) - (beNat (sl d 0 3) : Int).tmod 1000))) (by simp)
    obtain ⟨p1, p2, p3, hp⟩ := list3 (t := beBytes 3 (low 32 ((beNat (sl d 3 6) : Int) - (beNat (sl d 3 6) : Int).tmod 1000))) (by simp)
    rw [ho] at u1
    rw [hp] at u2
    obtain ⟨t1', t2', t3', t4', rfl⟩ := list4 htl
    obtain ⟨v1, v2, v3, v4, rfl⟩ := list4 hvl
    obtain ⟨c1, c2, hcb⟩ : ∃ c1 c2, sl d 29 31 = [c1, c2] := by
      match sl d 29 31, hc2 with
      | [a, b], _ => exact ⟨a, b, rfl⟩
    rw [hcb] at hbcd h4
    have hw : appendCardVehicleRecord [] { anonymizeCardVehicleRecord (vehicleOf d t1 t2 reg c) i with rawData := none } =
        .ok [o1, o2, o3, p1, p2, p3, t1', t2', t3', t4', v1, v2, v3, v4, n, 1, 0x54, 0x45, 0x53, 0x54, 0x2D, 0x56, 0x52, 0x4E,
          0x20, 0x20, 0x20, 0x20, 0x20, c1, c2] := by
      simp only [appendCardVehicleRecord, hcv, Res.bind_ok, paintCardVehicle, a1, a2, a3, a4, a5, a6, ht, hv]
      simp only [vehicleOf, Option.map_some, appendVehicleRegistration, hnu, if_false, hm, Res.bind_ok, hplate, Option.getD_some, hbcd, ho, hp,
        Res.pure_eq]
      rfl
    rw [hw] at hraw
    dsimp only at hraw
    obtain ⟨r', hr'⟩ := (cardVehicle_accepts_iff [o1, o2, o3, p1, p2, p3, t1', t2', t3', t4', v1, v2, v3, v4, n, 1, 0x54, 0x45, 0x53, 0x54,
      0x2D, 0x56, 0x52, 0x4E, 0x20, 0x20, 0x20, 0x20, 0x20, c1, c2]).mpr (by
        have := (bcdString_accepts (b := [c1, c2]) rfl).mp ⟨c, h4⟩
        exact ⟨rfl, ⟨c1, rfl, this c1 (by simp)⟩, ⟨c2, rfl, this c2 (by simp)⟩⟩)
    refine ⟨_, r', rfl, hraw, hr', ?_⟩
    rw [unmarshalCardVehicleRecord, if_neg (by simp)] at hr'
    obtain ⟨_, t1'', t2'', reg', c', q1, q2, q3, q4, rfl⟩ := vehicleFields_parse hr'
    have q1' : unmarshalTimeReal [t1', t2', t3', t4'] = .ok t1'' := q1
    have q2' : unmarshalTimeReal [v1, v2, v3, v4] = .ok t2'' := q2
    have q4' : unmarshalBcdString [c1, c2] = .ok c' := q4
    rw [h4] at q4'
    cases q4'
    have hreg' : reg'.nation = enumOr1 nationNumericTable n := by
      simp only [unmarshalVehicleRegistration, Res.pure_eq, guard_eq_ok, bind_eq_ok, Res.ok.injEq, sl?_iff, at?_iff] at q3
      obtain ⟨_, b0, ⟨_, hb0⟩, _, _, _, _, rfl⟩ := q3
      have hb0' : [n] = [b0] := hb0
      cases hb0'
      rfl
    refine ⟨?_, ?_, ?_⟩
    · rw [a1]; rw [htr] at q1'; exact (Res.ok.inj q1').symm.trans hti
    · rw [a2]; rw [hvr] at q2'; exact (Res.ok.inj q2').symm.trans hvi
    · rw [anonymize_vehicle_iff]
      simp only [vehicleKept, vehicleOf, Option.map_some, hreg, hreg', Prod.mk.injEq, and_true]
      have z1 : ((beNat [o1, o2, o3] : Nat) : Int) = (beNat (sl d 0 3) : Int) - (beNat (sl d 0 3) : Int).tmod 1000 := by omega
      have z2 : ((beNat [p1, p2, p3] : Nat) : Int) = (beNat (sl d 3 6) : Int) - (beNat (sl d 3 6) : Int).tmod 1000 := by omega
      constructor
      · rw [← tdiv_tmod_sub (x := (beNat (sl d 0 3) : Int)) (k := 1000) (by decide), ← z1]
        rfl
      · rw [← tdiv_tmod_sub (x := (beNat (sl d 3 6) : Int)) (k := 1000) (by decide), ← z2]
        rfl
  · intro hk
    obtain ⟨m, hm⟩ := e2 hk
    rw [hraw]
    have : ∀ x, appendCardVehicleRecord [] { anonymizeCardVehicleRecord (vehicleOf d t1 t2 reg c) i with rawData := none } ≠ .ok x := by
      intro x
      simp only [appendCardVehicleRecord, hcv, Res.bind_ok, paintCardVehicle, a1, a2, a3, a4, a5, a6, ht, hv]
      simp only [vehicleOf, Option.map_some, appendVehicleRegistration]
      split <;> simp [hm]
    split
    · rename_i b hb
      exact absurd hb (this b)
    · rfl
end

/-! ### Identification -/

/-- C40: what survives in an anonymised identification, exactly: no name, address, number, date, raw byte or
signature. -/
theorem anonymize_identification_iff (i i' : AnyIdentification) :
    anonymizeIdentification i = anonymizeIdentification i' ↔ identificationKept i = identificationKept i' := by
  have hcard : ∀ c c' : Option CardIdent, c.map anonymizeCardIdent = c'.map anonymizeCardIdent ↔ c.map cardKept = c'.map cardKept := by
    rintro (_ | c) (_ | c') <;> simp only [Option.map_some, Option.map_none, reduceCtorEq, Option.some.injEq]
    simp only [anonymizeCardIdent, cardKept, CardIdent.mk.injEq, Prod.mk.injEq, anonymize_driver_iff, and_true]
    rcases c.owner with _ | o <;> rcases c'.owner with _ | o' <;> simp
  obtain ⟨⟨ct, card, dh⟩, wh, ch, mh, sg, sv⟩ := i
  obtain ⟨⟨ct', card', dh'⟩, wh', ch', mh', sg', sv'⟩ := i'
  by_cases hct : ct = ct'
  · subst hct
    cases ct <;>
      simp only [anonymizeIdentification, identificationKept, AnyIdentification.mk.injEq, Identification.mk.injEq, Prod.mk.injEq,
        hcard, reduceCtorEq, if_true, if_false, true_and, and_true]
    · rcases dh with _ | h <;> rcases dh' with _ | h' <;> simp
    · rcases wh with _ | h <;> rcases wh' with _ | h' <;> simp
    · rcases ch with _ | h <;> rcases ch' with _ | h' <;> simp
    · rcases mh with _ | h <;> rcases mh' with _ | h' <;> simp
  · have hk : ∀ x : AnyIdentification, (anonymizeIdentification x).cardType = x.cardType := fun x => by
      unfold anonymizeIdentification; dsimp only; split <;> simp_all
    constructor
    · intro h
      have := congrArg (fun x => x.toIdentification.cardType) h
      simp only [hk] at this
      exact absurd this hct
    · intro h
      exact absurd (congrArg Prod.fst h) hct

theorem anonymize_identification_idem (i : AnyIdentification) :
    anonymizeIdentification (anonymizeIdentification i) = anonymizeIdentification i := by
  have hcard : ∀ c, anonymizeCardIdent (anonymizeCardIdent c) = anonymizeCardIdent c := fun c => by
    obtain ⟨_, d, o, _, _, _, _⟩ := c
    cases d <;> cases o <;> rfl
  obtain ⟨⟨ct, card, dh⟩, wh, ch, mh, sg, sv⟩ := i
  cases ct <;> simp [anonymizeIdentification, Function.comp_def, hcard]

theorem anonymize_vehiclesUsed_size (p : RecordFile CardVehicleRecord) (b : Bytes)
    (h : (anonymizeVehiclesUsed p).rawData = some b) : b.length = 2 + 31 * p.records.length := by
  obtain ⟨a1, a2, a3⟩ := anonymizeVehiclesUsed_records p
  rw [h] at a3
  split at a3
  · rename_i x hx
    cases a3
    have := (appendsExactly_result (appendVehiclesUsed_exact _) [] _ hx).2
    simpa [Nat.mul_comm] using this
  · cases a3

theorem sl_last {P x : Bytes} {a b n : Nat} (hP : P.length = a) (hx : x.length = n) (hb : a + n = b := by rfl) : sl (P ++ x) a b = x := by
  unfold sl
  rw [List.take_of_length_le (by simp [hP, hx]; omega), List.drop_left' hP]

theorem testText_written (s : String)
    (h : (match appendStringValue [] (testText s) with | .ok e => decide (e.length = 36) | _ => false) = true) :
    ∃ e : Bytes, e.length = 36 ∧ ∀ dst, appendStringValue dst (testText s) = .ok (dst ++ e) := by
  split at h
  · rename_i e he
    exact ⟨e, by simpa using h, AppendsWith.of_nil (appendStringValue_size _) he⟩
  · cases h

section
variable [Charmap]

/-- C40: the anonymised identification of a parsed driver card (of a known nation) is written as 143 bytes, which
are a driver card again, anonymised alike. -/
theorem anonymize_driver_card_reparses (d : Bytes) (m : Identification) (h : unmarshalIdentification d = .ok m)
    (hd : m.cardType = .driverCard) (hk : ByteAt d 0 (Known nationNumericTable)) :
    ∃ (b : Bytes) (m' : Identification), b.length = 143 ∧
      appendIdentification [] (anonymizeIdentification { toIdentification := m }).toIdentification = .ok b ∧
      unmarshalIdentification b = .ok m' ∧ m'.cardType = .driverCard ∧
      anonymizeIdentification { toIdentification := m' } = anonymizeIdentification { toIdentification := m } := by
  have hfields := identification_fields d m h
  obtain ⟨hl, n, ct, dr, ow, au, ti, tb, te, sn, fn, bd, la, hn, hcn, hau, hti, htb, hte, hsn, hfn, hbd, hla, rfl⟩ :=
    identification_parse h
  obtain ⟨c, p, hc, hp, _, hdr, _⟩ := hfields
  dsimp only at hc hd
  cases hc
  subst hd
  obtain ⟨how, n', r', w', hdrv, _⟩ := hdr rfl
  dsimp only at how hdrv
  subst how hdrv
  rw [byteAt_of_sl hn] at hk
  have hm := (enumOr1_known (t := nationNumericTable) (by decide) (by decide) n).1 hk
  have hnu : enumOr1 nationNumericTable n ≠ enumUnrecognized := by
    intro hu
    rw [hu] at hm
    have h2 := enum_encode_decode nationNumericTable (by decide) n _ hm
    exact absurd h2 (unrec_not_named (by decide) (by decide) n)
  obtain ⟨e1, l1, w1⟩ := testText_written "TEST_AUTHORITY" (by decide +kernel)
  obtain ⟨e2, l2, w2⟩ := testText_written "TEST_SURNAME" (by decide +kernel)
  obtain ⟨e3, l3, w3⟩ := testText_written "TEST_FIRSTNAME" (by decide +kernel)
  obtain ⟨f1, m1, x1, _⟩ := timeReal_writable (t := some ⟨1577836800, 0⟩) (.inr ⟨_, rfl, by decide, by decide⟩)
  obtain ⟨f2, m2, x2, _⟩ := timeReal_writable (t := some ⟨1735689599, 0⟩) (.inr ⟨_, rfl, by decide, by decide⟩)
  have hbirth : ∀ dst, appendDate dst testBirthDate = .ok (dst ++ [0x20, 0x00, 0x01, 0x01]) :=
    AppendsWith.of_nil (appendDate_exact testBirthDate) (by decide +kernel)
  have hlang := fun dst => ia5_roundtrip (sl d 141 143) dst (by simp; omega) la hla
  have hll : (sl d 141 143).length = 2 := by simp; omega
  have hnum : ∀ x : CardIdent, x.driver = anonymizeDriverIdentification (some ⟨some n', some r', some w'⟩) →
      cardNumberBytes x = anonDriverNumber ++ [0x30, 0x30] := by
    intro x hx
    simp only [cardNumberBytes, hx, anonymizeDriverIdentification, Option.map_some]
    rfl
  have hw : appendIdentification [] (anonymizeIdentification { toIdentification := ⟨.driverCard,
      some ⟨enumOr1 nationNumericTable n, some ⟨some n', some r', some w'⟩, none, some au, ti, tb, te⟩,
      some ⟨some sn, some fn, some bd, some la⟩⟩ }).toIdentification =
      .ok ([n] ++ (anonDriverNumber ++ [0x30, 0x30]) ++ e1 ++ f1 ++ f1 ++ f2 ++ (e2 ++ e3) ++ [0x20, 0x00, 0x01, 0x01] ++ sl d 141 143) := by
    simp only [appendIdentification, anonymizeIdentification, Option.map_some, appendCardIdentification, anonymizeCardIdent, hnu, if_false,
      hm, Res.bind_ok, w1, x1, x2, appendDriverHolder, w2, w3, hbirth, hlang, Res.pure_eq, List.nil_append]
    rw [hnum _ rfl]
  have hbl : ([n] ++ (anonDriverNumber ++ [0x30, 0x30]) ++ e1 ++ f1 ++ f1 ++ f2 ++ (e2 ++ e3) ++ [0x20, 0x00, 0x01, 0x01] ++ sl d 141 143).length = 143 := by
    simp only [List.length_append, l1, l2, l3, m1, m2, hll]; rfl
  obtain ⟨m', hm'⟩ := (identification_accepts_iff _).mpr (Nat.le_of_eq hbl.symm)
  have hct := (identification_cardType _ m' hm').1.mpr (by
    constructor
    · exact ⟨0x30, rfl, by decide⟩
    · exact ⟨0x30, rfl, by decide⟩)
  refine ⟨_, m', hbl, hw, hm', hct, ?_⟩
  have hf' := identification_fields _ m' hm'
  obtain ⟨_, n2, ct2, dr2, ow2, au2, ti2, tb2, te2, sn2, fn2, bd2, la2, hn2, _, _, _, _, _, _, _, _, hla2, rfl⟩ := identification_parse hm'
  obtain ⟨c2, p2, hc2, _, _, hdr2, _⟩ := hf'
  dsimp only at hc2 hct
  cases hc2
  subst hct
  obtain ⟨how2, _, _, _, hdrv2, _⟩ := hdr2 rfl
  dsimp only at how2 hdrv2
  subst how2 hdrv2
  have hn2' : [n] = [n2] := hn2
  cases hn2'
  have hlang2 : sl ([n] ++ (anonDriverNumber ++ [0x30, 0x30]) ++ e1 ++ f1 ++ f1 ++ f2 ++ (e2 ++ e3) ++ [0x20, 0x00, 0x01, 0x01] ++ sl d 141 143) 141 143
      = sl d 141 143 := by
    refine sl_last ?_ hll
    simp only [List.length_append, l1, l2, l3, m1, m2]; rfl
  rw [hlang2, hla] at hla2
  cases hla2
  rw [anonymize_identification_iff]
  simp [identificationKept, cardKept]

/-- C40: the anonymised identification of a card read as a workshop card loses its holder: what is written has 65
bytes and does not parse any more. -/
theorem anonymize_workshop_card_unreadable (d : Bytes) (m : Identification) (h : unmarshalIdentification d = .ok m)
    (hd : m.cardType = .workshopCard) (b : Bytes)
    (hb : appendIdentification [] (anonymizeIdentification { toIdentification := m }).toIdentification = .ok b) :
    b.length = 65 ∧ ¬ ∃ m', unmarshalIdentification b = .ok m' := by
  have key : b.length = 65 := by
    obtain ⟨hl, n, ct, dr, ow, au, ti, tb, te, sn, fn, bd, la, hn, hcn, hau, hti, htb, hte, hsn, hfn, hbd, hla, rfl⟩ :=
      identification_parse h
    dsimp only at hd
    subst hd
    obtain ⟨e1, l1, w1⟩ := testText_written "TEST_AUTHORITY" (by decide +kernel)
    obtain ⟨f1, m1, x1, _⟩ := timeReal_writable (t := some ⟨1577836800, 0⟩) (.inr ⟨_, rfl, by decide, by decide⟩)
    obtain ⟨f2, m2, x2, _⟩ := timeReal_writable (t := some ⟨1735689599, 0⟩) (.inr ⟨_, rfl, by decide, by decide⟩)
    have hnum : ∀ x : CardIdent, x.driver = anonymizeDriverIdentification dr → (x.owner = ow.map fun o => {
        owner := some { rawData := none, length := some 13, value := "OWNER00000001".toUTF8.toList }
        consecutive := o.consecutive, replacement := o.replacement, renewal := o.renewal }) → (cardNumberBytes x).length = 16 := by
      intro x hx ho
      have h1 : (padSpaces (anonDriverNumber.take 14) 14).length = 14 := by decide
      have h2 : (padSpaces (("OWNER00000001".toByteArray.toList).take 13) 13).length = 13 := by decide +kernel
      cases dr <;> cases ow <;>
        simp [cardNumberBytes, hx, ho, anonymizeDriverIdentification, h1, h2]
    simp only [appendIdentification, anonymizeIdentification, Option.map_some, appendCardIdentification, anonymizeCardIdent,
      Res.bind_ok, w1, x1, x2, appendDriverHolder, Res.pure_eq, List.nil_append, bind_eq_ok, guard_eq_ok, Res.ok.injEq] at hb
    obtain ⟨_, ⟨_, y, _, rfl⟩, rfl⟩ := hb
    simp only [List.length_append, l1, m1, m2]
    rw [hnum _ rfl rfl]
    rfl
  exact ⟨key, fun hx => by have := (identification_accepts_iff b).mp hx; omega⟩
end

/-- C40: the holder of an anonymised driver card: fixed names, the first of January 2000 as the birth date, in the
decoded fields and in the raw bytes, and the language of the card. -/
theorem anonymize_holder_values (i : AnyIdentification) (h : DriverHolder) (hd : i.cardType = .driverCard)
    (hh : i.driverHolder = some h) : ∃ h' s f, (anonymizeIdentification i).driverHolder = some h' ∧
      h'.surname = some s ∧ s.value = "TEST_SURNAME".toUTF8.toList ∧ s.rawData = none ∧
      h'.firstNames = some f ∧ f.value = "TEST_FIRSTNAME".toUTF8.toList ∧ f.rawData = none ∧
      h'.birthDate = some ⟨some [0x20, 0x00, 0x01, 0x01], 2000, 1, 1⟩ ∧ h'.language = h.language := by
  have hb : testBirthDate = ⟨some [0x20, 0x00, 0x01, 0x01], 2000, 1, 1⟩ := by decide +kernel
  simp only [anonymizeIdentification, hd, hh, Option.map_some]
  exact ⟨_, _, _, rfl, rfl, rfl, rfl, rfl, rfl, rfl, by rw [hb], rfl⟩

/-- C40: the card part of every anonymised identification: a fixed authority and validity period; the issuing state
is the one of the card. -/
theorem anonymize_card_values (i : AnyIdentification) (c : CardIdent) (hc : i.card = some c) :
    ∃ c' a, (anonymizeIdentification i).card = some c' ∧ c'.issuingState = c.issuingState ∧
      c'.authority = some a ∧ a.value = "TEST_AUTHORITY".toUTF8.toList ∧ a.rawData = none ∧
      c'.issueDate = some ⟨1577836800, 0⟩ ∧ c'.validityBegin = some ⟨1577836800, 0⟩ ∧ c'.expiryDate = some ⟨1735689599, 0⟩ := by
  refine ⟨anonymizeCardIdent c, _, ?_, rfl, rfl, rfl, rfl, rfl, rfl, rfl⟩
  unfold anonymizeIdentification
  dsimp only
  split <;> simp [hc]

/-! ### Cases that meet the hypotheses -/

/-- Two place records that differ in country, region, raw bytes, mark and the last two digits of the odometer. -/
def Spec.placeA : PlaceRecord := ⟨none, some ⟨1600000000, 0⟩, 1, none, 5, none, [7], 123456, false⟩
def Spec.placeB : PlaceRecord := ⟨some (zeros 10), some ⟨1600000000, 0⟩, 1, none, 9, none, [3], 123499, true⟩

example : placeA ≠ placeB ∧ placeKept placeA = placeKept placeB := by decide
example : anonymizePlaceRecord placeA = anonymizePlaceRecord placeB := (anonymize_place_iff _ _).mpr (by decide)
/-- The entry time of a single record is not hidden … -/
example : anonymizePlaceRecord placeA ≠ anonymizePlaceRecord { placeA with entryTime := some ⟨1600000001, 0⟩ } := fun h =>
  absurd ((anonymize_place_iff _ _).mp h) (by decide)
/-- … but in a file it is. -/
example : anonymizePlaces ⟨none, 0, [placeA, placeB]⟩ =
    anonymizePlaces ⟨none, 0, [{ placeA with entryTime := none }, { placeB with entryTime := some ⟨5, 0⟩ }]⟩ :=
  (anonymize_places_iff _ _).mpr ⟨rfl, rfl, fun i h h' => by
    match i, h with
    | 0, _ => rfl
    | 1, _ => rfl⟩

/-- A place file of one record, and what becomes of it. -/
example : ∃ p, unmarshalPlaces ([0, 0x5E, 0x0B, 0xE1, 0x02, 1, 13, 4, 0, 0x30, 0x39] : Bytes) = .ok p ∧ p.records.length ≤ 754000 := by
  obtain ⟨p, hp⟩ := (places_accepts_iff ([0, 0x5E, 0x0B, 0xE1, 0x02, 1, 13, 4, 0, 0x30, 0x39] : Bytes)).mpr (by decide)
  refine ⟨p, hp, ?_⟩
  rw [((places_ok_iff _ _).mp hp).2.2.2.1]
  decide
example : (anonymizePlaces ⟨none, 0, [placeA]⟩).rawData = some [0, 0x5E, 0x0B, 0xE1, 0x00, 0, 0x12, 1, 0x01, 0xE2, 0x08] := by
  decide +kernel

end Tacho
