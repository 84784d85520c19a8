import Verif.Spec.Ranges
import Verif.Props.Texts
import Verif.Props.CardAgain
/-!
# Every value of a parsed file lies in the range of its field (C90)
-/

namespace Tacho
open Spec

/-! ## Leaves -/

theorem each_some {α : Type} {P : α → Prop} {x : α} (h : P x) : Each P (some x) := by
  intro m hm; cases hm; exact h

theorem each_none {α : Type} {P : α → Prop} : Each P none := by intro m hm; cases hm

theorem eachData_some {α : Type} {P : α → Prop} {x : α} {s : Option Bytes} (h : P x) : EachData P (some ⟨x, s⟩) := by
  intro m hm; cases hm; exact h

theorem eachData_none {α : Type} {P : α → Prop} : EachData P none := by intro m hm; cases hm

theorem sl?_len {d x : Bytes} {a b : Nat} (h : sl? d a b = .ok x) : x.length = b - a := by
  obtain ⟨_, h2, rfl⟩ := sl?_eq_ok h
  exact sl_length_of h2

theorem fits_slice {d x : Bytes} {a b n : Nat} (h : sl? d a b = .ok x) (hn : 256 ^ (b - a) = 2 ^ n) : Fits n (beNat x : Int) :=
  fits_be (sl?_len h) hn

theorem fits_odometer {d : Bytes} {n : Nat} (h : unmarshalOdometer d = .ok n) : Fits 24 (n : Int) := by
  unfold unmarshalOdometer at h
  split at h
  · cases h
  · cases h
    exact fits_be (k := 3) (Classical.not_not.1 ‹_›) (by decide)

theorem fits_zero (n : Nat) : Fits n 0 := ⟨by decide, by exact_mod_cast Nat.pow_pos (by decide : 0 < 2)⟩

theorem named_or1 (t : EnumTable) (b : UInt8) : NamedOr1 t (enumOr1 t b) := by
  by_cases h : enumOr1 t b = 1
  · exact .inl h
  · exact .inr (named_of_or1 h)

theorem named_or_kept (t : EnumTable) (b : UInt8) : NamedOrKept t (enumOrUnrecognized t b).1 (enumOrUnrecognized t b).2 := by
  unfold enumOrUnrecognized
  cases h : unmarshalEnum t b with
  | ok v => exact .inl ⟨named_of_byte h, rfl⟩
  | err m => exact .inr ⟨rfl, _, rfl, fits_byte b⟩
  | panic => exact .inr ⟨rfl, _, rfl, fits_byte b⟩

theorem encoding_range (b : UInt8) : NamedOr1 encodingTable (getEncodingFromCodePage b) := by
  have h : ∀ b : UInt8, getEncodingFromCodePage b = 1 ∨ (getEncodingFromCodePage b, some b.toNat) ∈ encodingTable := by
    apply forall_byte
    decide +kernel
  rcases h b with h | h
  · exact .inl h
  · exact .inr ⟨b, h⟩

theorem text_slice [Charmap] {d x : Bytes} {s : StringValue} {a b : Nat} {n : Int} (h : unmarshalStringValue x = .ok s)
    (hx : sl? d a b = .ok x) (hn : (b : Int) - a - 1 = n) (hb : n < 2 ^ 31) : TextRange n s := by
  unfold unmarshalStringValue at h
  have hl := sl?_len hx
  have hab := (sl?_eq_ok hx).1
  split at h
  · cases h
  · simp only [Res.pure_eq, bind_eq_ok, Res.ok.injEq, from?_iff] at h
    obtain ⟨c, _, y, ⟨_, rfl⟩, rfl⟩ := h
    refine ⟨encoding_range c, ?_⟩
    simp only [List.length_drop, Option.some.injEq]
    rw [wrap32_id (by omega) (by omega)]
    omega

theorem ia5_slice {d x : Bytes} {s : Ia5StringValue} {a b : Nat} {n : Int} (h : unmarshalIa5StringValue x = .ok s)
    (hx : sl? d a b = .ok x) (hn : (b : Int) - a = n) (hb : n < 2 ^ 31) : Ia5Range n s := by
  unfold unmarshalIa5StringValue at h
  have hl := sl?_len hx
  have hab := (sl?_eq_ok hx).1
  split at h
  · cases h
  · cases h
    simp only [Ia5Range, Option.some.injEq]
    rw [wrap32_id (by omega) (by omega)]
    omega

theorem range_counter {d x : Bytes} {c : BcdString} {a b : Nat} (h : unmarshalBcdString x = .ok c) (hx : sl? d a b = .ok x)
    (hn : b - a = 2) : CounterRange c := by
  obtain ⟨h1, h2, h3⟩ := counter_read ((sl?_len hx).trans hn) h
  exact ⟨⟨h2, by omega⟩, h1⟩

theorem bcd2_range (b : UInt8) : Between 0 165 (bcd2 b) := by
  have := byte_lt b
  unfold bcd2 Between
  omega

theorem range_version (d : Bytes) : Post (unmarshalCardStructureVersion d) VersionRange := by
  unfold unmarshalCardStructureVersion
  run
  exact ⟨bcd2_range _, bcd2_range _⟩

theorem range_date (d : Bytes) : Post (unmarshalDate d) DateRange := by
  unfold unmarshalDate
  refine post_ite (fun _ => post_err_bind) fun _ => post_bind fun a _ => post_bind fun b _ => post_bind fun _ _ => post_bind fun _ _ => post_pure ?_
  have := byte_lt a
  have := byte_lt b
  refine ⟨?_, bcd2_range _, bcd2_range _⟩
  unfold Between
  dsimp only
  omega

theorem range_monthYear (d : Bytes) : Post (unmarshalMonthYear d) MonthYearRange := by
  intro m h
  have hl := monthYear_len h
  match d, hl with
  | [a, b], _ =>
    rw [monthYear_decode, Res.ok.injEq] at h
    subst h
    split
    · rename_i h
      obtain ⟨⟨h1, h2⟩, ⟨h3, h4⟩, h5⟩ := h
      refine ⟨?_, .inr ?_, ?_⟩ <;> simp only [bcd2, Between] <;> omega
    · exact ⟨⟨Int.le_refl 0, (by decide : (0 : Int) ≤ 99)⟩, .inl rfl, fun _ => rfl⟩

theorem range_geo (d : Bytes) : Post (unmarshalGeoCoordinates d) GeoRange := by
  unfold unmarshalGeoCoordinates
  refine post_ite (fun _ => post_err_bind) fun _ => post_bind fun a ha => post_bind fun b hb => post_pure ?_
  have g1 := readInt24_spec a (sl?_len ha)
  have g2 := readInt24_spec b (sl?_len hb)
  exact ⟨⟨g1.1, g1.2.1⟩, ⟨g2.1, g2.2.1⟩⟩

theorem range_change (d : Bytes) : Post (unmarshalActivityChangeInfo d) ChangeRange := by
  unfold unmarshalActivityChangeInfo
  dsimp only
  refine post_ite (fun _ => post_err_bind) fun _ => post_bind fun s hs => post_bind fun a ha => post_pure ?_
  refine ⟨named_of_byte hs, named_of_byte ha, ?_⟩
  unfold Between
  dsimp only
  omega

theorem every_mapRes {α β : Type} {f : α → Res β} {xs : List α} {rs : List β} {P : β → Prop} (hf : ∀ x, Post (f x) P)
    (h : mapRes f xs = .ok rs) : Every P rs := by
  intro r hr
  obtain ⟨x, _, hx⟩ := mapRes_mem h r hr
  exact hf x r hx

theorem every_mapUntilErr {α β : Type} {f : α → Res β} {xs : List α} {P : β → Prop} (hf : ∀ x, Post (f x) P) :
    Post (mapUntilErr f xs) (Every P) := by
  induction xs with
  | nil => exact post_ok (by intro x hx; cases hx)
  | cons x xs ih =>
    unfold mapUntilErr
    cases h : f x with
    | ok y =>
      refine post_bind_of ih fun ys hys => post_pure ?_
      intro z hz
      rcases List.mem_cons.1 hz with rfl | hz
      · exact hf x _ h
      · exact hys z hz
    | err m => exact post_ok (by intro x hx; cases hx)
    | panic => intro z hz; cases hz

theorem every_loopAt {β : Type} {f : Nat → Res β} {size n off : Nat} {rs : List β} {P : β → Prop} (hf : ∀ x, Post (f x) P)
    (h : loopAt f size n off = .ok rs) : rs.length = n ∧ Every P rs := by
  refine ⟨(loopAt_ok_iff.1 h).1, ?_⟩
  intro r hr
  obtain ⟨i, hi, rfl⟩ := List.mem_iff_getElem.1 hr
  exact hf _ _ ((loopAt_ok_iff.1 h).2 i hi)

/-- Closes the range of one field by what was read for it. -/
macro "leaf" : tactic => `(tactic| repeat' with_reducible first
  | exact each_none
  | refine each_some ?_
  | exact timeOk_read (by assumption)
  | exact fits_odometer (by assumption)
  | exact fits_byte _
  | exact named_or1 _ _
  | exact named_or_kept _ _
  | exact named_of_byte (by assumption)
  | exact fits_slice (by assumption) (by decide)
  | exact text_slice (by assumption) (by assumption) (by omega) (by decide)
  | exact ia5_slice (by assumption) (by assumption) (by omega) (by decide)
  | exact range_counter (by assumption) (by assumption) (by decide)
  | exact (range_version _).use (by assumption)
  | exact (range_date _).use (by assumption)
  | exact (range_monthYear _).use (by assumption)
  | exact (range_geo _).use (by assumption))

section
variable [Charmap]

theorem range_registration (d : Bytes) : Post (unmarshalVehicleRegistration d) RegRange := by
  unfold unmarshalVehicleRegistration
  run
  constructor <;> leaf

theorem range_holderName (d : Bytes) : Post (unmarshalHolderName d) NameRange := by
  unfold unmarshalHolderName
  run
  constructor <;> leaf

omit [Charmap] in
theorem range_driverId (d : Bytes) : Post (unmarshalDriverIdentification d) DriverIdRange := by
  unfold unmarshalDriverIdentification
  run
  constructor <;> leaf

omit [Charmap] in
theorem range_ownerId (d : Bytes) : Post (unmarshalOwnerIdentification d) OwnerIdRange := by
  unfold unmarshalOwnerIdentification
  run
  constructor <;> leaf

omit [Charmap] in
theorem range_cardNumber (d : Bytes) : Post (unmarshalFullCardNumber d) CardNumberRange := by
  unfold unmarshalFullCardNumber
  run
  · rename_i hc _ _ _ _
    refine ⟨.inl hc, fits_byte _, ?_, each_some ((range_driverId _).use ‹_›), each_none⟩
    simp [hc]
  · rename_i hn hc _ _
    refine ⟨.inr hc, fits_byte _, ?_, each_none, each_some ((range_ownerId _).use ‹_›)⟩
    simp [hn]

omit [Charmap] in
theorem range_gnss (d : Bytes) : Post (unmarshalGNSSPlaceRecord d) GnssRange := by
  unfold unmarshalGNSSPlaceRecord
  run
  constructor <;> leaf

omit [Charmap] in
theorem range_place (d : Bytes) : Post (unmarshalPlaceRecord d) PlaceRange := by
  unfold unmarshalPlaceRecord
  run
  constructor <;> leaf

omit [Charmap] in
theorem range_placeG2 (d : Bytes) : Post (unmarshalPlaceRecordG2 d) PlaceG2Range := by
  unfold unmarshalPlaceRecordG2
  run
  refine ⟨?_, each_some ((range_gnss _).use ‹_›)⟩
  constructor <;> leaf

omit [Charmap] in
theorem range_condition (d : Bytes) : Post (unmarshalSpecificConditionRecord d) ConditionRange := by
  unfold unmarshalSpecificConditionRecord
  run
  constructor <;> leaf

theorem range_vehicle (d : Bytes) : Post (unmarshalCardVehicleFields d) VehicleRange := by
  unfold unmarshalCardVehicleFields
  run
  constructor <;> leaf
  exact (range_registration _).use ‹_›

theorem range_vehicleG1 (d : Bytes) : Post (unmarshalCardVehicleRecord d) VehicleRange := by
  unfold unmarshalCardVehicleRecord
  run
  exact range_vehicle d

theorem range_vehicleG2 (d : Bytes) : Post (unmarshalCardVehicleRecordG2 d) (fun r => VehicleRange r.base) := by
  unfold unmarshalCardVehicleRecordG2
  run
  exact range_vehicle _ _ ‹_›

theorem range_previousVehicle (d : Bytes) : Post (unmarshalPreviousVehicleInfo d) PreviousVehicleRange := by
  unfold unmarshalPreviousVehicleInfo unmarshalPreviousVehicleFields
  run
  constructor <;> leaf
  exact (range_registration _).use ‹_›

theorem range_iw (d : Bytes) : Post (unmarshalVuCardIWRecord d) IWRange := by
  unfold unmarshalVuCardIWRecord
  run
  constructor <;> leaf
  · exact (range_holderName _).use ‹_›
  · exact (range_cardNumber _).use ‹_›
  · exact (range_previousVehicle _).use ‹_›

/-! ## Files of a card -/

omit [Charmap] in
theorem range_icc (d : Bytes) : Post (unmarshalIcc d) IccRange := by
  unfold unmarshalIcc
  run
  constructor <;> leaf <;> constructor <;> leaf

omit [Charmap] in
theorem range_appId (d : Bytes) : Post (unmarshalAppId d) AppIdRange := by
  unfold unmarshalAppId
  run
  constructor <;> leaf
  constructor <;> leaf

omit [Charmap] in
theorem range_appIdG2 (d : Bytes) : Post (unmarshalAppIdG2 d) AppIdG2Range := by
  unfold unmarshalAppIdG2
  run
  constructor <;> leaf
  constructor <;> leaf

omit [Charmap] in
theorem range_appIdV2 (d : Bytes) : Post (unmarshalAppIdV2 d) AppIdV2Range := by
  unfold unmarshalAppIdV2
  run
  constructor <;> leaf

theorem range_usage (d : Bytes) : Post (unmarshalCurrentUsage d) UsageRange := by
  unfold unmarshalCurrentUsage
  run
  constructor <;> leaf
  exact (range_registration _).use ‹_›

theorem range_licence (d : Bytes) : Post (unmarshalDrivingLicenceInfo d) LicenceRange := by
  unfold unmarshalDrivingLicenceInfo
  run
  constructor <;> leaf

omit [Charmap] in
theorem timeOk_none : TimeOk none := by intro x hx; cases hx

theorem range_control (d : Bytes) : Post (unmarshalControlActivity d) ControlRange := by
  unfold unmarshalControlActivity
  run
  · exact ⟨timeOk_none, each_none, each_none, timeOk_none, timeOk_none⟩
  · constructor <;> leaf
    · refine ⟨rfl, each_some ⟨rfl, rfl, each_some ⟨?_, rfl, rfl⟩, rfl⟩⟩
      leaf
    · exact (range_registration _).use ‹_›

omit [Charmap] in
theorem range_owner_number (d : Bytes) : Post (do
    let a ← sl? d 0 13
    let o ← unmarshalIa5StringValue a
    let b ← sl? d 13 14
    let c ← unmarshalIa5StringValue b
    let b ← sl? d 14 15
    let r ← unmarshalIa5StringValue b
    let b ← sl? d 15 16
    let w ← unmarshalIa5StringValue b
    return ({ owner := some o, consecutive := some c, replacement := some r, renewal := some w } : OwnerIdentification)) OwnerIdRange := by
  run
  constructor <;> leaf

omit [Charmap] in
theorem range_identNumber (d : Bytes) : Post (unmarshalCardNumber d) (fun r => (r.1 = .driverCard ∨ r.1 = .workshopCard) ∧
    Each DriverIdRange r.2.1 ∧ Each OwnerIdRange r.2.2 ∧ (r.2.1.isSome ↔ r.1 = .driverCard) ∧ (r.2.2.isSome ↔ r.1 = .workshopCard)) := by
  have hi : ∀ {d b : Bytes} {i : Nat}, sl? d i (i + 1) = .ok b →
      Each (Ia5Range 1) (match unmarshalIa5StringValue b with | .ok x => some x | _ => none) := by
    intro d b i hb
    cases h : unmarshalIa5StringValue b with
    | ok x => exact each_some (ia5_slice h hb (by omega) (by decide))
    | err m => exact each_none
    | panic => exact each_none
  have ho : ∀ o, Post (pure (CardType.workshopCard, (none : Option DriverIdentification), some o) : Res _) (fun r =>
      OwnerIdRange o → (r.1 = .driverCard ∨ r.1 = .workshopCard) ∧ Each DriverIdRange r.2.1 ∧ Each OwnerIdRange r.2.2 ∧
      (r.2.1.isSome ↔ r.1 = .driverCard) ∧ (r.2.2.isSome ↔ r.1 = .workshopCard)) := fun o => post_pure fun h =>
    ⟨.inr rfl, each_none, each_some h, by simp, by simp⟩
  unfold unmarshalCardNumber
  dsimp only
  refine post_bind fun n hn => ?_
  cases h : unmarshalIa5StringValue n with
  | ok id =>
    dsimp only
    refine post_bind fun _ _ => post_bind fun _ _ => post_ite (fun _ => ?_) (fun _ => ?_)
    · refine post_bind fun b hb => post_bind fun c hc => post_pure ⟨.inl rfl, each_some ?_, each_none, by simp, by simp⟩
      exact ⟨each_some (ia5_slice h hn (by omega) (by decide)), hi hb, hi hc⟩
    · exact post_bind fun o h r hr => ho o r hr (range_owner_number d o h)
  | err m => exact post_bind fun o h r hr => ho o r hr (range_owner_number d o h)
  | panic => exact post_bind fun o h r hr => ho o r hr (range_owner_number d o h)

theorem range_identification (d : Bytes) : Post (unmarshalIdentification d) IdentRange := by
  unfold unmarshalIdentification
  run
  rename_i n h1 _ _ _ h2 _ _ _ _ _ _ _ _ _ _ _ _ _ _ _ h3 _ _ _ h4 _ _ _ _ _ _ _ h5
  obtain ⟨e1, e2, e3, e4, e5⟩ := range_identNumber _ _ h1
  refine ⟨e1, each_some ⟨?_, e2, e3, e4, e5, ?_, ?_, ?_, ?_⟩, each_some ⟨?_, ?_, ?_, ?_⟩⟩ <;> leaf

theorem range_event (d : Bytes) : Post (unmarshalEventRecord d) EventRange := by
  unfold unmarshalEventRecord
  run
  refine ⟨.inl ⟨rfl, named_of_byte ‹_›⟩, ?_, ?_, each_some ((range_registration _).use ‹_›)⟩ <;> leaf

omit [Charmap] in
theorem range_withNumberRaw {r : EventRecord} {raw : Option Bytes} (h : EventRange r) : EventRange (r.withNumberRaw raw) := by
  obtain ⟨a, b, c, d, e, f⟩ := r
  obtain ⟨h1, h2, h3, h4⟩ := h
  refine ⟨h1, h2, h3, ?_⟩
  cases f with
  | none => exact each_none
  | some f =>
    obtain ⟨g, f⟩ := f
    have hf := h4 _ rfl
    refine each_some ⟨hf.nation, ?_⟩
    cases f with
    | none => exact each_none
    | some s => exact each_some ⟨(hf.number s rfl).encoding, (hf.number s rfl).length⟩

theorem range_eventToken (heap : List Bytes) (t : Tok) : Post (unmarshalEventToken heap t) EventRange := by
  unfold unmarshalEventToken
  run
  · exact ⟨.inr ⟨rfl, rfl⟩, timeOk_none, timeOk_none, each_none⟩
  · exact range_withNumberRaw (range_event _ _ ‹_›)

theorem range_events (d : Bytes) : Post (unmarshalEventsData d) (Every EventRange) := by
  unfold unmarshalEventsData
  dsimp only
  refine post_bind fun rs hrs => ?_
  split
  · exact post_err
  · exact post_pure (every_mapRes (range_eventToken _) hrs)

theorem range_vehiclesUsed (d : Bytes) : Post (unmarshalVehiclesUsed d) (FileRange 16 VehicleRange) := by
  unfold unmarshalVehiclesUsed
  run
  constructor <;> leaf
  exact every_mapRes range_vehicleG1 ‹_›

theorem range_vehiclesUsedG2 (d : Bytes) : Post (unmarshalVehiclesUsedG2 d) (FileRange 16 (fun r => VehicleRange r.base)) := by
  unfold unmarshalVehiclesUsedG2
  run
  constructor <;> leaf
  exact every_mapRes range_vehicleG2 ‹_›

omit [Charmap] in
theorem range_places (d : Bytes) : Post (unmarshalPlaces d) (FileRange 8 PlaceRange) := by
  unfold unmarshalPlaces
  run
  rename_i r _ rs h
  rw [mapRes_congr fun x hx => parsePlace_of_length (cut_sizes (by decide) r x hx)] at h
  constructor <;> leaf
  exact every_mapRes range_place h

omit [Charmap] in
theorem range_placesG2 (d : Bytes) : Post (unmarshalPlacesG2 d) (FileRange 16 PlaceG2Range) := by
  unfold unmarshalPlacesG2
  run
  rename_i r _ rs h
  rw [mapRes_congr fun x hx => parsePlaceG2_of_length (cut_sizes (by decide) r x hx)] at h
  constructor <;> leaf
  exact every_mapRes range_placeG2 h

omit [Charmap] in
theorem range_conditions (d : Bytes) : Post (unmarshalSpecificConditions d) (FileRange 0 ConditionRange) := by
  unfold unmarshalSpecificConditions
  run
  · exact ⟨fits_zero _, by intro x hx; cases hx⟩
  · exact ⟨fits_zero _, every_mapUntilErr range_condition _ ‹_›⟩

omit [Charmap] in
theorem range_conditionsG2 (d : Bytes) : Post (unmarshalSpecificConditionsG2 d) (FileRange 16 ConditionRange) := by
  unfold unmarshalSpecificConditionsG2
  run
  constructor <;> leaf
  exact every_mapUntilErr range_condition _ ‹_›

omit [Charmap] in
theorem range_gnssEntry (d : Bytes) : Post (unmarshalGnssPlaceEntry d) GnssEntryRange := by
  unfold unmarshalGnssPlaceEntry
  run
  constructor <;> leaf
  exact (range_gnss _).use ‹_›

omit [Charmap] in
theorem range_gnssPlaces (d : Bytes) : Post (unmarshalGnssPlaces d) (fun m => Fits 16 m.1 ∧ Every GnssEntryRange m.2) := by
  unfold unmarshalGnssPlaces
  dsimp only
  run
  split
  · exact post_err
  · refine post_pure ⟨?_, every_mapRes range_gnssEntry ‹_›⟩
    leaf

omit [Charmap] in
theorem range_vehicleUnit (heap : List Bytes) (t : Tok) : Post (unmarshalVehicleUnitToken heap t) VehicleUnitRange := by
  unfold unmarshalVehicleUnitToken
  dsimp only
  run
  constructor <;> leaf

omit [Charmap] in
theorem range_vehicleUnits (d : Bytes) : Post (unmarshalVehicleUnitsUsed d) (fun m => Fits 16 m.1 ∧ Every VehicleUnitRange m.2) := by
  unfold unmarshalVehicleUnitsUsed
  dsimp only
  run
  split
  · exact post_err
  · refine post_pure ⟨?_, every_mapRes (range_vehicleUnit _) ‹_›⟩
    leaf

omit [Charmap] in
theorem range_cardDownload (d : Bytes) : Post (unmarshalCardDownload d) (fun m => TimeOk m.timestamp) := fun _ h => cardDownload_read h

/-! ## Activity -/

omit [Charmap] in
theorem range_changes (d : Bytes) : Post (parseChanges d) (Every ChangeRange) := by
  match d with
  | [] => exact post_ok (by intro x hx; cases hx)
  | [_] => exact post_ok (by intro x hx; cases hx)
  | a :: b :: rest =>
    unfold parseChanges
    refine post_ite (fun _ => range_changes rest) fun _ => post_bind fun c hc => post_bind fun cs hcs => post_pure ?_
    intro x hx
    rcases List.mem_cons.1 hx with rfl | hx
    · exact range_change _ _ hc
    · exact range_changes rest cs hcs x hx

omit [Charmap] in
theorem range_day (d : Bytes) : Post (parseSingleDailyRecord d) DayRange := by
  unfold parseSingleDailyRecord
  run
  constructor <;> leaf
  exact (range_changes _).use ‹_›

omit [Charmap] in
theorem range_dayOf (d : Bytes) : Post (dailyRecordOf d) DayRange := by
  unfold dailyRecordOf
  split
  · refine post_ok ⟨fits_zero _, fits_zero _, timeOk_none, each_none, fits_zero _, ?_⟩
    intro x hx; cases hx
  · have := range_day _ _ ‹_›
    exact post_ok ⟨this.1, this.2, this.3, this.4, this.5, this.6⟩
  · intro _ h; cases h

omit [Charmap] in
theorem range_loop (fuel : Nat) (it : CyclicIter) (acc : List DailyRecord) (h : Every DayRange acc) :
    ∀ r, activityLoop fuel it acc = some r → Post r (Every DayRange) := by
  induction fuel generalizing it acc with
  | zero => intro r hr; cases hr
  | succ n ih =>
    intro r hr
    unfold activityLoop at hr
    split at hr
    · cases hr; intro _ h; cases h
    · cases hr; exact post_err
    · cases hr
      split
      · exact post_err
      · exact post_ok fun x hx => h x (List.mem_reverse.1 hx)
    · split at hr
      · rename_i m hm
        refine ih _ _ ?_ r hr
        intro x hx
        rcases List.mem_append.1 hx with hx | hx
        · exact h x hx
        · rw [List.mem_singleton] at hx
          exact hx ▸ range_dayOf _ _ hm
      · cases hr; exact post_err
      · cases hr; intro _ h; cases h

omit [Charmap] in
theorem range_activity (d : Bytes) : Post (unmarshalDriverActivityData d) ActivityRange := by
  unfold unmarshalDriverActivityData
  run
  constructor <;> leaf
  rename_i b _ _ rs hrs
  unfold parseActivityRecords at hrs
  cases hl : activityLoop 367 (newCyclicIter b _) [] with
  | none => rw [hl] at hrs; cases hrs
  | some r =>
    rw [hl] at hrs
    exact range_loop _ _ _ (by intro x hx; cases hx) r hl _ hrs

/-! ## Certificates -/

omit [Charmap] in
theorem range_rsa (d : Bytes) : Post (unmarshalRsa d) RsaRange := by
  unfold unmarshalRsa
  run
  exact ⟨rfl, rfl⟩

omit [Charmap] in
theorem range_secTime {d : Bytes} {t : Timestamp} (h : secTimeReal d = .ok t) : CertTime (some t) := by
  unfold secTimeReal at h
  split at h
  · cases h
  · cases h
    exact ⟨_, rfl, fits_be (k := 4) (Classical.not_not.1 ‹_›) (by decide), rfl⟩

omit [Charmap] in
theorem range_ecc (d : Bytes) : Post (unmarshalEcc d) EccRange := by
  unfold unmarshalEcc
  run
  exact ⟨fits_byte _, range_secTime ‹_›, range_secTime ‹_›, rfl⟩

/-! ## Driver cards -/

/-- What parsing keeps true of the card built so far. -/
def RangeInv (c : DriverCard) : Prop :=
  Each IccRange c.icc ∧ TachographRange (c.tachograph.getD {}) ∧ TachographG2Range (c.tachographG2.getD {})

omit [Charmap] in
theorem range_setG1 {c : DriverCard} {f : Tachograph → Tachograph} (h : RangeInv c) (hf : ∀ t, TachographRange t → TachographRange (f t)) :
    RangeInv (c.setG1 f) :=
  ⟨h.1, hf _ h.2.1, h.2.2⟩

omit [Charmap] in
theorem range_setG2 {c : DriverCard} {f : TachographG2 → TachographG2} (h : RangeInv c)
    (hf : ∀ t, TachographG2Range t → TachographG2Range (f t)) : RangeInv (c.setG2 f) :=
  ⟨h.1, h.2.1, hf _ h.2.2⟩

theorem range_route (c : DriverCard) (file : EF) (gen : Generation) (v : Bytes) (sig : Option Bytes) (h : RangeInv c) :
    Post (routeRecord c file gen v sig) RangeInv := by
  cases file <;> simp only [routeRecord]
  case' caCertificate =>
    refine post_bind_of (Q := RangeInv) ?_ (fun c' hc => post_bind fun _ _ => post_pure hc)
  all_goals (repeat' first
    | with_reducible exact post_err
    | with_reducible exact post_err_bind
    | with_reducible refine post_bind fun _ _ => ?_
    | with_reducible refine post_ite (fun _ => ?_) (fun _ => ?_)
    | with_reducible refine post_byGeneration ?_ ?_
    | with_reducible refine post_pure ?_
    | with_reducible refine post_ok ?_)
  all_goals try with_reducible exact h
  all_goals first
    | with_reducible have e := (range_icc _).use ‹unmarshalIcc _ = _›
    | with_reducible have e := (range_identification _).use ‹unmarshalIdentification _ = _›
    | with_reducible have e := (range_appId _).use ‹unmarshalAppId _ = _›
    | with_reducible have e := (range_appIdG2 _).use ‹unmarshalAppIdG2 _ = _›
    | with_reducible have e := (range_appIdV2 _).use ‹unmarshalAppIdV2 _ = _›
    | with_reducible have e := (range_licence _).use ‹unmarshalDrivingLicenceInfo _ = _›
    | with_reducible have e := (range_events _).use ‹unmarshalEventsData _ = _›
    | with_reducible have e := (range_activity _).use ‹unmarshalDriverActivityData _ = _›
    | with_reducible have e := (range_vehiclesUsed _).use ‹unmarshalVehiclesUsed _ = _›
    | with_reducible have e := (range_vehiclesUsedG2 _).use ‹unmarshalVehiclesUsedG2 _ = _›
    | with_reducible have e := (range_places _).use ‹unmarshalPlaces _ = _›
    | with_reducible have e := (range_placesG2 _).use ‹unmarshalPlacesG2 _ = _›
    | with_reducible have e := (range_usage _).use ‹unmarshalCurrentUsage _ = _›
    | with_reducible have e := (range_control _).use ‹unmarshalControlActivity _ = _›
    | with_reducible have e := (range_conditions _).use ‹unmarshalSpecificConditions _ = _›
    | with_reducible have e := (range_conditionsG2 _).use ‹unmarshalSpecificConditionsG2 _ = _›
    | with_reducible have e := (range_cardDownload _).use ‹unmarshalCardDownload _ = _›
    | with_reducible have e := (range_vehicleUnits _).use ‹unmarshalVehicleUnitsUsed _ = _›
    | with_reducible have e := (range_gnssPlaces _).use ‹unmarshalGnssPlaces _ = _›
    | with_reducible have e := (range_rsa _).use ‹unmarshalRsa _ = _›
    | with_reducible have e := (range_ecc _).use ‹unmarshalEcc _ = _›
    | have e := True.intro
  all_goals first
    | (with_reducible refine range_setG1 h fun t ht => ?_
       obtain ⟨a1, a2, a3, a4, a5, a6, a7, a8, a9, a10, a11, a12, a13, a14⟩ := ht
       constructor)
    | (with_reducible refine range_setG2 h fun t ht => ?_
       obtain ⟨a1, a2, a3, a4, a5, a6, a7, a8, a9, a10, a11, a12, a13, a14, a15, a16, a17, a18, a19⟩ := ht
       constructor)
    | exact ⟨each_some e, h.2.1, h.2.2⟩
    | exact ⟨h.1, h.2.1, h.2.2⟩
  all_goals try assumption
  all_goals first | exact eachData_some e | exact each_some e

theorem range_cardLoop (rs : List RawRec) (c : DriverCard) (h : RangeInv c) : Post (driverCardLoop c rs) RangeInv := by
  match rs with
  | [] => exact post_ok h
  | [r] =>
    unfold driverCardLoop
    exact post_ite (fun _ => range_route _ _ _ _ _ h) (fun _ => post_err)
  | r :: n :: rest =>
    unfold driverCardLoop
    refine post_ite (fun _ => post_ite (fun _ => ?_) (fun _ => ?_)) (fun _ => post_err)
    · exact post_bind fun c' hc => range_cardLoop rest c' (range_route _ _ _ _ _ h c' hc)
    · exact post_bind fun c' hc => range_cardLoop (n :: rest) c' (range_route _ _ _ _ _ h c' hc)
termination_by rs.length

/-- C90: every value of a parsed driver card lies in the range of its field. -/
theorem driver_card_in_range (rs : List RawRec) (c : DriverCard) (h : unmarshalDriverCard rs = .ok c) : CardRange c := by
  obtain ⟨h1, h2, h3⟩ := range_cardLoop rs {} ⟨each_none,
    by constructor <;> first | exact eachData_none | exact each_none,
    by constructor <;> first | exact eachData_none | exact each_none⟩ c h
  exact ⟨h1, fun t ht => by rw [ht] at h2; exact h2, fun t ht => by rw [ht] at h3; exact h3⟩

/-! ## Vehicle unit files -/

omit [Charmap] in
theorem fits_low (b : UInt8) : Fits 4 ((b.toNat % 16 : Nat) : Int) := by unfold Fits; omega

omit [Charmap] in
theorem fits_high (b : UInt8) : Fits 4 ((b.toNat / 16 : Nat) : Int) := by
  have := byte_lt b
  unfold Fits; omega

theorem range_overview (d : Bytes) : Post (unmarshalOverviewGen1 d) OverviewRange := by
  have hl : ∀ o, Post (companyLockAt d o) LockRange := by
    intro o
    unfold companyLockAt
    run
    constructor <;> leaf
    exact (range_cardNumber _).use ‹_›
  have hc : ∀ o, Post (controlActivityAt d o) VuControlRange := by
    intro o
    unfold controlActivityAt
    run
    constructor <;> leaf
    exact (range_cardNumber _).use ‹_›
  unfold unmarshalOverviewGen1
  dsimp only
  run
  have l := every_loopAt hl ‹loopAt (companyLockAt d) _ _ _ = _›
  have k := every_loopAt hc ‹loopAt (controlActivityAt d) _ _ _ = _›
  constructor <;> leaf
  · exact (range_registration _).use ‹_›
  · constructor <;> leaf
  · exact fits_low _
  · exact fits_high _
  · refine ⟨rfl, ?_⟩
    intro x hx
    rw [List.mem_singleton] at hx
    subst hx
    constructor <;> leaf
    exact (range_cardNumber _).use ‹_›
  · exact ⟨l.1 ▸ byte_lt _, l.2⟩
  · exact ⟨k.1 ▸ byte_lt _, k.2⟩

theorem range_activities (d : Bytes) : Post (unmarshalActivitiesGen1 d) ActivitiesRange := by
  have h1 : ∀ o, Post (cardIWAt d o) IWRange := by
    intro o
    unfold cardIWAt
    exact post_ite (fun _ => post_err_bind) fun _ => post_bind fun _ _ => range_iw _
  have h2 : ∀ o, Post (activityChangeAt d o) ChangeRange := by
    intro o
    unfold activityChangeAt
    exact post_ite (fun _ => post_err_bind) fun _ => post_bind fun _ _ => range_change _
  have h3 : ∀ o, Post (vuPlaceAt d o) VuPlaceRange := by
    intro o
    unfold vuPlaceAt
    run
    constructor <;> leaf
  have h4 : ∀ o, Post (specificConditionAt d o) ConditionRange := by
    intro o
    unfold specificConditionAt
    exact post_ite (fun _ => post_err_bind) fun _ => post_bind fun _ _ => range_condition _
  have word : ∀ {x : Bytes} {a : Nat}, sl? d a (a + 2) = .ok x → beNat x < 65536 := by
    intro x a h
    have := beNat_lt x
    rw [sl?_len h, show a + 2 - a = 2 by omega] at this
    exact this
  unfold unmarshalActivitiesGen1
  dsimp only
  run
  have k1 := every_loopAt h1 ‹loopAt (cardIWAt d) _ _ _ = _›
  have k2 := every_loopAt h2 ‹loopAt (activityChangeAt d) _ _ _ = _›
  have k3 := every_loopAt h3 ‹loopAt (vuPlaceAt d) _ _ _ = _›
  have k4 := every_loopAt h4 ‹loopAt (specificConditionAt d) _ _ _ = _›
  constructor <;> leaf
  · exact ⟨k1.1 ▸ word (a := 7) ‹_›, k1.2⟩
  · exact ⟨k2.1 ▸ word ‹_›, k2.2⟩
  · exact ⟨k3.1 ▸ byte_lt _, k3.2⟩
  · exact ⟨k4.1 ▸ word ‹_›, k4.2⟩

theorem range_vuGen1 (rs : List VuRec) (out : VuGen1) (h : VuRange out) : Post (unmarshalVuGen1 out rs) VuRange := by
  induction rs generalizing out with
  | nil => exact post_ok h
  | cons r rs ih =>
    unfold unmarshalVuGen1
    dsimp only
    split
    · exact post_bind fun x hx => ih _ ⟨each_some (range_overview _ _ hx), h.2⟩
    · refine post_bind fun x hx => ih _ ⟨h.1, ?_⟩
      intro y hy
      rcases List.mem_append.1 hy with hy | hy
      · exact h.2 y hy
      · rw [List.mem_singleton] at hy
        exact hy ▸ range_activities _ _ hx
    · exact post_bind fun x hx => ih _ ⟨h.1, h.2⟩
    · exact post_bind fun x hx => ih _ ⟨h.1, h.2⟩
    · exact post_bind fun x hx => ih _ ⟨h.1, h.2⟩
    · exact post_err_bind

/-- C90: every value of a parsed vehicle unit file lies in the range of its field. -/
theorem vehicle_unit_in_range (d : Bytes) (f : VehicleUnitFile) (h : unmarshalVehicleUnitFile d = .ok f) : Each VuRange f.gen1 := by
  revert f
  suffices hp : Post (unmarshalVehicleUnitFile d) (fun f => Each VuRange f.gen1) from hp
  unfold unmarshalVehicleUnitFile
  refine post_bind fun rs _ => ?_
  split
  · exact post_err
  · split
    · exact post_bind fun x hx => post_pure (each_some (range_vuGen1 _ _ ⟨each_none, by intro x hx; cases hx⟩ x hx))
    · exact post_ite (fun _ => post_bind fun x hx => post_pure each_none) (fun _ => post_bind fun x hx => post_pure each_none)
    · exact post_err

/-- C90: every number, time and enum number of a parsed file lies in the range of its field, whatever the bytes. -/
theorem file_in_range (d : Bytes) (f : File) (h : unmarshalFile d = .ok f) : FileInRange f := by
  revert f
  suffices hp : Post (unmarshalFile d) FileInRange from hp
  unfold unmarshalFile
  run
  · exact ⟨each_some (vehicle_unit_in_range _ _ ‹_›), each_none⟩
  · exact ⟨each_none, each_some (driver_card_in_range _ _ ‹_›)⟩
  · exact ⟨each_none, each_none⟩

end

/-! ## The ranges are exact

Each value of the range of a basic element is read from some bytes. Several ranges are wider than the regulation's:
an odometer beyond 9 999 999 km, a position beyond the pole, a change of activity after midnight, a month 165. -/

/-- C90: the times read are the absent one and the seconds from 1 to 2^32 - 1. -/
theorem time_values (t : Option Timestamp) : (∃ d, unmarshalTimeReal d = .ok t) ↔ TimeOk t := by
  constructor
  · rintro ⟨d, h⟩
    have hl := (timeReal_accepts_iff d).1 ⟨t, h⟩
    rw [timeReal_value d hl] at h
    cases h
    have := beNat_lt d
    rw [hl] at this
    split
    · intro x hx; cases hx
    · intro x hx
      cases hx
      exact ⟨by dsimp only; omega, by dsimp only; omega, rfl⟩
  · intro h
    cases t with
    | none => exact ⟨[0, 0, 0, 0], by decide⟩
    | some t =>
      obtain ⟨s, n⟩ := t
      obtain ⟨h1, h2, h3⟩ := h _ rfl
      simp only at h1 h2 h3
      subst h3
      obtain ⟨e, _, he⟩ := timeReal_encode_decode s h1 h2 []
      exact ⟨e, he⟩

/-- C90: the odometer values read are those below 2^24, though the regulation ends at 9 999 999 km. -/
theorem odometer_values (n : Nat) : (∃ d, unmarshalOdometer d = .ok n) ↔ n < 2 ^ 24 := by
  constructor
  · rintro ⟨d, h⟩
    obtain ⟨hl, rfl⟩ := (odometer_accepts_iff d n).1 h
    have := beNat_lt d
    rw [hl] at this
    omega
  · intro h
    obtain ⟨e, _, he⟩ := odometer_encode_decode n []
    exact ⟨e, by rw [he, Nat.mod_eq_of_lt h]⟩

/-- C90: the positions read are all pairs of 24 bit numbers, though the regulation ends at 90 degrees (90 000) and 180
degrees (180 000). -/
theorem position_values (g : GeoCoordinates) : (∃ d, unmarshalGeoCoordinates d = .ok g) ↔ GeoRange g := by
  constructor
  · rintro ⟨d, h⟩
    exact range_geo d g h
  · rintro ⟨⟨h1, h2⟩, ⟨h3, h4⟩⟩
    obtain ⟨a, b⟩ := g
    obtain ⟨e, _, he⟩ := geo_encode_decode a b h1 h2 h3 h4 []
    exact ⟨e, he⟩

/-- C90: the changes of activity read are those of either slot, any of the four activities and any minute below 2048,
though a day ends after 1440. -/
theorem change_values (s a t : Int) (crew ins : Bool) :
    (∃ d c, unmarshalActivityChangeInfo d = .ok c ∧ c.slot = s ∧ c.activity = a ∧ c.timeOfChangeMinutes = t ∧
      c.crew = crew ∧ c.inserted = ins) ↔ (s = 2 ∨ s = 3) ∧ Between 2 5 a ∧ Between 0 2047 t := by
  constructor
  · rintro ⟨d, c, h, rfl, rfl, rfl, _, _⟩
    obtain ⟨x, hx, hd⟩ := aci_bits d ((aci_accepts_iff d).1 ⟨c, h⟩)
    rw [aci_decode x hx d ((aci_accepts_iff d).1 ⟨c, h⟩) hd] at h
    cases h
    obtain ⟨h1, h2, h3, h4, h5⟩ := hx
    simp only [Spec.AciBits.message, Between]
    omega
  · rintro ⟨hs, ⟨ha1, ha2⟩, ⟨ht1, ht2⟩⟩
    obtain ⟨e, _, he⟩ := aci_encode_decode
      ⟨(s - 2).toNat, if crew then 1 else 0, if ins then 0 else 1, (a - 2).toNat, t.toNat⟩
      ⟨by dsimp only; omega, by dsimp only; split <;> omega, by dsimp only; split <;> omega, by dsimp only; omega,
        by dsimp only; omega⟩ []
    refine ⟨e, _, he, ?_, ?_, ?_, ?_, ?_⟩
    · simp only [Spec.AciBits.message]; omega
    · simp only [Spec.AciBits.message]; omega
    · simp only [Spec.AciBits.message]; omega
    · cases crew <;> rfl
    · cases ins <;> rfl

/-- A byte of two half bytes with the value `n`, which need not be digits. -/
theorem bcd2_onto (n : Int) (h : Between 0 165 n) : ∃ b : UInt8, bcd2 b = n := by
  obtain ⟨h1, h2⟩ := h
  refine ⟨UInt8.ofNat (min 15 (n.toNat / 10) * 16 + (n.toNat - 10 * min 15 (n.toNat / 10))), ?_⟩
  have : (UInt8.ofNat (min 15 (n.toNat / 10) * 16 + (n.toNat - 10 * min 15 (n.toNat / 10)))).toNat =
      min 15 (n.toNat / 10) * 16 + (n.toNat - 10 * min 15 (n.toNat / 10)) := by
    rw [UInt8.toNat_ofNat']; omega
  simp only [bcd2, this]
  omega

/-- C90: the versions read. -/
theorem version_values (a b : Int) : (∃ d v, unmarshalCardStructureVersion d = .ok v ∧ v.major = a ∧ v.minor = b) ↔
    Between 0 165 a ∧ Between 0 165 b := by
  constructor
  · rintro ⟨d, v, h, rfl, rfl⟩
    have := range_version d v h
    exact ⟨this.major, this.minor⟩
  · rintro ⟨ha, hb⟩
    obtain ⟨x, hx⟩ := bcd2_onto a ha
    obtain ⟨y, hy⟩ := bcd2_onto b hb
    exact ⟨[x, y], _, rfl, hx, hy⟩

/-- C90: the dates read are every combination of a year to 16665 and a month and a day to 165. -/
theorem date_values (y m d : Int) : (∃ b v, unmarshalDate b = .ok v ∧ v.year = y ∧ v.month = m ∧ v.day = d) ↔
    Between 0 16665 y ∧ Between 0 165 m ∧ Between 0 165 d := by
  constructor
  · rintro ⟨b, v, h, rfl, rfl, rfl⟩
    have := range_date b v h
    exact ⟨this.year, this.month, this.day⟩
  · rintro ⟨⟨hy1, hy2⟩, hm, hd⟩
    obtain ⟨x, hx⟩ := bcd2_onto m hm
    obtain ⟨z, hz⟩ := bcd2_onto d hd
    obtain ⟨u, hu⟩ := bcd2_onto (min 165 (y / 100)) ⟨by omega, by omega⟩
    obtain ⟨w, hw⟩ := bcd2_onto (y - 100 * min 165 (y / 100)) ⟨by omega, by omega⟩
    refine ⟨[u, w, x, z], _, rfl, ?_, hx, hz⟩
    simp only [bcd2] at hu hw
    dsimp only
    omega

/-- C90: the months and years read are every month from 0 to 99 of a year from 2000 to 2099, and zero; except that the
month 0 of the year 2000 is read as zero. -/
theorem monthYear_values (m y : Int) : (∃ d v, unmarshalMonthYear d = .ok v ∧ v.month = m ∧ v.year = y) ↔
    (m = 0 ∧ y = 0) ∨ (Between 0 99 m ∧ Between 2000 2099 y ∧ ¬ (m = 0 ∧ y = 2000)) := by
  constructor
  · rintro ⟨d, v, h, rfl, rfl⟩
    have hl : d.length = 2 := by
      by_cases hl : d.length = 2
      · exact hl
      · simp [unmarshalMonthYear, hl] at h
    match d, hl with
    | [b0, b1], _ =>
      rw [monthYear_decode] at h
      cases h
      split
      · rename_i hb
        obtain ⟨⟨h1, h2⟩, ⟨h3, h4⟩, h5⟩ := hb
        have z : ∀ b : UInt8, b = 0 ↔ b.toNat = 0 := fun b => by rw [← UInt8.toNat_inj]; rfl
        rw [z, z] at h5
        right
        simp only [Between, bcd2]
        omega
      · exact .inl ⟨rfl, rfl⟩
  · rintro (⟨rfl, rfl⟩ | ⟨⟨h1, h2⟩, ⟨h3, h4⟩, h5⟩)
    · exact ⟨[0, 0], _, rfl, rfl, rfl⟩
    · obtain ⟨e, _, he⟩ := monthYear_encode_decode m.toNat (y - 2000).toNat (by omega) (by omega) (by omega) []
      refine ⟨e, _, he, ?_, ?_⟩
      · simp only; omega
      · simp only; omega

/-- C90: the counters read are those of four digits. -/
theorem counter_values (n : Int) : (∃ d v, d.length = 2 ∧ unmarshalBcdString d = .ok v ∧ v.value = n) ↔ Between 0 9999 n := by
  constructor
  · rintro ⟨d, v, hl, h, rfl⟩
    obtain ⟨h1, h2, h3⟩ := counter_read hl h
    exact ⟨h2, by omega⟩
  · rintro ⟨h1, h2⟩
    obtain ⟨out, ho⟩ := (bcd_encode_iff [] n 2 (by omega)).2 ⟨h1, by omega⟩
    obtain ⟨e, hoe, hl, he⟩ := bcd_encode_decode [] out n 2 ho
    have hn : ¬ e.length = 0 := by omega
    refine ⟨e, ⟨wrap32 n.toNat, wrap32 e.length⟩, hl, ?_, ?_⟩
    · simp only [unmarshalBcdString, hn, if_false, he (by omega), Res.bind_ok, Res.pure_eq]
    · simp only
      rw [wrap32_id (by omega) (by omega)]
      omega

/-- C90: the issuing states read are all the bytes, those included that the enum does not have. -/
theorem issuing_state_values (n : Int) : (∃ d c, unmarshalFullCardNumber d = .ok c ∧ c.issuingState = n) ↔ Fits 8 n := by
  constructor
  · rintro ⟨d, c, h, rfl⟩
    exact (range_cardNumber d c h).issuingState
  · rintro ⟨h1, h2⟩
    obtain ⟨c, hc⟩ := (fullCardNumber_accepts_iff ([1, UInt8.ofNat n.toNat] ++ List.replicate 16 0x20)).2
      ⟨rfl, 1, rfl, .inl rfl⟩
    refine ⟨_, c, hc, ?_⟩
    obtain ⟨_, t, b, _, hb, hi, _⟩ := (fullCardNumber_decode _ _).1 hc
    cases hb
    rw [hi, UInt8.toNat_ofNat']
    omega

/-- C90: 200 is one that the enum does not have. -/
theorem issuing_state_undeclared : ∀ e ∈ nationNumericTable, e.1 ≠ 200 := by decide

/-! ## A whole file beyond the regulation -/

/-- The position file of the next card: newest index, time of the entry, time, accuracy and position, odometer. -/
def Spec.polarPlaces : Bytes :=
  [0, 0] ++ [0, 0, 0, 9] ++ [0, 0, 0, 9, 0, 0x7f, 0xff, 0xff, 0, 0, 0] ++ [0xff, 0xff, 0xff]

/-- A card file of two records: an ICC file and a Gen2 file of positions, with one position of latitude
8388607 (the regulation ends at 90000, the pole), reached at 16 777 215 km (it ends at 9 999 999). -/
def Spec.polarCard : List Tlv :=
  [⟨0x00, 0x02, 0x00, List.replicate 25 0⟩,
   ⟨0x05, 0x24, 0x02, polarPlaces⟩]

/-- All positions of the Gen2 list of a file, with the odometer value beside them. -/
def Spec.filePositions (f : File) : List (Int × Int) :=
  match f.driverCard.bind (·.tachographG2) |>.bind (·.gnssPlaces) with
  | none => []
  | some g => g.data.2.flatMap fun e => (e.place.bind (·.geo)).toList.map fun p => (p.latitude, e.odometerKm)

/-- C90: being in the range of the field is not being valid. This file is accepted as a driver card with a latitude
and an odometer value that the regulation does not have. -/
theorem file_beyond_regulation [Charmap] : ∃ f, unmarshalFile (fileBytes polarCard) = .ok f ∧ f.type = .driverCard ∧
    FileInRange f ∧ filePositions f = [(8388607, 16777215)] := by
  obtain ⟨i, hi⟩ := (icc_accepts_iff (List.replicate 25 0)).2
    ⟨by decide, ⟨0, by decide, known_iff.2 ⟨_, rfl⟩⟩, ⟨0, by decide, known_iff.2 ⟨_, rfl⟩⟩⟩
  have hu : unmarshalGnssPlaces polarPlaces = .ok (0, [⟨some ⟨9, 0⟩, some ⟨some ⟨9, 0⟩, 0, some ⟨8388607, 0⟩⟩, 16777215⟩]) := by
    refine (gnssPlaces_ok_iff _ _ _).2 ⟨by decide, by decide, by decide +kernel, (mapRes_cut_iff (by omega)).1 ?_⟩
    rw [cut_cons (by omega) (by decide), show (polarPlaces.drop 2).drop 18 = [] by decide, cut_nil (by decide)]
    decide +kernel
  have hd : unmarshalDriverCard (polarCard.map Tlv.record) = .ok { icc := some i, tachographG2 := some { gnssPlaces := some ⟨
      (0, [⟨some ⟨9, 0⟩, some ⟨some ⟨9, 0⟩, 0, some ⟨8388607, 0⟩⟩, 16777215⟩]), none⟩ } } := by
    have e1 : polarCard.map Tlv.record = [⟨0x000200, .icc, .gen1, .data, 25, List.replicate 25 0⟩,
      ⟨0x052402, .gnssPlaces, .gen2, .data, 20, polarPlaces⟩] := by decide +kernel
    rw [e1]
    generalize (List.replicate 25 0 : Bytes) = iv at hi ⊢
    generalize polarPlaces = vv at hu ⊢
    unfold unmarshalDriverCard driverCardLoop
    simp [routeRecord, hi, unsignedOnly, driverCardLoop, hu, DriverCard.setG2]
  have hf : unmarshalFile (fileBytes polarCard) = .ok { type := .driverCard, driverCard := some _ } :=
    (file_iff _ _).2 (.inr ⟨_, _, rfl, parse_fileBytes polarCard (by decide), .inl ⟨by decide, _, hd, rfl⟩⟩)
  exact ⟨_, hf, rfl, file_in_range _ _ hf, rfl⟩

end Tacho
