import Verif.Lemmas.NoPanic
import Verif.Props.ScannedFiles
import Verif.Props.ActivityLayout
import Verif.Props.EccCertificates
import Verif.Props.Certificates
/-!
# No parser of the card layer panics (C50)
-/

namespace Tacho

variable [Charmap]

section
omit [Charmap]

@[simp] theorem unmarshalEnum_np (t : EnumTable) (b : UInt8) : unmarshalEnum t b ≠ .panic := by
  unfold unmarshalEnum; split <;> simp

@[simp] theorem timeReal_np (d : Bytes) : unmarshalTimeReal d ≠ .panic := by
  unfold unmarshalTimeReal; split <;> (try simp) <;> split <;> simp

@[simp] theorem odometer_np (d : Bytes) : unmarshalOdometer d ≠ .panic := by
  unfold unmarshalOdometer; split <;> simp

@[simp] theorem decodeBCD_np (d : Bytes) : decodeBCD d ≠ .panic := by
  unfold decodeBCD; split <;> (try simp) <;> split <;> (try simp) <;> split <;> simp

@[simp] theorem ia5_np (d : Bytes) : unmarshalIa5StringValue d ≠ .panic := by
  unfold unmarshalIa5StringValue; split <;> simp

@[simp] theorem bcdString_np (d : Bytes) : unmarshalBcdString d ≠ .panic := by
  unfold unmarshalBcdString; no_panic

@[simp] theorem csv_np (d : Bytes) : unmarshalCardStructureVersion d ≠ .panic := by
  unfold unmarshalCardStructureVersion; no_panic

@[simp] theorem date_np (d : Bytes) : unmarshalDate d ≠ .panic := by
  unfold unmarshalDate; no_panic

@[simp] theorem monthYear_np (d : Bytes) : unmarshalMonthYear d ≠ .panic := by
  unfold unmarshalMonthYear
  refine np_guard fun _ => ?_
  have := decodeBCD_np d
  cases h : decodeBCD d with
  | ok v => dsimp only; no_panic
  | err m => simp
  | panic => exact absurd h this

@[simp] theorem controlType_np (d : Bytes) : unmarshalControlType d ≠ .panic := by
  unfold unmarshalControlType; no_panic

@[simp] theorem geo_np (d : Bytes) : unmarshalGeoCoordinates d ≠ .panic := by
  unfold unmarshalGeoCoordinates; no_panic

@[simp] theorem activityChange_np (d : Bytes) : unmarshalActivityChangeInfo d ≠ .panic := by
  unfold unmarshalActivityChangeInfo; no_panic

@[simp] theorem ownerIdentification_np (d : Bytes) : unmarshalOwnerIdentification d ≠ .panic := by
  unfold unmarshalOwnerIdentification; no_panic

@[simp] theorem driverIdentification_np (d : Bytes) : unmarshalDriverIdentification d ≠ .panic := by
  unfold unmarshalDriverIdentification; no_panic

@[simp] theorem fullCardNumber_np (d : Bytes) : unmarshalFullCardNumber d ≠ .panic := by
  unfold unmarshalFullCardNumber; no_panic

@[simp] theorem fullCardNumberAndGeneration_np (d : Bytes) : unmarshalFullCardNumberAndGeneration d ≠ .panic := by
  unfold unmarshalFullCardNumberAndGeneration; no_panic

@[simp] theorem extendedSerialNumber_np (d : Bytes) : unmarshalExtendedSerialNumber d ≠ .panic := by
  unfold unmarshalExtendedSerialNumber; no_panic

@[simp] theorem gnssPlaceRecord_np (d : Bytes) : unmarshalGNSSPlaceRecord d ≠ .panic := by
  unfold unmarshalGNSSPlaceRecord; no_panic

@[simp] theorem placeRecord_np (d : Bytes) : unmarshalPlaceRecord d ≠ .panic := by
  unfold unmarshalPlaceRecord; no_panic

@[simp] theorem placeRecordG2_np (d : Bytes) : unmarshalPlaceRecordG2 d ≠ .panic := by
  unfold unmarshalPlaceRecordG2; no_panic

@[simp] theorem specificCondition_np (d : Bytes) : unmarshalSpecificConditionRecord d ≠ .panic := by
  unfold unmarshalSpecificConditionRecord; no_panic

end

@[simp] theorem stringValue_np (d : Bytes) : unmarshalStringValue d ≠ .panic := by
  unfold unmarshalStringValue; no_panic

@[simp] theorem registration_np (d : Bytes) : unmarshalVehicleRegistration d ≠ .panic := by
  unfold unmarshalVehicleRegistration; no_panic

@[simp] theorem holderName_np (d : Bytes) : unmarshalHolderName d ≠ .panic := by
  unfold unmarshalHolderName; no_panic

theorem cardVehicleFields_np (d : Bytes) (h : 31 ≤ d.length) : unmarshalCardVehicleFields d ≠ .panic := by
  unfold unmarshalCardVehicleFields; no_panic

@[simp] theorem cardVehicle_np (d : Bytes) : unmarshalCardVehicleRecord d ≠ .panic := by
  unfold unmarshalCardVehicleRecord
  refine np_ite (fun _ => by simp) fun h => cardVehicleFields_np d (by omega)

@[simp] theorem cardVehicleG2_np (d : Bytes) : unmarshalCardVehicleRecordG2 d ≠ .panic := by
  unfold unmarshalCardVehicleRecordG2
  refine np_guard fun h => np_call (cardVehicleFields_np d (by omega)) fun _ => ?_
  no_panic

theorem previousVehicleFields_np (d : Bytes) (h : 19 ≤ d.length) : unmarshalPreviousVehicleFields d ≠ .panic := by
  unfold unmarshalPreviousVehicleFields; no_panic

@[simp] theorem previousVehicle_np (d : Bytes) : unmarshalPreviousVehicleInfo d ≠ .panic := by
  unfold unmarshalPreviousVehicleInfo
  refine np_ite (fun _ => by simp) fun h => previousVehicleFields_np d (by omega)

@[simp] theorem vuCardIW_np (d : Bytes) : unmarshalVuCardIWRecord d ≠ .panic := by
  unfold unmarshalVuCardIWRecord; no_panic

section
omit [Charmap]

/-- C50: EF_Card_Download. -/
theorem cardDownload_total (d : Bytes) : unmarshalCardDownload d ≠ .panic := by
  unfold unmarshalCardDownload; no_panic

/-- C50: EF_IC. -/
theorem ic_total (d : Bytes) : unmarshalIc d ≠ .panic := by
  unfold unmarshalIc; no_panic

/-- C50: EF_ICC. -/
theorem icc_total (d : Bytes) : unmarshalIcc d ≠ .panic := by
  unfold unmarshalIcc; no_panic

/-- C50: EF_Application_Identification (Gen1). -/
theorem appId_total (d : Bytes) : unmarshalAppId d ≠ .panic := by
  unfold unmarshalAppId; no_panic

/-- C50: EF_Application_Identification (Gen2). -/
theorem appIdG2_total (d : Bytes) : unmarshalAppIdG2 d ≠ .panic := by
  unfold unmarshalAppIdG2; no_panic

/-- C50: EF_Application_Identification_V2. -/
theorem appIdV2_total (d : Bytes) : unmarshalAppIdV2 d ≠ .panic := by
  unfold unmarshalAppIdV2; no_panic

end

/-- C50: EF_Current_Usage. -/
theorem currentUsage_total (d : Bytes) : unmarshalCurrentUsage d ≠ .panic := by
  unfold unmarshalCurrentUsage; no_panic

/-- C50: EF_Driving_Licence_Info. -/
theorem drivingLicence_total (d : Bytes) : unmarshalDrivingLicenceInfo d ≠ .panic := by
  unfold unmarshalDrivingLicenceInfo; no_panic

/-- C50: EF_Control_Activity_Data. -/
theorem controlActivity_total (d : Bytes) : unmarshalControlActivity d ≠ .panic := by
  unfold unmarshalControlActivity; no_panic

section
omit [Charmap]

theorem cardNumber_np (d : Bytes) (h : d.length = 16) : unmarshalCardNumber d ≠ .panic := by
  unfold unmarshalCardNumber
  refine np_sl (by omega) (by omega) fun n _ => ?_
  dsimp only
  have hn := ia5_np n
  cases hc : unmarshalIa5StringValue n with
  | panic => exact absurd hc hn
  | err m => dsimp only; refine np_call ?_ fun _ => ?_ <;> no_panic
  | ok id =>
    dsimp only
    refine np_at (by omega) fun r => np_at (by omega) fun w => np_ite (fun _ => ?_) (fun _ => ?_)
    · no_panic
    · refine np_call ?_ fun _ => ?_ <;> no_panic

theorem mapUntilErr_ne_panic {α β : Type} {f : α → Res β} {xs : List α} (h : ∀ x ∈ xs, f x ≠ .panic) :
    mapUntilErr f xs ≠ .panic := by
  induction xs with
  | nil => simp [mapUntilErr]
  | cons x xs ih =>
    have h0 := h x (by simp)
    have ih := ih fun y hy => h y (List.mem_cons_of_mem _ hy)
    unfold mapUntilErr
    cases hx : f x with
    | panic => exact absurd hx h0
    | err m => simp
    | ok y => exact np_call ih fun _ => np_pure

end

/-- C50: EF_Identification. -/
theorem identification_total (d : Bytes) : unmarshalIdentification d ≠ .panic := by
  unfold unmarshalIdentification
  dsimp only
  refine np_guard fun _ => np_at (by omega) fun _ => np_sl (by omega) (by omega) fun n hn => np_call (cardNumber_np n hn) fun _ => ?_
  no_panic

/-- C50: EF_Events_Data and EF_Faults_Data. -/
theorem events_total (d : Bytes) : unmarshalEventsData d ≠ .panic := by
  unfold unmarshalEventsData
  dsimp only
  have hs := (scan_fixed (n := 24) (by omega) (by omega) d).2
  refine np_call (mapRes_ne_panic fun t ht => ?_) fun _ => by rw [hs]; exact np_pure
  have hl := tok_sizes (n := 24) (by omega) (by omega) d t ht
  unfold unmarshalEventToken
  refine np_sl (by omega) (by omega) fun _ _ => np_ite (fun _ => np_pure) (fun _ => np_call ?_ fun _ => np_pure)
  unfold unmarshalEventRecord; no_panic

/-- C50: EF_Vehicles_Used (Gen1). -/
theorem vehiclesUsed_total (d : Bytes) : unmarshalVehiclesUsed d ≠ .panic := by
  unfold unmarshalVehiclesUsed
  dsimp only
  refine np_guard fun _ => np_sl (by omega) (by omega) fun _ _ => np_from (by omega) fun _ _ => np_call ?_ fun _ => np_pure
  exact mapRes_ne_panic fun x _ => cardVehicle_np x

/-- C50: EF_Vehicles_Used (Gen2). -/
theorem vehiclesUsedG2_total (d : Bytes) : unmarshalVehiclesUsedG2 d ≠ .panic := by
  unfold unmarshalVehiclesUsedG2
  dsimp only
  refine np_guard fun _ => np_sl (by omega) (by omega) fun _ _ => np_from (by omega) fun _ _ => np_call ?_ fun _ => np_pure
  exact mapRes_ne_panic fun x _ => cardVehicleG2_np x

section
omit [Charmap]

/-- C50: EF_Places (Gen1). -/
theorem places_total (d : Bytes) : unmarshalPlaces d ≠ .panic := by
  unfold unmarshalPlaces
  dsimp only
  refine np_guard fun _ => np_at (by omega) fun _ => np_from (by omega) fun _ _ => np_call ?_ fun _ => np_pure
  refine mapRes_ne_panic fun x _ => ?_
  unfold parsePlace
  have := placeRecord_np x
  split <;> simp_all

/-- C50: EF_Places (Gen2). -/
theorem placesG2_total (d : Bytes) : unmarshalPlacesG2 d ≠ .panic := by
  unfold unmarshalPlacesG2
  dsimp only
  refine np_guard fun _ => np_sl (by omega) (by omega) fun _ _ => np_from (by omega) fun _ _ => np_call ?_ fun _ => np_pure
  refine mapRes_ne_panic fun x _ => ?_
  unfold parsePlaceG2
  have := placeRecordG2_np x
  split <;> simp_all

/-- C50: EF_Specific_Conditions (Gen1). -/
theorem conditions_total (d : Bytes) : unmarshalSpecificConditions d ≠ .panic := by
  unfold unmarshalSpecificConditions
  refine np_ite (fun _ => np_pure) fun _ => np_call ?_ fun _ => np_pure
  exact mapUntilErr_ne_panic fun x _ => specificCondition_np x

/-- C50: EF_Specific_Conditions (Gen2). -/
theorem conditionsG2_total (d : Bytes) : unmarshalSpecificConditionsG2 d ≠ .panic := by
  unfold unmarshalSpecificConditionsG2
  dsimp only
  refine np_guard fun _ => np_sl (by omega) (by omega) fun _ _ => np_from (by omega) fun _ _ => np_call ?_ fun _ => np_pure
  exact mapUntilErr_ne_panic fun x _ => specificCondition_np x

/-- C50: EF_GNSS_Places. -/
theorem gnssPlaces_total (d : Bytes) : unmarshalGnssPlaces d ≠ .panic := by
  unfold unmarshalGnssPlaces
  dsimp only
  refine np_guard fun _ => np_guard fun _ => np_sl (by omega) (by omega) fun _ _ => np_from (by omega) fun r _ => np_call ?_ fun _ => ?_
  · refine mapRes_ne_panic fun x _ => ?_
    unfold unmarshalGnssPlaceEntry; no_panic
  · rw [(scan_fixed (n := 18) (by omega) (by omega) r).2]; exact np_pure

/-- C50: EF_Vehicle_Units_Used. -/
theorem vehicleUnits_total (d : Bytes) : unmarshalVehicleUnitsUsed d ≠ .panic := by
  unfold unmarshalVehicleUnitsUsed
  dsimp only
  refine np_guard fun _ => np_guard fun _ => np_sl (by omega) (by omega) fun _ _ => np_from (by omega) fun r _ => np_call ?_ fun _ => ?_
  · refine mapRes_ne_panic fun x _ => ?_
    unfold unmarshalVehicleUnitToken; no_panic
  · rw [(scan_fixed (n := 10) (by omega) (by omega) r).2]; exact np_pure

/-- C50: Gen1 certificates. -/
theorem rsa_total (d : Bytes) : unmarshalRsa d ≠ .panic := by
  obtain ⟨h1, h2⟩ := rsa_parse_total d
  by_cases h : d.length = 194
  · obtain ⟨c, e⟩ := h1 h; simp [e]
  · obtain ⟨m, e⟩ := h2 h; simp [e]

end

end Tacho
