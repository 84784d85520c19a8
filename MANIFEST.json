{
 "claims": [
  {
   "property": "C01",
   "status": "proved",
   "theorems": [
    "Tacho.raw_card_roundtrip",
    "Tacho.fileBytes_injective"
   ],
   "note": ""
  },
  {
   "property": "C02",
   "status": "proved",
   "theorems": [
    "Tacho.raw_card_marshal_unmarshal",
    "Tacho.parse_fileBytes"
   ],
   "note": ""
  },
  {
   "property": "C03",
   "status": "proved",
   "theorems": [
    "Tacho.raw_card_accepts_iff",
    "Tacho.raw_card_panics_iff",
    "Tacho.raw_card_no_panic_fails",
    "Tacho.raw_card_no_panic_if",
    "Tacho.raw_card_no_panic_short",
    "Tacho.raw_card_truncated"
   ],
   "note": "The no-panic part is false of the code (value of exactly 65531 bytes); the exact panic set and acceptance set are proved."
  },
  {
   "property": "C04",
   "status": "proved",
   "theorems": [
    "Tacho.scanner_refines_chunks",
    "Tacho.scanner_tokens_prefix",
    "Tacho.scan_fixed"
   ],
   "note": ""
  },
  {
   "property": "C05",
   "status": "proved",
   "theorems": [
    "Tacho.retained_iff",
    "Tacho.retained_safe",
    "Tacho.retained_moved_at",
    "Tacho.events_fields",
    "Tacho.events_ok_iff",
    "Tacho.events_overwritten",
    "Tacho.event_number_overwritten",
    "Tacho.vehicleUnits_ok_iff",
    "Tacho.vehicleUnits_overwritten"
   ],
   "note": "The plain property is false of the code; the sizes for which it holds are characterised exactly."
  },
  {
   "property": "C06",
   "status": "proved",
   "theorems": [
    "Tacho.file_iff",
    "Tacho.file_refused",
    "Tacho.file_type"
   ],
   "note": ""
  },
  {
   "property": "C07",
   "status": "proved",
   "theorems": [
    "Tacho.file_panics_iff",
    "Tacho.vu_file_panics_iff",
    "Tacho.vu_panics_iff",
    "Tacho.vu_no_panic_fails",
    "Tacho.vu_short_overview_panics",
    "Tacho.vu_no_panic_complete"
   ],
   "note": "The plain property (no panic) is false of the code; the exact set of panicking inputs is proved, with a family of witnesses."
  },
  {
   "property": "C08",
   "status": "proved",
   "theorems": [
    "Tacho.vu_slices_iff",
    "Tacho.vu_partition",
    "Tacho.vu_cut_unique"
   ],
   "note": ""
  },
  {
   "property": "C09",
   "status": "proved",
   "theorems": [
    "Tacho.gen2_unreadable",
    "Tacho.vu_file_iff",
    "Tacho.unmarshalArrays_iff",
    "Tacho.arrays_count",
    "Tacho.gen2_transfer_arrays"
   ],
   "note": "The plain property is false of the code; proved for every input which downloads are accepted."
  },
  {
   "property": "C10",
   "status": "proved",
   "theorems": [
    "Tacho.vu_file_iff",
    "Tacho.vu_homogeneous",
    "Tacho.vu_mixture_refused"
   ],
   "note": ""
  },
  {
   "property": "C11",
   "status": "proved",
   "theorems": [
    "Tacho.file_raw_card_restored",
    "Tacho.file_vehicle_unit_not_written",
    "Tacho.file_driver_card_written",
    "Tacho.file_other_not_written",
    "Tacho.raw_card_roundtrip"
   ],
   "note": ""
  },
  {
   "property": "C12",
   "status": "proved",
   "theorems": [
    "Tacho.infer_first_match",
    "Tacho.infer_depends_on_data_files",
    "Tacho.infer_no_data",
    "Tacho.infer_driver_iff",
    "Tacho.infer_never_company",
    "Tacho.company_card_is_driver",
    "Tacho.infer_ignores_signatures",
    "Tacho.mapFid_never_cardMa",
    "Tacho.mapFid_table",
    "Tacho.mapFid_unknown"
   ],
   "note": "Finding: company cards are always taken for driver cards."
  },
  {
   "property": "C13",
   "status": "proved",
   "theorems": [
    "Tacho.timeReal_accepts_iff",
    "Tacho.timeReal_no_panic",
    "Tacho.timeReal_value",
    "Tacho.timeReal_roundtrip",
    "Tacho.timeReal_encode_decode",
    "Tacho.timeReal_nanos",
    "Tacho.timeReal_wraps"
   ],
   "note": ""
  },
  {
   "property": "C14",
   "status": "proved",
   "theorems": [
    "Tacho.odometer_accepts_iff",
    "Tacho.odometer_roundtrip",
    "Tacho.odometer_encode_decode"
   ],
   "note": ""
  },
  {
   "property": "C15",
   "status": "proved",
   "theorems": [
    "Tacho.bcd_decode_iff",
    "Tacho.bcd_no_panic",
    "Tacho.bcd_roundtrip",
    "Tacho.bcd_encode_iff",
    "Tacho.bcd_encode_decode",
    "Tacho.bcdString_roundtrip",
    "Tacho.bcdString_five_bytes_lost",
    "Tacho.bcdString_roundtrip_iff"
   ],
   "note": "Finding: a BcdString of five or more bytes is truncated to int32."
  },
  {
   "property": "C16",
   "status": "proved",
   "theorems": [
    "Tacho.readInt24_spec",
    "Tacho.geo_accepts_iff",
    "Tacho.geo_roundtrip",
    "Tacho.geo_encode_decode"
   ],
   "note": ""
  },
  {
   "property": "C17",
   "status": "proved",
   "theorems": [
    "Tacho.aci_decode",
    "Tacho.aci_bits",
    "Tacho.aci_accepts_iff",
    "Tacho.aci_encode",
    "Tacho.aci_roundtrip",
    "Tacho.aci_encode_decode"
   ],
   "note": ""
  },
  {
   "property": "C18",
   "status": "proved",
   "theorems": [
    "Tacho.enum_decode_encode",
    "Tacho.enum_encode_decode",
    "Tacho.enum_injective",
    "Tacho.enum_accepts_iff",
    "Tacho.enum_never_unspecified",
    "Tacho.enumTables_ok"
   ],
   "note": ""
  },
  {
   "property": "C19",
   "status": "proved",
   "theorems": [
    "Tacho.date_roundtrip_iff",
    "Tacho.date_encode_decode",
    "Tacho.cardStructureVersion_roundtrip_iff",
    "Tacho.cardStructureVersion_encode_decode",
    "Tacho.monthYear_decode",
    "Tacho.monthYear_roundtrip_iff",
    "Tacho.monthYear_encode_decode",
    "Tacho.dates_wrong_length",
    "Tacho.date_encode_modulo",
    "Tacho.date_shown",
    "Tacho.version_shown",
    "Tacho.monthYear_shown"
   ],
   "note": ""
  },
  {
   "property": "C20",
   "status": "proved",
   "theorems": [
    "Tacho.stringValue_accepts_iff",
    "Tacho.stringValue_roundtrip",
    "Tacho.stringValue_roundtrip_known",
    "Tacho.stringValue_unknown_lost",
    "Tacho.stringValue_utf8",
    "Tacho.stringValue_text",
    "Tacho.stringValue_build",
    "Tacho.stringValue_length",
    "Tacho.stringValue_bad_raw",
    "Tacho.stringValue_nil",
    "Tacho.codePage_roundtrip"
   ],
   "note": "Finding: an unknown code page byte is replaced by 0xFF."
  },
  {
   "property": "C21",
   "status": "proved",
   "theorems": [
    "Tacho.ia5_accepts_iff",
    "Tacho.ia5_roundtrip",
    "Tacho.ia5_utf8",
    "Tacho.ia5_text",
    "Tacho.ia5_build",
    "Tacho.ia5_refused",
    "Tacho.ia5_length",
    "Tacho.ia5_encode_decode"
   ],
   "note": ""
  },
  {
   "property": "C22",
   "status": "proved",
   "theorems": [
    "Tacho.appendsExactly_result",
    "Tacho.appendTimeReal_exact",
    "Tacho.appendOdometer_exact",
    "Tacho.appendDate_exact",
    "Tacho.appendCardStructureVersion_exact",
    "Tacho.appendMonthYear_exact",
    "Tacho.appendControlType_exact",
    "Tacho.appendGeoCoordinates_exact",
    "Tacho.appendActivityChangeInfo_exact",
    "Tacho.appendStringValue_size",
    "Tacho.appendIa5StringValue_size",
    "Tacho.appendBcdString_size",
    "Tacho.appendVehicleRegistration_size",
    "Tacho.appendHolderName_size",
    "Tacho.appendHolderName_not_fixed",
    "Tacho.appendVehicleRegistration_not_fixed",
    "Tacho.appendDriverIdentification_size",
    "Tacho.appendOwnerIdentification_size",
    "Tacho.appendFullCardNumber_size",
    "Tacho.appendFullCardNumberAndGeneration_size",
    "Tacho.appendFullCardNumberAndGeneration_not_fixed",
    "Tacho.appendExtendedSerialNumber_exact",
    "Tacho.appendGNSSPlaceRecord_exact",
    "Tacho.appendGNSSPlaceAuthRecord_exact",
    "Tacho.appendSpecificConditionRecord_exact",
    "Tacho.appendPlaceRecord_exact",
    "Tacho.appendPlaceRecordG2_exact",
    "Tacho.appendCardVehicleRecord_exact",
    "Tacho.appendCardVehicleRecordG2_exact",
    "Tacho.appendPreviousVehicleInfo_exact",
    "Tacho.appendPreviousVehicleInfoG2_exact",
    "Tacho.appendVuCardIWRecord_exact",
    "Tacho.appendFullCardNumberAsString_appends",
    "Tacho.appendVehiclesUsed_exact",
    "Tacho.appendVehiclesUsedG2_exact",
    "Tacho.appendPlaces_exact",
    "Tacho.appendPlacesG2_exact",
    "Tacho.appendSpecificConditions_exact",
    "Tacho.appendSpecificConditionsG2_fresh",
    "Tacho.appendEventRecord_appends",
    "Tacho.appendEventsData_appends",
    "Tacho.appendGnssPlaceEntry_exact",
    "Tacho.appendGnssPlaces_exact",
    "Tacho.appendVehicleUnitRecord_exact",
    "Tacho.appendVehicleUnitsUsed_exact",
    "Tacho.appendCardDownload_appends",
    "Tacho.appendCardIc_appends",
    "Tacho.appendIcc_appends",
    "Tacho.appendAppId_appends",
    "Tacho.appendAppIdG2_appends",
    "Tacho.appendAppIdV2_appends",
    "Tacho.appendCurrentUsage_appends",
    "Tacho.appendDrivingLicence_appends",
    "Tacho.appendControlActivity_appends",
    "Tacho.appendIdentification_appends",
    "Tacho.appendDriverActivity_appends",
    "Tacho.appendSpecificConditionsG2_appends",
    "Tacho.appendSpecificConditionsG2_one_byte",
    "Tacho.appendVehiclesUsed_appends",
    "Tacho.appendVehiclesUsedG2_appends",
    "Tacho.appendPlaces_appends",
    "Tacho.appendPlacesG2_appends",
    "Tacho.appendSpecificConditions_appends",
    "Tacho.appendGnssPlaces_appends",
    "Tacho.appendVehicleUnits_appends"
   ],
   "note": "Findings: the size of a holder name, registration or card number follows the length fields of its strings, not the type."
  },
  {
   "property": "C23",
   "status": "proved",
   "theorems": [
    "Tacho.registration_accepts_iff",
    "Tacho.registration_roundtrip",
    "Tacho.registration_roundtrip_iff",
    "Tacho.registration_out_length",
    "Tacho.holderName_accepts_iff",
    "Tacho.holderName_roundtrip_iff",
    "Tacho.driverIdentification_accepts_iff",
    "Tacho.driverIdentification_roundtrip",
    "Tacho.ownerIdentification_accepts_iff",
    "Tacho.ownerIdentification_roundtrip",
    "Tacho.extendedSerialNumber_accepts_iff",
    "Tacho.extendedSerialNumber_roundtrip_iff",
    "Tacho.gnss_accepts_iff",
    "Tacho.gnss_roundtrip",
    "Tacho.gnssAuth_accepts_iff",
    "Tacho.gnssAuth_roundtrip",
    "Tacho.place_accepts_iff",
    "Tacho.place_roundtrip",
    "Tacho.placeG2_accepts_iff",
    "Tacho.placeG2_roundtrip",
    "Tacho.specificCondition_accepts_iff",
    "Tacho.specificCondition_roundtrip",
    "Tacho.cardVehicle_accepts_iff",
    "Tacho.cardVehicle_roundtrip_iff",
    "Tacho.cardVehicleG2_accepts_iff",
    "Tacho.cardVehicleG2_roundtrip_iff",
    "Tacho.previousVehicle_accepts_iff",
    "Tacho.previousVehicle_roundtrip_iff",
    "Tacho.previousVehicleG2_accepts_iff",
    "Tacho.previousVehicleG2_roundtrip_iff",
    "Tacho.iw_accepts_iff",
    "Tacho.iw_roundtrip_iff",
    "Tacho.gnssEntry_accepts_iff",
    "Tacho.gnssEntry_restores_iff"
   ],
   "note": "Findings: unknown nations cannot be written back, unknown code pages and non-BCD dates are replaced."
  },
  {
   "property": "C24",
   "status": "proved",
   "theorems": [
    "Tacho.fullCardNumber_decode",
    "Tacho.fullCardNumber_accepts_iff",
    "Tacho.fullCardNumber_roundtrip",
    "Tacho.fullCardNumber_roundtrip_iff",
    "Tacho.fullCardNumber_driver_lost",
    "Tacho.fullCardNumber_control_rejected",
    "Tacho.fullCardNumberAndGeneration_decode",
    "Tacho.fullCardNumberAndGeneration_roundtrip_iff",
    "Tacho.card_number_type"
   ],
   "note": "Findings: the last two bytes of a driver card number are lost, control cards are rejected."
  },
  {
   "property": "C25",
   "status": "proved",
   "theorems": [
    "Tacho.activityLoop_fuel",
    "Tacho.activity_outcome",
    "Tacho.activity_bounded",
    "Tacho.activity_366_refused"
   ],
   "note": ""
  },
  {
   "property": "C26",
   "status": "proved",
   "theorems": [
    "Tacho.activity_ok_iff",
    "Tacho.activity_complete",
    "Tacho.activity_366_refused",
    "Tacho.activity_straddle_lost",
    "Tacho.dailyRecord_spec",
    "Tacho.dayOf_unique",
    "Tacho.activity_exact",
    "Tacho.year_refused",
    "Tacho.stored_many"
   ],
   "note": "Finding, when a record header straddles the buffer end the records are lost."
  },
  {
   "property": "C27",
   "status": "proved",
   "theorems": [
    "Tacho.driverActivity_decode",
    "Tacho.driverActivity_roundtrip",
    "Tacho.driverActivity_no_panic",
    "Tacho.driverActivity_four"
   ],
   "note": ""
  },
  {
   "property": "C28",
   "status": "proved",
   "theorems": [
    "Tacho.cardDownload_accepts_iff",
    "Tacho.cardDownload_restores",
    "Tacho.ic_accepts_iff",
    "Tacho.ic_restores",
    "Tacho.icc_accepts_iff",
    "Tacho.icc_restores",
    "Tacho.appId_accepts_iff",
    "Tacho.appId_restores",
    "Tacho.appIdG2_accepts_iff",
    "Tacho.appIdG2_restores",
    "Tacho.appIdV2_accepts_iff",
    "Tacho.appIdV2_restores",
    "Tacho.currentUsage_accepts_iff",
    "Tacho.currentUsage_restores_iff",
    "Tacho.drivingLicence_accepts_iff",
    "Tacho.drivingLicence_restores_iff",
    "Tacho.controlActivity_accepts_iff",
    "Tacho.controlActivity_unused",
    "Tacho.controlActivity_restores_iff",
    "Tacho.identification_accepts_iff",
    "Tacho.identification_cardType",
    "Tacho.identification_restores_iff",
    "Tacho.vehiclesUsed_ok_iff",
    "Tacho.vehiclesUsed_accepts_iff",
    "Tacho.vehiclesUsed_restores_iff",
    "Tacho.vehiclesUsed_raw_irrelevant",
    "Tacho.vehiclesUsedG2_ok_iff",
    "Tacho.vehiclesUsedG2_accepts_iff",
    "Tacho.vehiclesUsedG2_restores_iff",
    "Tacho.vehiclesUsedG2_raw_irrelevant",
    "Tacho.places_ok_iff",
    "Tacho.places_accepts_iff",
    "Tacho.places_restores",
    "Tacho.places_raw_irrelevant",
    "Tacho.placesG2_ok_iff",
    "Tacho.placesG2_accepts_iff",
    "Tacho.placesG2_restores",
    "Tacho.placesG2_raw_irrelevant",
    "Tacho.specificConditions_ok_iff",
    "Tacho.specificConditions_accepts",
    "Tacho.specificConditions_restores",
    "Tacho.specificConditions_raw_irrelevant",
    "Tacho.specificConditionsG2_ok_iff",
    "Tacho.specificConditionsG2_accepts_iff",
    "Tacho.specificConditionsG2_restores",
    "Tacho.appendSpecificConditionsG2_panics",
    "Tacho.events_accepts_iff",
    "Tacho.events_fields",
    "Tacho.events_ok_iff",
    "Tacho.events_restores_iff",
    "Tacho.events_overwritten",
    "Tacho.event_number_overwritten",
    "Tacho.gnssPlaces_ok_iff",
    "Tacho.gnssPlaces_accepts_iff",
    "Tacho.gnssPlaces_restores_iff",
    "Tacho.vehicleUnits_accepts_iff",
    "Tacho.vehicleUnits_ok_iff",
    "Tacho.vehicleUnits_restores",
    "Tacho.vehicleUnits_overwritten",
    "Tacho.ic_written"
   ],
   "note": "Findings: bytes behind the last whole record are dropped everywhere except in Gen2 specific conditions; GNSS odometers above 999999 km are accepted but cannot be written; events and vehicle units are not restored for sizes where the scanner overwrites its buffer."
  },
  {
   "property": "C29",
   "status": "proved",
   "theorems": [
    "Tacho.driver_card_iff",
    "Tacho.blocks_unique",
    "Tacho.blocks_iff_paired",
    "Tacho.orphan_signature_refused",
    "Tacho.ignored_files",
    "Tacho.gen2_card_refused"
   ],
   "note": "Finding: a driver card with a Gen2 C100 data record (EF_CardMA_Certificate) is always refused, because the file id resolves to the Gen1 card certificate."
  },
  {
   "property": "C30",
   "status": "proved",
   "theorems": [
    "Tacho.marshal_driver_card",
    "Tacho.driver_card_written_iff",
    "Tacho.driver_card_wellformed",
    "Tacho.driver_card_reparses",
    "Tacho.driver_card_order",
    "Tacho.writing_order_nodup",
    "Tacho.driver_card_reparses_iff",
    "Tacho.driver_card_written_panics",
    "Tacho.driver_card_overlong"
   ],
   "note": ""
  },
  {
   "property": "C31",
   "status": "proved",
   "theorems": [
    "Tacho.driver_card_forgets",
    "Tacho.driver_card_signatures_zero",
    "Tacho.driver_card_gen2_not_written",
    "Tacho.driver_card_roundtrip_iff",
    "Tacho.driver_card_not_restored"
   ],
   "note": "The property is false of the code: proved for every message that signatures become 128 zero bytes and eight Gen2 files are not written, with the exact condition for an identical file."
  },
  {
   "property": "C32",
   "status": "proved",
   "theorems": [
    "Tacho.verify_file_iff",
    "Tacho.verify_file_refused",
    "Tacho.verify_file_effect",
    "Tacho.gen1_verified_iff",
    "Tacho.gen2_verified_iff",
    "Tacho.driver_card_verified_iff",
    "Tacho.verify_nil_card",
    "Tacho.driver_card_verify_effect",
    "Tacho.gen2_root_never_used",
    "Tacho.other_certificates_ignored",
    "Tacho.driver_card_verify_total",
    "Tacho.empty_card_verified",
    "Tacho.driver_card_offline_iff",
    "Tacho.parsed_gen1_offline_refused"
   ],
   "note": "Findings: a card with no application at all is verified, the Gen2 authority is never checked itself, expiry is never checked, vehicle unit files always pass."
  },
  {
   "property": "C33",
   "status": "proved",
   "theorems": [
    "Tacho.rsa_core_iff",
    "Tacho.rsa_verify_ca_iff",
    "Tacho.rsa_verify_root_iff",
    "Tacho.rsa_verify_total",
    "Tacho.rsa_parsed_authority_has_no_key"
   ],
   "note": "Finding: a certificate that was only parsed never works as an authority, its key is filled in by its own verification."
  },
  {
   "property": "C34",
   "status": "proved",
   "theorems": [
    "Tacho.rsa_failure_effect",
    "Tacho.rsa_mark_iff",
    "Tacho.rsa_stale_mark",
    "Tacho.ecc_stale_mark"
   ],
   "note": "Finding: errors before the check (missing key, wrong size) leave an old mark in place."
  },
  {
   "property": "C35",
   "status": "proved",
   "theorems": [
    "Tacho.rsa_parse_iff",
    "Tacho.rsa_parse_total",
    "Tacho.rsa_append_restores",
    "Tacho.rsa_reference_injective",
    "Tacho.root_parse_iff",
    "Tacho.root_parse_total",
    "Tacho.decimal_spec",
    "Tacho.isDecimal_unique",
    "Tacho.rsa_append_iff"
   ],
   "note": ""
  },
  {
   "property": "C36",
   "status": "proved",
   "theorems": [
    "Tacho.ecc_parse_iff",
    "Tacho.ecc_parse_ne_panic",
    "Tacho.ecc_append_restores",
    "Tacho.ecc_append_iff",
    "Tacho.asn1Raw_iff",
    "Tacho.asn1Oid_iff"
   ],
   "note": "Finding: no tag is checked except that of the object identifier."
  },
  {
   "property": "C37",
   "status": "proved",
   "theorems": [
    "Tacho.ecc_verify_iff",
    "Tacho.ecc_verify_effect",
    "Tacho.ecc_unknown_curve_refused",
    "Tacho.ecc_verify_nil",
    "Tacho.parsed_key_curve",
    "Tacho.parseCurve_iff",
    "Tacho.signed_part_of_parsed",
    "Tacho.ecc_failed_mark"
   ],
   "note": ""
  },
  {
   "property": "C38",
   "status": "proved",
   "theorems": [
    "Tacho.chain_ok_iff",
    "Tacho.chain_err_iff",
    "Tacho.chain_resolver_ok_iff",
    "Tacho.chain_assoc"
   ],
   "note": ""
  },
  {
   "property": "C39",
   "status": "proved",
   "theorems": [
    "Tacho.embedded_miss",
    "Tacho.embedded_never_finds",
    "Tacho.shipped_not_found",
    "Tacho.embedded_lookup_iff",
    "Tacho.embedded_root",
    "Tacho.default_resolver_is_client"
   ],
   "note": "Finding: the lookup key lacks the directory, so the cache is never hit and every certificate is downloaded."
  },
  {
   "property": "C40",
   "status": "proved",
   "theorems": [
    "Tacho.anonymize_vehicle_values",
    "Tacho.anonymize_vehicle_raw",
    "Tacho.anonymize_vehicle_iff",
    "Tacho.anonymize_vehicle_idem",
    "Tacho.anonymize_place_values",
    "Tacho.anonymize_place_raw",
    "Tacho.anonymize_place_iff",
    "Tacho.anonymize_place_idem",
    "Tacho.anonymize_gnss_values",
    "Tacho.anonymize_gnss_iff",
    "Tacho.anonymize_gnss_idem",
    "Tacho.anonymize_placeG2_values",
    "Tacho.anonymize_placeG2_iff",
    "Tacho.anonymize_placeG2_idem",
    "Tacho.anonymize_activity_values",
    "Tacho.anonymize_activity_iff",
    "Tacho.anonymize_activity_idem",
    "Tacho.anonymize_driver_iff",
    "Tacho.anonymize_driver_value",
    "Tacho.anonymize_places_iff",
    "Tacho.anonymize_places_idem",
    "Tacho.anonymize_place_reparses",
    "Tacho.anonymize_places_reparses",
    "Tacho.anonymize_placesG2_iff",
    "Tacho.anonymize_placesG2_idem",
    "Tacho.anonymize_placesG2_reparses",
    "Tacho.anonymize_vehiclesUsed_iff",
    "Tacho.anonymize_vehiclesUsed_idem",
    "Tacho.anonymize_vehicle_reparses",
    "Tacho.anonymize_identification_iff",
    "Tacho.anonymize_identification_idem",
    "Tacho.anonymize_vehiclesUsed_size",
    "Tacho.anonymize_driver_card_reparses",
    "Tacho.anonymize_workshop_card_unreadable",
    "Tacho.aci_anonymize_noninterference",
    "Tacho.aci_anonymize_time",
    "Tacho.anonymize_holder_values",
    "Tacho.anonymize_card_values",
    "Tacho.anonymize_vehicle_written",
    "Tacho.anonymize_vehiclesUsed_reparses",
    "Tacho.anonymize_driver_card_reads",
    "Tacho.anonymize_places_bytes",
    "Tacho.anonymize_placesG2_bytes",
    "Tacho.anonymize_vehicles_bytes"
   ],
   "note": "Findings: the record-level place anonymiser keeps the entry time although its comment says it shifts it; an anonymised vehicle record whose nation is unknown loses its raw bytes; the anonymised identification of a workshop card is 65 bytes and cannot be read back."
  },
  {
   "property": "C41",
   "status": "proved",
   "theorems": [
    "Tacho.overview_writable_iff",
    "Tacho.overview_restores_iff",
    "Tacho.overview_written",
    "Tacho.overview_appends",
    "Tacho.overview_iff",
    "Tacho.overview_accepts_iff",
    "Tacho.overview_shape_unique",
    "Tacho.overview_conforms_iff",
    "Tacho.overview_total",
    "Tacho.overview_control_card_refused"
   ],
   "note": "Parsing and writing are characterised in full. Findings: an overview with a control activity done with a control card is refused; slots byte, unknown code pages and the last two bytes of driver card numbers are not written back."
  },
  {
   "property": "C42",
   "status": "proved",
   "theorems": [
    "Tacho.activities_iff",
    "Tacho.activities_accepts_iff",
    "Tacho.activities_shape_unique",
    "Tacho.activities_conforms_iff",
    "Tacho.activities_sliced",
    "Tacho.activities_total",
    "Tacho.activities_unknown_country_refused"
   ],
   "note": "Finding: an unknown country or entry type in one place record makes the whole download unreadable."
  },
  {
   "property": "C43",
   "status": "proved",
   "theorems": [
    "Tacho.file_text_iff",
    "Tacho.file_text_not_utf8",
    "Tacho.driver_card_text_iff",
    "Tacho.vehicle_unit_text",
    "Tacho.stringValue_utf8",
    "Tacho.ia5_utf8",
    "Tacho.cardVehicleG2_vin",
    "Tacho.cardVehicleG2_vin_not_utf8",
    "Tacho.cardVehicleG2_vin_utf8_iff"
   ],
   "note": "Proved for every string field of every accepted file. Finding: the Gen2 VIN is taken as raw bytes, so it may be invalid UTF-8 (a whole file as witness)."
  },
  {
   "property": "C44",
   "status": "proved",
   "theorems": [
    "Tacho.controlType_decode",
    "Tacho.controlType_roundtrip",
    "Tacho.controlType_edit",
    "Tacho.controlType_clear_no_effect",
    "Tacho.controlType_encode_decode",
    "Tacho.controlType_long_raw"
   ],
   "note": "Finding: clearing a flag of a parsed value has no effect."
  },
  {
   "property": "C45",
   "status": "proved",
   "theorems": [
    "Tacho.generation_from_version"
   ],
   "note": ""
  },
  {
   "property": "C46",
   "status": "proved",
   "theorems": [
    "Tacho.client_ok_iff",
    "Tacho.client_requests",
    "Tacho.findEntry_iff",
    "Tacho.client_no_root"
   ],
   "note": ""
  },
  {
   "property": "C47",
   "status": "proved",
   "theorems": [
    "Tacho.fullCardNumber_nation_iff"
   ],
   "note": "The English property is false of the code; proved that the decoded state agrees with the table exactly for byte 56."
  },
  {
   "property": "C48",
   "status": "proved",
   "theorems": [
    "Tacho.cardDownload_fields",
    "Tacho.ic_fields",
    "Tacho.icc_fields",
    "Tacho.appId_fields",
    "Tacho.appIdG2_fields",
    "Tacho.currentUsage_fields",
    "Tacho.drivingLicence_fields",
    "Tacho.controlActivity_fields",
    "Tacho.identification_fields",
    "Tacho.gnssEntry_fields",
    "Tacho.events_fields",
    "Tacho.registration_fields",
    "Tacho.holderName_fields",
    "Tacho.driverIdentification_fields",
    "Tacho.ownerIdentification_fields",
    "Tacho.extendedSerialNumber_fields",
    "Tacho.gnss_fields",
    "Tacho.gnssAuth_fields",
    "Tacho.place_fields",
    "Tacho.placeG2_fields",
    "Tacho.specificCondition_fields",
    "Tacho.cardVehicle_fields",
    "Tacho.cardVehicleG2_fields",
    "Tacho.cardVehicleG2_vin_exact",
    "Tacho.unfilled_unique",
    "Tacho.previousVehicle_fields",
    "Tacho.previousVehicleG2_fields",
    "Tacho.iw_fields",
    "Tacho.geo_fields",
    "Tacho.bcd_pair_value",
    "Tacho.appIdV2_fields",
    "Tacho.event_layout"
   ],
   "note": ""
  },
  {
   "property": "C49",
   "status": "proved",
   "theorems": [
    "Tacho.activity_rebuild",
    "Tacho.activity_rebuild_file",
    "Tacho.activity_rebuild_366",
    "Tacho.activity_rebuild_pointer",
    "Tacho.marshalRecord_spec",
    "Tacho.activity_rebuild_written",
    "Tacho.activity_rebuild_refused",
    "Tacho.activity_rebuild_mixed",
    "Tacho.activity_rebuild_stale_link"
   ],
   "note": "Findings: the file writer keeps the old newest-record pointer (proved witness: a day is lost), and 366 or more days are written but refused when read."
  },
  {
   "property": "C50",
   "status": "proved",
   "theorems": [
    "Tacho.driver_card_total",
    "Tacho.cardDownload_total",
    "Tacho.ic_total",
    "Tacho.icc_total",
    "Tacho.appId_total",
    "Tacho.appIdG2_total",
    "Tacho.appIdV2_total",
    "Tacho.currentUsage_total",
    "Tacho.drivingLicence_total",
    "Tacho.controlActivity_total",
    "Tacho.identification_total",
    "Tacho.events_total",
    "Tacho.vehiclesUsed_total",
    "Tacho.vehiclesUsedG2_total",
    "Tacho.places_total",
    "Tacho.placesG2_total",
    "Tacho.conditions_total",
    "Tacho.conditionsG2_total",
    "Tacho.gnssPlaces_total",
    "Tacho.vehicleUnits_total",
    "Tacho.rsa_total",
    "Tacho.driverActivity_no_panic",
    "Tacho.ecc_parse_ne_panic"
   ],
   "note": ""
  },
  {
   "property": "C51",
   "status": "proved",
   "theorems": [
    "Tacho.overview_slots_wrong",
    "Tacho.overview_slots"
   ],
   "note": "The English property is false of the code; proved exactly what is reported instead, and that it is never right."
  },
  {
   "property": "C52",
   "status": "proved",
   "theorems": [
    "Tacho.eventFaultType_regulation",
    "Tacho.equipmentType_regulation",
    "Tacho.eventFaultRecordPurpose_regulation",
    "Tacho.calibrationPurpose_regulation",
    "Tacho.cardSlotNumber_regulation",
    "Tacho.companyActivityType_regulation",
    "Tacho.driverActivityValue_regulation",
    "Tacho.drivingStatus_regulation",
    "Tacho.loadType_regulation",
    "Tacho.operationType_regulation",
    "Tacho.positionAuthenticationStatus_regulation",
    "Tacho.slotCardType_regulation",
    "Tacho.specificConditionType_regulation",
    "Tacho.coded_regulation",
    "Tacho.rest_of_world",
    "Tacho.clockStop_regulation",
    "Tacho.codePage_regulation",
    "Tacho.entryType_documented"
   ],
   "note": "Against tables transcribed from the regulation (Spec/Regulation.lean). Finding: 'Rest of the World' (FF) is reported as empty. Codes the regulation reserves in generation 1 are reported under their generation 2 names; the entry type table is missing from the copy of the regulation in the repository and is compared with the assignment the library documents."
  },
  {
   "property": "C53",
   "status": "proved",
   "theorems": [
    "Tacho.mapFid_regulation",
    "Tacho.generations_agree",
    "Tacho.blocks_named",
    "Tacho.written_fid",
    "Tacho.driver_card_recognised",
    "Tacho.workshop_card_recognised",
    "Tacho.control_card_recognised",
    "Tacho.company_card_mistaken"
   ],
   "note": "Findings: CardMA_Certificate is reported as Card_Certificate, company cards are taken for driver cards."
  },
  {
   "property": "C54",
   "status": "proved",
   "theorems": [
    "Tacho.icc_regulation",
    "Tacho.ic_regulation",
    "Tacho.appId_regulation",
    "Tacho.appIdG2_regulation",
    "Tacho.identification_regulation",
    "Tacho.cardDownload_regulation",
    "Tacho.drivingLicence_regulation",
    "Tacho.currentUsage_regulation",
    "Tacho.controlActivity_regulation",
    "Tacho.eventRecord_regulation",
    "Tacho.events_regulation",
    "Tacho.place_regulation",
    "Tacho.placeG2_regulation",
    "Tacho.gnss_regulation",
    "Tacho.gnssEntry_regulation",
    "Tacho.specificCondition_regulation",
    "Tacho.vehicle_regulation",
    "Tacho.vehicleG2_regulation",
    "Tacho.vehiclesUsed_regulation",
    "Tacho.vehiclesUsedG2_regulation",
    "Tacho.places_regulation",
    "Tacho.placesG2_regulation",
    "Tacho.specificConditions_regulation",
    "Tacho.specificConditionsG2_regulation",
    "Tacho.gnssPlaces_regulation",
    "Tacho.vehicleUnits_regulation",
    "Tacho.applicationIdentificationV2_misread"
   ],
   "note": "Against layouts transcribed from the regulation. Findings: Application_Identification_V2 is misread for every conformant file; the control card number is read as an 18 character driver number."
  },
  {
   "property": "C55",
   "status": "proved",
   "theorems": [
    "Tacho.conformant_download_read",
    "Tacho.conformant_activity_read",
    "Tacho.activity_conforms",
    "Tacho.activity_exact",
    "Tacho.year_refused",
    "Tacho.download_without_icc_refused",
    "Tacho.manufacturer_event_refused",
    "Tacho.gen2_card_refused"
   ],
   "note": "Spec/Download.lean describes the downloads from the text of the regulation (Appendix 7 chapter 3, Appendix 2 file structures, Appendix 1 layouts); ECC certificates are taken to be anything with the nested layout of C36 because their profile is not in the repository. conformant_download_read: accepted, and cardOf (the specification of C29) says what the message holds; together with C54 that is every field. activity_exact is the outcome for every activity file the regulation allows, whatever the number of days and the place of their headers."
  },
  {
   "property": "C56",
   "status": "proved",
   "theorems": [
    "Tacho.gen1_messages",
    "Tacho.overview_regulation",
    "Tacho.activities_regulation",
    "Tacho.messages_conform",
    "Tacho.regulation_download_cut",
    "Tacho.gen1_download_read_iff",
    "Tacho.controlled_vehicle_refused",
    "Tacho.technicalG2V1_refused",
    "Tacho.eventsG2V2_refused",
    "Tacho.eventsG2V2_last_refused",
    "Tacho.eventsG2V2_followed_refused"
   ],
   "note": "Spec/VuRegulation.lean transcribes the messages of Appendix 7 DDP_028a to DDP_033 and the structures of Appendix 1. The table of technical data of Gen2 version 2 is a picture in the repository's copy and is not compared. Findings: technical data of Gen2 version 1 has eight record arrays and the parser takes four; events and faults of Gen2 version 2 has six and the parser takes seven; a roadside control makes a Gen1 download unreadable."
  },
  {
   "property": "C57",
   "status": "proved",
   "theorems": [
    "Tacho.fetch_root_iff",
    "Tacho.root_entry_reference",
    "Tacho.fetch_gen1_car_iff",
    "Tacho.fetch_gen1_car_agrees",
    "Tacho.fetch_recover_iff",
    "Tacho.fetch_content_read",
    "Tacho.fetch_gen1_agrees",
    "Tacho.fetch_gen2_car_iff",
    "Tacho.fetch_gen2_chr_iff",
    "Tacho.fetch_gen2_agrees",
    "Tacho.fetch_no_panic",
    "Tacho.download_ok_iff",
    "Tacho.gen1_indexed_iff",
    "Tacho.gen1_product_spec",
    "Tacho.gen2_indexed_iff",
    "Tacho.gen2_product_spec",
    "Tacho.valid_certificate_left_out",
    "Tacho.witness_served"
   ],
   "note": "Calendar and time texts are specified in Spec/FetchCerts.lean by the table of month lengths; Lemmas/Calendar.lean proves Go's conversion against it. valid_certificate_left_out gives a certificate, signed with a prime modulus, that the library verifies and the tool drops; the SHA-1 value of its content is a hypothesis because the model leaves SHA-1 open."
  },
  {
   "property": "C58",
   "status": "proved",
   "theorems": [
    "Tacho.index_complete",
    "Tacho.index_ordered",
    "Tacho.index_reproducible",
    "Tacho.expiration_form",
    "Tacho.index_same_holder_overwrites",
    "Tacho.index_not_reproducible",
    "Tacho.index_file_damaged",
    "Tacho.limited_run_is_schedule"
   ],
   "note": "Each task is two atomic steps (save, add); schedules are all interleavings. sort.Slice is modelled by its contract. expiration_form discharges the hypothesis on dates for everything the tool produces. A write succeeds, changes nothing, or stores any number of first bytes. The last three theorems are the exceptions."
  },
  {
   "property": "C59",
   "status": "proved",
   "theorems": [
    "Tacho.page_date_read",
    "Tacho.page_date_sound",
    "Tacho.row_read",
    "Tacho.row_skipped_iff",
    "Tacho.table_rows_iff",
    "Tacho.download_link_sound",
    "Tacho.files_confined",
    "Tacho.file_escapes",
    "Tacho.later_cell_removes_date",
    "Tacho.row_cells",
    "Tacho.cell_trimmed",
    "Tacho.download_link_first",
    "Tacho.certificate_name_path",
    "Tacho.certificate_name_query",
    "Tacho.certificate_file_name",
    "Tacho.download_links_sound",
    "Tacho.table_rows_in_iff"
   ],
   "note": "The page is the tree the HTML parser returns; the parser itself and strings.ToLower are not modelled. file_escapes and later_cell_removes_date are the exceptions."
  },
  {
   "property": "C60",
   "status": "proved",
   "theorems": [
    "Tacho.index_serves_gen1",
    "Tacho.index_serves_gen2",
    "Tacho.witness_served"
   ],
   "note": "Composes C57 with C33 and C46. The index is passed on as a list of entries here; that the index file between the two programs carries it is C80."
  },
  {
   "property": "C61",
   "status": "proved",
   "theorems": [
    "Tacho.time_write",
    "Tacho.odometer_write",
    "Tacho.geo_write",
    "Tacho.ia5_write",
    "Tacho.text_write",
    "Tacho.text_edit_ignored",
    "Tacho.place_write_read",
    "Tacho.date_write",
    "Tacho.monthYear_write",
    "Tacho.bcd_write",
    "Tacho.registration_write_read",
    "Tacho.holderName_write_read",
    "Tacho.driverId_write_read",
    "Tacho.ownerId_write_read",
    "Tacho.cardNumber_write_read",
    "Tacho.cardNumberGen_write_read",
    "Tacho.serial_write_read",
    "Tacho.gnss_write_read",
    "Tacho.gnssAuth_write_read",
    "Tacho.placeG2_write_read",
    "Tacho.condition_write_read",
    "Tacho.cardVehicle_write_read",
    "Tacho.cardVehicleG2_write_read",
    "Tacho.previousVehicle_write_read",
    "Tacho.previousVehicleG2_write_read",
    "Tacho.cardIW_write_read",
    "Tacho.cardDownload_write_read",
    "Tacho.ic_write_read",
    "Tacho.icc_write_read",
    "Tacho.appId_write_read",
    "Tacho.appIdG2_write_read",
    "Tacho.appIdV2_write_read",
    "Tacho.currentUsage_write_read",
    "Tacho.licence_write_read",
    "Tacho.control_write_read",
    "Tacho.vehiclesUsed_write_read",
    "Tacho.vehiclesUsedG2_write_read",
    "Tacho.places_write_read",
    "Tacho.placesG2_write_read",
    "Tacho.conditions_write_read",
    "Tacho.conditionsG2_write_read",
    "Tacho.gnssEntry_write_read",
    "Tacho.gnssPlaces_write_read",
    "Tacho.unit_write_read",
    "Tacho.vehicleUnits_write_read",
    "Tacho.event_write_read",
    "Tacho.events_write_read",
    "Tacho.conditionsG2_edit",
    "Tacho.conditionsG2_deleted_stay",
    "Tacho.identification_write_read"
   ],
   "note": "The conditions \"values fit the format\" and \"same message\" are in Spec/WriteRead.lean and Spec/WriteFiles.lean; Props/WriteExamples.lean shows messages that meet them. Scanned files of more than 4096 bytes are subject to C05 and excluded by a size bound. EF_Driver_Activity_Data is C26."
  },
  {
   "property": "C62",
   "status": "proved",
   "theorems": [
    "Tacho.missing_text",
    "Tacho.control_flag_stays",
    "Tacho.control_flags_fresh",
    "Tacho.holderName_without_surname",
    "Tacho.licence_without_authority",
    "Tacho.licence_without_number",
    "Tacho.control_short",
    "Tacho.control_empty",
    "Tacho.identification_without_firstNames",
    "Tacho.cardNumberGen_without_number",
    "Tacho.icc_without_embedder",
    "Tacho.appId_missing",
    "Tacho.appIdG2_missing",
    "Tacho.currentUsage_without_vehicle",
    "Tacho.event_without_begin",
    "Tacho.identification_without_birthDate"
   ],
   "note": "Each theorem gives the written bytes or their length and the reader's verdict."
  },
  {
   "property": "C63",
   "status": "proved",
   "theorems": [
    "Tacho.driver_card_write_read",
    "Tacho.activity_write_read",
    "Tacho.conditionsG2_fit_write_read",
    "Tacho.driver_card_without_icc",
    "Tacho.driver_card_with_ma_certificate"
   ],
   "note": "CardOk and SameCard are in Spec/CardReread.lean, file by file, in terms of the relations of C61; a card meeting CardOk is in Props/CardWriteReadExamples.lean."
  },
  {
   "property": "C64",
   "status": "proved",
   "theorems": [
    "Tacho.index_written_last",
    "Tacho.failed_run_keeps_index",
    "Tacho.index_torn",
    "Tacho.finished_run",
    "Tacho.failed_run_loses_certificates",
    "Tacho.full_disk_loses_index",
    "Tacho.limited_run_is_schedule",
    "Tacho.downloads_finish",
    "Tacho.downloads_within_limit",
    "Tacho.downloads_hang",
    "Tacho.example_finished",
    "Tacho.root_entry_is",
    "Tacho.root_download_iff",
    "Tacho.list_download_iff",
    "Tacho.finished_run_answered"
   ],
   "note": "A run is a list of changes to the directory; CutOff allows a stop after any change or in the middle of a write. HTTP answers, failures of file operations, the zip and HTML readers are arbitrary functions in FetchEnv; the JSON encoder is that of C80."
  },
  {
   "property": "C65",
   "status": "proved",
   "theorems": [
    "Tacho.parse_command_ok_iff",
    "Tacho.parse_command_err_iff",
    "Tacho.parse_command_crash"
   ],
   "note": "Reading a file and formatting a message are arbitrary functions; argument parsing by cobra is not modelled."
  },
  {
   "property": "C66",
   "status": "proved",
   "theorems": [
    "Tacho.legacy_gen1_iff",
    "Tacho.legacy_gen2_iff",
    "Tacho.legacy_gen1_panics_iff",
    "Tacho.legacy_gen2_panics_iff",
    "Tacho.legacy_no_card_records",
    "Tacho.legacy_other_generation",
    "Tacho.legacy_gen2_refuses_regulation",
    "Tacho.legacy_gen1_misreads",
    "Tacho.legacy_gen1_conforming_iff",
    "Tacho.legacy_gen1_one_change",
    "Tacho.legacy_place_enums",
    "Tacho.legacy_gnss_enum",
    "Tacho.legacy_rest",
    "Tacho.legacy_capacity",
    "Tacho.legacy_capacity_ok",
    "Tacho.legacy_gen1_panics_cap_iff",
    "Tacho.legacy_gen2_panics_cap_iff",
    "Tacho.legacy_nil_target",
    "Tacho.legacy_bad_offset",
    "Tacho.legacy_no_border_records"
   ],
   "note": "Exact acceptance, result and panic characterisations. The functions are exported from an internal package and not called by UnmarshalFile. Spare capacity of the input, any offset and a nil target are covered by the theorems on unmarshalVuActivitiesC."
  },
  {
   "property": "C67",
   "status": "proved",
   "theorems": [
    "Tacho.driver_card_read_write_read",
    "Tacho.parsed_card_written_iff",
    "Tacho.parsed_card_write_total",
    "Tacho.driver_card_write_panics",
    "Tacho.parsed_card_rewritten",
    "Tacho.showsCut_unique"
   ],
   "note": "The record files that are read through a bufio.Scanner must have sizes at which its buffer is never moved (Unmoved); beyond them C28 and C39 show that records are overwritten."
  },
  {
   "property": "C68",
   "status": "proved",
   "theorems": [
    "Tacho.transfer_append_iff",
    "Tacho.transfer_append_total",
    "Tacho.signed_transfer_restored",
    "Tacho.activities_restored",
    "Tacho.gen2_transfer_restored"
   ],
   "note": "The thirteen writers have the same body and are modelled by one function of the raw data."
  },
  {
   "property": "C69",
   "status": "proved",
   "theorems": [
    "Tacho.ia5_value_iff",
    "Tacho.stringValue_value_iff",
    "Tacho.cleaned_iff",
    "Tacho.reads_exists",
    "Tacho.reads_unique"
   ],
   "note": "The contents of the character tables are a parameter; which table belongs to which code page is proved."
  },
  {
   "property": "C70",
   "status": "proved",
   "theorems": [
    "Tacho.driver_card_write_stable",
    "Tacho.driver_card_second_write",
    "Tacho.parsed_card_rewritten",
    "Tacho.AgainExamples.stray_written_twice"
   ],
   "note": "Conditions CardOk as in C63, CardWritable and Unmoved as in C67. stray_written_twice is the file whose first two writings differ."
  },
  {
   "property": "C71",
   "status": "proved",
   "theorems": [
    "Tacho.shared_vu_agrees",
    "Tacho.vu_result_shares_buffer",
    "Tacho.vu_result_shows_buffer",
    "Tacho.signed_fields_shared",
    "Tacho.activities_fields_shared",
    "Tacho.overview_fields_shared",
    "Tacho.gen2_fields_shared",
    "Tacho.vu_append_overwrites_next",
    "Tacho.vu_buffer_reused",
    "Tacho.shared_card_agrees",
    "Tacho.card_result_independent",
    "Tacho.append_read"
   ],
   "note": "The raw bytes kept inside nested records, slices of the same transfer or elementary file, are not followed."
  },
  {
   "property": "C72",
   "status": "proved",
   "theorems": [
    "Tacho.verify_not_written",
    "Tacho.verifyFile_not_written",
    "Tacho.verify_after_verify",
    "Tacho.verify_again",
    "Tacho.verified_authority_iff",
    "Tacho.verify_again_refused"
   ],
   "note": "Finding: the reference inside the signed content is not compared with the one outside (verify_again_refused)."
  },
  {
   "property": "C73",
   "status": "proved",
   "theorems": [
    "Tacho.kept_same",
    "Tacho.kept_after",
    "Tacho.kept_with_key",
    "Tacho.kept_raw"
   ],
   "note": "One verification after the other. Verifications that run at the same time and share a certificate without a key write to it without a lock, which Go leaves undefined; certificates with a key are only read (kept_with_key)."
  },
  {
   "property": "C74",
   "status": "proved",
   "theorems": [
    "Tacho.file_cutDown",
    "Tacho.card_cutDown",
    "Tacho.card_any",
    "Tacho.place_any",
    "Tacho.gnss_any",
    "Tacho.gnssAuth_any",
    "Tacho.condition_any",
    "Tacho.vehicle_any",
    "Tacho.event_any",
    "Tacho.appId_any",
    "Tacho.appIdG2_any",
    "Tacho.appIdV2_any",
    "Tacho.ic_any",
    "Tacho.gnssEntry_any",
    "Tacho.unit_any",
    "Tacho.change_any",
    "Tacho.time_any",
    "Tacho.time_fraction",
    "Tacho.geo_any",
    "Tacho.gnss_accuracy_refused",
    "Tacho.gnssEntry_odometer_refused",
    "Tacho.condition_refused",
    "Tacho.registration_refused",
    "Tacho.lowBits_of_fits",
    "Tacho.signed24_of_fits",
    "Tacho.cutTime_of_ok",
    "Tacho.cutCode_of_named"
   ],
   "note": "A finding more than a feature: nothing tells the caller that a value was cut. The functions that cut are in Spec/Reduce.lean."
  },
  {
   "property": "C75",
   "status": "proved",
   "theorems": [
    "Tacho.card_order",
    "Tacho.card_order_icc_first",
    "Tacho.card_damage",
    "Tacho.card_signature_damage"
   ],
   "note": "Finding: a card file whose first record is not EF_ICC is refused (card_order_icc_first). SameCardBut in Spec/Order.lean says what two messages share."
  },
  {
   "property": "C76",
   "status": "proved",
   "theorems": [
    "Tacho.card_cut_off",
    "Tacho.vu_cut_off",
    "Tacho.vu_cut_at_transfer",
    "Tacho.CutOffExamples.vu_cut_off_version"
   ],
   "note": "Finding: a second generation version 2 download that starts with detailed speed and is cut off after it is taken for version 1 (vu_cut_off_version)."
  },
  {
   "property": "C77",
   "status": "proved",
   "theorems": [
    "Tacho.message_records",
    "Tacho.message_activity",
    "Tacho.day_size",
    "Tacho.message_amplified"
   ],
   "note": "Finding: overlapping days make a message many thousand times larger than the file (message_amplified). What is counted is in Spec/Size.lean; bytes in texts and raw fields are not counted, apart from the days kept undecoded. The Gen2 transfers of a vehicle unit are kept as raw bytes and count as one record each."
  },
  {
   "property": "C78",
   "status": "proved",
   "theorems": [
    "Tacho.card_join",
    "Tacho.card_twice",
    "Tacho.raw_card_join",
    "Tacho.vu_join",
    "Tacho.vu_join_refused",
    "Tacho.vu_then_other"
   ],
   "note": "Finding: files of two different cards are joined without notice, one message then mixes both. joinCards and JoinedVu are in Spec/Join.lean."
  },
  {
   "property": "C79",
   "status": "proved",
   "theorems": [
    "Tacho.card_alike_iff",
    "Tacho.raw_card_alike_iff",
    "Tacho.vu_alike_iff",
    "Tacho.FidelityExamples.card_not_injective"
   ],
   "note": "Finding: the full fidelity of the README holds up to the listed differences, which the message does not show (card_not_injective). AlikeCards, AlikeFiles and AlikeTransfers are in Spec/Fidelity.lean. Unshifted excludes event, fault and vehicle unit files so large that the scanner moves its buffer (C05)."
  },
  {
   "property": "C80",
   "status": "proved",
   "theorems": [
    "Tacho.index_loads",
    "Tacho.carried_utf8",
    "Tacho.carried_unique",
    "Tacho.torn_refused",
    "Tacho.index_after_run",
    "Tacho.index_file_serves_gen1",
    "Tacho.index_file_serves_gen2",
    "Tacho.load_iff",
    "Tacho.encode_document",
    "Tacho.parse_iff",
    "Tacho.document_unique",
    "Tacho.print_grammar"
   ],
   "note": "The JSON grammar and the meaning of strings are in Spec/Json.lean, apart from the model of encoding/json. load_iff covers every file, also with names given repeatedly and times with fractions and zones. Findings: of a list given more than once the items are laid over those given before, even over some that a shorter list in between had removed (example in Props/IndexRun.lean); an address that is not UTF-8 is changed in the index."
  },
  {
   "property": "C81",
   "status": "proved",
   "theorems": [
    "Tacho.issued_certificate_accepted",
    "Tacho.root_issued_certificate_accepted",
    "Tacho.accepted_iff_private",
    "Tacho.can_issue",
    "Tacho.genuine_gen1_application_verified",
    "Tacho.signature_not_unique",
    "Tacho.prescribed_certificate_read",
    "Tacho.prescribed_accepted_iff",
    "Tacho.issued2_accepted",
    "Tacho.genuine_gen2_application_verified",
    "Tacho.genuine_card_verified",
    "Tacho.genuine_download_verified",
    "Tacho.certificate_length"
   ],
   "note": "How certificates are issued is transcribed from the regulation in Spec/Issuing.lean. RSA is proved correct with Mathlib's number theory; a key pair of 1024 bits with kernel checked primality shows that the hypotheses can be met. ECDSA stays abstract. Finding: first generation certificates have a second accepted form (signature_not_unique)."
  },
  {
   "property": "C82",
   "status": "proved",
   "theorems": [
    "Tacho.card_marks",
    "Tacho.events_marked",
    "Tacho.days_marked",
    "Tacho.control_marked",
    "Tacho.places_unmarked",
    "Tacho.placesG2_unmarked",
    "Tacho.anonymized_places_unmarked",
    "Tacho.anonymized_placesG2_unmarked",
    "Tacho.place_marks_not_written",
    "Tacho.events_regulation"
   ],
   "note": "The marks of a whole card, both applications. Finding: place records are never marked valid, although their message documents the mark for parsed records."
  },
  {
   "property": "C83",
   "status": "proved",
   "theorems": [
    "Tacho.concurrent_same",
    "Tacho.concurrent_returns",
    "Tacho.concurrent_key",
    "Tacho.concurrent_after",
    "Tacho.reordered_writes",
    "Tacho.half_key",
    "Tacho.rsaWrites_core"
   ],
   "note": "Each access to a field of a shared certificate is one step, in one global order (the model is sequentially consistent); reordered_writes shows what another order of the writes does. Finding: the writes are not synchronised, a data race in Go; the outcome is right only because the exponent is written last."
  },
  {
   "property": "C84",
   "status": "proved",
   "theorems": [
    "Tacho.verification_rests_on",
    "Tacho.verify_file_rests_on",
    "Tacho.changed_file_unnoticed",
    "Tacho.changed_signature_unnoticed",
    "Tacho.borrowed_certificates"
   ],
   "note": "Finding: no signature of a file is ever checked, and the holder of the certificate is not compared with the card number, so VerifyFile says that the download contains certificates signed by an authority and says nothing about the data."
  },
  {
   "property": "C85",
   "status": "proved",
   "theorems": [
    "Tacho.vu_damage",
    "Tacho.vu_signature_damage",
    "Tacho.overview_other_signature",
    "Tacho.activities_other_signature",
    "Tacho.vu_lost",
    "Tacho.vu_lost_version"
   ],
   "note": "vu_damage decides between acceptance and refusal exactly. Findings: signatures are not looked at; a lost transfer leaves no trace; one unreadable place or insertion record makes the whole download unreadable."
  },
  {
   "property": "C86",
   "status": "proved",
   "theorems": [
    "Tacho.rewritten_certificates",
    "Tacho.rewritten_verifies_alike",
    "Tacho.rewritten_verifies_more",
    "Tacho.RewrittenExamples.cert_verifies_alike",
    "Tacho.RewrittenExamples.bare_card_passes_when_rewritten"
   ],
   "note": "Cards read from a file (Unmoved as in C67). Finding: a card that only has, say, a Gen2 EF_Identification fails verification for lack of a certificate; its written copy passes."
  },
  {
   "property": "C87",
   "status": "proved",
   "theorems": [
    "Tacho.published_card_verified",
    "Tacho.published_genuine1",
    "Tacho.published_genuine2",
    "Tacho.built_answers",
    "Tacho.PublishedExamples.card_verified"
   ],
   "note": "End to end: fetchMain, encodeIndex, the embedded files, loadIndex, the client, unmarshalFile and verifyFile together. `builtResolver` is DefaultCertificateResolver of a program built with the files the run left. `PublishedExamples.card_verified` is a run with an authority on each list and a card with a certificate of each."
  },
  {
   "property": "C88",
   "status": "proved",
   "theorems": [
    "Tacho.Schema.file_validates",
    "Tacho.Schema.driver_card_validates",
    "Tacho.Schema.vehicle_unit_validates",
    "Tacho.Schema.anonymized_identification_validates",
    "Tacho.Schema.anonymized_vehicles_validate",
    "Tacho.Schema.valid_string_written",
    "Tacho.Schema.valid_ia5_written"
   ],
   "note": "The rules are those of the two annotated messages, stated in Spec/Schema.lean; `required` on the value is not represented (both parsers always set it)."
  },
  {
   "property": "C89",
   "status": "proved",
   "theorems": [
    "Tacho.text_read_back_iff",
    "Tacho.text_without_page_lost",
    "Tacho.ia5_read_back_iff",
    "Tacho.text_beyond_ascii_changed"
   ],
   "note": "The character tables are a parameter; `SingleByte` says what is assumed of a table, and `latin1_singleByte` shows it for Latin-1. The equivalence is for texts each of whose bytes has a character in the table (ISO 8859-3 and 8859-7 have gaps)."
  },
  {
   "property": "C90",
   "status": "proved",
   "theorems": [
    "Tacho.file_in_range",
    "Tacho.driver_card_in_range",
    "Tacho.vehicle_unit_in_range",
    "Tacho.time_values",
    "Tacho.odometer_values",
    "Tacho.position_values",
    "Tacho.change_values",
    "Tacho.version_values",
    "Tacho.date_values",
    "Tacho.monthYear_values",
    "Tacho.counter_values",
    "Tacho.issuing_state_values",
    "Tacho.issuing_state_undeclared",
    "Tacho.file_beyond_regulation"
   ],
   "note": "Spec/Ranges.lean lists the range of every number, time and enum number of the messages that parsing fills. Both generations of card files and the first generation of vehicle unit files are covered; the parsers of the second generation vehicle unit transfers keep bytes only. `file_beyond_regulation` is a whole file with values the regulation does not have."
  },
  {
   "property": "C91",
   "status": "proved",
   "theorems": [
    "Tacho.nil_entries_written",
    "Tacho.nil_entries_unwritable",
    "Tacho.nil_entries_no_panic",
    "Tacho.nil_place_written",
    "Tacho.nil_places_written",
    "Tacho.nil_event_written",
    "Tacho.nil_raw_record_written",
    "Tacho.anonymize_places_nil",
    "Tacho.anonymize_placesG2_nil",
    "Tacho.anonymize_vehicles_nil"
   ],
   "note": "Model/NullEntries.lean has the writers and anonymisers over lists with nil entries; Spec/NullEntries.lean says which message without nil entries a message stands for. The one panic left by `nil_entries_no_panic` is that of C22, which does not depend on nil entries."
  },
  {
   "property": "C92",
   "status": "proved",
   "theorems": [
    "Tacho.shared_answer",
    "Tacho.shared_certificates",
    "Tacho.shared_frame",
    "Tacho.shared_untouched",
    "Tacho.shared_key_filled",
    "Tacho.shared_run_frame",
    "Tacho.shared_marks",
    "Tacho.shared_gen2_run",
    "Tacho.shared_order_matters"
   ],
   "note": "Model/Shared.lean has the verification of a driver card over a heap of certificates with arbitrary pointers. `shared_answer` is by comparison with Model/Verify.lean on copies; `shared_order_matters` is the finding, for any hash function."
  },
  {
   "property": "C93",
   "status": "proved",
   "theorems": [
    "Tacho.anonymize_places_separate",
    "Tacho.anonymize_placesG2_separate",
    "Tacho.anonymize_places_shown",
    "Tacho.anonymize_placesG2_shown",
    "Tacho.untouched_shows",
    "Tacho.anonymize_place_shares",
    "Tacho.anonymize_placeG2_shares",
    "Tacho.shared_time_changes_both",
    "Tacho.anonymize_vehicles_shares",
    "Tacho.anonymize_vehicles_shown",
    "Tacho.vehicles_untouched_shows",
    "Tacho.shared_counter_changes_both",
    "Tacho.anonymize_identification_distinct",
    "Tacho.anonymize_identification_shares",
    "Tacho.anonymize_identification_shared",
    "Tacho.anonymize_identification_shown",
    "Tacho.ident_untouched_shows",
    "Tacho.shared_index_changes_both",
    "Tacho.shared_language_changes_both"
   ],
   "note": "Model/AnonymizeHeap.lean has the anonymisers of places over a heap of records, GNSS records and times; Model/AnonymizeObjects.lean that of the vehicles used, with all the objects a record contains. Model/AnonymizeIdent.lean has AnonymizeIdentification with all the objects of the message."
  }
 ]
}