c("C01","proved","raw_card_roundtrip fileBytes_injective")
c("C02","proved","raw_card_marshal_unmarshal parse_fileBytes")
c("C03","proved","raw_card_accepts_iff raw_card_panics_iff raw_card_no_panic_fails raw_card_no_panic_if raw_card_no_panic_short raw_card_truncated","The no-panic part is false of the code (value of exactly 65531 bytes); the exact panic set and acceptance set are proved.")
c("C04","proved","scanner_refines_chunks scanner_tokens_prefix scan_fixed")
c("C12","proved","infer_first_match infer_depends_on_data_files infer_no_data infer_driver_iff infer_never_company company_card_is_driver infer_ignores_signatures mapFid_never_cardMa mapFid_table mapFid_unknown","Finding: company cards are always taken for driver cards.")
c("C13","proved","timeReal_accepts_iff timeReal_no_panic timeReal_value timeReal_roundtrip timeReal_encode_decode timeReal_nanos timeReal_wraps")
c("C14","proved","odometer_accepts_iff odometer_roundtrip odometer_encode_decode")
c("C15","proved","bcd_decode_iff bcd_no_panic bcd_roundtrip bcd_encode_iff bcd_encode_decode bcdString_roundtrip bcdString_five_bytes_lost","Finding: a BcdString of five or more bytes is truncated to int32.")
c("C16","proved","readInt24_spec geo_accepts_iff geo_roundtrip geo_encode_decode")
c("C17","proved","aci_decode aci_bits aci_accepts_iff aci_encode aci_roundtrip aci_encode_decode")
c("C18","proved","enum_decode_encode enum_encode_decode enum_injective enum_accepts_iff enum_never_unspecified enumTables_ok")
c("C19","proved","date_roundtrip_iff date_encode_decode cardStructureVersion_roundtrip_iff cardStructureVersion_encode_decode monthYear_decode monthYear_roundtrip_iff monthYear_encode_decode dates_wrong_length")
c("C44","proved","controlType_decode controlType_roundtrip controlType_edit controlType_clear_no_effect controlType_encode_decode controlType_long_raw","Finding: clearing a flag of a parsed value has no effect.")
c("C45","proved","generation_from_version")
c("C20","proved","stringValue_accepts_iff stringValue_roundtrip stringValue_roundtrip_known stringValue_unknown_lost stringValue_utf8 stringValue_text stringValue_build stringValue_length stringValue_bad_raw stringValue_nil codePage_roundtrip","Finding: an unknown code page byte is replaced by 0xFF.")
c("C21","proved","ia5_accepts_iff ia5_roundtrip ia5_utf8 ia5_text ia5_build ia5_refused ia5_length ia5_encode_decode")
c("C22","proved","appendsExactly_result appendTimeReal_exact appendOdometer_exact appendDate_exact appendCardStructureVersion_exact appendMonthYear_exact appendControlType_exact appendGeoCoordinates_exact appendActivityChangeInfo_exact appendStringValue_size appendIa5StringValue_size appendBcdString_size appendVehicleRegistration_size appendHolderName_size appendHolderName_not_fixed appendVehicleRegistration_not_fixed appendDriverIdentification_size appendOwnerIdentification_size appendFullCardNumber_size appendFullCardNumberAndGeneration_size appendFullCardNumberAndGeneration_not_fixed appendExtendedSerialNumber_exact appendGNSSPlaceRecord_exact appendGNSSPlaceAuthRecord_exact appendSpecificConditionRecord_exact appendPlaceRecord_exact appendPlaceRecordG2_exact appendCardVehicleRecord_exact appendCardVehicleRecordG2_exact appendPreviousVehicleInfo_exact appendPreviousVehicleInfoG2_exact appendVuCardIWRecord_exact appendFullCardNumberAsString_appends appendVehiclesUsed_exact appendVehiclesUsedG2_exact appendPlaces_exact appendPlacesG2_exact appendSpecificConditions_exact appendSpecificConditionsG2_fresh appendEventRecord_appends appendEventsData_appends appendGnssPlaceEntry_exact appendGnssPlaces_exact appendVehicleUnitRecord_exact appendVehicleUnitsUsed_exact","Findings: the size of a holder name, registration or card number follows the length fields of its strings, not the type.")
c("C23","proved","registration_accepts_iff registration_roundtrip registration_roundtrip_iff registration_out_length holderName_accepts_iff holderName_roundtrip_iff driverIdentification_accepts_iff driverIdentification_roundtrip ownerIdentification_accepts_iff ownerIdentification_roundtrip extendedSerialNumber_accepts_iff extendedSerialNumber_roundtrip_iff gnss_accepts_iff gnss_roundtrip gnssAuth_accepts_iff gnssAuth_roundtrip place_accepts_iff place_roundtrip placeG2_accepts_iff placeG2_roundtrip specificCondition_accepts_iff specificCondition_roundtrip cardVehicle_accepts_iff cardVehicle_roundtrip_iff cardVehicleG2_accepts_iff cardVehicleG2_roundtrip_iff previousVehicle_accepts_iff previousVehicle_roundtrip_iff previousVehicleG2_accepts_iff previousVehicleG2_roundtrip_iff iw_accepts_iff iw_roundtrip_iff gnssEntry_accepts_iff gnssEntry_restores_iff","Findings: unknown nations cannot be written back, unknown code pages and non-BCD dates are replaced.")
c("C24","proved","fullCardNumber_decode fullCardNumber_accepts_iff fullCardNumber_roundtrip fullCardNumber_roundtrip_iff fullCardNumber_driver_lost fullCardNumber_control_rejected fullCardNumberAndGeneration_decode fullCardNumberAndGeneration_roundtrip_iff","Findings: the last two bytes of a driver card number are lost, control cards are rejected.")
c("C43","partial","stringValue_utf8 ia5_utf8 cardVehicleG2_vin cardVehicleG2_vin_not_utf8 cardVehicleG2_vin_utf8_iff","False of the code: the Gen2 VIN is taken as raw bytes, so it may be invalid UTF-8. Proved for the shared string types; the remaining string fields of card and VU messages are not covered yet.")
c("C47","partial","fullCardNumber_nation_iff","False of the code: proved that the decoded state agrees with the table exactly for byte 56.")
c("C48","proved","cardDownload_fields ic_fields icc_fields appId_fields appIdG2_fields currentUsage_fields drivingLicence_fields controlActivity_fields identification_fields gnssEntry_fields events_fields registration_fields holderName_fields driverIdentification_fields ownerIdentification_fields extendedSerialNumber_fields gnss_fields gnssAuth_fields place_fields placeG2_fields specificCondition_fields cardVehicle_fields cardVehicleG2_fields cardVehicleG2_vin_exact unfilled_unique previousVehicle_fields previousVehicleG2_fields iw_fields geo_fields bcd_pair_value")
c("C25","proved","activityLoop_fuel activity_outcome activity_bounded activity_366_refused")
c("C26","proved","activity_ok_iff activity_complete activity_366_refused activity_straddle_lost dailyRecord_spec dayOf_unique","Finding, when a record header straddles the buffer end the records are lost.")
c("C27","proved","driverActivity_decode driverActivity_roundtrip driverActivity_no_panic driverActivity_four")
c("C49","partial","activity_rebuild activity_rebuild_pointer marshalRecord_spec","The rebuilt buffer is correct, but the file writer keeps the old newest-record pointer (proved witness: a day is lost). Up to 365 valid records.")
c("C28","proved","cardDownload_accepts_iff cardDownload_restores ic_accepts_iff ic_restores icc_accepts_iff icc_restores appId_accepts_iff appId_restores appIdG2_accepts_iff appIdG2_restores appIdV2_accepts_iff appIdV2_restores currentUsage_accepts_iff currentUsage_restores_iff drivingLicence_accepts_iff drivingLicence_restores_iff controlActivity_accepts_iff controlActivity_unused controlActivity_restores_iff identification_accepts_iff identification_cardType identification_restores_iff vehiclesUsed_ok_iff vehiclesUsed_accepts_iff vehiclesUsed_restores_iff vehiclesUsed_raw_irrelevant vehiclesUsedG2_ok_iff vehiclesUsedG2_accepts_iff vehiclesUsedG2_restores_iff vehiclesUsedG2_raw_irrelevant places_ok_iff places_accepts_iff places_restores places_raw_irrelevant placesG2_ok_iff placesG2_accepts_iff placesG2_restores placesG2_raw_irrelevant specificConditions_ok_iff specificConditions_accepts specificConditions_restores specificConditions_raw_irrelevant specificConditionsG2_ok_iff specificConditionsG2_accepts_iff specificConditionsG2_restores appendSpecificConditionsG2_panics events_accepts_iff events_fields events_ok_iff events_restores_iff events_overwritten event_number_overwritten gnssPlaces_ok_iff gnssPlaces_accepts_iff gnssPlaces_restores_iff vehicleUnits_accepts_iff vehicleUnits_ok_iff vehicleUnits_restores vehicleUnits_overwritten","Findings: bytes behind the last whole record are dropped everywhere except in Gen2 specific conditions; GNSS odometers above 999999 km are accepted but cannot be written; events and vehicle units are not restored for sizes where the scanner overwrites its buffer.")
c("C05","proved","retained_iff retained_safe retained_moved_at events_fields events_ok_iff events_overwritten event_number_overwritten vehicleUnits_ok_iff vehicleUnits_overwritten","The plain property is false of the code; the sizes for which it holds are characterised exactly.")
c("C33","proved","rsa_core_iff rsa_verify_ca_iff rsa_verify_root_iff rsa_verify_total rsa_parsed_authority_has_no_key","Finding: a certificate that was only parsed never works as an authority, its key is filled in by its own verification.")
c("C34","proved","rsa_failure_effect rsa_mark_iff rsa_stale_mark ecc_stale_mark","Finding: errors before the check (missing key, wrong size) leave an old mark in place.")
c("C35","proved","rsa_parse_iff rsa_parse_total rsa_append_restores rsa_reference_injective root_parse_iff root_parse_total decimal_spec isDecimal_unique")
c("C36","proved","ecc_parse_iff ecc_parse_ne_panic ecc_append_restores ecc_append_iff asn1Raw_iff asn1Oid_iff","Finding: no tag is checked except that of the object identifier.")
c("C37","proved","ecc_verify_iff ecc_verify_effect ecc_unknown_curve_refused ecc_verify_nil parsed_key_curve parseCurve_iff signed_part_of_parsed")
c("C38","proved","chain_ok_iff chain_err_iff chain_resolver_ok_iff chain_assoc")
c("C39","proved","embedded_miss embedded_never_finds shipped_not_found embedded_lookup_iff embedded_root default_resolver_is_client","Finding: the lookup key lacks the directory, so the cache is never hit and every certificate is downloaded.")
c("C46","proved","client_ok_iff client_requests findEntry_iff client_no_root")
c("C29","proved","driver_card_iff blocks_unique blocks_iff_paired orphan_signature_refused ignored_files gen2_card_refused","Finding: a driver card with a Gen2 C100 data record (EF_CardMA_Certificate) is always refused, because the file id resolves to the Gen1 card certificate.")
c("C50","proved","driver_card_total cardDownload_total ic_total icc_total appId_total appIdG2_total appIdV2_total currentUsage_total drivingLicence_total controlActivity_total identification_total events_total vehiclesUsed_total vehiclesUsedG2_total places_total placesG2_total conditions_total conditionsG2_total gnssPlaces_total vehicleUnits_total rsa_total driverActivity_no_panic ecc_parse_ne_panic")
more("C22","appendCardDownload_appends appendCardIc_appends appendIcc_appends appendAppId_appends appendAppIdG2_appends appendAppIdV2_appends appendCurrentUsage_appends appendDrivingLicence_appends appendControlActivity_appends appendIdentification_appends appendDriverActivity_appends appendSpecificConditionsG2_appends appendSpecificConditionsG2_one_byte appendVehiclesUsed_appends appendVehiclesUsedG2_appends appendPlaces_appends appendPlacesG2_appends appendSpecificConditions_appends appendGnssPlaces_appends appendVehicleUnits_appends")
c("C30","proved","marshal_driver_card driver_card_written_iff driver_card_wellformed driver_card_reparses driver_card_order writing_order_nodup")
c("C31","proved","driver_card_forgets driver_card_signatures_zero driver_card_gen2_not_written driver_card_roundtrip_iff driver_card_not_restored","The property is false of the code: proved for every message that signatures become 128 zero bytes and eight Gen2 files are not written, with the exact condition for an identical file.")
c("C32","partial","gen1_verified_iff gen2_verified_iff driver_card_verified_iff verify_nil_card driver_card_verify_effect gen2_root_never_used other_certificates_ignored driver_card_verify_total empty_card_verified","The driver card part is proved in full; the VerifyFile dispatch around it follows. Findings: a card with no application at all is verified, the Gen2 authority is never checked itself, expiry is never checked.")
c("C07","partial","vu_panics_iff vu_no_panic_fails vu_short_overview_panics vu_no_panic_complete","The property is false of the code: the exact set of panicking inputs of the slicing pass is proved, with a family of witnesses.")
c("C08","proved","vu_slices_iff vu_partition vu_cut_unique")
c("C41","proved","overview_writable_iff overview_restores_iff overview_written overview_appends overview_iff overview_accepts_iff overview_shape_unique overview_conforms_iff overview_total overview_control_card_refused","Parsing and writing are characterised in full. Findings: an overview with a control activity done with a control card is refused; slots byte, unknown code pages and the last two bytes of driver card numbers are not written back.")
c("C42","proved","activities_iff activities_accepts_iff activities_shape_unique activities_conforms_iff activities_sliced activities_total activities_unknown_country_refused","Finding: an unknown country or entry type in one place record makes the whole download unreadable.")
c("C06","proved","file_iff file_refused file_type")
c("C07","proved","file_panics_iff vu_file_panics_iff vu_panics_iff vu_no_panic_fails vu_short_overview_panics vu_no_panic_complete","The plain property (no panic) is false of the code; the exact set of panicking inputs is proved, with a family of witnesses.")
c("C09","proved","gen2_unreadable vu_file_iff unmarshalArrays_iff arrays_count","The plain property is false of the code; proved for every input which downloads are accepted.")
c("C10","proved","vu_file_iff vu_homogeneous vu_mixture_refused")
c("C11","proved","file_raw_card_restored file_vehicle_unit_not_written file_driver_card_written file_other_not_written raw_card_roundtrip")
c("C32","proved","verify_file_iff verify_file_refused verify_file_effect gen1_verified_iff gen2_verified_iff driver_card_verified_iff verify_nil_card driver_card_verify_effect gen2_root_never_used other_certificates_ignored driver_card_verify_total empty_card_verified","Findings: a card with no application at all is verified, the Gen2 authority is never checked itself, expiry is never checked, vehicle unit files always pass.")
c("C40","proved","anonymize_vehicle_values anonymize_vehicle_raw anonymize_vehicle_iff anonymize_vehicle_idem anonymize_place_values anonymize_place_raw anonymize_place_iff anonymize_place_idem anonymize_gnss_values anonymize_gnss_iff anonymize_gnss_idem anonymize_placeG2_values anonymize_placeG2_iff anonymize_placeG2_idem anonymize_activity_values anonymize_activity_iff anonymize_activity_idem anonymize_driver_iff anonymize_driver_value anonymize_places_iff anonymize_places_idem anonymize_place_reparses anonymize_places_reparses anonymize_placesG2_iff anonymize_placesG2_idem anonymize_placesG2_reparses anonymize_vehiclesUsed_iff anonymize_vehiclesUsed_idem anonymize_vehicle_reparses anonymize_identification_iff anonymize_identification_idem anonymize_vehiclesUsed_size anonymize_driver_card_reparses anonymize_workshop_card_unreadable","Findings: the record-level place anonymiser keeps the entry time although its comment says it shifts it; an anonymised vehicle record whose nation is unknown loses its raw bytes; the anonymised identification of a workshop card is 65 bytes and cannot be read back.")

c("C51","proved","overview_slots_wrong overview_slots","The English property is false of the code; proved exactly what is reported instead, and that it is never right.")
c("C43","proved","file_text_iff file_text_not_utf8 driver_card_text_iff vehicle_unit_text stringValue_utf8 ia5_utf8 cardVehicleG2_vin cardVehicleG2_vin_not_utf8 cardVehicleG2_vin_utf8_iff","Proved for every string field of every accepted file. Finding: the Gen2 VIN is taken as raw bytes, so it may be invalid UTF-8 (a whole file as witness).")
c("C47","proved","fullCardNumber_nation_iff","The English property is false of the code; proved that the decoded state agrees with the table exactly for byte 56.")
c("C49","proved","activity_rebuild activity_rebuild_file activity_rebuild_366 activity_rebuild_pointer marshalRecord_spec","Findings: the file writer keeps the old newest-record pointer (proved witness: a day is lost), and 366 or more days are written but refused when read.")
c("C52","proved","eventFaultType_regulation equipmentType_regulation eventFaultRecordPurpose_regulation calibrationPurpose_regulation cardSlotNumber_regulation companyActivityType_regulation driverActivityValue_regulation drivingStatus_regulation loadType_regulation operationType_regulation positionAuthenticationStatus_regulation slotCardType_regulation specificConditionType_regulation coded_regulation rest_of_world","Against tables transcribed from the regulation (Spec/Regulation.lean). Finding: 'Rest of the World' (FF) is reported as empty. Codes the regulation reserves in generation 1 are reported under their generation 2 names; the entry type table is missing from the copy of the regulation in the repository and is compared with the assignment the library documents.")
c("C53","proved","mapFid_regulation generations_agree blocks_named written_fid driver_card_recognised workshop_card_recognised control_card_recognised company_card_mistaken","Findings: CardMA_Certificate is reported as Card_Certificate, company cards are taken for driver cards.")
c("C54","proved","icc_regulation ic_regulation appId_regulation appIdG2_regulation identification_regulation cardDownload_regulation drivingLicence_regulation currentUsage_regulation controlActivity_regulation eventRecord_regulation events_regulation place_regulation placeG2_regulation gnss_regulation gnssEntry_regulation specificCondition_regulation vehicle_regulation vehicleG2_regulation vehiclesUsed_regulation vehiclesUsedG2_regulation places_regulation placesG2_regulation specificConditions_regulation specificConditionsG2_regulation gnssPlaces_regulation vehicleUnits_regulation applicationIdentificationV2_misread","Against layouts transcribed from the regulation. Findings: Application_Identification_V2 is misread for every conformant file; the control card number is read as an 18 character driver number.")
more("C40","aci_anonymize_noninterference aci_anonymize_time")

c("C55", "proved", "conformant_download_read conformant_activity_read activity_conforms activity_exact year_refused "
  "download_without_icc_refused manufacturer_event_refused gen2_card_refused",
  "Spec/Download.lean describes the downloads from the text of the regulation (Appendix 7 chapter 3, Appendix 2 "
  "file structures, Appendix 1 layouts); ECC certificates are taken to be anything with the nested layout of C36 "
  "because their profile is not in the repository. conformant_download_read: accepted, and cardOf (the specification "
  "of C29) says what the message holds; together with C54 that is every field. activity_exact is the outcome for "
  "every activity file the regulation allows, whatever the number of days and the place of their headers.")
more("C26", "activity_exact year_refused stored_many")
more("C52", "clockStop_regulation")
more("C19","date_encode_modulo")
more("C28","ic_written")

c("C56", "proved", "gen1_messages overview_regulation activities_regulation messages_conform regulation_download_cut "
  "gen1_download_read_iff controlled_vehicle_refused technicalG2V1_refused eventsG2V2_refused eventsG2V2_last_refused "
  "eventsG2V2_followed_refused",
  "Spec/VuRegulation.lean transcribes the messages of Appendix 7 DDP_028a to DDP_033 and the structures of Appendix 1. The "
  "table of technical data of Gen2 version 2 is a picture in the repository's copy and is not compared. Findings: technical "
  "data of Gen2 version 1 has eight record arrays and the parser takes four; events and faults of Gen2 version 2 has six and "
  "the parser takes seven; a roadside control makes a Gen1 download unreadable.")

c("C57", "proved", "fetch_root_iff root_entry_reference fetch_gen1_car_iff fetch_gen1_car_agrees fetch_recover_iff fetch_content_read "
  "fetch_gen1_agrees fetch_gen2_car_iff fetch_gen2_chr_iff fetch_gen2_agrees fetch_no_panic download_ok_iff gen1_indexed_iff "
  "gen1_product_spec gen2_indexed_iff gen2_product_spec valid_certificate_left_out witness_served",
  "Calendar and time texts are specified in Spec/FetchCerts.lean by the table of month lengths; Lemmas/Calendar.lean proves "
  "Go's conversion against it. valid_certificate_left_out gives a certificate, signed with a prime modulus, that the library "
  "verifies and the tool drops; the SHA-1 value of its content is a hypothesis because the model leaves SHA-1 open.")
c("C58", "proved", "index_complete index_ordered index_reproducible expiration_form index_same_holder_overwrites index_not_reproducible index_file_damaged",
  "Each task is two atomic steps (save, add); schedules are all interleavings. sort.Slice is modelled by its contract. "
  "expiration_form discharges the hypothesis on dates for everything the tool produces. A write succeeds, changes nothing, or stores any number of first bytes. The last three theorems are the exceptions.")
c("C59", "proved", "page_date_read page_date_sound row_read row_skipped_iff table_rows_iff download_link_sound files_confined file_escapes "
  "later_cell_removes_date",
  "The page is the tree the HTML parser returns; the parser itself and strings.ToLower are not modelled. file_escapes and "
  "later_cell_removes_date are the exceptions.")
c("C60", "proved", "index_serves_gen1 index_serves_gen2 witness_served",
  "Composes C57 with C33 and C46. The index is passed on as a list of entries here; that the index file between the two programs carries it is C80.")
c("C61", "proved", "time_write odometer_write geo_write ia5_write text_write text_edit_ignored place_write_read date_write monthYear_write bcd_write "
  "registration_write_read holderName_write_read driverId_write_read ownerId_write_read cardNumber_write_read "
  "cardNumberGen_write_read serial_write_read gnss_write_read gnssAuth_write_read placeG2_write_read condition_write_read "
  "cardVehicle_write_read cardVehicleG2_write_read previousVehicle_write_read previousVehicleG2_write_read cardIW_write_read "
  "cardDownload_write_read ic_write_read icc_write_read appId_write_read appIdG2_write_read appIdV2_write_read "
  "currentUsage_write_read licence_write_read control_write_read vehiclesUsed_write_read vehiclesUsedG2_write_read "
  "places_write_read placesG2_write_read conditions_write_read conditionsG2_write_read gnssEntry_write_read gnssPlaces_write_read "
  "unit_write_read vehicleUnits_write_read event_write_read events_write_read conditionsG2_edit conditionsG2_deleted_stay identification_write_read",
  "The conditions \"values fit the format\" and \"same message\" are in Spec/WriteRead.lean and Spec/WriteFiles.lean; Props/WriteExamples.lean "
  "shows messages that meet them. Scanned files of more than 4096 bytes are subject to C05 and excluded by a size bound. EF_Driver_Activity_Data "
  "is C26.")
c("C62", "proved", "missing_text control_flag_stays control_flags_fresh holderName_without_surname licence_without_authority "
  "licence_without_number control_short control_empty identification_without_firstNames cardNumberGen_without_number "
  "icc_without_embedder appId_missing appIdG2_missing currentUsage_without_vehicle event_without_begin",
  "Each theorem gives the written bytes or their length and the reader's verdict.")
c("C63", "proved", "driver_card_write_read activity_write_read conditionsG2_fit_write_read driver_card_without_icc driver_card_with_ma_certificate",
  "CardOk and SameCard are in Spec/CardReread.lean, file by file, in terms of the relations of C61; a card meeting CardOk is in "
  "Props/CardWriteReadExamples.lean.")
c("C64", "proved", "index_written_last failed_run_keeps_index index_torn finished_run failed_run_loses_certificates full_disk_loses_index "
  "limited_run_is_schedule downloads_finish downloads_within_limit downloads_hang example_finished",
  "A run is a list of changes to the directory; CutOff allows a stop after any change or in the middle of a write. HTTP answers, failures of "
  "file operations, the zip and HTML readers are arbitrary functions in FetchEnv; the JSON encoder is that of C80.")
c("C65", "proved", "parse_command_ok_iff parse_command_err_iff parse_command_crash",
  "Reading a file and formatting a message are arbitrary functions; argument parsing by cobra is not modelled.")
c("C66", "proved", "legacy_gen1_iff legacy_gen2_iff legacy_gen1_panics_iff legacy_gen2_panics_iff legacy_no_card_records legacy_other_generation legacy_gen2_refuses_regulation legacy_gen1_misreads legacy_gen1_conforming_iff legacy_gen1_one_change legacy_place_enums legacy_gnss_enum legacy_rest legacy_capacity legacy_capacity_ok legacy_gen1_panics_cap_iff legacy_gen2_panics_cap_iff legacy_nil_target legacy_bad_offset",
  "Exact acceptance, result and panic characterisations. The functions are exported from an internal package and not called by UnmarshalFile. Spare capacity of the input, any offset and a nil target are covered by the theorems on unmarshalVuActivitiesC.")
more("C58", "limited_run_is_schedule")
more("C35", "rsa_append_iff")
more("C09", "gen2_transfer_arrays")
c("C67", "proved", "driver_card_read_write_read parsed_card_written_iff parsed_card_write_total driver_card_write_panics",
  "The record files that are read through a bufio.Scanner must have sizes at which its buffer is never moved (Unmoved); beyond them C28 and C39 show that records are overwritten.")
c("C68", "proved", "transfer_append_iff transfer_append_total signed_transfer_restored activities_restored gen2_transfer_restored",
  "The thirteen writers have the same body and are modelled by one function of the raw data.")
c("C69", "proved", "ia5_value_iff stringValue_value_iff cleaned_iff reads_exists reads_unique",
  "The contents of the character tables are a parameter; which table belongs to which code page is proved.")
c("C70", "proved", "driver_card_write_stable driver_card_second_write",
  "Conditions CardOk as in C63, CardWritable and Unmoved as in C67. stray_written_twice is the file whose first two writings differ.")
more("C37", "ecc_failed_mark")
more("C59", "row_cells")
more("C67", "parsed_card_rewritten showsCut_unique")
more("C70", "parsed_card_rewritten AgainExamples.stray_written_twice")
more("C40", "anonymize_holder_values anonymize_card_values anonymize_vehicle_written anonymize_vehiclesUsed_reparses anonymize_driver_card_reads")
more("C49", "activity_rebuild_written activity_rebuild_refused activity_rebuild_mixed activity_rebuild_stale_link")
more("C32", "driver_card_offline_iff parsed_gen1_offline_refused")
c("C71", "proved", "shared_vu_agrees vu_result_shares_buffer vu_result_shows_buffer signed_fields_shared activities_fields_shared overview_fields_shared gen2_fields_shared vu_append_overwrites_next vu_buffer_reused shared_card_agrees card_result_independent",
  "The raw bytes kept inside nested records, slices of the same transfer or elementary file, are not followed.")
c("C72", "proved", "verify_not_written verifyFile_not_written verify_after_verify verify_again verified_authority_iff verify_again_refused",
  "Finding: the reference inside the signed content is not compared with the one outside (verify_again_refused).")
c("C73", "proved", "kept_same kept_after kept_with_key kept_raw",
  "One verification after the other. Verifications that run at the same time and share a certificate without a key write to it without a lock, which Go leaves undefined; certificates with a key are only read (kept_with_key).")
c("C74", "proved", "file_cutDown card_cutDown card_any place_any gnss_any gnssAuth_any condition_any vehicle_any event_any appId_any appIdG2_any appIdV2_any ic_any gnssEntry_any unit_any change_any time_any time_fraction geo_any gnss_accuracy_refused gnssEntry_odometer_refused condition_refused registration_refused lowBits_of_fits signed24_of_fits cutTime_of_ok cutCode_of_named",
  "A finding more than a feature: nothing tells the caller that a value was cut. The functions that cut are in Spec/Reduce.lean.")
c("C75", "proved", "card_order card_order_icc_first card_damage card_signature_damage",
  "Finding: a card file whose first record is not EF_ICC is refused (card_order_icc_first). SameCardBut in Spec/Order.lean says what two messages share.")
c("C76", "proved", "card_cut_off vu_cut_off vu_cut_at_transfer CutOffExamples.vu_cut_off_version",
  "Finding: a second generation version 2 download that starts with detailed speed and is cut off after it is taken for version 1 (vu_cut_off_version).")
c("C77", "proved", "message_records message_activity day_size message_amplified",
  "Finding: overlapping days make a message many thousand times larger than the file (message_amplified). What is counted is in Spec/Size.lean; bytes in texts and raw fields are not counted, apart from the days kept undecoded. The Gen2 transfers of a vehicle unit are kept as raw bytes and count as one record each.")
more("C59", "cell_trimmed download_link_first certificate_name_path certificate_name_query")
more("C64", "root_entry_is root_download_iff list_download_iff finished_run_answered")
more("C66", "legacy_no_border_records")
c("C78", "proved", "card_join card_twice raw_card_join vu_join vu_join_refused vu_then_other",
  "Finding: files of two different cards are joined without notice, one message then mixes both. joinCards and JoinedVu are in Spec/Join.lean.")
c("C79", "proved", "card_alike_iff raw_card_alike_iff vu_alike_iff FidelityExamples.card_not_injective",
  "Finding: the full fidelity of the README holds up to the listed differences, which the message does not show (card_not_injective). AlikeCards, AlikeFiles and AlikeTransfers are in Spec/Fidelity.lean. Unshifted excludes event, fault and vehicle unit files so large that the scanner moves its buffer (C05).")
c("C80", "proved", "index_loads carried_utf8 carried_unique torn_refused index_after_run index_file_serves_gen1 index_file_serves_gen2 load_iff encode_document parse_iff document_unique print_grammar",
  "The JSON grammar and the meaning of strings are in Spec/Json.lean, apart from the model of encoding/json. load_iff covers every file, also with names given repeatedly and times with fractions and zones. Findings: of a list given more than once the items are laid over those given before, even over some that a shorter list in between had removed (example in Props/IndexRun.lean); an address that is not UTF-8 is changed in the index.")
more("C62", "identification_without_birthDate")
c("C82", "proved", "card_marks events_marked days_marked control_marked places_unmarked placesG2_unmarked anonymized_places_unmarked anonymized_placesG2_unmarked place_marks_not_written events_regulation",
  "The marks of a whole card, both applications. Finding: place records are never marked valid, although their message documents the mark for parsed records.")
c("C81", "proved", "issued_certificate_accepted root_issued_certificate_accepted accepted_iff_private can_issue genuine_gen1_application_verified "
  "signature_not_unique prescribed_certificate_read prescribed_accepted_iff issued2_accepted genuine_gen2_application_verified genuine_card_verified genuine_download_verified certificate_length",
  "How certificates are issued is transcribed from the regulation in Spec/Issuing.lean. RSA is proved correct with Mathlib's number theory; a key pair of 1024 bits with kernel checked primality shows that the hypotheses can be met. ECDSA stays abstract. Finding: first generation certificates have a second accepted form (signature_not_unique).")
c("C83", "proved", "concurrent_same concurrent_returns concurrent_key concurrent_after reordered_writes half_key rsaWrites_core",
  "Each access to a field of a shared certificate is one step, in one global order (the model is sequentially consistent); reordered_writes shows what another order of the writes does. Finding: the writes are not synchronised, a data race in Go; the outcome is right only because the exponent is written last.")
c("C84", "proved", "verification_rests_on verify_file_rests_on changed_file_unnoticed changed_signature_unnoticed borrowed_certificates",
  "Finding: no signature of a file is ever checked, and the holder of the certificate is not compared with the card number, so VerifyFile says that the download contains certificates signed by an authority and says nothing about the data.")
c("C85", "proved", "vu_damage vu_signature_damage overview_other_signature activities_other_signature vu_lost vu_lost_version",
  "vu_damage decides between acceptance and refusal exactly. Findings: signatures are not looked at; a lost transfer leaves no trace; one unreadable place or insertion record makes the whole download unreadable.")
more("C15", "bcdString_roundtrip_iff")
more("C30", "driver_card_reparses_iff driver_card_written_panics driver_card_overlong")
more("C52", "codePage_regulation entryType_documented")
more("C71", "append_read")
c("C86","proved","rewritten_certificates rewritten_verifies_alike rewritten_verifies_more RewrittenExamples.cert_verifies_alike RewrittenExamples.bare_card_passes_when_rewritten",
  "Cards read from a file (Unmoved as in C67). Finding: a card that only has, say, a Gen2 EF_Identification fails verification for lack of a certificate; its written copy passes.")
c("C87", "proved", "published_card_verified published_genuine1 published_genuine2 built_answers PublishedExamples.card_verified",
  "End to end: fetchMain, encodeIndex, the embedded files, loadIndex, the client, unmarshalFile and verifyFile together. `builtResolver` is DefaultCertificateResolver of a program built with the files the run left. `PublishedExamples.card_verified` is a run with an authority on each list and a card with a certificate of each.")
c("C88", "proved", "Schema.file_validates Schema.driver_card_validates Schema.vehicle_unit_validates Schema.anonymized_identification_validates Schema.anonymized_vehicles_validate Schema.valid_string_written Schema.valid_ia5_written",
  "The rules are those of the two annotated messages, stated in Spec/Schema.lean; `required` on the value is not represented (both parsers always set it).")
c("C89", "proved", "text_read_back_iff text_without_page_lost ia5_read_back_iff text_beyond_ascii_changed",
  "The character tables are a parameter; `SingleByte` says what is assumed of a table, and `latin1_singleByte` shows it for Latin-1. The equivalence is for texts each of whose bytes has a character in the table (ISO 8859-3 and 8859-7 have gaps).")
c("C90", "proved", "file_in_range driver_card_in_range vehicle_unit_in_range time_values odometer_values position_values change_values version_values date_values monthYear_values counter_values issuing_state_values issuing_state_undeclared file_beyond_regulation",
  "Spec/Ranges.lean lists the range of every number, time and enum number of the messages that parsing fills. Both generations of card files and the first generation of vehicle unit files are covered; the parsers of the second generation vehicle unit transfers keep bytes only. `file_beyond_regulation` is a whole file with values the regulation does not have.")
c("C91", "proved", "nil_entries_written nil_entries_unwritable nil_entries_no_panic nil_place_written nil_places_written nil_event_written nil_raw_record_written anonymize_places_nil anonymize_placesG2_nil anonymize_vehicles_nil",
  "Model/NullEntries.lean has the writers and anonymisers over lists with nil entries; Spec/NullEntries.lean says which message without nil entries a message stands for. The one panic left by `nil_entries_no_panic` is that of C22, which does not depend on nil entries.")
c("C92", "proved", "shared_answer shared_certificates shared_frame shared_untouched shared_key_filled shared_run_frame shared_marks shared_gen2_run shared_order_matters",
  "Model/Shared.lean has the verification of a driver card over a heap of certificates with arbitrary pointers. `shared_answer` is by comparison with Model/Verify.lean on copies; `shared_order_matters` is the finding, for any hash function.")
c("C93", "proved", "anonymize_places_separate anonymize_placesG2_separate anonymize_places_shown anonymize_placesG2_shown untouched_shows anonymize_place_shares anonymize_placeG2_shares shared_time_changes_both anonymize_vehicles_shares anonymize_vehicles_shown vehicles_untouched_shows shared_counter_changes_both",
  "Model/AnonymizeHeap.lean has the anonymisers of places over a heap of records, GNSS records and times; Model/AnonymizeObjects.lean that of the vehicles used, with all the objects a record contains. Model/AnonymizeIdent.lean has AnonymizeIdentification with all the objects of the message.")
more("C40", "anonymize_places_bytes anonymize_placesG2_bytes anonymize_vehicles_bytes")
more("C93", "anonymize_identification_distinct anonymize_identification_shares anonymize_identification_shared anonymize_identification_shown ident_untouched_shows shared_index_changes_both shared_language_changes_both")
more("C19","date_shown version_shown monthYear_shown")
more("C24","card_number_type")
more("C48","appIdV2_fields")
more("C59","certificate_file_name")
more("C48","event_layout")
more("C59","download_links_sound table_rows_in_iff")

