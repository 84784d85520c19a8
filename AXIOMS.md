# Axioms of the theorems in MANIFEST.json

Generated: `python3 scripts/axioms.py` (after `lake build` in lean).

### Classical.choice, Quot.sound, propext (658 theorems)

AgainExamples.stray_written_twice, CutOffExamples.vu_cut_off_version, FidelityExamples.card_not_injective, PublishedExamples.card_verified, RewrittenExamples.bare_card_passes_when_rewritten, RewrittenExamples.cert_verifies_alike, Schema.driver_card_validates, Schema.file_validates, Schema.valid_ia5_written, Schema.valid_string_written, Schema.vehicle_unit_validates, accepted_iff_private, aci_accepts_iff, aci_anonymize_time, aci_bits, aci_encode, aci_encode_decode, aci_roundtrip, activities_accepts_iff, activities_conforms_iff, activities_fields_shared, activities_iff, activities_other_signature, activities_regulation, activities_restored, activities_sliced, activities_total, activities_unknown_country_refused, activityLoop_fuel, activity_366_refused, activity_bounded, activity_complete, activity_conforms, activity_exact, activity_ok_iff, activity_outcome, activity_rebuild, activity_rebuild_366, activity_rebuild_file, activity_rebuild_mixed, activity_rebuild_written, activity_write_read, anonymize_driver_card_reads, anonymize_driver_card_reparses, anonymize_identification_distinct, anonymize_identification_shared, anonymize_identification_shares, anonymize_identification_shown, anonymize_placeG2_idem, anonymize_placeG2_iff, anonymize_placeG2_shares, anonymize_place_idem, anonymize_place_reparses, anonymize_placesG2_bytes, anonymize_placesG2_idem, anonymize_placesG2_iff, anonymize_placesG2_reparses, anonymize_placesG2_separate, anonymize_placesG2_shown, anonymize_places_bytes, anonymize_places_idem, anonymize_places_iff, anonymize_places_reparses, anonymize_vehicle_idem, anonymize_vehicle_reparses, anonymize_vehicle_written, anonymize_vehiclesUsed_idem, anonymize_vehiclesUsed_iff, anonymize_vehiclesUsed_reparses, anonymize_vehiclesUsed_size, anonymize_vehicles_bytes, anonymize_vehicles_shares, anonymize_vehicles_shown, anonymize_workshop_card_unreadable, appIdG2_accepts_iff, appIdG2_any, appIdG2_fields, appIdG2_missing, appIdG2_regulation, appIdG2_restores, appIdG2_total, appIdG2_write_read, appIdV2_accepts_iff, appIdV2_restores, appId_accepts_iff, appId_any, appId_fields, appId_missing, appId_regulation, appId_restores, appId_total, appId_write_read, appendControlActivity_appends, appendDriverIdentification_size, appendDrivingLicence_appends, appendFullCardNumberAndGeneration_size, appendFullCardNumberAsString_appends, appendFullCardNumber_size, appendIa5StringValue_size, appendIcc_appends, appendIdentification_appends, appendOwnerIdentification_size, appendVuCardIWRecord_exact, applicationIdentificationV2_misread, arrays_count, asn1Oid_iff, asn1Raw_iff, bcdString_roundtrip, bcdString_roundtrip_iff, bcd_encode_iff, bcd_roundtrip, blocks_iff_paired, blocks_named, borrowed_certificates, built_answers, can_issue, cardDownload_restores, cardDownload_write_read, cardIW_write_read, cardNumberGen_without_number, cardNumberGen_write_read, cardNumber_write_read, cardVehicleG2_roundtrip_iff, cardVehicleG2_vin_not_utf8, cardVehicleG2_vin_utf8_iff, cardVehicleG2_write_read, cardVehicle_roundtrip_iff, cardVehicle_write_read, card_alike_iff, card_any, card_cutDown, card_cut_off, card_damage, card_join, card_marks, card_number_type, card_order, card_signature_damage, card_twice, carried_unique, carried_utf8, cell_trimmed, certificate_file_name, certificate_name_path, certificate_name_query, change_any, change_values, changed_file_unnoticed, changed_signature_unnoticed, cleaned_iff, coded_regulation, company_card_mistaken, concurrent_after, concurrent_key, concurrent_returns, concurrent_same, condition_any, condition_write_read, conditionsG2_deleted_stay, conditionsG2_edit, conditionsG2_fit_write_read, conditionsG2_total, conditionsG2_write_read, conditions_total, conditions_write_read, conformant_activity_read, conformant_download_read, controlActivity_accepts_iff, controlActivity_fields, controlActivity_regulation, controlActivity_restores_iff, controlActivity_total, controlType_long_raw, control_card_recognised, control_marked, control_short, control_write_read, controlled_vehicle_refused, counter_values, currentUsage_regulation, currentUsage_restores_iff, currentUsage_total, currentUsage_without_vehicle, currentUsage_write_read, cutCode_of_named, dailyRecord_spec, date_roundtrip_iff, date_values, days_marked, decimal_spec, default_resolver_is_client, document_unique, download_link_first, download_link_sound, download_links_sound, download_ok_iff, downloads_finish, driverActivity_no_panic, driverActivity_roundtrip, driverId_write_read, driver_card_forgets, driver_card_iff, driver_card_in_range, driver_card_not_restored, driver_card_offline_iff, driver_card_overlong, driver_card_read_write_read, driver_card_recognised, driver_card_reparses, driver_card_reparses_iff, driver_card_roundtrip_iff, driver_card_second_write, driver_card_text_iff, driver_card_total, driver_card_verified_iff, driver_card_verify_effect, driver_card_verify_total, driver_card_wellformed, driver_card_with_ma_certificate, driver_card_without_icc, driver_card_write_panics, driver_card_write_read, driver_card_write_stable, driver_card_written_iff, driver_card_written_panics, drivingLicence_accepts_iff, drivingLicence_fields, drivingLicence_regulation, drivingLicence_restores_iff, ecc_append_restores, ecc_failed_mark, ecc_parse_iff, ecc_parse_ne_panic, ecc_stale_mark, ecc_unknown_curve_refused, ecc_verify_effect, ecc_verify_iff, ecc_verify_nil, embedded_lookup_iff, embedded_miss, embedded_never_finds, embedded_root, empty_card_verified, encode_document, enum_accepts_iff, enum_decode_encode, enum_encode_decode, enum_injective, eventRecord_regulation, event_any, event_layout, event_number_overwritten, event_without_begin, event_write_read, eventsG2V2_followed_refused, eventsG2V2_last_refused, eventsG2V2_refused, events_accepts_iff, events_fields, events_ok_iff, events_overwritten, events_regulation, events_restores_iff, events_total, events_write_read, example_finished, expiration_form, extendedSerialNumber_accepts_iff, extendedSerialNumber_fields, extendedSerialNumber_roundtrip_iff, failed_run_keeps_index, failed_run_loses_certificates, fetch_content_read, fetch_gen1_agrees, fetch_gen1_car_agrees, fetch_gen1_car_iff, fetch_gen2_agrees, fetch_gen2_car_iff, fetch_gen2_chr_iff, fetch_no_panic, fetch_recover_iff, fetch_root_iff, fileBytes_injective, file_beyond_regulation, file_cutDown, file_escapes, file_iff, file_in_range, file_panics_iff, file_raw_card_restored, file_text_iff, file_text_not_utf8, file_type, files_confined, finished_run, finished_run_answered, fullCardNumberAndGeneration_roundtrip_iff, fullCardNumber_accepts_iff, fullCardNumber_control_rejected, fullCardNumber_decode, fullCardNumber_driver_lost, fullCardNumber_nation_iff, fullCardNumber_roundtrip, fullCardNumber_roundtrip_iff, full_disk_loses_index, gen1_download_read_iff, gen1_indexed_iff, gen1_messages, gen1_product_spec, gen1_verified_iff, gen2_card_refused, gen2_indexed_iff, gen2_product_spec, gen2_root_never_used, gen2_transfer_arrays, gen2_transfer_restored, gen2_unreadable, gen2_verified_iff, genuine_card_verified, genuine_download_verified, genuine_gen1_application_verified, genuine_gen2_application_verified, geo_any, geo_encode_decode, geo_fields, geo_roundtrip, geo_write, gnssAuth_accepts_iff, gnssAuth_any, gnssAuth_fields, gnssAuth_roundtrip, gnssAuth_write_read, gnssEntry_accepts_iff, gnssEntry_any, gnssEntry_fields, gnssEntry_odometer_refused, gnssEntry_regulation, gnssEntry_restores_iff, gnssEntry_write_read, gnssPlaces_accepts_iff, gnssPlaces_ok_iff, gnssPlaces_regulation, gnssPlaces_restores_iff, gnssPlaces_total, gnssPlaces_write_read, gnss_accepts_iff, gnss_accuracy_refused, gnss_any, gnss_fields, gnss_regulation, gnss_roundtrip, gnss_write_read, half_key, holderName_without_surname, holderName_write_read, ia5_encode_decode, ia5_read_back_iff, ia5_text, ia5_utf8, ia5_value_iff, ia5_write, ic_regulation, icc_accepts_iff, icc_fields, icc_regulation, icc_restores, icc_without_embedder, icc_write_read, ident_untouched_shows, identification_accepts_iff, identification_cardType, identification_fields, identification_regulation, identification_restores_iff, identification_total, identification_without_birthDate, identification_without_firstNames, identification_write_read, index_after_run, index_complete, index_file_damaged, index_file_serves_gen1, index_file_serves_gen2, index_loads, index_not_reproducible, index_ordered, index_reproducible, index_same_holder_overwrites, index_serves_gen1, index_serves_gen2, index_torn, index_written_last, issued2_accepted, issued_certificate_accepted, issuing_state_values, iw_accepts_iff, iw_fields, iw_roundtrip_iff, kept_after, kept_raw, kept_same, kept_with_key, later_cell_removes_date, legacy_capacity, legacy_capacity_ok, legacy_gen1_conforming_iff, legacy_gen1_iff, legacy_gen1_misreads, legacy_gen1_one_change, legacy_gen1_panics_cap_iff, legacy_gen1_panics_iff, legacy_gen2_iff, legacy_gen2_panics_cap_iff, legacy_gen2_panics_iff, legacy_gen2_refuses_regulation, legacy_no_border_records, legacy_no_card_records, licence_without_authority, licence_without_number, licence_write_read, list_download_iff, load_iff, manufacturer_event_refused, marshalRecord_spec, marshal_driver_card, message_activity, message_amplified, message_records, messages_conform, monthYear_decode, monthYear_encode_decode, monthYear_roundtrip_iff, monthYear_shown, monthYear_values, monthYear_write, nil_entries_no_panic, nil_entries_unwritable, odometer_encode_decode, odometer_roundtrip, odometer_values, odometer_write, orphan_signature_refused, other_certificates_ignored, overview_accepts_iff, overview_appends, overview_conforms_iff, overview_control_card_refused, overview_fields_shared, overview_iff, overview_other_signature, overview_regulation, overview_restores_iff, overview_slots, overview_slots_wrong, overview_total, overview_writable_iff, overview_written, ownerId_write_read, page_date_read, page_date_sound, parseCurve_iff, parse_fileBytes, parse_iff, parsed_card_rewritten, parsed_card_write_total, parsed_card_written_iff, parsed_gen1_offline_refused, parsed_key_curve, placeG2_accepts_iff, placeG2_fields, placeG2_regulation, placeG2_roundtrip, placeG2_write_read, place_accepts_iff, place_any, place_fields, place_regulation, place_roundtrip, place_write_read, placesG2_accepts_iff, placesG2_ok_iff, placesG2_regulation, placesG2_restores, placesG2_total, placesG2_unmarked, placesG2_write_read, places_accepts_iff, places_ok_iff, places_regulation, places_restores, places_total, places_unmarked, places_write_read, position_values, prescribed_accepted_iff, prescribed_certificate_read, previousVehicleG2_accepts_iff, previousVehicleG2_fields, previousVehicleG2_roundtrip_iff, previousVehicleG2_write_read, previousVehicle_roundtrip_iff, previousVehicle_write_read, print_grammar, published_card_verified, published_genuine1, published_genuine2, raw_card_accepts_iff, raw_card_alike_iff, raw_card_join, raw_card_marshal_unmarshal, raw_card_no_panic_fails, raw_card_no_panic_if, raw_card_no_panic_short, raw_card_panics_iff, raw_card_roundtrip, raw_card_truncated, readInt24_spec, reads_exists, reads_unique, registration_fields, registration_out_length, registration_roundtrip, registration_roundtrip_iff, registration_write_read, regulation_download_cut, reordered_writes, retained_iff, retained_moved_at, retained_safe, rewritten_certificates, rewritten_verifies_alike, rewritten_verifies_more, root_download_iff, root_entry_is, root_entry_reference, root_issued_certificate_accepted, root_parse_iff, root_parse_total, row_cells, row_read, row_skipped_iff, rsa_append_iff, rsa_append_restores, rsa_core_iff, rsa_failure_effect, rsa_mark_iff, rsa_parse_iff, rsa_parse_total, rsa_parsed_authority_has_no_key, rsa_reference_injective, rsa_stale_mark, rsa_total, rsa_verify_ca_iff, rsa_verify_root_iff, scan_fixed, scanner_refines_chunks, scanner_tokens_prefix, serial_write_read, shared_answer, shared_certificates, shared_counter_changes_both, shared_frame, shared_gen2_run, shared_key_filled, shared_marks, shared_order_matters, shared_run_frame, shared_untouched, shipped_not_found, showsCut_unique, signature_not_unique, signed_part_of_parsed, specificCondition_accepts_iff, specificCondition_fields, specificCondition_regulation, specificCondition_roundtrip, specificConditionsG2_accepts_iff, specificConditionsG2_ok_iff, specificConditionsG2_regulation, specificConditionsG2_restores, specificConditions_accepts, specificConditions_ok_iff, specificConditions_regulation, specificConditions_restores, stringValue_text, stringValue_utf8, stringValue_value_iff, table_rows_iff, table_rows_in_iff, technicalG2V1_refused, text_read_back_iff, text_write, timeReal_encode_decode, timeReal_roundtrip, time_any, time_fraction, time_values, time_write, torn_refused, unit_any, unit_write_read, unmarshalArrays_iff, valid_certificate_left_out, vehicleG2_regulation, vehicleUnits_accepts_iff, vehicleUnits_ok_iff, vehicleUnits_overwritten, vehicleUnits_regulation, vehicleUnits_restores, vehicleUnits_total, vehicleUnits_write_read, vehicle_any, vehicle_regulation, vehicle_unit_in_range, vehicle_unit_text, vehiclesUsedG2_restores_iff, vehiclesUsedG2_total, vehiclesUsedG2_write_read, vehiclesUsed_restores_iff, vehiclesUsed_total, vehiclesUsed_write_read, verification_rests_on, verified_authority_iff, verifyFile_not_written, verify_after_verify, verify_again, verify_again_refused, verify_file_effect, verify_file_iff, verify_file_refused, verify_file_rests_on, verify_nil_card, verify_not_written, version_values, vu_alike_iff, vu_cut_at_transfer, vu_cut_off, vu_cut_unique, vu_damage, vu_file_iff, vu_file_panics_iff, vu_homogeneous, vu_join, vu_join_refused, vu_lost, vu_lost_version, vu_mixture_refused, vu_no_panic_complete, vu_no_panic_fails, vu_panics_iff, vu_partition, vu_short_overview_panics, vu_signature_damage, vu_slices_iff, vu_then_other, witness_served, workshop_card_recognised, year_refused

### Quot.sound, propext (234 theorems)

Schema.anonymized_identification_validates, Schema.anonymized_vehicles_validate, aci_decode, activity_rebuild_pointer, activity_rebuild_refused, activity_rebuild_stale_link, anonymize_activity_values, anonymize_card_values, anonymize_holder_values, anonymize_identification_idem, anonymize_identification_iff, anonymize_placeG2_values, anonymize_place_iff, anonymize_place_shares, anonymize_place_values, anonymize_placesG2_nil, anonymize_places_nil, anonymize_places_separate, anonymize_places_shown, anonymize_vehicle_iff, anonymize_vehicle_raw, anonymize_vehicle_values, anonymize_vehicles_nil, anonymized_placesG2_unmarked, anonymized_places_unmarked, appIdV2_any, appIdV2_fields, appIdV2_total, appIdV2_write_read, appendAppIdG2_appends, appendAppId_appends, appendBcdString_size, appendCardIc_appends, appendCardStructureVersion_exact, appendCardVehicleRecordG2_exact, appendCardVehicleRecord_exact, appendControlType_exact, appendCurrentUsage_appends, appendDate_exact, appendDriverActivity_appends, appendEventRecord_appends, appendEventsData_appends, appendExtendedSerialNumber_exact, appendGNSSPlaceRecord_exact, appendGnssPlaceEntry_exact, appendGnssPlaces_appends, appendGnssPlaces_exact, appendHolderName_size, appendMonthYear_exact, appendPlaceRecordG2_exact, appendPlaceRecord_exact, appendPlacesG2_appends, appendPlacesG2_exact, appendPlaces_appends, appendPlaces_exact, appendPreviousVehicleInfoG2_exact, appendPreviousVehicleInfo_exact, appendSpecificConditionsG2_appends, appendSpecificConditionsG2_fresh, appendSpecificConditionsG2_one_byte, appendSpecificConditions_appends, appendSpecificConditions_exact, appendStringValue_size, appendVehicleRegistration_size, appendVehicleUnitRecord_exact, appendVehicleUnitsUsed_exact, appendVehicleUnits_appends, appendVehiclesUsedG2_appends, appendVehiclesUsedG2_exact, appendVehiclesUsed_appends, appendVehiclesUsed_exact, append_read, bcdString_five_bytes_lost, bcd_decode_iff, bcd_encode_decode, bcd_pair_value, bcd_write, cardDownload_accepts_iff, cardDownload_fields, cardDownload_regulation, cardDownload_total, cardStructureVersion_encode_decode, cardStructureVersion_roundtrip_iff, cardVehicleG2_accepts_iff, cardVehicleG2_fields, cardVehicleG2_vin, cardVehicleG2_vin_exact, cardVehicle_accepts_iff, cardVehicle_fields, card_order_icc_first, card_result_independent, certificate_length, chain_assoc, chain_err_iff, chain_ok_iff, chain_resolver_ok_iff, client_no_root, client_ok_iff, client_requests, codePage_regulation, codePage_roundtrip, company_card_is_driver, condition_refused, controlActivity_unused, controlType_clear_no_effect, controlType_decode, controlType_edit, controlType_encode_decode, controlType_roundtrip, control_empty, control_flag_stays, control_flags_fresh, currentUsage_accepts_iff, currentUsage_fields, cutTime_of_ok, date_encode_decode, date_encode_modulo, date_shown, date_write, dates_wrong_length, day_size, download_without_icc_refused, downloads_within_limit, driverActivity_decode, driverActivity_four, driverIdentification_accepts_iff, driverIdentification_fields, driverIdentification_roundtrip, driver_card_gen2_not_written, driver_card_order, driver_card_signatures_zero, drivingLicence_total, ecc_append_iff, enum_never_unspecified, events_marked, file_driver_card_written, file_other_not_written, file_refused, file_vehicle_unit_not_written, findEntry_iff, fullCardNumberAndGeneration_decode, gen2_fields_shared, generations_agree, geo_accepts_iff, holderName_accepts_iff, holderName_fields, holderName_roundtrip_iff, ia5_accepts_iff, ia5_build, ia5_length, ia5_refused, ia5_roundtrip, ic_accepts_iff, ic_any, ic_fields, ic_restores, ic_total, ic_write_read, ic_written, icc_total, ignored_files, infer_depends_on_data_files, infer_driver_iff, infer_first_match, infer_ignores_signatures, infer_never_company, infer_no_data, isDecimal_unique, legacy_bad_offset, legacy_nil_target, legacy_other_generation, legacy_rest, limited_run_is_schedule, mapFid_never_cardMa, mapFid_regulation, mapFid_unknown, nil_entries_written, nil_event_written, nil_place_written, nil_places_written, nil_raw_record_written, overview_shape_unique, ownerIdentification_accepts_iff, ownerIdentification_fields, ownerIdentification_roundtrip, parse_command_crash, parse_command_err_iff, parse_command_ok_iff, place_marks_not_written, placesG2_raw_irrelevant, places_raw_irrelevant, previousVehicle_accepts_iff, previousVehicle_fields, registration_accepts_iff, registration_refused, rsaWrites_core, rsa_verify_total, shared_card_agrees, shared_index_changes_both, shared_language_changes_both, shared_time_changes_both, shared_vu_agrees, signed24_of_fits, signed_fields_shared, signed_transfer_restored, specificConditions_raw_irrelevant, stored_many, stringValue_accepts_iff, stringValue_bad_raw, stringValue_build, stringValue_length, stringValue_roundtrip, stringValue_roundtrip_known, stringValue_unknown_lost, text_without_page_lost, timeReal_accepts_iff, timeReal_nanos, timeReal_value, transfer_append_iff, unfilled_unique, vehiclesUsedG2_accepts_iff, vehiclesUsedG2_ok_iff, vehiclesUsedG2_raw_irrelevant, vehiclesUsedG2_regulation, vehiclesUsed_accepts_iff, vehiclesUsed_ok_iff, vehiclesUsed_raw_irrelevant, vehiclesUsed_regulation, version_shown, vu_append_overwrites_next, vu_buffer_reused, vu_result_shares_buffer, vu_result_shows_buffer, written_fid

### none (10 theorems)

anonymize_activity_idem, anonymize_gnss_idem, anonymize_gnss_values, enumTables_ok, issuing_state_undeclared, mapFid_table, stringValue_nil, text_edit_ignored, vehicles_untouched_shows, writing_order_nodup

### propext (52 theorems)

aci_anonymize_noninterference, activities_shape_unique, activity_straddle_lost, anonymize_activity_iff, anonymize_driver_iff, anonymize_driver_value, anonymize_gnss_iff, anonymize_place_raw, appendActivityChangeInfo_exact, appendAppIdV2_appends, appendCardDownload_appends, appendFullCardNumberAndGeneration_not_fixed, appendGNSSPlaceAuthRecord_exact, appendGeoCoordinates_exact, appendHolderName_not_fixed, appendOdometer_exact, appendSpecificConditionRecord_exact, appendSpecificConditionsG2_panics, appendTimeReal_exact, appendVehicleRegistration_not_fixed, appendsExactly_result, bcd_no_panic, blocks_unique, calibrationPurpose_regulation, cardSlotNumber_regulation, clockStop_regulation, companyActivityType_regulation, dayOf_unique, downloads_hang, driverActivityValue_regulation, drivingStatus_regulation, entryType_documented, equipmentType_regulation, eventFaultRecordPurpose_regulation, eventFaultType_regulation, generation_from_version, legacy_gnss_enum, legacy_place_enums, loadType_regulation, lowBits_of_fits, missing_text, odometer_accepts_iff, operationType_regulation, positionAuthenticationStatus_regulation, rest_of_world, slotCardType_regulation, specificConditionType_regulation, text_beyond_ascii_changed, timeReal_no_panic, timeReal_wraps, transfer_append_total, untouched_shows

