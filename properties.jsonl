{"id": "C01", "title": "Raw card file: parse then serialise is the identity", "statement": "Whenever UnmarshalRawCardFile accepts a byte string, MarshalRawCardFile of the result returns exactly that byte string, and every field of every record (tag, length, value, content type, generation) is the one encoded in the bytes.", "quantifier": "every byte string of every length, including ones that cross the scanner's internal buffer boundaries", "why_tests_cant": "Golden tests sample a handful of downloads; fidelity must hold for every TLV layout and for every position of a record relative to bufio.Scanner's refill and grow points.", "anchors": ["internal/card/rawcardfile.go: UnmarshalRawCardFile, MarshalRawCardFile, scanCardFile, unmarshalRawCardFileRecord"]}
{"id": "C02", "title": "Raw card file: serialise then parse recovers the records", "statement": "For every list of records whose tag fits 24 bits and whose length field equals the value length and is at most 65530, MarshalRawCardFile followed by UnmarshalRawCardFile succeeds and yields the same tags, lengths and values in the same order.", "quantifier": "every finite list of well-formed records", "why_tests_cant": "The record list and value sizes are unbounded combinations.", "anchors": ["internal/card/rawcardfile.go: MarshalRawCardFile, UnmarshalRawCardFile"]}
{"id": "C03", "title": "Raw card file: exact acceptance set and crash freedom", "statement": "UnmarshalRawCardFile accepts exactly the concatenations of complete TLV records whose value is at most 65530 bytes; a truncated file is rejected with an error and no partial result; the call panics exactly when the complete records it can read are followed by a complete record of exactly 65531 bytes (a defect: 5+length wraps in uint16; a user would expect no panic), so it never panics on a file shorter than 65536 bytes.", "quantifier": "every byte string", "why_tests_cant": "Fuzzing would have to hit one of 65536 lengths with a 64 KiB body; and completeness of the acceptance set is a universal statement.", "anchors": ["internal/card/rawcardfile.go:UnmarshalRawCardFile"]}
{"id": "C04", "title": "Scanner-based record splitting does not depend on buffering", "statement": "Reading an EF through bufio.Scanner delivers, at each Scan, exactly the next record of the pure split of the whole input, no matter how the scanner shifts, grows or refills its buffer; a record longer than the scanner's 65536-byte limit is an error, not a truncation.", "quantifier": "every input, every split function that is stable under more data, every internal buffer state", "why_tests_cant": "Buffer shift/grow schedules depend on the whole prefix of the input.", "anchors": ["internal/card/rawcardfile.go", "internal/card/events.go", "internal/card/faults.go", "internal/card/vehicles_used.go", "internal/card/vehicle_units_used.go", "bufio.Scanner (Go standard library)"]}
{"id": "C05", "title": "Raw bytes kept in parsed records stay equal to the input exactly for stated sizes", "statement": "What a parsed record keeps of its input (the raw_data of unused event/fault records and of their registration numbers; the device id and software version of vehicle units) equals the record's own bytes after the whole EF has been parsed, for every content, exactly when the EF's size is one for which bufio.Scanner never moves data over delivered records: at most 4096 bytes, and either no partial record at the end or the whole records end within the first 2048 bytes. For every other size the first record ends up showing later bytes of the file. Fields that are decoded rather than kept are right for all sizes.", "quantifier": "every EF content; every point at which the scanner moves data inside its buffer", "why_tests_cant": "Needs aliasing of a mutable buffer across an unbounded loop; the test files are all below the corrupting size.", "anchors": ["internal/card/events.go: unmarshalEventsData, unmarshalEventRecord", "internal/card/faults.go", "internal/card/vehicle_units_used.go", "internal/dd/string_value.go"]}
{"id": "C06", "title": "UnmarshalFile dispatches on the leading bytes only", "statement": "UnmarshalFile treats a file as a vehicle-unit file iff its first byte is 0x76, as a card file iff its first two bytes are 0x0002, and returns an error for everything else and for inputs shorter than two bytes; the type field of a successful result matches the populated variant.", "quantifier": "every byte string", "why_tests_cant": "The input space is unbounded.", "anchors": ["unmarshal.go: UnmarshalFile"]}
{"id": "C07", "title": "Exactly when UnmarshalFile panics", "statement": "UnmarshalFile should return a value or an error for every input. It does not: it panics for exactly two kinds of input. One is a vehicle-unit download that contains, after complete transfers, a transfer whose next record count or array header lies behind the end of the data (for example the two bytes 76 01). The other is a card file that contains, after complete records, a record of exactly 65531 bytes. On every other input it returns a value or an error.", "quantifier": "every byte string", "why_tests_cant": "Crash freedom is a universal statement over inputs.", "anchors": ["internal/vu/overview.go: sizeOfOverviewGen1", "internal/vu/raw_vehicle_unit_file.go: sizeOfRecordArray, unmarshalRawVehicleUnitFile", "internal/vu/events_faults.go", "internal/vu/activities.go", "internal/vu/technical_data.go", "unmarshal.go: UnmarshalFile"]}
{"id": "C08", "title": "Vehicle-unit slicing partitions the input", "statement": "When the raw VU pass succeeds, the input is exactly the concatenation, in order, of each record's two tag bytes and its value; every tag is one of the 16 known TREP tags and the record's type and generation are those of the tag; no byte is skipped, duplicated or reinterpreted.", "quantifier": "every byte string accepted by the raw pass", "why_tests_cant": "Value lengths are computed by walking the content, so the offsets depend on all of the preceding bytes.", "anchors": ["internal/vu/raw_vehicle_unit_file.go: unmarshalRawVehicleUnitFile", "internal/vu/vehicle_unit_file.go: findTransferTypeByTag"]}
{"id": "C09", "title": "Which Gen2 vehicle-unit downloads parse", "statement": "A download made of well-formed Gen2 transfers of every kind should be parsed. It is not: the size pass and the parse pass disagree on the number of record arrays in Activities, Events-and-Faults and Technical-Data of both Gen2 versions, so every complete download containing one of these six transfers is rejected with an error. The accepted Gen2 downloads are exactly the non-empty sequences of Overview and Detailed-Speed of version 1, or of Download-Interface-Version, Overview and Detailed-Speed of version 2.", "quantifier": "every byte string containing such a transfer", "why_tests_cant": "That no input whatsoever is accepted cannot be established by sampling.", "anchors": ["internal/vu/activities.go: sizeOfActivitiesGen2V1/V2", "internal/vu/activities_gen2_v1.go", "internal/vu/activities_gen2_v2.go", "internal/vu/events_faults.go", "internal/vu/events_faults_gen2_v1.go", "internal/vu/events_faults_gen2_v2.go", "internal/vu/technical_data.go", "internal/vu/technical_data_gen2_v1.go", "internal/vu/technical_data_gen2_v2.go"]}
{"id": "C10", "title": "A parsed VU file is generation-homogeneous", "statement": "If UnmarshalVehicleUnitFile succeeds then every transfer in the file belongs to the generation/version reported in the result (Gen2 detailed speed is shared by both versions), the order of the repeated transfers is preserved, and a file with a card-download transfer or with mixed generations is rejected.", "quantifier": "every byte string", "why_tests_cant": "Quantifies over all transfer sequences.", "anchors": ["internal/vu/vehicle_unit_file.go: unmarshalVehicleUnitFile, hasGen2V2Transfers, unmarshalVehicleUnitFileGen1/Gen2V1/Gen2V2"]}
{"id": "C11", "title": "MarshalFile of a parsed file reproduces it, or fails loudly", "statement": "For every file that UnmarshalFile accepts: a raw-card result marshals back to the identical bytes; a vehicle-unit result never marshals to wrong bytes: MarshalFile always returns an error for it.", "quantifier": "every accepted byte string", "why_tests_cant": "Universal round-trip statement.", "anchors": ["marshal.go: MarshalFile", "internal/vu/vehicle_unit_file.go: MarshalVehicleUnitFile, appendVU", "internal/card/rawcardfile.go"]}
{"id": "C12", "title": "Card type inference", "statement": "InferFileType returns the first card type, in declaration order, whose file structure contains the file of every DATA record; signature records never matter; the answer does not depend on record order or repetition; a file with no DATA records is UNSPECIFIED; a card file is parsed as a driver card iff all of its DATA files are in the driver-card structure.", "quantifier": "every list of records", "why_tests_cant": "The list is unbounded; order independence is a universal statement.", "anchors": ["internal/card/infer.go", "proto/wayplatform/connect/tachograph/card/v1/card_type.proto"]}
{"id": "C13", "title": "TimeReal codec", "statement": "UnmarshalTimeReal accepts exactly the 4-byte inputs; AppendTimeReal of its result restores the same 4 bytes; conversely every whole-second timestamp in 1..2^32-1 survives encode-decode; a timestamp with fractional seconds is refused; times outside the range silently wrap modulo 2^32.", "quantifier": "every byte string / every timestamp", "why_tests_cant": "32-bit domain plus all out-of-range timestamps.", "anchors": ["internal/dd/time_real.go: UnmarshalTimeReal, AppendTimeReal"]}
{"id": "C14", "title": "Odometer codec", "statement": "UnmarshalOdometer accepts exactly 3-byte inputs and AppendOdometer restores the same bytes; every value below 2^24 survives encode-decode; larger values are reduced modulo 2^24.", "quantifier": "every byte string / every uint32", "why_tests_cant": "24-bit domain and the truncated rest.", "anchors": ["internal/dd/odometer.go"]}
{"id": "C15", "title": "BCD codec", "statement": "Decoding a BCD byte string succeeds exactly when all nibbles are decimal digits (and the value fits int64) and then encoding the value with the same length restores the bytes; encoding a value that needs more digits than available, or a negative value, is an error; decode after encode returns the value.", "quantifier": "every byte string of every length / every value and length", "why_tests_cant": "Unbounded lengths.", "anchors": ["internal/dd/bcd.go: decodeBCD, appendBCD", "internal/dd/bcd_string.go"]}
{"id": "C16", "title": "Signed 24-bit coordinates", "statement": "UnmarshalGeoCoordinates sign-extends two big-endian 24-bit fields and AppendGeoCoordinates restores the same six bytes; every coordinate in [-2^23, 2^23) survives encode-decode.", "quantifier": "every 6-byte input / every coordinate pair", "why_tests_cant": "48-bit domain.", "anchors": ["internal/dd/geo_coordinates.go"]}
{"id": "C17", "title": "ActivityChangeInfo codec", "statement": "UnmarshalActivityChangeInfo followed by AppendActivityChangeInfo is the identity on all 2-byte inputs, the decoded fields are the bit fields s, c, p, aa and t of the regulation, and every field combination with time below 2048 survives encode-decode.", "quantifier": "every 16-bit word", "why_tests_cant": "65536 words times the field-level statement; tests sample a few.", "anchors": ["internal/dd/activity_change_info.go"]}
{"id": "C18", "title": "Protocol enum mapping", "statement": "For each enum used in the formats, the protocol value of every named enum value is unique, decoding a byte then encoding it restores the byte whenever the byte is known, encoding then decoding a named value restores the value, and an unknown byte is reported rather than aliased to a named value.", "quantifier": "every enum table and every byte", "why_tests_cant": "Covers all 256 bytes for each table.", "anchors": ["internal/dd/enum.go: UnmarshalEnum, MarshalEnum", "proto/wayplatform/connect/tachograph/dd/v1/*.proto"]}
{"id": "C19", "title": "Dates restore their bytes exactly under a stated condition", "statement": "A date shows the year, month and day its decimal digits spell (two bytes, one byte, one byte), a structure version its major and minor number, a month and year the month and the year from 2000 on (00 00 and other digits: nothing). For Datef and MonthYear, parse then append restores the input bytes iff every nibble is a decimal digit; for CardStructureVersion iff both low nibbles are decimal digits; a well-formed calendar value survives encode-decode.", "quantifier": "every 4-, 2- and 2-byte input", "why_tests_cant": "Domain of 2^32 inputs.", "anchors": ["internal/dd/date.go", "internal/dd/month_year.go", "internal/dd/card_structure_version.go"]}
{"id": "C20", "title": "Code-page strings keep their bytes", "statement": "For every input of at least two bytes with a known code page, UnmarshalStringValue then AppendStringValue returns the same bytes; for an unknown code page the first byte is replaced by 0xFF (found: the original code page is lost); appending any value built without raw bytes writes exactly 1+length bytes or an error.", "quantifier": "every byte string / every string value message", "why_tests_cant": "Unbounded strings.", "anchors": ["internal/dd/string_value.go"]}
{"id": "C21", "title": "IA5 strings keep their bytes", "statement": "UnmarshalIa5StringValue then AppendIa5StringValue is the identity on every non-empty input; a hand-built value is space-padded to its length, or refused when too long or when the length is missing; a length that contradicts raw_data is refused.", "quantifier": "every byte string / every message", "why_tests_cant": "Unbounded strings.", "anchors": ["internal/dd/ia5_string_value.go"]}
{"id": "C22", "title": "Append functions extend their destination by a fixed amount", "statement": "Every Append function of a fixed-size type, when it succeeds, returns its destination unchanged as a prefix followed by exactly the regulation-defined number of bytes, for every destination and every message value. The size of a holder name, a registration, and a card number is that number only if the length fields of their strings say so (found: without names the 72 byte holder name is two bytes long, a registration number with another length makes the 15 byte registration longer, and without a card number the 19 byte number with generation is one byte). The writers of the elementary files extend their destination, fail or, for a Gen2 specific conditions file with exactly one retained byte, panic; they never change what is already there.", "quantifier": "every destination buffer and every message value", "why_tests_cant": "Universal over message values, including hand-built ones.", "anchors": ["internal/dd/*.go Append functions"]}
{"id": "C23", "title": "Composite records restore their bytes", "statement": "For PlaceRecord, PlaceRecordG2, GNSSPlaceRecord, GNSSPlaceAuthRecord, CardVehicleRecord(+G2), PreviousVehicleInfo(+G2), SpecificConditionRecord, VehicleRegistration, HolderName and ExtendedSerialNumber, parse then append returns the same bytes under an explicit condition (known nation, known code page, 0/1 flags); each condition is shown necessary by a counterexample.", "quantifier": "every input of the record size", "why_tests_cant": "Byte-domain of 10 to 129 bytes.", "anchors": ["internal/dd/place_record.go", "internal/dd/place_record_g2.go", "internal/dd/gnss_place_record.go", "internal/dd/gnss_place_auth_record.go", "internal/dd/card_vehicle_record.go", "internal/dd/previous_vehicle_info.go", "internal/dd/specific_condition_record.go", "internal/dd/vehicle_registration.go", "internal/dd/holder_name.go", "internal/dd/extended_serial_number.go"]}
{"id": "C24", "title": "Card numbers survive a round trip", "statement": "UnmarshalFullCardNumber then AppendFullCardNumber returns the same 18 bytes. (Found false: a driver card's replacement and renewal index bytes become 00 00, and control cards are rejected; it holds for workshop and company cards.) The first byte decides whether the number is reported as that of a driver, workshop or company card, and with it whether a driver or an owner number is reported.", "quantifier": "every 18-byte input", "why_tests_cant": "All card types and index values.", "anchors": ["internal/dd/full_card_number.go", "internal/dd/driver_identification.go", "internal/dd/owner_identification.go"]}
{"id": "C25", "title": "Driver activity iteration terminates and is bounded", "statement": "For every buffer and every newest-record pointer the cyclic record walk terminates, returns at most 365 records (a longer chain is an error), reads only bytes of the buffer, and never panics.", "quantifier": "every buffer, every chain of previous-record pointers including cyclic ones", "why_tests_cant": "Adversarial pointer chains may loop; termination is universal.", "anchors": ["internal/card/activity.go: cyclicRecordIterator"]}
{"id": "C26", "title": "Driver activity records are returned oldest first and complete", "statement": "Laying out any sequence of up to 365 daily records in the cyclic buffer (with correct current/previous lengths) and parsing returns exactly those records, oldest first, provided no record header straddles the buffer end. (Found: a header that straddles the end, or a chain of exactly 366 records, loses the records or fails.)", "quantifier": "every record sequence, buffer size and rotation", "why_tests_cant": "Unbounded combinations of record lengths and wrap positions.", "anchors": ["internal/card/activity.go"]}
{"id": "C27", "title": "Driver activity bytes survive a round trip", "statement": "For every EF_Driver_Activity_Data content that parses, appending the parsed message returns the same bytes.", "quantifier": "every byte string that parses", "why_tests_cant": "Universal round trip.", "anchors": ["internal/card/activity.go: unmarshalDriverActivityData, appendDriverActivity"]}
{"id": "C28", "title": "EF codecs: exact round trip or precise loss", "statement": "For each driver-card EF codec (ICC, IC, application identification G1/G2/V2, identification, driving licence, card download, events, faults, vehicles, places, current usage, control activity, specific conditions, GNSS places, vehicle units) parse then append returns the same bytes on a stated set of inputs and the loss outside it is characterised (e.g. trailing partial records are dropped).", "quantifier": "every byte string", "why_tests_cant": "Universal per codec.", "anchors": ["internal/card/*.go"]}
{"id": "C29", "title": "Driver card: signature pairing and routing", "statement": "When a raw card file is parsed as a driver card, each data record is stored in the DF given by its generation bit, a signature record is attached to the data record immediately before it with the same file, an orphan signature is an error, files outside the table are ignored, and for repeated files the last one wins.", "quantifier": "every list of raw records", "why_tests_cant": "Unbounded record sequences.", "anchors": ["internal/card/driver_card_file.go: unmarshalDriverCardFile"]}
{"id": "C30", "title": "Driver card: marshalled output is a well-formed card file", "statement": "Whenever MarshalDriverCardFile succeeds its output is a concatenation of complete TLV records, each signed EF followed by its signature block, in a fixed EF order independent of the input order; it is read back record by record exactly when every EF has at most 65530 bytes. (Found: larger files are written without an error; one of 65531 bytes makes the reader panic, and one of 65536 bytes or more is taken for a shorter file followed by other records.)", "quantifier": "every driver card message", "why_tests_cant": "All messages, including hand-built ones.", "anchors": ["internal/card/driver_card_file.go:appendDriverCard"]}
{"id": "C31", "title": "Driver card: signatures and Gen2 EFs survive unmarshal-marshal", "statement": "UnmarshalFile then MarshalFile preserves the signatures and every EF of a driver card. (Found false: signatures are replaced by 128 zero bytes and eight Gen2 EFs are not written.)", "quantifier": "every driver card file", "why_tests_cant": "The counterexample class is universal: no card with a nonzero signature round-trips.", "anchors": ["internal/card/driver_card_file.go"]}
{"id": "C32", "title": "VerifyFile success means the chain was checked", "statement": "For a driver card file and any resolver, VerifyFile returns nil only if every card certificate present was validated with the key of the CA certificate the resolver returned for its CAR, and (Gen1, CA without key) that CA was validated with the root key; it always returns nil without any check for vehicle-unit and raw-card files.", "quantifier": "every file, every resolver behaviour, every hash/ECDSA function", "why_tests_cant": "Quantifies over resolver histories and crypto outcomes.", "anchors": ["verify.go: VerifyFile", "internal/card/driver_card_file.go: VerifyDriverCardFile"]}
{"id": "C33", "title": "RSA certificate verification is exactly the ISO 9796-2 check", "statement": "VerifyRsaCertificateWithCA returns nil iff the CAR' suffix equals the CA's holder reference and sig^e mod n has header 6A, trailer BC and the SHA-1 of recovered||plain content; on success the holder reference, modulus, exponent and validity are the fields of the verified content and signature_valid is true.", "quantifier": "every certificate, key and hash function", "why_tests_cant": "2^1024 signatures; key and hash unbounded.", "anchors": ["internal/security/rsa_verify.go: verifyRsaCertificate"]}
{"id": "C34", "title": "What a failed RSA verification does to signature_valid", "statement": "A verification call that returns an error changes no field except signature_valid; it sets that to false whenever the certificate has 194 bytes and the authority has a key, and leaves it as it was otherwise. (Finding: so an earlier true value survives a failed call whose authority has no key.)", "quantifier": "every certificate state and key", "why_tests_cant": "State of the certificate before the call is arbitrary.", "anchors": ["internal/security/rsa_verify.go"]}
{"id": "C35", "title": "Fixed-size certificates: parse and append", "statement": "UnmarshalRsaCertificate accepts exactly 194-byte inputs and AppendRsaCertificate returns them unchanged; UnmarshalRootCertificate accepts exactly 144 bytes and exposes the key id, modulus and exponent at their offsets; references print as decimal and are injective.", "quantifier": "every byte string", "why_tests_cant": "Universal.", "anchors": ["internal/security/rsa_certificate.go", "internal/security/root_certificate.go"]}
{"id": "C36", "title": "ECC certificate parsing is total and bounded", "statement": "UnmarshalEccCertificate never panics, rejects everything outside 204..341 bytes, and on success all extracted fields are contiguous parts of the input and the append of the result is the input. (Found: no tag is checked, so reordered or differently tagged elements are accepted.)", "quantifier": "every byte string", "why_tests_cant": "DER length encodings are adversarial.", "anchors": ["internal/security/ecc_certificate.go", "encoding/asn1 (Go standard library)"]}
{"id": "C37", "title": "ECC verification uses the CA's curve and the matching hash", "statement": "VerifyEccCertificateWithCA returns nil iff ECDSA verification with the CA's public point, the curve of the CA's OID and the hash of that curve's size succeeds over the certificate body including its header; unknown OIDs are refused; signature_valid equals the outcome once the signature is looked at, a certificate without a signature is marked as not valid, and a failed verification never sets the mark.", "quantifier": "every certificate pair and every ECDSA/hash function", "why_tests_cant": "Crypto outcomes are arbitrary.", "anchors": ["internal/security/ecc_verify.go"]}
{"id": "C38", "title": "Chain resolver returns the first success", "statement": "A ChainResolver returns the answer of the first resolver that succeeds, asks no later resolver, and fails only when all fail; nesting chains is associative.", "quantifier": "every list of resolvers and every behaviour", "why_tests_cant": "Unbounded lists.", "anchors": ["internal/cert/chain.go"]}
{"id": "C39", "title": "Embedded certificates cannot be found by their reference", "statement": "The embedded resolver looks for the file <reference>.bin, but the embedded files carry the directory prefix g1/ or g2/; so for every reference the library can report (decimal) and every embedded file set it returns an error, the default resolver then answers exactly as the remote client does, and only the root certificate is served from the embedded data.", "quantifier": "every CHR and every embedded file set", "why_tests_cant": "Universal miss cannot be shown by sampling.", "anchors": ["internal/cert/certcache/embed.go: ReadG1, ReadG2", "internal/cert/embedded.go"]}
{"id": "C40", "title": "Anonymisation keeps exactly the documented information", "statement": "For each anonymiser: two inputs give the same anonymised record if and only if they agree on an explicit list of kept fields (nothing else leaks, nothing listed is lost); anonymising twice is the same as once; and the anonymised copy of anything that was read from bytes is written with the same size and reads back with the same values (in the bytes of a file: places at consecutive hours of 1 January 2020 in Finland, region 1, odometer values rounded down to 100 km, positions in Helsinki; vehicles with one whole day each, odometer values rounded down to 1000 km and the number TEST-VRN), except where proved otherwise (found: place records keep their entry time at record level; a vehicle record of an unknown nation loses its bytes, and a file of vehicles with one of them cannot be written; the indices of a driver card read back as 0; a workshop card identification becomes unreadable).", "quantifier": "every pair of records, every list of records in a file, and every byte string the records were read from", "why_tests_cant": "Non-interference is a 2-run property over all inputs.", "anchors": ["internal/dd/*.go Anonymize*", "internal/card/*.go Anonymize*"]}
{"id": "C41", "title": "Gen1 VU overview: the counts account for every byte, and exactly which overviews are written back unchanged", "statement": "The Gen1 overview parser accepts a value only if its two counts account for every byte; every field is the bytes at its offset; the size pass agrees with the parse pass. The writer appends exactly as many bytes as the counts need (or fails, never panics), succeeds on a parsed overview exactly if the registration nation is known, and restores the parsed bytes exactly if: that nation and the code pages are known, no card is in the slots byte, and every card number is a workshop or company card or ends in two zero bytes. (Found: an overview with a control activity done with a control card is refused; the slots byte, unknown code pages and the last two bytes of driver card numbers are lost.)", "quantifier": "every byte string, every overview message, every destination", "why_tests_cant": "Counts 0..255 times arbitrary contents.", "anchors": ["internal/vu/overview_gen1.go", "internal/vu/overview.go"]}
{"id": "C42", "title": "Gen1 VU activities: size pass and parse pass agree", "statement": "For every value sliced by the size pass, the Gen1 activities parser consumes exactly the value: it never fails with a length mismatch or out-of-range read, and record counts equal the encoded counts.", "quantifier": "every byte string", "why_tests_cant": "Counts up to 65535.", "anchors": ["internal/vu/activities.go: sizeOfActivitiesGen1", "internal/vu/activities_gen1.go"]}
{"id": "C43", "title": "Decoded text is valid UTF-8, except Gen2 vehicle identification numbers", "statement": "Every string field of every message of a parsed file is valid UTF-8 (protobuf serialisation fails otherwise), except the vehicle identification number of Gen2 vehicle records: the text of an accepted file is all valid UTF-8 exactly if those numbers are, and they need not be, because the code stores that field without validation. Vehicle unit files always hold valid UTF-8.", "quantifier": "every accepted byte string, every string field of the result", "why_tests_cant": "All byte patterns.", "anchors": ["internal/dd/string_value.go", "internal/dd/ia5_string_value.go", "internal/dd/card_vehicle_record_g2.go", "unmarshal.go:UnmarshalFile", "internal/card/driver_card_file.go"]}
{"id": "C44", "title": "Control type flags", "statement": "UnmarshalControlType decodes five flag bits and AppendControlType restores the byte including reserved bits; setting a flag on a parsed value is written. (Found: clearing a flag of a parsed value has no effect.)", "quantifier": "every byte and every edit of the flags", "why_tests_cant": "256 bytes times edits.", "anchors": ["internal/dd/controltype.go"]}
{"id": "C45", "title": "Generation and version from the card structure version", "statement": "SetFromCardStructureVersion maps major 0 to Gen1 V1 whatever the minor number, 1.0 to Gen2 V1, 1.1 to Gen2 V2, any other 1.x to Gen2 with an unspecified version, and everything else to an unspecified generation and version, for all inputs.", "quantifier": "every version pair", "why_tests_cant": "Decision table over all values.", "anchors": ["internal/dd/options.go"]}
{"id": "C46", "title": "Client lookup returns the entry with the requested CHR", "statement": "The remote client requests the URL of the first index entry whose CHR equals the requested one, never requests anything when there is none, and returns only a body that parses as a certificate.", "quantifier": "every index, every response", "why_tests_cant": "Arbitrary server behaviour.", "anchors": ["internal/cert/client.go"]}
{"id": "C47", "title": "The issuing member state of a card number is the nation its byte names", "statement": "For every accepted full card number, the decoded issuing member state is the NationNumeric value whose protocol byte is byte 1 of the record. This is false of the code: it uses the byte as the enum number. Proved instead: the decoded state is the right nation exactly if the byte is 56.", "quantifier": "every 18 byte card number record", "why_tests_cant": "The code casts the byte to the enum number; tests that compare bytes after a round trip cannot see it, and only one byte value in 256 agrees.", "anchors": ["internal/dd/full_card_number.go:UnmarshalFullCardNumber"]}
{"id": "C48", "title": "Decoded record fields are the bytes the layout assigns to them", "statement": "For every accepted record, each decoded field equals the value its documented byte range denotes: times as Unix seconds (0 = absent), big-endian odometers, signed 24 bit coordinates, enum codes through their tables with unknown codes kept, BCD counters, nested records from their own slices.", "quantifier": "every byte string accepted by each record decoder", "why_tests_cant": "A round trip cannot reveal two swapped fields when reader and writer swap both; the statement ranges over all byte strings.", "anchors": ["internal/dd/place_record.go", "internal/dd/place_record_g2.go", "internal/dd/card_vehicle_record.go", "internal/dd/vu_card_iw_record.go", "internal/dd/gnss_place_record.go", "internal/dd/extended_serial_number.go", "internal/dd/vehicle_registration.go", "internal/card/events.go", "internal/card/faults.go"]}
{"id": "C49", "title": "A driver activity buffer rebuilt from records reads back as the same days", "statement": "If the retained raw buffer of driver activity data is dropped, the buffer rebuilt from up to 365 valid daily records (fields in range) reads back, from its last record, as the same days in the same order: date, presence counter, distance, length and activity changes; days that could not be decoded are written as the bytes that were kept and read back as such if those bytes carry the links of their places; and so does the whole written file if the retained newest-record pointer is the place of the last record. (Found: the writer keeps the old pointer, so the rebuilt file can lose days; 366 or more days are written but refused when read; and undecoded bytes keep their old link, which can make the rebuilt buffer endless and refused.)", "quantifier": "every list of up to 365 daily records, decoded with fields in range or kept as bytes", "why_tests_cant": "Record lengths, padding and counts combine without bound.", "anchors": ["internal/card/activity.go: buildCyclicBuffer, marshalRecordWithHeader, appendDriverActivity"]}
{"id": "C50", "title": "Parsing the elementary files of a card never panics", "statement": "For every byte string, each elementary file parser (IC, ICC, application identification of each generation, identification, licence, events, faults, activity, vehicles, places, usage, control, conditions, downloads, GNSS places, vehicle units, certificates) returns a value or an error; and for every list of raw records, building the driver card message returns a value or an error.", "quantifier": "every byte string for each parser, every list of raw records", "why_tests_cant": "Slice bounds interact with lengths and counters read from the data; a fuzzer samples, the statement covers every length and content.", "anchors": ["internal/card/driver_card_file.go:UnmarshalDriverCardFile", "internal/card/*.go unmarshal methods"]}
{"id": "C51", "title": "The card slots status names the cards in the slots", "statement": "For every accepted Gen1 overview the reported driver slot card and co-driver slot card are the cards the slots byte stands for (low and high half: 0 no card, 1 driver, 2 workshop, 3 control, 4 company). This is false of the code: the reported card is wrong for every value of the byte. Proved instead: what is reported is exactly two places earlier in the enumeration than the card inserted, so a workshop card is reported as no card and a control card as a driver card.", "quantifier": "every accepted Gen1 overview, both slots", "why_tests_cant": "A round-trip test compares the code with itself; the statement compares it with the table of the regulation for every slots byte.", "anchors": ["internal/vu/overview_gen1.go:unmarshalOverviewGen1", "proto/wayplatform/connect/tachograph/dd/v1/slot_card_type.proto"]}
{"id": "C52", "title": "Coded bytes are reported under the regulation's meaning", "statement": "For every byte of every coded field (event and fault type, equipment type, record purpose, calibration purpose, card slot, company activity, driver activity, driving status, load type, operation, position authentication, card in slot, specific condition) the byte is recognised exactly if the regulation assigns it a meaning, and is then reported under the name of that meaning. (Found: the code 'FF' of 'Rest of the World' is reported as 'empty', and REST_OF_WORLD is used for 'FE' only.)", "quantifier": "every byte value, for each of 13 value assignments of the data dictionary", "why_tests_cant": "Round trip tests compare the table with itself; the statement compares it with an independent transcription of the regulation, for all byte values.", "anchors": ["internal/dd/enum.go:UnmarshalEnum", "proto/wayplatform/connect/tachograph/dd/v1/*.proto enum value annotations", "docs/regulation/chapters/03-data-dictionary.md"]}
{"id": "C53", "title": "Files are recognised and written under the regulation's identifiers", "statement": "In every card download, a block is reported as the file the regulation gives its identifier to; an identifier the regulation does not have is not recognised; whatever is written is written under the regulation's identifier; a download with only files of a regulation driver, workshop or control card (with a file peculiar to it) is taken for that card. (Found: the generation 2 C100 file CardMA_Certificate is reported as Card_Certificate; every company card is taken for a driver card.)", "quantifier": "every file identifier; every download of blocks with at most 65530 bytes each", "why_tests_cant": "The claim ranges over all identifiers and all orders, subsets and contents of files.", "anchors": ["internal/card/infer.go mapFidToElementaryFileType, InferFileType", "internal/card/rawcardfile.go:UnmarshalRawCardFile", "proto/wayplatform/connect/tachograph/card/v1/elementary_file_type.proto", "docs/regulation/chapters/05-tachograph-cards-file-structure.md"]}
{"id": "C54", "title": "Record fields sit where the regulation puts them", "statement": "For every accepted card file and record, each reported field is read from the bytes that the regulation's data type assigns to it, and record sizes, pointer sizes and record order are those of the regulation. (Found: EF Application_Identification_V2 is read as four single bytes although the regulation has a two byte length and four two byte counts, so that every conformant file is misreported.)", "quantifier": "every byte string accepted by each parser of the files of the driver card", "why_tests_cant": "Layouts transcribed independently are compared for all contents; a round trip cannot reveal reader and writer agreeing on a wrong layout.", "anchors": ["internal/card/*.go", "internal/dd/*.go", "docs/regulation/chapters/05-tachograph-cards-file-structure.md"]}
{"id": "C55", "title": "A driver card download that conforms to the regulation is accepted and read", "statement": "If a file is a driver card download as Appendix 7 describes it (each file's contents as one TLV object, directly followed by its signature where one is taken, the contents laid out and coded as Appendices 1 and 2 prescribe), UnmarshalFile accepts it as a driver card, and every file is reported: in each place the newest file that belongs there, with its own signature; in particular the reported days are exactly the days the activity file stores, oldest first. Exceptions, each proved: the download must start with EF ICC, which the regulation makes optional; a used event or fault record with a manufacturer specific code makes the whole download refused; an activity file with 366 days or more is refused; a day whose header lies across the end of the cyclic buffer, and all older days, are lost; EF CardMA_Certificate is not accepted.", "quantifier": "every sequence of conforming files of either application, with any contents the layouts allow and any signatures; every position and number of daily records in the cyclic buffer", "why_tests_cant": "Sample downloads come from a few cards; the regulation allows unboundedly many combinations of files, record counts, codes and buffer positions, including ones no test card has yet reached.", "anchors": ["unmarshal.go:UnmarshalFile", "internal/card/driver_card_file.go:UnmarshalDriverCardFile", "internal/card/activity.go:NewCyclicRecordIterator", "docs/regulation/chapters/12-card-downloading.md"]}
{"id": "C56", "title": "Vehicle unit messages of the regulation are cut and read as the regulation lays them out", "statement": "For every Gen1 message of Appendix 7 (overview, activities, events and faults, detailed speed, technical data) the bytes taken for one transfer are exactly one complete message of the regulation, and each part of a decoded overview or day of activities comes from the data element of that name. A download of Gen1 messages is read if and only if every card number in overviews and card insertions is of a driver, workshop or company card, slots are 0 or 1 and places have codes known to the parser; in particular the record of a roadside control, which is made with a control card, makes the download unreadable. Gen2 messages are cut into their record arrays as prescribed, except for two, whose number of record arrays the parser has wrong: technical data of Gen2 version 1 makes every file unreadable, events and faults of Gen2 version 2 does so unless enough bytes follow to pass for a seventh array.", "quantifier": "every sequence of messages of the regulation, with any number of records and any contents, any bytes before and after", "why_tests_cant": "The counts inside the messages are up to 65535 and interact with the extent of everything that follows; recorded downloads show a few combinations only.", "anchors": ["unmarshal.go:UnmarshalFile", "internal/vu/raw_vehicle_unit_file.go:sizeOfTransferValue", "internal/vu/technical_data.go:sizeOfTechnicalDataGen2V1", "internal/vu/events_faults.go:sizeOfEventsAndFaultsGen2V2", "docs/regulation/chapters/11-response-message-content.md", "docs/regulation/chapters/03-data-dictionary.md"]}
{"id": "C57", "title": "The certificate index tool reads the same keys, references and dates as the library", "statement": "fetch-certs accepts the same root files as the library and takes the same key from them (it also refuses a zero modulus or exponent). For a Gen1 certificate it recovers exactly the content that the signature certifies under ISO 9796-2; the library's verification against the root succeeds if and only if the tool recovers the content and the certificate names the root as authority, and then holder reference and end of validity in the index are the ones the library reports. For a Gen2 certificate the references are the second and fifth item of the body, and equal the library's whenever the library can read the certificate. None of the decoders panics. Exceptions: a certificate whose first byte is 3C is taken for a web page and left out although it may be valid; an end of validity of zero is written as the year 1, where the library reports the epoch.", "quantifier": "every byte string a server may deliver, every root key", "why_tests_cant": "The certificates of the site change over time; the two implementations have to agree on every one, including malformed ones, and the 1 in 256 signatures that start with 3C are unlikely to be in a sample.", "anchors": ["tools/cmd/fetch-certs/main.go:extractGen1CAR", "tools/cmd/fetch-certs/main.go:recoverGen1Certificate", "tools/cmd/fetch-certs/main.go:extractGen2CHR", "tools/cmd/fetch-certs/main.go:downloadCertificate", "internal/security/rsa_verify.go:VerifyRsaCertificateWithRoot", "internal/security/ecc_certificate.go:UnmarshalEccCertificate"]}
{"id": "C58", "title": "The certificate index is complete and ordered for every order of the concurrent downloads", "statement": "Whatever the interleaving of the download tasks, the index lists exactly the certificates whose file was written without an error, each once, and nothing else is written except the first bytes of a certificate whose writing failed; if the paths of the files opened differ, every path in the index finally holds its own certificate. The list is ordered by country, within a country by expiration with the latest first and entries without a date last. If no two certificates share country and expiration the list is the same on every run. Exceptions: with equal country and expiration the list may differ between runs; two certificates of the same holder are written to the same file, of which one remains, or the first bytes of one if its writing failed.", "quantifier": "every number of tasks, every interleaving of their steps, every way in which writing a file can end, every outcome of an unstable sort within its contract", "why_tests_cant": "A test observes one schedule; the property is about all of them.", "anchors": ["tools/cmd/fetch-certs/main.go:indexAndDownloadGen1Certificates", "tools/cmd/fetch-certs/main.go:indexAndDownloadGen2Certificates", "tools/cmd/fetch-certs/main.go:sortCertificates"]}
{"id": "C59", "title": "What the certificate index tool takes from the web page, and where it writes files", "statement": "The certificates indexed are those of the table rows, at any depth of the page, that have at least three cells and a download link; address, country and expiration come from the cells the documentation of the tool names. The download link of a cell is the first address in it, in document order, that has one of the two marks of a certificate file or belongs to a link whose title says so; the name is what follows the last \"=\" of the address, or else the last part of its path. White space of any script around a cell text is removed. A text is read as a date exactly if it is a day of the calendar written DD/MM/YYYY or YYYY-MM-DD, with white space around it allowed, and the index then holds midnight UTC of that day. A file is written directly into the directory of its generation if the holder was read from the certificate or the name from the page has no slash; its name is then the holder's reference in decimal, or that name, with .bin after it. Exceptions: otherwise the page decides where the file goes, also outside the output directory; a later cell that looks like a date but is none removes the expiration.", "quantifier": "every document tree, every cell text, every name and link", "why_tests_cant": "The page is written by others and changes; every tree and every text has to be handled.", "anchors": ["tools/cmd/fetch-certs/main.go:parseCertificateTable", "tools/cmd/fetch-certs/main.go:parseTableRow", "tools/cmd/fetch-certs/main.go:findDownloadLink", "tools/cmd/fetch-certs/main.go:parseDateString", "tools/cmd/fetch-certs/main.go:extractCertificateName"]}
{"id": "C60", "title": "An index entry leads the client back to the certificate", "statement": "If a server delivers at the address of an index entry what the tool downloaded, a client that uses the index and is asked for the entry's holder reference returns that certificate, provided the entry is the first with that reference; the certificate carries the entry's authority reference, and if this is the root's key identifier it verifies against the root and then reports the requested holder. For Gen2 the same holds of every certificate the library can read.", "quantifier": "every certificate, root key, index and position in it, every server that delivers the downloaded bytes", "why_tests_cant": "It composes two programs that share only a file format; tests exercise each on its own samples.", "anchors": ["tools/cmd/fetch-certs/main.go:indexAndDownloadGen1Certificates", "internal/cert/client.go:GetRsaCertificate", "internal/cert/client.go:GetEccCertificate"]}
{"id": "C61", "title": "What is written is what the message says", "statement": "Write a card record or elementary file from a message that a caller built or edited, with every value within what the format can hold, and read the bytes back: the reader accepts them and every field except raw_data is the message's field, whatever raw_data the message carried. A string is taken from its own raw bytes if it has any, and from its text otherwise, so editing the text of a parsed string without clearing its raw bytes has no effect. For EF Specific Conditions of the second generation the records come back as edited, followed by whatever records the raw data held beyond them: deleting records from the end has no effect.", "quantifier": "every message whose values fit the format, with any raw data of the right size, and every destination the bytes are appended to", "why_tests_cant": "Tests re-write parsed messages, where raw data hides mistakes in the writers; this is about every message a caller can build, with stale or no raw data.", "anchors": ["internal/dd/string_value.go:AppendStringValue", "internal/dd/ia5_string_value.go:AppendIa5StringValue", "internal/dd/place_record.go:AppendPlaceRecord", "internal/dd/full_card_number.go:AppendFullCardNumber", "internal/card/identification.go:appendCardIdentification", "internal/card/vehicles_used.go:appendVehiclesUsed", "internal/card/specific_conditions_g2.go:appendCardSpecificConditionsG2"]}
{"id": "C62", "title": "A message with missing parts", "statement": "A missing text is written as the single byte FF and a missing IA5 text as nothing, not as a blank field of its size. So a holder name without surname, a driving licence without authority or number, an identification without a name, and a card number without its number part are written without error and then refused by the library's own reader; a control whose card number is shorter than the field is refused too. A control type flag once set in the raw byte can never be cleared. Where a whole part is missing, zeros of its size are written and read back. A missing birth date is written as zeros and comes back as day 0 of month 0 of year 0.", "quantifier": "every message with the named part missing and any values elsewhere, every destination", "why_tests_cant": "The number of combinations of missing parts and values is unbounded, and the failure shows only when the written file is read later.", "anchors": ["internal/dd/string_value.go:AppendStringValue", "internal/dd/ia5_string_value.go:AppendIa5StringValue", "internal/dd/holder_name.go:AppendHolderName", "internal/dd/controltype.go:AppendControlType", "internal/card/driving_licence.go:appendDrivingLicenceInfo", "internal/card/control_activity.go:appendCardControlActivityData"]}
{"id": "C63", "title": "A driver card, written and read back", "statement": "Take a driver card message whose parts fit the format: an ICC is present, there is no Gen2 certificate for mutual authentication, and every elementary file in it holds values within their ranges. MarshalFile succeeds, UnmarshalFile of the result succeeds, reports a driver card, and every file in it has the contents of the message: a file absent from the message is absent, a file present is present with the same values. The exceptions are: all signatures become 128 zero bytes, eight files of the Gen2 application are gone, a certificate is what the parser makes of its raw bytes (marks of an earlier verification are gone), and a certificate without raw bytes is gone. Without an ICC, or with a certificate for mutual authentication, the file that MarshalFile writes is always refused by UnmarshalFile.", "quantifier": "every driver card message, with any subset of its files, any number of records within the stated limits, and any raw data", "why_tests_cant": "Tests re-write a few parsed cards; the property is about every combination of files and values a caller can build, including edited and hand-made messages.", "anchors": ["marshal.go:MarshalFile", "unmarshal.go:UnmarshalFile", "internal/card/driver_card_file.go:MarshalDriverCardFile", "internal/card/driver_card_file.go:UnmarshalDriverCardFile"]}
{"id": "C64", "title": "A run of the certificate index tool, finished, failed or cut off", "statement": "While the tool runs, index.json is changed by the very last step only: whatever step the run fails at or is cut off after, index.json is unchanged unless that last write has begun. When the run succeeds and the files it opened have different paths inside the directory of their generation, the output directory holds the new index, the root certificate, for every entry of the index its file with the bytes the server delivered with status 200 for the address in the entry, no other certificate file except the first bytes of a certificate that could not be written, and everything else as it was. The downloads of a group never run more than the given number at a time, end in every schedule, and every limited run is one of the unlimited schedules. (Findings: the old certificate files are removed before the first download, so a failed run leaves the old index with its files gone; the write of index.json is not atomic, so a full disk replaces the old index by the first bytes of the new one; a limit of 0 hangs.)", "quantifier": "every prior content of the output directory, every answer of the servers and failure of file operations, every order of the concurrent downloads, every limit, every point at which the process may stop (including in the middle of a write)", "why_tests_cant": "Crash points, schedules and failures multiply; a test sees one of them.", "anchors": ["tools/cmd/fetch-certs/main.go:main", "tools/cmd/fetch-certs/main.go:createDirectoryStructure", "tools/cmd/fetch-certs/main.go:writeIndexFile"]}
{"id": "C65", "title": "The parse command", "statement": "`tachograph parse` succeeds exactly if it is given at least one file and every file can be read and parsed, and then prints their messages in the order of the arguments. Otherwise it reports an error, having printed the messages of the files before the first bad one and nothing of the others. (Finding: on a file UnmarshalFile panics on, it crashes.)", "quantifier": "every list of arguments, every content of the files, every read failure", "why_tests_cant": "The list of arguments and the contents are unbounded.", "anchors": ["cmd/tachograph/main.go:newParseCommand"]}
{"id": "C66", "title": "The older activity parser", "statement": "UnmarshalVuActivities accepts a Gen1 day exactly if it is date, odometer, a zero byte, three lists with one-byte counts (changes of 2 bytes, places of 10, conditions of 5) and a signature of 128 bytes, and a Gen2 day exactly if it is the described sequence of record arrays with six-byte headers; it then reports the bytes consumed and these records. It never reports a card insertion, a border crossing or a loading operation: their card numbers get 20 bytes and take 19. Another generation is an error. It panics exactly when the input ends within the odometer value of a Gen1 day, within a Gen1 list whose count was read, or within the odometer array of a Gen2 day. Bytes after the input in the same array never show in a result: where they hold the whole missing part, the panic becomes an error, and nothing else changes. A nil target panics, and so does an offset before the input that leaves room for the first value. (Findings: it accepts no Gen2 message of the regulation; a Gen1 day of the regulation is read with its card insertions counted as activity changes, or its activity changes counted as specific conditions; entry types and authentication states are never the protocol's values.) UnmarshalVuDetailedSpeed and UnmarshalVuTechnicalData take whatever is left as the signature and panic for an offset past the end.", "quantifier": "every input, offset and generation", "why_tests_cant": "No test calls these functions; acceptance, consumed length and panics depend on every byte of input of unbounded length.", "anchors": ["internal/vu/activities.go:UnmarshalVuActivities", "internal/vu/binary_parsing.go:readBytesFromBytes", "internal/vu/detailed_speed.go:UnmarshalVuDetailedSpeed", "internal/vu/technical_data.go:UnmarshalVuTechnicalData"]}
{"id": "C67", "title": "A driver card file can be read, written and read again", "statement": "A driver card that UnmarshalFile read from a file is written by MarshalFile exactly if every nation code in the parts that are written was recognised and no stored position has an odometer value of a million kilometres or more; otherwise an error is reported, and writing never panics. What is written is always read again as a driver card. Its contents are those of the first card, except that a text with an unrecognised code page is empty, version numbers keep what fits into two digits of which the first may go up to fifteen, birth dates keep four, two and two digits, and a card number whose text has grown beyond its field is cut; if every code page was recognised, the digits are in range and the card number fits, the contents are the same. Lost are further the signatures, eight files of the second generation application and what verification added. This holds for files whose event, fault and vehicle unit files have the sizes the regulation allows. (Findings: a card with one unrecognised nation anywhere is parsed but cannot be written at all; a text with an unrecognised code page is written under code page 255 and then disappears.)", "quantifier": "every byte string UnmarshalFile accepts as a driver card, with files in any order, number and generation", "why_tests_cant": "The byte strings, the combinations of files and the values in them are unbounded; tests compare a few sample files.", "anchors": ["unmarshal.go:UnmarshalFile", "marshal.go:MarshalFile", "internal/card/driver_card_file.go:MarshalDriverCardFile", "internal/card/driver_card_file.go:UnmarshalDriverCardFile"]}
{"id": "C68", "title": "Vehicle unit transfers are written back byte for byte", "statement": "Each of the thirteen vehicle unit transfer writers other than that of the Gen1 overview succeeds exactly for a message with at least one byte of raw data, appends exactly those bytes to the destination, and never panics. Every transfer that the corresponding parser accepts is therefore written back byte for byte. (Finding: a message built from fields, without raw data, is always refused, and changes to the fields of a parsed message are silently not written. The package calls none of these writers: MarshalFile refuses every vehicle unit file, C09.)", "quantifier": "every byte string, every message and destination, all thirteen transfer kinds", "why_tests_cant": "Byte strings and record counts are unbounded.", "anchors": ["internal/vu/activities_gen1.go:appendActivitiesGen1", "internal/vu/overview_gen2_v1.go:appendOverviewGen2V1", "internal/vu/technical_data_gen2_v2.go:appendTechnicalDataGen2V2", "internal/vu/detailed_speed_gen1.go:appendDetailedSpeedGen1", "internal/vu/events_faults_gen1.go:appendEventsAndFaultsGen1"]}
{"id": "C69", "title": "Text fields show exactly the text of their bytes", "statement": "The text of a parsed IA5 field is determined by its bytes as follows, and of a code page field by the characters its code page's table (ISO 8859 parts 1, 2, 3, 5, 7, 9, 13, 15, 16, KOI8-R, KOI8-U; Latin-1 for an unknown code page) gives for its bytes: read as UTF-8 from the left, blanks, NUL, U+FFFD and bytes that belong to no character are removed at both ends, and inside a run of such stray bytes becomes one U+FFFD; everything else is kept. Under code page 255, or if all bytes are 00 or FF, the text is empty. The parsers accept exactly non-empty IA5 fields and code page fields of at least two bytes, and keep raw bytes, length and encoding. (Finding: the cutset names the bytes 85, A0 and FF, but it makes every invalid byte and every U+FFFD at the ends disappear, while the characters U+0085, U+00A0 and U+00FF, which the character tables produce for those bytes, are kept.)", "quantifier": "every byte string, every code page, every table of characters", "why_tests_cant": "All byte strings; the segmentation is decided from both ends.", "anchors": ["internal/dd/string_value.go:UnmarshalStringValue", "internal/dd/string_value.go:decodeWithCodePage", "internal/dd/string_value.go:trimSpaceAndZeroBytes", "internal/dd/ia5_string_value.go:UnmarshalIa5StringValue"]}
{"id": "C70", "title": "A driver card file the library wrote is written again unchanged", "statement": "For every driver card message whose parts fit the format, MarshalFile writes a file, UnmarshalFile reads it, and MarshalFile writes what was read as exactly the same bytes. A driver card file that was read and can be written at all (C67) may change when it is first written, and once more when it is written for the second time if the text of its card number does not fit the number's field, but never again, however often it is read and written. (Finding: a card number with a stray byte is shown with U+FFFD, which takes three bytes; the text is cut in the middle of a character and the rest of that character is trimmed by the next reading, so that the second file differs from the first.)", "quantifier": "every driver card message that fits the format, and every accepted driver card file that can be written", "why_tests_cant": "The messages are unbounded in number and size, and the file must be the same in every byte.", "anchors": ["marshal.go:MarshalFile", "unmarshal.go:UnmarshalFile", "internal/card/driver_card_file.go:MarshalDriverCardFile", "internal/card/driver_card_file.go:UnmarshalDriverCardFile"]}
{"id": "C71", "title": "Which memory a result shares with the caller's buffer", "statement": "Reading the raw records of a card file, from which the message is then parsed, copies every value: what the caller later does with its buffer, or appends to the value of one record, changes no other value. Parsing a vehicle unit file copies nothing: the raw data of the transfers are windows of the caller's buffer that follow each other, each after its two byte tag, and fill it; the certificates and signatures of the Gen1 messages lie inside them. After the caller puts other bytes into the buffer each shows what is there now, and is unchanged exactly if no byte of its window changed, so a message read earlier can show the date of one download and the raw data of another. Appending three bytes or more to the raw data of one transfer overwrites the raw data of the next.", "quantifier": "every input accepted by UnmarshalFile's first pass, every later contents of the caller's buffer of the same length, every position, every pair of consecutive transfers and every appended byte string that fits", "why_tests_cant": "tests parse a buffer once and never touch it again; whether a result depends on memory it does not own must hold for every later write", "anchors": ["internal/vu/raw_vehicle_unit_file.go:unmarshalRawVehicleUnitFile", "internal/card/rawcardfile.go:UnmarshalRawCardFile"]}
{"id": "C72", "title": "Verifying is repeatable and leaves no trace in what is written", "statement": "Verifying a driver card changes nothing that MarshalFile writes: after VerifyFile, with whatever resolver and outcome, the file is written as it would have been before. A later verification has the outcome it would have had without the earlier ones, and when it succeeds it leaves the same message, provided the authority named by the Gen1 card certificate did not change; with a resolver that always answers the same, a verified card is verified again and stays as it is. The authority changes exactly when a Gen1 certificate was verified whose signed content names another authority than the reference that follows it: the code accepts such a certificate once, and refuses it the second time.", "quantifier": "every driver card message, every pair of resolvers, every world they run in, every outcome of the first verification", "why_tests_cant": "tests verify a fresh message once; independence of history must hold for every sequence of calls, resolver and outcome", "anchors": ["verify.go:VerifyFile", "internal/card/driver_card_file.go:VerifyDriverCardFile", "internal/security/rsa_verify.go:verifyRsaCertificate", "marshal.go:MarshalFile"]}
{"id": "C73", "title": "A resolver may keep its certificates", "statement": "A certificate resolver may hand out the same certificate object to every verification, as a cache does. In every sequence of driver card verifications each result is, and each card is left, as if the resolver had handed out a fresh copy each time. What the verifications write to a kept authority certificate is this and no more: if it had no key and the root has signed it, the signed content and the mark are filled in; if it had no key and the check fails, it may be marked as not valid. Its raw bytes never change, and a certificate that has a key is never written.", "quantifier": "every resolver with fixed answers, every contents of the certificates it keeps (also one certificate kept under several names), every finite sequence of driver cards", "why_tests_cant": "the state of the shared certificates depends on the whole history of verifications; tests verify one card with one resolver", "anchors": ["verify.go:VerifyFile", "internal/card/driver_card_file.go:VerifyDriverCardFile", "internal/cert/resolver.go:Resolver", "internal/security/rsa_verify.go:VerifyRsaCertificateWithRoot"]}
{"id": "C74", "title": "Values that do not fit the format are cut when a driver card is written", "statement": "Writing does not check most values of a driver card message against the room the format has for them. A message is written to exactly the bytes of the message cut down: numbers keep the low 8, 11, 16, 24 or 32 bits, coordinates the low 24 bits with sign, whole-second times the low 32 bits, card numbers, VINs and byte strings their first characters, and an event, card, entry or country code that nobody knows becomes the code 0. Records whose values do not fit are therefore written without an error and read back as the values cut down; values that fit are not touched. Refused, not cut, are only: a fraction of a second, an unknown nation of a registration, an unknown type of condition, the accuracy of a GNSS position beyond a byte, an odometer beyond 999 999 km in EF_GNSS_Places, and over-long entries of EF_Vehicle_Units_Used.", "quantifier": "every driver card message and every record in it, with any integers, times, codes and texts in its fields", "why_tests_cant": "tests write messages that were read from files, whose values all fit; what happens to the others is spread over some forty writers", "anchors": ["marshal.go:MarshalFile", "internal/card/driver_card_file.go:MarshalDriverCardFile", "internal/card/application_identification.go", "internal/card/identification.go", "internal/card/events.go", "internal/card/ic.go", "internal/card/places.go", "internal/dd/odometer.go", "internal/dd/time_real.go", "internal/dd/place_record.go", "internal/dd/enum.go"]}
{"id": "C75", "title": "The order of the files of a card and damage to one of them", "statement": "In a driver card file each elementary file is a data record, possibly followed by its signature. If no two of them are for the same place of the message, they can come in any order, as long as EF_ICC comes first, and the message read is the same; a file that starts with another known elementary file is refused. If the value of one record is replaced by other bytes of any length, then either the file is refused or the message read differs from the one read before only in the place of that elementary file. If the record is a signature, the file is never refused and, signatures apart, the message is the same.", "quantifier": "every driver card file that can be read, every order of its elementary files, every record in it and every replacement of its value", "why_tests_cant": "the orders and the damaged values cannot be enumerated; that reading one file does not depend on another is a statement about all of them", "anchors": ["unmarshal.go:UnmarshalFile", "internal/card/driver_card_file.go:unmarshalDriverCardFile", "internal/card/rawcardfile.go:UnmarshalRawCardFile", "internal/card/infer.go:InferFileType"]}
{"id": "C76", "title": "A download that was cut off", "statement": "If a readable driver card file, made of data records with or without their signatures and no two of them for the same place of the message, is cut off after any number of bytes, it can be read exactly if the cut comes between two records, and then everything in the message is as in the message of the whole file or absent: each elementary file is shown with the same content or missing, and a signature may be missing where the cut came between data and signature. If a readable vehicle unit download is cut off and can still be read, every repeated transfer shown is a beginning of those in the whole message, the overview is the same or missing (if there is at most one), and the generation is the same; a cut between two transfers can always be read unless no transfer is left. No byte that was cut off is ever made up.", "quantifier": "every readable driver card file and vehicle unit download, every number of bytes kept", "why_tests_cant": "every length of every file has to be considered; tests have complete files", "anchors": ["unmarshal.go:UnmarshalFile", "internal/card/rawcardfile.go:UnmarshalRawCardFile", "internal/vu/raw_vehicle_unit_file.go", "internal/vu/vehicle_unit_file.go"]}
{"id": "C77", "title": "How large a message can get", "statement": "The number of records in the message read from a file (events, faults, vehicles, places, conditions, vehicle units, positions; downloads, locks, controls, insertions, activity changes and transfers of a vehicle unit; records of a raw card file) is never larger than the number of bytes of the file. The daily activity records of a driver card are the exception: days may overlap and go round the buffer, so their number does not depend on the size of the file in this way. There are never more than 365 days in each generation part, never more than 32 761 changes in a day, and never more than 65 535 bytes kept of a day that could not be decoded. A file of 2 968 bytes reaches the maximum of 730 days and 23 915 530 changes.", "quantifier": "every input that UnmarshalFile accepts", "why_tests_cant": "a bound on memory has to hold for every file, also for one made to exhaust it", "anchors": ["unmarshal.go:UnmarshalFile", "internal/card/activity.go:cyclicRecordIterator", "internal/card/driver_card_file.go:unmarshalDriverCardFile", "internal/vu/vehicle_unit_file.go"]}
{"id": "C78", "title": "Downloads joined in one file", "statement": "If two files are each read as a driver card, the two one after the other in one file are read as a driver card too: every file of the card is taken from the second download where it has it (with its own signature or lack of one), and from the first otherwise; an application is present if one of them has it; joining a download with itself changes nothing. Two vehicle unit downloads in one file are read as one if both are of one generation and version, or if one of them has no more than Gen2 detailed speed and the other is Gen2: activities, events, speed and technical data of the first come before those of the second, and the overview is the later one. Any other two are refused, without a crash. A vehicle unit download followed by something that does not begin with 0x76, such as a card, is not read.", "quantifier": "all pairs of inputs that UnmarshalFile accepts", "why_tests_cant": "it relates the results of three parses for all pairs of files", "anchors": ["unmarshal.go:UnmarshalFile", "internal/card/driver_card_file.go:unmarshalDriverCardFile", "internal/card/rawcardfile.go:UnmarshalRawCardFile", "internal/vu/vehicle_unit_file.go:unmarshalVehicleUnitFile"]}
{"id": "C79", "title": "What leaves no trace in the message", "statement": "Two files that are read as driver cards give the same message exactly when, for each place of the message (EF_ICC, EF_IC, each file of each application), the last block for it is absent in both, or the contents are alike and the signatures are equal. Contents are alike when all bytes are equal, except that in EF_ICC, EF_IC, EF_Card_Download, EF_Application_Identification_V2, EF_Current_Usage, EF_Driving_Licence_Info, EF_Identification and EF_Control_Activity_Data the bytes after the fixed length are not kept, and that in the nation of a vehicle registration, of a licence and of a card two codes without a name are not told apart. Everything else is kept: two cards with the same message agree in all other bytes. Cards of other kinds are kept byte by byte. Two vehicle unit files give the same message exactly when the last overview is the same, the values of all other reported types are the same in the same order, and both or neither belong to the second version of Gen2: earlier overviews, the value of the download interface version and the order between types are not kept.", "quantifier": "all pairs of inputs that UnmarshalFile accepts as driver cards (whose event, fault and vehicle unit files are no larger than those of the regulation), as raw cards or as vehicle unit downloads", "why_tests_cant": "that nothing else is lost is a statement about all pairs of files", "anchors": ["unmarshal.go:UnmarshalFile", "internal/card/driver_card_file.go:unmarshalDriverCardFile", "internal/card/rawcardfile.go:UnmarshalRawCardFile", "internal/vu/vehicle_unit_file.go:unmarshalVehicleUnitFile", "README.md"]}
{"id": "C80", "title": "The index file between the tool and the library", "statement": "The index file that the certificate index tool writes is a JSON document that the library loads: the time of the run, the root entry and the entries of both generations in the same order, each with the references, the country, the address and the expiration date it was written with. Only a byte that does not belong to a character of UTF-8 text is replaced (by U+FFFD). Every file that holds only the beginning of such a document is refused, so wherever a run fails or is cut off, the index on disk is the previous one, or one that the library refuses, or the complete new one. A client with the index file gets a listed certificate back by its holder reference, as long as the server delivers at the address what the tool downloaded. In general the library loads a file exactly if it is a JSON document of RFC 8259, nested at most 10 000 deep, with texts, times (of RFC 3339, with any fraction and zone) and lists where the index has them, and the result is what the document says; unknown names are passed over and the case of names does not matter. Of a name given more than once the last text or time counts, while entries are laid over those given before at the same place, back to null or an empty list.", "quantifier": "all entries of the index (any bytes in every field), all times of runs, all points at which a run is cut off, all answers of the servers, all byte strings as index file", "why_tests_cant": "escaping, surrogate pairs and nesting have to be right for every text and every document; torn files have to be refused for every cut", "anchors": ["tools/cmd/fetch-certs/main.go:writeIndexFile", "tools/cmd/fetch-certs/main.go:CertificateIndex.MarshalJSON", "internal/cert/certcache/index.go:LoadIndex", "internal/cert/client.go:GetRsaCertificate", "internal/cert/client.go:GetEccCertificate"]}
{"id": "C81", "title": "Certificates issued as the regulation prescribes are accepted", "statement": "A first generation certificate that is issued with the private key of a pair of 1024 bits, as the regulation prescribes (signature with partial message recovery, the rest of the content, the name of the authority), is read and accepted when it is checked with the public key of the pair and the name of the authority, and its content is reported. With such a key nothing is accepted except what the private key makes of a message, modulo the modulus; so, when the sum fits, the signature plus the modulus in place of the signature is accepted as well. A second generation certificate of the prescribed form is read for every one of the six curves of its key and every one of the six of its issuer, its content is reported, and it is accepted with the issuer's certificate exactly if ECDSA accepts its signature for its body with the issuer's key and the digest of the issuer's curve. A card whose certificates were issued like that, by an authority the resolver knows, is verified, and the certificates are marked as valid. The same from the bytes on: a download whose files conform to the regulation and whose last certificate file of each application is such a certificate is read, and the file that was read verifies.", "quantifier": "all key pairs with a modulus of 1024 bits, all certificate contents, all hash and ECDSA functions, all curve combinations, all resolvers that return the chain, all cards with either or both applications", "why_tests_cant": "correctness of RSA holds for all keys and messages only by number theory; lengths of the encoding vary with both curves", "anchors": ["internal/security/rsa_verify.go:VerifyRsaCertificateWithCA", "internal/security/rsa_verify.go:VerifyRsaCertificateWithRoot", "internal/security/ecc_verify.go:VerifyEccCertificateWithCA", "internal/security/ecc_certificate.go:UnmarshalEccCertificate", "verify.go:VerifyOptions.VerifyFile", "docs/regulation/chapters/16-common-security-mechanisms.md"]}
{"id": "C82", "title": "The valid marks of the entries of a card", "statement": "In every driver card that is read, an event or fault is marked valid exactly if it has a begin time, the last control exactly if it has a control time, and a day exactly if its presence counter could be decoded; a marked entry carries no raw bytes and an unmarked one no decoded fields. This holds in both applications. A place, although it is always decoded, is never marked valid: not after reading, not after anonymising, and a mark set by the caller is not written.", "quantifier": "all sequences of card records that are accepted, all entries in them, all place files given to the anonymiser", "why_tests_cant": "the mark depends on the bytes of every entry, and that a mark is never set is a statement about all inputs", "anchors": ["internal/card/events.go:unmarshalEventsData", "internal/card/faults.go:unmarshalFaultsData", "internal/card/activity.go:parseActivityRecordsWithIterator", "internal/card/control_activity.go:unmarshalControlActivityData", "internal/card/places.go:parseCircularPlaceRecordsGen1", "internal/card/places_g2.go:parseCircularPlaceRecordsG2", "internal/dd/place_record.go:UnmarshalPlaceRecord", "proto/wayplatform/connect/tachograph/dd/v1/place_record.proto"]}
{"id": "C83", "title": "Verifications at the same time may share the certificates of a resolver", "statement": "A resolver may hand out the same certificate to several verifications, and a verification fills in the authority certificate it was given. When verifications of driver cards with the same resolver run at the same time, in any number and however their accesses to the fields of the certificates interleave, each card is left as, and each call returns what, a call alone with fresh copies of the certificates gives; no call waits for another; at every moment a certificate that has a key is as it was kept or was signed by the root; and when all calls have returned every certificate is as it was, filled in after the root's signature was checked, or marked as not valid. The condition is that the kept certificates have no exponent without a modulus (certificates that were read have neither). It rests on the exponent being written last: when the writes become visible to the other goroutines in another order, which Go permits since nothing is synchronised, a genuine card can be refused; and with a kept certificate that has an exponent and no modulus a genuine card can be refused as well.", "quantifier": "all lists of cards, all resolvers that keep certificates, all interleavings of any length, all moments in them", "why_tests_cant": "the race detector and repeated runs see a few schedules; the claim is about all of them", "anchors": ["internal/card/driver_card_file.go:VerifyDriverCardFile", "internal/card/driver_card_file.go:verifyGen1Certificates", "internal/security/rsa_verify.go:verifyRsaCertificate", "internal/security/rsa_verify.go:VerifyRsaCertificateWithRoot", "internal/cert/resolver.go:Resolver"]}
{"id": "C84", "title": "What a successful verification rests on, and what it does not protect", "statement": "VerifyFile of a driver card rests on the Gen1 card certificate, the Gen2 card certificate for signatures and the answers of the resolver, and on nothing else in the message (the verification of a card without a resolver also looks at the authority certificates in the card): messages that agree in them get the same result and lead to the same calls of the resolver. So in a download the value of any record other than these two certificates can be replaced and the file is either refused by the reader or verified with the answer it had before, and the signature of any file can be replaced by arbitrary bytes, with the file still read and verified as before. The certificates are not tied to the card either: given one download that is verified, any other download with no further applications becomes one that is verified by appending records found in the first; it keeps its own driver, activities and all other files, and only its two card certificates are replaced.", "quantifier": "all cards, all resolvers (for the last part: all that answer independently of earlier calls) and their states, all downloads and all replaced values", "why_tests_cant": "that no bit of the other files can influence the result is a statement about every file and every change to it", "anchors": ["verify.go:VerifyOptions.VerifyFile", "internal/card/driver_card_file.go:VerifyDriverCardFile", "internal/card/driver_card_file.go:verifyGen1Certificates", "internal/card/driver_card_file.go:verifyGen2Certificates", "internal/card/driver_card_file.go:unmarshalDriverCardFile"]}
{"id": "C85", "title": "Damage to one transfer of a vehicle unit download, and a lost transfer", "statement": "Let an accepted vehicle unit download be damaged inside one transfer so that it is still a complete transfer of the same type. The download is refused, with an error and no panic, exactly if the damaged transfer is an overview or a day of activities of the first generation that cannot be decoded by itself; otherwise it is accepted, and generation, version and every other transfer are reported as before, in the same places. Damage confined to the signature of a first generation transfer is never noticed: everything but signatures and raw bytes is reported as before. A first generation transfer that is missing altogether is missing from the message and nothing else changes. A second version download that has lost its interface version and overview and has only detailed speed left is reported as first version.", "quantifier": "all downloads made of complete transfers, all positions, all replacement bytes of any length", "why_tests_cant": "that a damaged block leaves all other blocks alone is a statement about all downloads, all positions and all damages", "anchors": ["unmarshal.go:UnmarshalFile", "internal/vu/vehicle_unit_file.go:UnmarshalVehicleUnitFile", "internal/vu/raw_vehicle_unit_file.go:unmarshalRawVehicleUnitFile", "internal/vu/overview_gen1.go:unmarshalOverviewGen1", "internal/vu/activities_gen1.go:unmarshalActivitiesGen1"]}
{"id": "C86", "title": "Writing a driver card and reading it back does not change the answer of verification", "statement": "A driver card that was read from a file, written with MarshalFile and read again holds the card certificates and authority certificates it had, and each application is there as before, except that a second generation application made up only of files that are never written is gone. Unless that happens, VerifyFile gives the written card the answer it gives the card itself and asks the resolver for the same certificates in the same order. If it happens, the card itself is never verified, and the written card is verified as if the second generation application had never been there.", "quantifier": "all card files whose card can be written, all resolvers and their states", "why_tests_cant": "an archived copy must be as trustworthy as the download for every card and every answer of the resolver; tests write a few cards and verify none of them afterwards", "anchors": ["marshal.go:MarshalFile", "unmarshal.go:UnmarshalFile", "verify.go:VerifyOptions.VerifyFile", "internal/card/driver_card_file.go:MarshalDriverCardFile", "internal/card/driver_card_file.go:VerifyDriverCardFile"]}
{"id": "C87", "title": "From the published certificates to a verified card", "statement": "Run the certificate tool against the published root archive and the two published lists until it reports success, in a directory with any contents, and build the library with the files it left. Then take any driver card download whose files have prescribed contents and in which the certificate of each application present was issued, as the regulation prescribes, by an authority whose certificate is on the list and (for the first generation) was issued by the published root. VerifyFile, given no resolver, returns no error and marks these certificates valid, provided the servers still deliver the authority certificates at the listed addresses, the index has one address per authority, and a first generation authority certificate does not begin with the byte of '<'. The certificate files the tool saved play no part in it: the library always asks the servers.", "quantifier": "all pages, archives, server answers, task schedules and prior directory contents for which the tool succeeds; all key pairs, authorities and cards; all downloads; all states of the network", "why_tests_cant": "it composes a concurrent downloading program, a JSON file, a build step and two kinds of cryptographic verification over all inputs; no test runs the chain, and the tool and the library parse the certificates with different code", "anchors": ["tools/cmd/fetch-certs/main.go:main", "internal/cert/certcache/embed.go:Root", "internal/cert/certcache/index.go:LoadIndex", "internal/cert/client.go:Client", "cert.go:DefaultCertificateResolver", "verify.go:VerifyFile"]}
{"id": "C88", "title": "Every parsed file passes the validation of its schema", "statement": "The message schema carries validation rules (a string with a code page has a recognised-or-explicitly-unrecognised encoding, a positive length, and raw data of exactly that length plus one; an IA5 string has a positive length, raw data of that length, and no more characters than raw bytes). Every file that UnmarshalFile or UnmarshalVehicleUnitFile or UnmarshalDriverCardFile returns without error satisfies them in every string it contains, also where a retained slice shows bytes of a later record. Anonymising an identification that satisfies the rules, or any list of vehicles, gives a message that satisfies them. A string message that satisfies the rules is written in exactly its declared size; writing fails only without raw data and with a text longer than the length.", "quantifier": "all byte sequences; all messages of the anonymisers; all string messages", "why_tests_cant": "the golden tests run the validator on the sample files only; strings occur in a dozen record types and the fields that arise by retaining a scanner buffer depend on the size of the file", "anchors": ["unmarshal.go:UnmarshalFile", "internal/dd/string_value.go:UnmarshalStringValue", "internal/dd/ia5_string_value.go:UnmarshalIa5StringValue", "internal/card/identification.go:AnonymizeIdentification", "internal/card/vehicles_used.go:AnonymizeVehiclesUsed", "proto/wayplatform/connect/tachograph/dd/v1/string_value.proto", "proto/wayplatform/connect/tachograph/dd/v1/ia5_string_value.proto"]}
{"id": "C89", "title": "Text put into a message by a program: what is read back", "statement": "A text that a program puts into a code page field (without raw bytes) and that fits is always written and can be read again. The text read back is what the bytes of its UTF-8 form show under that code page, and it is the same text exactly if it is seven bit text without blanks at its ends. (Findings: AppendStringValue writes UTF-8 bytes under every code page, so a name such as Åsa is read back as another name; with an unset or unrecognised encoding the text is dropped without an error, however long it is.) In an IA5 field the text is read back exactly if it is whole UTF-8 characters without padding at its ends.", "quantifier": "every text, every field width, every code page with one character for each byte of the text", "why_tests_cant": "All texts; the tests only use ASCII names.", "anchors": ["internal/dd/string_value.go AppendStringValue", "internal/dd/string_value.go encodeWithCodePage", "internal/dd/ia5_string_value.go AppendIa5StringValue"]}
{"id": "C90", "title": "Every value of a parsed file lies in the range of its field", "statement": "Whatever bytes are accepted, every number, time and enum number of the parsed file lies in a fixed range that belongs to its field: times are absent or whole seconds from 1 to 2^32 - 1, odometer values are below 2^24, coordinates fit 24 signed bits, a change of activity has one of two slots, one of four activities and a minute below 2048, counters have at most four digits, indices and counts fit the bytes they are read from, and an enum number is one that the schema declares, never \"unspecified\", with the unknown byte kept beside it where the message has a field for it. For the basic elements the ranges are exact: each value in them is read from some bytes. (Findings: several ranges are wider than the regulation's. A position beyond the pole, an odometer beyond 9 999 999 km, a minute after midnight, a month 165 of a year 16665 are accepted without an error, and the issuing state of a card number can be a number that its enum does not have.)", "quantifier": "every byte string that UnmarshalFile accepts; every value of each range", "why_tests_cant": "All inputs, including hostile ones; a reader of the messages (a database column, a switch over an enum) relies on the bounds for files no test has seen.", "anchors": ["unmarshal.go:UnmarshalFile", "internal/card/driver_card_file.go:UnmarshalDriverCardFile", "internal/vu/vehicle_unit_file.go:UnmarshalVehicleUnitFile", "internal/dd"]}
{"id": "C91", "title": "Nil entries in the lists of a message", "statement": "A program may leave nil entries in the lists of a message. Writing a file never panics on one. Nil events and faults are written as nothing, nil places as zeros, a nil raw record as five zeros; nil vehicle units and GNSS places are left out; a nil specific condition, a nil vehicle used, and (when the activities have to be written from the days) a nil day or a nil change of a valid day make writing fail. Apart from these failures the result is that of the file in which each nil entry is replaced by an empty message or left out. Anonymising the vehicles of a card keeps its nil entries and anonymises the others as at their positions in a list without nil entries. (Finding: anonymising the places of a card panics exactly if one of them is nil.)", "quantifier": "every driver card and raw card message, with nil entries at any places of any of its lists", "why_tests_cant": "Each of eleven lists has its own loop, and some look at the pointer while others use getters only; all positions and combinations of nil entries.", "anchors": ["marshal.go:MarshalFile", "internal/card/driver_card_file.go:appendDriverCard", "internal/card/places.go:AnonymizePlaces", "internal/card/places_g2.go:AnonymizePlacesG2", "internal/card/vehicles_used.go:AnonymizeVehiclesUsed", "internal/card/activity.go:buildCyclicBufferFromRecords"]}
{"id": "C92", "title": "Messages that share certificate objects", "statement": "The certificates of a message, and those a resolver returns, are pointers, and several of them may lead to the same object. Verification of a driver card returns what it returns for a message with certificates of its own and a resolver that gives out copies, whatever is shared. It changes the bytes of no certificate, and of the second generation's certificates nothing but the valid mark of the card's own one; without a resolver it writes to the card's own certificates only. Second generation cards may therefore share certificates and be verified in any order, any number of times, with the same answers. (Finding: for the first generation the order matters. Verification fills in the key of the card certificate, and a card that is refused because the certificate of its authority has no key is accepted after another message that shares the object was verified.)", "quantifier": "every driver card message, resolver with state, sharing pattern between fields, messages and resolver answers, and sequence of verifications", "why_tests_cant": "The ways in which pointers can coincide are unbounded, and the effect of a write is seen through all of them at later points of the same or another verification.", "anchors": ["verify.go:VerifyFile", "internal/card/driver_card_file.go:VerifyDriverCardFile", "internal/card/driver_card_file.go:verifyGen1Certificates", "internal/card/driver_card_file.go:verifyGen2Certificates", "internal/security/rsa_verify.go:VerifyRsaCertificateWithCA", "internal/security/ecc_verify.go:VerifyEccCertificateWithCA"]}
{"id": "C93", "title": "Anonymising leaves the original as it is", "statement": "Anonymising the places (either generation), the vehicles used or the identification of a card writes to no object that existed before, also if entries of the list and the objects they contain are shared in any way. There is a new record for every entry, and what the result shows is what anonymising separate copies gives. The result for places consists of new objects only, so that no later change of one message can be seen in the other. (Findings: an anonymised list of vehicles has in common with the original the counter object of every entry, and nothing else; an anonymised identification has in common with the original the preferred language of the holder and the three indices of the owner, and nothing else; no two of its fields hold the same new object, even if the original's do. A single anonymised place record has in common with the original its time, and in the second generation also the time of the GNSS position, and nothing else. A program that changes such an object in place changes both messages.)", "quantifier": "every list of place records of either generation and of vehicle records, of any length and with any sharing of records, times, GNSS records, registrations, numbers and counters; every identification of any card type with any sharing of its parts", "why_tests_cant": "Sharing patterns are unbounded, and a test on values does not see which objects two messages have in common.", "anchors": ["internal/card/places.go:AnonymizePlaces", "internal/card/places.go:anonymizeTimestampsInPlace", "internal/card/places_g2.go:AnonymizePlacesG2", "internal/card/places_g2.go:anonymizeTimestampsInPlaceG2", "internal/dd/place_record.go:AnonymizePlaceRecord", "internal/dd/place_record_g2.go:AnonymizePlaceRecordG2", "internal/dd/gnss_place_record.go:AnonymizeGNSSPlaceRecord", "internal/card/vehicles_used.go:AnonymizeVehiclesUsed", "internal/dd/card_vehicle_record.go:AnonymizeCardVehicleRecord", "internal/card/identification.go:AnonymizeIdentification", "internal/dd/driver_identification.go:AnonymizeDriverIdentification"]}
