# Design

Target: way-platform/tachograph-go (Go), read as text in /repo. Proof assistant: Lean 4.33.0.

## Approach

* Bytes are `UInt8`, byte strings `List UInt8`. Go integers are `Nat`/`Int` with explicit truncation (`% 2^k`, `low k`) where the Go code truncates.
* A Go call returns `Res`: `ok v`, `err msg` or `panic`. Slice expressions and indexing go through checked helpers, so an out-of-range access is a `panic` outcome of the model and not a silently totalised default.
* Protobuf messages are Lean structures; an optional field is an `Option`. Field values are read through the getters' defaults, as the Go code does.
* Mutable aliasing is modelled in four places. In `bufio.Scanner` the buffer is a heap and tokens are references into it, and the parsed record is read back from the heap after the whole run (C05). In Model/Sharing.lean the first pass of both readers is modelled with slices of the caller's buffer (C71). In Model/Kept.lean the authority certificates a resolver hands out are cells that verifications write to (C73), and in Model/Concurrent.lean several verifications do so at the same time, one access per step (C83). Elsewhere byte fields are values.
* Theorems about properties live in `Verif/Props/*.lean`, the model in `Verif/Model/*.lean`, the small independent specifications in `Verif/Spec/*.lean`, helper lemmas in `Verif/Lemmas/*.lean`. Each theorem has a non-vacuity `example` in its file.
* `Spec/Regulation.lean` and `Spec/Download.lean` are transcribed from the text of the regulation (docs/regulation/chapters in the repository), not from the code: value assignments, file identifiers, record layouts and the structure of a download.
* Where the code does not satisfy the property, the theorem is the exact condition under which it holds or the negation with a concrete witness, and the disagreement is recorded below under Findings. Theorems that prove only a part carry the suffix `_partial`.

## Trusted base

* Lean's kernel. The theorems depend on at most `propext`, `Classical.choice` and `Quot.sound`; AXIOMS.md lists the axioms of each theorem (generated with scripts/axioms.py). No `sorry`, no own axioms, no `native_decide`/`bv_decide`.
* That the model transcribes the Go source: every definition cites file and lines. The enum tables and the files of the card types were compared with the descriptors compiled into the generated Go code (scripts/descriptors.py). The model was run on the test data of the project (scripts/conformance.py): it reads every card file of internal/card/testdata to the values of the golden file and writes the same bytes back, agrees with all tables of the tests of internal/dd that start from bytes, accepts the two real Gen1 certificates under the embedded root (with an executable SHA-1) and reads the two Gen2 ones. No theorem rests on these runs.
* That the model of the Go standard library pieces used is right; its source is not available in the sandbox. These are: `bufio.Scanner` (Model/Scanner.lean: buffer growth 4096 to the maximum, compaction, token limit, empty-token rule), `encoding/binary.BigEndian`, `strconv.ParseInt`/`fmt` for decimal digits, `strings.TrimSpace`/`TrimRight`/`ToValidUTF8`, `encoding/asn1` unmarshalling of `RawValue` and `ObjectIdentifier` (Model/Security.lean), `math/big` `Exp`, `time.Unix`, `time.Parse`/`Format` for the two layouts of the index tool, `encoding/json` for the index file (Model/Json.lean), `filepath.Join`/`Base`, `sort.Slice` (by its contract).
* Universally quantified, so nothing is assumed about them: the character set decoders of golang.org/x/text (`class Charmap`), SHA-1/SHA-2 and ECDSA verification (`class Crypto`), the HTTP transport, the embedded file system's contents, and certificate resolvers (`Resolver σ`, any state and any result).
* That Spec/Regulation.lean, Spec/Download.lean and Spec/VuRegulation.lean transcribe the regulation; lines are cited.

## What is modelled

Everything that UnmarshalFile, MarshalFile, VerifyFile and the raw card functions reach:

* internal/dd: all codecs (times, dates, BCD, odometer, coordinates, activity change info, strings, enums, card numbers, registrations, vehicle, place, GNSS and condition records, IW records) and the exported anonymisers.
* internal/card: raw card file, type inference, every elementary file parser and appender, the driver card router, the driver card writer, and the anonymisers.
* internal/vu: slicing into transfers (all generations), all size functions, the vehicle unit file dispatcher, Gen1 overview (parse and write), Gen1 activities (parse), the Gen2 transfers as far as they get (record array walks), the older parsers UnmarshalVuActivities, UnmarshalVuDetailedSpeed and UnmarshalVuTechnicalData that UnmarshalFile does not use, and the retained-bytes transfers (events and faults, speed, technical data).
* internal/security, internal/cert, verify.go, cert.go: certificate parsing and writing, RSA and ECC verification, resolvers, the remote client, the index, the verification of a card and of a file.
* tools/cmd/fetch-certs/main.go: decoding, the page, the download tasks and their schedules, the sort, the index entries, and whole runs with the answers of the servers and failures of file operations as arbitrary inputs; the JSON of the index; not the HTML library.
* cmd/tachograph: the loop of the parse command over its arguments.
* The protobuf enum annotations (proto/) as tables, with their names.

Not modelled: argument handling and printing of cmd/, tools/magefile.go, generated protobuf code, JSON output of cmd/, `log` output, the text of error messages beyond a constant, memory and time use. The vehicle unit append functions, which no caller reaches, are modelled (Model/Vu.lean).

Simplifications, each stated at the definition: error texts are shortened; `proto.Clone` is identity; nil elements of lists (possible only for hand-built messages) are modelled in Model/NullEntries.lean (C91) and absent elsewhere; in Model/Verify.lean two message fields that point to the same certificate object are treated as separate copies (parsing never creates such sharing; Model/Shared.lean (C92) shows what sharing changes); map iteration order is not used by the code and not modelled; a slice expression past the length of a slice panics in the model, while Go allows it up to the capacity. This makes no difference for UnmarshalFile: where it is proved free of panics no such slice is taken, and where it panics (`input[5:5+length]` with a wrapped end, `data[offset:]` with an offset past the length) Go panics whatever the capacity. For the older UnmarshalVuActivities, which takes `data[offset:offset+3]` unchecked, Model/VuLegacyCap.lean has the capacity (C66).

## Plan per property

| id | property | model and proof |
|---|---|---|
| C01 | Raw card file: parse then serialise is the identity | Exact model of bufio.Scanner over a byte heap plus scanCardFile/unmarshalRawCardFileRecord; inverse proof by induction on the pure TLV split, transported by the C04 refinement. |
| C02 | Raw card file: serialise then parse recovers the records | Same model; induction over the record list. |
| C03 | Raw card file: exact acceptance set and crash freedom | Acceptance characterised by an inductive predicate `TlvConcat` written independently of the code; panic outcome is explicit in the result type. |
| C04 | Scanner-based record splitting does not depend on buffering | Scanner state machine (buffer, start, end, err, reader rest); invariant: unread buffer ++ reader rest = remaining input; theorem: token list = pure chunking for every split function stable under extension. |
| C05 | Raw bytes kept in parsed records stay equal to the input exactly for stated sizes | Scanner tokens are (buffer, offset, length) references into a heap; the value is read after the whole run. Exact set of input sizes for which the kept bytes stay equal (`retained_iff`), witnesses for the others. |
| C06 | UnmarshalFile dispatches on the leading bytes only | Total decision function on byte lists. |
| C07 | Exactly when UnmarshalFile panics | Slice expressions are modelled with a `panic` outcome; exact set of panicking inputs (`file_panics_iff`), with the witness 76 01. |
| C08 | Vehicle-unit slicing partitions the input | Induction on the slicing loop. |
| C09 | Which Gen2 vehicle-unit downloads parse | Arithmetic of nested walks: the parse walk and the size walk of six Gen2 transfers disagree for every input; exact acceptance of the whole file (`vu_file_iff`). |
| C10 | A parsed VU file is generation-homogeneous | Case analysis on the dispatch loop, induction on the records. |
| C11 | MarshalFile of a parsed file reproduces it, or fails loudly | Corollaries of C01 and of the marshal model. |
| C12 | Card type inference | First-match search over the structure table; membership argument gives order/repetition independence. |
| C13 | TimeReal codec | Arithmetic (omega) on base-256 digits. |
| C14 | Odometer codec | As C13. |
| C15 | BCD codec | Induction on the byte list; hex/decimal digit positional arithmetic; int64 bound explicit. |
| C16 | Signed 24-bit coordinates | As C13 with sign extension. |
| C17 | ActivityChangeInfo codec | Bit fields as div/mod arithmetic; all 65536 words by arithmetic, not enumeration. |
| C18 | Protocol enum mapping | Tables transcribed from the .proto files; whole (finite) tables checked by kernel decision, lifted to all bytes. |
| C19 | Dates restore their bytes exactly under a stated condition | Nibble arithmetic. |
| C20 | Code-page strings keep their bytes | Byte lists with an abstract character decoder/encoder. |
| C21 | IA5 strings keep their bytes | Byte lists with trimming modelled. |
| C22 | Append functions extend their destination by a fixed amount | One lemma per Append function. |
| C23 | Composite records restore their bytes | Field-by-field composition of the primitive lemmas. |
| C24 | Card numbers survive a round trip | As C23; negation with witness. |
| C25 | Driver activity iteration terminates and is bounded | Well-founded iteration bounded by the 366 counter; reads are mod-indexed. |
| C26 | Driver activity records are returned oldest first and complete | Layout specification function written independently; induction from the newest record backwards. |
| C27 | Driver activity bytes survive a round trip | Prefix/suffix reasoning. |
| C28 | EF codecs: exact round trip or precise loss | One codec at a time. |
| C29 | Driver card: signature pairing and routing | Induction on the record list against a declarative pairing relation. |
| C30 | Driver card: marshalled output is a well-formed card file | Induction on the list of emitted EFs. |
| C31 | Driver card: signatures and Gen2 EFs survive unmarshal-marshal | False of the code; universal negation, and the exact condition under which the bytes are restored (`driver_card_roundtrip_iff`). |
| C32 | VerifyFile success means the chain was checked | Resolver, hash and ECDSA are universally quantified functions; proof by inversion of the success path. |
| C33 | RSA certificate verification is exactly the ISO 9796-2 check | RSA on Nat with a universally quantified hash; iff by inversion. |
| C34 | What a failed RSA verification does to signature_valid | State transformer on the certificate record; exact effect of a failed call, witness for the stale mark. |
| C35 | Fixed-size certificates: parse and append | Byte slicing, injectivity of decimal printing. |
| C36 | ECC certificate parsing is total and bounded | Model of asn1.RawValue parsing used by the code. |
| C37 | ECC verification uses the CA's curve and the matching hash | As C33 with abstract ECDSA. |
| C38 | Chain resolver returns the first success | Induction on the resolver list, with an explicit call trace. |
| C39 | Embedded certificates cannot be found by their reference | False of the code (file names carry the directory); proved for every reference. |
| C40 | Anonymisation keeps exactly the documented information | Two-run equality: two messages give the same anonymised message iff they agree on the listed information; idempotence; re-reading of the written bytes. `anonymize_places_bytes`, `anonymize_placesG2_bytes` and `anonymize_vehicles_bytes` state the effect from the bytes of a file to those of its copy, field by field of the regulation (Spec/AnonymizeBytes.lean). |
| C41 | Gen1 VU overview: the counts account for every byte, and exactly which overviews are written back unchanged | Parsing: an independent shape predicate, iff. Writing: exact set of overviews that are restored. |
| C42 | Gen1 VU activities: size pass and parse pass agree | Slicing arithmetic. |
| C43 | Decoded text is valid UTF-8, except Gen2 vehicle identification numbers | A list of every string field of a file, and UTF-8 validity as an inductive predicate; exact condition (the Gen2 VIN). |
| C44 | Control type flags | Bit fields. |
| C45 | Generation and version from the card structure version | Decision table. |
| C46 | Client lookup returns the entry with the requested CHR | Induction on the index. |
| C47 | The issuing member state of a card number is the nation its byte names | False of the code; exact set of bytes for which it holds. |
| C48 | Decoded record fields are the bytes the layout assigns to them | One theorem per record: each field is stated as a slice of the input. Props/EventFields.lean does it for event and fault files. |
| C49 | A driver activity buffer rebuilt from records reads back as the same days | Encoder and reader composed; layout specification shared with C26. |
| C50 | Parsing the elementary files of a card never panics | Totality of each parser (`≠ panic`), composed over the record list. |
| C51 | The card slots status names the cards in the slots | False of the code; exact function of the slots byte that is reported. |
| C52 | Coded bytes are reported under the regulation's meaning | Value assignments transcribed from the regulation in Spec/Regulation.lean; all 256 bytes by kernel decision per table. |
| C53 | Files are recognised and written under the regulation's identifiers | File lists transcribed from the regulation; all 65536 identifiers by a table argument. |
| C54 | Record fields sit where the regulation puts them | Layouts transcribed from the regulation as element lists with sizes; each reported field is the named element. |
| C55 | A driver card download that conforms to the regulation is accepted and read | Downloads described from the regulation (Spec/Download.lean); acceptance of every conforming sequence from C06, C29, C53 and the per-file acceptance theorems; activity days from C26. |
| C56 | Vehicle unit messages of the regulation are cut and read as the regulation lays them out | Messages transcribed from Appendix 7 as element lists (Spec/VuRegulation.lean); extents by comparison of layouts, fields by name, acceptance of a whole download as an iff; wrong array counts by a prefix argument on the cut of the file. |
| C57 | The certificate index tool reads the same keys, references and dates as the library | Both decoders modelled; equality with the library through the ISO 9796-2 specification of C33 and the certificate layout of C36; calendar arithmetic against a table of months. |
| C58 | The certificate index is complete and ordered for every order of the concurrent downloads | Interleavings as an inductive relation on the tasks' step lists; permutation invariant; the sort by its contract; the comparison shown to be the specified order, counterexamples for ties and equal holders. |
| C59 | What the certificate index tool takes from the web page, and where it writes files | The page as a tree; rows by mutual induction, cells by a fold invariant; dates as digit texts with an iff; path joining with the resolution of "..", and a page that escapes. Props/FetchNames.lean spells the file names out. |
| C60 | An index entry leads the client back to the certificate | Composition of C57 with the client (C46) and verification (C33). |
| C61 | What is written is what the message says | Messages that fit the format and the relation "same message" specified field by field (Spec/WriteRead.lean, Spec/WriteFiles.lean); writer and reader composed, one theorem per record and file, lists by induction; exact rule for the file whose deleted records stay. |
| C62 | A message with missing parts | False expectations of the code: exact bytes or length written for each missing part and the reader's refusal. |
| C63 | A driver card, written and read back | The written file is a list of blocks with known file and generation (C30); the parser takes the newest block per place (C29), here the only one; each block by C61; refusal without ICC by the first two bytes, with the certificate by C29. |
| C64 | A run of the certificate index tool, finished, failed or cut off | The run is a sequence of changes to a map from paths to contents, produced by the modelled functions with arbitrary answers of servers and file system; a cut-off run has applied a prefix, with the next write torn. Shape lemma: all changes but the last concern .bin files. errgroup with limit as a transition system; measure argument for termination. |
| C65 | The parse command | parseFiles by induction over the arguments; exact characterisation of success, error and crash. |
| C66 | The older activity parser | readers related to the input that is left before and after (Reads), composed; scanner loops through chunks; panics by walking the binds. |
| C67 | A driver card file can be read, written and read again | every parser yields parts that satisfy the conditions of C63 once nations, code pages and digits are recognised; the writer fails exactly at an unrecognised nation or a too large odometer value, part by part; for every card that is written, the card with code pages, digits and number settled (Spec/CardSettled.lean) satisfies C63 and, but for the number, has the same bytes. |
| C68 | Vehicle unit transfers are written back byte for byte | one model function for the thirteen writers; the parsers keep the whole value as raw data (C09, C42) and accept no empty value. |
| C69 | Text fields show exactly the text of their bytes | a relation reads bytes as characters and stray bytes; decoding from the left and from the right both find its symbols (UTF-8 is self-synchronising), so the trimming and replacing loops compute what it says. |
| C70 | A driver card file the library wrote is written again unchanged | for each file kind, the bytes written for the message read back are those it was read from (C48 restores what was written, C61 says what that was); so the entries of the file are the same, and C30 gives the bytes; the card number of a parsed card, cut by the writer, shows a beginning of its text, which fits. |
| C71 | Which memory a result shares with the caller's buffer | Model/Sharing.lean: the first pass of both readers with byte slices over backing arrays; agreement with the value model by induction over the records, then each window is followed through a later write or append. |
| C72 | Verifying is repeatable and leaves no trace in what is written | a verification looks only at the raw bytes, the named authority and (ECC) the parsed fields, and changes only marks and recovered fields; composition of two verifications by cases on what the first changed; writing reads only the raw bytes of certificates. |
| C73 | A resolver may keep its certificates | the certificates a resolver keeps are cells; invariant over the sequence of verifications: a cell is as at the start, or had no key and was signed by the root and filled in, or was marked; a filled or marked cell gives the key a fresh copy gives. |
| C74 | Values that do not fit the format are cut when a driver card is written | functions cutX on messages (Spec/Reduce.lean) that say what is left of each value; each writer gives the same bytes for a message and its cut, composed up to MarshalFile; with the write-read theorems of C61 and C63 this gives what is read back. |
| C75 | The order of the files of a card and damage to one of them | the parser as a function of blocks (data record, optional signature): the newest block of each place; permutation lemmas for pairwise different places; replacing one record keeps all other blocks, so every other place of the message. |
| C76 | A download that was cut off | a cut of the concatenation of records is a concatenation of the first records or ends inside one, which the raw parser refuses; the blocks of the first records are the first blocks, the last perhaps without signature; likewise for the transfers of a vehicle unit, with the version decided by what is left. |
| C77 | How large a message can get | every parser of a list gives at most as many entries as it has bytes; the values of the records of a file are disjoint parts of it, and each place of the message is filled from one of them; the iterator over the days stops at 365, and a day is at most 65 535 bytes; the maximum is reached by a chain of overlapping headers, proved by induction on the position |
| C78 | Downloads joined in one file | a card file is a sequence of readable blocks, and the newest block of an appended sequence is that of the second or else of the first; a vehicle unit file is a sequence of transfers that is cut in one way only, and generation and version of the joined sequence follow from what types occur. |
| C79 | What leaves no trace in the message | each parser is shown to be injective, or injective up to an explicit relation of contents; the message of a card is determined by the newest block of each place, so its equality is equality up to these relations place by place. For a vehicle unit the raw bytes kept in every transfer message give the value back. |
| C80 | The index file between the tool and the library | encoding/json as far as it is used (Model/Json.lean): the indenting writer with its escapes; a reader that takes a document apart by fuel and depth, and a second pass that stores it in the structs. The RFC 8259 grammar and the meaning of strings are inductive predicates (Spec/Json.lean). The reader is shown to accept exactly the grammar and to be deterministic, the writer to produce it, and storing to be what the document says, also for repeated names (an invariant on the elements the slice holds, seen and unseen). A torn file: a value that is complete before the end would be read as such from the whole file, too. Then composed with the run of C64 and the client of C60. |
| C81 | Certificates issued as the regulation prescribes are accepted | Spec/Issuing.lean says how certificates are issued (CSM_014-018 and CSM_134-150), without reference to the parser. RSA: Fermat for both primes gives m^(ed) = m, so opening with e and signing with d are inverse to each other modulo n; the message starts with 6A and is therefore below every modulus of 1024 bits. ECC: each data object is a DER item, lengths for all 36 pairs of curves; then ecc_parse_iff and ecc_verify_iff of C36 and C37. Composed with driver_card_verified_iff of C32 and, for whole downloads, with conformant_download_read of C55. |
| C82 | The valid marks of the entries of a card | Spec/Marks.lean reads the marks off the message. Each file parser gives the marks of its own records (the days from the path through the cyclic buffer); `driver_card_iff` says that every file of a card is what its parser makes of the newest block of that file, so the marks hold for the card. Places: every 10 or 21 bytes are decoded and no code sets the mark. |
| C83 | Verifications at the same time may share the certificates of a resolver | Model/Concurrent.lean takes the verification apart into its accesses to the fields of a kept certificate; a schedule is the list of the goroutines that take the next access. Invariant: every cell holds some first part of the one list of writes its bytes and the root lead to (writing a value again changes nothing), and every goroutine is in a phase that the verification alone passes through. `rsaWrites_core` ties the lists of writes to the function of Model/Security.lean. |
| C84 | What a successful verification rests on, and what it does not protect | Spec/Protection.lean: the two certificates of a card that are verified, and a card with them replaced. Case analysis of the verification steps shows that they are all it reads; with the damage theorems of C75 and the joining of downloads (C78) this becomes statements about the bytes of a download. The forged download is constructed: the newest certificate records of the verified download are appended, and the reader lets the newest record of a file win. |
| C85 | Damage to one transfer of a vehicle unit download, and a lost transfer | Spec/VuDamage.lean says when two vehicle unit messages agree up to one transfer. The exact description of accepted downloads (C40 and its decoders) turns the claim into one about the lists of values by type, where one element is replaced or removed; for signatures, the exact descriptions of overviews and activities are applied twice, since none of the offsets they mention lies in the last 128 bytes. |
| C86 | Writing a driver card and reading it back does not change the answer of verification | Spec/VerifyRewritten.lean lists the Gen2 files that are written. Certificates of a parsed card are what the parsers make of their own bytes, which are written verbatim (C67, C70), and an application of a parsed card is never empty; so the two cards agree in everything C84 says verification rests on. |
| C87 | From the published certificates to a verified card | Model/Built.lean gives the default resolver of a program built with the files of a directory (go:embed patterns). C64 says what a successful run leaves, C80 what the index file says to the client, C39 that the embedded certificate files are never found, C57 that the tool and the library see the same references, C81 that prescribed certificates with the chain found are accepted; the proof joins them. The hypotheses are on what is published and issued (Spec/Published.lean), not on the model. |
| C88 | Every parsed file passes the validation of its schema | Spec/Schema.lean states the buf.validate annotations of StringValue and Ia5StringValue (the only annotated messages) and lists the string messages of each message type. The proof follows every parser with a postcondition, as in C43; event and fault records, whose registration number keeps a slice of the scanner buffer, need that buffers never change their size (scanRun_sizes). |
| C89 | Text put into a message by a program: what is read back | Spec/HandText.lean says what a table with one character for each byte is. Reading back gives the text between the padding; counting the bytes beyond ASCII (at least two for each character beyond ASCII) shows that the text can only be the same if there are none. |
| C90 | Every value of a parsed file lies in the range of its field | Spec/Ranges.lean states the range of every field of every message. One postcondition lemma for each parser, put together along the calls; the exactness of the ranges of the basic elements from the encode/decode theorems of C13 to C18; the file beyond the regulation from the characterisation of accepted files. |
| C91 | Nil entries in the lists of a message | Model/NullEntries.lean repeats the writers and anonymisers of the card files with lists of options and a panic where a setter is called on nil. Each loop is shown equal to the loop of the other model over the list with empty messages (or without the nil ones), and from there the whole file; the failures and the panics by induction over the lists. |
| C92 | Messages that share certificate objects | Model/Shared.lean repeats the verification of a card over a heap of RSA and ECC certificates, with pointers in the message and in the answers of the resolver. The answer is compared step by step with Model/Verify.lean on copies: the second check reads only the bytes of the card certificate, which no write changes. Runs by induction; the dependence on the order is a chain of certificates with exponent 1, for every hash function. |
| C93 | Anonymising leaves the original as it is | Model/AnonymizeHeap.lean has records, GNSS records and times as objects of a heap. Each loop is shown to write only to the objects of the record it is at (`Ext`), so what the others show is kept; by induction the result is new, the original untouched, and what is shown is Model/Anonymize.lean on values. Model/AnonymizeObjects.lean does the same for the vehicles used, and Model/AnonymizeIdent.lean for the identification: each part is shown to grow the heap, to consist of new objects but for the named ones, and to show the value of Model/Anonymize.lean. |

## Findings: where the code does not do what a user would expect

Each is a theorem (name in parentheses).

Card files
* A raw card record with a value of exactly 65531 bytes makes the parser panic (`raw_card_panics_iff`).
* Company cards are always taken for driver cards (`company_card_mistaken`).
* EF CardMA_Certificate is never recognised, and a driver card download that contains it is refused (`mapFid_never_cardMa`, `gen2_card_refused`).
* A download that does not start with EF ICC is refused, though the regulation makes ICC optional (`download_without_icc_refused`).
* One used event or fault record with a manufacturer specific or reserved code makes the whole download refused (`manufacturer_event_refused`).
* Events, vehicles and other scanned files can report overwritten raw bytes, because records alias the scanner's buffer (`events_overwritten`, `vehicleUnits_overwritten`); above 4096 bytes a used event is written with a registration number taken from elsewhere in the file (`event_number_overwritten`).
* Activity: 366 stored days or more are refused (`year_refused`); a day whose header lies across the end of the buffer is lost with all older ones (`activity_exact`); a file of exactly four bytes is refused (`driverActivity_four`); the writer keeps a stale newest-record pointer (`activity_rebuild_pointer`).
* Application_Identification_V2 is misread for every conforming file (`applicationIdentificationV2_misread`).
* The last two bytes of driver card numbers are lost, control card numbers rejected, the issuing member state mis-decoded (`fullCardNumber_driver_lost`, `fullCardNumber_control_rejected`, `fullCardNumber_nation_iff`).
* BCD strings of five bytes or more are truncated to 32 bits (`bcdString_five_bytes_lost`); clearing a control type flag has no effect (`controlType_clear_no_effect`); an unknown code page byte is lost (`stringValue_unknown_lost`).
* The Gen2 VIN may be invalid UTF-8 (`file_text_not_utf8`). Nation FF ("Rest of the World") is reported as empty (`rest_of_world`).
* Marshalling a driver card replaces all signatures by zeros and drops eight Gen2 files (`driver_card_signatures_zero`, `driver_card_gen2_not_written`).

* Writing edited messages: the text of a string is ignored while its raw bytes are present (`text_edit_ignored`); records deleted from EF Specific_Conditions of Gen2 come back (`conditionsG2_deleted_stay`); an event marked as used without begin time is read as unused (`event_without_begin`).
* A parsed card in which one nation code was not recognised, in whatever part that is written, cannot be written at all (`parsed_card_written_iff`).
* A card message without an ICC, or with a Gen2 certificate for mutual authentication, is written to a file the reader always refuses (`driver_card_without_icc`, `driver_card_with_ma_certificate`).
* Missing parts: a missing text is written as one byte or none, so several messages are written in a form the reader refuses (`holderName_without_surname`, `licence_without_authority`, `licence_without_number`, `identification_without_firstNames`, `cardNumberGen_without_number`, `control_short`).

Vehicle unit files
* Truncated input makes UnmarshalFile panic (`vu_panics_iff`, `file_panics_iff`).
* Six of the Gen2 transfers are refused for every input (`gen2_unreadable`).
* Technical data of Gen2 version 1 has eight record arrays in the regulation, the slicing pass takes four (`technicalG2V1_refused`); events and faults of Gen2 version 2 has six, it takes seven (`eventsG2V2_refused`).
* A Gen1 overview with a control done with a control card is refused (`overview_control_card_refused`, `controlled_vehicle_refused`); an unknown country in one place record refuses the download (`activities_unknown_country_refused`); the cards in the slots are always misreported (`overview_slots_wrong`).
* MarshalFile always fails for vehicle unit files (`file_vehicle_unit_not_written`), VerifyFile always succeeds (`verify_file_iff`).
* The older parser UnmarshalVuActivities (not used by UnmarshalFile) refuses every Gen2 message of the regulation (`legacy_gen2_refuses_regulation`), never reports a card insertion, a border crossing or a loading operation (`legacy_no_card_records`, `legacy_no_border_records`: their card numbers get 20 bytes, and the parser of card numbers takes 19), reads activity changes as specific conditions (`legacy_gen1_misreads`, `legacy_gen1_one_change`), reports raw bytes as enum values (`legacy_place_enums`) and panics on truncated input (`legacy_gen1_panics_iff`, `legacy_gen2_panics_iff`).

Certificates
* A card without any application verifies (`empty_card_verified`); the Gen2 authority certificate is never verified (`gen2_root_never_used`); validity dates are never checked.
* An RSA certificate that was only parsed never works as an authority (`rsa_parsed_authority_has_no_key`); a failed verification can leave an old `signature_valid` in place (`rsa_stale_mark`, `ecc_stale_mark`).
* The embedded certificates are never found (`embedded_never_finds`).
* No tag of an ECC certificate is checked except that of the object identifier (`ecc_parse_iff`).

Anonymisation
* What remains visible is listed exactly in C40. The record-level place anonymiser keeps the entry time although its comment says it shifts it (`anonymize_place_values`); the anonymised identification of a workshop card is 65 bytes and cannot be read back (`anonymize_workshop_card_unreadable`).

Certificate index tool (tools/cmd/fetch-certs)
* A valid Gen1 certificate whose signature starts with the byte 3C is taken for a web page and left out (`valid_certificate_left_out`).
* When the holder cannot be read, the file name comes from a link of the page and may lead outside the output directory (`file_escapes`).
* Two certificates of one holder are written to the same file; both stay in the index (`index_same_holder_overwrites`). The client then always downloads the first (C46).
* Entries with equal country and expiration have no fixed order (`index_not_reproducible`).
* A later cell that looks like a date but is none removes the expiration (`later_cell_removes_date`). An end of validity of zero becomes the year 1 (`fetch_content_read`).
* The tool does not compare a certificate's authority with the root's key identifier, the library does (`fetch_gen1_agrees`).
* The old certificate files are removed before the first download, so a failed run leaves an index whose files are gone (`failed_run_loses_certificates`). The index is not replaced atomically (`index_torn`); when the disk is full at that moment, the old index is lost and the library refuses what is left (`full_disk_loses_index`, `torn_refused`). A certificate file whose writing fails is not removed, and can damage the file of another certificate of the same holder (`index_file_damaged`). `-concurrency 0` hangs (`downloads_hang`).

Command line tool
* `tachograph parse` crashes on a file UnmarshalFile panics on, for example the two bytes 76 01 (`parse_command_crash`).
* C69: the bytes 85, A0 and FF in the cutset of `trimSpaceAndZeroBytes` are not valid UTF-8, so they stand for U+FFFD: every stray byte and every U+FFFD at the ends of a text is removed, but the characters the tables give for 85, A0 and FF are not, so a text field padded with FF under a code page keeps the padding as ÿ (Latin-1).
* C68: the transfer writers write the kept raw data only: changed fields of a parsed message are not written.
* C49: a day without decoded contents (raw record kept) is written with the raw record's own link to the record before it, whatever was written before it; a list of such a day and an ordinary one can be written to a buffer the reader refuses (`activity_rebuild_stale_link`).
* C32: without a certificate resolver no parsed card that has a Gen1 application verifies, though the authority certificate is on the card (`parsed_gen1_offline_refused`).
* C71: a parsed vehicle unit file shows the caller's buffer: using the buffer again changes the raw data, certificates and signatures of the earlier result but not its decoded fields (`vu_buffer_reused`), and appending to the raw data of one transfer overwrites the next (`vu_append_overwrites_next`). Card files are copied (`card_result_independent`).
* C72: the authority reference inside the signed content of a Gen1 certificate is not compared with the one outside (the code says so); the first verification replaces the outer by the inner, so a certificate in which they differ is verified once and refused the second time (`verify_again_refused`).
* C74: values that do not fit are cut without an error when a card is written: an event of a type nobody knows becomes a general event (code 0), also UNRECOGNIZED; 16 777 217 km become 1 km; a time after 2106 becomes one after 1970. The writers differ: the accuracy of a position is refused in one GNSS record and cut in the other, an odometer is refused in EF_GNSS_Places and cut elsewhere, an unknown nation is refused in a registration and cut in a place.

* C75: a driver card file is recognised only if its first record is EF_ICC; the same records in another order are refused, although no parser depends on the order.
* C76: a driver card file that was cut off between two records is accepted. A cut between data and signature leaves data without a signature, which reading does not report. A second generation version 2 vehicle unit download that begins with detailed speed and was cut off after it is taken for version 1.
* C77: a driver card file of 2 968 bytes gives a message with 23 915 530 activity changes. The iterator over the daily records accepts a length larger than the buffer, reads round the buffer as often as needed, and lets days overlap; only the number of days (365) is limited.
* C78: two downloads in one file are read as one, also those of two different drivers: the message then mixes the two cards. Nothing compares the card numbers.
* C79: the README promises full fidelity. Bytes after the fixed length of eight files, which of the codes without a name a nation has, all but the last block for a place, all but the last overview of a vehicle unit, the value of the download interface version and the order between transfer types leave no trace in the message. Nothing else is lost.
* C80: a link on the page whose bytes are not UTF-8 goes into the index with U+FFFD, so the library asks for another address than the tool did. An index torn by a crash is refused by LoadIndex, it is never read as a shorter one; but since the file is embedded at build time, every lookup of the online client then fails.
* C81: the number of a first generation signature is not required to be below the modulus. A certificate whose signature plus modulus fits in 128 bytes has a second form that differs in its bytes and is accepted too (signature_not_unique). And the name of the authority at the end of the certificate is not compared with the one inside the signed content (accepted_iff_private).
* C82: place records, of both generations, are never marked valid (`places_unmarked`, `placesG2_unmarked`), although place_record.proto documents `valid = true` for records that were parsed. Events, faults, days and the last control are marked as documented (`card_marks`).
* The field `signature_verified` of the elementary files of a card is set by no code in the repository: only certificates are verified, never the signatures over the data. It is therefore not in the model.
* C83: verifications that share a certificate write its fields without synchronisation, a data race in Go. Under one global order of the accesses the outcome is right, because the exponent, which the check looks at, is written last; with the writes visible in another order a genuine card can be refused (`reordered_writes`), and likewise if the resolver keeps a certificate with an exponent and no modulus (`half_key`).
- C84: `VerifyFile` checks the chain of the card's certificates only. No signature of an EF is checked, and the certificate is not compared
  with the card number, so the certificates of one card, appended to the download of another, make that download verify
  (`borrowed_certificates`), and any other file of a verified download can be changed (`changed_file_unnoticed`,
  `changed_signature_unnoticed`).
- C85: the signatures in a vehicle unit download are kept but never looked at, a missing transfer leaves no trace in the message, and a single undecodable record in an overview or a day of activities makes the whole download unreadable (`vu_damage`, `vu_signature_damage`, `vu_lost`). A second version download left with only detailed speed is reported as first version (`vu_lost_version`).
- C30: the card writer does not check the size of a file against the 16 bit length field. A message with a file of 65531 bytes (6553 places) is written to a file that makes the reader panic (`driver_card_written_panics`), and contents beyond 65536 bytes are read as records of their own, so that a message can be written whose file is read as a card with other files (`driver_card_overlong`).
- C67, C70: a parsed text with an unrecognised code page is written under code page 255 and is empty when read again. A card number with a stray byte is shown with U+FFFD (three bytes); writing cuts the longer text in the middle of a character, so the file changes at its first and at its second writing (`stray_written_twice`), and not after that (`parsed_card_rewritten`).
- C86: eight Gen2 files are not written (C70). A card whose Gen2 application consists only of such files fails verification (`card sign certificate is missing`); after writing and reading it the application is gone and verification passes (`bare_card_passes_when_rewritten`).
- C89: AppendStringValue writes the UTF-8 bytes of a text under every code page, so text with characters beyond ASCII that a program puts into a message is read back as another text (`text_read_back_iff`, `text_beyond_ascii_changed`). Under an unset or unrecognised encoding the text is dropped without an error (`text_without_page_lost`).
- C90: values the regulation does not have are accepted without an error: positions beyond the pole, odometer values beyond 9 999 999 km, changes of activity at minute 2047, dates such as day 165 of month 165 of year 16665 (half bytes A to F count as digits), and an issuing state whose number its enum does not have (`file_beyond_regulation`, `issuing_state_undeclared`).
- C91: `AnonymizePlaces` and `AnonymizePlacesG2` panic if a place is nil, because they set the raw data of each record that can be written and a nil one can (as zeros). The other functions accept nil entries or report them. Proved: `anonymize_places_nil`, `anonymize_placesG2_nil`.
- C92: verification fills in the key of a first generation card certificate. If another message uses the same object as the certificate of its authority, it is refused before and accepted after (`shared_order_matters`).
- C93: `AnonymizePlaceRecord`, `AnonymizePlaceRecordG2` and `AnonymizeGNSSPlaceRecord` return records that share their time objects with the original (`anonymize_place_shares`, `shared_time_changes_both`), although they are documented as copies. `AnonymizePlaces` and `AnonymizePlacesG2` replace the times and share nothing; `AnonymizeVehiclesUsed` shares the counter object of every record (`anonymize_vehicles_shares`, `shared_counter_changes_both`); `AnonymizeIdentification` shares the preferred language of the holder and the indices of the owner (`anonymize_identification_shares`, `shared_index_changes_both`, `shared_language_changes_both`).

## Testing the theorems against wrong programs

seeded/LOG.jsonl: one line per edit of the model in a scratch copy, with the theorems that failed, and what was tightened. The field `outcome` says what was observed: `survived` and `survived, then tightened` for edits under which every theorem still proved, `rejected by an example only` (`, then tightened`) where nothing but an example failed in that run, and `rejected, then tightened` where a proof broke although the statements said too little, as for a reader and a writer edited alike.
