import Verif.Model.CardEF
import Verif.Model.Records
/-!
# The older activity parser of internal/vu

`UnmarshalVuActivities` and its helpers (internal/vu/activities.go:281-1795), `UnmarshalVuDetailedSpeed`
and `UnmarshalVuTechnicalData`, with internal/vu/binary_parsing.go. They are exported from an internal
package and nothing in the repository calls them. Simplifications: offsets are not negative and the
input slice has no spare capacity (Verif.Model.VuLegacyCap does without these two); of the target only the
value after a successful call is described.

The tokens of `bufio.Scanner` are used here only while they are current: no record of this file
keeps a slice of the scanner's buffer (`UnmarshalActivityChangeInfo` clones, the others copy numbers),
so the bytes at delivery time (`Tok.bytes`) are enough.
-/

namespace Tacho

/-- `readUint8FromBytes`, internal/vu/binary_parsing.go:12-17. -/
def readU8 (d : Bytes) (o : Nat) : Res (UInt8 × Nat) :=
  if o ≥ d.length then .err "unexpected EOF"
  else do
    let b ← at? d o
    return (b, o + 1)

/-- `readBytesFromBytes`, internal/vu/binary_parsing.go:20-27. `make([]byte, n)` panics for a
negative `n`. -/
def readN (d : Bytes) (o : Nat) (n : Int) : Res (Bytes × Nat) :=
  if (o : Int) + n > d.length then .err "unexpected EOF"
  else if n < 0 then .panic
  else do
    let b ← sl? d o (o + n.toNat)
    return (b, o + n.toNat)

/-- `readVuTimeRealFromBytes`, internal/vu/binary_parsing.go:30-37, with the conversion
`timestamppb.New(time.Unix(v, 0))` that every caller applies. -/
def readTime (d : Bytes) (o : Nat) : Res (Timestamp × Nat) :=
  if o + 4 > d.length then .err "unexpected EOF"
  else do
    let r ← from? d o
    return ({ seconds := (beNat (r.take 4) : Int), nanos := 0 }, o + 4)

/-- A loop `for i := 0; i < count; i++` around a reader that moves the offset. -/
def readMany {α : Type} (read : Nat → Res (α × Nat)) : Nat → Nat → Res (List α × Nat)
  | 0, o => .ok ([], o)
  | k + 1, o => do
    let (a, o) ← read o
    let (as, o) ← readMany read k o
    return (a :: as, o)

/-- The scanner loops of this file: fixed-size tokens, at most `count` of them, each parsed when it
is delivered; the scanner's error is looked at after the loop, and is nil when the loop was left
early. The offset advances by the tokens used (e.g. activities.go:470-497). -/
def readScanned {α : Type} (n : Nat) (parse : Bytes → Res α) (count : Nat) (d : Bytes) (o : Nat) :
    Res (List α × Nat) := do
  let rest ← from? d o
  let out := scanAll (splitFixed n) rest
  let rs ← mapRes parse ((out.toks.take count).map Tok.bytes)
  if out.toks.length ≤ count ∧ out.err.isSome then .err "scanner error"
  return (rs, o + rs.length * n)

section
variable [Charmap]

/-- `Activities_CardIWRecord`. The card number message is always the placeholder or a Gen1 wrapper;
`cardNumber` is its number part. -/
structure LegacyIW where
  holderName : HolderName
  cardNumber : Option FullCardNumber
  expiryDate : Date
  insertionTime : Timestamp
  odometerAtInsertion : Nat
  slot : Nat
  withdrawalTime : Timestamp
  odometerAtWithdrawal : Nat
  previousVehicle : PreviousVehicleInfo
  manualInput : Bool

/-- `unmarshalVuCardIWRecord`, internal/vu/activities.go:503-598. -/
def legacyIWRecord (d : Bytes) : Res LegacyIW := do
  if d.length < 130 then .err "insufficient data for card IW record"
  let h ← sl? d 0 72
  let holderName ← unmarshalHolderName h
  let c ← sl? d 72 91
  let card ← unmarshalFullCardNumber c
  let e ← sl? d 91 95
  let expiry ← unmarshalDate e
  let (insertion, _) ← readTime d 95
  let x ← sl? d 99 102
  let odoIn ← unmarshalOdometer x
  let slot ← at? d 102
  let (withdrawal, _) ← readTime d 103
  let x ← sl? d 107 110
  let odoOut ← unmarshalOdometer x
  let p ← sl? d 110 129
  let prev ← unmarshalPreviousVehicleInfo p
  let flag ← at? d 125
  return {
    holderName := holderName, cardNumber := some card, expiryDate := expiry, insertionTime := insertion
    odometerAtInsertion := odoIn, slot := slot.toNat, withdrawalTime := withdrawal
    odometerAtWithdrawal := odoOut, previousVehicle := prev, manualInput := flag != 0 }

/-- `parseVuCardIWData` with `splitVuCardIWRecord`, internal/vu/activities.go:445-500. -/
def legacyIWData (d : Bytes) (o : Nat) : Res (List LegacyIW × Nat) := do
  let (n, o) ← readU8 d o
  readScanned 126 legacyIWRecord n.toNat d o

omit [Charmap] in
/-- `parseVuActivityDailyData` and `parseActivityChangeInfo`, internal/vu/activities.go:600-635. -/
def legacyChanges (d : Bytes) (o : Nat) : Res (List ActivityChangeInfo × Nat) := do
  let (n, o) ← readU8 d o
  readMany (fun o => do
    let b ← sl? d o (o + 2)
    let c ← unmarshalActivityChangeInfo b
    return (c, o + 2)) n.toNat o

/-- `Activities_PlaceRecord`. The type and the country are the bytes of the file, converted to the enum
type without going through the protocol values. -/
structure LegacyPlace where
  entryTime : Timestamp
  entryType : Nat
  country : Nat
  region : Bytes
  odometerKm : Nat
  deriving DecidableEq

omit [Charmap] in
/-- `unmarshalVuPlaceRecord`, internal/vu/activities.go:665-708. -/
def legacyPlace (d : Bytes) : Res LegacyPlace := do
  if d.length < 10 then .err "insufficient data for place record"
  let (t, _) ← readTime d 0
  let ty ← at? d 4
  let c ← at? d 5
  let r ← at? d 6
  let x ← sl? d 7 10
  let odo ← unmarshalOdometer x
  return { entryTime := t, entryType := ty.toNat, country := c.toNat, region := [r], odometerKm := odo }

omit [Charmap] in
/-- `parseVuPlaceDailyWorkPeriodData` and `parseVuPlaceRecord`, internal/vu/activities.go:637-662,
711-717. -/
def legacyPlaces (d : Bytes) (o : Nat) : Res (List LegacyPlace × Nat) := do
  let (n, o) ← readU8 d o
  readMany (fun o => do
    let b ← sl? d o (o + 10)
    let r ← legacyPlace b
    return (r, o + 10)) n.toNat o

omit [Charmap] in
/-- `parseVuSpecificConditionData` and `parseVuSpecificConditionRecord`,
internal/vu/activities.go:719-754. -/
def legacyConditions (d : Bytes) (o : Nat) : Res (List SpecificConditionRecord × Nat) := do
  let (n, o) ← readU8 d o
  readMany (fun o => do
    let b ← sl? d o (o + 5)
    let r ← unmarshalSpecificConditionRecord b
    return (r, o + 5)) n.toNat o

/-- `Activities_GnssRecord`. -/
structure LegacyGnss where
  timestamp : Option Timestamp
  accuracy : Int
  geo : Option GeoCoordinates
  authentication : Int
  deriving DecidableEq

/-- `Activities_BorderCrossingRecord`, without the two card numbers, which are placeholders. -/
structure LegacyBorder where
  countryLeft : Nat
  countryEntered : Nat
  place : LegacyGnss
  odometerKm : Nat
  deriving DecidableEq

/-- `Activities_LoadUnloadRecord`, without the two card numbers, which are placeholders. -/
structure LegacyLoad where
  timestamp : Option Timestamp
  operation : Nat
  place : LegacyGnss
  odometerKm : Nat
  deriving DecidableEq

/-- The `Activities` message. -/
structure LegacyActivities where
  generation : Nat
  version2 : Bool
  dateOfDay : Option Timestamp
  odometerMidnight : Option Nat
  cardIW : List LegacyIW
  changes : List ActivityChangeInfo
  places : List LegacyPlace
  gnss : List LegacyGnss
  conditions : List SpecificConditionRecord
  borders : List LegacyBorder
  loads : List LegacyLoad
  signatureGen1 : Option Bytes
  signatureGen2 : Option Bytes

/-- `unmarshalVuActivitiesGen1`, internal/vu/activities.go:293-349. -/
def legacyGen1 (d : Bytes) (start : Nat) : Res (Nat × LegacyActivities) := do
  let (t, o) ← readTime d start
  let x ← sl? d o (o + 3)
  let odo ← unmarshalOdometer x
  let (iw, o) ← legacyIWData d (o + 3)
  let (changes, o) ← legacyChanges d o
  let (places, o) ← legacyPlaces d o
  let (conditions, o) ← legacyConditions d o
  let (signature, o) ← readN d o 128
  return (o - start, {
    generation := 1, version2 := false, dateOfDay := some t, odometerMidnight := some odo, cardIW := iw
    changes := changes, places := places, gnss := [], conditions := conditions, borders := [], loads := []
    signatureGen1 := some signature, signatureGen2 := none })

/-! ## Generation 2 -/

/-- The start of every record array parser of the file: a header of six bytes (two each for type,
size, count), the check of the type, and the check of the size where there is one
(e.g. internal/vu/activities.go:765-792). -/
def arrayHeader (type : Nat) (size : Option Nat) (d : Bytes) (o : Nat) : Res (Nat × Nat) := do
  if o + 6 > d.length then .err "insufficient data for record array header"
  let r ← from? d o
  if beNat (r.take 2) ≠ type then .err "unexpected record type"
  match size with
  | some s => if beNat (sl r 2 4) ≠ s then .err "unexpected record size"
  | none => pure ()
  return (beNat (sl r 4 6), o + 6)

/-- `parseDateOfDayDownloadedRecordArray`, internal/vu/activities.go:757-810. The length check before
`readVuTimeRealFromBytes` is the one that function makes. -/
def legacyDates (d : Bytes) (o : Nat) : Res (List Timestamp × Nat) := do
  let (n, o) ← arrayHeader 1 (some 4) d o
  readMany (readTime d) n o

/-- `parseOdometerValueMidnightRecordArray`, internal/vu/activities.go:812-862. -/
def legacyOdometers (d : Bytes) (o : Nat) : Res (List Nat × Nat) := do
  let (n, o) ← arrayHeader 2 (some 3) d o
  readMany (fun o => do
    let x ← sl? d o (o + 3)
    let v ← unmarshalOdometer x
    return (v, o + 3)) n o

/-- `parseVuCardIWRecordGen2`, internal/vu/activities.go:913-1027. -/
def legacyIWGen2 (d : Bytes) (o : Nat) : Res (LegacyIW × Nat) := do
  let (h, o) ← readN d o 72
  let holderName ← unmarshalHolderName h
  let (c, o) ← readN d o 20
  let _ ← unmarshalFullCardNumberAndGeneration c
  if o + 4 > d.length then .err "insufficient data for card expiry date"
  let e ← sl? d o (o + 4)
  let expiry ← unmarshalDate e
  let (insertion, o) ← readTime d (o + 4)
  let x ← sl? d o (o + 3)
  let odoIn ← unmarshalOdometer x
  let (slot, o) ← readU8 d (o + 3)
  let (withdrawal, o) ← readTime d o
  let x ← sl? d o (o + 3)
  let odoOut ← unmarshalOdometer x
  let (p, o) ← readN d (o + 3) 20
  let prev ← unmarshalPreviousVehicleInfo p
  let (flag, o) ← readU8 d o
  return ({
    holderName := holderName, cardNumber := none, expiryDate := expiry, insertionTime := insertion
    odometerAtInsertion := odoIn, slot := slot.toNat, withdrawalTime := withdrawal
    odometerAtWithdrawal := odoOut, previousVehicle := prev, manualInput := flag != 0 }, o)

/-- `parseVuCardIWRecordArray`, internal/vu/activities.go:864-910. -/
def legacyIWArray (d : Bytes) (o : Nat) : Res (List LegacyIW × Nat) := do
  let (n, o) ← arrayHeader 0x0D none d o
  readMany (legacyIWGen2 d) n o

/-- A record array read with the scanner. `size` is the size the header must name, `n` the length of
the tokens. -/
def legacyArray {α : Type} (type size n : Nat) (parse : Bytes → Res α) (d : Bytes) (o : Nat) : Res (List α × Nat) := do
  let (count, o) ← arrayHeader type (some size) d o
  readScanned n parse count d o

/-- `unmarshalVuGNSSADRecord`, internal/vu/activities.go:1274-1319. -/
def legacyGnss (d : Bytes) : Res LegacyGnss := do
  if d.length < 14 then .err "insufficient data for GNSS record"
  let (t, _) ← readTime d 0
  let acc ← at? d 4
  let lat ← sl? d 5 9
  let lon ← sl? d 9 13
  let auth ← at? d 13
  return { timestamp := some t, accuracy := (acc.toNat : Int)
           geo := some { latitude := wrap32 (beNat lat : Int), longitude := wrap32 (beNat lon : Int) }
           authentication := (auth.toNat : Int) }

/-- The conversion in `unmarshalGNSSPlaceAuthRecord`, internal/vu/activities.go:1557-1572. -/
def legacyPlaceAuth (d : Bytes) : Res LegacyGnss := do
  let r ← unmarshalGNSSPlaceAuthRecord d
  return { timestamp := r.timestamp, accuracy := r.accuracy, geo := r.geo, authentication := r.authStatus }

/-- `unmarshalVuBorderCrossingRecord`, internal/vu/activities.go:1485-1552. -/
def legacyBorder (d : Bytes) : Res LegacyBorder := do
  if d.length < 57 then .err "insufficient data for border crossing record"
  let a ← sl? d 0 20
  let _ ← unmarshalFullCardNumberAndGeneration a
  let b ← sl? d 20 40
  let _ ← unmarshalFullCardNumberAndGeneration b
  let left ← at? d 40
  let entered ← at? d 41
  let p ← sl? d 42 54
  let place ← legacyPlaceAuth p
  let x ← sl? d 54 57
  let odo ← unmarshalOdometer x
  return { countryLeft := left.toNat, countryEntered := entered.toNat, place := place, odometerKm := odo }

/-- `unmarshalVuLoadUnloadRecord`, internal/vu/activities.go:1656-1726. -/
def legacyLoad (d : Bytes) : Res LegacyLoad := do
  if d.length < 60 then .err "insufficient data for load/unload record"
  let x ← sl? d 0 4
  let t ← unmarshalTimeReal x
  let op ← at? d 4
  let a ← sl? d 5 25
  let _ ← unmarshalFullCardNumberAndGeneration a
  let b ← sl? d 25 45
  let _ ← unmarshalFullCardNumberAndGeneration b
  let p ← sl? d 45 57
  let place ← legacyPlaceAuth p
  let x ← sl? d 57 60
  let odo ← unmarshalOdometer x
  return { timestamp := t, operation := op.toNat, place := place, odometerKm := odo }

/-- `splitSignatureRecord`, internal/vu/activities.go:1729-1757. -/
def splitSignature : SplitFn := fun d _ =>
  if d.length < 6 then .more
  else if beNat (sl d 2 4) = 0 then .fail "invalid record size: got 0"
  else if d.length < 6 + beNat (sl d 2 4) then .more
  else .token (6 + beNat (sl d 2 4))

/-- `parseSignatureRecordArray`, internal/vu/activities.go:1759-1795: one `Scan`. The error of the
scanner is looked at only if that `Scan` fails. -/
def legacySignature (d : Bytes) (o : Nat) : Res (Bytes × Nat) := do
  let rest ← from? d o
  match (scanAll splitSignature rest).toks with
  | [] => .err "no signature record found"
  | t :: _ =>
    let ty ← sl? t.bytes 0 2
    if beNat ty ≠ 8 then .err "unexpected record type"
    let s ← from? t.bytes 6
    return (s, o + t.bytes.length)

/-- `parseVuActivityDailyRecordArray` with `splitActivityChangeInfoRecord`, internal/vu/activities.go:1030-1109. -/
def legacyChangeArray := legacyArray 3 2 2 unmarshalActivityChangeInfo
/-- `parseVuPlaceDailyWorkPeriodRecordArray` with `splitVuPlaceRecord`, internal/vu/activities.go:1112-1190. -/
def legacyPlaceArray := legacyArray 4 10 10 legacyPlace
/-- `parseVuGNSSADRecordArray` with `splitVuGNSSADRecord`, internal/vu/activities.go:1193-1271. -/
def legacyGnssArray := legacyArray 0x16 14 14 legacyGnss
/-- `parseVuSpecificConditionRecordArray` with `splitSpecificConditionRecord`, internal/vu/activities.go:1322-1401. -/
def legacyConditionArray := legacyArray 9 5 5 unmarshalSpecificConditionRecord
/-- `parseVuBorderCrossingRecordArray` with `splitVuBorderCrossingRecord`, internal/vu/activities.go:1404-1482. -/
def legacyBorderArray := legacyArray 0x17 59 57 legacyBorder
/-- `parseVuLoadUnloadRecordArray` with `splitVuLoadUnloadRecord`, internal/vu/activities.go:1575-1653. -/
def legacyLoadArray := legacyArray 0x18 58 60 legacyLoad

/-- An optional array whose error is ignored: `if err == nil { ... }`. A panic is not. -/
def optionalArray {α : Type} (r : Res (List α × Nat)) (o : Nat) : Res (Option (List α) × Nat) :=
  match r with
  | .ok (as, o') => .ok (some as, o')
  | .err _ => .ok (none, o)
  | .panic => .panic

/-- The version 2 part of `unmarshalVuActivitiesGen2`, internal/vu/activities.go:409-428. -/
def legacyOptional (d : Bytes) (o : Nat) : Res ((Option (List LegacyBorder) × Option (List LegacyLoad)) × Nat) :=
  if o + 10 ≤ d.length then do
    let (borders, o) ← optionalArray (legacyBorderArray d o) o
    if o + 5 ≤ d.length then do
      let (loads, o) ← optionalArray (legacyLoadArray d o) o
      pure ((borders, loads), o)
    else pure ((borders, none), o)
  else pure ((none, none), o)

/-- `unmarshalVuActivitiesGen2`, internal/vu/activities.go:352-438. -/
def legacyGen2 (d : Bytes) (start : Nat) : Res (Nat × LegacyActivities) := do
  let (dates, o) ← legacyDates d start
  let (odos, o) ← legacyOdometers d o
  let (iw, o) ← legacyIWArray d o
  let (changes, o) ← legacyChangeArray d o
  let (places, o) ← legacyPlaceArray d o
  let (gnss, o) ← legacyGnssArray d o
  let (conditions, o) ← legacyConditionArray d o
  let ((borders, loads), o) ← legacyOptional d o
  let (signature, o) ← legacySignature d o
  return (o - start, {
    generation := 2, version2 := borders.isSome, dateOfDay := dates.head?, odometerMidnight := odos.head?
    cardIW := iw, changes := changes, places := places, gnss := gnss, conditions := conditions
    borders := borders.getD [], loads := loads.getD [], signatureGen1 := none, signatureGen2 := some signature })

/-- `UnmarshalVuActivities`, internal/vu/activities.go:281-290: the number of bytes used, and the
message. -/
def unmarshalVuActivities (d : Bytes) (o : Nat) (generation : Int) : Res (Nat × LegacyActivities) :=
  if generation = 1 then legacyGen1 d o
  else if generation = 2 then legacyGen2 d o
  else .err "unsupported generation"

/-! ## Detailed speed and technical data -/

/-- What `UnmarshalVuDetailedSpeed` (internal/vu/detailed_speed.go:95-122) and
`UnmarshalVuTechnicalData` (internal/vu/technical_data.go:204-231) leave in their target. -/
structure LegacyRest where
  generation : Nat
  signatureGen1 : Option Bytes
  signatureGen2 : Option Bytes
  deriving DecidableEq

/-- Both functions: all that remains is stored as the signature. -/
def unmarshalVuRest (d : Bytes) (o : Nat) (generation : Int) : Res (Nat × LegacyRest) := do
  let (rest, o') ← readN d o ((d.length : Int) - o)
  return (o' - o, {
    generation := if generation = 1 then 1 else 2
    signatureGen1 := if generation = 1 then some rest else none
    signatureGen2 := if generation = 1 then none else some rest })

end

end Tacho
