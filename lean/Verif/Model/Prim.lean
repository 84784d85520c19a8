import Verif.Model.Enums
/-!
# Primitive data types of internal/dd

Every `Unmarshal…` function takes the byte slice, every `Append…` function takes the destination
and the message, as in the Go code. A nil message pointer behaves like the empty message in all the
functions of this file (protobuf getters return zero values on nil).
-/

namespace Tacho

/-- Go `byte(x)` for a signed integer `x`: the low eight bits in two's complement. -/
def i2b (x : Int) : UInt8 := UInt8.ofNat (x % 256).toNat

/-- Go `int32(x)`: wrap to the signed 32 bit range. -/
def wrap32 (x : Int) : Int := (x + 2 ^ 31) % 2 ^ 32 - 2 ^ 31

/-- Go `uint32(x)`/`uint16(x)` of a signed integer: the low `k` bits. -/
def low (k : Nat) (x : Int) : Nat := (x % 2 ^ k).toNat

/-! ## Odometer -/

/-- `UnmarshalOdometer`, internal/dd/odometer.go:34-44. -/
def unmarshalOdometer (data : Bytes) : Res Nat :=
  if data.length ≠ 3 then .err "invalid data length for OdometerShort" else .ok (beNat data)

/-- `AppendOdometer`, internal/dd/odometer.go:18-22: big-endian uint32 without its first byte.
The argument is a `uint32`. -/
def appendOdometer (dst : Bytes) (odometer : Nat) : Bytes :=
  dst ++ (beBytes 4 odometer).drop 1

/-! ## BCD -/

/-- The hexadecimal digits of a byte string, `hex.EncodeToString`. -/
def nibbles (b : Bytes) : List Nat := b.flatMap (fun x => [x.toNat / 16, x.toNat % 16])

/-- `decodeBCD`, internal/dd/bcd.go:10-20: hex string parsed by `strconv.ParseInt(s, 10, 64)`, which
fails on a digit a-f and on overflow of int64. -/
def decodeBCD (b : Bytes) : Res Nat :=
  if b.length = 0 then .ok 0
  else if (nibbles b).all (· < 10) then
    let v := (nibbles b).foldl (fun acc d => acc * 10 + d) 0
    if v < 2 ^ 63 then .ok v else .err "invalid BCD value"
  else .err "invalid BCD value"

/-- `strconv.Itoa` for a non-negative value: decimal digits, most significant first. -/
def itoa (n : Nat) : List Nat :=
  if n < 10 then [n] else itoa (n / 10) ++ [n % 10]

/-- `hex.AppendDecode` on a string of decimal digits: two digits per byte. An odd number of digits
is an error in Go; `appendBCD` always passes an even number. -/
def packDigits : List Nat → Bytes
  | a :: b :: t => UInt8.ofNat (a * 16 + b) :: packDigits t
  | _ => []

/-- `appendBCD`, internal/dd/bcd.go:25-45. -/
def appendBCD (dst : Bytes) (value : Int) (length : Nat) : Res Bytes :=
  if value < 0 then .err "cannot encode negative value as BCD"
  else
    let s := itoa value.toNat
    if s.length > length * 2 then .err "value requires more bytes"
    else .ok (dst ++ packDigits (List.replicate (length * 2 - s.length) 0 ++ s))

/-- `BcdString` message. -/
structure BcdString where
  value : Int
  length : Int
  deriving Repr, DecidableEq

/-- `UnmarshalBcdString`, internal/dd/bcd_string.go:19-31. -/
def unmarshalBcdString (input : Bytes) : Res BcdString := do
  if input.length = 0 then .err "insufficient data for BcdString"
  let value ← decodeBCD input
  return { value := wrap32 value, length := wrap32 input.length }

/-- `AppendBcdString`, internal/dd/bcd_string.go:46-59. -/
def appendBcdString (dst : Bytes) (s : Option BcdString) : Res Bytes :=
  match s with
  | none => .ok dst
  | some s =>
    if s.value < 0 then .err "cannot encode negative BCD value"
    else if s.length ≤ 0 then .err "invalid BCD string length"
    else appendBCD dst s.value s.length.toNat

/-! ## TimeReal -/

/-- `timestamppb.Timestamp`. -/
structure Timestamp where
  seconds : Int
  nanos : Int
  deriving Repr, DecidableEq

/-- `UnmarshalTimeReal`, internal/dd/time_real.go:21-31: zero is a nil timestamp. -/
def unmarshalTimeReal (data : Bytes) : Res (Option Timestamp) :=
  if data.length ≠ 4 then .err "invalid data length for TimeReal"
  else
    let timeVal := beNat data
    if timeVal = 0 then .ok none else .ok (some { seconds := timeVal, nanos := 0 })

/-- `AppendTimeReal`, internal/dd/time_real.go:43-48. -/
def appendTimeReal (dst : Bytes) (ts : Option Timestamp) : Res Bytes :=
  let nanos := match ts with | some t => t.nanos | none => 0
  let seconds := match ts with | some t => t.seconds | none => 0
  if nanos > 0 then .err "nanosecond resolution is not supported for TimeReal"
  else .ok (dst ++ beBytes 4 (low 32 seconds))

/-! ## CardStructureVersion -/

/-- `CardStructureVersion` message. -/
structure CardStructureVersion where
  rawData : Option Bytes
  major : Int
  minor : Int
  deriving Repr, DecidableEq

instance : Inhabited CardStructureVersion := ⟨⟨none, 0, 0⟩⟩

/-- Two BCD digits of a byte: `int32((b&0xF0)>>4)*10 + int32(b&0x0F)`. -/
def bcd2 (b : UInt8) : Int := (b.toNat / 16 * 10 + b.toNat % 16 : Nat)

/-- `UnmarshalCardStructureVersion`, internal/dd/card_structure_version.go:24-34. -/
def unmarshalCardStructureVersion (data : Bytes) : Res CardStructureVersion := do
  if data.length ≠ 2 then .err "invalid data length for CardStructureVersion"
  let b0 ← at? data 0
  let b1 ← at? data 1
  return { rawData := some data, major := bcd2 b0, minor := bcd2 b1 }

/-- The check `if x.HasRawData() { if len(x.GetRawData()) != n { return err } }` shared by the
raw-data-painting Append functions; the result is the canvas. -/
def canvasOf (raw : Option Bytes) (n : Nat) : Res Bytes :=
  match raw with
  | some r => if r.length ≠ n then .err "invalid raw_data length" else .ok r
  | none => .ok (zeros n)

/-- `AppendCardStructureVersion`, internal/dd/card_structure_version.go:50-69. Both canvas bytes are
overwritten. Go's `/` and `%` truncate toward zero. -/
def appendCardStructureVersion (dst : Bytes) (csv : CardStructureVersion) : Res Bytes := do
  let _ ← canvasOf csv.rawData 2
  let majorBCD := i2b (csv.major.tdiv 10 * 16) ||| i2b (csv.major.tmod 10)
  let minorBCD := i2b (csv.minor.tdiv 10 * 16) ||| i2b (csv.minor.tmod 10)
  return dst ++ [majorBCD, minorBCD]

/-- `Version` enum. -/
inductive Version where
  | unspecified | v1 | v2
  deriving Repr, DecidableEq

/-- `SetFromCardStructureVersion`, internal/dd/options.go:51-70; enum results as pairs
(generation number, version). -/
def setFromCardStructureVersion (csv : CardStructureVersion) : Int × Version :=
  if csv.major = 0 then (1, .v1)
  else if csv.major = 1 then
    if csv.minor = 0 then (2, .v1)
    else if csv.minor = 1 then (2, .v2)
    else (2, .unspecified)
  else (0, .unspecified)

/-! ## Date -/

/-- `Date` message. -/
structure Date where
  rawData : Option Bytes
  year : Int
  month : Int
  day : Int
  deriving Repr, DecidableEq

instance : Inhabited Date := ⟨⟨none, 0, 0, 0⟩⟩

/-- `UnmarshalDate`, internal/dd/date.go:21-35. -/
def unmarshalDate (input : Bytes) : Res Date := do
  if input.length ≠ 4 then .err "invalid data length for Date"
  let b0 ← at? input 0
  let b1 ← at? input 1
  let b2 ← at? input 2
  let b3 ← at? input 3
  return {
    rawData := some input
    year := (b0.toNat / 16 * 1000 + b0.toNat % 16 * 100 + b1.toNat / 16 * 10 + b1.toNat % 16 : Nat)
    month := bcd2 b2
    day := bcd2 b3 }

/-- `byte(a<<4 | b)` of two signed integers. -/
def packNib (a b : Int) : UInt8 := i2b (a * 16) ||| i2b b

/-- `AppendDate`, internal/dd/date.go:49-69. All four canvas bytes are overwritten. -/
def appendDate (dst : Bytes) (date : Date) : Res Bytes := do
  let _ ← canvasOf date.rawData 4
  let y := date.year; let m := date.month; let d := date.day
  return dst ++ [
    packNib ((y.tdiv 1000).tmod 10) ((y.tdiv 100).tmod 10),
    packNib ((y.tdiv 10).tmod 10) (y.tmod 10),
    packNib ((m.tdiv 10).tmod 10) (m.tmod 10),
    packNib ((d.tdiv 10).tmod 10) (d.tmod 10)]

/-! ## MonthYear -/

/-- `MonthYear` message. -/
structure MonthYear where
  rawData : Option Bytes
  month : Int
  year : Int
  deriving Repr, DecidableEq

instance : Inhabited MonthYear := ⟨⟨none, 0, 0⟩⟩

/-- `UnmarshalMonthYear`, internal/dd/month_year.go:20-46: the fields stay unset (zero) when the
bytes are not BCD or all zero. -/
def unmarshalMonthYear (data : Bytes) : Res MonthYear := do
  if data.length ≠ 2 then .err "invalid data length for MonthYear"
  match decodeBCD data with
  | .ok v =>
    if v > 0 then return { rawData := some data, month := (v / 100 : Nat), year := (v % 100 + 2000 : Nat) }
    else return { rawData := some data, month := 0, year := 0 }
  | .err _ => return { rawData := some data, month := 0, year := 0 }
  | .panic => .panic

/-- `AppendMonthYear`, internal/dd/month_year.go:59-91. Raw data is only checked when non-empty. -/
def appendMonthYear (dst : Bytes) (m : MonthYear) : Res Bytes := do
  let raw := m.rawData.getD []
  if raw.length > 0 ∧ raw.length ≠ 2 then .err "invalid raw_data length for MonthYear"
  let y2 := m.year.tmod 100
  return dst ++ [packNib (m.month.tdiv 10) (m.month.tmod 10), packNib (y2.tdiv 10) (y2.tmod 10)]

/-! ## ControlType -/

/-- `ControlType` message. -/
structure ControlType where
  rawData : Option Bytes
  cardDownloading : Bool
  vuDownloading : Bool
  printing : Bool
  display : Bool
  calibrationChecking : Bool
  deriving Repr, DecidableEq

instance : Inhabited ControlType := ⟨⟨none, false, false, false, false, false⟩⟩

/-- `UnmarshalControlType`, internal/dd/controltype.go:16-29. -/
def unmarshalControlType (input : Bytes) : Res ControlType := do
  if input.length = 0 then .err "insufficient data for control type"
  let b ← at? input 0
  return {
    rawData := some input
    cardDownloading := b &&& 0x80 != 0
    vuDownloading := b &&& 0x40 != 0
    printing := b &&& 0x20 != 0
    display := b &&& 0x10 != 0
    calibrationChecking := b &&& 0x08 != 0 }

/-- `AppendControlType`, internal/dd/controltype.go:46-74. -/
def appendControlType (dst : Bytes) (c : ControlType) : Res Bytes := do
  let canvas ← canvasOf c.rawData 1
  let b ← at? canvas 0
  let b := if c.cardDownloading then b ||| 0x80 else b
  let b := if c.vuDownloading then b ||| 0x40 else b
  let b := if c.printing then b ||| 0x20 else b
  let b := if c.display then b ||| 0x10 else b
  let b := if c.calibrationChecking then b ||| 0x08 else b
  return dst ++ [b]

/-! ## GeoCoordinates -/

/-- `GeoCoordinates` message. -/
structure GeoCoordinates where
  latitude : Int
  longitude : Int
  deriving Repr, DecidableEq

instance : Inhabited GeoCoordinates := ⟨⟨0, 0⟩⟩

/-- `readInt24`, internal/dd/geo_coordinates.go:40-49: sign extension from bit 23. -/
def readInt24 (data : Bytes) : Int :=
  let val := beNat data
  if val / 2 ^ 23 % 2 = 1 then (val : Int) - 2 ^ 24 else val

/-- `appendInt24`, internal/dd/geo_coordinates.go:77-81: the low 24 bits. -/
def appendInt24 (dst : Bytes) (val : Int) : Bytes := dst ++ beBytes 3 (low 24 val)

/-- `UnmarshalGeoCoordinates`, internal/dd/geo_coordinates.go:25-36. -/
def unmarshalGeoCoordinates (data : Bytes) : Res GeoCoordinates := do
  if data.length ≠ 6 then .err "invalid data length for GeoCoordinates"
  let a ← sl? data 0 3
  let b ← sl? data 3 6
  return { latitude := readInt24 a, longitude := readInt24 b }

/-- `AppendGeoCoordinates`, internal/dd/geo_coordinates.go:67-73. -/
def appendGeoCoordinates (dst : Bytes) (g : GeoCoordinates) : Res Bytes :=
  .ok (appendInt24 (appendInt24 dst g.latitude) g.longitude)

/-! ## ActivityChangeInfo -/

/-- `ActivityChangeInfo` message. -/
structure ActivityChangeInfo where
  rawData : Option Bytes
  slot : Int
  crew : Bool
  inserted : Bool
  activity : Int
  timeOfChangeMinutes : Int
  deriving Repr, DecidableEq

instance : Inhabited ActivityChangeInfo := ⟨⟨none, 0, false, false, 0, 0⟩⟩

/-- `UnmarshalActivityChangeInfo`, internal/dd/activity_change_info.go:27-57. -/
def unmarshalActivityChangeInfo (input : Bytes) : Res ActivityChangeInfo := do
  if input.length ≠ 2 then .err "invalid data length for ActivityChangeInfo"
  let value := beNat input
  let slot ← unmarshalEnum cardSlotNumberTable (UInt8.ofNat (value / 2 ^ 15 % 2))
  let activity ← unmarshalEnum driverActivityValueTable (UInt8.ofNat (value / 2 ^ 11 % 4))
  return {
    rawData := some input
    slot := slot
    crew := value / 2 ^ 14 % 2 == 1
    inserted := value / 2 ^ 13 % 2 == 0
    activity := activity
    timeOfChangeMinutes := (value % 2 ^ 11 : Nat) }

/-- `AppendActivityChangeInfo`, internal/dd/activity_change_info.go:105-143. The five fields occupy
disjoint bits, so the ORs are sums. -/
def appendActivityChangeInfo (dst : Bytes) (ac : ActivityChangeInfo) : Res Bytes := do
  let _ ← canvasOf ac.rawData 2
  let slot ← marshalEnum cardSlotNumberTable ac.slot
  let drivingStatus := if ac.crew then 1 else 0
  let cardInserted := if ac.inserted then 0 else 1
  let activity ← marshalEnum driverActivityValueTable ac.activity
  let aci := slot.toNat % 2 * 2 ^ 15 + drivingStatus * 2 ^ 14 + cardInserted * 2 ^ 13
    + activity.toNat % 4 * 2 ^ 11 + low 16 ac.timeOfChangeMinutes % 2 ^ 11
  return dst ++ beBytes 2 aci

/-- `AnonymizeActivityChangeInfo`, internal/dd/activity_change_info.go:66-87 (non-nil argument;
`index` is a non-negative loop index). -/
def anonymizeActivityChangeInfo (ac : ActivityChangeInfo) (index : Nat) : ActivityChangeInfo :=
  { rawData := none, slot := ac.slot, crew := ac.crew, inserted := ac.inserted
    activity := ac.activity, timeOfChangeMinutes := ((index * 30) % 1440 : Nat) }

end Tacho
