import Verif.Model.VuLegacy
/-!
# The older activity parser, on a slice with spare capacity

Verif.Model.VuLegacy takes the input slice to end where its array ends, and the offset not to be negative. Here the
input is `d`, the array goes on with `spare`, and offsets are any `int`. A slice expression `data[lo:hi]` may reach into
`spare`; `data[i]`, `data[lo:]` and `len(data)` do not. Functions that take no slice with an unchecked upper bound
(`readUint8FromBytes`, `readBytesFromBytes`, `readVuTimeRealFromBytes`, the record arrays read with a scanner) are those of
Verif.Model.VuLegacy.
-/

namespace Tacho

/-- Go `data[lo:hi]`: in range up to the capacity. -/
def slc? (d spare : Bytes) (lo hi : Nat) : Res Bytes := sl? (d ++ spare) lo hi

/-- The value of an `int` expression of this (64-bit) value. -/
def wrap64 (x : Int) : Int := (x + 2 ^ 63) % 2 ^ 64 - 2 ^ 63

/-- `parseVuActivityDailyData` and `parseActivityChangeInfo`, internal/vu/activities.go:600-635. -/
def legacyChangesC (d spare : Bytes) (o : Nat) : Res (List ActivityChangeInfo × Nat) := do
  let (n, o) ← readU8 d o
  readMany (fun o => do
    let b ← slc? d spare o (o + 2)
    let c ← unmarshalActivityChangeInfo b
    return (c, o + 2)) n.toNat o

/-- `parseVuPlaceDailyWorkPeriodData` and `parseVuPlaceRecord`, internal/vu/activities.go:637-662,
711-717. -/
def legacyPlacesC (d spare : Bytes) (o : Nat) : Res (List LegacyPlace × Nat) := do
  let (n, o) ← readU8 d o
  readMany (fun o => do
    let b ← slc? d spare o (o + 10)
    let r ← legacyPlace b
    return (r, o + 10)) n.toNat o

/-- `parseVuSpecificConditionData` and `parseVuSpecificConditionRecord`,
internal/vu/activities.go:719-754. -/
def legacyConditionsC (d spare : Bytes) (o : Nat) : Res (List SpecificConditionRecord × Nat) := do
  let (n, o) ← readU8 d o
  readMany (fun o => do
    let b ← slc? d spare o (o + 5)
    let r ← unmarshalSpecificConditionRecord b
    return (r, o + 5)) n.toNat o

/-- `parseOdometerValueMidnightRecordArray`, internal/vu/activities.go:812-862. -/
def legacyOdometersC (d spare : Bytes) (o : Nat) : Res (List Nat × Nat) := do
  let (n, o) ← arrayHeader 2 (some 3) d o
  readMany (fun o => do
    let x ← slc? d spare o (o + 3)
    let v ← unmarshalOdometer x
    return (v, o + 3)) n o

variable [Charmap]

/-- `unmarshalVuActivitiesGen1`, internal/vu/activities.go:293-349. -/
def legacyGen1C (d spare : Bytes) (start : Nat) : Res (Nat × LegacyActivities) := do
  let (t, o) ← readTime d start
  let x ← slc? d spare o (o + 3)
  let odo ← unmarshalOdometer x
  let (iw, o) ← legacyIWData d (o + 3)
  let (changes, o) ← legacyChangesC d spare o
  let (places, o) ← legacyPlacesC d spare o
  let (conditions, o) ← legacyConditionsC d spare o
  let (signature, o) ← readN d o 128
  return (o - start, {
    generation := 1, version2 := false, dateOfDay := some t, odometerMidnight := some odo, cardIW := iw
    changes := changes, places := places, gnss := [], conditions := conditions, borders := [], loads := []
    signatureGen1 := some signature, signatureGen2 := none })

/-- `parseVuCardIWRecordGen2`, internal/vu/activities.go:913-1027. -/
def legacyIWGen2C (d spare : Bytes) (o : Nat) : Res (LegacyIW × Nat) := do
  let (h, o) ← readN d o 72
  let holderName ← unmarshalHolderName h
  let (c, o) ← readN d o 20
  let _ ← unmarshalFullCardNumberAndGeneration c
  if o + 4 > d.length then .err "insufficient data for card expiry date"
  let e ← slc? d spare o (o + 4)
  let expiry ← unmarshalDate e
  let (insertion, o) ← readTime d (o + 4)
  let x ← slc? d spare o (o + 3)
  let odoIn ← unmarshalOdometer x
  let (slot, o) ← readU8 d (o + 3)
  let (withdrawal, o) ← readTime d o
  let x ← slc? d spare o (o + 3)
  let odoOut ← unmarshalOdometer x
  let (p, o) ← readN d (o + 3) 20
  let prev ← unmarshalPreviousVehicleInfo p
  let (flag, o) ← readU8 d o
  return ({
    holderName := holderName, cardNumber := none, expiryDate := expiry, insertionTime := insertion
    odometerAtInsertion := odoIn, slot := slot.toNat, withdrawalTime := withdrawal
    odometerAtWithdrawal := odoOut, previousVehicle := prev, manualInput := flag != 0 }, o)

/-- `parseVuCardIWRecordArray`, internal/vu/activities.go:864-910. -/
def legacyIWArrayC (d spare : Bytes) (o : Nat) : Res (List LegacyIW × Nat) := do
  let (n, o) ← arrayHeader 0x0D none d o
  readMany (legacyIWGen2C d spare) n o

/-- `unmarshalVuActivitiesGen2`, internal/vu/activities.go:352-438. -/
def legacyGen2C (d spare : Bytes) (start : Nat) : Res (Nat × LegacyActivities) := do
  let (dates, o) ← legacyDates d start
  let (odos, o) ← legacyOdometersC d spare o
  let (iw, o) ← legacyIWArrayC d spare o
  let (changes, o) ← legacyChangeArray d o
  let (places, o) ← legacyPlaceArray d o
  let (gnss, o) ← legacyGnssArray d o
  let (conditions, o) ← legacyConditionArray d o
  let ((borders, loads), o) ← legacyOptional d o
  let (signature, o) ← legacySignature d o
  return (o - start, {
    generation := 2, version2 := borders.isSome, dateOfDay := dates.head?, odometerMidnight := odos.head?
    cardIW := iw, changes := changes, places := places, gnss := gnss, conditions := conditions
    borders := borders.getD [], loads := loads.getD [], signatureGen1 := none, signatureGen2 := some signature })

/-- `UnmarshalVuActivities`, internal/vu/activities.go:281-290, for a target that may be nil and any offset. The first
statement of either generation sets a field of the target. What comes first then is the check `offset+4 > len(data)` of
`readVuTimeRealFromBytes`, or `offset+6 > len(data)` of `parseDateOfDayDownloadedRecordArray`, in which the sum wraps
around, and `data[offset:]`. -/
def unmarshalVuActivitiesC (target : Bool) (d spare : Bytes) (o : Int) (generation : Int) : Res (Nat × LegacyActivities) :=
  if generation = 1 then
    if target = false then .panic
    else if o < 0 ∨ o + 4 ≥ 2 ^ 63 then
      if wrap64 (o + 4) > d.length then .err "unexpected EOF" else .panic
    else legacyGen1C d spare o.toNat
  else if generation = 2 then
    if target = false then .panic
    else if o < 0 ∨ o + 6 ≥ 2 ^ 63 then
      if wrap64 (o + 6) > d.length then .err "insufficient data for record array header" else .panic
    else legacyGen2C d spare o.toNat
  else .err "unsupported generation"

omit [Charmap] in
/-- `UnmarshalVuDetailedSpeed` (internal/vu/detailed_speed.go:95-122) and `UnmarshalVuTechnicalData`
(internal/vu/technical_data.go:204-231) for a target that may be nil and any offset. With a negative offset,
`offset + (len(data)-offset)` is the length and `data[offset:…]` panics, if `make` has not. -/
def unmarshalVuRestC (target : Bool) (d : Bytes) (o : Int) (generation : Int) : Res (Nat × LegacyRest) :=
  if target = false ∨ o < 0 then .panic else unmarshalVuRest d o.toNat generation

end Tacho
