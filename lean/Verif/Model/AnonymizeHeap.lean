import Verif.Model.Anonymize
/-!
# Anonymising places, with the objects of the messages

Verif.Model.Anonymize has messages as values. Here the records, the GNSS records and the times are objects that the
messages point to, so that it can be said which objects an anonymised message shares with the original, and that no
object of the original is written to.

Simplification: the coordinates, the regions and the raw data are values; the anonymisers make new ones for every record. Lists
have no nil entries here (Verif.Model.NullEntries has them).
-/

namespace Tacho

/-- A `ddv1.GNSSPlaceRecord` object; the time is a pointer. -/
structure GnssObj where
  timestamp : Option Nat
  accuracy : Int
  geo : Option GeoCoordinates

/-- A `ddv1.PlaceRecord` or `ddv1.PlaceRecordG2` object. The time and the GNSS record are pointers; the field
`rest.entryTime` is not used. -/
structure PlaceObj where
  rest : PlaceRecord
  time : Option Nat
  gnss : Option Nat

/-- The objects there are. An object is allocated at `next`. -/
structure Objects where
  next : Nat
  time : Nat → Timestamp
  gnss : Nat → GnssObj
  place : Nat → PlaceObj

/-- `&timestamppb.Timestamp{...}`. -/
def Objects.newTime (h : Objects) (t : Timestamp) : Nat × Objects :=
  (h.next, { h with next := h.next + 1, time := fun a => if a = h.next then t else h.time a })

/-- `&ddv1.GNSSPlaceRecord{}` and its setters. -/
def Objects.newGnss (h : Objects) (g : GnssObj) : Nat × Objects :=
  (h.next, { h with next := h.next + 1, gnss := fun a => if a = h.next then g else h.gnss a })

/-- `&ddv1.PlaceRecord{}` and its setters. -/
def Objects.newPlace (h : Objects) (p : PlaceObj) : Nat × Objects :=
  (h.next, { h with next := h.next + 1, place := fun a => if a = h.next then p else h.place a })

/-- A setter of the place record at `a`. -/
def Objects.setPlace (h : Objects) (a : Nat) (p : PlaceObj) : Objects := { h with place := fun b => if b = a then p else h.place b }

/-- A setter of the GNSS record at `a`. -/
def Objects.setGnss (h : Objects) (a : Nat) (g : GnssObj) : Objects := { h with gnss := fun b => if b = a then g else h.gnss b }

/-- What the getters return through a pointer to a GNSS record. -/
def Objects.gnssAt (h : Objects) (a : Nat) : GNSSPlaceRecord :=
  { timestamp := (h.gnss a).timestamp.map h.time, accuracy := (h.gnss a).accuracy, geo := (h.gnss a).geo }

/-- What the getters return through a pointer to a record of the first generation. -/
def Objects.placeAt (h : Objects) (a : Nat) : PlaceRecord := { (h.place a).rest with entryTime := (h.place a).time.map h.time }

/-- What the getters return through a pointer to a record of the second generation. -/
def Objects.placeG2At (h : Objects) (a : Nat) : PlaceRecordG2 := { base := h.placeAt a, gnss := (h.place a).gnss.map h.gnssAt }

/-- The body of `AnonymizePlaceRecord` up to line 175, internal/dd/place_record.go:153-175: the time is the same object
(line 136). -/
def copiedPlace (o : PlaceObj) : PlaceRecord := {
  rawData := none, entryTime := none, entryType := o.rest.entryType, unrecognizedEntryType := o.rest.unrecognizedEntryType
  country := nationNumeric_finland, unrecognizedCountry := none, region := [1], odometerKm := o.rest.odometerKm.tdiv 100 * 100 }

/-- `record.SetRawData` if `AppendPlaceRecord` succeeds: internal/dd/place_record.go:177-181 and
internal/card/places.go:161-166. -/
def regenerateAt (a : Nat) (h : Objects) : Objects :=
  match appendPlaceRecord [] (h.placeAt a) with
  | .ok b => h.setPlace a { h.place a with rest := { (h.place a).rest with rawData := some b } }
  | _ => h

/-- `AnonymizePlaceRecord`, internal/dd/place_record.go:148-184, for a record that is not nil. -/
def anonymizePlaceAt (a : Nat) (h : Objects) : Nat × Objects :=
  let o := h.place a
  let r := h.newPlace { rest := copiedPlace o, time := o.time, gnss := none }
  (r.1, regenerateAt r.1 r.2)

/-- `AnonymizeGNSSPlaceRecord`, internal/dd/gnss_place_record.go:118-140, for a record that is not nil: the time is the same object. -/
def anonymizeGnssAt (a : Nat) (h : Objects) : Nat × Objects :=
  h.newGnss { timestamp := (h.gnss a).timestamp, accuracy := (h.gnss a).accuracy, geo := some ⟨60100, 24560⟩ }

/-- `AnonymizePlaceRecordG2`, internal/dd/place_record_g2.go:155-188, for a record that is not nil. (The new record is
written down after its GNSS record; nothing reads it in between.) -/
def anonymizePlaceG2At (a : Nat) (h : Objects) : Nat × Objects :=
  let o := h.place a
  match o.gnss with
  | none => h.newPlace { rest := copiedPlace o, time := o.time, gnss := none }
  | some g =>
    let x := anonymizeGnssAt g h
    x.2.newPlace { rest := copiedPlace o, time := o.time, gnss := some x.1 }

/-- The first loop of `AnonymizePlaces`, internal/card/places.go:150-153, and of `AnonymizePlacesG2`,
internal/card/places_g2.go:152-155. -/
def anonymizeEach (f : Nat → Objects → Nat × Objects) : List Nat → Objects → List Nat × Objects
  | [], h => ([], h)
  | a :: as, h =>
    let x := f a h
    let rest := anonymizeEach f as x.2
    (x.1 :: rest.1, rest.2)

/-- A loop over the new records that writes to them; `i` is the index of the first one. -/
def forEachAt (f : Nat → Nat → Objects → Objects) : Nat → List Nat → Objects → Objects
  | _, [], h => h
  | i, a :: as, h => forEachAt f (i + 1) as (f i a h)

/-- The body of the loop of `anonymizeTimestampsInPlace`, internal/card/places.go:194-203. -/
def stampAt (i a : Nat) (h : Objects) : Objects :=
  if (h.place a).time.isSome ∨ i = 0 then
    let t := h.newTime ⟨1577836800 + (i : Int) * 3600, 0⟩
    t.2.setPlace a { t.2.place a with time := some t.1 }
  else h

/-- The second half of the body of the loop of `anonymizeTimestampsInPlaceG2`, internal/card/places_g2.go:206-214. -/
def stampGnssAt (i a : Nat) (h : Objects) : Objects :=
  match (h.place a).gnss with
  | none => h
  | some g =>
    if (h.gnss g).timestamp.isSome then
      let t := h.newTime ⟨1577836800 + (i : Int) * 3600, 0⟩
      t.2.setGnss g { t.2.gnss g with timestamp := some t.1 }
    else h

/-- The body of the loop of `anonymizeTimestampsInPlaceG2`, internal/card/places_g2.go:196-215. -/
def stampG2At (i a : Nat) (h : Objects) : Objects := stampGnssAt i a (stampAt i a h)

/-- `record.SetRawData` if `AppendPlaceRecordG2` succeeds, internal/card/places_g2.go:163-168. -/
def regenerateG2At (a : Nat) (h : Objects) : Objects :=
  match appendPlaceRecordG2 [] (h.placeG2At a) with
  | .ok b => h.setPlace a { h.place a with rest := { (h.place a).rest with rawData := some b } }
  | _ => h

/-- `AnonymizePlaces`, internal/card/places.go:139-179, for a message that is not nil; the records are pointers. -/
def anonymizePlacesAt (p : RecordFile Nat) (h : Objects) : RecordFile Nat × Objects :=
  let x := anonymizeEach anonymizePlaceAt p.records h
  let h := forEachAt (fun _ => regenerateAt) 0 x.1 (forEachAt stampAt 0 x.1 x.2)
  match appendPlaces [] (some { rawData := none, newest := p.newest, records := x.1.map h.placeAt }) with
  | .ok b => ({ rawData := some b, newest := p.newest, records := x.1 }, h)
  | _ => ({ rawData := none, newest := p.newest, records := x.1 }, h)

/-- `AnonymizePlacesG2`, internal/card/places_g2.go:141-181, for a message that is not nil. -/
def anonymizePlacesG2At (p : RecordFile Nat) (h : Objects) : RecordFile Nat × Objects :=
  let x := anonymizeEach anonymizePlaceG2At p.records h
  let h := forEachAt (fun _ => regenerateG2At) 0 x.1 (forEachAt stampG2At 0 x.1 x.2)
  match appendPlacesG2 [] (some { rawData := none, newest := p.newest, records := x.1.map h.placeG2At }) with
  | .ok b => ({ rawData := some b, newest := p.newest, records := x.1 }, h)
  | _ => ({ rawData := none, newest := p.newest, records := x.1 }, h)

end Tacho
