import Verif.Model.Anonymize
/-!
# What anonymisation may let through

For each anonymised message, the only information of the original the anonymised copy may depend on.
Everything not mentioned here (names, numbers, addresses, coordinates, countries and regions of places,
registration numbers, dates, raw bytes, signatures) must not influence the result.
-/

namespace Tacho.Spec

/-- Vehicle record: odometers to the thousand, nation, counter. -/
def vehicleKept (r : CardVehicleRecord) : Int × Int × Option Int × Option BcdString :=
  (r.odometerBegin.tdiv 1000, r.odometerEnd.tdiv 1000, r.registration.map (·.nation), r.counter)

/-- Place record on its own: entry time, entry type, odometer to the hundred. -/
def placeKept (r : PlaceRecord) : Option Timestamp × Int × Option Int × Int :=
  (r.entryTime, r.entryType, r.unrecognizedEntryType, r.odometerKm.tdiv 100)

/-- GNSS record on its own: time and accuracy. -/
def gnssKept (r : GNSSPlaceRecord) : Option Timestamp × Int := (r.timestamp, r.accuracy)

/-- Gen2 place record on its own. -/
def placeG2Kept (r : PlaceRecordG2) : (Option Timestamp × Int × Option Int × Int) × Option (Option Timestamp × Int) :=
  (placeKept r.base, r.gnss.map gnssKept)

/-- Place record at position `i` of a file: whether it is dated (not even that for the first one), the entry
type, the odometer to the hundred. -/
def placeInFileKept (i : Nat) (r : PlaceRecord) : Bool × Int × Option Int × Int :=
  (i == 0 || r.entryTime.isSome, r.entryType, r.unrecognizedEntryType, r.odometerKm.tdiv 100)

/-- Gen2 place record at position `i` of a file: also whether there is a position, whether it is dated, and
its accuracy. -/
def placeG2InFileKept (i : Nat) (r : PlaceRecordG2) : (Bool × Int × Option Int × Int) × Option (Bool × Int) :=
  (placeInFileKept i r.base, r.gnss.map fun g => (g.timestamp.isSome, g.accuracy))

/-- Two lists agree position by position on what is kept. -/
def AgreeOn {α β : Type} (kept : Nat → α → β) (xs ys : List α) : Prop :=
  xs.length = ys.length ∧ ∀ (i : Nat) (h : i < xs.length) (h' : i < ys.length), kept i xs[i] = kept i ys[i]

/-- Card part of an identification: issuing state, presence of a driver number, presence and indices of an
owner number. -/
def cardKept (c : CardIdent) : Int × Bool × Option (Option Ia5StringValue × Option Ia5StringValue × Option Ia5StringValue) :=
  (c.issuingState, c.driver.isSome, c.owner.map fun o => (o.consecutive, o.replacement, o.renewal))

/-- Identification: the card type, the card part, and the language of the holder that matches the card type. -/
def identificationKept (i : AnyIdentification) :=
  (i.cardType, i.card.map cardKept,
    (if i.cardType = .driverCard then i.driverHolder.map (·.language) else none),
    (if i.cardType = .workshopCard then i.workshopHolder.map (·.language) else none),
    (if i.cardType = .controlCard then i.controlHolder.map (·.language) else none),
    (if i.cardType = .companyCard then i.companyHolder.map (·.language) else none))

/-- Activity change: slot, crew, card presence and activity, but not the time. -/
def activityKept (a : ActivityChangeInfo) : Int × Bool × Bool × Int := (a.slot, a.crew, a.inserted, a.activity)

/-- The hour the `i`-th place record of a file is moved to: 2020-01-01 00:00 plus `i` hours. -/
def testHour (i : Nat) : Timestamp := ⟨1577836800 + 3600 * (i : Int), 0⟩

end Tacho.Spec
