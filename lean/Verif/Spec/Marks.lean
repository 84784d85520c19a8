import Verif.Model.DriverCard
/-!
# Specification of the `valid` marks of a parsed driver card

The messages document `valid = true` as "the record was parsed". A reader tells the used entries of a card
from the unused ones by this mark.
-/

namespace Tacho.Spec

/-- An event or fault is marked exactly when it has a begin time, and then it has a vehicle and no raw bytes;
an unmarked one has nothing but (possibly) raw bytes. -/
def EventMarked (r : EventRecord) : Prop :=
  (r.valid = true ∧ r.beginTime ≠ none ∧ r.registration ≠ none ∧ r.rawData = none) ∨
  (r.valid = false ∧ r.beginTime = none ∧ r.endTime = none ∧ r.registration = none ∧ r.type = 0)

/-- A day is marked exactly when its presence counter could be read; an unmarked one has its raw bytes and
nothing else. -/
def DayMarked (r : DailyRecord) : Prop :=
  (r.valid = true ∧ r.presenceCounter ≠ none ∧ r.rawData = none) ∨
  (r.valid = false ∧ r.presenceCounter = none ∧ r.rawData ≠ none ∧ r.date = none ∧ r.changes = [])

/-- The last control is marked exactly when it has a time; an unmarked one has its raw bytes and nothing else. -/
def ControlMarked (r : ControlActivity) : Prop :=
  (r.valid = true ∧ r.controlTime ≠ none ∧ r.controlType ≠ none ∧ r.registration ≠ none ∧ r.cardNumber ≠ none ∧ r.rawData = none) ∨
  (r.valid = false ∧ r.controlTime = none ∧ r.controlType = none ∧ r.registration = none ∧ r.cardNumber = none ∧ r.rawData ≠ none)

/-- A place is decoded (it has its region byte) and all the same not marked. -/
def PlaceUnmarked (r : PlaceRecord) : Prop := r.valid = false ∧ r.region ≠ []

/-- `P` holds of every record of the file, if the file is there. -/
def EachIn {α β : Type} (file : Option (Signed α)) (records : α → List β) (P : β → Prop) : Prop :=
  ∀ s, file = some s → ∀ r ∈ records s.data, P r

/-- The marks of the first generation application. -/
structure Marks1 (t : Tachograph) : Prop where
  events : EachIn t.eventsData id EventMarked
  faults : EachIn t.faultsData id EventMarked
  days : EachIn t.driverActivityData DriverActivityData.records DayMarked
  control : EachIn t.controlActivityData ([·]) ControlMarked
  places : EachIn t.places RecordFile.records PlaceUnmarked

/-- The marks of the second generation application. -/
structure Marks2 (t : TachographG2) : Prop where
  events : EachIn t.eventsData id EventMarked
  faults : EachIn t.faultsData id EventMarked
  days : EachIn t.driverActivityData DriverActivityData.records DayMarked
  control : EachIn t.controlActivityData ([·]) ControlMarked
  places : EachIn t.places RecordFile.records fun r => PlaceUnmarked r.base

/-- The marks of a card. -/
def Marks (c : DriverCard) : Prop := (∀ t, c.tachograph = some t → Marks1 t) ∧ (∀ t, c.tachographG2 = some t → Marks2 t)

/-- The card with the marks of all its places taken away. -/
def unmarkPlaces (c : DriverCard) : DriverCard :=
  { c with
    tachograph := c.tachograph.map fun t => { t with places := t.places.map fun p =>
      { p with data := { p.data with records := p.data.records.map fun r => { r with valid := false } } } }
    tachographG2 := c.tachographG2.map fun t => { t with places := t.places.map fun p =>
      { p with data := { p.data with records := p.data.records.map fun r => { r with base := { r.base with valid := false } } } } } }

end Tacho.Spec
