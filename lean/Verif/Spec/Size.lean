import Verif.Model.File
/-!
# How large a message is

Numbers of list entries, counted in the messages themselves.
-/

namespace Tacho.Spec.Size

/-- The sum of a number over the entries of a list. -/
def total {α : Type} (n : α → Nat) (xs : List α) : Nat := (xs.map n).sum

/-- The number of entries of an optional part of a message. -/
def inPart {α : Type} (n : α → Nat) : Option α → Nat
  | some x => n x
  | none => 0

/-- Records in the first generation part of a driver card, the daily activity records left out. -/
def gen1Records (g : Tachograph) : Nat :=
  inPart (fun x => x.data.length) g.eventsData + inPart (fun x => x.data.length) g.faultsData
  + inPart (fun x => x.data.records.length) g.vehiclesUsed + inPart (fun x => x.data.records.length) g.places
  + inPart (fun x => x.data.records.length) g.specificConditions

/-- Records in the second generation part of a driver card, the daily activity records left out. -/
def gen2Records (g : TachographG2) : Nat :=
  inPart (fun x => x.data.length) g.eventsData + inPart (fun x => x.data.length) g.faultsData
  + inPart (fun x => x.data.records.length) g.vehiclesUsed + inPart (fun x => x.data.records.length) g.places
  + inPart (fun x => x.data.records.length) g.specificConditions
  + inPart (fun x => x.data.2.length) g.vehicleUnitsUsed + inPart (fun x => x.data.2.length) g.gnssPlaces

/-- Records in a driver card, the daily activity records left out. -/
def cardRecords (c : DriverCard) : Nat := inPart gen1Records c.tachograph + inPart gen2Records c.tachographG2

/-- Records in a Gen1 overview of a vehicle unit. -/
def overviewRecords (o : OverviewGen1) : Nat := o.downloadActivities.length + o.companyLocks.length + o.controlActivities.length

/-- Records in a Gen1 day of activities of a vehicle unit, with the day itself. -/
def activitiesRecords (a : ActivitiesGen1) : Nat :=
  1 + a.cardIWData.length + a.activityChanges.length + a.places.length + a.specificConditions.length

/-- Records in a Gen1 vehicle unit download. -/
def vuGen1Records (g : VuGen1) : Nat :=
  inPart overviewRecords g.overview + total activitiesRecords g.activities + g.eventsAndFaults.length
  + g.detailedSpeed.length + g.technicalData.length

/-- Transfers in a Gen2 vehicle unit download, apart from the overview. -/
def vuGen2Records (g : VuGen2) : Nat :=
  g.activities.length + g.eventsAndFaults.length + g.detailedSpeed.length + g.technicalData.length

/-- Records in a vehicle unit download. -/
def vuRecords (v : VehicleUnitFile) : Nat :=
  inPart vuGen1Records v.gen1 + inPart vuGen2Records v.gen2V1 + inPart vuGen2Records v.gen2V2

/-- Records in a file, the daily activity records of a driver card left out. -/
def recordsIn (f : File) : Nat := inPart vuRecords f.vehicleUnit + inPart cardRecords f.driverCard + inPart List.length f.rawCard

/-- A number counted in the daily activity records of a driver card. -/
def inActivity (n : DriverActivityData → Nat) (f : File) : Nat :=
  inPart (fun c => inPart (fun g => inPart (fun x => n x.data) g.driverActivityData) c.tachograph
    + inPart (fun g => inPart (fun x => n x.data) g.driverActivityData) c.tachographG2) f.driverCard

/-- Days of driver activity. -/
def days : File → Nat := inActivity fun a => a.records.length

/-- Activity changes in them. -/
def changes : File → Nat := inActivity fun a => total (fun r => r.changes.length) a.records

/-- Bytes kept of days that could not be decoded. -/
def keptBytes : File → Nat := inActivity fun a => total (fun r => (r.rawData.getD []).length) a.records

end Tacho.Spec.Size
