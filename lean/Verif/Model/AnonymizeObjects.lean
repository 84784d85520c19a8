import Verif.Model.Anonymize
/-!
# Anonymising the vehicles used, with the objects of the messages

As Verif.Model.AnonymizeHeap, for another file that can be anonymised. Here all the messages that a vehicle record
contains are objects: its two times, its registration with the number, and its counter.

Simplification: raw data are values; lists have no nil entries (Verif.Model.NullEntries has them).
-/

namespace Tacho

/-- A `ddv1.VehicleRegistrationIdentification` object; the number is a pointer. -/
structure RegObj where
  nation : Int
  number : Option Nat

/-- A `ddv1.CardVehicleRecord` object. -/
structure VehicleObj where
  rawData : Option Bytes
  odometerBegin : Int
  odometerEnd : Int
  first : Option Nat
  last : Option Nat
  reg : Option Nat
  counter : Option Nat

/-- The objects there are. An object is allocated at `next`. -/
structure VehicleObjects where
  next : Nat
  time : Nat → Timestamp
  text : Nat → StringValue
  reg : Nat → RegObj
  bcd : Nat → BcdString
  vehicle : Nat → VehicleObj

namespace VehicleObjects

/-- `&timestamppb.Timestamp{...}`. -/
def newTime (h : VehicleObjects) (t : Timestamp) : Nat × VehicleObjects :=
  (h.next, { h with next := h.next + 1, time := fun a => if a = h.next then t else h.time a })

/-- `&ddv1.StringValue{}` and its setters. -/
def newText (h : VehicleObjects) (t : StringValue) : Nat × VehicleObjects :=
  (h.next, { h with next := h.next + 1, text := fun a => if a = h.next then t else h.text a })

/-- `&ddv1.VehicleRegistrationIdentification{}` and its setters. -/
def newReg (h : VehicleObjects) (r : RegObj) : Nat × VehicleObjects :=
  (h.next, { h with next := h.next + 1, reg := fun a => if a = h.next then r else h.reg a })

/-- `&ddv1.CardVehicleRecord{}` and its setters. -/
def newVehicle (h : VehicleObjects) (v : VehicleObj) : Nat × VehicleObjects :=
  (h.next, { h with next := h.next + 1, vehicle := fun a => if a = h.next then v else h.vehicle a })

/-- A setter of the record at `a`. -/
def setVehicle (h : VehicleObjects) (a : Nat) (v : VehicleObj) : VehicleObjects :=
  { h with vehicle := fun b => if b = a then v else h.vehicle b }

/-- What the getters return through a pointer to a registration. -/
def regAt (h : VehicleObjects) (a : Nat) : VehicleRegistration :=
  { nation := (h.reg a).nation, number := (h.reg a).number.map h.text }

/-- What the getters return through a pointer to a record. -/
def vehicleAt (h : VehicleObjects) (a : Nat) : CardVehicleRecord := {
  rawData := (h.vehicle a).rawData, odometerBegin := (h.vehicle a).odometerBegin, odometerEnd := (h.vehicle a).odometerEnd
  firstUse := (h.vehicle a).first.map h.time, lastUse := (h.vehicle a).last.map h.time
  registration := (h.vehicle a).reg.map h.regAt, counter := (h.vehicle a).counter.map h.bcd }

end VehicleObjects

/-- The registration of `AnonymizeCardVehicleRecord`, internal/dd/card_vehicle_record.go:177-194. -/
def anonymizeRegAt (r : Option Nat) (h : VehicleObjects) : Option Nat × VehicleObjects :=
  match r with
  | none => (none, h)
  | some r =>
    let nation := (h.reg r).nation
    let n := h.newText {
      encoding := encoding_iso88591, rawData := none, length := some 13
      value := [0x54, 0x45, 0x53, 0x54, 0x2D, 0x56, 0x52, 0x4E] }
    let x := n.2.newReg { nation := nation, number := some n.1 }
    (some x.1, x.2)

/-- `AnonymizeCardVehicleRecord`, internal/dd/card_vehicle_record.go:156-205, for a record that is not nil. The counter is
the same object (line 197). (The new record is written down after the objects it points to; nothing reads it in between.) -/
def anonymizeVehicleAt (index a : Nat) (h : VehicleObjects) : Nat × VehicleObjects :=
  let o := h.vehicle a
  let t1 := h.newTime ⟨1577836800 + (index : Int) * 86400, 0⟩
  let t2 := t1.2.newTime ⟨1577836800 + (index : Int) * 86400 + 86400 - 1, 0⟩
  let r := anonymizeRegAt o.reg t2.2
  let v := r.2.newVehicle {
    rawData := none, odometerBegin := o.odometerBegin.tdiv 1000 * 1000, odometerEnd := o.odometerEnd.tdiv 1000 * 1000
    first := some t1.1, last := some t2.1, reg := r.1, counter := o.counter }
  match appendCardVehicleRecord [] (v.2.vehicleAt v.1) with
  | .ok b => (v.1, v.2.setVehicle v.1 { v.2.vehicle v.1 with rawData := some b })
  | _ => v

/-- The loop of `AnonymizeVehiclesUsed`, internal/card/vehicles_used.go:150-153, from index `i` on. -/
def anonymizeVehicleList : Nat → List Nat → VehicleObjects → List Nat × VehicleObjects
  | _, [], h => ([], h)
  | i, a :: as, h =>
    let x := anonymizeVehicleAt i a h
    let rest := anonymizeVehicleList (i + 1) as x.2
    (x.1 :: rest.1, rest.2)

/-- `AnonymizeVehiclesUsed`, internal/card/vehicles_used.go:138-165, for a message that is not nil; the records are pointers. -/
def anonymizeVehiclesUsedAt (v : RecordFile Nat) (h : VehicleObjects) : RecordFile Nat × VehicleObjects :=
  let x := anonymizeVehicleList 0 v.records h
  match appendVehiclesUsed [] (some { rawData := none, newest := v.newest, records := x.1.map x.2.vehicleAt }) with
  | .ok b => ({ rawData := some b, newest := v.newest, records := x.1 }, x.2)
  | _ => ({ rawData := none, newest := v.newest, records := x.1 }, x.2)

end Tacho
