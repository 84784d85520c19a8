import Verif.Model.AnonymizeObjects
/-!
# What an anonymised list of vehicles shares with the original
-/

namespace Tacho.Spec
open Tacho

/-- Every object that existed in `h` is the same in `h'`. -/
def VehiclesUntouched (h h' : VehicleObjects) : Prop := ∀ a < h.next,
  h'.time a = h.time a ∧ h'.text a = h.text a ∧ h'.reg a = h.reg a ∧ h'.bcd a = h.bcd a ∧ h'.vehicle a = h.vehicle a

/-- The objects that can be reached from the record at `a`. -/
inductive VehicleReaches (h : VehicleObjects) (a : Nat) : Nat → Prop
  | record : VehicleReaches h a a
  | first {t} : (h.vehicle a).first = some t → VehicleReaches h a t
  | last {t} : (h.vehicle a).last = some t → VehicleReaches h a t
  | reg {r} : (h.vehicle a).reg = some r → VehicleReaches h a r
  | number {r n} : (h.vehicle a).reg = some r → (h.reg r).number = some n → VehicleReaches h a n
  | counter {c} : (h.vehicle a).counter = some c → VehicleReaches h a c

/-- All objects of the record at `a` exist. -/
def VehiclePresent (h : VehicleObjects) (a : Nat) : Prop := ∀ x, VehicleReaches h a x → x < h.next

end Tacho.Spec
