import Verif.Spec.Regulation
import Verif.Spec.Fields
/-!
# What anonymising does to the bytes of a record (C40)

The fields are those of the layouts in Verif.Spec.Regulation.
-/

namespace Tacho.Spec
open Regulation

/-- The common part of a place record, before (`x`) and after (`y`) anonymising the file; it is the `k`th record. -/
def PlaceAnonymized (get : String → Bytes → Bytes) (k : Nat) (x y : Bytes) : Prop :=
  beNat (get "entryTime" y) = (if k = 0 ∨ beNat (get "entryTime" x) ≠ 0 then 1577836800 + 3600 * k else 0) ∧
  get "entryTypeDailyWorkPeriod" y = get "entryTypeDailyWorkPeriod" x ∧
  get "dailyWorkPeriodCountry" y = [0x12] ∧ get "dailyWorkPeriodRegion" y = [1] ∧
  beNat (get "vehicleOdometerValue" y) = beNat (get "vehicleOdometerValue" x) / 100 * 100

/-- A satellite fix before (`x`) and after (`y`); it is that of the `k`th record. -/
def FixAnonymized (k : Nat) (x y : Bytes) : Prop :=
  let get := gnssPlaceRecord.get
  beNat (get "timeStamp" y) = (if beNat (get "timeStamp" x) ≠ 0 then 1577836800 + 3600 * k else 0) ∧
  get "gnssAccuracy" y = get "gnssAccuracy" x ∧ IsInt24 (get "latitude" y) 60100 ∧ IsInt24 (get "longitude" y) 24560

/-- A vehicle record before (`x`) and after (`y`), the `k`th of its file: the whole of the day `k` after the first of January
2020, odometer values rounded down to the thousand, the nation and the data block counter as before. -/
def VehicleAnonymized (k : Nat) (x y : Bytes) : Prop :=
  let get := vehicleRecordG1.get
  beNat (get "vehicleFirstUse" y) = 1577836800 + 86400 * k ∧ beNat (get "vehicleLastUse" y) = 1577836800 + 86400 * k + 86399 ∧
  beNat (get "vehicleOdometerBegin" y) = beNat (get "vehicleOdometerBegin" x) / 1000 * 1000 ∧
  beNat (get "vehicleOdometerEnd" y) = beNat (get "vehicleOdometerEnd" x) / 1000 * 1000 ∧
  (get "vehicleRegistration" y).take 1 = (get "vehicleRegistration" x).take 1 ∧
  bcdPair (get "vuDataBlockCounter" y) = bcdPair (get "vuDataBlockCounter" x)

end Tacho.Spec
