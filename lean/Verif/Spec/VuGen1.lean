import Verif.Model.Vu
import Verif.Spec.Fields
import Verif.Spec.CardFiles
/-!
# Gen1 overview and activities: which bytes mean what

`record h n i v` is record `i` of those of `n` bytes each that begin at offset `h` of `v`.
-/

namespace Tacho.Spec

section
variable [Charmap]

/-! ## Overview -/

/-- `v` has the length of an overview with `n` company locks and `k` control activities, and says so
at the two places for these counts. -/
def OverviewShape (v : Bytes) (n k : Nat) : Prop :=
  ByteAt v 491 (·.toNat = n) ∧ ByteAt v (492 + n * 98) (·.toNat = k)
    ∧ v.length = 492 + n * 98 + 1 + k * 31 + 128

/-- What a company lock of 98 bytes means. -/
def LockIs (b : Bytes) (l : CompanyLock) : Prop :=
  l.lockInTime = instant (sl b 0 4) ∧ l.lockOutTime = instant (sl b 4 8)
  ∧ (∃ x, l.companyName = some x ∧ unmarshalStringValue (sl b 8 44) = .ok x)
  ∧ (∃ x, l.companyAddress = some x ∧ unmarshalStringValue (sl b 44 80) = .ok x)
  ∧ (∃ x, l.companyCardNumber = some x ∧ unmarshalFullCardNumber (sl b 80 98) = .ok x)

omit [Charmap] in
/-- What a control activity of 31 bytes means. -/
def ControlIs (b : Bytes) (c : VuControlActivity) : Prop :=
  (∃ x, c.controlType = some x ∧ unmarshalControlType (sl b 0 1) = .ok x)
  ∧ c.controlTime = instant (sl b 1 5)
  ∧ (∃ x, c.controlCardNumber = some x ∧ unmarshalFullCardNumber (sl b 5 23) = .ok x)
  ∧ c.downloadPeriodBeginTime = instant (sl b 23 27) ∧ c.downloadPeriodEndTime = instant (sl b 27 31)

/-- The list holds, in order, the meaning of the `n` records of `size` bytes at offset `off`. -/
def Lists {α : Type} (Is : Bytes → α → Prop) (off size n : Nat) (v : Bytes) (xs : List α) : Prop :=
  xs.length = n ∧ ∀ i (hi : i < xs.length), Is (record off size i v) xs[i]

/-- What the bytes of an overview with `n` locks and `k` controls mean. -/
def OverviewIs (v : Bytes) (n k : Nat) (m : OverviewGen1) : Prop :=
  m.rawData = v ∧ m.memberStateCertificate = sl v 0 194 ∧ m.vuCertificate = sl v 194 388
  ∧ (∃ x, m.vin = some x ∧ unmarshalIa5StringValue (sl v 388 405) = .ok x)
  ∧ (∃ x, m.registration = some x ∧ unmarshalVehicleRegistration (sl v 405 420) = .ok x)
  ∧ m.currentDateTime = instant (sl v 420 424)
  ∧ m.downloadablePeriod = some ⟨instant (sl v 424 428), instant (sl v 428 432)⟩
  ∧ ByteAt v 432 (fun b => m.driverSlotCard = (b.toNat % 16 : Nat) ∧ m.coDriverSlotCard = (b.toNat / 16 : Nat))
  ∧ (∃ card name, unmarshalFullCardNumber (sl v 437 455) = .ok card ∧ unmarshalStringValue (sl v 455 491) = .ok name
      ∧ m.downloadActivities = [⟨instant (sl v 433 437), some card, some name⟩])
  ∧ Lists LockIs 492 98 n v m.companyLocks
  ∧ Lists ControlIs (492 + n * 98 + 1) 31 k v m.controlActivities
  ∧ m.signature = sl v (492 + n * 98 + 1 + k * 31) v.length

/-! ## Activities -/

/-- `v` has the length of a day of activities with the given numbers of card insertions, activity
changes, places and specific conditions, and says so at the places for these counts. -/
def ActivitiesShape (v : Bytes) (iw changes places conditions : Nat) : Prop :=
  beNat (sl v 7 9) = iw
  ∧ beNat (sl v (9 + iw * 129) (9 + iw * 129 + 2)) = changes
  ∧ ByteAt v (9 + iw * 129 + 2 + changes * 2) (·.toNat = places)
  ∧ beNat (sl v (9 + iw * 129 + 2 + changes * 2 + 1 + places * 28)
      (9 + iw * 129 + 2 + changes * 2 + 1 + places * 28 + 2)) = conditions
  ∧ v.length = 9 + iw * 129 + 2 + changes * 2 + 1 + places * 28 + 2 + conditions * 5 + 128

omit [Charmap] in
/-- What a place record of 28 bytes means; its first 18 bytes, the card number, are not used. -/
def PlaceIs (b : Bytes) (p : VuPlaceRecord) : Prop :=
  p.entryTime = instant (sl b 18 22)
  ∧ ByteAt b 22 (fun x => (p.entryType, some x.toNat) ∈ entryTypeDailyWorkPeriodTable)
  ∧ ByteAt b 23 (fun x => (p.country, some x.toNat) ∈ nationNumericTable)
  ∧ p.region = sl b 24 25 ∧ p.odometerKm = (beNat (sl b 25 28) : Nat)

/-- What the bytes of a day of activities mean. -/
def ActivitiesIs (v : Bytes) (iw changes places conditions : Nat) (m : ActivitiesGen1) : Prop :=
  m.rawData = v ∧ m.dateOfDay = instant (sl v 0 4) ∧ m.odometerMidnightKm = (beNat (sl v 4 7) : Nat)
  ∧ Lists (fun b x => unmarshalVuCardIWRecord b = .ok x) 9 129 iw v m.cardIWData
  ∧ Lists (fun b x => unmarshalActivityChangeInfo b = .ok x) (9 + iw * 129 + 2) 2 changes v m.activityChanges
  ∧ Lists PlaceIs (9 + iw * 129 + 2 + changes * 2 + 1) 28 places v m.places
  ∧ Lists (fun b x => unmarshalSpecificConditionRecord b = .ok x)
      (9 + iw * 129 + 2 + changes * 2 + 1 + places * 28 + 2) 5 conditions v m.specificConditions
  ∧ m.signature = sl v (9 + iw * 129 + 2 + changes * 2 + 1 + places * 28 + 2 + conditions * 5) v.length

end

end Tacho.Spec
