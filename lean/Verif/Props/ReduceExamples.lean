import Verif.Props.ReduceRead
import Verif.Props.CardWriteReadExamples
/-!
# C74: the hypotheses are met, by values that do not fit
-/

namespace Tacho.ReduceExamples
open Tacho Spec WriteExamples

local instance : Charmap := latin1

/-- 16 777 217 km are written as 1 km, -1 km as 16 777 215. -/
example : lowBits 24 16777217 = 1 ∧ lowBits 24 (-1) = 16777215 := by decide

/-- 8 388 608 is written as its negative. -/
example : signed24 8388608 = -8388608 ∧ signed24 (-8388609) = 8388607 := by decide

/-- A time after 7 February 2106 is written as one after 1 January 1970, and that moment itself as no time. -/
example : cutTime (some ⟨4294967297, 0⟩) = some ⟨1, 0⟩ ∧ cutTime (some ⟨4294967296, 0⟩) = none := by decide

/-- An event type that does not exist is written as the general event, UNRECOGNIZED too. -/
example : cutCode eventFaultTypeTable 9999 = 2 ∧ cutCode eventFaultTypeTable 1 = 2 ∧ (2, some 0) ∈ eventFaultTypeTable := by decide

/-- A type of card that does not exist is written as reserved, code 0. -/
example : cutCode equipmentTypeTable (-3) = 2 ∧ (2, some 0) ∈ equipmentTypeTable := by decide

/-- A companion byte that the table knows is read back under its name; 261 is written as 5. -/
example : cutCoded entryTypeDailyWorkPeriodTable 1 (some 261) = (7, none) ∧
    cutCoded entryTypeDailyWorkPeriodTable 1 (some 200) = (1, some 200) ∧
    cutCoded entryTypeDailyWorkPeriodTable 77 (some 200) = (2, none) := by decide

/-- `place_any` applies: a place with nothing that fits. -/
def bigPlace : PlaceRecord :=
  { rawData := none, entryTime := some ⟨-1, -5⟩, entryType := 4242, unrecognizedEntryType := none, country := 1
    unrecognizedCountry := some 511, region := [7, 8, 9], odometerKm := -1 }

example : appendPlaceRecord [] bigPlace = .ok [255, 255, 255, 255, 0, 255, 7, 255, 255, 255] := by decide +kernel

example : RawFits bigPlace.rawData 10 ∧ WholeSeconds bigPlace.entryTime ∧ bigPlace.region ≠ [] :=
  ⟨by rintro r ⟨⟩, by rintro x ⟨⟩; decide, by decide⟩

/-- `gnss_any` and `gnss_accuracy_refused` apply. -/
example : (appendGNSSPlaceRecord [] (some ⟨none, 255, some ⟨8388608, -8388609⟩⟩) = .ok [0, 0, 0, 0, 255, 128, 0, 0, 127, 255, 255]) ∧
    ¬ Fits 8 256 := by
  refine ⟨by decide +kernel, ?_⟩
  unfold Fits; decide

/-- `gnssAuth_any` applies: an accuracy of 256 is written as 0. -/
example : appendGNSSPlaceAuthRecord [] (some ⟨none, 256, some ⟨0, 0⟩, 2, none⟩) = .ok [0, 0, 0, 0, 0, 0, 0, 0, 0, 0, 0, 0] := by
  decide +kernel

/-- `appIdV2_any` and `ic_any` apply to everything. -/
example : appendAppIdV2 [] (some ⟨257, -1, 256, 4⟩) = .ok [1, 255, 0, 4] ∧
    appendCardIc [] (some ⟨[1], [1, 2, 3, 4, 5]⟩) = .ok [1, 0, 0, 0, 1, 2, 3, 4] := by decide +kernel

/-- `change_any` applies: minute 2049 is written as minute 1. -/
example : Named cardSlotNumberTable 2 ∧ Named driverActivityValueTable 5 ∧ lowBits 11 2049 = 1 :=
  ⟨⟨0, by decide⟩, ⟨3, by decide⟩, by decide⟩

/-- `condition_refused` and `registration_refused` apply. -/
example : ¬ Named specificConditionTypeTable 77 ∧ ¬ Named nationNumericTable 1 := by
  refine ⟨?_, ?_⟩ <;> rintro ⟨b, hb⟩ <;> simp [specificConditionTypeTable, nationNumericTable] at hb

/-- A card on which little fits. -/
def bigCard : DriverCard :=
  ⟨some { icc with personaliserId := 7 + 256 }, some ⟨[1, 2, 3, 4, 99], [5, 6, 7]⟩,
    some { applicationIdentification := some ⟨{ typeOfCard := 4711, structureVersion := some ⟨none, 1, 42⟩, driver := some ⟨268, -1, 79312, 65736, 368⟩ }, none⟩
           eventsData := some ⟨[EventRecord.mk true none 9999 (some ⟨4294967297, 0⟩) none (some reg)], none⟩
           places := some ⟨⟨none, 257, [bigPlace]⟩, none⟩ },
    some { applicationIdentificationV2 := some ⟨⟨257, 258, 259, 260⟩, none⟩ }⟩

/-- `card_any` applies. -/
theorem bigCard_ok : CardOk (cutCard bigCard) where
  icc := ⟨_, rfl, icc_ok⟩
  ic := by rintro m ⟨⟩; exact ⟨rfl, rfl⟩
  gen1 := by
    constructor
    case applicationIdentification =>
      rintro m ⟨⟩
      exact ⟨⟨0, by decide⟩, ⟨_, rfl, by rintro r ⟨⟩, by decide⟩, _, rfl, by simp only [CountsOk, Fits]; decide⟩
    case eventsData =>
      rintro m ⟨⟩
      refine ⟨by decide, ?_⟩
      intro r hr
      obtain rfl := List.mem_singleton.1 hr
      exact Or.inl ⟨rfl, ⟨0, by decide⟩, cutTime_ok (t := some ⟨4294967297, 0⟩) (by rintro x ⟨⟩; decide), by decide, cutTime_ok (t := none) (by rintro x ⟨⟩), _, rfl, reg_ok⟩
    case places =>
      rintro m ⟨⟩
      refine ⟨⟨by decide, by decide⟩, by decide, ?_⟩
      intro r hr
      obtain rfl := List.mem_singleton.1 hr
      exact ⟨by rintro r ⟨⟩, cutTime_ok (t := bigPlace.entryTime) (by rintro x ⟨⟩; decide), cutCoded_ok (by decide) (by decide) (by decide) _ _,
        cutCoded_ok (by decide) (by decide) (by decide) _ _, rfl, lowBits_fits _ _⟩
    all_goals rintro m ⟨⟩
  gen2 := by
    constructor
    case applicationIdentificationV2 =>
      rintro m ⟨⟩
      exact ⟨⟨by decide, by decide⟩, ⟨by decide, by decide⟩, ⟨by decide, by decide⟩, by decide, by decide⟩
    all_goals rintro m ⟨⟩

/-- What fits is not cut: the card of `card_ok` is its own cut. -/
example : cutCard ⟨some icc, some ⟨[1, 2, 3, 4], [5, 6, 7, 8]⟩, none, some app2⟩ = ⟨some icc, some ⟨[1, 2, 3, 4], [5, 6, 7, 8]⟩, none, some app2⟩ := by
  decide +kernel

end Tacho.ReduceExamples
