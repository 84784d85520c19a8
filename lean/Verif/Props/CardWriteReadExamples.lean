import Verif.Props.CardWriteRead
import Verif.Props.WriteExamples
/-!
# C63: the hypotheses are met

A driver card with files in both applications, some of them as read, some built by hand.
-/

namespace Tacho.WriteExamples
open Tacho Spec

local instance : Charmap := latin1

def icc : Icc := ⟨2, some ⟨123456, some ⟨none, 3, 2021⟩, 3, 0xA1⟩, some (typed 8 [0x41, 0x20, 0x43]), 7,
    some ⟨some (typed 2 [0x31]), some (typed 2 [0x31]), 9⟩, [1, 2]⟩

theorem icc_ok : IccOk icc :=
  ⟨⟨0, by decide⟩, ⟨_, rfl, serial_ok⟩, ⟨_, rfl, typed_ok 8 _ (by decide) abc⟩, ⟨by decide, by decide⟩,
    ⟨_, rfl, ⟨_, rfl, typed_ok 2 _ (by decide) one⟩, ⟨_, rfl, typed_ok 2 _ (by decide) one⟩, ⟨by decide, by decide⟩⟩, rfl⟩

theorem sampleDay_ok : WritableDay sampleDay where
  valid := rfl
  date := Or.inr ⟨1593561600, rfl, by decide, by decide⟩
  counter := ⟨12, rfl, by decide, by decide⟩
  distance := by decide
  changes := by
    intro c hc
    simp only [sampleDay, List.mem_singleton] at hc
    subst hc
    exact ⟨⟨0, 0, 0, 3, 60⟩, by unfold AciBits.Valid; decide, ⟨none, rfl, by simp⟩, by decide, by decide⟩
  fits := by decide

/-- Two days without a buffer. -/
def days : DriverActivityData := ⟨0, 16, none, [sampleDay, sampleDay]⟩

theorem days_ok : ActivityOk days :=
  ⟨⟨by decide, by decide⟩, Or.inr ⟨rfl, [sampleDay], sampleDay, rfl, by
    intro r hr
    simp only [days, List.mem_cons, List.not_mem_nil, or_false, or_self] at hr
    subst hr
    exact sampleDay_ok, by decide, by decide, by decide⟩⟩

/-- A buffer of zeros, as on a new card. -/
example : ActivityOk ⟨0, 0, some (zeros 16), []⟩ :=
  ⟨⟨by decide, by decide⟩, Or.inl ⟨_, rfl, by decide, by decide, ⟨by decide, by decide⟩, by decide +kernel⟩⟩

/-- The Gen1 application. -/
def app1 : Tachograph where
  applicationIdentification := some ⟨{ typeOfCard := 3, structureVersion := some ⟨none, 1, 42⟩, driver := some ⟨12, 24, 13776, 200, 112⟩ }, none⟩
  driverActivityData := some ⟨days, some [1, 2, 3]⟩
  eventsData := some ⟨[EventRecord.mk true none 6 (some ⟨1700000000, 0⟩) none (some reg),
    ⟨false, some (9 :: List.replicate 23 0), 0, none, none, none⟩], none⟩
  vehiclesUsed := some ⟨⟨none, 0, [used]⟩, none⟩
  places := some ⟨⟨none, 1, [place, place]⟩, none⟩
  currentUsage := some ⟨⟨none, some reg⟩, none⟩
  cardCertificate := some { raw := zeros 194, valid := true }
  caCertificate := some {}

theorem app1_ok : Gen1Ok app1 where
  applicationIdentification := by
    rintro m ⟨⟩
    exact ⟨⟨1, by decide⟩, ⟨_, rfl, by rintro r ⟨⟩, by decide⟩, _, rfl, by simp only [CountsOk, Fits]; decide⟩
  identification := by rintro m ⟨⟩
  drivingLicenceInfo := by rintro m ⟨⟩
  eventsData := by
    rintro m ⟨⟩
    refine ⟨by decide, ?_⟩
    simp only [List.forall_mem_cons, List.not_mem_nil, false_implies, implies_true, and_true]
    exact ⟨Or.inl ⟨rfl, ⟨4, by decide⟩, time1, by simp, time0, _, rfl, reg_ok⟩, Or.inr ⟨rfl, _, rfl, rfl, by decide⟩⟩
  faultsData := by rintro m ⟨⟩
  driverActivityData := by rintro m ⟨⟩; exact days_ok
  vehiclesUsed := by
    rintro m ⟨⟩
    refine ⟨⟨by decide, by decide⟩, by decide, ?_⟩
    simp only [List.forall_mem_cons, List.not_mem_nil, false_implies, implies_true, and_true]
    exact ⟨by rintro r ⟨⟩, used_ok⟩
  places := by
    rintro m ⟨⟩
    refine ⟨⟨by decide, by decide⟩, by decide, ?_⟩
    simp only [List.forall_mem_cons, List.not_mem_nil, false_implies, implies_true, and_true]
    exact ⟨⟨by rintro r ⟨⟩, place_ok⟩, by rintro r ⟨⟩, place_ok⟩
  currentUsage := by rintro m ⟨⟩; exact ⟨time0, _, rfl, reg_ok⟩
  controlActivityData := by rintro m ⟨⟩
  specificConditions := by rintro m ⟨⟩
  cardDownload := by rintro m ⟨⟩
  cardCertificate := by rintro m ⟨⟩; exact Or.inr (List.length_replicate)
  caCertificate := by rintro m ⟨⟩; exact Or.inl rfl

/-- The Gen2 application; its events are not written. -/
def app2 : TachographG2 where
  applicationIdentificationV2 := some ⟨⟨1, 2, 3, 4⟩, none⟩
  eventsData := some ⟨[], none⟩
  places := some ⟨⟨none, 1, [⟨place, some gnss⟩]⟩, none⟩
  specificConditions := some ⟨⟨none, 0, [condition]⟩, none⟩
  vehicleUnitsUsed := some ⟨(0, [⟨some ⟨1700000000, 0⟩, 0x30, [5], [1, 2, 3, 4]⟩]), none⟩
  gnssPlaces := some ⟨(0, [⟨some ⟨1700000000, 0⟩, some gnss, 999999⟩]), none⟩

theorem app2_ok : Gen2Ok app2 where
  applicationIdentification := by rintro m ⟨⟩
  vehiclesUsed := by rintro m ⟨⟩
  places := by
    rintro m ⟨⟩
    refine ⟨⟨by decide, by decide⟩, by decide, ?_⟩
    simp only [List.forall_mem_cons, List.not_mem_nil, false_implies, implies_true, and_true]
    exact ⟨by rintro r ⟨⟩, place_ok, _, rfl, gnss_ok⟩
  specificConditions := by
    rintro m ⟨⟩
    refine Or.inr ⟨rfl, ⟨by decide, by decide⟩, by decide, ?_⟩
    simp only [List.forall_mem_cons, List.not_mem_nil, false_implies, implies_true, and_true]
    exact condition_ok
  vehicleUnitsUsed := by
    rintro m ⟨⟩
    refine ⟨⟨by decide, by decide⟩, by decide, ?_⟩
    simp only [List.forall_mem_cons, List.not_mem_nil, false_implies, implies_true, and_true]
    exact ⟨time1, ⟨by decide, by decide⟩, rfl, rfl⟩
  gnssPlaces := by
    rintro m ⟨⟩
    refine ⟨⟨by decide, by decide⟩, by decide, ?_⟩
    simp only [List.forall_mem_cons, List.not_mem_nil, false_implies, implies_true, and_true]
    exact ⟨time1, ⟨_, rfl, gnss_ok⟩, by decide, by decide⟩
  applicationIdentificationV2 := by
    rintro m ⟨⟩
    exact ⟨⟨by decide, by decide⟩, ⟨by decide, by decide⟩, ⟨by decide, by decide⟩, by decide, by decide⟩
  cardMaCertificate := by rintro m ⟨⟩
  cardSignCertificate := by rintro m ⟨⟩
  caCertificate := by rintro m ⟨⟩
  linkCertificate := by rintro m ⟨⟩

/-- `driver_card_write_read` applies. -/
theorem card_ok : CardOk ⟨some icc, some ⟨[1, 2, 3, 4], [5, 6, 7, 8]⟩, some app1, some app2⟩ where
  icc := ⟨_, rfl, icc_ok⟩
  ic := by rintro m ⟨⟩; exact ⟨rfl, rfl⟩
  gen1 := app1_ok
  gen2 := app2_ok

/-- A card with nothing but an ICC. -/
example : CardOk ⟨some icc, none, none, none⟩ where
  icc := ⟨_, rfl, icc_ok⟩
  ic := by rintro m ⟨⟩
  gen1 := by constructor <;> rintro m ⟨⟩
  gen2 := by constructor <;> rintro m ⟨⟩

/-- `driver_card_without_icc` applies: a card with only an application is written. -/
example : ∃ out, marshalFile (some { type := .driverCard, driverCard := some ⟨none, some ⟨[1, 2, 3, 4], [5, 6, 7, 8]⟩, none, none⟩ }) = .ok out :=
  ⟨_, rfl⟩

/-- `driver_card_with_ma_certificate` applies: a card with an ICC and such a certificate is written. -/
example : ∃ out, marshalFile (some { type := .driverCard, driverCard := some ⟨some icc, none, none, some { cardMaCertificate := some { raw := [1] } }⟩ }) = .ok out :=
  ⟨_, rfl⟩

end Tacho.WriteExamples
