import Verif.Props.CardWritable
import Verif.Props.WriteExamples
/-!
# C67: the hypotheses are met

A card file with the chip, a signed driver identification, a driving licence, a signed events file with one event and
one free record, and the current usage.
-/

namespace Tacho.AgainExamples
open Tacho Spec WriteExamples

local instance : Charmap := latin1

def exIcc : Bytes := [1, 0, 0, 0, 7, 0x05, 0x24, 0x01, 0x40] ++ List.replicate 8 0x20 ++ [9, 0x53, 0x45, 0x41, 0x42, 0, 7, 1]

def exReg : Bytes := [0x0F, 1] ++ List.replicate 13 0x41

def exIdentification : Bytes :=
  [0x0F] ++ List.replicate 14 0x31 ++ [0x30, 0x31] ++ ([1] ++ List.replicate 35 0x42) ++ [0x5F, 0, 0, 0, 0x5F, 0, 0, 0, 0x6F, 0, 0, 0] ++
    ([1] ++ List.replicate 35 0x43) ++ ([2] ++ List.replicate 35 0x44) ++ [0x19, 0x70, 0x12, 0x31] ++ [0x65, 0x6E]

def exEvent : Bytes := [0x0A, 0x5F, 0, 0, 0, 0x5F, 0, 1, 0] ++ exReg

def exLicence : Bytes := [1] ++ List.replicate 35 0x42 ++ [0x0F] ++ List.replicate 16 0x37

def exRecords : List Tlv := [
  ⟨0x00, 0x02, 0, exIcc⟩,
  ⟨0x05, 0x20, 0, exIdentification⟩, ⟨0x05, 0x20, 1, List.replicate 128 7⟩,
  ⟨0x05, 0x21, 0, exLicence⟩,
  ⟨0x05, 0x02, 0, List.flatten [exEvent, List.replicate 24 0]⟩, ⟨0x05, 0x02, 1, List.replicate 128 8⟩,
  ⟨0x05, 0x07, 0, [0x5F, 0, 0, 0] ++ exReg⟩]

def exBlocks : List Block := [
  ⟨(⟨0x00, 0x02, 0, exIcc⟩ : Tlv).record, none⟩,
  ⟨(⟨0x05, 0x20, 0, exIdentification⟩ : Tlv).record, some (⟨0x05, 0x20, 1, List.replicate 128 7⟩ : Tlv).record⟩,
  ⟨(⟨0x05, 0x21, 0, exLicence⟩ : Tlv).record, none⟩,
  ⟨(⟨0x05, 0x02, 0, List.flatten [exEvent, List.replicate 24 0]⟩ : Tlv).record, some (⟨0x05, 0x02, 1, List.replicate 128 8⟩ : Tlv).record⟩,
  ⟨(⟨0x05, 0x07, 0, [0x5F, 0, 0, 0] ++ exReg⟩ : Tlv).record, none⟩]

def exText (cp : UInt8) (encoding : Int) (n : Nat) (b : UInt8) : StringValue :=
  ⟨encoding, some (cp :: List.replicate n b), some n, List.replicate n b⟩

def exRegistration : VehicleRegistration := ⟨18, some (exText 1 4 13 0x41)⟩

def exEvents : List EventRecord := [
  ⟨true, none, 12, some ⟨1593835520, 0⟩, some ⟨1593835776, 0⟩, some exRegistration⟩,
  ⟨false, some (List.replicate 24 0), 0, none, none, none⟩]

theorem exEvents_read : unmarshalEventsData (List.flatten [exEvent, List.replicate 24 0]) = .ok exEvents := by
  rw [events_ok_iff _ (by simp [exEvent, exReg, NeverMoved])]
  refine ⟨by decide, fun i hi => ?_⟩
  have : ∀ i : Fin 2, eventOf (record 0 24 i (List.flatten [exEvent, List.replicate 24 0])) = .ok exEvents[i] := by decide +kernel
  exact this ⟨i, hi⟩

def exIdentificationMessage : Identification where
  cardType := .driverCard
  card := some {
    issuingState := 18
    driver := some ⟨some ⟨some (List.replicate 14 0x31), some 14, List.replicate 14 0x31⟩, some ⟨some [0x30], some 1, [0x30]⟩,
      some ⟨some [0x31], some 1, [0x31]⟩⟩
    owner := none
    authority := some (exText 1 4 35 0x42)
    issueDate := some ⟨1593835520, 0⟩
    validityBegin := some ⟨1593835520, 0⟩
    expiryDate := some ⟨1862270976, 0⟩ }
  driverHolder := some ⟨some (exText 1 4 35 0x43), some (exText 2 5 35 0x44), some ⟨some [0x19, 0x70, 0x12, 0x31], 1970, 12, 31⟩,
    some ⟨some [0x65, 0x6E], some 2, [0x65, 0x6E]⟩⟩

theorem exIdentification_read : unmarshalIdentification exIdentification = .ok exIdentificationMessage := by decide +kernel

def exLicenceMessage : DrivingLicenceInfo :=
  ⟨some (exText 1 4 35 0x42), 18, some ⟨some (List.replicate 16 0x37), some 16, List.replicate 16 0x37⟩⟩

theorem exLicence_read : unmarshalDrivingLicenceInfo exLicence = .ok exLicenceMessage := by decide +kernel

theorem exUsage_read : unmarshalCurrentUsage ([0x5F, 0, 0, 0] ++ exReg) = .ok ⟨some ⟨1593835520, 0⟩, some exRegistration⟩ := by
  decide +kernel

theorem exIcc_read : ∃ m, unmarshalIcc exIcc = .ok m := ⟨_, rfl⟩

theorem exFile_read : unmarshalFile (fileBytes exRecords) = .ok { type := .driverCard, driverCard := some (cardOf exBlocks) } := by
  refine (file_iff _ _).2 (.inr ⟨_, _, rfl, parse_fileBytes _ (by decide +kernel), .inl ⟨by decide +kernel, _, ?_, rfl⟩⟩)
  refine (driver_card_iff _ _).2 ⟨exBlocks, rfl, ?_, rfl⟩
  simp only [exBlocks, List.forall_mem_cons, List.not_mem_nil, false_implies, implies_true, and_true]
  refine ⟨⟨⟨rfl, by rintro s ⟨⟩⟩, rfl, exIcc_read⟩, ⟨⟨rfl, by rintro s ⟨⟩; exact ⟨rfl, rfl⟩⟩, .inl ⟨rfl, _, exIdentification_read⟩⟩,
    ⟨⟨rfl, by rintro s ⟨⟩⟩, .inl ⟨rfl, _, exLicence_read⟩⟩, ⟨⟨rfl, by rintro s ⟨⟩; exact ⟨rfl, rfl⟩⟩, .inl ⟨rfl, _, exEvents_read⟩⟩,
    ⟨⟨rfl, by rintro s ⟨⟩⟩, .inl ⟨rfl, _, exUsage_read⟩⟩⟩

theorem exFile_unmoved : Unmoved (exRecords.map Tlv.record) := by
  unfold Unmoved NeverMoved
  decide +kernel

theorem exFile_known : CardKnown (cardOf exBlocks) := by
  have k1 := gen1_getD exBlocks
  have k2 := gen2_getD exBlocks
  have hn : ∀ {α : Type} {p : Bytes → Res α} {P : α → Prop} {f : EF} {g : Generation}, exBlocks.all (fun b => !fileGen f g b) = true →
      EachData P ((newest exBlocks (fileGen f g)).bind (Block.readSigned p)) := by
    intro α p P f g h
    refine each_newest_signed' fun b hb hf => ?_
    have := List.all_eq_true.1 h b hb
    rw [hf] at this
    cases this
  have hg : ∀ {α : Type} {p : Bytes → Res α} {P : α → Prop}, EachData P ((newest exBlocks (file .gnssPlaces)).bind (Block.readSigned p)) := by
    intro α p P
    refine each_newest_signed' fun b hb hf => ?_
    have := List.all_eq_true.1 (show exBlocks.all (fun b => !file .gnssPlaces b) = true by decide +kernel) b hb
    rw [hf] at this
    cases this
  have ho : ∀ {α : Type} {p : Bytes → Res α} {P : α → Prop} {f : EF} {g : Generation} {v : Bytes} {x : α}, p v = .ok x →
      exBlocks.all (fun b => !fileGen f g b || b.data.value == v) = true → P x →
      EachData P ((newest exBlocks (fileGen f g)).bind (Block.readSigned p)) := by
    intro α p P f g v x hx h hP
    refine each_newest_signed' fun b hb hf m hm => ?_
    have := List.all_eq_true.1 h b hb
    rw [hf] at this
    have hv : b.data.value = v := by simpa using this
    rw [hv, hx, Res.ok.injEq] at hm
    exact hm ▸ hP
  have hreg : RegKnown exRegistration := ⟨by unfold NationKnown; decide, by rintro m ⟨⟩; unfold TextKnown; decide⟩
  exact {
    version := by rw [k1]; dsimp only [gen1Of]; exact hn (by decide +kernel)
    identification := by
      rw [k1]
      dsimp only [gen1Of]
      refine ho exIdentification_read (by decide +kernel) ⟨?_, ?_⟩
      · rintro m ⟨⟩
        refine ⟨by unfold NationKnown; decide, by rintro m ⟨⟩; unfold TextKnown; decide, ?_, by rintro m ⟨⟩⟩
        rintro m ⟨⟩ m ⟨⟩
        decide
      · rintro m ⟨⟩
        exact ⟨by rintro m ⟨⟩; unfold TextKnown; decide, by rintro m ⟨⟩; unfold TextKnown; decide,
          by rintro m ⟨⟩; unfold DateDigits; decide⟩
    licence := by
      rw [k1]
      dsimp only [gen1Of]
      exact ho exLicence_read (by decide +kernel) ⟨by unfold NationKnown; decide, by rintro m ⟨⟩; unfold TextKnown; decide⟩
    events := by
      rw [k1]
      dsimp only [gen1Of]
      refine ho exEvents_read (by decide +kernel) ?_
      simp only [exEvents, List.forall_mem_cons, List.not_mem_nil, false_implies, implies_true, and_true]
      exact ⟨by rintro m ⟨⟩; exact hreg, by rintro m ⟨⟩⟩
    faults := by rw [k1]; dsimp only [gen1Of]; exact hn (by decide +kernel)
    vehicles := by rw [k1]; dsimp only [gen1Of]; exact hn (by decide +kernel)
    usage := by
      rw [k1]
      dsimp only [gen1Of]
      exact ho exUsage_read (by decide +kernel) (by rintro m ⟨⟩; exact hreg)
    control := by rw [k1]; dsimp only [gen1Of]; exact hn (by decide +kernel)
    versionG2 := by rw [k2]; dsimp only [gen2Of]; exact hn (by decide +kernel)
    vehiclesG2 := by rw [k2]; dsimp only [gen2Of]; exact hn (by decide +kernel)
    gnss := by rw [k2]; dsimp only [gen2Of]; exact hg }

/-- `driver_card_read_write_read` applies. -/
example : ∃ out c', marshalFile (some { type := .driverCard, driverCard := some (cardOf exBlocks) }) = .ok out ∧
    unmarshalFile out = .ok { type := .driverCard, driverCard := some c' } ∧ SameCard (cardOf exBlocks) c' :=
  driver_card_read_write_read _ _ _ exFile_read (parse_fileBytes _ (by decide +kernel)) exFile_unmoved exFile_known

/-- `parsed_card_written_iff` applies to the same file. -/
example : CardWritable (cardOf exBlocks) :=
  (parsed_card_written_iff _ _ _ exFile_read (parse_fileBytes _ (by decide +kernel)) exFile_unmoved).1
    (let ⟨out, _, h, _⟩ := driver_card_read_write_read _ _ _ exFile_read (parse_fileBytes _ (by decide +kernel)) exFile_unmoved exFile_known
     ⟨out, h⟩)

/-- A card whose current usage names the vehicle's nation by a code without a name. -/
def badRecords : List Tlv := [⟨0x00, 0x02, 0, exIcc⟩, ⟨0x05, 0x07, 0, [0x5F, 0, 0, 0, 0x90, 1] ++ List.replicate 13 0x41⟩]

def badBlocks : List Block := [⟨(⟨0x00, 0x02, 0, exIcc⟩ : Tlv).record, none⟩,
  ⟨(⟨0x05, 0x07, 0, [0x5F, 0, 0, 0, 0x90, 1] ++ List.replicate 13 0x41⟩ : Tlv).record, none⟩]

theorem badUsage_read : unmarshalCurrentUsage ([0x5F, 0, 0, 0, 0x90, 1] ++ List.replicate 13 0x41) =
    .ok ⟨some ⟨1593835520, 0⟩, some ⟨1, some (exText 1 4 13 0x41)⟩⟩ := by
  decide +kernel

theorem badFile_read : unmarshalFile (fileBytes badRecords) = .ok { type := .driverCard, driverCard := some (cardOf badBlocks) } := by
  refine (file_iff _ _).2 (.inr ⟨_, _, rfl, parse_fileBytes _ (by decide +kernel), .inl ⟨by decide +kernel, _, ?_, rfl⟩⟩)
  refine (driver_card_iff _ _).2 ⟨badBlocks, rfl, ?_, rfl⟩
  simp only [badBlocks, List.forall_mem_cons, List.not_mem_nil, false_implies, implies_true, and_true]
  exact ⟨⟨⟨rfl, by rintro s ⟨⟩⟩, rfl, exIcc_read⟩, ⟨⟨rfl, by rintro s ⟨⟩⟩, .inl ⟨rfl, _, badUsage_read⟩⟩⟩

/-- Such a file is read, but its contents cannot be written. -/
example : ¬ ∃ out, marshalFile (some { type := .driverCard, driverCard := some (cardOf badBlocks) }) = .ok out := by
  rw [parsed_card_written_iff _ _ _ badFile_read (parse_fileBytes _ (by decide +kernel)) (by unfold Unmoved NeverMoved; decide +kernel)]
  intro h
  have hu := h.usage
  rw [gen1_getD] at hu
  have he : (gen1Of badBlocks).currentUsage = some ⟨⟨some ⟨1593835520, 0⟩, some ⟨1, some (exText 1 4 13 0x41)⟩⟩, none⟩ := by
    show Block.readSigned unmarshalCurrentUsage (⟨(⟨0x05, 0x07, 0, [0x5F, 0, 0, 0, 0x90, 1] ++ List.replicate 13 0x41⟩ : Tlv).record, none⟩ : Block) = _
    unfold Block.readSigned Block.read
    rw [show (⟨(⟨0x05, 0x07, 0, [0x5F, 0, 0, 0, 0x90, 1] ++ List.replicate 13 0x41⟩ : Tlv).record, none⟩ : Block).data.value =
      [0x5F, 0, 0, 0, 0x90, 1] ++ List.replicate 13 0x41 from rfl, badUsage_read]
    rfl
  exact hu _ he _ rfl rfl

end Tacho.AgainExamples
