import Verif.Props.CardSettled
import Verif.Props.CardAgainExamples
/-!
# C67, C70: a card file whose first writing is not the last

The card number holds a stray byte, which is shown as U+FFFD and takes three bytes; the text no longer fits, the field is
cut in the middle of a later character, and what is left of that character is trimmed when the file is read again. The
code page of the licence authority is not one of the known ones.
-/

namespace Tacho.AgainExamples
open Tacho Spec WriteExamples

local instance : Charmap := latin1

/-- Twelve digits, a stray byte and a letter. -/
def strayIdentification : Bytes :=
  [0x0F] ++ List.replicate 12 0x31 ++ [0x80, 0x42] ++ [0x30, 0x31] ++ ([1] ++ List.replicate 35 0x42) ++
    [0x5F, 0, 0, 0, 0x5F, 0, 0, 0, 0x6F, 0, 0, 0] ++
    ([1] ++ List.replicate 35 0x43) ++ ([2] ++ List.replicate 35 0x44) ++ [0x19, 0x70, 0x12, 0x31] ++ [0x65, 0x6E]

/-- Code page 119 is not assigned. -/
def strayLicence : Bytes := [119] ++ List.replicate 35 0x42 ++ [0x0F] ++ List.replicate 16 0x37

def strayRecords : List Tlv := [⟨0x00, 0x02, 0, exIcc⟩, ⟨0x05, 0x20, 0, strayIdentification⟩, ⟨0x05, 0x21, 0, strayLicence⟩]

def strayBlocks : List Block := [⟨(⟨0x00, 0x02, 0, exIcc⟩ : Tlv).record, none⟩,
  ⟨(⟨0x05, 0x20, 0, strayIdentification⟩ : Tlv).record, none⟩, ⟨(⟨0x05, 0x21, 0, strayLicence⟩ : Tlv).record, none⟩]

def strayMessage : Identification :=
  { exIdentificationMessage with
    card := exIdentificationMessage.card.map fun c =>
      { c with
        driver := some ⟨some ⟨some (List.replicate 12 0x31 ++ [0x80, 0x42]), some 14, List.replicate 12 0x31 ++ [0xEF, 0xBF, 0xBD, 0x42]⟩,
          some ⟨some [0x30], some 1, [0x30]⟩, some ⟨some [0x31], some 1, [0x31]⟩⟩ } }

theorem strayIdentification_read : unmarshalIdentification strayIdentification = .ok strayMessage := by decide +kernel

def strayLicenceMessage : DrivingLicenceInfo :=
  ⟨some (exText 119 1 35 0x42), 18, some ⟨some (List.replicate 16 0x37), some 16, List.replicate 16 0x37⟩⟩

theorem strayLicence_read : unmarshalDrivingLicenceInfo strayLicence = .ok strayLicenceMessage := by decide +kernel

theorem strayFile_read : unmarshalFile (fileBytes strayRecords) = .ok { type := .driverCard, driverCard := some (cardOf strayBlocks) } := by
  refine (file_iff _ _).2 (.inr ⟨_, _, rfl, parse_fileBytes _ (by decide +kernel), .inl ⟨by decide +kernel, _, ?_, rfl⟩⟩)
  refine (driver_card_iff _ _).2 ⟨strayBlocks, rfl, ?_, rfl⟩
  simp only [strayBlocks, List.forall_mem_cons, List.not_mem_nil, false_implies, implies_true, and_true]
  exact ⟨⟨⟨rfl, by rintro s ⟨⟩⟩, rfl, exIcc_read⟩, ⟨⟨rfl, by rintro s ⟨⟩⟩, .inl ⟨rfl, _, strayIdentification_read⟩⟩,
    ⟨⟨rfl, by rintro s ⟨⟩⟩, .inl ⟨rfl, _, strayLicence_read⟩⟩⟩

/-- What is written: the chip, the licence and the identification with `n` as the end of the card number, the latter
two with a blank signature. -/
def strayWritten (n : Bytes) : Bytes := List.flatten [
  [0, 2, 0, 0, 25], exIcc,
  [5, 0x21, 0, 0, 53], [255], List.replicate 35 0x42, [0x0F], List.replicate 16 0x37, [5, 0x21, 1, 0, 128], List.replicate 128 0,
  [5, 0x20, 0, 0, 143], [0x0F], List.replicate 12 0x31, n, strayIdentification.drop 15, [5, 0x20, 1, 0, 128], List.replicate 128 0]

/-- The first two bytes of U+FFFD end the number. -/
theorem stray_written : marshalFile (some { type := .driverCard, driverCard := some (cardOf strayBlocks) }) = .ok (strayWritten [0xEF, 0xBF]) := by
  decide +kernel

theorem strayFile_raws : unmarshalRawCardFile (fileBytes strayRecords) = .ok (strayRecords.map Tlv.record) :=
  parse_fileBytes _ (by decide +kernel)

theorem strayFile_unmoved : Unmoved (strayRecords.map Tlv.record) := by
  unfold Unmoved NeverMoved
  decide +kernel

/-- `parsed_card_rewritten` applies. -/
theorem stray_rewritten : ∃ out c' out' c'', marshalFile (some { type := .driverCard, driverCard := some (cardOf strayBlocks) }) = .ok out ∧
    unmarshalFile out = .ok { type := .driverCard, driverCard := some c' } ∧
    SameCard (settledCard (fun w v => toValidUTF8 (trimSpaceAndZeroBytes (v.take w))) (cardOf strayBlocks)) c' ∧
    marshalFile (some { type := .driverCard, driverCard := some c' }) = .ok out' ∧
    unmarshalFile out' = .ok { type := .driverCard, driverCard := some c'' } ∧
    SameCard (settledCard (fun w v => toValidUTF8 (trimSpaceAndZeroBytes (v.take w))) (cardOf strayBlocks)) c'' ∧
    marshalFile (some { type := .driverCard, driverCard := some c'' }) = .ok out' ∧
    (EachData (fun m => Each NumberFits m.card) ((cardOf strayBlocks).tachograph.getD {}).identification → out' = out) :=
  parsed_card_rewritten _ (fun w v => (cleaned_iff _ _).1 rfl) _ _ _ strayFile_read strayFile_raws strayFile_unmoved
    ((parsed_card_written_iff _ _ _ strayFile_read strayFile_raws strayFile_unmoved).1 ⟨_, stray_written⟩)

/-- The identification as first written, and its message. -/
def cutIdentification : Bytes := [0x0F] ++ List.replicate 12 0x31 ++ [0xEF, 0xBF] ++ strayIdentification.drop 15

def cutRecords : List Tlv := [⟨0x00, 0x02, 0, exIcc⟩,
  ⟨0x05, 0x21, 0, [255] ++ List.replicate 35 0x42 ++ [0x0F] ++ List.replicate 16 0x37⟩, ⟨0x05, 0x21, 1, List.replicate 128 0⟩,
  ⟨0x05, 0x20, 0, cutIdentification⟩, ⟨0x05, 0x20, 1, List.replicate 128 0⟩]

def cutBlocks : List Block := [⟨(⟨0x00, 0x02, 0, exIcc⟩ : Tlv).record, none⟩,
  ⟨(⟨0x05, 0x21, 0, [255] ++ List.replicate 35 0x42 ++ [0x0F] ++ List.replicate 16 0x37⟩ : Tlv).record,
    some (⟨0x05, 0x21, 1, List.replicate 128 0⟩ : Tlv).record⟩,
  ⟨(⟨0x05, 0x20, 0, cutIdentification⟩ : Tlv).record, some (⟨0x05, 0x20, 1, List.replicate 128 0⟩ : Tlv).record⟩]

def cutMessage : Identification :=
  { exIdentificationMessage with
    card := exIdentificationMessage.card.map fun c =>
      { c with
        driver := some ⟨some ⟨some (List.replicate 12 0x31 ++ [0xEF, 0xBF]), some 14, List.replicate 12 0x31⟩,
          some ⟨some [0x30], some 1, [0x30]⟩, some ⟨some [0x31], some 1, [0x31]⟩⟩ } }

theorem cutIdentification_read : unmarshalIdentification cutIdentification = .ok cutMessage := by decide +kernel

theorem cutLicence_read : unmarshalDrivingLicenceInfo ([255] ++ List.replicate 35 0x42 ++ [0x0F] ++ List.replicate 16 0x37) =
    .ok ⟨some ⟨3, some (255 :: List.replicate 35 0x42), some 35, []⟩, 18, some ⟨some (List.replicate 16 0x37), some 16, List.replicate 16 0x37⟩⟩ := by
  decide +kernel

/-- The second writing replaces the two bytes by spaces: it is not the first. -/
theorem stray_written_twice : ∃ f, unmarshalFile (strayWritten [0xEF, 0xBF]) = .ok f ∧ marshalFile (some f) = .ok (strayWritten [0x20, 0x20]) ∧
    strayWritten [0xEF, 0xBF] ≠ strayWritten [0x20, 0x20] := by
  refine ⟨{ type := .driverCard, driverCard := some (cardOf cutBlocks) }, ?_, by decide +kernel, by decide +kernel⟩
  rw [show strayWritten [0xEF, 0xBF] = fileBytes cutRecords by decide +kernel]
  refine (file_iff _ _).2 (.inr ⟨_, _, rfl, parse_fileBytes _ (by decide +kernel), .inl ⟨by decide +kernel, _, ?_, rfl⟩⟩)
  refine (driver_card_iff _ _).2 ⟨cutBlocks, rfl, ?_, rfl⟩
  simp only [cutBlocks, List.forall_mem_cons, List.not_mem_nil, false_implies, implies_true, and_true]
  exact ⟨⟨⟨rfl, by rintro s ⟨⟩⟩, rfl, exIcc_read⟩, ⟨⟨rfl, by rintro s ⟨⟩; exact ⟨rfl, rfl⟩⟩, .inl ⟨rfl, _, cutLicence_read⟩⟩,
    ⟨⟨rfl, by rintro s ⟨⟩; exact ⟨rfl, rfl⟩⟩, .inl ⟨rfl, _, cutIdentification_read⟩⟩⟩

end Tacho.AgainExamples
