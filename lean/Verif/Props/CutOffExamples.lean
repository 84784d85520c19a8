import Verif.Props.CutOff
import Verif.Props.CardAgainExamples
/-!
# C75 and C76: the hypotheses are met, and what may look stronger is false
-/

namespace Tacho.CutOffExamples
open Tacho Spec WriteExamples AgainExamples

local instance : Charmap := latin1

/-- The card of C67, block by block. -/
def exCard : List TlvBlock := [
  ⟨⟨0x00, 0x02, 0, exIcc⟩, none⟩,
  ⟨⟨0x05, 0x20, 0, exIdentification⟩, some ⟨0x05, 0x20, 1, List.replicate 128 7⟩⟩,
  ⟨⟨0x05, 0x21, 0, exLicence⟩, none⟩,
  ⟨⟨0x05, 0x02, 0, List.flatten [exEvent, List.replicate 24 0]⟩, some ⟨0x05, 0x02, 1, List.replicate 128 8⟩⟩,
  ⟨⟨0x05, 0x07, 0, [0x5F, 0, 0, 0] ++ exReg⟩, none⟩]

/-- The same, in another order. -/
def exCardOther : List TlvBlock := [
  ⟨⟨0x00, 0x02, 0, exIcc⟩, none⟩,
  ⟨⟨0x05, 0x02, 0, List.flatten [exEvent, List.replicate 24 0]⟩, some ⟨0x05, 0x02, 1, List.replicate 128 8⟩⟩,
  ⟨⟨0x05, 0x07, 0, [0x5F, 0, 0, 0] ++ exReg⟩, none⟩,
  ⟨⟨0x05, 0x20, 0, exIdentification⟩, some ⟨0x05, 0x20, 1, List.replicate 128 7⟩⟩,
  ⟨⟨0x05, 0x21, 0, exLicence⟩, none⟩]

theorem exCard_records : exCard.flatMap TlvBlock.records = exRecords := rfl

theorem exCard_good : ∀ b ∈ exCard, b.Good := by
  simp only [exCard, List.forall_mem_cons, List.not_mem_nil, false_implies, implies_true, and_true]
  refine ⟨⟨rfl, by rintro s ⟨⟩⟩, ⟨rfl, by rintro s ⟨⟩; exact ⟨rfl, rfl⟩⟩, ⟨rfl, by rintro s ⟨⟩⟩, ⟨rfl, by rintro s ⟨⟩; exact ⟨rfl, rfl⟩⟩,
    ⟨rfl, by rintro s ⟨⟩⟩⟩

theorem exCard_fits : ∀ b ∈ exCard, ∀ r ∈ b.records, r.value.length ≤ 65530 := by decide +kernel

instance : DecidableRel OnePlace := fun a b => by unfold OnePlace; infer_instance

theorem exCard_distinct : exCard.Pairwise (fun a b => ¬ OnePlace a.data.record b.data.record) := by decide +kernel

theorem exCard_read : unmarshalFile (fileBytes (exCard.flatMap TlvBlock.records)) =
    .ok { type := .driverCard, driverCard := some (cardOf exBlocks) } := exFile_read

theorem exCard_perm : exCard.Perm exCardOther :=
  .cons _ (List.perm_append_comm (l₁ := [_, _]) (l₂ := [_, _]))

/-- `card_order` applies. -/
example : unmarshalFile (fileBytes (exCardOther.flatMap TlvBlock.records)) = .ok { type := .driverCard, driverCard := some (cardOf exBlocks) } :=
  card_order exCard exCardOther exCard_perm exCard_good exCard_fits exCard_distinct ⟨_, rfl⟩ _ exCard_read

/-- `card_order_icc_first` applies. -/
example : (⟨0x05, 0x20, 0, exIdentification⟩ : Tlv).record.file ≠ .icc ∧ (⟨0x05, 0x20, 0, exIdentification⟩ : Tlv).fidHi ≠ 0x76 := by
  decide +kernel

/-- The card without its first three records. -/
def exRest : List Tlv := [⟨0x05, 0x21, 0, exLicence⟩, ⟨0x05, 0x02, 0, List.flatten [exEvent, List.replicate 24 0]⟩,
  ⟨0x05, 0x02, 1, List.replicate 128 8⟩, ⟨0x05, 0x07, 0, [0x5F, 0, 0, 0] ++ exReg⟩]

theorem exRecords_split : exRecords = [⟨0x00, 0x02, 0, exIcc⟩, ⟨0x05, 0x20, 0, exIdentification⟩] ++ ⟨0x05, 0x20, 1, List.replicate 128 7⟩ :: exRest := rfl

/-- `card_signature_damage` applies: a signature of the identification that is cut to one byte is taken as it is. -/
example : ∃ c' g, unmarshalFile (fileBytes ([⟨0x00, 0x02, 0, exIcc⟩, ⟨0x05, 0x20, 0, exIdentification⟩] ++ ⟨0x05, 0x20, 1, [9]⟩ :: exRest)) =
      .ok { type := .driverCard, driverCard := some c' } ∧
    SameCardBut .identification g (cardOf exBlocks) c' ∧ unsignedCard (cardOf exBlocks) = unsignedCard c' := by
  have h : unmarshalFile (fileBytes exRecords) = .ok { type := .driverCard, driverCard := some (cardOf exBlocks) } := exFile_read
  have hs : ∀ x ∈ exRecords, x.value.length ≤ 65530 := by decide +kernel
  rw [exRecords_split] at h hs
  have := card_signature_damage [⟨0x00, 0x02, 0, exIcc⟩, ⟨0x05, 0x20, 0, exIdentification⟩] exRest ⟨0x05, 0x20, 1, List.replicate 128 7⟩ ⟨0x05, 0x20, 1, [9]⟩ rfl rfl rfl hs (by decide) _ (by decide +kernel) h
  rw [show (⟨0x05, 0x20, 1, List.replicate 128 7⟩ : Tlv).record.file = .identification by decide +kernel] at this
  exact this

/-- `card_damage` applies, with a current usage that is replaced by an empty one: refused. -/
example : (∃ m, unmarshalCurrentUsage [] = .err m) ∧ (⟨0x05, 0x07, 0, []⟩ : Tlv).record.file = .currentUsage := by
  exact ⟨⟨_, rfl⟩, by decide⟩

/-- `card_cut_off` applies, and its two cases occur: the first record alone is 30 bytes long. -/
example : (fileBytes (exCard.flatMap TlvBlock.records)).take 30 = fileBytes ((exCard.flatMap TlvBlock.records).take 1) ∧
    (fileBytes (exCard.flatMap TlvBlock.records)).length > 30 := by decide +kernel

example : ∃ c' : DriverCard, unmarshalFile ((fileBytes (exCard.flatMap TlvBlock.records)).take 30) =
    .ok { type := .driverCard, driverCard := some c' } ∧ CardPart c' (cardOf exBlocks) := by
  rcases card_cut_off exCard exCard_good exCard_fits _ exCard_read 30 with ⟨_, _, h⟩ | ⟨c', _, _, _, h, hp⟩
  · exact absurd (by decide +kernel) (h 1 (by decide))
  · exact ⟨c', h, hp exCard_distinct⟩

/-- A vehicle unit download of the second version of Gen2 that begins with detailed speed. -/
def exVu : List Transfer := [
  ⟨.speedGen2, [1, 0, 3, 0, 2, 10, 11, 12, 13, 14, 15] ++ [8, 0, 1, 0, 0]⟩,
  ⟨.downloadInterfaceVersion, [1, 1]⟩]

theorem exVu_conforms : ∀ t ∈ exVu, Conforms t.type t.value := by
  have h := cut_conforms sampleDownload_cut
  intro t ht
  refine h t ?_
  simp only [exVu, List.mem_cons, List.not_mem_nil, or_false] at ht
  simp only [sampleDownload, List.mem_cons, List.not_mem_nil, or_false]
  exact ht.symm

def exVuMessage : VehicleUnitFile := { generation := .gen2, version := .v2, gen2V2 := some (gen2Message .overviewG2V2 exVu) }

theorem exVu_read : unmarshalFile (vuBytes exVu) = .ok { type := .vehicleUnit, vehicleUnit := some exVuMessage } := by
  refine (file_iff _ _).2 (.inl ⟨_, _, rfl, (vu_file_iff _ _).2 ⟨exVu, by decide, rfl, exVu_conforms, .inr (.inr ⟨?_, ?_, rfl⟩)⟩, rfl⟩)
  · unfold Only; decide
  · unfold Only; decide

/-- C76: cut off after the detailed speed, it is taken for a download of the first version. -/
theorem vu_cut_off_version : ∃ d k w v, unmarshalFile d = .ok { type := .vehicleUnit, vehicleUnit := some w } ∧ w.version = .v2 ∧
    unmarshalFile (d.take k) = .ok { type := .vehicleUnit, vehicleUnit := some v } ∧ v.version = .v1 := by
  refine ⟨vuBytes exVu, 18, _, { generation := .gen2, version := .v1, gen2V1 := some (gen2Message .overviewG2V1 (exVu.take 1)) }, exVu_read, rfl, ?_, rfl⟩
  have : (vuBytes exVu).take 18 = vuBytes (exVu.take 1) := by decide
  rw [this]
  refine (file_iff _ _).2 (.inl ⟨_, _, rfl, (vu_file_iff _ _).2 ⟨exVu.take 1, by decide, rfl,
    fun t ht => exVu_conforms t (List.mem_of_mem_take ht), .inr (.inl ⟨?_, rfl⟩)⟩, rfl⟩)
  unfold Only; decide

end Tacho.CutOffExamples
