import Verif.Props.VerifyRewritten
import Verif.Props.CardAgainExamples
/-!
# C86: a card with certificates, and a card that passes verification only once it was written
-/

namespace Tacho.RewrittenExamples
open Tacho Spec WriteExamples AgainExamples

local instance : Charmap := latin1

/-- 194 bytes, the reference to the authority last. -/
def exCertificate (b : UInt8) : Bytes := List.replicate 186 b ++ [0, 0, 0, 0, 0, 0, 1, 44]

def certRecords : List Tlv := [⟨0x00, 0x02, 0, exIcc⟩, ⟨0x05, 0x20, 0, exIdentification⟩, ⟨0xC1, 0x00, 0, exCertificate 7⟩,
  ⟨0xC1, 0x08, 0, exCertificate 8⟩]

def certBlocks : List Block := [⟨(⟨0x00, 0x02, 0, exIcc⟩ : Tlv).record, none⟩, ⟨(⟨0x05, 0x20, 0, exIdentification⟩ : Tlv).record, none⟩,
  ⟨(⟨0xC1, 0x00, 0, exCertificate 7⟩ : Tlv).record, none⟩, ⟨(⟨0xC1, 0x08, 0, exCertificate 8⟩ : Tlv).record, none⟩]

theorem exCertificate_read (b : UInt8) (h : b = 7 ∨ b = 8) :
    unmarshalRsa (exCertificate b) = .ok { car := [0x33, 0x30, 0x30], raw := exCertificate b } := by
  rcases h with rfl | rfl <;> decide +kernel

theorem certFile_read : unmarshalFile (fileBytes certRecords) = .ok { type := .driverCard, driverCard := some (cardOf certBlocks) } := by
  refine (file_iff _ _).2 (.inr ⟨_, _, rfl, parse_fileBytes _ (by decide +kernel), .inl ⟨by decide +kernel, _, ?_, rfl⟩⟩)
  refine (driver_card_iff _ _).2 ⟨certBlocks, rfl, ?_, rfl⟩
  simp only [certBlocks, List.forall_mem_cons, List.not_mem_nil, false_implies, implies_true, and_true]
  exact ⟨⟨⟨rfl, by rintro s ⟨⟩⟩, rfl, exIcc_read⟩, ⟨⟨rfl, by rintro s ⟨⟩⟩, .inl ⟨rfl, _, exIdentification_read⟩⟩,
    ⟨⟨rfl, by rintro s ⟨⟩⟩, rfl, rfl, _, exCertificate_read 7 (.inl rfl)⟩,
    ⟨⟨rfl, by rintro s ⟨⟩⟩, rfl, .inl ⟨rfl, _, exCertificate_read 8 (.inr rfl)⟩⟩⟩

theorem certFile_unmoved : Unmoved (certRecords.map Tlv.record) := by
  unfold Unmoved NeverMoved
  decide +kernel

theorem cert_written : marshalFile (some { type := .driverCard, driverCard := some (cardOf certBlocks) }) = .ok (List.flatten [
    [0, 2, 0, 0, 25], exIcc, [5, 0x20, 0, 0, 143], exIdentification, [5, 0x20, 1, 0, 128], List.replicate 128 0,
    [0xC1, 0, 0, 0, 194], exCertificate 7, [0xC1, 8, 0, 0, 194], exCertificate 8]) := by
  decide +kernel

/-- `rewritten_verifies_alike` applies to a first generation card with its certificates. -/
theorem cert_verifies_alike [Crypto] {σ : Type} (dflt : Resolver σ) (res : Option (Resolver σ)) (s : σ) :
    ∃ out f', marshalFile (some { type := .driverCard, driverCard := some (cardOf certBlocks) }) = .ok out ∧ unmarshalFile out = .ok f' ∧
      (verifyFile dflt res (some f') s).result =
        (verifyFile dflt res (some { type := .driverCard, driverCard := some (cardOf certBlocks) }) s).result ∧
      (verifyFile dflt res (some f') s).world =
        (verifyFile dflt res (some { type := .driverCard, driverCard := some (cardOf certBlocks) }) s).world := by
  obtain ⟨f', h⟩ := rewritten_verifies_alike dflt res s _ _ _ _ certFile_read (parse_fileBytes _ (by decide +kernel)) certFile_unmoved cert_written
    (by intro t ht; cases ht)
  exact ⟨_, f', cert_written, h⟩

/-! ## A card with an identification in the second generation application only -/

def bareRecords : List Tlv := [⟨0x00, 0x02, 0, exIcc⟩, ⟨0x05, 0x20, 2, exIdentification⟩]

def bareBlocks : List Block := [⟨(⟨0x00, 0x02, 0, exIcc⟩ : Tlv).record, none⟩, ⟨(⟨0x05, 0x20, 2, exIdentification⟩ : Tlv).record, none⟩]

theorem bareFile_read : unmarshalFile (fileBytes bareRecords) = .ok { type := .driverCard, driverCard := some (cardOf bareBlocks) } := by
  refine (file_iff _ _).2 (.inr ⟨_, _, rfl, parse_fileBytes _ (by decide +kernel), .inl ⟨by decide +kernel, _, ?_, rfl⟩⟩)
  refine (driver_card_iff _ _).2 ⟨bareBlocks, rfl, ?_, rfl⟩
  simp only [bareBlocks, List.forall_mem_cons, List.not_mem_nil, false_implies, implies_true, and_true]
  exact ⟨⟨⟨rfl, by rintro s ⟨⟩⟩, rfl, exIcc_read⟩, ⟨⟨rfl, by rintro s ⟨⟩⟩, .inr ⟨rfl, _, exIdentification_read⟩⟩⟩

theorem bareFile_unmoved : Unmoved (bareRecords.map Tlv.record) := by
  unfold Unmoved NeverMoved
  decide +kernel

theorem bare_written : marshalFile (some { type := .driverCard, driverCard := some (cardOf bareBlocks) }) = .ok ([0, 2, 0, 0, 25] ++ exIcc) := by
  decide +kernel

/-- C86: the card lacks the certificate to be verified, and verification says so; written and read again, it passes. -/
theorem bare_card_passes_when_rewritten [Crypto] {σ : Type} (dflt : Resolver σ) (res : Option (Resolver σ)) (s : σ) :
    (verifyFile dflt res (some { type := .driverCard, driverCard := some (cardOf bareBlocks) }) s).result =
      .err "card sign certificate is missing" ∧
    ∃ out f', marshalFile (some { type := .driverCard, driverCard := some (cardOf bareBlocks) }) = .ok out ∧ unmarshalFile out = .ok f' ∧
      (verifyFile dflt res (some f') s).result = .ok () := by
  refine ⟨rfl, [0, 2, 0, 0, 25] ++ exIcc, ?_⟩
  obtain ⟨-, f', h1, h2, -⟩ := rewritten_verifies_more dflt res s _ _ _ (gen2Of bareBlocks) _ bareFile_read
    (parse_fileBytes _ (by decide +kernel)) bareFile_unmoved bare_written rfl (by decide +kernel)
  exact ⟨f', bare_written, h1, h2⟩

end Tacho.RewrittenExamples
