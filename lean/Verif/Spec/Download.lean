import Verif.Spec.Regulation
import Verif.Spec.Activity
import Verif.Spec.Certificates
/-!
# Driver card downloads that conform to the regulation

"CD" is docs/regulation/chapters/12-card-downloading.md (Appendix 7, chapter 3), "DD" and "FS" are as in
Spec/Regulation.lean. Nothing here is taken from the code, except that an ECC certificate (whose profile is in a
part of Appendix 11 that the repository does not carry) is anything with the nested layout of
Spec/Certificates.lean.
-/

namespace Tacho.Spec.Regulation

/-- TCS_07, lines 142-158 of 04-tachograph-cards-specification.md: the clock stop modes a card may announce
(bits 4 to 8 are not used). -/
def clockStop : Dictionary :=
  [⟨0x00, "Clockstop not allowed", "NOT_ALLOWED", 1⟩,
   ⟨0x01, "Clockstop allowed, no preferred level", "ALLOWED_NO_PREFERENCE", 1⟩,
   ⟨0x02, "Clockstop only allowed on high level", "ALLOWED_ONLY_HIGH_LEVEL", 1⟩,
   ⟨0x03, "Clockstop allowed, high level preferred", "ALLOWED_HIGH_LEVEL_PREFERRED", 1⟩,
   ⟨0x04, "Clockstop only allowed on low level", "ALLOWED_ONLY_LOW_LEVEL", 1⟩,
   ⟨0x05, "Clockstop allowed, low level preferred", "ALLOWED_LOW_LEVEL_PREFERRED", 1⟩]

/-- A file of a driver card as it is stored in a download. -/
structure Part where
  /-- its name in the regulation -/
  name : String
  /-- its identifier -/
  fid : Nat
  /-- is it in the Tachograph_G2 application -/
  g2 : Bool
  contents : Bytes
  /-- the signature, for a file that is downloaded with one -/
  signature : Option Bytes

/-- A TLV object: identifier, appendix, two byte length, value (DDP_041 to DDP_044). -/
def tlv (fid : Nat) (appendix : UInt8) (value : Bytes) : Tlv :=
  ⟨UInt8.ofNat (fid / 256), UInt8.ofNat (fid % 256), appendix, value⟩

/-- CD, DDP_042, DDP_043, DDP_046: the contents under appendix 00 (02 in Tachograph_G2), directly followed by
the signature, if there is one, under appendix 01 (03). -/
def Part.tlvs (p : Part) : List Tlv :=
  tlv p.fid (if p.g2 then 2 else 0) p.contents :: p.signature.toList.map (tlv p.fid (if p.g2 then 3 else 1))

/-- CD, DDP_040, DDP_041: all files of the download, one after the other. -/
def storedDownload (ps : List Part) : Bytes := fileBytes (ps.flatMap Part.tlvs)

/-- The bytes are laid out as the given elements. -/
def Layout.Fits (L : Layout) (d : Bytes) : Prop := d.length = L.size

/-- The one byte element is a code with a meaning. -/
def Layout.HasCode (L : Layout) (name : String) (D : Dictionary) (d : Bytes) : Prop :=
  ∃ b, L.get name d = [b] ∧ D.nameOf b ≠ none

/-- A pointer and whole records. -/
def CyclicFile.Fits (F : CyclicFile) (d : Bytes) : Prop :=
  ∃ ptr rs, d = ptr ++ List.flatten rs ∧ ptr.length = F.pointer ∧ ∀ r ∈ rs, r.length = F.record.size

/-- DD, BCDString: every half byte is a decimal digit. -/
def Decimal (d : Bytes) : Prop := ∀ x ∈ d, x.toNat / 16 < 10 ∧ x.toNat % 16 < 10

/-- Vehicles used: as above, the block counters being BCD strings. -/
def VehiclesFile (F : CyclicFile) (d : Bytes) : Prop :=
  ∃ ptr rs, d = ptr ++ List.flatten rs ∧ ptr.length = F.pointer ∧
    ∀ r ∈ rs, r.length = F.record.size ∧ Decimal (F.record.get "vuDataBlockCounter" r)

/-- Event and fault files: whole records; the type of a record that is in use (its begin time is not zero) is a
code with a meaning. -/
def EventFile (d : Bytes) : Prop :=
  ∃ rs : List Bytes, d = rs.flatten ∧ ∀ r ∈ rs, eventRecord.Fits r ∧
    (beNat (eventRecord.get "eventBeginTime" r) ≠ 0 → eventRecord.HasCode "eventType" eventFault r)

/-- DD lines 520-536 and 655-668, CardDriverActivity: two pointers, then a cyclic buffer in which the days are
stored one after the other from place `s` on, around the end of the buffer, the newest where the second pointer
says, each day with the length of the one before (0 for the oldest) and its own length. -/
def StoredDays (ptrs b : Bytes) (s : Nat) (days : List Bytes) : Prop :=
  ptrs.length = 4 ∧ days ≠ [] ∧ Window b s days.flatten ∧ days.flatten.length ≤ b.length ∧ Linked 0 days ∧
  beNat (ptrs.drop 2) = (s + days.dropLast.flatten.length) % b.length

/-- FS line 158: an activity file in which nothing was stored yet. -/
def FreshActivity (d : Bytes) : Prop := 4 < d.length ∧ ∀ x ∈ d, x = 0

/-- The number of days in the buffer and the places of their headers are within what the code can handle: at
most 365 days, and no day starts in the last three bytes of the buffer. The regulation has no such limits (DD
line 668: "independently of a break being inside a data element"). -/
def WithinLimits (b : Bytes) (s : Nat) (days : List Bytes) : Prop :=
  days.length ≤ 365 ∧
  ∀ pre day post, days = pre ++ day :: post → (s + pre.flatten.length) % b.length + 4 ≤ b.length

/-- An activity file of the regulation within these limits. -/
def ActivityReadable (d : Bytes) : Prop :=
  FreshActivity d ∨ ∃ ptrs b s days, d = ptrs ++ b ∧ StoredDays ptrs b s days ∧ WithinLimits b s days

/-- An ECC certificate. -/
def EccFile (d : Bytes) : Prop := 204 ≤ d.length ∧ d.length ≤ 341 ∧ ∃ f full, EccFields.Layout f d full

/-- What the contents of a file of the master file or of the Tachograph application may be (FS lines 30-40 and
94-206; certificates 194 bytes, FS line 106). -/
def contentsG1 (name : String) (d : Bytes) : Prop :=
  (name = "ICC" ∧ cardIccIdentification.Fits d ∧ cardIccIdentification.HasCode "clockStop" clockStop d ∧
    ∃ t, ((cardIccIdentification.get "cardExtendedSerialNumber" d).drop 6).take 1 = [t] ∧ equipment.nameOf t ≠ none) ∨
  (name = "IC" ∧ cardChipIdentification.Fits d) ∨
  (name = "Application_Identification" ∧ applicationIdentificationG1.Fits d ∧
    applicationIdentificationG1.HasCode "typeOfTachographCardId" equipment d) ∨
  ((name = "Card_Certificate" ∨ name = "CA_Certificate") ∧ d.length = 194) ∨
  (name = "Identification" ∧ identification.Fits d) ∨
  (name = "Card_Download" ∧ cardDownload.Fits d) ∨
  (name = "Driving_Licence_Info" ∧ drivingLicence.Fits d) ∨
  ((name = "Events_Data" ∨ name = "Faults_Data") ∧ EventFile d) ∨
  (name = "Driver_Activity_Data" ∧ ActivityReadable d) ∨
  (name = "Vehicles_Used" ∧ VehiclesFile vehiclesUsedG1 d) ∨
  (name = "Places" ∧ placesG1.Fits d) ∨
  (name = "Current_Usage" ∧ currentUse.Fits d) ∨
  (name = "Control_Activity_Data" ∧ controlActivity.Fits d) ∨
  (name = "Specific_Conditions" ∧ specificConditionsG1.Fits d)

/-- What the contents of a file of the Tachograph_G2 application may be (FS lines 277-472). For the files of
generation 2 version 2 other than `Application_Identification_V2` nothing is required. -/
def contentsG2 (name : String) (d : Bytes) : Prop :=
  (name = "Application_Identification" ∧ applicationIdentificationG2.Fits d ∧
    applicationIdentificationG2.HasCode "typeOfTachographCardId" equipment d) ∨
  ((name = "CardSignCertificate" ∨ name = "CA_Certificate" ∨ name = "Link_Certificate") ∧ EccFile d) ∨
  (name = "Identification" ∧ identification.Fits d) ∨
  (name = "Card_Download" ∧ cardDownload.Fits d) ∨
  (name = "Driving_Licence_Info" ∧ drivingLicence.Fits d) ∨
  ((name = "Events_Data" ∨ name = "Faults_Data") ∧ EventFile d) ∨
  (name = "Driver_Activity_Data" ∧ ActivityReadable d) ∨
  (name = "Vehicles_Used" ∧ VehiclesFile vehiclesUsedG2 d) ∨
  (name = "Places" ∧ placesG2.Fits d) ∨
  (name = "Current_Usage" ∧ currentUse.Fits d) ∨
  (name = "Control_Activity_Data" ∧ controlActivity.Fits d) ∨
  (name = "Specific_Conditions" ∧ specificConditionsG2.Fits d) ∨
  (name = "VehicleUnits_Used" ∧ vehicleUnitsUsed.Fits d) ∨
  (name = "GNSS_Places" ∧ gnssPlaces.Fits d) ∨
  (name = "Application_Identification_V2" ∧ applicationIdentificationV2.Fits d) ∨
  (name = "Places_Authentication" ∨ name = "GNSS_Places_Authentication" ∨ name = "Border_Crossings" ∨
    name = "Load_Unload_Operations" ∨ name = "Load_Type_Entries" ∨ name = "VU_Configuration")

/-- CD, DDP_035, DDP_037: the files that are downloaded without a signature. -/
def unsignedFiles : List String :=
  ["ICC", "IC", "Card_Certificate", "CA_Certificate", "CardSignCertificate", "Link_Certificate", "Card_Download"]

/-- A file of a driver card, as a download may contain it (DDP_035; `CardMA_Certificate` is not downloaded). The
length FFFF is reserved (DDP_044), and so, in effect, are the four below it: no file of the regulation is that
long. -/
def Part.Conforms (p : Part) : Prop :=
  (p.name, p.fid) ∈ (if p.g2 then driverCardG2 else masterFile ++ driverCardG1) ∧
  (if p.g2 then contentsG2 p.name p.contents else contentsG1 p.name p.contents) ∧
  (p.name ∈ unsignedFiles → p.signature = none) ∧
  p.contents.length ≤ 65530 ∧ ∀ s, p.signature = some s → s.length ≤ 65530

end Tacho.Spec.Regulation
