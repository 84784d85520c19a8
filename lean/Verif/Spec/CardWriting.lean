import Verif.Spec.DriverCard
import Verif.Spec.Tlv
/-!
# Specification: the file a driver card message is written to

A list of entries in a fixed order. Each entry is one elementary file: its file id, the appendix byte of its
data record (00 for Gen1, 02 for Gen2), whether a signature record follows, and its content.
-/

namespace Tacho.Spec

variable [Charmap]

/-- One elementary file to be written. -/
structure Entry where
  fidHi : UInt8
  fidLo : UInt8
  appendix : UInt8
  signed : Bool
  content : Res Bytes

omit [Charmap] in
/-- The TLV records of an entry whose content is `v`: the data record, then, for a signed file, a signature
record of 128 zero bytes under the same file id and the next appendix. -/
def Entry.tlvs (s : Entry) (v : Bytes) : List Tlv :=
  ⟨s.fidHi, s.fidLo, s.appendix, v⟩ :: if s.signed then [⟨s.fidHi, s.fidLo, s.appendix + 1, List.replicate 128 0⟩] else []

omit [Charmap] in
/-- The TLV records of a list of entries with these contents. -/
def tlvsOf (ss : List Entry) (vs : List Bytes) : List Tlv := (ss.zip vs).flatMap fun p => p.1.tlvs p.2

omit [Charmap] in
/-- An entry for a file that is in the message, none for a file that is not. -/
def entry {α : Type} (hi lo appendix : UInt8) (signed : Bool) (msg : Option α) (write : α → Res Bytes) : List Entry :=
  match msg with
  | none => []
  | some m => [⟨hi, lo, appendix, signed, write m⟩]

omit [Charmap] in
/-- An entry for a certificate: its raw bytes, left out when empty. -/
def certificate (hi lo appendix : UInt8) (raw : Option Bytes) : List Entry :=
  match raw with
  | none => []
  | some r => if r = [] then [] else [⟨hi, lo, appendix, false, .ok r⟩]

/-- The Gen1 application, without its certificates. -/
def gen1Entries (t : Tachograph) : List Entry :=
  entry 0x05 0x01 0 true t.applicationIdentification (fun m => appendAppId [] (some m.data)) ++
  entry 0x05 0x21 0 true t.drivingLicenceInfo (fun m => appendDrivingLicenceInfo [] (some m.data)) ++
  entry 0x05 0x20 0 true t.identification (fun m => appendIdentification [] m.data) ++
  entry 0x05 0x02 0 true t.eventsData (fun m => appendEventsData [] m.data) ++
  entry 0x05 0x03 0 true t.faultsData (fun m => appendEventsData [] m.data) ++
  entry 0x05 0x04 0 true t.driverActivityData (fun m => appendDriverActivity [] (some m.data)) ++
  entry 0x05 0x05 0 true t.vehiclesUsed (fun m => appendVehiclesUsed [] (some m.data)) ++
  entry 0x05 0x06 0 true t.places (fun m => appendPlaces [] (some m.data)) ++
  entry 0x05 0x07 0 true t.currentUsage (fun m => appendCurrentUsage [] (some m.data)) ++
  entry 0x05 0x08 0 true t.controlActivityData (fun m => appendControlActivity [] (some m.data)) ++
  entry 0x05 0x22 0 true t.specificConditions (fun m => appendSpecificConditions [] (some m.data)) ++
  entry 0x05 0x0E 0 false t.cardDownload (fun m => appendCardDownload [] (some m))

/-- The Gen2 application, without its certificates. -/
def gen2Entries (t : TachographG2) : List Entry :=
  entry 0x05 0x01 2 true t.applicationIdentification (fun m => appendAppIdG2 [] (some m.data)) ++
  entry 0x05 0x05 2 true t.vehiclesUsed (fun m => appendVehiclesUsedG2 [] (some m.data)) ++
  entry 0x05 0x06 2 true t.places (fun m => appendPlacesG2 [] (some m.data)) ++
  entry 0x05 0x22 2 true t.specificConditions (fun m => appendSpecificConditionsG2 [] (some m.data)) ++
  entry 0x05 0x23 2 true t.vehicleUnitsUsed (fun m => appendVehicleUnitsUsed [] (some m.data)) ++
  entry 0x05 0x24 2 true t.gnssPlaces (fun m => appendGnssPlaces [] (some m.data)) ++
  entry 0x05 0x25 2 true t.applicationIdentificationV2 (fun m => appendAppIdV2 [] (some m.data))

omit [Charmap] in
/-- The Gen1 certificates. -/
def gen1Certificates (t : Tachograph) : List Entry :=
  certificate 0xC1 0x00 0 (t.cardCertificate.map RsaCert.raw) ++ certificate 0xC1 0x08 0 (t.caCertificate.map RsaCert.raw)

omit [Charmap] in
/-- The Gen2 certificates. -/
def gen2Certificates (t : TachographG2) : List Entry :=
  certificate 0xC1 0x00 2 (t.cardMaCertificate.map EccCert.raw) ++ certificate 0xC1 0x01 2 (t.cardSignCertificate.map EccCert.raw) ++
  certificate 0xC1 0x08 2 (t.caCertificate.map EccCert.raw) ++ certificate 0xC1 0x09 2 (t.linkCertificate.map EccCert.raw)

/-- Everything that is written, in order. A missing application contributes nothing. -/
def entries (c : DriverCard) : List Entry :=
  entry 0x00 0x02 0 false c.icc (fun m => appendIcc [] m) ++
  entry 0x00 0x05 0 false c.ic (fun m => appendCardIc [] (some m)) ++
  gen1Entries (c.tachograph.getD {}) ++ gen2Entries (c.tachographG2.getD {}) ++
  gen1Certificates (c.tachograph.getD {}) ++ gen2Certificates (c.tachographG2.getD {})

omit [Charmap] in
/-- The bytes of an entry with content `v`, whatever its size: the length field holds the low 16 bits. -/
def Entry.bytes (s : Entry) (v : Bytes) : Bytes :=
  [s.fidHi, s.fidLo, s.appendix] ++ beBytes 2 (v.length % 65536) ++ v ++
    if s.signed then [s.fidHi, s.fidLo, s.appendix + 1] ++ [0, 128] ++ List.replicate 128 0 else []

omit [Charmap] in
/-- Drop a signature. -/
def unsigned {α : Type} (s : Signed α) : Signed α := { s with signature := none }

omit [Charmap] in
/-- The Gen1 application without its signatures. -/
def forgetGen1 (t : Tachograph) : Tachograph :=
  { t with
    applicationIdentification := t.applicationIdentification.map unsigned
    identification := t.identification.map unsigned
    drivingLicenceInfo := t.drivingLicenceInfo.map unsigned
    eventsData := t.eventsData.map unsigned
    faultsData := t.faultsData.map unsigned
    driverActivityData := t.driverActivityData.map unsigned
    vehiclesUsed := t.vehiclesUsed.map unsigned
    places := t.places.map unsigned
    currentUsage := t.currentUsage.map unsigned
    controlActivityData := t.controlActivityData.map unsigned
    specificConditions := t.specificConditions.map unsigned }

omit [Charmap] in
/-- The Gen2 application without its signatures and without eight of its files. -/
def forgetGen2 (t : TachographG2) : TachographG2 :=
  { t with
    applicationIdentification := t.applicationIdentification.map unsigned
    identification := none
    drivingLicenceInfo := none
    eventsData := none
    faultsData := none
    driverActivityData := none
    vehiclesUsed := t.vehiclesUsed.map unsigned
    places := t.places.map unsigned
    currentUsage := none
    controlActivityData := none
    specificConditions := t.specificConditions.map unsigned
    cardDownload := none
    vehicleUnitsUsed := t.vehicleUnitsUsed.map unsigned
    gnssPlaces := t.gnssPlaces.map unsigned
    applicationIdentificationV2 := t.applicationIdentificationV2.map unsigned }

omit [Charmap] in
/-- What is left of a card message in the file it is written to. -/
def forget (c : DriverCard) : DriverCard :=
  { c with tachograph := c.tachograph.map forgetGen1, tachographG2 := c.tachographG2.map forgetGen2 }

end Tacho.Spec
