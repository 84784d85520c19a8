import Verif.Model.Activity
import Verif.Model.CardEF
import Verif.Model.RawCard
import Verif.Model.Security
/-!
# Driver card files: internal/card/driver_card_file.go (parsing and writing)
-/

namespace Tacho

variable [Charmap]

/-- An EF message together with its `signature` field (the EF models leave that field out: no EF parser
or writer touches it; only driver_card_file.go sets it). -/
structure Signed (α : Type) where
  data : α
  signature : Option Bytes
  deriving Repr, DecidableEq

/-- `DriverCardFile_Tachograph` (card/v1/driver_card_file.proto). A `CardCertificate` or `CaCertificate`
message is represented by the RSA certificate in it. -/
structure Tachograph where
  applicationIdentification : Option (Signed AppId) := none
  identification : Option (Signed Identification) := none
  drivingLicenceInfo : Option (Signed DrivingLicenceInfo) := none
  eventsData : Option (Signed (List EventRecord)) := none
  faultsData : Option (Signed (List EventRecord)) := none
  driverActivityData : Option (Signed DriverActivityData) := none
  vehiclesUsed : Option (Signed (RecordFile CardVehicleRecord)) := none
  places : Option (Signed (RecordFile PlaceRecord)) := none
  currentUsage : Option (Signed CurrentUsage) := none
  controlActivityData : Option (Signed ControlActivity) := none
  specificConditions : Option (Signed (RecordFile SpecificConditionRecord)) := none
  cardDownload : Option CardDownload := none
  cardCertificate : Option RsaCert := none
  caCertificate : Option RsaCert := none
  deriving DecidableEq

/-- `DriverCardFile_TachographG2` (card/v1/driver_card_file.proto). Certificates as in `Tachograph`. -/
structure TachographG2 where
  applicationIdentification : Option (Signed AppIdG2) := none
  identification : Option (Signed Identification) := none
  drivingLicenceInfo : Option (Signed DrivingLicenceInfo) := none
  eventsData : Option (Signed (List EventRecord)) := none
  faultsData : Option (Signed (List EventRecord)) := none
  driverActivityData : Option (Signed DriverActivityData) := none
  vehiclesUsed : Option (Signed (RecordFile CardVehicleRecordG2)) := none
  places : Option (Signed (RecordFile PlaceRecordG2)) := none
  currentUsage : Option (Signed CurrentUsage) := none
  controlActivityData : Option (Signed ControlActivity) := none
  specificConditions : Option (Signed (RecordFile SpecificConditionRecord)) := none
  cardDownload : Option CardDownload := none
  vehicleUnitsUsed : Option (Signed (Int × List VehicleUnitRecord)) := none
  gnssPlaces : Option (Signed (Int × List GnssPlaceEntry)) := none
  applicationIdentificationV2 : Option (Signed AppIdV2) := none
  cardMaCertificate : Option EccCert := none
  cardSignCertificate : Option EccCert := none
  caCertificate : Option EccCert := none
  linkCertificate : Option EccCert := none
  deriving DecidableEq

/-- `DriverCardFile` (card/v1/driver_card_file.proto). -/
structure DriverCard where
  icc : Option Icc := none
  ic : Option Ic := none
  tachograph : Option Tachograph := none
  tachographG2 : Option TachographG2 := none
  deriving DecidableEq

omit [Charmap] in
/-- `if tachographDF == nil { tachographDF = &...{} }` followed by a setter (e.g. driver_card_file.go:113-116). -/
def DriverCard.setG1 (c : DriverCard) (f : Tachograph → Tachograph) : DriverCard :=
  { c with tachograph := some (f (c.tachograph.getD {})) }

omit [Charmap] in
/-- `if tachographG2DF == nil { ... }` followed by a setter (e.g. driver_card_file.go:118-121). -/
def DriverCard.setG2 (c : DriverCard) (f : TachographG2 → TachographG2) : DriverCard :=
  { c with tachographG2 := some (f (c.tachographG2.getD {})) }

omit [Charmap] in
/-- The generation switch with an error in its default case (e.g. driver_card_file.go:111-124). -/
def byGeneration {α : Type} (g : Generation) (one two : Res α) : Res α :=
  match g with
  | .gen1 => one
  | .gen2 => two
  | .unspecified => .err "unexpected generation"

omit [Charmap] in
/-- `if signature != nil { return error }` (e.g. driver_card_file.go:86-88). A signature record always
carries a value (rawcardfile.go:90-101 sets it), so "present" is "not nil". -/
def unsignedOnly (sig : Option Bytes) : Res Unit :=
  if sig.isSome then .err "unexpected signature" else .ok ()

/-- The switch over the file type of one data record, internal/card/driver_card_file.go:80-610. The
file-level version (lines 50, 141-145, 163-167) is only passed on in options no card EF parser reads, so it
is left out. -/
def routeRecord (c : DriverCard) (file : EF) (gen : Generation) (v : Bytes) (sig : Option Bytes) : Res DriverCard :=
  match file with
  | .icc => do
    let x ← unmarshalIcc v
    let _ ← unsignedOnly sig
    return { c with icc := some x }
  | .ic => do
    let x ← unmarshalIc v
    let _ ← unsignedOnly sig
    return { c with ic := some x }
  | .identification => do
    let x ← unmarshalIdentification v
    byGeneration gen
      (.ok (c.setG1 fun t => { t with identification := some ⟨x, sig⟩ }))
      (.ok (c.setG2 fun t => { t with identification := some ⟨x, sig⟩ }))
  | .applicationIdentification =>
    byGeneration gen
      (do let x ← unmarshalAppId v
          return c.setG1 fun t => { t with applicationIdentification := some ⟨x, sig⟩ })
      (do let x ← unmarshalAppIdG2 v
          return c.setG2 fun t => { t with applicationIdentification := some ⟨x, sig⟩ })
  | .drivingLicenceInfo => do
    let x ← unmarshalDrivingLicenceInfo v
    byGeneration gen
      (.ok (c.setG1 fun t => { t with drivingLicenceInfo := some ⟨x, sig⟩ }))
      (.ok (c.setG2 fun t => { t with drivingLicenceInfo := some ⟨x, sig⟩ }))
  | .eventsData => do
    let x ← unmarshalEventsData v
    byGeneration gen
      (.ok (c.setG1 fun t => { t with eventsData := some ⟨x, sig⟩ }))
      (.ok (c.setG2 fun t => { t with eventsData := some ⟨x, sig⟩ }))
  | .faultsData => do
    let x ← unmarshalEventsData v
    byGeneration gen
      (.ok (c.setG1 fun t => { t with faultsData := some ⟨x, sig⟩ }))
      (.ok (c.setG2 fun t => { t with faultsData := some ⟨x, sig⟩ }))
  | .driverActivityData => do
    let x ← unmarshalDriverActivityData v
    byGeneration gen
      (.ok (c.setG1 fun t => { t with driverActivityData := some ⟨x, sig⟩ }))
      (.ok (c.setG2 fun t => { t with driverActivityData := some ⟨x, sig⟩ }))
  | .vehiclesUsed =>
    byGeneration gen
      (do let x ← unmarshalVehiclesUsed v
          return c.setG1 fun t => { t with vehiclesUsed := some ⟨x, sig⟩ })
      (do let x ← unmarshalVehiclesUsedG2 v
          return c.setG2 fun t => { t with vehiclesUsed := some ⟨x, sig⟩ })
  | .places =>
    byGeneration gen
      (do let x ← unmarshalPlaces v
          return c.setG1 fun t => { t with places := some ⟨x, sig⟩ })
      (do let x ← unmarshalPlacesG2 v
          return c.setG2 fun t => { t with places := some ⟨x, sig⟩ })
  | .currentUsage => do
    let x ← unmarshalCurrentUsage v
    byGeneration gen
      (.ok (c.setG1 fun t => { t with currentUsage := some ⟨x, sig⟩ }))
      (.ok (c.setG2 fun t => { t with currentUsage := some ⟨x, sig⟩ }))
  | .controlActivityData => do
    let x ← unmarshalControlActivity v
    byGeneration gen
      (.ok (c.setG1 fun t => { t with controlActivityData := some ⟨x, sig⟩ }))
      (.ok (c.setG2 fun t => { t with controlActivityData := some ⟨x, sig⟩ }))
  | .specificConditions =>
    byGeneration gen
      (do let x ← unmarshalSpecificConditions v
          return c.setG1 fun t => { t with specificConditions := some ⟨x, sig⟩ })
      (do let x ← unmarshalSpecificConditionsG2 v
          return c.setG2 fun t => { t with specificConditions := some ⟨x, sig⟩ })
  | .cardDownloadDriver => do
    let x ← unmarshalCardDownload v
    let _ ← unsignedOnly sig
    byGeneration gen
      (.ok (c.setG1 fun t => { t with cardDownload := some x }))
      (.ok (c.setG2 fun t => { t with cardDownload := some x }))
  | .vehicleUnitsUsed => do
    let x ← unmarshalVehicleUnitsUsed v
    return c.setG2 fun t => { t with vehicleUnitsUsed := some ⟨x, sig⟩ }
  | .gnssPlaces => do
    let x ← unmarshalGnssPlaces v
    return c.setG2 fun t => { t with gnssPlaces := some ⟨x, sig⟩ }
  | .applicationIdentificationV2 => do
    let x ← unmarshalAppIdV2 v
    return c.setG2 fun t => { t with applicationIdentificationV2 := some ⟨x, sig⟩ }
  | .cardCertificate => do
    if gen ≠ .gen1 then .err "EF_CARD_CERTIFICATE should only appear in Gen1 DF"
    let x ← unmarshalRsa v
    let _ ← unsignedOnly sig
    return c.setG1 fun t => { t with cardCertificate := some x }
  | .cardMaCertificate => do
    if gen ≠ .gen2 then .err "EF_CARD_MA_CERTIFICATE should only appear in Gen2 DF"
    let x ← unmarshalEcc v
    let _ ← unsignedOnly sig
    return c.setG2 fun t => { t with cardMaCertificate := some x }
  | .cardSignCertificate => do
    if gen ≠ .gen2 then .err "EF_CARD_SIGN_CERTIFICATE should only appear in Gen2 DF"
    let x ← unmarshalEcc v
    let _ ← unsignedOnly sig
    return c.setG2 fun t => { t with cardSignCertificate := some x }
  | .caCertificate => do
    let c ← byGeneration gen
      (do let x ← unmarshalRsa v
          return c.setG1 fun t => { t with caCertificate := some x })
      (do let x ← unmarshalEcc v
          return c.setG2 fun t => { t with caCertificate := some x })
    let _ ← unsignedOnly sig
    return c
  | .linkCertificate => do
    if gen ≠ .gen2 then .err "EF_LINK_CERTIFICATE should only appear in Gen2 DF"
    let x ← unmarshalEcc v
    let _ ← unsignedOnly sig
    return c.setG2 fun t => { t with linkCertificate := some x }
  | _ => .ok c

/-- The loop of `unmarshalDriverCardFile`, internal/card/driver_card_file.go:56-611: a data record and, if
the record after it is a signature for the same file, that signature (lines 72-78). The two DF variables
live in the card from the start; lines 613-619 only copy them into the message. -/
def driverCardLoop (c : DriverCard) : List RawRec → Res DriverCard
  | [] => .ok c
  | [r] => if r.contentType = .data then routeRecord c r.file r.generation r.value none
           else .err "unexpected content type"
  | r :: n :: rest =>
    if r.contentType = .data then
      if n.file = r.file ∧ n.contentType = .signature then do
        let c ← routeRecord c r.file r.generation r.value (some n.value)
        driverCardLoop c rest
      else do
        let c ← routeRecord c r.file r.generation r.value none
        driverCardLoop c (n :: rest)
    else .err "unexpected content type"

/-- `UnmarshalDriverCardFile` / `unmarshalDriverCardFile`, internal/card/driver_card_file.go:19-21, 46-621. -/
def unmarshalDriverCard (rs : List RawRec) : Res DriverCard := driverCardLoop {} rs

omit [Charmap] in
/-- The `file_id` annotation of an EF, `proto.GetExtension(opts, E_FileId)`; the caller truncates to uint16. -/
def fidOf (file : EF) : Nat := ((efTable.find? (fun p => p.1 == file)).map Prod.snd).getD 0

omit [Charmap] in
/-- The bytes `AppendUint16(uint16(tag)), appendix` (e.g. driver_card_file.go:893-895). -/
def tagBytes (file : EF) (appendix : UInt8) : Bytes := beBytes 2 (fidOf file % 65536) ++ [appendix]

omit [Charmap] in
/-- Lines 896-914 of internal/card/driver_card_file.go (same at 942-961, 983-1002): tag, length
placeholder, value, then the length is patched in with `uint16(valLen)`. `PutUint16` panics if the writer
returned less than it was given. -/
def appendTlvValue (dst : Bytes) (file : EF) (appendix : UInt8) (f : Bytes → Res Bytes) : Res Bytes := do
  let hd := dst ++ tagBytes file appendix
  let lenPos := hd.length
  let dst := hd ++ beBytes 2 0
  let valPos := dst.length
  let out ← f dst
  let valLen : Int := out.length - valPos
  if out.length < lenPos + 2 then .panic
  return out.take lenPos ++ beBytes 2 (valLen % 65536).toNat ++ out.drop (lenPos + 2)

omit [Charmap] in
/-- `appendTlv`, internal/card/driver_card_file.go:880-925. -/
def appendTlv {α : Type} (dst : Bytes) (file : EF) (msg : Option α) (f : Bytes → α → Res Bytes) : Res Bytes :=
  match msg with
  | none => .ok dst
  | some m => do
    let dst ← appendTlvValue dst file 0x00 (f · m)
    return dst ++ tagBytes file 0x01 ++ beBytes 2 128 ++ zeros 128

omit [Charmap] in
/-- `appendTlvUnsigned`, internal/card/driver_card_file.go:928-966. -/
def appendTlvUnsigned {α : Type} (dst : Bytes) (file : EF) (msg : Option α) (f : Bytes → α → Res Bytes) : Res Bytes :=
  match msg with
  | none => .ok dst
  | some m => appendTlvValue dst file 0x00 (f · m)

omit [Charmap] in
/-- `appendTlvG2`, internal/card/driver_card_file.go:969-1014. -/
def appendTlvG2 {α : Type} (dst : Bytes) (file : EF) (msg : Option α) (f : Bytes → α → Res Bytes) : Res Bytes :=
  match msg with
  | none => .ok dst
  | some m => do
    let dst ← appendTlvValue dst file 0x02 (f · m)
    return dst ++ tagBytes file 0x03 ++ beBytes 2 128 ++ zeros 128

omit [Charmap] in
/-- `appendCertificateEF` (appendix 00) and `appendCertificateEFG2` (appendix 02),
internal/card/driver_card_file.go:841-857, 861-877; `none` when the certificate is absent (the nil checks
at the call sites, lines 761-821). -/
def appendCertificateEF (dst : Bytes) (file : EF) (appendix : UInt8) (cert : Option Bytes) : Bytes :=
  match cert with
  | none => dst
  | some raw =>
    if raw.length = 0 then dst
    else dst ++ tagBytes file appendix ++ beBytes 2 (raw.length % 65536) ++ raw

/-- Steps 1-14 of `appendDriverCard`, internal/card/driver_card_file.go:628-711: the master file and the
Gen1 application. -/
def appendGen1 (dst : Bytes) (card : DriverCard) : Res Bytes := do
  let t := card.tachograph.getD {}
  let dst ← appendTlvUnsigned dst .icc card.icc appendIcc
  let dst ← appendTlvUnsigned dst .ic card.ic (fun d m => appendCardIc d (some m))
  let dst ← appendTlv dst .applicationIdentification t.applicationIdentification (fun d m => appendAppId d (some m.data))
  let dst ← appendTlv dst .drivingLicenceInfo t.drivingLicenceInfo (fun d m => appendDrivingLicenceInfo d (some m.data))
  let dst ← appendTlv dst .identification t.identification (fun d m => appendIdentification d m.data)
  let dst ← appendTlv dst .eventsData t.eventsData (fun d m => appendEventsData d m.data)
  let dst ← appendTlv dst .faultsData t.faultsData (fun d m => appendEventsData d m.data)
  let dst ← appendTlv dst .driverActivityData t.driverActivityData (fun d m => appendDriverActivity d (some m.data))
  let dst ← appendTlv dst .vehiclesUsed t.vehiclesUsed (fun d m => appendVehiclesUsed d (some m.data))
  let dst ← appendTlv dst .places t.places (fun d m => appendPlaces d (some m.data))
  let dst ← appendTlv dst .currentUsage t.currentUsage (fun d m => appendCurrentUsage d (some m.data))
  let dst ← appendTlv dst .controlActivityData t.controlActivityData (fun d m => appendControlActivity d (some m.data))
  let dst ← appendTlv dst .specificConditions t.specificConditions (fun d m => appendSpecificConditions d (some m.data))
  appendTlvUnsigned dst .cardDownloadDriver t.cardDownload (fun d m => appendCardDownload d (some m))

/-- The Gen2 block of `appendDriverCard`, internal/card/driver_card_file.go:714-757. -/
def appendGen2 (dst : Bytes) (t : TachographG2) : Res Bytes := do
  let dst ← appendTlvG2 dst .applicationIdentification t.applicationIdentification (fun d m => appendAppIdG2 d (some m.data))
  let dst ← appendTlvG2 dst .vehiclesUsed t.vehiclesUsed (fun d m => appendVehiclesUsedG2 d (some m.data))
  let dst ← appendTlvG2 dst .places t.places (fun d m => appendPlacesG2 d (some m.data))
  let dst ← appendTlvG2 dst .specificConditions t.specificConditions (fun d m => appendSpecificConditionsG2 d (some m.data))
  let dst ← appendTlvG2 dst .vehicleUnitsUsed t.vehicleUnitsUsed (fun d m => appendVehicleUnitsUsed d (some m.data))
  let dst ← appendTlvG2 dst .gnssPlaces t.gnssPlaces (fun d m => appendGnssPlaces d (some m.data))
  appendTlvG2 dst .applicationIdentificationV2 t.applicationIdentificationV2 (fun d m => appendAppIdV2 d (some m.data))

omit [Charmap] in
/-- The certificate part of `appendDriverCard`, internal/card/driver_card_file.go:759-822. -/
def appendCertificates (dst : Bytes) (card : DriverCard) : Bytes :=
  let dst := match card.tachograph with
    | none => dst
    | some t =>
      let dst := appendCertificateEF dst .cardCertificate 0x00 (t.cardCertificate.map RsaCert.raw)
      appendCertificateEF dst .caCertificate 0x00 (t.caCertificate.map RsaCert.raw)
  match card.tachographG2 with
  | none => dst
  | some t =>
    let dst := appendCertificateEF dst .cardMaCertificate 0x02 (t.cardMaCertificate.map EccCert.raw)
    let dst := appendCertificateEF dst .cardSignCertificate 0x02 (t.cardSignCertificate.map EccCert.raw)
    let dst := appendCertificateEF dst .caCertificate 0x02 (t.caCertificate.map EccCert.raw)
    appendCertificateEF dst .linkCertificate 0x02 (t.linkCertificate.map EccCert.raw)

/-- `appendDriverCard`, internal/card/driver_card_file.go:625-827. -/
def appendDriverCard (dst : Bytes) (card : DriverCard) : Res Bytes := do
  let dst ← appendGen1 dst card
  let dst ← match card.tachographG2 with
    | none => .ok dst
    | some t => appendGen2 dst t
  return appendCertificates dst card

/-- `MarshalDriverCardFile`, internal/card/driver_card_file.go:24-34. -/
def marshalDriverCard (card : Option DriverCard) : Res Bytes :=
  match card with
  | none => .err "driver card file is nil"
  | some c => appendDriverCard [] c

end Tacho
