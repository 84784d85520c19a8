import Verif.Model.Vu
import Verif.Model.Verify
/-!
# The public entry points: unmarshal.go, marshal.go, verify.go
-/

namespace Tacho

/-- `File_Type` enum (tachograph/v1/file.proto). Numbers outside the enum behave like the ones that no
function handles. -/
inductive FileType where
  | unspecified | vehicleUnit | driverCard | workshopCard | controlCard | companyCard | rawCard
  deriving Repr, DecidableEq

/-- `File` message; the variants are separate optional fields, not a oneof. -/
structure File where
  type : FileType := .unspecified
  vehicleUnit : Option VehicleUnitFile := none
  driverCard : Option DriverCard := none
  rawCard : Option (List RawRec) := none

/-- `UnmarshalFile`, unmarshal.go:16-63. -/
def unmarshalFile [Charmap] (data : Bytes) : Res File := do
  if data.length < 2 then .err "insufficient data for tachograph file"
  if (← at? data 0) = 0x76 then
    let vu ← unmarshalVehicleUnitFile data
    return { type := .vehicleUnit, vehicleUnit := some vu }
  else if beNat (← sl? data 0 2) = 0x0002 then
    let raw ← unmarshalRawCardFile data
    if inferFileType raw = .driverCard then
      let card ← unmarshalDriverCard raw
      return { type := .driverCard, driverCard := some card }
    else
      return { type := .rawCard, rawCard := some raw }
  else .err "unknown or unsupported file type"

/-- `MarshalFile`, marshal.go:12-23. A nil file has type UNSPECIFIED and a nil raw card has no
records. -/
def marshalFile (file : Option File) : Res Bytes :=
  match (file.getD {}).type with
  | .driverCard => marshalDriverCard (file.getD {}).driverCard
  | .vehicleUnit => marshalVehicleUnitFile (file.getD {}).vehicleUnit
  | .rawCard => marshalRawCardFile ((file.getD {}).rawCard.getD [])
  | _ => .err "unsupported file type for marshaling"

/-- `VerifyOptions.VerifyFile`, verify.go:43-66; `dflt` is `DefaultCertificateResolver()`. -/
def verifyFile [Crypto] {σ : Type} (dflt : Resolver σ) (resolver : Option (Resolver σ))
    (file : Option File) (s : σ) : Verified (Option File) σ :=
  match file with
  | none => ⟨none, .err "file cannot be nil", s⟩
  | some f =>
    let r := resolver.getD dflt
    match f.type with
    | .driverCard =>
      let v := verifyDriverCard (some r) f.driverCard s
      ⟨some { f with driverCard := v.msg }, v.result, v.world⟩
    | .vehicleUnit => ⟨file, .ok (), s⟩
    | .rawCard => ⟨file, .ok (), s⟩
    | _ => ⟨file, .err "unsupported file type", s⟩

end Tacho
