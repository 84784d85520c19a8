import Mathlib.Data.List.Forall2
import Verif.Spec.VuLayout
import Verif.Model.Vu
/-!
# A parsed vehicle unit file, in terms of the transfers of the download
-/

namespace Tacho.Spec

/-- The values of the transfers of one type, in the order of the download. -/
def valuesOf (type : TransferType) (ts : List Transfer) : List Bytes :=
  (ts.filter (fun t => t.type = type)).map Transfer.value

/-- Every transfer is of one of these types. -/
def Only (types : List TransferType) (ts : List Transfer) : Prop := ∀ t ∈ ts, t.type ∈ types

/-- A Gen1 block kept as it is, with its last 128 bytes as signature. -/
def signed (v : Bytes) : SignedGen1 := ⟨v, v.drop (v.length - 128)⟩

/-- What a download of Gen1 transfers contains: every overview and every day of activities decoded (the
message has room for one overview, the last one is kept), the other blocks as they are, all in order. -/
def Gen1Is [Charmap] (ts : List Transfer) (g : VuGen1) : Prop :=
  ∃ overviews, List.Forall₂ (fun v o => unmarshalOverviewGen1 v = .ok o) (valuesOf .overviewGen1 ts) overviews
    ∧ g.overview = overviews.getLast?
    ∧ List.Forall₂ (fun v a => unmarshalActivitiesGen1 v = .ok a) (valuesOf .activitiesGen1 ts) g.activities
    ∧ g.eventsAndFaults = (valuesOf .eventsGen1 ts).map signed
    ∧ g.detailedSpeed = (valuesOf .speedGen1 ts).map signed
    ∧ g.technicalData = (valuesOf .technicalGen1 ts).map signed

/-- The five types of Gen1. -/
def gen1Types : List TransferType := [.overviewGen1, .activitiesGen1, .eventsGen1, .speedGen1, .technicalGen1]

/-- The Gen2 transfers for which the parser is not able to read any value. -/
def unreadable : List TransferType :=
  [.activitiesG2V1, .eventsG2V1, .technicalG2V1, .activitiesG2V2, .eventsG2V2, .technicalG2V2]

/-- The Gen2 message: last overview and all detailed speed blocks; there is nothing else to be had. -/
def gen2Message (overview : TransferType) (ts : List Transfer) : VuGen2 :=
  { overview := ((valuesOf overview ts).getLast?).map RawGen2.mk
    detailedSpeed := (valuesOf .speedGen2 ts).map RawGen2.mk }

end Tacho.Spec
