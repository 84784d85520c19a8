import Verif.Spec.Order
import Verif.Spec.CardFiles
import Verif.Spec.VuFile
import Verif.Props.Retained
/-!
# Specification: what leaves no trace in the message

Which differences between two downloads cannot be seen in what the parser returns.
-/

namespace Tacho.Spec

/-- The two bytes are the same, or neither of them is a nation of the table. -/
def SameNation (a b : UInt8) : Prop := a = b ∨ ¬ Known nationNumericTable a ∧ ¬ Known nationNumericTable b

/-- From byte `lo` up to byte `hi` the data are the same, apart from unknown nations at the given places. -/
def AlikeOn (lo hi : Nat) (nations : List Nat) (d e : Bytes) : Prop :=
  ∀ i, lo ≤ i → i < hi → ∃ a b, d[i]? = some a ∧ e[i]? = some b ∧ (a = b ∨ i ∈ nations ∧ SameNation a b)

/-- Two records of events or faults: the empty ones are kept as they are, the nation of the others is at byte 9. -/
def AlikeEvents (r s : Bytes) : Prop :=
  if sl r 1 5 = [0, 0, 0, 0] then r = s else AlikeOn 0 24 [9] r s

/-- The contents of two files of the same name that are read as the same. Most files are kept byte by byte. -/
def AlikeFiles (f : EF) (d e : Bytes) : Prop :=
  match f with
  | .icc => AlikeOn 0 25 [] d e
  | .ic => AlikeOn 0 8 [] d e
  | .cardDownloadDriver => AlikeOn 0 4 [] d e
  | .applicationIdentificationV2 => AlikeOn 0 4 [] d e
  | .currentUsage => AlikeOn 0 19 [4] d e
  | .drivingLicenceInfo => AlikeOn 0 53 [36] d e
  | .identification => AlikeOn 0 143 [0] d e
  | .controlActivityData => if sl d 1 5 = [0, 0, 0, 0] then d = e else AlikeOn 0 46 [23] d e
  | .eventsData | .faultsData =>
    recordCount 0 24 d = recordCount 0 24 e ∧ ∀ i, i < recordCount 0 24 d → AlikeEvents (record 0 24 i d) (record 0 24 i e)
  | _ => d = e

/-- The places of the card message: a file, and its generation if it has one place for each. -/
def cardPlaces : List (EF × Option Generation) :=
  [(.icc, none), (.ic, none)] ++ gen1Files.map (·, some .gen1) ++ gen2SharedFiles.map (·, some .gen2) ++ gen2OnlyFiles.map (·, none)

/-- The block belongs to this place. -/
def belongs (p : EF × Option Generation) (b : Block) : Bool := b.data.file == p.1 && p.2.all (b.data.generation == ·)

/-- For every place of the card message the newest blocks are both absent, or they have alike contents and the same signature. -/
def AlikeCards (bs cs : List Block) : Prop :=
  ∀ p ∈ cardPlaces, BothOr (fun b c => AlikeFiles p.1 b.data.value c.data.value ∧ b.sig.map RawRec.value = c.sig.map RawRec.value)
    (newest bs (belongs p)) (newest cs (belongs p))

/-- The file holds these blocks. -/
def Holds (d : Bytes) (bs : List Block) : Prop :=
  ∃ rs : List Tlv, (∀ r ∈ rs, r.value.length ≤ 65530) ∧ d = fileBytes rs ∧ rs.map Tlv.record = bs.flatMap Block.records ∧ ∀ b ∈ bs, b.Good

/-- Records that are read into a buffer which is not moved under them, see `NeverMoved`. Files of the sizes in the regulation
satisfy this. -/
def Unshifted (bs : List Block) : Prop :=
  ∀ b ∈ bs, (b.data.file = .eventsData ∨ b.data.file = .faultsData → NeverMoved 24 b.data.value.length) ∧
    (b.data.file = .vehicleUnitsUsed → b.data.value.length ≤ 4098)

/-- The transfers of two downloads of vehicle units that are read as the same: the same last overview, the same values of all other
types, and both or neither of the second version of Gen2. -/
structure AlikeTransfers (ts us : List Transfer) : Prop where
  overview : ∀ k ∈ [TransferType.overviewGen1, .overviewG2V1, .overviewG2V2], (valuesOf k ts).getLast? = (valuesOf k us).getLast?
  rest : ∀ k ∈ [TransferType.activitiesGen1, .eventsGen1, .speedGen1, .technicalGen1, .speedGen2], valuesOf k ts = valuesOf k us
  version : (∃ t ∈ ts, t.type ∈ [TransferType.downloadInterfaceVersion, .overviewG2V2]) ↔
    ∃ u ∈ us, u.type ∈ [TransferType.downloadInterfaceVersion, .overviewG2V2]

end Tacho.Spec
