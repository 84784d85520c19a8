import Verif.Model.Vu
/-!
# Which memory a parsed file shares with the caller's buffer

The other modules treat byte fields as values. Here the first pass of both readers is modelled again with
byte slices, to say what happens to a result when the caller later uses its buffer for something else, or
appends to a slice of the result.

Simplifications: only whole records and the byte fields of transfers are followed (not the raw bytes kept
inside nested records, which are slices of the same transfer). The caller does not write to the buffer
while the parser runs.
-/

namespace Tacho

/-- A Go `[]byte`: `len` bytes from `off` of the backing array number `slot`. -/
structure Slice where
  slot : Nat
  off : Nat
  len : Nat
  deriving Repr, DecidableEq

/-- The backing arrays. Number 0 is the buffer the caller passes in. -/
abbrev Heap := List Bytes

/-- The bytes a slice shows. -/
def Slice.read (s : Slice) (h : Heap) : Bytes := sl (h.getD s.slot []) s.off (s.off + s.len)

/-- Go `b := make([]byte, n); copy(b, bytes)`. -/
def Heap.alloc (h : Heap) (b : Bytes) : Slice × Heap := (⟨h.length, 0, b.length⟩, h ++ [b])

/-- Go `append(s, b...)`. The capacity of a slice made with two indexes reaches to the end of its array; if
the bytes fit there they are written in place, otherwise everything is copied to a new array. -/
def Heap.append (h : Heap) (s : Slice) (b : Bytes) : Slice × Heap :=
  let array := h.getD s.slot []
  if s.off + s.len + b.length ≤ array.length then
    (⟨s.slot, s.off, s.len + b.length⟩, h.set s.slot (paint array (s.off + s.len) b.length b))
  else h.alloc (s.read h ++ b)

/-! ## Vehicle unit files -/

/-- `RawVehicleUnitFile_Record` with its value as a slice. -/
structure SharedVuRec where
  tag : Nat
  type : TransferType
  generation : Generation
  value : Slice
  deriving Repr, DecidableEq

/-- The record as the getters show it. -/
def SharedVuRec.read (r : SharedVuRec) (h : Heap) : VuRec := ⟨r.tag, r.type, r.generation, r.value.read h⟩

/-- The loop of `unmarshalRawVehicleUnitFile`, internal/vu/raw_vehicle_unit_file.go:29-64, from the given
offset; `value := data[offset : offset+valueSize]` (line 53) is a slice of the argument. -/
def sharedVuLoop (data : Bytes) : (fuel : Nat) → (offset : Nat) → Res (List SharedVuRec)
  | 0, _ => .ok []
  | fuel + 1, offset =>
    if offset < data.length then
      if offset + 2 > data.length then .err "insufficient data for tag"
      else do
        let tag := beNat (← sl? data offset (offset + 2))
        match findTransferTypeByTag tag with
        | none => .err "unknown tag"
        | some transferType => do
          let rest ← from? data (offset + 2)
          let valueSize ← sizeOfTransferValue rest transferType
          if offset + 2 + valueSize > data.length then .err "insufficient data for value"
          let records ← sharedVuLoop data fuel (offset + 2 + valueSize)
          return { tag := tag, type := transferType, generation := generationFromTransferType transferType,
                   value := ⟨0, offset + 2, valueSize⟩ } :: records
    else .ok []

/-- `unmarshalRawVehicleUnitFile`, internal/vu/raw_vehicle_unit_file.go:25-67, called with array 0. -/
def sharedVehicleUnitFile (data : Bytes) : Res (List SharedVuRec) := sharedVuLoop data data.length 0

/-- `SetSignature(value[len(value)-128:])`, e.g. internal/vu/events_faults_gen1.go:35-37. -/
def Slice.last (s : Slice) (n : Nat) : Slice := ⟨s.slot, s.off + (s.len - n), n⟩

/-- The byte fields a transfer message keeps: `SetRawData(value)`, then the certificates and the signature
of the Gen1 transfers (internal/vu/overview_gen1.go:63, 72, 79, 303; activities_gen1.go:57, 227;
events_faults_gen1.go:27, 37; detailed_speed_gen1.go:23, 33; technical_data_gen1.go:29, 39). Nothing is kept
of a download interface version (vehicle_unit_file.go:221-224), and a card download is refused. -/
def SharedVuRec.fields (r : SharedVuRec) : List Slice :=
  match r.type with
  | .overviewGen1 => [r.value, ⟨r.value.slot, r.value.off, 194⟩, ⟨r.value.slot, r.value.off + 194, 194⟩, r.value.last 128]
  | .activitiesGen1 | .eventsGen1 | .speedGen1 | .technicalGen1 => [r.value, r.value.last 128]
  | .downloadInterfaceVersion | .cardDownload => []
  | _ => [r.value]

/-! ## Card files -/

/-- `RawCardFile_Record` with its value as a slice. -/
structure SharedCardRec where
  tag : Int
  file : EF
  generation : Generation
  contentType : ContentType
  length : Int
  value : Slice
  deriving Repr, DecidableEq

/-- The record as the getters show it. -/
def SharedCardRec.read (r : SharedCardRec) (h : Heap) : RawRec :=
  ⟨r.tag, r.file, r.generation, r.contentType, r.length, r.value.read h⟩

/-- The loop of `UnmarshalRawCardFile`, internal/card/rawcardfile.go:18-24, over the delivered tokens:
every record's value is a new array (lines 88-91). -/
def sharedCardRecords (h : Heap) : List Bytes → Res (List SharedCardRec × Heap)
  | [] => .ok ([], h)
  | t :: ts => do
    let r ← unmarshalRawCardFileRecord t
    let (value, h) := h.alloc r.value
    let (rs, h) ← sharedCardRecords h ts
    return (⟨r.tag, r.file, r.generation, r.contentType, r.length, value⟩ :: rs, h)

/-- `UnmarshalRawCardFile`, internal/card/rawcardfile.go:14-29, called with array 0 of `h`. -/
def sharedCardFile (h : Heap) : Res (List SharedCardRec × Heap) := do
  let out := scanAll scanCardFile (h.getD 0 [])
  let recs ← sharedCardRecords h (out.toks.map Tok.bytes)
  match out.err with
  | some m => .err m
  | none => return recs

end Tacho
