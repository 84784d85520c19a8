import Verif.Model.Scanner
import Verif.Model.CardTables
/-!
# Raw card files: internal/card/rawcardfile.go and internal/card/infer.go
-/

namespace Tacho

/-- `ContentType` values set by rawcardfile.go:103-107. -/
inductive ContentType where
  | data | signature
  deriving Repr, DecidableEq

/-- `Generation` enum (dd/v1/generation.proto). -/
inductive Generation where
  | unspecified | gen1 | gen2
  deriving Repr, DecidableEq

/-- `RawCardFile_Record` (card/v1/raw_card_file.proto). `tag` and `length` are `int32`. -/
structure RawRec where
  tag : Int
  file : EF
  generation : Generation
  contentType : ContentType
  length : Int
  value : Bytes
  deriving Repr, DecidableEq

/-- `mapFidToElementaryFileType`, internal/card/infer.go:27-40: first enum value whose annotation
(truncated to uint16) equals the FID, otherwise UNSPECIFIED. The boolean result is ignored by the
only caller and is dropped. -/
def mapFid (fid : Nat) : EF :=
  match efTable.find? (fun p => p.2 % 65536 == fid) with
  | some p => p.1
  | none => .unspecified

/-- `scanCardFile`, internal/card/rawcardfile.go:47-76. -/
def scanCardFile : SplitFn := fun data atEOF =>
  if data.length < 5 then
    if atEOF then
      if data.length = 0 then .more else .fail "unexpected EOF"
    else .more
  else
    let length := beNat (sl data 3 5)
    let totalSize := 5 + length
    if data.length < totalSize then
      if atEOF then .fail "unexpected EOF" else .more
    else .token totalSize

/-- `unmarshalRawCardFileRecord`, internal/card/rawcardfile.go:79-118. Line 90 computes
`5+length` in `uint16`, so the upper slice bound wraps modulo 65536. -/
def unmarshalRawCardFileRecord (input : Bytes) : Res RawRec := do
  let fid := beNat (← sl? input 0 2)
  let appendix ← at? input 2
  let length := beNat (← sl? input 3 5)
  let value ← sl? input 5 ((5 + length) % 65536)
  return {
    tag := (fid * 256 + appendix.toNat : Nat)
    length := (length : Nat)
    value := value
    contentType := if appendix.toNat % 2 = 1 then .signature else .data
    generation := if appendix.toNat / 2 % 2 = 1 then .gen2 else .gen1
    file := mapFid fid }

/-- The loop `for sc.Scan() { record, err := ...; append }`, internal/card/rawcardfile.go:18-24,
over the bytes of the delivered tokens. -/
def rawRecords : List Bytes → Res (List RawRec)
  | [] => .ok []
  | t :: ts => do
    let r ← unmarshalRawCardFileRecord t
    let rs ← rawRecords ts
    return r :: rs

/-- `UnmarshalRawCardFile`, internal/card/rawcardfile.go:14-29. A record error or panic inside the
loop comes before the scanner error of a later token. -/
def unmarshalRawCardFile (input : Bytes) : Res (List RawRec) := do
  let out := scanAll scanCardFile input
  let recs ← rawRecords (out.toks.map Tok.bytes)
  match out.err with
  | some m => .err m
  | none => return recs

/-- `MarshalRawCardFile`, internal/card/rawcardfile.go:32-44: `uint16(tag>>8)`, `byte(tag&0xFF)`,
`uint16(length)`, value. -/
def marshalRawRec (r : RawRec) : Bytes :=
  beBytes 2 (r.tag / 256 % 65536).toNat ++ [UInt8.ofNat (r.tag % 256).toNat]
    ++ beBytes 2 (r.length % 65536).toNat ++ r.value

/-- `MarshalRawCardFile`, internal/card/rawcardfile.go:32-44. -/
def marshalRawCardFile (rs : List RawRec) : Res Bytes :=
  .ok (rs.flatMap marshalRawRec)

/-- `hasAllElementaryFiles`, internal/card/infer.go:43-63. -/
def hasAllElementaryFiles (expected : List EF) (rs : List RawRec) : Bool :=
  rs.all (fun r => if r.contentType = .data then expected.any (fun e => r.file == e) else true)

/-- `InferFileType`, internal/card/infer.go:9-23. -/
def inferFileType (rs : List RawRec) : CardType :=
  ((cardTypeTable.find? (fun p => hasAllElementaryFiles p.2 rs)).map Prod.fst).getD .unspecified

end Tacho
