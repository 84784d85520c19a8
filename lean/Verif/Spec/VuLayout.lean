import Verif.Model.VuRaw
import Verif.Spec.Tlv
/-!
# Vehicle unit downloads, in the words of Appendix 7

A download is a sequence of transfers. A transfer is the two bytes `76 TREP` and a value; the value
has no length field, its extent follows from the counts inside it.
-/

namespace Tacho.Spec

/-- A piece of a transfer value: bytes of a fixed number; a count of `width` bytes and that many
records of `size` bytes; or a record array, whose five byte header gives type, record size and
number of records. -/
inductive Piece where
  | fixed (n : Nat)
  | counted (width size : Nat)
  | array

/-- The bytes `b` are one such piece. -/
def Piece.Fills : Piece → Bytes → Prop
  | .fixed n, b => b.length = n
  | .counted width size, b =>
    ∃ count records, count < 256 ^ width ∧ b = beBytes width count ++ records
      ∧ records.length = count * size
  | .array, b =>
    ∃ (type : UInt8) (size count : Nat) (records : Bytes), size < 65536 ∧ count < 65536
      ∧ b = [type] ++ beBytes 2 size ++ beBytes 2 count ++ records
      ∧ records.length = size * count

/-- The bytes `b` are these pieces one after the other. -/
def Fills : List Piece → Bytes → Prop
  | [], b => b = []
  | p :: ps, b => ∃ x y, b = x ++ y ∧ p.Fills x ∧ Fills ps y

/-- The first byte after the `76`. -/
def trep : TransferType → UInt8
  | .downloadInterfaceVersion => 0x00
  | .overviewGen1 => 0x01
  | .activitiesGen1 => 0x02
  | .eventsGen1 => 0x03
  | .speedGen1 => 0x04
  | .technicalGen1 => 0x05
  | .cardDownload => 0x06
  | .overviewG2V1 => 0x21
  | .activitiesG2V1 => 0x22
  | .eventsG2V1 => 0x23
  | .speedGen2 => 0x24
  | .technicalG2V1 => 0x25
  | .overviewG2V2 => 0x31
  | .activitiesG2V2 => 0x32
  | .eventsG2V2 => 0x33
  | .technicalG2V2 => 0x35

/-- The pieces of each transfer. A card download is not of this form, see `Conforms`. -/
def layout : TransferType → List Piece
  | .downloadInterfaceVersion => [.fixed 2]
  | .overviewGen1 => [.fixed 491, .counted 1 98, .counted 1 31, .fixed 128]
  | .activitiesGen1 => [.fixed 7, .counted 2 129, .counted 2 2, .counted 1 28, .counted 2 5, .fixed 128]
  | .eventsGen1 =>
    [.counted 1 82, .counted 1 83, .fixed 9, .counted 1 31, .counted 1 98, .fixed 128]
  | .speedGen1 => [.counted 2 64, .fixed 128]
  | .technicalGen1 => [.fixed 136, .counted 1 167, .fixed 128]
  | .overviewG2V1 => List.replicate 11 .array
  | .overviewG2V2 => List.replicate 11 .array
  | .activitiesG2V1 => List.replicate 8 .array
  | .activitiesG2V2 => List.replicate 10 .array
  | .eventsG2V1 => List.replicate 6 .array
  | .eventsG2V2 => List.replicate 7 .array
  | .speedGen2 => List.replicate 2 .array
  | .technicalG2V1 => List.replicate 4 .array
  | .technicalG2V2 => List.replicate 7 .array
  | .cardDownload => []

/-- `v` is a complete value of the given transfer. -/
def Conforms : TransferType → Bytes → Prop
  | .cardDownload, v => ∃ ts : List Tlv, (∀ t ∈ ts, t.value.length < 65536) ∧ v = ts.flatMap Tlv.bytes
  | t, v => Fills (layout t) v

/-- One transfer of a download. -/
structure Transfer where
  type : TransferType
  value : Bytes
  deriving Repr, DecidableEq

/-- The bytes of one transfer. -/
def Transfer.bytes (t : Transfer) : Bytes := [0x76, trep t.type] ++ t.value

/-- The bytes of a download. -/
def vuBytes (ts : List Transfer) : Bytes := ts.flatMap Transfer.bytes

/-- The generation that a transfer belongs to; a card download belongs to neither. -/
def generation : TransferType → Generation
  | .overviewGen1 | .activitiesGen1 | .eventsGen1 | .speedGen1 | .technicalGen1 => .gen1
  | .cardDownload => .unspecified
  | .downloadInterfaceVersion | .overviewG2V1 | .activitiesG2V1 | .eventsG2V1 | .speedGen2
  | .technicalG2V1 | .overviewG2V2 | .activitiesG2V2 | .eventsG2V2 | .technicalG2V2 => .gen2

/-- What the parser is expected to report for a transfer. -/
def Transfer.record (t : Transfer) : VuRec :=
  { tag := 0x7600 + (trep t.type).toNat, type := t.type, generation := generation t.type,
    value := t.value }

/-- Every transfer is complete. A card download has no end mark: it goes on as long as another
record header fits, so at most four bytes can follow it (`tail` is what follows the transfers). -/
def Cut : List Transfer → (tail : Bytes) → Prop
  | [], _ => True
  | t :: ts, tail => Conforms t.type t.value
      ∧ (t.type = .cardDownload → (vuBytes ts ++ tail).length < 5) ∧ Cut ts tail

/-- The number of bytes that the pieces take according to the counts found in `b`, whether or not
`b` is that long; `none` when `b` ends before a count. -/
def announced : List Piece → Bytes → Option Nat
  | [], _ => some 0
  | .fixed n :: ps, b => (announced ps (b.drop n)).map (n + ·)
  | .counted width size :: ps, b =>
    if b.length < width then none
    else
      let n := width + beNat (b.take width) * size
      (announced ps (b.drop n)).map (n + ·)
  | .array :: ps, b =>
    if b.length < 5 then none
    else
      let n := 5 + beNat ((b.take 3).drop 1) * beNat ((b.take 5).drop 3)
      (announced ps (b.drop n)).map (n + ·)

/-- `b` ends before the place where a count or an array header is expected next. -/
def Overruns (t : TransferType) (b : Bytes) : Prop :=
  ∃ before p after n, layout t = before ++ p :: after ∧ (∀ k, p ≠ .fixed k)
    ∧ announced before b = some n ∧ b.length < n

end Tacho.Spec
