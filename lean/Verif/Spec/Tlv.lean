import Verif.Model.RawCard
/-!
# Specification: card files as sequences of TLV records

Independent of the parser: a record is three tag bytes (file id, appendix), two length bytes and
the value; a card file is a concatenation of records.
-/

namespace Tacho.Spec

/-- One TLV record of a card file. -/
structure Tlv where
  fidHi : UInt8
  fidLo : UInt8
  appendix : UInt8
  value : Bytes
  deriving Repr, DecidableEq

/-- The bytes of a record: file id, appendix, big-endian 16 bit length, value. -/
def Tlv.bytes (r : Tlv) : Bytes :=
  [r.fidHi, r.fidLo, r.appendix, UInt8.ofNat (r.value.length / 256),
    UInt8.ofNat (r.value.length % 256)] ++ r.value

/-- A card file is the concatenation of its records. -/
def fileBytes (rs : List Tlv) : Bytes := rs.flatMap Tlv.bytes

/-- What the parser is expected to report for a record: the numeric tag, the length, the value, the
content type from bit 0 of the appendix and the generation from bit 1, and the file for the FID. -/
def Tlv.record (r : Tlv) : RawRec :=
  { tag := r.fidHi.toNat * 65536 + r.fidLo.toNat * 256 + r.appendix.toNat
    length := r.value.length
    value := r.value
    contentType := if r.appendix.toNat % 2 = 1 then .signature else .data
    generation := if r.appendix.toNat % 4 < 2 then .gen1 else .gen2
    file := mapFid (r.fidHi.toNat * 256 + r.fidLo.toNat) }

end Tacho.Spec
