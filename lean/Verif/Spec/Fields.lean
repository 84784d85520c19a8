import Verif.Spec.Basic
import Verif.Spec.Text
import Verif.Model.Records
/-!
# What single fields mean

Stated on bytes and enum tables only, without the decoders of the model. `sl d a b` is the Go slice
`d[a:b]`, `beNat` the big-endian number.
-/

namespace Tacho.Spec

/-- A `TimeReal` field: zero is "no time", any other value the Unix second. -/
def instant (d : Bytes) : Option Timestamp := if beNat d = 0 then none else some ⟨beNat d, 0⟩

/-- Byte `b` means enum number `v` with no remainder, or, if the table has no entry for `b`, number 1
("unrecognized") together with the byte itself. -/
def Coded (t : EnumTable) (b : UInt8) (v : Int) (u : Option Int) : Prop :=
  ((v, some b.toNat) ∈ t ∧ u = none) ∨ ((∀ w, (w, some b.toNat) ∉ t) ∧ v = 1 ∧ u = some (b.toNat : Int))

/-- As `Coded`, but the unknown byte is not kept. -/
def CodedLossy (t : EnumTable) (b : UInt8) (v : Int) : Prop :=
  (v, some b.toNat) ∈ t ∨ ((∀ w, (w, some b.toNat) ∉ t) ∧ v = 1)

/-- Signed 24 bit big-endian number. -/
def IsInt24 (d : Bytes) (v : Int) : Prop := -2 ^ 23 ≤ v ∧ v < 2 ^ 23 ∧ v % 2 ^ 24 = beNat d

/-- A two byte BCD counter. -/
def bcdPair (d : Bytes) : Int := (d.foldl (fun a b => a * 100 + (b.toNat / 16 * 10 + b.toNat % 16)) 0 : Nat)

/-- `v` is the field `s` without the NUL bytes and spaces at its end, all of them. -/
def Unfilled (s v : Bytes) : Prop := ∃ f, s = v ++ f ∧ (∀ b ∈ f, b = 0 ∨ b = 0x20) ∧
  ∀ t b, v = t ++ [b] → b ≠ 0 ∧ b ≠ 0x20

end Tacho.Spec
