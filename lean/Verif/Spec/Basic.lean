import Verif.Model.Enums
/-!
# Small vocabulary shared by the specifications
-/

namespace Tacho

/-- Both nibbles of the byte are decimal digits. -/
def IsBcd (b : UInt8) : Prop := b.toNat / 16 < 10 ∧ b.toNat % 16 < 10

instance (b : UInt8) : Decidable (IsBcd b) := inferInstanceAs (Decidable (_ ∧ _))

/-- A byte that some named value of the protocol enum carries. -/
def Spec.Known (t : EnumTable) (b : UInt8) : Prop := ∃ v, (v, some b.toNat) ∈ t

/-- The byte at offset `i` exists and satisfies `P`. -/
def Spec.ByteAt (d : Bytes) (i : Nat) (P : UInt8 → Prop) : Prop := ∃ b, d[i]? = some b ∧ P b

end Tacho
