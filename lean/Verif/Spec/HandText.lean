import Verif.Spec.WriteRead
/-!
# Text that a program puts into a message
-/

namespace Tacho.Spec

/-- A code page whose table gives one character for each byte, `chars`: the lower half is ASCII, the upper half
holds no ASCII character. -/
def SingleByte [Charmap] (cp : UInt8) (chars : UInt8 → Char) : Prop :=
  (∀ s table, TableFor cp table → Charmap.decode table s = s.flatMap fun b => String.utf8EncodeChar (chars b)) ∧
  (∀ b, b.toNat < 0x80 → chars b = Char.ofNat b.toNat) ∧ ∀ b, 0x80 ≤ b.toNat → 0x80 ≤ (chars b).toNat

end Tacho.Spec
