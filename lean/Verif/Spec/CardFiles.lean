import Verif.Model.Enums
import Verif.Spec.Basic
import Verif.Spec.Text
/-!
# Vocabulary for the card's elementary files
-/

namespace Tacho.Spec

/-- Text that neither starts nor ends with a blank. -/
def Trimmed (v : Bytes) : Prop := (∀ b t, v = b :: t → ¬ Blank b) ∧ (∀ b t, v = t ++ [b] → ¬ Blank b)

/-- An ASCII decimal digit. -/
def Digit (b : UInt8) : Prop := 0x30 ≤ b.toNat ∧ b.toNat ≤ 0x39

instance (b : UInt8) : Decidable (Digit b) := inferInstanceAs (Decidable (_ ∧ _))

/-- Record `i` of a file with a header of `h` bytes and records of `n` bytes. -/
def record (h n i : Nat) (d : Bytes) : Bytes := (d.drop (h + i * n)).take n

/-- The number of whole records of such a file. -/
def recordCount (h n : Nat) (d : Bytes) : Nat := (d.length - h) / n

/-- `rs` lists, in order, what `f` makes of every whole record of the file. -/
def RecordsAre {α : Type} (f : Bytes → Res α) (h n : Nat) (d : Bytes) (rs : List α) : Prop :=
  rs.length = recordCount h n d ∧ ∀ i (hi : i < rs.length), f (record h n i d) = .ok rs[i]

/-- Every whole record of the file satisfies `P`. -/
def AllRecords (h n : Nat) (d : Bytes) (P : Bytes → Prop) : Prop := ∀ i, i < recordCount h n d → P (record h n i d)

/-- The file without the bytes behind its last whole record. -/
def wholeRecords (h n : Nat) (d : Bytes) : Bytes := d.take (h + recordCount h n d * n)

end Tacho.Spec
