import Verif.Model.Basic
/-!
# Specification of valid text
-/

namespace Tacho.Spec

/-- A byte string is valid UTF-8 when it is the encoding of some sequence of Unicode scalar values
(`Char` is exactly the type of scalar values in Lean). -/
def Utf8 (v : Bytes) : Prop := ∃ cs : List Char, v = cs.flatMap String.utf8EncodeChar

/-- Seven bit text. -/
def Ascii (v : Bytes) : Prop := ∀ b ∈ v, b.toNat < 0x80

/-- The blanks that padding consists of: tab, line feed, vertical tab, form feed, carriage return,
space and NUL. -/
def Blank (b : UInt8) : Prop :=
  b = 9 ∨ b = 10 ∨ b = 11 ∨ b = 12 ∨ b = 13 ∨ b = 32 ∨ b = 0

instance (b : UInt8) : Decidable (Blank b) := inferInstanceAs (Decidable (_ ∨ _))

/-- The code pages the library knows, with the enum number (proto encoding.proto) of each. -/
def codePages : List (Nat × Int) :=
  [(0, 2), (1, 4), (2, 5), (3, 6), (5, 7), (7, 8), (9, 9), (13, 10), (15, 11), (16, 12), (80, 13),
   (85, 14), (255, 3)]

/-- A known code page byte. -/
def KnownCodePage (b : UInt8) : Prop := b.toNat ∈ codePages.map Prod.fst

instance (b : UInt8) : Decidable (KnownCodePage b) := inferInstanceAs (Decidable (_ ∈ _))

end Tacho.Spec
