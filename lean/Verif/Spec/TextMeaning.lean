import Verif.Model.Strings
import Verif.Spec.Text
/-!
# What a text field shows

A byte string is read from the left as characters in UTF-8; a byte at which no character begins is a
stray byte.
-/

namespace Tacho.Spec

/-- What a reader of UTF-8 meets: a character, or a byte that does not belong to one. -/
inductive Symbol
  | char (c : Char)
  | stray (b : UInt8)

/-- The symbols of a byte string. -/
inductive Reads : Bytes → List Symbol → Prop
  | nil : Reads [] []
  | char (c : Char) {rest : Bytes} {ss : List Symbol} : Reads rest ss →
      Reads (String.utf8EncodeChar c ++ rest) (.char c :: ss)
  | stray (b : UInt8) {rest : Bytes} {ss : List Symbol} :
      (∀ c more, b :: rest ≠ String.utf8EncodeChar c ++ more) → Reads rest ss →
      Reads (b :: rest) (.stray b :: ss)

/-- What is removed at both ends: stray bytes, tab, line feed, vertical tab, form feed, carriage return,
space, NUL and the replacement character U+FFFD. -/
def Symbol.Padding : Symbol → Prop
  | .stray _ => True
  | .char c => c ∈ ['\t', '\n', '\x0b', '\x0c', '\r', ' ', '\x00', '�']

/-- The characters shown for symbols: a run of stray bytes is shown as one U+FFFD. -/
def shown : List Symbol → List Char
  | [] => []
  | .char c :: ss => c :: shown ss
  | .stray _ :: .stray b :: ss => shown (.stray b :: ss)
  | .stray _ :: ss => '�' :: shown ss

/-- `text` is what is shown for the bytes `s`: the symbols without the padding at both ends. -/
def Shows (s text : Bytes) : Prop :=
  ∃ p m q, Reads s (p ++ m ++ q) ∧ (∀ x ∈ p, x.Padding) ∧ (∀ x ∈ q, x.Padding) ∧
    (∀ x t, m = x :: t → ¬ x.Padding) ∧ (∀ x t, m = t ++ [x] → ¬ x.Padding) ∧
    text = (shown m).flatMap String.utf8EncodeChar

/-- Text of whole characters in UTF-8 that neither starts nor ends with padding. -/
def WholeText (v : Bytes) : Prop :=
  ∃ cs : List Char, v = cs.flatMap String.utf8EncodeChar ∧
    (∀ c t, cs = c :: t → ¬ (Symbol.char c).Padding) ∧ (∀ c t, cs = t ++ [c] → ¬ (Symbol.char c).Padding)

/-- A field that holds text without padding at either end, followed by spaces and nothing else. -/
def SpacePadded (x : Bytes) : Prop :=
  ∃ (cs : List Char) (k : Nat), x = cs.flatMap String.utf8EncodeChar ++ List.replicate k 0x20 ∧
    (∀ c t, cs = c :: t → ¬ (Symbol.char c).Padding) ∧ (∀ c t, cs = t ++ [c] → ¬ (Symbol.char c).Padding)

/-- The character table of each code page: the parts of ISO 8859 by their number, KOI8-R and KOI8-U. -/
def pageTables : List (Nat × Table) :=
  [(0, .iso8859_1), (1, .iso8859_1), (2, .iso8859_2), (3, .iso8859_3), (5, .iso8859_5), (7, .iso8859_7),
   (9, .iso8859_9), (13, .iso8859_13), (15, .iso8859_15), (16, .iso8859_16), (80, .koi8r), (85, .koi8u)]

/-- The table used for a code page; Latin-1 for unknown ones. -/
def TableFor (cp : UInt8) (t : Table) : Prop :=
  (cp.toNat, t) ∈ pageTables ∨ ¬ KnownCodePage cp ∧ t = .iso8859_1

/-- The enum number of a code page; 1 (`ENCODING_UNRECOGNIZED`) for unknown ones. -/
def EncodingFor (cp : UInt8) (e : Int) : Prop :=
  (cp.toNat, e) ∈ codePages ∨ ¬ KnownCodePage cp ∧ e = 1

/-- What is shown for the bytes `t` under a code page: nothing under 255 or if all bytes are 00 or FF, else
what the characters of the table show. -/
def PageShows [Charmap] (cp : UInt8) (t text : Bytes) : Prop :=
  ((cp = 255 ∨ ∀ b ∈ t, b = 0 ∨ b = 255) ∧ text = []) ∨
  (cp ≠ 255 ∧ (∃ b ∈ t, b ≠ 0 ∧ b ≠ 255) ∧ ∃ table, TableFor cp table ∧ Shows (Charmap.decode table t) text)

end Tacho.Spec
