import Verif.Model.Json
import Verif.Spec.TextMeaning
import Verif.Spec.FetchCerts
import Mathlib.Data.List.Forall2
/-!
# JSON documents (RFC 8259), what their strings mean, and what an index says

`Tacho.Json` is the tree of a document, with strings as they stand between the quotes.
-/

namespace Tacho.Spec

/-- White space: space, tab, carriage return and line feed. -/
def JsonBlank (w : Bytes) : Prop := ∀ b ∈ w, b = 0x20 ∨ b = 0x09 ∨ b = 0x0D ∨ b = 0x0A

/-- A hexadecimal digit, of either case, and its value. -/
def HexDigit (b : UInt8) (v : Nat) : Prop :=
  (b, v) ∈ (ascii "0123456789abcdefABCDEF").zip (List.range 16 ++ [10, 11, 12, 13, 14, 15])

/-- An escape: backslash, u and four hexadecimal digits. -/
def UnicodeEscape (s : Bytes) (r : Nat) : Prop :=
  ∃ h1 h2 h3 h4 a b c d, s = ascii "\\u" ++ [h1, h2, h3, h4] ∧ HexDigit h1 a ∧ HexDigit h2 b ∧ HexDigit h3 c ∧
    HexDigit h4 d ∧ r = a * 4096 + b * 256 + c * 16 + d

/-- The other escapes: the character after the backslash, and the one that is meant. -/
def shortEscapes : List (Char × Char) :=
  [('"', '"'), ('\\', '\\'), ('/', '/'), ('b', '\x08'), ('f', '\x0c'), ('n', '\n'), ('r', '\r'), ('t', '\t')]

/-- The first and the second half of a surrogate pair. -/
def HighHalf (r : Nat) : Prop := 0xD800 ≤ r ∧ r ≤ 0xDBFF
def LowHalf (r : Nat) : Prop := 0xDC00 ≤ r ∧ r ≤ 0xDFFF

/-- What stands between the quotes of a string, and the text that is meant. A byte at which no character
begins, and half a surrogate pair, mean U+FFFD. -/
inductive StringText : Bytes → Bytes → Prop
  | nil : StringText [] []
  | char (c : Char) {raw text : Bytes} : 0x20 ≤ c.toNat → c ≠ '"' → c ≠ '\\' → StringText raw text →
      StringText (String.utf8EncodeChar c ++ raw) (String.utf8EncodeChar c ++ text)
  | stray (b : UInt8) {raw text : Bytes} : (∀ c more, b :: raw ≠ String.utf8EncodeChar c ++ more) → StringText raw text →
      StringText (b :: raw) (String.utf8EncodeChar '�' ++ text)
  | short {c v : Char} {raw text : Bytes} : (c, v) ∈ shortEscapes → StringText raw text →
      StringText (ascii "\\" ++ String.utf8EncodeChar c ++ raw) (String.utf8EncodeChar v ++ text)
  | unicode {e raw text : Bytes} {r : Nat} : UnicodeEscape e r → ¬ HighHalf r → ¬ LowHalf r → StringText raw text →
      StringText (e ++ raw) (String.utf8EncodeChar (Char.ofNat r) ++ text)
  | pair {e1 e2 raw text : Bytes} {r1 r2 : Nat} : UnicodeEscape e1 r1 → UnicodeEscape e2 r2 → HighHalf r1 → LowHalf r2 →
      StringText raw text →
      StringText (e1 ++ e2 ++ raw)
        (String.utf8EncodeChar (Char.ofNat (0x10000 + (r1 - 0xD800) * 0x400 + (r2 - 0xDC00))) ++ text)
  | half {e raw text : Bytes} {r : Nat} : UnicodeEscape e r → HighHalf r ∨ LowHalf r →
      (∀ e2 r2 more, HighHalf r → UnicodeEscape e2 r2 → LowHalf r2 → raw ≠ e2 ++ more) → StringText raw text →
      StringText (e ++ raw) (String.utf8EncodeChar '�' ++ text)

/-- One or more decimal digits. -/
def SomeDigits (s : Bytes) : Prop := s ≠ [] ∧ ∀ b ∈ s, 0x30 ≤ b.toNat ∧ b.toNat ≤ 0x39

/-- A number: minus sign, whole part without leading zeros, fraction, exponent. -/
def NumberText (s : Bytes) : Prop :=
  ∃ sign whole fraction exponent, s = sign ++ whole ++ fraction ++ exponent ∧
    (sign = [] ∨ sign = ascii "-") ∧
    (whole = ascii "0" ∨ SomeDigits whole ∧ whole.head? ≠ some 0x30) ∧
    (fraction = [] ∨ ∃ ds, fraction = ascii "." ++ ds ∧ SomeDigits ds) ∧
    (exponent = [] ∨ ∃ e sg ds, exponent = e ++ sg ++ ds ∧ (e = ascii "e" ∨ e = ascii "E") ∧
      (sg = [] ∨ sg = ascii "+" ∨ sg = ascii "-") ∧ SomeDigits ds)

mutual
/-- The text of a value with at most so many arrays and objects inside one another. -/
inductive JsonValue : Nat → Bytes → Json → Prop
  | null (d : Nat) : JsonValue d (ascii "null") .null
  | true (d : Nat) : JsonValue d (ascii "true") (.bool true)
  | false (d : Nat) : JsonValue d (ascii "false") (.bool false)
  | num (d : Nat) {s : Bytes} : NumberText s → JsonValue d s (.num s)
  | str (d : Nat) {raw text : Bytes} : StringText raw text → JsonValue d (ascii "\"" ++ raw ++ ascii "\"") (.str raw)
  | noItems (d : Nat) {w : Bytes} : JsonBlank w → JsonValue (d + 1) (ascii "[" ++ w ++ ascii "]") (.arr [])
  | arr {d : Nat} {s : Bytes} {vs : List Json} : JsonItems d s vs → JsonValue (d + 1) (ascii "[" ++ s ++ ascii "]") (.arr vs)
  | noMembers (d : Nat) {w : Bytes} : JsonBlank w → JsonValue (d + 1) (ascii "{" ++ w ++ ascii "}") (.obj [])
  | obj {d : Nat} {s : Bytes} {ms : List (Bytes × Json)} : JsonMembers d s ms →
      JsonValue (d + 1) (ascii "{" ++ s ++ ascii "}") (.obj ms)
/-- Values separated by commas. -/
inductive JsonItems : Nat → Bytes → List Json → Prop
  | last {d : Nat} {w1 s w2 : Bytes} {v : Json} : JsonBlank w1 → JsonValue d s v → JsonBlank w2 →
      JsonItems d (w1 ++ s ++ w2) [v]
  | more {d : Nat} {w1 s w2 t : Bytes} {v : Json} {vs : List Json} : JsonBlank w1 → JsonValue d s v → JsonBlank w2 →
      JsonItems d t vs → JsonItems d (w1 ++ s ++ w2 ++ ascii "," ++ t) (v :: vs)
/-- Members separated by commas. -/
inductive JsonMembers : Nat → Bytes → List (Bytes × Json) → Prop
  | lastMember {d : Nat} {w1 k text w2 w3 s w4 : Bytes} {v : Json} : JsonBlank w1 → StringText k text → JsonBlank w2 →
      JsonBlank w3 → JsonValue d s v → JsonBlank w4 →
      JsonMembers d (w1 ++ (ascii "\"" ++ k ++ ascii "\"") ++ w2 ++ ascii ":" ++ w3 ++ s ++ w4) [(k, v)]
  | moreMembers {d : Nat} {w1 k text w2 w3 s w4 t : Bytes} {v : Json} {ms : List (Bytes × Json)} : JsonBlank w1 →
      StringText k text → JsonBlank w2 → JsonBlank w3 → JsonValue d s v → JsonBlank w4 → JsonMembers d t ms →
      JsonMembers d (w1 ++ (ascii "\"" ++ k ++ ascii "\"") ++ w2 ++ ascii ":" ++ w3 ++ s ++ w4 ++ ascii "," ++ t) ((k, v) :: ms)
end

/-- A document: a value, nested at most 10000 deep, with white space around it. -/
def JsonDocument (data : Bytes) (v : Json) : Prop :=
  ∃ w1 s w2, data = w1 ++ s ++ w2 ∧ JsonBlank w1 ∧ JsonValue 10000 s v ∧ JsonBlank w2

/-! ## What a document says about an index -/

/-- Capital letters replaced by small ones. -/
def lowerCase (s : Bytes) : Bytes := s.map fun b => if 0x41 ≤ b.toNat ∧ b.toNat ≤ 0x5A then b + 0x20 else b

/-- A key means a name, whatever the case of its letters. -/
def KeyMeans (name : String) (k : Bytes) : Prop := ∃ text, StringText k text ∧ lowerCase text = lowerCase (ascii name)

/-- The values an object gives for a name, in order. -/
inductive Given (name : String) : List (Bytes × Json) → List Json → Prop
  | nil : Given name [] []
  | hit {k : Bytes} {v : Json} {ms : List (Bytes × Json)} {vs : List Json} : KeyMeans name k → Given name ms vs →
      Given name ((k, v) :: ms) (v :: vs)
  | miss {k : Bytes} {v : Json} {ms : List (Bytes × Json)} {vs : List Json} : ¬ KeyMeans name k → Given name ms vs →
      Given name ((k, v) :: ms) vs

/-- The text an object gives for a name: that of the last string given, nothing if there is none. Only strings and
null may be given. -/
def TextGiven (name : String) (ms : List (Bytes × Json)) (t : Bytes) : Prop :=
  ∃ vs, Given name ms vs ∧ (∀ v ∈ vs, v = .null ∨ ∃ raw, v = .str raw) ∧
    ((∀ v ∈ vs, v = .null) ∧ t = [] ∨
     ∃ before raw after, vs = before ++ .str raw :: after ∧ (∀ v ∈ after, v = .null) ∧ StringText raw t)

/-- The members of an object; null has none. -/
def membersOf : Json → List (Bytes × Json)
  | .obj ms => ms
  | _ => []

/-- What values given one after the other say about an entry: their members are taken together. -/
def EntrySays (vs : List Json) (e : LoadedEntry) : Prop :=
  (∀ v ∈ vs, v = .null ∨ ∃ ms, v = .obj ms) ∧
  TextGiven "car" (vs.flatMap membersOf) e.car ∧ TextGiven "chr" (vs.flatMap membersOf) e.chr ∧
  TextGiven "country" (vs.flatMap membersOf) e.country ∧ TextGiven "url" (vs.flatMap membersOf) e.url ∧
  TextGiven "expirationDate" (vs.flatMap membersOf) e.expiration

/-- The items of an array; null has none. -/
def itemsOf : Json → List Json
  | .arr xs => xs
  | _ => []

/-- The last of the values that have items, back to the first that has none. -/
def lastRun (vs : List Json) : List Json := (vs.reverse.takeWhile fun v => !(itemsOf v).isEmpty).reverse

/-- What values given one after the other say about a list of entries. It is as long as the last of them. An item is laid over
those that earlier values give at the same place, back to null or an empty array. -/
def EntriesSay (vs : List Json) (es : List LoadedEntry) : Prop :=
  (∀ v ∈ vs, v = .null ∨ ∃ xs, v = .arr xs) ∧ (∀ v ∈ vs, ∀ x ∈ itemsOf v, ∃ e, EntrySays [x] e) ∧
  es.length = ((vs.getLast?.map itemsOf).getD []).length ∧
  ∀ i (h : i < es.length), EntrySays ((lastRun vs).filterMap fun v => (itemsOf v)[i]?) es[i]

/-- Digits after a point as a number of nanoseconds: nine digits count, missing ones are zero. -/
def FractionText (s : Bytes) (nanos : Nat) : Prop :=
  s = [] ∧ nanos = 0 ∨
  ∃ ds ds' more, s = ascii "." ++ ds ∧ ds ≠ [] ∧ (∀ b ∈ ds, 48 ≤ b.toNat ∧ b.toNat ≤ 57) ∧
    Digits 9 nanos ds' ∧ (ds = ds' ++ more ∨ ∃ k, ds' = ds ++ List.replicate k 48)

/-- A zone as a number of minutes ahead of UTC: `Z`, `+02:00`, `-09:30`. -/
def ZoneText (s : Bytes) (offset : Int) : Prop :=
  s = ascii "Z" ∧ offset = 0 ∨
  ∃ h m sh sm, Digits 2 h sh ∧ Digits 2 m sm ∧ h < 24 ∧ m < 60 ∧
    (s = ascii "+" ++ sh ++ ascii ":" ++ sm ∧ offset = (h * 60 + m : Nat) ∨
     s = ascii "-" ++ sh ++ ascii ":" ++ sm ∧ offset = -(h * 60 + m : Nat))

/-- A time in the notation of RFC 3339, with an optional fraction of a second and a zone. -/
def StampText (s : Bytes) (t : LoadedTime) : Prop :=
  ∃ body fraction zone y m d h i x, s = body ++ fraction ++ zone ∧ TimeText (body ++ ascii "Z") y m d h i x ∧
    t.civil = ⟨y, m, d, h, i, x⟩ ∧ FractionText fraction t.nanos ∧ ZoneText zone t.offset

/-- What values given one after the other say about the time of creation: the last time given. The bytes between the quotes are the
time as they stand. -/
def TimeSays (vs : List Json) (t : Option LoadedTime) : Prop :=
  (∀ v ∈ vs, v = .null ∨ ∃ raw t, v = .str raw ∧ StampText raw t) ∧
  ((∀ v ∈ vs, v = .null) ∧ t = none ∨
   ∃ before raw after t', vs = before ++ .str raw :: after ∧ (∀ v ∈ after, v = .null) ∧ StampText raw t' ∧ t = some t')

/-- What a document says about an index. -/
def IndexSays (v : Json) (x : LoadedIndex) : Prop :=
  v = .null ∧ x = {} ∨
  ∃ ms v1 v2 v3 v4, v = .obj ms ∧ Given "createTime" ms v1 ∧ TimeSays v1 x.created ∧ Given "root" ms v2 ∧ EntrySays v2 x.root ∧
    Given "g1" ms v3 ∧ EntriesSay v3 x.g1 ∧ Given "g2" ms v4 ∧ EntriesSay v4 x.g2

/-- The text `t` is the byte string `s` in which every byte that does not belong to a character is replaced by
U+FFFD. -/
def Carried (s t : Bytes) : Prop :=
  ∃ ss, Reads s ss ∧ t = ss.flatMap fun x => match x with
    | .char c => String.utf8EncodeChar c
    | .stray _ => String.utf8EncodeChar '�'

/-- A loaded entry carries the fields of an entry. -/
def CarriesEntry (e : IndexEntry) (x : LoadedEntry) : Prop :=
  Carried e.car x.car ∧ Carried e.chr x.chr ∧ Carried e.country x.country ∧ Carried e.url x.url ∧
    Carried e.expiration x.expiration

end Tacho.Spec
