import Verif.Model.Prim
/-!
# Strings: Go's UTF-8 helpers, StringValue and Ia5StringValue

Go strings are byte lists. The single-byte character tables of golang.org/x/text/encoding/charmap
are not modelled: a `Charmap` instance stands for the table lookup and every theorem holds for all
instances.
-/

namespace Tacho

/-! ## UTF-8 (Go standard library, unicode/utf8, bytes.Trim, strings.ToValidUTF8) -/

/-- A UTF-8 continuation byte. -/
def isCont (b : UInt8) : Bool := 0x80 ≤ b.toNat && b.toNat ≤ 0xBF

/-- Lower limit of the second byte, `acceptRanges` in Go's unicode/utf8. -/
def accLo (x : Nat) : Nat := if x = 0xE0 then 0xA0 else if x = 0xF0 then 0x90 else 0x80
/-- Upper limit of the second byte. -/
def accHi (x : Nat) : Nat := if x = 0xED then 0x9F else if x = 0xF4 then 0x8F else 0xBF

/-- `utf8.DecodeRune`: rune and width; an invalid byte gives (U+FFFD, 1), the empty slice
(U+FFFD, 0). -/
def decodeRune : Bytes → Nat × Nat
  | [] => (0xFFFD, 0)
  | b0 :: t =>
    let x := b0.toNat
    if x < 0x80 then (x, 1)
    else if 0xC2 ≤ x ∧ x ≤ 0xDF then
      match t with
      | b1 :: _ => if isCont b1 then (x % 32 * 64 + b1.toNat % 64, 2) else (0xFFFD, 1)
      | _ => (0xFFFD, 1)
    else if 0xE0 ≤ x ∧ x ≤ 0xEF then
      match t with
      | b1 :: b2 :: _ =>
        if accLo x ≤ b1.toNat ∧ b1.toNat ≤ accHi x ∧ isCont b2 then
          (x % 16 * 4096 + b1.toNat % 64 * 64 + b2.toNat % 64, 3)
        else (0xFFFD, 1)
      | _ => (0xFFFD, 1)
    else if 0xF0 ≤ x ∧ x ≤ 0xF4 then
      match t with
      | b1 :: b2 :: b3 :: _ =>
        if accLo x ≤ b1.toNat ∧ b1.toNat ≤ accHi x ∧ isCont b2 ∧ isCont b3 then
          (x % 8 * 262144 + b1.toNat % 64 * 4096 + b2.toNat % 64 * 64 + b3.toNat % 64, 4)
        else (0xFFFD, 1)
      | _ => (0xFFFD, 1)
    else (0xFFFD, 1)

/-- `utf8.RuneStart`. -/
def runeStart (b : UInt8) : Bool := !isCont b

/-- Start index of the last rune candidate, the backward loop of `utf8.DecodeLastRune`: try the
second, third and fourth last byte, else (`start = lim-1`) one before the limit, clamped to 0. -/
def lastStart (p : Bytes) : Nat :=
  let n := p.length
  if 2 ≤ n ∧ runeStart (p.getD (n - 2) 0) then n - 2
  else if 3 ≤ n ∧ runeStart (p.getD (n - 3) 0) then n - 3
  else if 4 ≤ n ∧ runeStart (p.getD (n - 4) 0) then n - 4
  else n - 5

/-- `utf8.DecodeLastRune`. -/
def decodeLastRune (p : Bytes) : Nat × Nat :=
  match p.getLast? with
  | none => (0xFFFD, 0)
  | some b =>
    if b.toNat < 0x80 then (b.toNat, 1)
    else
      let start := lastStart p
      let (r, size) := decodeRune (p.drop start)
      if start + size ≠ p.length then (0xFFFD, 1) else (r, size)

/-- The runes of the cutset `"\t\n\v\f\r \x85\xA0\x00\xFF"` in `trimSpaceAndZeroBytes`,
internal/dd/string_value.go:176-180. The bytes 85, A0 and FF are not valid UTF-8, so ranging over
the Go string gives U+FFFD for them. -/
def inCutset (r : Nat) : Bool :=
  r == 9 || r == 10 || r == 11 || r == 12 || r == 13 || r == 32 || r == 0 || r == 0xFFFD

/-- `trimLeftUnicode` of bytes.Trim. The counter is the number of loop iterations allowed; every
iteration removes at least one byte, so the length of the slice suffices. -/
def trimLeftN : Nat → Bytes → Bytes
  | 0, s => s
  | n + 1, s =>
    if s.length > 0 ∧ inCutset (decodeRune s).1 then trimLeftN n (s.drop (decodeRune s).2) else s

def trimLeft (s : Bytes) : Bytes := trimLeftN s.length s

/-- `trimRightUnicode` of bytes.Trim. -/
def trimRightN : Nat → Bytes → Bytes
  | 0, s => s
  | n + 1, s =>
    if s.length > 0 ∧ inCutset (decodeLastRune s).1 then
      trimRightN n (s.take (s.length - (decodeLastRune s).2))
    else s

def trimRight (s : Bytes) : Bytes := trimRightN s.length s

/-- `trimSpaceAndZeroBytes`, internal/dd/string_value.go:176-180: `bytes.Trim` with a non-ASCII
cutset. -/
def trimSpaceAndZeroBytes (b : Bytes) : Bytes := trimLeft (trimRight b)

/-- The bytes of U+FFFD. -/
def runeErrorBytes : Bytes := [0xEF, 0xBF, 0xBD]

/-- `strings.ToValidUTF8(s, "�")`: every maximal run of invalid bytes becomes one U+FFFD.
`invalid` records whether the previous byte was invalid. The counter bounds the iterations, each of
which consumes at least one byte. -/
def toValidN : Nat → Bytes → Bool → Bytes
  | 0, _, _ => []
  | _ + 1, [], _ => []
  | n + 1, b :: t, invalid =>
    if b.toNat < 0x80 then b :: toValidN n t false
    else if (decodeRune (b :: t)).2 = 1 then
      (if invalid then [] else runeErrorBytes) ++ toValidN n t true
    else (b :: t).take (decodeRune (b :: t)).2 ++ toValidN n ((b :: t).drop (decodeRune (b :: t)).2) false

/-- `strings.ToValidUTF8` after the `utf8.ValidString` test; on a valid string the loop copies the
input, so the test and the fast path are omitted. -/
def toValidUTF8 (s : Bytes) : Bytes := toValidN s.length s false

/-! ## StringValue -/

/-- The tables of golang.org/x/text/encoding/charmap that are used. -/
inductive Table
  | iso8859_1 | iso8859_2 | iso8859_3 | iso8859_5 | iso8859_7 | iso8859_9 | iso8859_13 | iso8859_15
  | iso8859_16 | koi8r | koi8u
  deriving Repr, DecidableEq

/-- Decoding with a table (`cmap.NewDecoder().String`). -/
class Charmap where
  decode : Table → Bytes → Bytes

/-- The choice of the table, `decodeWithCodePage`, internal/dd/string_value.go:203-232. -/
def charmapOf (codePage : UInt8) : Table :=
  match codePage.toNat with
  | 0 => .iso8859_1 | 1 => .iso8859_1 | 2 => .iso8859_2 | 3 => .iso8859_3 | 5 => .iso8859_5
  | 7 => .iso8859_7 | 9 => .iso8859_9 | 13 => .iso8859_13 | 15 => .iso8859_15 | 16 => .iso8859_16
  | 80 => .koi8r | 85 => .koi8u
  | _ => .iso8859_1

/-- `StringValue` message; `length` and `raw_data` have presence. -/
structure StringValue where
  encoding : Int
  rawData : Option Bytes
  length : Option Int
  value : Bytes
  deriving Repr, DecidableEq

/-- `getEncodingFromCodePage`, internal/dd/string_value.go:142-173. -/
def getEncodingFromCodePage (cp : UInt8) : Int :=
  match cp.toNat with
  | 0 => 2 | 1 => 4 | 2 => 5 | 3 => 6 | 5 => 7 | 7 => 8 | 9 => 9 | 13 => 10 | 15 => 11 | 16 => 12
  | 80 => 13 | 85 => 14 | 255 => 3
  | _ => 1

/-- `getCodePageFromEncoding`, internal/dd/string_value.go:253-284. -/
def getCodePageFromEncoding (e : Int) : UInt8 :=
  if e = 2 then 0 else if e = 4 then 1 else if e = 5 then 2 else if e = 6 then 3
  else if e = 7 then 5 else if e = 8 then 7 else if e = 9 then 9 else if e = 10 then 13
  else if e = 11 then 15 else if e = 12 then 16 else if e = 13 then 80 else if e = 14 then 85
  else 255

section
variable [Charmap]

/-- `decodeWithCodePage`, internal/dd/string_value.go:183-250. The decoder of a charmap never fails. -/
def decodeWithCodePage (codePage : UInt8) (data : Bytes) : Bytes :=
  if codePage = 255 then []
  else if data.any (fun b => 0 < b.toNat && b.toNat < 255) then
    toValidUTF8 (trimSpaceAndZeroBytes (Charmap.decode (charmapOf codePage) data))
  else []

/-- `UnmarshalStringValue`, internal/dd/string_value.go:26-49. -/
def unmarshalStringValue (input : Bytes) : Res StringValue := do
  if input.length < 2 then .err "insufficient data for string value"
  let codePage ← at? input 0
  let data ← from? input 1
  return {
    encoding := getEncodingFromCodePage codePage
    rawData := some input
    length := some (wrap32 data.length)
    value := decodeWithCodePage codePage data }

end

/-- `encodeWithCodePage`, internal/dd/string_value.go:288-303: the UTF-8 bytes, whatever the code
page, except for 255. -/
def encodeWithCodePage (codePage : UInt8) (s : Bytes) : Bytes :=
  if codePage = 255 then [] else s

/-- `encoded` padded with spaces to `n`. -/
def padSpaces (encoded : Bytes) (n : Nat) : Bytes := encoded ++ List.replicate (n - encoded.length) 0x20

/-- `AppendStringValue`, internal/dd/string_value.go:65-139. -/
def appendStringValue (dst : Bytes) (sv : Option StringValue) : Res Bytes :=
  match sv with
  | none => .ok (dst ++ [0xFF])
  | some sv =>
    let codePage := getCodePageFromEncoding sv.encoding
    match sv.rawData with
    | some raw =>
      if raw.length < 1 then .err "raw_data must include at least the code page byte"
      else if sv.length.any (fun l => (raw.length : Int) ≠ 1 + l) then
        .err "raw_data length does not match expected total length"
      else .ok (dst ++ codePage :: raw.drop 1)
    | none =>
      let encoded := encodeWithCodePage codePage sv.value
      match sv.length with
      | some l =>
        if (encoded.length : Int) > l then .err "encoded string length exceeds allowed length"
        else .ok (dst ++ codePage :: padSpaces encoded l.toNat)
      | none => .ok (dst ++ codePage :: encoded)

/-! ## Ia5StringValue -/

/-- `Ia5StringValue` message. -/
structure Ia5StringValue where
  rawData : Option Bytes
  length : Option Int
  value : Bytes
  deriving Repr, DecidableEq

/-- `UnmarshalIa5StringValue`, internal/dd/ia5_string_value.go:20-42. -/
def unmarshalIa5StringValue (input : Bytes) : Res Ia5StringValue :=
  if input.length = 0 then .err "insufficient data for IA5 string value"
  else .ok {
    rawData := some input
    length := some (wrap32 input.length)
    value := toValidUTF8 (trimSpaceAndZeroBytes input) }

/-- `AppendIa5StringValue`, internal/dd/ia5_string_value.go:56-97. -/
def appendIa5StringValue (dst : Bytes) (sv : Option Ia5StringValue) : Res Bytes :=
  match sv with
  | none => .ok dst
  | some sv =>
    match sv.length with
    | none => .err "IA5String requires length field to be set"
    | some l =>
      match sv.rawData with
      | some raw =>
        if (raw.length : Int) ≠ l then .err "raw_data length does not match length field"
        else .ok (dst ++ raw)
      | none =>
        if (sv.value.length : Int) > l then .err "string value is longer than the allowed length"
        else .ok (dst ++ padSpaces sv.value l.toNat)

end Tacho
