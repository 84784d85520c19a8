import Verif.Model.Strings
import Verif.Model.FetchCerts
import Verif.Model.Cert
/-!
# The index file: `json.MarshalIndent` in the fetch tool and `json.Unmarshal` in the library

The parts of Go's encoding/json that the two use. The encoder writes a document tree with an indent of two
spaces. (Go writes it without white space, checks it, and indents it afterwards; the result is the same.)
The decoder first takes the document apart, then stores what it finds in the structs.
-/

namespace Tacho

/-- A JSON document. Strings and keys are kept as they stand between the quotes, numbers as written. -/
inductive Json
  | null
  | bool (b : Bool)
  | num (text : Bytes)
  | str (raw : Bytes)
  | arr (items : List Json)
  | obj (members : List (Bytes × Json))

/-! ## Writing -/

/-- `hex` in encoding/json. -/
def hexDigit (n : Nat) : UInt8 := UInt8.ofNat (if n < 10 then 48 + n else 87 + n)

/-- The part of `appendString` (encoding/json) for an ASCII byte, with HTML escaping on, as in `Marshal`. -/
def escapeByte (b : UInt8) : Bytes :=
  if b = 0x5C ∨ b = 0x22 then [0x5C, b]
  else if b = 0x08 then [0x5C, 0x62]
  else if b = 0x0C then [0x5C, 0x66]
  else if b = 0x0A then [0x5C, 0x6E]
  else if b = 0x0D then [0x5C, 0x72]
  else if b = 0x09 then [0x5C, 0x74]
  else if b.toNat < 0x20 ∨ b = 0x3C ∨ b = 0x3E ∨ b = 0x26 then
    [0x5C, 0x75, 0x30, 0x30, hexDigit (b.toNat / 16), hexDigit (b.toNat % 16)]
  else [b]

/-- The loop of `appendString`: what goes between the quotes. The counter bounds the recursion. -/
def escapeN : Nat → Bytes → Bytes
  | 0, _ => []
  | _ + 1, [] => []
  | n + 1, b :: t =>
    if b.toNat < 0x80 then escapeByte b ++ escapeN n t
    else
      let (r, size) := decodeRune (b :: t)
      if r = 0xFFFD ∧ size = 1 then ascii "\\ufffd" ++ escapeN n t
      else if r = 0x2028 ∨ r = 0x2029 then ascii "\\u202" ++ [hexDigit (r % 16)] ++ escapeN n ((b :: t).drop size)
      else (b :: t).take size ++ escapeN n ((b :: t).drop size)

/-- A string as `Marshal` writes it, without the quotes. -/
def jsonEscape (s : Bytes) : Bytes := escapeN s.length s

/-- A new line and the indent of a level, `appendNewline` in encoding/json. -/
def newline (d : Nat) : Bytes := 0x0A :: List.replicate (2 * d) 0x20

/-- The beginning of a member: the key, the colon and a space. -/
def printKey (key : Bytes) : Bytes := [0x22] ++ key ++ [0x22, 0x3A, 0x20]

mutual
/-- A document at an indent level, `appendIndent` in encoding/json. -/
def printJson (d : Nat) : Json → Bytes
  | .null => ascii "null"
  | .bool b => if b then ascii "true" else ascii "false"
  | .num t => t
  | .str raw => [0x22] ++ raw ++ [0x22]
  | .arr [] => ascii "[]"
  | .arr (v :: vs) =>
    [0x5B] ++ newline (d + 1) ++ printJson (d + 1) v ++ printItems (d + 1) vs ++ newline d ++ [0x5D]
  | .obj [] => ascii "{}"
  | .obj ((k, v) :: ms) =>
    [0x7B] ++ newline (d + 1) ++ printKey k ++ printJson (d + 1) v ++ printMembers (d + 1) ms ++ newline d ++ [0x7D]
/-- The items after the first. -/
def printItems (d : Nat) : List Json → Bytes
  | [] => []
  | v :: vs => [0x2C] ++ newline d ++ printJson d v ++ printItems d vs
/-- The members after the first. -/
def printMembers (d : Nat) : List (Bytes × Json) → Bytes
  | [] => []
  | (k, v) :: ms => [0x2C] ++ newline d ++ printKey k ++ printJson d v ++ printMembers d ms
end

/-- A string member. -/
def strMember (key : String) (value : Bytes) : Bytes × Json := (ascii key, .str (jsonEscape value))

/-- A string member with the option `omitempty`. -/
def strMember? (key : String) (value : Bytes) : List (Bytes × Json) :=
  if value = [] then [] else [strMember key value]

/-- `CertificateEntry`, tools/cmd/fetch-certs/main.go:71-93. The effective date is never set. -/
def entryJson (e : IndexEntry) : Json :=
  .obj ([strMember "car" e.car] ++ strMember? "chr" e.chr ++ strMember? "country" e.country ++ [strMember "url" e.url] ++
    strMember? "expirationDate" e.expiration ++ [strMember "path" e.path])

/-- A slice of entries; the tool's slices are nil when nothing was appended (lines 283 and 386), and a nil
slice is written as null. -/
def entriesJson (l : List IndexEntry) : Json := if l = [] then .null else .arr (l.map entryJson)

/-- `CertificateIndex` with its `MarshalJSON`, tools/cmd/fetch-certs/main.go:44-68: the outer `createTime`
comes first and hides the embedded one. -/
def indexJson (created : Civil) (root : IndexEntry) (g1 g2 : List IndexEntry) : Json :=
  .obj [strMember "createTime" (rfc3339 created), (ascii "root", entryJson root), (ascii "g1", entriesJson g1),
    (ascii "g2", entriesJson g2)]

/-- `json.MarshalIndent(index, "", "  ")`, tools/cmd/fetch-certs/main.go:956. -/
def encodeIndex (created : Civil) (root : IndexEntry) (g1 g2 : List IndexEntry) : Bytes :=
  printJson 0 (indexJson created root g1 g2)

/-! ## Taking a document apart -/

/-- White space, `isSpace` in encoding/json. -/
def isJsonSpace (b : UInt8) : Bool := b = 0x20 || b = 0x09 || b = 0x0D || b = 0x0A

/-- Skipping white space. -/
def skipJsonSpace (s : Bytes) : Bytes := s.dropWhile isJsonSpace

/-- A hexadecimal digit. -/
def hexValue? (b : UInt8) : Option Nat :=
  if 48 ≤ b.toNat ∧ b.toNat ≤ 57 then some (b.toNat - 48)
  else if 97 ≤ b.toNat ∧ b.toNat ≤ 102 then some (b.toNat - 87)
  else if 65 ≤ b.toNat ∧ b.toNat ≤ 70 then some (b.toNat - 55)
  else none

/-- `getu4` in encoding/json: a \uXXXX escape at the beginning of the bytes. -/
def getu4 : Bytes → Option Nat
  | b0 :: b1 :: h1 :: h2 :: h3 :: h4 :: _ =>
    if b0 = 0x5C ∧ b1 = 0x75 then do
      let a ← hexValue? h1
      let b ← hexValue? h2
      let c ← hexValue? h3
      let d ← hexValue? h4
      return a * 4096 + b * 256 + c * 16 + d
    else none
  | _ => none

/-- The states of the scanner inside a string (`stateInString` and the states for escapes): what is left
after the closing quote, and what stands before it. -/
def scanString : Nat → Bytes → Option (Bytes × Bytes)
  | 0, _ => none
  | _ + 1, [] => none
  | n + 1, b :: t =>
    if b = 0x22 then some ([], t)
    else if b = 0x5C then
      match t with
      | [] => none
      | c :: t' =>
        if c ∈ [0x62, 0x66, 0x6E, 0x72, 0x74, 0x5C, 0x2F, 0x22] then
          (scanString n t').map fun (raw, rest) => (b :: c :: raw, rest)
        else if (getu4 (b :: t)).isSome then
          (scanString n (t.drop 5)).map fun (raw, rest) => (b :: t.take 5 ++ raw, rest)
        else none
    else if b.toNat < 0x20 then none
    else (scanString n t).map fun (raw, rest) => (b :: raw, rest)

/-- The digits at the beginning. -/
def isDigit (b : UInt8) : Bool := 48 ≤ b.toNat && b.toNat ≤ 57

/-- The length of a run of digits. -/
def digitRun (s : Bytes) : Nat := (s.takeWhile isDigit).length

/-- The fraction of a number: its length, or none if the point is not followed by a digit. -/
def fractionLength (s : Bytes) : Option Nat :=
  if s.head? = some 0x2E then if digitRun s.tail = 0 then none else some (1 + digitRun s.tail) else some 0

/-- The sign of an exponent. -/
def signLength (s : Bytes) : Nat := if s.head? = some 0x2B ∨ s.head? = some 0x2D then 1 else 0

/-- The exponent of a number. -/
def exponentLength (s : Bytes) : Option Nat :=
  if s.head? = some 0x65 ∨ s.head? = some 0x45 then
    let k := signLength s.tail
    if digitRun (s.tail.drop k) = 0 then none else some (1 + k + digitRun (s.tail.drop k))
  else some 0

/-- A number at the beginning, as far as it goes (`stateNeg` to `stateE0` in encoding/json): its text
and what is left. -/
def scanNumber (s : Bytes) : Option (Bytes × Bytes) :=
  let neg := if s.head? = some 0x2D then 1 else 0
  let t := s.drop neg
  let whole := if t.head? = some 0x30 then 1 else digitRun t
  if whole = 0 then none
  else do
    let f ← fractionLength (t.drop whole)
    let e ← exponentLength (t.drop (whole + f))
    let n := neg + whole + f + e
    return (s.take n, s.drop n)

/-- A literal name at the beginning. -/
def scanLiteral (s : Bytes) : Option (Json × Bytes) :=
  if (ascii "null").isPrefixOf s then some (.null, s.drop 4)
  else if (ascii "true").isPrefixOf s then some (.bool true, s.drop 4)
  else if (ascii "false").isPrefixOf s then some (.bool false, s.drop 5)
  else none

mutual
/-- A value, after white space, and what is left behind it. The first argument bounds the recursion, the
second is how many more arrays and objects may be nested (`maxNestingDepth`). -/
def parseValue : Nat → Nat → Bytes → Option (Json × Bytes)
  | 0, _, _ => none
  | n + 1, d, s =>
    match skipJsonSpace s with
    | [] => none
    | b :: t =>
      if b = 0x22 then (scanString t.length t).map fun (raw, rest) => (.str raw, rest)
      else if b = 0x5B then
        if d = 0 then none
        else if (skipJsonSpace t).head? = some 0x5D then some (.arr [], (skipJsonSpace t).tail)
        else (parseItems n (d - 1) t).map fun (vs, rest) => (.arr vs, rest)
      else if b = 0x7B then
        if d = 0 then none
        else if (skipJsonSpace t).head? = some 0x7D then some (.obj [], (skipJsonSpace t).tail)
        else (parseMembers n (d - 1) t).map fun (ms, rest) => (.obj ms, rest)
      else if b = 0x2D ∨ isDigit b then (scanNumber (b :: t)).map fun (text, rest) => (.num text, rest)
      else scanLiteral (b :: t)
/-- The items of an array up to the closing bracket. -/
def parseItems : Nat → Nat → Bytes → Option (List Json × Bytes)
  | 0, _, _ => none
  | n + 1, d, s =>
    match parseValue n d s with
    | none => none
    | some (v, rest) =>
      match skipJsonSpace rest with
      | [] => none
      | b :: t =>
        if b = 0x2C then (parseItems n d t).map fun (vs, rest) => (v :: vs, rest)
        else if b = 0x5D then some ([v], t)
        else none
/-- The members of an object up to the closing brace. -/
def parseMembers : Nat → Nat → Bytes → Option (List (Bytes × Json) × Bytes)
  | 0, _, _ => none
  | n + 1, d, s =>
    match skipJsonSpace s with
    | [] => none
    | q :: t =>
      if q ≠ 0x22 then none
      else
        match scanString t.length t with
        | none => none
        | some (k, rest) =>
          match skipJsonSpace rest with
          | [] => none
          | c :: t' =>
            if c ≠ 0x3A then none
            else
              match parseValue n d t' with
              | none => none
              | some (v, rest) =>
                match skipJsonSpace rest with
                | [] => none
                | b :: t'' =>
                  if b = 0x2C then (parseMembers n d t'').map fun (ms, rest) => ((k, v) :: ms, rest)
                  else if b = 0x7D then some ([(k, v)], t'')
                  else none
end

/-- `checkValid` in encoding/json: one value and nothing but white space around it. -/
def parseJson (data : Bytes) : Option Json :=
  match parseValue data.length 10000 data with
  | some (v, rest) => if skipJsonSpace rest = [] then some v else none
  | none => none

/-! ## Storing it in the structs -/

/-- `utf8.EncodeRune` for a Unicode scalar value. -/
def encodeRune (r : Nat) : Bytes := String.utf8EncodeChar (Char.ofNat r)

/-- `utf16.DecodeRune`: the character of a surrogate pair. -/
def utf16Pair (r1 r2 : Nat) : Option Nat :=
  if 0xD800 ≤ r1 ∧ r1 < 0xDC00 ∧ 0xDC00 ≤ r2 ∧ r2 < 0xE000 then some ((r1 - 0xD800) * 1024 + (r2 - 0xDC00) + 0x10000)
  else none

/-- The byte for a short escape. -/
def shortEscape (c : UInt8) : UInt8 :=
  if c = 0x62 then 0x08 else if c = 0x66 then 0x0C else if c = 0x6E then 0x0A else if c = 0x72 then 0x0D
  else if c = 0x74 then 0x09 else c

/-- The loop of `unquoteBytes` in encoding/json, for what the scanner accepted. -/
def unquoteN : Nat → Bytes → Bytes
  | 0, _ => []
  | _ + 1, [] => []
  | n + 1, b :: t =>
    if b = 0x5C then
      match getu4 (b :: t) with
      | some r =>
        if 0xD800 ≤ r ∧ r < 0xE000 then
          match (getu4 (t.drop 5)).bind (utf16Pair r) with
          | some c => encodeRune c ++ unquoteN n (t.drop 11)
          | none => encodeRune 0xFFFD ++ unquoteN n (t.drop 5)
        else encodeRune r ++ unquoteN n (t.drop 5)
      | none => shortEscape (t.headD 0) :: unquoteN n t.tail
    else if b.toNat < 0x80 then b :: unquoteN n t
    else encodeRune (decodeRune (b :: t)).1 ++ unquoteN n ((b :: t).drop (decodeRune (b :: t)).2)

/-- The value of a string. -/
def unquote (raw : Bytes) : Bytes := unquoteN raw.length raw

/-- An ASCII letter in lower case. -/
def lowerByte (b : UInt8) : UInt8 := if 65 ≤ b.toNat ∧ b.toNat ≤ 90 then b + 32 else b

/-- Whether a key stands for a field: the same name up to the case of letters (`foldName` in encoding/json;
no letter of the names used here has a variant outside ASCII). -/
def keyIs (key : Bytes) (name : String) : Bool := (unquote key).map lowerByte == (ascii name).map lowerByte

/-- A value for a string field: null leaves it as it is. -/
def storeString (old : Bytes) : Json → Option Bytes
  | .null => some old
  | .str raw => some (unquote raw)
  | _ => none

/-- `certcache.Entry`, internal/cert/certcache/index.go:24-35. -/
structure LoadedEntry where
  car : Bytes := []
  chr : Bytes := []
  country : Bytes := []
  url : Bytes := []
  expiration : Bytes := []
  deriving Repr, DecidableEq

/-- One member of an entry; other keys are passed over. -/
def storeMember (e : LoadedEntry) (m : Bytes × Json) : Option LoadedEntry :=
  if keyIs m.1 "car" then (storeString e.car m.2).map fun v => { e with car := v }
  else if keyIs m.1 "chr" then (storeString e.chr m.2).map fun v => { e with chr := v }
  else if keyIs m.1 "country" then (storeString e.country m.2).map fun v => { e with country := v }
  else if keyIs m.1 "url" then (storeString e.url m.2).map fun v => { e with url := v }
  else if keyIs m.1 "expirationDate" then (storeString e.expiration m.2).map fun v => { e with expiration := v }
  else some e

/-- The members of an entry in order. -/
def storeMembers : LoadedEntry → List (Bytes × Json) → Option LoadedEntry
  | e, [] => some e
  | e, m :: ms => match storeMember e m with
    | some e' => storeMembers e' ms
    | none => none

/-- A value for an entry. -/
def storeEntry (old : LoadedEntry) : Json → Option LoadedEntry
  | .null => some old
  | .obj ms => storeMembers old ms
  | _ => none

/-- The items of an array, stored over what a repeated key left in the slice. -/
def storeItems : List LoadedEntry → List Json → Option (List LoadedEntry)
  | _, [] => some []
  | old, v :: vs => do
    let e ← storeEntry (old.headD {}) v
    let es ← storeItems old.tail vs
    return e :: es

/-- A slice of entries as encoding/json fills it: the items, and the elements that the array behind it still holds beyond its end
(`v.SetLen(i)` cuts a slice without clearing them, and `v.SetLen(i + 1)` of a later array for the same key brings them back). -/
structure EntrySlice where
  items : List LoadedEntry := []
  beyond : List LoadedEntry := []
  deriving Repr, DecidableEq

/-- A value for a slice of entries: null and the empty array start afresh, other arrays are stored over the elements there are. -/
def storeEntries (old : EntrySlice) : Json → Option EntrySlice
  | .null => some {}
  | .arr [] => some {}
  | .arr (v :: vs) => (storeItems (old.items ++ old.beyond) (v :: vs)).map fun es =>
      ⟨es, (old.items ++ old.beyond).drop es.length⟩
  | _ => none

/-- A `time.Time` that was read: the date and time of day as written, the nanoseconds, and how many minutes the clock it was
written by is ahead of UTC. -/
structure LoadedTime where
  civil : Civil
  nanos : Nat := 0
  offset : Int := 0
  deriving Repr, DecidableEq

/-- `certcache.Index`, internal/cert/certcache/index.go:38-48. -/
structure LoadedIndex where
  created : Option LoadedTime := none
  root : LoadedEntry := {}
  g1 : List LoadedEntry := []
  g2 : List LoadedEntry := []
  deriving Repr, DecidableEq

/-- The fraction of a second, `parseNanoseconds` in time: a dot and at least one digit, of which nine count. -/
def parseFraction : Bytes → Nat × Bytes
  | 0x2E :: rest =>
    let ds := rest.takeWhile fun b => (digit? b).isSome
    if ds = [] then (0, 0x2E :: rest)
    else (((ds ++ List.replicate 9 0x30).take 9).foldl (fun a (b : UInt8) => a * 10 + (b.toNat - 48)) 0, rest.drop ds.length)
  | s => (0, s)

/-- The zone: Z, or a sign, hours and minutes. -/
def parseZone : Bytes → Option Int
  | [0x5A] => some 0
  | [s, a, b, c, d, e] => do
    let h ← two? a b
    let m ← two? d e
    if c = 0x3A ∧ h < 24 ∧ m < 60 then
      if s = 0x2B then some (h * 60 + m : Nat) else if s = 0x2D then some (-(h * 60 + m : Nat)) else none
    else none
  | _ => none

/-- `parseStrictRFC3339` in time. -/
def parseTime (s : Bytes) : Option LoadedTime := do
  let c ← parseInstant (s.take 19 ++ [0x5A])
  let zone ← parseZone (parseFraction (s.drop 19)).2
  return { civil := c, nanos := (parseFraction (s.drop 19)).1, offset := zone }

/-- `Time.UnmarshalJSON`: null, or a string whose bytes, without undoing escapes, are a time. -/
def storeTime (old : Option LoadedTime) : Json → Option (Option LoadedTime)
  | .null => some old
  | .str raw => (parseTime raw).map some
  | _ => none

/-- The index while it is filled. -/
structure IndexFill where
  created : Option LoadedTime := none
  root : LoadedEntry := {}
  g1 : EntrySlice := {}
  g2 : EntrySlice := {}
  deriving Repr, DecidableEq

/-- One member of the index. -/
def storeIndexMember (x : IndexFill) (m : Bytes × Json) : Option IndexFill :=
  if keyIs m.1 "createTime" then (storeTime x.created m.2).map fun v => { x with created := v }
  else if keyIs m.1 "root" then (storeEntry x.root m.2).map fun v => { x with root := v }
  else if keyIs m.1 "g1" then (storeEntries x.g1 m.2).map fun v => { x with g1 := v }
  else if keyIs m.1 "g2" then (storeEntries x.g2 m.2).map fun v => { x with g2 := v }
  else some x

/-- The members of the index in order. -/
def storeIndexMembers : IndexFill → List (Bytes × Json) → Option IndexFill
  | x, [] => some x
  | x, m :: ms => match storeIndexMember x m with
    | some x' => storeIndexMembers x' ms
    | none => none

/-- A value for the index. -/
def storeIndex : Json → Option LoadedIndex
  | .null => some {}
  | .obj ms => (storeIndexMembers {} ms).map fun x => ⟨x.created, x.root, x.g1.items, x.g2.items⟩
  | _ => none

/-- `LoadIndex`, internal/cert/certcache/index.go:13-20, on the embedded file. -/
def loadIndex (data : Bytes) : Res LoadedIndex :=
  match (parseJson data).bind storeIndex with
  | some x => .ok x
  | none => .err "failed to unmarshal index"

/-! ## The client's index -/

/-- What the client uses of an entry, internal/cert/client.go:41-46. -/
def LoadedEntry.toEntry (e : LoadedEntry) : Entry := ⟨e.chr, e.url⟩

/-- The list `GetRsaCertificate` searches, internal/cert/client.go:36-40, given the embedded index file. -/
def rsaIndex (file : Bytes) : Res (List Entry) := do
  let index ← loadIndex file
  pure (index.g1.map LoadedEntry.toEntry)

/-- The list `GetEccCertificate` searches, internal/cert/client.go:71-75. -/
def eccIndex (file : Bytes) : Res (List Entry) := do
  let index ← loadIndex file
  pure (index.g2.map LoadedEntry.toEntry)

end Tacho
