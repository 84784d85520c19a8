import Verif.Model.Cert
import Verif.Model.Strings
/-!
# The certificate index tool

Models `tools/cmd/fetch-certs/main.go`: the program that reads the two certificate lists of the
European authority's web site, downloads the certificates, and writes the index that the remote
client (`Verif.Model.Cert`) searches. Go strings are the lists of their bytes. Parsing of HTML text
into a tree (golang.org/x/net/html) is not modelled, and the JSON encoding of the result is in `Verif.Model.Json`: the tree is
the input and the list of entries is the output. Logging is left out.
-/

namespace Tacho

/-! ## Calendar (Go standard library, package time) -/

/-- `time.isLeap`. -/
def leapYear (y : Nat) : Bool := y % 4 == 0 && (y % 100 != 0 || y % 400 == 0)

/-- Days in a year. -/
def yearDays (y : Nat) : Nat := if leapYear y then 366 else 365

/-- `time.daysIn`; months outside 1 to 12 have no days. -/
def daysIn (m y : Nat) : Nat :=
  match m with
  | 1 | 3 | 5 | 7 | 8 | 10 | 12 => 31
  | 4 | 6 | 9 | 11 => 30
  | 2 => if leapYear y then 29 else 28
  | _ => 0

theorem yearDays_pos (y : Nat) : 0 < yearDays y := by unfold yearDays; split <;> omega

/-- Day `d` (from 0) counted from 1 January of year `y`: its year and day within the year. -/
def yearOf (y d : Nat) : Nat × Nat :=
  if d < yearDays y then (y, d) else yearOf (y + 1) (d - yearDays y)
termination_by d
decreasing_by have := yearDays_pos y; omega

/-- Day `d` (from 0) counted from the first of month `m` in year `y`: month and day of the month, both
from 1. The counter is the number of months left. -/
def monthOf (y : Nat) : (left m d : Nat) → Nat × Nat
  | 0, m, d => (m, d + 1)
  | k + 1, m, d => if d < daysIn m y then (m, d + 1) else monthOf y k (m + 1) (d - daysIn m y)

/-- A civil date and time of day. -/
structure Civil where
  year : Nat
  month : Nat
  day : Nat
  hour : Nat
  minute : Nat
  second : Nat
  deriving Repr, DecidableEq

/-- `time.Unix(n, 0).UTC()` for non-negative `n`. -/
def civilOfUnix (n : Nat) : Civil :=
  let (y, yd) := yearOf 1970 (n / 86400)
  let (m, d) := monthOf y 11 1 yd
  ⟨y, m, d, n % 86400 / 3600, n % 3600 / 60, n % 60⟩

/-- Two and four decimal digits. -/
def pad2 (n : Nat) : Bytes := [UInt8.ofNat (48 + n / 10 % 10), UInt8.ofNat (48 + n % 10)]
def pad4 (n : Nat) : Bytes := pad2 (n / 100) ++ pad2 n

/-- `Format(time.RFC3339)` of a UTC time in the years 0 to 9999. -/
def rfc3339 (c : Civil) : Bytes :=
  pad4 c.year ++ [0x2D] ++ pad2 c.month ++ [0x2D] ++ pad2 c.day ++ [0x54] ++
    pad2 c.hour ++ [0x3A] ++ pad2 c.minute ++ [0x3A] ++ pad2 c.second ++ [0x5A]

/-- A decimal digit. -/
def digit? (b : UInt8) : Option Nat := if 48 ≤ b.toNat ∧ b.toNat ≤ 57 then some (b.toNat - 48) else none

/-- Two digits. -/
def two? (a b : UInt8) : Option Nat := do return (← digit? a) * 10 + (← digit? b)

/-- `time.Parse("2006-01-02", s)`: four digits, dash, two digits, dash, two digits, nothing more, and a
day of the calendar. The result is midnight UTC. -/
def parseDay : Bytes → Option Civil
  | [a, b, c, d, s1, e, f, s2, g, h] => do
    let y := (← two? a b) * 100 + (← two? c d)
    let m ← two? e f
    let day ← two? g h
    if s1 = 0x2D ∧ s2 = 0x2D ∧ 1 ≤ m ∧ m ≤ 12 ∧ 1 ≤ day ∧ day ≤ daysIn m y then
      some ⟨y, m, day, 0, 0, 0⟩
    else none
  | _ => none

/-- `time.Parse(time.RFC3339, s)`, for the form with a full second and the zone letter Z. Go also
accepts fractions and numeric zones; the tool never writes them (`expiration_form`), so they are left
out and count as unreadable here. -/
def parseInstant : Bytes → Option Civil
  | [y1, y2, y3, y4, s1, m1, m2, s2, d1, d2, t, h1, h2, c1, i1, i2, c2, x1, x2, z] => do
    let date ← parseDay [y1, y2, y3, y4, s1, m1, m2, s2, d1, d2]
    let h ← two? h1 h2
    let i ← two? i1 i2
    let x ← two? x1 x2
    if t = 0x54 ∧ c1 = 0x3A ∧ c2 = 0x3A ∧ z = 0x5A ∧ h < 24 ∧ i < 60 ∧ x < 60 then
      some { date with hour := h, minute := i, second := x }
    else none
  | _ => none

/-- Days before 1 January of year `y`, counted from year 0. -/
def daysBefore : Nat → Nat
  | 0 => 0
  | y + 1 => daysBefore y + yearDays y

/-- Days before the first of month `m` within year `y`. -/
def daysBeforeMonth (y : Nat) : Nat → Nat
  | 0 => 0
  | m + 1 => daysBeforeMonth y m + daysIn m y

/-- The instant a civil time denotes, in seconds from the start of year 0; `time.Time.After` compares
instants. -/
def Civil.instant (c : Civil) : Nat :=
  (daysBefore c.year + daysBeforeMonth c.year c.month + (c.day - 1)) * 86400 +
    c.hour * 3600 + c.minute * 60 + c.second

/-! ## Decoding certificates -/

/-- `TimeReal.Decode` followed by `.UTC()`, tools/cmd/fetch-certs/main.go:35-41: zero is Go's zero time,
1 January of year 1. -/
def fetchTime (d : Bytes) : Civil :=
  if beNat d = 0 then ⟨1, 1, 1, 0, 0, 0⟩ else civilOfUnix (beNat d)

/-- `extractGen1CAR`, tools/cmd/fetch-certs/main.go:464-477. -/
def fetchGen1CAR (certData : Bytes) : Res Nat := do
  if certData.length ≠ 194 then .err "invalid Gen1 certificate size"
  let car ← sl? certData 186 194
  pure (beNat car)

/-- `extractERCA`, tools/cmd/fetch-certs/main.go:538-565: modulus and exponent. -/
def fetchERCA (certData : Bytes) : Res (Nat × Nat) := do
  if certData.length ≠ 144 then .err "invalid ERCA certificate size"
  let modulus ← sl? certData 8 136
  let exponent ← sl? certData 136 144
  if beNat modulus = 0 ∨ beNat exponent = 0 then .err "ERCA certificate has invalid public key"
  pure (beNat modulus, beNat exponent)

/-- `recoverGen1Certificate`, tools/cmd/fetch-certs/main.go:569-629. `srPrimeBig.Bytes()` shorter than
128 bytes is padded, longer is an error: that is `beBytes 128` below 256^128. `append(crPrime, ...)`
at line 617 needs 164 bytes where at most 127 are allocated, so it copies and leaves `hPrime` alone;
the length test behind it cannot fail and is left out. -/
def recoverGen1 [Crypto] (certData : Bytes) (caModulus caExponent : Nat) : Res Bytes := do
  if certData.length ≠ 194 then .err "invalid certificate size"
  let signature ← sl? certData 0 128
  let cnPrime ← sl? certData 128 186
  let recovered := expMod (beNat signature) caExponent caModulus
  if recovered ≥ 256 ^ 128 then .err "recovered Sr' is too long"
  let sr := beBytes 128 recovered
  if sr.getD 0 0 ≠ 0x6A ∨ sr.getD 127 0 ≠ 0xBC then .err "invalid recovered Sr' structure"
  let crPrime ← sl? sr 1 107
  let hPrime ← sl? sr 107 127
  let cPrime := crPrime ++ cnPrime
  if hPrime ≠ Crypto.sha1 cPrime then .err "certificate content hash mismatch"
  pure cPrime

/-- `extractGen1CHRAndEOV`, tools/cmd/fetch-certs/main.go:632-656: the holder reference and the end of
validity as text. -/
def gen1CHRAndEOV (cPrime : Bytes) : Res (Nat × Bytes) := do
  if cPrime.length ≠ 164 then .err "invalid C' length"
  let chr ← sl? cPrime 20 28
  let eov ← sl? cPrime 16 20
  pure (beNat chr, rfc3339 (fetchTime eov))

/-- `extractGen2CAR`, tools/cmd/fetch-certs/main.go:661-696. -/
def fetchGen2CAR (certData : Bytes) : Res Nat := do
  let (outer, _) ← asn1Raw certData
  let (body, _) ← asn1Raw outer.bytes
  let (_, rest) ← asn1Raw body.bytes
  let (car, _) ← asn1Raw rest
  if car.bytes.length ≠ 8 then .err "invalid CAR length"
  pure (beNat car.bytes)

/-- The loop of `extractGen2CHR` that skips fields, lines 717-723. -/
def skipFields : Nat → Bytes → Res Bytes
  | 0, rest => .ok rest
  | n + 1, rest => do
    let (_, rest) ← asn1Raw rest
    skipFields n rest

/-- `extractGen2CHR`, tools/cmd/fetch-certs/main.go:700-738. -/
def fetchGen2CHR (certData : Bytes) : Res Nat := do
  let (outer, _) ← asn1Raw certData
  let (body, _) ← asn1Raw outer.bytes
  let rest ← skipFields 4 body.bytes
  let (chr, _) ← asn1Raw rest
  if chr.bytes.length ≠ 8 then .err "invalid CHR length"
  pure (beNat chr.bytes)

/-! ## Strings -/

/-- `unicode.IsSpace`. -/
def isSpaceRune (r : Nat) : Bool :=
  r == 9 || r == 10 || r == 11 || r == 12 || r == 13 || r == 32 || r == 0x85 || r == 0xA0 ||
  r == 0x1680 || (0x2000 ≤ r && r ≤ 0x200A) || r == 0x2028 || r == 0x2029 || r == 0x202F ||
  r == 0x205F || r == 0x3000

/-- `strings.TrimLeftFunc(s, unicode.IsSpace)`; the counter bounds the runes removed. -/
def trimSpaceLeft : Nat → Bytes → Bytes
  | 0, s => s
  | n + 1, s =>
    if s.length > 0 ∧ isSpaceRune (decodeRune s).1 then trimSpaceLeft n (s.drop (decodeRune s).2) else s

/-- `strings.TrimRightFunc(s, unicode.IsSpace)`. -/
def trimSpaceRight : Nat → Bytes → Bytes
  | 0, s => s
  | n + 1, s =>
    if s.length > 0 ∧ isSpaceRune (decodeLastRune s).1 then
      trimSpaceRight n (s.take (s.length - (decodeLastRune s).2))
    else s

/-- `strings.TrimSpace`. -/
def trimSpace (s : Bytes) : Bytes :=
  let s := trimSpaceLeft s.length s
  trimSpaceRight s.length s

/-- `strings.Split(s, sep)` for a separator of one byte. -/
def splitOn (sep : UInt8) : Bytes → List Bytes
  | [] => [[]]
  | b :: t =>
    if b = sep then [] :: splitOn sep t
    else match splitOn sep t with
      | [] => [[b]]
      | p :: ps => (b :: p) :: ps

/-- `strings.Contains(s, sub)`. -/
def containsBytes (sub : Bytes) : Bytes → Bool
  | [] => sub.isEmpty
  | b :: t => sub.isPrefixOf (b :: t) || containsBytes sub t

/-- `strings.TrimPrefix`. -/
def trimPrefix (p s : Bytes) : Bytes := if p.isPrefixOf s then s.drop p.length else s

/-- `strings.ToLower`, of which nothing is assumed. -/
class LowerCase where
  toLower : Bytes → Bytes

/-! ## The certificate table -/

/-- `isDateString`, tools/cmd/fetch-certs/main.go:869-873. -/
def isDateString (s : Bytes) : Bool :=
  let s := trimSpace s
  s.length == 10 && (s.count 0x2F == 2 || s.count 0x2D == 2)

/-- The conversion to year-month-day inside `parseDateString`, tools/cmd/fetch-certs/main.go:880-896; the
empty string means "not a date". -/
def isoDay (s : Bytes) : Bytes :=
  if 0x2F ∈ s then
    match splitOn 0x2F s with
    | [a, b, c] => c ++ [0x2D] ++ b ++ [0x2D] ++ a
    | _ => []
  else if 0x2D ∈ s then
    match splitOn 0x2D s with
    | [a, _, _] => if a.length = 4 then s else []
    | _ => []
  else []

/-- `parseDateString`, tools/cmd/fetch-certs/main.go:876-908; the empty string means "no date". -/
def parseDateString (s : Bytes) : Bytes :=
  let dateStr := isoDay (trimSpace s)
  if dateStr = [] then []
  else match parseDay dateStr with
    | none => []
    | some c => rfc3339 c

/-- `filepath.Base` on a system with "/" as separator. -/
def pathBase (p : Bytes) : Bytes :=
  if p = [] then [0x2E]
  else
    let p := (p.reverse.dropWhile (· == 0x2F)).reverse
    let last := (p.reverse.takeWhile (· != 0x2F)).reverse
    if last = [] then [0x2F] else last

/-- `extractCertificateName`, tools/cmd/fetch-certs/main.go:910-921. -/
def certificateName (url : Bytes) : Bytes :=
  let parts := splitOn 0x3D url
  if parts.length < 2 then pathBase url
  else trimPrefix (ascii "erca_of_doc/") (trimPrefix (ascii "iot_doc/") (parts.getLastD []))

/-- `html.Node`: text, element with name, attributes and children, and anything else (document,
comment, doctype) with its children. -/
inductive Html where
  | text (data : Bytes)
  | element (name : Bytes) (attrs : List (Bytes × Bytes)) (children : List Html)
  | other (children : List Html)

mutual
/-- `extractCell` of `parseTableRow`, tools/cmd/fetch-certs/main.go:776-789: all text below a node, in
document order. -/
def htmlText : Html → Bytes
  | .text d => d
  | .element _ _ cs => htmlTexts cs
  | .other cs => htmlTexts cs
def htmlTexts : List Html → Bytes
  | [] => []
  | c :: cs => htmlText c ++ htmlTexts cs
end

/-- The attribute loop of `findDownloadLink`, lines 845-856, over the attributes still to be looked at
of a link whose first `href` is `href`; `none` means that the loop ends without returning. -/
def linkOfAttrs (href : Option Bytes) : List (Bytes × Bytes) → Option Bytes
  | [] => none
  | (k, v) :: rest =>
    if k = ascii "href" ∧ (containsBytes (ascii "BIN_DT") v ∨ containsBytes (ascii "BIN_ST") v) then some v
    else if k = ascii "title" ∧ containsBytes (ascii "Download certificate file") v then
      match href with
      | some h => some h
      | none => linkOfAttrs href rest
    else linkOfAttrs href rest

mutual
/-- `findDownloadLink`, tools/cmd/fetch-certs/main.go:843-866; the empty string means "no link". -/
def downloadLink : Html → Bytes
  | .text _ => []
  | .element name attrs cs =>
    match (if name = ascii "a" then linkOfAttrs (attrs.lookup (ascii "href")) attrs else none) with
    | some l => l
    | none => downloadLinks cs
  | .other cs => downloadLinks cs
def downloadLinks : List Html → Bytes
  | [] => []
  | c :: cs => if downloadLink c ≠ [] then downloadLink c else downloadLinks cs
end

/-- `certificateMetadata`, tools/cmd/fetch-certs/main.go:741-746. -/
structure CertMeta where
  name : Bytes
  url : Bytes
  country : Bytes
  expiration : Bytes
  deriving Repr, DecidableEq

/-- A `td` or `th` element. -/
def isCell : Html → Bool
  | .element name _ _ => name == ascii "td" || name == ascii "th"
  | _ => false

/-- The loop over the cells' texts, tools/cmd/fetch-certs/main.go:818-829: country and expiration date
found so far. -/
def readCell [LowerCase] (acc : Bytes × Bytes) (cell : Bytes) : Bytes × Bytes :=
  if isDateString cell then (acc.1, parseDateString cell)
  else if cell ≠ [] ∧ containsBytes (ascii "Download") cell = false ∧ cell.length > 2 then
    if acc.1 = [] ∧ containsBytes (ascii "certificate") (LowerCase.toLower cell) = false then (cell, acc.2)
    else acc
  else acc

/-- `parseTableRow`, tools/cmd/fetch-certs/main.go:771-840, given the children of the row. -/
def tableRow [LowerCase] (baseURL : Bytes) (row : List Html) : Option CertMeta :=
  let tds := row.filter isCell
  let cells := tds.map fun td => trimSpace (htmlText td)
  let link := ((tds.map downloadLink).filter (· ≠ [])).getLastD []
  if link = [] ∨ cells.length < 3 then none
  else
    let r := cells.foldl readCell ([], [])
    some ⟨certificateName link, baseURL ++ [0x2F] ++ link, r.1, r.2⟩

mutual
/-- `parseCertificateTable`, tools/cmd/fetch-certs/main.go:749-768: the rows of the whole tree, outer
rows before the rows inside them. -/
def tableRows [LowerCase] (baseURL : Bytes) : Html → List CertMeta
  | .text _ => []
  | .element name _ cs =>
    (if name = ascii "tr" then (tableRow baseURL cs).toList else []) ++ tableRowsIn baseURL cs
  | .other cs => tableRowsIn baseURL cs
def tableRowsIn [LowerCase] (baseURL : Bytes) : List Html → List CertMeta
  | [] => []
  | c :: cs => tableRows baseURL c ++ tableRowsIn baseURL cs
end

/-! ## Downloading and indexing -/

/-- `downloadCertificate`, tools/cmd/fetch-certs/main.go:923-948, given the outcome of `http.Get`. -/
def downloadCertificate (get : Res Response) (maxSize : Nat) : Res Bytes := do
  let resp ← get
  if resp.status ≠ 200 then .err "unexpected status code"
  let data ← resp.body
  if data.head? = some 0x3C then .err "received HTML instead of certificate data"
  if data.length > maxSize then .err "certificate too large"
  pure data

/-- `CertificateEntry`, tools/cmd/fetch-certs/main.go:71-93, without the effective date, which the tool
never sets. -/
structure IndexEntry where
  car : Bytes
  chr : Bytes := []
  country : Bytes := []
  url : Bytes
  expiration : Bytes := []
  path : Bytes
  deriving Repr, DecidableEq

/-- What one download task produces: the content of the file, and the entry, whose path (relative to
the output directory) is also where the file goes. -/
structure Product where
  content : Bytes
  entry : IndexEntry
  deriving Repr, DecidableEq

/-- Resolving "." and "..": the loop of `filepath.Clean` over the components of a relative path. The
stack holds the components kept so far, last first. -/
def cleanParts : (stack : List Bytes) → List Bytes → List Bytes
  | stack, [] => stack.reverse
  | stack, c :: cs =>
    if c = [] ∨ c = [0x2E] then cleanParts stack cs
    else if c = [0x2E, 0x2E] then
      match stack with
      | top :: below => if top = [0x2E, 0x2E] then cleanParts (c :: stack) cs else cleanParts below cs
      | [] => cleanParts [c] cs
    else cleanParts (c :: stack) cs

/-- `filepath.Join(dir, file)` for a relative, non-empty `dir`. -/
def joinPath (dir file : Bytes) : Bytes :=
  match cleanParts [] (splitOn 0x2F (dir ++ [0x2F] ++ file)) with
  | [] => [0x2E]
  | ps => [0x2F].intercalate ps

/-- The file name of a certificate: its holder reference if known, else the name from the page. -/
def certFilename (chr name : Bytes) : Bytes := (if chr ≠ [] then chr else name) ++ ascii ".bin"

/-- The task of one Gen1 certificate, tools/cmd/fetch-certs/main.go:291-352, up to saving the file;
`none` means that the certificate is skipped with a warning. -/
def gen1Product [Crypto] (modulus exponent : Nat) (m : CertMeta) (get : Res Response) : Option Product :=
  match downloadCertificate get 194 with
  | .ok data =>
    match fetchGen1CAR data with
    | .ok car =>
      let (chr, eov) : Bytes × Bytes :=
        match recoverGen1 data modulus exponent with
        | .ok cPrime =>
          match gen1CHRAndEOV cPrime with
          | .ok (chr, eov) => (decimal chr, if eov ≠ [] then eov else m.expiration)
          | _ => ([], m.expiration)
        | _ => ([], m.expiration)
      some ⟨data, { car := decimal car, chr := chr, country := m.country, url := m.url,
                    expiration := eov, path := joinPath (ascii "g1") (certFilename chr m.name) }⟩
    | _ => none
  | _ => none

/-- The task of one Gen2 certificate, tools/cmd/fetch-certs/main.go:394-452. -/
def gen2Product (m : CertMeta) (get : Res Response) : Option Product :=
  match downloadCertificate get 341 with
  | .ok data =>
    if data.length < 204 ∨ data.length > 341 then none
    else match fetchGen2CAR data with
    | .ok car =>
      let chr : Bytes := match fetchGen2CHR data with | .ok chr => decimal chr | _ => []
      some ⟨data, { car := decimal car, chr := chr, country := m.country, url := m.url,
                    expiration := m.expiration, path := joinPath (ascii "g2") (certFilename chr m.name) }⟩
    | _ => none
  | _ => none

/-- What a task does to the shared state: it saves its file, and then, under the mutex, adds its
entry. -/
inductive FetchStep where
  | save (path content : Bytes)
  | add (entry : IndexEntry)
  deriving Repr, DecidableEq

/-- How `os.WriteFile` ends: it succeeds; or the file cannot be opened, and nothing changes; or it has
emptied the file and stored the first `k` bytes when an error occurs (the disk is full, or closing
fails). -/
inductive Written where
  | done
  | refused
  | torn (k : Nat)
  deriving Repr, DecidableEq

/-- The steps of one task; `w` says how `os.WriteFile` ends for it (lines 327-331, 426-430: without
success there is no entry, and what is left of the file stays). A write is taken to be one step. -/
def taskSteps (w : Written) : Option Product → List FetchStep
  | none => []
  | some p =>
    match w with
    | .done => [.save p.entry.path p.content, .add p.entry]
    | .refused => []
    | .torn k => [.save p.entry.path (p.content.take k)]

/-- The shared state: the files written, latest first, and the entries. -/
structure FetchState where
  files : List (Bytes × Bytes) := []
  entries : List IndexEntry := []
  deriving Repr, DecidableEq

def FetchState.step (s : FetchState) : FetchStep → FetchState
  | .save f c => { s with files := (f, c) :: s.files }
  | .add e => { s with entries := s.entries ++ [e] }

/-- The orders in which the goroutines of `indexAndDownloadGen1Certificates` and
`indexAndDownloadGen2Certificates` can take their steps: any task may take its next step at any time.
(The limit on concurrency only rules out some of these orders.) -/
inductive Schedule : List (List FetchStep) → List FetchStep → Prop
  | done {ts} (h : ∀ t ∈ ts, t = []) : Schedule ts []
  | run {before after t s ss} (h : Schedule (before ++ t :: after) ss) :
      Schedule (before ++ (s :: t) :: after) (s :: ss)

/-- The comparison of `sortCertificates`, tools/cmd/fetch-certs/main.go:231-257. Go compares strings by
their bytes. -/
def entryLess (a b : IndexEntry) : Bool :=
  if a.country ≠ b.country then a.country < b.country
  else match parseInstant a.expiration, parseInstant b.expiration with
    | none, none => false
    | none, some _ => false
    | some _, none => true
    | some s, some t => t.instant < s.instant

/-- The contract of `sort.Slice`: the result has the same elements, and none before a smaller one. The
sort is not stable, so elements that compare equal may come in any order. -/
def SortedBy (less : IndexEntry → IndexEntry → Bool) (input output : List IndexEntry) : Prop :=
  output.Perm input ∧ output.Pairwise fun a b => less b a = false

/-- The root entry `main` makes from the root file, tools/cmd/fetch-certs/main.go:127-140. -/
def rootEntry (rootFile : Bytes) : IndexEntry :=
  let keyId := if rootFile.length ≥ 8 then beNat (rootFile.take 8) else 0
  { car := decimal keyId, chr := decimal keyId,
    url := ascii "https://dtc.jrc.ec.europa.eu/erca_of_doc/EC_PK.zip", path := ascii "root/EC_PK.bin" }

end Tacho
