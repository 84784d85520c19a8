import Verif.Model.Records
/-!
# Driver activity data: internal/card/activity.go

Error texts are abbreviated; wrapping with `%w` is not represented.
-/

namespace Tacho

/-- `DriverActivityData_DailyRecord`. -/
structure DailyRecord where
  valid : Bool
  rawData : Option Bytes
  prevLength : Int
  recordLength : Int
  date : Option Timestamp
  presenceCounter : Option BcdString
  dayDistance : Int
  changes : List ActivityChangeInfo
  deriving Repr, DecidableEq

/-- `DriverActivityData` (the signature is set by the caller, driver_card_file.go). -/
structure DriverActivityData where
  oldest : Int
  newest : Int
  rawData : Option Bytes
  records : List DailyRecord
  deriving Repr, DecidableEq

/-- The loop of `parseSingleActivityDailyRecord`, activity.go:180-196, on the bytes from `offset` on:
two bytes at a time, skipping the words 0 and FFFF; a trailing odd byte ends the loop. -/
def parseChanges : Bytes → Res (List ActivityChangeInfo)
  | a :: b :: rest => do
    if beNat [a, b] = 0 ∨ beNat [a, b] = 0xFFFF then parseChanges rest
    else
      let c ← unmarshalActivityChangeInfo [a, b]
      let cs ← parseChanges rest
      return c :: cs
  | _ => .ok []

/-- `parseSingleActivityDailyRecord`, activity.go:127-205. The length checks at 148, 159 and 170 cannot
fail after the one at 132. -/
def parseSingleDailyRecord (data : Bytes) : Res DailyRecord := do
  if data.length < 12 then .err "insufficient data for daily record"
  let prev ← sl? data 0 2
  let cur ← sl? data 2 4
  let d ← sl? data 4 8
  let date ← unmarshalTimeReal d
  let c ← sl? data 8 10
  let counter ← unmarshalBcdString c
  let dist ← sl? data 10 12
  let rest ← from? data 12
  let changes ← parseChanges rest
  return {
    valid := true
    rawData := some data
    prevLength := (beNat prev : Int)
    recordLength := (beNat cur : Int)
    date := date
    presenceCounter := some counter
    dayDistance := (beNat dist : Int)
    changes := changes }

/-- One turn of the loop body of `parseActivityRecordsWithIterator`, activity.go:88-107: a record that
does not parse is kept as raw bytes; a parsed one is copied without its raw bytes. -/
def dailyRecordOf (recordBytes : Bytes) : Res DailyRecord :=
  match parseSingleDailyRecord recordBytes with
  | .err _ => .ok { valid := false, rawData := some recordBytes, prevLength := 0, recordLength := 0, date := none,
                    presenceCounter := none, dayDistance := 0, changes := [] }
  | .ok r => .ok { r with rawData := none }
  | .panic => .panic

/-- `cyclicRecordIterator`, activity.go:261-271 (`recordStart` and `recordLength` are never read by the
package and are left out). -/
structure CyclicIter where
  buffer : Bytes
  currentPos : Int
  recordCount : Nat
  err : Option String
  recordBytes : Bytes
  deriving Repr, DecidableEq

/-- `NewCyclicRecordIterator`, activity.go:275-280. -/
def newCyclicIter (buffer : Bytes) (startPos : Int) : CyclicIter :=
  { buffer := buffer, currentPos := startPos, recordCount := 0, err := none, recordBytes := [] }

/-- The copy loop activity.go:316-319: `n` bytes from `pos` on, indices reduced modulo the length. -/
def cyclicRead (buffer : Bytes) (pos : Nat) : (n : Nat) → Res Bytes
  | 0 => .ok []
  | n + 1 => do
    let b ← at? buffer (pos % buffer.length)
    let rest ← cyclicRead buffer (pos + 1) n
    return b :: rest

/-- `(*cyclicRecordIterator).Next`, activity.go:285-333. -/
def CyclicIter.next (it : CyclicIter) : Res (Bool × CyclicIter) :=
  if it.err.isSome then .ok (false, it)
  else if it.recordCount ≥ 366 then
    .ok (false, { it with err := some "exceeded maximum record count" })
  else if it.buffer.length = 0 then .ok (false, it)
  else if it.currentPos < 0 ∨ it.currentPos + 4 > it.buffer.length then .ok (false, it)
  else do
    let pos := it.currentPos.toNat
    let p ← sl? it.buffer pos (pos + 2)
    let c ← sl? it.buffer (pos + 2) (pos + 4)
    let prev := beNat p
    let cur := beNat c
    if cur = 0 then return (false, it)
    else if cur < 4 then return (false, { it with err := some "invalid record length" })
    else
      let bytes ← cyclicRead it.buffer pos cur
      let newPos : Int :=
        if prev = 0 then -1
        else if it.currentPos - prev < 0 then it.currentPos - prev + it.buffer.length
        else it.currentPos - prev
      return (true, { it with recordBytes := bytes, recordCount := it.recordCount + 1, currentPos := newPos })

/-- The loop `for iterator.Next()`, activity.go:87-116, collecting decoded records newest first. The
fuel bounds the number of calls of `Next`; running out of it is the `none` outcome, which
`activityLoop_fuel` shows impossible with 367 units. -/
def activityLoop : (fuel : Nat) → CyclicIter → List DailyRecord → Option (Res (List DailyRecord))
  | 0, _, _ => none
  | fuel + 1, it, acc =>
    match it.next with
    | .panic => some .panic
    | .err m => some (.err m)
    | .ok (false, it') =>
      some (match it'.err with | some m => .err m | none => .ok acc.reverse)
    | .ok (true, it') =>
      match dailyRecordOf it'.recordBytes with
      | .ok r => activityLoop fuel it' (acc ++ [r])
      | .err m => some (.err m)
      | .panic => some .panic

/-- `parseActivityRecordsWithIterator`, activity.go:83-124. The in-place reversal is `List.reverse`. -/
def parseActivityRecords (buffer : Bytes) (startPos : Int) : Res (List DailyRecord) :=
  (activityLoop 367 (newCyclicIter buffer startPos) []).getD .panic

/-- `unmarshalDriverActivityData`, activity.go:36-78. `bytes.Reader.Read` reports EOF when nothing is
left, so exactly four bytes are an error. -/
def unmarshalDriverActivityData (data : Bytes) : Res DriverActivityData := do
  if data.length < 4 then .err "insufficient data for activity data header"
  let o ← sl? data 0 2
  let n ← sl? data 2 4
  let activityData ← from? data 4
  if activityData.length = 0 then .err "failed to read activity daily records: EOF"
  let records ← parseActivityRecords activityData (beNat n : Int)
  return { oldest := (beNat o : Int), newest := (beNat n : Int), rawData := some activityData, records := records }

/-- `calculateRecordSize`, activity.go:443-462. -/
def calculateRecordSize (r : DailyRecord) : Nat :=
  if r.recordLength > 0 then r.recordLength.toNat else 12 + r.changes.length * 2

/-- `for _, ac := range ...: dd.AppendActivityChangeInfo`, activity.go:488-493. -/
def appendChanges (dst : Bytes) : List ActivityChangeInfo → Res Bytes
  | [] => .ok dst
  | c :: cs => do
    let dst ← appendActivityChangeInfo dst c
    appendChanges dst cs

/-- `marshalRecordWithHeader`, activity.go:466-503. -/
def marshalRecordWithHeader (r : DailyRecord) (prev cur : Nat) : Res Bytes := do
  let buf := beBytes 2 prev ++ beBytes 2 cur
  let buf ← appendTimeReal buf r.date
  let buf ← appendBcdString buf r.presenceCounter
  let buf := buf ++ beBytes 2 (low 16 r.dayDistance)
  let buf ← appendChanges buf r.changes
  return if buf.length < cur then buf ++ zeros (cur - buf.length) else buf

/-- First pass of `buildCyclicBufferFromRecords`, activity.go:379-399. -/
def recordSizes : List DailyRecord → Res (List Nat)
  | [] => .ok []
  | r :: rs => do
    let s ← (if r.valid then .ok (calculateRecordSize r)
      else if (r.rawData.getD []).length > 0 then .ok (r.rawData.getD []).length
      else .err "invalid record has no raw data")
    let ss ← recordSizes rs
    return s :: ss

/-- Second pass, activity.go:411-435: `copy(buffer[currentPos:], …)` for each record. `prev` is the
previous record's size (0 for the first). -/
def writeRecords (buffer : Bytes) (pos prev : Nat) : List (DailyRecord × Nat) → Res Bytes
  | [] => .ok buffer
  | (r, size) :: rest => do
    let b ← (if r.valid then marshalRecordWithHeader r prev size else .ok (r.rawData.getD []))
    let _ ← from? buffer pos
    writeRecords (paint buffer pos (buffer.length - pos) b) (pos + size) size rest

/-- `buildCyclicBufferFromRecords`, activity.go:374-438 (the pointer argument is unused). -/
def buildCyclicBuffer (records : List DailyRecord) : Res Bytes :=
  if records.length = 0 then .ok [] else do
    let sizes ← recordSizes records
    writeRecords (zeros sizes.sum) 0 0 (records.zip sizes)

/-- `appendDriverActivity`, activity.go:229-252. -/
def appendDriverActivity (dst : Bytes) (a : Option DriverActivityData) : Res Bytes :=
  match a with
  | none => .ok dst
  | some a => do
    let dst := dst ++ beBytes 2 (low 16 a.oldest) ++ beBytes 2 (low 16 a.newest)
    if (a.rawData.getD []).length > 0 then return dst ++ a.rawData.getD []
    else
      let b ← buildCyclicBuffer a.records
      return dst ++ b

end Tacho
