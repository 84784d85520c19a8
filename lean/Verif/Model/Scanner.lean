import Verif.Model.Basic
/-!
# bufio.Scanner over bytes.Reader

Models the Go standard library type used by `internal/card/rawcardfile.go:16-27`,
`internal/card/events.go`, `internal/card/faults.go`, `internal/card/vehicles_used.go`,
`internal/card/vehicles_used_g2.go`, `internal/card/vehicle_units_used.go` as
`sc := bufio.NewScanner(bytes.NewReader(input)); sc.Split(f); for sc.Scan() { ... sc.Bytes() ... }`.
The standard library source is not in the sandbox; the model follows `bufio.Scanner.Scan` of Go 1.2x:
initial buffer 4096, doubling, `MaxScanTokenSize` 65536, shift before grow, split before read.

The consumer's loop body is not interleaved here: every token is recorded with the bytes it had
when `Scan` delivered it, and with a reference (buffer, offset, length), so that both what the
loop body reads (`Tok.bytes`) and what a retained `sc.Bytes()` slice contains after the loop
(`deref` in the final heap) can be stated.
-/

namespace Tacho

/-- What a `bufio.SplitFunc` of this code base returns: `(0, nil, nil)`, `(n, data[:n], nil)` or
`(0, nil, err)`. No split function in the repository returns any other shape. -/
inductive Split where
  | more
  | token (n : Nat)
  | fail (msg : String)
  deriving Repr, DecidableEq

/-- A `bufio.SplitFunc`: data and the at-EOF flag. -/
abbrev SplitFn := Bytes → Bool → Split

/-- `bufio.Scanner.startBufSize`. -/
def startBufSize : Nat := 4096
/-- `bufio.MaxScanTokenSize`. -/
def maxTokenSize : Nat := 65536

/-- The fields of `bufio.Scanner` that matter, plus the part of the `bytes.Reader` not read yet.
`old` holds the retired buffers: buffer number `i` is `(old ++ [buf])[i]`. `eof` is
`s.err == io.EOF` (any other error ends the scan). -/
structure ScanSt where
  old : List Bytes
  buf : Bytes
  start : Nat
  stop : Nat
  eof : Bool
  rest : Bytes

/-- The slice `data[:n]` handed out as a token: buffer number, offset, length. -/
structure TokRef where
  buf : Nat
  off : Nat
  len : Nat
  deriving Repr, DecidableEq

/-- A delivered token: where it lives, and its content at delivery time. -/
structure Tok where
  ref : TokRef
  bytes : Bytes

/-- Result of draining a scanner: the tokens in order, `sc.Err()`, and all buffers at the end. -/
structure ScanOut where
  toks : List Tok
  err : Option String
  heap : List Bytes

/-- The bytes a retained token slice shows in a given heap. -/
def deref (heap : List Bytes) (r : TokRef) : Option Bytes :=
  heap[r.buf]?.map (fun b => sl b r.off (r.off + r.len))

/-- `bufio.NewScanner(bytes.NewReader(input))`. -/
def ScanSt.init (input : Bytes) : ScanSt :=
  { old := [], buf := [], start := 0, stop := 0, eof := false, rest := input }

/-- "shift data to beginning of buffer if there's lots of empty space or space is needed":
`if s.start > 0 && (s.end == len(s.buf) || s.start > len(s.buf)/2) { copy(...) }`. -/
def ScanSt.shift (st : ScanSt) : ScanSt :=
  if st.start > 0 ∧ (st.stop = st.buf.length ∨ st.start > st.buf.length / 2) then
    let live := sl st.buf st.start st.stop
    { st with buf := live ++ st.buf.drop live.length, stop := st.stop - st.start, start := 0 }
  else st

/-- "Is the buffer full? If so, resize": `none` is `ErrTooLong`. -/
def ScanSt.grow (st : ScanSt) : Option ScanSt :=
  if st.stop = st.buf.length then
    if st.buf.length ≥ maxTokenSize then none
    else
      let newSize := min (if st.buf.length * 2 = 0 then startBufSize else st.buf.length * 2)
        maxTokenSize
      let live := sl st.buf st.start st.stop
      some { st with
        old := st.old ++ [st.buf]
        buf := live ++ zeros (newSize - live.length)
        stop := st.stop - st.start
        start := 0 }
  else some st

/-- One successful `s.r.Read(s.buf[s.end:len(s.buf)])` of a `bytes.Reader`: end of input sets EOF,
otherwise as many bytes as fit are copied. -/
def ScanSt.read (st : ScanSt) : ScanSt :=
  match st.rest with
  | [] => { st with eof := true }
  | _ :: _ =>
    let n := min (st.buf.length - st.stop) st.rest.length
    { st with
      buf := st.buf.take st.stop ++ st.rest.take n ++ st.buf.drop (st.stop + n)
      stop := st.stop + n
      rest := st.rest.drop n }

/-- Remaining work: unread bytes (buffered or not). -/
def ScanSt.unread (st : ScanSt) : Nat := (st.stop - st.start) + st.rest.length
/-- Remaining reads, counting the one that reports EOF. -/
def ScanSt.reads (st : ScanSt) : Nat := st.rest.length + (if st.eof then 0 else 1)

/-- The refill part of one iteration of the loop in `Scan`: shift, grow, read. `none` is
`ErrTooLong`. -/
def ScanSt.fill (st : ScanSt) : Option ScanSt := st.shift.grow.map ScanSt.read

/-- Bookkeeping used for termination: refilling never increases the amount of unread data. -/
theorem ScanSt.fill_measure {st st' : ScanSt} (h : st.fill = some st') :
    st'.unread ≤ st.unread := by
  unfold ScanSt.fill at h
  have h1 : st.shift.unread ≤ st.unread := by
    unfold ScanSt.shift ScanSt.unread; split <;> simp
  have h2 : ∀ s s' : ScanSt, s.grow = some s' → s'.unread ≤ s.unread := by
    intro s s' hg
    unfold ScanSt.grow at hg
    split at hg
    · split at hg
      · cases hg
      · cases hg; simp [ScanSt.unread]
    · cases hg; exact Nat.le_refl _
  have h3 : ∀ s : ScanSt, s.read.unread ≤ s.unread := by
    intro s
    unfold ScanSt.read
    split
    · simp [ScanSt.unread]
    · rename_i hd tl hrest
      simp only [ScanSt.unread, List.length_drop]
      omega
  cases hg : st.shift.grow with
  | none => simp [hg] at h
  | some s =>
    simp [hg] at h
    subst h
    exact Nat.le_trans (h3 s) (Nat.le_trans (h2 _ _ hg) h1)

/-- "See if we can get a token with what we already have":
`if s.end > s.start || s.err != nil { s.split(s.buf[s.start:s.end], s.err != nil) }`. -/
def ScanSt.next (split : SplitFn) (st : ScanSt) : Split :=
  if st.stop > st.start ∨ st.eof = true then split (sl st.buf st.start st.stop) st.eof else .more

set_option linter.unusedVariables false in
/-- `for sc.Scan() { ... }` followed by `sc.Err()`.

Each unfolding is one iteration of the `for` loop inside `Scan`: call the split function on the
buffered data when there is some (or at EOF); deliver a token; otherwise stop at EOF, or refill.
Two outcomes that the split functions of this repository never produce are reported as errors
instead of following the standard library further: a token of length 0 (`bufio` would return it and
eventually panic) and a refill that finds no room (`io.ErrNoProgress`). -/
def scanRun (split : SplitFn) (st : ScanSt) : ScanOut :=
  match st.next split with
  | .fail m => { toks := [], err := some m, heap := st.old ++ [st.buf] }
  | .token n =>
    if h : 0 < n ∧ n ≤ st.stop - st.start then
      let r := scanRun split { st with start := st.start + n }
      { r with toks := { ref := { buf := st.old.length, off := st.start, len := n }
                         bytes := sl st.buf st.start (st.start + n) } :: r.toks }
    else { toks := [], err := some "bufio.Scanner: bad advance", heap := st.old ++ [st.buf] }
  | .more =>
    if st.eof = true then { toks := [], err := none, heap := st.old ++ [st.buf] }
    else
      match hf : st.fill with
      | none => { toks := [], err := some "bufio.Scanner: token too long", heap := st.old ++ [st.buf] }
      | some st' =>
        if hp : st'.reads < st.reads then scanRun split st'
        else { toks := [], err := some "multiple Read calls return no data or error"
               heap := st.old ++ [st.buf] }
termination_by (st.unread, st.reads)
decreasing_by
  · apply Prod.Lex.left; simp only [ScanSt.unread]; omega
  · have := ScanSt.fill_measure hf
    rcases Nat.lt_or_eq_of_le this with h | h
    · exact Prod.Lex.left _ _ h
    · rw [h]; exact Prod.Lex.right _ hp

/-- Drain a fresh scanner over `input`. -/
def scanAll (split : SplitFn) (input : Bytes) : ScanOut := scanRun split (ScanSt.init input)

end Tacho
