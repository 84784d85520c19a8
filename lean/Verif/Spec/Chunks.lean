import Verif.Model.Scanner
/-!
# Specification: record splitting without any buffering

`chunks split data` cuts the whole remaining data with the split function, with no buffer at all.
The only trace of `bufio.Scanner` is its documented token limit: a record that is not complete
within the next 65536 bytes is the error "token too long".
-/

namespace Tacho.Spec

/-- What the split function says about the data that remains, given Scanner's 65536 byte limit. -/
def look (split : SplitFn) (data : Bytes) : Split :=
  if data.length < 65536 then split data true
  else match split (data.take 65536) false with
    | .more => .fail "bufio.Scanner: token too long"
    | r => r

/-- Cut `data` into records until the split function reports the end or an error. -/
def chunks (split : SplitFn) (data : Bytes) : List Bytes × Option String :=
  match look split data with
  | .more => ([], none)
  | .fail m => ([], some m)
  | .token n =>
    if 0 < n ∧ n ≤ data.length then
      let r := chunks split (data.drop n)
      (data.take n :: r.1, r.2)
    else ([], some "bufio.Scanner: bad advance")
termination_by data.length
decreasing_by simp; omega

/-- A split function is stable when its verdict on a prefix does not change when more data becomes
available, and its tokens are non-empty and lie within the data. -/
structure Stable (split : SplitFn) : Prop where
  tok : ∀ d n, split d false = .token n → ∀ t e, split (d ++ t) e = .token n
  fail : ∀ d m, split d false = .fail m → ∀ t e, split (d ++ t) e = .fail m
  len : ∀ d e n, split d e = .token n → 0 < n ∧ n ≤ d.length

end Tacho.Spec
