import Mathlib.Data.List.Forall2
import Verif.Spec.Fields
import Verif.Model.Activity
/-!
# What the cyclic buffer of daily activity records means

Stated on bytes, without the iterator. Only the message type `DailyRecord` and the decoders of single
fields come from the model.
-/

namespace Tacho.Spec

/-- The byte string `r` stands in the cyclic buffer `b` from position `p` on. -/
def Window (b : Bytes) (p : Nat) (r : Bytes) : Prop := ∀ i, i < r.length → b[(p + i) % b.length]? = r[i]?

/-- The header at `p` (previous length, own length) can be read without wrapping around. -/
def HeaderAt (b : Bytes) (p : Int) : Prop := 0 ≤ p ∧ p + 4 ≤ b.length

/-- Own length of the record at `p`. -/
def ownLength (b : Bytes) (p : Int) : Nat := beNat (sl b (p.toNat + 2) (p.toNat + 4))

/-- Length of the record before the one at `p`. -/
def prevLength (b : Bytes) (p : Int) : Nat := beNat (sl b p.toNat (p.toNat + 2))

/-- Where the record before the one at `p` starts; nowhere (-1) for the oldest. -/
def before (b : Bytes) (p : Int) : Int :=
  if prevLength b p = 0 then -1 else
  if p - prevLength b p < 0 then p - prevLength b p + b.length else p - prevLength b p

/-- `Path b p rs q`: starting at `p` and following the previous-record lengths, one meets the records
`rs` (newest first), each at least four bytes long, and arrives at `q`. -/
inductive Path (b : Bytes) : Int → List Bytes → Int → Prop
  | nil (p : Int) : Path b p [] p
  | cons (p q : Int) (r : Bytes) (rs : List Bytes) : HeaderAt b p → 4 ≤ ownLength b p →
      r.length = ownLength b p → Window b p.toNat r → Path b (before b p) rs q → Path b p (r :: rs) q

/-- No record starts at `p`: the header cannot be read, or the own length is 0. -/
def NoRecord (b : Bytes) (p : Int) : Prop := ¬ HeaderAt b p ∨ ownLength b p = 0

/-- The header at `p` announces an impossible length. -/
def BadLength (b : Bytes) (p : Int) : Prop := HeaderAt b p ∧ 0 < ownLength b p ∧ ownLength b p < 4

/-- The two byte words of a byte string; a last odd byte does not count. -/
def words : Bytes → List Bytes
  | a :: b :: rest => [a, b] :: words rest
  | _ => []

/-- A daily record that can be decoded: long enough, with a BCD presence counter. -/
def DayOk (r : Bytes) : Prop := 12 ≤ r.length ∧ ByteAt r 8 IsBcd ∧ ByteAt r 9 IsBcd

/-- What the bytes of a daily record mean. -/
def DayOf (r : Bytes) (m : DailyRecord) : Prop :=
  (DayOk r ∧ m.valid = true ∧ m.rawData = none ∧ m.prevLength = beNat (sl r 0 2) ∧
    m.recordLength = beNat (sl r 2 4) ∧ m.date = instant (sl r 4 8) ∧
    m.presenceCounter = some ⟨bcdPair (sl r 8 10), 2⟩ ∧ m.dayDistance = beNat (sl r 10 12) ∧
    List.Forall₂ (fun w c => unmarshalActivityChangeInfo w = .ok c)
      ((words (r.drop 12)).filter (fun w => w ≠ [0, 0] ∧ w ≠ [255, 255])) m.changes) ∨
  (¬ DayOk r ∧ m = ⟨false, some r, 0, 0, none, none, 0, []⟩)

/-- A sequence of records, oldest first, with the right headers. `prev` is the length of the record
before the first one. -/
def Linked (prev : Nat) : List Bytes → Prop
  | [] => True
  | d :: rest => 4 ≤ d.length ∧ beNat (sl d 0 2) = prev ∧ beNat (sl d 2 4) = d.length ∧ Linked d.length rest

end Tacho.Spec
