/-!
# Basic vocabulary of the model

Byte strings, Go call results, checked slice expressions and big-endian integers.
-/

namespace Tacho

/-- A Go `[]byte` seen as a value: the list of its bytes. Capacity and identity are not
represented here; the one place where aliasing is observable (`bufio.Scanner`) has its own heap
model in `Verif.Model.Scanner`. -/
abbrev Bytes := List UInt8

/-- The outcome of a Go call returning `(T, error)`: a value, a non-nil error, or a run-time
panic. The error text is kept only so that different failure branches stay distinguishable. -/
inductive Res (α : Type) : Type where
  | ok (a : α)
  | err (msg : String)
  | panic
  deriving Repr, DecidableEq, BEq

namespace Res

/-- Sequencing: `if err != nil { return err }` after each call; a panic propagates. -/
@[simp] def bind {α β : Type} (r : Res α) (f : α → Res β) : Res β :=
  match r with
  | ok a => f a
  | err m => err m
  | panic => panic

instance : Monad Res where
  pure := Res.ok
  bind := Res.bind

@[simp] theorem pure_eq {α : Type} (a : α) : (pure a : Res α) = ok a := rfl
@[simp] theorem bind_ok {α β : Type} (a : α) (f : α → Res β) : (ok a >>= f) = f a := rfl
@[simp] theorem bind_err {α β : Type} (m : String) (f : α → Res β) :
    ((err m : Res α) >>= f) = err m := rfl
@[simp] theorem bind_panic {α β : Type} (f : α → Res β) :
    ((panic : Res α) >>= f) = panic := rfl

end Res

/-- Go `data[lo:]` on a slice: panics when `lo > len(data)`. -/
def from? (d : Bytes) (lo : Nat) : Res Bytes :=
  if lo ≤ d.length then .ok (d.drop lo) else .panic

/-- The value of `data[lo:hi]` when it is in range. -/
def sl (d : Bytes) (lo hi : Nat) : Bytes := (d.take hi).drop lo

/-- Go `data[lo:hi]`: panics unless `lo ≤ hi ≤ len(data)`. (Go allows `hi` up to the capacity;
every use in the code base that is in range of the capacity but not of the length would be reported
here as a panic. The code checks lengths first in all the modelled uses.) -/
def sl? (d : Bytes) (lo hi : Nat) : Res Bytes :=
  if lo ≤ hi ∧ hi ≤ d.length then .ok (sl d lo hi) else .panic

/-- Go `data[i]`: panics unless `i < len(data)`. -/
def at? (d : Bytes) (i : Nat) : Res UInt8 :=
  match d[i]? with
  | some b => .ok b
  | none => .panic

/-- `binary.BigEndian.Uint16/32/64` and friends: the big-endian value of a byte string. -/
def beNat (d : Bytes) : Nat := d.foldl (fun acc b => acc * 256 + b.toNat) 0

/-- `binary.BigEndian.AppendUint16/32/64` and friends: the low `k` bytes of `n`, most significant
first. -/
def beBytes : (k : Nat) → (n : Nat) → Bytes
  | 0, _ => []
  | k + 1, n => UInt8.ofNat (n / 256 ^ k % 256) :: beBytes k n

/-- `make([]byte, n)`: `n` zero bytes. -/
def zeros (n : Nat) : Bytes := List.replicate n 0

end Tacho
