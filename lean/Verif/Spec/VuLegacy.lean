import Verif.Model.VuLegacy
import Mathlib.Data.List.Forall2
/-!
# What the older activity parser accepts

Each predicate relates the input that is left, what is read from it, and what is left afterwards.
-/

namespace Tacho.Spec

/-- Consecutive pieces of `n` bytes, each of which `parse` relates to a record. -/
def Pieces {α : Type} (n : Nat) (parse : Bytes → α → Prop) (input : Bytes) (as : List α) (tail : Bytes) : Prop :=
  ∃ xs : List Bytes, input = xs.flatten ++ tail ∧ (∀ x ∈ xs, x.length = n) ∧ List.Forall₂ parse xs as

/-- A one-byte count and that many pieces. -/
def Counted {α : Type} (n : Nat) (parse : Bytes → α → Prop) (input : Bytes) (as : List α) (tail : Bytes) : Prop :=
  ∃ (k : UInt8) (rest : Bytes), input = k :: rest ∧ as.length = k.toNat ∧ Pieces n parse rest as tail

/-- The header of a record array as this parser expects it: two bytes each for type, size and count.
(The regulation has one byte for the type.) -/
def wideHeader (type size count : Nat) : Bytes := beBytes 2 type ++ beBytes 2 size ++ beBytes 2 count

/-- A record array with as many pieces as it announces. -/
def ExactArray {α : Type} (type n : Nat) (parse : Bytes → α → Prop) (input : Bytes) (as : List α) (tail : Bytes) : Prop :=
  ∃ rest, input = wideHeader type n as.length ++ rest ∧ as.length < 65536 ∧ Pieces n parse rest as tail

/-- A record array of which as many pieces are taken as it announces, or, if there is less input, as
many as fit into the whole rest of the input. `size` is what the header must say, `n` what is
taken. -/
def LooseArray {α : Type} (type size n : Nat) (parse : Bytes → α → Prop) (input : Bytes) (as : List α) (tail : Bytes) : Prop :=
  ∃ count rest, count < 65536 ∧ input = wideHeader type size count ++ rest ∧ as.length = min count (rest.length / n) ∧
    Pieces n parse rest as tail

/-- A record array of which no piece is taken: it announces none, or there is not enough input for
one. -/
def EmptyArray (type size n : Nat) (input tail : Bytes) : Prop :=
  ∃ count, count < 65536 ∧ input = wideHeader type size count ++ tail ∧ (count = 0 ∨ tail.length < n)

/-- An array whose records can never be read: it is found empty, or skipped. -/
def MaybeArray {α : Type} (type size n : Nat) (input : Bytes) (as : Option (List α)) (tail : Bytes) : Prop :=
  (as = some [] ∧ EmptyArray type size n input tail) ∨
  (as = none ∧ tail = input ∧ ¬ ∃ t, EmptyArray type size n input t)

/-- A place record as this parser reads it: the type and the country are the bytes themselves. -/
def LegacyPlaceIs (b : Bytes) (p : LegacyPlace) : Prop :=
  p.entryTime = { seconds := (beNat (sl b 0 4) : Int), nanos := 0 } ∧ b[4]?.map UInt8.toNat = some p.entryType ∧
  b[5]?.map UInt8.toNat = some p.country ∧ p.region = sl b 6 7 ∧ p.odometerKm = beNat (sl b 7 10)

/-- A GNSS record of 14 bytes as this parser reads it. -/
def LegacyGnssIs (b : Bytes) (g : LegacyGnss) : Prop :=
  g.timestamp = some { seconds := (beNat (sl b 0 4) : Int), nanos := 0 } ∧
  b[4]?.map (fun x => (x.toNat : Int)) = some g.accuracy ∧
  g.geo = some { latitude := wrap32 (beNat (sl b 5 9) : Int), longitude := wrap32 (beNat (sl b 9 13) : Int) } ∧
  b[13]?.map (fun x => (x.toNat : Int)) = some g.authentication

/-- The two arrays of version 2: tried only when enough input is left. Their records hold card numbers,
which get 20 bytes each and take 19, so no record is ever read. -/
def OptionalArrays (input : Bytes) (borders : Option (List LegacyBorder)) (loads : Option (List LegacyLoad))
    (tail : Bytes) : Prop :=
  if input.length < 10 then borders = none ∧ loads = none ∧ tail = input
  else ∃ mid, MaybeArray 0x17 59 57 input borders mid ∧
    if mid.length < 5 then loads = none ∧ tail = mid
    else MaybeArray 0x18 58 60 mid loads tail

/-- The signature: type 8, a size from 1 to 65530, any count, and the bytes. -/
def LegacySignature (input : Bytes) (signature : Bytes) (tail : Bytes) : Prop :=
  ∃ c1 c2, 0 < signature.length ∧ signature.length ≤ 65530 ∧
    input = beBytes 2 8 ++ beBytes 2 signature.length ++ [c1, c2] ++ signature ++ tail

/-- What is read from a Gen1 day. -/
def LegacyGen1 (input : Bytes) (m : LegacyActivities) (tail : Bytes) : Prop :=
  ∃ t0 t1 t2 t3, t0.length = 7 ∧ input = t0 ++ 0 :: t1 ∧
    Counted 2 (fun b c => unmarshalActivityChangeInfo b = .ok c) t1 m.changes t2 ∧
    Counted 10 LegacyPlaceIs t2 m.places t3 ∧
    ∃ t4, Counted 5 (fun b c => unmarshalSpecificConditionRecord b = .ok c) t3 m.conditions t4 ∧
    ∃ signature, signature.length = 128 ∧ t4 = signature ++ tail ∧
      m = { generation := 1, version2 := false
            dateOfDay := some { seconds := (beNat (t0.take 4) : Int), nanos := 0 }
            odometerMidnight := some (beNat (t0.drop 4)), cardIW := [], changes := m.changes, places := m.places
            gnss := [], conditions := m.conditions, borders := [], loads := []
            signatureGen1 := some signature, signatureGen2 := none }

/-- What is read from a Gen2 day. -/
def LegacyGen2 (input : Bytes) (m : LegacyActivities) (tail : Bytes) : Prop :=
  ∃ dates odos borders loads signature t1 t2 t3 t4 t5 t6 t7 t8,
    ExactArray 1 4 (fun b t => t = { seconds := (beNat b : Int), nanos := 0 }) input dates t1 ∧
    ExactArray 2 3 (fun b v => v = beNat b) t1 odos t2 ∧
    (∃ size, size < 65536 ∧ t2 = wideHeader 0x0D size 0 ++ t3) ∧
    LooseArray 3 2 2 (fun b c => unmarshalActivityChangeInfo b = .ok c) t3 m.changes t4 ∧
    LooseArray 4 10 10 LegacyPlaceIs t4 m.places t5 ∧
    LooseArray 0x16 14 14 LegacyGnssIs t5 m.gnss t6 ∧
    LooseArray 9 5 5 (fun b c => unmarshalSpecificConditionRecord b = .ok c) t6 m.conditions t7 ∧
    OptionalArrays t7 borders loads t8 ∧
    LegacySignature t8 signature tail ∧
    m = { generation := 2, version2 := borders.isSome, dateOfDay := dates.head?, odometerMidnight := odos.head?
          cardIW := [], changes := m.changes, places := m.places, gnss := m.gnss, conditions := m.conditions
          borders := borders.getD [], loads := loads.getD [], signatureGen1 := none, signatureGen2 := some signature }

/-- Somewhere in this list of counted lists, with records of these sizes, the input ends before the
announced records do. -/
def RunsShort : List Nat → Bytes → Prop
  | n :: ns, k :: rest => rest.length < k.toNat * n ∨ RunsShort ns (rest.drop (k.toNat * n))
  | _, _ => False

end Tacho.Spec
