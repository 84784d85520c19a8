import Verif.Model.Records
import Verif.Props.Prim
import Verif.Props.Strings
/-!
# Helper lemmas for composite records
-/

namespace Tacho
open Spec

theorem guard_eq_ok {α β : Type} {c : Prop} [Decidable c] {m : String} {f : β → Res α} {r : Res α} {x : α} :
    (if c then ((Res.err m : Res β) >>= f) else r) = .ok x ↔ ¬ c ∧ r = .ok x := by
  by_cases h : c <;> simp [h]

theorem sl?_iff {d : Bytes} {lo hi : Nat} {x : Bytes} :
    sl? d lo hi = .ok x ↔ lo ≤ hi ∧ hi ≤ d.length ∧ x = sl d lo hi := by
  constructor
  · exact sl?_eq_ok
  · rintro ⟨h1, h2, rfl⟩; exact sl?_ok h1 h2

theorem from?_iff {d : Bytes} {lo : Nat} {x : Bytes} :
    from? d lo = .ok x ↔ lo ≤ d.length ∧ x = d.drop lo := by
  unfold from?
  by_cases h : lo ≤ d.length <;> simp [h, eq_comm]

theorem at?_iff {d : Bytes} {i : Nat} {b : UInt8} : at? d i = .ok b ↔ i < d.length ∧ sl d i (i+1) = [b] := by
  constructor
  · intro h
    by_cases hi : i < d.length
    · rw [at?_ok hi, Res.ok.injEq] at h
      subst h
      exact ⟨hi, sl_eq_singleton hi⟩
    · simp [at?, List.getElem?_eq_none (Nat.le_of_not_lt hi)] at h
  · rintro ⟨hi, h⟩
    rw [sl_eq_singleton hi] at h
    rw [at?_ok hi]
    simpa using h

/-! ### painting -/

theorem paint_length {c b : Bytes} {off n : Nat} (h : off + n ≤ c.length) :
    (paint c off n b).length = c.length := by
  simp only [paint, List.length_append, List.length_take, List.length_drop]; omega

theorem paint_eq {c b : Bytes} {off n : Nat} (hb : b.length = n) :
    paint c off n b = c.take off ++ b ++ c.drop (off + n) := by
  unfold paint
  rw [List.take_of_length_le (l := b) (by omega), hb, Nat.min_self]

theorem paint_self {c b : Bytes} {off n : Nat} (h : off + n ≤ c.length) (hb : b = sl c off (off + n)) :
    paint c off n b = c := by
  have hl : b.length = n := by subst hb; rw [sl_length_of h]; omega
  rw [paint_eq hl, hb]
  have : c.take off = sl c 0 off := by simp [sl]
  rw [this, sl_append (by omega) (by omega)]
  simp [sl]

/-- Contiguous painting builds the record piece by piece. -/
theorem paint_step {pre c b : Bytes} {off n off' : Nat} (h1 : pre.length = off) (h2 : b.length = n)
    (h3 : off' = off + n) : paint (pre ++ c.drop off) off n b = (pre ++ b) ++ c.drop off' := by
  subst h1 h3
  rw [paint_eq h2, List.take_left, List.drop_append, List.drop_eq_nil_of_le (by omega)]
  simp

theorem append_eq_iff {a b c d : Bytes} (h : a.length = c.length) : a ++ b = c ++ d ↔ a = c ∧ b = d := by
  constructor
  · intro e; exact List.append_inj e h
  · rintro ⟨rfl, rfl⟩; rfl

/-- The painted region reads back. -/
theorem sl_paint_same {c b : Bytes} {off n : Nat} (h : off + n ≤ c.length) (hb : b.length = n) {hi : Nat}
    (hh : hi = off + n) : sl (paint c off n b) off hi = b := by
  have h1 : (c.take off).length = off := by rw [List.length_take]; omega
  rw [paint_eq hb, List.append_assoc, sl_append_right (by omega), h1, sl_append_left (by omega), hh]
  rw [Nat.sub_self]
  exact sl_full' (by omega)

/-- Other regions are untouched. -/
theorem sl_paint_other {c b : Bytes} {off n lo hi : Nat} (h : off + n ≤ c.length)
    (hh : hi ≤ off ∨ off + n ≤ lo) : sl (paint c off n b) lo hi = sl c lo hi := by
  unfold paint
  rcases hh with hh | hh
  · have h1 : (c.take off).length = off := by rw [List.length_take]; omega
    rw [List.append_assoc, sl_append_left (by omega)]
    unfold sl
    rw [List.take_take, Nat.min_eq_left hh]
  · have h1 : (c.take off ++ b.take n).length = off + min n b.length := by
      simp only [List.length_append, List.length_take]; omega
    rw [sl_append_right (by rw [h1]; omega), h1]
    unfold sl
    rw [List.take_drop, List.drop_drop]
    by_cases hz : off + min n b.length ≤ hi
    · congr 2 <;> omega
    · have e1 : (c.take (hi - (off + min n b.length) + (off + min n b.length))).drop
          (lo - (off + min n b.length) + (off + min n b.length)) = [] := by
        apply List.drop_eq_nil_of_le; rw [List.length_take]; omega
      have e2 : (c.take hi).drop lo = [] := by
        apply List.drop_eq_nil_of_le; rw [List.length_take]; omega
      rw [e2]
      apply List.drop_eq_nil_of_le; rw [List.length_take]; omega

theorem canvasNonEmpty_raw {d : Bytes} {n : Nat} (h : d.length = n) (h0 : 0 < n) :
    canvasNonEmpty (some d) n = .ok d := by
  simp [canvasNonEmpty, h, h0]

theorem canvasNonEmpty_length {raw : Option Bytes} {n : Nat} {c : Bytes}
    (h : canvasNonEmpty raw n = .ok c) : c.length = n := by
  unfold canvasNonEmpty at h
  dsimp only at h
  split at h
  · split at h
    · cases h
    · rename_i hh
      rw [Res.ok.injEq] at h; subst h; simpa using hh
  · rw [Res.ok.injEq] at h; subst h; simp

/-! ### enum bytes -/

theorem unrec_not_named {t : EnumTable} (ht : t ∈ allEnumTables) (h1 : (1, none) ∈ t) (b : UInt8) :
    unmarshalEnum t b ≠ .ok 1 := by
  intro h
  have := nodup_fst_unique (Ok_parts (enumTables_ok t ht)).1 (unmarshalEnum_ok h) h1
  cases this

theorem enumByte_roundtrip {t : EnumTable} (ht : t ∈ allEnumTables) (h1 : (1, none) ∈ t) (b : UInt8) :
    enumByte t (enumOrUnrecognized t b).1 (enumOrUnrecognized t b).2 = .ok b := by
  unfold enumByte enumOrUnrecognized
  cases h : unmarshalEnum t b with
  | ok v =>
    have hv : v ≠ enumUnrecognized := by
      intro e; subst e; exact unrec_not_named ht h1 b h
    simp only [hv, if_false]
    exact enum_decode_encode t ht b v h
  | err m => simp [i2b_toNat]
  | panic => simp [i2b_toNat]

theorem enumByteLax_roundtrip {t : EnumTable} (ht : t ∈ allEnumTables) (h1 : (1, none) ∈ t) (b : UInt8) :
    enumByteLax t (enumOrUnrecognized t b).1 (enumOrUnrecognized t b).2 = b := by
  have := enumByte_roundtrip ht h1 b
  unfold enumByte at this
  unfold enumByteLax
  split
  · rename_i h; rw [if_pos h, Res.ok.injEq] at this; exact this
  · rename_i h; rw [if_neg h] at this; rw [this]

theorem timeReal_slice {d : Bytes} {ts : Option Timestamp} (h : unmarshalTimeReal d = .ok ts) (dst : Bytes) :
    appendTimeReal dst ts = .ok (dst ++ d) := timeReal_roundtrip d dst ts h

theorem appendOdometer_eq (dst : Bytes) (x : Nat) : appendOdometer dst x = dst ++ beBytes 3 x := by
  unfold appendOdometer; rw [odometer_drop]

theorem odometer_slice {d : Bytes} (h : d.length = 3) : beBytes 3 (low 32 (beNat d : Int)) = d := by
  have := beNat_lt d
  rw [h] at this
  rw [low_nat _ _ (by omega), beBytes_beNat' h]

end Tacho
