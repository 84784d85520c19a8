import Verif.Lemmas.Records
/-!
# Splitting a file into its fields, and loops over records
-/

namespace Tacho

theorem take_eq_sl (d : Bytes) (n : Nat) : d.take n = sl d 0 n := by simp [sl]

theorem drop_eq_sl (d : Bytes) (n : Nat) : d.drop n = sl d n d.length := by simp [sl]

/-- Joins adjacent slices `sl d a b ++ sl d b c ++ ...` from the left. -/
macro "join_slices" : tactic =>
  `(tactic| (try simp only [← List.append_assoc]
             repeat rw [sl_append (by omega) (by omega)]))

theorem be_slice {d : Bytes} {a b k : Nat} (h : b ≤ d.length) (hk : a + k = b) :
    beBytes k (low (8 * k) (beNat (sl d a b) : Int)) = sl d a b := by
  have hl : (sl d a b).length = k := by rw [sl_length_of h]; omega
  have := beNat_lt (sl d a b)
  rw [hl] at this
  rw [low_nat _ _ (by rw [Nat.pow_mul]; exact this), beBytes_beNat' hl]

theorem list2 {x : Bytes} (h : x.length = 2) : ∃ a b, x = [a, b] := by
  match x, h with
  | [a, b], _ => exact ⟨a, b, rfl⟩

theorem list4 {x : Bytes} (h : x.length = 4) : ∃ a b c e, x = [a, b, c, e] := by
  match x, h with
  | [a, b, c, e], _ => exact ⟨a, b, c, e, rfl⟩

end Tacho
