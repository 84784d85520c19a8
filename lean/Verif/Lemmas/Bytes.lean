import Verif.Model.Basic
/-!
# Byte string lemmas
-/

namespace Tacho

@[simp] theorem toNat_ofNat_lt {n : Nat} (h : n < 256) : (UInt8.ofNat n).toNat = n := by
  simp [UInt8.toNat_ofNat']; omega

theorem byte_lt (b : UInt8) : b.toNat < 256 := by
  have := UInt8.toNat_lt b; simpa using this

theorem beNat_foldl (d : Bytes) (acc : Nat) :
    d.foldl (fun acc b => acc * 256 + b.toNat) acc = acc * 256 ^ d.length + beNat d := by
  unfold beNat
  induction d generalizing acc with
  | nil => simp
  | cons b t ih =>
    simp only [List.foldl_cons, List.length_cons]
    rw [ih, ih (0 * 256 + b.toNat)]
    rw [Nat.pow_succ]; simp only [Nat.zero_mul, Nat.zero_add, Nat.add_mul]
    rw [Nat.mul_comm (256 ^ t.length) 256, Nat.mul_assoc]; omega

@[simp] theorem beNat_nil : beNat [] = 0 := rfl

theorem beNat_cons (b : UInt8) (t : Bytes) : beNat (b :: t) = b.toNat * 256 ^ t.length + beNat t := by
  have := beNat_foldl t b.toNat
  unfold beNat at *
  simpa using this

theorem beNat_append (a b : Bytes) : beNat (a ++ b) = beNat a * 256 ^ b.length + beNat b := by
  unfold beNat
  rw [List.foldl_append, beNat_foldl]; rfl

theorem beNat_lt (d : Bytes) : beNat d < 256 ^ d.length := by
  induction d with
  | nil => simp
  | cons b t ih =>
    rw [beNat_cons, List.length_cons, Nat.pow_succ]
    have := byte_lt b
    have h2 : b.toNat * 256 ^ t.length ≤ 255 * 256 ^ t.length := Nat.mul_le_mul_right _ (by omega)
    omega

@[simp] theorem beBytes_length (k n : Nat) : (beBytes k n).length = k := by
  induction k with
  | zero => rfl
  | succ k ih => simp [beBytes, ih]

theorem beNat_beBytes (k n : Nat) : beNat (beBytes k n) = n % 256 ^ k := by
  induction k with
  | zero => simp [beBytes, Nat.mod_one]
  | succ k ih =>
    rw [beBytes, beNat_cons, ih, beBytes_length, toNat_ofNat_lt (Nat.mod_lt _ (by omega))]
    rw [Nat.pow_succ, Nat.mod_mul, Nat.mul_comm]; omega

theorem beNat_beBytes_of_lt {k n : Nat} (h : n < 256 ^ k) : beNat (beBytes k n) = n := by
  rw [beNat_beBytes, Nat.mod_eq_of_lt h]

theorem beBytes_mod (k n : Nat) : beBytes k (n % 256 ^ k) = beBytes k n := by
  induction k generalizing n with
  | zero => rfl
  | succ k ih =>
    rw [beBytes, beBytes]
    congr 1
    · congr 1
      rw [Nat.pow_succ, Nat.mod_mul_right_div_self, Nat.mod_mod]
    · rw [← ih (n % _), Nat.pow_succ, Nat.mod_mod_of_dvd _ ⟨256, rfl⟩, ih]

theorem beBytes_beNat (d : Bytes) : beBytes d.length (beNat d) = d := by
  induction d with
  | nil => rfl
  | cons b t ih =>
    have hlt := beNat_lt t
    have hb := byte_lt b
    have hpos : 0 < 256 ^ t.length := Nat.pow_pos (by omega)
    rw [List.length_cons, beBytes, beNat_cons]
    congr 1
    · rw [Nat.mul_comm, Nat.mul_add_div hpos, Nat.div_eq_of_lt hlt, Nat.add_zero,
        Nat.mod_eq_of_lt hb]
      exact UInt8.ofNat_toNat
    · rw [← beBytes_mod, Nat.mul_comm, Nat.mul_add_mod, Nat.mod_eq_of_lt hlt, ih]

theorem beBytes_beNat' {k : Nat} {d : Bytes} (h : d.length = k) : beBytes k (beNat d) = d := by
  subst h; exact beBytes_beNat d

@[simp] theorem beNat_beBytes_full {k : Nat} {d : Bytes} (h : d.length = k) :
    beNat d % 256 ^ k = beNat d := Nat.mod_eq_of_lt (by subst h; exact beNat_lt d)

/-! ### slices -/

theorem sl?_ok {d : Bytes} {lo hi : Nat} (h1 : lo ≤ hi) (h2 : hi ≤ d.length) :
    sl? d lo hi = .ok (sl d lo hi) := by simp [sl?, h1, h2]

theorem sl?_eq_ok {d : Bytes} {lo hi : Nat} {x : Bytes} (h : sl? d lo hi = .ok x) :
    lo ≤ hi ∧ hi ≤ d.length ∧ x = sl d lo hi := by
  unfold sl? at h; split at h
  · rename_i hh; cases h; exact ⟨hh.1, hh.2, rfl⟩
  · cases h

theorem at?_ok {d : Bytes} {i : Nat} (h : i < d.length) : at? d i = .ok d[i] := by
  simp [at?, h]

@[simp] theorem sl_length (d : Bytes) (lo hi : Nat) :
    (sl d lo hi).length = min hi d.length - lo := by simp [sl]

theorem sl_length_of {d : Bytes} {lo hi : Nat} (h : hi ≤ d.length) :
    (sl d lo hi).length = hi - lo := by simp [sl]; omega

theorem sl_append {d : Bytes} {a b c : Nat} (h1 : a ≤ b) (h2 : b ≤ c) :
    sl d a b ++ sl d b c = sl d a c := by
  unfold sl
  have : (d.take c).drop a = ((d.take c).take b ++ (d.take c).drop b).drop a := by
    rw [List.take_append_drop]
  rw [this, List.drop_append, List.take_take, Nat.min_eq_left h2]
  by_cases hb : b ≤ d.length
  · rw [List.length_take, Nat.min_eq_left hb]
    have : a - b = 0 := by omega
    rw [this]; simp
  · have e1 : (d.take c).drop b = [] := by
      apply List.drop_eq_nil_of_le; rw [List.length_take]; omega
    simp [e1]

theorem sl_append_assoc {d : Bytes} {a b c : Nat} (h1 : a ≤ b) (h2 : b ≤ c) (t : Bytes) :
    sl d a b ++ (sl d b c ++ t) = sl d a c ++ t := by
  rw [← List.append_assoc, sl_append h1 h2]

@[simp] theorem sl_full (d : Bytes) : sl d 0 d.length = d := by simp [sl]

theorem sl_full' {d : Bytes} {n : Nat} (h : d.length = n) : sl d 0 n = d := by subst h; simp

@[simp] theorem sl_self (d : Bytes) (a : Nat) : sl d a a = [] := by
  simp [sl]

theorem sl_to_end {d : Bytes} {a n : Nat} (h : d.length ≤ n) : sl d a n = d.drop a := by
  rw [sl, List.take_of_length_le h]

theorem sl_sl {d : Bytes} {a b lo hi : Nat} (h : a + hi ≤ b) :
    sl (sl d a b) lo hi = sl d (a + lo) (a + hi) := by
  unfold sl
  rw [List.take_drop, List.drop_drop, List.take_take]
  congr 2
  omega

theorem sl_eq_singleton {d : Bytes} {i : Nat} (h : i < d.length) : sl d i (i+1) = [d[i]] := by
  unfold sl
  rw [List.take_succ_eq_append_getElem h, List.drop_append]
  simp [Nat.min_eq_left (Nat.le_of_lt h)]

theorem sl_append_left {a b : Bytes} {lo hi : Nat} (h : hi ≤ a.length) :
    sl (a ++ b) lo hi = sl a lo hi := by
  unfold sl; rw [List.take_append_of_le_length h]

theorem sl_append_right {a b : Bytes} {lo hi : Nat} (h : a.length ≤ lo) :
    sl (a ++ b) lo hi = sl b (lo - a.length) (hi - a.length) := by
  unfold sl
  rw [List.take_append, List.drop_append]
  rw [List.drop_eq_nil_of_le (by rw [List.length_take]; omega)]
  by_cases hh : hi ≤ a.length
  · rw [List.length_take, Nat.min_eq_left hh]
    have : hi - a.length = 0 := by omega
    simp [this]
  · rw [List.length_take, Nat.min_eq_right (by omega)]; simp

@[simp] theorem zeros_length (n : Nat) : (zeros n).length = n := by simp [zeros]

end Tacho
