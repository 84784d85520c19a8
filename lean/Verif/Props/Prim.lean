import Verif.Lemmas.Prim
/-!
# Properties of the primitive data types (C13-C19, C44, C45)

Specification vocabulary: `beNat` is the big-endian number of a byte string, `IsBcd b` says both
hexadecimal digits of `b` are below ten, `Spec.decimal` is the number a digit list denotes.
-/

namespace Tacho

/-! ## C13: TimeReal -/

/-- C13: exactly the four byte strings are accepted; anything else is an error, never a panic. -/
theorem timeReal_accepts_iff (d : Bytes) : (∃ t, unmarshalTimeReal d = .ok t) ↔ d.length = 4 := by
  unfold unmarshalTimeReal
  by_cases h : d.length = 4
  · simp only [h, ne_eq, not_true_eq_false, if_false, iff_true]
    split <;> exact ⟨_, rfl⟩
  · simp [h]

theorem timeReal_no_panic (d : Bytes) : unmarshalTimeReal d ≠ .panic := by
  unfold unmarshalTimeReal; split
  · simp
  · dsimp only; split <;> simp

/-- C13: the decoded time is the big-endian number of seconds, zero meaning "no time". -/
theorem timeReal_value (d : Bytes) (h : d.length = 4) :
    unmarshalTimeReal d = .ok (if beNat d = 0 then none else some ⟨(beNat d : Int), 0⟩) := by
  unfold unmarshalTimeReal
  rw [if_neg (by omega)]
  dsimp only; split <;> rfl

/-- C13: decode then encode restores the bytes. -/
theorem timeReal_roundtrip (d dst : Bytes) (t : Option Timestamp)
    (h : unmarshalTimeReal d = .ok t) : appendTimeReal dst t = .ok (dst ++ d) := by
  have hl := (timeReal_accepts_iff d).mp ⟨t, h⟩
  rw [timeReal_value d hl] at h
  have hlt := beNat_lt d
  rw [hl] at hlt
  split at h <;> cases h
  · rename_i h0
    have : beBytes 4 0 = d := by rw [← h0]; exact beBytes_beNat' hl
    simp only [appendTimeReal, low]
    simp [this]
  · simp only [appendTimeReal]
    rw [low_nat 32 _ (by omega), beBytes_beNat' hl]
    simp

/-- C13: every whole-second time in 1..2^32-1 survives encode then decode. -/
theorem timeReal_encode_decode (s : Int) (h1 : 1 ≤ s) (h2 : s < 2 ^ 32) (dst : Bytes) :
    ∃ e, appendTimeReal dst (some ⟨s, 0⟩) = .ok (dst ++ e) ∧
      unmarshalTimeReal e = .ok (some ⟨s, 0⟩) := by
  obtain ⟨n, rfl⟩ : ∃ n : Nat, s = n := ⟨s.toNat, by omega⟩
  refine ⟨beBytes 4 n, ?_, ?_⟩
  · simp only [appendTimeReal]
    rw [low_nat 32 n (by omega)]; simp
  · rw [timeReal_value _ (by simp), beNat_beBytes_of_lt (by omega)]
    rw [if_neg (by omega)]

/-- C13: fractional seconds are refused. -/
theorem timeReal_nanos (dst : Bytes) (t : Timestamp) (h : t.nanos > 0) :
    ∃ m, appendTimeReal dst (some t) = .err m := by
  simp [appendTimeReal, h]

/-- C13: a time out of range is silently reduced modulo 2^32. -/
theorem timeReal_wraps (dst : Bytes) (s k n : Int) (h : n ≤ 0) :
    appendTimeReal dst (some ⟨s + k * 2 ^ 32, n⟩) = appendTimeReal dst (some ⟨s, n⟩) := by
  simp only [appendTimeReal, low]
  rw [Int.add_mul_emod_self_right]

example : appendTimeReal [7] (some ⟨2 ^ 32 + 5, 0⟩) = .ok [7, 0, 0, 0, 5] := by decide
example : unmarshalTimeReal [0x60, 1, 2, 3] = .ok (some ⟨1610678787, 0⟩) := by decide

/-! ## C14: odometer -/

/-- C14: exactly the three byte strings are accepted, with their big-endian value. -/
theorem odometer_accepts_iff (d : Bytes) (v : Nat) :
    unmarshalOdometer d = .ok v ↔ d.length = 3 ∧ v = beNat d := by
  unfold unmarshalOdometer
  by_cases h : d.length = 3 <;> simp [h, eq_comm]

theorem odometer_drop (n : Nat) : (beBytes 4 n).drop 1 = beBytes 3 n := by
  simp [beBytes]

/-- C14: decode then encode restores the bytes. -/
theorem odometer_roundtrip (d dst : Bytes) (v : Nat) (h : unmarshalOdometer d = .ok v) :
    appendOdometer dst v = dst ++ d := by
  obtain ⟨hl, rfl⟩ := (odometer_accepts_iff d v).mp h
  rw [appendOdometer, odometer_drop, beBytes_beNat' hl]

/-- C14: encode then decode is reduction modulo 2^24; in particular the identity below 2^24. -/
theorem odometer_encode_decode (v : Nat) (dst : Bytes) :
    ∃ e, appendOdometer dst v = dst ++ e ∧ unmarshalOdometer e = .ok (v % 2 ^ 24) := by
  refine ⟨beBytes 3 v, by rw [appendOdometer, odometer_drop], ?_⟩
  rw [odometer_accepts_iff]
  refine ⟨by simp, ?_⟩
  rw [beNat_beBytes]

example : appendOdometer [] 123456 = [0x01, 0xE2, 0x40] := by decide

/-! ## C15: BCD -/

namespace Spec
/-- The number denoted by decimal digits, most significant first: the last digit counts ones. -/
def decimal : List Nat → Nat
  | [] => 0
  | d :: t => d * 10 ^ t.length + decimal t

/-- The hexadecimal digits of a byte string, high digit of each byte first. -/
def hexDigits : Bytes → List Nat
  | [] => []
  | b :: t => b.toNat / 16 :: b.toNat % 16 :: hexDigits t
end Spec

theorem decimal_eq (ds : List Nat) : Spec.decimal ds = digVal ds := by
  induction ds with
  | nil => rfl
  | cons d t ih => rw [Spec.decimal, digVal_cons, ih]

theorem hexDigits_eq (b : Bytes) : Spec.hexDigits b = nibbles b := by
  induction b with
  | nil => rfl
  | cons d t ih => rw [Spec.hexDigits, nibbles_cons, ih]

/-- C15: decoding succeeds with `v` exactly when all nibbles are decimal digits, `v` is the number
they denote, and it fits a signed 64 bit integer. -/
theorem bcd_decode_iff (b : Bytes) (v : Nat) : decodeBCD b = .ok v ↔
    (∀ n ∈ Spec.hexDigits b, n < 10) ∧ v = Spec.decimal (Spec.hexDigits b) ∧ v < 2 ^ 63 := by
  rw [hexDigits_eq, decimal_eq]
  unfold decodeBCD
  cases b with
  | nil =>
    have : (0:Nat) < 2 ^ 63 := by omega
    simp only [List.length_nil, if_true, nibbles, List.flatMap_nil, digVal, List.foldl_nil]
    constructor
    · rintro h; cases h; exact ⟨by simp, rfl, this⟩
    · rintro ⟨_, rfl, _⟩; rfl
  | cons x t =>
    simp only [List.length_cons, Nat.add_eq_zero_iff, Nat.succ_ne_self, and_false, if_false]
    by_cases ha : (nibbles (x :: t)).all (· < 10) = true
    · rw [if_pos ha]
      simp only [List.all_eq_true, decide_eq_true_eq] at ha
      change (if digVal (nibbles (x :: t)) < 2 ^ 63 then _ else _) = _ ↔ _
      split
      · rename_i hlt
        constructor
        · rintro h; cases h; exact ⟨ha, rfl, hlt⟩
        · rintro ⟨_, rfl, _⟩; rfl
      · rename_i hlt
        constructor
        · rintro h; cases h
        · rintro ⟨_, rfl, h⟩; exact absurd h hlt
    · rw [if_neg ha]
      simp only [List.all_eq_true, decide_eq_true_eq] at ha
      constructor
      · rintro h; cases h
      · rintro ⟨h, _, _⟩; exact absurd h ha

theorem bcd_no_panic (b : Bytes) : decodeBCD b ≠ .panic := by
  unfold decodeBCD; split
  · simp
  · split
    · dsimp only; split <;> simp
    · simp

/-- C15: decode then encode with the same number of bytes restores the bytes. -/
theorem bcd_roundtrip (b dst : Bytes) (v : Nat) (hne : b ≠ []) (h : decodeBCD b = .ok v) :
    appendBCD dst v b.length = .ok (dst ++ b) := by
  obtain ⟨hd, hv, _⟩ := (bcd_decode_iff b v).mp h
  rw [hexDigits_eq] at hd hv
  rw [decimal_eq] at hv
  have hlen := nibbles_length b
  have hpos : 0 < b.length * 2 := by
    have := List.length_pos_iff.mpr hne; omega
  have hlt : v < 10 ^ (b.length * 2) := by rw [hv, ← hlen]; exact digVal_lt _ hd
  have hs := (itoa_length_le v _ hpos).mpr hlt
  unfold appendBCD
  rw [if_neg (by omega)]
  dsimp only
  rw [Int.toNat_natCast, if_neg (by omega)]
  congr 2
  have : List.replicate (b.length * 2 - (itoa v).length) 0 ++ itoa v = nibbles b := by
    apply digVal_inj
    · simp; omega
    · intro d hdm
      rw [List.mem_append] at hdm
      rcases hdm with h1 | h1
      · have := (List.mem_replicate.mp h1).2; omega
      · exact itoa_lt10 v d h1
    · exact hd
    · rw [digVal_zeros, digVal_itoa, hv]
  rw [this, packDigits_nibbles]

/-- C15: encoding succeeds exactly when the value is non-negative and fits the digits available;
then exactly `k` bytes are appended, and they decode to the value. -/
theorem bcd_encode_iff (dst : Bytes) (v : Int) (k : Nat) (hk : 0 < k) :
    (∃ out, appendBCD dst v k = .ok out) ↔ 0 ≤ v ∧ v < 10 ^ (2 * k) := by
  unfold appendBCD
  by_cases h0 : v < 0
  · rw [if_pos h0]; constructor
    · rintro ⟨_, h⟩; cases h
    · intro h; omega
  · rw [if_neg h0]
    obtain ⟨n, rfl⟩ : ∃ n : Nat, v = n := ⟨v.toNat, by omega⟩
    have hl := itoa_length_le n (k * 2) (by omega)
    have hcast : ((n : Int) < 10 ^ (2 * k)) ↔ n < 10 ^ (k * 2) := by
      rw [Nat.mul_comm]
      have : (10 : Int) ^ (k * 2) = ((10 ^ (k * 2) : Nat) : Int) := by simp
      rw [this]; omega
    rw [hcast, ← hl]
    dsimp only
    rw [Int.toNat_natCast]
    by_cases hg : (itoa n).length > k * 2
    · rw [if_pos hg]; constructor
      · rintro ⟨_, h⟩; cases h
      · intro h; omega
    · rw [if_neg hg]
      constructor
      · intro _; omega
      · intro _; exact ⟨_, rfl⟩

theorem bcd_encode_decode (dst out : Bytes) (v : Int) (k : Nat) (h : appendBCD dst v k = .ok out) :
    ∃ e, out = dst ++ e ∧ e.length = k ∧ (v < 2 ^ 63 → decodeBCD e = .ok v.toNat) := by
  unfold appendBCD at h
  split at h
  · cases h
  · dsimp only at h
    split at h
    · cases h
    · rename_i h0 hl
      cases h
      obtain ⟨p1, p2⟩ := nibbles_packDigits
        (List.replicate (k * 2 - (itoa v.toNat).length) 0 ++ itoa v.toNat) k (by simp; omega)
        (by
          intro d hdm
          rw [List.mem_append] at hdm
          rcases hdm with h1 | h1
          · have := (List.mem_replicate.mp h1).2; omega
          · exact itoa_lt10 _ d h1)
      refine ⟨_, rfl, p2, fun hv => ?_⟩
      rw [bcd_decode_iff, hexDigits_eq, decimal_eq, p1, digVal_zeros, digVal_itoa]
      refine ⟨?_, rfl, by omega⟩
      intro d hdm
      rw [List.mem_append] at hdm
      rcases hdm with h1 | h1
      · have := (List.mem_replicate.mp h1).2; omega
      · exact itoa_lt10 _ d h1

/-- C15 for the `BcdString` message: up to four bytes (eight digits, which fit the int32 field)
decode then encode restores the bytes. -/
theorem bcdString_roundtrip (b dst : Bytes) (s : BcdString) (hl : b.length ≤ 4)
    (h : unmarshalBcdString b = .ok s) : appendBcdString dst (some s) = .ok (dst ++ b) := by
  unfold unmarshalBcdString at h
  by_cases h0 : b.length = 0
  · simp [h0] at h
  · simp only [h0, if_false, Res.pure_eq, Res.bind_ok] at h
    rw [bind_eq_ok] at h
    obtain ⟨v, hv, hs⟩ := h
    rw [Res.ok.injEq] at hs
    subst hs
    have hne : b ≠ [] := fun e => h0 (by simp [e])
    have hr := bcd_roundtrip b dst v hne hv
    have hlt : v < 10 ^ 8 := by
      obtain ⟨hd, hv', _⟩ := (bcd_decode_iff b v).mp hv
      rw [hexDigits_eq] at hd hv'
      rw [decimal_eq] at hv'
      have := digVal_lt _ hd
      rw [nibbles_length] at this
      have h2 : 10 ^ (b.length * 2) ≤ 10 ^ 8 := Nat.pow_le_pow_right (by omega) (by omega)
      omega
    simp only [appendBcdString]
    rw [wrap32_id (x := (v : Int)) (by omega) (by omega),
      wrap32_id (x := (b.length : Int)) (by omega) (by omega)]
    rw [if_neg (by omega), if_neg (by omega), Int.toNat_natCast]
    exact hr

/-- C15: for any number of bytes, decode then encode restores the bytes exactly when the number they denote fits the int32 field.
(The length bound is the int32 range of the length field.) -/
theorem bcdString_roundtrip_iff (b dst : Bytes) (s : BcdString) (hl : b.length < 2 ^ 31)
    (h : unmarshalBcdString b = .ok s) :
    appendBcdString dst (some s) = .ok (dst ++ b) ↔ Spec.decimal (Spec.hexDigits b) < 2 ^ 31 := by
  unfold unmarshalBcdString at h
  by_cases h0 : b.length = 0
  · simp [h0] at h
  · simp only [h0, if_false, Res.pure_eq, Res.bind_ok] at h
    rw [bind_eq_ok] at h
    obtain ⟨v, hv, hs⟩ := h
    rw [Res.ok.injEq] at hs
    subst hs
    have hne : b ≠ [] := fun e => h0 (by simp [e])
    obtain ⟨-, hv', hv63⟩ := (bcd_decode_iff b v).mp hv
    rw [← hv']
    simp only [appendBcdString]
    rw [wrap32_id (x := (b.length : Int)) (by omega) (by omega), if_neg (c := (b.length : Int) ≤ 0) (by omega), Int.toNat_natCast]
    constructor
    · intro ha
      split at ha
      · cases ha
      · rename_i hnn
        obtain ⟨e, he, -, hd⟩ := bcd_encode_decode dst _ _ _ ha
        rw [List.append_cancel_left_eq] at he
        subst he
        have hb : -2 ^ 31 ≤ wrap32 v ∧ wrap32 v < 2 ^ 31 := by unfold wrap32; omega
        have := hd (by omega)
        rw [hv, Res.ok.injEq] at this
        omega
    · intro hlt
      rw [wrap32_id (x := (v : Int)) (by omega) (by omega), if_neg (by omega)]
      exact bcd_roundtrip b dst v hne hv

/-- C15: with five bytes the value no longer fits the int32 field and the bytes are lost. -/
theorem bcdString_five_bytes_lost :
    unmarshalBcdString [0x42, 0x94, 0x96, 0x72, 0x96] = .ok ⟨0, 5⟩ ∧
    appendBcdString [] (some ⟨0, 5⟩) = .ok [0, 0, 0, 0, 0] := by
  constructor
  · decide
  · simp [appendBcdString, appendBCD, itoa, packDigits, List.replicate]

example : decodeBCD [0x12, 0x34] = .ok 1234 := by decide
example : decodeBCD [0x1A] = .err "invalid BCD value" := by decide

/-! ## C16: coordinates -/

/-- C16: six byte strings are accepted; each half is read as a two's complement 24 bit number:
congruent to the unsigned value and in the signed range. -/
theorem readInt24_spec (b : Bytes) (h : b.length = 3) :
    -2 ^ 23 ≤ readInt24 b ∧ readInt24 b < 2 ^ 23 ∧ readInt24 b % 2 ^ 24 = beNat b := by
  have := beNat_lt b
  rw [h] at this
  unfold readInt24
  dsimp only
  split <;> omega

theorem geo_accepts_iff (d : Bytes) (g : GeoCoordinates) : unmarshalGeoCoordinates d = .ok g ↔
    d.length = 6 ∧ g = ⟨readInt24 (d.take 3), readInt24 (d.drop 3)⟩ := by
  unfold unmarshalGeoCoordinates
  by_cases h : d.length = 6
  · simp only [h, ne_eq, not_true_eq_false, if_false, Res.pure_eq, Res.bind_ok, true_and]
    rw [sl?_ok (by omega) (by omega), sl?_ok (by omega) (by omega)]
    simp only [Res.bind_ok]
    have e1 : sl d 0 3 = d.take 3 := by simp [sl]
    have e2 : sl d 3 6 = d.drop 3 := by
      unfold sl; rw [List.take_of_length_le (by omega)]
    rw [e1, e2]
    simp [eq_comm]
  · simp [h]

theorem appendInt24_readInt24 (b dst : Bytes) (h : b.length = 3) :
    appendInt24 dst (readInt24 b) = dst ++ b := by
  unfold appendInt24 low
  rw [(readInt24_spec b h).2.2, Int.toNat_natCast, beBytes_beNat' h]

/-- C16: decode then encode restores the six bytes. -/
theorem geo_roundtrip (d dst : Bytes) (g : GeoCoordinates) (h : unmarshalGeoCoordinates d = .ok g) :
    appendGeoCoordinates dst g = .ok (dst ++ d) := by
  obtain ⟨hl, rfl⟩ := (geo_accepts_iff d g).mp h
  unfold appendGeoCoordinates
  rw [appendInt24_readInt24 _ _ (by simp; omega), appendInt24_readInt24 _ _ (by simp; omega)]
  simp

theorem readInt24_appendInt24 (v : Int) (h1 : -2 ^ 23 ≤ v) (h2 : v < 2 ^ 23) :
    readInt24 (appendInt24 [] v) = v := by
  unfold appendInt24 readInt24 low
  rw [List.nil_append, beNat_beBytes_of_lt (by omega)]
  dsimp only
  split <;> omega

/-- C16: every pair of coordinates in [-2^23, 2^23) survives encode then decode. -/
theorem geo_encode_decode (a b : Int) (ha1 : -2 ^ 23 ≤ a) (ha2 : a < 2 ^ 23) (hb1 : -2 ^ 23 ≤ b)
    (hb2 : b < 2 ^ 23) (dst : Bytes) :
    ∃ e, appendGeoCoordinates dst ⟨a, b⟩ = .ok (dst ++ e) ∧ unmarshalGeoCoordinates e = .ok ⟨a, b⟩ := by
  refine ⟨appendInt24 [] a ++ appendInt24 [] b, ?_, ?_⟩
  · simp [appendGeoCoordinates, appendInt24]
  · rw [geo_accepts_iff]
    have hl : (appendInt24 [] a).length = 3 := by simp [appendInt24]
    refine ⟨by simp [appendInt24], ?_⟩
    have e1 : (appendInt24 [] a ++ appendInt24 [] b).take 3 = appendInt24 [] a := by
      rw [← hl]; exact List.take_left
    have e2 : (appendInt24 [] a ++ appendInt24 [] b).drop 3 = appendInt24 [] b := by
      rw [← hl]; exact List.drop_left
    rw [e1, e2, readInt24_appendInt24 a ha1 ha2, readInt24_appendInt24 b hb1 hb2]

example : unmarshalGeoCoordinates [0xFF, 0xFF, 0xFF, 0, 0, 2] = .ok ⟨-1, 2⟩ := by decide

/-! ## C17: ActivityChangeInfo -/

/-- Enum numbers of the slot and activity bit fields. -/
theorem aci_slot (k : Nat) (h : k < 2) :
    unmarshalEnum cardSlotNumberTable (UInt8.ofNat k) = .ok ((k : Int) + 2) := by
  have : ∀ k : Fin 2, unmarshalEnum cardSlotNumberTable (UInt8.ofNat k.val) = .ok ((k.val : Int) + 2) := by
    decide
  exact this ⟨k, h⟩

theorem aci_activity (k : Nat) (h : k < 4) :
    unmarshalEnum driverActivityValueTable (UInt8.ofNat k) = .ok ((k : Int) + 2) := by
  have : ∀ k : Fin 4, unmarshalEnum driverActivityValueTable (UInt8.ofNat k.val) = .ok ((k.val : Int) + 2) := by
    decide
  exact this ⟨k, h⟩

theorem aci_slot' (k : Nat) (h : k < 2) :
    marshalEnum cardSlotNumberTable ((k : Int) + 2) = .ok (UInt8.ofNat k) := by
  have : ∀ k : Fin 2, marshalEnum cardSlotNumberTable ((k.val : Int) + 2) = .ok (UInt8.ofNat k.val) := by
    decide
  exact this ⟨k, h⟩

theorem aci_activity' (k : Nat) (h : k < 4) :
    marshalEnum driverActivityValueTable ((k : Int) + 2) = .ok (UInt8.ofNat k) := by
  have : ∀ k : Fin 4, marshalEnum driverActivityValueTable ((k.val : Int) + 2) = .ok (UInt8.ofNat k.val) := by
    decide
  exact this ⟨k, h⟩

namespace Spec
/-- The bit fields `scpaattttttttttt` of the regulation (Appendix 1, 2.1): slot, driving status,
card status, activity, minutes. -/
structure AciBits where
  s : Nat
  c : Nat
  p : Nat
  aa : Nat
  t : Nat

def AciBits.Valid (x : AciBits) : Prop := x.s < 2 ∧ x.c < 2 ∧ x.p < 2 ∧ x.aa < 4 ∧ x.t < 2048

/-- The two bytes. -/
def AciBits.word (x : AciBits) : Nat := x.s * 32768 + x.c * 16384 + x.p * 8192 + x.aa * 2048 + x.t

/-- The message: slot enum 2 = driver, 3 = co-driver; activity enum 2..5 = break, availability,
work, driving; a card is inserted when `p` is 0. -/
def AciBits.message (x : AciBits) (raw : Option Bytes) : ActivityChangeInfo :=
  { rawData := raw, slot := x.s + 2, crew := x.c == 1, inserted := x.p == 0,
    activity := x.aa + 2, timeOfChangeMinutes := x.t }
end Spec

/-- C17: every two byte input decodes, to the bit fields of the regulation. -/
theorem aci_decode (x : Spec.AciBits) (hx : x.Valid) (d : Bytes) (hl : d.length = 2)
    (hd : beNat d = x.word) : unmarshalActivityChangeInfo d = .ok (x.message (some d)) := by
  obtain ⟨hs, hc, hp, ha, ht⟩ := hx
  unfold Spec.AciBits.word at hd
  have e1 : beNat d / 2 ^ 15 % 2 = x.s := by omega
  have e2 : beNat d / 2 ^ 14 % 2 = x.c := by omega
  have e3 : beNat d / 2 ^ 13 % 2 = x.p := by omega
  have e4 : beNat d / 2 ^ 11 % 4 = x.aa := by omega
  have e5 : beNat d % 2 ^ 11 = x.t := by omega
  unfold unmarshalActivityChangeInfo Spec.AciBits.message
  simp only [hl, ne_eq, not_true_eq_false, if_false, Res.pure_eq, Res.bind_ok, e1, e2, e3, e4, e5,
    aci_slot _ hs, aci_activity _ ha]

/-- Every two byte input is the word of some bit fields. -/
theorem aci_bits (d : Bytes) (hl : d.length = 2) :
    ∃ x : Spec.AciBits, x.Valid ∧ beNat d = x.word := by
  have := beNat_lt d
  rw [hl] at this
  refine ⟨⟨beNat d / 2 ^ 15 % 2, beNat d / 2 ^ 14 % 2, beNat d / 2 ^ 13 % 2, beNat d / 2 ^ 11 % 4,
    beNat d % 2 ^ 11⟩, ?_, ?_⟩
  · simp only [Spec.AciBits.Valid]; omega
  · simp only [Spec.AciBits.word]; omega

theorem aci_accepts_iff (d : Bytes) : (∃ m, unmarshalActivityChangeInfo d = .ok m) ↔ d.length = 2 := by
  constructor
  · rintro ⟨m, h⟩
    by_cases hl : d.length = 2
    · exact hl
    · simp [unmarshalActivityChangeInfo, hl] at h
  · intro hl
    obtain ⟨x, hx, hd⟩ := aci_bits d hl
    exact ⟨_, aci_decode x hx d hl hd⟩

/-- C17: encoding the message of any valid bit fields writes their word, with or without (two byte)
raw data. -/
theorem aci_encode (x : Spec.AciBits) (hx : x.Valid) (raw : Option Bytes)
    (hr : ∀ r, raw = some r → r.length = 2) (dst : Bytes) :
    appendActivityChangeInfo dst (x.message raw) = .ok (dst ++ beBytes 2 x.word) := by
  obtain ⟨hs, hc, hp, ha, ht⟩ := hx
  have hcan : ∃ c, canvasOf raw 2 = .ok c := by
    cases raw with
    | none => exact ⟨_, rfl⟩
    | some r => simp [canvasOf, hr r rfl]
  obtain ⟨cv, hcan⟩ := hcan
  unfold appendActivityChangeInfo Spec.AciBits.message
  simp only [hcan, Res.bind_ok, aci_slot' _ hs, aci_activity' _ ha, Res.pure_eq]
  have n1 : (UInt8.ofNat x.s).toNat = x.s := toNat_ofNat_lt (by omega)
  have n2 : (UInt8.ofNat x.aa).toNat = x.aa := toNat_ofNat_lt (by omega)
  have n3 : low 16 (x.t : Int) = x.t := low_nat 16 _ (by omega)
  have e1 : (if (x.c == 1) = true then 1 else 0) = x.c := by
    by_cases h : x.c = 1
    · simp [h]
    · have : x.c = 0 := by omega
      simp [this]
  have e2 : (if (x.p == 0) = true then 0 else 1) = x.p := by
    by_cases h : x.p = 0
    · simp [h]
    · have : x.p = 1 := by omega
      simp [this]
  rw [n1, n2, n3, e1, e2]
  have : x.s % 2 * 2 ^ 15 + x.c * 2 ^ 14 + x.p * 2 ^ 13 + x.aa % 4 * 2 ^ 11 + x.t % 2 ^ 11 = x.word := by
    unfold Spec.AciBits.word; omega
  rw [this]

/-- C17: decode then encode is the identity on all two byte inputs. -/
theorem aci_roundtrip (d dst : Bytes) (m : ActivityChangeInfo)
    (h : unmarshalActivityChangeInfo d = .ok m) : appendActivityChangeInfo dst m = .ok (dst ++ d) := by
  have hl := (aci_accepts_iff d).mp ⟨m, h⟩
  obtain ⟨x, hx, hd⟩ := aci_bits d hl
  rw [aci_decode x hx d hl hd] at h
  cases h
  rw [aci_encode x hx (some d) (by rintro r ⟨rfl⟩; exact hl), ← hd, beBytes_beNat' hl]

/-- C17: every field combination survives encode then decode (raw data is filled in). -/
theorem aci_encode_decode (x : Spec.AciBits) (hx : x.Valid) (dst : Bytes) :
    ∃ e, appendActivityChangeInfo dst (x.message none) = .ok (dst ++ e) ∧
      unmarshalActivityChangeInfo e = .ok (x.message (some e)) := by
  refine ⟨beBytes 2 x.word, aci_encode x hx none (by simp) dst, ?_⟩
  apply aci_decode x hx _ (by simp)
  obtain ⟨hs, hc, hp, ha, ht⟩ := hx
  apply beNat_beBytes_of_lt
  unfold Spec.AciBits.word; omega

example : (⟨1, 0, 1, 3, 600⟩ : Spec.AciBits).Valid := by simp [Spec.AciBits.Valid]
example : unmarshalActivityChangeInfo [0xBA, 0x58] = .ok ⟨some [0xBA, 0x58], 3, false, false, 5, 600⟩ := by
  decide

/-- C40 for activity changes: the anonymised entry depends on the position and on the retained
fields only, never on the time of change or the raw bytes. -/
theorem aci_anonymize_noninterference (x y : ActivityChangeInfo) (i : Nat)
    (h : x.slot = y.slot ∧ x.crew = y.crew ∧ x.inserted = y.inserted ∧ x.activity = y.activity) :
    anonymizeActivityChangeInfo x i = anonymizeActivityChangeInfo y i := by
  simp [anonymizeActivityChangeInfo, h]

/-- C40 for activity changes: the anonymised time is a valid minute of the day. -/
theorem aci_anonymize_time (x : ActivityChangeInfo) (i : Nat) :
    0 ≤ (anonymizeActivityChangeInfo x i).timeOfChangeMinutes ∧
    (anonymizeActivityChangeInfo x i).timeOfChangeMinutes < 1440 ∧
    (anonymizeActivityChangeInfo x i).rawData = none := by
  simp only [anonymizeActivityChangeInfo, and_true]
  omega

/-! ## C18: enums -/

/-- C18: a decoded byte encodes to itself. -/
theorem enum_decode_encode (t : EnumTable) (ht : t ∈ allEnumTables) (b : UInt8) (v : Int)
    (h : unmarshalEnum t b = .ok v) : marshalEnum t v = .ok b :=
  enum_roundtrip (enumTables_ok t ht) h

/-- C18: an encoded value decodes to itself. -/
theorem enum_encode_decode (t : EnumTable) (ht : t ∈ allEnumTables) (b : UInt8) (v : Int)
    (h : marshalEnum t v = .ok b) : unmarshalEnum t b = .ok v :=
  enum_roundtrip' (enumTables_ok t ht) h

/-- C18: distinct named values have distinct protocol bytes. -/
theorem enum_injective (t : EnumTable) (ht : t ∈ allEnumTables) (v w : Int) (b : UInt8)
    (hv : marshalEnum t v = .ok b) (hw : marshalEnum t w = .ok b) : v = w := by
  have h1 := enum_encode_decode t ht b v hv
  rw [enum_encode_decode t ht b w hw] at h1
  cases h1; rfl

/-- C18: a byte is accepted exactly when some declared value carries it; otherwise it is an error,
never a named value and never a panic. -/
theorem enum_accepts_iff (t : EnumTable) (b : UInt8) :
    (∃ v, unmarshalEnum t b = .ok v) ↔ ∃ v, (v, some b.toNat) ∈ t := by
  constructor
  · rintro ⟨v, h⟩; exact ⟨v, unmarshalEnum_ok h⟩
  · rintro ⟨v, h⟩
    unfold unmarshalEnum
    cases hf : t.find? (fun p => p.2 == some b.toNat) with
    | none =>
      rw [List.find?_eq_none] at hf
      have := hf _ h
      simp at this
    | some p => exact ⟨_, rfl⟩

/-- C18: UNSPECIFIED (0) is never produced by decoding. -/
theorem enum_never_unspecified (t : EnumTable) (ht : t ∈ allEnumTables) (b : UInt8) :
    unmarshalEnum t b ≠ .ok 0 := by
  have key : ∀ t ∈ allEnumTables, ∀ v, (0, some v) ∉ t := by
    have : ∀ t ∈ allEnumTables, (0, none) ∈ t := by decide +kernel
    intro t ht v hv
    have := nodup_fst_unique (Ok_parts (enumTables_ok t ht)).1 hv (this t ht)
    cases this
  intro h
  exact key t ht _ (unmarshalEnum_ok h)

example : unmarshalEnum equipmentTypeTable 1 = .ok equipmentType_driverCard := by decide

/-! ## C19: dates -/

theorem tdiv_nat (a b : Nat) : (a : Int).tdiv (b : Int) = ((a / b : Nat) : Int) := rfl
theorem tmod_nat (a b : Nat) : (a : Int).tmod (b : Int) = ((a % b : Nat) : Int) := rfl

/-- Packing the last two decimal digits of a number. -/
theorem packNib_nat (n : Nat) :
    packNib (((n : Int).tdiv 10).tmod 10) ((n : Int).tmod 10) = UInt8.ofNat (n / 10 % 10 * 16 + n % 10) :=
  packNib_eq (a := n / 10 % 10) (b := n % 10) (by omega) (by omega)

theorem packNib_isBcd {a b : Nat} (ha : a < 10) (hb : b < 10) : IsBcd (UInt8.ofNat (a * 16 + b)) := by
  unfold IsBcd
  rw [toNat_ofNat_lt (by omega)]; omega

theorem isBcd_eq {b : UInt8} {x y : Nat} (hx : x = b.toNat / 16) (hy : y = b.toNat % 16) :
    UInt8.ofNat (x * 16 + y) = b := by
  subst hx hy; exact ofNat_nibbles b

theorem bcd2_pack (b : UInt8) : packNib (((bcd2 b).tdiv 10).tmod 10) ((bcd2 b).tmod 10) = b ↔ IsBcd b := by
  unfold bcd2
  rw [packNib_nat]
  constructor
  · intro h; rw [← h]; exact packNib_isBcd (by omega) (by omega)
  · intro h; unfold IsBcd at h; exact isBcd_eq (by omega) (by omega)

/-- Without the final `% 10` on the tens digit, the high nibble survives even when it is no
decimal digit. -/
theorem bcd2_pack' (b : UInt8) :
    packNib ((bcd2 b).tdiv 10) ((bcd2 b).tmod 10) = b ↔ b.toNat % 16 < 10 := by
  revert b
  apply forall_byte
  decide +kernel

/-- C19: `Datef` decodes every four byte input; encoding restores the bytes exactly when all of
them are BCD. -/
theorem date_roundtrip_iff (b0 b1 b2 b3 : UInt8) (dst : Bytes) :
    (∃ m, unmarshalDate [b0, b1, b2, b3] = .ok m ∧ appendDate dst m = .ok (dst ++ [b0, b1, b2, b3])) ↔
      IsBcd b0 ∧ IsBcd b1 ∧ IsBcd b2 ∧ IsBcd b3 := by
  have hu : unmarshalDate [b0, b1, b2, b3] = .ok ⟨some [b0, b1, b2, b3],
      (b0.toNat / 16 * 1000 + b0.toNat % 16 * 100 + b1.toNat / 16 * 10 + b1.toNat % 16 : Nat),
      bcd2 b2, bcd2 b3⟩ := rfl
  rw [hu]
  simp only [Res.ok.injEq, exists_eq_left', appendDate, canvasOf, List.length_cons, List.length_nil,
    ne_eq, not_true_eq_false, if_false, Res.bind_ok, Res.pure_eq, List.append_cancel_left_eq,
    List.cons.injEq, and_true, bcd2_pack]
  generalize hy : (b0.toNat / 16 * 1000 + b0.toNat % 16 * 100 + b1.toNat / 16 * 10 + b1.toNat % 16) = y
  have p1 : packNib (((y : Int).tdiv 1000).tmod 10) (((y : Int).tdiv 100).tmod 10)
      = UInt8.ofNat (y / 1000 % 10 * 16 + y / 100 % 10) :=
    packNib_eq (a := y / 1000 % 10) (b := y / 100 % 10) (by omega) (by omega)
  have p2 := packNib_nat y
  rw [p1, p2]
  constructor
  · rintro ⟨h0, h1, h2, h3⟩
    refine ⟨?_, ?_, h2, h3⟩
    · rw [← h0]; exact packNib_isBcd (by omega) (by omega)
    · rw [← h1]; exact packNib_isBcd (by omega) (by omega)
  · rintro ⟨h0, h1, h2, h3⟩
    refine ⟨?_, ?_, h2, h3⟩
    · unfold IsBcd at h0 h1; exact isBcd_eq (by omega) (by omega)
    · unfold IsBcd at h0 h1; exact isBcd_eq (by omega) (by omega)

/-- C19: a calendar value with year below 10000 and two digit month and day survives encode then
decode. -/
theorem date_encode_decode (y m d : Nat) (hy : y < 10000) (hm : m < 100) (hd : d < 100) (dst : Bytes) :
    ∃ e, appendDate dst ⟨none, y, m, d⟩ = .ok (dst ++ e) ∧ unmarshalDate e = .ok ⟨some e, y, m, d⟩ := by
  refine ⟨[UInt8.ofNat (y / 1000 % 10 * 16 + y / 100 % 10), UInt8.ofNat (y / 10 % 10 * 16 + y % 10),
    UInt8.ofNat (m / 10 % 10 * 16 + m % 10), UInt8.ofNat (d / 10 % 10 * 16 + d % 10)], ?_, ?_⟩
  · have p1 : packNib (((y : Int).tdiv 1000).tmod 10) (((y : Int).tdiv 100).tmod 10)
      = UInt8.ofNat (y / 1000 % 10 * 16 + y / 100 % 10) :=
      packNib_eq (a := y / 1000 % 10) (b := y / 100 % 10) (by omega) (by omega)
    simp only [appendDate, canvasOf, Res.bind_ok, Res.pure_eq, packNib_nat, p1]
  · have t : ∀ a b : Nat, a < 10 → b < 10 → (UInt8.ofNat (a * 16 + b)).toNat = a * 16 + b :=
      fun a b ha hb => toNat_ofNat_lt (by omega)
    have e0 := t (y / 1000 % 10) (y / 100 % 10) (by omega) (by omega)
    have e1 := t (y / 10 % 10) (y % 10) (by omega) (by omega)
    have e2 := t (m / 10 % 10) (m % 10) (by omega) (by omega)
    have e3 := t (d / 10 % 10) (d % 10) (by omega) (by omega)
    simp only [unmarshalDate, List.length_cons, List.length_nil, ne_eq, not_true_eq_false, if_false,
      Res.bind_ok, Res.pure_eq, at?, List.getElem?_cons_zero, List.getElem?_cons_succ, bcd2, e0, e1, e2, e3]
    congr 2 <;> omega

/-- C19: a calendar value with more digits than the layout holds is written with its leading digits
cut off: what is read back is the year modulo 10000 and the month and day modulo 100. No digit spills
into a neighbouring one. -/
theorem date_encode_modulo (raw : Option Bytes) (hraw : ∀ r, raw = some r → r.length = 4)
    (y m d : Nat) (dst : Bytes) :
    ∃ e, appendDate dst ⟨raw, y, m, d⟩ = .ok (dst ++ e) ∧
      unmarshalDate e = .ok ⟨some e, (y % 10000 : Nat), (m % 100 : Nat), (d % 100 : Nat)⟩ := by
  obtain ⟨e, he, hu⟩ := date_encode_decode (y % 10000) (m % 100) (d % 100) (by omega) (by omega)
    (by omega) dst
  refine ⟨e, ?_, hu⟩
  have p : ∀ y : Nat, packNib (((y : Int).tdiv 1000).tmod 10) (((y : Int).tdiv 100).tmod 10)
      = UInt8.ofNat (y / 1000 % 10 * 16 + y / 100 % 10) := fun y =>
    packNib_eq (a := y / 1000 % 10) (b := y / 100 % 10) (by omega) (by omega)
  have hc : ∃ c, canvasOf raw 4 = .ok c := by
    cases raw with
    | none => exact ⟨_, rfl⟩
    | some r => simp [canvasOf, hraw r rfl]
  obtain ⟨c, hc⟩ := hc
  rw [← he]
  simp only [appendDate, hc, Res.bind_ok, Res.pure_eq, packNib_nat, p]
  simp only [canvasOf, Res.bind_ok, Res.ok.injEq, List.append_cancel_left_eq, List.cons.injEq, and_true]
  refine ⟨?_, ?_, ?_, ?_⟩ <;> congr 1 <;> omega

/-- The hypothesis of `date_encode_modulo` met, on a year of five digits. -/
example : appendDate [] ⟨some [1, 2, 3, 4], 12024, 112, 7⟩ = .ok [0x20, 0x24, 0x12, 0x07] := by
  decide +kernel

/-- C19: `CardStructureVersion` restores its two bytes exactly when both low nibbles are decimal
digits (in particular whenever both bytes are BCD). -/
theorem cardStructureVersion_roundtrip_iff (b0 b1 : UInt8) (dst : Bytes) :
    (∃ m, unmarshalCardStructureVersion [b0, b1] = .ok m ∧
      appendCardStructureVersion dst m = .ok (dst ++ [b0, b1])) ↔
      b0.toNat % 16 < 10 ∧ b1.toNat % 16 < 10 := by
  have hu : unmarshalCardStructureVersion [b0, b1] = .ok ⟨some [b0, b1], bcd2 b0, bcd2 b1⟩ := rfl
  rw [hu]
  simp only [Res.ok.injEq, exists_eq_left', appendCardStructureVersion, canvasOf, List.length_cons,
    List.length_nil, ne_eq, not_true_eq_false, if_false, Res.bind_ok, Res.pure_eq,
    List.append_cancel_left_eq, List.cons.injEq, and_true]
  rw [← bcd2_pack' b0, ← bcd2_pack' b1]
  rfl

theorem cardStructureVersion_encode_decode (a b : Nat) (ha : a < 100) (hb : b < 100) (dst : Bytes) :
    ∃ e, appendCardStructureVersion dst ⟨none, a, b⟩ = .ok (dst ++ e) ∧
      unmarshalCardStructureVersion e = .ok ⟨some e, a, b⟩ := by
  have p : ∀ n : Nat, n < 100 → packNib ((n : Int).tdiv 10) ((n : Int).tmod 10)
      = UInt8.ofNat (n / 10 * 16 + n % 10) := fun n hn =>
    packNib_eq (a := n / 10) (b := n % 10) (by omega) (by omega)
  refine ⟨[UInt8.ofNat (a / 10 * 16 + a % 10), UInt8.ofNat (b / 10 * 16 + b % 10)], ?_, ?_⟩
  · have pa := p a ha
    have pb := p b hb
    unfold packNib at pa pb
    simp only [appendCardStructureVersion, canvasOf, Res.bind_ok, Res.pure_eq, pa, pb]
  · have e0 : (UInt8.ofNat (a / 10 * 16 + a % 10)).toNat = a / 10 * 16 + a % 10 := toNat_ofNat_lt (by omega)
    have e1 : (UInt8.ofNat (b / 10 * 16 + b % 10)).toNat = b / 10 * 16 + b % 10 := toNat_ofNat_lt (by omega)
    simp only [unmarshalCardStructureVersion, List.length_cons, List.length_nil, ne_eq,
      not_true_eq_false, if_false, Res.bind_ok, Res.pure_eq, at?, List.getElem?_cons_zero,
      List.getElem?_cons_succ, bcd2, e0, e1]
    congr 2 <;> omega

theorem monthYear_decode (b0 b1 : UInt8) : unmarshalMonthYear [b0, b1] = .ok
    (if IsBcd b0 ∧ IsBcd b1 ∧ ¬ (b0 = 0 ∧ b1 = 0) then
      ⟨some [b0, b1], bcd2 b0, bcd2 b1 + 2000⟩ else ⟨some [b0, b1], 0, 0⟩) := by
  have z : ∀ b : UInt8, b = 0 ↔ b.toNat = 0 := fun b => by rw [← UInt8.toNat_inj]; rfl
  have hb0 := byte_lt b0
  have hb1 := byte_lt b1
  by_cases hb : IsBcd b0 ∧ IsBcd b1
  · have hd : decodeBCD [b0, b1] = .ok ((b0.toNat / 16 * 10 + b0.toNat % 16) * 100
        + (b1.toNat / 16 * 10 + b1.toNat % 16)) := by
      rw [bcd_decode_iff]
      obtain ⟨⟨h1, h2⟩, h3, h4⟩ := hb
      refine ⟨?_, ?_, by omega⟩
      · simp [Spec.hexDigits, h1, h2, h3, h4]
      · simp [Spec.hexDigits, Spec.decimal]; omega
    simp only [unmarshalMonthYear, List.length_cons, List.length_nil, ne_eq, not_true_eq_false, if_false,
      Res.bind_ok, Res.pure_eq, hd]
    obtain ⟨⟨h1, h2⟩, h3, h4⟩ := hb
    by_cases hz : b0 = 0 ∧ b1 = 0
    · obtain ⟨rfl, rfl⟩ := hz
      rfl
    · rw [if_pos (show IsBcd b0 ∧ IsBcd b1 ∧ ¬ (b0 = 0 ∧ b1 = 0) from ⟨⟨h1, h2⟩, ⟨h3, h4⟩, hz⟩)]
      rw [z, z] at hz
      have hv : 0 < (b0.toNat / 16 * 10 + b0.toNat % 16) * 100 + (b1.toNat / 16 * 10 + b1.toNat % 16) := by
        omega
      simp only [gt_iff_lt, hv, if_true]
      unfold bcd2
      congr 2 <;> omega
  · rw [if_neg (fun h => hb ⟨h.1, h.2.1⟩)]
    have hd : ∀ v, decodeBCD [b0, b1] ≠ .ok v := by
      intro v h
      rw [bcd_decode_iff] at h
      have := h.1
      simp only [Spec.hexDigits, List.mem_cons, List.not_mem_nil, or_false, forall_eq_or_imp,
        forall_eq] at this
      exact hb ⟨⟨this.1, this.2.1⟩, this.2.2.1, this.2.2.2⟩
    have hp := bcd_no_panic [b0, b1]
    simp only [unmarshalMonthYear, List.length_cons, List.length_nil, ne_eq, not_true_eq_false, if_false,
      Res.bind_ok, Res.pure_eq]
    cases hc : decodeBCD [b0, b1] with
    | ok v => exact absurd hc (hd v)
    | err m => rfl
    | panic => exact absurd hc hp

/-- C19: `MonthYear` restores its two bytes exactly when both are BCD (in particular for 00 00);
bytes that are not BCD are replaced by 00 00 although the message keeps them as raw data. -/
theorem monthYear_roundtrip_iff (b0 b1 : UInt8) (dst : Bytes) :
    (∃ m, unmarshalMonthYear [b0, b1] = .ok m ∧ appendMonthYear dst m = .ok (dst ++ [b0, b1])) ↔
      IsBcd b0 ∧ IsBcd b1 := by
  rw [monthYear_decode]
  simp only [Res.ok.injEq, exists_eq_left']
  have key : ∀ (r : Bytes) (m y : Int), r.length = 2 → appendMonthYear dst ⟨some r, m, y⟩ = .ok (dst ++
      [packNib (m.tdiv 10) (m.tmod 10), packNib ((y.tmod 100).tdiv 10) ((y.tmod 100).tmod 10)]) := by
    intro r m y hr
    simp [appendMonthYear, hr]
  have zz : packNib ((0 : Int).tdiv 10) ((0 : Int).tmod 10) = 0 := by decide
  have zz' : packNib (((0 : Int).tmod 100).tdiv 10) (((0 : Int).tmod 100).tmod 10) = 0 := by decide
  by_cases hb : IsBcd b0 ∧ IsBcd b1
  · simp only [hb, iff_true, true_and, and_self]
    by_cases hz : b0 = 0 ∧ b1 = 0
    · rw [if_neg (by simp [hz]), key _ _ _ rfl, zz, zz', hz.1, hz.2]
    · rw [if_pos hz, key _ _ _ rfl, (bcd2_pack' b0).mpr hb.1.2]
      have : (bcd2 b1 + 2000).tmod 100 = bcd2 b1 := by
        have h := hb.2
        unfold IsBcd at h
        have e : bcd2 b1 + 2000 = ((b1.toNat / 16 * 10 + b1.toNat % 16 + 2000 : Nat) : Int) := by
          unfold bcd2; omega
        rw [e]
        have := tmod_nat (b1.toNat / 16 * 10 + b1.toNat % 16 + 2000) 100
        rw [show ((100 : Nat) : Int) = 100 from rfl] at this
        rw [this]
        unfold bcd2; omega
      rw [this, (bcd2_pack' b1).mpr hb.2.2]
  · simp only [hb, iff_false]
    rw [if_neg (fun h => hb ⟨h.1, h.2.1⟩), key _ _ _ rfl, zz, zz']
    intro h
    simp only [Res.ok.injEq, List.append_cancel_left_eq, List.cons.injEq, and_true] at h
    apply hb
    rw [← h.1, ← h.2]; decide

/-- C19: month 0..99 and year 2000..2099 survive encode then decode unless both digits pairs are
zero. -/
theorem monthYear_encode_decode (m y : Nat) (hm : m < 100) (hy : y < 100) (hz : ¬ (m = 0 ∧ y = 0))
    (dst : Bytes) :
    ∃ e, appendMonthYear dst ⟨none, m, (y + 2000 : Nat)⟩ = .ok (dst ++ e) ∧
      unmarshalMonthYear e = .ok ⟨some e, m, (y + 2000 : Nat)⟩ := by
  have p : ∀ n : Nat, n < 100 → packNib ((n : Int).tdiv 10) ((n : Int).tmod 10)
      = UInt8.ofNat (n / 10 * 16 + n % 10) := fun n hn =>
    packNib_eq (a := n / 10) (b := n % 10) (by omega) (by omega)
  have hb : ∀ n : Nat, n < 100 → (UInt8.ofNat (n / 10 * 16 + n % 10)).toNat = n / 10 * 16 + n % 10 :=
    fun n hn => toNat_ofNat_lt (by omega)
  have ey : ((y + 2000 : Nat) : Int).tmod 100 = (y : Int) := by
    have := tmod_nat (y + 2000) 100
    rw [show ((100 : Nat) : Int) = 100 from rfl] at this
    rw [this]; omega
  refine ⟨[UInt8.ofNat (m / 10 * 16 + m % 10), UInt8.ofNat (y / 10 * 16 + y % 10)], ?_, ?_⟩
  · simp only [appendMonthYear, Option.getD_none, List.length_nil, gt_iff_lt, Nat.lt_irrefl, false_and,
      if_false, Res.bind_ok, Res.pure_eq, ey, p m hm, p y hy]
  · have bm := hb m hm
    have bY := hb y hy
    rw [monthYear_decode, if_pos]
    · unfold bcd2; rw [bm, bY]; congr 2 <;> omega
    · refine ⟨⟨by omega, by omega⟩, ⟨by omega, by omega⟩, ?_⟩
      rw [← UInt8.toNat_inj, ← UInt8.toNat_inj, bm, bY]
      have : (0 : UInt8).toNat = 0 := rfl
      omega

example : unmarshalMonthYear [0x12, 0x21] = .ok ⟨some [0x12, 0x21], 12, 2021⟩ := by decide
example : IsBcd 0x12 ∧ ¬ IsBcd 0x1F := by decide

/-- Lengths other than the fixed ones are errors for all three. -/
theorem dates_wrong_length (d : Bytes) :
    (d.length ≠ 4 → ∃ m, unmarshalDate d = .err m) ∧
    (d.length ≠ 2 → ∃ m, unmarshalMonthYear d = .err m) ∧
    (d.length ≠ 2 → ∃ m, unmarshalCardStructureVersion d = .err m) := by
  refine ⟨fun h => ?_, fun h => ?_, fun h => ?_⟩
  · exact ⟨_, by simp [unmarshalDate, h]; rfl⟩
  · exact ⟨_, by simp [unmarshalMonthYear, h]; rfl⟩
  · exact ⟨_, by simp [unmarshalCardStructureVersion, h]; rfl⟩

/-! ## C44: control type -/

/-- C44: the five flags are the top five bits, and encoding restores the byte including the three
reserved bits. -/
theorem controlType_decode (b : UInt8) : ∃ m, unmarshalControlType [b] = .ok m ∧
    (m.cardDownloading = b.toNat.testBit 7) ∧ (m.vuDownloading = b.toNat.testBit 6) ∧
    (m.printing = b.toNat.testBit 5) ∧ (m.display = b.toNat.testBit 4) ∧
    (m.calibrationChecking = b.toNat.testBit 3) := by
  refine ⟨_, rfl, ?_⟩
  revert b
  apply forall_byte
  decide +kernel

theorem controlType_roundtrip (b : UInt8) (dst : Bytes) :
    ∃ m, unmarshalControlType [b] = .ok m ∧ appendControlType dst m = .ok (dst ++ [b]) := by
  refine ⟨_, rfl, ?_⟩
  have h : ∀ b : UInt8, appendControlType [] ⟨some [b], b &&& 0x80 != 0, b &&& 0x40 != 0,
      b &&& 0x20 != 0, b &&& 0x10 != 0, b &&& 0x08 != 0⟩ = .ok [b] := by
    apply forall_byte
    decide +kernel
  have := h b
  simp only [appendControlType, canvasOf, List.length_singleton, ne_eq, not_true_eq_false, if_false,
    Res.bind_ok, at?, List.getElem?_cons_zero, Res.pure_eq, List.nil_append] at this ⊢
  rw [Res.ok.injEq, List.cons.injEq] at this
  rw [this.1]

/-- The byte whose top five bits are the given flags. -/
def Spec.controlBits (a b c d e : Bool) : Nat :=
  a.toNat * 128 + b.toNat * 64 + c.toNat * 32 + d.toNat * 16 + e.toNat * 8

/-- C44: on a value with raw byte `b`, whatever the flags are set to, the written byte is `b` with
the set flags added: setting works, clearing a flag that is set in the raw byte has no effect. -/
theorem controlType_edit (b : UInt8) (f1 f2 f3 f4 f5 : Bool) (dst : Bytes) :
    ∃ o, appendControlType dst ⟨some [b], f1, f2, f3, f4, f5⟩ = .ok (dst ++ [o]) ∧
      o = b ||| UInt8.ofNat (Spec.controlBits f1 f2 f3 f4 f5) := by
  refine ⟨_, rfl, ?_⟩
  cases f1 <;> cases f2 <;> cases f3 <;> cases f4 <;> cases f5 <;>
    simp only [if_true, if_false, UInt8.or_assoc, Bool.false_eq_true] <;>
    revert b <;> apply forall_byte <;> decide +kernel

/-- C44, finding: clearing every flag of a parsed value writes the old byte unchanged. -/
theorem controlType_clear_no_effect (b : UInt8) (dst : Bytes) :
    appendControlType dst ⟨some [b], false, false, false, false, false⟩ = .ok (dst ++ [b]) := rfl

/-- C44: without raw data the byte is exactly the flags. -/
theorem controlType_encode_decode (f1 f2 f3 f4 f5 : Bool) (dst : Bytes) :
    ∃ o, appendControlType dst ⟨none, f1, f2, f3, f4, f5⟩ = .ok (dst ++ [o]) ∧
      unmarshalControlType [o] = .ok ⟨some [o], f1, f2, f3, f4, f5⟩ := by
  refine ⟨_, rfl, ?_⟩
  cases f1 <;> cases f2 <;> cases f3 <;> cases f4 <;> cases f5 <;> decide

/-- C44, finding: a control type field longer than one byte is accepted on input but cannot be
written back. -/
theorem controlType_long_raw (b c : UInt8) (t dst : Bytes) :
    ∃ m, unmarshalControlType (b :: c :: t) = .ok m ∧ ∃ e, appendControlType dst m = .err e := by
  refine ⟨_, rfl, ?_⟩
  simp [appendControlType, canvasOf]

/-! ## C45: generation from card structure version -/

/-- C45: the complete mapping. `1`/`2` are the generation enum numbers, `0` is unspecified. -/
theorem generation_from_version (raw : Option Bytes) (major minor : Int) :
    setFromCardStructureVersion ⟨raw, major, minor⟩ =
      (if major = 0 then 1 else if major = 1 then 2 else 0,
       if major = 0 then .v1
       else if major = 1 ∧ minor = 0 then .v1
       else if major = 1 ∧ minor = 1 then .v2 else .unspecified) := by
  unfold setFromCardStructureVersion
  dsimp only
  by_cases h0 : major = 0
  · simp [h0]
  · by_cases h1 : major = 1
    · subst h1
      by_cases h2 : minor = 0
      · simp [h2]
      · by_cases h3 : minor = 1 <;> simp [h2, h3]
    · simp [h0, h1]

end Tacho
