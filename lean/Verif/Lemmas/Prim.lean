import Verif.Model.Prim
import Verif.Spec.Basic
import Verif.Lemmas.Bytes
/-!
# Lemmas about primitive data types
-/

namespace Tacho

/-- A statement about all bytes is a statement about 256 numbers. -/
theorem forall_byte {P : UInt8 → Prop} (h : ∀ n : Fin 256, P (UInt8.ofNat n.val)) (b : UInt8) : P b := by
  have := h ⟨b.toNat, byte_lt b⟩
  simpa using this

theorem byte_ext {a b : UInt8} (h : a.toNat = b.toNat) : a = b := UInt8.toNat_inj.mp h

theorem at?_cons_zero (b : UInt8) (t : Bytes) : at? (b :: t) 0 = .ok b := rfl

@[simp] theorem bind_eq_ok {α β : Type} {r : Res α} {f : α → Res β} {b : β} :
    (r >>= f) = .ok b ↔ ∃ a, r = .ok a ∧ f a = .ok b := by
  cases r <;> simp

theorem Res.bind_ne_panic {α β : Type} {r : Res α} {f : α → Res β} (h1 : r ≠ .panic) (h2 : ∀ a, f a ≠ .panic) :
    (r >>= f) ≠ .panic := by
  cases r with
  | ok a => exact h2 a
  | err m => simp
  | panic => exact absurd rfl h1

theorem i2b_nat (n : Nat) (h : n < 256) : (i2b (n : Int)).toNat = n := by
  unfold i2b
  have : ((n : Int) % 256).toNat = n := by omega
  rw [this, toNat_ofNat_lt h]

theorem i2b_ofNat (n : Nat) : i2b (n : Int) = UInt8.ofNat (n % 256) := by
  unfold i2b
  congr 1

@[simp] theorem i2b_toNat (b : UInt8) : i2b (b.toNat : Int) = b :=
  byte_ext (i2b_nat _ (byte_lt b))

theorem packNib_toNat {a b : Nat} (ha : a < 16) (hb : b < 16) :
    (packNib (a : Int) (b : Int)).toNat = a * 16 + b := by
  have h : ∀ a b : Fin 16, (packNib (a.val : Int) (b.val : Int)).toNat = a.val * 16 + b.val := by
    decide +kernel
  exact h ⟨a, ha⟩ ⟨b, hb⟩

theorem packNib_eq {a b : Nat} (ha : a < 16) (hb : b < 16) :
    packNib (a : Int) (b : Int) = UInt8.ofNat (a * 16 + b) :=
  byte_ext (by rw [packNib_toNat ha hb, toNat_ofNat_lt (by omega)])

theorem ofNat_nibbles (b : UInt8) : UInt8.ofNat (b.toNat / 16 * 16 + b.toNat % 16) = b := by
  apply byte_ext
  have := byte_lt b
  rw [toNat_ofNat_lt (by omega)]; omega


theorem low_nat (k n : Nat) (h : n < 2 ^ k) : low k (n : Int) = n := by
  unfold low
  have : ((n : Int) % 2 ^ k) = ((n % 2 ^ k : Nat) : Int) := by push_cast; rfl
  rw [this, Int.toNat_natCast, Nat.mod_eq_of_lt h]

theorem wrap32_id {x : Int} (h1 : -2 ^ 31 ≤ x) (h2 : x < 2 ^ 31) : wrap32 x = x := by
  unfold wrap32; omega

/-! ### decimal digits -/

/-- Value of a list of decimal digits, most significant first. -/
def digVal (ds : List Nat) : Nat := ds.foldl (fun acc d => acc * 10 + d) 0

theorem digVal_foldl (ds : List Nat) (acc : Nat) :
    ds.foldl (fun acc d => acc * 10 + d) acc = acc * 10 ^ ds.length + digVal ds := by
  unfold digVal
  induction ds generalizing acc with
  | nil => simp
  | cons b t ih =>
    simp only [List.foldl_cons, List.length_cons]
    rw [ih, ih (0 * 10 + b), Nat.pow_succ]
    simp only [Nat.zero_mul, Nat.zero_add, Nat.add_mul]
    rw [Nat.mul_comm (10 ^ t.length) 10, Nat.mul_assoc]; omega

theorem digVal_cons (d : Nat) (t : List Nat) : digVal (d :: t) = d * 10 ^ t.length + digVal t := by
  have := digVal_foldl t d
  unfold digVal at *; simpa using this

theorem digVal_append (a b : List Nat) : digVal (a ++ b) = digVal a * 10 ^ b.length + digVal b := by
  unfold digVal; rw [List.foldl_append, digVal_foldl]; rfl

theorem digVal_lt (ds : List Nat) (h : ∀ d ∈ ds, d < 10) : digVal ds < 10 ^ ds.length := by
  induction ds with
  | nil => simp [digVal]
  | cons d t ih =>
    have hd := h d (by simp)
    have := ih (fun x hx => h x (by simp [hx]))
    rw [digVal_cons, List.length_cons, Nat.pow_succ]
    have h2 : d * 10 ^ t.length ≤ 9 * 10 ^ t.length := Nat.mul_le_mul_right _ (by omega)
    omega

theorem digVal_inj (a b : List Nat) (hl : a.length = b.length) (ha : ∀ d ∈ a, d < 10)
    (hb : ∀ d ∈ b, d < 10) (h : digVal a = digVal b) : a = b := by
  induction a generalizing b with
  | nil => cases b with | nil => rfl | cons _ _ => simp at hl
  | cons x t ih =>
    cases b with
    | nil => simp at hl
    | cons y u =>
      simp only [List.length_cons, Nat.add_right_cancel_iff] at hl
      rw [digVal_cons, digVal_cons, hl] at h
      have h1 := digVal_lt t (fun d hd => ha d (by simp [hd]))
      have h2 := digVal_lt u (fun d hd => hb d (by simp [hd]))
      rw [hl] at h1
      have hpos : 0 < 10 ^ u.length := Nat.pow_pos (by omega)
      have hxy : x = y := by
        rcases Nat.lt_trichotomy x y with hlt | heq | hgt
        · have := Nat.mul_le_mul_right (10 ^ u.length) (show x + 1 ≤ y from hlt)
          rw [Nat.add_mul] at this; omega
        · exact heq
        · have := Nat.mul_le_mul_right (10 ^ u.length) (show y + 1 ≤ x from hgt)
          rw [Nat.add_mul] at this; omega
      subst hxy
      rw [ih u hl (fun d hd => ha d (by simp [hd])) (fun d hd => hb d (by simp [hd])) (by omega)]

theorem digVal_zeros (n : Nat) (t : List Nat) : digVal (List.replicate n 0 ++ t) = digVal t := by
  induction n with
  | zero => simp
  | succ n ih => rw [List.replicate_succ, List.cons_append, digVal_cons, ih]; omega

theorem itoa_lt10 (n : Nat) : ∀ d ∈ itoa n, d < 10 := by
  induction n using Nat.strongRecOn with
  | _ n ih =>
    rw [itoa]
    split
    · simp; omega
    · intro d hd
      rw [List.mem_append] at hd
      rcases hd with hd | hd
      · exact ih (n / 10) (by omega) d hd
      · simp at hd; omega

theorem digVal_itoa (n : Nat) : digVal (itoa n) = n := by
  induction n using Nat.strongRecOn with
  | _ n ih =>
    rw [itoa]
    split
    · simp [digVal]
    · rw [digVal_append, ih (n / 10) (by omega)]
      simp [digVal]; omega

theorem itoa_length_pos (n : Nat) : 0 < (itoa n).length := by
  rw [itoa]; split <;> simp

theorem itoa_length_le (n k : Nat) (hk : 0 < k) : (itoa n).length ≤ k ↔ n < 10 ^ k := by
  induction n using Nat.strongRecOn generalizing k with
  | _ n ih =>
    rw [itoa]
    split
    · rename_i h
      simp only [List.length_singleton]
      constructor
      · intro _
        have : 10 ^ 1 ≤ 10 ^ k := Nat.pow_le_pow_right (by omega) hk
        omega
      · omega
    · rename_i h
      rw [List.length_append, List.length_singleton]
      match k, hk with
      | 1, _ =>
        have := itoa_length_pos (n / 10)
        constructor <;> intro hh <;> omega
      | k + 2, _ =>
        have := ih (n / 10) (by omega) (k + 1) (by omega)
        rw [Nat.pow_succ, ← Nat.div_lt_iff_lt_mul (by omega), ← this]
        omega

theorem nibbles_length (b : Bytes) : (nibbles b).length = b.length * 2 := by
  induction b with
  | nil => rfl
  | cons x t ih => simp only [nibbles, List.flatMap_cons, List.length_append] at *; simp [ih]; omega

theorem nibbles_cons (x : UInt8) (t : Bytes) :
    nibbles (x :: t) = x.toNat / 16 :: x.toNat % 16 :: nibbles t := rfl

theorem packDigits_nibbles (b : Bytes) : packDigits (nibbles b) = b := by
  induction b with
  | nil => rfl
  | cons x t ih => rw [nibbles_cons, packDigits, ih, ofNat_nibbles]

theorem nibbles_packDigits (ds : List Nat) (k : Nat) (hl : ds.length = k * 2)
    (h : ∀ d ∈ ds, d < 10) : nibbles (packDigits ds) = ds ∧ (packDigits ds).length = k := by
  induction k generalizing ds with
  | zero => have : ds = [] := List.length_eq_zero_iff.mp (by omega)
            subst this; exact ⟨rfl, rfl⟩
  | succ k ih =>
    match ds with
    | [] => simp only [List.length_nil] at hl; omega
    | [_] => simp only [List.length_singleton] at hl; omega
    | a :: b :: t =>
      simp only [List.length_cons] at hl
      have ha := h a (by simp); have hb := h b (by simp)
      obtain ⟨i1, i2⟩ := ih t (by omega) (fun d hd => h d (by simp [hd]))
      rw [packDigits, nibbles_cons, i1, toNat_ofNat_lt (by omega)]
      have e1 : (a * 16 + b) / 16 = a := by omega
      have e2 : (a * 16 + b) % 16 = b := by omega
      rw [e1, e2]
      exact ⟨rfl, by simp [i2]⟩

/-! ### enums -/

/-- Well-formedness of an enum table: distinct numbers, distinct protocol values, all of them
bytes. -/
def EnumTable.Ok (t : EnumTable) : Bool :=
  (t.map Prod.fst).Nodup && (t.filterMap Prod.snd).Nodup &&
    t.all (fun p => match p.2 with | some v => v < 256 | none => true)

theorem enumTables_ok : ∀ t ∈ allEnumTables, EnumTable.Ok t = true := by decide +kernel

theorem unmarshalEnum_ok {t : EnumTable} {b : UInt8} {v : Int} (h : unmarshalEnum t b = .ok v) :
    (v, some b.toNat) ∈ t := by
  unfold unmarshalEnum at h
  split at h
  · rename_i p hp
    cases h
    have h1 := List.mem_of_find?_eq_some hp
    have h2 := List.find?_some hp
    simp only [beq_iff_eq] at h2
    rw [← h2]; exact h1
  · cases h

theorem nodup_fst_unique {t : EnumTable} (h : (t.map Prod.fst).Nodup) {n : Int} {a b : Option Nat}
    (ha : (n, a) ∈ t) (hb : (n, b) ∈ t) : a = b := by
  induction t with
  | nil => simp at ha
  | cons p t ih =>
    simp only [List.map_cons, List.nodup_cons] at h
    rcases List.mem_cons.mp ha with ha' | ha' <;> rcases List.mem_cons.mp hb with hb' | hb'
    · rw [← ha'] at hb'; simpa using hb'.symm
    · exfalso; apply h.1; rw [← ha']; exact List.mem_map.mpr ⟨_, hb', rfl⟩
    · exfalso; apply h.1; rw [← hb']; exact List.mem_map.mpr ⟨_, ha', rfl⟩
    · exact ih h.2 ha' hb'

theorem nodup_snd_unique {t : EnumTable} (h : (t.filterMap Prod.snd).Nodup) {n m : Int} {v : Nat}
    (ha : (n, some v) ∈ t) (hb : (m, some v) ∈ t) : n = m := by
  induction t with
  | nil => simp at ha
  | cons p t ih =>
    obtain ⟨k, o⟩ := p
    have key : ∀ {x : Int}, (x, some v) ∈ t → v ∈ t.filterMap Prod.snd :=
      fun hx => List.mem_filterMap.mpr ⟨_, hx, rfl⟩
    cases o with
    | none =>
      simp only [List.filterMap_cons] at h
      rcases List.mem_cons.mp ha with ha' | ha'
      · cases ha'
      rcases List.mem_cons.mp hb with hb' | hb'
      · cases hb'
      exact ih h ha' hb'
    | some w =>
      simp only [List.filterMap_cons, List.nodup_cons] at h
      rcases List.mem_cons.mp ha with ha' | ha' <;> rcases List.mem_cons.mp hb with hb' | hb'
      · cases ha'; cases hb'; rfl
      · cases ha'; exact absurd (key hb') h.1
      · cases hb'; exact absurd (key ha') h.1
      · exact ih h.2 ha' hb'

theorem Ok_parts {t : EnumTable} (h : EnumTable.Ok t = true) :
    (t.map Prod.fst).Nodup ∧ (t.filterMap Prod.snd).Nodup ∧
      ∀ n v, (n, some v) ∈ t → v < 256 := by
  simp only [EnumTable.Ok, Bool.and_eq_true, decide_eq_true_eq, List.all_eq_true] at h
  refine ⟨h.1.1, h.1.2, fun n v hm => ?_⟩
  have := h.2 _ hm
  simpa using this

theorem marshalEnum_of_mem {t : EnumTable} (h : EnumTable.Ok t = true) {n : Int} {v : Nat}
    (hm : (n, some v) ∈ t) : marshalEnum t n = .ok (UInt8.ofNat v) := by
  obtain ⟨h1, _, _⟩ := Ok_parts h
  unfold marshalEnum
  cases hf : t.find? (fun p => p.1 == n) with
  | none =>
    rw [List.find?_eq_none] at hf
    have := hf _ hm
    simp at this
  | some p =>
    have m1 := List.mem_of_find?_eq_some hf
    have m2 := List.find?_some hf
    simp only [beq_iff_eq] at m2
    obtain ⟨k, o⟩ := p
    simp only at m2
    subst m2
    have := nodup_fst_unique h1 hm m1
    subst this
    rfl

theorem unmarshalEnum_of_mem {t : EnumTable} (h : EnumTable.Ok t = true) {n : Int} {b : UInt8}
    (hm : (n, some b.toNat) ∈ t) : unmarshalEnum t b = .ok n := by
  obtain ⟨_, h2, _⟩ := Ok_parts h
  unfold unmarshalEnum
  cases hf : t.find? (fun p => p.2 == some b.toNat) with
  | none =>
    rw [List.find?_eq_none] at hf
    have := hf _ hm
    simp at this
  | some p =>
    have m1 := List.mem_of_find?_eq_some hf
    have m2 := List.find?_some hf
    simp only [beq_iff_eq] at m2
    obtain ⟨k, o⟩ := p
    simp only at m2
    subst m2
    rw [nodup_snd_unique h2 hm m1]

theorem enum_roundtrip {t : EnumTable} (h : EnumTable.Ok t = true) {b : UInt8} {v : Int}
    (hu : unmarshalEnum t b = .ok v) : marshalEnum t v = .ok b := by
  rw [marshalEnum_of_mem h (unmarshalEnum_ok hu), UInt8.ofNat_toNat]

theorem marshalEnum_ok {t : EnumTable} {v : Int} {b : UInt8} (hm : marshalEnum t v = .ok b) :
    ∃ p, (v, some p) ∈ t ∧ b = UInt8.ofNat p := by
  unfold marshalEnum at hm
  split at hm
  · rename_i n p hf
    cases hm
    have m1 := List.mem_of_find?_eq_some hf
    have m2 := List.find?_some hf
    simp only [beq_iff_eq] at m2
    exact ⟨p, m2 ▸ m1, rfl⟩
  · cases hm

theorem enum_roundtrip' {t : EnumTable} (h : EnumTable.Ok t = true) {b : UInt8} {v : Int}
    (hm : marshalEnum t v = .ok b) : unmarshalEnum t b = .ok v := by
  obtain ⟨p, hp, rfl⟩ := marshalEnum_ok hm
  apply unmarshalEnum_of_mem h
  rw [toNat_ofNat_lt ((Ok_parts h).2.2 _ _ hp)]
  exact hp

theorem unmarshalEnum_ne_panic (t : EnumTable) (b : UInt8) : unmarshalEnum t b ≠ .panic := by
  unfold unmarshalEnum; split <;> simp

end Tacho
