import Verif.Lemmas.Records
/-!
# Properties of composite records (C22, C23, C24, C40, C43, C47)
-/

namespace Tacho
open Spec

theorem known_iff {t : EnumTable} {b : UInt8} : Known t b ↔ ∃ v, unmarshalEnum t b = .ok v :=
  (enum_accepts_iff t b).symm

theorem byteAt_sl {d : Bytes} {a b i : Nat} {P : UInt8 → Prop} (h : a + i < b) :
    ByteAt (sl d a b) i P ↔ ByteAt d (a + i) P := by
  unfold ByteAt sl
  rw [List.getElem?_drop, List.getElem?_take_of_lt h]

theorem byteAt_cons_zero {b : UInt8} {t : Bytes} {P : UInt8 → Prop} : ByteAt (b :: t) 0 P ↔ P b := by
  simp [ByteAt]

theorem byteAt_of_sl {d : Bytes} {i : Nat} {b : UInt8} {P : UInt8 → Prop} (h : sl d i (i + 1) = [b]) :
    ByteAt d i P ↔ P b := by
  have := byteAt_sl (d := d) (a := i) (b := i + 1) (i := 0) (P := P) (by omega)
  rw [h] at this
  rw [Nat.add_zero] at this
  rw [← this, byteAt_cons_zero]

section
variable [Charmap]

/-! ## VehicleRegistration -/

theorem registration_parse {d : Bytes} {m : VehicleRegistration} (h : unmarshalVehicleRegistration d = .ok m) :
    ∃ n c t, d = n :: c :: t ∧ t.length = 13 ∧ m.nation = enumOr1 nationNumericTable n ∧
      ∃ s, unmarshalStringValue (c :: t) = .ok s ∧ m.number = some s := by
  simp only [unmarshalVehicleRegistration, Res.pure_eq, guard_eq_ok, bind_eq_ok, Res.ok.injEq] at h
  obtain ⟨hl, b, hb, nd, hnd, s, hs, rfl⟩ := h
  match d, hl with
  | [], hl => simp at hl
  | [_], hl => simp at hl
  | n :: c :: t, hl =>
    have hl' : t.length = 13 := by simpa using hl
    rw [at?_cons_zero, Res.ok.injEq] at hb
    subst hb
    obtain ⟨_, _, rfl⟩ := sl?_eq_ok hnd
    refine ⟨n, c, t, rfl, hl', rfl, s, ?_, rfl⟩
    rw [← hs, sl_to_end (by simp; omega)]
    rfl

/-- C23: every 15 byte string is accepted, nothing else. -/
theorem registration_accepts_iff (d : Bytes) :
    (∃ m, unmarshalVehicleRegistration d = .ok m) ↔ d.length = 15 := by
  constructor
  · rintro ⟨m, h⟩
    obtain ⟨n, c, t, rfl, hl, _⟩ := registration_parse h
    simp [hl]
  · intro hl
    match d, hl with
    | n :: c :: t, hl =>
      have hl' : t.length = 13 := by simpa using hl
      have h2 : sl (n :: c :: t) 1 15 = c :: t := by rw [sl_to_end (by simp; omega)]; rfl
      obtain ⟨s, hs⟩ := (stringValue_accepts_iff (c :: t)).mpr (by simp; omega)
      refine ⟨⟨enumOr1 nationNumericTable n, some s⟩, ?_⟩
      simp only [unmarshalVehicleRegistration, List.length_cons, hl', Nat.reduceAdd, ne_eq,
        not_true_eq_false, if_false, Res.pure_eq, Res.bind_ok, at?_cons_zero]
      rw [sl?_ok (by omega) (by simp; omega), Res.bind_ok, h2, hs]
      rfl

/-- C23, the exact outcome: with an unknown nation byte the parsed registration cannot be written at
all; otherwise the bytes come back, with an unknown code page byte replaced by FF. -/
theorem registration_roundtrip (n c : UInt8) (t dst : Bytes) (m : VehicleRegistration)
    (h : unmarshalVehicleRegistration (n :: c :: t) = .ok m) :
    (Known nationNumericTable n → appendVehicleRegistration dst (some m) =
      .ok (dst ++ n :: (if KnownCodePage c then c else 255) :: t)) ∧
    (¬ Known nationNumericTable n → ∃ e, appendVehicleRegistration dst (some m) = .err e) := by
  obtain ⟨n', c', t', he, hl, hn, s, hs, hm⟩ := registration_parse h
  simp only [List.cons.injEq] at he
  obtain ⟨rfl, rfl, rfl⟩ := he
  have ht : t ≠ [] := by intro e; rw [e] at hl; cases hl
  constructor
  · intro hk
    obtain ⟨v, hv⟩ := known_iff.mp hk
    have hne : v ≠ enumUnrecognized := by
      intro e; subst e; exact unrec_not_named (t := nationNumericTable) (by decide) (by decide) n hv
    have hn' : m.nation = v := by rw [hn]; unfold enumOr1; rw [hv]
    simp only [appendVehicleRegistration, hn', hne, if_false, Res.pure_eq, Res.bind_ok]
    rw [enum_decode_encode nationNumericTable (by decide) n v hv, Res.bind_ok, hm, Option.getD_some,
      stringValue_roundtrip c t _ ht (by omega) s hs, List.append_assoc]
    rfl
  · intro hk
    have hn' : m.nation = enumUnrecognized := by
      rw [hn]; unfold enumOr1
      cases hu : unmarshalEnum nationNumericTable n with
      | ok v => exact absurd (known_iff.mpr ⟨v, hu⟩) hk
      | err _ => rfl
      | panic => rfl
    simp [appendVehicleRegistration, hn']

/-- C23: the registration bytes are restored exactly when nation and code page are known. -/
theorem registration_roundtrip_iff (d dst : Bytes) (m : VehicleRegistration)
    (h : unmarshalVehicleRegistration d = .ok m) :
    appendVehicleRegistration dst (some m) = .ok (dst ++ d) ↔
      ByteAt d 0 (Known nationNumericTable) ∧ ByteAt d 1 KnownCodePage := by
  obtain ⟨n, c, t, rfl, hl, _⟩ := registration_parse h
  have e0 : ByteAt (n :: c :: t) 0 (Known nationNumericTable) ↔ Known nationNumericTable n := by simp [ByteAt]
  have e1 : ByteAt (n :: c :: t) 1 KnownCodePage ↔ KnownCodePage c := by simp [ByteAt]
  obtain ⟨h1, h2⟩ := registration_roundtrip n c t dst m h
  rw [e0, e1]
  by_cases hk : Known nationNumericTable n
  · rw [h1 hk]
    simp only [hk, true_and, Res.ok.injEq, List.append_cancel_left_eq, List.cons.injEq, and_true]
    by_cases hc : KnownCodePage c
    · simp [hc]
    · simp only [hc, if_false, iff_false]
      intro e; apply hc; rw [← e]; decide
  · obtain ⟨e, he⟩ := h2 hk
    rw [he]
    simp [hk]

/-- The written registration of a parsed one always has 15 bytes. -/
theorem registration_out_length {d v : Bytes} {m : VehicleRegistration}
    (h : unmarshalVehicleRegistration d = .ok m) (hv : appendVehicleRegistration [] (some m) = .ok v) :
    v.length = 15 := by
  obtain ⟨n, c, t, rfl, hl, _⟩ := registration_parse h
  obtain ⟨h1, h2⟩ := registration_roundtrip n c t [] m h
  by_cases hk : Known nationNumericTable n
  · rw [h1 hk, Res.ok.injEq] at hv; subst hv; simp [hl]
  · obtain ⟨e, he⟩ := h2 hk
    rw [he] at hv; cases hv

/-! ## HolderName -/

theorem holderName_parse {d : Bytes} {m : HolderName} (h : unmarshalHolderName d = .ok m) :
    d.length = 72 ∧ ∃ s f, unmarshalStringValue (sl d 0 36) = .ok s ∧
      unmarshalStringValue (sl d 36 72) = .ok f ∧ m = ⟨some s, some f⟩ := by
  simp only [unmarshalHolderName, Res.pure_eq, guard_eq_ok, bind_eq_ok, Res.ok.injEq, sl?_iff] at h
  obtain ⟨hl, a, ⟨_, _, rfl⟩, s, hs, b, ⟨_, _, rfl⟩, f, hf, rfl⟩ := h
  exact ⟨by simpa using hl, s, f, hs, hf, rfl⟩

theorem holderName_accepts_iff (d : Bytes) : (∃ m, unmarshalHolderName d = .ok m) ↔ d.length = 72 := by
  constructor
  · rintro ⟨m, h⟩; exact (holderName_parse h).1
  · intro hl
    obtain ⟨s, hs⟩ := (stringValue_accepts_iff (sl d 0 36)).mpr (by simp; omega)
    obtain ⟨f, hf⟩ := (stringValue_accepts_iff (sl d 36 72)).mpr (by simp; omega)
    refine ⟨⟨some s, some f⟩, ?_⟩
    simp only [unmarshalHolderName, Res.pure_eq, guard_eq_ok, bind_eq_ok, Res.ok.injEq, sl?_iff]
    exact ⟨by simp [hl], _, ⟨by omega, by omega, rfl⟩, s, hs, _, ⟨by omega, by omega, rfl⟩, f, hf, rfl⟩

theorem stringValue_slice_roundtrip {d dst : Bytes} {s : StringValue} (h : unmarshalStringValue d = .ok s)
    (hl : d.length ≤ 1000) :
    ∃ c t, d = c :: t ∧ appendStringValue dst (some s) = .ok (dst ++ (if KnownCodePage c then c else 255) :: t) := by
  have h2 := (stringValue_accepts_iff d).mp ⟨s, h⟩
  match d, h2 with
  | c :: x :: t, _ =>
    refine ⟨c, x :: t, rfl, stringValue_roundtrip c (x :: t) dst (by simp) ?_ s h⟩
    simp only [List.length_cons] at hl ⊢; omega

theorem codePage_restored {c : UInt8} : (if KnownCodePage c then c else 255) = c ↔ KnownCodePage c := by
  by_cases hc : KnownCodePage c
  · simp [hc]
  · simp only [hc, if_false, iff_false]
    intro e; apply hc; rw [← e]; decide

/-- C23: the 72 name bytes are restored exactly when both code pages are known; in every case 72 bytes
are written. -/
theorem holderName_roundtrip_iff (d dst : Bytes) (m : HolderName) (h : unmarshalHolderName d = .ok m) :
    ∃ out, appendHolderName dst (some m) = .ok (dst ++ out) ∧ out.length = 72 ∧
      (out = d ↔ ByteAt d 0 KnownCodePage ∧ ByteAt d 36 KnownCodePage) := by
  obtain ⟨hl, s, f, hs, hf, rfl⟩ := holderName_parse h
  obtain ⟨c1, t1, e1, r1⟩ := stringValue_slice_roundtrip (dst := dst) hs (by simp; omega)
  obtain ⟨c2, t2, e2, r2⟩ := stringValue_slice_roundtrip
    (dst := dst ++ (if KnownCodePage c1 then c1 else 255) :: t1) hf (by simp; omega)
  have l1 : t1.length = 35 := by
    have := congrArg List.length e1
    simp only [sl_length, List.length_cons] at this; omega
  have l2 : t2.length = 35 := by
    have := congrArg List.length e2
    simp only [sl_length, List.length_cons] at this; omega
  have hd : d = (c1 :: t1) ++ (c2 :: t2) := by
    rw [← e1, ← e2, sl_append (by omega) (by omega), sl_full' hl]
  refine ⟨((if KnownCodePage c1 then c1 else 255) :: t1) ++ (if KnownCodePage c2 then c2 else 255) :: t2,
    ?_, by simp [l1, l2], ?_⟩
  · simp only [appendHolderName, r1, Res.bind_ok, r2, List.append_assoc]
  · have b0 : ByteAt d 0 KnownCodePage ↔ KnownCodePage c1 := by rw [hd]; simp [ByteAt]
    have b1 : ByteAt d 36 KnownCodePage ↔ KnownCodePage c2 := by
      have := byteAt_sl (d := d) (a := 36) (b := 72) (i := 0) (P := KnownCodePage) (by omega)
      rw [e2, byteAt_cons_zero] at this
      exact this.symm
    rw [b0, b1, hd]
    simp only [List.cons_append, List.cons.injEq, List.append_cancel_left_eq, and_true, codePage_restored]

end

/-! ## Driver and owner identification -/

theorem driverIdentification_parse {d : Bytes} {m : DriverIdentification}
    (h : unmarshalDriverIdentification d = .ok m) :
    d.length = 14 ∧ ∃ s, unmarshalIa5StringValue d = .ok s ∧ m = ⟨some s, none, none⟩ := by
  simp only [unmarshalDriverIdentification, Res.pure_eq, guard_eq_ok, bind_eq_ok, Res.ok.injEq, sl?_iff] at h
  obtain ⟨hl, a, ⟨_, _, rfl⟩, s, hs, rfl⟩ := h
  have hl' : d.length = 14 := by simpa using hl
  rw [sl_full' hl'] at hs
  exact ⟨hl', s, hs, rfl⟩

/-- C23: a driver identification is restored; every 14 byte string is accepted, nothing else. -/
theorem driverIdentification_roundtrip (d dst : Bytes) (m : DriverIdentification)
    (h : unmarshalDriverIdentification d = .ok m) :
    appendDriverIdentification dst (some m) = .ok (dst ++ d) := by
  obtain ⟨hl, s, hs, rfl⟩ := driverIdentification_parse h
  exact ia5_roundtrip d dst (by omega) s hs

theorem driverIdentification_accepts_iff (d : Bytes) :
    (∃ m, unmarshalDriverIdentification d = .ok m) ↔ d.length = 14 := by
  constructor
  · rintro ⟨m, h⟩; exact (driverIdentification_parse h).1
  · intro hl
    obtain ⟨s, hs⟩ := (ia5_accepts_iff d).mpr (by intro e; rw [e] at hl; cases hl)
    refine ⟨⟨some s, none, none⟩, ?_⟩
    simp only [unmarshalDriverIdentification, Res.pure_eq, guard_eq_ok, bind_eq_ok, Res.ok.injEq, sl?_iff]
    exact ⟨by simp [hl], _, ⟨by omega, by omega, rfl⟩, s, by rw [sl_full' hl]; exact hs, rfl⟩

theorem ia5_slice_ok {d : Bytes} {a b : Nat} (h1 : a < b) (h2 : b ≤ d.length) :
    ∃ s, unmarshalIa5StringValue (sl d a b) = .ok s := by
  refine (ia5_accepts_iff _).mpr ?_
  intro e
  have := congrArg List.length e
  simp only [sl_length, List.length_nil] at this; omega

theorem ownerIdentification_parse {d : Bytes} {m : OwnerIdentification}
    (h : unmarshalOwnerIdentification d = .ok m) :
    d.length = 16 ∧ ∃ o c r n, unmarshalIa5StringValue (sl d 0 13) = .ok o ∧
      unmarshalIa5StringValue (sl d 13 14) = .ok c ∧ unmarshalIa5StringValue (sl d 14 15) = .ok r ∧
      unmarshalIa5StringValue (sl d 15 16) = .ok n ∧ m = ⟨some o, some c, some r, some n⟩ := by
  simp only [unmarshalOwnerIdentification, Res.pure_eq, guard_eq_ok, bind_eq_ok, Res.ok.injEq, sl?_iff] at h
  obtain ⟨hl, _, ⟨_, _, rfl⟩, o, ho, _, ⟨_, _, rfl⟩, c, hc, _, ⟨_, _, rfl⟩, r, hr, _, ⟨_, _, rfl⟩, n, hn, rfl⟩ := h
  exact ⟨by simpa using hl, o, c, r, n, ho, hc, hr, hn, rfl⟩

/-- C23: an owner identification is restored; every 16 byte string is accepted, nothing else. -/
theorem ownerIdentification_roundtrip (d dst : Bytes) (m : OwnerIdentification)
    (h : unmarshalOwnerIdentification d = .ok m) :
    appendOwnerIdentification dst (some m) = .ok (dst ++ d) := by
  obtain ⟨hl, o, c, r, n, ho, hc, hr, hn, rfl⟩ := ownerIdentification_parse h
  have key : ∀ a b s (dst : Bytes), unmarshalIa5StringValue (sl d a b) = .ok s →
      appendIa5StringValue dst (some s) = .ok (dst ++ sl d a b) :=
    fun a b s dst h => ia5_roundtrip _ _ (by simp; omega) s h
  simp only [appendOwnerIdentification, key _ _ _ _ ho, key _ _ _ _ hc, key _ _ _ _ hr, key _ _ _ _ hn,
    Res.bind_ok, List.append_assoc]
  rw [sl_append (by omega) (by omega), sl_append (by omega) (by omega), sl_append (by omega) (by omega),
    sl_full' hl]

theorem ownerIdentification_accepts_iff (d : Bytes) :
    (∃ m, unmarshalOwnerIdentification d = .ok m) ↔ d.length = 16 := by
  constructor
  · rintro ⟨m, h⟩; exact (ownerIdentification_parse h).1
  · intro hl
    obtain ⟨o, ho⟩ := ia5_slice_ok (d := d) (a := 0) (b := 13) (by omega) (by omega)
    obtain ⟨c, hc⟩ := ia5_slice_ok (d := d) (a := 13) (b := 14) (by omega) (by omega)
    obtain ⟨r, hr⟩ := ia5_slice_ok (d := d) (a := 14) (b := 15) (by omega) (by omega)
    obtain ⟨n, hn⟩ := ia5_slice_ok (d := d) (a := 15) (b := 16) (by omega) (by omega)
    refine ⟨⟨some o, some c, some r, some n⟩, ?_⟩
    simp only [unmarshalOwnerIdentification, Res.pure_eq, guard_eq_ok, bind_eq_ok, Res.ok.injEq, sl?_iff]
    exact ⟨by simp [hl], _, ⟨by omega, by omega, rfl⟩, o, ho, _, ⟨by omega, by omega, rfl⟩, c, hc,
      _, ⟨by omega, by omega, rfl⟩, r, hr, _, ⟨by omega, by omega, rfl⟩, n, hn, rfl⟩

/-! ## FullCardNumber (C24, C47) -/

/-- The protocol bytes of the card types the parser accepts: 1 driver, 2 workshop, 4 company
(equipment_type.proto). -/
def Spec.OwnerCard (b : UInt8) : Prop := b = 2 ∨ b = 4

theorem equipment_cases (b : UInt8) :
    (b = 1 ∧ unmarshalEnum equipmentTypeTable b = .ok equipmentType_driverCard) ∨
    (b = 2 ∧ unmarshalEnum equipmentTypeTable b = .ok equipmentType_workshopCard) ∨
    (b = 4 ∧ unmarshalEnum equipmentTypeTable b = .ok equipmentType_companyCard) ∨
    (b ≠ 1 ∧ b ≠ 2 ∧ b ≠ 4 ∧ (unmarshalEnum equipmentTypeTable b ≠ .ok equipmentType_driverCard ∧
      unmarshalEnum equipmentTypeTable b ≠ .ok equipmentType_workshopCard ∧
      unmarshalEnum equipmentTypeTable b ≠ .ok equipmentType_companyCard)) := by
  revert b
  apply forall_byte
  decide +kernel

/-- C24, C47: what is accepted and what is decoded. -/
theorem fullCardNumber_decode (d : Bytes) (m : FullCardNumber) :
    unmarshalFullCardNumber d = .ok m ↔ d.length = 18 ∧ ∃ t n, d[0]? = some t ∧ d[1]? = some n ∧
      m.issuingState = (n.toNat : Int) ∧
      ((t = 1 ∧ m.cardType = equipmentType_driverCard ∧ m.owner = none ∧
          ∃ x, unmarshalDriverIdentification (sl d 2 16) = .ok x ∧ m.driver = some x) ∨
       (OwnerCard t ∧ m.cardType = (if t = 2 then equipmentType_workshopCard else equipmentType_companyCard) ∧
          m.driver = none ∧ ∃ x, unmarshalOwnerIdentification (sl d 2 18) = .ok x ∧ m.owner = some x)) := by
  by_cases hl : d.length = 18
  case neg => simp [unmarshalFullCardNumber, hl]
  match d, hl with
  | t :: n :: r, hl =>
    have hr : r.length = 16 := by simpa using hl
    have hs : sl (sl (t :: n :: r) 2 18) 0 14 = sl (t :: n :: r) 2 16 := sl_sl (by omega)
    simp only [unmarshalFullCardNumber, hl, ne_eq, not_true_eq_false, if_false, Res.pure_eq, Res.bind_ok,
      at?_cons_zero, true_and, List.getElem?_cons_zero, List.getElem?_cons_succ, Option.some.injEq]
    have h1 : at? (t :: n :: r) 1 = .ok n := rfl
    have h2 : sl? (sl (t :: n :: r) 2 18) 0 14 = .ok (sl (t :: n :: r) 2 16) := by
      rw [sl?_ok (by omega) (by rw [sl_length]; omega), hs]
    rw [h1, sl?_ok (by omega) (by omega)]
    simp only [Res.bind_ok, h2]
    have ex : ∀ (P : UInt8 → UInt8 → Prop), (∃ t' n', t = t' ∧ n = n' ∧ P t' n') ↔ P t n := by
      intro P; constructor
      · rintro ⟨_, _, rfl, rfl, h⟩; exact h
      · intro h; exact ⟨_, _, rfl, rfl, h⟩
    rw [ex (fun t n => m.issuingState = (n.toNat : Int) ∧ _)]
    rcases equipment_cases t with ⟨rfl, he⟩ | ⟨rfl, he⟩ | ⟨rfl, he⟩ | ⟨h1, h2, h4, he⟩
    · rw [he]
      have : ¬ OwnerCard 1 := by unfold OwnerCard; decide
      simp only [Res.bind_ok, if_true, true_and, this, false_and, or_false, bind_eq_ok, Res.ok.injEq]
      obtain ⟨a, b, c, e⟩ := m
      simp only [FullCardNumber.mk.injEq]
      grind
    · rw [he]
      have h3 : ¬ (equipmentType_workshopCard = equipmentType_driverCard) := by decide
      have h4 : OwnerCard 2 := by unfold OwnerCard; decide
      have h5 : ¬ ((2 : UInt8) = 1) := by decide
      simp only [Res.bind_ok, if_true, h3, if_false, true_or, h5, false_and, false_or, h4, true_and,
        bind_eq_ok, Res.ok.injEq]
      obtain ⟨a, b, c, e⟩ := m
      simp only [FullCardNumber.mk.injEq]
      grind
    · rw [he]
      have h3 : ¬ (equipmentType_companyCard = equipmentType_driverCard) := by decide
      have h4 : OwnerCard 4 := by unfold OwnerCard; decide
      have h5 : ¬ ((4 : UInt8) = 1) := by decide
      have h6 : ¬ ((4 : UInt8) = 2) := by decide
      simp only [Res.bind_ok, if_true, h3, if_false, or_true, h5, false_and, false_or, h4, true_and,
        bind_eq_ok, Res.ok.injEq, h6]
      obtain ⟨a, b, c, e⟩ := m
      simp only [FullCardNumber.mk.injEq]
      grind
    · have h5 : ¬ OwnerCard t := by unfold OwnerCard; simp [h2, h4]
      simp only [h1, h5, false_and, or_self, and_false, iff_false, bind_eq_ok]
      rintro ⟨v, hv, hh⟩
      have q1 : v ≠ equipmentType_driverCard := by rintro rfl; exact he.1 hv
      have q2 : v ≠ equipmentType_workshopCard := by rintro rfl; exact he.2.1 hv
      have q3 : v ≠ equipmentType_companyCard := by rintro rfl; exact he.2.2 hv
      simp [q1, q2, q3] at hh

/-- C24: accepted exactly for 18 bytes of a driver, workshop or company card; control cards and
everything else are errors. -/
theorem fullCardNumber_accepts_iff (d : Bytes) : (∃ m, unmarshalFullCardNumber d = .ok m) ↔
    d.length = 18 ∧ ByteAt d 0 (fun b => b = 1 ∨ OwnerCard b) := by
  constructor
  · rintro ⟨m, h⟩
    obtain ⟨hl, t, n, ht, hn, _, hh⟩ := (fullCardNumber_decode d m).mp h
    refine ⟨hl, t, ht, ?_⟩
    rcases hh with ⟨h, _⟩ | ⟨h, _⟩
    · exact Or.inl h
    · exact Or.inr h
  · rintro ⟨hl, t, ht, hc⟩
    obtain ⟨n, hn⟩ : ∃ n, d[1]? = some n := ⟨d[1], List.getElem?_eq_getElem (by omega)⟩
    rcases hc with rfl | hc
    · obtain ⟨x, hx⟩ := (driverIdentification_accepts_iff (sl d 2 16)).mpr (by simp; omega)
      exact ⟨⟨equipmentType_driverCard, n.toNat, some x, none⟩, (fullCardNumber_decode d _).mpr
        ⟨hl, 1, n, ht, hn, rfl, Or.inl ⟨rfl, rfl, rfl, x, hx, rfl⟩⟩⟩
    · obtain ⟨x, hx⟩ := (ownerIdentification_accepts_iff (sl d 2 18)).mpr (by simp; omega)
      exact ⟨⟨_, n.toNat, none, some x⟩, (fullCardNumber_decode d _).mpr
        ⟨hl, t, n, ht, hn, rfl, Or.inr ⟨hc, rfl, rfl, x, hx, rfl⟩⟩⟩

theorem take2 {d : Bytes} {t n : UInt8} (h0 : d[0]? = some t) (h1 : d[1]? = some n) : sl d 0 2 = [t, n] := by
  match d with
  | [] => simp at h0
  | [_] => simp at h1
  | a :: b :: r =>
    simp at h0 h1
    subst h0 h1
    simp [sl]

/-- C24, what is written for a parsed number: workshop and company numbers are restored; of a
driver card number the last two bytes (replacement and renewal index) are written as 00 00. -/
theorem fullCardNumber_roundtrip (d dst : Bytes) (m : FullCardNumber) (h : unmarshalFullCardNumber d = .ok m) :
    (ByteAt d 0 OwnerCard → appendFullCardNumber dst (some m) = .ok (dst ++ d)) ∧
    (ByteAt d 0 (· = 1) → appendFullCardNumber dst (some m) = .ok (dst ++ (d.take 16 ++ [0, 0]))) := by
  obtain ⟨hl, t, n, ht, hn, hi, hh⟩ := (fullCardNumber_decode d m).mp h
  have h02 := take2 ht hn
  have ib : i2b m.issuingState = n := by rw [hi, i2b_toNat]
  rcases hh with ⟨rfl, hc, ho, x, hx, hd⟩ | ⟨hoc, hc, hd, x, hx, ho⟩
  · constructor
    · rintro ⟨b, hb, hb'⟩
      rw [ht] at hb; cases hb
      exact absurd hb' (by unfold OwnerCard; decide)
    · intro _
      have hm : marshalEnum equipmentTypeTable equipmentType_driverCard = .ok 1 := by decide
      have hr := driverIdentification_roundtrip (sl d 2 16) (dst ++ [1, n]) x hx
      simp only [appendFullCardNumber, hc, hm, Res.bind_ok, if_true, hd, ib, hr, Res.pure_eq]
      rw [← h02, List.append_assoc, List.append_assoc, sl_append_assoc (by omega) (by omega)]
      simp [sl]
  · constructor
    · intro _
      have hr := ownerIdentification_roundtrip (sl d 2 18) (dst ++ [t, n]) x hx
      have hm : marshalEnum equipmentTypeTable m.cardType = .ok t := by
        rw [hc]; rcases hoc with rfl | rfl <;> decide
      have hnd : m.cardType ≠ equipmentType_driverCard := by
        rw [hc]; rcases hoc with rfl | rfl <;> decide
      have how : m.cardType = equipmentType_workshopCard ∨ m.cardType = equipmentType_companyCard := by
        rw [hc]; rcases hoc with rfl | rfl <;> decide
      simp only [appendFullCardNumber, hm, Res.bind_ok, hnd, if_false, how, if_true, ho, ib, hr]
      rw [← h02, List.append_assoc, sl_append (by omega) (by omega), sl_full' hl]
    · rintro ⟨b, hb, rfl⟩
      rw [ht] at hb; cases hb
      exact absurd hoc (by unfold OwnerCard; decide)

/-- C24: the exact condition under which the 18 bytes survive. -/
theorem fullCardNumber_roundtrip_iff (d dst : Bytes) (m : FullCardNumber) (h : unmarshalFullCardNumber d = .ok m) :
    appendFullCardNumber dst (some m) = .ok (dst ++ d) ↔ (ByteAt d 0 OwnerCard ∨ sl d 16 18 = [0, 0]) := by
  obtain ⟨r1, r2⟩ := fullCardNumber_roundtrip d dst m h
  obtain ⟨hl, b, hb, hc⟩ := (fullCardNumber_accepts_iff d).mp ⟨m, h⟩
  rcases hc with h1 | h1
  · rw [r2 ⟨b, hb, h1⟩]
    have hno : ¬ ByteAt d 0 OwnerCard := by
      rintro ⟨c, hc, hc'⟩
      rw [hb] at hc; cases hc; subst h1
      exact absurd hc' (by unfold OwnerCard; decide)
    simp only [hno, false_or, Res.ok.injEq, List.append_cancel_left_eq]
    have e : d = d.take 16 ++ sl d 16 18 := by
      have : d.take 16 = sl d 0 16 := by simp [sl]
      rw [this, sl_append (by omega) (by omega), sl_full' hl]
    constructor
    · intro hh
      rw [e, List.take_append_of_le_length (by simp; omega), List.take_take, Nat.min_self] at hh
      exact (List.append_cancel_left hh).symm
    · intro hh; rw [← hh, ← e]
  · rw [r1 ⟨b, hb, h1⟩]
    simp only [true_iff]
    exact Or.inl ⟨b, hb, h1⟩

/-- C24 is false as first stated: a driver card number with indices "1", "2" is not restored. -/
theorem fullCardNumber_driver_lost : ∃ d m, unmarshalFullCardNumber d = .ok m ∧ d.length = 18 ∧
    appendFullCardNumber [] (some m) ≠ .ok d := by
  let d : Bytes := [1, 0x12] ++ List.replicate 14 0x41 ++ [0x31, 0x32]
  obtain ⟨m, hm⟩ := (fullCardNumber_accepts_iff d).mpr ⟨by decide, 1, by decide, Or.inl rfl⟩
  refine ⟨d, m, hm, by decide, ?_⟩
  intro h
  have := (fullCardNumber_roundtrip_iff d [] m hm).mp h
  rcases this with ⟨b, hb, hc⟩ | h
  · have : b = 1 := by
      have : d[0]? = some 1 := by decide
      rw [this] at hb; cases hb; rfl
    subst this
    exact absurd hc (by unfold OwnerCard; decide)
  · exact absurd h (by decide)

/-- C24: control card numbers (protocol byte 3) are never accepted. -/
theorem fullCardNumber_control_rejected (d : Bytes) (h : d[0]? = some 3) (m : FullCardNumber) :
    unmarshalFullCardNumber d ≠ .ok m := by
  intro hm
  obtain ⟨_, b, hb, hc⟩ := (fullCardNumber_accepts_iff d).mp ⟨m, hm⟩
  rw [h] at hb; cases hb
  rcases hc with hc | hc
  · exact absurd hc (by decide)
  · exact absurd hc (by unfold OwnerCard; decide)

/-- C47: the decoded issuing member state is the protocol byte used as an enum number. It agrees with
the nation the byte names (the table by which every other nation field is decoded) only for byte 56. -/
theorem fullCardNumber_nation_iff (d : Bytes) (m : FullCardNumber) (h : unmarshalFullCardNumber d = .ok m)
    (n : UInt8) (hn : d[1]? = some n) :
    m.issuingState = n.toNat ∧ ((m.issuingState, some n.toNat) ∈ nationNumericTable ↔ n = 56) := by
  obtain ⟨_, t, n', _, hn', hi, _⟩ := (fullCardNumber_decode d m).mp h
  rw [hn] at hn'; cases hn'
  rw [hi]
  have key : ∀ b : UInt8, ((b.toNat : Int), some b.toNat) ∈ nationNumericTable ↔ b = 56 := by
    apply forall_byte
    decide +kernel
  exact ⟨rfl, key n⟩

/-- C47, example: byte 0x12 is Finland for the data dictionary, but the decoded issuing state is the
nation whose enum number is 18 (byte 15). -/
example : unmarshalEnum nationNumericTable 0x12 = .ok nationNumeric_finland ∧
    unmarshalEnum nationNumericTable 15 = .ok 18 := by decide

/-! ## FullCardNumberAndGeneration -/

theorem fullCardNumberAndGeneration_decode (d : Bytes) (m : FullCardNumberAndGeneration) :
    unmarshalFullCardNumberAndGeneration d = .ok m ↔ ∃ d' g c v, d = d' ++ [g] ∧
      unmarshalFullCardNumber d' = .ok c ∧ unmarshalEnum generationTable g = .ok v ∧ m = ⟨some c, v⟩ := by
  by_cases h0 : d = []
  · subst h0
    simp [unmarshalFullCardNumberAndGeneration]
  · obtain ⟨d', g, rfl⟩ : ∃ d' g, d = d' ++ [g] := ⟨d.dropLast, d.getLast h0, (List.dropLast_concat_getLast h0).symm⟩
    have h1 : ¬ (d' ++ [g]).length < 1 := by simp
    have h2 : at? (d' ++ [g]) ((d' ++ [g]).length - 1) = .ok g := by simp [at?]
    have h3 : sl? (d' ++ [g]) 0 ((d' ++ [g]).length - 1) = .ok d' := by
      rw [sl?_ok (by omega) (by omega)]; simp [sl]
    simp only [unmarshalFullCardNumberAndGeneration, h1, if_false, Res.pure_eq, Res.bind_ok, h2, h3,
      bind_eq_ok, Res.ok.injEq]
    constructor
    · rintro ⟨v, hv, c, hc, rfl⟩; exact ⟨d', g, c, v, rfl, hc, hv, rfl⟩
    · rintro ⟨d2, g2, c, v, he, hc, hv, rfl⟩
      have h5 := List.append_inj_right' he rfl
      have h6 := List.append_inj_left' he rfl
      cases h5; subst h6
      exact ⟨v, hv, c, hc, rfl⟩

/-- C23/C24 for the number with generation: the generation byte survives, the number behaves as
`fullCardNumber_roundtrip_iff` says. -/
theorem fullCardNumberAndGeneration_roundtrip_iff (d dst : Bytes) (m : FullCardNumberAndGeneration)
    (h : unmarshalFullCardNumberAndGeneration d = .ok m) :
    appendFullCardNumberAndGeneration dst (some m) = .ok (dst ++ d) ↔
      (ByteAt d 0 OwnerCard ∨ sl d 16 18 = [0, 0]) := by
  obtain ⟨d', g, c, v, rfl, hc, hv, rfl⟩ := (fullCardNumberAndGeneration_decode d m).mp h
  have hl := ((fullCardNumber_accepts_iff d').mp ⟨c, hc⟩).1
  have b0 : ByteAt (d' ++ [g]) 0 OwnerCard ↔ ByteAt d' 0 OwnerCard := by
    unfold ByteAt; rw [List.getElem?_append_left (by omega)]
  rw [sl_append_left (by omega), b0, ← fullCardNumber_roundtrip_iff d' dst c hc]
  have hm := enum_decode_encode generationTable (by decide) g v hv
  simp only [appendFullCardNumberAndGeneration, hm, Res.bind_ok, Res.pure_eq]
  cases hx : appendFullCardNumber dst (some c) with
  | ok x =>
    simp only [Res.bind_ok, Res.ok.injEq, ← List.append_assoc, List.append_cancel_right_eq]
  | err e => simp
  | panic => simp

/-! ## ExtendedSerialNumber -/

theorem monthYear_ok {d : Bytes} (h : d.length = 2) : ∃ m, unmarshalMonthYear d = .ok m := by
  match d, h with
  | [a, b], _ => exact ⟨_, monthYear_decode a b⟩

theorem monthYear_len {d : Bytes} {m : MonthYear} (h : unmarshalMonthYear d = .ok m) : d.length = 2 := by
  simp only [unmarshalMonthYear, Res.pure_eq, guard_eq_ok] at h
  simpa using h.1

theorem extendedSerialNumber_parse {d : Bytes} {m : ExtendedSerialNumber}
    (h : unmarshalExtendedSerialNumber d = .ok m) :
    d.length = 8 ∧ ∃ my t c, unmarshalMonthYear (sl d 4 6) = .ok my ∧ sl d 6 7 = [t] ∧ sl d 7 8 = [c] ∧
      m = ⟨(beNat (sl d 0 4) : Int), some my, enumOr1 equipmentTypeTable t, (c.toNat : Int)⟩ := by
  simp only [unmarshalExtendedSerialNumber, Res.pure_eq, guard_eq_ok, bind_eq_ok, Res.ok.injEq, sl?_iff,
    at?_iff] at h
  obtain ⟨hl, _, ⟨_, _, rfl⟩, _, ⟨_, _, rfl⟩, my, hmy, t, ⟨_, ht⟩, c, ⟨_, hc⟩, rfl⟩ := h
  exact ⟨by simpa using hl, my, t, c, hmy, ht, hc, rfl⟩

theorem extendedSerialNumber_accepts_iff (d : Bytes) :
    (∃ m, unmarshalExtendedSerialNumber d = .ok m) ↔ d.length = 8 := by
  constructor
  · rintro ⟨m, h⟩; exact (extendedSerialNumber_parse h).1
  · intro hl
    obtain ⟨my, hmy⟩ := monthYear_ok (d := sl d 4 6) (by simp; omega)
    simp only [unmarshalExtendedSerialNumber, Res.pure_eq, guard_eq_ok, bind_eq_ok, Res.ok.injEq, sl?_iff,
      at?_iff]
    exact ⟨_, by simp [hl], _, ⟨by omega, by omega, rfl⟩, _, ⟨by omega, by omega, rfl⟩, my, hmy,
      d[6], ⟨by omega, sl_eq_singleton (by omega)⟩, d[7], ⟨by omega, sl_eq_singleton (by omega)⟩, rfl⟩

theorem appendMonthYear_ext (dst : Bytes) (m : MonthYear) :
    appendMonthYear dst m = (appendMonthYear [] m >>= fun e => .ok (dst ++ e)) := by
  unfold appendMonthYear
  dsimp only
  split <;> simp

theorem enumOr1_known {t : EnumTable} (ht : t ∈ allEnumTables) (h1 : (1, none) ∈ t) (b : UInt8) :
    (Known t b → marshalEnum t (enumOr1 t b) = .ok b) ∧
    (¬ Known t b → ∃ e, marshalEnum t (enumOr1 t b) = .err e) := by
  constructor
  · intro hk
    obtain ⟨v, hv⟩ := known_iff.mp hk
    have : enumOr1 t b = v := by unfold enumOr1; rw [hv]
    rw [this]; exact enum_decode_encode t ht b v hv
  · intro hk
    have : enumOr1 t b = enumUnrecognized := by
      unfold enumOr1
      cases hu : unmarshalEnum t b with
      | ok v => exact absurd (known_iff.mpr ⟨v, hu⟩) hk
      | err _ => rfl
      | panic => rfl
    rw [this]
    cases hm : marshalEnum t enumUnrecognized with
    | err e => exact ⟨e, rfl⟩
    | ok b =>
      have h2 := enum_encode_decode t ht b _ hm
      exact absurd h2 (unrec_not_named ht h1 b)
    | panic => unfold marshalEnum at hm; split at hm <;> cases hm

/-- C23: the eight bytes are restored exactly when month and year are BCD and the equipment type is
known (with an unknown type the parsed value cannot be written). -/
theorem extendedSerialNumber_roundtrip_iff (d dst : Bytes) (m : ExtendedSerialNumber)
    (h : unmarshalExtendedSerialNumber d = .ok m) :
    appendExtendedSerialNumber dst (some m) = .ok (dst ++ d) ↔
      ByteAt d 4 IsBcd ∧ ByteAt d 5 IsBcd ∧ ByteAt d 6 (Known equipmentTypeTable) := by
  obtain ⟨hl, my, t, c, hmy, ht, hc, rfl⟩ := extendedSerialNumber_parse h
  have hser : beBytes 4 (low 32 (beNat (sl d 0 4) : Int)) = sl d 0 4 := by
    have hl4 : (sl d 0 4).length = 4 := by simp; omega
    have := beNat_lt (sl d 0 4)
    rw [hl4] at this
    rw [low_nat _ _ (by omega), beBytes_beNat' hl4]
  obtain ⟨b0, b1, hb⟩ : ∃ b0 b1, sl d 4 6 = [b0, b1] := by
    have : (sl d 4 6).length = 2 := by simp; omega
    match sl d 4 6, this with
    | [a, b], _ => exact ⟨a, b, rfl⟩
  have q4 : ByteAt d 4 IsBcd ↔ IsBcd b0 := by
    have := byteAt_sl (d := d) (a := 4) (b := 6) (i := 0) (P := IsBcd) (by omega)
    rw [hb, byteAt_cons_zero] at this; exact this.symm
  have q5 : ByteAt d 5 IsBcd ↔ IsBcd b1 := by
    have := byteAt_sl (d := d) (a := 4) (b := 6) (i := 1) (P := IsBcd) (by omega)
    rw [hb] at this
    rw [← this]; simp [ByteAt]
  have hmr := monthYear_roundtrip_iff b0 b1 []
  rw [← hb, hmy] at hmr
  simp only [Res.ok.injEq, exists_eq_left', List.nil_append] at hmr
  have hd : d = sl d 0 4 ++ (sl d 4 6 ++ ([t] ++ [c])) := by
    rw [← ht, ← hc, sl_append (by omega) (by omega), sl_append (by omega) (by omega),
      sl_append (by omega) (by omega), sl_full' hl]
  rw [byteAt_of_sl ht, q4, q5, ← and_assoc, ← hmr]
  simp only [appendExtendedSerialNumber, Option.getD_some, hser, i2b_toNat]
  rw [appendMonthYear_ext]
  obtain ⟨k1, k2⟩ := enumOr1_known (t := equipmentTypeTable) (by decide) (by decide) t
  by_cases hk : Known equipmentTypeTable t
  · rw [k1 hk]
    simp only [hk, and_true, Res.bind_ok, Res.pure_eq]
    cases hx : appendMonthYear [] my with
    | ok x =>
      simp only [Res.bind_ok, Res.ok.injEq]
      constructor
      · intro he
        have he' : dst ++ sl d 0 4 ++ (x ++ [t, c]) = dst ++ sl d 0 4 ++ (sl d 4 6 ++ [t, c]) := by
          rw [← List.append_assoc, he]
          conv => lhs; rw [hd]
          simp
        exact List.append_cancel_right (List.append_cancel_left he')
      · intro he
        rw [he]
        conv => rhs; rw [hd]
        simp
    | err e => simp
    | panic => simp
  · obtain ⟨e, he⟩ := k2 hk
    rw [he]
    simp only [hk, and_false, iff_false]
    cases hx : appendMonthYear [] my <;> simp

/-! ## GNSS records -/

theorem gnss_parse {d : Bytes} {m : GNSSPlaceRecord} (h : unmarshalGNSSPlaceRecord d = .ok m) :
    d.length = 11 ∧ ∃ ts a g, unmarshalTimeReal (sl d 0 4) = .ok ts ∧ sl d 4 5 = [a] ∧
      unmarshalGeoCoordinates (sl d 5 11) = .ok g ∧ m = ⟨ts, (a.toNat : Int), some g⟩ := by
  simp only [unmarshalGNSSPlaceRecord, Res.pure_eq, guard_eq_ok, bind_eq_ok, Res.ok.injEq, sl?_iff, at?_iff] at h
  obtain ⟨hl, _, ⟨_, _, rfl⟩, ts, hts, a, ⟨_, ha⟩, _, ⟨_, _, rfl⟩, g, hg, rfl⟩ := h
  exact ⟨by simpa using hl, ts, a, g, hts, ha, hg, rfl⟩

/-- C23: GNSS place records are restored, always. -/
theorem gnss_roundtrip (d dst : Bytes) (m : GNSSPlaceRecord) (h : unmarshalGNSSPlaceRecord d = .ok m) :
    appendGNSSPlaceRecord dst (some m) = .ok (dst ++ d) := by
  obtain ⟨hl, ts, a, g, hts, ha, hg, rfl⟩ := gnss_parse h
  have hlt := byte_lt a
  have hc : ¬ ((a.toNat : Int) < 0 ∨ (a.toNat : Int) > 255) := by omega
  simp only [appendGNSSPlaceRecord, timeReal_slice hts, Res.bind_ok, hc, if_false, Res.pure_eq, i2b_toNat,
    Option.getD_some, geo_roundtrip _ _ _ hg]
  rw [← ha, List.append_assoc, List.append_assoc, sl_append (by omega) (by omega), sl_append (by omega) (by omega),
    sl_full' hl]

theorem timeReal_slice_ok {d : Bytes} {a b : Nat} (h1 : a + 4 = b) (h2 : b ≤ d.length) :
    ∃ ts, unmarshalTimeReal (sl d a b) = .ok ts := (timeReal_accepts_iff _).mpr (by simp; omega)

theorem geo_slice_ok {d : Bytes} {a b : Nat} (h1 : a + 6 = b) (h2 : b ≤ d.length) :
    ∃ g, unmarshalGeoCoordinates (sl d a b) = .ok g :=
  ⟨_, (geo_accepts_iff _ _).mpr ⟨by simp; omega, rfl⟩⟩

theorem gnss_accepts_iff (d : Bytes) : (∃ m, unmarshalGNSSPlaceRecord d = .ok m) ↔ d.length = 11 := by
  constructor
  · rintro ⟨m, h⟩; exact (gnss_parse h).1
  · intro hl
    obtain ⟨ts, hts⟩ := timeReal_slice_ok (d := d) (a := 0) (b := 4) (by omega) (by omega)
    obtain ⟨g, hg⟩ := geo_slice_ok (d := d) (a := 5) (b := 11) (by omega) (by omega)
    simp only [unmarshalGNSSPlaceRecord, Res.pure_eq, guard_eq_ok, bind_eq_ok, Res.ok.injEq, sl?_iff, at?_iff]
    exact ⟨_, by simp [hl], _, ⟨by omega, by omega, rfl⟩, ts, hts, d[4], ⟨by omega, sl_eq_singleton (by omega)⟩,
      _, ⟨by omega, by omega, rfl⟩, g, hg, rfl⟩

theorem gnssAuth_parse {d : Bytes} {m : GNSSPlaceAuthRecord} (h : unmarshalGNSSPlaceAuthRecord d = .ok m) :
    d.length = 12 ∧ ∃ ts a g s, unmarshalTimeReal (sl d 0 4) = .ok ts ∧ sl d 4 5 = [a] ∧
      unmarshalGeoCoordinates (sl d 5 11) = .ok g ∧ sl d 11 12 = [s] ∧
      m = ⟨ts, (a.toNat : Int), some g, (enumOrUnrecognized positionAuthenticationStatusTable s).1,
        (enumOrUnrecognized positionAuthenticationStatusTable s).2⟩ := by
  simp only [unmarshalGNSSPlaceAuthRecord, Res.pure_eq, guard_eq_ok, bind_eq_ok, Res.ok.injEq, sl?_iff, at?_iff] at h
  obtain ⟨hl, _, ⟨_, _, rfl⟩, ts, hts, a, ⟨_, ha⟩, _, ⟨_, _, rfl⟩, g, hg, s, ⟨_, hs⟩, rfl⟩ := h
  exact ⟨by simpa using hl, ts, a, g, s, hts, ha, hg, hs, rfl⟩

/-- C23: authenticated GNSS place records are restored, always (unknown status bytes included). -/
theorem gnssAuth_roundtrip (d dst : Bytes) (m : GNSSPlaceAuthRecord)
    (h : unmarshalGNSSPlaceAuthRecord d = .ok m) :
    appendGNSSPlaceAuthRecord dst (some m) = .ok (dst ++ d) := by
  obtain ⟨hl, ts, a, g, s, hts, ha, hg, hs, rfl⟩ := gnssAuth_parse h
  have he := enumByte_roundtrip (t := positionAuthenticationStatusTable) (by decide) (by decide) s
  simp only [appendGNSSPlaceAuthRecord, timeReal_slice hts, Res.bind_ok, Res.pure_eq, i2b_toNat,
    Option.getD_some, geo_roundtrip _ _ _ hg, he]
  rw [← ha, ← hs, List.append_assoc, List.append_assoc, List.append_assoc, sl_append (by omega) (by omega),
    sl_append (by omega) (by omega), sl_append (by omega) (by omega), sl_full' hl]

theorem gnssAuth_accepts_iff (d : Bytes) : (∃ m, unmarshalGNSSPlaceAuthRecord d = .ok m) ↔ d.length = 12 := by
  constructor
  · rintro ⟨m, h⟩; exact (gnssAuth_parse h).1
  · intro hl
    obtain ⟨ts, hts⟩ := timeReal_slice_ok (d := d) (a := 0) (b := 4) (by omega) (by omega)
    obtain ⟨g, hg⟩ := geo_slice_ok (d := d) (a := 5) (b := 11) (by omega) (by omega)
    simp only [unmarshalGNSSPlaceAuthRecord, Res.pure_eq, guard_eq_ok, bind_eq_ok, Res.ok.injEq, sl?_iff, at?_iff]
    exact ⟨_, by simp [hl], _, ⟨by omega, by omega, rfl⟩, ts, hts, d[4], ⟨by omega, sl_eq_singleton (by omega)⟩,
      _, ⟨by omega, by omega, rfl⟩, g, hg, d[11], ⟨by omega, sl_eq_singleton (by omega)⟩, rfl⟩

/-! ## Place records -/

/-- The message of the ten place bytes. -/
def placeOf (raw d : Bytes) (ts : Option Timestamp) (e c r : UInt8) : PlaceRecord := {
  rawData := some raw
  entryTime := ts
  entryType := (enumOrUnrecognized entryTypeDailyWorkPeriodTable e).1
  unrecognizedEntryType := (enumOrUnrecognized entryTypeDailyWorkPeriodTable e).2
  country := (enumOrUnrecognized nationNumericTable c).1
  unrecognizedCountry := (enumOrUnrecognized nationNumericTable c).2
  region := [r]
  odometerKm := (beNat (sl d 7 10) : Int) }

theorem place_parse {d : Bytes} {m : PlaceRecord} (h : unmarshalPlaceRecord d = .ok m) :
    d.length = 10 ∧ ∃ ts e c r, unmarshalTimeReal (sl d 0 4) = .ok ts ∧ sl d 4 5 = [e] ∧ sl d 5 6 = [c] ∧
      sl d 6 7 = [r] ∧ m = placeOf d d ts e c r := by
  simp only [unmarshalPlaceRecord, Res.pure_eq, guard_eq_ok, bind_eq_ok, Res.ok.injEq, sl?_iff, at?_iff] at h
  obtain ⟨hl, _, ⟨_, _, rfl⟩, ts, hts, e, ⟨_, he⟩, c, ⟨_, hc⟩, r, ⟨_, hr⟩, _, ⟨_, _, rfl⟩, rfl⟩ := h
  exact ⟨by simpa using hl, ts, e, c, r, hts, he, hc, hr, rfl⟩

theorem paintPlace_self {d : Bytes} {ts : Option Timestamp} {e c r : UInt8} (raw : Bytes)
    (hl : 10 ≤ d.length) (hts : unmarshalTimeReal (sl d 0 4) = .ok ts) (he : sl d 4 5 = [e])
    (hc : sl d 5 6 = [c]) (hr : sl d 6 7 = [r]) : paintPlace d (placeOf raw d ts e c r) = .ok d := by
  have e1 := enumByteLax_roundtrip (t := entryTypeDailyWorkPeriodTable) (by decide) (by decide) e
  have e2 := enumByteLax_roundtrip (t := nationNumericTable) (by decide) (by decide) c
  simp only [paintPlace, placeOf, timeReal_slice hts, Res.bind_ok, List.nil_append, e1, e2, Res.pure_eq,
    appendOdometer_eq, odometer_slice (d := sl d 7 10) (by simp; omega), Res.ok.injEq]
  have h1 : paint d 0 4 (sl d 0 4) = d := paint_self (by omega) rfl
  have h2 : paint d 4 1 [e] = d := paint_self (by omega) he.symm
  have h3 : paint d 5 1 [c] = d := paint_self (by omega) hc.symm
  have h4 : paint d 6 1 ([r].take 1) = d := paint_self (by omega) hr.symm
  have h5 : paint d 7 3 (sl d 7 10) = d := paint_self (by omega) rfl
  rw [h1, h2, h3, h4, h5]

/-- C23: place records are restored, always (unknown entry types and countries included). -/
theorem place_roundtrip (d dst : Bytes) (m : PlaceRecord) (h : unmarshalPlaceRecord d = .ok m) :
    appendPlaceRecord dst m = .ok (dst ++ d) := by
  obtain ⟨hl, ts, e, c, r, hts, he, hc, hr, rfl⟩ := place_parse h
  have hcv : canvasNonEmpty (placeOf d d ts e c r).rawData 10 = .ok d := canvasNonEmpty_raw hl (by omega)
  simp only [appendPlaceRecord, hcv, Res.bind_ok, paintPlace_self d (by omega) hts he hc hr, Res.pure_eq]

theorem place_accepts_iff (d : Bytes) : (∃ m, unmarshalPlaceRecord d = .ok m) ↔ d.length = 10 := by
  constructor
  · rintro ⟨m, h⟩; exact (place_parse h).1
  · intro hl
    obtain ⟨ts, hts⟩ := timeReal_slice_ok (d := d) (a := 0) (b := 4) (by omega) (by omega)
    simp only [unmarshalPlaceRecord, Res.pure_eq, guard_eq_ok, bind_eq_ok, Res.ok.injEq, sl?_iff, at?_iff]
    exact ⟨_, by simp [hl], _, ⟨by omega, by omega, rfl⟩, ts, hts, d[4], ⟨by omega, sl_eq_singleton (by omega)⟩,
      d[5], ⟨by omega, sl_eq_singleton (by omega)⟩, d[6], ⟨by omega, sl_eq_singleton (by omega)⟩,
      _, ⟨by omega, by omega, rfl⟩, rfl⟩

theorem placeG2_parse {d : Bytes} {m : PlaceRecordG2} (h : unmarshalPlaceRecordG2 d = .ok m) :
    d.length = 21 ∧ ∃ ts e c r g, unmarshalTimeReal (sl d 0 4) = .ok ts ∧ sl d 4 5 = [e] ∧ sl d 5 6 = [c] ∧
      sl d 6 7 = [r] ∧ unmarshalGNSSPlaceRecord (sl d 10 21) = .ok g ∧ m = ⟨placeOf d d ts e c r, some g⟩ := by
  simp only [unmarshalPlaceRecordG2, Res.pure_eq, guard_eq_ok, bind_eq_ok, Res.ok.injEq, sl?_iff, at?_iff] at h
  obtain ⟨hl, _, ⟨_, _, rfl⟩, ts, hts, e, ⟨_, he⟩, c, ⟨_, hc⟩, r, ⟨_, hr⟩, _, ⟨_, _, rfl⟩, _, ⟨_, _, rfl⟩, g, hg, rfl⟩ := h
  exact ⟨by simpa using hl, ts, e, c, r, g, hts, he, hc, hr, hg, rfl⟩

/-- C23: Gen2 place records are restored, always. -/
theorem placeG2_roundtrip (d dst : Bytes) (m : PlaceRecordG2) (h : unmarshalPlaceRecordG2 d = .ok m) :
    appendPlaceRecordG2 dst m = .ok (dst ++ d) := by
  obtain ⟨hl, ts, e, c, r, g, hts, he, hc, hr, hg, rfl⟩ := placeG2_parse h
  have hcv : canvasNonEmpty (placeOf d d ts e c r).rawData 21 = .ok d := canvasNonEmpty_raw hl (by omega)
  simp only [appendPlaceRecordG2, hcv, Res.bind_ok, paintPlace_self d (by omega) hts he hc hr, Res.pure_eq,
    gnss_roundtrip _ _ _ hg, List.nil_append]
  rw [paint_self (by omega) rfl]

theorem placeG2_accepts_iff (d : Bytes) : (∃ m, unmarshalPlaceRecordG2 d = .ok m) ↔ d.length = 21 := by
  constructor
  · rintro ⟨m, h⟩; exact (placeG2_parse h).1
  · intro hl
    obtain ⟨ts, hts⟩ := timeReal_slice_ok (d := d) (a := 0) (b := 4) (by omega) (by omega)
    obtain ⟨g, hg⟩ := (gnss_accepts_iff (sl d 10 21)).mpr (by simp; omega)
    simp only [unmarshalPlaceRecordG2, Res.pure_eq, guard_eq_ok, bind_eq_ok, Res.ok.injEq, sl?_iff, at?_iff]
    exact ⟨_, by simp [hl], _, ⟨by omega, by omega, rfl⟩, ts, hts, d[4], ⟨by omega, sl_eq_singleton (by omega)⟩,
      d[5], ⟨by omega, sl_eq_singleton (by omega)⟩, d[6], ⟨by omega, sl_eq_singleton (by omega)⟩,
      _, ⟨by omega, by omega, rfl⟩, _, ⟨by omega, by omega, rfl⟩, g, hg, rfl⟩

/-! ## Specific conditions -/

theorem specificCondition_parse {d : Bytes} {m : SpecificConditionRecord}
    (h : unmarshalSpecificConditionRecord d = .ok m) :
    d.length = 5 ∧ ∃ ts b, unmarshalTimeReal (sl d 0 4) = .ok ts ∧ sl d 4 5 = [b] ∧
      m = ⟨ts, (enumOrUnrecognized specificConditionTypeTable b).1,
        (enumOrUnrecognized specificConditionTypeTable b).2⟩ := by
  simp only [unmarshalSpecificConditionRecord, Res.pure_eq, guard_eq_ok, bind_eq_ok, Res.ok.injEq, sl?_iff, at?_iff] at h
  obtain ⟨hl, _, ⟨_, _, rfl⟩, ts, hts, b, ⟨_, hb⟩, rfl⟩ := h
  exact ⟨by simpa using hl, ts, b, hts, hb, rfl⟩

/-- C23: specific condition records are restored, always. -/
theorem specificCondition_roundtrip (d dst : Bytes) (m : SpecificConditionRecord)
    (h : unmarshalSpecificConditionRecord d = .ok m) :
    appendSpecificConditionRecord dst (some m) = .ok (dst ++ d) := by
  obtain ⟨hl, ts, b, hts, hb, rfl⟩ := specificCondition_parse h
  have he := enumByte_roundtrip (t := specificConditionTypeTable) (by decide) (by decide) b
  simp only [appendSpecificConditionRecord, timeReal_slice hts, Res.bind_ok, Res.pure_eq, he]
  rw [← hb, List.append_assoc, sl_append (by omega) (by omega), sl_full' hl]

theorem specificCondition_accepts_iff (d : Bytes) :
    (∃ m, unmarshalSpecificConditionRecord d = .ok m) ↔ d.length = 5 := by
  constructor
  · rintro ⟨m, h⟩; exact (specificCondition_parse h).1
  · intro hl
    obtain ⟨ts, hts⟩ := timeReal_slice_ok (d := d) (a := 0) (b := 4) (by omega) (by omega)
    simp only [unmarshalSpecificConditionRecord, Res.pure_eq, guard_eq_ok, bind_eq_ok, Res.ok.injEq, sl?_iff, at?_iff]
    exact ⟨_, by simp [hl], _, ⟨by omega, by omega, rfl⟩, ts, hts, d[4], ⟨by omega, sl_eq_singleton (by omega)⟩, rfl⟩

end Tacho
