import Verif.Spec.Fidelity
import Verif.Props.Join
import Verif.Props.ScannedFiles
/-!
# C79: what leaves no trace in the message
-/

namespace Tacho
open Spec

/-! ## Bytes -/

theorem Spec.AlikeOn.append {a b c : Nat} {ns : List Nat} {d e : Bytes} (h1 : AlikeOn a b ns d e) (h2 : AlikeOn b c ns d e) :
    AlikeOn a c ns d e := fun i hi hi' => by
  by_cases h : i < b
  · exact h1 i hi h
  · exact h2 i (by omega) hi'

theorem Spec.AlikeOn.mono {a b a' b' : Nat} {ns : List Nat} {d e : Bytes} (h : AlikeOn a b ns d e) (ha : a ≤ a') (hb : b' ≤ b) :
    AlikeOn a' b' ns d e := fun i hi hi' => h i (by omega) (by omega)

theorem sl_getElem? (d : Bytes) (a b i : Nat) : (sl d a b)[i]? = if a + i < b then d[a + i]? else none := by
  unfold sl
  rw [List.getElem?_drop, List.getElem?_take]

theorem alike_sl {a b : Nat} {ns : List Nat} {d e : Bytes} (hd : b ≤ d.length) (h : sl d a b = sl e a b) : AlikeOn a b ns d e := by
  intro i hi hi'
  have h1 := sl_getElem? d a b (i - a)
  have h2 := sl_getElem? e a b (i - a)
  rw [Nat.add_sub_cancel' hi, if_pos hi'] at h1 h2
  have h3 : d[i]? = e[i]? := by rw [← h1, ← h2, h]
  refine ⟨d[i], d[i], List.getElem?_eq_getElem (by omega), ?_, .inl rfl⟩
  rw [← h3]
  exact List.getElem?_eq_getElem (by omega)

theorem Spec.AlikeOn.part {a b : Nat} {ns : List Nat} {d e : Bytes} (h : AlikeOn a b ns d e) (hn : ∀ i ∈ ns, i < a ∨ b ≤ i) :
    sl d a b = sl e a b := by
  apply List.ext_getElem?
  intro i
  rw [sl_getElem?, sl_getElem?]
  split
  · rename_i hi
    obtain ⟨x, y, h1, h2, h3 | ⟨h3, -⟩⟩ := h (a + i) (by omega) hi
    · rw [h1, h2, h3]
    · have := hn _ h3
      omega
  · rfl

theorem alike_eq {n : Nat} {d e : Bytes} (hd : d.length = n) (he : e.length = n) : AlikeOn 0 n [] d e ↔ d = e := by
  constructor
  · intro h
    have := h.part (by simp)
    rw [← hd, sl_full, hd, ← he, sl_full] at this
    exact this
  · rintro rfl
    exact alike_sl (by omega) rfl

theorem alike_shift {o n k : Nat} {ns : List Nat} {d e : Bytes} (h : ns = [o]) (hk : o + n = k := by omega) :
    AlikeOn 0 n [0] (sl d o k) (sl e o k) ↔ AlikeOn o k ns d e := by
  subst h
  have hm : ∀ i, i + o ∈ [o] ↔ i ∈ [0] := by simp
  constructor
  · intro h i hi hi'
    have := h (i - o) (by omega) (by omega)
    simp only [sl_getElem?, Nat.add_sub_cancel' hi, if_pos hi'] at this
    have h2 := hm (i - o)
    rw [Nat.sub_add_cancel hi] at h2
    rw [h2]
    exact this
  · intro h i hi hi'
    simp only [sl_getElem?, if_pos (show o + i < k by omega)]
    have := h (o + i) (by omega) (by omega)
    rw [Nat.add_comm o i, hm] at this
    rwa [Nat.add_comm o i]

theorem one_byte {d : Bytes} {i : Nat} {b : UInt8} (h : sl d i (i + 1) = [b]) : d[i]? = some b := by
  have := sl_getElem? d i (i + 1) 0
  rw [h] at this
  simpa using this.symm

theorem alike_byte {i : Nat} {ns : List Nat} {d e : Bytes} {a b : UInt8} (hd : sl d i (i + 1) = [a]) (he : sl e i (i + 1) = [b]) (h : a = b ∨ i ∈ ns ∧ SameNation a b) :
    AlikeOn i (i + 1) ns d e := by
  intro j h1 h2
  obtain rfl : j = i := by omega
  exact ⟨a, b, one_byte hd, one_byte he, h⟩

theorem Spec.AlikeOn.byte {i lo hi : Nat} {ns : List Nat} {d e : Bytes} {a b : UInt8} (h : AlikeOn lo hi ns d e) (h1 : lo ≤ i) (h2 : i < hi)
    (hd : sl d i (i + 1) = [a]) (he : sl e i (i + 1) = [b]) : a = b ∨ i ∈ ns ∧ SameNation a b := by
  obtain ⟨x, y, hx, hy, h⟩ := h i h1 h2
  rw [one_byte hd] at hx
  rw [one_byte he] at hy
  simp only [Option.some.injEq] at hx hy
  subst hx hy
  exact h

/-! ## Values that determine their bytes -/

/-- A parser that gives different values for different bytes. -/
def Inj {α : Type} (p : Bytes → Res α) : Prop := ∀ a b x, p a = .ok x → p b = .ok x → a = b

theorem timeReal_inj : Inj unmarshalTimeReal := by
  intro a b x ha hb
  have h1 := timeReal_roundtrip a [] x ha
  have h2 := timeReal_roundtrip b [] x hb
  rw [h1] at h2
  simpa using h2

theorem ia5_inj : Inj unmarshalIa5StringValue := by
  intro a b x ha hb
  unfold unmarshalIa5StringValue at ha hb
  split at ha
  · cases ha
  · split at hb
    · cases hb
    · cases ha; cases hb; rfl

theorem date_inj : Inj unmarshalDate := by
  intro a b x ha hb
  simp only [unmarshalDate, guard_eq_ok, bind_eq_ok, Res.pure_eq, Res.ok.injEq] at ha hb
  obtain ⟨-, _, -, _, -, _, -, _, -, rfl⟩ := ha
  obtain ⟨-, _, -, _, -, _, -, _, -, h⟩ := hb
  simp only [Date.mk.injEq, Option.some.injEq] at h
  exact h.1.symm

theorem controlType_inj : Inj unmarshalControlType := by
  intro a b x ha hb
  simp only [unmarshalControlType, guard_eq_ok, bind_eq_ok, Res.pure_eq, Res.ok.injEq] at ha hb
  obtain ⟨-, _, -, rfl⟩ := ha
  obtain ⟨-, _, -, h⟩ := hb
  simp only [ControlType.mk.injEq, Option.some.injEq] at h
  exact h.1.symm

theorem csv_inj : Inj unmarshalCardStructureVersion := by
  intro a b x ha hb
  simp only [unmarshalCardStructureVersion, guard_eq_ok, bind_eq_ok, Res.pure_eq, Res.ok.injEq] at ha hb
  obtain ⟨-, _, -, _, -, rfl⟩ := ha
  obtain ⟨-, _, -, _, -, h⟩ := hb
  simp only [CardStructureVersion.mk.injEq, Option.some.injEq] at h
  exact h.1.symm

theorem monthYear_raw {a : Bytes} {x : MonthYear} (h : unmarshalMonthYear a = .ok x) : x.rawData = some a := by
  simp only [unmarshalMonthYear, guard_eq_ok] at h
  obtain ⟨-, h⟩ := h
  split at h
  · split at h <;> (cases h; rfl)
  · cases h; rfl
  · cases h

theorem monthYear_inj : Inj unmarshalMonthYear := by
  intro a b x ha hb
  have h1 := monthYear_raw ha
  rw [monthYear_raw hb] at h1
  simpa using h1.symm

theorem beNat_inj {a b : Bytes} (hl : a.length = b.length) (h : beNat a = beNat b) : a = b := by
  rw [← beBytes_beNat a, ← beBytes_beNat b, h, hl]

theorem enum_inj {t : EnumTable} (ht : t ∈ allEnumTables) {a b : UInt8} {v : Int} (ha : unmarshalEnum t a = .ok v)
    (hb : unmarshalEnum t b = .ok v) : a = b := by
  have h1 := enum_decode_encode t ht a v ha
  rw [enum_decode_encode t ht b v hb] at h1
  exact (Res.ok.inj h1).symm

theorem toNat_inj {a b : UInt8} (h : (a.toNat : Int) = b.toNat) : a = b := UInt8.toNat_inj.1 (by omega)

theorem nation_listed : nationNumericTable ∈ allEnumTables := by decide

/-- A nation byte is folded into "unrecognized" exactly when the table does not have it. -/
theorem nation_iff (a b : UInt8) : enumOr1 nationNumericTable a = enumOr1 nationNumericTable b ↔ SameNation a b := by
  have key : ∀ b, unmarshalEnum nationNumericTable b ≠ .ok enumUnrecognized := by
    intro b hb
    have := enum_decode_encode _ nation_listed b _ hb
    have h1 : marshalEnum nationNumericTable enumUnrecognized = .err "enum value has no protocol_enum_value" := by decide +kernel
    rw [h1] at this
    cases this
  unfold SameNation
  rw [known_iff, known_iff]
  unfold enumOr1
  cases ha : unmarshalEnum nationNumericTable a with
  | ok v =>
    cases hb : unmarshalEnum nationNumericTable b with
    | ok w =>
      simp only [Res.ok.injEq, exists_eq', not_true_eq_false, and_self, or_false]
      constructor
      · rintro rfl
        exact enum_inj nation_listed ha hb
      · rintro rfl
        rw [ha] at hb
        exact Res.ok.inj hb
    | err m =>
      simp only [Res.ok.injEq, exists_eq', not_true_eq_false, false_and, or_false]
      constructor
      · rintro rfl
        exact absurd ha (key a)
      · rintro rfl
        rw [ha] at hb
        cases hb
    | panic => exact absurd hb (unmarshalEnum_np _ _)
  | err m =>
    cases hb : unmarshalEnum nationNumericTable b with
    | ok w =>
      simp only [Res.ok.injEq, exists_eq', not_true_eq_false, and_false, or_false]
      constructor
      · rintro rfl
        exact absurd hb (key b)
      · rintro rfl
        rw [ha] at hb
        cases hb
    | err m => simp
    | panic => exact absurd hb (unmarshalEnum_np _ _)
  | panic => exact absurd ha (unmarshalEnum_np _ _)

section
variable [Charmap]

theorem string_inj : Inj unmarshalStringValue := by
  intro a b x ha hb
  have h1 := stringValue_raw ha
  rw [stringValue_raw hb] at h1
  simpa using h1.symm

end

/-! ## Files -/

/-- The parser returns the same for two accepted inputs exactly when they are related. -/
def Sees {α : Type} (p : Bytes → Res α) (R : Bytes → Bytes → Prop) : Prop :=
  ∀ d e x y, p d = .ok x → p e = .ok y → (x = y ↔ R d e)

theorem Inj.sees {α : Type} {p : Bytes → Res α} (h : Inj p) : Sees p (· = ·) := by
  intro d e x y hd he
  constructor
  · rintro rfl
    exact h d e x hd he
  · rintro rfl
    rw [hd] at he
    exact Res.ok.inj he

/-- Equal slices are read as equal values. -/
theorem det {α : Type} {p : Bytes → Res α} {a b : Bytes} {x y : α} (hx : p a = .ok x) (hy : p b = .ok y) (h : a = b) : x = y := by
  subst h
  rw [hx] at hy
  exact Res.ok.inj hy

theorem cardDownload_sees : Sees unmarshalCardDownload (AlikeOn 0 4 []) := by
  intro d e x y hd he
  simp only [unmarshalCardDownload, guard_eq_ok, bind_eq_ok, sl?_iff, Res.pure_eq, Res.ok.injEq] at hd he
  obtain ⟨hl, _, ⟨-, -, rfl⟩, t, ht, rfl⟩ := hd
  obtain ⟨hl', _, ⟨-, -, rfl⟩, t', ht', rfl⟩ := he
  simp only [CardDownload.mk.injEq]
  constructor
  · rintro rfl
    exact alike_sl (by omega) (timeReal_inj _ _ _ ht ht')
  · intro h
    exact det ht ht' (h.part (by simp))

theorem ic_sees : Sees unmarshalIc (AlikeOn 0 8 []) := by
  intro d e x y hd he
  simp only [unmarshalIc, guard_eq_ok, bind_eq_ok, sl?_iff, Res.pure_eq, Res.ok.injEq] at hd he
  obtain ⟨hl, _, ⟨-, -, rfl⟩, _, ⟨-, -, rfl⟩, rfl⟩ := hd
  obtain ⟨hl', _, ⟨-, -, rfl⟩, _, ⟨-, -, rfl⟩, rfl⟩ := he
  simp only [Ic.mk.injEq]
  constructor
  · rintro ⟨h1, h2⟩
    exact (alike_sl (by omega) h1).append (alike_sl (by omega) h2)
  · intro h
    exact ⟨(h.mono (by omega) (by omega : 4 ≤ 8)).part (by simp), (h.mono (by omega : 0 ≤ 4) (by omega)).part (by simp)⟩

theorem appIdV2_sees : Sees unmarshalAppIdV2 (AlikeOn 0 4 []) := by
  intro d e x y hd he
  simp only [unmarshalAppIdV2, guard_eq_ok, bind_eq_ok, at?_iff, Res.pure_eq, Res.ok.injEq] at hd he
  obtain ⟨hl, _, ⟨-, a0⟩, _, ⟨-, a1⟩, _, ⟨-, a2⟩, _, ⟨-, a3⟩, rfl⟩ := hd
  obtain ⟨hl', _, ⟨-, b0⟩, _, ⟨-, b1⟩, _, ⟨-, b2⟩, _, ⟨-, b3⟩, rfl⟩ := he
  simp only [AppIdV2.mk.injEq]
  constructor
  · rintro ⟨h0, h1, h2, h3⟩
    exact (((alike_byte a0 b0 (.inl (toNat_inj h0))).append (alike_byte a1 b1 (.inl (toNat_inj h1)))).append
      (alike_byte a2 b2 (.inl (toNat_inj h2)))).append (alike_byte a3 b3 (.inl (toNat_inj h3)))
  · intro h
    have h0 := h.byte (by omega) (by omega) a0 b0
    have h1 := h.byte (by omega) (by omega) a1 b1
    have h2 := h.byte (by omega) (by omega) a2 b2
    have h3 := h.byte (by omega) (by omega) a3 b3
    simp only [List.not_mem_nil, false_and, or_false] at h0 h1 h2 h3
    simp [h0, h1, h2, h3]

theorem icc_sees : Sees unmarshalIcc (AlikeOn 0 25 []) := by
  intro d e x y hd he
  simp only [unmarshalIcc, guard_eq_ok, bind_eq_ok, at?_iff, sl?_iff, Res.pure_eq, Res.ok.injEq] at hd he
  obtain ⟨hl, _, ⟨-, a0⟩, _, a1, _, ⟨-, -, rfl⟩, _, ⟨-, -, rfl⟩, _, ⟨-, -, rfl⟩, _, a2, _, ⟨-, a3⟩, _, a4, _, ⟨-, a5⟩, _, ⟨-, -, rfl⟩, _, a6,
    _, ⟨-, a7⟩, _, ⟨-, -, rfl⟩, _, ⟨-, -, rfl⟩, _, a8, _, ⟨-, -, rfl⟩, _, a9, _, ⟨-, a10⟩, _, ⟨-, -, rfl⟩, rfl⟩ := hd
  obtain ⟨hl', _, ⟨-, b0⟩, _, b1, _, ⟨-, -, rfl⟩, _, ⟨-, -, rfl⟩, _, ⟨-, -, rfl⟩, _, b2, _, ⟨-, b3⟩, _, b4, _, ⟨-, b5⟩, _, ⟨-, -, rfl⟩, _, b6,
    _, ⟨-, b7⟩, _, ⟨-, -, rfl⟩, _, ⟨-, -, rfl⟩, _, b8, _, ⟨-, -, rfl⟩, _, b9, _, ⟨-, b10⟩, _, ⟨-, -, rfl⟩, rfl⟩ := he
  simp only [Icc.mk.injEq, Option.some.injEq, ExtendedSerialNumber.mk.injEq, EmbedderId.mk.injEq]
  rw [sl_sl (by omega)] at a2 a3 a5 a8 a9 a10 b2 b3 b5 b8 b9 b10
  rw [sl_sl (by omega), sl_sl (by omega)]
  simp only [Nat.reduceAdd] at *
  constructor
  · rintro ⟨rfl, ⟨h1, rfl, rfl, h4⟩, rfl, h6, ⟨rfl, rfl, h7⟩, h8⟩
    have e0 := enum_inj (by decide) a1 b1
    have e1 := beNat_inj (by rw [sl_length_of (by omega), sl_length_of (by omega)]) (Int.ofNat.inj h1)
    have e2 := monthYear_inj _ _ _ a2 b2
    have e3 := enum_inj (by decide) a4 b4
    have e4 := ia5_inj _ _ _ a6 b6
    have e5 := ia5_inj _ _ _ a8 b8
    have e6 := ia5_inj _ _ _ a9 b9
    exact ((((((((((alike_byte a0 b0 (.inl e0)).append (alike_sl (by omega) e1)).append (alike_sl (by omega) e2)).append
      (alike_byte a3 b3 (.inl e3))).append (alike_byte a5 b5 (.inl (toNat_inj h4)))).append (alike_sl (by omega) e4)).append
      (alike_byte a7 b7 (.inl (toNat_inj h6)))).append (alike_sl (by omega) e5)).append (alike_sl (by omega) e6)).append
      (alike_byte a10 b10 (.inl (toNat_inj h7)))).append (alike_sl (by omega) h8)
  · intro h
    have h0 := h.byte (by omega) (by omega) a0 b0
    have h3 := h.byte (by omega) (by omega) a3 b3
    have h5 := h.byte (by omega) (by omega) a5 b5
    have h7 := h.byte (by omega) (by omega) a7 b7
    have h10 := h.byte (by omega) (by omega) a10 b10
    simp only [List.not_mem_nil, false_and, or_false] at h0 h3 h5 h7 h10
    subst h0 h3 h5 h7 h10
    rw [a1, Res.ok.injEq] at b1
    rw [a4, Res.ok.injEq] at b4
    have s : ∀ a b, b ≤ 25 → sl d a b = sl e a b := fun a b hb => (h.mono (Nat.zero_le a) hb).part (by simp)
    refine ⟨b1, ⟨by rw [s _ _ (by omega)], det a2 b2 (s _ _ (by omega)), b4, rfl⟩, det a6 b6 (s _ _ (by omega)), rfl,
      ⟨det a8 b8 (s _ _ (by omega)), det a9 b9 (s _ _ (by omega)), rfl⟩, s _ _ (by omega)⟩

theorem appId_inj : Inj unmarshalAppId := by
  intro d e x hd he
  simp only [unmarshalAppId, guard_eq_ok, bind_eq_ok, at?_iff, sl?_iff, Res.pure_eq, Res.ok.injEq] at hd he
  obtain ⟨hl, _, ⟨-, a0⟩, _, a1, _, ⟨-, -, rfl⟩, _, a2, _, ⟨-, a3⟩, _, ⟨-, a4⟩, _, ⟨-, -, rfl⟩, _, ⟨-, -, rfl⟩, _, ⟨-, a5⟩, rfl⟩ := hd
  obtain ⟨hl', _, ⟨-, b0⟩, _, b1, _, ⟨-, -, rfl⟩, _, b2, _, ⟨-, b3⟩, _, ⟨-, b4⟩, _, ⟨-, -, rfl⟩, _, ⟨-, -, rfl⟩, _, ⟨-, b5⟩, h⟩ := he
  simp only [AppId.mk.injEq, Option.some.injEq, DriverCounts.mk.injEq] at h
  obtain ⟨rfl, rfl, h3, h4, h5, h6, h7⟩ := h
  have hz : ∀ a b, b ≤ 10 → (sl e a b).length = (sl d a b).length := fun a b hb => by
    rw [sl_length_of (by omega), sl_length_of (by omega)]
  refine ((alike_eq (n := 10) (by omega) (by omega)).1 ?_).symm
  exact (((((((alike_byte b0 a0 (.inl (enum_inj (by decide) b1 a1))).append (alike_sl (by omega) (csv_inj _ _ _ b2 a2))).append
    (alike_byte b3 a3 (.inl (toNat_inj h3)))).append (alike_byte b4 a4 (.inl (toNat_inj h4)))).append
    (alike_sl (by omega) (beNat_inj (hz _ _ (by omega)) (Int.ofNat.inj h5)))).append
    (alike_sl (by omega) (beNat_inj (hz _ _ (by omega)) (Int.ofNat.inj h6)))).append (alike_byte b5 a5 (.inl (toNat_inj h7))))

theorem appIdG2_inj : Inj unmarshalAppIdG2 := by
  intro d e x hd he
  simp only [unmarshalAppIdG2, guard_eq_ok, bind_eq_ok, at?_iff, sl?_iff, Res.pure_eq, Res.ok.injEq] at hd he
  obtain ⟨hl, _, ⟨-, a0⟩, _, a1, _, ⟨-, -, rfl⟩, _, a2, _, ⟨-, a3⟩, _, ⟨-, a4⟩, _, ⟨-, -, rfl⟩, _, ⟨-, -, rfl⟩, _, ⟨-, -, rfl⟩, _, ⟨-, -, rfl⟩,
    _, ⟨-, -, rfl⟩, _, ⟨-, -, rfl⟩, rfl⟩ := hd
  obtain ⟨hl', _, ⟨-, b0⟩, _, b1, _, ⟨-, -, rfl⟩, _, b2, _, ⟨-, b3⟩, _, ⟨-, b4⟩, _, ⟨-, -, rfl⟩, _, ⟨-, -, rfl⟩, _, ⟨-, -, rfl⟩, _, ⟨-, -, rfl⟩,
    _, ⟨-, -, rfl⟩, _, ⟨-, -, rfl⟩, h⟩ := he
  simp only [AppIdG2.mk.injEq, Option.some.injEq, DriverCountsG2.mk.injEq] at h
  obtain ⟨rfl, rfl, h3, h4, h5, h6, h7, h8, h9, h10⟩ := h
  have hz : ∀ a b, b ≤ 17 → (sl e a b).length = (sl d a b).length := fun a b hb => by
    rw [sl_length_of (by omega), sl_length_of (by omega)]
  refine ((alike_eq (n := 17) (by omega) (by omega)).1 ?_).symm
  exact (((((((((alike_byte b0 a0 (.inl (enum_inj (by decide) b1 a1))).append (alike_sl (by omega) (csv_inj _ _ _ b2 a2))).append
    (alike_byte b3 a3 (.inl (toNat_inj h3)))).append (alike_byte b4 a4 (.inl (toNat_inj h4)))).append
    (alike_sl (by omega) (beNat_inj (hz _ _ (by omega)) (Int.ofNat.inj h5)))).append
    (alike_sl (by omega) (beNat_inj (hz _ _ (by omega)) (Int.ofNat.inj h6)))).append
    (alike_sl (by omega) (beNat_inj (hz _ _ (by omega)) (Int.ofNat.inj h7)))).append
    (alike_sl (by omega) (beNat_inj (hz _ _ (by omega)) (Int.ofNat.inj h8)))).append
    (alike_sl (by omega) (beNat_inj (hz _ _ (by omega)) (Int.ofNat.inj h9)))).append
    (alike_sl (by omega) (beNat_inj (hz _ _ (by omega)) (Int.ofNat.inj h10)))

section
variable [Charmap]

theorem registration_sees : Sees unmarshalVehicleRegistration (AlikeOn 0 15 [0]) := by
  intro d e x y hd he
  simp only [unmarshalVehicleRegistration, guard_eq_ok, bind_eq_ok, at?_iff, sl?_iff, Res.pure_eq, Res.ok.injEq] at hd he
  obtain ⟨hl, _, ⟨-, a0⟩, _, ⟨-, -, rfl⟩, _, a1, rfl⟩ := hd
  obtain ⟨hl', _, ⟨-, b0⟩, _, ⟨-, -, rfl⟩, _, b1, rfl⟩ := he
  simp only [VehicleRegistration.mk.injEq, Option.some.injEq, nation_iff]
  constructor
  · rintro ⟨h1, rfl⟩
    exact (alike_byte a0 b0 (.inr ⟨by simp, h1⟩)).append (alike_sl (by omega) (string_inj _ _ _ a1 b1))
  · intro h
    refine ⟨?_, det a1 b1 ((h.mono (by omega : 0 ≤ 1) (by omega)).part (by simp))⟩
    rcases h.byte (by omega) (by omega) a0 b0 with h | ⟨-, h⟩
    · exact .inl h
    · exact h


theorem currentUsage_sees : Sees unmarshalCurrentUsage (AlikeOn 0 19 [4]) := by
  intro d e x y hd he
  simp only [unmarshalCurrentUsage, guard_eq_ok, bind_eq_ok, sl?_iff, Res.pure_eq, Res.ok.injEq] at hd he
  obtain ⟨hl, _, ⟨-, -, rfl⟩, _, a0, _, ⟨-, -, rfl⟩, _, a1, rfl⟩ := hd
  obtain ⟨hl', _, ⟨-, -, rfl⟩, _, b0, _, ⟨-, -, rfl⟩, _, b1, rfl⟩ := he
  simp only [CurrentUsage.mk.injEq, Option.some.injEq]
  rw [registration_sees _ _ _ _ a1 b1, alike_shift (o := 4) (n := 15) (ns := [4]) rfl]
  constructor
  · rintro ⟨rfl, h⟩
    exact (alike_sl (by omega) (timeReal_inj _ _ _ a0 b0)).append h
  · intro h
    exact ⟨det a0 b0 ((h.mono (by omega) (by omega : 4 ≤ 19)).part (by simp)), h.mono (by omega) (by omega)⟩

theorem drivingLicence_sees : Sees unmarshalDrivingLicenceInfo (AlikeOn 0 53 [36]) := by
  intro d e x y hd he
  simp only [unmarshalDrivingLicenceInfo, guard_eq_ok, bind_eq_ok, at?_iff, sl?_iff, Res.pure_eq, Res.ok.injEq] at hd he
  obtain ⟨hl, _, ⟨-, -, rfl⟩, _, a0, _, ⟨-, a1⟩, _, ⟨-, -, rfl⟩, _, a2, rfl⟩ := hd
  obtain ⟨hl', _, ⟨-, -, rfl⟩, _, b0, _, ⟨-, b1⟩, _, ⟨-, -, rfl⟩, _, b2, rfl⟩ := he
  simp only [DrivingLicenceInfo.mk.injEq, Option.some.injEq, nation_iff]
  constructor
  · rintro ⟨rfl, h, rfl⟩
    exact ((alike_sl (by omega) (string_inj _ _ _ a0 b0)).append (alike_byte a1 b1 (.inr ⟨by simp, h⟩))).append
      (alike_sl (by omega) (ia5_inj _ _ _ a2 b2))
  · intro h
    refine ⟨det a0 b0 ((h.mono (by omega) (by omega : 36 ≤ 53)).part (by simp)), ?_,
      det a2 b2 ((h.mono (by omega : 0 ≤ 37) (by omega)).part (by simp))⟩
    exact (h.byte (by omega) (by omega) a1 b1).elim .inl (·.2)

theorem beNat_zero {d : Bytes} {a : Nat} (hd : a + 4 ≤ d.length) : beNat (sl d a (a + 4)) = 0 ↔ sl d a (a + 4) = [0, 0, 0, 0] := by
  constructor
  · intro h
    refine beNat_inj (b := [0, 0, 0, 0]) ?_ ?_
    · rw [sl_length_of hd]; simp
    · rw [h]; rfl
  · intro h; rw [h]; rfl

theorem controlActivity_sees : Sees unmarshalControlActivity
    (fun d e => if sl d 1 5 = [0, 0, 0, 0] then d = e else AlikeOn 0 46 [23] d e) := by
  intro d e x y hd he
  simp only [unmarshalControlActivity, guard_eq_ok, bind_eq_ok, sl?_iff, Res.pure_eq] at hd he
  obtain ⟨hl, _, ⟨-, -, rfl⟩, hd⟩ := hd
  obtain ⟨hl', _, ⟨-, -, rfl⟩, he⟩ := he
  show _ ↔ if _ then _ else _
  have hz : beNat (sl d 1 5) = 0 ↔ sl d 1 5 = [0, 0, 0, 0] := beNat_zero (a := 1) (by omega)
  have hz' : beNat (sl e 1 5) = 0 ↔ sl e 1 5 = [0, 0, 0, 0] := beNat_zero (a := 1) (by omega)
  simp only [hz] at hd
  simp only [hz'] at he
  split at hd
  · rename_i hd0
    rw [if_pos hd0]
    split at he
    · cases hd; cases he
      simp
    · rename_i he0
      simp only [bind_eq_ok, sl?_iff, Res.ok.injEq] at hd he
      obtain ⟨_, ⟨-, -, rfl⟩, _, b0, _, b1, _, ⟨-, -, rfl⟩, _, b2, _, ⟨-, -, rfl⟩, _, b3, _, ⟨-, -, rfl⟩, _, b4, _, ⟨-, -, rfl⟩, _, b5, rfl⟩ := he
      subst hd
      constructor
      · intro h; simp at h
      · rintro rfl; exact absurd hd0 he0
  · rename_i hd0
    rw [if_neg hd0]
    simp only [bind_eq_ok, sl?_iff, Res.ok.injEq] at hd
    obtain ⟨_, ⟨-, -, rfl⟩, _, a0, _, a1, _, ⟨-, -, rfl⟩, _, a2, _, ⟨-, -, rfl⟩, _, a3, _, ⟨-, -, rfl⟩, _, a4, _, ⟨-, -, rfl⟩, _, a5, rfl⟩ := hd
    split at he
    · rename_i he0
      cases he
      constructor
      · intro h; simp at h
      · intro h
        have := (h.mono (by omega : 0 ≤ 1) (by omega : 5 ≤ 46)).part (by simp)
        rw [he0] at this
        exact absurd this hd0
    · simp only [bind_eq_ok, sl?_iff, Res.ok.injEq] at he
      obtain ⟨_, ⟨-, -, rfl⟩, _, b0, _, b1, _, ⟨-, -, rfl⟩, _, b2, _, ⟨-, -, rfl⟩, _, b3, _, ⟨-, -, rfl⟩, _, b4, _, ⟨-, -, rfl⟩, _, b5, rfl⟩ := he
      simp only [ControlActivity.mk.injEq, Option.some.injEq, true_and, FullCardNumberAndGeneration.mk.injEq, FullCardNumber.mk.injEq,
        DriverIdentification.mk.injEq, and_true]
      rw [registration_sees _ _ _ _ a3 b3, alike_shift (o := 23) (n := 15) (ns := [23]) rfl]
      constructor
      · rintro ⟨rfl, rfl, rfl, h, rfl, rfl⟩
        exact (((((alike_sl (by omega) (controlType_inj _ _ _ a0 b0)).append (alike_sl (by omega) (timeReal_inj _ _ _ a1 b1))).append
          (alike_sl (by omega) (ia5_inj _ _ _ a2 b2))).append h).append (alike_sl (by omega) (timeReal_inj _ _ _ a4 b4))).append
          (alike_sl (by omega) (timeReal_inj _ _ _ a5 b5))
      · intro h
        refine ⟨det a0 b0 ((h.mono (by omega) (by omega)).part (by simp)), det a1 b1 ((h.mono (by omega) (by omega)).part (by simp)),
          det a2 b2 ((h.mono (by omega) (by omega)).part (by simp)), h.mono (by omega) (by omega),
          det a4 b4 ((h.mono (by omega) (by omega)).part (by simp)), det a5 b5 ((h.mono (by omega) (by omega)).part (by simp))⟩

omit [Charmap] in
theorem cardNumber_inj : ∀ d e x, d.length = 16 → e.length = 16 → unmarshalCardNumber d = .ok x → unmarshalCardNumber e = .ok x → d = e := by
  intro d e x hl hl' hd he
  have key : ∀ d x, d.length = 16 → unmarshalCardNumber d = .ok x →
      d = match x with
        | (_, some i, _) => ((i.number.bind (·.rawData)).getD []) ++ ((i.replacement.bind (·.rawData)).getD []) ++ ((i.renewal.bind (·.rawData)).getD [])
        | (_, none, some o) => ((o.owner.bind (·.rawData)).getD []) ++ ((o.consecutive.bind (·.rawData)).getD []) ++
            ((o.replacement.bind (·.rawData)).getD []) ++ ((o.renewal.bind (·.rawData)).getD [])
        | _ => [] := by
    intro d x hl h
    have hi : ∀ a b, a < b → b ≤ 16 → unmarshalIa5StringValue (sl d a b) = .ok { rawData := some (sl d a b), length := some (wrap32 (sl d a b).length), value := toValidUTF8 (trimSpaceAndZeroBytes (sl d a b)) } := by
      intro a b hab hb
      unfold unmarshalIa5StringValue
      rw [if_neg]
      rw [sl_length_of (by omega)]; omega
    have hf : d = sl d 0 16 := by rw [← hl, sl_full]
    simp only [unmarshalCardNumber, sl?_ok (d := d) (show 0 ≤ 14 by omega) (by omega), sl?_ok (d := d) (show 0 ≤ 13 by omega) (by omega),
      sl?_ok (d := d) (show 13 ≤ 14 by omega) (by omega), sl?_ok (d := d) (show 14 ≤ 15 by omega) (by omega),
      sl?_ok (d := d) (show 15 ≤ 16 by omega) (by omega), Res.bind_ok, hi _ _ (show 0 < 14 by omega) (by omega),
      hi _ _ (show 0 < 13 by omega) (by omega), hi _ _ (show 13 < 14 by omega) (by omega), hi _ _ (show 14 < 15 by omega) (by omega),
      hi _ _ (show 15 < 16 by omega) (by omega), Res.pure_eq] at h
    simp only [bind_eq_ok] at h
    obtain ⟨_, -, _, -, h⟩ := h
    split at h
    · cases h
      simp only [Option.bind_some, Option.getD_some]
      rw [sl_append (by omega) (by omega), sl_append (by omega) (by omega)]
      exact hf
    · cases h
      simp only [Option.bind_some, Option.getD_some]
      rw [sl_append (by omega) (by omega), sl_append (by omega) (by omega), sl_append (by omega) (by omega)]
      exact hf
  rw [key d x hl hd, key e x hl' he]

theorem identification_sees : Sees unmarshalIdentification (AlikeOn 0 143 [0]) := by
  intro d e x y hd he
  simp only [unmarshalIdentification, guard_eq_ok, bind_eq_ok, at?_iff, sl?_iff, Res.pure_eq, Res.ok.injEq] at hd he
  obtain ⟨hl, _, ⟨-, a0⟩, _, ⟨-, -, rfl⟩, ⟨_, _, _⟩, a1, _, ⟨-, -, rfl⟩, _, a2, _, ⟨-, -, rfl⟩, _, a3, _, ⟨-, -, rfl⟩, _, a4, _, ⟨-, -, rfl⟩, _, a5,
    _, ⟨-, -, rfl⟩, _, a6, _, ⟨-, -, rfl⟩, _, a7, _, ⟨-, -, rfl⟩, _, a8, _, ⟨-, -, rfl⟩, _, a9, rfl⟩ := hd
  obtain ⟨hl', _, ⟨-, b0⟩, _, ⟨-, -, rfl⟩, ⟨_, _, _⟩, b1, _, ⟨-, -, rfl⟩, _, b2, _, ⟨-, -, rfl⟩, _, b3, _, ⟨-, -, rfl⟩, _, b4, _, ⟨-, -, rfl⟩, _, b5,
    _, ⟨-, -, rfl⟩, _, b6, _, ⟨-, -, rfl⟩, _, b7, _, ⟨-, -, rfl⟩, _, b8, _, ⟨-, -, rfl⟩, _, b9, rfl⟩ := he
  simp only [Identification.mk.injEq, CardIdent.mk.injEq, DriverHolder.mk.injEq, Option.some.injEq, nation_iff]
  constructor
  · rintro ⟨rfl, ⟨h0, rfl, rfl, rfl, rfl, rfl, rfl⟩, rfl, rfl, rfl, rfl⟩
    have e1 := cardNumber_inj _ _ _ (by rw [sl_length_of (by omega)]) (by rw [sl_length_of (by omega)]) a1 b1
    exact (((((((((alike_byte a0 b0 (.inr ⟨by simp, h0⟩)).append (alike_sl (by omega) e1)).append
      (alike_sl (by omega) (string_inj _ _ _ a2 b2))).append (alike_sl (by omega) (timeReal_inj _ _ _ a3 b3))).append
      (alike_sl (by omega) (timeReal_inj _ _ _ a4 b4))).append (alike_sl (by omega) (timeReal_inj _ _ _ a5 b5))).append
      (alike_sl (by omega) (string_inj _ _ _ a6 b6))).append (alike_sl (by omega) (string_inj _ _ _ a7 b7))).append
      (alike_sl (by omega) (date_inj _ _ _ a8 b8))).append (alike_sl (by omega) (ia5_inj _ _ _ a9 b9))
  · intro h
    have s : ∀ a b, 1 ≤ a → b ≤ 143 → sl d a b = sl e a b := fun a b ha hb => (h.mono (Nat.zero_le a) hb).part (by simp; omega)
    have h1 := det a1 b1 (s _ _ (by omega) (by omega))
    simp only [Prod.mk.injEq] at h1
    refine ⟨h1.1, ⟨(h.byte (by omega) (by omega) a0 b0).elim .inl (·.2), h1.2.1, h1.2.2, det a2 b2 (s _ _ (by omega) (by omega)),
      det a3 b3 (s _ _ (by omega) (by omega)), det a4 b4 (s _ _ (by omega) (by omega)), det a5 b5 (s _ _ (by omega) (by omega))⟩,
      det a6 b6 (s _ _ (by omega) (by omega)), det a7 b7 (s _ _ (by omega) (by omega)), det a8 b8 (s _ _ (by omega) (by omega)),
      det a9 b9 (s _ _ (by omega) (by omega))⟩


/-! ### Events and faults -/

theorem event_sees {d e : Bytes} {x y : EventRecord} (hl : d.length = 24) (hl' : e.length = 24) (hd : eventOf d = .ok x) (he : eventOf e = .ok y) :
    x = y ↔ AlikeEvents d e := by
  unfold eventOf at hd he
  unfold AlikeEvents
  have hz : beNat (sl d 1 5) = 0 ↔ sl d 1 5 = [0, 0, 0, 0] := beNat_zero (a := 1) (by omega)
  have hz' : beNat (sl e 1 5) = 0 ↔ sl e 1 5 = [0, 0, 0, 0] := beNat_zero (a := 1) (by omega)
  simp only [hz] at hd
  simp only [hz'] at he
  split at hd
  · rename_i hd0
    rw [if_pos hd0]
    split at he
    · cases hd; cases he
      simp
    · rename_i he0
      simp only [unmarshalEventRecord, guard_eq_ok, bind_eq_ok, at?_iff, sl?_iff, Res.pure_eq, Res.ok.injEq] at hd he
      obtain ⟨-, _, -, _, -, _, -, _, -, _, -, _, -, _, -, _, -, rfl⟩ := he
      subst hd
      constructor
      · intro h; simp at h
      · rintro rfl; exact absurd hd0 he0
  · rename_i hd0
    rw [if_neg hd0]
    simp only [unmarshalEventRecord, guard_eq_ok, bind_eq_ok, at?_iff, sl?_iff, Res.pure_eq, Res.ok.injEq] at hd
    obtain ⟨-, _, ⟨-, a0⟩, _, a1, _, ⟨-, -, rfl⟩, _, a2, _, ⟨-, -, rfl⟩, _, a3, _, ⟨-, -, rfl⟩, _, a4, rfl⟩ := hd
    split at he
    · rename_i he0
      cases he
      constructor
      · intro h; simp at h
      · intro h
        have := (h.mono (by omega : 0 ≤ 1) (by omega : 5 ≤ 24)).part (by simp)
        rw [he0] at this
        exact absurd this hd0
    · simp only [unmarshalEventRecord, guard_eq_ok, bind_eq_ok, at?_iff, sl?_iff, Res.pure_eq, Res.ok.injEq] at he
      obtain ⟨-, _, ⟨-, b0⟩, _, b1, _, ⟨-, -, rfl⟩, _, b2, _, ⟨-, -, rfl⟩, _, b3, _, ⟨-, -, rfl⟩, _, b4, rfl⟩ := he
      simp only [EventRecord.mk.injEq, Option.some.injEq, true_and]
      rw [registration_sees _ _ _ _ a4 b4, alike_shift (o := 9) (n := 15) (ns := [9]) rfl]
      constructor
      · rintro ⟨rfl, rfl, rfl, h⟩
        exact (((alike_byte a0 b0 (.inl (enum_inj (by decide) a1 b1))).append (alike_sl (by omega) (timeReal_inj _ _ _ a2 b2))).append
          (alike_sl (by omega) (timeReal_inj _ _ _ a3 b3))).append h
      · intro h
        have h0 := h.byte (by omega) (by omega) a0 b0
        simp at h0
        subst h0
        rw [a1, Res.ok.injEq] at b1
        exact ⟨b1, det a2 b2 ((h.mono (by omega) (by omega)).part (by simp)), det a3 b3 ((h.mono (by omega) (by omega)).part (by simp)),
          h.mono (by omega) (by omega)⟩

omit [Charmap] in
theorem records_sees {α : Type} {f : Bytes → Res α} {R : Bytes → Bytes → Prop} {h n : Nat} {d e : Bytes} {xs ys : List α}
    (hf : ∀ a b x y, a.length = n → b.length = n → f a = .ok x → f b = .ok y → (x = y ↔ R a b)) (hn : 0 < n)
    (hd : RecordsAre f h n d xs) (he : RecordsAre f h n e ys) :
    xs = ys ↔ recordCount h n d = recordCount h n e ∧ ∀ i, i < recordCount h n d → R (record h n i d) (record h n i e) := by
  obtain ⟨d1, d2⟩ := hd
  obtain ⟨e1, e2⟩ := he
  rw [← d1, ← e1]
  constructor
  · rintro rfl
    refine ⟨rfl, fun i hi => ?_⟩
    exact (hf _ _ _ _ (record_length (by omega) hn) (record_length (by omega) hn) (d2 i hi) (e2 i hi)).1 rfl
  · rintro ⟨h1, h2⟩
    refine List.ext_getElem h1 fun i hi hi' => ?_
    exact (hf _ _ _ _ (record_length (by omega) hn) (record_length (by omega) hn) (d2 i hi) (e2 i hi')).2 (h2 i hi)

theorem events_sees {d e : Bytes} {xs ys : List EventRecord} (hd : NeverMoved 24 d.length) (he : NeverMoved 24 e.length)
    (hx : unmarshalEventsData d = .ok xs) (hy : unmarshalEventsData e = .ok ys) :
    xs = ys ↔ recordCount 0 24 d = recordCount 0 24 e ∧ ∀ i, i < recordCount 0 24 d → AlikeEvents (record 0 24 i d) (record 0 24 i e) :=
  records_sees (fun _ _ _ _ h1 h2 h3 h4 => event_sees h1 h2 h3 h4) (by omega) ((events_ok_iff d hd xs).1 hx) ((events_ok_iff e he ys).1 hy)

/-! ### Files that are kept as they are -/

theorem vehiclesUsed_inj : Inj unmarshalVehiclesUsed := by
  intro a b x ha hb
  simp only [unmarshalVehiclesUsed, guard_eq_ok, bind_eq_ok, Res.pure_eq, Res.ok.injEq] at ha hb
  obtain ⟨-, _, -, _, -, _, -, rfl⟩ := ha
  obtain ⟨-, _, -, _, -, _, -, h⟩ := hb
  simp only [RecordFile.mk.injEq, Option.some.injEq] at h
  exact h.1.symm

theorem vehiclesUsedG2_inj : Inj unmarshalVehiclesUsedG2 := by
  intro a b x ha hb
  simp only [unmarshalVehiclesUsedG2, guard_eq_ok, bind_eq_ok, Res.pure_eq, Res.ok.injEq] at ha hb
  obtain ⟨-, _, -, _, -, _, -, rfl⟩ := ha
  obtain ⟨-, _, -, _, -, _, -, h⟩ := hb
  simp only [RecordFile.mk.injEq, Option.some.injEq] at h
  exact h.1.symm

omit [Charmap] in
theorem places_inj : Inj unmarshalPlaces := by
  intro a b x ha hb
  simp only [unmarshalPlaces, guard_eq_ok, bind_eq_ok, Res.pure_eq, Res.ok.injEq] at ha hb
  obtain ⟨-, _, -, _, -, _, -, rfl⟩ := ha
  obtain ⟨-, _, -, _, -, _, -, h⟩ := hb
  simp only [RecordFile.mk.injEq, Option.some.injEq] at h
  exact h.1.symm

omit [Charmap] in
theorem placesG2_inj : Inj unmarshalPlacesG2 := by
  intro a b x ha hb
  simp only [unmarshalPlacesG2, guard_eq_ok, bind_eq_ok, Res.pure_eq, Res.ok.injEq] at ha hb
  obtain ⟨-, _, -, _, -, _, -, rfl⟩ := ha
  obtain ⟨-, _, -, _, -, _, -, h⟩ := hb
  simp only [RecordFile.mk.injEq, Option.some.injEq] at h
  exact h.1.symm

omit [Charmap] in
theorem conditionsG2_inj : Inj unmarshalSpecificConditionsG2 := by
  intro a b x ha hb
  simp only [unmarshalSpecificConditionsG2, guard_eq_ok, bind_eq_ok, Res.pure_eq, Res.ok.injEq] at ha hb
  obtain ⟨-, _, -, _, -, _, -, rfl⟩ := ha
  obtain ⟨-, _, -, _, -, _, -, h⟩ := hb
  simp only [RecordFile.mk.injEq, Option.some.injEq] at h
  exact h.1.symm

omit [Charmap] in
theorem conditions_inj : Inj unmarshalSpecificConditions := by
  intro a b x ha hb
  have key : ∀ a x, unmarshalSpecificConditions a = .ok x → a = x.rawData.getD [] := by
    intro a x h
    unfold unmarshalSpecificConditions at h
    split at h
    · rename_i h0
      cases h
      simpa using h0
    · simp only [bind_eq_ok, Res.pure_eq, Res.ok.injEq] at h
      obtain ⟨_, -, rfl⟩ := h
      rfl
  rw [key a x ha, key b x hb]

omit [Charmap] in
theorem driverActivity_inj : Inj unmarshalDriverActivityData := by
  intro a b x ha hb
  have key : ∀ a x, unmarshalDriverActivityData a = .ok x → a = beBytes 2 x.oldest.toNat ++ (beBytes 2 x.newest.toNat ++ x.rawData.getD []) := by
    intro a x h
    simp only [unmarshalDriverActivityData, guard_eq_ok, bind_eq_ok, sl?_iff, from?_iff, Res.pure_eq, Res.ok.injEq] at h
    obtain ⟨hl, _, ⟨-, -, rfl⟩, _, ⟨-, -, rfl⟩, _, ⟨-, rfl⟩, -, _, -, rfl⟩ := h
    simp only [Int.toNat_natCast, Option.getD_some]
    rw [beBytes_beNat' (by rw [sl_length_of (by omega)]), beBytes_beNat' (by rw [sl_length_of (by omega)]), sl_append_assoc (by omega) (by omega)]
    simp [sl]
  rw [key a x ha, key b x hb]

omit [Charmap] in
theorem rsa_inj : Inj unmarshalRsa := by
  intro a b x ha hb
  obtain ⟨_, _, -, -, -, -, h1⟩ := (rsa_parse_iff a x).1 ha
  obtain ⟨_, _, -, -, -, -, h2⟩ := (rsa_parse_iff b x).1 hb
  have h1 := congrArg RsaCert.raw h1
  have h2 := congrArg RsaCert.raw h2
  simp only at h1 h2
  rw [← h1, ← h2]

omit [Charmap] in
theorem ecc_inj : Inj unmarshalEcc := by
  intro a b x ha hb
  have key : ∀ a x, unmarshalEcc a = .ok x → x.raw = a := by
    intro a x h
    obtain ⟨-, -, f, full, -, hr⟩ := (ecc_parse_iff a x).1 h
    exact hr.2.2.2.2.2.2.2.2.1
  rw [← key a x ha, ← key b x hb]

omit [Charmap] in
theorem gnssEntry_inj : Inj unmarshalGnssPlaceEntry := by
  intro a b x ha hb
  simp only [unmarshalGnssPlaceEntry, guard_eq_ok, bind_eq_ok, sl?_iff, Res.pure_eq, Res.ok.injEq] at ha hb
  obtain ⟨hl, _, ⟨-, -, rfl⟩, _, a0, _, ⟨-, -, rfl⟩, _, a1, _, ⟨-, -, rfl⟩, _, a2, rfl⟩ := ha
  obtain ⟨hl', _, ⟨-, -, rfl⟩, _, b0, _, ⟨-, -, rfl⟩, _, b1, _, ⟨-, -, rfl⟩, _, b2, h⟩ := hb
  simp only [GnssPlaceEntry.mk.injEq, Option.some.injEq] at h
  obtain ⟨rfl, rfl, h3⟩ := h
  obtain rfl := Int.ofNat.inj h3
  have e1 := gnss_roundtrip _ [] _ a1
  rw [gnss_roundtrip _ [] _ b1, Res.ok.injEq, List.nil_append, List.nil_append] at e1
  have e2 := odometer_roundtrip _ [] _ a2
  rw [odometer_roundtrip _ [] _ b2, List.nil_append, List.nil_append] at e2
  refine ((alike_eq (n := 18) (by omega) (by omega)).1 ?_).symm
  exact ((alike_sl (by omega) (timeReal_inj _ _ _ b0 a0)).append (alike_sl (by omega) e1)).append (alike_sl (by omega) e2)

omit [Charmap] in
theorem unit_inj {a b : Bytes} (ha : a.length = 10) (hb : b.length = 10) (h : vehicleUnitOf a = vehicleUnitOf b) : a = b := by
  simp only [vehicleUnitOf, VehicleUnitRecord.mk.injEq] at h
  obtain ⟨h1, h2, h3, h4⟩ := h
  refine (alike_eq (n := 10) ha hb).1 ?_
  have e1 : sl a 0 4 = sl b 0 4 := by
    obtain ⟨s, hs⟩ := timeReal_slice_ok (d := a) (a := 0) (b := 4) rfl (by omega)
    obtain ⟨t, ht⟩ := timeReal_slice_ok (d := b) (a := 0) (b := 4) rfl (by omega)
    have := timeReal_instant hs
    rw [h1] at this
    rw [this, ← timeReal_instant ht] at hs
    exact timeReal_inj _ _ _ hs ht
  have e2 : sl a 4 5 = sl b 4 5 := by
    have h2 := toNat_inj h2
    rw [sl_eq_singleton (by omega), sl_eq_singleton (by omega)]
    simpa [List.getD_eq_getElem?_getD, List.getElem?_eq_getElem (show 4 < a.length by omega), List.getElem?_eq_getElem (show 4 < b.length by omega)] using h2
  exact (((alike_sl (by omega) e1).append (alike_sl (by omega) e2)).append (alike_sl (by omega) h3)).append (alike_sl (by omega) h4)

omit [Charmap] in
theorem header_records {n : Nat} {d e : Bytes} (hn : 0 < n) (hd : 2 ≤ d.length) (he : 2 ≤ e.length) (hd' : (d.length - 2) % n = 0) (he' : (e.length - 2) % n = 0)
    (h1 : beNat (sl d 0 2) = beNat (sl e 0 2)) (hc : recordCount 2 n d = recordCount 2 n e)
    (hr : ∀ i, i < recordCount 2 n d → record 2 n i d = record 2 n i e) : d = e := by
  have h0 : sl d 0 2 = sl e 0 2 := beNat_inj (by rw [sl_length_of (by omega), sl_length_of (by omega)]) h1
  have h2 : cut n (d.drop 2) = cut n (e.drop 2) := by
    rw [cut_eq hn, cut_eq hn, List.length_drop, List.length_drop]
    unfold recordCount at hc hr
    rw [← hc]
    refine List.map_congr_left fun i hi => ?_
    rw [record_drop, record_drop]
    exact hr i (List.mem_range.1 hi)
  rw [← (wholeRecords_eq_iff hd).2 hd', ← (wholeRecords_eq_iff he).2 he', wholeRecords_split hn, wholeRecords_split hn, h2]
  congr 1

omit [Charmap] in
theorem gnss_inj : Inj unmarshalGnssPlaces := by
  rintro a b ⟨n, rs⟩ ha hb
  obtain ⟨a1, a2, a3, a4⟩ := (gnssPlaces_ok_iff a n rs).1 ha
  obtain ⟨b1, b2, b3, b4⟩ := (gnssPlaces_ok_iff b n rs).1 hb
  have h := (records_sees (R := (· = ·)) (fun _ _ _ _ _ _ h3 h4 => gnssEntry_inj.sees _ _ _ _ h3 h4) (by omega) a4 b4).1 rfl
  exact header_records (by omega) a1 b1 a2 b2 (Int.ofNat.inj (a3.symm.trans b3)) h.1 h.2

omit [Charmap] in
theorem vehicleUnits_inj {a b : Bytes} {x : Int × List VehicleUnitRecord} (hla : a.length ≤ 4098) (hlb : b.length ≤ 4098)
    (ha : unmarshalVehicleUnitsUsed a = .ok x) (hb : unmarshalVehicleUnitsUsed b = .ok x) : a = b := by
  obtain ⟨n, rs⟩ := x
  obtain ⟨a1, a2, a3, a4⟩ := (vehicleUnits_ok_iff a hla n rs).1 ha
  obtain ⟨b1, b2, b3, b4⟩ := (vehicleUnits_ok_iff b hlb n rs).1 hb
  have h := (records_sees (R := (· = ·)) (fun x y _ _ h1 h2 h3 h4 => by
    rw [Res.ok.injEq] at h3 h4
    subst h3 h4
    exact ⟨fun h => unit_inj h1 h2 h, fun h => by rw [h]⟩) (by omega) a4 b4).1 rfl
  exact header_records (by omega) a1 b1 a2 b2 (Int.ofNat.inj (a3.symm.trans b3)) h.1 h.2


/-! ## Driver cards -/

/-- The newest blocks of a place and the two messages. -/
theorem place_sees {α : Type} {p : Bytes → Res α} {R : Bytes → Bytes → Prop} {bs cs : List Block} {here : Block → Bool}
    (hb : ∀ b ∈ bs, here b = true → b.Reads p ∧ b.sig = none) (hc : ∀ c ∈ cs, here c = true → c.Reads p ∧ c.sig = none)
    (hp : ∀ b ∈ bs, ∀ c ∈ cs, here b = true → here c = true → ∀ x y, p b.data.value = .ok x → p c.data.value = .ok y →
      (x = y ↔ R b.data.value c.data.value)) :
    ((newest bs here).bind (Block.read p) = (newest cs here).bind (Block.read p)) ↔
      BothOr (fun b c => R b.data.value c.data.value ∧ b.sig.map RawRec.value = c.sig.map RawRec.value) (newest bs here) (newest cs here) := by
  cases h1 : newest bs here with
  | none =>
    cases h2 : newest cs here with
    | none => simp [BothOr]
    | some c =>
      obtain ⟨hm, hh⟩ := newest_mem h2
      obtain ⟨⟨y, hy⟩, -⟩ := hc c hm hh
      simp [BothOr, Block.read, hy]
  | some b =>
    obtain ⟨hm, hh⟩ := newest_mem h1
    obtain ⟨⟨x, hx⟩, hs⟩ := hb b hm hh
    cases h2 : newest cs here with
    | none => simp [BothOr, Block.read, hx]
    | some c =>
      obtain ⟨hm', hh'⟩ := newest_mem h2
      obtain ⟨⟨y, hy⟩, hs'⟩ := hc c hm' hh'
      simp only [Option.bind_some, Block.read, hx, hy, Option.some.injEq, BothOr, hs, hs', and_true]
      exact hp b hm c hm' hh hh' x y hx hy

theorem signed_sees {α : Type} {p : Bytes → Res α} {R : Bytes → Bytes → Prop} {bs cs : List Block} {here : Block → Bool}
    (hb : ∀ b ∈ bs, here b = true → b.Reads p) (hc : ∀ c ∈ cs, here c = true → c.Reads p)
    (hp : ∀ b ∈ bs, ∀ c ∈ cs, here b = true → here c = true → ∀ x y, p b.data.value = .ok x → p c.data.value = .ok y →
      (x = y ↔ R b.data.value c.data.value)) :
    ((newest bs here).bind (Block.readSigned p) = (newest cs here).bind (Block.readSigned p)) ↔
      BothOr (fun b c => R b.data.value c.data.value ∧ b.sig.map RawRec.value = c.sig.map RawRec.value) (newest bs here) (newest cs here) := by
  cases h1 : newest bs here with
  | none =>
    cases h2 : newest cs here with
    | none => simp [BothOr]
    | some c =>
      obtain ⟨hm, hh⟩ := newest_mem h2
      obtain ⟨y, hy⟩ := hc c hm hh
      simp [BothOr, Block.readSigned, Block.read, hy]
  | some b =>
    obtain ⟨hm, hh⟩ := newest_mem h1
    obtain ⟨x, hx⟩ := hb b hm hh
    cases h2 : newest cs here with
    | none => simp [BothOr, Block.readSigned, Block.read, hx]
    | some c =>
      obtain ⟨hm', hh'⟩ := newest_mem h2
      obtain ⟨y, hy⟩ := hc c hm' hh'
      simp only [Option.bind_some, Block.readSigned, Block.read, hx, hy, Option.map_some, Option.some.injEq, BothOr, Signed.mk.injEq]
      rw [hp b hm c hm' hh hh' x y hx hy]

/-- The place of a file in both lists of blocks. -/
def AlikeAt (p : EF × Option Generation) (bs cs : List Block) : Prop :=
  BothOr (fun b c => AlikeFiles p.1 b.data.value c.data.value ∧ b.sig.map RawRec.value = c.sig.map RawRec.value)
    (newest bs (belongs p)) (newest cs (belongs p))

omit [Charmap] in
theorem belongs_gen (f : EF) (g : Generation) : belongs (f, some g) = fileGen f g := by
  funext b; simp [belongs, fileGen]

omit [Charmap] in
theorem belongs_any (f : EF) : belongs (f, none) = file f := by
  funext b; simp [belongs, file]

omit [Charmap] in
theorem unshifted_events {bs : List Block} (h : Unshifted bs) {b : Block} (hb : b ∈ bs) (hf : b.data.file = .eventsData ∨ b.data.file = .faultsData) :
    NeverMoved 24 b.data.value.length := (h b hb).1 hf

theorem gen1_alike {bs cs : List Block} (hb : ∀ b ∈ bs, b.Readable) (hc : ∀ c ∈ cs, c.Readable) (sb : Unshifted bs) (sc : Unshifted cs) :
    gen1Of bs = gen1Of cs ↔ ∀ f ∈ gen1Files, AlikeAt (f, some .gen1) bs cs := by
  have key : ∀ {ds : List Block} {d : Block}, (∀ b ∈ ds, b.Readable) → d ∈ ds → ∀ f, fileGen f .gen1 d = true →
      d.Readable ∧ d.data.file = f ∧ d.data.generation = .gen1 := by
    intro ds d h hd f hh
    simp only [fileGen, Bool.and_eq_true, beq_iff_eq] at hh
    exact ⟨h d hd, hh⟩
  simp only [gen1Of, Tachograph.mk.injEq, gen1Files, List.forall_mem_cons, List.not_mem_nil, false_implies, implies_true, and_true, AlikeAt, belongs_gen]
  refine and_congr ?_ (and_congr ?_ (and_congr ?_ (and_congr ?_ (and_congr ?_ (and_congr ?_ (and_congr ?_ (and_congr ?_ (and_congr ?_
    (and_congr ?_ (and_congr ?_ (and_congr ?_ (and_congr ?_ ?_))))))))))))
  all_goals
    first
      | apply signed_sees (R := AlikeFiles _)
        · intro b hm hh
          obtain ⟨h, hf, hg⟩ := key hb hm _ hh
          simp only [Block.Readable, hf] at h
          exact byGen1 h hg
        · intro b hm hh
          obtain ⟨h, hf, hg⟩ := key hc hm _ hh
          simp only [Block.Readable, hf] at h
          exact byGen1 h hg
      | apply place_sees (R := AlikeFiles _)
        · intro b hm hh
          obtain ⟨h, hf, hg⟩ := key hb hm _ hh
          simp only [Block.Readable, hf] at h
          first
            | exact ⟨byGen1 h.2 hg, h.1⟩
            | exact ⟨h.2.2, h.1⟩
        · intro b hm hh
          obtain ⟨h, hf, hg⟩ := key hc hm _ hh
          simp only [Block.Readable, hf] at h
          first
            | exact ⟨byGen1 h.2 hg, h.1⟩
            | exact ⟨h.2.2, h.1⟩
  all_goals
    intro b hm c hm' hh hh' x y hx hy
    first
      | exact appId_inj.sees _ _ _ _ hx hy
      | exact identification_sees _ _ _ _ hx hy
      | exact drivingLicence_sees _ _ _ _ hx hy
      | exact events_sees (unshifted_events sb hm (.inl (key hb hm _ hh).2.1)) (unshifted_events sc hm' (.inl (key hc hm' _ hh').2.1)) hx hy
      | exact events_sees (unshifted_events sb hm (.inr (key hb hm _ hh).2.1)) (unshifted_events sc hm' (.inr (key hc hm' _ hh').2.1)) hx hy
      | exact driverActivity_inj.sees _ _ _ _ hx hy
      | exact vehiclesUsed_inj.sees _ _ _ _ hx hy
      | exact places_inj.sees _ _ _ _ hx hy
      | exact currentUsage_sees _ _ _ _ hx hy
      | exact controlActivity_sees _ _ _ _ hx hy
      | exact conditions_inj.sees _ _ _ _ hx hy
      | exact cardDownload_sees _ _ _ _ hx hy
      | exact rsa_inj.sees _ _ _ _ hx hy

theorem gen2_alike {bs cs : List Block} (hb : ∀ b ∈ bs, b.Readable) (hc : ∀ c ∈ cs, c.Readable) (sb : Unshifted bs) (sc : Unshifted cs) :
    gen2Of bs = gen2Of cs ↔ (∀ f ∈ gen2SharedFiles, AlikeAt (f, some .gen2) bs cs) ∧ ∀ f ∈ gen2OnlyFiles, AlikeAt (f, none) bs cs := by
  have key : ∀ {ds : List Block} {d : Block}, (∀ b ∈ ds, b.Readable) → d ∈ ds → ∀ f, fileGen f .gen2 d = true →
      d.Readable ∧ d.data.file = f ∧ d.data.generation = .gen2 := by
    intro ds d h hd f hh
    simp only [fileGen, Bool.and_eq_true, beq_iff_eq] at hh
    exact ⟨h d hd, hh⟩
  have key2 : ∀ {ds : List Block} {d : Block}, (∀ b ∈ ds, b.Readable) → d ∈ ds → ∀ f, file f d = true → d.Readable ∧ d.data.file = f := by
    intro ds d h hd f hh
    simp only [file, beq_iff_eq] at hh
    exact ⟨h d hd, hh⟩
  simp only [gen2Of, TachographG2.mk.injEq, gen2SharedFiles, gen2OnlyFiles, List.forall_mem_cons, List.not_mem_nil, false_implies, implies_true, and_true,
    AlikeAt, belongs_gen, belongs_any, and_assoc]
  have order : ∀ a b c d e f g h i j k l m n o p q r s : Prop, (a ∧ b ∧ c ∧ d ∧ e ∧ f ∧ g ∧ h ∧ i ∧ j ∧ k ∧ l ∧ q ∧ r ∧ s ∧ m ∧ n ∧ o ∧ p) ↔
    (a ∧ b ∧ c ∧ d ∧ e ∧ f ∧ g ∧ h ∧ i ∧ j ∧ k ∧ l ∧ m ∧ n ∧ o ∧ p ∧ q ∧ r ∧ s) := by
    intros; constructor <;> (rintro ⟨_, _, _, _, _, _, _, _, _, _, _, _, _, _, _, _, _, _, _⟩; refine ⟨?_, ?_, ?_, ?_, ?_, ?_, ?_, ?_, ?_, ?_, ?_, ?_, ?_, ?_, ?_, ?_, ?_, ?_, ?_⟩ <;> assumption)
  rw [order]
  refine and_congr ?_ (and_congr ?_ (and_congr ?_ (and_congr ?_ (and_congr ?_ (and_congr ?_ (and_congr ?_ (and_congr ?_ (and_congr ?_
    (and_congr ?_ (and_congr ?_ (and_congr ?_ (and_congr ?_ (and_congr ?_ (and_congr ?_ (and_congr ?_ (and_congr ?_ (and_congr ?_ ?_)))))))))))))))))
  all_goals
    first
      | apply signed_sees (R := AlikeFiles _)
        · intro b hm hh
          first
            | obtain ⟨h, hf, hg⟩ := key hb hm _ hh
              simp only [Block.Readable, hf] at h
              exact byGen2 h hg
            | obtain ⟨h, hf⟩ := key2 hb hm _ hh
              simp only [Block.Readable, hf] at h
              exact h
        · intro b hm hh
          first
            | obtain ⟨h, hf, hg⟩ := key hc hm _ hh
              simp only [Block.Readable, hf] at h
              exact byGen2 h hg
            | obtain ⟨h, hf⟩ := key2 hc hm _ hh
              simp only [Block.Readable, hf] at h
              exact h
      | apply place_sees (R := AlikeFiles _)
        · intro b hm hh
          obtain ⟨h, hf, hg⟩ := key hb hm _ hh
          simp only [Block.Readable, hf] at h
          first
            | exact ⟨byGen2 h.2 hg, h.1⟩
            | exact ⟨h.2.2, h.1⟩
        · intro b hm hh
          obtain ⟨h, hf, hg⟩ := key hc hm _ hh
          simp only [Block.Readable, hf] at h
          first
            | exact ⟨byGen2 h.2 hg, h.1⟩
            | exact ⟨h.2.2, h.1⟩
  all_goals
    intro b hm c hm' hh hh' x y hx hy
    first
      | exact appIdG2_inj.sees _ _ _ _ hx hy
      | exact identification_sees _ _ _ _ hx hy
      | exact drivingLicence_sees _ _ _ _ hx hy
      | exact events_sees (unshifted_events sb hm (.inl (key hb hm _ hh).2.1)) (unshifted_events sc hm' (.inl (key hc hm' _ hh').2.1)) hx hy
      | exact events_sees (unshifted_events sb hm (.inr (key hb hm _ hh).2.1)) (unshifted_events sc hm' (.inr (key hc hm' _ hh').2.1)) hx hy
      | exact driverActivity_inj.sees _ _ _ _ hx hy
      | exact vehiclesUsedG2_inj.sees _ _ _ _ hx hy
      | exact placesG2_inj.sees _ _ _ _ hx hy
      | exact currentUsage_sees _ _ _ _ hx hy
      | exact controlActivity_sees _ _ _ _ hx hy
      | exact conditionsG2_inj.sees _ _ _ _ hx hy
      | exact cardDownload_sees _ _ _ _ hx hy
      | exact ecc_inj.sees _ _ _ _ hx hy
      | exact gnss_inj.sees _ _ _ _ hx hy
      | exact appIdV2_sees _ _ _ _ hx hy
      | exact ⟨fun h => vehicleUnits_inj ((sb b hm).2 (key2 hb hm _ hh).2) ((sc c hm').2 (key2 hc hm' _ hh').2) hx (h ▸ hy),
          fun h => by rw [h, hy] at hx; exact (Res.ok.inj hx).symm⟩

omit [Charmap] in
theorem newest_absent {bs : List Block} {here : Block → Bool} : newest bs here = none ↔ bs.any here = false := by
  rw [newest, List.getLast?_eq_none_iff, List.filter_eq_nil_iff, List.any_eq_false]

omit [Charmap] in
theorem alikeAt_any {p : EF × Option Generation} {bs cs : List Block} (h : AlikeAt p bs cs) : bs.any (belongs p) = cs.any (belongs p) := by
  unfold AlikeAt at h
  cases h1 : newest bs (belongs p) with
  | none =>
    cases h2 : newest cs (belongs p) with
    | none => rw [newest_absent.1 h1, newest_absent.1 h2]
    | some c => rw [h1, h2] at h; exact h.elim
  | some b =>
    cases h2 : newest cs (belongs p) with
    | none => rw [h1, h2] at h; exact h.elim
    | some c =>
      have : ∀ {ds : List Block} {d}, newest ds (belongs p) = some d → ds.any (belongs p) = true := fun h =>
        List.any_eq_true.2 ⟨_, (newest_mem h).1, (newest_mem h).2⟩
      rw [this h1, this h2]

omit [Charmap] in
theorem any_inGen1 (bs : List Block) : bs.any inGen1 = gen1Files.any fun f => bs.any (belongs (f, some .gen1)) := by
  rw [Bool.eq_iff_iff]
  simp only [List.any_eq_true, inGen1, belongs, Bool.and_eq_true, beq_iff_eq, List.contains_iff_mem, Option.all_some]
  constructor
  · rintro ⟨b, hb, h1, h2⟩
    exact ⟨_, h2, b, hb, rfl, h1⟩
  · rintro ⟨f, hf, b, hb, rfl, h1⟩
    exact ⟨b, hb, h1, hf⟩

omit [Charmap] in
theorem any_inGen2 (bs : List Block) : bs.any inGen2 =
    ((gen2SharedFiles.any fun f => bs.any (belongs (f, some .gen2))) || gen2OnlyFiles.any fun f => bs.any (belongs (f, none))) := by
  rw [Bool.eq_iff_iff]
  simp only [List.any_eq_true, inGen2, belongs, Bool.and_eq_true, Bool.or_eq_true, beq_iff_eq, List.contains_iff_mem, Option.all_some, Option.all_none, and_true]
  constructor
  · rintro ⟨b, hb, ⟨h1, h2⟩ | h2⟩
    · exact .inl ⟨_, h2, b, hb, rfl, h1⟩
    · exact .inr ⟨_, h2, b, hb, rfl⟩
  · rintro (⟨f, hf, b, hb, rfl, h1⟩ | ⟨f, hf, b, hb, rfl⟩)
    · exact ⟨b, hb, .inl ⟨h1, hf⟩⟩
    · exact ⟨b, hb, .inr hf⟩

omit [Charmap] in
theorem alikeCards_iff (bs cs : List Block) : AlikeCards bs cs ↔ AlikeAt (.icc, none) bs cs ∧ AlikeAt (.ic, none) bs cs ∧
    (∀ f ∈ gen1Files, AlikeAt (f, some .gen1) bs cs) ∧
    (∀ f ∈ gen2SharedFiles, AlikeAt (f, some .gen2) bs cs) ∧ ∀ f ∈ gen2OnlyFiles, AlikeAt (f, none) bs cs := by
  unfold AlikeCards cardPlaces
  simp only [List.forall_mem_append, List.forall_mem_map, List.forall_mem_cons, List.not_mem_nil, false_implies, implies_true, and_true, and_assoc]
  rfl

theorem cardOf_alike {bs cs : List Block} (hb : ∀ b ∈ bs, b.Readable) (hc : ∀ c ∈ cs, c.Readable) (sb : Unshifted bs) (sc : Unshifted cs) :
    cardOf bs = cardOf cs ↔ AlikeCards bs cs := by
  have key2 : ∀ {ds : List Block} {d : Block}, (∀ b ∈ ds, b.Readable) → d ∈ ds → ∀ f, file f d = true → d.Readable ∧ d.data.file = f := by
    intro ds d h hd f hh
    simp only [file, beq_iff_eq] at hh
    exact ⟨h d hd, hh⟩
  rw [alikeCards_iff, ← gen1_alike hb hc sb sc, ← gen2_alike hb hc sb sc]
  simp only [cardOf, DriverCard.mk.injEq]
  refine and_congr ?_ (and_congr ?_ (and_congr ?_ ?_))
  · simp only [AlikeAt, belongs_any, AlikeFiles]
    apply place_sees
    · intro b hm hh
      obtain ⟨h, hf⟩ := key2 hb hm _ hh
      simp only [Block.Readable, hf] at h
      exact ⟨h.2, h.1⟩
    · intro b hm hh
      obtain ⟨h, hf⟩ := key2 hc hm _ hh
      simp only [Block.Readable, hf] at h
      exact ⟨h.2, h.1⟩
    · intro b hm c hm' hh hh' x y hx hy
      exact icc_sees _ _ _ _ hx hy
  · simp only [AlikeAt, belongs_any, AlikeFiles]
    apply place_sees
    · intro b hm hh
      obtain ⟨h, hf⟩ := key2 hb hm _ hh
      simp only [Block.Readable, hf] at h
      exact ⟨h.2, h.1⟩
    · intro b hm hh
      obtain ⟨h, hf⟩ := key2 hc hm _ hh
      simp only [Block.Readable, hf] at h
      exact ⟨h.2, h.1⟩
    · intro b hm c hm' hh hh' x y hx hy
      exact ic_sees _ _ _ _ hx hy
  · constructor
    · intro h
      cases h1 : bs.any inGen1 <;> cases h2 : cs.any inGen1 <;> simp only [h1, h2, if_true, Bool.false_eq_true, if_false, reduceCtorEq, Option.some.injEq] at h
      · rw [gen1Of_absent h1, gen1Of_absent h2]
      · exact h
    · intro h
      have ha := (gen1_alike hb hc sb sc).1 h
      have : bs.any inGen1 = cs.any inGen1 := by
        rw [any_inGen1, any_inGen1, Bool.eq_iff_iff]
        simp only [List.any_eq_true (l := gen1Files)]
        exact exists_congr fun f => and_congr_right fun hf => by rw [alikeAt_any (ha f hf)]
      rw [this, h]
  · constructor
    · intro h
      cases h1 : bs.any inGen2 <;> cases h2 : cs.any inGen2 <;> simp only [h1, h2, if_true, Bool.false_eq_true, if_false, reduceCtorEq, Option.some.injEq] at h
      · rw [gen2Of_absent h1, gen2Of_absent h2]
      · exact h
    · intro h
      have ha := (gen2_alike hb hc sb sc).1 h
      have : bs.any inGen2 = cs.any inGen2 := by
        rw [any_inGen2, any_inGen2, Bool.eq_iff_iff]
        simp only [Bool.or_eq_true, List.any_eq_true (l := gen2SharedFiles), List.any_eq_true (l := gen2OnlyFiles)]
        exact or_congr (exists_congr fun f => and_congr_right fun hf => by rw [alikeAt_any (ha.1 f hf)])
          (exists_congr fun f => and_congr_right fun hf => by rw [alikeAt_any (ha.2 f hf)])
      rw [this, h]

/-- The blocks of a file that is read as a driver card. -/
theorem driver_file_blocks {d : Bytes} {bs : List Block} {c : DriverCard} (hb : Holds d bs)
    (h : unmarshalFile d = .ok { type := .driverCard, driverCard := some c }) : c = cardOf bs ∧ ∀ b ∈ bs, b.Readable := by
  obtain ⟨rs, hs, rfl, hrs, hg⟩ := hb
  obtain ⟨-, h2⟩ := (driver_file_iff hs (driver_file_starts h) c).1 h
  obtain ⟨cs, h3, h4, rfl⟩ := (driver_card_iff _ _).1 h2
  obtain rfl := blocks_unique bs cs hg (fun b hb => (h4 b hb).1) (hrs.symm.trans h3)
  exact ⟨rfl, fun b hb => (h4 b hb).2⟩

/-- C79: two files that are read as driver cards give the same message exactly when, for every place of the message, they hold alike
contents and the same signature, or both hold nothing. -/
theorem card_alike_iff (d e : Bytes) (bs cs : List Block) (hd : Holds d bs) (he : Holds e cs) (sd : Unshifted bs) (se : Unshifted cs) (a b : DriverCard)
    (ha : unmarshalFile d = .ok { type := .driverCard, driverCard := some a })
    (hb : unmarshalFile e = .ok { type := .driverCard, driverCard := some b }) : a = b ↔ AlikeCards bs cs := by
  obtain ⟨rfl, h1⟩ := driver_file_blocks hd ha
  obtain ⟨rfl, h2⟩ := driver_file_blocks he hb
  exact cardOf_alike h1 h2 sd se

omit [Charmap] in
/-- C79: a file that is not of a driver card is read with all its bytes. -/
theorem raw_card_alike_iff (d e : Bytes) (x y : List RawRec) (hd : unmarshalRawCardFile d = .ok x) (he : unmarshalRawCardFile e = .ok y) :
    x = y ↔ d = e := by
  constructor
  · rintro rfl
    have h1 := raw_card_roundtrip d x hd
    have h2 := raw_card_roundtrip e x he
    rw [h1.1, Res.ok.injEq] at h2
    exact h2.1
  · rintro rfl
    rw [hd] at he
    exact Res.ok.inj he


/-! ## Vehicle units -/

omit [Charmap] in
theorem read_map {α : Type} {f : Bytes → Res α} {vs : List Bytes} {os : List α} (h : List.Forall₂ (fun v o => f v = .ok o) vs os) :
    os.map some = vs.map fun v => match f v with | .ok o => some o | _ => none := by
  induction h with
  | nil => rfl
  | cons h _ ih => simp only [List.map_cons, h, ih]

omit [Charmap] in
theorem raw_map {α : Type} {f : Bytes → Res α} {raw : α → Bytes} (hr : ∀ v o, f v = .ok o → raw o = v) {vs : List Bytes} {os : List α}
    (h : List.Forall₂ (fun v o => f v = .ok o) vs os) : os.map raw = vs := by
  induction h with
  | nil => rfl
  | cons h _ ih => simp only [List.map_cons, hr _ _ h, ih]

omit [Charmap] in
theorem last_sees {α : Type} {f : Bytes → Res α} {raw : α → Bytes} (hr : ∀ v o, f v = .ok o → raw o = v) {vs ws : List Bytes} {os ps : List α}
    (h : List.Forall₂ (fun v o => f v = .ok o) vs os) (k : List.Forall₂ (fun v o => f v = .ok o) ws ps) :
    os.getLast? = ps.getLast? ↔ vs.getLast? = ws.getLast? := by
  constructor
  · intro e
    rw [← raw_map hr h, ← raw_map hr k, List.getLast?_map, List.getLast?_map, e]
  · intro e
    have h1 := congrArg List.getLast? (read_map h)
    have h2 := congrArg List.getLast? (read_map k)
    rw [List.getLast?_map, List.getLast?_map] at h1 h2
    rw [e, ← h2] at h1
    exact Option.map_injective (fun a b h => Option.some.inj h) h1

omit [Charmap] in
theorem all_sees {α : Type} {f : Bytes → Res α} {raw : α → Bytes} (hr : ∀ v o, f v = .ok o → raw o = v) {vs ws : List Bytes} {os ps : List α}
    (h : List.Forall₂ (fun v o => f v = .ok o) vs os) (k : List.Forall₂ (fun v o => f v = .ok o) ws ps) : os = ps ↔ vs = ws := by
  constructor
  · rintro rfl
    rw [← raw_map hr h, ← raw_map hr k]
  · rintro rfl
    exact List.right_unique_forall₂' (fun e v w h1 h2 => by rw [h1] at h2; exact Res.ok.inj h2) h k

theorem overview_raw (v : Bytes) (o : OverviewGen1) (h : unmarshalOverviewGen1 v = .ok o) : o.rawData = v := by
  obtain ⟨_, _, -, h, -⟩ := (overview_iff v o).1 h
  exact h

theorem activities_raw (v : Bytes) (o : ActivitiesGen1) (h : unmarshalActivitiesGen1 v = .ok o) : o.rawData = v := by
  obtain ⟨_, _, _, _, -, h, -⟩ := (activities_iff v o).1 h
  exact h

omit [Charmap] in
theorem map_inj {α β : Type} {f : α → β} (hf : ∀ a b, f a = f b → a = b) {xs ys : List α} : xs.map f = ys.map f ↔ xs = ys :=
  ⟨fun h => List.map_injective_iff.2 (fun a b h => hf a b h) h, fun h => by rw [h]⟩

omit [Charmap] in
theorem signed_inj (a b : Bytes) (h : signed a = signed b) : a = b := by
  simp only [signed, SignedGen1.mk.injEq] at h
  exact h.1

omit [Charmap] in
theorem valuesOf_ne_nil {k : TransferType} {ts : List Transfer} : valuesOf k ts ≠ [] ↔ ∃ t ∈ ts, t.type = k := by
  simp [valuesOf, List.filter_eq_nil_iff]

omit [Charmap] in
theorem alike_type {ts us : List Transfer} (h : AlikeTransfers ts us) {t : Transfer} (ht : t ∈ ts)
    (hk : t.type ∈ [TransferType.overviewGen1, .overviewG2V1, .overviewG2V2] ∨
      t.type ∈ [TransferType.activitiesGen1, .eventsGen1, .speedGen1, .technicalGen1, .speedGen2]) : ∃ u ∈ us, u.type = t.type := by
  rw [← valuesOf_ne_nil]
  have h1 : valuesOf t.type ts ≠ [] := valuesOf_ne_nil.2 ⟨t, ht, rfl⟩
  intro h2
  rcases hk with hk | hk
  · have := h.overview _ hk
    rw [h2, List.getLast?_nil, List.getLast?_eq_none_iff] at this
    exact h1 this
  · exact h1 ((h.rest _ hk).trans h2)

omit [Charmap] in
theorem Spec.AlikeTransfers.symm {ts us : List Transfer} (h : AlikeTransfers ts us) : AlikeTransfers us ts :=
  ⟨fun k hk => (h.overview k hk).symm, fun k hk => (h.rest k hk).symm, h.version.symm⟩

/-- What a file of a vehicle unit is read as, in terms of its transfers. -/
theorem vu_of_transfers {ts : List Transfer} {w : VehicleUnitFile} (hc : ∀ t ∈ ts, Conforms t.type t.value ∧ t.type ≠ .cardDownload)
    (h : unmarshalFile (vuBytes ts) = .ok { type := .vehicleUnit, vehicleUnit := some w }) :
    ts ≠ [] ∧ ((Only gen1Types ts ∧ ∃ g, Gen1Is ts g ∧ w = { generation := .gen1, gen1 := some g })
        ∨ (Only [.overviewG2V1, .speedGen2] ts
            ∧ w = { generation := .gen2, version := .v1, gen2V1 := some (gen2Message .overviewG2V1 ts) })
        ∨ (Only [.downloadInterfaceVersion, .overviewG2V2, .speedGen2] ts ∧ ¬ Only [.speedGen2] ts
            ∧ w = { generation := .gen2, version := .v2, gen2V2 := some (gen2Message .overviewG2V2 ts) })) := by
  obtain ⟨hw, -⟩ := vu_file_parts h
  obtain ⟨vs, hv, h1, h2, h3⟩ := (vu_file_iff _ _).1 hw
  have hcut' : Cut vs [] := by
    refine cut_of_conforms h2 fun t ht hcd => ?_
    rcases h3 with ⟨h, -⟩ | ⟨h, -⟩ | ⟨h, -⟩ <;>
    · have := h t ht
      rw [hcd] at this
      exact absurd this (by decide)
  obtain rfl := vu_cut_unique _ _ (cut_of_conforms (fun t ht => (hc t ht).1) fun t ht => (hc t ht).2) hcut' h1
  exact ⟨hv, h3⟩

/-- C79: two files of vehicle units are read as the same message exactly when their transfers are alike: the last overview and all
values of the other types are the same. -/
theorem vu_alike_iff (ts us : List Transfer) (a b : VehicleUnitFile) (ht : ∀ t ∈ ts, Conforms t.type t.value ∧ t.type ≠ .cardDownload)
    (hu : ∀ u ∈ us, Conforms u.type u.value ∧ u.type ≠ .cardDownload)
    (ha : unmarshalFile (vuBytes ts) = .ok { type := .vehicleUnit, vehicleUnit := some a })
    (hb : unmarshalFile (vuBytes us) = .ok { type := .vehicleUnit, vehicleUnit := some b }) : a = b ↔ AlikeTransfers ts us := by
  obtain ⟨ht0, hta⟩ := vu_of_transfers ht ha
  obtain ⟨hu0, hub⟩ := vu_of_transfers hu hb
  obtain ⟨t0, ht0⟩ := List.exists_mem_of_ne_nil ts ht0
  obtain ⟨u0, hu0⟩ := List.exists_mem_of_ne_nil us hu0
  have v1 : ∀ {l : List Transfer}, Only [.overviewG2V1, .speedGen2] l → ¬ ∃ t ∈ l, t.type ∈ [TransferType.downloadInterfaceVersion, .overviewG2V2] := by
    rintro l h ⟨t, hm, hx⟩
    have := h t hm
    revert hx this
    cases t.type <;> decide
  have v0 : ∀ {l : List Transfer}, Only gen1Types l → ¬ ∃ t ∈ l, t.type ∈ [TransferType.downloadInterfaceVersion, .overviewG2V2] := by
    rintro l h ⟨t, hm, hx⟩
    have := h t hm
    revert hx this
    cases t.type <;> decide
  have v2 : ∀ {l : List Transfer}, Only [.downloadInterfaceVersion, .overviewG2V2, .speedGen2] l → ¬ Only [.speedGen2] l →
      ∃ t ∈ l, t.type ∈ [TransferType.downloadInterfaceVersion, .overviewG2V2] := by
    intro l h hn
    unfold Only at hn
    simp only [not_forall] at hn
    obtain ⟨t, hm, hx⟩ := hn
    refine ⟨t, hm, ?_⟩
    have := h t hm
    revert hx this
    cases t.type <;> decide
  -- a download of the first generation shares no type with one of the second
  have clash : ∀ {l m : List Transfer} {t : Transfer} {types : List TransferType}, t ∈ l → Only gen1Types l → Only types m →
      (∀ x ∈ types, x ∉ gen1Types) → ¬ AlikeTransfers l m := by
    intro l m t types hm h1 h2 hx h
    obtain ⟨u, hu, he⟩ := alike_type h hm (by
      have := h1 t hm
      revert this
      cases t.type <;> decide)
    have := h1 t hm
    rw [← he] at this
    exact hx _ (h2 u hu) this
  have raw2 : ∀ ov x y, gen2Message ov x = gen2Message ov y ↔ (valuesOf ov x).getLast? = (valuesOf ov y).getLast? ∧ valuesOf .speedGen2 x = valuesOf .speedGen2 y := by
    intro ov x y
    simp only [gen2Message, VuGen2.mk.injEq, and_true, true_and]
    refine and_congr ⟨fun h => ?_, fun h => by rw [h]⟩ (map_inj fun a b h => by cases h; rfl)
    exact Option.map_injective (fun a b h => by cases h; rfl) h
  rcases hta with ⟨h1, g1, hg1, rfl⟩ | ⟨h1, rfl⟩ | ⟨h1, h1n, rfl⟩ <;> rcases hub with ⟨h2, g2, hg2, rfl⟩ | ⟨h2, rfl⟩ | ⟨h2, h2n, rfl⟩
  · obtain ⟨os, a1, a2, a3, a4, a5, a6⟩ := hg1
    obtain ⟨ps, b1, b2, b3, b4, b5, b6⟩ := hg2
    have e0 := last_sees overview_raw a1 b1
    have e1 := all_sees activities_raw a3 b3
    simp only [VehicleUnitFile.mk.injEq, Option.some.injEq, and_true, true_and]
    have hg : g1 = g2 ↔ g1.overview = g2.overview ∧ g1.activities = g2.activities ∧ g1.eventsAndFaults = g2.eventsAndFaults ∧
        g1.detailedSpeed = g2.detailedSpeed ∧ g1.technicalData = g2.technicalData := by
      cases g1; cases g2; simp
    rw [hg, a2, b2, e0, e1, a4, b4, a5, b5, a6, b6, map_inj signed_inj, map_inj signed_inj, map_inj signed_inj]
    constructor
    · rintro ⟨p1, p2, p3, p4, p5⟩
      refine ⟨?_, ?_, iff_of_false (v0 h1) (v0 h2)⟩
      · simp only [List.forall_mem_cons, List.not_mem_nil, false_implies, implies_true, and_true]
        exact ⟨p1, by rw [valuesOf_other h1 (by decide), valuesOf_other h2 (by decide)], by rw [valuesOf_other h1 (by decide), valuesOf_other h2 (by decide)]⟩
      · simp only [List.forall_mem_cons, List.not_mem_nil, false_implies, implies_true, and_true]
        exact ⟨p2, p3, p4, p5, by rw [valuesOf_other h1 (by decide), valuesOf_other h2 (by decide)]⟩
    · intro h
      exact ⟨h.overview _ (by decide), h.rest _ (by decide), h.rest _ (by decide), h.rest _ (by decide), h.rest _ (by decide)⟩
  · exact iff_of_false (by simp) (clash ht0 h1 h2 (by decide))
  · exact iff_of_false (by simp) (clash ht0 h1 h2 (by decide))
  · exact iff_of_false (by simp) fun h => clash hu0 h2 h1 (by decide) h.symm
  · simp only [VehicleUnitFile.mk.injEq, Option.some.injEq, and_true, true_and, raw2]
    constructor
    · rintro ⟨p1, p2⟩
      refine ⟨?_, ?_, iff_of_false (v1 h1) (v1 h2)⟩
      · simp only [List.forall_mem_cons, List.not_mem_nil, false_implies, implies_true, and_true]
        exact ⟨by rw [valuesOf_other h1 (by decide), valuesOf_other h2 (by decide)], p1, by rw [valuesOf_other h1 (by decide), valuesOf_other h2 (by decide)]⟩
      · simp only [List.forall_mem_cons, List.not_mem_nil, false_implies, implies_true, and_true]
        refine ⟨?_, ?_, ?_, ?_, p2⟩ <;> rw [valuesOf_other h1 (by decide), valuesOf_other h2 (by decide)]
    · intro h
      exact ⟨h.overview _ (by decide), h.rest _ (by decide)⟩
  · exact iff_of_false (by simp) fun h => v1 h1 (h.version.2 (v2 h2 h2n))
  · exact iff_of_false (by simp) fun h => clash hu0 h2 h1 (by decide) h.symm
  · exact iff_of_false (by simp) fun h => v1 h2 (h.version.1 (v2 h1 h1n))
  · simp only [VehicleUnitFile.mk.injEq, Option.some.injEq, true_and, raw2]
    constructor
    · rintro ⟨p1, p2⟩
      refine ⟨?_, ?_, iff_of_true (v2 h1 h1n) (v2 h2 h2n)⟩
      · simp only [List.forall_mem_cons, List.not_mem_nil, false_implies, implies_true, and_true]
        exact ⟨by rw [valuesOf_other h1 (by decide), valuesOf_other h2 (by decide)], by rw [valuesOf_other h1 (by decide), valuesOf_other h2 (by decide)], p1⟩
      · simp only [List.forall_mem_cons, List.not_mem_nil, false_implies, implies_true, and_true]
        refine ⟨?_, ?_, ?_, ?_, p2⟩ <;> rw [valuesOf_other h1 (by decide), valuesOf_other h2 (by decide)]
    · intro h
      exact ⟨h.overview _ (by decide), h.rest _ (by decide)⟩

end
end Tacho
