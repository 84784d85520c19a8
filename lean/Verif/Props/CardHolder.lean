import Verif.Props.CardFiles
import Verif.Spec.CardFiles
/-!
# EF_Current_Usage, EF_Driving_Licence_Info, EF_Control_Activity_Data, EF_Identification (C28, C48)
-/

namespace Tacho
open Spec

section
variable [Charmap]

theorem stringValue_restores {d : Bytes} {s : StringValue} (h : unmarshalStringValue d = .ok s)
    (hl : d.length ≤ 1000) : ∃ out, (∀ dst, appendStringValue dst (some s) = .ok (dst ++ out)) ∧
      out.length = d.length ∧ (out = d ↔ ByteAt d 0 KnownCodePage) := by
  have h2 := (stringValue_accepts_iff d).mp ⟨s, h⟩
  match d, h2 with
  | c :: x :: t, _ =>
    refine ⟨(if KnownCodePage c then c else 255) :: x :: t,
      fun dst => stringValue_roundtrip c (x :: t) dst (by simp) ?_ s h, by simp, ?_⟩
    · simp only [List.length_cons] at hl ⊢; omega
    · rw [byteAt_cons_zero]
      simp only [List.cons.injEq, and_true, codePage_restored]

theorem registration_restores {d : Bytes} {m : VehicleRegistration} (h : unmarshalVehicleRegistration d = .ok m) :
    (ByteAt d 0 (Known nationNumericTable) → ∃ out, (∀ dst, appendVehicleRegistration dst (some m) = .ok (dst ++ out)) ∧
      out.length = 15 ∧ (out = d ↔ ByteAt d 1 KnownCodePage)) ∧
    (¬ ByteAt d 0 (Known nationNumericTable) → ∀ dst, ∃ e, appendVehicleRegistration dst (some m) = .err e) := by
  obtain ⟨n, c, t, rfl, hl, _⟩ := registration_parse h
  have e1 : ByteAt (n :: c :: t) 1 KnownCodePage ↔ KnownCodePage c := by simp [ByteAt]
  rw [byteAt_cons_zero, e1]
  constructor
  · intro hk
    exact ⟨_, fun dst => (registration_roundtrip n c t dst m h).1 hk, by simp [hl],
      by simp only [List.cons.injEq, true_and, and_true, codePage_restored]⟩
  · intro hk dst
    exact (registration_roundtrip n c t dst m h).2 hk

theorem registration_ok {d : Bytes} (h : d.length = 15) : ∃ m, unmarshalVehicleRegistration d = .ok m :=
  (registration_accepts_iff d).mpr h

/-! ## EF_Current_Usage -/

theorem currentUsage_parse {d : Bytes} {m : CurrentUsage} (h : unmarshalCurrentUsage d = .ok m) :
    19 ≤ d.length ∧ ∃ ts reg, unmarshalTimeReal (sl d 0 4) = .ok ts ∧
      unmarshalVehicleRegistration (sl d 4 19) = .ok reg ∧ m = ⟨ts, some reg⟩ := by
  simp only [unmarshalCurrentUsage, Res.pure_eq, guard_eq_ok, bind_eq_ok, Res.ok.injEq, sl?_iff] at h
  obtain ⟨hl, _, ⟨_, _, rfl⟩, ts, hts, _, ⟨_, _, rfl⟩, reg, hreg, rfl⟩ := h
  exact ⟨by omega, ts, reg, hts, hreg, rfl⟩

theorem currentUsage_accepts_iff (d : Bytes) : (∃ m, unmarshalCurrentUsage d = .ok m) ↔ 19 ≤ d.length := by
  constructor
  · rintro ⟨m, h⟩; exact (currentUsage_parse h).1
  · intro hl
    obtain ⟨ts, hts⟩ := timeReal_slice_ok (d := d) (a := 0) (b := 4) (by omega) (by omega)
    obtain ⟨reg, hreg⟩ := registration_ok (d := sl d 4 19) (by simp; omega)
    simp only [unmarshalCurrentUsage, Res.pure_eq, guard_eq_ok, bind_eq_ok, Res.ok.injEq, sl?_iff]
    exact ⟨_, by omega, _, ⟨by omega, by omega, rfl⟩, ts, hts, _, ⟨by omega, by omega, rfl⟩, reg, hreg, rfl⟩

/-- C28: the 19 bytes are restored exactly when nation and code page are known; with an unknown nation the
parsed file cannot be written. -/
theorem currentUsage_restores_iff (d dst : Bytes) (m : CurrentUsage) (h : unmarshalCurrentUsage d = .ok m) :
    (appendCurrentUsage dst (some m) = .ok (dst ++ d.take 19) ↔
      ByteAt d 4 (Known nationNumericTable) ∧ ByteAt d 5 KnownCodePage) ∧
    ((∃ e, appendCurrentUsage dst (some m) = .err e) ↔ ¬ ByteAt d 4 (Known nationNumericTable)) := by
  obtain ⟨hl, ts, reg, hts, hreg, rfl⟩ := currentUsage_parse h
  obtain ⟨h1, h2⟩ := registration_restores hreg
  rw [byteAt_sl (by omega)] at h1 h2
  simp only [appendCurrentUsage, timeReal_slice hts, Res.bind_ok]
  by_cases hk : ByteAt d 4 (Known nationNumericTable)
  · obtain ⟨out, ho, hol, hoi⟩ := h1 hk
    rw [byteAt_sl (by omega)] at hoi
    rw [ho]
    have hd : d.take 19 = sl d 0 4 ++ sl d 4 19 := by rw [take_eq_sl]; join_slices
    simp only [Res.ok.injEq, List.append_assoc, List.append_cancel_left_eq, hd, hoi, hk, true_and]
    simp
  · obtain ⟨e, he⟩ := h2 hk (dst ++ sl d 0 4)
    rw [he]
    simp [hk]

/-- C48 -/
theorem currentUsage_fields (d : Bytes) (m : CurrentUsage) (h : unmarshalCurrentUsage d = .ok m) :
    m.openTime = instant (sl d 0 4) ∧ ∃ r, unmarshalVehicleRegistration (sl d 4 19) = .ok r ∧ m.vehicle = some r := by
  obtain ⟨hl, ts, reg, hts, hreg, rfl⟩ := currentUsage_parse h
  exact ⟨timeReal_instant hts, reg, hreg, rfl⟩

/-! ## EF_Driving_Licence_Info -/

theorem drivingLicence_parse {d : Bytes} {m : DrivingLicenceInfo} (h : unmarshalDrivingLicenceInfo d = .ok m) :
    53 ≤ d.length ∧ ∃ a b n, unmarshalStringValue (sl d 0 36) = .ok a ∧ sl d 36 37 = [b] ∧
      unmarshalIa5StringValue (sl d 37 53) = .ok n ∧ m = ⟨some a, enumOr1 nationNumericTable b, some n⟩ := by
  simp only [unmarshalDrivingLicenceInfo, Res.pure_eq, guard_eq_ok, bind_eq_ok, Res.ok.injEq, sl?_iff, at?_iff] at h
  obtain ⟨hl, _, ⟨_, _, rfl⟩, a, ha, b, ⟨_, hb⟩, _, ⟨_, _, rfl⟩, n, hn, rfl⟩ := h
  exact ⟨by omega, a, b, n, ha, hb, hn, rfl⟩

theorem drivingLicence_accepts_iff (d : Bytes) : (∃ m, unmarshalDrivingLicenceInfo d = .ok m) ↔ 53 ≤ d.length := by
  constructor
  · rintro ⟨m, h⟩; exact (drivingLicence_parse h).1
  · intro hl
    obtain ⟨a, ha⟩ := (stringValue_accepts_iff (sl d 0 36)).mpr (by simp; omega)
    obtain ⟨n, hn⟩ := ia5_slice_ok (d := d) (a := 37) (b := 53) (by omega) (by omega)
    simp only [unmarshalDrivingLicenceInfo, Res.pure_eq, guard_eq_ok, bind_eq_ok, Res.ok.injEq, sl?_iff, at?_iff]
    exact ⟨_, by omega, _, ⟨by omega, by omega, rfl⟩, a, ha, d[36], ⟨by omega, sl_eq_singleton (by omega)⟩,
      _, ⟨by omega, by omega, rfl⟩, n, hn, rfl⟩

/-- C28 -/
theorem drivingLicence_restores_iff (d dst : Bytes) (m : DrivingLicenceInfo) (h : unmarshalDrivingLicenceInfo d = .ok m) :
    (appendDrivingLicenceInfo dst (some m) = .ok (dst ++ d.take 53) ↔
      ByteAt d 0 KnownCodePage ∧ ByteAt d 36 (Known nationNumericTable)) ∧
    ((∃ e, appendDrivingLicenceInfo dst (some m) = .err e) ↔ ¬ ByteAt d 36 (Known nationNumericTable)) := by
  obtain ⟨hl, a, b, n, ha, hb, hn, rfl⟩ := drivingLicence_parse h
  obtain ⟨out, ho, hol, hoi⟩ := stringValue_restores ha (by simp; omega)
  rw [byteAt_sl (by omega)] at hoi
  obtain ⟨k1, k2⟩ := enumOr1_known (t := nationNumericTable) (by decide) (by decide) b
  simp only [appendDrivingLicenceInfo, ho, Res.bind_ok]
  rw [byteAt_of_sl hb]
  by_cases hk : Known nationNumericTable b
  · have hd : d.take 53 = sl d 0 36 ++ ([b] ++ sl d 37 53) := by
      rw [← hb, take_eq_sl]; join_slices
    rw [k1 hk, Res.bind_ok, ia5_roundtrip _ _ (by simp; omega) n hn, hd]
    have : dst ++ out ++ [b] ++ sl d 37 53 = dst ++ (out ++ ([b] ++ sl d 37 53)) := by simp
    rw [this, Res.ok.injEq, List.append_cancel_left_eq, append_eq_iff hol, hoi]
    simp [hk]
  · obtain ⟨e, he⟩ := k2 hk
    rw [he]
    simp [hk]

/-- C48 -/
theorem drivingLicence_fields (d : Bytes) (m : DrivingLicenceInfo) (h : unmarshalDrivingLicenceInfo d = .ok m) :
    (∃ s, unmarshalStringValue (sl d 0 36) = .ok s ∧ m.authority = some s) ∧
    (∃ b, d[36]? = some b ∧ CodedLossy nationNumericTable b m.nation) ∧
    (∃ s, unmarshalIa5StringValue (sl d 37 53) = .ok s ∧ m.number = some s) := by
  obtain ⟨hl, a, b, n, ha, hb, hn, rfl⟩ := drivingLicence_parse h
  exact ⟨⟨a, ha, rfl⟩, ⟨b, getElem?_of_sl hb, enumOr1_coded _ b⟩, ⟨n, hn, rfl⟩⟩

/-! ## EF_Control_Activity_Data -/

theorem controlActivity_accepts_iff (d : Bytes) : (∃ m, unmarshalControlActivity d = .ok m) ↔ 46 ≤ d.length := by
  simp only [unmarshalControlActivity, guard_eq_ok, bind_eq_ok]
  constructor
  · rintro ⟨_, hl, _⟩; omega
  · intro hl
    by_cases hz : beNat (sl d 1 5) = 0
    · exact ⟨_, by omega, _, sl?_ok (by omega) (by omega), by rw [if_pos hz]; rfl⟩
    · obtain ⟨ts, hts⟩ := timeReal_slice_ok (d := d) (a := 1) (b := 5) (by omega) (by omega)
      obtain ⟨n, hn⟩ := ia5_slice_ok (d := d) (a := 5) (b := 23) (by omega) (by omega)
      obtain ⟨reg, hreg⟩ := registration_ok (d := sl d 23 38) (by simp; omega)
      obtain ⟨pb, hpb⟩ := timeReal_slice_ok (d := d) (a := 38) (b := 42) (by omega) (by omega)
      obtain ⟨pe, hpe⟩ := timeReal_slice_ok (d := d) (a := 42) (b := 46) (by omega) (by omega)
      suffices hs : ∃ m, _ = Res.ok m from
        hs.imp fun m hm => ⟨by omega, _, sl?_ok (by omega) (by omega), hm⟩
      rw [if_neg hz]
      simp only [bind_eq_ok, Res.pure_eq, Res.ok.injEq, sl?_iff]
      exact ⟨_, _, ⟨by omega, by omega, rfl⟩, _, by rw [sl_eq_singleton (d := d) (i := 0) (by omega)]; rfl, ts, hts,
        _, ⟨by omega, by omega, rfl⟩, n, hn, _, ⟨by omega, by omega, rfl⟩, reg, hreg,
        _, ⟨by omega, by omega, rfl⟩, pb, hpb, _, ⟨by omega, by omega, rfl⟩, pe, hpe, rfl⟩

/-- C28: a file whose control time is zero is kept as raw bytes. It is restored only when it has exactly 46
bytes; a longer file is replaced by zeros, whatever it contained. -/
theorem controlActivity_unused (d dst : Bytes) (m : ControlActivity) (h : unmarshalControlActivity d = .ok m)
    (hz : beNat (sl d 1 5) = 0) : m.valid = false ∧
      appendControlActivity dst (some m) = .ok (dst ++ if d.length = 46 then d else zeros 46) := by
  simp only [unmarshalControlActivity, guard_eq_ok, bind_eq_ok, sl?_iff] at h
  obtain ⟨hl, _, ⟨_, _, rfl⟩, h⟩ := h
  rw [if_pos hz, Res.pure_eq, Res.ok.injEq] at h
  subst h
  refine ⟨rfl, ?_⟩
  simp only [appendControlActivity, if_true, Option.getD_some]
  by_cases h46 : d.length = 46
  · rw [if_neg (by simp [h46]), if_pos h46]
  · rw [if_pos h46, if_neg h46]

theorem controlActivity_parse {d : Bytes} {m : ControlActivity} (h : unmarshalControlActivity d = .ok m)
    (hz : beNat (sl d 1 5) ≠ 0) :
    46 ≤ d.length ∧ ∃ b ct ts n reg pb pe, sl d 0 1 = [b] ∧ unmarshalControlType [b] = .ok ct ∧
      unmarshalTimeReal (sl d 1 5) = .ok ts ∧ unmarshalIa5StringValue (sl d 5 23) = .ok n ∧
      unmarshalVehicleRegistration (sl d 23 38) = .ok reg ∧ unmarshalTimeReal (sl d 38 42) = .ok pb ∧
      unmarshalTimeReal (sl d 42 46) = .ok pe ∧
      m = { valid := true
            rawData := none
            controlType := some ct
            controlTime := ts
            cardNumber := some ⟨some ⟨equipmentType_driverCard, 0, some ⟨some n, none, none⟩, none⟩, 1⟩
            registration := some reg
            periodBegin := pb
            periodEnd := pe } := by
  simp only [unmarshalControlActivity, guard_eq_ok, bind_eq_ok, sl?_iff] at h
  obtain ⟨hl, _, ⟨_, _, rfl⟩, h⟩ := h
  rw [if_neg hz] at h
  simp only [Res.pure_eq, Res.ok.injEq, bind_eq_ok, sl?_iff] at h
  obtain ⟨_, ⟨_, _, rfl⟩, ct, hct, ts, hts, _, ⟨_, _, rfl⟩, n, hn, _, ⟨_, _, rfl⟩, reg, hreg, _, ⟨_, _, rfl⟩, pb, hpb,
    _, ⟨_, _, rfl⟩, pe, hpe, rfl⟩ := h
  have h0 := sl_eq_singleton (d := d) (i := 0) (by omega)
  rw [h0] at hct
  exact ⟨by omega, _, ct, ts, n, reg, pb, pe, h0, hct, hts, hn, hreg, hpb, hpe, rfl⟩

/-- C28: a file with a control time is restored exactly when the three reserved bits of its control type are
zero and nation and code page of the vehicle are known. -/
theorem controlActivity_restores_iff (d dst : Bytes) (m : ControlActivity) (h : unmarshalControlActivity d = .ok m)
    (hz : beNat (sl d 1 5) ≠ 0) : m.valid = true ∧
    (appendControlActivity dst (some m) = .ok (dst ++ d.take 46) ↔
      ByteAt d 0 (fun b => b.toNat % 8 = 0) ∧ ByteAt d 23 (Known nationNumericTable) ∧ ByteAt d 24 KnownCodePage) := by
  obtain ⟨hl, b, ct, ts, n, reg, pb, pe, hb, hct, hts, hn, hreg, hpb, hpe, rfl⟩ := controlActivity_parse h hz
  refine ⟨rfl, ?_⟩
  have hbyte : ((if ct.cardDownloading then 0x80 else 0) ||| (if ct.vuDownloading then 0x40 else 0) |||
          (if ct.printing then 0x20 else 0) ||| (if ct.display then 0x10 else 0) |||
          (if ct.calibrationChecking then 0x08 else 0) : UInt8) = UInt8.ofNat (b.toNat / 8 * 8) := by
    have hu : unmarshalControlType [b] = .ok ⟨some [b], b &&& 0x80 != 0, b &&& 0x40 != 0, b &&& 0x20 != 0,
      b &&& 0x10 != 0, b &&& 0x08 != 0⟩ := rfl
    rw [hu, Res.ok.injEq] at hct
    subst hct
    clear hu hb h
    revert b
    apply forall_byte
    decide +kernel
  have hb8 : UInt8.ofNat (b.toNat / 8 * 8) = b ↔ b.toNat % 8 = 0 := by
    clear hbyte hct hb h
    revert b
    apply forall_byte
    decide +kernel
  obtain ⟨h1, h2⟩ := registration_restores hreg
  rw [byteAt_sl (by omega)] at h1 h2
  have hcard : ∀ dst : Bytes, appendFullCardNumberAsString dst (some ⟨equipmentType_driverCard, 0, some ⟨some n, none, none⟩, none⟩)
      = .ok (dst ++ sl d 5 23) := fun dst => ia5_roundtrip _ _ (by simp; omega) n hn
  simp only [appendControlActivity, Bool.true_eq_false, if_false, hbyte, timeReal_slice hts, Res.bind_ok, Option.bind_some, hcard]
  rw [byteAt_of_sl hb]
  by_cases hk : ByteAt d 23 (Known nationNumericTable)
  · obtain ⟨out, ho, hol, hoi⟩ := h1 hk
    rw [byteAt_sl (by omega)] at hoi
    have hd : d.take 46 = [b] ++ ((sl d 1 5 ++ sl d 5 23) ++ (sl d 23 38 ++ (sl d 38 42 ++ sl d 42 46))) := by
      rw [← hb, take_eq_sl]; join_slices
    simp only [ho, Res.bind_ok, timeReal_slice hpb, timeReal_slice hpe, Res.ok.injEq, hd]
    have : dst ++ [UInt8.ofNat (b.toNat / 8 * 8)] ++ sl d 1 5 ++ sl d 5 23 ++ out ++ sl d 38 42 ++ sl d 42 46 =
        dst ++ ([UInt8.ofNat (b.toNat / 8 * 8)] ++ ((sl d 1 5 ++ sl d 5 23) ++ (out ++ (sl d 38 42 ++ sl d 42 46)))) := by simp
    rw [this, List.append_cancel_left_eq, append_eq_iff (a := [UInt8.ofNat (b.toNat / 8 * 8)]) (c := [b]) rfl, List.append_cancel_left_eq, append_eq_iff (by rw [hol]; simp; omega), hoi]
    simp only [List.cons.injEq, and_true, hb8, hk, true_and]
  · obtain ⟨e, he⟩ := h2 hk (dst ++ [UInt8.ofNat (b.toNat / 8 * 8)] ++ sl d 1 5 ++ sl d 5 23)
    rw [he]
    simp [hk]

/-- C48: the fields of a used control activity file. The control card number is not decoded: its 18 bytes
are presented as the identification number of a driver card of generation 1, whatever the card was. -/
theorem controlActivity_fields (d : Bytes) (m : ControlActivity) (h : unmarshalControlActivity d = .ok m)
    (hz : beNat (sl d 1 5) ≠ 0) :
    (∃ b c, d[0]? = some b ∧ m.controlType = some c ∧ c.cardDownloading = b.toNat.testBit 7 ∧
      c.vuDownloading = b.toNat.testBit 6 ∧ c.printing = b.toNat.testBit 5 ∧ c.display = b.toNat.testBit 4 ∧
      c.calibrationChecking = b.toNat.testBit 3) ∧
    m.controlTime = instant (sl d 1 5) ∧
    (∃ s, unmarshalIa5StringValue (sl d 5 23) = .ok s ∧
      m.cardNumber = some ⟨some ⟨equipmentType_driverCard, 0, some ⟨some s, none, none⟩, none⟩, 1⟩) ∧
    (∃ r, unmarshalVehicleRegistration (sl d 23 38) = .ok r ∧ m.registration = some r) ∧
    m.periodBegin = instant (sl d 38 42) ∧ m.periodEnd = instant (sl d 42 46) := by
  obtain ⟨hl, b, ct, ts, n, reg, pb, pe, hb, hct, hts, hn, hreg, hpb, hpe, rfl⟩ := controlActivity_parse h hz
  obtain ⟨c, hc, hf⟩ := controlType_decode b
  rw [hct, Res.ok.injEq] at hc
  subst hc
  exact ⟨⟨b, ct, getElem?_of_sl hb, rfl, hf⟩, timeReal_instant hts, ⟨n, hn, rfl⟩, ⟨reg, hreg, rfl⟩,
    timeReal_instant hpb, timeReal_instant hpe⟩

/-! ## Concrete files -/

/-- A vehicle registered in nation 13 (code page 1). -/
def exampleRegistration : Bytes := [13, 1, 0x41, 0x42, 0x31, 0x32, 0x33, 0x20, 0x20, 0x20, 0x20, 0x20, 0x20, 0x20, 0x20]

omit [Charmap] in
theorem nation13_known : Known nationNumericTable 13 := by rw [known_iff]; exact ⟨_, rfl⟩

example : ∃ m, unmarshalCurrentUsage ([0x5E, 0x0B, 0xE1, 0x00] ++ exampleRegistration) = .ok m ∧
    appendCurrentUsage [] (some m) = .ok ([0x5E, 0x0B, 0xE1, 0x00] ++ exampleRegistration) := by
  obtain ⟨m, hm⟩ := (currentUsage_accepts_iff ([0x5E, 0x0B, 0xE1, 0x00] ++ exampleRegistration)).mpr (by decide)
  exact ⟨m, hm, (currentUsage_restores_iff _ [] m hm).1.mpr ⟨⟨13, rfl, nation13_known⟩, ⟨1, rfl, by decide⟩⟩⟩

example : ∃ m, unmarshalDrivingLicenceInfo ([1] ++ List.replicate 35 0x41 ++ [13] ++ List.replicate 16 0x31) = .ok m ∧
    appendDrivingLicenceInfo [] (some m) = .ok ([1] ++ List.replicate 35 0x41 ++ [13] ++ List.replicate 16 0x31) := by
  obtain ⟨m, hm⟩ := (drivingLicence_accepts_iff ([1] ++ List.replicate 35 0x41 ++ [13] ++ List.replicate 16 0x31)).mpr (by decide)
  exact ⟨m, hm, (drivingLicence_restores_iff _ [] m hm).1.mpr ⟨⟨1, rfl, by decide⟩, ⟨13, rfl, nation13_known⟩⟩⟩

/-- A control on 2020-01-01 with printing and display. -/
def exampleControl : Bytes := [0x30, 0x5E, 0x0B, 0xE1, 0x00] ++ List.replicate 18 0x31 ++ exampleRegistration ++
  [0x5E, 0x0B, 0xE1, 0x00, 0x5E, 0x0B, 0xE2, 0x00]

example : ∃ m, unmarshalControlActivity exampleControl = .ok m ∧ m.valid = true ∧
    appendControlActivity [] (some m) = .ok exampleControl := by
  obtain ⟨m, hm⟩ := (controlActivity_accepts_iff exampleControl).mpr (by decide)
  have := controlActivity_restores_iff _ [] m hm (by decide)
  exact ⟨m, hm, this.1, this.2.mpr ⟨⟨0x30, rfl, by decide⟩, ⟨13, rfl, nation13_known⟩, ⟨1, rfl, by decide⟩⟩⟩

/-- Two trailing bytes are enough to lose an unused control file. -/
example : ∃ m, unmarshalControlActivity ([0xFF] ++ zeros 4 ++ List.replicate 43 0xAA) = .ok m ∧
    appendControlActivity [] (some m) = .ok (zeros 46) := by
  obtain ⟨m, hm⟩ := (controlActivity_accepts_iff ([0xFF] ++ zeros 4 ++ List.replicate 43 0xAA)).mpr (by decide)
  exact ⟨m, hm, (controlActivity_unused _ [] m hm (by decide)).2⟩

end

end Tacho
