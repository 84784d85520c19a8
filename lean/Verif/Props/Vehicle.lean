import Verif.Props.Records
/-!
# Vehicle records: CardVehicleRecord, PreviousVehicleInfo, VuCardIWRecord (C23, C43)
-/

namespace Tacho
open Spec

section
variable [Charmap]

/-! ## CardVehicleRecord -/

/-- The message of the first 31 bytes. -/
def vehicleOf (d : Bytes) (t1 t2 : Option Timestamp) (reg : VehicleRegistration) (c : BcdString) :
    CardVehicleRecord := {
  rawData := some d
  odometerBegin := (beNat (sl d 0 3) : Int)
  odometerEnd := (beNat (sl d 3 6) : Int)
  firstUse := t1
  lastUse := t2
  registration := some reg
  counter := some c }

theorem vehicleFields_parse {d : Bytes} {m : CardVehicleRecord} (h : unmarshalCardVehicleFields d = .ok m) :
    31 ≤ d.length ∧ ∃ t1 t2 reg c, unmarshalTimeReal (sl d 6 10) = .ok t1 ∧
      unmarshalTimeReal (sl d 10 14) = .ok t2 ∧ unmarshalVehicleRegistration (sl d 14 29) = .ok reg ∧
      unmarshalBcdString (sl d 29 31) = .ok c ∧ m = vehicleOf d t1 t2 reg c := by
  simp only [unmarshalCardVehicleFields, Res.pure_eq, bind_eq_ok, Res.ok.injEq, sl?_iff] at h
  obtain ⟨_, ⟨_, _, rfl⟩, _, ⟨_, _, rfl⟩, _, ⟨_, _, rfl⟩, t1, h1, _, ⟨_, _, rfl⟩, t2, h2, _, ⟨_, _, rfl⟩,
    reg, h3, _, ⟨_, hl, rfl⟩, c, h4, rfl⟩ := h
  exact ⟨hl, t1, t2, reg, c, h1, h2, h3, h4, rfl⟩

omit [Charmap] in
theorem bcdString_accepts {b : Bytes} (hl : b.length = 2) :
    (∃ s, unmarshalBcdString b = .ok s) ↔ ∀ x ∈ b, IsBcd x := by
  have h0 : ¬ b.length = 0 := by omega
  simp only [unmarshalBcdString, h0, if_false, Res.pure_eq, bind_eq_ok, Res.ok.injEq]
  match b, hl with
  | [x, y], _ =>
    constructor
    · rintro ⟨s, v, hv, _⟩
      have := ((bcd_decode_iff [x, y] v).mp hv).1
      simp only [Spec.hexDigits, List.mem_cons, List.not_mem_nil, or_false, forall_eq_or_imp,
        forall_eq] at this
      intro z hz
      simp only [List.mem_cons, List.not_mem_nil, or_false] at hz
      rcases hz with rfl | rfl
      · exact ⟨this.1, this.2.1⟩
      · exact ⟨this.2.2.1, this.2.2.2⟩
    · intro h
      have h1 := h x (by simp)
      have h2 := h y (by simp)
      unfold IsBcd at h1 h2
      have := (bcd_decode_iff [x, y] (Spec.decimal (Spec.hexDigits [x, y]))).mpr
        ⟨by simp [Spec.hexDigits, h1, h2], rfl, by simp [Spec.hexDigits, Spec.decimal]; omega⟩
      exact ⟨_, _, this, rfl⟩

theorem vehicleFields_accepts (d : Bytes) (hl : 31 ≤ d.length) :
    (∃ m, unmarshalCardVehicleFields d = .ok m) ↔ ByteAt d 29 IsBcd ∧ ByteAt d 30 IsBcd := by
  have hs : (sl d 29 31).length = 2 := by simp; omega
  have key : (∃ s, unmarshalBcdString (sl d 29 31) = .ok s) ↔ ByteAt d 29 IsBcd ∧ ByteAt d 30 IsBcd := by
    rw [bcdString_accepts hs]
    have q1 := byteAt_sl (d := d) (a := 29) (b := 31) (i := 0) (P := IsBcd) (by omega)
    have q2 := byteAt_sl (d := d) (a := 29) (b := 31) (i := 1) (P := IsBcd) (by omega)
    rw [← q1, ← q2]
    match sl d 29 31, hs with
    | [x, y], _ => simp [ByteAt]
  rw [← key]
  constructor
  · rintro ⟨m, h⟩
    obtain ⟨_, _, _, _, c, _, _, _, hc, _⟩ := vehicleFields_parse h
    exact ⟨c, hc⟩
  · rintro ⟨c, hc⟩
    obtain ⟨t1, h1⟩ := timeReal_slice_ok (d := d) (a := 6) (b := 10) (by omega) (by omega)
    obtain ⟨t2, h2⟩ := timeReal_slice_ok (d := d) (a := 10) (b := 14) (by omega) (by omega)
    obtain ⟨reg, hr⟩ := (registration_accepts_iff (sl d 14 29)).mpr (by simp; omega)
    simp only [unmarshalCardVehicleFields, Res.pure_eq, bind_eq_ok, Res.ok.injEq, sl?_iff]
    exact ⟨_, _, ⟨by omega, by omega, rfl⟩, _, ⟨by omega, by omega, rfl⟩, _, ⟨by omega, by omega, rfl⟩, t1, h1,
      _, ⟨by omega, by omega, rfl⟩, t2, h2, _, ⟨by omega, by omega, rfl⟩, reg, hr, _, ⟨by omega, by omega, rfl⟩,
      c, hc, rfl⟩

/-- C23: a 31 byte vehicle record is accepted exactly when the two counter bytes are BCD. -/
theorem cardVehicle_accepts_iff (d : Bytes) : (∃ m, unmarshalCardVehicleRecord d = .ok m) ↔
    d.length = 31 ∧ ByteAt d 29 IsBcd ∧ ByteAt d 30 IsBcd := by
  unfold unmarshalCardVehicleRecord
  by_cases hl : d.length = 31
  · simp only [hl, ne_eq, not_true_eq_false, if_false, true_and]
    exact vehicleFields_accepts d (by omega)
  · simp [hl]

/-- Painting a parsed vehicle record over its own bytes: only the registration can differ. -/
theorem paintVehicle_self {d : Bytes} {t1 t2 : Option Timestamp} {reg : VehicleRegistration} {c : BcdString}
    (hl : 31 ≤ d.length) (h1 : unmarshalTimeReal (sl d 6 10) = .ok t1)
    (h2 : unmarshalTimeReal (sl d 10 14) = .ok t2) (h4 : unmarshalBcdString (sl d 29 31) = .ok c) :
    paintCardVehicle d (vehicleOf d t1 t2 reg c) =
      (appendVehicleRegistration [] (some reg) >>= fun v => .ok (paint (paint d 14 15 v) 29 2 (sl d 29 31))) := by
  have p1 : paint d 0 3 (sl d 0 3) = d := paint_self (by omega) rfl
  have p2 : paint d 3 3 (sl d 3 6) = d := paint_self (by omega) rfl
  have p3 : paint d 6 4 (sl d 6 10) = d := paint_self (by omega) rfl
  have p4 : paint d 10 4 (sl d 10 14) = d := paint_self (by omega) rfl
  have p5 := bcdString_roundtrip (sl d 29 31) [] c (by simp; omega) h4
  simp only [paintCardVehicle, vehicleOf, odometer_slice (d := sl d 0 3) (by simp; omega),
    odometer_slice (d := sl d 3 6) (by simp; omega), timeReal_slice h1, timeReal_slice h2, Res.bind_ok,
    List.nil_append, p1, p2, p3, p4, p5, Res.pure_eq]

/-- If painting the registration and re-painting the rest gives `d` back, the registration is the one
in `d`. -/
theorem paint_reg_iff {d v : Bytes} (hl : 31 ≤ d.length) (hv : v.length = 15) :
    paint (paint d 14 15 v) 29 2 (sl d 29 31) = d ↔ v = sl d 14 29 := by
  have pl : (paint d 14 15 v).length = d.length := paint_length (by omega)
  constructor
  · intro h
    have h1 := congrArg (fun x => sl x 14 29) h
    rw [sl_paint_other (by omega) (by omega), sl_paint_same (by omega) hv rfl] at h1
    exact h1
  · rintro rfl
    rw [paint_self (c := d) (by omega) rfl, paint_self (by omega) rfl]

/-- C23: vehicle records of 31 bytes are restored exactly when nation and code page of the
registration are known. -/
theorem cardVehicle_roundtrip_iff (d dst : Bytes) (m : CardVehicleRecord)
    (h : unmarshalCardVehicleRecord d = .ok m) : appendCardVehicleRecord dst m = .ok (dst ++ d) ↔
      ByteAt d 14 (Known nationNumericTable) ∧ ByteAt d 15 KnownCodePage := by
  unfold unmarshalCardVehicleRecord at h
  by_cases hl : d.length = 31
  case neg => simp [hl] at h
  simp only [hl, ne_eq, not_true_eq_false, if_false] at h
  obtain ⟨_, t1, t2, reg, c, h1, h2, h3, h4, rfl⟩ := vehicleFields_parse h
  have hcv : canvasNonEmpty (vehicleOf d t1 t2 reg c).rawData 31 = .ok d := canvasNonEmpty_raw hl (by omega)
  have hr := registration_roundtrip_iff (sl d 14 29) [] reg h3
  rw [byteAt_sl (by omega), byteAt_sl (by omega)] at hr
  rw [← hr]
  simp only [appendCardVehicleRecord, hcv, Res.bind_ok, paintVehicle_self (by omega) h1 h2 h4]
  try simp only [List.nil_append]
  cases hx : appendVehicleRegistration [] (some reg) with
  | ok v =>
    simp only [Res.bind_ok, Res.pure_eq, Res.ok.injEq, List.append_cancel_left_eq]
    exact paint_reg_iff (by omega) (registration_out_length h3 hx)
  | err e => simp
  | panic => simp

/-! ## CardVehicleRecordG2 -/

theorem cardVehicleG2_parse {d : Bytes} {m : CardVehicleRecordG2} (h : unmarshalCardVehicleRecordG2 d = .ok m) :
    d.length = 48 ∧ ∃ b, unmarshalCardVehicleFields d = .ok b ∧ m = ⟨b, trimNulSpace (sl d 31 48)⟩ := by
  simp only [unmarshalCardVehicleRecordG2, Res.pure_eq, guard_eq_ok, bind_eq_ok, Res.ok.injEq, sl?_iff] at h
  obtain ⟨hl, b, hb, _, ⟨_, _, rfl⟩, rfl⟩ := h
  exact ⟨by simpa using hl, b, hb, rfl⟩

theorem cardVehicleG2_accepts_iff (d : Bytes) : (∃ m, unmarshalCardVehicleRecordG2 d = .ok m) ↔
    d.length = 48 ∧ ByteAt d 29 IsBcd ∧ ByteAt d 30 IsBcd := by
  constructor
  · rintro ⟨m, h⟩
    obtain ⟨hl, b, hb, _⟩ := cardVehicleG2_parse h
    exact ⟨hl, (vehicleFields_accepts d (by omega)).mp ⟨b, hb⟩⟩
  · rintro ⟨hl, h⟩
    obtain ⟨b, hb⟩ := (vehicleFields_accepts d (by omega)).mpr h
    simp only [unmarshalCardVehicleRecordG2, Res.pure_eq, guard_eq_ok, bind_eq_ok, Res.ok.injEq, sl?_iff]
    exact ⟨_, by simp [hl], b, hb, _, ⟨by omega, by omega, rfl⟩, rfl⟩

/-- A field split in content and trailing fill. -/
theorem trimNulSpace_spec (s : Bytes) : ∃ f, s = trimNulSpace s ++ f ∧ (∀ b ∈ f, b = 0 ∨ b = 0x20) ∧
    (∀ t b, trimNulSpace s = t ++ [b] → b ≠ 0 ∧ b ≠ 0x20) := by
  refine ⟨(s.reverse.takeWhile (fun b => b == 0 || b == 0x20)).reverse, ?_, ?_, ?_⟩
  · unfold trimNulSpace
    rw [← List.reverse_append, List.takeWhile_append_dropWhile, List.reverse_reverse]
  · intro b hb
    rw [List.mem_reverse] at hb
    have := List.all_takeWhile (p := fun b : UInt8 => b == 0 || b == 0x20) (l := s.reverse)
    rw [List.all_eq_true] at this
    simpa using this b hb
  · intro t b h
    unfold trimNulSpace at h
    have h' := congrArg List.reverse h
    rw [List.reverse_reverse, List.reverse_append, List.reverse_cons, List.reverse_nil, List.nil_append,
      List.singleton_append] at h'
    have := List.head?_dropWhile_not (p := fun b : UInt8 => b == 0 || b == 0x20) (l := s.reverse)
    rw [h'] at this
    simpa using this

/-- Re-padding a trimmed field restores it exactly when no NUL byte was trimmed. -/
theorem pad_trim_iff (s : Bytes) (h : s.length = 17) :
    padSpaces ((trimNulSpace s).take 17) 17 = s ↔
      ∃ p n, s = p ++ List.replicate n 0x20 ∧ (∀ t b, p = t ++ [b] → b ≠ 0 ∧ b ≠ 0x20) := by
  obtain ⟨f, hf, hb, hlast⟩ := trimNulSpace_spec s
  have hle : (trimNulSpace s).length ≤ 17 := by
    rw [← h]; conv => rhs; rw [hf]
    simp
  rw [List.take_of_length_le hle]
  unfold padSpaces
  constructor
  · intro e
    exact ⟨_, _, e.symm, hlast⟩
  · rintro ⟨p, n, e, hp⟩
    have : trimNulSpace s = p := by
      unfold trimNulSpace
      rw [e, List.reverse_append, List.reverse_replicate, List.dropWhile_append_of_pos]
      · cases hr : p.reverse with
        | nil => simpa using hr
        | cons b t =>
          have hpt : p = t.reverse ++ [b] := by
            have := congrArg List.reverse hr
            simpa using this
          have := hp _ _ hpt
          rw [List.dropWhile_cons_of_neg (by simp [this.1, this.2]), hpt]
          simp
      · intro x hx
        have := (List.mem_replicate.mp hx).2
        subst this; decide
    rw [this]
    have hl := congrArg List.length e
    simp only [List.length_append, List.length_replicate] at hl
    conv => rhs; rw [e]
    congr 2
    omega

/-- C23: Gen2 vehicle records are restored exactly when nation and code page are known and the VIN
field is text followed by spaces (not NUL bytes) only. -/
theorem cardVehicleG2_roundtrip_iff (d dst : Bytes) (m : CardVehicleRecordG2)
    (h : unmarshalCardVehicleRecordG2 d = .ok m) : appendCardVehicleRecordG2 dst m = .ok (dst ++ d) ↔
      ByteAt d 14 (Known nationNumericTable) ∧ ByteAt d 15 KnownCodePage ∧
      ∃ p n, sl d 31 48 = p ++ List.replicate n 0x20 ∧ (∀ t b, p = t ++ [b] → b ≠ 0 ∧ b ≠ 0x20) := by
  obtain ⟨hl, b, hb, rfl⟩ := cardVehicleG2_parse h
  obtain ⟨_, t1, t2, reg, c, h1, h2, h3, h4, rfl⟩ := vehicleFields_parse hb
  have hcv : canvasNonEmpty (vehicleOf d t1 t2 reg c).rawData 48 = .ok d := canvasNonEmpty_raw hl (by omega)
  have hr := registration_roundtrip_iff (sl d 14 29) [] reg h3
  rw [byteAt_sl (by omega), byteAt_sl (by omega)] at hr
  have hs17 : (sl d 31 48).length = 17 := by simp; omega
  rw [← and_assoc, ← hr, ← pad_trim_iff _ hs17]
  simp only [appendCardVehicleRecordG2, hcv, Res.bind_ok, paintVehicle_self (by omega) h1 h2 h4]
  try simp only [List.nil_append]
  generalize hp : padSpaces ((trimNulSpace (sl d 31 48)).take 17) 17 = p
  have hpl : p.length = 17 := by
    rw [← hp, padSpaces]; simp only [List.length_append, List.length_replicate, List.length_take]; omega
  cases hx : appendVehicleRegistration [] (some reg) with
  | ok v =>
    have hvl := registration_out_length h3 hx
    simp only [Res.bind_ok, Res.pure_eq, Res.ok.injEq, List.append_cancel_left_eq]
    rw [← paint_reg_iff (by omega) hvl]
    generalize hq : paint (paint d 14 15 v) 29 2 (sl d 29 31) = q
    have hql : q.length = 48 := by
      rw [← hq, paint_length (by rw [paint_length (by omega)]; omega), paint_length (by omega), hl]
    have e2 : sl q 31 48 = sl d 31 48 := by
      rw [← hq, sl_paint_other (by rw [paint_length (by omega)]; omega) (by omega),
        sl_paint_other (by omega) (by omega)]
    constructor
    · intro hh
      have k1 := congrArg (fun x => sl x 31 48) hh
      rw [sl_paint_same (by omega) hpl rfl] at k1
      refine ⟨?_, k1⟩
      rw [← hh, k1, ← e2, paint_self (by omega) rfl]
    · rintro ⟨k1, k2⟩
      rw [k2, ← e2, paint_self (by omega) rfl, k1]
  | err e => simp
  | panic => simp

/-- C43, finding: the decoded VIN of a Gen2 record is whatever bytes the field holds, so it need not
be valid UTF-8 (a protobuf string field). -/
theorem cardVehicleG2_vin (d : Bytes) (m : CardVehicleRecordG2) (h : unmarshalCardVehicleRecordG2 d = .ok m) :
    m.vin <+: sl d 31 48 := by
  obtain ⟨hl, b, hb, rfl⟩ := cardVehicleG2_parse h
  obtain ⟨f, hf, _⟩ := trimNulSpace_spec (sl d 31 48)
  exact ⟨f, hf.symm⟩

theorem not_utf8_ff : ¬ Utf8 (List.replicate 17 0xFF) := by
  intro h
  have := toValidUTF8_of_utf8 h
  exact absurd this (by decide +kernel)

/-- A Gen2 vehicle record whose VIN field is all FF (an unset field). -/
def Spec.unsetVinRecord : Bytes := List.replicate 31 0 ++ List.replicate 17 0xFF

/-- C43 is false of the code: a parsed Gen2 vehicle record can hold a VIN that is not valid UTF-8. -/
theorem cardVehicleG2_vin_not_utf8 :
    ∃ m, unmarshalCardVehicleRecordG2 unsetVinRecord = .ok m ∧ ¬ Utf8 m.vin := by
  obtain ⟨m, hm⟩ := (cardVehicleG2_accepts_iff unsetVinRecord).mpr
    ⟨by decide, ⟨0, by decide, by decide⟩, ⟨0, by decide, by decide⟩⟩
  refine ⟨m, hm, ?_⟩
  obtain ⟨hl, b, hb, rfl⟩ := cardVehicleG2_parse hm
  have : trimNulSpace (sl unsetVinRecord 31 48) = List.replicate 17 0xFF := by decide
  simp only [this]
  exact not_utf8_ff

/-! ## PreviousVehicleInfo -/

/-- The message of the first 19 bytes. -/
def previousOf (d : Bytes) (reg : VehicleRegistration) (ts : Option Timestamp) : PreviousVehicleInfo :=
  { rawData := some d, registration := some reg, withdrawalTime := ts }

theorem previousFields_parse {d : Bytes} {m : PreviousVehicleInfo} (h : unmarshalPreviousVehicleFields d = .ok m) :
    19 ≤ d.length ∧ ∃ reg ts, unmarshalVehicleRegistration (sl d 0 15) = .ok reg ∧
      unmarshalTimeReal (sl d 15 19) = .ok ts ∧ m = previousOf d reg ts := by
  simp only [unmarshalPreviousVehicleFields, Res.pure_eq, bind_eq_ok, Res.ok.injEq, sl?_iff] at h
  obtain ⟨_, ⟨_, _, rfl⟩, reg, h1, _, ⟨_, hl, rfl⟩, ts, h2, rfl⟩ := h
  exact ⟨hl, reg, ts, h1, h2, rfl⟩

theorem previousFields_accepts (d : Bytes) (hl : 19 ≤ d.length) : ∃ m, unmarshalPreviousVehicleFields d = .ok m := by
  obtain ⟨ts, h1⟩ := timeReal_slice_ok (d := d) (a := 15) (b := 19) (by omega) (by omega)
  obtain ⟨reg, hr⟩ := (registration_accepts_iff (sl d 0 15)).mpr (by simp; omega)
  simp only [unmarshalPreviousVehicleFields, Res.pure_eq, bind_eq_ok, Res.ok.injEq, sl?_iff]
  exact ⟨_, _, ⟨by omega, by omega, rfl⟩, reg, hr, _, ⟨by omega, by omega, rfl⟩, ts, h1, rfl⟩

theorem previousVehicle_accepts_iff (d : Bytes) :
    (∃ m, unmarshalPreviousVehicleInfo d = .ok m) ↔ d.length = 19 := by
  unfold unmarshalPreviousVehicleInfo
  by_cases hl : d.length = 19
  · simp only [hl, ne_eq, not_true_eq_false, if_false, iff_true]
    exact previousFields_accepts d (by omega)
  · simp [hl]

theorem paintPrevious_self {d : Bytes} {reg : VehicleRegistration} {ts : Option Timestamp}
    (h2 : unmarshalTimeReal (sl d 15 19) = .ok ts) :
    paintPreviousVehicle d (previousOf d reg ts) =
      (appendVehicleRegistration [] (some reg) >>= fun v => .ok (paint (paint d 0 15 v) 15 4 (sl d 15 19))) := by
  simp only [paintPreviousVehicle, previousOf, timeReal_slice h2, Res.bind_ok, List.nil_append, Res.pure_eq]

theorem paint_prev_iff {d v : Bytes} (hl : 19 ≤ d.length) (hv : v.length = 15) :
    paint (paint d 0 15 v) 15 4 (sl d 15 19) = d ↔ v = sl d 0 15 := by
  have pl : (paint d 0 15 v).length = d.length := paint_length (by omega)
  constructor
  · intro h
    have h1 := congrArg (fun x => sl x 0 15) h
    rw [sl_paint_other (by omega) (by omega), sl_paint_same (by omega) hv rfl] at h1
    exact h1
  · rintro rfl
    rw [paint_self (c := d) (by omega) rfl, paint_self (by omega) rfl]

/-- C23: previous vehicle infos are restored exactly when nation and code page are known. -/
theorem previousVehicle_roundtrip_iff (d dst : Bytes) (m : PreviousVehicleInfo)
    (h : unmarshalPreviousVehicleInfo d = .ok m) : appendPreviousVehicleInfo dst m = .ok (dst ++ d) ↔
      ByteAt d 0 (Known nationNumericTable) ∧ ByteAt d 1 KnownCodePage := by
  unfold unmarshalPreviousVehicleInfo at h
  by_cases hl : d.length = 19
  case neg => simp [hl] at h
  simp only [hl, ne_eq, not_true_eq_false, if_false] at h
  obtain ⟨_, reg, ts, h3, h2, rfl⟩ := previousFields_parse h
  have hcv : canvasNonEmpty (previousOf d reg ts).rawData 19 = .ok d := canvasNonEmpty_raw hl (by omega)
  have hr := registration_roundtrip_iff (sl d 0 15) [] reg h3
  rw [byteAt_sl (by omega), byteAt_sl (by omega)] at hr
  rw [Nat.zero_add, Nat.zero_add] at hr
  rw [← hr]
  simp only [appendPreviousVehicleInfo, hcv, Res.bind_ok, paintPrevious_self h2, List.nil_append]
  cases hx : appendVehicleRegistration [] (some reg) with
  | ok v =>
    simp only [Res.bind_ok, Res.pure_eq, Res.ok.injEq, List.append_cancel_left_eq]
    exact paint_prev_iff (by omega) (registration_out_length h3 hx)
  | err e => simp
  | panic => simp

/-- The written bytes of a parsed previous vehicle info always number 19. -/
theorem previousVehicle_out_length {d v : Bytes} {m : PreviousVehicleInfo}
    (hv : appendPreviousVehicleInfo [] m = .ok v) : v.length = 19 := by
  simp only [appendPreviousVehicleInfo, paintPreviousVehicle, bind_eq_ok, Res.pure_eq, Res.ok.injEq] at hv
  obtain ⟨c, hc, c2, ⟨x, _, t, _, rfl⟩, rfl⟩ := hv
  have := canvasNonEmpty_length hc
  rw [List.nil_append, paint_length (by rw [paint_length (by omega)]; omega), paint_length (by omega), this]

theorem previousVehicleG2_parse {d : Bytes} {m : PreviousVehicleInfoG2}
    (h : unmarshalPreviousVehicleInfoG2 d = .ok m) :
    d.length = 20 ∧ ∃ b g v, unmarshalPreviousVehicleFields d = .ok b ∧ sl d 19 20 = [g] ∧
      unmarshalEnum generationTable g = .ok v ∧ m = ⟨b, v⟩ := by
  simp only [unmarshalPreviousVehicleInfoG2, Res.pure_eq, guard_eq_ok, bind_eq_ok, Res.ok.injEq, at?_iff] at h
  obtain ⟨hl, b, hb, g, ⟨_, hg⟩, v, hv, rfl⟩ := h
  exact ⟨by simpa using hl, b, g, v, hb, hg, hv, rfl⟩

/-- C23: accepted exactly for 20 bytes ending in a generation byte 1 or 2. -/
theorem previousVehicleG2_accepts_iff (d : Bytes) :
    (∃ m, unmarshalPreviousVehicleInfoG2 d = .ok m) ↔
      d.length = 20 ∧ ByteAt d 19 (fun g => g = 1 ∨ g = 2) := by
  have key : ∀ g : UInt8, (∃ v, unmarshalEnum generationTable g = .ok v) ↔ (g = 1 ∨ g = 2) := by
    intro g
    rw [enum_accepts_iff]
    have e1 : g = 1 ↔ g.toNat = 1 := by rw [← UInt8.toNat_inj]; rfl
    have e2 : g = 2 ↔ g.toNat = 2 := by rw [← UInt8.toNat_inj]; rfl
    rw [e1, e2]
    simp only [generationTable, List.mem_cons, Prod.mk.injEq, Option.some.injEq, List.not_mem_nil, or_false,
      reduceCtorEq, and_false, false_or]
    constructor
    · rintro ⟨v, ⟨_, h⟩ | ⟨_, h⟩⟩
      · exact Or.inl h
      · exact Or.inr h
    · rintro (h | h)
      · exact ⟨1, Or.inl ⟨rfl, h⟩⟩
      · exact ⟨2, Or.inr ⟨rfl, h⟩⟩
  constructor
  · rintro ⟨m, h⟩
    obtain ⟨hl, b, g, v, _, hg, hv, _⟩ := previousVehicleG2_parse h
    exact ⟨hl, (byteAt_of_sl hg).mpr ((key g).mp ⟨v, hv⟩)⟩
  · rintro ⟨hl, g, hg, hv⟩
    obtain ⟨b, hb⟩ := previousFields_accepts d (by omega)
    obtain ⟨v, hv⟩ := (key g).mpr hv
    have hat : at? d 19 = .ok g := by unfold at?; rw [hg]
    simp only [unmarshalPreviousVehicleInfoG2, Res.pure_eq, guard_eq_ok, bind_eq_ok, Res.ok.injEq]
    exact ⟨_, by simp [hl], b, hb, g, hat, v, hv, rfl⟩

/-- C23: Gen2 previous vehicle infos are restored exactly when nation and code page are known. -/
theorem previousVehicleG2_roundtrip_iff (d dst : Bytes) (m : PreviousVehicleInfoG2)
    (h : unmarshalPreviousVehicleInfoG2 d = .ok m) : appendPreviousVehicleInfoG2 dst m = .ok (dst ++ d) ↔
      ByteAt d 0 (Known nationNumericTable) ∧ ByteAt d 1 KnownCodePage := by
  obtain ⟨hl, b, g, gv, hb, hg, hgv, rfl⟩ := previousVehicleG2_parse h
  obtain ⟨_, reg, ts, h3, h2, rfl⟩ := previousFields_parse hb
  have hcv : canvasNonEmpty (previousOf d reg ts).rawData 20 = .ok d := canvasNonEmpty_raw hl (by omega)
  have hr := registration_roundtrip_iff (sl d 0 15) [] reg h3
  rw [byteAt_sl (by omega), byteAt_sl (by omega)] at hr
  rw [Nat.zero_add, Nat.zero_add] at hr
  rw [← hr]
  have hm := enum_decode_encode generationTable (by decide) g gv hgv
  simp only [appendPreviousVehicleInfoG2, hcv, Res.bind_ok, paintPrevious_self h2, hm, List.nil_append]
  cases hx : appendVehicleRegistration [] (some reg) with
  | ok v =>
    have hvl := registration_out_length h3 hx
    simp only [Res.bind_ok, Res.pure_eq, Res.ok.injEq, List.append_cancel_left_eq]
    rw [← paint_prev_iff (by omega) hvl]
    generalize hq : paint (paint d 0 15 v) 15 4 (sl d 15 19) = q
    have hql : q.length = 20 := by
      rw [← hq, paint_length (by rw [paint_length (by omega)]; omega), paint_length (by omega), hl]
    have e2 : sl q 19 20 = sl d 19 20 := by
      rw [← hq, sl_paint_other (by rw [paint_length (by omega)]; omega) (by omega),
        sl_paint_other (by omega) (by omega)]
    rw [← hg, ← e2, paint_self (by omega) rfl]
  | err e => simp
  | panic => simp

/-! ## VuCardIWRecord -/

theorem date_parse {d : Bytes} {m : Date} (h : unmarshalDate d = .ok m) :
    d.length = 4 := by
  simp only [unmarshalDate, Res.pure_eq, guard_eq_ok] at h
  simpa using h.1

theorem date_slice {d : Bytes} (hl : d.length = 4) :
    ∃ m out, unmarshalDate d = .ok m ∧ appendDate [] m = .ok out ∧ out.length = 4 ∧
      (out = d ↔ ∀ b ∈ d, IsBcd b) := by
  match d, hl with
  | [a, b, c, e], _ =>
    have hu : ∃ m, unmarshalDate [a, b, c, e] = .ok m ∧ m.rawData = some [a, b, c, e] := ⟨_, rfl, rfl⟩
    obtain ⟨m, hm, hraw⟩ := hu
    have hcv : canvasOf m.rawData 4 = .ok [a, b, c, e] := by rw [hraw]; rfl
    obtain ⟨o, ho, hol⟩ : ∃ o, appendDate [] m = .ok o ∧ o.length = 4 := by
      simp only [appendDate, hcv, Res.bind_ok, Res.pure_eq, List.nil_append]
      exact ⟨_, rfl, rfl⟩
    refine ⟨m, o, hm, ho, hol, ?_⟩
    have := date_roundtrip_iff a b c e []
    rw [hm] at this
    simp only [Res.ok.injEq, exists_eq_left', List.nil_append, ho] at this
    rw [this]
    simp

theorem iw_parse {d : Bytes} {m : VuCardIWRecord} (h : unmarshalVuCardIWRecord d = .ok m) :
    d.length = 129 ∧ ∃ hn fc ex t1 sb sv t2 pv fl, unmarshalHolderName (sl d 0 72) = .ok hn ∧
      unmarshalFullCardNumber (sl d 72 90) = .ok fc ∧ unmarshalDate (sl d 90 94) = .ok ex ∧
      unmarshalTimeReal (sl d 94 98) = .ok t1 ∧ sl d 101 102 = [sb] ∧
      unmarshalEnum cardSlotNumberTable sb = .ok sv ∧ unmarshalTimeReal (sl d 102 106) = .ok t2 ∧
      unmarshalPreviousVehicleInfo (sl d 109 128) = .ok pv ∧ sl d 128 129 = [fl] ∧
      m = ⟨some d, some hn, some fc, some ex, t1, (beNat (sl d 98 101) : Int), sv, t2,
        (beNat (sl d 106 109) : Int), some pv, fl != 0⟩ := by
  simp only [unmarshalVuCardIWRecord, Res.pure_eq, guard_eq_ok, bind_eq_ok, Res.ok.injEq, sl?_iff, at?_iff] at h
  obtain ⟨hl, _, ⟨_, _, rfl⟩, hn, h1, _, ⟨_, _, rfl⟩, fc, h2, _, ⟨_, _, rfl⟩, ex, h3, _, ⟨_, _, rfl⟩, t1, h4,
    _, ⟨_, _, rfl⟩, o1, h5, sb, ⟨_, h6⟩, sv, h7, _, ⟨_, _, rfl⟩, t2, h8, _, ⟨_, _, rfl⟩, o2, h9,
    _, ⟨_, _, rfl⟩, pv, h10, fl, ⟨_, h11⟩, rfl⟩ := h
  obtain ⟨_, rfl⟩ := (odometer_accepts_iff _ _).mp h5
  obtain ⟨_, rfl⟩ := (odometer_accepts_iff _ _).mp h9
  exact ⟨by simpa using hl, hn, fc, ex, t1, sb, sv, t2, pv, fl, h1, h2, h3, h4, h6, h7, h8, h10, h11, rfl⟩

theorem byteAt_zero_add {d : Bytes} {a b i : Nat} {P : UInt8 → Prop} (h : a + i < b) {j : Nat} (hj : j = a + i) :
    ByteAt (sl d a b) i P ↔ ByteAt d j P := by rw [hj]; exact byteAt_sl h

/-- The out bytes of a parsed full card number. -/
theorem fullCardNumber_out {d : Bytes} {m : FullCardNumber} (h : unmarshalFullCardNumber d = .ok m) :
    ∃ out, appendFullCardNumber [] (some m) = .ok out ∧ out.length = 18 ∧
      (out = d ↔ (ByteAt d 0 OwnerCard ∨ sl d 16 18 = [0, 0])) := by
  obtain ⟨hl, b, hb, hc⟩ := (fullCardNumber_accepts_iff d).mp ⟨m, h⟩
  have hi := fullCardNumber_roundtrip_iff d [] m h
  obtain ⟨r1, r2⟩ := fullCardNumber_roundtrip d [] m h
  have : ∃ out, appendFullCardNumber [] (some m) = .ok out ∧ out.length = 18 := by
    rcases hc with h1 | h1
    · exact ⟨_, r2 ⟨b, hb, h1⟩, by simp; omega⟩
    · exact ⟨_, r1 ⟨b, hb, h1⟩, by simp; omega⟩
  obtain ⟨out, ho, hol⟩ := this
  refine ⟨out, ho, hol, ?_⟩
  rw [← hi, ho]
  simp

/-- C23: insertion/withdrawal records. Whenever the registration's nation is known the record can be
written; all 129 bytes are restored exactly when the code pages are known, a driver card's last two number
bytes are zero, the expiry date is BCD and the manual input flag byte is 0 or 1. -/
theorem iw_roundtrip_iff (d dst : Bytes) (m : VuCardIWRecord) (h : unmarshalVuCardIWRecord d = .ok m) :
    appendVuCardIWRecord dst m = .ok (dst ++ d) ↔
      (ByteAt d 0 KnownCodePage ∧ ByteAt d 36 KnownCodePage) ∧
      (ByteAt d 72 OwnerCard ∨ sl d 88 90 = [0, 0]) ∧
      (∀ b ∈ sl d 90 94, IsBcd b) ∧
      (ByteAt d 109 (Known nationNumericTable) ∧ ByteAt d 110 KnownCodePage) ∧
      ByteAt d 128 (fun b => b = 0 ∨ b = 1) := by
  obtain ⟨hl, hn, fc, ex, t1, sb, sv, t2, pv, fl, h1, h2, h3, h4, h6, h7, h8, h10, h11, rfl⟩ := iw_parse h
  have hcv : canvasNonEmpty (some d) 129 = .ok d := canvasNonEmpty_raw hl (by omega)
  obtain ⟨o1, a1, l1, i1⟩ := holderName_roundtrip_iff _ [] hn h1
  rw [byteAt_zero_add (j := 0) (by omega) rfl, byteAt_zero_add (j := 36) (by omega) rfl] at i1
  obtain ⟨o2, a2, l2, i2⟩ := fullCardNumber_out h2
  rw [byteAt_zero_add (j := 72) (by omega) rfl, sl_sl (by omega)] at i2
  obtain ⟨ex', o3, h3', a3, l3, i3⟩ := date_slice (d := sl d 90 94) (by simp; omega)
  rw [h3, Res.ok.injEq] at h3'
  subst h3'
  have i4 := previousVehicle_roundtrip_iff _ [] pv h10
  rw [byteAt_zero_add (j := 109) (by omega) rfl, byteAt_zero_add (j := 110) (by omega) rfl] at i4
  have hslot := enum_decode_encode cardSlotNumberTable (by decide) sb sv h7
  rw [← i1, ← i2, ← i3, ← i4, byteAt_of_sl h11]
  simp only [appendVuCardIWRecord, hcv, Res.bind_ok, Res.pure_eq, a1, a2, a3, Option.getD_some, hslot,
    timeReal_slice h4, timeReal_slice h8, appendOdometer_eq, odometer_slice (d := sl d 98 101) (by simp; omega),
    odometer_slice (d := sl d 106 109) (by simp; omega), List.nil_append]
  have hfl' : ∀ fl : UInt8, (if (fl != 0) = true then (1 : UInt8) else 0) = fl ↔ (fl = 0 ∨ fl = 1) := by
    apply forall_byte
    decide +kernel
  have hfl := hfl' fl
  generalize hf1 : (if (fl != 0) = true then (1 : UInt8) else 0) = f1 at hfl ⊢
  rw [← hfl]
  cases hp : appendPreviousVehicleInfo [] pv with
  | err e => simp
  | panic => simp
  | ok o4 =>
    have l4 := previousVehicle_out_length (d := d) hp
    simp only [Res.bind_ok, Res.ok.injEq, List.append_cancel_left_eq]
    have s0 : paint d 0 72 o1 = o1 ++ d.drop 72 := by
      have := paint_step (pre := []) (c := d) (off := 0) (off' := 72) rfl l1 rfl
      simpa using this
    rw [s0, paint_step (off' := 90) (by simp [l1]) l2 rfl,
      paint_step (off' := 94) (by simp [l1, l2]) l3 rfl,
      paint_step (off' := 98) (by simp [l1, l2, l3]) (by simp; omega) rfl,
      paint_step (off' := 101) (by simp [l1, l2, l3]; omega) (by simp; omega) rfl,
      paint_step (off' := 102) (by simp [l1, l2, l3]; omega) (by simp) rfl,
      paint_step (off' := 106) (by simp [l1, l2, l3]; omega) (by simp; omega) rfl,
      paint_step (off' := 109) (by simp [l1, l2, l3]; omega) (by simp; omega) rfl,
      paint_step (off' := 128) (by simp [l1, l2, l3]; omega) l4 rfl,
      paint_step (off' := 129) (by simp [l1, l2, l3, l4]; omega) (by simp) rfl]
    have hd : d = sl d 0 72 ++ (sl d 72 90 ++ (sl d 90 94 ++ (sl d 94 98 ++ (sl d 98 101 ++ (sl d 101 102 ++
        (sl d 102 106 ++ (sl d 106 109 ++ (sl d 109 128 ++ sl d 128 129)))))))) := by
      repeat rw [sl_append (by omega) (by omega)]
      rw [sl_full' hl]
    conv => lhs; rhs; rw [hd]
    rw [List.drop_eq_nil_of_le (by omega)]
    simp only [List.append_assoc, List.nil_append, List.append_nil]
    rw [append_eq_iff (by simp [l1]; omega), append_eq_iff (by simp [l2]; omega), append_eq_iff (by simp [l3]; omega),
      append_eq_iff rfl, append_eq_iff rfl, append_eq_iff (by simp; omega), append_eq_iff rfl, append_eq_iff rfl,
      append_eq_iff (by simp [l4]; omega), h6, h11]
    simp

/-- C23: what is accepted as an insertion/withdrawal record. -/
theorem iw_accepts_iff (d : Bytes) : (∃ m, unmarshalVuCardIWRecord d = .ok m) ↔
    d.length = 129 ∧ ByteAt d 72 (fun b => b = 1 ∨ OwnerCard b) ∧ ByteAt d 101 (fun b => b = 0 ∨ b = 1) := by
  have key : ∀ b : UInt8, (∃ v, unmarshalEnum cardSlotNumberTable b = .ok v) ↔ (b = 0 ∨ b = 1) := by
    intro b
    rw [enum_accepts_iff]
    have e1 : b = 0 ↔ b.toNat = 0 := by rw [← UInt8.toNat_inj]; rfl
    have e2 : b = 1 ↔ b.toNat = 1 := by rw [← UInt8.toNat_inj]; rfl
    rw [e1, e2]
    simp only [cardSlotNumberTable, List.mem_cons, Prod.mk.injEq, Option.some.injEq, List.not_mem_nil, or_false,
      reduceCtorEq, and_false, false_or]
    constructor
    · rintro ⟨v, ⟨_, h⟩ | ⟨_, h⟩⟩
      · exact Or.inl h
      · exact Or.inr h
    · rintro (h | h)
      · exact ⟨2, Or.inl ⟨rfl, h⟩⟩
      · exact ⟨3, Or.inr ⟨rfl, h⟩⟩
  constructor
  · rintro ⟨m, h⟩
    obtain ⟨hl, hn, fc, ex, t1, sb, sv, t2, pv, fl, h1, h2, h3, h4, h6, h7, h8, h10, h11, rfl⟩ := iw_parse h
    have := ((fullCardNumber_accepts_iff _).mp ⟨fc, h2⟩).2
    rw [byteAt_zero_add (j := 72) (by omega) rfl] at this
    exact ⟨hl, this, (byteAt_of_sl h6).mpr ((key sb).mp ⟨sv, h7⟩)⟩
  · rintro ⟨hl, hc, sb, hsb, hs⟩
    obtain ⟨hn, h1⟩ := (holderName_accepts_iff (sl d 0 72)).mpr (by simp; omega)
    obtain ⟨fc, h2⟩ := (fullCardNumber_accepts_iff (sl d 72 90)).mpr ⟨by simp; omega, by
      rw [byteAt_zero_add (j := 72) (by omega) rfl]; exact hc⟩
    obtain ⟨ex, _, h3, _⟩ := date_slice (d := sl d 90 94) (by simp; omega)
    obtain ⟨t1, h4⟩ := timeReal_slice_ok (d := d) (a := 94) (b := 98) (by omega) (by omega)
    obtain ⟨sv, h7⟩ := (key sb).mpr hs
    obtain ⟨t2, h8⟩ := timeReal_slice_ok (d := d) (a := 102) (b := 106) (by omega) (by omega)
    obtain ⟨pv, h10⟩ := (previousVehicle_accepts_iff (sl d 109 128)).mpr (by simp; omega)
    have hat : at? d 101 = .ok sb := by unfold at?; rw [hsb]
    simp only [unmarshalVuCardIWRecord, Res.pure_eq, guard_eq_ok, bind_eq_ok, Res.ok.injEq, sl?_iff]
    exact ⟨_, by simp [hl], _, ⟨by omega, by omega, rfl⟩, hn, h1, _, ⟨by omega, by omega, rfl⟩, fc, h2,
      _, ⟨by omega, by omega, rfl⟩, ex, h3, _, ⟨by omega, by omega, rfl⟩, t1, h4,
      _, ⟨by omega, by omega, rfl⟩, _, (odometer_accepts_iff _ _).mpr ⟨by simp; omega, rfl⟩, sb, hat, sv, h7,
      _, ⟨by omega, by omega, rfl⟩, t2, h8, _, ⟨by omega, by omega, rfl⟩, _,
      (odometer_accepts_iff _ _).mpr ⟨by simp; omega, rfl⟩, _, ⟨by omega, by omega, rfl⟩, pv, h10,
      d[128], at?_ok (by omega), rfl⟩

end

end Tacho
