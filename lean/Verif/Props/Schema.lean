import Verif.Spec.Schema
import Verif.Props.Texts
/-!
# Every parsed file satisfies the validation rules of its schema (C88)
-/

namespace Tacho.Schema
open Tacho Spec

/-! ## Structure -/

@[local simp] theorem ok_some {α : Type} [HasStrings α] {x : α} : Validates (some x) ↔ Validates x := by simp [Validates, strings]
@[local simp] theorem ok_none {α : Type} [HasStrings α] : Validates (none : Option α) := by simp [Validates, strings]
@[local simp] theorem ok_list {α : Type} [HasStrings α] {l : List α} : Validates l ↔ ∀ x ∈ l, Validates x := by
  simp only [Validates, strings, List.mem_flatMap]
  exact ⟨fun h x hx t ht => h t ⟨x, hx, ht⟩, fun h t ⟨x, hx, ht⟩ => h x hx t ht⟩
@[local simp] theorem ok_signed {α : Type} [HasStrings α] {x : α} {s : Option Bytes} : Validates (Signed.mk x s) ↔ Validates x := Iff.rfl
@[local simp] theorem ok_file {α : Type} [HasStrings α] {r : Option Bytes} {n : Int} {l : List α} :
    Validates (RecordFile.mk r n l) ↔ Validates l := Iff.rfl

theorem ok_append {α β : Type} [HasStrings α] [HasStrings β] {a : α} {b : β} :
    (∀ t ∈ strings a ++ strings b, t.Rules) ↔ Validates a ∧ Validates b := List.forall_mem_append

theorem ok_append' {β : Type} [HasStrings β] {l : List Text} {b : β} {p : Prop} (h : (∀ t ∈ l, t.Rules) ↔ p) :
    (∀ t ∈ l ++ strings b, t.Rules) ↔ p ∧ Validates b := List.forall_mem_append.trans (and_congr h Iff.rfl)

@[local simp] theorem ok_mk_VehicleRegistration {x0 x1} : Validates (VehicleRegistration.mk x0 x1) ↔ Validates x1 :=
  Iff.rfl

@[local simp] theorem ok_mk_HolderName {x0 x1} : Validates (HolderName.mk x0 x1) ↔ Validates x0 ∧ Validates x1 :=
  ok_append

@[local simp] theorem ok_mk_DriverIdentification {x0 x1 x2} : Validates (DriverIdentification.mk x0 x1 x2) ↔ (Validates x0 ∧ Validates x1) ∧ Validates x2 :=
  ok_append' ok_append

@[local simp] theorem ok_mk_OwnerIdentification {x0 x1 x2 x3} : Validates (OwnerIdentification.mk x0 x1 x2 x3) ↔ ((Validates x0 ∧ Validates x1) ∧ Validates x2) ∧ Validates x3 :=
  ok_append' (ok_append' ok_append)

@[local simp] theorem ok_mk_FullCardNumber {x0 x1 x2 x3} : Validates (FullCardNumber.mk x0 x1 x2 x3) ↔ Validates x2 ∧ Validates x3 :=
  ok_append

@[local simp] theorem ok_mk_FullCardNumberAndGeneration {x0 x1} : Validates (FullCardNumberAndGeneration.mk x0 x1) ↔ Validates x0 :=
  Iff.rfl

@[local simp] theorem ok_mk_CardVehicleRecord {x0 x1 x2 x3 x4 x5 x6} : Validates (CardVehicleRecord.mk x0 x1 x2 x3 x4 x5 x6) ↔ Validates x5 :=
  Iff.rfl

@[local simp] theorem ok_mk_PreviousVehicleInfo {x0 x1 x2} : Validates (PreviousVehicleInfo.mk x0 x1 x2) ↔ Validates x1 :=
  Iff.rfl

@[local simp] theorem ok_mk_VuCardIWRecord {x0 x1 x2 x3 x4 x5 x6 x7 x8 x9 x10} : Validates (VuCardIWRecord.mk x0 x1 x2 x3 x4 x5 x6 x7 x8 x9 x10) ↔ (Validates x1 ∧ Validates x2) ∧ Validates x9 :=
  ok_append' ok_append

@[local simp] theorem ok_mk_EmbedderId {x0 x1 x2} : Validates (EmbedderId.mk x0 x1 x2) ↔ Validates x0 ∧ Validates x1 :=
  ok_append

@[local simp] theorem ok_mk_Icc {x0 x1 x2 x3 x4 x5} : Validates (Icc.mk x0 x1 x2 x3 x4 x5) ↔ Validates x2 ∧ Validates x4 :=
  ok_append

@[local simp] theorem ok_mk_CurrentUsage {x0 x1} : Validates (CurrentUsage.mk x0 x1) ↔ Validates x1 :=
  Iff.rfl

@[local simp] theorem ok_mk_DrivingLicenceInfo {x0 x1 x2} : Validates (DrivingLicenceInfo.mk x0 x1 x2) ↔ Validates x0 ∧ Validates x2 :=
  ok_append

@[local simp] theorem ok_mk_ControlActivity {x0 x1 x2 x3 x4 x5 x6 x7} : Validates (ControlActivity.mk x0 x1 x2 x3 x4 x5 x6 x7) ↔ Validates x4 ∧ Validates x5 :=
  ok_append

@[local simp] theorem ok_mk_CardIdent {x0 x1 x2 x3 x4 x5 x6} : Validates (CardIdent.mk x0 x1 x2 x3 x4 x5 x6) ↔ (Validates x1 ∧ Validates x2) ∧ Validates x3 :=
  ok_append' ok_append

@[local simp] theorem ok_mk_DriverHolder {x0 x1 x2 x3} : Validates (DriverHolder.mk x0 x1 x2 x3) ↔ (Validates x0 ∧ Validates x1) ∧ Validates x3 :=
  ok_append' ok_append

@[local simp] theorem ok_mk_Identification {x0 x1 x2} : Validates (Identification.mk x0 x1 x2) ↔ Validates x1 ∧ Validates x2 :=
  ok_append

@[local simp] theorem ok_mk_EventRecord {x0 x1 x2 x3 x4 x5} : Validates (EventRecord.mk x0 x1 x2 x3 x4 x5) ↔ Validates x5 :=
  Iff.rfl

@[local simp] theorem ok_mk_Tachograph {x0 x1 x2 x3 x4 x5 x6 x7 x8 x9 x10 x11 x12 x13} : Validates (Tachograph.mk x0 x1 x2 x3 x4 x5 x6 x7 x8 x9 x10 x11 x12 x13) ↔ (((((Validates x1 ∧ Validates x2) ∧ Validates x3) ∧ Validates x4) ∧ Validates x6) ∧ Validates x8) ∧ Validates x9 :=
  ok_append' (ok_append' (ok_append' (ok_append' (ok_append' ok_append))))

@[local simp] theorem ok_mk_TachographG2 {x0 x1 x2 x3 x4 x5 x6 x7 x8 x9 x10 x11 x12 x13 x14 x15 x16 x17 x18} : Validates (TachographG2.mk x0 x1 x2 x3 x4 x5 x6 x7 x8 x9 x10 x11 x12 x13 x14 x15 x16 x17 x18) ↔ (((((Validates x1 ∧ Validates x2) ∧ Validates x3) ∧ Validates x4) ∧ Validates x6) ∧ Validates x8) ∧ Validates x9 :=
  ok_append' (ok_append' (ok_append' (ok_append' (ok_append' ok_append))))

@[local simp] theorem ok_mk_DriverCard {x0 x1 x2 x3} : Validates (DriverCard.mk x0 x1 x2 x3) ↔ (Validates x0 ∧ Validates x2) ∧ Validates x3 :=
  ok_append' ok_append

@[local simp] theorem ok_mk_DownloadActivity {x0 x1 x2} : Validates (DownloadActivity.mk x0 x1 x2) ↔ Validates x1 ∧ Validates x2 :=
  ok_append

@[local simp] theorem ok_mk_CompanyLock {x0 x1 x2 x3 x4} : Validates (CompanyLock.mk x0 x1 x2 x3 x4) ↔ (Validates x2 ∧ Validates x3) ∧ Validates x4 :=
  ok_append' ok_append

@[local simp] theorem ok_mk_VuControlActivity {x0 x1 x2 x3 x4} : Validates (VuControlActivity.mk x0 x1 x2 x3 x4) ↔ Validates x2 :=
  Iff.rfl

@[local simp] theorem ok_mk_OverviewGen1 {x0 x1 x2 x3 x4 x5 x6 x7 x8 x9 x10 x11 x12} : Validates (OverviewGen1.mk x0 x1 x2 x3 x4 x5 x6 x7 x8 x9 x10 x11 x12) ↔ (((Validates x3 ∧ Validates x4) ∧ Validates x9) ∧ Validates x10) ∧ Validates x11 :=
  ok_append' (ok_append' (ok_append' ok_append))

@[local simp] theorem ok_mk_ActivitiesGen1 {x0 x1 x2 x3 x4 x5 x6 x7} : Validates (ActivitiesGen1.mk x0 x1 x2 x3 x4 x5 x6 x7) ↔ Validates x3 :=
  Iff.rfl

@[local simp] theorem ok_mk_VuGen1 {x0 x1 x2 x3 x4} : Validates (VuGen1.mk x0 x1 x2 x3 x4) ↔ Validates x0 ∧ Validates x1 :=
  ok_append

@[local simp] theorem ok_mk_VehicleUnitFile {x0 x1 x2 x3 x4} : Validates (VehicleUnitFile.mk x0 x1 x2 x3 x4) ↔ Validates x2 :=
  Iff.rfl

@[local simp] theorem ok_mk_CardVehicleRecordG2 {b v} : Validates (CardVehicleRecordG2.mk b v) ↔ Validates b :=
  Iff.rfl

theorem all_mapRes {α β : Type} [HasStrings β] {f : α → Res β} {xs : List α} {rs : List β} (hf : ∀ x, Post (f x) Validates)
    (h : mapRes f xs = .ok rs) : Validates rs := by
  rw [ok_list]
  intro r hr
  obtain ⟨x, _, hx⟩ := mapRes_mem h r hr
  exact hf x r hx

theorem all_loopAt {β : Type} [HasStrings β] {f : Nat → Res β} {size n off : Nat} {rs : List β} (hf : ∀ x, Post (f x) Validates)
    (h : loopAt f size n off = .ok rs) : Validates rs := by
  rw [ok_list]
  intro r hr
  obtain ⟨i, hi, rfl⟩ := List.mem_iff_getElem.1 hr
  exact hf _ _ ((loopAt_ok_iff.1 h).2 i hi)

section
variable [Charmap]

omit [Charmap] in
theorem small {d x : Bytes} {a b : Nat} (h : sl? d a b = .ok x) (hb : b < a + 2 ^ 31) : x.length < 2 ^ 31 := by
  obtain ⟨-, -, rfl⟩ := sl?_eq_ok h
  rw [sl_length]
  omega

/-- The data of a string is a short piece of the input. -/
macro "size" : tactic => `(tactic| (refine small (by assumption) ?_; omega))

omit [Charmap] in
theorem encoding_range (b : UInt8) : 1 ≤ getEncodingFromCodePage b ∧ getEncodingFromCodePage b ≤ 14 := by
  revert b
  apply forall_byte
  decide +kernel

theorem paged_rules {d : Bytes} {s : StringValue} (h : unmarshalStringValue d = .ok s) (hd : d.length < 2 ^ 31) :
    PagedRules s ∧ s.length = some (d.length - 1 : Int) := by
  match d, h with
  | [], h => cases h
  | [_], h => cases h
  | c :: b :: t, h =>
    rw [unmarshalStringValue_eq c (b :: t) (by simp), Res.ok.injEq] at h
    subst h
    simp only [List.length_cons] at hd ⊢
    rw [wrap32_id (by omega) (by omega)]
    refine ⟨⟨(encoding_range c).1, (encoding_range c).2, _, rfl, by omega, ?_⟩, ?_⟩
    · rintro raw ⟨⟩
      simp only [List.length_cons]
      omega
    · simp

theorem ok_string {d : Bytes} {s : StringValue} (h : unmarshalStringValue d = .ok s) (hd : d.length < 2 ^ 31) : Validates s := by
  intro t ht
  simp only [strings, List.mem_singleton] at ht
  subst ht
  exact (paged_rules h hd).1

omit [Charmap] in
theorem shown_length (ss : List Symbol) : (shown ss).length ≤ ss.length := by
  fun_induction shown ss <;> simp_all <;> omega

omit [Charmap] in
theorem reads_length {s : Bytes} {ss : List Symbol} (h : Reads s ss) : ss.length ≤ s.length := by
  induction h with
  | nil => simp
  | @char c rest ss h ih =>
    obtain ⟨b, t, hb, -⟩ := utf8EncodeChar_cons c
    simp [hb]
    omega
  | stray hb h ih => simp; omega

omit [Charmap] in
theorem ok_ia5 {d : Bytes} {s : Ia5StringValue} (h : unmarshalIa5StringValue d = .ok s) (hd : d.length < 2 ^ 31) : Validates s := by
  intro t ht
  simp only [strings, List.mem_singleton] at ht
  subst ht
  unfold unmarshalIa5StringValue at h
  split at h
  · cases h
  · rename_i hl
    cases h
    have hw : wrap32 (d.length : Int) = d.length := wrap32_id (by omega) (by omega)
    obtain ⟨p, m, q, hr, -, -, -, -, hv⟩ := (cleaned_iff d _).1 rfl
    refine ⟨_, rfl, by rw [hw]; omega, ?_⟩
    rintro raw ⟨⟩
    refine ⟨by omega, hw, shown m, hv, ?_⟩
    have h1 := reads_length hr
    have h2 := shown_length m
    simp only [List.length_append] at h1
    omega

theorem ok_registration (d : Bytes) : Post (unmarshalVehicleRegistration d) Validates := by
  unfold unmarshalVehicleRegistration
  run
  simp [ok_string ‹unmarshalStringValue _ = _› (by size)]

theorem ok_holderName (d : Bytes) : Post (unmarshalHolderName d) Validates := by
  unfold unmarshalHolderName
  run
  rename_i s h1 _ _ f h2
  simp [ok_string h1 (by size), ok_string h2 (by size)]

omit [Charmap] in
theorem ok_driverId (d : Bytes) : Post (unmarshalDriverIdentification d) Validates := by
  unfold unmarshalDriverIdentification
  run
  simp [ok_ia5 ‹unmarshalIa5StringValue _ = _› (by size)]

omit [Charmap] in
theorem ok_ownerId (d : Bytes) : Post (unmarshalOwnerIdentification d) Validates := by
  unfold unmarshalOwnerIdentification
  run
  rename_i h1 _ _ _ h2 _ _ _ h3 _ _ _ h4
  simp [ok_ia5 h1 (by size), ok_ia5 h2 (by size), ok_ia5 h3 (by size), ok_ia5 h4 (by size)]

omit [Charmap] in
theorem ok_cardNumber (d : Bytes) : Post (unmarshalFullCardNumber d) Validates := by
  unfold unmarshalFullCardNumber
  run
  · simp [ok_driverId _ _ ‹_›]
  · simp [ok_ownerId _ _ ‹_›]

theorem ok_vehicle (d : Bytes) : Post (unmarshalCardVehicleFields d) Validates := by
  unfold unmarshalCardVehicleFields
  run
  simp [ok_registration _ _ ‹_›]

theorem ok_vehicleG1 (d : Bytes) : Post (unmarshalCardVehicleRecord d) Validates := by
  unfold unmarshalCardVehicleRecord
  run
  exact ok_vehicle d

theorem ok_vehicleG2 (d : Bytes) : Post (unmarshalCardVehicleRecordG2 d) Validates := by
  unfold unmarshalCardVehicleRecordG2
  run
  exact ok_vehicle _ _ ‹_›

theorem ok_previousVehicle (d : Bytes) : Post (unmarshalPreviousVehicleInfo d) Validates := by
  unfold unmarshalPreviousVehicleInfo unmarshalPreviousVehicleFields
  run
  simp [ok_registration _ _ ‹_›]

theorem ok_iw (d : Bytes) : Post (unmarshalVuCardIWRecord d) Validates := by
  unfold unmarshalVuCardIWRecord
  run
  simp [ok_holderName _ _ ‹_›, ok_cardNumber _ _ ‹_›, ok_previousVehicle _ _ ‹_›]

omit [Charmap] in
theorem ok_icc (d : Bytes) : Post (unmarshalIcc d) Validates := by
  unfold unmarshalIcc
  run
  rename_i h1 _ _ _ _ _ _ _ h2 _ _ _ h3 _ _ _ _
  simp [ok_ia5 h1 (by size), ok_ia5 h2 (by size), ok_ia5 h3 (by size)]

theorem ok_currentUsage (d : Bytes) : Post (unmarshalCurrentUsage d) Validates := by
  unfold unmarshalCurrentUsage
  run
  simp [ok_registration _ _ ‹_›]

theorem ok_licence (d : Bytes) : Post (unmarshalDrivingLicenceInfo d) Validates := by
  unfold unmarshalDrivingLicenceInfo
  run
  simp [ok_string ‹_› (by size), ok_ia5 ‹_› (by size)]

theorem ok_control (d : Bytes) : Post (unmarshalControlActivity d) Validates := by
  unfold unmarshalControlActivity
  run
  · simp
  · simp [ok_registration _ _ ‹_›, ok_ia5 ‹_› (by size)]

omit [Charmap] in
theorem ok_owner_number (d : Bytes) : Post (do
    let a ← sl? d 0 13
    let o ← unmarshalIa5StringValue a
    let b ← sl? d 13 14
    let c ← unmarshalIa5StringValue b
    let b ← sl? d 14 15
    let r ← unmarshalIa5StringValue b
    let b ← sl? d 15 16
    let w ← unmarshalIa5StringValue b
    return ({ owner := some o, consecutive := some c, replacement := some r, renewal := some w } : OwnerIdentification)) Validates := by
  run
  rename_i h1 _ _ _ h2 _ _ _ h3 _ _ _ h4
  simp [ok_ia5 h1 (by size), ok_ia5 h2 (by size), ok_ia5 h3 (by size), ok_ia5 h4 (by size)]

omit [Charmap] in
theorem ok_identNumber (d : Bytes) : Post (unmarshalCardNumber d) (fun r => Validates r.2.1 ∧ Validates r.2.2) := by
  have hi : ∀ d : Bytes, d.length < 2 ^ 31 → Validates (match unmarshalIa5StringValue d with | .ok x => some x | _ => none) := by
    intro d hd
    cases h : unmarshalIa5StringValue d with
    | ok x => exact ok_some.2 (ok_ia5 h hd)
    | err m => exact ok_none
    | panic => exact ok_none
  unfold unmarshalCardNumber
  dsimp only
  refine post_bind fun n _ => ?_
  cases h : unmarshalIa5StringValue n with
  | ok id =>
    dsimp only
    refine post_bind fun _ _ => post_bind fun _ _ => post_ite (fun _ => ?_) (fun _ => ?_)
    · refine post_bind fun b _ => post_bind fun c _ => post_pure ⟨?_, ok_none⟩
      simp only [ok_some, ok_mk_DriverIdentification]
      exact ⟨⟨ok_ia5 h (by size), hi b (by size)⟩, hi c (by size)⟩
    · refine post_bind fun o ho => post_pure ⟨ok_none, ?_⟩
      exact ok_some.2 (ok_owner_number d o ho)
  | err m =>
    refine post_bind fun o ho => post_pure ⟨ok_none, ?_⟩
    exact ok_some.2 (ok_owner_number d o ho)
  | panic =>
    refine post_bind fun o ho => post_pure ⟨ok_none, ?_⟩
    exact ok_some.2 (ok_owner_number d o ho)

theorem ok_identification (d : Bytes) : Post (unmarshalIdentification d) Validates := by
  unfold unmarshalIdentification
  run
  rename_i n h1 _ _ _ h2 _ _ _ _ _ _ _ _ _ _ _ _ _ _ _ h3 _ _ _ h4 _ _ _ _ _ _ _ h5
  obtain ⟨e1, e2⟩ := ok_identNumber _ _ h1
  simp [ok_string h2 (by size), ok_string h3 (by size), ok_string h4 (by size), ok_ia5 h5 (by size), e1, e2]

theorem registration_length (d : Bytes) : Post (unmarshalVehicleRegistration d) (fun v => ∀ s, v.number = some s → s.length = some 13) := by
  unfold unmarshalVehicleRegistration
  run
  rintro s ⟨⟩
  rename_i h1 _ h2
  have := (paged_rules h2 (by size)).2
  obtain ⟨-, h3, rfl⟩ := sl?_eq_ok h1
  rw [this, sl_length]
  simp only [Option.some.injEq]
  omega

theorem ok_event (d : Bytes) : Post (unmarshalEventRecord d) (fun r => Validates r ∧
    ∀ v, r.registration = some v → ∀ s, v.number = some s → s.length = some 13) := by
  unfold unmarshalEventRecord
  run
  refine ⟨by simp [ok_registration _ _ ‹_›], ?_⟩
  rintro v ⟨⟩
  exact registration_length _ _ ‹_›

omit [Charmap] in
theorem ok_withNumberRaw {r : EventRecord} {raw : Option Bytes} (h : Validates r)
    (hn : ∀ v, r.registration = some v → ∀ s, v.number = some s → s.length = some 13)
    (hr : ∀ x, raw = some x → x.length = 14) : Validates (r.withNumberRaw raw) := by
  obtain ⟨a, b, c, d, e, f⟩ := r
  cases f with
  | none => exact h
  | some f =>
    obtain ⟨g, f⟩ := f
    cases f with
    | none => exact h
    | some s =>
      intro t ht
      have e : t = .paged { s with rawData := raw } := by simpa [strings, EventRecord.withNumberRaw] using ht
      subst e
      obtain ⟨h1, h2, n, h3, h4, -⟩ : PagedRules s := h (.paged s) (by simp [strings])
      refine ⟨h1, h2, n, h3, h4, fun x hx => ?_⟩
      have := hn _ rfl s rfl
      rw [h3, Option.some.injEq] at this
      rw [hr x hx]
      omega

/-! ### What a retained slice of the scanner holds -/

omit [Charmap] in
theorem fill_sizes {st st' : ScanSt} (hs : st.stop ≤ st.buf.length) (h : st.fill = some st') :
    st'.stop ≤ st'.buf.length ∧ (st.old ++ [st.buf]).map List.length <+: (st'.old ++ [st'.buf]).map List.length := by
  have h1 : st.shift.stop ≤ st.shift.buf.length ∧ st.shift.buf.length = st.buf.length ∧ st.shift.old = st.old := by
    unfold ScanSt.shift
    split
    · have : (sl st.buf st.start st.stop ++ st.buf.drop (sl st.buf st.start st.stop).length).length = st.buf.length := by
        rw [List.length_append, List.length_drop, sl_length]
        omega
      exact ⟨by dsimp only; rw [this]; omega, this, rfl⟩
    · exact ⟨hs, rfl, rfl⟩
  have h3 : ∀ s : ScanSt, s.stop ≤ s.buf.length → s.read.stop ≤ s.read.buf.length ∧ s.read.buf.length = s.buf.length ∧ s.read.old = s.old := by
    intro s hs
    unfold ScanSt.read
    split
    · exact ⟨hs, rfl, rfl⟩
    · have : (s.buf.take s.stop ++ s.rest.take (min (s.buf.length - s.stop) s.rest.length)
          ++ s.buf.drop (s.stop + min (s.buf.length - s.stop) s.rest.length)).length = s.buf.length := by
        simp only [List.length_append, List.length_take, List.length_drop]
        omega
      exact ⟨by dsimp only; rw [this]; omega, this, rfl⟩
  unfold ScanSt.fill at h
  rw [Option.map_eq_some_iff] at h
  obtain ⟨v, hv, rfl⟩ := h
  have h2 : v.stop ≤ v.buf.length ∧
      (st.shift.old ++ [st.shift.buf]).map List.length <+: (v.old ++ [v.buf]).map List.length := by
    unfold ScanSt.grow at hv
    split at hv
    · split at hv
      · cases hv
      · cases hv
        refine ⟨?_, ?_⟩
        · simp only [List.length_append, sl_length]
          omega
        · exact (List.prefix_append _ _).map _
    · cases hv
      exact ⟨h1.1, List.prefix_refl _⟩
  obtain ⟨a, b, c⟩ := h3 v h2.1
  refine ⟨a, ?_⟩
  have h4 := h2.2
  simp only [List.map_append, List.map_cons, List.map_nil] at h4 ⊢
  rw [b, c, ← h1.2.1, ← h1.2.2]
  exact h4

omit [Charmap] in
/-- Buffers never change their size, and every token lies in one of them. -/
theorem scanRun_sizes (split : SplitFn) (st : ScanSt) (hs : st.stop ≤ st.buf.length) :
    (st.old ++ [st.buf]).map List.length <+: (scanRun split st).heap.map List.length ∧
    ∀ t ∈ (scanRun split st).toks, t.ref.len = t.bytes.length ∧
      ∃ m, ((scanRun split st).heap.map List.length)[t.ref.buf]? = some m ∧ t.ref.off + t.ref.len ≤ m := by
  fun_induction scanRun split st with
  | case1 st m h => simp
  | case2 st n h hn r ih =>
    obtain ⟨h1, h2⟩ := ih hs
    refine ⟨h1, ?_⟩
    rw [List.forall_mem_cons]
    refine ⟨⟨?_, st.buf.length, ?_, ?_⟩, h2⟩
    · dsimp only
      rw [sl_length]
      omega
    · rw [List.prefix_iff_getElem?] at h1
      have := h1 st.old.length (by simp)
      simpa using this
    · dsimp only
      omega
  | case3 st n h hn => simp
  | case4 st h he => simp
  | case5 => simp
  | case6 st h he st' hf hp ih =>
    obtain ⟨a, b⟩ := fill_sizes hs hf
    obtain ⟨c, d⟩ := ih a
    exact ⟨b.trans c, d⟩
  | case7 st h he st' hf hp =>
    simp

omit [Charmap] in
theorem deref_length {split : SplitFn} {d : Bytes} {t : Tok} (ht : t ∈ (scanAll split d).toks) {x : Bytes}
    (hx : deref (scanAll split d).heap t.ref = some x) : x.length = t.bytes.length := by
  obtain ⟨h1, m, h2, h3⟩ := (scanRun_sizes split (.init d) (by simp [ScanSt.init])).2 t ht
  unfold deref at hx
  rw [Option.map_eq_some_iff] at hx
  obtain ⟨b, hb, rfl⟩ := hx
  have hb' : (scanRun split (.init d)).heap[t.ref.buf]? = some b := hb
  rw [List.getElem?_map, hb', Option.map_some, Option.some.injEq] at h2
  rw [sl_length]
  omega

theorem ok_events (d : Bytes) : Post (unmarshalEventsData d) Validates := by
  unfold unmarshalEventsData
  dsimp only
  refine post_bind fun rs hrs => ?_
  split
  · exact post_err
  · refine post_pure (ok_list.2 fun r hr => ?_)
    obtain ⟨t, ht, h⟩ := mapRes_mem hrs r hr
    have hl := tok_sizes (by omega) (by omega) d t ht
    revert h
    unfold unmarshalEventToken
    suffices hp : Post _ Validates from hp r
    run
    · simp
    · have he := ok_event _ _ ‹_›
      refine ok_withNumberRaw he.1 he.2 fun x hx => ?_
      rw [Option.map_eq_some_iff] at hx
      obtain ⟨y, hy, rfl⟩ := hx
      rw [sl_length, deref_length ht hy, hl]
      rfl

theorem ok_vehiclesUsed (d : Bytes) : Post (unmarshalVehiclesUsed d) Validates := by
  unfold unmarshalVehiclesUsed
  run
  rw [ok_file]
  exact all_mapRes ok_vehicleG1 ‹_›

theorem ok_vehiclesUsedG2 (d : Bytes) : Post (unmarshalVehiclesUsedG2 d) Validates := by
  unfold unmarshalVehiclesUsedG2
  run
  rw [ok_file]
  exact all_mapRes ok_vehicleG2 ‹_›

/-! ## Driver cards -/

omit [Charmap] in
theorem ok_tachograph {t : Tachograph} : Validates t ↔ Validates t.identification ∧ Validates t.drivingLicenceInfo ∧ Validates t.eventsData
    ∧ Validates t.faultsData ∧ Validates t.vehiclesUsed ∧ Validates t.currentUsage ∧ Validates t.controlActivityData := by
  cases t
  simp only [ok_mk_Tachograph, and_assoc]

omit [Charmap] in
theorem ok_tachographG2 {t : TachographG2} : Validates t ↔ Validates t.identification ∧ Validates t.drivingLicenceInfo ∧ Validates t.eventsData
    ∧ Validates t.faultsData ∧ Validates t.vehiclesUsed ∧ Validates t.currentUsage ∧ Validates t.controlActivityData := by
  cases t
  simp only [ok_mk_TachographG2, and_assoc]

/-- What parsing keeps true of the card built so far. -/
def CardInv (c : DriverCard) : Prop :=
  Validates c.icc ∧ Validates (c.tachograph.getD {}) ∧ Validates (c.tachographG2.getD {})

omit [Charmap] in
theorem inv_setG1 {c : DriverCard} {f : Tachograph → Tachograph} (h : CardInv c) (hf : ∀ t, Validates t → Validates (f t)) : CardInv (c.setG1 f) :=
  ⟨h.1, hf _ h.2.1, h.2.2⟩

omit [Charmap] in
theorem inv_setG2 {c : DriverCard} {f : TachographG2 → TachographG2} (h : CardInv c) (hf : ∀ t, Validates t → Validates (f t)) :
    CardInv (c.setG2 f) :=
  ⟨h.1, h.2.1, hf _ h.2.2⟩

theorem inv_route (c : DriverCard) (file : EF) (gen : Generation) (v : Bytes) (sig : Option Bytes) (h : CardInv c) :
    Post (routeRecord c file gen v sig) CardInv := by
  cases file <;> simp only [routeRecord]
  case' caCertificate =>
    refine post_bind_of (Q := CardInv) ?_ (fun c' hc => post_bind fun _ _ => post_pure hc)
  all_goals (repeat' first
    | with_reducible exact post_err
    | with_reducible exact post_err_bind
    | with_reducible refine post_bind fun _ _ => ?_
    | with_reducible refine post_ite (fun _ => ?_) (fun _ => ?_)
    | with_reducible refine post_byGeneration ?_ ?_
    | with_reducible refine post_pure ?_
    | with_reducible refine post_ok ?_)
  all_goals try with_reducible exact h
  all_goals first
    | with_reducible have e := (ok_icc _).use ‹unmarshalIcc _ = _›
    | with_reducible have e := (ok_identification _).use ‹unmarshalIdentification _ = _›
    | with_reducible have e := (ok_licence _).use ‹unmarshalDrivingLicenceInfo _ = _›
    | with_reducible have e := (ok_events _).use ‹unmarshalEventsData _ = _›
    | with_reducible have e := (ok_vehiclesUsed _).use ‹unmarshalVehiclesUsed _ = _›
    | with_reducible have e := (ok_vehiclesUsedG2 _).use ‹unmarshalVehiclesUsedG2 _ = _›
    | with_reducible have e := (ok_currentUsage _).use ‹unmarshalCurrentUsage _ = _›
    | with_reducible have e := (ok_control _).use ‹unmarshalControlActivity _ = _›
    | have e := True.intro
  all_goals first
    | (with_reducible refine inv_setG1 h fun t ht => ok_tachograph.2 ?_
       obtain ⟨a1, a2, a3, a4, a5, a6, a7⟩ := ok_tachograph.1 ht
       refine ⟨?_, ?_, ?_, ?_, ?_, ?_, ?_⟩)
    | (with_reducible refine inv_setG2 h fun t ht => ok_tachographG2.2 ?_
       obtain ⟨a1, a2, a3, a4, a5, a6, a7⟩ := ok_tachographG2.1 ht
       refine ⟨?_, ?_, ?_, ?_, ?_, ?_, ?_⟩)
    | exact ⟨ok_some.2 e, h.2.1, h.2.2⟩
    | exact ⟨h.1, h.2.1, h.2.2⟩
  all_goals try assumption
  all_goals exact ok_some.2 e

theorem inv_loop (rs : List RawRec) (c : DriverCard) (h : CardInv c) : Post (driverCardLoop c rs) CardInv := by
  match rs with
  | [] => exact post_ok h
  | [r] =>
    unfold driverCardLoop
    exact post_ite (fun _ => inv_route _ _ _ _ _ h) (fun _ => post_err)
  | r :: n :: rest =>
    unfold driverCardLoop
    refine post_ite (fun _ => post_ite (fun _ => ?_) (fun _ => ?_)) (fun _ => post_err)
    · exact post_bind fun c' hc => inv_loop rest c' (inv_route _ _ _ _ _ h c' hc)
    · exact post_bind fun c' hc => inv_loop (n :: rest) c' (inv_route _ _ _ _ _ h c' hc)
termination_by rs.length

omit [Charmap] in
theorem inv_ok {c : DriverCard} (h : CardInv c) : Validates c := by
  obtain ⟨h1, h2, h3⟩ := h
  obtain ⟨i, j, t1, t2⟩ := c
  rw [ok_mk_DriverCard]
  refine ⟨⟨h1, ?_⟩, ?_⟩
  · cases t1 with
    | none => exact ok_none
    | some t => exact ok_some.2 h2
  · cases t2 with
    | none => exact ok_none
    | some t => exact ok_some.2 h3

/-- C88: a parsed driver card satisfies the validation rules. -/
theorem driver_card_validates (rs : List RawRec) (c : DriverCard) (h : unmarshalDriverCard rs = .ok c) :
    ∀ t ∈ strings c, t.Rules := by
  refine inv_ok (inv_loop rs {} ⟨ok_none, ?_, ?_⟩ c h)
  · exact ok_tachograph.2 (by simp)
  · exact ok_tachographG2.2 (by simp)

/-! ## Vehicle unit files -/

theorem ok_overview (d : Bytes) : Post (unmarshalOverviewGen1 d) Validates := by
  have hl : ∀ o, Post (companyLockAt d o) Validates := by
    intro o
    unfold companyLockAt
    run
    rename_i h1 _ _ _ h2 _ _ _ h3
    simp [ok_string h1 (by size), ok_string h2 (by size), ok_cardNumber _ _ h3]
  have hc : ∀ o, Post (controlActivityAt d o) Validates := by
    intro o
    unfold controlActivityAt
    run
    simp [ok_cardNumber _ _ ‹_›]
  unfold unmarshalOverviewGen1
  dsimp only
  run
  have l := all_loopAt hl ‹loopAt (companyLockAt d) _ _ _ = _›
  have k := all_loopAt hc ‹loopAt (controlActivityAt d) _ _ _ = _›
  rw [ok_list] at l k
  simp [ok_ia5 ‹_› (by size), ok_registration _ _ ‹_›, ok_cardNumber _ _ ‹_›, ok_string ‹_› (by size)]
  exact ⟨l, k⟩

theorem ok_activities (d : Bytes) : Post (unmarshalActivitiesGen1 d) Validates := by
  have hi : ∀ o, Post (cardIWAt d o) Validates := by
    intro o
    unfold cardIWAt
    refine post_ite (fun _ => post_err_bind) fun _ => post_bind fun _ _ => ok_iw _
  unfold unmarshalActivitiesGen1
  dsimp only
  run
  have l := all_loopAt hi ‹loopAt (cardIWAt d) _ _ _ = _›
  rw [ok_mk_ActivitiesGen1]
  exact l

theorem ok_vuGen1 (rs : List VuRec) (out : VuGen1) (h : Validates out) : Post (unmarshalVuGen1 out rs) Validates := by
  induction rs generalizing out with
  | nil => exact post_ok h
  | cons r rs ih =>
    unfold unmarshalVuGen1
    have h' := ok_mk_VuGen1.1 h
    dsimp only
    split
    · refine post_bind fun x hx => ih _ ?_
      exact ok_mk_VuGen1.2 ⟨ok_some.2 (ok_overview _ _ hx), h'.2⟩
    · refine post_bind fun x hx => ih _ (ok_mk_VuGen1.2 ⟨h'.1, ?_⟩)
      have h2 := ok_list.1 h'.2
      rw [ok_list]
      intro y hy
      rcases List.mem_append.1 hy with hy | hy
      · exact h2 y hy
      · rw [List.mem_singleton] at hy
        exact hy ▸ ok_activities _ _ hx
    · exact post_bind fun x hx => ih _ (ok_mk_VuGen1.2 h')
    · exact post_bind fun x hx => ih _ (ok_mk_VuGen1.2 h')
    · exact post_bind fun x hx => ih _ (ok_mk_VuGen1.2 h')
    · exact post_err_bind

/-- C88: a parsed vehicle unit file satisfies the validation rules. -/
theorem vehicle_unit_validates (d : Bytes) (f : VehicleUnitFile) (h : unmarshalVehicleUnitFile d = .ok f) : ∀ t ∈ strings f, t.Rules := by
  revert f
  suffices hp : Post (unmarshalVehicleUnitFile d) Validates from hp
  unfold unmarshalVehicleUnitFile
  refine post_bind fun rs _ => ?_
  split
  · exact post_err
  · split
    · refine post_bind fun x hx => post_pure ?_
      exact ok_mk_VehicleUnitFile.2 (ok_some.2 (ok_vuGen1 _ _ (ok_mk_VuGen1.2 ⟨ok_none, by simp⟩) x hx))
    · refine post_ite (fun _ => ?_) (fun _ => ?_)
      · exact post_bind fun x hx => post_pure (ok_mk_VehicleUnitFile.2 ok_none)
      · exact post_bind fun x hx => post_pure (ok_mk_VehicleUnitFile.2 ok_none)
    · exact post_err

/-- C88: every parsed file satisfies the validation rules of its schema. -/
theorem file_validates (d : Bytes) (f : File) (h : unmarshalFile d = .ok f) : ∀ t ∈ strings f, t.Rules := by
  revert f
  suffices hp : Post (unmarshalFile d) Validates from hp
  unfold unmarshalFile
  run
  · have := vehicle_unit_validates _ _ ‹_›
    exact ok_append.2 ⟨ok_some.2 this, ok_none⟩
  · have := driver_card_validates _ _ ‹_›
    exact ok_append.2 ⟨ok_none, ok_some.2 this⟩
  · exact ok_append.2 ⟨ok_none, ok_none⟩

end

/-! ## Anonymised messages -/

theorem ok_testText (v : String) : Validates (testText v) := by
  intro t ht
  have e : t = .paged { encoding := encoding_iso88591, rawData := none, length := some 35, value := v.toUTF8.toList } := by
    simpa [strings, testText] using ht
  subst e
  exact ⟨by show (1 : Int) ≤ 4; decide, by show (4 : Int) ≤ 14; decide, 35, rfl, by decide, fun _ h => by cases h⟩

@[local simp] theorem ok_mk_WorkshopHolder {a b c d e} : Validates (WorkshopHolder.mk a b c d e) ↔
    (((Validates a ∧ Validates b) ∧ Validates c) ∧ Validates d) ∧ Validates e :=
  ok_append' (ok_append' (ok_append' ok_append))

@[local simp] theorem ok_mk_ControlHolder {a b c d e} : Validates (ControlHolder.mk a b c d e) ↔
    (((Validates a ∧ Validates b) ∧ Validates c) ∧ Validates d) ∧ Validates e :=
  ok_append' (ok_append' (ok_append' ok_append))

@[local simp] theorem ok_mk_CompanyHolder {a b c} : Validates (CompanyHolder.mk a b c) ↔ (Validates a ∧ Validates b) ∧ Validates c :=
  ok_append' ok_append

@[local simp] theorem ok_mk_AnyIdentification {ct c d w k m s v} : Validates (AnyIdentification.mk ⟨ct, c, d⟩ w k m s v) ↔
    (((Validates c ∧ Validates d) ∧ Validates w) ∧ Validates k) ∧ Validates m :=
  ok_append' (ok_append' (ok_append' ok_append))

theorem ok_map {α β : Type} [HasStrings α] [HasStrings β] {o : Option α} {f : α → β} (h : Validates o)
    (hf : ∀ x, Validates x → Validates (f x)) : Validates (o.map f) := by
  cases o with
  | none => exact ok_none
  | some x => exact ok_some.2 (hf x (ok_some.1 h))

theorem ok_anonDriver (d : Option DriverIdentification) : Validates (anonymizeDriverIdentification d) := by
  cases d with
  | none => exact ok_none
  | some d =>
    intro t ht
    have e : t = .ia5 { rawData := none, length := some 14, value := anonDriverNumber } := by
      simpa [strings, anonymizeDriverIdentification] using ht
    subst e
    exact ⟨14, rfl, by decide, fun _ h => by cases h⟩

theorem ok_anonCard (c : CardIdent) (h : Validates c) : Validates (anonymizeCardIdent c) := by
  obtain ⟨st, dr, ow, au, i, v, e⟩ := c
  rw [ok_mk_CardIdent] at h
  refine ok_mk_CardIdent.2 ⟨⟨ok_anonDriver _, ok_map h.1.2 ?_⟩, ok_testText _⟩
  rintro ⟨o, a, b, c⟩ ho
  rw [ok_mk_OwnerIdentification] at ho ⊢
  refine ⟨⟨⟨ok_some.2 ?_, ho.1.1.2⟩, ho.1.2⟩, ho.2⟩
  intro t ht
  simp only [strings, List.mem_singleton] at ht
  subst ht
  exact ⟨13, rfl, by decide, fun _ h => by cases h⟩

/-- C88: anonymising the identification of a card of any type leaves a message that satisfies the rules. -/
theorem anonymized_identification_validates (i : AnyIdentification) (h : ∀ t ∈ strings i, t.Rules) :
    ∀ t ∈ strings (anonymizeIdentification i), t.Rules := by
  obtain ⟨⟨ct, c, d⟩, w, k, m, s, v⟩ := i
  obtain ⟨⟨⟨⟨hc, hd⟩, hw⟩, hk⟩, hm⟩ := ok_mk_AnyIdentification.1 h
  have hc' := ok_map hc ok_anonCard
  show Validates _
  unfold anonymizeIdentification
  cases ct <;> dsimp only <;> rw [ok_mk_AnyIdentification]
  all_goals first
    | exact ⟨⟨⟨⟨hc', ok_none⟩, ok_none⟩, ok_none⟩, ok_none⟩
    | (refine ⟨⟨⟨⟨hc', ok_map hd ?_⟩, ok_none⟩, ok_none⟩, ok_none⟩
       rintro ⟨a, b, c, d⟩ hh
       exact ok_mk_DriverHolder.2 ⟨⟨ok_testText _, ok_testText _⟩, (ok_mk_DriverHolder.1 hh).2⟩)
    | (refine ⟨⟨⟨⟨hc', ok_none⟩, ok_map hw ?_⟩, ok_none⟩, ok_none⟩
       rintro ⟨a, b, c, d, e⟩ hh
       exact ok_mk_WorkshopHolder.2 ⟨⟨⟨⟨ok_testText _, ok_testText _⟩, ok_testText _⟩, ok_testText _⟩, (ok_mk_WorkshopHolder.1 hh).2⟩)
    | (refine ⟨⟨⟨⟨hc', ok_none⟩, ok_none⟩, ok_map hk ?_⟩, ok_none⟩
       rintro ⟨a, b, c, d, e⟩ hh
       exact ok_mk_ControlHolder.2 ⟨⟨⟨⟨ok_testText _, ok_testText _⟩, ok_testText _⟩, ok_testText _⟩, (ok_mk_ControlHolder.1 hh).2⟩)
    | (refine ⟨⟨⟨⟨hc', ok_none⟩, ok_none⟩, ok_none⟩, ok_map hm ?_⟩
       rintro ⟨a, b, c⟩ hh
       exact ok_mk_CompanyHolder.2 ⟨⟨ok_testText _, ok_testText _⟩, (ok_mk_CompanyHolder.1 hh).2⟩)

theorem ok_anonVehicle (r : CardVehicleRecord) (i : Nat) : Validates (anonymizeCardVehicleRecord r i) := by
  have key : ∀ raw a b c d e, Validates (CardVehicleRecord.mk raw a b c d (r.registration.map (fun v => {
      nation := v.nation
      number := some {
        encoding := encoding_iso88591, rawData := none, length := some 13
        value := [0x54, 0x45, 0x53, 0x54, 0x2D, 0x56, 0x52, 0x4E] } })) e) := by
    intro raw a b c d e
    rw [ok_mk_CardVehicleRecord]
    cases r.registration with
    | none => exact ok_none
    | some v =>
      rw [Option.map_some, ok_some, ok_mk_VehicleRegistration, ok_some]
      intro t ht
      simp only [strings, List.mem_singleton] at ht
      subst ht
      exact ⟨by decide, by decide, 13, rfl, by decide, fun _ h => by cases h⟩
  unfold anonymizeCardVehicleRecord
  dsimp only
  split <;> exact key _ _ _ _ _ _

/-- C88: an anonymised list of vehicles satisfies the rules. -/
theorem anonymized_vehicles_validate (v : RecordFile CardVehicleRecord) : ∀ t ∈ strings (anonymizeVehiclesUsed v), t.Rules := by
  have key : ∀ (rs : List CardVehicleRecord) i, Validates (anonymizeVehicleRecords i rs) := by
    intro rs
    induction rs with
    | nil => intro i; simp [anonymizeVehicleRecords]
    | cons r rs ih =>
      intro i
      rw [anonymizeVehicleRecords, ok_list, List.forall_mem_cons]
      exact ⟨ok_anonVehicle r i, ok_list.1 (ih (i + 1))⟩
  show Validates _
  unfold anonymizeVehiclesUsed
  dsimp only
  split <;> exact ok_file.2 (key _ _)

/-! ## What the rules are good for: writing -/

/-- C88: a string message with code page that satisfies the rules can be written unless its text has to be
encoded and is too long, and takes its length and one byte. -/
theorem valid_string_written (s : StringValue) (n : Int) (h : PagedRules s) (hn : s.length = some n) (dst : Bytes) :
    ((∃ out, appendStringValue dst (some s) = .ok out) ↔
      (s.rawData = none → s.encoding = 1 ∨ s.encoding = 3 ∨ (s.value.length : Int) ≤ n)) ∧
    ∀ out, appendStringValue dst (some s) = .ok out → (out.length : Int) = dst.length + (n + 1) := by
  obtain ⟨h1, h2, m, h3, h4, h5⟩ := h
  cases hn.symm.trans h3
  obtain ⟨e, raw, l, v⟩ := s
  dsimp only at *
  subst h3
  cases raw with
  | some raw =>
    obtain ⟨h6, h7⟩ := h5 raw rfl
    simp only [appendStringValue, Option.any_some]
    rw [if_neg (by omega), if_neg (by simp; omega)]
    refine ⟨by simp, ?_⟩
    rintro out ⟨⟩
    simp only [List.length_append, List.length_cons, List.length_drop]
    omega
  | none =>
    have he : getCodePageFromEncoding e = 255 ↔ e = 1 ∨ e = 3 := by
      have : ∀ k : Fin 15, 1 ≤ k.val → (getCodePageFromEncoding k.val = 255 ↔ (k.val : Int) = 1 ∨ (k.val : Int) = 3) := by
        decide +kernel
      have := this ⟨e.toNat, by omega⟩ (by simp; omega)
      have e' : ((e.toNat : Nat) : Int) = e := by omega
      simpa only [e'] using this
    have hp : ∀ x : Bytes, (x.length : Int) ≤ n → ((dst ++ getCodePageFromEncoding e :: padSpaces x n.toNat).length : Int) = dst.length + (n + 1) := by
      intro x hx
      simp only [padSpaces, List.length_append, List.length_cons, List.length_replicate]
      omega
    simp only [appendStringValue, encodeWithCodePage, he]
    by_cases hc : e = 1 ∨ e = 3
    · rw [if_pos hc, if_neg (by simp; omega)]
      refine ⟨⟨fun _ _ => hc.elim .inl (fun h => .inr (.inl h)), fun _ => ⟨_, rfl⟩⟩, ?_⟩
      rintro out ⟨⟩
      exact hp _ (by simp; omega)
    · rw [if_neg hc]
      split
      · refine ⟨⟨fun ⟨_, h⟩ => (by cases h), fun h => ?_⟩, fun _ h => (by cases h)⟩
        have := h trivial
        omega
      · refine ⟨⟨fun _ _ => .inr (.inr (by omega)), fun _ => ⟨_, rfl⟩⟩, ?_⟩
        rintro out ⟨⟩
        exact hp _ (by omega)

/-- C88: an IA5 string message that satisfies the rules can be written unless it has no raw data and its text
is too long, and takes its length. -/
theorem valid_ia5_written (s : Ia5StringValue) (n : Int) (h : Ia5Rules s) (hn : s.length = some n) (dst : Bytes) :
    ((∃ out, appendIa5StringValue dst (some s) = .ok out) ↔ (s.rawData = none → (s.value.length : Int) ≤ n)) ∧
    ∀ out, appendIa5StringValue dst (some s) = .ok out → (out.length : Int) = dst.length + n := by
  obtain ⟨m, h3, h4, h5⟩ := h
  cases hn.symm.trans h3
  obtain ⟨raw, l, v⟩ := s
  dsimp only at *
  subst h3
  cases raw with
  | some raw =>
    obtain ⟨h6, h7, -⟩ := h5 raw rfl
    simp only [appendIa5StringValue]
    rw [if_neg (by simp [h7])]
    refine ⟨by simp, ?_⟩
    rintro out ⟨⟩
    simp only [List.length_append]
    omega
  | none =>
    simp only [appendIa5StringValue]
    split
    · refine ⟨⟨fun ⟨_, h⟩ => (by cases h), fun h => ?_⟩, fun _ h => (by cases h)⟩
      have := h trivial
      omega
    · refine ⟨⟨fun _ _ => by omega, fun _ => ⟨_, rfl⟩⟩, ?_⟩
      rintro out ⟨⟩
      simp only [padSpaces, List.length_append, List.length_replicate]
      omega

end Tacho.Schema
