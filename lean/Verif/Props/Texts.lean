import Verif.Spec.Texts
import Verif.Props.ScannedFiles
import Verif.Props.Vehicle
import Verif.Props.TextMeaning
import Verif.Props.VuGen1
import Verif.Props.File
/-!
# All text of a parsed file is valid UTF-8, except Gen2 vehicle identification numbers (C43)
-/

namespace Tacho
open Spec

theorem utf8_drop_ascii {p : Bytes} {b : UInt8} (hb : b.toNat < 0x80) (h : Utf8 (p ++ [b])) : Utf8 p := by
  obtain ⟨cs, h⟩ := h
  rcases List.eq_nil_or_concat cs with rfl | ⟨cs, c, rfl⟩
  · simp at h
  · obtain ⟨x, t, hc, -, ht, -⟩ := enc_shape c
    rw [List.concat_eq_append, List.flatMap_append, List.flatMap_singleton, hc] at h
    rcases List.eq_nil_or_concat t with rfl | ⟨t, y, rfl⟩
    · exact ⟨cs, (List.append_inj' h rfl).1⟩
    · have hy := ht y (by simp)
      rw [isCont_iff] at hy
      rw [List.concat_eq_append, ← List.cons_append, ← List.append_assoc] at h
      have := (List.append_inj' h rfl).2
      simp only [List.cons.injEq, and_true] at this
      rw [this] at hb
      omega

/-- Seven bit characters at the end do not decide whether a text is valid. -/
theorem utf8_append_ascii (p f : Bytes) (hf : Ascii f) : Utf8 (p ++ f) ↔ Utf8 p := by
  constructor
  · induction f generalizing p with
    | nil => simp
    | cons b f ih =>
      intro h
      refine utf8_drop_ascii (hf b (by simp)) (ih (p ++ [b]) (fun x hx => hf x (List.mem_cons_of_mem _ hx)) ?_)
      rw [List.append_assoc]
      exact h
  · intro h
    exact utf8_append h (utf8_of_ascii hf)

/-- C43: the decoded VIN is valid UTF-8 exactly if the 17 bytes of its field are. -/
theorem cardVehicleG2_vin_utf8_iff [Charmap] (d : Bytes) (m : CardVehicleRecordG2) (h : unmarshalCardVehicleRecordG2 d = .ok m) :
    Utf8 m.vin ↔ Utf8 (sl d 31 48) := by
  obtain ⟨hl, b, hb, rfl⟩ := cardVehicleG2_parse h
  obtain ⟨f, hf, hz, -⟩ := trimNulSpace_spec (sl d 31 48)
  conv => rhs; rw [hf]
  rw [utf8_append_ascii]
  intro x hx
  rcases hz x hx with rfl | rfl <;> decide

/-- Every string of the message is valid UTF-8. -/
def Spec.Clean {α : Type} [HasText α] (x : α) : Prop := ∀ t ∈ texts x, Utf8 t

/-! ## Structure -/

@[local simp] theorem clean_some {α : Type} [HasText α] {x : α} : Clean (some x) ↔ Clean x := by simp [Clean, texts]
@[local simp] theorem clean_none {α : Type} [HasText α] : Clean (none : Option α) := by simp [Clean, texts]
@[local simp] theorem clean_list {α : Type} [HasText α] {l : List α} : Clean l ↔ ∀ x ∈ l, Clean x := by
  simp only [Clean, texts, List.mem_flatMap]
  exact ⟨fun h x hx t ht => h t ⟨x, hx, ht⟩, fun h t ⟨x, hx, ht⟩ => h x hx t ht⟩
@[local simp] theorem clean_signed {α : Type} [HasText α] {x : α} {s : Option Bytes} : Clean (Signed.mk x s) ↔ Clean x := Iff.rfl
@[local simp] theorem clean_file {α : Type} [HasText α] {r : Option Bytes} {n : Int} {l : List α} :
    Clean (RecordFile.mk r n l) ↔ Clean l := Iff.rfl

theorem clean_append {α β : Type} [HasText α] [HasText β] {a : α} {b : β} :
    (∀ t ∈ texts a ++ texts b, Utf8 t) ↔ Clean a ∧ Clean b := List.forall_mem_append

theorem clean_append' {β : Type} [HasText β] {l : List Bytes} {b : β} {p : Prop} (h : (∀ t ∈ l, Utf8 t) ↔ p) :
    (∀ t ∈ l ++ texts b, Utf8 t) ↔ p ∧ Clean b := List.forall_mem_append.trans (and_congr h Iff.rfl)

@[local simp] theorem clean_mk_VehicleRegistration {x0 x1} : Clean (VehicleRegistration.mk x0 x1) ↔ Clean x1 :=
  Iff.rfl

@[local simp] theorem clean_mk_HolderName {x0 x1} : Clean (HolderName.mk x0 x1) ↔ Clean x0 ∧ Clean x1 :=
  clean_append

@[local simp] theorem clean_mk_DriverIdentification {x0 x1 x2} : Clean (DriverIdentification.mk x0 x1 x2) ↔ (Clean x0 ∧ Clean x1) ∧ Clean x2 :=
  clean_append' clean_append

@[local simp] theorem clean_mk_OwnerIdentification {x0 x1 x2 x3} : Clean (OwnerIdentification.mk x0 x1 x2 x3) ↔ ((Clean x0 ∧ Clean x1) ∧ Clean x2) ∧ Clean x3 :=
  clean_append' (clean_append' clean_append)

@[local simp] theorem clean_mk_FullCardNumber {x0 x1 x2 x3} : Clean (FullCardNumber.mk x0 x1 x2 x3) ↔ Clean x2 ∧ Clean x3 :=
  clean_append

@[local simp] theorem clean_mk_FullCardNumberAndGeneration {x0 x1} : Clean (FullCardNumberAndGeneration.mk x0 x1) ↔ Clean x0 :=
  Iff.rfl

@[local simp] theorem clean_mk_CardVehicleRecord {x0 x1 x2 x3 x4 x5 x6} : Clean (CardVehicleRecord.mk x0 x1 x2 x3 x4 x5 x6) ↔ Clean x5 :=
  Iff.rfl

@[local simp] theorem clean_mk_PreviousVehicleInfo {x0 x1 x2} : Clean (PreviousVehicleInfo.mk x0 x1 x2) ↔ Clean x1 :=
  Iff.rfl

@[local simp] theorem clean_mk_VuCardIWRecord {x0 x1 x2 x3 x4 x5 x6 x7 x8 x9 x10} : Clean (VuCardIWRecord.mk x0 x1 x2 x3 x4 x5 x6 x7 x8 x9 x10) ↔ (Clean x1 ∧ Clean x2) ∧ Clean x9 :=
  clean_append' clean_append

@[local simp] theorem clean_mk_EmbedderId {x0 x1 x2} : Clean (EmbedderId.mk x0 x1 x2) ↔ Clean x0 ∧ Clean x1 :=
  clean_append

@[local simp] theorem clean_mk_Icc {x0 x1 x2 x3 x4 x5} : Clean (Icc.mk x0 x1 x2 x3 x4 x5) ↔ Clean x2 ∧ Clean x4 :=
  clean_append

@[local simp] theorem clean_mk_CurrentUsage {x0 x1} : Clean (CurrentUsage.mk x0 x1) ↔ Clean x1 :=
  Iff.rfl

@[local simp] theorem clean_mk_DrivingLicenceInfo {x0 x1 x2} : Clean (DrivingLicenceInfo.mk x0 x1 x2) ↔ Clean x0 ∧ Clean x2 :=
  clean_append

@[local simp] theorem clean_mk_ControlActivity {x0 x1 x2 x3 x4 x5 x6 x7} : Clean (ControlActivity.mk x0 x1 x2 x3 x4 x5 x6 x7) ↔ Clean x4 ∧ Clean x5 :=
  clean_append

@[local simp] theorem clean_mk_CardIdent {x0 x1 x2 x3 x4 x5 x6} : Clean (CardIdent.mk x0 x1 x2 x3 x4 x5 x6) ↔ (Clean x1 ∧ Clean x2) ∧ Clean x3 :=
  clean_append' clean_append

@[local simp] theorem clean_mk_DriverHolder {x0 x1 x2 x3} : Clean (DriverHolder.mk x0 x1 x2 x3) ↔ (Clean x0 ∧ Clean x1) ∧ Clean x3 :=
  clean_append' clean_append

@[local simp] theorem clean_mk_Identification {x0 x1 x2} : Clean (Identification.mk x0 x1 x2) ↔ Clean x1 ∧ Clean x2 :=
  clean_append

@[local simp] theorem clean_mk_EventRecord {x0 x1 x2 x3 x4 x5} : Clean (EventRecord.mk x0 x1 x2 x3 x4 x5) ↔ Clean x5 :=
  Iff.rfl

@[local simp] theorem clean_mk_Tachograph {x0 x1 x2 x3 x4 x5 x6 x7 x8 x9 x10 x11 x12 x13} : Clean (Tachograph.mk x0 x1 x2 x3 x4 x5 x6 x7 x8 x9 x10 x11 x12 x13) ↔ (((((((Clean x1 ∧ Clean x2) ∧ Clean x3) ∧ Clean x4) ∧ Clean x6) ∧ Clean x8) ∧ Clean x9) ∧ Clean x12) ∧ Clean x13 :=
  clean_append' (clean_append' (clean_append' (clean_append' (clean_append' (clean_append' (clean_append' clean_append))))))

@[local simp] theorem clean_mk_TachographG2 {x0 x1 x2 x3 x4 x5 x6 x7 x8 x9 x10 x11 x12 x13 x14 x15 x16 x17 x18} : Clean (TachographG2.mk x0 x1 x2 x3 x4 x5 x6 x7 x8 x9 x10 x11 x12 x13 x14 x15 x16 x17 x18) ↔ (((((((((Clean x1 ∧ Clean x2) ∧ Clean x3) ∧ Clean x4) ∧ Clean x6) ∧ Clean x8) ∧ Clean x9) ∧ Clean x15) ∧ Clean x16) ∧ Clean x17) ∧ Clean x18 :=
  clean_append' (clean_append' (clean_append' (clean_append' (clean_append' (clean_append' (clean_append' (clean_append' (clean_append' clean_append))))))))

@[local simp] theorem clean_mk_DriverCard {x0 x1 x2 x3} : Clean (DriverCard.mk x0 x1 x2 x3) ↔ (Clean x0 ∧ Clean x2) ∧ Clean x3 :=
  clean_append' clean_append

@[local simp] theorem clean_mk_DownloadActivity {x0 x1 x2} : Clean (DownloadActivity.mk x0 x1 x2) ↔ Clean x1 ∧ Clean x2 :=
  clean_append

@[local simp] theorem clean_mk_CompanyLock {x0 x1 x2 x3 x4} : Clean (CompanyLock.mk x0 x1 x2 x3 x4) ↔ (Clean x2 ∧ Clean x3) ∧ Clean x4 :=
  clean_append' clean_append

@[local simp] theorem clean_mk_VuControlActivity {x0 x1 x2 x3 x4} : Clean (VuControlActivity.mk x0 x1 x2 x3 x4) ↔ Clean x2 :=
  Iff.rfl

@[local simp] theorem clean_mk_OverviewGen1 {x0 x1 x2 x3 x4 x5 x6 x7 x8 x9 x10 x11 x12} : Clean (OverviewGen1.mk x0 x1 x2 x3 x4 x5 x6 x7 x8 x9 x10 x11 x12) ↔ (((Clean x3 ∧ Clean x4) ∧ Clean x9) ∧ Clean x10) ∧ Clean x11 :=
  clean_append' (clean_append' (clean_append' clean_append))

@[local simp] theorem clean_mk_ActivitiesGen1 {x0 x1 x2 x3 x4 x5 x6 x7} : Clean (ActivitiesGen1.mk x0 x1 x2 x3 x4 x5 x6 x7) ↔ Clean x3 :=
  Iff.rfl

@[local simp] theorem clean_mk_VuGen1 {x0 x1 x2 x3 x4} : Clean (VuGen1.mk x0 x1 x2 x3 x4) ↔ Clean x0 ∧ Clean x1 :=
  clean_append

@[local simp] theorem clean_mk_VehicleUnitFile {x0 x1 x2 x3 x4} : Clean (VehicleUnitFile.mk x0 x1 x2 x3 x4) ↔ Clean x2 :=
  Iff.rfl

@[local simp] theorem clean_mk_CardVehicleRecordG2 {b v} : Clean (CardVehicleRecordG2.mk b v) ↔ Clean b ∧ Utf8 v := by
  show (∀ t ∈ texts b ++ [v], Utf8 t) ↔ _
  rw [List.forall_mem_append, List.forall_mem_singleton]
  rfl

/-! ## Postconditions of parsers -/

/-- Whatever the parser returns satisfies `P`. -/
def Post {α : Type} (r : Res α) (P : α → Prop) : Prop := ∀ a, r = .ok a → P a

theorem post_bind {α β : Type} {r : Res α} {k : α → Res β} {P : β → Prop} (h : ∀ a, r = .ok a → Post (k a) P) :
    Post (r >>= k) P := by
  intro b hb
  rw [bind_eq_ok] at hb
  obtain ⟨a, h1, h2⟩ := hb
  exact h a h1 b h2

theorem post_ok {α : Type} {a : α} {P : α → Prop} (h : P a) : Post (.ok a) P := by
  intro b hb; cases hb; exact h
theorem post_pure {α : Type} {a : α} {P : α → Prop} (h : P a) : Post (pure a) P := post_ok h
theorem post_err {α : Type} {m : String} {P : α → Prop} : Post (.err m) P := by intro b hb; cases hb
theorem post_ite {α : Type} {c : Prop} [Decidable c] {a b : Res α} {P : α → Prop} (h1 : c → Post a P) (h2 : ¬ c → Post b P) :
    Post (if c then a else b) P := by
  split
  · exact h1 ‹_›
  · exact h2 ‹_›

theorem post_err_bind {α β : Type} {m : String} {k : α → Res β} {P : β → Prop} : Post (.err m >>= k) P := by
  intro b hb; cases hb

/-- Runs through a parser, naming nothing. -/
macro "run" : tactic => `(tactic| repeat' first
  | with_reducible exact post_err
  | with_reducible exact post_err_bind
  | with_reducible refine post_bind fun _ _ => ?_
  | with_reducible refine post_ite (fun _ => ?_) (fun _ => ?_)
  | with_reducible refine post_pure ?_
  | with_reducible refine post_ok ?_)

theorem post_mapRes {α β : Type} [HasText β] {f : α → Res β} {xs : List α} {rs : List β} (hf : ∀ x, Post (f x) Clean)
    (h : mapRes f xs = .ok rs) : Clean rs := by
  rw [clean_list]
  intro r hr
  obtain ⟨x, _, hx⟩ := mapRes_mem h r hr
  exact hf x r hx

theorem post_loopAt {β : Type} [HasText β] {f : Nat → Res β} {size n off : Nat} {rs : List β} (hf : ∀ x, Post (f x) Clean)
    (h : loopAt f size n off = .ok rs) : Clean rs := by
  rw [clean_list]
  intro r hr
  obtain ⟨i, hi, rfl⟩ := List.mem_iff_getElem.1 hr
  exact hf _ _ ((loopAt_ok_iff.1 h).2 i hi)

section
variable [Charmap]

theorem clean_string {d : Bytes} {s : StringValue} (h : unmarshalStringValue d = .ok s) : Clean s := by
  simpa [Clean, texts] using stringValue_utf8 d s h

omit [Charmap] in
theorem clean_ia5 {d : Bytes} {s : Ia5StringValue} (h : unmarshalIa5StringValue d = .ok s) : Clean s := by
  simpa [Clean, texts] using ia5_utf8 d s h

theorem clean_registration (d : Bytes) : Post (unmarshalVehicleRegistration d) Clean := by
  unfold unmarshalVehicleRegistration
  run
  simp [clean_string ‹unmarshalStringValue _ = _›]

theorem clean_holderName (d : Bytes) : Post (unmarshalHolderName d) Clean := by
  unfold unmarshalHolderName
  run
  rename_i s h1 _ _ f h2
  simp [clean_string h1, clean_string h2]

omit [Charmap] in
theorem clean_driverId (d : Bytes) : Post (unmarshalDriverIdentification d) Clean := by
  unfold unmarshalDriverIdentification
  run
  simp [clean_ia5 ‹unmarshalIa5StringValue _ = _›]

omit [Charmap] in
theorem clean_ownerId (d : Bytes) : Post (unmarshalOwnerIdentification d) Clean := by
  unfold unmarshalOwnerIdentification
  run
  rename_i h1 _ _ _ h2 _ _ _ h3 _ _ _ h4
  simp [clean_ia5 h1, clean_ia5 h2, clean_ia5 h3, clean_ia5 h4]

omit [Charmap] in
theorem clean_cardNumber (d : Bytes) : Post (unmarshalFullCardNumber d) Clean := by
  unfold unmarshalFullCardNumber
  run
  · simp [clean_driverId _ _ ‹_›]
  · simp [clean_ownerId _ _ ‹_›]

theorem clean_vehicle (d : Bytes) : Post (unmarshalCardVehicleFields d) Clean := by
  unfold unmarshalCardVehicleFields
  run
  simp [clean_registration _ _ ‹_›]

theorem clean_vehicleG1 (d : Bytes) : Post (unmarshalCardVehicleRecord d) Clean := by
  unfold unmarshalCardVehicleRecord
  run
  exact clean_vehicle d

theorem clean_vehicleG2 (d : Bytes) : Post (unmarshalCardVehicleRecordG2 d) (fun r => Clean r.base) := by
  unfold unmarshalCardVehicleRecordG2
  run
  exact clean_vehicle _ _ ‹_›

theorem clean_previousVehicle (d : Bytes) : Post (unmarshalPreviousVehicleInfo d) Clean := by
  unfold unmarshalPreviousVehicleInfo unmarshalPreviousVehicleFields
  run
  simp [clean_registration _ _ ‹_›]

theorem clean_iw (d : Bytes) : Post (unmarshalVuCardIWRecord d) Clean := by
  unfold unmarshalVuCardIWRecord
  run
  simp [clean_holderName _ _ ‹_›, clean_cardNumber _ _ ‹_›, clean_previousVehicle _ _ ‹_›]

omit [Charmap] in
theorem clean_icc (d : Bytes) : Post (unmarshalIcc d) Clean := by
  unfold unmarshalIcc
  run
  rename_i h1 _ _ _ _ _ _ _ h2 _ _ _ h3 _ _ _ _
  simp [clean_ia5 h1, clean_ia5 h2, clean_ia5 h3]

theorem clean_currentUsage (d : Bytes) : Post (unmarshalCurrentUsage d) Clean := by
  unfold unmarshalCurrentUsage
  run
  simp [clean_registration _ _ ‹_›]

theorem clean_licence (d : Bytes) : Post (unmarshalDrivingLicenceInfo d) Clean := by
  unfold unmarshalDrivingLicenceInfo
  run
  simp [clean_string ‹_›, clean_ia5 ‹_›]

theorem clean_control (d : Bytes) : Post (unmarshalControlActivity d) Clean := by
  unfold unmarshalControlActivity
  run
  · simp
  · simp [clean_registration _ _ ‹_›, clean_ia5 ‹_›]

omit [Charmap] in
theorem clean_owner_number (d : Bytes) : Post (do
    let a ← sl? d 0 13
    let o ← unmarshalIa5StringValue a
    let b ← sl? d 13 14
    let c ← unmarshalIa5StringValue b
    let b ← sl? d 14 15
    let r ← unmarshalIa5StringValue b
    let b ← sl? d 15 16
    let w ← unmarshalIa5StringValue b
    return ({ owner := some o, consecutive := some c, replacement := some r, renewal := some w } : OwnerIdentification)) Clean := by
  run
  rename_i h1 _ _ _ h2 _ _ _ h3 _ _ _ h4
  simp [clean_ia5 h1, clean_ia5 h2, clean_ia5 h3, clean_ia5 h4]

omit [Charmap] in
theorem clean_identNumber (d : Bytes) : Post (unmarshalCardNumber d) (fun r => Clean r.2.1 ∧ Clean r.2.2) := by
  have hi : ∀ d : Bytes, Clean (match unmarshalIa5StringValue d with | .ok x => some x | _ => none) := by
    intro d
    cases h : unmarshalIa5StringValue d with
    | ok x => exact clean_some.2 (clean_ia5 h)
    | err m => exact clean_none
    | panic => exact clean_none
  unfold unmarshalCardNumber
  dsimp only
  refine post_bind fun n _ => ?_
  cases h : unmarshalIa5StringValue n with
  | ok id =>
    dsimp only
    refine post_bind fun _ _ => post_bind fun _ _ => post_ite (fun _ => ?_) (fun _ => ?_)
    · refine post_bind fun b _ => post_bind fun c _ => post_pure ⟨?_, clean_none⟩
      simp only [clean_some, clean_mk_DriverIdentification]
      exact ⟨⟨clean_ia5 h, hi b⟩, hi c⟩
    · refine post_bind fun o ho => post_pure ⟨clean_none, ?_⟩
      exact clean_some.2 (clean_owner_number d o ho)
  | err m =>
    refine post_bind fun o ho => post_pure ⟨clean_none, ?_⟩
    exact clean_some.2 (clean_owner_number d o ho)
  | panic =>
    refine post_bind fun o ho => post_pure ⟨clean_none, ?_⟩
    exact clean_some.2 (clean_owner_number d o ho)

theorem clean_identification (d : Bytes) : Post (unmarshalIdentification d) Clean := by
  unfold unmarshalIdentification
  run
  rename_i n h1 _ _ _ h2 _ _ _ _ _ _ _ _ _ _ _ _ _ _ _ h3 _ _ _ h4 _ _ _ _ _ _ _ h5
  obtain ⟨e1, e2⟩ := clean_identNumber _ _ h1
  simp [clean_string h2, clean_string h3, clean_string h4, clean_ia5 h5, e1, e2]

theorem clean_event (d : Bytes) : Post (unmarshalEventRecord d) Clean := by
  unfold unmarshalEventRecord
  run
  simp [clean_registration _ _ ‹_›]

omit [Charmap] in
theorem clean_withNumberRaw {r : EventRecord} {raw : Option Bytes} (h : Clean r) : Clean (r.withNumberRaw raw) := by
  obtain ⟨a, b, c, d, e, f⟩ := r
  cases f with
  | none => exact h
  | some f =>
    obtain ⟨g, f⟩ := f
    cases f <;> exact h

theorem clean_eventToken (heap : List Bytes) (t : Tok) : Post (unmarshalEventToken heap t) Clean := by
  unfold unmarshalEventToken
  run
  · simp
  · exact clean_withNumberRaw (clean_event _ _ ‹_›)

theorem clean_events (d : Bytes) : Post (unmarshalEventsData d) Clean := by
  unfold unmarshalEventsData
  dsimp only
  refine post_bind fun rs hrs => ?_
  split
  · exact post_err
  · exact post_pure (post_mapRes (clean_eventToken _) hrs)

theorem clean_vehiclesUsed (d : Bytes) : Post (unmarshalVehiclesUsed d) Clean := by
  unfold unmarshalVehiclesUsed
  run
  rw [clean_file]
  exact post_mapRes clean_vehicleG1 ‹_›

theorem clean_vehiclesUsedG2 (d : Bytes) : Post (unmarshalVehiclesUsedG2 d) (fun f => ∀ r ∈ f.records, Clean r.base) := by
  unfold unmarshalVehiclesUsedG2
  run
  intro r hr
  obtain ⟨x, _, hx⟩ := mapRes_mem ‹_› r hr
  exact clean_vehicleG2 x r hx

/-! ## Certificates -/

omit [Charmap] in
theorem ascii_decimal (n : Nat) : Ascii (decimal n) := by
  induction n using Nat.strongRecOn with
  | _ n ih =>
    have hd : ∀ k, k < 10 → (UInt8.ofNat (48 + k)).toNat < 0x80 := by decide
    unfold decimal
    split
    · intro b hb
      rw [List.mem_singleton] at hb
      exact hb ▸ hd _ ‹_›
    · intro b hb
      rcases List.mem_append.1 hb with hb | hb
      · exact ih (n / 10) (by omega) b hb
      · rw [List.mem_singleton] at hb
        exact hb ▸ hd _ (by omega)

omit [Charmap] in
theorem ascii_oid (l : List Nat) : Ascii (oidString l) := by
  induction l with
  | nil => intro b hb; cases hb
  | cons a l ih =>
    cases l with
    | nil => exact ascii_decimal a
    | cons c l =>
      intro b hb
      rcases List.mem_append.1 hb with hb | hb
      · exact ascii_decimal a b hb
      · rcases List.mem_cons.1 hb with rfl | hb
        · decide
        · exact ih b hb

omit [Charmap] in
theorem clean_rsa (d : Bytes) : Post (unmarshalRsa d) Clean := by
  unfold unmarshalRsa
  run
  intro t ht
  simp only [texts, List.mem_cons, List.not_mem_nil, or_false] at ht
  rcases ht with rfl | rfl
  · exact utf8_nil
  · exact utf8_of_ascii (ascii_decimal _)

omit [Charmap] in
theorem oid_eccKey (d : Bytes) : Post (eccKey d) (fun k => Utf8 k.oid) := by
  unfold eccKey
  run
  exact utf8_of_ascii (ascii_oid _)

omit [Charmap] in
theorem clean_ecc (d : Bytes) : Post (unmarshalEcc d) Clean := by
  unfold unmarshalEcc
  run
  have := oid_eccKey _ _ ‹_›
  intro t ht
  simp only [texts, List.mem_append, List.mem_cons, List.not_mem_nil, or_false, Option.toList_some, List.map_cons, List.map_nil] at ht
  rcases ht with (rfl | rfl) | rfl
  · exact utf8_of_ascii (ascii_decimal _)
  · exact this
  · exact utf8_of_ascii (ascii_decimal _)

/-! ## Driver cards -/

omit [Charmap] in
theorem clean_tachograph {t : Tachograph} : Clean t ↔ Clean t.identification ∧ Clean t.drivingLicenceInfo ∧ Clean t.eventsData
    ∧ Clean t.faultsData ∧ Clean t.vehiclesUsed ∧ Clean t.currentUsage ∧ Clean t.controlActivityData ∧ Clean t.cardCertificate
    ∧ Clean t.caCertificate := by
  cases t
  simp only [clean_mk_Tachograph, and_assoc]

/-- Everything but the vehicle identification numbers. -/
def CleanG2 (t : TachographG2) : Prop :=
  Clean t.identification ∧ Clean t.drivingLicenceInfo ∧ Clean t.eventsData
    ∧ Clean t.faultsData ∧ (∀ s, t.vehiclesUsed = some s → ∀ r ∈ s.data.records, Clean r.base) ∧ Clean t.currentUsage
    ∧ Clean t.controlActivityData ∧ Clean t.cardMaCertificate ∧ Clean t.cardSignCertificate ∧ Clean t.caCertificate
    ∧ Clean t.linkCertificate

omit [Charmap] in
theorem clean_tachographG2 {t : TachographG2} (h : CleanG2 t) :
    Clean t ↔ ∀ s, t.vehiclesUsed = some s → ∀ r ∈ s.data.records, Utf8 r.vin := by
  obtain ⟨a1, a2, a3, a4, a5, a6, a7, a8, a9, a10, a11⟩ := h
  have hv : Clean t.vehiclesUsed ↔ ∀ s, t.vehiclesUsed = some s → ∀ r ∈ s.data.records, Utf8 r.vin := by
    cases hu : t.vehiclesUsed with
    | none => simp
    | some s =>
      have e : Clean s ↔ ∀ r ∈ s.data.records, Clean r := (show Clean s ↔ Clean s.data.records from Iff.rfl).trans clean_list
      rw [clean_some, e]
      constructor
      · rintro h _ ⟨⟩ r hr
        exact (clean_mk_CardVehicleRecordG2.1 (h r hr)).2
      · intro h r hr
        exact clean_mk_CardVehicleRecordG2.2 ⟨a5 s hu r hr, h s rfl r hr⟩
  rw [← hv]
  cases t
  simp only [clean_mk_TachographG2, and_assoc]
  exact ⟨fun h => h.2.2.2.2.1, fun h => ⟨a1, a2, a3, a4, h, a6, a7, a8, a9, a10, a11⟩⟩

/-- What parsing keeps true of the card built so far. -/
def CardInv (c : DriverCard) : Prop :=
  Clean c.icc ∧ Clean (c.tachograph.getD {}) ∧ CleanG2 (c.tachographG2.getD {})

omit [Charmap] in
theorem inv_setG1 {c : DriverCard} {f : Tachograph → Tachograph} (h : CardInv c) (hf : ∀ t, Clean t → Clean (f t)) : CardInv (c.setG1 f) :=
  ⟨h.1, hf _ h.2.1, h.2.2⟩

omit [Charmap] in
theorem inv_setG2 {c : DriverCard} {f : TachographG2 → TachographG2} (h : CardInv c) (hf : ∀ t, CleanG2 t → CleanG2 (f t)) :
    CardInv (c.setG2 f) :=
  ⟨h.1, h.2.1, hf _ h.2.2⟩

omit [Charmap] in
theorem post_byGeneration {α : Type} {g : Generation} {a b : Res α} {P : α → Prop} (h1 : Post a P) (h2 : Post b P) :
    Post (byGeneration g a b) P := by
  cases g
  · exact post_err
  · exact h1
  · exact h2

omit [Charmap] in
theorem Post.use {α : Type} {r : Res α} {P : α → Prop} (hp : Post r P) {a : α} (h : r = .ok a) : P a := hp a h

omit [Charmap] in
theorem post_bind_of {α β : Type} {r : Res α} {k : α → Res β} {Q : α → Prop} {P : β → Prop} (hr : Post r Q)
    (hk : ∀ a, Q a → Post (k a) P) : Post (r >>= k) P := post_bind fun a ha => hk a (hr a ha)

theorem inv_route (c : DriverCard) (file : EF) (gen : Generation) (v : Bytes) (sig : Option Bytes) (h : CardInv c) :
    Post (routeRecord c file gen v sig) CardInv := by
  cases file <;> simp only [routeRecord]
  case' caCertificate =>
    refine post_bind_of (Q := CardInv) ?_ (fun c' hc => post_bind fun _ _ => post_pure hc)
  all_goals (repeat' first
    | with_reducible exact post_err
    | with_reducible exact post_err_bind
    | with_reducible refine post_bind fun _ _ => ?_
    | with_reducible refine post_ite (fun _ => ?_) (fun _ => ?_)
    | with_reducible refine post_byGeneration ?_ ?_
    | with_reducible refine post_pure ?_
    | with_reducible refine post_ok ?_)
  all_goals try with_reducible exact h
  all_goals first
    | with_reducible have e := (clean_icc _).use ‹unmarshalIcc _ = _›
    | with_reducible have e := (clean_identification _).use ‹unmarshalIdentification _ = _›
    | with_reducible have e := (clean_licence _).use ‹unmarshalDrivingLicenceInfo _ = _›
    | with_reducible have e := (clean_events _).use ‹unmarshalEventsData _ = _›
    | with_reducible have e := (clean_vehiclesUsed _).use ‹unmarshalVehiclesUsed _ = _›
    | with_reducible have e := (clean_vehiclesUsedG2 _).use ‹unmarshalVehiclesUsedG2 _ = _›
    | with_reducible have e := (clean_currentUsage _).use ‹unmarshalCurrentUsage _ = _›
    | with_reducible have e := (clean_control _).use ‹unmarshalControlActivity _ = _›
    | with_reducible have e := (clean_rsa _).use ‹unmarshalRsa _ = _›
    | with_reducible have e := (clean_ecc _).use ‹unmarshalEcc _ = _›
    | have e := True.intro
  all_goals first
    | (with_reducible refine inv_setG1 h fun t ht => clean_tachograph.2 ?_
       obtain ⟨a1, a2, a3, a4, a5, a6, a7, a8, a9⟩ := clean_tachograph.1 ht
       refine ⟨?_, ?_, ?_, ?_, ?_, ?_, ?_, ?_, ?_⟩)
    | (with_reducible refine inv_setG2 h fun t ht => ?_
       obtain ⟨a1, a2, a3, a4, a5, a6, a7, a8, a9, a10, a11⟩ := ht
       refine ⟨?_, ?_, ?_, ?_, ?_, ?_, ?_, ?_, ?_, ?_, ?_⟩)
    | exact ⟨clean_some.2 e, h.2.1, h.2.2⟩
    | exact ⟨h.1, h.2.1, h.2.2⟩
  all_goals try assumption
  all_goals first | exact clean_some.2 e | (intro s hs; cases hs; exact e)

theorem inv_loop (rs : List RawRec) (c : DriverCard) (h : CardInv c) : Post (driverCardLoop c rs) CardInv := by
  match rs with
  | [] => exact post_ok h
  | [r] =>
    unfold driverCardLoop
    exact post_ite (fun _ => inv_route _ _ _ _ _ h) (fun _ => post_err)
  | r :: n :: rest =>
    unfold driverCardLoop
    refine post_ite (fun _ => post_ite (fun _ => ?_) (fun _ => ?_)) (fun _ => post_err)
    · exact post_bind fun c' hc => inv_loop rest c' (inv_route _ _ _ _ _ h c' hc)
    · exact post_bind fun c' hc => inv_loop (n :: rest) c' (inv_route _ _ _ _ _ h c' hc)
termination_by rs.length

omit [Charmap] in
theorem inv_clean {c : DriverCard} (h : CardInv c) : Clean c ↔ ∀ r ∈ gen2Vehicles c, Utf8 r.vin := by
  obtain ⟨h1, h2, h3⟩ := h
  obtain ⟨i, j, t1, t2⟩ := c
  rw [clean_mk_DriverCard]
  have e1 : Clean t1 := by
    cases t1 with
    | none => exact clean_none
    | some t => exact clean_some.2 h2
  cases t2 with
  | none => simp [gen2Vehicles, h1, e1, show Clean i from h1]
  | some t =>
    rw [clean_some, clean_tachographG2 (show CleanG2 t from h3)]
    simp only [show Clean i from h1, e1, true_and, and_self, gen2Vehicles, Option.toList_some, List.flatMap_cons, List.flatMap_nil,
      List.append_nil]
    cases t.vehiclesUsed <;> simp

/-- C43: the text of a parsed driver card is valid UTF-8 exactly if its Gen2 vehicle identification
numbers are. -/
theorem driver_card_text_iff (rs : List RawRec) (c : DriverCard) (h : unmarshalDriverCard rs = .ok c) :
    (∀ t ∈ texts c, Utf8 t) ↔ ∀ r ∈ gen2Vehicles c, Utf8 r.vin := by
  refine inv_clean (inv_loop rs {} ⟨clean_none, ?_, ?_⟩ c h)
  · exact clean_tachograph.2 (by simp)
  · exact ⟨clean_none, clean_none, clean_none, clean_none, (fun _ h => by cases h), clean_none, clean_none, clean_none, clean_none, clean_none, clean_none⟩

/-! ## Vehicle unit files -/

theorem clean_overview (d : Bytes) : Post (unmarshalOverviewGen1 d) Clean := by
  have hl : ∀ o, Post (companyLockAt d o) Clean := by
    intro o
    unfold companyLockAt
    run
    rename_i h1 _ _ _ h2 _ _ _ h3
    simp [clean_string h1, clean_string h2, clean_cardNumber _ _ h3]
  have hc : ∀ o, Post (controlActivityAt d o) Clean := by
    intro o
    unfold controlActivityAt
    run
    simp [clean_cardNumber _ _ ‹_›]
  unfold unmarshalOverviewGen1
  dsimp only
  run
  have l := post_loopAt hl ‹loopAt (companyLockAt d) _ _ _ = _›
  have k := post_loopAt hc ‹loopAt (controlActivityAt d) _ _ _ = _›
  rw [clean_list] at l k
  simp [clean_ia5 ‹_›, clean_registration _ _ ‹_›, clean_cardNumber _ _ ‹_›, clean_string ‹_›]
  exact ⟨l, k⟩

theorem clean_activities (d : Bytes) : Post (unmarshalActivitiesGen1 d) Clean := by
  have hi : ∀ o, Post (cardIWAt d o) Clean := by
    intro o
    unfold cardIWAt
    refine post_ite (fun _ => post_err_bind) fun _ => post_bind fun _ _ => clean_iw _
  unfold unmarshalActivitiesGen1
  dsimp only
  run
  have l := post_loopAt hi ‹loopAt (cardIWAt d) _ _ _ = _›
  rw [clean_mk_ActivitiesGen1]
  exact l

theorem clean_vuGen1 (rs : List VuRec) (out : VuGen1) (h : Clean out) : Post (unmarshalVuGen1 out rs) Clean := by
  induction rs generalizing out with
  | nil => exact post_ok h
  | cons r rs ih =>
    unfold unmarshalVuGen1
    have h' := clean_mk_VuGen1.1 h
    dsimp only
    split
    · refine post_bind fun x hx => ih _ ?_
      exact clean_mk_VuGen1.2 ⟨clean_some.2 (clean_overview _ _ hx), h'.2⟩
    · refine post_bind fun x hx => ih _ (clean_mk_VuGen1.2 ⟨h'.1, ?_⟩)
      have h2 := clean_list.1 h'.2
      rw [clean_list]
      intro y hy
      rcases List.mem_append.1 hy with hy | hy
      · exact h2 y hy
      · rw [List.mem_singleton] at hy
        exact hy ▸ clean_activities _ _ hx
    · exact post_bind fun x hx => ih _ (clean_mk_VuGen1.2 h')
    · exact post_bind fun x hx => ih _ (clean_mk_VuGen1.2 h')
    · exact post_bind fun x hx => ih _ (clean_mk_VuGen1.2 h')
    · exact post_err_bind

/-- C43: the text of a parsed vehicle unit file is valid UTF-8. -/
theorem vehicle_unit_text (d : Bytes) (f : VehicleUnitFile) (h : unmarshalVehicleUnitFile d = .ok f) : ∀ t ∈ texts f, Utf8 t := by
  revert f
  suffices hp : Post (unmarshalVehicleUnitFile d) Clean from hp
  unfold unmarshalVehicleUnitFile
  refine post_bind fun rs _ => ?_
  split
  · exact post_err
  · split
    · refine post_bind fun x hx => post_pure ?_
      exact clean_mk_VehicleUnitFile.2 (clean_some.2 (clean_vuGen1 _ _ (clean_mk_VuGen1.2 ⟨clean_none, by simp⟩) x hx))
    · refine post_ite (fun _ => ?_) (fun _ => ?_)
      · exact post_bind fun x hx => post_pure (clean_mk_VehicleUnitFile.2 clean_none)
      · exact post_bind fun x hx => post_pure (clean_mk_VehicleUnitFile.2 clean_none)
    · exact post_err

/-- C43: the text of any parsed file is valid UTF-8 exactly if the vehicle identification numbers of its
Gen2 vehicle records are. -/
theorem file_text_iff (d : Bytes) (f : File) (h : unmarshalFile d = .ok f) :
    (∀ t ∈ texts f, Utf8 t) ↔ ∀ r ∈ fileGen2Vehicles f, Utf8 r.vin := by
  revert f
  suffices hp : Post (unmarshalFile d) (fun f => (∀ t ∈ texts f, Utf8 t) ↔ ∀ r ∈ fileGen2Vehicles f, Utf8 r.vin) from hp
  unfold unmarshalFile
  run
  · have := vehicle_unit_text _ _ ‹_›
    refine ⟨fun _ r hr => by simp [fileGen2Vehicles] at hr, fun _ => ?_⟩
    exact clean_append.2 ⟨clean_some.2 this, clean_none⟩
  · have := driver_card_text_iff _ _ ‹_›
    rw [show fileGen2Vehicles _ = _ from List.append_nil _, ← this]
    exact clean_append.trans ⟨fun h => clean_some.1 h.2, fun h => ⟨clean_none, clean_some.2 h⟩⟩
  · refine ⟨fun _ r hr => by simp [fileGen2Vehicles] at hr, fun _ => ?_⟩
    exact clean_append.2 ⟨clean_none, clean_none⟩

/-- A card file of two records: an ICC file and a Gen2 list of vehicles with one vehicle whose VIN field is
unset (all FF). -/
def Spec.unsetVinCard : List Tlv :=
  [⟨0x00, 0x02, 0x00, List.replicate 25 0⟩, ⟨0x05, 0x05, 0x02, [0, 0] ++ unsetVinRecord⟩]

/-- C43 is false of the code for whole files: this one is accepted as a driver card, and holds a string that
is not valid UTF-8. -/
theorem file_text_not_utf8 : ∃ f, unmarshalFile (fileBytes unsetVinCard) = .ok f ∧ f.type = .driverCard ∧
    ¬ ∀ t ∈ texts f, Utf8 t := by
  obtain ⟨v, hv, hn⟩ := cardVehicleG2_vin_not_utf8
  obtain ⟨i, hi⟩ := (icc_accepts_iff (List.replicate 25 0)).2
    ⟨by decide, ⟨0, by decide, known_iff.2 ⟨_, rfl⟩⟩, ⟨0, by decide, known_iff.2 ⟨_, rfl⟩⟩⟩
  have hc : cut 48 unsetVinRecord = [unsetVinRecord] := by
    rw [cut_cons (by omega) (by decide), cut_nil (by decide)]
    decide
  have hu : unmarshalVehiclesUsedG2 ([0, 0] ++ unsetVinRecord) =
      .ok { rawData := some ([0, 0] ++ unsetVinRecord), newest := 0, records := [v] } := by
    have h1 : sl? ([0, 0] ++ unsetVinRecord) 0 2 = .ok [0, 0] := by decide
    have h2 : from? ([0, 0] ++ unsetVinRecord) 2 = .ok unsetVinRecord := by decide
    simp only [unmarshalVehiclesUsedG2, h1, h2, Res.bind_ok, hc, mapRes, hv, Res.pure_eq]
    rfl
  have hd : unmarshalDriverCard (unsetVinCard.map Tlv.record) = .ok
      { icc := some i, tachographG2 := some { vehiclesUsed := some ⟨
        { rawData := some ([0, 0] ++ unsetVinRecord), newest := 0, records := [v] }, none⟩ } } := by
    have e1 : unsetVinCard.map Tlv.record = [⟨0x000200, .icc, .gen1, .data, 25, List.replicate 25 0⟩,
      ⟨0x050502, .vehiclesUsed, .gen2, .data, 50, [0, 0] ++ unsetVinRecord⟩] := by decide +kernel
    rw [e1]
    generalize (List.replicate 25 0 : Bytes) = iv at hi ⊢
    generalize [0, 0] ++ unsetVinRecord = vv at hu ⊢
    unfold unmarshalDriverCard driverCardLoop
    simp [routeRecord, hi, unsignedOnly, driverCardLoop, byGeneration, hu, DriverCard.setG2]
  have hf : unmarshalFile (fileBytes unsetVinCard) = .ok { type := .driverCard, driverCard := some _ } :=
    (file_iff _ _).2 (.inr ⟨_, _, rfl, parse_fileBytes unsetVinCard (by decide), .inl ⟨by decide, _, hd, rfl⟩⟩)
  refine ⟨_, hf, rfl, fun h => hn ((file_text_iff _ _ hf).1 h v ?_)⟩
  simp [fileGen2Vehicles, gen2Vehicles]

end

end Tacho
