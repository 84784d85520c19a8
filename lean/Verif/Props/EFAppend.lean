import Verif.Props.ScannedFiles
import Verif.Props.RecordFiles
import Verif.Props.CardFiles
import Verif.Props.CardHolder
import Verif.Props.Identification
import Verif.Props.ActivityRebuild
import Verif.Lemmas.NoPanic
/-!
# EF writers extend their destination (C22)
-/

namespace Tacho
open Spec

/-- The outcome does not depend on the destination, which is only extended. Unlike `Appends` this allows
a panic. -/
def Spec.Uniform (f : Bytes → Res Bytes) : Prop := ∀ dst, f dst = (f [] >>= fun e => .ok (dst ++ e))

theorem Spec.Appends.uniform {f : Bytes → Res Bytes} (h : Appends f) : Uniform f := by
  intro dst
  rcases h with ⟨e, _, h⟩ | ⟨m, h⟩ <;> rw [h, h] <;> simp

theorem stringValue_appends (s : Option StringValue) : Appends (appendStringValue · s) := (appendStringValue_size s).appends

theorem ia5_appends (s : Option Ia5StringValue) : Appends (appendIa5StringValue · s) := (appendIa5StringValue_size s).appends

theorem timeReal_appends (t : Option Timestamp) : Appends (appendTimeReal · t) := (appendTimeReal_exact t).appends

theorem registration_appends (v : Option VehicleRegistration) : Appends (appendVehicleRegistration · v) :=
  (appendVehicleRegistration_size v).appends

theorem appends_const (e : Bytes) : Appends (fun dst => .ok (dst ++ e)) := Or.inl ⟨e, trivial, fun _ => rfl⟩

theorem appends_nothing : Appends (fun dst => .ok dst) := Or.inl ⟨[], trivial, fun dst => by simp⟩

/-- A value computed first, without looking at the destination. -/
theorem appends_pre {α : Type} {r : Res α} {f : α → Bytes → Res Bytes} (hp : r ≠ .panic) (h : ∀ a, Appends (f a)) :
    Appends (fun dst => r >>= fun a => f a dst) := by
  cases r with
  | ok a => exact h a
  | err m => exact Or.inr ⟨m, fun _ => rfl⟩
  | panic => exact absurd rfl hp

/-- Some bytes, then another writer. -/
theorem appends_after {f : Bytes → Res Bytes} (e : Bytes) (h : Appends f) : Appends (fun dst => f (dst ++ e)) := by
  rcases h with ⟨e', _, h⟩ | ⟨m, h⟩
  · exact Or.inl ⟨e ++ e', trivial, fun dst => by dsimp only; rw [h]; simp⟩
  · exact Or.inr ⟨m, fun dst => h _⟩

/-- A writer, then some bytes. -/
theorem appends_before {f : Bytes → Res Bytes} (e : Bytes) (h : Appends f) : Appends (fun dst => f dst >>= fun d => .ok (d ++ e)) :=
  appends_seq h (appends_const e)

/-- C22: EF_Card_Download. -/
theorem appendCardDownload_appends (c : Option CardDownload) : Appends (appendCardDownload · c) := by
  cases c with
  | none => exact appends_nothing
  | some c => exact timeReal_appends c.timestamp

/-- C22: EF_IC. -/
theorem appendCardIc_appends (c : Option Ic) : Appends (appendCardIc · c) := by
  cases c with
  | none => exact appends_nothing
  | some c => exact (appendCardIc_exact c).appends

theorem appendEmbedderId_appends (e : Option EmbedderId) : Appends (appendEmbedderId · e) := by
  cases e with
  | none => exact appends_const _
  | some e => exact appends_seq (ia5_appends _) (appends_before [i2b e.manufacturerInformation] (ia5_appends _))

theorem appendSerialAsString_appends (e : Option ExtendedSerialNumber) : Appends (appendExtendedSerialNumberAsString · e) := by
  cases e with
  | none => exact Or.inr ⟨_, fun _ => rfl⟩
  | some e =>
    unfold appendExtendedSerialNumberAsString
    dsimp only
    refine appends_pre ((appendMonthYear_exact _).ne_panic []) fun my => appends_pre ?_ fun t => appends_const _
    split
    · exact marshalEnum_ne_panic _ _
    · simp

/-- C22: EF_ICC. -/
theorem appendIcc_appends (m : Icc) : Appends (appendIcc · m) := by
  unfold appendIcc
  dsimp only
  refine appends_pre (marshalEnum_ne_panic _ _) fun c => appends_after [c] (appends_seq (appendSerialAsString_appends _)
    (appends_seq (ia5_appends _) ?_))
  exact appends_after (f := fun d => appendEmbedderId d m.embedder >>= fun d => .ok (d ++ m.icIdentifier)) [i2b m.personaliserId]
    (appends_before m.icIdentifier (appendEmbedderId_appends _))

/-- C22: EF_Application_Identification (Gen1). -/
theorem appendAppId_appends (m : Option AppId) : Appends (appendAppId · m) := by
  cases m with
  | none => exact appends_nothing
  | some m => exact (appendAppId_exact m).appends

/-- C22: EF_Application_Identification (Gen2). -/
theorem appendAppIdG2_appends (m : Option AppIdG2) : Appends (appendAppIdG2 · m) := by
  cases m with
  | none => exact appends_nothing
  | some m => exact (appendAppIdG2_exact m).appends

/-- C22: EF_Application_Identification_V2. -/
theorem appendAppIdV2_appends (m : Option AppIdV2) : Appends (appendAppIdV2 · m) := by
  cases m with
  | none => exact appends_nothing
  | some m => exact Or.inl ⟨[i2b m.borderCrossings, i2b m.loadUnload, i2b m.loadTypes, i2b m.vuConfigurationLength], trivial,
      fun dst => by simp [appendAppIdV2]⟩

/-- C22: EF_Current_Usage. -/
theorem appendCurrentUsage_appends (m : Option CurrentUsage) : Appends (appendCurrentUsage · m) := by
  cases m with
  | none => exact appends_nothing
  | some m =>
    refine appends_seq (timeReal_appends _) ?_
    cases m.vehicle with
    | none => exact appends_const _
    | some v => exact registration_appends _

/-- C22: EF_Driving_Licence_Info. -/
theorem appendDrivingLicence_appends (m : Option DrivingLicenceInfo) : Appends (appendDrivingLicenceInfo · m) := by
  cases m with
  | none => exact appends_nothing
  | some m =>
    exact appends_seq (stringValue_appends _)
      (appends_pre (marshalEnum_ne_panic _ _) fun b => appends_after [b] (ia5_appends _))

/-- C22: EF_Control_Activity_Data. -/
theorem appendControlActivity_appends (m : Option ControlActivity) : Appends (appendControlActivity · m) := by
  cases m with
  | none => exact appends_nothing
  | some m =>
    unfold appendControlActivity
    dsimp only
    split
    · split <;> exact appends_const _
    · exact appends_seq (appends_after _ (timeReal_appends _)) (appends_seq (appendFullCardNumberAsString_appends _)
        (appends_seq (registration_appends _) (appends_seq (timeReal_appends _) (timeReal_appends _))))

theorem appendCardIdentification_appends (m : Option CardIdent) : Appends (appendCardIdentification · m) := by
  cases m with
  | none => exact appends_nothing
  | some m =>
    unfold appendCardIdentification
    dsimp only
    split
    · exact Or.inr ⟨_, fun _ => rfl⟩
    · simp only [Bind.bind, Res.bind]
      refine appends_pre (marshalEnum_ne_panic _ _) fun b => ?_
      exact appends_seq (by simpa only [List.append_assoc] using appends_after ([b] ++ cardNumberBytes m) (stringValue_appends m.authority))
        (appends_seq (timeReal_appends _) (appends_seq (timeReal_appends _) (timeReal_appends _)))

theorem appendDriverHolder_appends (m : Option DriverHolder) : Appends (appendDriverHolder · m) := by
  cases m with
  | none => exact appends_nothing
  | some m =>
    unfold appendDriverHolder
    dsimp only
    refine appends_pre ((stringValue_appends _).ne_panic []) fun n => appends_pre ((stringValue_appends _).ne_panic n) fun n2 => ?_
    refine appends_seq ?_ (ia5_appends _)
    cases m.birthDate with
    | none => exact appends_after n2 (appends_const _)
    | some d => exact appends_after n2 (appendDate_exact d).appends

/-- C22: EF_Identification. -/
theorem appendIdentification_appends (m : Identification) : Appends (appendIdentification · m) :=
  appends_pre ((appendCardIdentification_appends _).ne_panic []) fun v =>
    appends_pre ((appendDriverHolder_appends _).ne_panic v) fun _ => appends_const _

/-- C22: EF_Vehicles_Used, both generations. -/
theorem appendVehiclesUsed_appends (m : RecordFile CardVehicleRecord) : Appends (appendVehiclesUsed · (some m)) :=
  (appendVehiclesUsed_exact m).appends

/-- C22: EF_Vehicles_Used, Gen2. -/
theorem appendVehiclesUsedG2_appends (m : RecordFile CardVehicleRecordG2) : Appends (appendVehiclesUsedG2 · (some m)) :=
  (appendVehiclesUsedG2_exact m).appends

/-- C22: EF_Places. -/
theorem appendPlaces_appends (m : RecordFile PlaceRecord) : Appends (appendPlaces · (some m)) :=
  (appendPlaces_exact m).appends

/-- C22: EF_Places, Gen2. -/
theorem appendPlacesG2_appends (m : RecordFile PlaceRecordG2) : Appends (appendPlacesG2 · (some m)) :=
  (appendPlacesG2_exact m).appends

/-- C22: EF_Specific_Conditions. -/
theorem appendSpecificConditions_appends (m : RecordFile SpecificConditionRecord) : Appends (appendSpecificConditions · (some m)) :=
  (appendSpecificConditions_exact m).appends

/-- C22: EF_GNSS_Places. -/
theorem appendGnssPlaces_appends (m : Int × List GnssPlaceEntry) : Appends (appendGnssPlaces · (some m)) :=
  (appendGnssPlaces_exact m.1 m.2).appends

/-- C22: EF_Vehicle_Units_Used. -/
theorem appendVehicleUnits_appends (m : Int × List VehicleUnitRecord) : Appends (appendVehicleUnitsUsed · (some m)) :=
  (appendVehicleUnitsUsed_exact m.1 m.2).appends

theorem conditions_fallback_appends (m : RecordFile SpecificConditionRecord) :
    Appends (fun dst => appendEach (fun d r => appendSpecificConditionRecord d (some r)) (dst ++ beBytes 2 (low 16 m.newest)) m.records) :=
  appends_after _ (appendEach_appends fun r _ => (appendSpecificConditionRecord_exact (some r)).appends)

theorem paintConditionsG2_np (rs : List SpecificConditionRecord) : ∀ canvas off, paintConditionsG2 canvas off rs ≠ .panic := by
  induction rs with
  | nil => intro c o; simp [paintConditionsG2]
  | cons r rs ih =>
    intro c o
    rw [paintConditionsG2]
    refine np_ite (fun _ => by simp) fun _ => np_call ((appendSpecificConditionRecord_exact (some r)).ne_panic []) fun b => ?_
    exact np_guard fun _ => ih _ _

/-- C22: EF_Specific_Conditions, Gen2, except when the raw data is exactly one byte long. -/
theorem appendSpecificConditionsG2_appends (m : RecordFile SpecificConditionRecord) (h : (m.rawData.getD []).length ≠ 1) :
    Appends (appendSpecificConditionsG2 · (some m)) := by
  unfold appendSpecificConditionsG2
  dsimp only
  split
  · rw [sl?_ok (by omega) (by omega)]
    refine appends_pre (by simp) fun _ => appends_pre (paintConditionsG2_np _ _ _) fun o => ?_
    cases o with
    | none => exact conditions_fallback_appends m
    | some c => exact appends_const _
  · exact conditions_fallback_appends m

/-- C22: with exactly one byte of raw data that writer panics. -/
theorem appendSpecificConditionsG2_one_byte (m : RecordFile SpecificConditionRecord) (h : (m.rawData.getD []).length = 1) (dst : Bytes) :
    appendSpecificConditionsG2 dst (some m) = .panic := by
  unfold appendSpecificConditionsG2
  dsimp only
  rw [if_pos (by omega)]
  have : sl? (m.rawData.getD []) 0 2 = .panic := by
    rw [sl?, if_neg (by omega)]
  rw [this]; rfl

theorem appendSpecificConditionsG2_uniform (m : RecordFile SpecificConditionRecord) : Uniform (appendSpecificConditionsG2 · (some m)) := by
  by_cases h : (m.rawData.getD []).length = 1
  · intro dst
    dsimp only
    rw [appendSpecificConditionsG2_one_byte m h, appendSpecificConditionsG2_one_byte m h]; rfl
  · exact (appendSpecificConditionsG2_appends m h).uniform

/-! ## Driver activity -/

theorem appendChanges_appends (cs : List ActivityChangeInfo) : Appends (appendChanges · cs) := by
  induction cs with
  | nil => exact appends_nothing
  | cons c cs ih => exact appends_seq (appendActivityChangeInfo_exact c).appends ih

theorem marshalRecord_np (r : DailyRecord) (p c : Nat) : marshalRecordWithHeader r p c ≠ .panic := by
  unfold marshalRecordWithHeader
  dsimp only
  refine np_call ((timeReal_appends _).ne_panic _) fun b => np_call ((appendBcdString_size _).ne_panic b) fun b2 => ?_
  exact np_call ((appendChanges_appends _).ne_panic _) fun _ => np_pure

theorem recordSizes_np (rs : List DailyRecord) : recordSizes rs ≠ .panic := by
  induction rs with
  | nil => simp [recordSizes]
  | cons r rs ih =>
    rw [recordSizes]
    refine np_call ?_ fun _ => np_call ih fun _ => np_pure
    split
    · simp
    · split <;> simp

theorem recordSizes_length {rs : List DailyRecord} {ss : List Nat} (h : recordSizes rs = .ok ss) : ss.length = rs.length := by
  induction rs generalizing ss with
  | nil => simp only [recordSizes, Res.ok.injEq] at h; simp [← h]
  | cons r rs ih =>
    rw [recordSizes, bind_eq_ok] at h
    obtain ⟨s, _, h⟩ := h
    rw [bind_eq_ok] at h
    obtain ⟨ss', h1, h2⟩ := h
    simp only [Res.pure_eq, Res.ok.injEq] at h2
    simp [← h2, ih h1]

theorem writeRecords_np (xs : List (DailyRecord × Nat)) : ∀ (buffer : Bytes) (pos prev : Nat),
    pos + (xs.map Prod.snd).sum ≤ buffer.length → writeRecords buffer pos prev xs ≠ .panic := by
  induction xs with
  | nil => intro b p q _; simp [writeRecords]
  | cons x xs ih =>
    obtain ⟨r, s⟩ := x
    intro b p q h
    simp only [List.map_cons, List.sum_cons] at h
    rw [writeRecords]
    refine np_call ?_ fun e => np_from (by omega) fun _ _ => ih _ _ _ ?_
    · split
      · exact marshalRecord_np _ _ _
      · simp
    · rw [paint_length (by omega)]; omega

theorem buildCyclicBuffer_np (rs : List DailyRecord) : buildCyclicBuffer rs ≠ .panic := by
  unfold buildCyclicBuffer
  refine np_ite (fun _ => by simp) fun _ => ?_
  cases h : recordSizes rs with
  | panic => exact absurd h (recordSizes_np rs)
  | err m => simp
  | ok ss =>
    rw [Res.bind_ok]
    apply writeRecords_np
    rw [List.map_snd_zip (by rw [recordSizes_length h]; exact Nat.le_refl _), zeros_length]
    omega

/-- C22: EF_Driver_Activity_Data. -/
theorem appendDriverActivity_appends (m : Option DriverActivityData) : Appends (appendDriverActivity · m) := by
  cases m with
  | none => exact appends_nothing
  | some m =>
    unfold appendDriverActivity
    dsimp only
    split
    · exact Or.inl ⟨beBytes 2 (low 16 m.oldest) ++ (beBytes 2 (low 16 m.newest) ++ m.rawData.getD []), trivial,
        fun dst => by simp only [Res.pure_eq, List.append_assoc]⟩
    · simp only [List.append_assoc]
      exact appends_pre (buildCyclicBuffer_np _) fun b =>
        Or.inl ⟨beBytes 2 (low 16 m.oldest) ++ (beBytes 2 (low 16 m.newest) ++ b), trivial,
          fun dst => by simp only [Res.pure_eq, List.append_assoc]⟩

end Tacho
