import Verif.Spec.NullEntries
import Verif.Props.CardWritable
/-!
# Nil entries in the lists of a message (C91)
-/

namespace Tacho
open Spec

theorem zeroPlace_eq : zeroPlace = emptyPlace := rfl
theorem zeroPlaceG2_eq : zeroPlaceG2 = emptyPlaceG2 := rfl
theorem zeroVehicle_eq : zeroVehicle = emptyVehicle := rfl
theorem zeroVehicleG2_eq : zeroVehicleG2 = emptyVehicleG2 := rfl
theorem zeroEvent_eq : zeroEvent = emptyEvent := rfl
theorem zeroChange_eq : zeroChange = emptyChange := rfl
theorem zeroRawRec_eq : zeroRawRec = emptyRawRec := rfl
theorem days_eq (rs : List (Option DailyRecordN)) :
    (rs.map fun r => (r.map filledDay).getD zeroDay) = (filled emptyDayN rs).map filledDay := by
  rw [filled, List.map_map]
  exact List.map_congr_left fun r _ => by cases r <;> rfl

theorem appendEach_map {α β : Type} (f : Bytes → β → Res Bytes) (g : α → β) (xs : List α) : ∀ dst,
    appendEach (fun d x => f d (g x)) dst xs = appendEach f dst (xs.map g) := by
  induction xs with
  | nil => intro dst; rfl
  | cons x xs ih =>
    intro dst
    simp only [appendEach, List.map_cons]
    congr 1; funext d; exact ih d

theorem appendEachNew_map {α β : Type} (f : Bytes → β → Res Bytes) (g : α → β) (xs : List α) : ∀ dst,
    appendEachNew (fun d x => f d (g x)) dst xs = appendEachNew f dst (xs.map g) := by
  induction xs with
  | nil => intro dst; rfl
  | cons x xs ih =>
    intro dst
    simp only [appendEachNew, List.map_cons]
    congr 1; funext d; exact ih _

theorem paintEach_map {α β : Type} (f : Bytes → β → Res Bytes) (g : α → β) (n : Nat) (xs : List α) : ∀ c off,
    paintEach (fun d x => f d (g x)) n c off xs = paintEach f n c off (xs.map g) := by
  induction xs with
  | nil => intro c off; rfl
  | cons x xs ih =>
    intro c off
    simp only [paintEach, List.map_cons]
    congr 1; funext d; congr 1; exact ih _ _

theorem appendRecordFile2_map {α β : Type} (f : Bytes → β → Res Bytes) (g : α → β) (n : Nat) (dst : Bytes) (v : RecordFile α) :
    appendRecordFile2 (fun d x => f d (g x)) n dst (some v) = appendRecordFile2 f n dst (some (withRecords (List.map g) v)) := by
  simp only [appendRecordFile2, withRecords, List.length_map, paintEach_map f g, appendEachNew_map f g]

theorem appendEach_skip {α : Type} (f : Bytes → α → Res Bytes) (xs : List (Option α)) : ∀ dst,
    appendEach (fun d r => match r with | none => .ok d | some r => f d r) dst xs = appendEach f dst (present xs) := by
  induction xs with
  | nil => intro dst; rfl
  | cons x xs ih =>
    intro dst
    cases x with
    | none => exact ih dst
    | some x =>
      simp only [present, List.filterMap_cons, id, appendEach]
      congr 1; funext d; exact ih d

theorem places_filled (dst : Bytes) (p : RecordFile (Option PlaceRecord)) :
    appendPlacesN dst (some p) = appendPlaces dst (some (withRecords (filled emptyPlace) p)) := by
  simp only [appendPlacesN, appendPlaces, withRecords, filled, List.length_map]
  rw [show appendPlaceRecordN = fun d (r : Option PlaceRecord) => appendPlaceRecord d (r.getD emptyPlace) from rfl,
    appendEachNew_map appendPlaceRecord (fun r : Option PlaceRecord => r.getD emptyPlace)]
  simp only [paintEach_map appendPlaceRecord (fun r : Option PlaceRecord => r.getD emptyPlace)]

theorem placesG2_filled (dst : Bytes) (p : RecordFile (Option PlaceRecordG2)) :
    appendPlacesG2N dst (some p) = appendPlacesG2 dst (some (withRecords (filled emptyPlaceG2) p)) :=
  appendRecordFile2_map appendPlaceRecordG2 (fun r : Option PlaceRecordG2 => r.getD emptyPlaceG2) 21 dst p

theorem vehicles_filled (dst : Bytes) (p : RecordFile (Option CardVehicleRecord)) :
    appendVehiclesUsedN dst (some p) = appendVehiclesUsed dst (some (withRecords (filled emptyVehicle) p)) :=
  appendRecordFile2_map appendCardVehicleRecord (fun r : Option CardVehicleRecord => r.getD emptyVehicle) 31 dst p

theorem vehiclesG2_filled (dst : Bytes) (p : RecordFile (Option CardVehicleRecordG2)) :
    appendVehiclesUsedG2N dst (some p) = appendVehiclesUsedG2 dst (some (withRecords (filled emptyVehicleG2) p)) :=
  appendRecordFile2_map appendCardVehicleRecordG2 (fun r : Option CardVehicleRecordG2 => r.getD emptyVehicleG2) 48 dst p

theorem events_filled (dst : Bytes) (rs : List (Option EventRecord)) :
    appendEventsDataN dst rs = appendEventsData dst (filled emptyEvent rs) :=
  appendEach_map appendEventRecord (fun r : Option EventRecord => r.getD emptyEvent) rs dst

theorem gnss_present (dst : Bytes) (g : Int × List (Option GnssPlaceEntry)) :
    appendGnssPlacesN dst (some g) = appendGnssPlaces dst (some (g.1, present g.2)) := by
  simp only [appendGnssPlacesN, appendGnssPlaces, ← appendEach_skip]
  congr 1; funext d r; cases r <;> rfl

theorem units_present (dst : Bytes) (g : Int × List (Option VehicleUnitRecord)) :
    appendVehicleUnitsUsedN dst (some g) = appendVehicleUnitsUsed dst (some (g.1, present g.2)) := by
  simp only [appendVehicleUnitsUsedN, appendVehicleUnitsUsed, ← appendEach_skip]
  congr 1; funext d r; cases r <;> rfl

theorem appendChanges_each (cs : List ActivityChangeInfo) : ∀ dst, appendChanges dst cs = appendEach appendActivityChangeInfo dst cs := by
  induction cs with
  | nil => intro dst; rfl
  | cons c cs ih => intro dst; simp only [appendChanges, appendEach]; congr 1; funext d; exact ih d

theorem day_filled (r : DailyRecordN) (p c : Nat) : marshalRecordWithHeaderN r p c = marshalRecordWithHeader (filledDay r) p c := by
  simp only [marshalRecordWithHeaderN, marshalRecordWithHeader, filledDay, zeroChange_eq, appendChanges_each, filled,
    appendEach_map appendActivityChangeInfo (fun c : Option ActivityChangeInfo => c.getD emptyChange)]

theorem size_filled (r : DailyRecordN) : calculateRecordSizeN r = calculateRecordSize (filledDay r) := by
  simp only [calculateRecordSizeN, calculateRecordSize, filledDay, filled, List.length_map]

theorem sizes_filled (rs : List (Option DailyRecordN)) : recordSizesN rs = recordSizes ((filled emptyDayN rs).map filledDay) := by
  induction rs with
  | nil => rfl
  | cons r rs ih =>
    simp only [recordSizesN, filled, List.map_cons, recordSizes, size_filled]
    rw [ih]; rfl

theorem writeRecords_filled (rs : List (Option DailyRecordN)) : ∀ (ss : List Nat) (b : Bytes) (pos prev : Nat),
    writeRecordsN b pos prev (rs.zip ss) = writeRecords b pos prev (((filled emptyDayN rs).map filledDay).zip ss) := by
  induction rs with
  | nil => intro ss b pos prev; rfl
  | cons r rs ih =>
    intro ss b pos prev
    cases ss with
    | nil => rfl
    | cons s ss =>
      simp only [List.zip_cons_cons, writeRecordsN, filled, List.map_cons, writeRecords, day_filled]
      congr 1; funext x; congr 1; funext _; exact ih _ _ _ _

theorem activity_filled (dst : Bytes) (a : DriverActivityDataN) :
    appendDriverActivityN dst (some a) = appendDriverActivity dst (some (filledActivity a)) := by
  simp only [appendDriverActivityN, appendDriverActivity, filledActivity, days_eq, buildCyclicBuffer, sizes_filled, writeRecords_filled,
    filled, List.length_map]

theorem present_of_no_nil {α : Type} {rs : List (Option α)} (h : none ∉ rs) : rs = (present rs).map some := by
  induction rs with
  | nil => rfl
  | cons r rs ih =>
    cases r with
    | none => simp at h
    | some r =>
      simp only [List.mem_cons, reduceCtorEq, false_or] at h
      simp only [present, List.filterMap_cons, id, List.map_cons]
      exact congrArg _ (ih h)

theorem conditions_some (dst : Bytes) (raw : Option Bytes) (n : Int) (ys : List SpecificConditionRecord) :
    appendSpecificConditionsN dst (some ⟨raw, n, ys.map some⟩) = appendSpecificConditions dst (some ⟨raw, n, ys⟩) := by
  simp only [appendSpecificConditionsN, appendSpecificConditions, List.length_map,
    paintEach_map appendSpecificConditionRecord some, appendEach_map appendSpecificConditionRecord some]

theorem conditions_present (dst : Bytes) (c : RecordFile (Option SpecificConditionRecord)) (h : none ∉ c.records) :
    appendSpecificConditionsN dst (some c) = appendSpecificConditions dst (some (withRecords present c)) := by
  rw [withRecords, ← conditions_some, ← present_of_no_nil h]

theorem paintConditions_some (rs : List SpecificConditionRecord) : ∀ c off,
    paintConditionsG2N c off (rs.map some) = paintConditionsG2 c off rs := by
  induction rs with
  | nil => intro c off; rfl
  | cons r rs ih =>
    intro c off
    simp only [List.map_cons, paintConditionsG2N, paintConditionsG2, ih]

theorem conditionsG2_some (dst : Bytes) (raw : Option Bytes) (n : Int) (ys : List SpecificConditionRecord) :
    appendSpecificConditionsG2N dst (some ⟨raw, n, ys.map some⟩) = appendSpecificConditionsG2 dst (some ⟨raw, n, ys⟩) := by
  simp only [appendSpecificConditionsG2N, appendSpecificConditionsG2, paintConditions_some,
    appendEach_map appendSpecificConditionRecord some]
  split
  · rfl
  · rfl

theorem conditionsG2_present (dst : Bytes) (c : RecordFile (Option SpecificConditionRecord)) (h : none ∉ c.records) :
    appendSpecificConditionsG2N dst (some c) = appendSpecificConditionsG2 dst (some (withRecords present c)) := by
  rw [withRecords, ← conditionsG2_some, ← present_of_no_nil h]

theorem appendTlv_changed {α β : Type} (dst : Bytes) (file : EF) (m : Option (Signed α)) (g : α → β)
    (f : Bytes → α → Res Bytes) (f' : Bytes → β → Res Bytes) (h : ∀ s, m = some s → ∀ d, f d s.data = f' d (g s.data)) :
    appendTlv dst file m (fun d s => f d s.data) = appendTlv dst file (m.map (changed g)) (fun d s => f' d s.data) := by
  cases m with
  | none => rfl
  | some s => simp only [appendTlv, Option.map_some, changed, h s rfl]

theorem appendTlvG2_changed {α β : Type} (dst : Bytes) (file : EF) (m : Option (Signed α)) (g : α → β)
    (f : Bytes → α → Res Bytes) (f' : Bytes → β → Res Bytes) (h : ∀ s, m = some s → ∀ d, f d s.data = f' d (g s.data)) :
    appendTlvG2 dst file m (fun d s => f d s.data) = appendTlvG2 dst file (m.map (changed g)) (fun d s => f' d s.data) := by
  cases m with
  | none => rfl
  | some s => simp only [appendTlvG2, Option.map_some, changed, h s rfl]

theorem gen1_filled (dst : Bytes) (c : DriverCardN)
    (h : ∀ s, (c.tachograph.getD {}).specificConditions = some s → none ∉ s.data.records) :
    appendGen1N dst c = appendGen1 dst (filledCard c) := by
  have ht : (filledCard c).tachograph.getD {} = filledTachograph (c.tachograph.getD {}) := by
    simp only [filledCard]; cases c.tachograph <;> rfl
  simp only [appendGen1N, appendGen1, ht]
  generalize c.tachograph.getD {} = t at h
  simp only [filledTachograph, zeroEvent_eq, zeroVehicle_eq, zeroPlace_eq, show (filledCard c).icc = c.icc from rfl, show (filledCard c).ic = c.ic from rfl,
    ← appendTlv_changed _ _ t.eventsData (filled emptyEvent) appendEventsDataN appendEventsData (fun s _ d => events_filled d s.data),
    ← appendTlv_changed _ _ t.faultsData (filled emptyEvent) appendEventsDataN appendEventsData (fun s _ d => events_filled d s.data),
    ← appendTlv_changed _ _ t.driverActivityData filledActivity (fun d a => appendDriverActivityN d (some a))
      (fun d a => appendDriverActivity d (some a)) (fun s _ d => activity_filled d s.data),
    ← appendTlv_changed _ _ t.vehiclesUsed (withRecords (filled emptyVehicle)) (fun d a => appendVehiclesUsedN d (some a))
      (fun d a => appendVehiclesUsed d (some a)) (fun s _ d => vehicles_filled d s.data),
    ← appendTlv_changed _ _ t.places (withRecords (filled emptyPlace)) (fun d a => appendPlacesN d (some a))
      (fun d a => appendPlaces d (some a)) (fun s _ d => places_filled d s.data),
    ← appendTlv_changed _ _ t.specificConditions (withRecords present) (fun d a => appendSpecificConditionsN d (some a))
      (fun d a => appendSpecificConditions d (some a)) (fun s hs d => conditions_present d s.data (h s hs))]

theorem gen2_filled (dst : Bytes) (t : TachographG2N)
    (h : ∀ s, t.specificConditions = some s → none ∉ s.data.records) :
    appendGen2N dst t = appendGen2 dst (filledTachographG2 t) := by
  simp only [appendGen2N, appendGen2, filledTachographG2, zeroVehicleG2_eq, zeroPlaceG2_eq,
    ← appendTlvG2_changed _ _ t.vehiclesUsed (withRecords (filled emptyVehicleG2)) (fun d a => appendVehiclesUsedG2N d (some a))
      (fun d a => appendVehiclesUsedG2 d (some a)) (fun s _ d => vehiclesG2_filled d s.data),
    ← appendTlvG2_changed _ _ t.places (withRecords (filled emptyPlaceG2)) (fun d a => appendPlacesG2N d (some a))
      (fun d a => appendPlacesG2 d (some a)) (fun s _ d => placesG2_filled d s.data),
    ← appendTlvG2_changed _ _ t.specificConditions (withRecords present) (fun d a => appendSpecificConditionsG2N d (some a))
      (fun d a => appendSpecificConditionsG2 d (some a)) (fun s hs d => conditionsG2_present d s.data (h s hs)),
    ← appendTlvG2_changed _ _ t.vehicleUnitsUsed (fun v => (v.1, present v.2)) (fun d a => appendVehicleUnitsUsedN d (some a))
      (fun d a => appendVehicleUnitsUsed d (some a)) (fun s _ d => units_present d s.data),
    ← appendTlvG2_changed _ _ t.gnssPlaces (fun v => (v.1, present v.2)) (fun d a => appendGnssPlacesN d (some a))
      (fun d a => appendGnssPlaces d (some a)) (fun s _ d => gnss_present d s.data)]

theorem certificates_filled (dst : Bytes) (c : DriverCardN) : appendCertificatesN dst c = appendCertificates dst (filledCard c) := by
  obtain ⟨icc, ic, t, u⟩ := c
  cases t <;> cases u <;> rfl

theorem card_filled (dst : Bytes) (c : DriverCardN) (h : ¬ NilCondition c) :
    appendDriverCardN dst c = appendDriverCard dst (filledCard c) := by
  have h1 : ∀ s, (c.tachograph.getD {}).specificConditions = some s → none ∉ s.data.records :=
    fun s hs hm => h (.inl ⟨s, hs, hm⟩)
  have h2 : ∀ s, (c.tachographG2.getD {}).specificConditions = some s → none ∉ s.data.records :=
    fun s hs hm => h (.inr ⟨s, hs, hm⟩)
  simp only [appendDriverCardN, appendDriverCard, gen1_filled dst c h1, certificates_filled]
  congr 1; funext d
  rw [show (filledCard c).tachographG2 = c.tachographG2.map filledTachographG2 from rfl]
  cases hu : c.tachographG2 with
  | none => rfl
  | some u =>
    rw [hu] at h2
    simp only [Option.map_some]
    rw [gen2_filled d u h2]

/-- **A message with nil entries is written as the one they stand for.** A file whose specific conditions have no
nil entry is written exactly as the file in which each nil event, fault, day, activity change, vehicle, place and
raw record is an empty message and nil vehicle units and GNSS places are left out. -/
theorem nil_entries_written (f : FileN) (h : ∀ c, f.driverCard = some c → ¬ NilCondition c) :
    marshalFileN (some f) = marshalFile (some (filledFile f)) := by
  obtain ⟨ty, vu, dc, rc⟩ := f
  cases ty with
  | driverCard =>
    cases dc with
    | none => rfl
    | some c => exact card_filled [] c (h c rfl)
  | rawCard =>
    cases rc with
    | none => rfl
    | some rs =>
      show Res.ok _ = Res.ok _
      simp only [filledFile, zeroRawRec_eq, Option.getD_some, Option.map_some, filled, List.flatMap_map]
  | _ => rfl

/-! ## What cannot be written -/

theorem appendEach_mem {α : Type} {f : Bytes → α → Res Bytes} {x : α} (h : ∀ d out, f d x ≠ .ok out) (xs : List α) (hx : x ∈ xs) :
    ∀ dst out, appendEach f dst xs ≠ .ok out := by
  induction xs with
  | nil => cases hx
  | cons y ys ih =>
    intro dst out he
    simp only [appendEach, bind_eq_ok] at he
    obtain ⟨d, hd, he⟩ := he
    rcases List.mem_cons.1 hx with rfl | hx
    · exact h _ _ hd
    · exact ih hx _ _ he

theorem appendEachNew_mem {α : Type} {f : Bytes → α → Res Bytes} {x : α} (h : ∀ d out, f d x ≠ .ok out) (xs : List α) (hx : x ∈ xs) :
    ∀ dst out, appendEachNew f dst xs ≠ .ok out := by
  induction xs with
  | nil => cases hx
  | cons y ys ih =>
    intro dst out he
    simp only [appendEachNew, bind_eq_ok] at he
    obtain ⟨d, hd, he⟩ := he
    rcases List.mem_cons.1 hx with rfl | hx
    · exact h _ _ hd
    · exact ih hx _ _ he

theorem paintEach_mem {α : Type} {f : Bytes → α → Res Bytes} {x : α} {n : Nat} (h : ∀ d out, f d x ≠ .ok out) (xs : List α) (hx : x ∈ xs) :
    ∀ c off out, paintEach f n c off xs ≠ .ok out := by
  induction xs with
  | nil => cases hx
  | cons y ys ih =>
    intro c off out he
    simp only [paintEach, bind_eq_ok] at he
    obtain ⟨d, hd, he⟩ := he
    rcases List.mem_cons.1 hx with rfl | hx
    · exact h _ _ hd
    · split at he
      · cases he
      · exact ih hx _ _ _ he

theorem appendRecordFile2_mem {α : Type} {f : Bytes → α → Res Bytes} {x : α} {n : Nat} (h : ∀ d out, f d x ≠ .ok out)
    (v : RecordFile α) (hx : x ∈ v.records) (dst out : Bytes) : appendRecordFile2 f n dst (some v) ≠ .ok out := by
  intro he
  simp only [appendRecordFile2] at he
  split at he
  · simp only [bind_eq_ok] at he
    obtain ⟨c, hc, _⟩ := he
    exact paintEach_mem h _ hx _ _ _ hc
  · exact appendEachNew_mem h _ hx _ _ he

theorem condition_nil (d out : Bytes) : appendSpecificConditionRecord d none ≠ .ok out := nofun

theorem conditions_nil (c : RecordFile (Option SpecificConditionRecord)) (h : none ∈ c.records) (dst out : Bytes) :
    appendSpecificConditionsN dst (some c) ≠ .ok out := by
  intro he
  simp only [appendSpecificConditionsN] at he
  split at he
  · simp only [bind_eq_ok] at he
    obtain ⟨x, hx, _⟩ := he
    exact paintEach_mem condition_nil _ h _ _ _ hx
  · exact appendEach_mem condition_nil _ h _ _ he

theorem paintConditions_nil (rs : List (Option SpecificConditionRecord)) (h : none ∈ rs) : ∀ c off out,
    paintConditionsG2N c off rs ≠ .ok (some out) := by
  induction rs with
  | nil => cases h
  | cons y ys ih =>
    intro c off out he
    simp only [paintConditionsG2N] at he
    split at he
    · cases he
    · simp only [bind_eq_ok] at he
      obtain ⟨d, hd, he⟩ := he
      rcases List.mem_cons.1 h with rfl | hx
      · exact condition_nil _ _ hd
      · split at he
        · cases he
        · exact ih hx _ _ _ he

theorem conditionsG2_nil (c : RecordFile (Option SpecificConditionRecord)) (h : none ∈ c.records) (dst out : Bytes) :
    appendSpecificConditionsG2N dst (some c) ≠ .ok out := by
  intro he
  simp only [appendSpecificConditionsG2N] at he
  split at he
  · simp only [bind_eq_ok] at he
    obtain ⟨_, _, x, hx, he⟩ := he
    cases x with
    | some x => exact paintConditions_nil _ h _ _ _ hx
    | none => exact appendEach_mem condition_nil _ h _ _ he
  · exact appendEach_mem condition_nil _ h _ _ he

theorem vehicle_nil (d out : Bytes) : appendCardVehicleRecord d emptyVehicle ≠ .ok out := by
  simp [appendCardVehicleRecord, emptyVehicle, paintCardVehicle, appendVehicleRegistration]

theorem vehicleG2_nil (d out : Bytes) : appendCardVehicleRecordG2 d emptyVehicleG2 ≠ .ok out := by
  simp [appendCardVehicleRecordG2, emptyVehicleG2, emptyVehicle, paintCardVehicle, appendVehicleRegistration]

theorem change_nil (d out : Bytes) : appendActivityChangeInfo d emptyChange ≠ .ok out := by
  intro h
  simp only [appendActivityChangeInfo, bind_eq_ok] at h
  obtain ⟨_, _, _, hs, _⟩ := h
  exact absurd hs (by simp [emptyChange, show marshalEnum cardSlotNumberTable 0 = .err _ from rfl])

theorem recordSizes_nil (rs : List (Option DailyRecordN)) (h : none ∈ rs) (ss : List Nat) : recordSizesN rs ≠ .ok ss := by
  induction rs generalizing ss with
  | nil => cases h
  | cons r rs ih =>
    intro he
    simp only [recordSizesN, bind_eq_ok] at he
    obtain ⟨s, hs, x, hx, _⟩ := he
    rcases List.mem_cons.1 h with rfl | h
    · simp [emptyDayN] at hs
    · exact ih h _ hx

theorem recordSizesN_length (rs : List (Option DailyRecordN)) (ss : List Nat) (h : recordSizesN rs = .ok ss) : ss.length = rs.length := by
  induction rs generalizing ss with
  | nil => cases h; rfl
  | cons r rs ih =>
    simp only [recordSizesN, bind_eq_ok] at h
    obtain ⟨s, _, x, hx, he⟩ := h
    cases he
    simp [ih _ hx]

theorem writeRecords_change_nil (rs : List (Option DailyRecordN)) (r : DailyRecordN) (hr : some r ∈ rs) (hv : r.valid = true)
    (hc : none ∈ r.changes) : ∀ (ss : List Nat) (b out : Bytes) (pos prev : Nat), ss.length = rs.length →
    writeRecordsN b pos prev (rs.zip ss) ≠ .ok out := by
  induction rs with
  | nil => cases hr
  | cons x rs ih =>
    intro ss b out pos prev hl he
    cases ss with
    | nil => cases hl
    | cons s ss =>
      simp only [List.zip_cons_cons, writeRecordsN, bind_eq_ok] at he
      obtain ⟨y, hy, _, _, he⟩ := he
      rcases List.mem_cons.1 hr with rfl | hr
      · simp only [Option.getD_some, hv, ↓reduceIte, marshalRecordWithHeaderN, bind_eq_ok] at hy
        obtain ⟨_, _, _, _, z, hz, _⟩ := hy
        exact appendEach_mem (f := fun d (c : Option ActivityChangeInfo) => appendActivityChangeInfo d (c.getD emptyChange))
          (x := none) (fun d out => change_nil d out) _ hc _ _ hz
      · exact ih hr _ _ _ _ _ (by simpa using hl) he

theorem activity_nil (a : DriverActivityDataN) (h0 : (a.rawData.getD []).length = 0)
    (h : none ∈ a.records ∨ ∃ r, some r ∈ a.records ∧ r.valid = true ∧ none ∈ r.changes) (dst out : Bytes) :
    appendDriverActivityN dst (some a) ≠ .ok out := by
  intro he
  simp only [appendDriverActivityN, h0, Nat.lt_irrefl, gt_iff_lt, ↓reduceIte, bind_eq_ok] at he
  obtain ⟨b, hb, _⟩ := he
  have hne : a.records.length ≠ 0 := by
    intro h0
    have : a.records = [] := List.length_eq_zero_iff.1 h0
    rcases h with h | ⟨r, h, _⟩ <;> simp [this] at h
  rw [if_neg hne] at hb
  simp only [bind_eq_ok] at hb
  obtain ⟨ss, hs, hw⟩ := hb
  rcases h with h | ⟨r, hr, hv, hc⟩
  · exact recordSizes_nil _ h _ hs
  · exact writeRecords_change_nil _ r hr hv hc _ _ _ _ _ (recordSizesN_length _ _ hs) hw

theorem appendTlv_nil {α : Type} {dst out : Bytes} {file : EF} {s : α} {f : Bytes → α → Res Bytes} (h : ∀ d o, f d s ≠ .ok o) :
    appendTlv dst file (some s) f ≠ .ok out := by
  intro he
  simp only [appendTlv, appendTlvValue, bind_eq_ok] at he
  obtain ⟨_, ⟨o, ho, _⟩, _⟩ := he
  exact h _ _ ho

theorem appendTlvG2_nil {α : Type} {dst out : Bytes} {file : EF} {s : α} {f : Bytes → α → Res Bytes} (h : ∀ d o, f d s ≠ .ok o) :
    appendTlvG2 dst file (some s) f ≠ .ok out := by
  intro he
  simp only [appendTlvG2, appendTlvValue, bind_eq_ok] at he
  obtain ⟨_, ⟨o, ho, _⟩, _⟩ := he
  exact h _ _ ho

/-- **Nil entries that cannot be written.** No driver card is written in which a specific condition or a vehicle
used is nil, or in which a day, or a change of a valid day, is nil and the activities have to be written from the
days. -/
theorem nil_entries_unwritable (c : DriverCardN) (h : NilCondition c ∨ NilVehicle c ∨ NilActivity c) (out : Bytes) :
    marshalFileN (some { type := .driverCard, driverCard := some c }) ≠ .ok out := by
  intro he
  change appendDriverCardN [] c = .ok out at he
  simp only [appendDriverCardN, bind_eq_ok] at he
  obtain ⟨d1, h1, he⟩ := he
  have h2 : ∀ u, c.tachographG2 = some u → ∃ d2, appendGen2N d1 u = .ok d2 := by
    intro u hu
    simp only [hu, bind_eq_ok] at he
    exact ⟨_, he.choose_spec.1⟩
  simp only [appendGen1N, bind_eq_ok] at h1
  obtain ⟨_, _, _, _, _, _, _, _, _, _, _, _, _, _, _, hact, _, hveh, _, _, _, _, _, _, _, hcon, _⟩ := h1
  have g2 : ∀ {α : Type} {s : α} (f : TachographG2N → Option α), f {} = none → f (c.tachographG2.getD {}) = some s →
      ∃ u, c.tachographG2 = some u ∧ f u = some s := by
    intro α s f h0 hs
    cases hu : c.tachographG2 with
    | none => rw [hu] at hs; rw [Option.getD_none, h0] at hs; cases hs
    | some u => rw [hu] at hs; exact ⟨u, rfl, hs⟩
  rcases h with (⟨s, hs, hm⟩ | ⟨s, hs, hm⟩) | (⟨s, hs, hm⟩ | ⟨s, hs, hm⟩) | ⟨s, hs, h0, hm⟩
  · rw [hs] at hcon
    exact appendTlv_nil (fun d o => conditions_nil s.data hm d o) hcon
  · obtain ⟨u, hu, hs⟩ := g2 (fun t => t.specificConditions) rfl hs
    obtain ⟨_, h2⟩ := h2 u hu
    simp only [appendGen2N, bind_eq_ok] at h2
    obtain ⟨_, _, _, _, _, _, _, hc, _⟩ := h2
    rw [hs] at hc
    exact appendTlvG2_nil (fun d o => conditionsG2_nil s.data hm d o) hc
  · rw [hs] at hveh
    exact appendTlv_nil (fun d o => appendRecordFile2_mem (f := fun d (r : Option CardVehicleRecord) => appendCardVehicleRecord d (r.getD emptyVehicle))
      (x := none) (fun d o => vehicle_nil d o) s.data hm d o) hveh
  · obtain ⟨u, hu, hs⟩ := g2 (fun t => t.vehiclesUsed) rfl hs
    obtain ⟨_, h2⟩ := h2 u hu
    simp only [appendGen2N, bind_eq_ok] at h2
    obtain ⟨_, _, _, hc, _⟩ := h2
    rw [hs] at hc
    exact appendTlvG2_nil (fun d o => appendRecordFile2_mem (f := fun d (r : Option CardVehicleRecordG2) => appendCardVehicleRecordG2 d (r.getD emptyVehicleG2))
      (x := none) (fun d o => vehicleG2_nil d o) s.data hm d o) hc
  · rw [hs] at hact
    exact appendTlv_nil (fun d o => activity_nil s.data h0 hm d o) hact

/-! ## Panics -/

/-- Two results that are the same, or two errors. -/
def Agree {α : Type} (x y : Res α) : Prop := x = y ∨ ((∃ m, x = .err m) ∧ ∃ m, y = .err m)

theorem Agree.refl {α : Type} (x : Res α) : Agree x x := .inl rfl

theorem Agree.bind {α β : Type} {x y : Res α} {f g : α → Res β} (h : Agree x y) (hf : ∀ a, Agree (f a) (g a)) :
    Agree (x >>= f) (y >>= g) := by
  rcases h with rfl | ⟨⟨m, rfl⟩, n, rfl⟩
  · cases x with
    | ok a => exact hf a
    | err m => exact .inl rfl
    | panic => exact .inl rfl
  · exact .inr ⟨⟨m, rfl⟩, n, rfl⟩

/-- A specific condition that cannot be written, to put in place of a nil one. -/
def badCondition : SpecificConditionRecord := { entryTime := some ⟨0, 1⟩, type := 0, unrecognizedType := none }

/-- Nil conditions replaced by ones that cannot be written. -/
def patch (c : RecordFile (Option SpecificConditionRecord)) : RecordFile (Option SpecificConditionRecord) :=
  withRecords (List.map fun r => some (r.getD badCondition)) c

theorem condition_patch (d : Bytes) (r : Option SpecificConditionRecord) :
    Agree (appendSpecificConditionRecord d r) (appendSpecificConditionRecord d (some (r.getD badCondition))) := by
  cases r with
  | none => exact .inr ⟨⟨_, rfl⟩, _, rfl⟩
  | some r => exact .inl rfl

theorem appendEach_patch (rs : List (Option SpecificConditionRecord)) : ∀ d,
    Agree (appendEach appendSpecificConditionRecord d rs)
      (appendEach appendSpecificConditionRecord d (rs.map fun r => some (r.getD badCondition))) := by
  induction rs with
  | nil => intro d; exact .refl _
  | cons r rs ih => intro d; exact (condition_patch d r).bind ih

theorem paintEach_patch (rs : List (Option SpecificConditionRecord)) : ∀ c off,
    Agree (paintEach appendSpecificConditionRecord 5 c off rs)
      (paintEach appendSpecificConditionRecord 5 c off (rs.map fun r => some (r.getD badCondition))) := by
  induction rs with
  | nil => intro c off; exact .refl _
  | cons r rs ih =>
    intro c off
    refine (condition_patch [] r).bind fun b => ?_
    split
    · exact .refl _
    · exact ih _ _

theorem paintG2_patch (rs : List (Option SpecificConditionRecord)) : ∀ c off,
    Agree (paintConditionsG2N c off rs) (paintConditionsG2N c off (rs.map fun r => some (r.getD badCondition))) := by
  induction rs with
  | nil => intro c off; exact .refl _
  | cons r rs ih =>
    intro c off
    simp only [List.map_cons, paintConditionsG2N]
    split
    · exact .refl _
    · refine (condition_patch [] r).bind fun b => ?_
      split
      · exact .refl _
      · exact ih _ _

theorem conditions_patch (d : Bytes) (c : RecordFile (Option SpecificConditionRecord)) :
    Agree (appendSpecificConditionsN d (some c)) (appendSpecificConditionsN d (some (patch c))) := by
  simp only [appendSpecificConditionsN, patch, withRecords, List.length_map]
  split
  · exact (paintEach_patch _ _ _).bind fun _ => .refl _
  · exact appendEach_patch _ _

theorem conditionsG2_patch (d : Bytes) (c : RecordFile (Option SpecificConditionRecord)) :
    Agree (appendSpecificConditionsG2N d (some c)) (appendSpecificConditionsG2N d (some (patch c))) := by
  obtain ⟨raw, n, rs⟩ := c
  change Agree (appendSpecificConditionsG2N d (some ⟨raw, n, rs⟩))
    (appendSpecificConditionsG2N d (some ⟨raw, n, rs.map fun r => some (r.getD badCondition)⟩))
  simp only [appendSpecificConditionsG2N]
  by_cases hl : (raw.getD []).length > 0
  · rw [if_pos hl, if_pos hl]
    refine (Agree.refl _).bind fun _ => (paintG2_patch _ _ _).bind fun x => ?_
    cases x with
    | some x => exact .refl _
    | none => exact appendEach_patch _ _
  · rw [if_neg hl, if_neg hl]
    exact appendEach_patch _ _

theorem tlvValue_agree {dst : Bytes} {file : EF} {a : UInt8} {f g : Bytes → Res Bytes} (h : ∀ d, Agree (f d) (g d)) :
    Agree (appendTlvValue dst file a f) (appendTlvValue dst file a g) :=
  (h _).bind fun _ => .refl _

/-- The card with its nil conditions replaced. -/
def patchCard (c : DriverCardN) : DriverCardN := { c with
  tachograph := c.tachograph.map fun t => { t with specificConditions := t.specificConditions.map (changed patch) }
  tachographG2 := c.tachographG2.map fun t => { t with specificConditions := t.specificConditions.map (changed patch) } }

theorem patchCard_no_nil (c : DriverCardN) : ¬ NilCondition (patchCard c) := by
  have key : ∀ (m : Option (Signed (RecordFile (Option SpecificConditionRecord)))) s, m.map (changed patch) = some s → none ∉ s.data.records := by
    intro m s hs
    obtain ⟨x, _, rfl⟩ := Option.map_eq_some_iff.1 hs
    simp [changed, patch, withRecords]
  rintro (⟨s, hs, hm⟩ | ⟨s, hs, hm⟩)
  · cases ht : c.tachograph with
    | none => simp [patchCard, ht] at hs
    | some t => simp only [patchCard, ht, Option.map_some, Option.getD_some] at hs; exact key _ _ hs hm
  · cases ht : c.tachographG2 with
    | none => simp [patchCard, ht] at hs
    | some t => simp only [patchCard, ht, Option.map_some, Option.getD_some] at hs; exact key _ _ hs hm

theorem card_patch (dst : Bytes) (c : DriverCardN) : Agree (appendDriverCardN dst c) (appendDriverCardN dst (patchCard c)) := by
  have ht : (patchCard c).tachograph.getD {} = { c.tachograph.getD {} with
      specificConditions := (c.tachograph.getD {}).specificConditions.map (changed patch) } := by
    simp only [patchCard]; cases c.tachograph <;> rfl
  have hcert : ∀ d, appendCertificatesN d c = appendCertificatesN d (patchCard c) := by
    intro d
    obtain ⟨icc, ic, t, u⟩ := c
    cases t <;> cases u <;> rfl
  simp only [appendDriverCardN, hcert]
  refine Agree.bind ?_ fun d => ?_
  · simp only [appendGen1N, ht]
    iterate 12 refine (Agree.refl _).bind fun _ => ?_
    refine Agree.bind ?_ fun _ => .refl _
    cases (c.tachograph.getD {}).specificConditions with
    | none => exact .refl _
    | some s => exact (tlvValue_agree fun d => conditions_patch d s.data).bind fun _ => .refl _
  · rw [show (patchCard c).tachographG2 = c.tachographG2.map fun t => { t with specificConditions := t.specificConditions.map (changed patch) } from rfl]
    cases c.tachographG2 with
    | none => exact .refl _
    | some t =>
      simp only [Option.map_some]
      refine Agree.bind ?_ fun _ => .refl _
      simp only [appendGen2N]
      iterate 3 refine (Agree.refl _).bind fun _ => ?_
      refine Agree.bind ?_ fun _ => .refl _
      cases t.specificConditions with
      | none => exact .refl _
      | some s => exact (tlvValue_agree fun d => conditionsG2_patch d s.data).bind fun _ => .refl _

/-- **Writing panics on no nil entry.** Whatever entries of its lists are nil, writing a file panics only if it is
a driver card whose second-generation specific conditions hold raw data of one byte. -/
theorem nil_entries_no_panic [Charmap] (f : FileN) (h : marshalFileN (some f) = .panic) :
    ∃ c m b, f.driverCard = some c ∧ (c.tachographG2.getD {}).specificConditions = some m ∧ m.data.rawData = some [b] := by
  obtain ⟨ty, vu, dc, rc⟩ := f
  cases ty with
  | driverCard =>
    cases dc with
    | none => cases h
    | some c =>
      change appendDriverCardN [] c = .panic at h
      have hp : appendDriverCardN [] (patchCard c) = .panic := by
        rcases card_patch [] c with he | ⟨⟨m, he⟩, _⟩
        · rw [← he, h]
        · rw [he] at h; cases h
      rw [card_filled _ _ (patchCard_no_nil c)] at hp
      obtain ⟨m, b, hm, hb⟩ := driver_card_write_panics (filledCard (patchCard c)) hp
      refine ⟨c, ?_⟩
      cases hu : c.tachographG2 with
      | none => simp [filledCard, patchCard, hu] at hm
      | some u =>
        simp only [filledCard, patchCard, hu, Option.map_some, Option.getD_some, filledTachographG2, Option.map_map, Option.map_eq_some_iff] at hm
        obtain ⟨s, hs, rfl⟩ := hm
        exact ⟨s, b, rfl, hs, hb⟩
  | vehicleUnit => cases vu <;> cases h
  | rawCard => cases h
  | _ => cases h

/-! ## What the empty messages are written as -/

theorem appendEachNew_zeros {α : Type} {f : Bytes → α → Res Bytes} {x : α} {n : Nat} (h : f [] x = .ok (zeros n)) (k : Nat) : ∀ dst,
    appendEachNew f dst (List.replicate k x) = .ok (dst ++ zeros (k * n)) := by
  induction k with
  | zero => intro dst; simp [appendEachNew, zeros]
  | succ k ih =>
    intro dst
    simp only [List.replicate_succ, appendEachNew, h, Res.bind_ok, ih, List.append_assoc, zeros, List.replicate_append_replicate]
    rw [Nat.succ_mul, Nat.add_comm]

/-- **A nil place is written as zeros**: the place files that hold only nil records (and no raw data) are the index of the newest
record followed by ten zeros for each, and by twenty-one in the second generation. -/
theorem nil_places_written (dst : Bytes) (newest : Int) (k : Nat) :
    appendPlacesN dst (some { rawData := none, newest := newest, records := List.replicate k none }) =
      .ok (dst ++ [i2b newest] ++ zeros (k * 10)) ∧
    appendPlacesG2N dst (some { rawData := none, newest := newest, records := List.replicate k none }) =
      .ok (dst ++ beBytes 2 (low 16 newest) ++ zeros (k * 21)) := by
  constructor
  · simp only [appendPlacesN, Option.getD_none, List.length_nil]
    rw [if_neg (by omega)]
    exact appendEachNew_zeros (by decide +kernel) k _
  · simp only [appendPlacesG2N, appendRecordFile2, Option.getD_none, List.length_nil]
    rw [if_neg (by omega)]
    exact appendEachNew_zeros (by decide +kernel) k _

theorem written_slot {α : Type} {f : Bytes → α → Res Bytes} {n : Nat} : ∀ {xs : List α} {outs : List Bytes}, (∀ x ∈ xs, AppendsExactly n (f · x)) →
    mapRes (f []) xs = .ok outs → ∀ (i : Nat) (x : α), xs[i]? = some x → f [] x = .ok ((outs.flatten.drop (i * n)).take n) := by
  intro xs
  induction xs with
  | nil => intro outs _ _ i x hx; simp at hx
  | cons y ys ih =>
    intro outs ha h i x hx
    rw [List.forall_mem_cons] at ha
    simp only [mapRes] at h
    cases hy : f [] y with
    | err m => simp [hy] at h
    | panic => simp [hy] at h
    | ok b =>
      have hb : b.length = n := appendsExactly_nil ha.1 hy
      cases hr : mapRes (f []) ys with
      | err m => simp [hy, hr] at h
      | panic => simp [hy, hr] at h
      | ok os =>
        simp only [hy, hr, Res.bind_ok, Res.pure_eq, Res.ok.injEq] at h
        subst h
        cases i with
        | zero =>
          simp only [List.getElem?_cons_zero, Option.some.injEq] at hx
          subst hx
          rw [hy, Nat.zero_mul, List.drop_zero, List.flatten_cons, List.take_left' hb]
        | succ i =>
          rw [List.getElem?_cons_succ] at hx
          rw [ih ha.2 hr i x hx, List.flatten_cons, Nat.succ_mul, Nat.add_comm, ← List.drop_drop, List.drop_left' hb]

theorem filled_none {α : Type} {e : α} {rs : List (Option α)} {i : Nat} (h : rs[i]? = some none) : (filled e rs)[i]? = some e := by
  simp [filled, h]

/-- **A nil place is written as zeros**, wherever it is and whatever raw data the file holds: ten zeros in the place of the record, and
twenty-one in the second generation. -/
theorem nil_place_written (dst out : Bytes) (i : Nat) :
    (∀ p : RecordFile (Option PlaceRecord), p.records[i]? = some none → appendPlacesN dst (some p) = .ok out →
      (out.drop (dst.length + 1 + i * 10)).take 10 = zeros 10) ∧
    (∀ p : RecordFile (Option PlaceRecordG2), p.records[i]? = some none → appendPlacesG2N dst (some p) = .ok out →
      (out.drop (dst.length + 2 + i * 21)).take 21 = zeros 21) := by
  constructor
  · intro p hi h
    rw [places_filled, appendPlaces_eq] at h
    cases hm : mapRes (appendPlaceRecord []) (withRecords (filled emptyPlace) p).records with
    | err m => simp [hm] at h
    | panic => simp [hm] at h
    | ok outs =>
      simp only [hm, Res.bind_ok, Res.ok.injEq] at h
      have := written_slot (fun x _ => appendPlaceRecord_exact x) hm i emptyPlace (filled_none hi)
      rw [show appendPlaceRecord [] emptyPlace = .ok (zeros 10) by decide +kernel, Res.ok.injEq] at this
      rw [this, ← h, ← List.append_assoc, ← List.drop_drop, List.drop_left' (by simp)]
  · intro p hi h
    rw [placesG2_filled, appendPlacesG2, appendRecordFile2_eq _ (fun x _ => appendPlaceRecordG2_exact x)] at h
    cases hm : mapRes (appendPlaceRecordG2 []) (withRecords (filled emptyPlaceG2) p).records with
    | err m => simp [hm] at h
    | panic => simp [hm] at h
    | ok outs =>
      simp only [hm, Res.bind_ok, Res.ok.injEq] at h
      have := written_slot (fun x _ => appendPlaceRecordG2_exact x) hm i emptyPlaceG2 (filled_none hi)
      rw [show appendPlaceRecordG2 [] emptyPlaceG2 = .ok (zeros 21) by decide +kernel, Res.ok.injEq] at this
      rw [this, ← h, ← List.append_assoc, ← List.drop_drop, List.drop_left' (by simp)]

/-- **A nil event or fault is written as nothing.** -/
theorem nil_event_written (dst : Bytes) (as bs : List (Option EventRecord)) :
    appendEventsDataN dst (as ++ none :: bs) = appendEventsDataN dst (as ++ bs) := by
  induction as generalizing dst with
  | nil =>
    simp only [appendEventsDataN, List.nil_append, appendEach, Option.getD_none]
    rw [show appendEventRecord dst emptyEvent = .ok dst by simp [appendEventRecord, emptyEvent]]
    rfl
  | cons a as ih =>
    simp only [appendEventsDataN, List.cons_append, appendEach] at ih ⊢
    congr 1; funext d; exact ih d

/-- **A nil raw record is written as five zeros.** -/
theorem nil_raw_record_written (xs ys : List (Option RawRec)) (a b : Bytes)
    (ha : marshalFileN (some { type := .rawCard, rawCard := some xs }) = .ok a)
    (hb : marshalFileN (some { type := .rawCard, rawCard := some ys }) = .ok b) :
    marshalFileN (some { type := .rawCard, rawCard := some (xs ++ none :: ys) }) = .ok (a ++ zeros 5 ++ b) := by
  cases ha
  cases hb
  show Res.ok _ = Res.ok _
  simp only [Option.getD_some, List.flatMap_append, List.flatMap_cons, Option.getD_none, List.append_assoc]
  rfl

/-! ## Anonymising -/

theorem timestamps_some (rs : List PlaceRecord) : ∀ i, anonymizeTimestampsN i (rs.map some) = .ok ((anonymizeTimestamps i rs).map some) := by
  induction rs with
  | nil => intro i; rfl
  | cons r rs ih =>
    intro i
    simp only [List.map_cons, anonymizeTimestampsN, Option.getD_some, anonymizeTimestamps, ih]
    split <;> rfl

theorem regenerate_some (rs : List PlaceRecord) : regeneratePlacesN (rs.map some) = .ok ((rs.map regeneratePlace).map some) := by
  induction rs with
  | nil => rfl
  | cons r rs ih =>
    simp only [List.map_cons, regeneratePlacesN, ih, regeneratePlace, appendPlaceRecordN, Option.getD_some]
    cases appendPlaceRecord [] r <;> rfl

theorem regenerate_nil (rs : List (Option PlaceRecord)) (h : none ∈ rs) : regeneratePlacesN rs = .panic := by
  induction rs with
  | nil => cases h
  | cons r rs ih =>
    simp only [regeneratePlacesN]
    cases r with
    | none => rw [show appendPlaceRecordN [] none = .ok (zeros 10) by decide +kernel]; rfl
    | some r =>
      have := ih (by simpa using h)
      rw [this]
      cases appendPlaceRecordN [] (some r) <;> rfl

theorem timestamps_nils (rs : List (Option PlaceRecord)) : ∀ i,
    anonymizeTimestampsN i rs = .panic ∨ ∃ xs, anonymizeTimestampsN i rs = .ok xs ∧ xs.map Option.isNone = rs.map Option.isNone := by
  induction rs with
  | nil => intro i; exact .inr ⟨[], rfl, rfl⟩
  | cons r rs ih =>
    intro i
    simp only [anonymizeTimestampsN]
    rcases ih (i + 1) with h | ⟨xs, h, hx⟩
    · left
      rw [h]
      cases r <;> simp only [] <;> split <;> rfl
    · rw [h]
      cases r with
      | none =>
        simp only []
        split
        · exact .inl rfl
        · exact .inr ⟨_, rfl, by simpa using hx⟩
      | some r =>
        simp only []
        split
        · exact .inr ⟨_, rfl, by simpa using hx⟩
        · exact .inr ⟨_, rfl, by simpa using hx⟩

theorem nil_iff_isNone {α : Type} {xs : List (Option α)} : none ∈ xs ↔ true ∈ xs.map Option.isNone := by
  simp only [List.mem_map, Option.isNone_iff_eq_none, exists_eq_right]

theorem mapped_nil {α β : Type} {f : α → β} {rs : List (Option α)} : none ∈ rs.map (Option.map f) ↔ none ∈ rs := by
  simp

/-- **Anonymising the places of a card panics exactly if one of them is nil.** Otherwise it is the anonymiser of the
list without options. -/
theorem anonymize_places_nil (p : RecordFile (Option PlaceRecord)) :
    (none ∈ p.records → anonymizePlacesN p = .panic) ∧
    (none ∉ p.records → anonymizePlacesN p = .ok (withRecords (List.map some) (anonymizePlaces (withRecords present p)))) := by
  constructor
  · intro h
    simp only [anonymizePlacesN]
    rcases timestamps_nils (p.records.map (Option.map anonymizePlaceRecord)) 0 with h' | ⟨xs, h', hx⟩
    · rw [h']; rfl
    · rw [h']
      have : none ∈ xs := by rw [nil_iff_isNone, hx, ← nil_iff_isNone, mapped_nil]; exact h
      simp only [Res.bind_ok, regenerate_nil xs this]
      rfl
  · intro h
    obtain ⟨raw, n, rs⟩ := p
    have hr := present_of_no_nil (rs := rs) h
    simp only [withRecords]
    generalize present rs = ys at hr
    subst hr
    simp only [anonymizePlacesN, List.map_map, anonymizePlaces, Function.comp_def, Option.map_some]
    rw [show (ys.map fun x => some (anonymizePlaceRecord x)) = (ys.map anonymizePlaceRecord).map some by simp, timestamps_some]
    simp only [Res.bind_ok, regenerate_some, places_filled, withRecords, filled, List.map_map, Function.comp_def, Option.getD_some, Res.pure_eq]
    cases appendPlaces [] _ <;> simp

theorem timestampsG2_some (rs : List PlaceRecordG2) : ∀ i,
    anonymizeTimestampsG2N i (rs.map some) = .ok ((anonymizeTimestampsG2 i rs).map some) := by
  induction rs with
  | nil => intro i; rfl
  | cons r rs ih =>
    intro i
    simp only [List.map_cons, anonymizeTimestampsG2N, Option.getD_some, anonymizeTimestampsG2, ih]
    split <;> rfl

theorem regenerateG2_some (rs : List PlaceRecordG2) : regeneratePlacesG2N (rs.map some) = .ok ((rs.map regeneratePlaceG2).map some) := by
  induction rs with
  | nil => rfl
  | cons r rs ih =>
    simp only [List.map_cons, regeneratePlacesG2N, ih, regeneratePlaceG2, appendPlaceRecordG2N, Option.getD_some]
    cases appendPlaceRecordG2 [] r <;> rfl

theorem regenerateG2_nil (rs : List (Option PlaceRecordG2)) (h : none ∈ rs) : regeneratePlacesG2N rs = .panic := by
  induction rs with
  | nil => cases h
  | cons r rs ih =>
    simp only [regeneratePlacesG2N]
    cases r with
    | none => rw [show appendPlaceRecordG2N [] none = .ok (zeros 21) by decide +kernel]; rfl
    | some r =>
      have := ih (by simpa using h)
      rw [this]
      cases appendPlaceRecordG2N [] (some r) <;> rfl

theorem timestampsG2_nils (rs : List (Option PlaceRecordG2)) : ∀ i,
    anonymizeTimestampsG2N i rs = .panic ∨ ∃ xs, anonymizeTimestampsG2N i rs = .ok xs ∧ xs.map Option.isNone = rs.map Option.isNone := by
  induction rs with
  | nil => intro i; exact .inr ⟨[], rfl, rfl⟩
  | cons r rs ih =>
    intro i
    simp only [anonymizeTimestampsG2N]
    rcases ih (i + 1) with h | ⟨xs, h, hx⟩
    · left
      rw [h]
      cases r <;> simp only [] <;> split <;> rfl
    · rw [h]
      cases r with
      | none =>
        simp only []
        split
        · exact .inl rfl
        · exact .inr ⟨_, rfl, by simpa using hx⟩
      | some r =>
        simp only []
        split
        · exact .inr ⟨_, rfl, by simpa using hx⟩
        · exact .inr ⟨_, rfl, by simpa using hx⟩

/-- **Anonymising the second-generation places of a card panics exactly if one of them is nil.** -/
theorem anonymize_placesG2_nil (p : RecordFile (Option PlaceRecordG2)) :
    (none ∈ p.records → anonymizePlacesG2N p = .panic) ∧
    (none ∉ p.records → anonymizePlacesG2N p = .ok (withRecords (List.map some) (anonymizePlacesG2 (withRecords present p)))) := by
  constructor
  · intro h
    simp only [anonymizePlacesG2N]
    rcases timestampsG2_nils (p.records.map (Option.map anonymizePlaceRecordG2)) 0 with h' | ⟨xs, h', hx⟩
    · rw [h']; rfl
    · rw [h']
      have : none ∈ xs := by rw [nil_iff_isNone, hx, ← nil_iff_isNone, mapped_nil]; exact h
      simp only [Res.bind_ok, regenerateG2_nil xs this]
      rfl
  · intro h
    obtain ⟨raw, n, rs⟩ := p
    have hr := present_of_no_nil (rs := rs) h
    simp only [withRecords]
    generalize present rs = ys at hr
    subst hr
    simp only [anonymizePlacesG2N, List.map_map, anonymizePlacesG2, Function.comp_def, Option.map_some]
    rw [show (ys.map fun x => some (anonymizePlaceRecordG2 x)) = (ys.map anonymizePlaceRecordG2).map some by simp, timestampsG2_some]
    simp only [Res.bind_ok, regenerateG2_some, placesG2_filled, withRecords, filled, List.map_map, Function.comp_def, Option.getD_some, Res.pure_eq]
    cases appendPlacesG2 [] _ <;> simp

theorem vehicleRecords_some (rs : List CardVehicleRecord) : ∀ i,
    anonymizeVehicleRecordsN i (rs.map some) = (anonymizeVehicleRecords i rs).map some := by
  induction rs with
  | nil => intro i; rfl
  | cons r rs ih => intro i; simp only [List.map_cons, anonymizeVehicleRecordsN, anonymizeVehicleRecords, ih, Option.map_some]

theorem vehicleRecords_nils (rs : List (Option CardVehicleRecord)) : ∀ i,
    (anonymizeVehicleRecordsN i rs).map Option.isNone = rs.map Option.isNone := by
  induction rs with
  | nil => intro i; rfl
  | cons r rs ih => intro i; simp only [anonymizeVehicleRecordsN, List.map_cons, ih, Option.isNone_map]

theorem vehicleRecords_getElem (rs : List (Option CardVehicleRecord)) : ∀ i j,
    (anonymizeVehicleRecordsN i rs)[j]? = rs[j]?.map (Option.map (anonymizeCardVehicleRecord · (i + j))) := by
  induction rs with
  | nil => intro i j; rfl
  | cons r rs ih =>
    intro i j
    cases j with
    | zero => rfl
    | succ j =>
      rw [anonymizeVehicleRecordsN, List.getElem?_cons_succ, List.getElem?_cons_succ, ih, show i + 1 + j = i + (j + 1) by omega]

/-- **Anonymising the vehicles of a card keeps its nil entries, and panics on none.** Each of the others is anonymised as at its
position in a list without nil entries. With a nil entry the copy cannot be written and holds no raw data; without one it is the
copy of the list without options. -/
theorem anonymize_vehicles_nil (v : RecordFile (Option CardVehicleRecord)) :
    (anonymizeVehiclesUsedN v).records.map Option.isNone = v.records.map Option.isNone ∧
    (anonymizeVehiclesUsedN v).newest = v.newest ∧
    (∀ i : Nat, (anonymizeVehiclesUsedN v).records[i]? = v.records[i]?.map (Option.map (anonymizeCardVehicleRecord · i))) ∧
    (none ∈ v.records → (anonymizeVehiclesUsedN v).rawData = none) ∧
    (none ∉ v.records → anonymizeVehiclesUsedN v = withRecords (List.map some) (anonymizeVehiclesUsed (withRecords present v))) := by
  have hrec : (anonymizeVehiclesUsedN v).records = anonymizeVehicleRecordsN 0 v.records := by
    simp only [anonymizeVehiclesUsedN]; split <;> rfl
  refine ⟨by rw [hrec, vehicleRecords_nils], by simp only [anonymizeVehiclesUsedN]; split <;> rfl,
    fun i => by rw [hrec, vehicleRecords_getElem, Nat.zero_add], ?_, ?_⟩
  · intro h
    simp only [anonymizeVehiclesUsedN]
    have hn : none ∈ anonymizeVehicleRecordsN 0 v.records := by
      rw [nil_iff_isNone, vehicleRecords_nils, ← nil_iff_isNone]; exact h
    split
    · rename_i b hb
      exact absurd hb (appendRecordFile2_mem (f := fun d (r : Option CardVehicleRecord) => appendCardVehicleRecord d (r.getD emptyVehicle))
        (x := none) (fun d o => vehicle_nil d o) _ hn _ _)
    · rfl
  · intro h
    obtain ⟨raw, n, rs⟩ := v
    have hr := present_of_no_nil (rs := rs) h
    simp only [withRecords]
    generalize present rs = ys at hr
    subst hr
    simp only [anonymizeVehiclesUsedN, anonymizeVehiclesUsed, vehicleRecords_some, vehicles_filled, withRecords, filled, List.map_map,
      Function.comp_def, Option.getD_some, List.map_id']
    cases appendVehiclesUsed [] _ <;> rfl

/-! ## Examples -/

/-- A place with an odometer. -/
def exPlace : PlaceRecord := { emptyPlace with region := [7], odometerKm := 258 }

/-- A card with a nil place between two others, a nil GNSS place, a nil event and a nil fault. -/
def exNilCard : DriverCardN := {
  tachograph := some {
    eventsData := some { data := [none, none], signature := none }
    places := some { data := { rawData := none, newest := 1, records := [some exPlace, none, some exPlace] }, signature := none } }
  tachographG2 := some { gnssPlaces := some { data := (3, [none, none]), signature := none } } }

/-- It meets the hypothesis of `nil_entries_written`, and what is written has the nil place as ten zeros and nothing for the others. -/
example : ¬ NilCondition exNilCard := by simp [NilCondition, exNilCard]

example : marshalFileN (some { type := .driverCard, driverCard := some exNilCard }) =
    .ok ([5, 2, 0, 0, 0] ++ ([5, 2, 1, 0, 128] ++ zeros 128) ++
      [5, 6, 0, 0, 31, 1, 0, 0, 0, 0, 0, 0, 7, 0, 1, 2, 0, 0, 0, 0, 0, 0, 0, 0, 0, 0, 0, 0, 0, 0, 0, 0, 7, 0, 1, 2] ++
      ([5, 6, 1, 0, 128] ++ zeros 128) ++ [5, 36, 2, 0, 2, 0, 3] ++ ([5, 36, 3, 0, 128] ++ zeros 128)) := by
  decide +kernel

/-- A nil place between two others in a file with raw data of which nothing is left. -/
example : appendPlacesN [8] (some { rawData := some (List.replicate 31 9), newest := 1, records := [some exPlace, none, some exPlace] }) =
    .ok ([8, 1] ++ [0, 0, 0, 0, 0, 0, 7, 0, 1, 2] ++ zeros 10 ++ [0, 0, 0, 0, 0, 0, 7, 0, 1, 2]) := by
  decide +kernel

/-- Two vehicles and a nil one between them: the last one is anonymised as the third. -/
example : (anonymizeVehiclesUsedN { rawData := none, newest := 2, records := [some emptyVehicle, none, some { emptyVehicle with odometerBegin := 7 }] }).records =
    [some (anonymizeCardVehicleRecord emptyVehicle 0), none, some (anonymizeCardVehicleRecord { emptyVehicle with odometerBegin := 7 } 2)] ∧
    anonymizeCardVehicleRecord emptyVehicle 2 ≠ anonymizeCardVehicleRecord emptyVehicle 0 := by
  decide +kernel

/-- A nil condition, a nil vehicle and a nil change of a valid day, each in a card that could be written without. -/
example : NilCondition { tachographG2 := some { specificConditions := some {
    data := { rawData := none, newest := 0, records := [none] }, signature := none } } } :=
  .inr ⟨_, rfl, by simp⟩

example : NilVehicle { tachograph := some { vehiclesUsed := some {
    data := { rawData := none, newest := 0, records := [none] }, signature := none } } } :=
  .inl ⟨_, rfl, by simp⟩

example : NilActivity { tachograph := some { driverActivityData := some {
    data := { oldest := 0, newest := 0, rawData := none, records := [some { emptyDayN with valid := true, changes := [none] }] },
    signature := none } } } :=
  ⟨_, rfl, rfl, .inr ⟨_, List.mem_singleton.2 rfl, rfl, List.mem_singleton.2 rfl⟩⟩

/-- With the bytes the days were read from, nil days do not matter. -/
example : marshalFileN (some { type := .driverCard, driverCard := some { tachograph := some { driverActivityData := some {
    data := { oldest := 0, newest := 0, rawData := some [1, 2, 3], records := [none] }, signature := none } } } }) =
    .ok ([5, 4, 0, 0, 7, 0, 0, 0, 0, 1, 2, 3] ++ ([5, 4, 1, 0, 128] ++ zeros 128)) := by
  decide +kernel

/-- The one panic of `nil_entries_no_panic` occurs. -/
example : marshalFileN (some { type := .driverCard, driverCard := some { tachographG2 := some { specificConditions := some {
    data := { rawData := some [0], newest := 0, records := [none] }, signature := none } } } }) = .panic := by
  decide +kernel

/-- A raw card of which the middle record is nil. -/
example : marshalFileN (some { type := .rawCard, rawCard := some [some { emptyRawRec with tag := 0x050200, length := 1, value := [9] }, none] }) =
    .ok [5, 2, 0, 0, 1, 9, 0, 0, 0, 0, 0] := by
  decide +kernel

/-- Anonymising places panics also when the nil one is not the first. -/
example : anonymizePlacesN { rawData := none, newest := 0, records := [some exPlace, none] } = .panic :=
  (anonymize_places_nil _).1 (by simp)

end Tacho
