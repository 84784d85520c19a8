import Verif.Lemmas.RecordFile
import Verif.Props.CardHolder
/-!
# EF_Vehicles_Used, EF_Places, EF_Specific_Conditions, EF_GNSS_Places and their Gen2 forms (C28, C48)

For each file: what is accepted and what it holds (`_ok_iff`, `_accepts_iff`), what is written
(`_restores_iff`: always the whole records, never the bytes behind them), and that the retained raw data
never influences what is written (`_raw_irrelevant`).
-/

namespace Tacho
open Spec

theorem wholeRecords_eq_iff {h n : Nat} {d : Bytes} (hl : h ≤ d.length) :
    wholeRecords h n d = d ↔ (d.length - h) % n = 0 := by
  unfold wholeRecords recordCount
  have := Nat.mod_add_div (d.length - h) n
  rw [Nat.mul_comm] at this
  constructor
  · intro e
    have := congrArg List.length e
    rw [List.length_take] at this
    omega
  · intro e
    exact List.take_of_length_le (by omega)

theorem wholeRecords_split {h n : Nat} (h0 : 0 < n) {d : Bytes} : wholeRecords h n d = d.take h ++ (cut n (d.drop h)).flatten := by
  rw [cut_flatten h0, List.length_drop, wholeRecords, recordCount, List.take_add]

/-- Header of two bytes, restored. -/
theorem header2 {d : Bytes} (hl : 2 ≤ d.length) : beBytes 2 (low 16 (beNat (sl d 0 2) : Int)) = d.take 2 := by
  rw [be_slice (d := d) (a := 0) (k := 2) hl rfl, take_eq_sl]

theorem recordFile2_restores {α : Type} {f : Bytes → Res α} {g : Bytes → α → Res Bytes} {n : Nat} (h0 : 0 < n) {d : Bytes}
    {m : RecordFile α} (hl : 2 ≤ d.length) (hn : m.newest = (beNat (sl d 0 2) : Int))
    (hr : RecordsAre f 2 n d m.records) (hg : ∀ r ∈ m.records, AppendsExactly n (g · r)) {Good : Bytes → Prop}
    (hgood : ∀ x r, f x = .ok r → (g [] r = .ok x ↔ Good x)) (dst : Bytes) :
    appendRecordFile2 g n dst (some m) = .ok (dst ++ wholeRecords 2 n d) ↔ AllRecords 2 n d Good := by
  rw [← mapRes_cut_iff h0] at hr
  rw [appendRecordFile2_eq m hg, hn, header2 hl, wholeRecords_split h0, ← forall_cut_iff h0]
  have := mapRes_restores hr hg (cut_sizes h0 _) hgood (dst ++ d.take 2) []
  simpa only [List.append_nil, List.append_assoc] using this

section
variable [Charmap]

/-! ## EF_Vehicles_Used -/

/-- C28/C48: what `unmarshalVehiclesUsed` returns. -/
theorem vehiclesUsed_ok_iff (d : Bytes) (m : RecordFile CardVehicleRecord) : unmarshalVehiclesUsed d = .ok m ↔
    2 ≤ d.length ∧ m.rawData = some d ∧ m.newest = (beNat (sl d 0 2) : Int) ∧
      RecordsAre unmarshalCardVehicleRecord 2 31 d m.records := by
  simp only [unmarshalVehiclesUsed, Res.pure_eq, guard_eq_ok, bind_eq_ok, Res.ok.injEq, sl?_iff, from?_iff]
  constructor
  · rintro ⟨hl, _, ⟨_, _, rfl⟩, _, ⟨_, rfl⟩, rs, hrs, rfl⟩
    exact ⟨by omega, rfl, rfl, (mapRes_cut_iff (by omega)).mp hrs⟩
  · rintro ⟨hl, h1, h2, h3⟩
    obtain ⟨r, n, rs⟩ := m
    subst h1 h2
    exact ⟨by omega, _, ⟨by omega, by omega, rfl⟩, _, ⟨by omega, rfl⟩, rs, (mapRes_cut_iff (by omega)).mpr h3, rfl⟩

/-- C28: only the BCD block counters are checked. -/
theorem vehiclesUsed_accepts_iff (d : Bytes) : (∃ m, unmarshalVehiclesUsed d = .ok m) ↔
    2 ≤ d.length ∧ AllRecords 2 31 d (fun x => ByteAt x 29 IsBcd ∧ ByteAt x 30 IsBcd) := by
  constructor
  · rintro ⟨m, h⟩
    obtain ⟨hl, _, _, h3⟩ := (vehiclesUsed_ok_iff d m).mp h
    refine ⟨hl, fun i hi => ?_⟩
    exact ((cardVehicle_accepts_iff _).mp ⟨_, h3.2 i (by rw [h3.1]; exact hi)⟩).2
  · rintro ⟨hl, h⟩
    obtain ⟨rs, hrs⟩ := (mapRes_cut_exists (f := unmarshalCardVehicleRecord) (h := 2) (n := 31) (by omega) (d := d)).mpr
      (fun i hi => (cardVehicle_accepts_iff _).mpr ⟨record_length hi (by omega), h i hi⟩)
    exact ⟨⟨some d, _, rs⟩, (vehiclesUsed_ok_iff d _).mpr ⟨hl, rfl, rfl, (mapRes_cut_iff (by omega)).mp hrs⟩⟩

/-- C28: header and whole records are restored exactly when every registration survives; bytes behind the
last whole record are never written. -/
theorem vehiclesUsed_restores_iff (d dst : Bytes) (m : RecordFile CardVehicleRecord) (h : unmarshalVehiclesUsed d = .ok m) :
    appendVehiclesUsed dst (some m) = .ok (dst ++ wholeRecords 2 31 d) ↔
      AllRecords 2 31 d (fun x => ByteAt x 14 (Known nationNumericTable) ∧ ByteAt x 15 KnownCodePage) := by
  obtain ⟨hl, _, h2, h3⟩ := (vehiclesUsed_ok_iff d m).mp h
  exact recordFile2_restores (by omega) hl h2 h3 (fun r _ => appendCardVehicleRecord_exact r)
    (fun x r hx => by simpa using cardVehicle_roundtrip_iff x [] r hx) dst

omit [Charmap] in
/-- C28: editing the records of a parsed file writes the edited records: the raw bytes play no part. -/
theorem vehiclesUsed_raw_irrelevant (dst : Bytes) (raw : Option Bytes) (m : RecordFile CardVehicleRecord) :
    appendVehiclesUsed dst (some { m with rawData := raw }) = appendVehiclesUsed dst (some m) := by
  unfold appendVehiclesUsed
  rw [appendRecordFile2_eq _ (fun r _ => appendCardVehicleRecord_exact r), appendRecordFile2_eq _ (fun r _ => appendCardVehicleRecord_exact r)]

omit [Charmap] in
/-- C22 -/
theorem appendVehiclesUsed_exact (m : RecordFile CardVehicleRecord) :
    AppendsExactly (2 + m.records.length * 31) (appendVehiclesUsed · (some m)) := by
  have := mapRes_size (beBytes 2 (low 16 m.newest)) (fun r (_ : r ∈ m.records) => appendCardVehicleRecord_exact r)
  simp only [beBytes_length] at this
  unfold appendVehiclesUsed
  simp only [appendRecordFile2_eq m (fun r _ => appendCardVehicleRecord_exact r)]
  exact this

/-! ## EF_Vehicles_Used, Gen2 -/

theorem vehiclesUsedG2_ok_iff (d : Bytes) (m : RecordFile CardVehicleRecordG2) : unmarshalVehiclesUsedG2 d = .ok m ↔
    2 ≤ d.length ∧ m.rawData = some d ∧ m.newest = (beNat (sl d 0 2) : Int) ∧
      RecordsAre unmarshalCardVehicleRecordG2 2 48 d m.records := by
  simp only [unmarshalVehiclesUsedG2, Res.pure_eq, guard_eq_ok, bind_eq_ok, Res.ok.injEq, sl?_iff, from?_iff]
  constructor
  · rintro ⟨hl, _, ⟨_, _, rfl⟩, _, ⟨_, rfl⟩, rs, hrs, rfl⟩
    exact ⟨by omega, rfl, rfl, (mapRes_cut_iff (by omega)).mp hrs⟩
  · rintro ⟨hl, h1, h2, h3⟩
    obtain ⟨r, n, rs⟩ := m
    subst h1 h2
    exact ⟨by omega, _, ⟨by omega, by omega, rfl⟩, _, ⟨by omega, rfl⟩, rs, (mapRes_cut_iff (by omega)).mpr h3, rfl⟩

theorem vehiclesUsedG2_accepts_iff (d : Bytes) : (∃ m, unmarshalVehiclesUsedG2 d = .ok m) ↔
    2 ≤ d.length ∧ AllRecords 2 48 d (fun x => ByteAt x 29 IsBcd ∧ ByteAt x 30 IsBcd) := by
  constructor
  · rintro ⟨m, h⟩
    obtain ⟨hl, _, _, h3⟩ := (vehiclesUsedG2_ok_iff d m).mp h
    refine ⟨hl, fun i hi => ?_⟩
    exact ((cardVehicleG2_accepts_iff _).mp ⟨_, h3.2 i (by rw [h3.1]; exact hi)⟩).2
  · rintro ⟨hl, h⟩
    obtain ⟨rs, hrs⟩ := (mapRes_cut_exists (f := unmarshalCardVehicleRecordG2) (h := 2) (n := 48) (by omega) (d := d)).mpr
      (fun i hi => (cardVehicleG2_accepts_iff _).mpr ⟨record_length hi (by omega), h i hi⟩)
    exact ⟨⟨some d, _, rs⟩, (vehiclesUsedG2_ok_iff d _).mpr ⟨hl, rfl, rfl, (mapRes_cut_iff (by omega)).mp hrs⟩⟩

/-- C28 -/
theorem vehiclesUsedG2_restores_iff (d dst : Bytes) (m : RecordFile CardVehicleRecordG2) (h : unmarshalVehiclesUsedG2 d = .ok m) :
    appendVehiclesUsedG2 dst (some m) = .ok (dst ++ wholeRecords 2 48 d) ↔
      AllRecords 2 48 d (fun x => ByteAt x 14 (Known nationNumericTable) ∧ ByteAt x 15 KnownCodePage ∧
        ∃ p n, sl x 31 48 = p ++ List.replicate n 0x20 ∧ (∀ t b, p = t ++ [b] → b ≠ 0 ∧ b ≠ 0x20)) := by
  obtain ⟨hl, _, h2, h3⟩ := (vehiclesUsedG2_ok_iff d m).mp h
  exact recordFile2_restores (by omega) hl h2 h3 (fun r _ => appendCardVehicleRecordG2_exact r)
    (fun x r hx => by simpa only [List.nil_append] using cardVehicleG2_roundtrip_iff x [] r hx) dst

omit [Charmap] in
theorem vehiclesUsedG2_raw_irrelevant (dst : Bytes) (raw : Option Bytes) (m : RecordFile CardVehicleRecordG2) :
    appendVehiclesUsedG2 dst (some { m with rawData := raw }) = appendVehiclesUsedG2 dst (some m) := by
  unfold appendVehiclesUsedG2
  rw [appendRecordFile2_eq _ (fun r _ => appendCardVehicleRecordG2_exact r), appendRecordFile2_eq _ (fun r _ => appendCardVehicleRecordG2_exact r)]

omit [Charmap] in
theorem appendVehiclesUsedG2_exact (m : RecordFile CardVehicleRecordG2) :
    AppendsExactly (2 + m.records.length * 48) (appendVehiclesUsedG2 · (some m)) := by
  have := mapRes_size (beBytes 2 (low 16 m.newest)) (fun r (_ : r ∈ m.records) => appendCardVehicleRecordG2_exact r)
  simp only [beBytes_length] at this
  unfold appendVehiclesUsedG2
  simp only [appendRecordFile2_eq m (fun r _ => appendCardVehicleRecordG2_exact r)]
  exact this

end

/-! ## EF_Places -/

theorem parsePlace_of_length {x : Bytes} (h : x.length = 10) : parsePlace x = unmarshalPlaceRecord x := by
  obtain ⟨m, hm⟩ := (place_accepts_iff x).mpr h
  unfold parsePlace
  rw [hm]

theorem parsePlaceG2_of_length {x : Bytes} (h : x.length = 21) : parsePlaceG2 x = unmarshalPlaceRecordG2 x := by
  obtain ⟨m, hm⟩ := (placeG2_accepts_iff x).mpr h
  unfold parsePlaceG2
  rw [hm]

theorem mapRes_congr {α β : Type} {f g : α → Res β} {xs : List α} (h : ∀ x ∈ xs, f x = g x) : mapRes f xs = mapRes g xs := by
  induction xs with
  | nil => rfl
  | cons x xs ih =>
    rw [List.forall_mem_cons] at h
    simp only [mapRes, h.1, ih h.2]

theorem mapUntilErr_congr {α β : Type} {f g : α → Res β} {xs : List α} (h : ∀ x ∈ xs, f x = g x) : mapUntilErr f xs = mapUntilErr g xs := by
  induction xs with
  | nil => rfl
  | cons x xs ih =>
    rw [List.forall_mem_cons] at h
    simp only [mapUntilErr, h.1, ih h.2]

/-- C28: every record of a place file parses, so the "invalid record" fallback is never taken. -/
theorem places_ok_iff (d : Bytes) (m : RecordFile PlaceRecord) : unmarshalPlaces d = .ok m ↔
    1 ≤ d.length ∧ m.rawData = some d ∧ m.newest = (beNat (sl d 0 1) : Int) ∧
      RecordsAre unmarshalPlaceRecord 1 10 d m.records := by
  have hc : mapRes parsePlace (cut 10 (d.drop 1)) = mapRes unmarshalPlaceRecord (cut 10 (d.drop 1)) :=
    mapRes_congr fun x hx => parsePlace_of_length (cut_sizes (by omega) _ x hx)
  simp only [unmarshalPlaces, Res.pure_eq, guard_eq_ok, bind_eq_ok, Res.ok.injEq, at?_iff, from?_iff]
  constructor
  · rintro ⟨hl, b, ⟨_, hb⟩, _, ⟨_, rfl⟩, rs, hrs, rfl⟩
    rw [hc] at hrs
    exact ⟨by omega, rfl, by rw [hb]; simp [beNat], (mapRes_cut_iff (by omega)).mp hrs⟩
  · rintro ⟨hl, h1, h2, h3⟩
    obtain ⟨r, n, rs⟩ := m
    subst h1 h2
    have hb := sl_eq_singleton (d := d) (i := 0) (by omega)
    exact ⟨by omega, d[0], ⟨by omega, hb⟩, _, ⟨by omega, rfl⟩, rs,
      by rw [hc]; exact (mapRes_cut_iff (by omega)).mpr h3, by rw [hb]; simp [beNat]⟩

/-- C28: a non-empty file is always accepted. -/
theorem places_accepts_iff (d : Bytes) : (∃ m, unmarshalPlaces d = .ok m) ↔ 1 ≤ d.length := by
  constructor
  · rintro ⟨m, h⟩; exact ((places_ok_iff d m).mp h).1
  · intro hl
    obtain ⟨rs, hrs⟩ := (mapRes_cut_exists (f := unmarshalPlaceRecord) (h := 1) (n := 10) (by omega) (d := d)).mpr
      (fun i hi => (place_accepts_iff _).mpr (record_length hi (by omega)))
    exact ⟨⟨some d, _, rs⟩, (places_ok_iff d _).mpr ⟨hl, rfl, rfl, (mapRes_cut_iff (by omega)).mp hrs⟩⟩

theorem appendPlaces_eq (v : RecordFile PlaceRecord) (dst : Bytes) :
    appendPlaces dst (some v) = (mapRes (appendPlaceRecord []) v.records >>= fun outs =>
      .ok (dst ++ ([i2b v.newest] ++ outs.flatten))) := by
  unfold appendPlaces
  dsimp only
  split
  · rename_i hl
    have hp : (paint (v.rawData.getD []) 0 1 [i2b v.newest]).length = 1 + v.records.length * 10 := by
      rw [paint_length (by omega), hl]
    rw [paintEach_eq (fun r _ => appendPlaceRecord_exact r) _ _ (by omega), List.drop_eq_nil_of_le (by omega), Res.bind_assoc]
    simp only [Res.bind_ok, Res.pure_eq, List.append_nil]
    rw [paint_eq (by simp)]
    have : ((v.rawData.getD []).take 0 ++ [i2b v.newest] ++ (v.rawData.getD []).drop (0 + 1)).take 1 = [i2b v.newest] := by
      rw [List.take_zero, List.nil_append]
      exact List.take_left' (by simp)
    rw [this]
  · rw [appendEachNew_eq]
    simp only [List.append_assoc]

/-- C28: header and whole records of a place file are restored, always. -/
theorem places_restores (d dst : Bytes) (m : RecordFile PlaceRecord) (h : unmarshalPlaces d = .ok m) :
    appendPlaces dst (some m) = .ok (dst ++ wholeRecords 1 10 d) := by
  obtain ⟨hl, _, h2, h3⟩ := (places_ok_iff d m).mp h
  rw [← mapRes_cut_iff (by omega)] at h3
  have hb := sl_eq_singleton (d := d) (i := 0) (by omega)
  have hh : [i2b m.newest] = d.take 1 := by
    rw [h2, hb, take_eq_sl, hb]; simp [beNat]
  rw [appendPlaces_eq, hh, wholeRecords_split (by omega)]
  have := (mapRes_restores h3 (fun r _ => appendPlaceRecord_exact r) (cut_sizes (by omega) _) (Good := fun _ => True)
    (fun x r hx => by simpa using place_roundtrip x [] r hx) (dst ++ d.take 1) []).mpr (fun _ _ => trivial)
  simpa only [List.append_nil, List.append_assoc] using this

theorem places_raw_irrelevant (dst : Bytes) (raw : Option Bytes) (m : RecordFile PlaceRecord) :
    appendPlaces dst (some { m with rawData := raw }) = appendPlaces dst (some m) := by
  rw [appendPlaces_eq, appendPlaces_eq]

theorem appendPlaces_exact (m : RecordFile PlaceRecord) :
    AppendsExactly (1 + m.records.length * 10) (appendPlaces · (some m)) := by
  have := mapRes_size [i2b m.newest] (fun r (_ : r ∈ m.records) => appendPlaceRecord_exact r)
  simp only [appendPlaces_eq]
  exact this

/-! ## EF_Places, Gen2 -/

theorem placesG2_ok_iff (d : Bytes) (m : RecordFile PlaceRecordG2) : unmarshalPlacesG2 d = .ok m ↔
    2 ≤ d.length ∧ m.rawData = some d ∧ m.newest = (beNat (sl d 0 2) : Int) ∧
      RecordsAre unmarshalPlaceRecordG2 2 21 d m.records := by
  have hc : mapRes parsePlaceG2 (cut 21 (d.drop 2)) = mapRes unmarshalPlaceRecordG2 (cut 21 (d.drop 2)) :=
    mapRes_congr fun x hx => parsePlaceG2_of_length (cut_sizes (by omega) _ x hx)
  simp only [unmarshalPlacesG2, Res.pure_eq, guard_eq_ok, bind_eq_ok, Res.ok.injEq, sl?_iff, from?_iff]
  constructor
  · rintro ⟨hl, _, ⟨_, _, rfl⟩, _, ⟨_, rfl⟩, rs, hrs, rfl⟩
    rw [hc] at hrs
    exact ⟨by omega, rfl, rfl, (mapRes_cut_iff (by omega)).mp hrs⟩
  · rintro ⟨hl, h1, h2, h3⟩
    obtain ⟨r, n, rs⟩ := m
    subst h1 h2
    exact ⟨by omega, _, ⟨by omega, by omega, rfl⟩, _, ⟨by omega, rfl⟩, rs, by rw [hc]; exact (mapRes_cut_iff (by omega)).mpr h3, rfl⟩

theorem placesG2_accepts_iff (d : Bytes) : (∃ m, unmarshalPlacesG2 d = .ok m) ↔ 2 ≤ d.length := by
  constructor
  · rintro ⟨m, h⟩; exact ((placesG2_ok_iff d m).mp h).1
  · intro hl
    obtain ⟨rs, hrs⟩ := (mapRes_cut_exists (f := unmarshalPlaceRecordG2) (h := 2) (n := 21) (by omega) (d := d)).mpr
      (fun i hi => (placeG2_accepts_iff _).mpr (record_length hi (by omega)))
    exact ⟨⟨some d, _, rs⟩, (placesG2_ok_iff d _).mpr ⟨hl, rfl, rfl, (mapRes_cut_iff (by omega)).mp hrs⟩⟩

/-- C28 -/
theorem placesG2_restores (d dst : Bytes) (m : RecordFile PlaceRecordG2) (h : unmarshalPlacesG2 d = .ok m) :
    appendPlacesG2 dst (some m) = .ok (dst ++ wholeRecords 2 21 d) := by
  obtain ⟨hl, _, h2, h3⟩ := (placesG2_ok_iff d m).mp h
  exact (recordFile2_restores (by omega) hl h2 h3 (fun r _ => appendPlaceRecordG2_exact r) (Good := fun _ => True)
    (fun x r hx => by simpa using placeG2_roundtrip x [] r hx) dst).mpr (fun _ _ => trivial)

theorem placesG2_raw_irrelevant (dst : Bytes) (raw : Option Bytes) (m : RecordFile PlaceRecordG2) :
    appendPlacesG2 dst (some { m with rawData := raw }) = appendPlacesG2 dst (some m) := by
  unfold appendPlacesG2
  rw [appendRecordFile2_eq _ (fun r _ => appendPlaceRecordG2_exact r), appendRecordFile2_eq _ (fun r _ => appendPlaceRecordG2_exact r)]

theorem appendPlacesG2_exact (m : RecordFile PlaceRecordG2) :
    AppendsExactly (2 + m.records.length * 21) (appendPlacesG2 · (some m)) := by
  have := mapRes_size (beBytes 2 (low 16 m.newest)) (fun r (_ : r ∈ m.records) => appendPlaceRecordG2_exact r)
  simp only [beBytes_length] at this
  unfold appendPlacesG2
  simp only [appendRecordFile2_eq m (fun r _ => appendPlaceRecordG2_exact r)]
  exact this

/-! ## EF_Specific_Conditions -/

theorem conditions_cut (h : Nat) (d : Bytes) : ∀ x ∈ cut 5 (d.drop h), ∃ r, unmarshalSpecificConditionRecord x = .ok r :=
  fun x hx => (specificCondition_accepts_iff x).mpr (cut_sizes (by omega) _ x hx)

/-- C28: every input is accepted; an empty one has no raw data. -/
theorem specificConditions_ok_iff (d : Bytes) (m : RecordFile SpecificConditionRecord) :
    unmarshalSpecificConditions d = .ok m ↔
      m.rawData = (if d = [] then none else some d) ∧ m.newest = 0 ∧
      RecordsAre unmarshalSpecificConditionRecord 0 5 d m.records := by
  unfold unmarshalSpecificConditions
  by_cases h0 : d = []
  · subst h0
    obtain ⟨r, n, rs⟩ := m
    simp only [List.length_nil, if_true, Res.pure_eq, Res.ok.injEq, RecordFile.mk.injEq, RecordsAre, recordCount]
    constructor
    · rintro ⟨rfl, rfl, rfl⟩; exact ⟨rfl, rfl, rfl, by simp⟩
    · rintro ⟨rfl, rfl, hl, _⟩
      exact ⟨rfl, rfl, (List.eq_nil_of_length_eq_zero (by simpa using hl)).symm⟩
  · have hne : d.length ≠ 0 := by rw [ne_eq, List.length_eq_zero_iff]; exact h0
    rw [if_neg hne, if_neg h0]
    have hc := conditions_cut 0 d
    rw [List.drop_zero] at hc
    rw [mapUntilErr_ok hc]
    have hr := fun rs => mapRes_cut_iff (f := unmarshalSpecificConditionRecord) (n := 5) (h := 0) (by omega) (d := d) (rs := rs)
    rw [List.drop_zero] at hr
    simp only [bind_eq_ok, Res.pure_eq, Res.ok.injEq, hr]
    constructor
    · rintro ⟨rs, hrs, rfl⟩; exact ⟨rfl, rfl, hrs⟩
    · rintro ⟨h1, h2, h3⟩
      obtain ⟨r, n, rs⟩ := m
      subst h1 h2
      exact ⟨rs, h3, rfl⟩

theorem specificConditions_accepts (d : Bytes) : ∃ m, unmarshalSpecificConditions d = .ok m := by
  obtain ⟨rs, hrs⟩ := (mapRes_cut_exists (f := unmarshalSpecificConditionRecord) (h := 0) (n := 5) (by omega) (d := d)).mpr
    (fun i hi => (specificCondition_accepts_iff _).mpr (record_length hi (by omega)))
  exact ⟨⟨if d = [] then none else some d, 0, rs⟩, (specificConditions_ok_iff d _).mpr ⟨rfl, rfl, (mapRes_cut_iff (by omega)).mp hrs⟩⟩

theorem appendSpecificConditions_eq (v : RecordFile SpecificConditionRecord) (dst : Bytes) :
    appendSpecificConditions dst (some v) = (mapRes (fun r => appendSpecificConditionRecord [] (some r)) v.records >>= fun outs =>
      .ok (dst ++ outs.flatten)) := by
  unfold appendSpecificConditions
  dsimp only
  split
  · rename_i hl
    rw [paintEach_eq (f := fun d r => appendSpecificConditionRecord d (some r)) (fun r _ => appendSpecificConditionRecord_exact (some r)) _ _ (by omega),
      List.drop_eq_nil_of_le (by omega), Res.bind_assoc]
    simp
  · rw [appendEach_eq (fun r _ => AppendsWith.mono (appendSpecificConditionRecord_exact (some r)) (fun _ _ => trivial))]

/-- C28 -/
theorem specificConditions_restores (d dst : Bytes) (m : RecordFile SpecificConditionRecord) (h : unmarshalSpecificConditions d = .ok m) :
    appendSpecificConditions dst (some m) = .ok (dst ++ wholeRecords 0 5 d) := by
  obtain ⟨_, _, h3⟩ := (specificConditions_ok_iff d m).mp h
  rw [← mapRes_cut_iff (by omega)] at h3
  rw [appendSpecificConditions_eq, wholeRecords_split (by omega)]
  have := (mapRes_restores (g := fun d r => appendSpecificConditionRecord d (some r)) h3
    (fun r _ => appendSpecificConditionRecord_exact (some r)) (cut_sizes (by omega) _) (Good := fun _ => True)
    (fun x r hx => by simpa using specificCondition_roundtrip x [] r hx) dst []).mpr (fun _ _ => trivial)
  simpa only [List.append_nil, List.take_zero, List.nil_append] using this

theorem specificConditions_raw_irrelevant (dst : Bytes) (raw : Option Bytes) (m : RecordFile SpecificConditionRecord) :
    appendSpecificConditions dst (some { m with rawData := raw }) = appendSpecificConditions dst (some m) := by
  rw [appendSpecificConditions_eq, appendSpecificConditions_eq]

theorem appendSpecificConditions_exact (m : RecordFile SpecificConditionRecord) :
    AppendsExactly (m.records.length * 5) (appendSpecificConditions · (some m)) := by
  have := mapRes_size (g := fun d r => appendSpecificConditionRecord d (some r)) []
    (fun r (_ : r ∈ m.records) => appendSpecificConditionRecord_exact (some r))
  simp only [List.length_nil, Nat.zero_add, List.nil_append] at this
  simp only [appendSpecificConditions_eq]
  exact this

/-! ## EF_Specific_Conditions, Gen2 -/

theorem specificConditionsG2_ok_iff (d : Bytes) (m : RecordFile SpecificConditionRecord) : unmarshalSpecificConditionsG2 d = .ok m ↔
    2 ≤ d.length ∧ m.rawData = some d ∧ m.newest = (beNat (sl d 0 2) : Int) ∧
      RecordsAre unmarshalSpecificConditionRecord 2 5 d m.records := by
  simp only [unmarshalSpecificConditionsG2, Res.pure_eq, guard_eq_ok, bind_eq_ok, Res.ok.injEq, sl?_iff, from?_iff]
  constructor
  · rintro ⟨hl, _, ⟨_, _, rfl⟩, _, ⟨_, rfl⟩, rs, hrs, rfl⟩
    rw [mapUntilErr_ok (conditions_cut 2 d)] at hrs
    exact ⟨by omega, rfl, rfl, (mapRes_cut_iff (by omega)).mp hrs⟩
  · rintro ⟨hl, h1, h2, h3⟩
    obtain ⟨r, n, rs⟩ := m
    subst h1 h2
    exact ⟨by omega, _, ⟨by omega, by omega, rfl⟩, _, ⟨by omega, rfl⟩, rs,
      by rw [mapUntilErr_ok (conditions_cut 2 d)]; exact (mapRes_cut_iff (by omega)).mpr h3, rfl⟩

theorem specificConditionsG2_accepts_iff (d : Bytes) : (∃ m, unmarshalSpecificConditionsG2 d = .ok m) ↔ 2 ≤ d.length := by
  constructor
  · rintro ⟨m, h⟩; exact ((specificConditionsG2_ok_iff d m).mp h).1
  · intro hl
    obtain ⟨rs, hrs⟩ := (mapRes_cut_exists (f := unmarshalSpecificConditionRecord) (h := 2) (n := 5) (by omega) (d := d)).mpr
      (fun i hi => (specificCondition_accepts_iff _).mpr (record_length hi (by omega)))
    exact ⟨⟨some d, _, rs⟩, (specificConditionsG2_ok_iff d _).mpr ⟨hl, rfl, rfl, (mapRes_cut_iff (by omega)).mp hrs⟩⟩

/-- On a canvas that is large enough the Gen2 loop is the ordinary painting loop; otherwise it gives up. -/
theorem paintConditionsG2_eq (rs : List SpecificConditionRecord) (canvas : Bytes) (off : Nat) (hc : off + rs.length * 5 ≤ canvas.length) :
    paintConditionsG2 canvas off rs = (paintEach (fun d r => appendSpecificConditionRecord d (some r)) 5 canvas off rs >>= fun c => .ok (some c)) := by
  induction rs generalizing canvas off with
  | nil => rfl
  | cons r rs ih =>
    simp only [List.length_cons, Nat.succ_mul] at hc
    simp only [paintConditionsG2, paintEach]
    rw [if_neg (by omega)]
    cases hx : appendSpecificConditionRecord [] (some r) with
    | err m => rfl
    | panic => rfl
    | ok b =>
      have hb : b.length = 5 := appendsExactly_nil (appendSpecificConditionRecord_exact (some r)) hx
      simp only [Res.bind_ok]
      split
      · omega
      · rw [ih _ _ (by rw [paint_length (by omega)]; omega)]

/-- C28: Gen2 specific conditions are restored, trailing bytes included. -/
theorem specificConditionsG2_restores (d dst : Bytes) (m : RecordFile SpecificConditionRecord) (h : unmarshalSpecificConditionsG2 d = .ok m) :
    appendSpecificConditionsG2 dst (some m) = .ok (dst ++ d) := by
  obtain ⟨hl, h1, h2, h3⟩ := (specificConditionsG2_ok_iff d m).mp h
  have hcnt := h3.1
  unfold recordCount at hcnt
  have hle := Nat.div_mul_le_self (d.length - 2) 5
  rw [← hcnt] at hle
  rw [← mapRes_cut_iff (by omega)] at h3
  have hp : paint d 0 2 (beBytes 2 (low 16 (beNat (sl d 0 2) : Int))) = d := by
    rw [header2 hl]; exact paint_self (by omega) (by rw [take_eq_sl])
  unfold appendSpecificConditionsG2
  simp only [h1, Option.getD_some, h2, hp]
  rw [if_pos (by omega), sl?_ok (by omega) (by omega), Res.bind_ok, paintConditionsG2_eq _ _ _ (by omega),
    paintEach_eq (f := fun d r => appendSpecificConditionRecord d (some r)) (fun r _ => appendSpecificConditionRecord_exact (some r)) _ _ (by omega)]
  have hmap : mapRes (fun r => appendSpecificConditionRecord [] (some r)) m.records = .ok (cut 5 (d.drop 2)) := by
    rw [mapRes_ok_iff] at h3 ⊢
    refine List.Forall₂.imp ?_ h3.flip
    intro r x hx
    simpa using specificCondition_roundtrip x [] r hx
  rw [hmap]
  simp only [Res.bind_ok, Res.pure_eq]
  rw [← wholeRecords_split (by omega)]
  unfold wholeRecords recordCount
  rw [← hcnt, List.take_append_drop]

/-- C28: a message whose raw data is a single byte makes the writer panic. No parse produces such a
message, but `SetRawData` does. -/
theorem appendSpecificConditionsG2_panics (dst : Bytes) (b : UInt8) (n : Int) (rs : List SpecificConditionRecord) :
    appendSpecificConditionsG2 dst (some ⟨some [b], n, rs⟩) = .panic := rfl

/-- C22/C28: without retained raw data, or with raw data too short for the records, everything is written
afresh. -/
theorem appendSpecificConditionsG2_fresh (dst : Bytes) (n : Int) (rs : List SpecificConditionRecord) :
    appendSpecificConditionsG2 dst (some ⟨none, n, rs⟩) =
      (mapRes (fun r => appendSpecificConditionRecord [] (some r)) rs >>= fun outs => .ok (dst ++ (beBytes 2 (low 16 n) ++ outs.flatten))) := by
  have : appendSpecificConditionsG2 dst (some ⟨none, n, rs⟩) = appendEach (fun d r => appendSpecificConditionRecord d (some r))
      (dst ++ beBytes 2 (low 16 n)) rs := rfl
  rw [this, appendEach_eq (fun r _ => AppendsWith.mono (appendSpecificConditionRecord_exact (some r)) (fun _ _ => trivial))]
  simp only [List.append_assoc]

/-! ## The hypotheses are met -/

/-- A Gen1 vehicle record: odometers, first and last use, Germany, "AB123", block counter 12 34. -/
def Spec.exampleVehicle : Bytes := [0, 1, 0, 0, 2, 0, 0x5E, 0x0B, 0xE1, 0, 0x5E, 0x0B, 0xF1, 0] ++
  [13, 1, 0x41, 0x42, 0x31, 0x32, 0x33, 0x20, 0x20, 0x20, 0x20, 0x20, 0x20, 0x20, 0x20] ++ [0x12, 0x34]

/-- One vehicle record and three bytes that do not make a record: accepted, and restored without those. -/
example [Charmap] : ∃ m, unmarshalVehiclesUsed ([0, 0] ++ exampleVehicle ++ [1, 2, 3]) = .ok m ∧
    appendVehiclesUsed [9] (some m) = .ok ([9] ++ ([0, 0] ++ exampleVehicle)) := by
  have hall : ∀ P : Bytes → Prop, P exampleVehicle → AllRecords 2 31 ([0, 0] ++ exampleVehicle ++ [1, 2, 3]) P := by
    intro P h1 i hi
    have hi : i < 1 := hi
    match i, hi with
    | 0, _ => exact h1
  obtain ⟨m, h⟩ := (vehiclesUsed_accepts_iff ([0, 0] ++ exampleVehicle ++ [1, 2, 3])).mpr
    ⟨by decide, hall _ ⟨⟨0x12, rfl, by decide⟩, ⟨0x34, rfl, by decide⟩⟩⟩
  exact ⟨m, h, (vehiclesUsed_restores_iff _ [9] m h).mpr (hall _ ⟨⟨13, rfl, known_iff.mpr ⟨_, rfl⟩⟩, ⟨1, rfl, by decide⟩⟩)⟩

/-- Two place records and a partial one. -/
example : ∃ m, unmarshalPlaces ([1] ++ [0x5E, 0x0B, 0xE1, 0, 0, 13, 0, 0, 1, 2] ++ zeros 10 ++ [7]) = .ok m ∧
    appendPlaces [] (some m) = .ok ([1] ++ [0x5E, 0x0B, 0xE1, 0, 0, 13, 0, 0, 1, 2] ++ zeros 10) := by
  obtain ⟨m, h⟩ := (places_accepts_iff ([1] ++ [0x5E, 0x0B, 0xE1, 0, 0, 13, 0, 0, 1, 2] ++ zeros 10 ++ [7])).mpr (by decide)
  exact ⟨m, h, places_restores _ [] m h⟩

/-- A Gen2 specific conditions file with a partial record keeps all its bytes. -/
example : ∃ m, unmarshalSpecificConditionsG2 ([0, 1] ++ [0x5E, 0x0B, 0xE1, 0, 1] ++ [0x5E, 0x0B, 0xE1, 9, 2] ++ [7, 7]) = .ok m ∧
    m.records.length = 2 ∧
    appendSpecificConditionsG2 [] (some m) = .ok ([0, 1] ++ [0x5E, 0x0B, 0xE1, 0, 1] ++ [0x5E, 0x0B, 0xE1, 9, 2] ++ [7, 7]) := by
  obtain ⟨m, h⟩ := (specificConditionsG2_accepts_iff ([0, 1] ++ [0x5E, 0x0B, 0xE1, 0, 1] ++ [0x5E, 0x0B, 0xE1, 9, 2] ++ [7, 7])).mpr (by decide)
  exact ⟨m, h, ((specificConditionsG2_ok_iff _ m).mp h).2.2.2.1, specificConditionsG2_restores _ [] m h⟩

end Tacho
