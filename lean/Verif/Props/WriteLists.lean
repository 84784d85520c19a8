import Verif.Props.WriteFiles
/-!
# C61: lists of records: written, then read

Whatever raw data the message still carries from an earlier file (of the same or of another size), the
records that are read back are the records of the message, in order, and no others. EF_Specific_Conditions
of the second generation is the exception: see `conditionsG2_deleted_stay`.
-/

namespace Tacho
open Spec

theorem list_write {α β : Type} {w : Bytes → α → Res Bytes} {r : Bytes → Res β} {n : Nat} {Same : α → β → Prop} {xs : List α}
    (h : ∀ x ∈ xs, ∃ e x', e.length = n ∧ WritesBytes (w · x) e ∧ r e = .ok x' ∧ Same x x') :
    ∃ outs xs', (∀ o ∈ outs, o.length = n) ∧ outs.length = xs.length ∧ (∀ dst, appendEach w dst xs = .ok (dst ++ outs.flatten)) ∧
      mapRes (w []) xs = .ok outs ∧ mapRes r outs = .ok xs' ∧ List.Forall₂ Same xs xs' := by
  induction xs with
  | nil => exact ⟨[], [], by simp, rfl, fun dst => by simp [appendEach], rfl, rfl, .nil⟩
  | cons x xs ih =>
    rw [List.forall_mem_cons] at h
    obtain ⟨⟨e, x', h1, h2, h3, h4⟩, h⟩ := h
    obtain ⟨outs, xs', i1, i2, i3, i4, i5, i6⟩ := ih h
    refine ⟨e :: outs, x' :: xs', by simpa [h1] using i1, by simp [i2], fun dst => ?_, ?_, ?_, .cons h4 i6⟩
    · simp only [appendEach]
      rw [show w dst x = .ok (dst ++ e) from h2 dst, Res.bind_ok, i3]
      simp
    · simp only [mapRes]
      rw [show w [] x = .ok ([] ++ e) from h2 [], i4]
      rfl
    · simp only [mapRes, h3, i5]
      rfl

theorem exactly_of_writes {α β : Type} {w : Bytes → α → Res Bytes} {r : Bytes → Res β} {n : Nat} {Same : α → β → Prop} {xs : List α}
    (h : ∀ x ∈ xs, ∃ e x', e.length = n ∧ WritesBytes (w · x) e ∧ r e = .ok x' ∧ Same x x') : ∀ x ∈ xs, AppendsExactly n (w · x) := by
  intro x hx
  obtain ⟨e, _, h1, h2, _⟩ := h x hx
  exact Or.inl ⟨e, h1, h2⟩

/-- A file with a header of two bytes. -/
theorem file2_write {α : Type} {w : Bytes → α → Res Bytes} {r : Bytes → Res α} {n : Nat} {Same : α → α → Prop} {m : RecordFile α} (h0 : 0 < n)
    (hn : Fits 16 m.newest) (h : ∀ x ∈ m.records, ∃ e x', e.length = n ∧ WritesBytes (w · x) e ∧ r e = .ok x' ∧ Same x x') :
    ∃ e xs', WritesBytes (appendRecordFile2 w n · (some m)) e ∧ e.length = 2 + n * m.records.length ∧
      (beNat (sl e 0 2) : Int) = m.newest ∧ RecordsAre r 2 n e xs' ∧ List.Forall₂ Same m.records xs' := by
  obtain ⟨outs, xs', o1, o2, _, o4, o5, o6⟩ := list_write h
  obtain ⟨b1, b2⟩ := word_fits hn
  refine ⟨beBytes 2 (low 16 m.newest) ++ outs.flatten, xs', fun dst => ?_, ?_, ?_, ?_, o6⟩
  · show appendRecordFile2 w n dst (some m) = _
    rw [appendRecordFile2_eq m (exactly_of_writes h), o4, Res.bind_ok]
  · rw [List.length_append, b1, flatten_size o1, o2, Nat.mul_comm]
  · rw [← take_eq_sl, List.take_left' b1, b2]
  · rw [← mapRes_cut_iff h0, List.drop_left' b1, cut_of_flatten h0 outs o1, o5]

section
variable [Charmap]

/-- C61: EF_Vehicles_Used. -/
theorem vehiclesUsed_write_read (m : RecordFile CardVehicleRecord) (hn : Fits 16 m.newest)
    (h : ∀ r ∈ m.records, RawFits r.rawData 31 ∧ CardVehicleOk r) :
    ∃ e m', WritesBytes (appendVehiclesUsed · (some m)) e ∧ e.length = 2 + 31 * m.records.length ∧ unmarshalVehiclesUsed e = .ok m' ∧
      m'.newest = m.newest ∧ List.Forall₂ SameCardVehicle m.records m'.records := by
  obtain ⟨e, xs', h1, h2, h3, h4, h5⟩ := file2_write (n := 31) (r := unmarshalCardVehicleRecord) (Same := SameCardVehicle) (by omega) hn
    (fun x hx => by
      obtain ⟨e, x', h1, h2, h3, h4, _⟩ := cardVehicle_write_read x (h x hx).1 (h x hx).2
      exact ⟨e, x', h1, h2, h3, h4⟩)
  exact ⟨e, ⟨some e, m.newest, xs'⟩, h1, h2, (vehiclesUsed_ok_iff e _).2 ⟨by omega, rfl, h3.symm, h4⟩, rfl, h5⟩

/-- C61: EF_Vehicles_Used of the second generation. -/
theorem vehiclesUsedG2_write_read (m : RecordFile CardVehicleRecordG2) (hn : Fits 16 m.newest)
    (h : ∀ r ∈ m.records, RawFits r.base.rawData 48 ∧ CardVehicleOk r.base ∧ VinOk r.vin) :
    ∃ e m', WritesBytes (appendVehiclesUsedG2 · (some m)) e ∧ e.length = 2 + 48 * m.records.length ∧ unmarshalVehiclesUsedG2 e = .ok m' ∧
      m'.newest = m.newest ∧ List.Forall₂ (fun r r' => SameCardVehicle r.base r'.base ∧ r'.vin = r.vin) m.records m'.records := by
  obtain ⟨e, xs', h1, h2, h3, h4, h5⟩ := file2_write (n := 48) (r := unmarshalCardVehicleRecordG2)
    (Same := fun r r' => SameCardVehicle r.base r'.base ∧ r'.vin = r.vin) (by omega) hn
    (fun x hx => by
      obtain ⟨e, x', h1, h2, h3, h4, h5, _⟩ := cardVehicleG2_write_read x (h x hx).1 (h x hx).2.1 (h x hx).2.2
      exact ⟨e, x', h1, h2, h3, h4, h5⟩)
  exact ⟨e, ⟨some e, m.newest, xs'⟩, h1, h2, (vehiclesUsedG2_ok_iff e _).2 ⟨by omega, rfl, h3.symm, h4⟩, rfl, h5⟩

end

theorem place_list {rs : List PlaceRecord} (h : ∀ r ∈ rs, RawFits r.rawData 10 ∧ PlaceOk r) :
    ∀ x ∈ rs, ∃ e x', e.length = 10 ∧ WritesBytes (appendPlaceRecord · x) e ∧ unmarshalPlaceRecord e = .ok x' ∧ SamePlace x x' := by
  intro x hx
  obtain ⟨e, h1, h2, h3⟩ := place_write_read x (h x hx).1 (h x hx).2
  exact ⟨e, _, h1, h2, h3, rfl, rfl⟩

/-- C61: EF_Places. -/
theorem places_write_read (m : RecordFile PlaceRecord) (hn : Fits 8 m.newest) (h : ∀ r ∈ m.records, RawFits r.rawData 10 ∧ PlaceOk r) :
    ∃ e m', WritesBytes (appendPlaces · (some m)) e ∧ e.length = 1 + 10 * m.records.length ∧ unmarshalPlaces e = .ok m' ∧
      m'.newest = m.newest ∧ List.Forall₂ SamePlace m.records m'.records := by
  obtain ⟨outs, xs', o1, o2, _, o4, o5, o6⟩ := list_write (place_list h)
  have hl : ([i2b m.newest] : Bytes).length = 1 := rfl
  have h2 : ([i2b m.newest] ++ outs.flatten).length = 1 + 10 * m.records.length := by
    rw [List.length_append, hl, flatten_size o1, o2, Nat.mul_comm]
  refine ⟨_, ⟨some _, m.newest, xs'⟩, fun dst => ?_, h2, (places_ok_iff _ _).2 ⟨by omega, rfl, ?_, ?_⟩, rfl, o6⟩
  · show appendPlaces dst (some m) = _
    rw [appendPlaces_eq m, o4, Res.bind_ok]
  · have := byte_fits hn
    simp only [← take_eq_sl, List.take_left' hl]
    simp [beNat, this]
  · rw [← mapRes_cut_iff (by omega), List.drop_left' hl, cut_of_flatten (by omega) outs o1, o5]

/-- C61: EF_Places of the second generation. -/
theorem placesG2_write_read (m : RecordFile PlaceRecordG2) (hn : Fits 16 m.newest)
    (h : ∀ r ∈ m.records, RawFits r.base.rawData 21 ∧ PlaceOk r.base ∧ Has GnssOk r.gnss) :
    ∃ e m', WritesBytes (appendPlacesG2 · (some m)) e ∧ e.length = 2 + 21 * m.records.length ∧ unmarshalPlacesG2 e = .ok m' ∧
      m'.newest = m.newest ∧ List.Forall₂ SamePlaceG2 m.records m'.records := by
  obtain ⟨e, xs', h1, h2, h3, h4, h5⟩ := file2_write (n := 21) (r := unmarshalPlaceRecordG2) (Same := SamePlaceG2) (by omega) hn
    (fun x hx => by
      obtain ⟨e, h1, h2, h3⟩ := placeG2_write_read x (h x hx).1 (h x hx).2.1 (h x hx).2.2
      exact ⟨e, _, h1, h2, h3, ⟨rfl, rfl⟩, rfl⟩)
  exact ⟨e, ⟨some e, m.newest, xs'⟩, h1, h2, (placesG2_ok_iff e _).2 ⟨by omega, rfl, h3.symm, h4⟩, rfl, h5⟩

theorem condition_list {rs : List SpecificConditionRecord} (h : ∀ r ∈ rs, ConditionOk r) :
    ∀ x ∈ rs, ∃ e x', e.length = 5 ∧ WritesBytes (fun d => appendSpecificConditionRecord d (some x)) e ∧
      unmarshalSpecificConditionRecord e = .ok x' ∧ x = x' := by
  intro x hx
  obtain ⟨e, h1, h2, h3⟩ := condition_write_read x (h x hx)
  exact ⟨e, _, h1, h2, h3, rfl⟩

/-- C61: EF_Specific_Conditions. -/
theorem conditions_write_read (m : RecordFile SpecificConditionRecord) (h : ∀ r ∈ m.records, ConditionOk r) :
    ∃ e m', WritesBytes (appendSpecificConditions · (some m)) e ∧ e.length = 5 * m.records.length ∧ unmarshalSpecificConditions e = .ok m' ∧
      m'.records = m.records := by
  obtain ⟨outs, xs', o1, o2, _, o4, o5, o6⟩ := list_write (w := fun d r => appendSpecificConditionRecord d (some r)) (condition_list h)
  rw [List.forall₂_eq_eq_eq] at o6
  subst o6
  refine ⟨outs.flatten, ⟨if outs.flatten = [] then none else some outs.flatten, 0, m.records⟩, fun dst => ?_, ?_,
    (specificConditions_ok_iff _ _).2 ⟨rfl, rfl, ?_⟩, rfl⟩
  · show appendSpecificConditions dst (some m) = _
    rw [appendSpecificConditions_eq m, o4, Res.bind_ok]
  · rw [flatten_size o1, o2, Nat.mul_comm]
  · rw [← mapRes_cut_iff (by omega), List.drop_zero, cut_of_flatten (by omega) outs o1, o5]

/-- C61: EF_Specific_Conditions of the second generation, written afresh. -/
theorem conditionsG2_write_read (m : RecordFile SpecificConditionRecord) (hr : m.rawData = none) (hn : Fits 16 m.newest)
    (h : ∀ r ∈ m.records, ConditionOk r) :
    ∃ e m', WritesBytes (appendSpecificConditionsG2 · (some m)) e ∧ e.length = 2 + 5 * m.records.length ∧
      unmarshalSpecificConditionsG2 e = .ok m' ∧ m'.newest = m.newest ∧ m'.records = m.records := by
  obtain ⟨outs, xs', o1, o2, _, o4, o5, o6⟩ := list_write (w := fun d r => appendSpecificConditionRecord d (some r)) (condition_list h)
  rw [List.forall₂_eq_eq_eq] at o6
  subst o6
  obtain ⟨b1, b2⟩ := word_fits hn
  have h2 : (beBytes 2 (low 16 m.newest) ++ outs.flatten).length = 2 + 5 * m.records.length := by
    rw [List.length_append, b1, flatten_size o1, o2, Nat.mul_comm]
  refine ⟨_, ⟨some _, m.newest, m.records⟩, fun dst => ?_, h2, (specificConditionsG2_ok_iff _ _).2 ⟨by omega, rfl, ?_, ?_⟩, rfl, rfl⟩
  · obtain ⟨raw, n, rs⟩ := m
    simp only at hr
    subst hr
    show appendSpecificConditionsG2 dst _ = _
    rw [appendSpecificConditionsG2_fresh, o4, Res.bind_ok]
  · rw [← take_eq_sl, List.take_left' b1, b2]
  · rw [← mapRes_cut_iff (by omega), List.drop_left' b1, cut_of_flatten (by omega) outs o1, o5]

/-! ## EF_GNSS_Places, EF_Vehicle_Units_Used -/

theorem gnssEntry_write_read (m : GnssPlaceEntry) (h : GnssEntryOk m) :
    ∃ e, e.length = 18 ∧ WritesBytes (appendGnssPlaceEntry · m) e ∧ unmarshalGnssPlaceEntry e = .ok m := by
  obtain ⟨h1, ⟨g, hg, hg'⟩, h3, h4⟩ := h
  obtain ⟨t, t1, t2, t3⟩ := time_write h1
  obtain ⟨e, e1, e2, e3⟩ := gnss_write_read g hg'
  obtain ⟨o1, o2, o3⟩ := odometer_write (v := m.odometerKm) ⟨h3, by omega⟩
  rw [o3] at o1 o2
  have hl : (t ++ (e ++ beBytes 3 (low 32 m.odometerKm))).length = 18 := by simp [t1, e1]
  refine ⟨_, hl, fun dst => ?_, ?_⟩
  · simp only [appendGnssPlaceEntry, hg]
    rw [show ∀ d, appendTimeReal d m.timestamp = .ok (d ++ t) from t2, Res.bind_ok,
      show ∀ d, appendGNSSPlaceRecord d (some g) = .ok (d ++ e) from e2, Res.bind_ok, if_neg (by omega)]
    simp [appendOdometer, ← o3]
  · obtain ⟨a, b, c⟩ := m
    simp only at hg
    subst hg
    simp only [unmarshalGnssPlaceEntry, hl, ne_eq, not_true_eq_false, if_false, Res.bind_ok, Res.pure_eq, sl?_head t1, sl?_tail t1, sl?_head e1,
      sl?_tail e1, Nat.le_refl, Nat.reduceLeDiff, Nat.reduceSub, sl?_all o1, t3, e3, (odometer_accepts_iff _ _).2 ⟨o1, rfl⟩, o2]

/-- C61: EF_GNSS_Places. -/
theorem gnssPlaces_write_read (n : Int) (rs : List GnssPlaceEntry) (hn : Fits 16 n) (h : ∀ r ∈ rs, GnssEntryOk r) :
    ∃ e, WritesBytes (appendGnssPlaces · (some (n, rs))) e ∧ e.length = 2 + 18 * rs.length ∧ unmarshalGnssPlaces e = .ok (n, rs) := by
  obtain ⟨outs, xs', o1, o2, o3, o4, o5, o6⟩ := list_write (w := appendGnssPlaceEntry) (r := unmarshalGnssPlaceEntry) (n := 18) (Same := Eq)
    (xs := rs) (fun x hx => by
      obtain ⟨e, h1, h2, h3⟩ := gnssEntry_write_read x (h x hx)
      exact ⟨e, x, h1, h2, h3, rfl⟩)
  rw [List.forall₂_eq_eq_eq] at o6
  subst o6
  obtain ⟨b1, b2⟩ := word_fits hn
  have h2 : (beBytes 2 (low 16 n) ++ outs.flatten).length = 2 + 18 * rs.length := by
    rw [List.length_append, b1, flatten_size o1, o2, Nat.mul_comm]
  refine ⟨_, fun dst => ?_, h2, (gnssPlaces_ok_iff _ _ _).2 ⟨by omega, by omega, ?_, ?_⟩⟩
  · simp only [appendGnssPlaces, o3, List.append_assoc]
  · rw [← take_eq_sl, List.take_left' b1, b2]
  · rw [← mapRes_cut_iff (by omega), List.drop_left' b1, cut_of_flatten (by omega) outs o1, o5]

theorem unit_write_read (m : VehicleUnitRecord) (h : UnitOk m) :
    ∃ e, e.length = 10 ∧ WritesBytes (appendVehicleUnitRecord · m) e ∧ vehicleUnitOf e = m := by
  obtain ⟨h1, h2, h3, h4⟩ := h
  obtain ⟨t, t1, t2, t3⟩ := time_write h1
  obtain ⟨a, b, c, d⟩ := m
  obtain ⟨x, rfl⟩ := List.length_eq_one_iff.1 h3
  simp only at h1 h2 h4 t2 t3
  have hc1 := h2.1
  have hc2 := h2.2
  have hl : (t ++ ([i2b b] ++ ([x] ++ d))).length = 10 := by simp [t1, h4]
  refine ⟨_, hl, fun dst => ?_, ?_⟩
  · simp only [appendVehicleUnitRecord]
    rw [show ∀ d, appendTimeReal d a = .ok (d ++ t) from t2, Res.bind_ok, if_neg (by omega)]
    simp [h4, zeros]
  · have s1 := (sl?_iff.1 (sl?_head (b := [i2b b] ++ ([x] ++ d)) t1)).2.2
    have s2 : sl? (t ++ ([i2b b] ++ ([x] ++ d))) 5 6 = .ok [x] := by
      simp only [sl?_tail t1, sl?_next, Nat.reduceLeDiff, Nat.reduceSub, Nat.le_refl]
      exact sl?_head rfl
    have s3 : sl? (t ++ ([i2b b] ++ ([x] ++ d))) 6 10 = .ok d := by
      simp only [sl?_tail t1, sl?_next, Nat.reduceLeDiff, Nat.reduceSub, Nat.le_refl, sl?_all h4]
    have s4 : (t ++ ([i2b b] ++ ([x] ++ d))).getD 4 0 = i2b b := by
      rw [List.getD_eq_getElem?_getD, List.getElem?_append_right (by omega), t1]
      rfl
    simp only [vehicleUnitOf, ← s1, ← (sl?_iff.1 s2).2.2, ← (sl?_iff.1 s3).2.2, s4, byte_fits h2, ← timeReal_instant t3]

/-- C61: EF_Vehicle_Units_Used of up to 409 records (above that the reader mixes up records, see C05). -/
theorem vehicleUnits_write_read (n : Int) (rs : List VehicleUnitRecord) (hn : Fits 16 n) (hl : rs.length ≤ 409) (h : ∀ r ∈ rs, UnitOk r) :
    ∃ e, WritesBytes (appendVehicleUnitsUsed · (some (n, rs))) e ∧ e.length = 2 + 10 * rs.length ∧ unmarshalVehicleUnitsUsed e = .ok (n, rs) := by
  obtain ⟨outs, xs', o1, o2, o3, o4, o5, o6⟩ := list_write (w := appendVehicleUnitRecord) (r := fun x => .ok (vehicleUnitOf x)) (n := 10)
    (Same := Eq) (xs := rs) (fun x hx => by
      obtain ⟨e, h1, h2, h3⟩ := unit_write_read x (h x hx)
      exact ⟨e, x, h1, h2, by rw [h3], rfl⟩)
  rw [List.forall₂_eq_eq_eq] at o6
  subst o6
  obtain ⟨b1, b2⟩ := word_fits hn
  have h2 : (beBytes 2 (low 16 n) ++ outs.flatten).length = 2 + 10 * rs.length := by
    rw [List.length_append, b1, flatten_size o1, o2, Nat.mul_comm]
  refine ⟨_, fun dst => ?_, h2, (vehicleUnits_ok_iff _ (by omega) _ _).2 ⟨by omega, by omega, ?_, ?_⟩⟩
  · simp only [appendVehicleUnitsUsed, o3, List.append_assoc]
  · rw [← take_eq_sl, List.take_left' b1, b2]
  · rw [← mapRes_cut_iff (by omega), List.drop_left' b1, cut_of_flatten (by omega) outs o1, o5]

/-! ## EF_Events_Data, EF_Faults_Data -/

section
variable [Charmap]

theorem event_write_read (m : EventRecord) (h : EventOk m) :
    ∃ e m', e.length = 24 ∧ WritesBytes (appendEventRecord · m) e ∧ eventOf e = .ok m' ∧ SameEvent m m' := by
  rcases h with ⟨hv, hn, h1, h1', h2, r, hr, hr'⟩ | ⟨hv, r, hr, hl, hz⟩
  · obtain ⟨b, b1, b2⟩ := named_byte (by decide) hn
    obtain ⟨T, T1, T2, T3⟩ := time_write h1
    obtain ⟨E, E1, E2, E3⟩ := time_write h2
    obtain ⟨R, r', R1, R2, R3, R4⟩ := registration_write_read r hr'
    have hT : beNat T ≠ 0 := by
      intro hz
      simp only [unmarshalTimeReal, T1, ne_eq, not_true_eq_false, if_false, hz, if_pos, Res.ok.injEq] at T3
      exact h1' T3.symm
    have hl : ([b] ++ (T ++ (E ++ R))).length = 24 := by simp [T1, E1, R1]
    have hs : sl ([b] ++ (T ++ (E ++ R))) 1 5 = T := by
      have : sl? ([b] ++ (T ++ (E ++ R))) 1 5 = .ok T := by
        simp only [sl?_next, Nat.le_refl, Nat.reduceLeDiff, Nat.reduceSub, sl?_head T1]
      exact (sl?_iff.1 this).2.2.symm
    refine ⟨_, ⟨true, none, m.type, m.beginTime, m.endTime, some r'⟩, hl, fun dst => ?_, ?_, hv.symm, fun h => by simp [hv] at h,
      fun _ => ⟨rfl, rfl, rfl, r, r', hr, rfl, R4⟩⟩
    · simp only [appendEventRecord, hv, Bool.true_eq_false, if_false, lax_of b1, hr]
      rw [show ∀ d, appendTimeReal d m.beginTime = .ok (d ++ T) from T2, Res.bind_ok,
        show ∀ d, appendTimeReal d m.endTime = .ok (d ++ E) from E2, Res.bind_ok,
        show ∀ d, appendVehicleRegistration d (some r) = .ok (d ++ R) from R2]
      simp
    · rw [eventOf, hs, if_neg hT]
      simp only [unmarshalEventRecord, hl, Nat.lt_irrefl, if_false, Res.bind_ok, Res.pure_eq, at?_head, sl?_next, b2, sl?_head T1, sl?_tail T1,
        sl?_head E1, sl?_tail E1, sl?_all R1, Nat.le_refl, Nat.reduceLeDiff, Nat.reduceSub, T3, E3, R3]
  · refine ⟨r, ⟨false, some r, 0, none, none, none⟩, hl, fun dst => ?_, ?_, ?_, ?_, ?_⟩
    · simp only [appendEventRecord, hv, if_pos, hr, Option.getD_some]
    · rw [eventOf, hz, if_pos (by decide)]
    · exact hv.symm
    · exact fun _ => hr.symm
    · simp [hv]

/-- C61: EF_Events_Data and EF_Faults_Data of up to 170 records (4096 bytes; larger ones are subject to C05). -/
theorem events_write_read (rs : List EventRecord) (hl : rs.length ≤ 170) (h : ∀ r ∈ rs, EventOk r) :
    ∃ e rs', WritesBytes (appendEventsData · rs) e ∧ e.length = 24 * rs.length ∧ unmarshalEventsData e = .ok rs' ∧
      List.Forall₂ SameEvent rs rs' := by
  obtain ⟨outs, xs', o1, o2, o3, o4, o5, o6⟩ := list_write (fun x hx => event_write_read x (h x hx))
  have h2 : outs.flatten.length = 24 * rs.length := by rw [flatten_size o1, o2, Nat.mul_comm]
  refine ⟨outs.flatten, xs', o3, h2, (events_ok_iff _ ⟨by omega, Or.inl (by omega)⟩ _).2 ?_, o6⟩
  rw [← mapRes_cut_iff (by omega), List.drop_zero, cut_of_flatten (by omega) outs o1, o5]

omit [Charmap] in
/-- C61: a record marked as used but without a begin time does not come back: it is read as unused, with the
type, end time and vehicle it had only in its raw bytes. -/
theorem event_without_begin [Charmap] (m : EventRecord) (hv : m.valid = true) (hn : Named eventFaultTypeTable m.type) (hb : m.beginTime = none)
    (he : TimeOk m.endTime) (hr : Has RegOk m.registration) :
    ∃ e m', e.length = 24 ∧ WritesBytes (appendEventRecord · m) e ∧ eventOf e = .ok m' ∧ m'.valid = false ∧ m'.rawData = some e := by
  obtain ⟨r, hr, hr'⟩ := hr
  obtain ⟨b, b1, b2⟩ := named_byte (by decide) hn
  obtain ⟨E, E1, E2, E3⟩ := time_write he
  obtain ⟨R, r', R1, R2, R3, R4⟩ := registration_write_read r hr'
  have hl : ([b] ++ (zeros 4 ++ (E ++ R))).length = 24 := by simp [zeros, E1, R1]
  have hs : sl ([b] ++ (zeros 4 ++ (E ++ R))) 1 5 = zeros 4 := by
    have : sl? ([b] ++ (zeros 4 ++ (E ++ R))) 1 5 = .ok (zeros 4) := by
      simp only [sl?_next, Nat.le_refl, Nat.reduceLeDiff, Nat.reduceSub]
      exact sl?_head rfl
    exact (sl?_iff.1 this).2.2.symm
  refine ⟨_, _, hl, fun dst => ?_, by rw [eventOf, hs, if_pos (by decide)], rfl, rfl⟩
  simp only [appendEventRecord, hv, Bool.true_eq_false, if_false, lax_of b1, hr, hb]
  rw [show ∀ d, appendTimeReal d none = .ok (d ++ zeros 4) from fun _ => rfl, Res.bind_ok,
    show ∀ d, appendTimeReal d m.endTime = .ok (d ++ E) from E2, Res.bind_ok,
    show ∀ d, appendVehicleRegistration d (some r) = .ok (d ++ R) from R2]
  simp

end

/-! ## Deleting records of EF_Specific_Conditions (second generation) has no effect -/

theorem cut_append {n : Nat} (h0 : 0 < n) (xs : List Bytes) (h : ∀ x ∈ xs, x.length = n) (y : Bytes) : cut n (xs.flatten ++ y) = xs ++ cut n y := by
  induction xs with
  | nil => rfl
  | cons x xs ih =>
    rw [List.forall_mem_cons] at h
    rw [List.flatten_cons, List.append_assoc, cut_cons h0 (by simp [h.1]), List.take_left' h.1, List.drop_left' h.1, ih h.2, List.cons_append]

theorem cut_drop {n : Nat} (h0 : 0 < n) (k : Nat) (d : Bytes) : cut n (d.drop (k * n)) = (cut n d).drop k := by
  induction k generalizing d with
  | zero => simp
  | succ k ih =>
    by_cases hd : n ≤ d.length
    · rw [cut_cons h0 hd, List.drop_succ_cons, ← ih, List.drop_drop, Nat.succ_mul, Nat.add_comm]
    · rw [cut_nil (d := d) (by omega), List.drop_nil, cut_nil]
      simp
      omega

theorem mapRes_append_ok {α β : Type} {f : α → Res β} {xs ys : List α} {xs' ys' : List β} (h1 : mapRes f xs = .ok xs') (h2 : mapRes f ys = .ok ys') :
    mapRes f (xs ++ ys) = .ok (xs' ++ ys') := by
  rw [mapRes_ok_iff] at *
  exact List.rel_append h1 h2

theorem paintConditionsG2_none (rs : List SpecificConditionRecord) (h : ∀ r ∈ rs, ConditionOk r) (canvas : Bytes) (off : Nat)
    (hc : canvas.length < off + rs.length * 5) (h0 : off ≤ canvas.length) : paintConditionsG2 canvas off rs = .ok none := by
  induction rs generalizing canvas off with
  | nil => simp at hc; omega
  | cons r rs ih =>
    rw [List.forall_mem_cons] at h
    simp only [paintConditionsG2]
    split
    · rfl
    · obtain ⟨e, e1, e2, _⟩ := condition_write_read r h.1
      rw [show appendSpecificConditionRecord [] (some r) = .ok ([] ++ e) from e2 [], Res.bind_ok, List.nil_append, if_neg (by omega)]
      simp only [List.length_cons, Nat.succ_mul] at hc
      exact ih h.2 _ _ (by rw [paint_length (by omega)]; omega) (by rw [paint_length (by omega)]; omega)

/-- C61: a file that was read, its records replaced by `rs`, then written and read again: the records are `rs`
followed by those old records whose positions `rs` does not reach. -/
theorem conditionsG2_edit (raw : Bytes) (old : RecordFile SpecificConditionRecord) (ho : unmarshalSpecificConditionsG2 raw = .ok old)
    (n : Int) (hn : Fits 16 n) (rs : List SpecificConditionRecord) (h : ∀ r ∈ rs, ConditionOk r) :
    ∃ e m', WritesBytes (appendSpecificConditionsG2 · (some { old with newest := n, records := rs })) e ∧
      unmarshalSpecificConditionsG2 e = .ok m' ∧ m'.newest = n ∧ m'.records = rs ++ old.records.drop rs.length := by
  obtain ⟨hl, hraw, hnew, hrec⟩ := (specificConditionsG2_ok_iff raw old).1 ho
  have hcnt := hrec.1
  unfold recordCount at hcnt
  rw [← mapRes_cut_iff (by omega)] at hrec
  obtain ⟨outs, xs', o1, o2, o3, o4, o5, o6⟩ := list_write (w := fun d r => appendSpecificConditionRecord d (some r)) (condition_list h)
  rw [List.forall₂_eq_eq_eq] at o6
  subst o6
  obtain ⟨b1, b2⟩ := word_fits hn
  have hp : paint raw 0 2 (beBytes 2 (low 16 n)) = beBytes 2 (low 16 n) ++ raw.drop 2 := paint_start b1
  have hpl : (beBytes 2 (low 16 n) ++ raw.drop 2).length = raw.length := by simp; omega
  by_cases hc : 2 + rs.length * 5 ≤ raw.length
  · refine ⟨beBytes 2 (low 16 n) ++ (outs.flatten ++ raw.drop (2 + rs.length * 5)), ⟨some _, n, _⟩, fun dst => ?_,
      (specificConditionsG2_ok_iff _ _).2 ⟨by simp, rfl, ?_, ?_⟩, rfl, rfl⟩
    · simp only [appendSpecificConditionsG2, hraw, Option.getD_some, hp]
      rw [if_pos (by omega), sl?_ok (by omega) (by omega), Res.bind_ok, paintConditionsG2_eq _ _ _ (by omega),
        paintEach_eq (f := fun d r => appendSpecificConditionRecord d (some r)) (fun r _ => appendSpecificConditionRecord_exact (some r)) _ _ (by omega),
        o4, Res.bind_ok, Res.bind_ok, Res.bind_ok]
      simp only [Res.pure_eq, List.take_left' b1, ← List.drop_drop, List.drop_left' b1, List.append_assoc]
    · rw [← take_eq_sl, List.take_left' b1, b2]
    · rw [← mapRes_cut_iff (by omega), List.drop_left' b1, cut_append (by omega) outs o1, ← List.drop_drop, cut_drop (by omega)]
      refine mapRes_append_ok o5 ?_
      rw [mapRes_ok_iff] at hrec ⊢
      exact List.forall₂_drop _ hrec
  · have hold : old.records.drop rs.length = [] := List.drop_eq_nil_of_le (by omega)
    refine ⟨beBytes 2 (low 16 n) ++ outs.flatten, ⟨some _, n, rs⟩, fun dst => ?_, (specificConditionsG2_ok_iff _ _).2 ⟨by simp, rfl, ?_, ?_⟩,
      rfl, by rw [hold, List.append_nil]⟩
    · simp only [appendSpecificConditionsG2, hraw, Option.getD_some, hp]
      rw [if_pos (by omega), sl?_ok (by omega) (by omega), Res.bind_ok, paintConditionsG2_none rs h _ _ (by omega) (by omega), Res.bind_ok]
      simp only [o3, List.append_assoc]
    · rw [← take_eq_sl, List.take_left' b1, b2]
    · rw [← mapRes_cut_iff (by omega), List.drop_left' b1, cut_of_flatten (by omega) outs o1, o5]

theorem timeOk_read {d : Bytes} {t : Option Timestamp} (h : unmarshalTimeReal d = .ok t) : TimeOk t := by
  have hl := (timeReal_accepts_iff d).mp ⟨t, h⟩
  have hlt := beNat_lt d
  rw [hl] at hlt
  rw [timeReal_instant h]
  intro x hx
  unfold instant at hx
  split at hx
  · cases hx
  · cases hx
    exact ⟨by simp only; omega, by simp only; omega, rfl⟩

/-- Every condition record that was read can be written. -/
theorem condition_read {d : Bytes} {m : SpecificConditionRecord} (h : unmarshalSpecificConditionRecord d = .ok m) : ConditionOk m := by
  obtain ⟨hl, ts, b, hts, hb, rfl⟩ := specificCondition_parse h
  exact ⟨timeOk_read hts, b, enumOrUnrecognized_coded _ _⟩

/-- C61, finding: records deleted from the end come back. -/
theorem conditionsG2_deleted_stay (raw : Bytes) (old : RecordFile SpecificConditionRecord) (ho : unmarshalSpecificConditionsG2 raw = .ok old)
    (k : Nat) :
    ∃ e m', WritesBytes (appendSpecificConditionsG2 · (some { old with records := old.records.take k })) e ∧
      unmarshalSpecificConditionsG2 e = .ok m' ∧ m'.records = old.records := by
  obtain ⟨hl, hraw, hnew, hrec⟩ := (specificConditionsG2_ok_iff raw old).1 ho
  have hn : Fits 16 old.newest := by
    have := beNat_lt (sl raw 0 2)
    rw [sl_length_of hl] at this
    rw [hnew]
    refine ⟨by omega, ?_⟩
    omega
  have h : ∀ r ∈ old.records, ConditionOk r := by
    intro r hr
    obtain ⟨i, hi, rfl⟩ := List.getElem_of_mem hr
    exact condition_read (hrec.2 i hi)
  obtain ⟨e, m', h1, h2, _, h4⟩ := conditionsG2_edit raw old ho old.newest hn (old.records.take k) (fun r hr => h r (List.mem_of_mem_take hr))
  refine ⟨e, m', h1, h2, ?_⟩
  rw [h4, List.length_take]
  by_cases hk : k ≤ old.records.length
  · rw [Nat.min_eq_left hk, List.take_append_drop]
  · rw [Nat.min_eq_right (by omega), List.take_of_length_le (by omega), List.drop_length, List.append_nil]

end Tacho
