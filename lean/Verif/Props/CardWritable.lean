import Verif.Props.CardAgain
/-!
# C67: which parsed driver cards can be written
-/

namespace Tacho

open Spec

/-- Writing succeeds. -/
def IsOk (r : Res Bytes) : Prop := ∃ v, r = .ok v

theorem writes_ok (v : Bytes) : IsOk (.ok v) := ⟨v, rfl⟩

theorem writes_bind_ok {r : Res Bytes} {f : Bytes → Bytes} : IsOk (r >>= fun v => .ok (f v)) ↔ IsOk r := by
  constructor
  · rintro ⟨v, h⟩
    obtain ⟨x, hx, -⟩ := bind_eq_ok.1 h
    exact ⟨x, hx⟩
  · rintro ⟨x, rfl⟩
    exact ⟨_, rfl⟩

theorem writes_mapRes {α : Type} {f : α → Res Bytes} {xs : List α} : (∃ vs, mapRes f xs = .ok vs) ↔ ∀ x ∈ xs, IsOk (f x) := by
  induction xs with
  | nil => simp [mapRes]
  | cons x xs ih =>
    rw [List.forall_mem_cons, ← ih]
    simp only [mapRes, Res.pure_eq, bind_eq_ok, Res.ok.injEq, IsOk]
    constructor
    · rintro ⟨_, y, hy, ys, hys, rfl⟩; exact ⟨⟨y, hy⟩, ys, hys⟩
    · rintro ⟨⟨y, hy⟩, ys, hys⟩; exact ⟨_, y, hy, ys, hys, rfl⟩

theorem writes_mapRes_bind {α : Type} {f : α → Res Bytes} {xs : List α} {g : List Bytes → Bytes} :
    IsOk (mapRes f xs >>= fun vs => .ok (g vs)) ↔ ∀ x ∈ xs, IsOk (f x) := by
  rw [← writes_mapRes]
  constructor
  · rintro ⟨v, h⟩
    obtain ⟨x, hx, -⟩ := bind_eq_ok.1 h
    exact ⟨x, hx⟩
  · rintro ⟨x, hx⟩
    exact ⟨_, by rw [hx]; rfl⟩

theorem nation_known_iff (b : UInt8) : Known nationNumericTable b ↔ NationKnown (enumOr1 nationNumericTable b) := by
  obtain ⟨k1, k2⟩ := enumOr1_known (t := nationNumericTable) (by decide) (by decide) b
  constructor
  · intro hk hc
    have := k1 hk
    rw [hc] at this
    revert this
    rw [show marshalEnum nationNumericTable 1 = .err _ from rfl]
    simp
  · intro h
    obtain ⟨n, hn⟩ := named_of_or1 h
    unfold enumOr1 at h
    cases hu : unmarshalEnum nationNumericTable b with
    | ok v => exact ⟨v, unmarshalEnum_ok hu⟩
    | err m => rw [hu] at h; exact absurd rfl h
    | panic => rw [hu] at h; exact absurd rfl h

section
variable [Charmap]

theorem reg_writes {d : Bytes} {m : VehicleRegistration} (h : unmarshalVehicleRegistration d = .ok m) :
    (NationKnown m.nation → ∃ out, ∀ dst, appendVehicleRegistration dst (some m) = .ok (dst ++ out)) ∧
    (¬ NationKnown m.nation → ∀ dst, ∃ e, appendVehicleRegistration dst (some m) = .err e) := by
  obtain ⟨h1, h2⟩ := registration_restores h
  obtain ⟨n, c, t, rfl, hl, hn, -⟩ := registration_parse h
  rw [byteAt_cons_zero, nation_known_iff, ← hn] at h1 h2
  exact ⟨fun hk => let ⟨out, ho, _⟩ := h1 hk; ⟨out, ho⟩, h2⟩

theorem reg_writes_nil {d : Bytes} {m : VehicleRegistration} (h : unmarshalVehicleRegistration d = .ok m) :
    IsOk (appendVehicleRegistration [] (some m)) ↔ NationKnown m.nation := by
  obtain ⟨h1, h2⟩ := reg_writes h
  constructor
  · rintro ⟨v, hv⟩
    refine Classical.byContradiction fun hn => ?_
    obtain ⟨e, he⟩ := h2 hn []
    rw [he] at hv; cases hv
  · intro hk
    obtain ⟨out, ho⟩ := h1 hk
    exact ⟨_, ho []⟩

theorem usage_writes {d : Bytes} {m : CurrentUsage} (h : unmarshalCurrentUsage d = .ok m) :
    IsOk (appendCurrentUsage [] (some m)) ↔ Each (fun v : VehicleRegistration => NationKnown v.nation) m.vehicle := by
  obtain ⟨hl, ts, reg, hts, hreg, rfl⟩ := currentUsage_parse h
  obtain ⟨h1, h2⟩ := reg_writes hreg
  simp only [appendCurrentUsage, timeReal_slice hts, Res.bind_ok, Each, Option.some.injEq, forall_eq']
  constructor
  · rintro ⟨v, hv⟩
    refine Classical.byContradiction fun hn => ?_
    obtain ⟨e, he⟩ := h2 hn ([] ++ sl d 0 4)
    rw [he] at hv; cases hv
  · intro hk
    obtain ⟨out, ho⟩ := h1 hk
    exact ⟨_, ho _⟩

theorem licence_writes {d : Bytes} {m : DrivingLicenceInfo} (h : unmarshalDrivingLicenceInfo d = .ok m) :
    IsOk (appendDrivingLicenceInfo [] (some m)) ↔ NationKnown m.nation := by
  obtain ⟨hl, a, b, n, ha, hb, hn, rfl⟩ := drivingLicence_parse h
  obtain ⟨out, ho, hol, hoi⟩ := stringValue_restores ha (by simp; omega)
  obtain ⟨k1, k2⟩ := enumOr1_known (t := nationNumericTable) (by decide) (by decide) b
  simp only [appendDrivingLicenceInfo, ho, Res.bind_ok, ← nation_known_iff]
  by_cases hk : Known nationNumericTable b
  · simp only [k1 hk, Res.bind_ok, ia5_roundtrip _ _ (show (sl d 37 53).length < 2 ^ 31 by simp; omega) n hn, hk, iff_true]
    exact ⟨_, rfl⟩
  · obtain ⟨e, he⟩ := k2 hk
    simp only [he, hk, iff_false]
    rintro ⟨v, hv⟩
    cases hv

theorem identification_writes {d : Bytes} {m : Identification} (h : unmarshalIdentification d = .ok m) :
    IsOk (appendIdentification [] m) ↔ Each (fun c => NationKnown c.issuingState) m.card := by
  obtain ⟨hl, b, ct, dr, ow, au, ti, tb, te, sn, fn, bd, la, hb, hcn, hau, hti, htb, hte, hsn, hfn, hbd, hla, rfl⟩ :=
    identification_parse h
  obtain ⟨oa, hoa, hoal, hoai⟩ := stringValue_restores hau (by simp; omega)
  obtain ⟨os, hos, hosl, hosi⟩ := stringValue_restores hsn (by simp; omega)
  obtain ⟨of, hof, hofl, hofi⟩ := stringValue_restores hfn (by simp; omega)
  obtain ⟨bd', ob, hbd', hob, hobl, hobi⟩ := date_slice (d := sl d 137 141) (by simp; omega)
  rw [hbd, Res.ok.injEq] at hbd'
  subst hbd'
  have hobd : ∀ dst, appendDate dst bd = .ok (dst ++ ob) := AppendsWith.of_nil (appendDate_exact bd) hob
  obtain ⟨k1, k2⟩ := enumOr1_known (t := nationNumericTable) (by decide) (by decide) b
  simp only [appendIdentification, appendCardIdentification, Each, Option.some.injEq, forall_eq', ← nation_known_iff]
  by_cases hk : Known nationNumericTable b
  · have hk1 : enumOr1 nationNumericTable b ≠ enumUnrecognized := (nation_known_iff b).1 hk
    rw [if_neg hk1]
    simp only [k1 hk, Res.bind_ok, hoa, timeReal_slice hti, timeReal_slice htb, timeReal_slice hte, appendDriverHolder, hos,
      hof, hobd, ia5_roundtrip _ _ (show (sl d 141 143).length < 2 ^ 31 by simp; omega) la hla, Res.pure_eq, hk, iff_true]
    exact ⟨_, rfl⟩
  · obtain ⟨e, he⟩ := k2 hk
    simp only [he, hk, iff_false]
    rintro ⟨v, hv⟩
    by_cases hk1 : enumOr1 nationNumericTable b = enumUnrecognized
    · rw [if_pos hk1] at hv; cases hv
    · rw [if_neg hk1] at hv; cases hv

theorem event_writes {x : Bytes} (hl : x.length = 24) {r : EventRecord} (h : eventOf x = .ok r) :
    IsOk (appendEventRecord [] r) ↔ Each (fun v : VehicleRegistration => NationKnown v.nation) r.registration := by
  unfold eventOf at h
  split at h
  · cases h
    simp only [appendEventRecord, if_true, Option.getD_some, Each]
    exact ⟨fun _ m hm => (by cases hm), fun _ => ⟨_, rfl⟩⟩
  · rename_i hz
    obtain ⟨_, b, t, tb, te, reg, hb, ht, htb, hte, hreg, rfl⟩ := eventRecord_parse h
    obtain ⟨h1, h2⟩ := reg_writes hreg
    simp only [appendEventRecord, marshalEnumLax_known eventFault_table ht, timeReal_slice htb, timeReal_slice hte, Res.bind_ok,
      Bool.true_eq_false, if_false, Each, Option.some.injEq, forall_eq']
    constructor
    · rintro ⟨v, hv⟩
      refine Classical.byContradiction fun hn => ?_
      obtain ⟨e, he⟩ := h2 hn ([] ++ [b] ++ sl x 1 5 ++ sl x 5 9)
      rw [he] at hv; cases hv
    · intro hk
      obtain ⟨out, ho⟩ := h1 hk
      exact ⟨_, ho _⟩

theorem events_writes {d : Bytes} {rs : List EventRecord} (hl : NeverMoved 24 d.length) (h : unmarshalEventsData d = .ok rs) :
    IsOk (appendEventsData [] rs) ↔ ∀ r ∈ rs, Each (fun v : VehicleRegistration => NationKnown v.nation) r.registration := by
  have hr := (events_ok_iff d hl rs).1 h
  unfold appendEventsData
  rw [appendEach_eq (fun r _ => appendEventRecord_appends r), writes_mapRes_bind]
  refine forall_congr' fun r => forall_congr' fun hm => ?_
  obtain ⟨x, hx, hf⟩ := records_mem_sized hr (by omega) r hm
  exact event_writes hx hf

theorem vehicle_writes {x : Bytes} {r : CardVehicleRecord} (h : unmarshalCardVehicleRecord x = .ok r) :
    IsOk (appendCardVehicleRecord [] r) ↔ Each (fun v : VehicleRegistration => NationKnown v.nation) r.registration := by
  unfold unmarshalCardVehicleRecord at h
  by_cases hl : x.length = 31
  case neg => simp [hl] at h
  simp only [hl, ne_eq, not_true_eq_false, if_false] at h
  obtain ⟨_, t1, t2, reg, c, h1, h2, h3, h4, rfl⟩ := vehicleFields_parse h
  have hcv : canvasNonEmpty (vehicleOf x t1 t2 reg c).rawData 31 = .ok x := canvasNonEmpty_raw hl (by omega)
  have : Each (fun v : VehicleRegistration => NationKnown v.nation) (vehicleOf x t1 t2 reg c).registration ↔ NationKnown reg.nation := by
    simp [Each, vehicleOf]
  rw [this, ← reg_writes_nil h3]
  simp only [appendCardVehicleRecord, hcv, Res.bind_ok, paintVehicle_self (by omega) h1 h2 h4, Res.bind_assoc, Res.pure_eq]
  exact writes_bind_ok

theorem vehicles_writes {d : Bytes} {m : RecordFile CardVehicleRecord} (h : unmarshalVehiclesUsed d = .ok m) :
    IsOk (appendVehiclesUsed [] (some m)) ↔ ∀ r ∈ m.records, Each (fun v : VehicleRegistration => NationKnown v.nation) r.registration := by
  obtain ⟨h2, -, hn, hr⟩ := (vehiclesUsed_ok_iff d m).1 h
  unfold appendVehiclesUsed
  rw [appendRecordFile2_eq _ (fun r _ => appendCardVehicleRecord_exact r), writes_mapRes_bind]
  refine forall_congr' fun r => forall_congr' fun hm => ?_
  obtain ⟨x, hx, hf⟩ := records_mem_sized hr (by omega) r hm
  exact vehicle_writes hf

theorem vehicleG2_writes {x : Bytes} {r : CardVehicleRecordG2} (h : unmarshalCardVehicleRecordG2 x = .ok r) :
    IsOk (appendCardVehicleRecordG2 [] r) ↔ Each (fun v : VehicleRegistration => NationKnown v.nation) r.base.registration := by
  obtain ⟨hl, b, hb, rfl⟩ := cardVehicleG2_parse h
  obtain ⟨_, t1, t2, reg, c, h1, h2, h3, h4, rfl⟩ := vehicleFields_parse hb
  have hcv : canvasNonEmpty (vehicleOf x t1 t2 reg c).rawData 48 = .ok x := canvasNonEmpty_raw hl (by omega)
  have : Each (fun v : VehicleRegistration => NationKnown v.nation) (vehicleOf x t1 t2 reg c).registration ↔ NationKnown reg.nation := by
    simp [Each, vehicleOf]
  rw [this, ← reg_writes_nil h3]
  simp only [appendCardVehicleRecordG2, hcv, Res.bind_ok, paintVehicle_self (by omega) h1 h2 h4, Res.bind_assoc, Res.pure_eq]
  exact writes_bind_ok

theorem vehiclesG2_writes {d : Bytes} {m : RecordFile CardVehicleRecordG2} (h : unmarshalVehiclesUsedG2 d = .ok m) :
    IsOk (appendVehiclesUsedG2 [] (some m)) ↔ ∀ r ∈ m.records, Each (fun v : VehicleRegistration => NationKnown v.nation) r.base.registration := by
  obtain ⟨h2, -, hn, hr⟩ := (vehiclesUsedG2_ok_iff d m).1 h
  unfold appendVehiclesUsedG2
  rw [appendRecordFile2_eq _ (fun r _ => appendCardVehicleRecordG2_exact r), writes_mapRes_bind]
  refine forall_congr' fun r => forall_congr' fun hm => ?_
  obtain ⟨x, hx, hf⟩ := records_mem_sized hr (by omega) r hm
  exact vehicleG2_writes hf

theorem control_writes {d : Bytes} {m : ControlActivity} (h : unmarshalControlActivity d = .ok m) :
    IsOk (appendControlActivity [] (some m)) ↔ Each (fun v : VehicleRegistration => NationKnown v.nation) m.registration := by
  by_cases hz : beNat (sl d 1 5) = 0
  · have hu := (controlActivity_unused d [] m h hz).2
    simp only [unmarshalControlActivity, guard_eq_ok, bind_eq_ok, sl?_iff] at h
    obtain ⟨hl, _, ⟨_, _, rfl⟩, h⟩ := h
    rw [if_pos hz, Res.pure_eq, Res.ok.injEq] at h
    refine ⟨fun _ x hx => ?_, fun _ => ⟨_, hu⟩⟩
    subst h
    cases hx
  · obtain ⟨hl, b, ct, ts, n, reg, pb, pe, hb, hct, hts, hn, hreg, hpb, hpe, rfl⟩ := controlActivity_parse h hz
    obtain ⟨h1, h2⟩ := reg_writes hreg
    have hcard : ∀ dst : Bytes, appendFullCardNumberAsString dst (some ⟨equipmentType_driverCard, 0, some ⟨some n, none, none⟩, none⟩)
        = .ok (dst ++ sl d 5 23) := fun dst => ia5_roundtrip _ _ (by simp; omega) n hn
    simp only [appendControlActivity, Bool.true_eq_false, if_false, timeReal_slice hts, Res.bind_ok, Option.bind_some, hcard, Each,
      Option.some.injEq, forall_eq']
    by_cases hk : NationKnown reg.nation
    · obtain ⟨out, ho⟩ := h1 hk
      simp only [ho, Res.bind_ok, timeReal_slice hpb, timeReal_slice hpe, hk, iff_true]
      exact ⟨_, rfl⟩
    · simp only [hk, iff_false]
      rintro ⟨v, hv⟩
      obtain ⟨y, hy, -⟩ := bind_eq_ok.1 hv
      obtain ⟨e, he⟩ := h2 hk _
      rw [he] at hy
      cases hy

omit [Charmap] in
theorem gnss_writes {d : Bytes} {m : Int × List GnssPlaceEntry} (h : unmarshalGnssPlaces d = .ok m) :
    IsOk (appendGnssPlaces [] (some m)) ↔ ∀ r ∈ m.2, r.odometerKm ≤ 999999 := by
  obtain ⟨n, rs⟩ := m
  obtain ⟨h1, h2, rfl, h3⟩ := (gnssPlaces_ok_iff d n rs).mp h
  unfold appendGnssPlaces
  dsimp only
  rw [appendEach_eq (fun r _ => (appendGnssPlaceEntry_exact r).appends), writes_mapRes_bind]
  refine forall_congr' fun r => forall_congr' fun hm => ?_
  obtain ⟨x, hx, hf⟩ := records_mem_sized h3 (by omega) r hm
  obtain ⟨k1, k2⟩ := gnssEntry_restores_iff x [] r hf
  obtain ⟨hl, ts, g, hts, hg, rfl⟩ := gnssEntry_parse hf
  dsimp only at *
  constructor
  · rintro ⟨v, hv⟩
    by_cases hk : 999999 < beNat (sl x 15 18)
    · obtain ⟨e, he⟩ := k2.2 hk
      rw [he] at hv; cases hv
    · omega
  · intro hk
    exact ⟨_, k1.2 (by omega)⟩

omit [Charmap] in
theorem activity_writes {d : Bytes} {m : DriverActivityData} (h : unmarshalDriverActivityData d = .ok m) :
    IsOk (appendDriverActivity [] (some m)) := by
  obtain ⟨h4, ho, hn, hr, hp⟩ := (driverActivity_decode d m).1 h
  simp only [appendDriverActivity, hr, Option.getD_some, Res.pure_eq]
  rw [if_pos (by rw [List.length_drop]; omega)]
  exact ⟨_, rfl⟩

/-! ## The whole card -/

omit [Charmap] in
theorem entry_writes {α : Type} {hi lo a : UInt8} {s : Bool} {msg : Option α} {w : α → Res Bytes} {P : α → Prop}
    (h : ∀ m, msg = some m → (IsOk (w m) ↔ P m)) : (∀ e ∈ entry hi lo a s msg w, IsOk e.content) ↔ Each P msg := by
  cases msg with
  | none => simp [entry, Each]
  | some m =>
    simp only [entry, List.forall_mem_cons, List.not_mem_nil, false_implies, implies_true, and_true, h m rfl, Each, Option.some.injEq, forall_eq']

omit [Charmap] in
theorem entry_written {α : Type} {hi lo a : UInt8} {s : Bool} {msg : Option α} {w : α → Res Bytes}
    (h : ∀ m, msg = some m → IsOk (w m)) : (∀ e ∈ entry hi lo a s msg w, IsOk e.content) ↔ True := by
  simp only [iff_true]
  cases msg with
  | none => simp [entry]
  | some m =>
    simp only [entry, List.forall_mem_cons, List.not_mem_nil, false_implies, implies_true, and_true]
    exact h m rfl

omit [Charmap] in
theorem certificate_written {hi lo a : UInt8} {raw : Option Bytes} : (∀ e ∈ certificate hi lo a raw, IsOk e.content) ↔ True := by
  simp only [iff_true]
  cases raw with
  | none => simp [certificate]
  | some r =>
    simp only [certificate]
    split
    · simp
    · simp only [List.forall_mem_cons, List.not_mem_nil, false_implies, implies_true, and_true]
      exact ⟨_, rfl⟩

omit [Charmap] in
/-- A value that was parsed from a block satisfies what every parsed value does. -/
theorem newest_read {α : Type} {bs : List Block} {here : Block → Bool} {p : Bytes → Res α} {P : α → Prop}
    (h : ∀ b ∈ bs, here b = true → ∀ m, p b.data.value = .ok m → P m) : ∀ m, (newest bs here).bind (Block.read p) = some m → P m :=
  each_newest fun b h1 h2 m h3 => h b h1 h2 m h3

omit [Charmap] in
theorem newest_read_signed {α : Type} {bs : List Block} {here : Block → Bool} {p : Bytes → Res α} {P : α → Prop}
    (h : ∀ b ∈ bs, here b = true → ∀ m, p b.data.value = .ok m → P m) :
    ∀ m : Signed α, (newest bs here).bind (Block.readSigned p) = some m → P m.data :=
  each_newest_signed' fun b h1 h2 m h3 => h b h1 h2 m h3

/-- Writing a card succeeds exactly if every part can be written. -/
theorem card_written_iff (c : DriverCard) :
    (∃ out, marshalDriverCard (some c) = .ok out) ↔ ∀ e ∈ entries c, IsOk e.content := by
  rw [marshal_driver_card]
  exact writes_mapRes_bind

/-- C67: a driver card that was read from a file with record files of the sizes of the regulation can be written exactly
if every nation in the parts that are written was recognised and no position has an odometer value of a million
kilometres or more. -/
theorem parsed_card_written_iff (d : Bytes) (raws : List RawRec) (c : DriverCard)
    (h : unmarshalFile d = .ok { type := .driverCard, driverCard := some c }) (hr : unmarshalRawCardFile d = .ok raws) (hm : Unmoved raws) :
    (∃ out, marshalFile (some { type := .driverCard, driverCard := some c }) = .ok out) ↔ CardWritable c := by
  show (∃ out, marshalDriverCard (some c) = .ok out) ↔ CardWritable c
  rw [card_written_iff]
  obtain ⟨rs, bs, -, hs, hr', hbs, hg, rfl, b0, rest, hb0, hicc⟩ := parsed_card_blocks h
  rw [hr, Res.ok.injEq] at hr'
  have hun : ∀ b ∈ bs, (b.data.generation = .gen1 → b.data.file = .eventsData ∨ b.data.file = .faultsData → NeverMoved 24 b.data.value.length) ∧
      (b.data.file = .vehicleUnitsUsed → b.data.value.length ≤ 4098) := by
    intro b hb
    refine hm b.data ?_
    rw [hr', hbs, List.mem_flatMap]
    exact ⟨b, hb, by simp [Block.records]⟩
  have hgen : ∀ {b : Block} {f : EF} {g : Generation}, fileGen f g b = true → b.data.file = f ∧ b.data.generation = g := by
    intro b f g hb
    simpa [fileGen] using hb
  have k1 := gen1_getD bs
  have k2 := gen2_getD bs
  unfold entries gen1Entries gen2Entries gen1Certificates gen2Certificates
  simp only [List.append_assoc, List.forall_mem_append]
  rw [k1, k2]
  rw [entry_written (msg := (cardOf bs).icc) (newest_read fun b _ _ m hm => let ⟨out, ho, _⟩ := icc_restores _ [] m hm; ⟨_, ho⟩),
    entry_written (msg := (cardOf bs).ic) (newest_read fun b _ _ m hm => ⟨_, ic_restores _ [] m hm⟩),
    entry_written (msg := (gen1Of bs).applicationIdentification)
      (newest_read_signed (P := fun m => IsOk (appendAppId [] (some m))) fun b _ _ m hm => let ⟨out, ho, _⟩ := appId_restores _ [] m hm; ⟨_, ho⟩),
    entry_writes (msg := (gen1Of bs).drivingLicenceInfo) (P := fun m => NationKnown m.data.nation)
      (newest_read_signed (P := fun m => IsOk (appendDrivingLicenceInfo [] (some m)) ↔ NationKnown m.nation) fun b _ _ m hm => licence_writes hm),
    entry_writes (msg := (gen1Of bs).identification) (P := fun m => Each (fun c : CardIdent => NationKnown c.issuingState) m.data.card)
      (newest_read_signed (P := fun m => IsOk (appendIdentification [] m) ↔ Each (fun c : CardIdent => NationKnown c.issuingState) m.card)
        fun b _ _ m hm => identification_writes hm),
    entry_writes (msg := (gen1Of bs).eventsData) (P := fun m => ∀ r ∈ m.data, Each (fun v : VehicleRegistration => NationKnown v.nation) r.registration)
      (newest_read_signed (P := fun m => IsOk (appendEventsData [] m) ↔ ∀ r ∈ m, Each (fun v : VehicleRegistration => NationKnown v.nation) r.registration)
        fun b hb hf m hm => events_writes ((hun b hb).1 (hgen hf).2 (.inl (hgen hf).1)) hm),
    entry_writes (msg := (gen1Of bs).faultsData) (P := fun m => ∀ r ∈ m.data, Each (fun v : VehicleRegistration => NationKnown v.nation) r.registration)
      (newest_read_signed (P := fun m => IsOk (appendEventsData [] m) ↔ ∀ r ∈ m, Each (fun v : VehicleRegistration => NationKnown v.nation) r.registration)
        fun b hb hf m hm => events_writes ((hun b hb).1 (hgen hf).2 (.inr (hgen hf).1)) hm),
    entry_written (msg := (gen1Of bs).driverActivityData)
      (newest_read_signed (P := fun m => IsOk (appendDriverActivity [] (some m))) fun b _ _ m hm => activity_writes hm),
    entry_writes (msg := (gen1Of bs).vehiclesUsed) (P := fun m => ∀ r ∈ m.data.records, Each (fun v : VehicleRegistration => NationKnown v.nation) r.registration)
      (newest_read_signed (P := fun m => IsOk (appendVehiclesUsed [] (some m)) ↔ ∀ r ∈ m.records, Each (fun v : VehicleRegistration => NationKnown v.nation) r.registration)
        fun b _ _ m hm => vehicles_writes hm),
    entry_written (msg := (gen1Of bs).places)
      (newest_read_signed (P := fun m => IsOk (appendPlaces [] (some m))) fun b _ _ m hm => ⟨_, places_restores _ [] m hm⟩),
    entry_writes (msg := (gen1Of bs).currentUsage) (P := fun m => Each (fun v : VehicleRegistration => NationKnown v.nation) m.data.vehicle)
      (newest_read_signed (P := fun m => IsOk (appendCurrentUsage [] (some m)) ↔ Each (fun v : VehicleRegistration => NationKnown v.nation) m.vehicle)
        fun b _ _ m hm => usage_writes hm),
    entry_writes (msg := (gen1Of bs).controlActivityData) (P := fun m => Each (fun v : VehicleRegistration => NationKnown v.nation) m.data.registration)
      (newest_read_signed (P := fun m => IsOk (appendControlActivity [] (some m)) ↔ Each (fun v : VehicleRegistration => NationKnown v.nation) m.registration)
        fun b _ _ m hm => control_writes hm),
    entry_written (msg := (gen1Of bs).specificConditions)
      (newest_read_signed (P := fun m => IsOk (appendSpecificConditions [] (some m))) fun b _ _ m hm => ⟨_, specificConditions_restores _ [] m hm⟩),
    entry_written (msg := (gen1Of bs).cardDownload) (newest_read fun b _ _ m hm => ⟨_, cardDownload_restores _ [] m hm⟩),
    entry_written (msg := (gen2Of bs).applicationIdentification)
      (newest_read_signed (P := fun m => IsOk (appendAppIdG2 [] (some m))) fun b _ _ m hm => let ⟨out, ho, _⟩ := appIdG2_restores _ [] m hm; ⟨_, ho⟩),
    entry_writes (msg := (gen2Of bs).vehiclesUsed) (P := fun m => ∀ r ∈ m.data.records, Each (fun v : VehicleRegistration => NationKnown v.nation) r.base.registration)
      (newest_read_signed (P := fun m => IsOk (appendVehiclesUsedG2 [] (some m)) ↔
          ∀ r ∈ m.records, Each (fun v : VehicleRegistration => NationKnown v.nation) r.base.registration) fun b _ _ m hm => vehiclesG2_writes hm),
    entry_written (msg := (gen2Of bs).places)
      (newest_read_signed (P := fun m => IsOk (appendPlacesG2 [] (some m))) fun b _ _ m hm => ⟨_, placesG2_restores _ [] m hm⟩),
    entry_written (msg := (gen2Of bs).specificConditions)
      (newest_read_signed (P := fun m => IsOk (appendSpecificConditionsG2 [] (some m))) fun b _ _ m hm => ⟨_, specificConditionsG2_restores _ [] m hm⟩),
    entry_written (msg := (gen2Of bs).vehicleUnitsUsed)
      (newest_read_signed (P := fun m => IsOk (appendVehicleUnitsUsed [] (some m))) fun b hb hf m hm =>
        ⟨_, vehicleUnits_restores _ [] ((hun b hb).2 (by simpa [file] using hf)) m hm⟩),
    entry_writes (msg := (gen2Of bs).gnssPlaces) (P := fun m => ∀ r ∈ m.data.2, r.odometerKm ≤ 999999)
      (newest_read_signed (P := fun m => IsOk (appendGnssPlaces [] (some m)) ↔ ∀ r ∈ m.2, r.odometerKm ≤ 999999) fun b _ _ m hm => gnss_writes hm),
    entry_written (msg := (gen2Of bs).applicationIdentificationV2)
      (newest_read_signed (P := fun m => IsOk (appendAppIdV2 [] (some m))) fun b _ _ m hm => ⟨_, (appIdV2_restores _ [] m hm).1⟩),
    certificate_written, certificate_written, certificate_written, certificate_written, certificate_written, certificate_written]
  simp only [true_and, and_true]
  constructor
  · rintro ⟨c1, c2, c3, c4, c5, c6, c7, c8, c9⟩
    exact ⟨by rw [k1]; exact c2, by rw [k1]; exact c1, by rw [k1]; exact c3, by rw [k1]; exact c4, by rw [k1]; exact c5,
      by rw [k1]; exact c6, by rw [k1]; exact c7, by rw [k2]; exact c8, by rw [k2]; exact c9⟩
  · rintro ⟨c1, c2, c3, c4, c5, c6, c7, c8, c9⟩
    rw [k1] at c1 c2 c3 c4 c5 c6 c7
    rw [k2] at c8 c9
    exact ⟨c2, c1, c3, c4, c5, c6, c7, c8, c9⟩

/-! ## Panics -/

omit [Charmap] in
theorem mapRes_panic {α β : Type} {f : α → Res β} {xs : List α} (h : mapRes f xs = .panic) : ∃ x ∈ xs, f x = .panic := by
  induction xs with
  | nil => simp [mapRes] at h
  | cons x xs ih =>
    simp only [mapRes] at h
    cases hx : f x with
    | panic => exact ⟨x, by simp, hx⟩
    | err m => rw [hx] at h; cases h
    | ok y =>
      rw [hx] at h
      cases hy : mapRes f xs with
      | ok ys => rw [hy] at h; cases h
      | err m => rw [hy] at h; cases h
      | panic =>
        obtain ⟨z, hz, hf⟩ := ih hy
        exact ⟨z, by simp [hz], hf⟩

omit [Charmap] in
theorem entry_np {α : Type} {hi lo a : UInt8} {s : Bool} {msg : Option α} {w : α → Res Bytes}
    (h : ∀ m, msg = some m → w m ≠ .panic) : ∀ e ∈ entry hi lo a s msg w, e.content ≠ .panic := by
  cases msg with
  | none => simp [entry]
  | some m =>
    simp only [entry, List.forall_mem_cons, List.not_mem_nil, false_implies, implies_true, and_true]
    exact h m rfl

omit [Charmap] in
theorem certificate_np {hi lo a : UInt8} {raw : Option Bytes} : ∀ e ∈ certificate hi lo a raw, e.content ≠ .panic := by
  intro e he hc
  obtain ⟨v, hv⟩ := (certificate_written (hi := hi) (lo := lo) (a := a) (raw := raw)).2 trivial e he
  rw [hv] at hc
  cases hc

/-- C67, C22: writing a driver card message panics only if its Gen2 specific conditions carry raw data of one byte,
which no parsed message does. -/
theorem driver_card_write_panics (c : DriverCard)
    (h : marshalFile (some { type := .driverCard, driverCard := some c }) = .panic) :
    ∃ m b, (c.tachographG2.getD {}).specificConditions = some m ∧ m.data.rawData = some [b] := by
  change marshalDriverCard (some c) = .panic at h
  refine Classical.byContradiction fun hn => ?_
  have hraw : ∀ m, (c.tachographG2.getD {}).specificConditions = some m → (m.data.rawData.getD []).length ≠ 1 := by
    intro m hm hl
    cases hr : m.data.rawData with
    | none => rw [hr] at hl; simp at hl
    | some r =>
      rw [hr] at hl
      match r, hl with
      | [b], _ => exact hn ⟨m, b, hm, hr⟩
  rw [marshal_driver_card] at h
  have hp : mapRes Entry.content (entries c) = .panic := by
    cases hx : mapRes Entry.content (entries c) with
    | ok v => rw [hx] at h; cases h
    | err m => rw [hx] at h; cases h
    | panic => rfl
  obtain ⟨e, he, hc⟩ := mapRes_panic hp
  have hall : ∀ e ∈ entries c, e.content ≠ .panic := by
    unfold entries gen1Entries gen2Entries gen1Certificates gen2Certificates
    simp only [List.append_assoc, List.forall_mem_append]
    exact ⟨entry_np fun m _ => (appendIcc_appends m).ne_panic _,
      entry_np fun m _ => (appendCardIc_appends (some m)).ne_panic _,
      entry_np fun m _ => (appendAppId_appends (some m.data)).ne_panic _,
      entry_np fun m _ => (appendDrivingLicence_appends (some m.data)).ne_panic _,
      entry_np fun m _ => (appendIdentification_appends m.data).ne_panic _,
      entry_np fun m _ => (appendEventsData_appends m.data).ne_panic _,
      entry_np fun m _ => (appendEventsData_appends m.data).ne_panic _,
      entry_np fun m _ => (appendDriverActivity_appends (some m.data)).ne_panic _,
      entry_np fun m _ => (appendVehiclesUsed_appends m.data).ne_panic _,
      entry_np fun m _ => (appendPlaces_appends m.data).ne_panic _,
      entry_np fun m _ => (appendCurrentUsage_appends (some m.data)).ne_panic _,
      entry_np fun m _ => (appendControlActivity_appends (some m.data)).ne_panic _,
      entry_np fun m _ => (appendSpecificConditions_appends m.data).ne_panic _,
      entry_np fun m _ => (appendCardDownload_appends (some m)).ne_panic _,
      entry_np fun m _ => (appendAppIdG2_appends (some m.data)).ne_panic _,
      entry_np fun m _ => (appendVehiclesUsedG2_appends m.data).ne_panic _,
      entry_np fun m _ => (appendPlacesG2_appends m.data).ne_panic _,
      entry_np fun m hm => (appendSpecificConditionsG2_appends m.data (hraw m hm)).ne_panic _,
      entry_np fun m _ => (appendVehicleUnits_appends m.data).ne_panic _,
      entry_np fun m _ => (appendGnssPlaces_appends m.data).ne_panic _,
      entry_np fun m _ => (appendAppIdV2_appends (some m.data)).ne_panic _,
      certificate_np, certificate_np, certificate_np, certificate_np, certificate_np, certificate_np⟩
  exact hall e he hc

/-- C67: otherwise an error is reported: writing a parsed driver card never panics. -/
theorem parsed_card_write_total (d : Bytes) (c : DriverCard)
    (h : unmarshalFile d = .ok { type := .driverCard, driverCard := some c }) :
    marshalFile (some { type := .driverCard, driverCard := some c }) ≠ .panic := by
  intro hp
  obtain ⟨m, b, hm, hb⟩ := driver_card_write_panics c hp
  obtain ⟨rs, bs, -, hs, hr', hbs, hg, rfl, b0, rest, hb0, hicc⟩ := parsed_card_blocks h
  rw [gen2_getD] at hm
  have : ∀ m : Signed (RecordFile SpecificConditionRecord), (gen2Of bs).specificConditions = some m → m.data.rawData ≠ some [b] :=
    newest_read_signed (P := fun m : RecordFile SpecificConditionRecord => m.rawData ≠ some [b]) fun x _ _ m hx hr => by
      obtain ⟨h1, h2, -⟩ := (specificConditionsG2_ok_iff _ _).1 hx
      rw [hr, Option.some.injEq] at h2
      rw [← h2] at h1
      simp at h1
  exact this m hm hb

end

end Tacho
