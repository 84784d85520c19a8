import Verif.Spec.Marks
import Verif.Model.Anonymize
import Verif.Model.File
import Verif.Props.DriverCard
import Verif.Props.Activity
import Verif.Props.RecordFiles
import Verif.Props.ScannedFiles
import Verif.Props.CardHolder
/-!
# C82: the `valid` marks
-/

namespace Tacho

open Spec

private theorem time_none {d : Bytes} {t : Option Timestamp} (h : unmarshalTimeReal d = .ok t) : t = none ↔ beNat d = 0 := by
  unfold unmarshalTimeReal at h
  split at h
  · cases h
  · simp only at h
    split at h
    · rename_i h0; rw [Res.ok.injEq] at h; subst h; simp [h0]
    · rename_i h0; rw [Res.ok.injEq] at h; subst h; simp [h0]

variable [Charmap]

/-- C82: events and faults. -/
theorem events_marked (d : Bytes) (rs : List EventRecord) (h : unmarshalEventsData d = .ok rs) : ∀ r ∈ rs, EventMarked r := by
  intro r hr
  simp only [unmarshalEventsData, bind_eq_ok] at h
  obtain ⟨rs', h1, h2⟩ := h
  have : rs' = rs := by
    revert h2; split
    · intro h; cases h
    · intro h; rw [Res.pure_eq, Res.ok.injEq] at h; exact h
  subst this
  obtain ⟨t, -, ht⟩ := mapRes_mem h1 r hr
  simp only [unmarshalEventToken, bind_eq_ok, sl?_iff] at ht
  obtain ⟨x, ⟨_, _, rfl⟩, ht⟩ := ht
  split at ht
  · rw [Res.pure_eq, Res.ok.injEq] at ht
    subst ht
    exact Or.inr ⟨rfl, rfl, rfl, rfl, rfl⟩
  · rename_i hz
    simp only [bind_eq_ok, Res.pure_eq, Res.ok.injEq] at ht
    obtain ⟨m, hm, rfl⟩ := ht
    simp only [unmarshalEventRecord, guard_eq_ok, bind_eq_ok, sl?_iff, Res.pure_eq, Res.ok.injEq] at hm
    obtain ⟨_, _, _, _, _, _, ⟨_, _, rfl⟩, tb, htb, _, _, te, _, _, _, reg, _, rfl⟩ := hm
    refine Or.inl ⟨rfl, ?_, by simp [EventRecord.withNumberRaw], rfl⟩
    show tb ≠ none
    rw [Ne, time_none htb]
    exact hz

omit [Charmap] in
/-- C82: the days. -/
theorem days_marked (d : Bytes) (m : DriverActivityData) (h : unmarshalDriverActivityData d = .ok m) : ∀ r ∈ m.records, DayMarked r := by
  intro r hr
  simp only [unmarshalDriverActivityData, guard_eq_ok, bind_eq_ok, sl?_iff, from?_iff, Res.pure_eq, Res.ok.injEq] at h
  obtain ⟨_, _, _, _, _, _, _, _, rs, h, rfl⟩ := h
  obtain ⟨bs, q, -, -, -, hd⟩ := (activity_ok_iff _ _ _).1 h
  have : ∃ b, DayOf b r := by
    clear h
    generalize bs.reverse = bs at hd
    induction hd with
    | nil => cases hr
    | cons hx _ ih =>
      rcases List.mem_cons.1 hr with rfl | hr
      · exact ⟨_, hx⟩
      · exact ih hr
  obtain ⟨b, ⟨_, h1, h2, _, _, _, h3, _⟩ | ⟨_, rfl⟩⟩ := this
  · exact Or.inl ⟨h1, by simp [h3], h2⟩
  · exact Or.inr ⟨rfl, rfl, by simp, rfl, rfl⟩

/-- C82: the last control. -/
theorem control_marked (d : Bytes) (m : ControlActivity) (h : unmarshalControlActivity d = .ok m) : ControlMarked m := by
  by_cases hz : beNat (sl d 1 5) = 0
  · simp only [unmarshalControlActivity, guard_eq_ok, bind_eq_ok, sl?_iff] at h
    obtain ⟨hl, _, ⟨_, _, rfl⟩, h⟩ := h
    rw [if_pos hz, Res.pure_eq, Res.ok.injEq] at h
    subst h
    exact Or.inr ⟨rfl, rfl, rfl, rfl, rfl, by simp⟩
  · obtain ⟨_, b, ct, ts, n, reg, pb, pe, _, _, hts, _, _, _, _, rfl⟩ := controlActivity_parse h hz
    refine Or.inl ⟨rfl, ?_, by simp, by simp, by simp, rfl⟩
    show ts ≠ none
    rw [Ne, time_none hts]
    exact hz

omit [Charmap] in
/-- C82: a place record is never marked, although it is decoded. -/
theorem places_unmarked (d : Bytes) (m : RecordFile PlaceRecord) (h : unmarshalPlaces d = .ok m) : ∀ r ∈ m.records, PlaceUnmarked r := by
  intro r hr
  simp only [unmarshalPlaces, guard_eq_ok, bind_eq_ok, from?_iff, Res.pure_eq, Res.ok.injEq] at h
  obtain ⟨_, _, _, x, _, rs, h, rfl⟩ := h
  obtain ⟨y, hy, h⟩ := mapRes_mem h r hr
  obtain ⟨p, hp⟩ := (place_accepts_iff y).2 (cut_sizes (by omega) _ y hy)
  rw [parsePlace, hp, Res.ok.injEq] at h
  subst h
  simp only [unmarshalPlaceRecord, guard_eq_ok, bind_eq_ok, Res.pure_eq, Res.ok.injEq] at hp
  obtain ⟨_, _, _, _, _, _, _, _, _, _, _, _, _, rfl⟩ := hp
  exact ⟨rfl, by simp⟩

omit [Charmap] in
/-- C82: the same for the second generation. -/
theorem placesG2_unmarked (d : Bytes) (m : RecordFile PlaceRecordG2) (h : unmarshalPlacesG2 d = .ok m) :
    ∀ r ∈ m.records, PlaceUnmarked r.base := by
  intro r hr
  simp only [unmarshalPlacesG2, guard_eq_ok, bind_eq_ok, from?_iff, Res.pure_eq, Res.ok.injEq] at h
  obtain ⟨_, _, _, x, _, rs, h, rfl⟩ := h
  obtain ⟨y, hy, h⟩ := mapRes_mem h r hr
  obtain ⟨p, hp⟩ := (placeG2_accepts_iff y).2 (cut_sizes (by omega) _ y hy)
  rw [parsePlaceG2, hp, Res.ok.injEq] at h
  subst h
  simp only [unmarshalPlaceRecordG2, guard_eq_ok, bind_eq_ok, Res.pure_eq, Res.ok.injEq] at hp
  obtain ⟨_, _, _, _, _, _, _, _, _, _, _, _, _, _, _, _, _, rfl⟩ := hp
  exact ⟨rfl, by simp⟩

omit [Charmap] in
private theorem each {α β : Type} {p : Bytes → Res α} {o : Option Block} {records : α → List β} {P : β → Prop}
    (h : ∀ d m, p d = .ok m → ∀ r ∈ records m, P r) : EachIn (o.bind (Block.readSigned p)) records P := by
  intro s hs r hr
  cases o with
  | none => cases hs
  | some b =>
    simp only [Option.bind_some, Block.readSigned, Block.read, Option.map_eq_some_iff] at hs
    obtain ⟨a, ha, rfl⟩ := hs
    split at ha
    · rename_i x hx; cases ha; exact h _ _ hx r hr
    · cases ha

/-- C82: the marks of every driver card that is read. -/
theorem card_marks (rs : List RawRec) (c : DriverCard) (h : unmarshalDriverCard rs = .ok c) : Marks c := by
  obtain ⟨bs, -, -, rfl⟩ := (driver_card_iff rs c).1 h
  constructor
  · intro t ht
    have := gen1_getD bs
    rw [ht] at this
    obtain rfl : t = gen1Of bs := this
    exact ⟨each events_marked, each events_marked, each days_marked,
      each fun d m hm r hr => by rw [List.mem_singleton.1 hr]; exact control_marked d m hm, each places_unmarked⟩
  · intro t ht
    have := gen2_getD bs
    rw [ht] at this
    obtain rfl : t = gen2Of bs := this
    exact ⟨each events_marked, each events_marked, each days_marked,
      each fun d m hm r hr => by rw [List.mem_singleton.1 hr]; exact control_marked d m hm, each placesG2_unmarked⟩

omit [Charmap] in
private theorem stamps_unmarked : ∀ (i : Nat) (rs : List PlaceRecord), (∀ r ∈ rs, r.valid = false) →
    ∀ r ∈ (anonymizeTimestamps i rs).map regeneratePlace, r.valid = false
  | _, [], _ => by simp [anonymizeTimestamps]
  | i, x :: xs, h => by
    intro r hr
    rw [anonymizeTimestamps, List.map_cons, List.mem_cons] at hr
    rcases hr with rfl | hr
    · unfold regeneratePlace; have := h x (by simp); split <;> split <;> exact this
    · exact stamps_unmarked (i + 1) xs (fun r hr => h r (by simp [hr])) r hr

omit [Charmap] in
private theorem stampsG2_unmarked : ∀ (i : Nat) (rs : List PlaceRecordG2), (∀ r ∈ rs, r.base.valid = false) →
    ∀ r ∈ (anonymizeTimestampsG2 i rs).map regeneratePlaceG2, r.base.valid = false
  | _, [], _ => by simp [anonymizeTimestampsG2]
  | i, x :: xs, h => by
    intro r hr
    rw [anonymizeTimestampsG2, List.map_cons, List.mem_cons] at hr
    rcases hr with rfl | hr
    · unfold regeneratePlaceG2; have := h x (by simp); dsimp only; split <;> split <;> exact this
    · exact stampsG2_unmarked (i + 1) xs (fun r hr => h r (by simp [hr])) r hr

omit [Charmap] in
/-- C82: a mark set by the user is gone after anonymising, in both generations. -/
theorem anonymized_places_unmarked (p : RecordFile PlaceRecord) : ∀ r ∈ (anonymizePlaces p).records, r.valid = false := by
  intro r hr
  have hr' : r ∈ (anonymizeTimestamps 0 (p.records.map anonymizePlaceRecord)).map regeneratePlace := by
    unfold anonymizePlaces at hr
    dsimp only at hr
    split at hr <;> exact hr
  refine stamps_unmarked 0 _ (fun x hx => ?_) r hr'
  obtain ⟨y, -, rfl⟩ := List.mem_map.1 hx
  unfold anonymizePlaceRecord
  dsimp only
  split <;> rfl

omit [Charmap] in
theorem anonymized_placesG2_unmarked (p : RecordFile PlaceRecordG2) : ∀ r ∈ (anonymizePlacesG2 p).records, r.base.valid = false := by
  intro r hr
  have hr' : r ∈ (anonymizeTimestampsG2 0 (p.records.map anonymizePlaceRecordG2)).map regeneratePlaceG2 := by
    unfold anonymizePlacesG2 at hr
    dsimp only at hr
    split at hr <;> exact hr
  refine stampsG2_unmarked 0 _ (fun x hx => ?_) r hr'
  obtain ⟨y, -, rfl⟩ := List.mem_map.1 hx
  unfold anonymizePlaceRecordG2
  dsimp only

/-! ## Marks and the written file -/

omit [Charmap] in
private theorem paintEach_map {α : Type} {f : Bytes → α → Res Bytes} {g : α → α} (h : ∀ d x, f d (g x) = f d x) (n : Nat) :
    ∀ (l : List α) (canvas : Bytes) (off : Nat), paintEach f n canvas off (l.map g) = paintEach f n canvas off l
  | [], _, _ => rfl
  | x :: xs, canvas, off => by simp only [List.map_cons, paintEach, h, paintEach_map h n xs]

omit [Charmap] in
private theorem appendEachNew_map {α : Type} {f : Bytes → α → Res Bytes} {g : α → α} (h : ∀ d x, f d (g x) = f d x) :
    ∀ (l : List α) (dst : Bytes), appendEachNew f dst (l.map g) = appendEachNew f dst l
  | [], _ => rfl
  | x :: xs, dst => by simp only [List.map_cons, appendEachNew, h, appendEachNew_map h xs]

omit [Charmap] in
private theorem places_unmarked_written (dst : Bytes) (p : RecordFile PlaceRecord) :
    appendPlaces dst (some { p with records := p.records.map fun r => { r with valid := false } }) = appendPlaces dst (some p) := by
  simp only [appendPlaces, List.length_map]
  rw [appendEachNew_map (f := appendPlaceRecord) (g := fun r => { r with valid := false }) (fun _ _ => rfl)]
  split
  · rw [paintEach_map (f := appendPlaceRecord) (g := fun r => { r with valid := false }) (fun _ _ => rfl)]
  · rfl

omit [Charmap] in
private theorem placesG2_unmarked_written (dst : Bytes) (p : RecordFile PlaceRecordG2) :
    appendPlacesG2 dst (some { p with records := p.records.map fun r => { r with base := { r.base with valid := false } } }) =
      appendPlacesG2 dst (some p) := by
  simp only [appendPlacesG2, appendRecordFile2, List.length_map]
  rw [appendEachNew_map (f := appendPlaceRecordG2) (g := fun r => { r with base := { r.base with valid := false } }) (fun _ _ => rfl)]
  split
  · rw [paintEach_map (f := appendPlaceRecordG2) (g := fun r => { r with base := { r.base with valid := false } }) (fun _ _ => rfl)]
  · rfl

private theorem unmarked_written (c : DriverCard) : marshalDriverCard (some (unmarkPlaces c)) = marshalDriverCard (some c) := by
  obtain ⟨icc, ic, t, t2⟩ := c
  have h1 : ∀ dst, appendGen1 dst (unmarkPlaces ⟨icc, ic, t, t2⟩) = appendGen1 dst ⟨icc, ic, t, t2⟩ := by
    intro dst
    cases t with
    | none => rfl
    | some t =>
      obtain ⟨⟩ := t
      rename_i places _ _ _ _ _ _
      cases places with
      | none => rfl
      | some p => simp only [appendGen1, unmarkPlaces, Option.map_some, Option.getD_some, appendTlv, places_unmarked_written]
  have h2 : ∀ dst (t : TachographG2), appendGen2 dst { t with places := t.places.map fun p =>
      { p with data := { p.data with records := p.data.records.map fun r => { r with base := { r.base with valid := false } } } } } =
      appendGen2 dst t := by
    intro dst t
    cases hp : t.places with
    | none => simp only [appendGen2, hp, Option.map_none]
    | some p => simp only [appendGen2, hp, Option.map_some, appendTlvG2, placesG2_unmarked_written]
  have h3 : ∀ dst, appendCertificates dst (unmarkPlaces ⟨icc, ic, t, t2⟩) = appendCertificates dst ⟨icc, ic, t, t2⟩ := by
    intro dst; cases t <;> cases t2 <;> rfl
  simp only [marshalDriverCard, appendDriverCard, h1, h3]
  cases t2 with
  | none => rfl
  | some t2 => simp only [unmarkPlaces, Option.map_some, h2]

/-- C82: the marks of the places are not written: cards that differ in nothing else are written as the same bytes. -/
theorem place_marks_not_written (c c' : DriverCard) (h : unmarkPlaces c = unmarkPlaces c') :
    marshalFile (some { type := .driverCard, driverCard := some c }) = marshalFile (some { type := .driverCard, driverCard := some c' }) := by
  show marshalDriverCard (some c) = marshalDriverCard (some c')
  rw [← unmarked_written c, h, unmarked_written c']

/-! ## A card with a place -/

omit [Charmap] in
theorem one_place : unmarshalPlaces [0, 0x5E, 0x0B, 0xE1, 0x02, 1, 13, 4, 0, 0x30, 0x39] =
    .ok ⟨some [0, 0x5E, 0x0B, 0xE1, 0x02, 1, 13, 4, 0, 0x30, 0x39], 0,
      [⟨some [0x5E, 0x0B, 0xE1, 0x02, 1, 13, 4, 0, 0x30, 0x39], some ⟨1577836802, 0⟩, 3, none, 16, none, [4], 12345, false⟩]⟩ := by
  have hc : cut 10 ([0x5E, 0x0B, 0xE1, 0x02, 1, 13, 4, 0, 0x30, 0x39] : Bytes) = [[0x5E, 0x0B, 0xE1, 0x02, 1, 13, 4, 0, 0x30, 0x39]] := by
    rw [cut_cons (by omega) (by decide), cut_nil (by decide)]; rfl
  have hp : parsePlace [0x5E, 0x0B, 0xE1, 0x02, 1, 13, 4, 0, 0x30, 0x39] = .ok ⟨some [0x5E, 0x0B, 0xE1, 0x02, 1, 13, 4, 0, 0x30, 0x39],
      some ⟨1577836802, 0⟩, 3, none, 16, none, [4], 12345, false⟩ := by decide +kernel
  simp only [unmarshalPlaces, at?, from?, List.length_cons, List.length_nil, List.drop, Nat.reduceAdd]
  simp [hc, mapRes, hp]

/-- `card_marks` applies: the place has its time and no mark. -/
example : ∃ c, unmarshalDriverCard
      [⟨0x050600, .places, .gen1, .data, 11, [0, 0x5E, 0x0B, 0xE1, 0x02, 1, 13, 4, 0, 0x30, 0x39]⟩] = .ok c ∧
    ((c.tachograph.bind (·.places)).map fun p => p.data.records.map fun x => (x.entryTime, x.valid)) = some [(some ⟨1577836802, 0⟩, false)] := by
  simp only [unmarshalDriverCard, driverCardLoop, routeRecord, byGeneration, one_place, if_true, Res.bind_ok, Res.pure_eq,
    Res.ok.injEq, exists_eq_left', DriverCard.setG1]
  rfl

/-- `place_marks_not_written` applies: a card whose place the caller has marked is another message, written as the same file. -/
example : let place (mark : Bool) : PlaceRecord := ⟨none, some ⟨1577836802, 0⟩, 3, none, 16, none, [4], 12345, mark⟩
    let card (mark : Bool) : DriverCard := { tachograph := some { places := some ⟨⟨none, 0, [place mark]⟩, none⟩ } }
    card true ≠ card false ∧
    (∃ out, marshalFile (some { type := .driverCard, driverCard := some (card true) }) = .ok out ∧ out ≠ []) ∧
    marshalFile (some { type := .driverCard, driverCard := some (card true) }) =
      marshalFile (some { type := .driverCard, driverCard := some (card false) }) := by
  refine ⟨fun h => ?_, ⟨_, rfl, List.cons_ne_nil _ _⟩, place_marks_not_written _ _ rfl⟩
  have := congrArg (fun c : DriverCard => c.tachograph.bind fun t => t.places.map fun p => p.data.records.map (·.valid)) h
  exact absurd this (by decide)

/-- A day whose presence counter is no BCD number. -/
example : unmarshalDriverActivityData [0, 0, 0, 0, 0, 0, 0, 14, 0x5E, 0x0B, 0xE1, 0x00, 0x0A, 0, 0, 5, 0x12, 0x34] =
    .ok ⟨0, 0, some [0, 0, 0, 14, 0x5E, 0x0B, 0xE1, 0x00, 0x0A, 0, 0, 5, 0x12, 0x34],
      [⟨false, some [0, 0, 0, 14, 0x5E, 0x0B, 0xE1, 0x00, 0x0A, 0, 0, 5, 0x12, 0x34], 0, 0, none, none, 0, []⟩]⟩ := by
  decide +kernel

/-- The day is marked when the counter is a BCD number. -/
example : ∃ m, unmarshalDriverActivityData [0, 0, 0, 0, 0, 0, 0, 14, 0x5E, 0x0B, 0xE1, 0x00, 0x12, 0, 0, 5, 0x12, 0x34] = .ok m ∧
    m.records.map (·.valid) = [true] := ⟨_, rfl, rfl⟩

end Tacho
