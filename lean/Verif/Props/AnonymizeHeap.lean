import Verif.Spec.AnonymizeHeap
/-!
# Anonymising does not touch the original (C93)
-/

namespace Tacho
open Spec

/-! ## Writing to some objects -/

/-- What existed in `h` is the same in `h'`, except for the objects in `W`; of these the times and the pointers to GNSS
records are the same. -/
structure Ext (W : List Nat) (h h' : Objects) : Prop where
  le : h.next ≤ h'.next
  time : ∀ a < h.next, h'.time a = h.time a
  place : ∀ a < h.next, a ∉ W → h'.place a = h.place a
  gnss : ∀ a < h.next, a ∉ W → h'.gnss a = h.gnss a
  link : ∀ a < h.next, (h'.place a).gnss = (h.place a).gnss

/-- The record at `a` and its GNSS record. -/
def owned (h : Objects) (a : Nat) : List Nat := a :: (h.place a).gnss.toList

theorem Ext.refl (W : List Nat) (h : Objects) : Ext W h h := ⟨Nat.le_refl _, fun _ _ => rfl, fun _ _ _ => rfl, fun _ _ _ => rfl, fun _ _ => rfl⟩

theorem Ext.trans {W W' : List Nat} {h h' h'' : Objects} (e : Ext W h h') (e' : Ext W' h' h'') : Ext (W ++ W') h h'' where
  le := Nat.le_trans e.le e'.le
  time a ha := (e'.time a (Nat.lt_of_lt_of_le ha e.le)).trans (e.time a ha)
  place a ha hn := by
    rw [List.mem_append, not_or] at hn
    exact (e'.place a (Nat.lt_of_lt_of_le ha e.le) hn.2).trans (e.place a ha hn.1)
  gnss a ha hn := by
    rw [List.mem_append, not_or] at hn
    exact (e'.gnss a (Nat.lt_of_lt_of_le ha e.le) hn.2).trans (e.gnss a ha hn.1)
  link a ha := (e'.link a (Nat.lt_of_lt_of_le ha e.le)).trans (e.link a ha)

theorem Ext.owned_eq {W : List Nat} {h h' : Objects} (e : Ext W h h') {a : Nat} (ha : a < h.next) : owned h' a = owned h a := by
  unfold owned
  rw [e.link a ha]

theorem Ext.view {W : List Nat} {h h' : Objects} (e : Ext W h h') {a : Nat} (hl : Present h a) (hd : ∀ x ∈ owned h a, x ∉ W) :
    h'.placeG2At a = h.placeG2At a := by
  have hp : h'.place a = h.place a := e.place a (hl a .record) (hd a (by simp [owned]))
  have ht : ∀ o : Option Nat, (∀ t, o = some t → t < h.next) → o.map h'.time = o.map h.time := by
    intro o ho
    cases o with
    | none => rfl
    | some t => exact congrArg some (e.time t (ho t rfl))
  unfold Objects.placeG2At Objects.placeAt
  rw [hp, ht _ fun t ht => hl t (.time ht)]
  cases hg : (h.place a).gnss with
  | none => rfl
  | some g =>
    have hge : h'.gnss g = h.gnss g := e.gnss g (hl g (.gnss hg)) (hd g (by simp [owned, hg]))
    simp only [Option.map_some, Objects.gnssAt, hge, ht _ fun t ht => hl t (.gnssTime hg ht)]

theorem Ext.reaches {W : List Nat} {h h' : Objects} (e : Ext W h h') {a : Nat} (hl : Present h a) (hd : ∀ x ∈ owned h a, x ∉ W) {x : Nat}
    (hr : Reaches h' a x) : Reaches h a x := by
  have hp : h'.place a = h.place a := e.place a (hl a .record) (hd a (by simp [owned]))
  have hge : ∀ g, (h.place a).gnss = some g → h'.gnss g = h.gnss g := fun g hg => e.gnss g (hl g (.gnss hg)) (hd g (by simp [owned, hg]))
  cases hr with
  | record => exact .record
  | time ht => rw [hp] at ht; exact .time ht
  | gnss hg => rw [hp] at hg; exact .gnss hg
  | gnssTime hg ht => rw [hp] at hg; rw [hge _ hg] at ht; exact .gnssTime hg ht

theorem Ext.present {W : List Nat} {h h' : Objects} (e : Ext W h h') {a : Nat} (hl : Present h a) (hd : ∀ x ∈ owned h a, x ∉ W) : Present h' a :=
  fun x hx => Nat.lt_of_lt_of_le (hl x (e.reaches hl hd hx)) e.le

theorem owned_reaches {h : Objects} {a x : Nat} (hx : x ∈ owned h a) : Reaches h a x := by
  rw [owned, List.mem_cons, Option.mem_toList] at hx
  rcases hx with rfl | hx
  · exact .record
  · exact .gnss hx

/-- The times of the record at `a` were allocated from `n` on. -/
def FreshTimes (n : Nat) (h : Objects) (a : Nat) : Prop :=
  (∀ t, (h.place a).time = some t → n ≤ t) ∧ ∀ g t, (h.place a).gnss = some g → (h.gnss g).timestamp = some t → n ≤ t

theorem Ext.fresh {W : List Nat} {h h' : Objects} (e : Ext W h h') {a : Nat} (hl : Present h a) (hd : ∀ x ∈ owned h a, x ∉ W)
    {n : Nat} (hf : FreshTimes n h a) : FreshTimes n h' a := by
  have hp : h'.place a = h.place a := e.place a (hl a .record) (hd a (by simp [owned]))
  refine ⟨by rw [hp]; exact hf.1, fun g t hg ht => ?_⟩
  rw [hp] at hg
  rw [e.gnss g (hl g (.gnss hg)) (hd g (by simp [owned, hg]))] at ht
  exact hf.2 g t hg ht

/-! ## The loop that makes new records -/

/-- A function that makes a new record for the record at `a`, and what it shows. -/
def MakesNew (f : Nat → Objects → Nat × Objects) (g : PlaceRecordG2 → PlaceRecordG2) : Prop := ∀ a h, Present h a →
  Ext [] h (f a h).2 ∧ Present (f a h).2 (f a h).1 ∧ (∀ x ∈ owned (f a h).2 (f a h).1, h.next ≤ x) ∧ (owned (f a h).2 (f a h).1).Nodup ∧
  (f a h).2.placeG2At (f a h).1 = g (h.placeG2At a)

theorem makes_each {f : Nat → Objects → Nat × Objects} {g : PlaceRecordG2 → PlaceRecordG2} (hf : MakesNew f g) (as : List Nat) (h : Objects)
    (ha : ∀ a ∈ as, Present h a) :
    Ext [] h (anonymizeEach f as h).2 ∧
    ((anonymizeEach f as h).1.flatMap (owned (anonymizeEach f as h).2)).Nodup ∧
    (∀ x ∈ (anonymizeEach f as h).1.flatMap (owned (anonymizeEach f as h).2), h.next ≤ x) ∧
    (∀ b ∈ (anonymizeEach f as h).1, Present (anonymizeEach f as h).2 b) ∧
    (anonymizeEach f as h).1.map (anonymizeEach f as h).2.placeG2At = as.map fun a => g (h.placeG2At a) := by
  induction as generalizing h with
  | nil => exact ⟨.refl _ _, List.nodup_nil, by simp [anonymizeEach], by simp [anonymizeEach], rfl⟩
  | cons a as ih =>
    have hn : ∀ {l : List Nat} (x : Nat), x ∈ l → x ∉ ([] : List Nat) := fun x _ => List.not_mem_nil
    obtain ⟨e1, l1, o1, d1, v1⟩ := hf a h (ha a (.head _))
    obtain ⟨e2, d2, o2, l2, v2⟩ := ih (f a h).2 fun b hb => e1.present (ha b (.tail _ hb)) hn
    have hv := e2.view l1 hn
    have ho : owned (anonymizeEach f as (f a h).2).2 (f a h).1 = owned (f a h).2 (f a h).1 := e2.owned_eq (l1 _ .record)
    show Ext [] h (anonymizeEach f as (f a h).2).2 ∧ _
    refine ⟨e1.trans e2, ?_, ?_, ?_, ?_⟩
    · show (((f a h).1 :: (anonymizeEach f as (f a h).2).1).flatMap (owned (anonymizeEach f as (f a h).2).2)).Nodup
      rw [List.flatMap_cons, ho, List.nodup_append]
      refine ⟨d1, d2, fun x hx y hy hxy => ?_⟩
      have := l1 x (owned_reaches hx)
      have := o2 y hy
      omega
    · show ∀ x ∈ ((f a h).1 :: (anonymizeEach f as (f a h).2).1).flatMap (owned (anonymizeEach f as (f a h).2).2), h.next ≤ x
      rw [List.flatMap_cons, ho]
      intro x hx
      rcases List.mem_append.mp hx with hx | hx
      · exact o1 x hx
      · exact Nat.le_trans e1.le (o2 x hx)
    · show ∀ b ∈ (f a h).1 :: (anonymizeEach f as (f a h).2).1, Present (anonymizeEach f as (f a h).2).2 b
      intro b hb
      rcases List.mem_cons.mp hb with rfl | hb
      · exact e2.present l1 hn
      · exact l2 b hb
    · show ((f a h).1 :: (anonymizeEach f as (f a h).2).1).map (anonymizeEach f as (f a h).2).2.placeG2At = _
      rw [List.map_cons, List.map_cons, hv, v1, v2]
      congr 1
      apply List.map_congr_left
      intro b hb
      rw [e1.view (ha b (.tail _ hb)) hn]

/-! ## The loops that write to them -/

/-- A function that writes to the record at `a`, and what it does to it; the times are new if they were, or if `p` holds
of the pointer to the GNSS record. -/
def WritesTo (f : Nat → Objects → Objects) (g : PlaceRecordG2 → PlaceRecordG2) (p : Option Nat → Prop) : Prop := ∀ a h, Present h a →
  Ext (owned h a) h (f a h) ∧ Present (f a h) a ∧ (f a h).placeG2At a = g (h.placeG2At a) ∧
  ∀ n ≤ h.next, p (h.place a).gnss ∨ FreshTimes n h a → FreshTimes n (f a h) a

/-- A function of the index and the element for each element, from index `i` on. -/
def mapFrom {α : Type} (g : Nat → α → α) : Nat → List α → List α
  | _, [] => []
  | i, x :: xs => g i x :: mapFrom g (i + 1) xs

theorem writes_each {f : Nat → Nat → Objects → Objects} {g : Nat → PlaceRecordG2 → PlaceRecordG2} {p : Option Nat → Prop} (hf : ∀ i, WritesTo (f i) (g i) p)
    (as : List Nat) (i : Nat) (h : Objects) (ha : ∀ a ∈ as, Present h a) (hd : (as.flatMap (owned h)).Nodup) :
    Ext (as.flatMap (owned h)) h (forEachAt f i as h) ∧ (∀ a ∈ as, Present (forEachAt f i as h) a) ∧
    as.map (forEachAt f i as h).placeG2At = mapFrom g i (as.map h.placeG2At) ∧
    ∀ n ≤ h.next, (∀ a ∈ as, p (h.place a).gnss ∨ FreshTimes n h a) → ∀ a ∈ as, FreshTimes n (forEachAt f i as h) a := by
  induction as generalizing h i with
  | nil => exact ⟨.refl _ _, fun a ha => absurd ha List.not_mem_nil, rfl, fun _ _ _ a ha => absurd ha List.not_mem_nil⟩
  | cons a as ih =>
    obtain ⟨e1, l1, v1, f1⟩ := hf i a h (ha a (.head _))
    rw [List.flatMap_cons, List.nodup_append] at hd
    obtain ⟨_, hd2, hdis⟩ := hd
    have hal := ha a (.head _) a .record
    have htl : ∀ b ∈ as, Present h b := fun b hb => ha b (.tail _ hb)
    have how : as.flatMap (owned (f i a h)) = as.flatMap (owned h) := by
      rw [List.flatMap, List.flatMap, List.map_congr_left fun b hb => e1.owned_eq (htl b hb b .record)]
    have hdb : ∀ b ∈ as, ∀ x ∈ owned h b, x ∉ owned h a := fun b hb x hx hxa => hdis x hxa x (List.mem_flatMap.mpr ⟨b, hb, hx⟩) rfl
    have hda : ∀ x ∈ owned (f i a h) a, x ∉ as.flatMap (owned (f i a h)) := by
      rw [e1.owned_eq hal, how]
      exact fun x hx hx' => hdis x hx x hx' rfl
    obtain ⟨e2, l2, v2, f2⟩ := ih (i + 1) (f i a h) (fun b hb => e1.present (htl b hb) (hdb b hb)) (by rw [how]; exact hd2)
    show Ext _ h (forEachAt f (i + 1) as (f i a h)) ∧ _
    refine ⟨?_, ?_, ?_, ?_⟩
    · rw [List.flatMap_cons, ← how]
      exact e1.trans e2
    · intro b hb
      show Present (forEachAt f (i + 1) as (f i a h)) b
      rcases List.mem_cons.mp hb with rfl | hb
      · exact e2.present l1 hda
      · exact l2 b hb
    · show (a :: as).map (forEachAt f (i + 1) as (f i a h)).placeG2At = _
      rw [List.map_cons, List.map_cons, mapFrom, e2.view l1 hda, v1, v2]
      congr 2
      apply List.map_congr_left
      intro b hb
      exact e1.view (htl b hb) (hdb b hb)
    · intro n hn hp b hb
      show FreshTimes n (forEachAt f (i + 1) as (f i a h)) b
      rcases List.mem_cons.mp hb with rfl | hb
      · exact e2.fresh l1 hda (f1 n hn (hp b (.head _)))
      · refine f2 n (Nat.le_trans hn e1.le) (fun c hc => ?_) b hb
        rw [e1.link c (htl c hc c .record)]
        exact (hp c (.tail _ hc)).imp id (e1.fresh (htl c hc) (hdb c hc))

/-! ## The steps -/

theorem makes_place : MakesNew anonymizePlaceAt fun r => ⟨anonymizePlaceRecord r.base, none⟩ := by
  intro a h hl
  have hne : ∀ b < h.next, b ≠ h.next := fun b hb => Nat.ne_of_lt hb
  have hview : (h.newPlace { rest := copiedPlace (h.place a), time := (h.place a).time, gnss := none }).2.placeAt h.next =
      { copiedPlace (h.place a) with entryTime := (h.place a).time.map h.time } := by
    simp [Objects.newPlace, Objects.placeAt]
  have hplace : (h.newPlace { rest := copiedPlace (h.place a), time := (h.place a).time, gnss := none }).2.place h.next =
      { rest := copiedPlace (h.place a), time := (h.place a).time, gnss := none } := by
    simp [Objects.newPlace]
  obtain ⟨r, hr, hrt⟩ : ∃ r, (anonymizePlaceAt a h).2 = { h with next := h.next + 1, place := fun b => if b = h.next then { rest := r, time := (h.place a).time, gnss := none } else h.place b } ∧
      { r with entryTime := (h.place a).time.map h.time } = anonymizePlaceRecord (h.placeAt a) := by
    unfold anonymizePlaceAt regenerateAt anonymizePlaceRecord
    dsimp only
    rw [show (h.newPlace { rest := copiedPlace (h.place a), time := (h.place a).time, gnss := none }).1 = h.next from rfl, hview]
    have e : ({ copiedPlace (h.place a) with entryTime := (h.place a).time.map h.time } : PlaceRecord) =
        { rawData := none, entryTime := (h.placeAt a).entryTime, entryType := (h.placeAt a).entryType
          unrecognizedEntryType := (h.placeAt a).unrecognizedEntryType, country := nationNumeric_finland, unrecognizedCountry := none
          region := [1], odometerKm := (h.placeAt a).odometerKm.tdiv 100 * 100 } := rfl
    rw [← e]
    cases appendPlaceRecord [] ({ copiedPlace (h.place a) with entryTime := (h.place a).time.map h.time } : PlaceRecord) with
    | err m => exact ⟨copiedPlace (h.place a), rfl, rfl⟩
    | panic => exact ⟨copiedPlace (h.place a), rfl, rfl⟩
    | ok b =>
      refine ⟨{ copiedPlace (h.place a) with rawData := some b }, ?_, rfl⟩
      dsimp only
      rw [hplace]
      unfold Objects.setPlace Objects.newPlace
      dsimp only
      congr 1
      funext c
      split <;> rfl
  have h1 : (anonymizePlaceAt a h).1 = h.next := rfl
  rw [h1, hr]
  refine ⟨⟨Nat.le_succ _, fun _ _ => rfl, ?_, fun _ _ _ => rfl, ?_⟩, ?_, ?_, ?_, ?_⟩
  · intro b hb _
    exact if_neg (hne b hb)
  · intro b hb
    dsimp only
    rw [if_neg (hne b hb)]
  · intro x hx
    show x < h.next + 1
    cases hx with
    | record => exact Nat.lt_succ_self _
    | time ht =>
      simp only [if_pos] at ht
      exact Nat.lt_succ_of_lt (hl _ (.time ht))
    | gnss hg => simp only [if_pos] at hg; cases hg
    | gnssTime hg _ => simp only [if_pos] at hg; cases hg
  · simp [owned]
  · simp [owned]
  · show (⟨_, _⟩ : PlaceRecordG2) = ⟨anonymizePlaceRecord (h.placeAt a), none⟩
    rw [← hrt]
    simp [Objects.placeAt]

theorem makes_placeG2 : MakesNew anonymizePlaceG2At anonymizePlaceRecordG2 := by
  intro a h hl
  have hne : ∀ b < h.next, b ≠ h.next := fun b hb => Nat.ne_of_lt hb
  unfold anonymizePlaceG2At
  cases hg : (h.place a).gnss with
  | none =>
    dsimp only [Objects.newPlace]
    rw [hg]
    dsimp only
    refine ⟨⟨Nat.le_succ _, fun _ _ => rfl, ?_, fun _ _ _ => rfl, ?_⟩, ?_, ?_, ?_, ?_⟩
    · intro b hb _
      exact if_neg (hne b hb)
    · intro b hb
      dsimp only
      rw [if_neg (hne b hb)]
    · intro x hx
      show x < h.next + 1
      cases hx with
      | record => exact Nat.lt_succ_self _
      | time ht =>
        simp only [if_pos] at ht
        exact Nat.lt_succ_of_lt (hl _ (.time ht))
      | gnss hg => simp only [if_pos] at hg; cases hg
      | gnssTime hg _ => simp only [if_pos] at hg; cases hg
    · simp [owned]
    · simp [owned]
    · simp [Objects.placeG2At, Objects.placeAt, anonymizePlaceRecordG2, copiedPlace, hg, anonymizeGNSSPlaceRecord]
  | some g =>
    have hgl := hl g (.gnss hg)
    dsimp only [Objects.newPlace, anonymizeGnssAt, Objects.newGnss]
    rw [hg]
    dsimp only
    refine ⟨⟨by dsimp only; omega, fun _ _ => rfl, ?_, ?_, ?_⟩, ?_, ?_, ?_, ?_⟩
    · intro b hb _
      exact if_neg (by omega)
    · intro b hb _
      exact if_neg (by omega)
    · intro b hb
      dsimp only
      rw [if_neg (by omega)]
    · intro x hx
      show x < h.next + 1 + 1
      cases hx with
      | record => exact Nat.lt_succ_self _
      | time ht =>
        simp only [if_pos] at ht
        have := hl _ (.time ht)
        omega
      | gnss hg' => simp only [if_pos] at hg'; cases hg'; omega
      | gnssTime hg' ht =>
        simp only [if_pos] at hg'
        cases hg'
        simp only [if_pos] at ht
        have := hl _ (.gnssTime hg ht)
        omega
    · simp [owned]
    · simp [owned]
    · simp [Objects.placeG2At, Objects.placeAt, anonymizePlaceRecordG2, copiedPlace, hg, anonymizeGNSSPlaceRecord, Objects.gnssAt]

/-- What the time loop does to a record of the first generation. -/
def stampBase (i : Nat) (r : PlaceRecord) : PlaceRecord :=
  if r.entryTime.isSome ∨ i = 0 then { r with entryTime := some ⟨1577836800 + (i : Int) * 3600, 0⟩ } else r

theorem times_mapFrom (i : Nat) (rs : List PlaceRecord) : anonymizeTimestamps i rs = mapFrom stampBase i rs := by
  induction rs generalizing i with
  | nil => rfl
  | cons r rs ih => rw [anonymizeTimestamps, mapFrom, ih]; rfl

/-- What the time loop does to the GNSS record of a record. -/
def stampGnss (i : Nat) (g : GNSSPlaceRecord) : GNSSPlaceRecord :=
  if g.timestamp.isSome then { g with timestamp := some ⟨1577836800 + (i : Int) * 3600, 0⟩ } else g

theorem timesG2_mapFrom (i : Nat) (rs : List PlaceRecordG2) :
    anonymizeTimestampsG2 i rs = mapFrom (fun i r => ⟨stampBase i r.base, r.gnss.map (stampGnss i)⟩) i rs := by
  induction rs generalizing i with
  | nil => rfl
  | cons r rs ih => rw [anonymizeTimestampsG2, mapFrom, ih]; rfl

theorem map_mapFrom {α : Type} (g : α → α) (i : Nat) (rs : List α) : mapFrom (fun _ => g) i rs = rs.map g := by
  induction rs generalizing i with
  | nil => rfl
  | cons r rs ih => rw [mapFrom, ih, List.map_cons]

theorem mapFrom_base {g : Nat → PlaceRecord → PlaceRecord} {g' : Nat → PlaceRecordG2 → PlaceRecordG2} (hg : ∀ i r, (g' i r).base = g i r.base)
    (i : Nat) (rs : List PlaceRecordG2) : (mapFrom g' i rs).map PlaceRecordG2.base = mapFrom g i (rs.map PlaceRecordG2.base) := by
  induction rs generalizing i with
  | nil => rfl
  | cons r rs ih => rw [mapFrom, List.map_cons, List.map_cons, mapFrom, ih, hg]

/-- Writing to a record, its pointers to other objects kept. -/
theorem writes_rest (a : Nat) (h : Objects) (p : PlaceRecord) (hl : Present h a) :
    Ext (owned h a) h (h.setPlace a { h.place a with rest := p }) ∧ Present (h.setPlace a { h.place a with rest := p }) a ∧
    (h.setPlace a { h.place a with rest := p }).placeG2At a = ⟨{ p with entryTime := (h.placeAt a).entryTime }, (h.placeG2At a).gnss⟩ ∧
    ∀ n, FreshTimes n h a → FreshTimes n (h.setPlace a { h.place a with rest := p }) a := by
  refine ⟨⟨Nat.le_refl _, fun _ _ => rfl, ?_, fun _ _ _ => rfl, ?_⟩, ?_, ?_, ?_⟩
  · intro b _ hb
    exact if_neg fun e => hb (by simp [owned, e])
  · intro b _
    dsimp only [Objects.setPlace]
    split
    · rename_i e; rw [e]
    · rfl
  · intro x hx
    show x < h.next
    cases hx with
    | record => exact hl a .record
    | time ht => simp only [Objects.setPlace, if_pos] at ht; exact hl _ (.time ht)
    | gnss hg => simp only [Objects.setPlace, if_pos] at hg; exact hl _ (.gnss hg)
    | gnssTime hg ht => simp only [Objects.setPlace, if_pos] at hg ht; exact hl _ (.gnssTime hg ht)
  · simp [Objects.setPlace, Objects.placeG2At, Objects.placeAt]
    cases (h.place a).gnss <;> rfl
  · intro n hf
    refine ⟨fun t ht => ?_, fun g t hg ht => ?_⟩
    · simp only [Objects.setPlace, if_pos] at ht; exact hf.1 t ht
    · simp only [Objects.setPlace, if_pos] at hg ht; exact hf.2 g t hg ht

theorem writes_regenerate : WritesTo regenerateAt (fun r => ⟨regeneratePlace r.base, r.gnss⟩) fun _ => False := by
  intro a h hl
  show _ ∧ _ ∧ _ = (⟨regeneratePlace (h.placeAt a), (h.placeG2At a).gnss⟩ : PlaceRecordG2) ∧ _
  unfold regenerateAt regeneratePlace
  cases appendPlaceRecord [] (h.placeAt a) with
  | err m => exact ⟨.refl _ _, hl, rfl, fun n _ hp => hp.resolve_left id⟩
  | panic => exact ⟨.refl _ _, hl, rfl, fun n _ hp => hp.resolve_left id⟩
  | ok b =>
    obtain ⟨e, l, v, f⟩ := writes_rest a h { (h.place a).rest with rawData := some b } hl
    exact ⟨e, l, v, fun n _ hp => f n (hp.resolve_left id)⟩

theorem writes_regenerateG2 : WritesTo regenerateG2At regeneratePlaceG2 fun _ => False := by
  intro a h hl
  unfold regenerateG2At regeneratePlaceG2
  cases appendPlaceRecordG2 [] (h.placeG2At a) with
  | err m => exact ⟨.refl _ _, hl, rfl, fun n _ hp => hp.resolve_left id⟩
  | panic => exact ⟨.refl _ _, hl, rfl, fun n _ hp => hp.resolve_left id⟩
  | ok b =>
    obtain ⟨e, l, v, f⟩ := writes_rest a h { (h.place a).rest with rawData := some b } hl
    exact ⟨e, l, v, fun n _ hp => f n (hp.resolve_left id)⟩

/-- The time of a record is replaced by a new one. -/
theorem stampAt_facts (i a : Nat) (h : Objects) (hl : Present h a) :
    Ext [a] h (stampAt i a h) ∧ Present (stampAt i a h) a ∧ (stampAt i a h).placeG2At a = ⟨stampBase i (h.placeAt a), (h.placeG2At a).gnss⟩ ∧
    (∀ n ≤ h.next, ∀ t, ((stampAt i a h).place a).time = some t → n ≤ t) ∧ (stampAt i a h).gnss = h.gnss := by
  unfold stampAt stampBase
  have hs : (h.placeAt a).entryTime.isSome = (h.place a).time.isSome := by
    simp [Objects.placeAt]
  rw [hs]
  by_cases hc : (h.place a).time.isSome = true ∨ i = 0
  · rw [if_pos hc, if_pos hc]
    have hal := hl a .record
    dsimp only [Objects.newTime]
    refine ⟨⟨Nat.le_succ _, ?_, ?_, fun _ _ _ => rfl, ?_⟩, ?_, ?_, ?_, rfl⟩
    · intro b hb
      exact if_neg (by omega)
    · intro b _ hb
      exact if_neg fun e => hb (by simp [e])
    · intro b _
      dsimp only [Objects.setPlace]
      split
      · rename_i e; rw [e]
      · rfl
    · intro x hx
      show x < h.next + 1
      cases hx with
      | record => omega
      | time ht => simp only [Objects.setPlace, if_pos] at ht; cases ht; omega
      | gnss hg => simp only [Objects.setPlace, if_pos] at hg; exact Nat.lt_succ_of_lt (hl _ (.gnss hg))
      | gnssTime hg ht => simp only [Objects.setPlace, if_pos] at hg ht; exact Nat.lt_succ_of_lt (hl _ (.gnssTime hg ht))
    · simp only [Objects.setPlace, Objects.placeG2At, Objects.placeAt, if_pos, Option.map_some, PlaceRecordG2.mk.injEq, true_and]
      cases hg : (h.place a).gnss with
      | none => rfl
      | some g =>
        simp only [Option.map_some, Objects.gnssAt]
        cases ht : (h.gnss g).timestamp with
        | none => rfl
        | some t =>
          have := hl t (.gnssTime hg ht)
          simp only [Option.map_some]
          rw [if_neg (by omega)]
    · intro n hn t ht
      simp only [Objects.setPlace, if_pos] at ht
      cases ht
      exact hn
  · rw [if_neg hc, if_neg hc]
    refine ⟨.refl _ _, hl, rfl, ?_, rfl⟩
    intro n _ t ht
    rw [ht] at hc
    exact absurd (.inl rfl) hc

theorem Ext.mono {W W' : List Nat} {h h' : Objects} (e : Ext W h h') (hw : ∀ x ∈ W, x ∈ W') : Ext W' h h' :=
  ⟨e.le, e.time, fun a ha hn => e.place a ha fun h => hn (hw a h), fun a ha hn => e.gnss a ha fun h => hn (hw a h), e.link⟩

/-- The time of a GNSS record is replaced by a new one. -/
theorem stampGnssAt_facts (i a : Nat) (h : Objects) (hl : Present h a) :
    Ext (owned h a) h (stampGnssAt i a h) ∧ Present (stampGnssAt i a h) a ∧
    (stampGnssAt i a h).placeG2At a = ⟨h.placeAt a, (h.placeG2At a).gnss.map (stampGnss i)⟩ ∧ (stampGnssAt i a h).place = h.place ∧
    ∀ n ≤ h.next, ∀ g t, (h.place a).gnss = some g → ((stampGnssAt i a h).gnss g).timestamp = some t → n ≤ t := by
  unfold stampGnssAt
  cases hg : (h.place a).gnss with
  | none =>
    refine ⟨.refl _ _, hl, ?_, rfl, fun n _ g t e => by cases e⟩
    simp [Objects.placeG2At, hg]
  | some g =>
    dsimp only
    have hgl := hl g (.gnss hg)
    have hal := hl a .record
    by_cases hc : (h.gnss g).timestamp.isSome = true
    · rw [if_pos hc]
      dsimp only [Objects.newTime]
      refine ⟨⟨Nat.le_succ _, ?_, fun _ _ _ => rfl, ?_, fun _ _ => rfl⟩, ?_, ?_, rfl, ?_⟩
      · intro b hb
        exact if_neg (by omega)
      · intro b _ hb
        exact if_neg fun e => hb (by simp [owned, hg, e])
      · intro x hx
        show x < h.next + 1
        cases hx with
        | record => omega
        | time ht => exact Nat.lt_succ_of_lt (hl _ (.time ht))
        | gnss hg' => exact Nat.lt_succ_of_lt (hl _ (.gnss hg'))
        | gnssTime hg' ht =>
          have : (h.place a).gnss = some _ := hg'
          rw [hg] at this
          cases this
          simp only [Objects.setGnss, if_pos] at ht
          cases ht
          omega
      · have ht : ∀ o : Option Nat, (∀ t, o = some t → t < h.next) →
            o.map (fun b => if b = h.next then (⟨1577836800 + (i : Int) * 3600, 0⟩ : Timestamp) else h.time b) = o.map h.time := by
          intro o ho
          cases o with
          | none => rfl
          | some t =>
            have := ho t rfl
            simp only [Option.map_some]
            rw [if_neg (by omega)]
        simp only [Objects.setGnss, Objects.placeG2At, Objects.placeAt, hg, Option.map_some, Objects.gnssAt, if_pos]
        rw [ht _ fun t e => hl t (.time e)]
        simp only [stampGnss, Option.isSome_map, hc, if_pos]
      · intro n hn g' t e ht
        cases e
        simp only [Objects.setGnss, if_pos] at ht
        cases ht
        exact hn
    · rw [if_neg hc]
      refine ⟨.refl _ _, hl, ?_, rfl, ?_⟩
      · simp [Objects.placeG2At, hg, stampGnss, Objects.gnssAt, hc]
      · intro n _ g' t e ht
        cases e
        rw [ht] at hc
        exact absurd rfl hc

theorem writes_stampG2 (i : Nat) : WritesTo (stampG2At i) (fun r => ⟨stampBase i r.base, r.gnss.map (stampGnss i)⟩) fun _ => True := by
  intro a h hl
  obtain ⟨e1, l1, v1, f1, _⟩ := stampAt_facts i a h hl
  obtain ⟨e2, l2, v2, p2, f2⟩ := stampGnssAt_facts i a _ l1
  have hal := hl a .record
  unfold stampG2At
  refine ⟨?_, l2, ?_, ?_⟩
  · refine (e1.trans e2).mono fun x hx => ?_
    rw [e1.owned_eq hal] at hx
    rcases List.mem_append.mp hx with hx | hx
    · rw [List.mem_singleton.mp hx]; simp [owned]
    · exact hx
  · rw [v2, show (stampAt i a h).placeAt a = ((stampAt i a h).placeG2At a).base from rfl, v1]
    rfl
  · intro n hn _
    refine ⟨fun t ht => ?_, fun g t hg ht => ?_⟩
    · rw [p2] at ht
      exact f1 n hn t ht
    · rw [p2] at hg
      exact f2 n (Nat.le_trans hn e1.le) g t hg ht

theorem writes_stamp (i : Nat) : WritesTo (stampAt i) (fun r => ⟨stampBase i r.base, r.gnss⟩) fun g => g = none := by
  intro a h hl
  obtain ⟨e, l, v, f, hg⟩ := stampAt_facts i a h hl
  refine ⟨e.mono fun x hx => by rw [List.mem_singleton.mp hx]; simp [owned], l, v, fun n hn hp => ⟨f n hn, fun g t hg' ht => ?_⟩⟩
  rw [e.link a (hl a .record)] at hg'
  rw [hg] at ht
  rcases hp with hp | hp
  · rw [hp] at hg'; cases hg'
  · exact hp.2 g t hg' ht

/-! ## The theorems -/

theorem untouched_of_ext {W : List Nat} {h h' : Objects} (e : Ext W h h') (hw : ∀ x ∈ W, h.next ≤ x) : Untouched h h' := by
  intro a ha
  have hn : a ∉ W := fun hx => absurd (hw a hx) (by omega)
  exact ⟨e.time a ha, e.gnss a ha hn, e.place a ha hn⟩

theorem sublist_owned (h : Objects) (bs : List Nat) : List.Sublist bs (bs.flatMap (owned h)) := by
  induction bs with
  | nil => exact List.Sublist.refl _
  | cons b bs ih =>
    rw [List.flatMap_cons, owned, List.cons_append]
    exact (ih.trans (List.sublist_append_right _ _)).cons_cons b

/-- All three loops. -/
theorem three_loops {f1 : Nat → Objects → Nat × Objects} {g1 : PlaceRecordG2 → PlaceRecordG2} (hf1 : MakesNew f1 g1)
    {f2 : Nat → Nat → Objects → Objects} {g2 : Nat → PlaceRecordG2 → PlaceRecordG2} {p : Option Nat → Prop} (hf2 : ∀ i, WritesTo (f2 i) (g2 i) p)
    {f3 : Nat → Objects → Objects} {g3 : PlaceRecordG2 → PlaceRecordG2} (hf3 : WritesTo f3 g3 fun _ => False)
    (as : List Nat) (h : Objects) (ha : ∀ a ∈ as, Present h a)
    (hp : ∀ b ∈ (anonymizeEach f1 as h).1, p ((anonymizeEach f1 as h).2.place b).gnss) :
    let h' := forEachAt (fun _ => f3) 0 (anonymizeEach f1 as h).1 (forEachAt f2 0 (anonymizeEach f1 as h).1 (anonymizeEach f1 as h).2)
    Untouched h h' ∧ (anonymizeEach f1 as h).1.Nodup ∧ (∀ b ∈ (anonymizeEach f1 as h).1, ∀ x, Reaches h' b x → h.next ≤ x ∧ x < h'.next) ∧
    (anonymizeEach f1 as h).1.map h'.placeG2At = (mapFrom g2 0 (as.map fun a => g1 (h.placeG2At a))).map g3 := by
  obtain ⟨e1, d1, o1, l1, v1⟩ := makes_each hf1 as h ha
  generalize hx : anonymizeEach f1 as h = x at *
  obtain ⟨bs, h1⟩ := x
  dsimp only at *
  obtain ⟨e2, l2, v2, t2⟩ := writes_each hf2 bs 0 h1 l1 d1
  have hsame : bs.flatMap (owned (forEachAt f2 0 bs h1)) = bs.flatMap (owned h1) := by
    rw [List.flatMap, List.flatMap, List.map_congr_left fun b hb => e2.owned_eq (l1 b hb b .record)]
  obtain ⟨e3, l3, v3, t3⟩ := writes_each (f := fun _ => f3) (g := fun _ => g3) (fun _ => hf3) bs 0 (forEachAt f2 0 bs h1) l2 (by rw [hsame]; exact d1)
  have hn1 := e1.le
  have ht2 := t2 h.next hn1 fun b hb => .inl (hp b hb)
  have ht3 := t3 h.next (Nat.le_trans hn1 e2.le) fun b hb => .inr (ht2 b hb)
  refine ⟨?_, ?_, ?_, ?_⟩
  · refine untouched_of_ext ((e1.trans e2).trans e3) fun x hx => ?_
    rw [hsame, List.nil_append, List.mem_append, or_self] at hx
    exact o1 x hx
  · exact (sublist_owned h1 bs).nodup d1
  · intro b hb x hx
    refine ⟨?_, l3 b hb x hx⟩
    have hown : ∀ y ∈ owned (forEachAt (fun _ => f3) 0 bs (forEachAt f2 0 bs h1)) b, h.next ≤ y := by
      rw [e3.owned_eq (l2 b hb b .record), e2.owned_eq (l1 b hb b .record)]
      exact fun y hy => o1 y (List.mem_flatMap.mpr ⟨b, hb, hy⟩)
    cases hx with
    | record => exact hown _ (by simp [owned])
    | time ht => exact (ht3 b hb).1 _ ht
    | gnss hg => exact hown _ (by simp [owned, hg])
    | gnssTime hg ht => exact (ht3 b hb).2 _ _ hg ht
  · rw [v3, v2, v1, map_mapFrom]

theorem placesAt_eq (p : RecordFile Nat) (h : Objects) :
    (anonymizePlacesAt p h).1.records = (anonymizeEach anonymizePlaceAt p.records h).1 ∧
    (anonymizePlacesAt p h).2 = forEachAt (fun _ => regenerateAt) 0 (anonymizeEach anonymizePlaceAt p.records h).1
      (forEachAt stampAt 0 (anonymizeEach anonymizePlaceAt p.records h).1 (anonymizeEach anonymizePlaceAt p.records h).2) := by
  unfold anonymizePlacesAt
  dsimp only
  split <;> exact ⟨rfl, rfl⟩

theorem placesG2At_eq (p : RecordFile Nat) (h : Objects) :
    (anonymizePlacesG2At p h).1.records = (anonymizeEach anonymizePlaceG2At p.records h).1 ∧
    (anonymizePlacesG2At p h).2 = forEachAt (fun _ => regenerateG2At) 0 (anonymizeEach anonymizePlaceG2At p.records h).1
      (forEachAt stampG2At 0 (anonymizeEach anonymizePlaceG2At p.records h).1 (anonymizeEach anonymizePlaceG2At p.records h).2) := by
  unfold anonymizePlacesG2At
  dsimp only
  split <;> exact ⟨rfl, rfl⟩

theorem made_without_gnss (as : List Nat) (h : Objects) (ha : ∀ a ∈ as, Present h a) :
    ∀ b ∈ (anonymizeEach anonymizePlaceAt as h).1, ((anonymizeEach anonymizePlaceAt as h).2.place b).gnss = none := by
  obtain ⟨_, _, _, _, v⟩ := makes_each makes_place as h ha
  intro b hb
  have hm := List.mem_map_of_mem (f := (anonymizeEach anonymizePlaceAt as h).2.placeG2At) hb
  rw [v, List.mem_map] at hm
  obtain ⟨a, _, e⟩ := hm
  have := congrArg PlaceRecordG2.gnss e
  exact Option.map_eq_none_iff.mp this.symm

/-- C93. Anonymising the places of a card writes to no object that existed before, and the result shares no object
with what existed before; its records are different objects, also where the original has one record twice. -/
theorem anonymize_places_separate (p : RecordFile Nat) (h : Objects) (hp : ∀ a ∈ p.records, Present h a) :
    Untouched h (anonymizePlacesAt p h).2 ∧ (anonymizePlacesAt p h).1.records.Nodup ∧
    ∀ b ∈ (anonymizePlacesAt p h).1.records, ∀ x, Reaches (anonymizePlacesAt p h).2 b x → h.next ≤ x ∧ x < (anonymizePlacesAt p h).2.next := by
  obtain ⟨e1, e2⟩ := placesAt_eq p h
  rw [e1, e2]
  obtain ⟨a, b, c, _⟩ := three_loops makes_place writes_stamp writes_regenerate p.records h hp (made_without_gnss _ _ hp)
  exact ⟨a, b, c⟩

/-- C93. The same for the places of the second generation. -/
theorem anonymize_placesG2_separate (p : RecordFile Nat) (h : Objects) (hp : ∀ a ∈ p.records, Present h a) :
    Untouched h (anonymizePlacesG2At p h).2 ∧ (anonymizePlacesG2At p h).1.records.Nodup ∧
    ∀ b ∈ (anonymizePlacesG2At p h).1.records, ∀ x, Reaches (anonymizePlacesG2At p h).2 b x → h.next ≤ x ∧ x < (anonymizePlacesG2At p h).2.next := by
  obtain ⟨e1, e2⟩ := placesG2At_eq p h
  rw [e1, e2]
  obtain ⟨a, b, c, _⟩ := three_loops makes_placeG2 writes_stampG2 writes_regenerateG2 p.records h hp (fun _ _ => trivial)
  exact ⟨a, b, c⟩

/-- C93. The result shows what anonymising a message of values gives (C40), whatever objects its records share. -/
theorem anonymize_places_shown (p : RecordFile Nat) (h : Objects) (hp : ∀ a ∈ p.records, Present h a) (raw : Option Bytes) :
    (⟨(anonymizePlacesAt p h).1.rawData, (anonymizePlacesAt p h).1.newest, (anonymizePlacesAt p h).1.records.map (anonymizePlacesAt p h).2.placeAt⟩ : RecordFile PlaceRecord) =
      anonymizePlaces ⟨raw, p.newest, p.records.map h.placeAt⟩ := by
  have hv : (anonymizePlacesAt p h).1.records.map (anonymizePlacesAt p h).2.placeAt =
      (anonymizeTimestamps 0 ((p.records.map h.placeAt).map anonymizePlaceRecord)).map regeneratePlace := by
    obtain ⟨e1, e2⟩ := placesAt_eq p h
    rw [e1, e2]
    obtain ⟨_, _, _, v⟩ := three_loops makes_place writes_stamp writes_regenerate p.records h hp (made_without_gnss _ _ hp)
    have := congrArg (List.map PlaceRecordG2.base) v
    rw [List.map_map, List.map_map] at this
    refine Eq.trans this ?_
    rw [show (PlaceRecordG2.base ∘ fun r : PlaceRecordG2 => (⟨regeneratePlace r.base, r.gnss⟩ : PlaceRecordG2)) = regeneratePlace ∘ PlaceRecordG2.base from rfl,
      ← List.map_map, mapFrom_base (g := stampBase) (fun _ _ => rfl), times_mapFrom, List.map_map, List.map_map]
    rfl
  have hn : (anonymizePlacesAt p h).1.newest = p.newest := by
    unfold anonymizePlacesAt
    dsimp only
    split <;> rfl
  have hr : (anonymizePlacesAt p h).1.rawData =
      match appendPlaces [] (some { rawData := none, newest := p.newest, records := (anonymizePlacesAt p h).1.records.map (anonymizePlacesAt p h).2.placeAt }) with
      | .ok b => some b
      | _ => none := by
    obtain ⟨e1, e2⟩ := placesAt_eq p h
    rw [e1, e2]
    unfold anonymizePlacesAt
    dsimp only
    generalize appendPlaces [] _ = y
    cases y <;> rfl
  rw [hr, hn, hv]
  unfold anonymizePlaces
  dsimp only
  generalize appendPlaces [] _ = y
  cases y <;> rfl

/-- C93. The same for the places of the second generation. -/
theorem anonymize_placesG2_shown (p : RecordFile Nat) (h : Objects) (hp : ∀ a ∈ p.records, Present h a) (raw : Option Bytes) :
    (⟨(anonymizePlacesG2At p h).1.rawData, (anonymizePlacesG2At p h).1.newest,
      (anonymizePlacesG2At p h).1.records.map (anonymizePlacesG2At p h).2.placeG2At⟩ : RecordFile PlaceRecordG2) =
      anonymizePlacesG2 ⟨raw, p.newest, p.records.map h.placeG2At⟩ := by
  have hv : (anonymizePlacesG2At p h).1.records.map (anonymizePlacesG2At p h).2.placeG2At =
      (anonymizeTimestampsG2 0 ((p.records.map h.placeG2At).map anonymizePlaceRecordG2)).map regeneratePlaceG2 := by
    obtain ⟨e1, e2⟩ := placesG2At_eq p h
    rw [e1, e2]
    obtain ⟨_, _, _, v⟩ := three_loops makes_placeG2 writes_stampG2 writes_regenerateG2 p.records h hp (fun _ _ => trivial)
    refine Eq.trans v ?_
    rw [timesG2_mapFrom, List.map_map]
    rfl
  have hn : (anonymizePlacesG2At p h).1.newest = p.newest := by
    unfold anonymizePlacesG2At
    dsimp only
    split <;> rfl
  have hr : (anonymizePlacesG2At p h).1.rawData =
      match appendPlacesG2 [] (some { rawData := none, newest := p.newest, records := (anonymizePlacesG2At p h).1.records.map (anonymizePlacesG2At p h).2.placeG2At }) with
      | .ok b => some b
      | _ => none := by
    obtain ⟨e1, e2⟩ := placesG2At_eq p h
    rw [e1, e2]
    unfold anonymizePlacesG2At
    dsimp only
    generalize appendPlacesG2 [] _ = y
    cases y <;> rfl
  rw [hr, hn, hv]
  unfold anonymizePlacesG2
  dsimp only
  generalize appendPlacesG2 [] _ = y
  cases y <;> rfl

/-- C93. As long as nothing writes to the objects of a record, it shows the same; so later changes of the objects of the
anonymised places do not reach the original. -/
theorem untouched_shows {h h' : Objects} (hu : Untouched h h') (hn : h.next ≤ h'.next) {a : Nat} (ha : Present h a) :
    h'.placeAt a = h.placeAt a ∧ h'.placeG2At a = h.placeG2At a := by
  have e : Ext [] h h' := ⟨hn, fun b hb => (hu b hb).1, fun b hb _ => (hu b hb).2.2, fun b hb _ => (hu b hb).2.1, fun b hb => by rw [(hu b hb).2.2]⟩
  have hv := e.view ha (fun x _ => List.not_mem_nil)
  exact ⟨congrArg PlaceRecordG2.base hv, hv⟩

/-- C93. A single anonymised record shares exactly one object with the original: its time. -/
theorem anonymize_place_shares (a : Nat) (h : Objects) (ha : Present h a) :
    Untouched h (anonymizePlaceAt a h).2 ∧
    ∀ x < h.next, Reaches (anonymizePlaceAt a h).2 (anonymizePlaceAt a h).1 x ↔ (h.place a).time = some x := by
  obtain ⟨e, _, o, _, v⟩ := makes_place a h ha
  have hg : ((anonymizePlaceAt a h).2.place (anonymizePlaceAt a h).1).gnss = none :=
    Option.map_eq_none_iff.mp (congrArg PlaceRecordG2.gnss v)
  have ht : ((anonymizePlaceAt a h).2.place (anonymizePlaceAt a h).1).time = (h.place a).time := by
    unfold anonymizePlaceAt regenerateAt
    dsimp only
    split <;> simp [Objects.setPlace, Objects.newPlace]
  refine ⟨untouched_of_ext e (fun x hx => absurd hx List.not_mem_nil), fun x hx => ⟨fun hr => ?_, fun hr => .time (ht.trans hr)⟩⟩
  cases hr with
  | record => exact absurd (o _ (List.mem_cons_self ..)) (by omega)
  | time h' => exact ht.symm.trans h'
  | gnss h' => rw [hg] at h'; cases h'
  | gnssTime h' _ => rw [hg] at h'; cases h'

/-- C93. A single anonymised record of the second generation shares its time and the time of its GNSS record. -/
theorem anonymize_placeG2_shares (a : Nat) (h : Objects) (ha : Present h a) :
    Untouched h (anonymizePlaceG2At a h).2 ∧
    ∀ x < h.next, Reaches (anonymizePlaceG2At a h).2 (anonymizePlaceG2At a h).1 x ↔
      (h.place a).time = some x ∨ ∃ g, (h.place a).gnss = some g ∧ (h.gnss g).timestamp = some x := by
  obtain ⟨e, _, o, _, _⟩ := makes_placeG2 a h ha
  have ht : ((anonymizePlaceG2At a h).2.place (anonymizePlaceG2At a h).1).time = (h.place a).time := by
    unfold anonymizePlaceG2At
    dsimp only
    split <;> simp [Objects.newPlace]
  have hg : ∀ x, (∃ g, ((anonymizePlaceG2At a h).2.place (anonymizePlaceG2At a h).1).gnss = some g ∧ ((anonymizePlaceG2At a h).2.gnss g).timestamp = some x) ↔
      ∃ g, (h.place a).gnss = some g ∧ (h.gnss g).timestamp = some x := by
    intro x
    unfold anonymizePlaceG2At
    dsimp only
    cases hg : (h.place a).gnss with
    | none => simp [Objects.newPlace]
    | some g => simp [Objects.newPlace, anonymizeGnssAt, Objects.newGnss]
  refine ⟨untouched_of_ext e (fun x hx => absurd hx List.not_mem_nil), fun x hx => ⟨fun hr => ?_, ?_⟩⟩
  · cases hr with
    | record => exact absurd (o _ (List.mem_cons_self ..)) (by omega)
    | time h' => exact .inl (ht.symm.trans h')
    | gnss h' => exact absurd (o x (by simp [owned, h'])) (by omega)
    | gnssTime h1 h2 => exact .inr ((hg x).mp ⟨_, h1, h2⟩)
  · rintro (h' | h')
    · exact .time (ht.trans h')
    · obtain ⟨g, h1, h2⟩ := (hg x).mpr h'
      exact .gnssTime h1 h2

/-- C93 (finding). So a program that corrects the time of an anonymised record in place changes the original too. -/
theorem shared_time_changes_both (a t : Nat) (h : Objects) (ha : Present h a) (ht : (h.place a).time = some t) (v : Timestamp) :
    let h' := (anonymizePlaceAt a h).2
    let h'' : Objects := { h' with time := fun b => if b = t then v else h'.time b }
    (h''.placeAt (anonymizePlaceAt a h).1).entryTime = some v ∧ (h''.placeAt a).entryTime = some v := by
  obtain ⟨hu, hs⟩ := anonymize_place_shares a h ha
  have h1 : ((anonymizePlaceAt a h).2.place (anonymizePlaceAt a h).1).time = some t := by
    rw [← ht]
    unfold anonymizePlaceAt regenerateAt
    dsimp only
    split <;> simp [Objects.setPlace, Objects.newPlace]
  have h2 : ((anonymizePlaceAt a h).2.place a).time = some t := by rw [(hu a (ha a .record)).2.2]; exact ht
  dsimp only [Objects.placeAt]
  rw [h1, h2]
  simp

/-! ## The hypotheses are met -/

/-- Two entries that are one record, with a time, and a GNSS record with the same time. -/
example (t : Timestamp) (r : PlaceRecord) : ∃ (h : Objects) (p : RecordFile Nat), (∀ a ∈ p.records, Present h a) ∧ p.records = [2, 2] ∧
    (h.placeAt 2).entryTime = some t ∧ ((h.placeG2At 2).gnss.bind GNSSPlaceRecord.timestamp) = some t := by
  refine ⟨⟨3, fun _ => t, fun _ => ⟨some 0, 0, none⟩, fun _ => ⟨r, some 0, some 1⟩⟩, ⟨none, 0, [2, 2]⟩, ?_, rfl, rfl, rfl⟩
  intro a ha x hx
  have hx' : x = a ∨ x = 0 ∨ x = 1 := by
    cases hx with
    | record => exact .inl rfl
    | time h => cases h; exact .inr (.inl rfl)
    | gnss h => cases h; exact .inr (.inr rfl)
    | gnssTime h1 h2 => cases h1; cases h2; exact .inr (.inl rfl)
  simp only [List.mem_cons, List.not_mem_nil, or_false, or_self] at ha
  show x < 3
  omega

end Tacho
