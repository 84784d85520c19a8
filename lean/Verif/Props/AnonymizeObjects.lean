import Verif.Spec.AnonymizeObjects
/-!
# What an anonymised list of vehicles shares with the original (C93)
-/

namespace Tacho
open Spec

theorem VehiclesUntouched.trans {h h' h'' : VehicleObjects} (e : VehiclesUntouched h h') (hn : h.next ≤ h'.next)
    (e' : VehiclesUntouched h' h'') : VehiclesUntouched h h'' := by
  intro a ha
  obtain ⟨a1, a2, a3, a4, a5⟩ := e a ha
  obtain ⟨b1, b2, b3, b4, b5⟩ := e' a (Nat.lt_of_lt_of_le ha hn)
  exact ⟨b1.trans a1, b2.trans a2, b3.trans a3, b4.trans a4, b5.trans a5⟩

/-- What the getters show of a message does not change if none of its objects is written to. -/
theorem vehicles_untouched_shows {h h' : VehicleObjects} (e : VehiclesUntouched h h') {a : Nat} (ha : VehiclePresent h a) :
    h'.vehicleAt a = h.vehicleAt a := by
  have hv := (e a (ha a .record)).2.2.2.2
  have h1 : (h.vehicle a).first.map h'.time = (h.vehicle a).first.map h.time := by
    cases hf : (h.vehicle a).first with
    | none => rfl
    | some t => exact congrArg some (e t (ha t (.first hf))).1
  have h2 : (h.vehicle a).last.map h'.time = (h.vehicle a).last.map h.time := by
    cases hf : (h.vehicle a).last with
    | none => rfl
    | some t => exact congrArg some (e t (ha t (.last hf))).1
  have h3 : (h.vehicle a).counter.map h'.bcd = (h.vehicle a).counter.map h.bcd := by
    cases hf : (h.vehicle a).counter with
    | none => rfl
    | some t => exact congrArg some (e t (ha t (.counter hf))).2.2.2.1
  have h4 : (h.vehicle a).reg.map h'.regAt = (h.vehicle a).reg.map h.regAt := by
    cases hf : (h.vehicle a).reg with
    | none => rfl
    | some r =>
      have hr := (e r (ha r (.reg hf))).2.2.1
      have hn : (h.reg r).number.map h'.text = (h.reg r).number.map h.text := by
        cases hg : (h.reg r).number with
        | none => rfl
        | some n => exact congrArg some (e n (ha n (.number hf hg))).2.1
      show some (h'.regAt r) = some (h.regAt r)
      unfold VehicleObjects.regAt
      rw [hr, hn]
  unfold VehicleObjects.vehicleAt
  rw [hv, h1, h2, h3, h4]

/-- The objects the record at `a` leads to in `h'`, in terms of the state `h` before it was made from the one at `o`. -/
structure MadeFrom (h h' : VehicleObjects) (o a : Nat) : Prop where
  new : h.next ≤ a ∧ a < h'.next
  only : ∀ x, VehicleReaches h' a x → (h.next ≤ x ∧ x < h'.next) ∨ (h.vehicle o).counter = some x
  counter : (h'.vehicle a).counter = (h.vehicle o).counter

/-- The state before the raw data of the new record is set. -/
def vehicleDraft (index a : Nat) (h : VehicleObjects) : Nat × VehicleObjects :=
  let o := h.vehicle a
  let t1 := h.newTime ⟨1577836800 + (index : Int) * 86400, 0⟩
  let t2 := t1.2.newTime ⟨1577836800 + (index : Int) * 86400 + 86400 - 1, 0⟩
  let r := anonymizeRegAt o.reg t2.2
  r.2.newVehicle {
    rawData := none, odometerBegin := o.odometerBegin.tdiv 1000 * 1000, odometerEnd := o.odometerEnd.tdiv 1000 * 1000
    first := some t1.1, last := some t2.1, reg := r.1, counter := o.counter }

/-- The value model's record before its raw data is set. -/
def recordDraft (r : CardVehicleRecord) (index : Nat) : CardVehicleRecord :=
  let first : Int := 1577836800 + (index : Int) * 86400
  { rawData := none
    odometerBegin := r.odometerBegin.tdiv 1000 * 1000
    odometerEnd := r.odometerEnd.tdiv 1000 * 1000
    firstUse := some ⟨first, 0⟩
    lastUse := some ⟨first + 86400 - 1, 0⟩
    registration := r.registration.map (fun v => {
      nation := v.nation
      number := some {
        encoding := encoding_iso88591, rawData := none, length := some 13
        value := [0x54, 0x45, 0x53, 0x54, 0x2D, 0x56, 0x52, 0x4E] } })
    counter := r.counter }

theorem draft_made (i o : Nat) (h : VehicleObjects) :
    VehiclesUntouched h (vehicleDraft i o h).2 ∧ h.next < (vehicleDraft i o h).2.next ∧
    MadeFrom h (vehicleDraft i o h).2 o (vehicleDraft i o h).1 ∧
    (vehicleDraft i o h).2.vehicleAt (vehicleDraft i o h).1 = recordDraft (h.vehicleAt o) i := by
  cases hr : (h.vehicle o).reg with
  | none =>
    simp only [vehicleDraft, anonymizeRegAt, hr]
    refine ⟨?_, ?_, ⟨?_, ?_, ?_⟩, ?_⟩
    · intro a ha
      have n0 : a ≠ h.next := by omega
      have n1 : a ≠ h.next + 1 := by omega
      have n2 : a ≠ h.next + 1 + 1 := by omega
      simp [VehicleObjects.newTime, VehicleObjects.newVehicle, n0, n1, n2]
    · simp only [VehicleObjects.newTime, VehicleObjects.newVehicle]; omega
    · simp only [VehicleObjects.newTime, VehicleObjects.newVehicle]; omega
    · intro x hx
      cases hx with
      | record => left; simp only [VehicleObjects.newTime, VehicleObjects.newVehicle]; omega
      | first e => left; simp [VehicleObjects.newTime, VehicleObjects.newVehicle] at e ⊢; omega
      | last e => left; simp [VehicleObjects.newTime, VehicleObjects.newVehicle] at e ⊢; omega
      | reg e => simp [VehicleObjects.newTime, VehicleObjects.newVehicle] at e
      | number e _ => simp [VehicleObjects.newTime, VehicleObjects.newVehicle] at e
      | counter e => right; simpa [VehicleObjects.newTime, VehicleObjects.newVehicle] using e
    · simp [VehicleObjects.newTime, VehicleObjects.newVehicle]
    · simp [VehicleObjects.newTime, VehicleObjects.newVehicle, VehicleObjects.vehicleAt, recordDraft, hr]
  | some r =>
    simp only [vehicleDraft, anonymizeRegAt, hr]
    refine ⟨?_, ?_, ⟨?_, ?_, ?_⟩, ?_⟩
    · intro a ha
      have n0 : a ≠ h.next := by omega
      have n1 : a ≠ h.next + 1 := by omega
      have n2 : a ≠ h.next + 1 + 1 := by omega
      have n3 : a ≠ h.next + 1 + 1 + 1 := by omega
      have n4 : a ≠ h.next + 1 + 1 + 1 + 1 := by omega
      simp [VehicleObjects.newTime, VehicleObjects.newVehicle, VehicleObjects.newText, VehicleObjects.newReg, n0, n1, n2, n3, n4]
    · simp only [VehicleObjects.newTime, VehicleObjects.newVehicle, VehicleObjects.newText, VehicleObjects.newReg]; omega
    · simp only [VehicleObjects.newTime, VehicleObjects.newVehicle, VehicleObjects.newText, VehicleObjects.newReg]; omega
    · intro x hx
      cases hx with
      | record => left; simp only [VehicleObjects.newTime, VehicleObjects.newVehicle, VehicleObjects.newText, VehicleObjects.newReg]; omega
      | first e => left; simp [VehicleObjects.newTime, VehicleObjects.newVehicle, VehicleObjects.newText, VehicleObjects.newReg] at e ⊢; omega
      | last e => left; simp [VehicleObjects.newTime, VehicleObjects.newVehicle, VehicleObjects.newText, VehicleObjects.newReg] at e ⊢; omega
      | reg e => left; simp [VehicleObjects.newTime, VehicleObjects.newVehicle, VehicleObjects.newText, VehicleObjects.newReg] at e ⊢; omega
      | number e e' =>
        left
        simp [VehicleObjects.newTime, VehicleObjects.newVehicle, VehicleObjects.newText, VehicleObjects.newReg] at e
        subst e
        simp [VehicleObjects.newTime, VehicleObjects.newVehicle, VehicleObjects.newText, VehicleObjects.newReg] at e' ⊢
        omega
      | counter e => right; simpa [VehicleObjects.newTime, VehicleObjects.newVehicle, VehicleObjects.newText, VehicleObjects.newReg] using e
    · simp [VehicleObjects.newTime, VehicleObjects.newVehicle, VehicleObjects.newText, VehicleObjects.newReg]
    · simp [VehicleObjects.newTime, VehicleObjects.newVehicle, VehicleObjects.newText, VehicleObjects.newReg, VehicleObjects.vehicleAt,
        VehicleObjects.regAt, recordDraft, hr]

theorem draft_at (i o : Nat) (h : VehicleObjects) : anonymizeVehicleAt i o h =
    match appendCardVehicleRecord [] ((vehicleDraft i o h).2.vehicleAt (vehicleDraft i o h).1) with
    | .ok b => ((vehicleDraft i o h).1, (vehicleDraft i o h).2.setVehicle (vehicleDraft i o h).1
        { (vehicleDraft i o h).2.vehicle (vehicleDraft i o h).1 with rawData := some b })
    | _ => vehicleDraft i o h := rfl

theorem draft_value (r : CardVehicleRecord) (i : Nat) : anonymizeCardVehicleRecord r i =
    match appendCardVehicleRecord [] (recordDraft r i) with
    | .ok b => { recordDraft r i with rawData := some b }
    | _ => recordDraft r i := rfl

theorem vehicle_made (i o : Nat) (h : VehicleObjects) :
    VehiclesUntouched h (anonymizeVehicleAt i o h).2 ∧ h.next < (anonymizeVehicleAt i o h).2.next ∧
    MadeFrom h (anonymizeVehicleAt i o h).2 o (anonymizeVehicleAt i o h).1 ∧
    (anonymizeVehicleAt i o h).2.vehicleAt (anonymizeVehicleAt i o h).1 = anonymizeCardVehicleRecord (h.vehicleAt o) i := by
  obtain ⟨u, n, ⟨m1, m2, m3⟩, v⟩ := draft_made i o h
  rw [draft_at, draft_value, v]
  revert u n m1 m2 m3 v
  generalize vehicleDraft i o h = d
  intro u n v m1 m2 m3
  cases appendCardVehicleRecord [] (recordDraft (h.vehicleAt o) i) with
  | err m => exact ⟨u, n, ⟨m1, m2, m3⟩, v⟩
  | panic => exact ⟨u, n, ⟨m1, m2, m3⟩, v⟩
  | ok b =>
    refine ⟨?_, n, ⟨m1, ?_, ?_⟩, ?_⟩
    · intro a ha
      obtain ⟨b1, b2, b3, b4, b5⟩ := u a ha
      refine ⟨b1, b2, b3, b4, ?_⟩
      show (if a = d.1 then _ else d.2.vehicle a) = _
      rw [if_neg (by omega)]
      exact b5
    · intro x hx
      refine m2 x ?_
      cases hx with
      | record => exact .record
      | first e => exact .first (by simpa [VehicleObjects.setVehicle] using e)
      | last e => exact .last (by simpa [VehicleObjects.setVehicle] using e)
      | reg e => exact .reg (by simpa [VehicleObjects.setVehicle] using e)
      | number e e' => exact .number (by simpa [VehicleObjects.setVehicle] using e) e'
      | counter e => exact .counter (by simpa [VehicleObjects.setVehicle] using e)
    · simpa [VehicleObjects.setVehicle] using m3
    · rw [← v]
      simp [VehicleObjects.vehicleAt, VehicleObjects.setVehicle]
      rfl

/-- What is reached from a record is the same if none of its objects is written to. -/
theorem reaches_back {h h' : VehicleObjects} (e : VehiclesUntouched h h') {a : Nat} (ha : VehiclePresent h a) {x : Nat}
    (hx : VehicleReaches h' a x) : VehicleReaches h a x := by
  have hv := (e a (ha a .record)).2.2.2.2
  cases hx with
  | record => exact .record
  | first f => exact .first (hv ▸ f)
  | last f => exact .last (hv ▸ f)
  | reg f => exact .reg (hv ▸ f)
  | number f g =>
    have f' : (h.vehicle a).reg = some _ := hv ▸ f
    exact .number f' ((e _ (ha _ (.reg f'))).2.2.1 ▸ g)
  | counter f => exact .counter (hv ▸ f)

theorem present_later {h h' : VehicleObjects} (e : VehiclesUntouched h h') (hn : h.next ≤ h'.next) {a : Nat} (ha : VehiclePresent h a) :
    VehiclePresent h' a := fun x hx => Nat.lt_of_lt_of_le (ha x (reaches_back e ha hx)) hn

/-- The facts about the loop over the records. -/
structure ListMade (i : Nat) (as : List Nat) (h : VehicleObjects) (r : List Nat × VehicleObjects) : Prop where
  untouched : VehiclesUntouched h r.2
  le : h.next ≤ r.2.next
  length : r.1.length = as.length
  each : ∀ (k o a : Nat), as[k]? = some o → r.1[k]? = some a → MadeFrom h r.2 o a
  shown : r.1.map r.2.vehicleAt = anonymizeVehicleRecords i (as.map h.vehicleAt)
  apart : ∀ (j k a b x : Nat), r.1[j]? = some a → r.1[k]? = some b → h.next ≤ x → VehicleReaches r.2 a x → VehicleReaches r.2 b x → j = k

theorem list_made (as : List Nat) : ∀ (i : Nat) (h : VehicleObjects), (∀ a ∈ as, VehiclePresent h a) →
    ListMade i as h (anonymizeVehicleList i as h) := by
  induction as with
  | nil =>
    intro i h _
    exact ⟨fun _ _ => ⟨rfl, rfl, rfl, rfl, rfl⟩, Nat.le_refl _, rfl, fun k o a hk => by simp at hk, rfl, fun j k a b x hj => by
      simp [anonymizeVehicleList] at hj⟩
  | cons o as ih =>
    intro i h hp
    have ho : VehiclePresent h o := hp o (List.mem_cons_self ..)
    obtain ⟨u, n, m, v⟩ := vehicle_made i o h
    show ListMade i (o :: as) h
      ((anonymizeVehicleAt i o h).1 :: (anonymizeVehicleList (i + 1) as (anonymizeVehicleAt i o h).2).1,
        (anonymizeVehicleList (i + 1) as (anonymizeVehicleAt i o h).2).2)
    revert u n m v
    generalize anonymizeVehicleAt i o h = x
    intro u n m v
    have hx : VehiclePresent x.2 x.1 := by
      intro y hy
      rcases m.only y hy with hy | hy
      · exact hy.2
      · exact Nat.lt_trans (ho y (.counter hy)) n
    have hp' : ∀ a ∈ as, VehiclePresent x.2 a := fun a ha => present_later u (Nat.le_of_lt n) (hp a (List.mem_cons_of_mem _ ha))
    obtain ⟨ru, rn, rl, re, rs, ra⟩ := ih (i + 1) x.2 hp'
    revert ru rn rl re rs ra
    generalize anonymizeVehicleList (i + 1) as x.2 = r
    intro ru rn rl re rs ra
    have hmap : as.map x.2.vehicleAt = as.map h.vehicleAt :=
      List.map_congr_left fun a ha => vehicles_untouched_shows u (hp a (List.mem_cons_of_mem _ ha))
    have hhead : ∀ y, VehicleReaches r.2 x.1 y → (h.next ≤ y ∧ y < x.2.next) ∨ (h.vehicle o).counter = some y :=
      fun y hy => m.only y (reaches_back ru hx hy)
    have htail : ∀ (k a y : Nat), r.1[k]? = some a → VehicleReaches r.2 a y → (x.2.next ≤ y ∧ y < r.2.next) ∨ y < h.next := by
      intro k a y hk hy
      have hlt : k < as.length := rl ▸ (List.getElem?_eq_some_iff.mp hk).1
      have ha : as[k] ∈ as := List.getElem_mem hlt
      rcases (re k as[k] a (List.getElem?_eq_getElem hlt) hk).only y hy with hh | hh
      · exact .inl hh
      · right
        rw [(u _ (hp _ (List.mem_cons_of_mem _ ha) _ .record)).2.2.2.2] at hh
        exact hp _ (List.mem_cons_of_mem _ ha) y (.counter hh)
    refine ⟨VehiclesUntouched.trans u (Nat.le_of_lt n) ru, by show h.next ≤ r.2.next; omega, by simp [rl], ?_, ?_, ?_⟩
    · intro k o' a hk hk'
      cases k with
      | zero =>
        simp only [List.getElem?_cons_zero, Option.some.injEq] at hk hk'
        subst hk hk'
        refine ⟨⟨m.new.1, by have := m.new.2; show x.1 < r.2.next; omega⟩, fun y hy => ?_, ?_⟩
        · rcases hhead y hy with hh | hh
          · left; show h.next ≤ y ∧ y < r.2.next; omega
          · exact .inr hh
        · show (r.2.vehicle x.1).counter = _
          rw [(ru _ m.new.2).2.2.2.2]
          exact m.counter
      | succ k =>
        simp only [List.getElem?_cons_succ] at hk hk'
        have ho' : o' ∈ as := List.mem_of_getElem? hk
        have hv := (u o' (hp o' (List.mem_cons_of_mem _ ho') _ .record)).2.2.2.2
        obtain ⟨w1, w2, w3⟩ := re k o' a hk hk'
        rw [hv] at w2 w3
        refine ⟨⟨by omega, w1.2⟩, fun y hy => ?_, w3⟩
        rcases w2 y hy with hh | hh
        · left; show h.next ≤ y ∧ y < r.2.next; omega
        · exact .inr hh
    · show r.2.vehicleAt x.1 :: r.1.map r.2.vehicleAt =
        anonymizeCardVehicleRecord (h.vehicleAt o) i :: anonymizeVehicleRecords (i + 1) (as.map h.vehicleAt)
      rw [rs, hmap, vehicles_untouched_shows ru hx, v]
    · intro j k a b y hj hk hy hya hyb
      have hc : ∀ z, VehicleReaches r.2 x.1 z → h.next ≤ z → z < x.2.next := by
        intro z hz hle
        rcases hhead z hz with hh | hh
        · exact hh.2
        · have := ho z (.counter hh); omega
      cases j with
      | zero =>
        simp only [List.getElem?_cons_zero, Option.some.injEq] at hj
        subst hj
        cases k with
        | zero => rfl
        | succ k =>
          simp only [List.getElem?_cons_succ] at hk
          have h1 := hc y hya hy
          rcases htail k b y hk hyb with hh | hh <;> omega
      | succ j =>
        simp only [List.getElem?_cons_succ] at hj
        cases k with
        | zero =>
          simp only [List.getElem?_cons_zero, Option.some.injEq] at hk
          subst hk
          have h1 := hc y hyb hy
          rcases htail j a y hj hya with hh | hh <;> omega
        | succ k =>
          simp only [List.getElem?_cons_succ] at hk
          have hy' : x.2.next ≤ y := by rcases htail j a y hj hya with hh | hh <;> omega
          rw [ra j k a b y hj hk hy' hya hyb]

theorem vehiclesAt_eq (v : RecordFile Nat) (h : VehicleObjects) :
    (anonymizeVehiclesUsedAt v h).1.records = (anonymizeVehicleList 0 v.records h).1 ∧
    (anonymizeVehiclesUsedAt v h).2 = (anonymizeVehicleList 0 v.records h).2 := by
  unfold anonymizeVehiclesUsedAt
  dsimp only
  split <;> exact ⟨rfl, rfl⟩

/-! ## The theorems -/

/-- Anonymising the vehicles used writes to no object of the original; there is a new record for every entry, and no new object
belongs to two of them. What a new record has in common with the original is the counter of its entry and nothing else. -/
theorem anonymize_vehicles_shares (v : RecordFile Nat) (h : VehicleObjects) (hp : ∀ a ∈ v.records, VehiclePresent h a) :
    VehiclesUntouched h (anonymizeVehiclesUsedAt v h).2 ∧
    (anonymizeVehiclesUsedAt v h).1.records.length = v.records.length ∧
    (∀ (k o a x : Nat), v.records[k]? = some o → (anonymizeVehiclesUsedAt v h).1.records[k]? = some a → x < h.next →
      (VehicleReaches (anonymizeVehiclesUsedAt v h).2 a x ↔ (h.vehicle o).counter = some x)) ∧
    (∀ (j k a b x : Nat), (anonymizeVehiclesUsedAt v h).1.records[j]? = some a → (anonymizeVehiclesUsedAt v h).1.records[k]? = some b →
      h.next ≤ x → VehicleReaches (anonymizeVehiclesUsedAt v h).2 a x → VehicleReaches (anonymizeVehiclesUsedAt v h).2 b x → j = k) := by
  obtain ⟨e1, e2⟩ := vehiclesAt_eq v h
  rw [e1, e2]
  obtain ⟨u, n, l, e, s, a⟩ := list_made v.records 0 h hp
  refine ⟨u, l, fun k o a' x ho ha hx => ⟨fun hr => ?_, fun hc => ?_⟩, a⟩
  · rcases (e k o a' ho ha).only x hr with hh | hh
    · omega
    · exact hh
  · exact .counter ((e k o a' ho ha).counter.trans hc)

/-- What the anonymised message shows is what anonymising separate copies gives. -/
theorem anonymize_vehicles_shown (v : RecordFile Nat) (h : VehicleObjects) (hp : ∀ a ∈ v.records, VehiclePresent h a) :
    let r := anonymizeVehiclesUsedAt v h
    ({ rawData := r.1.rawData, newest := r.1.newest, records := r.1.records.map r.2.vehicleAt } : RecordFile CardVehicleRecord) =
      anonymizeVehiclesUsed { rawData := v.rawData, newest := v.newest, records := v.records.map h.vehicleAt } := by
  have hs := (list_made v.records 0 h hp).shown
  dsimp only
  unfold anonymizeVehiclesUsedAt anonymizeVehiclesUsed
  dsimp only
  rw [hs]
  generalize appendVehiclesUsed [] _ = y
  cases y <;> simp [hs]

/-- Writing to the counter of an anonymised record changes the original. -/
theorem shared_counter_changes_both (v : RecordFile Nat) (h : VehicleObjects) (hp : ∀ a ∈ v.records, VehiclePresent h a)
    (k o a c : Nat) (ho : v.records[k]? = some o) (ha : (anonymizeVehiclesUsedAt v h).1.records[k]? = some a)
    (hc : (h.vehicle o).counter = some c) (b : BcdString) :
    let h' := (anonymizeVehiclesUsedAt v h).2
    let h'' : VehicleObjects := { h' with bcd := fun x => if x = c then b else h'.bcd x }
    (h''.vehicleAt a).counter = some b ∧ (h''.vehicleAt o).counter = some b := by
  obtain ⟨e1, e2⟩ := vehiclesAt_eq v h
  rw [e1] at ha
  have hm := list_made v.records 0 h hp
  have h1 := (hm.each k o a ho ha).counter.trans hc
  have h2 := (hm.untouched o (hp o (List.mem_of_getElem? ho) o .record)).2.2.2.2
  dsimp only [VehicleObjects.vehicleAt]
  rw [e2, h1, h2, hc]
  simp

/-! ## The hypotheses are met -/

/-- Two entries that are one record, which has a counter, and one time for its first and last use. -/
example (t : Timestamp) (s : StringValue) (b : BcdString) : ∃ (h : VehicleObjects) (v : RecordFile Nat), (∀ a ∈ v.records, VehiclePresent h a) ∧
    v.records = [4, 4] ∧ (h.vehicle 4).counter = some 3 ∧ (h.vehicleAt 4).counter = some b ∧ (h.vehicleAt 4).firstUse = (h.vehicleAt 4).lastUse ∧
    (h.vehicleAt 4).registration = some ⟨12, some s⟩ := by
  refine ⟨⟨5, fun _ => t, fun _ => s, fun _ => ⟨12, some 1⟩, fun _ => b, fun _ => ⟨none, 0, 0, some 0, some 0, some 2, some 3⟩⟩, ⟨none, 0, [4, 4]⟩,
    ?_, rfl, rfl, rfl, rfl, rfl⟩
  intro a ha x hx
  have hx' : x = a ∨ x = 0 ∨ x = 1 ∨ x = 2 ∨ x = 3 := by
    cases hx with
    | record => simp
    | first h => cases h; simp
    | last h => cases h; simp
    | reg h => cases h; simp
    | number h1 h2 => cases h1; cases h2; simp
    | counter h => cases h; simp
  simp only [List.mem_cons, List.not_mem_nil, or_false, or_self] at ha
  show x < 5
  omega

end Tacho
