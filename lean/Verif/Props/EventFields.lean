import Verif.Props.RecordFields
import Verif.Props.ScannedFiles
/-!
# Where the fields of an event or fault record lie (C48)

`events_fields` says that every record is decoded from its own 24 bytes. Here each field of it is pinned to its
bytes, so that a reader and a writer that exchange two fields alike do not satisfy it.
-/

namespace Tacho
open Spec

section
variable [Charmap]

/-- C48: there is one record for every whole 24 bytes of an event or fault file. A record is unused exactly when bytes
1 to 4 are zero. In a used one, byte 0 is the kind, bytes 1 to 4 the begin, bytes 5 to 8 the end, byte 9 the nation
and bytes 10 to 23 the number of the vehicle. -/
theorem event_layout (d : Bytes) (rs : List EventRecord) (h : unmarshalEventsData d = .ok rs) :
    rs.length = d.length / 24 ∧ ∀ i (hi : i < rs.length),
      let x := sl d (24 * i) (24 * i + 24)
      (rs[i].valid = false ↔ beNat (sl x 1 5) = 0) ∧
      (beNat (sl x 1 5) ≠ 0 →
        ByteAt x 0 (fun b => (rs[i].type, some b.toNat) ∈ eventFaultTypeTable) ∧
        rs[i].beginTime = instant (sl x 1 5) ∧ rs[i].endTime = instant (sl x 5 9) ∧
        ∃ v, rs[i].registration = some v ∧ ByteAt x 9 (fun b => CodedLossy nationNumericTable b v.nation) ∧
          ∃ s n, unmarshalStringValue (sl x 10 24) = .ok s ∧ v.number = some n ∧
            n.encoding = s.encoding ∧ n.value = s.value) := by
  obtain ⟨hn, hr⟩ := events_fields d rs h
  rw [List.length_map] at hn
  refine ⟨by simpa [recordCount] using hn, fun i hi => ?_⟩
  have hi' := hr i (by simpa using hi)
  have hx : record 0 24 i d = sl d (24 * i) (24 * i + 24) := by
    simp only [record, Nat.zero_add, Nat.mul_comm, sl, List.drop_take, Nat.add_sub_cancel_left]
  rw [hx, List.getElem_map] at hi'
  intro x
  change (eventOf x >>= fun r => .ok (decodedFields r)) = _ at hi'
  simp only [bind_eq_ok, Res.ok.injEq] at hi'
  obtain ⟨r, he, hd⟩ := hi'
  generalize rs[i] = q at hd
  have e1 : r.valid = q.valid := by have := congrArg EventRecord.valid hd; exact this
  have e2 : r.type = q.type := by have := congrArg EventRecord.type hd; exact this
  have e3 : r.beginTime = q.beginTime := by have := congrArg EventRecord.beginTime hd; exact this
  have e4 : r.endTime = q.endTime := by have := congrArg EventRecord.endTime hd; exact this
  have e5 := congrArg EventRecord.registration hd
  simp only [decodedFields, EventRecord.withNumberRaw] at e5
  unfold eventOf at he
  split at he
  · rename_i hz
    rw [Res.ok.injEq] at he
    subst he
    exact ⟨by simp [← e1, hz], fun h => absurd hz h⟩
  · rename_i hz
    obtain ⟨hl, b, t, tb, te, reg, hb, ht, htb, hte, hreg, rfl⟩ := eventRecord_parse he
    refine ⟨by simp [← e1, hz], fun _ => ⟨(byteAt_of_sl hb).mpr (e2 ▸ unmarshalEnum_ok ht), e3 ▸ timeReal_instant htb,
      e4 ▸ timeReal_instant hte, ?_⟩⟩
    obtain ⟨h1, s, h2, h3⟩ := registration_fields _ _ hreg
    rw [byteAt_sl (by omega)] at h1
    rw [sl_sl (by omega)] at h3
    obtain ⟨_, _, _, _, _, qr⟩ := q
    cases qr with
    | none => simp at e5
    | some v =>
      obtain ⟨vn, vs⟩ := v
      simp only [Option.map_some, Option.some.injEq, VehicleRegistration.mk.injEq, h2] at e5
      obtain ⟨e5, e6⟩ := e5
      cases vs with
      | none => simp at e6
      | some n =>
        simp only [Option.map_some, Option.some.injEq, StringValue.mk.injEq] at e6
        exact ⟨_, rfl, e5 ▸ h1, s, n, h3, rfl, by simp_all, by simp_all⟩

omit [Charmap] in
/-- A fault of kind 0x30 from 2020-01-01 00:00:00 to one minute later, and an unused record behind it. -/
def exampleFaults : Bytes := [0x30, 0x5E, 0x0B, 0xE1, 0x00, 0x5E, 0x0B, 0xE1, 0x3C, 13, 1] ++ List.replicate 13 0x41 ++ zeros 24

example : ∃ rs, unmarshalEventsData exampleFaults = .ok rs ∧ ∃ q u, rs = [q, u] ∧ q.valid = true ∧
    q.beginTime = some ⟨1577836800, 0⟩ ∧ q.endTime = some ⟨1577836860, 0⟩ ∧ u.valid = false := by
  have hc : recordCount 0 24 exampleFaults = 2 := by decide +kernel
  have hk : Known eventFaultTypeTable 0x30 := by rw [known_iff]; exact ⟨_, rfl⟩
  have h0 : (record 0 24 0 exampleFaults)[0]? = some 0x30 := by decide +kernel
  have h1 : beNat (sl (record 0 24 1 exampleFaults) 1 5) = 0 := by decide +kernel
  obtain ⟨rs, h⟩ := (events_accepts_iff exampleFaults).mpr (by
    intro i hi
    rw [hc] at hi
    rcases (show i = 0 ∨ i = 1 by omega) with rfl | rfl
    · exact fun _ => ⟨0x30, h0, hk⟩
    · exact fun hz => absurd h1 hz)
  obtain ⟨hl, hr⟩ := event_layout _ _ h
  have hl2 : rs.length = 2 := hl.trans (by decide +kernel)
  refine ⟨rs, h, ?_⟩
  obtain ⟨q, u, rfl⟩ := List.length_eq_two.mp hl2
  have n0 : beNat (sl (sl exampleFaults (24 * 0) (24 * 0 + 24)) 1 5) ≠ 0 := by decide +kernel
  have n1 : beNat (sl (sl exampleFaults (24 * 1) (24 * 1 + 24)) 1 5) = 0 := by decide +kernel
  have t1 : instant (sl (sl exampleFaults (24 * 0) (24 * 0 + 24)) 1 5) = some ⟨1577836800, 0⟩ := by decide +kernel
  have t2 : instant (sl (sl exampleFaults (24 * 0) (24 * 0 + 24)) 5 9) = some ⟨1577836860, 0⟩ := by decide +kernel
  obtain ⟨a1, a2⟩ := hr 0 (by simp)
  obtain ⟨_, b1, b2, _⟩ := a2 n0
  obtain ⟨c1, _⟩ := hr 1 (by simp)
  refine ⟨q, u, rfl, ?_, b1.trans t1, b2.trans t2, c1.mpr n1⟩
  cases hq : q.valid with
  | true => rfl
  | false => exact absurd (a1.mp hq) n0

end

end Tacho
