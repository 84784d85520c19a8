import Verif.Props.ScannedFiles
/-!
# Registration numbers in large event files (C05, C28)
-/

namespace Tacho
open Spec

variable [Charmap]

/-- C05, C28, finding. A used event record keeps its registration number as a slice of the scanner's buffer, too. Above 4096
bytes (and for a partial record of at least 12 bytes behind more than half of that) the buffer is moved under it: a file is
accepted with a used record whose number is later written from other bytes of the file. -/
theorem event_number_overwritten (size : Nat) (hbad : ¬ NeverMoved 24 size) (hover : 11 < overrun 24 size) :
    ∃ d r rs, d.length = size ∧ unmarshalEventsData d = .ok (r :: rs) ∧ r.valid = true ∧
      (∃ v s, r.registration = some v ∧ v.number = some s ∧ s.rawData ≠ some (sl d 10 24)) ∧
      appendEventsData [] (r :: rs) ≠ .ok (wholeRecords 0 24 d) := by
  have hge : 24 ≤ size := by
    apply Nat.le_of_not_lt
    intro hc
    exact hbad ⟨by omega, Or.inr ⟨by omega, by omega⟩⟩
  generalize hd : zeros 4 ++ [1] ++ zeros 6 ++ [0x41] ++ zeros (size - 12) = d
  have hlen : d.length = size := by rw [← hd]; simp; omega
  have h11 : d[11]? = some 0x41 := by
    rw [← hd, List.getElem?_append_left (by simp), List.getElem?_append_right (by simp)]
    rfl
  have hafter : ∀ j, 11 < j → j < size → d[j]? = some 0 := by
    intro j h1 h2
    rw [← hd, List.getElem?_append_right (by simp; omega), zeros, List.getElem?_replicate, if_pos (by simp; omega)]
  have h0 : d[0]? = some 0 := by rw [← hd]; rfl
  have hacc : ∃ rs, unmarshalEventsData d = .ok rs := by
    rw [events_accepts_iff]
    intro i hi hz
    unfold recordCount at hi
    match i with
    | 0 =>
      refine ⟨0, ?_, known_iff.mpr ⟨_, rfl⟩⟩
      simp only [record, Nat.zero_mul, Nat.add_zero, List.drop_zero]
      rw [List.getElem?_take_of_lt (by omega)]
      exact h0
    | i + 1 =>
      exfalso
      apply hz
      have : sl (record 0 24 (i + 1) d) 1 5 = zeros 4 := by
        have h5 : sl (record 0 24 (i + 1) d) 1 5 = ((d.drop ((i + 1) * 24)).drop 1).take 4 := by
          unfold sl record
          rw [List.take_take, List.drop_take, Nat.zero_add]
          rfl
        rw [h5, List.drop_drop, ← hd, List.drop_append, List.drop_eq_nil_of_le (by simp; omega), List.nil_append]
        simp only [zeros, List.drop_replicate, List.take_replicate]
        congr 1
        simp
        omega
      rw [this]
      rfl
  obtain ⟨rs, hrs⟩ := hacc
  rw [← hlen] at hbad hover
  obtain ⟨t, ts, ht, hb, r, hr, hmoved⟩ := retained_moved_at (by omega : 0 < 24) (by omega) _ hbad
  obtain ⟨v, hv0, hv1, hv⟩ := hmoved 11 (by omega) hover
  rw [hafter _ (by omega) (by omega)] at hv
  have hl := tok_sizes (by omega : 0 < 24) (by omega) _ t (by rw [ht]; exact List.mem_cons_self)
  have heq := hrs
  rw [events_eq, ht] at hrs
  simp only [mapRes, bind_eq_ok, Res.pure_eq, Res.ok.injEq] at hrs
  obtain ⟨r1, hr1, rs', hrs', rfl⟩ := hrs
  have hz : sl t.bytes 1 5 = [0, 0, 0, 1] := by
    rw [hb, ← hd]
    simp only [sl, List.take_take]
    rfl
  unfold unmarshalEventToken at hr1
  rw [sl?_ok (by omega) (by omega), Res.bind_ok, hz, if_neg (by decide), bind_eq_ok] at hr1
  obtain ⟨m, hm, hr1⟩ := hr1
  rw [hr, Res.pure_eq, Res.ok.injEq] at hr1
  obtain ⟨_, b, ty, tb, te, reg, _, _, _, _, hreg, rfl⟩ := eventRecord_parse hm
  simp only [unmarshalVehicleRegistration, Res.pure_eq, guard_eq_ok, bind_eq_ok, Res.ok.injEq, at?_iff, sl?_iff] at hreg
  obtain ⟨_, b0, _, nd, ⟨_, _, rfl⟩, s, hs, rfl⟩ := hreg
  have hnum : (sl r 10 24)[1]? = some 0 := by
    unfold sl
    rw [List.getElem?_drop, List.getElem?_take_of_lt (by omega)]
    exact hv
  refine ⟨d, r1, rs', hlen, heq, by rw [← hr1]; rfl, ⟨_, _, by rw [← hr1]; rfl, rfl, ?_⟩, ?_⟩
  · intro hc
    have hc : sl r 10 24 = sl d 10 24 := by simpa using hc
    have : (sl d 10 24)[1]? = some 0x41 := by
      unfold sl
      rw [List.getElem?_drop, List.getElem?_take_of_lt (by omega)]
      exact h11
    rw [← hc, hnum] at this
    exact absurd this (by decide)
  · intro hc
    unfold appendEventsData at hc
    rw [appendEach_eq (fun r _ => appendEventRecord_appends r)] at hc
    simp only [mapRes, bind_eq_ok, Res.pure_eq, Res.ok.injEq] at hc
    obtain ⟨_, ⟨o1, ho1, outs, _, rfl⟩, hc⟩ := hc
    have h6 : (wholeRecords 0 24 d)[11]? = some 0x41 := by
      unfold wholeRecords recordCount
      rw [List.getElem?_take_of_lt (by rw [hlen]; omega)]
      exact h11
    have hwritten : ∀ (ts : Option Timestamp) (x y : Bytes), appendTimeReal x ts = .ok y → ∃ o, o.length = 4 ∧ y = x ++ o := by
      intro ts x y h
      rcases appendTimeReal_exact ts with ⟨o, ho, hf⟩ | hf
      · rw [show appendTimeReal x ts = _ from hf x, Res.ok.injEq] at h
        exact ⟨o, ho, h.symm⟩
      · obtain ⟨e, he⟩ := hf
        rw [show appendTimeReal x ts = _ from he x] at h
        cases h
    have ho : o1[11]? = some 0 := by
      rw [← hr1] at ho1
      simp only [appendEventRecord, EventRecord.withNumberRaw, appendVehicleRegistration, Option.map_some, Bool.true_eq_false, if_false,
        bind_eq_ok, guard_eq_ok, Option.getD_some, appendStringValue, List.nil_append] at ho1
      obtain ⟨x1, e1, x2, e2, _, nb, _, e3⟩ := ho1
      obtain ⟨o, l1, rfl⟩ := hwritten _ _ _ e1
      obtain ⟨o', l2, rfl⟩ := hwritten _ _ _ e2
      split at e3
      · cases e3
      split at e3
      · cases e3
      rw [Res.ok.injEq] at e3
      rw [← e3, List.getElem?_append_right (by simp; omega)]
      simp only [List.length_append, List.length_cons, List.length_nil, l1, l2]
      rw [List.getElem?_cons_succ, List.getElem?_drop]
      exact hnum
    rw [← hc, List.nil_append, List.flatten_cons, List.getElem?_append_left, ho] at h6
    · exact absurd h6 (by decide)
    · exact (List.getElem?_eq_some_iff.mp ho).1

/-- Sizes above 4096 meet the hypotheses; so does 86 records and the first 12 bytes of another. -/
example (size : Nat) (h : 4096 < size) : ¬ NeverMoved 24 size ∧ 11 < overrun 24 size := by
  unfold NeverMoved overrun
  omega
example : ¬ NeverMoved 24 2076 ∧ 11 < overrun 24 2076 := by unfold NeverMoved overrun; omega

end Tacho
