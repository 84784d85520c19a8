import Verif.Props.Anonymize
import Verif.Props.WriteLists
import Verif.Props.RecordFields
/-!
# The anonymised file of vehicles used is written and read back
-/

namespace Tacho
open Spec

theorem paintVehicle_canvas {r : CardVehicleRecord} {k b : Bytes} (hc : ∃ x, r.counter = some x ∧ x.length = 2)
    (hr : ∃ v, r.registration = some v ∧ v.number = some testPlate)
    (h : paintCardVehicle (zeros 31) r = .ok b) (hk : k.length = 31) : paintCardVehicle k r = .ok b := by
  obtain ⟨x, hx, hxl⟩ := hc
  obtain ⟨g, hg, hgn⟩ := hr
  simp only [paintCardVehicle, bind_eq_ok, Res.pure_eq, Res.ok.injEq] at h
  obtain ⟨t, ht, u, hu, v, hv, c, hc, rfl⟩ := h
  have t1 := timeReal_size ht
  have u1 := timeReal_size hu
  have v1 : v.length = 15 := by
    have hp : testPlate = { encoding := encoding_iso88591, rawData := none, length := some 13
                            value := [0x54, 0x45, 0x53, 0x54, 0x2D, 0x56, 0x52, 0x4E] } := by decide +kernel
    have hplate : ∀ dst, appendStringValue dst (some testPlate) =
        .ok (dst ++ [1, 0x54, 0x45, 0x53, 0x54, 0x2D, 0x56, 0x52, 0x4E, 0x20, 0x20, 0x20, 0x20, 0x20]) := by
      intro dst; rw [hp]; rfl
    simp only [hg, appendVehicleRegistration, guard_eq_ok, bind_eq_ok, hgn, Option.getD_some, hplate, Res.ok.injEq] at hv
    obtain ⟨_, n, _, rfl⟩ := hv
    rfl
  have c1 : c.length = 2 := by
    rcases appendBcdString_size r.counter with ⟨e, he, h'⟩ | ⟨m, h'⟩
    · dsimp only at h'
      rw [h', Res.ok.injEq, List.nil_append] at hc
      subst hc
      have := he x hx
      omega
    · dsimp only at h'
      rw [h'] at hc; cases hc
  have l1 : (beBytes 3 (low 32 r.odometerBegin)).length = 3 := by simp
  have l2 : (beBytes 3 (low 32 r.odometerEnd)).length = 3 := by simp
  have key : ∀ k : Bytes, k.length = 31 → paint (paint (paint (paint (paint (paint k 0 3 (beBytes 3 (low 32 r.odometerBegin))) 3 3
      (beBytes 3 (low 32 r.odometerEnd))) 6 4 t) 10 4 u) 14 15 v) 29 2 c =
      beBytes 3 (low 32 r.odometerBegin) ++ (beBytes 3 (low 32 r.odometerEnd) ++ (t ++ (u ++ (v ++ c)))) := by
    intro k hk
    rw [paint_start l1, paint_step l1 l2 (by rfl), paint_step (by simp [l1, l2]) t1 (by rfl), paint_step (by simp [l1, l2, t1]) u1 (by rfl),
      paint_step (by simp [l1, l2, t1, u1]) v1 (by rfl), paint_step (by simp [l1, l2, t1, u1, v1]) c1 (by rfl),
      List.drop_eq_nil_of_le (by omega)]
    simp
  simp only [paintCardVehicle, ht, hu, hv, hc, Res.bind_ok, Res.pure_eq]
  rw [key k hk, key (zeros 31) (by simp)]

section
variable [Charmap]

/-- C40: an anonymised vehicle record of a known nation is written as its raw data and reads back with the same values. -/
theorem anonymize_vehicle_written (d : Bytes) (r : CardVehicleRecord) (h : unmarshalCardVehicleRecord d = .ok r) (i : Nat)
    (hi : i ≤ 31446) (hk : ByteAt d 14 (Known nationNumericTable)) :
    ∃ (b : Bytes) (r' : CardVehicleRecord), b.length = 31 ∧ (anonymizeCardVehicleRecord r i).rawData = some b ∧
      appendCardVehicleRecord [] (anonymizeCardVehicleRecord r i) = .ok b ∧ unmarshalCardVehicleRecord b = .ok r' ∧
      anonymizeCardVehicleRecord r' i = anonymizeCardVehicleRecord r i ∧
      ((∀ x, Ascii x → Charmap.decode (charmapOf 1) x = x) → SameCardVehicle (anonymizeCardVehicleRecord r i) r') := by
  obtain ⟨b, r', b1, b2, b3, _, _, b6⟩ := (anonymize_vehicle_reparses d r h i hi).1 hk
  have hraw := anonymize_vehicle_raw r i
  obtain ⟨a1, a2, a3, a4, a5, a6⟩ := anonymize_vehicle_values r i
  obtain ⟨_, f2, f3, f4, f5, ⟨g, f6, f6'⟩, f7⟩ := cardVehicle_fields d r h
  generalize hA : anonymizeCardVehicleRecord r i = a at *
  rw [b2] at hraw
  have hnone : appendCardVehicleRecord [] { a with rawData := none } = .ok b := by
    split at hraw
    · rename_i x hx
      rw [hx, Option.some.inj hraw]
    · cases hraw
  have hpz : paintCardVehicle (zeros 31) a = .ok b := by
    simp only [appendCardVehicleRecord, canvasNonEmpty, Option.getD_none, List.length_nil, Nat.lt_irrefl, if_false, Res.bind_ok,
      bind_eq_ok, Res.pure_eq, List.nil_append, gt_iff_lt, Res.ok.injEq] at hnone
    obtain ⟨x, hx, rfl⟩ := hnone
    exact hx
  have happ : appendCardVehicleRecord [] a = .ok b := by
    rw [appendCardVehicleRecord, b2, canvasNonEmpty_raw b1 (by decide), Res.bind_ok,
      paintVehicle_canvas ⟨_, by rw [a6, f7], rfl⟩ ⟨⟨g.nation, some testPlate⟩, by rw [a3, f6]; rfl, rfl⟩ hpz b1]
    rfl
  refine ⟨b, r', b1, b2, happ, b3, b6, fun hmap => ?_⟩
  have hok : CardVehicleOk a := by
    have hround : ∀ n : Bytes, n.length = 3 → Fits 24 ((beNat n : Int) - (beNat n : Int).tmod 1000) := by
      intro n hn
      have q0 := beNat_lt n
      rw [hn] at q0
      have q1 := Int.tmod_nonneg 1000 (a := (beNat n : Int)) (by omega)
      have q2 := Int.mul_tdiv_add_tmod (beNat n : Int) 1000
      have q3 : 0 ≤ (beNat n : Int).tdiv 1000 := Int.tdiv_nonneg (by omega) (by decide)
      exact ⟨by omega, by omega⟩
    have hl : d.length = 31 := by
      by_contra hl
      simp [unmarshalCardVehicleRecord, hl] at h
    refine ⟨?_, ?_, ?_, ?_, ⟨_, by rw [a3, f6]; rfl, ?_, .inr ⟨_, rfl, ?_⟩⟩, ⟨_, by rw [a6, f7], rfl, ?_, ?_⟩⟩
    · rw [a4, f2]; exact hround _ (by simp; omega)
    · rw [a5, f3]; exact hround _ (by simp; omega)
    · rw [a1]; intro x hx; cases hx; exact ⟨by dsimp only; omega, by dsimp only; omega, rfl⟩
    · rw [a2]; intro x hx; cases hx; exact ⟨by dsimp only; omega, by dsimp only; omega, rfl⟩
    · obtain ⟨hcode, _⟩ := registration_fields _ _ f6'
      rw [byteAt_sl (by omega)] at hcode
      obtain ⟨n, hn, hn'⟩ := hcode
      obtain ⟨n', hm, hm'⟩ := hk
      rw [Nat.add_zero, hm] at hn
      cases hn
      rcases hn' with hn' | hn'
      · exact ⟨n, hn'⟩
      · exact (hm'.elim fun v hv => hn'.1 v hv).elim
    · refine ⟨rfl, ⟨(1, encoding_iso88591), by decide, rfl⟩, .inr ⟨rfl, by decide +kernel, ?_, fun p hp he => ?_⟩⟩
      · have hv : testPlate.value = [0x54, 0x45, 0x53, 0x54, 0x2D, 0x56, 0x52, 0x4E] := by decide +kernel
        rw [hv]
        refine ⟨by unfold Ascii; decide, ?_, ?_⟩
        · intro b t ht; cases ht; decide
        · intro b t ht
          have := congrArg List.getLast? ht
          rw [List.getLast?_append] at this
          cases this
          decide
      · have : ∀ p ∈ Spec.codePages, p.2 = encoding_iso88591 → p.1 = 1 := by decide
        rw [this p hp he]
        exact hmap
    · exact Int.natCast_nonneg _
    · obtain ⟨_, ⟨x, hx, hx'⟩, y, hy, hy'⟩ := (cardVehicle_accepts_iff d).mp ⟨r, h⟩
      have : sl d 29 31 = [x, y] := by
        rw [List.getElem?_eq_some_iff] at hx hy
        obtain ⟨_, hx⟩ := hx
        obtain ⟨_, hy⟩ := hy
        apply List.ext_getElem
        · simp; omega
        · intro i h1 h2
          have : i = 0 ∨ i = 1 := by simp at h2; omega
          rcases this with rfl | rfl <;> simp [sl, hx, hy]
      rw [this]
      unfold IsBcd at hx' hy'
      simp only [bcdPair, List.foldl_cons, List.foldl_nil]
      omega
  obtain ⟨e, m', e1, e2, e3, e4, _⟩ := cardVehicle_write_read a (fun x hx => by rw [b2] at hx; cases hx; exact .inr b1) hok
  have : appendCardVehicleRecord [] a = .ok e := by simpa using e2 []
  rw [happ] at this
  cases this
  rw [b3] at e3
  cases e3
  exact e4

/-- C40: an anonymised vehicle record of a nation without a name cannot be written. -/
theorem anonymize_vehicle_not_written (d : Bytes) (r : CardVehicleRecord) (h : unmarshalCardVehicleRecord d = .ok r) (i : Nat)
    (hi : i ≤ 31446) (hk : ¬ ByteAt d 14 (Known nationNumericTable)) :
    ∃ m, appendCardVehicleRecord [] (anonymizeCardVehicleRecord r i) = .err m := by
  have hr := (anonymize_vehicle_reparses d r h i hi).2 hk
  have hraw := anonymize_vehicle_raw r i
  rw [show ({ anonymizeCardVehicleRecord r i with rawData := none } : CardVehicleRecord) = anonymizeCardVehicleRecord r i by rw [← hr]] at hraw
  rw [hr] at hraw
  rcases appendCardVehicleRecord_exact (anonymizeCardVehicleRecord r i) with ⟨e, _, h'⟩ | ⟨m, h'⟩
  · rw [show appendCardVehicleRecord [] (anonymizeCardVehicleRecord r i) = _ from h' []] at hraw; cases hraw
  · exact ⟨m, h' []⟩

/-- C40: the anonymised copy of a file of vehicles used, all of known nations, is written in full and read back: as many records, with
the same values, and anonymised alike. If one nation is not known, it cannot be written and has no raw data. -/
theorem anonymize_vehiclesUsed_reparses (d : Bytes) (p : RecordFile CardVehicleRecord) (h : unmarshalVehiclesUsed d = .ok p)
    (hn : p.records.length ≤ 31447) :
    (AllRecords 2 31 d (ByteAt · 14 (Known nationNumericTable)) → ∃ (b : Bytes) (p' : RecordFile CardVehicleRecord),
      b.length = 2 + 31 * p.records.length ∧ (anonymizeVehiclesUsed p).rawData = some b ∧
      appendVehiclesUsed [] (some (anonymizeVehiclesUsed p)) = .ok b ∧ unmarshalVehiclesUsed b = .ok p' ∧
      anonymizeVehiclesUsed p' = anonymizeVehiclesUsed p ∧
      ((∀ x, Ascii x → Charmap.decode (charmapOf 1) x = x) →
        List.Forall₂ SameCardVehicle (anonymizeVehiclesUsed p).records p'.records)) ∧
    (¬ AllRecords 2 31 d (ByteAt · 14 (Known nationNumericTable)) →
      (anonymizeVehiclesUsed p).rawData = none ∧ ∃ m, appendVehiclesUsed [] (some (anonymizeVehiclesUsed p)) = .err m) := by
  obtain ⟨hl, _, hnew, hlen, hrs⟩ := (vehiclesUsed_ok_iff d p).mp h
  obtain ⟨a1, a2, a3⟩ := anonymizeVehiclesUsed_records p
  have hb := beNat_lt (sl d 0 2)
  rw [show (sl d 0 2).length = 2 by simp; omega] at hb
  have hexact : ∀ x : CardVehicleRecord, AppendsExactly 31 (appendCardVehicleRecord · x) := appendCardVehicleRecord_exact
  constructor
  · intro hk
    have key : ∀ raw, ∃ e xs', WritesBytes (appendVehiclesUsed · (some ⟨raw, p.newest, p.records.mapIdx (fun i r => anonymizeCardVehicleRecord r i)⟩)) e ∧
        e.length = 2 + 31 * (p.records.mapIdx (fun i r => anonymizeCardVehicleRecord r i)).length ∧ (beNat (sl e 0 2) : Int) = p.newest ∧ RecordsAre unmarshalCardVehicleRecord 2 31 e xs' ∧
        List.Forall₂ (fun x x' => vehicleKept x' = vehicleKept x ∧ ((∀ x, Ascii x → Charmap.decode (charmapOf 1) x = x) → SameCardVehicle x x'))
          (p.records.mapIdx (fun i r => anonymizeCardVehicleRecord r i)) xs' := by
      intro raw
      refine file2_write (m := ⟨raw, p.newest, p.records.mapIdx (fun i r => anonymizeCardVehicleRecord r i)⟩) (by omega) ⟨by dsimp only; omega, by dsimp only; omega⟩ fun x hx => ?_
      rw [List.mem_mapIdx] at hx
      obtain ⟨i, hi, rfl⟩ := hx
      obtain ⟨b, r', b1, _, b3, b4, b5, b6⟩ := anonymize_vehicle_written _ _ (hrs i hi) i (by omega) (hk i (by omega))
      refine ⟨b, r', b1, fun dst => ?_, b4, ?_, b6⟩
      · simpa using AppendsWith.of_nil (hexact _) b3 dst
      · rw [vehicleKept_anonymize]; exact (anonymize_vehicle_iff _ _ i).mp b5
    obtain ⟨e, xs', e1, e2, e3, e4, e5⟩ := key none
    have e1' : appendVehiclesUsed [] (some ⟨none, p.newest, p.records.mapIdx (fun i r => anonymizeCardVehicleRecord r i)⟩) = .ok e := by
      simpa using e1 []
    rw [e1'] at a3
    have hsame : appendVehiclesUsed [] (some (anonymizeVehiclesUsed p)) = .ok e := by
      have hp : anonymizeVehiclesUsed p = ⟨some e, p.newest, p.records.mapIdx (fun i r => anonymizeCardVehicleRecord r i)⟩ := by
        generalize anonymizeVehiclesUsed p = a at *
        obtain ⟨⟩ := a
        dsimp only at *
        subst a1 a2 a3
        rfl
      rw [hp]
      rw [appendVehiclesUsed, appendRecordFile2_eq _ (fun x _ => hexact x)] at e1' ⊢
      exact e1'
    refine ⟨e, ⟨some e, p.newest, xs'⟩, by simpa using e2, a3, hsame, (vehiclesUsed_ok_iff e _).2 ⟨by omega, rfl, e3.symm, e4⟩, ?_, fun hmap => ?_⟩
    · rw [anonymize_vehiclesUsed_iff]
      refine ⟨rfl, by simpa using e5.length_eq.symm, fun i h1 h2 => ?_⟩
      have := (List.forall₂_iff_get.mp e5).2 i (by simpa using h2) h1
      simp only [List.get_eq_getElem, List.getElem_mapIdx, vehicleKept_anonymize] at this
      exact this.1
    · rw [a1]
      exact e5.imp fun _ _ h => h.2 hmap
  · intro hk
    have hfail : ∀ raw, ∃ m, appendVehiclesUsed [] (some ⟨raw, p.newest, p.records.mapIdx (fun i r => anonymizeCardVehicleRecord r i)⟩) = .err m := by
      intro raw
      unfold appendVehiclesUsed
      rw [appendRecordFile2_eq _ (fun x _ => hexact x)]
      unfold AllRecords at hk
      push Not at hk
      obtain ⟨i, hi, hbad⟩ := hk
      have hi' : i < p.records.length := by omega
      obtain ⟨m, hm⟩ := anonymize_vehicle_not_written _ _ (hrs i hi') i (by omega) hbad
      cases hmap : mapRes (appendCardVehicleRecord []) (p.records.mapIdx (fun i r => anonymizeCardVehicleRecord r i)) with
      | err m => exact ⟨m, rfl⟩
      | panic => exact absurd hmap (mapRes_ne_panic fun x _ => AppendsWith.ne_panic (hexact x) [])
      | ok outs =>
        have h2 := mapRes_ok_iff.mp hmap
        have := (List.forall₂_iff_get.mp h2).2 i (by simpa using hi') (by rw [← h2.length_eq]; simpa using hi')
        simp only [List.get_eq_getElem, List.getElem_mapIdx] at this
        rw [hm] at this
        cases this
    obtain ⟨m, hm⟩ := hfail none
    rw [hm] at a3
    refine ⟨a3, ?_⟩
    obtain ⟨m', hm'⟩ := hfail none
    generalize anonymizeVehiclesUsed p = a at *
    obtain ⟨⟩ := a
    dsimp only at *
    subst a1 a2 a3
    exact ⟨m', hm'⟩

/-- Two records of vehicles, the second one of a nation without a name. -/
def twoVehicles : Bytes :=
  [0, 1, 0, 0x30, 0x39, 0, 0x31, 0, 0x5E, 0x0B, 0xE1, 0, 0x5E, 0x0B, 0xF0, 0, 13, 1, 0x41, 0x42, 0x20, 0x20, 0x20, 0x20, 0x20, 0x20, 0x20,
   0x20, 0x20, 0x20, 0x20, 0x12, 0x34,
   0, 0x30, 0x39, 0, 0x31, 0, 0x5E, 0x0B, 0xE1, 0, 0x5E, 0x0B, 0xF0, 0, 0x80, 1, 0x41, 0x42, 0x20, 0x20, 0x20, 0x20, 0x20, 0x20, 0x20,
   0x20, 0x20, 0x20, 0x20, 0x12, 0x35]

theorem anonymized_vehicles_read {d : Bytes} {n : Nat} (h : 2 ≤ d.length) (hn : recordCount 2 31 d = n)
    (hr : AllRecords 2 31 d fun r => ByteAt r 29 IsBcd ∧ ByteAt r 30 IsBcd) :
    ∃ p, unmarshalVehiclesUsed d = .ok p ∧ p.records.length = n := by
  obtain ⟨p, hp⟩ := (vehiclesUsed_accepts_iff d).mpr ⟨h, hr⟩
  exact ⟨p, hp, ((vehiclesUsed_ok_iff d p).mp hp).2.2.2.1.trans hn⟩

example : ∃ p, unmarshalVehiclesUsed (twoVehicles.take 33) = .ok p ∧ p.records.length = 1 ∧
    AllRecords 2 31 (twoVehicles.take 33) (ByteAt · 14 (Known nationNumericTable)) := by
  have key : ∀ {P : Bytes → Prop}, P (record 2 31 0 twoVehicles) → AllRecords 2 31 (twoVehicles.take 33) P := fun h i hi => by
    have : i = 0 := by
      have : recordCount 2 31 (twoVehicles.take 33) = 1 := rfl
      omega
    subst this
    exact h
  obtain ⟨p, hp, hn⟩ := anonymized_vehicles_read (d := twoVehicles.take 33) (by decide) rfl (key ⟨⟨0x12, rfl, by decide⟩, ⟨0x34, rfl, by decide⟩⟩)
  exact ⟨p, hp, hn, key ⟨13, rfl, 16, by decide⟩⟩

example : ∃ p, unmarshalVehiclesUsed twoVehicles = .ok p ∧ p.records.length = 2 ∧
    ¬ AllRecords 2 31 twoVehicles (ByteAt · 14 (Known nationNumericTable)) := by
  obtain ⟨p, hp, hn⟩ := anonymized_vehicles_read (d := twoVehicles) (by decide) rfl (fun i hi => by
    have hc : recordCount 2 31 twoVehicles = 2 := rfl
    have : i = 0 ∨ i = 1 := by omega
    rcases this with rfl | rfl
    · exact ⟨⟨0x12, rfl, by decide⟩, ⟨0x34, rfl, by decide⟩⟩
    · exact ⟨⟨0x12, rfl, by decide⟩, ⟨0x35, rfl, by decide⟩⟩)
  refine ⟨p, hp, hn, fun h => ?_⟩
  obtain ⟨b, hb, hk⟩ := h 1 (by decide)
  have : b = 0x80 := (Option.some.inj hb).symm
  subst this
  obtain ⟨v, hv⟩ := hk
  have : ∀ e ∈ nationNumericTable, e.2 ≠ some 128 := by decide
  exact this _ hv rfl

end
end Tacho
