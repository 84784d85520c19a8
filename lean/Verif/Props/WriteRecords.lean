import Verif.Props.WriteRead
/-!
# C61: records
-/

namespace Tacho
open Spec

/-! ## Reading a concatenation -/

theorem sl?_tail {a b : Bytes} {n lo hi : Nat} (h : a.length = n) (h1 : n ≤ lo) (h2 : lo ≤ hi) :
    sl? (a ++ b) lo hi = sl? b (lo - n) (hi - n) := by
  subst h
  unfold sl?
  by_cases hb : hi ≤ (a ++ b).length
  · rw [if_pos ⟨h2, hb⟩, if_pos ⟨by omega, by simp at hb; omega⟩]
    have := sl_append_right (a := a) (b := b) (lo := lo) (hi := hi) h1
    simpa [sl] using this
  · rw [if_neg (fun hh => hb hh.2), if_neg (fun hh => hb (by simp; omega))]

theorem sl?_head {a b : Bytes} {n : Nat} (h : a.length = n) : sl? (a ++ b) 0 n = .ok a := by
  subst h
  rw [sl?_ok (by omega) (by simp), sl_append_left (by omega), sl_full]

theorem sl?_all {a : Bytes} {n : Nat} (h : a.length = n) : sl? a 0 n = .ok a := by
  subst h
  rw [sl?_ok (by omega) (by simp), sl_full]

theorem at?_tail {a b : Bytes} {n i : Nat} (h : a.length = n) (h1 : n ≤ i) : at? (a ++ b) i = at? b (i - n) := by
  subst h
  unfold at?
  rw [List.getElem?_append_right h1]

theorem at?_head (x : UInt8) (b : Bytes) : at? ([x] ++ b) 0 = .ok x := rfl

theorem at?_next {x : UInt8} {b : Bytes} {i : Nat} (h : 1 ≤ i) : at? ([x] ++ b) i = at? b (i - 1) := at?_tail rfl h

theorem sl?_next {x : UInt8} {b : Bytes} {lo hi : Nat} (h1 : 1 ≤ lo) (h2 : lo ≤ hi) :
    sl? ([x] ++ b) lo hi = sl? b (lo - 1) (hi - 1) := sl?_tail rfl h1 h2

theorem at?_single (x : UInt8) : at? [x] 0 = .ok x := rfl

theorem paint_start {c b : Bytes} {n : Nat} (h : b.length = n) : paint c 0 n b = b ++ c.drop n := by
  have := paint_step (pre := []) (c := c) (b := b) (off := 0) (n := n) (off' := n) rfl h (by omega)
  simpa using this

theorem paint_end {pre c b : Bytes} {off n : Nat} (h1 : pre.length = off) (h2 : b.length = n) (h3 : c.length = off + n) :
    paint (pre ++ c.drop off) off n b = pre ++ b := by
  rw [paint_step h1 h2 rfl, List.drop_eq_nil_of_le (by omega), List.append_nil]

/-! ## Place records -/

theorem placeFields_write {m : PlaceRecord} (h : PlaceOk m) :
    ∃ (t o : Bytes) (e c r : UInt8), t.length = 4 ∧ o.length = 3 ∧ unmarshalTimeReal t = .ok m.entryTime ∧
      enumOrUnrecognized entryTypeDailyWorkPeriodTable e = (m.entryType, m.unrecognizedEntryType) ∧
      enumOrUnrecognized nationNumericTable c = (m.country, m.unrecognizedCountry) ∧ m.region = [r] ∧ (beNat o : Int) = m.odometerKm ∧
      ∀ k : Bytes, 10 ≤ k.length → paintPlace k m = .ok ((t ++ ([e] ++ ([c] ++ ([r] ++ o)))) ++ k.drop 10) := by
  obtain ⟨ht, he, hc, hr, ho⟩ := h
  obtain ⟨t, t1, t2, t3⟩ := time_write ht
  obtain ⟨e, _, e1, e2⟩ := code_byte (by decide) (by decide) he
  obtain ⟨c, _, c1, c2⟩ := code_byte (by decide) (by decide) hc
  obtain ⟨r, hr⟩ := List.length_eq_one_iff.mp hr
  obtain ⟨o1, o2, _⟩ := odometer_write ho
  refine ⟨t, _, e, c, r, t1, o1, t3, e2, c2, hr, o2, fun k hk => ?_⟩
  have t2' : appendTimeReal [] m.entryTime = .ok t := by simpa using t2 []
  simp only [paintPlace, t2', e1, c1, hr, Res.bind_ok, Res.pure_eq, List.take_succ_cons, List.take_nil]
  rw [paint_start t1, paint_step (n := 1) t1 rfl (by rfl), paint_step (n := 1) (by simp [t1]) rfl (by rfl),
    paint_step (n := 1) (by simp [t1]) rfl (by rfl), paint_step (by simp [t1]) o1 (by rfl)]
  simp

/-- C61: place records. -/
theorem place_write_read (m : PlaceRecord) (hraw : RawFits m.rawData 10) (h : PlaceOk m) :
    ∃ e, e.length = 10 ∧ WritesBytes (appendPlaceRecord · m) e ∧ unmarshalPlaceRecord e = .ok { m with rawData := some e, valid := false } := by
  obtain ⟨t, o, e, c, r, t1, o1, t3, e2, c2, hr, o2, hp⟩ := placeFields_write h
  obtain ⟨k, hk, hkl⟩ := canvas_ok hraw
  have hd : k.drop 10 = [] := List.drop_eq_nil_of_le (by omega)
  refine ⟨t ++ ([e] ++ ([c] ++ ([r] ++ o))), by simp [t1, o1], fun dst => ?_, ?_⟩
  · simp only [appendPlaceRecord, hk, Res.bind_ok, hp k (by omega), hd, List.append_nil, Res.pure_eq]
  · have hl : (t ++ ([e] ++ ([c] ++ ([r] ++ o)))).length = 10 := by simp [t1, o1]
    simp only [unmarshalPlaceRecord, hl, ne_eq, not_true_eq_false, if_false, Res.bind_ok, Res.pure_eq, sl?_head t1,
      at?_tail t1, sl?_tail t1, at?_head, Nat.le_refl, Nat.reduceLeDiff, Nat.reduceSub, at?_next,
      sl?_next, sl?_all o1, t3, e2, c2, o2, hr]

/-! ## Sub-messages -/

theorem writesBytes_nil {f : Bytes → Res Bytes} {e : Bytes} (h : WritesBytes f e) : f [] = .ok e := by simpa using h []

theorem date_write {d : Date} (h : DateOk d) :
    ∃ e d', e.length = 4 ∧ WritesBytes (appendDate · d) e ∧ unmarshalDate e = .ok d' ∧ SameDate d d' := by
  obtain ⟨raw, y, m, dd⟩ := d
  obtain ⟨hr, y0, y1, m0, m1, d0, d1⟩ := h
  simp only at hr y0 y1 m0 m1 d0 d1
  obtain ⟨y, rfl⟩ : ∃ k : Nat, y = k := ⟨y.toNat, by omega⟩
  obtain ⟨m, rfl⟩ : ∃ k : Nat, m = k := ⟨m.toNat, by omega⟩
  obtain ⟨dd, rfl⟩ : ∃ k : Nat, dd = k := ⟨dd.toNat, by omega⟩
  obtain ⟨e, he, hu⟩ := date_encode_modulo raw hr y m dd []
  have hl : e.length = 4 := by
    unfold unmarshalDate at hu
    by_cases hne : e.length = 4
    · exact hne
    · simp [hne] at hu
  refine ⟨e, _, hl, fun dst => ?_, hu, ?_⟩
  · obtain ⟨e', he', hu'⟩ := date_encode_modulo raw hr y m dd dst
    show appendDate dst _ = _
    rw [he']
    unfold appendDate at he he'
    cases hc : canvasOf raw 4 with
    | ok c =>
      rw [hc] at he he'
      simp only [Res.bind_ok, Res.pure_eq, Res.ok.injEq, List.nil_append, List.append_cancel_left_eq] at he he'
      rw [← he, ← he']
    | err _ => rw [hc] at he; cases he
    | panic => rw [hc] at he; cases he
  · refine ⟨?_, ?_, ?_⟩ <;> simp only <;> omega

theorem monthYear_write {d : MonthYear} (h : MonthYearOk d) :
    ∃ e d', e.length = 2 ∧ WritesBytes (appendMonthYear · d) e ∧ unmarshalMonthYear e = .ok d' ∧ SameMonthYear d d' := by
  obtain ⟨raw, m, y⟩ := d
  obtain ⟨hr, hd⟩ := h
  simp only at hr hd
  have hraw : ¬ ((raw.getD []).length > 0 ∧ (raw.getD []).length ≠ 2) := by
    cases raw with
    | none => simp
    | some r => rcases hr r rfl with rfl | h <;> simp_all
  rcases hd with ⟨rfl, rfl⟩ | ⟨m0, m1, y0, y1, hz⟩
  · refine ⟨[0, 0], ⟨some [0, 0], 0, 0⟩, rfl, fun dst => ?_, by decide, rfl, rfl⟩
    show appendMonthYear dst _ = _
    unfold appendMonthYear
    simp only [if_neg hraw, Res.bind_ok, Res.pure_eq]
    rfl
  obtain ⟨m, rfl⟩ : ∃ k : Nat, m = k := ⟨m.toNat, by omega⟩
  obtain ⟨y, rfl⟩ : ∃ k : Nat, y = ((k + 2000 : Nat) : Int) := ⟨(y - 2000).toNat, by omega⟩
  obtain ⟨e, he, hu⟩ := monthYear_encode_decode m y (by omega) (by omega) (by omega) []
  have hl : e.length = 2 := by
    unfold unmarshalMonthYear at hu
    by_cases hne : e.length = 2
    · exact hne
    · simp [hne] at hu
  refine ⟨e, _, hl, fun dst => ?_, hu, rfl, rfl⟩
  unfold appendMonthYear at he ⊢
  simp only [Option.getD_none, List.length_nil, gt_iff_lt, Nat.lt_irrefl, false_and, if_false, Res.bind_ok, Res.pure_eq,
    Res.ok.injEq, List.nil_append] at he
  simp only [if_neg hraw, Res.bind_ok, Res.pure_eq, he]

theorem bcd_write {c : BcdString} (h : c.length = 2 ∧ 0 ≤ c.value ∧ c.value < 10000) :
    ∃ e, e.length = 2 ∧ WritesBytes (appendBcdString · (some c)) e ∧ unmarshalBcdString e = .ok c := by
  obtain ⟨v, l⟩ := c
  obtain ⟨rfl, h0, h1⟩ := h
  simp only at h0 h1
  obtain ⟨k, rfl⟩ : ∃ k : Nat, v = k := ⟨v.toNat, by omega⟩
  have hi : (itoa k).length ≤ 4 := by
    have h2 : k < 10000 := by omega
    unfold itoa; split
    · simp
    · unfold itoa; split
      · simp
      · unfold itoa; split
        · simp
        · unfold itoa
          rw [if_pos (by omega)]
          simp
  have ha : ∀ dst, appendBcdString dst (some ⟨(k : Int), 2⟩) =
      .ok (dst ++ packDigits (List.replicate (4 - (itoa k).length) 0 ++ itoa k)) := by
    intro dst
    simp only [appendBcdString, appendBCD]
    rw [if_neg (by omega), if_neg (by omega), if_neg (by omega)]
    rw [if_neg (by simp; omega)]
    simp
  have hb : appendBCD [] (k : Int) 2 = .ok ([] ++ packDigits (List.replicate (4 - (itoa k).length) 0 ++ itoa k)) := by
    simp only [appendBCD]
    rw [if_neg (by omega), if_neg (by simp; omega)]
    simp
  obtain ⟨e, he, hl, hd⟩ := bcd_encode_decode [] _ _ _ hb
  simp only [List.nil_append] at he
  refine ⟨e, hl, fun dst => by show appendBcdString dst _ = _; rw [ha, he], ?_⟩
  have hd := hd (by omega)
  simp only [unmarshalBcdString, hl, Res.bind_ok, hd, Res.pure_eq]
  simp
  constructor
  · exact wrap32_id (by omega) (by omega)
  · exact wrap32_id (by omega) (by omega)

theorem named_ne {t : EnumTable} (ht : t ∈ allEnumTables) (h1 : (1, none) ∈ t) {v : Int} (h : Named t v) : v ≠ enumUnrecognized := by
  obtain ⟨b, hb⟩ := h
  rintro rfl
  have := nodup_fst_unique (Ok_parts (enumTables_ok t ht)).1 hb h1
  cases this

theorem enumOr1_of {t : EnumTable} {b : UInt8} {v : Int} (h : unmarshalEnum t b = .ok v) : enumOr1 t b = v := by
  simp [enumOr1, h]

section
variable [Charmap]

theorem emptyVrn_ok (h0 : ∀ x, Ascii x → Charmap.decode (charmapOf 0) x = x) : TextOk 13 emptyVrn := by
  refine ⟨rfl, ⟨(0, encoding_encodingDefault), by decide, rfl⟩, .inr ⟨rfl, by decide, ?_, fun p hp he => ?_⟩⟩
  · exact ⟨by simp [Ascii, emptyVrn], by simp [emptyVrn], by simp [emptyVrn]⟩
  · have : ∀ p ∈ Spec.codePages, p.2 = encoding_encodingDefault → p.1 = 0 := by decide
    rw [this p hp he]
    exact h0

/-- C61: vehicle registrations. -/
theorem registration_write_read (v : VehicleRegistration) (h : RegOk v) :
    ∃ e v', e.length = 15 ∧ WritesBytes (appendVehicleRegistration · (some v)) e ∧
      unmarshalVehicleRegistration e = .ok v' ∧ SameReg v v' := by
  obtain ⟨hn, hs⟩ := h
  obtain ⟨b, b1, b2⟩ := named_byte (by decide) hn
  have hne := named_ne (by decide) (by decide) hn
  have hok : TextOk 13 (v.number.getD emptyVrn) := by
    rcases hs with ⟨hs, h0⟩ | ⟨s, hs, ht⟩
    · rw [hs]; exact emptyVrn_ok h0
    · rw [hs]; exact ht
  obtain ⟨e, s', e1, e2, e3, e4⟩ := text_write (by omega) (by omega) hok
  refine ⟨[b] ++ e, ⟨v.nation, some s'⟩, by simp [e1], fun dst => ?_, ?_, rfl, ?_⟩
  · simp only [appendVehicleRegistration, if_neg hne, b1, Res.bind_ok]
    rw [show appendStringValue (dst ++ [b]) (some (v.number.getD emptyVrn)) = .ok (dst ++ [b] ++ e) from e2 _]
    simp
  · have hl : ([b] ++ e).length = 15 := by simp [e1]
    simp only [unmarshalVehicleRegistration, hl, ne_eq, not_true_eq_false, if_false, Res.bind_ok, Res.pure_eq, at?_head,
      sl?_next, Nat.le_refl, Nat.reduceLeDiff, Nat.reduceSub, sl?_all e1, e3, enumOr1_of b2]
  · rcases hs with ⟨hs, _⟩ | ⟨s, hs, ht⟩
    · refine .inr ⟨hs, s', rfl, ?_⟩
      rw [hs] at e4
      exact e4.2.2.2 rfl
    · refine .inl ⟨s, s', hs, rfl, ?_⟩
      rw [hs] at e4
      exact e4

/-- C61: holder names. -/
theorem holderName_write_read (m : HolderName) (h : HolderNameOk m) :
    ∃ e m', e.length = 72 ∧ WritesBytes (appendHolderName · (some m)) e ∧ unmarshalHolderName e = .ok m' ∧ SameHolderName m m' := by
  obtain ⟨⟨s, hs, hs'⟩, f, hf, hf'⟩ := h
  obtain ⟨a, s1, a1, a2, a3, a4⟩ := text_write (by omega) (by omega) hs'
  obtain ⟨b, f1, b1, b2, b3, b4⟩ := text_write (by omega) (by omega) hf'
  refine ⟨a ++ b, ⟨some s1, some f1⟩, by simp [a1, b1], fun dst => ?_, ?_, ⟨s, s1, hs, rfl, a4⟩, f, f1, hf, rfl, b4⟩
  · simp only [appendHolderName, hs, hf]
    rw [show appendStringValue dst (some s) = .ok (dst ++ a) from a2 dst, Res.bind_ok,
      show appendStringValue (dst ++ a) (some f) = .ok (dst ++ a ++ b) from b2 _, List.append_assoc]
  · have hl : (a ++ b).length = 72 := by simp [a1, b1]
    simp only [unmarshalHolderName, hl, ne_eq, not_true_eq_false, if_false, Res.bind_ok, Res.pure_eq,
      sl?_head a1, sl?_tail a1, Nat.le_refl, Nat.reduceLeDiff, Nat.reduceAdd, Nat.reduceSub, sl?_all b1, a3, b3]

end

/-- C61: driver identifications. -/
theorem driverId_write_read (d : DriverIdentification) (h : DriverIdOk d) :
    ∃ e d', e.length = 14 ∧ WritesBytes (appendDriverIdentification · (some d)) e ∧
      unmarshalDriverIdentification e = .ok d' ∧ SameDriverId d d' := by
  obtain ⟨s, hs, h⟩ := h
  obtain ⟨e, s', e1, e2, e3, e4⟩ := ia5_write (by omega) (by omega) h
  refine ⟨e, ⟨some s', none, none⟩, e1, fun dst => ?_, ?_, s, s', hs, rfl, e4⟩
  · simp only [appendDriverIdentification, hs]
    exact e2 dst
  · simp only [unmarshalDriverIdentification, e1, ne_eq, not_true_eq_false, if_false, Res.bind_ok, Res.pure_eq, sl?_all e1, e3]

/-- C61: owner identifications. -/
theorem ownerId_write_read (o : OwnerIdentification) (h : OwnerIdOk o) :
    ∃ e o', e.length = 16 ∧ WritesBytes (appendOwnerIdentification · (some o)) e ∧
      unmarshalOwnerIdentification e = .ok o' ∧ SameOwnerId o o' := by
  obtain ⟨⟨a, ha, ha'⟩, ⟨b, hb, hb'⟩, ⟨c, hc, hc'⟩, d, hd, hd'⟩ := h
  obtain ⟨e, s, e1, e2, e3, e4⟩ := ia5_write (by omega) (by omega) ha'
  obtain ⟨f, t, f1, f2, f3, f4⟩ := ia5_write (by omega) (by omega) hb'
  obtain ⟨g, u, g1, g2, g3, g4⟩ := ia5_write (by omega) (by omega) hc'
  obtain ⟨k, w, k1, k2, k3, k4⟩ := ia5_write (by omega) (by omega) hd'
  refine ⟨e ++ (f ++ (g ++ k)), ⟨some s, some t, some u, some w⟩, by simp [e1, f1, g1, k1], fun dst => ?_, ?_,
    ⟨a, s, ha, rfl, e4⟩, ⟨b, t, hb, rfl, f4⟩, ⟨c, u, hc, rfl, g4⟩, d, w, hd, rfl, k4⟩
  · simp only [appendOwnerIdentification, ha, hb, hc, hd]
    rw [show appendIa5StringValue dst (some a) = .ok (dst ++ e) from e2 _, Res.bind_ok,
      show appendIa5StringValue (dst ++ e) (some b) = .ok (dst ++ e ++ f) from f2 _, Res.bind_ok,
      show appendIa5StringValue (dst ++ e ++ f) (some c) = .ok (dst ++ e ++ f ++ g) from g2 _, Res.bind_ok,
      show appendIa5StringValue (dst ++ e ++ f ++ g) (some d) = .ok (dst ++ e ++ f ++ g ++ k) from k2 _]
    simp only [List.append_assoc]
  · have hl : (e ++ (f ++ (g ++ k))).length = 16 := by simp [e1, f1, g1, k1]
    simp only [unmarshalOwnerIdentification, hl, ne_eq, not_true_eq_false, if_false, Res.bind_ok, Res.pure_eq, sl?_head e1,
      sl?_tail e1, sl?_head f1, sl?_tail f1, sl?_head g1, sl?_tail g1, Nat.le_refl, Nat.reduceLeDiff, Nat.reduceSub, sl?_all k1,
      e3, f3, g3, k3]

/-- C61: card numbers. -/
theorem cardNumber_write_read (c : FullCardNumber) (h : CardNumberOk c) :
    ∃ e c', e.length = 18 ∧ WritesBytes (appendFullCardNumber · (some c)) e ∧
      unmarshalFullCardNumber e = .ok c' ∧ SameCardNumber c c' := by
  obtain ⟨t, st, dr, ow⟩ := c
  obtain ⟨hst, h⟩ := h
  simp only at hst h
  have hi := byte_fits hst
  rcases h with ⟨rfl, ⟨d, rfl, hd⟩, rfl⟩ | ⟨ht, rfl, o, rfl, ho⟩
  · obtain ⟨b, b1, b2⟩ := named_byte (t := equipmentTypeTable) (v := equipmentType_driverCard) (by decide) ⟨1, by decide⟩
    obtain ⟨e, d', e1, e2, e3, e4⟩ := driverId_write_read d hd
    refine ⟨[b] ++ ([i2b st] ++ (e ++ [0, 0])), ⟨equipmentType_driverCard, st, some d', none⟩, by simp [e1], fun dst => ?_, ?_, rfl, rfl,
      .inl ⟨⟨d, d', rfl, rfl, e4⟩, rfl, rfl⟩⟩
    · simp only [appendFullCardNumber, b1, Res.bind_ok, if_pos]
      rw [show appendDriverIdentification (dst ++ [b, i2b st]) (some d) = .ok (dst ++ [b, i2b st] ++ e) from e2 _]
      simp
    · have hl : ([b] ++ ([i2b st] ++ (e ++ [0, 0]))).length = 18 := by simp [e1]
      have hl2 : (e ++ [0, 0]).length = 16 := by simp [e1]
      simp only [unmarshalFullCardNumber, hl, ne_eq, not_true_eq_false, if_false, Res.bind_ok, Res.pure_eq, at?_head, b2, at?_next,
        sl?_next, Nat.le_refl, Nat.reduceLeDiff, Nat.reduceSub, sl?_all hl2, if_pos, sl?_head e1, e3, hi]
  · have hne : t ≠ equipmentType_driverCard := by rcases ht with rfl | rfl <;> decide
    obtain ⟨b, b1, b2⟩ := named_byte (t := equipmentTypeTable) (v := t) (by decide)
      (by rcases ht with rfl | rfl
          · exact ⟨2, by decide⟩
          · exact ⟨4, by decide⟩)
    obtain ⟨e, o', e1, e2, e3, e4⟩ := ownerId_write_read o ho
    refine ⟨[b] ++ ([i2b st] ++ e), ⟨t, st, none, some o'⟩, by simp [e1], fun dst => ?_, ?_, rfl, rfl,
      .inr ⟨rfl, rfl, o, o', rfl, rfl, e4⟩⟩
    · simp only [appendFullCardNumber, b1, Res.bind_ok, if_neg hne, if_pos ht]
      rw [show appendOwnerIdentification (dst ++ [b, i2b st]) (some o) = .ok (dst ++ [b, i2b st] ++ e) from e2 _]
      simp
    · have hl : ([b] ++ ([i2b st] ++ e)).length = 18 := by simp [e1]
      simp only [unmarshalFullCardNumber, hl, ne_eq, not_true_eq_false, if_false, Res.bind_ok, Res.pure_eq, at?_head, b2, at?_next,
        sl?_next, Nat.le_refl, Nat.reduceLeDiff, Nat.reduceSub, sl?_all e1, if_neg hne, if_pos ht, e3, hi]

/-- C61: card numbers with generation. -/
theorem cardNumberGen_write_read (c : FullCardNumberAndGeneration) (h : CardNumberGenOk c) :
    ∃ e c', e.length = 19 ∧ WritesBytes (appendFullCardNumberAndGeneration · (some c)) e ∧
      unmarshalFullCardNumberAndGeneration e = .ok c' ∧ SameCardNumberGen c c' := by
  obtain ⟨⟨n, hn, h⟩, hg⟩ := h
  obtain ⟨b, b1, b2⟩ := named_byte (by decide) hg
  obtain ⟨e, n', e1, e2, e3, e4⟩ := cardNumber_write_read n h
  refine ⟨e ++ [b], ⟨some n', c.generation⟩, by simp [e1], fun dst => ?_, ?_, ⟨n, n', hn, rfl, e4⟩, rfl⟩
  · simp only [appendFullCardNumberAndGeneration, hn, b1]
    rw [show appendFullCardNumber dst (some n) = .ok (dst ++ e) from e2 _]
    simp
  · have hl : (e ++ [b]).length = 19 := by simp [e1]
    simp only [unmarshalFullCardNumberAndGeneration, hl, Res.bind_ok, Res.pure_eq, at?_tail e1, Nat.reduceSub, at?_single, b2,
      sl?_head e1, e3, Nat.reduceLT, if_false, Nat.le_refl]

/-- C61: extended serial numbers. -/
theorem serial_write_read (m : ExtendedSerialNumber) (h : SerialOk m) :
    ∃ e m', e.length = 8 ∧ WritesBytes (appendExtendedSerialNumber · (some m)) e ∧
      unmarshalExtendedSerialNumber e = .ok m' ∧ SameSerial m m' := by
  obtain ⟨h1, ⟨y, hy, hy'⟩, h3, h4⟩ := h
  obtain ⟨l1, l2⟩ := low_fits (by omega) h1
  obtain ⟨b, b1, b2⟩ := named_byte (by decide) h3
  obtain ⟨e, y', e1, e2, e3, e4⟩ := monthYear_write hy'
  have hn : (beNat (beBytes 4 (low 32 m.serialNumber)) : Int) = m.serialNumber := by
    rw [l1, beNat_beBytes_of_lt (by omega)]
    have := h1.1
    omega
  have hs : (beBytes 4 (low 32 m.serialNumber)).length = 4 := by simp
  refine ⟨beBytes 4 (low 32 m.serialNumber) ++ (e ++ ([b] ++ [i2b m.manufacturerCode])), ⟨m.serialNumber, some y', m.type, m.manufacturerCode⟩,
    by simp [e1], fun dst => ?_, ?_, rfl, ⟨y, y', hy, rfl, e4⟩, rfl, rfl⟩
  · simp only [appendExtendedSerialNumber, hy, Option.getD_some, b1]
    rw [show appendMonthYear (dst ++ beBytes 4 (low 32 m.serialNumber)) y = .ok (dst ++ beBytes 4 (low 32 m.serialNumber) ++ e) from e2 _]
    simp
  · have hl : (beBytes 4 (low 32 m.serialNumber) ++ (e ++ ([b] ++ [i2b m.manufacturerCode]))).length = 8 := by simp [e1]
    simp only [unmarshalExtendedSerialNumber, hl, ne_eq, not_true_eq_false, if_false, Res.bind_ok, Res.pure_eq, sl?_head hs, sl?_tail hs,
      at?_tail hs, sl?_head e1, at?_tail e1, at?_head, at?_next, at?_single, Nat.le_refl, Nat.reduceLeDiff, Nat.reduceSub, e3, hn,
      enumOr1_of b2, byte_fits h4]

/-- C61: positions. -/
theorem gnss_write_read (m : GNSSPlaceRecord) (h : GnssOk m) :
    ∃ e, e.length = 11 ∧ WritesBytes (appendGNSSPlaceRecord · (some m)) e ∧ unmarshalGNSSPlaceRecord e = .ok m := by
  obtain ⟨h1, h2, g, hg, hg1, hg2⟩ := h
  obtain ⟨t, t1, t2, t3⟩ := time_write h1
  obtain ⟨e, e1, e2, e3⟩ := geo_write hg1 hg2
  have hacc : ¬ (m.accuracy < 0 ∨ m.accuracy > 255) := by
    have := h2.1; have := h2.2
    omega
  refine ⟨t ++ ([i2b m.accuracy] ++ e), by simp [t1, e1], fun dst => ?_, ?_⟩
  · simp only [appendGNSSPlaceRecord, hg, Option.getD_some]
    rw [show appendTimeReal dst m.timestamp = .ok (dst ++ t) from t2 _, Res.bind_ok, if_neg hacc]
    rw [show appendGeoCoordinates (dst ++ t ++ [i2b m.accuracy]) g = .ok (dst ++ t ++ [i2b m.accuracy] ++ e) from e2 _]
    simp
  · have hl : (t ++ ([i2b m.accuracy] ++ e)).length = 11 := by simp [t1, e1]
    simp only [unmarshalGNSSPlaceRecord, hl, ne_eq, not_true_eq_false, if_false, Res.bind_ok, Res.pure_eq, sl?_head t1, sl?_tail t1,
      at?_tail t1, at?_head, sl?_next, sl?_all e1, Nat.le_refl, Nat.reduceLeDiff, Nat.reduceSub, t3, e3, byte_fits h2, ← hg]

/-- C61: positions with authentication status. -/
theorem gnssAuth_write_read (m : GNSSPlaceAuthRecord) (h : GnssAuthOk m) :
    ∃ e, e.length = 12 ∧ WritesBytes (appendGNSSPlaceAuthRecord · (some m)) e ∧ unmarshalGNSSPlaceAuthRecord e = .ok m := by
  obtain ⟨h1, h2, ⟨g, hg, hg1, hg2⟩, h4⟩ := h
  obtain ⟨t, t1, t2, t3⟩ := time_write h1
  obtain ⟨e, e1, e2, e3⟩ := geo_write hg1 hg2
  obtain ⟨b, b1, _, b2⟩ := code_byte (by decide) (by decide) h4
  refine ⟨t ++ ([i2b m.accuracy] ++ (e ++ [b])), by simp [t1, e1], fun dst => ?_, ?_⟩
  · simp only [appendGNSSPlaceAuthRecord, hg, Option.getD_some, b1]
    rw [show appendTimeReal dst m.timestamp = .ok (dst ++ t) from t2 _, Res.bind_ok,
      show appendGeoCoordinates (dst ++ t ++ [i2b m.accuracy]) g = .ok (dst ++ t ++ [i2b m.accuracy] ++ e) from e2 _]
    simp
  · have hl : (t ++ ([i2b m.accuracy] ++ (e ++ [b]))).length = 12 := by simp [t1, e1]
    simp only [unmarshalGNSSPlaceAuthRecord, hl, ne_eq, not_true_eq_false, if_false, Res.bind_ok, Res.pure_eq, sl?_head t1, sl?_tail t1,
      at?_tail t1, at?_head, sl?_next, sl?_head e1, at?_next, at?_tail e1, at?_single, Nat.le_refl, Nat.reduceLeDiff, Nat.reduceSub,
      t3, e3, byte_fits h2, ← hg, b2]

/-! ## Records -/

/-- C61: second generation place records. -/
theorem placeG2_write_read (m : PlaceRecordG2) (hraw : RawFits m.base.rawData 21) (h : PlaceOk m.base) (hg : Has GnssOk m.gnss) :
    ∃ e, e.length = 21 ∧ WritesBytes (appendPlaceRecordG2 · m) e ∧
      unmarshalPlaceRecordG2 e = .ok { m with base := { m.base with rawData := some e, valid := false } } := by
  obtain ⟨t, o, e, c, r, t1, o1, t3, e2, c2, hr, o2, hp⟩ := placeFields_write h
  obtain ⟨k, hk, hkl⟩ := canvas_ok hraw
  obtain ⟨g, hg, hg'⟩ := hg
  obtain ⟨x, x1, x2, x3⟩ := gnss_write_read g hg'
  have hd : k.drop (10 + 11) = [] := List.drop_eq_nil_of_le (by omega)
  have hl : (t ++ ([e] ++ ([c] ++ ([r] ++ (o ++ x))))).length = 21 := by simp [t1, o1, x1]
  refine ⟨t ++ ([e] ++ ([c] ++ ([r] ++ (o ++ x)))), hl, fun dst => ?_, ?_⟩
  · simp only [appendPlaceRecordG2, hk, Res.bind_ok, hp k (by omega), hg]
    rw [show appendGNSSPlaceRecord [] (some g) = .ok ([] ++ x) from x2 _, Res.bind_ok,
      paint_step (by simp [t1, o1]) (by simp [x1]) rfl, hd]
    simp
  · simp only [unmarshalPlaceRecordG2, hl, ne_eq, not_true_eq_false, if_false, Res.bind_ok, Res.pure_eq, sl?_head t1,
      at?_tail t1, sl?_tail t1, at?_head, Nat.le_refl, Nat.reduceLeDiff, Nat.reduceSub, at?_next,
      sl?_next, sl?_head o1, sl?_tail o1, sl?_all x1, x3, t3, e2, c2, o2, hr, ← hg]

/-- C61: conditions. -/
theorem condition_write_read (m : SpecificConditionRecord) (h : ConditionOk m) :
    ∃ e, e.length = 5 ∧ WritesBytes (appendSpecificConditionRecord · (some m)) e ∧ unmarshalSpecificConditionRecord e = .ok m := by
  obtain ⟨h1, h2⟩ := h
  obtain ⟨t, t1, t2, t3⟩ := time_write h1
  obtain ⟨b, b1, _, b2⟩ := code_byte (by decide) (by decide) h2
  refine ⟨t ++ [b], by simp [t1], fun dst => ?_, ?_⟩
  · simp only [appendSpecificConditionRecord, b1]
    rw [show appendTimeReal dst m.entryTime = .ok (dst ++ t) from t2 _]
    simp
  · have hl : (t ++ [b]).length = 5 := by simp [t1]
    simp only [unmarshalSpecificConditionRecord, hl, ne_eq, not_true_eq_false, if_false, Res.bind_ok, Res.pure_eq, sl?_head t1,
      at?_tail t1, at?_single, Nat.le_refl, Nat.reduceSub, t3, b2]

section
variable [Charmap]

theorem vehicleFields_write {m : CardVehicleRecord} (h : CardVehicleOk m) :
    ∃ e m', e.length = 31 ∧ (∀ rest, unmarshalCardVehicleFields (e ++ rest) = .ok { m' with rawData := some (e ++ rest) }) ∧
      SameCardVehicle m m' ∧ ∀ k : Bytes, paintCardVehicle k m = .ok (e ++ k.drop 31) := by
  obtain ⟨h1, h2, h3, h4, ⟨v, hv, hv'⟩, c, hc, hc'⟩ := h
  obtain ⟨_, o1, p1⟩ := odometer_write h1
  obtain ⟨_, o2, p2⟩ := odometer_write h2
  rw [p1] at o1
  rw [p2] at o2
  have l1 : (beBytes 3 (low 32 m.odometerBegin)).length = 3 := by simp
  have l2 : (beBytes 3 (low 32 m.odometerEnd)).length = 3 := by simp
  obtain ⟨t, t1, t2, t3⟩ := time_write h3
  obtain ⟨u, u1, u2, u3⟩ := time_write h4
  obtain ⟨r, v', r1, r2, r3, r4⟩ := registration_write_read v hv'
  obtain ⟨d, d1, d2, d3⟩ := bcd_write hc'
  generalize hA : beBytes 3 (low 32 m.odometerBegin) = A at *
  generalize hB : beBytes 3 (low 32 m.odometerEnd) = B at *
  refine ⟨A ++ (B ++ (t ++ (u ++ (r ++ d)))), ⟨none, m.odometerBegin, m.odometerEnd, m.firstUse, m.lastUse, some v', some c⟩,
    by simp [l1, l2, t1, u1, r1, d1], fun rest => ?_, ⟨rfl, rfl, rfl, rfl, ⟨v, v', hv, rfl, r4⟩, hc.symm⟩, fun k => ?_⟩
  · have ha : A ++ (B ++ (t ++ (u ++ (r ++ d)))) ++ rest = A ++ (B ++ (t ++ (u ++ (r ++ (d ++ rest))))) := by simp
    rw [ha]
    simp only [unmarshalCardVehicleFields, Res.bind_ok, Res.pure_eq, sl?_head l1, sl?_tail l1, sl?_head l2, sl?_tail l2, sl?_head t1,
      sl?_tail t1, sl?_head u1, sl?_tail u1, sl?_head r1, sl?_tail r1, sl?_head d1, Nat.le_refl, Nat.reduceLeDiff, Nat.reduceSub,
      t3, u3, r3, d3, o1, o2]
  · simp only [paintCardVehicle, hA, hB, hv, hc]
    rw [writesBytes_nil t2, writesBytes_nil u2, show appendVehicleRegistration [] (some v) = .ok r from writesBytes_nil r2,
      show appendBcdString [] (some c) = .ok d from writesBytes_nil d2]
    simp only [Res.bind_ok, Res.pure_eq]
    rw [paint_start l1, paint_step l1 l2 (by rfl), paint_step (by simp [l1, l2]) t1 (by rfl), paint_step (by simp [l1, l2, t1]) u1 (by rfl),
      paint_step (by simp [l1, l2, t1, u1]) r1 (by rfl), paint_step (by simp [l1, l2, t1, u1, r1]) d1 (by rfl)]
    simp

/-- C61: vehicle records. -/
theorem cardVehicle_write_read (m : CardVehicleRecord) (hraw : RawFits m.rawData 31) (h : CardVehicleOk m) :
    ∃ e m', e.length = 31 ∧ WritesBytes (appendCardVehicleRecord · m) e ∧ unmarshalCardVehicleRecord e = .ok m' ∧
      SameCardVehicle m m' ∧ m'.rawData = some e := by
  obtain ⟨e, m', e1, e2, e3, e4⟩ := vehicleFields_write h
  obtain ⟨k, hk, hkl⟩ := canvas_ok hraw
  refine ⟨e, { m' with rawData := some e }, e1, fun dst => ?_, ?_, e3, rfl⟩
  · simp only [appendCardVehicleRecord, hk, Res.bind_ok, e4, Res.pure_eq, List.drop_eq_nil_of_le (Nat.le_of_eq hkl), List.append_nil]
  · have := e2 []
    rw [List.append_nil] at this
    rw [unmarshalCardVehicleRecord, if_neg (by omega), this]

omit [Charmap] in
theorem trimNulSpace_vin {v : Bytes} (h : VinOk v) (n : Nat) : trimNulSpace (v ++ List.replicate n 0x20) = v := by
  have h1 : ∀ n, (v ++ List.replicate n (0x20 : UInt8)).reverse.dropWhile (fun b => b == 0 || b == 0x20) = v.reverse := by
    intro n
    induction n with
    | zero =>
      simp only [List.replicate_zero, List.append_nil]
      rcases List.eq_nil_or_concat v with rfl | ⟨t, b, rfl⟩
      · rfl
      · rw [List.concat_eq_append]
        obtain ⟨a, c⟩ := h.2 b t (by simp)
        simp [a, c]
    | succ n ih =>
      rw [List.replicate_succ', ← List.append_assoc, List.reverse_append]
      simpa using ih
  rw [trimNulSpace, h1, List.reverse_reverse]

/-- C61: second generation vehicle records. -/
theorem cardVehicleG2_write_read (m : CardVehicleRecordG2) (hraw : RawFits m.base.rawData 48) (h : CardVehicleOk m.base) (hv : VinOk m.vin) :
    ∃ e m', e.length = 48 ∧ WritesBytes (appendCardVehicleRecordG2 · m) e ∧ unmarshalCardVehicleRecordG2 e = .ok m' ∧
      SameCardVehicle m.base m'.base ∧ m'.vin = m.vin ∧ m'.base.rawData = some e := by
  obtain ⟨e, m', e1, e2, e3, e4⟩ := vehicleFields_write h
  obtain ⟨k, hk, hkl⟩ := canvas_ok hraw
  have hp : padSpaces (m.vin.take 17) 17 = m.vin ++ List.replicate (17 - m.vin.length) 0x20 := by
    rw [List.take_of_length_le hv.1]; rfl
  have hpl : (m.vin ++ List.replicate (17 - m.vin.length) (0x20 : UInt8)).length = 17 := by
    have := hv.1
    simp
    omega
  refine ⟨e ++ (m.vin ++ List.replicate (17 - m.vin.length) 0x20), ⟨{ m' with rawData := some _ }, m.vin⟩, by rw [List.length_append, hpl, e1],
    fun dst => ?_, ?_, e3, rfl, rfl⟩
  · simp only [appendCardVehicleRecordG2, hk, Res.bind_ok, e4, Res.pure_eq, hp]
    rw [paint_step e1 hpl (by rfl), List.drop_eq_nil_of_le (Nat.le_of_eq hkl), List.append_nil]
  · have hl : (e ++ (m.vin ++ List.replicate (17 - m.vin.length) 0x20)).length = 48 := by rw [List.length_append, hpl, e1]
    simp only [unmarshalCardVehicleRecordG2, hl, ne_eq, not_true_eq_false, if_false, Res.bind_ok, Res.pure_eq, e2, sl?_tail e1,
      Nat.le_refl, Nat.reduceLeDiff, Nat.reduceSub, sl?_all hpl, trimNulSpace_vin hv]

theorem previousFields_write {m : PreviousVehicleInfo} (h : PreviousVehicleOk m) :
    ∃ e m', e.length = 19 ∧ (∀ rest, unmarshalPreviousVehicleFields (e ++ rest) = .ok { m' with rawData := some (e ++ rest) }) ∧
      SamePreviousVehicle m m' ∧ ∀ k : Bytes, paintPreviousVehicle k m = .ok (e ++ k.drop 19) := by
  obtain ⟨⟨v, hv, hv'⟩, ht⟩ := h
  obtain ⟨t, t1, t2, t3⟩ := time_write ht
  obtain ⟨r, v', r1, r2, r3, r4⟩ := registration_write_read v hv'
  refine ⟨r ++ t, ⟨none, some v', m.withdrawalTime⟩, by simp [t1, r1], fun rest => ?_, ⟨⟨v, v', hv, rfl, r4⟩, rfl⟩, fun k => ?_⟩
  · rw [List.append_assoc]
    simp only [unmarshalPreviousVehicleFields, Res.bind_ok, Res.pure_eq, sl?_head r1, sl?_tail r1, sl?_head t1,
      Nat.le_refl, Nat.reduceLeDiff, Nat.reduceSub, t3, r3]
  · simp only [paintPreviousVehicle, hv]
    rw [writesBytes_nil t2, show appendVehicleRegistration [] (some v) = .ok r from writesBytes_nil r2]
    simp only [Res.bind_ok, Res.pure_eq]
    rw [paint_start r1, paint_step r1 t1 (by rfl)]

/-- C61: previous vehicles. -/
theorem previousVehicle_write_read (m : PreviousVehicleInfo) (hraw : RawFits m.rawData 19) (h : PreviousVehicleOk m) :
    ∃ e m', e.length = 19 ∧ WritesBytes (appendPreviousVehicleInfo · m) e ∧ unmarshalPreviousVehicleInfo e = .ok m' ∧
      SamePreviousVehicle m m' ∧ m'.rawData = some e := by
  obtain ⟨e, m', e1, e2, e3, e4⟩ := previousFields_write h
  obtain ⟨k, hk, hkl⟩ := canvas_ok hraw
  refine ⟨e, { m' with rawData := some e }, e1, fun dst => ?_, ?_, e3, rfl⟩
  · simp only [appendPreviousVehicleInfo, hk, Res.bind_ok, e4, Res.pure_eq, List.drop_eq_nil_of_le (Nat.le_of_eq hkl), List.append_nil]
  · have := e2 []
    rw [List.append_nil] at this
    rw [unmarshalPreviousVehicleInfo, if_neg (by omega), this]

/-- C61: previous vehicles of the second generation. -/
theorem previousVehicleG2_write_read (m : PreviousVehicleInfoG2) (hraw : RawFits m.base.rawData 20) (h : PreviousVehicleOk m.base)
    (hg : Named generationTable m.vuGeneration) :
    ∃ e m', e.length = 20 ∧ WritesBytes (appendPreviousVehicleInfoG2 · m) e ∧ unmarshalPreviousVehicleInfoG2 e = .ok m' ∧
      SamePreviousVehicle m.base m'.base ∧ m'.vuGeneration = m.vuGeneration ∧ m'.base.rawData = some e := by
  obtain ⟨e, m', e1, e2, e3, e4⟩ := previousFields_write h
  obtain ⟨k, hk, hkl⟩ := canvas_ok hraw
  obtain ⟨b, b1, b2⟩ := named_byte (by decide) hg
  refine ⟨e ++ [b], ⟨{ m' with rawData := some (e ++ [b]) }, m.vuGeneration⟩, by simp [e1], fun dst => ?_, ?_, e3, rfl, rfl⟩
  · simp only [appendPreviousVehicleInfoG2, hk, Res.bind_ok, e4, Res.pure_eq, b1]
    rw [paint_step (n := 1) e1 rfl (by rfl), List.drop_eq_nil_of_le (Nat.le_of_eq hkl), List.append_nil]
  · have hl : (e ++ [b]).length = 20 := by simp [e1]
    simp only [unmarshalPreviousVehicleInfoG2, hl, ne_eq, not_true_eq_false, if_false, Res.bind_ok, Res.pure_eq, e2, at?_tail e1,
      Nat.le_refl, Nat.reduceSub, at?_single, b2]

/-- C61: card insertions and withdrawals. -/
theorem cardIW_write_read (m : VuCardIWRecord) (hraw : RawFits m.rawData 129) (h : CardIWOk m) :
    ∃ e m', e.length = 129 ∧ WritesBytes (appendVuCardIWRecord · m) e ∧ unmarshalVuCardIWRecord e = .ok m' ∧
      SameCardIW m m' ∧ m'.rawData = some e := by
  obtain ⟨⟨n, hn, hn'⟩, ⟨c, hc, hc'⟩, ⟨d, hd, hd'⟩, ht, ho, hs, hu, hp, v, hv, hv', hv''⟩ := h
  obtain ⟨k, hk, hkl⟩ := canvas_ok hraw
  obtain ⟨N, n', N1, N2, N3, N4⟩ := holderName_write_read n hn'
  obtain ⟨C, c', C1, C2, C3, C4⟩ := cardNumber_write_read c hc'
  obtain ⟨D, d', D1, D2, D3, D4⟩ := date_write hd'
  obtain ⟨T, T1, T2, T3⟩ := time_write ht
  obtain ⟨O1, O2, _⟩ := odometer_write ho
  obtain ⟨S, S1, S2⟩ := named_byte (by decide) hs
  obtain ⟨U, U1, U2, U3⟩ := time_write hu
  obtain ⟨P1, P2, _⟩ := odometer_write hp
  obtain ⟨V, v', V1, V2, V3, V4, _⟩ := previousVehicle_write_read v hv' hv''
  generalize hA : appendOdometer [] (low 32 m.odometerAtInsertion) = A at *
  generalize hB : appendOdometer [] (low 32 m.odometerAtWithdrawal) = B at *
  have hA' : unmarshalOdometer A = .ok (beNat A) := by simp [unmarshalOdometer, O1]
  have hB' : unmarshalOdometer B = .ok (beNat B) := by simp [unmarshalOdometer, P1]
  generalize hF : (if m.manualInput then (1 : UInt8) else 0) = F at *
  have hF' : (F != 0) = m.manualInput := by subst hF; cases m.manualInput <;> rfl
  have hl : (N ++ (C ++ (D ++ (T ++ (A ++ ([S] ++ (U ++ (B ++ (V ++ [F]))))))))).length = 129 := by
    simp [N1, C1, D1, T1, O1, U1, P1, V1]
  refine ⟨N ++ (C ++ (D ++ (T ++ (A ++ ([S] ++ (U ++ (B ++ (V ++ [F])))))))), ⟨some _, some n', some c', some d', m.insertionTime,
    m.odometerAtInsertion, m.slot, m.withdrawalTime, m.odometerAtWithdrawal, some v', m.manualInput⟩, hl, fun dst => ?_, ?_,
    ⟨⟨n, n', hn, rfl, N4⟩, ⟨c, c', hc, rfl, C4⟩, ⟨d, d', hd, rfl, D4⟩, rfl, rfl, rfl, rfl, rfl, ⟨v, v', hv, rfl, V4⟩, rfl⟩, rfl⟩
  · simp only [appendVuCardIWRecord, hk, hn, hc, hd, hv, hA, hB, hF, Option.getD_some, S1]
    rw [show appendHolderName [] (some n) = .ok N from writesBytes_nil N2, show appendFullCardNumber [] (some c) = .ok C from writesBytes_nil C2,
      show appendDate [] d = .ok D from writesBytes_nil D2, writesBytes_nil T2, writesBytes_nil U2,
      show appendPreviousVehicleInfo [] v = .ok V from writesBytes_nil V2]
    simp only [Res.bind_ok, Res.pure_eq]
    rw [paint_start N1, paint_step N1 C1 (by rfl), paint_step (by simp [N1, C1]) D1 (by rfl), paint_step (by simp [N1, C1, D1]) T1 (by rfl),
      paint_step (by simp [N1, C1, D1, T1]) O1 (by rfl), paint_step (n := 1) (by simp [N1, C1, D1, T1, O1]) rfl (by rfl),
      paint_step (by simp [N1, C1, D1, T1, O1]) U1 (by rfl), paint_step (by simp [N1, C1, D1, T1, O1, U1]) P1 (by rfl),
      paint_step (by simp [N1, C1, D1, T1, O1, U1, P1]) V1 (by rfl),
      paint_step (n := 1) (by simp [N1, C1, D1, T1, O1, U1, P1, V1]) rfl (by rfl), List.drop_eq_nil_of_le (by omega)]
    simp
  · simp only [unmarshalVuCardIWRecord, hl, ne_eq, not_true_eq_false, if_false, Res.bind_ok, Res.pure_eq, sl?_head N1, sl?_tail N1,
      sl?_head C1, sl?_tail C1, sl?_head D1, sl?_tail D1, sl?_head T1, sl?_tail T1, sl?_head O1, sl?_tail O1, sl?_next, sl?_head U1,
      sl?_tail U1, sl?_head P1, sl?_tail P1, sl?_head V1, at?_tail N1, at?_tail C1, at?_tail D1, at?_tail T1, at?_tail O1,
      at?_head, at?_next, at?_tail U1, at?_tail P1, at?_tail V1, at?_single, Nat.le_refl, Nat.reduceLeDiff, Nat.reduceSub,
      N3, C3, D3, T3, hA', S2, U3, hB', V3, O2, P2, hF']

end

end Tacho
