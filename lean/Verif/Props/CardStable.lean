import Verif.Props.CardWriteRead
/-!
# C70: the elementary files of a driver card, written, read and written again

For every file of a driver card: if the message fits the format, the bytes written from it are the bytes written
from what a reader makes of them.
-/

namespace Tacho
open Spec

/-! ## Bytes of a concatenation -/

theorem byteAt_right {a b : Bytes} {n i : Nat} {P : UInt8 → Prop} (ha : a.length = n) (h : n ≤ i) :
    ByteAt (a ++ b) i P ↔ ByteAt b (i - n) P := by
  unfold ByteAt
  rw [List.getElem?_append_right (by omega), ha]

theorem byteAt_left {a b : Bytes} {i : Nat} {P : UInt8 → Prop} (h : i < a.length) : ByteAt (a ++ b) i P ↔ ByteAt a i P := by
  unfold ByteAt
  rw [List.getElem?_append_left h]

theorem named_known {t : EnumTable} {b : UInt8} {v : Int} (h : unmarshalEnum t b = .ok v) : Known t b := ⟨v, unmarshalEnum_ok h⟩

theorem whole_all {h n k : Nat} {e : Bytes} (hn : 0 < n) (hl : e.length = h + n * k) : wholeRecords h n e = e := by
  unfold wholeRecords recordCount
  have : (e.length - h) / n = k := by
    rw [hl, Nat.add_sub_cancel_left, Nat.mul_div_cancel_left _ hn]
  rw [this, Nat.mul_comm k n, ← hl, List.take_length]

/-! ## Single values -/

theorem date_stable {d d' : Date} {e : Bytes} (h : WritesBytes (appendDate · d) e) (hr : unmarshalDate e = .ok d') (hs : SameDate d d')
    (hl : e.length = 4) : WritesBytes (appendDate · d') e := by
  intro dst
  have h := h dst
  obtain ⟨raw, y, m, dd⟩ := d
  obtain ⟨raw', y', m', dd'⟩ := d'
  obtain ⟨rfl, rfl, rfl⟩ := hs
  have hraw : raw' = some e := by
    match e, hl with
    | [a, b, c, f], _ =>
      have : unmarshalDate [a, b, c, f] = .ok _ := rfl
      rw [this, Res.ok.injEq] at hr
      exact (congrArg Date.rawData hr).symm
  subst hraw
  dsimp only at h ⊢
  unfold appendDate at h ⊢
  dsimp only at h ⊢
  have hc : canvasOf (some e) 4 = .ok e := by simp [canvasOf, hl]
  rw [hc]
  cases hx : canvasOf raw 4 with
  | ok c => rw [hx] at h; exact h
  | err m => rw [hx] at h; cases h
  | panic => rw [hx] at h; cases h

theorem monthYear_stable {d d' : MonthYear} {e : Bytes} (h : WritesBytes (appendMonthYear · d) e) (hr : unmarshalMonthYear e = .ok d')
    (hs : SameMonthYear d d') (hl : e.length = 2) : WritesBytes (appendMonthYear · d') e := by
  intro dst
  have h := h dst
  obtain ⟨raw, m, y⟩ := d
  obtain ⟨raw', m', y'⟩ := d'
  obtain ⟨rfl, rfl⟩ := hs
  have hraw : raw' = some e := by
    unfold unmarshalMonthYear at hr
    simp only [hl, ne_eq, not_true_eq_false, if_false, Res.pure_eq] at hr
    split at hr
    · split at hr <;> (rw [Res.ok.injEq] at hr; exact (congrArg MonthYear.rawData hr).symm)
    · rw [Res.ok.injEq] at hr; exact (congrArg MonthYear.rawData hr).symm
    · cases hr
  subst hraw
  dsimp only at h ⊢
  unfold appendMonthYear at h ⊢
  simp only [Option.getD_some, hl, ne_eq, not_true_eq_false, and_false, if_false, Res.pure_eq] at h ⊢
  split at h
  · cases h
  · exact h

theorem version_stable {d d' : CardStructureVersion} {e : Bytes} (h : WritesBytes (appendCardStructureVersion · d) e)
    (hr : unmarshalCardStructureVersion e = .ok d') (hs : SameVersion d d') (hl : e.length = 2) :
    WritesBytes (appendCardStructureVersion · d') e := by
  intro dst
  have h := h dst
  obtain ⟨raw, m, y⟩ := d
  obtain ⟨raw', m', y'⟩ := d'
  obtain ⟨rfl, rfl⟩ := hs
  have hraw : raw' = some e := by
    match e, hl with
    | [a, b], _ =>
      have : unmarshalCardStructureVersion [a, b] = .ok _ := rfl
      rw [this, Res.ok.injEq] at hr
      exact (congrArg CardStructureVersion.rawData hr).symm
  subst hraw
  dsimp only at h ⊢
  unfold appendCardStructureVersion at h ⊢
  dsimp only at h ⊢
  have hc : canvasOf (some e) 2 = .ok e := by simp [canvasOf, hl]
  rw [hc]
  cases hx : canvasOf raw 2 with
  | ok c => rw [hx] at h; exact h
  | err m => rw [hx] at h; cases h
  | panic => rw [hx] at h; cases h

section
variable [Charmap]

theorem text_page {w : Nat} {s : StringValue} {e : Bytes} (h : TextOk w s) (hw : WritesBytes (appendStringValue · (some s)) e) :
    ByteAt e 0 KnownCodePage := by
  obtain ⟨-, ⟨p, hp, he⟩, -⟩ := h
  obtain ⟨_, e2, _⟩ := encoding_of_codePage p hp
  have hk : KnownCodePage (UInt8.ofNat p.1) := (by decide +kernel : ∀ p ∈ Spec.codePages, KnownCodePage (UInt8.ofNat p.1)) p hp
  have hw := hw []
  obtain ⟨enc, raw, len, v⟩ := s
  simp only at he
  subst he
  have key : ∀ t, Res.ok ([] ++ UInt8.ofNat p.1 :: t) = Res.ok ([] ++ e) → ByteAt e 0 KnownCodePage := by
    intro t ht
    simp only [List.nil_append, Res.ok.injEq] at ht
    rw [← ht]
    exact ⟨_, rfl, hk⟩
  dsimp only at hw
  unfold appendStringValue at hw
  dsimp only at hw
  rw [e2] at hw
  split at hw
  · split at hw
    · cases hw
    · split at hw
      · cases hw
      · exact key _ hw
  · split at hw
    · split at hw
      · cases hw
      · exact key _ hw
    · exact key _ hw

theorem text_stable {w : Nat} {s s' : StringValue} {e : Bytes} (h : TextOk w s) (hw : WritesBytes (appendStringValue · (some s)) e)
    (hl : e.length ≤ 1000) (hr : unmarshalStringValue e = .ok s') : WritesBytes (appendStringValue · (some s')) e := by
  obtain ⟨out, h1, h2, h3⟩ := stringValue_restores hr hl
  rw [h3.2 (text_page h hw)] at h1
  exact h1

theorem registration_bytes {v : VehicleRegistration} {e : Bytes} (h : RegOk v) (hw : WritesBytes (appendVehicleRegistration · (some v)) e) :
    ByteAt e 0 (Known nationNumericTable) ∧ ByteAt e 1 KnownCodePage := by
  obtain ⟨hn, hs⟩ := h
  obtain ⟨b, b1, b2⟩ := named_byte (by decide) hn
  have hne := named_ne (by decide) (by decide) hn
  have hok : TextOk 13 (v.number.getD emptyVrn) := by
    rcases hs with ⟨hs, h0⟩ | ⟨s, hs, ht⟩
    · rw [hs]; exact emptyVrn_ok h0
    · rw [hs]; exact ht
  obtain ⟨t, s', e1, e2, e3, e4⟩ := text_write (by omega) (by omega) hok
  have : appendVehicleRegistration [] (some v) = .ok ([b] ++ t) := by
    simp only [appendVehicleRegistration, if_neg hne, b1, Res.bind_ok]
    rw [show appendStringValue ([] ++ [b]) (some (v.number.getD emptyVrn)) = .ok ([] ++ [b] ++ t) from e2 _]
    rfl
  rw [show appendVehicleRegistration [] (some v) = .ok ([] ++ e) from hw [], Res.ok.injEq, List.nil_append] at this
  subst this
  have hp := text_page hok e2
  refine ⟨⟨b, rfl, named_known b2⟩, ?_⟩
  rw [byteAt_right (n := 1) rfl (by omega)]
  exact hp

theorem registration_stable {v v' : VehicleRegistration} {e : Bytes} (h : RegOk v) (hw : WritesBytes (appendVehicleRegistration · (some v)) e)
    (hr : unmarshalVehicleRegistration e = .ok v') : WritesBytes (appendVehicleRegistration · (some v')) e := by
  obtain ⟨h0, h1⟩ := registration_bytes h hw
  obtain ⟨out, o1, _, o3⟩ := (registration_restores hr).1 h0
  rw [o3.2 h1] at o1
  exact o1

/-! ## Files -/

omit [Charmap] in
/-- A message `m` is stable: it is written, read and written again to the same bytes. -/
def Stable {α : Type} (w : α → Res Bytes) (r : Bytes → Res α) (m : α) : Prop :=
  ∃ e m', w m = .ok e ∧ r e = .ok m' ∧ w m' = .ok e

omit [Charmap] in
theorem ia5_stable {e : Bytes} {s : Ia5StringValue} (hl : e.length ≤ 1000) (h : unmarshalIa5StringValue e = .ok s) :
    WritesBytes (appendIa5StringValue · (some s)) e := fun dst => ia5_roundtrip e dst (by omega) s h

/-- EF_Current_Usage. -/
theorem usage_stable (m : CurrentUsage) (h : UsageOk m) :
    Stable (fun m => appendCurrentUsage [] (some m)) unmarshalCurrentUsage m := by
  obtain ⟨e, m', e1, e2, e3, -⟩ := currentUsage_write_read m h
  refine ⟨e, m', written_empty e2, e3, ?_⟩
  obtain ⟨h1, v, hv, hv'⟩ := h
  obtain ⟨t, t1, t2, t3⟩ := time_write h1
  obtain ⟨r, v', r1, r2, r3, r4⟩ := registration_write_read v hv'
  have he : appendCurrentUsage [] (some m) = .ok (t ++ r) := by
    simp only [appendCurrentUsage, hv]
    rw [show ∀ d, appendTimeReal d m.openTime = .ok (d ++ t) from t2, Res.bind_ok,
      show ∀ d, appendVehicleRegistration d (some v) = .ok (d ++ r) from r2, List.append_assoc]
    rfl
  rw [written_empty e2, Res.ok.injEq] at he
  subst he
  obtain ⟨b0, b1⟩ := registration_bytes hv' r2
  have := (currentUsage_restores_iff (t ++ r) [] m' e3).1.2 ⟨by rw [byteAt_right t1 (by omega)]; exact b0, by rw [byteAt_right t1 (by omega)]; exact b1⟩
  dsimp only
  rw [this, List.nil_append, List.take_of_length_le (by omega)]

/-- EF_Driving_Licence_Info. -/
theorem licence_stable (m : DrivingLicenceInfo) (h : LicenceOk m) :
    Stable (fun m => appendDrivingLicenceInfo [] (some m)) unmarshalDrivingLicenceInfo m := by
  obtain ⟨e, m', e1, e2, e3, -⟩ := licence_write_read m h
  refine ⟨e, m', written_empty e2, e3, ?_⟩
  obtain ⟨⟨a, ha, ha'⟩, hn, n, hn1, hn2⟩ := h
  obtain ⟨A, a', A1, A2, A3, A4⟩ := text_write (by omega) (by omega) ha'
  obtain ⟨b, b1, b2⟩ := named_byte (by decide) hn
  obtain ⟨N, n', N1, N2, N3, N4⟩ := ia5_write (by omega) (by omega) hn2
  have he : appendDrivingLicenceInfo [] (some m) = .ok (A ++ ([b] ++ N)) := by
    simp only [appendDrivingLicenceInfo, ha, hn1, b1]
    rw [show ∀ d, appendStringValue d (some a) = .ok (d ++ A) from A2, Res.bind_ok, Res.bind_ok,
      show ∀ d, appendIa5StringValue d (some n) = .ok (d ++ N) from N2]
    simp
  rw [written_empty e2, Res.ok.injEq] at he
  subst he
  have := (drivingLicence_restores_iff _ [] m' e3).1.2 ⟨by rw [byteAt_left (by omega)]; exact text_page ha' A2,
    by rw [byteAt_right A1 (by omega)]; exact ⟨b, rfl, named_known b2⟩⟩
  dsimp only
  rw [this, List.nil_append, List.take_of_length_le (by omega)]

/-- EF_Control_Activity_Data. -/
theorem control_stable (m : ControlActivity) (h : ControlOk m) :
    Stable (fun m => appendControlActivity [] (some m)) unmarshalControlActivity m := by
  obtain ⟨e, m', e1, e2, e3, e4⟩ := control_write_read m h
  refine ⟨e, m', written_empty e2, e3, ?_⟩
  rcases h with h | ⟨h1, h2⟩
  · obtain ⟨h1, ⟨c, hc⟩, h3, h3', ⟨n, hn, f, hf, hf1, d, hd, s, hs, hs'⟩, ⟨v, hv, hv'⟩, h6, h7⟩ := h
    obtain ⟨T, T1, T2, T3⟩ := time_write h3
    obtain ⟨N, s', N1, N2, N3, N4⟩ := ia5_write (by omega) (by omega) hs'
    obtain ⟨V, v', V1, V2, V3, V4⟩ := registration_write_read v hv'
    obtain ⟨B, B1, B2, B3⟩ := time_write h6
    obtain ⟨E, E1, E2, E3⟩ := time_write h7
    have hT : beNat T ≠ 0 := by
      intro hz
      simp only [unmarshalTimeReal, T1, ne_eq, not_true_eq_false, if_false, hz, if_pos, Res.ok.injEq] at T3
      exact h3' T3.symm
    generalize hb : ((if c.cardDownloading then (0x80 : UInt8) else 0) ||| (if c.vuDownloading then 0x40 else 0) |||
            (if c.printing then 0x20 else 0) ||| (if c.display then 0x10 else 0) |||
            (if c.calibrationChecking then 0x08 else 0)) = b
    have hb8 : b.toNat % 8 = 0 := by
      rw [← hb]
      have : ∀ x1 x2 x3 x4 x5 : Bool, ((if x1 then (0x80 : UInt8) else 0) ||| (if x2 then 0x40 else 0) ||| (if x3 then 0x20 else 0) |||
        (if x4 then 0x10 else 0) ||| (if x5 then 0x08 else 0)).toNat % 8 = 0 := by decide
      exact this _ _ _ _ _
    have he : appendControlActivity [] (some m) = .ok ([b] ++ (T ++ (N ++ (V ++ (B ++ E))))) := by
      have hfc : ∀ dst, appendFullCardNumberAsString dst (m.cardNumber.bind (·.number)) = .ok (dst ++ N) := by
        intro dst
        simp only [hn, Option.bind_some, hf, appendFullCardNumberAsString, hf1, if_pos, hd, hs]
        exact N2 dst
      simp only [appendControlActivity, h1, Bool.true_eq_false, if_false, hc, hb, hv]
      rw [show ∀ d, appendTimeReal d m.controlTime = .ok (d ++ T) from T2, Res.bind_ok, hfc, Res.bind_ok,
        show ∀ d, appendVehicleRegistration d (some v) = .ok (d ++ V) from V2, Res.bind_ok,
        show ∀ d, appendTimeReal d m.periodBegin = .ok (d ++ B) from B2, Res.bind_ok,
        show ∀ d, appendTimeReal d m.periodEnd = .ok (d ++ E) from E2]
      simp
    rw [written_empty e2, Res.ok.injEq] at he
    subst he
    obtain ⟨b0, b1⟩ := registration_bytes hv' V2
    have hs : sl ([b] ++ (T ++ (N ++ (V ++ (B ++ E))))) 1 5 = T := by
      have : sl? ([b] ++ (T ++ (N ++ (V ++ (B ++ E))))) 1 5 = .ok T := by
        simp only [sl?_next, Nat.le_refl, Nat.reduceLeDiff, Nat.reduceSub, sl?_head T1]
      exact (sl?_iff.1 this).2.2.symm
    have hx : ∀ i P, i < 15 → ByteAt V i P → ByteAt ([b] ++ (T ++ (N ++ (V ++ (B ++ E))))) (23 + i) P := by
      intro i P hi hV
      rw [byteAt_right (n := 1) rfl (by omega), byteAt_right T1 (by omega), byteAt_right N1 (by omega),
        show 23 + i - 1 - 4 - 18 = i by omega, byteAt_left (by omega)]
      exact hV
    have := (controlActivity_restores_iff _ [] m' e3 (by rw [hs]; exact hT)).2.2
      ⟨⟨b, rfl, hb8⟩, hx 0 _ (by omega) b0, hx 1 _ (by omega) b1⟩
    dsimp only
    rw [this, List.nil_append, List.take_of_length_le (by omega)]
  · obtain ⟨s1, _, s3⟩ := e4
    have hv : m'.valid = false := by rw [s1, h1]
    have hr : m'.rawData = some (if (m.rawData.getD []).length = 46 then m.rawData.getD [] else List.replicate 46 0) := by rw [s3 h1]
    have hee : e = if (m.rawData.getD []).length = 46 then m.rawData.getD [] else List.replicate 46 0 := by
      have h := written_empty e2
      simp only [appendControlActivity, h1, if_true] at h
      by_cases hr : (m.rawData.getD []).length = 46
      · simp [hr] at h; rw [if_pos hr, h]
      · simp [hr] at h; rw [if_neg hr, ← h]; rfl
    simp only [appendControlActivity, hv, if_true, hr, Option.getD_some, ← hee, e1]
    simp

/-- An event or fault record. -/
theorem event_stable (m : EventRecord) (h : EventOk m) :
    ∃ e m', e.length = 24 ∧ WritesBytes (appendEventRecord · m) e ∧ eventOf e = .ok m' ∧ WritesBytes (appendEventRecord · m') e := by
  obtain ⟨e, m', e1, e2, e3, -⟩ := event_write_read m h
  obtain ⟨g1, g2⟩ := eventOf_restores e1 e3
  refine ⟨e, m', e1, e2, e3, AppendsWith.of_nil g1 (g2.2 ?_)⟩
  intro hz
  rcases h with ⟨hv, hn, h1, h1', h2, r, hr, hr'⟩ | ⟨hv, r, hr, hl, hz'⟩
  · obtain ⟨b, b1, b2⟩ := named_byte (by decide) hn
    obtain ⟨T, T1, T2, T3⟩ := time_write h1
    obtain ⟨E, E1, E2, E3⟩ := time_write h2
    obtain ⟨R, r', R1, R2, R3, R4⟩ := registration_write_read r hr'
    have he : appendEventRecord [] m = .ok ([b] ++ (T ++ (E ++ R))) := by
      simp only [appendEventRecord, hv, Bool.true_eq_false, if_false, lax_of b1, hr]
      rw [show ∀ d, appendTimeReal d m.beginTime = .ok (d ++ T) from T2, Res.bind_ok,
        show ∀ d, appendTimeReal d m.endTime = .ok (d ++ E) from E2, Res.bind_ok,
        show ∀ d, appendVehicleRegistration d (some r) = .ok (d ++ R) from R2]
      simp
    rw [written_empty e2, Res.ok.injEq] at he
    subst he
    obtain ⟨b0, b1⟩ := registration_bytes hr' R2
    constructor
    · rw [byteAt_right (n := 1) rfl (by omega), byteAt_right T1 (by omega), byteAt_right E1 (by omega)]; exact b0
    · rw [byteAt_right (n := 1) rfl (by omega), byteAt_right T1 (by omega), byteAt_right E1 (by omega)]; exact b1
  · exfalso
    have he : appendEventRecord [] m = .ok r := by simp [appendEventRecord, hv, hr]
    rw [written_empty e2, Res.ok.injEq] at he
    subst he
    rw [hz'] at hz
    exact hz (by decide)

omit [Charmap] in
theorem appendEach_same {α : Type} {w : Bytes → α → Res Bytes} {xs ys : List α}
    (h : List.Forall₂ (fun x y => ∀ dst, w dst y = w dst x) xs ys) : ∀ dst, appendEach w dst ys = appendEach w dst xs := by
  induction h with
  | nil => intro dst; rfl
  | cons h1 _ ih =>
    intro dst
    simp only [appendEach, h1]
    congr 1
    funext d
    exact ih d

omit [Charmap] in
theorem mapRes_same {α : Type} {w : Bytes → α → Res Bytes} {xs ys : List α}
    (h : List.Forall₂ (fun x y => ∀ dst, w dst y = w dst x) xs ys) : mapRes (w []) ys = mapRes (w []) xs := by
  induction h with
  | nil => rfl
  | cons h1 _ ih => simp only [mapRes, h1, ih]

/-- EF_Events_Data and EF_Faults_Data. -/
theorem events_stable (rs : List EventRecord) (hl : rs.length ≤ 170) (h : ∀ r ∈ rs, EventOk r) :
    Stable (appendEventsData []) unmarshalEventsData rs := by
  obtain ⟨outs, xs', o1, o2, o3, o4, o5, o6⟩ := list_write (Same := fun x y => ∀ dst, appendEventRecord dst y = appendEventRecord dst x)
    (fun x hx => by
      obtain ⟨e, m', e1, e2, e3, e4⟩ := event_stable x (h x hx)
      exact ⟨e, m', e1, e2, e3, fun dst => (e4 dst).trans (e2 dst).symm⟩)
  have h2 : outs.flatten.length = 24 * rs.length := by rw [flatten_size o1, o2, Nat.mul_comm]
  have h3 : appendEventsData [] rs = .ok outs.flatten := o3 []
  refine ⟨outs.flatten, xs', h3, (events_ok_iff _ ⟨by omega, Or.inl (by omega)⟩ _).2 ?_, ?_⟩
  · rw [← mapRes_cut_iff (by omega), List.drop_zero, cut_of_flatten (by omega) outs o1, o5]
  · rw [← h3]
    exact appendEach_same o6 []

/-- A file with a header of two bytes. -/
theorem file2_stable {α : Type} {w : Bytes → α → Res Bytes} {r : Bytes → Res α} {n : Nat} {m : RecordFile α} (h0 : 0 < n)
    (hn : Fits 16 m.newest) (hx : ∀ x, AppendsExactly n (w · x))
    (h : ∀ x ∈ m.records, ∃ e x', e.length = n ∧ WritesBytes (w · x) e ∧ r e = .ok x' ∧ WritesBytes (w · x') e) :
    ∃ e xs', appendRecordFile2 w n [] (some m) = .ok e ∧ 2 ≤ e.length ∧ (beNat (sl e 0 2) : Int) = m.newest ∧
      RecordsAre r 2 n e xs' ∧ ∀ raw, appendRecordFile2 w n [] (some ⟨raw, m.newest, xs'⟩) = .ok e := by
  obtain ⟨e, xs', h1, h2, h3, h4, h5⟩ := file2_write (Same := fun x y => ∀ dst, w dst y = w dst x) h0 hn
    (fun x hx => by
      obtain ⟨e, m', e1, e2, e3, e4⟩ := h x hx
      exact ⟨e, m', e1, e2, e3, fun dst => (e4 dst).trans (e2 dst).symm⟩)
  refine ⟨e, xs', written_empty h1, by omega, h3, h4, fun raw => ?_⟩
  have h1 := written_empty h1
  rw [appendRecordFile2_eq _ (fun x _ => hx x)] at h1 ⊢
  dsimp only
  rw [mapRes_same h5]
  exact h1

theorem vehicle_bytes {m : CardVehicleRecord} (h : CardVehicleOk m) :
    ∃ e, e.length = 31 ∧ (∀ k : Bytes, paintCardVehicle k m = .ok (e ++ k.drop 31)) ∧
      ByteAt e 14 (Known nationNumericTable) ∧ ByteAt e 15 KnownCodePage := by
  obtain ⟨h1, h2, h3, h4, ⟨v, hv, hv'⟩, c, hc, hc'⟩ := h
  have l1 : (beBytes 3 (low 32 m.odometerBegin)).length = 3 := by simp
  have l2 : (beBytes 3 (low 32 m.odometerEnd)).length = 3 := by simp
  obtain ⟨t, t1, t2, t3⟩ := time_write h3
  obtain ⟨u, u1, u2, u3⟩ := time_write h4
  obtain ⟨r, v', r1, r2, r3, r4⟩ := registration_write_read v hv'
  obtain ⟨d, d1, d2, d3⟩ := bcd_write hc'
  generalize hA : beBytes 3 (low 32 m.odometerBegin) = A at *
  generalize hB : beBytes 3 (low 32 m.odometerEnd) = B at *
  obtain ⟨b0, b1⟩ := registration_bytes hv' r2
  refine ⟨A ++ (B ++ (t ++ (u ++ (r ++ d)))), by simp [l1, l2, t1, u1, r1, d1], fun k => ?_, ?_, ?_⟩
  · simp only [paintCardVehicle, hA, hB, hv, hc]
    rw [writesBytes_nil t2, writesBytes_nil u2, show appendVehicleRegistration [] (some v) = .ok r from writesBytes_nil r2,
      show appendBcdString [] (some c) = .ok d from writesBytes_nil d2]
    simp only [Res.bind_ok, Res.pure_eq]
    rw [paint_start l1, paint_step l1 l2 (by rfl), paint_step (by simp [l1, l2]) t1 (by rfl), paint_step (by simp [l1, l2, t1]) u1 (by rfl),
      paint_step (by simp [l1, l2, t1, u1]) r1 (by rfl), paint_step (by simp [l1, l2, t1, u1, r1]) d1 (by rfl)]
    simp
  · rw [byteAt_right l1 (by omega), byteAt_right l2 (by omega), byteAt_right t1 (by omega), byteAt_right u1 (by omega), byteAt_left (by omega)]
    exact b0
  · rw [byteAt_right l1 (by omega), byteAt_right l2 (by omega), byteAt_right t1 (by omega), byteAt_right u1 (by omega), byteAt_left (by omega)]
    exact b1

/-- EF_Vehicles_Used. -/
theorem vehiclesUsed_stable (m : RecordFile CardVehicleRecord) (hn : Fits 16 m.newest)
    (h : ∀ r ∈ m.records, RawFits r.rawData 31 ∧ CardVehicleOk r) :
    Stable (fun m => appendVehiclesUsed [] (some m)) unmarshalVehiclesUsed m := by
  obtain ⟨e, xs', h1, h2, h3, h4, h5⟩ := file2_stable (w := appendCardVehicleRecord) (n := 31) (r := unmarshalCardVehicleRecord) (by omega) hn
    appendCardVehicleRecord_exact
    (fun x hx => by
      obtain ⟨e, x', g1, g2, g3, -⟩ := cardVehicle_write_read x (h x hx).1 (h x hx).2
      refine ⟨e, x', g1, g2, g3, fun dst => (cardVehicle_roundtrip_iff e dst x' g3).2 ?_⟩
      obtain ⟨f, f1, f2, f3⟩ := vehicle_bytes (h x hx).2
      obtain ⟨k, hk, hkl⟩ := canvas_ok (h x hx).1
      have he : appendCardVehicleRecord [] x = .ok f := by
        simp only [appendCardVehicleRecord, hk, Res.bind_ok, f2, Res.pure_eq, List.drop_eq_nil_of_le (Nat.le_of_eq hkl), List.append_nil,
          List.nil_append]
      rw [written_empty g2, Res.ok.injEq] at he
      rw [he]
      exact f3)
  exact ⟨e, ⟨some e, m.newest, xs'⟩, h1, (vehiclesUsed_ok_iff e _).2 ⟨h2, rfl, h3.symm, h4⟩, h5 _⟩

/-- EF_Vehicles_Used of the second generation. -/
theorem vehiclesUsedG2_stable (m : RecordFile CardVehicleRecordG2) (hn : Fits 16 m.newest)
    (h : ∀ r ∈ m.records, RawFits r.base.rawData 48 ∧ CardVehicleOk r.base ∧ VinOk r.vin) :
    Stable (fun m => appendVehiclesUsedG2 [] (some m)) unmarshalVehiclesUsedG2 m := by
  obtain ⟨e, xs', h1, h2, h3, h4, h5⟩ := file2_stable (w := appendCardVehicleRecordG2) (n := 48) (r := unmarshalCardVehicleRecordG2) (by omega) hn
    appendCardVehicleRecordG2_exact
    (fun x hx => by
      obtain ⟨e, x', g1, g2, g3, -⟩ := cardVehicleG2_write_read x (h x hx).1 (h x hx).2.1 (h x hx).2.2
      refine ⟨e, x', g1, g2, g3, fun dst => (cardVehicleG2_roundtrip_iff e dst x' g3).2 ?_⟩
      obtain ⟨f, f1, f2, f3, f4⟩ := vehicle_bytes (h x hx).2.1
      obtain ⟨k, hk, hkl⟩ := canvas_ok (h x hx).1
      have hv := (h x hx).2.2
      have hp : padSpaces (x.vin.take 17) 17 = x.vin ++ List.replicate (17 - x.vin.length) 0x20 := by
        rw [List.take_of_length_le hv.1]; rfl
      have hpl : (x.vin ++ List.replicate (17 - x.vin.length) (0x20 : UInt8)).length = 17 := by
        have := hv.1
        simp
        omega
      have he : appendCardVehicleRecordG2 [] x = .ok (f ++ (x.vin ++ List.replicate (17 - x.vin.length) 0x20)) := by
        simp only [appendCardVehicleRecordG2, hk, Res.bind_ok, f2, Res.pure_eq, hp]
        rw [paint_step f1 hpl (by rfl), List.drop_eq_nil_of_le (Nat.le_of_eq hkl), List.append_nil, List.nil_append]
      rw [written_empty g2, Res.ok.injEq] at he
      rw [he]
      refine ⟨by rw [byteAt_left (by omega)]; exact f3, by rw [byteAt_left (by omega)]; exact f4, x.vin, 17 - x.vin.length, ?_, fun t b ht => hv.2 b t ht⟩
      unfold sl
      rw [List.take_of_length_le (by rw [List.length_append, hpl, f1]; decide), List.drop_left' f1])
  exact ⟨e, ⟨some e, m.newest, xs'⟩, h1, (vehiclesUsedG2_ok_iff e _).2 ⟨h2, rfl, h3.symm, h4⟩, h5 _⟩

omit [Charmap] in
/-- EF_Places. -/
theorem places_stable (m : RecordFile PlaceRecord) (hn : Fits 8 m.newest) (h : ∀ r ∈ m.records, RawFits r.rawData 10 ∧ PlaceOk r) :
    Stable (fun m => appendPlaces [] (some m)) unmarshalPlaces m := by
  obtain ⟨e, m', h1, h2, h3, -⟩ := places_write_read m hn h
  refine ⟨e, m', written_empty h1, h3, ?_⟩
  dsimp only
  rw [places_restores e [] m' h3, whole_all (by omega) h2, List.nil_append]

omit [Charmap] in
/-- EF_Places of the second generation. -/
theorem placesG2_stable (m : RecordFile PlaceRecordG2) (hn : Fits 16 m.newest)
    (h : ∀ r ∈ m.records, RawFits r.base.rawData 21 ∧ PlaceOk r.base ∧ Has GnssOk r.gnss) :
    Stable (fun m => appendPlacesG2 [] (some m)) unmarshalPlacesG2 m := by
  obtain ⟨e, m', h1, h2, h3, -⟩ := placesG2_write_read m hn h
  refine ⟨e, m', written_empty h1, h3, ?_⟩
  dsimp only
  rw [placesG2_restores e [] m' h3, whole_all (by omega) h2, List.nil_append]

omit [Charmap] in
/-- EF_Specific_Conditions. -/
theorem conditions_stable (m : RecordFile SpecificConditionRecord) (h : ∀ r ∈ m.records, ConditionOk r) :
    Stable (fun m => appendSpecificConditions [] (some m)) unmarshalSpecificConditions m := by
  obtain ⟨e, m', h1, h2, h3, -⟩ := conditions_write_read m h
  refine ⟨e, m', written_empty h1, h3, ?_⟩
  dsimp only
  rw [specificConditions_restores e [] m' h3, whole_all (k := m.records.length) (by omega) (by omega), List.nil_append]

/-- EF_Specific_Conditions of the second generation. -/
theorem conditionsG2_stable (m : RecordFile SpecificConditionRecord) (h : ConditionsG2Ok m) :
    Stable (fun m => appendSpecificConditionsG2 [] (some m)) unmarshalSpecificConditionsG2 m := by
  obtain ⟨e, m', h1, h2, h3, -⟩ := conditionsG2_fit_write_read m h
  exact ⟨e, m', h1, h3, specificConditionsG2_restores e [] m' h3⟩

omit [Charmap] in
/-- EF_Driver_Activity_Data. -/
theorem activity_stable (m : DriverActivityData) (h : ActivityOk m) :
    Stable (fun m => appendDriverActivity [] (some m)) unmarshalDriverActivityData m := by
  obtain ⟨e, m', h1, h2, h3, -⟩ := activity_write_read m h
  exact ⟨e, m', h1, h3, driverActivity_roundtrip e [] m' h3⟩

omit [Charmap] in
/-- EF_ICC. -/
theorem icc_stable (m : Icc) (h : IccOk m) : Stable (fun m => appendIcc [] m) unmarshalIcc m := by
  obtain ⟨e, m', e1, e2, e3, -⟩ := icc_write_read m h
  refine ⟨e, m', written_empty e2, e3, ?_⟩
  obtain ⟨out, o1, o2, o3⟩ := icc_restores e [] m' e3
  dsimp only
  rw [o1, List.nil_append, o3.2 ?_, List.take_of_length_le (by omega)]
  obtain ⟨h1, ⟨sn, hsn, hsn'⟩, ⟨ap, hap, hap'⟩, h4, ⟨em, hem, ⟨cc, hcc, hcc'⟩, ⟨me, hme, hme'⟩, h5⟩, h6⟩ := h
  obtain ⟨c, c1, c2⟩ := named_byte (by decide) h1
  obtain ⟨k1, ⟨y, hy, hy'⟩, k3, k4⟩ := hsn'
  obtain ⟨t, b1, b2⟩ := named_byte (by decide) k3
  obtain ⟨Y, y', Y1, Y2, Y3, Y4⟩ := monthYear_write hy'
  obtain ⟨A, ap', A1, A2, A3, A4⟩ := ia5_write (by omega) (by omega) hap'
  obtain ⟨C, cc', C1, C2, C3, C4⟩ := ia5_write (by omega) (by omega) hcc'
  obtain ⟨M, me', M1, M2, M3, M4⟩ := ia5_write (by omega) (by omega) hme'
  obtain ⟨S, rest, S1, hS⟩ : ∃ S rest : Bytes, S.length = 4 ∧
      ∀ dst, appendExtendedSerialNumberAsString dst (some sn) = .ok (dst ++ (S ++ (Y ++ rest))) := by
    refine ⟨if sn.serialNumber ≠ 0 then beBytes 4 (low 32 sn.serialNumber) else zeros 4,
      [t, if sn.manufacturerCode ≠ 0 then i2b sn.manufacturerCode else 0], by split <;> simp [zeros], fun dst => ?_⟩
    have ht : sn.type ≠ enumUnspecified := by
      intro hz
      rw [hz, show marshalEnum equipmentTypeTable enumUnspecified = .err _ from rfl] at b1
      cases b1
    simp only [appendExtendedSerialNumberAsString, hy, Option.getD_some, if_pos ht, b1]
    rw [show appendMonthYear [] y = .ok Y from writesBytes_nil Y2]
    simp only [Res.bind_ok, Res.pure_eq, List.take_of_length_le (Nat.le_of_eq Y1), List.append_assoc, ge_iff_le, Y1, Nat.le_refl, if_true]
  obtain ⟨rest', he⟩ : ∃ rest', appendIcc [] m = .ok ([c] ++ (S ++ (Y ++ rest'))) := by
    simp only [appendIcc, c1, hsn, hap, hem, Res.bind_ok, List.nil_append, hS]
    rw [show ∀ d, appendIa5StringValue d (some ap) = .ok (d ++ A) from A2, Res.bind_ok]
    simp only [appendEmbedderId, hcc, hme]
    rw [show ∀ d, appendIa5StringValue d (some cc) = .ok (d ++ C) from C2, Res.bind_ok,
      show ∀ d, appendIa5StringValue d (some me) = .ok (d ++ M) from M2, Res.bind_ok]
    simp only [Res.bind_ok, Res.pure_eq, List.append_assoc]
    exact ⟨_, rfl⟩
  rw [written_empty e2, Res.ok.injEq] at he
  subst he
  have hb : IsBcd (Y[0]'(by omega)) ∧ IsBcd (Y[1]'(by omega)) := by
    have := monthYear_stable Y2 Y3 Y4 Y1
    obtain ⟨a, b, rfl⟩ := list2 Y1
    exact (monthYear_roundtrip_iff a b []).1 ⟨y', Y3, this []⟩
  constructor
  · rw [byteAt_right (n := 1) rfl (by omega), byteAt_right S1 (by omega), byteAt_left (by omega)]
    exact ⟨_, by simp, hb.1⟩
  · rw [byteAt_right (n := 1) rfl (by omega), byteAt_right S1 (by omega), byteAt_left (by omega)]
    exact ⟨_, by simp, hb.2⟩

omit [Charmap] in
/-- EF_Application_Identification. -/
theorem appId_stable (m : AppId) (h : AppIdOk m) : Stable (fun m => appendAppId [] (some m)) unmarshalAppId m := by
  obtain ⟨h1, h2, h3⟩ := h
  obtain ⟨e, m', e1, e2, e3, -⟩ := appId_write_read m h1 h2 h3
  refine ⟨e, m', written_empty e2, e3, ?_⟩
  obtain ⟨out, o1, o2, o3⟩ := appId_restores e [] m' e3
  dsimp only
  rw [o1, List.nil_append, o3.2 ?_]
  obtain ⟨v, hv, hv'⟩ := h2
  obtain ⟨b, b1, b2⟩ := named_byte (by decide) h1
  obtain ⟨x, v', x1, x2, x3, x4⟩ := version_write hv'
  obtain ⟨rest, he⟩ : ∃ rest, appendAppId [] (some m) = .ok ([b] ++ (x ++ rest)) := by
    obtain ⟨d, hd, -⟩ := h3
    simp only [appendAppId, lax_of b1, hv, hd]
    rw [show appendCardStructureVersion ([] ++ [b]) v = .ok ([] ++ [b] ++ x) from x2 _]
    simp only [Res.bind_ok, Res.pure_eq, List.nil_append, List.append_assoc]
    exact ⟨_, rfl⟩
  rw [written_empty e2, Res.ok.injEq] at he
  subst he
  have hs : sl ([b] ++ (x ++ rest)) 1 3 = x := by
    have : sl? ([b] ++ (x ++ rest)) 1 3 = .ok x := by
      simp only [sl?_next, Nat.le_refl, Nat.reduceLeDiff, Nat.reduceSub, sl?_head x1]
    exact (sl?_iff.1 this).2.2.symm
  rw [hs]
  obtain ⟨out', p1, p2, p3⟩ := csv_restores (dst := []) x1 x3
  apply p3.1
  have := version_stable x2 x3 x4 x1 []
  dsimp only at this
  rw [p1, Res.ok.injEq] at this
  simpa using this

omit [Charmap] in
/-- EF_Application_Identification of the second generation. -/
theorem appIdG2_stable (m : AppIdG2) (h : AppIdG2Ok m) : Stable (fun m => appendAppIdG2 [] (some m)) unmarshalAppIdG2 m := by
  obtain ⟨h1, h2, h3⟩ := h
  obtain ⟨e, m', e1, e2, e3, -⟩ := appIdG2_write_read m h1 h2 h3
  refine ⟨e, m', written_empty e2, e3, ?_⟩
  obtain ⟨out, o1, o2, o3⟩ := appIdG2_restores e [] m' e3
  dsimp only
  rw [o1, List.nil_append, o3.2 ?_]
  obtain ⟨v, hv, hv'⟩ := h2
  obtain ⟨b, b1, b2⟩ := named_byte (by decide) h1
  obtain ⟨x, v', x1, x2, x3, x4⟩ := version_write hv'
  obtain ⟨rest, he⟩ : ∃ rest, appendAppIdG2 [] (some m) = .ok ([b] ++ (x ++ rest)) := by
    obtain ⟨d, hd, -⟩ := h3
    simp only [appendAppIdG2, lax_of b1, hv, hd]
    rw [show appendCardStructureVersion ([] ++ [b]) v = .ok ([] ++ [b] ++ x) from x2 _]
    simp only [Res.bind_ok, Res.pure_eq, List.nil_append, List.append_assoc]
    exact ⟨_, rfl⟩
  rw [written_empty e2, Res.ok.injEq] at he
  subst he
  have hs : sl ([b] ++ (x ++ rest)) 1 3 = x := by
    have : sl? ([b] ++ (x ++ rest)) 1 3 = .ok x := by
      simp only [sl?_next, Nat.le_refl, Nat.reduceLeDiff, Nat.reduceSub, sl?_head x1]
    exact (sl?_iff.1 this).2.2.symm
  rw [hs]
  obtain ⟨out', p1, p2, p3⟩ := csv_restores (dst := []) x1 x3
  apply p3.1
  have := version_stable x2 x3 x4 x1 []
  dsimp only at this
  rw [p1, Res.ok.injEq] at this
  simpa using this

omit [Charmap] in
theorem firstByte_same {o o' : Option Ia5StringValue} (h : Both SameValue o o') (d : UInt8) : firstByteOr o' d = firstByteOr o d := by
  obtain ⟨x, x', rfl, rfl, hx⟩ := h
  simp only [firstByteOr, show x'.value = x.value from hx]

theorem cardNumber_same {c c' : CardIdent} (h : CardIdentOk c) (hs : SameCardIdent c c') : cardNumberBytes c' = cardNumberBytes c := by
  obtain ⟨-, h2, -⟩ := h
  obtain ⟨-, s2, -⟩ := hs
  rcases s2 with ⟨⟨d, d', hd, hd', ⟨n, n', hn, hn', hv⟩, s3, s4⟩, -⟩ | ⟨hd', o, o', ho, ho', ⟨n, n', hn, hn', hv⟩, s3, s4, s5⟩
  · simp only [cardNumberBytes, hd, hd', hn, hn', firstByte_same s3, firstByte_same s4, show n'.value = n.value from hv]
  · have hd : c.driver = none := by
      rcases h2 with h2 | h2
      · obtain ⟨-, h2⟩ := h2
        rw [ho] at h2
        cases h2
      · exact h2.1
    simp only [cardNumberBytes, hd, hd', ho, ho', hn, hn', firstByte_same s3, firstByte_same s4, firstByte_same s5,
      show n'.value = n.value from hv]

/-- EF_Identification. -/
theorem identification_stable (m : Identification) (h : IdentificationOk m) :
    Stable (fun m => appendIdentification [] m) unmarshalIdentification m := by
  obtain ⟨⟨c, hc, hc'⟩, d, hd, hd'⟩ := h
  obtain ⟨N, ct, dr, ow, N1, N2, N3, N4, N5⟩ := cardNumberBytes_write hc'
  have hcok := hc'
  obtain ⟨hn, _, ⟨a, ha, ha'⟩, h1, h2, h3⟩ := hc'
  obtain ⟨⟨s, hs, hs'⟩, ⟨f, hf, hf'⟩, ⟨bd, hbd, hbd'⟩, l, hl, hl'⟩ := hd'
  obtain ⟨b, b1, b2⟩ := named_byte (by decide) hn
  obtain ⟨A, a', A1, A2, A3, A4⟩ := text_write (by omega) (by omega) ha'
  obtain ⟨T, T1, T2, T3⟩ := time_write h1
  obtain ⟨U, U1, U2, U3⟩ := time_write h2
  obtain ⟨V, V1, V2, V3⟩ := time_write h3
  obtain ⟨S, s', S1, S2, S3, S4⟩ := text_write (by omega) (by omega) hs'
  obtain ⟨F, f', F1, F2, F3, F4⟩ := text_write (by omega) (by omega) hf'
  obtain ⟨B, bd', B1, B2, B3, B4⟩ := date_write hbd'
  obtain ⟨L, l', L1, L2, L3, L4⟩ := ia5_write (by omega) (by omega) hl'
  have hlen : ([b] ++ (N ++ (A ++ (T ++ (U ++ (V ++ (S ++ (F ++ (B ++ L))))))))).length = 143 := by
    simp [N1, A1, T1, U1, V1, S1, F1, B1, L1]
  have hun : c.issuingState ≠ enumUnrecognized := named_ne (by decide) (by decide) hn
  have hN : cardNumberBytes ⟨c.issuingState, dr, ow, some a', c.issueDate, c.validityBegin, c.expiryDate⟩ = N := by
    rw [← N2]
    exact cardNumber_same hcok ⟨rfl, N5, ⟨a, a', ha, rfl, A4⟩, rfl, rfl, rfl⟩
  have ha2 := text_stable ha' A2 (by omega) A3
  have hs2 := text_stable hs' S2 (by omega) S3
  have hf2 := text_stable hf' F2 (by omega) F3
  have hb2 := date_stable B2 B3 B4 B1
  have hl2 := ia5_stable (by omega) L3
  refine ⟨[b] ++ (N ++ (A ++ (T ++ (U ++ (V ++ (S ++ (F ++ (B ++ L)))))))), ⟨ct, some ⟨c.issuingState, dr, ow, some a', c.issueDate, c.validityBegin, c.expiryDate⟩, some ⟨some s', some f', some bd', some l'⟩⟩,
    ?_, ?_, ?_⟩
  · simp only [appendIdentification, appendCardIdentification, appendDriverHolder, hc, hd, ha, hs, hf, hbd, hl, if_neg hun, b1, N2, Res.bind_ok]
    rw [show ∀ d, appendStringValue d (some a) = .ok (d ++ A) from A2, Res.bind_ok,
      show ∀ d, appendTimeReal d c.issueDate = .ok (d ++ T) from T2, Res.bind_ok,
      show ∀ d, appendTimeReal d c.validityBegin = .ok (d ++ U) from U2, Res.bind_ok,
      show ∀ d, appendTimeReal d c.expiryDate = .ok (d ++ V) from V2, Res.bind_ok,
      show ∀ d, appendStringValue d (some s) = .ok (d ++ S) from S2, Res.bind_ok,
      show ∀ d, appendStringValue d (some f) = .ok (d ++ F) from F2, Res.bind_ok,
      show ∀ d, appendDate d bd = .ok (d ++ B) from B2, Res.bind_ok,
      show ∀ d, appendIa5StringValue d (some l) = .ok (d ++ L) from L2]
    simp
  · simp only [unmarshalIdentification, hlen, Nat.lt_irrefl, if_false, Res.bind_ok, Res.pure_eq, at?_head, sl?_next, sl?_head N1, sl?_tail N1,
      sl?_head A1, sl?_tail A1, sl?_head T1, sl?_tail T1, sl?_head U1, sl?_tail U1, sl?_head V1, sl?_tail V1, sl?_head S1, sl?_tail S1,
      sl?_head F1, sl?_tail F1, sl?_head B1, sl?_tail B1, sl?_all L1, Nat.le_refl, Nat.reduceLeDiff, Nat.reduceAdd, Nat.reduceSub,
      N3, A3, T3, U3, V3, S3, F3, B3, L3, enumOr1_of b2]
  · simp only [appendIdentification, appendCardIdentification, appendDriverHolder, if_neg hun, b1, hN, Res.bind_ok]
    rw [show ∀ d, appendStringValue d (some a') = .ok (d ++ A) from ha2, Res.bind_ok,
      show ∀ d, appendTimeReal d c.issueDate = .ok (d ++ T) from T2, Res.bind_ok,
      show ∀ d, appendTimeReal d c.validityBegin = .ok (d ++ U) from U2, Res.bind_ok,
      show ∀ d, appendTimeReal d c.expiryDate = .ok (d ++ V) from V2, Res.bind_ok,
      show ∀ d, appendStringValue d (some s') = .ok (d ++ S) from hs2, Res.bind_ok,
      show ∀ d, appendStringValue d (some f') = .ok (d ++ F) from hf2, Res.bind_ok,
      show ∀ d, appendDate d bd' = .ok (d ++ B) from hb2, Res.bind_ok,
      show ∀ d, appendIa5StringValue d (some l') = .ok (d ++ L) from hl2]
    simp

end

end Tacho
