import Verif.Spec.CardAgain
import Verif.Props.CardWriteRead
import Verif.Props.Texts
/-!
# C67: a driver card file, read, written and read again
-/

namespace Tacho

open Spec

/-! ## Parsed fields fit the format -/

theorem named_of_byte {t : EnumTable} {b : UInt8} {v : Int} (h : unmarshalEnum t b = .ok v) : Named t v :=
  ⟨b, unmarshalEnum_ok h⟩

theorem named_of_or1 {t : EnumTable} {b : UInt8} (h : enumOr1 t b ≠ 1) : Named t (enumOr1 t b) := by
  unfold enumOr1 at *
  cases hu : unmarshalEnum t b with
  | ok v => exact named_of_byte hu
  | err m => rw [hu] at h; exact absurd rfl h
  | panic => rw [hu] at h; exact absurd rfl h

theorem fits_be {d : Bytes} {k n : Nat} (hl : d.length = k) (hn : 256 ^ k = 2 ^ n) : Fits n (beNat d : Int) := by
  have := beNat_lt d
  rw [hl, hn] at this
  refine ⟨by omega, ?_⟩
  exact_mod_cast this

theorem fits_byte (b : UInt8) : Fits 8 (b.toNat : Int) := by
  have := byte_lt b
  exact ⟨by omega, by omega⟩

theorem ia5_read {d : Bytes} {s : Ia5StringValue} {w : Nat} (hw : w < 2 ^ 31) (hl : d.length = w)
    (h : unmarshalIa5StringValue d = .ok s) : Ia5Ok w s := by
  unfold unmarshalIa5StringValue at h
  split at h
  · cases h
  · cases h
    refine ⟨?_, .inl ⟨d, rfl, hl⟩⟩
    simp only [hl, wrap32, Option.some.injEq]
    omega

theorem ia5_raw {d : Bytes} {s : Ia5StringValue} (h : unmarshalIa5StringValue d = .ok s) : s.rawData = some d := by
  unfold unmarshalIa5StringValue at h
  split at h
  · cases h
  · cases h; rfl

/-- The text that is shown is text of whole characters without padding. -/
theorem shows_whole {s text : Bytes} (h : Shows s text) : WholeText text := by
  obtain ⟨p, m, q, -, -, -, h1, h2, rfl⟩ := h
  refine ⟨shown m, rfl, ?_, ?_⟩
  · intro c t he
    cases m with
    | nil => cases he
    | cons x m =>
      have hx := h1 x m rfl
      cases x with
      | stray b => exact absurd trivial hx
      | char c' =>
        simp only [shown, List.cons.injEq] at he
        rw [← he.1]
        exact hx
  · intro c t he
    rcases List.eq_nil_or_concat m with rfl | ⟨m, x, rfl⟩
    · cases t <;> cases he
    · have hx := h2 x m (by simp)
      cases x with
      | stray b => exact absurd trivial hx
      | char c' =>
        have : ∀ m : List Symbol, ∃ t', shown (m ++ [.char c']) = t' ++ [c'] := by
          intro m
          induction m with
          | nil => exact ⟨[], rfl⟩
          | cons y m ih =>
            obtain ⟨t', ht⟩ := ih
            cases y with
            | char d => exact ⟨d :: t', by simp only [List.cons_append, shown, ht]⟩
            | stray b =>
              cases m with
              | nil => exact ⟨['�'], rfl⟩
              | cons z m =>
                cases z with
                | char d => exact ⟨'�' :: t', by simp only [List.cons_append] at ht ⊢; simp only [shown] at ht ⊢; rw [ht]⟩
                | stray b' => exact ⟨t', by simp only [List.cons_append] at ht ⊢; rw [shown]; exact ht⟩
        obtain ⟨t', ht⟩ := this m
        rw [List.concat_eq_append, ht] at he
        obtain ⟨-, he⟩ := List.append_inj' he rfl
        simp only [List.cons.injEq, and_true] at he
        rw [← he]
        exact hx

theorem number_read {d : Bytes} {s : Ia5StringValue} {w : Nat}
    (h : unmarshalIa5StringValue d = .ok s) (hk : s.value.length ≤ w) : NumberOk w s :=
  ⟨hk, shows_whole ((ia5_value_iff d s).1 h).2.2.2⟩

/-- One byte: shown as itself, or as nothing. -/
theorem index_text {b : UInt8} {s : Ia5StringValue} (h : unmarshalIa5StringValue [b] = .ok s) :
    IndexText s ∧ ∀ x, s.value = [x] → x = b := by
  have hs : s.value = toValidUTF8 (trimSpaceAndZeroBytes [b]) := ((cleaned_iff _ _).2 ((ia5_value_iff _ s).1 h).2.2.2).symm
  have : ∀ b : UInt8, toValidUTF8 (trimSpaceAndZeroBytes [b]) = [] ∨
      (toValidUTF8 (trimSpaceAndZeroBytes [b]) = [b] ∧ b < 128 ∧ ¬ Blank b) := by
    apply forall_byte
    decide +kernel
  rcases this b with h1 | ⟨h1, h2, h3⟩
  · exact ⟨.inl (hs.trans h1), fun x hx => by rw [hs, h1] at hx; cases hx⟩
  · exact ⟨.inr ⟨b, hs.trans h1, h2, h3⟩, fun x hx => by rw [hs, h1] at hx; cases hx; rfl⟩

theorem index_read {b : UInt8} {s : Ia5StringValue} (h : unmarshalIa5StringValue [b] = .ok s) (ha : Ascii [b]) (hb : ¬ Blank b) :
    s.value = [b] := by
  obtain ⟨-, p, q, hd, hp, hq⟩ := ia5_value h ha
  cases p with
  | cons x p =>
    simp only [List.cons_append, List.cons.injEq] at hd
    exact absurd (hp x (by simp)) (hd.1 ▸ hb)
  | nil =>
    cases hv : s.value with
    | nil =>
      rw [hv] at hd
      simp only [List.nil_append] at hd
      exact absurd (hq b (by simp [← hd])) hb
    | cons x v =>
      rw [hv] at hd
      simp only [List.nil_append, List.cons_append, List.cons.injEq] at hd
      obtain ⟨rfl, hd⟩ := hd
      have := congrArg List.length hd
      simp only [List.length_nil, List.length_append] at this
      simp only [List.cons.injEq, true_and]
      exact List.eq_nil_of_length_eq_zero (by omega)

theorem byte_at {d : Bytes} {i : Nat} (h : i < d.length) : ∃ b, d[i]? = some b := ⟨d[i], List.getElem?_eq_getElem h⟩

theorem sl_one {d : Bytes} {i : Nat} {b : UInt8} (h : d[i]? = some b) : sl d i (i + 1) = [b] := by
  obtain ⟨hi, rfl⟩ := List.getElem?_eq_some_iff.1 h
  have := (at?_iff (d := d) (i := i) (b := d[i])).1 (at?_ok hi)
  exact this.2

theorem digit_ascii {b : UInt8} (h : Digit b) : Ascii [b] := by
  intro x hx
  simp only [List.mem_singleton] at hx
  subst hx
  have := h.2
  omega

theorem monthYear_read {d : Bytes} {m : MonthYear} (h : unmarshalMonthYear d = .ok m) : MonthYearOk m := by
  have hl := monthYear_len h
  match d, hl with
  | [a, b], _ =>
    rw [monthYear_decode, Res.ok.injEq] at h
    subst h
    have z : ∀ b : UInt8, b = 0 ↔ b.toNat = 0 := fun b => by rw [← UInt8.toNat_inj]; rfl
    split
    · rename_i h
      obtain ⟨⟨h1, h2⟩, ⟨h3, h4⟩, h5⟩ := h
      rw [z a, z b] at h5
      refine ⟨?_, .inr ?_⟩
      · intro r hr; cases hr; exact .inr rfl
      · simp only [bcd2]
        omega
    · refine ⟨?_, .inl ⟨rfl, rfl⟩⟩
      intro r hr; cases hr; exact .inr rfl

theorem version_read {d : Bytes} {v : CardStructureVersion} (h : unmarshalCardStructureVersion d = .ok v) (hk : VersionDigits v) :
    VersionOk v := by
  simp only [unmarshalCardStructureVersion, Res.pure_eq, guard_eq_ok, bind_eq_ok, Res.ok.injEq] at h
  obtain ⟨hl, a, _, b, _, rfl⟩ := h
  refine ⟨?_, ?_, hk.1, ?_, hk.2⟩
  · intro r hr; cases hr; simpa using hl
  · simp only [bcd2]; omega
  · simp only [bcd2]; omega

theorem date_read {d : Bytes} {v : Date} (h : unmarshalDate d = .ok v) (hk : DateDigits v) : DateOk v := by
  simp only [unmarshalDate, Res.pure_eq, guard_eq_ok, bind_eq_ok, Res.ok.injEq] at h
  obtain ⟨hl, a, _, b, _, c, _, e, _, rfl⟩ := h
  refine ⟨?_, ?_, hk.1, ?_, hk.2.1, ?_, hk.2.2⟩
  · intro r hr; cases hr; simpa using hl
  · simp only; omega
  · simp only [bcd2]; omega
  · simp only [bcd2]; omega

theorem counter_read {d : Bytes} {c : BcdString} (hl : d.length = 2) (h : unmarshalBcdString d = .ok c) :
    c.length = 2 ∧ 0 ≤ c.value ∧ c.value < 10000 := by
  match d, hl with
  | [x, y], _ =>
    have h0 : ¬ ([x, y] : Bytes).length = 0 := by simp
    simp only [unmarshalBcdString, h0, if_false, Res.pure_eq, bind_eq_ok, Res.ok.injEq] at h
    obtain ⟨v, hv, rfl⟩ := h
    obtain ⟨hd, rfl, _⟩ := (bcd_decode_iff [x, y] v).mp hv
    have : Spec.decimal (Spec.hexDigits [x, y]) = (x.toNat / 16 * 10 + x.toNat % 16) * 100 + (y.toNat / 16 * 10 + y.toNat % 16) := by
      simp [Spec.decimal, Spec.hexDigits]
      omega
    have h1 := hd (x.toNat / 16) (by simp [Spec.hexDigits])
    have h2 := hd (x.toNat % 16) (by simp [Spec.hexDigits])
    have h3 := hd (y.toNat / 16) (by simp [Spec.hexDigits])
    have h4 := hd (y.toNat % 16) (by simp [Spec.hexDigits])
    rw [this]
    simp only [wrap32, List.length_cons, List.length_nil]
    omega

theorem gnss_read {d : Bytes} {g : GNSSPlaceRecord} (h : unmarshalGNSSPlaceRecord d = .ok g) : GnssOk g := by
  obtain ⟨hl, ts, a, g, hts, ha, hg, rfl⟩ := gnss_parse h
  obtain ⟨hl', rfl⟩ := (geo_accepts_iff _ _).1 hg
  have g1 := readInt24_spec ((sl d 5 11).take 3) (by simp; omega)
  have g2 := readInt24_spec ((sl d 5 11).drop 3) (by simp; omega)
  exact ⟨timeOk_read hts, fits_byte a, _, rfl, ⟨g1.1, g1.2.1⟩, ⟨g2.1, g2.2.1⟩⟩

theorem place_fields_read {raw d : Bytes} {ts : Option Timestamp} {e c r : UInt8} (hl : 10 ≤ d.length)
    (hts : unmarshalTimeReal (sl d 0 4) = .ok ts) : PlaceOk (placeOf raw d ts e c r) :=
  ⟨timeOk_read hts, ⟨e, enumOrUnrecognized_coded _ _⟩, ⟨c, enumOrUnrecognized_coded _ _⟩, rfl,
    fits_be (sl_length_of hl) (by decide)⟩

section
variable [Charmap]

omit [Charmap] in
theorem encoding_known (b : UInt8) (h : getEncodingFromCodePage b ≠ 1) : ∃ p ∈ Spec.codePages, p.2 = getEncodingFromCodePage b := by
  unfold getEncodingFromCodePage at h ⊢
  split at h <;> first | exact absurd rfl h | simp [Spec.codePages]

theorem text_read {d : Bytes} {s : StringValue} {w : Nat} (hw : w < 2 ^ 31) (hl : d.length = w + 1)
    (h : unmarshalStringValue d = .ok s) (hk : TextKnown s) : TextOk w s := by
  have h2 := (stringValue_accepts_iff d).1 ⟨s, h⟩
  match d, h2 with
  | b :: c :: t, _ =>
    rw [unmarshalStringValue_eq _ _ (by simp), Res.ok.injEq] at h
    subst h
    refine ⟨?_, encoding_known b hk, .inl ⟨_, rfl, hl⟩⟩
    simp only [List.length_cons] at hl
    simp only [wrap32, Option.some.injEq, List.length_cons]
    omega

theorem reg_read {d : Bytes} {v : VehicleRegistration} (h : unmarshalVehicleRegistration d = .ok v) (hk : RegKnown v) : RegOk v := by
  obtain ⟨n, c, t, rfl, ht, hn, s, hs, hm⟩ := registration_parse h
  refine ⟨?_, .inr ⟨s, hm, text_read (by decide) (by simp [ht]) hs (hk.2 s hm)⟩⟩
  have := hk.1
  rw [hn] at this ⊢
  exact named_of_or1 this

/-! ## Parsed files fit the format -/

omit [Charmap] in
theorem records_mem {α : Type} {f : Bytes → Res α} {h n : Nat} {d : Bytes} {rs : List α} (hr : RecordsAre f h n d rs) :
    ∀ r ∈ rs, ∃ x, f x = .ok r := by
  intro r hm
  obtain ⟨i, hi, rfl⟩ := List.getElem_of_mem hm
  exact ⟨_, hr.2 i hi⟩

omit [Charmap] in
theorem records_mem_sized {α : Type} {f : Bytes → Res α} {h n : Nat} {d : Bytes} {rs : List α} (hr : RecordsAre f h n d rs) (hn : 0 < n) :
    ∀ r ∈ rs, ∃ x, x.length = n ∧ f x = .ok r := by
  intro r hm
  obtain ⟨i, hi, rfl⟩ := List.getElem_of_mem hm
  refine ⟨_, ?_, hr.2 i hi⟩
  rw [hr.1] at hi
  unfold recordCount at hi
  unfold Spec.record
  rw [List.length_take, List.length_drop]
  have : (i + 1) * n ≤ d.length - h := (Nat.le_div_iff_mul_le hn).1 hi
  rw [Nat.succ_mul] at this
  omega

omit [Charmap] in
theorem icc_read {d : Bytes} {m : Icc} (h : unmarshalIcc d = .ok m) : IccOk m := by
  obtain ⟨hl, b, cs, my, t, et, mc, ap, p, cc, me, mi, hb, hcs, hmy, ht, het, hmc, hap, hp, hcc, hme, hmi, rfl⟩ := icc_parse h
  refine ⟨named_of_byte hcs, ⟨_, rfl, fits_be (sl_length_of (by omega)) (by decide), ⟨_, rfl, monthYear_read hmy⟩, named_of_byte het, fits_byte _⟩,
    ⟨_, rfl, ia5_read (by decide) (sl_length_of (by omega)) hap⟩, fits_byte _,
    ⟨_, rfl, ⟨_, rfl, ia5_read (by decide) (sl_length_of (by omega)) hcc⟩, ⟨_, rfl, ia5_read (by decide) (sl_length_of (by omega)) hme⟩, fits_byte _⟩,
    sl_length_of (by omega)⟩

omit [Charmap] in
theorem ic_read {d : Bytes} {m : Ic} (h : unmarshalIc d = .ok m) : IcOk m := by
  have hl : 8 ≤ d.length := by
    simp only [unmarshalIc, Res.pure_eq, guard_eq_ok, bind_eq_ok] at h
    omega
  obtain ⟨h1, h2⟩ := ic_fields d m h
  exact ⟨by rw [h1]; exact sl_length_of (by omega), by rw [h2]; exact sl_length_of (by omega)⟩

omit [Charmap] in
theorem appId_read {d : Bytes} {m : AppId} (h : unmarshalAppId d = .ok m) (hk : Each VersionDigits m.structureVersion) : AppIdOk m := by
  obtain ⟨hl, b, t, v, ev, fa, pr, hb, ht, hv, hev, hfa, hpr, rfl⟩ := appId_parse h
  exact ⟨named_of_byte ht, ⟨_, rfl, version_read hv (hk v rfl)⟩, ⟨_, rfl, fits_byte _, fits_byte _, fits_be (sl_length_of (by omega)) (by decide),
    fits_be (sl_length_of (by omega)) (by decide), fits_byte _⟩⟩

omit [Charmap] in
theorem appIdG2_read {d : Bytes} {m : AppIdG2} (h : unmarshalAppIdG2 d = .ok m) (hk : Each VersionDigits m.structureVersion) : AppIdG2Ok m := by
  obtain ⟨hl, b, t, v, ev, fa, hb, ht, hv, hev, hfa, rfl⟩ := appIdG2_parse h
  have f : ∀ a, a + 2 ≤ 17 → Fits 16 (beNat (sl d a (a + 2)) : Int) := fun a ha =>
    fits_be (k := 2) (by rw [sl_length_of (by omega)]; omega) (by decide)
  exact ⟨named_of_byte ht, ⟨_, rfl, version_read hv (hk v rfl)⟩, ⟨_, rfl, fits_byte _, fits_byte _, f 5 (by omega), f 7 (by omega), f 9 (by omega),
    f 11 (by omega), f 13 (by omega), f 15 (by omega)⟩⟩

omit [Charmap] in
theorem appIdV2_read {d : Bytes} {m : AppIdV2} (h : unmarshalAppIdV2 d = .ok m) : AppIdV2Ok m := by
  simp only [unmarshalAppIdV2, Res.pure_eq, guard_eq_ok, bind_eq_ok, Res.ok.injEq] at h
  obtain ⟨hl, a, _, b, _, c, _, e, _, rfl⟩ := h
  exact ⟨fits_byte _, fits_byte _, fits_byte _, fits_byte _⟩

omit [Charmap] in
theorem cardDownload_read {d : Bytes} {m : CardDownload} (h : unmarshalCardDownload d = .ok m) : TimeOk m.timestamp := by
  simp only [unmarshalCardDownload, Res.pure_eq, guard_eq_ok, bind_eq_ok, Res.ok.injEq] at h
  obtain ⟨hl, a, _, t, ht, rfl⟩ := h
  exact timeOk_read ht

theorem licence_read {d : Bytes} {m : DrivingLicenceInfo} (h : unmarshalDrivingLicenceInfo d = .ok m)
    (hk : NationKnown m.nation ∧ Each TextKnown m.authority) : LicenceOk m := by
  obtain ⟨hl, a, b, n, ha, hb, hn, rfl⟩ := drivingLicence_parse h
  exact ⟨⟨_, rfl, text_read (by decide) (sl_length_of (by omega)) ha (hk.2 a rfl)⟩, named_of_or1 hk.1, _, rfl,
    ia5_read (by decide) (sl_length_of (by omega)) hn⟩

theorem usage_read {d : Bytes} {m : CurrentUsage} (h : unmarshalCurrentUsage d = .ok m) (hk : Each RegKnown m.vehicle) : UsageOk m := by
  obtain ⟨hl, ts, reg, hts, hreg, rfl⟩ := currentUsage_parse h
  exact ⟨timeOk_read hts, _, rfl, reg_read hreg (hk _ rfl)⟩

omit [Charmap] in
theorem time_some {d : Bytes} {t : Option Timestamp} (h : unmarshalTimeReal d = .ok t) (hz : beNat d ≠ 0) : t ≠ none := by
  rw [timeReal_instant h]
  unfold instant
  rw [if_neg hz]
  simp

theorem control_read {d : Bytes} {m : ControlActivity} (h : unmarshalControlActivity d = .ok m) (hk : Each RegKnown m.registration) :
    ControlOk m := by
  by_cases hz : beNat (sl d 1 5) = 0
  · have hl : 46 ≤ d.length := by
      simp only [unmarshalControlActivity, Res.pure_eq, guard_eq_ok, bind_eq_ok] at h
      omega
    have h0 : ¬ d.length < 46 := by omega
    rw [unmarshalControlActivity, if_neg h0, sl?_ok (by omega) (by omega)] at h
    simp only [Res.pure_eq, Res.bind_ok, hz, if_true, Res.ok.injEq] at h
    subst h
    refine .inr ⟨rfl, fun _ => ?_⟩
    have hs : (sl d 1 5).length = 4 := sl_length_of (by omega)
    have : sl d 1 5 = beBytes 4 (beNat (sl d 1 5)) := by rw [← hs, beBytes_beNat]
    rw [hz] at this
    exact this
  · obtain ⟨hl, b, ct, ts, n, reg, pb, pe, hb, hct, hts, hn, hreg, hpb, hpe, rfl⟩ := controlActivity_parse h hz
    exact .inl ⟨rfl, ⟨_, rfl⟩, timeOk_read hts, time_some hts hz,
      ⟨_, rfl, _, rfl, rfl, _, rfl, _, rfl, ia5_read (by decide) (sl_length_of (by omega)) hn⟩, ⟨_, rfl, reg_read hreg (hk _ rfl)⟩,
      timeOk_read hpb, timeOk_read hpe⟩

theorem event_read {x : Bytes} {m : EventRecord} (hl : x.length = 24) (h : eventOf x = .ok m) (hk : Each RegKnown m.registration) : EventOk m := by
  unfold eventOf at h
  split at h
  · rename_i hz
    cases h
    refine .inr ⟨rfl, x, rfl, hl, ?_⟩
    have hs : (sl x 1 5).length = 4 := sl_length_of (by omega)
    have : sl x 1 5 = beBytes 4 (beNat (sl x 1 5)) := by rw [← hs, beBytes_beNat]
    rw [hz] at this
    exact this
  · rename_i hz
    obtain ⟨_, b, t, tb, te, reg, hb, ht, htb, hte, hreg, rfl⟩ := eventRecord_parse h
    exact .inl ⟨rfl, named_of_byte ht, timeOk_read htb, time_some htb hz, timeOk_read hte, _, rfl, reg_read hreg (hk _ rfl)⟩

theorem events_read {d : Bytes} {rs : List EventRecord} (hl : NeverMoved 24 d.length) (h : unmarshalEventsData d = .ok rs)
    (hk : ∀ r ∈ rs, Each RegKnown r.registration) : rs.length ≤ 170 ∧ ∀ r ∈ rs, EventOk r := by
  have hr := (events_ok_iff d hl rs).1 h
  refine ⟨?_, fun r hm => ?_⟩
  · have := hl.1
    rw [hr.1]; unfold recordCount; omega
  · obtain ⟨x, hx, hf⟩ := records_mem_sized hr (by omega) r hm
    exact event_read hx hf (hk r hm)

omit [Charmap] in
theorem activity_read {d : Bytes} {m : DriverActivityData} (hl : d.length ≤ 65530) (h : unmarshalDriverActivityData d = .ok m) : ActivityOk m := by
  obtain ⟨h4, ho, hn, hr, hp⟩ := (driverActivity_decode d m).1 h
  refine ⟨?_, .inl ⟨_, hr, ?_, ?_, ?_, hp⟩⟩
  · rw [ho]; exact fits_be (sl_length_of (by omega)) (by decide)
  · intro e
    have := congrArg List.length e
    simp at this
    omega
  · rw [List.length_drop]; omega
  · rw [hn]; exact fits_be (sl_length_of (by omega)) (by decide)

theorem vehicle_fields_read {d : Bytes} {m : CardVehicleRecord} (h : unmarshalCardVehicleFields d = .ok m) (hk : Each RegKnown m.registration) :
    m.rawData = some d ∧ CardVehicleOk m := by
  obtain ⟨hl, t1, t2, reg, c, ht1, ht2, hreg, hc, rfl⟩ := vehicleFields_parse h
  exact ⟨rfl, fits_be (sl_length_of (by omega)) (by decide), fits_be (sl_length_of (by omega)) (by decide), timeOk_read ht1, timeOk_read ht2,
    ⟨_, rfl, reg_read hreg (hk _ rfl)⟩, _, rfl, counter_read (sl_length_of (by omega)) hc⟩

theorem vehicles_read {d : Bytes} {m : RecordFile CardVehicleRecord} (hl : d.length ≤ 65530) (h : unmarshalVehiclesUsed d = .ok m)
    (hk : ∀ r ∈ m.records, Each RegKnown r.registration) :
    Fits 16 m.newest ∧ m.records.length ≤ 2113 ∧ ∀ r ∈ m.records, RawFits r.rawData 31 ∧ CardVehicleOk r := by
  obtain ⟨h2, -, hn, hr⟩ := (vehiclesUsed_ok_iff d m).1 h
  refine ⟨?_, ?_, fun r hm => ?_⟩
  · rw [hn]; exact fits_be (sl_length_of (by omega)) (by decide)
  · rw [hr.1]; unfold recordCount; omega
  · obtain ⟨x, hx, hf⟩ := records_mem_sized hr (by omega) r hm
    rw [unmarshalCardVehicleRecord, if_neg (by simp [hx])] at hf
    obtain ⟨g1, g2⟩ := vehicle_fields_read hf (hk r hm)
    exact ⟨fun r' hr' => .inr (by rw [g1] at hr'; cases hr'; exact hx), g2⟩

theorem vehiclesG2_read {d : Bytes} {m : RecordFile CardVehicleRecordG2} (hl : d.length ≤ 65530) (h : unmarshalVehiclesUsedG2 d = .ok m)
    (hk : ∀ r ∈ m.records, Each RegKnown r.base.registration) :
    Fits 16 m.newest ∧ m.records.length ≤ 1365 ∧ ∀ r ∈ m.records, RawFits r.base.rawData 48 ∧ CardVehicleOk r.base ∧ VinOk r.vin := by
  obtain ⟨h2, -, hn, hr⟩ := (vehiclesUsedG2_ok_iff d m).1 h
  refine ⟨?_, ?_, fun r hm => ?_⟩
  · rw [hn]; exact fits_be (sl_length_of (by omega)) (by decide)
  · rw [hr.1]; unfold recordCount; omega
  · obtain ⟨x, hx, hf⟩ := records_mem_sized hr (by omega) r hm
    have hk' := hk r hm
    obtain ⟨_, b, hb, rfl⟩ := cardVehicleG2_parse hf
    obtain ⟨g1, g2⟩ := vehicle_fields_read hb hk'
    obtain ⟨f, e1, -, e3⟩ := trimNulSpace_spec (sl x 31 48)
    refine ⟨fun r' hr' => .inr (by rw [g1] at hr'; cases hr'; exact hx), g2, ?_, fun b t => e3 t b⟩
    have hs : (sl x 31 48).length = 17 := sl_length_of (by omega)
    rw [e1, List.length_append] at hs
    show (trimNulSpace (sl x 31 48)).length ≤ 17
    omega

omit [Charmap] in
theorem places_read {d : Bytes} {m : RecordFile PlaceRecord} (hl : d.length ≤ 65530) (h : unmarshalPlaces d = .ok m) :
    Fits 8 m.newest ∧ m.records.length ≤ 6552 ∧ ∀ r ∈ m.records, RawFits r.rawData 10 ∧ PlaceOk r := by
  obtain ⟨h2, -, hn, hr⟩ := (places_ok_iff d m).1 h
  refine ⟨?_, ?_, fun r hm => ?_⟩
  · rw [hn]; exact fits_be (sl_length_of (by omega)) (by decide)
  · rw [hr.1]; unfold recordCount; omega
  · obtain ⟨x, hf⟩ := records_mem hr r hm
    obtain ⟨hx, ts, e, c, g, hts, _, _, _, rfl⟩ := place_parse hf
    exact ⟨fun r' hr' => .inr (by cases hr'; exact hx), place_fields_read (by omega) hts⟩

omit [Charmap] in
theorem placesG2_read {d : Bytes} {m : RecordFile PlaceRecordG2} (hl : d.length ≤ 65530) (h : unmarshalPlacesG2 d = .ok m) :
    Fits 16 m.newest ∧ m.records.length ≤ 3120 ∧ ∀ r ∈ m.records, RawFits r.base.rawData 21 ∧ PlaceOk r.base ∧ Has GnssOk r.gnss := by
  obtain ⟨h2, -, hn, hr⟩ := (placesG2_ok_iff d m).1 h
  refine ⟨?_, ?_, fun r hm => ?_⟩
  · rw [hn]; exact fits_be (sl_length_of (by omega)) (by decide)
  · rw [hr.1]; unfold recordCount; omega
  · obtain ⟨x, hf⟩ := records_mem hr r hm
    obtain ⟨hx, ts, e, c, g, gn, hts, _, _, _, hg, rfl⟩ := placeG2_parse hf
    exact ⟨fun r' hr' => .inr (by cases hr'; exact hx), place_fields_read (by omega) hts, _, rfl, gnss_read hg⟩

omit [Charmap] in
theorem conditions_file_read {d : Bytes} {m : RecordFile SpecificConditionRecord} (hl : d.length ≤ 65530)
    (h : unmarshalSpecificConditions d = .ok m) : m.records.length ≤ 13106 ∧ ∀ r ∈ m.records, ConditionOk r := by
  obtain ⟨-, -, hr⟩ := (specificConditions_ok_iff d m).1 h
  refine ⟨?_, fun r hm => ?_⟩
  · rw [hr.1]; unfold recordCount; omega
  · obtain ⟨x, hf⟩ := records_mem hr r hm
    exact condition_read hf

omit [Charmap] in
theorem gnssPlaces_read {d : Bytes} {m : Int × List GnssPlaceEntry} (hl : d.length ≤ 65530)
    (h : unmarshalGnssPlaces d = .ok m) (hk : ∀ r ∈ m.2, r.odometerKm ≤ 999999) :
    Fits 16 m.1 ∧ m.2.length ≤ 3640 ∧ ∀ r ∈ m.2, GnssEntryOk r := by
  obtain ⟨n, rs⟩ := m
  obtain ⟨h2, -, hn, hr⟩ := (gnssPlaces_ok_iff d n rs).1 h
  refine ⟨?_, ?_, fun r hm => ?_⟩
  · rw [hn]; exact fits_be (sl_length_of (by omega)) (by decide)
  · show rs.length ≤ 3640
    rw [hr.1]; unfold recordCount; omega
  · obtain ⟨x, hf⟩ := records_mem hr r hm
    have hk' := hk r hm
    obtain ⟨hx, ts, g, hts, hg, rfl⟩ := gnssEntry_parse hf
    exact ⟨timeOk_read hts, ⟨_, rfl, gnss_read hg⟩, by simp only; omega, hk'⟩

omit [Charmap] in
theorem units_read {d : Bytes} {m : Int × List VehicleUnitRecord} (hl : d.length ≤ 4098)
    (h : unmarshalVehicleUnitsUsed d = .ok m) : Fits 16 m.1 ∧ m.2.length ≤ 409 ∧ ∀ r ∈ m.2, UnitOk r := by
  obtain ⟨n, rs⟩ := m
  obtain ⟨h2, -, hn, hr⟩ := (vehicleUnits_ok_iff d (by omega) n rs).1 h
  refine ⟨?_, ?_, fun r hm => ?_⟩
  · rw [hn]; exact fits_be (sl_length_of (by omega)) (by decide)
  · show rs.length ≤ 409
    rw [hr.1]; unfold recordCount; omega
  · obtain ⟨x, hx, hf⟩ := records_mem_sized hr (by omega) r hm
    cases hf
    have hts : TimeOk (instant (sl x 0 4)) := by
      obtain ⟨ts, hts⟩ := (timeReal_accepts_iff (sl x 0 4)).2 (sl_length_of (by omega))
      have := timeOk_read hts
      rw [timeReal_instant hts] at this
      exact this
    exact ⟨hts, fits_byte _, sl_length_of (by omega), sl_length_of (by omega)⟩

omit [Charmap] in
theorem rsa_read {d : Bytes} {m : RsaCert} (h : unmarshalRsa d = .ok m) : RsaOk m := by
  obtain ⟨b, r, rfl, hb, hr, -, hm⟩ := (rsa_parse_iff d m).1 h
  right
  rw [hm]
  simp only [List.length_append]
  omega

omit [Charmap] in
theorem ecc_read {d : Bytes} {m : EccCert} (h : unmarshalEcc d = .ok m) : EccOk m := by
  obtain ⟨_, _, f, full, _, hr⟩ := (ecc_parse_iff _ _).1 h
  have : m.raw = d := hr.2.2.2.2.2.2.2.2.1
  exact .inr (.inr ⟨m, by rw [this]; exact h⟩)

theorem identification_read {d : Bytes} {m : Identification} (h : unmarshalIdentification d = .ok m) (hk : IdentificationKnown m) :
    IdentificationOk m := by
  obtain ⟨hl, b, ct, dr, ow, au, ti, tb, te, sn, fn, bd, la, hb, hcn, hau, hti, htb, hte, hsn, hfn, hbd, hla, rfl⟩ := identification_parse h
  obtain ⟨k1, k2⟩ := hk
  obtain ⟨kn, ka, kd, ko⟩ := k1 _ rfl
  obtain ⟨ks, kf, kb⟩ := k2 _ rfl
  refine ⟨⟨_, rfl, named_of_or1 kn, ?_, ⟨_, rfl, text_read (by decide) (sl_length_of (by omega)) hau (ka _ rfl)⟩, timeOk_read hti, timeOk_read htb,
    timeOk_read hte⟩, ⟨_, rfl, ⟨_, rfl, text_read (by decide) (sl_length_of (by omega)) hsn (ks _ rfl)⟩,
    ⟨_, rfl, text_read (by decide) (sl_length_of (by omega)) hfn (kf _ rfl)⟩, ⟨_, rfl, date_read hbd (kb _ rfl)⟩,
    ⟨_, rfl, ia5_read (by decide) (sl_length_of (by omega)) hla⟩⟩⟩
  have hx : (sl d 1 17).length = 16 := sl_length_of (by omega)
  generalize sl d 1 17 = x at hcn hx
  obtain ⟨p1, p2⟩ := cardNumber_parse x hx
  simp only at kd ko ⊢
  by_cases hd : ByteAt x 14 Digit ∧ ByteAt x 15 Digit
  · obtain ⟨n, r, w, hn, hr, hw, he⟩ := p1 hd
    rw [he, Res.ok.injEq, Prod.mk.injEq, Prod.mk.injEq] at hcn
    obtain ⟨-, rfl, rfl⟩ := hcn
    obtain ⟨⟨b1, e1, d1⟩, b2, e2, d2⟩ := hd
    rw [sl_one e1] at hr
    rw [sl_one e2] at hw
    exact .inl ⟨⟨_, rfl, ⟨_, rfl, number_read hn (kd _ rfl _ rfl)⟩,
      ⟨_, rfl, b1, index_read hr (digit_ascii d1) (digit_not_blank d1), d1⟩,
      ⟨_, rfl, b2, index_read hw (digit_ascii d2) (digit_not_blank d2), d2⟩⟩, rfl⟩
  · obtain ⟨n, c, r, w, hn, hc, hr, hw, he⟩ := p2 hd
    rw [he, Res.ok.injEq, Prod.mk.injEq, Prod.mk.injEq] at hcn
    obtain ⟨-, rfl, rfl⟩ := hcn
    obtain ⟨b0, e0⟩ := byte_at (d := x) (i := 13) (by omega)
    obtain ⟨b1, e1⟩ := byte_at (d := x) (i := 14) (by omega)
    obtain ⟨b2, e2⟩ := byte_at (d := x) (i := 15) (by omega)
    rw [sl_one e0] at hc
    rw [sl_one e1] at hr
    rw [sl_one e2] at hw
    refine .inr ⟨rfl, _, rfl, ⟨_, rfl, number_read hn (ko _ rfl _ rfl)⟩,
      ⟨_, rfl, (index_text hc).1⟩, ⟨_, rfl, (index_text hr).1⟩, ⟨_, rfl, (index_text hw).1⟩, ?_⟩
    rintro ⟨⟨_, ⟨⟩, x1, v1, d1⟩, ⟨_, ⟨⟩, x2, v2, d2⟩⟩
    rw [(index_text hr).2 x1 v1] at d1
    rw [(index_text hw).2 x2 v2] at d2
    exact hd ⟨⟨b1, e1, d1⟩, b2, e2, d2⟩

/-! ## The parts of a parsed card -/

omit [Charmap] in
theorem newest_some {bs : List Block} {here : Block → Bool} {b : Block} (h : newest bs here = some b) : b ∈ bs ∧ here b = true := by
  have := List.mem_of_getLast? h
  rwa [List.mem_filter] at this

omit [Charmap] in
theorem each_newest {α : Type} {bs : List Block} {here : Block → Bool} {p : Bytes → Res α} {P : α → Prop}
    (h : ∀ b ∈ bs, here b = true → ∀ m, p b.data.value = .ok m → P m) : Each P ((newest bs here).bind (Block.read p)) := by
  intro m hm
  obtain ⟨b, hb, hr⟩ := Option.bind_eq_some_iff.1 hm
  obtain ⟨h1, h2⟩ := newest_some hb
  refine h b h1 h2 m ?_
  unfold Block.read at hr
  split at hr
  · rename_i hp
    cases hr
    exact hp
  · cases hr

omit [Charmap] in
theorem each_newest_signed {α : Type} {bs : List Block} {here : Block → Bool} {p : Bytes → Res α} {K P : α → Prop}
    (hk : EachData K ((newest bs here).bind (Block.readSigned p)))
    (h : ∀ b ∈ bs, here b = true → ∀ m, p b.data.value = .ok m → K m → P m) : EachData P ((newest bs here).bind (Block.readSigned p)) := by
  intro m hm
  have hk' := hk m hm
  obtain ⟨b, hb, hr⟩ := Option.bind_eq_some_iff.1 hm
  obtain ⟨h1, h2⟩ := newest_some hb
  unfold Block.readSigned at hr
  obtain ⟨x, hx, rfl⟩ := Option.map_eq_some_iff.1 hr
  refine h b h1 h2 x ?_ hk'
  unfold Block.read at hx
  split at hx
  · rename_i hp
    cases hx
    exact hp
  · cases hx

omit [Charmap] in
theorem each_newest_signed' {α : Type} {bs : List Block} {here : Block → Bool} {p : Bytes → Res α} {P : α → Prop}
    (h : ∀ b ∈ bs, here b = true → ∀ m, p b.data.value = .ok m → P m) : EachData P ((newest bs here).bind (Block.readSigned p)) :=
  each_newest_signed (K := fun _ => True) (fun _ _ => trivial) fun b h1 h2 m h3 _ => h b h1 h2 m h3

omit [Charmap] in
theorem mapFid_not_ma (n : Nat) : mapFid n ≠ .cardMaCertificate := by
  intro h
  have hn : n = 0xC100 := by
    unfold mapFid at h
    split at h
    · rename_i p hp
      have h1 : ∀ p ∈ efTable, p.1 = .cardMaCertificate → p.2 % 65536 = 0xC100 := by decide
      have h2 := List.find?_some hp
      rw [← h1 p (List.mem_of_find?_eq_some hp) h]
      have h3 : p.2 % 65536 = n := by simpa using h2
      exact h3.symm
    · cases h
  subst hn
  exact absurd h (by decide)

/-- A parsed driver card comes from blocks whose records the file holds. -/
theorem parsed_card_blocks {d : Bytes} {c : DriverCard} (h : unmarshalFile d = .ok { type := .driverCard, driverCard := some c }) :
    ∃ rs : List Tlv, ∃ bs, d = fileBytes rs ∧ (∀ r ∈ rs, r.value.length ≤ 65530) ∧ unmarshalRawCardFile d = .ok (rs.map Tlv.record) ∧
      rs.map Tlv.record = bs.flatMap Block.records ∧ (∀ b ∈ bs, b.Good ∧ b.Readable) ∧ c = cardOf bs ∧
      (∃ b rest, bs = b :: rest ∧ b.data.file = .icc) := by
  rcases (file_iff _ _).1 h with ⟨_, _, _, _, hf⟩ | ⟨rest, raw, hd, hraw, ⟨_, card, hcard, hf⟩ | ⟨_, hf⟩⟩
  · simp at hf
  · simp only [File.mk.injEq, Option.some.injEq, true_and] at hf
    obtain ⟨rfl, -⟩ := hf
    rcases card_file_cases d with ⟨rs, h1, h2, h3⟩ | ⟨_, _, _, _, _, _, h3⟩ | ⟨_, _, _, _, _, _, _, h3⟩
    · rw [h3, Res.ok.injEq] at hraw
      subst hraw
      obtain ⟨bs, hbs, hg, hc⟩ := (driver_card_iff _ _).1 hcard
      refine ⟨rs, bs, h2, h1, h3, hbs, hg, hc, ?_⟩
      cases rs with
      | nil => rw [h2] at hd; simp [fileBytes] at hd
      | cons r rs =>
        rw [h2] at hd
        simp only [fileBytes, List.flatMap_cons, Tlv.bytes, List.cons_append, List.cons.injEq] at hd
        cases bs with
        | nil => simp at hbs
        | cons b bs =>
          refine ⟨b, bs, rfl, ?_⟩
          simp only [List.map_cons, List.flatMap_cons, Block.records, List.cons_append, List.cons.injEq] at hbs
          rw [← hbs.1]
          simp only [Tlv.record, hd.1, hd.2.1]
          decide
    · rw [h3] at hraw; cases hraw
    · rw [h3] at hraw; cases hraw
  · simp at hf

theorem parsed_card_fits {d : Bytes} {raws : List RawRec} {c : DriverCard}
    (h : unmarshalFile d = .ok { type := .driverCard, driverCard := some c }) (hr : unmarshalRawCardFile d = .ok raws) (hm : Unmoved raws)
    (hk : CardKnown c) : CardOk c := by
  obtain ⟨rs, bs, -, hs, hr', hbs, hg, rfl, b0, rest, hb0, hicc⟩ := parsed_card_blocks h
  rw [hr, Res.ok.injEq] at hr'
  have hin : ∀ b ∈ bs, ∃ r ∈ rs, b.data = r.record := by
    intro b hb
    have : b.data ∈ rs.map Tlv.record := by
      rw [hbs, List.mem_flatMap]
      exact ⟨b, hb, by simp [Block.records]⟩
    obtain ⟨r, h1, h2⟩ := List.mem_map.1 this
    exact ⟨r, h1, h2.symm⟩
  have hlen : ∀ b ∈ bs, b.data.value.length ≤ 65530 := by
    intro b hb
    obtain ⟨r, h1, h2⟩ := hin b hb
    rw [h2]; exact hs r h1
  have hun : ∀ b ∈ bs, (b.data.generation = .gen1 → b.data.file = .eventsData ∨ b.data.file = .faultsData → NeverMoved 24 b.data.value.length) ∧
      (b.data.file = .vehicleUnitsUsed → b.data.value.length ≤ 4098) := by
    intro b hb
    obtain ⟨r, h1, h2⟩ := hin b hb
    exact hm b.data (by rw [hr', h2]; exact List.mem_map_of_mem h1)
  have hgen : ∀ {b : Block} {f : EF} {g : Generation}, fileGen f g b = true → b.data.file = f ∧ b.data.generation = g := by
    intro b f g hb
    simpa [fileGen] using hb
  have k1 := gen1_getD bs
  have k2 := gen2_getD bs
  obtain ⟨c1, c2, c3, c4, c5, c6, c7, c8, c9, c10, c11⟩ := hk
  rw [k1] at c1 c2 c3 c4 c5 c6 c7 c8
  rw [k2] at c9 c10 c11
  refine ⟨?_, each_newest fun b _ _ m hm => ic_read hm, ?_, ?_⟩
  · have hne : bs.filter (file .icc) ≠ [] := by
      rw [hb0]
      simp [file, hicc]
    obtain ⟨l, b, hb⟩ : ∃ l b, bs.filter (file .icc) = l ++ [b] := by
      rcases List.eq_nil_or_concat (bs.filter (file .icc)) with h | ⟨l, b, h⟩
      · exact absurd h hne
      · exact ⟨l, b, by simpa using h⟩
    have hnew : newest bs (file .icc) = some b := by simp [newest, hb]
    obtain ⟨m1, m2⟩ := newest_some hnew
    have hread := (hg b m1).2
    have hf : b.data.file = .icc := by simpa [file] using m2
    unfold Block.Readable at hread
    rw [hf] at hread
    obtain ⟨-, x, hx⟩ := hread
    exact ⟨x, by simp [cardOf, hnew, Block.read, hx], icc_read hx⟩
  · rw [k1]
    exact {
      applicationIdentification := each_newest_signed c1 fun b _ _ m hm hk => appId_read hm hk
      identification := each_newest_signed c2 fun b _ _ m hm hk => identification_read hm hk
      drivingLicenceInfo := each_newest_signed c3 fun b _ _ m hm hk => licence_read hm hk
      eventsData := each_newest_signed c4 fun b hb hf m hm hk => events_read ((hun b hb).1 (hgen hf).2 (.inl (hgen hf).1)) hm hk
      faultsData := each_newest_signed c5 fun b hb hf m hm hk => events_read ((hun b hb).1 (hgen hf).2 (.inr (hgen hf).1)) hm hk
      driverActivityData := each_newest_signed' fun b hb _ m hm => activity_read (hlen b hb) hm
      vehiclesUsed := each_newest_signed c6 fun b hb _ m hm hk => vehicles_read (hlen b hb) hm hk
      places := each_newest_signed' fun b hb _ m hm => places_read (hlen b hb) hm
      currentUsage := each_newest_signed c7 fun b _ _ m hm hk => usage_read hm hk
      controlActivityData := each_newest_signed c8 fun b _ _ m hm hk => control_read hm hk
      specificConditions := each_newest_signed' fun b hb _ m hm => conditions_file_read (hlen b hb) hm
      cardDownload := each_newest fun b _ _ m hm => cardDownload_read hm
      cardCertificate := each_newest fun b _ _ m hm => rsa_read hm
      caCertificate := each_newest fun b _ _ m hm => rsa_read hm }
  · rw [k2]
    exact {
      applicationIdentification := each_newest_signed c9 fun b _ _ m hm hk => appIdG2_read hm hk
      vehiclesUsed := each_newest_signed c10 fun b hb _ m hm hk => vehiclesG2_read (hlen b hb) hm hk
      places := each_newest_signed' fun b hb _ m hm => placesG2_read (hlen b hb) hm
      specificConditions := each_newest_signed' fun b hb _ m hm => .inl ⟨_, hlen b hb, hm⟩
      vehicleUnitsUsed := each_newest_signed' fun b hb hf m hm => units_read ((hun b hb).2 (by simpa [file] using hf)) hm
      gnssPlaces := each_newest_signed c11 fun b hb _ m hm hk => gnssPlaces_read (hlen b hb) hm hk
      applicationIdentificationV2 := each_newest_signed' fun b _ _ m hm => appIdV2_read hm
      cardMaCertificate := each_newest fun b hb hf m hm => by
        obtain ⟨r, -, h2⟩ := hin b hb
        have := (hgen hf).1
        rw [h2] at this
        exact absurd this (mapFid_not_ma _)
      cardSignCertificate := each_newest fun b _ _ m hm => ecc_read hm
      caCertificate := each_newest fun b _ _ m hm => ecc_read hm
      linkCertificate := each_newest fun b _ _ m hm => ecc_read hm }

/-! ## The property -/

/-- C67: a driver card that was read from a file is written without an error, and reading the new file gives the same
contents, provided that every nation, code page and digit in the parts that are written was recognised (`CardKnown`) and
the files that are read record by record have sizes of the regulation (`Unmoved`). -/
theorem driver_card_read_write_read (d : Bytes) (raws : List RawRec) (c : DriverCard)
    (h : unmarshalFile d = .ok { type := .driverCard, driverCard := some c }) (hr : unmarshalRawCardFile d = .ok raws) (hm : Unmoved raws)
    (hk : CardKnown c) :
    ∃ out c', marshalFile (some { type := .driverCard, driverCard := some c }) = .ok out ∧
      unmarshalFile out = .ok { type := .driverCard, driverCard := some c' } ∧ SameCard c c' :=
  driver_card_write_read c (parsed_card_fits h hr hm hk)

end

end Tacho
