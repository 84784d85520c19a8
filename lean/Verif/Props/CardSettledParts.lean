import Verif.Spec.CardSettled
import Verif.Props.Reduce
import Verif.Props.CardAgain
import Verif.Props.CardStable
/-!
# C67, C70: the parts of a parsed card after it was written
-/

namespace Tacho
open Spec Spec.Regulation

/-! ## Text that is cut off -/

/-- No character begins with a continuation byte. -/
theorem reads_continuation {s : Bytes} {ss : List Symbol} (h : Reads s ss) (hs : ∀ x ∈ s, isCont x = true) : ∀ x ∈ ss, ∃ b, x = .stray b := by
  induction h with
  | nil => simp
  | @char c rest ss _ ih =>
    obtain ⟨b, t, hb, hc, -⟩ := enc_shape c
    rw [hb] at hs
    have := hs b (by simp)
    rw [hc] at this
    cases this
  | @stray b rest ss _ _ ih =>
    intro x hx
    rcases List.mem_cons.1 hx with rfl | hx
    · exact ⟨b, rfl⟩
    · exact ih (fun y hy => hs y (by simp [hy])) x hx

/-- The beginning of a text of whole characters: characters, then what is left of one. -/
theorem reads_beginning {s : Bytes} {ss : List Symbol} (h : Reads s ss) : ∀ (cs : List Char) (rest : Bytes),
    s ++ rest = cs.flatMap String.utf8EncodeChar → ∃ (a : List Char) (b : List Symbol), ss = a.map .char ++ b ∧ ∀ x ∈ b, ∃ y, x = .stray y := by
  induction h with
  | nil => exact fun _ _ _ => ⟨[], [], rfl, by simp⟩
  | @char c r ss _ ih =>
    intro cs rest he
    cases cs with
    | nil => simp at he
    | cons d cs =>
      rw [List.flatMap_cons, List.append_assoc] at he
      obtain ⟨rfl, he'⟩ := enc_prefix he
      obtain ⟨a, b, rfl, hb⟩ := ih cs rest he'
      exact ⟨c :: a, b, rfl, hb⟩
  | @stray b r ss hb hr ih =>
    intro cs rest he
    refine ⟨[], .stray b :: ss, rfl, ?_⟩
    cases cs with
    | nil => simp at he
    | cons d cs =>
      rw [List.flatMap_cons] at he
      obtain ⟨x, t, hx, -, ht, -⟩ := enc_shape d
      have hp : r <+: t ∨ ∃ more, b :: r = String.utf8EncodeChar d ++ more := by
        rcases List.append_eq_append_iff.1 he with ⟨m, h1, -⟩ | ⟨m, h1, -⟩
        · left
          rw [hx] at h1
          simp only [List.cons_append, List.cons.injEq] at h1
          exact ⟨m, h1.2.symm⟩
        · exact .inr ⟨m, h1⟩
      rcases hp with ⟨m, rfl⟩ | ⟨more, hm⟩
      · intro y hy
        rcases List.mem_cons.1 hy with rfl | hy
        · exact ⟨b, rfl⟩
        · exact reads_continuation hr (fun z hz => ht z (by simp [hz])) y hy
      · exact absurd hm (hb d more)

/-- What is shown for the first bytes of a text of whole characters is no longer than those bytes. -/
theorem shows_beginning {v t : Bytes} {w : Nat} (hv : WholeText v) (h : Shows (v.take w) t) : t.length ≤ w := by
  obtain ⟨cs, rfl, -⟩ := hv
  obtain ⟨p, m, q, hr, -, -, -, h2, rfl⟩ := h
  obtain ⟨a, b, hab, hb⟩ := reads_beginning hr cs _ (List.take_append_drop w _)
  have hm : ∃ a' : List Char, m = a'.map .char := by
    rcases List.eq_nil_or_concat m with rfl | ⟨m', x, rfl⟩
    · exact ⟨[], rfl⟩
    · rw [List.concat_eq_append] at *
      have hx := h2 x m' rfl
      have hc : ∃ c, x = .char c := by
        cases x with
        | char c => exact ⟨c, rfl⟩
        | stray y => exact absurd trivial hx
      obtain ⟨c, rfl⟩ := hc
      have hall : ∀ y ∈ m' ++ [Symbol.char c], ∃ d, y = .char d := by
        rw [show p ++ (m' ++ [Symbol.char c]) ++ q = (p ++ m') ++ ([.char c] ++ q) by simp] at hab
        rcases List.append_eq_append_iff.1 hab with ⟨n, h3, h4⟩ | ⟨n, h3, h4⟩
        · intro y hy
          rcases List.mem_append.1 hy with hy | hy
          · have : y ∈ a.map Symbol.char := by rw [h3]; simp [hy]
            obtain ⟨d, -, rfl⟩ := List.mem_map.1 this
            exact ⟨d, rfl⟩
          · exact ⟨c, by simpa using hy⟩
        · have : Symbol.char c ∈ b := by rw [h4]; simp
          obtain ⟨y, hy⟩ := hb _ this
          cases hy
      clear hab h2 hr hx
      generalize m' ++ [Symbol.char c] = l at hall
      induction l with
      | nil => exact ⟨[], rfl⟩
      | cons y l ih =>
        obtain ⟨l', hl'⟩ := ih fun z hz => hall z (by simp [hz])
        obtain ⟨d, rfl⟩ := hall y (by simp)
        exact ⟨d :: l', by rw [hl']; rfl⟩
  obtain ⟨a', rfl⟩ := hm
  rw [shown_chars]
  have hbytes := congrArg List.length (reads_bytes hr)
  rw [List.flatMap_append, List.flatMap_append, List.flatMap_map, List.length_append, List.length_append, List.length_take] at hbytes
  have : (a'.flatMap fun c => Symbol.bytes (.char c)) = a'.flatMap String.utf8EncodeChar := rfl
  rw [this] at hbytes
  omega

/-- A number that fits is shown as it is. -/
theorem num_fits {num : Nat → Bytes → Bytes} (hnum : ShowsCut num) {w : Nat} {v : Bytes} (hv : WholeText v) (hl : v.length ≤ w) : num w v = v := by
  have h1 := hnum w v
  rw [List.take_of_length_le hl] at h1
  have h2 := whole_shows 0 hv
  rw [List.replicate_zero, List.append_nil] at h2
  exact ((cleaned_iff _ _).2 h1).symm.trans ((cleaned_iff _ _).2 h2)

/-- What is shown of a number that was cut off fits. -/
theorem num_ok {num : Nat → Bytes → Bytes} (hnum : ShowsCut num) {w : Nat} {s : Ia5StringValue} (hv : WholeText s.value) :
    NumberOk w { s with value := num w s.value } :=
  ⟨shows_beginning hv (hnum w _), shows_whole (hnum w _)⟩

/-- A number written into `w` bytes, and read. -/
theorem num_pad {num : Nat → Bytes → Bytes} (hnum : ShowsCut num) {w : Nat} (h0 : 0 < w) {s : Ia5StringValue} (hv : WholeText s.value) :
    ∃ e s', e.length = w ∧ padSpaces (s.value.take w) w = e ∧ unmarshalIa5StringValue e = .ok s' ∧ SameValue { s with value := num w s.value } s' := by
  by_cases hl : s.value.length ≤ w
  · obtain ⟨e, s', h1, h2, h3, h4⟩ := number_pad h0 (s := s) ⟨hl, hv⟩
    exact ⟨e, s', h1, h2, h3, h4.trans (num_fits hnum hv hl).symm⟩
  · have hlen : (s.value.take w).length = w := by simp; omega
    refine ⟨s.value.take w, ⟨some (s.value.take w), some (wrap32 (s.value.take w).length), num w s.value⟩, hlen, by simp [padSpaces, hlen], ?_, rfl⟩
    rw [ia5_value_iff]
    exact ⟨fun hc => by rw [hc] at hlen; simp at hlen; omega, rfl, rfl, hnum w _⟩

/-! ## Fields -/

theorem text_settle (dst : Bytes) (s : Option StringValue) : appendStringValue dst (s.map settledText) = appendStringValue dst s := by
  cases s with
  | none => rfl
  | some s =>
    obtain ⟨e, r, l, v⟩ := s
    by_cases he : e = 1
    · subst he
      rfl
    · simp [settledText, he]

theorem reg_settle (dst : Bytes) (v : VehicleRegistration) : appendVehicleRegistration dst (some (settledReg v)) = appendVehicleRegistration dst (some v) := by
  have : ∀ d, appendStringValue d (some ((v.number.map settledText).getD emptyVrn)) = appendStringValue d (some (v.number.getD emptyVrn)) := by
    intro d
    cases v.number with
    | none => rfl
    | some s => exact text_settle d (some s)
  simp only [appendVehicleRegistration, settledReg, this]

theorem i2b_same {a b : Int} (h : a % 256 = b % 256) : i2b a = i2b b := by
  unfold i2b
  rw [h]

theorem version_settle (dst : Bytes) (v : CardStructureVersion) (h : 0 ≤ v.major ∧ 0 ≤ v.minor) :
    appendCardStructureVersion dst (settledVersion v) = appendCardStructureVersion dst v := by
  obtain ⟨r, a, b⟩ := v
  obtain ⟨h1, h2⟩ := h
  simp only at h1 h2
  have key : ∀ a : Int, 0 ≤ a → i2b ((a % 160).tdiv 10 * 16) ||| i2b ((a % 160).tmod 10) = i2b (a.tdiv 10 * 16) ||| i2b (a.tmod 10) := by
    intro a ha
    rw [Int.tdiv_eq_ediv_of_nonneg (by omega), Int.tdiv_eq_ediv_of_nonneg ha, Int.tmod_eq_emod_of_nonneg (by omega), Int.tmod_eq_emod_of_nonneg ha,
      i2b_same (a := a % 160 / 10 * 16) (b := a / 10 * 16) (by omega), i2b_same (a := a % 160 % 10) (b := a % 10) (by omega)]
  simp only [appendCardStructureVersion, settledVersion, key a h1, key b h2]

theorem date_settle (dst : Bytes) (v : Date) (h : 0 ≤ v.year ∧ 0 ≤ v.month ∧ 0 ≤ v.day) : appendDate dst (settledDate v) = appendDate dst v := by
  obtain ⟨r, a, b, c⟩ := v
  obtain ⟨h1, h2, h3⟩ := h
  simp only at h1 h2 h3
  have k1 : ∀ m : Int, ∀ a : Int, 0 ≤ a → 0 < m → (a.tdiv m).tmod 10 = a / m % 10 := by
    intro m a ha hm
    rw [Int.tdiv_eq_ediv_of_nonneg ha, Int.tmod_eq_emod_of_nonneg (Int.ediv_nonneg ha (by omega))]
  have k2 : ∀ a : Int, 0 ≤ a → a.tmod 10 = a % 10 := fun a ha => Int.tmod_eq_emod_of_nonneg ha
  have g1 : 0 ≤ a % 10000 := by omega
  have g2 : 0 ≤ b % 100 := by omega
  have g3 : 0 ≤ c % 100 := by omega
  simp only [appendDate, settledDate, k1 1000 _ h1 (by omega), k1 100 _ h1 (by omega), k1 10 _ h1 (by omega), k1 10 _ h2 (by omega), k1 10 _ h3 (by omega),
    k1 1000 _ g1 (by omega), k1 100 _ g1 (by omega), k1 10 _ g1 (by omega), k1 10 _ g2 (by omega), k1 10 _ g3 (by omega),
    k2 _ h1, k2 _ h2, k2 _ h3, k2 _ g1, k2 _ g2, k2 _ g3]
  have e1 : a % 10000 / 1000 % 10 = a / 1000 % 10 := by omega
  have e2 : a % 10000 / 100 % 10 = a / 100 % 10 := by omega
  have e3 : a % 10000 / 10 % 10 = a / 10 % 10 := by omega
  have e4 : a % 10000 % 10 = a % 10 := by omega
  have e5 : b % 100 / 10 % 10 = b / 10 % 10 := by omega
  have e6 : b % 100 % 10 = b % 10 := by omega
  have e7 : c % 100 / 10 % 10 = c / 10 % 10 := by omega
  have e8 : c % 100 % 10 = c % 10 := by omega
  rw [e1, e2, e3, e4, e5, e6, e7, e8]

theorem version_settled {d : Bytes} {v : CardStructureVersion} (h : unmarshalCardStructureVersion d = .ok v) :
    VersionOk (settledVersion v) ∧ 0 ≤ v.major ∧ 0 ≤ v.minor := by
  simp only [unmarshalCardStructureVersion, Res.pure_eq, guard_eq_ok, bind_eq_ok, Res.ok.injEq] at h
  obtain ⟨hl, a, _, b, _, rfl⟩ := h
  simp only [settledVersion, bcd2]
  refine ⟨⟨?_, ?_, ?_, ?_, ?_⟩, ?_, ?_⟩
  · intro r hr; cases hr; simpa using hl
  all_goals (try dsimp only) <;> omega

theorem date_settled {d : Bytes} {v : Date} (h : unmarshalDate d = .ok v) : DateOk (settledDate v) ∧ 0 ≤ v.year ∧ 0 ≤ v.month ∧ 0 ≤ v.day := by
  simp only [unmarshalDate, Res.pure_eq, guard_eq_ok, bind_eq_ok, Res.ok.injEq] at h
  obtain ⟨hl, a, _, b, _, c, _, e, _, rfl⟩ := h
  simp only [settledDate, bcd2]
  refine ⟨⟨?_, ?_, ?_, ?_, ?_, ?_, ?_⟩, ?_, ?_, ?_⟩
  · intro r hr; cases hr; simpa using hl
  all_goals (try dsimp only) <;> omega

/-- A card number as the parser reports it: of whole characters, with the indices of its kind. -/
def NumberShown (m : CardIdent) : Prop :=
  (Has (fun d => Has (fun s => WholeText s.value) d.number ∧ Has (IndexOk CardIdentOk.Digit) d.replacement ∧
      Has (IndexOk CardIdentOk.Digit) d.renewal) m.driver ∧ m.owner = none) ∨
  (m.driver = none ∧ Has (fun o => Has (fun s => WholeText s.value) o.owner ∧ Has IndexText o.consecutive ∧ Has IndexText o.replacement ∧
    Has IndexText o.renewal ∧ ¬ (Has (IndexOk CardIdentOk.Digit) o.replacement ∧ Has (IndexOk CardIdentOk.Digit) o.renewal)) m.owner)

/-- What must hold of EF_Identification but for the length of the number. -/
structure IdentShown [Charmap] (i : Identification) (c : CardIdent) (d : DriverHolder) : Prop where
  card : i.card = some c
  holder : i.driverHolder = some d
  nation : Named nationNumericTable c.issuingState
  number : NumberShown c
  authority : Has (TextOk 35) c.authority
  issue : TimeOk c.issueDate
  validity : TimeOk c.validityBegin
  expiry : TimeOk c.expiryDate
  person : HolderOk d

section
variable [Charmap]

theorem text_settled {d : Bytes} {s : StringValue} {w : Nat} (hw : w < 2 ^ 31) (hl : d.length = w + 1)
    (h : unmarshalStringValue d = .ok s) : TextOk w (settledText s) := by
  by_cases he : s.encoding = 1
  · have h2 := (stringValue_accepts_iff d).1 ⟨s, h⟩
    match d, h2 with
    | b :: c :: t, _ =>
      rw [unmarshalStringValue_eq _ _ (by simp), Res.ok.injEq] at h
      subst h
      rw [settledText, if_pos he]
      refine ⟨?_, by simp [Spec.codePages], .inl ⟨_, rfl, hl⟩⟩
      simp only [List.length_cons] at hl
      simp only [wrap32, Option.some.injEq, List.length_cons]
      omega
  · rw [settledText, if_neg he]
    exact text_read hw hl h he

theorem reg_settled {d : Bytes} {v : VehicleRegistration} (h : unmarshalVehicleRegistration d = .ok v) (hk : NationKnown v.nation) :
    RegOk (settledReg v) := by
  obtain ⟨n, c, t, rfl, ht, hn, s, hs, hm⟩ := registration_parse h
  refine ⟨?_, .inr ⟨settledText s, by simp [settledReg, hm], text_settled (by decide) (by simp [ht]) hs⟩⟩
  show Named nationNumericTable v.nation
  rw [hn] at hk ⊢
  exact named_of_or1 hk

/-! ## Files -/

omit [Charmap] in
theorem appId_settled {d : Bytes} {m : AppId} (h : unmarshalAppId d = .ok m) : AppIdOk (settledAppId m) ∧
    ∀ dst, appendAppId dst (some (settledAppId m)) = appendAppId dst (some m) := by
  obtain ⟨hl, b, t, v, ev, fa, pr, hb, ht, hv, hev, hfa, hpr, rfl⟩ := appId_parse h
  obtain ⟨v1, v2⟩ := version_settled hv
  exact ⟨⟨named_of_byte ht, ⟨_, rfl, v1⟩, ⟨_, rfl, fits_byte _, fits_byte _, fits_be (sl_length_of (by omega)) (by decide),
    fits_be (sl_length_of (by omega)) (by decide), fits_byte _⟩⟩,
    fun dst => by simp only [appendAppId, settledAppId, Option.map_some, version_settle _ v v2]⟩

omit [Charmap] in
theorem appIdG2_settled {d : Bytes} {m : AppIdG2} (h : unmarshalAppIdG2 d = .ok m) : AppIdG2Ok (settledAppIdG2 m) ∧
    ∀ dst, appendAppIdG2 dst (some (settledAppIdG2 m)) = appendAppIdG2 dst (some m) := by
  obtain ⟨hl, b, t, v, ev, fa, hb, ht, hv, hev, hfa, rfl⟩ := appIdG2_parse h
  obtain ⟨v1, v2⟩ := version_settled hv
  have f : ∀ a, a + 2 ≤ 17 → Fits 16 (beNat (sl d a (a + 2)) : Int) := fun a ha =>
    fits_be (k := 2) (by rw [sl_length_of (by omega)]; omega) (by decide)
  exact ⟨⟨named_of_byte ht, ⟨_, rfl, v1⟩, ⟨_, rfl, fits_byte _, fits_byte _, f 5 (by omega), f 7 (by omega), f 9 (by omega),
    f 11 (by omega), f 13 (by omega), f 15 (by omega)⟩⟩,
    fun dst => by simp only [appendAppIdG2, settledAppIdG2, Option.map_some, version_settle _ v v2]⟩

theorem licence_settled {d : Bytes} {m : DrivingLicenceInfo} (h : unmarshalDrivingLicenceInfo d = .ok m)
    (hk : NationKnown m.nation) : LicenceOk (settledLicence m) := by
  obtain ⟨hl, a, b, n, ha, hb, hn, rfl⟩ := drivingLicence_parse h
  exact ⟨⟨_, rfl, text_settled (by decide) (sl_length_of (by omega)) ha⟩, named_of_or1 hk, _, rfl,
    ia5_read (by decide) (sl_length_of (by omega)) hn⟩

theorem usage_settled {d : Bytes} {m : CurrentUsage} (h : unmarshalCurrentUsage d = .ok m)
    (hk : Each (fun v => NationKnown v.nation) m.vehicle) : UsageOk (settledUsage m) := by
  obtain ⟨hl, ts, reg, hts, hreg, rfl⟩ := currentUsage_parse h
  exact ⟨timeOk_read hts, _, rfl, reg_settled hreg (hk _ rfl)⟩

theorem control_settled {d : Bytes} {m : ControlActivity} (h : unmarshalControlActivity d = .ok m)
    (hk : Each (fun v => NationKnown v.nation) m.registration) : ControlOk (settledControl m) := by
  by_cases hz : beNat (sl d 1 5) = 0
  · have hl : 46 ≤ d.length := by
      simp only [unmarshalControlActivity, Res.pure_eq, guard_eq_ok, bind_eq_ok] at h
      omega
    have h0 : ¬ d.length < 46 := by omega
    rw [unmarshalControlActivity, if_neg h0, sl?_ok (by omega) (by omega)] at h
    simp only [Res.pure_eq, Res.bind_ok, hz, if_true, Res.ok.injEq] at h
    subst h
    refine .inr ⟨rfl, fun _ => ?_⟩
    have hs : (sl d 1 5).length = 4 := sl_length_of (by omega)
    have : sl d 1 5 = beBytes 4 (beNat (sl d 1 5)) := by rw [← hs, beBytes_beNat]
    rw [hz] at this
    exact this
  · obtain ⟨hl, b, ct, ts, n, reg, pb, pe, hb, hct, hts, hn, hreg, hpb, hpe, rfl⟩ := controlActivity_parse h hz
    exact .inl ⟨rfl, ⟨_, rfl⟩, timeOk_read hts, time_some hts hz,
      ⟨_, rfl, _, rfl, rfl, _, rfl, _, rfl, ia5_read (by decide) (sl_length_of (by omega)) hn⟩, ⟨_, rfl, reg_settled hreg (hk _ rfl)⟩,
      timeOk_read hpb, timeOk_read hpe⟩

theorem event_settled {x : Bytes} {m : EventRecord} (hl : x.length = 24) (h : eventOf x = .ok m)
    (hk : Each (fun v => NationKnown v.nation) m.registration) : EventOk (settledEvent m) := by
  unfold eventOf at h
  split at h
  · rename_i hz
    cases h
    refine .inr ⟨rfl, x, rfl, hl, ?_⟩
    have hs : (sl x 1 5).length = 4 := sl_length_of (by omega)
    have : sl x 1 5 = beBytes 4 (beNat (sl x 1 5)) := by rw [← hs, beBytes_beNat]
    rw [hz] at this
    exact this
  · rename_i hz
    obtain ⟨_, b, t, tb, te, reg, hb, ht, htb, hte, hreg, rfl⟩ := eventRecord_parse h
    exact .inl ⟨rfl, named_of_byte ht, timeOk_read htb, time_some htb hz, timeOk_read hte, _, rfl, reg_settled hreg (hk _ rfl)⟩

theorem events_settled {d : Bytes} {rs : List EventRecord} (hl : NeverMoved 24 d.length) (h : unmarshalEventsData d = .ok rs)
    (hk : ∀ r ∈ rs, Each (fun v => NationKnown v.nation) r.registration) :
    (rs.map settledEvent).length ≤ 170 ∧ ∀ r ∈ rs.map settledEvent, EventOk r := by
  have hr := (events_ok_iff d hl rs).1 h
  refine ⟨?_, fun r hm => ?_⟩
  · have := hl.1
    rw [List.length_map, hr.1]; unfold recordCount; omega
  · obtain ⟨r, hm', rfl⟩ := List.mem_map.1 hm
    replace hm := hm'
    obtain ⟨x, hx, hf⟩ := records_mem_sized hr (by omega) r hm
    exact event_settled hx hf (hk r hm)

theorem vehicle_fields_settled {d : Bytes} {m : CardVehicleRecord} (h : unmarshalCardVehicleFields d = .ok m)
    (hk : Each (fun v => NationKnown v.nation) m.registration) : m.rawData = some d ∧ CardVehicleOk (settledVehicle m) := by
  obtain ⟨hl, t1, t2, reg, c, ht1, ht2, hreg, hc, rfl⟩ := vehicleFields_parse h
  exact ⟨rfl, fits_be (sl_length_of (by omega)) (by decide), fits_be (sl_length_of (by omega)) (by decide), timeOk_read ht1, timeOk_read ht2,
    ⟨_, rfl, reg_settled hreg (hk _ rfl)⟩, _, rfl, counter_read (sl_length_of (by omega)) hc⟩

theorem vehicles_settled {d : Bytes} {m : RecordFile CardVehicleRecord} (hl : d.length ≤ 65530) (h : unmarshalVehiclesUsed d = .ok m)
    (hk : ∀ r ∈ m.records, Each (fun v => NationKnown v.nation) r.registration) :
    Fits 16 m.newest ∧ (m.records.map settledVehicle).length ≤ 2113 ∧ ∀ r ∈ m.records.map settledVehicle, RawFits r.rawData 31 ∧ CardVehicleOk r := by
  obtain ⟨h2, -, hn, hr⟩ := (vehiclesUsed_ok_iff d m).1 h
  refine ⟨?_, ?_, fun r hm => ?_⟩
  · rw [hn]; exact fits_be (sl_length_of (by omega)) (by decide)
  · rw [List.length_map, hr.1]; unfold recordCount; omega
  · obtain ⟨r, hm', rfl⟩ := List.mem_map.1 hm
    replace hm := hm'
    obtain ⟨x, hx, hf⟩ := records_mem_sized hr (by omega) r hm
    rw [unmarshalCardVehicleRecord, if_neg (by simp [hx])] at hf
    obtain ⟨g1, g2⟩ := vehicle_fields_settled hf (hk r hm)
    exact ⟨fun r' hr' => .inr (by rw [show (settledVehicle r).rawData = r.rawData from rfl, g1] at hr'; cases hr'; exact hx), g2⟩

theorem vehiclesG2_settled {d : Bytes} {m : RecordFile CardVehicleRecordG2} (hl : d.length ≤ 65530) (h : unmarshalVehiclesUsedG2 d = .ok m)
    (hk : ∀ r ∈ m.records, Each (fun v => NationKnown v.nation) r.base.registration) :
    Fits 16 m.newest ∧ (m.records.map settledVehicleG2).length ≤ 1365 ∧
      ∀ r ∈ m.records.map settledVehicleG2, RawFits r.base.rawData 48 ∧ CardVehicleOk r.base ∧ VinOk r.vin := by
  obtain ⟨h2, -, hn, hr⟩ := (vehiclesUsedG2_ok_iff d m).1 h
  refine ⟨?_, ?_, fun r hm => ?_⟩
  · rw [hn]; exact fits_be (sl_length_of (by omega)) (by decide)
  · rw [List.length_map, hr.1]; unfold recordCount; omega
  · obtain ⟨r, hm', rfl⟩ := List.mem_map.1 hm
    replace hm := hm'
    obtain ⟨x, hx, hf⟩ := records_mem_sized hr (by omega) r hm
    have hk' := hk r hm
    obtain ⟨_, b, hb, rfl⟩ := cardVehicleG2_parse hf
    obtain ⟨g1, g2⟩ := vehicle_fields_settled hb hk'
    obtain ⟨f, e1, -, e3⟩ := trimNulSpace_spec (sl x 31 48)
    refine ⟨fun r' hr' => .inr (by rw [show (settledVehicleG2 _).base.rawData = b.rawData from rfl, g1] at hr'; cases hr'; exact hx), g2, ?_, fun b t => e3 t b⟩
    have hs : (sl x 31 48).length = 17 := sl_length_of (by omega)
    rw [e1, List.length_append] at hs
    show (trimNulSpace (sl x 31 48)).length ≤ 17
    omega

/-! ## EF_Identification -/

omit [Charmap] in
/-- A card number, written and read. -/
theorem cardNumber_settled {num : Nat → Bytes → Bytes} (hnum : ShowsCut num) {m : CardIdent} (h : NumberShown m) :
    ∃ e ct d' o', e.length = 16 ∧ cardNumberBytes m = e ∧
    unmarshalCardNumber e = .ok (ct, d', o') ∧ ct = (if m.driver.isSome then CardType.driverCard else .workshopCard) ∧
    ((Both (fun d d' => Both SameValue d.number d'.number ∧ Both SameValue d.replacement d'.replacement ∧ Both SameValue d.renewal d'.renewal)
      (settledCardNumber num m).driver d' ∧ o' = none) ∨
    (d' = none ∧ Both (fun o o' => Both SameValue o.owner o'.owner ∧ Both SameValue o.consecutive o'.consecutive ∧
      Both SameValue o.replacement o'.replacement ∧ Both SameValue o.renewal o'.renewal) (settledCardNumber num m).owner o')) := by
  rcases h with ⟨⟨d, hd, ⟨n, hn, hn'⟩, hr, hw⟩, ho⟩ | ⟨hd, o, ho, ⟨n, hn, hn'⟩, hc, hr, hw, hbc⟩
  · obtain ⟨r, b, hr, hr1, hb, hrb⟩ := index_write hr 0x30
    obtain ⟨w, c, hw, hw1, hc, hwc⟩ := index_write hw 0x30
    obtain ⟨e, n', e1, e2, e3, e4⟩ := num_pad hnum (w := 14) (by omega) hn'
    obtain ⟨r', r1, r2⟩ := plain_single (digit_plain hb).1 (digit_plain hb).2
    obtain ⟨w', w1, w2⟩ := plain_single (digit_plain hc).1 (digit_plain hc).2
    refine ⟨e ++ ([b] ++ [c]), .driverCard, some ⟨some n', some r', some w'⟩, none, by simp [e1], ?_, ?_, by rw [hd]; rfl,
      Or.inl ⟨⟨{ d with number := d.number.map fun s => { s with value := num 14 s.value } }, _, by rw [settledCardNumber, hd]; rfl, rfl,
        ⟨{ n with value := num 14 n.value }, n', by rw [hn]; rfl, rfl, e4⟩, ⟨r, r', hr, rfl, by rw [SameValue, r2, hr1]⟩,
        w, w', hw, rfl, by rw [SameValue, w2, hw1]⟩, rfl⟩⟩
    · simp only [cardNumberBytes, hd, hn, e2, hrb, hwc]
      rfl
    · have hb1 : ([b] : Bytes).length = 1 := rfl
      simp only [unmarshalCardNumber, sl?_head e1, sl?_tail e1, at?_tail e1, at?_head, at?_next, at?_single, sl?_head hb1, sl?_next, sl?_single,
        Nat.le_refl, Nat.reduceLeDiff, Nat.reduceSub, Res.bind_ok, Res.pure_eq, e3, r1, w1]
      rw [if_pos ⟨hb.1, hb.2, hc.1, hc.2⟩]
  · obtain ⟨k, a, k', hk, hka, k1, k2, -⟩ := indexText_write hc
    obtain ⟨r, b', r', hr2, hrb, r1, r2, hb⟩ := indexText_write hr
    obtain ⟨w, c', w', hw2, hwc, w1, w2, hc⟩ := indexText_write hw
    obtain ⟨e, n', e1, e2, e3, e4⟩ := num_pad hnum (w := 13) (by omega) hn'
    have ha1 : ([a] : Bytes).length = 1 := rfl
    have hbr1 : ([b'] : Bytes).length = 1 := rfl
    refine ⟨e ++ ([a] ++ ([b'] ++ [c'])), .workshopCard, none, some ⟨some n', some k', some r', some w'⟩, by simp [e1], ?_, ?_, by rw [hd]; rfl,
      Or.inr ⟨rfl, { o with owner := o.owner.map fun s => { s with value := num 13 s.value } }, _, by rw [settledCardNumber, ho]; rfl, rfl,
        ⟨{ n with value := num 13 n.value }, n', by rw [hn]; rfl, rfl, e4⟩, ⟨k, k', hk, rfl, k2⟩, ⟨r, r', hr2, rfl, r2⟩,
        w, w', hw2, rfl, w2⟩⟩
    · simp only [cardNumberBytes, hd, ho, hn, e2, hka, hrb, hwc]
      rfl
    · have h14 : ∃ s, sl? (e ++ ([a] ++ ([b'] ++ [c']))) 0 14 = .ok (e ++ [a]) ∧ unmarshalIa5StringValue (e ++ [a]) = .ok s := by
        obtain ⟨s, this⟩ : ∃ s, unmarshalIa5StringValue (e ++ [a]) = .ok s := ⟨_, if_neg (by simp)⟩
        refine ⟨_, ?_, this⟩
        rw [← List.append_assoc]
        exact sl?_head (by simp [e1])
      obtain ⟨s, h14, hs⟩ := h14
      simp only [unmarshalCardNumber, h14, hs, sl?_head e1, sl?_tail e1, at?_tail e1, at?_head, at?_next, at?_single, sl?_head ha1, sl?_head hbr1,
        sl?_next, sl?_single, Nat.le_refl, Nat.reduceLeDiff, Nat.reduceSub, Res.bind_ok, Res.pure_eq, e3, k1, r1, w1]
      rw [if_neg fun hx => hbc ⟨hb ⟨hx.1, hx.2.1⟩, hc ⟨hx.2.2.1, hx.2.2.2⟩⟩]

theorem ident_ok {num : Nat → Bytes → Bytes} (hnum : ShowsCut num) {i : Identification} {c : CardIdent} {d : DriverHolder} (h : IdentShown i c d) :
    IdentificationOk (settledNumber num i) := by
  refine ⟨⟨settledCardNumber num c, by rw [settledNumber, h.card]; rfl, h.nation, ?_, h.authority, h.issue, h.validity, h.expiry⟩, d, h.holder, h.person⟩
  rcases h.number with ⟨⟨d, hd, ⟨n, hn, hn'⟩, hr, hw⟩, ho⟩ | ⟨hd, o, ho, ⟨n, hn, hn'⟩, hc, hr, hw, hbc⟩
  · exact .inl ⟨⟨{ d with number := d.number.map fun s => { s with value := num 14 s.value } }, by rw [settledCardNumber, hd]; rfl,
      ⟨{ n with value := num 14 n.value }, by rw [hn]; rfl, num_ok hnum hn'⟩, hr, hw⟩, by rw [settledCardNumber, ho]; rfl⟩
  · exact .inr ⟨by rw [settledCardNumber, hd]; rfl, ⟨{ o with owner := o.owner.map fun s => { s with value := num 13 s.value } }, by rw [settledCardNumber, ho]; rfl,
      ⟨{ n with value := num 13 n.value }, by rw [hn]; rfl, num_ok hnum hn'⟩, hc, hr, hw, hbc⟩⟩

/-- EF_Identification, written, read and written again. -/
theorem ident_rewritten {num : Nat → Bytes → Bytes} (hnum : ShowsCut num) {i : Identification} {c : CardIdent} {d : DriverHolder} (h : IdentShown i c d) :
    ∃ e i', e.length = 143 ∧ appendIdentification [] i = .ok e ∧ unmarshalIdentification e = .ok i' ∧
      SameIdentification (settledNumber num i) i' ∧ appendIdentification [] i' = appendIdentification [] (settledNumber num i) := by
  have hok := ident_ok hnum h
  obtain ⟨hc, hd, hn, hnumber, ⟨a, ha, ha'⟩, h1, h2, h3, hd'⟩ := h
  obtain ⟨N, ct, dr, ow, N1, N2, N3, N4, N5⟩ := cardNumber_settled hnum hnumber
  obtain ⟨⟨s, hs, hs'⟩, ⟨f, hf, hf'⟩, ⟨bd, hbd, hbd'⟩, l, hl, hl'⟩ := hd'
  obtain ⟨b, b1, b2⟩ := named_byte (by decide) hn
  obtain ⟨A, a', A1, A2, A3, A4⟩ := text_write (by omega) (by omega) ha'
  obtain ⟨T, T1, T2, T3⟩ := time_write h1
  obtain ⟨U, U1, U2, U3⟩ := time_write h2
  obtain ⟨V, V1, V2, V3⟩ := time_write h3
  obtain ⟨S, s', S1, S2, S3, S4⟩ := text_write (by omega) (by omega) hs'
  obtain ⟨F, f', F1, F2, F3, F4⟩ := text_write (by omega) (by omega) hf'
  obtain ⟨B, bd', B1, B2, B3, B4⟩ := date_write hbd'
  obtain ⟨L, l', L1, L2, L3, L4⟩ := ia5_write (by omega) (by omega) hl'
  have hlen : ([b] ++ (N ++ (A ++ (T ++ (U ++ (V ++ (S ++ (F ++ (B ++ L))))))))).length = 143 := by
    simp [N1, A1, T1, U1, V1, S1, F1, B1, L1]
  have hun : c.issuingState ≠ enumUnrecognized := named_ne (by decide) (by decide) hn
  have ha2 := text_stable ha' A2 (by omega) A3
  have hs2 := text_stable hs' S2 (by omega) S3
  have hf2 := text_stable hf' F2 (by omega) F3
  have hb2 := date_stable B2 B3 B4 B1
  have hl2 := ia5_stable (by omega) L3
  have hsame : SameIdentification (settledNumber num i)
      ⟨ct, some ⟨c.issuingState, dr, ow, some a', c.issueDate, c.validityBegin, c.expiryDate⟩, some ⟨some s', some f', some bd', some l'⟩⟩ := by
    refine ⟨?_, ⟨settledCardNumber num c, _, by rw [settledNumber, hc]; rfl, rfl, rfl, N5, ⟨a, a', ha, rfl, A4⟩, rfl, rfl, rfl⟩,
      d, _, hd, rfl, ⟨s, s', hs, rfl, S4⟩, ⟨f, f', hf, rfl, F4⟩, ⟨bd, bd', hbd, rfl, B4⟩, l, l', hl, rfl, L4⟩
    intro x hx
    rw [settledNumber, hc] at hx
    cases hx
    rw [N4]
    show _ = if (settledCardNumber num c).driver.isSome then _ else _
    simp only [settledCardNumber, Option.isSome_map]
  refine ⟨_, _, hlen, ?_, ?_, hsame, ?_⟩
  · simp only [appendIdentification, appendCardIdentification, appendDriverHolder, hc, hd, ha, hs, hf, hbd, hl, if_neg hun, b1, N2, Res.bind_ok]
    rw [show ∀ d, appendStringValue d (some a) = .ok (d ++ A) from A2, Res.bind_ok,
      show ∀ d, appendTimeReal d c.issueDate = .ok (d ++ T) from T2, Res.bind_ok,
      show ∀ d, appendTimeReal d c.validityBegin = .ok (d ++ U) from U2, Res.bind_ok,
      show ∀ d, appendTimeReal d c.expiryDate = .ok (d ++ V) from V2, Res.bind_ok,
      show ∀ d, appendStringValue d (some s) = .ok (d ++ S) from S2, Res.bind_ok,
      show ∀ d, appendStringValue d (some f) = .ok (d ++ F) from F2, Res.bind_ok,
      show ∀ d, appendDate d bd = .ok (d ++ B) from B2, Res.bind_ok,
      show ∀ d, appendIa5StringValue d (some l) = .ok (d ++ L) from L2]
    simp
  · simp only [unmarshalIdentification, hlen, Nat.lt_irrefl, if_false, Res.bind_ok, Res.pure_eq, at?_head, sl?_next, sl?_head N1, sl?_tail N1,
      sl?_head A1, sl?_tail A1, sl?_head T1, sl?_tail T1, sl?_head U1, sl?_tail U1, sl?_head V1, sl?_tail V1, sl?_head S1, sl?_tail S1,
      sl?_head F1, sl?_tail F1, sl?_head B1, sl?_tail B1, sl?_all L1, Nat.le_refl, Nat.reduceLeDiff, Nat.reduceAdd, Nat.reduceSub,
      N3, A3, T3, U3, V3, S3, F3, B3, L3, enumOr1_of b2]
  · obtain ⟨⟨c2, hc2, hc2'⟩, -⟩ := hok
    have e2 : c2 = settledCardNumber num c := by
      rw [settledNumber, hc] at hc2
      exact (Option.some.inj hc2).symm
    have hN := cardNumber_same hc2' (c' := ⟨c.issuingState, dr, ow, some a', c.issueDate, c.validityBegin, c.expiryDate⟩) (by
      rw [e2]
      exact ⟨rfl, N5, ⟨a, a', ha, rfl, A4⟩, rfl, rfl, rfl⟩)
    rw [e2] at hN
    simp only [settledNumber, hc, Option.map_some]
    simp only [appendIdentification, appendCardIdentification, appendDriverHolder, hd, hN, hs, hf, hbd, hl]
    simp only [settledCardNumber, ha, if_neg hun, b1, Res.bind_ok]
    rw [show ∀ d, appendStringValue d (some a') = .ok (d ++ A) from ha2, show ∀ d, appendStringValue d (some a) = .ok (d ++ A) from A2]
    simp only [Res.bind_ok]
    rw [show ∀ d, appendTimeReal d c.issueDate = .ok (d ++ T) from T2, Res.bind_ok,
      show ∀ d, appendTimeReal d c.validityBegin = .ok (d ++ U) from U2, Res.bind_ok,
      show ∀ d, appendTimeReal d c.expiryDate = .ok (d ++ V) from V2, Res.bind_ok,
      show ∀ d, appendStringValue d (some s') = .ok (d ++ S) from hs2,
      show ∀ d, appendStringValue d (some s) = .ok (d ++ S) from S2]
    simp only [Res.bind_ok]
    rw [show ∀ d, appendStringValue d (some f') = .ok (d ++ F) from hf2,
      show ∀ d, appendStringValue d (some f) = .ok (d ++ F) from F2]
    simp only [Res.bind_ok]
    rw [show ∀ d, appendDate d bd' = .ok (d ++ B) from hb2, show ∀ d, appendDate d bd = .ok (d ++ B) from B2]
    simp only [Res.bind_ok]
    rw [show ∀ d, appendIa5StringValue d (some l') = .ok (d ++ L) from hl2,
      show ∀ d, appendIa5StringValue d (some l) = .ok (d ++ L) from L2]

/-- A parsed EF_Identification. -/
theorem identification_settled {x : Bytes} {m : Identification} (h : unmarshalIdentification x = .ok m)
    (hk : Each (fun c => NationKnown c.issuingState) m.card) :
    (∃ c d, IdentShown (settledIdentification m) c d) ∧ ∀ dst, appendIdentification dst (settledIdentification m) = appendIdentification dst m := by
  obtain ⟨hl, b, ct, dr, ow, au, ti, tb, te, sn, fn, bd, la, hb, hcn, hau, hti, htb, hte, hsn, hfn, hbd, hla, rfl⟩ := identification_parse h
  obtain ⟨d1, d2⟩ := date_settled hbd
  refine ⟨⟨_, _, rfl, rfl, named_of_or1 (hk _ rfl), ?_, ⟨_, rfl, text_settled (by decide) (sl_length_of (by omega)) hau⟩, timeOk_read hti,
    timeOk_read htb, timeOk_read hte, ⟨_, rfl, text_settled (by decide) (sl_length_of (by omega)) hsn⟩,
    ⟨_, rfl, text_settled (by decide) (sl_length_of (by omega)) hfn⟩, ⟨_, rfl, d1⟩,
    ⟨_, rfl, ia5_read (by decide) (sl_length_of (by omega)) hla⟩⟩, fun dst => ?_⟩
  · have hx : (sl x 1 17).length = 16 := sl_length_of (by omega)
    generalize sl x 1 17 = x at hcn hx
    obtain ⟨p1, p2⟩ := cardNumber_parse x hx
    by_cases hd : ByteAt x 14 Digit ∧ ByteAt x 15 Digit
    · obtain ⟨n, r, w, hn, hr, hw, he⟩ := p1 hd
      rw [he, Res.ok.injEq, Prod.mk.injEq, Prod.mk.injEq] at hcn
      obtain ⟨-, rfl, rfl⟩ := hcn
      obtain ⟨⟨b1, e1, d1⟩, b2, e2, d2⟩ := hd
      rw [sl_one e1] at hr
      rw [sl_one e2] at hw
      exact .inl ⟨⟨_, rfl, ⟨_, rfl, (number_read hn (Nat.le_refl _)).2⟩,
        ⟨_, rfl, b1, index_read hr (digit_ascii d1) (digit_not_blank d1), d1⟩,
        ⟨_, rfl, b2, index_read hw (digit_ascii d2) (digit_not_blank d2), d2⟩⟩, rfl⟩
    · obtain ⟨n, c, r, w, hn, hc, hr, hw, he⟩ := p2 hd
      rw [he, Res.ok.injEq, Prod.mk.injEq, Prod.mk.injEq] at hcn
      obtain ⟨-, rfl, rfl⟩ := hcn
      obtain ⟨b0, e0⟩ := byte_at (d := x) (i := 13) (by omega)
      obtain ⟨b1, e1⟩ := byte_at (d := x) (i := 14) (by omega)
      obtain ⟨b2, e2⟩ := byte_at (d := x) (i := 15) (by omega)
      rw [sl_one e0] at hc
      rw [sl_one e1] at hr
      rw [sl_one e2] at hw
      refine .inr ⟨rfl, _, rfl, ⟨_, rfl, (number_read hn (Nat.le_refl _)).2⟩,
        ⟨_, rfl, (index_text hc).1⟩, ⟨_, rfl, (index_text hr).1⟩, ⟨_, rfl, (index_text hw).1⟩, ?_⟩
      rintro ⟨⟨_, ⟨⟩, x1, v1, d1⟩, ⟨_, ⟨⟩, x2, v2, d2⟩⟩
      rw [(index_text hr).2 x1 v1] at d1
      rw [(index_text hw).2 x2 v2] at d2
      exact hd ⟨⟨b1, e1, d1⟩, b2, e2, d2⟩
  · have t := fun d s => text_settle d (some s)
    simp only [Option.map_some] at t
    simp only [appendIdentification, appendCardIdentification, appendDriverHolder, settledIdentification, Option.map_some, t, date_settle _ bd d2]
    rfl

/-- A number that fits is not changed. -/
theorem settledNumber_fits {num : Nat → Bytes → Bytes} (hnum : ShowsCut num) {x : Bytes} {m : Identification} (h : unmarshalIdentification x = .ok m)
    (hf : Each NumberFits m.card) : settledNumber num (settledIdentification m) = settledIdentification m := by
  have hw : Each (fun c => Each (fun d => Each (fun s => WholeText s.value) d.number) c.driver ∧
      Each (fun o => Each (fun s => WholeText s.value) o.owner) c.owner) m.card := by
    obtain ⟨hl, b, ct, dr, ow, au, ti, tb, te, sn, fn, bd, la, hb, hcn, hau, hti, htb, hte, hsn, hfn, hbd, hla, rfl⟩ := identification_parse h
    have hx : (sl x 1 17).length = 16 := sl_length_of (by omega)
    generalize sl x 1 17 = x at hcn hx
    obtain ⟨p1, p2⟩ := cardNumber_parse x hx
    intro c hc
    cases hc
    by_cases hd : ByteAt x 14 Digit ∧ ByteAt x 15 Digit
    · obtain ⟨n, r, w, hn, hr, hw, he⟩ := p1 hd
      rw [he, Res.ok.injEq, Prod.mk.injEq, Prod.mk.injEq] at hcn
      obtain ⟨-, rfl, rfl⟩ := hcn
      refine ⟨fun d hd => ?_, fun o ho => by cases ho⟩
      cases hd
      intro s hs
      cases hs
      exact (number_read hn (Nat.le_refl _)).2
    · obtain ⟨n, c, r, w, hn, hc, hr, hw, he⟩ := p2 hd
      rw [he, Res.ok.injEq, Prod.mk.injEq, Prod.mk.injEq] at hcn
      obtain ⟨-, rfl, rfl⟩ := hcn
      refine ⟨fun d hd => by (cases hd), fun o ho => ?_⟩
      cases ho
      intro s hs
      cases hs
      exact (number_read hn (Nat.le_refl _)).2
  obtain ⟨ct, c, h⟩ := m
  cases c with
  | none => rfl
  | some c =>
    obtain ⟨w1, w2⟩ := hw c rfl
    obtain ⟨f1, f2⟩ := hf c rfl
    obtain ⟨st, dr, ow, au, t1, t2, t3⟩ := c
    simp only [settledNumber, settledIdentification, settledCardNumber, Option.map_some, Identification.mk.injEq, CardIdent.mk.injEq, Option.some.injEq,
      true_and, and_true]
    constructor
    · cases dr with
      | none => rfl
      | some d =>
        obtain ⟨n, r, w⟩ := d
        cases n with
        | none => rfl
        | some s =>
          simp only [Option.map_some]
          rw [num_fits hnum (w1 _ rfl s rfl) (f1 _ rfl s rfl)]
    · cases ow with
      | none => rfl
      | some o =>
        obtain ⟨n, k, r, w⟩ := o
        cases n with
        | none => rfl
        | some s =>
          simp only [Option.map_some]
          rw [num_fits hnum (w2 _ rfl s rfl) (f2 _ rfl s rfl)]

end

end Tacho
