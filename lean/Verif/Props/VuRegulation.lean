import Verif.Spec.VuRegulation
import Verif.Props.VuGen1
import Verif.Props.VuFile
import Verif.Props.Layouts
/-!
# C56: vehicle unit downloads against the regulation
-/

namespace Tacho
open Spec Spec.Regulation

/-! ## Extents -/

/-- An element as a piece of `layout`. -/
def Spec.Regulation.Element.piece : Element → Piece
  | .one _ n => .fixed n
  | .many _ w r => .counted w r.size

theorem fills_cons_iff {p : Piece} {ps : List Piece} {b : Bytes} :
    Fills (p :: ps) b ↔ headSize p ≤ b.length ∧ stepSize p b ≤ b.length ∧ Fills ps (b.drop (stepSize p b)) := by
  constructor
  · rintro ⟨x, y, rfl, hx, hy⟩
    obtain ⟨h1, h2⟩ := fills_step hx y
    rw [h1]
    refine ⟨by simp; omega, by simp, by simpa using hy⟩
  · rintro ⟨h1, h2, h3⟩
    exact ⟨_, _, (List.take_append_drop _ _).symm, step_fills h1 h2, h3⟩

theorem message_fills (m : Message) (v : Bytes) : m.Fits v ↔ Fills (m.map Element.piece) v := by
  induction m generalizing v with
  | nil => rfl
  | cons e es ih =>
    rw [List.map_cons, fills_cons_iff, ← ih]
    cases e with
    | one n k => simp [Message.Fits, Element.piece, headSize, stepSize, Element.extent]
    | many n w r => simp [Message.Fits, Element.piece, headSize, stepSize, Element.extent]

theorem fills_merge (a b : Nat) (ps : List Piece) (v : Bytes) :
    Fills (.fixed a :: .fixed b :: ps) v ↔ Fills (.fixed (a + b) :: ps) v := by
  simp only [fills_cons_iff, headSize, stepSize, List.drop_drop, List.length_drop]
  constructor
  · rintro ⟨-, h1, -, h2, h3⟩; exact ⟨by omega, by omega, h3⟩
  · rintro ⟨-, h1, h3⟩; exact ⟨by omega, by omega, by omega, by omega, h3⟩

/-- C56: for the five messages of generation 1, the bytes taken for one transfer are exactly a complete
message of the regulation. -/
theorem gen1_messages (t : TransferType) (m : Message) (h : messageG1 t = some m) (v : Bytes) :
    m.Fits v ↔ Conforms t v := by
  have tail : ∀ (p : Piece) (ps qs : List Piece), (∀ x, Fills ps x ↔ Fills qs x) → ∀ x, Fills (p :: ps) x ↔ Fills (p :: qs) x := by
    intro p ps qs h x; simp only [fills_cons_iff, h]
  rw [message_fills]
  cases t <;> simp only [messageG1, Option.some.injEq, reduceCtorEq] at h <;> subst h
  · rw [conforms_iff _ (by simp)]
    simp only [overviewG1, List.map_cons, List.map_nil, Element.piece, fills_merge]
    rfl
  · rw [conforms_iff _ (by simp)]
    simp only [activitiesG1, List.map_cons, List.map_nil, Element.piece, fills_merge]
    rfl
  · rw [conforms_iff _ (by simp)]; rfl
  · rw [conforms_iff _ (by simp)]; rfl
  · rw [conforms_iff _ (by simp)]
    simp only [technicalG1, List.map_cons, List.map_nil, Element.piece, fills_merge]
    rfl

/-! ## Overview, element by element -/

private theorem sl_td (d : Bytes) (lo hi : Nat) : sl d lo hi = (d.drop lo).take (hi - lo) := by
  rw [sl, List.drop_take]

private theorem byteIs_of {d : Bytes} {i : Nat} {P : UInt8 → Prop} (h : ByteAt d i P) :
    ByteIs ((d.drop i).take 1) P := by
  obtain ⟨b, hb, hp⟩ := h
  refine ⟨b, ?_, hp⟩
  obtain ⟨hi, rfl⟩ := List.getElem?_eq_some_iff.1 hb
  have := sl_eq_singleton hi
  rw [sl_td] at this
  simpa using this

theorem beNat_byte {v : Bytes} {i n : Nat} (h : ByteAt v i (·.toNat = n)) : beNat ((v.drop i).take 1) = n := by
  obtain ⟨b, hb, hp⟩ := byteIs_of h
  rw [hb]; simpa [beNat] using hp

variable [Charmap]

theorem lists_forall₂ {α : Type} {Is : Bytes → α → Prop} {off size n : Nat} {v : Bytes} {xs : List α}
    (h : Lists Is off size n v xs) :
    List.Forall₂ Is ((List.range n).map fun i => (v.drop (off + i * size)).take size) xs := by
  obtain ⟨h1, h2⟩ := h
  rw [List.forall₂_iff_get]
  refine ⟨by simp [h1], fun i hi hi' => ?_⟩
  simpa [record] using h2 i hi'

omit [Charmap] in
theorem overview_gets {v : Bytes} {n k : Nat} (hs : OverviewShape v n k) :
    overviewG1.get "MemberStateCertificate" v = sl v 0 194 ∧ overviewG1.get "VUCertificate" v = sl v 194 388 ∧
    overviewG1.get "VehicleIdentificationNumber" v = sl v 388 405 ∧
    overviewG1.get "VehicleRegistrationIdentification" v = sl v 405 420 ∧
    overviewG1.get "CurrentDateTime" v = sl v 420 424 ∧ overviewG1.get "VuDownloadablePeriod" v = sl v 424 432 ∧
    overviewG1.get "CardSlotsStatus" v = sl v 432 433 ∧ overviewG1.get "VuDownloadActivityData" v = sl v 433 491 ∧
    overviewG1.records "VuCompanyLocksData" v = ((List.range n).map fun i => (v.drop (492 + i * 98)).take 98) ∧
    overviewG1.records "VuControlActivityData" v =
      ((List.range k).map fun i => (v.drop (492 + n * 98 + 1 + i * 31)).take 31) ∧
    overviewG1.get "Signature" v = sl v (492 + n * 98 + 1 + k * 31) v.length := by
  have e1 := beNat_byte hs.1
  have e2 := beNat_byte hs.2.1
  have e3 := hs.2.2
  have s1 : vuCompanyLocksRecord.size = 98 := rfl
  have s2 : vuControlActivityRecord.size = 31 := rfl
  have s3 : vuDownloadablePeriod.size = 8 := rfl
  have s4 : vuDownloadActivityData.size = 58 := rfl
  simp only [sl_td, overviewG1]
  refine ⟨?_, ?_, ?_, ?_, ?_, ?_, ?_, ?_, ?_, ?_, ?_⟩
  all_goals
    simp only [Message.get, Message.records, Element.name, String.reduceEq, if_true, if_false, Element.extent, List.drop_drop,
      s1, s2, s3, s4, Nat.reduceAdd, e1, Nat.reduceSub, List.drop_zero, ← Nat.add_assoc, e2]
  congr 1
  omega

/-- C56: every part of a decoded overview comes from the element of the regulation that carries its name.
(The two slots hold the codes of the regulation where the numbers of the message type belong, see
`overview_slots_wrong`.) -/
theorem overview_regulation (v : Bytes) (m : OverviewGen1) (h : unmarshalOverviewGen1 v = .ok m) :
    let get := overviewG1.get
    overviewG1.Fits v ∧
    m.memberStateCertificate = get "MemberStateCertificate" v ∧
    m.vuCertificate = get "VUCertificate" v ∧
    (∃ x, m.vin = some x ∧ unmarshalIa5StringValue (get "VehicleIdentificationNumber" v) = .ok x) ∧
    (∃ x, m.registration = some x
      ∧ unmarshalVehicleRegistration (get "VehicleRegistrationIdentification" v) = .ok x) ∧
    m.currentDateTime = instant (get "CurrentDateTime" v) ∧
    m.downloadablePeriod = some
      ⟨instant (vuDownloadablePeriod.get "minDownloadableTime" (get "VuDownloadablePeriod" v)),
       instant (vuDownloadablePeriod.get "maxDownloadableTime" (get "VuDownloadablePeriod" v))⟩ ∧
    ByteIs (get "CardSlotsStatus" v) (fun b => m.driverSlotCard = (b.toNat % 16 : Nat) ∧ m.coDriverSlotCard = (b.toNat / 16 : Nat)) ∧
    (∃ card name,
      unmarshalFullCardNumber (vuDownloadActivityData.get "fullCardNumber" (get "VuDownloadActivityData" v)) = .ok card
      ∧ unmarshalStringValue (vuDownloadActivityData.get "companyOrWorkshopName" (get "VuDownloadActivityData" v)) = .ok name
      ∧ m.downloadActivities =
        [⟨instant (vuDownloadActivityData.get "downloadingTime" (get "VuDownloadActivityData" v)), some card, some name⟩]) ∧
    List.Forall₂ (fun b (l : CompanyLock) =>
      let get := vuCompanyLocksRecord.get
      l.lockInTime = instant (get "lockInTime" b) ∧ l.lockOutTime = instant (get "lockOutTime" b) ∧
      (∃ x, l.companyName = some x ∧ unmarshalStringValue (get "companyName" b) = .ok x) ∧
      (∃ x, l.companyAddress = some x ∧ unmarshalStringValue (get "companyAddress" b) = .ok x) ∧
      (∃ x, l.companyCardNumber = some x ∧ unmarshalFullCardNumber (get "companyCardNumber" b) = .ok x))
      (overviewG1.records "VuCompanyLocksData" v) m.companyLocks ∧
    List.Forall₂ (fun b (c : VuControlActivity) =>
      let get := vuControlActivityRecord.get
      (∃ x, c.controlType = some x ∧ unmarshalControlType (get "controlType" b) = .ok x) ∧
      c.controlTime = instant (get "controlTime" b) ∧
      (∃ x, c.controlCardNumber = some x ∧ unmarshalFullCardNumber (get "controlCardNumber" b) = .ok x) ∧
      c.downloadPeriodBeginTime = instant (get "downloadPeriodBeginTime" b) ∧
      c.downloadPeriodEndTime = instant (get "downloadPeriodEndTime" b))
      (overviewG1.records "VuControlActivityData" v) m.controlActivities ∧
    m.signature = get "Signature" v := by
  obtain ⟨n, k, hs, h1, h2, h3, h4, h5, h6, h7, h8, ⟨card, name, h9, h10, h11⟩, h12, h13, h14⟩ := (overview_iff v m).1 h
  obtain ⟨g1, g2, g3, g4, g5, g6, g7, g8, g9, g10, g11⟩ := overview_gets hs
  have f : overviewG1.Fits v := (gen1_messages .overviewGen1 _ rfl v).2 ((overview_conforms_iff v).2 ⟨n, k, hs⟩)
  have l12 := lists_forall₂ h12
  have l13 := lists_forall₂ h13
  rw [← g9] at l12
  rw [← g10] at l13
  dsimp only
  rw [g1, g2, g3, g4, g5, g6, g7, g8, g11]
  refine ⟨f, h2, h3, h4, h5, h6, ?_, ?_, ⟨card, name, ?_, ?_, ?_⟩, ?_, ?_, h14⟩
  · rw [h7]
    simp [Layout.get, vuDownloadablePeriod, sl_td, List.take_take, List.drop_take]
  · simpa [sl_td] using byteIs_of h8
  · rw [← h9]; simp [Layout.get, vuDownloadActivityData, sl_td, List.take_take, List.drop_take]
  · rw [← h10]; simp [Layout.get, vuDownloadActivityData, sl_td, List.take_take, List.drop_take]
  · rw [h11]; simp [Layout.get, vuDownloadActivityData, sl_td, List.take_take, List.drop_take]
  · refine l12.imp fun b l hl => ?_
    simpa [LockIs, Layout.get, vuCompanyLocksRecord, sl_td, List.take_take, List.drop_take, -List.drop_one] using hl
  · refine l13.imp fun b l hl => ?_
    simpa [ControlIs, Layout.get, vuControlActivityRecord, sl_td, List.take_take, List.drop_take, -List.drop_one] using hl

/-! ## Activities, element by element -/

omit [Charmap] in
theorem activities_gets {v : Bytes} {a b c d : Nat} (hs : ActivitiesShape v a b c d) :
    activitiesG1.get "TimeReal" v = sl v 0 4 ∧ activitiesG1.get "OdometerValueMidnight" v = sl v 4 7 ∧
    activitiesG1.records "VuCardIWData" v = ((List.range a).map fun i => (v.drop (9 + i * 129)).take 129) ∧
    activitiesG1.records "VuActivityDailyData" v =
      ((List.range b).map fun i => (v.drop (9 + a * 129 + 2 + i * 2)).take 2) ∧
    activitiesG1.records "VuPlaceDailyWorkPeriodData" v =
      ((List.range c).map fun i => (v.drop (9 + a * 129 + 2 + b * 2 + 1 + i * 28)).take 28) ∧
    activitiesG1.records "VuSpecificConditionData" v =
      ((List.range d).map fun i => (v.drop (9 + a * 129 + 2 + b * 2 + 1 + c * 28 + 2 + i * 5)).take 5) ∧
    activitiesG1.get "Signature" v = sl v (9 + a * 129 + 2 + b * 2 + 1 + c * 28 + 2 + d * 5) v.length := by
  have e1 : beNat ((v.drop 7).take 2) = a := by rw [← hs.1, sl_td]
  have e2 : beNat ((v.drop (9 + a * 129)).take 2) = b := by
    rw [← hs.2.1, sl_td, show 9 + a * 129 + 2 - (9 + a * 129) = 2 by omega]
  have e3 := beNat_byte hs.2.2.1
  have e4 : beNat ((v.drop (9 + a * 129 + 2 + b * 2 + 1 + c * 28)).take 2) = d := by
    rw [← hs.2.2.2.1, sl_td, Nat.add_sub_cancel_left]
  have e5 := hs.2.2.2.2
  have s1 : vuCardIWRecord.size = 129 := rfl
  have s2 : Layout.size [("ActivityChangeInfo", 2)] = 2 := rfl
  have s3 : vuPlaceDailyWorkPeriodRecord.size = 28 := rfl
  have s4 : specificConditionRecord.size = 5 := rfl
  simp only [sl_td, activitiesG1]
  refine ⟨?_, ?_, ?_, ?_, ?_, ?_, ?_⟩
  all_goals
    simp only [Message.get, Message.records, Element.name, String.reduceEq, if_true, if_false, Element.extent, List.drop_drop,
      s1, s2, s3, s4, Nat.reduceAdd, e1, Nat.reduceSub, List.drop_zero, ← Nat.add_assoc, e2, e3, e4]
  congr 1
  omega

/-- C56: every part of a decoded day of activities comes from the element of the regulation that carries its
name. -/
theorem activities_regulation (v : Bytes) (m : ActivitiesGen1) (h : unmarshalActivitiesGen1 v = .ok m) :
    let get := activitiesG1.get
    activitiesG1.Fits v ∧
    m.dateOfDay = instant (get "TimeReal" v) ∧
    m.odometerMidnightKm = (beNat (get "OdometerValueMidnight" v) : Nat) ∧
    List.Forall₂ (fun b (r : VuCardIWRecord) =>
      let get := vuCardIWRecord.get
      (∃ x, r.holderName = some x ∧ unmarshalHolderName (get "cardHolderName" b) = .ok x) ∧
      (∃ x, r.fullCardNumber = some x ∧ unmarshalFullCardNumber (get "fullCardNumber" b) = .ok x) ∧
      (∃ x, r.expiryDate = some x ∧ unmarshalDate (get "cardExpiryDate" b) = .ok x) ∧
      r.insertionTime = instant (get "cardInsertionTime" b) ∧
      r.odometerAtInsertion = beNat (get "vehicleOdometerValueAtInsertion" b) ∧
      ByteIs (get "cardSlotNumber" b) (fun x => (r.slot, some x.toNat) ∈ cardSlotNumberTable) ∧
      r.withdrawalTime = instant (get "cardWithdrawalTime" b) ∧
      r.odometerAtWithdrawal = beNat (get "vehicleOdometerValueAtWithdrawal" b) ∧
      (∃ x, r.previousVehicle = some x ∧ unmarshalPreviousVehicleInfo (get "previousVehicleInfo" b) = .ok x) ∧
      ByteIs (get "manualInputFlag" b) (fun x => r.manualInput = true ↔ x ≠ 0))
      (activitiesG1.records "VuCardIWData" v) m.cardIWData ∧
    List.Forall₂ (fun b r => unmarshalActivityChangeInfo b = .ok r)
      (activitiesG1.records "VuActivityDailyData" v) m.activityChanges ∧
    List.Forall₂ (fun b (p : VuPlaceRecord) =>
      let get := fun name => placeRecordG1.get name (vuPlaceDailyWorkPeriodRecord.get "placeRecord" b)
      p.entryTime = instant (get "entryTime") ∧
      ByteIs (get "entryTypeDailyWorkPeriod") (fun x => (p.entryType, some x.toNat) ∈ entryTypeDailyWorkPeriodTable) ∧
      ByteIs (get "dailyWorkPeriodCountry") (fun x => (p.country, some x.toNat) ∈ nationNumericTable) ∧
      p.region = get "dailyWorkPeriodRegion" ∧
      p.odometerKm = (beNat (get "vehicleOdometerValue") : Nat))
      (activitiesG1.records "VuPlaceDailyWorkPeriodData" v) m.places ∧
    List.Forall₂ (fun b (r : SpecificConditionRecord) => unmarshalSpecificConditionRecord b = .ok r)
      (activitiesG1.records "VuSpecificConditionData" v) m.specificConditions ∧
    m.signature = get "Signature" v := by
  obtain ⟨a, b, c, d, hs, h1, h2, h3, h4, h5, h6, h7, h8⟩ := (activities_iff v m).1 h
  obtain ⟨g1, g2, g3, g4, g5, g6, g7⟩ := activities_gets hs
  have f : activitiesG1.Fits v := (gen1_messages .activitiesGen1 _ rfl v).2 ((activities_conforms_iff v).2 ⟨a, b, c, d, hs⟩)
  have l4 := lists_forall₂ h4
  have l5 := lists_forall₂ h5
  have l6 := lists_forall₂ h6
  have l7 := lists_forall₂ h7
  rw [← g3] at l4
  rw [← g4] at l5
  rw [← g5] at l6
  rw [← g6] at l7
  dsimp only
  rw [g1, g2, g7]
  refine ⟨f, h2, h3, l4.imp fun b r hr => ?_, l5, l6.imp fun b r hr => ?_, l7, h8⟩
  · obtain ⟨-, i1, i2, i3, i4, i5, i6, i7, i8, i9, i10⟩ := iw_fields b r hr
    have j1 := byteIs_of i6
    have j2 := byteIs_of i10
    simp [Layout.get, vuCardIWRecord, sl_td, List.take_take, List.drop_take, -List.drop_one] at *
    exact ⟨i1, i2, i3, i4, i5, j1, i7, i8, i9, j2⟩
  · obtain ⟨i1, i2, i3, i4, i5⟩ := hr
    have j2 := byteIs_of i2
    have j3 := byteIs_of i3
    simp [Layout.get, vuPlaceDailyWorkPeriodRecord, placeRecordG1, sl_td, List.take_take, List.drop_take, -List.drop_one] at *
    exact ⟨i1, j2, j3, i4, i5⟩

/-! ## Generation 2: number of record arrays -/

omit [Charmap] in
theorem isArray_fills {t : UInt8} {b : Bytes} (h : IsArray t b) : Piece.array.Fills b := by
  obtain ⟨s, c, r, -, h2, h3, h4, h5⟩ := h
  exact ⟨t, s, c, r, h2, h3, h4, h5⟩

omit [Charmap] in
theorem areArrays_fills {ts : List UInt8} {b : Bytes} (h : AreArrays ts b) : Fills (List.replicate ts.length .array) b := by
  induction ts generalizing b with
  | nil => exact h
  | cons t ts ih =>
    obtain ⟨x, y, rfl, hx, hy⟩ := h
    exact ⟨x, y, rfl, isArray_fills hx, ih hy⟩

omit [Charmap] in
/-- C56: the messages of the regulation are complete transfers for the parser, except events and faults of
generation 2 version 2 and technical data of generation 2 version 1, for which it has the wrong number of
record arrays. -/
theorem messages_conform (t : TransferType) (v : Bytes) (h : IsMessage t v) (h1 : t ≠ .eventsG2V2)
    (h2 : t ≠ .technicalG2V1) : Conforms t v := by
  rcases h with ⟨m, hm, hv⟩ | ⟨as, ha, hv⟩ | ⟨rfl, rfl⟩
  · exact (gen1_messages t m hm v).1 hv
  · have hf := areArrays_fills hv
    cases t <;> simp only [arraysG2, Option.some.injEq, reduceCtorEq] at ha <;>
      first | exact absurd rfl h1 | exact absurd rfl h2 | (subst ha; exact hf)
  · exact ⟨[2, 2], [], rfl, rfl, rfl⟩

omit [Charmap] in
theorem message_not_card {t : TransferType} {v : Bytes} (h : IsMessage t v) : t ≠ .cardDownload := by
  rintro rfl
  rcases h with ⟨m, hm, hv⟩ | ⟨as, ha, hv⟩ | ⟨h, -⟩
  · simp [messageG1] at hm
  · simp [arraysG2] at ha
  · cases h

omit [Charmap] in
/-- C56: a download made of other messages of the regulation is cut into exactly these messages. -/
theorem regulation_download_cut (ts : List Transfer) (h : ∀ t ∈ ts, IsMessage t.type t.value
      ∧ t.type ≠ .eventsG2V2 ∧ t.type ≠ .technicalG2V1) :
    unmarshalRawVehicleUnitFile (vuBytes ts) = .ok (ts.map Transfer.record) :=
  (vu_slices_iff _ _).2 ⟨ts, rfl, cut_of_conforms (fun t ht => messages_conform _ _ (h t ht).1 (h t ht).2.1 (h t ht).2.2)
    (fun t ht => message_not_card (h t ht).1), rfl⟩

omit [Charmap] in
theorem trep_inj {t u : TransferType} (h : trep t = trep u) : t = u := by
  cases t <;> cases u <;> first | rfl | exact absurd h (by decide)

omit [Charmap] in
/-- Complete transfers at the beginning of a file are cut as such. -/
theorem vuBytes_prefix (before : List Transfer) (hb : ∀ t ∈ before, Conforms t.type t.value ∧ t.type ≠ .cardDownload)
    (r : Bytes) (ts : List Transfer) (hts : Cut ts []) (h : vuBytes before ++ r = vuBytes ts) :
    ∃ ts', ts = before ++ ts' ∧ r = vuBytes ts' ∧ Cut ts' [] := by
  induction before generalizing ts with
  | nil => exact ⟨ts, rfl, h, hts⟩
  | cons t before ih =>
    cases ts with
    | nil => simp [vuBytes, Transfer.bytes] at h
    | cons u ts =>
      rw [vuBytes_cons, vuBytes_cons, Transfer.bytes, Transfer.bytes] at h
      simp only [List.cons_append, List.nil_append, List.append_assoc, List.cons.injEq, true_and] at h
      obtain ⟨ht, h⟩ := h
      have htu := trep_inj ht
      obtain ⟨hu, -, hts⟩ := hts
      obtain ⟨hc, hnc⟩ := hb t (by simp)
      rw [conforms_iff _ hnc] at hc
      rw [← htu, conforms_iff _ hnc] at hu
      have a1 := announced_of_fills hc (vuBytes before ++ r)
      have a2 := announced_of_fills hu (vuBytes ts)
      rw [h, a2, Option.some.injEq] at a1
      obtain ⟨hv, hr⟩ := List.append_inj h a1.symm
      obtain ⟨ts', rfl, hr', hc'⟩ := ih (fun x hx => hb x (by simp [hx])) ts hts hr
      refine ⟨ts', ?_, hr', hc'⟩
      obtain ⟨t1, t2⟩ := t
      obtain ⟨u1, u2⟩ := u
      simp only at htu hv
      subst htu hv
      rfl

omit [Charmap] in
theorem areArrays_append {ts us : List UInt8} {b : Bytes} : AreArrays (ts ++ us) b ↔
    ∃ x y, b = x ++ y ∧ AreArrays ts x ∧ AreArrays us y := by
  induction ts generalizing b with
  | nil => exact ⟨fun h => ⟨[], b, rfl, rfl, h⟩, by rintro ⟨x, y, rfl, rfl, h⟩; exact h⟩
  | cons t ts ih =>
    constructor
    · rintro ⟨x, y, rfl, hx, hy⟩
      obtain ⟨p, q, rfl, hp, hq⟩ := ih.1 hy
      exact ⟨x ++ p, q, by simp, ⟨x, p, rfl, hx, hp⟩, hq⟩
    · rintro ⟨_, q, rfl, ⟨x, p, rfl, hx, hp⟩, hq⟩
      exact ⟨x, p ++ q, by simp, hx, ih.2 ⟨p, q, rfl, hp, hq⟩⟩

omit [Charmap] in
/-- C56: a technical data message of generation 2 version 1, with its eight record arrays, makes every file
that contains it unreadable, wherever it stands and whatever follows: the parser takes four arrays for the whole
message and then finds no transfer. -/
theorem technicalG2V1_refused (before : List Transfer)
    (hb : ∀ t ∈ before, Conforms t.type t.value ∧ t.type ≠ .cardDownload) (v rest : Bytes)
    (hv : IsMessage .technicalG2V1 v) (recs : List VuRec) :
    unmarshalRawVehicleUnitFile (vuBytes before ++ ([0x76, 0x25] ++ v ++ rest)) ≠ .ok recs := by
  intro h
  obtain ⟨ts, hd, hcut, -⟩ := (vu_slices_iff _ _).1 h
  obtain ⟨ts', -, hr, hc⟩ := vuBytes_prefix before hb _ ts hcut hd
  rcases hv with ⟨m, hm, -⟩ | ⟨as, ha, hv⟩ | ⟨h, -⟩
  · simp [messageG1] at hm
  · simp only [arraysG2, Option.some.injEq] at ha
    subst ha
    obtain ⟨x, y, rfl, hx, hy⟩ := (areArrays_append (ts := [0x19, 0x20, 0x21, 0x0C]) (us := [0x0E, 0x17, 0x1F, 0x08])).1 hv
    obtain ⟨_, z, rfl, ⟨s, c, r, -, -, -, rfl, -⟩, -⟩ := hy
    cases ts' with
    | nil => simp [vuBytes] at hr
    | cons u ts' =>
      rw [vuBytes_cons, Transfer.bytes] at hr
      simp only [List.cons_append, List.nil_append, List.append_assoc, List.cons.injEq, true_and] at hr
      obtain ⟨ht, hr⟩ := hr
      have htu : TransferType.technicalG2V1 = u.type := trep_inj ht
      obtain ⟨hu, -, -⟩ := hc
      rw [← htu, conforms_iff _ (by simp)] at hu
      have hx' : Fills (layout .technicalG2V1) x := areArrays_fills hx
      have a1 := announced_of_fills hx' (0x0E :: (beBytes 2 s ++ (beBytes 2 c ++ (r ++ (z ++ rest)))))
      have a2 := announced_of_fills hu (vuBytes ts')
      rw [hr, a2, Option.some.injEq] at a1
      obtain ⟨-, hr⟩ := List.append_inj hr a1.symm
      cases ts' with
      | nil => simp [vuBytes] at hr
      | cons w ts' => simp [vuBytes_cons, Transfer.bytes] at hr
  · cases h

omit [Charmap] in
/-- C56: an events and faults message of generation 2 version 2 has six record arrays, the parser takes seven.
The file is unreadable unless what follows the message is long enough to pass for a seventh array. -/
theorem eventsG2V2_refused (before : List Transfer)
    (hb : ∀ t ∈ before, Conforms t.type t.value ∧ t.type ≠ .cardDownload) (v rest : Bytes)
    (hv : IsMessage .eventsG2V2 v)
    (hrest : rest.length < 5 + beNat ((rest.take 3).drop 1) * beNat ((rest.take 5).drop 3)) (recs : List VuRec) :
    unmarshalRawVehicleUnitFile (vuBytes before ++ ([0x76, 0x33] ++ v ++ rest)) ≠ .ok recs := by
  intro h
  obtain ⟨ts, hd, hcut, -⟩ := (vu_slices_iff _ _).1 h
  obtain ⟨ts', -, hr, hc⟩ := vuBytes_prefix before hb _ ts hcut hd
  rcases hv with ⟨m, hm, -⟩ | ⟨as, ha, hv⟩ | ⟨h, -⟩
  · simp [messageG1] at hm
  · simp only [arraysG2, Option.some.injEq] at ha
    subst ha
    have hx := areArrays_fills hv
    cases ts' with
    | nil => simp [vuBytes] at hr
    | cons u ts' =>
      rw [vuBytes_cons, Transfer.bytes] at hr
      simp only [List.cons_append, List.nil_append, List.append_assoc, List.cons.injEq, true_and] at hr
      obtain ⟨ht, hr⟩ := hr
      have htu : TransferType.eventsG2V2 = u.type := trep_inj ht
      obtain ⟨hu, -, -⟩ := hc
      rw [← htu, conforms_iff _ (by simp)] at hu
      have split : ∀ k b, Fills (List.replicate (k + 1) .array) b → ∃ p q, b = p ++ q ∧ Fills (List.replicate k .array) p ∧ Piece.array.Fills q := by
        intro k
        induction k with
        | zero => rintro b ⟨x, y, rfl, hx, rfl⟩; exact ⟨[], x, by simp, rfl, hx⟩
        | succ k ih =>
          rintro b ⟨x, y, rfl, hx, hy⟩
          obtain ⟨p, q, rfl, hp, hq⟩ := ih y hy
          exact ⟨x ++ p, q, by simp, ⟨x, p, rfl, hx, hp⟩, hq⟩
      obtain ⟨p, q, hpq, hp, hq⟩ := split 6 _ hu
      have a1 := announced_of_fills hx rest
      have a2 := announced_of_fills hp (q ++ vuBytes ts')
      rw [hr, hpq, List.append_assoc] at a1
      rw [show (List.map Prod.snd _).length = 6 from rfl, a2, Option.some.injEq] at a1
      rw [hpq, List.append_assoc] at hr
      obtain ⟨-, rfl⟩ := List.append_inj hr a1.symm
      obtain ⟨f1, f2⟩ := fills_step hq (vuBytes ts')
      simp only [stepSize, headSize] at f1 f2
      rw [List.length_append] at hrest
      omega
  · cases h

omit [Charmap] in
/-- So it is when that message is the last one of the file. -/
theorem eventsG2V2_last_refused (before : List Transfer)
    (hb : ∀ t ∈ before, Conforms t.type t.value ∧ t.type ≠ .cardDownload) (v : Bytes)
    (hv : IsMessage .eventsG2V2 v) (recs : List VuRec) :
    unmarshalRawVehicleUnitFile (vuBytes before ++ ([0x76, 0x33] ++ v)) ≠ .ok recs := by
  have := eventsG2V2_refused before hb v [] hv (by simp) recs
  simpa using this

omit [Charmap] in
/-- And when another message of generation 2 follows, in a file with less than eight kilobytes behind. -/
theorem eventsG2V2_followed_refused (before : List Transfer)
    (hb : ∀ t ∈ before, Conforms t.type t.value ∧ t.type ≠ .cardDownload) (v : Bytes) (next : Transfer) (rest : Bytes)
    (hv : IsMessage .eventsG2V2 v) (as : List (String × UInt8)) (ha : arraysG2 next.type = some as)
    (hn : AreArrays (as.map Prod.snd) next.value) (hl : (next.bytes ++ rest).length < 8453) (recs : List VuRec) :
    unmarshalRawVehicleUnitFile (vuBytes before ++ ([0x76, 0x33] ++ v ++ (next.bytes ++ rest))) ≠ .ok recs := by
  refine eventsG2V2_refused before hb v _ hv (Nat.lt_of_lt_of_le hl ?_) recs
  obtain ⟨type, value⟩ := next
  have key : ∀ (t : UInt8) (ts : List UInt8) (tr : UInt8), AreArrays (t :: ts) value → 33 ≤ tr.toNat →
      8448 ≤ beNat (((([0x76, tr] ++ value) ++ rest).take 3).drop 1) * beNat (((([0x76, tr] ++ value) ++ rest).take 5).drop 3) := by
    rintro t ts tr ⟨_, y, rfl, ⟨s, c, r, h1, h2, -, rfl, -⟩, -⟩ htr
    have e : beBytes 2 s = [UInt8.ofNat (s / 256 % 256), UInt8.ofNat (s % 256)] := by simp [beBytes]
    have l := byte_lt t
    simp only [e, List.cons_append, List.nil_append, List.take_succ_cons, List.take_zero, List.drop_succ_cons, List.drop_zero]
    have v1 : beNat [tr, t] = tr.toNat * 256 + t.toNat := by simp [beNat]
    have v2 : beNat [UInt8.ofNat (s / 256 % 256), UInt8.ofNat (s % 256)] = s := by
      rw [← e, beNat_beBytes_of_lt (by omega)]
    rw [v1, v2]
    calc 8448 = 8448 * 1 := rfl
      _ ≤ (tr.toNat * 256 + t.toNat) * s := Nat.mul_le_mul (by omega) h1
  have : ∃ t ts, as.map Prod.snd = t :: ts ∧ 33 ≤ (trep type).toNat := by
    cases type <;> simp only [arraysG2, Option.some.injEq, reduceCtorEq] at ha <;> subst ha <;>
      exact ⟨_, _, rfl, by decide⟩
  obtain ⟨t, ts, e, htr⟩ := this
  have := key t ts (trep type) (e ▸ hn) htr
  simp only [Transfer.bytes]
  omega

/-! ## Generation 1 files -/

omit [Charmap] in
theorem readable_iff {v : Bytes} {i : Nat} {x : Bytes} (h : x.take 1 = (v.drop i).take 1) :
    ReadableCard x ↔ CardNumberAt v i := by
  have e : fullCardNumber.get "cardType" x = (v.drop i).take 1 := by simp [Layout.get, fullCardNumber, h]
  rw [ReadableCard, e, CardNumberAt]
  constructor
  · rintro ⟨b, hb, h⟩
    refine ⟨b, ?_, h⟩
    have := congrArg (·[0]?) hb
    simpa [List.getElem?_take, List.getElem?_drop] using this
  · exact byteIs_of

omit [Charmap] in
theorem byteIs_iff {v : Bytes} {i : Nat} {P : UInt8 → Prop} : (∃ b, (v.drop i).take 1 = [b] ∧ P b) ↔ ByteAt v i P := by
  constructor
  · rintro ⟨b, hb, h⟩
    refine ⟨b, ?_, h⟩
    have := congrArg (·[0]?) hb
    simpa [List.getElem?_take, List.getElem?_drop] using this
  · exact byteIs_of

omit [Charmap] in
theorem readable_overview_iff {v : Bytes} {n k : Nat} (hs : OverviewShape v n k) : ReadableOverview v ↔
    CardNumberAt v 437 ∧ (∀ i, i < n → CardNumberAt v (492 + i * 98 + 80))
      ∧ (∀ i, i < k → CardNumberAt v (492 + n * 98 + 1 + i * 31 + 5)) := by
  obtain ⟨g1, g2, g3, g4, g5, g6, g7, g8, g9, g10, g11⟩ := overview_gets hs
  rw [ReadableOverview, g8, g9, g10]
  simp only [List.mem_map, List.mem_range, forall_exists_index, and_imp, forall_apply_eq_imp_iff₂]
  refine and_congr (readable_iff ?_) (and_congr (forall₂_congr fun i hi => readable_iff ?_)
    (forall₂_congr fun i hi => readable_iff ?_))
  · simp [Layout.get, vuDownloadActivityData, sl_td, List.take_take, List.drop_take]
  · simp [Layout.get, vuCompanyLocksRecord, List.take_take, List.drop_take]
  · simp [Layout.get, vuControlActivityRecord, List.take_take, List.drop_take, -List.drop_one]

omit [Charmap] in
theorem readable_day_iff {v : Bytes} {a b c d : Nat} (hs : ActivitiesShape v a b c d) : ReadableDay v ↔
    (∀ i, i < a → CardNumberAt v (9 + i * 129 + 72) ∧ ByteAt v (9 + i * 129 + 101) (fun b => b = 0 ∨ b = 1))
      ∧ (∀ i, i < c → KnownAt entryTypeDailyWorkPeriodTable v (9 + a * 129 + 2 + b * 2 + 1 + i * 28 + 22)
          ∧ KnownAt nationNumericTable v (9 + a * 129 + 2 + b * 2 + 1 + i * 28 + 23)) := by
  obtain ⟨g1, g2, g3, g4, g5, g6, g7⟩ := activities_gets hs
  rw [ReadableDay, g3, g5]
  simp only [List.mem_map, List.mem_range, forall_exists_index, and_imp, forall_apply_eq_imp_iff₂]
  refine and_congr (forall₂_congr fun i hi => and_congr (readable_iff ?_) ?_) (forall₂_congr fun i hi => ?_)
  · simp [Layout.get, vuCardIWRecord, List.take_take, List.drop_take]
  · rw [← byteIs_iff]
    simp [Layout.get, vuCardIWRecord, List.take_take, List.drop_take, -List.drop_one]
    constructor
    · rintro (h | h)
      · exact ⟨0, h, .inl rfl⟩
      · exact ⟨1, h, .inr rfl⟩
    · rintro ⟨b, h, rfl | rfl⟩
      · exact .inl h
      · exact .inr h
  · simp only [KnownAt, ← byteIs_iff]
    simp [Layout.get, vuPlaceDailyWorkPeriodRecord, placeRecordG1, List.take_take, List.drop_take, -List.drop_one]

/-- C56: which downloads of generation 1 messages of the regulation are read: all in which every overview and
every day of activities is readable. -/
theorem gen1_download_read_iff (ts : List Transfer) (hne : ts ≠ [])
    (h : ∀ t ∈ ts, t.type ∈ gen1Types ∧ IsMessage t.type t.value) :
    (∃ f, unmarshalVehicleUnitFile (vuBytes ts) = .ok f) ↔
      (∀ v ∈ valuesOf .overviewGen1 ts, ReadableOverview v) ∧ (∀ v ∈ valuesOf .activitiesGen1 ts, ReadableDay v) := by
  have hc : ∀ t ∈ ts, Conforms t.type t.value := by
    intro t ht
    obtain ⟨h1, h2⟩ := h t ht
    exact messages_conform _ _ h2 (by rintro e; rw [e] at h1; exact absurd h1 (by decide))
      (by rintro e; rw [e] at h1; exact absurd h1 (by decide))
  have hnc : ∀ t ∈ ts, t.type ≠ .cardDownload := fun t ht => message_not_card (h t ht).2
  have hval : ∀ {ty v}, v ∈ valuesOf ty ts → Conforms ty v := by
    intro ty v hv
    simp only [valuesOf, List.mem_map, List.mem_filter, decide_eq_true_eq] at hv
    obtain ⟨t, ⟨ht, rfl⟩, rfl⟩ := hv
    exact hc t ht
  have ho : ∀ v ∈ valuesOf .overviewGen1 ts, ((∃ m, unmarshalOverviewGen1 v = .ok m) ↔ ReadableOverview v) := by
    intro v hv
    obtain ⟨n, k, hs⟩ := (overview_conforms_iff v).1 (hval hv)
    rw [overview_accepts_iff, readable_overview_iff hs]
    constructor
    · rintro ⟨n', k', hs', h⟩
      obtain ⟨rfl, rfl⟩ := overview_shape_unique hs hs'
      exact h
    · intro h; exact ⟨n, k, hs, h⟩
  have ha : ∀ v ∈ valuesOf .activitiesGen1 ts, ((∃ m, unmarshalActivitiesGen1 v = .ok m) ↔ ReadableDay v) := by
    intro v hv
    obtain ⟨a, b, c, d, hs⟩ := (activities_conforms_iff v).1 (hval hv)
    rw [activities_accepts_iff, readable_day_iff hs]
    constructor
    · rintro ⟨a', b', c', d', hs', h⟩
      obtain ⟨rfl, rfl, rfl, rfl⟩ := activities_shape_unique hs hs'
      exact h
    · intro h; exact ⟨a, b, c, d, hs, h⟩
  have hall : ∀ {α : Type} {R : Bytes → α → Prop} (vs : List Bytes), (∃ ms, List.Forall₂ R vs ms) ↔ ∀ v ∈ vs, ∃ m, R v m := by
    intro α R vs
    induction vs with
    | nil => simp
    | cons v vs ih =>
      simp only [List.forall_mem_cons, ← ih]
      constructor
      · rintro ⟨_, _ | ⟨h1, h2⟩⟩; exact ⟨⟨_, h1⟩, _, h2⟩
      · rintro ⟨⟨_, h1⟩, _, h2⟩; exact ⟨_, .cons h1 h2⟩
  constructor
  · rintro ⟨f, hf⟩
    obtain ⟨ts', -, hts, hc', hcase⟩ := (vu_file_iff _ f).1 hf
    have hnc' : ∀ t ∈ ts', t.type ≠ .cardDownload := by
      intro t ht e
      rcases hcase with ⟨ho, -⟩ | ⟨ho, -⟩ | ⟨ho, -⟩ <;>
      · have := ho t ht; rw [e] at this; exact absurd this (by decide)
    obtain rfl := vu_cut_unique ts ts' (cut_of_conforms hc hnc) (cut_of_conforms hc' hnc') hts
    have hg : ∃ g, Gen1Is ts g := by
      rcases hcase with ⟨-, g, hg, -⟩ | ⟨ho, -⟩ | ⟨ho, -⟩
      · exact ⟨g, hg⟩
      all_goals
        obtain ⟨t, ht⟩ := List.exists_mem_of_ne_nil ts hne
        have h1 := ho t ht
        have h2 := (h t ht).1
        exfalso
        revert h1 h2
        generalize t.type = ty
        cases ty <;> decide
    obtain ⟨g, os, h1, -, h2, -⟩ := hg
    exact ⟨fun v hv => (ho v hv).1 ((hall _).1 ⟨_, h1⟩ v hv), fun v hv => (ha v hv).1 ((hall _).1 ⟨_, h2⟩ v hv)⟩
  · rintro ⟨h1, h2⟩
    obtain ⟨os, h1⟩ := (hall _).2 fun v hv => (ho v hv).2 (h1 v hv)
    obtain ⟨as, h2⟩ := (hall _).2 fun v hv => (ha v hv).2 (h2 v hv)
    exact ⟨_, (vu_file_iff _ _).2 ⟨ts, hne, rfl, hc, .inl ⟨fun t ht => (h t ht).1,
      { overview := os.getLast?, activities := as, eventsAndFaults := (valuesOf .eventsGen1 ts).map signed
        detailedSpeed := (valuesOf .speedGen1 ts).map signed, technicalData := (valuesOf .technicalGen1 ts).map signed },
      ⟨os, h1, rfl, h2, rfl, rfl, rfl⟩, rfl⟩⟩⟩

/-- C56: a control is made with a control card (type 3), and the record of one makes the download unreadable. -/
theorem controlled_vehicle_refused (ts : List Transfer) (hne : ts ≠ [])
    (h : ∀ t ∈ ts, t.type ∈ gen1Types ∧ IsMessage t.type t.value) (v b : Bytes)
    (hv : v ∈ valuesOf .overviewGen1 ts) (hb : b ∈ overviewG1.records "VuControlActivityData" v)
    (h3 : fullCardNumber.get "cardType" (vuControlActivityRecord.get "controlCardNumber" b) = [3]) (f : VehicleUnitFile) :
    unmarshalVehicleUnitFile (vuBytes ts) ≠ .ok f := by
  intro hf
  obtain ⟨c, hc, hor⟩ := (((gen1_download_read_iff ts hne h).1 ⟨f, hf⟩).1 v hv).2.2 b hb
  rw [h3] at hc
  cases hc
  exact absurd hor (by decide)

/-! ## Examples -/

/-- The sample of two days and a speed block is a download of messages of the regulation, and it is read. -/
example : ∃ f, unmarshalVehicleUnitFile (vuBytes sampleGen1) = .ok f := by
  have hm : ∀ t ∈ sampleGen1, t.type ∈ gen1Types ∧ IsMessage t.type t.value := by
    intro t ht
    have hc := sampleGen1_conforms t ht
    simp only [sampleGen1, List.mem_cons, List.not_mem_nil, or_false] at ht
    rcases ht with rfl | rfl | rfl
    · exact ⟨by decide, .inl ⟨_, rfl, (gen1_messages .activitiesGen1 _ rfl _).2 hc⟩⟩
    · exact ⟨by decide, .inl ⟨_, rfl, (gen1_messages .speedGen1 _ rfl _).2 hc⟩⟩
    · exact ⟨by decide, .inl ⟨_, rfl, (gen1_messages .activitiesGen1 _ rfl _).2 hc⟩⟩
  refine (gen1_download_read_iff sampleGen1 (by simp [sampleGen1]) hm).2 ⟨?_, ?_⟩
  · simp [valuesOf, sampleGen1]
  · intro v hv
    have : v = sampleActivities := by simpa [valuesOf, sampleGen1] using hv
    subst this
    rw [readable_day_iff sampleActivities_shape]
    refine ⟨fun i hi => ?_, fun i hi => ?_⟩
    · obtain rfl : i = 0 := by omega
      exact ⟨⟨1, by decide +kernel, Or.inl rfl⟩, ⟨0, by decide +kernel, Or.inl rfl⟩⟩
    · obtain rfl : i = 0 := by omega
      exact ⟨⟨0, by decide +kernel, ⟨2, by decide +kernel⟩⟩, ⟨0x0F, by decide +kernel, ⟨18, by decide +kernel⟩⟩⟩

omit [Charmap] in
/-- An array of `count` records of one byte each. -/
theorem small_array (t count : UInt8) : IsArray t ([t, 0, 1, 0, count] ++ List.replicate count.toNat 7) := by
  refine ⟨1, count.toNat, List.replicate count.toNat 7, by omega, by omega, by have := byte_lt count; omega, ?_, by simp⟩
  have h := byte_lt count
  have e : beBytes 2 count.toNat = [0, count] := by
    simp [beBytes, Nat.div_eq_of_lt h, Nat.mod_eq_of_lt h]
  rw [e]
  rfl

omit [Charmap] in
/-- Technical data with two calibrations and nothing else, after an interface version: refused. -/
example (recs : List VuRec) : unmarshalRawVehicleUnitFile (vuBytes [⟨.speedGen2, [0x12, 0, 1, 0, 0, 8, 0, 1, 0, 0]⟩] ++ ([0x76, 0x25] ++
    ([0x19, 0, 1, 0, 0] ++ ([0x20, 0, 1, 0, 0] ++ ([0x21, 0, 1, 0, 0] ++ ([0x0C, 0, 1, 0, 2, 7, 7] ++ ([0x0E, 0, 1, 0, 0] ++
      ([0x17, 0, 1, 0, 0] ++ ([0x1F, 0, 1, 0, 0] ++ ([0x08, 0, 1, 0, 0] ++ [])))))))) ++ [])) ≠ .ok recs := by
  refine technicalG2V1_refused _ ?_ _ _ (.inr (.inl ⟨_, rfl, ?_⟩)) recs
  · intro t ht
    obtain rfl := List.mem_singleton.1 ht
    exact ⟨messages_conform _ _ (.inr (.inl ⟨_, rfl, _, _, rfl, small_array 0x12 0, _, [], rfl, small_array 8 0, rfl⟩))
      (by simp) (by simp), by simp⟩
  · exact ⟨_, _, rfl, small_array 0x19 0, _, _, rfl, small_array 0x20 0, _, _, rfl, small_array 0x21 0, _, _, rfl, small_array 0x0C 2,
      _, _, rfl, small_array 0x0E 0, _, _, rfl, small_array 0x17 0, _, _, rfl, small_array 0x1F 0, _, _, rfl, small_array 0x08 0, rfl⟩

omit [Charmap] in
/-- Events and faults of generation 2 version 2 with one fault and one event, followed by a speed message. -/
example (recs : List VuRec) : unmarshalRawVehicleUnitFile (vuBytes [] ++ ([0x76, 0x33] ++
    ([0x18, 0, 1, 0, 1, 7] ++ ([0x15, 0, 1, 0, 1, 7] ++ ([0x1A, 0, 1, 0, 0] ++ ([0x1B, 0, 1, 0, 0] ++ ([0x1E, 0, 1, 0, 0] ++
      ([0x08, 0, 1, 0, 0] ++ [])))))) ++ (Transfer.bytes ⟨.speedGen2, [0x12, 0, 1, 0, 0, 8, 0, 1, 0, 0]⟩ ++ []))) ≠ .ok recs := by
  refine eventsG2V2_followed_refused [] (by simp) _ _ [] (.inr (.inl ⟨_, rfl, ?_⟩)) _ rfl ?_ (by simp [Transfer.bytes]) recs
  · exact ⟨_, _, rfl, small_array 0x18 1, _, _, rfl, small_array 0x15 1, _, _, rfl, small_array 0x1A 0, _, _, rfl, small_array 0x1B 0,
      _, _, rfl, small_array 0x1E 0, _, _, rfl, small_array 0x08 0, rfl⟩
  · exact ⟨_, _, rfl, small_array 0x12 0, _, [], rfl, small_array 8 0, rfl⟩

/-- An overview with one company lock and one roadside control. -/
def Spec.sampleControlled : Bytes :=
  List.replicate 437 0x20 ++ [1] ++ List.replicate 53 0x20 ++ [1] ++ (List.replicate 80 0x20 ++ [4] ++ List.replicate 17 0x20)
    ++ [1] ++ (List.replicate 5 0 ++ [3] ++ List.replicate 25 0) ++ List.replicate 128 9

example (f : VehicleUnitFile) : unmarshalVehicleUnitFile (vuBytes [⟨.overviewGen1, sampleControlled⟩]) ≠ .ok f := by
  have hs : OverviewShape sampleControlled 1 1 := ⟨⟨1, by decide +kernel, rfl⟩, ⟨1, by decide +kernel, rfl⟩, by decide +kernel⟩
  have hc : Conforms .overviewGen1 sampleControlled := (overview_conforms_iff _).2 ⟨1, 1, hs⟩
  obtain ⟨-, -, -, -, -, -, -, -, -, hr, -⟩ := overview_gets hs
  refine controlled_vehicle_refused _ (by simp) ?_ sampleControlled _ (by simp [valuesOf])
    (by rw [hr]; exact List.mem_map.2 ⟨0, by simp, rfl⟩) (by decide +kernel) f
  intro t ht
  obtain rfl := List.mem_singleton.1 ht
  exact ⟨by decide, .inl ⟨_, rfl, (gen1_messages .overviewGen1 _ rfl _).2 hc⟩⟩

end Tacho
