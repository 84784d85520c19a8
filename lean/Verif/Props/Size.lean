import Verif.Spec.Size
import Verif.Props.CutOff
import Verif.Props.ActivityLayout
import Verif.Props.VuGen1
import Verif.Props.ScannedFiles
import Verif.Props.DriverCardWrite
/-!
# C77: how large a message can get
-/

namespace Tacho
open Spec Spec.Size

/-! ## Sums -/

theorem total_append {α : Type} (n : α → Nat) (xs ys : List α) : total n (xs ++ ys) = total n xs + total n ys := by
  simp [total]

theorem total_cons {α : Type} (n : α → Nat) (x : α) (xs : List α) : total n (x :: xs) = n x + total n xs := rfl

theorem total_mem {α : Type} (n : α → Nat) {x : α} {xs : List α} (h : x ∈ xs) : n x ≤ total n xs := by
  induction xs with
  | nil => simp at h
  | cons y ys ih =>
    rw [total_cons]
    rcases List.mem_cons.1 h with rfl | h
    · omega
    · have := ih h; omega

theorem total_le {α : Type} {n m : α → Nat} {xs : List α} (h : ∀ x ∈ xs, n x ≤ m x) : total n xs ≤ total m xs := by
  induction xs with
  | nil => exact Nat.le_refl _
  | cons y ys ih =>
    rw [total_cons, total_cons]
    have := h y (by simp)
    have := ih fun x hx => h x (by simp [hx])
    omega

theorem total_forall₂ {α β : Type} {R : α → β → Prop} {n : β → Nat} {m : α → Nat} (hR : ∀ a b, R a b → n b ≤ m a) {xs : List α} {ys : List β}
    (h : List.Forall₂ R xs ys) : total n ys ≤ total m xs := by
  induction h with
  | nil => exact Nat.le_refl _
  | cons h _ ih =>
    have := hR _ _ h
    rw [total_cons, total_cons]; omega

theorem total_const {α : Type} {n : α → Nat} {k : Nat} {xs : List α} (h : ∀ x ∈ xs, n x ≤ k) : total n xs ≤ xs.length * k := by
  induction xs with
  | nil => simp [total]
  | cons y ys ih =>
    rw [total_cons, List.length_cons, Nat.add_mul]
    have := h y (by simp)
    have := ih fun x hx => h x (by simp [hx])
    omega

theorem length_eq_total {α : Type} (xs : List α) : xs.length = total (fun _ => 1) xs := by
  induction xs with
  | nil => rfl
  | cons y ys ih => rw [total_cons, List.length_cons, ih]; omega

/-! ## Driver cards -/

/-- Each block is in at most one of several places that exclude each other. -/
theorem places_once (ps : List (Block → Bool)) (hd : ps.Pairwise fun p q => ∀ b, p b = true → q b = false) (n : Nat) (b : Block) :
    total (fun p => if p b then n else 0) ps ≤ n := by
  induction ps with
  | nil => exact Nat.zero_le _
  | cons p ps ih =>
    rw [List.pairwise_cons] at hd
    rw [total_cons]
    by_cases hp : p b = true
    · have : total (fun p => if p b = true then n else 0) ps = 0 := by
        have h := total_le (n := fun p : Block → Bool => if p b = true then n else 0) (m := fun _ => 0) (xs := ps)
          fun q hq => by simp [hd.1 q hq b hp]
        have h0 : total (fun _ => 0) ps = 0 := by
          clear h ih hd
          induction ps with
          | nil => rfl
          | cons _ _ ih => rw [total_cons, ih]
        omega
      rw [this]; simp [hp]
    · simp only [if_neg hp]
      have := ih hd.2
      omega

/-- The bytes of the newest blocks of several places that exclude each other are bytes of the file. -/
theorem newest_sum (bs : List Block) (ps : List (Block → Bool)) (hd : ps.Pairwise fun p q => ∀ b, p b = true → q b = false) :
    total (fun p => inPart (fun b : Block => b.data.value.length) (newest bs p)) ps ≤ total (fun b => b.data.value.length) bs := by
  have h1 : ∀ p ∈ ps, inPart (fun b : Block => b.data.value.length) (newest bs p) ≤ total (fun b => if p b then b.data.value.length else 0) bs := by
    intro p _
    cases h : newest bs p with
    | none => exact Nat.zero_le _
    | some b =>
      have hm := List.mem_of_getLast? h
      rw [List.mem_filter] at hm
      have := total_mem (fun b => if p b = true then b.data.value.length else 0) hm.1
      simpa [inPart, hm.2] using this
  refine Nat.le_trans (total_le h1) ?_
  clear h1
  induction bs with
  | nil =>
    clear hd
    induction ps with
    | nil => exact Nat.le_refl _
    | cons p ps ih => rw [total_cons]; simpa [total] using ih
  | cons b bs ih =>
    rw [total_cons]
    have h2 : total (fun p : Block → Bool => total (fun b => if p b = true then b.data.value.length else 0) (b :: bs)) ps
        = total (fun p => if p b = true then b.data.value.length else 0) ps
          + total (fun p => total (fun b => if p b = true then b.data.value.length else 0) bs) ps := by
      clear hd ih
      induction ps with
      | nil => rfl
      | cons p ps ih => simp only [total_cons] at ih ⊢; omega
    rw [h2]
    have := places_once ps hd b.data.value.length b
    omega

section
variable [Charmap]

theorem part_le {α : Type} {n : α → Nat} {p : Bytes → Res α} (h : ∀ d x, p d = .ok x → n x ≤ d.length) (o : Option Block) :
    inPart (fun x : Signed α => n x.data) (o.bind (Block.readSigned p)) ≤ inPart (fun b : Block => b.data.value.length) o := by
  cases o with
  | none => exact Nat.zero_le _
  | some b =>
    rw [Option.bind_some]
    unfold Block.readSigned Block.read
    cases hp : p b.data.value with
    | ok x => exact h _ _ hp
    | err => exact Nat.zero_le _
    | panic => exact Nat.zero_le _

omit [Charmap] in
theorem recordsAre_le {α : Type} {f : Bytes → Res α} {h n : Nat} {d : Bytes} {rs : List α} (hr : RecordsAre f h n d rs) : rs.length ≤ d.length := by
  rw [hr.1, recordCount]
  exact Nat.le_trans (Nat.div_le_self _ _) (Nat.sub_le _ _)

theorem events_le (d : Bytes) (x) (h : unmarshalEventsData d = .ok x) : x.length ≤ d.length := by
  have := recordsAre_le (events_fields d x h)
  rwa [List.length_map] at this

omit [Charmap] in
theorem units_le (d : Bytes) (x) (h : unmarshalVehicleUnitsUsed d = .ok x) : x.2.length ≤ d.length := by
  rw [vehicleUnits_eq] at h
  split at h
  · cases h
  · cases h
    have := congrArg List.length (scan_fixed (by omega : 0 < 10) (by omega) (d.drop 2)).1
    rw [List.length_map, cut_length (by omega), List.length_drop] at this
    rw [List.length_map, this]
    omega

/-- The places of the lists of a driver card other than the daily activity records. -/
def listPlaces : List (Block → Bool) :=
  [fileGen .eventsData .gen1, fileGen .faultsData .gen1, fileGen .vehiclesUsed .gen1, fileGen .places .gen1, fileGen .specificConditions .gen1,
   fileGen .eventsData .gen2, fileGen .faultsData .gen2, fileGen .vehiclesUsed .gen2, fileGen .places .gen2, fileGen .specificConditions .gen2,
   file .vehicleUnitsUsed, file .gnssPlaces]

omit [Charmap] in
theorem listPlaces_exclude : listPlaces.Pairwise fun p q => ∀ b, p b = true → q b = false := by
  have h : ∀ f f' g g', f ≠ f' ∨ g ≠ g' → ∀ b, fileGen f g b = true → fileGen f' g' b = false := by
    intro f f' g g' h b hb
    simp only [fileGen, Bool.and_eq_true, beq_iff_eq] at hb
    simp only [fileGen, Bool.and_eq_false_iff, beq_eq_false_iff_ne]
    rcases h with h | h
    · exact .inl fun e => h (hb.1.symm.trans e)
    · exact .inr fun e => h (hb.2.symm.trans e)
  have h1 : ∀ f f' g, f ≠ f' → ∀ b, fileGen f g b = true → file f' b = false := by
    intro f f' g h b hb
    simp only [fileGen, Bool.and_eq_true, beq_iff_eq] at hb
    simp only [file, beq_eq_false_iff_ne]
    exact fun e => h (hb.1.symm.trans e)
  have h2 : ∀ f f', f ≠ f' → ∀ b, file f b = true → file f' b = false := by
    intro f f' h b hb
    simp only [file, beq_iff_eq] at hb
    simp only [file, beq_eq_false_iff_ne]
    exact fun e => h (hb.symm.trans e)
  simp only [listPlaces, List.pairwise_cons, List.mem_cons, List.not_mem_nil, or_false, forall_eq_or_imp, forall_eq, List.Pairwise.nil, and_true,
    IsEmpty.forall_iff, implies_true]
  repeat' apply And.intro
  all_goals first
    | exact h _ _ _ _ (by decide)
    | exact h1 _ _ _ (by decide)
    | exact h2 _ _ (by decide)

/-- The lists of a card have no more records than the data of the blocks has bytes. -/
theorem card_records (bs : List Block) : cardRecords (cardOf bs) ≤ total (fun b => b.data.value.length) bs := by
  have hsum := newest_sum bs listPlaces listPlaces_exclude
  simp only [listPlaces, total_cons] at hsum
  have hv := part_le (n := fun x : RecordFile CardVehicleRecord => x.records.length) (p := unmarshalVehiclesUsed)
    (fun d x h => recordsAre_le ((vehiclesUsed_ok_iff d x).1 h).2.2.2) (newest bs (fileGen .vehiclesUsed .gen1))
  have hp := part_le (n := fun x : RecordFile PlaceRecord => x.records.length) (p := unmarshalPlaces)
    (fun d x h => recordsAre_le ((places_ok_iff d x).1 h).2.2.2) (newest bs (fileGen .places .gen1))
  have hc := part_le (n := fun x : RecordFile SpecificConditionRecord => x.records.length) (p := unmarshalSpecificConditions)
    (fun d x h => recordsAre_le ((specificConditions_ok_iff d x).1 h).2.2) (newest bs (fileGen .specificConditions .gen1))
  have hv2 := part_le (n := fun x : RecordFile CardVehicleRecordG2 => x.records.length) (p := unmarshalVehiclesUsedG2)
    (fun d x h => recordsAre_le ((vehiclesUsedG2_ok_iff d x).1 h).2.2.2) (newest bs (fileGen .vehiclesUsed .gen2))
  have hp2 := part_le (n := fun x : RecordFile PlaceRecordG2 => x.records.length) (p := unmarshalPlacesG2)
    (fun d x h => recordsAre_le ((placesG2_ok_iff d x).1 h).2.2.2) (newest bs (fileGen .places .gen2))
  have hc2 := part_le (n := fun x : RecordFile SpecificConditionRecord => x.records.length) (p := unmarshalSpecificConditionsG2)
    (fun d x h => recordsAre_le ((specificConditionsG2_ok_iff d x).1 h).2.2.2) (newest bs (fileGen .specificConditions .gen2))
  have hu := part_le (n := fun x : Int × List VehicleUnitRecord => x.2.length) units_le (newest bs (file .vehicleUnitsUsed))
  have hg := part_le (n := fun x : Int × List GnssPlaceEntry => x.2.length) (p := unmarshalGnssPlaces)
    (fun d x h => recordsAre_le ((gnssPlaces_ok_iff d x.1 x.2).1 h).2.2.2) (newest bs (file .gnssPlaces))
  have he := fun o => part_le (n := fun x : List EventRecord => x.length) events_le o
  have e1 := he (newest bs (fileGen .eventsData .gen1))
  have e2 := he (newest bs (fileGen .faultsData .gen1))
  have e3 := he (newest bs (fileGen .eventsData .gen2))
  have e4 := he (newest bs (fileGen .faultsData .gen2))
  have h1 : inPart gen1Records (cardOf bs).tachograph ≤ gen1Records (gen1Of bs) := by
    simp only [cardOf]; split
    · exact Nat.le_refl _
    · exact Nat.zero_le _
  have h2 : inPart gen2Records (cardOf bs).tachographG2 ≤ gen2Records (gen2Of bs) := by
    simp only [cardOf]; split
    · exact Nat.le_refl _
    · exact Nat.zero_le _
  rw [gen1Records, gen1Of] at h1
  rw [gen2Records, gen2Of] at h2
  unfold cardRecords
  dsimp only at h1 h2 hv hp hc hv2 hp2 hc2 hu hg e1 e2 e3 e4
  omega

omit [Charmap] in
theorem blocks_bytes (bs : List Block) : total (fun b => b.data.value.length) bs ≤ total (fun r => r.value.length) (bs.flatMap Block.records) := by
  induction bs with
  | nil => exact Nat.le_refl _
  | cons b bs ih =>
    rw [List.flatMap_cons, total_append, total_cons, Block.records, total_cons]
    omega

omit [Charmap] in
theorem file_bytes (rs : List Tlv) : total (fun r => r.value.length) (rs.map Tlv.record) + 5 * rs.length = (fileBytes rs).length := by
  induction rs with
  | nil => rfl
  | cons r rs ih =>
    have hc : fileBytes (r :: rs) = r.bytes ++ fileBytes rs := by simp [fileBytes]
    rw [hc, List.map_cons, total_cons, List.length_append, ← ih, List.length_cons]
    have : r.bytes.length = 5 + r.value.length := by simp [Tlv.bytes]; omega
    rw [this]
    show r.value.length + _ + _ = _
    omega

/-! ## Vehicle units -/

theorem overview_records (v : Bytes) (o : OverviewGen1) (h : unmarshalOverviewGen1 v = .ok o) : overviewRecords o ≤ v.length := by
  obtain ⟨n, k, ⟨_, _, hl⟩, hi⟩ := (overview_iff v o).1 h
  obtain ⟨_, _, _, _, _, _, _, _, ⟨_, _, _, _, hd⟩, ⟨hk, _⟩, ⟨hc, _⟩, _⟩ := hi
  rw [overviewRecords, hd, hk, hc]
  simp only [List.length_cons, List.length_nil]
  omega

theorem activities_records (v : Bytes) (a : ActivitiesGen1) (h : unmarshalActivitiesGen1 v = .ok a) : activitiesRecords a ≤ v.length := by
  obtain ⟨n, k, p, c, ⟨_, _, _, _, hl⟩, hi⟩ := (activities_iff v a).1 h
  obtain ⟨_, _, _, ⟨h1, _⟩, ⟨h2, _⟩, ⟨h3, _⟩, ⟨h4, _⟩, _⟩ := hi
  rw [activitiesRecords, h1, h2, h3, h4]
  omega

omit [Charmap] in
/-- The values of transfers of different types are bytes of the download. -/
theorem values_bytes (ts : List Transfer) (tys : List TransferType) (hn : tys.Nodup) :
    total (fun ty => total (fun v => v.length + 1) (valuesOf ty ts)) tys ≤ (vuBytes ts).length := by
  induction ts with
  | nil =>
    clear hn
    induction tys with
    | nil => exact Nat.le_refl _
    | cons p ps ih => rw [total_cons]; simpa [total, valuesOf] using ih
  | cons t ts ih =>
    have hc : vuBytes (t :: ts) = t.bytes ++ vuBytes ts := by simp [vuBytes]
    have ht : t.bytes.length = 2 + t.value.length := by simp [Transfer.bytes]; omega
    rw [hc, List.length_append, ht]
    have h2 : total (fun ty => total (fun v : Bytes => v.length + 1) (valuesOf ty (t :: ts))) tys
        = total (fun ty => if t.type = ty then t.value.length + 1 else 0) tys + total (fun ty => total (fun v => v.length + 1) (valuesOf ty ts)) tys := by
      clear hn ih
      induction tys with
      | nil => rfl
      | cons ty tys ih =>
        rw [total_cons, total_cons, total_cons, ih]
        by_cases h : t.type = ty
        · have : valuesOf ty (t :: ts) = t.value :: valuesOf ty ts := by simp [valuesOf, h]
          rw [this, total_cons, if_pos h]; omega
        · have : valuesOf ty (t :: ts) = valuesOf ty ts := by simp [valuesOf, h]
          rw [this, if_neg h]; omega
    have h3 : total (fun ty => if t.type = ty then t.value.length + 1 else 0) tys ≤ t.value.length + 1 := by
      clear h2 ih
      induction tys with
      | nil => exact Nat.zero_le _
      | cons ty tys ih =>
        rw [List.nodup_cons] at hn
        rw [total_cons]
        by_cases h : t.type = ty
        · have : total (fun ty => if t.type = ty then t.value.length + 1 else 0) tys = 0 := by
            have hle := total_le (n := fun ty => if t.type = ty then t.value.length + 1 else 0) (m := fun _ => 0) (xs := tys)
              fun q hq => by
                rw [if_neg]
                · exact Nat.le_refl _
                · rintro rfl; subst h; exact hn.1 hq
            have h0 : total (fun _ : TransferType => 0) tys = 0 := by
              clear hle ih hn
              induction tys with
              | nil => rfl
              | cons _ _ ih => rw [total_cons, ih]
            omega
          rw [this, if_pos h]; omega
        · rw [if_neg h]
          have := ih hn.2
          omega
    omega

theorem vu_records (d : Bytes) (v : VehicleUnitFile) (h : unmarshalVehicleUnitFile d = .ok v) : vuRecords v ≤ d.length := by
  have hlen : ∀ (l : List Bytes), l.length ≤ total (fun v => v.length + 1) l := by
    intro l
    rw [length_eq_total]
    exact total_le fun _ _ => by omega
  obtain ⟨ts, _, rfl, _, ⟨_, g, hg, rfl⟩ | ⟨_, rfl⟩ | ⟨_, _, rfl⟩⟩ := (vu_file_iff d v).1 h
  · obtain ⟨os, ho, hlast, ha, he, hs, ht⟩ := hg
    have hb := values_bytes ts [.overviewGen1, .activitiesGen1, .eventsGen1, .speedGen1, .technicalGen1] (by decide)
    simp only [total_cons] at hb
    have h1 : inPart overviewRecords g.overview ≤ total (fun v => v.length + 1) (valuesOf .overviewGen1 ts) := by
      rw [hlast]
      cases hl : os.getLast? with
      | none => exact Nat.zero_le _
      | some o =>
        refine Nat.le_trans (total_mem overviewRecords (List.mem_of_getLast? hl)) ?_
        exact total_forall₂ (fun v o h => Nat.le_succ_of_le (overview_records v o h)) ho
    have h2 : total activitiesRecords g.activities ≤ total (fun v => v.length + 1) (valuesOf .activitiesGen1 ts) :=
      total_forall₂ (fun v o h => Nat.le_succ_of_le (activities_records v o h)) ha
    have h3 := hlen (valuesOf .eventsGen1 ts)
    have h4 := hlen (valuesOf .speedGen1 ts)
    have h5 := hlen (valuesOf .technicalGen1 ts)
    simp only [vuRecords, inPart, vuGen1Records, he, hs, ht, List.length_map]
    simp only [inPart] at h1
    omega
  · have hb := values_bytes ts [.speedGen2] (by decide)
    simp only [total_cons] at hb
    have h3 := hlen (valuesOf .speedGen2 ts)
    simp only [vuRecords, inPart, vuGen2Records, gen2Message, List.length_map, List.length_nil]
    omega
  · have hb := values_bytes ts [.speedGen2] (by decide)
    simp only [total_cons] at hb
    have h3 := hlen (valuesOf .speedGen2 ts)
    simp only [vuRecords, inPart, vuGen2Records, gen2Message, List.length_map, List.length_nil]
    omega

/-! ## Files -/

/-- C77: apart from the daily activity records of driver cards, a message has at most as many records as the file has bytes. -/
theorem message_records (d : Bytes) (f : File) (h : unmarshalFile d = .ok f) : recordsIn f ≤ d.length := by
  rcases (file_iff _ _).1 h with ⟨_, v, _, hv, rfl⟩ | ⟨_, raw, _, hraw, hcase⟩
  · have := vu_records d v hv
    simpa [recordsIn, inPart] using this
  · obtain ⟨rs, hs, rfl⟩ := (raw_card_accepts_iff d).1 ⟨_, hraw⟩
    rw [parse_fileBytes rs hs, Res.ok.injEq] at hraw
    subst hraw
    have hb := file_bytes rs
    rcases hcase with ⟨_, c, hc, rfl⟩ | ⟨_, rfl⟩
    · obtain ⟨bs, he, _, rfl⟩ := (driver_card_iff _ _).1 hc
      have h1 := card_records bs
      have h2 := blocks_bytes bs
      rw [← he] at h2
      simp only [recordsIn, inPart]
      omega
    · simp only [recordsIn, inPart, List.length_map]
      omega

end

end Tacho
