import Verif.Spec.Join
import Verif.Props.CutOff
/-!
# C78: two downloads, one after the other in one file
-/

namespace Tacho
open Spec

theorem fileBytes_append (p q : List Tlv) : fileBytes (p ++ q) = fileBytes p ++ fileBytes q := by simp [fileBytes]

theorem newest_append (bs cs : List Block) (here : Block → Bool) :
    newest (bs ++ cs) here = (newest cs here).or (newest bs here) := by
  unfold newest
  rw [List.filter_append, List.getLast?_append]

theorem newest_mem {bs : List Block} {here : Block → Bool} {b : Block} (h : newest bs here = some b) : b ∈ bs ∧ here b = true := by
  unfold newest at h
  exact List.mem_filter.1 (List.mem_of_getLast? h)

section
variable [Charmap]

theorem place_append {α : Type} {bs cs : List Block} {here : Block → Bool} {R : Block → Option α}
    (h : ∀ b ∈ cs, here b = true → R b ≠ none) :
    (newest (bs ++ cs) here).bind R = ((newest cs here).bind R).or ((newest bs here).bind R) := by
  rw [newest_append]
  cases hn : newest cs here with
  | none => simp
  | some b =>
    obtain ⟨hb, hh⟩ := newest_mem hn
    have := h b hb hh
    cases hr : R b with
    | none => exact absurd hr this
    | some x => simp [hr]

theorem read_some {α : Type} {p : Bytes → Res α} {b : Block} (h : b.Reads p) : b.read p ≠ none := by
  obtain ⟨x, hx⟩ := h
  simp [Block.read, hx]

theorem readSigned_some {α : Type} {p : Bytes → Res α} {b : Block} (h : b.Reads p) : b.readSigned p ≠ none := by
  obtain ⟨x, hx⟩ := h
  simp [Block.readSigned, Block.read, hx]

theorem byGen1 {α β : Type} {p : Bytes → Res α} {q : Bytes → Res β} {b : Block} (h : b.ReadsByGen p q) (hg : b.data.generation = .gen1) : b.Reads p := by
  rcases h with h | h
  · exact h.2
  · rw [hg] at h; cases h.1

theorem byGen2 {α β : Type} {p : Bytes → Res α} {q : Bytes → Res β} {b : Block} (h : b.ReadsByGen p q) (hg : b.data.generation = .gen2) : b.Reads q := by
  rcases h with h | h
  · rw [hg] at h; cases h.1
  · exact h.2

theorem gen1Of_append {bs cs : List Block} (h : ∀ b ∈ cs, b.Readable) : gen1Of (bs ++ cs) = joinGen1 (gen1Of bs) (gen1Of cs) := by
  simp only [gen1Of, joinGen1, Tachograph.mk.injEq]
  refine ⟨?_, ?_, ?_, ?_, ?_, ?_, ?_, ?_, ?_, ?_, ?_, ?_, ?_, ?_⟩ <;>
  · apply place_append
    intro b hb hh
    simp only [fileGen, Bool.and_eq_true, beq_iff_eq] at hh
    have := h b hb
    simp only [Block.Readable, hh.1] at this
    first
      | exact readSigned_some (byGen1 this hh.2)
      | exact read_some (byGen1 this.2 hh.2)
      | exact read_some this.2.2

theorem gen2Of_append {bs cs : List Block} (h : ∀ b ∈ cs, b.Readable) : gen2Of (bs ++ cs) = joinGen2 (gen2Of bs) (gen2Of cs) := by
  simp only [gen2Of, joinGen2, TachographG2.mk.injEq]
  refine ⟨?_, ?_, ?_, ?_, ?_, ?_, ?_, ?_, ?_, ?_, ?_, ?_, ?_, ?_, ?_, ?_, ?_, ?_, ?_⟩ <;>
  · apply place_append
    intro b hb hh
    simp only [fileGen, file, Bool.and_eq_true, beq_iff_eq] at hh
    have := h b hb
    first
      | (simp only [Block.Readable, hh.1] at this
         first
           | exact readSigned_some (byGen2 this hh.2)
           | exact read_some (byGen2 this.2 hh.2)
           | exact read_some this.2.2)
      | (simp only [Block.Readable, hh] at this
         exact readSigned_some this)

theorem gen1Of_absent {bs : List Block} (h : bs.any inGen1 = false) : gen1Of bs = {} := by
  have key : ∀ f, f ∈ gen1Files → newest bs (fileGen f .gen1) = none := by
    intro f hf
    cases hn : newest bs (fileGen f .gen1) with
    | none => rfl
    | some b =>
      obtain ⟨hb, hh⟩ := newest_mem hn
      have := List.any_eq_false.1 h b hb
      simp only [fileGen, Bool.and_eq_true, beq_iff_eq] at hh
      simp [inGen1, hh.1, hh.2, hf] at this
  simp only [gen1Of, Tachograph.mk.injEq]
  refine ⟨?_, ?_, ?_, ?_, ?_, ?_, ?_, ?_, ?_, ?_, ?_, ?_, ?_, ?_⟩ <;> (rw [key _ (by decide)]; rfl)

theorem gen2Of_absent {bs : List Block} (h : bs.any inGen2 = false) : gen2Of bs = {} := by
  have key : ∀ f, f ∈ gen2SharedFiles → newest bs (fileGen f .gen2) = none := by
    intro f hf
    cases hn : newest bs (fileGen f .gen2) with
    | none => rfl
    | some b =>
      obtain ⟨hb, hh⟩ := newest_mem hn
      have := List.any_eq_false.1 h b hb
      simp only [fileGen, Bool.and_eq_true, beq_iff_eq] at hh
      simp [inGen2, hh.1, hh.2, hf] at this
  have key2 : ∀ f, f ∈ gen2OnlyFiles → newest bs (file f) = none := by
    intro f hf
    cases hn : newest bs (file f) with
    | none => rfl
    | some b =>
      obtain ⟨hb, hh⟩ := newest_mem hn
      have := List.any_eq_false.1 h b hb
      simp only [file, beq_iff_eq] at hh
      simp [inGen2, hh, hf] at this
  simp only [gen2Of, TachographG2.mk.injEq]
  refine ⟨?_, ?_, ?_, ?_, ?_, ?_, ?_, ?_, ?_, ?_, ?_, ?_, ?_, ?_, ?_, ?_, ?_, ?_, ?_⟩ <;>
    first | (rw [key _ (by decide)]; rfl) | (rw [key2 _ (by decide)]; rfl)

theorem joinGen1_empty (a : Tachograph) : joinGen1 {} a = a ∧ joinGen1 a {} = a := by simp [joinGen1]

theorem joinGen2_empty (a : TachographG2) : joinGen2 {} a = a ∧ joinGen2 a {} = a := by simp [joinGen2]

theorem cardOf_append {bs cs : List Block} (h : ∀ b ∈ cs, b.Readable) : cardOf (bs ++ cs) = joinCards (cardOf bs) (cardOf cs) := by
  simp only [cardOf, joinCards, DriverCard.mk.injEq, List.any_append]
  refine ⟨?_, ?_, ?_, ?_⟩
  · apply place_append
    intro b hb hh
    simp only [file, beq_iff_eq] at hh
    have := h b hb
    simp only [Block.Readable, hh] at this
    exact read_some this.2
  · apply place_append
    intro b hb hh
    simp only [file, beq_iff_eq] at hh
    have := h b hb
    simp only [Block.Readable, hh] at this
    exact read_some this.2
  · rw [gen1Of_append h]
    cases h1 : bs.any inGen1 <;> cases h2 : cs.any inGen1 <;> simp [joinIf]
    · rw [gen1Of_absent h1, (joinGen1_empty _).1]
    · rw [gen1Of_absent h2, (joinGen1_empty _).2]
  · rw [gen2Of_append h]
    cases h1 : bs.any inGen2 <;> cases h2 : cs.any inGen2 <;> simp [joinIf]
    · rw [gen2Of_absent h1, (joinGen2_empty _).1]
    · rw [gen2Of_absent h2, (joinGen2_empty _).2]

/-- A driver card file, in parts. -/
theorem driver_file_parts {d : Bytes} {c : DriverCard} (h : unmarshalFile d = .ok { type := .driverCard, driverCard := some c }) :
    ∃ rs : List Tlv, (∀ r ∈ rs, r.value.length ≤ 65530) ∧ d = fileBytes rs ∧ inferFileType (rs.map Tlv.record) = .driverCard ∧
      unmarshalDriverCard (rs.map Tlv.record) = .ok c := by
  have hst := driver_file_starts h
  rcases (file_iff _ _).1 h with ⟨_, _, _, _, hf⟩ | ⟨rest, raw, hd, hraw, _⟩
  · simp at hf
  · obtain ⟨rs, hs, rfl⟩ := (raw_card_accepts_iff d).1 ⟨raw, hraw⟩
    obtain ⟨h1, h2⟩ := (driver_file_iff hs hst c).1 h
    exact ⟨rs, hs, rfl, h1, h2⟩

/-- C78: two downloads of driver cards in one file are read as one card that holds, for every file, what the second says, or else the
first. -/
theorem card_join (d e : Bytes) (a b : DriverCard) (hd : unmarshalFile d = .ok { type := .driverCard, driverCard := some a })
    (he : unmarshalFile e = .ok { type := .driverCard, driverCard := some b }) :
    unmarshalFile (d ++ e) = .ok { type := .driverCard, driverCard := some (joinCards a b) } := by
  have hst := driver_file_starts hd
  obtain ⟨rs, hrs, rfl, hri, hrc⟩ := driver_file_parts hd
  obtain ⟨ss, hss, rfl, hsi, hsc⟩ := driver_file_parts he
  rw [← fileBytes_append]
  rw [driver_file_iff]
  · refine ⟨?_, ?_⟩
    · rw [infer_driver_iff] at hri hsi ⊢
      rw [List.map_append]
      have : ∀ p q : List RawRec, dataFiles (p ++ q) = dataFiles p ++ dataFiles q := by simp [dataFiles]
      rw [this]
      refine ⟨by simp [hri.1], ?_⟩
      intro f hf
      rcases List.mem_append.1 hf with hf | hf
      · exact hri.2 f hf
      · exact hsi.2 f hf
    · obtain ⟨bs, h1, h2, rfl⟩ := (driver_card_iff _ _).1 hrc
      obtain ⟨cs, h3, h4, rfl⟩ := (driver_card_iff _ _).1 hsc
      refine (driver_card_iff _ _).2 ⟨bs ++ cs, ?_, ?_, ?_⟩
      · rw [List.map_append, h1, h3, List.flatMap_append]
      · intro b hb
        rcases List.mem_append.1 hb with hb | hb
        · exact h2 b hb
        · exact h4 b hb
      · exact (cardOf_append fun b hb => (h4 b hb).2).symm
  · intro r hr
    rcases List.mem_append.1 hr with hr | hr
    · exact hrs r hr
    · exact hss r hr
  · obtain ⟨rest, hst⟩ := hst
    rw [fileBytes_append, hst]
    exact ⟨_, rfl⟩

/-- C78: a download that is contained twice is read as if it were contained once. -/
theorem card_twice (d : Bytes) (a : DriverCard) (hd : unmarshalFile d = .ok { type := .driverCard, driverCard := some a }) :
    unmarshalFile (d ++ d) = unmarshalFile d := by
  rw [card_join d d a a hd hd, hd]
  have h1 : ∀ t : Tachograph, joinGen1 t t = t := fun t => by simp [joinGen1]
  have h2 : ∀ t : TachographG2, joinGen2 t t = t := fun t => by simp [joinGen2]
  have : joinCards a a = a := by
    obtain ⟨icc, ic, t, g⟩ := a
    cases t <;> cases g <;> simp [joinCards, joinIf, h1, h2]
  rw [this]

/-- C78: for cards in general, the records of the second download follow those of the first. -/
theorem raw_card_join (d e : Bytes) (rs ss : List RawRec) (hd : unmarshalRawCardFile d = .ok rs) (he : unmarshalRawCardFile e = .ok ss) :
    unmarshalRawCardFile (d ++ e) = .ok (rs ++ ss) := by
  obtain ⟨ts, h1, rfl⟩ := (raw_card_accepts_iff d).1 ⟨_, hd⟩
  obtain ⟨us, h2, rfl⟩ := (raw_card_accepts_iff e).1 ⟨_, he⟩
  rw [parse_fileBytes _ h1, Res.ok.injEq] at hd
  rw [parse_fileBytes _ h2, Res.ok.injEq] at he
  subst hd he
  rw [← fileBytes_append, parse_fileBytes, List.map_append]
  intro r hr
  rcases List.mem_append.1 hr with hr | hr
  · exact h1 r hr
  · exact h2 r hr

/-! ## Vehicle units -/

omit [Charmap] in
theorem vuBytes_append (ts us : List Transfer) : vuBytes (ts ++ us) = vuBytes ts ++ vuBytes us := by simp [vuBytes]

theorem vu_file_parts {d : Bytes} {w : VehicleUnitFile} (h : unmarshalFile d = .ok { type := .vehicleUnit, vehicleUnit := some w }) :
    unmarshalVehicleUnitFile d = .ok w ∧ ∃ rest, d = 0x76 :: rest := by
  rcases (file_iff _ _).1 h with ⟨rest, _, hd, hv, hf⟩ | ⟨_, _, _, _, ⟨_, _, _, hf⟩ | ⟨_, hf⟩⟩
  · simp only [File.mk.injEq, Option.some.injEq, true_and] at hf
    rw [hf.1]
    exact ⟨hv, rest, hd⟩
  · simp at hf
  · simp at hf

omit [Charmap] in
theorem only_append {types : List TransferType} {ts us : List Transfer} : Only types (ts ++ us) ↔ Only types ts ∧ Only types us := by
  simp only [Only, List.mem_append]
  exact ⟨fun h => ⟨fun t ht => h t (.inl ht), fun t ht => h t (.inr ht)⟩, fun h t ht => ht.elim (h.1 t) (h.2 t)⟩

omit [Charmap] in
theorem gen2Message_append (ov : TransferType) (ts us : List Transfer) :
    gen2Message ov (ts ++ us) = joinVuGen2 (gen2Message ov ts) (gen2Message ov us) := by
  simp only [gen2Message, joinVuGen2, valuesOf_append, List.getLast?_append, List.map_append, VuGen2.mk.injEq, and_true, List.append_nil]
  cases (valuesOf ov us).getLast? <;> simp

omit [Charmap] in
theorem valuesOf_other {ov : TransferType} {types : List TransferType} {ts : List Transfer} (h : Only types ts) (ho : ov ∉ types) :
    valuesOf ov ts = [] := by
  have : ts.filter (fun t => t.type = ov) = [] := by
    rw [List.filter_eq_nil_iff]
    intro t ht he
    simp only [decide_eq_true_eq] at he
    exact ho (he ▸ h t ht)
  simp [valuesOf, this]

omit [Charmap] in
/-- Detailed speed alone is the same in both versions. -/
theorem gen2Message_speed {ts : List Transfer} (h : Only [.speedGen2] ts) : gen2Message .overviewG2V1 ts = gen2Message .overviewG2V2 ts := by
  simp only [gen2Message, valuesOf_other h (by decide : TransferType.overviewG2V1 ∉ _), valuesOf_other h (by decide : TransferType.overviewG2V2 ∉ _)]

omit [Charmap] in
theorem no_overview_iff {ts : List Transfer} (h : Only [.overviewG2V1, .speedGen2] ts) :
    (gen2Message .overviewG2V1 ts).overview = none ↔ Only [.speedGen2] ts := by
  simp only [gen2Message, Option.map_eq_none_iff, List.getLast?_eq_none_iff, valuesOf, List.map_eq_nil_iff, List.filter_eq_nil_iff, decide_eq_true_eq]
  constructor
  · intro hn t ht
    have := h t ht
    simp only [List.mem_cons, List.not_mem_nil, or_false] at this ⊢
    exact this.resolve_left (hn t ht)
  · intro hs t ht he
    have := hs t ht
    rw [he] at this
    exact absurd this (by decide)

theorem gen1Is_append {ts us : List Transfer} {a b : VuGen1} (h1 : Gen1Is ts a) (h2 : Gen1Is us b) : Gen1Is (ts ++ us) (joinVuGen1 a b) := by
  obtain ⟨os, a1, a2, a3, a4, a5, a6⟩ := h1
  obtain ⟨ps, b1, b2, b3, b4, b5, b6⟩ := h2
  refine ⟨os ++ ps, ?_, ?_, ?_, ?_, ?_, ?_⟩
  · rw [valuesOf_append]; exact List.rel_append a1 b1
  · simp [joinVuGen1, a2, b2, List.getLast?_append]
  · rw [valuesOf_append]; exact List.rel_append a3 b3
  · rw [valuesOf_append, List.map_append, ← a4, ← b4]; rfl
  · rw [valuesOf_append, List.map_append, ← a5, ← b5]; rfl
  · rw [valuesOf_append, List.map_append, ← a6, ← b6]; rfl

theorem gen1Is_unique {ts : List Transfer} {a b : VuGen1} (h1 : Gen1Is ts a) (h2 : Gen1Is ts b) : a = b := by
  obtain ⟨os, a1, a2, a3, a4, a5, a6⟩ := h1
  obtain ⟨ps, b1, b2, b3, b4, b5, b6⟩ := h2
  obtain rfl : os = ps := List.right_unique_forall₂' (fun e v w h1 h2 => by rw [h1] at h2; exact Res.ok.inj h2) a1 b1
  have h3 : a.activities = b.activities := List.right_unique_forall₂' (fun e v w h1 h2 => by rw [h1] at h2; exact Res.ok.inj h2) a3 b3
  obtain ⟨_, _, _, _, _⟩ := a
  obtain ⟨_, _, _, _, _⟩ := b
  simp_all

theorem vu_file_cut {d : Bytes} {w : VehicleUnitFile} (h : unmarshalVehicleUnitFile d = .ok w) :
    ∃ ts, ts ≠ [] ∧ d = vuBytes ts ∧ ∀ t ∈ ts, Conforms t.type t.value ∧ t.type ≠ .cardDownload := by
  obtain ⟨ts, hts, rfl, hc, hta⟩ := (vu_file_iff _ _).1 h
  refine ⟨ts, hts, rfl, fun t ht => ⟨hc t ht, fun hcd => ?_⟩⟩
  rcases hta with ⟨h, -⟩ | ⟨h, -⟩ | ⟨h, -⟩ <;>
  · have := h t ht
    rw [hcd] at this
    exact absurd this (by decide)

/-- C78: two downloads of vehicle units in one file are read as one if they are of the same generation and version, or one of them
holds nothing but detailed speed of Gen2. -/
theorem vu_join (d e : Bytes) (a b : VehicleUnitFile) (hd : unmarshalFile d = .ok { type := .vehicleUnit, vehicleUnit := some a })
    (he : unmarshalFile e = .ok { type := .vehicleUnit, vehicleUnit := some b }) (f : File) :
    unmarshalFile (d ++ e) = .ok f ↔ ∃ w, JoinedVu a b w ∧ f = { type := .vehicleUnit, vehicleUnit := some w } := by
  obtain ⟨hda, rest, hdr⟩ := vu_file_parts hd
  obtain ⟨heb, _, _⟩ := vu_file_parts he
  obtain ⟨ts, hts, rfl, htc, hta⟩ := (vu_file_iff _ _).1 hda
  obtain ⟨us, hus, rfl, huc, hub⟩ := (vu_file_iff _ _).1 heb
  obtain ⟨t0, ht0⟩ := List.exists_mem_of_ne_nil ts hts
  obtain ⟨u0, hu0⟩ := List.exists_mem_of_ne_nil us hus
  have hfile : unmarshalFile (vuBytes ts ++ vuBytes us) = .ok f ↔ ∃ w, unmarshalVehicleUnitFile (vuBytes (ts ++ us)) = .ok w ∧
      f = { type := .vehicleUnit, vehicleUnit := some w } := by
    rw [file_iff, vuBytes_append]
    constructor
    · rintro (⟨_, w, _, hw, rfl⟩ | ⟨_, _, h, _⟩)
      · exact ⟨w, hw, rfl⟩
      · rw [hdr] at h
        exact absurd (List.cons.inj h).1 (by decide)
    · rintro ⟨w, hw, rfl⟩
      exact .inl ⟨rest ++ vuBytes us, w, by rw [hdr]; rfl, hw, rfl⟩
  have htn : ∀ t ∈ ts, t.type ≠ .cardDownload := by
    intro t ht hcd
    rcases hta with ⟨h, -⟩ | ⟨h, -⟩ | ⟨h, -⟩ <;>
    · have := h t ht
      rw [hcd] at this
      exact absurd this (by decide)
  have hun : ∀ t ∈ us, t.type ≠ .cardDownload := by
    intro t ht hcd
    rcases hub with ⟨h, -⟩ | ⟨h, -⟩ | ⟨h, -⟩ <;>
    · have := h t ht
      rw [hcd] at this
      exact absurd this (by decide)
  have hall : ∀ t ∈ ts ++ us, Conforms t.type t.value := fun t ht => (List.mem_append.1 ht).elim (htc t) (huc t)
  have hcut : Cut (ts ++ us) [] := cut_of_conforms hall fun t ht => (List.mem_append.1 ht).elim (htn t) (hun t)
  have hvu : ∀ w, unmarshalVehicleUnitFile (vuBytes (ts ++ us)) = .ok w ↔
        ((Only gen1Types (ts ++ us) ∧ ∃ g, Gen1Is (ts ++ us) g ∧ w = { generation := .gen1, gen1 := some g })
        ∨ (Only [.overviewG2V1, .speedGen2] (ts ++ us)
            ∧ w = { generation := .gen2, version := .v1, gen2V1 := some (gen2Message .overviewG2V1 (ts ++ us)) })
        ∨ (Only [.downloadInterfaceVersion, .overviewG2V2, .speedGen2] (ts ++ us) ∧ ¬ Only [.speedGen2] (ts ++ us)
            ∧ w = { generation := .gen2, version := .v2, gen2V2 := some (gen2Message .overviewG2V2 (ts ++ us)) })) := by
    intro w
    rw [vu_file_iff]
    constructor
    · rintro ⟨vs, _, h1, h2, h3⟩
      have hcut' : Cut vs [] := by
        refine cut_of_conforms h2 fun t ht hcd => ?_
        rcases h3 with ⟨h, -⟩ | ⟨h, -⟩ | ⟨h, -⟩ <;>
        · have := h t ht
          rw [hcd] at this
          exact absurd this (by decide)
      obtain rfl := vu_cut_unique _ _ hcut hcut' h1
      exact h3
    · intro h
      exact ⟨_, by simp [hts], rfl, hall, h⟩
  rw [hfile]
  refine exists_congr fun w => and_congr_left fun _ => ?_
  rw [hvu]
  simp only [only_append, gen2Message_append]
  have clash : ∀ {types types' : List TransferType} {l : List Transfer} {t : Transfer}, t ∈ l → (∀ x ∈ types, x ∉ types') →
      Only types l → ¬ Only types' l := fun ht hx h1 h2 => hx _ (h1 _ ht) (h2 _ ht)
  rcases hta with ⟨h1, g1, hg1, rfl⟩ | ⟨h1, rfl⟩ | ⟨h1, h1n, rfl⟩ <;> rcases hub with ⟨h2, g2, hg2, rfl⟩ | ⟨h2, rfl⟩ | ⟨h2, h2n, rfl⟩
  · have k1 := clash ht0 (types' := [.overviewG2V1, .speedGen2]) (by decide) h1
    have k2 := clash ht0 (types' := [.downloadInterfaceVersion, .overviewG2V2, .speedGen2]) (by decide) h1
    simp only [h1, h2, k1, k2, false_and, or_false, true_and]
    constructor
    · rintro ⟨g, hg, rfl⟩
      rw [gen1Is_unique hg (gen1Is_append hg1 hg2)]
      exact .gen1 _ _
    · rintro ⟨⟩
      exact ⟨_, gen1Is_append hg1 hg2, rfl⟩
  · have k1 := clash ht0 (types' := [.overviewG2V1, .speedGen2]) (by decide) h1
    have k2 := clash ht0 (types' := [.downloadInterfaceVersion, .overviewG2V2, .speedGen2]) (by decide) h1
    have k3 := clash hu0 (types' := gen1Types) (by decide) h2
    simp only [k1, k2, k3, and_false, false_and, or_false, false_iff]
    rintro ⟨⟩
  · have k1 := clash ht0 (types' := [.overviewG2V1, .speedGen2]) (by decide) h1
    have k2 := clash ht0 (types' := [.downloadInterfaceVersion, .overviewG2V2, .speedGen2]) (by decide) h1
    have k3 := clash hu0 (types' := gen1Types) (by decide) h2
    simp only [k1, k2, k3, and_false, false_and, or_false, false_iff]
    rintro ⟨⟩
  · have k1 := clash hu0 (types' := [.overviewG2V1, .speedGen2]) (by decide) h2
    have k2 := clash hu0 (types' := [.downloadInterfaceVersion, .overviewG2V2, .speedGen2]) (by decide) h2
    have k3 := clash ht0 (types' := gen1Types) (by decide) h1
    simp only [k1, k2, k3, and_false, false_and, or_false, false_iff]
    rintro ⟨⟩
  · have k3 := clash ht0 (types' := gen1Types) (by decide) h1
    have k4 : ∀ l, Only [.overviewG2V1, .speedGen2] l → Only [.downloadInterfaceVersion, .overviewG2V2, .speedGen2] l → Only [.speedGen2] l := by
      intro l p q t ht
      have p := p t ht
      have q := q t ht
      revert p q
      cases t.type <;> decide
    simp only [h1, h2, k3, false_and, false_or, true_and]
    constructor
    · rintro (rfl | ⟨⟨p, q⟩, r, -⟩)
      · exact .v1 _ _
      · exact absurd ⟨k4 _ h1 p, k4 _ h2 q⟩ r
    · rintro ⟨⟩
      exact .inl rfl
  · have k3 := clash ht0 (types' := gen1Types) (by decide) h1
    have k5 : ¬ Only [.overviewG2V1, .speedGen2] us := by
      intro h
      apply h2n
      intro t ht
      have p := h t ht
      have q := h2 t ht
      revert p q
      cases t.type <;> decide
    have k6 : Only [.downloadInterfaceVersion, .overviewG2V2, .speedGen2] ts ↔ Only [.speedGen2] ts := by
      refine ⟨fun h t ht => ?_, fun h t ht => ?_⟩
      · have p := h t ht
        have q := h1 t ht
        revert p q
        cases t.type <;> decide
      · have p := h t ht
        revert p
        cases t.type <;> decide
    simp only [h2, h2n, k3, k5, k6, and_false, false_and, false_or, and_true, not_false_eq_true, true_and]
    constructor
    · rintro ⟨p, rfl⟩
      have q := (no_overview_iff h1).2 p
      rw [← gen2Message_speed p]
      exact .v12 _ _ q
    · intro h
      cases h with
      | v12 _ _ h =>
        have p := (no_overview_iff h1).1 h
        rw [← gen2Message_speed p]
        exact ⟨p, rfl⟩
  · have k1 := clash hu0 (types' := [.overviewG2V1, .speedGen2]) (by decide) h2
    have k2 := clash hu0 (types' := [.downloadInterfaceVersion, .overviewG2V2, .speedGen2]) (by decide) h2
    have k3 := clash ht0 (types' := gen1Types) (by decide) h1
    simp only [k1, k2, k3, and_false, false_and, or_false, false_iff]
    rintro ⟨⟩
  · have k3 := clash ht0 (types' := gen1Types) (by decide) h1
    have k5 : ¬ Only [.overviewG2V1, .speedGen2] ts := by
      intro h
      apply h1n
      intro t ht
      have p := h t ht
      have q := h1 t ht
      revert p q
      cases t.type <;> decide
    have k6 : Only [.downloadInterfaceVersion, .overviewG2V2, .speedGen2] us ↔ Only [.speedGen2] us := by
      refine ⟨fun h t ht => ?_, fun h t ht => ?_⟩
      · have p := h t ht
        have q := h2 t ht
        revert p q
        cases t.type <;> decide
      · have p := h t ht
        revert p
        cases t.type <;> decide
    simp only [h1, h1n, k3, k5, k6, false_and, false_or, not_false_eq_true, true_and]
    constructor
    · rintro ⟨p, rfl⟩
      have q := (no_overview_iff h2).2 p
      rw [← gen2Message_speed p]
      exact .v21 _ _ q
    · intro h
      cases h with
      | v21 _ _ h =>
        have p := (no_overview_iff h2).1 h
        rw [← gen2Message_speed p]
        exact ⟨p, rfl⟩
  · have k3 := clash ht0 (types' := gen1Types) (by decide) h1
    have k5 : ¬ Only [.overviewG2V1, .speedGen2] ts := by
      intro h
      apply h1n
      intro t ht
      have p := h t ht
      have q := h1 t ht
      revert p q
      cases t.type <;> decide
    simp only [h1, h2, h1n, k3, k5, false_and, false_or, not_false_eq_true, true_and]
    constructor
    · rintro rfl
      exact .v2 _ _
    · rintro ⟨⟩
      rfl

/-- C78: otherwise the file is refused; it does not crash the reader. -/
theorem vu_join_refused (d e : Bytes) (a b : VehicleUnitFile) (hd : unmarshalFile d = .ok { type := .vehicleUnit, vehicleUnit := some a })
    (he : unmarshalFile e = .ok { type := .vehicleUnit, vehicleUnit := some b }) (hn : ∀ w, ¬ JoinedVu a b w) :
    ∃ m, unmarshalFile (d ++ e) = .err m := by
  cases h : unmarshalFile (d ++ e) with
  | ok f => exact absurd ((vu_join d e a b hd he f).1 h) (fun ⟨w, hw, _⟩ => hn w hw)
  | err m => exact ⟨m, rfl⟩
  | panic =>
    exfalso
    obtain ⟨hda, rest, hdr⟩ := vu_file_parts hd
    obtain ⟨ts, _, hts, htc⟩ := vu_file_cut hda
    obtain ⟨us, _, hus, huc⟩ := vu_file_cut (vu_file_parts he).1
    rcases (file_panics_iff _).1 h with h | ⟨⟨_, h⟩, _⟩
    · rw [← vu_panics_iff, hts, hus, ← vuBytes_append] at h
      refine vu_no_panic_complete _ (cut_of_conforms ?_ ?_) h
      · exact fun t ht => (List.mem_append.1 ht).elim (fun k => (htc t k).1) (fun k => (huc t k).1)
      · exact fun t ht => (List.mem_append.1 ht).elim (fun k => (htc t k).2) (fun k => (huc t k).2)
    · rw [hdr] at h
      exact absurd (List.cons.inj h).1 (by decide)

/-- C78: whatever follows a vehicle unit download must begin like one, or the file is not read: a card, for one. -/
theorem vu_then_other (d e : Bytes) (a : VehicleUnitFile) (hd : unmarshalFile d = .ok { type := .vehicleUnit, vehicleUnit := some a })
    (x : UInt8) (r : Bytes) (he : e = x :: r) (hx : x ≠ 0x76) (f : File) : unmarshalFile (d ++ e) ≠ .ok f := by
  intro h
  obtain ⟨hda, rest, hdr⟩ := vu_file_parts hd
  obtain ⟨ts, _, hts, htc⟩ := vu_file_cut hda
  rcases (file_iff _ _).1 h with ⟨_, w, _, hw, _⟩ | ⟨_, _, h', _⟩
  · obtain ⟨vs, _, hvs, hvc⟩ := vu_file_cut hw
    rw [hts] at hvs
    obtain ⟨us, _, hus, _⟩ := vuBytes_prefix ts htc e vs (cut_of_conforms (fun t ht => (hvc t ht).1) fun t ht => (hvc t ht).2) hvs
    cases us with
    | nil => rw [he] at hus; simp [vuBytes] at hus
    | cons u us =>
      rw [he, vuBytes_cons, Transfer.bytes] at hus
      simp only [List.cons_append, List.cons.injEq] at hus
      exact hx hus.1
  · rw [hdr] at h'
    exact absurd (List.cons.inj h').1 (by decide)

end

end Tacho
