import Verif.Spec.VerifyRewritten
import Verif.Props.CardSettled
import Verif.Props.Protection
/-!
# C86: writing a card and reading it back does not change the answer of verification
-/

namespace Tacho
open Spec Spec.Regulation

section
variable [Charmap]

/-! ## An application that was read has a file -/

omit [Charmap] in
theorem newest_present {bs : List Block} {here : Block → Bool} {b : Block} (hb : b ∈ bs) (h : here b = true) :
    ∃ b', newest bs here = some b' ∧ b' ∈ bs ∧ here b' = true := by
  cases hn : newest bs here with
  | some b' => exact ⟨b', rfl, newest_some hn⟩
  | none =>
    rw [newest, List.getLast?_eq_none_iff] at hn
    have : b ∈ bs.filter here := List.mem_filter.2 ⟨hb, h⟩
    rw [hn] at this
    simp at this

omit [Charmap] in
theorem read_present {α : Type} {bs : List Block} {here : Block → Bool} {p : Bytes → Res α} {b : Block} (hb : b ∈ bs) (h : here b = true)
    (hr : ∀ b' ∈ bs, here b' = true → b'.Reads p) : (newest bs here).bind (Block.read p) ≠ none := by
  obtain ⟨b', h1, h2, h3⟩ := newest_present hb h
  obtain ⟨x, hx⟩ := hr b' h2 h3
  simp [h1, Block.read, hx]

omit [Charmap] in
theorem readSigned_present {α : Type} {bs : List Block} {here : Block → Bool} {p : Bytes → Res α} {b : Block} (hb : b ∈ bs)
    (h : here b = true) (hr : ∀ b' ∈ bs, here b' = true → b'.Reads p) : (newest bs here).bind (Block.readSigned p) ≠ none := by
  obtain ⟨b', h1, h2, h3⟩ := newest_present hb h
  obtain ⟨x, hx⟩ := hr b' h2 h3
  simp [h1, Block.readSigned, Block.read, hx]

omit [Charmap] in
theorem readsByGen_one {α β : Type} {p : Bytes → Res α} {q : Bytes → Res β} {b : Block} (h : b.ReadsByGen p q)
    (hg : b.data.generation = .gen1) : b.Reads p := by
  rcases h with ⟨_, h⟩ | ⟨h', _⟩
  · exact h
  · rw [hg] at h'; cases h'

omit [Charmap] in
theorem readsByGen_two {α β : Type} {p : Bytes → Res α} {q : Bytes → Res β} {b : Block} (h : b.ReadsByGen p q)
    (hg : b.data.generation = .gen2) : b.Reads q := by
  rcases h with ⟨h', _⟩ | ⟨_, h⟩
  · rw [hg] at h'; cases h'
  · exact h

theorem gen1_present {bs : List Block} (hr : ∀ b ∈ bs, b.Readable) (h : bs.any inGen1 = true) : gen1Of bs ≠ {} := by
  obtain ⟨b, hb, h⟩ := List.any_eq_true.1 h
  simp only [inGen1, gen1Files, Bool.and_eq_true, beq_iff_eq, List.contains_eq_mem, List.mem_cons, List.not_mem_nil, or_false,
    decide_eq_true_eq] at h
  obtain ⟨hg, hf⟩ := h
  have key : ∀ f b', b' ∈ bs → fileGen f .gen1 b' = true → b'.Readable ∧ b'.data.file = f ∧ b'.data.generation = .gen1 := by
    intro f b' h1 h2
    simp only [fileGen, Bool.and_eq_true, beq_iff_eq] at h2
    exact ⟨hr b' h1, h2⟩
  intro hc
  rcases hf with hf | hf | hf | hf | hf | hf | hf | hf | hf | hf | hf | hf | hf | hf
  · refine readSigned_present hb (by simp [fileGen, hf, hg]) (fun b' h1 h2 => ?_) (congrArg Tachograph.applicationIdentification hc)
    obtain ⟨a1, a2, a3⟩ := key _ b' h1 h2; simp only [Block.Readable, a2] at a1; exact readsByGen_one a1 a3
  · refine readSigned_present hb (by simp [fileGen, hf, hg]) (fun b' h1 h2 => ?_) (congrArg Tachograph.identification hc)
    obtain ⟨a1, a2, a3⟩ := key _ b' h1 h2; simp only [Block.Readable, a2] at a1; exact readsByGen_one a1 a3
  · refine readSigned_present hb (by simp [fileGen, hf, hg]) (fun b' h1 h2 => ?_) (congrArg Tachograph.drivingLicenceInfo hc)
    obtain ⟨a1, a2, a3⟩ := key _ b' h1 h2; simp only [Block.Readable, a2] at a1; exact readsByGen_one a1 a3
  · refine readSigned_present hb (by simp [fileGen, hf, hg]) (fun b' h1 h2 => ?_) (congrArg Tachograph.eventsData hc)
    obtain ⟨a1, a2, a3⟩ := key _ b' h1 h2; simp only [Block.Readable, a2] at a1; exact readsByGen_one a1 a3
  · refine readSigned_present hb (by simp [fileGen, hf, hg]) (fun b' h1 h2 => ?_) (congrArg Tachograph.faultsData hc)
    obtain ⟨a1, a2, a3⟩ := key _ b' h1 h2; simp only [Block.Readable, a2] at a1; exact readsByGen_one a1 a3
  · refine readSigned_present hb (by simp [fileGen, hf, hg]) (fun b' h1 h2 => ?_) (congrArg Tachograph.driverActivityData hc)
    obtain ⟨a1, a2, a3⟩ := key _ b' h1 h2; simp only [Block.Readable, a2] at a1; exact readsByGen_one a1 a3
  · refine readSigned_present hb (by simp [fileGen, hf, hg]) (fun b' h1 h2 => ?_) (congrArg Tachograph.vehiclesUsed hc)
    obtain ⟨a1, a2, a3⟩ := key _ b' h1 h2; simp only [Block.Readable, a2] at a1; exact readsByGen_one a1 a3
  · refine readSigned_present hb (by simp [fileGen, hf, hg]) (fun b' h1 h2 => ?_) (congrArg Tachograph.places hc)
    obtain ⟨a1, a2, a3⟩ := key _ b' h1 h2; simp only [Block.Readable, a2] at a1; exact readsByGen_one a1 a3
  · refine readSigned_present hb (by simp [fileGen, hf, hg]) (fun b' h1 h2 => ?_) (congrArg Tachograph.currentUsage hc)
    obtain ⟨a1, a2, a3⟩ := key _ b' h1 h2; simp only [Block.Readable, a2] at a1; exact readsByGen_one a1 a3
  · refine readSigned_present hb (by simp [fileGen, hf, hg]) (fun b' h1 h2 => ?_) (congrArg Tachograph.controlActivityData hc)
    obtain ⟨a1, a2, a3⟩ := key _ b' h1 h2; simp only [Block.Readable, a2] at a1; exact readsByGen_one a1 a3
  · refine readSigned_present hb (by simp [fileGen, hf, hg]) (fun b' h1 h2 => ?_) (congrArg Tachograph.specificConditions hc)
    obtain ⟨a1, a2, a3⟩ := key _ b' h1 h2; simp only [Block.Readable, a2] at a1; exact readsByGen_one a1 a3
  · refine read_present hb (by simp [fileGen, hf, hg]) (fun b' h1 h2 => ?_) (congrArg Tachograph.cardDownload hc)
    obtain ⟨a1, a2, a3⟩ := key _ b' h1 h2; simp only [Block.Readable, a2] at a1; exact readsByGen_one a1.2 a3
  · refine read_present hb (by simp [fileGen, hf, hg]) (fun b' h1 h2 => ?_) (congrArg Tachograph.cardCertificate hc)
    obtain ⟨a1, a2, a3⟩ := key _ b' h1 h2; simp only [Block.Readable, a2] at a1; exact a1.2.2
  · refine read_present hb (by simp [fileGen, hf, hg]) (fun b' h1 h2 => ?_) (congrArg Tachograph.caCertificate hc)
    obtain ⟨a1, a2, a3⟩ := key _ b' h1 h2; simp only [Block.Readable, a2] at a1; exact readsByGen_one a1.2 a3

theorem gen2_present {bs : List Block} (hr : ∀ b ∈ bs, b.Readable) (h : bs.any inGen2 = true) : gen2Of bs ≠ {} := by
  obtain ⟨b, hb, h⟩ := List.any_eq_true.1 h
  simp only [inGen2, gen2SharedFiles, gen2OnlyFiles, Bool.or_eq_true, Bool.and_eq_true, beq_iff_eq, List.contains_eq_mem, List.mem_cons,
    List.not_mem_nil, or_false, decide_eq_true_eq] at h
  have key : ∀ f b', b' ∈ bs → fileGen f .gen2 b' = true → b'.Readable ∧ b'.data.file = f ∧ b'.data.generation = .gen2 := by
    intro f b' h1 h2
    simp only [fileGen, Bool.and_eq_true, beq_iff_eq] at h2
    exact ⟨hr b' h1, h2⟩
  have key' : ∀ f b', b' ∈ bs → file f b' = true → b'.Readable ∧ b'.data.file = f := by
    intro f b' h1 h2
    simp only [file, beq_iff_eq] at h2
    exact ⟨hr b' h1, h2⟩
  intro hc
  rcases h with ⟨hg, hf | hf | hf | hf | hf | hf | hf | hf | hf | hf | hf | hf | hf | hf | hf | hf⟩ | hf | hf | hf
  · refine readSigned_present hb (by simp [fileGen, hf, hg]) (fun b' h1 h2 => ?_) (congrArg TachographG2.applicationIdentification hc)
    obtain ⟨a1, a2, a3⟩ := key _ b' h1 h2; simp only [Block.Readable, a2] at a1; exact readsByGen_two a1 a3
  · refine readSigned_present hb (by simp [fileGen, hf, hg]) (fun b' h1 h2 => ?_) (congrArg TachographG2.identification hc)
    obtain ⟨a1, a2, a3⟩ := key _ b' h1 h2; simp only [Block.Readable, a2] at a1; exact readsByGen_two a1 a3
  · refine readSigned_present hb (by simp [fileGen, hf, hg]) (fun b' h1 h2 => ?_) (congrArg TachographG2.drivingLicenceInfo hc)
    obtain ⟨a1, a2, a3⟩ := key _ b' h1 h2; simp only [Block.Readable, a2] at a1; exact readsByGen_two a1 a3
  · refine readSigned_present hb (by simp [fileGen, hf, hg]) (fun b' h1 h2 => ?_) (congrArg TachographG2.eventsData hc)
    obtain ⟨a1, a2, a3⟩ := key _ b' h1 h2; simp only [Block.Readable, a2] at a1; exact readsByGen_two a1 a3
  · refine readSigned_present hb (by simp [fileGen, hf, hg]) (fun b' h1 h2 => ?_) (congrArg TachographG2.faultsData hc)
    obtain ⟨a1, a2, a3⟩ := key _ b' h1 h2; simp only [Block.Readable, a2] at a1; exact readsByGen_two a1 a3
  · refine readSigned_present hb (by simp [fileGen, hf, hg]) (fun b' h1 h2 => ?_) (congrArg TachographG2.driverActivityData hc)
    obtain ⟨a1, a2, a3⟩ := key _ b' h1 h2; simp only [Block.Readable, a2] at a1; exact readsByGen_two a1 a3
  · refine readSigned_present hb (by simp [fileGen, hf, hg]) (fun b' h1 h2 => ?_) (congrArg TachographG2.vehiclesUsed hc)
    obtain ⟨a1, a2, a3⟩ := key _ b' h1 h2; simp only [Block.Readable, a2] at a1; exact readsByGen_two a1 a3
  · refine readSigned_present hb (by simp [fileGen, hf, hg]) (fun b' h1 h2 => ?_) (congrArg TachographG2.places hc)
    obtain ⟨a1, a2, a3⟩ := key _ b' h1 h2; simp only [Block.Readable, a2] at a1; exact readsByGen_two a1 a3
  · refine readSigned_present hb (by simp [fileGen, hf, hg]) (fun b' h1 h2 => ?_) (congrArg TachographG2.currentUsage hc)
    obtain ⟨a1, a2, a3⟩ := key _ b' h1 h2; simp only [Block.Readable, a2] at a1; exact readsByGen_two a1 a3
  · refine readSigned_present hb (by simp [fileGen, hf, hg]) (fun b' h1 h2 => ?_) (congrArg TachographG2.controlActivityData hc)
    obtain ⟨a1, a2, a3⟩ := key _ b' h1 h2; simp only [Block.Readable, a2] at a1; exact readsByGen_two a1 a3
  · refine readSigned_present hb (by simp [fileGen, hf, hg]) (fun b' h1 h2 => ?_) (congrArg TachographG2.specificConditions hc)
    obtain ⟨a1, a2, a3⟩ := key _ b' h1 h2; simp only [Block.Readable, a2] at a1; exact readsByGen_two a1 a3
  · refine read_present hb (by simp [fileGen, hf, hg]) (fun b' h1 h2 => ?_) (congrArg TachographG2.cardDownload hc)
    obtain ⟨a1, a2, a3⟩ := key _ b' h1 h2; simp only [Block.Readable, a2] at a1; exact readsByGen_two a1.2 a3
  · refine read_present hb (by simp [fileGen, hf, hg]) (fun b' h1 h2 => ?_) (congrArg TachographG2.cardMaCertificate hc)
    obtain ⟨a1, a2, a3⟩ := key _ b' h1 h2; simp only [Block.Readable, a2] at a1; exact a1.2.2
  · refine read_present hb (by simp [fileGen, hf, hg]) (fun b' h1 h2 => ?_) (congrArg TachographG2.cardSignCertificate hc)
    obtain ⟨a1, a2, a3⟩ := key _ b' h1 h2; simp only [Block.Readable, a2] at a1; exact a1.2.2
  · refine read_present hb (by simp [fileGen, hf, hg]) (fun b' h1 h2 => ?_) (congrArg TachographG2.caCertificate hc)
    obtain ⟨a1, a2, a3⟩ := key _ b' h1 h2; simp only [Block.Readable, a2] at a1; exact readsByGen_two a1.2 a3
  · refine read_present hb (by simp [fileGen, hf, hg]) (fun b' h1 h2 => ?_) (congrArg TachographG2.linkCertificate hc)
    obtain ⟨a1, a2, a3⟩ := key _ b' h1 h2; simp only [Block.Readable, a2] at a1; exact a1.2.2
  · refine readSigned_present hb (by simp [file, hf]) (fun b' h1 h2 => ?_) (congrArg TachographG2.vehicleUnitsUsed hc)
    obtain ⟨a1, a2⟩ := key' _ b' h1 h2; simp only [Block.Readable, a2] at a1; exact a1
  · refine readSigned_present hb (by simp [file, hf]) (fun b' h1 h2 => ?_) (congrArg TachographG2.gnssPlaces hc)
    obtain ⟨a1, a2⟩ := key' _ b' h1 h2; simp only [Block.Readable, a2] at a1; exact a1
  · refine readSigned_present hb (by simp [file, hf]) (fun b' h1 h2 => ?_) (congrArg TachographG2.applicationIdentificationV2 hc)
    obtain ⟨a1, a2⟩ := key' _ b' h1 h2; simp only [Block.Readable, a2] at a1; exact a1

/-- An application of a parsed card is not empty, and its certificates are what the parsers make of their bytes. -/
theorem parsed_applications {d : Bytes} {c : DriverCard} (h : unmarshalFile d = .ok { type := .driverCard, driverCard := some c }) :
    c.tachograph ≠ some {} ∧ c.tachographG2 ≠ some {} ∧
    Each (fun m => unmarshalRsa m.raw = .ok m ∧ m.raw ≠ []) (c.tachograph.getD {}).cardCertificate ∧
    Each (fun m => unmarshalRsa m.raw = .ok m ∧ m.raw ≠ []) (c.tachograph.getD {}).caCertificate ∧
    Each (fun m => unmarshalEcc m.raw = .ok m ∧ m.raw ≠ []) (c.tachographG2.getD {}).cardSignCertificate ∧
    Each (fun m => unmarshalEcc m.raw = .ok m ∧ m.raw ≠ []) (c.tachographG2.getD {}).caCertificate ∧
    Each (fun m => unmarshalEcc m.raw = .ok m ∧ m.raw ≠ []) (c.tachographG2.getD {}).linkCertificate := by
  obtain ⟨rs, bs, -, -, -, -, hg, rfl, -⟩ := parsed_card_blocks h
  have hr : ∀ b ∈ bs, b.Readable := fun b hb => (hg b hb).2
  have rsa : ∀ here, Each (fun m => unmarshalRsa m.raw = .ok m ∧ m.raw ≠ []) ((newest bs here).bind (Block.read unmarshalRsa)) := by
    intro here m hm
    obtain ⟨b, -, hb⟩ := Option.bind_eq_some_iff.1 hm
    have hp : unmarshalRsa b.data.value = .ok m := by
      unfold Block.read at hb
      split at hb
      · cases hb; assumption
      · cases hb
    obtain ⟨x, y, e1, e2, e3, -, e4⟩ := (rsa_parse_iff _ _).1 hp
    have : m.raw = b.data.value := by rw [e4]
    refine ⟨by rw [this]; exact hp, fun hc => ?_⟩
    rw [this, e1] at hc
    have := congrArg List.length hc
    simp only [List.length_append, List.length_nil] at this
    omega
  have ecc : ∀ here, Each (fun m => unmarshalEcc m.raw = .ok m ∧ m.raw ≠ []) ((newest bs here).bind (Block.read unmarshalEcc)) := by
    intro here m hm
    obtain ⟨b, -, hb⟩ := Option.bind_eq_some_iff.1 hm
    have hp : unmarshalEcc b.data.value = .ok m := by
      unfold Block.read at hb
      split at hb
      · cases hb; assumption
      · cases hb
    obtain ⟨hl, _, f, full, _, hR⟩ := (ecc_parse_iff _ _).1 hp
    have : m.raw = b.data.value := hR.2.2.2.2.2.2.2.2.1
    refine ⟨by rw [this]; exact hp, fun hc => ?_⟩
    rw [this] at hc
    rw [hc] at hl
    simp at hl
  have g1 : (cardOf bs).tachograph = none ∨ (cardOf bs).tachograph = some (gen1Of bs) ∧ gen1Of bs ≠ {} := by
    simp only [cardOf]
    split
    · exact .inr ⟨rfl, gen1_present hr ‹_›⟩
    · exact .inl rfl
  have g2 : (cardOf bs).tachographG2 = none ∨ (cardOf bs).tachographG2 = some (gen2Of bs) ∧ gen2Of bs ≠ {} := by
    simp only [cardOf]
    split
    · exact .inr ⟨rfl, gen2_present hr ‹_›⟩
    · exact .inl rfl
  refine ⟨?_, ?_, ?_, ?_, ?_, ?_, ?_⟩
  · rcases g1 with g1 | ⟨g1, h1⟩ <;> rw [g1]
    · simp
    · simpa using h1
  · rcases g2 with g2 | ⟨g2, h2⟩ <;> rw [g2]
    · simp
    · simpa using h2
  · rcases g1 with g1 | ⟨g1, -⟩ <;> rw [g1]
    · rintro m ⟨⟩
    · exact rsa _
  · rcases g1 with g1 | ⟨g1, -⟩ <;> rw [g1]
    · rintro m ⟨⟩
    · exact rsa _
  · rcases g2 with g2 | ⟨g2, -⟩ <;> rw [g2]
    · rintro m ⟨⟩
    · exact ecc _
  · rcases g2 with g2 | ⟨g2, -⟩ <;> rw [g2]
    · rintro m ⟨⟩
    · exact ecc _
  · rcases g2 with g2 | ⟨g2, -⟩ <;> rw [g2]
    · rintro m ⟨⟩
    · exact ecc _

/-! ## Certificates are written as they were read -/

omit [Charmap] in
theorem kept_none {α : Type} {S : α → α → Prop} {o o' : Option α} (h : Kept S o o') : o' = none ↔ o = none := by
  cases o with
  | none => simpa [Kept] using h
  | some m => obtain ⟨m', rfl, -⟩ := h; simp

omit [Charmap] in
theorem keptSigned_none {α : Type} {S : α → α → Prop} {o o' : Option (Signed α)} (h : KeptSigned S o o') : o' = none ↔ o = none := by
  cases o with
  | none => simpa [KeptSigned] using h
  | some m => obtain ⟨m', rfl, -⟩ := h; simp

omit [Charmap] in
theorem keptSigned_map_none {α : Type} {S : α → α → Prop} {f : α → α} {o o' : Option (Signed α)} (h : KeptSigned S (o.map (cutSigned f)) o') :
    o' = none ↔ o = none := by
  rw [keptSigned_none h]
  cases o <;> simp

omit [Charmap] in
theorem keptCertificate_eq {α : Type} {raw : α → Bytes} {parse : Bytes → Res α} {o o' : Option α} (h : KeptCertificate raw parse o o')
    (hp : Each (fun m => parse (raw m) = .ok m ∧ raw m ≠ []) o) : o' = o := by
  cases o with
  | none => exact h
  | some m =>
    obtain ⟨h1, h2⟩ := hp m rfl
    simp only [KeptCertificate, if_neg h2] at h
    obtain ⟨m', rfl, e, -⟩ := h
    rw [h1, Res.ok.injEq] at e
    rw [e]

omit [Charmap] in
theorem settledCard_gen1 (num : Nat → Bytes → Bytes) (c : DriverCard) :
    (settledCard num c).tachograph.getD {} =
      { settledGen1 (c.tachograph.getD {}) with
        identification := (settledGen1 (c.tachograph.getD {})).identification.map (cutSigned (settledNumber num)) } := by
  obtain ⟨_, _, t, _⟩ := c
  cases t <;> rfl

omit [Charmap] in
theorem settledCard_gen2 (num : Nat → Bytes → Bytes) (c : DriverCard) :
    (settledCard num c).tachographG2.getD {} = settledGen2 (c.tachographG2.getD {}) := by
  obtain ⟨_, _, _, t⟩ := c
  cases t <;> rfl

/-- The first generation application is empty afterwards only if it was empty before. -/
theorem same_gen1_empty {num : Nat → Bytes → Bytes} {t t' : Tachograph}
    (h : SameGen1 { settledGen1 t with identification := (settledGen1 t).identification.map (cutSigned (settledNumber num)) } t')
    (h1 : t'.cardCertificate = t.cardCertificate) (h2 : t'.caCertificate = t.caCertificate) : t' = {} ↔ t = {} := by
  have a1 := keptSigned_map_none h.applicationIdentification
  have a2 := keptSigned_map_none h.identification
  have a3 := keptSigned_map_none h.drivingLicenceInfo
  have a4 := keptSigned_map_none h.eventsData
  have a5 := keptSigned_map_none h.faultsData
  have a6 := keptSigned_none h.driverActivityData
  have a7 := keptSigned_map_none h.vehiclesUsed
  have a8 := keptSigned_none h.places
  have a9 := keptSigned_map_none h.currentUsage
  have a10 := keptSigned_map_none h.controlActivityData
  have a11 := keptSigned_none h.specificConditions
  have a12 := kept_none h.cardDownload
  simp only [settledGen1, Option.map_eq_none_iff] at a2 a6 a8 a11 a12
  obtain ⟨b1, b2, b3, b4, b5, b6, b7, b8, b9, b10, b11, b12, b13, b14⟩ := t'
  obtain ⟨c1, c2, c3, c4, c5, c6, c7, c8, c9, c10, c11, c12, c13, c14⟩ := t
  simp only [Tachograph.mk.injEq] at *
  rw [a1, a2, a3, a4, a5, a6, a7, a8, a9, a10, a11, a12, h1, h2]

/-- The second generation application is empty afterwards exactly if none of its files was written. -/
theorem same_gen2_empty {t t' : TachographG2} (h : SameGen2 (settledGen2 t) t')
    (h1 : t'.cardSignCertificate = t.cardSignCertificate) (h2 : t'.caCertificate = t.caCertificate)
    (h3 : t'.linkCertificate = t.linkCertificate) : t' = {} ↔ ¬ WrittenGen2 t := by
  have a1 := keptSigned_map_none h.applicationIdentification
  have a2 := keptSigned_map_none h.vehiclesUsed
  have a3 := keptSigned_none h.places
  have a4 := keptSigned_none h.specificConditions
  have a5 := keptSigned_none h.vehicleUnitsUsed
  have a6 := keptSigned_none h.gnssPlaces
  have a7 := keptSigned_none h.applicationIdentificationV2
  have n1 := h.cardMaCertificate
  have n2 := h.identification
  have n3 := h.drivingLicenceInfo
  have n4 := h.eventsData
  have n5 := h.faultsData
  have n6 := h.driverActivityData
  have n7 := h.currentUsage
  have n8 := h.controlActivityData
  have n9 := h.cardDownload
  simp only [settledGen2] at a3 a4 a5 a6 a7
  unfold WrittenGen2
  simp only [ne_eq]
  rw [← a1, ← a2, ← a3, ← a4, ← a5, ← a6, ← a7, ← h1, ← h2, ← h3]
  constructor
  · rintro rfl
    simp
  · intro hn
    simp only [not_or, Decidable.not_not] at hn
    obtain ⟨m1, m2, m3, m4, m5, m6, m7, m8, m9, m10⟩ := hn
    obtain ⟨b1, b2, b3, b4, b5, b6, b7, b8, b9, b10, b11, b12, b13, b14, b15, b16, b17, b18, b19⟩ := t'
    simp only [TachographG2.mk.injEq]
    exact ⟨m1, n2, n3, n4, n5, n6, m2, m3, n7, n8, m4, n9, m5, m6, m7, n1, m8, m9, m10⟩

/-- C86: a driver card that was read from a file, written and read again has the certificates it had, byte for byte and as they are
reported. The second generation application is there exactly if one of its files is written. -/
theorem rewritten_certificates (d : Bytes) (raws : List RawRec) (c : DriverCard) (out : Bytes)
    (h : unmarshalFile d = .ok { type := .driverCard, driverCard := some c }) (hr : unmarshalRawCardFile d = .ok raws) (hm : Unmoved raws)
    (ho : marshalFile (some { type := .driverCard, driverCard := some c }) = .ok out) :
    ∃ c', unmarshalFile out = .ok { type := .driverCard, driverCard := some c' } ∧
      verifiedCertificates c' = verifiedCertificates (withoutUnwritten c) ∧
      authorityCertificates c' = authorityCertificates (withoutUnwritten c) := by
  have hw := (parsed_card_written_iff d raws c h hr hm).1 ⟨out, ho⟩
  obtain ⟨num, hnum, -⟩ := showsCut_unique
  obtain ⟨out1, c', _, _, o1, o2, same, -⟩ := parsed_card_rewritten num hnum d raws c h hr hm hw
  rw [ho, Res.ok.injEq] at o1
  subst o1
  refine ⟨c', o2, ?_⟩
  obtain ⟨p1, p2, p3, p4, p5, p6, p7⟩ := parsed_applications h
  obtain ⟨q1, q2, -⟩ := parsed_applications o2
  obtain ⟨-, -, s1, s2⟩ := same
  rw [settledCard_gen1] at s1
  rw [settledCard_gen2] at s2
  have r1 := keptCertificate_eq s1.cardCertificate p3
  have r2 := keptCertificate_eq s1.caCertificate p4
  have r3 := keptCertificate_eq s2.cardSignCertificate p5
  have r4 := keptCertificate_eq s2.caCertificate p6
  have r5 := keptCertificate_eq s2.linkCertificate p7
  have e1 := same_gen1_empty s1 r1 r2
  have e2 := same_gen2_empty s2 r3 r4 r5
  have g1 : c'.tachograph.map (·.cardCertificate) = c.tachograph.map (·.cardCertificate) ∧
      c'.tachograph.map (·.caCertificate) = c.tachograph.map (·.caCertificate) := by
    cases h1 : c.tachograph with
    | none =>
      cases h2 : c'.tachograph with
      | none => exact ⟨rfl, rfl⟩
      | some t' =>
        rw [h1, h2] at e1
        exact absurd (congrArg some (e1.2 rfl)) (h2 ▸ q1)
    | some t =>
      cases h2 : c'.tachograph with
      | none =>
        rw [h1, h2] at e1
        exact absurd (congrArg some (e1.1 rfl)) (h1 ▸ p1)
      | some t' =>
        rw [h1, h2] at r1 r2
        exact ⟨congrArg some r1, congrArg some r2⟩
  have g2 : c'.tachographG2.map (·.cardSignCertificate) = (c.tachographG2.filter fun t => WrittenGen2 t).map (·.cardSignCertificate) ∧
      c'.tachographG2.map (·.caCertificate) = (c.tachographG2.filter fun t => WrittenGen2 t).map (·.caCertificate) := by
    cases h1 : c.tachographG2 with
    | none =>
      cases h2 : c'.tachographG2 with
      | none => exact ⟨rfl, rfl⟩
      | some t' =>
        rw [h1, h2] at e2
        exact absurd (congrArg some (e2.2 (by simp [WrittenGen2]))) (h2 ▸ q2)
    | some t =>
      rw [h1] at e2 r3 r4
      cases h2 : c'.tachographG2 with
      | none =>
        rw [h2] at e2
        have : ¬ WrittenGen2 t := e2.1 rfl
        simp [Option.filter, this]
      | some t' =>
        rw [h2] at e2 r3 r4
        have : WrittenGen2 t := by
          refine Decidable.of_not_not fun hn => ?_
          exact absurd (congrArg some (e2.2 hn)) (h2 ▸ q2)
        simp only [Option.filter, this, decide_true, if_true]
        exact ⟨congrArg some r3, congrArg some r4⟩
  simp only [verifiedCertificates, authorityCertificates, withoutUnwritten, Prod.mk.injEq]
  exact ⟨⟨g1.1, g2.1⟩, g1.2, g2.2⟩

variable [Crypto] {σ : Type}

/-- C86: unless the second generation application holds only files that are not written, verification gives the written card the
answer it gave the card itself, and asks the same certificates in the same order. -/
theorem rewritten_verifies_alike (dflt : Resolver σ) (res : Option (Resolver σ)) (s : σ) (d : Bytes) (raws : List RawRec) (c : DriverCard)
    (out : Bytes) (h : unmarshalFile d = .ok { type := .driverCard, driverCard := some c }) (hr : unmarshalRawCardFile d = .ok raws)
    (hm : Unmoved raws) (ho : marshalFile (some { type := .driverCard, driverCard := some c }) = .ok out)
    (hk : ∀ t, c.tachographG2 = some t → WrittenGen2 t) :
    ∃ f', unmarshalFile out = .ok f' ∧
      (verifyFile dflt res (some f') s).result =
        (verifyFile dflt res (some { type := .driverCard, driverCard := some c }) s).result ∧
      (verifyFile dflt res (some f') s).world =
        (verifyFile dflt res (some { type := .driverCard, driverCard := some c }) s).world := by
  obtain ⟨c', h1, h2, -⟩ := rewritten_certificates d raws c out h hr hm ho
  have : withoutUnwritten c = c := by
    obtain ⟨a, b, g, t⟩ := c
    cases t with
    | none => rfl
    | some t =>
      have := hk t rfl
      simp [withoutUnwritten, Option.filter, this]
  rw [this] at h2
  exact ⟨_, h1, verify_file_rests_on dflt res _ _ c' c ⟨rfl, rfl⟩ ⟨rfl, rfl⟩ h2 s⟩

/-- C86: in the other case the card is never verified, and the written card is verified as if it had never had the second
generation application. -/
theorem rewritten_verifies_more (dflt : Resolver σ) (res : Option (Resolver σ)) (s : σ) (d : Bytes) (raws : List RawRec) (c : DriverCard)
    (t : TachographG2) (out : Bytes) (h : unmarshalFile d = .ok { type := .driverCard, driverCard := some c })
    (hr : unmarshalRawCardFile d = .ok raws) (hm : Unmoved raws)
    (ho : marshalFile (some { type := .driverCard, driverCard := some c }) = .ok out) (ht : c.tachographG2 = some t) (hk : ¬ WrittenGen2 t) :
    (verifyFile dflt res (some { type := .driverCard, driverCard := some c }) s).result ≠ .ok () ∧
    ∃ f', unmarshalFile out = .ok f' ∧
      (verifyFile dflt res (some f') s).result =
        (verifyFile dflt res (some { type := .driverCard, driverCard := some { c with tachographG2 := none } }) s).result ∧
      (verifyFile dflt res (some f') s).world =
        (verifyFile dflt res (some { type := .driverCard, driverCard := some { c with tachographG2 := none } }) s).world := by
  constructor
  · have hs : t.cardSignCertificate = none := by
      refine Decidable.of_not_not fun hn => hk ?_
      simp [WrittenGen2, hn]
    simp only [verifyFile, verifyDriverCard, verifyCard, verifyCardGen2, verifyGen2, ht, hs]
    split
    · simp
    · split <;> simp
  · obtain ⟨c', h1, h2, -⟩ := rewritten_certificates d raws c out h hr hm ho
    have : withoutUnwritten c = { c with tachographG2 := none } := by
      simp [withoutUnwritten, ht, Option.filter, hk]
    rw [this] at h2
    exact ⟨_, h1, verify_file_rests_on dflt res _ _ c' _ ⟨rfl, rfl⟩ ⟨rfl, rfl⟩ h2 s⟩

end

end Tacho
