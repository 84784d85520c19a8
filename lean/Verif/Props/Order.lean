import Verif.Spec.Order
import Verif.Props.CardAgain
/-!
# C75: the order of the files of a card, and damage to one of them
-/

namespace Tacho
open Spec

/-! ## Order -/

theorem perm_short {α : Type} {l l' : List α} (h : l.Perm l') (hl : l.length ≤ 1) : l = l' := by
  match l, hl with
  | [], _ => exact (List.nil_perm.1 h).symm
  | [a], _ => exact List.singleton_perm.1 h
  | _ :: _ :: _, hl => simp at hl

theorem filter_short {bs : List Block} (here : Block → Bool) (hd : bs.Pairwise (fun a b => ¬ OnePlace a.data b.data))
    (hh : ∀ a b, here a = true → here b = true → OnePlace a.data b.data) : (bs.filter here).length ≤ 1 := by
  have h := hd.filter here
  match hf : bs.filter here with
  | [] => simp
  | [_] => simp
  | a :: b :: r =>
    rw [hf] at h
    have h1 := (List.pairwise_cons.1 h).1 b (by simp)
    have ha : a ∈ bs.filter here := by rw [hf]; simp
    have hb : b ∈ bs.filter here := by rw [hf]; simp
    exact absurd (hh a b (List.mem_filter.1 ha).2 (List.mem_filter.1 hb).2) h1

theorem newest_perm {bs bs' : List Block} (hp : bs.Perm bs') (here : Block → Bool)
    (hd : bs.Pairwise (fun a b => ¬ OnePlace a.data b.data))
    (hh : ∀ a b, here a = true → here b = true → OnePlace a.data b.data) : newest bs here = newest bs' here := by
  unfold newest
  rw [perm_short (hp.filter here) (filter_short here hd hh)]

theorem fileGen_one {f : EF} {g : Generation} (a b : Block) (ha : fileGen f g a = true) (hb : fileGen f g b = true) :
    OnePlace a.data b.data := by
  simp only [fileGen, Bool.and_eq_true, beq_iff_eq] at ha hb
  exact ⟨by rw [ha.1, hb.1], .inl (by rw [ha.2, hb.2])⟩

theorem file_one {f : EF} (hf : f ∈ anyGeneration) (a b : Block) (ha : file f a = true) (hb : file f b = true) :
    OnePlace a.data b.data := by
  simp only [file, beq_iff_eq] at ha hb
  exact ⟨by rw [ha, hb], .inr (by rw [ha]; exact hf)⟩

section
variable [Charmap]

omit [Charmap] in
theorem any_perm {bs bs' : List Block} (hp : bs.Perm bs') (p : Block → Bool) : bs.any p = bs'.any p := by
  rw [Bool.eq_iff_iff]
  simp only [List.any_eq_true, hp.mem_iff]

theorem cardOf_perm {bs bs' : List Block} (hp : bs.Perm bs') (hd : bs.Pairwise (fun a b => ¬ OnePlace a.data b.data)) :
    cardOf bs = cardOf bs' := by
  have hg : ∀ f g, newest bs (fileGen f g) = newest bs' (fileGen f g) := fun f g => newest_perm hp _ hd fileGen_one
  have hf : ∀ f, f ∈ anyGeneration → newest bs (file f) = newest bs' (file f) := fun f h => newest_perm hp _ hd (file_one h)
  have h1 := hf .icc (by decide)
  have h2 := hf .ic (by decide)
  have h3 := hf .vehicleUnitsUsed (by decide)
  have h4 := hf .gnssPlaces (by decide)
  have h5 := hf .applicationIdentificationV2 (by decide)
  simp only [cardOf, gen1Of, gen2Of, hg, h1, h2, h3, h4, h5, any_perm hp]

/-! ## The records of a file and its blocks -/

/-- The block of two records of a file. -/
def Spec.TlvBlock.block (b : TlvBlock) : Block := ⟨b.data.record, b.sig.map Tlv.record⟩

omit [Charmap] in
theorem tlvBlock_records (bs : List TlvBlock) :
    (bs.flatMap TlvBlock.records).map Tlv.record = (bs.map TlvBlock.block).flatMap Block.records := by
  induction bs with
  | nil => rfl
  | cons b bs ih =>
    simp only [List.flatMap_cons, List.map_append, List.map_cons, ih]
    congr 1
    cases h : b.sig <;> simp [TlvBlock.records, Block.records, TlvBlock.block, h]

omit [Charmap] in
theorem tlvBlock_good {b : TlvBlock} (h : b.Good) : b.block.Good := by
  refine ⟨h.1, ?_⟩
  intro s hs
  simp only [TlvBlock.block, Option.map_eq_some_iff] at hs
  obtain ⟨t, ht, rfl⟩ := hs
  exact h.2 t ht

theorem driver_file_iff {rs : List Tlv} (hs : ∀ r ∈ rs, r.value.length ≤ 65530)
    (hfirst : ∃ rest, fileBytes rs = 0x00 :: 0x02 :: rest) (c : DriverCard) :
    unmarshalFile (fileBytes rs) = .ok { type := .driverCard, driverCard := some c } ↔
      inferFileType (rs.map Tlv.record) = .driverCard ∧ unmarshalDriverCard (rs.map Tlv.record) = .ok c := by
  rw [file_iff]
  obtain ⟨rest, hf⟩ := hfirst
  constructor
  · rintro (⟨_, _, _, _, h⟩ | ⟨_, raw, _, hraw, ⟨hi, card, hc, h⟩ | ⟨_, h⟩⟩)
    · simp at h
    · rw [parse_fileBytes rs hs, Res.ok.injEq] at hraw
      subst hraw
      simp only [File.mk.injEq, Option.some.injEq, true_and] at h
      exact ⟨hi, by rw [hc, h.1]⟩
    · simp at h
  · rintro ⟨hi, hc⟩
    exact .inr ⟨rest, _, hf, parse_fileBytes rs hs, .inl ⟨hi, c, hc, rfl⟩⟩

theorem driver_file_starts {d : Bytes} {c : DriverCard} (h : unmarshalFile d = .ok { type := .driverCard, driverCard := some c }) :
    ∃ rest, d = 0x00 :: 0x02 :: rest := by
  rcases (file_iff _ _).1 h with ⟨_, _, _, _, hf⟩ | ⟨rest, _, hd, _⟩
  · simp at hf
  · exact ⟨rest, hd⟩

/-- C75: the files of a driver card may stand in any order, each directly followed by its signature, as long as the
download begins with EF_ICC and no two files go to the same place: the message is the same. -/
theorem card_order (bs bs' : List TlvBlock) (hp : bs.Perm bs') (hg : ∀ b ∈ bs, b.Good)
    (hs : ∀ b ∈ bs, ∀ r ∈ b.records, r.value.length ≤ 65530) (hd : bs.Pairwise (fun a b => ¬ OnePlace a.data.record b.data.record))
    (hfirst : ∃ rest, fileBytes (bs'.flatMap TlvBlock.records) = 0x00 :: 0x02 :: rest) (c : DriverCard)
    (h : unmarshalFile (fileBytes (bs.flatMap TlvBlock.records)) = .ok { type := .driverCard, driverCard := some c }) :
    unmarshalFile (fileBytes (bs'.flatMap TlvBlock.records)) = .ok { type := .driverCard, driverCard := some c } := by
  have hs1 : ∀ r ∈ bs.flatMap TlvBlock.records, r.value.length ≤ 65530 := by
    intro r hr
    obtain ⟨b, hb, hr⟩ := List.mem_flatMap.1 hr
    exact hs b hb r hr
  have hs2 : ∀ r ∈ bs'.flatMap TlvBlock.records, r.value.length ≤ 65530 := by
    intro r hr
    obtain ⟨b, hb, hr⟩ := List.mem_flatMap.1 hr
    exact hs b (hp.mem_iff.2 hb) r hr
  rw [driver_file_iff hs1 (driver_file_starts h)] at h
  rw [driver_file_iff hs2 hfirst]
  obtain ⟨hi, hc⟩ := h
  have hpr : (bs.flatMap TlvBlock.records).Perm (bs'.flatMap TlvBlock.records) := hp.flatMap_right _
  refine ⟨?_, ?_⟩
  · rw [← hi]
    apply infer_depends_on_data_files
    intro f
    simp only [dataFiles, List.mem_map, List.mem_filter, hpr.mem_iff]
  · rw [tlvBlock_records] at hc ⊢
    obtain ⟨Bs, h1, h2, h3⟩ := (driver_card_iff _ _).1 hc
    have hgood : ∀ b ∈ bs.map TlvBlock.block, b.Good := by
      intro b hb
      obtain ⟨t, ht, rfl⟩ := List.mem_map.1 hb
      exact tlvBlock_good (hg t ht)
    obtain rfl := blocks_unique _ _ hgood (fun b hb => (h2 b hb).1) h1
    refine (driver_card_iff _ _).2 ⟨bs'.map TlvBlock.block, rfl, fun b hb => h2 b ((hp.map _).mem_iff.2 hb), ?_⟩
    rw [h3]
    refine cardOf_perm (hp.map _) ?_
    rw [List.pairwise_map]
    exact hd

/-- C75: without EF_ICC at its beginning the same download is refused, whatever else it holds. -/
theorem card_order_icc_first (rs : List Tlv) (r : Tlv) (h : r.record.file ≠ .icc) (hv : r.fidHi ≠ 0x76) :
    ∃ m, unmarshalFile (fileBytes (r :: rs)) = .err m := by
  have hd : fileBytes (r :: rs) = r.fidHi :: r.fidLo :: (r.appendix :: UInt8.ofNat (r.value.length / 256) ::
      UInt8.ofNat (r.value.length % 256) :: r.value ++ fileBytes rs) := by
    simp [fileBytes, Tlv.bytes]
  refine file_refused _ ?_ ?_
  · intro rest he
    rw [hd] at he
    exact absurd (List.cons.inj he).1 hv
  · intro rest he
    rw [hd] at he
    obtain ⟨h1, h2⟩ := List.cons.inj he
    obtain ⟨h2, -⟩ := List.cons.inj h2
    apply h
    simp only [Tlv.record, h1, h2]
    decide

/-! ## Damage to one file -/

omit [Charmap] in
/-- The block a record belongs to. -/
theorem block_of_record {bs : List Block} {xs zs : List RawRec} {y : RawRec} (h : bs.flatMap Block.records = xs ++ y :: zs) :
    ∃ p b q, bs = p ++ b :: q ∧
      ((xs = p.flatMap Block.records ∧ y = b.data ∧ zs = b.sig.toList ++ q.flatMap Block.records) ∨
        (xs = p.flatMap Block.records ++ [b.data] ∧ b.sig = some y ∧ zs = q.flatMap Block.records)) := by
  induction bs generalizing xs with
  | nil => simp at h
  | cons b bs ih =>
    rw [List.flatMap_cons, Block.records] at h
    match xs with
    | [] =>
      simp only [List.cons_append, List.nil_append, List.cons.injEq] at h
      exact ⟨[], b, bs, rfl, .inl ⟨rfl, h.1.symm, h.2.symm⟩⟩
    | x :: xs =>
      simp only [List.cons_append, List.cons.injEq] at h
      obtain ⟨rfl, h⟩ := h
      cases hs : b.sig with
      | none =>
        rw [hs] at h
        obtain ⟨p, b', q, rfl, hc⟩ := ih (xs := xs) (by simpa using h)
        refine ⟨b :: p, b', q, rfl, ?_⟩
        simp only [List.flatMap_cons, Block.records, hs, Option.toList_none, List.cons_append, List.nil_append, List.cons.injEq, true_and]
        exact hc
      | some s =>
        rw [hs] at h
        simp only [Option.toList_some, List.cons_append, List.nil_append] at h
        match xs with
        | [] =>
          simp only [List.nil_append, List.cons.injEq] at h
          exact ⟨[], b, bs, rfl, .inr ⟨rfl, by rw [hs, h.1], h.2.symm⟩⟩
        | x :: xs =>
          simp only [List.cons_append, List.cons.injEq] at h
          obtain ⟨rfl, h⟩ := h
          obtain ⟨p, b', q, rfl, hc⟩ := ih (xs := xs) h
          refine ⟨b :: p, b', q, rfl, ?_⟩
          simp only [List.flatMap_cons, Block.records, hs, Option.toList_some, List.cons_append, List.nil_append, List.cons.injEq, true_and]
          exact hc

omit [Charmap] in
theorem newest_replace {p q : List Block} {b b' : Block} {here : Block → Bool} (h : here b = false) (h' : here b' = false) :
    newest (p ++ b :: q) here = newest (p ++ b' :: q) here := by
  unfold newest
  rw [List.filter_append, List.filter_append, List.filter_cons_of_neg (by simp [h]), List.filter_cons_of_neg (by simp [h'])]

theorem cardOf_replace {p q : List Block} {b b' : Block} (hf : b'.data.file = b.data.file) (hgen : b'.data.generation = b.data.generation) :
    SameCardBut b.data.file b.data.generation (cardOf (p ++ b :: q)) (cardOf (p ++ b' :: q)) := by
  have h1 : ∀ x, b.data.file ≠ x → newest (p ++ b :: q) (file x) = newest (p ++ b' :: q) (file x) := by
    intro x hx
    refine newest_replace ?_ ?_ <;> simp [file, hf, hx]
  have h2 : ∀ x y, b.data.file ≠ x ∨ b.data.generation ≠ y →
      newest (p ++ b :: q) (fileGen x y) = newest (p ++ b' :: q) (fileGen x y) := by
    intro x y hx
    refine newest_replace ?_ ?_ <;> rcases hx with hx | hx <;> simp [fileGen, hf, hgen, hx]
  have a1 : (p ++ b :: q).any inGen1 = (p ++ b' :: q).any inGen1 := by
    simp only [List.any_append, List.any_cons, inGen1, hf, hgen]
  have a2 : (p ++ b :: q).any inGen2 = (p ++ b' :: q).any inGen2 := by
    simp only [List.any_append, List.any_cons, inGen2, hf, hgen]
  generalize p ++ b :: q = bs at *
  generalize p ++ b' :: q = bs' at *
  refine ⟨fun h => ?_, fun h => ?_, ?_, ?_⟩
  · simp only [cardOf, h1 _ h]
  · simp only [cardOf, h1 _ h]
  · split
    · simp only [cardOf, a1]
      split
      · constructor <;> intro h <;> simp only [gen1Of, h2 _ _ (.inl h)]
      · trivial
    · rename_i h
      simp only [cardOf, a1, gen1Of, h2 _ _ (.inr h)]
  · split
    · simp only [cardOf, a2]
      split
      · constructor <;> intro h <;> simp only [gen2Of, h1 _ h, h2 _ _ (.inl h)]
      · trivial
    · rename_i h
      rw [not_or] at h
      have m1 : b.data.file ≠ .vehicleUnitsUsed := fun e => h.2 (by rw [e]; decide)
      have m2 : b.data.file ≠ .gnssPlaces := fun e => h.2 (by rw [e]; decide)
      have m3 : b.data.file ≠ .applicationIdentificationV2 := fun e => h.2 (by rw [e]; decide)
      simp only [cardOf, a2, gen2Of, h2 _ _ (.inr h.1), h1 _ m1, h1 _ m2, h1 _ m3]

theorem driver_file_eq {rs : List Tlv} (hs : ∀ r ∈ rs, r.value.length ≤ 65530)
    (hfirst : ∃ rest, fileBytes rs = 0x00 :: 0x02 :: rest) (hi : inferFileType (rs.map Tlv.record) = .driverCard) :
    unmarshalFile (fileBytes rs) = unmarshalDriverCard (rs.map Tlv.record) >>= fun card =>
      .ok { type := .driverCard, driverCard := some card } := by
  obtain ⟨rest, hf⟩ := hfirst
  have hp := parse_fileBytes rs hs
  rw [hf] at hp ⊢
  rw [unmarshalFile_cons, if_neg (by decide), if_pos ⟨rfl, rfl⟩, hp, Res.bind_ok, if_pos hi]
  rfl

theorem readable_other_signature {d s s' : RawRec} (h : Block.Readable ⟨d, some s⟩) : Block.Readable ⟨d, some s'⟩ := by
  unfold Block.Readable at h ⊢
  revert h
  cases d.file <;> intro h <;> first | exact h | exact absurd h.1 (by simp)

theorem damage_blocks (pre post : List Tlv) (r r' : Tlv) (h1 : r'.fidHi = r.fidHi) (h2 : r'.fidLo = r.fidLo) (h3 : r'.appendix = r.appendix)
    (hs : ∀ x ∈ pre ++ r :: post, x.value.length ≤ 65530) (hs' : r'.value.length ≤ 65530) (c : DriverCard)
    (h : unmarshalFile (fileBytes (pre ++ r :: post)) = .ok { type := .driverCard, driverCard := some c }) :
    ∃ p b b' q, c = cardOf (p ++ b :: q) ∧ (∀ x ∈ p ++ b :: q, x.Good ∧ x.Readable) ∧
      unmarshalFile (fileBytes (pre ++ r' :: post)) = unmarshalDriverCard ((p ++ b' :: q).flatMap Block.records) >>= (fun card =>
        .ok { type := .driverCard, driverCard := some card }) ∧
      b'.Good ∧ b'.data.file = b.data.file ∧ b'.data.generation = b.data.generation ∧ r.record.file = b.data.file ∧
      (r.record = b.data ∨ ∃ s s' d, b = ⟨d, some s⟩ ∧ b' = ⟨d, some s'⟩ ∧ r.record = s) := by
  have e1 : r'.record.contentType = r.record.contentType := by simp only [Tlv.record, h3]
  have e2 : r'.record.generation = r.record.generation := by simp only [Tlv.record, h3]
  have e3 : r'.record.file = r.record.file := by simp only [Tlv.record, h1, h2]
  have hst := driver_file_starts h
  rw [driver_file_iff hs hst] at h
  obtain ⟨hi, hc⟩ := h
  have hst' : ∃ rest, fileBytes (pre ++ r' :: post) = 0x00 :: 0x02 :: rest := by
    obtain ⟨rest, hst⟩ := hst
    cases pre with
    | nil =>
      simp only [fileBytes, List.nil_append, List.flatMap_cons, Tlv.bytes, List.cons_append, List.cons.injEq] at hst ⊢
      rw [h1, h2]
      exact ⟨_, hst.1, hst.2.1, rfl⟩
    | cons x pre =>
      simp only [fileBytes, List.flatMap_cons, Tlv.bytes, List.cons_append, List.cons.injEq] at hst ⊢
      exact ⟨_, hst.1, hst.2.1, rfl⟩
  have hs'' : ∀ x ∈ pre ++ r' :: post, x.value.length ≤ 65530 := by
    intro x hx
    simp only [List.mem_append, List.mem_cons] at hx hs
    rcases hx with hx | rfl | hx
    · exact hs x (.inl hx)
    · exact hs'
    · exact hs x (.inr (.inr hx))
  have hi' : inferFileType ((pre ++ r' :: post).map Tlv.record) = .driverCard := by
    rw [← hi]
    apply infer_depends_on_data_files
    intro f
    have : ∀ x : Tlv, dataFiles ((pre ++ x :: post).map Tlv.record) = dataFiles (pre.map Tlv.record) ++
        (if x.record.contentType = .data then [x.record.file] else []) ++ dataFiles (post.map Tlv.record) := by
      intro x
      simp only [dataFiles, List.map_append, List.map_cons, List.filter_append, List.filter_cons]
      split <;> simp_all
    rw [this, this, e1, e3]
  have heq := driver_file_eq hs'' hst' hi'
  obtain ⟨bs, hb, hg, rfl⟩ := (driver_card_iff _ _).1 hc
  rw [List.map_append, List.map_cons] at hb heq
  obtain ⟨p, b, q, rfl, ⟨hx, hy, hz⟩ | ⟨hx, hy, hz⟩⟩ := block_of_record hb.symm
  · refine ⟨p, b, ⟨r'.record, b.sig⟩, q, rfl, hg, ?_, ?_, ?_, ?_, by rw [hy], .inl hy⟩
    · rw [heq, hx, hz]
      simp [Block.records]
    · have := (hg b (by simp)).1
      rw [Block.Good, ← hy] at this
      rw [Block.Good, e1, e3]
      exact this
    · rw [← hy]; exact e3
    · rw [← hy]; exact e2
  · obtain ⟨d, sg⟩ := b
    simp only at hy
    subst hy
    have hgood := (hg ⟨d, some r.record⟩ (by simp)).1
    refine ⟨p, ⟨d, some r.record⟩, ⟨d, some r'.record⟩, q, rfl, hg, ?_, ?_, rfl, rfl, (hgood.2 _ rfl).2, .inr ⟨_, _, d, rfl, rfl, rfl⟩⟩
    · rw [heq, hx, hz]
      simp [Block.records]
    · refine ⟨hgood.1, ?_⟩
      rintro s ⟨⟩
      rw [e1, e3]
      exact hgood.2 _ rfl

/-- C75: what the value of one record is, only matters to the place that record belongs to: when it is replaced by any
other value of any length, the download is refused or the message differs in that place alone. -/
theorem card_damage (pre post : List Tlv) (r r' : Tlv) (h1 : r'.fidHi = r.fidHi) (h2 : r'.fidLo = r.fidLo) (h3 : r'.appendix = r.appendix)
    (hs : ∀ x ∈ pre ++ r :: post, x.value.length ≤ 65530) (hs' : r'.value.length ≤ 65530) (c : DriverCard)
    (h : unmarshalFile (fileBytes (pre ++ r :: post)) = .ok { type := .driverCard, driverCard := some c }) :
    (∃ m, unmarshalFile (fileBytes (pre ++ r' :: post)) = .err m) ∨
      ∃ c' g, unmarshalFile (fileBytes (pre ++ r' :: post)) = .ok { type := .driverCard, driverCard := some c' } ∧
        SameCardBut r.record.file g c c' ∧ (r.record.contentType = .data → g = r.record.generation) := by
  obtain ⟨p, b, b', q, rfl, hg, heq, hgood, hf, hgen, hfile, hcase⟩ := damage_blocks pre post r r' h1 h2 h3 hs hs' c h
  rw [heq]
  cases hu : unmarshalDriverCard ((p ++ b' :: q).flatMap Block.records) with
  | panic => exact absurd hu (driver_card_total _)
  | err m => exact .inl ⟨m, rfl⟩
  | ok c' =>
    obtain ⟨bs', hb, hg', rfl⟩ := (driver_card_iff _ _).1 hu
    have hgood' : ∀ x ∈ p ++ b' :: q, x.Good := by
      intro x hx
      simp only [List.mem_append, List.mem_cons] at hx hg
      rcases hx with hx | rfl | hx
      · exact (hg x (.inl hx)).1
      · exact hgood
      · exact (hg x (.inr (.inr hx))).1
    obtain rfl := blocks_unique _ _ hgood' (fun x hx => (hg' x hx).1) hb
    refine .inr ⟨_, b.data.generation, rfl, by rw [hfile]; exact cardOf_replace hf hgen, ?_⟩
    intro hd
    rcases hcase with e | ⟨s, s', d, rfl, rfl, rfl⟩
    · rw [e]
    · have := ((hg ⟨d, some r.record⟩ (by simp)).1.2 _ rfl).1
      rw [this] at hd
      cases hd

/-! ## Damage to a signature -/

/-- A block without its signature. -/
def Spec.Block.strip (b : Block) : Block := ⟨b.data, none⟩

omit [Charmap] in
theorem newest_strip {bs : List Block} {here : Block → Bool} (h : ∀ b, here b.strip = here b) :
    newest (bs.map Block.strip) here = (newest bs here).map Block.strip := by
  unfold newest
  rw [List.filter_map, List.getLast?_map, show (here ∘ Block.strip) = here from funext h]

omit [Charmap] in
theorem newest_unsigned {α : Type} (p : Bytes → Res α) {bs : List Block} {here : Block → Bool} (h : ∀ b, here b.strip = here b) :
    ((newest bs here).bind (Block.readSigned p)).map noSignature = (newest (bs.map Block.strip) here).bind (Block.readSigned p) := by
  rw [newest_strip h]
  cases newest bs here with
  | none => rfl
  | some b =>
    simp only [Option.bind_some, Option.map_some, Block.readSigned, Block.read, Block.strip]
    cases p b.data.value <;> rfl

omit [Charmap] in
theorem newest_read_strip {α : Type} (p : Bytes → Res α) {bs : List Block} {here : Block → Bool} (h : ∀ b, here b.strip = here b) :
    (newest bs here).bind (Block.read p) = (newest (bs.map Block.strip) here).bind (Block.read p) := by
  rw [newest_strip h]
  cases newest bs here with
  | none => rfl
  | some b => rfl

theorem cardOf_strip (bs : List Block) : unsignedCard (cardOf bs) = cardOf (bs.map Block.strip) := by
  have h1 : ∀ f, ∀ b : Block, file f b.strip = file f b := fun _ _ => rfl
  have h2 : ∀ f g, ∀ b : Block, fileGen f g b.strip = fileGen f g b := fun _ _ _ => rfl
  have a1 : (bs.map Block.strip).any inGen1 = bs.any inGen1 := by rw [List.any_map]; rfl
  have a2 : (bs.map Block.strip).any inGen2 = bs.any inGen2 := by rw [List.any_map]; rfl
  simp only [unsignedCard, cardOf, a1, a2, ← newest_read_strip _ (h1 _)]
  congr 1
  · split
    · simp only [Option.map_some, gen1Of, newest_unsigned _ (h2 _ _), ← newest_read_strip _ (h2 _ _)]
    · rfl
  · split
    · simp only [Option.map_some, gen2Of, newest_unsigned _ (h2 _ _), newest_unsigned _ (h1 _), ← newest_read_strip _ (h2 _ _)]
    · rfl

/-- C75: a signature record is not looked at: with any other value the download is accepted. -/
theorem card_signature_damage (pre post : List Tlv) (r r' : Tlv) (h1 : r'.fidHi = r.fidHi) (h2 : r'.fidLo = r.fidLo) (h3 : r'.appendix = r.appendix)
    (hs : ∀ x ∈ pre ++ r :: post, x.value.length ≤ 65530) (hs' : r'.value.length ≤ 65530) (c : DriverCard)
    (hr : r.record.contentType = .signature)
    (h : unmarshalFile (fileBytes (pre ++ r :: post)) = .ok { type := .driverCard, driverCard := some c }) :
    ∃ c' g, unmarshalFile (fileBytes (pre ++ r' :: post)) = .ok { type := .driverCard, driverCard := some c' } ∧
      SameCardBut r.record.file g c c' ∧ unsignedCard c = unsignedCard c' := by
  obtain ⟨p, b, b', q, rfl, hg, heq, hgood, hf, hgen, hfile, hcase⟩ := damage_blocks pre post r r' h1 h2 h3 hs hs' c h
  rw [heq]
  have hread : ∀ x ∈ p ++ b' :: q, x.Good ∧ x.Readable := by
    intro x hx
    have hb := hg b (by simp)
    simp only [List.mem_append, List.mem_cons] at hx hg
    rcases hx with hx | rfl | hx
    · exact hg x (.inl hx)
    · refine ⟨hgood, ?_⟩
      rcases hcase with e | ⟨s, s', d, rfl, rfl, rfl⟩
      · rw [e, hb.1.1] at hr
        cases hr
      · exact readable_other_signature hb.2
    · exact hg x (.inr (.inr hx))
  rw [(driver_card_iff _ _).2 ⟨_, rfl, hread, rfl⟩]
  refine ⟨_, b.data.generation, rfl, by rw [hfile]; exact cardOf_replace hf hgen, ?_⟩
  rw [cardOf_strip, cardOf_strip]
  rcases hcase with e | ⟨s, s', d, rfl, rfl, rfl⟩
  · rw [e, (hg b (by simp)).1.1] at hr
    cases hr
  · simp [Block.strip]

end

end Tacho
