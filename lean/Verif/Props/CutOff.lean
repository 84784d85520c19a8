import Verif.Spec.CutOff
import Verif.Props.Order
import Verif.Props.VuRegulation
/-!
# C76: a download that was cut off
-/

namespace Tacho
open Spec

/-! ## Cards -/

/-- A file cut anywhere: at the end of a record, or inside one. -/
theorem take_fileBytes (rs : List Tlv) (k : Nat) :
    (∃ j, (fileBytes rs).take k = fileBytes (rs.take j)) ∨
      ∃ p r q n, rs = p ++ r :: q ∧ 0 < n ∧ n < r.bytes.length ∧ (fileBytes rs).take k = fileBytes p ++ r.bytes.take n := by
  induction rs generalizing k with
  | nil => exact .inl ⟨0, by simp [fileBytes]⟩
  | cons r rs ih =>
    have hc : fileBytes (r :: rs) = r.bytes ++ fileBytes rs := by simp [fileBytes]
    rw [hc]
    by_cases hk : k = 0
    · exact .inl ⟨0, by simp [hk, fileBytes]⟩
    by_cases hl : k < r.bytes.length
    · refine .inr ⟨[], r, rs, k, rfl, by omega, hl, ?_⟩
      rw [List.take_append_of_le_length (by omega)]
      simp [fileBytes]
    · rw [List.take_append, List.take_of_length_le (by omega)]
      rcases ih (k - r.bytes.length) with ⟨j, hj⟩ | ⟨p, r', q, n, rfl, h1, h2, h3⟩
      · exact .inl ⟨j + 1, by rw [hj]; simp [fileBytes]⟩
      · exact .inr ⟨r :: p, r', q, n, rfl, h1, h2, by rw [h3]; simp [fileBytes]⟩

section
variable [Charmap]

theorem readable_without_signature {d : RawRec} {s : Option RawRec} (h : Block.Readable ⟨d, s⟩) : Block.Readable ⟨d, none⟩ := by
  unfold Block.Readable at h ⊢
  revert h
  cases d.file <;> intro h <;> first | exact h | exact ⟨rfl, h.2⟩

omit [Charmap] in
/-- The first records of a card are its first blocks; the last may have lost its signature. -/
theorem take_blocks (bs : List Block) (j : Nat) :
    ∃ bs', (bs.flatMap Block.records).take j = bs'.flatMap Block.records ∧
      ((∃ i, bs' = bs.take i) ∨ ∃ p b q, bs = p ++ b :: q ∧ bs' = p ++ [b.strip]) := by
  induction bs generalizing j with
  | nil => exact ⟨[], by simp, .inl ⟨0, rfl⟩⟩
  | cons b bs ih =>
    match j with
    | 0 => exact ⟨[], by simp, .inl ⟨0, rfl⟩⟩
    | j + 1 =>
      rw [List.flatMap_cons, Block.records]
      cases hs : b.sig with
      | none =>
        obtain ⟨bs', h1, h2⟩ := ih j
        refine ⟨b :: bs', by simp [Block.records, hs, h1], ?_⟩
        rcases h2 with ⟨i, rfl⟩ | ⟨p, x, q, rfl, rfl⟩
        · exact .inl ⟨i + 1, rfl⟩
        · exact .inr ⟨b :: p, x, q, rfl, rfl⟩
      | some s =>
        match j with
        | 0 => exact ⟨[b.strip], by simp [Block.records, Block.strip], .inr ⟨[], b, bs, rfl, rfl⟩⟩
        | j + 1 =>
          obtain ⟨bs', h1, h2⟩ := ih j
          refine ⟨b :: bs', by simp [Block.records, hs, h1], ?_⟩
          rcases h2 with ⟨i, rfl⟩ | ⟨p, x, q, rfl, rfl⟩
          · exact .inl ⟨i + 1, rfl⟩
          · exact .inr ⟨b :: p, x, q, rfl, rfl⟩

omit [Charmap] in
theorem newest_shown {bs bs' : List Block} {here : Block → Bool} (hs : ∀ b, here b.strip = here b)
    (hd : bs.Pairwise (fun a b => ¬ OnePlace a.data b.data)) (hh : ∀ a b, here a = true → here b = true → OnePlace a.data b.data)
    (hsub : ∀ x ∈ bs', ∃ y ∈ bs, x = y ∨ x = y.strip) :
    newest bs' here = none ∨ newest bs' here = newest bs here ∨ newest bs' here = (newest bs here).map Block.strip := by
  cases hn : newest bs' here with
  | none => exact .inl rfl
  | some x =>
    have hx := List.mem_filter.1 (List.mem_of_getLast? hn)
    obtain ⟨y, hy, he⟩ := hsub x hx.1
    have hhy : here y = true := by
      rcases he with rfl | rfl
      · exact hx.2
      · rw [← hs]; exact hx.2
    have hlen := filter_short here hd hh
    have hmem : y ∈ bs.filter here := List.mem_filter.2 ⟨hy, hhy⟩
    have hnew : newest bs here = some y := by
      unfold newest
      revert hlen hmem
      generalize bs.filter here = l
      intro hlen hmem
      cases l with
      | nil => cases hmem
      | cons z l =>
        cases l with
        | nil => rw [List.mem_singleton] at hmem; rw [hmem]; rfl
        | cons w l => simp at hlen
    rw [hnew]
    rcases he with rfl | rfl
    · exact .inr (.inl rfl)
    · exact .inr (.inr rfl)

omit [Charmap] in
theorem shown_of {α : Type} {p : Bytes → Res α} {x y : Option Block} (h : x = none ∨ x = y ∨ x = y.map Block.strip) :
    Shown (x.bind (Block.read p)) (y.bind (Block.read p)) := by
  rcases h with rfl | rfl | rfl
  · exact .inl rfl
  · exact .inr rfl
  · refine .inr ?_
    cases y <;> rfl

omit [Charmap] in
theorem shownSigned_of {α : Type} {p : Bytes → Res α} {x y : Option Block} (h : x = none ∨ x = y ∨ x = y.map Block.strip) :
    ShownSigned (x.bind (Block.readSigned p)) (y.bind (Block.readSigned p)) := by
  rcases h with rfl | rfl | rfl
  · exact .inl rfl
  · exact .inr (.inl rfl)
  · refine .inr (.inr ?_)
    cases y with
    | none => rfl
    | some b =>
      simp only [Option.map_some, Option.bind_some, Block.readSigned, Block.read, Block.strip]
      cases p b.data.value <;> rfl

theorem cardOf_part {bs bs' : List Block} (hd : bs.Pairwise (fun a b => ¬ OnePlace a.data b.data))
    (hsub : ∀ x ∈ bs', ∃ y ∈ bs, x = y ∨ x = y.strip) : CardPart (cardOf bs') (cardOf bs) := by
  have hf : ∀ f, f ∈ anyGeneration → _ := fun f hf => newest_shown (here := file f) (fun _ => rfl) hd (file_one hf) hsub
  have hg : ∀ f g, _ := fun f g => newest_shown (here := fileGen f g) (fun _ => rfl) hd fileGen_one hsub
  have hany : ∀ p : Block → Bool, (∀ b, p b.strip = p b) → bs'.any p = true → bs.any p = true := by
    intro p hp h
    obtain ⟨x, hx, hpx⟩ := List.any_eq_true.1 h
    obtain ⟨y, hy, rfl | rfl⟩ := hsub x hx
    · exact List.any_eq_true.2 ⟨_, hy, hpx⟩
    · exact List.any_eq_true.2 ⟨_, hy, by rw [← hp]; exact hpx⟩
  refine ⟨shown_of (hf _ (by decide)), shown_of (hf _ (by decide)), ?_, ?_⟩
  · intro t ht
    simp only [cardOf] at ht ⊢
    split at ht
    · rename_i ha
      cases ht
      rw [if_pos (hany _ (fun _ => rfl) ha)]
      refine ⟨_, rfl, ?_⟩
      constructor <;> first | exact shown_of (hg _ _) | exact shownSigned_of (hg _ _)
    · cases ht
  · intro t ht
    simp only [cardOf] at ht ⊢
    split at ht
    · rename_i ha
      cases ht
      rw [if_pos (hany _ (fun _ => rfl) ha)]
      refine ⟨_, rfl, ?_⟩
      constructor <;> first | exact shown_of (hg _ _) | exact shownSigned_of (hg _ _) | exact shownSigned_of (hf _ (by decide))
    · cases ht

/-- C76: a card download that was cut off inside a record is refused. One that ends with a record is accepted, and
what it shows is part of what the complete download shows: files are complete or missing, and one of them may lack
its signature. -/
theorem card_cut_off (bs : List TlvBlock) (hg : ∀ b ∈ bs, b.Good) (hs : ∀ b ∈ bs, ∀ r ∈ b.records, r.value.length ≤ 65530)
    (c : DriverCard) (h : unmarshalFile (fileBytes (bs.flatMap TlvBlock.records)) = .ok { type := .driverCard, driverCard := some c })
    (k : Nat) :
    (∃ m, unmarshalFile ((fileBytes (bs.flatMap TlvBlock.records)).take k) = .err m ∧
        ∀ j, 0 < j → (fileBytes (bs.flatMap TlvBlock.records)).take k ≠ fileBytes ((bs.flatMap TlvBlock.records).take j)) ∨
      ∃ c' j, 0 < j ∧ (fileBytes (bs.flatMap TlvBlock.records)).take k = fileBytes ((bs.flatMap TlvBlock.records).take j) ∧
        unmarshalFile ((fileBytes (bs.flatMap TlvBlock.records)).take k) = .ok { type := .driverCard, driverCard := some c' } ∧
        (bs.Pairwise (fun a b => ¬ OnePlace a.data.record b.data.record) → CardPart c' c) := by
  have hs1 : ∀ r ∈ bs.flatMap TlvBlock.records, r.value.length ≤ 65530 := by
    intro r hr
    obtain ⟨b, hb, hr⟩ := List.mem_flatMap.1 hr
    exact hs b hb r hr
  have hst := driver_file_starts h
  rw [driver_file_iff hs1 hst, tlvBlock_records] at h
  obtain ⟨hi, hc⟩ := h
  obtain ⟨Bs, hb, hr, hcard⟩ := (driver_card_iff _ _).1 hc
  have hgood : ∀ b ∈ bs.map TlvBlock.block, b.Good := by
    intro b hb
    obtain ⟨t, ht, rfl⟩ := List.mem_map.1 hb
    exact tlvBlock_good (hg t ht)
  obtain rfl := blocks_unique _ _ hgood (fun b hb => (hr b hb).1) hb
  have hrec := tlvBlock_records bs
  have hpw : bs.Pairwise (fun a b => ¬ OnePlace a.data.record b.data.record) →
      (bs.map TlvBlock.block).Pairwise (fun a b => ¬ OnePlace a.data b.data) := by
    intro h
    rw [List.pairwise_map]
    exact h
  generalize bs.flatMap TlvBlock.records = rs at *
  rcases take_fileBytes rs k with ⟨j, hj⟩ | ⟨p, r, q, n, rfl, h1, h2, h3⟩
  · rw [hj]
    by_cases hz : rs.take j = []
    · rw [hz]
      refine .inl ⟨_, rfl, ?_⟩
      intro i hi he
      have hne : rs ≠ [] := by
        rintro rfl
        obtain ⟨rest, hst⟩ := hst
        simp [fileBytes] at hst
      obtain ⟨r, rs', rfl⟩ := List.exists_cons_of_ne_nil hne
      obtain ⟨i, rfl⟩ := Nat.exists_eq_succ_of_ne_zero (by omega : i ≠ 0)
      have := congrArg List.length he
      simp [fileBytes, Tlv.bytes] at this
    · refine .inr ?_
      have hj0 : 0 < j := by
        rcases Nat.eq_zero_or_pos j with rfl | h
        · exact absurd rfl hz
        · exact h
      have hs2 : ∀ r ∈ rs.take j, r.value.length ≤ 65530 := fun r hr => hs1 r (List.mem_of_mem_take hr)
      have hst2 : ∃ rest, fileBytes (rs.take j) = 0x00 :: 0x02 :: rest := by
        obtain ⟨rest, hst⟩ := hst
        obtain ⟨j, rfl⟩ := Nat.exists_eq_succ_of_ne_zero (by omega : j ≠ 0)
        cases rs with
        | nil => simp at hz
        | cons r rs =>
          simp only [fileBytes, List.take_succ_cons, List.flatMap_cons, Tlv.bytes, List.cons_append, List.cons.injEq] at hst ⊢
          exact ⟨_, hst.1, hst.2.1, rfl⟩
      obtain ⟨bs', hb', hcase⟩ := take_blocks (bs.map TlvBlock.block) j
      have hsub : ∀ x ∈ bs', ∃ y ∈ bs.map TlvBlock.block, x = y ∨ x = y.strip := by
        intro x hx
        rcases hcase with ⟨i, rfl⟩ | ⟨p, b, q, he, rfl⟩
        · exact ⟨x, List.mem_of_mem_take hx, .inl rfl⟩
        · rw [he]
          rcases List.mem_append.1 hx with hx | hx
          · exact ⟨x, by simp [hx], .inl rfl⟩
          · exact ⟨b, by simp, .inr (List.mem_singleton.1 hx)⟩
      have hread : ∀ x ∈ bs', x.Good ∧ x.Readable := by
        intro x hx
        obtain ⟨y, hy, rfl | rfl⟩ := hsub x hx
        · exact hr _ hy
        · exact ⟨⟨(hr _ hy).1.1, by rintro s ⟨⟩⟩, readable_without_signature (hr _ hy).2⟩
      rw [← hrec, ← List.map_take] at hb'
      refine ⟨cardOf bs', j, hj0, rfl, (driver_file_iff hs2 hst2 _).2 ⟨?_, ?_⟩, ?_⟩
      · rw [hrec.symm, infer_driver_iff] at hi
        rw [infer_driver_iff]
        have hne : bs' ≠ [] := by
          rintro rfl
          simp at hb'
          rcases hb' with h | h
          · omega
          · exact hz (by simp [h])
        obtain ⟨b, bs'', rfl⟩ := List.exists_cons_of_ne_nil hne
        refine ⟨?_, ?_⟩
        · intro he
          have : b.data.file ∈ dataFiles ((rs.take j).map Tlv.record) := by
            rw [hb']
            simp [dataFiles, Block.records, (hread b (by simp)).1.1]
          rw [he] at this
          cases this
        · intro f hf
          apply hi.2
          simp only [dataFiles, List.mem_map, List.mem_filter] at hf ⊢
          obtain ⟨x, ⟨⟨r, hr, rfl⟩, hx⟩, rfl⟩ := hf
          exact ⟨_, ⟨⟨r, List.mem_of_mem_take hr, rfl⟩, hx⟩, rfl⟩
      · rw [hb']
        exact (driver_card_iff _ _).2 ⟨bs', rfl, hread, rfl⟩
      · intro hd
        rw [hcard]
        exact cardOf_part (hpw hd) hsub
  · have hp : ∀ x ∈ p, x.value.length ≤ 65530 := fun x hx => hs1 x (by simp [hx])
    obtain ⟨m, hm⟩ := raw_card_truncated p r n hp (hs1 r (by simp)) h1 h2
    rw [h3]
    refine .inl ?_
    have hnot : ∀ j, 0 < j → fileBytes p ++ r.bytes.take n ≠ fileBytes ((p ++ r :: q).take j) := by
      intro j _ he
      rw [he, parse_fileBytes _ (fun x hx => hs1 x (List.mem_of_mem_take hx))] at hm
      cases hm
    obtain ⟨rest, hst⟩ := hst
    rw [hst] at h3
    match k, h3 with
    | 0, h3 =>
      have hl : (r.bytes.take n).length = 0 := by
        have := congrArg List.length h3
        simp only [List.take_zero, List.length_nil, List.length_append] at this
        omega
      rw [List.length_take] at hl
      omega
    | 1, h3 =>
      refine ⟨"insufficient data for tachograph file", ?_, hnot⟩
      rw [← h3]
      rfl
    | k + 2, h3 =>
      rw [List.take_succ_cons, List.take_succ_cons] at h3
      refine ⟨m, ?_, hnot⟩
      rw [← h3] at hm ⊢
      rw [unmarshalFile_cons, if_neg (by decide), if_pos ⟨rfl, rfl⟩, hm]
      rfl

/-! ## Vehicle units -/

omit [Charmap] in
theorem valuesOf_append (ty : TransferType) (ts us : List Transfer) : valuesOf ty (ts ++ us) = valuesOf ty ts ++ valuesOf ty us := by
  simp [valuesOf]

omit [Charmap] in
theorem forall₂_split {α β : Type} {R : α → β → Prop} {l l' : List α} {m : List β} (h : List.Forall₂ R (l ++ l') m) :
    ∃ m1 m2, m = m1 ++ m2 ∧ List.Forall₂ R l m1 ∧ List.Forall₂ R l' m2 := by
  induction l generalizing m with
  | nil => exact ⟨[], m, rfl, .nil, h⟩
  | cons a l ih =>
    cases h with
    | cons h1 h2 =>
      obtain ⟨m1, m2, rfl, h3, h4⟩ := ih h2
      exact ⟨_ :: m1, m2, rfl, .cons h1 h3, h4⟩

omit [Charmap] in
theorem last_of_one {α : Type} {l l' : List α} (h : (l ++ l').length ≤ 1) : l.getLast? = none ∨ l.getLast? = (l ++ l').getLast? := by
  cases l with
  | nil => exact .inl rfl
  | cons a l =>
    cases l' with
    | nil => exact .inr (by simp)
    | cons b l' => simp at h

omit [Charmap] in
theorem overviews_short {ts : List Transfer} {ty : TransferType} (hty : ty = .overviewGen1 ∨ ty = .overviewG2V1 ∨ ty = .overviewG2V2)
    (h : (ts.filter isOverview).length ≤ 1) : (valuesOf ty ts).length ≤ 1 := by
  have : (ts.filter (fun t => decide (t.type = ty))).length ≤ (ts.filter isOverview).length := by
    rw [← List.countP_eq_length_filter, ← List.countP_eq_length_filter]
    apply List.countP_mono_left
    intro t _ ht
    simp only [decide_eq_true_eq] at ht
    rcases hty with rfl | rfl | rfl <;> simp [isOverview, ht]
  simp only [valuesOf, List.length_map]
  omega

omit [Charmap] in
theorem only_not_card {tys : List TransferType} (htys : .cardDownload ∉ tys) {ts : List Transfer} (h : Only tys ts) :
    ∀ t ∈ ts, t.type ≠ .cardDownload := fun t ht e => htys (e ▸ h t ht)

omit [Charmap] in
/-- The transfers of an accepted file are not card downloads. -/
theorem vu_file_not_card {ts : List Transfer} {P Q R : Prop}
    (h : (Only gen1Types ts ∧ P) ∨ (Only [.overviewG2V1, .speedGen2] ts ∧ Q) ∨
      (Only [.downloadInterfaceVersion, .overviewG2V2, .speedGen2] ts ∧ R)) : ∀ t ∈ ts, t.type ≠ .cardDownload := by
  rcases h with ⟨h, -⟩ | ⟨h, -⟩ | ⟨h, -⟩ <;> exact only_not_card (by decide) h

/-- C76: a vehicle unit download that was cut off is accepted only if it ends with a complete transfer, and then it
shows the transfers it has. -/
theorem vu_cut_off (d : Bytes) (w : VehicleUnitFile) (h : unmarshalFile d = .ok { type := .vehicleUnit, vehicleUnit := some w })
    (k : Nat) (f : File) (h' : unmarshalFile (d.take k) = .ok f) :
    ∃ ts us v, ts ≠ [] ∧ d = vuBytes (ts ++ us) ∧ d.take k = vuBytes ts ∧ f = { type := .vehicleUnit, vehicleUnit := some v } ∧
      VuBeginning (((ts ++ us).filter isOverview).length ≤ 1) v w := by
  have hvu : unmarshalVehicleUnitFile d = .ok w ∧ ∃ rest, d = 0x76 :: rest := by
    rcases (file_iff _ _).1 h with ⟨rest, _, hd, hv, hf⟩ | ⟨_, _, _, _, ⟨_, _, _, hf⟩ | ⟨_, hf⟩⟩
    · simp only [File.mk.injEq, Option.some.injEq, true_and] at hf
      rw [hf.1]
      exact ⟨hv, rest, hd⟩
    · simp at hf
    · simp at hf
  obtain ⟨hw, rest, hd⟩ := hvu
  have hvu' : ∃ v, unmarshalVehicleUnitFile (d.take k) = .ok v ∧ f = { type := .vehicleUnit, vehicleUnit := some v } := by
    rcases (file_iff _ _).1 h' with ⟨_, v, _, hv, hf⟩ | ⟨_, _, hd', _⟩
    · exact ⟨v, hv, hf⟩
    · rw [hd] at hd'
      cases k with
      | zero => simp at hd'
      | succ k => simp at hd'
  obtain ⟨v, hv, rfl⟩ := hvu'
  obtain ⟨all, hane, hall, hac, hacase⟩ := (vu_file_iff _ _).1 hw
  obtain ⟨ts, hne, hts, hc, hcase⟩ := (vu_file_iff _ _).1 hv
  have hanc := vu_file_not_card hacase
  have hnc := vu_file_not_card hcase
  obtain ⟨us, rfl, -⟩ := vuBytes_prefix ts (fun t ht => ⟨hc t ht, hnc t ht⟩) (d.drop k) all (cut_of_conforms hac hanc)
    (by rw [← hts, List.take_append_drop, hall])
  refine ⟨ts, us, v, hne, hall, hts, rfl, ?_⟩
  obtain ⟨t, ht⟩ := List.exists_mem_of_ne_nil ts hne
  have ht' : t ∈ ts ++ us := List.mem_append_left _ ht
  rcases hcase with ⟨ho, g, hg, rfl⟩ | ⟨ho, rfl⟩ | ⟨ho, hn, rfl⟩ <;>
    rcases hacase with ⟨hao, ga, hga, rfl⟩ | ⟨hao, rfl⟩ | ⟨hao, han, rfl⟩
  · obtain ⟨os, h1, h2, h3, h4, h5, h6⟩ := hg
    obtain ⟨os', a1, a2, a3, a4, a5, a6⟩ := hga
    rw [valuesOf_append] at a1 a3 a4 a5 a6
    obtain ⟨o1, o2, rfl, b1, -⟩ := forall₂_split a1
    obtain ⟨c1, c2, e, d1, -⟩ := forall₂_split a3
    obtain rfl : o1 = os := List.right_unique_forall₂' (fun e v w h1 h2 => by rw [h1] at h2; exact Res.ok.inj h2) b1 h1
    obtain rfl : c1 = g.activities := List.right_unique_forall₂' (fun e v w h1 h2 => by rw [h1] at h2; exact Res.ok.inj h2) d1 h3
    refine .gen1 ⟨?_, ?_, ?_, ?_⟩ ?_
    · rw [e]; exact List.prefix_append _ _
    · rw [h4, a4, List.map_append]; exact List.prefix_append _ _
    · rw [h5, a5, List.map_append]; exact List.prefix_append _ _
    · rw [h6, a6, List.map_append]; exact List.prefix_append _ _
    · intro hone
      rw [h2, a2]
      refine last_of_one ?_
      rw [← a1.length_eq, ← valuesOf_append]
      exact overviews_short (.inl rfl) hone
  · exact absurd (ho t ht) (by have := hao t ht'; revert this; generalize t.type = ty; cases ty <;> decide)
  · exact absurd (ho t ht) (by have := hao t ht'; revert this; generalize t.type = ty; cases ty <;> decide)
  · exact absurd (ho t ht) (by have := hao t ht'; revert this; generalize t.type = ty; cases ty <;> decide)
  · refine .v1 ?_ ?_
    · simp only [gen2Message, valuesOf_append, List.map_append]; exact List.prefix_append _ _
    · intro hone
      have := last_of_one (l := valuesOf .overviewG2V1 ts) (l' := valuesOf .overviewG2V1 us)
        (by rw [← valuesOf_append]; exact overviews_short (.inr (.inl rfl)) hone)
      simp only [gen2Message, valuesOf_append]
      rcases this with e | e
      · exact .inl (by rw [e]; rfl)
      · exact .inr (by rw [e])
  · refine .speedOnly ?_ ?_
    · simp only [gen2Message, valuesOf_append, List.map_append]; exact List.prefix_append _ _
    · simp only [gen2Message, Option.map_eq_none_iff, List.getLast?_eq_none_iff, valuesOf, List.map_eq_nil_iff, List.filter_eq_nil_iff,
        decide_eq_true_eq]
      intro x hx e
      have := hao x (List.mem_append_left _ hx)
      rw [e] at this
      exact absurd this (by decide)
  · exact absurd (ho t ht) (by have := hao t ht'; revert this; generalize t.type = ty; cases ty <;> decide)
  · exfalso
    apply hn
    intro x hx
    have h1 := ho x hx
    have h2 := hao x (List.mem_append_left _ hx)
    revert h1 h2; generalize x.type = ty; cases ty <;> decide
  · refine .v2 ?_ ?_
    · simp only [gen2Message, valuesOf_append, List.map_append]; exact List.prefix_append _ _
    · intro hone
      have := last_of_one (l := valuesOf .overviewG2V2 ts) (l' := valuesOf .overviewG2V2 us)
        (by rw [← valuesOf_append]; exact overviews_short (.inr (.inr rfl)) hone)
      simp only [gen2Message, valuesOf_append]
      rcases this with e | e
      · exact .inl (by rw [e]; rfl)
      · exact .inr (by rw [e])

/-- C76: and one that ends with a complete transfer is accepted. -/
theorem vu_cut_at_transfer (d : Bytes) (w : VehicleUnitFile) (h : unmarshalFile d = .ok { type := .vehicleUnit, vehicleUnit := some w }) :
    ∃ all, d = vuBytes all ∧ (∀ t ∈ all, Conforms t.type t.value) ∧ ∀ ts us, all = ts ++ us → ts ≠ [] →
      ∃ v, unmarshalFile (vuBytes ts) = .ok { type := .vehicleUnit, vehicleUnit := some v } := by
  have hw : unmarshalVehicleUnitFile d = .ok w := by
    rcases (file_iff _ _).1 h with ⟨_, _, _, hv, hf⟩ | ⟨_, _, _, _, ⟨_, _, _, hf⟩ | ⟨_, hf⟩⟩
    · simp only [File.mk.injEq, Option.some.injEq, true_and] at hf
      rw [hf.1]
      exact hv
    · simp at hf
    · simp at hf
  obtain ⟨all, hane, hall, hac, hcase⟩ := (vu_file_iff _ _).1 hw
  refine ⟨all, hall, hac, ?_⟩
  rintro ts us rfl hne
  have only : ∀ {tys}, Only tys (ts ++ us) → Only tys ts := fun h t ht => h t (List.mem_append_left _ ht)
  suffices hs : ∃ v, unmarshalVehicleUnitFile (vuBytes ts) = .ok v by
    obtain ⟨v, hv⟩ := hs
    refine ⟨v, (file_iff _ _).2 (.inl ?_)⟩
    obtain ⟨t, ts', rfl⟩ := List.exists_cons_of_ne_nil hne
    exact ⟨_, v, rfl, hv, rfl⟩
  have hc : ∀ t ∈ ts, Conforms t.type t.value := fun t ht => hac t (List.mem_append_left _ ht)
  rcases hcase with ⟨ho, g, ⟨os, a1, -, a3, -⟩, -⟩ | ⟨ho, -⟩ | ⟨ho, -, -⟩
  · rw [valuesOf_append] at a1 a3
    obtain ⟨o1, _, -, b1, -⟩ := forall₂_split a1
    obtain ⟨c1, _, -, b3, -⟩ := forall₂_split a3
    exact ⟨_, (vu_file_iff _ _).2 ⟨ts, hne, rfl, hc, .inl ⟨only ho, ⟨o1.getLast?, c1, _, _, _⟩, ⟨o1, b1, rfl, b3, rfl, rfl, rfl⟩, rfl⟩⟩⟩
  · exact ⟨_, (vu_file_iff _ _).2 ⟨ts, hne, rfl, hc, .inr (.inl ⟨only ho, rfl⟩)⟩⟩
  · by_cases hs : Only [.speedGen2] ts
    · exact ⟨_, (vu_file_iff _ _).2 ⟨ts, hne, rfl, hc, .inr (.inl ⟨fun t ht => by simp [List.mem_singleton.1 (hs t ht)], rfl⟩)⟩⟩
    · exact ⟨_, (vu_file_iff _ _).2 ⟨ts, hne, rfl, hc, .inr (.inr ⟨only ho, hs, rfl⟩)⟩⟩

end

end Tacho
