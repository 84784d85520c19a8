import Verif.Spec.DriverCard
import Verif.Props.CardTotal
import Verif.Props.RawCard
/-!
# Reading a driver card file (C29)
-/

namespace Tacho

variable [Charmap]

open Spec

omit [Charmap] in
theorem newest_snoc (bs : List Block) (b : Block) (here : Block → Bool) :
    newest (bs ++ [b]) here = if here b then some b else newest bs here := by
  unfold newest
  by_cases h : here b <;> simp [List.filter_append, h]

omit [Charmap] in
theorem newest_none {bs : List Block} {here : Block → Bool} (h : ∀ b ∈ bs, here b = false) : newest bs here = none := by
  unfold newest
  rw [List.filter_eq_nil_iff.mpr (by simpa using h)]; rfl

omit [Charmap] in
theorem newest_none_of {bs : List Block} {here there : Block → Bool} (h : bs.any there = false)
    (h2 : ∀ b, here b = true → there b = true) : newest bs here = none := by
  apply newest_none
  intro b hb
  rw [List.any_eq_false] at h
  have := h b hb
  cases hh : here b
  · rfl
  · exact absurd (h2 b hh) this

omit [Charmap] in
theorem fileGen_in1 {f : EF} (hf : gen1Files.contains f = true) (b : Block) (h : fileGen f .gen1 b = true) :
    inGen1 b = true := by
  simp only [fileGen, inGen1, Bool.and_eq_true, beq_iff_eq] at h ⊢
  exact ⟨h.2, by rw [h.1]; exact hf⟩

omit [Charmap] in
theorem fileGen_in2 {f : EF} (hf : gen2SharedFiles.contains f = true) (b : Block) (h : fileGen f .gen2 b = true) :
    inGen2 b = true := by
  simp only [fileGen, inGen2, Bool.and_eq_true, Bool.or_eq_true, beq_iff_eq] at h ⊢
  exact .inl ⟨h.2, by rw [h.1]; exact hf⟩

omit [Charmap] in
theorem file_in2 {f : EF} (hf : gen2OnlyFiles.contains f = true) (b : Block) (h : file f b = true) :
    inGen2 b = true := by
  simp only [file, inGen2, Bool.and_eq_true, Bool.or_eq_true, beq_iff_eq] at h ⊢
  exact .inr (by rw [h]; exact hf)

theorem gen1_getD (bs : List Block) : (cardOf bs).tachograph.getD {} = gen1Of bs := by
  cases h : bs.any inGen1 with
  | true => simp [cardOf, h]
  | false =>
    have : ∀ f, gen1Files.contains f = true → newest bs (fileGen f .gen1) = none :=
      fun f hf => newest_none_of h (fileGen_in1 hf)
    simp only [cardOf, h, gen1Of]
    rw [this _ rfl, this _ rfl, this _ rfl, this _ rfl, this _ rfl, this _ rfl, this _ rfl, this _ rfl,
      this _ rfl, this _ rfl, this _ rfl, this _ rfl, this _ rfl, this _ rfl]
    rfl

theorem gen2_getD (bs : List Block) : (cardOf bs).tachographG2.getD {} = gen2Of bs := by
  cases h : bs.any inGen2 with
  | true => simp [cardOf, h]
  | false =>
    have t : ∀ f, gen2SharedFiles.contains f = true → newest bs (fileGen f .gen2) = none :=
      fun f hf => newest_none_of h (fileGen_in2 hf)
    have u : ∀ f, gen2OnlyFiles.contains f = true → newest bs (file f) = none :=
      fun f hf => newest_none_of h (file_in2 hf)
    simp only [cardOf, h, gen2Of]
    rw [t _ rfl, t _ rfl, t _ rfl, t _ rfl, t _ rfl, t _ rfl, t _ rfl, t _ rfl, t _ rfl, t _ rfl, t _ rfl,
      t _ rfl, t _ rfl, t _ rfl, t _ rfl, t _ rfl, u _ rfl, u _ rfl, u _ rfl]
    rfl

theorem setG1_cardOf (bs : List Block) (f : Tachograph → Tachograph) :
    (cardOf bs).setG1 f = { cardOf bs with tachograph := some (f (gen1Of bs)) } := by
  rw [DriverCard.setG1, gen1_getD]

theorem setG2_cardOf (bs : List Block) (f : TachographG2 → TachographG2) :
    (cardOf bs).setG2 f = { cardOf bs with tachographG2 := some (f (gen2Of bs)) } := by
  rw [DriverCard.setG2, gen2_getD]

omit [Charmap] in
theorem unsignedOnly_iff {s : Option Bytes} {u : Unit} : unsignedOnly s = .ok u ↔ s = none := by
  cases s <;> simp [unsignedOnly]

set_option maxHeartbeats 4000000 in
/-- One step: reading one more block turns the card described by the earlier blocks into the one described
by all of them. -/
theorem route_iff (bs : List Block) (b : Block) (c : DriverCard) :
    routeRecord (cardOf bs) b.data.file b.data.generation b.data.value (b.sig.map RawRec.value) = .ok c ↔
      b.Readable ∧ c = cardOf (bs ++ [b]) := by
  obtain ⟨⟨tag, f, g, ct, len, v⟩, sig⟩ := b
  cases f <;> cases g <;>
    simp only [routeRecord, Block.Readable, Block.ReadsByGen, Block.Reads, byGeneration, setG1_cardOf, setG2_cardOf] <;>
    simp only [cardOf, gen1Of, gen2Of, newest_snoc, file, fileGen, List.any_append, List.any_cons, List.any_nil, inGen1, inGen2,
      gen1Files, gen2SharedFiles, gen2OnlyFiles] <;>
    simp [bind_eq_ok, unsignedOnly_iff, Block.read, Block.readSigned]
  all_goals first
    | exact eq_comm
    | (constructor
       · rintro ⟨x, hx, rfl⟩; simp [hx]
       · rintro ⟨⟨x, hx⟩, rfl⟩; exact ⟨x, hx, by simp [hx]⟩)
    | (constructor
       · rintro ⟨x, hx, h2, rfl⟩; simp [hx, h2]
       · rintro ⟨⟨h2, x, hx⟩, rfl⟩; exact ⟨x, hx, h2, by simp [hx]⟩)
    | (constructor
       · rintro ⟨⟨x, hx, rfl⟩, h2⟩; simp [hx, h2]
       · rintro ⟨⟨h2, x, hx⟩, rfl⟩; exact ⟨⟨x, hx, by simp [hx]⟩, h2⟩)
    | (constructor
       · rintro ⟨x, y, hx, rfl⟩; simp [hx]
       · rintro ⟨⟨x, y, hx⟩, rfl⟩; exact ⟨x, y, hx, by simp [hx]⟩)

theorem cardOf_nil : cardOf [] = {} := by
  simp [cardOf, newest]

attribute [local irreducible] cardOf routeRecord Block.Readable

theorem route_no_signature (bs : List Block) (r : RawRec) (c : DriverCard) :
    routeRecord (cardOf bs) r.file r.generation r.value none = .ok c ↔
      Block.Readable ⟨r, none⟩ ∧ c = cardOf (bs ++ [⟨r, none⟩]) := route_iff bs ⟨r, none⟩ c

theorem route_signature (bs : List Block) (r s : RawRec) (c : DriverCard) :
    routeRecord (cardOf bs) r.file r.generation r.value (some s.value) = .ok c ↔
      Block.Readable ⟨r, some s⟩ ∧ c = cardOf (bs ++ [⟨r, some s⟩]) := route_iff bs ⟨r, some s⟩ c

theorem loop_iff (rs : List RawRec) : ∀ (pre : List Block) (c : DriverCard),
    driverCardLoop (cardOf pre) rs = .ok c ↔
      ∃ bs : List Block, rs = bs.flatMap Block.records ∧ (∀ b ∈ bs, b.Good ∧ b.Readable) ∧ c = cardOf (pre ++ bs) := by
  generalize hn : rs.length = n
  induction n using Nat.strongRecOn generalizing rs with
  | _ n ih =>
    intro pre c
    match rs, hn with
    | [], _ =>
      rw [driverCardLoop, Res.ok.injEq]
      constructor
      · rintro rfl; exact ⟨[], by simp⟩
      · rintro ⟨bs, h1, _, h3⟩
        cases bs with
        | nil => simpa using h3.symm
        | cons b bs => simp [Block.records] at h1
    | [r], _ =>
      rw [driverCardLoop]
      constructor
      · intro h
        by_cases hr : r.contentType = .data
        · rw [if_pos hr, route_no_signature] at h
          exact ⟨[⟨r, none⟩], by simp [Block.records], by simp [Block.Good, hr, h.1], h.2⟩
        · rw [if_neg hr] at h; cases h
      · rintro ⟨bs, h1, h2, h3⟩
        match bs, h1 with
        | [], h1 => simp at h1
        | [b], h1 =>
          obtain ⟨d, sig⟩ := b
          cases sig with
          | some s => simp [Block.records] at h1
          | none =>
            simp only [Block.records, List.flatMap_cons, List.flatMap_nil, Option.toList_none, List.append_nil,
              List.cons.injEq, and_true] at h1
            subst h1
            have := h2 ⟨r, none⟩ (by simp)
            rw [if_pos this.1.1, route_no_signature]
            exact ⟨this.2, h3⟩
        | b :: b' :: bs', h1 =>
          have := congrArg List.length h1
          simp [Block.records] at this
    | r :: n' :: rest, hn =>
      rw [driverCardLoop]
      constructor
      · intro h
        by_cases hr : r.contentType = .data
        · rw [if_pos hr] at h
          by_cases hs : n'.file = r.file ∧ n'.contentType = .signature
          · rw [if_pos hs, bind_eq_ok] at h
            obtain ⟨c1, h1, h2⟩ := h
            rw [route_signature] at h1
            obtain ⟨hr1, rfl⟩ := h1
            obtain ⟨bs, e1, e2, e3⟩ := (ih rest.length (by simp at hn; omega) rest rfl _ _).mp h2
            refine ⟨⟨r, some n'⟩ :: bs, by simp [Block.records, e1], ?_, by simpa using e3⟩
            intro b hb
            rcases List.mem_cons.mp hb with rfl | hb
            · refine ⟨⟨hr, ?_⟩, hr1⟩
              rintro s ⟨⟩
              exact ⟨hs.2, hs.1⟩
            · exact e2 b hb
          · rw [if_neg hs, bind_eq_ok] at h
            obtain ⟨c1, h1, h2⟩ := h
            rw [route_no_signature] at h1
            obtain ⟨hr1, rfl⟩ := h1
            obtain ⟨bs, e1, e2, e3⟩ := (ih (n' :: rest).length (by simp at hn ⊢; omega) (n' :: rest) rfl _ _).mp h2
            refine ⟨⟨r, none⟩ :: bs, by simp [Block.records, e1], ?_, by simpa using e3⟩
            intro b hb
            rcases List.mem_cons.mp hb with rfl | hb
            · exact ⟨⟨hr, by rintro s ⟨⟩⟩, hr1⟩
            · exact e2 b hb
        · rw [if_neg hr] at h; cases h
      · rintro ⟨bs, h1, h2, h3⟩
        match bs, h1 with
        | [], h1 => simp at h1
        | ⟨d, none⟩ :: bs', h1 =>
          simp only [Block.records, List.flatMap_cons, Option.toList_none, List.cons_append, List.nil_append, List.cons.injEq] at h1
          obtain ⟨rfl, h1⟩ := h1
          have hb := h2 ⟨r, none⟩ (by simp)
          have hs : ¬ (n'.file = r.file ∧ n'.contentType = .signature) := by
            rintro ⟨_, hc⟩
            match bs', h1 with
            | [], h1 => simp at h1
            | b :: bs'', h1 =>
              simp only [List.flatMap_cons, Block.records, List.cons_append, List.cons.injEq] at h1
              have := (h2 b (by simp)).1.1
              rw [← h1.1, hc] at this
              cases this
          rw [if_pos hb.1.1, if_neg hs, bind_eq_ok]
          refine ⟨_, (route_no_signature _ _ _).mpr ⟨hb.2, rfl⟩, ?_⟩
          rw [ih (n' :: rest).length (by simp at hn ⊢; omega) (n' :: rest) rfl]
          exact ⟨bs', h1, fun b hb => h2 b (List.mem_cons_of_mem _ hb), by simpa using h3⟩
        | ⟨d, some s⟩ :: bs', h1 =>
          simp only [Block.records, List.flatMap_cons, Option.toList_some, List.cons_append, List.nil_append, List.cons.injEq] at h1
          obtain ⟨rfl, rfl, h1⟩ := h1
          have hb := h2 ⟨r, some n'⟩ (by simp)
          have hs := hb.1.2 n' rfl
          rw [if_pos hb.1.1, if_pos ⟨hs.2, hs.1⟩, bind_eq_ok]
          refine ⟨_, (route_signature _ _ _ _).mpr ⟨hb.2, rfl⟩, ?_⟩
          rw [ih rest.length (by simp at hn; omega) rest rfl]
          exact ⟨bs', h1, fun b hb => h2 b (List.mem_cons_of_mem _ hb), by simpa using h3⟩

/-- C29: a list of raw records parses as a driver card exactly when it is a sequence of blocks (data record,
then optionally the signature record of the same file) all of which can be read; the message then holds, in
every place, the newest block that belongs there, with its own signature. -/
theorem driver_card_iff (rs : List RawRec) (c : DriverCard) :
    unmarshalDriverCard rs = .ok c ↔
      ∃ bs : List Block, rs = bs.flatMap Block.records ∧ (∀ b ∈ bs, b.Good ∧ b.Readable) ∧ c = cardOf bs := by
  have := loop_iff rs [] c
  rwa [cardOf_nil] at this

omit [Charmap] in
/-- C29: the blocks are determined by the records. -/
theorem blocks_unique (bs bs' : List Block) (h : ∀ b ∈ bs, b.Good) (h' : ∀ b ∈ bs', b.Good)
    (he : bs.flatMap Block.records = bs'.flatMap Block.records) : bs = bs' := by
  induction bs generalizing bs' with
  | nil =>
    cases bs' with
    | nil => rfl
    | cons b bs' => simp [Block.records] at he
  | cons b bs ih =>
    have noSig : ∀ (xs : List Block) (s : RawRec) (t : List RawRec), (∀ b ∈ xs, b.Good) → s.contentType = .signature →
        xs.flatMap Block.records ≠ s :: t := by
      intro xs s t hx hs
      match xs with
      | [] => simp
      | x :: xs =>
        simp only [List.flatMap_cons, Block.records, List.cons_append, ne_eq, List.cons.injEq, not_and]
        intro e
        have := (hx x (by simp)).1
        rw [e, hs] at this; cases this
    match bs', he with
    | [], he => simp [Block.records] at he
    | b' :: bs', he =>
      obtain ⟨d, sig⟩ := b
      obtain ⟨d', sig'⟩ := b'
      simp only [List.flatMap_cons, Block.records, List.cons_append, List.cons.injEq] at he
      obtain ⟨rfl, he⟩ := he
      have h0 := h ⟨d, sig⟩ (by simp)
      have h0' := h' ⟨d, sig'⟩ (by simp)
      have ht : ∀ b ∈ bs, b.Good := fun b hb => h b (List.mem_cons_of_mem _ hb)
      have ht' : ∀ b ∈ bs', b.Good := fun b hb => h' b (List.mem_cons_of_mem _ hb)
      cases sig with
      | none =>
        cases sig' with
        | none => rw [ih bs' ht ht' (by simpa using he)]
        | some s' => exact absurd (by simpa using he) (noSig bs s' _ ht (h0'.2 s' rfl).1)
      | some s =>
        cases sig' with
        | none => exact absurd (by simpa using he.symm) (noSig bs' s _ ht' (h0.2 s rfl).1)
        | some s' =>
          simp only [Option.toList_some, List.cons_append, List.nil_append, List.cons.injEq] at he
          obtain ⟨rfl, he⟩ := he
          rw [ih bs' ht ht' he]

omit [Charmap] in
/-- C29: records form blocks exactly when every signature record directly follows a data record of its own
file. -/
theorem blocks_iff_paired (rs : List RawRec) :
    (∃ bs : List Block, rs = bs.flatMap Block.records ∧ ∀ b ∈ bs, b.Good) ↔ Paired rs := by
  constructor
  · rintro ⟨bs, rfl, hb⟩
    induction bs with
    | nil => intro i s hi; simp at hi
    | cons b bs ih =>
      have ih := ih (fun b hb' => hb b (List.mem_cons_of_mem _ hb'))
      have h0 := hb b (by simp)
      obtain ⟨d, sig⟩ := b
      intro i s hi hs
      cases sig with
      | none =>
        simp only [List.flatMap_cons, Block.records, Option.toList_none, List.cons_append, List.nil_append] at hi ⊢
        match i, hi with
        | 0, hi =>
          simp only [List.getElem?_cons_zero, Option.some.injEq] at hi
          have h1 := h0.1
          simp only at h1; rw [hi, hs] at h1; cases h1
        | i + 1, hi =>
          obtain ⟨j, d', e, h1, h2⟩ := ih i s (by simpa using hi) hs
          exact ⟨j + 1, d', by omega, by simpa using h1, h2⟩
      | some t =>
        simp only [List.flatMap_cons, Block.records, Option.toList_some, List.cons_append, List.nil_append] at hi ⊢
        match i, hi with
        | 0, hi =>
          simp only [List.getElem?_cons_zero, Option.some.injEq] at hi
          have h1 := h0.1
          simp only at h1; rw [hi, hs] at h1; cases h1
        | 1, hi =>
          simp only [List.getElem?_cons_succ, List.getElem?_cons_zero, Option.some.injEq] at hi
          subst hi
          exact ⟨0, d, rfl, by simp, h0.1, (h0.2 t rfl).2.symm⟩
        | i + 2, hi =>
          obtain ⟨j, d', e, h1, h2⟩ := ih i s (by simpa using hi) hs
          exact ⟨j + 2, d', by omega, by simpa using h1, h2⟩
  · intro h
    generalize hn : rs.length = n
    induction n using Nat.strongRecOn generalizing rs with
    | _ n ih =>
      match rs, hn with
      | [], _ => exact ⟨[], by simp⟩
      | r :: rest, hn =>
        have hr : r.contentType = .data := by
          cases hc : r.contentType with
          | data => rfl
          | signature =>
            obtain ⟨j, _, e, _⟩ := h 0 r (by simp) hc
            omega
        match rest, hn with
        | [], _ => exact ⟨[⟨r, none⟩], by simp [Block.records], by simp [Block.Good, hr]⟩
        | s :: rest, hn =>
          cases hc : s.contentType with
          | data =>
            obtain ⟨bs, e, hb⟩ := ih (s :: rest).length (by simp at hn ⊢; omega) (s :: rest) (by
              intro i t hi ht
              obtain ⟨j, d, e, h1, h2⟩ := h (i + 1) t (by simpa using hi) ht
              match j, e with
              | 0, e =>
                obtain rfl : i = 0 := by omega
                simp only [List.getElem?_cons_zero, Option.some.injEq] at hi
                subst hi; rw [hc] at ht; cases ht
              | j + 1, e => exact ⟨j, d, by omega, by simpa using h1, h2⟩) rfl
            refine ⟨⟨r, none⟩ :: bs, by simp [Block.records, e], ?_⟩
            intro b hb'
            rcases List.mem_cons.mp hb' with rfl | hb'
            · exact ⟨hr, by rintro _ ⟨⟩⟩
            · exact hb b hb'
          | signature =>
            have hf : r.file = s.file := by
              obtain ⟨j, d, e, h1, _, h3⟩ := h 1 s (by simp) hc
              obtain rfl : j = 0 := by omega
              simp only [List.getElem?_cons_zero, Option.some.injEq] at h1
              rw [h1, h3]
            obtain ⟨bs, e, hb⟩ := ih rest.length (by simp at hn ⊢; omega) rest (by
              intro i t hi ht
              obtain ⟨j, d, e, h1, h2⟩ := h (i + 2) t (by simpa using hi) ht
              match j, e with
              | 0, e => omega
              | 1, e =>
                simp only [List.getElem?_cons_succ, List.getElem?_cons_zero, Option.some.injEq] at h1
                have := h2.1
                rw [← h1, hc] at this; cases this
              | j + 2, e => exact ⟨j, d, by omega, by simpa using h1, h2⟩) rfl
            refine ⟨⟨r, some s⟩ :: bs, by simp [Block.records, e], ?_⟩
            intro b hb'
            rcases List.mem_cons.mp hb' with rfl | hb'
            · refine ⟨hr, ?_⟩
              rintro _ ⟨⟩
              exact ⟨hc, hf.symm⟩
            · exact hb b hb'

/-- C29: a file with a signature that does not directly follow data of the same file is never parsed. -/
theorem orphan_signature_refused (rs : List RawRec) (h : ¬ Paired rs) (c : DriverCard) : unmarshalDriverCard rs ≠ .ok c := by
  rw [Ne, driver_card_iff]
  rintro ⟨bs, e, hb, _⟩
  exact h ((blocks_iff_paired rs).mp ⟨bs, e, fun b h => (hb b h).1⟩)

omit [Charmap] in
theorem newest_filter (bs : List Block) (keep here : Block → Bool) (h : ∀ b, here b = true → keep b = true) :
    newest (bs.filter keep) here = newest bs here := by
  unfold newest
  rw [List.filter_filter]
  congr 1
  apply List.filter_congr
  intro b _
  cases hh : here b
  · rfl
  · simp [h b hh]

omit [Charmap] in
theorem any_filter_of (bs : List Block) (keep here : Block → Bool) (h : ∀ b, here b = true → keep b = true) :
    (bs.filter keep).any here = bs.any here := by
  rw [List.any_filter]
  congr 1
  funext b
  cases hh : here b
  · simp
  · simp [h b hh]

/-- The files that have a place in a driver card message. -/
def Spec.placed (b : Block) : Bool :=
  (([.icc, .ic] : List EF) ++ gen1Files ++ gen2SharedFiles ++ gen2OnlyFiles).contains b.data.file

/-- C29: files outside the table are ignored, together with their signatures: dropping them changes nothing. -/
theorem ignored_files (bs : List Block) : cardOf (bs.filter Spec.placed) = cardOf bs := by
  have hf : ∀ f, (([.icc, .ic] : List EF) ++ gen1Files ++ gen2SharedFiles ++ gen2OnlyFiles).contains f = true →
      newest (bs.filter Spec.placed) (file f) = newest bs (file f) := by
    intro f hf
    apply newest_filter
    intro b hb
    simp only [file, beq_iff_eq] at hb
    rw [Spec.placed, hb]; exact hf
  have hg : ∀ f g, (([.icc, .ic] : List EF) ++ gen1Files ++ gen2SharedFiles ++ gen2OnlyFiles).contains f = true →
      newest (bs.filter Spec.placed) (fileGen f g) = newest bs (fileGen f g) := by
    intro f g hf
    apply newest_filter
    intro b hb
    simp only [fileGen, beq_iff_eq, Bool.and_eq_true] at hb
    rw [Spec.placed, hb.1]; exact hf
  have h1 : (bs.filter Spec.placed).any inGen1 = bs.any inGen1 := by
    apply any_filter_of
    intro b hb
    simp only [inGen1, Bool.and_eq_true] at hb
    simp only [Spec.placed, List.contains_append, hb.2, Bool.or_true, Bool.true_or]
  have h2 : (bs.filter Spec.placed).any inGen2 = bs.any inGen2 := by
    apply any_filter_of
    intro b hb
    simp only [inGen2, Bool.or_eq_true, Bool.and_eq_true] at hb
    simp only [Spec.placed, List.contains_append, Bool.or_eq_true]
    rcases hb with hb | hb
    · exact .inl (.inr hb.2)
    · exact .inr hb
  unfold cardOf
  simp only [h1, h2, gen1Of, gen2Of]
  rw [hf .icc rfl, hf .ic rfl, hf .vehicleUnitsUsed rfl, hf .gnssPlaces rfl, hf .applicationIdentificationV2 rfl]
  simp only [hg .applicationIdentification _ rfl, hg .identification _ rfl, hg .drivingLicenceInfo _ rfl,
    hg .eventsData _ rfl, hg .faultsData _ rfl, hg .driverActivityData _ rfl, hg .vehiclesUsed _ rfl,
    hg .places _ rfl, hg .currentUsage _ rfl, hg .controlActivityData _ rfl, hg .specificConditions _ rfl,
    hg .cardDownloadDriver _ rfl, hg .cardCertificate _ rfl, hg .cardMaCertificate _ rfl,
    hg .cardSignCertificate _ rfl, hg .caCertificate _ rfl, hg .linkCertificate _ rfl]

omit [Charmap] in
theorem unsignedOnly_np (s : Option Bytes) : unsignedOnly s ≠ .panic := by
  cases s <;> simp [unsignedOnly]

omit [Charmap] in
theorem byGeneration_np {α : Type} {g : Generation} {a b : Res α} (h1 : a ≠ .panic) (h2 : b ≠ .panic) :
    byGeneration g a b ≠ .panic := by
  cases g
  · exact np_err
  · exact h1
  · exact h2

theorem route_np (c : DriverCard) (f : EF) (g : Generation) (v : Bytes) (s : Option Bytes) : routeRecord c f g v s ≠ .panic := by
  unfold routeRecord
  have gen : ∀ x y : DriverCard, byGeneration g (.ok x) (.ok y) ≠ .panic := fun x y => byGeneration_np np_pure np_pure
  have uns := unsignedOnly_np s
  cases f <;> dsimp only <;> first
    | exact np_pure
    | exact np_call (icc_total v) fun _ => np_call uns fun _ => np_pure
    | exact np_call (ic_total v) fun _ => np_call uns fun _ => np_pure
    | exact np_call (identification_total v) fun _ => gen _ _
    | exact np_call (drivingLicence_total v) fun _ => gen _ _
    | exact np_call (events_total v) fun _ => gen _ _
    | exact np_call (driverActivity_no_panic v) fun _ => gen _ _
    | exact np_call (currentUsage_total v) fun _ => gen _ _
    | exact np_call (controlActivity_total v) fun _ => gen _ _
    | exact np_call (cardDownload_total v) fun _ => np_call uns fun _ => gen _ _
    | exact byGeneration_np (np_call (appId_total v) fun _ => np_pure) (np_call (appIdG2_total v) fun _ => np_pure)
    | exact byGeneration_np (np_call (vehiclesUsed_total v) fun _ => np_pure) (np_call (vehiclesUsedG2_total v) fun _ => np_pure)
    | exact byGeneration_np (np_call (places_total v) fun _ => np_pure) (np_call (placesG2_total v) fun _ => np_pure)
    | exact byGeneration_np (np_call (conditions_total v) fun _ => np_pure) (np_call (conditionsG2_total v) fun _ => np_pure)
    | exact np_call (vehicleUnits_total v) fun _ => np_pure
    | exact np_call (gnssPlaces_total v) fun _ => np_pure
    | exact np_call (appIdV2_total v) fun _ => np_pure
    | exact np_guard fun _ => np_call (rsa_total v) fun _ => np_call uns fun _ => np_pure
    | exact np_guard fun _ => np_call (ecc_parse_ne_panic v) fun _ => np_call uns fun _ => np_pure
    | exact np_call (byGeneration_np (np_call (rsa_total v) fun _ => np_pure) (np_call (ecc_parse_ne_panic v) fun _ => np_pure))
        fun _ => np_call uns fun _ => np_pure

/-- C50: parsing a driver card from raw records never panics: it returns a message or an error. -/
theorem driver_card_total (rs : List RawRec) : unmarshalDriverCard rs ≠ .panic := by
  have : ∀ n (rs : List RawRec) (c : DriverCard), rs.length = n → driverCardLoop c rs ≠ .panic := by
    intro n
    induction n using Nat.strongRecOn with
    | _ n ih =>
      intro rs c hn
      match rs, hn with
      | [], _ => exact np_pure
      | [r], _ => exact np_ite (fun _ => route_np _ _ _ _ _) fun _ => np_err
      | r :: s :: rest, hn =>
        rw [driverCardLoop]
        refine np_ite (fun _ => np_ite (fun _ => np_call (route_np _ _ _ _ _) fun c => ?_) fun _ =>
          np_call (route_np _ _ _ _ _) fun c => ?_) fun _ => np_err
        · exact ih rest.length (by simp at hn; omega) rest c rfl
        · exact ih (s :: rest).length (by simp at hn ⊢; omega) (s :: rest) c rfl
  exact this _ rs {} rfl

/-- C29: a data record that carries the Gen2 generation bit and the file id C100 stops the parse, whatever
else is in the file: the file id of EF_CardMA_Certificate is taken for EF_Card_Certificate, which only
exists in Gen1. -/
theorem gen2_card_refused (rs : List RawRec) (r : RawRec) (hr : r ∈ rs) (hd : r.contentType = .data)
    (hf : r.file = mapFid 0xC100) (hg : r.generation = .gen2) : ∃ m, unmarshalDriverCard rs = .err m := by
  cases h : unmarshalDriverCard rs with
  | panic => exact absurd h (driver_card_total rs)
  | err m => exact ⟨m, rfl⟩
  | ok c =>
    obtain ⟨bs, rfl, hb, _⟩ := (driver_card_iff rs c).mp h
    obtain ⟨b, hbm, hrb⟩ := List.mem_flatMap.mp hr
    obtain ⟨hgood, hread⟩ := hb b hbm
    have : r = b.data := by
      obtain ⟨d, sig⟩ := b
      cases sig with
      | none => simpa [Block.records] using hrb
      | some s =>
        simp only [Block.records, Option.toList_some, List.mem_cons, List.not_mem_nil, or_false] at hrb
        rcases hrb with e | e
        · exact e
        · rw [e, (hgood.2 s rfl).1] at hd; cases hd
    subst this
    have hfile : b.data.file = .cardCertificate := by rw [hf]; decide
    rw [Block.Readable, hfile] at hread
    rw [hg] at hread
    exact absurd hread.2.1 (by decide)

attribute [local semireducible] routeRecord

/-! ## A concrete card: a chip file, a signed application identification, an ignored file with its
signature, and two download dates of which the newer one stays -/

/-- The records of the example, as the raw parser delivers them. -/
def Spec.sampleRecords : List RawRec :=
  [⟨0x000500, .ic, .gen1, .data, 8, [1, 2, 3, 4, 5, 6, 7, 8]⟩,
   ⟨0x050100, .applicationIdentification, .gen1, .data, 10, [1, 0, 0, 6, 6, 0x35, 0xD0, 0, 84, 112]⟩,
   ⟨0x050101, .applicationIdentification, .gen1, .signature, 3, [9, 9, 9]⟩,
   ⟨0x123400, .unspecified, .gen1, .data, 1, [7]⟩,
   ⟨0x123401, .unspecified, .gen1, .signature, 1, [8]⟩,
   ⟨0x050E00, .cardDownloadDriver, .gen1, .data, 4, [0, 0, 0, 1]⟩,
   ⟨0x050E00, .cardDownloadDriver, .gen1, .data, 4, [0, 0, 1, 4]⟩]

set_option maxRecDepth 4000 in
example : ∃ c, unmarshalDriverCard Spec.sampleRecords = .ok c ∧
    (c.tachograph.bind (·.applicationIdentification)).bind (·.signature) = some [9, 9, 9] ∧
    (c.tachograph.bind (·.cardDownload)) = some ⟨some ⟨260, 0⟩⟩ ∧
    c.tachographG2.isNone = true ∧ c.icc.isNone = true ∧ c.ic.isSome = true := ⟨_, rfl, rfl, rfl, rfl, rfl, rfl⟩

/-- A signature that follows another file is refused. -/
example : ∃ m, unmarshalDriverCard [⟨0x000500, .ic, .gen1, .data, 8, [1, 2, 3, 4, 5, 6, 7, 8]⟩,
    ⟨0x050101, .applicationIdentification, .gen1, .signature, 3, [9, 9, 9]⟩] = .err m := ⟨_, rfl⟩

end Tacho
