import Verif.Lemmas.RawCard
/-!
# Properties of raw card files (C01, C02, C03, C04, C12)
-/

namespace Tacho
open Spec

/-! ## C03: exact acceptance set -/

/-- Every byte string is of exactly one of three kinds; this is how the proofs below split inputs. -/
theorem card_file_cases (d : Bytes) :
    (∃ rs : List Tlv, (∀ r ∈ rs, r.value.length ≤ 65530) ∧ d = fileBytes rs ∧
      unmarshalRawCardFile d = .ok (rs.map Tlv.record)) ∨
    (∃ rs : List Tlv, ∃ r : Tlv, ∃ t, (∀ r ∈ rs, r.value.length ≤ 65530) ∧
      r.value.length = 65531 ∧ d = fileBytes rs ++ r.bytes ++ t ∧
      unmarshalRawCardFile d = .panic) ∨
    (∃ rs : List Tlv, ∃ t, (∀ r ∈ rs, r.value.length ≤ 65530) ∧ d = fileBytes rs ++ t ∧ t ≠ [] ∧
      (¬ ∃ r : Tlv, ∃ u, t = r.bytes ++ u ∧ r.value.length ≤ 65531) ∧
      ∃ m, unmarshalRawCardFile d = .err m) := by
  induction hn : d.length using Nat.strongRecOn generalizing d with
  | _ n ih =>
  by_cases hd : d = []
  · left; exact ⟨[], by simp, by simp [hd, fileBytes], by rw [hd, unmarshalRaw_nil]; rfl⟩
  by_cases h : ∃ r : Tlv, ∃ t, d = r.bytes ++ t ∧ r.value.length ≤ 65531
  · obtain ⟨r, t, e, hv⟩ := h
    by_cases hv' : r.value.length ≤ 65530
    · have hlt : t.length < n := by
        rw [← hn, e, List.length_append, r.bytes_length]; omega
      have hc := unmarshalRaw_cons r hv' t
      rw [← e] at hc
      rcases ih t.length hlt t rfl with ⟨rs, a, b, c⟩ | ⟨rs, r', t', a, b, c, f⟩ | ⟨rs, t', a, b, c, f, m, g⟩
      · left
        refine ⟨r :: rs, ?_, ?_, ?_⟩
        · intro x hx; rcases List.mem_cons.mp hx with rfl | hx; exact hv'; exact a x hx
        · rw [e, b]; simp [fileBytes]
        · rw [hc, c]; rfl
      · right; left
        refine ⟨r :: rs, r', t', ?_, b, ?_, ?_⟩
        · intro x hx; rcases List.mem_cons.mp hx with rfl | hx; exact hv'; exact a x hx
        · rw [e, c]; simp [fileBytes]
        · rw [hc, f]; rfl
      · right; right
        refine ⟨r :: rs, t', ?_, ?_, c, f, m, ?_⟩
        · intro x hx; rcases List.mem_cons.mp hx with rfl | hx; exact hv'; exact a x hx
        · rw [e, b]; simp [fileBytes]
        · rw [hc, g]; rfl
    · right; left
      have hv2 : r.value.length = 65531 := by omega
      exact ⟨[], r, t, by simp, hv2, by simp [fileBytes, e], by rw [e, unmarshalRaw_panic r hv2]⟩
  · right; right
    exact ⟨[], d, by simp, by simp [fileBytes], hd, h, unmarshalRaw_err hd h⟩

/-- C02/C03 core: a file built from records with values up to 65530 bytes parses to those records. -/
theorem parse_fileBytes (rs : List Tlv) (h : ∀ r ∈ rs, r.value.length ≤ 65530) :
    unmarshalRawCardFile (fileBytes rs) = .ok (rs.map Tlv.record) := by
  induction rs with
  | nil => exact unmarshalRaw_nil
  | cons r rs ih =>
    have : fileBytes (r :: rs) = r.bytes ++ fileBytes rs := by simp [fileBytes]
    rw [this, unmarshalRaw_cons r (h r (by simp)), ih (fun x hx => h x (by simp [hx]))]
    rfl

/-- C03 (acceptance): the parser accepts exactly the concatenations of complete TLV records whose
values have at most 65530 bytes. -/
theorem raw_card_accepts_iff (d : Bytes) :
    (∃ out, unmarshalRawCardFile d = .ok out) ↔
      ∃ rs : List Tlv, (∀ r ∈ rs, r.value.length ≤ 65530) ∧ d = fileBytes rs := by
  constructor
  · rintro ⟨out, ho⟩
    rcases card_file_cases d with ⟨rs, a, b, _⟩ | ⟨_, _, _, _, _, _, c⟩ | ⟨_, _, _, _, _, _, m, c⟩
    · exact ⟨rs, a, b⟩
    · rw [c] at ho; cases ho
    · rw [c] at ho; cases ho
  · rintro ⟨rs, a, b⟩
    exact ⟨_, b ▸ parse_fileBytes rs a⟩

/-- C03 (crash freedom fails): the parser panics exactly when, after complete records, the input has
a complete record with a value of exactly 65531 bytes, whatever follows it. -/
theorem raw_card_panics_iff (d : Bytes) :
    unmarshalRawCardFile d = .panic ↔
      ∃ rs : List Tlv, ∃ r : Tlv, ∃ t, (∀ r ∈ rs, r.value.length ≤ 65530) ∧
        r.value.length = 65531 ∧ d = fileBytes rs ++ r.bytes ++ t := by
  constructor
  · intro ho
    rcases card_file_cases d with ⟨_, _, _, c⟩ | ⟨rs, r, t, a, b, c, _⟩ | ⟨_, _, _, _, _, _, m, c⟩
    · rw [c] at ho; cases ho
    · exact ⟨rs, r, t, a, b, c⟩
    · rw [c] at ho; cases ho
  · rintro ⟨rs, r, t, a, b, c⟩
    subst c
    induction rs with
    | nil => exact unmarshalRaw_panic r b t
    | cons x rs ih =>
      have : fileBytes (x :: rs) ++ r.bytes ++ t = x.bytes ++ (fileBytes rs ++ r.bytes ++ t) := by
        simp [fileBytes]
      rw [this, unmarshalRaw_cons x (a x (by simp)), ih (fun y hy => a y (by simp [hy]))]
      rfl

/-- C03, negative part: there is an input on which `UnmarshalRawCardFile` panics. -/
theorem raw_card_no_panic_fails :
    ¬ ∀ d : Bytes, unmarshalRawCardFile d ≠ .panic := by
  intro h
  exact h _ (unmarshalRaw_panic ⟨0, 2, 0, List.replicate 65531 0⟩ List.length_replicate [])

/-- C03: without a 65531-byte value there is no panic; every such input is a value or an error. By `raw_card_panics_iff`
the hypothesis cannot be dropped. -/
theorem raw_card_no_panic_if (d : Bytes)
    (h : ∀ rs : List Tlv, ∀ r : Tlv, ∀ t, d = fileBytes rs ++ r.bytes ++ t →
      r.value.length ≠ 65531) :
    unmarshalRawCardFile d ≠ .panic := by
  intro hp
  obtain ⟨rs, r, t, _, b, c⟩ := (raw_card_panics_iff d).mp hp
  exact h rs r t c b

/-- In particular no input shorter than 65536 bytes can panic. -/
theorem raw_card_no_panic_short (d : Bytes) (h : d.length < 65536) :
    unmarshalRawCardFile d ≠ .panic := by
  apply raw_card_no_panic_if
  intro rs r t e hv
  rw [e] at h
  simp only [List.length_append, r.bytes_length] at h
  omega

/-- C03 (truncation): cutting a file inside its last record, at any point that is not a record
boundary, is reported as an error; no partial result is returned. -/
theorem raw_card_truncated (rs : List Tlv) (r : Tlv) (k : Nat)
    (h : ∀ r ∈ rs, r.value.length ≤ 65530) (hr : r.value.length ≤ 65530)
    (hk0 : 0 < k) (hk : k < r.bytes.length) :
    ∃ m, unmarshalRawCardFile (fileBytes rs ++ r.bytes.take k) = .err m := by
  induction rs with
  | nil =>
    apply unmarshalRaw_err
    · intro hn
      have := congrArg List.length hn
      simp only [fileBytes, List.flatMap_nil, List.nil_append, List.length_take,
        List.length_nil] at this
      omega
    · rintro ⟨x, t, e, hx⟩
      simp only [fileBytes, List.flatMap_nil, List.nil_append] at e
      -- both sides start with the same length field
      have hle := congrArg List.length e
      have hxl := x.bytes_length
      have hrl := r.bytes_length
      rw [List.length_take, List.length_append, hxl] at hle
      have h1 := x.header (by omega) t
      rw [← e] at h1
      have h2 := r.header (by omega) []
      rw [List.append_nil] at h2
      have : sl (r.bytes.take k) 3 5 = sl r.bytes 3 5 := by
        unfold sl; rw [List.take_take, Nat.min_eq_left (by omega)]
      rw [this, h2] at h1
      omega
  | cons x rs ih =>
    have : fileBytes (x :: rs) ++ r.bytes.take k = x.bytes ++ (fileBytes rs ++ r.bytes.take k) := by
      simp [fileBytes]
    obtain ⟨m, hm⟩ := ih (fun y hy => h y (by simp [hy]))
    exact ⟨m, by rw [this, unmarshalRaw_cons x (h x (by simp)), hm]; rfl⟩

/-! ## C01: parse then serialise -/

theorem marshalRawRec_record (r : Tlv) (h : r.value.length ≤ 65530) :
    marshalRawRec r.record = r.bytes := by
  have h0 := byte_lt r.fidHi; have h1 := byte_lt r.fidLo; have h2 := byte_lt r.appendix
  unfold marshalRawRec Tlv.bytes Tlv.record
  simp only
  have e1 : ((r.fidHi.toNat * 65536 + r.fidLo.toNat * 256 + r.appendix.toNat : Int) / 256 % 65536).toNat
      = r.fidHi.toNat * 256 + r.fidLo.toNat := by omega
  have e2 : ((r.fidHi.toNat * 65536 + r.fidLo.toNat * 256 + r.appendix.toNat : Int) % 256).toNat
      = r.appendix.toNat := by omega
  have e3 : ((r.value.length : Int) % 65536).toNat = r.value.length := by omega
  rw [e1, e2, e3, UInt8.ofNat_toNat]
  have e4 : beBytes 2 (r.fidHi.toNat * 256 + r.fidLo.toNat) = [r.fidHi, r.fidLo] := by
    rw [← beNat_two]; exact beBytes_beNat' rfl
  have e5 : beBytes 2 r.value.length
      = [UInt8.ofNat (r.value.length / 256), UInt8.ofNat (r.value.length % 256)] := by
    simp only [beBytes, Nat.pow_one, Nat.pow_zero, Nat.div_one]
    rw [Nat.mod_eq_of_lt (by omega : r.value.length / 256 < 256)]
  rw [e4, e5]; rfl

/-- C01: whenever the parser accepts a byte string, serialising the result gives exactly that byte
string back, and the records are those encoded in the bytes: the input is a concatenation of TLV
records, and field by field the output is what each record says. -/
theorem raw_card_roundtrip (d : Bytes) (out : List RawRec) (h : unmarshalRawCardFile d = .ok out) :
    marshalRawCardFile out = .ok d ∧
      ∃ rs : List Tlv, d = fileBytes rs ∧ out = rs.map Tlv.record := by
  rcases card_file_cases d with ⟨rs, a, b, c⟩ | ⟨_, _, _, _, _, _, c⟩ | ⟨_, _, _, _, _, _, m, c⟩
  · rw [c] at h; cases h
    refine ⟨?_, rs, b, rfl⟩
    unfold marshalRawCardFile
    rw [b]; congr 1
    clear b c
    induction rs with
    | nil => rfl
    | cons r rs ih =>
      simp only [List.map_cons, List.flatMap_cons, fileBytes]
      rw [marshalRawRec_record r (a r (by simp)), ih (fun x hx => a x (by simp [hx]))]
      rfl
  · rw [c] at h; cases h
  · rw [c] at h; cases h

/-- The decomposition of an accepted file into records is unique, so "the records encoded in the
bytes" is well defined. -/
theorem fileBytes_injective (rs rs' : List Tlv) (h : ∀ r ∈ rs, r.value.length ≤ 65530)
    (h' : ∀ r ∈ rs', r.value.length ≤ 65530) (e : fileBytes rs = fileBytes rs') : rs = rs' := by
  induction rs generalizing rs' with
  | nil =>
    cases rs' with
    | nil => rfl
    | cons r _ => have := congrArg List.length e; simp [fileBytes, Tlv.bytes] at this
  | cons r rs ih =>
    cases rs' with
    | nil => have := congrArg List.length e; simp [fileBytes, Tlv.bytes] at this
    | cons r' rs' =>
      have hr := h r (by simp); have hr' := h' r' (by simp)
      have e' : r.bytes ++ fileBytes rs = r'.bytes ++ fileBytes rs' := by
        simpa [fileBytes] using e
      have l1 := r.header (by omega) (fileBytes rs)
      have l2 := r'.header (by omega) (fileBytes rs')
      rw [e', l2] at l1
      have hlen : r.bytes.length = r'.bytes.length := by rw [r.bytes_length, r'.bytes_length, l1]
      obtain ⟨hb, ht⟩ := List.append_inj e' hlen
      have hrr : r = r' := by
        cases r; cases r'
        simp [Tlv.bytes] at hb
        simp_all
      rw [hrr, ih rs' (fun x hx => h x (by simp [hx])) (fun x hx => h' x (by simp [hx])) ht]

/-! ## C02: serialise then parse -/

/-- C02: for every list of records whose tag fits in 24 bits and whose length field is the length of
the value and at most 65530, serialising and parsing recovers tag, length and value of every record
in order. -/
theorem raw_card_marshal_unmarshal (rs : List RawRec)
    (h : ∀ r ∈ rs, 0 ≤ r.tag ∧ r.tag < 2 ^ 24 ∧ r.length = r.value.length ∧ r.value.length ≤ 65530) :
    ∃ b out, marshalRawCardFile rs = .ok b ∧ unmarshalRawCardFile b = .ok out ∧
      out.map (fun r => (r.tag, r.length, r.value)) = rs.map (fun r => (r.tag, r.length, r.value)) := by
  -- the TLV record of a message record
  let toTlv : RawRec → Tlv := fun r =>
    ⟨UInt8.ofNat (r.tag.toNat / 65536), UInt8.ofNat (r.tag.toNat / 256 % 256),
      UInt8.ofNat (r.tag.toNat % 256), r.value⟩
  have key : ∀ r ∈ rs, marshalRawRec r = (toTlv r).bytes ∧
      ((toTlv r).record.tag, (toTlv r).record.length, (toTlv r).record.value)
        = (r.tag, r.length, r.value) := by
    intro r hr
    obtain ⟨a, b, c, d⟩ := h r hr
    have t0 : (toTlv r).fidHi.toNat = r.tag.toNat / 65536 := toNat_ofNat_lt (by omega)
    have t1 : (toTlv r).fidLo.toNat = r.tag.toNat / 256 % 256 := toNat_ofNat_lt (by omega)
    have t2 : (toTlv r).appendix.toNat = r.tag.toNat % 256 := toNat_ofNat_lt (by omega)
    have e1 : (toTlv r).record.tag = r.tag := by simp only [Tlv.record, t0, t1, t2]; omega
    have e2 : (toTlv r).record.length = r.length := by simp only [Tlv.record, c]; rfl
    have e3 : (toTlv r).record.value = r.value := rfl
    refine ⟨?_, by rw [e1, e2, e3]⟩
    rw [← marshalRawRec_record (toTlv r) d]
    simp only [marshalRawRec, e1, e2, e3]
  refine ⟨fileBytes (rs.map toTlv), (rs.map toTlv).map Tlv.record, ?_, ?_, ?_⟩
  · unfold marshalRawCardFile fileBytes
    congr 1
    rw [List.flatMap_map]
    clear h
    induction rs with
    | nil => rfl
    | cons r rs ih =>
      simp only [List.flatMap_cons]
      rw [(key r (by simp)).1, ih (fun x hx => key x (by simp [hx]))]
  · apply parse_fileBytes
    intro r hr
    obtain ⟨x, hx, rfl⟩ := List.mem_map.mp hr
    exact (h x hx).2.2.2
  · rw [List.map_map, List.map_map]
    apply List.map_congr_left
    intro r hr
    exact (key r hr).2

/-! ## C04: the scanner -/

/-- C04: for every stable split function and every input, draining `bufio.Scanner` delivers exactly
the records of buffer-free splitting of the whole input, and ends with the same error or with none. -/
theorem scanner_refines_chunks {split : SplitFn} (hs : Stable split) (d : Bytes) :
    (scanAll split d).toks.map Tok.bytes = (chunks split d).1 ∧
      (scanAll split d).err = (chunks split d).2 := by
  have := scanAll_chunks hs d
  exact ⟨congrArg Prod.fst this, congrArg Prod.snd this⟩

/-- The delivered tokens are consecutive pieces of the input. -/
theorem chunks_prefix (split : SplitFn) (d : Bytes) :
    ∃ t, d = (chunks split d).1.flatten ++ t := by
  induction hn : d.length using Nat.strongRecOn generalizing d with
  | _ n ih =>
  rw [chunks]
  split
  · exact ⟨d, by simp⟩
  · exact ⟨d, by simp⟩
  · split
    · rename_i k _ hk
      obtain ⟨t, ht⟩ := ih (d.drop k).length (by rw [List.length_drop]; omega) _ rfl
      refine ⟨t, ?_⟩
      simp only [List.flatten_cons, List.append_assoc, ← ht, List.take_append_drop]
    · exact ⟨d, by simp⟩

/-- C04 for every stable split function: no byte is dropped, duplicated or reordered by buffering;
the delivered tokens, concatenated, are a prefix of the input. -/
theorem scanner_tokens_prefix {split : SplitFn} (hs : Stable split) (d : Bytes) :
    ∃ t, d = ((scanAll split d).toks.map Tok.bytes).flatten ++ t := by
  rw [(scanner_refines_chunks hs d).1]; exact chunks_prefix split d

/-! ## C12: card type inference -/

/-- The files of the DATA records of a raw card file. -/
def dataFiles (rs : List RawRec) : List EF :=
  (rs.filter (fun r => r.contentType = .data)).map RawRec.file

/-- The EFs in the structure annotation of a card type. -/
def structureOf (t : CardType) : List EF :=
  match cardTypeTable.find? (fun p => p.1 = t) with
  | some p => p.2
  | none => []

theorem hasAll_iff (ex : List EF) (rs : List RawRec) :
    hasAllElementaryFiles ex rs = true ↔ ∀ f ∈ dataFiles rs, f ∈ ex := by
  simp only [hasAllElementaryFiles, List.all_eq_true, dataFiles, List.mem_map, List.mem_filter,
    decide_eq_true_eq]
  constructor
  · rintro h f ⟨r, ⟨hr, hc⟩, rfl⟩
    have := h r hr
    rw [if_pos hc] at this
    simp at this
    exact this
  · intro h r hr
    split
    · rename_i hc
      have := h r.file ⟨r, ⟨hr, hc⟩, rfl⟩
      simp [this]
    · rfl

/-- C12: the inferred type depends only on the set of files of the DATA records: order, repetition,
signature records, generations, lengths and values are irrelevant. -/
theorem infer_depends_on_data_files (rs rs' : List RawRec)
    (h : ∀ f, f ∈ dataFiles rs ↔ f ∈ dataFiles rs') : inferFileType rs = inferFileType rs' := by
  have : ∀ ex, hasAllElementaryFiles ex rs = hasAllElementaryFiles ex rs' := by
    intro ex
    rw [Bool.eq_iff_iff, hasAll_iff, hasAll_iff]
    exact ⟨fun k f hf => k f ((h f).mpr hf), fun k f hf => k f ((h f).mp hf)⟩
  unfold inferFileType
  simp only [this]

theorem find6 {α β : Type} (q : β → Bool) (a0 a1 a2 a3 a4 a5 : α × β) (d : α) :
    (([a0, a1, a2, a3, a4, a5].find? (fun p => q p.2)).map Prod.fst).getD d =
      if q a0.2 then a0.1 else if q a1.2 then a1.1 else if q a2.2 then a2.1
      else if q a3.2 then a3.1 else if q a4.2 then a4.1 else if q a5.2 then a5.1 else d := by
  simp only [List.find?]
  cases q a0.2 <;> cases q a1.2 <;> cases q a2.2 <;> cases q a3.2 <;> cases q a4.2 <;>
    cases q a5.2 <;> rfl

/-- C12: the answer is the first card type, in declaration order, whose structure contains every
DATA file; it is "unspecified" when there is none. -/
theorem infer_first_match (rs : List RawRec) :
    inferFileType rs =
      if (dataFiles rs).all (· ∈ structureOf .unspecified) then .unspecified
      else if (dataFiles rs).all (· ∈ structureOf .driverCard) then .driverCard
      else if (dataFiles rs).all (· ∈ structureOf .workshopCard) then .workshopCard
      else if (dataFiles rs).all (· ∈ structureOf .controlCard) then .controlCard
      else if (dataFiles rs).all (· ∈ structureOf .companyCard) then .companyCard
      else if (dataFiles rs).all (· ∈ structureOf .gnssSimulatedCard) then .gnssSimulatedCard
      else .unspecified := by
  have key : ∀ ex, hasAllElementaryFiles ex rs = (dataFiles rs).all (· ∈ ex) := by
    intro ex
    rw [Bool.eq_iff_iff, hasAll_iff]; simp
  unfold inferFileType
  have ht : cardTypeTable = [(.unspecified, structureOf .unspecified),
      (.driverCard, structureOf .driverCard), (.workshopCard, structureOf .workshopCard),
      (.controlCard, structureOf .controlCard), (.companyCard, structureOf .companyCard),
      (.gnssSimulatedCard, structureOf .gnssSimulatedCard)] := by decide
  simp only [key]
  rw [ht]
  exact find6 (fun ex : List EF => (dataFiles rs).all (fun f => decide (f ∈ ex))) _ _ _ _ _ _ _

/-- C12: a file without DATA records is "unspecified". -/
theorem infer_no_data (rs : List RawRec) (h : dataFiles rs = []) :
    inferFileType rs = .unspecified := by
  rw [infer_first_match, h]; rfl

/-- C12: a file is taken for a driver card iff it has a DATA record and all DATA files belong to the
driver card structure. -/
theorem infer_driver_iff (rs : List RawRec) :
    inferFileType rs = .driverCard ↔
      dataFiles rs ≠ [] ∧ ∀ f ∈ dataFiles rs, f ∈ structureOf .driverCard := by
  rw [infer_first_match]
  have h0 : (dataFiles rs).all (· ∈ structureOf .unspecified) = true ↔ dataFiles rs = [] := by
    have : structureOf .unspecified = [] := rfl
    rw [this]
    cases dataFiles rs <;> simp
  by_cases e0 : dataFiles rs = []
  · rw [if_pos (h0.mpr e0)]; simp [e0]
  · rw [if_neg (fun h => e0 (h0.mp h))]
    by_cases e1 : (dataFiles rs).all (· ∈ structureOf .driverCard) = true
    · rw [if_pos e1]; simp only [ne_eq, e0, not_false_eq_true, true_and, true_iff]
      simpa using e1
    · rw [if_neg e1]
      constructor
      · intro h; repeat' split at h
        all_goals cases h
      · rintro ⟨_, h⟩; exact absurd (by simpa using h) e1

/-- C12 (finding): "company card" is never inferred. Every file of the company card structure is
also in the driver card structure, which is tried first, so every company card is taken for a driver
card. -/
theorem infer_never_company (rs : List RawRec) : inferFileType rs ≠ .companyCard := by
  intro h
  have hsub : ∀ f ∈ structureOf .companyCard, f ∈ structureOf .driverCard := by decide
  rw [infer_first_match] at h
  repeat' split at h
  all_goals try cases h
  rename_i h1 _ _ h4
  apply h1
  simp only [List.all_eq_true, decide_eq_true_eq] at h4 ⊢
  exact fun f hf => hsub f (h4 f hf)

/-- C12 (finding): every non-empty company card file is inferred to be a driver card. -/
theorem company_card_is_driver (rs : List RawRec) (hne : dataFiles rs ≠ [])
    (h : ∀ f ∈ dataFiles rs, f ∈ structureOf .companyCard) : inferFileType rs = .driverCard := by
  have hsub : ∀ f ∈ structureOf .companyCard, f ∈ structureOf .driverCard := by decide
  exact (infer_driver_iff rs).mpr ⟨hne, fun f hf => hsub f (h f hf)⟩

/-- C12: no signature record, and no appendix bit other than bit 0, influences the result. -/
theorem infer_ignores_signatures (rs : List RawRec) :
    inferFileType (rs.filter (fun r => r.contentType = .data)) = inferFileType rs := by
  apply infer_depends_on_data_files
  intro f
  simp [dataFiles, List.filter_filter]

/-- The FID table is injective except for the certificate FID C100, which always maps to
EF_Card_Certificate, so that EF_CardMA_Certificate is never produced. -/
theorem mapFid_never_cardMa (fid : Nat) : mapFid fid ≠ .cardMaCertificate := by
  intro h
  unfold mapFid at h
  split at h
  · rename_i p hp
    have hm := List.mem_of_find?_eq_some hp
    have hq := List.find?_some hp
    have h1 : ∀ p ∈ efTable, p.1 = .cardMaCertificate → p.2 % 65536 = 0xC100 := by decide
    have h2 := h1 p hm h
    have h3 : fid = 0xC100 := by simp only [beq_iff_eq] at hq; omega
    subst h3
    have h4 : efTable.find? (fun p => p.2 % 65536 == 0xC100) = some (.cardCertificate, 0xC100) := by
      decide
    rw [h4] at hp; cases hp; cases h
  · cases h

/-- Every annotated elementary file other than EF_CardMA_Certificate is found under its FID. -/
theorem mapFid_table : ∀ p ∈ efTable, p.1 ≠ .cardMaCertificate → mapFid p.2 = p.1 := by decide

/-- Non-annotated FIDs are reported as unspecified and never aliased to a known file. -/
theorem mapFid_unknown (fid : Nat) (h : ∀ p ∈ efTable, p.2 ≠ fid) : mapFid fid = .unspecified := by
  unfold mapFid
  have : efTable.find? (fun p => p.2 % 65536 == fid) = none := by
    rw [List.find?_eq_none]
    intro p hp
    have h1 := h p hp
    have h2 : ∀ p ∈ efTable, p.2 % 65536 = p.2 := by decide
    rw [h2 p hp]; simpa using h1
  rw [this]

/-! ## Non-vacuity -/

/-- A small Gen2 card file: ICC data, an identification EF and its signature. -/
def sampleTlvs : List Tlv :=
  [⟨0x00, 0x02, 0x00, [1, 2, 3]⟩, ⟨0x05, 0x20, 0x02, [9]⟩, ⟨0x05, 0x20, 0x03, [7, 7]⟩]

example : fileBytes sampleTlvs =
    [0, 2, 0, 0, 3, 1, 2, 3, 5, 0x20, 2, 0, 1, 9, 5, 0x20, 3, 0, 2, 7, 7] := by decide

example : unmarshalRawCardFile [0, 2, 0, 0, 3, 1, 2, 3, 5, 0x20, 2, 0, 1, 9, 5, 0x20, 3, 0, 2, 7, 7] =
    .ok [⟨0x0200, .icc, .gen1, .data, 3, [1, 2, 3]⟩,
         ⟨0x052002, .identification, .gen2, .data, 1, [9]⟩,
         ⟨0x052003, .identification, .gen2, .signature, 2, [7, 7]⟩] := by
  have := parse_fileBytes sampleTlvs (by decide)
  have e : fileBytes sampleTlvs =
    [0, 2, 0, 0, 3, 1, 2, 3, 5, 0x20, 2, 0, 1, 9, 5, 0x20, 3, 0, 2, 7, 7] := by decide
  rw [e] at this
  rw [this]; simp [sampleTlvs, Tlv.record]; decide

/-- The hypotheses of C02 are met by a two-record file. -/
example : ∀ r ∈ sampleTlvs.map Tlv.record,
    0 ≤ r.tag ∧ r.tag < 2 ^ 24 ∧ r.length = r.value.length ∧ r.value.length ≤ 65530 := by decide

/-- A value of 65530 bytes, the longest accepted one, is accepted. -/
example : ∃ out, unmarshalRawCardFile (fileBytes [⟨0, 2, 0, List.replicate 65530 7⟩]) = .ok out :=
  ⟨_, parse_fileBytes _ (by
    intro r hr; rw [List.mem_singleton] at hr; subst hr; exact Nat.le_of_eq List.length_replicate)⟩

/-- The truncation theorem applies, e.g., to the first eight bytes of the sample's second record. -/
example : ∃ m, unmarshalRawCardFile [0, 2, 0, 0, 3, 1, 2, 3, 5, 0x20] = .err m :=
  raw_card_truncated [⟨0x00, 0x02, 0x00, [1, 2, 3]⟩] ⟨0x05, 0x20, 0x02, [9]⟩ 2
    (by decide) (by decide) (by decide) (by decide)

/-- `Stable` is met by a real split function of the code. -/
example : Stable scanCardFile := scanCardFile_stable

/-- The inference theorems distinguish card types: a controller activity file makes a control card,
and a driver's file set makes a driver card. -/
example : inferFileType [⟨0x200, .icc, .gen1, .data, 0, []⟩,
    ⟨0x050C00, .controllerActivityData, .gen1, .data, 0, []⟩] = .controlCard := by decide
example : inferFileType (sampleTlvs.map Tlv.record) = .driverCard := by decide
example : inferFileType [⟨0x200, .icc, .gen1, .data, 0, []⟩,
    ⟨0x050D00, .companyActivityData, .gen1, .data, 0, []⟩] = .driverCard := by decide

end Tacho
