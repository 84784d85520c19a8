import Verif.Props.DriverCardWrite
/-!
# C30: driver cards with very large files

The length field of a record has 16 bits, and the reader takes at most 65530 bytes. The writer checks neither.
-/

namespace Tacho
open Spec

variable [Charmap]

omit [Charmap] in
private theorem tlvs_le {ss : List Entry} {vs : List Bytes} (h : ∀ v ∈ vs, v.length ≤ 65530) :
    ∀ r ∈ tlvsOf ss vs, r.value.length ≤ 65530 := by
  intro r hr
  obtain ⟨⟨e, v⟩, hp, hr⟩ := List.mem_flatMap.mp hr
  have hv := h v (List.of_mem_zip hp).2
  simp only [Entry.tlvs, List.mem_cons] at hr
  rcases hr with rfl | hr
  · exact hv
  · cases hsg : e.signed
    · rw [hsg] at hr; simp at hr
    · rw [hsg] at hr; simp at hr; rw [hr]; simp

omit [Charmap] in
private theorem bytesOf_append {ss : List Entry} {vs : List Bytes} (h : ss.length = vs.length) (ss' : List Entry) (vs' : List Bytes) :
    bytesOf (ss ++ ss') (vs ++ vs') = bytesOf ss vs ++ bytesOf ss' vs' := by
  simp only [bytesOf, List.zip_append h, List.flatMap_append]

/-- C30: the file written is read back record by record exactly if no elementary file has more than 65530 bytes. -/
theorem driver_card_reparses_iff (c : DriverCard) (vs : List Bytes)
    (hv : List.Forall₂ (fun e v => e.content = .ok v) (entries c) vs) (out : Bytes) (h : marshalDriverCard (some c) = .ok out) :
    unmarshalRawCardFile out = .ok ((tlvsOf (entries c) vs).map Tlv.record) ↔ ∀ v ∈ vs, v.length ≤ 65530 := by
  constructor
  · intro hr v hm
    obtain ⟨rs, hrs, he⟩ := (raw_card_accepts_iff out).1 ⟨_, hr⟩
    rw [he, parse_fileBytes rs hrs, Res.ok.injEq] at hr
    obtain ⟨i, hi, rfl⟩ := List.mem_iff_getElem.1 hm
    have hie : i < (entries c).length := hv.length_eq ▸ hi
    have hmem : (⟨(entries c)[i].fidHi, (entries c)[i].fidLo, (entries c)[i].appendix, vs[i]⟩ : Tlv) ∈ tlvsOf (entries c) vs := by
      refine List.mem_flatMap.2 ⟨((entries c)[i], vs[i]), ?_, by simp [Entry.tlvs]⟩
      exact List.mem_iff_getElem.2 ⟨i, by rw [List.length_zip]; omega, by simp⟩
    have := List.mem_map_of_mem (f := Tlv.record) hmem
    rw [← hr] at this
    obtain ⟨r, hr1, hr2⟩ := List.mem_map.1 this
    have e2 : r.value = vs[i] := congrArg RawRec.value hr2
    rw [← e2]; exact hrs r hr1
  · intro hs
    obtain ⟨vs', hv', rfl⟩ := (driver_card_written_iff c out).mp h
    obtain rfl : vs = vs' := List.right_unique_forall₂' (fun e v w h1 h2 => by rw [h1] at h2; exact Res.ok.inj h2) hv hv'
    rw [bytesOf_eq _ _ (fun v hm => Nat.le_trans (hs v hm) (by omega))]
    exact parse_fileBytes _ (tlvs_le hs)

/-- C30, finding: a message with an elementary file of exactly 65531 bytes, and none larger before it, is written to a file
that makes the reader panic. -/
theorem driver_card_written_panics (c : DriverCard) (out : Bytes) (h : marshalDriverCard (some c) = .ok out) (pre post : List Bytes) (v : Bytes)
    (hv : List.Forall₂ (fun e v => e.content = .ok v) (entries c) (pre ++ v :: post)) (hp : ∀ x ∈ pre, x.length ≤ 65530)
    (hl : v.length = 65531) : unmarshalRawCardFile out = .panic := by
  obtain ⟨vs', hv', rfl⟩ := (driver_card_written_iff c out).mp h
  obtain rfl : pre ++ v :: post = vs' :=
    List.right_unique_forall₂' (fun e v w h1 h2 => by rw [h1] at h2; exact Res.ok.inj h2) hv hv'
  have hlen := hv.length_eq
  simp only [List.length_append, List.length_cons] at hlen
  obtain ⟨es, e, fs, hes, hel⟩ : ∃ es e fs, entries c = es ++ e :: fs ∧ es.length = pre.length := by
    refine ⟨(entries c).take pre.length, (entries c)[pre.length]'(by omega), (entries c).drop (pre.length + 1), ?_, by simp; omega⟩
    rw [List.getElem_cons_drop, List.take_append_drop]
  rw [hes, bytesOf_append hel, bytesOf_eq _ _ (fun x hx => Nat.le_trans (hp x hx) (by omega))]
  refine (raw_card_panics_iff _).2 ⟨tlvsOf es pre, ⟨e.fidHi, e.fidLo, e.appendix, v⟩,
    (fileBytes (if e.signed then [⟨e.fidHi, e.fidLo, e.appendix + 1, List.replicate 128 0⟩] else [])) ++ bytesOf fs post, tlvs_le hp, hl, ?_⟩
  have : bytesOf (e :: fs) (v :: post) = e.bytes v ++ bytesOf fs post := rfl
  rw [this, entry_bytes_tlv e v (by omega), Entry.tlvs]
  simp [fileBytes]

/-- C30, finding: of an elementary file of 65536 bytes or more only the rest beyond 65536 is taken for its contents; what
follows is taken for records of its own, and if it looks like records, the file is read as a card with other files. -/
theorem driver_card_overlong (c : DriverCard) (out : Bytes) (h : marshalDriverCard (some c) = .ok out)
    (es fs : List Entry) (e : Entry) (he : entries c = es ++ e :: fs) (pre post : List Bytes) (a : Bytes) (rs : List Tlv)
    (hp : ∀ x ∈ pre ++ post, x.length ≤ 65530) (hr : ∀ r ∈ rs, r.value.length ≤ 65530)
    (hv1 : List.Forall₂ (fun e v => e.content = .ok v) es pre) (hv2 : e.content = .ok (a ++ fileBytes rs))
    (hv3 : List.Forall₂ (fun e v => e.content = .ok v) fs post)
    (ha : a.length ≤ 65530) (hl : (a ++ fileBytes rs).length = 65536 + a.length) :
    unmarshalRawCardFile out = .ok (List.map Tlv.record (tlvsOf es pre ++ [⟨e.fidHi, e.fidLo, e.appendix, a⟩] ++ rs ++
      (if e.signed then [⟨e.fidHi, e.fidLo, e.appendix + 1, List.replicate 128 0⟩] else []) ++ tlvsOf fs post)) := by
  obtain ⟨vs', hv', rfl⟩ := (driver_card_written_iff c out).mp h
  have hv : List.Forall₂ (fun e v => e.content = .ok v) (entries c) (pre ++ (a ++ fileBytes rs) :: post) := by
    rw [he]; exact List.rel_append hv1 (.cons hv2 hv3)
  obtain rfl : pre ++ (a ++ fileBytes rs) :: post = vs' :=
    List.right_unique_forall₂' (fun e v w h1 h2 => by rw [h1] at h2; exact Res.ok.inj h2) hv hv'
  have hb : bytesOf (e :: fs) ((a ++ fileBytes rs) :: post) = e.bytes (a ++ fileBytes rs) ++ bytesOf fs post := rfl
  have hpre : ∀ x ∈ pre, x.length ≤ 65530 := fun x hx => hp x (by simp [hx])
  have hpost : ∀ x ∈ post, x.length ≤ 65530 := fun x hx => hp x (by simp [hx])
  rw [he, bytesOf_append hv1.length_eq, hb, bytesOf_eq _ _ (fun x hx => Nat.le_trans (hpre x hx) (by omega)),
    bytesOf_eq _ _ (fun x hx => Nat.le_trans (hpost x hx) (by omega))]
  have key : e.bytes (a ++ fileBytes rs) = fileBytes ([⟨e.fidHi, e.fidLo, e.appendix, a⟩] ++ rs ++
      (if e.signed then [⟨e.fidHi, e.fidLo, e.appendix + 1, List.replicate 128 0⟩] else [])) := by
    have h1 := entry_bytes_tlv { e with signed := false } a (by omega)
    have h2 := entry_bytes_tlv { e with appendix := e.appendix + 1, signed := false } (List.replicate 128 0) (by simp)
    simp only [Entry.bytes, Entry.tlvs, Bool.false_eq_true, if_false, List.append_nil] at h1 h2
    have hm : (a ++ fileBytes rs).length % 65536 = a.length % 65536 := by omega
    simp only [Entry.bytes, hm]
    simp only [fileBytes, List.flatMap_append] at h1 h2 ⊢
    rw [← h1]
    cases e.signed
    · simp
    · simp only [if_true]
      rw [← h2]
      simp [beBytes, List.append_assoc]
  rw [key]
  have hall : fileBytes (tlvsOf es pre) ++ (fileBytes ([⟨e.fidHi, e.fidLo, e.appendix, a⟩] ++ rs ++
      (if e.signed then [⟨e.fidHi, e.fidLo, e.appendix + 1, List.replicate 128 0⟩] else [])) ++ fileBytes (tlvsOf fs post)) =
      fileBytes (tlvsOf es pre ++ [⟨e.fidHi, e.fidLo, e.appendix, a⟩] ++ rs ++
      (if e.signed then [⟨e.fidHi, e.fidLo, e.appendix + 1, List.replicate 128 0⟩] else []) ++ tlvsOf fs post) := by
    simp only [fileBytes, List.flatMap_append, List.append_assoc]
  rw [hall]
  apply parse_fileBytes
  intro r hm
  simp only [List.mem_append, List.mem_singleton] at hm
  rcases hm with (((hm | rfl) | hm) | hm) | hm
  · exact tlvs_le hpre r hm
  · exact ha
  · exact hr r hm
  · cases hsg : e.signed
    · rw [hsg] at hm; simp at hm
    · rw [hsg] at hm; simp at hm; rw [hm]; simp
  · exact tlvs_le hpost r hm

/-! ## Examples -/

/-- A card with nothing but a place file. -/
def Spec.placesCard (m : RecordFile PlaceRecord) : DriverCard := { tachograph := some { places := some { data := m, signature := none } } }

theorem placesCard_entries (m : RecordFile PlaceRecord) :
    entries (placesCard m) = [⟨0x05, 0x06, 0, true, appendPlaces [] (some m)⟩] := by
  simp [entries, placesCard, gen1Entries, gen2Entries, gen1Certificates, gen2Certificates, entry, certificate]

/-- The contents of a place file can be any bytes that make whole records. -/
theorem placesCard_content (d : Bytes) (k : Nat) (hd : d.length = 1 + k * 10) : ∃ m, appendPlaces [] (some m) = .ok d ∧ m.records.length = k := by
  obtain ⟨m, hm⟩ := (places_accepts_iff d).2 (by omega)
  have hk : recordCount 1 10 d = k := by simp only [recordCount]; omega
  refine ⟨m, ?_, ?_⟩
  · rw [places_restores d [] m hm]
    simp only [List.nil_append, Res.ok.injEq, wholeRecords, hk]
    exact List.take_of_length_le (by omega)
  · rw [((places_ok_iff d m).1 hm).2.2.2.1, hk]

omit [Charmap] in
theorem some_bytes (n : Nat) : ∃ z : Bytes, z.length = n := ⟨List.replicate n 0, List.length_replicate⟩

/-- A card with 6553 places is written to a file that cannot be read without a panic. -/
example : ∃ m : RecordFile PlaceRecord, m.records.length = 6553 ∧ ∃ out, marshalDriverCard (some (placesCard m)) = .ok out ∧
    unmarshalRawCardFile out = .panic := by
  obtain ⟨z, hz⟩ := some_bytes 65531
  obtain ⟨m, hm, hk⟩ := placesCard_content z 6553 hz
  have hv : List.Forall₂ (fun e v => Entry.content e = .ok v) (entries (placesCard m)) ([] ++ z :: []) := by
    rw [placesCard_entries]; exact .cons hm .nil
  exact ⟨m, hk, _, (driver_card_written_iff _ _).2 ⟨_, hv, rfl⟩,
    driver_card_written_panics _ _ ((driver_card_written_iff _ _).2 ⟨_, hv, rfl⟩) [] [] _ hv (by simp) hz⟩

/-- A card with 6554 places and no identification is written to a file that is read as a card with an identification. -/
example : ∃ m : RecordFile PlaceRecord, m.records.length = 6554 ∧ ∃ out, marshalDriverCard (some (placesCard m)) = .ok out ∧
    ∃ rs, unmarshalRawCardFile out = .ok rs ∧ rs.length = 4 ∧ (rs[1]?.map RawRec.file) = some .identification := by
  obtain ⟨z, hz⟩ := some_bytes 65526
  obtain ⟨a, ha⟩ := some_bytes 5
  have hl : (a ++ fileBytes [⟨0x05, 0x20, 0, z⟩, ⟨0x05, 0x20, 1, []⟩]).length = 65536 + 5 := by
    simp [fileBytes, Tlv.bytes_length, hz, ha]
  obtain ⟨m, hm, hk⟩ := placesCard_content _ 6554 hl
  have hv : List.Forall₂ (fun e v => Entry.content e = .ok v) (entries (placesCard m)) [a ++ fileBytes [⟨0x05, 0x20, 0, z⟩, ⟨0x05, 0x20, 1, []⟩]] := by
    rw [placesCard_entries]; exact .cons hm .nil
  have hw := (driver_card_written_iff _ _).2 ⟨_, hv, rfl⟩
  refine ⟨m, hk, _, hw, _, driver_card_overlong _ _ hw [] [] _ (placesCard_entries m) [] [] a _ (by simp) ?_ .nil hm .nil
    (by omega) (by rw [hl, ha]), rfl, ?_⟩
  · intro r hr
    simp only [List.mem_cons, List.not_mem_nil, or_false] at hr
    rcases hr with rfl | rfl
    · show z.length ≤ 65530; omega
    · simp
  · have : mapFid ((0x05 : UInt8).toNat * 256 + (0x20 : UInt8).toNat) = .identification := by decide +kernel
    simp only [tlvsOf, List.zip_nil_right, List.flatMap_nil, List.nil_append, List.cons_append, List.map_cons, List.getElem?_cons_succ,
      List.getElem?_cons_zero, Option.map_some, Tlv.record, this]

end Tacho
