import Verif.Spec.CardReread
import Verif.Props.DriverCardWrite
import Verif.Props.Download
import Verif.Props.WriteIdent
/-!
# C63: a driver card message, written and read back
-/

namespace Tacho
open Spec

variable [Charmap]

/-! ## The blocks of a written file -/

omit [Charmap] in
/-- What a writer makes of a part, if there is one and it can be written. -/
def written {α : Type} (msg : Option α) (write : α → Res Bytes) : Option Bytes :=
  match msg with
  | none => none
  | some m => match write m with
    | .ok v => some v
    | _ => none

omit [Charmap] in
/-- The certificate bytes that are written. -/
def writtenCert (raw : Option Bytes) : Option Bytes :=
  match raw with
  | none => none
  | some r => if r = [] then none else some r

omit [Charmap] in
/-- The block of a written file. -/
def blockOf (hi lo a : UInt8) (sg : Bool) (v : Bytes) : Block :=
  ⟨Tlv.record ⟨hi, lo, a, v⟩, if sg then some (Tlv.record ⟨hi, lo, a + 1, List.replicate 128 0⟩) else none⟩

omit [Charmap] in
/-- The blocks, when the contents of these entries are computed, are these. -/
def Covers (es : List Spec.Entry) (os : List (Option Block)) : Prop :=
  ∀ vs, List.Forall₂ (fun e v => e.content = .ok v) es vs →
    (tlvsOf es vs).map Tlv.record = (os.filterMap id).flatMap Block.records

omit [Charmap] in
theorem covers_append {es es' : List Spec.Entry} {os os' : List (Option Block)} (h : Covers es os) (h' : Covers es' os') :
    Covers (es ++ es') (os ++ os') := by
  intro vs hv
  obtain ⟨n, hn⟩ : ∃ n, n = es.length := ⟨_, rfl⟩
  have h1 : List.Forall₂ (fun (e : Spec.Entry) v => e.content = .ok v) es (vs.take n) := by
    have := List.forall₂_take n hv
    rwa [List.take_left' hn.symm] at this
  have h2 : List.Forall₂ (fun (e : Spec.Entry) v => e.content = .ok v) es' (vs.drop n) := by
    have := List.forall₂_drop n hv
    rwa [List.drop_left' hn.symm] at this
  have h3 : tlvsOf (es ++ es') vs = tlvsOf es (vs.take n) ++ tlvsOf es' (vs.drop n) := by
    conv => lhs; rw [← List.take_append_drop n vs]
    unfold tlvsOf
    rw [List.zip_append h1.length_eq, List.flatMap_append]
  rw [h3, List.map_append, h _ h1, h' _ h2, List.filterMap_append, List.flatMap_append]

omit [Charmap] in
theorem covers_entry {α : Type} (hi lo a : UInt8) (sg : Bool) (msg : Option α) (w : α → Res Bytes) :
    Covers (entry hi lo a sg msg w) [(written msg w).map (blockOf hi lo a sg)] := by
  intro vs hv
  cases msg with
  | none => cases hv; rfl
  | some m =>
    obtain _ | ⟨h, hn⟩ := hv
    cases hn
    simp only at h
    simp only [written, h, Option.map_some]
    cases sg <;> rfl

omit [Charmap] in
theorem covers_certificate (hi lo a : UInt8) (r : Option Bytes) :
    Covers (certificate hi lo a r) [(writtenCert r).map (blockOf hi lo a false)] := by
  intro vs hv
  cases r with
  | none => cases hv; rfl
  | some r =>
    unfold certificate at hv
    dsimp only at hv
    unfold writtenCert certificate
    dsimp only
    split
    · rename_i h
      rw [if_pos h] at hv
      cases hv; rfl
    · rename_i h
      rw [if_neg h] at hv
      obtain _ | ⟨h, hn⟩ := hv
      cases hn
      simp only [Res.ok.injEq] at h
      subst h
      rfl

/-- The places of a driver card file, in writing order, with what is written there. -/
def cardBlocks (c : DriverCard) : List (Option Block) :=
  let t := c.tachograph.getD {}
  let u := c.tachographG2.getD {}
  [ (written c.icc (fun m => appendIcc [] m)).map (blockOf 0x00 0x02 0 false),
    (written c.ic (fun m => appendCardIc [] (some m))).map (blockOf 0x00 0x05 0 false),
    (written t.applicationIdentification (fun m => appendAppId [] (some m.data))).map (blockOf 0x05 0x01 0 true),
    (written t.drivingLicenceInfo (fun m => appendDrivingLicenceInfo [] (some m.data))).map (blockOf 0x05 0x21 0 true),
    (written t.identification (fun m => appendIdentification [] m.data)).map (blockOf 0x05 0x20 0 true),
    (written t.eventsData (fun m => appendEventsData [] m.data)).map (blockOf 0x05 0x02 0 true),
    (written t.faultsData (fun m => appendEventsData [] m.data)).map (blockOf 0x05 0x03 0 true),
    (written t.driverActivityData (fun m => appendDriverActivity [] (some m.data))).map (blockOf 0x05 0x04 0 true),
    (written t.vehiclesUsed (fun m => appendVehiclesUsed [] (some m.data))).map (blockOf 0x05 0x05 0 true),
    (written t.places (fun m => appendPlaces [] (some m.data))).map (blockOf 0x05 0x06 0 true),
    (written t.currentUsage (fun m => appendCurrentUsage [] (some m.data))).map (blockOf 0x05 0x07 0 true),
    (written t.controlActivityData (fun m => appendControlActivity [] (some m.data))).map (blockOf 0x05 0x08 0 true),
    (written t.specificConditions (fun m => appendSpecificConditions [] (some m.data))).map (blockOf 0x05 0x22 0 true),
    (written t.cardDownload (fun m => appendCardDownload [] (some m))).map (blockOf 0x05 0x0E 0 false),
    (written u.applicationIdentification (fun m => appendAppIdG2 [] (some m.data))).map (blockOf 0x05 0x01 2 true),
    (written u.vehiclesUsed (fun m => appendVehiclesUsedG2 [] (some m.data))).map (blockOf 0x05 0x05 2 true),
    (written u.places (fun m => appendPlacesG2 [] (some m.data))).map (blockOf 0x05 0x06 2 true),
    (written u.specificConditions (fun m => appendSpecificConditionsG2 [] (some m.data))).map (blockOf 0x05 0x22 2 true),
    (written u.vehicleUnitsUsed (fun m => appendVehicleUnitsUsed [] (some m.data))).map (blockOf 0x05 0x23 2 true),
    (written u.gnssPlaces (fun m => appendGnssPlaces [] (some m.data))).map (blockOf 0x05 0x24 2 true),
    (written u.applicationIdentificationV2 (fun m => appendAppIdV2 [] (some m.data))).map (blockOf 0x05 0x25 2 true),
    (writtenCert (t.cardCertificate.map RsaCert.raw)).map (blockOf 0xC1 0x00 0 false),
    (writtenCert (t.caCertificate.map RsaCert.raw)).map (blockOf 0xC1 0x08 0 false),
    (writtenCert (u.cardMaCertificate.map EccCert.raw)).map (blockOf 0xC1 0x00 2 false),
    (writtenCert (u.cardSignCertificate.map EccCert.raw)).map (blockOf 0xC1 0x01 2 false),
    (writtenCert (u.caCertificate.map EccCert.raw)).map (blockOf 0xC1 0x08 2 false),
    (writtenCert (u.linkCertificate.map EccCert.raw)).map (blockOf 0xC1 0x09 2 false) ]

omit [Charmap] in
theorem covers_entry_cons {α : Type} {hi lo a : UInt8} {sg : Bool} {msg : Option α} {w : α → Res Bytes} {es : List Spec.Entry}
    {os : List (Option Block)} (h : Covers es os) :
    Covers (entry hi lo a sg msg w ++ es) ((written msg w).map (blockOf hi lo a sg) :: os) :=
  covers_append (covers_entry hi lo a sg msg w) h

omit [Charmap] in
theorem covers_certificate_cons {hi lo a : UInt8} {r : Option Bytes} {es : List Spec.Entry} {os : List (Option Block)} (h : Covers es os) :
    Covers (certificate hi lo a r ++ es) ((writtenCert r).map (blockOf hi lo a false) :: os) :=
  covers_append (covers_certificate hi lo a r) h

theorem cardBlocks_covers (c : DriverCard) : Covers (entries c) (cardBlocks c) := by
  unfold entries gen1Entries gen2Entries gen1Certificates gen2Certificates
  simp only [List.append_assoc]
  iterate 21 refine covers_entry_cons ?_
  iterate 5 refine covers_certificate_cons ?_
  exact fun vs hv => covers_certificate _ _ _ _ vs hv

omit [Charmap] in
/-- File and generation of the places of `cardBlocks`, as the parser will see them. -/
def blockKeys : List (EF × Generation) :=
  [(.icc, .gen1), (.ic, .gen1), (.applicationIdentification, .gen1), (.drivingLicenceInfo, .gen1), (.identification, .gen1),
   (.eventsData, .gen1), (.faultsData, .gen1), (.driverActivityData, .gen1), (.vehiclesUsed, .gen1), (.places, .gen1),
   (.currentUsage, .gen1), (.controlActivityData, .gen1), (.specificConditions, .gen1), (.cardDownloadDriver, .gen1),
   (.applicationIdentification, .gen2), (.vehiclesUsed, .gen2), (.places, .gen2), (.specificConditions, .gen2),
   (.vehicleUnitsUsed, .gen2), (.gnssPlaces, .gen2), (.applicationIdentificationV2, .gen2), (.cardCertificate, .gen1),
   (.caCertificate, .gen1), (.cardCertificate, .gen2), (.cardSignCertificate, .gen2), (.caCertificate, .gen2), (.linkCertificate, .gen2)]

omit [Charmap] in
/-- Every block has its key. -/
def KeyedBy : List (EF × Generation) → List (Option Block) → Prop :=
  List.Forall₂ fun k o => ∀ b, o = some b → (b.data.file, b.data.generation) = k ∧ b.Good

omit [Charmap] in
theorem keyed_block {hi lo a : UInt8} {sg : Bool} {k : EF × Generation} (o : Option Bytes)
    (hf : mapFid (hi.toNat * 256 + lo.toNat) = k.1) (hg : (if a.toNat % 4 < 2 then Generation.gen1 else .gen2) = k.2)
    (h0 : a.toNat % 2 = 0) (h1 : (a + 1).toNat % 2 = 1) :
    ∀ b, o.map (blockOf hi lo a sg) = some b → (b.data.file, b.data.generation) = k ∧ b.Good := by
  intro b hb
  obtain ⟨v, -, rfl⟩ := Option.map_eq_some_iff.1 hb
  refine ⟨Prod.ext hf hg, ?_, ?_⟩
  · exact if_neg (by show ¬ a.toNat % 2 = 1; omega)
  · intro s hs
    cases sg
    · simp [blockOf] at hs
    · simp only [blockOf, if_true, Option.some.injEq] at hs
      subst hs
      exact ⟨if_pos h1, rfl⟩

theorem cardBlocks_keyed (c : DriverCard) : KeyedBy blockKeys (cardBlocks c) := by
  unfold KeyedBy blockKeys cardBlocks
  repeat' apply List.Forall₂.cons
  all_goals first
    | exact List.Forall₂.nil
    | exact keyed_block _ (by decide +kernel) (by decide) (by decide) (by decide)

omit [Charmap] in
/-- The newest block for a key. -/
def pick (pk : EF × Generation → Bool) : List (EF × Generation) → List (Option Block) → Option Block
  | k :: ks, o :: os => if pk k then (pick pk ks os).or o else pick pk ks os
  | _, _ => none

omit [Charmap] in
theorem newest_pick {ks : List (EF × Generation)} {os : List (Option Block)} (h : KeyedBy ks os) (pk : EF × Generation → Bool)
    (here : Block → Bool) (hh : ∀ b, here b = pk (b.data.file, b.data.generation)) :
    newest (os.filterMap id) here = pick pk ks os := by
  induction h with
  | nil => rfl
  | @cons k o ks os h1 _ ih =>
    unfold newest at ih ⊢
    unfold pick
    cases o with
    | none => rw [List.filterMap_cons_none rfl, ih]; split <;> simp
    | some b =>
      have hk := (h1 b rfl).1
      rw [show List.filterMap id (some b :: os) = b :: List.filterMap id os from rfl]
      by_cases hp : pk k = true
      · rw [List.filter_cons_of_pos (by rw [hh, hk, hp]), if_pos hp, ← ih]
        cases h2 : List.filter here (List.filterMap id os) with
        | nil => rfl
        | cons x xs => rw [List.getLast?_cons_cons]; simp [List.getLast?_cons]
      · rw [List.filter_cons_of_neg (by rw [hh, hk]; exact hp), if_neg hp, ih]

/-! ## What reading a written file amounts to -/

/-- Reading a written file that starts with an ICC: the driver card parser is given the blocks. -/
theorem written_card_read (c : DriverCard) (out : Bytes) (h : marshalDriverCard (some c) = .ok out)
    (hs : ∀ e ∈ entries c, ∀ v, e.content = .ok v → v.length ≤ 65530) (hi : c.icc ≠ none) :
    unmarshalFile out = unmarshalDriverCard (((cardBlocks c).filterMap id).flatMap Block.records) >>= fun card =>
      .ok { type := .driverCard, driverCard := some card } := by
  obtain ⟨vs, hv, rfl, hr⟩ := driver_card_reparses c out h hs
  rw [cardBlocks_covers c vs hv] at hr
  obtain ⟨i, hi⟩ := Option.ne_none_iff_exists'.1 hi
  have hstart : (∃ rest, fileBytes (tlvsOf (entries c) vs) = 0x00 :: 0x02 :: rest) ∧ ∃ v, appendIcc [] i = .ok v := by
    have he : ∃ e es, entries c = e :: es ∧ e.fidHi = 0 ∧ e.fidLo = 2 ∧ e.content = appendIcc [] i := by
      unfold entries
      simp only [hi, entry, List.append_assoc]
      exact ⟨_, _, rfl, rfl, rfl, rfl⟩
    obtain ⟨e, es, he, h1, h2, h3⟩ := he
    rw [he] at hv ⊢
    cases hv with
    | @cons _ v _ _ hx hxs =>
      refine ⟨?_, v, h3 ▸ hx⟩
      unfold tlvsOf Entry.tlvs
      simp only [List.zip_cons_cons, List.flatMap_cons, fileBytes, List.cons_append, Tlv.bytes, h1, h2]
      exact ⟨_, rfl⟩
  obtain ⟨⟨rest, hrest⟩, v, hicc⟩ := hstart
  have hkeys := cardBlocks_keyed c
  have hinf : inferFileType (((cardBlocks c).filterMap id).flatMap Block.records) = .driverCard := by
    rw [infer_driver_iff]
    have hdata : ∀ b ∈ (cardBlocks c).filterMap id, b.Good ∧ b.data.file ∈ structureOf .driverCard := by
      intro b hb
      obtain ⟨o, ho, hb⟩ := List.mem_filterMap.1 hb
      obtain ⟨k, hk, hkb⟩ := mem_of_forall₂ hkeys ho
      obtain ⟨h1, h2⟩ := hkb b hb
      refine ⟨h2, ?_⟩
      have : ∀ k ∈ blockKeys, k.1 ∈ structureOf .driverCard := by decide +kernel
      have := this k hk
      rwa [← h1] at this
    constructor
    · have hb : ∃ b bs, (cardBlocks c).filterMap id = b :: bs := by
        unfold cardBlocks
        simp only [hi, written, hicc, Option.map_some]
        exact ⟨_, _, rfl⟩
      obtain ⟨b, bs, hb⟩ := hb
      · rw [hb]
        rw [hb] at hdata
        have := (hdata b (by simp)).1.1
        simp [dataFiles, Block.records, this]
    · intro f hf
      obtain ⟨r, hr, rfl⟩ := List.mem_map.1 hf
      obtain ⟨hr, hc⟩ := List.mem_filter.1 hr
      obtain ⟨b, hb, hr⟩ := List.mem_flatMap.1 hr
      obtain ⟨hg, hm⟩ := hdata b hb
      simp only [Block.records, List.mem_cons, Option.mem_toList] at hr
      rcases hr with rfl | hr
      · exact hm
      · rw [(hg.2 r hr).2]; exact hm
  rw [hrest, unmarshalFile_cons, ← hrest, hr, if_neg (by decide), if_pos ⟨rfl, rfl⟩]
  simp only [Res.bind_ok, hinf, if_true, Res.pure_eq]

/-! ## Parts that fit -/

omit [Charmap] in
/-- If the part is present, it can be written in at most 65530 bytes, and read. -/
def PartOk {α β : Type} (msg : Option α) (w : α → Res Bytes) (p : Bytes → Res β) (Same : α → β → Prop) : Prop :=
  ∀ m, msg = some m → ∃ v x, w m = .ok v ∧ v.length ≤ 65530 ∧ p v = .ok x ∧ Same m x

omit [Charmap] in
/-- If the certificate is present, it has no raw data, or raw data that can be read. -/
def CertOk {β : Type} (raw : β → Bytes) (msg : Option β) (p : Bytes → Res β) : Prop :=
  ∀ m, msg = some m → raw m = [] ∨ ((raw m).length ≤ 65530 ∧ ∃ x, p (raw m) = .ok x ∧ raw x = raw m)

omit [Charmap] in
theorem written_some {α : Type} {msg : Option α} {w : α → Res Bytes} {v : Bytes} (h : written msg w = some v) :
    ∃ m, msg = some m ∧ w m = .ok v := by
  cases msg with
  | none => cases h
  | some m =>
    unfold written at h
    dsimp only at h
    split at h
    · rename_i hw
      simp only [Option.some.injEq] at h
      exact ⟨m, rfl, h ▸ hw⟩
    · cases h

omit [Charmap] in
theorem part_reads {α β : Type} {msg : Option α} {w : α → Res Bytes} {p : Bytes → Res β} {Same : α → β → Prop} (h : PartOk msg w p Same)
    {hi lo a : UInt8} {sg : Bool} {b : Block} (hb : (written msg w).map (blockOf hi lo a sg) = some b) :
    b.data.file = mapFid (hi.toNat * 256 + lo.toNat) ∧ b.data.generation = (if a.toNat % 4 < 2 then .gen1 else .gen2) ∧
      (sg = false → b.sig = none) ∧ b.Reads p := by
  obtain ⟨v, hv, rfl⟩ := Option.map_eq_some_iff.1 hb
  obtain ⟨m, hm, hw⟩ := written_some hv
  obtain ⟨v', x, h1, -, h2, -⟩ := h m hm
  rw [hw] at h1
  cases h1
  exact ⟨rfl, rfl, fun h => by simp [blockOf, h], x, h2⟩

omit [Charmap] in
theorem cert_reads {β : Type} {raw : β → Bytes} {msg : Option β} {p : Bytes → Res β} (h : CertOk raw msg p)
    {hi lo a : UInt8} {b : Block} (hb : (writtenCert (msg.map raw)).map (blockOf hi lo a false) = some b) :
    b.data.file = mapFid (hi.toNat * 256 + lo.toNat) ∧ b.data.generation = (if a.toNat % 4 < 2 then .gen1 else .gen2) ∧
      b.sig = none ∧ b.Reads p := by
  obtain ⟨v, hv, rfl⟩ := Option.map_eq_some_iff.1 hb
  cases msg with
  | none => cases hv
  | some m =>
    simp only [writtenCert, Option.map_some] at hv
    split at hv
    · cases hv
    · rename_i hne
      simp only [Option.some.injEq] at hv
      subst hv
      rcases h m rfl with h | ⟨-, x, h1, -⟩
      · exact absurd h hne
      · exact ⟨rfl, rfl, rfl, x, h1⟩

omit [Charmap] in
theorem part_kept {α : Type} {msg : Option α} {w : α → Res Bytes} {p : Bytes → Res α} {Same : α → α → Prop} (h : PartOk msg w p Same)
    {hi lo a : UInt8} {n : Option Block} (hn : n = (written msg w).map (blockOf hi lo a false)) : Kept Same msg (n.bind (Block.read p)) := by
  subst hn
  cases msg with
  | none => rfl
  | some m =>
    obtain ⟨v, x, h1, -, h2, h3⟩ := h m rfl
    refine ⟨x, ?_, h3⟩
    simp [written, h1, Block.read, blockOf, Tlv.record, h2]

omit [Charmap] in
theorem part_kept_signed {α : Type} {msg : Option (Signed α)} {w : Signed α → Res Bytes} {p : Bytes → Res α} {Same : α → α → Prop}
    (h : PartOk msg w p (fun m => Same m.data))
    {hi lo a : UInt8} {n : Option Block} (hn : n = (written msg w).map (blockOf hi lo a true)) :
    KeptSigned Same msg (n.bind (Block.readSigned p)) := by
  subst hn
  cases msg with
  | none => rfl
  | some m =>
    obtain ⟨v, x, h1, -, h2, h3⟩ := h m rfl
    refine ⟨x, ?_, h3⟩
    simp [written, h1, Block.readSigned, Block.read, blockOf, Tlv.record, h2]

omit [Charmap] in
theorem cert_kept {β : Type} {raw : β → Bytes} {msg : Option β} {p : Bytes → Res β} (h : CertOk raw msg p)
    {hi lo a : UInt8} {n : Option Block} (hn : n = (writtenCert (msg.map raw)).map (blockOf hi lo a false)) :
    KeptCertificate raw p msg (n.bind (Block.read p)) := by
  subst hn
  cases msg with
  | none => rfl
  | some m =>
    unfold KeptCertificate
    dsimp only
    by_cases hr : raw m = []
    · rw [if_pos hr]; simp [writtenCert, hr]
    · rw [if_neg hr]
      rcases h m rfl with h | ⟨-, x, h1, h2⟩
      · exact absurd h hr
      · refine ⟨x, ?_, h1, h2⟩
        simp [writtenCert, hr, Block.read, blockOf, Tlv.record, h1]

omit [Charmap] in
/-- An entry that can be written in at most 65530 bytes. -/
def EntryOk (e : Spec.Entry) : Prop := ∃ v, e.content = .ok v ∧ v.length ≤ 65530

omit [Charmap] in
theorem part_entry {α β : Type} {msg : Option α} {w : α → Res Bytes} {p : Bytes → Res β} {Same : α → β → Prop} (h : PartOk msg w p Same)
    {hi lo a : UInt8} {sg : Bool} : ∀ e ∈ entry hi lo a sg msg w, EntryOk e := by
  intro e he
  cases msg with
  | none => simp [entry] at he
  | some m =>
    obtain ⟨v, x, h1, h2, -, -⟩ := h m rfl
    simp only [entry, List.mem_singleton] at he
    subst he
    exact ⟨v, h1, h2⟩

omit [Charmap] in
theorem cert_entry {β : Type} {raw : β → Bytes} {msg : Option β} {p : Bytes → Res β} (h : CertOk raw msg p)
    {hi lo a : UInt8} : ∀ e ∈ certificate hi lo a (msg.map raw), EntryOk e := by
  intro e he
  cases msg with
  | none => simp [certificate] at he
  | some m =>
    simp only [certificate, Option.map_some] at he
    split at he
    · simp at he
    · rename_i hne
      simp only [List.mem_singleton] at he
      subst he
      rcases h m rfl with h | ⟨h1, -⟩
      · exact absurd h hne
      · exact ⟨_, rfl, h1⟩

/-- Every part of the message fits; `I` relates EF_Identification to what is read of it. -/
structure PartsOk (c : DriverCard) (I : Identification → Identification → Prop := SameIdentification) : Prop where
  icc : PartOk c.icc (fun m => appendIcc [] m) unmarshalIcc SameIcc
  ic : PartOk c.ic (fun m => appendCardIc [] (some m)) unmarshalIc (fun m m' => m' = m)
  appId : PartOk (c.tachograph.getD {}).applicationIdentification (fun m => appendAppId [] (some m.data)) unmarshalAppId (fun m => SameAppId m.data)
  licence : PartOk (c.tachograph.getD {}).drivingLicenceInfo (fun m => appendDrivingLicenceInfo [] (some m.data)) unmarshalDrivingLicenceInfo (fun m => SameLicence m.data)
  ident : PartOk (c.tachograph.getD {}).identification (fun m => appendIdentification [] m.data) unmarshalIdentification (fun m => I m.data)
  events : PartOk (c.tachograph.getD {}).eventsData (fun m => appendEventsData [] m.data) unmarshalEventsData (fun m => (List.Forall₂ SameEvent) m.data)
  faults : PartOk (c.tachograph.getD {}).faultsData (fun m => appendEventsData [] m.data) unmarshalEventsData (fun m => (List.Forall₂ SameEvent) m.data)
  activity : PartOk (c.tachograph.getD {}).driverActivityData (fun m => appendDriverActivity [] (some m.data)) unmarshalDriverActivityData (fun m => SameActivity m.data)
  vehicles : PartOk (c.tachograph.getD {}).vehiclesUsed (fun m => appendVehiclesUsed [] (some m.data)) unmarshalVehiclesUsed (fun m => (fun m m' => m'.newest = m.newest ∧ List.Forall₂ SameCardVehicle m.records m'.records) m.data)
  places : PartOk (c.tachograph.getD {}).places (fun m => appendPlaces [] (some m.data)) unmarshalPlaces (fun m => (fun m m' => m'.newest = m.newest ∧ List.Forall₂ SamePlace m.records m'.records) m.data)
  usage : PartOk (c.tachograph.getD {}).currentUsage (fun m => appendCurrentUsage [] (some m.data)) unmarshalCurrentUsage (fun m => SameUsage m.data)
  control : PartOk (c.tachograph.getD {}).controlActivityData (fun m => appendControlActivity [] (some m.data)) unmarshalControlActivity (fun m => SameControlActivity m.data)
  conditions : PartOk (c.tachograph.getD {}).specificConditions (fun m => appendSpecificConditions [] (some m.data)) unmarshalSpecificConditions (fun m => (fun m m' => m'.records = m.records) m.data)
  download : PartOk (c.tachograph.getD {}).cardDownload (fun m => appendCardDownload [] (some m)) unmarshalCardDownload (fun m m' => m' = m)
  appIdG2 : PartOk (c.tachographG2.getD {}).applicationIdentification (fun m => appendAppIdG2 [] (some m.data)) unmarshalAppIdG2 (fun m => SameAppIdG2 m.data)
  vehiclesG2 : PartOk (c.tachographG2.getD {}).vehiclesUsed (fun m => appendVehiclesUsedG2 [] (some m.data)) unmarshalVehiclesUsedG2 (fun m => (fun m m' => m'.newest = m.newest ∧
      List.Forall₂ (fun r r' => SameCardVehicle r.base r'.base ∧ r'.vin = r.vin) m.records m'.records) m.data)
  placesG2 : PartOk (c.tachographG2.getD {}).places (fun m => appendPlacesG2 [] (some m.data)) unmarshalPlacesG2 (fun m => (fun m m' => m'.newest = m.newest ∧ List.Forall₂ SamePlaceG2 m.records m'.records) m.data)
  conditionsG2 : PartOk (c.tachographG2.getD {}).specificConditions (fun m => appendSpecificConditionsG2 [] (some m.data)) unmarshalSpecificConditionsG2 (fun m => (fun m m' => m'.newest = m.newest ∧ m'.records = m.records) m.data)
  units : PartOk (c.tachographG2.getD {}).vehicleUnitsUsed (fun m => appendVehicleUnitsUsed [] (some m.data)) unmarshalVehicleUnitsUsed (fun m => (fun m m' => m' = m) m.data)
  gnss : PartOk (c.tachographG2.getD {}).gnssPlaces (fun m => appendGnssPlaces [] (some m.data)) unmarshalGnssPlaces (fun m => (fun m m' => m' = m) m.data)
  appIdV2 : PartOk (c.tachographG2.getD {}).applicationIdentificationV2 (fun m => appendAppIdV2 [] (some m.data)) unmarshalAppIdV2 (fun m => (fun m m' => m' = m) m.data)
  cardCert : CertOk RsaCert.raw (c.tachograph.getD {}).cardCertificate unmarshalRsa
  caCert : CertOk RsaCert.raw (c.tachograph.getD {}).caCertificate unmarshalRsa
  maCert : Each (fun m => m.raw = []) (c.tachographG2.getD {}).cardMaCertificate
  signCert : CertOk EccCert.raw (c.tachographG2.getD {}).cardSignCertificate unmarshalEcc
  caCertG2 : CertOk EccCert.raw (c.tachographG2.getD {}).caCertificate unmarshalEcc
  linkCert : CertOk EccCert.raw (c.tachographG2.getD {}).linkCertificate unmarshalEcc

/-- All entries of such a message can be written. -/
theorem entries_ok {c : DriverCard} {I : Identification → Identification → Prop} (h : PartsOk c I) : ∀ e ∈ entries c, EntryOk e := by
  unfold entries gen1Entries gen2Entries gen1Certificates gen2Certificates
  simp only [List.append_assoc, List.forall_mem_append]
  exact ⟨part_entry h.icc,
    part_entry h.ic,
    part_entry h.appId,
    part_entry h.licence,
    part_entry h.ident,
    part_entry h.events,
    part_entry h.faults,
    part_entry h.activity,
    part_entry h.vehicles,
    part_entry h.places,
    part_entry h.usage,
    part_entry h.control,
    part_entry h.conditions,
    part_entry h.download,
    part_entry h.appIdG2,
    part_entry h.vehiclesG2,
    part_entry h.placesG2,
    part_entry h.conditionsG2,
    part_entry h.units,
    part_entry h.gnss,
    part_entry h.appIdV2,
    cert_entry h.cardCert,
    cert_entry h.caCert,
    cert_entry (p := unmarshalEcc) (fun m hm => .inl (h.maCert m hm)),
    cert_entry h.signCert,
    cert_entry h.caCertG2,
    cert_entry h.linkCert⟩

/-- All blocks of such a message can be read. -/
theorem blocks_readable {c : DriverCard} {I : Identification → Identification → Prop} (h : PartsOk c I) : ∀ b ∈ (cardBlocks c).filterMap id, b.Readable := by
  intro b hb
  obtain ⟨o, ho, hb⟩ := List.mem_filterMap.1 hb
  change o = some b at hb
  subst hb
  simp only [cardBlocks, List.mem_cons, List.not_mem_nil, or_false] at ho
  rcases ho with ho | ho | ho | ho | ho | ho | ho | ho | ho | ho | ho | ho | ho | ho | ho | ho | ho | ho | ho | ho | ho | ho | ho | ho | ho | ho | ho
  · obtain ⟨h1, h2, h3, h4⟩ := part_reads h.icc ho.symm
    rw [show mapFid _ = EF.icc by decide +kernel] at h1
    unfold Block.Readable
    rw [h1]
    exact ⟨h3 rfl, h4⟩
  · obtain ⟨h1, h2, h3, h4⟩ := part_reads h.ic ho.symm
    rw [show mapFid _ = EF.ic by decide +kernel] at h1
    unfold Block.Readable
    rw [h1]
    exact ⟨h3 rfl, h4⟩
  · obtain ⟨h1, h2, h3, h4⟩ := part_reads h.appId ho.symm
    rw [show mapFid _ = EF.applicationIdentification by decide +kernel] at h1
    unfold Block.Readable
    rw [h1]
    exact .inl ⟨h2, h4⟩
  · obtain ⟨h1, h2, h3, h4⟩ := part_reads h.licence ho.symm
    rw [show mapFid _ = EF.drivingLicenceInfo by decide +kernel] at h1
    unfold Block.Readable
    rw [h1]
    exact .inl ⟨h2, h4⟩
  · obtain ⟨h1, h2, h3, h4⟩ := part_reads h.ident ho.symm
    rw [show mapFid _ = EF.identification by decide +kernel] at h1
    unfold Block.Readable
    rw [h1]
    exact .inl ⟨h2, h4⟩
  · obtain ⟨h1, h2, h3, h4⟩ := part_reads h.events ho.symm
    rw [show mapFid _ = EF.eventsData by decide +kernel] at h1
    unfold Block.Readable
    rw [h1]
    exact .inl ⟨h2, h4⟩
  · obtain ⟨h1, h2, h3, h4⟩ := part_reads h.faults ho.symm
    rw [show mapFid _ = EF.faultsData by decide +kernel] at h1
    unfold Block.Readable
    rw [h1]
    exact .inl ⟨h2, h4⟩
  · obtain ⟨h1, h2, h3, h4⟩ := part_reads h.activity ho.symm
    rw [show mapFid _ = EF.driverActivityData by decide +kernel] at h1
    unfold Block.Readable
    rw [h1]
    exact .inl ⟨h2, h4⟩
  · obtain ⟨h1, h2, h3, h4⟩ := part_reads h.vehicles ho.symm
    rw [show mapFid _ = EF.vehiclesUsed by decide +kernel] at h1
    unfold Block.Readable
    rw [h1]
    exact .inl ⟨h2, h4⟩
  · obtain ⟨h1, h2, h3, h4⟩ := part_reads h.places ho.symm
    rw [show mapFid _ = EF.places by decide +kernel] at h1
    unfold Block.Readable
    rw [h1]
    exact .inl ⟨h2, h4⟩
  · obtain ⟨h1, h2, h3, h4⟩ := part_reads h.usage ho.symm
    rw [show mapFid _ = EF.currentUsage by decide +kernel] at h1
    unfold Block.Readable
    rw [h1]
    exact .inl ⟨h2, h4⟩
  · obtain ⟨h1, h2, h3, h4⟩ := part_reads h.control ho.symm
    rw [show mapFid _ = EF.controlActivityData by decide +kernel] at h1
    unfold Block.Readable
    rw [h1]
    exact .inl ⟨h2, h4⟩
  · obtain ⟨h1, h2, h3, h4⟩ := part_reads h.conditions ho.symm
    rw [show mapFid _ = EF.specificConditions by decide +kernel] at h1
    unfold Block.Readable
    rw [h1]
    exact .inl ⟨h2, h4⟩
  · obtain ⟨h1, h2, h3, h4⟩ := part_reads h.download ho.symm
    rw [show mapFid _ = EF.cardDownloadDriver by decide +kernel] at h1
    unfold Block.Readable
    rw [h1]
    exact ⟨h3 rfl, .inl ⟨h2, h4⟩⟩
  · obtain ⟨h1, h2, h3, h4⟩ := part_reads h.appIdG2 ho.symm
    rw [show mapFid _ = EF.applicationIdentification by decide +kernel] at h1
    unfold Block.Readable
    rw [h1]
    exact .inr ⟨h2, h4⟩
  · obtain ⟨h1, h2, h3, h4⟩ := part_reads h.vehiclesG2 ho.symm
    rw [show mapFid _ = EF.vehiclesUsed by decide +kernel] at h1
    unfold Block.Readable
    rw [h1]
    exact .inr ⟨h2, h4⟩
  · obtain ⟨h1, h2, h3, h4⟩ := part_reads h.placesG2 ho.symm
    rw [show mapFid _ = EF.places by decide +kernel] at h1
    unfold Block.Readable
    rw [h1]
    exact .inr ⟨h2, h4⟩
  · obtain ⟨h1, h2, h3, h4⟩ := part_reads h.conditionsG2 ho.symm
    rw [show mapFid _ = EF.specificConditions by decide +kernel] at h1
    unfold Block.Readable
    rw [h1]
    exact .inr ⟨h2, h4⟩
  · obtain ⟨h1, h2, h3, h4⟩ := part_reads h.units ho.symm
    rw [show mapFid _ = EF.vehicleUnitsUsed by decide +kernel] at h1
    unfold Block.Readable
    rw [h1]
    exact h4
  · obtain ⟨h1, h2, h3, h4⟩ := part_reads h.gnss ho.symm
    rw [show mapFid _ = EF.gnssPlaces by decide +kernel] at h1
    unfold Block.Readable
    rw [h1]
    exact h4
  · obtain ⟨h1, h2, h3, h4⟩ := part_reads h.appIdV2 ho.symm
    rw [show mapFid _ = EF.applicationIdentificationV2 by decide +kernel] at h1
    unfold Block.Readable
    rw [h1]
    exact h4
  · obtain ⟨h1, h2, h3, h4⟩ := cert_reads h.cardCert ho.symm
    rw [show mapFid _ = EF.cardCertificate by decide +kernel] at h1
    unfold Block.Readable
    rw [h1]
    exact ⟨h3, h2, h4⟩
  · obtain ⟨h1, h2, h3, h4⟩ := cert_reads h.caCert ho.symm
    rw [show mapFid _ = EF.caCertificate by decide +kernel] at h1
    unfold Block.Readable
    rw [h1]
    exact ⟨h3, .inl ⟨h2, h4⟩⟩
  · exfalso
    cases hm : (c.tachographG2.getD {}).cardMaCertificate with
    | none => rw [hm] at ho; cases ho
    | some m =>
      rw [hm] at ho
      simp [writtenCert, h.maCert m hm] at ho
  · obtain ⟨h1, h2, h3, h4⟩ := cert_reads h.signCert ho.symm
    rw [show mapFid _ = EF.cardSignCertificate by decide +kernel] at h1
    unfold Block.Readable
    rw [h1]
    exact ⟨h3, h2, h4⟩
  · obtain ⟨h1, h2, h3, h4⟩ := cert_reads h.caCertG2 ho.symm
    rw [show mapFid _ = EF.caCertificate by decide +kernel] at h1
    unfold Block.Readable
    rw [h1]
    exact ⟨h3, .inr ⟨h2, h4⟩⟩
  · obtain ⟨h1, h2, h3, h4⟩ := cert_reads h.linkCert ho.symm
    rw [show mapFid _ = EF.linkCertificate by decide +kernel] at h1
    unfold Block.Readable
    rw [h1]
    exact ⟨h3, h2, h4⟩

omit [Charmap] in
theorem pick_file {ks : List (EF × Generation)} {os : List (Option Block)} (h : KeyedBy ks os) (f : EF) :
    newest (os.filterMap id) (file f) = pick (fun k => k.1 == f) ks os := newest_pick h _ _ fun _ => rfl

omit [Charmap] in
theorem pick_fileGen {ks : List (EF × Generation)} {os : List (Option Block)} (h : KeyedBy ks os) (f : EF) (g : Generation) :
    newest (os.filterMap id) (fileGen f g) = pick (fun k => k.1 == f && k.2 == g) ks os := newest_pick h _ _ fun _ => rfl

/-- The card read from these blocks. -/
theorem blocks_same {c : DriverCard} (h : PartsOk c) (hi : c.icc ≠ none) : SameCard c (cardOf ((cardBlocks c).filterMap id)) := by
  have hk := cardBlocks_keyed c
  refine ⟨?_, ?_, ?_, ?_⟩
  · obtain ⟨i, hi⟩ := Option.ne_none_iff_exists'.1 hi
    have := part_kept h.icc (pick_file hk .icc)
    rw [hi] at this
    obtain ⟨m', h1, h2⟩ := this
    exact ⟨i, m', hi, h1, h2⟩
  · exact part_kept h.ic (pick_file hk .ic)
  · rw [gen1_getD]
    exact {
      applicationIdentification := part_kept_signed h.appId (pick_fileGen hk .applicationIdentification .gen1)
      drivingLicenceInfo := part_kept_signed h.licence (pick_fileGen hk .drivingLicenceInfo .gen1)
      identification := part_kept_signed h.ident (pick_fileGen hk .identification .gen1)
      eventsData := part_kept_signed h.events (pick_fileGen hk .eventsData .gen1)
      faultsData := part_kept_signed h.faults (pick_fileGen hk .faultsData .gen1)
      driverActivityData := part_kept_signed h.activity (pick_fileGen hk .driverActivityData .gen1)
      vehiclesUsed := part_kept_signed h.vehicles (pick_fileGen hk .vehiclesUsed .gen1)
      places := part_kept_signed h.places (pick_fileGen hk .places .gen1)
      currentUsage := part_kept_signed h.usage (pick_fileGen hk .currentUsage .gen1)
      controlActivityData := part_kept_signed h.control (pick_fileGen hk .controlActivityData .gen1)
      specificConditions := part_kept_signed h.conditions (pick_fileGen hk .specificConditions .gen1)
      cardDownload := part_kept h.download (pick_fileGen hk .cardDownloadDriver .gen1)
      cardCertificate := cert_kept h.cardCert (pick_fileGen hk .cardCertificate .gen1)
      caCertificate := cert_kept h.caCert (pick_fileGen hk .caCertificate .gen1)
    }
  · rw [gen2_getD]
    exact {
      applicationIdentification := part_kept_signed h.appIdG2 (pick_fileGen hk .applicationIdentification .gen2)
      vehiclesUsed := part_kept_signed h.vehiclesG2 (pick_fileGen hk .vehiclesUsed .gen2)
      places := part_kept_signed h.placesG2 (pick_fileGen hk .places .gen2)
      specificConditions := part_kept_signed h.conditionsG2 (pick_fileGen hk .specificConditions .gen2)
      vehicleUnitsUsed := part_kept_signed h.units (pick_file hk .vehicleUnitsUsed)
      gnssPlaces := part_kept_signed h.gnss (pick_file hk .gnssPlaces)
      applicationIdentificationV2 := part_kept_signed h.appIdV2 (pick_file hk .applicationIdentificationV2)
      cardSignCertificate := cert_kept h.signCert (pick_fileGen hk .cardSignCertificate .gen2)
      caCertificate := cert_kept h.caCertG2 (pick_fileGen hk .caCertificate .gen2)
      linkCertificate := cert_kept h.linkCert (pick_fileGen hk .linkCertificate .gen2)
      cardMaCertificate := by show Option.bind _ _ = none; rw [pick_fileGen hk]; rfl
      identification := by show Option.bind _ _ = none; rw [pick_fileGen hk]; rfl
      drivingLicenceInfo := by show Option.bind _ _ = none; rw [pick_fileGen hk]; rfl
      eventsData := by show Option.bind _ _ = none; rw [pick_fileGen hk]; rfl
      faultsData := by show Option.bind _ _ = none; rw [pick_fileGen hk]; rfl
      driverActivityData := by show Option.bind _ _ = none; rw [pick_fileGen hk]; rfl
      currentUsage := by show Option.bind _ _ = none; rw [pick_fileGen hk]; rfl
      controlActivityData := by show Option.bind _ _ = none; rw [pick_fileGen hk]; rfl
      cardDownload := by show Option.bind _ _ = none; rw [pick_fileGen hk]; rfl
    }

end Tacho
