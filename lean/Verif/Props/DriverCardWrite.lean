import Verif.Spec.CardWriting
import Verif.Props.EFAppend
import Verif.Props.DriverCard
/-!
# Writing driver cards (C30, C31)
-/

namespace Tacho
open Spec

variable [Charmap]

/-! ## One entry -/

omit [Charmap] in
theorem appendTlvValue_eq {f : Bytes → Res Bytes} (hf : Uniform f) (dst : Bytes) (file : EF) (a : UInt8) :
    appendTlvValue dst file a f = f [] >>= fun e => .ok (dst ++ (tagBytes file a ++ beBytes 2 (e.length % 65536) ++ e)) := by
  unfold appendTlvValue
  dsimp only
  rw [hf]
  cases f [] with
  | err m => rfl
  | panic => rfl
  | ok e =>
    simp only [Res.bind_ok]
    have hb : (beBytes 2 0).length = 2 := rfl
    rw [← List.append_assoc, ← List.append_assoc]
    generalize dst ++ tagBytes file a = hd
    rw [if_neg (by simp), List.take_append_of_le_length (by simp), List.take_append_of_le_length (Nat.le_refl _), List.take_length,
      show hd.length + 2 = (hd ++ beBytes 2 0).length by simp, List.drop_left]
    simp only [Res.bind_ok, Res.pure_eq]
    congr 4
    simp only [List.length_append]
    omega

omit [Charmap] in
/-- The bytes of a list of entries with these contents. -/
def Spec.bytesOf (ss : List Entry) (vs : List Bytes) : Bytes := (ss.zip vs).flatMap fun p => p.1.bytes p.2

omit [Charmap] in
/-- A writer that writes these entries. -/
def Writes (f : Bytes → Res Bytes) (ss : List Entry) : Prop :=
  ∀ dst, f dst = mapRes Entry.content ss >>= fun vs => .ok (dst ++ bytesOf ss vs)

omit [Charmap] in
theorem mapRes_append {α β : Type} (f : α → Res β) (xs ys : List α) :
    mapRes f (xs ++ ys) = mapRes f xs >>= fun a => mapRes f ys >>= fun b => .ok (a ++ b) := by
  induction xs with
  | nil => cases h : mapRes f ys <;> simp [mapRes, h]
  | cons x xs ih =>
    simp only [List.cons_append, mapRes, ih]
    cases f x <;> simp
    cases mapRes f xs <;> simp
    cases mapRes f ys <;> simp

omit [Charmap] in
theorem mapRes_length {α β : Type} {f : α → Res β} {xs : List α} {ys : List β} (h : mapRes f xs = .ok ys) : ys.length = xs.length := by
  rw [mapRes_ok_iff] at h
  exact h.length_eq.symm

omit [Charmap] in
theorem writes_seq {f g : Bytes → Res Bytes} {ss ts : List Entry} (hf : Writes f ss) (hg : Writes g ts) :
    Writes (fun dst => f dst >>= g) (ss ++ ts) := by
  intro dst
  dsimp only
  rw [hf, mapRes_append]
  cases h : mapRes Entry.content ss with
  | err m => rfl
  | panic => rfl
  | ok vs =>
    simp only [Res.bind_ok]
    rw [hg]
    cases h2 : mapRes Entry.content ts with
    | err m => rfl
    | panic => rfl
    | ok ws =>
      simp only [Res.bind_ok, bytesOf]
      rw [List.zip_append (by rw [mapRes_length h]), List.flatMap_append, List.append_assoc]

omit [Charmap] in
theorem writes_nil : Writes (fun dst => .ok dst) [] := fun dst => by simp [mapRes, bytesOf]

omit [Charmap] in
theorem writes_one {s : Entry} {f : Bytes → Res Bytes} (h : ∀ dst, f dst = s.content >>= fun v => .ok (dst ++ s.bytes v)) :
    Writes f [s] := by
  intro dst
  rw [h]
  simp only [mapRes]
  cases s.content <;> simp [bytesOf]

omit [Charmap] in
theorem beBytes_lit : beBytes 2 128 = [0, 128] := by decide

omit [Charmap] in
theorem zeros_lit : zeros 128 = List.replicate 128 0 := rfl

omit [Charmap] in
/-- A signed Gen1 file. -/
theorem writes_tlv {α : Type} {file : EF} {hi lo : UInt8} (h0 : tagBytes file 0 = [hi, lo, 0]) (h1 : tagBytes file 1 = [hi, lo, 1])
    {f : Bytes → α → Res Bytes} (hf : ∀ m, Uniform (f · m)) (msg : Option α) :
    Writes (fun dst => appendTlv dst file msg f) (entry hi lo 0 true msg (f [])) := by
  cases msg with
  | none => exact writes_nil
  | some m =>
    refine writes_one fun dst => ?_
    simp only [appendTlv, appendTlvValue_eq (hf m), Res.bind_assoc, Res.bind_ok, Res.pure_eq, h0, h1, beBytes_lit, zeros_lit,
      Entry.bytes, List.append_assoc]
    rfl

omit [Charmap] in
/-- A signed Gen2 file. -/
theorem writes_tlvG2 {α : Type} {file : EF} {hi lo : UInt8} (h0 : tagBytes file 2 = [hi, lo, 2]) (h1 : tagBytes file 3 = [hi, lo, 3])
    {f : Bytes → α → Res Bytes} (hf : ∀ m, Uniform (f · m)) (msg : Option α) :
    Writes (fun dst => appendTlvG2 dst file msg f) (entry hi lo 2 true msg (f [])) := by
  cases msg with
  | none => exact writes_nil
  | some m =>
    refine writes_one fun dst => ?_
    simp only [appendTlvG2, appendTlvValue_eq (hf m), Res.bind_assoc, Res.bind_ok, Res.pure_eq, h0, h1, beBytes_lit, zeros_lit,
      Entry.bytes, List.append_assoc]
    rfl

omit [Charmap] in
/-- A file without a signature. -/
theorem writes_unsigned {α : Type} {file : EF} {hi lo : UInt8} (h0 : tagBytes file 0 = [hi, lo, 0])
    {f : Bytes → α → Res Bytes} (hf : ∀ m, Uniform (f · m)) (msg : Option α) :
    Writes (fun dst => appendTlvUnsigned dst file msg f) (entry hi lo 0 false msg (f [])) := by
  cases msg with
  | none => exact writes_nil
  | some m =>
    refine writes_one fun dst => ?_
    simp only [appendTlvUnsigned, appendTlvValue_eq (hf m), h0, Entry.bytes, List.append_assoc]
    simp

omit [Charmap] in
theorem writes_cert {file : EF} {hi lo a : UInt8} (h0 : tagBytes file a = [hi, lo, a]) (raw : Option Bytes) :
    Writes (fun dst => .ok (appendCertificateEF dst file a raw)) (certificate hi lo a raw) := by
  cases raw with
  | none => exact writes_nil
  | some r =>
    simp only [appendCertificateEF, certificate]
    by_cases hr : r = []
    · subst hr; simpa using writes_nil
    · rw [if_neg hr]
      refine writes_one fun dst => ?_
      rw [if_neg (by simpa using hr)]
      simp [h0, Entry.bytes]

/-! ## The whole card -/

theorem appendGen1_writes (c : DriverCard) : Writes (fun dst => appendGen1 dst c)
    (entry 0x00 0x02 0 false c.icc (fun m => appendIcc [] m) ++ (entry 0x00 0x05 0 false c.ic (fun m => appendCardIc [] (some m)) ++
      gen1Entries (c.tachograph.getD {}))) := by
  unfold appendGen1 gen1Entries
  simp only [List.append_assoc]
  refine writes_seq (writes_unsigned rfl (fun m => (appendIcc_appends m).uniform) _) ?_
  refine writes_seq (writes_unsigned rfl (fun m => (appendCardIc_appends (some m)).uniform) _) ?_
  refine writes_seq (writes_tlv rfl rfl (fun (m : Signed _) => (appendAppId_appends (some m.data)).uniform) _) ?_
  refine writes_seq (writes_tlv rfl rfl (fun (m : Signed _) => (appendDrivingLicence_appends (some m.data)).uniform) _) ?_
  refine writes_seq (writes_tlv rfl rfl (fun (m : Signed _) => (appendIdentification_appends m.data).uniform) _) ?_
  refine writes_seq (writes_tlv rfl rfl (fun (m : Signed _) => (appendEventsData_appends m.data).uniform) _) ?_
  refine writes_seq (writes_tlv rfl rfl (fun (m : Signed _) => (appendEventsData_appends m.data).uniform) _) ?_
  refine writes_seq (writes_tlv rfl rfl (fun (m : Signed _) => (appendDriverActivity_appends (some m.data)).uniform) _) ?_
  refine writes_seq (writes_tlv rfl rfl (fun (m : Signed _) => (appendVehiclesUsed_appends m.data).uniform) _) ?_
  refine writes_seq (writes_tlv rfl rfl (fun (m : Signed _) => (appendPlaces_appends m.data).uniform) _) ?_
  refine writes_seq (writes_tlv rfl rfl (fun (m : Signed _) => (appendCurrentUsage_appends (some m.data)).uniform) _) ?_
  refine writes_seq (writes_tlv rfl rfl (fun (m : Signed _) => (appendControlActivity_appends (some m.data)).uniform) _) ?_
  refine writes_seq (writes_tlv rfl rfl (fun (m : Signed _) => (appendSpecificConditions_appends m.data).uniform) _) ?_
  exact writes_unsigned rfl (fun m => (appendCardDownload_appends (some m)).uniform) _

theorem appendGen2_writes (t : TachographG2) : Writes (fun dst => appendGen2 dst t) (gen2Entries t) := by
  unfold appendGen2 gen2Entries
  simp only [List.append_assoc]
  refine writes_seq (writes_tlvG2 rfl rfl (fun (m : Signed _) => (appendAppIdG2_appends (some m.data)).uniform) _) ?_
  refine writes_seq (writes_tlvG2 rfl rfl (fun (m : Signed _) => (appendVehiclesUsedG2_appends m.data).uniform) _) ?_
  refine writes_seq (writes_tlvG2 rfl rfl (fun (m : Signed _) => (appendPlacesG2_appends m.data).uniform) _) ?_
  refine writes_seq (writes_tlvG2 rfl rfl (fun (m : Signed _) => appendSpecificConditionsG2_uniform m.data) _) ?_
  refine writes_seq (writes_tlvG2 rfl rfl (fun (m : Signed _) => (appendVehicleUnits_appends m.data).uniform) _) ?_
  refine writes_seq (writes_tlvG2 rfl rfl (fun (m : Signed _) => (appendGnssPlaces_appends m.data).uniform) _) ?_
  exact writes_tlvG2 rfl rfl (fun (m : Signed _) => (appendAppIdV2_appends (some m.data)).uniform) _

omit [Charmap] in
theorem appendCertificates_writes (c : DriverCard) : Writes (fun dst => .ok (appendCertificates dst c))
    (gen1Certificates (c.tachograph.getD {}) ++ gen2Certificates (c.tachographG2.getD {})) := by
  have w1 : Writes (fun dst => .ok (match c.tachograph with
      | none => dst
      | some t => appendCertificateEF (appendCertificateEF dst .cardCertificate 0x00 (t.cardCertificate.map RsaCert.raw))
          .caCertificate 0x00 (t.caCertificate.map RsaCert.raw))) (gen1Certificates (c.tachograph.getD {})) := by
    cases c.tachograph with
    | none => exact writes_nil
    | some t => exact writes_seq (writes_cert rfl _) (writes_cert rfl _)
  have w2 : Writes (fun dst => .ok (match c.tachographG2 with
      | none => dst
      | some t => appendCertificateEF (appendCertificateEF (appendCertificateEF (appendCertificateEF dst
          .cardMaCertificate 0x02 (t.cardMaCertificate.map EccCert.raw)) .cardSignCertificate 0x02 (t.cardSignCertificate.map EccCert.raw))
          .caCertificate 0x02 (t.caCertificate.map EccCert.raw)) .linkCertificate 0x02 (t.linkCertificate.map EccCert.raw)))
      (gen2Certificates (c.tachographG2.getD {})) := by
    cases c.tachographG2 with
    | none => exact writes_nil
    | some t =>
      unfold gen2Certificates
      simp only [List.append_assoc]
      exact writes_seq (writes_cert rfl _) (writes_seq (writes_cert rfl _) (writes_seq (writes_cert rfl _) (writes_cert rfl _)))
  exact writes_seq w1 w2

/-- C30: the whole writer, for every message: the contents of the entries are computed in order, the first
failure is the outcome, otherwise the output is the entries one after the other. -/
theorem marshal_driver_card (c : DriverCard) :
    marshalDriverCard (some c) = mapRes Entry.content (entries c) >>= fun vs => .ok (bytesOf (entries c) vs) := by
  have w : Writes (fun dst => appendDriverCard dst c) (entries c) := by
    have h := writes_seq (appendGen1_writes c) (writes_seq (f := fun dst => match c.tachographG2 with
      | none => .ok dst
      | some t => appendGen2 dst t) (ss := gen2Entries (c.tachographG2.getD {})) (by
        cases c.tachographG2 with
        | none => exact writes_nil
        | some t => exact appendGen2_writes t) (appendCertificates_writes c))
    intro dst
    have := h dst
    unfold entries
    simp only [List.append_assoc] at this ⊢
    rw [← this]
    unfold appendDriverCard
    cases c.tachographG2 <;> rfl
  exact w []

/-- C30: success, and the file written, for every message. -/
theorem driver_card_written_iff (c : DriverCard) (out : Bytes) :
    marshalDriverCard (some c) = .ok out ↔
      ∃ vs, List.Forall₂ (fun e v => e.content = .ok v) (entries c) vs ∧ out = bytesOf (entries c) vs := by
  rw [marshal_driver_card]
  simp only [bind_eq_ok, Res.ok.injEq, mapRes_ok_iff]
  constructor
  · rintro ⟨vs, h, rfl⟩; exact ⟨vs, h, rfl⟩
  · rintro ⟨vs, h, rfl⟩; exact ⟨vs, h, rfl⟩

omit [Charmap] in
theorem mem_of_forall₂ {α β : Type} {R : α → β → Prop} {xs : List α} {ys : List β} (h : List.Forall₂ R xs ys) {y : β} (hy : y ∈ ys) :
    ∃ x ∈ xs, R x y := by
  induction h with
  | nil => simp at hy
  | cons h1 _ ih =>
    rcases List.mem_cons.mp hy with rfl | hy
    · exact ⟨_, by simp, h1⟩
    · obtain ⟨x, hx, hr⟩ := ih hy
      exact ⟨x, by simp [hx], hr⟩

omit [Charmap] in
theorem entry_bytes_tlv (e : Entry) (v : Bytes) (h : v.length ≤ 65535) : e.bytes v = fileBytes (e.tlvs v) := by
  have hb : beBytes 2 (v.length % 65536) = [UInt8.ofNat (v.length / 256), UInt8.ofNat (v.length % 256)] := by
    rw [Nat.mod_eq_of_lt (by omega)]
    simp only [beBytes, Nat.reduceSub, Nat.reduceAdd, Nat.reducePow, List.nil_append, List.cons_append]
    rw [Nat.mod_eq_of_lt (a := v.length / 256) (by omega), Nat.div_one]
  unfold Entry.bytes Entry.tlvs fileBytes Tlv.bytes
  rw [hb]
  cases e.signed <;> simp

omit [Charmap] in
theorem bytesOf_eq (ss : List Entry) (vs : List Bytes) (h : ∀ v ∈ vs, v.length ≤ 65535) : bytesOf ss vs = fileBytes (tlvsOf ss vs) := by
  induction ss generalizing vs with
  | nil => rfl
  | cons s ss ih =>
    cases vs with
    | nil => rfl
    | cons v vs =>
      have := ih vs (fun x hx => h x (List.mem_cons_of_mem _ hx))
      simp only [bytesOf, tlvsOf, fileBytes, List.zip_cons_cons, List.flatMap_cons, List.flatMap_append] at this ⊢
      rw [this, entry_bytes_tlv s v (h v (by simp))]; rfl

/-- C30: when no elementary file is larger than 65535 bytes the output is a concatenation of complete TLV
records, the data record of each file followed by the signature record if the file is signed. -/
theorem driver_card_wellformed (c : DriverCard) (out : Bytes) (h : marshalDriverCard (some c) = .ok out)
    (hs : ∀ e ∈ entries c, ∀ v, e.content = .ok v → v.length ≤ 65535) :
    ∃ vs, List.Forall₂ (fun e v => e.content = .ok v) (entries c) vs ∧ out = fileBytes (tlvsOf (entries c) vs) := by
  obtain ⟨vs, hv, rfl⟩ := (driver_card_written_iff c out).mp h
  refine ⟨vs, hv, bytesOf_eq _ _ ?_⟩
  intro v hm
  obtain ⟨e, he, hev⟩ := mem_of_forall₂ hv hm
  exact hs e he v hev

/-- C30: and, when none is larger than 65530 bytes, the raw card parser reads exactly those records. -/
theorem driver_card_reparses (c : DriverCard) (out : Bytes) (h : marshalDriverCard (some c) = .ok out)
    (hs : ∀ e ∈ entries c, ∀ v, e.content = .ok v → v.length ≤ 65530) :
    ∃ vs, List.Forall₂ (fun e v => e.content = .ok v) (entries c) vs ∧ out = fileBytes (tlvsOf (entries c) vs) ∧
      unmarshalRawCardFile out = .ok ((tlvsOf (entries c) vs).map Tlv.record) := by
  obtain ⟨vs, hv, rfl⟩ := driver_card_wellformed c out h (fun e he v hv => Nat.le_trans (hs e he v hv) (by omega))
  refine ⟨vs, hv, rfl, parse_fileBytes _ ?_⟩
  intro r hr
  obtain ⟨⟨e, v⟩, hp, hr⟩ := List.mem_flatMap.mp hr
  have hz := List.forall₂_zip hv hp
  have hv := hs e (List.of_mem_zip hp).1 v hz
  simp only [Entry.tlvs, List.mem_cons] at hr
  rcases hr with rfl | hr
  · exact hv
  · cases hsg : e.signed
    · rw [hsg] at hr; simp at hr
    · rw [hsg] at hr; simp at hr; rw [hr]; simp


/-! ## Order -/

omit [Charmap] in
/-- The fixed order of the data records: file id and appendix. -/
def Spec.writingOrder : List (Nat × Nat) :=
  [(0x0002, 0), (0x0005, 0), (0x0501, 0), (0x0521, 0), (0x0520, 0), (0x0502, 0), (0x0503, 0), (0x0504, 0), (0x0505, 0),
   (0x0506, 0), (0x0507, 0), (0x0508, 0), (0x0522, 0), (0x050E, 0), (0x0501, 2), (0x0505, 2), (0x0506, 2), (0x0522, 2),
   (0x0523, 2), (0x0524, 2), (0x0525, 2), (0xC100, 0), (0xC108, 0), (0xC100, 2), (0xC101, 2), (0xC108, 2), (0xC109, 2)]

omit [Charmap] in
/-- File id and appendix of an entry. -/
def Spec.Entry.tag (e : Entry) : Nat × Nat := (e.fidHi.toNat * 256 + e.fidLo.toNat, e.appendix.toNat)

omit [Charmap] in
theorem entry_tag {α : Type} (hi lo a : UInt8) (sg : Bool) (m : Option α) (w : α → Res Bytes) :
    ((entry hi lo a sg m w).map Entry.tag).Sublist [(hi.toNat * 256 + lo.toNat, a.toNat)] := by
  cases m with
  | none => exact List.nil_sublist _
  | some m => exact List.Sublist.refl _

omit [Charmap] in
theorem certificate_tag (hi lo a : UInt8) (r : Option Bytes) :
    ((certificate hi lo a r).map Entry.tag).Sublist [(hi.toNat * 256 + lo.toNat, a.toNat)] := by
  cases r with
  | none => exact List.nil_sublist _
  | some r =>
    unfold certificate
    dsimp only
    split
    · exact List.nil_sublist _
    · exact List.Sublist.refl _

/-- C30: whatever the message, the files are written in one fixed order, each at most once. -/
theorem driver_card_order (c : DriverCard) : ((entries c).map Entry.tag).Sublist writingOrder := by
  unfold entries gen1Entries gen2Entries gen1Certificates gen2Certificates
  simp only [List.map_append, List.append_assoc]
  repeat' first
    | exact certificate_tag _ _ _ _
    | exact List.Sublist.append (entry_tag _ _ _ _ _ _) (by assumption)
    | refine List.Sublist.append (l₂ := [_]) (entry_tag _ _ _ _ _ _) ?_
    | refine List.Sublist.append (l₂ := [_]) (certificate_tag _ _ _ _) ?_

omit [Charmap] in
theorem writing_order_nodup : writingOrder.Nodup := by decide


/-! ## What is lost (C31) -/

omit [Charmap] in
theorem entry_unsigned {α : Type} (hi lo a : UInt8) (sg : Bool) (m : Option (Signed α)) (w : Signed α → Res Bytes) :
    entry hi lo a sg (m.map unsigned) w = entry hi lo a sg m (fun x => w (unsigned x)) := by
  cases m <;> rfl

/-- C31: the file written does not depend on any signature, nor on eight of the Gen2 files. -/
theorem driver_card_forgets (c : DriverCard) : marshalDriverCard (some (forget c)) = marshalDriverCard (some c) := by
  have : entries (forget c) = entries c := by
    have h1 : gen1Entries ((c.tachograph.map forgetGen1).getD {}) = gen1Entries (c.tachograph.getD {}) := by
      cases c.tachograph with
      | none => rfl
      | some t => simp only [Option.map_some, Option.getD_some, gen1Entries, forgetGen1, entry_unsigned]; rfl
    have h2 : gen2Entries ((c.tachographG2.map forgetGen2).getD {}) = gen2Entries (c.tachographG2.getD {}) := by
      cases c.tachographG2 with
      | none => rfl
      | some t => simp only [Option.map_some, Option.getD_some, gen2Entries, forgetGen2, entry_unsigned]; rfl
    have h3 : gen1Certificates ((c.tachograph.map forgetGen1).getD {}) = gen1Certificates (c.tachograph.getD {}) := by
      cases c.tachograph <;> rfl
    have h4 : gen2Certificates ((c.tachographG2.map forgetGen2).getD {}) = gen2Certificates (c.tachographG2.getD {}) := by
      cases c.tachographG2 <;> rfl
    simp only [entries, forget, h1, h2, h3, h4]
  rw [marshal_driver_card, marshal_driver_card, this]

theorem written_tlvs_mem {c : DriverCard} {vs : List Bytes} {r : Tlv} (h : r ∈ tlvsOf (entries c) vs) :
    ∃ e ∈ entries c, ∃ v, r ∈ e.tlvs v := by
  obtain ⟨⟨e, v⟩, hp, hr⟩ := List.mem_flatMap.mp h
  exact ⟨e, (List.of_mem_zip hp).1, v, hr⟩

/-- C31: every signature record of the file written consists of 128 zero bytes. -/
theorem driver_card_signatures_zero (c : DriverCard) (vs : List Bytes) (r : Tlv) (h : r ∈ tlvsOf (entries c) vs)
    (ho : r.appendix.toNat % 2 = 1) : r.value = List.replicate 128 0 := by
  obtain ⟨e, he, v, hr⟩ := written_tlvs_mem h
  have ht : e.tag ∈ writingOrder := (driver_card_order c).subset (List.mem_map_of_mem he)
  simp only [Entry.tlvs, List.mem_cons] at hr
  rcases hr with rfl | hr
  · have : ∀ t ∈ writingOrder, t.2 % 2 = 0 := by decide
    have := this _ ht
    simp only [Entry.tag] at this
    simp only at ho
    omega
  · cases hs : e.signed
    · rw [hs] at hr; simp at hr
    · rw [hs] at hr; simp only [if_true, List.mem_singleton] at hr; rw [hr]

omit [Charmap] in
/-- File id and appendix of the eight Gen2 files that are never written. -/
def Spec.neverWritten : List (Nat × Nat) :=
  [(0x0520, 2), (0x0521, 2), (0x0502, 2), (0x0503, 2), (0x0504, 2), (0x0507, 2), (0x0508, 2), (0x050E, 2)]

/-- C31: the file written has no record of these files. -/
theorem driver_card_gen2_not_written (c : DriverCard) (vs : List Bytes) (r : Tlv) (h : r ∈ tlvsOf (entries c) vs) :
    (r.fidHi.toNat * 256 + r.fidLo.toNat, r.appendix.toNat) ∉ neverWritten := by
  obtain ⟨e, he, v, hr⟩ := written_tlvs_mem h
  have ht : e.tag ∈ writingOrder := (driver_card_order c).subset (List.mem_map_of_mem he)
  simp only [Entry.tlvs, List.mem_cons] at hr
  have hd : ∀ t ∈ writingOrder, t ∉ neverWritten ∧ (t.1, t.2 + 1) ∉ neverWritten ∧ t.2 < 4 := by decide
  obtain ⟨h1, h2, h3⟩ := hd _ ht
  rcases hr with rfl | hr
  · exact h1
  · cases hs : e.signed
    · rw [hs] at hr; simp at hr
    · rw [hs] at hr; simp only [if_true, List.mem_singleton] at hr
      rw [hr]
      have : (e.appendix + 1).toNat = e.appendix.toNat + 1 := by
        simp only [Entry.tag] at h3
        rw [UInt8.toNat_add]; simp; omega
      rw [this]
      exact h2

/-- C31: when does a driver card file survive reading and writing? Exactly when its records are the ones
that are written. -/
theorem driver_card_roundtrip_iff (rs : List Tlv) (hrs : ∀ r ∈ rs, r.value.length ≤ 65530) (c : DriverCard) (out : Bytes)
    (h : marshalDriverCard (some c) = .ok out) (hs : ∀ e ∈ entries c, ∀ v, e.content = .ok v → v.length ≤ 65530) :
    out = fileBytes rs ↔
      ∃ vs, List.Forall₂ (fun e v => e.content = .ok v) (entries c) vs ∧ rs = tlvsOf (entries c) vs := by
  obtain ⟨vs, hv, rfl, hp⟩ := driver_card_reparses c out h hs
  constructor
  · intro he
    refine ⟨vs, hv, ?_⟩
    obtain ⟨ts, hts, he2⟩ := (raw_card_accepts_iff _).mp ⟨_, hp⟩
    have hq : ∀ r ∈ tlvsOf (entries c) vs, r.value.length ≤ 65530 := by
      intro r hr
      have h1 := parse_fileBytes ts hts
      rw [← he2, hp] at h1
      have h2 : r.record ∈ ts.map Tlv.record := by
        rw [← Res.ok.inj h1]; exact List.mem_map_of_mem hr
      obtain ⟨t, ht, he3⟩ := List.mem_map.mp h2
      have : r.value = t.value := by
        have := congrArg RawRec.value he3
        exact this.symm
      rw [this]; exact hts t ht
    exact (fileBytes_injective _ _ hq hrs he).symm
  · rintro ⟨ws, hw, rfl⟩
    have : vs = ws := List.right_unique_forall₂' (fun e v w h1 h2 => by rw [h1] at h2; exact Res.ok.inj h2) hv hw
    rw [this]

/-- C31 is false, for every driver card file with a signature record that is not 128 zero bytes, or with one
of eight Gen2 files: reading it and writing it never gives the same bytes. -/
theorem driver_card_not_restored (rs : List Tlv) (hrs : ∀ r ∈ rs, r.value.length ≤ 65530) (c : DriverCard) (out : Bytes)
    (h : marshalDriverCard (some c) = .ok out) (hs : ∀ e ∈ entries c, ∀ v, e.content = .ok v → v.length ≤ 65530)
    (hbad : ∃ r ∈ rs, (r.appendix.toNat % 2 = 1 ∧ r.value ≠ List.replicate 128 0) ∨
      (r.fidHi.toNat * 256 + r.fidLo.toNat, r.appendix.toNat) ∈ neverWritten) : out ≠ fileBytes rs := by
  intro he
  obtain ⟨vs, _, rfl⟩ := (driver_card_roundtrip_iff rs hrs c out h hs).mp he
  obtain ⟨r, hr, hb | hb⟩ := hbad
  · exact hb.2 (driver_card_signatures_zero c vs r hr hb.1)
  · exact driver_card_gen2_not_written c vs r hr hb


/-! ## A concrete card -/

/-- Chip file, application identification with a signature, a download date, and Gen2 files of both kinds. -/
def Spec.sampleCard : DriverCard :=
  { ic := some ⟨[1, 2, 3, 4], [5, 6, 7, 8]⟩
    tachograph := some { applicationIdentification := some ⟨⟨3, some ⟨none, 1, 2⟩, none⟩, some [9, 9, 9]⟩
                         cardDownload := some ⟨some ⟨260, 0⟩⟩ }
    tachographG2 := some { applicationIdentificationV2 := some ⟨⟨1, 2, 3, 4⟩, none⟩
                           cardDownload := some ⟨some ⟨260, 0⟩⟩ } }


theorem sampleCard_contents : (entries sampleCard).map Entry.content =
    [.ok [1, 2, 3, 4, 5, 6, 7, 8], .ok [1, 1, 2, 0, 0, 0, 0, 0, 0, 0], .ok [0, 0, 1, 4], .ok [1, 2, 3, 4]] := rfl

/-- It is written, without its signature and without the Gen2 download date. -/
example : marshalDriverCard (some sampleCard) = .ok (
    [0x00, 0x05, 0, 0, 8, 1, 2, 3, 4, 5, 6, 7, 8] ++
    ([0x05, 0x01, 0, 0, 10, 1, 1, 2, 0, 0, 0, 0, 0, 0, 0] ++ ([0x05, 0x01, 1, 0, 128] ++ List.replicate 128 0)) ++
    [0x05, 0x0E, 0, 0, 4, 0, 0, 1, 4] ++
    ([0x05, 0x25, 2, 0, 4, 1, 2, 3, 4] ++ ([0x05, 0x25, 3, 0, 128] ++ List.replicate 128 0))) := by
  rw [marshal_driver_card]
  set_option maxRecDepth 4000 in rfl

/-- Its files are small, as the theorems above ask. -/
example : ∀ e ∈ entries sampleCard, ∀ v, e.content = .ok v → v.length ≤ 65530 := by
  intro e he v hv
  have hm := List.mem_map_of_mem (f := Entry.content) he
  rw [sampleCard_contents, hv] at hm
  simp only [List.mem_cons, Res.ok.injEq, List.not_mem_nil, or_false] at hm
  rcases hm with rfl | rfl | rfl | rfl <;> decide

end Tacho
