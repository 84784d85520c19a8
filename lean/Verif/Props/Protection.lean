import Verif.Spec.Protection
import Verif.Props.Join
import Verif.Props.VerifyAgain
import Verif.Model.File
import Verif.Props.IssuingFile
/-!
# What a verification rests on (C84)
-/

namespace Tacho
open Spec Regulation

section
variable [Crypto] {σ : Type}

theorem verifyGen1_rests (res : Option (Resolver σ)) (t t' : Tachograph) (h : t.cardCertificate = t'.cardCertificate)
    (ha : res = none → t.caCertificate = t'.caCertificate) (s : σ) :
    (verifyGen1 res t s).result = (verifyGen1 res t' s).result ∧ (verifyGen1 res t s).world = (verifyGen1 res t' s).world ∧
    (verifyGen1 res t s).msg.cardCertificate = (verifyGen1 res t' s).msg.cardCertificate := by
  cases t with | mk =>
  cases t' with | mk =>
  dsimp only at h ha
  subst h
  unfold verifyGen1
  cases res with
  | none =>
    have ha := ha rfl
    subst ha
    dsimp only
    split
    · exact ⟨rfl, rfl, rfl⟩
    · split <;> exact ⟨rfl, rfl, rfl⟩
  | some r =>
    dsimp only
    split
    · exact ⟨rfl, rfl, rfl⟩
    · split <;> exact ⟨rfl, rfl, rfl⟩

theorem verifyGen2_rests (res : Option (Resolver σ)) (t t' : TachographG2) (h : t.cardSignCertificate = t'.cardSignCertificate)
    (ha : res = none → t.caCertificate = t'.caCertificate) (s : σ) :
    (verifyGen2 res t s).result = (verifyGen2 res t' s).result ∧ (verifyGen2 res t s).world = (verifyGen2 res t' s).world ∧
    (verifyGen2 res t s).msg.cardSignCertificate = (verifyGen2 res t' s).msg.cardSignCertificate := by
  cases t with | mk =>
  cases t' with | mk =>
  dsimp only at h ha
  subst h
  unfold verifyGen2
  cases res with
  | none =>
    have ha := ha rfl
    subst ha
    dsimp only
    split
    · exact ⟨rfl, rfl, rfl⟩
    · split <;> exact ⟨rfl, rfl, rfl⟩
  | some r =>
    dsimp only
    split
    · exact ⟨rfl, rfl, rfl⟩
    · split <;> exact ⟨rfl, rfl, rfl⟩

theorem verifyCardGen2_rests (res : Option (Resolver σ)) (c c' : DriverCard)
    (h : c.tachographG2.map (·.cardSignCertificate) = c'.tachographG2.map (·.cardSignCertificate))
    (ha : res = none → c.tachographG2.map (·.caCertificate) = c'.tachographG2.map (·.caCertificate)) (s : σ) :
    (verifyCardGen2 res c s).result = (verifyCardGen2 res c' s).result ∧
    (verifyCardGen2 res c s).world = (verifyCardGen2 res c' s).world ∧
    (verifyCardGen2 res c s).msg.tachograph = c.tachograph ∧
    (verifyCardGen2 res c s).msg.tachographG2.map (·.cardSignCertificate) =
      (verifyCardGen2 res c' s).msg.tachographG2.map (·.cardSignCertificate) := by
  unfold verifyCardGen2
  cases h1 : c.tachographG2 with
  | none =>
    cases h2 : c'.tachographG2 with
    | none => simp [h1, h2]
    | some t' => simp [h1, h2] at h
  | some t =>
    cases h2 : c'.tachographG2 with
    | none => simp [h1, h2] at h
    | some t' =>
      obtain ⟨e1, e2, e3⟩ := verifyGen2_rests res t t' (by simpa [h1, h2] using h) (fun e => by simpa [h1, h2] using ha e) s
      dsimp only
      exact ⟨e1, e2, rfl, by simp [e3]⟩

/-- C84: the verification of a card looks at the two card certificates; without a resolver it also looks at the authority
certificates. Cards that agree in them get the same answer, the same calls are made, and the certificates are left the same. -/
theorem verification_rests_on (res : Option (Resolver σ)) (c c' : DriverCard) (h : verifiedCertificates c = verifiedCertificates c')
    (ha : res = none → authorityCertificates c = authorityCertificates c') (s : σ) :
    (verifyDriverCard res (some c) s).result = (verifyDriverCard res (some c') s).result ∧
    (verifyDriverCard res (some c) s).world = (verifyDriverCard res (some c') s).world ∧
    (verifyDriverCard res (some c) s).msg.map verifiedCertificates = (verifyDriverCard res (some c') s).msg.map verifiedCertificates := by
  simp only [verifiedCertificates, authorityCertificates, Prod.mk.injEq] at h ha
  simp only [verifyDriverCard, verifyCard, Option.map_some, Option.some.injEq]
  cases h1 : c.tachograph with
  | none =>
    cases h2 : c'.tachograph with
    | some t' => simp [h1, h2] at h
    | none =>
      obtain ⟨e1, e2, e3, e4⟩ := verifyCardGen2_rests res c c' h.2 (fun e => (ha e).2) s
      obtain ⟨-, -, f3, -⟩ := verifyCardGen2_rests res c' c h.2.symm (fun e => (ha e).2.symm) s
      dsimp only
      exact ⟨e1, e2, by simp only [verifiedCertificates, e3, f3, e4, h1, h2]⟩
  | some t =>
    cases h2 : c'.tachograph with
    | none => simp [h1, h2] at h
    | some t' =>
      obtain ⟨e1, e2, e3⟩ := verifyGen1_rests res t t' (by simpa [h1, h2] using h.1) (fun e => by simpa [h1, h2] using (ha e).1) s
      dsimp only
      rw [← e1, ← e2]
      cases hv : (verifyGen1 res t s).result with
      | ok u =>
        obtain ⟨k1, k2, k3, k4⟩ := verifyCardGen2_rests res { c with tachograph := some (verifyGen1 res t s).msg }
          { c' with tachograph := some (verifyGen1 res t' s).msg } h.2 (fun e => (ha e).2) (verifyGen1 res t s).world
        obtain ⟨-, -, l3, -⟩ := verifyCardGen2_rests res { c' with tachograph := some (verifyGen1 res t' s).msg }
          { c with tachograph := some (verifyGen1 res t s).msg } h.2.symm (fun e => (ha e).2.symm) (verifyGen1 res t s).world
        dsimp only
        refine ⟨k1, k2, ?_⟩
        simp only [verifiedCertificates]
        rw [k3, l3, k4]
        simp [e3]
      | err m => simp [verifiedCertificates, e3, h.2]
      | panic => simp [verifiedCertificates, e3, h.2]

/-- C84: the same for `VerifyFile`, which always asks a resolver. -/
theorem verify_file_rests_on (dflt : Resolver σ) (res : Option (Resolver σ)) (f f' : File) (c c' : DriverCard)
    (hf : f.type = .driverCard ∧ f.driverCard = some c) (hf' : f'.type = .driverCard ∧ f'.driverCard = some c')
    (h : verifiedCertificates c = verifiedCertificates c') (s : σ) :
    (verifyFile dflt res (some f) s).result = (verifyFile dflt res (some f') s).result ∧
    (verifyFile dflt res (some f) s).world = (verifyFile dflt res (some f') s).world := by
  obtain ⟨h1, h2, -⟩ := verification_rests_on (some (res.getD dflt)) c c' h (fun e => by cases e) s
  simp only [verifyFile, hf.1, hf.2, hf'.1, hf'.2]
  exact ⟨h1, h2⟩

/-! ## Changing a file in the download -/

theorem sameCardBut_certificates {f : EF} {g : Generation} {c c' : DriverCard} (h : SameCardBut f g c c')
    (h1 : f ≠ .cardCertificate) (h2 : f ≠ .cardSignCertificate) : verifiedCertificates c = verifiedCertificates c' := by
  obtain ⟨-, -, a, b⟩ := h
  simp only [verifiedCertificates, Prod.mk.injEq]
  constructor
  · split at a
    · cases e : c.tachograph <;> cases e' : c'.tachograph <;> simp only [e, e', BothOr] at a ⊢
      simp [a.cardCertificate h1]
    · rw [a]
  · split at b
    · cases e : c.tachographG2 <;> cases e' : c'.tachographG2 <;> simp only [e, e', BothOr] at b ⊢
      simp [b.cardSignCertificate h2]
    · rw [b]

variable [Charmap]

/-- C84: in a download of a driver card any record but a card certificate can be given another value: the reader refuses the file,
or the verification answers as before. -/
theorem changed_file_unnoticed (pre post : List Tlv) (r r' : Tlv) (h1 : r'.fidHi = r.fidHi) (h2 : r'.fidLo = r.fidLo)
    (h3 : r'.appendix = r.appendix) (hs : ∀ x ∈ pre ++ r :: post, x.value.length ≤ 65530) (hs' : r'.value.length ≤ 65530)
    (hf : r.record.file ≠ .cardCertificate ∧ r.record.file ≠ .cardSignCertificate) (c : DriverCard)
    (h : unmarshalFile (fileBytes (pre ++ r :: post)) = .ok { type := .driverCard, driverCard := some c }) :
    (∃ m, unmarshalFile (fileBytes (pre ++ r' :: post)) = .err m) ∨
      ∃ c', unmarshalFile (fileBytes (pre ++ r' :: post)) = .ok { type := .driverCard, driverCard := some c' } ∧
        ∀ (dflt : Resolver σ) (res : Option (Resolver σ)) (s : σ),
          (verifyFile dflt res (some { type := .driverCard, driverCard := some c' }) s).result =
            (verifyFile dflt res (some { type := .driverCard, driverCard := some c }) s).result := by
  rcases card_damage pre post r r' h1 h2 h3 hs hs' c h with he | ⟨c', g, hu, hsame, -⟩
  · exact .inl he
  · exact .inr ⟨c', hu, fun dflt res s => (verify_file_rests_on dflt res _ _ c c' ⟨rfl, rfl⟩ ⟨rfl, rfl⟩
      (sameCardBut_certificates hsame hf.1 hf.2) s).1.symm⟩

/-- C84: a signature in a download can be replaced by any bytes: the file is read, and verified with the answer it had before. -/
theorem changed_signature_unnoticed (pre post : List Tlv) (r r' : Tlv) (h1 : r'.fidHi = r.fidHi) (h2 : r'.fidLo = r.fidLo)
    (h3 : r'.appendix = r.appendix) (hs : ∀ x ∈ pre ++ r :: post, x.value.length ≤ 65530) (hs' : r'.value.length ≤ 65530)
    (hr : r.record.contentType = .signature) (c : DriverCard)
    (h : unmarshalFile (fileBytes (pre ++ r :: post)) = .ok { type := .driverCard, driverCard := some c }) :
    ∃ c', unmarshalFile (fileBytes (pre ++ r' :: post)) = .ok { type := .driverCard, driverCard := some c' } ∧
      ∀ (dflt : Resolver σ) (res : Option (Resolver σ)) (s : σ),
        (verifyFile dflt res (some { type := .driverCard, driverCard := some c' }) s).result =
          (verifyFile dflt res (some { type := .driverCard, driverCard := some c }) s).result := by
  obtain ⟨c', g, hu, -, hsame⟩ := card_signature_damage pre post r r' h1 h2 h3 hs hs' c hr h
  refine ⟨c', hu, fun dflt res s => (verify_file_rests_on dflt res _ _ c c' ⟨rfl, rfl⟩ ⟨rfl, rfl⟩ ?_ s).1.symm⟩
  have e1 := congrArg (fun c => c.tachograph.map (·.cardCertificate)) hsame
  have e2 := congrArg (fun c => c.tachographG2.map (·.cardSignCertificate)) hsame
  simp only [unsignedCard, Option.map_map] at e1 e2
  simp only [verifiedCertificates, Prod.mk.injEq]
  exact ⟨e1, e2⟩

/-! ## Certificates of another card -/

omit [Charmap] in
theorem verified_ok_iff {r : Resolver σ} (hr : Steady r) (c : DriverCard) (s : σ) :
    (verifyDriverCard (some r) (some c) s).result = .ok () ↔
      (∀ t, c.tachograph = some t → ∀ s, (verifyGen1 (some r) t s).result = .ok ()) ∧
      ∀ t, c.tachographG2 = some t → ∀ s, (verifyGen2 (some r) t s).result = .ok () := by
  have hg2 : ∀ (c : DriverCard) (s : σ), (verifyCardGen2 (some r) c s).result = .ok () ↔
      ∀ t, c.tachographG2 = some t → ∀ s, (verifyGen2 (some r) t s).result = .ok () := by
    intro c s
    unfold verifyCardGen2
    cases h : c.tachographG2 with
    | none => simp
    | some t =>
      dsimp only
      simp only [Option.some.injEq, forall_eq']
      exact ⟨fun h s' => by rw [(verifyGen2_steady hr t s' s).2]; exact h, fun h => h s⟩
  simp only [verifyDriverCard, verifyCard]
  cases h : c.tachograph with
  | none => simp only [hg2, reduceCtorEq, false_imp_iff, implies_true, true_and]
  | some t =>
    dsimp only
    simp only [Option.some.injEq, forall_eq']
    have h1 : (∀ s, (verifyGen1 (some r) t s).result = .ok ()) ↔ (verifyGen1 (some r) t s).result = .ok () :=
      ⟨fun h => h s, fun h s' => by rw [(verifyGen1_steady hr t s' s).2]; exact h⟩
    rw [h1]
    cases hv : (verifyGen1 (some r) t s).result with
    | ok u => simp only [hg2, true_and]
    | err m => simp
    | panic => simp

/-- A record that holds data, behind a download of a driver card. -/
theorem record_behind (e : Bytes) (b : DriverCard) (he : unmarshalFile e = .ok { type := .driverCard, driverCard := some b })
    (t : Tlv) (ht : t.value.length ≤ 65530) (hd : t.record.contentType = .data) (hf : t.record.file ∈ structureOf .driverCard)
    (hr : Block.Readable ⟨t.record, none⟩) :
    unmarshalFile (e ++ t.bytes) = .ok { type := .driverCard, driverCard := some (joinCards b (cardOf [⟨t.record, none⟩])) } := by
  have hst := driver_file_starts he
  obtain ⟨rs, hrs, rfl, hri, hrc⟩ := driver_file_parts he
  have hb : fileBytes rs ++ t.bytes = fileBytes (rs ++ [t]) := by simp [fileBytes]
  rw [hb, driver_file_iff]
  · refine ⟨?_, ?_⟩
    · rw [infer_driver_iff] at hri ⊢
      rw [List.map_append]
      have : ∀ p q : List RawRec, dataFiles (p ++ q) = dataFiles p ++ dataFiles q := by simp [dataFiles]
      rw [this]
      refine ⟨by simp [hri.1], ?_⟩
      intro f hf'
      rcases List.mem_append.1 hf' with hf' | hf'
      · exact hri.2 f hf'
      · have : f = t.record.file := by
          simp only [dataFiles, List.map_cons, List.map_nil] at hf'
          simpa [hd] using hf'
        rw [this]; exact hf
    · obtain ⟨bs, h1, h2, rfl⟩ := (driver_card_iff _ _).1 hrc
      refine (driver_card_iff _ _).2 ⟨bs ++ [⟨t.record, none⟩], ?_, ?_, ?_⟩
      · simp [h1, Block.records]
      · intro x hx
        rcases List.mem_append.1 hx with hx | hx
        · exact h2 x hx
        · rw [List.mem_singleton.1 hx]
          exact ⟨⟨hd, fun s h => by cases h⟩, hr⟩
      · refine (cardOf_append fun x hx => ?_).symm
        rw [List.mem_singleton.1 hx]; exact hr
  · intro x hx
    rcases List.mem_append.1 hx with hx | hx
    · exact hrs x hx
    · rw [List.mem_singleton.1 hx]; exact ht
  · obtain ⟨rest, hst⟩ := hst
    rw [fileBytes_append, hst]
    exact ⟨_, rfl⟩

/-- Appending the Gen1 card certificate of another download replaces that certificate. -/
theorem borrow_rsa (d e : Bytes) (a b : DriverCard) (hd : unmarshalFile d = .ok { type := .driverCard, driverCard := some a })
    (he : unmarshalFile e = .ok { type := .driverCard, driverCard := some b }) (x : RsaCert) (hx : rsaOf a = some x) (t : Tachograph)
    (ht : b.tachograph = some t) :
    ∃ v : Tlv, v.bytes <:+: d ∧ unmarshalFile (e ++ v.bytes) =
      .ok { type := .driverCard, driverCard := some { b with tachograph := some { t with cardCertificate := some x } } } := by
  obtain ⟨rs, hrs, rfl, hri, hrc⟩ := driver_file_parts hd
  obtain ⟨bs, h1, h2, rfl⟩ := (driver_card_iff _ _).1 hrc
  have hn : (newest bs (fileGen .cardCertificate .gen1)).bind (Block.read unmarshalRsa) = some x := by
    simp only [rsaOf, cardOf] at hx
    split at hx
    · simpa [gen1Of] using hx
    · cases hx
  cases hw : newest bs (fileGen .cardCertificate .gen1) with
  | none => rw [hw] at hn; cases hn
  | some w =>
    rw [hw, Option.bind_some] at hn
    obtain ⟨hwm, hwh⟩ := newest_mem hw
    simp only [fileGen, Bool.and_eq_true, beq_iff_eq] at hwh
    obtain ⟨⟨hwd, -⟩, hwr⟩ := h2 w hwm
    have hsig : w.sig = none := by
      simp only [Block.Readable, hwh.1] at hwr
      exact hwr.1
    have hw' : w = ⟨w.data, none⟩ := by cases w; simp_all
    have hin : w.data ∈ rs.map Tlv.record := by
      rw [h1]
      exact List.mem_flatMap.2 ⟨w, hwm, by simp [Block.records]⟩
    obtain ⟨v, hv, hvr⟩ := List.mem_map.1 hin
    refine ⟨v, ?_, ?_⟩
    · obtain ⟨p, q, rfl⟩ := List.append_of_mem hv
      exact ⟨fileBytes p, fileBytes q, by simp [fileBytes]⟩
    · rw [record_behind e b he v (hrs v hv) (by rw [hvr]; exact hwd) (by rw [hvr, hwh.1]; decide) (by rw [hvr, ← hw']; exact hwr)]
      rw [hvr, ← hw']
      have hc : cardOf [w] = { tachograph := some { cardCertificate := some x } } := by
        rw [hw'] at hn ⊢
        simp [cardOf, gen1Of, newest, List.filter_cons, file, fileGen, inGen1, inGen2, gen1Files, gen2OnlyFiles, hwh.1, hwh.2, hn]
      rw [hc]
      cases hg : b.tachographG2 <;> simp [joinCards, joinIf, ht, hg, joinGen1]

/-- The same for the Gen2 certificate for signatures. -/
theorem borrow_ecc (d e : Bytes) (a b : DriverCard) (hd : unmarshalFile d = .ok { type := .driverCard, driverCard := some a })
    (he : unmarshalFile e = .ok { type := .driverCard, driverCard := some b }) (x : EccCert) (hx : eccOf a = some x) (t : TachographG2)
    (ht : b.tachographG2 = some t) :
    ∃ v : Tlv, v.bytes <:+: d ∧ unmarshalFile (e ++ v.bytes) =
      .ok { type := .driverCard, driverCard := some { b with tachographG2 := some { t with cardSignCertificate := some x } } } := by
  obtain ⟨rs, hrs, rfl, hri, hrc⟩ := driver_file_parts hd
  obtain ⟨bs, h1, h2, rfl⟩ := (driver_card_iff _ _).1 hrc
  have hn : (newest bs (fileGen .cardSignCertificate .gen2)).bind (Block.read unmarshalEcc) = some x := by
    simp only [eccOf, cardOf] at hx
    split at hx
    · simpa [gen2Of] using hx
    · cases hx
  cases hw : newest bs (fileGen .cardSignCertificate .gen2) with
  | none => rw [hw] at hn; cases hn
  | some w =>
    rw [hw, Option.bind_some] at hn
    obtain ⟨hwm, hwh⟩ := newest_mem hw
    simp only [fileGen, Bool.and_eq_true, beq_iff_eq] at hwh
    obtain ⟨⟨hwd, -⟩, hwr⟩ := h2 w hwm
    have hsig : w.sig = none := by
      simp only [Block.Readable, hwh.1] at hwr
      exact hwr.1
    have hw' : w = ⟨w.data, none⟩ := by cases w; simp_all
    have hin : w.data ∈ rs.map Tlv.record := by
      rw [h1]
      exact List.mem_flatMap.2 ⟨w, hwm, by simp [Block.records]⟩
    obtain ⟨v, hv, hvr⟩ := List.mem_map.1 hin
    refine ⟨v, ?_, ?_⟩
    · obtain ⟨p, q, rfl⟩ := List.append_of_mem hv
      exact ⟨fileBytes p, fileBytes q, by simp [fileBytes]⟩
    · rw [record_behind e b he v (hrs v hv) (by rw [hvr]; exact hwd) (by rw [hvr, hwh.1]; decide) (by rw [hvr, ← hw']; exact hwr)]
      rw [hvr, ← hw']
      have hc : cardOf [w] = { tachographG2 := some { cardSignCertificate := some x } } := by
        rw [hw'] at hn ⊢
        simp [cardOf, gen2Of, newest, List.filter_cons, file, fileGen, inGen1, inGen2, gen2SharedFiles, gen2OnlyFiles, hwh.1, hwh.2, hn]
      rw [hc]
      cases hg : b.tachograph <;> simp [joinCards, joinIf, ht, hg, joinGen2]

/-- C84: given a download that is verified, any other download with no further applications becomes one that is verified by
appending records found in the first. What it says about the driver and the activities stays: only the two card certificates
are replaced. -/
theorem borrowed_certificates {r : Resolver σ} (hr : Steady r) (dflt : Resolver σ) (d e : Bytes) (a b : DriverCard)
    (hd : unmarshalFile d = .ok { type := .driverCard, driverCard := some a })
    (he : unmarshalFile e = .ok { type := .driverCard, driverCard := some b }) (hw : ApplicationsWithin b a) (s : σ)
    (hv : (verifyFile dflt (some r) (some { type := .driverCard, driverCard := some a }) s).result = .ok ()) :
    ∃ x : List Tlv, (∀ v ∈ x, v.bytes <:+: d) ∧
      unmarshalFile (e ++ fileBytes x) = .ok { type := .driverCard, driverCard := some (withCertificates b (rsaOf a) (eccOf a)) } ∧
      ∀ s', (verifyFile dflt (some r) (some { type := .driverCard, driverCard := some (withCertificates b (rsaOf a) (eccOf a)) }) s').result = .ok () := by
  have hv : (verifyDriverCard (some r) (some a) s).result = .ok () := hv
  obtain ⟨v1, v2⟩ := (verified_ok_iff hr a s).1 hv
  have ok : ∀ s', (verifyFile dflt (some r) (some { type := .driverCard, driverCard := some (withCertificates b (rsaOf a) (eccOf a)) }) s').result = .ok () := by
    intro s'
    show (verifyDriverCard (some r) (some (withCertificates b (rsaOf a) (eccOf a))) s').result = .ok ()
    rw [verified_ok_iff hr]
    constructor
    · intro t ht s
      simp only [withCertificates, Option.map_eq_some_iff] at ht
      obtain ⟨tb, htb, rfl⟩ := ht
      obtain ⟨ta, hta⟩ := Option.isSome_iff_exists.1 (hw.1 (by simp [htb]))
      rw [(verifyGen1_rests (some r) _ ta (by simp [rsaOf, hta]) (fun e => by cases e) s).1]
      exact v1 ta hta s
    · intro t ht s
      simp only [withCertificates, Option.map_eq_some_iff] at ht
      obtain ⟨tb, htb, rfl⟩ := ht
      obtain ⟨ta, hta⟩ := Option.isSome_iff_exists.1 (hw.2 (by simp [htb]))
      rw [(verifyGen2_rests (some r) _ ta (by simp [eccOf, hta]) (fun e => by cases e) s).1]
      exact v2 ta hta s
  have step1 : ∃ x : List Tlv, (∀ v ∈ x, v.bytes <:+: d) ∧
      unmarshalFile (e ++ fileBytes x) = .ok { type := .driverCard, driverCard := some { b with
        tachograph := b.tachograph.map fun t => { t with cardCertificate := rsaOf a } } } := by
    cases htb : b.tachograph with
    | none => exact ⟨[], by simp, by cases b; simp_all [fileBytes]⟩
    | some tb =>
      obtain ⟨ta, hta⟩ := Option.isSome_iff_exists.1 (hw.1 (by simp [htb]))
      cases hc : rsaOf a with
      | none =>
        have := v1 ta hta s
        simp only [rsaOf, hta, Option.bind_some] at hc
        simp [verifyGen1, hc] at this
      | some x =>
        obtain ⟨v, h1, h2⟩ := borrow_rsa d e a b hd he x hc tb htb
        exact ⟨[v], by simpa using h1, by simpa [fileBytes] using h2⟩
  obtain ⟨x, hx, hxu⟩ := step1
  cases htb : b.tachographG2 with
  | none =>
    refine ⟨x, hx, ?_, ok⟩
    rw [hxu]
    simp [withCertificates, htb]
  | some tb =>
    obtain ⟨ta, hta⟩ := Option.isSome_iff_exists.1 (hw.2 (by simp [htb]))
    cases hc : eccOf a with
    | none =>
      have := v2 ta hta s
      simp only [eccOf, hta, Option.bind_some] at hc
      simp [verifyGen2, hc] at this
    | some y =>
      obtain ⟨v, h1, h2⟩ := borrow_ecc d _ a _ hd hxu y hc tb htb
      refine ⟨x ++ [v], ?_, ?_, hc ▸ ok⟩
      · intro w hw
        rcases List.mem_append.1 hw with hw | hw
        · exact hx w hw
        · rw [List.mem_singleton.1 hw]; exact h1
      · rw [fileBytes_append, ← List.append_assoc]
        simp only [withCertificates, htb, Option.map_some]
        simpa [fileBytes] using h2

end

/-- A genuine download and a download with no certificate at all meet the hypotheses. -/
example [Charmap] : ∃ (_ : Crypto) (r : Resolver Unit) (d e : Bytes) (a b : DriverCard), Steady r ∧
    unmarshalFile d = .ok { type := .driverCard, driverCard := some a } ∧
    unmarshalFile e = .ok { type := .driverCard, driverCard := some b } ∧ ApplicationsWithin b a ∧
    (verifyFile r (some r) (some { type := .driverCard, driverCard := some a }) ()).result = .ok () ∧
    (verifyFile r (some r) (some { type := .driverCard, driverCard := some b }) ()).result ≠ .ok () := by
  obtain ⟨i, r, p, ps, h1, h2, h3, h4, ⟨w, hw, g1⟩, ⟨v, hv, g2⟩⟩ := sample_genuine_download
  obtain ⟨a, a', hu, hver, -, -, k1, k2⟩ := genuine_download_verified r r p ps h1 h2 h3 () () () (.inr ⟨w, hw, g1⟩) (.inr ⟨v, hv, g2⟩)
  obtain ⟨t1, _, _, ht1, -⟩ := k1 w hw
  obtain ⟨t2, _, _, ht2, -⟩ := k2 v hv
  let q : Part := ⟨"ICC", 2, false, zeros 7 ++ [1] ++ zeros 17, none⟩
  let q2 : Part := ⟨"Card_Download", 0x050E, false, zeros 4, none⟩
  have hc : ∀ x ∈ [q, q2], x.Conforms := by
    intro x hx
    simp only [List.mem_cons, List.not_mem_nil, or_false] at hx
    rcases hx with rfl | rfl
    · refine ⟨by decide, .inl ⟨rfl, rfl, ?_, ?_⟩, by simp [q], by simp [q, zeros_length], by simp [q]⟩
      · exact ⟨0, by decide, by decide +kernel⟩
      · exact ⟨1, by decide, by decide +kernel⟩
    · exact ⟨by decide, by simp [q2, contentsG1, Layout.Fits, zeros_length]; rfl, by simp [q2], by simp [q2, zeros_length], by simp [q2]⟩
  have he := conformant_download_read q [q2] rfl rfl hc
  refine ⟨i, r, _, _, a, _, ⟨fun _ _ _ => rfl, fun _ _ _ => rfl, fun _ _ => rfl⟩, hu, he, ⟨fun _ => by simp [ht1], fun _ => by simp [ht2]⟩,
    by rw [hver], ?_⟩
  intro h
  have h := (verified_ok_iff ⟨fun _ _ _ => rfl, fun _ _ _ => rfl, fun _ _ => rfl⟩ _ ()).1 h
  have h := h.1 (gen1Of [q.block, q2.block]) (if_pos (by decide +kernel)) ()
  have hn : newest [q.block, q2.block] (fileGen .cardCertificate .gen1) = none := by decide +kernel
  simp only [verifyGen1, gen1Of, hn] at h
  cases h

end Tacho
