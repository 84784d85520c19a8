import Verif.Spec.GenuineDownload
import Verif.Props.IssuingEcc
import Verif.Props.Download
/-!
# Certificates issued as the regulation prescribes (C81): from the bytes of a download to the verdict
-/

namespace Tacho
open Spec Spec.Regulation

section
variable [Charmap]

omit [Charmap] in
private theorem part_table {p : Part} (h : p.Conforms) (P : String → Nat → Bool → Bool)
    (h1 : (masterFile ++ driverCardG1).all (fun q => P q.1 q.2 false) = true)
    (h2 : driverCardG2.all (fun q => P q.1 q.2 true) = true) : P p.name p.fid p.g2 = true := by
  have := h.1
  cases hg : p.g2 <;> rw [hg] at this
  · exact List.all_eq_true.1 h1 _ this
  · exact List.all_eq_true.1 h2 _ this

omit [Charmap] in
private theorem here1 {p : Part} (h : p.Conforms) :
    fileGen .cardCertificate .gen1 p.block = (p.name == "Card_Certificate" && p.g2 == false) := by
  unfold fileGen
  rw [block_gen, block_file]
  simpa using part_table h (fun n f g => ((mapFid ((UInt8.ofNat (f / 256)).toNat * 256 + (UInt8.ofNat (f % 256)).toNat)
    == .cardCertificate) && (if g then Generation.gen2 else .gen1) == .gen1) == (n == "Card_Certificate" && g == false))
    (by decide +kernel) (by decide +kernel)

omit [Charmap] in
private theorem here2 {p : Part} (h : p.Conforms) :
    fileGen .cardSignCertificate .gen2 p.block = (p.name == "CardSignCertificate" && p.g2 == true) := by
  unfold fileGen
  rw [block_gen, block_file]
  simpa using part_table h (fun n f g => ((mapFid ((UInt8.ofNat (f / 256)).toNat * 256 + (UInt8.ofNat (f % 256)).toNat)
    == .cardSignCertificate) && (if g then Generation.gen2 else .gen1) == .gen2) == (n == "CardSignCertificate" && g == true))
    (by decide +kernel) (by decide +kernel)

omit [Charmap] in
private theorem newest_parts (ps : List Part) (here : Block → Bool) (P : Part → Bool) (h : ∀ q ∈ ps, here q.block = P q) :
    newest (ps.map Part.block) here = ((ps.filter P).getLast?).map Part.block := by
  unfold newest
  rw [List.filter_map, List.getLast?_map, List.filter_congr (q := P) (by simpa using h)]

variable [Crypto] {σ : Type}

/-- C81, from the file to the verdict. A download that starts with ICC and whose files conform to the regulation is read;
if the certificates of its applications were issued as prescribed and the resolver knows the authorities, verifying the
file that was read succeeds. Every application then has its certificate marked as valid, nothing else changes, and the
certificate says what its bytes say. -/
theorem genuine_download_verified (dflt r : Resolver σ) (p : Part) (ps : List Part) (hicc : p.name = "ICC") (hg : p.g2 = false)
    (h : ∀ q ∈ p :: ps, q.Conforms) (s t u : σ)
    (h1 : GenuineDownload1 r (p :: ps) s t) (h2 : GenuineDownload2 r (p :: ps) t u) :
    ∃ card card', unmarshalFile (storedDownload (p :: ps)) = .ok { type := .driverCard, driverCard := some card } ∧
      verifyFile dflt (some r) (some { type := .driverCard, driverCard := some card }) s =
        ⟨some { type := .driverCard, driverCard := some card' }, .ok (), u⟩ ∧
      card'.icc = card.icc ∧ card'.ic = card.ic ∧
      (∀ raw, lastContents (p :: ps) "Card_Certificate" false = some raw →
        ∃ app cert cert', card.tachograph = some app ∧ unmarshalRsa raw = .ok cert ∧ app.cardCertificate = some cert ∧
          card'.tachograph = some { app with cardCertificate := some cert' } ∧ cert'.valid = true) ∧
      (∀ raw, lastContents (p :: ps) "CardSignCertificate" true = some raw →
        ∃ app cert cert', card.tachographG2 = some app ∧ unmarshalEcc raw = .ok cert ∧ app.cardSignCertificate = some cert ∧
          card'.tachographG2 = some { app with cardSignCertificate := some cert' } ∧ cert'.valid = true) := by
  have hread := conformant_download_read p ps hicc hg h
  generalize p :: ps = qs at *
  have n1 := newest_parts qs (fileGen .cardCertificate .gen1) (fun q => q.name == "Card_Certificate" && q.g2 == false)
    (fun q hq => here1 (h q hq))
  have n2 := newest_parts qs (fileGen .cardSignCertificate .gen2) (fun q => q.name == "CardSignCertificate" && q.g2 == true)
    (fun q hq => here2 (h q hq))
  have c1 : ∀ raw, lastContents qs "Card_Certificate" false = some raw → ∃ app cert,
      (cardOf (qs.map Part.block)).tachograph = some app ∧ unmarshalRsa raw = .ok cert ∧ app.cardCertificate = some cert := by
    intro raw hraw
    unfold lastContents at hraw
    obtain ⟨q, hq, rfl⟩ := Option.map_eq_some_iff.1 hraw
    have hm := List.mem_of_getLast? hq
    rw [List.mem_filter] at hm
    rw [hq] at n1
    have hin : (qs.map Part.block).any inGen1 = true :=
      List.any_eq_true.2 ⟨q.block, List.mem_map.2 ⟨q, hm.1, rfl⟩, fileGen_in1 (by decide) _ ((here1 (h q hm.1)).trans hm.2)⟩
    have hname : q.name = "Card_Certificate" ∧ q.g2 = false := by simpa using hm.2
    have hc := (h q hm.1).2.1
    rw [if_neg (by simp [hname.2]), hname.1] at hc
    obtain ⟨cert, hcert⟩ := (rsa_parse_total q.contents).1 (by simpa [contentsG1] using hc)
    refine ⟨gen1Of (qs.map Part.block), cert, by simp only [cardOf]; rw [if_pos hin], hcert, ?_⟩
    show (newest _ _).bind _ = _
    rw [n1]
    show Block.read unmarshalRsa q.block = _
    unfold Block.read
    rw [show q.block.data.value = q.contents from rfl, hcert]
  have c2 : ∀ raw, lastContents qs "CardSignCertificate" true = some raw → ∃ app cert,
      (cardOf (qs.map Part.block)).tachographG2 = some app ∧ unmarshalEcc raw = .ok cert ∧
        app.cardSignCertificate = some cert := by
    intro raw hraw
    unfold lastContents at hraw
    obtain ⟨q, hq, rfl⟩ := Option.map_eq_some_iff.1 hraw
    have hm := List.mem_of_getLast? hq
    rw [List.mem_filter] at hm
    rw [hq] at n2
    have hin : (qs.map Part.block).any inGen2 = true :=
      List.any_eq_true.2 ⟨q.block, List.mem_map.2 ⟨q, hm.1, rfl⟩, fileGen_in2 (by decide) _ ((here2 (h q hm.1)).trans hm.2)⟩
    have hname : q.name = "CardSignCertificate" ∧ q.g2 = true := by simpa using hm.2
    have hc := (h q hm.1).2.1
    rw [if_pos hname.2, hname.1] at hc
    obtain ⟨cert, hcert⟩ := ecc_conforms (d := q.contents) (by simpa [contentsG2] using hc)
    refine ⟨gen2Of (qs.map Part.block), cert, by simp only [cardOf]; rw [if_pos hin], hcert, ?_⟩
    show (newest _ _).bind _ = _
    rw [n2]
    show Block.read unmarshalEcc q.block = _
    unfold Block.read
    rw [show q.block.data.value = q.contents from rfl, hcert]
  have a1 : ∀ app, (cardOf (qs.map Part.block)).tachograph = some app → GenuineGen1 r app s t := by
    intro app happ
    rcases h1 with ⟨hno, _⟩ | ⟨raw, hl, hgen⟩
    · exfalso
      have hf : (qs.map Part.block).any inGen1 = false := by
        rw [List.any_eq_false]
        intro b hb
        obtain ⟨q, hq, rfl⟩ := List.mem_map.1 hb
        unfold inGen1
        rw [block_gen, block_file]
        cases hg2 : q.g2
        · have ht : masterFile.all (fun q => !gen1Files.contains
              (mapFid ((UInt8.ofNat (q.2 / 256)).toNat * 256 + (UInt8.ofNat (q.2 % 256)).toNat))) = true := by decide +kernel
          have := List.all_eq_true.1 ht _ (hno q hq hg2)
          simp only [Bool.not_eq_true'] at this
          rw [this]; simp
        · simp
      simp [cardOf, hf] at happ
    · obtain ⟨app', cert, e, hp, hc⟩ := c1 raw hl
      rw [happ] at e
      obtain rfl := Option.some.inj e
      exact ⟨raw, cert, hgen, hp, hc⟩
  have b1 : (cardOf (qs.map Part.block)).tachograph = none → t = s := by
    intro hnone
    rcases h1 with ⟨_, e⟩ | ⟨raw, hl, _⟩
    · exact e
    · obtain ⟨app', cert, e, _⟩ := c1 raw hl
      rw [hnone] at e; cases e
  have a2 : ∀ app, (cardOf (qs.map Part.block)).tachographG2 = some app → GenuineGen2 r app t u := by
    intro app happ
    rcases h2 with ⟨hno, _⟩ | ⟨raw, hl, hgen⟩
    · exfalso
      have hf : (qs.map Part.block).any inGen2 = false := by
        rw [List.any_eq_false]
        intro b hb
        obtain ⟨q, hq, rfl⟩ := List.mem_map.1 hb
        unfold inGen2
        rw [block_gen, block_file, hno q hq]
        have ht := part_table (h q hq) (fun n f g => g || !gen2OnlyFiles.contains
          (mapFid ((UInt8.ofNat (f / 256)).toNat * 256 + (UInt8.ofNat (f % 256)).toNat))) (by decide +kernel) (by decide +kernel)
        rw [hno q hq] at ht
        simp only [Bool.false_or, Bool.not_eq_true'] at ht
        rw [ht]; simp
      simp [cardOf, hf] at happ
    · obtain ⟨app', cert, e, hp, hc⟩ := c2 raw hl
      rw [happ] at e
      obtain rfl := Option.some.inj e
      exact ⟨raw, cert, hgen, hp, hc⟩
  have b2 : (cardOf (qs.map Part.block)).tachographG2 = none → u = t := by
    intro hnone
    rcases h2 with ⟨_, e⟩ | ⟨raw, hl, _⟩
    · exact e
    · obtain ⟨app', cert, e, _⟩ := c2 raw hl
      rw [hnone] at e; cases e
  obtain ⟨card', hv, m1, m2, _, _, e1, e2⟩ := genuine_card_verified r _ s t u a1 b1 a2 b2
  refine ⟨_, card', hread, ?_, e1, e2, ?_, ?_⟩
  · simp only [verifyFile, Option.getD_some, hv]
  · intro raw hl
    obtain ⟨app, cert, e, hp, hc⟩ := c1 raw hl
    obtain ⟨cert', hc', hval⟩ := m1 app e
    exact ⟨app, cert, cert', e, hp, hc, hc', hval⟩
  · intro raw hl
    obtain ⟨app, cert, e, hp, hc⟩ := c2 raw hl
    obtain ⟨cert', hc', hval⟩ := m2 app e
    exact ⟨app, cert, cert', e, hp, hc, hc', hval⟩

end

/-- A download with ICC and the certificate of each application that meets the hypotheses, for an ECDSA that accepts. -/
theorem sample_genuine_download : ∃ (_ : Crypto) (r : Resolver Unit) (p : Part) (ps : List Part), p.name = "ICC" ∧ p.g2 = false ∧
    (∀ q ∈ p :: ps, q.Conforms) ∧ ps.length = 2 ∧
    (∃ raw, lastContents (p :: ps) "Card_Certificate" false = some raw ∧ Genuine1 r raw () ()) ∧
    (∃ raw, lastContents (p :: ps) "CardSignCertificate" true = some raw ∧ Genuine2 r raw () ()) := by
  letI i : Crypto := ⟨fun _ => zeros 20, fun _ => by simp [zeros_length], fun _ => [], fun _ => [], fun _ => [],
    fun _ _ _ _ _ _ => some true⟩
  let n := sampleP * sampleQ
  let fa : Content := ⟨1, beBytes 8 5, zeros 7, beBytes 4 1700000000, beBytes 8 6, beBytes 128 n, beBytes 8 65537⟩
  let fc : Content := ⟨1, beBytes 8 6, zeros 7, beBytes 4 1700000000, beBytes 8 7, beBytes 128 n, beBytes 8 65537⟩
  have la : fa.Layout _ := ⟨rfl, beBytes_length _ _, zeros_length _, beBytes_length _ _, beBytes_length _ _,
    beBytes_length _ _, beBytes_length _ _⟩
  have lc : fc.Layout _ := ⟨rfl, beBytes_length _ _, zeros_length _, beBytes_length _ _, beBytes_length _ _,
    beBytes_length _ _, beBytes_length _ _⟩
  obtain ⟨rawA, ia, ha⟩ := can_issue sampleD sample_keyPair.2 fa _ la
  obtain ⟨rawC, ic, hc⟩ := can_issue sampleD sample_keyPair.2 fc _ lc
  obtain ⟨ca, pa⟩ := (rsa_parse_total rawA).1 ha
  obtain ⟨root, pr⟩ := (root_parse_total (fa.car ++ beBytes 128 n ++ beBytes 8 65537)).1 (by simp [fa])
  have hn : beNat fa.modulus = n := beNat_beBytes_of_lt (Nat.lt_of_lt_of_eq sample_keyPair.2.2 (by decide +kernel))
  let ga : Content2 := ⟨beBytes 8 1, zeros 7, .p256, zeros 32, zeros 32, beBytes 8 2, zeros 4, zeros 4⟩
  let gc : Content2 := ⟨beBytes 8 2, zeros 7, .p256, zeros 32, zeros 32, beBytes 8 3, zeros 4, zeros 4⟩
  have sa : ga.Sized := ⟨beBytes_length _ _, zeros_length _, zeros_length _, zeros_length _, beBytes_length _ _,
    zeros_length _, zeros_length _⟩
  have sc : gc.Sized := ⟨beBytes_length _ _, zeros_length _, zeros_length _, zeros_length _, beBytes_length _ _,
    zeros_length _, zeros_length _⟩
  obtain ⟨ec, qc, _⟩ := prescribed_certificate_read gc sc .p256 (zeros 32) (zeros 32) (zeros_length _) (zeros_length _)
  obtain ⟨ea, qa, _⟩ := prescribed_certificate_read ga sa .p256 (zeros 32) (zeros 32) (zeros_length _) (zeros_length _)
  obtain ⟨l1, l2, f, full, l3, _⟩ := (ecc_parse_iff _ _).1 qc
  have he : EccFile (gc.certificate (zeros 32) (zeros 32)) := ⟨l1, l2, f, full, l3⟩
  refine ⟨i, ⟨fun s => (.ok (some root), s), fun _ s => (.ok (some ca), s), fun _ s => (.ok (some ea), s)⟩,
    ⟨"ICC", 2, false, zeros 7 ++ [1] ++ zeros 17, none⟩,
    [⟨"Card_Certificate", 0xC100, false, rawC, none⟩,
     ⟨"CardSignCertificate", 0xC101, true, gc.certificate (zeros 32) (zeros 32), none⟩], rfl, rfl, ?_, rfl,
    ⟨rawC, rfl, ?_⟩, ⟨_, rfl, ?_⟩⟩
  · intro q hq
    simp only [List.mem_cons, List.not_mem_nil, or_false] at hq
    rcases hq with rfl | rfl | rfl
    · refine ⟨by decide, .inl ⟨rfl, rfl, ?_, ?_⟩, by simp, by simp [zeros_length], by simp⟩
      · exact ⟨0, by decide, by decide +kernel⟩
      · exact ⟨1, by decide, by decide +kernel⟩
    · exact ⟨by simp [masterFile, driverCardG1], by simp [contentsG1, hc], by simp, by simp [hc], by simp⟩
    · exact ⟨by simp [driverCardG2], by simp [contentsG2, he], by simp, by simp; omega, by simp⟩
  · exact ⟨n, 65537, sampleD, n, 65537, sampleD, root, fa, fc, rawA, ca, (), _, sample_keyPair.1,
      sample_keyPair.2, by decide, sample_keyPair.1, sample_keyPair.2, pr, ia, hn, rfl, ic, rfl, pa, decimal_spec _,
      rfl, rfl⟩
  · exact ⟨ga, gc, .p256, zeros 32, zeros 32, ea, _, sa, sc, ⟨zeros 32, zeros 32, zeros_length _, zeros_length _, rfl, rfl⟩,
      rfl, zeros_length _, zeros_length _, qa, decimal_spec _, rfl⟩

end Tacho
