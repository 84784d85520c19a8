import Verif.Props.Issuing
/-!
# Certificates issued as the regulation prescribes (C81): second generation, and a whole card
-/

namespace Tacho
open Spec

/-! ## The encoding -/

theorem lengthOctets_spec {n : Nat} (h : n < 65536) : LengthOctets (lengthOctets n) n := by
  unfold lengthOctets
  split
  · exact .inl ⟨_, rfl, by simp; omega, by simp; omega⟩
  split
  · refine .inr ⟨_, _, rfl, rfl, by simp, ?_, by simp [beNat]; omega, by omega, by omega⟩
    simp only [List.head?_cons, ne_eq, Option.some.injEq]
    intro e
    have := congrArg UInt8.toNat e
    simp at this; omega
  · refine .inr ⟨_, _, rfl, rfl, by simp, ?_, by simp [beNat]; omega, by omega, by omega⟩
    simp only [List.head?_cons, ne_eq, Option.some.injEq]
    intro e
    have := congrArg UInt8.toNat e
    simp at this; omega

theorem base128_one (b : UInt8) (h : b.toNat < 128) : Base128 [b] b.toNat := by
  refine ⟨⟨[], b, rfl, by simp, h⟩, by simp, ?_, by simp [septets]; omega, by omega⟩
  simp only [List.head?_cons, ne_eq, Option.some.injEq]
  rintro rfl; simp at h

theorem base128_two (a b : UInt8) (v : Nat) (ha : 128 < a.toNat) (hb : b.toNat < 128)
    (hv : (a.toNat - 128) * 128 + b.toNat = v) : Base128 [a, b] v := by
  have := a.toNat_lt
  refine ⟨⟨[a], b, rfl, by simp; omega, hb⟩, by simp, ?_, ?_, by omega⟩
  · simp only [List.head?_cons, ne_eq, Option.some.injEq]
    rintro rfl; simp at ha
  · simp only [septets, List.foldl_cons, List.foldl_nil]; omega

theorem identifier_two (a b : UInt8) (ha : a.toNat % 32 = 31) (hb : b.toNat < 128) (hb' : 31 ≤ b.toNat) :
    Identifier [a, b] := .inr ⟨a, [b], b.toNat, rfl, ha, base128_one b hb, hb'⟩

theorem dataObject_item {tag value : Bytes} (ht : Identifier tag) (hv : value.length < 65536) :
    Item (dataObject tag value) value := ⟨tag, lengthOctets value.length, rfl, ht, lengthOctets_spec hv⟩

theorem dataObject_length (tag value : Bytes) : (dataObject tag value).length =
    tag.length + (if value.length < 128 then 1 else if value.length < 256 then 2 else 3) + value.length := by
  unfold dataObject lengthOctets
  split
  · simp; omega
  split <;> (simp; omega)

/-- The identifiers of the curves, in numbers. -/
theorem oidOctets_spec (k : Curve) : ∃ ids, (ids, k) ∈ curves ∧ OidOctets (oidOctets k) ids := by
  have h1 : ∀ b : UInt8, b.toNat < 128 → Base128 [b] b.toNat := base128_one
  cases k
  · refine ⟨[1, 3, 36, 3, 3, 2, 8, 1, 1, 7], by simp [curves], [0x2B], 43,
      [([0x24], 36), ([3], 3), ([3], 3), ([2], 2), ([8], 8), ([1], 1), ([1], 1), ([7], 7)], rfl, h1 0x2B (by decide), ?_, rfl⟩
    intro p hp
    simp only [List.mem_cons, List.not_mem_nil, or_false] at hp
    rcases hp with rfl | rfl | rfl | rfl | rfl | rfl | rfl | rfl <;> exact h1 _ (by decide)
  · refine ⟨[1, 3, 36, 3, 3, 2, 8, 1, 1, 11], by simp [curves], [0x2B], 43,
      [([0x24], 36), ([3], 3), ([3], 3), ([2], 2), ([8], 8), ([1], 1), ([1], 1), ([11], 11)], rfl, h1 0x2B (by decide), ?_, rfl⟩
    intro p hp
    simp only [List.mem_cons, List.not_mem_nil, or_false] at hp
    rcases hp with rfl | rfl | rfl | rfl | rfl | rfl | rfl | rfl <;> exact h1 _ (by decide)
  · refine ⟨[1, 3, 36, 3, 3, 2, 8, 1, 1, 13], by simp [curves], [0x2B], 43,
      [([0x24], 36), ([3], 3), ([3], 3), ([2], 2), ([8], 8), ([1], 1), ([1], 1), ([13], 13)], rfl, h1 0x2B (by decide), ?_, rfl⟩
    intro p hp
    simp only [List.mem_cons, List.not_mem_nil, or_false] at hp
    rcases hp with rfl | rfl | rfl | rfl | rfl | rfl | rfl | rfl <;> exact h1 _ (by decide)
  · refine ⟨[1, 2, 840, 10045, 3, 1, 7], by simp [curves], [0x2A], 42,
      [([0x86, 0x48], 840), ([0xCE, 0x3D], 10045), ([3], 3), ([1], 1), ([7], 7)], rfl, h1 0x2A (by decide), ?_, rfl⟩
    intro p hp
    simp only [List.mem_cons, List.not_mem_nil, or_false] at hp
    rcases hp with rfl | rfl | rfl | rfl | rfl
    · exact base128_two _ _ _ (by decide) (by decide) (by decide)
    · exact base128_two _ _ _ (by decide) (by decide) (by decide)
    all_goals exact h1 _ (by decide)
  · refine ⟨[1, 3, 132, 0, 34], by simp [curves], [0x2B], 43, [([0x81, 0x04], 132), ([0], 0), ([34], 34)], rfl,
      h1 0x2B (by decide), ?_, rfl⟩
    intro p hp
    simp only [List.mem_cons, List.not_mem_nil, or_false] at hp
    rcases hp with rfl | rfl | rfl
    · exact base128_two _ _ _ (by decide) (by decide) (by decide)
    all_goals exact h1 _ (by decide)
  · refine ⟨[1, 3, 132, 0, 35], by simp [curves], [0x2B], 43, [([0x81, 0x04], 132), ([0], 0), ([35], 35)], rfl,
      h1 0x2B (by decide), ?_, rfl⟩
    intro p hp
    simp only [List.mem_cons, List.not_mem_nil, or_false] at hp
    rcases hp with rfl | rfl | rfl
    · exact base128_two _ _ _ (by decide) (by decide) (by decide)
    all_goals exact h1 _ (by decide)

/-- The size of the body. -/
theorem body_length (f : Content2) (h : f.Sized) :
    f.body.length = match f.curve with
      | .brainpoolP256r1 => 134 | .brainpoolP384r1 => 166 | .brainpoolP512r1 => 200
      | .p256 => 133 | .p384 => 162 | .p521 => 200 := by
  obtain ⟨h1, h2, h3, h4, h5, h6, h7⟩ := h
  unfold Content2.body
  simp only [dataObject_length, List.length_append, List.length_cons, List.length_nil, h1, h2, h3, h4, h5, h6, h7]
  cases f.curve <;> rfl

/-- The size of a certificate for any curve of the subject and any of the issuer. -/
theorem certificate_length (f : Content2) (h : f.Sized) (k : Curve) (r s : Bytes) (hr : r.length = coordinateLength k)
    (hs : s.length = coordinateLength k) :
    204 ≤ (f.certificate r s).length ∧ (f.certificate r s).length ≤ 341 := by
  unfold Content2.certificate
  simp only [dataObject_length, List.length_append, body_length f h, hr, hs, List.length_cons, List.length_nil]
  cases f.curve <;> cases k <;> decide

/-- The values where the parser finds them. -/
def fieldsOf2 (f : Content2) (ids : List Nat) (r s : Bytes) : EccFields :=
  ⟨0, f.car, f.cha, ids, f.x, f.y, f.chr, f.effective, f.expiration, r, s⟩

theorem certificate_layout (f : Content2) (h : f.Sized) (k : Curve) (r s : Bytes) (hr : r.length = coordinateLength k)
    (hs : s.length = coordinateLength k) (ids : List Nat) (hi : OidOctets (oidOctets f.curve) ids) :
    (fieldsOf2 f ids r s).Layout (f.certificate r s) f.body := by
  have hb := body_length f h
  have hbl : f.body.length ≤ 200 := by rw [hb]; cases f.curve <;> decide
  have hc : ∀ k, coordinateLength k ≤ 66 := by intro k; cases k <;> decide
  have hck := hc k
  have hcf := hc f.curve
  have ho : (oidOctets f.curve).length < 10 := by cases f.curve <;> decide
  obtain ⟨h1, h2, h3, h4, h5, h6, h7⟩ := h
  refine ⟨f.certificate r s, dataObject [0x5F, 0x29] [0x00], dataObject [0x42] f.car, dataObject [0x5F, 0x4C] f.cha,
    dataObject [0x7F, 0x49] (dataObject [0x06] (oidOctets f.curve) ++ dataObject [0x86] (0x04 :: f.x ++ f.y)),
    lengthOctets (oidOctets f.curve).length, oidOctets f.curve, dataObject [0x86] (0x04 :: f.x ++ f.y),
    dataObject [0x5F, 0x20] f.chr, dataObject [0x5F, 0x25] f.effective, dataObject [0x5F, 0x24] f.expiration,
    dataObject [0x5F, 0x37] (r ++ s), [], [], [], [], by simp, ?_, ?_, ?_, ?_, h1, ?_, h2, ?_, ?_, hi, ?_, by
      simp only [fieldsOf2]; omega, ?_, h5, ?_, h6, ?_, h7, ?_, by simp only [fieldsOf2]; omega⟩
  · rw [List.append_nil]
    exact dataObject_item (identifier_two _ _ (by decide) (by decide) (by decide)) (by
      rw [List.length_append, dataObject_length, List.length_append, hr, hs]
      simp only [List.length_cons, List.length_nil]
      split <;> (try split) <;> omega)
  · have : f.body = dataObject [0x7F, 0x4E] (dataObject [0x5F, 0x29] [0x00] ++ (dataObject [0x42] f.car ++
        (dataObject [0x5F, 0x4C] f.cha ++ (dataObject [0x7F, 0x49] (dataObject [0x06] (oidOctets f.curve) ++
          dataObject [0x86] (0x04 :: f.x ++ f.y)) ++ (dataObject [0x5F, 0x20] f.chr ++
            (dataObject [0x5F, 0x25] f.effective ++ (dataObject [0x5F, 0x24] f.expiration ++ []))))))) := by
      unfold Content2.body; simp only [List.append_assoc, List.append_nil]
    rw [this]
    refine dataObject_item (identifier_two _ _ (by decide) (by decide) (by decide)) ?_
    have hd := dataObject_length [0x7F, 0x4E] (dataObject [0x5F, 0x29] [0x00] ++ (dataObject [0x42] f.car ++
        (dataObject [0x5F, 0x4C] f.cha ++ (dataObject [0x7F, 0x49] (dataObject [0x06] (oidOctets f.curve) ++
          dataObject [0x86] (0x04 :: f.x ++ f.y)) ++ (dataObject [0x5F, 0x20] f.chr ++
            (dataObject [0x5F, 0x25] f.effective ++ (dataObject [0x5F, 0x24] f.expiration ++ [])))))))
    rw [← this] at hd
    omega
  · exact dataObject_item (identifier_two _ _ (by decide) (by decide) (by decide)) (by simp)
  · exact dataObject_item (.inl ⟨0x42, rfl, by decide⟩) (by omega)
  · exact dataObject_item (identifier_two _ _ (by decide) (by decide) (by decide)) (by omega)
  · have hd : 0x06 :: lengthOctets (oidOctets f.curve).length ++ oidOctets f.curve ++
        (dataObject [0x86] (0x04 :: f.x ++ f.y) ++ []) =
        dataObject [0x06] (oidOctets f.curve) ++ dataObject [0x86] (0x04 :: f.x ++ f.y) := by
      rw [List.append_nil]; rfl
    rw [hd]
    refine dataObject_item (identifier_two _ _ (by decide) (by decide) (by decide)) ?_
    simp only [List.length_append, dataObject_length, List.length_cons, List.length_nil]
    repeat' split
    all_goals omega
  · exact lengthOctets_spec (by omega)
  · exact dataObject_item (.inl ⟨0x86, rfl, by decide⟩) (by simp only [List.length_append, List.length_cons]; omega)
  · exact dataObject_item (identifier_two _ _ (by decide) (by decide) (by decide)) (by omega)
  · exact dataObject_item (identifier_two _ _ (by decide) (by decide) (by decide)) (by omega)
  · exact dataObject_item (identifier_two _ _ (by decide) (by decide) (by decide)) (by omega)
  · exact dataObject_item (identifier_two _ _ (by decide) (by decide) (by decide)) (by
      simp only [List.length_append]; omega)

/-- C81. Every certificate of the prescribed form is read, for each of the six curves of the subject and each of the
six of the issuer, and its content is reported. -/
theorem prescribed_certificate_read (f : Content2) (h : f.Sized) (k : Curve) (r s : Bytes)
    (hr : r.length = coordinateLength k) (hs : s.length = coordinateLength k) :
    ∃ c, unmarshalEcc (f.certificate r s) = .ok c ∧ Reported2 f c ∧ c.signature = some ⟨r, s⟩ ∧
      c.raw = f.certificate r s ∧ c.valid = false := by
  obtain ⟨ids, hm, hi⟩ := oidOctets_spec f.curve
  have hl := certificate_length f h k r s hr hs
  have hlay := certificate_layout f h k r s hr hs ids hi
  refine ⟨{ profile := 0, car := decimal (beNat f.car), cha := f.cha, publicKey := some ⟨oidString ids, f.x, f.y⟩,
            chr := decimal (beNat f.chr), effective := some ⟨beNat f.effective, 0⟩, expiration := some ⟨beNat f.expiration, 0⟩,
            signature := some ⟨r, s⟩, raw := f.certificate r s }, ?_, ?_, rfl, rfl, rfl⟩
  · exact (ecc_parse_iff _ _).mpr ⟨hl.1, hl.2, fieldsOf2 f ids r s, f.body, hlay, rfl, decimal_spec _, rfl,
      ⟨_, oidString_spec _, rfl⟩, decimal_spec _, rfl, rfl, rfl, rfl, rfl⟩
  · exact ⟨rfl, decimal_spec _, rfl, ⟨ids, _, hm, oidString_spec _, rfl⟩, decimal_spec _, rfl, rfl⟩

section
variable [Crypto]

/-- C81, exactly. For two certificates of the prescribed form, the second is accepted with the first as its authority if
and only if ECDSA, on the curve and with the point of the first, accepts the second's signature for the digest of its
body. -/
theorem prescribed_accepted_iff (ca f : Content2) (hca : ca.Sized) (hf : f.Sized) (k kca : Curve) (r s rca sca : Bytes)
    (hr : r.length = coordinateLength k) (hs : s.length = coordinateLength k)
    (hr' : rca.length = coordinateLength kca) (hs' : sca.length = coordinateLength kca) (c cca : EccCert)
    (hp : unmarshalEcc (f.certificate r s) = .ok c) (hpca : unmarshalEcc (ca.certificate rca sca) = .ok cca) (c' : EccCert) :
    verifyEcc (some c) (some cca) = (some c', .ok ()) ↔
      Crypto.ecdsaVerify ca.curve (beNat ca.x) (beNat ca.y) (digest ca.curve f.body) (beNat r) (beNat s) = some true ∧
      c' = { c with valid := true } := by
  obtain ⟨c0, p0, rep, hsig, hraw, _⟩ := prescribed_certificate_read f hf k r s hr hs
  obtain ⟨a0, q0, repA, _, _, _⟩ := prescribed_certificate_read ca hca kca rca sca hr' hs'
  rw [hp] at p0; obtain rfl : c = c0 := by simpa using p0
  rw [hpca] at q0; obtain rfl : cca = a0 := by simpa using q0
  obtain ⟨ids, hm, hi⟩ := oidOctets_spec f.curve
  have hl := certificate_length f hf k r s hr hs
  have hlay := certificate_layout f hf k r s hr hs ids hi
  obtain ⟨idsA, oidA, hmA, hdA, hkA⟩ := repA.2.2.2.1
  have hpos : ∀ k, 0 < coordinateLength k := by intro k; cases k <;> decide
  have hx : ca.x ≠ [] := by
    intro h; have := hca.2.2.1; rw [h] at this; have := hpos ca.curve; simp at *; omega
  have hy : ca.y ≠ [] := by
    intro h; have := hca.2.2.2.1; rw [h] at this; have := hpos ca.curve; simp at *; omega
  rw [ecc_verify_iff, hraw]
  constructor
  · rintro ⟨_, _, key, cv, body, sig, e1, _, _, hn, hb, e2, hv, e3⟩
    rw [hkA] at e1; obtain rfl : _ = key := by simpa using e1
    rw [hsig] at e2; obtain rfl : _ = sig := by simpa using e2
    have hb := (signed_part_of_parsed _ _ _ hlay _).mp hb
    obtain rfl : cv = ca.curve := by
      have h1 := (parseCurve_iff _ _).mpr hn
      have h2 := (parseCurve_iff oidA ca.curve).mpr ⟨idsA, hmA, .inl hdA⟩
      simp only at h1
      rw [h1] at h2; simpa using h2
    rw [hb] at hv
    exact ⟨hv, e3⟩
  · rintro ⟨hv, e3⟩
    exact ⟨hl.1, hl.2, _, ca.curve, f.body, _, hkA, hx, hy, ⟨idsA, hmA, .inl hdA⟩,
      (signed_part_of_parsed _ _ _ hlay _).mpr rfl, hsig, hv, e3⟩

/-- C81. A certificate the holder of a certified key has issued is read and accepted with that key's certificate as the
authority, whoever issued the latter. -/
theorem issued2_accepted (ca f : Content2) (hca : ca.Sized) (hf : f.Sized) (raw : Bytes) (h : Issued2 ca f raw)
    (kca : Curve) (rca sca : Bytes) (hr' : rca.length = coordinateLength kca) (hs' : sca.length = coordinateLength kca) :
    ∃ c cca, unmarshalEcc raw = .ok c ∧ unmarshalEcc (ca.certificate rca sca) = .ok cca ∧ Reported2 f c ∧ Reported2 ca cca ∧
      verifyEcc (some c) (some cca) = (some { c with valid := true }, .ok ()) := by
  obtain ⟨r, s, hr, hs, rfl, hv⟩ := h
  obtain ⟨c, p, rep, _⟩ := prescribed_certificate_read f hf _ r s hr hs
  obtain ⟨a, q, repA, _⟩ := prescribed_certificate_read ca hca kca rca sca hr' hs'
  exact ⟨c, a, p, q, rep, repA, (prescribed_accepted_iff ca f hca hf _ kca r s rca sca hr hs hr' hs' c a p q _).mpr ⟨hv, rfl⟩⟩

/-- C81, the application of the second generation: its certificate was issued by the authority it names, and the
resolver returns the authority's certificate, read from its bytes, for that name. -/
theorem genuine_gen2_application_verified {σ : Type} (ca f : Content2) (hca : ca.Sized) (hf : f.Sized)
    (raw : Bytes) (h : Issued2 ca f raw) (hname : f.car = ca.chr)
    (kca : Curve) (rca sca : Bytes) (hr' : rca.length = coordinateLength kca) (hs' : sca.length = coordinateLength kca)
    (c cca : EccCert) (hp : unmarshalEcc raw = .ok c) (hpca : unmarshalEcc (ca.certificate rca sca) = .ok cca)
    (r : Resolver σ) (s u : σ) (name : Bytes) (hn : IsDecimal name (beNat ca.chr)) (hr : r.ecc name s = (.ok (some cca), u))
    (app : TachographG2) (happ : app.cardSignCertificate = some c) :
    verifyGen2 (some r) app s = ⟨{ app with cardSignCertificate := some { c with valid := true } }, .ok (), u⟩ ∧
      Reported2 f c := by
  obtain ⟨c0, a0, p0, q0, rep, repA, hv⟩ := issued2_accepted ca f hca hf raw h kca rca sca hr' hs'
  rw [hp] at p0; obtain rfl : c = c0 := by simpa using p0
  rw [hpca] at q0; obtain rfl : cca = a0 := by simpa using q0
  refine ⟨(gen2_verified_iff _ _ _ _ _).mpr ⟨c, cca, _, happ, ?_, (ecc_verify_iff _ _ _).mp hv, rfl⟩, rep⟩
  rw [← hr]
  have := rep.2.1
  rw [hname] at this
  rw [isDecimal_iff.mp this, isDecimal_iff.mp hn]

/-- C81, a whole card. When each of the applications the card has carries a certificate that was issued as prescribed, and
the resolver knows the authorities, verifying the card succeeds, marks the certificates and changes nothing else. -/
theorem genuine_card_verified {σ : Type} (r : Resolver σ) (card : DriverCard) (s t u : σ)
    (h1 : ∀ app, card.tachograph = some app → GenuineGen1 r app s t) (h1' : card.tachograph = none → t = s)
    (h2 : ∀ app, card.tachographG2 = some app → GenuineGen2 r app t u) (h2' : card.tachographG2 = none → u = t) :
    ∃ card', verifyDriverCard (some r) (some card) s = ⟨some card', .ok (), u⟩ ∧
      (∀ app, card.tachograph = some app → ∃ cert', card'.tachograph = some { app with cardCertificate := some cert' } ∧
        cert'.valid = true) ∧
      (∀ app, card.tachographG2 = some app → ∃ cert', card'.tachographG2 = some { app with cardSignCertificate := some cert' } ∧
        cert'.valid = true) ∧
      (card.tachograph = none → card'.tachograph = none) ∧ (card.tachographG2 = none → card'.tachographG2 = none) ∧
      card'.icc = card.icc ∧ card'.ic = card.ic := by
  have g1 : ∃ t', IfPresent (Gen1Verified r) card.tachograph t' s t ∧ (card.tachograph = none → t' = none) ∧
      (∀ app, card.tachograph = some app → ∃ cert', t' = some { app with cardCertificate := some cert' } ∧ cert'.valid = true) := by
    cases hc : card.tachograph with
    | none => exact ⟨none, .inl ⟨rfl, rfl, h1' hc⟩, fun _ => rfl, fun _ h => by simp at h⟩
    | some app =>
      obtain ⟨rawC, cert, ⟨n0, e0, d0, n1, e1, d1, root, fa, fc, rawA, ca, t0, name, k0, z0, x0, k1, z1, pr, ia, km, ke, ic,
        hn, pa, hd, q1, q2⟩, pc, ha⟩ := h1 app hc
      obtain ⟨cert', hv, hu, _⟩ := genuine_gen1_application_verified k0 z0 k1 z1 _ root pr fa fc rawA rawC ia ic rfl x0 km ke hn
        ca cert pa pc r s t0 t name hd q1 q2 app ha
      refine ⟨some { app with cardCertificate := some cert' }, .inr ⟨_, _, rfl, rfl, (gen1_verified_iff _ _ _ _ _).mp hv⟩,
        by simp, ?_⟩
      rintro a e
      obtain rfl : app = a := by simpa using e
      exact ⟨cert', rfl, hu.2.2.2.2.2⟩
  have g2 : ∃ t', IfPresent (Gen2Verified r) card.tachographG2 t' t u ∧ (card.tachographG2 = none → t' = none) ∧
      (∀ app, card.tachographG2 = some app → ∃ cert', t' = some { app with cardSignCertificate := some cert' } ∧ cert'.valid = true) := by
    cases hc : card.tachographG2 with
    | none => exact ⟨none, .inl ⟨rfl, rfl, h2' hc⟩, fun _ => rfl, fun _ h => by simp at h⟩
    | some app =>
      obtain ⟨raw, c, ⟨ca, f, k, rca, sca, cca, name, z1, z2, hi, hn, l1, l2, p2, hd, q⟩, p1, ha⟩ := h2 app hc
      obtain ⟨hv, _⟩ := genuine_gen2_application_verified ca f z1 z2 raw hi hn k rca sca l1 l2 c cca p1 p2 r t u name hd q app ha
      refine ⟨_, .inr ⟨_, _, rfl, rfl, (gen2_verified_iff _ _ _ _ _).mp hv⟩, by simp, ?_⟩
      rintro a e
      obtain rfl : app = a := by simpa using e
      exact ⟨_, rfl, rfl⟩
  obtain ⟨t1, i1, n1, m1⟩ := g1
  obtain ⟨t2, i2, n2, m2⟩ := g2
  exact ⟨{ card with tachograph := t1, tachographG2 := t2 }, (driver_card_verified_iff _ _ _ _ _).mpr ⟨t, i1, i2, rfl, rfl⟩,
    m1, m2, n1, n2, rfl, rfl⟩

end

/-- A card with an application of each generation that meets the hypotheses, for an ECDSA that accepts: an authority on
the largest curve and a card on the smallest. -/
example : ∃ (_ : Crypto) (r : Resolver Unit) (card : DriverCard) (a1 : Tachograph) (a2 : TachographG2),
    card.tachograph = some a1 ∧ card.tachographG2 = some a2 ∧ GenuineGen1 r a1 () () ∧ GenuineGen2 r a2 () () := by
  letI i : Crypto := ⟨fun _ => zeros 20, fun _ => by simp [zeros_length], fun _ => [], fun _ => [], fun _ => [],
    fun _ _ _ _ _ _ => some true⟩
  let n := sampleP * sampleQ
  let fa : Content := ⟨1, beBytes 8 5, zeros 7, beBytes 4 1700000000, beBytes 8 6, beBytes 128 n, beBytes 8 65537⟩
  let fc : Content := ⟨1, beBytes 8 6, zeros 7, beBytes 4 1700000000, beBytes 8 7, beBytes 128 n, beBytes 8 65537⟩
  have la : fa.Layout _ := ⟨rfl, beBytes_length _ _, zeros_length _, beBytes_length _ _, beBytes_length _ _,
    beBytes_length _ _, beBytes_length _ _⟩
  have lc : fc.Layout _ := ⟨rfl, beBytes_length _ _, zeros_length _, beBytes_length _ _, beBytes_length _ _,
    beBytes_length _ _, beBytes_length _ _⟩
  obtain ⟨rawA, ia, ha⟩ := can_issue sampleD sample_keyPair.2 fa _ la
  obtain ⟨rawC, ic, hc⟩ := can_issue sampleD sample_keyPair.2 fc _ lc
  obtain ⟨ca, pa⟩ := (rsa_parse_total rawA).1 ha
  obtain ⟨cert, pc⟩ := (rsa_parse_total rawC).1 hc
  obtain ⟨root, pr⟩ := (root_parse_total (fa.car ++ beBytes 128 n ++ beBytes 8 65537)).1 (by simp [fa])
  have hn : beNat fa.modulus = n := beNat_beBytes_of_lt (Nat.lt_of_lt_of_eq sample_keyPair.2.2 (by decide +kernel))
  let ga : Content2 := ⟨beBytes 8 1, zeros 7, .p521, zeros 66, zeros 66, beBytes 8 2, zeros 4, zeros 4⟩
  let gc : Content2 := ⟨beBytes 8 2, zeros 7, .p256, zeros 32, zeros 32, beBytes 8 3, zeros 4, zeros 4⟩
  have sa : ga.Sized := ⟨beBytes_length _ _, zeros_length _, zeros_length _, zeros_length _, beBytes_length _ _,
    zeros_length _, zeros_length _⟩
  have sc : gc.Sized := ⟨beBytes_length _ _, zeros_length _, zeros_length _, zeros_length _, beBytes_length _ _,
    zeros_length _, zeros_length _⟩
  obtain ⟨ec, qc, _⟩ := prescribed_certificate_read gc sc .p521 (zeros 66) (zeros 66) (zeros_length _) (zeros_length _)
  obtain ⟨ea, qa, _⟩ := prescribed_certificate_read ga sa .p521 (zeros 66) (zeros 66) (zeros_length _) (zeros_length _)
  refine ⟨i, ⟨fun s => (.ok (some root), s), fun _ s => (.ok (some ca), s), fun _ s => (.ok (some ea), s)⟩,
    { tachograph := some { cardCertificate := some cert }, tachographG2 := some { cardSignCertificate := some ec } },
    { cardCertificate := some cert }, { cardSignCertificate := some ec }, rfl, rfl, ?_, ?_⟩
  · exact ⟨rawC, cert, ⟨n, 65537, sampleD, n, 65537, sampleD, root, fa, fc, rawA, ca, (), _, sample_keyPair.1,
      sample_keyPair.2, by decide, sample_keyPair.1, sample_keyPair.2, pr, ia, hn, rfl, ic, rfl, pa, decimal_spec _,
      rfl, rfl⟩, pc, rfl⟩
  · exact ⟨_, ec, ⟨ga, gc, .p521, zeros 66, zeros 66, ea, _, sa, sc, ⟨zeros 66, zeros 66, zeros_length _, zeros_length _, rfl, rfl⟩,
      rfl, zeros_length _, zeros_length _, qa, decimal_spec _, rfl⟩, qc, rfl⟩

end Tacho
