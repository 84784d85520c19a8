import Verif.Lemmas.RsaMath
import Verif.Props.Verify
/-!
# Certificates issued as the regulation prescribes (C81): first generation
-/

namespace Tacho
open Spec

variable [Crypto]

omit [Crypto] in
theorem layout_length {f : Content} {c : Bytes} (h : f.Layout c) : c.length = 164 := by
  obtain ⟨rfl, h1, h2, h3, h4, h5, h6⟩ := h
  simp only [List.length_append, List.length_cons, List.length_nil]; omega

omit [Crypto] in
theorem content_split {k : Bytes} (hk : k.length = 164) : Content.Layout
    ⟨k.getD 0 0, sl k 1 9, sl k 9 16, sl k 16 20, sl k 20 28, sl k 28 156, sl k 156 164⟩ k := by
  refine ⟨?_, ?_⟩
  · have e0 : [k.getD 0 0] = sl k 0 1 := by
      rw [sl_eq_singleton (by omega : 0 < k.length)]
      simp [List.getD_eq_getElem?_getD, List.getElem?_eq_getElem (by omega : 0 < k.length)]
    dsimp only
    rw [e0]
    conv => lhs; rw [← List.take_length (l := k), hk, take_eq_sl]
    rw [sl_append, sl_append, sl_append, sl_append, sl_append, sl_append] <;> omega
  · dsimp only
    refine ⟨?_, ?_, ?_, ?_, ?_, ?_⟩ <;> (rw [sl_length_of] <;> omega)

theorem signedMessage_length {content : Bytes} (h : content.length = 164) :
    ([0x6A] ++ content.take 106 ++ Crypto.sha1 content ++ [0xBC] : Bytes).length = 128 := by
  simp [h, Crypto.sha1_length]

/-- The message starts with '6A', so it is smaller than every number of 1024 bits. -/
theorem signedMessage_lt {content : Bytes} (h : content.length = 164) {n : Nat} (hn : Size1024 n) :
    signedMessage content < n := by
  refine Nat.lt_of_lt_of_le ?_ hn.1
  unfold signedMessage
  rw [List.append_assoc, List.append_assoc, beNat_append]
  have hl : (content.take 106 ++ (Crypto.sha1 content ++ [0xBC]) : Bytes).length = 127 := by
    simp [h, Crypto.sha1_length]
  have := beNat_lt (content.take 106 ++ (Crypto.sha1 content ++ [0xBC]))
  rw [hl] at this ⊢
  have h6 : beNat [0x6A] = 106 := rfl
  rw [h6]
  have e : (256 : Nat) ^ 127 = 2 ^ 1016 := by decide +kernel
  have e2 : (2 : Nat) ^ 1023 = 128 * 2 ^ 1016 := by decide +kernel
  rw [e] at this ⊢
  rw [e2]
  omega

/-- What it means for a signature to open to a content, said with the private exponent: modulo the modulus it is the
private operation on the message. -/
theorem iso_iff {n e d : Nat} (hk : KeyPair n e d) (hn : Size1024 n) (raw content car : Bytes) :
    Iso9796 n e raw content car ↔ ∃ sign, raw = sign ++ content.drop 106 ++ car ∧ sign.length = 128 ∧
      content.length = 164 ∧ car.length = 8 ∧ beNat sign % n = signedMessage content ^ d % n := by
  constructor
  · rintro ⟨sig, cr, cn, rfl, h1, h2, h3, rfl, h4, hv⟩
    have hl : (cr ++ cn).length = 164 := by simp; omega
    have hm := signedMessage_lt hl hn
    have ht : (cr ++ cn).take 106 = cr := by rw [← h4, List.take_left]
    refine ⟨sig, by rw [← h4, List.drop_left], h1, hl, h3, ?_⟩
    rw [← keyPair_open_iff hk _ _ hm, hv, signedMessage, ht]
  · rintro ⟨sig, rfl, h1, h2, h3, hv⟩
    have hm := signedMessage_lt h2 hn
    refine ⟨sig, content.take 106, content.drop 106, rfl, h1, by simp; omega, h3, by simp, by simp; omega, ?_⟩
    exact (keyPair_open_iff hk _ _ hm).mpr hv

/-- C81. A certificate issued by the holder of a key pair of 1024 bits is accepted by the library when it is checked
with the public key of the pair and the name the certificate gives for its authority; and then the library reports the
content that was certified. -/
theorem issued_certificate_accepted {n e d : Nat} (hk : KeyPair n e d) (hn : Size1024 n) (f : Content) (raw : Bytes)
    (h : Issued n d f raw) (ca : RsaCert) (hm : beNat ca.modulus = n) (he : beNat ca.exponent = e)
    (hc : IsDecimal ca.chr (beNat f.car)) :
    ∃ c c', unmarshalRsa raw = .ok c ∧ IsDecimal c.car (beNat f.car) ∧
      verifyRsaWithCA (some c) (some ca) = (some c', .ok ()) ∧ Unwrapped f c' ∧ c'.raw = raw := by
  obtain ⟨content, sign, hf, hr, hs, hv⟩ := h
  have hl := layout_length hf
  have hcar : f.car.length = 8 := hf.2.1
  refine ⟨{ car := decimal (beNat f.car), raw := raw }, { raw := raw, valid := true, chr := decimal (beNat f.chr), car := decimal (beNat f.car), endOfValidity := some ⟨beNat f.eov, 0⟩, modulus := f.modulus, exponent := f.exponent }, ?_, decimal_spec _, ?_, ?_⟩
  rotate_left
  · refine (rsa_verify_ca_iff _ _ ca).mpr ⟨?_, ?_, content, f.car, f, ?_, hc, hf, rfl⟩
    · rintro h0
      rw [h0] at hm
      have := hn.1
      rw [← hm] at this
      exact absurd this (by decide +kernel)
    · rintro h0
      rw [h0] at he
      have := keyPair_pos hk
      rw [← he] at this
      simp [beNat] at this
    · rw [hm, he]
      refine (iso_iff hk hn _ _ _).mpr ⟨sign, hr, hs, hl, hcar, ?_⟩
      rw [hv, Nat.mod_mod]
  · exact ⟨⟨decimal_spec _, decimal_spec _, rfl, rfl, rfl, rfl⟩, rfl⟩
  · refine (rsa_parse_iff _ _).mpr ⟨sign ++ content.drop 106, f.car, hr, by simp; omega, hcar, decimal_spec _, rfl⟩

/-- The same for a certificate issued by the root authority, with the root's key as the library reads it from the
root's file. -/
theorem root_issued_certificate_accepted {n e d : Nat} (hk : KeyPair n e d) (hn : Size1024 n) (f : Content) (raw : Bytes)
    (h : Issued n d f raw) (root : RootCert) (hm : beNat root.modulus = n) (he : beNat root.exponent = e)
    (hc : IsDecimal root.keyId (beNat f.car)) :
    ∃ c c', unmarshalRsa raw = .ok c ∧ IsDecimal c.car (beNat f.car) ∧
      verifyRsaWithRoot (some c) (some root) = (some c', .ok ()) ∧ Unwrapped f c' ∧ c'.raw = raw := by
  obtain ⟨c, c', h1, h2, h3, h4⟩ := issued_certificate_accepted hk hn f raw h
    { modulus := root.modulus, exponent := root.exponent, chr := root.keyId } hm he hc
  exact ⟨c, c', h1, h2, (rsa_verify_root_iff _ _ _).mpr ((rsa_verify_ca_iff _ _ _).mp h3), h4⟩

/-- C81, the exact set: with the public key of a pair of 1024 bits the library accepts a certificate if and only if the
certificate names the authority and its first 128 bytes are, modulo the modulus, what the private key makes of the
message for some content that ends in the 58 bytes that follow. -/
theorem accepted_iff_private {n e d : Nat} (hk : KeyPair n e d) (hn : Size1024 n) (c ca : RsaCert)
    (hm : beNat ca.modulus = n) (he : beNat ca.exponent = e) :
    (verifyRsaWithCA (some c) (some ca)).2 = .ok () ↔ ∃ content car sign,
      c.raw = sign ++ content.drop 106 ++ car ∧ sign.length = 128 ∧ content.length = 164 ∧ car.length = 8 ∧
      IsDecimal ca.chr (beNat car) ∧ beNat sign % n = signedMessage content ^ d % n := by
  have hm0 : ca.modulus ≠ [] := by
    rintro h0
    rw [h0] at hm
    have := hn.1
    rw [← hm] at this
    exact absurd this (by decide +kernel)
  have he0 : ca.exponent ≠ [] := by
    rintro h0
    rw [h0] at he
    have := keyPair_pos hk
    rw [← he] at this
    simp [beNat] at this
  constructor
  · intro h
    have h1 : ∃ c', (verifyRsaWithCA (some c) (some ca)).1 = some c' := ⟨_, rfl⟩
    obtain ⟨c', h1⟩ := h1
    obtain ⟨_, _, content, car, f, hi, hd, _⟩ := (rsa_verify_ca_iff c c' ca).mp (Prod.ext h1 h)
    rw [hm, he] at hi
    obtain ⟨sign, e1, e2, e3, e4, e5⟩ := (iso_iff hk hn _ _ _).mp hi
    exact ⟨content, car, sign, e1, e2, e3, e4, hd, e5⟩
  · rintro ⟨content, car, sign, e1, e2, e3, e4, hd, e5⟩
    have hi := (iso_iff hk hn c.raw content car).mpr ⟨sign, e1, e2, e3, e4, e5⟩
    rw [← hm, ← he] at hi
    have := (rsa_verify_ca_iff c _ ca).mpr ⟨hm0, he0, content, car,
      ⟨content.getD 0 0, sl content 1 9, sl content 9 16, sl content 16 20, sl content 20 28,
        sl content 28 156, sl content 156 164⟩, hi, hd, content_split e3, rfl⟩
    rw [this]

omit [Crypto] in
/-- The eight bytes a name stands for. -/
theorem isDecimal_bytes_inj {s : Bytes} {a b : Bytes} (h : IsDecimal s (beNat a)) (h' : IsDecimal s (beNat b))
    (ha : a.length = 8) (hb : b.length = 8) : a = b := by
  have := decimal_inj ((isDecimal_iff.mp h).symm.trans (isDecimal_iff.mp h'))
  rw [← beBytes_beNat' ha, ← beBytes_beNat' hb, this]

/-- Every content can be certified with every key. -/
theorem can_issue {n : Nat} (d : Nat) (hn : Size1024 n) (f : Content) (content : Bytes) (hf : f.Layout content) :
    ∃ raw, Issued n d f raw ∧ raw.length = 194 := by
  have hlt : signedMessage content ^ d % n < 256 ^ 128 := by
    have e : (256 : Nat) ^ 128 = 2 ^ 1024 := by decide +kernel
    rw [e]
    have := hn.2
    exact Nat.lt_trans (Nat.mod_lt _ (Nat.lt_of_lt_of_le (by decide +kernel) hn.1)) this
  have hl := layout_length hf
  refine ⟨_, ⟨content, beBytes 128 (signedMessage content ^ d % n), hf, rfl, beBytes_length _ _, ?_⟩, ?_⟩
  · rw [beNat_beBytes_of_lt hlt]
  · have := hf.2.1
    simp; omega

/-- C81, the chain of the first generation. The root's key is in a file of 144 bytes; the root has issued the
certificate of a member state authority, which names the root; the authority has issued the certificate of the card,
which names the authority. With a resolver that returns the authority's certificate for its name, read from its bytes,
and the root, read from its file, the application of the card is verified, and its certificate is reported with the
certified content. -/
theorem genuine_gen1_application_verified {σ : Type} {n0 e0 d0 n1 e1 d1 : Nat}
    (h0 : KeyPair n0 e0 d0) (s0 : Size1024 n0) (h1 : KeyPair n1 e1 d1) (s1 : Size1024 n1)
    (rootFile : Bytes) (root : RootCert) (hroot : unmarshalRoot rootFile = .ok root)
    (fa fc : Content) (rawA rawC : Bytes) (ha : Issued n0 d0 fa rawA) (hc : Issued n1 d1 fc rawC)
    (hkey : rootFile = fa.car ++ beBytes 128 n0 ++ beBytes 8 e0) (he0 : e0 < 256 ^ 8)
    (hkm : beNat fa.modulus = n1) (hke : beNat fa.exponent = e1) (hname : fc.car = fa.chr)
    (ca cert : RsaCert) (pa : unmarshalRsa rawA = .ok ca) (pc : unmarshalRsa rawC = .ok cert)
    (r : Resolver σ) (s t u : σ) (name : Bytes) (hn : IsDecimal name (beNat fa.chr))
    (hr : r.rsa name s = (.ok (some ca), t)) (hrr : r.root t = (.ok (some root), u))
    (app : Tachograph) (happ : app.cardCertificate = some cert) :
    ∃ cert', verifyGen1 (some r) app s = ⟨{ app with cardCertificate := some cert' }, .ok (), u⟩ ∧
      Unwrapped fc cert' ∧ cert'.raw = rawC := by
  have hcar : fa.car.length = 8 := by obtain ⟨_, _, hf, _⟩ := ha; exact hf.2.1
  obtain ⟨key, hk, k1, k2, k3, k4⟩ := (root_parse_iff _ _).mp hroot
  rw [hk, append_eq_iff (by simp; omega), append_eq_iff (by omega)] at hkey
  obtain ⟨⟨rfl, km⟩, ke⟩ := hkey
  have m0 : beNat root.modulus = n0 := by
    rw [km, beNat_beBytes_of_lt]
    exact Nat.lt_of_lt_of_eq s0.2 (by decide +kernel)
  have x0 : beNat root.exponent = e0 := by rw [ke, beNat_beBytes_of_lt he0]
  obtain ⟨ca1, ca', pa1, na, va, ua, ra⟩ := root_issued_certificate_accepted h0 s0 fa rawA ha root m0 x0 k4
  obtain rfl : ca = ca1 := by rw [pa] at pa1; simpa using pa1
  obtain ⟨u1, u2, u3, u4, u5, u6⟩ := ua
  obtain ⟨cert1, cert', pc1, nc, vc, uc, rc⟩ := issued_certificate_accepted h1 s1 fc rawC hc ca' (by rw [u4]; exact hkm)
    (by rw [u5]; exact hke) (by rw [hname]; exact u1)
  obtain rfl : cert = cert1 := by rw [pc] at pc1; simpa using pc1
  refine ⟨cert', (gen1_verified_iff _ _ _ _ _).mpr ⟨cert, ca', cert', happ, .inr ⟨ca, t, root, ?_, ?_, hrr,
    (rsa_verify_root_iff _ _ _).mp va⟩, (rsa_verify_ca_iff _ _ _).mp vc, rfl⟩, uc, rc⟩
  · rw [← hr]
    congr 1
    rw [hname] at nc
    rw [isDecimal_iff.mp nc, isDecimal_iff.mp hn]
  · have := (rsa_parse_iff _ _).mp pa
    obtain ⟨_, _, _, _, _, _, e⟩ := this
    rw [e]
    rintro ⟨h, _⟩
    exact h rfl

/-- Finding: a certificate is not fixed by its content and its key. When the signature's number plus the modulus still
fits in 128 bytes, the certificate with that sum in place of the signature is a different one that is accepted too, with
the same content. -/
theorem signature_not_unique {n e d : Nat} (hk : KeyPair n e d) (hn : Size1024 n) (f : Content) (content sign : Bytes)
    (hf : f.Layout content) (hs : sign.length = 128) (hv : beNat sign = signedMessage content ^ d % n)
    (hfit : beNat sign + n < 2 ^ 1024) (ca : RsaCert) (hm : beNat ca.modulus = n) (he : beNat ca.exponent = e)
    (hc : IsDecimal ca.chr (beNat f.car)) :
    ∃ raw', raw' ≠ sign ++ content.drop 106 ++ f.car ∧ ∃ c c', unmarshalRsa raw' = .ok c ∧
      verifyRsaWithCA (some c) (some ca) = (some c', .ok ()) ∧ Unwrapped f c' := by
  have hl := layout_length hf
  have hcar : f.car.length = 8 := hf.2.1
  have e1024 : (256 : Nat) ^ 128 = 2 ^ 1024 := by decide +kernel
  have hpos : 0 < n := Nat.lt_of_lt_of_le (by decide +kernel) hn.1
  have hb : beNat (beBytes 128 (beNat sign + n)) = beNat sign + n := beNat_beBytes_of_lt (by rw [e1024]; exact hfit)
  have hm0 : ca.modulus ≠ [] := by
    rintro h0
    rw [h0] at hm
    simp [beNat] at hm; omega
  have he0 : ca.exponent ≠ [] := by
    rintro h0
    rw [h0] at he
    have := keyPair_pos hk
    rw [← he] at this
    simp [beNat] at this
  refine ⟨beBytes 128 (beNat sign + n) ++ content.drop 106 ++ f.car, ?_,
    { car := decimal (beNat f.car), raw := beBytes 128 (beNat sign + n) ++ content.drop 106 ++ f.car }, { raw := beBytes 128 (beNat sign + n) ++ content.drop 106 ++ f.car, valid := true, chr := decimal (beNat f.chr), car := decimal (beNat f.car), endOfValidity := some ⟨beNat f.eov, 0⟩, modulus := f.modulus, exponent := f.exponent }, ?_, ?_, ?_⟩
  · intro h
    rw [append_eq_iff (by simp; omega), append_eq_iff (by simp; omega)] at h
    have := congrArg beNat h.1.1
    rw [hb] at this
    omega
  · exact (rsa_parse_iff _ _).mpr ⟨beBytes 128 (beNat sign + n) ++ content.drop 106, f.car, rfl, by simp; omega, hcar,
      decimal_spec _, rfl⟩
  · refine (rsa_verify_ca_iff _ _ ca).mpr ⟨hm0, he0, content, f.car, f, ?_, hc, hf, rfl⟩
    rw [hm, he]
    refine (iso_iff hk hn _ _ _).mpr ⟨_, rfl, beBytes_length _ _, hl, hcar, ?_⟩
    rw [hb, Nat.add_mod_right, hv, Nat.mod_mod]
  · exact ⟨decimal_spec _, decimal_spec _, rfl, rfl, rfl, rfl⟩

/-! ## The theorems are about something -/

/-- Whatever SHA-1 is: with the sample key pair for both authorities there are a root file and two certificates as the
chain theorem asks for, and a card application that is verified with them. -/
example : ∃ (r : Resolver Unit) (app app' : Tachograph) (rawC : Bytes) (cert : RsaCert),
    unmarshalRsa rawC = .ok cert ∧ app.cardCertificate = some cert ∧
    verifyGen1 (some r) app () = ⟨app', .ok (), ()⟩ ∧
    (app'.cardCertificate.map RsaCert.valid) = some true := by
  let n := sampleP * sampleQ
  let fa : Content := ⟨1, beBytes 8 5, zeros 7, beBytes 4 1700000000, beBytes 8 6, beBytes 128 n, beBytes 8 65537⟩
  let fc : Content := ⟨1, beBytes 8 6, zeros 7, beBytes 4 1700000000, beBytes 8 7, beBytes 128 n, beBytes 8 65537⟩
  have la : fa.Layout _ := ⟨rfl, beBytes_length _ _, zeros_length _, beBytes_length _ _, beBytes_length _ _,
    beBytes_length _ _, beBytes_length _ _⟩
  have lc : fc.Layout _ := ⟨rfl, beBytes_length _ _, zeros_length _, beBytes_length _ _, beBytes_length _ _,
    beBytes_length _ _, beBytes_length _ _⟩
  obtain ⟨rawA, ia, ha⟩ := can_issue sampleD sample_keyPair.2 fa _ la
  obtain ⟨rawC, ic, hc⟩ := can_issue sampleD sample_keyPair.2 fc _ lc
  obtain ⟨ca, pa⟩ := (rsa_parse_total rawA).1 ha
  obtain ⟨cert, pc⟩ := (rsa_parse_total rawC).1 hc
  obtain ⟨root, pr⟩ := (root_parse_total (fa.car ++ beBytes 128 n ++ beBytes 8 65537)).1 (by simp [fa])
  have hn : beNat fa.modulus = n := beNat_beBytes_of_lt (Nat.lt_of_lt_of_eq sample_keyPair.2.2 (by decide +kernel))
  obtain ⟨cert', hv, hu, _⟩ := genuine_gen1_application_verified sample_keyPair.1 sample_keyPair.2 sample_keyPair.1
    sample_keyPair.2 _ root pr fa fc rawA rawC ia ic rfl (by decide) hn rfl rfl ca cert pa pc
    ⟨fun s => (.ok (some root), s), fun _ s => (.ok (some ca), s), fun _ s => (.err "", s)⟩ () () () _ (decimal_spec _)
    rfl rfl { cardCertificate := some cert } rfl
  exact ⟨_, _, _, rawC, cert, pc, rfl, hv, by simp [hu.2.2.2.2.2]⟩

omit [Crypto] in
/-- A signature that has a second form, for the sample key and a hash that is always zero. -/
example : ∃ (_ : Crypto) (f : Content) (content sign : Bytes), f.Layout content ∧ sign.length = 128 ∧
    beNat sign = signedMessage content ^ sampleD % (sampleP * sampleQ) ∧ beNat sign + sampleP * sampleQ < 2 ^ 1024 := by
  letI i : Crypto := ⟨fun _ => zeros 20, fun _ => by simp [zeros_length], fun _ => [], fun _ => [], fun _ => [],
    fun _ _ _ _ _ _ => some true⟩
  have hlt : ∀ x, x % (sampleP * sampleQ) < 256 ^ 128 := fun x =>
    Nat.lt_trans (Nat.mod_lt _ (by decide +kernel)) (Nat.lt_of_lt_of_eq sample_keyPair.2.2 (by decide +kernel))
  refine ⟨i, ⟨0, zeros 8, zeros 7, zeros 4, zeros 8, zeros 128, zeros 8⟩, zeros 164,
    beBytes 128 (signedMessage (zeros 164) ^ sampleD % (sampleP * sampleQ)), ⟨by decide +kernel, zeros_length _,
      zeros_length _, zeros_length _, zeros_length _, zeros_length _, zeros_length _⟩, beBytes_length _ _, ?_, ?_⟩
  · rw [beNat_beBytes_of_lt (hlt _)]
  · rw [beNat_beBytes_of_lt (hlt _)]
    have h1 : signedMessage (zeros 164) = 0x6A * 256 ^ 127 + 0xBC := by
      show beNat _ = _
      decide +kernel
    rw [h1, ← (fastPow_spec (sampleP * sampleQ) (0x6A * 256 ^ 127 + 0xBC) sampleD (by decide +kernel))]
    decide +kernel

end Tacho
