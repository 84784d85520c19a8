import Verif.Lemmas.Calendar
import Verif.Props.Certificates
import Verif.Props.EccCertificates
import Verif.Props.Resolvers
/-!
# The certificate index tool reads certificates as the library does (C57)
-/

namespace Tacho
open Spec

/-! ## The root key -/

/-- C57: the tool and the library read the same key from the same root files; the tool also refuses a
zero modulus or exponent. -/
theorem fetch_root_iff (d : Bytes) (n e : Nat) :
    fetchERCA d = .ok (n, e) ↔ ∃ c, unmarshalRoot d = .ok c ∧ beNat c.modulus = n ∧ beNat c.exponent = e ∧
      n ≠ 0 ∧ e ≠ 0 := by
  unfold fetchERCA unmarshalRoot
  simp only [Res.pure_eq, guard_eq_ok, bind_eq_ok, Res.ok.injEq, sl?_iff, Prod.mk.injEq, not_or]
  constructor
  · rintro ⟨hl, _, ⟨_, _, rfl⟩, _, ⟨_, _, rfl⟩, ⟨h1, h2⟩, rfl, rfl⟩
    exact ⟨_, ⟨hl, _, ⟨by omega, by omega, rfl⟩, _, ⟨by omega, by omega, rfl⟩, _, ⟨by omega, by omega, rfl⟩, rfl⟩,
      rfl, rfl, h1, h2⟩
  · rintro ⟨c, ⟨hl, _, ⟨_, _, rfl⟩, _, ⟨_, _, rfl⟩, _, ⟨_, _, rfl⟩, rfl⟩, rfl, rfl, h1, h2⟩
    exact ⟨hl, _, ⟨by omega, by omega, rfl⟩, _, ⟨by omega, by omega, rfl⟩, ⟨h1, h2⟩, rfl, rfl⟩

/-- The root entry carries the key identifier the library reports, as both references. -/
theorem root_entry_reference (d : Bytes) (c : RootCert) (h : unmarshalRoot d = .ok c) :
    (rootEntry d).chr = c.keyId ∧ (rootEntry d).car = c.keyId := by
  unfold unmarshalRoot at h
  simp only [Res.pure_eq, guard_eq_ok, bind_eq_ok, Res.ok.injEq, sl?_iff] at h
  obtain ⟨hl, _, ⟨_, _, rfl⟩, _, ⟨_, _, rfl⟩, _, ⟨_, _, rfl⟩, rfl⟩ := h
  have hl : d.length = 144 := by omega
  simp [rootEntry, hl, take_eq_sl]

/-! ## First generation certificates -/

/-- The authority reference the tool indexes is the one the library's parser reports. -/
theorem fetch_gen1_car_iff (d : Bytes) (k : Nat) :
    fetchGen1CAR d = .ok k ↔ ∃ body car, d = body ++ car ∧ body.length = 186 ∧ car.length = 8 ∧ beNat car = k := by
  unfold fetchGen1CAR
  simp only [Res.pure_eq, guard_eq_ok, bind_eq_ok, Res.ok.injEq, sl?_iff]
  constructor
  · rintro ⟨hl, _, ⟨_, _, rfl⟩, rfl⟩
    have hl : d.length = 194 := by omega
    refine ⟨d.take 186, sl d 186 194, ?_, by simp; omega, by rw [sl_length_of] <;> omega, rfl⟩
    conv => lhs; rw [← List.take_length (l := d), hl, take_eq_sl]
    rw [take_eq_sl, sl_append] <;> omega
  · rintro ⟨b, r, rfl, hb, hr, rfl⟩
    have hs : sl (b ++ r) 186 194 = r := by
      unfold sl; rw [List.take_of_length_le (by simp; omega), ← hb, List.drop_left]
    exact ⟨by simp; omega, _, ⟨by omega, by simp; omega, rfl⟩, by rw [hs]⟩

theorem fetch_gen1_car_agrees (d : Bytes) (c : RsaCert) (h : unmarshalRsa d = .ok c) :
    ∃ k, fetchGen1CAR d = .ok k ∧ c.car = decimal k := by
  obtain ⟨b, r, rfl, hb, hr, hd, _⟩ := (rsa_parse_iff d c).mp h
  exact ⟨beNat r, (fetch_gen1_car_iff _ _).mpr ⟨b, r, rfl, hb, hr, rfl⟩, isDecimal_iff.mp hd⟩

section
variable [Crypto]

theorem rsaRecovered_ok_tests (cert : RsaCert) (sr : Bytes) :
    (rsaRecovered cert sr).2 = .ok () ↔ sr.getD 0 0 = 0x6A ∧ sr.getD 127 0 = 0xBC ∧
      sl sr 107 127 = Crypto.sha1 (sl sr 1 107 ++ sl cert.raw 128 186) := by
  unfold rsaRecovered
  split
  · rename_i h
    exact ⟨fun c => by simp at c, fun c => absurd c.1 h⟩
  split
  · rename_i h
    exact ⟨fun c => by simp at c, fun c => absurd c.2.1 h⟩
  dsimp only
  split
  · rename_i h
    exact ⟨fun c => by simp at c, fun c => absurd c.2.2 h⟩
  · rename_i h1 h2 h3
    simp only [true_iff]
    exact ⟨by simpa using h1, by simpa using h2, by simpa using h3⟩

/-- C57: the content the tool recovers from a certificate is the one the signature certifies under
ISO 9796-2, and it recovers one exactly when there is one. -/
theorem fetch_recover_iff (d : Bytes) (n e : Nat) (c : Bytes) :
    recoverGen1 d n e = .ok c ↔ ∃ car, Iso9796 n e d c car := by
  have split194 : ∀ d : Bytes, d.length = 194 → d = sl d 0 128 ++ sl d 128 186 ++ sl d 186 194 := by
    intro d hl
    conv => lhs; rw [← List.take_length (l := d), hl, take_eq_sl]
    rw [sl_append, sl_append] <;> omega
  unfold recoverGen1
  simp only [Res.pure_eq, guard_eq_ok, bind_eq_ok, Res.ok.injEq, sl?_iff, not_or, Classical.not_not]
  constructor
  · rintro ⟨hl, _, ⟨_, _, rfl⟩, _, ⟨_, _, rfl⟩, hsmall, ⟨h0, h127⟩, _, ⟨_, hsr, rfl⟩, _, ⟨_, _, rfl⟩, hh, rfl⟩
    have hlt : expMod (beNat (sl d 0 128)) e n < 256 ^ 128 := by omega
    obtain ⟨cr, hcr, hsr'⟩ := (rsaRecovered_ok_iff { raw := d } _ (beBytes_length _ _)).mp
      ((rsaRecovered_ok_tests { raw := d } (beBytes 128 (expMod (beNat (sl d 0 128)) e n))).mpr ⟨h0, h127, hh⟩)
    have hcr' : sl (beBytes 128 (expMod (beNat (sl d 0 128)) e n)) 1 107 = cr := by
      rw [hsr', List.append_assoc, List.append_assoc]
      unfold sl
      rw [show (107 : Nat) = ([0x6A] ++ cr).length from by simp [hcr], ← List.append_assoc, List.take_left]
      rfl
    rw [hcr']
    refine ⟨sl d 186 194, sl d 0 128, cr, sl d 128 186, split194 d hl, by rw [sl_length_of] <;> omega,
      by rw [sl_length_of] <;> omega, by rw [sl_length_of] <;> omega, rfl, hcr, ?_⟩
    rw [← expMod_eq, ← hsr', beNat_beBytes_of_lt hlt]
  · rintro ⟨car, sig, cr, cn, rfl, h1, h2, h3, rfl, h4, h5⟩
    have hl : (sig ++ cn ++ car).length = 194 := by simp; omega
    have e1 : sl (sig ++ cn ++ car) 0 128 = sig := by
      unfold sl; rw [List.append_assoc, ← h1, List.take_left, List.drop_zero]
    have e2 : sl (sig ++ cn ++ car) 128 186 = cn := by
      unfold sl
      rw [show 186 = (sig ++ cn).length from by simp; omega, List.take_left, ← h1, List.drop_left]
    have hmsg : ([0x6A] ++ cr ++ Crypto.sha1 (cr ++ cn) ++ [0xBC] : Bytes).length = 128 := by
      simp [h4, Crypto.sha1_length]
    have hlt : expMod (beNat sig) e n < 256 ^ 128 := by
      rw [expMod_eq, h5]
      have := beNat_lt ([0x6A] ++ cr ++ Crypto.sha1 (cr ++ cn) ++ [0xBC])
      rwa [hmsg] at this
    have hsr : beBytes 128 (expMod (beNat sig) e n) = [0x6A] ++ cr ++ Crypto.sha1 (cr ++ cn) ++ [0xBC] := by
      rw [beBytes_eq_iff hmsg hlt, expMod_eq, h5]
    have ht := (rsaRecovered_ok_tests { raw := sig ++ cn ++ car } _).mp
      ((rsaRecovered_ok_iff { raw := sig ++ cn ++ car } _ (beBytes_length _ _)).mpr
        ⟨cr, h4, by rw [e2]; exact hsr⟩)
    rw [e2] at ht
    have hcr' : sl (beBytes 128 (expMod (beNat sig) e n)) 1 107 = cr := by
      rw [hsr, List.append_assoc, List.append_assoc]
      unfold sl
      rw [show (107 : Nat) = ([0x6A] ++ cr).length from by simp [h4], ← List.append_assoc, List.take_left]
      rfl
    refine ⟨by omega, _, ⟨by omega, by omega, rfl⟩, _, ⟨by omega, by omega, rfl⟩, ?_⟩
    rw [e1, e2]
    refine ⟨by omega, ⟨ht.1, ht.2.1⟩, _, ⟨by omega, by rw [beBytes_length]; omega, rfl⟩, _,
      ⟨by omega, by rw [beBytes_length]; omega, rfl⟩, ht.2.2, ?_⟩
    rw [hcr']

end

theorem sum_yearDays_ge (y k : Nat) : 365 * k ≤ ((List.range' y k).map yearDays).sum := by
  induction k generalizing y with
  | zero => simp
  | succ k ih =>
    rw [List.range'_succ, List.map_cons, List.sum_cons]
    have := ih (y + 1)
    have h : 365 ≤ yearDays y := by unfold yearDays; split <;> omega
    omega

/-- The text of a time of four bytes denotes that time. -/
theorem unixText_civil (n : Nat) (h : n < 2 ^ 32) : UnixText (rfc3339 (civilOfUnix n)) n := by
  obtain ⟨h1, h2, h3, h4, h5, h6⟩ := civilOfUnix_spec n
  have hy : (civilOfUnix n).year < 10000 := by
    have hd : dayNumber (civilOfUnix n).year (civilOfUnix n).month (civilOfUnix n).day ≤ n / 86400 := by omega
    unfold dayNumber at hd
    have hyd : (fun k => (months k).sum) = yearDays := by funext y; exact (yearDays_months y).symm
    rw [hyd] at hd
    have := sum_yearDays_ge 1970 ((civilOfUnix n).year - 1970)
    omega
  exact ⟨_, _, _, _, _, _, (timeText_iff _ _ _ _ _ _ _).mpr ⟨rfl, hy, h1, h3, h4, h5⟩, h2, h6⟩

/-- C57: holder reference and end of validity, as the index has them, from a certificate content laid
out as the regulation says. The end of validity zero ("no date") is written as the year 1. -/
theorem fetch_content_read (f : Content) (c : Bytes) (h : f.Layout c) :
    ∃ eov, gen1CHRAndEOV c = .ok (beNat f.chr, eov) ∧
      (beNat f.eov ≠ 0 → UnixText eov (beNat f.eov)) ∧
      (beNat f.eov = 0 → eov = ascii "0001-01-01T00:00:00Z") := by
  obtain ⟨hc, h2, h3, h4, h5, h6, h7⟩ := h
  have hl : c.length = 164 := by rw [hc]; simp; omega
  have e1 : sl c 20 28 = f.chr := by
    rw [hc]; unfold sl
    rw [show 28 = ([f.profile] ++ f.car ++ f.cha ++ f.eov ++ f.chr).length from by simp; omega,
      List.append_assoc _ f.modulus, List.take_left,
      show 20 = ([f.profile] ++ f.car ++ f.cha ++ f.eov).length from by simp; omega, List.drop_left]
  have e2 : sl c 16 20 = f.eov := by
    rw [hc]; unfold sl
    rw [show 20 = ([f.profile] ++ f.car ++ f.cha ++ f.eov).length from by simp; omega,
      List.append_assoc _ f.modulus, List.append_assoc _ f.chr, List.take_left,
      show 16 = ([f.profile] ++ f.car ++ f.cha).length from by simp; omega, List.drop_left]
  refine ⟨rfc3339 (fetchTime f.eov), ?_, ?_, ?_⟩
  · unfold gen1CHRAndEOV
    rw [if_neg (by omega), sl?_ok (by omega) (by omega), sl?_ok (by omega) (by omega), e1, e2]
    rfl
  · intro hz
    rw [fetchTime, if_neg hz]
    apply unixText_civil
    have := beNat_lt f.eov
    rw [h4] at this
    omega
  · intro hz
    rw [fetchTime, if_pos hz]
    decide +kernel

/-- Every content of 164 bytes has the layout of the regulation. -/
theorem content_layout {k : Bytes} (hk : k.length = 164) : Content.Layout
    ⟨k.getD 0 0, sl k 1 9, sl k 9 16, sl k 16 20, sl k 20 28, sl k 28 156, sl k 156 164⟩ k := by
  refine ⟨?_, ?_⟩
  · have e0 : [k.getD 0 0] = sl k 0 1 := by
      rw [sl_eq_singleton (by omega : 0 < k.length)]
      simp [List.getD_eq_getElem?_getD, List.getElem?_eq_getElem (by omega : 0 < k.length)]
    dsimp only
    rw [e0]
    conv => lhs; rw [← List.take_length (l := k), hk, take_eq_sl]
    rw [sl_append, sl_append, sl_append, sl_append, sl_append, sl_append] <;> omega
  · dsimp only
    refine ⟨?_, ?_, ?_, ?_, ?_, ?_⟩ <;> (rw [sl_length_of] <;> omega)

/-- C57, Gen1. A certificate verifies against the root, in the library, exactly when the tool recovers
its content with the root's key and the certificate names the root as its authority (which the tool
does not test). The holder reference and the time in the index are then those the library reports. -/
theorem fetch_gen1_agrees [Crypto] (rootFile d : Bytes) (root : RootCert) (n e : Nat) (c : RsaCert)
    (hroot : unmarshalRoot rootFile = .ok root) (hkey : fetchERCA rootFile = .ok (n, e))
    (hc : unmarshalRsa d = .ok c) :
    ((verifyRsaWithRoot (some c) (some root)).2 = .ok () ↔
      (∃ content, recoverGen1 d n e = .ok content) ∧ ∃ k, fetchGen1CAR d = .ok k ∧ root.keyId = decimal k) ∧
    (∀ c', verifyRsaWithRoot (some c) (some root) = (some c', .ok ()) →
      ∃ content chr eov t, recoverGen1 d n e = .ok content ∧ gen1CHRAndEOV content = .ok (chr, eov) ∧
        c'.chr = decimal chr ∧ c'.endOfValidity = some ⟨t, 0⟩ ∧
        (t ≠ 0 → ∃ k : Nat, t = k ∧ UnixText eov k)) := by
  obtain ⟨root', hr', hn, he, hn0, he0⟩ := (fetch_root_iff _ _ _).mp hkey
  rw [hroot, Res.ok.injEq] at hr'
  subst hr'
  obtain ⟨b, r, hd, hb, hr, hcar, hcr⟩ := (rsa_parse_iff d c).mp hc
  have hraw : c.raw = d := by rw [hcr]
  have hm0 : root.modulus ≠ [] := by rintro h; rw [h] at hn; exact hn0 hn.symm
  have hx0 : root.exponent ≠ [] := by rintro h; rw [h] at he; exact he0 he.symm
  have key : ∀ c', verifyRsaWithRoot (some c) (some root) = (some c', .ok ()) →
      ∃ content car f, recoverGen1 d n e = .ok content ∧ Iso9796 n e d content car ∧
        IsDecimal root.keyId (beNat car) ∧ Content.Layout f content ∧
        c'.chr = decimal (beNat f.chr) ∧ c'.endOfValidity = some ⟨beNat f.eov, 0⟩ := by
    intro c' h
    obtain ⟨_, _, content, car, f, h1, h2, h3, h4⟩ := (rsa_verify_root_iff c c' root).mp h
    rw [hn, he, hraw] at h1
    exact ⟨content, car, f, (fetch_recover_iff _ _ _ _).mpr ⟨car, h1⟩, h1, h2, h3, by rw [h4], by rw [h4]⟩
  refine ⟨⟨?_, ?_⟩, ?_⟩
  · intro h
    have hv : verifyRsaWithRoot (some c) (some root) =
        (some (verifyRsaCore c root.modulus root.exponent root.keyId).1, .ok ()) := by
      simp only [verifyRsaWithRoot] at h ⊢; rw [h]
    obtain ⟨content, car, f, h1, ⟨sig, cr, cn, g1, g2, g3, g4, _⟩, h2, _⟩ := key _ hv
    refine ⟨⟨content, h1⟩, beNat car, (fetch_gen1_car_iff _ _).mpr ⟨sig ++ cn, car, g1, by simp; omega, g4, rfl⟩,
      isDecimal_iff.mp h2⟩
  · rintro ⟨⟨content, h1⟩, k, h2, h3⟩
    obtain ⟨car, hiso⟩ := (fetch_recover_iff _ _ _ _).mp h1
    have hiso' := hiso
    obtain ⟨sig, cr, cn, g1, g2, g3, g4, g5, g6, g7⟩ := hiso'
    obtain ⟨b', r', e1, e2, e3, e4⟩ := (fetch_gen1_car_iff _ _).mp h2
    have hcarr : car = r' := by
      rw [g1] at e1
      exact ((append_eq_iff (by simp; omega)).mp e1).2
    have hlen : content.length = 164 := by rw [g5]; simp; omega
    have hlay := content_layout hlen
    have hv := (rsa_verify_root_iff c _ root).mpr ⟨hm0, hx0, content, car, _, by rw [hn, he, hraw]; exact hiso,
      by rw [h3, hcarr, e4]; exact decimal_spec _, hlay, rfl⟩
    rw [hv]
  · intro c' h
    obtain ⟨content, car, f, h1, _, _, h3, h4, h5⟩ := key c' h
    obtain ⟨eov, g1, g2, _⟩ := fetch_content_read f content h3
    refine ⟨content, _, eov, _, h1, g1, h4, h5, fun ht => ⟨beNat f.eov, rfl, g2 ?_⟩⟩
    intro h0; rw [h0] at ht; exact ht rfl

/-! ## Second generation certificates -/

/-- C57: the authority reference is the content of the second item of the body. -/
theorem fetch_gen2_car_iff (d : Bytes) (k : Nat) :
    fetchGen2CAR d = .ok k ↔ ∃ car, Gen2Authority d car ∧ beNat car = k := by
  unfold fetchGen2CAR
  simp only [bind_eq_ok, Res.pure_eq, guard_eq_ok, Prod.exists, Res.ok.injEq, asn1Raw_iff, Classical.not_not]
  constructor
  · rintro ⟨outer, t0, ⟨rfl, ho⟩, body, t1, ⟨hb, hbi⟩, cpi, r, ⟨hc, hci⟩, car, t2, ⟨rfl, hca⟩, hl, rfl⟩
    rw [hb] at ho
    rw [hc] at hbi
    exact ⟨car.bytes, ⟨outer.full, body.full, cpi.full, car.full, cpi.bytes, t0, t1, t2, rfl, ho, hbi, hci, hca, hl⟩, rfl⟩
  · rintro ⟨car, ⟨iO, iB, iP, iC, cpi, t0, t1, t2, rfl, h1, h2, h3, h4, h5⟩, rfl⟩
    exact ⟨⟨_, iO⟩, t0, ⟨rfl, h1⟩, ⟨_, iB⟩, t1, ⟨rfl, h2⟩, ⟨_, iP⟩, _, ⟨rfl, h3⟩, ⟨_, iC⟩, t2, ⟨rfl, h4⟩, h5, rfl⟩

/-- C57: the holder reference is the content of the fifth item of the body. -/
theorem fetch_gen2_chr_iff (d : Bytes) (k : Nat) :
    fetchGen2CHR d = .ok k ↔ ∃ chr, Gen2Holder d chr ∧ beNat chr = k := by
  unfold fetchGen2CHR
  simp only [skipFields, bind_eq_ok, Res.pure_eq, guard_eq_ok, Prod.exists, Res.ok.injEq, asn1Raw_iff,
    Classical.not_not]
  constructor
  · rintro ⟨outer, t0, ⟨rfl, ho⟩, body, t1, ⟨hb, hbi⟩, _, ⟨v1, r1, ⟨hc, h1⟩, v2, r2, ⟨rfl, h2⟩, v3, r3, ⟨rfl, h3⟩,
      v4, r4, ⟨rfl, h4⟩, rfl⟩, chr, t2, ⟨rfl, h5⟩, hl, rfl⟩
    rw [hb] at ho
    rw [hc] at hbi
    exact ⟨chr.bytes, ⟨outer.full, body.full, v1.full, v2.full, v3.full, v4.full, chr.full, v1.bytes, v2.bytes,
      v3.bytes, v4.bytes, t0, t1, t2, rfl, ho, hbi, h1, h2, h3, h4, h5, hl⟩, rfl⟩
  · rintro ⟨chr, ⟨iO, iB, i1, i2, i3, i4, iC, c1, c2, c3, c4, t0, t1, t2, rfl, ho, hb, h1, h2, h3, h4, h5, hl⟩, rfl⟩
    exact ⟨⟨_, iO⟩, t0, ⟨rfl, ho⟩, ⟨_, iB⟩, t1, ⟨rfl, hb⟩, _, ⟨⟨_, i1⟩, _, ⟨rfl, h1⟩, ⟨_, i2⟩, _, ⟨rfl, h2⟩,
      ⟨_, i3⟩, _, ⟨rfl, h3⟩, ⟨_, i4⟩, _, ⟨rfl, h4⟩, rfl⟩, ⟨_, iC⟩, t2, ⟨rfl, h5⟩, hl, rfl⟩

/-- C57, Gen2. Whenever the library reads a certificate, the tool reads the same two references. -/
theorem fetch_gen2_agrees (d : Bytes) (c : EccCert) (h : unmarshalEcc d = .ok c) :
    ∃ car chr, fetchGen2CAR d = .ok car ∧ fetchGen2CHR d = .ok chr ∧ c.car = decimal car ∧ c.chr = decimal chr := by
  obtain ⟨_, _, f, full, ⟨iO, iP, iCar, iCha, iKey, l, oid, iPt, iChr, iEff, iExp, iSig, t0, t1, t2, t3, rfl, ho, hb,
    hP, hCar, hlCar, hCha, _, hKey, _, _, _, _, hChr, hlChr, _⟩, ⟨_, h1, _, _, h2, _⟩⟩ := (ecc_parse_iff d c).mp h
  refine ⟨beNat f.car, beNat f.chr, ?_, ?_, isDecimal_iff.mp h1, isDecimal_iff.mp h2⟩
  · exact (fetch_gen2_car_iff _ _).mpr ⟨f.car, ⟨iO, full, iP, iCar, _, t0, _, _, rfl, ho, hb, hP, hCar, hlCar⟩, rfl⟩
  · exact (fetch_gen2_chr_iff _ _).mpr ⟨f.chr, ⟨iO, full, iP, iCar, iCha, iKey, iChr, _, _, _, _, t0, _, _, rfl, ho, hb,
      hP, hCar, hCha, hKey, hChr, hlChr⟩, rfl⟩

/-- C57: none of the decoders panics, whatever the server sends. -/
theorem fetch_no_panic [Crypto] (d : Bytes) (n e : Nat) :
    fetchERCA d ≠ .panic ∧ fetchGen1CAR d ≠ .panic ∧ recoverGen1 d n e ≠ .panic ∧ gen1CHRAndEOV d ≠ .panic ∧
    fetchGen2CAR d ≠ .panic ∧ fetchGen2CHR d ≠ .panic := by
  refine ⟨?_, ?_, ?_, ?_, ?_, ?_⟩
  · unfold fetchERCA
    split
    · simp
    · rename_i h
      rw [sl?_ok (by omega) (by omega), sl?_ok (by omega) (by omega)]
      simp only [Res.bind_ok, Res.pure_eq]
      split <;> simp
  · unfold fetchGen1CAR
    split
    · simp
    · rename_i h
      rw [sl?_ok (by omega) (by omega)]
      simp
  · unfold recoverGen1
    split
    · simp
    · rename_i h
      rw [sl?_ok (by omega) (by omega), sl?_ok (by omega) (by omega)]
      simp only [Res.bind_ok, Res.pure_eq]
      split
      · simp
      split
      · simp
      rw [sl?_ok (by omega) (by rw [beBytes_length]; omega), sl?_ok (by omega) (by rw [beBytes_length]; omega)]
      simp only [Res.bind_ok]
      split <;> simp
  · unfold gen1CHRAndEOV
    split
    · simp
    · rename_i h
      rw [sl?_ok (by omega) (by omega), sl?_ok (by omega) (by omega)]
      simp
  · unfold fetchGen2CAR
    apply Res.bind_ne_panic (asn1Raw_ne_panic _)
    rintro ⟨_, _⟩
    apply Res.bind_ne_panic (asn1Raw_ne_panic _)
    rintro ⟨_, _⟩
    apply Res.bind_ne_panic (asn1Raw_ne_panic _)
    rintro ⟨_, _⟩
    apply Res.bind_ne_panic (asn1Raw_ne_panic _)
    rintro ⟨_, _⟩
    dsimp only
    split <;> simp
  · have hs : ∀ k d, skipFields k d ≠ .panic := by
      intro k
      induction k with
      | zero => intro d; simp [skipFields]
      | succ k ih =>
        intro d
        rw [skipFields]
        apply Res.bind_ne_panic (asn1Raw_ne_panic _)
        rintro ⟨_, r⟩
        exact ih r
    unfold fetchGen2CHR
    apply Res.bind_ne_panic (asn1Raw_ne_panic _)
    rintro ⟨_, _⟩
    apply Res.bind_ne_panic (asn1Raw_ne_panic _)
    rintro ⟨_, _⟩
    apply Res.bind_ne_panic (hs _ _)
    intro r
    apply Res.bind_ne_panic (asn1Raw_ne_panic _)
    rintro ⟨_, _⟩
    dsimp only
    split <;> simp

end Tacho
