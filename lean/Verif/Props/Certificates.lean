import Verif.Lemmas.Security
/-!
# Certificates (C33, C34, C35, C36, C37)
-/

namespace Tacho
open Spec

/-! ## C35: first generation and root certificates -/

/-- The exact acceptance set and result of the first generation parser. -/
theorem rsa_parse_iff (d : Bytes) (c : RsaCert) :
    unmarshalRsa d = .ok c ↔ ∃ body car, d = body ++ car ∧ body.length = 186 ∧ car.length = 8 ∧
      IsDecimal c.car (beNat car) ∧ c = { car := c.car, raw := d } := by
  unfold unmarshalRsa
  simp only [Res.pure_eq, guard_eq_ok, bind_eq_ok, Res.ok.injEq, sl?_iff]
  constructor
  · rintro ⟨hl, x, ⟨_, _, rfl⟩, rfl⟩
    have hl : d.length = 194 := by omega
    refine ⟨d.take 186, sl d 186 194, ?_, by simp; omega, by rw [sl_length_of] <;> omega, decimal_spec _, rfl⟩
    conv => lhs; rw [← List.take_length (l := d), hl, take_eq_sl]
    rw [take_eq_sl, sl_append] <;> omega
  · rintro ⟨b, r, rfl, hb, hr, hd, hc⟩
    have hs : sl (b ++ r) 186 194 = r := by
      unfold sl; rw [List.take_of_length_le (by simp; omega), ← hb, List.drop_left]
    refine ⟨by simp; omega, _, ⟨by omega, by simp; omega, rfl⟩, ?_⟩
    rw [hs, ← isDecimal_iff.mp hd]; exact hc.symm

/-- It accepts every input of 194 bytes and rejects every other one with an error. -/
theorem rsa_parse_total (d : Bytes) :
    (d.length = 194 → ∃ c, unmarshalRsa d = .ok c) ∧
    (d.length ≠ 194 → ∃ m, unmarshalRsa d = .err m) := by
  constructor
  · intro h
    refine ⟨_, (rsa_parse_iff d { car := decimal (beNat (d.drop 186)), raw := d }).mpr
      ⟨d.take 186, d.drop 186, by simp, by simp; omega, by simp; omega, decimal_spec _, rfl⟩⟩
  · intro h
    exact ⟨_, by simp only [unmarshalRsa]; rw [if_pos h]; rfl⟩

/-- The writer returns the destination followed by the parsed bytes. -/
theorem rsa_append_restores (d dst : Bytes) (c : RsaCert) (h : unmarshalRsa d = .ok c) :
    appendRsa dst (some c) = .ok (dst ++ d) := by
  obtain ⟨b, r, rfl, hb, hr, _, hc⟩ := (rsa_parse_iff d c).mp h
  rw [hc]
  simp only [appendRsa]
  rw [if_pos (by simp; omega), if_neg (by simp; omega)]

/-- The writer of a certificate: its raw data if that has 194 bytes, otherwise an error. -/
theorem rsa_append_iff (dst out : Bytes) (c : RsaCert) :
    appendRsa dst (some c) = .ok out ↔ c.raw.length = 194 ∧ out = dst ++ c.raw := by
  simp only [appendRsa]
  split
  · split
    · constructor
      · intro h; simp at h
      · rintro ⟨h1, _⟩; omega
    · simp only [Res.ok.injEq]
      exact ⟨fun h => ⟨by omega, h.symm⟩, fun h => h.2.symm⟩
  · constructor
    · intro h; simp at h
    · rintro ⟨h1, _⟩; omega

/-- Different authority references stay different as strings, equal ones equal. -/
theorem rsa_reference_injective (d d' : Bytes) (c c' : RsaCert) (h : unmarshalRsa d = .ok c)
    (h' : unmarshalRsa d' = .ok c') : c.car = c'.car ↔ d.drop 186 = d'.drop 186 := by
  obtain ⟨b, r, rfl, hb, hr, hd, _⟩ := (rsa_parse_iff d c).mp h
  obtain ⟨b', r', rfl, hb', hr', hd', _⟩ := (rsa_parse_iff d' c').mp h'
  rw [← hb, List.drop_left, hb, ← hb', List.drop_left]
  rw [isDecimal_iff] at hd hd'
  rw [hd, hd']
  constructor
  · intro h
    have := decimal_inj h
    rw [← beBytes_beNat' hr, ← beBytes_beNat' hr', this]
  · rintro rfl; rfl

/-- The exact acceptance set and result of the root certificate parser: three consecutive parts. -/
theorem root_parse_iff (d : Bytes) (c : RootCert) :
    unmarshalRoot d = .ok c ↔ ∃ key, d = key ++ c.modulus ++ c.exponent ∧ key.length = 8 ∧
      c.modulus.length = 128 ∧ c.exponent.length = 8 ∧ IsDecimal c.keyId (beNat key) := by
  unfold unmarshalRoot
  simp only [Res.pure_eq, guard_eq_ok, bind_eq_ok, Res.ok.injEq, sl?_iff]
  constructor
  · rintro ⟨hl, x, ⟨_, _, rfl⟩, y, ⟨_, _, rfl⟩, z, ⟨_, _, rfl⟩, rfl⟩
    have hl : d.length = 144 := by omega
    refine ⟨sl d 0 8, ?_, by rw [sl_length_of] <;> omega, ?_, ?_, decimal_spec _⟩
    · conv => lhs; rw [← List.take_length (l := d), hl, take_eq_sl]
      rw [sl_append, sl_append] <;> omega
    · simp only; rw [sl_length_of] <;> omega
    · simp only; rw [sl_length_of] <;> omega
  · rintro ⟨k, rfl, hk, hm, he, hd⟩
    have h1 : sl (k ++ c.modulus ++ c.exponent) 0 8 = k := by
      unfold sl; rw [List.append_assoc, ← hk, List.take_left, List.drop_zero]
    have h2 : sl (k ++ c.modulus ++ c.exponent) 8 136 = c.modulus := by
      unfold sl
      have : (k ++ c.modulus).length = 136 := by simp; omega
      rw [← this, List.take_left, ← hk, List.drop_left]
    have h3 : sl (k ++ c.modulus ++ c.exponent) 136 144 = c.exponent := by
      unfold sl
      have : (k ++ c.modulus).length = 136 := by simp; omega
      rw [List.take_of_length_le (by simp; omega), ← this, List.drop_left]
    refine ⟨by simp; omega, _, ⟨by omega, by simp; omega, rfl⟩, _, ⟨by omega, by simp; omega, rfl⟩, _,
      ⟨by omega, by simp; omega, rfl⟩, ?_⟩
    rw [h1, h2, h3, ← isDecimal_iff.mp hd]

theorem root_parse_total (d : Bytes) :
    (d.length = 144 → ∃ c, unmarshalRoot d = .ok c) ∧
    (d.length ≠ 144 → ∃ m, unmarshalRoot d = .err m) := by
  constructor
  · intro h
    refine ⟨⟨decimal (beNat (d.take 8)), (d.drop 8).take 128, d.drop 136⟩, (root_parse_iff _ _).mpr
      ⟨d.take 8, ?_, by simp; omega, by simp; omega, by simp; omega, decimal_spec _⟩⟩
    have : d.drop 136 = (d.drop 8).drop 128 := by rw [List.drop_drop]
    rw [this, List.append_assoc, List.take_append_drop, List.take_append_drop]
  · intro h
    exact ⟨_, by simp only [unmarshalRoot]; rw [if_pos h]; rfl⟩

/-- A concrete certificate: the reference 0x0000000000000102 is reported as "258". -/
example : ∃ c, unmarshalRsa (zeros 192 ++ [1, 2]) = .ok c ∧ c.car = [0x32, 0x35, 0x38] := by
  obtain ⟨c, hc⟩ := (rsa_parse_total (zeros 192 ++ [1, 2])).1 (by simp [zeros_length])
  refine ⟨c, hc, ?_⟩
  obtain ⟨b, r, e, hb, hr, hd, _⟩ := (rsa_parse_iff _ _).mp hc
  have : r = [0, 0, 0, 0, 0, 0, 1, 2] := by
    have := congrArg (List.drop 186) e
    rw [← hb, List.drop_left, hb] at this
    rw [← this]; decide +kernel
  subst this
  refine isDecimal_unique hd ⟨by simp, by decide, by decide +kernel, by decide⟩

/-! ## C33 and C34: verifying a first generation certificate -/

variable [Crypto]

/-- What the recovered message must be for the check to succeed. -/
theorem rsaRecovered_ok_iff (cert : RsaCert) (sr : Bytes) (hsr : sr.length = 128) :
    (rsaRecovered cert sr).2 = .ok () ↔
      ∃ cr, cr.length = 106 ∧ sr = [0x6A] ++ cr ++ Crypto.sha1 (cr ++ sl cert.raw 128 186) ++ [0xBC] := by
  have h0 : sr = [sr.getD 0 0] ++ sl sr 1 107 ++ sl sr 107 127 ++ [sr.getD 127 0] := by
    have e0 : [sr.getD 0 0] = sl sr 0 1 := by
      rw [sl_eq_singleton (by omega : 0 < sr.length)]
      simp [List.getD_eq_getElem?_getD, List.getElem?_eq_getElem (by omega : 0 < sr.length)]
    have e1 : [sr.getD 127 0] = sl sr 127 128 := by
      rw [sl_eq_singleton (by omega : 127 < sr.length)]
      simp [List.getD_eq_getElem?_getD, List.getElem?_eq_getElem (by omega : 127 < sr.length)]
    rw [e0, e1]
    conv => lhs; rw [← List.take_length (l := sr), hsr, take_eq_sl]
    rw [sl_append, sl_append, sl_append] <;> omega
  have hcr : (sl sr 1 107).length = 106 := by rw [sl_length_of] <;> omega
  have hh : (sl sr 107 127).length = 20 := by rw [sl_length_of] <;> omega
  have key : ∀ cr, cr.length = 106 →
      (sr = [0x6A] ++ cr ++ Crypto.sha1 (cr ++ sl cert.raw 128 186) ++ [0xBC] ↔
        sr.getD 0 0 = 0x6A ∧ sl sr 1 107 = cr ∧
          sl sr 107 127 = Crypto.sha1 (cr ++ sl cert.raw 128 186) ∧ sr.getD 127 0 = 0xBC) := by
    intro cr hc
    conv => lhs; lhs; rw [h0]
    rw [append_eq_iff (by simp [hcr, hc, hh, Crypto.sha1_length]), append_eq_iff (by simp [hcr, hc]),
      append_eq_iff (by simp)]
    simp [and_assoc]
  unfold rsaRecovered
  split
  · rename_i h
    constructor
    · intro h; simp at h
    · rintro ⟨cr, hc, e⟩; exact absurd ((key cr hc).mp e).1 h
  split
  · rename_i h
    constructor
    · intro h; simp at h
    · rintro ⟨cr, hc, e⟩; exact absurd ((key cr hc).mp e).2.2.2 h
  dsimp only
  split
  · rename_i h
    constructor
    · intro h; simp at h
    · rintro ⟨cr, hc, e⟩
      obtain ⟨_, h1, h2, _⟩ := (key cr hc).mp e
      rw [h1] at h; exact absurd h2 h
  · rename_i a b h
    simp only [true_iff]
    exact ⟨sl sr 1 107, hcr, (key _ hcr).mpr ⟨by simpa using a, rfl, by simpa using h, by simpa using b⟩⟩

/-- The recovered number is the number of a 128 byte message. -/
theorem beBytes_eq_iff {n : Nat} {d : Bytes} {k : Nat} (hd : d.length = k) (hn : n < 256 ^ k) :
    beBytes k n = d ↔ n = beNat d := by
  constructor
  · rintro rfl; rw [beNat_beBytes_of_lt hn]
  · rintro rfl; exact beBytes_beNat' hd

theorem expMod_eq (x y m : Nat) : expMod x y m = x ^ y % m := by
  unfold expMod; split
  · rename_i h; rw [h, Nat.mod_zero]
  · rfl

theorem rsaRecovered_err_valid (cert : RsaCert) (sr : Bytes) (h : (rsaRecovered cert sr).2 ≠ .ok ()) :
    (rsaRecovered cert sr).1 = { cert with valid := false } := by
  unfold rsaRecovered at h ⊢
  split
  · rfl
  split
  · rfl
  dsimp only
  split
  · rfl
  · rename_i h1 h2 h3
    rw [if_neg h1, if_neg h2] at h
    dsimp only at h
    rw [if_neg h3] at h
    simp at h

/-- C33, for either kind of authority. The verdict is nil exactly when the key is present, the
certificate names the authority, and its signature opens to a certified content; and then the message
reports the content's fields. -/
theorem rsa_core_iff (c c' : RsaCert) (m e chr : Bytes) :
    verifyRsaCore c m e chr = (c', .ok ()) ↔
      m ≠ [] ∧ e ≠ [] ∧ ∃ content car f, Iso9796 (beNat m) (beNat e) c.raw content car ∧
        IsDecimal chr (beNat car) ∧ Content.Layout f content ∧
        c' = { c with valid := true, chr := decimal (beNat f.chr), car := decimal (beNat f.car),
                      endOfValidity := some ⟨beNat f.eov, 0⟩, modulus := f.modulus,
                      exponent := f.exponent } := by
  have hsplit : ∀ content : Bytes, content.length = 164 → Content.Layout
      ⟨content.getD 0 0, sl content 1 9, sl content 9 16, sl content 16 20, sl content 20 28,
        sl content 28 156, sl content 156 164⟩ content := by
    intro k hk
    refine ⟨?_, ?_⟩
    · have e0 : [k.getD 0 0] = sl k 0 1 := by
        rw [sl_eq_singleton (by omega : 0 < k.length)]
        simp [List.getD_eq_getElem?_getD, List.getElem?_eq_getElem (by omega : 0 < k.length)]
      dsimp only
      rw [e0]
      conv => lhs; rw [← List.take_length (l := k), hk, take_eq_sl]
      rw [sl_append, sl_append, sl_append, sl_append, sl_append, sl_append] <;> omega
    · dsimp only
      refine ⟨?_, ?_, ?_, ?_, ?_, ?_⟩ <;> (rw [sl_length_of] <;> omega)
  have hunique : ∀ f g : Content, ∀ k, f.Layout k → g.Layout k → f = g := by
    rintro ⟨a1, a2, a3, a4, a5, a6, a7⟩ ⟨b1, b2, b3, b4, b5, b6, b7⟩ k ⟨rfl, l2, l3, l4, l5, l6, l7⟩
      ⟨e, m2, m3, m4, m5, m6, m7⟩
    dsimp only at *
    rw [append_eq_iff (by simp; omega), append_eq_iff (by simp; omega), append_eq_iff (by simp; omega),
      append_eq_iff (by simp; omega), append_eq_iff (by simp; omega), append_eq_iff (by simp)] at e
    obtain ⟨⟨⟨⟨⟨⟨e1, rfl⟩, rfl⟩, rfl⟩, rfl⟩, rfl⟩, rfl⟩ := e
    simp only [List.cons.injEq, and_true] at e1
    rw [e1]
  unfold verifyRsaCore
  split
  · rename_i h
    constructor
    · intro h; simp at h
    · rintro ⟨_, _, k, car, f, ⟨sig, cr, cn, hr, h1, h2, h3, _⟩, _⟩
      rw [hr] at h; simp at h; omega
  rename_i hlen
  have hlen : c.raw.length = 194 := by omega
  split
  · rename_i h
    constructor
    · intro h; simp at h
    · rintro ⟨hm, he, _⟩
      simp only [List.length_eq_zero_iff] at h
      rcases h with h | h
      · exact absurd h hm
      · exact absurd h he
  rename_i hkey
  have hm : m ≠ [] := fun h => hkey (.inl (by rw [h]; rfl))
  have he : e ≠ [] := fun h => hkey (.inr (by rw [h]; rfl))
  have hraw : c.raw = sl c.raw 0 128 ++ sl c.raw 128 186 ++ sl c.raw 186 194 := by
    conv => lhs; rw [← List.take_length (l := c.raw), hlen, take_eq_sl]
    rw [sl_append, sl_append] <;> omega
  have l1 : (sl c.raw 0 128).length = 128 := by rw [sl_length_of] <;> omega
  have l2 : (sl c.raw 128 186).length = 58 := by rw [sl_length_of] <;> omega
  have l3 : (sl c.raw 186 194).length = 8 := by rw [sl_length_of] <;> omega
  -- the parts of the certificate are determined
  have hparts : ∀ sig cn car : Bytes, c.raw = sig ++ cn ++ car → sig.length = 128 → cn.length = 58 →
      car.length = 8 → sig = sl c.raw 0 128 ∧ cn = sl c.raw 128 186 ∧ car = sl c.raw 186 194 := by
    intro sig cn car h h1 h2 h3
    rw [hraw, append_eq_iff (by simp; omega), append_eq_iff (by omega)] at h
    exact ⟨h.1.1.symm, h.1.2.symm, h.2.symm⟩
  split
  · rename_i h
    constructor
    · intro h; simp at h
    · rintro ⟨_, _, k, car, f, ⟨sig, cr, cn, hr, h1, h2, h3, _⟩, hd, _⟩
      obtain ⟨_, _, rfl⟩ := hparts _ _ _ hr h1 h2 h3
      exact absurd (isDecimal_iff.mp hd).symm h
  rename_i hcar
  have hcar : decimal (beNat (sl c.raw 186 194)) = chr := by simpa using hcar
  dsimp only
  rw [expMod_eq]
  split
  · rename_i hsmall
    have hsr : (beBytes 128 (beNat (sl c.raw 0 128) ^ beNat e % beNat m)).length = 128 := beBytes_length _ _
    have hmsg : ∀ cr : Bytes, cr.length = 106 →
        ([0x6A] ++ cr ++ Crypto.sha1 (cr ++ sl c.raw 128 186) ++ [0xBC]).length = 128 := by
      intro cr h; simp [h, Crypto.sha1_length]
    constructor
    · intro h
      have hok : (rsaRecovered c (beBytes 128 (beNat (sl c.raw 0 128) ^ beNat e % beNat m))).2 = .ok () := by
        rw [h]
      obtain ⟨cr, hc, hs⟩ := (rsaRecovered_ok_iff c _ hsr).mp hok
      have hval := (beBytes_eq_iff (hmsg cr hc) hsmall).mp hs
      refine ⟨hm, he, cr ++ sl c.raw 128 186, sl c.raw 186 194, _, ⟨sl c.raw 0 128, cr, sl c.raw 128 186,
        hraw, l1, l2, l3, rfl, hc, hval⟩, isDecimal_iff.mpr hcar.symm,
        hsplit _ (by simp; omega), ?_⟩
      have hcr : sl (beBytes 128 (beNat (sl c.raw 0 128) ^ beNat e % beNat m)) 1 107 = cr := by
        rw [hs]; unfold sl
        have : ([0x6A] ++ cr).length = 107 := by simp [hc]
        rw [List.append_assoc, ← this, List.take_left]; rfl
      unfold rsaRecovered at h
      split at h
      · simp at h
      split at h
      · simp at h
      dsimp only at h
      split at h
      · simp at h
      rw [hcr] at h
      simp only [Prod.mk.injEq, and_true] at h
      exact h.symm
    · rintro ⟨_, _, k, car, f, ⟨sig, cr, cn, hr, h1, h2, h3, rfl, hc, hv⟩, hd, hf, rfl⟩
      obtain ⟨rfl, rfl, rfl⟩ := hparts _ _ _ hr h1 h2 h3
      have hs := (beBytes_eq_iff (hmsg cr hc) hsmall).mpr hv
      have hok := (rsaRecovered_ok_iff c _ hsr).mpr ⟨cr, hc, hs⟩
      have hcr : sl (beBytes 128 (beNat (sl c.raw 0 128) ^ beNat e % beNat m)) 1 107 = cr := by
        rw [hs]; unfold sl
        have : ([0x6A] ++ cr).length = 107 := by simp [hc]
        rw [List.append_assoc, ← this, List.take_left]; rfl
      have hfe := hunique f _ _ hf (hsplit (cr ++ sl c.raw 128 186) (by simp; omega))
      subst hfe
      unfold rsaRecovered at hok ⊢
      split
      · rename_i h; rw [if_pos h] at hok; simp at hok
      split
      · rename_i h1 h; rw [if_neg h1, if_pos h] at hok; simp at hok
      dsimp only
      split
      · rename_i h1 h2 h
        rw [if_neg h1, if_neg h2] at hok
        dsimp only at hok
        rw [if_pos h] at hok
        simp at hok
      rw [hcr]
  · rename_i hbig
    constructor
    · intro h; simp at h
    · rintro ⟨_, _, k, car, f, ⟨sig, cr, cn, hr, h1, h2, h3, rfl, hc, hv⟩, _⟩
      obtain ⟨rfl, rfl, rfl⟩ := hparts _ _ _ hr h1 h2 h3
      have := beNat_lt ([0x6A] ++ cr ++ Crypto.sha1 (cr ++ sl c.raw 128 186) ++ [0xBC])
      rw [← hv] at this
      have hl : ([0x6A] ++ cr ++ Crypto.sha1 (cr ++ sl c.raw 128 186) ++ [0xBC] : Bytes).length = 128 := by
        simp [hc, Crypto.sha1_length]
      rw [hl] at this
      exact absurd this hbig

/-- C33 for an authority given as a certificate. -/
theorem rsa_verify_ca_iff (c c' ca : RsaCert) :
    verifyRsaWithCA (some c) (some ca) = (some c', .ok ()) ↔
      ca.modulus ≠ [] ∧ ca.exponent ≠ [] ∧ ∃ content car f,
        Iso9796 (beNat ca.modulus) (beNat ca.exponent) c.raw content car ∧
        IsDecimal ca.chr (beNat car) ∧ Content.Layout f content ∧
        c' = { c with valid := true, chr := decimal (beNat f.chr), car := decimal (beNat f.car),
                      endOfValidity := some ⟨beNat f.eov, 0⟩, modulus := f.modulus,
                      exponent := f.exponent } := by
  rw [← rsa_core_iff, verifyRsaWithCA]
  constructor
  · intro h
    simp only [Prod.mk.injEq, Option.some.injEq] at h
    exact Prod.ext h.1 h.2
  · intro h; simp only [h]

/-- C33 for the root authority. -/
theorem rsa_verify_root_iff (c c' : RsaCert) (root : RootCert) :
    verifyRsaWithRoot (some c) (some root) = (some c', .ok ()) ↔
      root.modulus ≠ [] ∧ root.exponent ≠ [] ∧ ∃ content car f,
        Iso9796 (beNat root.modulus) (beNat root.exponent) c.raw content car ∧
        IsDecimal root.keyId (beNat car) ∧ Content.Layout f content ∧
        c' = { c with valid := true, chr := decimal (beNat f.chr), car := decimal (beNat f.car),
                      endOfValidity := some ⟨beNat f.eov, 0⟩, modulus := f.modulus,
                      exponent := f.exponent } := by
  rw [← rsa_core_iff, verifyRsaWithRoot]
  constructor
  · intro h
    simp only [Prod.mk.injEq, Option.some.injEq] at h
    exact Prod.ext h.1 h.2
  · intro h; simp only [h]

/-- Verification neither panics nor loses a certificate, and a nil argument is an error. -/
theorem rsa_verify_total (cert ca : Option RsaCert) :
    (verifyRsaWithCA cert ca).2 ≠ .panic ∧ ((verifyRsaWithCA cert ca).1.isSome = cert.isSome) ∧
    (cert = none ∨ ca = none → (verifyRsaWithCA cert ca).2 ≠ .ok ()) := by
  have h : ∀ c : RsaCert, ∀ m e chr, (verifyRsaCore c m e chr).2 ≠ .panic := by
    intro c m e chr
    unfold verifyRsaCore rsaRecovered
    repeat' split
    all_goals (try dsimp only); (try repeat' split)
    all_goals simp
  cases ca with
  | none => simp [verifyRsaWithCA]
  | some ca =>
    cases cert with
    | none => simp [verifyRsaWithCA]
    | some c => simp [verifyRsaWithCA, h]

/-- C34, the whole truth: a failed verification clears the mark when the certificate has 194 bytes and
the authority has a key, and otherwise leaves the certificate as it was. -/
theorem rsa_failure_effect (c : RsaCert) (m e chr : Bytes) (h : (verifyRsaCore c m e chr).2 ≠ .ok ()) :
    (verifyRsaCore c m e chr).1 =
      (if c.raw.length = 194 ∧ m ≠ [] ∧ e ≠ [] then { c with valid := false } else c) := by
  unfold verifyRsaCore at h ⊢
  split
  · rename_i h1; rw [if_neg (fun k => h1 k.1)]
  rename_i h1
  split
  · rename_i h2
    rw [if_neg]
    rintro ⟨_, hm, he⟩
    simp only [List.length_eq_zero_iff] at h2
    rcases h2 with h2 | h2
    · exact hm h2
    · exact he h2
  rename_i h2
  rw [if_neg h1, if_neg h2] at h
  have hcond : c.raw.length = 194 ∧ m ≠ [] ∧ e ≠ [] :=
    ⟨by omega, fun k => h2 (.inl (by rw [k]; rfl)), fun k => h2 (.inr (by rw [k]; rfl))⟩
  rw [if_pos hcond]
  split
  · rfl
  rename_i h3
  rw [if_neg h3] at h
  dsimp only at h ⊢
  split
  · rename_i h4
    rw [if_pos h4] at h
    exact rsaRecovered_err_valid _ _ h
  · rfl

/-- C34: after any verification the mark is set if and only if the verdict was nil, or the mark was set before and the
certificate does not have 194 bytes or the authority has no key. -/
theorem rsa_mark_iff (c : RsaCert) (m e chr : Bytes) :
    (verifyRsaCore c m e chr).1.valid = true ↔
      (verifyRsaCore c m e chr).2 = .ok () ∨ (c.valid = true ∧ (c.raw.length ≠ 194 ∨ m = [] ∨ e = [])) := by
  by_cases h : (verifyRsaCore c m e chr).2 = .ok ()
  · have := (rsa_core_iff c (verifyRsaCore c m e chr).1 m e chr).mp (Prod.ext rfl h)
    obtain ⟨_, _, k, car, f, _, _, _, hc⟩ := this
    rw [hc]; simp [h]
  · rw [rsa_failure_effect c m e chr h]
    by_cases hc : c.raw.length = 194 ∧ m ≠ [] ∧ e ≠ []
    · simp [h, hc]
    · rw [if_neg hc]
      have : c.raw.length ≠ 194 ∨ m = [] ∨ e = [] := by
        by_cases h1 : c.raw.length = 194
        · by_cases h2 : m = []
          · exact .inr (.inl h2)
          · by_cases h3 : e = []
            · exact .inr (.inr h3)
            · exact absurd ⟨h1, h2, h3⟩ hc
        · exact .inl h1
      simp [h, this]

/-- C34 is false in general: verifying a marked certificate against an authority whose key is not yet
known fails and leaves the mark. -/
theorem rsa_stale_mark :
    ∃ c ca : RsaCert, c.valid = true ∧ (verifyRsaWithCA (some c) (some ca)).2 ≠ .ok () ∧
      (verifyRsaWithCA (some c) (some ca)).1 = some c ∧ ∃ d, unmarshalRsa d = .ok ca := by
  refine ⟨{ raw := zeros 194, valid := true }, { car := decimal (beNat (zeros 8)), raw := zeros 194 }, rfl, ?_, ?_,
    zeros 194, ?_⟩
  · simp [verifyRsaWithCA, verifyRsaCore, zeros_length]
  · simp [verifyRsaWithCA, verifyRsaCore, zeros_length]
  · rw [rsa_parse_iff]
    exact ⟨zeros 186, zeros 8, by decide +kernel, by decide +kernel, by decide +kernel, decimal_spec _, rfl⟩

/-- A certificate as it comes from the parser never serves as an authority: its key is only known
after it was verified itself. -/
theorem rsa_parsed_authority_has_no_key (d : Bytes) (ca c : RsaCert) (h : unmarshalRsa d = .ok ca) :
    (verifyRsaWithCA (some c) (some ca)).2 ≠ .ok () := by
  obtain ⟨b, r, _, _, _, _, hc⟩ := (rsa_parse_iff d ca).mp h
  intro hok
  have := (rsa_core_iff c (verifyRsaCore c ca.modulus ca.exponent ca.chr).1 ca.modulus ca.exponent ca.chr).mp
    (Prod.ext rfl (by simpa [verifyRsaWithCA] using hok))
  rw [hc] at this
  exact this.1 rfl

/-- There are certificates that verify, whatever SHA-1 is: with exponent 1 and modulus 256^128 the
signature is the message itself. -/
theorem rsa_sample_verifies (cr cn car : Bytes) (h1 : cr.length = 106) (h2 : cn.length = 58) (h3 : car.length = 8) :
    ∃ c', verifyRsaWithCA
      (some { raw := [0x6A] ++ cr ++ Crypto.sha1 (cr ++ cn) ++ [0xBC] ++ cn ++ car })
      (some { modulus := 1 :: zeros 128, exponent := [1], chr := decimal (beNat car) }) =
      (some c', .ok ()) ∧ c'.valid = true := by
  have hl : ([0x6A] ++ cr ++ Crypto.sha1 (cr ++ cn) ++ [0xBC]).length = 128 := by
    simp [h1, Crypto.sha1_length]
  have hm : beNat (1 :: zeros 128) = 256 ^ 128 := by decide +kernel
  have he : beNat [1] = 1 := rfl
  have hlt := beNat_lt ([0x6A] ++ cr ++ Crypto.sha1 (cr ++ cn) ++ [0xBC])
  rw [hl] at hlt
  have hk : (cr ++ cn).length = 164 := by simp; omega
  have hlay : Content.Layout
      ⟨(cr ++ cn).getD 0 0, sl (cr ++ cn) 1 9, sl (cr ++ cn) 9 16, sl (cr ++ cn) 16 20, sl (cr ++ cn) 20 28,
        sl (cr ++ cn) 28 156, sl (cr ++ cn) 156 164⟩ (cr ++ cn) := by
    generalize cr ++ cn = k at *
    refine ⟨?_, ?_⟩
    · have e0 : [k.getD 0 0] = sl k 0 1 := by
        rw [sl_eq_singleton (by omega : 0 < k.length)]
        simp [List.getD_eq_getElem?_getD, List.getElem?_eq_getElem (by omega : 0 < k.length)]
      dsimp only
      rw [e0]
      conv => lhs; rw [← List.take_length (l := k), hk, take_eq_sl]
      rw [sl_append, sl_append, sl_append, sl_append, sl_append, sl_append] <;> omega
    · dsimp only
      refine ⟨?_, ?_, ?_, ?_, ?_, ?_⟩ <;> (rw [sl_length_of] <;> omega)
  refine ⟨_, (rsa_verify_ca_iff _ _ _).mpr ⟨by simp, by simp, cr ++ cn, car, _,
    ⟨[0x6A] ++ cr ++ Crypto.sha1 (cr ++ cn) ++ [0xBC], cr, cn, rfl, hl, h2, h3, rfl, h1, ?_⟩,
    decimal_spec _, hlay, rfl⟩, rfl⟩
  dsimp only
  rw [hm, he, Nat.pow_one, Nat.mod_eq_of_lt hlt]

end Tacho
