import Verif.Lemmas.Security
/-!
# Second generation certificates (C36, C37)
-/

namespace Tacho
open Spec

/-! ## C36: parsing -/

theorem rawOf_iff (n : Nat) (d c r : Bytes) :
    rawOf n d = .ok (c, r) ↔ ∃ i, d = i ++ r ∧ Item i c ∧ c.length = n := by
  unfold rawOf
  simp only [bind_eq_ok, Res.pure_eq, guard_eq_ok, Prod.exists, Res.ok.injEq, Prod.mk.injEq,
    asn1Raw_iff, Classical.not_not]
  constructor
  · rintro ⟨v, r', ⟨rfl, hv⟩, hl, rfl, rfl⟩; exact ⟨v.full, rfl, hv, hl⟩
  · rintro ⟨i, rfl, hi, hl⟩; exact ⟨⟨c, i⟩, r, ⟨rfl, hi⟩, hl, rfl, rfl⟩

theorem rawOf_ne_panic (n : Nat) (d : Bytes) : rawOf n d ≠ .panic := by
  unfold rawOf
  apply Res.bind_ne_panic (asn1Raw_ne_panic _)
  rintro ⟨v, r⟩
  dsimp only
  split <;> simp

theorem half_split {p : Bytes} {k : Nat} (h : p.length = 2 * k) :
    ∃ x y : Bytes, p = x ++ y ∧ x.length = k ∧ y.length = k :=
  ⟨p.take k, p.drop k, by simp, by simp; omega, by simp; omega⟩

theorem eccKey_iff (pk : Bytes) (k : EccKey) :
    eccKey pk = .ok k ↔ ∃ l oid ids iPoint t, pk = 0x06 :: l ++ oid ++ (iPoint ++ t) ∧
      LengthOctets l oid.length ∧ OidOctets oid ids ∧ Item iPoint (0x04 :: k.x ++ k.y) ∧
      k.x.length = k.y.length ∧ k.oid = oidString ids := by
  unfold eccKey
  simp only [bind_eq_ok, Res.pure_eq, guard_eq_ok, Prod.exists, Res.ok.injEq,
    asn1Raw_iff, asn1Oid_iff, Classical.not_not, sl?_iff, from?_iff]
  constructor
  · rintro ⟨ids, r, ⟨b, l, oid, rfl, hb, hl, hoid⟩, pp, t, ⟨rfl, hpp⟩, hfirst, hlen, x, ⟨_, _, rfl⟩, y, ⟨_, rfl⟩, rfl⟩
    have hb6 : b = 0x06 := UInt8.toNat_inj.mp (by rw [hb]; rfl)
    subst hb6
    obtain ⟨vb, vf⟩ := pp
    simp only at *
    cases vb with
    | nil => simp at hfirst
    | cons a p =>
      simp only [List.head?_cons, ne_eq, Option.some.injEq, not_or, Classical.not_not] at hfirst
      obtain ⟨_, rfl⟩ := hfirst
      simp only [List.length_cons, Nat.add_sub_cancel] at hlen
      obtain ⟨x, y, rfl, hx, hy⟩ := half_split (k := p.length / 2) (p := p) (by omega)
      have hk : (0x04 :: (x ++ y)).length - 1 = x.length + y.length := by simp
      have hkk : ((0x04 :: (x ++ y)).length - 1) / 2 = x.length := by rw [hk]; omega
      have h1 : sl (0x04 :: (x ++ y)) 1 (1 + x.length) = x := by
        unfold sl; rw [Nat.add_comm]; simp
      have h2 : (0x04 :: (x ++ y)).drop (1 + x.length) = y := by
        rw [Nat.add_comm]; simp
      rw [hkk, h1, h2]
      exact ⟨l, oid, ids, vf, t, rfl, hl, hoid, hpp, by omega, rfl⟩
  · rintro ⟨l, oid, ids, iP, t, rfl, hl, hoid, hi, hxy, ho⟩
    have hk : ((0x04 :: (k.x ++ k.y)).length - 1) / 2 = k.x.length := by simp; omega
    have h1 : sl (0x04 :: (k.x ++ k.y)) 1 (1 + k.x.length) = k.x := by
      unfold sl; rw [Nat.add_comm]; simp
    have h2 : (0x04 :: (k.x ++ k.y)).drop (1 + k.x.length) = k.y := by
      rw [Nat.add_comm]; simp
    refine ⟨ids, iP ++ t, ⟨0x06, l, oid, rfl, by rfl, hl, hoid⟩, ⟨0x04 :: (k.x ++ k.y), iP⟩, t,
      ⟨rfl, hi⟩, by simp, by dsimp only; rw [hk]; simp; omega, k.x, ⟨by omega, ?_, ?_⟩, k.y, ⟨?_, ?_⟩, ?_⟩
    · dsimp only; rw [hk]; simp; omega
    · dsimp only; rw [hk, h1]
    · dsimp only; rw [hk]; simp; omega
    · dsimp only; rw [hk, h2]
    · rw [← ho]

theorem eccKey_ne_panic (pk : Bytes) : eccKey pk ≠ .panic := by
  unfold eccKey
  apply Res.bind_ne_panic (asn1Oid_ne_panic _ _)
  rintro ⟨ids, r⟩
  apply Res.bind_ne_panic (asn1Raw_ne_panic _)
  rintro ⟨pp, t⟩
  dsimp only
  split
  · simp
  split
  · simp
  rename_i h1 h2
  rw [sl?_ok (by omega) (by omega), Res.bind_ok]
  rw [show from? pp.bytes (1 + (pp.bytes.length - 1) / 2) = .ok (pp.bytes.drop (1 + (pp.bytes.length - 1) / 2)) from
    from?_iff.mpr ⟨by omega, rfl⟩]
  simp

theorem eccSignature_iff (d : Bytes) (s : EccSig) :
    eccSignature d = .ok s ↔ ∃ i t, d = i ++ t ∧ Item i (s.r ++ s.s) ∧ s.r.length = s.s.length := by
  unfold eccSignature
  simp only [bind_eq_ok, Res.pure_eq, guard_eq_ok, Prod.exists, Res.ok.injEq, asn1Raw_iff,
    sl?_iff, from?_iff]
  constructor
  · rintro ⟨v, t, ⟨rfl, hv⟩, hev, r, ⟨_, _, rfl⟩, s, ⟨_, rfl⟩, rfl⟩
    have : sl v.bytes 0 (v.bytes.length / 2) ++ v.bytes.drop (v.bytes.length / 2) = v.bytes := by
      unfold sl; simp
    refine ⟨v.full, t, rfl, by dsimp only; rw [this]; exact hv, ?_⟩
    dsimp only
    rw [sl_length_of (by omega), List.length_drop]; omega
  · rintro ⟨i, t, rfl, hi, hl⟩
    have hk : (s.r ++ s.s).length / 2 = s.r.length := by simp; omega
    refine ⟨⟨s.r ++ s.s, i⟩, t, ⟨rfl, hi⟩, by simp; omega, s.r, ⟨by omega, by dsimp only; omega, ?_⟩, s.s,
      ⟨by dsimp only; omega, ?_⟩, rfl⟩
    · dsimp only; rw [hk]; unfold sl; simp
    · dsimp only; rw [hk]; simp

theorem eccSignature_ne_panic (d : Bytes) : eccSignature d ≠ .panic := by
  unfold eccSignature
  apply Res.bind_ne_panic (asn1Raw_ne_panic _)
  rintro ⟨v, t⟩
  dsimp only
  split
  · simp
  rw [sl?_ok (by omega) (by omega), Res.bind_ok]
  rw [show from? v.bytes (v.bytes.length / 2) = .ok (v.bytes.drop (v.bytes.length / 2)) from
    from?_iff.mpr ⟨by omega, rfl⟩]
  simp

theorem secTimeReal_iff (d : Bytes) (t : Timestamp) :
    secTimeReal d = .ok t ↔ d.length = 4 ∧ t = ⟨beNat d, 0⟩ := by
  unfold secTimeReal
  split
  · rename_i h; simp [h]
  · rename_i h
    simp only [Res.ok.injEq]
    exact ⟨fun e => ⟨by omega, e.symm⟩, fun e => e.2.symm⟩

/-- C36. The exact acceptance set of the parser and what it reports: sizes 204 to 341, and the nested
items in the fixed order; every reported value is a contiguous part of the input. -/
theorem ecc_parse_iff (d : Bytes) (c : EccCert) :
    unmarshalEcc d = .ok c ↔ 204 ≤ d.length ∧ d.length ≤ 341 ∧
      ∃ f full, EccFields.Layout f d full ∧ EccFields.Reported f d c := by
  unfold unmarshalEcc
  simp only [bind_eq_ok, Res.pure_eq, guard_eq_ok, Prod.exists, Res.ok.injEq, asn1Raw_iff, rawOf_iff,
    eccKey_iff, eccSignature_iff, secTimeReal_iff, at?_iff]
  constructor
  · rintro ⟨hlen, outer, t0, ⟨rfl, ho⟩, body, after, ⟨hob, hbody⟩, cpi, r1, ⟨iCpi, hb1, hCpi, hl1⟩, p, ⟨hp, hpe⟩,
      car, r2, ⟨iCar, rfl, hCar, hlCar⟩, cha, r3, ⟨iCha, rfl, hCha, hlCha⟩, pk, r4, ⟨rfl, hpk⟩,
      key, ⟨l, oid, ids, iPoint, t3, hkey, hl, hoid, hpoint, hxy, hko⟩,
      chr, r5, ⟨iChr, rfl, hChr, hlChr⟩, cefd, r6, ⟨iEff, rfl, hEff, hlEff⟩, ef, ⟨_, rfl⟩,
      cexd, t2, ⟨iExp, rfl, hExp, hlExp⟩, ex, ⟨_, rfl⟩, sig, ⟨iSig, t1, rfl, hSig, hrs⟩, rfl⟩
    refine ⟨by omega, by omega, ⟨p, car, cha, ids, key.x, key.y, chr, cefd, cexd, sig.r, sig.s⟩, body.full, ?_, ?_⟩
    · refine ⟨outer.full, iCpi, iCar, iCha, pk.full, l, oid, iPoint, iChr, iEff, iExp, iSig, t0, t1, t2, t3, rfl, ?_, ?_,
        ?_, hCar, hlCar, hCha, hlCha, ?_, hl, hoid, hpoint, hxy, hChr, hlChr, hEff, hlEff, hExp, hlExp, hSig, hrs⟩
      · rw [← hob]; exact ho
      · rw [← hb1]; exact hbody
      · have : cpi = [p] := by
          match cpi, hl1, hpe with
          | [x], _, hpe => exact hpe
        rw [← this]; exact hCpi
      · rw [← hkey]; exact hpk
    · exact ⟨rfl, decimal_spec _, rfl, ⟨key.oid, by rw [hko]; exact oidString_spec _, rfl⟩, decimal_spec _,
        rfl, rfl, rfl, rfl, rfl⟩
  · rintro ⟨h1, h2, f, full, ⟨iOuter, iCpi, iCar, iCha, iKey, l, oid, iPoint, iChr, iEff, iExp, iSig, t0, t1, t2, t3,
      rfl, ho, hbody, hCpi, hCar, hlCar, hCha, hlCha, hKey, hl, hoid, hpoint, hxy, hChr, hlChr, hEff, hlEff, hExp,
      hlExp, hSig, hrs⟩, ⟨e1, e2, e3, ⟨o, ho', e4⟩, e5, e6, e7, e8, e9, e10⟩⟩
    refine ⟨by omega, ⟨_, iOuter⟩, t0, ⟨rfl, ho⟩, ⟨_, full⟩, _, ⟨rfl, hbody⟩, [f.profile], _, ⟨iCpi, rfl, hCpi, rfl⟩,
      f.profile, ⟨by simp, rfl⟩, f.car, _, ⟨iCar, rfl, hCar, hlCar⟩, f.cha, _, ⟨iCha, rfl, hCha, hlCha⟩,
      ⟨_, iKey⟩, _, ⟨rfl, hKey⟩, ⟨o, f.x, f.y⟩,
      ⟨l, oid, f.ids, iPoint, t3, rfl, hl, hoid, hpoint, hxy, isDotted_iff.mp ho'⟩,
      f.chr, _, ⟨iChr, rfl, hChr, hlChr⟩, f.effective, _, ⟨iEff, rfl, hEff, hlEff⟩, _, ⟨hlEff, rfl⟩,
      f.expiration, _, ⟨iExp, rfl, hExp, hlExp⟩, _, ⟨hlExp, rfl⟩, ⟨f.r, f.s⟩, ⟨iSig, t1, rfl, hSig, hrs⟩, ?_⟩
    cases c
    simp only at *
    rw [e1, isDecimal_iff.mp e2, e3, e4, isDecimal_iff.mp e5, e6, e7, e8, e9, e10]

/-- C36: no input makes the parser panic. -/
theorem ecc_parse_ne_panic (d : Bytes) : unmarshalEcc d ≠ .panic := by
  unfold unmarshalEcc
  split
  · simp
  apply Res.bind_ne_panic (asn1Raw_ne_panic _)
  rintro ⟨outer, _⟩
  apply Res.bind_ne_panic (asn1Raw_ne_panic _)
  rintro ⟨body, after⟩
  dsimp only
  cases h : rawOf 1 body.bytes with
  | err m => simp
  | panic => exact absurd h (rawOf_ne_panic _ _)
  | ok p =>
  obtain ⟨cpi, r⟩ := p
  obtain ⟨i, _, _, hl⟩ := (rawOf_iff _ _ _ _).mp h
  obtain ⟨b, hb⟩ : ∃ b, at? cpi 0 = .ok b := ⟨_, at?_iff.mpr ⟨by omega, sl_eq_singleton (by omega)⟩⟩
  simp only [Res.bind_ok, hb]
  apply Res.bind_ne_panic (rawOf_ne_panic _ _)
  rintro ⟨car, r⟩
  apply Res.bind_ne_panic (rawOf_ne_panic _ _)
  rintro ⟨cha, r⟩
  apply Res.bind_ne_panic (asn1Raw_ne_panic _)
  rintro ⟨pk, r⟩
  apply Res.bind_ne_panic (eccKey_ne_panic _)
  intro key
  apply Res.bind_ne_panic (rawOf_ne_panic _ _)
  rintro ⟨chr, r⟩
  apply Res.bind_ne_panic (rawOf_ne_panic _ _)
  rintro ⟨ef, r⟩
  apply Res.bind_ne_panic (by unfold secTimeReal; split <;> simp)
  intro ef
  apply Res.bind_ne_panic (rawOf_ne_panic _ _)
  rintro ⟨ex, r⟩
  apply Res.bind_ne_panic (by unfold secTimeReal; split <;> simp)
  intro ex
  apply Res.bind_ne_panic (eccSignature_ne_panic _)
  intro sig
  simp

/-- C36: the writer returns the destination followed by the parsed bytes. -/
theorem ecc_append_restores (d dst : Bytes) (c : EccCert) (h : unmarshalEcc d = .ok c) :
    appendEcc dst (some c) = .ok (dst ++ d) := by
  obtain ⟨h1, h2, f, full, _, ⟨_, _, _, _, _, _, _, _, hr, _⟩⟩ := (ecc_parse_iff d c).mp h
  simp only [appendEcc]
  rw [if_pos (by rw [hr]; omega), if_neg (by rw [hr]; omega), hr]

/-- The writer of a certificate: its raw data, or an error, never a panic. -/
theorem ecc_append_iff (dst out : Bytes) (c : EccCert) :
    appendEcc dst (some c) = .ok out ↔ 204 ≤ c.raw.length ∧ c.raw.length ≤ 341 ∧ out = dst ++ c.raw := by
  simp only [appendEcc]
  split
  · split
    · constructor
      · intro h; simp at h
      · rintro ⟨h1, h2, _⟩; omega
    · simp only [Res.ok.injEq]
      exact ⟨fun h => ⟨by omega, by omega, h.symm⟩, fun h => h.2.2.symm⟩
  · constructor
    · intro h; simp at h
    · rintro ⟨h1, h2, _⟩; omega

/-! A concrete certificate of 205 bytes (brainpoolP256r1, 32 byte coordinates and signature halves). -/

/-- The body's fields. -/
def sampleKey : Bytes :=
  [0x06, 0x09, 0x2B, 0x24, 0x03, 0x03, 0x02, 0x08, 0x01, 0x01, 0x07, 0x86, 0x41, 0x04] ++
    List.replicate 32 0xAA ++ List.replicate 32 0xBB
def sampleBody : Bytes :=
  [0x7F, 0x4E, 0x81, 0x82, 0x5F, 0x29, 0x01, 0x00, 0x42, 0x08, 1, 2, 3, 4, 5, 6, 7, 8,
   0x5F, 0x4C, 0x07, 1, 2, 3, 4, 5, 6, 7, 0x7F, 0x49, 0x4E] ++ sampleKey ++
  [0x5F, 0x20, 0x08, 8, 7, 6, 5, 4, 3, 2, 1, 0x5F, 0x25, 0x04, 0, 0, 0, 1, 0x5F, 0x24, 0x04, 0, 0, 0, 2]
def sampleCert : Bytes :=
  [0x7F, 0x21, 0x81, 0xC9] ++ sampleBody ++ [0x5F, 0x37, 0x40] ++ List.replicate 32 0x11 ++ List.replicate 32 0x22

theorem item_short (b1 b2 n : UInt8) (content : Bytes) (h1 : b1.toNat % 32 = 31) (h2 : b2.toNat < 128)
    (h3 : 31 ≤ b2.toNat) (h4 : n.toNat < 128) (h5 : content.length = n.toNat) :
    Item (b1 :: b2 :: n :: content) content := by
  refine ⟨[b1, b2], [n], by simp, .inr ⟨b1, [b2], b2.toNat, rfl, h1, ⟨⟨[], b2, rfl, by simp, h2⟩, by simp, ?_, ?_, by omega⟩, h3⟩,
    .inl ⟨n, rfl, h4, h5⟩⟩
  · simp only [List.head?_cons, ne_eq, Option.some.injEq]
    rintro rfl; simp at h2
  · simp [septets]; omega

theorem sample_layout : EccFields.Layout
    ⟨0, [1, 2, 3, 4, 5, 6, 7, 8], [1, 2, 3, 4, 5, 6, 7], [1, 3, 36, 3, 3, 2, 8, 1, 1, 7], List.replicate 32 0xAA,
      List.replicate 32 0xBB, [8, 7, 6, 5, 4, 3, 2, 1], [0, 0, 0, 1], [0, 0, 0, 2],
      List.replicate 32 0x11, List.replicate 32 0x22⟩ sampleCert sampleBody := by
  have hb : ∀ b : UInt8, b.toNat < 128 → Base128 [b] b.toNat := by
    intro b h
    refine ⟨⟨[], b, rfl, by simp, h⟩, by simp, ?_, by simp [septets]; omega, by omega⟩
    simp only [List.head?_cons, ne_eq, Option.some.injEq]
    rintro rfl; simp at h
  have long : ∀ b1 b2 n : UInt8, ∀ content : Bytes, b1.toNat % 32 = 31 → b2.toNat < 128 → 31 ≤ b2.toNat →
      128 ≤ n.toNat → content.length = n.toNat → Item (b1 :: b2 :: 0x81 :: n :: content) content := by
    intro b1 b2 n content h1 h2 h3 h4 h5
    refine ⟨[b1, b2], [0x81, n], by simp, .inr ⟨b1, [b2], b2.toNat, rfl, h1, hb b2 h2, h3⟩,
      .inr ⟨0x81, [n], rfl, rfl, by simp, ?_, by simp [beNat, h5], by omega, by have := n.toNat_lt; omega⟩⟩
    simp only [List.head?_cons, ne_eq, Option.some.injEq]
    rintro rfl; simp at h4
  refine ⟨sampleCert, [0x5F, 0x29, 0x01, 0x00], [0x42, 0x08, 1, 2, 3, 4, 5, 6, 7, 8], [0x5F, 0x4C, 0x07, 1, 2, 3, 4, 5, 6, 7],
    [0x7F, 0x49, 0x4E] ++ sampleKey, [0x09], [0x2B, 0x24, 0x03, 0x03, 0x02, 0x08, 0x01, 0x01, 0x07],
    [0x86, 0x41, 0x04] ++ List.replicate 32 0xAA ++ List.replicate 32 0xBB,
    [0x5F, 0x20, 0x08, 8, 7, 6, 5, 4, 3, 2, 1], [0x5F, 0x25, 0x04, 0, 0, 0, 1], [0x5F, 0x24, 0x04, 0, 0, 0, 2],
    [0x5F, 0x37, 0x40] ++ List.replicate 32 0x11 ++ List.replicate 32 0x22, [], [], [], [],
    by simp, ?_, ?_, ?_, ?_, rfl, ?_, rfl, ?_, ?_, ?_, ?_, by simp, ?_, rfl, ?_, rfl, ?_, rfl, ?_, by simp⟩
  · exact long _ _ 0xC9 _ (by decide) (by decide) (by decide) (by decide) (by decide +kernel)
  · exact long _ _ 0x82 _ (by decide) (by decide) (by decide) (by decide) (by decide +kernel)
  · exact item_short _ _ _ _ (by decide) (by decide) (by decide) (by decide) (by decide)
  · exact ⟨[0x42], [0x08], by simp, .inl ⟨0x42, rfl, by decide⟩, .inl ⟨8, rfl, by decide, rfl⟩⟩
  · exact item_short _ _ _ _ (by decide) (by decide) (by decide) (by decide) (by decide)
  · exact item_short _ _ 0x4E _ (by decide) (by decide) (by decide) (by decide) (by decide +kernel)
  · exact .inl ⟨9, rfl, by decide, rfl⟩
  · refine ⟨[0x2B], 43, [([0x24], 36), ([3], 3), ([3], 3), ([2], 2), ([8], 8), ([1], 1), ([1], 1), ([7], 7)], rfl,
      hb 0x2B (by decide), ?_, rfl⟩
    intro p hp
    simp only [List.mem_cons, List.not_mem_nil, or_false] at hp
    rcases hp with rfl | rfl | rfl | rfl | rfl | rfl | rfl | rfl <;> exact hb _ (by decide)
  · exact ⟨[0x86], [0x41], by decide +kernel, .inl ⟨0x86, rfl, by decide⟩, .inl ⟨0x41, rfl, by decide, by decide +kernel⟩⟩
  · exact item_short _ _ _ _ (by decide) (by decide) (by decide) (by decide) (by decide)
  · exact item_short _ _ _ _ (by decide) (by decide) (by decide) (by decide) (by decide)
  · exact item_short _ _ _ _ (by decide) (by decide) (by decide) (by decide) (by decide)
  · exact item_short _ _ 0x40 _ (by decide) (by decide) (by decide) (by decide) (by decide +kernel)

/-- The sample parses, so the theorems above are not about nothing. -/
theorem sample_parses : ∃ c, unmarshalEcc sampleCert = .ok c ∧
    c.publicKey = some ⟨oidString [1, 3, 36, 3, 3, 2, 8, 1, 1, 7], List.replicate 32 0xAA, List.replicate 32 0xBB⟩ ∧
    c.signature = some ⟨List.replicate 32 0x11, List.replicate 32 0x22⟩ ∧ c.raw = sampleCert := by
  refine ⟨{ profile := 0, car := decimal (beNat [1, 2, 3, 4, 5, 6, 7, 8]), cha := [1, 2, 3, 4, 5, 6, 7],
            publicKey := some ⟨oidString [1, 3, 36, 3, 3, 2, 8, 1, 1, 7], List.replicate 32 0xAA, List.replicate 32 0xBB⟩,
            chr := decimal (beNat [8, 7, 6, 5, 4, 3, 2, 1]), effective := some ⟨beNat [0, 0, 0, 1], 0⟩,
            expiration := some ⟨beNat [0, 0, 0, 2], 0⟩,
            signature := some ⟨List.replicate 32 0x11, List.replicate 32 0x22⟩, raw := sampleCert }, ?_, rfl, rfl, rfl⟩
  rw [ecc_parse_iff]
  exact ⟨by decide +kernel, by decide +kernel, _, _, sample_layout, rfl, decimal_spec _, rfl,
    ⟨_, oidString_spec _, rfl⟩, decimal_spec _, rfl, rfl, rfl, rfl, rfl⟩

/-! ## C37: verifying -/

theorem lookup_eq_some_iff {α β : Type} [BEq α] [LawfulBEq α] {l : List (α × β)} {a : α} {b : β}
    (hn : (l.map Prod.fst).Nodup) : l.lookup a = some b ↔ (a, b) ∈ l := by
  induction l with
  | nil => simp
  | cons p l ih =>
    obtain ⟨x, y⟩ := p
    simp only [List.map_cons, List.nodup_cons] at hn
    rw [List.lookup_cons]
    by_cases h : a = x
    · subst h
      simp only [beq_self_eq_true, Option.some.injEq, List.mem_cons, Prod.mk.injEq, true_and]
      constructor
      · intro e; exact .inl e.symm
      · rintro (e | e)
        · exact e.symm
        · exact absurd (List.mem_map_of_mem (f := Prod.fst) e) hn.1
    · have : (a == x) = false := by simpa using h
      simp [this, ih hn.2, h]

theorem curveByOid_mem (ids : List Nat) (k : Curve) : curveByOid.lookup ids = some k ↔ (ids, k) ∈ curves := by
  rw [lookup_eq_some_iff (by decide)]
  rfl

theorem curveByString_eq : curveByString = curves.map fun p => (oidString p.1, p.2) := by
  have h1 : decimal 1 = [49] := by rw [decimal]; decide
  have h0 : decimal 0 = [48] := by rw [decimal]; decide
  have h2 : decimal 2 = [50] := by rw [decimal]; decide
  have h3 : decimal 3 = [51] := by rw [decimal]; decide
  have h7 : decimal 7 = [55] := by rw [decimal]; decide
  have h8 : decimal 8 = [56] := by rw [decimal]; decide
  have h11 : decimal 11 = [49, 49] := by rw [decimal, if_neg (by decide), h1]; decide
  have h13 : decimal 13 = [49, 51] := by rw [decimal, if_neg (by decide), h1]; decide
  have h34 : decimal 34 = [51, 52] := by rw [decimal, if_neg (by decide), h3]; decide
  have h35 : decimal 35 = [51, 53] := by rw [decimal, if_neg (by decide), h3]; decide
  have h36 : decimal 36 = [51, 54] := by rw [decimal, if_neg (by decide), h3]; decide
  have h132 : decimal 132 = [49, 51, 50] := by rw [decimal, if_neg (by decide), h13]; decide
  have h84 : decimal 84 = [56, 52] := by rw [decimal, if_neg (by decide), h8]; decide
  have h840 : decimal 840 = [56, 52, 48] := by rw [decimal, if_neg (by decide), h84]; decide
  have h10 : decimal 10 = [49, 48] := by rw [decimal, if_neg (by decide), h1]; decide
  have h100 : decimal 100 = [49, 48, 48] := by rw [decimal, if_neg (by decide), h10]; decide
  have h1004 : decimal 1004 = [49, 48, 48, 52] := by rw [decimal, if_neg (by decide), h100]; decide
  have h10045 : decimal 10045 = [49, 48, 48, 52, 53] := by rw [decimal, if_neg (by decide), h1004]; decide
  simp only [curveByString, curves, List.map_cons, List.map_nil, oidString, h0, h1, h2, h3, h7, h8, h11, h13, h34, h35,
    h36, h132, h840, h10045]
  decide +kernel

theorem oidString_head_digit (ids : List Nat) (b : UInt8) (t : Bytes) (h : oidString ids = b :: t) :
    48 ≤ b.toNat ∧ b.toNat ≤ 57 := by
  cases ids with
  | nil => simp [oidString] at h
  | cons a r =>
    obtain ⟨s, hs, _⟩ := oidString_cons a r
    have hd := decimal_spec a
    rw [hs] at h
    cases hx : decimal a with
    | nil => exact absurd hx hd.1
    | cons y u =>
      rw [hx] at h
      simp only [List.cons_append, List.cons.injEq] at h
      have := hd.2.1 y (by rw [hx]; simp)
      rw [← h.1]; exact this

/-- The identifier strings that name a curve, exactly. -/
theorem parseCurve_iff (oid : Bytes) (k : Curve) : parseCurveOID oid = .ok k ↔ NamesCurve oid k := by
  have hnd : (curveByString.map Prod.fst).Nodup := by decide +kernel
  have hstr : ∀ s k, curveByString.lookup s = some k ↔ ∃ ids, (ids, k) ∈ curves ∧ IsDotted s ids := by
    intro s k
    rw [lookup_eq_some_iff hnd, curveByString_eq, List.mem_map]
    constructor
    · rintro ⟨⟨ids, k'⟩, hm, e⟩
      simp only [Prod.mk.injEq] at e
      exact ⟨ids, e.2 ▸ hm, e.1 ▸ oidString_spec ids⟩
    · rintro ⟨ids, hm, hd⟩
      exact ⟨(ids, k), hm, by rw [isDotted_iff.mp hd]⟩
  have hctx : ∀ ids r, asn1Oid 2 oid = .ok (ids, r) ↔ ∃ l content, oid = 0x86 :: l ++ content ++ r ∧
      LengthOctets l content.length ∧ OidOctets content ids := by
    intro ids r
    rw [asn1Oid_iff]
    constructor
    · rintro ⟨b, l, c, rfl, hb, h⟩
      have : b = 0x86 := UInt8.toNat_inj.mp (by rw [hb]; rfl)
      exact ⟨l, c, by rw [this], h⟩
    · rintro ⟨l, c, rfl, h⟩; exact ⟨0x86, l, c, rfl, rfl, h⟩
  unfold parseCurveOID NamesCurve
  cases h : asn1Oid 2 oid with
  | panic => exact absurd h (asn1Oid_ne_panic _ _)
  | ok p =>
    obtain ⟨ids, r⟩ := p
    dsimp only
    obtain ⟨l, c, e, hl, ho⟩ := (hctx ids r).mp h
    have hnot : ∀ ids', ¬ IsDotted oid ids' := by
      intro ids' hd
      have := oidString_head_digit ids' 0x86 (l ++ c ++ r) (by rw [← isDotted_iff.mp hd, e]; simp)
      simp at this
    have hother : ∀ ids', (∃ l content t, oid = 0x86 :: l ++ content ++ t ∧ LengthOctets l content.length ∧
        OidOctets content ids') → ids' = ids := by
      rintro ids' ⟨l', c', t', e', hl', ho'⟩
      have := (hctx ids' t').mpr ⟨l', c', e', hl', ho'⟩
      rw [h] at this
      simp only [Res.ok.injEq, Prod.mk.injEq] at this
      exact this.1.symm
    constructor
    · intro hk
      cases hlk : curveByOid.lookup ids with
      | none => rw [hlk] at hk; simp at hk
      | some k' =>
        rw [hlk] at hk
        simp only [Res.ok.injEq] at hk
        exact ⟨ids, (curveByOid_mem ids k).mp (hk ▸ hlk), .inr ⟨l, c, r, e, hl, ho⟩⟩
    · rintro ⟨ids', hm, hd | hd⟩
      · exact absurd hd (hnot _)
      · rw [hother ids' hd] at hm
        rw [(curveByOid_mem ids k).mpr hm]
  | err m =>
    dsimp only
    constructor
    · intro hk
      cases hlk : curveByString.lookup oid with
      | none => rw [hlk] at hk; simp at hk
      | some k' =>
        rw [hlk] at hk
        simp only [Res.ok.injEq] at hk
        obtain ⟨ids, hm, hd⟩ := (hstr oid k).mp (hk ▸ hlk)
        exact ⟨ids, hm, .inl hd⟩
    · rintro ⟨ids', hm, hd | ⟨l, c, t, e, hl, ho⟩⟩
      · rw [(hstr oid k).mpr ⟨ids', hm, hd⟩]
      · have := (hctx ids' t).mpr ⟨l, c, e, hl, ho⟩
        rw [h] at this; simp at this

theorem parseCurve_ne_panic (oid : Bytes) : parseCurveOID oid ≠ .panic := by
  unfold parseCurveOID
  split
  · split <;> simp
  · split <;> simp
  · rename_i h; exact absurd h (asn1Oid_ne_panic _ _)

theorem eccBody_iff (raw full : Bytes) : eccBody raw = .ok full ↔ SignedPart raw full := by
  unfold eccBody SignedPart
  simp only [bind_eq_ok, Res.pure_eq, Prod.exists, Res.ok.injEq, asn1Raw_iff]
  constructor
  · rintro ⟨o, t0, ⟨rfl, ho⟩, b, t1, ⟨hb, hi⟩, rfl⟩
    exact ⟨o.full, b.bytes, t0, t1, rfl, hb ▸ ho, hi⟩
  · rintro ⟨i, c, t0, t1, rfl, ho, hi⟩
    exact ⟨⟨_, i⟩, t0, ⟨rfl, ho⟩, ⟨c, full⟩, t1, ⟨rfl, hi⟩, rfl⟩

theorem eccBody_ne_panic (raw : Bytes) : eccBody raw ≠ .panic := by
  unfold eccBody
  apply Res.bind_ne_panic (asn1Raw_ne_panic _)
  rintro ⟨o, t⟩
  apply Res.bind_ne_panic (asn1Raw_ne_panic _)
  rintro ⟨o, t⟩
  simp

/-- For a certificate the parser accepted, the signed part is the body item the parser read the fields
from. -/
theorem signed_part_of_parsed (f : EccFields) (d full : Bytes) (h : EccFields.Layout f d full) (full' : Bytes) :
    SignedPart d full' ↔ full' = full := by
  obtain ⟨iOuter, iCpi, iCar, iCha, iKey, l, oid, iPoint, iChr, iEff, iExp, iSig, t0, t1, t2, t3,
      rfl, ho, hbody, _⟩ := h
  have : SignedPart (iOuter ++ t0) full := ⟨iOuter, _, t0, _, rfl, ho, hbody⟩
  constructor
  · intro h
    have h1 := (eccBody_iff _ _).mpr this
    rw [(eccBody_iff _ _).mpr h] at h1
    simpa using h1
  · rintro rfl; exact this

section
variable [Crypto]

theorem eccHash_eq (k : Curve) (d : Bytes) : eccHash (hashBits k) d = digest k d := by
  cases k <;> rfl

/-- C37. The verdict is nil exactly when the certificate's size is allowed, the authority has a key on
a known curve, the certificate has a signature, and ECDSA accepts that signature for the signed part's
digest under the authority's point; then the mark is set and nothing else changes. -/
theorem ecc_verify_iff (c c' ca : EccCert) :
    verifyEcc (some c) (some ca) = (some c', .ok ()) ↔
      204 ≤ c.raw.length ∧ c.raw.length ≤ 341 ∧ ∃ key curve body sig,
        ca.publicKey = some key ∧ key.x ≠ [] ∧ key.y ≠ [] ∧ NamesCurve key.oid curve ∧
        SignedPart c.raw body ∧ c.signature = some sig ∧
        Crypto.ecdsaVerify curve (beNat key.x) (beNat key.y) (digest curve body) (beNat sig.r)
          (beNat sig.s) = some true ∧
        c' = { c with valid := true } := by
  rw [verifyEcc]
  split
  · rename_i h
    constructor
    · intro h; simp at h
    · rintro ⟨_, _, _⟩; omega
  rename_i hlen
  split
  · rename_i hk
    constructor
    · intro h; simp at h
    · rintro ⟨_, _, key, _, _, _, h, _⟩; rw [hk] at h; simp at h
  rename_i key hkey
  have hk' : ∀ k, ca.publicKey = some k → k = key := by
    intro k h; rw [hkey] at h; simpa using h.symm
  split
  · rename_i hxy
    constructor
    · intro h; simp at h
    · rintro ⟨_, _, k, _, _, _, h, hx, hy, _⟩
      obtain rfl := hk' k h
      simp only [List.length_eq_zero_iff] at hxy
      rcases hxy with hxy | hxy
      · exact absurd hxy hx
      · exact absurd hxy hy
  rename_i hxy
  have hx : key.x ≠ [] := fun h => hxy (.inl (by rw [h]; rfl))
  have hy : key.y ≠ [] := fun h => hxy (.inr (by rw [h]; rfl))
  split
  · rename_i m hm
    constructor
    · intro h; simp at h
    · rintro ⟨_, _, k, cv, _, _, h, _, _, hn, _⟩
      obtain rfl := hk' k h
      rw [(parseCurve_iff _ _).mpr hn] at hm; simp at hm
  · rename_i hm; exact absurd hm (parseCurve_ne_panic _)
  rename_i curve hcurve
  split
  · rename_i m hm
    constructor
    · intro h; simp at h
    · rintro ⟨_, _, k, cv, _, _, h, _, _, _, hb, _⟩
      rw [(eccBody_iff _ _).mpr hb] at hm; simp at hm
  · rename_i hm; exact absurd hm (eccBody_ne_panic _)
  rename_i body hbody
  rw [eccHash_eq]
  have hfin : (204 ≤ c.raw.length ∧ c.raw.length ≤ 341 ∧ ∃ key curve body sig,
        ca.publicKey = some key ∧ key.x ≠ [] ∧ key.y ≠ [] ∧ NamesCurve key.oid curve ∧
        SignedPart c.raw body ∧ c.signature = some sig ∧
        Crypto.ecdsaVerify curve (beNat key.x) (beNat key.y) (digest curve body) (beNat sig.r)
          (beNat sig.s) = some true ∧ c' = { c with valid := true }) ↔
      ∃ sig, c.signature = some sig ∧
        Crypto.ecdsaVerify curve (beNat key.x) (beNat key.y) (digest curve body) (beNat sig.r)
          (beNat sig.s) = some true ∧ c' = { c with valid := true } := by
    constructor
    · rintro ⟨_, _, k, cv, b, sig, h, _, _, hn, hb, hs, hv, hc⟩
      obtain rfl := hk' k h
      have h1 := (parseCurve_iff _ _).mpr hn
      have h2 := (eccBody_iff _ _).mpr hb
      rw [hcurve] at h1
      rw [hbody] at h2
      simp only [Res.ok.injEq] at h1 h2
      subst h1 h2
      exact ⟨sig, hs, hv, hc⟩
    · rintro ⟨sig, hs, hv, hc⟩
      exact ⟨by omega, by omega, key, curve, body, sig, hkey, hx, hy, (parseCurve_iff _ _).mp hcurve,
        (eccBody_iff _ _).mp hbody, hs, hv, hc⟩
  rw [hfin]
  split
  · rename_i hs
    constructor
    · intro h; simp at h
    · rintro ⟨sig, h, _⟩; rw [hs] at h; simp at h
  rename_i sig hs
  rw [hs]
  simp only [Option.some.injEq]
  split
  · rename_i hv
    constructor
    · intro h; simp at h
    · rintro ⟨sig, rfl, h, _⟩; rw [hv] at h; simp at h
  · rename_i hv
    constructor
    · intro h
      simp only [Prod.mk.injEq, Option.some.injEq, and_true] at h
      exact ⟨sig, rfl, hv, h.symm⟩
    · rintro ⟨sig, rfl, _, rfl⟩; rfl
  · rename_i hv
    constructor
    · intro h; simp at h
    · rintro ⟨sig, rfl, h, _⟩; rw [hv] at h; simp at h

/-- C37. The mark equals the outcome of ECDSA whenever ECDSA is reached; nothing but the mark ever
changes; and the only possible panic is one of ECDSA itself. -/
theorem ecc_verify_effect (c ca : EccCert) :
    (∃ c', (verifyEcc (some c) (some ca)).1 = some c' ∧ { c' with valid := c.valid } = c) ∧
    ((verifyEcc (some c) (some ca)).2 = .panic →
      ∃ curve x y h r s, Crypto.ecdsaVerify curve x y h r s = none) ∧
    (∀ key curve body sig, 204 ≤ c.raw.length → c.raw.length ≤ 341 → ca.publicKey = some key →
      key.x ≠ [] → key.y ≠ [] → NamesCurve key.oid curve → SignedPart c.raw body →
      c.signature = some sig → ∀ b,
      Crypto.ecdsaVerify curve (beNat key.x) (beNat key.y) (digest curve body) (beNat sig.r)
        (beNat sig.s) = some b →
      (verifyEcc (some c) (some ca)).1 = some { c with valid := b } ∧
      ((verifyEcc (some c) (some ca)).2 = .ok () ↔ b = true)) := by
  refine ⟨?_, ?_, ?_⟩
  · rw [verifyEcc]
    split
    · exact ⟨_, rfl, rfl⟩
    split
    · exact ⟨_, rfl, rfl⟩
    split
    · exact ⟨_, rfl, rfl⟩
    split
    · exact ⟨_, rfl, rfl⟩
    · exact ⟨_, rfl, rfl⟩
    split
    · exact ⟨_, rfl, rfl⟩
    · exact ⟨_, rfl, rfl⟩
    split
    · exact ⟨_, rfl, rfl⟩
    split <;> exact ⟨_, rfl, rfl⟩
  · rw [verifyEcc]
    split
    · intro h; simp at h
    split
    · intro h; simp at h
    split
    · intro h; simp at h
    split
    · intro h; simp at h
    · rename_i hm; exact absurd hm (parseCurve_ne_panic _)
    split
    · intro h; simp at h
    · rename_i hm; exact absurd hm (eccBody_ne_panic _)
    split
    · intro h; simp at h
    split
    · rename_i h; intro _; exact ⟨_, _, _, _, _, _, h⟩
    · intro h; simp at h
    · intro h; simp at h
  · intro key curve body sig h1 h2 hk hx hy hn hb hs b hv
    have hx' : key.x.length ≠ 0 := fun h => hx (List.length_eq_zero_iff.mp h)
    have hy' : key.y.length ≠ 0 := fun h => hy (List.length_eq_zero_iff.mp h)
    rw [verifyEcc, if_neg (by omega), hk]
    dsimp only
    rw [if_neg (by omega), (parseCurve_iff _ _).mpr hn]
    dsimp only
    rw [(eccBody_iff _ _).mpr hb]
    dsimp only
    rw [hs]
    dsimp only
    rw [eccHash_eq, hv]
    cases b <;> simp

/-- C37. A verification that fails never leaves a mark that was not there: the certificate is unchanged or marked as not
valid. A certificate without a signature is marked as not valid. -/
theorem ecc_failed_mark (c ca : EccCert) (h : (verifyEcc (some c) (some ca)).2 ≠ .ok ()) :
    ((verifyEcc (some c) (some ca)).1 = some c ∨ (verifyEcc (some c) (some ca)).1 = some { c with valid := false }) ∧
    (∀ key curve body, 204 ≤ c.raw.length → c.raw.length ≤ 341 → ca.publicKey = some key →
      key.x ≠ [] → key.y ≠ [] → NamesCurve key.oid curve → SignedPart c.raw body → c.signature = none →
      (verifyEcc (some c) (some ca)).1 = some { c with valid := false }) := by
  refine ⟨?_, ?_⟩
  · revert h
    rw [verifyEcc]
    repeat' split
    all_goals first
      | exact fun _ => .inl rfl
      | exact fun _ => .inr rfl
      | exact fun h => absurd rfl h
  · intro key curve body h1 h2 hk hx hy hn hb hs
    have hx' : key.x.length ≠ 0 := fun h => hx (List.length_eq_zero_iff.mp h)
    have hy' : key.y.length ≠ 0 := fun h => hy (List.length_eq_zero_iff.mp h)
    rw [verifyEcc, if_neg (by omega), hk]
    dsimp only
    rw [if_neg (by omega), (parseCurve_iff _ _).mpr hn]
    dsimp only
    rw [(eccBody_iff _ _).mpr hb]
    dsimp only
    rw [hs]

/-- C37. An authority whose object identifier names no known curve verifies nothing. -/
theorem ecc_unknown_curve_refused (c ca : EccCert) (key : EccKey) (hk : ca.publicKey = some key)
    (h : ∀ curve, ¬ NamesCurve key.oid curve) : (verifyEcc (some c) (some ca)).2 ≠ .ok () := by
  intro hok
  obtain ⟨⟨c', hc', _⟩, _⟩ := ecc_verify_effect c ca
  obtain ⟨_, _, k, cv, _, _, h1, _, _, hn, _⟩ := (ecc_verify_iff c c' ca).mp (Prod.ext hc' hok)
  rw [hk] at h1
  simp only [Option.some.injEq] at h1
  exact h cv (h1 ▸ hn)

/-- A nil argument is an error. -/
theorem ecc_verify_nil (cert ca : Option EccCert) (h : cert = none ∨ ca = none) :
    (verifyEcc cert ca).2 ≠ .ok () ∧ (verifyEcc cert ca).1 = cert := by
  rcases h with rfl | rfl
  · simp [verifyEcc]
  · cases cert <;> simp [verifyEcc]

/-- Like the first generation check, an early error leaves an old mark in place. -/
theorem ecc_stale_mark : ∃ c ca : EccCert, c.valid = true ∧ (verifyEcc (some c) (some ca)).2 ≠ .ok () ∧
    (verifyEcc (some c) (some ca)).1 = some c := by
  refine ⟨{ raw := zeros 204, valid := true }, {}, rfl, ?_, ?_⟩ <;>
    simp [verifyEcc, zeros_length]

/-- For an authority that came out of the parser, the curve is the one of the object identifier in its
bytes. -/
theorem parsed_key_curve (d : Bytes) (ca : EccCert) (h : unmarshalEcc d = .ok ca) :
    ∃ f full key, EccFields.Layout f d full ∧ ca.publicKey = some key ∧
      ∀ k, NamesCurve key.oid k ↔ (f.ids, k) ∈ curves := by
  obtain ⟨_, _, f, full, hl, hr⟩ := (ecc_parse_iff d ca).mp h
  obtain ⟨oid, ho, hk⟩ := hr.2.2.2.1
  refine ⟨f, full, _, hl, hk, ?_⟩
  intro k
  have he := isDotted_iff.mp ho
  constructor
  · rintro ⟨ids, hm, hd | ⟨l, c, t, e, _, _⟩⟩
    · have := oidString_inj ((isDotted_iff.mp ho).symm.trans (isDotted_iff.mp hd))
      rw [this]; exact hm
    · have := oidString_head_digit f.ids 0x86 (l ++ c ++ t) (by rw [← he]; simpa using e)
      simp at this
  · intro hm; exact ⟨f.ids, hm, .inl ho⟩

end

/-- With an ECDSA that accepts, the sample certificate is verified by itself as authority. -/
theorem ecc_sample_verifies : ∃ i : Crypto, ∃ c c', unmarshalEcc sampleCert = .ok c ∧
    @verifyEcc i (some c) (some c) = (some c', .ok ()) ∧ c'.valid = true := by
  obtain ⟨c, hc, hk, hs, hr⟩ := sample_parses
  refine ⟨⟨fun _ => zeros 20, fun _ => by simp [zeros_length], fun _ => [], fun _ => [], fun _ => [],
    fun _ _ _ _ _ _ => some true⟩, c, { c with valid := true }, hc, ?_, rfl⟩
  rw [@ecc_verify_iff]
  refine ⟨by rw [hr]; decide +kernel, by rw [hr]; decide +kernel, _, .brainpoolP256r1, sampleBody, _, hk,
    by simp, by simp, ⟨_, by simp [curves], .inl (oidString_spec _)⟩, ?_, hs, rfl, rfl⟩
  rw [hr]
  exact (signed_part_of_parsed _ _ _ sample_layout _).mpr rfl

end Tacho
