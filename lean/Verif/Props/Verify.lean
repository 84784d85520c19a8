import Verif.Spec.Verification
import Verif.Props.Certificates
import Verif.Props.EccCertificates
import Verif.Props.Resolvers
/-!
# Verification of driver cards (C32)
-/

namespace Tacho
open Spec

variable [Crypto] {σ : Type}

omit [Crypto] in
theorem hasKey_iff (ca : RsaCert) : HasKey ca ↔ ¬ (ca.modulus.length = 0 ∨ ca.exponent.length = 0) := by
  simp [HasKey, List.length_eq_zero_iff]

theorem rsaRoot_ok_iff (ca : Option RsaCert) (root : Option RootCert) (ca' : Option RsaCert) :
    verifyRsaWithRoot ca root = (ca', .ok ()) ↔
      ∃ c r c', ca = some c ∧ root = some r ∧ ca' = some c' ∧ RsaSignedBy r.modulus r.exponent r.keyId c c' := by
  cases root with
  | none => simp [verifyRsaWithRoot]
  | some r =>
    cases ca with
    | none => simp [verifyRsaWithRoot]
    | some c =>
      constructor
      · intro h
        have h1 : ∃ c', ca' = some c' := by
          simp only [verifyRsaWithRoot, Prod.mk.injEq] at h; exact ⟨_, h.1.symm⟩
        obtain ⟨c', rfl⟩ := h1
        exact ⟨c, r, c', rfl, rfl, rfl, (rsa_verify_root_iff c c' r).mp h⟩
      · rintro ⟨c, r, c', h1, h2, rfl, h⟩
        cases h1; cases h2
        exact (rsa_verify_root_iff c c' r).mpr h

theorem rsaCA_ok_iff (cert : RsaCert) (ca : Option RsaCert) (cert' : Option RsaCert) :
    verifyRsaWithCA (some cert) ca = (cert', .ok ()) ↔
      ∃ a c', ca = some a ∧ cert' = some c' ∧ RsaSignedBy a.modulus a.exponent a.chr cert c' := by
  cases ca with
  | none => simp [verifyRsaWithCA]
  | some a =>
    constructor
    · intro h
      have h1 : ∃ c', cert' = some c' := by
        simp only [verifyRsaWithCA, Prod.mk.injEq] at h; exact ⟨_, h.1.symm⟩
      obtain ⟨c', rfl⟩ := h1
      exact ⟨a, c', rfl, rfl, (rsa_verify_ca_iff cert c' a).mp h⟩
    · rintro ⟨a, c', h1, rfl, h⟩
      cases h1
      exact (rsa_verify_ca_iff cert c' a).mpr h

theorem ecc_ok_iff (cert : EccCert) (ca : Option EccCert) (cert' : Option EccCert) :
    verifyEcc (some cert) ca = (cert', .ok ()) ↔
      ∃ a c', ca = some a ∧ cert' = some c' ∧ EccSignedBy a cert c' := by
  cases ca with
  | none => simp [verifyEcc]
  | some a =>
    constructor
    · intro h
      obtain ⟨c', hc, _⟩ := (ecc_verify_effect cert a).1
      rw [h] at hc
      dsimp only at hc
      subst hc
      exact ⟨a, c', rfl, rfl, (ecc_verify_iff cert c' a).mp h⟩
    · rintro ⟨a, c', h1, rfl, h⟩
      cases h1
      exact (ecc_verify_iff cert c' a).mpr h

theorem gen1Authority_ok_iff (r : Resolver σ) (name : Bytes) (s s' : σ) (ca : Option RsaCert) :
    (gen1Authority r name s = (.ok ca, s') ∧ ca ≠ none) ↔ ∃ a, ca = some a ∧ Gen1Authority r name s a s' := by
  unfold gen1Authority Gen1Authority
  rcases hr : r.rsa name s with ⟨res, s1⟩
  cases res with
  | err m => simp
  | panic => simp
  | ok ca0 =>
    dsimp only
    cases ca0 with
    | none =>
      simp only [Option.getD_none, List.length_nil, true_or, if_true]
      rcases hroot : r.root s1 with ⟨rr, s2⟩
      cases rr with
      | err m => simp
      | panic => simp
      | ok root =>
        dsimp only
        have : ∀ x, verifyRsaWithRoot none root ≠ (x, .ok ()) := by
          intro x hx
          obtain ⟨c, _, _, h, _⟩ := (rsaRoot_ok_iff _ _ _).mp hx
          cases h
        split
        · rename_i h; exact absurd h (this _)
        · simp
        · simp
    | some a0 =>
      simp only [Option.getD_some]
      by_cases hk : HasKey a0
      · rw [if_neg ((hasKey_iff a0).mp hk)]
        constructor
        · rintro ⟨h, _⟩
          simp only [Prod.mk.injEq, Res.ok.injEq] at h
          obtain ⟨rfl, rfl⟩ := h
          exact ⟨a0, rfl, .inl ⟨hk, rfl⟩⟩
        · rintro ⟨a, rfl, ⟨_, h⟩ | ⟨ca0, s1', root, h, hn, _⟩⟩
          · simp only [Prod.mk.injEq, Res.ok.injEq] at h; exact ⟨by rw [h.1, h.2], by simp⟩
          · simp only [Prod.mk.injEq, Res.ok.injEq, Option.some.injEq] at h
            rw [← h.1] at hn; exact absurd hk hn
      · rw [if_pos (by rw [hasKey_iff] at hk; exact Classical.not_not.mp hk)]
        rcases hroot : r.root s1 with ⟨rr, s2⟩
        have key : ∀ a, ((HasKey a ∧ (Res.ok (some a0), s1) = (Res.ok (some a), s')) ∨
            ∃ ca0 s1' root, (Res.ok (some a0), s1) = (Res.ok (some ca0), s1') ∧ ¬ HasKey ca0 ∧ r.root s1' = (.ok (some root), s') ∧
              RsaSignedBy root.modulus root.exponent root.keyId ca0 a) ↔
            ∃ root, r.root s1 = (.ok (some root), s') ∧ RsaSignedBy root.modulus root.exponent root.keyId a0 a := by
          intro a
          constructor
          · rintro (⟨h, e⟩ | ⟨ca0, s1', root, e, _, h1, h2⟩)
            · simp only [Prod.mk.injEq, Res.ok.injEq, Option.some.injEq] at e; rw [← e.1] at h; exact absurd h hk
            · simp only [Prod.mk.injEq, Res.ok.injEq, Option.some.injEq] at e
              obtain ⟨rfl, rfl⟩ := e
              exact ⟨root, h1, h2⟩
          · rintro ⟨root, h1, h2⟩
            exact .inr ⟨a0, s1, root, rfl, hk, h1, h2⟩
        simp only [key]
        cases rr with
        | err m => simp [hroot]
        | panic => simp [hroot]
        | ok root =>
          dsimp only
          rw [hroot]
          rcases hv : verifyRsaWithRoot (some a0) root with ⟨c, vr⟩
          cases vr with
          | err m =>
            simp only [Prod.mk.injEq, reduceCtorEq, false_and, Res.ok.injEq, false_iff]
            rintro ⟨a, _, rt, ⟨rfl, _⟩, h⟩
            have := (rsaRoot_ok_iff (some a0) (some rt) (some a)).mpr ⟨_, _, _, rfl, rfl, rfl, h⟩
            rw [hv] at this; cases this
          | panic =>
            simp only [Prod.mk.injEq, reduceCtorEq, false_and, Res.ok.injEq, false_iff]
            rintro ⟨a, _, rt, ⟨rfl, _⟩, h⟩
            have := (rsaRoot_ok_iff (some a0) (some rt) (some a)).mpr ⟨_, _, _, rfl, rfl, rfl, h⟩
            rw [hv] at this; cases this
          | ok u =>
            obtain ⟨c0, rt, c', h1, rfl, rfl, hsig⟩ := (rsaRoot_ok_iff _ _ _).mp hv
            cases h1
            simp only [Prod.mk.injEq, Res.ok.injEq, Option.some.injEq]
            constructor
            · rintro ⟨⟨rfl, rfl⟩, _⟩; exact ⟨c', rfl, rt, ⟨rfl, rfl⟩, hsig⟩
            · rintro ⟨a, rfl, rt', ⟨rfl, rfl⟩, h⟩
              have := (rsaRoot_ok_iff (some a0) (some rt) (some a)).mpr ⟨_, _, _, rfl, rfl, rfl, h⟩
              rw [hv] at this
              simp only [Prod.mk.injEq, Option.some.injEq] at this
              exact ⟨⟨by rw [this.1], rfl⟩, by simp⟩

/-- One application, Gen1. -/
theorem gen1_verified_iff (r : Resolver σ) (t t' : Tachograph) (s s' : σ) :
    verifyGen1 (some r) t s = ⟨t', .ok (), s'⟩ ↔ Gen1Verified r t t' s s' := by
  unfold verifyGen1 Gen1Verified
  cases hc : t.cardCertificate with
  | none => simp
  | some cert =>
    dsimp only
    rcases ha : gen1Authority r cert.car s with ⟨res, s1⟩
    have auth := fun ca s' => gen1Authority_ok_iff r cert.car s s' ca
    rw [ha] at auth
    cases res with
    | err m =>
      simp only [Verified.mk.injEq, reduceCtorEq, false_and, and_false, false_iff]
      rintro ⟨_, ca, _, hce, h, _⟩
      cases hce
      have := ((auth _ _).mpr ⟨ca, rfl, h⟩).1
      cases this
    | panic =>
      simp only [Verified.mk.injEq, reduceCtorEq, false_and, and_false, false_iff]
      rintro ⟨_, ca, _, hce, h, _⟩
      cases hce
      have := ((auth _ _).mpr ⟨ca, rfl, h⟩).1
      cases this
    | ok ca =>
      dsimp only
      simp only [Verified.mk.injEq]
      constructor
      · rintro ⟨rfl, hv, rfl⟩
        obtain ⟨a, c', rfl, hc', hs⟩ := (rsaCA_ok_iff cert ca _).mp (Prod.ext rfl hv)
        obtain ⟨a', ha', hA⟩ := (auth (some a) s1).mp ⟨rfl, by simp⟩
        cases ha'
        exact ⟨cert, a, c', rfl, hA, hs, congrArg (fun z => { t with cardCertificate := z }) hc'⟩
      · rintro ⟨_, a, c', hce, hA, hs, rfl⟩
        cases hce
        have h1 := ((auth _ _).mpr ⟨a, rfl, hA⟩).1
        simp only [Prod.mk.injEq, Res.ok.injEq] at h1
        obtain ⟨rfl, rfl⟩ := h1
        have := (rsaCA_ok_iff cert (some a) (some c')).mpr ⟨a, c', rfl, rfl, hs⟩
        rw [this]
        exact ⟨rfl, rfl, rfl⟩

/-- One application, Gen2. -/
theorem gen2_verified_iff (r : Resolver σ) (t t' : TachographG2) (s s' : σ) :
    verifyGen2 (some r) t s = ⟨t', .ok (), s'⟩ ↔ Gen2Verified r t t' s s' := by
  unfold verifyGen2 Gen2Verified
  cases hc : t.cardSignCertificate with
  | none => simp
  | some cert =>
    dsimp only
    rcases ha : r.ecc cert.car s with ⟨res, s1⟩
    cases res with
    | err m =>
      simp only [Verified.mk.injEq, reduceCtorEq, false_and, and_false, false_iff]
      rintro ⟨_, ca, _, hce, h, _⟩
      cases hce
      rw [ha] at h; cases h
    | panic =>
      simp only [Verified.mk.injEq, reduceCtorEq, false_and, and_false, false_iff]
      rintro ⟨_, ca, _, hce, h, _⟩
      cases hce
      rw [ha] at h; cases h
    | ok ca =>
      dsimp only
      simp only [Verified.mk.injEq]
      constructor
      · rintro ⟨rfl, hv, rfl⟩
        obtain ⟨a, c', rfl, hc', hs⟩ := (ecc_ok_iff cert ca _).mp (Prod.ext rfl hv)
        exact ⟨cert, a, c', rfl, ha, hs, congrArg (fun z => { t with cardSignCertificate := z }) hc'⟩
      · rintro ⟨_, a, c', hce, hA, hs, rfl⟩
        cases hce
        rw [ha] at hA
        simp only [Prod.mk.injEq, Res.ok.injEq] at hA
        obtain ⟨rfl, rfl⟩ := hA
        have := (ecc_ok_iff cert (some a) (some c')).mpr ⟨a, c', rfl, rfl, hs⟩
        rw [this]
        exact ⟨rfl, rfl, rfl⟩

/-- The two applications are verified one after the other. -/
theorem verified_steps_iff (res : Option (Resolver σ)) {G1 : Tachograph → Tachograph → σ → σ → Prop}
    {G2 : TachographG2 → TachographG2 → σ → σ → Prop}
    (st1 : ∀ t t' s s', verifyGen1 res t s = ⟨t', .ok (), s'⟩ ↔ G1 t t' s s')
    (st2 : ∀ t t' s s', verifyGen2 res t s = ⟨t', .ok (), s'⟩ ↔ G2 t t' s s') (c c' : DriverCard) (s s' : σ) :
    verifyDriverCard res (some c) s = ⟨some c', .ok (), s'⟩ ↔
      ∃ s1, IfPresent G1 c.tachograph c'.tachograph s s1 ∧
        IfPresent G2 c.tachographG2 c'.tachographG2 s1 s' ∧ c'.icc = c.icc ∧ c'.ic = c.ic := by
  have g2 : ∀ (c c' : DriverCard) (s s' : σ), verifyCardGen2 res c s = ⟨c', .ok (), s'⟩ ↔
      IfPresent G2 c.tachographG2 c'.tachographG2 s s' ∧ c'.tachograph = c.tachograph ∧ c'.icc = c.icc ∧ c'.ic = c.ic := by
    intro c c' s s'
    obtain ⟨icc, ic, t1, t2⟩ := c
    obtain ⟨icc', ic', t1', t2'⟩ := c'
    unfold verifyCardGen2 IfPresent
    cases t2 with
    | none =>
      simp only [Verified.mk.injEq, DriverCard.mk.injEq, true_and, reduceCtorEq, false_and, exists_false, or_false]
      constructor
      · rintro ⟨⟨rfl, rfl, rfl, rfl⟩, rfl⟩; simp
      · rintro ⟨⟨rfl, rfl⟩, rfl, rfl, rfl⟩; simp
    | some t =>
      simp only [Verified.mk.injEq, DriverCard.mk.injEq, reduceCtorEq, false_and, false_or]
      constructor
      · rintro ⟨⟨rfl, rfl, rfl, rfl⟩, h, rfl⟩
        exact ⟨⟨t, _, rfl, rfl, (st2 t _ s _).mp (by rw [← h])⟩, rfl, rfl, rfl⟩
      · rintro ⟨⟨x, x', hx, rfl, h⟩, rfl, rfl, rfl⟩
        cases hx
        rw [(st2 t x' s s').mpr h]
        exact ⟨⟨rfl, rfl, rfl, rfl⟩, rfl, rfl⟩
  unfold verifyDriverCard verifyCard
  simp only [Verified.mk.injEq, Option.some.injEq]
  cases ht : c.tachograph with
  | none =>
    dsimp only
    have := g2 c c' s s'
    constructor
    · intro h
      obtain ⟨h1, h2, h3, h4⟩ := this.mp (by
        obtain ⟨a, b, d⟩ := h
        generalize verifyCardGen2 res c s = v at a b d
        cases v; dsimp only at a b d; subst a; subst b; subst d; rfl)
      exact ⟨s, .inl ⟨rfl, by rw [h2, ht], rfl⟩, h1, h3, h4⟩
    · rintro ⟨s1, ⟨_, h2, rfl⟩ | ⟨_, _, h, _⟩, h1, h3, h4⟩
      · rw [this.mpr ⟨h1, by rw [h2, ht], h3, h4⟩]; exact ⟨rfl, rfl, rfl⟩
      · cases h
  | some t =>
    dsimp only
    rcases hv : verifyGen1 res t s with ⟨t', res, s1⟩
    have h1 := fun x s' => st1 t x s s'
    rw [hv] at h1
    dsimp only
    cases res with
    | err m =>
      simp only [reduceCtorEq, false_and, and_false, false_iff]
      rintro ⟨s1, ⟨h, _⟩ | ⟨x, x', h, _, hg⟩, _⟩
      · cases h
      · cases h; have := (h1 _ _).mpr hg; cases this
    | panic =>
      simp only [reduceCtorEq, false_and, and_false, false_iff]
      rintro ⟨s1, ⟨h, _⟩ | ⟨x, x', h, _, hg⟩, _⟩
      · cases h
      · cases h; have := (h1 _ _).mpr hg; cases this
    | ok u =>
      dsimp only
      have := g2 { c with tachograph := some t' } c' s1 s'
      constructor
      · intro h
        obtain ⟨h2, h3, h4, h5⟩ := this.mp (by
          obtain ⟨a, b, d⟩ := h
          generalize verifyCardGen2 res { c with tachograph := some t' } s1 = v at a b d
          cases v; dsimp only at a b d; subst a; subst b; subst d; rfl)
        exact ⟨s1, .inr ⟨t, t', rfl, h3, (h1 _ _).mp rfl⟩, h2, h4, h5⟩
      · rintro ⟨s2, ⟨h, _⟩ | ⟨x, x', h, h3, hg⟩, h2, h4, h5⟩
        · cases h
        · cases h
          have e := (h1 _ _).mpr hg
          simp only [Verified.mk.injEq, true_and] at e
          obtain ⟨rfl, rfl⟩ := e
          rw [this.mpr ⟨h2, h3, h4, h5⟩]; exact ⟨rfl, rfl, rfl⟩

/-- C32: verification of a driver card with a resolver succeeds exactly when every application that is
present is verified, Gen1 first; nothing but the two card certificates changes. -/
theorem driver_card_verified_iff (r : Resolver σ) (c c' : DriverCard) (s s' : σ) :
    verifyDriverCard (some r) (some c) s = ⟨some c', .ok (), s'⟩ ↔
      ∃ s1, IfPresent (Gen1Verified r) c.tachograph c'.tachograph s s1 ∧
        IfPresent (Gen2Verified r) c.tachographG2 c'.tachographG2 s1 s' ∧ c'.icc = c.icc ∧ c'.ic = c.ic :=
  verified_steps_iff (some r) (gen1_verified_iff r) (gen2_verified_iff r) c c' s s'

/-- C32: a nil file is refused. -/
theorem verify_nil_card (res : Option (Resolver σ)) (s : σ) : ∃ m, verifyDriverCard res none s = ⟨none, .err m, s⟩ := ⟨_, rfl⟩

/-- C32: whatever the outcome, nothing but the two card certificates changes. -/
theorem driver_card_verify_effect (res : Option (Resolver σ)) (c : DriverCard) (s : σ) :
    ∃ x y, (verifyDriverCard res (some c) s).msg = some { c with
      tachograph := c.tachograph.map fun t => { t with cardCertificate := x }
      tachographG2 := c.tachographG2.map fun t => { t with cardSignCertificate := y } } := by
  have g1 : ∀ t, ∃ x, (verifyGen1 res t s).msg = { t with cardCertificate := x } := by
    intro t
    unfold verifyGen1
    cases hc : t.cardCertificate with
    | none => exact ⟨t.cardCertificate, rfl⟩
    | some cert =>
      dsimp only
      split
      · exact ⟨t.cardCertificate, rfl⟩
      · exact ⟨t.cardCertificate, rfl⟩
      · exact ⟨_, rfl⟩
  have g2 : ∀ t s, ∃ x, (verifyGen2 res t s).msg = { t with cardSignCertificate := x } := by
    intro t s
    unfold verifyGen2
    cases hc : t.cardSignCertificate with
    | none => exact ⟨t.cardSignCertificate, rfl⟩
    | some cert =>
      dsimp only
      split
      · exact ⟨t.cardSignCertificate, rfl⟩
      · exact ⟨t.cardSignCertificate, rfl⟩
      · exact ⟨_, rfl⟩
  have c2 : ∀ (c : DriverCard) s, ∃ y, (verifyCardGen2 res c s).msg =
      { c with tachographG2 := c.tachographG2.map fun t => { t with cardSignCertificate := y } } := by
    intro c s
    obtain ⟨icc, ic, t1, t2⟩ := c
    unfold verifyCardGen2
    cases t2 with
    | none => exact ⟨none, rfl⟩
    | some t =>
      obtain ⟨y, hy⟩ := g2 t s
      exact ⟨y, by simp only [hy, Option.map_some]⟩
  have same : ∀ t : Option TachographG2, ∃ y, t = t.map fun t => { t with cardSignCertificate := y } := by
    intro t
    cases t with
    | none => exact ⟨none, rfl⟩
    | some t => exact ⟨t.cardSignCertificate, rfl⟩
  obtain ⟨icc, ic, t1, t2⟩ := c
  unfold verifyDriverCard verifyCard
  cases t1 with
  | none =>
    obtain ⟨y, hy⟩ := c2 ⟨icc, ic, none, t2⟩ s
    exact ⟨none, y, congrArg some hy⟩
  | some t =>
    obtain ⟨x, hx⟩ := g1 t
    dsimp only
    cases (verifyGen1 res t s).result with
    | ok u =>
      obtain ⟨y, hy⟩ := c2 ⟨icc, ic, some (verifyGen1 res t s).msg, t2⟩ (verifyGen1 res t s).world
      refine ⟨x, y, ?_⟩
      dsimp only
      rw [hy, hx]; rfl
    | err m =>
      obtain ⟨y, hy⟩ := same t2
      refine ⟨x, y, ?_⟩
      dsimp only
      rw [hx, ← hy]; rfl
    | panic =>
      obtain ⟨y, hy⟩ := same t2
      refine ⟨x, y, ?_⟩
      dsimp only
      rw [hx, ← hy]; rfl

/-- C32: a Gen2 card never causes the root certificate to be fetched: the outcome is the same for two
resolvers that differ only in the root, so the Gen2 authority itself is trusted as returned. -/
theorem gen2_root_never_used (r r' : Resolver σ) (he : r'.ecc = r.ecc) (c : DriverCard) (h1 : c.tachograph = none) (s : σ) :
    verifyDriverCard (some r') (some c) s = verifyDriverCard (some r) (some c) s := by
  simp only [verifyDriverCard, verifyCard, h1, verifyCardGen2, verifyGen2, he]

/-- C32: the certificates for mutual authentication and the link certificate are never looked at, nor is the
authority certificate stored on the card when there is a resolver. -/
theorem other_certificates_ignored (r : Resolver σ) (c : DriverCard) (t : TachographG2) (s : σ) (h : c.tachographG2 = some t)
    (ma ca link : Option EccCert) :
    let v := verifyDriverCard (some r) (some c) s
    let v' := verifyDriverCard (some r) (some { c with tachographG2 := some { t with cardMaCertificate := ma, caCertificate := ca, linkCertificate := link } }) s
    v'.result = v.result ∧ v'.world = v.world := by
  have key : ∀ s, (verifyGen2 (some r) { t with cardMaCertificate := ma, caCertificate := ca, linkCertificate := link } s).result =
      (verifyGen2 (some r) t s).result ∧
      (verifyGen2 (some r) { t with cardMaCertificate := ma, caCertificate := ca, linkCertificate := link } s).world =
      (verifyGen2 (some r) t s).world := by
    intro s
    unfold verifyGen2
    dsimp only
    cases t.cardSignCertificate with
    | none => exact ⟨rfl, rfl⟩
    | some cert =>
      dsimp only
      split <;> exact ⟨rfl, rfl⟩
  dsimp only [verifyDriverCard, verifyCard]
  cases c.tachograph with
  | none => simp only [verifyCardGen2, h, key, and_self]
  | some t1 =>
    dsimp only
    split <;> simp only [verifyCardGen2, h, key, and_self]

/-- C32: the only panics are those of the resolver and of the elliptic curve arithmetic. -/
theorem driver_card_verify_total (r : Resolver σ) (c : DriverCard) (s : σ) (hrsa : ∀ n s, (r.rsa n s).1 ≠ .panic)
    (hroot : ∀ s, (r.root s).1 ≠ .panic) (hecc : ∀ n s, (r.ecc n s).1 ≠ .panic)
    (hcurve : ∀ curve x y h a b, Crypto.ecdsaVerify curve x y h a b ≠ none) :
    (verifyDriverCard (some r) (some c) s).result ≠ .panic := by
  have hroot2 : ∀ ca root, (verifyRsaWithRoot ca root).2 ≠ .panic := by
    intro ca root
    cases root with
    | none => simp [verifyRsaWithRoot]
    | some root =>
      cases ca with
      | none => simp [verifyRsaWithRoot]
      | some ca =>
        have := (rsa_verify_total (some ca) (some { modulus := root.modulus, exponent := root.exponent, chr := root.keyId })).1
        exact this
  have auth : ∀ n s, (gen1Authority r n s).1 ≠ .panic := by
    intro n s
    unfold gen1Authority
    have := hrsa n s
    rcases h : r.rsa n s with ⟨res, s1⟩
    rw [h] at this
    cases res with
    | err m => simp
    | panic => exact absurd rfl this
    | ok ca =>
      dsimp only
      split
      · have := hroot s1
        rcases h : r.root s1 with ⟨res, s2⟩
        rw [h] at this
        cases res with
        | err m => simp
        | panic => exact absurd rfl this
        | ok root =>
          dsimp only
          have := hroot2 ca root
          split
          · simp
          · simp
          · rename_i h; rw [h] at this; exact absurd rfl this
      · simp
  have g1 : ∀ t s, (verifyGen1 (some r) t s).result ≠ .panic := by
    intro t s
    unfold verifyGen1
    cases t.cardCertificate with
    | none => simp
    | some cert =>
      dsimp only
      have := auth cert.car s
      rcases h : gen1Authority r cert.car s with ⟨res, s1⟩
      rw [h] at this
      cases res with
      | err m => simp
      | panic => exact absurd rfl this
      | ok ca => exact (rsa_verify_total _ _).1
  have g2 : ∀ t s, (verifyGen2 (some r) t s).result ≠ .panic := by
    intro t s
    unfold verifyGen2
    cases t.cardSignCertificate with
    | none => simp
    | some cert =>
      dsimp only
      have := hecc cert.car s
      rcases h : r.ecc cert.car s with ⟨res, s1⟩
      rw [h] at this
      cases res with
      | err m => simp
      | panic => exact absurd rfl this
      | ok ca =>
        cases ca with
        | none => simp [verifyEcc]
        | some ca =>
          intro hp
          obtain ⟨k, x, y, h, a, b, he⟩ := (ecc_verify_effect cert ca).2.1 hp
          exact hcurve _ _ _ _ _ _ he
  have c2 : ∀ c s, (verifyCardGen2 (some r) c s).result ≠ .panic := by
    intro c s
    unfold verifyCardGen2
    split
    · simp
    · exact g2 _ _
  unfold verifyDriverCard verifyCard
  dsimp only
  split
  · exact c2 _ _
  · rename_i t _
    have := g1 t s
    split
    · exact c2 _ _
    · simp
    · rename_i h; exact absurd h this

/-- Finding: a card with neither application is verified although it has no certificate at all. -/
theorem empty_card_verified (r : Resolver σ) (s : σ) : verifyDriverCard (some r) (some {}) s = ⟨some {}, .ok (), s⟩ := rfl

omit [Crypto] in
/-- A card with both applications, and a resolver that returns an authority for each: verification succeeds
and marks both certificates. -/
example : ∃ (i : Crypto) (r : Resolver Nat) (c c' : DriverCard),
    @verifyDriverCard i Nat (some r) (some c) 7 = ⟨some c', .ok (), 7⟩ ∧
    (c'.tachograph.bind (·.cardCertificate)).map RsaCert.valid = some true ∧
    (c'.tachographG2.bind (·.cardSignCertificate)).map EccCert.valid = some true := by
  obtain ⟨i, e, e', _, he, hev⟩ := ecc_sample_verifies
  obtain ⟨a', ha, hav⟩ := @rsa_sample_verifies i (zeros 106) (zeros 58) (zeros 8) (zeros_length _) (zeros_length _) (zeros_length _)
  have he := (@ecc_verify_iff i e e' e).mp he
  have ha := (@rsa_verify_ca_iff i _ _ _).mp ha
  refine ⟨i, ⟨fun s => (.err "", s), fun _ s => (.ok (some _), s), fun _ s => (.ok (some e), s)⟩,
    { tachograph := some { cardCertificate := some _ }, tachographG2 := some { cardSignCertificate := some e } },
    { tachograph := some { cardCertificate := some a' }, tachographG2 := some { cardSignCertificate := some e' } },
    (@driver_card_verified_iff i Nat _ _ _ _ _).mpr ⟨7, .inr ⟨_, _, rfl, rfl, _, _, a', rfl, .inl ⟨⟨ha.1, ha.2.1⟩, rfl⟩, ha, rfl⟩,
      .inr ⟨_, _, rfl, rfl, e, e, e', rfl, rfl, he, rfl⟩, rfl, rfl⟩, congrArg some hav, congrArg some hev⟩

end Tacho
