import Verif.Props.Verify
import Verif.Props.CardAgain
/-!
# Verification of driver cards without a certificate resolver (C32)

`VerifyFile` always configures a resolver; the card package also works without one, with the authority certificates
the card carries.
-/

namespace Tacho
open Spec

variable [Crypto] {σ : Type}

/-- Without a resolver the Gen1 application is verified: it carries a card certificate and an authority certificate,
and the authority certificate's key has signed the card certificate. -/
def Spec.Gen1Offline (t t' : Tachograph) (s s' : σ) : Prop :=
  s' = s ∧ ∃ cert ca cert', t.cardCertificate = some cert ∧ t.caCertificate = some ca ∧
    RsaSignedBy ca.modulus ca.exponent ca.chr cert cert' ∧ t' = { t with cardCertificate := some cert' }

/-- The same for the Gen2 application. -/
def Spec.Gen2Offline (t t' : TachographG2) (s s' : σ) : Prop :=
  s' = s ∧ ∃ cert ca cert', t.cardSignCertificate = some cert ∧ t.caCertificate = some ca ∧
    EccSignedBy ca cert cert' ∧ t' = { t with cardSignCertificate := some cert' }

theorem gen1_offline_iff (t t' : Tachograph) (s s' : σ) :
    verifyGen1 none t s = ⟨t', .ok (), s'⟩ ↔ Gen1Offline t t' s s' := by
  unfold verifyGen1 Gen1Offline
  cases hc : t.cardCertificate with
  | none => simp
  | some cert =>
    dsimp only
    cases ha : t.caCertificate with
    | none => simp
    | some a =>
      dsimp only
      simp only [Verified.mk.injEq]
      constructor
      · rintro ⟨rfl, hv, rfl⟩
        obtain ⟨_, c', h1, hc', hs⟩ := (rsaCA_ok_iff cert (some a) _).mp (Prod.ext rfl hv)
        cases h1
        exact ⟨rfl, cert, a, c', rfl, rfl, hs, by simp only [← hc']⟩
      · rintro ⟨rfl, _, _, c', h1, h2, hs, rfl⟩
        cases h1; cases h2
        rw [(rsaCA_ok_iff cert (some a) (some c')).mpr ⟨a, c', rfl, rfl, hs⟩]
        exact ⟨rfl, rfl, rfl⟩

theorem gen2_offline_iff (t t' : TachographG2) (s s' : σ) :
    verifyGen2 none t s = ⟨t', .ok (), s'⟩ ↔ Gen2Offline t t' s s' := by
  unfold verifyGen2 Gen2Offline
  cases hc : t.cardSignCertificate with
  | none => simp
  | some cert =>
    dsimp only
    cases ha : t.caCertificate with
    | none => simp
    | some a =>
      dsimp only
      simp only [Verified.mk.injEq]
      constructor
      · rintro ⟨rfl, hv, rfl⟩
        obtain ⟨_, c', h1, hc', hs⟩ := (ecc_ok_iff cert (some a) _).mp (Prod.ext rfl hv)
        cases h1
        exact ⟨rfl, cert, a, c', rfl, rfl, hs, by simp only [← hc']⟩
      · rintro ⟨rfl, _, _, c', h1, h2, hs, rfl⟩
        cases h1; cases h2
        rw [(ecc_ok_iff cert (some a) (some c')).mpr ⟨a, c', rfl, rfl, hs⟩]
        exact ⟨rfl, rfl, rfl⟩

/-- C32: without a resolver, verification of a driver card succeeds exactly when, in every application that is present,
the authority certificate the card carries has signed the card certificate. -/
theorem driver_card_offline_iff (c c' : DriverCard) (s s' : σ) :
    verifyDriverCard none (some c) s = ⟨some c', .ok (), s'⟩ ↔
      ∃ s1, IfPresent Gen1Offline c.tachograph c'.tachograph s s1 ∧
        IfPresent Gen2Offline c.tachographG2 c'.tachographG2 s1 s' ∧ c'.icc = c.icc ∧ c'.ic = c.ic :=
  verified_steps_iff none gen1_offline_iff gen2_offline_iff c c' s s'

/-- C32, finding: the key of a Gen1 authority certificate is only known after that certificate has been verified itself,
so without a resolver no card with a Gen1 application is verified as it was read. -/
theorem parsed_gen1_offline_refused [Charmap] (rs : List RawRec) (c : DriverCard) (s : σ)
    (h : unmarshalDriverCard rs = .ok c) (ht : c.tachograph.isSome) :
    (verifyDriverCard (σ := σ) none (some c) s).result ≠ .ok () := by
  intro hv
  obtain ⟨x, y, he⟩ := driver_card_verify_effect none c s
  obtain ⟨s1, hg, -⟩ := (driver_card_offline_iff c _ s (verifyDriverCard none (some c) s).world).mp (by
    rw [← he, ← hv])
  obtain ⟨bs, -, -, rfl⟩ := (driver_card_iff rs c).mp h
  rcases hg with ⟨h0, -⟩ | ⟨t, t', h1, -, -, cert, ca, cert', -, hca, hs, -⟩
  · rw [h0] at ht; cases ht
  · have : Each (fun m : RsaCert => m.modulus = []) (gen1Of bs).caCertificate :=
      each_newest fun b _ _ m hm => by
        obtain ⟨_, _, _, _, _, _, hm⟩ := (rsa_parse_iff _ _).1 hm
        rw [hm]
    have h2 : t = gen1Of bs := by
      unfold cardOf at h1
      dsimp only at h1
      split at h1
      · exact (Option.some.inj h1).symm
      · cases h1
    rw [h2] at hca
    exact hs.1 (this ca hca)

omit [Crypto] in
/-- A card that carries authority certificates with keys for both applications: verification without a resolver
succeeds and marks both certificates. -/
example : ∃ (i : Crypto) (c c' : DriverCard),
    @verifyDriverCard i Nat none (some c) 7 = ⟨some c', .ok (), 7⟩ ∧
    (c'.tachograph.bind (·.cardCertificate)).map RsaCert.valid = some true ∧
    (c'.tachographG2.bind (·.cardSignCertificate)).map EccCert.valid = some true := by
  obtain ⟨i, e, e', _, he, hev⟩ := ecc_sample_verifies
  obtain ⟨a', ha, hav⟩ := @rsa_sample_verifies i (zeros 106) (zeros 58) (zeros 8) (zeros_length _) (zeros_length _) (zeros_length _)
  have he := (@ecc_verify_iff i e e' e).mp he
  have ha := (@rsa_verify_ca_iff i _ _ _).mp ha
  refine ⟨i, { tachograph := some { cardCertificate := some _, caCertificate := some _ }, tachographG2 := some { cardSignCertificate := some e, caCertificate := some e } },
    { tachograph := some { cardCertificate := some a', caCertificate := some _ }, tachographG2 := some { cardSignCertificate := some e', caCertificate := some e } },
    (@driver_card_offline_iff i Nat _ _ _ _).mpr ⟨7, .inr ⟨_, _, rfl, rfl, rfl, _, _, a', rfl, rfl, ha, rfl⟩,
      .inr ⟨_, _, rfl, rfl, rfl, e, e, e', rfl, rfl, he, rfl⟩, rfl, rfl⟩, congrArg some hav, congrArg some hev⟩

end Tacho
