import Verif.Props.Verify
import Verif.Model.File
/-!
# Verifying more than once, and writing after verifying (C72)
-/

namespace Tacho
open Spec

/-! ## Specification -/

/-- The Gen1 card certificates of the two messages name the same authority. -/
def Spec.SameAuthority (c c' : DriverCard) : Prop :=
  (c.tachograph.bind (·.cardCertificate)).map (·.car) = (c'.tachograph.bind (·.cardCertificate)).map (·.car)

/-- What the resolver answers does not depend on what it was asked before. -/
def Spec.Steady {σ : Type} (r : Resolver σ) : Prop :=
  (∀ n s s', (r.rsa n s).1 = (r.rsa n s').1) ∧ (∀ n s s', (r.ecc n s).1 = (r.ecc n s').1) ∧ ∀ s s', (r.root s).1 = (r.root s').1

section
variable [Crypto] {σ : Type}

/-! ## What a verification depends on -/

theorem rsaRecovered_raw (c1 c2 : RsaCert) (h : c1.raw = c2.raw) (sr : Bytes) :
    (rsaRecovered c1 sr).2 = (rsaRecovered c2 sr).2 ∧
    ((rsaRecovered c1 sr).2 = .ok () → (rsaRecovered c1 sr).1 = (rsaRecovered c2 sr).1) ∧
    (rsaRecovered c1 sr).1.raw = c1.raw := by
  unfold rsaRecovered
  dsimp only
  rw [h]
  split
  · exact ⟨rfl, fun e => (by cases e), rfl⟩
  · split
    · exact ⟨rfl, fun e => (by cases e), rfl⟩
    · split
      · exact ⟨rfl, fun e => (by cases e), rfl⟩
      · exact ⟨rfl, fun _ => rfl, rfl⟩

theorem rsaCore_raw (c1 c2 : RsaCert) (h : c1.raw = c2.raw) (m e n : Bytes) :
    (verifyRsaCore c1 m e n).2 = (verifyRsaCore c2 m e n).2 ∧
    ((verifyRsaCore c1 m e n).2 = .ok () → (verifyRsaCore c1 m e n).1 = (verifyRsaCore c2 m e n).1) ∧
    (verifyRsaCore c1 m e n).1.raw = c1.raw := by
  unfold verifyRsaCore
  rw [h]
  dsimp only
  by_cases h1 : c2.raw.length ≠ 194
  · simp only [if_pos h1]; exact ⟨trivial, fun e => (by cases e), h⟩
  · simp only [if_neg h1]
    by_cases h2 : m.length = 0 ∨ e.length = 0
    · simp only [if_pos h2]; exact ⟨trivial, fun e => (by cases e), h⟩
    · simp only [if_neg h2]
      by_cases h3 : decimal (beNat (sl c2.raw 186 194)) ≠ n
      · simp only [if_pos h3]; exact ⟨trivial, fun e => (by cases e), trivial⟩
      · simp only [if_neg h3]
        by_cases h4 : expMod (beNat (sl c2.raw 0 128)) (beNat e) (beNat m) < 256 ^ 128
        · simp only [if_pos h4]
          rw [← h]
          exact rsaRecovered_raw c1 c2 h _
        · simp only [if_neg h4]; exact ⟨trivial, fun e => (by cases e), trivial⟩

theorem rsaCA_raw (c1 c2 : RsaCert) (h : c1.raw = c2.raw) (ca : Option RsaCert) :
    (verifyRsaWithCA (some c1) ca).2 = (verifyRsaWithCA (some c2) ca).2 ∧
    ((verifyRsaWithCA (some c1) ca).2 = .ok () → (verifyRsaWithCA (some c1) ca).1 = (verifyRsaWithCA (some c2) ca).1) ∧
    ∃ c', (verifyRsaWithCA (some c1) ca).1 = some c' ∧ c'.raw = c1.raw := by
  cases ca with
  | none => exact ⟨rfl, by simp [verifyRsaWithCA], c1, rfl, rfl⟩
  | some a =>
    obtain ⟨h1, h2, h3⟩ := rsaCore_raw c1 c2 h a.modulus a.exponent a.chr
    exact ⟨h1, fun h => congrArg some (h2 h), _, rfl, h3⟩

theorem ecc_mark (c : EccCert) (v : Bool) (ca : Option EccCert) :
    (verifyEcc (some { c with valid := v }) ca).2 = (verifyEcc (some c) ca).2 ∧
    ((verifyEcc (some c) ca).2 = .ok () → (verifyEcc (some { c with valid := v }) ca).1 = (verifyEcc (some c) ca).1) ∧
    ∃ b, (verifyEcc (some c) ca).1 = some { c with valid := b } := by
  cases ca with
  | none => exact ⟨rfl, by simp [verifyEcc], c.valid, rfl⟩
  | some a =>
    unfold verifyEcc
    dsimp only
    repeat' split
    all_goals first | exact ⟨rfl, fun h => (by cases h), c.valid, rfl⟩ | exact ⟨rfl, fun _ => rfl, _, rfl⟩

/-- What the Gen1 step changes. -/
theorem gen1_effect (res : Option (Resolver σ)) (t : Tachograph) (s : σ) :
    (verifyGen1 res t s).msg = t ∨ ∃ cert cert', t.cardCertificate = some cert ∧ cert'.raw = cert.raw ∧
      (verifyGen1 res t s).msg = { t with cardCertificate := some cert' } := by
  unfold verifyGen1
  cases hc : t.cardCertificate with
  | none => exact .inl rfl
  | some cert =>
    dsimp only
    split
    · exact .inl rfl
    · exact .inl rfl
    · rename_i ca s' _
      obtain ⟨_, _, c', h1, h2⟩ := rsaCA_raw cert cert rfl ca
      exact .inr ⟨cert, c', rfl, h2, by simp only [h1]⟩

/-- What the Gen2 step changes. -/
theorem gen2_effect (res : Option (Resolver σ)) (t : TachographG2) (s : σ) :
    (verifyGen2 res t s).msg = t ∨ ∃ cert v, t.cardSignCertificate = some cert ∧
      (verifyGen2 res t s).msg = { t with cardSignCertificate := some { cert with valid := v } } := by
  unfold verifyGen2
  cases hc : t.cardSignCertificate with
  | none => exact .inl rfl
  | some cert =>
    dsimp only
    split
    · exact .inl rfl
    · exact .inl rfl
    · rename_i ca s' _
      obtain ⟨_, _, b, h1⟩ := ecc_mark cert true ca
      exact .inr ⟨cert, b, rfl, by simp only [h1]⟩

/-- Gen1: after a verification the raw bytes are the same and the rest depends on them only. -/
theorem gen1_again (res1 res2 : Option (Resolver σ)) (t : Tachograph) (s1 s2 : σ)
    (h : t.cardCertificate.map (·.car) = (verifyGen1 res1 t s1).msg.cardCertificate.map (·.car)) :
    (verifyGen1 res2 (verifyGen1 res1 t s1).msg s2).result = (verifyGen1 res2 t s2).result ∧
    (verifyGen1 res2 (verifyGen1 res1 t s1).msg s2).world = (verifyGen1 res2 t s2).world ∧
    ((verifyGen1 res2 t s2).result = .ok () → (verifyGen1 res2 (verifyGen1 res1 t s1).msg s2).msg = (verifyGen1 res2 t s2).msg) := by
  rcases gen1_effect res1 t s1 with e | ⟨cert, cert', hc, hr, e⟩
  · rw [e]; exact ⟨rfl, rfl, fun _ => rfl⟩
  · rw [e] at h ⊢
    rw [hc] at h
    simp only [Option.map_some, Option.some.injEq] at h
    unfold verifyGen1
    simp only [hc, ← h]
    split
    · exact ⟨rfl, rfl, fun h => by cases h⟩
    · exact ⟨rfl, rfl, fun h => by cases h⟩
    · rename_i ca s' _
      obtain ⟨h1, h2, _⟩ := rsaCA_raw cert' cert hr ca
      dsimp only
      refine ⟨h1, rfl, fun h => ?_⟩
      rw [h2 (h1.trans h)]

theorem gen2_again (res1 res2 : Option (Resolver σ)) (t : TachographG2) (s1 s2 : σ) :
    (verifyGen2 res2 (verifyGen2 res1 t s1).msg s2).result = (verifyGen2 res2 t s2).result ∧
    (verifyGen2 res2 (verifyGen2 res1 t s1).msg s2).world = (verifyGen2 res2 t s2).world ∧
    ((verifyGen2 res2 t s2).result = .ok () → (verifyGen2 res2 (verifyGen2 res1 t s1).msg s2).msg = (verifyGen2 res2 t s2).msg) := by
  rcases gen2_effect res1 t s1 with e | ⟨cert, v, hc, e⟩
  · rw [e]; exact ⟨rfl, rfl, fun _ => rfl⟩
  · rw [e]
    unfold verifyGen2
    simp only [hc]
    split
    · exact ⟨rfl, rfl, fun h => by cases h⟩
    · exact ⟨rfl, rfl, fun h => by cases h⟩
    · rename_i ca s' _
      obtain ⟨h1, h2, _⟩ := ecc_mark cert v ca
      dsimp only
      refine ⟨h1, rfl, fun h => ?_⟩
      rw [h2 h]

/-! ## Verifying again -/

theorem cardGen2_again (res1 res2 : Option (Resolver σ)) (c : DriverCard) (s1 s2 : σ) :
    (verifyCardGen2 res2 (verifyCardGen2 res1 c s1).msg s2).result = (verifyCardGen2 res2 c s2).result ∧
    (verifyCardGen2 res2 (verifyCardGen2 res1 c s1).msg s2).world = (verifyCardGen2 res2 c s2).world ∧
    ((verifyCardGen2 res2 c s2).result = .ok () → (verifyCardGen2 res2 (verifyCardGen2 res1 c s1).msg s2).msg = (verifyCardGen2 res2 c s2).msg) := by
  obtain ⟨icc, ic, t1, t2⟩ := c
  cases t2 with
  | none => exact ⟨rfl, rfl, fun _ => rfl⟩
  | some t =>
    obtain ⟨h1, h2, h3⟩ := gen2_again res1 res2 t s1 s2
    refine ⟨h1, h2, fun h => ?_⟩
    show (⟨icc, ic, t1, some _⟩ : DriverCard) = ⟨icc, ic, t1, some _⟩
    rw [h3 h]

/-- Gen2 verification does not look at the Gen1 application. -/
theorem cardGen2_other (res : Option (Resolver σ)) (c : DriverCard) (x : Option Tachograph) (s : σ) :
    verifyCardGen2 res { c with tachograph := x } s =
      ⟨{ (verifyCardGen2 res c s).msg with tachograph := x }, (verifyCardGen2 res c s).result, (verifyCardGen2 res c s).world⟩ := by
  obtain ⟨icc, ic, t1, t2⟩ := c
  cases t2 <;> rfl

/-- What a verification leaves: the Gen1 application as its step leaves it, and the rest either untouched or as the Gen2
step leaves it. -/
theorem verifyCard_msg (res : Option (Resolver σ)) (c : DriverCard) (s : σ) :
    ∃ g : DriverCard, (verifyCard res c s).msg = { g with tachograph := c.tachograph.map fun t => (verifyGen1 res t s).msg } ∧
      (g = c ∨ ∃ s', g = (verifyCardGen2 res c s').msg) := by
  have ht : ∀ s', (verifyCardGen2 res c s').msg.tachograph = c.tachograph := by
    intro s'
    obtain ⟨icc, ic, t1, t2⟩ := c
    cases t2 <;> rfl
  unfold verifyCard
  cases h : c.tachograph with
  | none =>
    have hn := (ht s).trans h
    refine ⟨_, ?_, .inr ⟨s, rfl⟩⟩
    dsimp only [Option.map_none]
    rw [← hn]
  | some t =>
    dsimp only [Option.map_some]
    split
    · rw [cardGen2_other]
      exact ⟨_, rfl, .inr ⟨_, rfl⟩⟩
    · exact ⟨c, rfl, .inl rfl⟩
    · exact ⟨c, rfl, .inl rfl⟩

/-- C72: a verification is not influenced by earlier ones: after a verification with any resolver and any outcome,
verifying has the outcome it would have had without it, and, when it succeeds, leaves the message it would have left —
provided the earlier one left the authority named by the Gen1 card certificate as it was. -/
theorem verify_after_verify (res1 res2 : Option (Resolver σ)) (c m : DriverCard) (s1 s2 : σ)
    (hm : (verifyDriverCard res1 (some c) s1).msg = some m) (h : SameAuthority c m) :
    (verifyDriverCard res2 (some m) s2).result = (verifyDriverCard res2 (some c) s2).result ∧
    (verifyDriverCard res2 (some m) s2).world = (verifyDriverCard res2 (some c) s2).world ∧
    ((verifyDriverCard res2 (some c) s2).result = .ok () →
      (verifyDriverCard res2 (some m) s2).msg = (verifyDriverCard res2 (some c) s2).msg) := by
  obtain ⟨g, hg, hgc⟩ := verifyCard_msg res1 c s1
  have hm' : m = (verifyCard res1 c s1).msg := Option.some.inj hm.symm
  rw [hg] at hm'
  have g2 : ∀ s2, (verifyCardGen2 res2 g s2).result = (verifyCardGen2 res2 c s2).result ∧
      (verifyCardGen2 res2 g s2).world = (verifyCardGen2 res2 c s2).world ∧
      ((verifyCardGen2 res2 c s2).result = .ok () → (verifyCardGen2 res2 g s2).msg = (verifyCardGen2 res2 c s2).msg) := by
    intro s2
    rcases hgc with rfl | ⟨s', rfl⟩
    · exact ⟨rfl, rfl, fun _ => rfl⟩
    · exact cardGen2_again res1 res2 c s' s2
  unfold SameAuthority at h
  unfold verifyDriverCard verifyCard
  dsimp only
  subst hm'
  cases ht : c.tachograph with
  | none =>
    dsimp only [Option.map_none]
    obtain ⟨a, b, d⟩ := g2 s2
    rw [cardGen2_other]
    refine ⟨a, b, fun e => ?_⟩
    have hn : (verifyCardGen2 res2 c s2).msg.tachograph = none := by
      rw [← ht]
      obtain ⟨icc, ic, t1, t2⟩ := c
      cases t2 <;> rfl
    dsimp only
    rw [d e, ← hn]
  | some t =>
    rw [ht] at h
    obtain ⟨a, b, d⟩ := gen1_again res1 res2 t s1 s2 h
    dsimp only [Option.map_some]
    rw [a]
    cases hr : (verifyGen1 res2 t s2).result with
    | err m => exact ⟨rfl, b, fun e => by cases e⟩
    | panic => exact ⟨rfl, b, fun e => by cases e⟩
    | ok u =>
      dsimp only
      rw [show ({ g with tachograph := some (verifyGen1 res2 (verifyGen1 res1 t s1).msg s2).msg } : DriverCard) =
        { g with tachograph := some (verifyGen1 res2 t s2).msg } by rw [d hr], b,
        cardGen2_other res2 g (some (verifyGen1 res2 t s2).msg), cardGen2_other res2 c (some (verifyGen1 res2 t s2).msg)]
      obtain ⟨a', b', d'⟩ := g2 (verifyGen1 res2 t s2).world
      refine ⟨a', b', fun e => ?_⟩
      dsimp only at e ⊢
      rw [d' e]

/-! ### A resolver that always answers the same -/

theorem gen1Authority_steady {r : Resolver σ} (hr : Steady r) (n : Bytes) (s s' : σ) : (gen1Authority r n s).1 = (gen1Authority r n s').1 := by
  obtain ⟨h1, -, h3⟩ := hr
  unfold gen1Authority
  have e := h1 n s s'
  rcases hx : r.rsa n s with ⟨x, s1⟩
  rcases hy : r.rsa n s' with ⟨y, s1'⟩
  rw [hx, hy] at e
  dsimp only at e
  subst e
  cases x with
  | err m => rfl
  | panic => rfl
  | ok ca =>
    dsimp only
    split
    · have e := h3 s1 s1'
      rcases hx : r.root s1 with ⟨x, s2⟩
      rcases hy : r.root s1' with ⟨y, s2'⟩
      rw [hx, hy] at e
      dsimp only at e
      subst e
      cases x with
      | err m => rfl
      | panic => rfl
      | ok root =>
        dsimp only
        rcases verifyRsaWithRoot ca root with ⟨a, b⟩
        cases b <;> rfl
    · rfl

theorem verifyGen1_steady {r : Resolver σ} (hr : Steady r) (t : Tachograph) (s s' : σ) :
    (verifyGen1 (some r) t s).msg = (verifyGen1 (some r) t s').msg ∧ (verifyGen1 (some r) t s).result = (verifyGen1 (some r) t s').result := by
  unfold verifyGen1
  cases t.cardCertificate with
  | none => exact ⟨rfl, rfl⟩
  | some cert =>
    dsimp only
    have e := gen1Authority_steady hr cert.car s s'
    rcases hx : gen1Authority r cert.car s with ⟨x, s1⟩
    rcases hy : gen1Authority r cert.car s' with ⟨y, s1'⟩
    rw [hx, hy] at e
    dsimp only at e
    subst e
    cases x <;> exact ⟨rfl, rfl⟩

theorem verifyGen2_steady {r : Resolver σ} (hr : Steady r) (t : TachographG2) (s s' : σ) :
    (verifyGen2 (some r) t s).msg = (verifyGen2 (some r) t s').msg ∧ (verifyGen2 (some r) t s).result = (verifyGen2 (some r) t s').result := by
  unfold verifyGen2
  cases t.cardSignCertificate with
  | none => exact ⟨rfl, rfl⟩
  | some cert =>
    dsimp only
    have e := hr.2.1 cert.car s s'
    rcases hx : r.ecc cert.car s with ⟨x, s1⟩
    rcases hy : r.ecc cert.car s' with ⟨y, s1'⟩
    rw [hx, hy] at e
    dsimp only at e
    subst e
    cases x <;> exact ⟨rfl, rfl⟩

theorem verifyCardGen2_steady {r : Resolver σ} (hr : Steady r) (c : DriverCard) (s s' : σ) :
    (verifyCardGen2 (some r) c s).msg = (verifyCardGen2 (some r) c s').msg ∧
      (verifyCardGen2 (some r) c s).result = (verifyCardGen2 (some r) c s').result := by
  unfold verifyCardGen2
  split
  · exact ⟨rfl, rfl⟩
  · rename_i t _
    obtain ⟨h1, h2⟩ := verifyGen2_steady hr t s s'
    exact ⟨by dsimp only; rw [h1], h2⟩

/-- With such a resolver the outcome depends on the card only. -/
theorem verify_steady {r : Resolver σ} (hr : Steady r) (c : DriverCard) (s s' : σ) :
    (verifyDriverCard (some r) (some c) s).msg = (verifyDriverCard (some r) (some c) s').msg ∧
      (verifyDriverCard (some r) (some c) s).result = (verifyDriverCard (some r) (some c) s').result := by
  unfold verifyDriverCard verifyCard
  dsimp only
  cases c.tachograph with
  | none =>
    obtain ⟨h1, h2⟩ := verifyCardGen2_steady hr c s s'
    exact ⟨congrArg some h1, h2⟩
  | some t =>
    dsimp only
    obtain ⟨h1, h2⟩ := verifyGen1_steady hr t s s'
    rw [h1, h2]
    cases (verifyGen1 (some r) t s').result with
    | err m => exact ⟨rfl, rfl⟩
    | panic => exact ⟨rfl, rfl⟩
    | ok u =>
      obtain ⟨h1, h2⟩ := verifyCardGen2_steady hr { c with tachograph := some (verifyGen1 (some r) t s').msg }
        (verifyGen1 (some r) t s).world (verifyGen1 (some r) t s').world
      exact ⟨congrArg some h1, h2⟩

/-- C72: a card that was verified is verified again, as often as one likes, and is not changed by it, provided the first
verification left the authority named by the Gen1 card certificate as it was. -/
theorem verify_again {r : Resolver σ} (hr : Steady r) (c c' : DriverCard) (s s' : σ)
    (h : verifyDriverCard (some r) (some c) s = ⟨some c', .ok (), s'⟩) (hs : SameAuthority c c') (s2 : σ) :
    ∃ s3, verifyDriverCard (some r) (some c') s2 = ⟨some c', .ok (), s3⟩ := by
  obtain ⟨h1, h2, h3⟩ := verify_after_verify (some r) (some r) c c' s s2 (by rw [h]) hs
  obtain ⟨e1, e2⟩ := verify_steady hr c s2 s
  rw [h] at e1 e2
  rw [e2] at h1 h3
  rw [e1] at h3
  refine ⟨(verifyDriverCard (some r) (some c') s2).world, ?_⟩
  have h3 := h3 rfl
  generalize verifyDriverCard (some r) (some c') s2 = v at *
  cases v
  dsimp only at *
  rw [h1, h3]

/-- C72: when a Gen1 certificate that was parsed is verified, the authority it names stays the same exactly if the
reference inside the signed content is the reference that follows it. -/
theorem verified_authority_iff (c c' : RsaCert) (modulus exponent name : Bytes) (hc : ∃ car, car.length = 8 ∧ c.raw.drop 186 = car ∧ IsDecimal c.car (beNat car))
    (h : RsaSignedBy modulus exponent name c c') :
    ∃ content car f, Iso9796 (beNat modulus) (beNat exponent) c.raw content car ∧ Content.Layout f content ∧ (c'.car = c.car ↔ f.car = car) := by
  obtain ⟨_, _, content, car, f, hi, hn, hl, rfl⟩ := h
  refine ⟨content, car, f, hi, hl, ?_⟩
  obtain ⟨sig, cr, cn, hraw, l1, l2, l3, -⟩ := hi
  obtain ⟨car', _, hd, hdec⟩ := hc
  have : car' = car := by
    rw [← hd, hraw, List.drop_append_of_le_length (by simp; omega), List.drop_eq_nil_of_le (by simp; omega), List.nil_append]
  subst this
  rw [isDecimal_iff] at hdec
  rw [hdec]
  constructor
  · intro e
    rw [← beBytes_beNat' hl.2.1, ← beBytes_beNat' l3, decimal_inj e]
  · rintro e
    dsimp only
    rw [e]

/-- A certificate whose content is zero, signed with exponent 1, followed by the reference `car`. -/
def Spec.zeroCert (car : Bytes) : Bytes :=
  [0x6A] ++ zeros 106 ++ Crypto.sha1 (zeros 106 ++ zeros 58) ++ [0xBC] ++ zeros 58 ++ car

omit [Crypto] in
/-- An authority of the given name with exponent 1. -/
def Spec.oneCA (name : Bytes) : RsaCert := { modulus := 1 :: zeros 128, exponent := [1], chr := name }

omit [Crypto] in
/-- A resolver that finds such an authority under every name. -/
def Spec.oneResolver : Resolver Unit := ⟨fun s => (.err "", s), fun n s => (.ok (some (oneCA n)), s), fun _ s => (.err "", s)⟩

theorem zeroCert_verifies (car x : Bytes) (h8 : car.length = 8) :
    ∃ c1, verifyRsaWithCA (some { raw := zeroCert car, car := x }) (some (oneCA (decimal (beNat car)))) = (some c1, .ok ()) ∧
      c1.car = decimal 0 ∧ c1.raw = zeroCert car := by
  obtain ⟨c1, h1, _⟩ := rsa_sample_verifies (zeros 106) (zeros 58) car (zeros_length _) (zeros_length _) h8
  refine ⟨c1, ?_, ?_⟩
  · obtain ⟨a, b, _⟩ := rsaCA_raw { raw := zeroCert car, car := x } { raw := zeroCert car } rfl (some (oneCA (decimal (beNat car))))
    rw [show verifyRsaWithCA (some { raw := zeroCert car }) (some (oneCA (decimal (beNat car)))) = (some c1, .ok ()) from h1] at a b
    exact Prod.ext (b a) a
  obtain ⟨_, _, content, car', f, ⟨sig, cr, cn, hr, l1, l2, l3, hcont, l4, hrec⟩, -, hl, rfl⟩ := (rsa_verify_ca_iff _ _ _).mp h1
  dsimp only at hr hrec
  have hm : beNat (1 :: zeros 128) = 256 ^ 128 := by decide +kernel
  have hs : [0x6A] ++ zeros 106 ++ Crypto.sha1 (zeros 106 ++ zeros 58) ++ [0xBC] = sig ∧ zeros 58 ++ car = cn ++ car' := by
    rw [List.append_assoc, List.append_assoc sig] at hr
    exact List.append_inj hr (by simp [l1, Crypto.sha1_length])
  have hlt := beNat_lt sig
  rw [l1] at hlt
  rw [hm, show beNat [1] = 1 from rfl, Nat.pow_one, Nat.mod_eq_of_lt hlt] at hrec
  have hsig : sig = [0x6A] ++ cr ++ Crypto.sha1 content ++ [0xBC] := by
    rw [← beBytes_beNat' l1, hrec, beBytes_beNat' (by simp [l4, Crypto.sha1_length])]
  rw [← hs.1, List.append_assoc, List.append_assoc, List.append_assoc, List.append_assoc] at hsig
  have hcr : zeros 106 = cr := (List.append_inj (List.append_inj hsig rfl).2 (by simp [l4])).1
  have hf : f.car = zeros 8 := by
    have e := hl.1
    rw [hcont, ← hcr] at e
    have e' := congrArg (fun l : Bytes => (l.drop 1).take 8) e
    simp only [List.append_assoc, List.cons_append, List.nil_append, List.drop_succ_cons, List.drop_zero] at e'
    rw [List.take_append_of_le_length (l₁ := f.car) (by rw [hl.2.1]; omega), List.take_of_length_le (l := f.car) (by rw [hl.2.1]; omega)] at e'
    rw [← e', List.drop_append_of_le_length (by simp), List.take_append_of_le_length (by simp)]
    rfl
  exact ⟨by dsimp only; rw [hf]; rfl, rfl⟩

theorem oneResolver_authority (n : Bytes) : gen1Authority oneResolver n () = (.ok (some (oneCA n)), ()) := by
  have hk : ¬ (((some (oneCA n)).getD {}).modulus.length = 0 ∨ ((some (oneCA n)).getD {}).exponent.length = 0) := by
    dsimp only [Option.getD, oneCA, List.length_cons]
    omega
  unfold gen1Authority
  dsimp only [oneResolver]
  rw [if_neg hk]

omit [Crypto] in
theorem oneResolver_steady : Steady oneResolver := ⟨fun _ _ _ => rfl, fun _ _ _ => rfl, fun _ _ => rfl⟩

theorem zeroCard_verified (car : Bytes) (h8 : car.length = 8) : ∃ c1, c1.car = decimal 0 ∧ c1.raw = zeroCert car ∧
    verifyDriverCard (some oneResolver) (some { tachograph := some { cardCertificate := some { raw := zeroCert car, car := decimal (beNat car) } } }) () =
      ⟨some { tachograph := some { cardCertificate := some c1 } }, .ok (), ()⟩ := by
  obtain ⟨c1, h1, h2, h3⟩ := zeroCert_verifies car (decimal (beNat car)) h8
  refine ⟨c1, h2, h3, ?_⟩
  unfold verifyDriverCard verifyCard verifyGen1
  dsimp only
  rw [oneResolver_authority]
  dsimp only
  rw [h1]
  rfl

/-- C72, finding: the code does not compare the two references. A certificate in which they differ is verified once; the
verification then puts the inner reference in place of the outer one, and verifying the message again fails. -/
theorem verify_again_refused : ∃ (r : Resolver Unit) (c c' : DriverCard) (m : String), Steady r ∧
    verifyDriverCard (some r) (some c) () = ⟨some c', .ok (), ()⟩ ∧ (verifyDriverCard (some r) (some c') ()).result = .err m := by
  obtain ⟨c1, h2, h3, h1⟩ := zeroCard_verified (zeros 7 ++ [1]) (by simp)
  refine ⟨oneResolver, _, _, "CAR mismatch", oneResolver_steady, h1, ?_⟩
  unfold verifyDriverCard verifyCard verifyGen1
  dsimp only
  rw [oneResolver_authority, h2]
  dsimp only
  have : (verifyRsaWithCA (some c1) (some (oneCA (decimal 0)))).2 = .err "CAR mismatch" := by
    show (verifyRsaCore c1 (1 :: zeros 128) [1] (decimal 0)).2 = _
    unfold verifyRsaCore
    have hlen : (zeroCert (zeros 7 ++ [1])).length = 194 := by simp [zeroCert, Crypto.sha1_length]
    rw [h3, if_neg (by rw [hlen]; simp), if_neg (by simp), if_pos ?_]
    rw [show sl (zeroCert (zeros 7 ++ [1])) 186 194 = zeros 7 ++ [1] by
      rw [sl, List.take_of_length_le (by omega), zeroCert, List.drop_append_of_le_length (by simp [Crypto.sha1_length]),
        List.drop_eq_nil_of_le (by simp [Crypto.sha1_length]), List.nil_append], show beNat (zeros 7 ++ [1]) = 1 by decide]
    exact fun e => absurd (decimal_inj e) (by decide)
  rw [this]

/-- A certificate in which they agree: verified as often as one likes. -/
example : ∃ (c c' : DriverCard), Steady oneResolver ∧ verifyDriverCard (some oneResolver) (some c) () = ⟨some c', .ok (), ()⟩ ∧
    SameAuthority c c' ∧ ∃ s3, verifyDriverCard (some oneResolver) (some c') () = ⟨some c', .ok (), s3⟩ := by
  obtain ⟨c1, h2, h3, h1⟩ := zeroCard_verified (zeros 8) (by simp)
  have hs : SameAuthority { tachograph := some { cardCertificate := some { raw := zeroCert (zeros 8), car := decimal (beNat (zeros 8)) } } }
      { tachograph := some { cardCertificate := some c1 } } := by
    show some (decimal (beNat (zeros 8))) = some c1.car
    rw [h2]; rfl
  exact ⟨_, _, oneResolver_steady, h1, hs, verify_again oneResolver_steady _ _ _ _ h1 hs ()⟩

/-! ## Writing after verifying -/

omit [Crypto] in
theorem written_without_cert1 [Charmap] (c : DriverCard) (t : Tachograph) (x : Option RsaCert) (d : Bytes)
    (hx : x.map RsaCert.raw = t.cardCertificate.map RsaCert.raw) :
    appendDriverCard d { c with tachograph := some { t with cardCertificate := x } } = appendDriverCard d { c with tachograph := some t } := by
  unfold appendDriverCard appendGen1 appendCertificates
  dsimp only [Option.getD]
  rw [hx]

omit [Crypto] in
theorem written_without_cert2 [Charmap] (c : DriverCard) (t : TachographG2) (x : Option EccCert) (d : Bytes)
    (hx : x.map EccCert.raw = t.cardSignCertificate.map EccCert.raw) :
    appendDriverCard d { c with tachographG2 := some { t with cardSignCertificate := x } } = appendDriverCard d { c with tachographG2 := some t } := by
  unfold appendDriverCard appendGen2 appendCertificates
  dsimp only [Option.getD]
  rw [hx]
  rfl

/-- C72: what a verification changes is not written: a card is written as it would have been before. -/
theorem verify_not_written [Charmap] (res : Option (Resolver σ)) (c : Option DriverCard) (s : σ) :
    marshalDriverCard (verifyDriverCard res c s).msg = marshalDriverCard c := by
  cases c with
  | none => rfl
  | some c =>
    show appendDriverCard [] (verifyCard res c s).msg = appendDriverCard [] c
    have h2 : ∀ (c : DriverCard) s, appendDriverCard [] (verifyCardGen2 res c s).msg = appendDriverCard [] c := by
      intro c s
      obtain ⟨icc, ic, t1, t2⟩ := c
      cases t2 with
      | none => rfl
      | some t =>
        show appendDriverCard [] ⟨icc, ic, t1, some (verifyGen2 res t s).msg⟩ = _
        rcases gen2_effect res t s with e | ⟨cert, v, hc, e⟩
        · rw [e]
        · rw [e]
          exact written_without_cert2 ⟨icc, ic, t1, some t⟩ t _ [] (by rw [hc]; rfl)
    have h1 : ∀ (c : DriverCard) t s, appendDriverCard [] { c with tachograph := some (verifyGen1 res t s).msg } =
        appendDriverCard [] { c with tachograph := some t } := by
      intro c t s
      rcases gen1_effect res t s with e | ⟨cert, cert', hc, hr, e⟩
      · rw [e]
      · rw [e]
        exact written_without_cert1 c t _ [] (by rw [hc, Option.map_some, Option.map_some, hr])
    unfold verifyCard
    cases ht : c.tachograph with
    | none => exact h2 c s
    | some t =>
      have hc : c = { c with tachograph := some t } := by rw [← ht]
      dsimp only
      split
      · rw [h2, h1, ← hc]
      · dsimp only; rw [h1, ← hc]
      · dsimp only; rw [h1, ← hc]

/-- C72: the same for MarshalFile and VerifyFile. -/
theorem verifyFile_not_written [Charmap] (dflt : Resolver σ) (res : Option (Resolver σ)) (f : Option File) (s : σ) :
    marshalFile (verifyFile dflt res f s).msg = marshalFile f := by
  cases f with
  | none => rfl
  | some f =>
    unfold verifyFile
    dsimp only
    split
    · rename_i ht
      unfold marshalFile
      dsimp only [Option.getD]
      rw [ht]
      exact verify_not_written _ _ _
    · rfl
    · rfl
    · rfl

end

end Tacho
