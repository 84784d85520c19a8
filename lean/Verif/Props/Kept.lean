import Verif.Model.Kept
import Verif.Props.VerifyAgain
/-!
# A resolver that keeps its certificates (C73)
-/

namespace Tacho
open Spec

/-! ## Specification -/

/-- What may become of a kept certificate: nothing; or, if it had no key, the root has signed it and its content was
filled in, or it was marked as not valid. -/
def Spec.KeptAs [Crypto] (root : Res (Option RootCert)) (c0 c : RsaCert) : Prop :=
  c = c0 ∨ ∃ rt, root = .ok (some rt) ∧ ¬ HasKey c0 ∧
    (RsaSignedBy rt.modulus rt.exponent rt.keyId c0 c ∨ c = { c0 with valid := false })

section
variable [Crypto]

/-! ## One authority -/

/-- A verification that fails leaves the certificate as it was, or marks it as not valid. -/
theorem rsaCore_cases (c : RsaCert) (m e n : Bytes) : (verifyRsaCore c m e n).2 = .ok () ∨
    ∃ s, (verifyRsaCore c m e n).2 = .err s ∧ ((verifyRsaCore c m e n).1 = c ∨ (verifyRsaCore c m e n).1 = { c with valid := false }) := by
  have hr : ∀ sr, (rsaRecovered c sr).2 = .ok () ∨
      ∃ s, (rsaRecovered c sr).2 = .err s ∧ ((rsaRecovered c sr).1 = c ∨ (rsaRecovered c sr).1 = { c with valid := false }) := by
    intro sr
    unfold rsaRecovered
    dsimp only
    split
    · exact .inr ⟨_, rfl, .inr rfl⟩
    · split
      · exact .inr ⟨_, rfl, .inr rfl⟩
      · split
        · exact .inr ⟨_, rfl, .inr rfl⟩
        · exact .inl rfl
  unfold verifyRsaCore
  dsimp only
  by_cases h1 : c.raw.length ≠ 194
  · simp only [if_pos h1]; exact .inr ⟨_, rfl, .inl trivial⟩
  · simp only [if_neg h1]
    by_cases h2 : m.length = 0 ∨ e.length = 0
    · simp only [if_pos h2]; exact .inr ⟨_, rfl, .inl trivial⟩
    · simp only [if_neg h2]
      by_cases h3 : decimal (beNat (sl c.raw 186 194)) ≠ n
      · simp only [if_pos h3]; exact .inr ⟨_, rfl, .inr trivial⟩
      · simp only [if_neg h3]
        by_cases h4 : expMod (beNat (sl c.raw 0 128)) (beNat e) (beNat m) < 256 ^ 128
        · simp only [if_pos h4]; exact hr _
        · simp only [if_neg h4]; exact .inr ⟨_, rfl, .inr trivial⟩

theorem signed_hasKey {m e n : Bytes} {c c' : RsaCert} (h : RsaSignedBy m e n c c') : HasKey c' := by
  obtain ⟨_, _, content, car, f, _, _, hl, rfl⟩ := h
  have h1 : f.modulus.length = 128 := by have := hl; unfold Content.Layout at this; omega
  have h2 : f.exponent.length = 8 := by have := hl; unfold Content.Layout at this; omega
  constructor
  · dsimp only; intro e; rw [e] at h1; cases h1
  · dsimp only; intro e; rw [e] at h2; cases h2

/-- The key the code would get from a copy of `c0`. -/
def copyKey (root : Res (Option RootCert)) (c0 : RsaCert) : Res (Option RsaCert) :=
  (gen1Authority (⟨fun s => (root, s), fun _ s => (.ok (some c0), s), fun _ s => (.err "", s)⟩ : Resolver Unit) [] ()).1

theorem copyKey_key (root : Res (Option RootCert)) {c0 : RsaCert} (h : HasKey c0) : copyKey root c0 = .ok (some c0) := by
  rw [hasKey_iff] at h
  unfold copyKey gen1Authority
  dsimp only [Option.getD]
  rw [if_neg h]

theorem copyKey_noKey (root : Res (Option RootCert)) {c0 : RsaCert} (h : ¬ HasKey c0) : copyKey root c0 =
    match root with
    | .err m => .err m
    | .panic => .panic
    | .ok none => .err "root certificate cannot be nil"
    | .ok (some rt) =>
      match verifyRsaCore c0 rt.modulus rt.exponent rt.keyId with
      | (ca, .ok ()) => .ok (some ca)
      | (_, .err m) => .err m
      | (_, .panic) => .panic := by
  rw [hasKey_iff, Classical.not_not] at h
  unfold copyKey gen1Authority
  dsimp only [Option.getD]
  rw [if_pos h]
  cases root with
  | err m => rfl
  | panic => rfl
  | ok rt =>
    cases rt with
    | none => rfl
    | some rt =>
      dsimp only [verifyRsaWithRoot]
      rcases verifyRsaCore c0 rt.modulus rt.exponent rt.keyId with ⟨a, b⟩
      cases b <;> rfl

theorem keptKey_key (root : Res (Option RootCert)) (a : Nat) (h : CertCells) (hk : HasKey (h a)) : keptKey root a h = (.ok (some (h a)), h) := by
  rw [hasKey_iff] at hk
  unfold keptKey
  rw [if_neg hk]

theorem keptKey_noKey (root : Res (Option RootCert)) (a : Nat) (h : CertCells) (hk : ¬ HasKey (h a)) : keptKey root a h =
    (copyKey root (h a), match root with
      | .ok (some rt) => h.set a (verifyRsaCore (h a) rt.modulus rt.exponent rt.keyId).1
      | _ => h) := by
  rw [copyKey_noKey root hk]
  rw [hasKey_iff, Classical.not_not] at hk
  unfold keptKey
  rw [if_pos hk]
  cases root with
  | err m => rfl
  | panic => rfl
  | ok rt =>
    cases rt with
    | none =>
      dsimp only [verifyRsaWithRoot, Option.getD]
      refine Prod.ext rfl (funext fun b => ?_)
      show (if b = a then h a else h b) = h b
      split
      · rename_i e; rw [e]
      · rfl
    | some rt =>
      dsimp only [verifyRsaWithRoot]
      rcases verifyRsaCore (h a) rt.modulus rt.exponent rt.keyId with ⟨x, b⟩
      cases b <;> rfl

/-- The same certificate but for the mark gives the same key. -/
theorem copyKey_mark (root : Res (Option RootCert)) (c : RsaCert) (v : Bool) (h : ¬ HasKey c) :
    copyKey root { c with valid := v } = copyKey root c := by
  rw [copyKey_noKey root (c0 := { c with valid := v }) h, copyKey_noKey root h]
  cases root with
  | err m => rfl
  | panic => rfl
  | ok rt =>
    cases rt with
    | none => rfl
    | some rt =>
      obtain ⟨h1, h2, _⟩ := rsaCore_raw { c with valid := v } c rfl rt.modulus rt.exponent rt.keyId
      dsimp only
      rcases hx : verifyRsaCore { c with valid := v } rt.modulus rt.exponent rt.keyId with ⟨a, b⟩
      rcases hy : verifyRsaCore c rt.modulus rt.exponent rt.keyId with ⟨a', b'⟩
      rw [hx, hy] at h1 h2
      dsimp only at h1 h2
      subst h1
      cases b with
      | ok u => rw [h2 rfl]
      | err m => rfl
      | panic => rfl

theorem keptAs_write {rt : RootCert} {c0 c : RsaCert} (h : ¬ HasKey c) (hk : KeptAs (.ok (some rt)) c0 c) :
    KeptAs (.ok (some rt)) c0 (verifyRsaCore c rt.modulus rt.exponent rt.keyId).1 := by
  have hc : ¬ HasKey c0 ∧ ∃ v, c = { c0 with valid := v } := by
    rcases hk with rfl | ⟨rt', e, hn, hs | rfl⟩
    · exact ⟨h, c.valid, rfl⟩
    · exact absurd (signed_hasKey hs) h
    · exact ⟨hn, false, rfl⟩
  obtain ⟨hn, v, rfl⟩ := hc
  rcases rsaCore_cases { c0 with valid := v } rt.modulus rt.exponent rt.keyId with e | ⟨m, e, e' | e'⟩
  · refine .inr ⟨rt, rfl, hn, .inl ?_⟩
    obtain ⟨h1, h2, _⟩ := rsaCore_raw { c0 with valid := v } c0 rfl rt.modulus rt.exponent rt.keyId
    rw [h2 e]
    obtain ⟨c, r, c', e1, e2, e3, hs⟩ := (rsaRoot_ok_iff (some c0) (some rt) (some (verifyRsaCore c0 rt.modulus rt.exponent rt.keyId).1)).mp
      (by show (some _, (verifyRsaCore c0 rt.modulus rt.exponent rt.keyId).2) = _; rw [← h1, e])
    cases e1; cases e2
    rw [Option.some.inj e3]
    exact hs
  · rw [e']; exact hk
  · rw [e']; exact .inr ⟨rt, rfl, hn, .inr rfl⟩

theorem keptKey_same (root : Res (Option RootCert)) (a : Nat) (c0 : RsaCert) (h : CertCells) (hk : KeptAs root c0 (h a)) :
    (keptKey root a h).1 = copyKey root c0 ∧ (∀ b, b ≠ a → (keptKey root a h).2 b = h b) ∧ KeptAs root c0 ((keptKey root a h).2 a) := by
  by_cases hh : HasKey (h a)
  · rw [keptKey_key root a h hh]
    refine ⟨?_, fun _ _ => rfl, hk⟩
    rcases hk with e | ⟨rt, rfl, hn, hs | e⟩
    · rw [← e, copyKey_key root hh]
    · rw [copyKey_noKey _ hn]
      have := (rsaRoot_ok_iff (some c0) (some rt) (some (h a))).mpr ⟨c0, rt, h a, rfl, rfl, rfl, hs⟩
      have e : verifyRsaCore c0 rt.modulus rt.exponent rt.keyId = (h a, .ok ()) := by
        dsimp only [verifyRsaWithRoot] at this
        have h2 : (verifyRsaCore c0 rt.modulus rt.exponent rt.keyId).2 = .ok () := (Prod.mk.inj this).2
        exact Prod.ext (Option.some.inj (Prod.mk.inj this).1) h2
      dsimp only
      rw [e]
    · rw [e] at hh; exact absurd hh hn
  · rw [keptKey_noKey root a h hh]
    refine ⟨?_, fun b hb => ?_, ?_⟩
    · rcases hk with e | ⟨rt, rfl, hn, hs | e⟩
      · rw [e]
      · exact absurd (signed_hasKey hs) hh
      · rw [e]; exact copyKey_mark _ _ _ hn
    · dsimp only
      split
      · exact if_neg hb
      · rfl
    · dsimp only
      split
      · rename_i rt
        show KeptAs _ c0 (if a = a then _ else _)
        rw [if_pos rfl]
        exact keptAs_write hh hk
      · exact hk

/-! ## One card -/

theorem keptAuthority_same (r : KeptResolver) (h0 h : CertCells) (hk : ∀ b, KeptAs r.root (h0 b) (h b)) (name : Bytes) {σ : Type} (s : σ) :
    (keptAuthority r name h).1 = (gen1Authority (r.copies h0) name s).1 ∧ ∀ b, KeptAs r.root (h0 b) ((keptAuthority r name h).2 b) := by
  unfold keptAuthority gen1Authority KeptResolver.copies
  dsimp only
  cases hn : r.rsa name with
  | err m => exact ⟨rfl, hk⟩
  | panic => exact ⟨rfl, hk⟩
  | ok a =>
    cases a with
    | none =>
      dsimp only [Option.map_none, Option.getD, List.length_nil]
      rw [if_pos (.inl rfl)]
      generalize r.root = rt at hk ⊢
      cases rt with
      | err m => exact ⟨rfl, hk⟩
      | panic => exact ⟨rfl, hk⟩
      | ok root =>
        dsimp only
        rcases verifyRsaWithRoot none root with ⟨x, y⟩
        cases y <;> exact ⟨rfl, hk⟩
    | some a =>
      obtain ⟨e1, e2, e3⟩ := keptKey_same r.root a (h0 a) h (hk a)
      refine ⟨?_, fun b => ?_⟩
      · dsimp only
        rw [e1]
        unfold copyKey gen1Authority
        dsimp only [Option.map_some, Option.getD]
        split
        · cases r.root with
          | err m => rfl
          | panic => rfl
          | ok root =>
            dsimp only
            rcases verifyRsaWithRoot (some (h0 a)) root with ⟨x, y⟩
            cases y <;> rfl
        · rfl
      · dsimp only
        by_cases hb : b = a
        · rw [hb]; exact e3
        · rw [e2 b hb]; exact hk b

theorem keptGen1_same (r : KeptResolver) (h0 h : CertCells) (hk : ∀ b, KeptAs r.root (h0 b) (h b)) (t : Tachograph) {σ : Type} (s : σ) :
    (keptGen1 r t h).msg = (verifyGen1 (some (r.copies h0)) t s).msg ∧ (keptGen1 r t h).result = (verifyGen1 (some (r.copies h0)) t s).result ∧
      ∀ b, KeptAs r.root (h0 b) ((keptGen1 r t h).world b) := by
  unfold keptGen1 verifyGen1
  cases t.cardCertificate with
  | none => exact ⟨rfl, rfl, hk⟩
  | some cert =>
    dsimp only
    obtain ⟨e, hk'⟩ := keptAuthority_same r h0 h hk cert.car s
    rcases hx : keptAuthority r cert.car h with ⟨x, h'⟩
    rcases hy : gen1Authority (r.copies h0) cert.car s with ⟨y, s'⟩
    rw [hx, hy] at e
    rw [hx] at hk'
    dsimp only at e hk'
    subst e
    cases x <;> exact ⟨rfl, rfl, hk'⟩

theorem copies_gen2 (r : KeptResolver) (h0 h : CertCells) (c : DriverCard) {σ τ : Type} (s : σ) (s' : τ) :
    (verifyCardGen2 (some (r.copies h)) c s).msg = (verifyCardGen2 (some (r.copies h0)) c s').msg ∧
    (verifyCardGen2 (some (r.copies h)) c s).result = (verifyCardGen2 (some (r.copies h0)) c s').result ∧
    (verifyCardGen2 (some (r.copies h)) c s).world = s := by
  unfold verifyCardGen2
  cases c.tachographG2 with
  | none => exact ⟨rfl, rfl, rfl⟩
  | some t =>
    unfold verifyGen2 KeptResolver.copies
    dsimp only
    cases t.cardSignCertificate with
    | none => exact ⟨rfl, rfl, rfl⟩
    | some cert =>
      dsimp only
      cases r.ecc cert.car <;> exact ⟨rfl, rfl, rfl⟩

theorem keptCard_same (r : KeptResolver) (h0 h : CertCells) (hk : ∀ b, KeptAs r.root (h0 b) (h b)) (c : DriverCard) {σ : Type} (s : σ) :
    (keptCard r c h).msg = (verifyCard (some (r.copies h0)) c s).msg ∧ (keptCard r c h).result = (verifyCard (some (r.copies h0)) c s).result ∧
      ∀ b, KeptAs r.root (h0 b) ((keptCard r c h).world b) := by
  unfold keptCard verifyCard
  cases c.tachograph with
  | none =>
    obtain ⟨e1, e2, e3⟩ := copies_gen2 r h0 h c h s
    exact ⟨e1, e2, by dsimp only; rw [e3]; exact hk⟩
  | some t =>
    dsimp only
    obtain ⟨e1, e2, e3⟩ := keptGen1_same r h0 h hk t s
    rw [e1, e2]
    cases (verifyGen1 (some (r.copies h0)) t s).result with
    | err m => exact ⟨rfl, rfl, e3⟩
    | panic => exact ⟨rfl, rfl, e3⟩
    | ok u =>
      dsimp only
      obtain ⟨a1, a2, a3⟩ := copies_gen2 r h0 h { c with tachograph := some (verifyGen1 (some (r.copies h0)) t s).msg }
        (keptGen1 r t h).world (verifyGen1 (some (r.copies h0)) t s).world
      exact ⟨a1, a2, by rw [a3]; exact e3⟩

/-! ## Any number of cards -/

theorem keptRun_same (r : KeptResolver) (h0 : CertCells) (cs : List DriverCard) (h : CertCells) (hk : ∀ b, KeptAs r.root (h0 b) (h b)) :
    (keptRun r cs h).1.map (fun x => (some x.1, x.2)) = (cs.map fun c =>
      ((verifyDriverCard (some (r.copies h0)) (some c) ()).msg, (verifyDriverCard (some (r.copies h0)) (some c) ()).result)) ∧
    ∀ b, KeptAs r.root (h0 b) ((keptRun r cs h).2 b) := by
  induction cs generalizing h with
  | nil => exact ⟨rfl, hk⟩
  | cons c cs ih =>
    obtain ⟨e1, e2, e3⟩ := keptCard_same r h0 h hk c ()
    obtain ⟨i1, i2⟩ := ih _ e3
    refine ⟨?_, i2⟩
    show (some (keptCard r c h).msg, (keptCard r c h).result) :: List.map _ (keptRun r cs (keptCard r c h).world).1 = _ :: _
    rw [i1, e1, e2]
    rfl

/-- C73: whether a resolver gives out copies of its certificates or keeps them makes no difference to the outcome: in
every sequence of verifications, each card is left, and each result is, as with a fresh copy. -/
theorem kept_same (r : KeptResolver) (cs : List DriverCard) (h0 : CertCells) :
    (keptRun r cs h0).1.map (fun x => (some x.1, x.2)) = cs.map fun c =>
      ((verifyDriverCard (some (r.copies h0)) (some c) ()).msg, (verifyDriverCard (some (r.copies h0)) (some c) ()).result) :=
  (keptRun_same r h0 cs h0 fun _ => .inl rfl).1

/-- C73: what the verifications of any number of cards leave in the certificates the resolver keeps. Nothing is trusted
that the root has not signed, and a certificate that has a key is not touched. -/
theorem kept_after (r : KeptResolver) (cs : List DriverCard) (h0 : CertCells) (a : Nat) : KeptAs r.root (h0 a) ((keptRun r cs h0).2 a) :=
  (keptRun_same r h0 cs h0 fun _ => .inl rfl).2 a

/-- C73: a certificate that has a key is not written any more, whatever is verified. -/
theorem kept_with_key (r : KeptResolver) (cs : List DriverCard) (h0 : CertCells) (a : Nat) (h : HasKey (h0 a)) : (keptRun r cs h0).2 a = h0 a := by
  rcases kept_after r cs h0 a with e | ⟨_, _, hn, _⟩
  · exact e
  · exact absurd h hn

/-- C73: the bytes of a kept certificate are never changed. -/
theorem kept_raw (r : KeptResolver) (cs : List DriverCard) (h0 : CertCells) (a : Nat) : ((keptRun r cs h0).2 a).raw = (h0 a).raw := by
  rcases kept_after r cs h0 a with e | ⟨_, _, _, ⟨_, _, _, _, _, _, _, _, e⟩ | e⟩ <;> rw [e]

/-- A kept certificate without a key that the root has signed, and a card that names it: the verification of the card
fills the certificate in. -/
example : ∃ (r : KeptResolver) (c : DriverCard) (h0 : CertCells), ¬ HasKey (h0 0) ∧ HasKey ((keptRun r [c] h0).2 0) := by
  obtain ⟨c1, h1, _⟩ := zeroCert_verifies (zeros 8) [] (by simp)
  let rt : RootCert := { keyId := decimal 0, modulus := 1 :: zeros 128, exponent := [1] }
  let r : KeptResolver := ⟨.ok (some rt), fun _ => .ok (some 0), fun _ => .err ""⟩
  let h0 : CertCells := fun _ => { raw := zeroCert (zeros 8), car := [] }
  have hn : ¬ HasKey (h0 0) := fun h => h.1 rfl
  refine ⟨r, { tachograph := some { cardCertificate := some {} } }, h0, hn, ?_⟩
  have hv : verifyRsaWithRoot (some (h0 0)) (some rt) = (some c1, .ok ()) := h1
  have hs : RsaSignedBy rt.modulus rt.exponent rt.keyId (h0 0) c1 := by
    obtain ⟨_, _, _, e1, e2, e3, hs⟩ := (rsaRoot_ok_iff _ _ _).mp hv
    cases e1; cases e2; cases e3
    exact hs
  have hc : (verifyRsaCore (h0 0) rt.modulus rt.exponent rt.keyId).1 = c1 := Option.some.inj (Prod.mk.inj hv).1
  have ha : (keptAuthority r [] h0).2 = h0.set 0 c1 := by
    show (keptKey r.root 0 h0).2 = _
    rw [keptKey_noKey _ _ _ hn]
    show h0.set 0 (verifyRsaCore (h0 0) rt.modulus rt.exponent rt.keyId).1 = _
    rw [hc]
  have hw : ∀ t : Tachograph, t.cardCertificate = some {} → (keptGen1 r t h0).world = h0.set 0 c1 := by
    intro t ht
    rw [← ha]
    unfold keptGen1
    rw [ht]
    dsimp only
    rcases keptAuthority r [] h0 with ⟨x, y⟩
    cases x <;> rfl
  have : (keptRun r [{ tachograph := some { cardCertificate := some {} } }] h0).2 = h0.set 0 c1 := by
    show (keptCard r { tachograph := some { cardCertificate := some {} } } h0).world = _
    unfold keptCard
    dsimp only
    rw [← hw { cardCertificate := some {} } rfl]
    split
    · rfl
    · rfl
    · rfl
  rw [this]
  exact signed_hasKey hs

end
end Tacho
