import Verif.Spec.Shared
import Verif.Props.Concurrent
import Verif.Props.Kept
/-!
# Verification of messages that share certificates (C92)
-/

namespace Tacho
open Spec
variable [Crypto]

/-! ## What a verification reads of the certificate -/

theorem sharedCore_result {c c' : RsaCert} (hr : c.raw = c'.raw) (m e n : Bytes) : (verifyRsaCore c m e n).2 = (verifyRsaCore c' m e n).2 := by
  unfold verifyRsaCore rsaRecovered
  rw [hr]
  dsimp only
  repeat' split
  all_goals rfl

theorem sharedCore_raw (c : RsaCert) (m e n : Bytes) : (verifyRsaCore c m e n).1.raw = c.raw := by
  unfold verifyRsaCore rsaRecovered
  dsimp only
  repeat' split
  all_goals rfl

theorem rsaWithCA_result {c c' : RsaCert} (hr : c.raw = c'.raw) (ca : Option RsaCert) :
    (verifyRsaWithCA (some c) ca).2 = (verifyRsaWithCA (some c') ca).2 := by
  cases ca with
  | none => rfl
  | some ca => exact sharedCore_result hr _ _ _

theorem rsaWithCA_raw (c : RsaCert) (ca : Option RsaCert) : ∃ c', (verifyRsaWithCA (some c) ca).1 = some c' ∧ c'.raw = c.raw := by
  cases ca with
  | none => exact ⟨c, rfl, rfl⟩
  | some ca => exact ⟨_, rfl, sharedCore_raw _ _ _ _⟩

theorem rsaWithRoot_raw (c : RsaCert) (root : Option RootCert) : ∃ c', (verifyRsaWithRoot (some c) root).1 = some c' ∧ c'.raw = c.raw := by
  cases root with
  | none => exact ⟨c, rfl, rfl⟩
  | some ca => exact ⟨_, rfl, sharedCore_raw _ _ _ _⟩

theorem verifyEcc_mark (c : EccCert) (ca : Option EccCert) : ∃ c', (verifyEcc (some c) ca).1 = some c' ∧ SameButMark c c' := by
  unfold verifyEcc
  cases ca with
  | none => exact ⟨c, rfl, rfl⟩
  | some ca =>
    dsimp only
    repeat' split
    all_goals exact ⟨_, rfl, rfl⟩

/-! ## The authority -/

/-- The authority of a Gen1 card as pointer and as copy. -/
theorem authority_copies {σ : Type} (r : SharedResolver σ) (car : Bytes) (h : CertHeap) (s : σ) :
    (match (sharedAuthority r car h s).1 with
      | .ok a => .ok (a.map (sharedAuthority r car h s).2.1.rsa)
      | .err m => .err m
      | .panic => .panic, (sharedAuthority r car h s).2.2) = gen1Authority (copiesOf h r) car s := by
  unfold sharedAuthority gen1Authority
  dsimp only [copiesOf]
  rcases r.rsa car s with ⟨x, s1⟩
  cases x with
  | err m => rfl
  | panic => rfl
  | ok a =>
    cases a with
    | none =>
      dsimp only [Option.map_none, Option.getD_none]
      rw [if_pos (.inl rfl)]
      rcases r.root s1 with ⟨y, s2⟩
      cases y with
      | err m => rfl
      | panic => rfl
      | ok root =>
        dsimp only
        cases root <;> rfl
    | some a =>
      dsimp only [Option.map_some, Option.getD_some]
      by_cases hk : (h.rsa a).modulus.length = 0 ∨ (h.rsa a).exponent.length = 0
      · rw [if_pos hk, if_pos hk]
        rcases r.root s1 with ⟨y, s2⟩
        cases y with
        | err m => rfl
        | panic => rfl
        | ok root =>
          dsimp only
          obtain ⟨c', h1, _⟩ := rsaWithRoot_raw (h.rsa a) root
          rcases hv : verifyRsaWithRoot (some (h.rsa a)) root with ⟨v1, v2⟩
          rw [hv] at h1
          dsimp only at h1
          subst h1
          cases v2 with
          | ok u => simp [CertHeap.setRsa]
          | err m => rfl
          | panic => rfl
      · rw [if_neg hk, if_neg hk]
        rfl

omit [Crypto] in
theorem setRsa_raw {h : CertHeap} {a : Nat} {c : RsaCert} (hc : c.raw = (h.rsa a).raw) (b : Nat) : ((h.setRsa a c).rsa b).raw = (h.rsa b).raw := by
  unfold CertHeap.setRsa
  dsimp only
  split
  · next e => rw [hc, e]
  · rfl

/-- Finding the authority changes no certificate's bytes, no ECC certificate, and no RSA certificate but the one found. -/
theorem authority_frame {σ : Type} (r : SharedResolver σ) (car : Bytes) (h : CertHeap) (s : σ) :
    (∀ b, ((sharedAuthority r car h s).2.1.rsa b).raw = (h.rsa b).raw) ∧ (sharedAuthority r car h s).2.1.ecc = h.ecc ∧
    ∀ b, (r.rsa car s).1 ≠ .ok (some b) → (sharedAuthority r car h s).2.1.rsa b = h.rsa b := by
  unfold sharedAuthority
  rcases r.rsa car s with ⟨x, s1⟩
  cases x with
  | err m => exact ⟨fun _ => rfl, rfl, fun _ _ => rfl⟩
  | panic => exact ⟨fun _ => rfl, rfl, fun _ _ => rfl⟩
  | ok a =>
    cases a with
    | none =>
      dsimp only
      rcases r.root s1 with ⟨y, s2⟩
      cases y with
      | err m => exact ⟨fun _ => rfl, rfl, fun _ _ => rfl⟩
      | panic => exact ⟨fun _ => rfl, rfl, fun _ _ => rfl⟩
      | ok root => cases root <;> exact ⟨fun _ => rfl, rfl, fun _ _ => rfl⟩
    | some a =>
      dsimp only
      split
      · rcases r.root s1 with ⟨y, s2⟩
        cases y with
        | err m => exact ⟨fun _ => rfl, rfl, fun _ _ => rfl⟩
        | panic => exact ⟨fun _ => rfl, rfl, fun _ _ => rfl⟩
        | ok root =>
          dsimp only
          obtain ⟨c', h1, h2⟩ := rsaWithRoot_raw (h.rsa a) root
          rcases hv : verifyRsaWithRoot (some (h.rsa a)) root with ⟨v1, v2⟩
          rw [hv] at h1
          dsimp only at h1
          subst h1
          have key : (∀ b, ((h.setRsa a c').rsa b).raw = (h.rsa b).raw) ∧ (h.setRsa a c').ecc = h.ecc ∧
              ∀ b, (Res.ok (some a) : Res (Option Nat)) ≠ .ok (some b) → (h.setRsa a c').rsa b = h.rsa b := by
            refine ⟨setRsa_raw h2, rfl, fun b hb => ?_⟩
            unfold CertHeap.setRsa
            dsimp only
            rw [if_neg]
            rintro rfl
            exact hb rfl
          cases v2 <;> exact key
      · exact ⟨fun _ => rfl, rfl, fun _ _ => rfl⟩

/-! ## One generation -/

theorem gen1_copies {σ : Type} (res : Option (SharedResolver σ)) (g : GenRefs) (t : Tachograph) (h : CertHeap) (s : σ)
    (h1 : t.cardCertificate = g.cert.map h.rsa) (h2 : t.caCertificate = g.ca.map h.rsa) :
    (sharedGen1 res g h s).result = (verifyGen1 (res.map (copiesOf h)) t s).result ∧
    (sharedGen1 res g h s).world = (verifyGen1 (res.map (copiesOf h)) t s).world := by
  unfold sharedGen1 verifyGen1
  rw [h1, h2]
  cases hc : g.cert with
  | none => exact ⟨rfl, rfl⟩
  | some c =>
    dsimp only [Option.map_some]
    cases res with
    | none =>
      dsimp only [Option.map_none]
      cases g.ca with
      | none => exact ⟨rfl, rfl⟩
      | some a => exact ⟨rfl, rfl⟩
    | some r =>
      dsimp only [Option.map_some]
      have hf := (authority_frame r (h.rsa c).car h s).1 c
      rw [← authority_copies r (h.rsa c).car h s]
      rcases hx : sharedAuthority r (h.rsa c).car h s with ⟨x, h', s'⟩
      rw [hx] at hf
      dsimp only at hf
      cases x with
      | err m => exact ⟨rfl, rfl⟩
      | panic => exact ⟨rfl, rfl⟩
      | ok a => exact ⟨rsaWithCA_result hf _, rfl⟩

theorem gen2_copies {σ : Type} (res : Option (SharedResolver σ)) (g : GenRefs) (t : TachographG2) (h h0 : CertHeap) (s : σ) (he : h.ecc = h0.ecc)
    (h1 : t.cardSignCertificate = g.cert.map h.ecc) (h2 : t.caCertificate = g.ca.map h.ecc) :
    (sharedGen2 res g h s).result = (verifyGen2 (res.map (copiesOf h0)) t s).result ∧
    (sharedGen2 res g h s).world = (verifyGen2 (res.map (copiesOf h0)) t s).world ∧
    g.cert.map (sharedGen2 res g h s).heap.ecc = (verifyGen2 (res.map (copiesOf h0)) t s).msg.cardSignCertificate := by
  unfold sharedGen2 verifyGen2
  rw [h1, h2]
  cases hc : g.cert with
  | none =>
    have hn : t.cardSignCertificate = none := by rw [h1, hc]; rfl
    exact ⟨rfl, rfl, hn.symm⟩
  | some c =>
    have hset : ∀ v : Option EccCert, (∃ c', v = some c') → some ((h.setEcc c (v.getD (h.ecc c))).ecc c) = v := by
      rintro _ ⟨c', rfl⟩
      simp [CertHeap.setEcc]
    have hsome : ∀ ca, ∃ c', (verifyEcc (some (h.ecc c)) ca).1 = some c' := fun ca => by
      obtain ⟨c', e, _⟩ := verifyEcc_mark (h.ecc c) ca
      exact ⟨c', e⟩
    have hkeep : t.cardSignCertificate = some (h.ecc c) := by rw [h1, hc]; rfl
    dsimp only [Option.map_some]
    cases res with
    | none =>
      dsimp only [Option.map_none]
      cases g.ca with
      | none => exact ⟨rfl, rfl, hkeep.symm⟩
      | some a => exact ⟨rfl, rfl, hset _ (hsome _)⟩
    | some r =>
      dsimp only [Option.map_some, copiesOf]
      rcases r.ecc (h.ecc c).car s with ⟨x, s'⟩
      cases x with
      | err m => exact ⟨rfl, rfl, hkeep.symm⟩
      | panic => exact ⟨rfl, rfl, hkeep.symm⟩
      | ok a =>
        dsimp only
        rw [← he]
        exact ⟨rfl, rfl, hset _ (hsome _)⟩

theorem gen1_frame {σ : Type} (res : Option (SharedResolver σ)) (g : GenRefs) (h : CertHeap) (s : σ) :
    (∀ b, ((sharedGen1 res g h s).heap.rsa b).raw = (h.rsa b).raw) ∧ (sharedGen1 res g h s).heap.ecc = h.ecc := by
  unfold sharedGen1
  cases hc : g.cert with
  | none => exact ⟨fun _ => rfl, rfl⟩
  | some c =>
    dsimp only
    have hlast : ∀ (h' : CertHeap) (ca : Option RsaCert), (∀ b, (h'.rsa b).raw = (h.rsa b).raw) → h'.ecc = h.ecc →
        (∀ b, ((h'.setRsa c ((verifyRsaWithCA (some (h'.rsa c)) ca).1.getD (h'.rsa c))).rsa b).raw = (h.rsa b).raw) ∧
        (h'.setRsa c ((verifyRsaWithCA (some (h'.rsa c)) ca).1.getD (h'.rsa c))).ecc = h.ecc := by
      intro h' ca hr he
      obtain ⟨c', e1, e2⟩ := rsaWithCA_raw (h'.rsa c) ca
      refine ⟨fun b => ?_, he⟩
      rw [setRsa_raw (by rw [e1]; exact e2), hr]
    cases res with
    | none =>
      dsimp only
      cases g.ca with
      | none => exact ⟨fun _ => rfl, rfl⟩
      | some a => exact hlast h _ (fun _ => rfl) rfl
    | some r =>
      dsimp only
      obtain ⟨f1, f2, _⟩ := authority_frame r (h.rsa c).car h s
      rcases hx : sharedAuthority r (h.rsa c).car h s with ⟨x, h', s'⟩
      rw [hx] at f1 f2
      cases x with
      | err m => exact ⟨f1, f2⟩
      | panic => exact ⟨f1, f2⟩
      | ok a => exact hlast h' _ f1 f2

theorem gen2_frame {σ : Type} (res : Option (SharedResolver σ)) (g : GenRefs) (h : CertHeap) (s : σ) :
    (sharedGen2 res g h s).heap.rsa = h.rsa ∧ (∀ b, SameButMark (h.ecc b) ((sharedGen2 res g h s).heap.ecc b)) ∧
    ∀ b, g.cert ≠ some b → (sharedGen2 res g h s).heap.ecc b = h.ecc b := by
  unfold sharedGen2
  cases hc : g.cert with
  | none => exact ⟨rfl, fun _ => rfl, fun _ _ => rfl⟩
  | some c =>
    have hlast : ∀ ca : Option EccCert, (h.setEcc c ((verifyEcc (some (h.ecc c)) ca).1.getD (h.ecc c))).rsa = h.rsa ∧
        (∀ b, SameButMark (h.ecc b) ((h.setEcc c ((verifyEcc (some (h.ecc c)) ca).1.getD (h.ecc c))).ecc b)) ∧
        ∀ b, (some c : Option Nat) ≠ some b → (h.setEcc c ((verifyEcc (some (h.ecc c)) ca).1.getD (h.ecc c))).ecc b = h.ecc b := by
      intro ca
      obtain ⟨c', e1, e2⟩ := verifyEcc_mark (h.ecc c) ca
      rw [e1]
      refine ⟨rfl, fun b => ?_, fun b hb => ?_⟩
      · unfold CertHeap.setEcc
        dsimp only
        split
        · next e => rw [e]; exact e2
        · rfl
      · unfold CertHeap.setEcc
        dsimp only
        rw [if_neg]
        rintro rfl
        exact hb rfl
    dsimp only
    cases res with
    | none =>
      dsimp only
      cases g.ca with
      | none => exact ⟨rfl, fun _ => rfl, fun _ _ => rfl⟩
      | some a => exact hlast _
    | some r =>
      dsimp only
      rcases r.ecc (h.ecc c).car s with ⟨x, s'⟩
      cases x with
      | err m => exact ⟨rfl, fun _ => rfl, fun _ _ => rfl⟩
      | panic => exact ⟨rfl, fun _ => rfl, fun _ _ => rfl⟩
      | ok a => exact hlast _

/-- The card certificate after the Gen1 step, if the resolver did not answer with that very certificate. -/
theorem gen1_cert {σ : Type} (res : Option (SharedResolver σ)) (g : GenRefs) (t : Tachograph) (h : CertHeap) (s : σ)
    (h1 : t.cardCertificate = g.cert.map h.rsa) (h2 : t.caCertificate = g.ca.map h.rsa)
    (hn : ∀ r c, res = some r → g.cert = some c → (r.rsa (h.rsa c).car s).1 ≠ .ok (some c)) :
    g.cert.map (sharedGen1 res g h s).heap.rsa = (verifyGen1 (res.map (copiesOf h)) t s).msg.cardCertificate := by
  unfold sharedGen1 verifyGen1
  rw [h1, h2]
  cases hc : g.cert with
  | none =>
    have hn : t.cardCertificate = none := by rw [h1, hc]; rfl
    exact hn.symm
  | some c =>
    have hset : ∀ (h' : CertHeap) (v : Option RsaCert), (∃ c', v = some c') → some ((h'.setRsa c (v.getD (h'.rsa c))).rsa c) = v := by
      rintro h' _ ⟨c', rfl⟩
      simp [CertHeap.setRsa]
    have hsome : ∀ c0 ca, ∃ c', (verifyRsaWithCA (some c0) ca).1 = some c' := fun c0 ca => by
      obtain ⟨c', e, _⟩ := rsaWithCA_raw c0 ca
      exact ⟨c', e⟩
    have hkeep : t.cardCertificate = some (h.rsa c) := by rw [h1, hc]; rfl
    dsimp only [Option.map_some]
    cases res with
    | none =>
      dsimp only [Option.map_none]
      cases g.ca with
      | none => exact hkeep.symm
      | some a => exact hset h _ (hsome _ _)
    | some r =>
      dsimp only [Option.map_some]
      have hf := (authority_frame r (h.rsa c).car h s).2.2 c (hn r c rfl hc)
      rw [← authority_copies r (h.rsa c).car h s]
      rcases hx : sharedAuthority r (h.rsa c).car h s with ⟨x, h', s'⟩
      rw [hx] at hf
      dsimp only at hf
      cases x with
      | err m =>
        dsimp only
        rw [hf]
        exact hkeep.symm
      | panic =>
        dsimp only
        rw [hf]
        exact hkeep.symm
      | ok a =>
        dsimp only
        rw [← hf]
        exact hset h' _ (hsome _ _)

/-! ## The theorems -/

omit [Crypto] in
theorem shows_gen1 {h : CertHeap} {refs : CardRefs} {card : DriverCard} (hs : ShowsCopies h refs card) :
    (refs.gen1 = none ∧ card.tachograph = none) ∨ ∃ g t, refs.gen1 = some g ∧ card.tachograph = some t ∧
      t.cardCertificate = g.cert.map h.rsa ∧ t.caCertificate = g.ca.map h.rsa := by
  obtain ⟨h1, _⟩ := hs
  cases hg : refs.gen1 with
  | none =>
    rw [hg, Option.map_none, Option.map_eq_none_iff] at h1
    exact .inl ⟨rfl, h1⟩
  | some g =>
    rw [hg, Option.map_some, Option.map_eq_some_iff] at h1
    obtain ⟨t, ht, e⟩ := h1
    simp only [Prod.mk.injEq] at e
    exact .inr ⟨g, t, rfl, ht, e.1, e.2⟩

omit [Crypto] in
theorem shows_gen2 {h : CertHeap} {refs : CardRefs} {card : DriverCard} (hs : ShowsCopies h refs card) :
    (refs.gen2 = none ∧ card.tachographG2 = none) ∨ ∃ g t, refs.gen2 = some g ∧ card.tachographG2 = some t ∧
      t.cardSignCertificate = g.cert.map h.ecc ∧ t.caCertificate = g.ca.map h.ecc := by
  obtain ⟨_, h1⟩ := hs
  cases hg : refs.gen2 with
  | none =>
    rw [hg, Option.map_none, Option.map_eq_none_iff] at h1
    exact .inl ⟨rfl, h1⟩
  | some g =>
    rw [hg, Option.map_some, Option.map_eq_some_iff] at h1
    obtain ⟨t, ht, e⟩ := h1
    simp only [Prod.mk.injEq] at e
    exact .inr ⟨g, t, rfl, ht, e.1, e.2⟩

theorem cardGen2_copies {σ : Type} (res : Option (SharedResolver σ)) (refs : CardRefs) (card : DriverCard) (h h0 : CertHeap) (s : σ) (he : h.ecc = h0.ecc)
    (hs : (refs.gen2 = none ∧ card.tachographG2 = none) ∨ ∃ g t, refs.gen2 = some g ∧ card.tachographG2 = some t ∧
      t.cardSignCertificate = g.cert.map h0.ecc ∧ t.caCertificate = g.ca.map h0.ecc) :
    (sharedCardGen2 res refs h s).result = (verifyCardGen2 (res.map (copiesOf h0)) card s).result ∧
    (sharedCardGen2 res refs h s).world = (verifyCardGen2 (res.map (copiesOf h0)) card s).world ∧
    (refs.gen2.bind GenRefs.cert).map (sharedCardGen2 res refs h s).heap.ecc =
      (verifyCardGen2 (res.map (copiesOf h0)) card s).msg.tachographG2.bind TachographG2.cardSignCertificate ∧
    (sharedCardGen2 res refs h s).heap.rsa = h.rsa ∧
    (verifyCardGen2 (res.map (copiesOf h0)) card s).msg.tachograph = card.tachograph := by
  unfold sharedCardGen2 verifyCardGen2
  rcases hs with ⟨hg, ht⟩ | ⟨g, t, hg, ht, e1, e2⟩
  · rw [hg, ht]
    exact ⟨rfl, rfl, by rw [ht]; rfl, rfl, rfl⟩
  · rw [hg, ht]
    obtain ⟨a, b, c⟩ := gen2_copies res g t h h0 s he (by rw [he]; exact e1) (by rw [he]; exact e2)
    exact ⟨a, b, c, (gen2_frame res g h s).1, rfl⟩

/-- C92. Which pointers lead to the same certificate makes no difference to the answer: verification returns what it
returns for a message with copies of its own and a resolver that gives out copies. -/
theorem shared_answer {σ : Type} (res : Option (SharedResolver σ)) (refs : CardRefs) (card : DriverCard) (h : CertHeap) (s : σ)
    (hs : ShowsCopies h refs card) :
    (sharedCard res refs h s).result = (verifyCard (res.map (copiesOf h)) card s).result ∧
    (sharedCard res refs h s).world = (verifyCard (res.map (copiesOf h)) card s).world := by
  have hg2 := shows_gen2 hs
  unfold sharedCard verifyCard
  rcases shows_gen1 hs with ⟨hg, ht⟩ | ⟨g, t, hg, ht, e1, e2⟩
  · rw [hg, ht]
    obtain ⟨a, b, _⟩ := cardGen2_copies res refs card h h s rfl hg2
    exact ⟨a, b⟩
  · rw [hg, ht]
    dsimp only
    obtain ⟨a, b⟩ := gen1_copies res g t h s e1 e2
    rw [← a, ← b]
    cases (sharedGen1 res g h s).result with
    | err m => exact ⟨rfl, rfl⟩
    | panic => exact ⟨rfl, rfl⟩
    | ok u =>
      dsimp only
      obtain ⟨a, b, _⟩ := cardGen2_copies res refs { card with tachograph := some (verifyGen1 (res.map (copiesOf h)) t s).msg }
        (sharedGen1 res g h s).heap h (sharedGen1 res g h s).world (gen1_frame res g h s).2 hg2
      exact ⟨a, b⟩

/-- C92. The certificates are left as in a message with copies of its own: the card sign certificate always, the card
certificate unless the resolver answered with that very certificate. -/
theorem shared_certificates {σ : Type} (res : Option (SharedResolver σ)) (refs : CardRefs) (card : DriverCard) (h : CertHeap) (s : σ)
    (hs : ShowsCopies h refs card) :
    (refs.gen2.bind GenRefs.cert).map (sharedCard res refs h s).heap.ecc =
      (verifyCard (res.map (copiesOf h)) card s).msg.tachographG2.bind TachographG2.cardSignCertificate ∧
    ((∀ r c, res = some r → refs.gen1.bind GenRefs.cert = some c → (r.rsa (h.rsa c).car s).1 ≠ .ok (some c)) →
      (refs.gen1.bind GenRefs.cert).map (sharedCard res refs h s).heap.rsa =
        (verifyCard (res.map (copiesOf h)) card s).msg.tachograph.bind Tachograph.cardCertificate) := by
  have hg2 := shows_gen2 hs
  have hkeep : ∀ h' : CertHeap, h'.ecc = h.ecc → (refs.gen2.bind GenRefs.cert).map h'.ecc = card.tachographG2.bind TachographG2.cardSignCertificate := by
    intro h' he
    rcases hg2 with ⟨a, b⟩ | ⟨g, t, a, b, c, _⟩
    · rw [a, b]; rfl
    · rw [a, b, he, Option.bind_some, Option.bind_some, c]
  unfold sharedCard verifyCard
  rcases shows_gen1 hs with ⟨hg, ht⟩ | ⟨g, t, hg, ht, e1, e2⟩
  · rw [hg, ht]
    obtain ⟨_, _, c, _, e⟩ := cardGen2_copies res refs card h h s rfl hg2
    refine ⟨c, fun _ => ?_⟩
    dsimp only
    rw [e, ht]
    rfl
  · rw [hg, ht]
    dsimp only [Option.bind_some]
    obtain ⟨a, b⟩ := gen1_copies res g t h s e1 e2
    have hc := gen1_cert res g t h s e1 e2
    rw [← a, ← b]
    cases (sharedGen1 res g h s).result with
    | err m => exact ⟨hkeep _ (gen1_frame res g h s).2, hc⟩
    | panic => exact ⟨hkeep _ (gen1_frame res g h s).2, hc⟩
    | ok u =>
      dsimp only
      obtain ⟨_, _, c, d, e⟩ := cardGen2_copies res refs { card with tachograph := some (verifyGen1 (res.map (copiesOf h)) t s).msg }
        (sharedGen1 res g h s).heap h (sharedGen1 res g h s).world (gen1_frame res g h s).2 hg2
      refine ⟨c, fun hn => ?_⟩
      rw [d, e]
      exact hc hn

/-- C92. A verification changes the bytes of no certificate, and nothing of an ECC certificate but the mark of the
card's. -/
theorem shared_frame {σ : Type} (res : Option (SharedResolver σ)) (refs : CardRefs) (h : CertHeap) (s : σ) (b : Nat) :
    ((sharedCard res refs h s).heap.rsa b).raw = (h.rsa b).raw ∧
    SameButMark (h.ecc b) ((sharedCard res refs h s).heap.ecc b) ∧
    (refs.gen2.bind GenRefs.cert ≠ some b → (sharedCard res refs h s).heap.ecc b = h.ecc b) := by
  have h2 : ∀ (h' : CertHeap) (s' : σ), (sharedCardGen2 res refs h' s').heap.rsa = h'.rsa ∧
      SameButMark (h'.ecc b) ((sharedCardGen2 res refs h' s').heap.ecc b) ∧
      (refs.gen2.bind GenRefs.cert ≠ some b → (sharedCardGen2 res refs h' s').heap.ecc b = h'.ecc b) := by
    intro h' s'
    unfold sharedCardGen2
    cases refs.gen2 with
    | none => exact ⟨rfl, rfl, fun _ => rfl⟩
    | some g =>
      obtain ⟨a, b', c⟩ := gen2_frame res g h' s'
      exact ⟨a, b' b, c b⟩
  unfold sharedCard
  cases hg : refs.gen1 with
  | none =>
    obtain ⟨a, b', c⟩ := h2 h s
    exact ⟨by dsimp only; rw [a], b', c⟩
  | some g =>
    obtain ⟨f1, f2⟩ := gen1_frame res g h s
    dsimp only
    cases (sharedGen1 res g h s).result with
    | err m => exact ⟨f1 b, by dsimp only; rw [f2]; rfl, fun _ => by dsimp only; rw [f2]⟩
    | panic => exact ⟨f1 b, by dsimp only; rw [f2]; rfl, fun _ => by dsimp only; rw [f2]⟩
    | ok u =>
      obtain ⟨a, b', c⟩ := h2 (sharedGen1 res g h s).heap (sharedGen1 res g h s).world
      dsimp only
      rw [a]
      rw [f2] at b' c
      exact ⟨f1 b, b', c⟩

/-- C92. Without a resolver, only the card's own two certificates are written to. -/
theorem shared_untouched {σ : Type} (refs : CardRefs) (h : CertHeap) (s : σ) (b : Nat) (hb : refs.gen1.bind GenRefs.cert ≠ some b) :
    (sharedCard none refs h s).heap.rsa b = h.rsa b := by
  have h2 : ∀ (h' : CertHeap) (s' : σ), (sharedCardGen2 none refs h' s').heap.rsa = h'.rsa := by
    intro h' s'
    unfold sharedCardGen2
    cases refs.gen2 with
    | none => rfl
    | some g => exact (gen2_frame none g h' s').1
  unfold sharedCard
  cases hg : refs.gen1 with
  | none =>
    dsimp only
    rw [h2]
  | some g =>
    have h1 : (sharedGen1 none g h s).heap.rsa b = h.rsa b := by
      rw [hg, Option.bind_some] at hb
      unfold sharedGen1
      cases hc : g.cert with
      | none => rfl
      | some c =>
        cases g.ca with
        | none => rfl
        | some a =>
          dsimp only [CertHeap.setRsa]
          rw [if_neg]
          rintro rfl
          exact hb hc
    dsimp only
    cases (sharedGen1 none g h s).result with
    | err m => exact h1
    | panic => exact h1
    | ok u => dsimp only; rw [h2]; exact h1

/-- C92. A card certificate that was verified has a key afterwards, so every message that points to it sees the key. -/
theorem shared_key_filled {σ : Type} (res : Option (SharedResolver σ)) (refs : CardRefs) (h : CertHeap) (s : σ) (c : Nat)
    (hc : refs.gen1.bind GenRefs.cert = some c) (hok : (sharedCard res refs h s).result = .ok ()) :
    HasKey ((sharedCard res refs h s).heap.rsa c) := by
  have h2 : ∀ (h' : CertHeap) (s' : σ), (sharedCardGen2 res refs h' s').heap.rsa = h'.rsa := by
    intro h' s'
    unfold sharedCardGen2
    cases refs.gen2 with
    | none => rfl
    | some g => exact (gen2_frame res g h' s').1
  cases hg : refs.gen1 with
  | none => rw [hg] at hc; cases hc
  | some g =>
    rw [hg, Option.bind_some] at hc
    have hset : ∀ (h' : CertHeap) (ca : Option RsaCert), (verifyRsaWithCA (some (h'.rsa c)) ca).2 = .ok () →
        HasKey ((h'.setRsa c ((verifyRsaWithCA (some (h'.rsa c)) ca).1.getD (h'.rsa c))).rsa c) := by
      intro h' ca e
      obtain ⟨a, c', _, e2, hs⟩ := (rsaCA_ok_iff (h'.rsa c) ca (verifyRsaWithCA (some (h'.rsa c)) ca).1).mp (Prod.ext rfl e)
      rw [e2]
      simp only [CertHeap.setRsa, if_pos, Option.getD_some]
      exact signed_hasKey hs
    have h1 : (sharedGen1 res g h s).result = .ok () → HasKey ((sharedGen1 res g h s).heap.rsa c) := by
      unfold sharedGen1
      rw [hc]
      dsimp only
      have hfin : ∀ x : Res (Option Nat) × CertHeap × σ,
          (match x with
            | (.err m, h', s') => (⟨.err m, h', s'⟩ : SharedOutcome σ)
            | (.panic, h', s') => ⟨.panic, h', s'⟩
            | (.ok a, h', s') =>
              ⟨(verifyRsaWithCA (some (h'.rsa c)) (a.map h'.rsa)).2,
                h'.setRsa c ((verifyRsaWithCA (some (h'.rsa c)) (a.map h'.rsa)).1.getD (h'.rsa c)), s'⟩).result = .ok () →
          HasKey ((match x with
            | (.err m, h', s') => (⟨.err m, h', s'⟩ : SharedOutcome σ)
            | (.panic, h', s') => ⟨.panic, h', s'⟩
            | (.ok a, h', s') =>
              ⟨(verifyRsaWithCA (some (h'.rsa c)) (a.map h'.rsa)).2,
                h'.setRsa c ((verifyRsaWithCA (some (h'.rsa c)) (a.map h'.rsa)).1.getD (h'.rsa c)), s'⟩).heap.rsa c) := by
        rintro ⟨x, h', s'⟩
        cases x with
        | err m => intro e; cases e
        | panic => intro e; cases e
        | ok a => exact hset h' _
      exact hfin _
    revert hok
    unfold sharedCard
    rw [hg]
    dsimp only
    cases hr : (sharedGen1 res g h s).result with
    | err m => intro e; cases e
    | panic => intro e; cases e
    | ok u =>
      intro _
      dsimp only
      rw [h2]
      exact h1 hr

/-! ## One verification after the other -/

/-- C92. Over any number of verifications no byte of a certificate changes, and of the ECC certificates nothing but marks. -/
theorem shared_run_frame {σ : Type} (res : Option (SharedResolver σ)) (cs : List CardRefs) (h : CertHeap) (s : σ) (b : Nat) :
    ((sharedRun res cs h s).2.1.rsa b).raw = (h.rsa b).raw ∧ SameButMark (h.ecc b) ((sharedRun res cs h s).2.1.ecc b) := by
  induction cs generalizing h s with
  | nil => exact ⟨rfl, rfl⟩
  | cons c cs ih =>
    obtain ⟨a, b', _⟩ := shared_frame res c h s b
    obtain ⟨a2, b2⟩ := ih (sharedCard res c h s).heap (sharedCard res c h s).world
    exact ⟨a2.trans a, b'.trans b2⟩

omit [Crypto] in
theorem mark_fields {c c' : EccCert} (h : SameButMark c c') :
    c.raw = c'.raw ∧ c.car = c'.car ∧ c.signature = c'.signature ∧ c.publicKey = c'.publicKey := by
  unfold SameButMark at h
  rw [EccCert.mk.injEq] at h
  simp only [] at h
  exact ⟨by tauto, by tauto, by tauto, by tauto⟩

theorem ecc_result_mark {c c' : EccCert} {ca ca' : Option EccCert} (h1 : SameButMark c c') (h2 : ca.map EccCert.publicKey = ca'.map EccCert.publicKey) :
    (verifyEcc (some c) ca).2 = (verifyEcc (some c') ca').2 := by
  obtain ⟨e1, _, e2, _⟩ := mark_fields h1
  cases ca with
  | none =>
    cases ca' with
    | none => rfl
    | some _ => cases h2
  | some a =>
    cases ca' with
    | none => cases h2
    | some a' =>
      rw [Option.map_some, Option.map_some, Option.some.injEq] at h2
      unfold verifyEcc
      dsimp only
      rw [e1, e2, h2]
      repeat' split
      all_goals rfl

/-- C92. A verification of a card of the second generation answers the same whatever marks the certificates carry. -/
theorem shared_marks {σ : Type} (res : Option (SharedResolver σ)) (refs : CardRefs) (h h' : CertHeap) (s : σ)
    (hg : refs.gen1 = none) (hm : ∀ b, SameButMark (h.ecc b) (h'.ecc b)) :
    (sharedCard res refs h s).result = (sharedCard res refs h' s).result ∧ (sharedCard res refs h s).world = (sharedCard res refs h' s).world := by
  unfold sharedCard
  rw [hg]
  dsimp only
  unfold sharedCardGen2
  cases refs.gen2 with
  | none => exact ⟨rfl, rfl⟩
  | some g =>
    dsimp only
    unfold sharedGen2
    cases g.cert with
    | none => exact ⟨rfl, rfl⟩
    | some c =>
      dsimp only
      rw [show (h.ecc c).car = (h'.ecc c).car from (mark_fields (hm c)).2.1]
      have hok : ∀ a : Option Nat, (verifyEcc (some (h.ecc c)) (a.map h.ecc)).2 = (verifyEcc (some (h'.ecc c)) (a.map h'.ecc)).2 := by
        intro a
        refine ecc_result_mark (hm c) ?_
        cases a with
        | none => rfl
        | some a => exact congrArg some (mark_fields (hm a)).2.2.2
      cases res with
      | none =>
        cases g.ca with
        | none => exact ⟨rfl, rfl⟩
        | some a => exact ⟨hok (some a), rfl⟩
      | some r =>
        dsimp only
        rcases r.ecc (h'.ecc c).car s with ⟨x, s'⟩
        cases x with
        | err m => exact ⟨rfl, rfl⟩
        | panic => exact ⟨rfl, rfl⟩
        | ok a => exact ⟨hok a, rfl⟩

/-- C92. Without a resolver, cards of the second generation only may share certificates in any way and be verified in
any order and any number of times: each answer is the one the card gets alone. -/
theorem shared_gen2_run (cs : List CardRefs) (h : CertHeap) (hg : ∀ c ∈ cs, c.gen1 = none) :
    (sharedRun (none : Option (SharedResolver Unit)) cs h ()).1 = cs.map fun c => (sharedCard none c h ()).result := by
  suffices H : ∀ h' : CertHeap, (∀ b, SameButMark (h.ecc b) (h'.ecc b)) →
      (sharedRun (none : Option (SharedResolver Unit)) cs h' ()).1 = cs.map fun c => (sharedCard none c h ()).result from H h fun _ => rfl
  induction cs with
  | nil => intro _ _; rfl
  | cons c cs ih =>
    intro h' hm
    rw [List.map_cons, (shared_marks none c h h' () (hg c (.head _)) hm).1]
    refine congrArg (List.cons _) (ih (fun c hc => hg c (.tail _ hc)) _ fun b => ?_)
    exact (hm b).trans (shared_frame none c h' () b).2.1

/-- C92. With the first generation the order matters: a card that is refused, because the certificate of its authority
has no key, is accepted after that certificate was verified as the card certificate of another message. -/
theorem shared_order_matters : ∃ (a b : CardRefs) (h : CertHeap),
    (sharedRun (none : Option (SharedResolver Unit)) [b, a] h ()).1 = [.err "CA public key missing", .ok ()] ∧
    (sharedRun (none : Option (SharedResolver Unit)) [a, b] h ()).1 = [.ok (), .ok ()] := by
  let h : CertHeap :=
    ⟨fun n => if n = 0 then { raw := authorityCert } else if n = 1 then { modulus := plainRoot.modulus, exponent := plainRoot.exponent, chr := plainRoot.keyId }
      else { raw := plainCert (zeros 106) (zeros 58) (zeros 8) }, fun _ => {}⟩
  refine ⟨⟨some ⟨some 0, some 1⟩, none⟩, ⟨some ⟨some 2, some 0⟩, none⟩, h, ?_⟩
  have hw := authority_writes
  have hcore : ∀ c : RsaCert, c.raw = authorityCert → verifyRsaCore c plainRoot.modulus plainRoot.exponent plainRoot.keyId =
      ({ c with valid := true, chr := decimal (beNat (zeros 8)), car := decimal (beNat (zeros 8)), endOfValidity := some ⟨0, 0⟩,
                modulus := List.replicate 128 0xFF, exponent := zeros 7 ++ [1] }, .ok ()) := by
    intro c hc
    obtain ⟨a, b⟩ := rsaWrites_core c plainRoot.modulus plainRoot.exponent plainRoot.keyId
    rw [hc, show rsaWrites authorityCert plainRoot.modulus plainRoot.exponent plainRoot.keyId = _ from hw] at a b
    exact Prod.ext a.symm b.symm
  have hbad : (verifyRsaCore { raw := plainCert (zeros 106) (zeros 58) (zeros 8) } [] [] []) =
      ({ raw := plainCert (zeros 106) (zeros 58) (zeros 8) }, .err "CA public key missing") := by
    unfold verifyRsaCore
    have e1 : (plainCert (zeros 106) (zeros 58) (zeros 8)).length = 194 := by simp [plainCert, Crypto.sha1_length, zeros_length]
    rw [if_neg (by simp [e1]), if_pos (.inl rfl)]
  have hA : ∀ h' : CertHeap, h'.rsa 0 = { raw := authorityCert } →
      h'.rsa 1 = { modulus := plainRoot.modulus, exponent := plainRoot.exponent, chr := plainRoot.keyId } →
      sharedCard (none : Option (SharedResolver Unit)) ⟨some ⟨some 0, some 1⟩, none⟩ h' () = ⟨.ok (), h'.setRsa 0
        { raw := authorityCert, valid := true, chr := decimal (beNat (zeros 8)), car := decimal (beNat (zeros 8)), endOfValidity := some ⟨0, 0⟩,
          modulus := List.replicate 128 0xFF, exponent := zeros 7 ++ [1] }, ()⟩ := by
    intro h' e0 e1
    unfold sharedCard sharedGen1 verifyRsaWithCA
    dsimp only [Option.map_some]
    rw [e0, e1]
    dsimp only
    rw [hcore _ rfl]
    rfl
  have hB : ∀ h' : CertHeap, sharedCard (none : Option (SharedResolver Unit)) ⟨some ⟨some 2, some 0⟩, none⟩ h' () =
      ⟨(verifyRsaCore (h'.rsa 2) (h'.rsa 0).modulus (h'.rsa 0).exponent (h'.rsa 0).chr).2,
        h'.setRsa 2 (verifyRsaCore (h'.rsa 2) (h'.rsa 0).modulus (h'.rsa 0).exponent (h'.rsa 0).chr).1, ()⟩ := by
    intro h'
    unfold sharedCard sharedGen1 verifyRsaWithCA
    dsimp only [Option.map_some]
    rcases verifyRsaCore (h'.rsa 2) (h'.rsa 0).modulus (h'.rsa 0).exponent (h'.rsa 0).chr with ⟨x, y⟩
    cases y <;> rfl
  constructor
  · unfold sharedRun
    rw [hB, show verifyRsaCore (h.rsa 2) (h.rsa 0).modulus (h.rsa 0).exponent (h.rsa 0).chr = _ from hbad]
    dsimp only
    unfold sharedRun
    rw [hA _ rfl rfl]
    rfl
  · unfold sharedRun
    rw [hA _ rfl rfl]
    dsimp only
    unfold sharedRun
    rw [hB]
    dsimp only
    have hv : (verifyRsaCore ({ raw := plainCert (zeros 106) (zeros 58) (zeros 8) } : RsaCert) (List.replicate 128 0xFF) (zeros 7 ++ [1])
        (decimal (beNat (zeros 8)))).2 = .ok () := plainCard_accepted
    show [Res.ok (), (verifyRsaCore ({ raw := plainCert (zeros 106) (zeros 58) (zeros 8) } : RsaCert) (List.replicate 128 0xFF) (zeros 7 ++ [1])
        (decimal (beNat (zeros 8)))).2] = _
    rw [hv]

/-! ## The hypotheses are met -/

/-- A message whose card certificate is also its authority's certificate and the one the resolver returns. -/
example (c : RsaCert) (e : EccCert) : ∃ (r : SharedResolver Unit) (h : CertHeap) (refs : CardRefs) (card : DriverCard),
    ShowsCopies h refs card ∧ refs.gen1.bind GenRefs.cert = refs.gen1.bind GenRefs.ca ∧ (r.rsa [] ()).1 = .ok (refs.gen1.bind GenRefs.cert) :=
  ⟨⟨fun s => (.err "", s), fun _ s => (.ok (some 0), s), fun _ s => (.err "", s)⟩, ⟨fun _ => c, fun _ => e⟩,
    ⟨some ⟨some 0, some 0⟩, some ⟨some 0, none⟩⟩,
    { tachograph := some { cardCertificate := some c, caCertificate := some c }, tachographG2 := some { cardSignCertificate := some e } },
    ⟨rfl, rfl⟩, rfl, rfl⟩

/-- A resolver that never answers with the card's certificate. -/
example (h : CertHeap) : ∀ (r : SharedResolver Unit) c, some (⟨fun s => (.err "", s), fun _ s => (.ok (some 1), s), fun _ s => (.err "", s)⟩ : SharedResolver Unit) = some r →
    (⟨some ⟨some 0, none⟩, none⟩ : CardRefs).gen1.bind GenRefs.cert = some c → (r.rsa (h.rsa c).car ()).1 ≠ .ok (some c) := by
  rintro r c e1 e2 e3
  cases e1
  cases e2
  cases e3

end Tacho
