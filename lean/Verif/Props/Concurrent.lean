import Verif.Spec.Concurrent
import Verif.Props.Kept
/-!
# Verifications that run at the same time (C83)
-/

namespace Tacho
open Spec

section
variable [Crypto]

/-! ## The writes are those of the verification -/

/-- The forms the writes can have. -/
inductive WriteShape : List CertWrite × Res Unit → Prop
  | nothing (m) : WriteShape ([], .err m)
  | mark (m) : WriteShape ([.valid false], .err m)
  | key (n c t m e) (hm : m ≠ []) (he : e ≠ []) :
      WriteShape ([.valid true, .chr n, .car c, .endOfValidity t, .modulus m, .exponent e], .ok ())

theorem recoveredWrites_core (c : RsaCert) (sr : Bytes) :
    (recoveredWrites c.raw sr).1.foldl CertWrite.on c = (rsaRecovered c sr).1 ∧ (recoveredWrites c.raw sr).2 = (rsaRecovered c sr).2 := by
  unfold recoveredWrites rsaRecovered
  dsimp only
  split
  · exact ⟨rfl, rfl⟩
  · split
    · exact ⟨rfl, rfl⟩
    · split
      · exact ⟨rfl, rfl⟩
      · exact ⟨rfl, rfl⟩

/-- The list of writes has the effect, and gives the result, of the verification of a certificate. -/
theorem rsaWrites_core (c : RsaCert) (m e n : Bytes) :
    (rsaWrites c.raw m e n).1.foldl CertWrite.on c = (verifyRsaCore c m e n).1 ∧ (rsaWrites c.raw m e n).2 = (verifyRsaCore c m e n).2 := by
  unfold rsaWrites verifyRsaCore
  dsimp only
  split
  · exact ⟨rfl, rfl⟩
  · split
    · exact ⟨rfl, rfl⟩
    · split
      · exact ⟨rfl, rfl⟩
      · split
        · exact recoveredWrites_core c _
        · exact ⟨rfl, rfl⟩

theorem rootWrites_core (c : RsaCert) (root : Option RootCert) :
    verifyRsaWithRoot (some c) root = (some ((rootWrites c.raw root).1.foldl CertWrite.on c), (rootWrites c.raw root).2) := by
  cases root with
  | none => rfl
  | some rt =>
    obtain ⟨h1, h2⟩ := rsaWrites_core c rt.modulus rt.exponent rt.keyId
    show (some (verifyRsaCore c _ _ _).1, (verifyRsaCore c _ _ _).2) = (some _, _)
    rw [← h1, ← h2]
    rfl

theorem recoveredWrites_shape (raw sr : Bytes) (hr : raw.length = 194) (hs : sr.length = 128) : WriteShape (recoveredWrites raw sr) := by
  unfold recoveredWrites
  dsimp only
  split
  · exact .mark _
  · split
    · exact .mark _
    · split
      · exact .mark _
      · have hl : (sl sr 1 107 ++ sl raw 128 186).length = 164 := by simp [sl, hr, hs]
        refine .key _ _ _ _ _ ?_ ?_
        · intro e
          have := congrArg List.length e
          simp [sl, hr, hs] at this
        · intro e
          have := congrArg List.length e
          simp [sl, hr, hs] at this

theorem rootWrites_shape (raw : Bytes) (root : Option RootCert) : WriteShape (rootWrites raw root) := by
  cases root with
  | none => exact .nothing _
  | some rt =>
    show WriteShape (rsaWrites raw rt.modulus rt.exponent rt.keyId)
    unfold rsaWrites
    dsimp only
    split
    · exact .nothing _
    · rename_i h1
      split
      · exact .nothing _
      · split
        · exact .mark _
        · split
          · exact recoveredWrites_shape raw _ (Classical.not_not.mp h1) (by simp)
          · exact .mark _

/-! ## What the certificates look like while they are written -/

omit [Crypto] in
theorem writes_raw (ws : List CertWrite) (c : RsaCert) : (ws.foldl CertWrite.on c).raw = c.raw := by
  induction ws generalizing c with
  | nil => rfl
  | cons w ws ih => rw [List.foldl_cons, ih]; cases w <;> rfl

omit [Crypto] in
/-- A goroutine that is behind another one writes what is there already. -/
theorem write_again {x : List CertWrite × Res Unit} (hx : WriteShape x) (c : RsaCert) (j k : Nat) (w : CertWrite) (ws : List CertWrite)
    (hj : j ≤ k) (h : x.1.drop j = w :: ws) :
    w.on ((x.1.take k).foldl CertWrite.on c) = (x.1.take (max k (j + 1))).foldl CertWrite.on c := by
  have hlt : j < x.1.length := by
    apply Classical.byContradiction
    intro hn
    rw [List.drop_eq_nil_of_le (by omega)] at h
    cases h
  have hw : x.1[j]? = some w := by rw [← List.head?_drop, h]; rfl
  cases hx with
  | nothing m => cases hlt
  | mark m =>
    have : j = 0 := by simp at hlt; omega
    subst this
    cases hw
    rcases k with _ | k
    · rfl
    · simp [CertWrite.on]
  | key n cr t m e hm he =>
    have hlt : j < 6 := hlt
    have hmax : ∀ y : List CertWrite, y.length = 6 → y.take (max k (j + 1)) = y.take (max (min k 6) (j + 1)) := by
      intro y hy
      rcases Nat.lt_or_ge k 6 with h | h
      · rw [Nat.min_eq_left (by omega)]
      · rw [Nat.min_eq_right h, List.take_of_length_le (by omega), List.take_of_length_le (by omega)]
    have htake : ∀ y : List CertWrite, y.length = 6 → y.take k = y.take (min k 6) := by
      intro y hy
      rcases Nat.lt_or_ge k 6 with h | h
      · rw [Nat.min_eq_left (by omega)]
      · rw [Nat.min_eq_right h, List.take_of_length_le (by omega), List.take_of_length_le (by omega)]
    rw [hmax _ rfl, htake _ rfl]
    have hk : min k 6 ≤ 6 := Nat.min_le_right _ _
    have hjk : j ≤ min k 6 := by omega
    generalize min k 6 = k' at hk hjk
    dsimp only at hw
    clear hmax htake h
    have hj' : j = 0 ∨ j = 1 ∨ j = 2 ∨ j = 3 ∨ j = 4 ∨ j = 5 := by omega
    have hk' : k' = 0 ∨ k' = 1 ∨ k' = 2 ∨ k' = 3 ∨ k' = 4 ∨ k' = 5 ∨ k' = 6 := by omega
    rcases hj' with rfl | rfl | rfl | rfl | rfl | rfl <;>
      rcases hk' with rfl | rfl | rfl | rfl | rfl | rfl | rfl <;>
      first
        | (exfalso; omega)
        | (simp only [List.getElem?_cons_zero, List.getElem?_cons_succ, Option.some.injEq] at hw; subst hw; rfl)

/-- The writes that verifications make to a certificate. -/
def cellWrites (root : Res (Option RootCert)) (c0 : RsaCert) : List CertWrite × Res Unit :=
  match root with
  | .ok rt => if c0.modulus.length = 0 ∨ c0.exponent.length = 0 then rootWrites c0.raw rt else ([], .err "")
  | _ => ([], .err "")

theorem cellWrites_shape (root : Res (Option RootCert)) (c0 : RsaCert) : WriteShape (cellWrites root c0) := by
  unfold cellWrites
  split
  · split
    · exact rootWrites_shape _ _
    · exact .nothing _
  · exact .nothing _

theorem cellWrites_key (root : Res (Option RootCert)) {c0 : RsaCert} (h : HasKey c0) : (cellWrites root c0).1 = [] := by
  rw [hasKey_iff] at h
  unfold cellWrites
  split
  · rw [if_neg h]
  · rfl

/-- The certificate after `k` of the writes. -/
def cellAt (root : Res (Option RootCert)) (c0 : RsaCert) (k : Nat) : RsaCert := ((cellWrites root c0).1.take k).foldl CertWrite.on c0

/-- The certificate after all of the writes. -/
def cellEnd (root : Res (Option RootCert)) (c0 : RsaCert) : RsaCert := (cellWrites root c0).1.foldl CertWrite.on c0

theorem cellAt_end (root : Res (Option RootCert)) (c0 : RsaCert) (k : Nat) (h : (cellWrites root c0).1.length ≤ k) :
    cellAt root c0 k = cellEnd root c0 := by
  unfold cellAt cellEnd
  rw [List.take_of_length_le h]

theorem cellAt_key (root : Res (Option RootCert)) {c0 : RsaCert} (h : HasKey c0) (k : Nat) : cellAt root c0 k = c0 := by
  unfold cellAt
  rw [cellWrites_key root h]
  cases k <;> rfl

/-- A certificate with an exponent that had none has all of its key. -/
theorem cellAt_exponent (root : Res (Option RootCert)) {c0 : RsaCert} (h0 : c0.exponent = []) (k : Nat)
    (h : (cellAt root c0 k).exponent ≠ []) : (cellWrites root c0).2 = .ok () ∧ (cellWrites root c0).1.length ≤ k := by
  unfold cellAt at h
  have hs := cellWrites_shape root c0
  revert h hs
  generalize cellWrites root c0 = x
  intro h hs
  cases hs with
  | nothing m => exact absurd (by cases k <;> exact h0) h
  | mark m => exact absurd (by rcases k with _ | _ | k <;> exact h0) h
  | key n c t m e hm he =>
    refine ⟨rfl, ?_⟩
    rcases k with _ | _ | _ | _ | _ | _ | k
    · exact absurd h0 h
    · exact absurd h0 h
    · exact absurd h0 h
    · exact absurd h0 h
    · exact absurd h0 h
    · exact absurd h0 h
    · exact Nat.le_add_left 6 k

/-! ## The invariant -/

/-- The card names the certificate. -/
def Names (r : KeptResolver) (c : DriverCard) (a : Nat) : Prop :=
  ∃ t cert, c.tachograph = some t ∧ t.cardCertificate = some cert ∧ r.rsa cert.car = .ok (some a)

/-- The certificate has its key, and will not change any more in what is read of it. -/
def Ready (r : KeptResolver) (h0 : CertCells) (K : Nat → Nat) (a : Nat) : Prop :=
  HasKey (h0 a) ∨ ((cellWrites r.root (h0 a)).2 = .ok () ∧ (cellWrites r.root (h0 a)).1.length ≤ K a)

/-- What holds of a goroutine when `K a` of the writes to certificate `a` were made. -/
def ThreadOk (r : KeptResolver) (h0 : CertCells) (K : Nat → Nat) (c : DriverCard) : Phase → Prop
  | .start => True
  | .checkModulus a => Names r c a
  | .checkExponent a => Names r c a
  | .needKey a => Names r c a ∧ ¬ HasKey (h0 a)
  | .writing a ws res => Names r c a ∧ ¬ HasKey (h0 a) ∧ (∃ rt, r.root = .ok rt) ∧ res = (cellWrites r.root (h0 a)).2 ∧
      ∃ j, j ≤ K a ∧ ws = (cellWrites r.root (h0 a)).1.drop j
  | .loadModulus a => Names r c a ∧ Ready r h0 K a
  | .loadExponent a m => Names r c a ∧ Ready r h0 K a ∧ m = (cellEnd r.root (h0 a)).modulus
  | .loadName a m e => Names r c a ∧ Ready r h0 K a ∧ m = (cellEnd r.root (h0 a)).modulus ∧ e = (cellEnd r.root (h0 a)).exponent
  | .done c' res => (some c', res) = alone r h0 c

theorem Ready.mono {r : KeptResolver} {h0 : CertCells} {K K' : Nat → Nat} {a : Nat} (hK : ∀ a, K a ≤ K' a) (h : Ready r h0 K a) : Ready r h0 K' a := by
  rcases h with h | ⟨h1, h2⟩
  · exact .inl h
  · exact .inr ⟨h1, Nat.le_trans h2 (hK a)⟩

theorem ThreadOk.mono {r : KeptResolver} {h0 : CertCells} {K K' : Nat → Nat} {c : DriverCard} {p : Phase} (hK : ∀ a, K a ≤ K' a)
    (h : ThreadOk r h0 K c p) : ThreadOk r h0 K' c p := by
  cases p with
  | start => trivial
  | checkModulus a => exact h
  | checkExponent a => exact h
  | needKey a => exact h
  | writing a ws res =>
    obtain ⟨h1, h2, h3, h4, j, h5, h6⟩ := h
    exact ⟨h1, h2, h3, h4, j, Nat.le_trans h5 (hK a), h6⟩
  | loadModulus a => exact ⟨h.1, h.2.mono hK⟩
  | loadExponent a m => exact ⟨h.1, h.2.1.mono hK, h.2.2⟩
  | loadName a m e => exact ⟨h.1, h.2.1.mono hK, h.2.2⟩
  | done c' res => exact h

/-- The certificates after `K a` writes each. -/
def CellsOk (r : KeptResolver) (h0 : CertCells) (K : Nat → Nat) (h : CertCells) : Prop := ∀ a, h a = cellAt r.root (h0 a) (K a)

theorem Ready.cell {r : KeptResolver} {h0 h : CertCells} {K : Nat → Nat} {a : Nat} (hc : CellsOk r h0 K h) (hr : Ready r h0 K a) :
    h a = cellEnd r.root (h0 a) := by
  rw [hc a]
  rcases hr with hk | ⟨_, hl⟩
  · rw [cellAt_key _ hk]
    unfold cellEnd
    rw [cellWrites_key _ hk]
    rfl
  · exact cellAt_end _ _ _ hl

/-! ## How a verification alone ends -/

theorem done_finish (r : KeptResolver) (h0 : CertCells) (K : Nat → Nat) (c c' : DriverCard) (res : Res Unit)
    (h : alone r h0 c = match res with
      | .ok () => (some (verifyCardGen2 (some (r.copies h0)) c' ()).msg, (verifyCardGen2 (some (r.copies h0)) c' ()).result)
      | .err m => (some c', .err m)
      | .panic => (some c', .panic)) : ThreadOk r h0 K c (finishCard r c' res) := by
  cases res with
  | ok u =>
    obtain ⟨e1, e2, _⟩ := copies_gen2 r h0 (fun _ => {}) c' () ()
    show (some _, _) = alone r h0 c
    rw [h, e1, e2]
  | err m => exact h.symm
  | panic => exact h.symm

/-- What is left of a card, and returned, when the answer for its authority is `x`. -/
def aloneAfter (r : KeptResolver) (h0 : CertCells) (c : DriverCard) (t : Tachograph) (cert : RsaCert) :
    Res (Option RsaCert) → Option DriverCard × Res Unit
  | .err m => (some c, .err m)
  | .panic => (some c, .panic)
  | .ok ca =>
    let v := verifyRsaWithCA (some cert) ca
    let c' := { c with tachograph := some { t with cardCertificate := v.1 } }
    match v.2 with
    | .ok () => (some (verifyCardGen2 (some (r.copies h0)) c' ()).msg, (verifyCardGen2 (some (r.copies h0)) c' ()).result)
    | .err m => (some c', .err m)
    | .panic => (some c', .panic)

/-- Verifying a card alone, in terms of the answer for its authority. -/
theorem alone_eq (r : KeptResolver) (h0 : CertCells) (c : DriverCard) (t : Tachograph) (cert : RsaCert) (ht : c.tachograph = some t)
    (hc : t.cardCertificate = some cert) (x : Res (Option RsaCert)) (hx : (gen1Authority (r.copies h0) cert.car ()).1 = x) :
    alone r h0 c = aloneAfter r h0 c t cert x := by
  unfold alone verifyDriverCard verifyCard verifyGen1 aloneAfter
  dsimp only
  rw [ht]
  dsimp only
  rw [hc]
  dsimp only
  rcases hg : gen1Authority (r.copies h0) cert.car () with ⟨y, s⟩
  rw [hg] at hx
  dsimp only at hx
  subst hx
  have hcc : { c with tachograph := some t } = c := by rw [← ht]
  cases y with
  | err m => dsimp only; rw [hcc]
  | panic => dsimp only; rw [hcc]
  | ok ca =>
    dsimp only
    rcases verifyRsaWithCA (some cert) ca with ⟨a, b⟩
    cases b <;> rfl

theorem authority_key (r : KeptResolver) (h0 : CertCells) (name : Bytes) (a : Nat) (hn : r.rsa name = .ok (some a)) (hk : HasKey (h0 a)) :
    (gen1Authority (r.copies h0) name ()).1 = .ok (some (cellEnd r.root (h0 a))) := by
  have e : cellEnd r.root (h0 a) = h0 a := by unfold cellEnd; rw [cellWrites_key _ hk]; rfl
  rw [hasKey_iff] at hk
  unfold gen1Authority KeptResolver.copies
  dsimp only
  rw [hn]
  dsimp only [Option.map_some, Option.getD]
  rw [if_neg hk, e]

theorem authority_noKey (r : KeptResolver) (h0 : CertCells) (name : Bytes) (a : Nat) (hn : r.rsa name = .ok (some a)) (hk : ¬ HasKey (h0 a)) :
    (gen1Authority (r.copies h0) name ()).1 = match r.root with
      | .err m => .err m
      | .panic => .panic
      | .ok _ => match (cellWrites r.root (h0 a)).2 with
        | .ok () => .ok (some (cellEnd r.root (h0 a)))
        | .err m => .err m
        | .panic => .panic := by
  rw [hasKey_iff, Classical.not_not] at hk
  unfold gen1Authority KeptResolver.copies cellEnd cellWrites
  dsimp only
  rw [hn]
  dsimp only [Option.map_some, Option.getD]
  rw [if_pos hk]
  cases r.root with
  | err m => rfl
  | panic => rfl
  | ok rt =>
    dsimp only
    rw [rootWrites_core, if_pos hk]
    rcases (rootWrites (h0 a).raw rt).2 with u | m | _ <;> rfl

theorem Ready.authority {r : KeptResolver} {h0 : CertCells} {K : Nat → Nat} {a : Nat} (hr : Ready r h0 K a) (name : Bytes)
    (hn : r.rsa name = .ok (some a)) : (gen1Authority (r.copies h0) name ()).1 = .ok (some (cellEnd r.root (h0 a))) := by
  by_cases hk : HasKey (h0 a)
  · exact authority_key r h0 name a hn hk
  · rcases hr with h | ⟨h, _⟩
    · exact absurd h hk
    · rw [authority_noKey r h0 name a hn hk]
      have hroot : ∃ rt, r.root = .ok rt := by
        unfold cellWrites at h
        split at h
        · exact ⟨_, by assumption⟩
        · cases h
      obtain ⟨rt, hroot⟩ := hroot
      rw [h]
      generalize r.root = x at hroot
      subst hroot
      rfl

theorem alone_err (r : KeptResolver) (h0 : CertCells) (K : Nat → Nat) (c : DriverCard) (a : Nat) (hn : Names r c a) (x : Res Unit)
    (hx : ∀ name, r.rsa name = .ok (some a) → (gen1Authority (r.copies h0) name ()).1 = match x with
      | .ok () => .err "" | .err m => .err m | .panic => .panic) (hne : x ≠ .ok ()) : ThreadOk r h0 K c (finishCard r c x) := by
  obtain ⟨t, cert, ht, hc, hr⟩ := hn
  apply done_finish
  rw [alone_eq r h0 c t cert ht hc _ (hx _ hr)]
  cases x with
  | ok u => exact absurd rfl hne
  | err m => rfl
  | panic => rfl

/-! ## The invariant is kept -/

theorem begin_ok (r : KeptResolver) (h0 : CertCells) (K : Nat → Nat) (c : DriverCard) : ThreadOk r h0 K c (beginCard r c) := by
  unfold beginCard
  cases ht : c.tachograph with
  | none =>
    apply done_finish
    unfold alone verifyDriverCard verifyCard
    dsimp only
    rw [ht]
  | some t =>
    dsimp only
    cases hc : t.cardCertificate with
    | none =>
      apply done_finish
      unfold alone verifyDriverCard verifyCard verifyGen1
      dsimp only
      rw [ht]
      dsimp only
      rw [hc]
      dsimp only
      rw [← ht]
    | some cert =>
      dsimp only
      have hg := alone_eq r h0 c t cert ht hc
      cases hr : r.rsa cert.car with
      | err m =>
        apply done_finish
        rw [hg (.err m) (by unfold gen1Authority KeptResolver.copies; dsimp only; rw [hr])]
        rfl
      | panic =>
        apply done_finish
        rw [hg .panic (by unfold gen1Authority KeptResolver.copies; dsimp only; rw [hr])]
        rfl
      | ok a =>
        cases a with
        | some a => exact ⟨t, cert, ht, hc, hr⟩
        | none =>
          have hx : (gen1Authority (r.copies h0) cert.car ()).1 = match r.root with
              | .err m => .err m
              | .panic => .panic
              | .ok none => .err "root certificate cannot be nil"
              | .ok (some _) => .err "certificate cannot be nil" := by
            unfold gen1Authority KeptResolver.copies
            dsimp only
            rw [hr]
            dsimp only [Option.map_none, Option.getD, List.length_nil]
            rw [if_pos (.inl rfl)]
            cases r.root with
            | err m => rfl
            | panic => rfl
            | ok rt => cases rt <;> rfl
          have hg := hg _ hx
          cases hroot : r.root with
          | err m => rw [hroot] at hg; exact done_finish _ _ _ _ _ _ hg
          | panic => rw [hroot] at hg; exact done_finish _ _ _ _ _ _ hg
          | ok rt =>
            rw [hroot] at hg
            cases rt with
            | none => exact done_finish _ _ _ _ _ _ hg
            | some rt => exact done_finish _ _ _ _ _ _ hg

/-- The goroutine is about to make the next write to a certificate that no other one is ahead of. -/
def WritingCell (r : KeptResolver) (h0 : CertCells) (K : Nat → Nat) (p : Phase) (a : Nat) : Prop :=
  ∃ w ws res, p = .writing a (w :: ws) res ∧ w :: ws = (cellWrites r.root (h0 a)).1.drop (K a)

/-- The goroutine is as far with the writes to the certificate as any. -/
def Leads (r : KeptResolver) (h0 : CertCells) (K : Nat → Nat) (p : Phase) (a : Nat) : Prop :=
  ∃ ws res, p = .writing a ws res ∧ ws = (cellWrites r.root (h0 a)).1.drop (K a)

/-- One step keeps the invariant, for the goroutine that takes it and for the certificates. -/
theorem step_ok (r : KeptResolver) (h0 h : CertCells) (hh : ∀ a, NoHalfKey (h0 a)) (K : Nat → Nat) (c : DriverCard) (p : Phase)
    (hc : CellsOk r h0 K h) (hp : ThreadOk r h0 K c p) :
    ∃ K', (∀ a, K a ≤ K' a) ∧ CellsOk r h0 K' (p.stepWith id r c h).2 ∧ ThreadOk r h0 K' c (p.stepWith id r c h).1 ∧
      ∀ a, (K' a = K a ∧ ¬ WritingCell r h0 K p a) ∨ Leads r h0 K' (p.stepWith id r c h).1 a := by
  have stay : (p.stepWith id r c h).2 = h → ThreadOk r h0 K c (p.stepWith id r c h).1 → (∀ a w ws res, p ≠ .writing a (w :: ws) res) →
      ∃ K', (∀ a, K a ≤ K' a) ∧ CellsOk r h0 K' (p.stepWith id r c h).2 ∧ ThreadOk r h0 K' c (p.stepWith id r c h).1 ∧
        ∀ a, (K' a = K a ∧ ¬ WritingCell r h0 K p a) ∨ Leads r h0 K' (p.stepWith id r c h).1 a := by
    intro e ht hw
    refine ⟨K, fun _ => Nat.le_refl _, by rw [e]; exact hc, ht, fun a => .inl ⟨rfl, ?_⟩⟩
    rintro ⟨w, ws, res, hp, _⟩
    exact hw a w ws res hp
  cases p with
  | start => exact stay rfl (begin_ok r h0 K c) (by simp)
  | checkModulus a =>
    refine stay rfl ?_ (by simp)
    show ThreadOk r h0 K c (if (h a).modulus.length = 0 then .needKey a else .checkExponent a)
    split
    · rename_i hm
      refine ⟨hp, fun hk => ?_⟩
      rw [hc a, cellAt_key _ hk] at hm
      exact hk.1 (List.length_eq_zero_iff.mp hm)
    · exact hp
  | checkExponent a =>
    refine stay rfl ?_ (by simp)
    show ThreadOk r h0 K c (if (h a).exponent.length = 0 then .needKey a else .loadModulus a)
    split
    · rename_i hm
      refine ⟨hp, fun hk => ?_⟩
      rw [hc a, cellAt_key _ hk] at hm
      exact hk.2 (List.length_eq_zero_iff.mp hm)
    · rename_i hm
      refine ⟨hp, ?_⟩
      rcases hh a with hk | he
      · exact .inl hk
      · right
        refine cellAt_exponent r.root he (K a) fun e => hm ?_
        rw [hc a, e]
        rfl
  | needKey a =>
    obtain ⟨hn, hk⟩ := hp
    have hauth := fun name hr => authority_noKey r h0 name a hr hk
    cases hroot : r.root with
    | err m =>
      have e : Phase.stepWith id r c h (.needKey a) = (finishCard r c (.err m), h) := by
        show (match r.root with | .err m => _ | .panic => _ | .ok root => _) = _
        rw [hroot]
      refine stay (by rw [e]) ?_ (by simp)
      rw [e]
      refine alone_err r h0 K c a hn (.err m) (fun name hr => ?_) (by simp)
      rw [hauth name hr, hroot]
    | panic =>
      have e : Phase.stepWith id r c h (.needKey a) = (finishCard r c .panic, h) := by
        show (match r.root with | .err m => _ | .panic => _ | .ok root => _) = _
        rw [hroot]
      refine stay (by rw [e]) ?_ (by simp)
      rw [e]
      refine alone_err r h0 K c a hn .panic (fun name hr => ?_) (by simp)
      rw [hauth name hr, hroot]
    | ok rt =>
      have e : Phase.stepWith id r c h (.needKey a) = (.writing a (rootWrites (h a).raw rt).1 (rootWrites (h a).raw rt).2, h) := by
        show (match r.root with | .err m => _ | .panic => _ | .ok root => _) = _
        rw [hroot]
        rfl
      refine stay (by rw [e]) ?_ (by simp)
      rw [e]
      have hraw : (h a).raw = (h0 a).raw := by rw [hc a]; exact writes_raw _ _
      have hcw : cellWrites r.root (h0 a) = rootWrites (h0 a).raw rt := by
        unfold cellWrites
        rw [hroot]
        dsimp only
        rw [hasKey_iff, Classical.not_not] at hk
        rw [if_pos hk]
      refine ⟨hn, hk, ⟨rt, hroot⟩, ?_, 0, Nat.zero_le _, ?_⟩
      · rw [hcw, hraw]
      · rw [hcw, hraw]; rfl
  | writing a ws res =>
    obtain ⟨hn, hk, ⟨rt, hroot⟩, hres, j, hj, hws⟩ := hp
    cases ws with
    | cons w ws =>
      refine ⟨fun b => if b = a then max (K a) (j + 1) else K b, fun b => ?_, fun b => ?_, ⟨hn, hk, ⟨rt, hroot⟩, hres, j + 1, ?_, ?_⟩, fun b => ?_⟩
      · dsimp only
        split
        · rename_i e; rw [e]; exact Nat.le_max_left _ _
        · exact Nat.le_refl _
      · show (if b = a then w.on (h a) else h b) = cellAt r.root (h0 b) (if b = a then max (K a) (j + 1) else K b)
        split
        · rename_i e
          rw [e, hc a]
          exact write_again (cellWrites_shape r.root (h0 a)) (h0 a) j (K a) w ws hj hws.symm
        · exact hc b
      · dsimp only
        rw [if_pos rfl]
        exact Nat.le_max_right _ _
      · have := congrArg (List.drop 1) hws
        rw [List.drop_drop] at this
        exact this
      · dsimp only
        by_cases hb : b = a
        · subst hb
          rw [if_pos rfl]
          rcases Nat.lt_or_ge j (K b) with hlt | hge
          · refine .inl ⟨Nat.max_eq_left (by omega), ?_⟩
            rintro ⟨w', ws', res', e, hd⟩
            cases e
            rw [hws] at hd
            have hl := congrArg List.length hd
            have hl' := congrArg List.length hws
            simp only [List.length_drop, List.length_cons] at hl hl'
            omega
          · refine .inr ⟨ws, res, rfl, ?_⟩
            dsimp only
            rw [if_pos rfl, Nat.max_eq_right (by omega)]
            have := congrArg (List.drop 1) hws
            rw [List.drop_drop] at this
            exact this
        · rw [if_neg hb]
          refine .inl ⟨rfl, ?_⟩
          rintro ⟨w', ws', res', e, _⟩
          cases e
          exact hb rfl
    | nil =>
      have hl : (cellWrites r.root (h0 a)).1.length ≤ j := List.drop_eq_nil_iff.mp hws.symm
      have hauth := fun name hr => authority_noKey r h0 name a hr hk
      rw [← hres, hroot] at hauth
      cases res with
      | ok u => exact stay rfl ⟨hn, .inr ⟨hres.symm, Nat.le_trans hl hj⟩⟩ (by simp)
      | err m => exact stay rfl (alone_err r h0 K c a hn (.err m) hauth (by simp)) (by simp)
      | panic => exact stay rfl (alone_err r h0 K c a hn .panic hauth (by simp)) (by simp)
  | loadModulus a =>
    refine stay rfl ⟨hp.1, hp.2, ?_⟩ (by simp)
    rw [hp.2.cell hc]
  | loadExponent a m =>
    refine stay rfl ⟨hp.1, hp.2.1, hp.2.2, ?_⟩ (by simp)
    rw [hp.2.1.cell hc]
  | loadName a m e =>
    obtain ⟨⟨t, cert, ht, hcert, hr⟩, hrd, rfl, rfl⟩ := hp
    refine stay rfl ?_ (by simp)
    show ThreadOk r h0 K c (finishGen1 r c _ _ (h a).chr)
    rw [hrd.cell hc]
    unfold finishGen1
    rw [ht]
    dsimp only
    rw [hcert]
    apply done_finish
    rw [alone_eq r h0 c t cert ht hcert _ (hrd.authority cert.car hr)]
    rfl
  | done c' res => exact stay rfl hp (by simp)

/-- The invariant of the whole. -/
def AllOk (r : KeptResolver) (h0 : CertCells) (s : Verifiers) : Prop :=
  ∃ K, CellsOk r h0 K s.cells ∧ (∀ x ∈ s.threads, ThreadOk r h0 K x.1 x.2) ∧
    ∀ a, K a = 0 ∨ (cellWrites r.root (h0 a)).1.length ≤ K a ∨ ∃ (i : Nat) (c : DriverCard) (p : Phase), s.threads[i]? = some (c, p) ∧ Leads r h0 K p a

theorem run_ok (r : KeptResolver) (h0 : CertCells) (hh : ∀ a, NoHalfKey (h0 a)) (schedule : List Nat) (s : Verifiers) (h : AllOk r h0 s) :
    AllOk r h0 (s.runWith id r schedule) := by
  induction schedule generalizing s with
  | nil => exact h
  | cons i is ih =>
    refine ih _ ?_
    obtain ⟨K, hc, ht, hl⟩ := h
    unfold Verifiers.stepWith
    cases hi : s.threads[i]? with
    | none => exact ⟨K, hc, ht, hl⟩
    | some x =>
      obtain ⟨c, p⟩ := x
      obtain ⟨K', hK, hc', hp', hl'⟩ := step_ok r h0 s.cells hh K c p hc (ht _ (List.mem_of_getElem? hi))
      have hlt : i < s.threads.length := by
        apply Classical.byContradiction
        intro hn
        rw [List.getElem?_eq_none (by omega)] at hi
        cases hi
      refine ⟨K', hc', fun y hy => ?_, fun a => ?_⟩
      · rcases List.mem_or_eq_of_mem_set hy with h | rfl
        · exact (ht y h).mono hK
        · exact hp'
      · rcases hl' a with ⟨e, hn⟩ | hlead
        · rw [e]
          rcases hl a with h | h | ⟨i', c', p', hi', ws, res, hp1, hp2⟩
          · exact .inl h
          · exact .inr (.inl h)
          · by_cases hii : i' = i
            · subst hii
              rw [hi] at hi'
              cases hi'
              cases ws with
              | nil => exact .inr (.inl (List.drop_eq_nil_iff.mp hp2.symm))
              | cons w ws => exact absurd ⟨w, ws, res, hp1, hp2⟩ hn
            · refine .inr (.inr ⟨i', c', p', ?_, ws, res, hp1, by rw [e]; exact hp2⟩)
              dsimp only
              rw [List.getElem?_set_ne (fun h => hii h.symm)]
              exact hi'
        · refine .inr (.inr ⟨i, c, _, ?_, hlead⟩)
          dsimp only
          rw [List.getElem?_set_self hlt]

theorem start_ok (r : KeptResolver) (cards : List DriverCard) (h0 : CertCells) : AllOk r h0 (Verifiers.start cards h0) := by
  refine ⟨fun _ => 0, fun a => rfl, fun x hx => ?_, fun _ => .inl rfl⟩
  obtain ⟨c, _, rfl⟩ := List.mem_map.mp hx
  trivial

theorem step_cards (order : List CertWrite → List CertWrite) (r : KeptResolver) (s : Verifiers) (i : Nat) :
    (s.stepWith order r i).threads.map Prod.fst = s.threads.map Prod.fst := by
  unfold Verifiers.stepWith
  cases hi : s.threads[i]? with
  | none => rfl
  | some x =>
    dsimp only
    rw [List.map_set]
    apply List.ext_getElem?
    intro j
    rw [List.getElem?_set]
    split
    · rename_i e
      subst e
      rw [List.getElem?_map, hi, List.length_map]
      split
      · rfl
      · rename_i hlt
        rw [List.getElem?_eq_none (by omega)] at hi
        cases hi
    · rfl

theorem run_cards (order : List CertWrite → List CertWrite) (r : KeptResolver) (schedule : List Nat) (s : Verifiers) :
    (s.runWith order r schedule).threads.map Prod.fst = s.threads.map Prod.fst := by
  induction schedule generalizing s with
  | nil => rfl
  | cons i is ih => rw [show s.runWith order r (i :: is) = (s.stepWith order r i).runWith order r is from rfl, ih, step_cards]

/-! ## Progress -/

/-- How many steps a goroutine may still need. -/
def stepsLeft : Phase → Nat
  | .start => 14
  | .checkModulus _ => 13
  | .checkExponent _ => 12
  | .needKey _ => 11
  | .writing _ ws _ => ws.length + 4
  | .loadModulus _ => 3
  | .loadExponent _ _ => 2
  | .loadName _ _ _ => 1
  | .done _ _ => 0

theorem stepsLeft_finish (r : KeptResolver) (c : DriverCard) (res : Res Unit) : stepsLeft (finishCard r c res) = 0 := by
  cases res <;> rfl

omit [Crypto] in
theorem stepsLeft_zero {p : Phase} (h : stepsLeft p = 0) : ∃ c res, p = .done c res := by
  cases p with
  | done c res => exact ⟨c, res, rfl⟩
  | writing a ws res => simp [stepsLeft] at h
  | _ => simp [stepsLeft] at h

theorem rootWrites_length (raw : Bytes) (root : Option RootCert) : (rootWrites raw root).1.length ≤ 6 := by
  have := rootWrites_shape raw root
  generalize rootWrites raw root = x at this
  cases this <;> simp

theorem stepsLeft_step (r : KeptResolver) (c : DriverCard) (h : CertCells) (p : Phase) : stepsLeft (p.stepWith id r c h).1 ≤ stepsLeft p - 1 := by
  have hf : ∀ c' res n, stepsLeft (finishCard r c' res) ≤ n := fun c' res n => by rw [stepsLeft_finish]; exact Nat.zero_le _
  cases p with
  | start =>
    show stepsLeft (beginCard r c) ≤ 13
    unfold beginCard
    cases c.tachograph with
    | none => exact hf _ _ _
    | some t =>
      dsimp only
      cases t.cardCertificate with
      | none => exact hf _ _ _
      | some cert =>
        dsimp only
        cases r.rsa cert.car with
        | err m => exact hf _ _ _
        | panic => exact hf _ _ _
        | ok a =>
          cases a with
          | some a => exact Nat.le_refl 13
          | none =>
            dsimp only
            cases r.root with
            | err m => exact hf _ _ _
            | panic => exact hf _ _ _
            | ok rt => cases rt <;> exact hf _ _ _
  | checkModulus a =>
    show stepsLeft (if (h a).modulus.length = 0 then .needKey a else .checkExponent a) ≤ 12
    split <;> simp [stepsLeft]
  | checkExponent a =>
    show stepsLeft (if (h a).exponent.length = 0 then .needKey a else .loadModulus a) ≤ 11
    split <;> simp [stepsLeft]
  | needKey a =>
    show stepsLeft (match r.root with | .err m => (_ : Phase × CertCells) | .panic => _ | .ok root => _).1 ≤ 10
    cases r.root with
    | err m => exact hf c (.err m) _
    | panic => exact hf c .panic _
    | ok rt =>
      show (rootWrites (h a).raw rt).1.length + 4 ≤ 10
      have := rootWrites_length (h a).raw rt
      omega
  | writing a ws res =>
    cases ws with
    | cons w ws => exact Nat.le_of_eq (by simp [stepsLeft, Phase.stepWith])
    | nil =>
      cases res with
      | ok u => exact Nat.le_refl 3
      | err m => exact hf c (.err m) _
      | panic => exact hf c .panic _
  | loadModulus a => exact Nat.le_refl 2
  | loadExponent a m => exact Nat.le_refl 1
  | loadName a m e =>
    show stepsLeft (finishGen1 r c m e (h a).chr) ≤ 0
    unfold finishGen1
    cases c.tachograph with
    | none => exact hf _ _ _
    | some t =>
      dsimp only
      cases t.cardCertificate <;> exact hf _ _ _
  | done c' res => exact Nat.le_refl 0

theorem run_left (r : KeptResolver) (schedule : List Nat) (s : Verifiers) (i : Nat) (c : DriverCard) (p : Phase) (hi : s.threads[i]? = some (c, p)) :
    ∃ p', (s.runWith id r schedule).threads[i]? = some (c, p') ∧ stepsLeft p' ≤ stepsLeft p - schedule.count i := by
  induction schedule generalizing s p with
  | nil => exact ⟨p, hi, Nat.le_refl _⟩
  | cons k ks ih =>
    have hlt : i < s.threads.length := by
      apply Classical.byContradiction
      intro hn
      rw [List.getElem?_eq_none (by omega)] at hi
      cases hi
    show ∃ p', ((s.stepWith id r k).runWith id r ks).threads[i]? = some (c, p') ∧ _
    by_cases hk : k = i
    · subst hk
      have e : (s.stepWith id r k).threads[k]? = some (c, (p.stepWith id r c s.cells).1) := by
        unfold Verifiers.stepWith
        rw [hi]
        dsimp only
        rw [List.getElem?_set_self hlt]
      obtain ⟨p', h1, h2⟩ := ih _ _ e
      refine ⟨p', h1, ?_⟩
      have := stepsLeft_step r c s.cells p
      rw [List.count_cons_self]
      omega
    · have e : (s.stepWith id r k).threads[i]? = some (c, p) := by
        unfold Verifiers.stepWith
        cases hx : s.threads[k]? with
        | none => exact hi
        | some x =>
          dsimp only
          rw [List.getElem?_set_ne hk]
          exact hi
      obtain ⟨p', h1, h2⟩ := ih _ _ e
      refine ⟨p', h1, ?_⟩
      rw [List.count_cons_of_ne hk]
      exact h2

/-! ## The theorems -/

/-- C83: in every interleaving of verifications that share the certificates of a resolver, each of them that has
returned has left its card, and has returned the result, as if it ran alone with a fresh copy. -/
theorem concurrent_same (r : KeptResolver) (cards : List DriverCard) (h0 : CertCells) (hh : ∀ a, NoHalfKey (h0 a)) (schedule : List Nat)
    (i : Nat) (c c' : DriverCard) (res : Res Unit) (hi : cards[i]? = some c)
    (hd : Returned (Verifiers.run r cards h0 schedule) i c' res) : (some c', res) = alone r h0 c := by
  obtain ⟨K, _, ht, _⟩ := run_ok r h0 hh schedule _ (start_ok r cards h0)
  obtain ⟨p, hp, _⟩ := run_left r schedule (Verifiers.start cards h0) i c .start (by simp [Verifiers.start, hi])
  obtain ⟨c1, hd⟩ := hd
  have e : some (c, p) = some (c1, .done c' res) := hp.symm.trans hd
  cases e
  exact ht _ (List.mem_of_getElem? hd)

/-- C83: no verification waits for another one: each returns after at most 14 of its steps. -/
theorem concurrent_returns (r : KeptResolver) (cards : List DriverCard) (h0 : CertCells) (schedule : List Nat) (i : Nat) (c : DriverCard)
    (hi : cards[i]? = some c) (hn : 14 ≤ schedule.count i) : ∃ c' res, Returned (Verifiers.run r cards h0 schedule) i c' res := by
  obtain ⟨p, hp, hl⟩ := run_left r schedule (Verifiers.start cards h0) i c .start (by simp [Verifiers.start, hi])
  have : stepsLeft p = 0 := by rw [show stepsLeft .start = 14 from rfl] at hl; omega
  obtain ⟨c', res, rfl⟩ := stepsLeft_zero this
  exact ⟨c', res, c, hp⟩

theorem cellEnd_signed {root : Res (Option RootCert)} {c0 : RsaCert} (h : (cellWrites root c0).2 = .ok ()) (hk : ¬ HasKey c0) :
    ∃ rt, root = .ok (some rt) ∧ RsaSignedBy rt.modulus rt.exponent rt.keyId c0 (cellEnd root c0) := by
  rw [hasKey_iff, Classical.not_not] at hk
  unfold cellEnd
  cases root with
  | err m => cases h
  | panic => cases h
  | ok rt =>
    unfold cellWrites at h ⊢
    dsimp only at h ⊢
    rw [if_pos hk] at h ⊢
    have := rootWrites_core c0 rt
    rw [h] at this
    obtain ⟨c, r, c', e1, e2, e3, hs⟩ := (rsaRoot_ok_iff (some c0) rt _).mp this
    cases e1
    rw [Option.some.inj e3]
    exact ⟨r, by rw [e2], hs⟩

/-- C83: at every moment, a kept certificate that shows a key is as it was in the beginning, or all of its content is
filled in from what the root has signed. -/
theorem concurrent_key (r : KeptResolver) (cards : List DriverCard) (h0 : CertCells) (hh : ∀ a, NoHalfKey (h0 a)) (schedule : List Nat) (a : Nat)
    (hk : HasKey ((Verifiers.run r cards h0 schedule).cells a)) : (Verifiers.run r cards h0 schedule).cells a = h0 a ∨
      ∃ rt, r.root = .ok (some rt) ∧ RsaSignedBy rt.modulus rt.exponent rt.keyId (h0 a) ((Verifiers.run r cards h0 schedule).cells a) := by
  obtain ⟨K, hc, _, _⟩ := run_ok r h0 hh schedule _ (start_ok r cards h0)
  have e := hc a
  show (Verifiers.runWith id r (Verifiers.start cards h0) schedule).cells a = h0 a ∨ _
  change HasKey ((Verifiers.runWith id r (Verifiers.start cards h0) schedule).cells a) at hk
  by_cases hn : HasKey (h0 a)
  · left; rw [e, cellAt_key _ hn]
  · right
    rcases hh a with h | h
    · exact absurd h hn
    · rw [e] at hk
      obtain ⟨h1, h2⟩ := cellAt_exponent r.root h (K a) hk.2
      obtain ⟨rt, h3, h4⟩ := cellEnd_signed h1 hn
      refine ⟨rt, h3, ?_⟩
      show RsaSignedBy _ _ _ _ ((Verifiers.runWith id r (Verifiers.start cards h0) schedule).cells a)
      rw [e, cellAt_end _ _ _ h2]
      exact h4

/-- C83: when all verifications have returned, no certificate is left half written: each is as verifications one after
the other can leave it. -/
theorem concurrent_after (r : KeptResolver) (cards : List DriverCard) (h0 : CertCells) (hh : ∀ a, NoHalfKey (h0 a)) (schedule : List Nat)
    (hd : ∀ i, i < cards.length → ∃ c' res, Returned (Verifiers.run r cards h0 schedule) i c' res) (a : Nat) :
    KeptAs r.root (h0 a) ((Verifiers.run r cards h0 schedule).cells a) := by
  obtain ⟨K, hc, _, hl⟩ := run_ok r h0 hh schedule _ (start_ok r cards h0)
  show KeptAs r.root (h0 a) ((Verifiers.runWith id r (Verifiers.start cards h0) schedule).cells a)
  rw [hc a]
  rcases hl a with h | h | ⟨i, c, p, hi, ws, res, rfl, _⟩
  · rw [h]; exact .inl rfl
  · rw [cellAt_end _ _ _ h]
    by_cases hk : HasKey (h0 a)
    · left; unfold cellEnd; rw [cellWrites_key _ hk]; rfl
    · cases hok : (cellWrites r.root (h0 a)).2 with
      | ok u =>
        obtain ⟨rt, h1, h2⟩ := cellEnd_signed hok hk
        exact .inr ⟨rt, h1, hk, .inl h2⟩
      | err m =>
        have hs := cellWrites_shape r.root (h0 a)
        unfold cellEnd
        cases hr : r.root with
        | err m => exact .inl rfl
        | panic => exact .inl rfl
        | ok rt =>
          rw [hr] at hs hok
          cases rt with
          | none =>
            unfold cellWrites
            dsimp only
            split <;> exact .inl rfl
          | some rt =>
            generalize cellWrites (.ok (some rt)) (h0 a) = x at hs hok
            cases hs with
            | nothing m => exact .inl rfl
            | mark m => exact .inr ⟨rt, rfl, hk, .inr rfl⟩
            | key n c t m e hm he => cases hok
      | panic =>
        have hs := cellWrites_shape r.root (h0 a)
        generalize cellWrites r.root (h0 a) = x at hs hok
        cases hs <;> cases hok
  · exfalso
    have hlt : i < cards.length := by
      have h1 : i < (Verifiers.runWith id r (Verifiers.start cards h0) schedule).threads.length := by
        apply Classical.byContradiction
        intro hn
        rw [List.getElem?_eq_none (by omega)] at hi
        cases hi
      have h2 := congrArg List.length (run_cards id r schedule (Verifiers.start cards h0))
      simp only [List.length_map, Verifiers.start] at h2
      rw [← h2]
      exact h1
    obtain ⟨c', res', c1, h1⟩ := hd i hlt
    have e : some (c, Phase.writing a ws res) = some (c1, .done c' res') := hi.symm.trans h1
    cases e


/-! ## What depends on the order of the writes

The goroutines of the program are not synchronised, so the Go memory model does not promise that one of them sees the
writes of another in the order of the program. -/

omit [Crypto] in
theorem sl_middle {x : Bytes} (a b c : Bytes) {lo hi : Nat} (hx : x = a ++ b ++ c) (hlo : a.length = lo) (hhi : lo + b.length = hi) : sl x lo hi = b := by
  subst hx hlo hhi
  unfold sl
  rw [List.append_assoc, ← List.append_assoc, ← List.length_append, List.take_left, List.drop_left]

/-- A certificate whose signature is the message itself. -/
def Spec.plainCert (cr cn car : Bytes) : Bytes := [0x6A] ++ cr ++ Crypto.sha1 (cr ++ cn) ++ [0xBC] ++ cn ++ car

/-- It is accepted by an authority with exponent 1 and a modulus that is large enough. -/
theorem rsaWrites_plain (cr cn car m e : Bytes) (h1 : cr.length = 106) (h2 : cn.length = 58) (h3 : car.length = 8) (hm : m ≠ []) (he : e ≠ [])
    (he1 : beNat e = 1) (hlt : beNat ([0x6A] ++ cr ++ Crypto.sha1 (cr ++ cn) ++ [0xBC]) < beNat m) :
    rsaWrites (plainCert cr cn car) m e (decimal (beNat car)) =
      ([.valid true, .chr (decimal (beNat (sl (cr ++ cn) 20 28))), .car (decimal (beNat (sl (cr ++ cn) 1 9))),
        .endOfValidity ⟨beNat (sl (cr ++ cn) 16 20), 0⟩, .modulus (sl (cr ++ cn) 28 156), .exponent (sl (cr ++ cn) 156 164)], .ok ()) := by
  have hs := Crypto.sha1_length (cr ++ cn)
  have hl : ([0x6A] ++ cr ++ Crypto.sha1 (cr ++ cn) ++ [0xBC]).length = 128 := by simp [h1, hs]
  have hn := beNat_lt ([0x6A] ++ cr ++ Crypto.sha1 (cr ++ cn) ++ [0xBC])
  rw [hl] at hn
  have e1 : (plainCert cr cn car).length = 194 := by unfold plainCert; simp [h1, h2, h3, hs]
  have e2 : sl (plainCert cr cn car) 128 186 = cn := sl_middle _ _ car rfl hl (by omega)
  have e3 : sl (plainCert cr cn car) 186 194 = car :=
    sl_middle ([0x6A] ++ cr ++ Crypto.sha1 (cr ++ cn) ++ [0xBC] ++ cn) car [] (by simp [plainCert]) (by simp [h1, h2, hs]) (by omega)
  have e4 : sl (plainCert cr cn car) 0 128 = [0x6A] ++ cr ++ Crypto.sha1 (cr ++ cn) ++ [0xBC] :=
    sl_middle [] _ (cn ++ car) (by simp [plainCert]) rfl (by omega)
  have e5 : expMod (beNat ([0x6A] ++ cr ++ Crypto.sha1 (cr ++ cn) ++ [0xBC])) (beNat e) (beNat m) =
      beNat ([0x6A] ++ cr ++ Crypto.sha1 (cr ++ cn) ++ [0xBC]) := by
    unfold expMod
    rw [if_neg (by omega), he1, Nat.pow_one, Nat.mod_eq_of_lt hlt]
  unfold rsaWrites
  rw [e1, e3, e4, e5]
  dsimp only
  rw [if_neg (by simp), if_neg (by simp [hm, he]), if_neg (by simp), if_pos hn, beBytes_beNat' hl]
  unfold recoveredWrites
  have f1 : ([0x6A] ++ cr ++ Crypto.sha1 (cr ++ cn) ++ [0xBC]).getD 0 0 = 0x6A := by simp
  have f2 : ([0x6A] ++ cr ++ Crypto.sha1 (cr ++ cn) ++ [0xBC]).getD 127 0 = 0xBC := by
    rw [List.getD_eq_getElem?_getD, List.getElem?_append_right (by simp [h1, hs])]
    simp [h1, hs]
  have f3 : sl ([0x6A] ++ cr ++ Crypto.sha1 (cr ++ cn) ++ [0xBC]) 1 107 = cr :=
    sl_middle [0x6A] cr (Crypto.sha1 (cr ++ cn) ++ [0xBC]) (by simp) rfl (by omega)
  have f4 : sl ([0x6A] ++ cr ++ Crypto.sha1 (cr ++ cn) ++ [0xBC]) 107 127 = Crypto.sha1 (cr ++ cn) :=
    sl_middle ([0x6A] ++ cr) _ [0xBC] rfl (by simp [h1]) (by omega)
  rw [f1, f2, f3, f4, e2]
  dsimp only
  rw [if_neg (by simp), if_neg (by simp), if_neg (by simp)]

/-- An authority called 0 with the modulus 256^128 - 1 and the exponent 1, as its certificate says. -/
def Spec.authorityCert : Bytes := plainCert (zeros 28 ++ List.replicate 78 0xFF) (List.replicate 50 0xFF ++ zeros 7 ++ [1]) (zeros 8)

/-- The root: modulus 256^128 and exponent 1. -/
def Spec.plainRoot : RootCert := { keyId := Tacho.decimal (beNat (zeros 8)), modulus := 1 :: zeros 128, exponent := [1] }

/-- A card whose certificate that authority has signed. -/
def Spec.plainCard : DriverCard := { tachograph := some { cardCertificate := some { raw := plainCert (zeros 106) (zeros 58) (zeros 8) } } }

omit [Crypto] in
theorem message_lt (cr y : Bytes) (h1 : cr.length = 106) (h2 : y.length = 20) : beNat ([0x6A] ++ cr ++ y ++ [0xBC]) < 256 ^ 128 - 1 := by
  have e : beNat ([0x6A] ++ cr ++ y ++ [0xBC]) = 106 * 256 ^ 127 + beNat (cr ++ y ++ [0xBC]) := by
    rw [show ([0x6A] ++ cr ++ y ++ [0xBC] : Bytes) = 0x6A :: (cr ++ y ++ [0xBC]) by simp, beNat_cons]
    rw [show (cr ++ y ++ [0xBC] : Bytes).length = 127 by simp [h1, h2]]
    rfl
  have hl := beNat_lt (cr ++ y ++ [0xBC])
  rw [show (cr ++ y ++ [0xBC] : Bytes).length = 127 by simp [h1, h2]] at hl
  rw [e]
  omega

/-- What the root fills in. -/
theorem authority_writes : rootWrites authorityCert (some plainRoot) =
    ([.valid true, .chr (decimal (beNat (zeros 8))), .car (decimal (beNat (zeros 8))), .endOfValidity ⟨0, 0⟩,
      .modulus (List.replicate 128 0xFF), .exponent (zeros 7 ++ [1])], .ok ()) := by
  have h := rsaWrites_plain (zeros 28 ++ List.replicate 78 0xFF) (List.replicate 50 0xFF ++ zeros 7 ++ [1]) (zeros 8) (1 :: zeros 128) [1]
    (by decide +kernel) (by decide +kernel) (by decide +kernel) (by simp) (by simp) rfl
    (Nat.lt_of_lt_of_le (message_lt _ _ (by decide +kernel) (Crypto.sha1_length _)) (by rw [show beNat (1 :: zeros 128) = 256 ^ 128 by decide +kernel]; omega))
  have e : ∀ lo hi x, sl ((zeros 28 ++ List.replicate 78 0xFF) ++ (List.replicate 50 0xFF ++ zeros 7 ++ [1])) lo hi = x →
      sl ((zeros 28 ++ List.replicate 78 0xFF) ++ (List.replicate 50 0xFF ++ zeros 7 ++ [1])) lo hi = x := fun _ _ _ h => h
  rw [e 20 28 (zeros 8) (by decide +kernel), e 1 9 (zeros 8) (by decide +kernel), e 16 20 (zeros 4) (by decide +kernel),
    e 28 156 (List.replicate 128 0xFF) (by decide +kernel), e 156 164 (zeros 7 ++ [1]) (by decide +kernel),
    show beNat (zeros 4) = 0 by decide +kernel] at h
  unfold rootWrites authorityCert plainRoot
  exact h

/-- The card is accepted with that key. -/
theorem plainCard_accepted : (verifyRsaCore { raw := plainCert (zeros 106) (zeros 58) (zeros 8) } (List.replicate 128 0xFF) (zeros 7 ++ [1])
    (decimal (beNat (zeros 8)))).2 = .ok () := by
  have h := rsaWrites_plain (zeros 106) (zeros 58) (zeros 8) (List.replicate 128 0xFF) (zeros 7 ++ [1])
    (by decide +kernel) (by decide +kernel) (by decide +kernel) (by decide +kernel) (by decide +kernel) (by decide +kernel)
    (Nat.lt_of_lt_of_le (message_lt _ _ (by decide +kernel) (Crypto.sha1_length _)) (by rw [show beNat (List.replicate 128 0xFF) = 256 ^ 128 - 1 by decide +kernel]; exact Nat.le_refl _))
  rw [← (rsaWrites_core { raw := plainCert (zeros 106) (zeros 58) (zeros 8) } _ _ _).2]
  show (rsaWrites (plainCert (zeros 106) (zeros 58) (zeros 8)) _ _ _).2 = _
  rw [h]

/-- A resolver that knows the root and one authority, under every name. -/
def Spec.plainResolver : KeptResolver := ⟨.ok (some plainRoot), fun _ => .ok (some 0), fun _ => .err ""⟩

theorem plain_alone (exponent : Bytes) : (alone plainResolver (fun _ => { raw := authorityCert, exponent := exponent }) plainCard).2 = .ok () := by
  have hn : ¬ HasKey { raw := authorityCert, exponent := exponent } := fun h => h.1 rfl
  have hw : cellWrites plainResolver.root { raw := authorityCert, exponent := exponent } = rootWrites authorityCert (some plainRoot) := by
    unfold cellWrites plainResolver
    dsimp only
    rw [if_pos (.inl rfl)]
  have ha := authority_noKey plainResolver (fun _ => { raw := authorityCert, exponent := exponent }) [] 0 rfl hn
  rw [hw, authority_writes] at ha
  rw [alone_eq plainResolver _ plainCard _ _ rfl rfl _ ha]
  unfold aloneAfter
  dsimp only [verifyRsaWithCA, cellEnd]
  rw [hw, authority_writes]
  rw [show plainResolver.root = .ok (some plainRoot) from rfl]
  dsimp only [List.foldl, CertWrite.on]
  rw [plainCard_accepted]
  rfl

/-- C83: if the writes become visible in another order, two verifications at the same time can refuse a card that each of
them alone accepts: one finds the key of the authority in place before its name. -/
theorem reordered_writes : ∃ (r : KeptResolver) (c : DriverCard) (h0 : CertCells), (∀ a, NoHalfKey (h0 a)) ∧ (alone r h0 c).2 = .ok () ∧
    ∃ schedule c', Returned ((Verifiers.start [c, c] h0).runWith List.reverse r schedule) 1 c' (.err "CAR mismatch") := by
  refine ⟨plainResolver, plainCard, fun _ => { raw := authorityCert }, fun _ => .inr rfl, plain_alone [], [0, 0, 0, 0, 0, 1, 1, 1, 1, 1, 1], ?_⟩
  have hrun : ((Verifiers.start [plainCard, plainCard] fun _ => { raw := authorityCert }).runWith List.reverse plainResolver
      [0, 0, 0, 0, 0, 1, 1, 1, 1, 1, 1]).threads[1]? = some (plainCard, finishGen1 plainResolver plainCard (List.replicate 128 0xFF) (zeros 7 ++ [1]) []) := by
    simp [Verifiers.runWith, Verifiers.stepWith, Verifiers.start, Phase.stepWith, beginCard, plainResolver, plainCard, authority_writes, CertCells.set,
      CertWrite.on]
  have hv : verifyRsaCore { raw := plainCert (zeros 106) (zeros 58) (zeros 8) } (List.replicate 128 0xFF) (zeros 7 ++ [1]) [] =
      ({ raw := plainCert (zeros 106) (zeros 58) (zeros 8) }, .err "CAR mismatch") := by
    unfold verifyRsaCore
    have e1 : (plainCert (zeros 106) (zeros 58) (zeros 8)).length = 194 := by simp [plainCert, Crypto.sha1_length, zeros_length]
    have e2 : ∀ n, Tacho.decimal n ≠ [] := by
      intro n h
      exact decimal_ne_nil n h
    dsimp only
    rw [if_neg (by rw [e1]; simp), if_neg (by decide +kernel), if_pos (e2 _)]
  refine ⟨plainCard, plainCard, ?_⟩
  rw [hrun]
  unfold finishGen1 plainCard
  dsimp only
  rw [hv]
  rfl

/-- C83: the condition on half keys is needed: if a kept certificate has an exponent and no modulus, a verification can
take the modulus another one has just written together with the old exponent, and refuse a card that it accepts
alone. -/
theorem half_key : ∃ (r : KeptResolver) (c : DriverCard) (h0 : CertCells), ¬ NoHalfKey (h0 0) ∧ (alone r h0 c).2 = .ok () ∧
    ∃ schedule c', Returned (Verifiers.run r [c, c] h0 schedule) 1 c' (.err "invalid recovered message header") := by
  refine ⟨plainResolver, plainCard, fun _ => { raw := authorityCert, exponent := [0] }, ?_, plain_alone [0],
    [0, 0, 0, 0, 0, 0, 0, 0, 1, 1, 1, 1, 1, 1], ?_⟩
  · rintro (h | h)
    · exact h.1 rfl
    · cases h
  have hrun : (Verifiers.run plainResolver [plainCard, plainCard] (fun _ => { raw := authorityCert, exponent := [0] })
      [0, 0, 0, 0, 0, 0, 0, 0, 1, 1, 1, 1, 1, 1]).threads[1]? =
      some (plainCard, finishGen1 plainResolver plainCard (List.replicate 128 0xFF) [0] (decimal (beNat (zeros 8)))) := by
    simp [Verifiers.run, Verifiers.runWith, Verifiers.stepWith, Verifiers.start, Phase.stepWith, beginCard, plainResolver, plainCard, authority_writes,
      CertCells.set, CertWrite.on]
  have hv : verifyRsaCore { raw := plainCert (zeros 106) (zeros 58) (zeros 8) } (List.replicate 128 0xFF) [0] (decimal (beNat (zeros 8))) =
      ({ raw := plainCert (zeros 106) (zeros 58) (zeros 8) }, .err "invalid recovered message header") := by
    unfold verifyRsaCore
    have e1 : (plainCert (zeros 106) (zeros 58) (zeros 8)).length = 194 := by simp [plainCert, Crypto.sha1_length, zeros_length]
    have e3 : sl (plainCert (zeros 106) (zeros 58) (zeros 8)) 186 194 = zeros 8 :=
      sl_middle ([0x6A] ++ zeros 106 ++ Crypto.sha1 (zeros 106 ++ zeros 58) ++ [0xBC] ++ zeros 58) (zeros 8) [] (by simp [plainCert])
        (by simp [Crypto.sha1_length, zeros_length]) (by simp [zeros_length])
    have e4 : ∀ x, expMod x (beNat [0]) (beNat (List.replicate 128 0xFF)) = 1 := by
      intro x
      unfold expMod
      rw [show beNat [0] = 0 from rfl, Nat.pow_zero, show beNat (List.replicate 128 0xFF) = 256 ^ 128 - 1 by decide +kernel]
      rfl
    dsimp only
    rw [e3, e4, if_neg (by rw [e1]; simp), if_neg (by decide +kernel), if_neg (by simp), if_pos (by decide +kernel)]
    unfold rsaRecovered
    rw [if_pos (by decide +kernel)]
  refine ⟨plainCard, plainCard, ?_⟩
  rw [hrun]
  unfold finishGen1 plainCard
  dsimp only
  rw [hv]
  rfl

/-- Two verifications at the same time that both find the certificate without a key, check it with the root and fill it
in, taking turns; both accept their card. -/
example : ∃ (r : KeptResolver) (c : DriverCard) (h0 : CertCells) (schedule : List Nat), (∀ a, NoHalfKey (h0 a)) ∧ ¬ HasKey (h0 0) ∧
    HasKey ((Verifiers.run r [c, c] h0 schedule).cells 0) ∧ ∀ i, i < 2 → ∃ c', Returned (Verifiers.run r [c, c] h0 schedule) i c' (.ok ()) := by
  have hN : ∀ a : Nat, NoHalfKey ((fun _ => { raw := authorityCert } : CertCells) a) := fun _ => .inr rfl
  have hc : ∀ i, i < 2 → ([plainCard, plainCard] : List DriverCard)[i]? = some plainCard := by
    intro i hi
    rcases i with _ | _ | i
    · rfl
    · rfl
    · omega
  refine ⟨plainResolver, plainCard, fun _ => { raw := authorityCert }, (List.replicate 14 [0, 1]).flatten, hN, fun h => h.1 rfl, ?_, ?_⟩
  · have : (Verifiers.run plainResolver [plainCard, plainCard] (fun _ => { raw := authorityCert }) (List.replicate 14 [0, 1]).flatten).cells 0 =
        (rootWrites authorityCert (some plainRoot)).1.foldl CertWrite.on { raw := authorityCert } := by
      have h1 : beginCard plainResolver plainCard = .checkModulus 0 := rfl
      have h2 : plainResolver.root = .ok (some plainRoot) := rfl
      obtain ⟨c', res, h3⟩ : ∃ c' res, finishGen1 plainResolver plainCard (List.replicate 128 0xFF) (zeros 7 ++ [1]) (decimal (beNat (zeros 8))) =
          .done c' res := by
        unfold finishGen1 plainCard finishCard
        dsimp only
        rw [plainCard_accepted]
        exact ⟨_, _, rfl⟩
      rw [authority_writes]
      rw [show (List.replicate 14 [0, 1]).flatten = [0, 1, 0, 1, 0, 1, 0, 1, 0, 1, 0, 1, 0, 1, 0, 1, 0, 1, 0, 1, 0, 1, 0, 1, 0, 1, 0, 1] from rfl]
      simp [-List.reduceReplicate, Verifiers.run, Verifiers.runWith, Verifiers.stepWith, Verifiers.start, Phase.stepWith, h1, h2, h3, authority_writes,
        CertCells.set, CertWrite.on]
    rw [this, authority_writes]
    exact ⟨fun h => absurd (congrArg List.length h) (by simp [CertWrite.on]), fun h => absurd (congrArg List.length h) (by simp [CertWrite.on, zeros_length])⟩
  · intro i hi
    obtain ⟨c', res, hr⟩ := concurrent_returns plainResolver [plainCard, plainCard] (fun _ => { raw := authorityCert })
      (List.replicate 14 [0, 1]).flatten i plainCard (hc i hi) (by rcases i with _ | _ | i; decide; decide; omega)
    have e := concurrent_same plainResolver [plainCard, plainCard] _ hN _ i plainCard c' res (hc i hi) hr
    have : res = .ok () := (congrArg Prod.snd e).trans (plain_alone [])
    rw [this] at hr
    exact ⟨c', hr⟩

end
end Tacho
