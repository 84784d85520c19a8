import Verif.Spec.VuGen1
import Verif.Props.CardTotal
import Verif.Props.RecordFields
import Verif.Props.VuRaw
/-!
# Gen1 overview and activities (C41, C42)
-/

namespace Tacho
open Spec

section loops
variable [Charmap]

omit [Charmap] in
theorem loopAt_ok_iff {α : Type} {f : Nat → Res α} {size n off : Nat} {rs : List α} :
    loopAt f size n off = .ok rs ↔ rs.length = n ∧ ∀ i (hi : i < rs.length), f (off + i * size) = .ok rs[i] := by
  induction n generalizing off rs with
  | zero =>
    simp only [loopAt, Res.ok.injEq, List.length_eq_zero_iff]
    constructor
    · rintro rfl; exact ⟨rfl, fun i hi => by simp at hi⟩
    · rintro ⟨rfl, -⟩; rfl
  | succ n ih =>
    simp only [loopAt, bind_eq_ok, Res.pure_eq, Res.ok.injEq, ih]
    constructor
    · rintro ⟨r, hr, rs', ⟨hl, h⟩, rfl⟩
      refine ⟨by simp [hl], fun i hi => ?_⟩
      cases i with
      | zero => simpa using hr
      | succ i =>
        have := h i (by simpa using hi)
        rw [List.getElem_cons_succ, ← this]
        congr 1
        rw [Nat.succ_mul]; omega
    · rintro ⟨hl, h⟩
      cases rs with
      | nil => simp at hl
      | cons r rs =>
        refine ⟨r, by have := h 0 (by simp); rwa [Nat.zero_mul, Nat.add_zero] at this, rs, ⟨by simpa using hl, fun i hi => ?_⟩, rfl⟩
        have := h (i + 1) (by simpa using hi)
        rw [List.getElem_cons_succ] at this
        rw [← this]
        congr 1
        rw [Nat.succ_mul]; omega

omit [Charmap] in
theorem loopAt_ne_panic {α : Type} {f : Nat → Res α} {size n off : Nat}
    (h : ∀ i, i < n → f (off + i * size) ≠ .panic) : loopAt f size n off ≠ .panic := by
  induction n generalizing off with
  | zero => simp [loopAt]
  | succ n ih =>
    refine np_call (by simpa using h 0 (by omega)) fun _ => np_call (ih fun i hi => ?_) fun _ => np_pure
    have := h (i + 1) (by omega)
    rw [Nat.succ_mul] at this
    rwa [Nat.add_assoc, Nat.add_comm size]

omit [Charmap] in
theorem record_eq_sl {h n i : Nat} {v : Bytes} : record h n i v = sl v (h + i * n) (h + i * n + n) := by
  rw [record, sl, List.take_drop]

omit [Charmap] in
/-- A loop over records is a list of meanings, when each step is. -/
theorem loopAt_lists {α : Type} {f : Nat → Res α} {size n off : Nat} {v : Bytes} {rs : List α}
    {Is : Bytes → α → Prop} (h : ∀ i r, i < n → (f (off + i * size) = .ok r ↔ Is (record off size i v) r)) :
    loopAt f size n off = .ok rs ↔ Lists Is off size n v rs := by
  rw [loopAt_ok_iff, Lists]
  constructor
  · rintro ⟨hl, h'⟩
    exact ⟨hl, fun i hi => (h i _ (by omega)).1 (h' i hi)⟩
  · rintro ⟨hl, h'⟩
    exact ⟨hl, fun i hi => (h i _ (by omega)).2 (h' i hi)⟩

omit [Charmap] in
/-- There is a list of meanings exactly when every record has one. -/
theorem lists_exists {α : Type} {Is : Bytes → α → Prop} {off size n : Nat} {v : Bytes} :
    (∃ xs, Lists Is off size n v xs) ↔ ∀ i, i < n → ∃ x, Is (record off size i v) x := by
  constructor
  · rintro ⟨xs, hl, h⟩ i hi
    exact ⟨_, h i (by omega)⟩
  · intro h
    induction n with
    | zero => exact ⟨[], rfl, fun i hi => by simp at hi⟩
    | succ n ih =>
      obtain ⟨xs, hl, hx⟩ := ih fun i hi => h i (by omega)
      obtain ⟨x, hx'⟩ := h n (by omega)
      refine ⟨xs ++ [x], by simp [hl], fun i hi => ?_⟩
      by_cases hi' : i < xs.length
      · rw [List.getElem_append_left hi']; exact hx i hi'
      · have : i = n := by simp at hi; omega
        subst this
        rw [List.getElem_append_right (by omega)]
        simpa [hl] using hx'

omit [Charmap] in
theorem timeReal_iff {d : Bytes} (h : d.length = 4) (t : Option Timestamp) :
    unmarshalTimeReal d = .ok t ↔ t = instant d := by
  rw [timeReal_value d h, Res.ok.injEq]
  exact eq_comm

omit [Charmap] in
theorem ex_some {α : Type} {P : α → Prop} {o : Option α} : (∃ x, o = some x ∧ P x) ↔ ∃ x, P x ∧ o = some x := by
  constructor <;> rintro ⟨x, a, b⟩ <;> exact ⟨x, b, a⟩

end loops

/-! ## C41 -/

section overview
variable [Charmap]

theorem companyLockAt_iff {v : Bytes} {off : Nat} (h : off + 98 ≤ v.length) (l : CompanyLock) :
    companyLockAt v off = .ok l ↔ LockIs (sl v off (off + 98)) l := by
  obtain ⟨a, b, c, d, e⟩ := l
  simp only [companyLockAt, bind_eq_ok, Res.pure_eq, Res.ok.injEq, sl?_iff, LockIs, CompanyLock.mk.injEq]
  rw [sl_sl (by omega), sl_sl (by omega), sl_sl (by omega), sl_sl (by omega), sl_sl (by omega)]
  constructor
  · rintro ⟨_, ⟨_, _, rfl⟩, t1, h1, _, ⟨_, _, rfl⟩, t2, h2, _, ⟨_, _, rfl⟩, n1, h3, _, ⟨_, _, rfl⟩, n2, h4,
      _, ⟨_, _, rfl⟩, c, h5, rfl, rfl, rfl, rfl, rfl⟩
    exact ⟨(timeReal_instant h1), (timeReal_instant h2), ⟨n1, rfl, h3⟩, ⟨n2, rfl, h4⟩, ⟨c, rfl, h5⟩⟩
  · rintro ⟨rfl, rfl, ⟨n1, rfl, h3⟩, ⟨n2, rfl, h4⟩, ⟨c, rfl, h5⟩⟩
    exact ⟨_, ⟨by omega, by omega, rfl⟩, _, (timeReal_iff (by simp; omega) _).2 rfl,
      _, ⟨by omega, by omega, rfl⟩, _, (timeReal_iff (by simp; omega) _).2 rfl,
      _, ⟨by omega, by omega, rfl⟩, n1, h3, _, ⟨by omega, by omega, rfl⟩, n2, h4,
      _, ⟨by omega, by omega, rfl⟩, c, h5, rfl, rfl, rfl, rfl, rfl⟩

omit [Charmap] in
theorem controlActivityAt_iff {v : Bytes} {off : Nat} (h : off + 31 ≤ v.length) (c : VuControlActivity) :
    controlActivityAt v off = .ok c ↔ ControlIs (sl v off (off + 31)) c := by
  obtain ⟨a, b, c, d, e⟩ := c
  simp only [controlActivityAt, bind_eq_ok, Res.pure_eq, Res.ok.injEq, sl?_iff, ControlIs, VuControlActivity.mk.injEq]
  rw [sl_sl (by omega), sl_sl (by omega), sl_sl (by omega), sl_sl (by omega), sl_sl (by omega)]
  constructor
  · rintro ⟨_, ⟨_, _, rfl⟩, t1, h1, _, ⟨_, _, rfl⟩, t2, h2, _, ⟨_, _, rfl⟩, n1, h3, _, ⟨_, _, rfl⟩, n2, h4,
      _, ⟨_, _, rfl⟩, c, h5, rfl, rfl, rfl, rfl, rfl⟩
    exact ⟨⟨t1, rfl, h1⟩, timeReal_instant h2, ⟨n1, rfl, h3⟩, timeReal_instant h4, timeReal_instant h5⟩
  · rintro ⟨⟨t1, rfl, h1⟩, rfl, ⟨n1, rfl, h3⟩, rfl, rfl⟩
    exact ⟨_, ⟨by omega, by omega, rfl⟩, t1, h1,
      _, ⟨by omega, by omega, rfl⟩, _, (timeReal_iff (by simp; omega) _).2 rfl,
      _, ⟨by omega, by omega, rfl⟩, n1, h3,
      _, ⟨by omega, by omega, rfl⟩, _, (timeReal_iff (by simp; omega) _).2 rfl,
      _, ⟨by omega, by omega, rfl⟩, _, (timeReal_iff (by simp; omega) _).2 rfl, rfl, rfl, rfl, rfl, rfl⟩

/-- C41: a Gen1 overview is accepted exactly when its two counts account for every byte and its
fields can be decoded; every field of the message is then the meaning of the bytes at its place. -/
theorem overview_iff (v : Bytes) (m : OverviewGen1) :
    unmarshalOverviewGen1 v = .ok m ↔ ∃ n k, OverviewShape v n k ∧ OverviewIs v n k m := by
  simp only [unmarshalOverviewGen1, bind_eq_ok, guard_eq_ok, Res.pure_eq, Res.ok.injEq, sl?_iff, at?_iff]
  constructor
  · rintro ⟨-, _, ⟨-, -, rfl⟩, -, _, ⟨-, -, rfl⟩, -, _, ⟨-, -, rfl⟩, vin, hvin, -, _, ⟨-, -, rfl⟩, vrn, hvrn, -,
      _, ⟨-, -, rfl⟩, t1, h1, -, _, ⟨-, -, rfl⟩, t2, h2, _, ⟨-, -, rfl⟩, t3, h3, -, slots, ⟨-, hslots⟩, -,
      _, ⟨-, -, rfl⟩, t4, h4, _, ⟨-, -, rfl⟩, dc, hdc, _, ⟨-, -, rfl⟩, dn, hdn, -, nl, ⟨-, hnl⟩, hfit, locks, hlocks,
      -, nc, ⟨-, hnc⟩, hfit2, controls, hcontrols, hsig, _, ⟨-, -, rfl⟩, hlen, rfl⟩
    refine ⟨nl.toNat, nc.toNat, ⟨(byteAt_of_sl hnl).2 rfl, (byteAt_of_sl hnc).2 rfl, by omega⟩, rfl, rfl, rfl,
      ⟨vin, rfl, hvin⟩, ⟨vrn, rfl, hvrn⟩, timeReal_instant h1, ?_, (byteAt_of_sl hslots).2 ⟨rfl, rfl⟩,
      ⟨dc, dn, hdc, hdn, by rw [timeReal_instant h4]⟩, ?_, ?_, ?_⟩
    · rw [timeReal_instant h2, timeReal_instant h3]
    · refine (loopAt_lists (fun i r hi => ?_)).1 hlocks
      rw [record_eq_sl, companyLockAt_iff (by omega)]
    · refine (loopAt_lists (fun i r hi => ?_)).1 hcontrols
      rw [record_eq_sl, controlActivityAt_iff (by omega)]
    · dsimp only; congr 1; omega
  · rintro ⟨n, k, ⟨⟨nl, hnl, rfl⟩, ⟨nc, hnc, rfl⟩, hlen⟩, hraw, hms, hvu, ⟨vin, hv, hvin⟩, ⟨vrn, hr, hvrn⟩, h1, h2,
      ⟨slots, hslots, hd, hcd⟩, ⟨dc, dn, hdc, hdn, h4⟩, hlocks, hcontrols, hsig⟩
    have byte : ∀ {i : Nat} {b : UInt8}, v[i]? = some b → i < v.length ∧ sl v i (i + 1) = [b] := by
      intro i b h
      exact at?_iff.1 (by unfold at?; rw [h])
    refine ⟨by omega, _, ⟨by omega, by omega, rfl⟩, by omega, _, ⟨by omega, by omega, rfl⟩, by omega,
      _, ⟨by omega, by omega, rfl⟩, vin, hvin, by omega, _, ⟨by omega, by omega, rfl⟩, vrn, hvrn, by omega,
      _, ⟨by omega, by omega, rfl⟩, _, (timeReal_iff (by simp; omega) _).2 rfl, by omega,
      _, ⟨by omega, by omega, rfl⟩, _, (timeReal_iff (by simp; omega) _).2 rfl,
      _, ⟨by omega, by omega, rfl⟩, _, (timeReal_iff (by simp; omega) _).2 rfl, by omega,
      slots, byte hslots, by omega, _, ⟨by omega, by omega, rfl⟩, _, (timeReal_iff (by simp; omega) _).2 rfl,
      _, ⟨by omega, by omega, rfl⟩, dc, hdc, _, ⟨by omega, by omega, rfl⟩, dn, hdn, by omega, nl, byte hnl, by omega,
      m.companyLocks, (loopAt_lists (fun i r hi => ?_)).2 hlocks, by omega, nc, byte hnc, by omega,
      m.controlActivities, (loopAt_lists (fun i r hi => ?_)).2 hcontrols, by omega, _, ⟨by omega, by omega, rfl⟩,
      by omega, ?_⟩
    · rw [record_eq_sl, companyLockAt_iff (by omega)]
    · rw [record_eq_sl, controlActivityAt_iff (by omega)]
    · obtain ⟨⟩ := m
      simp only at hraw hms hvu hv hr h1 h2 hd hcd h4 hsig
      subst hraw hms hvu hv hr h1 h2 hd hcd h4 hsig
      simp only [OverviewGen1.mk.injEq, true_and, and_true]
      congr 1; omega

/-- A card number is accepted only for the card types 1, 2 and 4. -/
def Spec.CardNumberAt (v : Bytes) (off : Nat) : Prop := ByteAt v off (fun b => b = 1 ∨ OwnerCard b)

omit [Charmap] in
theorem cardNumber_slice {v : Bytes} {a : Nat} (h : a + 18 ≤ v.length) :
    (∃ x, unmarshalFullCardNumber (sl v a (a + 18)) = .ok x) ↔ CardNumberAt v a := by
  rw [fullCardNumber_accepts_iff, CardNumberAt, byteAt_sl (by omega)]
  simp only [Nat.add_zero, and_iff_right_iff_imp]
  intro _; simp; omega

theorem lock_exists {b : Bytes} (h : b.length = 98) : (∃ l, LockIs b l) ↔ CardNumberAt b 80 := by
  rw [← cardNumber_slice (by omega)]
  constructor
  · rintro ⟨l, -, -, -, -, x, -, hx⟩; exact ⟨x, hx⟩
  · rintro ⟨x, hx⟩
    obtain ⟨n1, h1⟩ := (stringValue_accepts_iff (sl b 8 44)).2 (by simp; omega)
    obtain ⟨n2, h2⟩ := (stringValue_accepts_iff (sl b 44 80)).2 (by simp; omega)
    exact ⟨⟨_, _, some n1, some n2, some x⟩, rfl, rfl, ⟨n1, rfl, h1⟩, ⟨n2, rfl, h2⟩, ⟨x, rfl, hx⟩⟩

omit [Charmap] in
theorem controlType_ok {d : Bytes} (h : d.length = 1) : ∃ x, unmarshalControlType d = .ok x := by
  match d, h with
  | [b], _ => exact ⟨_, rfl⟩

omit [Charmap] in
theorem control_exists {b : Bytes} (h : b.length = 31) : (∃ c, ControlIs b c) ↔ CardNumberAt b 5 := by
  rw [← cardNumber_slice (by omega)]
  constructor
  · rintro ⟨l, -, -, ⟨x, -, hx⟩, -⟩; exact ⟨x, hx⟩
  · rintro ⟨x, hx⟩
    obtain ⟨t, ht⟩ := controlType_ok (d := sl b 0 1) (by simp; omega)
    exact ⟨⟨some t, _, some x, _, _⟩, ⟨t, rfl, ht⟩, rfl, ⟨x, rfl, hx⟩, rfl, rfl⟩

omit [Charmap] in
theorem cardNumberAt_record {v : Bytes} {h n i off : Nat} (hn : off < n) :
    CardNumberAt (record h n i v) off ↔ CardNumberAt v (h + i * n + off) := by
  rw [record_eq_sl, CardNumberAt, byteAt_sl (by omega), CardNumberAt]

/-- C41: the values accepted as overviews, byte for byte: right length, and the card numbers of the
download activity, of every lock and of every control belong to a driver, workshop or company card. -/
theorem overview_accepts_iff (v : Bytes) : (∃ m, unmarshalOverviewGen1 v = .ok m) ↔
    ∃ n k, OverviewShape v n k ∧ CardNumberAt v 437
      ∧ (∀ i, i < n → CardNumberAt v (492 + i * 98 + 80))
      ∧ (∀ i, i < k → CardNumberAt v (492 + n * 98 + 1 + i * 31 + 5)) := by
  simp only [overview_iff]
  constructor
  · rintro ⟨m, n, k, hs, -, -, -, -, -, -, -, -, ⟨dc, dn, hdc, -, -⟩, hl, hc, -⟩
    have hlen := hs.2.2
    refine ⟨n, k, hs, (cardNumber_slice (by omega)).1 ⟨dc, hdc⟩, fun i hi => ?_, fun i hi => ?_⟩
    · rw [← cardNumberAt_record (by omega), ← lock_exists (by rw [record_eq_sl]; exact (sl_length_of (by omega)).trans (by omega))]
      exact lists_exists.1 ⟨_, hl⟩ i hi
    · rw [← cardNumberAt_record (by omega), ← control_exists (by rw [record_eq_sl]; exact (sl_length_of (by omega)).trans (by omega))]
      exact lists_exists.1 ⟨_, hc⟩ i hi
  · rintro ⟨n, k, hs, h1, hl, hc⟩
    have hlen := hs.2.2
    obtain ⟨dc, hdc⟩ := (cardNumber_slice (v := v) (a := 437) (by omega)).2 h1
    obtain ⟨dn, hdn⟩ := (stringValue_accepts_iff (sl v 455 491)).2 (by simp; omega)
    obtain ⟨vin, hvin⟩ := (ia5_accepts_iff (sl v 388 405)).2 (by
      intro h; have := congrArg List.length h; simp at this; omega)
    obtain ⟨vrn, hvrn⟩ := (registration_accepts_iff (sl v 405 420)).2 (by simp; omega)
    obtain ⟨locks, hlocks⟩ := lists_exists.2 fun i (hi : i < n) => (lock_exists (b := record 492 98 i v) (by
      rw [record_eq_sl]; exact (sl_length_of (by omega)).trans (by omega))).2 ((cardNumberAt_record (by omega)).2 (hl i hi))
    obtain ⟨controls, hcontrols⟩ := lists_exists.2 fun i (hi : i < k) =>
      (control_exists (b := record (492 + n * 98 + 1) 31 i v) (by
      rw [record_eq_sl]; exact (sl_length_of (by omega)).trans (by omega))).2 ((cardNumberAt_record (by omega)).2 (hc i hi))
    refine ⟨⟨v, _, _, some vin, some vrn, _, some ⟨_, _⟩, _, _, [⟨_, some dc, some dn⟩], locks, controls, _⟩,
      n, k, hs, rfl, rfl, rfl, ⟨vin, rfl, hvin⟩, ⟨vrn, rfl, hvrn⟩, rfl, rfl,
      ⟨v[432], List.getElem?_eq_getElem (by omega), rfl, rfl⟩, ⟨dc, dn, hdc, hdn, rfl⟩, hlocks, hcontrols, rfl⟩

omit [Charmap] in
/-- Two shapes of the same value are the same. -/
theorem overview_shape_unique {v : Bytes} {n k n' k' : Nat} (h : OverviewShape v n k) (h' : OverviewShape v n' k') :
    n = n' ∧ k = k' := by
  obtain ⟨⟨b, hb, rfl⟩, hk, hl⟩ := h
  obtain ⟨⟨b', hb', rfl⟩, hk', hl'⟩ := h'
  rw [hb] at hb'
  cases hb'
  exact ⟨rfl, by omega⟩

omit [Charmap] in
theorem byteAt_beBytes {pre post : Bytes} {c i : Nat} (hc : c < 256) (hi : pre.length = i) :
    ByteAt (pre ++ (beBytes 1 c ++ post)) i (·.toNat = c) := by
  refine ⟨UInt8.ofNat c, ?_, by simp; omega⟩
  rw [List.getElem?_append_right (by omega), hi, Nat.sub_self]
  simp [beBytes, Nat.mod_eq_of_lt hc]

omit [Charmap] in
/-- C41: the slicing pass and the parser agree on what the length of an overview is. -/
theorem overview_conforms_iff (v : Bytes) :
    Conforms .overviewGen1 v ↔ ∃ n k, OverviewShape v n k := by
  rw [conforms_iff _ (by simp)]
  simp only [layout, Fills, Piece.Fills]
  constructor
  · rintro ⟨a, _, rfl, ha, _, _, rfl, ⟨n, r1, hn, rfl, hr1⟩, _, _, rfl, ⟨k, r2, hk, rfl, hr2⟩, s, _, rfl, hs, rfl⟩
    refine ⟨n, k, ?_, ?_, ?_⟩
    · rw [List.append_assoc (beBytes 1 n)]
      exact byteAt_beBytes (by omega) ha
    · rw [List.append_assoc (beBytes 1 k), ← List.append_assoc a]
      exact byteAt_beBytes (by omega) (by simp [ha, hr1]; omega)
    · simp [ha, hr1, hr2, hs]; omega
  · rintro ⟨n, k, ⟨b, hb, rfl⟩, ⟨c, hc, rfl⟩, hl⟩
    have one : ∀ {i : Nat} {b : UInt8}, v[i]? = some b → sl v i (i + 1) = beBytes 1 b.toNat := by
      intro i b h
      rw [(at?_iff.1 (by unfold at?; rw [h] : at? v i = .ok b)).2]
      simp [beBytes]
    refine ⟨sl v 0 491, sl v 491 v.length, ?_, sl_length_of (by omega),
      sl v 491 (492 + b.toNat * 98), sl v (492 + b.toNat * 98) v.length, ?_,
      ⟨b.toNat, sl v 492 (492 + b.toNat * 98), byte_lt b, ?_, ?_⟩,
      sl v (492 + b.toNat * 98) (492 + b.toNat * 98 + 1 + c.toNat * 31), sl v (492 + b.toNat * 98 + 1 + c.toNat * 31) v.length, ?_,
      ⟨c.toNat, sl v (492 + b.toNat * 98 + 1) (492 + b.toNat * 98 + 1 + c.toNat * 31), byte_lt c, ?_, ?_⟩,
      sl v (492 + b.toNat * 98 + 1 + c.toNat * 31) v.length, [], by simp, ?_, rfl⟩
    · rw [sl_append (by omega) (by omega), sl_full' rfl]
    · rw [sl_append (by omega) (by omega)]
    · rw [← one hb, sl_append (by omega) (by omega)]
    · exact (sl_length_of (by omega)).trans (by omega)
    · rw [sl_append (by omega) (by omega)]
    · rw [← one hc, sl_append (by omega) (by omega)]
    · exact (sl_length_of (by omega)).trans (by omega)
    · exact (sl_length_of (by omega)).trans (by omega)

/-- The overview parser never panics, whatever the bytes. -/
theorem overview_total (v : Bytes) : unmarshalOverviewGen1 v ≠ .panic := by
  unfold unmarshalOverviewGen1
  no_panic
  refine np_call (loopAt_ne_panic fun i hi => ?_) fun _ => ?_
  · unfold companyLockAt; no_panic
  · no_panic
    refine np_call (loopAt_ne_panic fun i hi => ?_) fun _ => ?_
    · unfold controlActivityAt; no_panic
    · no_panic

/-- A control performed with a control card (type 3), as the regulation has it, makes the whole
overview, and so the whole download, unreadable. -/
theorem overview_control_card_refused (v : Bytes) (n k i : Nat) (h : OverviewShape v n k) (hi : i < k)
    (h3 : v[492 + n * 98 + 1 + i * 31 + 5]? = some 3) (m : OverviewGen1) : unmarshalOverviewGen1 v ≠ .ok m := by
  intro hm
  obtain ⟨n', k', hs, -, -, hc⟩ := (overview_accepts_iff v).1 ⟨m, hm⟩
  obtain ⟨rfl, rfl⟩ := overview_shape_unique h hs
  obtain ⟨b, hb, hb'⟩ := hc i hi
  rw [h3] at hb
  cases hb
  exact absurd hb' (by unfold OwnerCard; decide)

/-- An overview with one company lock and one control, both by company card, and a download by a
driver card. -/
def Spec.sampleOverview : Bytes :=
  List.replicate 437 0x20 ++ [1] ++ List.replicate 53 0x20 ++ [1] ++ (List.replicate 80 0x20 ++ [4] ++ List.replicate 17 0x20)
    ++ [1] ++ (List.replicate 5 0 ++ [4] ++ List.replicate 25 0) ++ List.replicate 128 9

example : OverviewShape sampleOverview 1 1 ∧ ∃ m, unmarshalOverviewGen1 sampleOverview = .ok m := by
  have hs : OverviewShape sampleOverview 1 1 :=
    ⟨⟨1, by decide +kernel, rfl⟩, ⟨1, by decide +kernel, rfl⟩, by decide +kernel⟩
  refine ⟨hs, (overview_accepts_iff _).2 ⟨1, 1, hs, ⟨1, by decide +kernel, Or.inl rfl⟩, fun i hi => ?_, fun i hi => ?_⟩⟩
  · obtain rfl : i = 0 := by omega
    exact ⟨4, by decide +kernel, Or.inr (by unfold OwnerCard; decide)⟩
  · obtain rfl : i = 0 := by omega
    exact ⟨4, by decide +kernel, Or.inr (by unfold OwnerCard; decide)⟩

end overview

/-! ## C42 -/

section activities
variable [Charmap]

omit [Charmap] in
/-- In a table without repeated protocol values, an entry is what its value decodes to. -/
theorem unmarshalEnum_iff {t : EnumTable} (h : ∀ p ∈ t, ∀ q ∈ t, p.2 = q.2 → p.2 = none ∨ p.1 = q.1) (b : UInt8) (v : Int) :
    unmarshalEnum t b = .ok v ↔ (v, some b.toNat) ∈ t := by
  constructor
  · exact unmarshalEnum_ok
  · intro hv
    obtain ⟨w, hw⟩ := (enum_accepts_iff t b).2 ⟨v, hv⟩
    rcases h _ hv _ (unmarshalEnum_ok hw) rfl with h | h
    · cases h
    · dsimp only at h; rw [h, hw]

omit [Charmap] in
theorem entryType_table : ∀ p ∈ entryTypeDailyWorkPeriodTable, ∀ q ∈ entryTypeDailyWorkPeriodTable,
    p.2 = q.2 → p.2 = none ∨ p.1 = q.1 := by decide +kernel

omit [Charmap] in
theorem nation_table : ∀ p ∈ nationNumericTable, ∀ q ∈ nationNumericTable,
    p.2 = q.2 → p.2 = none ∨ p.1 = q.1 := by decide +kernel

theorem cardIWAt_iff {v : Bytes} {off : Nat} (h : off + 129 ≤ v.length) (x : VuCardIWRecord) :
    cardIWAt v off = .ok x ↔ unmarshalVuCardIWRecord (sl v off (off + 129)) = .ok x := by
  simp only [cardIWAt, guard_eq_ok]
  rw [sl?_ok (by omega) h]
  simp; omega

omit [Charmap] in
theorem activityChangeAt_iff {v : Bytes} {off : Nat} (h : off + 2 ≤ v.length) (x : ActivityChangeInfo) :
    activityChangeAt v off = .ok x ↔ unmarshalActivityChangeInfo (sl v off (off + 2)) = .ok x := by
  simp only [activityChangeAt, guard_eq_ok]
  rw [sl?_ok (by omega) h]
  simp; omega

omit [Charmap] in
theorem specificConditionAt_iff {v : Bytes} {off : Nat} (h : off + 5 ≤ v.length) (x : SpecificConditionRecord) :
    specificConditionAt v off = .ok x ↔ unmarshalSpecificConditionRecord (sl v off (off + 5)) = .ok x := by
  simp only [specificConditionAt, guard_eq_ok]
  rw [sl?_ok (by omega) h]
  simp; omega

omit [Charmap] in
theorem vuPlaceAt_iff {v : Bytes} {off : Nat} (h : off + 28 ≤ v.length) (x : VuPlaceRecord) :
    vuPlaceAt v off = .ok x ↔ PlaceIs (sl v off (off + 28)) x := by
  obtain ⟨a, b, c, d, e⟩ := x
  simp only [vuPlaceAt, bind_eq_ok, guard_eq_ok, Res.pure_eq, Res.ok.injEq, sl?_iff, PlaceIs, VuPlaceRecord.mk.injEq]
  rw [sl_sl (by omega), sl_sl (by omega), sl_sl (by omega), byteAt_sl (by omega), byteAt_sl (by omega)]
  simp only [unmarshalEnum_iff entryType_table, unmarshalEnum_iff nation_table]
  have byte : ∀ {i : Nat} {b : UInt8}, at? v i = .ok b ↔ v[i]? = some b := by
    intro i b
    unfold at?
    cases v[i]? <;> simp
  simp only [byte, ByteAt]
  constructor
  · rintro ⟨-, _, ⟨_, _, rfl⟩, t1, h1, b1, hb1, e1, he1, b2, hb2, e2, he2, _, ⟨_, _, rfl⟩, _, ⟨_, _, rfl⟩, o, ho,
      rfl, rfl, rfl, rfl, rfl⟩
    obtain ⟨_, rfl⟩ := (odometer_accepts_iff _ _).mp ho
    exact ⟨timeReal_instant h1, ⟨b1, hb1, he1⟩, ⟨b2, hb2, he2⟩, rfl, rfl⟩
  · rintro ⟨rfl, ⟨b1, hb1, he1⟩, ⟨b2, hb2, he2⟩, rfl, rfl⟩
    exact ⟨by omega, _, ⟨by omega, by omega, rfl⟩, _, (timeReal_iff (by simp; omega) _).2 rfl,
      b1, hb1, _, he1, b2, hb2, _, he2, _, ⟨by omega, by omega, rfl⟩, _, ⟨by omega, by omega, rfl⟩, _,
      (odometer_accepts_iff _ _).mpr ⟨by simp; omega, rfl⟩, rfl, rfl, rfl, rfl, rfl⟩

/-- C42: a Gen1 day of activities is accepted exactly when its four counts account for every byte and
its fields can be decoded; every field of the message is then the meaning of the bytes at its place, and
there are as many records of each kind as the counts say. -/
theorem activities_iff (v : Bytes) (m : ActivitiesGen1) :
    unmarshalActivitiesGen1 v = .ok m ↔ ∃ a b c d, ActivitiesShape v a b c d ∧ ActivitiesIs v a b c d m := by
  simp only [unmarshalActivitiesGen1, bind_eq_ok, guard_eq_ok, Res.pure_eq, Res.ok.injEq, sl?_iff, at?_iff]
  constructor
  · rintro ⟨-, _, ⟨-, -, rfl⟩, t1, h1, -, _, ⟨-, -, rfl⟩, o, ho, -, _, ⟨-, -, rfl⟩, iw, hiw, -, _, ⟨-, -, rfl⟩,
      changes, hchanges, -, np, ⟨-, hnp⟩, places, hplaces, -, _, ⟨-, -, rfl⟩, conds, hconds, -, _, ⟨-, -, rfl⟩, hlen, rfl⟩
    obtain ⟨-, rfl⟩ := (odometer_accepts_iff _ _).mp ho
    refine ⟨_, _, _, _, ⟨rfl, rfl, (byteAt_of_sl hnp).2 rfl, rfl, by omega⟩, rfl, timeReal_instant h1, rfl, ?_, ?_, ?_, ?_, ?_⟩
    · refine (loopAt_lists (fun i r hi => ?_)).1 hiw
      rw [record_eq_sl, cardIWAt_iff (by omega)]
    · refine (loopAt_lists (fun i r hi => ?_)).1 hchanges
      rw [record_eq_sl, activityChangeAt_iff (by omega)]
    · refine (loopAt_lists (fun i r hi => ?_)).1 hplaces
      rw [record_eq_sl, vuPlaceAt_iff (by omega)]
    · refine (loopAt_lists (fun i r hi => ?_)).1 hconds
      rw [record_eq_sl, specificConditionAt_iff (by omega)]
    · dsimp only; congr 1; omega
  · rintro ⟨a, b, c, d, ⟨rfl, rfl, ⟨np, hnp, rfl⟩, rfl, hlen⟩, hraw, h1, h2, hiw, hchanges, hplaces, hconds, hsig⟩
    have byte : ∀ {i : Nat} {b : UInt8}, v[i]? = some b → i < v.length ∧ sl v i (i + 1) = [b] := by
      intro i b h
      exact at?_iff.1 (by unfold at?; rw [h])
    refine ⟨by omega, _, ⟨by omega, by omega, rfl⟩, _, (timeReal_iff (by simp; omega) _).2 rfl, by omega,
      _, ⟨by omega, by omega, rfl⟩, _, (odometer_accepts_iff _ _).mpr ⟨by simp; omega, rfl⟩, by omega,
      _, ⟨by omega, by omega, rfl⟩, m.cardIWData, (loopAt_lists (fun i r hi => ?_)).2 hiw, by omega,
      _, ⟨by omega, by omega, rfl⟩, m.activityChanges, (loopAt_lists (fun i r hi => ?_)).2 hchanges, by omega,
      np, byte hnp, m.places, (loopAt_lists (fun i r hi => ?_)).2 hplaces, by omega,
      _, ⟨by omega, by omega, rfl⟩, m.specificConditions, (loopAt_lists (fun i r hi => ?_)).2 hconds, by omega,
      _, ⟨by omega, by omega, rfl⟩, by omega, ?_⟩
    · rw [record_eq_sl, cardIWAt_iff (by omega)]
    · rw [record_eq_sl, activityChangeAt_iff (by omega)]
    · rw [record_eq_sl, vuPlaceAt_iff (by omega)]
    · rw [record_eq_sl, specificConditionAt_iff (by omega)]
    · obtain ⟨⟩ := m
      simp only at hraw h1 h2 hsig
      subst hraw h1 h2 hsig
      simp only [ActivitiesGen1.mk.injEq, true_and, and_true]
      congr 1; omega

/-- The byte at this place is in the table. -/
def Spec.KnownAt (t : EnumTable) (v : Bytes) (off : Nat) : Prop := ByteAt v off (fun b => ∃ x, (x, some b.toNat) ∈ t)

omit [Charmap] in
theorem place_exists {b : Bytes} : (∃ p, PlaceIs b p) ↔
    KnownAt entryTypeDailyWorkPeriodTable b 22 ∧ KnownAt nationNumericTable b 23 := by
  constructor
  · rintro ⟨p, -, ⟨x, hx, h1⟩, ⟨y, hy, h2⟩, -⟩; exact ⟨⟨x, hx, _, h1⟩, ⟨y, hy, _, h2⟩⟩
  · rintro ⟨⟨x, hx, e1, h1⟩, ⟨y, hy, e2, h2⟩⟩
    exact ⟨⟨_, e1, e2, _, _⟩, rfl, ⟨x, hx, h1⟩, ⟨y, hy, h2⟩, rfl, rfl⟩

omit [Charmap] in
theorem activityChange_ok {d : Bytes} (h : d.length = 2) : ∃ x, unmarshalActivityChangeInfo d = .ok x :=
  (aci_accepts_iff d).2 h

omit [Charmap] in
theorem byteAt_record {v : Bytes} {h n i off : Nat} {P : UInt8 → Prop} (hn : off < n) :
    ByteAt (record h n i v) off P ↔ ByteAt v (h + i * n + off) P := by
  rw [record_eq_sl, byteAt_sl (by omega)]

/-- C42: the values accepted as a day of activities, byte for byte: right length, every card insertion
made with a driver, workshop or company card in slot 0 or 1, every place of a known kind and country. -/
theorem activities_accepts_iff (v : Bytes) : (∃ m, unmarshalActivitiesGen1 v = .ok m) ↔
    ∃ a b c d, ActivitiesShape v a b c d
      ∧ (∀ i, i < a → CardNumberAt v (9 + i * 129 + 72) ∧ ByteAt v (9 + i * 129 + 101) (fun b => b = 0 ∨ b = 1))
      ∧ (∀ i, i < c → KnownAt entryTypeDailyWorkPeriodTable v (9 + a * 129 + 2 + b * 2 + 1 + i * 28 + 22)
          ∧ KnownAt nationNumericTable v (9 + a * 129 + 2 + b * 2 + 1 + i * 28 + 23)) := by
  simp only [activities_iff]
  constructor
  · rintro ⟨m, a, b, c, d, hs, -, -, -, hiw, -, hp, -⟩
    refine ⟨a, b, c, d, hs, fun i hi => ?_, fun i hi => ?_⟩
    · obtain ⟨-, h2, h3⟩ := (iw_accepts_iff _).1 (lists_exists.1 ⟨_, hiw⟩ i hi)
      exact ⟨(byteAt_record (by omega)).1 h2, (byteAt_record (by omega)).1 h3⟩
    · obtain ⟨h1, h2⟩ := place_exists.1 (lists_exists.1 ⟨_, hp⟩ i hi)
      exact ⟨(byteAt_record (by omega)).1 h1, (byteAt_record (by omega)).1 h2⟩
  · rintro ⟨a, b, c, d, hs, hiw, hp⟩
    have hlen := hs.2.2.2.2
    have rl : ∀ {h n i : Nat}, h + i * n + n ≤ v.length → (record h n i v).length = n := by
      intro h n i hh
      rw [record_eq_sl]; exact (sl_length_of hh).trans (by omega)
    obtain ⟨iw, h1⟩ := (lists_exists (Is := fun b x => unmarshalVuCardIWRecord b = .ok x) (v := v) (off := 9) (size := 129)).2 fun i (hi : i < a) => (iw_accepts_iff (record 9 129 i v)).2
      ⟨rl (by omega), (byteAt_record (by omega)).2 (hiw i hi).1, (byteAt_record (by omega)).2 (hiw i hi).2⟩
    obtain ⟨changes, h2⟩ := (lists_exists (Is := fun b x => unmarshalActivityChangeInfo b = .ok x) (v := v)
      (off := 9 + a * 129 + 2) (size := 2)).2 fun i (hi : i < b) =>
      activityChange_ok (d := record (9 + a * 129 + 2) 2 i v) (rl (by omega))
    obtain ⟨places, h3⟩ := lists_exists.2 fun i (hi : i < c) =>
      (place_exists (b := record (9 + a * 129 + 2 + b * 2 + 1) 28 i v)).2
        ⟨(byteAt_record (by omega)).2 (hp i hi).1, (byteAt_record (by omega)).2 (hp i hi).2⟩
    obtain ⟨conds, h4⟩ := (lists_exists (Is := fun b x => unmarshalSpecificConditionRecord b = .ok x) (v := v)
      (off := 9 + a * 129 + 2 + b * 2 + 1 + c * 28 + 2) (size := 5)).2 fun i (hi : i < d) =>
      (specificCondition_accepts_iff (record (9 + a * 129 + 2 + b * 2 + 1 + c * 28 + 2) 5 i v)).2 (rl (by omega))
    exact ⟨⟨v, _, _, iw, changes, places, conds, _⟩, a, b, c, d, hs, rfl, rfl, rfl, h1, h2, h3, h4, rfl⟩

omit [Charmap] in
theorem activities_shape_unique {v : Bytes} {a b c d a' b' c' d' : Nat} (h : ActivitiesShape v a b c d)
    (h' : ActivitiesShape v a' b' c' d') : a = a' ∧ b = b' ∧ c = c' ∧ d = d' := by
  obtain ⟨rfl, rfl, ⟨x, hx, rfl⟩, rfl, -⟩ := h
  obtain ⟨rfl, rfl, ⟨y, hy, rfl⟩, rfl, -⟩ := h'
  rw [hx] at hy
  cases hy
  exact ⟨rfl, rfl, rfl, rfl⟩

omit [Charmap] in
theorem sl_beBytes {pre post : Bytes} {k c i : Nat} (hc : c < 256 ^ k) (hi : pre.length = i) :
    beNat (sl (pre ++ (beBytes k c ++ post)) i (i + k)) = c := by
  have : sl (pre ++ (beBytes k c ++ post)) i (i + k) = beBytes k c := by
    rw [sl, ← hi, List.take_length_add_append, List.drop_left]
    exact List.take_left' (by simp)
  rw [this, beNat_beBytes_of_lt hc]

omit [Charmap] in
/-- C42: the slicing pass and the parser agree on what the length of a day of activities is. -/
theorem activities_conforms_iff (v : Bytes) :
    Conforms .activitiesGen1 v ↔ ∃ a b c d, ActivitiesShape v a b c d := by
  rw [conforms_iff _ (by simp)]
  simp only [layout, Fills, Piece.Fills]
  constructor
  · rintro ⟨x, _, rfl, hx, _, _, rfl, ⟨a, r1, ha, rfl, hr1⟩, _, _, rfl, ⟨b, r2, hb, rfl, hr2⟩,
      _, _, rfl, ⟨c, r3, hc, rfl, hr3⟩, _, _, rfl, ⟨d, r4, hd, rfl, hr4⟩, s, _, rfl, hs, rfl⟩
    refine ⟨a, b, c, d, ?_, ?_, ?_, ?_, ?_⟩
    · rw [List.append_assoc (beBytes 2 a)]
      exact sl_beBytes ha hx
    · rw [List.append_assoc (beBytes 2 b), ← List.append_assoc x]
      exact sl_beBytes hb (by simp [hx, hr1]; omega)
    · rw [List.append_assoc (beBytes 1 c), ← List.append_assoc x, ← List.append_assoc (x ++ _)]
      exact byteAt_beBytes (by omega) (by simp [hx, hr1, hr2]; omega)
    · rw [List.append_assoc (beBytes 2 d), ← List.append_assoc x, ← List.append_assoc (x ++ _), ← List.append_assoc (x ++ _ ++ _)]
      exact sl_beBytes hd (by simp [hx, hr1, hr2, hr3]; omega)
    · simp [hx, hr1, hr2, hr3, hr4, hs]; omega
  · rintro ⟨a, b, c, d, rfl, rfl, ⟨np, hnp, rfl⟩, rfl, hl⟩
    have one : ∀ {i : Nat} {b : UInt8}, v[i]? = some b → sl v i (i + 1) = beBytes 1 b.toNat := by
      intro i b h
      rw [(at?_iff.1 (by unfold at?; rw [h] : at? v i = .ok b)).2]
      simp [beBytes]
    have two : ∀ {i : Nat}, i + 2 ≤ v.length → beBytes 2 (beNat (sl v i (i + 2))) = sl v i (i + 2) :=
      fun h => beBytes_beNat' ((sl_length_of h).trans (by omega))
    have lt : ∀ {i : Nat}, i + 2 ≤ v.length → beNat (sl v i (i + 2)) < 256 ^ 2 := by
      intro i h
      have := beNat_lt (sl v i (i + 2))
      rwa [(sl_length_of h).trans (show i + 2 - i = 2 by omega)] at this
    generalize ha : beNat (sl v 7 9) = a at *
    generalize hb : beNat (sl v (9 + a * 129) (9 + a * 129 + 2)) = b at *
    generalize hc : np.toNat = c at *
    generalize hd : beNat (sl v (9 + a * 129 + 2 + b * 2 + 1 + c * 28) (9 + a * 129 + 2 + b * 2 + 1 + c * 28 + 2)) = d at *
    refine ⟨sl v 0 7, sl v 7 v.length, ?_, sl_length_of (by omega),
      sl v 7 (9 + a * 129), sl v (9 + a * 129) v.length, ?_,
      ⟨a, sl v 9 (9 + a * 129), ?_, ?_, ?_⟩,
      sl v (9 + a * 129) (9 + a * 129 + 2 + b * 2), sl v (9 + a * 129 + 2 + b * 2) v.length, ?_,
      ⟨b, sl v (9 + a * 129 + 2) (9 + a * 129 + 2 + b * 2), ?_, ?_, ?_⟩,
      sl v (9 + a * 129 + 2 + b * 2) (9 + a * 129 + 2 + b * 2 + 1 + c * 28),
      sl v (9 + a * 129 + 2 + b * 2 + 1 + c * 28) v.length, ?_,
      ⟨c, sl v (9 + a * 129 + 2 + b * 2 + 1) (9 + a * 129 + 2 + b * 2 + 1 + c * 28), ?_, ?_, ?_⟩,
      sl v (9 + a * 129 + 2 + b * 2 + 1 + c * 28) (9 + a * 129 + 2 + b * 2 + 1 + c * 28 + 2 + d * 5),
      sl v (9 + a * 129 + 2 + b * 2 + 1 + c * 28 + 2 + d * 5) v.length, ?_,
      ⟨d, sl v (9 + a * 129 + 2 + b * 2 + 1 + c * 28 + 2) (9 + a * 129 + 2 + b * 2 + 1 + c * 28 + 2 + d * 5), ?_, ?_, ?_⟩,
      sl v (9 + a * 129 + 2 + b * 2 + 1 + c * 28 + 2 + d * 5) v.length, [], by simp, ?_, rfl⟩
    · rw [sl_append (by omega) (by omega), sl_full' rfl]
    · rw [sl_append (by omega) (by omega)]
    · rw [← ha]; exact lt (i := 7) (by omega)
    · rw [← ha, two (i := 7) (by omega), ha, sl_append (by omega) (by omega)]
    · exact (sl_length_of (by omega)).trans (by omega)
    · rw [sl_append (by omega) (by omega)]
    · rw [← hb]; exact lt (by omega)
    · rw [← hb, two (by omega), hb, sl_append (by omega) (by omega)]
    · exact (sl_length_of (by omega)).trans (by omega)
    · rw [sl_append (by omega) (by omega)]
    · rw [← hc]; exact byte_lt np
    · rw [← hc, ← one hnp, hc, sl_append (by omega) (by omega)]
    · exact (sl_length_of (by omega)).trans (by omega)
    · rw [sl_append (by omega) (by omega)]
    · rw [← hd]; exact lt (by omega)
    · rw [← hd, two (by omega), hd, sl_append (by omega) (by omega)]
    · exact (sl_length_of (by omega)).trans (by omega)
    · exact (sl_length_of (by omega)).trans (by omega)

/-- The activities parser never panics, whatever the bytes. -/
theorem activities_total (v : Bytes) : unmarshalActivitiesGen1 v ≠ .panic := by
  unfold unmarshalActivitiesGen1
  no_panic
  refine np_call (loopAt_ne_panic fun i hi => ?_) fun _ => ?_
  · unfold cardIWAt; no_panic
  no_panic
  refine np_call (loopAt_ne_panic fun i hi => ?_) fun _ => ?_
  · unfold activityChangeAt; no_panic
  no_panic
  refine np_call (loopAt_ne_panic fun i hi => ?_) fun _ => ?_
  · unfold vuPlaceAt; no_panic
  no_panic
  refine np_call (loopAt_ne_panic fun i hi => ?_) fun _ => ?_
  · unfold specificConditionAt; no_panic
  no_panic

/-- C42: on every value that the slicing pass delivers, the parser reads within the value and uses all
of it: it succeeds if and only if each card insertion and each place by itself can be decoded. -/
theorem activities_sliced (v : Bytes) (h : Conforms .activitiesGen1 v) :
    (∃ m, unmarshalActivitiesGen1 v = .ok m) ↔ ∃ a b c d, ActivitiesShape v a b c d
      ∧ (∀ i, i < a → ∃ x, unmarshalVuCardIWRecord (record 9 129 i v) = .ok x)
      ∧ (∀ i, i < c → ∃ p, PlaceIs (record (9 + a * 129 + 2 + b * 2 + 1) 28 i v) p) := by
  obtain ⟨a, b, c, d, hs⟩ := (activities_conforms_iff v).1 h
  have hlen := hs.2.2.2.2
  rw [activities_accepts_iff]
  have key : ∀ i, i < a → ((∃ x, unmarshalVuCardIWRecord (record 9 129 i v) = .ok x) ↔
      CardNumberAt v (9 + i * 129 + 72) ∧ ByteAt v (9 + i * 129 + 101) (fun b => b = 0 ∨ b = 1)) := by
    intro i hi
    have rl : (record 9 129 i v).length = 129 := by
      rw [record_eq_sl]; exact (sl_length_of (by omega)).trans (by omega)
    rw [iw_accepts_iff, byteAt_record (by omega), byteAt_record (by omega), CardNumberAt]
    simp [rl]
  constructor
  · rintro ⟨a', b', c', d', hs', h1, h2⟩
    obtain ⟨rfl, rfl, rfl, rfl⟩ := activities_shape_unique hs hs'
    refine ⟨a, b, c, d, hs, fun i hi => (key i hi).2 (h1 i hi), fun i hi => place_exists.2
      ⟨(byteAt_record (by omega)).2 (h2 i hi).1, (byteAt_record (by omega)).2 (h2 i hi).2⟩⟩
  · rintro ⟨a', b', c', d', hs', h1, h2⟩
    obtain ⟨rfl, rfl, rfl, rfl⟩ := activities_shape_unique hs hs'
    refine ⟨a, b, c, d, hs, fun i hi => (key i hi).1 (h1 i hi), fun i hi => ?_⟩
    obtain ⟨h3, h4⟩ := place_exists.1 (h2 i hi)
    exact ⟨(byteAt_record (by omega)).1 h3, (byteAt_record (by omega)).1 h4⟩

/-- The first part of C42 does not hold for the file as a whole: one place whose country byte is not in
the table makes the day, and so the whole download, unreadable. (On a driver card the same byte is kept as
unrecognised.) -/
theorem activities_unknown_country_refused (v : Bytes) (a b c d i : Nat) (h : ActivitiesShape v a b c d) (hi : i < c)
    (hu : ¬ KnownAt nationNumericTable v (9 + a * 129 + 2 + b * 2 + 1 + i * 28 + 23)) (m : ActivitiesGen1) :
    unmarshalActivitiesGen1 v ≠ .ok m := by
  intro hm
  obtain ⟨a', b', c', d', hs, -, hp⟩ := (activities_accepts_iff v).1 ⟨m, hm⟩
  obtain ⟨rfl, rfl, rfl, rfl⟩ := activities_shape_unique h hs
  exact hu (hp i hi).2

/-- A day with one insertion of a driver card, two activity changes, one place and no condition. -/
def Spec.sampleActivities : Bytes :=
  [0x5F, 0, 0, 0, 1, 2, 3] ++ [0, 1] ++ (List.replicate 72 0x20 ++ [1] ++ List.replicate 56 0)
    ++ [0, 2, 0x10, 0x20, 0x30, 0x40] ++ [1] ++ (List.replicate 18 0 ++ [0x5F, 0, 0, 1, 0, 0x0F, 0, 1, 2, 3]) ++ [0, 0] ++ List.replicate 128 9

theorem sampleActivities_shape : ActivitiesShape sampleActivities 1 2 1 0 :=
  ⟨by decide +kernel, by decide +kernel, ⟨1, by decide +kernel, rfl⟩, by decide +kernel, by decide +kernel⟩

example : Conforms .activitiesGen1 sampleActivities ∧ ∃ m, unmarshalActivitiesGen1 sampleActivities = .ok m := by
  refine ⟨(activities_conforms_iff _).2 ⟨_, _, _, _, sampleActivities_shape⟩,
    (activities_accepts_iff _).2 ⟨1, 2, 1, 0, sampleActivities_shape, fun i hi => ?_, fun i hi => ?_⟩⟩
  · obtain rfl : i = 0 := by omega
    exact ⟨⟨1, by decide +kernel, Or.inl rfl⟩, ⟨0, by decide +kernel, Or.inl rfl⟩⟩
  · obtain rfl : i = 0 := by omega
    exact ⟨⟨0, by decide +kernel, ⟨2, by decide +kernel⟩⟩, ⟨0x0F, by decide +kernel, ⟨18, by decide +kernel⟩⟩⟩

end activities

end Tacho
