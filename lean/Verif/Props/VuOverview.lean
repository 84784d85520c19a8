import Verif.Props.VuGen1
import Verif.Props.CardHolder
/-!
# Writing Gen1 overviews (C41) and the card slots status (C51)
-/

namespace Tacho
open Spec

section
variable [Charmap]

/-! ## What survives writing -/

/-- A card number in these 18 bytes is written back unchanged: a workshop or company card, or a driver
card whose last two bytes are zero. -/
def Spec.NumberSurvives (b : Bytes) (off : Nat) : Prop :=
  ByteAt b off OwnerCard ∨ sl b (off + 16) (off + 18) = [0, 0]

/-- A company lock of 98 bytes that is written back unchanged. -/
def Spec.LockSurvives (b : Bytes) : Prop :=
  ByteAt b 8 KnownCodePage ∧ ByteAt b 44 KnownCodePage ∧ NumberSurvives b 80

/-- An overview with `n` locks and `k` controls that is written back unchanged. -/
def Spec.OverviewSurvives (v : Bytes) (n k : Nat) : Prop :=
  ByteAt v 405 (Known nationNumericTable) ∧ ByteAt v 406 KnownCodePage ∧ ByteAt v 432 (· = 0)
  ∧ NumberSurvives v 437 ∧ ByteAt v 455 KnownCodePage
  ∧ (∀ i < n, LockSurvives (record 492 98 i v))
  ∧ (∀ i < k, NumberSurvives (record (492 + n * 98 + 1) 31 i v) 5)

omit [Charmap] in
/-- The slots byte is written back only if it is zero. -/
theorem slots_byte (b : UInt8) :
    ((slotByte (b.toNat / 16 : Nat) <<< 4) ||| (slotByte (b.toNat % 16 : Nat) &&& 0x0F) = b) ↔ b = 0 := by
  revert b
  apply forall_byte
  decide +kernel

omit [Charmap] in
theorem paintAll_steps {α : Type} {f : Bytes → Nat → α → Res Bytes} {size : Nat} {c : Bytes} (Q : Nat → Bytes → Prop)
    (rs : List α) (h : ∀ i (hi : i < rs.length), ∃ o : Bytes, o.length = size ∧ Q i o ∧
      ∀ (pre : Bytes) (off : Nat), pre.length = off →
        f (pre ++ c.drop off) off rs[i] = .ok ((pre ++ o) ++ c.drop (off + size))) :
    ∃ outs : List Bytes, outs.length = rs.length ∧ (∀ i (hi : i < outs.length), outs[i].length = size ∧ Q i outs[i]) ∧
      outs.flatten.length = rs.length * size ∧ ∀ (pre : Bytes) (off : Nat), pre.length = off →
        paintAll f size (pre ++ c.drop off) off rs = .ok ((pre ++ outs.flatten) ++ c.drop (off + rs.length * size)) := by
  induction rs generalizing Q with
  | nil => exact ⟨[], rfl, by simp, by simp, by simp [paintAll]⟩
  | cons r rs ih =>
    obtain ⟨o, hl, hq, ho⟩ := h 0 (by simp)
    obtain ⟨outs, h1, h2, h3, h4⟩ := ih (fun i => Q (i + 1)) (fun i hi => h (i + 1) (by simpa using hi))
    refine ⟨o :: outs, by simp [h1], ?_, ?_, ?_⟩
    · intro i hi
      cases i with
      | zero => exact ⟨hl, hq⟩
      | succ i => exact h2 i (by simpa using hi)
    · rw [List.flatten_cons, List.length_append, h3, hl, List.length_cons, Nat.add_mul]; omega
    · intro pre off hp
      rw [paintAll, show f (pre ++ c.drop off) off r = _ from ho pre off hp, Res.bind_ok,
        h4 (pre ++ o) (off + size) (by simp [hp, hl])]
      have e : off + size + rs.length * size = off + (r :: rs).length * size := by
        rw [List.length_cons, Nat.add_mul]; omega
      rw [e, List.flatten_cons, List.append_assoc pre]

omit [Charmap] in
theorem flatten_eq_iff {size off : Nat} {v : Bytes} (outs : List Bytes) (hl : ∀ o ∈ outs, o.length = size)
    (hv : off + outs.length * size ≤ v.length) :
    outs.flatten = sl v off (off + outs.length * size) ↔
      ∀ i (hi : i < outs.length), outs[i] = record off size i v := by
  induction outs generalizing off with
  | nil => simp [sl]
  | cons o outs ih =>
    have e : off + (o :: outs).length * size = (off + size) + outs.length * size := by
      rw [List.length_cons, Nat.add_mul]; omega
    rw [e] at hv ⊢
    have hs : sl v off (off + size + outs.length * size) = sl v off (off + size) ++ sl v (off + size) (off + size + outs.length * size) :=
      (sl_append (by omega) (by omega)).symm
    rw [List.flatten_cons, hs, append_eq_iff (by rw [hl o (by simp)]; simp; omega),
      ih (fun x hx => hl x (by simp [hx])) hv]
    constructor
    · rintro ⟨a, b⟩ i hi
      cases i with
      | zero => rw [record_eq_sl]; simpa using a
      | succ i =>
        have := b i (by simpa using hi)
        rw [record_eq_sl] at this ⊢
        rw [List.getElem_cons_succ, this]
        congr 1 <;> rw [Nat.add_mul] <;> omega
    · intro h
      constructor
      · have := h 0 (by simp)
        rw [record_eq_sl] at this; simpa using this
      · intro i hi
        have := h (i + 1) (by simpa using hi)
        rw [record_eq_sl] at this ⊢
        rw [List.getElem_cons_succ] at this
        rw [this]
        congr 1 <;> rw [Nat.add_mul] <;> omega

omit [Charmap] in
theorem appendTimeReal_instant {d : Bytes} (h : d.length = 4) : appendTimeReal [] (instant d) = .ok d := by
  have := timeReal_roundtrip d [] (instant d) ((timeReal_iff h _).2 rfl)
  simpa using this

/-- The bytes written for a lock read from `b`. -/
theorem lock_steps {b c : Bytes} (hb : b.length = 98) {l : CompanyLock} (h : LockIs b l) :
    ∃ o : Bytes, o.length = 98 ∧ (o = b ↔ LockSurvives b) ∧ ∀ (pre : Bytes) (off : Nat), pre.length = off →
      paintLock (pre ++ c.drop off) off l = .ok ((pre ++ o) ++ c.drop (off + 98)) := by
  obtain ⟨h1, h2, ⟨n, hn, h3⟩, ⟨a, ha, h4⟩, ⟨fc, hfc, h5⟩⟩ := h
  obtain ⟨o3, a3, l3, i3⟩ := stringValue_restores h3 (by simp; omega)
  obtain ⟨o4, a4, l4, i4⟩ := stringValue_restores h4 (by simp; omega)
  obtain ⟨o5, a5, l5, i5⟩ := fullCardNumber_out h5
  rw [byteAt_zero_add (j := 8) (by omega) rfl] at i3
  rw [byteAt_zero_add (j := 44) (by omega) rfl] at i4
  rw [byteAt_zero_add (j := 80) (by omega) rfl, sl_sl (by omega)] at i5
  have l3' : o3.length = 36 := by rw [l3]; simp; omega
  have l4' : o4.length = 36 := by rw [l4]; simp; omega
  refine ⟨sl b 0 4 ++ sl b 4 8 ++ o3 ++ o4 ++ o5, by simp [l3', l4', l5]; omega, ?_, ?_⟩
  · have hd : b = sl b 0 4 ++ (sl b 4 8 ++ (sl b 8 44 ++ (sl b 44 80 ++ sl b 80 98))) := by
      repeat rw [sl_append (by omega) (by omega)]
      rw [sl_full' hb]
    conv => lhs; rhs; rw [hd]
    simp only [List.append_assoc]
    rw [append_eq_iff rfl, append_eq_iff rfl, append_eq_iff l3, append_eq_iff l4, i3, i4, i5]
    simp only [LockSurvives, NumberSurvives, true_and]
  · intro pre off hp
    have t1 := appendTimeReal_instant (d := sl b 0 4) (by simp; omega)
    have t2 := appendTimeReal_instant (d := sl b 4 8) (by simp; omega)
    simp only [paintLock, h1, h2, hn, ha, hfc, t1, t2, a3, a4, a5, Res.bind_ok, Res.pure_eq, List.nil_append, Res.ok.injEq]
    rw [paint_step (off' := off + 4) hp (by simp; omega) (by omega),
      paint_step (off' := off + 8) (by simp [hp]; omega) (by simp; omega) (by omega),
      paint_step (off' := off + 44) (by simp [hp]; omega) l3' (by omega),
      paint_step (off' := off + 80) (by simp [hp, l3']; omega) l4' (by omega),
      paint_step (off' := off + 98) (by simp [hp, l3', l4']; omega) l5 (by omega)]
    simp

/-- The bytes written for a control activity read from `b`. -/
theorem control_steps {b c : Bytes} (hb : b.length = 31) {x : VuControlActivity} (h : ControlIs b x) :
    ∃ o : Bytes, o.length = 31 ∧ (o = b ↔ NumberSurvives b 5) ∧ ∀ (pre : Bytes) (off : Nat), pre.length = off →
      paintControl (pre ++ c.drop off) off x = .ok ((pre ++ o) ++ c.drop (off + 31)) := by
  obtain ⟨⟨ct, hct, h1⟩, h2, ⟨fc, hfc, h3⟩, h4, h5⟩ := h
  obtain ⟨o3, a3, l3, i3⟩ := fullCardNumber_out h3
  rw [byteAt_zero_add (j := 5) (by omega) rfl, sl_sl (by omega)] at i3
  have a1 : appendControlType [] ct = .ok (sl b 0 1) := by
    obtain ⟨y, hy⟩ : ∃ y, sl b 0 1 = [y] := List.length_eq_one_iff.1 (by simp; omega)
    obtain ⟨m, hm, hr⟩ := controlType_roundtrip y []
    rw [hy, hm, Res.ok.injEq] at h1
    subst h1
    rw [hr, hy]; rfl
  refine ⟨sl b 0 1 ++ sl b 1 5 ++ o3 ++ sl b 23 27 ++ sl b 27 31, by simp [l3]; omega, ?_, ?_⟩
  · have hd : b = sl b 0 1 ++ (sl b 1 5 ++ (sl b 5 23 ++ (sl b 23 27 ++ sl b 27 31))) := by
      repeat rw [sl_append (by omega) (by omega)]
      rw [sl_full' hb]
    conv => lhs; rhs; rw [hd]
    simp only [List.append_assoc]
    rw [append_eq_iff rfl, append_eq_iff rfl, append_eq_iff (by rw [l3]; simp; omega), i3]
    simp only [NumberSurvives, true_and, and_true]
  · intro pre off hp
    have t1 := appendTimeReal_instant (d := sl b 1 5) (by simp; omega)
    have t2 := appendTimeReal_instant (d := sl b 23 27) (by simp; omega)
    have t3 := appendTimeReal_instant (d := sl b 27 31) (by simp; omega)
    simp only [paintControl, hct, Option.getD_some, a1, h2, hfc, h4, h5, t1, t2, t3, a3, Res.bind_ok, Res.pure_eq, Res.ok.injEq]
    rw [paint_step (off' := off + 1) hp (by simp; omega) (by omega),
      paint_step (off' := off + 5) (by simp [hp]; omega) (by simp; omega) (by omega),
      paint_step (off' := off + 23) (by simp [hp]; omega) l3 (by omega),
      paint_step (off' := off + 27) (by simp [hp, l3]; omega) (by simp; omega) (by omega),
      paint_step (off' := off + 31) (by simp [hp, l3]; omega) (by simp; omega) (by omega)]
    simp

/-- What is written for an overview read from `v`: nothing if the nation of the registration is unknown,
otherwise as many bytes as were read, the same bytes exactly if `OverviewSurvives`. -/
theorem overview_written {v : Bytes} {n k : Nat} {m : OverviewGen1} (hs : OverviewShape v n k) (hm : OverviewIs v n k m) :
    (¬ ByteAt v 405 (Known nationNumericTable) → ∀ dst, ∃ e, appendOverviewGen1 dst (some m) = .err e) ∧
    (ByteAt v 405 (Known nationNumericTable) → ∃ out : Bytes, out.length = v.length ∧
      (∀ dst, appendOverviewGen1 dst (some m) = .ok (dst ++ out)) ∧ (out = v ↔ OverviewSurvives v n k)) := by
  obtain ⟨⟨nl, hnl, rfl⟩, ⟨nc, hnc, rfl⟩, hlen⟩ := hs
  obtain ⟨hraw, hms, hvu, ⟨vin, hv, hvin⟩, ⟨vrn, hr, hvrn⟩, hc, hp, ⟨slots, hslots, hd, hcd⟩,
    ⟨card, name, hcard, hname, hda⟩, ⟨ln1, hlocks⟩, ⟨ln2, hcontrols⟩, hsig⟩ := hm
  have byte : ∀ {i : Nat} {b : UInt8}, v[i]? = some b → i < v.length ∧ sl v i (i + 1) = [b] := by
    intro i b h
    exact at?_iff.1 (by unfold at?; rw [h])
  have b432 := (byte hslots).2
  have b491 := (byte hnl).2
  have bk := (byte hnc).2
  obtain ⟨r1, r2⟩ := registration_restores hvrn
  rw [byteAt_zero_add (j := 405) (by omega) rfl, byteAt_zero_add (j := 406) (by omega) rfl] at r1
  rw [byteAt_zero_add (j := 405) (by omega) rfl] at r2
  have hcanvas : (if m.rawData.length = 491 + 1 + m.companyLocks.length * 98 + 1 + m.controlActivities.length * 31 + 128
      then m.rawData else zeros (491 + 1 + m.companyLocks.length * 98 + 1 + m.controlActivities.length * 31 + 128)) = v := by
    rw [if_pos (by rw [hraw, ln1, ln2]; omega), hraw]
  have avin : appendIa5StringValue [] (some vin) = .ok (sl v 388 405) := by
    have := ia5_roundtrip (sl v 388 405) [] (by simp; omega) vin hvin
    simpa using this
  obtain ⟨o1, a1, l1, i1⟩ := fullCardNumber_out hcard
  rw [byteAt_zero_add (j := 437) (by omega) rfl, sl_sl (by omega)] at i1
  obtain ⟨o2, a2, l2, i2⟩ := stringValue_restores hname (by simp; omega)
  rw [byteAt_zero_add (j := 455) (by omega) rfl] at i2
  have l2' : o2.length = 36 := by rw [l2]; simp; omega
  obtain ⟨ls, ls1, ls2, ls3, ls4⟩ := paintAll_steps (f := paintLock) (size := 98) (c := v)
    (fun i o => o = record 492 98 i v ↔ LockSurvives (record 492 98 i v)) m.companyLocks (fun i hi => by
      have : (i + 1) * 98 ≤ nl.toNat * 98 := Nat.mul_le_mul_right _ (by omega)
      exact lock_steps (by rw [record_eq_sl]; simp; omega) (hlocks i hi))
  obtain ⟨cs, cs1, cs2, cs3, cs4⟩ := paintAll_steps (f := paintControl) (size := 31) (c := v)
    (fun i o => o = record (492 + nl.toNat * 98 + 1) 31 i v ↔ NumberSurvives (record (492 + nl.toNat * 98 + 1) 31 i v) 5)
    m.controlActivities (fun i hi => by
      have : (i + 1) * 31 ≤ nc.toNat * 31 := Nat.mul_le_mul_right _ (by omega)
      exact control_steps (by rw [record_eq_sl]; simp; omega) (hcontrols i hi))
  constructor
  · intro hk dst
    obtain ⟨e, he⟩ := r2 hk []
    simp only [appendOverviewGen1, hcanvas, hv, hr, avin, he, Res.bind_ok, Res.bind_err, Res.pure_eq]
    exact ⟨_, rfl⟩
  · intro hk
    obtain ⟨o0, a0, l0, i0⟩ := r1 hk
    have t1 := appendTimeReal_instant (d := sl v 424 428) (by simp; omega)
    have t2 := appendTimeReal_instant (d := sl v 428 432) (by simp; omega)
    have t3 := appendTimeReal_instant (d := sl v 433 437) (by simp; omega)
    refine ⟨sl v 0 388 ++ sl v 388 405 ++ o0 ++ sl v 420 424 ++ sl v 424 428 ++ sl v 428 432
      ++ [(slotByte (slots.toNat / 16 : Nat) <<< 4) ||| (slotByte (slots.toNat % 16 : Nat) &&& 0x0F)]
      ++ sl v 433 437 ++ o1 ++ o2 ++ [nl] ++ ls.flatten ++ [nc] ++ cs.flatten ++ m.signature, ?_, ?_, ?_⟩
    · simp [l0, l1, l2', ls3, cs3, hsig]; omega
    · intro dst
      simp only [appendOverviewGen1, hcanvas, hv, hr, hp, hda, hd, hcd, avin, a0, a1, a2, t1, t2, t3, hms, hvu, Res.bind_ok, Res.pure_eq,
        List.nil_append]
      have h405 : paint (paint (paint (paint v 0 194 (sl v 0 194)) 194 194 (sl v 194 388)) 388 17 (sl v 388 405)) 405 15 o0
          = (sl v 0 388 ++ sl v 388 405 ++ o0) ++ v.drop 420 := by
        rw [paint_self (by omega) rfl, paint_self (by omega) rfl, paint_self (by omega) rfl, paint_eq l0]
        congr 1
        rw [sl_append (by omega) (by omega)]; simp [sl]
      have t0 := appendTimeReal_instant (d := sl v 420 424) (by simp; omega)
      have hP : (sl v 0 388 ++ sl v 388 405 ++ o0 ++ sl v 420 424).length = 424 := by simp [l0]; omega
      cases hc' : m.currentDateTime with
      | none =>
        dsimp only
        rw [h405, show (sl v 0 388 ++ sl v 388 405 ++ o0) ++ v.drop 420 = (sl v 0 388 ++ sl v 388 405 ++ o0 ++ sl v 420 424) ++ v.drop 424 by
          rw [List.append_assoc _ (sl v 420 424), drop_eq_sl v 424, drop_eq_sl v 420, sl_append (a := 420) (b := 424) (by omega) (by omega)]]
        generalize sl v 0 388 ++ sl v 388 405 ++ o0 ++ sl v 420 424 = P at hP ⊢
        rw [paint_step (off' := 428) (by omega) (by simp; omega) rfl,
          paint_step (off' := 432) (by simp; omega) (by simp; omega) rfl,
          paint_step (off' := 433) (n := 1) (by simp; omega) rfl rfl,
          paint_step (off' := 437) (by simp; omega) (by simp; omega) rfl,
          paint_step (off' := 455) (by simp; omega) l1 rfl,
          paint_step (off' := 491) (by simp; omega) l2' rfl,
          paint_step (off' := 492) (n := 1) (by simp; omega) rfl rfl,
          ls4 _ _ (by simp; omega), Res.bind_ok,
          paint_step (off' := 492 + m.companyLocks.length * 98 + 1) (n := 1) (by simp [ls3, cs3, -List.length_flatten]; omega) rfl rfl,
          cs4 _ _ (by simp [ls3, cs3, -List.length_flatten]; omega), Res.bind_ok,
          paint_step (off' := v.length) (by simp [ls3, cs3, -List.length_flatten]; omega) (by rw [hsig]; simp; omega) (by omega), List.drop_length]
        simp [ln1, ln2]
      | some t =>
        dsimp only
        rw [← hc', hc, t0, Res.bind_ok, h405, paint_step (off' := 424) (by simp [l0]; omega) (by simp; omega) rfl]
        generalize sl v 0 388 ++ sl v 388 405 ++ o0 ++ sl v 420 424 = P at hP ⊢
        rw [paint_step (off' := 428) (by omega) (by simp; omega) rfl,
          paint_step (off' := 432) (by simp; omega) (by simp; omega) rfl,
          paint_step (off' := 433) (n := 1) (by simp; omega) rfl rfl,
          paint_step (off' := 437) (by simp; omega) (by simp; omega) rfl,
          paint_step (off' := 455) (by simp; omega) l1 rfl,
          paint_step (off' := 491) (by simp; omega) l2' rfl,
          paint_step (off' := 492) (n := 1) (by simp; omega) rfl rfl,
          ls4 _ _ (by simp; omega), Res.bind_ok,
          paint_step (off' := 492 + m.companyLocks.length * 98 + 1) (n := 1) (by simp [ls3, cs3, -List.length_flatten]; omega) rfl rfl,
          cs4 _ _ (by simp [ls3, cs3, -List.length_flatten]; omega), Res.bind_ok,
          paint_step (off' := v.length) (by simp [ls3, cs3, -List.length_flatten]; omega) (by rw [hsig]; simp; omega) (by omega), List.drop_length]
        simp [ln1, ln2]
    · have hv' : v = sl v 0 388 ++ (sl v 388 405 ++ (sl v 405 420 ++ (sl v 420 424 ++ (sl v 424 428 ++ (sl v 428 432 ++
          (sl v 432 433 ++ (sl v 433 437 ++ (sl v 437 455 ++ (sl v 455 491 ++ (sl v 491 492 ++
          (sl v 492 (492 + nl.toNat * 98) ++ (sl v (492 + nl.toNat * 98) (492 + nl.toNat * 98 + 1) ++
          (sl v (492 + nl.toNat * 98 + 1) (492 + nl.toNat * 98 + 1 + nc.toNat * 31) ++
           sl v (492 + nl.toNat * 98 + 1 + nc.toNat * 31) v.length))))))))))))) := by
        repeat rw [sl_append (by omega) (by omega)]
        rw [sl_full' rfl]
      conv => lhs; rhs; rw [hv']
      simp only [List.append_assoc]
      rw [append_eq_iff rfl, append_eq_iff rfl, append_eq_iff (by rw [l0]; simp; omega), append_eq_iff rfl, append_eq_iff rfl,
        append_eq_iff rfl, append_eq_iff (by simp; omega), append_eq_iff rfl, append_eq_iff (by rw [l1]; simp; omega),
        append_eq_iff l2, append_eq_iff (by simp; omega), append_eq_iff (by rw [ls3, ln1]; simp; omega),
        append_eq_iff (by simp; omega), append_eq_iff (by rw [cs3, ln2]; simp; omega), i0, i1, i2, hsig]
      rw [show (sl v 432 433 : Bytes) = [slots] from b432, show (sl v 491 492 : Bytes) = [nl] from b491, bk]
      have hl : ls.flatten = sl v 492 (492 + nl.toNat * 98) ↔ ∀ i < nl.toNat, LockSurvives (record 492 98 i v) := by
        have := flatten_eq_iff (size := 98) (off := 492) (v := v) ls
          (fun o ho => by obtain ⟨i, hi, rfl⟩ := List.getElem_of_mem ho; exact (ls2 i hi).1) (by omega)
        rw [show 492 + nl.toNat * 98 = 492 + ls.length * 98 by omega, this]
        constructor
        · intro h i hi
          exact (ls2 i (by omega)).2.1 (h i (by omega))
        · intro h i hi
          exact (ls2 i (by omega)).2.2 (h i (by omega))
      have hcc : cs.flatten = sl v (492 + nl.toNat * 98 + 1) (492 + nl.toNat * 98 + 1 + nc.toNat * 31) ↔
          ∀ i < nc.toNat, NumberSurvives (record (492 + nl.toNat * 98 + 1) 31 i v) 5 := by
        have := flatten_eq_iff (size := 31) (off := 492 + nl.toNat * 98 + 1) (v := v) cs
          (fun o ho => by obtain ⟨i, hi, rfl⟩ := List.getElem_of_mem ho; exact (cs2 i hi).1) (by omega)
        rw [show 492 + nl.toNat * 98 + 1 + nc.toNat * 31 = 492 + nl.toNat * 98 + 1 + cs.length * 31 by omega, this]
        constructor
        · intro h i hi
          exact (cs2 i (by omega)).2.1 (h i (by omega))
        · intro h i hi
          exact (cs2 i (by omega)).2.2 (h i (by omega))
      rw [hl, hcc, List.cons.injEq, slots_byte]
      have hz : ByteAt v 432 (· = 0) ↔ slots = 0 := byteAt_of_sl b432
      simp only [OverviewSurvives, NumberSurvives, hk, hz, true_and, and_true]
/-- C41: an overview that was read can be written exactly if the nation byte of the registration is known;
then as many bytes come out as were read. -/
theorem overview_writable_iff (v dst : Bytes) (m : OverviewGen1) (h : unmarshalOverviewGen1 v = .ok m) :
    ((∃ b, appendOverviewGen1 dst (some m) = .ok b) ↔ ByteAt v 405 (Known nationNumericTable)) ∧
    ∀ b, appendOverviewGen1 dst (some m) = .ok b → ∃ out, b = dst ++ out ∧ out.length = v.length := by
  obtain ⟨n, k, hs, hm⟩ := (overview_iff v m).1 h
  obtain ⟨w1, w2⟩ := overview_written hs hm
  by_cases hk : ByteAt v 405 (Known nationNumericTable)
  · obtain ⟨out, hl, ho, -⟩ := w2 hk
    refine ⟨⟨fun _ => hk, fun _ => ⟨_, ho dst⟩⟩, fun b hb => ⟨out, ?_, hl⟩⟩
    rw [ho dst, Res.ok.injEq] at hb
    exact hb.symm
  · obtain ⟨e, he⟩ := w1 hk dst
    rw [he]
    simp [hk]

/-- C41: the bytes come back exactly if nation and all code pages are known, no slot holds a card, and no
driver card number ends in other than two zero bytes. -/
theorem overview_restores_iff (v dst : Bytes) (n k : Nat) (m : OverviewGen1) (hs : OverviewShape v n k)
    (h : unmarshalOverviewGen1 v = .ok m) :
    appendOverviewGen1 dst (some m) = .ok (dst ++ v) ↔ OverviewSurvives v n k := by
  obtain ⟨n', k', hs', hm⟩ := (overview_iff v m).1 h
  obtain ⟨rfl, rfl⟩ := overview_shape_unique hs hs'
  obtain ⟨w1, w2⟩ := overview_written hs hm
  by_cases hk : ByteAt v 405 (Known nationNumericTable)
  · obtain ⟨out, hl, ho, hi⟩ := w2 hk
    rw [ho dst, ← hi, Res.ok.injEq, List.append_cancel_left_eq]
  · obtain ⟨e, he⟩ := w1 hk dst
    rw [he]
    simp [OverviewSurvives, hk]

/-! ## The card slots status -/

/-- The enum numbers for what a nibble of the slots byte names: 0 no card, 1 driver card, 2 workshop card,
3 control card, 4 company card. -/
def Spec.SlotHolds (nibble : Nat) (v : Int) : Prop := (v, some nibble) ∈ slotCardTypeTable

/-- C51 (the property is false of the code): in no overview that is read does either slot field name the
card that the slots byte names. -/
theorem overview_slots_wrong (v : Bytes) (m : OverviewGen1) (h : unmarshalOverviewGen1 v = .ok m) :
    ByteAt v 432 (fun b => ¬ SlotHolds (b.toNat % 16) m.driverSlotCard ∧ ¬ SlotHolds (b.toNat / 16) m.coDriverSlotCard) := by
  obtain ⟨n, k, hs, hm⟩ := (overview_iff v m).1 h
  obtain ⟨-, -, -, -, -, -, -, ⟨b, hb, h1, h2⟩, -⟩ := hm
  refine ⟨b, hb, ?_⟩
  rw [h1, h2]
  have key : ∀ b : UInt8, ¬ (((b.toNat % 16 : Nat) : Int), some (b.toNat % 16)) ∈ slotCardTypeTable ∧
      ¬ (((b.toNat / 16 : Nat) : Int), some (b.toNat / 16)) ∈ slotCardTypeTable := by
    apply forall_byte
    decide +kernel
  exact key b

/-- C51: what is reported instead, for every overview: the enum number two below the right one. A control
card is reported as a driver card, a workshop card as no card. -/
theorem overview_slots (v : Bytes) (m : OverviewGen1) (h : unmarshalOverviewGen1 v = .ok m) (x : Int) :
    ByteAt v 432 (fun b => (SlotHolds (b.toNat % 16) x → m.driverSlotCard = x - 2)
      ∧ (SlotHolds (b.toNat / 16) x → m.coDriverSlotCard = x - 2)) := by
  obtain ⟨n, k, hs, hm⟩ := (overview_iff v m).1 h
  obtain ⟨-, -, -, -, -, -, -, ⟨b, hb, h1, h2⟩, -⟩ := hm
  refine ⟨b, hb, ?_⟩
  rw [h1, h2]
  have key : ∀ q ∈ slotCardTypeTable, ∀ c, q.2 = some c → ((c : Nat) : Int) = q.1 - 2 := by decide
  exact ⟨fun hx => key _ hx _ rfl, fun hx => key _ hx _ rfl⟩

/-- An overview that survives writing: one lock, one control activity, no cards in the slots. -/
def Spec.sampleSurvivor : Bytes :=
  List.replicate 405 0x20 ++ [1, 1] ++ List.replicate 13 0x41 ++ List.replicate 12 9 ++ [0] ++ List.replicate 4 9
    ++ [4] ++ List.replicate 17 0x31 ++ [1] ++ List.replicate 35 0x42 ++ [1]
    ++ (List.replicate 8 9 ++ [1] ++ List.replicate 35 0x43 ++ [2] ++ List.replicate 35 0x44 ++ [2] ++ List.replicate 17 0x32)
    ++ [1] ++ ([0x80] ++ List.replicate 4 9 ++ [1] ++ List.replicate 15 0x33 ++ [0, 0] ++ List.replicate 8 9) ++ List.replicate 128 7

omit [Charmap] in
theorem sampleSurvivor_shape : OverviewShape sampleSurvivor 1 1 :=
  ⟨⟨1, by decide +kernel, rfl⟩, ⟨1, by decide +kernel, rfl⟩, by decide +kernel⟩

example : OverviewSurvives sampleSurvivor 1 1 ∧ ∃ m, unmarshalOverviewGen1 sampleSurvivor = .ok m := by
  refine ⟨⟨⟨1, by decide +kernel, ⟨4, by decide⟩⟩, ⟨1, by decide +kernel, by decide +kernel⟩, ⟨0, by decide +kernel, rfl⟩,
    Or.inl ⟨4, by decide +kernel, by unfold OwnerCard; decide⟩, ⟨1, by decide +kernel, by decide +kernel⟩, fun i hi => ?_, fun i hi => ?_⟩,
    (overview_accepts_iff _).2 ⟨1, 1, sampleSurvivor_shape, ⟨4, by decide +kernel, Or.inr (by unfold OwnerCard; decide)⟩,
      fun i hi => ?_, fun i hi => ?_⟩⟩ <;> obtain rfl : i = 0 := by omega
  · exact ⟨⟨1, by decide +kernel, by decide +kernel⟩, ⟨2, by decide +kernel, by decide +kernel⟩,
      Or.inl ⟨2, by decide +kernel, by unfold OwnerCard; decide⟩⟩
  · exact Or.inr (by decide +kernel)
  · exact ⟨2, by decide +kernel, Or.inr (by unfold OwnerCard; decide)⟩
  · exact ⟨1, by decide +kernel, Or.inl rfl⟩

/-- The overview of `VuGen1` (slots byte 20: no driver card, a workshop card in the second slot, and unknown
code pages) is read but not restored. -/
example : ¬ OverviewSurvives sampleOverview 1 1 := by
  rintro ⟨-, -, ⟨b, hb, rfl⟩, -⟩
  exact absurd hb (by decide +kernel)

/-! ## The size of any written overview -/

omit [Charmap] in
theorem paint_length' {c b : Bytes} {off n L : Nat} (hc : c.length = L) (h : off + n ≤ L) : (paint c off n b).length = L := by
  rw [paint_length (by omega), hc]

omit [Charmap] in
/-- A step that keeps the length of the canvas, or fails. -/
def Keeps (L : Nat) (r : Res Bytes) : Prop := ∀ b, r = .ok b → b.length = L

omit [Charmap] in
theorem paintLock_keeps {c : Bytes} {off L : Nat} {l : CompanyLock} (hc : c.length = L) (h : off + 98 ≤ L) :
    Keeps L (paintLock c off l) := by
  intro b hb
  simp only [paintLock, bind_eq_ok, Res.pure_eq, Res.ok.injEq] at hb
  obtain ⟨_, _, _, _, _, _, _, _, _, _, rfl⟩ := hb
  repeat' first | exact hc | refine paint_length' ?_ (by omega)

omit [Charmap] in
theorem paintControl_keeps {c : Bytes} {off L : Nat} {l : VuControlActivity} (hc : c.length = L) (h : off + 31 ≤ L) :
    Keeps L (paintControl c off l) := by
  intro b hb
  simp only [paintControl, bind_eq_ok, Res.pure_eq, Res.ok.injEq] at hb
  obtain ⟨_, _, _, _, _, _, _, _, _, _, rfl⟩ := hb
  repeat' first | exact hc | refine paint_length' ?_ (by omega)

omit [Charmap] in
theorem paintAll_keeps {α : Type} {f : Bytes → Nat → α → Res Bytes} {size L : Nat} {c : Bytes} {off : Nat} (rs : List α)
    (hf : ∀ c off r, c.length = L → off + size ≤ L → Keeps L (f c off r)) (hc : c.length = L)
    (h : off + rs.length * size ≤ L) : Keeps L (paintAll f size c off rs) := by
  induction rs generalizing c off with
  | nil => intro b hb; rw [paintAll, Res.ok.injEq] at hb; rw [← hb, hc]
  | cons r rs ih =>
    intro b hb
    rw [List.length_cons, Nat.add_mul] at h
    rw [paintAll, bind_eq_ok] at hb
    obtain ⟨c', h1, h2⟩ := hb
    exact ih (hf _ _ _ hc (by omega) _ h1) (by omega) _ h2

omit [Charmap] in
theorem appends_bind {α : Type} {n : Nat} {r : Res α} {k : Bytes → α → Res Bytes} (hp : r ≠ .panic)
    (hk : ∀ a, r = .ok a → AppendsExactly n (fun dst => k dst a)) : AppendsExactly n (fun dst => r >>= k dst) := by
  cases r with
  | ok a => exact hk a rfl
  | err m => exact Or.inr ⟨m, fun _ => rfl⟩
  | panic => exact absurd rfl hp

omit [Charmap] in
theorem bind_ne_panic {α β : Type} {r : Res α} {k : α → Res β} (hr : r ≠ .panic) (hk : ∀ a, k a ≠ .panic) :
    (r >>= k) ≠ .panic := by
  cases r with
  | ok a => exact hk a
  | err m => intro h; cases h
  | panic => exact absurd rfl hr

omit [Charmap] in
theorem paintLock_ne_panic (c : Bytes) (off : Nat) (l : CompanyLock) : paintLock c off l ≠ .panic := by
  refine bind_ne_panic ((appendTimeReal_exact _).ne_panic _) fun _ => bind_ne_panic ((appendTimeReal_exact _).ne_panic _) fun _ =>
    bind_ne_panic ((appendStringValue_size _).ne_panic _) fun _ => bind_ne_panic ((appendStringValue_size _).ne_panic _) fun _ =>
    bind_ne_panic ((appendFullCardNumber_size _).ne_panic _) fun _ => by simp

omit [Charmap] in
theorem paintControl_ne_panic (c : Bytes) (off : Nat) (l : VuControlActivity) : paintControl c off l ≠ .panic := by
  refine bind_ne_panic ((appendControlType_exact _).ne_panic _) fun _ => bind_ne_panic ((appendTimeReal_exact _).ne_panic _) fun _ =>
    bind_ne_panic ((appendFullCardNumber_size _).ne_panic _) fun _ => bind_ne_panic ((appendTimeReal_exact _).ne_panic _) fun _ =>
    bind_ne_panic ((appendTimeReal_exact _).ne_panic _) fun _ => by simp

omit [Charmap] in
theorem paintAll_ne_panic {α : Type} {f : Bytes → Nat → α → Res Bytes} {size : Nat} (hf : ∀ c off r, f c off r ≠ .panic)
    (rs : List α) (c : Bytes) (off : Nat) : paintAll f size c off rs ≠ .panic := by
  induction rs generalizing c off with
  | nil => simp [paintAll]
  | cons r rs ih => exact bind_ne_panic (hf _ _ _) fun _ => ih _ _

omit [Charmap] in
/-- C22/C41: whatever the message, the writer appends exactly as many bytes as its locks and controls need,
or fails. -/
theorem overview_appends (o : OverviewGen1) : AppendsExactly
    (492 + o.companyLocks.length * 98 + 1 + o.controlActivities.length * 31 + 128) (appendOverviewGen1 · (some o)) := by
  have hc : (if o.rawData.length = 491 + 1 + o.companyLocks.length * 98 + 1 + o.controlActivities.length * 31 + 128 then o.rawData
      else zeros (491 + 1 + o.companyLocks.length * 98 + 1 + o.controlActivities.length * 31 + 128)).length
      = 492 + o.companyLocks.length * 98 + 1 + o.controlActivities.length * 31 + 128 := by
    split
    · omega
    · simp [zeros]
  have tail : ∀ c : Bytes, c.length = 492 + o.companyLocks.length * 98 + 1 + o.controlActivities.length * 31 + 128 →
      AppendsExactly (492 + o.companyLocks.length * 98 + 1 + o.controlActivities.length * 31 + 128) (fun x => do
        let canvas ← paintAll paintLock 98 (paint c 491 1 [UInt8.ofNat o.companyLocks.length]) 492 o.companyLocks
        let canvas ← paintAll paintControl 31
          (paint canvas (492 + o.companyLocks.length * 98) 1 [UInt8.ofNat o.controlActivities.length])
          (492 + o.companyLocks.length * 98 + 1) o.controlActivities
        .ok (x ++ paint canvas (492 + o.companyLocks.length * 98 + 1 + o.controlActivities.length * 31) 128 o.signature)) := by
    intro c hl
    refine appends_bind (paintAll_ne_panic paintLock_ne_panic _ _ _) fun c1 h1 => ?_
    have l1 := paintAll_keeps (L := 492 + o.companyLocks.length * 98 + 1 + o.controlActivities.length * 31 + 128) _
      (fun _ _ _ h h' => paintLock_keeps h h') (paint_length' hl (by omega)) (by omega) _ h1
    refine appends_bind (paintAll_ne_panic paintControl_ne_panic _ _ _) fun c2 h2 => ?_
    have l2 := paintAll_keeps (L := 492 + o.companyLocks.length * 98 + 1 + o.controlActivities.length * 31 + 128) _
      (fun _ _ _ h h' => paintControl_keeps h h') (paint_length' l1 (by omega)) (by omega) _ h2
    exact appendsExactly_const (paint_length' l2 (by omega))
  have np1 : ∀ t, appendTimeReal [] t ≠ .panic := fun t => (appendTimeReal_exact t).ne_panic []
  have np2 : ∀ t, appendStringValue [] t ≠ .panic := fun t => (appendStringValue_size t).ne_panic []
  have np3 : ∀ t, appendIa5StringValue [] t ≠ .panic := fun t => (appendIa5StringValue_size t).ne_panic []
  have np4 : ∀ t, appendVehicleRegistration [] t ≠ .panic := fun t => (appendVehicleRegistration_size t).ne_panic []
  have np5 : ∀ t, appendFullCardNumber [] t ≠ .panic := fun t => (appendFullCardNumber_size t).ne_panic []
  unfold appendOverviewGen1
  dsimp only
  generalize (if o.rawData.length = 491 + 1 + o.companyLocks.length * 98 + 1 + o.controlActivities.length * 31 + 128 then o.rawData
      else zeros (491 + 1 + o.companyLocks.length * 98 + 1 + o.controlActivities.length * 31 + 128)) = c0 at hc ⊢
  cases o.vin <;> cases o.registration <;> cases o.currentDateTime <;> cases o.downloadablePeriod <;> cases o.downloadActivities <;>
    simp only [Res.bind_ok, Res.pure_eq, Res.bind_assoc] <;>
    (repeat' first
      | (with_reducible refine tail _ ?_)
      | (with_reducible refine appends_bind ?_ fun _ _ => ?_)) <;>
    first
      | (with_reducible exact np1 _)
      | (with_reducible exact np2 _)
      | (with_reducible exact np3 _)
      | (with_reducible exact np4 _)
      | (with_reducible exact np5 _)
      | (repeat' first | with_reducible exact hc | with_reducible refine paint_length' ?_ (by omega))

end

end Tacho
