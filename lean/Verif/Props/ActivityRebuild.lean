import Verif.Props.ActivityLayout
/-!
# Driver activity data: buffers rebuilt from records (C49)
-/

namespace Tacho
open Spec

/-- Bytes a daily record occupies when written: its recorded length, or 12 bytes and two per change. -/
def Spec.daySize (r : DailyRecord) : Nat :=
  if r.recordLength > 0 then r.recordLength.toNat else 12 + 2 * r.changes.length

/-- A decoded (or hand-made) daily record whose fields fit their places. -/
structure Spec.WritableDay (r : DailyRecord) : Prop where
  valid : r.valid = true
  date : r.date = none ∨ ∃ s : Int, r.date = some ⟨s, 0⟩ ∧ 1 ≤ s ∧ s < 2 ^ 32
  counter : ∃ v : Int, r.presenceCounter = some ⟨v, 2⟩ ∧ 0 ≤ v ∧ v < 10000
  distance : 0 ≤ r.dayDistance ∧ r.dayDistance < 65536
  changes : ∀ c ∈ r.changes, ∃ x : AciBits, x.Valid ∧ (∃ raw, c = x.message raw ∧ ∀ w, raw = some w → w.length = 2) ∧
    x.word ≠ 0 ∧ x.word ≠ 0xFFFF
  fits : 12 + 2 * r.changes.length ≤ daySize r ∧ daySize r < 65536

/-- The same day, up to the link to the previous record and the raw copies of the activity words. -/
structure Spec.SameDay (r m : DailyRecord) : Prop where
  valid : m.valid = r.valid
  length : m.recordLength = daySize r
  date : m.date = r.date
  counter : m.presenceCounter = r.presenceCounter
  distance : m.dayDistance = r.dayDistance
  changes : m.changes.map (fun c => { c with rawData := none }) = r.changes.map (fun c => { c with rawData := none })

theorem calculateRecordSize_eq (r : DailyRecord) : calculateRecordSize r = daySize r := by
  unfold calculateRecordSize daySize; rw [Nat.mul_comm]

theorem words_append_even {a b : Bytes} : ∀ (_ : a.length % 2 = 0), words (a ++ b) = words a ++ words b := by
  match a with
  | [] => intro _; rfl
  | [_] => intro h; simp at h
  | x :: y :: t =>
    intro h
    have ht : t.length % 2 = 0 := by simp only [List.length_cons] at h; omega
    simp only [List.cons_append, words, words_append_even ht]

theorem words_zeros (n : Nat) : ∀ w ∈ words (zeros n), w = [0, 0] := by
  match n with
  | 0 => intro w hw; simp [zeros, words] at hw
  | 1 => intro w hw; simp [zeros, words] at hw
  | n + 2 =>
    intro w hw
    have : zeros (n + 2) = 0 :: 0 :: zeros n := rfl
    rw [this] at hw
    simp only [words, List.mem_cons] at hw
    rcases hw with h | h
    · exact h
    · exact words_zeros n w h

/-- The activity words written for a list of changes. -/
theorem appendChanges_spec (cs : List ActivityChangeInfo) (hc : ∀ c ∈ cs, ∃ x : AciBits, x.Valid ∧
    (∃ raw, c = x.message raw ∧ ∀ w, raw = some w → w.length = 2) ∧ x.word ≠ 0 ∧ x.word ≠ 0xFFFF) :
    ∃ e ms, (∀ dst, appendChanges dst cs = .ok (dst ++ e)) ∧ e.length = 2 * cs.length ∧
      (words e).filter (fun w => w ≠ [0, 0] ∧ w ≠ [255, 255]) = words e ∧
      List.Forall₂ (fun w c => unmarshalActivityChangeInfo w = .ok c) (words e) ms ∧
      ms.map (fun c => { c with rawData := none }) = cs.map (fun c => { c with rawData := none }) := by
  induction cs with
  | nil => exact ⟨[], [], fun dst => by simp [appendChanges], rfl, rfl, by simp [words], rfl⟩
  | cons c cs ih =>
    obtain ⟨x, hx, ⟨raw, rfl, hraw⟩, h0, hF⟩ := hc c (by simp)
    obtain ⟨e, ms, h1, h2, h3, h4, h5⟩ := ih (fun c hc' => hc c (by simp [hc']))
    have hlt : x.word < 65536 := by
      obtain ⟨a, b, c, d, e⟩ := hx
      unfold AciBits.word; omega
    obtain ⟨p, q, hpq⟩ : ∃ p q, beBytes 2 x.word = [p, q] := ⟨_, _, rfl⟩
    have hbe : beNat [p, q] = x.word := by rw [← hpq]; exact beNat_beBytes_of_lt (by omega)
    have hdec : unmarshalActivityChangeInfo [p, q] = .ok (x.message (some [p, q])) :=
      aci_decode x hx [p, q] rfl hbe
    have hne : [p, q] ≠ [0, 0] ∧ [p, q] ≠ [255, 255] := by
      constructor <;> intro e <;> rw [e] at hbe
      · exact h0 (hbe.symm.trans rfl)
      · exact hF (hbe.symm.trans rfl)
    refine ⟨p :: q :: e, x.message (some [p, q]) :: ms, ?_, ?_, ?_, ?_, ?_⟩
    · intro dst
      simp only [appendChanges, aci_encode x hx raw hraw, Res.bind_ok, hpq, h1, List.append_assoc, List.cons_append,
        List.nil_append]
    · simp only [List.length_cons, h2]; omega
    · simp only [words]
      rw [List.filter_cons_of_pos (by rw [decide_eq_true_iff]; exact hne), h3]
    · simp only [words]
      exact List.Forall₂.cons hdec h4
    · simp only [List.map_cons, h5]; rfl

theorem timeReal_writable {t : Option Timestamp} (h : t = none ∨ ∃ s : Int, t = some ⟨s, 0⟩ ∧ 1 ≤ s ∧ s < 2 ^ 32) :
    ∃ e, e.length = 4 ∧ (∀ dst, appendTimeReal dst t = .ok (dst ++ e)) ∧ instant e = t := by
  rcases appendTimeReal_exact t with ⟨e, he, h'⟩ | ⟨m, h'⟩
  · refine ⟨e, he, h', ?_⟩
    rcases h with rfl | ⟨s, rfl, h1, h2⟩
    · have : e = beBytes 4 (low 32 0) := by simpa [appendTimeReal] using (h' []).symm
      rw [this, show low 32 0 = 0 from by decide +kernel, show beBytes 4 0 = [0, 0, 0, 0] from by decide +kernel]
      decide +kernel
    · obtain ⟨e', ha, hb⟩ := timeReal_encode_decode s h1 h2 []
      have : e = e' := by
        have hh := h' []
        dsimp only at hh
        rw [ha] at hh
        simpa using hh.symm
      rw [this, ← timeReal_instant hb]
  · exfalso
    rcases h with rfl | ⟨s, rfl, h1, h2⟩
    · have := h' []; simp [appendTimeReal] at this
    · have := h' []; simp [appendTimeReal] at this

theorem bcd_writable {v : Int} (h1 : 0 ≤ v) (h2 : v < 10000) :
    ∃ e, e.length = 2 ∧ (∀ dst, appendBcdString dst (some ⟨v, 2⟩) = .ok (dst ++ e)) ∧
      (∀ x ∈ e, IsBcd x) ∧ bcdPair e = v := by
  obtain ⟨out, ho⟩ := (bcd_encode_iff [] v 2 (by omega)).mpr ⟨h1, by omega⟩
  obtain ⟨e, he, hl, hd⟩ := bcd_encode_decode [] out v 2 ho
  have hdec := hd (by omega)
  have hs : unmarshalBcdString e = .ok ⟨v, 2⟩ := by
    unfold unmarshalBcdString
    rw [if_neg (by omega)]
    simp only [Res.pure_eq, Res.bind_ok, hdec]
    rw [wrap32_id (by omega) (by omega), wrap32_id (by omega) (by omega), hl]
    congr 2; omega
  have hb := (bcdString_accepts hl).mp ⟨_, hs⟩
  have hv := bcd_pair_value hl hs
  refine ⟨e, hl, ?_, hb, ?_⟩
  · intro dst
    exact bcdString_roundtrip e dst _ (by omega) hs
  · have := congrArg BcdString.value hv
    exact this.symm

theorem sl_mid {a b c : Bytes} {i j : Nat} (h1 : a.length = i) (h2 : a.length + b.length = j) :
    sl (a ++ b ++ c) i j = b := by
  unfold sl
  rw [List.take_append_of_le_length (by simp; omega), List.take_of_length_le (by simp; omega), ← h1,
    List.drop_left]

/-- What one written record looks like. -/
theorem marshalRecord_spec (r : DailyRecord) (hr : WritableDay r) (prev : Nat) (hp : prev < 65536) :
    ∃ day m, marshalRecordWithHeader r prev (daySize r) = .ok day ∧ day.length = daySize r ∧
      beNat (sl day 0 2) = prev ∧ beNat (sl day 2 4) = day.length ∧ DayOf day m ∧ SameDay r m := by
  obtain ⟨te, tl, tw, ti⟩ := timeReal_writable hr.date
  obtain ⟨v, hv, hv1, hv2⟩ := hr.counter
  obtain ⟨ce, cl, cw, cb, ci⟩ := bcd_writable hv1 hv2
  obtain ⟨we, ms, ww, wl, wf, wd, wm⟩ := appendChanges_spec r.changes hr.changes
  obtain ⟨hf1, hf2⟩ := hr.fits
  obtain ⟨hd1, hd2⟩ := hr.distance
  obtain ⟨k, hk⟩ : ∃ k, daySize r = 12 + 2 * r.changes.length + k := ⟨daySize r - (12 + 2 * r.changes.length), by omega⟩
  have hday : marshalRecordWithHeader r prev (daySize r) = .ok (beBytes 2 prev ++ beBytes 2 (daySize r) ++ te ++ ce ++
      beBytes 2 (low 16 r.dayDistance) ++ we ++ zeros k) := by
    simp only [marshalRecordWithHeader, tw, Res.bind_ok, hv, cw, ww, Res.pure_eq]
    split
    · rename_i hlt
      congr 2
      simp only [List.length_append, beBytes_length, tl, cl, wl]
      congr 1; omega
    · rename_i hlt
      simp only [List.length_append, beBytes_length, tl, cl, wl] at hlt
      have : k = 0 := by omega
      subst this; simp [zeros]
  have hlow : low 16 r.dayDistance = r.dayDistance.toNat := by unfold low; omega
  generalize hD : beBytes 2 prev ++ beBytes 2 (daySize r) ++ te ++ ce ++ beBytes 2 (low 16 r.dayDistance) ++ we ++ zeros k
    = D at hday
  have hDl : D.length = daySize r := by rw [← hD]; simp; omega
  have s0 : sl D 0 2 = beBytes 2 prev := by
    rw [← hD, show beBytes 2 prev ++ beBytes 2 (daySize r) ++ te ++ ce ++ beBytes 2 (low 16 r.dayDistance) ++ we ++ zeros k =
      [] ++ beBytes 2 prev ++ (beBytes 2 (daySize r) ++ te ++ ce ++ beBytes 2 (low 16 r.dayDistance) ++ we ++ zeros k) by
      simp only [List.append_assoc, List.nil_append]]
    exact sl_mid rfl (by simp)
  have s1 : sl D 2 4 = beBytes 2 (daySize r) := by
    rw [← hD, show beBytes 2 prev ++ beBytes 2 (daySize r) ++ te ++ ce ++ beBytes 2 (low 16 r.dayDistance) ++ we ++ zeros k =
      beBytes 2 prev ++ beBytes 2 (daySize r) ++ (te ++ ce ++ beBytes 2 (low 16 r.dayDistance) ++ we ++ zeros k) by
      simp only [List.append_assoc]]
    exact sl_mid (by simp) (by simp)
  have s2 : sl D 4 8 = te := by
    rw [← hD, show beBytes 2 prev ++ beBytes 2 (daySize r) ++ te ++ ce ++ beBytes 2 (low 16 r.dayDistance) ++ we ++ zeros k =
      (beBytes 2 prev ++ beBytes 2 (daySize r)) ++ te ++ (ce ++ beBytes 2 (low 16 r.dayDistance) ++ we ++ zeros k) by
      simp only [List.append_assoc]]
    exact sl_mid (by simp) (by simp; omega)
  have s3 : sl D 8 10 = ce := by
    rw [← hD, show beBytes 2 prev ++ beBytes 2 (daySize r) ++ te ++ ce ++ beBytes 2 (low 16 r.dayDistance) ++ we ++ zeros k =
      (beBytes 2 prev ++ beBytes 2 (daySize r) ++ te) ++ ce ++ (beBytes 2 (low 16 r.dayDistance) ++ we ++ zeros k) by
      simp only [List.append_assoc]]
    exact sl_mid (by simp; omega) (by simp; omega)
  have s4 : sl D 10 12 = beBytes 2 (low 16 r.dayDistance) := by
    rw [← hD, show beBytes 2 prev ++ beBytes 2 (daySize r) ++ te ++ ce ++ beBytes 2 (low 16 r.dayDistance) ++ we ++ zeros k =
      (beBytes 2 prev ++ beBytes 2 (daySize r) ++ te ++ ce) ++ beBytes 2 (low 16 r.dayDistance) ++ (we ++ zeros k) by
      simp only [List.append_assoc]]
    exact sl_mid (by simp; omega) (by simp; omega)
  have s5 : D.drop 12 = we ++ zeros k := by
    rw [← hD, List.append_assoc]
    exact List.drop_left' (by simp; omega)
  refine ⟨D, ⟨true, none, beNat (sl D 0 2), beNat (sl D 2 4), instant (sl D 4 8), some ⟨bcdPair (sl D 8 10), 2⟩,
    beNat (sl D 10 12), ms⟩, hday, hDl, ?_, ?_, ?_, ?_⟩
  · rw [s0, beNat_beBytes_of_lt (by omega)]
  · rw [s1, beNat_beBytes_of_lt (by omega), hDl]
  · refine Or.inl ⟨⟨by omega, ?_, ?_⟩, rfl, rfl, rfl, rfl, rfl, rfl, rfl, ?_⟩
    · have := byteAt_sl (d := D) (a := 8) (b := 10) (i := 0) (P := IsBcd) (by omega)
      rw [← Nat.add_zero 8, ← this, s3]
      match ce, cl, cb with
      | [x, y], _, cb => exact ⟨x, rfl, cb x (by simp)⟩
    · have := byteAt_sl (d := D) (a := 8) (b := 10) (i := 1) (P := IsBcd) (by omega)
      rw [← this, s3]
      match ce, cl, cb with
      | [x, y], _, cb => exact ⟨y, rfl, cb y (by simp)⟩
    · rw [s5, words_append_even (by omega), List.filter_append, wf]
      have : (words (zeros k)).filter (fun w => w ≠ [0, 0] ∧ w ≠ [255, 255]) = [] := by
        rw [List.filter_eq_nil_iff]
        intro w hw
        rw [words_zeros k w hw]; decide
      rw [this, List.append_nil]
      exact wd
  · refine ⟨hr.valid.symm, ?_, ?_, ?_, ?_, wm⟩
    · dsimp only; rw [s1, beNat_beBytes_of_lt (by omega)]
    · dsimp only; rw [s2, ti]
    · dsimp only; rw [s3, hv, ci]
    · dsimp only; rw [s4, beNat_beBytes_of_lt (by omega), hlow]; omega

theorem recordSizes_spec (rs : List DailyRecord) (h : ∀ r ∈ rs, WritableDay r) :
    recordSizes rs = .ok (rs.map daySize) := by
  induction rs with
  | nil => rfl
  | cons r rs ih =>
    simp only [recordSizes, (h r (by simp)).valid, if_true, Res.bind_ok, calculateRecordSize_eq,
      ih (fun r hr => h r (by simp [hr])), Res.pure_eq, List.map_cons]

theorem writeRecords_spec (rs : List DailyRecord) : ∀ (h : ∀ r ∈ rs, WritableDay r) (done : Bytes)
    (prev k : Nat) (_ : prev < 65536) (_ : (rs.map daySize).sum = k),
    ∃ days ms, writeRecords (done ++ zeros k) done.length prev (rs.zip (rs.map daySize)) = .ok (done ++ days.flatten) ∧
      days.map List.length = rs.map daySize ∧ Linked prev days ∧ List.Forall₂ DayOf days ms ∧
      List.Forall₂ SameDay rs ms := by
  induction rs with
  | nil =>
    intro h done prev k hp hk
    simp only [List.map_nil, List.sum_nil] at hk
    subst hk
    exact ⟨[], [], by simp [writeRecords, zeros], rfl, trivial, List.Forall₂.nil, List.Forall₂.nil⟩
  | cons r rs ih =>
    intro h done prev k hp hk
    have hr := h r (by simp)
    obtain ⟨day, m, h1, h2, h3, h4, h5, h6⟩ := marshalRecord_spec r hr prev hp
    simp only [List.map_cons, List.sum_cons] at hk
    obtain ⟨days, ms, g1, g2, g3, g4, g5⟩ := ih (fun r hr => h r (by simp [hr])) (done ++ day) (daySize r)
      ((rs.map daySize).sum) hr.fits.2 rfl
    refine ⟨day :: days, m :: ms, ?_, by simp [h2, g2], ⟨?_, h3, h4, ?_⟩, List.Forall₂.cons h5 g4,
      List.Forall₂.cons h6 g5⟩
    · have hpaint : paint (done ++ zeros k) done.length ((done ++ zeros k).length - done.length) day =
          done ++ day ++ zeros (rs.map daySize).sum := by
        unfold paint
        have hlen : (done ++ zeros k).length - done.length = k := by simp
        rw [hlen, List.take_left' rfl, List.take_of_length_le (by omega), Nat.min_eq_right (by omega)]
        congr 1
        rw [List.drop_append, List.drop_eq_nil_of_le (by omega), List.nil_append]
        simp only [zeros, List.drop_replicate]
        congr 1; omega
      have hpos : done.length + daySize r = (done ++ day).length := by simp [h2]
      simp only [List.map_cons, List.zip_cons_cons, writeRecords, hr.valid, if_true, h1, Res.bind_ok, from?]
      rw [if_pos (by simp), Res.bind_ok, hpaint, hpos, g1]
      simp
    · have := hr.fits.1; omega
    · rw [h2]; exact g3

/-- The rebuilt buffer is the written days one after the other. -/
theorem rebuild_layout (rs : List DailyRecord) (last : DailyRecord) (h : ∀ r ∈ rs ++ [last], WritableDay r) :
    ∃ ds d ms, buildCyclicBuffer (rs ++ [last]) = .ok (ds ++ [d]).flatten ∧ ds.map List.length = rs.map daySize ∧
      d.length = daySize last ∧ Linked 0 (ds ++ [d]) ∧ Window (ds ++ [d]).flatten 0 (ds ++ [d]).flatten ∧
      NoStraddle (ds ++ [d]).flatten 0 (ds ++ [d]) ∧ 0 < d.length ∧
      List.Forall₂ DayOf (ds ++ [d]) ms ∧ List.Forall₂ SameDay (rs ++ [last]) ms := by
  obtain ⟨days, ms, g1, g2, g3, g4, g5⟩ := writeRecords_spec (rs ++ [last]) h [] 0 _ (by omega) rfl
  have hlen : days.length = (rs ++ [last]).length := by
    have := congrArg List.length g2
    simpa using this
  obtain ⟨ds, d, rfl⟩ : ∃ ds d, days = ds ++ [d] := by
    refine ⟨days.dropLast, days.getLast (by intro e; simp [e] at hlen), ?_⟩
    rw [List.dropLast_concat_getLast]
  simp only [List.map_append, List.map_cons, List.map_nil] at g2
  obtain ⟨hds, hd⟩ := List.append_inj' g2 rfl
  have hd : d.length = daySize last := by simpa using hd
  have hbuild : buildCyclicBuffer (rs ++ [last]) = .ok (ds ++ [d]).flatten := by
    unfold buildCyclicBuffer
    rw [if_neg (by simp), recordSizes_spec _ h]
    simp only [Res.bind_ok]
    simpa using g1
  have hd4 : 4 ≤ d.length := (linked_append (ys := []) g3).1
  have hw : Window (ds ++ [d]).flatten 0 (ds ++ [d]).flatten := by
    intro i hi
    rw [Nat.zero_add, Nat.mod_eq_of_lt hi]
  have hns : NoStraddle (ds ++ [d]).flatten 0 (ds ++ [d]) := by
    intro pre x post he
    have hx := (linked_append (he ▸ g3)).1
    have : (ds ++ [d]).flatten.length = pre.flatten.length + x.length + post.flatten.length := by
      rw [he]; simp; omega
    rw [Nat.zero_add, Nat.mod_eq_of_lt (by omega)]
    omega
  exact ⟨ds, d, ms, hbuild, hds, hd, g3, hw, hns, by omega, g4, g5⟩

/-- C49: if the raw buffer is dropped, the buffer rebuilt from up to 365 records has exactly the size of the
records and is read back, starting at its last record, as the same days in the same order; only the links
between records change. -/
theorem activity_rebuild (rs : List DailyRecord) (last : DailyRecord)
    (h : ∀ r ∈ rs ++ [last], WritableDay r) (hn : (rs ++ [last]).length ≤ 365) :
    ∃ b out, buildCyclicBuffer (rs ++ [last]) = .ok b ∧ b.length = (rs.map daySize).sum + daySize last ∧
      parseActivityRecords b ((rs.map daySize).sum : Nat) = .ok out ∧
      List.Forall₂ SameDay (rs ++ [last]) out := by
  obtain ⟨ds, d, ms, hbuild, hds, hd, g3, hw, hns, hd4, g4, g5⟩ := rebuild_layout rs last h
  have hlen : ds.length = rs.length := by simpa using congrArg List.length hds
  obtain ⟨out, ho, hf⟩ := activity_complete (ds ++ [d]).flatten 0 ds d hw (Nat.le_refl _) g3 hns (by
    simpa [hlen] using hn)
  have hsum : ds.flatten.length = (rs.map daySize).sum := by rw [List.length_flatten, hds]
  have hb : (ds ++ [d]).flatten.length = (rs.map daySize).sum + daySize last := by
    simp [-List.length_flatten, hsum, hd]
  have hpos : (0 + ds.flatten.length) % (ds ++ [d]).flatten.length = (rs.map daySize).sum := by
    rw [Nat.zero_add, Nat.mod_eq_of_lt (by omega), hsum]
  refine ⟨_, out, hbuild, hb, by rw [← hpos]; exact ho, ?_⟩
  have : ms = out := by
    clear ho hns hw hd4 hbuild hd hds hlen hsum hb hpos g5 g3 h hn
    revert g4 hf
    generalize ds ++ [d] = l
    intro g4 hf
    induction g4 generalizing out with
    | nil => cases hf; rfl
    | cons hx _ ih => cases hf with | cons hy ht => rw [dayOf_unique hx hy, ih _ ht]
  rw [← this]; exact g5

/-- C49, finding: a buffer rebuilt from 366 or more days is written without complaint, and refused when read
from its last record. -/
theorem activity_rebuild_366 (rs : List DailyRecord) (last : DailyRecord)
    (h : ∀ r ∈ rs ++ [last], WritableDay r) (hn : 366 ≤ (rs ++ [last]).length) :
    ∃ b, buildCyclicBuffer (rs ++ [last]) = .ok b ∧
      parseActivityRecords b ((rs.map daySize).sum : Nat) = .err "exceeded maximum record count" := by
  obtain ⟨ds, d, ms, hbuild, hds, hd, g3, hw, hns, hd4, g4, g5⟩ := rebuild_layout rs last h
  have hlen : ds.length = rs.length := by simpa using congrArg List.length hds
  have hp := layout_path hw (Nat.le_refl _) g3 hns ds.length ds [] d rfl rfl
  have hsum : ds.flatten.length = (rs.map daySize).sum := by rw [List.length_flatten, hds]
  have hb : (ds ++ [d]).flatten.length = (rs.map daySize).sum + daySize last := by
    simp [-List.length_flatten, hsum, hd]
  have hpos : (0 + ds.flatten.length) % (ds ++ [d]).flatten.length = (rs.map daySize).sum := by
    rw [Nat.zero_add, Nat.mod_eq_of_lt (by omega), hsum]
  rw [hpos] at hp
  exact ⟨_, hbuild, activity_366_refused _ _ _ _ (by simp at hn ⊢; omega) hp⟩

/-- C49, for the whole file: when the raw buffer is dropped, the written file is read back as the same days
if the retained newest-record pointer is the place of the last record in the rebuilt buffer. -/
theorem activity_rebuild_file (rs : List DailyRecord) (last : DailyRecord) (o n : Int)
    (h : ∀ r ∈ rs ++ [last], WritableDay r) (hn : (rs ++ [last]).length ≤ 365)
    (hp : n = ((rs.map daySize).sum : Nat)) (hs : n < 65536) :
    ∃ f m, appendDriverActivity [] (some ⟨o, n, none, rs ++ [last]⟩) = .ok f ∧
      unmarshalDriverActivityData f = .ok m ∧ m.newest = n ∧ m.oldest = o % 65536 ∧
      List.Forall₂ SameDay (rs ++ [last]) m.records := by
  obtain ⟨b, out, h1, h2, h3, h4⟩ := activity_rebuild rs last h hn
  have hb : 0 < b.length := by
    have := (h last (by simp)).fits.1
    omega
  have e1 : (beNat (beBytes 2 (low 16 n)) : Int) = n := by
    rw [beNat_beBytes]; unfold low; omega
  have e2 : (beNat (beBytes 2 (low 16 o)) : Int) = o % 65536 := by
    rw [beNat_beBytes]; unfold low; omega
  refine ⟨beBytes 2 (low 16 o) ++ beBytes 2 (low 16 n) ++ b, ⟨o % 65536, n, some b, out⟩, ?_, ?_, rfl, rfl, h4⟩
  · simp [appendDriverActivity, h1]
  · rw [driverActivity_decode]
    refine ⟨by simp; omega, ?_, ?_, ?_, ?_⟩
    · simp only [sl]; rw [← e2]; simp [List.take_append]
    · refine e1.symm.trans ?_
      simp [sl, List.take_append, List.drop_append]
    · simp [List.drop_append]
    · rw [show List.drop 4 (beBytes 2 (low 16 o) ++ beBytes 2 (low 16 n) ++ b) = b by simp [List.drop_append]]
      simp only
      rw [hp]; exact h3

/-- A decoded day. -/
def Spec.sampleDay : DailyRecord :=
  ⟨true, none, 0, 16, some ⟨1593561600, 0⟩, some ⟨12, 2⟩, 100, [⟨none, 2, false, true, 5, 60⟩]⟩

/-- Non-vacuity of `activity_rebuild`. -/
example : WritableDay sampleDay where
  valid := rfl
  date := Or.inr ⟨1593561600, rfl, by decide, by decide⟩
  counter := ⟨12, rfl, by decide, by decide⟩
  distance := by decide
  changes := by
    intro c hc
    simp only [sampleDay, List.mem_singleton] at hc
    subst hc
    exact ⟨⟨0, 0, 0, 3, 60⟩, by unfold AciBits.Valid; decide, ⟨none, rfl, by simp⟩, by decide, by decide⟩
  fits := by decide

/-- C49, finding: the file writer keeps the old newest-record pointer when it rebuilds the buffer, so days
are lost: a card whose newest of two days was at the start of its (wrapped) buffer is read back with only
one of them, the older. -/
theorem activity_rebuild_pointer : ∃ f m,
    appendDriverActivity [] (some ⟨16, 0, none, [sampleDay, { sampleDay with date := some ⟨1593648000, 0⟩ }]⟩) = .ok f ∧
    unmarshalDriverActivityData f = .ok m ∧ m.records.map (·.date) = [some ⟨1593561600, 0⟩] := by
  have h : (match appendDriverActivity [] (some ⟨16, 0, none, [sampleDay, { sampleDay with date := some ⟨1593648000, 0⟩ }]⟩) with
      | .ok f => (match unmarshalDriverActivityData f with
        | .ok m => m.records.map (·.date)
        | _ => [])
      | _ => []) = [some ⟨1593561600, 0⟩] := by decide +kernel
  split at h
  · rename_i f hf
    split at h
    · rename_i m hm
      exact ⟨f, m, hf, hm, h⟩
    · cases h
  · cases h

end Tacho
