import Verif.Props.ActivityRebuild
/-!
# Driver activity data: buffers rebuilt from records some of which could not be decoded (C49)
-/

namespace Tacho
open Spec

/-- A record the reader could not decode, kept as its bytes. -/
def Spec.KeptDay (r : DailyRecord) : Prop :=
  r.valid = false ∧ ∃ raw, r.rawData = some raw ∧ 0 < raw.length ∧ raw.length < 65536

/-- Bytes a record of either kind occupies when written. -/
def Spec.bytesOfDay (r : DailyRecord) : Nat :=
  if r.valid then daySize r else (r.rawData.getD []).length

/-- `days` are the written forms of `records`, the first one preceded by a record of `prev` bytes: a decoded
record has the links and the contents of its day, a kept one is its bytes. -/
def Spec.WrittenFrom (prev : Nat) : List DailyRecord → List Bytes → Prop
  | [], days => days = []
  | r :: rs, days => ∃ d ds, days = d :: ds ∧
      (r.valid = true → d.length = daySize r ∧ beNat (sl d 0 2) = prev ∧ beNat (sl d 2 4) = d.length ∧
        ∃ m, DayOf d m ∧ SameDay r m) ∧
      (r.valid = false → r.rawData = some d) ∧ WrittenFrom d.length rs ds

theorem recordSizes_mixed (rs : List DailyRecord) (h : ∀ r ∈ rs, WritableDay r ∨ KeptDay r) :
    recordSizes rs = .ok (rs.map bytesOfDay) := by
  induction rs with
  | nil => rfl
  | cons r rs ih =>
    have ih := ih (fun r hr => h r (by simp [hr]))
    rcases h r (by simp) with hr | ⟨hv, raw, hraw, h0, h1⟩
    · simp only [recordSizes, hr.valid, if_true, Res.bind_ok, calculateRecordSize_eq, ih, Res.pure_eq, List.map_cons,
        bytesOfDay]
    · simp only [recordSizes, hv, Bool.false_eq_true, if_false, hraw, Option.getD_some, if_pos h0, Res.bind_ok, ih,
        Res.pure_eq, List.map_cons, bytesOfDay]

theorem bytesOfDay_lt {r : DailyRecord} (h : WritableDay r ∨ KeptDay r) : bytesOfDay r < 65536 := by
  rcases h with hr | ⟨hv, raw, hraw, h0, h1⟩
  · simp only [bytesOfDay, hr.valid, if_true]; exact hr.fits.2
  · simp [bytesOfDay, hv, hraw, h1]

theorem writeRecords_mixed (rs : List DailyRecord) : ∀ (_ : ∀ r ∈ rs, WritableDay r ∨ KeptDay r) (done : Bytes)
    (prev k : Nat) (_ : prev < 65536) (_ : (rs.map bytesOfDay).sum = k),
    ∃ days, writeRecords (done ++ zeros k) done.length prev (rs.zip (rs.map bytesOfDay)) = .ok (done ++ days.flatten) ∧
      WrittenFrom prev rs days := by
  induction rs with
  | nil =>
    intro h done prev k hp hk
    simp only [List.map_nil, List.sum_nil] at hk
    subst hk
    exact ⟨[], by simp [writeRecords, zeros], rfl⟩
  | cons r rs ih =>
    intro h done prev k hp hk
    simp only [List.map_cons, List.sum_cons] at hk
    obtain ⟨day, h1, h2, h3, h4⟩ : ∃ day, (if r.valid then marshalRecordWithHeader r prev (bytesOfDay r)
        else .ok (r.rawData.getD [])) = .ok day ∧ day.length = bytesOfDay r ∧
        (r.valid = true → day.length = daySize r ∧ beNat (sl day 0 2) = prev ∧ beNat (sl day 2 4) = day.length ∧
          ∃ m, DayOf day m ∧ SameDay r m) ∧ (r.valid = false → r.rawData = some day) := by
      rcases h r (by simp) with hr | ⟨hv, raw, hraw, h0, h1⟩
      · obtain ⟨day, m, h1, h2, h3, h4, h5, h6⟩ := marshalRecord_spec r hr prev hp
        refine ⟨day, ?_, ?_, fun _ => ⟨h2, h3, h4, m, h5, h6⟩, fun hf => ?_⟩
        · simp only [hr.valid, if_true, bytesOfDay, h1]
        · simp only [hr.valid, if_true, bytesOfDay, h2]
        · rw [hr.valid] at hf; cases hf
      · exact ⟨raw, by simp [hv, hraw], by simp [bytesOfDay, hv, hraw], fun ht => (by rw [hv] at ht; cases ht),
          fun _ => hraw⟩
    obtain ⟨days, g1, g2⟩ := ih (fun r hr => h r (by simp [hr])) (done ++ day) (bytesOfDay r)
      ((rs.map bytesOfDay).sum) (bytesOfDay_lt (h r (by simp))) rfl
    refine ⟨day :: days, ?_, day, days, rfl, h3, h4, by rw [h2]; exact g2⟩
    have hpaint : paint (done ++ zeros k) done.length ((done ++ zeros k).length - done.length) day =
        done ++ day ++ zeros (rs.map bytesOfDay).sum := by
      unfold paint
      have hlen : (done ++ zeros k).length - done.length = k := by simp
      rw [hlen, List.take_left' rfl, List.take_of_length_le (by omega), Nat.min_eq_right (by omega)]
      congr 1
      rw [List.drop_append, List.drop_eq_nil_of_le (by omega), List.nil_append]
      simp only [zeros, List.drop_replicate]
      congr 1; omega
    have hpos : done.length + bytesOfDay r = (done ++ day).length := by simp [h2]
    simp only [List.map_cons, List.zip_cons_cons, writeRecords, h1, Res.bind_ok, from?]
    rw [if_pos (by simp), Res.bind_ok, hpaint, hpos, g1]
    simp

/-- C49: the buffer rebuilt from records, some of which could not be decoded, is their written forms one after the
other: every decoded day with the links of its place, and the bytes of every other day as they were kept. -/
theorem activity_rebuild_written (rs : List DailyRecord) (h : ∀ r ∈ rs, WritableDay r ∨ KeptDay r) :
    ∃ days, buildCyclicBuffer rs = .ok days.flatten ∧ WrittenFrom 0 rs days := by
  obtain ⟨days, g1, g2⟩ := writeRecords_mixed rs h [] 0 _ (by omega) rfl
  refine ⟨days, ?_, g2⟩
  unfold buildCyclicBuffer
  split
  · rename_i h0
    match rs, h0 with
    | [], _ => rw [show days = [] from g2]; rfl
  · rw [recordSizes_mixed _ h]
    simp only [Res.bind_ok]
    simpa using g1

/-- C49: a record that is marked as not decoded and holds no bytes cannot be written: the whole buffer is refused. -/
theorem activity_rebuild_refused (rs : List DailyRecord) (r : DailyRecord) (hr : r ∈ rs) (hv : r.valid = false)
    (h0 : r.rawData.getD [] = []) : ∃ m, buildCyclicBuffer rs = .err m := by
  have : ∃ m, recordSizes rs = .err m := by
    induction rs with
    | nil => cases hr
    | cons x rs ih =>
      rw [recordSizes]
      rcases List.mem_cons.mp hr with rfl | hr
      · simp only [hv, Bool.false_eq_true, if_false, h0, List.length_nil, Nat.lt_irrefl, Res.bind_err]
        exact ⟨_, rfl⟩
      · obtain ⟨m, hm⟩ := ih hr
        simp only [hm, Res.bind_err]
        split
        · exact ⟨m, rfl⟩
        · split
          · exact ⟨m, rfl⟩
          · exact ⟨_, rfl⟩
  obtain ⟨m, hm⟩ := this
  refine ⟨m, ?_⟩
  unfold buildCyclicBuffer
  rw [if_neg (by intro e; rw [List.length_eq_zero_iff.mp e] at hr; cases hr), hm, Res.bind_err]

/-- The kept records of a sequence hold the links of their places and still cannot be decoded; `prev` is the size
of the record before the first. -/
def Spec.Placed (prev : Nat) : List DailyRecord → Prop
  | [] => True
  | r :: rs => (r.valid = false → ∃ raw, r.rawData = some raw ∧ ¬ DayOk raw ∧ 4 ≤ raw.length ∧
      beNat (sl raw 0 2) = prev ∧ beNat (sl raw 2 4) = raw.length) ∧ Placed (bytesOfDay r) rs

/-- The same record: a decoded day is the same day, a kept one has the same bytes. -/
def Spec.SameRecord (r m : DailyRecord) : Prop :=
  (r.valid = true → SameDay r m) ∧ (r.valid = false → m = ⟨false, r.rawData, 0, 0, none, none, 0, []⟩)

theorem written_linked (rs : List DailyRecord) : ∀ (_ : ∀ r ∈ rs, WritableDay r ∨ KeptDay r) (prev : Nat) (days : List Bytes),
    WrittenFrom prev rs days → Placed prev rs →
    days.map List.length = rs.map bytesOfDay ∧ Linked prev days ∧
      ∃ ms, List.Forall₂ DayOf days ms ∧ List.Forall₂ SameRecord rs ms := by
  induction rs with
  | nil => intro _ prev days h _; cases h; exact ⟨rfl, trivial, [], .nil, .nil⟩
  | cons r rs ih =>
    rintro h prev days ⟨d, ds, rfl, h1, h2, h3⟩ ⟨p1, p2⟩
    have hr := h r (by simp)
    have hd : d.length = bytesOfDay r := by
      unfold bytesOfDay
      split
      · rename_i hv; exact (h1 hv).1
      · rename_i hv
        rw [h2 (by simpa using hv)]; rfl
    rw [← hd] at p2
    obtain ⟨g1, g2, ms, g3, g4⟩ := ih (fun r hr => h r (by simp [hr])) _ _ h3 p2
    refine ⟨by simp [hd, g1], ?_, ?_⟩
    · refine ⟨?_, ?_, ?_, g2⟩
      · rcases hr with hr | ⟨hv, _⟩
        · rw [(h1 hr.valid).1]; have := hr.fits.1; omega
        · obtain ⟨raw, e, _, q, _⟩ := p1 hv
          rw [h2 hv] at e; cases e; exact q
      · rcases hr with hr | ⟨hv, _⟩
        · exact (h1 hr.valid).2.1
        · obtain ⟨raw, e, _, _, q, _⟩ := p1 hv
          rw [h2 hv] at e; cases e; exact q
      · rcases hr with hr | ⟨hv, _⟩
        · exact (h1 hr.valid).2.2.1
        · obtain ⟨raw, e, _, _, _, q⟩ := p1 hv
          rw [h2 hv] at e; cases e; exact q
    · rcases hr with hr | ⟨hv, _⟩
      · obtain ⟨m, q1, q2⟩ := (h1 hr.valid).2.2.2
        exact ⟨m :: ms, .cons q1 g3, .cons ⟨fun _ => q2, fun hf => (by rw [hr.valid] at hf; cases hf)⟩ g4⟩
      · obtain ⟨raw, e, q, _⟩ := p1 hv
        rw [h2 hv] at e; cases e
        exact ⟨_ :: ms, .cons (Or.inr ⟨q, rfl⟩) g3,
          .cons ⟨fun ht => (by rw [hv] at ht; cases ht), fun _ => by rw [h2 hv]⟩ g4⟩

/-- C49: a sequence of up to 365 records in which those that could not be decoded carry the links of their places is
read back, from its last record, as the same records: the decoded days as the same days, the others with the same
bytes. -/
theorem activity_rebuild_mixed (rs : List DailyRecord) (last : DailyRecord)
    (h : ∀ r ∈ rs ++ [last], WritableDay r ∨ KeptDay r) (hp : Placed 0 (rs ++ [last]))
    (hn : (rs ++ [last]).length ≤ 365) :
    ∃ b out, buildCyclicBuffer (rs ++ [last]) = .ok b ∧ b.length = (rs.map bytesOfDay).sum + bytesOfDay last ∧
      parseActivityRecords b ((rs.map bytesOfDay).sum : Nat) = .ok out ∧
      List.Forall₂ SameRecord (rs ++ [last]) out := by
  obtain ⟨days, hbuild, hw⟩ := activity_rebuild_written (rs ++ [last]) h
  obtain ⟨g2, g3, ms, g4, g5⟩ := written_linked _ h 0 days hw hp
  have hlen : days.length = (rs ++ [last]).length := by
    have := congrArg List.length g2
    simpa using this
  obtain ⟨ds, d, rfl⟩ : ∃ ds d, days = ds ++ [d] := by
    refine ⟨days.dropLast, days.getLast (by intro e; simp [e] at hlen), ?_⟩
    rw [List.dropLast_concat_getLast]
  simp only [List.map_append, List.map_cons, List.map_nil] at g2
  obtain ⟨hds, hd⟩ := List.append_inj' g2 rfl
  have hd : d.length = bytesOfDay last := by simpa using hd
  have hd4 : 4 ≤ d.length := (linked_append (ys := []) g3).1
  have hw : Window (ds ++ [d]).flatten 0 (ds ++ [d]).flatten := by
    intro i hi
    rw [Nat.zero_add, Nat.mod_eq_of_lt hi]
  have hns : NoStraddle (ds ++ [d]).flatten 0 (ds ++ [d]) := by
    intro pre x post he
    have hx := (linked_append (he ▸ g3)).1
    have : (ds ++ [d]).flatten.length = pre.flatten.length + x.length + post.flatten.length := by
      rw [he]; simp; omega
    rw [Nat.zero_add, Nat.mod_eq_of_lt (by omega)]
    omega
  have hlen : ds.length = rs.length := by simpa using congrArg List.length hds
  obtain ⟨out, ho, hf⟩ := activity_complete (ds ++ [d]).flatten 0 ds d hw (Nat.le_refl _) g3 hns (by
    simpa [hlen] using hn)
  have hsum : ds.flatten.length = (rs.map bytesOfDay).sum := by rw [List.length_flatten, hds]
  have hb : (ds ++ [d]).flatten.length = (rs.map bytesOfDay).sum + bytesOfDay last := by
    simp [-List.length_flatten, hsum, hd]
  have hpos : (0 + ds.flatten.length) % (ds ++ [d]).flatten.length = (rs.map bytesOfDay).sum := by
    rw [Nat.zero_add, Nat.mod_eq_of_lt (by omega), hsum]
  refine ⟨_, out, hbuild, hb, by rw [← hpos]; exact ho, ?_⟩
  have : ms = out := by
    clear ho hns hw hd4 hbuild hd hds hlen hsum hb hpos g5 g3 h hn hp
    revert g4 hf
    generalize ds ++ [d] = l
    intro g4 hf
    induction g4 generalizing out with
    | nil => cases hf; rfl
    | cons hx _ ih => cases hf with | cons hy ht => rw [dayOf_unique hx hy, ih _ ht]
  rw [← this]; exact g5

/-- A record of 14 bytes whose presence counter is not decimal, after a record of 16 bytes. -/
def Spec.sampleKept : DailyRecord :=
  ⟨false, some [0, 16, 0, 14, 0x5F, 0, 0, 0, 0xAB, 0x12, 0, 100, 0x28, 0x3C], 0, 0, none, none, 0, []⟩

/-- Non-vacuity of `activity_rebuild_written` and `activity_rebuild_mixed`. -/
example : KeptDay sampleKept ∧ Placed 0 [sampleDay, sampleKept] := by
  refine ⟨⟨rfl, _, rfl, by decide, by decide⟩, fun h => (by cases h), fun _ => ⟨_, rfl, ?_, by decide, by decide, by decide⟩, trivial⟩
  rintro ⟨_, ⟨x, hx, hb⟩, _⟩
  cases hx
  revert hb
  unfold IsBcd
  decide

/-- C49, finding: bytes that could not be decoded keep the link they had on the card. If they come first in the
rebuilt buffer, this link leads around the buffer to the last record again, and the buffer is refused as endless. -/
theorem activity_rebuild_stale_link : ∃ b, buildCyclicBuffer [sampleKept, sampleDay] = .ok b ∧
    parseActivityRecords b 14 = .err "exceeded maximum record count" := by
  have h : (match buildCyclicBuffer [sampleKept, sampleDay] with
      | .ok b => decide (parseActivityRecords b 14 = .err "exceeded maximum record count")
      | _ => false) = true := by decide +kernel
  split at h
  · rename_i b hb
    exact ⟨b, hb, by simpa using h⟩
  · cases h

end Tacho
