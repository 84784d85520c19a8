import Verif.Props.RecordFields
import Verif.Spec.Activity
/-!
# Driver activity data (C25, C26, C27)
-/

namespace Tacho
open Spec

/-! ## Single records -/

theorem parseChanges_words (d : Bytes) : ∃ cs, parseChanges d = .ok cs ∧
    List.Forall₂ (fun w c => unmarshalActivityChangeInfo w = .ok c)
      ((words d).filter (fun w => w ≠ [0, 0] ∧ w ≠ [255, 255])) cs := by
  match d with
  | [] => exact ⟨[], rfl, by simp [words]⟩
  | [_] => exact ⟨[], rfl, by simp [words]⟩
  | a :: b :: rest =>
    obtain ⟨cs, hcs, hf⟩ := parseChanges_words rest
    have hw : (beNat [a, b] = 0 ∨ beNat [a, b] = 0xFFFF) ↔ ¬ ([a, b] ≠ [0, 0] ∧ [a, b] ≠ [255, 255]) := by
      have ha := byte_lt a
      have hb := byte_lt b
      have z : ∀ x : UInt8, ∀ n, n < 256 → (x = UInt8.ofNat n ↔ x.toNat = n) := by
        intro x n hn
        rw [← UInt8.toNat_inj, toNat_ofNat_lt hn]
      have z0 := fun x => z x 0 (by omega)
      have z1 := fun x => z x 255 (by omega)
      have e0 : (0 : UInt8) = UInt8.ofNat 0 := rfl
      have e1 : (255 : UInt8) = UInt8.ofNat 255 := rfl
      simp only [beNat, List.foldl_cons, List.foldl_nil, ne_eq, List.cons.injEq, and_true, e0, e1, z0, z1]
      omega
    simp only [parseChanges, words]
    by_cases h : beNat [a, b] = 0 ∨ beNat [a, b] = 0xFFFF
    · rw [if_pos h]
      refine ⟨cs, hcs, ?_⟩
      rw [List.filter_cons_of_neg (by rw [decide_eq_true_iff]; exact hw.mp h)]
      exact hf
    · rw [if_neg h]
      obtain ⟨c, hc⟩ := (aci_accepts_iff [a, b]).mpr rfl
      refine ⟨c :: cs, by simp [hc, hcs], ?_⟩
      rw [List.filter_cons_of_pos (by rw [decide_eq_true_iff]; exact Classical.not_not.mp (fun hn => h (hw.mpr hn)))]
      exact List.Forall₂.cons hc hf

theorem dailyRecord_spec (r : Bytes) : ∃ m, dailyRecordOf r = .ok m ∧ DayOf r m := by
  by_cases hl : 12 ≤ r.length
  · obtain ⟨ts, hts⟩ := timeReal_slice_ok (d := r) (a := 4) (b := 8) (by omega) (by omega)
    obtain ⟨cs, hcs, hf⟩ := parseChanges_words (r.drop 12)
    have hs : (sl r 8 10).length = 2 := by simp; omega
    have hok : (∀ x ∈ sl r 8 10, IsBcd x) ↔ ByteAt r 8 IsBcd ∧ ByteAt r 9 IsBcd := by
      rw [← byteAt_sl (d := r) (a := 8) (b := 10) (i := 0) (by omega),
        ← byteAt_sl (d := r) (a := 8) (b := 10) (i := 1) (by omega)]
      match sl r 8 10, hs with
      | [x, y], _ => simp [ByteAt]
    have hb := bcdString_accepts hs
    have hparse : parseSingleDailyRecord r = (unmarshalBcdString (sl r 8 10) >>= fun counter =>
        .ok ⟨true, some r, (beNat (sl r 0 2) : Int), (beNat (sl r 2 4) : Int), ts, some counter,
          (beNat (sl r 10 12) : Int), cs⟩) := by
      simp only [parseSingleDailyRecord, Res.pure_eq]
      rw [if_neg (by omega), sl?_ok (by omega) (by omega), sl?_ok (by omega) (by omega),
        sl?_ok (by omega) (by omega), sl?_ok (by omega) (by omega), sl?_ok (by omega) (by omega)]
      simp only [Res.bind_ok, hts, from?, if_pos hl, hcs]
    by_cases hbcd : ∀ x ∈ sl r 8 10, IsBcd x
    · obtain ⟨s, hs'⟩ := hb.mpr hbcd
      rw [hs', Res.bind_ok] at hparse
      refine ⟨_, by rw [dailyRecordOf, hparse], Or.inl ⟨⟨hl, hok.mp hbcd⟩, rfl, rfl, rfl, rfl,
        timeReal_instant hts, ?_, rfl, hf⟩⟩
      rw [bcd_pair_value hs hs']
    · cases hx : unmarshalBcdString (sl r 8 10) with
      | ok s => exact absurd (hb.mp ⟨s, hx⟩) hbcd
      | err e =>
        rw [hx, Res.bind_err] at hparse
        exact ⟨_, by rw [dailyRecordOf, hparse], Or.inr ⟨fun h => hbcd (hok.mpr h.2), rfl⟩⟩
      | panic =>
        exact absurd hx (by
          unfold unmarshalBcdString
          rw [if_neg (by omega)]
          exact Res.bind_ne_panic (bcd_no_panic _) (fun _ => by simp))
  · refine ⟨⟨false, some r, 0, 0, none, none, 0, []⟩, ?_, Or.inr ⟨fun h => hl h.1, rfl⟩⟩
    have : parseSingleDailyRecord r = .err "insufficient data for daily record" := by
      simp only [parseSingleDailyRecord]
      rw [if_pos (by omega)]; rfl
    rw [dailyRecordOf, this]

/-- The specification determines the record. -/
theorem dayOf_unique {r : Bytes} {m m' : DailyRecord} (h : DayOf r m) (h' : DayOf r m') : m = m' := by
  rcases h with ⟨ok, h1, h2, h3, h4, h5, h6, h7, h8⟩ | ⟨nok, rfl⟩
  · rcases h' with ⟨_, g1, g2, g3, g4, g5, g6, g7, g8⟩ | ⟨nok, _⟩
    · have hc : m.changes = m'.changes := by
        revert h8 g8
        generalize ((words (r.drop 12)).filter (fun w => w ≠ [0, 0] ∧ w ≠ [255, 255])) = ws
        generalize m.changes = a
        generalize m'.changes = b
        intro ha hb
        induction ha generalizing b with
        | nil => cases hb; rfl
        | cons hx _ ih =>
          cases hb with
          | cons hy ht =>
            rw [hx, Res.ok.injEq] at hy
            rw [hy, ih _ ht]
      cases m; cases m'
      simp only [DailyRecord.mk.injEq]
      simp_all
    · exact absurd ok nok
  · rcases h' with ⟨ok, _⟩ | ⟨_, rfl⟩
    · exact absurd ok nok
    · rfl

/-! ## The walk -/

theorem cyclicRead_spec {b : Bytes} (hb : b ≠ []) (n : Nat) : ∀ p, ∃ r, cyclicRead b p n = .ok r ∧
    r.length = n ∧ Window b p r := by
  have hpos : 0 < b.length := List.length_pos_iff.mpr hb
  induction n with
  | zero => intro p; exact ⟨[], rfl, rfl, fun i hi => by simp at hi⟩
  | succ n ih =>
    intro p
    obtain ⟨r, hr, hl, hw⟩ := ih (p + 1)
    have hlt : p % b.length < b.length := Nat.mod_lt _ hpos
    refine ⟨b[p % b.length] :: r, ?_, by simp [hl], ?_⟩
    · simp only [cyclicRead, at?_ok hlt, Res.bind_ok, hr, Res.pure_eq]
    · intro i hi
      cases i with
      | zero => simp [hlt]
      | succ i =>
        have := hw i (by simp only [List.length_cons] at hi; omega)
        rw [List.getElem?_cons_succ, ← this]
        congr 2; omega

theorem window_unique {b : Bytes} {p : Nat} {r r' : Bytes} (hl : r.length = r'.length)
    (h : Window b p r) (h' : Window b p r') : r = r' := by
  apply List.ext_getElem? 
  intro i
  by_cases hi : i < r.length
  · rw [← h i hi, ← h' i (by omega)]
  · rw [List.getElem?_eq_none (by omega), List.getElem?_eq_none (by omega)]

/-- One call of `Next` on a running iterator, in terms of the specification. -/
theorem next_spec (it : CyclicIter) (he : it.err = none) :
    (366 ≤ it.recordCount ∧ it.next = .ok (false, { it with err := some "exceeded maximum record count" })) ∨
    (it.recordCount < 366 ∧ NoRecord it.buffer it.currentPos ∧ it.next = .ok (false, it)) ∨
    (it.recordCount < 366 ∧ BadLength it.buffer it.currentPos ∧
      it.next = .ok (false, { it with err := some "invalid record length" })) ∨
    (it.recordCount < 366 ∧ HeaderAt it.buffer it.currentPos ∧ 4 ≤ ownLength it.buffer it.currentPos ∧
      ∃ r, r.length = ownLength it.buffer it.currentPos ∧ Window it.buffer it.currentPos.toNat r ∧
        it.next = .ok (true, { it with
          recordBytes := r, recordCount := it.recordCount + 1, currentPos := before it.buffer it.currentPos })) := by
  unfold CyclicIter.next
  rw [he, if_neg (by simp)]
  by_cases h1 : it.recordCount ≥ 366
  · rw [if_pos h1]; exact Or.inl ⟨h1, rfl⟩
  · rw [if_neg h1]
    right
    have h1' : it.recordCount < 366 := by omega
    by_cases h2 : it.buffer.length = 0
    · rw [if_pos h2]
      refine Or.inl ⟨h1', Or.inl ?_, rfl⟩
      rintro ⟨a, b⟩; omega
    · rw [if_neg h2]
      by_cases h3 : it.currentPos < 0 ∨ it.currentPos + 4 > it.buffer.length
      · rw [if_pos h3]
        refine Or.inl ⟨h1', Or.inl ?_, rfl⟩
        rintro ⟨a, b⟩; omega
      · rw [if_neg h3]
        have hh : HeaderAt it.buffer it.currentPos := ⟨by omega, by omega⟩
        simp only [Res.pure_eq]
        rw [sl?_ok (by omega) (by omega), sl?_ok (by omega) (by omega)]
        simp only [Res.bind_ok]
        change _ ∨ _ ∨ _
        have e1 : beNat (sl it.buffer (it.currentPos.toNat + 2) (it.currentPos.toNat + 4)) =
          ownLength it.buffer it.currentPos := rfl
        have e2 : beNat (sl it.buffer it.currentPos.toNat (it.currentPos.toNat + 2)) =
          prevLength it.buffer it.currentPos := rfl
        rw [e1, e2]
        by_cases h4 : ownLength it.buffer it.currentPos = 0
        · rw [if_pos h4]
          exact Or.inl ⟨h1', Or.inr h4, rfl⟩
        · rw [if_neg h4]
          by_cases h5 : ownLength it.buffer it.currentPos < 4
          · rw [if_pos h5]
            exact Or.inr (Or.inl ⟨h1', ⟨hh, by omega, h5⟩, rfl⟩)
          · rw [if_neg h5]
            obtain ⟨r, hr, hl, hw⟩ := cyclicRead_spec (b := it.buffer) (by intro e; rw [e] at h2; exact h2 rfl)
              (ownLength it.buffer it.currentPos) it.currentPos.toNat
            rw [hr]
            exact Or.inr (Or.inr ⟨h1', hh, by omega, r, hl, hw, rfl⟩)

/-- The outcome of the loop, by the number of records left before the limit. -/
theorem loop_spec (n : Nat) : ∀ (fuel : Nat) (it : CyclicIter) (acc : List DailyRecord),
    it.err = none → it.recordCount + n = 366 → n < fuel →
    (∃ rs q ms, rs.length < n ∧ Path it.buffer it.currentPos rs q ∧ NoRecord it.buffer q ∧
      List.Forall₂ DayOf rs ms ∧ activityLoop fuel it acc = some (.ok (acc ++ ms).reverse)) ∨
    (∃ rs q, rs.length < n ∧ Path it.buffer it.currentPos rs q ∧ BadLength it.buffer q ∧
      activityLoop fuel it acc = some (.err "invalid record length")) ∨
    (∃ rs q, rs.length = n ∧ Path it.buffer it.currentPos rs q ∧
      activityLoop fuel it acc = some (.err "exceeded maximum record count")) := by
  induction n with
  | zero =>
    intro fuel it acc he hc hf
    match fuel, hf with
    | fuel + 1, _ =>
      rcases next_spec it he with ⟨_, hn⟩ | ⟨h, _⟩ | ⟨h, _⟩ | ⟨h, _⟩
      · exact Or.inr (Or.inr ⟨[], _, rfl, Path.nil _, by rw [activityLoop, hn]⟩)
      all_goals omega
  | succ n ih =>
    intro fuel it acc he hc hf
    match fuel, hf with
    | fuel + 1, hf =>
      rcases next_spec it he with ⟨h, _⟩ | ⟨_, hr, hn⟩ | ⟨_, hr, hn⟩ | ⟨_, hh, h4, r, hl, hw, hn⟩
      · omega
      · refine Or.inl ⟨[], _, [], by simp, Path.nil _, hr, List.Forall₂.nil, ?_⟩
        rw [activityLoop, hn]
        simp only [he, List.append_nil]
      · exact Or.inr (Or.inl ⟨[], _, by simp, Path.nil _, hr, by rw [activityLoop, hn]⟩)
      · obtain ⟨m, hm, hd⟩ := dailyRecord_spec r
        have hstep : activityLoop (fuel + 1) it acc = activityLoop fuel { it with
            recordBytes := r, recordCount := it.recordCount + 1,
            currentPos := before it.buffer it.currentPos } (acc ++ [m]) := by
          rw [activityLoop, hn]
          simp only [hm]
        rcases ih fuel { it with
            recordBytes := r, recordCount := it.recordCount + 1,
            currentPos := before it.buffer it.currentPos } (acc ++ [m]) he (by simp only; omega) (by omega)
          with ⟨rs, q, ms, h1, h2, h3, h4', h5⟩ | ⟨rs, q, h1, h2, h3, h5⟩ | ⟨rs, q, h1, h2, h5⟩
        · refine Or.inl ⟨r :: rs, q, m :: ms, by simp only [List.length_cons]; omega,
            Path.cons _ _ _ _ hh h4 hl hw h2, h3, List.Forall₂.cons hd h4', ?_⟩
          rw [hstep, h5, List.append_assoc]; rfl
        · exact Or.inr (Or.inl ⟨r :: rs, q, by simp only [List.length_cons]; omega,
            Path.cons _ _ _ _ hh h4 hl hw h2, h3, by rw [hstep, h5]⟩)
        · exact Or.inr (Or.inr ⟨r :: rs, q, by simp only [List.length_cons]; omega,
            Path.cons _ _ _ _ hh h4 hl hw h2, by rw [hstep, h5]⟩)

/-- C25: 367 calls of `Next` always suffice; the fuel of the model is never exhausted. -/
theorem activityLoop_fuel (b : Bytes) (p : Int) : (activityLoop 367 (newCyclicIter b p) []).isSome = true := by
  rcases loop_spec 366 367 (newCyclicIter b p) [] rfl rfl (by omega)
    with ⟨_, _, _, _, _, _, _, h⟩ | ⟨_, _, _, _, _, h⟩ | ⟨_, _, _, _, h⟩ <;> rw [h] <;> rfl

/-- C25, C26: the complete outcome of the walk. It returns the records met on the way back from the
newest record, oldest first, if fewer than 366 are met before a place where no record starts; it fails
if an impossible length is met or if 366 records are met. It never panics. -/
theorem activity_outcome (b : Bytes) (p : Int) :
    (∃ rs q ms, rs.length < 366 ∧ Path b p rs q ∧ NoRecord b q ∧ List.Forall₂ DayOf rs ms ∧
      parseActivityRecords b p = .ok ms.reverse) ∨
    (∃ rs q, rs.length < 366 ∧ Path b p rs q ∧ BadLength b q ∧
      parseActivityRecords b p = .err "invalid record length") ∨
    (∃ rs q, rs.length = 366 ∧ Path b p rs q ∧
      parseActivityRecords b p = .err "exceeded maximum record count") := by
  rcases loop_spec 366 367 (newCyclicIter b p) [] rfl rfl (by omega)
    with ⟨rs, q, ms, h1, h2, h3, h4, h⟩ | ⟨rs, q, h1, h2, h3, h⟩ | ⟨rs, q, h1, h2, h⟩
  · exact Or.inl ⟨rs, q, ms, h1, h2, h3, h4, by rw [parseActivityRecords, h]; rfl⟩
  · exact Or.inr (Or.inl ⟨rs, q, h1, h2, h3, by rw [parseActivityRecords, h]; rfl⟩)
  · exact Or.inr (Or.inr ⟨rs, q, h1, h2, by rw [parseActivityRecords, h]; rfl⟩)

/-- C25: no panic and at most 365 records, whatever the buffer and the pointer. -/
theorem activity_bounded (b : Bytes) (p : Int) : parseActivityRecords b p ≠ .panic ∧
    ∀ out, parseActivityRecords b p = .ok out → out.length ≤ 365 := by
  rcases activity_outcome b p with ⟨rs, q, ms, h1, _, _, h4, h⟩ | ⟨_, _, _, _, _, h⟩ | ⟨_, _, _, _, h⟩
  · rw [h]
    refine ⟨by simp, ?_⟩
    intro out ho
    rw [Res.ok.injEq] at ho
    subst ho
    have := h4.length_eq
    simp only [List.length_reverse]; omega
  · rw [h]; exact ⟨by simp, by simp⟩
  · rw [h]; exact ⟨by simp, by simp⟩

/-- Following the chain is deterministic: of two paths from the same place, one extends the other. -/
theorem path_extend {b : Bytes} {p q q' : Int} {rs rs' : List Bytes} (h : Path b p rs q) (h' : Path b p rs' q')
    (hl : rs.length ≤ rs'.length) : ∃ ts, rs' = rs ++ ts ∧ Path b q ts q' := by
  induction h generalizing rs' with
  | nil p => exact ⟨rs', rfl, h'⟩
  | cons p q r rs _ _ h3 h4 _ ih =>
    cases h' with
    | nil => simp at hl
    | cons _ _ r' rs' _ _ g3 g4 g5 =>
      have hrr : r = r' := window_unique (by omega) h4 g4
      obtain ⟨ts, h1, h2⟩ := ih g5 (by simpa using hl)
      exact ⟨ts, by rw [hrr, h1]; rfl, h2⟩

theorem path_stop {b : Bytes} {q q' : Int} {ts : List Bytes} (h : Path b q ts q')
    (hs : NoRecord b q ∨ BadLength b q) : ts = [] ∧ q = q' := by
  cases h with
  | nil => exact ⟨rfl, rfl⟩
  | cons _ _ r rs h1 h2 _ _ _ =>
    rcases hs with (h | h) | ⟨_, _, h⟩
    · exact absurd h1 h
    · omega
    · omega

/-- C26: the walk succeeds exactly when the chain ends, within 365 records, at a place where no record
starts, and then it returns exactly the records of the chain, oldest first. -/
theorem activity_ok_iff (b : Bytes) (p : Int) (out : List DailyRecord) :
    parseActivityRecords b p = .ok out ↔ ∃ rs q, rs.length < 366 ∧ Path b p rs q ∧ NoRecord b q ∧
      List.Forall₂ DayOf rs.reverse out := by
  have hrev : ∀ {rs : List Bytes} {ms : List DailyRecord}, List.Forall₂ DayOf rs ms →
      List.Forall₂ DayOf rs.reverse ms.reverse := fun h => List.rel_reverse h
  have huniq : ∀ {rs : List Bytes} {ms ms' : List DailyRecord}, List.Forall₂ DayOf rs ms →
      List.Forall₂ DayOf rs ms' → ms = ms' := by
    intro rs ms ms' h
    induction h generalizing ms' with
    | nil => intro h; cases h; rfl
    | cons hx _ ih => intro h; cases h with | cons hy ht => rw [dayOf_unique hx hy, ih ht]
  constructor
  · intro ho
    rcases activity_outcome b p with ⟨rs, q, ms, h1, h2, h3, h4, h⟩ | ⟨_, _, _, _, _, h⟩ | ⟨_, _, _, _, h⟩
    · rw [h, Res.ok.injEq] at ho
      subst ho
      exact ⟨rs, q, h1, h2, h3, hrev h4⟩
    · rw [h] at ho; cases ho
    · rw [h] at ho; cases ho
  · rintro ⟨rs, q, h1, h2, h3, h4⟩
    rcases activity_outcome b p with ⟨rs', q', ms, g1, g2, g3, g4, h⟩ | ⟨rs', q', g1, g2, g3, h⟩ | ⟨rs', q', g1, g2, h⟩
    · have : rs = rs' := by
        by_cases hl : rs.length ≤ rs'.length
        · obtain ⟨ts, e, hp⟩ := path_extend h2 g2 hl
          rw [(path_stop hp (Or.inl h3)).1, List.append_nil] at e
          exact e.symm
        · obtain ⟨ts, e, hp⟩ := path_extend g2 h2 (by omega)
          rw [(path_stop hp (Or.inl g3)).1, List.append_nil] at e
          exact e
      subst this
      rw [h, huniq h4 (hrev g4)]
    · exfalso
      by_cases hl : rs.length ≤ rs'.length
      · obtain ⟨ts, e, hp⟩ := path_extend h2 g2 hl
        obtain ⟨_, rfl⟩ := path_stop hp (Or.inl h3)
        obtain ⟨ga, gb, gc⟩ := g3
        rcases h3 with h3 | h3
        · exact h3 ga
        · omega
      · obtain ⟨ts, e, hp⟩ := path_extend g2 h2 (by omega)
        obtain ⟨_, rfl⟩ := path_stop hp (Or.inr g3)
        obtain ⟨ga, gb, gc⟩ := g3
        rcases h3 with h3 | h3
        · exact h3 ga
        · omega
    · exfalso
      obtain ⟨ts, e, hp⟩ := path_extend h2 g2 (by omega)
      have := (path_stop hp (Or.inl h3)).1
      subst this
      rw [e] at g1
      simp at g1; omega

/-- C26, finding: any chain of 366 or more records is refused, even if it ends properly. -/
theorem activity_366_refused (b : Bytes) (p q : Int) (rs : List Bytes) (hl : 366 ≤ rs.length)
    (h : Path b p rs q) : parseActivityRecords b p = .err "exceeded maximum record count" := by
  rcases activity_outcome b p with ⟨rs', q', ms, g1, g2, g3, g4, hh⟩ | ⟨rs', q', g1, g2, g3, hh⟩ | ⟨rs', q', g1, g2, hh⟩
  · obtain ⟨ts, e, hp⟩ := path_extend g2 h (by omega)
    have := (path_stop hp (Or.inl g3)).1
    subst this
    rw [e] at hl; simp at hl; omega
  · obtain ⟨ts, e, hp⟩ := path_extend g2 h (by omega)
    have := (path_stop hp (Or.inr g3)).1
    subst this
    rw [e] at hl; simp at hl; omega
  · exact hh

end Tacho
