import Verif.Spec.Chunks
import Verif.Lemmas.Bytes
/-!
# The scanner state machine refines buffer-free chunking
-/

namespace Tacho
open Spec

/-- Reachable scanner states. -/
structure ScanSt.Inv (st : ScanSt) : Prop where
  le : st.start ≤ st.stop
  stop_le : st.stop ≤ st.buf.length
  buf_le : st.buf.length ≤ 65536
  eof_rest : st.eof = true → st.rest = []
  eof_lt : st.eof = true → st.stop - st.start < 65536

/-- Everything not yet delivered. -/
def ScanSt.pending (st : ScanSt) : Bytes := sl st.buf st.start st.stop ++ st.rest

theorem ScanSt.init_inv (d : Bytes) : (ScanSt.init d).Inv := by
  constructor <;> simp [ScanSt.init]

theorem ScanSt.shift_pending {st : ScanSt} (h : st.Inv) : st.shift.pending = st.pending := by
  unfold ScanSt.shift
  split
  · simp only [ScanSt.pending]
    congr 1
    have hl : (sl st.buf st.start st.stop).length = st.stop - st.start := sl_length_of h.stop_le
    rw [sl_append_left (by omega), ← hl, sl_full]
  · rfl

theorem ScanSt.shift_inv {st : ScanSt} (h : st.Inv) (he : st.eof = false) : st.shift.Inv := by
  unfold ScanSt.shift
  have h1 := h.le; have h2 := h.stop_le; have h3 := h.buf_le
  split
  · constructor <;> simp_all <;> omega
  · exact h

theorem ScanSt.shift_eof (st : ScanSt) : st.shift.eof = st.eof := by
  unfold ScanSt.shift; split <;> rfl
theorem ScanSt.shift_rest (st : ScanSt) : st.shift.rest = st.rest := by
  unfold ScanSt.shift; split <;> rfl
theorem ScanSt.shift_old (st : ScanSt) : st.shift.old = st.old := by
  unfold ScanSt.shift; split <;> rfl

theorem ScanSt.grow_spec {st st' : ScanSt} (h : st.Inv) (he : st.eof = false)
    (hg : st.grow = some st') :
    st'.Inv ∧ st'.pending = st.pending ∧ st'.rest = st.rest ∧ st'.eof = false ∧
      st'.stop < st'.buf.length := by
  have h1 := h.le; have h2 := h.stop_le; have h3 := h.buf_le
  have hl : (sl st.buf st.start st.stop).length = st.stop - st.start := sl_length_of h.stop_le
  unfold ScanSt.grow at hg
  split at hg
  · rename_i hfull
    split at hg
    · cases hg
    · rename_i hmax
      simp only [maxTokenSize, startBufSize] at *
      cases hg
      have hsz : ((sl st.buf st.start st.stop) ++ zeros ((min (if st.buf.length * 2 = 0 then 4096 else st.buf.length * 2) 65536) - (sl st.buf st.start st.stop).length)).length
          = min (if st.buf.length * 2 = 0 then 4096 else st.buf.length * 2) 65536 := by
        rw [List.length_append, zeros_length, hl]
        split <;> omega
      have hgt : st.stop - st.start < min (if st.buf.length * 2 = 0 then 4096 else st.buf.length * 2) 65536 := by
        split <;> omega
      refine ⟨?_, ?_, rfl, he, ?_⟩
      · constructor
        · simp
        · simp only [hsz]; omega
        · simp only [hsz]; omega
        · simp [he]
        · simp [he]
      · simp only [ScanSt.pending]
        congr 1
        rw [sl_append_left (by omega), ← hl, sl_full]
      · simp only [hsz]; exact hgt
  · cases hg
    exact ⟨h, rfl, rfl, he, by omega⟩

theorem ScanSt.read_spec {st : ScanSt} (h : st.Inv) (he : st.eof = false)
    (hroom : st.stop < st.buf.length) :
    st.read.Inv ∧ st.read.pending = st.pending ∧ st.read.reads < st.reads := by
  have h1 := h.le; have h2 := h.stop_le; have h3 := h.buf_le
  unfold ScanSt.read
  split
  · rename_i hrest
    refine ⟨?_, rfl, ?_⟩
    · constructor
      · exact h1
      · exact h2
      · exact h3
      · intro _; exact hrest
      · intro _; simp only; omega
    · simp [ScanSt.reads, he]
  · rename_i hd tl hrest
    generalize hn : min (st.buf.length - st.stop) st.rest.length = n
    have hr : st.rest.length = tl.length + 1 := by rw [hrest]; rfl
    have hlen : (st.buf.take st.stop ++ st.rest.take n ++ st.buf.drop (st.stop + n)).length = st.buf.length := by
      simp only [List.length_append, List.length_take, List.length_drop]; omega
    refine ⟨?_, ?_, ?_⟩
    · constructor
      · simp only; omega
      · simp only [hlen]; omega
      · simp only [hlen]; omega
      · simp [he]
      · simp [he]
    · simp only [ScanSt.pending]
      have hA : (st.buf.take st.stop).length = st.stop := by simp; omega
      have hT : (st.rest.take n).length = n := by simp; omega
      have hAT : (st.buf.take st.stop ++ st.rest.take n).length = st.stop + n := by
        rw [List.length_append, hA, hT]
      rw [sl_append_left (by omega), sl, List.take_of_length_le (by omega),
        List.drop_append_of_le_length (by omega), List.append_assoc, List.take_append_drop]
      rfl
    · simp only [ScanSt.reads, he, List.length_drop]; simp; omega

theorem ScanSt.fill_spec {st st' : ScanSt} (h : st.Inv) (he : st.eof = false)
    (hf : st.fill = some st') :
    st'.Inv ∧ st'.pending = st.pending ∧ st'.reads < st.reads := by
  unfold ScanSt.fill at hf
  cases hg : st.shift.grow with
  | none => simp [hg] at hf
  | some s =>
    simp [hg] at hf; subst hf
    have he' : st.shift.eof = false := by rw [ScanSt.shift_eof, he]
    obtain ⟨i, p, r, e, room⟩ := ScanSt.grow_spec (ScanSt.shift_inv h he) he' hg
    obtain ⟨i2, p2, r2⟩ := ScanSt.read_spec i e room
    refine ⟨i2, ?_, ?_⟩
    · rw [p2, p, ScanSt.shift_pending h]
    · simp only [ScanSt.reads, r, e, ScanSt.shift_rest, he] at r2 ⊢; exact r2

theorem ScanSt.fill_none {st : ScanSt} (h : st.Inv) (he : st.eof = false) (hf : st.fill = none) :
    (sl st.buf st.start st.stop).length = 65536 := by
  have h1 := h.le; have h2 := h.stop_le; have h3 := h.buf_le
  have hi := ScanSt.shift_inv h he
  unfold ScanSt.fill at hf
  have hg : st.shift.grow = none := by simpa using hf
  unfold ScanSt.grow at hg
  split at hg
  · rename_i hfull
    split at hg
    · rename_i hmax
      simp only [maxTokenSize] at hmax
      rw [sl_length_of h2]
      unfold ScanSt.shift at hfull hmax
      split at hfull
      · simp only [List.length_append, List.length_drop, sl_length_of h2] at hfull hmax
        rw [if_pos ‹_›] at hmax
        simp only [List.length_append, List.length_drop, sl_length_of h2] at hmax
        omega
      · rename_i hns
        rw [if_neg hns] at hmax
        omega
    · cases hg
  · cases hg

/-- The scanner delivers exactly the records of buffer-free chunking. -/
theorem scanRun_chunks {split : SplitFn} (hs : Stable split) (st : ScanSt) (h : st.Inv) :
    ((scanRun split st).toks.map Tok.bytes, (scanRun split st).err) = chunks split st.pending := by
  induction st using scanRun.induct split with
  | case1 st m hnext =>
    have hl : look split st.pending = .fail m := by
      have hn := hnext
      simp only [ScanSt.next] at hn
      split at hn
      · unfold look
        cases he : st.eof with
        | true =>
          rw [he] at hn
          have hr := h.eof_rest he
          have hlt := h.eof_lt he
          rw [if_pos (by simp [ScanSt.pending, hr]; omega)]
          simpa [ScanSt.pending, hr] using hn
        | false =>
          rw [he] at hn
          split
          · exact hs.fail _ _ hn _ _
          · have : (st.pending.take 65536) = sl st.buf st.start st.stop ++ st.rest.take (65536 - (sl st.buf st.start st.stop).length) := by
              simp only [ScanSt.pending]
              rw [List.take_append, List.take_of_length_le]
              rw [sl_length_of h.stop_le]; have := h.stop_le; have := h.buf_le; omega
            rw [this, hs.fail _ _ hn]
      · cases hn
    rw [scanRun, chunks, hl]
    rw [hnext]
    rfl
  | case2 st n hnext hn ih =>
    have hl : look split st.pending = .token n := by
      have hn := hnext
      simp only [ScanSt.next] at hn
      split at hn
      · unfold look
        cases he : st.eof with
        | true =>
          rw [he] at hn
          have hr := h.eof_rest he
          have hlt := h.eof_lt he
          rw [if_pos (by simp [ScanSt.pending, hr]; omega)]
          simpa [ScanSt.pending, hr] using hn
        | false =>
          rw [he] at hn
          split
          · exact hs.tok _ _ hn _ _
          · have : (st.pending.take 65536) = sl st.buf st.start st.stop ++ st.rest.take (65536 - (sl st.buf st.start st.stop).length) := by
              simp only [ScanSt.pending]
              rw [List.take_append, List.take_of_length_le]
              rw [sl_length_of h.stop_le]; have := h.stop_le; have := h.buf_le; omega
            rw [this, hs.tok _ _ hn]
      · cases hn
    have h1 := h.le; have h2 := h.stop_le; have h3 := h.buf_le
    have hinv : ({ st with start := st.start + n } : ScanSt).Inv := by
      constructor
      · simp only; omega
      · exact h2
      · exact h3
      · exact h.eof_rest
      · intro he; have := h.eof_lt he; simp only at this ⊢; omega
    have ih := ih hinv
    have hspl : sl st.buf st.start st.stop
        = sl st.buf st.start (st.start + n) ++ sl st.buf (st.start + n) st.stop := by
      rw [sl_append (by omega) (by omega)]
    have hlen : (sl st.buf st.start (st.start + n)).length = n := by rw [sl_length_of (by omega)]; omega
    have hp : st.pending = sl st.buf st.start (st.start + n)
        ++ ({ st with start := st.start + n } : ScanSt).pending := by
      simp only [ScanSt.pending]
      rw [hspl, List.append_assoc]
    rw [scanRun, chunks, hl]
    rw [hnext]
    have hpl : n ≤ st.pending.length := by rw [hp, List.length_append, hlen]; omega
    simp only [hn, and_self, dite_true, hpl, if_true]
    rw [hp, List.drop_left' hlen, List.take_left' hlen, ← ih]
    simp
  | case3 st n hnext hn =>
    exfalso
    have hn' := hnext
    simp only [ScanSt.next] at hn'
    split at hn'
    · have := hs.len _ _ _ hn'
      rw [sl_length_of h.stop_le] at this
      exact hn this
    · cases hn'
  | case4 st hnext he =>
    have hn := hnext
    simp only [ScanSt.next, he, or_true, if_true] at hn
    have hr := h.eof_rest he
    have hlt := h.eof_lt he
    have hl : look split st.pending = .more := by
      unfold look
      rw [if_pos (by simp [ScanSt.pending, hr]; omega)]
      simpa [ScanSt.pending, hr] using hn
    rw [scanRun, chunks, hl]
    rw [hnext]
    simp only [he, if_true]
    rfl
  | case5 st hnext he hf =>
    have he' : st.eof = false := by simpa using he
    have hlen := ScanSt.fill_none h he' hf
    have hn := hnext
    simp only [ScanSt.next] at hn
    have hgt : st.stop > st.start := by
      rw [sl_length_of h.stop_le] at hlen; omega
    simp only [hgt, true_or, if_true, he'] at hn
    have hl : look split st.pending = .fail "bufio.Scanner: token too long" := by
      unfold look
      rw [if_neg (by simp only [ScanSt.pending, List.length_append]; omega)]
      have : st.pending.take 65536 = sl st.buf st.start st.stop := by
        simp only [ScanSt.pending]; rw [List.take_left' hlen]
      rw [this, hn]
    rw [scanRun, chunks, hl]
    rw [hnext]
    simp only [he']
    simp only [Bool.false_eq_true, if_false]
    split
    · rfl
    · rename_i st' hf'; rw [hf] at hf'; cases hf'
  | case6 st hnext he st' hf hp ih =>
    have he' : st.eof = false := by simpa using he
    obtain ⟨i, p, r⟩ := ScanSt.fill_spec h he' hf
    have ih := ih i
    rw [p] at ih
    rw [scanRun, ← ih]
    rw [hnext]
    simp only [he, Bool.false_eq_true, if_false]
    split
    · rename_i hf'; rw [hf] at hf'; cases hf'
    · rename_i s hf'; rw [hf] at hf'; cases hf'
      simp [r]
  | case7 st hnext he st' hf hp =>
    have he' : st.eof = false := by simpa using he
    exact absurd (ScanSt.fill_spec h he' hf).2.2 hp

theorem scanAll_chunks {split : SplitFn} (hs : Stable split) (d : Bytes) :
    ((scanAll split d).toks.map Tok.bytes, (scanAll split d).err) = chunks split d := by
  have := scanRun_chunks hs (ScanSt.init d) (ScanSt.init_inv d)
  simpa [scanAll, ScanSt.pending, ScanSt.init] using this

end Tacho
