import Verif.Lemmas.RecordFile
import Verif.Lemmas.Scanner
/-!
# C05: slices of the scanner's buffer that parsed records keep

Records of `n` bytes are read with `bufio.Scanner` and keep `scanner.Bytes()` (or parts of it). What they
hold afterwards is what the scanner's buffers show when scanning has ended.
-/

namespace Tacho
open Spec

/-- Every retained token still shows the bytes it showed when it was delivered. -/
def Spec.AllRetained (n : Nat) (input : Bytes) : Prop :=
  ∀ t ∈ (scanAll (splitFixed n) input).toks, deref (scanAll (splitFixed n) input).heap t.ref = some t.bytes

/-- Sizes for which nothing is ever moved over a delivered record: the input fits the first buffer, and
either it has no partial record at its end or scanning stops in the first half of the buffer. -/
def Spec.NeverMoved (n size : Nat) : Prop :=
  size ≤ 4096 ∧ (size % n = 0 ∨ (size < 4096 ∧ size - size % n ≤ 2048))

theorem next_fixed {n : Nat} (h0 : 0 < n) {st : ScanSt} (hs : st.stop ≤ st.buf.length) :
    st.next (splitFixed n) = if n ≤ st.stop - st.start then .token n else .more := by
  have hl : (sl st.buf st.start st.stop).length = st.stop - st.start := sl_length_of hs
  unfold ScanSt.next splitFixed
  rw [hl]
  by_cases h : n ≤ st.stop - st.start
  · rw [if_pos (by omega), if_neg (by omega), if_pos h]
  · rw [if_neg h]
    split
    · rw [if_pos (by omega)]
    · rfl

theorem scanRun_token {n : Nat} (h0 : 0 < n) {st : ScanSt} (hs : st.stop ≤ st.buf.length) (h : n ≤ st.stop - st.start) :
    scanRun (splitFixed n) st =
      let r := scanRun (splitFixed n) { st with start := st.start + n }
      { r with toks := { ref := { buf := st.old.length, off := st.start, len := n }
                         bytes := sl st.buf st.start (st.start + n) } :: r.toks } := by
  rw [scanRun]
  rw [next_fixed h0 hs, if_pos h]
  dsimp only
  rw [dif_pos ⟨h0, h⟩]

theorem scanRun_end {n : Nat} (h0 : 0 < n) {st : ScanSt} (hs : st.stop ≤ st.buf.length) (h : st.stop - st.start < n)
    (he : st.eof = true) : scanRun (splitFixed n) st = { toks := [], err := none, heap := st.old ++ [st.buf] } := by
  rw [scanRun]
  rw [next_fixed h0 hs, if_neg (by omega)]
  dsimp only
  rw [if_pos he]

theorem scanRun_fill {n : Nat} (h0 : 0 < n) {st st' : ScanSt} (hs : st.stop ≤ st.buf.length) (h : st.stop - st.start < n)
    (he : st.eof = false) (hf : st.fill = some st') (hr : st'.reads < st.reads) :
    scanRun (splitFixed n) st = scanRun (splitFixed n) st' := by
  rw [scanRun]
  rw [next_fixed h0 hs, if_neg (by omega)]
  dsimp only
  rw [if_neg (by simp [he])]
  split
  · rename_i hf'; rw [hf] at hf'; cases hf'
  · rename_i s hf'
    rw [hf] at hf'
    injection hf' with hf'
    subst hf'
    rw [dif_pos hr]

/-- Working states after the first read: one 4096 byte buffer, no growth. -/
structure Working (st : ScanSt) : Prop where
  old : st.old = [[]]
  len : st.buf.length = 4096
  le : st.start ≤ st.stop
  stop : st.stop ≤ 4096

/-- Refilling a working state that has less than a whole record left. -/
theorem fill_working {n : Nat} (h0 : 0 < n) (hn : n ≤ 2048) {st : ScanSt} (hw : Working st) (h : st.stop - st.start < n) :
    st.fill = some st.shift.read ∧ Working st.shift ∧ st.shift.stop < 4096 := by
  have h1 := hw.old; have h2 := hw.len; have h3 := hw.le; have h4 := hw.stop
  have hs : Working st.shift ∧ st.shift.stop < 4096 := by
    unfold ScanSt.shift
    split
    · rename_i hc
      have hl : (sl st.buf st.start st.stop).length = st.stop - st.start := sl_length_of (by omega)
      refine ⟨⟨h1, ?_, by simp, ?_⟩, ?_⟩
      · simp only [List.length_append, List.length_drop, hl]; omega
      · simp only; omega
      · simp only; omega
    · exact ⟨hw, by omega⟩
  refine ⟨?_, hs⟩
  unfold ScanSt.fill ScanSt.grow
  rw [if_neg (by have := hs.1.len; omega)]
  rfl

theorem read_working {st : ScanSt} (hw : Working st) (he : st.eof = false) (hs : st.stop < 4096) :
    Working st.read ∧ st.read.reads < st.reads := by
  have h1 := hw.old; have h2 := hw.len; have h3 := hw.le; have h4 := hw.stop
  unfold ScanSt.read
  split
  · exact ⟨⟨h1, h2, h3, h4⟩, by simp [ScanSt.reads, he]⟩
  · rename_i hd tl hrest
    have hr : st.rest.length = tl.length + 1 := by rw [hrest]; rfl
    refine ⟨⟨h1, ?_, ?_, ?_⟩, ?_⟩
    · simp only [List.length_append, List.length_take, List.length_drop]; omega
    · simp only; omega
    · simp only; omega
    · simp only [ScanSt.reads, he, List.length_drop]; simp; omega

/-! ## The buffer is never moved over delivered records -/

theorem shift_keeps {st : ScanSt} (hw : Working st)
    (h : st.stop = st.start ∨ (st.stop < 4096 ∧ st.start ≤ 2048)) : st.shift.buf = st.buf := by
  have h2 := hw.len
  unfold ScanSt.shift
  split
  · rename_i hc
    rcases h with h | h
    · rw [h]; simp
    · omega
  · rfl

/-- Draining the first buffer when nothing is left to read. -/
theorem drain_clean {n : Nat} (h0 : 0 < n) (hn : n ≤ 2048) (k : Nat) (st : ScanSt) (hw : Working st) (he : st.eof = false)
    (hrest : st.rest = []) (hk : (st.stop - st.start) / n = k)
    (hsafe : (st.stop - st.start) % n = 0 ∨ (st.stop < 4096 ∧ st.stop - (st.stop - st.start) % n ≤ 2048)) :
    (scanRun (splitFixed n) st).heap = [[], st.buf] ∧
    ∀ t ∈ (scanRun (splitFixed n) st).toks, deref [[], st.buf] t.ref = some t.bytes := by
  induction k generalizing st with
  | zero =>
    have hlt : st.stop - st.start < n := by
      rw [Nat.div_eq_zero_iff] at hk; omega
    have h2 := hw.len; have h3 := hw.le
    rw [Nat.mod_eq_of_lt hlt] at hsafe
    obtain ⟨hf, hws, hss⟩ := fill_working h0 hn hw hlt
    have hes : st.shift.eof = false := by rw [ScanSt.shift_eof, he]
    have hrs : st.shift.rest = [] := by rw [ScanSt.shift_rest, hrest]
    obtain ⟨hwr, hrr⟩ := read_working hws hes hss
    have hread : st.shift.read = { st.shift with eof := true } := by
      unfold ScanSt.read; rw [hrs]; simp only; rw [hrs]
    have hreads : st.shift.reads = st.reads := by
      unfold ScanSt.reads; rw [ScanSt.shift_rest, ScanSt.shift_eof]
    have hd : st.shift.stop - st.shift.start < n := by
      unfold ScanSt.shift; split
      · simp only; omega
      · exact hlt
    rw [scanRun_fill h0 (by have := hw.stop; omega) hlt he hf (by omega), hread,
      scanRun_end h0 (st := { st.shift with eof := true }) (by have := hws.stop; have := hws.len; simp only; omega) hd rfl]
    have hb := shift_keeps hw (by omega)
    simp only [ScanSt.shift_old, hw.old, hb]
    exact ⟨rfl, by simp⟩
  | succ k ih =>
    have hle : n ≤ st.stop - st.start := by
      apply Nat.le_of_not_lt
      intro hc
      rw [Nat.div_eq_of_lt hc] at hk
      cases hk
    have h2 := hw.len; have h3 := hw.le; have h4 := hw.stop
    have hsub : st.stop - (st.start + n) = st.stop - st.start - n := by omega
    have hmod : (st.stop - (st.start + n)) % n = (st.stop - st.start) % n := by
      rw [hsub, ← Nat.mod_eq_sub_mod hle]
    obtain ⟨ih1, ih2⟩ := ih { st with start := st.start + n } ⟨hw.old, hw.len, by simp only; omega, hw.stop⟩ he hrest
      (by simp only; rw [hsub]; rw [Nat.div_eq_sub_div h0 hle] at hk; omega) (by simp only; rw [hmod]; exact hsafe)
    rw [scanRun_token h0 (by omega) hle]
    dsimp only at ih1 ih2 ⊢
    refine ⟨ih1, ?_⟩
    rw [List.forall_mem_cons]
    refine ⟨?_, ih2⟩
    rw [hw.old]
    simp [deref]

theorem init_fill (input : Bytes) :
    (ScanSt.init input).fill = some
      ({ old := [[]], buf := zeros 4096, start := 0, stop := 0, eof := false, rest := input } : ScanSt).read := by
  have hs : (ScanSt.init input).shift = ScanSt.init input := rfl
  have hg : (ScanSt.init input).grow =
      some { old := [[]], buf := zeros 4096, start := 0, stop := 0, eof := false, rest := input } := by
    unfold ScanSt.grow ScanSt.init
    simp only [maxTokenSize, startBufSize, List.length_nil, if_true, Nat.zero_mul, sl, List.take_nil, List.drop_nil,
      List.nil_append, Nat.sub_zero]
    rw [if_neg (by omega)]
    rfl
  unfold ScanSt.fill
  rw [hs, hg]
  rfl

/-- The first read. -/
theorem first_fill {n : Nat} (h0 : 0 < n) (input : Bytes) (hne : input ≠ []) :
    ∃ st, scanAll (splitFixed n) input = scanRun (splitFixed n) st ∧ Working st ∧ st.eof = false ∧ st.start = 0 ∧
      st.stop = min 4096 input.length ∧ st.rest = input.drop 4096 ∧ st.buf.take st.stop = input.take 4096 := by
  have hlen : 0 < input.length := List.length_pos_iff.mpr hne
  obtain ⟨hd, tl, rfl⟩ : ∃ hd tl, input = hd :: tl := by
    cases input with
    | nil => exact absurd rfl hne
    | cons a b => exact ⟨a, b, rfl⟩
  have hf := init_fill (hd :: tl)
  have hread : ({ old := [[]], buf := zeros 4096, start := 0, stop := 0, eof := false, rest := hd :: tl } : ScanSt).read =
      { old := [[]], buf := (zeros 4096).take 0 ++ (hd :: tl).take (min ((zeros 4096).length - 0) (hd :: tl).length) ++
          (zeros 4096).drop (0 + min ((zeros 4096).length - 0) (hd :: tl).length),
        start := 0, stop := 0 + min ((zeros 4096).length - 0) (hd :: tl).length, eof := false,
        rest := (hd :: tl).drop (min ((zeros 4096).length - 0) (hd :: tl).length) } := rfl
  rw [hread, zeros_length, Nat.sub_zero, Nat.zero_add, List.take_zero, List.nil_append] at hf
  refine ⟨{ old := [[]], buf := (hd :: tl).take (min 4096 (hd :: tl).length) ++ (zeros 4096).drop (min 4096 (hd :: tl).length),
            start := 0, stop := min 4096 (hd :: tl).length, eof := false,
            rest := (hd :: tl).drop (min 4096 (hd :: tl).length) }, ?_, ?_, rfl, rfl, rfl, ?_, ?_⟩
  · unfold scanAll
    refine scanRun_fill h0 ?_ ?_ rfl hf ?_
    · simp [ScanSt.init]
    · simp [ScanSt.init]; omega
    · simp only [ScanSt.init, ScanSt.reads, List.length_drop]
      simp only [Bool.false_eq_true, if_false]; omega
  · refine ⟨rfl, ?_, ?_, ?_⟩
    · simp only [List.length_append, List.length_take, List.length_drop, zeros_length]; omega
    · simp only; omega
    · simp only; omega
  · by_cases h : (hd :: tl).length ≤ 4096
    · simp only
      rw [Nat.min_eq_right h, List.drop_length, List.drop_eq_nil_of_le h]
    · rw [Nat.min_eq_left (by omega)]
  · simp only
    rw [List.take_left' (by rw [List.length_take]; omega)]
    by_cases h : (hd :: tl).length ≤ 4096
    · rw [Nat.min_eq_right h, List.take_of_length_le (by omega), List.take_of_length_le h]
    · rw [Nat.min_eq_left (by omega)]

/-- C05, where it holds: for these sizes every retained slice equals its input bytes. -/
theorem retained_safe {n : Nat} (h0 : 0 < n) (hn : n ≤ 2048) (input : Bytes) (hsafe : NeverMoved n input.length) :
    AllRetained n input := by
  unfold AllRetained
  obtain ⟨hle, hsafe⟩ := hsafe
  by_cases hne : input = []
  · subst hne
    have : (scanAll (splitFixed n) []).toks = [] := by
      have hf : (ScanSt.init []).fill = some { old := [[]], buf := zeros 4096, start := 0, stop := 0, eof := true, rest := [] } := rfl
      unfold scanAll
      rw [scanRun_fill h0 (by simp [ScanSt.init]) (by simp [ScanSt.init]; omega) rfl hf (by simp [ScanSt.init, ScanSt.reads]),
        scanRun_end h0 (by simp) (by simp; omega) rfl]
    rw [this]
    simp
  · obtain ⟨st, h1, hw, he, hs0, hs1, hrest, hbuf⟩ := first_fill h0 input hne
    rw [Nat.min_eq_right hle] at hs1
    obtain ⟨h2, h3⟩ := drain_clean h0 hn _ st hw he (by rw [hrest, List.drop_eq_nil_of_le hle]) rfl
      (by rw [hs0, hs1, Nat.sub_zero]; exact hsafe)
    rw [h1, h2]
    exact h3

/-! ## The buffer is moved over the first record -/

/-- Position `i` of the buffer shows a later byte of the input. -/
def Moved (i : Nat) (input : Bytes) (st : ScanSt) : Prop := ∃ v, 0 < v ∧ v + i < input.length ∧ st.buf[i]? = input[v + i]?

/-- The buffer shows the input from position `w`. -/
structure Window (input : Bytes) (w : Nat) (st : ScanSt) : Prop where
  buf : st.buf.take st.stop = sl input w (w + st.stop)
  rest : st.rest = input.drop (w + st.stop)
  le : w + st.stop ≤ input.length

theorem window_get {input : Bytes} {w : Nat} {st : ScanSt} (hw : Window input w st) {i : Nat} (hi : i < st.stop) :
    st.buf[i]? = input[w + i]? := by
  have := congrArg (·[i]?) hw.buf
  simp only [sl, List.getElem?_take, List.getElem?_drop, hi, if_true] at this
  rw [if_pos (by omega)] at this
  exact this

theorem window_shift {input : Bytes} {w : Nat} {st : ScanSt} (hk : Working st) (hw : Window input w st) :
    ∃ w', Window input w' st.shift ∧ w ≤ w' ∧ (st.shift = st ∨ 0 < w') ∧
      ∀ i, st.shift.stop ≤ i → st.shift.buf[i]? = st.buf[i]? := by
  have h2 := hk.len; have h3 := hk.le; have h4 := hk.stop
  unfold ScanSt.shift
  split
  · rename_i hc
    have hl : (sl st.buf st.start st.stop).length = st.stop - st.start := sl_length_of (by omega)
    have hsl : sl st.buf st.start st.stop = sl input (w + st.start) (w + st.stop) := by
      unfold sl
      rw [hw.buf, sl, List.drop_drop]
    refine ⟨w + st.start, ⟨?_, ?_, ?_⟩, by omega, Or.inr (by omega), fun i hi => ?_⟩
    · simp only
      rw [List.take_left' hl, hsl]
      congr 1; omega
    · simp only
      rw [hw.rest]; congr 1; omega
    · have := hw.le; simp only; omega
    · simp only at hi ⊢
      rw [List.getElem?_append_right (by omega), List.getElem?_drop]
      congr 1; omega
  · exact ⟨w, hw, Nat.le_refl _, Or.inl rfl, fun _ _ => rfl⟩

theorem window_read {input : Bytes} {w : Nat} {st : ScanSt} (hk : Working st) (hw : Window input w st) (hs : st.stop < 4096) :
    Window input w st.read ∧ st.read.stop = st.stop + min (4096 - st.stop) st.rest.length ∧
      ∀ i, st.read.stop ≤ i → st.read.buf[i]? = st.buf[i]? := by
  have h2 := hk.len; have h3 := hk.le; have h4 := hk.stop
  unfold ScanSt.read
  split
  · rename_i hr
    exact ⟨⟨hw.buf, hw.rest, hw.le⟩, by simp [hr], fun _ _ => rfl⟩
  · rename_i hd tl hr
    have hrl : st.rest.length = input.length - (w + st.stop) := by rw [hw.rest]; simp
    have hrl' : st.rest.length = tl.length + 1 := by rw [hr]; rfl
    have hlen : (st.buf.take st.stop).length = st.stop := by simp; omega
    refine ⟨⟨?_, ?_, ?_⟩, ?_, ?_⟩
    · simp only
      rw [List.take_left' (by simp; omega), hw.buf, hw.rest]
      rw [show (input.drop (w + st.stop)).take (min (st.buf.length - st.stop) (input.drop (w + st.stop)).length) =
        sl input (w + st.stop) (w + st.stop + min (st.buf.length - st.stop) (input.drop (w + st.stop)).length) by
          unfold sl; rw [List.drop_take]; congr 1; omega]
      rw [sl_append (by omega) (by omega), Nat.add_assoc]
    · simp only
      rw [hw.rest, List.drop_drop]; congr 1; omega
    · simp only; omega
    · simp only [h2]
    · intro i hi
      simp only at hi ⊢
      have hl2 : (st.buf.take st.stop ++ st.rest.take (min (st.buf.length - st.stop) st.rest.length)).length =
          st.stop + min (st.buf.length - st.stop) st.rest.length := by
        rw [List.length_append, hlen, List.length_take]; omega
      rw [List.getElem?_append_right (by omega), List.getElem?_drop]
      congr 1; omega

/-- Once a position shows a later byte it always will. -/
theorem moved_forever {n : Nat} (h0 : 0 < n) (hn : n ≤ 2048) (input : Bytes) (st : ScanSt) (hk : Working st)
    {i w : Nat} (hw0 : 0 < w) (hw : Window input w st) (hm : Moved i input st) :
    ∃ b v, (scanRun (splitFixed n) st).heap = [[], b] ∧ 0 < v ∧ v + i < input.length ∧ b[i]? = input[v + i]? := by
  induction st using scanRun.induct (splitFixed n) generalizing w with
  | case1 st m hnext =>
    rw [next_fixed h0 (by rw [hk.len]; exact hk.stop)] at hnext
    split at hnext <;> cases hnext
  | case2 st m hnext hm' ih =>
    rw [next_fixed h0 (by rw [hk.len]; exact hk.stop)] at hnext
    split at hnext
    · injection hnext with hnext
      subst hnext
      rw [scanRun_token h0 (by rw [hk.len]; exact hk.stop) hm'.2]
      have := hk.le
      exact ih ⟨hk.old, hk.len, by simp only; omega, hk.stop⟩ (w := w) hw0 ⟨hw.buf, hw.rest, hw.le⟩ hm
    · cases hnext
  | case3 st m hnext hm' =>
    rw [next_fixed h0 (by rw [hk.len]; exact hk.stop)] at hnext
    split at hnext
    · injection hnext with hnext
      subst hnext
      omega
    · cases hnext
  | case4 st hnext he =>
    rw [next_fixed h0 (by rw [hk.len]; exact hk.stop)] at hnext
    split at hnext
    · cases hnext
    · rw [scanRun_end h0 (by rw [hk.len]; exact hk.stop) (by omega) he, hk.old]
      obtain ⟨v, h1, h2, h3⟩ := hm
      exact ⟨_, v, rfl, h1, h2, h3⟩
  | case5 st hnext he hf =>
    rw [next_fixed h0 (by rw [hk.len]; exact hk.stop)] at hnext
    split at hnext
    · cases hnext
    · rw [(fill_working h0 hn hk (by omega)).1] at hf
      cases hf
  | case6 st hnext he st' hf hp ih =>
    rw [next_fixed h0 (by rw [hk.len]; exact hk.stop)] at hnext
    split at hnext
    · cases hnext
    rename_i hlt
    have he' : st.eof = false := by simpa using he
    obtain ⟨hf', hks, hss⟩ := fill_working h0 hn hk (by omega)
    rw [scanRun_fill h0 (by rw [hk.len]; exact hk.stop) (by omega) he' hf hp]
    rw [hf'] at hf
    injection hf with hf
    subst hf
    obtain ⟨w', hw', hle, _, hsh⟩ := window_shift hk hw
    have hes : st.shift.eof = false := by rw [ScanSt.shift_eof, he']
    obtain ⟨hwr, hst, hre⟩ := window_read hks hw' hss
    obtain ⟨hkr, _⟩ := read_working hks hes hss
    refine ih hkr (w := w') (by omega) hwr ?_
    by_cases hpos : i < st.shift.read.stop
    · have hg := window_get hwr hpos
      have hle := hwr.le
      exact ⟨w', by omega, by omega, hg⟩
    · obtain ⟨v, h1, h2, h3⟩ := hm
      refine ⟨v, h1, h2, ?_⟩
      rw [hre i (by omega), hsh i (by omega)]
      exact h3
  | case7 st hnext he st' hf hp =>
    rw [next_fixed h0 (by rw [hk.len]; exact hk.stop)] at hnext
    split at hnext
    · cases hnext
    have he' : st.eof = false := by simpa using he
    obtain ⟨hf', hks, hss⟩ := fill_working h0 hn hk (by omega)
    have hes : st.shift.eof = false := by rw [ScanSt.shift_eof, he']
    rw [hf'] at hf
    injection hf with hf
    subst hf
    have := (read_working hks hes hss).2
    have hreads : st.shift.reads = st.reads := by
      unfold ScanSt.reads; rw [ScanSt.shift_rest, ScanSt.shift_eof]
    omega

/-- Draining the first window when its tail has to be moved. -/
theorem drain_moved {n : Nat} (h0 : 0 < n) (hn : n ≤ 2048) (input : Bytes) (k : Nat) (st : ScanSt) (hk : Working st)
    (he : st.eof = false) (hw : Window input 0 st) (hkn : (st.stop - st.start) / n = k)
    (hpos : 0 < st.stop - (st.stop - st.start) % n)
    (hmove : st.stop = 4096 ∨ 2048 < st.stop - (st.stop - st.start) % n)
    {i : Nat} (hi : i < n) (hmore : i < (st.stop - st.start) % n + st.rest.length) :
    ∃ b v, (scanRun (splitFixed n) st).heap = [[], b] ∧ 0 < v ∧ v + i < input.length ∧ b[i]? = input[v + i]? := by
  induction k generalizing st with
  | zero =>
    have hlt : st.stop - st.start < n := by
      rw [Nat.div_eq_zero_iff] at hkn; omega
    have h2 := hk.len; have h3 := hk.le; have h4 := hk.stop
    rw [Nat.mod_eq_of_lt hlt] at hpos hmove hmore
    obtain ⟨hf, hks, hss⟩ := fill_working h0 hn hk hlt
    have hes : st.shift.eof = false := by rw [ScanSt.shift_eof, he]
    obtain ⟨hkr, hrr⟩ := read_working hks hes hss
    have hreads : st.shift.reads = st.reads := by
      unfold ScanSt.reads; rw [ScanSt.shift_rest, ScanSt.shift_eof]
    have hshift : st.shift.stop = st.stop - st.start := by
      unfold ScanSt.shift; rw [if_pos (by omega)]
    rw [scanRun_fill h0 (by omega) hlt he hf (by omega)]
    obtain ⟨w', hw', _, hcase, _⟩ := window_shift hk hw
    obtain ⟨hwr, hst, _⟩ := window_read hks hw' hss
    have hw0 : 0 < w' := by
      rcases hcase with hsh | hp0
      · exfalso
        rw [hsh] at hshift
        omega
      · exact hp0
    have hstop : i < st.shift.read.stop := by
      rw [hst, ScanSt.shift_rest, hshift]; omega
    refine moved_forever h0 hn input _ hkr hw0 hwr ?_
    have hg := window_get hwr hstop
    have hle := hwr.le
    exact ⟨w', hw0, by omega, hg⟩
  | succ k ih =>
    have hle : n ≤ st.stop - st.start := by
      apply Nat.le_of_not_lt
      intro hc
      rw [Nat.div_eq_of_lt hc] at hkn
      cases hkn
    have h2 := hk.len; have h3 := hk.le; have h4 := hk.stop
    have hsub : st.stop - (st.start + n) = st.stop - st.start - n := by omega
    have hmod : (st.stop - (st.start + n)) % n = (st.stop - st.start) % n := by
      rw [hsub, ← Nat.mod_eq_sub_mod hle]
    rw [scanRun_token h0 (by omega) hle]
    refine ih { st with start := st.start + n } ⟨hk.old, hk.len, by simp only; omega, hk.stop⟩ he ⟨hw.buf, hw.rest, hw.le⟩
      (by simp only; rw [hsub]; rw [Nat.div_eq_sub_div h0 hle] at hkn; omega) ?_ ?_ ?_
    · simp only; rw [hmod]; exact hpos
    · simp only; rw [hmod]; exact hmove
    · simp only; rw [hmod]; exact hmore

/-- The number of bytes behind the whole records of the first 4096. -/
def Spec.overrun (n size : Nat) : Nat := (min size 4096) % n + (size - 4096)

/-- C05, where it fails: for every other size, what the first record retains shows bytes of the input from
behind it, over the length of the overrun. -/
theorem retained_moved_at {n : Nat} (h0 : 0 < n) (hn : n ≤ 2048) (input : Bytes) (hbad : ¬ NeverMoved n input.length) :
    ∃ t ts, (scanAll (splitFixed n) input).toks = t :: ts ∧ t.bytes = input.take n ∧
      ∃ r, deref (scanAll (splitFixed n) input).heap t.ref = some r ∧
        ∀ i, i < n → i < overrun n input.length → ∃ v, 0 < v ∧ v + i < input.length ∧ r[i]? = input[v + i]? := by
  have hmodlt := Nat.mod_lt input.length h0
  have hmodle := Nat.mod_le input.length n
  have hnl : n ≤ input.length := by
    apply Nat.le_of_not_lt
    intro hc
    exact hbad ⟨by omega, Or.inr ⟨by omega, by rw [Nat.mod_eq_of_lt hc]; omega⟩⟩
  have hne : input ≠ [] := by
    intro h; subst h; simp at hnl; omega
  obtain ⟨st, h1, hk, he, hs0, hs1, hrest, hbuf⟩ := first_fill h0 input hne
  have hw : Window input 0 st := by
    refine ⟨?_, ?_, by omega⟩
    · rw [hbuf, hs1]
      simp only [sl, List.drop_zero, Nat.zero_add]
      by_cases h : input.length ≤ 4096
      · rw [Nat.min_eq_right h, List.take_of_length_le h, List.take_of_length_le (by omega)]
      · rw [Nat.min_eq_left (by omega)]
    · rw [hrest, hs1, Nat.zero_add]
      by_cases h : input.length ≤ 4096
      · rw [Nat.min_eq_right h, List.drop_length, List.drop_eq_nil_of_le h]
      · rw [Nat.min_eq_left (by omega)]
  have hm := fun i => drain_moved (i := i) h0 hn input _ st hk he hw rfl
  rw [hs0, hs1, Nat.sub_zero] at hm
  have key : ∀ i, i < n → i < overrun n input.length →
      ∃ b v, (scanRun (splitFixed n) st).heap = [[], b] ∧ 0 < v ∧ v + i < input.length ∧ b[i]? = input[v + i]? := by
    intro i hi ho
    unfold overrun at ho
    have hmm : min input.length 4096 = min 4096 input.length := Nat.min_comm _ _
    rw [hmm] at ho
    refine hm i ?_ ?_ hi ?_
    · have := Nat.mod_lt (min 4096 input.length) h0
      have := Nat.mod_le (min 4096 input.length) n
      omega
    · by_cases hle : input.length ≤ 4096
      · rw [Nat.min_eq_right hle]
        apply Decidable.byContradiction
        intro h
        exact hbad ⟨hle, Or.inr (by omega)⟩
      · left; omega
    · rw [hrest, List.length_drop]; exact ho
  have hover : 0 < overrun n input.length := by
    unfold overrun
    by_cases hle : input.length ≤ 4096
    · rw [Nat.min_eq_left hle]
      have : input.length % n ≠ 0 := fun h => hbad ⟨hle, Or.inl h⟩
      omega
    · omega
  obtain ⟨b, _, hb1, _⟩ := key 0 h0 hover
  have hstop := hk.stop
  have hlen := hk.len
  rw [scanRun_token h0 (by omega) (by omega)] at h1
  have hb2 := hb1
  rw [scanRun_token h0 (by omega) (by omega)] at hb2
  rw [h1]
  refine ⟨_, _, rfl, ?_, sl b 0 n, ?_, ?_⟩
  · simp only [hs0, Nat.zero_add]
    have := congrArg (List.take n) hbuf
    rw [List.take_take, List.take_take, Nat.min_eq_left (by omega), Nat.min_eq_left (by omega)] at this
    simpa [sl] using this
  · simp only at hb2 ⊢
    rw [hb2, hk.old, hs0]
    simp [deref]
  · intro i hi ho
    obtain ⟨b', v, hb', hv0, hv1, hbi⟩ := key i hi ho
    rw [hb1] at hb'
    simp only [List.cons.injEq, and_true, true_and] at hb'
    subst hb'
    refine ⟨v, hv0, hv1, ?_⟩
    rw [← hbi]
    simp [sl, List.getElem?_take, hi]

/-- C05: the first byte the first record retains is a later one. -/
theorem retained_moved {n : Nat} (h0 : 0 < n) (hn : n ≤ 2048) (input : Bytes) (hbad : ¬ NeverMoved n input.length) :
    ∃ t ts, (scanAll (splitFixed n) input).toks = t :: ts ∧ t.bytes = input.take n ∧
      ∃ r v, deref (scanAll (splitFixed n) input).heap t.ref = some r ∧ 0 < v ∧ v < input.length ∧ r[0]? = input[v]? := by
  obtain ⟨t, ts, h1, h2, r, h3, h4⟩ := retained_moved_at h0 hn input hbad
  have hover : 0 < overrun n input.length := by
    unfold overrun
    by_cases hle : input.length ≤ 4096
    · rw [Nat.min_eq_left hle]
      have : input.length % n ≠ 0 := fun h => hbad ⟨hle, Or.inl h⟩
      omega
    · omega
  obtain ⟨v, h5, h6, h7⟩ := h4 0 h0 hover
  exact ⟨t, ts, h1, h2, r, v, h3, h5, h6, h7⟩

/-- C05 decided: inputs of a given size are retained correctly, whatever their content, exactly for the sizes
the scanner never moves. -/
theorem retained_iff {n : Nat} (h0 : 0 < n) (hn : n ≤ 2048) (size : Nat) :
    (∀ input : Bytes, input.length = size → AllRetained n input) ↔ NeverMoved n size := by
  constructor
  · intro hall
    apply Classical.byContradiction
    intro hbad
    have hsize : size ≠ 0 := by
      rintro rfl
      exact hbad ⟨by omega, Or.inl (Nat.zero_mod n)⟩
    have hlen : ((1 : UInt8) :: zeros (size - 1)).length = size := by simp; omega
    have hr := hall _ hlen
    rw [← hlen] at hbad
    obtain ⟨t, ts, ht, hb, r, v, hd, hv0, hv1, h⟩ := retained_moved h0 hn _ hbad
    have := hr t (by rw [ht]; exact List.mem_cons_self)
    rw [hd, hb] at this
    injection this with this
    subst this
    obtain ⟨v, rfl⟩ : ∃ u, v = u + 1 := ⟨v - 1, by omega⟩
    rw [List.length_cons] at hv1
    rw [List.getElem?_take, if_pos h0, List.getElem?_cons_succ, List.getElem?_cons_zero, zeros,
      List.getElem?_replicate, if_pos (by simpa using hv1)] at h
    injection h with h
    exact absurd h (by decide)
  · intro hsafe input hlen
    exact retained_safe h0 hn input (by rw [hlen]; exact hsafe)

end Tacho
