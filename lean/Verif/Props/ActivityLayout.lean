import Verif.Props.Activity
/-!
# Driver activity data: complete layouts are read back, bytes are restored (C26, C27)
-/

namespace Tacho
open Spec

/-! ## C26: what was laid out in the buffer is read back -/

theorem window_part {b : Bytes} {s : Nat} {pre d post : Bytes} (h : Window b s (pre ++ d ++ post)) :
    Window b (s + pre.length) d := by
  intro i hi
  have := h (pre.length + i) (by simp only [List.length_append]; omega)
  rw [← Nat.add_assoc] at this
  rw [this, List.append_assoc, List.getElem?_append_right (by omega), Nat.add_sub_cancel_left,
    List.getElem?_append_left hi]

/-- A window read without wrap-around is a slice. -/
theorem window_sl {b d : Bytes} {p i j : Nat} (h : Window b p d) (hp : p % b.length + j ≤ b.length) (hj : j ≤ d.length)
    (hb : 0 < b.length) : sl b (p % b.length + i) (p % b.length + j) = sl d i j := by
  apply List.ext_getElem?
  intro k
  unfold sl
  rw [List.getElem?_drop, List.getElem?_drop]
  by_cases hk : i + k < j
  · rw [List.getElem?_take_of_lt (by omega), List.getElem?_take_of_lt hk, ← h (i + k) (by omega)]
    congr 1
    have hlt : p % b.length < b.length := Nat.mod_lt _ hb
    rw [← Nat.mod_add_mod, Nat.mod_eq_of_lt (a := p % b.length + (i + k)) (by omega)]
    omega
  · rw [List.getElem?_eq_none (by simp only [List.length_take]; omega),
      List.getElem?_eq_none (by simp only [List.length_take]; omega)]

/-- The record header after `pre` lies inside the buffer, not across its end. -/
def Spec.NoStraddle (b : Bytes) (s : Nat) (days : List Bytes) : Prop :=
  ∀ pre d post, days = pre ++ d :: post → (s + pre.flatten.length) % b.length + 4 ≤ b.length

theorem linked_append {prev : Nat} {xs ys : List Bytes} {y : Bytes} (h : Linked prev (xs ++ y :: ys)) :
    4 ≤ y.length ∧ beNat (sl y 2 4) = y.length ∧
    (∀ zs z, xs = zs ++ [z] → beNat (sl y 0 2) = z.length) ∧ (xs = [] → beNat (sl y 0 2) = prev) := by
  induction xs generalizing prev with
  | nil =>
    obtain ⟨h1, h2, h3, _⟩ := h
    exact ⟨h1, h3, fun zs z e => by simp at e, fun _ => h2⟩
  | cons x xs ih =>
    obtain ⟨_, _, _, h⟩ := h
    obtain ⟨i1, i2, i3, i4⟩ := ih h
    refine ⟨i1, i2, ?_, by simp⟩
    intro zs z e
    cases zs with
    | nil =>
      simp only [List.nil_append, List.cons.injEq] at e
      rw [i4 e.2, e.1]
    | cons w zs =>
      simp only [List.cons_append, List.cons.injEq] at e
      exact i3 zs z e.2

theorem layout_path {b : Bytes} {s : Nat} {days : List Bytes} (hw : Window b s days.flatten)
    (hlen : days.flatten.length ≤ b.length) (hlk : Linked 0 days) (hns : NoStraddle b s days) :
    ∀ (n : Nat) (pre post : List Bytes) (d : Bytes), pre.length = n → days = pre ++ d :: post →
      Path b ((s + pre.flatten.length) % b.length : Nat) (d :: pre.reverse) (-1) := by
  intro n
  induction n with
  | zero =>
    intro pre post d hl he
    obtain rfl := List.length_eq_zero_iff.mp hl
    obtain ⟨l1, l2, _, l4⟩ := linked_append (he ▸ hlk)
    have hs := hns [] d post he
    have hfl : days.flatten = [] ++ d ++ post.flatten := by rw [he]; simp
    have hwd : Window b (s + 0) d := window_part (pre := []) (hfl ▸ hw)
    simp only [List.flatten_nil, List.length_nil, Nat.add_zero, List.reverse_nil] at hs hwd ⊢
    have hb : 0 < b.length := by omega
    have e1 : ownLength b ((s % b.length : Nat) : Int) = d.length := by
      unfold ownLength
      rw [Int.toNat_natCast, window_sl hwd hs l1 hb, l2]
    have e2 : prevLength b ((s % b.length : Nat) : Int) = 0 := by
      unfold prevLength
      have := window_sl (i := 0) (j := 2) hwd (by omega) (by omega) hb
      rw [Nat.add_zero] at this
      rw [Int.toNat_natCast, this, l4 rfl]
    refine Path.cons _ _ _ _ ⟨by omega, by omega⟩ (by omega) e1.symm ?_ ?_
    · intro i hi
      rw [Int.toNat_natCast, ← hwd i hi, Nat.mod_add_mod]
    · unfold before
      rw [if_pos e2]
      exact Path.nil _
  | succ n ih =>
    intro pre post d hl he
    obtain ⟨zs, z, rfl⟩ : ∃ zs z, pre = zs ++ [z] := by
      refine ⟨pre.dropLast, pre.getLast (by intro e; simp [e] at hl), ?_⟩
      rw [List.dropLast_concat_getLast]
    obtain ⟨l1, l2, l3, _⟩ := linked_append (he ▸ hlk)
    have hz := l3 zs z rfl
    have hs := hns (zs ++ [z]) d post he
    have hfl : days.flatten = (zs ++ [z]).flatten ++ d ++ post.flatten := by rw [he]; simp
    have hwd : Window b (s + (zs ++ [z]).flatten.length) d := window_part (hfl ▸ hw)
    have he' : days = zs ++ z :: (d :: post) := by rw [he]; simp
    have hrec := ih zs (d :: post) z (by simpa using hl) he'
    obtain ⟨zl, _⟩ := linked_append (he' ▸ hlk)
    have htot : zs.flatten.length + z.length + d.length ≤ b.length := by
      rw [hfl] at hlen
      simp only [List.flatten_append, List.flatten_cons, List.flatten_nil, List.append_nil,
        List.length_append] at hlen
      omega
    have hpos : (s + (zs ++ [z]).flatten.length) = (s + zs.flatten.length) + z.length := by
      simp only [List.flatten_append, List.flatten_cons, List.flatten_nil, List.append_nil,
        List.length_append]; omega
    rw [hpos] at hs hwd ⊢
    have hb : 0 < b.length := by omega
    generalize hA : s + zs.flatten.length = A at *
    have e1 : ownLength b (((A + z.length) % b.length : Nat) : Int) = d.length := by
      unfold ownLength
      rw [Int.toNat_natCast, window_sl hwd hs l1 hb, l2]
    have e2 : prevLength b (((A + z.length) % b.length : Nat) : Int) = z.length := by
      unfold prevLength
      have := window_sl (i := 0) (j := 2) hwd (by omega) (by omega) hb
      rw [Nat.add_zero] at this
      rw [Int.toNat_natCast, this, hz]
    rw [List.reverse_append]
    refine Path.cons _ _ _ _ ⟨by omega, by omega⟩ (by omega) e1.symm ?_ ?_
    · intro i hi
      rw [Int.toNat_natCast, ← hwd i hi, Nat.mod_add_mod]
    · unfold before
      rw [if_neg (by omega), e2]
      have hlt : A % b.length < b.length := Nat.mod_lt _ hb
      have hmod : (A + z.length) % b.length =
          if A % b.length + z.length < b.length then A % b.length + z.length
          else A % b.length + z.length - b.length := by
        rw [Nat.add_mod, Nat.mod_eq_of_lt (a := z.length) (by omega)]
        split
        · rw [Nat.mod_eq_of_lt (by omega)]
        · rw [Nat.mod_eq_sub_mod (by omega), Nat.mod_eq_of_lt (by omega)]
      have hb' : (if (((A + z.length) % b.length : Nat) : Int) - (z.length : Int) < 0 then
          (((A + z.length) % b.length : Nat) : Int) - (z.length : Int) + (b.length : Int)
          else (((A + z.length) % b.length : Nat) : Int) - (z.length : Int)) = ((A % b.length : Nat) : Int) := by
        rw [hmod]
        split <;> split <;> omega
      rw [hb']
      simpa using hrec

/-- C26: any sequence of up to 365 daily records, laid out contiguously in the cyclic buffer from any
starting position on (wrapping around its end), with correct previous and own lengths and no header
across the end of the buffer, is read back completely and oldest first, starting from the position of
the newest record. -/
theorem activity_complete (b : Bytes) (s : Nat) (days : List Bytes) (newest : Bytes)
    (hw : Window b s (days ++ [newest]).flatten) (hlen : (days ++ [newest]).flatten.length ≤ b.length)
    (hlk : Linked 0 (days ++ [newest])) (hns : NoStraddle b s (days ++ [newest]))
    (hn : (days ++ [newest]).length ≤ 365) :
    ∃ out, parseActivityRecords b ((s + days.flatten.length) % b.length : Nat) = .ok out ∧
      List.Forall₂ DayOf (days ++ [newest]) out := by
  have hp := layout_path hw hlen hlk hns days.length days [] newest rfl rfl
  have hex : ∀ rs : List Bytes, ∃ out, List.Forall₂ DayOf rs out := by
    intro rs
    induction rs with
    | nil => exact ⟨[], List.Forall₂.nil⟩
    | cons r rs ih =>
      obtain ⟨m, _, hm⟩ := dailyRecord_spec r
      obtain ⟨ms, hms⟩ := ih
      exact ⟨m :: ms, List.Forall₂.cons hm hms⟩
  obtain ⟨out, ho⟩ := hex (days ++ [newest])
  refine ⟨out, (activity_ok_iff _ _ out).mpr ⟨newest :: days.reverse, -1, ?_, hp, ?_, ?_⟩, ho⟩
  · simp only [List.length_append, List.length_cons, List.length_nil] at hn
    simp; omega
  · left
    rintro ⟨h, _⟩
    omega
  · rw [List.reverse_cons, List.reverse_reverse]; exact ho

/-- Two days of 14 bytes each in a 30 byte buffer, the second across its end. -/
def Spec.sampleDays : List Bytes :=
  [[0, 0, 0, 14, 0x5F, 0, 0, 0, 0x00, 0x12, 0, 100, 0x28, 0x3C],
   [0, 14, 0, 14, 0x5F, 1, 0x51, 0x80, 0x00, 0x13, 0, 90, 0x18, 0x10]]

/-- Non-vacuity of `activity_complete`: the buffer starts in the middle of the second day. -/
example : ∃ b : Bytes, b.length = 30 ∧ Window b 10 (sampleDays.flatten) ∧ Linked 0 sampleDays ∧
    NoStraddle b 10 sampleDays := by
  refine ⟨[0x51, 0x80, 0x00, 0x13, 0, 90, 0x18, 0x10, 9, 9] ++ (sampleDays.flatten).take 20, by decide, ?_, ?_, ?_⟩
  · intro i hi
    have : ∀ i : Fin 28, (([0x51, 0x80, 0x00, 0x13, 0, 90, 0x18, 0x10, 9, 9] ++ (sampleDays.flatten).take 20 : Bytes))[(10 + i.val) % 30]? =
      (sampleDays.flatten)[i.val]? := by decide
    exact this ⟨i, hi⟩
  · exact ⟨by decide, by decide, by decide, by decide, by decide, by decide, trivial⟩
  · intro pre d post he
    match pre, he with
    | [], _ => decide
    | [a], he =>
      simp only [sampleDays, List.cons_append, List.nil_append, List.cons.injEq] at he
      rw [← he.1]; decide
    | a :: b :: rest, he =>
      have := congrArg List.length he
      simp [sampleDays] at this

/-- C26, finding: if the header of a record lies across the end of the buffer, that record and all older
ones are silently lost. Here the newest record starts at 28 in a buffer of 30 bytes and is not found. -/
theorem activity_straddle_lost :
    parseActivityRecords ([0x00, 0x0E, 0x5F, 0, 0, 0, 0x00, 0x12, 0, 100, 0x28, 0x3C] ++ zeros 16 ++ [0, 0]) 28 = .ok [] ∧
    Window ([0x00, 0x0E, 0x5F, 0, 0, 0, 0x00, 0x12, 0, 100, 0x28, 0x3C] ++ zeros 16 ++ [0, 0]) 28
      ([0, 0, 0, 14, 0x5F, 0, 0, 0, 0x00, 0x12, 0, 100, 0x28, 0x3C] : Bytes) := by
  constructor
  · rfl
  · intro i hi
    have : ∀ i : Fin 14, (([0x00, 0x0E, 0x5F, 0, 0, 0, 0x00, 0x12, 0, 100, 0x28, 0x3C] ++ zeros 16 ++ [0, 0] : Bytes))[(28 + i.val) % 30]? =
      ([0, 0, 0, 14, 0x5F, 0, 0, 0, 0x00, 0x12, 0, 100, 0x28, 0x3C] : Bytes)[i.val]? := by decide
    exact this ⟨i, hi⟩

/-! ## C27: bytes are restored -/

/-- What is accepted, and what the two pointers and the raw bytes are. -/
theorem driverActivity_decode (d : Bytes) (m : DriverActivityData) :
    unmarshalDriverActivityData d = .ok m ↔ 4 < d.length ∧ m.oldest = beNat (sl d 0 2) ∧
      m.newest = beNat (sl d 2 4) ∧ m.rawData = some (d.drop 4) ∧
      parseActivityRecords (d.drop 4) m.newest = .ok m.records := by
  obtain ⟨o, n, raw, recs⟩ := m
  simp only [unmarshalDriverActivityData, Res.pure_eq, guard_eq_ok, bind_eq_ok, Res.ok.injEq, sl?_iff, from?_iff,
    DriverActivityData.mk.injEq]
  constructor
  · rintro ⟨h1, _, ⟨_, _, rfl⟩, _, ⟨_, _, rfl⟩, a, ⟨_, rfl⟩, h2, rs, hrs, rfl, rfl, rfl, rfl⟩
    simp only [List.length_drop] at h2
    exact ⟨by omega, rfl, rfl, rfl, hrs⟩
  · rintro ⟨h1, rfl, rfl, rfl, hrs⟩
    exact ⟨by omega, _, ⟨by omega, by omega, rfl⟩, _, ⟨by omega, by omega, rfl⟩, _, ⟨by omega, rfl⟩,
      by simp; omega, _, hrs, rfl, rfl, rfl, rfl⟩

/-- C27: every activity file that parses is restored byte for byte. -/
theorem driverActivity_roundtrip (d dst : Bytes) (m : DriverActivityData)
    (h : unmarshalDriverActivityData d = .ok m) : appendDriverActivity dst (some m) = .ok (dst ++ d) := by
  obtain ⟨hl, h1, h2, h3, _⟩ := (driverActivity_decode d m).mp h
  have hlow : ∀ a b, b = a + 2 → b ≤ d.length → beBytes 2 (low 16 (beNat (sl d a b) : Int)) = sl d a b := by
    intro a b hab hbl
    have hl2 : (sl d a b).length = 2 := by simp; omega
    have := beNat_lt (sl d a b)
    rw [hl2] at this
    have : low 16 (beNat (sl d a b) : Int) = beNat (sl d a b) := by unfold low; omega
    rw [this, beBytes_beNat' hl2]
  have hraw : (m.rawData.getD []).length > 0 := by rw [h3]; simp; omega
  simp only [appendDriverActivity, if_pos hraw, Res.pure_eq, Res.ok.injEq]
  rw [h1, h2, h3, Option.getD_some, hlow 0 2 rfl (by omega), hlow 2 4 rfl (by omega), List.append_assoc, List.append_assoc]
  congr 1
  rw [← List.append_assoc, sl_append (by omega) (by omega)]
  simp [sl]

/-- The file codec never panics. -/
theorem driverActivity_no_panic (d : Bytes) : unmarshalDriverActivityData d ≠ .panic := by
  unfold unmarshalDriverActivityData
  by_cases h : d.length < 4
  · rw [if_pos h]; simp
  · rw [if_neg h, sl?_ok (by omega) (by omega), sl?_ok (by omega) (by omega)]
    simp only [Res.bind_ok, Res.pure_eq, from?, if_pos (Nat.not_lt.mp h)]
    split
    · simp
    · exact Res.bind_ne_panic (activity_bounded _ _).1 (fun _ => by simp)

/-- C27, finding: a file of exactly four bytes (an empty buffer) is refused. -/
theorem driverActivity_four (d : Bytes) (h : d.length = 4) : ∃ e, unmarshalDriverActivityData d = .err e := by
  unfold unmarshalDriverActivityData
  rw [if_neg (by omega), sl?_ok (by omega) (by omega), sl?_ok (by omega) (by omega)]
  simp only [Res.bind_ok, Res.pure_eq, from?, if_pos (by omega : 4 ≤ d.length)]
  rw [if_pos (by simp; omega)]
  exact ⟨_, rfl⟩

example : ∃ m, unmarshalDriverActivityData ([0, 0, 0, 0] ++ zeros 16) = .ok m ∧ m.records = [] :=
  ⟨⟨0, 0, some (zeros 16), []⟩, by rfl, rfl⟩

end Tacho
