import Verif.Spec.FetchCerts
import Verif.Lemmas.Security
/-!
# Calendar arithmetic and fixed-width digits
-/

namespace Tacho
open Spec

theorem leapYear_iff (y : Nat) : leapYear y = true ↔ Leap y := by
  unfold leapYear Leap
  simp only [Bool.and_eq_true, Bool.or_eq_true, beq_iff_eq, bne_iff_ne, ne_eq, Nat.dvd_iff_mod_eq_zero]

theorem daysIn_months (y m : Nat) (h1 : 1 ≤ m) (h2 : m ≤ 12) : (months y)[m - 1]? = some (daysIn m y) := by
  have : m = 1 ∨ m = 2 ∨ m = 3 ∨ m = 4 ∨ m = 5 ∨ m = 6 ∨ m = 7 ∨ m = 8 ∨ m = 9 ∨ m = 10 ∨ m = 11 ∨ m = 12 := by
    omega
  rcases this with rfl | rfl | rfl | rfl | rfl | rfl | rfl | rfl | rfl | rfl | rfl | rfl <;>
    simp [months, daysIn, leapYear_iff]

theorem validDate_iff (y m d : Nat) : ValidDate y m d ↔ 1 ≤ m ∧ m ≤ 12 ∧ 1 ≤ d ∧ d ≤ daysIn m y := by
  unfold ValidDate
  constructor
  · rintro ⟨h1, h2, h3, n, hn, hd⟩
    rw [daysIn_months y m h1 h2, Option.some.injEq] at hn
    exact ⟨h1, h2, h3, hn ▸ hd⟩
  · rintro ⟨h1, h2, h3, h4⟩
    exact ⟨h1, h2, h3, _, daysIn_months y m h1 h2, h4⟩

theorem yearDays_months (y : Nat) : yearDays y = (months y).sum := by
  unfold yearDays months
  by_cases h : Leap y
  · simp [(leapYear_iff y).mpr h, h]
  · have : leapYear y = false := by
      cases hl : leapYear y with
      | false => rfl
      | true => exact absurd ((leapYear_iff y).mp hl) h
    simp [this, h]

theorem yearOf_spec (y d : Nat) : ∃ k, (yearOf y d).1 = y + k ∧ (yearOf y d).2 < yearDays (y + k) ∧
    d = ((List.range' y k).map yearDays).sum + (yearOf y d).2 := by
  induction y, d using yearOf.induct with
  | case1 y d h =>
    rw [yearOf, if_pos h]
    exact ⟨0, rfl, h, by simp⟩
  | case2 y d h ih =>
    rw [yearOf, if_neg h]
    obtain ⟨k, h1, h2, h3⟩ := ih
    refine ⟨k + 1, by omega, by rw [show y + (k + 1) = y + 1 + k from by omega]; exact h2, ?_⟩
    rw [List.range'_succ, List.map_cons, List.sum_cons]
    omega

theorem daysBeforeMonth_one (y : Nat) : daysBeforeMonth y 1 = 0 := rfl

/-- The days of the months before month `m`. -/
theorem daysBeforeMonth_take (y m : Nat) (h2 : m ≤ 12) :
    daysBeforeMonth y (m + 1) = ((months y).take m).sum := by
  induction m with
  | zero => simp [daysBeforeMonth, daysIn]
  | succ m ih =>
    rw [daysBeforeMonth, ih (by omega)]
    have h := daysIn_months y (m + 1) (by omega) h2
    rw [Nat.add_sub_cancel] at h
    rw [List.take_add_one, h]
    simp

theorem monthOf_spec (y k m d : Nat) (hk : k + m = 12) (hm : 1 ≤ m)
    (hd : daysBeforeMonth y m + d < yearDays y) :
    ∃ m' d', monthOf y k m d = (m', d') ∧ 1 ≤ m' ∧ m' ≤ 12 ∧ 1 ≤ d' ∧ d' ≤ daysIn m' y ∧
      daysBeforeMonth y m + d = daysBeforeMonth y m' + (d' - 1) := by
  induction k generalizing m d with
  | zero =>
    refine ⟨m, d + 1, rfl, by omega, by omega, by omega, ?_, by omega⟩
    have hm12 : m = 12 := by omega
    subst hm12
    have h := daysBeforeMonth_take y 12 (by omega)
    rw [List.take_of_length_le (by simp [months]), ← yearDays_months, daysBeforeMonth] at h
    omega
  | succ k ih =>
    rw [monthOf]
    split
    · rename_i hlt
      exact ⟨m, d + 1, rfl, by omega, by omega, by omega, by omega, by omega⟩
    · rename_i hlt
      obtain ⟨m', d', h1, h2, h3, h4, h5, h6⟩ := ih (m + 1) (d - daysIn m y) (by omega) (by omega)
        (by rw [daysBeforeMonth]; omega)
      rw [daysBeforeMonth] at h6
      exact ⟨m', d', h1, h2, h3, h4, h5, by omega⟩

/-- The civil time of a Unix time: a day of the calendar and a time of day, at the right distance from
1970. -/
theorem civilOfUnix_spec (n : Nat) :
    let c := civilOfUnix n
    ValidDate c.year c.month c.day ∧ 1970 ≤ c.year ∧ c.hour < 24 ∧ c.minute < 60 ∧ c.second < 60 ∧
      n = dayNumber c.year c.month c.day * 86400 + c.hour * 3600 + c.minute * 60 + c.second := by
  obtain ⟨k, h1, h2, h3⟩ := yearOf_spec 1970 (n / 86400)
  obtain ⟨m, d, g1, g2, g3, g4, g5, g6⟩ := monthOf_spec (1970 + k) 11 1 (yearOf 1970 (n / 86400)).2 rfl (by omega)
    (by rw [daysBeforeMonth_one]; omega)
  have hc : civilOfUnix n = ⟨1970 + k, m, d, n % 86400 / 3600, n % 3600 / 60, n % 60⟩ := by
    simp only [civilOfUnix, h1, g1]
  intro c
  have hcc : c = ⟨1970 + k, m, d, n % 86400 / 3600, n % 3600 / 60, n % 60⟩ := hc
  rw [hcc]
  dsimp only
  refine ⟨(validDate_iff _ _ _).mpr ⟨g2, g3, g4, g5⟩, by omega, by omega, by omega, by omega, ?_⟩
  have hdn : dayNumber (1970 + k) m d = n / 86400 := by
    unfold dayNumber
    rw [Nat.add_sub_cancel_left]
    have hm := daysBeforeMonth_take (1970 + k) (m - 1) (by omega)
    rw [Nat.sub_add_cancel g2] at hm
    have hy : (fun k => (months k).sum) = yearDays := by funext y; exact (yearDays_months y).symm
    rw [hy, ← hm, h3]
    rw [daysBeforeMonth_one] at g6
    omega
  rw [hdn]
  omega

/-! ## Order of instants -/

theorem daysBefore_mono {y y' : Nat} (h : y < y') : daysBefore y + yearDays y ≤ daysBefore y' := by
  induction y' with
  | zero => omega
  | succ k ih =>
    rw [daysBefore]
    by_cases hk : y < k
    · have := ih hk; omega
    · have : y = k := by omega
      subst this; omega

theorem daysBeforeMonth_mono {y m m' : Nat} (h : m < m') :
    daysBeforeMonth y m + daysIn m y ≤ daysBeforeMonth y m' := by
  induction m' with
  | zero => omega
  | succ k ih =>
    rw [daysBeforeMonth]
    by_cases hk : m < k
    · have := ih hk; omega
    · have : m = k := by omega
      subst this; omega

theorem dayOfYear_lt {y m d : Nat} (h : ValidDate y m d) : daysBeforeMonth y m + (d - 1) < yearDays y := by
  rw [validDate_iff] at h
  have h1 := daysBeforeMonth_mono (y := y) (m := m) (m' := 13) (by omega)
  have h2 : daysBeforeMonth y 13 = _ := daysBeforeMonth_take y 12 (by omega)
  rw [List.take_of_length_le (by simp [months]), ← yearDays_months] at h2
  omega

/-- A civil time that exists. -/
def Civil.Valid (c : Civil) : Prop :=
  ValidDate c.year c.month c.day ∧ c.hour < 24 ∧ c.minute < 60 ∧ c.second < 60

/-- Earlier in the order of year, month, day, hour, minute, second. -/
def Civil.Before (a b : Civil) : Prop :=
  a.year < b.year ∨ a.year = b.year ∧ (a.month < b.month ∨ a.month = b.month ∧ (a.day < b.day ∨ a.day = b.day ∧
    (a.hour < b.hour ∨ a.hour = b.hour ∧ (a.minute < b.minute ∨ a.minute = b.minute ∧ a.second < b.second))))

theorem instant_lt_of_before {a b : Civil} (ha : a.Valid) (hb : b.Valid) (h : a.Before b) :
    a.instant < b.instant := by
  obtain ⟨a1, a2, a3, a4⟩ := ha
  obtain ⟨b1, b2, b3, b4⟩ := hb
  have ya := dayOfYear_lt a1
  have yb := dayOfYear_lt b1
  have va := (validDate_iff _ _ _).mp a1
  have vb := (validDate_iff _ _ _).mp b1
  unfold Civil.instant
  rcases h with h | ⟨hy, h⟩
  · have := daysBefore_mono h
    omega
  · rcases h with h | ⟨hm, h⟩
    · have := daysBeforeMonth_mono (y := a.year) h
      rw [← hy] at vb ⊢
      omega
    · rw [← hy, ← hm]
      omega

theorem before_trichotomy (a b : Civil) : a.Before b ∨ a = b ∨ b.Before a := by
  obtain ⟨y, m, d, h, i, x⟩ := a
  obtain ⟨y', m', d', h', i', x'⟩ := b
  simp only [Civil.Before, Civil.mk.injEq]
  omega

theorem instant_lt_iff {a b : Civil} (ha : a.Valid) (hb : b.Valid) : a.instant < b.instant ↔ a.Before b := by
  constructor
  · intro h
    rcases before_trichotomy a b with h' | rfl | h'
    · exact h'
    · omega
    · have := instant_lt_of_before hb ha h'; omega
  · exact instant_lt_of_before ha hb

/-! ## Digits -/

theorem digit_ofNat_toNat (n : Nat) : (UInt8.ofNat (48 + n % 10)).toNat = 48 + n % 10 :=
  digit_toNat (by omega)

theorem pad2_digits {n : Nat} (h : n < 100) : Digits 2 n (pad2 n) := by
  refine ⟨rfl, ?_, ?_⟩
  · intro b hb
    simp only [pad2, List.mem_cons, List.not_mem_nil, or_false] at hb
    rcases hb with rfl | rfl <;> rw [digit_ofNat_toNat] <;> omega
  · simp only [pad2, List.foldl_cons, List.foldl_nil, digit_ofNat_toNat]; omega

theorem pad4_digits {n : Nat} (h : n < 10000) : Digits 4 n (pad4 n) := by
  refine ⟨rfl, ?_, ?_⟩
  · intro b hb
    simp only [pad4, pad2, List.mem_append, List.mem_cons, List.not_mem_nil, or_false] at hb
    rcases hb with (rfl | rfl) | (rfl | rfl) <;> rw [digit_ofNat_toNat] <;> omega
  · simp only [pad4, pad2, List.cons_append, List.nil_append, List.foldl_cons, List.foldl_nil, digit_ofNat_toNat]
    omega

theorem byte_of_digit {b : UInt8} {n : Nat} (h : b.toNat = 48 + n) : UInt8.ofNat (48 + n) = b := by
  rw [← h]; exact UInt8.ofNat_toNat

theorem digits2_iff {n : Nat} {s : Bytes} : Digits 2 n s ↔ n < 100 ∧ s = pad2 n := by
  constructor
  · rintro ⟨hl, hd, hv⟩
    obtain ⟨a, b, rfl⟩ : ∃ a b, s = [a, b] := by
      match s, hl with
      | [a, b], _ => exact ⟨a, b, rfl⟩
    have ha := hd a (by simp)
    have hb := hd b (by simp)
    simp only [List.foldl_cons, List.foldl_nil] at hv
    refine ⟨by omega, ?_⟩
    simp only [pad2, List.cons.injEq, and_true]
    exact ⟨(byte_of_digit (by omega)).symm, (byte_of_digit (by omega)).symm⟩
  · rintro ⟨h, rfl⟩; exact pad2_digits h

theorem digits4_iff {n : Nat} {s : Bytes} : Digits 4 n s ↔ n < 10000 ∧ s = pad4 n := by
  constructor
  · rintro ⟨hl, hd, hv⟩
    obtain ⟨a, b, c, d, rfl⟩ : ∃ a b c d, s = [a, b, c, d] := by
      match s, hl with
      | [a, b, c, d], _ => exact ⟨a, b, c, d, rfl⟩
    have ha := hd a (by simp)
    have hb := hd b (by simp)
    have hc := hd c (by simp)
    have hd := hd d (by simp)
    simp only [List.foldl_cons, List.foldl_nil] at hv
    refine ⟨by omega, ?_⟩
    simp only [pad4, pad2, List.cons_append, List.nil_append, List.cons.injEq, and_true]
    exact ⟨(byte_of_digit (by omega)).symm, (byte_of_digit (by omega)).symm, (byte_of_digit (by omega)).symm,
      (byte_of_digit (by omega)).symm⟩
  · rintro ⟨h, rfl⟩; exact pad4_digits h

theorem two?_iff (a b : UInt8) (n : Nat) : two? a b = some n ↔ n < 100 ∧ [a, b] = pad2 n := by
  rw [← digits2_iff]
  unfold two? digit? Digits
  simp only [Option.pure_def, Option.bind_eq_bind, List.length_cons, List.length_nil, List.mem_cons,
    List.not_mem_nil, or_false, forall_eq_or_imp, forall_eq, List.foldl_cons, List.foldl_nil]
  split
  · split
    · rename_i h1 h2
      simp only [Option.bind_some, Option.some.injEq]
      constructor
      · intro h; exact ⟨trivial, ⟨h1, h2⟩, by omega⟩
      · rintro ⟨_, _, h⟩; omega
    · rename_i h1 h2
      simp only [Option.bind_some, Option.bind_none, reduceCtorEq, false_iff]
      rintro ⟨_, ⟨_, h⟩, _⟩; exact h2 h
  · rename_i h1
    simp only [Option.bind_none, reduceCtorEq, false_iff]
    rintro ⟨_, ⟨h, _⟩, _⟩; exact h1 h

/-- Two fixed-width numbers are ordered like their texts. -/
theorem pad2_lt_iff {m n : Nat} (hm : m < 100) (hn : n < 100) : pad2 m < pad2 n ↔ m < n := by
  simp only [pad2, List.cons_lt_cons_iff, List.not_lt_nil, and_false, or_false, UInt8.lt_iff_toNat_lt,
    digit_ofNat_toNat, ← UInt8.toNat_inj]
  omega

theorem pad2_inj {m n : Nat} (hm : m < 100) (hn : n < 100) : pad2 m = pad2 n ↔ m = n := by
  simp only [pad2, List.cons.injEq, ← UInt8.toNat_inj, digit_ofNat_toNat, and_true]
  omega

theorem append_lt_append_iff {a a' b b' : Bytes} (h : a.length = a'.length) :
    a ++ b < a' ++ b' ↔ a < a' ∨ a = a' ∧ b < b' := by
  induction a generalizing a' with
  | nil =>
    have : a' = [] := List.length_eq_zero_iff.mp h.symm
    subst this
    simp
  | cons x t ih =>
    match a', h with
    | x' :: t', h =>
      rw [List.cons_append, List.cons_append, List.cons_lt_cons_iff, List.cons_lt_cons_iff,
        ih (by simpa using h), List.cons.injEq]
      constructor
      · rintro (h | ⟨h, h' | ⟨h1, h2⟩⟩)
        · exact .inl (.inl h)
        · exact .inl (.inr ⟨h, h'⟩)
        · exact .inr ⟨⟨h, h1⟩, h2⟩
      · rintro ((h | ⟨h, h'⟩) | ⟨⟨h1, h2⟩, h3⟩)
        · exact .inl h
        · exact .inr ⟨h, .inl h'⟩
        · exact .inr ⟨h1, .inr ⟨h2, h3⟩⟩

theorem pad4_lt_iff {m n : Nat} (hm : m < 10000) (hn : n < 10000) : pad4 m < pad4 n ↔ m < n := by
  rw [pad4, pad4, append_lt_append_iff (a := pad2 (m / 100)) (a' := pad2 (n / 100)) rfl]
  have e : ∀ k, pad2 k = pad2 (k % 100) := by
    intro k
    simp only [pad2, List.cons.injEq, and_true]
    constructor <;> congr 1 <;> omega
  rw [e m, e n, pad2_lt_iff (by omega) (by omega), pad2_lt_iff (by omega) (by omega),
    pad2_inj (by omega) (by omega)]
  omega

theorem pad4_inj {m n : Nat} (hm : m < 10000) (hn : n < 10000) : pad4 m = pad4 n ↔ m = n := by
  constructor
  · intro h
    rcases Nat.lt_trichotomy m n with g | g | g
    · have := (pad4_lt_iff hm hn).mpr g
      rw [h] at this; exact absurd this (List.lt_irrefl _)
    · exact g
    · have := (pad4_lt_iff hn hm).mpr g
      rw [h] at this; exact absurd this (List.lt_irrefl _)
  · rintro rfl; rfl

/-- The text of a civil time, with the digits at the ends of a right-nested sum. -/
theorem rfc3339_eq (c : Civil) : rfc3339 c = pad4 c.year ++ (0x2D :: (pad2 c.month ++ (0x2D :: (pad2 c.day ++ (0x54 ::
    (pad2 c.hour ++ (0x3A :: (pad2 c.minute ++ (0x3A :: (pad2 c.second ++ [0x5A])))))))))) := by
  simp [rfc3339]

theorem daysIn_le (m y : Nat) : daysIn m y ≤ 31 := by
  unfold daysIn
  split <;> (try split) <;> omega

/-- Texts of existing times are ordered like the times. -/
theorem rfc3339_lt_iff {a b : Civil} (ha : a.Valid) (hb : b.Valid) (hya : a.year < 10000) (hyb : b.year < 10000) :
    rfc3339 a < rfc3339 b ↔ a.Before b := by
  obtain ⟨a1, a2, a3, a4⟩ := ha
  obtain ⟨b1, b2, b3, b4⟩ := hb
  rw [validDate_iff] at a1 b1
  have da := daysIn_le a.month a.year
  have db := daysIn_le b.month b.year
  rw [rfc3339_eq, rfc3339_eq]
  have p4 : ∀ (m n : Nat) (s t : Bytes), pad4 m ++ s < pad4 n ++ t ↔ pad4 m < pad4 n ∨ pad4 m = pad4 n ∧ s < t :=
    fun m n s t => append_lt_append_iff rfl
  have p2 : ∀ (m n : Nat) (s t : Bytes), pad2 m ++ s < pad2 n ++ t ↔ pad2 m < pad2 n ∨ pad2 m = pad2 n ∧ s < t :=
    fun m n s t => append_lt_append_iff rfl
  simp only [p4, p2, List.cons_lt_cons_iff,
    UInt8.lt_irrefl, false_or, true_and, List.lt_irrefl, and_false, or_false,
    pad4_lt_iff hya hyb, pad4_inj hya hyb]
  rw [pad2_lt_iff (by omega) (by omega), pad2_lt_iff (by omega) (by omega), pad2_lt_iff (by omega) (by omega),
    pad2_lt_iff (by omega) (by omega), pad2_lt_iff (by omega) (by omega), pad2_inj (by omega) (by omega),
    pad2_inj (by omega) (by omega), pad2_inj (by omega) (by omega), pad2_inj (by omega) (by omega)]
  rfl

/-! ## Reading texts -/

theorem timeText_iff (s : Bytes) (y m d h i x : Nat) :
    TimeText s y m d h i x ↔ s = rfc3339 ⟨y, m, d, h, i, x⟩ ∧ y < 10000 ∧ (⟨y, m, d, h, i, x⟩ : Civil).Valid := by
  unfold TimeText Civil.Valid
  simp only [digits2_iff, digits4_iff]
  have a1 : ascii "-" = [0x2D] := rfl
  have a2 : ascii "T" = [0x54] := rfl
  have a3 : ascii ":" = [0x3A] := rfl
  have a4 : ascii "Z" = [0x5A] := rfl
  rw [a1, a2, a3, a4]
  constructor
  · rintro ⟨_, _, _, _, _, _, ⟨hy, rfl⟩, ⟨_, rfl⟩, ⟨_, rfl⟩, ⟨_, rfl⟩, ⟨_, rfl⟩, ⟨_, rfl⟩, rfl, hv, h1, h2, h3⟩
    exact ⟨by simp [rfc3339], hy, hv, h1, h2, h3⟩
  · rintro ⟨rfl, hy, hv, h1, h2, h3⟩
    have hv' := (validDate_iff _ _ _).mp hv
    have := daysIn_le m y
    exact ⟨_, _, _, _, _, _, ⟨hy, rfl⟩, ⟨by omega, rfl⟩, ⟨by omega, rfl⟩, ⟨by omega, rfl⟩, ⟨by omega, rfl⟩,
      ⟨by omega, rfl⟩, by simp [rfc3339], hv, h1, h2, h3⟩

theorem parseDay_iff (s : Bytes) (c : Civil) : parseDay s = some c ↔
    ∃ y m d, c = ⟨y, m, d, 0, 0, 0⟩ ∧ y < 10000 ∧ ValidDate y m d ∧
      s = pad4 y ++ [0x2D] ++ pad2 m ++ [0x2D] ++ pad2 d := by
  constructor
  · intro h
    unfold parseDay at h
    split at h
    · rename_i a b c' d s1 e f s2 g h'
      simp only [Option.bind_eq_bind, Option.bind_eq_some_iff] at h
      obtain ⟨y1, hy1, y2, hy2, m, hm, day, hd, h⟩ := h
      split at h
      · rename_i hc
        obtain ⟨rfl, rfl, c1, c2, c3, c4⟩ := hc
        rw [Option.some.injEq] at h
        rw [two?_iff] at hy1 hy2 hm hd
        refine ⟨y1 * 100 + y2, m, day, h.symm, by omega, (validDate_iff _ _ _).mpr ⟨c1, c2, c3, c4⟩, ?_⟩
        have e1 : pad4 (y1 * 100 + y2) = [a, b] ++ [c', d] := by
          rw [hy1.2, hy2.2, pad4]
          congr 1
          · congr 1; omega
          · simp only [pad2, List.cons.injEq, and_true]
            constructor <;> congr 1 <;> omega
        rw [e1, ← hm.2, ← hd.2]; rfl
      · simp at h
    · simp at h
  · rintro ⟨y, m, d, rfl, hy, hv, rfl⟩
    have hv' := (validDate_iff _ _ _).mp hv
    have := daysIn_le m y
    have e1 : pad4 y = pad2 (y / 100) ++ pad2 (y % 100) := by
      rw [pad4]; congr 1
      simp only [pad2, List.cons.injEq, and_true]
      constructor <;> congr 1 <;> omega
    rw [e1]
    have t : ∀ n, n < 100 → two? (UInt8.ofNat (48 + n / 10 % 10)) (UInt8.ofNat (48 + n % 10)) = some n := by
      intro n hn; rw [two?_iff]; exact ⟨hn, rfl⟩
    simp only [pad2, List.cons_append, List.nil_append, parseDay, Option.bind_eq_bind]
    rw [t _ (by omega), t _ (by omega), t _ (by omega), t _ (by omega)]
    simp only [Option.bind_some]
    have e2 : y / 100 * 100 + y % 100 = y := by omega
    rw [e2]; simp [hv']

theorem parseInstant_iff (s : Bytes) (c : Civil) : parseInstant s = some c ↔
    s = rfc3339 c ∧ c.year < 10000 ∧ c.Valid := by
  constructor
  · intro h
    unfold parseInstant at h
    split at h
    · simp only [Option.bind_eq_bind, Option.bind_eq_some_iff] at h
      obtain ⟨date, hdate, hh, hh1, ii, hi1, xx, hx1, h⟩ := h
      obtain ⟨y, m, d, rfl, hy, hv, hs⟩ := (parseDay_iff _ _).mp hdate
      split at h
      · rename_i hc
        obtain ⟨rfl, rfl, rfl, rfl, c1, c2, c3⟩ := hc
        rw [Option.some.injEq] at h
        subst h
        rw [two?_iff] at hh1 hi1 hx1
        refine ⟨?_, hy, hv, c1, c2, c3⟩
        simp only [rfc3339]
        rw [← hh1.2, ← hi1.2, ← hx1.2, ← hs]
        rfl
      · simp at h
    · simp at h
  · rintro ⟨rfl, hy, hv, h1, h2, h3⟩
    have t : ∀ n, n < 100 → two? (UInt8.ofNat (48 + n / 10 % 10)) (UInt8.ofNat (48 + n % 10)) = some n := by
      intro n hn; rw [two?_iff]; exact ⟨hn, rfl⟩
    have hp := (parseDay_iff (pad4 c.year ++ [0x2D] ++ pad2 c.month ++ [0x2D] ++ pad2 c.day) _).mpr
      ⟨c.year, c.month, c.day, rfl, hy, hv, rfl⟩
    rw [rfc3339_eq]
    simp only [pad4, pad2, List.cons_append, List.nil_append, parseInstant, Option.bind_eq_bind] at hp ⊢
    rw [hp, t _ (by omega), t _ (by omega), t _ (by omega)]
    simp [h1, h2, h3]

end Tacho
