import Verif.Props.Size
/-!
# C77: how large the daily activity records of a message can get
-/

namespace Tacho
open Spec Spec.Size

theorem path_sizes {b : Bytes} {p q : Int} {rs : List Bytes} (h : Path b p rs q) : ∀ r ∈ rs, r.length < 65536 := by
  induction h with
  | nil => simp
  | cons p q r rs h1 h2 h3 _ _ ih =>
    intro x hx
    rcases List.mem_cons.1 hx with rfl | hx
    · rw [h3, ownLength]
      refine Nat.lt_of_lt_of_le (beNat_lt _) ?_
      rw [sl_length]
      exact Nat.pow_le_pow_right (by omega) (show min _ _ - _ ≤ 2 by omega)
    · exact ih x hx

theorem words_length (d : Bytes) : (words d).length = d.length / 2 := by
  induction d using words.induct with
  | case1 a b rest ih => simp [words, ih]; omega
  | case2 d h =>
    match d, h with
    | [], _ => rfl
    | [a], _ => simp [words]
    | a :: b :: rest, h => exact absurd rfl (h a b rest)

/-- C77: a day that was decoded has at most one change for every two bytes of its own length after the first twelve; of one that was not,
the bytes are kept. -/
theorem day_size {r : Bytes} {m : DailyRecord} (h : DayOf r m) : m.changes.length ≤ (r.length - 12) / 2 ∧ (m.rawData.getD []).length ≤ r.length := by
  rcases h with ⟨_, _, hr, _, _, _, _, _, hc⟩ | ⟨_, rfl⟩
  · refine ⟨?_, by simp [hr]⟩
    rw [← hc.length_eq, ← List.length_drop, ← words_length]
    exact List.length_filter_le _ _
  · simp

theorem forall₂_mem {α β : Type} {R : α → β → Prop} {xs : List α} {ys : List β} (h : List.Forall₂ R xs ys) : ∀ y ∈ ys, ∃ x ∈ xs, R x y := by
  induction h with
  | nil => simp
  | @cons a b as bs hab _ ih =>
    intro y hy
    rcases List.mem_cons.1 hy with rfl | hy
    · exact ⟨a, by simp, hab⟩
    · obtain ⟨r, hr, hd⟩ := ih y hy
      exact ⟨r, by simp [hr], hd⟩

theorem activity_size (d : Bytes) (a : DriverActivityData) (h : unmarshalDriverActivityData d = .ok a) :
    a.records.length ≤ 365 ∧ ∀ r ∈ a.records, r.changes.length ≤ 32761 ∧ (r.rawData.getD []).length ≤ 65535 := by
  obtain ⟨_, _, _, _, hp⟩ := (driverActivity_decode d a).1 h
  obtain ⟨rs, q, hl, hpath, _, hd⟩ := (activity_ok_iff _ _ _).1 hp
  have hlen := hd.length_eq
  rw [List.length_reverse] at hlen
  refine ⟨by omega, ?_⟩
  intro m hm
  have hmem := forall₂_mem hd m hm
  obtain ⟨r, hr, hday⟩ := hmem
  have := path_sizes hpath r (List.mem_reverse.1 hr)
  have := day_size hday
  omega

section
variable [Charmap]

theorem inActivity_le {n : DriverActivityData → Nat} {k : Nat} (hn : ∀ d a, unmarshalDriverActivityData d = .ok a → n a ≤ k) {d : Bytes} {f : File}
    (h : unmarshalFile d = .ok f) : inActivity n f ≤ 2 * k := by
  have hpart : ∀ o : Option Block, inPart (fun x : Signed DriverActivityData => n x.data) (o.bind (Block.readSigned unmarshalDriverActivityData)) ≤ k := by
    intro o
    cases o with
    | none => exact Nat.zero_le _
    | some b =>
      rw [Option.bind_some]
      unfold Block.readSigned Block.read
      cases hp : unmarshalDriverActivityData b.data.value with
      | ok x => exact hn _ _ hp
      | err => exact Nat.zero_le _
      | panic => exact Nat.zero_le _
  rcases (file_iff _ _).1 h with ⟨_, _, _, _, rfl⟩ | ⟨_, _, _, _, ⟨_, c, hc, rfl⟩ | ⟨_, rfl⟩⟩
  · exact Nat.zero_le _
  · obtain ⟨bs, _, _, rfl⟩ := (driver_card_iff _ _).1 hc
    have h1 := hpart (newest bs (fileGen .driverActivityData .gen1))
    have h2 := hpart (newest bs (fileGen .driverActivityData .gen2))
    have g1 : inPart (fun g => inPart (fun x => n x.data) g.driverActivityData) (cardOf bs).tachograph ≤ k := by
      simp only [cardOf]; split
      · exact h1
      · exact Nat.zero_le _
    have g2 : inPart (fun g => inPart (fun x => n x.data) g.driverActivityData) (cardOf bs).tachographG2 ≤ k := by
      simp only [cardOf]; split
      · exact h2
      · exact Nat.zero_le _
    show inPart _ (cardOf bs).tachograph + inPart _ (cardOf bs).tachographG2 ≤ _
    omega
  · exact Nat.zero_le _

/-- C77: the daily activity records of a message: never more than 365 days in each generation, with 32 761 changes and 65 535 kept bytes each,
however long the file is. -/
theorem message_activity (d : Bytes) (f : File) (h : unmarshalFile d = .ok f) :
    days f ≤ 2 * 365 ∧ changes f ≤ 2 * (365 * 32761) ∧ keptBytes f ≤ 2 * (365 * 65535) := by
  refine ⟨inActivity_le (fun d a h => (activity_size d a h).1) h, inActivity_le (fun d a h => ?_) h, inActivity_le (fun d a h => ?_) h⟩
  · have hs := activity_size d a h
    exact Nat.le_trans (total_const fun r hr => (hs.2 r hr).1) (Nat.mul_le_mul_right _ hs.1)
  · have hs := activity_size d a h
    exact Nat.le_trans (total_const fun r hr => (hs.2 r hr).2) (Nat.mul_le_mul_right _ hs.1)

end

/-! ## The bound is reached by a small file -/

/-- 365 headers of four bytes. Each announces a day of 65 534 bytes, which goes round the buffer 44 times, and a day before it that begins
four bytes earlier; the first one points behind the last place where a header fits. -/
def overlapping : Bytes := [0, 1, 255, 254] ++ (List.replicate 364 [0, 4, 255, 254]).flatten

theorem repeated_get {x : Bytes} {n k j : Nat} (hx : x.length = 4) (hk : k < n) (hj : j < 4) :
    (List.replicate n x).flatten[4 * k + j]? = x[j]? := by
  induction n generalizing k with
  | zero => omega
  | succ n ih =>
    rw [List.replicate_succ, List.flatten_cons]
    cases k with
    | zero => rw [List.getElem?_append_left (by omega)]; simp
    | succ k =>
      rw [List.getElem?_append_right (by omega), hx, show 4 * (k + 1) + j - 4 = 4 * k + j by omega]
      exact ih (by omega)

theorem repeated_length (x : Bytes) (n : Nat) : (List.replicate n x).flatten.length = n * x.length := by
  induction n with
  | zero => simp
  | succ n ih => rw [List.replicate_succ, List.flatten_cons, List.length_append, ih, Nat.add_mul]; omega

theorem overlapping_length : overlapping.length = 1460 := by
  rw [overlapping, List.length_append, repeated_length]
  decide

theorem overlapping_get {k j : Nat} (hk : k < 365) (hj : j < 4) :
    overlapping[4 * k + j]? = (if k = 0 then [0, 1, 255, 254] else [0, 4, 255, 254] : Bytes)[j]? := by
  unfold overlapping
  cases k with
  | zero => rw [List.getElem?_append_left (by simp; omega)]; simp
  | succ k =>
    rw [List.getElem?_append_right (by simp; omega)]
    rw [show 4 * (k + 1) + j - ([0, 1, 255, 254] : Bytes).length = 4 * k + j by simp; omega, repeated_get rfl (by omega) hj]
    simp

theorem overlapping_pairs (i : Nat) (hi : i < 730) : overlapping[2 * i]? ≠ overlapping[2 * i + 1]? := by
  have e : 2 * i = 4 * (i / 2) + 2 * (i % 2) := by omega
  rw [e, Nat.add_assoc, overlapping_get (by omega) (by omega), overlapping_get (by omega) (by omega)]
  rcases Nat.mod_two_eq_zero_or_one i with h | h <;> rw [h] <;> split <;> decide

/-- The day that begins at a position of the buffer. -/
def overlappingDay (p : Nat) : Bytes := (List.range 65534).map fun i => overlapping[(p + i) % 1460]?.getD 0

theorem overlappingDay_length (p : Nat) : (overlappingDay p).length = 65534 := by simp [overlappingDay]

theorem overlappingDay_get {p i : Nat} (hi : i < 65534) : (overlappingDay p)[i]? = overlapping[(p + i) % 1460]? := by
  have : (p + i) % 1460 < overlapping.length := by rw [overlapping_length]; omega
  simp only [overlappingDay, List.getElem?_map, List.getElem?_range hi, Option.map_some]
  rw [List.getElem?_eq_getElem this]; rfl

theorem overlappingDay_window (p : Nat) : Spec.Window overlapping p (overlappingDay p) := by
  intro i hi
  rw [overlappingDay_length] at hi
  rw [overlappingDay_get hi, overlapping_length]

attribute [local irreducible] overlappingDay

theorem overlapping_header (k : Nat) (hk : k < 365) : sl overlapping (4 * k) (4 * k + 4) = if k = 0 then [0, 1, 255, 254] else [0, 4, 255, 254] := by
  apply List.ext_getElem?
  intro j
  by_cases hj : j < 4
  · rw [← overlapping_get hk hj]
    unfold sl
    simp [hj]
  · rw [List.getElem?_eq_none (by rw [sl_length, overlapping_length]; omega), List.getElem?_eq_none (by split <;> simp <;> omega)]

theorem overlapping_own (k : Nat) (hk : k < 365) : ownLength overlapping ((4 * k : Nat) : Int) = 65534 ∧
    before overlapping ((4 * k : Nat) : Int) = if k = 0 then 1459 else ((4 * (k - 1) : Nat) : Int) := by
  have hh := overlapping_header k hk
  have h1 : sl overlapping (4 * k) (4 * k + 2) = (sl overlapping (4 * k) (4 * k + 4)).take 2 := by simp [sl, List.drop_take, List.take_take]
  have h2 : sl overlapping (4 * k + 2) (4 * k + 4) = (sl overlapping (4 * k) (4 * k + 4)).drop 2 := by
    simp [sl, List.drop_take]
  rw [hh] at h1 h2
  unfold ownLength before prevLength
  rw [Int.toNat_natCast, h1, h2, overlapping_length]
  by_cases h : k = 0
  · subst h; exact ⟨by decide, by decide⟩
  · simp only [h, if_false]
    have e : beNat (List.take 2 ([0, 4, 255, 254] : Bytes)) = 4 := by decide
    rw [e]
    refine ⟨by decide, ?_⟩
    rw [if_neg (by decide), if_neg (by omega)]
    omega

/-- The days met from the `k`-th on, newest first. -/
def overlappingDays : Nat → List Bytes
  | 0 => [overlappingDay 0]
  | k + 1 => overlappingDay (4 * (k + 1)) :: overlappingDays k

theorem overlappingDays_length (k : Nat) : (overlappingDays k).length = k + 1 := by
  induction k with
  | zero => rfl
  | succ k ih => simp [overlappingDays, ih]

theorem overlapping_path (k : Nat) (hk : k < 365) : Path overlapping ((4 * k : Nat) : Int) (overlappingDays k) 1459 := by
  have hh := overlapping_own k hk
  have hat : HeaderAt overlapping ((4 * k : Nat) : Int) := ⟨by omega, by rw [overlapping_length]; omega⟩
  have hw := overlappingDay_window (4 * k)
  have hl := overlappingDay_length (4 * k)
  induction k with
  | zero =>
    refine .cons _ _ _ _ hat (by rw [hh.1]; omega) (by rw [hh.1]; exact hl) hw ?_
    rw [hh.2]
    exact .nil _
  | succ k ih =>
    refine .cons _ _ _ _ hat (by rw [hh.1]; omega) (by rw [hh.1]; exact hl) hw ?_
    rw [hh.2]
    exact ih (by omega) (overlapping_own k (by omega)) ⟨by omega, by rw [overlapping_length]; omega⟩ (overlappingDay_window _) (overlappingDay_length _)

theorem words_get (d : Bytes) : ∀ w ∈ words d, ∃ i, 2 * i + 1 < d.length ∧ d[2 * i]? = w[0]? ∧ d[2 * i + 1]? = w[1]? := by
  induction d using words.induct with
  | case1 a b rest ih =>
    intro w hw
    rw [words, List.mem_cons] at hw
    rcases hw with rfl | hw
    · exact ⟨0, by simp, rfl, rfl⟩
    · obtain ⟨i, h1, h2, h3⟩ := ih w hw
      refine ⟨i + 1, by simp; omega, ?_, ?_⟩
      · rw [← h2]; rfl
      · rw [← h3]; rfl
  | case2 d h =>
    match d, h with
    | [], _ => simp [words]
    | [a], _ => simp [words]
    | a :: b :: rest, h => exact absurd rfl (h a b rest)

theorem overlappingDay_bcd {p o : Nat} (ho : o < 2) (k : Nat) (hp : p = 4 * k) : ByteAt (overlappingDay p) (8 + o) IsBcd := by
  subst hp
  have e : (4 * k + (8 + o)) % 1460 = 4 * ((k + 2) % 365) + o := by omega
  have h : o = 0 ∨ o = 1 := by omega
  have hg : (overlappingDay (4 * k))[8 + o]? = (if (k + 2) % 365 = 0 then [0, 1, 255, 254] else [0, 4, 255, 254] : Bytes)[o]? := by
    rw [overlappingDay_get (by omega), e, overlapping_get (by omega) (by omega)]
  unfold ByteAt
  rw [hg]
  rcases h with rfl | rfl <;> split <;> exact ⟨_, rfl, by decide⟩

theorem overlappingDay_changes {k : Nat} {m : DailyRecord} (h : DayOf (overlappingDay (4 * k)) m) : m.changes.length = 32761 := by
  have hok : DayOk (overlappingDay (4 * k)) :=
    ⟨by rw [overlappingDay_length]; omega, overlappingDay_bcd (o := 0) (by omega) k rfl, overlappingDay_bcd (o := 1) (by omega) k rfl⟩
  rcases h with ⟨_, _, hr, _, _, _, _, _, hc⟩ | ⟨hn, _⟩
  · rw [← hc.length_eq, List.filter_eq_self.2, words_length, List.length_drop, overlappingDay_length]
    intro w hw
    obtain ⟨i, h1, h2, h3⟩ := words_get _ w hw
    rw [List.length_drop, overlappingDay_length] at h1
    rw [List.getElem?_drop, overlappingDay_get (by omega)] at h2 h3
    have hp := overlapping_pairs (((4 * k + (12 + 2 * i)) % 1460) / 2) (by omega)
    have e1 : 2 * (((4 * k + (12 + 2 * i)) % 1460) / 2) = (4 * k + (12 + 2 * i)) % 1460 := by omega
    have e2 : (4 * k + (12 + 2 * i)) % 1460 + 1 = (4 * k + (12 + (2 * i + 1))) % 1460 := by omega
    rw [e1, e2, h2, h3] at hp
    rw [decide_eq_true_eq]
    constructor <;> rintro rfl <;> exact hp rfl
  · exact absurd hok hn

theorem overlappingDays_mem (k : Nat) : ∀ r ∈ overlappingDays k, ∃ j, r = overlappingDay (4 * j) := by
  induction k with
  | zero => intro r hr; exact ⟨0, List.eq_of_mem_singleton hr⟩
  | succ k ih =>
    intro r hr
    rw [overlappingDays] at hr
    rcases List.mem_cons.1 hr with rfl | hr
    · exact ⟨k + 1, rfl⟩
    · exact ih r hr

theorem overlapping_read : ∃ a, unmarshalDriverActivityData ([0, 0, 0x05, 0xB0] ++ overlapping) = .ok a ∧ a.records.length = 365 ∧
    total (fun r => r.changes.length) a.records = 365 * 32761 := by
  obtain ⟨ms, hms⟩ : ∃ ms, List.Forall₂ DayOf (overlappingDays 364).reverse ms := by
    generalize (overlappingDays 364).reverse = l
    induction l with
    | nil => exact ⟨[], .nil⟩
    | cons r rs ih =>
      obtain ⟨m, _, hm⟩ := dailyRecord_spec r
      obtain ⟨ms, hms⟩ := ih
      exact ⟨m :: ms, .cons hm hms⟩
  have hlen := hms.length_eq
  rw [List.length_reverse, overlappingDays_length] at hlen
  have hall : ∀ m ∈ ms, m.changes.length = 32761 := by
    intro m hm
    obtain ⟨r, hr, hd⟩ := forall₂_mem hms m hm
    obtain ⟨j, rfl⟩ := overlappingDays_mem 364 r (List.mem_reverse.1 hr)
    exact overlappingDay_changes hd
  refine ⟨⟨0, 1456, some overlapping, ms⟩, (driverActivity_decode _ _).2 ⟨?_, ?_, ?_, ?_, ?_⟩, hlen.symm, ?_⟩
  · simp [overlapping_length]
  · rfl
  · rfl
  · rfl
  · exact (activity_ok_iff _ _ _).2 ⟨overlappingDays 364, 1459, by rw [overlappingDays_length]; omega, overlapping_path 364 (by omega),
      .inl (by rintro ⟨_, h⟩; simp [overlapping_length] at h), hms⟩
  · have : ∀ l : List DailyRecord, (∀ m ∈ l, m.changes.length = 32761) → total (fun r => r.changes.length) l = l.length * 32761 := by
      intro l
      induction l with
      | nil => intro _; rfl
      | cons m l ih =>
        intro h
        rw [List.forall_mem_cons] at h
        rw [total_cons, ih h.2, h.1, List.length_cons]
        omega
    rw [this ms hall, ← hlen]

/-- A card with nothing but the chip and the driver activity files of both generations. -/
def activityCard (v : Bytes) : List Tlv :=
  [⟨0x00, 0x02, 0, [1, 0, 0, 0, 7, 0x05, 0x24, 0x01, 0x40] ++ List.replicate 8 0x20 ++ [9, 0x53, 0x45, 0x41, 0x42, 0, 7, 1]⟩,
   ⟨0x05, 0x04, 0, v⟩, ⟨0x05, 0x04, 2, v⟩]

theorem activityCard_length (v : Bytes) : (fileBytes (activityCard v)).length = 40 + 2 * v.length := by
  rw [← file_bytes]
  show 25 + (v.length + (v.length + 0)) + 5 * 3 = _
  omega

theorem record_icc (v : Bytes) : (⟨0x00, 0x02, 0, v⟩ : Tlv).record = ⟨512, .icc, .gen1, .data, v.length, v⟩ := by
  have h : mapFid ((0x00 : UInt8).toNat * 256 + (0x02 : UInt8).toNat) = .icc := by decide +kernel
  simp only [Tlv.record, h]; rfl

theorem record_activity1 (v : Bytes) : (⟨0x05, 0x04, 0, v⟩ : Tlv).record = ⟨0x50400, .driverActivityData, .gen1, .data, v.length, v⟩ := by
  have h : mapFid ((0x05 : UInt8).toNat * 256 + (0x04 : UInt8).toNat) = .driverActivityData := by decide +kernel
  simp only [Tlv.record, h]; rfl

theorem record_activity2 (v : Bytes) : (⟨0x05, 0x04, 2, v⟩ : Tlv).record = ⟨0x50402, .driverActivityData, .gen2, .data, v.length, v⟩ := by
  have h : mapFid ((0x05 : UInt8).toNat * 256 + (0x04 : UInt8).toNat) = .driverActivityData := by decide +kernel
  have h1 : (if (2 : UInt8).toNat % 4 < 2 then Generation.gen1 else .gen2) = .gen2 := by decide
  have h2 : (if (2 : UInt8).toNat % 2 = 1 then ContentType.signature else .data) = .data := by decide
  simp only [Tlv.record, h, h1, h2]; rfl

/-- The value of EF_ICC in it. -/
def chip : Bytes := [1, 0, 0, 0, 7, 0x05, 0x24, 0x01, 0x40] ++ List.replicate 8 0x20 ++ [9, 0x53, 0x45, 0x41, 0x42, 0, 7, 1]

theorem activityCard_read [Charmap] {v : Bytes} {a : DriverActivityData} (ha : unmarshalDriverActivityData v = .ok a) (hv : v.length ≤ 65530) :
    ∃ f, unmarshalFile (fileBytes (activityCard v)) = .ok f ∧ ∀ n, inActivity n f = 2 * n a := by
  have hrec : (activityCard v).map Tlv.record = [⟨512, .icc, .gen1, .data, chip.length, chip⟩,
      ⟨0x50400, .driverActivityData, .gen1, .data, v.length, v⟩, ⟨0x50402, .driverActivityData, .gen2, .data, v.length, v⟩] := by
    simp only [activityCard, List.map_cons, List.map_nil, record_icc, record_activity1, record_activity2]
    rfl
  let bs : List Block := [⟨⟨512, .icc, .gen1, .data, chip.length, chip⟩, none⟩,
      ⟨⟨0x50400, .driverActivityData, .gen1, .data, v.length, v⟩, none⟩, ⟨⟨0x50402, .driverActivityData, .gen2, .data, v.length, v⟩, none⟩]
  refine ⟨{ type := .driverCard, driverCard := some (cardOf bs) }, (driver_file_iff ?_ ⟨_, rfl⟩ _).2 ⟨?_, ?_⟩, ?_⟩
  · simp only [activityCard, List.forall_mem_cons]
    exact ⟨by decide, hv, hv, by simp⟩
  · rw [infer_driver_iff, hrec]
    show [EF.icc, .driverActivityData, .driverActivityData] ≠ [] ∧ ∀ f ∈ [EF.icc, .driverActivityData, .driverActivityData], f ∈ _
    decide
  · rw [hrec]
    refine (driver_card_iff _ _).2 ⟨bs, rfl, ?_, rfl⟩
    simp only [bs, List.forall_mem_cons]
    refine ⟨⟨⟨rfl, by simp⟩, rfl, (icc_accepts_iff _).2 ⟨by decide, ⟨1, rfl, known_iff.2 ⟨_, rfl⟩⟩, ⟨1, rfl, known_iff.2 ⟨_, rfl⟩⟩⟩⟩,
      ⟨⟨rfl, by simp⟩, .inl ⟨rfl, ⟨a, ha⟩⟩⟩, ⟨⟨rfl, by simp⟩, .inr ⟨rfl, ⟨a, ha⟩⟩⟩, by simp⟩
  · intro n
    have p1 : bs.any inGen1 = true := rfl
    have p2 : bs.any inGen2 = true := rfl
    have q1 : newest bs (fileGen .driverActivityData .gen1) = some ⟨⟨0x50400, .driverActivityData, .gen1, .data, v.length, v⟩, none⟩ := rfl
    have q2 : newest bs (fileGen .driverActivityData .gen2) = some ⟨⟨0x50402, .driverActivityData, .gen2, .data, v.length, v⟩, none⟩ := rfl
    have r : ∀ b : Block, b.data.value = v →
        inPart (fun x : Signed DriverActivityData => n x.data) (b.readSigned unmarshalDriverActivityData) = n a := by
      intro b hb
      simp only [Block.readSigned, Block.read, hb, ha, Option.map_some, inPart]
    simp only [inActivity, cardOf, p1, p2, if_true]
    simp only [gen1Of, gen2Of, q1, q2, Option.bind_some]
    show inPart (fun x : Signed DriverActivityData => n x.data) (Block.readSigned _ _) + inPart (fun x : Signed DriverActivityData => n x.data) (Block.readSigned _ _) = _
    rw [r _ rfl, r _ rfl]
    omega

/-- C77, finding: the number of changes is not bounded by the size of the file. A file of 2 968 bytes gives the largest possible number,
almost 24 million. -/
theorem message_amplified [Charmap] : ∃ d f, d.length = 2968 ∧ unmarshalFile d = .ok f ∧ days f = 2 * 365 ∧ changes f = 2 * (365 * 32761) := by
  obtain ⟨a, ha, h1, h2⟩ := overlapping_read
  have hl : ([0, 0, 0x05, 0xB0] ++ overlapping).length = 1464 := by rw [List.length_append, overlapping_length]; rfl
  obtain ⟨f, hf, hn⟩ := activityCard_read ha (by omega)
  refine ⟨_, f, ?_, hf, ?_, ?_⟩
  · rw [activityCard_length, hl]
  · exact (hn _).trans (congrArg (2 * ·) h1)
  · exact (hn _).trans (congrArg (2 * ·) h2)

end Tacho
