import Verif.Model.Sharing
import Verif.Props.VuFile
import Verif.Props.RawCard
/-!
# Memory shared between a parsed file and the caller's buffer (C71)
-/

namespace Tacho
open Spec

/-! ## Specification -/

/-- The records' values follow each other in array 0, each after a tag of two bytes, from `off` to `n`. -/
def Spec.Tiles : (rs : List SharedVuRec) → (off n : Nat) → Prop
  | [], off, n => off = n
  | r :: rs, off, n => r.value.slot = 0 ∧ r.value.off = off + 2 ∧ Tiles rs (off + 2 + r.value.len) n

/-- Slice `s` lies inside slice `w` of the same array. -/
def Spec.InWindow (s w : Slice) : Prop := s.slot = w.slot ∧ w.off ≤ s.off ∧ s.off + s.len ≤ w.off + w.len

/-! ## Vehicle unit files -/

theorem sl_drop (d : Bytes) (o a b : Nat) : sl (d.drop o) a b = sl d (o + a) (o + b) := by
  unfold sl
  rw [List.take_drop, List.drop_drop, Nat.add_comm o b, Nat.add_comm b o]

theorem sharedVuLoop_agrees (d : Bytes) (fuel : Nat) : ∀ (off : Nat) (_ : off ≤ d.length),
    (do let rs ← sharedVuLoop d fuel off; return rs.map (·.read [d])) = rawVuLoop fuel (d.drop off) := by
  induction fuel with
  | zero => intro off _; rfl
  | succ fuel ih =>
    intro off hoff
    rw [sharedVuLoop, rawVuLoop]
    by_cases h0 : off < d.length
    · have hz : ¬ (d.drop off).length = 0 := by rw [List.length_drop]; omega
      by_cases h2 : off + 2 > d.length
      · have hz2 : (d.drop off).length < 2 := by rw [List.length_drop]; omega
        simp only [if_pos h0, if_neg hz, if_pos h2, if_pos hz2, Res.bind_err]
      · have hz2 : ¬ (d.drop off).length < 2 := by rw [List.length_drop]; omega
        simp only [if_pos h0, if_neg hz, if_neg h2, if_neg hz2]
        rw [sl?_ok (by omega) (by omega), sl?_ok (by omega) (by rw [List.length_drop]; omega), sl_drop]
        simp only [Res.bind_ok, Nat.add_zero]
        cases findTransferTypeByTag (beNat (sl d off (off + 2))) with
        | none => rfl
        | some t =>
          dsimp only
          unfold from?
          rw [if_pos (by omega), if_pos (by rw [List.length_drop]; omega), List.drop_drop]
          simp only [Res.bind_ok]
          cases hs : sizeOfTransferValue (d.drop (off + 2)) t with
          | err m => rfl
          | panic => rfl
          | ok n =>
            simp only [Res.bind_ok]
            by_cases hn : off + 2 + n > d.length
            · have hn' : n > (d.drop (off + 2)).length := by rw [List.length_drop]; omega
              simp only [if_pos hn, if_pos hn', Res.bind_err]
            · have hn' : ¬ n > (d.drop (off + 2)).length := by rw [List.length_drop]; omega
              simp only [if_neg hn, if_neg hn']
              rw [sl?_ok (by omega) (by rw [List.length_drop]; omega)]
              simp only [Res.bind_ok, List.drop_drop]
              rw [← ih (off + 2 + n) (by omega)]
              cases sharedVuLoop d fuel (off + 2 + n) with
              | err m => rfl
              | panic => rfl
              | ok rs =>
                simp only [Res.bind_ok, Res.pure_eq, List.map_cons, SharedVuRec.read, Slice.read, List.getD_cons_zero, sl_drop,
                  Nat.add_zero]
    · have hz : (d.drop off).length = 0 := by rw [List.length_drop]; omega
      simp only [if_neg h0, if_pos hz]
      rfl

theorem sharedVuLoop_tiles (d : Bytes) (fuel : Nat) : ∀ (off : Nat) (rs : List SharedVuRec) (_ : d.length - off ≤ fuel)
    (_ : off ≤ d.length), sharedVuLoop d fuel off = .ok rs → Tiles rs off d.length := by
  induction fuel with
  | zero =>
    intro off rs h1 h2 h
    cases h
    show off = d.length
    omega
  | succ fuel ih =>
    intro off rs h1 h2 h
    rw [sharedVuLoop] at h
    split at h
    · split at h
      · cases h
      · simp only [bind_eq_ok] at h
        obtain ⟨x, hx, h⟩ := h
        split at h
        · cases h
        · simp only [bind_eq_ok, guard_eq_ok, Res.pure_eq, Res.ok.injEq] at h
          obtain ⟨rest, _, n, _, hn, rs', hrs, rfl⟩ := h
          exact ⟨rfl, rfl, ih _ _ (by dsimp only; omega) (by dsimp only; omega) hrs⟩
    · cases h
      show off = d.length
      omega

/-- C71: the first pass with slices gives what the first pass gives, for every input. -/
theorem shared_vu_agrees (d : Bytes) :
    (do let rs ← sharedVehicleUnitFile d; return rs.map (·.read [d])) = unmarshalRawVehicleUnitFile d :=
  sharedVuLoop_agrees d d.length 0 (Nat.zero_le _)

theorem sl_ext {a b : Bytes} {i j : Nat} :
    sl a i j = sl b i j ↔ ∀ k, i ≤ k → k < j → a[k]? = b[k]? := by
  unfold sl
  constructor
  · intro h k h1 h2
    have := congrArg (fun l : Bytes => l[k - i]?) h
    simp only [List.getElem?_drop, List.getElem?_take] at this
    rw [show i + (k - i) = k by omega, if_pos h2, if_pos h2] at this
    exact this
  · intro h
    apply List.ext_getElem?
    intro k
    simp only [List.getElem?_drop, List.getElem?_take]
    split
    · exact h _ (by omega) (by assumption)
    · rfl

theorem tiles_mem {rs : List SharedVuRec} : ∀ {off n : Nat}, Tiles rs off n → ∀ r ∈ rs,
    r.value.slot = 0 ∧ off + 2 ≤ r.value.off ∧ r.value.off + r.value.len ≤ n := by
  induction rs with
  | nil => intro off n _ r hr; cases hr
  | cons x xs ih =>
    rintro off n ⟨h1, h2, h3⟩ r hr
    have hle : ∀ {rs : List SharedVuRec} {off n : Nat}, Tiles rs off n → off ≤ n := by
      intro rs
      induction rs with
      | nil => intro off n h; exact Nat.le_of_eq h
      | cons y ys ih => rintro off n ⟨_, _, h⟩; have := ih h; omega
    rcases List.mem_cons.mp hr with rfl | hr
    · have := hle h3
      exact ⟨h1, by omega, by omega⟩
    · obtain ⟨a, b, c⟩ := ih h3 r hr
      exact ⟨a, by omega, c⟩

/-- C71: the values of the transfers of a parsed vehicle unit file are slices of the caller's buffer: they follow each
other without gap, each after its tag, and fill it. After the caller has put other bytes into the buffer, each shows
what is there now; a value is unchanged exactly if no byte of its window has changed. -/
theorem vu_result_shares_buffer (d : Bytes) (recs : List VuRec) (h : unmarshalRawVehicleUnitFile d = .ok recs) :
    ∃ rs, sharedVehicleUnitFile d = .ok rs ∧ recs = rs.map (·.read [d]) ∧ Tiles rs 0 d.length ∧
      ∀ d', d'.length = d.length → ∀ r ∈ rs,
        r.value.read [d'] = sl d' r.value.off (r.value.off + r.value.len) ∧ (r.value.read [d']).length = r.value.len ∧
        (r.value.read [d'] = r.value.read [d] ↔
          ∀ i, r.value.off ≤ i → i < r.value.off + r.value.len → d'[i]? = d[i]?) := by
  rw [← shared_vu_agrees, bind_eq_ok] at h
  obtain ⟨rs, hrs, h⟩ := h
  cases h
  have ht := sharedVuLoop_tiles d d.length 0 rs (by omega) (by omega) hrs
  refine ⟨rs, hrs, rfl, ht, fun d' hd r hr => ?_⟩
  obtain ⟨h1, -, h3⟩ := tiles_mem ht r hr
  simp only [Slice.read, h1, List.getD_cons_zero]
  exact ⟨trivial, by rw [sl_length]; omega, sl_ext⟩

/-- C71: every byte of the buffer that is not part of a tag is shown by a record. -/
theorem vu_result_shows_buffer (n : Nat) (d' : Bytes) (hd : d'.length = n) : ∀ (rs : List SharedVuRec) (off : Nat) (_ : Tiles rs off n) (i : Nat),
    off ≤ i → i < n → (∃ r ∈ rs, r.value.off = i + 1 ∨ r.value.off = i + 2) ∨
      ∃ r ∈ rs, r.value.off ≤ i ∧ (r.value.read [d'])[i - r.value.off]? = d'[i]? := by
  intro rs
  induction rs with
  | nil => intro off h i h1 h2; have : off = n := h; omega
  | cons r rs ih =>
    rintro off ⟨h1, h2, h3⟩ i hi hn
    by_cases ht : i < off + 2
    · exact .inl ⟨r, by simp, by omega⟩
    · by_cases hv : i < off + 2 + r.value.len
      · refine .inr ⟨r, by simp, by omega, ?_⟩
        simp only [Slice.read, h1, List.getD_cons_zero, sl, List.getElem?_drop, List.getElem?_take, h2]
        rw [show off + 2 + (i - (off + 2)) = i by omega, if_pos (by omega)]
      · rcases ih _ h3 i (by omega) hn with ⟨x, hx, h⟩ | ⟨x, hx, h⟩
        · exact .inl ⟨x, by simp [hx], h⟩
        · exact .inr ⟨x, by simp [hx], h⟩

/-! ### The byte fields of the transfer messages -/

theorem read_sub {s : Slice} {h : Heap} {a n : Nat} (hn : a + n ≤ s.len) :
    Slice.read ⟨s.slot, s.off + a, n⟩ h = sl (s.read h) a (a + n) := by
  unfold Slice.read
  dsimp only
  rw [sl_sl (by omega)]
  congr 1
  omega

theorem read_last {s : Slice} {h : Heap} {n : Nat} (hn : n ≤ s.len) :
    (s.last n).read h = sl (s.read h) (s.len - n) s.len := by
  unfold Slice.last
  rw [read_sub (by omega)]
  congr 1
  omega

theorem last_inWindow {s : Slice} {n : Nat} (hn : n ≤ s.len) : InWindow (s.last n) s :=
  ⟨rfl, by simp [Slice.last], by simp only [Slice.last]; omega⟩

theorem inWindow_self {s : Slice} : InWindow s s := ⟨rfl, Nat.le_refl _, Nat.le_refl _⟩

/-- C71: the raw data and signature of an events, speed or technical data message of Gen1 are slices of the buffer. -/
theorem signed_fields_shared (h : Heap) (r : SharedVuRec) (m : SignedGen1)
    (ht : r.type = .eventsGen1 ∨ r.type = .speedGen1 ∨ r.type = .technicalGen1)
    (hl : (r.value.read h).length = r.value.len) (hm : unmarshalSignedGen1 (r.value.read h) = .ok m) :
    r.fields.map (·.read h) = [m.rawData, m.signature] ∧ ∀ s ∈ r.fields, InWindow s r.value := by
  simp only [unmarshalSignedGen1, guard_eq_ok, bind_eq_ok, Res.pure_eq, Res.ok.injEq, from?] at hm
  obtain ⟨h1, sig, h2, rfl⟩ := hm
  rw [if_pos (by omega), Res.ok.injEq] at h2
  have hf : r.fields = [r.value, r.value.last 128] := by
    unfold SharedVuRec.fields
    rcases ht with ht | ht | ht <;> rw [ht]
  rw [hl] at h1 h2
  rw [hf]
  constructor
  · simp only [List.map_cons, List.map_nil]
    rw [read_last (by omega), ← h2, sl, List.take_of_length_le (by omega)]
  · simp only [List.forall_mem_cons]
    exact ⟨inWindow_self, last_inWindow (by omega), fun s hs => by cases hs⟩

/-- C71: so are those of a day of activities of Gen1. -/
theorem activities_fields_shared [Charmap] (h : Heap) (r : SharedVuRec) (m : ActivitiesGen1) (ht : r.type = .activitiesGen1)
    (hl : (r.value.read h).length = r.value.len) (hm : unmarshalActivitiesGen1 (r.value.read h) = .ok m) :
    r.fields.map (·.read h) = [m.rawData, m.signature] ∧ ∀ s ∈ r.fields, InWindow s r.value := by
  obtain ⟨a, b, c, d, ⟨-, -, -, -, hs⟩, hr, -, -, -, -, -, -, hg⟩ := (activities_iff _ _).1 hm
  have hf : r.fields = [r.value, r.value.last 128] := by
    unfold SharedVuRec.fields
    rw [ht]
  rw [hf]
  constructor
  · simp only [List.map_cons, List.map_nil]
    rw [read_last (by omega), hr, hg, hl, show 9 + a * 129 + 2 + b * 2 + 1 + c * 28 + 2 + d * 5 = r.value.len - 128 by omega]
  · simp only [List.forall_mem_cons]
    exact ⟨inWindow_self, last_inWindow (by omega), fun s hs => by cases hs⟩

/-- C71: so are those of an overview of Gen1, and its two certificates. -/
theorem overview_fields_shared [Charmap] (h : Heap) (r : SharedVuRec) (m : OverviewGen1) (ht : r.type = .overviewGen1)
    (hl : (r.value.read h).length = r.value.len) (hm : unmarshalOverviewGen1 (r.value.read h) = .ok m) :
    r.fields.map (·.read h) = [m.rawData, m.memberStateCertificate, m.vuCertificate, m.signature] ∧
      ∀ s ∈ r.fields, InWindow s r.value := by
  obtain ⟨n, k, ⟨-, -, hs⟩, hr, hc, hv, -, -, -, -, -, -, -, -, hg⟩ := (overview_iff _ _).1 hm
  have hf : r.fields = [r.value, ⟨r.value.slot, r.value.off + 0, 194⟩, ⟨r.value.slot, r.value.off + 194, 194⟩, r.value.last 128] := by
    unfold SharedVuRec.fields
    rw [ht]
    rfl
  rw [hf]
  constructor
  · simp only [List.map_cons, List.map_nil]
    rw [read_last (by omega), hr, hg, hl, read_sub (by omega), read_sub (by omega), hc, hv,
      show 492 + n * 98 + 1 + k * 31 = r.value.len - 128 by omega]
  · simp only [List.forall_mem_cons]
    exact ⟨inWindow_self, ⟨rfl, by dsimp only; omega, by dsimp only; omega⟩, ⟨rfl, by dsimp only; omega, by dsimp only; omega⟩,
      last_inWindow (by omega), fun s hs => by cases hs⟩

/-- C71: the raw data of a Gen2 transfer are the slice listed. -/
theorem gen2_fields_shared (h : Heap) (r : SharedVuRec) (names : List String) (m : RawGen2)
    (ht : generationFromTransferType r.type = .gen2) (hd : r.type ≠ .downloadInterfaceVersion)
    (hm : unmarshalArrays names (r.value.read h) = .ok m) : r.fields.map (·.read h) = [m.rawData] := by
  simp only [unmarshalArrays, guard_eq_ok, bind_eq_ok, Res.pure_eq, Res.ok.injEq] at hm
  obtain ⟨_, _, _, rfl⟩ := hm
  unfold SharedVuRec.fields
  split <;> simp_all [generationFromTransferType]

/-! ### Appending to a result -/

/-- C71: what `append` returns shows the old bytes followed by the new ones, whether or not it had room for them. -/
theorem append_read (h : Heap) (s : Slice) (b : Bytes) (hs : s.slot < h.length) (hin : s.off + s.len ≤ (h.getD s.slot []).length) :
    (Heap.append h s b).1.read (Heap.append h s b).2 = s.read h ++ b := by
  unfold Heap.append
  dsimp only
  split
  · rename_i hfit
    simp only [Slice.read, List.getD_eq_getElem?_getD, List.getElem?_set_self hs, Option.getD_some] at *
    generalize h[s.slot]?.getD [] = a at *
    unfold paint sl
    have hl : (a.take (s.off + s.len)).length = s.off + s.len := by simp; omega
    rw [List.take_of_length_le (i := b.length) (by omega), Nat.min_self]
    apply List.ext_getElem?
    intro i
    simp only [List.getElem?_drop, List.getElem?_take, List.getElem?_append, hl, List.length_drop,
      List.append_assoc]
    by_cases h1 : i < s.len
    · rw [if_pos (by omega), if_pos (by omega), if_pos (by omega), if_pos (by omega)]
    · by_cases h2 : i < s.len + b.length
      · rw [if_pos (by omega), if_neg (by omega), if_pos (by omega), if_neg (by omega)]
        congr 1; omega
      · rw [if_neg (by omega), if_neg (by omega)]
        exact (List.getElem?_eq_none (by omega)).symm
  · simp only [Heap.alloc, Slice.read, List.getD_eq_getElem?_getD, List.getElem?_concat_length, Option.getD_some, Nat.zero_add, sl, List.drop_zero,
      List.take_length]

/-- C71, finding: the slices of a parsed vehicle unit file have room behind them, so appending three bytes or more to the
raw data of one transfer overwrites the raw data of the next. -/
theorem vu_append_overwrites_next (d : Bytes) (pre post : List SharedVuRec) (r1 r2 : SharedVuRec) (b : Bytes)
    (h : sharedVehicleUnitFile d = .ok (pre ++ r1 :: r2 :: post)) (h3 : 3 ≤ b.length) (hb : b.length ≤ 2 + r2.value.len) :
    r2.value.read ((Heap.append [d] r1.value b).2) = b.drop 2 ++ (r2.value.read [d]).drop (b.length - 2) := by
  have ht := sharedVuLoop_tiles d d.length 0 _ (by omega) (by omega) h
  have key : ∀ (pre : List SharedVuRec) (off : Nat), Tiles (pre ++ r1 :: r2 :: post) off d.length →
      r1.value.slot = 0 ∧ r2.value.slot = 0 ∧ r2.value.off = r1.value.off + r1.value.len + 2 ∧
        r2.value.off + r2.value.len ≤ d.length := by
    intro pre
    induction pre with
    | nil =>
      intro off h
      obtain ⟨a, b, c⟩ := h
      have := tiles_mem c r2 (by simp)
      obtain ⟨a', b', c'⟩ := c
      exact ⟨a, a', by omega, this.2.2⟩
    | cons x xs ih => rintro off ⟨_, _, h⟩; exact ih _ h
  obtain ⟨k1, k2, k3, k4⟩ := key pre 0 ht
  unfold Heap.append
  simp only [k1, List.getD_cons_zero]
  rw [if_pos (by omega)]
  simp only [List.set_cons_zero, Slice.read, k2, List.getD_cons_zero]
  rw [k3]
  generalize r1.value.off + r1.value.len = o at *
  unfold paint sl
  rw [List.take_of_length_le (i := b.length) (by omega), Nat.min_self]
  have hl : (d.take o).length = o := by simp; omega
  apply List.ext_getElem?
  intro i
  simp only [List.getElem?_drop, List.getElem?_take, List.getElem?_append, List.length_append, hl, List.length_drop, List.append_assoc]
  by_cases h1 : i < b.length - 2
  · rw [if_pos (by omega), if_neg (by omega), if_pos (by omega), if_pos h1]
    congr 1; omega
  · rw [if_neg (by omega : ¬ o + 2 + i < o), if_neg (by omega : ¬ o + 2 + i - o < b.length), if_neg h1]
    split
    · rw [if_pos (by omega)]; congr 1; omega
    · rw [if_neg (by omega)]

/-! ## Card files -/

theorem alloc_read (h : Heap) (b : Bytes) : (h.alloc b).1.read (h.alloc b).2 = b := by
  simp [Heap.alloc, Slice.read, sl]

theorem getD_append_left {h : Heap} {x : Heap} {i : Nat} (hi : i < h.length) : (h ++ x).getD i [] = h.getD i [] := by
  simp [List.getD_eq_getElem?_getD, List.getElem?_append_left hi]

/-- What the loop leaves: the arrays that were there, and one new array for every record. -/
theorem sharedCardRecords_spec (ts : List Bytes) : ∀ (h : Heap),
    (do let (rs, h') ← sharedCardRecords h ts; return rs.map (·.read h')) = rawRecords ts ∧
    ∀ rs h', sharedCardRecords h ts = .ok (rs, h') → ∃ x, h' = h ++ x ∧
      (∀ r ∈ rs, h.length ≤ r.value.slot ∧ r.value.slot < h'.length ∧ r.value.off = 0 ∧ (h'.getD r.value.slot []).length = r.value.len) ∧
      rs.Pairwise (fun a b => a.value.slot < b.value.slot) := by
  induction ts with
  | nil =>
    intro h
    refine ⟨rfl, fun rs h' e => ?_⟩
    cases e
    exact ⟨[], by simp, fun r hr => (by cases hr), List.Pairwise.nil⟩
  | cons t ts ih =>
    intro h
    rw [sharedCardRecords, rawRecords]
    cases hr : unmarshalRawCardFileRecord t with
    | err m => exact ⟨rfl, fun rs h' e => by cases e⟩
    | panic => exact ⟨rfl, fun rs h' e => by cases e⟩
    | ok r =>
      simp only [Res.bind_ok]
      obtain ⟨e1, e2⟩ := ih (h.alloc r.value).2
      rw [← e1]
      cases hx : sharedCardRecords (h.alloc r.value).2 ts with
      | err m => exact ⟨rfl, fun rs h' e => by cases e⟩
      | panic => exact ⟨rfl, fun rs h' e => by cases e⟩
      | ok p =>
        obtain ⟨rs, h'⟩ := p
        obtain ⟨x, rfl, q1, q2⟩ := e2 _ _ hx
        have hlen : (h.alloc r.value).2.length = h.length + 1 := by simp [Heap.alloc]
        have hget : ((h.alloc r.value).2 ++ x).getD h.length [] = r.value := by
          rw [getD_append_left (by omega)]
          simp [Heap.alloc]
        have hread : (h.alloc r.value).1.read ((h.alloc r.value).2 ++ x) = r.value := by
          unfold Slice.read
          rw [show (h.alloc r.value).1.slot = h.length from rfl, hget]
          simp [Heap.alloc, sl]
        refine ⟨?_, fun rs' h'' e => ?_⟩
        · simp only [Res.bind_ok, Res.pure_eq, List.map_cons, SharedCardRec.read, hread]
        · cases e
          refine ⟨[r.value] ++ x, by simp [Heap.alloc], ?_, ?_⟩
          · intro y hy
            rcases List.mem_cons.mp hy with rfl | hy
            · refine ⟨Nat.le_refl _, ?_, rfl, ?_⟩
              · rw [List.length_append, hlen]; show h.length < _; omega
              · show (((h.alloc r.value).2 ++ x).getD h.length []).length = _
                rw [hget]; rfl
            · obtain ⟨a, b⟩ := q1 y hy
              exact ⟨by omega, b⟩
          · refine List.Pairwise.cons (fun y hy => ?_) q2
            have := (q1 y hy).1
            show h.length < _
            omega

/-- C71: the first pass over a card file with slices gives what the first pass gives, for every input. -/
theorem shared_card_agrees (h : Heap) :
    (do let (rs, h') ← sharedCardFile h; return rs.map (·.read h')) = unmarshalRawCardFile (h.getD 0 []) := by
  unfold sharedCardFile unmarshalRawCardFile
  dsimp only
  rw [← (sharedCardRecords_spec _ h).1]
  cases sharedCardRecords h _ with
  | err m => rfl
  | panic => rfl
  | ok p =>
    obtain ⟨rs, h'⟩ := p
    simp only [Res.bind_ok, Res.pure_eq]
    cases (scanAll scanCardFile (h.getD 0 [])).err <;> rfl

theorem set_read {h : Heap} {s : Slice} {i : Nat} {b : Bytes} (hi : s.slot ≠ i) : s.read (h.set i b) = s.read h := by
  unfold Slice.read
  rw [List.getD_eq_getElem?_getD, List.getD_eq_getElem?_getD, List.getElem?_set_ne (fun e => hi e.symm)]

/-- C71: the records of a parsed card file share nothing with the caller's buffer, nor with each other: whatever the
caller puts into its buffer afterwards, and whatever is appended to the value of one record, the records stay as they
were read. -/
theorem card_result_independent (d : Bytes) (more : Heap) (recs : List RawRec) (h : unmarshalRawCardFile d = .ok recs) :
    ∃ rs h', sharedCardFile (d :: more) = .ok (rs, h') ∧ recs = rs.map (·.read h') ∧
      (∀ d', rs.map (·.read (h'.set 0 d')) = recs) ∧
      ∀ r ∈ rs, ∀ b, rs.map (·.read (Heap.append h' r.value b).2) = recs := by
  have ha := shared_card_agrees (d :: more)
  rw [show (d :: more).getD 0 [] = d from rfl, h, bind_eq_ok] at ha
  obtain ⟨⟨rs, h'⟩, hs, ha⟩ := ha
  simp only [Res.pure_eq, Res.ok.injEq] at ha
  obtain ⟨x, hx, q1, q2⟩ : ∃ x, h' = (d :: more) ++ x ∧
      (∀ r ∈ rs, (d :: more).length ≤ r.value.slot ∧ r.value.slot < h'.length ∧ r.value.off = 0 ∧ (h'.getD r.value.slot []).length = r.value.len) ∧
      rs.Pairwise (fun a b => a.value.slot < b.value.slot) := by
    unfold sharedCardFile at hs
    rw [bind_eq_ok] at hs
    obtain ⟨p, hp, hs⟩ := hs
    split at hs
    · cases hs
    · cases hs
      exact (sharedCardRecords_spec _ _).2 _ _ hp
  refine ⟨rs, h', hs, ha.symm, fun d' => ?_, fun r hr b => ?_⟩
  · rw [← ha]
    apply List.map_congr_left
    intro r hr
    have := (q1 r hr).1
    simp only [SharedCardRec.read, set_read (show r.value.slot ≠ 0 by simp at this; omega)]
  · rw [← ha]
    apply List.map_congr_left
    intro y hy
    obtain ⟨_, _, r3, r4⟩ := q1 r hr
    have : y.value.read (Heap.append h' r.value b).2 = y.value.read h' := by
      unfold Heap.append
      dsimp only
      split
      · rename_i hc
        have hb : b = [] := List.eq_nil_of_length_eq_zero (by omega)
        subst hb
        dsimp only
        by_cases e : y.value.slot = r.value.slot
        · obtain ⟨_, y2, _⟩ := q1 y hy
          unfold Slice.read
          rw [e, List.getD_eq_getElem?_getD, List.getElem?_set_self (by omega), List.getD_eq_getElem?_getD]
          rw [List.getD_eq_getElem?_getD] at r4
          simp [paint]
        · exact set_read e
      · unfold Heap.alloc Slice.read
        dsimp only
        rw [getD_append_left (q1 y hy).2.1]
    simp only [SharedCardRec.read, this]

/-! ## Cases that meet the hypotheses, and what happens when a buffer is used again -/

/-- A Gen1 download of one day of activities without any record; `m` is the last byte of the date. -/
def Spec.sampleDayFile (m : UInt8) : Bytes := [0x76, 0x02, 0x5F, 0x00, 0x00, m] ++ zeros 10 ++ zeros 128

/-- Two card records, read from the buffer and left alone when it is overwritten. -/
example : ∃ recs rs h', unmarshalRawCardFile [0, 2, 0, 0, 2, 7, 8, 5, 0, 0, 0, 1, 9] = .ok recs ∧
    sharedCardFile [[0, 2, 0, 0, 2, 7, 8, 5, 0, 0, 0, 1, 9]] = .ok (rs, h') ∧ rs.map (·.read (h'.set 0 (zeros 13))) = recs := by
  obtain ⟨recs, hr⟩ := (raw_card_accepts_iff [0, 2, 0, 0, 2, 7, 8, 5, 0, 0, 0, 1, 9]).2 ⟨[⟨0, 2, 0, [7, 8]⟩, ⟨5, 0, 0, [9]⟩], by decide, by decide⟩
  obtain ⟨rs, h', h1, _, h2, _⟩ := card_result_independent _ [] recs hr
  exact ⟨recs, rs, h', hr, h1, h2 _⟩

/-- Two blocks of detailed speed. -/
example : sharedVehicleUnitFile ([0x76, 4, 0, 0] ++ zeros 128 ++ [0x76, 4, 0, 0] ++ zeros 128) =
    .ok [⟨0x7604, .speedGen1, .gen1, ⟨0, 2, 130⟩⟩, ⟨0x7604, .speedGen1, .gen1, ⟨0, 134, 130⟩⟩] := by
  decide +kernel

set_option maxRecDepth 20000 in
/-- C71, finding: a buffer used for two downloads. The message read first then shows the date of the first day, and the
raw data of the second. -/
theorem vu_buffer_reused [Charmap] : ∃ r m m', sharedVehicleUnitFile (sampleDayFile 1) = .ok [r] ∧
    unmarshalVehicleUnitFile (sampleDayFile 1) = .ok { generation := .gen1, gen1 := some { activities := [m] } } ∧
    unmarshalVehicleUnitFile (sampleDayFile 2) = .ok { generation := .gen1, gen1 := some { activities := [m'] } } ∧
    m.dateOfDay ≠ m'.dateOfDay ∧ m.rawData ≠ m'.rawData ∧
    r.value.read [sampleDayFile 1] = m.rawData ∧ r.value.read [sampleDayFile 2] = m'.rawData := by
  have key : ∀ b : UInt8, b = 1 ∨ b = 2 → ∃ m : ActivitiesGen1, m.dateOfDay = some ⟨0x5F000000 + b.toNat, 0⟩ ∧
      m.rawData = (sampleDayFile b).drop 2 ∧
      unmarshalVehicleUnitFile (sampleDayFile b) = .ok { generation := .gen1, gen1 := some { activities := [m] } } := by
    intro b hb
    refine ⟨⟨(sampleDayFile b).drop 2, some ⟨0x5F000000 + b.toNat, 0⟩, 0, [], [], [], [], zeros 128⟩, rfl, rfl, ?_⟩
    rcases hb with rfl | rfl
    · rfl
    · rfl
  obtain ⟨m, d1, r1, u1⟩ := key 1 (.inl rfl)
  obtain ⟨m', d2, r2, u2⟩ := key 2 (.inr rfl)
  refine ⟨⟨0x7602, .activitiesGen1, .gen1, ⟨0, 2, 142⟩⟩, m, m', by decide +kernel, u1, u2, ?_, ?_, ?_, ?_⟩
  · rw [d1, d2]; decide
  · rw [r1, r2]; decide +kernel
  · rw [r1]; decide +kernel
  · rw [r2]; decide +kernel

end Tacho
