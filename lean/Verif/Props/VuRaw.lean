import Verif.Lemmas.VuRaw
/-!
# Cutting a vehicle unit download into transfers (C07, C08)
-/

namespace Tacho
open Spec

theorem vuBytes_cons (t : Transfer) (ts : List Transfer) : vuBytes (t :: ts) = t.bytes ++ vuBytes ts := rfl

theorem transfer_bytes_length (t : Transfer) : t.bytes.length = 2 + t.value.length := by
  simp [Transfer.bytes]; omega

/-- Enough rounds are as good as any. -/
theorem rawVuLoop_nil (fuel : Nat) : rawVuLoop fuel [] = .ok [] := by
  cases fuel <;> rfl

theorem tag_bytes {d : Bytes} {t : TransferType} (h2 : ¬ d.length < 2)
    (h : beNat (sl d 0 2) = 0x7600 + (trep t).toNat) : d = [0x76, trep t] ++ d.drop 2 := by
  have hl : (d.take 2).length = 2 := by simp; omega
  obtain ⟨a, b, hab⟩ := list2 hl
  have e : sl d 0 2 = [a, b] := by rw [← take_eq_sl, hab]
  rw [e, beNat_two] at h
  have ha := byte_lt a; have hb := byte_lt b; have ht := byte_lt (trep t)
  have h1 : a.toNat = 0x76 := by omega
  have h2 : b.toNat = (trep t).toNat := by omega
  have e1 : a = 0x76 := UInt8.toNat_inj.1 (by simpa using h1)
  have e2 : b = trep t := UInt8.toNat_inj.1 h2
  conv => lhs; rw [← List.take_append_drop 2 d, hab, e1, e2]

theorem bytes_tag (t : TransferType) (r : Bytes) :
    beNat (sl ([0x76, trep t] ++ r) 0 2) = 0x7600 + (trep t).toNat := by
  have : sl ([0x76, trep t] ++ r) 0 2 = [0x76, trep t] := by simp [sl]
  rw [this, beNat_two]; rfl

theorem generation_eq (t : TransferType) : generationFromTransferType t = generation t := by
  cases t <;> rfl

/-- One round on data that begins with a tag. -/
theorem rawVuLoop_tag (fuel : Nat) (t : TransferType) (r : Bytes) :
    rawVuLoop (fuel + 1) ([0x76, trep t] ++ r) = (do
      let n ← sizeOfTransferValue r t
      if n > r.length then .err "insufficient data for value"
      let value ← sl? r 0 n
      let records ← rawVuLoop fuel (r.drop n)
      return Transfer.record ⟨t, value⟩ :: records) := by
  have hd : ([0x76, trep t] ++ r).drop 2 = r := rfl
  simp only [rawVuLoop]
  rw [if_neg (by simp), if_neg (by simp), sl?_ok (by omega) (by simp)]
  simp only [Res.bind_ok, bytes_tag, tag_of_type, from?, hd]
  rw [if_pos (by simp)]
  simp only [Res.bind_ok, Transfer.record, generation_eq]

theorem rawVuLoop_ok (fuel : Nat) (d : Bytes) (hf : d.length ≤ fuel) (recs : List VuRec) :
    rawVuLoop fuel d = .ok recs ↔
      ∃ ts, d = vuBytes ts ∧ Cut ts [] ∧ recs = ts.map Transfer.record := by
  have nil_case : ∀ recs, Res.ok [] = .ok recs ↔
      ∃ ts, ([] : Bytes) = vuBytes ts ∧ Cut ts [] ∧ recs = ts.map Transfer.record := by
    intro recs
    constructor
    · rintro h
      simp only [Res.ok.injEq] at h
      exact ⟨[], rfl, trivial, h.symm⟩
    · rintro ⟨ts, h, -, rfl⟩
      cases ts with
      | nil => rfl
      | cons t ts => simp [vuBytes, Transfer.bytes] at h
  induction fuel generalizing d recs with
  | zero =>
    have : d = [] := List.eq_nil_of_length_eq_zero (by omega)
    subst this
    exact nil_case recs
  | succ fuel ih =>
    by_cases h0 : d = []
    · subst h0
      rw [rawVuLoop_nil]
      exact nil_case recs
    · by_cases ht : ∃ t r, d = [0x76, trep t] ++ r
      · obtain ⟨t, r, rfl⟩ := ht
        simp only [List.length_append, List.length_cons, List.length_nil] at hf
        rw [rawVuLoop_tag]
        simp only [bind_eq_ok, guard_eq_ok, Res.pure_eq, Res.ok.injEq, sl?_iff]
        constructor
        · rintro ⟨n, hn, hle, v, ⟨-, -, rfl⟩, rs, hrs, rfl⟩
          obtain ⟨ts, hts, hcut, rfl⟩ := (ih _ (by simp; omega) rs).1 hrs
          have hc := (size_conforms t r n (by omega)).1 hn
          refine ⟨⟨t, sl r 0 n⟩ :: ts, ?_, ⟨?_, ?_, hcut⟩, rfl⟩
          · rw [vuBytes_cons, ← hts, Transfer.bytes, ← take_eq_sl, List.append_assoc, List.take_append_drop]
          · rw [← take_eq_sl]; exact hc.1
          · intro h; rw [List.append_nil, ← hts]; exact hc.2 h
        · rintro ⟨ts, h, hcut, rfl⟩
          cases ts with
          | nil => simp [vuBytes] at h
          | cons x xs =>
            obtain ⟨xt, xv⟩ := x
            rw [vuBytes_cons] at h
            simp only [Transfer.bytes, List.append_assoc, List.cons_append, List.nil_append,
              List.cons.injEq, true_and] at h
            obtain ⟨h1, rfl⟩ := h
            have hxt : xt = t := by
              have := tag_of_type t
              rw [h1, tag_of_type] at this
              exact Option.some.inj this
            subst hxt
            obtain ⟨hc, hcd, hcut⟩ := hcut
            rw [List.append_nil] at hcd
            refine ⟨xv.length, ?_, ?_, xv, ⟨by omega, by simp, ?_⟩, xs.map Transfer.record, ?_, rfl⟩
            · rw [size_conforms _ _ _ (by simp)]
              exact ⟨by simpa using hc, by simpa using hcd⟩
            · simp
            · rw [← take_eq_sl]; simp
            · rw [List.drop_left]
              simp only [List.length_append] at hf
              exact (ih _ (by omega) _).2 ⟨xs, rfl, hcut, rfl⟩
      · have hne : ∀ ts, d ≠ vuBytes ts := by
          intro ts hts
          cases ts with
          | nil => exact h0 hts
          | cons x xs => exact ht ⟨x.type, x.value ++ vuBytes xs, by rw [hts]; simp [vuBytes, Transfer.bytes]⟩
        constructor
        · intro h
          exfalso
          simp only [rawVuLoop] at h
          have hl0 : ¬ d.length = 0 := fun h => h0 (List.eq_nil_of_length_eq_zero h)
          rw [if_neg hl0] at h
          by_cases h2 : d.length < 2
          · simp [h2] at h
          · rw [if_neg h2, sl?_ok (by omega) (by omega)] at h
            simp only [Res.bind_ok] at h
            cases hf : findTransferTypeByTag (beNat (sl d 0 2)) with
            | none => simp [hf] at h
            | some t => exact ht ⟨t, d.drop 2, tag_bytes h2 (type_of_tag hf)⟩
        · rintro ⟨ts, hts, -⟩
          exact absurd hts (hne ts)

/-! ## C08 -/

/-- C08: the raw pass over a vehicle unit file succeeds exactly when the file is a sequence of
complete transfers, and then reports these transfers, in order: every byte belongs to one of them,
every tag is one of the sixteen known ones, and type and generation are those of the tag. -/
theorem vu_slices_iff (d : Bytes) (recs : List VuRec) :
    unmarshalRawVehicleUnitFile d = .ok recs ↔
      ∃ ts, d = vuBytes ts ∧ Cut ts [] ∧ recs = ts.map Transfer.record :=
  rawVuLoop_ok d.length d (by omega) recs

/-- Nothing is lost: writing the tags and values of the records gives the file back. -/
theorem vu_partition (d : Bytes) (recs : List VuRec) (h : unmarshalRawVehicleUnitFile d = .ok recs) :
    d = recs.flatMap (fun r => beBytes 2 r.tag ++ r.value) := by
  obtain ⟨ts, rfl, -, rfl⟩ := (vu_slices_iff d recs).1 h
  clear h
  unfold vuBytes
  induction ts with
  | nil => rfl
  | cons t ts ih =>
    have hb : beBytes 2 (0x7600 + (trep t.type).toNat) = [0x76, trep t.type] := by
      cases t.type <;> decide
    simp only [List.flatMap_cons, List.map_cons, ih]
    simp only [Transfer.record, Transfer.bytes, hb]

/-- There is only one way to cut a file. -/
theorem vu_cut_unique (ts ts' : List Transfer) (h : Cut ts []) (h' : Cut ts' [])
    (e : vuBytes ts = vuBytes ts') : ts = ts' := by
  have h1 := (vu_slices_iff (vuBytes ts) _).2 ⟨ts, rfl, h, rfl⟩
  have h2 := (vu_slices_iff (vuBytes ts') _).2 ⟨ts', rfl, h', rfl⟩
  rw [e, h2] at h1
  have inj : ∀ a b : Transfer, a.record = b.record → a = b := by
    rintro ⟨a, b⟩ ⟨c, d⟩ h
    simp only [Transfer.record, VuRec.mk.injEq] at h
    simp [h]
  exact ((List.map_inj_right inj).1 (Res.ok.inj h1)).symm

/-! ## C07 -/

theorem rawVuLoop_panic (fuel : Nat) (d : Bytes) (hf : d.length ≤ fuel) :
    rawVuLoop fuel d = .panic ↔
      ∃ ts t r, d = vuBytes ts ++ ([0x76, trep t] ++ r) ∧ Cut ts ([0x76, trep t] ++ r) ∧ Overruns t r := by
  induction fuel generalizing d with
  | zero =>
    have : d = [] := List.eq_nil_of_length_eq_zero (by omega)
    subst this
    simp [rawVuLoop]
  | succ fuel ih =>
    by_cases h0 : d = []
    · subst h0
      rw [rawVuLoop_nil]
      simp
    · by_cases ht : ∃ t r, d = [0x76, trep t] ++ r
      · obtain ⟨t, r, rfl⟩ := ht
        simp only [List.length_append, List.length_cons, List.length_nil] at hf
        rw [rawVuLoop_tag]
        constructor
        · intro h
          cases hs : sizeOfTransferValue r t with
          | err m => simp [hs] at h
          | panic => exact ⟨[], t, r, rfl, trivial, (size_panics t r).1 hs⟩
          | ok n =>
            simp only [hs, Res.bind_ok] at h
            by_cases hn : n > r.length
            · simp [hn] at h
            · rw [if_neg hn, sl?_ok (by omega) (by omega)] at h
              simp only [Res.bind_ok] at h
              have hp : rawVuLoop fuel (r.drop n) = .panic := by
                cases hx : rawVuLoop fuel (r.drop n) <;> simp [hx] at h ⊢
              obtain ⟨ts, t', r', hd, hcut, ho⟩ := (ih _ (by simp; omega)).1 hp
              have hc := (size_conforms t r n (by omega)).1 hs
              refine ⟨⟨t, r.take n⟩ :: ts, t', r', ?_, ⟨hc.1, ?_, hcut⟩, ho⟩
              · rw [vuBytes_cons, List.append_assoc, ← hd, Transfer.bytes, List.append_assoc,
                  List.take_append_drop]
              · rw [← hd]; exact hc.2
        · rintro ⟨ts, t', r', h, hcut, ho⟩
          cases ts with
          | nil =>
            simp only [vuBytes, List.flatMap_nil, List.nil_append, List.cons_append, List.cons.injEq,
              true_and] at h
            obtain ⟨h1, rfl⟩ := h
            have : t' = t := by
              have := tag_of_type t
              rw [h1, tag_of_type] at this
              exact Option.some.inj this
            subst this
            rw [(size_panics _ _).2 ho]
            rfl
          | cons x xs =>
            obtain ⟨xt, xv⟩ := x
            rw [vuBytes_cons] at h
            simp only [Transfer.bytes, List.append_assoc, List.cons_append, List.nil_append,
              List.cons.injEq, true_and] at h
            obtain ⟨h1, rfl⟩ := h
            have hxt : xt = t := by
              have := tag_of_type t
              rw [h1, tag_of_type] at this
              exact Option.some.inj this
            subst hxt
            obtain ⟨hc, hcd, hcut⟩ := hcut
            have hs := (size_conforms xt (xv ++ (vuBytes xs ++ 0x76 :: trep t' :: r')) xv.length (by simp)).2
              ⟨by simpa using hc, by simpa using hcd⟩
            rw [hs]
            simp only [Res.bind_ok]
            rw [if_neg (by simp), sl?_ok (by omega) (by simp), List.drop_left]
            simp only [Res.bind_ok]
            simp only [List.length_append] at hf
            have hp : rawVuLoop fuel (vuBytes xs ++ 0x76 :: trep t' :: r') = .panic :=
              (ih _ (by simp at hf ⊢; omega)).2 ⟨xs, t', r', rfl, hcut, ho⟩
            rw [hp]
            rfl
      · constructor
        · intro h
          exfalso
          simp only [rawVuLoop] at h
          have hl0 : ¬ d.length = 0 := fun h => h0 (List.eq_nil_of_length_eq_zero h)
          rw [if_neg hl0] at h
          by_cases h2 : d.length < 2
          · simp [h2] at h
          · rw [if_neg h2, sl?_ok (by omega) (by omega)] at h
            simp only [Res.bind_ok] at h
            cases hf : findTransferTypeByTag (beNat (sl d 0 2)) with
            | none => simp [hf] at h
            | some t => exact ht ⟨t, d.drop 2, tag_bytes h2 (type_of_tag hf)⟩
        · rintro ⟨ts, t, r, rfl, -, -⟩
          cases ts with
          | nil => exact absurd ⟨t, r, rfl⟩ ht
          | cons x xs => exact absurd ⟨x.type, _, by simp [vuBytes, Transfer.bytes]; rfl⟩ ht

/-- The raw pass panics exactly on the files that consist of complete transfers followed by a
transfer that ends before the place of its next count or array header. -/
theorem vu_panics_iff (d : Bytes) :
    unmarshalRawVehicleUnitFile d = .panic ↔
      ∃ ts t r, d = vuBytes ts ++ ([0x76, trep t] ++ r) ∧ Cut ts ([0x76, trep t] ++ r) ∧ Overruns t r :=
  rawVuLoop_panic d.length d (by omega)

/-- Every Gen1 overview transfer cut off in its first 490 bytes panics. -/
theorem vu_short_overview_panics (r : Bytes) (h : r.length < 491) :
    unmarshalRawVehicleUnitFile ([0x76, 0x01] ++ r) = .panic := by
  refine (vu_panics_iff _).2 ⟨[], .overviewGen1, r, rfl, trivial, [.fixed 491], .counted 1 98,
    [.counted 1 31, .fixed 128], 491, rfl, by simp, rfl, h⟩

/-- C07 is false: the two bytes 76 01. -/
theorem vu_no_panic_fails : unmarshalRawVehicleUnitFile [0x76, 0x01] = .panic :=
  vu_short_overview_panics [] (by simp)

/-- What does hold of C07: a file whose transfers are all complete never panics. -/
theorem vu_no_panic_complete (ts : List Transfer) (h : Cut ts []) :
    unmarshalRawVehicleUnitFile (vuBytes ts) ≠ .panic := by
  rw [(vu_slices_iff _ _).2 ⟨ts, rfl, h, rfl⟩]
  simp

/-! ## Examples -/

/-- A download of the interface version and of one detailed speed block. -/
def Spec.sampleDownload : List Transfer := [
  ⟨.downloadInterfaceVersion, [1, 1]⟩,
  ⟨.speedGen2, [1, 0, 3, 0, 2, 10, 11, 12, 13, 14, 15] ++ [8, 0, 1, 0, 0]⟩]

theorem sampleDownload_cut : Cut sampleDownload [] := by
  refine ⟨⟨[1, 1], [], rfl, rfl, rfl⟩, by simp, ⟨_, _, rfl, ?_, _, _, (List.append_nil _).symm, ?_, rfl⟩, by simp, trivial⟩
  · exact ⟨1, 3, 2, [10, 11, 12, 13, 14, 15], by omega, by omega, by decide, rfl⟩
  · exact ⟨8, 1, 0, [], by omega, by omega, by decide, rfl⟩

/-- The slicing theorem applies to it. -/
example : unmarshalRawVehicleUnitFile
    [0x76, 0x00, 1, 1, 0x76, 0x24, 1, 0, 3, 0, 2, 10, 11, 12, 13, 14, 15, 8, 0, 1, 0, 0]
    = .ok (sampleDownload.map Transfer.record) :=
  (vu_slices_iff _ _).2 ⟨sampleDownload, rfl, sampleDownload_cut, rfl⟩

/-- A card download can be followed by four more bytes. -/
example : Cut [⟨.cardDownload, [0, 2, 0, 0, 1, 9]⟩, ⟨.downloadInterfaceVersion, [1, 1]⟩] [] := by
  refine ⟨⟨[⟨0, 2, 0, [9]⟩], by simp, by decide⟩, by decide, ⟨[1, 1], [], rfl, rfl, rfl⟩, by simp, trivial⟩

/-- Complete transfers followed by an overview that is cut short. -/
example : unmarshalRawVehicleUnitFile (vuBytes sampleDownload ++ [0x76, 0x01, 7, 7]) = .panic := by
  refine (vu_panics_iff _).2 ⟨sampleDownload, .overviewGen1, [7, 7], rfl, ?_, [.fixed 491], .counted 1 98,
    [.counted 1 31, .fixed 128], 491, rfl, by simp, rfl, by simp⟩
  obtain ⟨a, -, b, -, -⟩ := sampleDownload_cut
  exact ⟨a, by simp, b, by simp, trivial⟩

end Tacho
