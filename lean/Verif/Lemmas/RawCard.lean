import Verif.Spec.Tlv
import Verif.Lemmas.Scanner
/-!
# Lemmas about raw card files
-/

namespace Tacho
open Spec

theorem Spec.Tlv.bytes_length (r : Tlv) : r.bytes.length = 5 + r.value.length := by
  simp [Tlv.bytes]; omega

theorem beNat_two (a b : UInt8) : beNat [a, b] = a.toNat * 256 + b.toNat := by
  simp [beNat]

theorem Spec.Tlv.header (r : Tlv) (h : r.value.length < 65536) (t : Bytes) :
    beNat (sl (r.bytes ++ t) 3 5) = r.value.length := by
  have : sl (r.bytes ++ t) 3 5 = [UInt8.ofNat (r.value.length / 256), UInt8.ofNat (r.value.length % 256)] := by
    simp [sl, Tlv.bytes]
  rw [this, beNat_two, toNat_ofNat_lt (by omega), toNat_ofNat_lt (by omega)]
  omega

theorem scanCardFile_eq {d : Bytes} (h5 : 5 ≤ d.length) (e : Bool) :
    scanCardFile d e = if d.length < 5 + beNat (sl d 3 5) then
      (if e then .fail "unexpected EOF" else .more) else .token (5 + beNat (sl d 3 5)) := by
  unfold scanCardFile
  rw [if_neg (by omega)]

theorem scanCardFile_short {d : Bytes} (h5 : d.length < 5) (e : Bool) :
    scanCardFile d e = if e then (if d.length = 0 then .more else .fail "unexpected EOF") else .more := by
  unfold scanCardFile
  rw [if_pos h5]

theorem scanCardFile_stable : Stable scanCardFile := by
  have key : ∀ d e n, scanCardFile d e = .token n → 5 ≤ d.length ∧ n = 5 + beNat (sl d 3 5) ∧ n ≤ d.length := by
    intro d e n h
    by_cases h5 : 5 ≤ d.length
    · rw [scanCardFile_eq h5] at h
      split at h
      · split at h <;> cases h
      · cases h; exact ⟨h5, rfl, by omega⟩
    · rw [scanCardFile_short (by omega)] at h
      split at h
      · split at h <;> cases h
      · cases h
  constructor
  · intro d n h t e
    obtain ⟨h5, hn, hle⟩ := key _ _ _ h
    rw [scanCardFile_eq (by rw [List.length_append]; omega), sl_append_left h5, if_neg, hn]
    rw [List.length_append]; omega
  · intro d m h t e
    exfalso
    by_cases h5 : 5 ≤ d.length
    · rw [scanCardFile_eq h5] at h
      split at h
      · simp at h
      · cases h
    · rw [scanCardFile_short (by omega)] at h
      simp at h
  · intro d e n h
    obtain ⟨h5, hn, hle⟩ := key _ _ _ h
    exact ⟨by omega, hle⟩

/-- Any data with a complete record in front splits as that record and a tail. -/
theorem exists_tlv {d : Bytes} (h5 : 5 ≤ d.length) (h : 5 + beNat (sl d 3 5) ≤ d.length) :
    ∃ r : Tlv, ∃ t, d = r.bytes ++ t ∧ r.value.length = beNat (sl d 3 5) := by
  match d, h5 with
  | a :: b :: c :: x :: y :: rest, _ =>
    have hb : beNat (sl (a :: b :: c :: x :: y :: rest) 3 5) = x.toNat * 256 + y.toNat := by
      have : sl (a :: b :: c :: x :: y :: rest) 3 5 = [x, y] := by simp [sl]
      rw [this, beNat_two]
    rw [hb] at h ⊢
    have hx := byte_lt x; have hy := byte_lt y
    simp only [List.length_cons] at h
    have hl : (rest.take (x.toNat * 256 + y.toNat)).length = x.toNat * 256 + y.toNat := by
      simp; omega
    refine ⟨⟨a, b, c, rest.take (x.toNat * 256 + y.toNat)⟩, rest.drop (x.toNat * 256 + y.toNat), ?_, hl⟩
    simp only [Tlv.bytes, hl, List.cons_append, List.nil_append,
      List.take_append_drop]
    have e1 : (x.toNat * 256 + y.toNat) / 256 = x.toNat := by omega
    have e2 : (x.toNat * 256 + y.toNat) % 256 = y.toNat := by omega
    rw [e1, e2, UInt8.ofNat_toNat, UInt8.ofNat_toNat]

theorem look_tlv (r : Tlv) (h : r.value.length ≤ 65531) (t : Bytes) :
    look scanCardFile (r.bytes ++ t) = .token (5 + r.value.length) := by
  have hl := r.bytes_length
  unfold look
  split
  · rw [scanCardFile_eq (by rw [List.length_append]; omega), r.header (by omega), if_neg]
    rw [List.length_append]; omega
  · have : (r.bytes ++ t).take 65536 = r.bytes ++ t.take (65536 - r.bytes.length) := by
      rw [List.take_append, List.take_of_length_le (by omega)]
    rw [this, scanCardFile_eq (by rw [List.length_append]; omega), r.header (by omega), if_neg]
    rw [List.length_append]; omega

theorem look_token_inv {d : Bytes} {n : Nat} (h : look scanCardFile d = .token n) :
    ∃ r : Tlv, ∃ t, d = r.bytes ++ t ∧ r.value.length ≤ 65531 ∧ n = 5 + r.value.length := by
  have key : ∀ d' e, scanCardFile d' e = .token n → 5 ≤ d'.length ∧ n = 5 + beNat (sl d' 3 5) ∧ n ≤ d'.length := by
    intro d e h
    by_cases h5 : 5 ≤ d.length
    · rw [scanCardFile_eq h5] at h
      split at h
      · split at h <;> cases h
      · cases h; exact ⟨h5, rfl, by omega⟩
    · rw [scanCardFile_short (by omega)] at h
      split at h
      · split at h <;> cases h
      · cases h
  unfold look at h
  split at h
  · rename_i hlt
    obtain ⟨h5, hn, hle⟩ := key _ _ h
    obtain ⟨r, t, e, hv⟩ := exists_tlv h5 (by omega)
    exact ⟨r, t, e, by omega, by omega⟩
  · rename_i hge
    have h' : scanCardFile (d.take 65536) false = .token n := by
      cases hs : scanCardFile (d.take 65536) false with
      | more => rw [hs] at h; cases h
      | fail m => rw [hs] at h; cases h
      | token k => rw [hs] at h; exact h
    obtain ⟨h5, hn, hle⟩ := key _ _ h'
    have hsl : sl (d.take 65536) 3 5 = sl d 3 5 := by
      simp [sl, List.take_take]
    rw [hsl] at hn
    have hle2 : (d.take 65536).length ≤ 65536 := by simp; omega
    obtain ⟨r, t, e, hv⟩ := exists_tlv (d := d) (by omega) (by simp at hle; omega)
    exact ⟨r, t, e, by omega, by omega⟩

theorem look_more_inv {d : Bytes} (h : look scanCardFile d = .more) : d = [] := by
  unfold look at h
  split at h
  · by_cases h5 : 5 ≤ d.length
    · rw [scanCardFile_eq h5] at h
      split at h
      · simp at h
      · cases h
    · rw [scanCardFile_short (by omega)] at h
      simp at h
      exact h
  · cases hs : scanCardFile (d.take 65536) false with
    | more => rw [hs] at h; cases h
    | fail m => rw [hs] at h; cases h
    | token k => rw [hs] at h; cases h

/-- The parser in terms of buffer-free chunking. -/
theorem unmarshalRawCardFile_chunks (d : Bytes) :
    unmarshalRawCardFile d = (rawRecords (chunks scanCardFile d).1 >>= fun recs =>
      match (chunks scanCardFile d).2 with
      | some m => .err m
      | none => .ok recs) := by
  rw [← scanAll_chunks scanCardFile_stable d]
  rfl

theorem unmarshalRec_ok (r : Tlv) (h : r.value.length ≤ 65530) :
    unmarshalRawCardFileRecord r.bytes = .ok r.record := by
  have hl := r.bytes_length
  have hh := r.header (by omega) []
  rw [List.append_nil] at hh
  unfold unmarshalRawCardFileRecord
  rw [sl?_ok (by omega) (by omega), at?_ok (i := 2) (by omega), sl?_ok (lo := 3) (hi := 5) (by omega) (by omega)]
  simp only [Res.bind_ok, hh]
  rw [Nat.mod_eq_of_lt (by omega), sl?_ok (by omega) (by omega)]
  simp only [Res.bind_ok, Res.pure_eq, Tlv.record]
  have e0 : sl r.bytes 0 2 = [r.fidHi, r.fidLo] := by simp [sl, Tlv.bytes]
  have e1 : r.bytes[2]'(by omega) = r.appendix := by simp [Tlv.bytes]
  have e2 : sl r.bytes 5 (5 + r.value.length) = r.value := by
    rw [sl, ← hl, List.take_length]; simp [Tlv.bytes]
  rw [e0, e1, e2, beNat_two]
  have t1 : (((r.fidHi.toNat * 256 + r.fidLo.toNat) * 256 + r.appendix.toNat : Nat) : Int)
      = r.fidHi.toNat * 65536 + r.fidLo.toNat * 256 + r.appendix.toNat := by
    omega
  have t2 : (if r.appendix.toNat / 2 % 2 = 1 then Generation.gen2 else .gen1)
      = if r.appendix.toNat % 4 < 2 then .gen1 else .gen2 := by
    by_cases hq : r.appendix.toNat / 2 % 2 = 1
    · rw [if_pos hq, if_neg (by omega)]
    · rw [if_neg hq, if_pos (by omega)]
  rw [t1, t2]

theorem unmarshalRec_panic (r : Tlv) (h : r.value.length = 65531) :
    unmarshalRawCardFileRecord r.bytes = .panic := by
  have hl := r.bytes_length
  have hh := r.header (by omega) []
  rw [List.append_nil] at hh
  unfold unmarshalRawCardFileRecord
  rw [sl?_ok (by omega) (by omega), at?_ok (i := 2) (by omega), sl?_ok (lo := 3) (hi := 5) (by omega) (by omega)]
  simp only [Res.bind_ok, hh, h]
  simp [sl?]

theorem chunks_tlv (r : Tlv) (h : r.value.length ≤ 65531) (t : Bytes) :
    chunks scanCardFile (r.bytes ++ t) =
      (r.bytes :: (chunks scanCardFile t).1, (chunks scanCardFile t).2) := by
  have hl := r.bytes_length
  rw [chunks, look_tlv r h t]
  simp only
  rw [if_pos (by constructor; omega; rw [List.length_append]; omega), ← hl, List.drop_left, List.take_left]

theorem unmarshalRaw_nil : unmarshalRawCardFile [] = .ok [] := by
  rw [unmarshalRawCardFile_chunks]
  have : look scanCardFile [] = .more := by simp [look, scanCardFile]
  rw [chunks, this]; rfl

theorem unmarshalRaw_cons (r : Tlv) (h : r.value.length ≤ 65530) (t : Bytes) :
    unmarshalRawCardFile (r.bytes ++ t) =
      (unmarshalRawCardFile t >>= fun rs => .ok (r.record :: rs)) := by
  rw [unmarshalRawCardFile_chunks, unmarshalRawCardFile_chunks, chunks_tlv r (by omega)]
  simp only [rawRecords, unmarshalRec_ok r h]
  cases rawRecords (chunks scanCardFile t).1 with
  | ok a => cases (chunks scanCardFile t).2 <;> rfl
  | err m => rfl
  | panic => rfl

theorem unmarshalRaw_panic (r : Tlv) (h : r.value.length = 65531) (t : Bytes) :
    unmarshalRawCardFile (r.bytes ++ t) = .panic := by
  rw [unmarshalRawCardFile_chunks, chunks_tlv r (by omega)]
  simp only [rawRecords, unmarshalRec_panic r h]
  rfl

theorem unmarshalRaw_err {d : Bytes} (hd : d ≠ [])
    (h : ¬ ∃ r : Tlv, ∃ t, d = r.bytes ++ t ∧ r.value.length ≤ 65531) :
    ∃ m, unmarshalRawCardFile d = .err m := by
  rw [unmarshalRawCardFile_chunks, chunks]
  cases hl : look scanCardFile d with
  | more => exact absurd (look_more_inv hl) hd
  | fail m => exact ⟨m, rfl⟩
  | token n =>
    obtain ⟨r, t, e, hv, _⟩ := look_token_inv hl
    exact absurd ⟨r, t, e, hv⟩ h

end Tacho
