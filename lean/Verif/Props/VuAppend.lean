import Verif.Props.VuGen1
import Verif.Props.VuFile

/-!
# C68: writing the vehicle unit transfers

Thirteen of the fourteen writers of vehicle unit transfers append the kept raw data and nothing else.
-/

namespace Tacho

/-- C68: a writer succeeds exactly for a message with at least one byte of raw data, and appends exactly
those bytes; it depends on nothing else in the message. -/
theorem transfer_append_iff (dst : Bytes) (raw : Option Bytes) (out : Bytes) :
    appendRaw dst raw = .ok out ↔ ∃ r, raw = some r ∧ r ≠ [] ∧ out = dst ++ r := by
  unfold appendRaw
  cases raw with
  | none => simp
  | some r =>
    cases r with
    | nil => simp
    | cons b r => simp [eq_comm]

/-- C68: it never panics. -/
theorem transfer_append_total (dst : Bytes) (raw : Option Bytes) : appendRaw dst raw ≠ .panic := by
  unfold appendRaw
  split
  · simp
  · split <;> simp

/-- C68: Gen1 events and faults, detailed speed and technical data come back byte for byte. -/
theorem signed_transfer_restored {v : Bytes} {m : SignedGen1} (h : unmarshalSignedGen1 v = .ok m) (dst : Bytes) :
    appendRaw dst (some m.rawData) = .ok (dst ++ v) := by
  simp only [unmarshalSignedGen1, bind_eq_ok, guard_eq_ok, Res.pure_eq, Res.ok.injEq] at h
  obtain ⟨hl, _, -, rfl⟩ := h
  refine (transfer_append_iff _ _ _).2 ⟨v, rfl, ?_, rfl⟩
  rintro rfl
  simp at hl

/-- C68: Gen1 activities come back byte for byte. -/
theorem activities_restored [Charmap] {v : Bytes} {m : ActivitiesGen1} (h : unmarshalActivitiesGen1 v = .ok m)
    (dst : Bytes) : appendRaw dst (some m.rawData) = .ok (dst ++ v) := by
  obtain ⟨a, b, c, d, hs, hm⟩ := (activities_iff v m).1 h
  refine (transfer_append_iff _ _ _).2 ⟨m.rawData, rfl, ?_, by rw [hm.1]⟩
  rw [hm.1]
  rintro rfl
  have := hs.2.2.2.2
  simp at this

/-- A transfer made of at least one record array is not empty. -/
theorem arrays_restored {names : List String} (hn : names ≠ []) {v : Bytes} {m : RawGen2}
    (h : unmarshalArrays names v = .ok m) (dst : Bytes) : appendRaw dst (some m.rawData) = .ok (dst ++ v) := by
  obtain ⟨hf, rfl⟩ := (unmarshalArrays_iff names v m).1 h
  refine (transfer_append_iff _ _ _).2 ⟨v, rfl, ?_, rfl⟩
  rintro rfl
  cases names with
  | nil => exact hn rfl
  | cons n ns =>
    simp only [unmarshalArrays, bind_eq_ok] at h
    obtain ⟨o, ho, -⟩ := h
    revert ho
    simp [walkArrays, show sizeOfRecordArray [] 0 = .err _ from rfl]

/-- C68: each of the nine Gen2 transfers comes back byte for byte. -/
theorem gen2_transfer_restored {v : Bytes} {m : RawGen2}
    (h : unmarshalOverviewG2V1 v = .ok m ∨ unmarshalOverviewG2V2 v = .ok m ∨
      unmarshalActivitiesG2V1 v = .ok m ∨ unmarshalActivitiesG2V2 v = .ok m ∨
      unmarshalEventsG2V1 v = .ok m ∨ unmarshalEventsG2V2 v = .ok m ∨ unmarshalSpeedGen2 v = .ok m ∨
      unmarshalTechnicalG2V1 v = .ok m ∨ unmarshalTechnicalG2V2 v = .ok m) (dst : Bytes) :
    appendRaw dst (some m.rawData) = .ok (dst ++ v) := by
  rcases h with h | h | h | h | h | h | h | h | h <;> exact arrays_restored (by simp) h dst

/-- A detailed speed transfer with one record of one byte and a signature of two, and one with empty arrays. -/
example : unmarshalSpeedGen2 [1, 0, 1, 0, 1, 9, 2, 0, 2, 0, 1, 7, 8] = .ok ⟨[1, 0, 1, 0, 1, 9, 2, 0, 2, 0, 1, 7, 8]⟩ ∧
    unmarshalSpeedGen2 [1, 0, 0, 0, 0, 2, 0, 0, 0, 0] = .ok ⟨[1, 0, 0, 0, 0, 2, 0, 0, 0, 0]⟩ := by decide +kernel

/-- The smallest Gen1 transfer, a signature only. -/
example : unmarshalSignedGen1 (zeros 128) = .ok ⟨zeros 128, zeros 128⟩ := by decide +kernel

/-- A message without raw data and a nil message are refused. -/
example : (∃ e, appendRaw [1] (some []) = .err e) ∧ (∃ e, appendRaw [1] none = .err e) :=
  ⟨⟨_, rfl⟩, ⟨_, rfl⟩⟩

end Tacho
