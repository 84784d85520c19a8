import Verif.Model.File
import Verif.Props.VuFile
import Verif.Props.RawCard
import Verif.Props.DriverCard
import Verif.Props.Verify
/-!
# The public entry points (C06, C07, C11, C32)
-/

namespace Tacho
open Spec

section
variable [Charmap]

/-- The dispatch, for inputs of two bytes or more. -/
theorem unmarshalFile_cons (a b : UInt8) (rest : Bytes) :
    unmarshalFile (a :: b :: rest) =
      if a = 0x76 then do
        let vu ← unmarshalVehicleUnitFile (a :: b :: rest)
        return { type := .vehicleUnit, vehicleUnit := some vu }
      else if a = 0 ∧ b = 2 then do
        let raw ← unmarshalRawCardFile (a :: b :: rest)
        if inferFileType raw = .driverCard then do
          let card ← unmarshalDriverCard raw
          return { type := .driverCard, driverCard := some card }
        else return { type := .rawCard, rawCard := some raw }
      else .err "unknown or unsupported file type" := by
  have h1 : at? (a :: b :: rest) 0 = .ok a := rfl
  have h2 : sl? (a :: b :: rest) 0 2 = .ok [a, b] := sl?_ok (by omega) (by simp)
  have h3 : (beNat [a, b] = 0x0002) ↔ (a = 0 ∧ b = 2) := by
    rw [beNat_two]
    have := byte_lt a; have := byte_lt b
    constructor
    · intro h
      exact ⟨UInt8.toNat.inj (by simp; omega), UInt8.toNat.inj (by simp; omega)⟩
    · rintro ⟨rfl, rfl⟩; rfl
  unfold unmarshalFile
  simp only [h1, h2, h3, Res.bind_ok, List.length_cons]
  rw [if_neg (by omega)]

/-- Which inputs are accepted, and as what: the first two bytes alone choose the parser. -/
theorem file_iff (d : Bytes) (f : File) :
    unmarshalFile d = .ok f ↔
      (∃ rest vu, d = 0x76 :: rest ∧ unmarshalVehicleUnitFile d = .ok vu
        ∧ f = { type := .vehicleUnit, vehicleUnit := some vu })
      ∨ (∃ rest raw, d = 0x00 :: 0x02 :: rest ∧ unmarshalRawCardFile d = .ok raw
        ∧ ((inferFileType raw = .driverCard ∧ ∃ card, unmarshalDriverCard raw = .ok card
              ∧ f = { type := .driverCard, driverCard := some card })
          ∨ (inferFileType raw ≠ .driverCard ∧ f = { type := .rawCard, rawCard := some raw }))) := by
  match d with
  | [] => simp [unmarshalFile]
  | [a] =>
    simp only [unmarshalFile, List.length_cons, List.length_nil]
    constructor
    · simp
    · rintro (⟨rest, vu, h, hv, -⟩ | ⟨rest, raw, h, -⟩)
      · simp only [List.cons.injEq] at h
        obtain ⟨rfl, -⟩ := h
        exfalso
        obtain ⟨ts, hne, he, -⟩ := (vu_file_iff _ _).1 hv
        cases ts with
        | nil => exact hne rfl
        | cons t ts =>
          have := congrArg List.length he
          simp [vuBytes, Transfer.bytes] at this
      · simp at h
  | a :: b :: rest =>
    rw [unmarshalFile_cons]
    split
    · rename_i ha
      subst ha
      simp only [bind_eq_ok, Res.pure_eq, Res.ok.injEq]
      constructor
      · rintro ⟨vu, hv, rfl⟩
        exact .inl ⟨_, vu, rfl, hv, rfl⟩
      · rintro (⟨_, vu, -, hv, rfl⟩ | ⟨_, _, h, -⟩)
        · exact ⟨vu, hv, rfl⟩
        · exact absurd h (by simp)
    · rename_i ha
      split
      · rename_i h0
        obtain ⟨rfl, rfl⟩ := h0
        simp only [bind_eq_ok]
        constructor
        · rintro ⟨raw, hraw, h⟩
          refine .inr ⟨rest, raw, rfl, hraw, ?_⟩
          split at h
          · rename_i hi
            simp only [bind_eq_ok, Res.pure_eq, Res.ok.injEq] at h
            obtain ⟨card, hc, rfl⟩ := h
            exact .inl ⟨hi, card, hc, rfl⟩
          · rename_i hi
            simp only [Res.pure_eq, Res.ok.injEq] at h
            exact .inr ⟨hi, h.symm⟩
        · rintro (⟨_, _, h, -⟩ | ⟨_, raw, -, hraw, h⟩)
          · exact absurd h (by simp)
          · refine ⟨raw, hraw, ?_⟩
            rcases h with ⟨hi, card, hc, rfl⟩ | ⟨hi, rfl⟩
            · rw [if_pos hi, hc]; rfl
            · rw [if_neg hi]; rfl
      · rename_i h0
        constructor
        · intro h; simp at h
        · rintro (⟨_, _, h, -⟩ | ⟨_, _, h, -⟩)
          · simp only [List.cons.injEq] at h
            exact absurd h.1 ha
          · simp only [List.cons.injEq] at h
            exact absurd ⟨h.1, h.2.1⟩ h0

/-- Anything that begins in another way, or is shorter than two bytes, is refused. -/
theorem file_refused (d : Bytes) (h1 : ∀ rest, d = 0x76 :: rest → rest = [])
    (h2 : ∀ rest, d ≠ 0x00 :: 0x02 :: rest) : ∃ m, unmarshalFile d = .err m := by
  match d with
  | [] => exact ⟨_, rfl⟩
  | [a] => exact ⟨_, rfl⟩
  | a :: b :: rest =>
    rw [unmarshalFile_cons]
    rw [if_neg (by rintro rfl; exact absurd (h1 _ rfl) (by simp))]
    rw [if_neg (by rintro ⟨rfl, rfl⟩; exact h2 rest rfl)]
    exact ⟨_, rfl⟩

omit [Charmap] in
/-- Exactly the variant that the type announces is filled in. -/
def Spec.Matches (f : File) : Prop :=
  (f.vehicleUnit.isSome ↔ f.type = .vehicleUnit) ∧ (f.driverCard.isSome ↔ f.type = .driverCard)
    ∧ (f.rawCard.isSome ↔ f.type = .rawCard)

/-- The first byte (two bytes) and the type of the result go together. -/
theorem file_type (d : Bytes) (f : File) (h : unmarshalFile d = .ok f) :
    Matches f ∧ (f.type = .vehicleUnit ↔ ∃ rest, d = 0x76 :: rest)
      ∧ (f.type = .driverCard ∨ f.type = .rawCard ↔ ∃ rest, d = 0x00 :: 0x02 :: rest) := by
  rcases (file_iff d f).1 h with ⟨rest, vu, rfl, -, rfl⟩ | ⟨rest, raw, rfl, -, ⟨-, card, -, rfl⟩ | ⟨-, rfl⟩⟩ <;>
    simp [Matches]

/-- All panics of the entry point: a vehicle unit download in which a count lies behind the end of
the data, or a card file with a record of exactly 65531 bytes. -/
theorem file_panics_iff (d : Bytes) :
    unmarshalFile d = .panic ↔
      (∃ ts t r, d = vuBytes ts ++ ([0x76, trep t] ++ r) ∧ Cut ts ([0x76, trep t] ++ r) ∧ Overruns t r)
      ∨ (∃ rest, d = 0x00 :: 0x02 :: rest) ∧ (∃ rs : List Tlv, ∃ r : Tlv, ∃ t,
          (∀ r ∈ rs, r.value.length ≤ 65530) ∧ r.value.length = 65531 ∧ d = fileBytes rs ++ r.bytes ++ t) := by
  rw [← vu_file_panics_iff, ← raw_card_panics_iff]
  match d with
  | [] =>
    have : unmarshalVehicleUnitFile [] ≠ .panic := by rw [Ne, vu_file_panics_iff]; simp
    simp [unmarshalFile, this]
  | [a] =>
    have : unmarshalVehicleUnitFile [a] ≠ .panic := by
      rw [Ne, vu_file_panics_iff]
      rintro ⟨ts, t, r, h, -⟩
      have := congrArg List.length h
      simp at this
      omega
    simp [unmarshalFile, this]
  | a :: b :: rest =>
    rw [unmarshalFile_cons]
    split
    · rename_i ha
      subst ha
      cases h : unmarshalVehicleUnitFile (0x76 :: b :: rest) <;> simp
    · rename_i ha
      have hv : unmarshalVehicleUnitFile (a :: b :: rest) ≠ .panic := by
        rw [Ne, vu_file_panics_iff]
        rintro ⟨ts, t, r, h, -⟩
        cases ts with
        | nil =>
          simp [vuBytes] at h
          exact ha h.1
        | cons x ts =>
          simp [vuBytes, Transfer.bytes] at h
          exact ha h.1
      simp only [hv, false_or]
      split
      · rename_i h0
        obtain ⟨rfl, rfl⟩ := h0
        cases h : unmarshalRawCardFile (0 :: 2 :: rest) with
        | err m => simp
        | panic => simp
        | ok raw =>
          simp only [Res.bind_ok, reduceCtorEq, and_false, iff_false]
          split
          · exact np_call (driver_card_total raw) fun _ => np_pure
          · exact np_pure
      · rename_i h0
        simp only [reduceCtorEq, false_iff, not_and]
        rintro ⟨r, hr⟩
        simp only [List.cons.injEq] at hr
        exact absurd ⟨hr.1, hr.2.1⟩ h0

/-- C11: a raw card file is written back byte for byte. -/
theorem file_raw_card_restored (d : Bytes) (f : File) (h : unmarshalFile d = .ok f)
    (ht : f.type = .rawCard) : marshalFile (some f) = .ok d := by
  rcases (file_iff d f).1 h with ⟨rest, vu, rfl, -, rfl⟩ | ⟨rest, raw, rfl, hr, ⟨-, card, -, rfl⟩ | ⟨-, rfl⟩⟩
  · simp at ht
  · simp at ht
  · exact (raw_card_roundtrip _ _ hr).1

omit [Charmap] in
/-- C11: a vehicle unit file is never written. -/
theorem file_vehicle_unit_not_written (f : File) (ht : f.type = .vehicleUnit) :
    ∃ m, marshalFile (some f) = .err m := by
  unfold marshalFile
  rw [Option.getD_some, ht]
  dsimp only
  cases f.vehicleUnit <;> exact ⟨_, rfl⟩

omit [Charmap] in
/-- C11: a driver card file is written by the driver card writer, of which C30 and C31 speak. -/
theorem file_driver_card_written (f : File) (ht : f.type = .driverCard) :
    marshalFile (some f) = marshalDriverCard f.driverCard := by
  unfold marshalFile
  rw [Option.getD_some, ht]

omit [Charmap] in
/-- Nothing is written for a missing file or for the four types without a variant. -/
theorem file_other_not_written (f : Option File)
    (ht : ∀ g, f = some g → g.type ≠ .driverCard ∧ g.type ≠ .vehicleUnit ∧ g.type ≠ .rawCard) :
    ∃ m, marshalFile f = .err m := by
  cases f with
  | none => exact ⟨_, rfl⟩
  | some g =>
    obtain ⟨h1, h2, h3⟩ := ht g rfl
    unfold marshalFile
    rw [Option.getD_some]
    cases h : g.type <;> simp_all

end

section
variable [Crypto] {σ : Type}

/-- C32: when `VerifyFile` succeeds. Vehicle unit and raw card files always pass, unchecked; a driver
card file passes iff the certificates of the applications it has are verified with the given
resolver, or the default one if none is given. -/
theorem verify_file_iff (dflt : Resolver σ) (res : Option (Resolver σ)) (f f' : File) (s s' : σ) :
    verifyFile dflt res (some f) s = ⟨some f', .ok (), s'⟩ ↔
      ((f.type = .vehicleUnit ∨ f.type = .rawCard) ∧ f' = f ∧ s' = s)
      ∨ (f.type = .driverCard ∧ ∃ c c' s1, f.driverCard = some c ∧ f' = { f with driverCard := some c' }
          ∧ IfPresent (Gen1Verified (res.getD dflt)) c.tachograph c'.tachograph s s1
          ∧ IfPresent (Gen2Verified (res.getD dflt)) c.tachographG2 c'.tachographG2 s1 s'
          ∧ c'.icc = c.icc ∧ c'.ic = c.ic) := by
  obtain ⟨type, vu, card, raw⟩ := f
  cases type <;> simp only [verifyFile]
  case driverCard =>
    simp only [reduceCtorEq, false_and, or_self, false_or, true_and, Verified.mk.injEq, Option.some.injEq]
    cases card with
    | none => simp [verifyDriverCard]
    | some c =>
      have key := driver_card_verified_iff (res.getD dflt) c
      constructor
      · rintro ⟨h1, h2, h3⟩
        cases hv : verifyDriverCard (some (res.getD dflt)) (some c) s with
        | mk msg result world =>
          rw [hv] at h1 h2 h3
          dsimp only at h1 h2 h3
          subst h2 h3
          obtain ⟨x, y, he⟩ := driver_card_verify_effect (some (res.getD dflt)) c s
          rw [hv] at he
          dsimp only at he
          subst he
          obtain ⟨s1, k1, k2, k3, k4⟩ := (key _ s world).1 hv
          exact ⟨c, _, s1, rfl, h1.symm, k1, k2, k3, k4⟩
      · rintro ⟨c0, c', s1, hc, rfl, k1, k2, k3, k4⟩
        cases hc
        rw [(key c' s s').2 ⟨s1, k1, k2, k3, k4⟩]
        exact ⟨rfl, rfl, rfl⟩
  all_goals simp [eq_comm]

/-- C32: a nil file and the four types without a variant are refused, and nothing happens. -/
theorem verify_file_refused (dflt : Resolver σ) (res : Option (Resolver σ)) (f : Option File) (s : σ)
    (ht : ∀ g, f = some g → g.type ≠ .driverCard ∧ g.type ≠ .vehicleUnit ∧ g.type ≠ .rawCard) :
    ∃ m, verifyFile dflt res f s = ⟨f, .err m, s⟩ := by
  cases f with
  | none => exact ⟨_, rfl⟩
  | some g =>
    obtain ⟨h1, h2, h3⟩ := ht g rfl
    obtain ⟨type, vu, card, raw⟩ := g
    cases type <;> simp_all [verifyFile]

/-- C32: whatever the outcome, at most the two card certificates of a driver card change. -/
theorem verify_file_effect (dflt : Resolver σ) (res : Option (Resolver σ)) (f : File) (s : σ) :
    (verifyFile dflt res (some f) s).msg = some f ∨
      ∃ c x y, f.type = .driverCard ∧ f.driverCard = some c ∧
        (verifyFile dflt res (some f) s).msg = some { f with driverCard := some { c with
          tachograph := c.tachograph.map fun t => { t with cardCertificate := x }
          tachographG2 := c.tachographG2.map fun t => { t with cardSignCertificate := y } } } := by
  obtain ⟨type, vu, card, raw⟩ := f
  cases type <;> simp only [verifyFile]
  case driverCard =>
    cases card with
    | none => exact .inl rfl
    | some c =>
      obtain ⟨x, y, h⟩ := driver_card_verify_effect (some (res.getD dflt)) c s
      right; rw [h]; exact ⟨c, x, y, by trivial, rfl, rfl⟩
  all_goals simp

end

/-! ## Examples -/

/-- Two bytes panic. -/
theorem empty_overview_panics [Charmap] : unmarshalFile [0x76, 0x01] = .panic :=
  (file_panics_iff _).2 (.inl ⟨[], .overviewGen1, [], rfl, trivial, [.fixed 491], .counted 1 98,
    [.counted 1 31, .fixed 128], 491, rfl, by simp, rfl, by simp⟩)

/-- A control card is reported raw, and restored. -/
def Spec.sampleControlCard : List Tlv := [⟨0x00, 0x02, 0x00, [1, 2, 3]⟩, ⟨0x05, 0x0C, 0x00, [9]⟩]

theorem control_card_read [Charmap] : unmarshalFile [0, 2, 0, 0, 3, 1, 2, 3, 5, 0x0C, 0, 0, 1, 9]
    = .ok { type := .rawCard, rawCard := some (sampleControlCard.map Tlv.record) } := by
  refine (file_iff _ _).2 (.inr ⟨_, _, rfl, ?_, .inr ⟨?_, rfl⟩⟩)
  · have := parse_fileBytes sampleControlCard (by decide)
    have e : fileBytes sampleControlCard = [0, 2, 0, 0, 3, 1, 2, 3, 5, 0x0C, 0, 0, 1, 9] := by decide
    rw [e] at this
    exact this
  · decide

/-- Other leading bytes are refused. -/
example [Charmap] : ∃ m, unmarshalFile [0x00, 0x01, 0x02] = .err m :=
  file_refused _ (by simp) (by simp)

/-- A vehicle unit file passes verification whatever it contains. -/
example [Crypto] {σ : Type} (dflt : Resolver σ) (vu : VehicleUnitFile) (s : σ) :
    verifyFile dflt none (some { type := .vehicleUnit, vehicleUnit := some vu }) s =
      ⟨some { type := .vehicleUnit, vehicleUnit := some vu }, .ok (), s⟩ :=
  (verify_file_iff _ _ _ _ _ _).2 (.inl ⟨.inl rfl, rfl, rfl⟩)

end Tacho
