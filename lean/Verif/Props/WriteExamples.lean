import Verif.Props.WriteMissing
/-!
# C61, C62: the hypotheses are met

One set of messages, partly as a parser would make them (with raw bytes), partly built by hand.
-/

namespace Tacho.WriteExamples
open Tacho Spec

theorem plain_check {v : Bytes} (h : v.all (fun b => decide (b.toNat < 0x80)) = true) (h1 : v.head?.all (fun b => !decide (Blank b)) = true)
    (h2 : v.getLast?.all (fun b => !decide (Blank b)) = true) : PlainText v := by
  refine ⟨fun b hb => by simpa using List.all_eq_true.1 h b hb, ?_, ?_⟩
  · rintro b t rfl
    simpa using h1
  · rintro b t rfl
    simpa using h2

theorem latin1_ascii (t : Table) (x : Bytes) (h : Ascii x) : latin1.decode t x = x := by
  have one : ∀ b : UInt8, b.toNat < 0x80 → String.utf8EncodeChar (Char.ofNat b.toNat) = [b] := by
    have : ∀ b : UInt8, (decide (b.toNat < 0x80) → String.utf8EncodeChar (Char.ofNat b.toNat) = [b]) := forall_byte (by decide +kernel)
    intro b hb
    exact this b (by simpa using hb)
  show x.flatMap _ = x
  induction x with
  | nil => rfl
  | cons b x ih =>
    rw [List.flatMap_cons, one b (h b (by simp)), ih fun y hy => h y (by simp [hy])]
    rfl

theorem no_code {t : EnumTable} {b : UInt8} (h : t.all (fun p => p.2 != some b.toNat) = true) : ∀ w, (w, some b.toNat) ∉ t := by
  intro w hw
  have := List.all_eq_true.1 h _ hw
  simp at this

local instance : Charmap := latin1

theorem time1 : TimeOk (some ⟨1700000000, 0⟩) := by rintro x ⟨⟩; decide
theorem time0 : TimeOk none := by rintro x ⟨⟩

/-- "Mueller", typed by hand. -/
def muller : StringValue := ⟨2, none, some 35, [0x4D, 0x75, 0x65, 0x6C, 0x6C, 0x65, 0x72]⟩

theorem muller_ok : TextOk 35 muller :=
  ⟨rfl, ⟨(0, 2), by decide, rfl⟩, Or.inr ⟨rfl, by decide, plain_check (by decide) (by decide) (by decide), fun p hp hpe => by
    have : ∀ q ∈ Spec.codePages, q.2 = 2 → q.1 ≠ 255 := by decide
    rw [if_neg (this p hp hpe)]
    exact fun x => latin1_ascii _ x⟩⟩

/-- A first name as read from a card, in code page 1. -/
def jose : StringValue := ⟨4, some (1 :: [0x4A, 0x6F, 0x73, 0xE9] ++ List.replicate 31 0x20), some 35, [0x4A, 0x6F, 0x73, 0xC3, 0xA9]⟩

theorem jose_ok : TextOk 35 jose := ⟨rfl, ⟨(1, 4), by decide, rfl⟩, Or.inl ⟨_, rfl, by decide⟩⟩

def plate : StringValue := ⟨4, some (1 :: [0x42, 0x20, 0x41, 0x31] ++ List.replicate 9 0x20), some 13, [0x42, 0x20, 0x41, 0x31]⟩

theorem plate_ok : TextOk 13 plate := ⟨rfl, ⟨(1, 4), by decide, rfl⟩, Or.inl ⟨_, rfl, by decide⟩⟩

/-- A nation with a code. -/
theorem nation_ok : Named nationNumericTable 14 := ⟨11, by decide⟩

def reg : VehicleRegistration := ⟨14, some plate⟩
theorem reg_ok : RegOk reg := ⟨nation_ok, Or.inr ⟨_, rfl, plate_ok⟩⟩

/-- The same vehicle without number. -/
theorem reg_ok' : RegOk ⟨14, none⟩ := ⟨nation_ok, Or.inl ⟨rfl, latin1_ascii _⟩⟩

/-- An IA5 text of `w` characters typed by hand. -/
def typed (w : Int) (v : Bytes) : Ia5StringValue := ⟨none, some w, v⟩

theorem typed_ok (w : Nat) (v : Bytes) (h : v.length ≤ w) (hp : PlainText v) : Ia5Ok w (typed w v) := ⟨rfl, Or.inr ⟨rfl, h, plain_whole hp⟩⟩

theorem abc : PlainText [0x41, 0x20, 0x43] := plain_check (by decide) (by decide) (by decide)
theorem one : PlainText [0x31] := plain_check (by decide) (by decide) (by decide)

example : HolderNameOk ⟨some muller, some jose⟩ := ⟨⟨_, rfl, muller_ok⟩, _, rfl, jose_ok⟩

def driver : FullCardNumber := ⟨equipmentType_driverCard, 14, some ⟨some (typed 14 [0x41, 0x20, 0x43]), none, none⟩, none⟩
theorem driver_ok : CardNumberOk driver :=
  ⟨⟨by decide, by decide⟩, Or.inl ⟨rfl, ⟨_, rfl, _, rfl, typed_ok 14 _ (by decide) abc⟩, rfl⟩⟩

def company : FullCardNumber :=
  ⟨equipmentType_companyCard, 14, none, some ⟨some (typed 13 [0x41, 0x20, 0x43]), some (typed 1 [0x31]), some (typed 1 [0x31]), some (typed 1 [0x31])⟩⟩
example : CardNumberGenOk ⟨some company, 2⟩ :=
  ⟨⟨_, rfl, ⟨by decide, by decide⟩, Or.inr ⟨Or.inr rfl, rfl, _, rfl, ⟨_, rfl, typed_ok 13 _ (by decide) abc⟩, ⟨_, rfl, typed_ok 1 _ (by decide) one⟩,
    ⟨_, rfl, typed_ok 1 _ (by decide) one⟩, _, rfl, typed_ok 1 _ (by decide) one⟩⟩, ⟨2, by decide⟩⟩

def date : Date := ⟨none, 2030, 12, 31⟩
theorem date_ok : DateOk date := by
  refine ⟨?_, by decide⟩
  rintro r ⟨⟩

/-- Two card insertions, the second one still open. -/
example : CardIWOk ⟨none, some ⟨some muller, some jose⟩, some driver, some date, some ⟨1700000000, 0⟩, 123456, 2, none, 0,
    some ⟨none, some reg, some ⟨1700000000, 0⟩⟩, true⟩ :=
  ⟨⟨_, rfl, ⟨_, rfl, muller_ok⟩, _, rfl, jose_ok⟩, ⟨_, rfl, driver_ok⟩, ⟨_, rfl, date_ok⟩, time1, ⟨by decide, by decide⟩, ⟨0, by decide⟩, time0,
    ⟨by decide, by decide⟩, _, rfl, by rintro r ⟨⟩, ⟨_, rfl, reg_ok⟩, time1⟩

def gnss : GNSSPlaceRecord := ⟨some ⟨1700000000, 0⟩, 12, some ⟨-33520, 151120⟩⟩
theorem gnss_ok : GnssOk gnss := ⟨time1, ⟨by decide, by decide⟩, _, rfl, ⟨by decide, by decide⟩, ⟨by decide, by decide⟩⟩

/-- A place with a country the enum does not know. -/
def place : PlaceRecord := ⟨none, some ⟨1700000000, 0⟩, 2, none, 1, some 200, [7], 654321, false⟩
theorem place_ok : PlaceOk place :=
  ⟨time1, ⟨0, Or.inl ⟨by decide, rfl⟩⟩, ⟨200, Or.inr ⟨no_code (by decide), rfl, rfl⟩⟩, rfl, ⟨by decide, by decide⟩⟩

example : ∀ r ∈ [place, place], RawFits r.rawData 10 ∧ PlaceOk r := by
  simp only [List.forall_mem_cons, List.not_mem_nil, false_implies, implies_true, and_true]
  exact ⟨⟨by rintro r ⟨⟩, place_ok⟩, by rintro r ⟨⟩, place_ok⟩

example : RawFits (PlaceRecordG2.mk place (some gnss)).base.rawData 21 ∧ PlaceOk place ∧ Has GnssOk (some gnss) :=
  ⟨by rintro r ⟨⟩, place_ok, _, rfl, gnss_ok⟩

example : GnssAuthOk ⟨some ⟨1700000000, 0⟩, 12, some ⟨-33520, 151120⟩, 1, some 77⟩ :=
  ⟨time1, ⟨by decide, by decide⟩, ⟨_, rfl, ⟨by decide, by decide⟩, ⟨by decide, by decide⟩⟩, ⟨77, Or.inr ⟨no_code (by decide), rfl, rfl⟩⟩⟩

def condition : SpecificConditionRecord := ⟨some ⟨1700000000, 0⟩, 3, none⟩
theorem condition_ok : ConditionOk condition := ⟨time1, ⟨1, Or.inl ⟨by decide, rfl⟩⟩⟩

/-- `conditionsG2_deleted_stay` on a file of two records of which the second is deleted. -/
example : ∃ old, unmarshalSpecificConditionsG2 [0, 1, 0x65, 0x53, 0xF1, 0, 1, 0x65, 0x53, 0xF2, 0, 2] = .ok old ∧ old.records.length = 2 := by
  obtain ⟨old, h⟩ := (specificConditionsG2_accepts_iff [0, 1, 0x65, 0x53, 0xF1, 0, 1, 0x65, 0x53, 0xF2, 0, 2]).2 (by decide)
  exact ⟨old, h, ((specificConditionsG2_ok_iff _ _).1 h).2.2.2.1.trans (by decide)⟩

def used : CardVehicleRecord := ⟨none, 1000, 1200, some ⟨1700000000, 0⟩, some ⟨1700009999, 0⟩, some reg, some ⟨17, 2⟩⟩
theorem used_ok : CardVehicleOk used :=
  ⟨⟨by decide, by decide⟩, ⟨by decide, by decide⟩, time1, by rintro x ⟨⟩; decide, ⟨_, rfl, reg_ok⟩, _, rfl, by decide⟩
example : VinOk [0x57, 0x44, 0x42] := ⟨by decide, by
  intro b t h
  have : b = 0x42 := by
    have := congrArg List.getLast? h
    simpa using this.symm
  subst this
  decide⟩

theorem serial_ok : SerialOk ⟨123456, some ⟨none, 3, 2021⟩, 3, 0xA1⟩ :=
  ⟨⟨by decide, by decide⟩, ⟨_, rfl, by rintro r ⟨⟩, by decide⟩, ⟨1, by decide⟩, ⟨by decide, by decide⟩⟩

example : IccOk ⟨2, some ⟨123456, some ⟨none, 3, 2021⟩, 3, 0xA1⟩, some (typed 8 [0x41, 0x20, 0x43]), 7,
    some ⟨some (typed 2 [0x31]), some (typed 2 [0x31]), 9⟩, [1, 2]⟩ :=
  ⟨⟨0, by decide⟩, ⟨_, rfl, serial_ok⟩, ⟨_, rfl, typed_ok 8 _ (by decide) abc⟩, ⟨by decide, by decide⟩,
    ⟨_, rfl, ⟨_, rfl, typed_ok 2 _ (by decide) one⟩, ⟨_, rfl, typed_ok 2 _ (by decide) one⟩, ⟨by decide, by decide⟩⟩, rfl⟩

example : Named equipmentTypeTable 3 ∧ VersionOk ⟨none, 1, 42⟩ ∧ CountsOk ⟨12, 24, 13776, 200, 112⟩ ∧
    CountsG2Ok ⟨12, 24, 13776, 200, 112, 336, 112, 200⟩ := by
  refine ⟨⟨1, by decide⟩, ⟨by rintro r ⟨⟩, by decide⟩, ?_, ?_⟩
  · simp only [CountsOk, Fits]; decide
  · simp only [CountsG2Ok, Fits]; decide

example : UsageOk ⟨none, some reg⟩ := ⟨time0, _, rfl, reg_ok⟩

example : LicenceOk ⟨some muller, 14, some (typed 16 [0x41, 0x20, 0x43])⟩ :=
  ⟨⟨_, rfl, muller_ok⟩, nation_ok, _, rfl, typed_ok 16 _ (by decide) abc⟩

example : ControlOk ⟨true, none, some ⟨none, true, false, true, false, true⟩, some ⟨1700000000, 0⟩,
    some ⟨some ⟨equipmentType_driverCard, 0, some ⟨some (typed 18 [0x41, 0x20, 0x43]), none, none⟩, none⟩, 1⟩, some reg, some ⟨1700000000, 0⟩, none⟩ :=
  .inl ⟨rfl, ⟨_, rfl⟩, time1, by simp, ⟨_, rfl, _, rfl, rfl, _, rfl, _, rfl, typed_ok 18 _ (by decide) abc⟩, ⟨_, rfl, reg_ok⟩, time1, time0⟩

/-- An unused file with stray bytes behind the time, and one of the wrong size. -/
example : ControlOk ⟨false, some ([7, 0, 0, 0, 0] ++ List.replicate 41 1), none, none, none, none, none, none⟩
    ∧ ControlOk ⟨false, some [1, 2, 3], none, none, none, none, none, none⟩ :=
  ⟨.inr ⟨rfl, fun _ => by decide⟩, .inr ⟨rfl, fun h => by simp at h⟩⟩

/-- One used and one unused event record. -/
example : ∀ r ∈ [EventRecord.mk true none 6 (some ⟨1700000000, 0⟩) none (some reg), ⟨false, some (9 :: List.replicate 23 0), 0, none, none, none⟩],
    EventOk r := by
  simp only [List.forall_mem_cons, List.not_mem_nil, false_implies, implies_true, and_true]
  exact ⟨Or.inl ⟨rfl, ⟨4, by decide⟩, time1, by simp, time0, _, rfl, reg_ok⟩, Or.inr ⟨rfl, _, rfl, rfl, by decide⟩⟩

example : GnssEntryOk ⟨some ⟨1700000000, 0⟩, some gnss, 999999⟩ := ⟨time1, ⟨_, rfl, gnss_ok⟩, by decide, by decide⟩

example : UnitOk ⟨some ⟨1700000000, 0⟩, 0x30, [5], [1, 2, 3, 4]⟩ := ⟨time1, ⟨by decide, by decide⟩, rfl, rfl⟩

/-- A driver's and an owner's number in EF_Identification. -/
theorem ident_ok : CardIdentOk ⟨14, some ⟨some (typed 14 [0x41, 0x20, 0x43]), some (typed 1 [0x31]), some (typed 1 [0x32])⟩, none, some muller,
    some ⟨1700000000, 0⟩, none, some ⟨1700000000, 0⟩⟩ :=
  ⟨nation_ok, Or.inl ⟨⟨_, rfl, ⟨_, rfl, by decide, plain_whole abc⟩, ⟨_, rfl, _, rfl, by unfold CardIdentOk.Digit; decide⟩, _, rfl, _, rfl, by unfold CardIdentOk.Digit; decide⟩, rfl⟩, ⟨_, rfl, muller_ok⟩, time1, time0, time1⟩

example : CardIdentOk ⟨14, none, some ⟨some (typed 13 [0x41, 0x20, 0x43]), some (typed 1 [0x31]), some (typed 1 [0x41]), some (typed 1 [0x32])⟩,
    some muller, some ⟨1700000000, 0⟩, none, none⟩ :=
  ⟨nation_ok, Or.inr ⟨rfl, _, rfl, ⟨_, rfl, by decide, plain_whole abc⟩, ⟨_, rfl, .inr ⟨_, rfl, by decide⟩⟩, ⟨_, rfl, .inr ⟨_, rfl, by decide⟩⟩,
    ⟨_, rfl, .inr ⟨_, rfl, by decide⟩⟩, by
      rintro ⟨⟨_, h, b, hb, hd⟩, -⟩
      cases h
      cases hb
      revert hd; unfold CardIdentOk.Digit; decide⟩, ⟨_, rfl, muller_ok⟩, time1, time0, time0⟩

/-- A number with a letter outside ASCII and blank indices. -/
example : CardIdentOk ⟨14, none, some ⟨some (typed 13 [0x41, 0xC3, 0xA9, 0x43]), some (typed 1 []), some (typed 1 []), some (typed 1 [0x32])⟩,
    some muller, some ⟨1700000000, 0⟩, none, none⟩ :=
  ⟨nation_ok, Or.inr ⟨rfl, _, rfl, ⟨_, rfl, by decide, ⟨['A', 'é', 'C'], by decide, by
      rintro c t ⟨⟩; simp [Symbol.Padding], by
      intro c t h
      have := congrArg List.getLast? h
      simp only [List.getLast?_append, List.getLast?_singleton, Option.some_or] at this
      cases this
      simp [Symbol.Padding]⟩⟩, ⟨_, rfl, .inl rfl⟩, ⟨_, rfl, .inl rfl⟩, ⟨_, rfl, .inr ⟨_, rfl, by decide⟩⟩, by
      rintro ⟨⟨_, h, b, hb, hd⟩, -⟩
      cases h
      cases hb⟩, ⟨_, rfl, muller_ok⟩, time1, time0, time0⟩

example : HolderOk ⟨some muller, some jose, some date, some (typed 2 [0x31])⟩ :=
  ⟨⟨_, rfl, muller_ok⟩, ⟨_, rfl, jose_ok⟩, ⟨_, rfl, date_ok⟩, _, rfl, typed_ok 2 _ (by decide) one⟩

/-- A flag that was read as set and then cleared is read as set again. -/
example : ∃ c', unmarshalControlType [0x88] = .ok c' ∧ c'.cardDownloading = true ∧
    appendControlType [] { c' with cardDownloading := false } = .ok [0x88] := ⟨_, rfl, rfl, rfl⟩

end Tacho.WriteExamples
