import Verif.Props.Join
import Verif.Props.CutOffExamples
/-!
# C78: the hypotheses are met
-/

namespace Tacho.JoinExamples
open Tacho Spec WriteExamples AgainExamples CutOffExamples

local instance : Charmap := latin1

/-- A card download that says nothing but EF_ICC. -/
def exFirst : List Tlv := [⟨0x00, 0x02, 0, exIcc⟩]

theorem exFirst_read : ∃ c, unmarshalFile (fileBytes exFirst) = .ok { type := .driverCard, driverCard := some c } ∧ c.tachograph = none := by
  have h : (fileBytes (exCard.flatMap TlvBlock.records)).take 30 = fileBytes exFirst := by decide +kernel
  rcases card_cut_off exCard exCard_good exCard_fits _ exCard_read 30 with ⟨_, _, h⟩ | ⟨c', _, _, _, h', _⟩
  · exact absurd (by decide +kernel) (h 1 (by decide))
  · rw [h] at h'
    obtain ⟨rs, hs, he, _, hc⟩ := driver_file_parts h'
    have hr := parse_fileBytes rs hs
    rw [← he, parse_fileBytes exFirst (by decide +kernel), Res.ok.injEq] at hr
    rw [← hr] at hc
    obtain ⟨bs, h1, h2, rfl⟩ := (driver_card_iff _ _).1 hc
    obtain rfl := blocks_unique [⟨(⟨0x00, 0x02, 0, exIcc⟩ : Tlv).record, none⟩] bs (by
      intro b hb; rw [List.mem_singleton.1 hb]; exact ⟨rfl, by rintro s ⟨⟩⟩) (fun b hb => (h2 b hb).1) (by rw [← h1]; rfl)
    exact ⟨_, h', by
      unfold cardOf
      dsimp only
      rw [if_neg]
      decide +kernel⟩

/-- `card_join` applies: the files of the second download that the first does not have are added. -/
example : ∃ c, unmarshalFile (fileBytes exFirst ++ fileBytes (exCard.flatMap TlvBlock.records)) =
    .ok { type := .driverCard, driverCard := some c } ∧ c.tachograph = (cardOf exBlocks).tachograph := by
  obtain ⟨c, hc, hn⟩ := exFirst_read
  refine ⟨_, card_join _ _ _ _ hc exCard_read, ?_⟩
  simp [joinCards, hn, joinIf]

/-- `card_twice` applies. -/
example := card_twice _ _ exCard_read

/-- A download of detailed speed alone is reported in the first version of Gen2. -/
def exSpeedMessage : VehicleUnitFile := { generation := .gen2, version := .v1, gen2V1 := some (gen2Message .overviewG2V1 (exVu.take 1)) }

theorem exSpeed_read : unmarshalFile (vuBytes (exVu.take 1)) = .ok { type := .vehicleUnit, vehicleUnit := some exSpeedMessage } := by
  refine (file_iff _ _).2 (.inl ⟨_, _, rfl, (vu_file_iff _ _).2 ⟨exVu.take 1, by decide, rfl,
    fun t ht => exVu_conforms t (List.mem_of_mem_take ht), .inr (.inl ⟨?_, rfl⟩)⟩, rfl⟩)
  unfold Only; decide

/-- `vu_join` applies: together with a download of the second version, it belongs to the second. -/
example : ∃ w, unmarshalFile (vuBytes (exVu.take 1) ++ vuBytes exVu) = .ok { type := .vehicleUnit, vehicleUnit := some w } ∧ w.version = .v2 :=
  ⟨_, (vu_join _ _ _ _ exSpeed_read exVu_read _).2 ⟨_, .v12 _ _ rfl, rfl⟩, rfl⟩

/-- A Gen1 download of detailed speed. -/
def exSpeed1 : List Transfer := [⟨.speedGen1, [0, 0] ++ zeros 128⟩]

def exSpeed1Message : VehicleUnitFile := { generation := .gen1, gen1 := some { detailedSpeed := [signed ([0, 0] ++ zeros 128)] } }

theorem exSpeed1_read : unmarshalFile (vuBytes exSpeed1) = .ok { type := .vehicleUnit, vehicleUnit := some exSpeed1Message } := by
  refine (file_iff _ _).2 (.inl ⟨_, _, rfl, (vu_file_iff _ _).2 ⟨exSpeed1, by decide, rfl, ?_, .inl ⟨?_, _, ⟨[], ?_⟩, rfl⟩⟩, rfl⟩)
  · intro t ht
    exact sampleGen1_conforms t (by simp only [exSpeed1, List.mem_singleton] at ht; simp [sampleGen1, ht])
  · unfold Only; decide
  · exact ⟨.nil, rfl, .nil, rfl, rfl, rfl⟩

/-- `vu_join_refused` applies: Gen1 and Gen2 do not go together. -/
example : ∃ m, unmarshalFile (vuBytes exSpeed1 ++ vuBytes exVu) = .err m :=
  vu_join_refused _ _ _ _ exSpeed1_read exVu_read (by intro w h; unfold exSpeed1Message exVuMessage at h; cases h)

/-- `vu_then_other` applies: a vehicle unit download with a card after it. -/
example (f : File) : unmarshalFile (vuBytes exVu ++ fileBytes exFirst) ≠ .ok f :=
  vu_then_other _ _ _ exVu_read 0 _ rfl (by decide) f

end Tacho.JoinExamples
