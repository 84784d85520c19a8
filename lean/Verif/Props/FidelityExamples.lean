import Verif.Props.Fidelity
import Verif.Props.JoinExamples
/-!
# C79: the hypotheses are met
-/

namespace Tacho.FidelityExamples
open Tacho Spec WriteExamples AgainExamples CutOffExamples JoinExamples

local instance : Charmap := latin1

/-- The card `badRecords` with another nation that has no name, a byte after EF_ICC and two after EF_Current_Usage. -/
def otherRecords : List Tlv := [⟨0x00, 0x02, 0, exIcc ++ [9]⟩, ⟨0x05, 0x07, 0, [0x5F, 0, 0, 0, 0x91, 1] ++ List.replicate 13 0x41 ++ [1, 2]⟩]

def otherBlocks : List Block := [⟨(⟨0x00, 0x02, 0, exIcc ++ [9]⟩ : Tlv).record, none⟩,
  ⟨(⟨0x05, 0x07, 0, [0x5F, 0, 0, 0, 0x91, 1] ++ List.replicate 13 0x41 ++ [1, 2]⟩ : Tlv).record, none⟩]

theorem otherUsage_read : unmarshalCurrentUsage ([0x5F, 0, 0, 0, 0x91, 1] ++ List.replicate 13 0x41 ++ [1, 2]) =
    .ok ⟨some ⟨1593835520, 0⟩, some ⟨1, some (exText 1 4 13 0x41)⟩⟩ := by
  decide +kernel

theorem otherFile_read : unmarshalFile (fileBytes otherRecords) = .ok { type := .driverCard, driverCard := some (cardOf otherBlocks) } := by
  refine (file_iff _ _).2 (.inr ⟨_, _, rfl, parse_fileBytes _ (by decide +kernel), .inl ⟨by decide +kernel, _, ?_, rfl⟩⟩)
  refine (driver_card_iff _ _).2 ⟨otherBlocks, rfl, ?_, rfl⟩
  simp only [otherBlocks, List.forall_mem_cons, List.not_mem_nil, false_implies, implies_true, and_true]
  exact ⟨⟨⟨rfl, by rintro s ⟨⟩⟩, rfl, ⟨_, rfl⟩⟩, ⟨⟨rfl, by rintro s ⟨⟩⟩, .inl ⟨rfl, _, otherUsage_read⟩⟩⟩

theorem bad_holds : Holds (fileBytes badRecords) badBlocks := by
  refine ⟨badRecords, by decide +kernel, rfl, rfl, ?_⟩
  simp only [badBlocks, List.forall_mem_cons, List.not_mem_nil, false_implies, implies_true, and_true]
  exact ⟨⟨rfl, by rintro s ⟨⟩⟩, ⟨rfl, by rintro s ⟨⟩⟩⟩

theorem other_holds : Holds (fileBytes otherRecords) otherBlocks := by
  refine ⟨otherRecords, by decide +kernel, rfl, rfl, ?_⟩
  simp only [otherBlocks, List.forall_mem_cons, List.not_mem_nil, false_implies, implies_true, and_true]
  exact ⟨⟨rfl, by rintro s ⟨⟩⟩, ⟨rfl, by rintro s ⟨⟩⟩⟩

theorem bad_steady : Unshifted badBlocks := by unfold Unshifted NeverMoved; decide +kernel

theorem other_steady : Unshifted otherBlocks := by unfold Unshifted NeverMoved; decide +kernel

theorem alikeOn_of {hi : Nat} {ns : List Nat} {d e : Bytes} (h : (List.range hi).all (fun i => decide (i < d.length) && decide (i < e.length) &&
    (d[i]? == e[i]? || ns.contains i && nationNumericTable.all fun p => p.2 != some ((d[i]?.getD 0).toNat) && p.2 != some ((e[i]?.getD 0).toNat))) = true) :
    AlikeOn 0 hi ns d e := by
  intro i _ h2
  have h := List.all_eq_true.1 h i (List.mem_range.2 h2)
  simp only [Bool.and_eq_true, decide_eq_true_eq, Bool.or_eq_true, beq_iff_eq, List.contains_iff_mem] at h
  obtain ⟨⟨h1, h2⟩, h⟩ := h
  refine ⟨_, _, List.getElem?_eq_getElem h1, List.getElem?_eq_getElem h2, ?_⟩
  rw [List.getElem?_eq_getElem h1, List.getElem?_eq_getElem h2] at h
  rcases h with h | ⟨hm, h⟩
  · exact .inl (Option.some.inj h)
  · refine .inr ⟨hm, .inr ⟨?_, ?_⟩⟩ <;> rintro ⟨v, hv⟩ <;> simpa using List.all_eq_true.1 h _ hv

theorem bad_other_alike : AlikeCards badBlocks otherBlocks := by
  have hicc : AlikeFiles .icc exIcc (exIcc ++ [9]) := alikeOn_of (by decide +kernel)
  have husage : AlikeFiles .currentUsage ([0x5F, 0, 0, 0, 0x90, 1] ++ List.replicate 13 0x41) ([0x5F, 0, 0, 0, 0x91, 1] ++ List.replicate 13 0x41 ++ [1, 2]) :=
    alikeOn_of (by decide +kernel)
  intro p hp
  have hcases : ∀ p ∈ cardPlaces, (newest badBlocks (belongs p) = none ∧ newest otherBlocks (belongs p) = none) ∨ p = (.icc, none) ∨ p = (.currentUsage, some .gen1) := by
    decide +kernel
  rcases hcases p hp with ⟨h1, h2⟩ | rfl | rfl
  · rw [h1, h2]; trivial
  · exact ⟨hicc, rfl⟩
  · exact ⟨husage, rfl⟩

/-- C79: two driver cards that differ in bytes and are read as the same message. -/
theorem card_not_injective : ∃ d e c, d ≠ e ∧ unmarshalFile d = .ok { type := .driverCard, driverCard := some c } ∧
    unmarshalFile e = .ok { type := .driverCard, driverCard := some c } := by
  refine ⟨fileBytes badRecords, fileBytes otherRecords, _, by decide +kernel, badFile_read, ?_⟩
  rw [(card_alike_iff _ _ _ _ bad_holds other_holds bad_steady other_steady _ _ badFile_read otherFile_read).2 bad_other_alike]
  exact otherFile_read

theorem ex_holds : Holds (fileBytes exRecords) exBlocks := by
  refine ⟨exRecords, by decide +kernel, rfl, rfl, ?_⟩
  simp only [exBlocks, List.forall_mem_cons, List.not_mem_nil, false_implies, implies_true, and_true]
  exact ⟨⟨rfl, by rintro s ⟨⟩⟩, ⟨rfl, by rintro s ⟨⟩; exact ⟨rfl, rfl⟩⟩, ⟨rfl, by rintro s ⟨⟩⟩, ⟨rfl, by rintro s ⟨⟩; exact ⟨rfl, rfl⟩⟩, ⟨rfl, by rintro s ⟨⟩⟩⟩

/-- `card_alike_iff` in the other direction: cards with unlike files are told apart. -/
example : cardOf exBlocks ≠ cardOf badBlocks := by
  rw [Ne, card_alike_iff _ _ _ _ ex_holds bad_holds (by unfold Unshifted NeverMoved; decide +kernel) bad_steady _ _ exFile_read badFile_read]
  intro h
  have := h (.identification, some .gen1) (by decide)
  rw [show newest badBlocks (belongs (.identification, some .gen1)) = none by decide +kernel] at this
  exact this

/-- The detailed speed before or after the version of the download interface makes no difference. -/
example : ∃ w, unmarshalFile (vuBytes exVu) = .ok { type := .vehicleUnit, vehicleUnit := some w } ∧
    unmarshalFile (vuBytes exVu.reverse) = .ok { type := .vehicleUnit, vehicleUnit := some w } := by
  have hr : unmarshalFile (vuBytes exVu.reverse) = .ok { type := .vehicleUnit, vehicleUnit := some { generation := .gen2, version := .v2, gen2V2 := some (gen2Message .overviewG2V2 exVu.reverse) } } := by
    refine (file_iff _ _).2 (.inl ⟨_, _, rfl, (vu_file_iff _ _).2 ⟨exVu.reverse, by decide, rfl, fun t ht => exVu_conforms t (List.mem_reverse.1 ht),
      .inr (.inr ⟨?_, ?_, rfl⟩)⟩, rfl⟩)
    · unfold Only; decide
    · unfold Only; decide
  have hn : ∀ t ∈ exVu, t.type ≠ .cardDownload := by decide
  have := (vu_alike_iff exVu exVu.reverse _ _ (fun t ht => ⟨exVu_conforms t ht, hn t ht⟩)
    (fun t ht => ⟨exVu_conforms t (List.mem_reverse.1 ht), hn t (List.mem_reverse.1 ht)⟩) exVu_read hr).2 ⟨by decide, by decide, by decide⟩
  exact ⟨_, exVu_read, by rw [this]; exact hr⟩

/-- Two downloads of detailed speed, of Gen1 and of Gen2, are told apart. -/
example : exSpeed1Message ≠ exSpeedMessage := by
  intro h
  have hn : ∀ t ∈ exVu.take 1, t.type ≠ .cardDownload := by decide
  have hs : ∀ t ∈ exSpeed1, Conforms t.type t.value ∧ t.type ≠ .cardDownload := by
    intro t ht
    refine ⟨sampleGen1_conforms t (by simp only [exSpeed1, List.mem_singleton] at ht; simp [sampleGen1, ht]), ?_⟩
    rw [List.mem_singleton.1 ht]
    decide
  have := (vu_alike_iff exSpeed1 (exVu.take 1) _ _ hs (fun t ht => ⟨exVu_conforms t (List.mem_of_mem_take ht), hn t ht⟩) exSpeed1_read exSpeed_read).1 h
  exact absurd (this.rest .speedGen2 (by decide)) (by decide)

/-- A card that is not a driver's is kept as it is. -/
example (d e : Bytes) (x : List RawRec) (hd : unmarshalRawCardFile d = .ok x) (he : unmarshalRawCardFile e = .ok x) : d = e :=
  (raw_card_alike_iff d e x x hd he).1 rfl

example : ∃ x, unmarshalRawCardFile (fileBytes badRecords) = .ok x := ⟨_, parse_fileBytes _ (by decide +kernel)⟩

end Tacho.FidelityExamples
