import Verif.Props.CardStable
import Verif.Props.CardAgain
import Verif.Props.CardWriteReadExamples
import Verif.Props.CardAgainExamples
/-!
# C70: a driver card file that the library wrote is left as it is by reading and writing it again
-/

namespace Tacho
open Spec Spec.Regulation

section
variable [Charmap]

omit [Charmap] in
theorem entry_same {α : Type} {w : α → Res Bytes} {hi lo a : UInt8} {sg : Bool} {o o' : Option α} (h : Kept (fun m m' => w m' = w m) o o') :
    entry hi lo a sg o' w = entry hi lo a sg o w := by
  cases o with
  | none => rw [show o' = none from h]
  | some m =>
    obtain ⟨m', rfl, h⟩ := h
    simp only [entry, show w m' = w m from h]

omit [Charmap] in
theorem entry_signed_same {α : Type} {w : α → Res Bytes} {hi lo a : UInt8} {sg : Bool} {o o' : Option (Signed α)}
    (h : KeptSigned (fun m m' => w m' = w m) o o') :
    entry hi lo a sg o' (fun m => w m.data) = entry hi lo a sg o (fun m => w m.data) := by
  cases o with
  | none => rw [show o' = none from h]
  | some m =>
    obtain ⟨m', rfl, h⟩ := h
    simp only [entry, show w m' = w m.data from h]

omit [Charmap] in
theorem certificate_same {β : Type} {raw : β → Bytes} {p : Bytes → Res β} {hi lo a : UInt8} {o o' : Option β} (h : KeptCertificate raw p o o') :
    certificate hi lo a (o'.map raw) = certificate hi lo a (o.map raw) := by
  cases o with
  | none => rw [show o' = none from h]
  | some m =>
    unfold KeptCertificate at h
    dsimp only at h
    split at h
    · rename_i hr
      rw [h]
      simp [certificate, hr]
    · obtain ⟨c', rfl, -, h⟩ := h
      simp only [Option.map_some, h]

omit [Charmap] in
theorem part_stable {α : Type} {msg : Option α} {w : α → Res Bytes} {r : Bytes → Res α} {S : α → α → Prop} (h : PartOk msg w r S)
    (hs : ∀ m, msg = some m → Stable w r m) : PartOk msg w r (fun m m' => w m' = w m) := by
  intro m hm
  obtain ⟨v, x, h1, h2, h3, -⟩ := h m hm
  obtain ⟨e, m', g1, g2, g3⟩ := hs m hm
  rw [h1] at g1
  cases g1
  exact ⟨v, m', h1, h2, g2, g3.trans h1.symm⟩

omit [Charmap] in
theorem part_signed_stable {α : Type} {msg : Option (Signed α)} {w : α → Res Bytes} {r : Bytes → Res α} {S : Signed α → α → Prop}
    (h : PartOk msg (fun m => w m.data) r S) (hs : ∀ m, msg = some m → Stable w r m.data) :
    PartOk msg (fun m => w m.data) r (fun m m' => w m' = w m.data) := by
  intro m hm
  obtain ⟨v, x, h1, h2, h3, -⟩ := h m hm
  obtain ⟨e, m', g1, g2, g3⟩ := hs m hm
  cases g1.symm.trans h1
  exact ⟨v, m', h1, h2, g2, g3.trans h1.symm⟩

omit [Charmap] in
theorem same_stable {α : Type} {msg : Option α} {w : α → Res Bytes} {r : Bytes → Res α} (h : PartOk msg w r (fun m m' => m' = m)) :
    ∀ m, msg = some m → Stable w r m := by
  intro m hm
  obtain ⟨v, x, h1, -, h3, rfl⟩ := h m hm
  exact ⟨v, x, h1, h3, h1⟩

omit [Charmap] in
theorem same_signed_stable {α : Type} {msg : Option (Signed α)} {w : α → Res Bytes} {r : Bytes → Res α}
    (h : PartOk msg (fun m => w m.data) r (fun m => (fun m m' => m' = m) m.data)) : ∀ m, msg = some m → Stable w r m.data := by
  intro m hm
  obtain ⟨v, x, h1, -, h3, h4⟩ := h m hm
  dsimp only at h4
  subst h4
  exact ⟨v, _, h1, h3, h1⟩

omit [Charmap] in
theorem append_same {α : Type} {a a' b b' : List α} (h : a = a') (h' : b = b') : a ++ b = a' ++ b' := by rw [h, h']

/-- The entries of the card that is read back are the entries that were written. -/
theorem entries_stable {c : DriverCard} (h : CardOk c) : entries (cardOf ((cardBlocks c).filterMap id)) = entries c := by
  have hp := parts_ok h
  have hk := cardBlocks_keyed c
  unfold entries
  rw [gen1_getD, gen2_getD]
  have hma : certificate 0xC1 0x00 2 ((gen2Of ((cardBlocks c).filterMap id)).cardMaCertificate.map EccCert.raw) =
      certificate 0xC1 0x00 2 ((c.tachographG2.getD {}).cardMaCertificate.map EccCert.raw) := by
    have : (gen2Of ((cardBlocks c).filterMap id)).cardMaCertificate = none := by
      show Option.bind _ _ = none; rw [pick_fileGen hk]; rfl
    rw [this]
    cases hm : (c.tachographG2.getD {}).cardMaCertificate with
    | none => rfl
    | some m => simp [certificate, hp.maCert m hm]
  have hicc : Kept (fun m m' => appendIcc [] m' = appendIcc [] m) c.icc (cardOf ((cardBlocks c).filterMap id)).icc :=
    part_kept (part_stable hp.icc fun m hm => by
      obtain ⟨i, hi, ho⟩ := h.icc
      cases hi.symm.trans hm
      exact icc_stable _ ho) (pick_file hk .icc)
  have hic := part_kept (part_stable hp.ic (same_stable hp.ic)) (pick_file hk .ic)
  unfold gen1Entries gen2Entries gen1Certificates gen2Certificates
  simp only [List.append_assoc]
  refine append_same (entry_same hicc) ?_
  refine append_same (entry_same hic) ?_
  refine append_same (entry_signed_same (part_kept_signed (part_signed_stable (w := fun m => appendAppId [] (some m)) hp.appId fun m hm => appId_stable _ (h.gen1.applicationIdentification m hm)) (pick_fileGen hk .applicationIdentification .gen1))) ?_
  refine append_same (entry_signed_same (part_kept_signed (part_signed_stable (w := fun m => appendDrivingLicenceInfo [] (some m)) hp.licence fun m hm => licence_stable _ (h.gen1.drivingLicenceInfo m hm)) (pick_fileGen hk .drivingLicenceInfo .gen1))) ?_
  refine append_same (entry_signed_same (part_kept_signed (part_signed_stable (w := fun m => appendIdentification [] m) hp.ident fun m hm => identification_stable _ (h.gen1.identification m hm)) (pick_fileGen hk .identification .gen1))) ?_
  refine append_same (entry_signed_same (part_kept_signed (part_signed_stable (w := fun m => appendEventsData [] m) hp.events fun m hm => events_stable _ (h.gen1.eventsData m hm).1 (h.gen1.eventsData m hm).2) (pick_fileGen hk .eventsData .gen1))) ?_
  refine append_same (entry_signed_same (part_kept_signed (part_signed_stable (w := fun m => appendEventsData [] m) hp.faults fun m hm => events_stable _ (h.gen1.faultsData m hm).1 (h.gen1.faultsData m hm).2) (pick_fileGen hk .faultsData .gen1))) ?_
  refine append_same (entry_signed_same (part_kept_signed (part_signed_stable (w := fun m => appendDriverActivity [] (some m)) hp.activity fun m hm => activity_stable _ (h.gen1.driverActivityData m hm)) (pick_fileGen hk .driverActivityData .gen1))) ?_
  refine append_same (entry_signed_same (part_kept_signed (part_signed_stable (w := fun m => appendVehiclesUsed [] (some m)) hp.vehicles fun m hm => vehiclesUsed_stable _ (h.gen1.vehiclesUsed m hm).1 (h.gen1.vehiclesUsed m hm).2.2) (pick_fileGen hk .vehiclesUsed .gen1))) ?_
  refine append_same (entry_signed_same (part_kept_signed (part_signed_stable (w := fun m => appendPlaces [] (some m)) hp.places fun m hm => places_stable _ (h.gen1.places m hm).1 (h.gen1.places m hm).2.2) (pick_fileGen hk .places .gen1))) ?_
  refine append_same (entry_signed_same (part_kept_signed (part_signed_stable (w := fun m => appendCurrentUsage [] (some m)) hp.usage fun m hm => usage_stable _ (h.gen1.currentUsage m hm)) (pick_fileGen hk .currentUsage .gen1))) ?_
  refine append_same (entry_signed_same (part_kept_signed (part_signed_stable (w := fun m => appendControlActivity [] (some m)) hp.control fun m hm => control_stable _ (h.gen1.controlActivityData m hm)) (pick_fileGen hk .controlActivityData .gen1))) ?_
  refine append_same (entry_signed_same (part_kept_signed (part_signed_stable (w := fun m => appendSpecificConditions [] (some m)) hp.conditions fun m hm => conditions_stable _ (h.gen1.specificConditions m hm).2) (pick_fileGen hk .specificConditions .gen1))) ?_
  refine append_same (entry_same (part_kept (part_stable hp.download (same_stable hp.download)) (pick_fileGen hk .cardDownloadDriver .gen1))) ?_
  refine append_same (entry_signed_same (part_kept_signed (part_signed_stable (w := fun m => appendAppIdG2 [] (some m)) hp.appIdG2 fun m hm => appIdG2_stable _ (h.gen2.applicationIdentification m hm)) (pick_fileGen hk .applicationIdentification .gen2))) ?_
  refine append_same (entry_signed_same (part_kept_signed (part_signed_stable (w := fun m => appendVehiclesUsedG2 [] (some m)) hp.vehiclesG2 fun m hm => vehiclesUsedG2_stable _ (h.gen2.vehiclesUsed m hm).1 (h.gen2.vehiclesUsed m hm).2.2) (pick_fileGen hk .vehiclesUsed .gen2))) ?_
  refine append_same (entry_signed_same (part_kept_signed (part_signed_stable (w := fun m => appendPlacesG2 [] (some m)) hp.placesG2 fun m hm => placesG2_stable _ (h.gen2.places m hm).1 (h.gen2.places m hm).2.2) (pick_fileGen hk .places .gen2))) ?_
  refine append_same (entry_signed_same (part_kept_signed (part_signed_stable (w := fun m => appendSpecificConditionsG2 [] (some m)) hp.conditionsG2 fun m hm => conditionsG2_stable _ (h.gen2.specificConditions m hm)) (pick_fileGen hk .specificConditions .gen2))) ?_
  refine append_same (entry_signed_same (part_kept_signed (part_signed_stable (w := fun m => appendVehicleUnitsUsed [] (some m)) hp.units (same_signed_stable hp.units)) (pick_file hk .vehicleUnitsUsed))) ?_
  refine append_same (entry_signed_same (part_kept_signed (part_signed_stable (w := fun m => appendGnssPlaces [] (some m)) hp.gnss (same_signed_stable hp.gnss)) (pick_file hk .gnssPlaces))) ?_
  refine append_same (entry_signed_same (part_kept_signed (part_signed_stable (w := fun m => appendAppIdV2 [] (some m)) hp.appIdV2 (same_signed_stable hp.appIdV2)) (pick_file hk .applicationIdentificationV2))) ?_
  refine append_same (certificate_same (cert_kept hp.cardCert (pick_fileGen hk .cardCertificate .gen1))) ?_
  refine append_same (certificate_same (cert_kept hp.caCert (pick_fileGen hk .caCertificate .gen1))) ?_
  refine append_same (hma) ?_
  refine append_same (certificate_same (cert_kept hp.signCert (pick_fileGen hk .cardSignCertificate .gen2))) ?_
  refine append_same (certificate_same (cert_kept hp.caCertG2 (pick_fileGen hk .caCertificate .gen2))) ?_
  exact certificate_same (cert_kept hp.linkCert (pick_fileGen hk .linkCertificate .gen2))

/-- C70: a driver card message whose parts fit the format is written without an error, the file is read, and writing
what was read gives the same file, byte for byte. -/
theorem driver_card_write_stable (c : DriverCard) (h : CardOk c) :
    ∃ out c', marshalFile (some { type := .driverCard, driverCard := some c }) = .ok out ∧
      unmarshalFile out = .ok { type := .driverCard, driverCard := some c' } ∧
      marshalFile (some { type := .driverCard, driverCard := some c' }) = .ok out := by
  have hp := parts_ok h
  have he := entries_ok hp
  have hi : c.icc ≠ none := by
    obtain ⟨i, hi, _⟩ := h.icc
    rw [hi]; simp
  obtain ⟨out, c', h1, h2, -⟩ := driver_card_write_read c h
  refine ⟨out, c', h1, h2, ?_⟩
  have hread := written_card_read c out h1 (fun e hm v hv => by
    obtain ⟨v', g1, g2⟩ := he e hm
    rw [hv] at g1
    cases g1
    exact g2) hi
  rw [(driver_card_iff _ _).2 ⟨_, rfl, fun b hb => ⟨?_, blocks_readable hp b hb⟩, rfl⟩, h2] at hread
  · simp only [Res.bind_ok, Res.ok.injEq, File.mk.injEq, Option.some.injEq] at hread
    obtain ⟨-, -, rfl, -⟩ := hread
    change marshalDriverCard (some _) = .ok out
    rw [marshal_driver_card, entries_stable h, ← marshal_driver_card]
    exact h1
  · obtain ⟨o, ho, hb⟩ := List.mem_filterMap.1 hb
    obtain ⟨k, _, hk⟩ := mem_of_forall₂ (cardBlocks_keyed c) ho
    exact (hk b hb).2

/-- C70: a driver card file that is read can be written (under the conditions of C67), and from then on nothing changes:
the written file is read, and written again as it is. -/
theorem driver_card_second_write (d : Bytes) (raws : List RawRec) (c : DriverCard)
    (h : unmarshalFile d = .ok { type := .driverCard, driverCard := some c }) (hr : unmarshalRawCardFile d = .ok raws) (hm : Unmoved raws)
    (hk : CardKnown c) :
    ∃ out c', marshalFile (some { type := .driverCard, driverCard := some c }) = .ok out ∧
      unmarshalFile out = .ok { type := .driverCard, driverCard := some c' } ∧
      marshalFile (some { type := .driverCard, driverCard := some c' }) = .ok out :=
  driver_card_write_stable c (parsed_card_fits h hr hm hk)

end

/-! ## The hypotheses are met -/

namespace WriteExamples

local instance : Charmap := latin1

/-- `driver_card_write_stable` applies to a card with files in both applications, built by hand. -/
example : ∃ c : DriverCard, c.tachograph = some app1 ∧ c.tachographG2 = some app2 ∧
    ∃ out c', marshalFile (some { type := .driverCard, driverCard := some c }) = .ok out ∧
      unmarshalFile out = .ok { type := .driverCard, driverCard := some c' } ∧
      marshalFile (some { type := .driverCard, driverCard := some c' }) = .ok out :=
  ⟨_, rfl, rfl, driver_card_write_stable _ card_ok⟩

end WriteExamples

namespace AgainExamples

set_option maxRecDepth 4000

local instance : Charmap := latin1

/-- `driver_card_second_write` applies to a file with signed and unsigned files. -/
example : ∃ out c', marshalFile (some { type := .driverCard, driverCard := some (cardOf exBlocks) }) = .ok out ∧
    unmarshalFile out = .ok { type := .driverCard, driverCard := some c' } ∧
    marshalFile (some { type := .driverCard, driverCard := some c' }) = .ok out :=
  driver_card_second_write _ _ _ exFile_read (parse_fileBytes _ (by decide +kernel)) exFile_unmoved exFile_known

end AgainExamples

end Tacho
