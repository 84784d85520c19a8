import Verif.Spec.CardSettled
import Verif.Props.CardRewrite
import Verif.Props.CardWritable
import Verif.Props.CardSettledParts
/-!
# C67, C70: every parsed card that can be written is read again, and is stable from then on
-/

namespace Tacho
open Spec Spec.Regulation

section
variable [Charmap]

/-! ## Cards whose EF_Identification changes -/

omit [Charmap] in
theorem onIdentification_gen1 (f : Identification → Identification) (c : DriverCard) :
    (onIdentification f c).tachograph.getD {} =
      { c.tachograph.getD {} with identification := (c.tachograph.getD {}).identification.map (cutSigned f) } := by
  obtain ⟨_, _, t, _⟩ := c
  cases t <;> rfl

omit [Charmap] in
theorem onIdentification_gen2 (f : Identification → Identification) (c : DriverCard) :
    (onIdentification f c).tachographG2 = c.tachographG2 := rfl

omit [Charmap] in
theorem kept_signed_map {α : Type} {S : α → α → Prop} {f : α → α} {o o' : Option (Signed α)} (h : KeptSigned (fun m => S (f m)) o o') :
    KeptSigned S (o.map (cutSigned f)) o' := by
  cases o with
  | none => exact h
  | some m => exact h

omit [Charmap] in
theorem entry_signed_on {α : Type} {w : α → Res Bytes} {hi lo a : UInt8} {sg : Bool} {f : α → α} {o o' : Option (Signed α)}
    (h : KeptSigned (fun m m' => w m' = w (f m)) o o') :
    entry hi lo a sg o' (fun m => w m.data) = entry hi lo a sg (o.map (cutSigned f)) (fun m => w m.data) :=
  entry_signed_same (kept_signed_map (S := fun m m' => w m' = w m) h)

/-- The card read from these blocks. -/
theorem blocks_same_on {c : DriverCard} {f : Identification → Identification} (h : PartsOk c (fun m => SameIdentification (f m)))
    (hi : c.icc ≠ none) : SameCard (onIdentification f c) (cardOf ((cardBlocks c).filterMap id)) := by
  have hk := cardBlocks_keyed c
  refine ⟨?_, ?_, ?_, ?_⟩
  · obtain ⟨i, hi⟩ := Option.ne_none_iff_exists'.1 hi
    have := part_kept h.icc (pick_file hk .icc)
    rw [hi] at this
    obtain ⟨m', h1, h2⟩ := this
    exact ⟨i, m', hi, h1, h2⟩
  · exact part_kept h.ic (pick_file hk .ic)
  · rw [gen1_getD, onIdentification_gen1]
    exact {
      applicationIdentification := part_kept_signed h.appId (pick_fileGen hk .applicationIdentification .gen1)
      drivingLicenceInfo := part_kept_signed h.licence (pick_fileGen hk .drivingLicenceInfo .gen1)
      identification := kept_signed_map (part_kept_signed (Same := fun m => SameIdentification (f m)) h.ident (pick_fileGen hk .identification .gen1))
      eventsData := part_kept_signed h.events (pick_fileGen hk .eventsData .gen1)
      faultsData := part_kept_signed h.faults (pick_fileGen hk .faultsData .gen1)
      driverActivityData := part_kept_signed h.activity (pick_fileGen hk .driverActivityData .gen1)
      vehiclesUsed := part_kept_signed h.vehicles (pick_fileGen hk .vehiclesUsed .gen1)
      places := part_kept_signed h.places (pick_fileGen hk .places .gen1)
      currentUsage := part_kept_signed h.usage (pick_fileGen hk .currentUsage .gen1)
      controlActivityData := part_kept_signed h.control (pick_fileGen hk .controlActivityData .gen1)
      specificConditions := part_kept_signed h.conditions (pick_fileGen hk .specificConditions .gen1)
      cardDownload := part_kept h.download (pick_fileGen hk .cardDownloadDriver .gen1)
      cardCertificate := cert_kept h.cardCert (pick_fileGen hk .cardCertificate .gen1)
      caCertificate := cert_kept h.caCert (pick_fileGen hk .caCertificate .gen1)
    }
  · rw [gen2_getD, onIdentification_gen2]
    exact {
      applicationIdentification := part_kept_signed h.appIdG2 (pick_fileGen hk .applicationIdentification .gen2)
      vehiclesUsed := part_kept_signed h.vehiclesG2 (pick_fileGen hk .vehiclesUsed .gen2)
      places := part_kept_signed h.placesG2 (pick_fileGen hk .places .gen2)
      specificConditions := part_kept_signed h.conditionsG2 (pick_fileGen hk .specificConditions .gen2)
      vehicleUnitsUsed := part_kept_signed h.units (pick_file hk .vehicleUnitsUsed)
      gnssPlaces := part_kept_signed h.gnss (pick_file hk .gnssPlaces)
      applicationIdentificationV2 := part_kept_signed h.appIdV2 (pick_file hk .applicationIdentificationV2)
      cardSignCertificate := cert_kept h.signCert (pick_fileGen hk .cardSignCertificate .gen2)
      caCertificate := cert_kept h.caCertG2 (pick_fileGen hk .caCertificate .gen2)
      linkCertificate := cert_kept h.linkCert (pick_fileGen hk .linkCertificate .gen2)
      cardMaCertificate := by show Option.bind _ _ = none; rw [pick_fileGen hk]; rfl
      identification := by show Option.bind _ _ = none; rw [pick_fileGen hk]; rfl
      drivingLicenceInfo := by show Option.bind _ _ = none; rw [pick_fileGen hk]; rfl
      eventsData := by show Option.bind _ _ = none; rw [pick_fileGen hk]; rfl
      faultsData := by show Option.bind _ _ = none; rw [pick_fileGen hk]; rfl
      driverActivityData := by show Option.bind _ _ = none; rw [pick_fileGen hk]; rfl
      currentUsage := by show Option.bind _ _ = none; rw [pick_fileGen hk]; rfl
      controlActivityData := by show Option.bind _ _ = none; rw [pick_fileGen hk]; rfl
      cardDownload := by show Option.bind _ _ = none; rw [pick_fileGen hk]; rfl
    }

/-- The entries of the card that is read back are the entries that were written. -/
theorem entries_stable_on {c : DriverCard} {f : Identification → Identification} {I : Identification → Identification → Prop}
    (hp : PartsOk c I) (h : CardOk (onIdentification f c))
    (hI : PartOk (c.tachograph.getD {}).identification (fun m => appendIdentification [] m.data) unmarshalIdentification
      (fun m m' => appendIdentification [] m' = appendIdentification [] (f m.data))) :
    entries (cardOf ((cardBlocks c).filterMap id)) = entries (onIdentification f c) := by
  have hk := cardBlocks_keyed c
  unfold entries
  rw [gen1_getD, gen2_getD, onIdentification_gen1, onIdentification_gen2]
  have hg1 := h.gen1
  have hg2 := h.gen2
  rw [onIdentification_gen1] at hg1
  rw [onIdentification_gen2] at hg2
  have hma : certificate 0xC1 0x00 2 ((gen2Of ((cardBlocks c).filterMap id)).cardMaCertificate.map EccCert.raw) =
      certificate 0xC1 0x00 2 ((c.tachographG2.getD {}).cardMaCertificate.map EccCert.raw) := by
    have : (gen2Of ((cardBlocks c).filterMap id)).cardMaCertificate = none := by
      show Option.bind _ _ = none; rw [pick_fileGen hk]; rfl
    rw [this]
    cases hm : (c.tachographG2.getD {}).cardMaCertificate with
    | none => rfl
    | some m => simp [certificate, hp.maCert m hm]
  have hicc : Kept (fun m m' => appendIcc [] m' = appendIcc [] m) c.icc (cardOf ((cardBlocks c).filterMap id)).icc :=
    part_kept (part_stable hp.icc fun m hm => by
      obtain ⟨i, hi, ho⟩ := h.icc
      cases hi.symm.trans hm
      exact icc_stable _ ho) (pick_file hk .icc)
  have hic := part_kept (part_stable hp.ic (same_stable hp.ic)) (pick_file hk .ic)
  unfold gen1Entries gen2Entries gen1Certificates gen2Certificates
  simp only [List.append_assoc]
  refine append_same (entry_same hicc) ?_
  refine append_same (entry_same hic) ?_
  refine append_same (entry_signed_same (part_kept_signed (part_signed_stable (w := fun m => appendAppId [] (some m)) hp.appId fun m hm => appId_stable _ (hg1.applicationIdentification m hm)) (pick_fileGen hk .applicationIdentification .gen1))) ?_
  refine append_same (entry_signed_same (part_kept_signed (part_signed_stable (w := fun m => appendDrivingLicenceInfo [] (some m)) hp.licence fun m hm => licence_stable _ (hg1.drivingLicenceInfo m hm)) (pick_fileGen hk .drivingLicenceInfo .gen1))) ?_
  refine append_same (entry_signed_on (w := fun m => appendIdentification [] m) (part_kept_signed (Same := fun m m' => appendIdentification [] m' = appendIdentification [] (f m)) hI (pick_fileGen hk .identification .gen1))) ?_
  refine append_same (entry_signed_same (part_kept_signed (part_signed_stable (w := fun m => appendEventsData [] m) hp.events fun m hm => events_stable _ (hg1.eventsData m hm).1 (hg1.eventsData m hm).2) (pick_fileGen hk .eventsData .gen1))) ?_
  refine append_same (entry_signed_same (part_kept_signed (part_signed_stable (w := fun m => appendEventsData [] m) hp.faults fun m hm => events_stable _ (hg1.faultsData m hm).1 (hg1.faultsData m hm).2) (pick_fileGen hk .faultsData .gen1))) ?_
  refine append_same (entry_signed_same (part_kept_signed (part_signed_stable (w := fun m => appendDriverActivity [] (some m)) hp.activity fun m hm => activity_stable _ (hg1.driverActivityData m hm)) (pick_fileGen hk .driverActivityData .gen1))) ?_
  refine append_same (entry_signed_same (part_kept_signed (part_signed_stable (w := fun m => appendVehiclesUsed [] (some m)) hp.vehicles fun m hm => vehiclesUsed_stable _ (hg1.vehiclesUsed m hm).1 (hg1.vehiclesUsed m hm).2.2) (pick_fileGen hk .vehiclesUsed .gen1))) ?_
  refine append_same (entry_signed_same (part_kept_signed (part_signed_stable (w := fun m => appendPlaces [] (some m)) hp.places fun m hm => places_stable _ (hg1.places m hm).1 (hg1.places m hm).2.2) (pick_fileGen hk .places .gen1))) ?_
  refine append_same (entry_signed_same (part_kept_signed (part_signed_stable (w := fun m => appendCurrentUsage [] (some m)) hp.usage fun m hm => usage_stable _ (hg1.currentUsage m hm)) (pick_fileGen hk .currentUsage .gen1))) ?_
  refine append_same (entry_signed_same (part_kept_signed (part_signed_stable (w := fun m => appendControlActivity [] (some m)) hp.control fun m hm => control_stable _ (hg1.controlActivityData m hm)) (pick_fileGen hk .controlActivityData .gen1))) ?_
  refine append_same (entry_signed_same (part_kept_signed (part_signed_stable (w := fun m => appendSpecificConditions [] (some m)) hp.conditions fun m hm => conditions_stable _ (hg1.specificConditions m hm).2) (pick_fileGen hk .specificConditions .gen1))) ?_
  refine append_same (entry_same (part_kept (part_stable hp.download (same_stable hp.download)) (pick_fileGen hk .cardDownloadDriver .gen1))) ?_
  refine append_same (entry_signed_same (part_kept_signed (part_signed_stable (w := fun m => appendAppIdG2 [] (some m)) hp.appIdG2 fun m hm => appIdG2_stable _ (hg2.applicationIdentification m hm)) (pick_fileGen hk .applicationIdentification .gen2))) ?_
  refine append_same (entry_signed_same (part_kept_signed (part_signed_stable (w := fun m => appendVehiclesUsedG2 [] (some m)) hp.vehiclesG2 fun m hm => vehiclesUsedG2_stable _ (hg2.vehiclesUsed m hm).1 (hg2.vehiclesUsed m hm).2.2) (pick_fileGen hk .vehiclesUsed .gen2))) ?_
  refine append_same (entry_signed_same (part_kept_signed (part_signed_stable (w := fun m => appendPlacesG2 [] (some m)) hp.placesG2 fun m hm => placesG2_stable _ (hg2.places m hm).1 (hg2.places m hm).2.2) (pick_fileGen hk .places .gen2))) ?_
  refine append_same (entry_signed_same (part_kept_signed (part_signed_stable (w := fun m => appendSpecificConditionsG2 [] (some m)) hp.conditionsG2 fun m hm => conditionsG2_stable _ (hg2.specificConditions m hm)) (pick_fileGen hk .specificConditions .gen2))) ?_
  refine append_same (entry_signed_same (part_kept_signed (part_signed_stable (w := fun m => appendVehicleUnitsUsed [] (some m)) hp.units (same_signed_stable hp.units)) (pick_file hk .vehicleUnitsUsed))) ?_
  refine append_same (entry_signed_same (part_kept_signed (part_signed_stable (w := fun m => appendGnssPlaces [] (some m)) hp.gnss (same_signed_stable hp.gnss)) (pick_file hk .gnssPlaces))) ?_
  refine append_same (entry_signed_same (part_kept_signed (part_signed_stable (w := fun m => appendAppIdV2 [] (some m)) hp.appIdV2 (same_signed_stable hp.appIdV2)) (pick_file hk .applicationIdentificationV2))) ?_
  refine append_same (certificate_same (cert_kept hp.cardCert (pick_fileGen hk .cardCertificate .gen1))) ?_
  refine append_same (certificate_same (cert_kept hp.caCert (pick_fileGen hk .caCertificate .gen1))) ?_
  refine append_same (hma) ?_
  refine append_same (certificate_same (cert_kept hp.signCert (pick_fileGen hk .cardSignCertificate .gen2))) ?_
  refine append_same (certificate_same (cert_kept hp.caCertG2 (pick_fileGen hk .caCertificate .gen2))) ?_
  exact certificate_same (cert_kept hp.linkCert (pick_fileGen hk .linkCertificate .gen2))

/-- A card whose number may be cut off, written, read and written again. -/
theorem driver_card_write_on {c : DriverCard} {f : Identification → Identification} (hp : PartsOk c (fun m => SameIdentification (f m)))
    (h : CardOk (onIdentification f c))
    (hI : PartOk (c.tachograph.getD {}).identification (fun m => appendIdentification [] m.data) unmarshalIdentification
      (fun m m' => appendIdentification [] m' = appendIdentification [] (f m.data))) :
    ∃ out c', marshalFile (some { type := .driverCard, driverCard := some c }) = .ok out ∧
      unmarshalFile out = .ok { type := .driverCard, driverCard := some c' } ∧ SameCard (onIdentification f c) c' ∧
      marshalFile (some { type := .driverCard, driverCard := some c' }) =
        marshalFile (some { type := .driverCard, driverCard := some (onIdentification f c) }) := by
  have he := entries_ok hp
  have hi : c.icc ≠ none := by
    obtain ⟨i, hi, _⟩ := h.icc
    intro hc
    rw [show (onIdentification f c).icc = c.icc from rfl, hc] at hi
    cases hi
  obtain ⟨vs, hv⟩ : ∃ vs, List.Forall₂ (fun (e : Spec.Entry) v => e.content = .ok v) (entries c) vs := by
    generalize entries c = es at he
    induction es with
    | nil => exact ⟨[], .nil⟩
    | cons e es ih =>
      obtain ⟨vs, hv⟩ := ih fun x hx => he x (by simp [hx])
      obtain ⟨v, hv', _⟩ := he e (by simp)
      exact ⟨v :: vs, .cons hv' hv⟩
  have hm := (driver_card_written_iff c _).2 ⟨vs, hv, rfl⟩
  refine ⟨_, _, hm, ?_, blocks_same_on hp hi, ?_⟩
  · rw [written_card_read c _ hm ?_ hi, (driver_card_iff _ _).2 ⟨_, rfl, ?_, rfl⟩]
    · rfl
    · intro b hb
      refine ⟨?_, blocks_readable hp b hb⟩
      obtain ⟨o, ho, hb⟩ := List.mem_filterMap.1 hb
      obtain ⟨k, _, hk⟩ := mem_of_forall₂ (cardBlocks_keyed c) ho
      exact (hk b hb).2
    · intro e hm v hv
      obtain ⟨v', h1, h2⟩ := he e hm
      rw [hv] at h1
      cases h1
      exact h2
  · show marshalDriverCard (some _) = marshalDriverCard (some _)
    rw [marshal_driver_card, marshal_driver_card, entries_stable_on hp h hI]

/-! ## Parsed cards -/

omit [Charmap] in
theorem eachData_map {α : Type} {P : α → Prop} {f : α → α} {o : Option (Signed α)} (h : EachData (fun m => P (f m)) o) :
    EachData P (o.map (cutSigned f)) := by
  intro m hm
  obtain ⟨x, hx, rfl⟩ := Option.map_eq_some_iff.1 hm
  exact h x hx

omit [Charmap] in
theorem entry_settled {α : Type} {w : α → Res Bytes} {hi lo a : UInt8} {sg : Bool} {f : α → α} {o : Option (Signed α)}
    (h : EachData (fun m => w (f m) = w m) o) :
    entry hi lo a sg (o.map (cutSigned f)) (fun m => w m.data) = entry hi lo a sg o (fun m => w m.data) := by
  cases o with
  | none => rfl
  | some m => simp only [entry, Option.map_some]; rw [show (cutSigned f m).data = f m.data from rfl, h m rfl]

omit [Charmap] in
theorem settled_gen1 (c : DriverCard) : (settledButNumber c).tachograph.getD {} = settledGen1 (c.tachograph.getD {}) := by
  obtain ⟨_, _, t, _⟩ := c
  cases t <;> rfl

omit [Charmap] in
theorem settled_gen2 (c : DriverCard) : (settledButNumber c).tachographG2.getD {} = settledGen2 (c.tachographG2.getD {}) := by
  obtain ⟨_, _, _, t⟩ := c
  cases t <;> rfl

omit [Charmap] in
theorem eachData_mp {α : Type} {P Q : α → Prop} {o : Option (Signed α)} (h : EachData P o) (hPQ : ∀ m, P m → Q m) : EachData Q o :=
  fun m hm => hPQ _ (h m hm)

/-- What is needed of the parts of a parsed card. -/
structure Settles (num : Nat → Bytes → Bytes) (c : DriverCard) : Prop where
  fits : CardOk (settledCard num c)
  same : entries (settledButNumber c) = entries c
  shown : EachData (fun m => ∃ k d, IdentShown m k d) ((settledButNumber c).tachograph.getD {}).identification
  short : EachData (fun m => Each NumberFits m.card) (c.tachograph.getD {}).identification → settledCard num c = settledButNumber c

theorem parsed_settles {num : Nat → Bytes → Bytes} (hnum : ShowsCut num) {d : Bytes} {raws : List RawRec} {c : DriverCard}
    (h : unmarshalFile d = .ok { type := .driverCard, driverCard := some c }) (hr : unmarshalRawCardFile d = .ok raws) (hm : Unmoved raws)
    (hw : CardWritable c) : Settles num c := by
  obtain ⟨rs, bs, -, hs, hr', hbs, hg, rfl, b0, rest, hb0, hicc⟩ := parsed_card_blocks h
  rw [hr, Res.ok.injEq] at hr'
  have hin : ∀ b ∈ bs, ∃ r ∈ rs, b.data = r.record := by
    intro b hb
    have : b.data ∈ rs.map Tlv.record := by
      rw [hbs, List.mem_flatMap]
      exact ⟨b, hb, by simp [Block.records]⟩
    obtain ⟨r, h1, h2⟩ := List.mem_map.1 this
    exact ⟨r, h1, h2.symm⟩
  have hlen : ∀ b ∈ bs, b.data.value.length ≤ 65530 := by
    intro b hb
    obtain ⟨r, h1, h2⟩ := hin b hb
    rw [h2]; exact hs r h1
  have hun : ∀ b ∈ bs, (b.data.generation = .gen1 → b.data.file = .eventsData ∨ b.data.file = .faultsData → NeverMoved 24 b.data.value.length) ∧
      (b.data.file = .vehicleUnitsUsed → b.data.value.length ≤ 4098) := by
    intro b hb
    obtain ⟨r, h1, h2⟩ := hin b hb
    exact hm b.data (by rw [hr', h2]; exact List.mem_map_of_mem h1)
  have hgen : ∀ {b : Block} {f : EF} {g : Generation}, fileGen f g b = true → b.data.file = f ∧ b.data.generation = g := by
    intro b f g hb
    simpa [fileGen] using hb
  have k1 := gen1_getD bs
  have k2 := gen2_getD bs
  obtain ⟨c2, c3, c4, c5, c6, c7, c8, c10, c11⟩ := hw
  rw [k1] at c2 c3 c4 c5 c6 c7 c8
  rw [k2] at c10 c11
  have p1 : EachData (fun m => AppIdOk (settledAppId m) ∧ ∀ dst, appendAppId dst (some (settledAppId m)) = appendAppId dst (some m))
      (gen1Of bs).applicationIdentification := each_newest_signed' fun b _ _ m hm => appId_settled hm
  have p2 : EachData (fun m => (∃ c d, IdentShown (settledIdentification m) c d) ∧
      ∀ dst, appendIdentification dst (settledIdentification m) = appendIdentification dst m) (gen1Of bs).identification :=
    each_newest_signed c2 fun b _ _ m hm hk => identification_settled hm hk
  have p9 : EachData (fun m => AppIdG2Ok (settledAppIdG2 m) ∧ ∀ dst, appendAppIdG2 dst (some (settledAppIdG2 m)) = appendAppIdG2 dst (some m))
      (gen2Of bs).applicationIdentification := each_newest_signed' fun b _ _ m hm => appIdG2_settled hm
  have reg : ∀ (dst : Bytes) (o : Option VehicleRegistration), appendVehicleRegistration dst (o.map settledReg) = appendVehicleRegistration dst o := by
    intro dst o
    cases o with
    | none => rfl
    | some v => exact reg_settle dst v
  refine ⟨⟨?_, each_newest fun b _ _ m hm => ic_read hm, ?_, ?_⟩, ?_, ?_, ?_⟩
  · have hne : bs.filter (file .icc) ≠ [] := by
      rw [hb0]
      simp [file, hicc]
    obtain ⟨l, b, hb⟩ : ∃ l b, bs.filter (file .icc) = l ++ [b] := by
      rcases List.eq_nil_or_concat (bs.filter (file .icc)) with h | ⟨l, b, h⟩
      · exact absurd h hne
      · exact ⟨l, b, by simpa using h⟩
    have hnew : newest bs (file .icc) = some b := by simp [newest, hb]
    obtain ⟨m1, m2⟩ := newest_some hnew
    have hread := (hg b m1).2
    have hf : b.data.file = .icc := by simpa [file] using m2
    unfold Block.Readable at hread
    rw [hf] at hread
    obtain ⟨-, x, hx⟩ := hread
    exact ⟨x, by simp [settledCard, settledButNumber, onIdentification, cardOf, hnew, Block.read, hx], icc_read hx⟩
  · rw [settledCard, onIdentification_gen1, settled_gen1, k1]
    exact {
      applicationIdentification := eachData_map (eachData_mp p1 fun _ h => h.1)
      identification := eachData_map (P := IdentificationOk) (eachData_map (P := fun m => IdentificationOk (settledNumber num m))
        (eachData_mp p2 fun _ h => let ⟨_, _, hi⟩ := h.1; ident_ok hnum hi))
      drivingLicenceInfo := eachData_map (each_newest_signed c3 fun b _ _ m hm hk => licence_settled hm hk)
      eventsData := eachData_map (each_newest_signed c4 fun b hb hf m hm hk => events_settled ((hun b hb).1 (hgen hf).2 (.inl (hgen hf).1)) hm hk)
      faultsData := eachData_map (each_newest_signed c5 fun b hb hf m hm hk => events_settled ((hun b hb).1 (hgen hf).2 (.inr (hgen hf).1)) hm hk)
      driverActivityData := each_newest_signed' fun b hb _ m hm => activity_read (hlen b hb) hm
      vehiclesUsed := eachData_map (each_newest_signed c6 fun b hb _ m hm hk => vehicles_settled (hlen b hb) hm hk)
      places := each_newest_signed' fun b hb _ m hm => places_read (hlen b hb) hm
      currentUsage := eachData_map (each_newest_signed c7 fun b _ _ m hm hk => usage_settled hm hk)
      controlActivityData := eachData_map (each_newest_signed c8 fun b _ _ m hm hk => control_settled hm hk)
      specificConditions := each_newest_signed' fun b hb _ m hm => conditions_file_read (hlen b hb) hm
      cardDownload := each_newest fun b _ _ m hm => cardDownload_read hm
      cardCertificate := each_newest fun b _ _ m hm => rsa_read hm
      caCertificate := each_newest fun b _ _ m hm => rsa_read hm }
  · rw [settledCard, onIdentification_gen2, settled_gen2, k2]
    exact {
      applicationIdentification := eachData_map (eachData_mp p9 fun _ h => h.1)
      vehiclesUsed := eachData_map (each_newest_signed c10 fun b hb _ m hm hk => vehiclesG2_settled (hlen b hb) hm hk)
      places := each_newest_signed' fun b hb _ m hm => placesG2_read (hlen b hb) hm
      specificConditions := each_newest_signed' fun b hb _ m hm => .inl ⟨_, hlen b hb, hm⟩
      vehicleUnitsUsed := each_newest_signed' fun b hb hf m hm => units_read ((hun b hb).2 (by simpa [file] using hf)) hm
      gnssPlaces := each_newest_signed c11 fun b hb _ m hm hk => gnssPlaces_read (hlen b hb) hm hk
      applicationIdentificationV2 := each_newest_signed' fun b _ _ m hm => appIdV2_read hm
      cardMaCertificate := each_newest fun b hb hf m hm => by
        obtain ⟨r, -, h2⟩ := hin b hb
        have := (hgen hf).1
        rw [h2] at this
        exact absurd this (mapFid_not_ma _)
      cardSignCertificate := each_newest fun b _ _ m hm => ecc_read hm
      caCertificate := each_newest fun b _ _ m hm => ecc_read hm
      linkCertificate := each_newest fun b _ _ m hm => ecc_read hm }
  · unfold entries
    rw [settled_gen1, settled_gen2, k1, k2]
    have event : ∀ d r, appendEventRecord d (settledEvent r) = appendEventRecord d r := fun d r => by
      simp only [appendEventRecord, settledEvent, reg]
    have vehicle : ∀ d r, appendCardVehicleRecord d (settledVehicle r) = appendCardVehicleRecord d r := fun d r => by
      simp only [appendCardVehicleRecord, paintCardVehicle, settledVehicle, reg]
    have vehicleG2 : ∀ d r, appendCardVehicleRecordG2 d (settledVehicleG2 r) = appendCardVehicleRecordG2 d r := fun d r => by
      simp only [appendCardVehicleRecordG2, paintCardVehicle, settledVehicleG2, settledVehicle, reg]
    unfold gen1Entries gen2Entries gen1Certificates gen2Certificates settledGen1 settledGen2
    rw [entry_settled (w := fun m => appendAppId [] (some m)) (eachData_mp p1 fun _ h => h.2 []),
      entry_settled (w := fun m => appendIdentification [] m) (eachData_mp p2 fun _ h => h.2 []),
      entry_settled (w := fun m => appendDrivingLicenceInfo [] (some m)) (fun m _ => by
        simp only [appendDrivingLicenceInfo, settledLicence, text_settle]),
      entry_settled (w := fun m => appendEventsData [] m) (fun m _ => appendEach_cutDown event [] m.data),
      entry_settled (w := fun m => appendEventsData [] m) (fun m _ => appendEach_cutDown event [] m.data),
      entry_settled (w := fun m => appendVehiclesUsed [] (some m)) (fun m _ => by
        simp only [appendVehiclesUsed, appendRecordFile2, List.length_map, paintEach_cutDown vehicle, appendEachNew_cutDown vehicle]),
      entry_settled (w := fun m => appendCurrentUsage [] (some m)) (fun m _ => by
        simp only [appendCurrentUsage, settledUsage]
        cases m.data.vehicle with
        | none => rfl
        | some v => simp only [Option.map_some, reg_settle]),
      entry_settled (w := fun m => appendControlActivity [] (some m)) (fun m _ => by
        simp only [appendControlActivity, settledControl, reg]
        rfl),
      entry_settled (w := fun m => appendAppIdG2 [] (some m)) (eachData_mp p9 fun _ h => h.2 []),
      entry_settled (w := fun m => appendVehiclesUsedG2 [] (some m)) (fun m _ => by
        simp only [appendVehiclesUsedG2, appendRecordFile2, List.length_map, paintEach_cutDown vehicleG2, appendEachNew_cutDown vehicleG2])]
    rfl
  · rw [settled_gen1, k1]
    exact eachData_map (eachData_mp p2 fun _ h => h.1)
  · intro hf
    rw [k1] at hf
    have hsame : EachData (fun m => settledNumber num (settledIdentification m) = settledIdentification m) (gen1Of bs).identification :=
      each_newest_signed hf fun b _ _ m hm hk => settledNumber_fits hnum hm hk
    rw [← k1] at hsame
    generalize cardOf bs = c at hsame
    obtain ⟨icc, ic, t, t2⟩ := c
    cases t with
    | none => rfl
    | some t =>
      simp only [settledCard, onIdentification, settledButNumber, Option.map_some, settledGen1, DriverCard.mk.injEq, true_and, and_true,
        Option.some.injEq, Tachograph.mk.injEq]
      cases hi : t.identification with
      | none => rfl
      | some m =>
        have := hsame m hi
        simp only [Option.map_some, cutSigned, this]

/-! ## The property -/

omit [Charmap] in
/-- There is exactly one `num` as `parsed_card_rewritten` asks for. -/
theorem showsCut_unique : ∃ num, ShowsCut num ∧ ∀ num', ShowsCut num' → num' = num :=
  ⟨fun w v => toValidUTF8 (trimSpaceAndZeroBytes (v.take w)), fun _ _ => (cleaned_iff _ _).1 rfl,
    fun num' h => funext fun w => funext fun v => ((cleaned_iff _ _).2 (h w v)).symm⟩

/-- C67, C70: every driver card that was read from a file and can be written (`CardWritable`: all nations recognised, no
position beyond 999999 km) is written to a file that is read again. What is read is the card with what the format has no
room for settled (`settledCard`), and from the second writing on nothing changes. The first writing is already the last
if the card number fits its field, as it does without stray bytes. -/
theorem parsed_card_rewritten (num : Nat → Bytes → Bytes) (hnum : ShowsCut num) (d : Bytes) (raws : List RawRec) (c : DriverCard)
    (h : unmarshalFile d = .ok { type := .driverCard, driverCard := some c }) (hr : unmarshalRawCardFile d = .ok raws) (hm : Unmoved raws)
    (hw : CardWritable c) :
    ∃ out c' out' c'', marshalFile (some { type := .driverCard, driverCard := some c }) = .ok out ∧
      unmarshalFile out = .ok { type := .driverCard, driverCard := some c' } ∧ SameCard (settledCard num c) c' ∧
      marshalFile (some { type := .driverCard, driverCard := some c' }) = .ok out' ∧
      unmarshalFile out' = .ok { type := .driverCard, driverCard := some c'' } ∧ SameCard (settledCard num c) c'' ∧
      marshalFile (some { type := .driverCard, driverCard := some c'' }) = .ok out' ∧
      (EachData (fun m => Each NumberFits m.card) (c.tachograph.getD {}).identification → out' = out) := by
  obtain ⟨fits, same, shown, short⟩ := parsed_settles hnum h hr hm hw
  have hp := parts_ok fits
  have hident : PartOk ((settledButNumber c).tachograph.getD {}).identification (fun m => appendIdentification [] m.data) unmarshalIdentification
      (fun m m' => SameIdentification (settledNumber num m.data) m' ∧
        appendIdentification [] m' = appendIdentification [] (settledNumber num m.data)) := by
    intro m hm
    obtain ⟨k, p, hs⟩ := shown m hm
    obtain ⟨e, i', e1, e2, e3, e4, e5⟩ := ident_rewritten hnum hs
    exact ⟨e, i', e2, by omega, e3, e4, e5⟩
  have hp1 : PartsOk (settledButNumber c) (fun m => SameIdentification (settledNumber num m)) := by
    obtain ⟨a1, a2, a3, a4, -, a6, a7, a8, a9, a10, a11, a12, a13, a14, a15, a16, a17, a18, a19, a20, a21, a22, a23, a24, a25, a26, a27⟩ := hp
    rw [settledCard, onIdentification_gen1] at a3 a4 a6 a7 a8 a9 a10 a11 a12 a13 a14 a22 a23
    exact ⟨a1, a2, a3, a4, fun m hm => let ⟨v, x, h1, h2, h3, h4, _⟩ := hident m hm; ⟨v, x, h1, h2, h3, h4⟩, a6, a7, a8, a9, a10, a11, a12, a13, a14,
      a15, a16, a17, a18, a19, a20, a21, a22, a23, a24, a25, a26, a27⟩
  obtain ⟨out, c', o1, o2, o3, o4⟩ := driver_card_write_on hp1 fits
    (fun m hm => let ⟨v, x, h1, h2, h3, _, h4⟩ := hident m hm; ⟨v, x, h1, h2, h3, h4⟩)
  have hmar : marshalFile (some { type := .driverCard, driverCard := some (settledButNumber c) }) =
      marshalFile (some { type := .driverCard, driverCard := some c }) := by
    show marshalDriverCard (some _) = marshalDriverCard (some _)
    rw [marshal_driver_card, marshal_driver_card, same]
  obtain ⟨out', c'', q1, q2, q3⟩ := driver_card_write_stable _ fits
  obtain ⟨out1, c1, r1, r2, r3⟩ := driver_card_write_read _ fits
  rw [q1, Res.ok.injEq] at r1
  subst r1
  rw [q2] at r2
  simp only [Res.ok.injEq, File.mk.injEq, Option.some.injEq, true_and, and_true] at r2
  subst r2
  refine ⟨out, c', out', c'', by rw [← hmar]; exact o1, o2, o3, o4.trans q1, q2, r3, q3, fun hf => ?_⟩
  have := short hf
  rw [this] at q1
  rw [q1] at o1
  exact Res.ok.inj o1

end

end Tacho
