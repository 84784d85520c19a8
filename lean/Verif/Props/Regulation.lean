import Verif.Spec.Regulation
import Verif.Props.RecordFields
import Verif.Props.RawCard
import Verif.Props.ScannedFiles
import Verif.Props.CardFiles
import Verif.Props.CardHolder
import Verif.Props.Identification
import Verif.Model.DriverCard
/-!
# C52, C53, C54: what is read is what the regulation says

The tables and layouts of Spec/Regulation.lean are transcribed from the text of the regulation.
-/

namespace Tacho
open Spec Spec.Regulation

/-- C52: what an accepted coded byte is called in the API, for every byte: exactly the name of its meaning
in the value assignment of the regulation, and nothing for a byte that is reserved or manufacturer
specific. -/
def Spec.Regulation.Follows (t : EnumTable) (names : EnumNames) (D : Dictionary) : Prop :=
  ∀ b : UInt8, (∀ v, unmarshalEnum t b = .ok v → enumName names v = D.nameOf b ∧ D.nameOf b ≠ none) ∧
    (D.nameOf b ≠ none → ∃ v, unmarshalEnum t b = .ok v)

/-- The same, as an equation that can be evaluated. -/
def followsCheck (t : EnumTable) (names : EnumNames) (D : Dictionary) (b : UInt8) : Bool :=
  match unmarshalEnum t b, D.nameOf b with
  | .ok v, some n => enumName names v == some n
  | .ok _, none => false
  | _, some _ => false
  | _, none => true

theorem follows_of_check {t : EnumTable} {names : EnumNames} {D : Dictionary}
    (h : ∀ b : UInt8, followsCheck t names D b = true) : Follows t names D := by
  intro b
  have hb := h b
  unfold followsCheck at hb
  constructor
  · intro v hv
    rw [hv] at hb
    cases hd : D.nameOf b with
    | none => rw [hd] at hb; simp at hb
    | some n => rw [hd] at hb; simp only [beq_iff_eq] at hb; exact ⟨hb, by simp⟩
  · intro hn
    cases hu : unmarshalEnum t b with
    | ok v => exact ⟨v, rfl⟩
    | err e => rw [hu] at hb; cases hd : D.nameOf b with
      | none => exact absurd hd hn
      | some n => rw [hd] at hb; simp at hb
    | panic => rw [hu] at hb; cases hd : D.nameOf b with
      | none => exact absurd hd hn
      | some n => rw [hd] at hb; simp at hb

/-! ## C52: coded bytes are reported under the name the regulation gives them -/

theorem eventFaultType_regulation : Follows eventFaultTypeTable eventFaultTypeNames eventFault :=
  follows_of_check (forall_byte (by decide +kernel))

theorem equipmentType_regulation : Follows equipmentTypeTable equipmentTypeNames equipment :=
  follows_of_check (forall_byte (by decide +kernel))

theorem eventFaultRecordPurpose_regulation :
    Follows eventFaultRecordPurposeTable eventFaultRecordPurposeNames recordPurpose :=
  follows_of_check (forall_byte (by decide +kernel))

theorem calibrationPurpose_regulation : Follows calibrationPurposeTable calibrationPurposeNames calibration :=
  follows_of_check (forall_byte (by decide +kernel))

theorem cardSlotNumber_regulation : Follows cardSlotNumberTable cardSlotNumberNames cardSlot :=
  follows_of_check (forall_byte (by decide +kernel))

theorem companyActivityType_regulation : Follows companyActivityTypeTable companyActivityTypeNames companyActivity :=
  follows_of_check (forall_byte (by decide +kernel))

theorem driverActivityValue_regulation : Follows driverActivityValueTable driverActivityValueNames driverActivity :=
  follows_of_check (forall_byte (by decide +kernel))

theorem drivingStatus_regulation : Follows drivingStatusTable drivingStatusNames drivingStatus :=
  follows_of_check (forall_byte (by decide +kernel))

theorem loadType_regulation : Follows loadTypeTable loadTypeNames loadType :=
  follows_of_check (forall_byte (by decide +kernel))

theorem operationType_regulation : Follows operationTypeTable operationTypeNames operation :=
  follows_of_check (forall_byte (by decide +kernel))

theorem positionAuthenticationStatus_regulation :
    Follows positionAuthenticationStatusTable positionAuthenticationStatusNames positionAuth :=
  follows_of_check (forall_byte (by decide +kernel))

theorem slotCardType_regulation : Follows slotCardTypeTable slotCardTypeNames slotCard :=
  follows_of_check (forall_byte (by decide +kernel))

theorem specificConditionType_regulation :
    Follows specificConditionTypeTable specificConditionTypeNames specificCondition :=
  follows_of_check (forall_byte (by decide +kernel))

/-- The entry types of places, against the assignment the library documents. -/
theorem entryType_documented : Follows entryTypeDailyWorkPeriodTable entryTypeDailyWorkPeriodNames entryType :=
  follows_of_check (forall_byte (by decide +kernel))

/-- C52: the encoding reported with a text: the character set the regulation gives to its code page; 0 is reported as
the default, 255 as empty, and every other byte as not recognised. -/
theorem codePage_regulation [Charmap] (d : Bytes) (s : StringValue) (h : unmarshalStringValue d = .ok s) :
    ∃ cp t, d = cp :: t ∧ (∀ n, codePage.nameOf cp = some n → enumName encodingNames s.encoding = some n) ∧
      (codePage.nameOf cp = none → enumName encodingNames s.encoding =
        some (if cp = 0 then "ENCODING_DEFAULT" else if cp = 255 then "ENCODING_EMPTY" else "ENCODING_UNRECOGNIZED")) := by
  have hall := forall_byte (P := fun cp => ((match codePage.nameOf cp with
    | some n => enumName encodingNames (getEncodingFromCodePage cp) == some n
    | none => enumName encodingNames (getEncodingFromCodePage cp) ==
        some (if cp = 0 then "ENCODING_DEFAULT" else if cp = 255 then "ENCODING_EMPTY" else "ENCODING_UNRECOGNIZED"))) = true)
    (by decide +kernel)
  match d with
  | [] => cases h
  | [b] => cases h
  | cp :: b :: t =>
    have he : s.encoding = getEncodingFromCodePage cp := by
      rw [unmarshalStringValue_eq cp (b :: t) (by simp)] at h
      cases h; rfl
    have hc := hall cp
    refine ⟨cp, b :: t, rfl, fun n hn => ?_, fun hn => ?_⟩
    · rw [hn] at hc; rw [he]; simpa using hc
    · rw [hn] at hc; rw [he]; simpa using hc

/-- C52 (finding): the code the regulation gives to 'Rest of the World' is reported as "empty"; the name
`REST_OF_WORLD` is used for the byte FE and no other. -/
theorem rest_of_world :
    (∃ v, unmarshalEnum nationNumericTable restOfTheWorld = .ok v ∧ enumName nationNumericNames v = some "NATION_NUMERIC_EMPTY") ∧
    ∀ b v, unmarshalEnum nationNumericTable b = .ok v → (enumName nationNumericNames v = some "REST_OF_WORLD" ↔ b = 0xFE) := by
  refine ⟨⟨3, by decide, by decide +kernel⟩, ?_⟩
  have h := forall_byte (P := fun b => (match unmarshalEnum nationNumericTable b with
    | .ok v => decide (enumName nationNumericNames v = some "REST_OF_WORLD" ↔ b = 0xFE)
    | _ => true) = true) (by decide +kernel)
  intro b v hv
  have := h b
  simp only [hv, decide_eq_true_eq] at this
  exact this

/-- A field decoded with the unknown byte kept: a byte the regulation names is reported by that name, any
other as "unrecognized" together with the byte. -/
theorem coded_regulation {t : EnumTable} {names : EnumNames} {D : Dictionary} (hf : Follows t names D)
    (ht : t ∈ allEnumTables) {b : UInt8} {v : Int} {u : Option Int} (h : Coded t b v u) :
    (∀ n, D.nameOf b = some n → enumName names v = some n ∧ u = none) ∧
    (D.nameOf b = none → v = 1 ∧ u = some b.toNat) := by
  obtain ⟨h1, h2⟩ := hf b
  rcases h with ⟨hm, rfl⟩ | ⟨hn, rfl, rfl⟩
  · have hk : unmarshalEnum t b = .ok v := unmarshalEnum_of_mem (enumTables_ok t ht) hm
    obtain ⟨h3, h4⟩ := h1 v hk
    exact ⟨fun n hn => ⟨h3.trans hn, rfl⟩, fun hn => absurd hn h4⟩
  · have : D.nameOf b = none := by
      by_contra hc
      obtain ⟨v, hv⟩ := h2 hc
      exact hn v (unmarshalEnum_ok hv)
    exact ⟨fun n hn' => (by rw [this] at hn'; cases hn'), fun _ => ⟨rfl, rfl⟩⟩

example : Coded specificConditionTypeTable 3 5 none ∧ specificCondition.nameOf 3 = some "FERRY_TRAIN_CROSSING_BEGIN" ∧
    Coded specificConditionTypeTable 9 1 (some 9) ∧ specificCondition.nameOf 9 = none := by
  refine ⟨.inl ⟨by decide +kernel, rfl⟩, by decide +kernel, .inr ⟨fun w hw => ?_, rfl, by decide⟩, by decide +kernel⟩
  simp [specificConditionTypeTable] at hw

/-! ## C53: files are recognised and written under the regulation's identifiers -/

private theorem fid_table (P : Nat → Prop) (hin : ∀ fid ∈ efTable.map Prod.snd ++ (filesG1 ++ filesG2).map Prod.snd, P (fid % 65536))
    (hout : ∀ fid, mapFid fid = .unspecified → nameOfFid filesG1 fid = none → nameOfFid filesG2 fid = none → P fid) :
    ∀ fid, P fid := by
  intro fid
  by_cases h : fid ∈ (efTable.map Prod.snd ++ (filesG1 ++ filesG2).map Prod.snd).map (· % 65536)
  · obtain ⟨g, hg, rfl⟩ := List.mem_map.1 h
    exact hin g hg
  · have hbig : ∀ p ∈ efTable ++ [] , p.2 % 65536 ≠ fid := by
      intro p hp e
      apply h
      refine List.mem_map.2 ⟨p.2, List.mem_append_left _ (List.mem_map.2 ⟨p, by simpa using hp, rfl⟩), e⟩
    have hs1 : ∀ p ∈ filesG1 ++ filesG2, p.2 % 65536 = p.2 := by decide +kernel
    have hout' : ∀ p ∈ filesG1 ++ filesG2, p.2 ≠ fid := by
      intro p hp e
      apply h
      exact List.mem_map.2 ⟨p.2, List.mem_append_right _ (List.mem_map.2 ⟨p, hp, rfl⟩), (hs1 p hp).trans e⟩
    apply hout
    · unfold mapFid
      rw [show efTable.find? (fun p => p.2 % 65536 == fid) = none by
        rw [List.find?_eq_none]; intro p hp; simpa using hbig p (by simpa using hp)]
    · unfold nameOfFid
      rw [show filesG1.find? (fun p => p.2 == fid) = none by
        rw [List.find?_eq_none]; intro p hp; simpa using hout' p (List.mem_append_left _ hp)]
      rfl
    · unfold nameOfFid
      rw [show filesG2.find? (fun p => p.2 == fid) = none by
        rw [List.find?_eq_none]; intro p hp; simpa using hout' p (List.mem_append_right _ hp)]
      rfl

/-- For every file identifier: the name under which the code knows the file is the name in the generation 1
applications of the regulation, or if there is none, in the generation 2 applications; an identifier the
regulation does not have is not recognised. -/
theorem mapFid_regulation (fid : Nat) :
    fileName (mapFid fid) = (nameOfFid filesG1 fid).orElse (fun _ => nameOfFid filesG2 fid) ∧
    (nameOfFid filesG1 fid = none → nameOfFid filesG2 fid = none → fid ≠ 0x2F2F → fid ≠ 0x2F30 →
      mapFid fid = .unspecified) := by
  revert fid
  apply fid_table
  · decide +kernel
  · intro fid h1 h2 h3
    rw [h1, h2, h3]
    exact ⟨rfl, fun _ _ _ _ => rfl⟩

/-- The two generations use the same names for the same identifiers, except that C100 is `Card_Certificate`
in generation 1 and `CardMA_Certificate` in generation 2. -/
theorem generations_agree (fid : Nat) (n m : String) (h1 : nameOfFid filesG1 fid = some n)
    (h2 : nameOfFid filesG2 fid = some m) : n = m ∨ fid = 0xC100 := by
  have h : ∀ fid, (nameOfFid filesG1 fid).all (fun n => (nameOfFid filesG2 fid).all (fun m => n == m || fid == 0xC100)) = true := by
    apply fid_table
    · decide +kernel
    · intro fid _ h2 h3; rw [h2]; rfl
  have := h fid
  simp only [h1, h2, Option.all_some, Bool.or_eq_true, beq_iff_eq] at this
  exact this

/-- C53: every block of a card download is reported as the file the regulation gives its identifier to, its
content as data or signature and its generation by the appendix byte. Exception (finding): a generation 2
C100 block, `CardMA_Certificate` in the regulation, is reported as `Card_Certificate`. -/
theorem blocks_named (rs : List Tlv) (h : ∀ r ∈ rs, r.value.length ≤ 65530) :
    ∃ out, unmarshalRawCardFile (fileBytes rs) = .ok out ∧
      List.Forall₂ (fun r (o : RawRec) =>
        (o.contentType = .data ↔ isContents r) ∧
        (o.generation = .gen1 → ∀ n, nameOfFid filesG1 (blockFid r) = some n → fileName o.file = some n) ∧
        (o.generation = .gen2 → ∀ n, nameOfFid filesG2 (blockFid r) = some n →
          fileName o.file = some (if blockFid r = 0xC100 then "Card_Certificate" else n)) ∧
        (nameOfFid filesG1 (blockFid r) = none → nameOfFid filesG2 (blockFid r) = none → fileName o.file = none))
      rs out := by
  refine ⟨_, parse_fileBytes rs h, ?_⟩
  rw [List.forall₂_map_right_iff, List.forall₂_same]
  intro r _
  have hm := (mapFid_regulation (blockFid r)).1
  have hf : (Tlv.record r).file = mapFid (blockFid r) := rfl
  refine ⟨?_, ?_, ?_, ?_⟩
  · simp only [Tlv.record, isContents]
    split <;> simp <;> omega
  · intro _ n hn
    rw [hf, hm, hn]; rfl
  · intro _ n hn
    rw [hf, hm]
    cases h1 : nameOfFid filesG1 (blockFid r) with
    | none =>
      rw [if_neg (by rintro e; rw [e] at h1; revert h1; decide +kernel), hn]; rfl
    | some m =>
      rcases generations_agree _ _ _ h1 hn with rfl | e
      · split
        · rename_i e; rw [e] at h1; revert h1; simp only [show nameOfFid filesG1 0xC100 = some "Card_Certificate" by decide +kernel]
          intro h; simpa using h.symm
        · rfl
      · rw [if_pos e]
        rw [e, show nameOfFid filesG1 0xC100 = some "Card_Certificate" by decide +kernel] at h1
        simpa using h1.symm
  · intro h1 h2
    rw [hf, hm, h1, h2]; rfl

/-- C53: whatever file the writer writes, it writes it under an identifier the regulation gives to a file of
that name. -/
theorem written_fid (ef : EF) (n : String) (h : fileName ef = some n) : (n, fidOf ef) ∈ filesG1 ++ filesG2 := by
  revert n
  cases ef <;> decide +kernel


/-- The blocks of the file contents, by identifier. -/
private theorem dataFiles_blocks (rs : List Tlv) :
    dataFiles (rs.map Tlv.record) = (rs.filter (fun r => r.appendix.toNat % 2 = 0)).map (fun r => mapFid (blockFid r)) := by
  induction rs with
  | nil => rfl
  | cons r rs ih =>
    unfold dataFiles at ih ⊢
    simp only [List.map_cons, List.filter_cons]
    by_cases h : r.appendix.toNat % 2 = 0
    · rw [if_pos (by simp [Tlv.record, h]), if_pos (by simp [h]), List.map_cons, List.map_cons, ih]
      rfl
    · have hd : (Tlv.record r).contentType = .signature := by
        unfold Tlv.record
        dsimp only
        rw [if_pos (by omega)]
      rw [if_neg (by simp [hd]), if_neg (by simp [h]), ih]

private theorem mem_structure {L : List (String × Nat)} {t : CardType}
    (h : ∀ p ∈ L, mapFid p.2 ∈ structureOf t) {rs : List Tlv} (hrs : ∀ r ∈ rs, isContents r → blockFid r ∈ L.map Prod.snd) :
    ∀ f ∈ dataFiles (rs.map Tlv.record), f ∈ structureOf t := by
  intro f hf
  rw [dataFiles_blocks] at hf
  obtain ⟨r, hr, rfl⟩ := List.mem_map.1 hf
  obtain ⟨hr, hc⟩ := List.mem_filter.1 hr
  obtain ⟨p, hp, e⟩ := List.mem_map.1 (hrs r hr (by simpa [isContents] using hc))
  rw [← e]
  exact h p hp

private theorem mem_dataFiles {rs : List Tlv} {r : Tlv} (hr : r ∈ rs) (hc : isContents r) :
    mapFid (blockFid r) ∈ dataFiles (rs.map Tlv.record) := by
  rw [dataFiles_blocks]
  exact List.mem_map.2 ⟨r, List.mem_filter.2 ⟨hr, by simpa [isContents] using hc⟩, rfl⟩

/-- C53: a download that contains at least one file and only files of a regulation driver card is taken for
a driver card. -/
theorem driver_card_recognised (rs : List Tlv) (hl : ∀ r ∈ rs, r.value.length ≤ 65530)
    (hne : ∃ r ∈ rs, isContents r)
    (h : ∀ r ∈ rs, isContents r → blockFid r ∈ driverCard.map Prod.snd) :
    ∃ out, unmarshalRawCardFile (fileBytes rs) = .ok out ∧ inferFileType out = .driverCard := by
  refine ⟨_, parse_fileBytes rs hl, ?_⟩
  rw [infer_driver_iff]
  obtain ⟨r, hr, hc⟩ := hne
  exact ⟨List.ne_nil_of_mem (mem_dataFiles hr hc), mem_structure (by decide +kernel) h⟩

/-- C53: a download that contains only files of a regulation workshop card, one of them not on a driver
card, is taken for a workshop card. -/
theorem workshop_card_recognised (rs : List Tlv) (hl : ∀ r ∈ rs, r.value.length ≤ 65530)
    (hne : ∃ r ∈ rs, isContents r ∧ blockFid r ∉ driverCard.map Prod.snd)
    (h : ∀ r ∈ rs, isContents r → blockFid r ∈ workshopCard.map Prod.snd) :
    ∃ out, unmarshalRawCardFile (fileBytes rs) = .ok out ∧ inferFileType out = .workshopCard := by
  refine ⟨_, parse_fileBytes rs hl, ?_⟩
  rw [infer_first_match]
  obtain ⟨r, hr, hc, hn⟩ := hne
  have hm := mem_dataFiles hr hc
  have hno : ∀ fid ∈ workshopCard.map Prod.snd, fid ∉ driverCard.map Prod.snd →
    mapFid fid ∉ structureOf .unspecified ∧ mapFid fid ∉ structureOf .driverCard := by decide +kernel
  obtain ⟨n1, n2⟩ := hno _ (h r hr hc) hn
  have hw := mem_structure (t := .workshopCard) (by decide +kernel) h
  rw [if_neg, if_neg, if_pos]
  · simpa using hw
  · intro hh; exact n2 (by simpa using List.all_eq_true.1 hh _ hm)
  · intro hh; exact n1 (by simpa using List.all_eq_true.1 hh _ hm)

/-- C53: a download that contains only files of a regulation control card, among them the controller
activity data, is taken for a control card. -/
theorem control_card_recognised (rs : List Tlv) (hl : ∀ r ∈ rs, r.value.length ≤ 65530)
    (hne : ∃ r ∈ rs, isContents r ∧ blockFid r = 0x050C)
    (h : ∀ r ∈ rs, isContents r → blockFid r ∈ controlCard.map Prod.snd) :
    ∃ out, unmarshalRawCardFile (fileBytes rs) = .ok out ∧ inferFileType out = .controlCard := by
  refine ⟨_, parse_fileBytes rs hl, ?_⟩
  rw [infer_first_match]
  obtain ⟨r, hr, hc, hn⟩ := hne
  have hm := mem_dataFiles hr hc
  rw [hn] at hm
  have hw := mem_structure (t := .controlCard) (by decide +kernel) h
  rw [if_neg, if_neg, if_neg, if_pos]
  · simpa using hw
  · intro hh
    have : mapFid 0x050C ∈ structureOf .workshopCard := by simpa using List.all_eq_true.1 hh _ hm
    revert this; decide +kernel
  · intro hh
    have : mapFid 0x050C ∈ structureOf .driverCard := by simpa using List.all_eq_true.1 hh _ hm
    revert this; decide +kernel
  · intro hh
    have : mapFid 0x050C ∈ structureOf .unspecified := by simpa using List.all_eq_true.1 hh _ hm
    revert this; decide +kernel

/-- C53 (finding): a regulation company card is taken for a driver card, whatever it contains. -/
theorem company_card_mistaken (rs : List Tlv) (hl : ∀ r ∈ rs, r.value.length ≤ 65530)
    (hne : ∃ r ∈ rs, isContents r)
    (h : ∀ r ∈ rs, isContents r → blockFid r ∈ companyCard.map Prod.snd) :
    ∃ out, unmarshalRawCardFile (fileBytes rs) = .ok out ∧ inferFileType out = .driverCard := by
  refine ⟨_, parse_fileBytes rs hl, ?_⟩
  rw [infer_driver_iff]
  obtain ⟨r, hr, hc⟩ := hne
  exact ⟨List.ne_nil_of_mem (mem_dataFiles hr hc), mem_structure (by decide +kernel) h⟩

/-- Small downloads that meet the hypotheses: a file and its signature of a driver card; a calibration file; a
controller activity file; a company activity file. -/
example : let rs : List Tlv := [⟨0x05, 0x01, 0, [1, 2, 3]⟩, ⟨0x05, 0x01, 1, [4]⟩, ⟨0xC1, 0x00, 2, []⟩]
    (∀ r ∈ rs, r.value.length ≤ 65530) ∧ (∃ r ∈ rs, isContents r) ∧
      ∀ r ∈ rs, isContents r → blockFid r ∈ driverCard.map Prod.snd := by
  simp only [isContents]; decide +kernel

example : let rs : List Tlv := [⟨0x05, 0x20, 0, [1]⟩, ⟨0x05, 0x0A, 0, [1, 2, 3]⟩]
    (∀ r ∈ rs, r.value.length ≤ 65530) ∧ (∃ r ∈ rs, isContents r ∧ blockFid r ∉ driverCard.map Prod.snd) ∧
      ∀ r ∈ rs, isContents r → blockFid r ∈ workshopCard.map Prod.snd := by
  simp only [isContents]; decide +kernel

example : let rs : List Tlv := [⟨0x00, 0x02, 0, [1]⟩, ⟨0x05, 0x0C, 0, [1, 2, 3]⟩]
    (∀ r ∈ rs, r.value.length ≤ 65530) ∧ (∃ r ∈ rs, isContents r ∧ blockFid r = 0x050C) ∧
      ∀ r ∈ rs, isContents r → blockFid r ∈ controlCard.map Prod.snd := by
  simp only [isContents]; decide +kernel

example : let rs : List Tlv := [⟨0x05, 0x0D, 0, [1, 2, 3]⟩]
    (∀ r ∈ rs, r.value.length ≤ 65530) ∧ (∃ r ∈ rs, isContents r) ∧
      ∀ r ∈ rs, isContents r → blockFid r ∈ companyCard.map Prod.snd := by
  simp only [isContents]; decide +kernel

end Tacho
