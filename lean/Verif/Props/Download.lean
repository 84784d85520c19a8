import Verif.Spec.Download
import Verif.Props.Layouts
import Verif.Props.File
import Verif.Props.ActivityStraddle
import Verif.Props.EccCertificates
import Verif.Props.Anonymize
/-!
# C55: driver card downloads that conform to the regulation are read

`storedDownload`, `Part` and `Part.Conforms` are in Spec/Download.lean.
-/

namespace Tacho
open Spec Spec.Regulation

/-- C52: the clock stop mode. -/
theorem clockStop_regulation : Follows clockStopModeTable clockStopModeNames clockStop :=
  follows_of_check (forall_byte (by decide +kernel))

private theorem known_of_follows {t : EnumTable} {names : EnumNames} {D : Dictionary} (hf : Follows t names D)
    {b : UInt8} (h : D.nameOf b ≠ none) : Known t b := known_iff.2 ((hf b).2 h)

private theorem byteAt_of_take {d : Bytes} {i : Nat} {b : UInt8} {P : UInt8 → Prop}
    (h : (d.drop i).take 1 = [b]) (hp : P b) : ByteAt d i P := by
  refine ⟨b, ?_, hp⟩
  have := congrArg (fun l => l[0]?) h
  simpa [List.getElem?_take, List.getElem?_drop] using this

variable [Charmap]

/-! ## Each file -/

private theorem icc_conforms {d : Bytes} (h1 : cardIccIdentification.Fits d)
    (h2 : cardIccIdentification.HasCode "clockStop" clockStop d)
    (h3 : ∃ t, ((cardIccIdentification.get "cardExtendedSerialNumber" d).drop 6).take 1 = [t] ∧ equipment.nameOf t ≠ none) :
    ∃ m, unmarshalIcc d = .ok m := by
  rw [icc_accepts_iff]
  obtain ⟨b, hb, hk⟩ := h2
  obtain ⟨t, ht, hk'⟩ := h3
  simp [Layout.get, cardIccIdentification, List.drop_take, List.take_take, -List.drop_one] at hb ht
  refine ⟨by simp [Layout.Fits, cardIccIdentification, Layout.size] at h1; omega, ?_, ?_⟩
  · exact byteAt_of_take (i := 0) hb (known_of_follows clockStop_regulation hk)
  · exact byteAt_of_take ht (known_of_follows equipmentType_regulation hk')

private theorem appId_conforms {d : Bytes} (h1 : applicationIdentificationG1.Fits d)
    (h2 : applicationIdentificationG1.HasCode "typeOfTachographCardId" equipment d) : ∃ m, unmarshalAppId d = .ok m := by
  rw [appId_accepts_iff]
  obtain ⟨b, hb, hk⟩ := h2
  simp [Layout.get, applicationIdentificationG1] at hb
  exact ⟨by simpa [Layout.Fits, applicationIdentificationG1, Layout.size] using h1,
    byteAt_of_take (i := 0) hb (known_of_follows equipmentType_regulation hk)⟩

private theorem appIdG2_conforms {d : Bytes} (h1 : applicationIdentificationG2.Fits d)
    (h2 : applicationIdentificationG2.HasCode "typeOfTachographCardId" equipment d) :
    ∃ m, unmarshalAppIdG2 d = .ok m := by
  rw [appIdG2_accepts_iff]
  obtain ⟨b, hb, hk⟩ := h2
  simp [Layout.get, applicationIdentificationG2] at hb
  exact ⟨by simpa [Layout.Fits, applicationIdentificationG2, Layout.size] using h1,
    byteAt_of_take (i := 0) hb (known_of_follows equipmentType_regulation hk)⟩

private theorem events_conforms {d : Bytes} (h : EventFile d) : ∃ m, unmarshalEventsData d = .ok m := by
  obtain ⟨rs, rfl, h⟩ := h
  have hl : ∀ r ∈ rs, r.length = 24 := fun r hr => by simpa [Layout.Fits, eventRecord, Layout.size] using (h r hr).1
  rw [events_accepts_iff, ← forall_cut_iff (by omega), List.drop_zero, cut_of_flatten (by omega) rs hl]
  intro r hr hne
  obtain ⟨b, hb, hk⟩ := (h r hr).2 (by
    simp [Layout.get, eventRecord, -List.drop_one]
    simpa [sl, List.drop_take, -List.drop_one] using hne)
  simp [Layout.get, eventRecord] at hb
  exact byteAt_of_take (i := 0) hb (known_of_follows eventFaultType_regulation hk)

private theorem decimal_bytes {r : Bytes} (hl : 31 ≤ r.length) (h : Decimal ((r.drop 29).take 2)) :
    ByteAt r 29 IsBcd ∧ ByteAt r 30 IsBcd := by
  have e : ∀ i : Nat, (hi : i < 2) → ((r.drop 29).take 2)[i]? = some (r[29 + i]'(by omega)) := by
    intro i hi
    rw [List.getElem?_take_of_lt hi, List.getElem?_drop, List.getElem?_eq_getElem]
  exact ⟨⟨r[29], by simp, h _ (List.mem_of_getElem? (e 0 (by omega)))⟩,
    ⟨r[30], by simp, h _ (List.mem_of_getElem? (e 1 (by omega)))⟩⟩

private theorem vehicles_conforms {d : Bytes} (h : VehiclesFile vehiclesUsedG1 d) :
    ∃ m, unmarshalVehiclesUsed d = .ok m := by
  obtain ⟨ptr, rs, rfl, hp, h⟩ := h
  have hp : ptr.length = 2 := hp
  have hl : ∀ r ∈ rs, r.length = 31 := fun r hr => by simpa [vehiclesUsedG1, vehicleRecordG1, Layout.size] using (h r hr).1
  rw [vehiclesUsed_accepts_iff, ← forall_cut_iff (by omega), List.drop_left' hp, cut_of_flatten (by omega) rs hl]
  refine ⟨by simp; omega, fun r hr => decimal_bytes (by rw [hl r hr]; omega) ?_⟩
  have := (h r hr).2
  simpa [Layout.get, vehiclesUsedG1, vehicleRecordG1] using this

private theorem vehiclesG2_conforms {d : Bytes} (h : VehiclesFile vehiclesUsedG2 d) :
    ∃ m, unmarshalVehiclesUsedG2 d = .ok m := by
  obtain ⟨ptr, rs, rfl, hp, h⟩ := h
  have hp : ptr.length = 2 := hp
  have hl : ∀ r ∈ rs, r.length = 48 := fun r hr => by
    simpa [vehiclesUsedG2, vehicleRecordG2, vehicleRecordG1, Layout.size] using (h r hr).1
  rw [vehiclesUsedG2_accepts_iff, ← forall_cut_iff (by omega), List.drop_left' hp, cut_of_flatten (by omega) rs hl]
  refine ⟨by simp; omega, fun r hr => decimal_bytes (by rw [hl r hr]; omega) ?_⟩
  have := (h r hr).2
  simpa [Layout.get, vehiclesUsedG2, vehicleRecordG2, vehicleRecordG1] using this

omit [Charmap] in
private theorem cyclic_length {F : CyclicFile} {d : Bytes} (h : F.Fits d) :
    F.pointer ≤ d.length ∧ (d.length - F.pointer) % F.record.size = 0 := by
  obtain ⟨ptr, rs, rfl, hp, h⟩ := h
  have e : rs.flatten.length = rs.length * F.record.size := by
    clear hp
    induction rs with
    | nil => simp
    | cons r rs ih =>
      simp only [List.flatten_cons, List.length_append, List.length_cons]
      rw [ih (fun r hr => h r (List.mem_cons_of_mem _ hr)), h r (List.mem_cons_self ..), Nat.succ_mul, Nat.add_comm]
  constructor
  · simp [-List.length_flatten]; omega
  · rw [List.length_append, hp, e, Nat.add_sub_cancel_left, Nat.mul_mod_left]

omit [Charmap] in
/-- C55: an activity file within the limits of the code is read, and the days are those it stores, oldest
first; a fresh one has none. -/
theorem activity_conforms (d : Bytes) :
    (∀ ptrs b s days, d = ptrs ++ b → StoredDays ptrs b s days → WithinLimits b s days →
      ∃ m, unmarshalDriverActivityData d = .ok m ∧ List.Forall₂ DayOf days m.records) ∧
    (FreshActivity d → ∃ m, unmarshalDriverActivityData d = .ok m ∧ m.records = []) := by
  constructor
  · rintro ptrs b s days rfl ⟨hp, hne, hw, hl, hlk, hn⟩ ⟨hmax, hns⟩
    have hsplit := List.dropLast_concat_getLast hne
    obtain ⟨out, ho, hd⟩ := activity_complete b s days.dropLast (days.getLast hne) (hsplit.symm ▸ hw)
      (hsplit.symm ▸ hl) (hsplit.symm ▸ hlk) (hsplit.symm ▸ hns) (hsplit.symm ▸ hmax)
    rw [hsplit] at hd
    have hdrop : (ptrs ++ b).drop 4 = b := List.drop_left' hp
    have hb : 0 < b.length := by
      have h1 := (linked_append (xs := days.dropLast) (ys := []) (y := days.getLast hne) (prev := 0)
        (hsplit.symm ▸ hlk)).1
      have h2 : (days.getLast hne).length ≤ days.flatten.length := by
        conv => rhs; rw [← hsplit]
        simp [-List.length_flatten]
      omega
    have hsl : sl (ptrs ++ b) 2 4 = ptrs.drop 2 := by
      unfold sl
      rw [List.take_left' hp]
    refine ⟨⟨_, _, _, out⟩, (driverActivity_decode _ _).2 ⟨by simp; omega, rfl, rfl, rfl, ?_⟩, hd⟩
    show parseActivityRecords ((ptrs ++ b).drop 4) ((beNat (sl (ptrs ++ b) 2 4) : Nat) : Int) = _
    rw [hdrop, hsl, hn]
    exact ho
  · rintro ⟨hl, hz⟩
    have hz' : ∀ n (x : Bytes), (∀ y ∈ x, y = 0) → x.length = n → beNat x = 0 := by
      intro n x hx _
      have : x = List.replicate x.length 0 := List.eq_replicate_iff.2 ⟨rfl, hx⟩
      rw [this]
      generalize x.length = k
      induction k with
      | zero => rfl
      | succ k ih => rw [List.replicate_succ']; simp [beNat] at *; omega
    refine ⟨⟨_, _, _, []⟩, (driverActivity_decode _ _).2 ⟨hl, rfl, rfl, rfl, ?_⟩, rfl⟩
    refine (activity_ok_iff _ _ []).2 ⟨[], _, by simp, Path.nil _, ?_, List.Forall₂.nil⟩
    right
    exact hz' _ _ (fun y hy => hz y (by
      simp only [sl] at hy
      exact List.mem_of_mem_drop (List.mem_of_mem_take (List.mem_of_mem_drop hy)))) rfl

private theorem activityReadable_conforms {d : Bytes} (h : ActivityReadable d) :
    ∃ m, unmarshalDriverActivityData d = .ok m := by
  rcases h with h | ⟨ptrs, b, s, days, e, h1, h2⟩
  · obtain ⟨m, hm, _⟩ := (activity_conforms d).2 h; exact ⟨m, hm⟩
  · obtain ⟨m, hm, _⟩ := (activity_conforms d).1 ptrs b s days e h1 h2; exact ⟨m, hm⟩

omit [Charmap] in
theorem ecc_conforms {d : Bytes} (h : EccFile d) : ∃ c, unmarshalEcc d = .ok c := by
  obtain ⟨h1, h2, f, full, h3⟩ := h
  exact ⟨⟨_, _, _, _, _, _, _, _, _, _⟩, (ecc_parse_iff d _).2 ⟨h1, h2, f, full, h3, rfl, decimal_spec _, rfl,
    ⟨_, oidString_spec _, rfl⟩, decimal_spec _, rfl, rfl, rfl, rfl, rfl⟩⟩

omit [Charmap] in
private theorem rsa_conforms {d : Bytes} (h : d.length = 194) : ∃ c, unmarshalRsa d = .ok c :=
  ⟨⟨_, _, _, _, _, _, _⟩, (rsa_parse_iff d _).2 ⟨d.take 186, d.drop 186, by simp, by simp; omega, by simp; omega,
    decimal_spec _, rfl⟩⟩

/-! ## The download -/

/-- The block of a part. -/
def Spec.Regulation.Part.block (p : Part) : Block :=
  ⟨(tlv p.fid (if p.g2 then 2 else 0) p.contents).record,
   p.signature.map fun s => (tlv p.fid (if p.g2 then 3 else 1) s).record⟩

omit [Charmap] in
private theorem fid_of {L : List (String × Nat)} {n m : String} {f : Nat} (k : Nat) (hm : (n, f) ∈ L) (hn : n = m)
    (hd : L.all (fun q => q.1 != m || q.2 == k) = true) : f = k := by
  have := List.all_eq_true.1 hd _ hm
  subst hn
  simpa using this

omit [Charmap] in
theorem block_gen (p : Part) : p.block.data.generation = if p.g2 then .gen2 else .gen1 := by
  unfold Part.block Tlv.record tlv
  cases p.g2 <;> rfl

omit [Charmap] in
theorem block_file (p : Part) : p.block.data.file =
    mapFid ((UInt8.ofNat (p.fid / 256)).toNat * 256 + (UInt8.ofNat (p.fid % 256)).toNat) := rfl

private theorem readable_g1 {p : Part} (hg : p.g2 = false) (hm : (p.name, p.fid) ∈ masterFile ++ driverCardG1)
    (hc : contentsG1 p.name p.contents) (hs : p.name ∈ unsignedFiles → p.signature = none) : p.block.Readable := by
  have hf := block_file p
  have hgen : p.block.data.generation = .gen1 := by rw [block_gen, hg]; rfl
  have hu : ∀ m, p.name = m → m ∈ unsignedFiles → p.block.sig = none := fun m e h => by
    simp [Part.block, hs (e ▸ h)]
  have both : ∀ {α β : Type} {u : Bytes → Res α} {v : Bytes → Res β}, (∃ m, u p.contents = .ok m) →
    p.block.ReadsByGen u v := fun h => .inl ⟨hgen, h⟩
  rcases hc with ⟨hn, h1, h2, h3⟩ | ⟨hn, h1⟩ | ⟨hn, h1, h2⟩ | ⟨hn | hn, h1⟩ | ⟨hn, h1⟩ | ⟨hn, h1⟩ | ⟨hn, h1⟩ |
    ⟨hn | hn, h1⟩ | ⟨hn, h1⟩ | ⟨hn, h1⟩ | ⟨hn, h1⟩ | ⟨hn, h1⟩ | ⟨hn, h1⟩ | ⟨hn, h1⟩
  · rw [fid_of 0x0002 hm hn (by decide +kernel)] at hf
    rw [Block.Readable, show p.block.data.file = .icc from hf.trans (by decide +kernel)]
    exact ⟨hu _ hn (by decide), icc_conforms h1 h2 h3⟩
  · rw [fid_of 0x0005 hm hn (by decide +kernel)] at hf
    rw [Block.Readable, show p.block.data.file = .ic from hf.trans (by decide +kernel)]
    exact ⟨hu _ hn (by decide), (ic_accepts_iff _).2 (Nat.le_of_eq h1.symm)⟩
  · rw [fid_of 0x0501 hm hn (by decide +kernel)] at hf
    rw [Block.Readable, show p.block.data.file = .applicationIdentification from hf.trans (by decide +kernel)]
    exact both (appId_conforms h1 h2)
  · rw [fid_of 0xC100 hm hn (by decide +kernel)] at hf
    rw [Block.Readable, show p.block.data.file = .cardCertificate from hf.trans (by decide +kernel)]
    exact ⟨hu _ hn (by decide), hgen, rsa_conforms h1⟩
  · rw [fid_of 0xC108 hm hn (by decide +kernel)] at hf
    rw [Block.Readable, show p.block.data.file = .caCertificate from hf.trans (by decide +kernel)]
    exact ⟨hu _ hn (by decide), both (rsa_conforms h1)⟩
  · rw [fid_of 0x0520 hm hn (by decide +kernel)] at hf
    rw [Block.Readable, show p.block.data.file = .identification from hf.trans (by decide +kernel)]
    exact both ((identification_accepts_iff _).2 (Nat.le_of_eq h1.symm))
  · rw [fid_of 0x050E hm hn (by decide +kernel)] at hf
    rw [Block.Readable, show p.block.data.file = .cardDownloadDriver from hf.trans (by decide +kernel)]
    exact ⟨hu _ hn (by decide), both ((cardDownload_accepts_iff _).2 (Nat.le_of_eq h1.symm))⟩
  · rw [fid_of 0x0521 hm hn (by decide +kernel)] at hf
    rw [Block.Readable, show p.block.data.file = .drivingLicenceInfo from hf.trans (by decide +kernel)]
    exact both ((drivingLicence_accepts_iff _).2 (Nat.le_of_eq h1.symm))
  · rw [fid_of 0x0502 hm hn (by decide +kernel)] at hf
    rw [Block.Readable, show p.block.data.file = .eventsData from hf.trans (by decide +kernel)]
    exact both (events_conforms h1)
  · rw [fid_of 0x0503 hm hn (by decide +kernel)] at hf
    rw [Block.Readable, show p.block.data.file = .faultsData from hf.trans (by decide +kernel)]
    exact both (events_conforms h1)
  · rw [fid_of 0x0504 hm hn (by decide +kernel)] at hf
    rw [Block.Readable, show p.block.data.file = .driverActivityData from hf.trans (by decide +kernel)]
    exact both (activityReadable_conforms h1)
  · rw [fid_of 0x0505 hm hn (by decide +kernel)] at hf
    rw [Block.Readable, show p.block.data.file = .vehiclesUsed from hf.trans (by decide +kernel)]
    exact both (vehicles_conforms h1)
  · rw [fid_of 0x0506 hm hn (by decide +kernel)] at hf
    rw [Block.Readable, show p.block.data.file = .places from hf.trans (by decide +kernel)]
    exact both ((places_accepts_iff _).2 (cyclic_length h1).1)
  · rw [fid_of 0x0507 hm hn (by decide +kernel)] at hf
    rw [Block.Readable, show p.block.data.file = .currentUsage from hf.trans (by decide +kernel)]
    exact both ((currentUsage_accepts_iff _).2 (Nat.le_of_eq h1.symm))
  · rw [fid_of 0x0508 hm hn (by decide +kernel)] at hf
    rw [Block.Readable, show p.block.data.file = .controlActivityData from hf.trans (by decide +kernel)]
    exact both ((controlActivity_accepts_iff _).2 (Nat.le_of_eq h1.symm))
  · rw [fid_of 0x0522 hm hn (by decide +kernel)] at hf
    rw [Block.Readable, show p.block.data.file = .specificConditions from hf.trans (by decide +kernel)]
    exact both (specificConditions_accepts _)

private theorem readable_g2 {p : Part} (hg : p.g2 = true) (hm : (p.name, p.fid) ∈ driverCardG2)
    (hc : contentsG2 p.name p.contents) (hs : p.name ∈ unsignedFiles → p.signature = none) : p.block.Readable := by
  have hf := block_file p
  have hgen : p.block.data.generation = .gen2 := by rw [block_gen, hg]; rfl
  have hu : ∀ m, p.name = m → m ∈ unsignedFiles → p.block.sig = none := fun m e h => by
    simp [Part.block, hs (e ▸ h)]
  have both : ∀ {α β : Type} {u : Bytes → Res α} {v : Bytes → Res β}, (∃ m, v p.contents = .ok m) →
    p.block.ReadsByGen u v := fun h => .inr ⟨hgen, h⟩
  rcases hc with ⟨hn, h1, h2⟩ | ⟨hn | hn | hn, h1⟩ | ⟨hn, h1⟩ | ⟨hn, h1⟩ | ⟨hn, h1⟩ | ⟨hn | hn, h1⟩ | ⟨hn, h1⟩ |
    ⟨hn, h1⟩ | ⟨hn, h1⟩ | ⟨hn, h1⟩ | ⟨hn, h1⟩ | ⟨hn, h1⟩ | ⟨hn, h1⟩ | ⟨hn, h1⟩ | ⟨hn, h1⟩ |
    (hn | hn | hn | hn | hn | hn)
  · rw [fid_of 0x0501 hm hn (by decide +kernel)] at hf
    rw [Block.Readable, show p.block.data.file = .applicationIdentification from hf.trans (by decide +kernel)]
    exact both (appIdG2_conforms h1 h2)
  · rw [fid_of 0xC101 hm hn (by decide +kernel)] at hf
    rw [Block.Readable, show p.block.data.file = .cardSignCertificate from hf.trans (by decide +kernel)]
    exact ⟨hu _ hn (by decide), hgen, ecc_conforms h1⟩
  · rw [fid_of 0xC108 hm hn (by decide +kernel)] at hf
    rw [Block.Readable, show p.block.data.file = .caCertificate from hf.trans (by decide +kernel)]
    exact ⟨hu _ hn (by decide), both (ecc_conforms h1)⟩
  · rw [fid_of 0xC109 hm hn (by decide +kernel)] at hf
    rw [Block.Readable, show p.block.data.file = .linkCertificate from hf.trans (by decide +kernel)]
    exact ⟨hu _ hn (by decide), hgen, ecc_conforms h1⟩
  · rw [fid_of 0x0520 hm hn (by decide +kernel)] at hf
    rw [Block.Readable, show p.block.data.file = .identification from hf.trans (by decide +kernel)]
    exact both ((identification_accepts_iff _).2 (Nat.le_of_eq h1.symm))
  · rw [fid_of 0x050E hm hn (by decide +kernel)] at hf
    rw [Block.Readable, show p.block.data.file = .cardDownloadDriver from hf.trans (by decide +kernel)]
    exact ⟨hu _ hn (by decide), both ((cardDownload_accepts_iff _).2 (Nat.le_of_eq h1.symm))⟩
  · rw [fid_of 0x0521 hm hn (by decide +kernel)] at hf
    rw [Block.Readable, show p.block.data.file = .drivingLicenceInfo from hf.trans (by decide +kernel)]
    exact both ((drivingLicence_accepts_iff _).2 (Nat.le_of_eq h1.symm))
  · rw [fid_of 0x0502 hm hn (by decide +kernel)] at hf
    rw [Block.Readable, show p.block.data.file = .eventsData from hf.trans (by decide +kernel)]
    exact both (events_conforms h1)
  · rw [fid_of 0x0503 hm hn (by decide +kernel)] at hf
    rw [Block.Readable, show p.block.data.file = .faultsData from hf.trans (by decide +kernel)]
    exact both (events_conforms h1)
  · rw [fid_of 0x0504 hm hn (by decide +kernel)] at hf
    rw [Block.Readable, show p.block.data.file = .driverActivityData from hf.trans (by decide +kernel)]
    exact both (activityReadable_conforms h1)
  · rw [fid_of 0x0505 hm hn (by decide +kernel)] at hf
    rw [Block.Readable, show p.block.data.file = .vehiclesUsed from hf.trans (by decide +kernel)]
    exact both (vehiclesG2_conforms h1)
  · rw [fid_of 0x0506 hm hn (by decide +kernel)] at hf
    rw [Block.Readable, show p.block.data.file = .places from hf.trans (by decide +kernel)]
    exact both ((placesG2_accepts_iff _).2 (cyclic_length h1).1)
  · rw [fid_of 0x0507 hm hn (by decide +kernel)] at hf
    rw [Block.Readable, show p.block.data.file = .currentUsage from hf.trans (by decide +kernel)]
    exact both ((currentUsage_accepts_iff _).2 (Nat.le_of_eq h1.symm))
  · rw [fid_of 0x0508 hm hn (by decide +kernel)] at hf
    rw [Block.Readable, show p.block.data.file = .controlActivityData from hf.trans (by decide +kernel)]
    exact both ((controlActivity_accepts_iff _).2 (Nat.le_of_eq h1.symm))
  · rw [fid_of 0x0522 hm hn (by decide +kernel)] at hf
    rw [Block.Readable, show p.block.data.file = .specificConditions from hf.trans (by decide +kernel)]
    exact both ((specificConditionsG2_accepts_iff _).2 (cyclic_length h1).1)
  · rw [fid_of 0x0523 hm hn (by decide +kernel)] at hf
    rw [Block.Readable, show p.block.data.file = .vehicleUnitsUsed from hf.trans (by decide +kernel)]
    exact (vehicleUnits_accepts_iff _).2 (cyclic_length h1)
  · rw [fid_of 0x0524 hm hn (by decide +kernel)] at hf
    rw [Block.Readable, show p.block.data.file = .gnssPlaces from hf.trans (by decide +kernel)]
    exact (gnssPlaces_accepts_iff _).2 (cyclic_length h1)
  · rw [fid_of 0x0525 hm hn (by decide +kernel)] at hf
    rw [Block.Readable, show p.block.data.file = .applicationIdentificationV2 from hf.trans (by decide +kernel)]
    have h10 : p.contents.length = 10 := h1
    exact (appIdV2_accepts_iff _).2 (show 4 ≤ p.contents.length by omega)
  · rw [fid_of 0x0526 hm hn (by decide +kernel)] at hf
    rw [Block.Readable, show p.block.data.file = .placesAuthentication from hf.trans (by decide +kernel)]; trivial
  · rw [fid_of 0x0527 hm hn (by decide +kernel)] at hf
    rw [Block.Readable, show p.block.data.file = .gnssPlacesAuthentication from hf.trans (by decide +kernel)]; trivial
  · rw [fid_of 0x0528 hm hn (by decide +kernel)] at hf
    rw [Block.Readable, show p.block.data.file = .borderCrossings from hf.trans (by decide +kernel)]; trivial
  · rw [fid_of 0x0529 hm hn (by decide +kernel)] at hf
    rw [Block.Readable, show p.block.data.file = .loadUnloadOperations from hf.trans (by decide +kernel)]; trivial
  · rw [fid_of 0x0530 hm hn (by decide +kernel)] at hf
    rw [Block.Readable, show p.block.data.file = .loadTypeEntries from hf.trans (by decide +kernel)]; trivial
  · rw [fid_of 0x0540 hm hn (by decide +kernel)] at hf
    rw [Block.Readable, show p.block.data.file = .vuConfiguration from hf.trans (by decide +kernel)]; trivial

omit [Charmap] in
private theorem block_good (p : Part) : p.block.Good := by
  constructor
  · show (if (if p.g2 = true then (2 : UInt8) else 0).toNat % 2 = 1 then ContentType.signature else .data) = .data
    cases p.g2 <;> decide
  · intro s hs
    simp only [Part.block, Option.map_eq_some_iff] at hs
    obtain ⟨v, _, rfl⟩ := hs
    constructor
    · show (if (if p.g2 = true then (3 : UInt8) else 1).toNat % 2 = 1 then ContentType.signature else .data) = .signature
      cases p.g2 <;> decide
    · rfl

omit [Charmap] in
private theorem block_records (p : Part) : p.tlvs.map Tlv.record = p.block.records := by
  unfold Part.tlvs Part.block Block.records
  cases p.signature <;> simp

omit [Charmap] in
private theorem tlvs_bound {p : Part} (h : p.Conforms) : ∀ r ∈ p.tlvs, r.value.length ≤ 65530 := by
  intro r hr
  obtain ⟨_, _, _, h1, h2⟩ := h
  simp only [Part.tlvs, List.mem_cons, List.mem_map, Option.mem_toList] at hr
  rcases hr with rfl | ⟨s, hs, rfl⟩
  · exact h1
  · exact h2 s hs

omit [Charmap] in
private theorem tlvs_fid {p : Part} (h : p.Conforms) : ∀ r ∈ p.tlvs, blockFid r ∈ driverCard.map Prod.snd := by
  intro r hr
  have hm : (p.name, p.fid) ∈ driverCard := by
    have := h.1
    split at this <;> simp only [driverCard, List.mem_append] at this ⊢
    · exact .inr this
    · exact .inl this
  have hb : p.fid < 65536 := by
    have : driverCard.all (fun q => decide (q.2 < 65536)) = true := by decide +kernel
    simpa using List.all_eq_true.1 this _ hm
  have : blockFid r = p.fid := by
    simp only [Part.tlvs, List.mem_cons, List.mem_map] at hr
    have e : (UInt8.ofNat (p.fid / 256)).toNat * 256 + (UInt8.ofNat (p.fid % 256)).toNat = p.fid := by
      simp only [UInt8.toNat_ofNat']
      omega
    rcases hr with rfl | ⟨s, _, rfl⟩ <;> exact e
  rw [this]
  exact List.mem_map.2 ⟨_, hm, rfl⟩

/-- C55: a download that starts with the file ICC and all of whose files conform to the regulation is accepted
as a driver card, and every file of it is in the card message: `cardOf` puts into every place what the newest
file that belongs there says, with its signature. -/
theorem conformant_download_read (p : Part) (ps : List Part) (hicc : p.name = "ICC") (hg : p.g2 = false)
    (h : ∀ q ∈ p :: ps, q.Conforms) :
    unmarshalFile (storedDownload (p :: ps)) =
      .ok { type := .driverCard, driverCard := some (cardOf ((p :: ps).map Part.block)) } := by
  have hlen : ∀ r ∈ (p :: ps).flatMap Part.tlvs, r.value.length ≤ 65530 := by
    intro r hr
    obtain ⟨q, hq, hr⟩ := List.mem_flatMap.1 hr
    exact tlvs_bound (h q hq) r hr
  have hfids : ∀ r ∈ (p :: ps).flatMap Part.tlvs, blockFid r ∈ driverCard.map Prod.snd := by
    intro r hr
    obtain ⟨q, hq, hr⟩ := List.mem_flatMap.1 hr
    exact tlvs_fid (h q hq) r hr
  have hraw := parse_fileBytes _ hlen
  obtain ⟨out, ho, ht⟩ := driver_card_recognised _ hlen
    ⟨tlv p.fid 0 p.contents, by simp [Part.tlvs, hg], by simp [isContents, tlv]⟩ (fun r hr _ => hfids r hr)
  have e : out = ((p :: ps).flatMap Part.tlvs).map Tlv.record := Res.ok.inj (ho.symm.trans hraw)
  rw [e] at ht
  have hrec : ((p :: ps).flatMap Part.tlvs).map Tlv.record = ((p :: ps).map Part.block).flatMap Block.records := by
    rw [List.map_flatMap, List.flatMap_map]
    exact List.flatMap_congr fun q _ => block_records q
  have hcard : unmarshalDriverCard (((p :: ps).flatMap Part.tlvs).map Tlv.record) = .ok (cardOf ((p :: ps).map Part.block)) := by
    rw [hrec]
    refine (driver_card_iff _ _).2 ⟨_, rfl, ?_, rfl⟩
    intro b hb
    obtain ⟨q, hq, rfl⟩ := List.mem_map.1 hb
    refine ⟨block_good q, ?_⟩
    obtain ⟨h1, h2, h3, _⟩ := h q hq
    by_cases hq2 : q.g2 = true
    · rw [if_pos hq2] at h1 h2; exact readable_g2 hq2 h1 h2 h3
    · rw [if_neg hq2] at h1 h2; exact readable_g1 (by simpa using hq2) h1 h2 h3
  refine (file_iff _ _).2 (.inr ?_)
  have hfid : p.fid = 2 := by
    have := (h p (List.mem_cons_self ..)).1
    rw [hg] at this
    exact fid_of 0x0002 this hicc (by decide +kernel)
  have hstart : ∃ rest, storedDownload (p :: ps) = 0x00 :: 0x02 :: rest := by
    unfold storedDownload fileBytes
    simp only [List.flatMap_cons, Part.tlvs, List.cons_append, Tlv.bytes, tlv, hfid]
    exact ⟨_, rfl⟩
  obtain ⟨rest, hr⟩ := hstart
  exact ⟨rest, _, hr, hraw, .inl ⟨ht, _, hcard, rfl⟩⟩

omit [Charmap] in
private theorem newest_split {pre post : List Part} {q : Part} {here : Block → Bool} (h : here q.block = true)
    (hpost : ∀ x ∈ post, here x.block = false) : newest ((pre ++ q :: post).map Part.block) here = some q.block := by
  unfold newest
  rw [List.map_append, List.map_cons, List.filter_append, List.filter_cons_of_pos h]
  have : (post.map Part.block).filter here = [] := by
    rw [List.filter_eq_nil_iff]
    intro b hb
    obtain ⟨x, hx, rfl⟩ := List.mem_map.1 hb
    simp [hpost x hx]
  rw [this]
  simp

omit [Charmap] in
private theorem activity_here (p : Part) (h : p.Conforms) :
    (file .driverActivityData p.block = true ↔ p.name = "Driver_Activity_Data") := by
  have hm : (p.name, p.fid) ∈ driverCard := by
    have := h.1
    split at this <;> simp only [driverCard, List.mem_append] at this ⊢
    · exact .inr this
    · exact .inl this
  have ht : driverCard.all (fun q => (mapFid ((UInt8.ofNat (q.2 / 256)).toNat * 256 + (UInt8.ofNat (q.2 % 256)).toNat)
      == .driverActivityData) == (q.1 == "Driver_Activity_Data")) = true := by decide +kernel
  have := List.all_eq_true.1 ht _ hm
  simp only [beq_iff_eq] at this
  unfold file
  rw [block_file, this]
  simp

/-- C55: in a download as above, the days reported for an application are the days its activity file stores,
oldest first, with the signature of that file (if the file is in the download more than once, the last one). -/
theorem conformant_activity_read (p q : Part) (pre post : List Part) (hicc : p.name = "ICC") (hg : p.g2 = false)
    (h : ∀ x ∈ p :: (pre ++ q :: post), x.Conforms) (hq : q.name = "Driver_Activity_Data")
    (hlast : ∀ x ∈ post, x.name = "Driver_Activity_Data" → x.g2 ≠ q.g2)
    (ptrs b : Bytes) (s : Nat) (days : List Bytes) (hc : q.contents = ptrs ++ b) (hst : StoredDays ptrs b s days)
    (hlim : WithinLimits b s days) :
    ∃ card a, unmarshalFile (storedDownload (p :: (pre ++ q :: post))) = .ok { type := .driverCard, driverCard := some card } ∧
      (if q.g2 then card.tachographG2.bind (·.driverActivityData) else card.tachograph.bind (·.driverActivityData)) =
        some ⟨a, q.signature⟩ ∧
      List.Forall₂ DayOf days a.records := by
  obtain ⟨a, ha, hd⟩ := (activity_conforms q.contents).1 ptrs b s days hc hst hlim
  refine ⟨_, a, conformant_download_read p _ hicc hg h, ?_, hd⟩
  have hgen : ∀ x ∈ post, fileGen .driverActivityData (if q.g2 then .gen2 else .gen1) x.block = false := by
    intro x hx
    by_cases hn : x.name = "Driver_Activity_Data"
    · have := hlast x hx hn
      unfold fileGen
      rw [block_gen]
      cases hx2 : x.g2 <;> cases hq2 : q.g2 <;> simp_all
    · have hne := (activity_here x (h x (by simp [hx]))).not.2 hn
      unfold fileGen
      unfold file at hne
      simp [hne]
  have hhere : fileGen .driverActivityData (if q.g2 then .gen2 else .gen1) q.block = true := by
    have hf := (activity_here q (h q (by simp))).2 hq
    unfold fileGen
    unfold file at hf
    rw [hf, block_gen]
    simp
  have hnew := newest_split (pre := p :: pre) hhere hgen
  have hrs : q.block.readSigned unmarshalDriverActivityData = some ⟨a, q.signature⟩ := by
    unfold Block.readSigned Block.read
    have : q.block.data.value = q.contents := rfl
    rw [this, ha]
    unfold Part.block
    cases q.signature <;> rfl
  have hin : (((p :: pre) ++ q :: post).map Part.block).any (if q.g2 then inGen2 else inGen1) = true := by
    rw [List.any_eq_true]
    refine ⟨q.block, List.mem_map.2 ⟨q, by simp, rfl⟩, ?_⟩
    cases hq2 : q.g2
    · rw [hq2] at hhere
      exact fileGen_in1 (by decide) _ hhere
    · rw [hq2] at hhere
      exact fileGen_in2 (by decide) _ hhere
  cases hq2 : q.g2
  · rw [hq2] at hin hnew
    simp only [if_false, Bool.false_eq_true] at hin hnew ⊢
    show (if _ = true then some (gen1Of _) else none).bind _ = _
    rw [if_pos (show (List.map Part.block (p :: (pre ++ q :: post))).any _ = true from hin)]
    show (newest _ (fileGen .driverActivityData .gen1)).bind _ = _
    rw [show newest (List.map Part.block (p :: (pre ++ q :: post))) (fileGen .driverActivityData .gen1) = some q.block from hnew]
    exact hrs
  · rw [hq2] at hin hnew
    simp only [if_true] at hin hnew ⊢
    show (if _ = true then some (gen2Of _) else none).bind _ = _
    rw [if_pos (show (List.map Part.block (p :: (pre ++ q :: post))).any _ = true from hin)]
    show (newest _ (fileGen .driverActivityData .gen2)).bind _ = _
    rw [show newest (List.map Part.block (p :: (pre ++ q :: post))) (fileGen .driverActivityData .gen2) = some q.block from hnew]
    exact hrs

/-! ## What conforms and is refused -/

/-- C55, finding: downloading ICC is optional in the regulation (DDP_035), but a download that starts with any
other file is refused. -/
theorem download_without_icc_refused (p : Part) (ps : List Part) (h : p.Conforms) (hicc : p.name ≠ "ICC") :
    ∃ e, unmarshalFile (storedDownload (p :: ps)) = .err e := by
  have hm : (p.name, p.fid) ∈ driverCard := by
    have := h.1
    split at this <;> simp only [driverCard, List.mem_append] at this ⊢
    · exact .inr this
    · exact .inl this
  have ht : driverCard.all (fun q => q.1 == "ICC" || !(UInt8.ofNat (q.2 / 256) == 0x76) &&
      !(UInt8.ofNat (q.2 / 256) == 0 && UInt8.ofNat (q.2 % 256) == 2)) = true := by decide +kernel
  have := List.all_eq_true.1 ht _ hm
  simp only [Bool.or_eq_true, beq_iff_eq, hicc, false_or, Bool.and_eq_true, Bool.not_eq_true',
    beq_eq_false_iff_ne, Bool.and_eq_false_iff] at this
  have hs : ∃ rest, storedDownload (p :: ps) = UInt8.ofNat (p.fid / 256) :: UInt8.ofNat (p.fid % 256) :: rest := by
    unfold storedDownload fileBytes
    simp only [List.flatMap_cons, Part.tlvs, List.cons_append, Tlv.bytes, tlv]
    exact ⟨_, rfl⟩
  obtain ⟨rest, hs⟩ := hs
  rw [hs]
  refine file_refused _ (fun r hr => ?_) (fun r hr => ?_)
  · simp only [List.cons.injEq] at hr
    exact absurd hr.1 this.1
  · simp only [List.cons.injEq] at hr
    rcases this.2 with h1 | h1
    · exact h1 hr.1
    · exact h1 hr.2.1

/-- C55, finding: the regulation leaves the event types 80 to FF to manufacturers (DD line 1710 on). One such
event on the card, in a record in use, and the whole download is refused. -/
theorem manufacturer_event_refused (p q : Part) (pre post : List Part) (hicc : p.name = "ICC") (hg : p.g2 = false)
    (hp : p.Conforms) (h : ∀ x ∈ pre ++ post, x.Conforms)
    (hq : q.fid = 0x0502 ∨ q.fid = 0x0503) (hl : q.contents.length ≤ 65530)
    (hsl : ∀ s, q.signature = some s → s.length ≤ 65530)
    (rs : List Bytes) (hc : q.contents = rs.flatten) (hrs : ∀ r ∈ rs, eventRecord.Fits r)
    (r : Bytes) (hr : r ∈ rs) (hused : beNat (eventRecord.get "eventBeginTime" r) ≠ 0)
    (b : UInt8) (hb : eventRecord.get "eventType" r = [b]) (hman : 0x80 ≤ b.toNat) :
    ∃ e, unmarshalFile (storedDownload (p :: (pre ++ q :: post))) = .err e := by
  have hall : ∀ x ∈ p :: (pre ++ q :: post), x = q ∨ x.Conforms := by
    intro x hx
    simp only [List.mem_cons, List.mem_append] at hx
    rcases hx with rfl | hx | rfl | hx
    · exact .inr hp
    · exact .inr (h x (by simp [hx]))
    · exact .inl rfl
    · exact .inr (h x (by simp [hx]))
  have hqb : ∀ t ∈ q.tlvs, t.value.length ≤ 65530 := by
    intro t ht
    simp only [Part.tlvs, List.mem_cons, List.mem_map, Option.mem_toList] at ht
    rcases ht with rfl | ⟨s, hs, rfl⟩
    · exact hl
    · exact hsl s hs
  have hqf : ∀ t ∈ q.tlvs, blockFid t ∈ driverCard.map Prod.snd := by
    intro t ht
    simp only [Part.tlvs, List.mem_cons, List.mem_map] at ht
    have e : blockFid t = q.fid := by
      rcases ht with rfl | ⟨s, _, rfl⟩ <;> rcases hq with hq | hq <;> simp only [blockFid, tlv, hq] <;> decide
    rw [e]
    rcases hq with hq | hq <;> rw [hq] <;> decide +kernel
  have hlen : ∀ t ∈ (p :: (pre ++ q :: post)).flatMap Part.tlvs, t.value.length ≤ 65530 := by
    intro t ht
    obtain ⟨x, hx, ht'⟩ := List.mem_flatMap.1 ht
    rcases hall x hx with rfl | hx
    · exact hqb t ht'
    · exact tlvs_bound hx t ht'
  have hfids : ∀ t ∈ (p :: (pre ++ q :: post)).flatMap Part.tlvs, blockFid t ∈ driverCard.map Prod.snd := by
    intro t ht
    obtain ⟨x, hx, ht'⟩ := List.mem_flatMap.1 ht
    rcases hall x hx with rfl | hx
    · exact hqf t ht'
    · exact tlvs_fid hx t ht'
  have hraw := parse_fileBytes _ hlen
  obtain ⟨out, ho, ht⟩ := driver_card_recognised _ hlen
    ⟨tlv p.fid 0 p.contents, by simp [Part.tlvs, hg], by simp [isContents, tlv]⟩ (fun t ht _ => hfids t ht)
  have e : out = ((p :: (pre ++ q :: post)).flatMap Part.tlvs).map Tlv.record := Res.ok.inj (ho.symm.trans hraw)
  rw [e] at ht
  have hrec : ((p :: (pre ++ q :: post)).flatMap Part.tlvs).map Tlv.record =
      ((p :: (pre ++ q :: post)).map Part.block).flatMap Block.records := by
    rw [List.map_flatMap, List.flatMap_map]
    exact List.flatMap_congr fun q _ => block_records q
  have hunread : ¬ q.block.Readable := by
    have hf : q.block.data.file = .eventsData ∨ q.block.data.file = .faultsData := by
      rw [block_file]
      rcases hq with hq | hq <;> rw [hq]
      · exact .inl (by decide +kernel)
      · exact .inr (by decide +kernel)
    intro hrd
    have hrd : ∃ m, unmarshalEventsData q.contents = .ok m := by
      have hrd' : q.block.ReadsByGen unmarshalEventsData unmarshalEventsData := by
        rcases hf with hf | hf <;> rwa [Block.Readable, hf] at hrd
      rcases hrd' with ⟨_, h⟩ | ⟨_, h⟩ <;> exact h
    have hls : ∀ r ∈ rs, r.length = 24 := fun r hr => by simpa [Layout.Fits, eventRecord, Layout.size] using hrs r hr
    rw [events_accepts_iff, ← forall_cut_iff (by omega), List.drop_zero, hc, cut_of_flatten (by omega) rs hls] at hrd
    have hk := hrd r hr (by
      simp [Layout.get, eventRecord, -List.drop_one] at hused
      simpa [sl, List.drop_take, -List.drop_one] using hused)
    simp [Layout.get, eventRecord] at hb
    obtain ⟨b', hb', hk⟩ := hk
    have hbb : b' = b := by
      have : r[0]? = some b := by
        have := congrArg (fun l => l[0]?) hb
        simpa [List.getElem?_take] using this
      rw [this] at hb'
      exact (Option.some.inj hb').symm
    subst hbb
    have hnone : ∀ b : UInt8, 0x80 ≤ b.toNat → ∀ v, unmarshalEnum eventFaultTypeTable b ≠ .ok v := by
      intro b hb v hv
      have : ∀ b : UInt8, (decide (0x80 ≤ b.toNat) && (match unmarshalEnum eventFaultTypeTable b with | .ok _ => true | _ => false)) = false :=
        forall_byte (by decide +kernel)
      have := this b
      rw [hv] at this
      simp [hb] at this
    obtain ⟨v, hv⟩ := known_iff.1 hk
    exact hnone _ hman v hv
  have hnocard : ∀ c, unmarshalDriverCard (((p :: (pre ++ q :: post)).flatMap Part.tlvs).map Tlv.record) ≠ .ok c := by
    intro c hcard
    obtain ⟨bs, hbs, hgood, _⟩ := (driver_card_iff _ _).1 hcard
    rw [hrec] at hbs
    have := blocks_unique _ bs (fun b hb => by
      obtain ⟨x, _, rfl⟩ := List.mem_map.1 hb; exact block_good x) (fun b hb => (hgood b hb).1) hbs
    subst this
    exact hunread (hgood q.block (List.mem_map.2 ⟨q, by simp, rfl⟩)).2
  have hnot : ∀ f, unmarshalFile (storedDownload (p :: (pre ++ q :: post))) ≠ .ok f := by
    intro f hf
    have hfid : p.fid = 2 := by
      have := hp.1
      rw [hg] at this
      exact fid_of 0x0002 this hicc (by decide +kernel)
    rcases (file_iff _ _).1 hf with ⟨rest, _, hd, _⟩ | ⟨rest, raw, _, hraw', h⟩
    · unfold storedDownload fileBytes at hd
      simp only [List.flatMap_cons, Part.tlvs, List.cons_append, Tlv.bytes, tlv, hfid, List.cons.injEq] at hd
      exact absurd hd.1 (by decide)
    · have hraw'' : unmarshalRawCardFile (fileBytes ((p :: (pre ++ q :: post)).flatMap Part.tlvs)) = .ok raw := hraw'
      rw [hraw] at hraw''
      obtain rfl := Res.ok.inj hraw''
      rcases h with ⟨_, c, hc, _⟩ | ⟨h, _⟩
      · exact hnocard c hc
      · exact h ht
  cases hres : unmarshalFile (storedDownload (p :: (pre ++ q :: post))) with
  | ok f => exact absurd hres (hnot f)
  | err e => exact ⟨e, rfl⟩
  | panic =>
    exfalso
    have hfid : p.fid = 2 := by
      have := hp.1
      rw [hg] at this
      exact fid_of 0x0002 this hicc (by decide +kernel)
    have hs : ∃ rest, storedDownload (p :: (pre ++ q :: post)) = 0x00 :: 0x02 :: rest := by
      unfold storedDownload fileBytes
      simp only [List.flatMap_cons, Part.tlvs, List.cons_append, Tlv.bytes, tlv, hfid]
      exact ⟨_, rfl⟩
    obtain ⟨rest, hs⟩ := hs
    have hr2 : unmarshalRawCardFile (0x00 :: 0x02 :: rest) =
        .ok (((p :: (pre ++ q :: post)).flatMap Part.tlvs).map Tlv.record) := by rw [← hs]; exact hraw
    rw [hs, unmarshalFile_cons, if_neg (by decide), if_pos ⟨rfl, rfl⟩, hr2, Res.bind_ok, if_pos ht] at hres
    cases hu : unmarshalDriverCard (((p :: (pre ++ q :: post)).flatMap Part.tlvs).map Tlv.record) with
    | ok c => exact hnocard c hu
    | err m => rw [hu] at hres; simp at hres
    | panic => exact driver_card_total _ hu

/-! Non-vacuity: a download with the chip, an event file with one event and one free record, and two days of
activity in both applications. -/

namespace Spec.Regulation

def sampleIcc : Part :=
  ⟨"ICC", 0x0002, false, [1, 0, 0, 0, 7, 0x05, 0x24, 0x01, 0x40] ++ List.replicate 8 0x20 ++ [9, 0x53, 0x45, 0x41, 0x42, 0, 7, 1], none⟩

def sampleEvents (type : UInt8) : Part :=
  ⟨"Events_Data", 0x0502, false,
    List.flatten [[type, 0x5F, 0, 0, 0, 0x5F, 0, 1, 0, 0x2C] ++ List.replicate 14 0x41, List.replicate 24 0], some [1, 2, 3]⟩

def sampleActivity (g2 : Bool) : Part :=
  ⟨"Driver_Activity_Data", 0x0504, g2,
    [0, 0, 0, 24] ++ ([0x51, 0x80, 0x00, 0x13, 0, 90, 0x18, 0x10, 9, 9] ++ sampleDays.flatten.take 20), some [4, 5]⟩

end Spec.Regulation

private theorem sample_stored : StoredDays [0, 0, 0, 24]
    ([0x51, 0x80, 0x00, 0x13, 0, 90, 0x18, 0x10, 9, 9] ++ sampleDays.flatten.take 20) 10 sampleDays := by
  refine ⟨rfl, by decide, ?_, by decide, ⟨by decide, by decide, by decide, by decide, by decide, by decide, trivial⟩, by decide⟩
  intro i hi
  have : ∀ i : Fin 28, (([0x51, 0x80, 0x00, 0x13, 0, 90, 0x18, 0x10, 9, 9] ++ (sampleDays.flatten).take 20 : Bytes))[(10 + i.val) % 30]? =
    (sampleDays.flatten)[i.val]? := by decide
  exact this ⟨i, hi⟩

private theorem sample_limits :
    WithinLimits ([0x51, 0x80, 0x00, 0x13, 0, 90, 0x18, 0x10, 9, 9] ++ sampleDays.flatten.take 20) 10 sampleDays := by
  refine ⟨by decide, ?_⟩
  intro pre d post he
  match pre, he with
  | [], _ => decide
  | [a], he =>
    simp only [sampleDays, List.cons_append, List.nil_append, List.cons.injEq] at he
    rw [← he.1]; decide
  | a :: b :: rest, he =>
    have := congrArg List.length he
    simp [sampleDays] at this

private theorem sample_conforms : ∀ x ∈ [sampleIcc, sampleEvents 0x0A, sampleActivity false, sampleActivity true], x.Conforms := by
  have hcode : ∀ (D : Dictionary) (b : UInt8), (D.nameOf b).isSome = true → D.nameOf b ≠ none := by
    intro D b h e; rw [e] at h; cases h
  intro x hx
  simp only [List.mem_cons, List.not_mem_nil, or_false] at hx
  rcases hx with rfl | rfl | rfl | rfl
  · refine ⟨by decide +kernel, .inl ⟨rfl, rfl, ⟨1, rfl, hcode _ _ (by decide +kernel)⟩, 1, rfl, hcode _ _ (by decide +kernel)⟩,
      fun _ => rfl, by decide, fun s h => by cases h⟩
  · refine ⟨by decide +kernel, ?_, fun h => absurd h (by decide +kernel), by decide, fun s h => ?_⟩
    · iterate 7 right
      left
      refine ⟨.inl rfl, _, rfl, ?_⟩
      intro r hr
      simp only [List.mem_cons, List.not_mem_nil, or_false] at hr
      rcases hr with rfl | rfl
      · exact ⟨rfl, fun _ => ⟨0x0A, rfl, hcode _ _ (by decide +kernel)⟩⟩
      · exact ⟨rfl, fun h => absurd rfl h⟩
    · cases h; decide
  · refine ⟨by decide +kernel, ?_, fun h => absurd h (by decide +kernel), by decide, fun s h => by cases h; decide⟩
    iterate 8 right
    left
    exact ⟨rfl, .inr ⟨_, _, _, _, rfl, sample_stored, sample_limits⟩⟩
  · refine ⟨by decide +kernel, ?_, fun h => absurd h (by decide +kernel), by decide, fun s h => by cases h; decide⟩
    iterate 6 right
    left
    exact ⟨rfl, .inr ⟨_, _, _, _, rfl, sample_stored, sample_limits⟩⟩

/-- `conformant_activity_read` applies: both applications report the two days. -/
example : ∃ card a, unmarshalFile (storedDownload [sampleIcc, sampleEvents 0x0A, sampleActivity false, sampleActivity true]) =
      .ok { type := .driverCard, driverCard := some card } ∧
    card.tachographG2.bind (·.driverActivityData) = some ⟨a, some [4, 5]⟩ ∧ a.records.length = 2 := by
  obtain ⟨c, a, h1, h2, h3⟩ := conformant_activity_read sampleIcc (sampleActivity true)
    [sampleEvents 0x0A, sampleActivity false] [] rfl rfl sample_conforms rfl (by simp) _ _ _ _ rfl sample_stored sample_limits
  exact ⟨c, a, h1, h2, h3.length_eq.symm⟩

/-- `manufacturer_event_refused` applies: the same download with event type 85. -/
example : ∃ e, unmarshalFile (storedDownload [sampleIcc, sampleEvents 0x85, sampleActivity false]) = .err e := by
  refine manufacturer_event_refused sampleIcc (sampleEvents 0x85) [] [sampleActivity false] rfl rfl
    (sample_conforms _ (by simp)) (fun x hx => sample_conforms x (by simp at hx; simp [hx])) (.inl rfl) (by decide)
    (fun s h => by cases h; decide) _ rfl ?_ _ (List.mem_cons_self ..) (by decide) 0x85 rfl (by decide)
  intro r hr
  simp only [List.mem_cons, List.not_mem_nil, or_false] at hr
  rcases hr with rfl | rfl <;> rfl

/-- `download_without_icc_refused` applies. -/
example : ∃ e, unmarshalFile (storedDownload [sampleActivity false]) = .err e :=
  download_without_icc_refused _ [] (sample_conforms _ (by simp)) (by decide)

end Tacho
