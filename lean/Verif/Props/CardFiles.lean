import Verif.Model.CardEF
import Verif.Lemmas.Slices
import Verif.Props.RecordFields
/-!
# Elementary files of fixed layout (C28, C22, C48)

For each file: which byte strings are accepted, what is written back for a parsed file, when that is the
bytes that were read, and which bytes the fields hold.
-/

namespace Tacho
open Spec

theorem byteAt_first {d : Bytes} {i j : Nat} {b : UInt8} {t : Bytes} {P : UInt8 → Prop} (h : sl d i j = b :: t)
    (hij : i < j) : ByteAt d i P ↔ P b := by
  have := byteAt_sl (d := d) (a := i) (b := j) (i := 0) (P := P) (by omega)
  rw [h, byteAt_cons_zero] at this
  exact this.symm

theorem byteAt_second {d : Bytes} {i j k : Nat} {a b : UInt8} {t : Bytes} {P : UInt8 → Prop}
    (h : sl d i j = a :: b :: t) (hk : k = i + 1) (hij : k < j) : ByteAt d k P ↔ P b := by
  subst hk
  have := byteAt_sl (d := d) (a := i) (b := j) (i := 1) (P := P) (by omega)
  rw [h] at this
  rw [← this]
  simp [ByteAt]

/-! ## EF_Card_Download -/

theorem cardDownload_accepts_iff (d : Bytes) : (∃ m, unmarshalCardDownload d = .ok m) ↔ 4 ≤ d.length := by
  simp only [unmarshalCardDownload, Res.pure_eq, guard_eq_ok, bind_eq_ok, Res.ok.injEq, sl?_iff]
  constructor
  · rintro ⟨_, hl, _⟩; omega
  · intro hl
    obtain ⟨ts, hts⟩ := timeReal_slice_ok (d := d) (a := 0) (b := 4) (by omega) (by omega)
    exact ⟨_, by omega, _, ⟨by omega, by omega, rfl⟩, ts, hts, rfl⟩

/-- C28: the four time bytes are restored; bytes after them are not. -/
theorem cardDownload_restores (d dst : Bytes) (m : CardDownload) (h : unmarshalCardDownload d = .ok m) :
    appendCardDownload dst (some m) = .ok (dst ++ d.take 4) := by
  simp only [unmarshalCardDownload, Res.pure_eq, guard_eq_ok, bind_eq_ok, Res.ok.injEq, sl?_iff] at h
  obtain ⟨hl, _, ⟨_, _, rfl⟩, ts, hts, rfl⟩ := h
  rw [take_eq_sl]
  exact timeReal_slice hts dst

/-- C48 -/
theorem cardDownload_fields (d : Bytes) (m : CardDownload) (h : unmarshalCardDownload d = .ok m) :
    m.timestamp = instant (d.take 4) := by
  simp only [unmarshalCardDownload, Res.pure_eq, guard_eq_ok, bind_eq_ok, Res.ok.injEq, sl?_iff] at h
  obtain ⟨hl, _, ⟨_, _, rfl⟩, ts, hts, rfl⟩ := h
  rw [take_eq_sl]
  exact timeReal_instant hts

/-! ## EF_IC -/

theorem ic_accepts_iff (d : Bytes) : (∃ m, unmarshalIc d = .ok m) ↔ 8 ≤ d.length := by
  simp only [unmarshalIc, Res.pure_eq, guard_eq_ok, bind_eq_ok, Res.ok.injEq, sl?_iff]
  constructor
  · rintro ⟨_, hl, _⟩; omega
  · intro hl; exact ⟨_, by omega, _, ⟨by omega, by omega, rfl⟩, _, ⟨by omega, by omega, rfl⟩, rfl⟩

/-- C48 -/
theorem ic_fields (d : Bytes) (m : Ic) (h : unmarshalIc d = .ok m) :
    m.serialNumber = sl d 0 4 ∧ m.manufacturingReferences = sl d 4 8 := by
  simp only [unmarshalIc, Res.pure_eq, guard_eq_ok, bind_eq_ok, Res.ok.injEq, sl?_iff] at h
  obtain ⟨hl, _, ⟨_, _, rfl⟩, _, ⟨_, _, rfl⟩, rfl⟩ := h
  exact ⟨rfl, rfl⟩

theorem fit4_length (b : Bytes) : (fit4 b).length = 4 := by
  unfold fit4
  split <;> simp [zeros] <;> omega

theorem fit4_id {b : Bytes} (h : b.length = 4) : fit4 b = b := by
  unfold fit4
  rw [if_pos (by omega), List.take_of_length_le (by omega)]

/-- C28: the eight bytes are restored; bytes after them are not. -/
theorem ic_restores (d dst : Bytes) (m : Ic) (h : unmarshalIc d = .ok m) :
    appendCardIc dst (some m) = .ok (dst ++ d.take 8) := by
  have hl := (ic_accepts_iff d).mp ⟨m, h⟩
  obtain ⟨h1, h2⟩ := ic_fields d m h
  simp only [appendCardIc, h1, h2]
  rw [fit4_id (by simp; omega), fit4_id (by simp; omega), take_eq_sl, List.append_assoc,
    sl_append (by omega) (by omega)]

/-- C22: any value, whatever the lengths of its byte strings, is written as eight bytes. -/
theorem appendCardIc_exact (m : Ic) : AppendsExactly 8 (appendCardIc · (some m)) := by
  refine Or.inl ⟨fit4 m.serialNumber ++ fit4 m.manufacturingReferences, by simp [fit4_length], fun dst => ?_⟩
  simp [appendCardIc]

theorem fit4_getElem? (b : Bytes) (i : Nat) (h : i < 4) : (fit4 b)[i]? = some (b.getD i 0) := by
  unfold fit4
  split
  · rename_i hl
    rw [List.getElem?_take_of_lt h, List.getD_eq_getElem?_getD, List.getElem?_eq_getElem (by omega),
      Option.getD_some]
  · rename_i hl
    rw [List.getElem?_append, List.getD_eq_getElem?_getD]
    split
    · rename_i hi
      rw [List.getElem?_eq_getElem hi, Option.getD_some]
    · rename_i hi
      rw [List.getElem?_eq_none (by omega : b.length ≤ i)]
      simp [zeros, List.getElem?_replicate]; omega

/-- C28: each byte string is written from its first byte on: cut after the fourth byte, and filled up
with zeros behind its last byte if it is shorter. -/
theorem ic_written (m : Ic) (dst : Bytes) :
    ∃ out, appendCardIc dst (some m) = .ok (dst ++ out) ∧ out.length = 8 ∧
      ∀ i < 4, out[i]? = some (m.serialNumber.getD i 0) ∧
        out[4 + i]? = some (m.manufacturingReferences.getD i 0) := by
  refine ⟨fit4 m.serialNumber ++ fit4 m.manufacturingReferences, by simp [appendCardIc],
    by simp [fit4_length], fun i hi => ⟨?_, ?_⟩⟩
  · rw [List.getElem?_append_left (by rw [fit4_length]; omega), fit4_getElem? _ _ hi]
  · rw [List.getElem?_append_right (by rw [fit4_length]; omega), fit4_length, Nat.add_sub_cancel_left,
      fit4_getElem? _ _ hi]

/-- On a short and a long byte string. -/
example : appendCardIc [] (some ⟨[7, 8], [1, 2, 3, 4, 5]⟩) = .ok [7, 8, 0, 0, 1, 2, 3, 4] := by decide

/-! ## EF_ICC -/

theorem icc_parse {d : Bytes} {m : Icc} (h : unmarshalIcc d = .ok m) :
    25 ≤ d.length ∧ ∃ b cs my t et mc ap p cc me mi,
      sl d 0 1 = [b] ∧ unmarshalEnum clockStopModeTable b = .ok cs ∧
      unmarshalMonthYear (sl d 5 7) = .ok my ∧ sl d 7 8 = [t] ∧ unmarshalEnum equipmentTypeTable t = .ok et ∧
      sl d 8 9 = [mc] ∧ unmarshalIa5StringValue (sl d 9 17) = .ok ap ∧ sl d 17 18 = [p] ∧
      unmarshalIa5StringValue (sl d 18 20) = .ok cc ∧ unmarshalIa5StringValue (sl d 20 22) = .ok me ∧
      sl d 22 23 = [mi] ∧
      m = { clockStop := cs
            serialNumber := some ⟨(beNat (sl d 1 5) : Int), some my, et, (mc.toNat : Int)⟩
            approvalNumber := some ap
            personaliserId := (p.toNat : Int)
            embedder := some ⟨some cc, some me, (mi.toNat : Int)⟩
            icIdentifier := sl d 23 25 } := by
  simp only [unmarshalIcc, Res.pure_eq, guard_eq_ok, bind_eq_ok, Res.ok.injEq, sl?_iff, at?_iff] at h
  obtain ⟨hl, b, ⟨_, hb⟩, cs, hcs, _, ⟨_, _, rfl⟩, _, ⟨_, _, rfl⟩, _, ⟨_, _, rfl⟩, my, hmy, t, ⟨_, ht⟩, et, het,
    mc, ⟨_, hmc⟩, _, ⟨_, _, rfl⟩, ap, hap, p, ⟨_, hp⟩, _, ⟨_, _, rfl⟩, _, ⟨_, _, rfl⟩, cc, hcc,
    _, ⟨_, _, rfl⟩, me, hme, mi, ⟨_, hmi⟩, _, ⟨_, _, rfl⟩, rfl⟩ := h
  rw [sl_sl (by omega)] at hmy ht hmc hcc hme hmi
  rw [sl_sl (by omega)]
  exact ⟨by omega, b, cs, my, t, et, mc, ap, p, cc, me, mi, hb, hcs, hmy, ht, het, hmc, hap, hp, hcc, hme, hmi, rfl⟩

/-- C28: a clock stop mode or equipment type that is not in the tables makes the file unreadable. -/
theorem icc_accepts_iff (d : Bytes) : (∃ m, unmarshalIcc d = .ok m) ↔
    25 ≤ d.length ∧ ByteAt d 0 (Known clockStopModeTable) ∧ ByteAt d 7 (Known equipmentTypeTable) := by
  constructor
  · rintro ⟨m, h⟩
    obtain ⟨hl, b, cs, my, t, et, mc, ap, p, cc, me, mi, hb, hcs, hmy, ht, het, _⟩ := icc_parse h
    exact ⟨hl, (byteAt_of_sl hb).mpr (known_iff.mpr ⟨_, hcs⟩), (byteAt_of_sl ht).mpr (known_iff.mpr ⟨_, het⟩)⟩
  · rintro ⟨hl, h0, h7⟩
    have hb := sl_eq_singleton (d := d) (i := 0) (by omega)
    have ht := sl_eq_singleton (d := d) (i := 7) (by omega)
    obtain ⟨cs, hcs⟩ := known_iff.mp ((byteAt_of_sl hb).mp h0)
    obtain ⟨et, het⟩ := known_iff.mp ((byteAt_of_sl ht).mp h7)
    obtain ⟨my, hmy⟩ := monthYear_ok (d := sl d 5 7) (by simp; omega)
    obtain ⟨ap, hap⟩ := ia5_slice_ok (d := d) (a := 9) (b := 17) (by omega) (by omega)
    obtain ⟨cc, hcc⟩ := ia5_slice_ok (d := d) (a := 18) (b := 20) (by omega) (by omega)
    obtain ⟨me, hme⟩ := ia5_slice_ok (d := d) (a := 20) (b := 22) (by omega) (by omega)
    simp only [unmarshalIcc, Res.pure_eq, guard_eq_ok, bind_eq_ok, Res.ok.injEq, sl?_iff, at?_iff]
    refine ⟨_, by omega, _, ⟨by omega, hb⟩, cs, hcs, _, ⟨by omega, by omega, rfl⟩, _, ⟨by omega, by simp; omega, rfl⟩,
      _, ⟨by omega, by simp; omega, rfl⟩, my, by rw [sl_sl (by omega)]; exact hmy,
      _, ⟨by simp; omega, by rw [sl_sl (by omega)]; exact ht⟩, et, het,
      d[8], ⟨by simp; omega, by rw [sl_sl (by omega)]; exact sl_eq_singleton (by omega)⟩,
      _, ⟨by omega, by omega, rfl⟩, ap, hap, d[17], ⟨by omega, sl_eq_singleton (by omega)⟩,
      _, ⟨by omega, by omega, rfl⟩, _, ⟨by omega, by simp; omega, rfl⟩, cc, by rw [sl_sl (by omega)]; exact hcc,
      _, ⟨by omega, by simp; omega, rfl⟩, me, by rw [sl_sl (by omega)]; exact hme,
      d[22], ⟨by simp; omega, by rw [sl_sl (by omega)]; exact sl_eq_singleton (by omega)⟩,
      _, ⟨by omega, by omega, rfl⟩, rfl⟩

theorem unmarshalEnum_ne_zero {t : EnumTable} (ht : t ∈ allEnumTables) {b : UInt8} {v : Int}
    (h : unmarshalEnum t b = .ok v) : v ≠ enumUnspecified := by
  intro e
  rw [e] at h
  exact enum_never_unspecified t ht b h

/-- The eight byte serial number written from a parsed one. -/
theorem esnAsString_restores {s dst : Bytes} {my : MonthYear} {t mc : UInt8} {et : Int} (hl : s.length = 8)
    (hmy : unmarshalMonthYear (sl s 4 6) = .ok my) (ht : sl s 6 7 = [t]) (het : unmarshalEnum equipmentTypeTable t = .ok et)
    (hmc : sl s 7 8 = [mc]) :
    ∃ out, appendExtendedSerialNumberAsString dst (some ⟨(beNat (sl s 0 4) : Int), some my, et, (mc.toNat : Int)⟩) =
      .ok (dst ++ out) ∧ out.length = 8 ∧ (out = s ↔ ByteAt s 4 IsBcd ∧ ByteAt s 5 IsBcd) := by
  have hser : (if (beNat (sl s 0 4) : Int) ≠ 0 then beBytes 4 (low 32 (beNat (sl s 0 4) : Int)) else zeros 4) = sl s 0 4 := by
    have hb := be_slice (d := s) (a := 0) (b := 4) (k := 4) (by omega) (by omega)
    split
    · exact hb
    · rename_i hz
      have hz : (beNat (sl s 0 4) : Int) = 0 := by simpa using hz
      rw [hz] at hb
      rw [← hb]; decide +kernel
  have hmcb : (if ((mc.toNat : Int)) ≠ 0 then i2b (mc.toNat : Int) else 0) = mc := by
    split
    · exact i2b_toNat mc
    · rename_i hz
      have : mc.toNat = 0 := by omega
      exact (byte_ext (by rw [this]; rfl)).symm
  obtain ⟨b0, b1, hb⟩ := list2 (x := sl s 4 6) (by simp; omega)
  have hmr := monthYear_roundtrip_iff b0 b1 []
  rw [← hb, hmy] at hmr
  simp only [Res.ok.injEq, exists_eq_left', List.nil_append] at hmr
  have hmylen : ∃ x, appendMonthYear [] my = .ok x ∧ x.length = 2 := by
    have hm2 := monthYear_decode b0 b1
    rw [← hb, hmy, Res.ok.injEq] at hm2
    have hraw : my.rawData = some [b0, b1] := by rw [hm2]; split <;> simp [hb]
    exact ⟨_, by unfold appendMonthYear; rw [hraw]; rfl, rfl⟩
  obtain ⟨x, hx, hxl⟩ := hmylen
  refine ⟨sl s 0 4 ++ x ++ [t, mc], ?_, by simp [hxl]; omega, ?_⟩
  · have hle : x.length ≥ 2 := by omega
    have htk : x.take 2 = x := List.take_of_length_le (by omega)
    simp only [appendExtendedSerialNumberAsString, hser, hmcb, Option.getD_some, hx, Res.bind_ok, hle, if_true, htk,
      unmarshalEnum_ne_zero (by decide) het, ne_eq, not_false_eq_true,
      enum_decode_encode _ (by decide) t et het, Res.pure_eq]
  · have hs : s = sl s 0 4 ++ sl s 4 6 ++ [t, mc] := by
      have : [t, mc] = sl s 6 7 ++ sl s 7 8 := by rw [ht, hmc]; rfl
      rw [this]
      join_slices
      exact (sl_full' hl).symm
    rw [byteAt_first hb (by omega), byteAt_second hb rfl (by omega), ← hmr, hx, Res.ok.injEq]
    conv => lhs; rhs; rw [hs]
    rw [List.append_assoc, List.append_assoc, append_eq_iff rfl, append_eq_iff (by rw [hxl, hb]; rfl)]
    simp

/-- C28: 25 bytes are written; they are the bytes that were read exactly when month and year of the serial
number are BCD. -/
theorem icc_restores (d dst : Bytes) (m : Icc) (h : unmarshalIcc d = .ok m) :
    ∃ out, appendIcc dst m = .ok (dst ++ out) ∧ out.length = 25 ∧
      (out = d.take 25 ↔ ByteAt d 5 IsBcd ∧ ByteAt d 6 IsBcd) := by
  obtain ⟨hl, b, cs, my, t, et, mc, ap, p, cc, me, mi, hb, hcs, hmy, ht, het, hmc, hap, hp, hcc, hme, hmi, rfl⟩ := icc_parse h
  have hs8 : (sl d 1 9).length = 8 := by simp; omega
  obtain ⟨out, ho, hol, hiff⟩ := esnAsString_restores (s := sl d 1 9) (dst := dst ++ [b]) (my := my) (t := t) (mc := mc)
    (et := et) hs8 (by rw [sl_sl (by omega)]; exact hmy) (by rw [sl_sl (by omega)]; exact ht) het
    (by rw [sl_sl (by omega)]; exact hmc)
  rw [sl_sl (by omega)] at ho
  rw [byteAt_sl (by omega), byteAt_sl (by omega)] at hiff
  refine ⟨[b] ++ out ++ (sl d 9 17 ++ [p] ++ (sl d 18 20 ++ sl d 20 22 ++ [mi]) ++ sl d 23 25), ?_, by simp [hol]; omega, ?_⟩
  · simp only [appendIcc, enum_decode_encode _ (by decide : clockStopModeTable ∈ allEnumTables) b cs hcs, Res.bind_ok, ho,
      ia5_roundtrip (sl d 9 17) _ (by simp; omega) ap hap, appendEmbedderId,
      ia5_roundtrip (sl d 18 20) _ (by simp; omega) cc hcc, ia5_roundtrip (sl d 20 22) _ (by simp; omega) me hme,
      Res.pure_eq, i2b_toNat]
    simp
  · have hd : d.take 25 = [b] ++ sl d 1 9 ++ (sl d 9 17 ++ [p] ++ (sl d 18 20 ++ sl d 20 22 ++ [mi]) ++ sl d 23 25) := by
      rw [← hb, ← hp, ← hmi, take_eq_sl]
      join_slices
    rw [hd, append_eq_iff (by simp [hol]; omega), append_eq_iff rfl, hiff]
    simp

/-- C48 -/
theorem icc_fields (d : Bytes) (m : Icc) (h : unmarshalIcc d = .ok m) :
    (∃ b, d[0]? = some b ∧ (m.clockStop, some b.toNat) ∈ clockStopModeTable) ∧
    (∃ e my, m.serialNumber = some e ∧ e.serialNumber = (beNat (sl d 1 5) : Int) ∧
      unmarshalMonthYear (sl d 5 7) = .ok my ∧ e.monthYear = some my ∧
      (∃ b, d[7]? = some b ∧ (e.type, some b.toNat) ∈ equipmentTypeTable) ∧
      (∃ b, d[8]? = some b ∧ e.manufacturerCode = b.toNat)) ∧
    (∃ s, unmarshalIa5StringValue (sl d 9 17) = .ok s ∧ m.approvalNumber = some s) ∧
    (∃ b, d[17]? = some b ∧ m.personaliserId = b.toNat) ∧
    (∃ e c s b, m.embedder = some e ∧ unmarshalIa5StringValue (sl d 18 20) = .ok c ∧ e.countryCode = some c ∧
      unmarshalIa5StringValue (sl d 20 22) = .ok s ∧ e.moduleEmbedder = some s ∧
      d[22]? = some b ∧ e.manufacturerInformation = b.toNat) ∧
    m.icIdentifier = sl d 23 25 := by
  obtain ⟨hl, b, cs, my, t, et, mc, ap, p, cc, me, mi, hb, hcs, hmy, ht, het, hmc, hap, hp, hcc, hme, hmi, rfl⟩ := icc_parse h
  have g : ∀ {i : Nat} {b : UInt8}, sl d i (i + 1) = [b] → d[i]? = some b := by
    intro i b h
    have := (byteAt_of_sl (P := fun x => x = b) h).mpr rfl
    obtain ⟨y, h1, rfl⟩ := this
    exact h1
  exact ⟨⟨b, g hb, unmarshalEnum_ok hcs⟩, ⟨_, my, rfl, rfl, hmy, rfl, ⟨t, g ht, unmarshalEnum_ok het⟩, ⟨mc, g hmc, rfl⟩⟩,
    ⟨ap, hap, rfl⟩, ⟨p, g hp, rfl⟩, ⟨_, cc, me, mi, rfl, hcc, rfl, hme, rfl, g hmi, rfl⟩, rfl⟩

/-! ## EF_Application_Identification -/

theorem csv_restores {x dst : Bytes} {v : CardStructureVersion} (hx : x.length = 2)
    (h : unmarshalCardStructureVersion x = .ok v) :
    ∃ out, appendCardStructureVersion dst v = .ok (dst ++ out) ∧ out.length = 2 ∧
      (out = x ↔ ∀ b ∈ x, b.toNat % 16 < 10) := by
  obtain ⟨b0, b1, rfl⟩ := list2 hx
  have hr := cardStructureVersion_roundtrip_iff b0 b1 dst
  rw [h] at hr
  simp only [Res.ok.injEq, exists_eq_left'] at hr
  rcases appendCardStructureVersion_exact v with ⟨e, he, hh⟩ | ⟨msg, hh⟩
  · refine ⟨e, hh dst, he, ?_⟩
    have hh' : appendCardStructureVersion dst v = .ok (dst ++ e) := hh dst
    rw [hh', Res.ok.injEq, List.append_cancel_left_eq] at hr
    rw [hr]; simp
  · exfalso
    have hu : unmarshalCardStructureVersion [b0, b1] = .ok ⟨some [b0, b1], bcd2 b0, bcd2 b1⟩ := rfl
    rw [hu, Res.ok.injEq] at h
    subst h
    have := hh []
    simp [appendCardStructureVersion, canvasOf] at this

theorem csv_ok {x : Bytes} (h : x.length = 2) : ∃ v, unmarshalCardStructureVersion x = .ok v := by
  obtain ⟨a, b, rfl⟩ := list2 h
  exact ⟨_, rfl⟩

theorem marshalEnumLax_known {t : EnumTable} (ht : t ∈ allEnumTables) {b : UInt8} {v : Int}
    (h : unmarshalEnum t b = .ok v) : marshalEnumLax t v = b := by
  unfold marshalEnumLax
  rw [enum_decode_encode t ht b v h]

theorem appId_parse {d : Bytes} {m : AppId} (h : unmarshalAppId d = .ok m) :
    d.length = 10 ∧ ∃ b t v ev fa pr, sl d 0 1 = [b] ∧ unmarshalEnum equipmentTypeTable b = .ok t ∧
      unmarshalCardStructureVersion (sl d 1 3) = .ok v ∧ sl d 3 4 = [ev] ∧ sl d 4 5 = [fa] ∧ sl d 9 10 = [pr] ∧
      m = ⟨t, some v, some ⟨ev.toNat, fa.toNat, beNat (sl d 5 7), beNat (sl d 7 9), pr.toNat⟩⟩ := by
  simp only [unmarshalAppId, Res.pure_eq, guard_eq_ok, bind_eq_ok, Res.ok.injEq, sl?_iff, at?_iff] at h
  obtain ⟨hl, b, ⟨_, hb⟩, t, ht, _, ⟨_, _, rfl⟩, v, hv, ev, ⟨_, hev⟩, fa, ⟨_, hfa⟩, _, ⟨_, _, rfl⟩, _, ⟨_, _, rfl⟩,
    pr, ⟨_, hpr⟩, rfl⟩ := h
  exact ⟨by simpa using hl, b, t, v, ev, fa, pr, hb, ht, hv, hev, hfa, hpr, rfl⟩

theorem appId_accepts_iff (d : Bytes) : (∃ m, unmarshalAppId d = .ok m) ↔
    d.length = 10 ∧ ByteAt d 0 (Known equipmentTypeTable) := by
  constructor
  · rintro ⟨m, h⟩
    obtain ⟨hl, b, t, v, ev, fa, pr, hb, ht, _⟩ := appId_parse h
    exact ⟨hl, (byteAt_of_sl hb).mpr (known_iff.mpr ⟨_, ht⟩)⟩
  · rintro ⟨hl, h0⟩
    have hb := sl_eq_singleton (d := d) (i := 0) (by omega)
    obtain ⟨t, ht⟩ := known_iff.mp ((byteAt_of_sl hb).mp h0)
    obtain ⟨v, hv⟩ := csv_ok (x := sl d 1 3) (by simp; omega)
    simp only [unmarshalAppId, Res.pure_eq, guard_eq_ok, bind_eq_ok, Res.ok.injEq, sl?_iff, at?_iff]
    exact ⟨_, by simp [hl], _, ⟨by omega, hb⟩, t, ht, _, ⟨by omega, by omega, rfl⟩, v, hv,
      d[3], ⟨by omega, sl_eq_singleton (by omega)⟩, d[4], ⟨by omega, sl_eq_singleton (by omega)⟩,
      _, ⟨by omega, by omega, rfl⟩, _, ⟨by omega, by omega, rfl⟩, d[9], ⟨by omega, sl_eq_singleton (by omega)⟩, rfl⟩

/-- C28: ten bytes are written; they are the bytes that were read exactly when the low nibbles of the
structure version are decimal digits. -/
theorem appId_restores (d dst : Bytes) (m : AppId) (h : unmarshalAppId d = .ok m) :
    ∃ out, appendAppId dst (some m) = .ok (dst ++ out) ∧ out.length = 10 ∧
      (out = d ↔ ∀ b ∈ sl d 1 3, b.toNat % 16 < 10) := by
  obtain ⟨hl, b, t, v, ev, fa, pr, hb, ht, hv, hev, hfa, hpr, rfl⟩ := appId_parse h
  obtain ⟨x, hx, hxl, hxi⟩ := csv_restores (dst := dst ++ [b]) (by simp; omega) hv
  have h1 : beBytes 2 (low 16 (beNat (sl d 5 7) : Int)) = sl d 5 7 := be_slice (k := 2) (by omega) (by omega)
  have h2 : beBytes 2 (low 16 (beNat (sl d 7 9) : Int)) = sl d 7 9 := be_slice (k := 2) (by omega) (by omega)
  refine ⟨[b] ++ x ++ ([ev] ++ [fa] ++ sl d 5 7 ++ sl d 7 9 ++ [pr]), ?_, by simp [hxl]; omega, ?_⟩
  · simp only [appendAppId, marshalEnumLax_known (by decide : equipmentTypeTable ∈ allEnumTables) ht, hx, Res.bind_ok,
      i2b_toNat, h1, h2, Res.pure_eq]
    simp
  · have hd : d = [b] ++ sl d 1 3 ++ ([ev] ++ [fa] ++ sl d 5 7 ++ sl d 7 9 ++ [pr]) := by
      rw [← hb, ← hev, ← hfa, ← hpr]
      join_slices
      exact (sl_full' hl).symm
    conv => lhs; rhs; rw [hd]
    rw [append_eq_iff (by simp [hxl]; omega), append_eq_iff rfl, hxi]
    simp

theorem getElem?_of_sl {d : Bytes} {i : Nat} {b : UInt8} (h : sl d i (i + 1) = [b]) : d[i]? = some b := by
  obtain ⟨y, h1, rfl⟩ := (byteAt_of_sl (P := fun x => x = b) h).mpr rfl
  exact h1

/-- C48 -/
theorem appId_fields (d : Bytes) (m : AppId) (h : unmarshalAppId d = .ok m) :
    (∃ b, d[0]? = some b ∧ (m.typeOfCard, some b.toNat) ∈ equipmentTypeTable) ∧
    (∃ v, unmarshalCardStructureVersion (sl d 1 3) = .ok v ∧ m.structureVersion = some v) ∧
    ∃ c, m.driver = some c ∧ (∃ b, d[3]? = some b ∧ c.eventsPerType = b.toNat) ∧
      (∃ b, d[4]? = some b ∧ c.faultsPerType = b.toNat) ∧ c.activityLength = beNat (sl d 5 7) ∧
      c.vehicleRecords = beNat (sl d 7 9) ∧ (∃ b, d[9]? = some b ∧ c.placeRecords = b.toNat) := by
  obtain ⟨hl, b, t, v, ev, fa, pr, hb, ht, hv, hev, hfa, hpr, rfl⟩ := appId_parse h
  exact ⟨⟨b, getElem?_of_sl hb, unmarshalEnum_ok ht⟩, ⟨v, hv, rfl⟩, _, rfl, ⟨ev, getElem?_of_sl hev, rfl⟩,
    ⟨fa, getElem?_of_sl hfa, rfl⟩, rfl, rfl, ⟨pr, getElem?_of_sl hpr, rfl⟩⟩

/-- C22: whatever the message holds, ten bytes are written. -/
theorem appendAppId_exact (m : AppId) : AppendsExactly 10 (appendAppId · (some m)) := by
  have hv : AppendsExactly 2 (fun dst : Bytes => (match m.structureVersion with
      | some v => appendCardStructureVersion dst v
      | none => .ok (dst ++ [0, 1]))) := by
    cases m.structureVersion with
    | none => exact appendsExactly_const rfl
    | some v => exact appendCardStructureVersion_exact v
  have h1 : AppendsExactly 1 (fun dst : Bytes => .ok (dst ++ [marshalEnumLax equipmentTypeTable m.typeOfCard])) :=
    appendsExactly_const rfl
  have hd : AppendsExactly 7 (fun dst : Bytes => (match m.driver with
      | none => .ok (dst ++ zeros 7)
      | some d => .ok (dst ++ [i2b d.eventsPerType] ++ [i2b d.faultsPerType] ++ beBytes 2 (low 16 d.activityLength)
        ++ beBytes 2 (low 16 d.vehicleRecords) ++ [i2b d.placeRecords]))) := by
    cases m.driver with
    | none => exact appendsExactly_const rfl
    | some d =>
      simp only [List.append_assoc]
      exact appendsExactly_const (by simp)
  have := appendsExactly_seq (n := 10) (appendsExactly_seq (n := 3) h1 hv (by omega)) hd (by omega)
  obtain ⟨t, sv, dr⟩ := m
  cases sv <;> cases dr <;> simpa only [appendAppId, Res.bind_ok, Res.pure_eq] using this

theorem appIdG2_parse {d : Bytes} {m : AppIdG2} (h : unmarshalAppIdG2 d = .ok m) :
    d.length = 17 ∧ ∃ b t v ev fa, sl d 0 1 = [b] ∧ unmarshalEnum equipmentTypeTable b = .ok t ∧
      unmarshalCardStructureVersion (sl d 1 3) = .ok v ∧ sl d 3 4 = [ev] ∧ sl d 4 5 = [fa] ∧
      m = ⟨t, some v, some ⟨ev.toNat, fa.toNat, beNat (sl d 5 7), beNat (sl d 7 9), beNat (sl d 9 11), beNat (sl d 11 13),
        beNat (sl d 13 15), beNat (sl d 15 17)⟩⟩ := by
  simp only [unmarshalAppIdG2, Res.pure_eq, guard_eq_ok, bind_eq_ok, Res.ok.injEq, sl?_iff, at?_iff] at h
  obtain ⟨hl, b, ⟨_, hb⟩, t, ht, _, ⟨_, _, rfl⟩, v, hv, ev, ⟨_, hev⟩, fa, ⟨_, hfa⟩, _, ⟨_, _, rfl⟩, _, ⟨_, _, rfl⟩,
    _, ⟨_, _, rfl⟩, _, ⟨_, _, rfl⟩, _, ⟨_, _, rfl⟩, _, ⟨_, _, rfl⟩, rfl⟩ := h
  exact ⟨by simpa using hl, b, t, v, ev, fa, hb, ht, hv, hev, hfa, rfl⟩

theorem appIdG2_accepts_iff (d : Bytes) : (∃ m, unmarshalAppIdG2 d = .ok m) ↔
    d.length = 17 ∧ ByteAt d 0 (Known equipmentTypeTable) := by
  constructor
  · rintro ⟨m, h⟩
    obtain ⟨hl, b, t, v, ev, fa, hb, ht, _⟩ := appIdG2_parse h
    exact ⟨hl, (byteAt_of_sl hb).mpr (known_iff.mpr ⟨_, ht⟩)⟩
  · rintro ⟨hl, h0⟩
    have hb := sl_eq_singleton (d := d) (i := 0) (by omega)
    obtain ⟨t, ht⟩ := known_iff.mp ((byteAt_of_sl hb).mp h0)
    obtain ⟨v, hv⟩ := csv_ok (x := sl d 1 3) (by simp; omega)
    simp only [unmarshalAppIdG2, Res.pure_eq, guard_eq_ok, bind_eq_ok, Res.ok.injEq, sl?_iff, at?_iff]
    exact ⟨_, by simp [hl], _, ⟨by omega, hb⟩, t, ht, _, ⟨by omega, by omega, rfl⟩, v, hv,
      d[3], ⟨by omega, sl_eq_singleton (by omega)⟩, d[4], ⟨by omega, sl_eq_singleton (by omega)⟩,
      _, ⟨by omega, by omega, rfl⟩, _, ⟨by omega, by omega, rfl⟩, _, ⟨by omega, by omega, rfl⟩,
      _, ⟨by omega, by omega, rfl⟩, _, ⟨by omega, by omega, rfl⟩, _, ⟨by omega, by omega, rfl⟩, rfl⟩

/-- C28: the same for the second generation file of 17 bytes. -/
theorem appIdG2_restores (d dst : Bytes) (m : AppIdG2) (h : unmarshalAppIdG2 d = .ok m) :
    ∃ out, appendAppIdG2 dst (some m) = .ok (dst ++ out) ∧ out.length = 17 ∧
      (out = d ↔ ∀ b ∈ sl d 1 3, b.toNat % 16 < 10) := by
  obtain ⟨hl, b, t, v, ev, fa, hb, ht, hv, hev, hfa, rfl⟩ := appIdG2_parse h
  obtain ⟨x, hx, hxl, hxi⟩ := csv_restores (dst := dst ++ [b]) (by simp; omega) hv
  have h1 : ∀ i j, i + 2 = j → j ≤ 17 → beBytes 2 (low 16 (beNat (sl d i j) : Int)) = sl d i j :=
    fun i j h1 h2 => be_slice (k := 2) (by omega) (by omega)
  refine ⟨[b] ++ x ++ ([ev] ++ [fa] ++ sl d 5 7 ++ sl d 7 9 ++ sl d 9 11 ++ sl d 11 13 ++ sl d 13 15 ++ sl d 15 17),
    ?_, by simp [hxl]; omega, ?_⟩
  · simp only [appendAppIdG2, marshalEnumLax_known (by decide : equipmentTypeTable ∈ allEnumTables) ht, hx, Res.bind_ok,
      i2b_toNat, h1 5 7 rfl (by omega), h1 7 9 rfl (by omega), h1 9 11 rfl (by omega), h1 11 13 rfl (by omega),
      h1 13 15 rfl (by omega), h1 15 17 rfl (by omega), Res.pure_eq]
    simp
  · have hd : d = [b] ++ sl d 1 3 ++ ([ev] ++ [fa] ++ sl d 5 7 ++ sl d 7 9 ++ sl d 9 11 ++ sl d 11 13 ++ sl d 13 15
        ++ sl d 15 17) := by
      rw [← hb, ← hev, ← hfa]
      join_slices
      exact (sl_full' hl).symm
    conv => lhs; rhs; rw [hd]
    rw [append_eq_iff (by simp [hxl]; omega), append_eq_iff rfl, hxi]
    simp

/-- C48 -/
theorem appIdG2_fields (d : Bytes) (m : AppIdG2) (h : unmarshalAppIdG2 d = .ok m) :
    (∃ b, d[0]? = some b ∧ (m.typeOfCard, some b.toNat) ∈ equipmentTypeTable) ∧
    (∃ v, unmarshalCardStructureVersion (sl d 1 3) = .ok v ∧ m.structureVersion = some v) ∧
    ∃ c, m.driver = some c ∧ (∃ b, d[3]? = some b ∧ c.eventsPerType = b.toNat) ∧
      (∃ b, d[4]? = some b ∧ c.faultsPerType = b.toNat) ∧ c.activityLength = beNat (sl d 5 7) ∧
      c.vehicleRecords = beNat (sl d 7 9) ∧ c.placeRecords = beNat (sl d 9 11) ∧ c.gnssRecords = beNat (sl d 11 13) ∧
      c.conditionRecords = beNat (sl d 13 15) ∧ c.vehicleUnitRecords = beNat (sl d 15 17) := by
  obtain ⟨hl, b, t, v, ev, fa, hb, ht, hv, hev, hfa, rfl⟩ := appIdG2_parse h
  exact ⟨⟨b, getElem?_of_sl hb, unmarshalEnum_ok ht⟩, ⟨v, hv, rfl⟩, _, rfl, ⟨ev, getElem?_of_sl hev, rfl⟩,
    ⟨fa, getElem?_of_sl hfa, rfl⟩, rfl, rfl, rfl, rfl, rfl, rfl⟩

/-- C22 -/
theorem appendAppIdG2_exact (m : AppIdG2) : AppendsExactly 17 (appendAppIdG2 · (some m)) := by
  have hv : AppendsExactly 2 (fun dst : Bytes => (match m.structureVersion with
      | some v => appendCardStructureVersion dst v
      | none => .ok (dst ++ [0, 1]))) := by
    cases m.structureVersion with
    | none => exact appendsExactly_const rfl
    | some v => exact appendCardStructureVersion_exact v
  have h1 : AppendsExactly 1 (fun dst : Bytes => .ok (dst ++ [marshalEnumLax equipmentTypeTable m.typeOfCard])) :=
    appendsExactly_const rfl
  have hd : AppendsExactly 14 (fun dst : Bytes => (match m.driver with
      | none => .ok (dst ++ zeros 14)
      | some d => .ok (dst ++ [i2b d.eventsPerType] ++ [i2b d.faultsPerType] ++ beBytes 2 (low 16 d.activityLength)
        ++ beBytes 2 (low 16 d.vehicleRecords) ++ beBytes 2 (low 16 d.placeRecords) ++ beBytes 2 (low 16 d.gnssRecords)
        ++ beBytes 2 (low 16 d.conditionRecords) ++ beBytes 2 (low 16 d.vehicleUnitRecords)))) := by
    cases m.driver with
    | none => exact appendsExactly_const rfl
    | some d =>
      simp only [List.append_assoc]
      exact appendsExactly_const (by simp)
  have := appendsExactly_seq (n := 17) (appendsExactly_seq (n := 3) h1 hv (by omega)) hd (by omega)
  obtain ⟨t, sv, dr⟩ := m
  cases sv <;> cases dr <;> simpa only [appendAppIdG2, Res.bind_ok, Res.pure_eq] using this

theorem appIdV2_accepts_iff (d : Bytes) : (∃ m, unmarshalAppIdV2 d = .ok m) ↔ 4 ≤ d.length := by
  simp only [unmarshalAppIdV2, Res.pure_eq, guard_eq_ok, bind_eq_ok, Res.ok.injEq, at?_iff]
  constructor
  · rintro ⟨_, hl, _⟩; omega
  · intro hl
    exact ⟨_, by omega, d[0], ⟨by omega, sl_eq_singleton (by omega)⟩, d[1], ⟨by omega, sl_eq_singleton (by omega)⟩,
      d[2], ⟨by omega, sl_eq_singleton (by omega)⟩, d[3], ⟨by omega, sl_eq_singleton (by omega)⟩, rfl⟩

/-- C28: the four counts are restored; bytes after them are not. -/
theorem appIdV2_restores (d dst : Bytes) (m : AppIdV2) (h : unmarshalAppIdV2 d = .ok m) :
    appendAppIdV2 dst (some m) = .ok (dst ++ d.take 4) ∧ d.take 4 = [i2b m.borderCrossings, i2b m.loadUnload,
      i2b m.loadTypes, i2b m.vuConfigurationLength] := by
  simp only [unmarshalAppIdV2, Res.pure_eq, guard_eq_ok, bind_eq_ok, Res.ok.injEq, at?_iff] at h
  obtain ⟨hl, a, ⟨_, ha⟩, b, ⟨_, hb⟩, c, ⟨_, hc⟩, e, ⟨_, he⟩, rfl⟩ := h
  have hd : d.take 4 = [a, b, c, e] := by
    have : [a, b, c, e] = sl d 0 1 ++ sl d 1 2 ++ sl d 2 3 ++ sl d 3 4 := by rw [ha, hb, hc, he]; rfl
    rw [this, take_eq_sl]
    join_slices
  rw [hd]
  simp [appendAppIdV2]

/-! ## Concrete files -/

example : ∃ m, unmarshalCardDownload [0x5E, 0x0B, 0xE1, 0x00] = .ok m ∧ appendCardDownload [1] (some m) = .ok [1, 0x5E, 0x0B, 0xE1, 0x00] := by
  obtain ⟨m, hm⟩ := (cardDownload_accepts_iff [0x5E, 0x0B, 0xE1, 0x00]).mpr (by decide)
  exact ⟨m, hm, cardDownload_restores _ [1] m hm⟩
example : ∃ m, unmarshalIc [1, 2, 3, 4, 5, 6, 7, 8] = .ok m ∧ m.manufacturingReferences = [5, 6, 7, 8] := ⟨_, rfl, rfl⟩
/-- A Gen1 driver card: 6 events and 6 faults per type, 13 776 bytes of activities, 84 vehicles, 112 places. -/
example : ∃ m, unmarshalAppId [1, 0, 0, 6, 6, 0x35, 0xD0, 0, 84, 112] = .ok m ∧
    appendAppId [] (some m) = .ok [1, 0, 0, 6, 6, 0x35, 0xD0, 0, 84, 112] ∧ m.driver.map (·.activityLength) = some 13776 := ⟨_, rfl, rfl, rfl⟩
example : ∃ m, unmarshalAppIdG2 [1, 1, 0, 12, 12, 0x35, 0xD0, 0, 200, 0, 112, 1, 80, 0, 112, 0, 200] = .ok m ∧
    appendAppIdG2 [] (some m) = .ok [1, 1, 0, 12, 12, 0x35, 0xD0, 0, 200, 0, 112, 1, 80, 0, 112, 0, 200] := ⟨_, rfl, rfl⟩

end Tacho
