import Verif.Props.Retained
import Verif.Props.RecordFiles
import Verif.Props.Identification
/-!
# C28, C05: the files read with `bufio.Scanner`

EF_Events_Data, EF_Faults_Data, EF_GNSS_Places, EF_Vehicle_Units_Used.
-/

namespace Tacho
open Spec

/-! ## Splitting -/

theorem splitFixed_stable {n : Nat} (h0 : 0 < n) : Stable (splitFixed n) := by
  constructor
  · intro d k h t e
    unfold splitFixed at h ⊢
    split at h
    · cases h
    · rw [if_neg (by simp; omega)]; exact h
  · intro d m h t e
    unfold splitFixed at h
    split at h <;> cases h
  · intro d e k h
    unfold splitFixed at h
    split at h
    · cases h
    · injection h with h; omega

theorem chunks_fixed {n : Nat} (h0 : 0 < n) (hn : n ≤ 65536) (d : Bytes) : chunks (splitFixed n) d = (cut n d, none) := by
  have hlook : look (splitFixed n) d = if d.length < n then .more else .token n := by
    unfold look splitFixed
    by_cases h : d.length < 65536
    · rw [if_pos h]
    · have : (d.take 65536).length = 65536 := by rw [List.length_take]; omega
      rw [if_neg h, this, if_neg (by omega), if_neg (by omega)]
  fun_induction cut n d with
  | case1 d h ih =>
    rw [chunks, hlook, if_neg (by omega)]
    dsimp only
    rw [if_pos h, ih]
    unfold look splitFixed
    by_cases h : (d.drop n).length < 65536
    · rw [if_pos h]
    · have : ((d.drop n).take 65536).length = 65536 := by rw [List.length_take]; omega
      rw [if_neg h, this, if_neg (by omega), if_neg (by omega)]
  | case2 d h =>
    rw [chunks, hlook, if_pos (by omega)]

/-- C04: whatever the buffering does, the records delivered are the consecutive `n`-byte pieces. -/
theorem scan_fixed {n : Nat} (h0 : 0 < n) (hn : n ≤ 65536) (d : Bytes) :
    (scanAll (splitFixed n) d).toks.map Tok.bytes = cut n d ∧ (scanAll (splitFixed n) d).err = none := by
  have := scanAll_chunks (splitFixed_stable h0) d
  rw [chunks_fixed h0 hn, Prod.mk.injEq] at this
  exact this

theorem tok_sizes {n : Nat} (h0 : 0 < n) (hn : n ≤ 65536) (d : Bytes) :
    ∀ t ∈ (scanAll (splitFixed n) d).toks, t.bytes.length = n := by
  intro t ht
  refine cut_sizes h0 d t.bytes ?_
  rw [← (scan_fixed h0 hn d).1]
  exact List.mem_map_of_mem ht

theorem mapRes_map {α β γ : Type} (f : β → Res γ) (g : α → β) (xs : List α) : mapRes f (xs.map g) = mapRes (fun x => f (g x)) xs := by
  induction xs with
  | nil => rfl
  | cons x xs ih => simp only [List.map_cons, mapRes, ih]

theorem Spec.AppendsWith.appends {P : Bytes → Prop} {f : Bytes → Res Bytes} (h : AppendsWith P f) : Appends f :=
  AppendsWith.mono h fun _ _ => trivial

theorem Spec.AppendsExactly.appends {n : Nat} {f : Bytes → Res Bytes} (h : AppendsExactly n f) : Appends f :=
  AppendsWith.mono h fun _ _ => trivial

theorem appends_seq {f g : Bytes → Res Bytes} (hf : Appends f) (hg : Appends g) : Appends (fun dst => f dst >>= g) :=
  appendsWith_seq hf hg fun _ _ _ _ => trivial

theorem appendEach_appends {α : Type} {f : Bytes → α → Res Bytes} {xs : List α} (h : ∀ x ∈ xs, Appends (f · x)) :
    Appends (appendEach f · xs) := by
  refine appendsWith_of_res (r := mapRes (f []) xs >>= fun outs => .ok outs.flatten) (fun _ _ => trivial) ?_ ?_
  · exact Res.bind_ne_panic (mapRes_append_ne_panic h) fun _ => by simp
  · intro dst
    rw [appendEach_eq h, Res.bind_assoc]
    rfl

theorem mapRes_mem {α β : Type} {f : α → Res β} {xs : List α} {rs : List β} (h : mapRes f xs = .ok rs) :
    ∀ r ∈ rs, ∃ x ∈ xs, f x = .ok r := by
  rw [mapRes_ok_iff] at h
  induction h with
  | nil => simp
  | @cons x r xs rs hx _ ih =>
    rw [List.forall_mem_cons]
    exact ⟨⟨x, List.mem_cons_self, hx⟩, fun r hr => let ⟨y, hy, e⟩ := ih r hr; ⟨y, List.mem_cons_of_mem _ hy, e⟩⟩

section
variable [Charmap]

/-! ## EF_Events_Data, EF_Faults_Data -/

/-- One 24-byte event or fault record: a zero begin time marks an unused record, which is kept verbatim. -/
def Spec.eventOf (x : Bytes) : Res EventRecord :=
  if beNat (sl x 1 5) = 0 then
    .ok { valid := false, rawData := some x, type := 0, beginTime := none, endTime := none, registration := none }
  else unmarshalEventRecord x

omit [Charmap] in
/-- A record without the byte slices it keeps. -/
def Spec.decodedFields (r : EventRecord) : EventRecord := { r.withNumberRaw none with rawData := none }

theorem eventRecord_parse {d : Bytes} {m : EventRecord} (h : unmarshalEventRecord d = .ok m) :
    24 ≤ d.length ∧ ∃ b t tb te reg, sl d 0 1 = [b] ∧ unmarshalEnum eventFaultTypeTable b = .ok t ∧
      unmarshalTimeReal (sl d 1 5) = .ok tb ∧ unmarshalTimeReal (sl d 5 9) = .ok te ∧
      unmarshalVehicleRegistration (sl d 9 24) = .ok reg ∧ m = ⟨true, none, t, tb, te, some reg⟩ := by
  simp only [unmarshalEventRecord, Res.pure_eq, guard_eq_ok, bind_eq_ok, Res.ok.injEq, sl?_iff, at?_iff] at h
  obtain ⟨hl, b, ⟨_, hb⟩, t, ht, _, ⟨_, _, rfl⟩, tb, htb, _, ⟨_, _, rfl⟩, te, hte, _, ⟨_, _, rfl⟩, reg, hreg, rfl⟩ := h
  exact ⟨by omega, b, t, tb, te, reg, hb, ht, htb, hte, hreg, rfl⟩

theorem eventRecord_accepts_iff (d : Bytes) : (∃ m, unmarshalEventRecord d = .ok m) ↔
    24 ≤ d.length ∧ ByteAt d 0 (Known eventFaultTypeTable) := by
  constructor
  · rintro ⟨m, h⟩
    obtain ⟨hl, b, t, _, _, _, hb, ht, _⟩ := eventRecord_parse h
    exact ⟨hl, (byteAt_of_sl hb).mpr (known_iff.mpr ⟨t, ht⟩)⟩
  · rintro ⟨hl, hk⟩
    have hb := sl_eq_singleton (d := d) (i := 0) (by omega)
    obtain ⟨t, ht⟩ := known_iff.mp ((byteAt_of_sl hb).mp hk)
    obtain ⟨tb, htb⟩ := timeReal_slice_ok (d := d) (a := 1) (b := 5) rfl (by omega)
    obtain ⟨te, hte⟩ := timeReal_slice_ok (d := d) (a := 5) (b := 9) rfl (by omega)
    obtain ⟨reg, hreg⟩ := registration_ok (d := sl d 9 24) (by simp; omega)
    simp only [unmarshalEventRecord, Res.pure_eq, guard_eq_ok, bind_eq_ok, Res.ok.injEq, sl?_iff, at?_iff]
    exact ⟨_, by omega, _, ⟨by omega, hb⟩, t, ht, _, ⟨by omega, by omega, rfl⟩, tb, htb, _, ⟨by omega, by omega, rfl⟩, te, hte,
      _, ⟨by omega, by omega, rfl⟩, reg, hreg, rfl⟩

theorem stringValue_raw {d : Bytes} {s : StringValue} (h : unmarshalStringValue d = .ok s) : s.rawData = some d := by
  have hl := (stringValue_accepts_iff d).mp ⟨s, h⟩
  match d, hl with
  | c :: x :: t, _ =>
    rw [unmarshalStringValue_eq c (x :: t) (by simp), Res.ok.injEq] at h
    subst h
    rfl

/-- The parsed registration number keeps the bytes it was parsed from. -/
theorem eventRecord_number {d : Bytes} (hd : d.length = 24) {m : EventRecord} (h : unmarshalEventRecord d = .ok m) :
    m.withNumberRaw (some (sl d 10 24)) = m := by
  obtain ⟨hl, b, t, tb, te, reg, _, _, _, _, hreg, rfl⟩ := eventRecord_parse h
  simp only [unmarshalVehicleRegistration, Res.pure_eq, guard_eq_ok, bind_eq_ok, Res.ok.injEq, at?_iff, sl?_iff] at hreg
  obtain ⟨_, b0, _, nd, ⟨_, _, rfl⟩, s, hs, rfl⟩ := hreg
  have hs' : s.rawData = some (sl d 10 24) := by
    rw [sl_sl (by omega)] at hs
    exact stringValue_raw hs
  simp only [EventRecord.withNumberRaw, Option.map_some, ← hs']

/-- One token, when its slice still shows what it showed. -/
theorem eventToken_retained {heap : List Bytes} {t : Tok} (hl : t.bytes.length = 24) (hr : deref heap t.ref = some t.bytes) :
    unmarshalEventToken heap t = eventOf t.bytes := by
  unfold unmarshalEventToken eventOf
  rw [sl?_ok (by omega) (by omega), Res.bind_ok]
  split
  · rw [hr]; rfl
  · cases h : unmarshalEventRecord t.bytes with
    | ok m =>
      simp only [Res.bind_ok, hr, Option.map_some, Res.pure_eq, eventRecord_number hl h]
    | err m => rfl
    | panic => rfl

/-- One token in general: only the kept slices depend on the buffers. -/
theorem eventToken_fields {heap : List Bytes} {t : Tok} (hl : t.bytes.length = 24) (r : EventRecord)
    (h : unmarshalEventToken heap t = .ok r) : ∃ r', eventOf t.bytes = .ok r' ∧ decodedFields r' = decodedFields r := by
  unfold unmarshalEventToken at h
  unfold eventOf
  rw [sl?_ok (by omega) (by omega), Res.bind_ok] at h
  split at h
  · rename_i hz
    rw [if_pos hz]
    rw [Res.pure_eq, Res.ok.injEq] at h
    subst h
    exact ⟨_, rfl, rfl⟩
  · rename_i hz
    rw [if_neg hz]
    simp only [bind_eq_ok, Res.pure_eq, Res.ok.injEq] at h
    obtain ⟨m, hm, rfl⟩ := h
    refine ⟨m, hm, ?_⟩
    unfold decodedFields EventRecord.withNumberRaw
    cases m.registration with
    | none => rfl
    | some v => obtain ⟨n, s⟩ := v; cases s <;> rfl

theorem eventToken_accepts {heap : List Bytes} {t : Tok} (hl : t.bytes.length = 24) :
    (∃ r, unmarshalEventToken heap t = .ok r) ↔ ∃ r, eventOf t.bytes = .ok r := by
  constructor
  · rintro ⟨r, h⟩
    obtain ⟨r', h', _⟩ := eventToken_fields hl r h
    exact ⟨r', h'⟩
  · rintro ⟨r, h⟩
    unfold unmarshalEventToken
    unfold eventOf at h
    rw [sl?_ok (by omega) (by omega), Res.bind_ok]
    split at h
    · rename_i hz; rw [if_pos hz]; exact ⟨_, rfl⟩
    · rename_i hz; rw [if_neg hz, h]; exact ⟨_, rfl⟩

theorem events_eq (d : Bytes) : unmarshalEventsData d =
    mapRes (unmarshalEventToken (scanAll (splitFixed 24) d).heap) (scanAll (splitFixed 24) d).toks := by
  unfold unmarshalEventsData
  simp only [(scan_fixed (by omega : 0 < 24) (by omega) d).2]
  cases mapRes (unmarshalEventToken (scanAll (splitFixed 24) d).heap) (scanAll (splitFixed 24) d).toks <;> rfl

/-- C28: event and fault files are accepted exactly when every used record names a known event type. -/
theorem events_accepts_iff (d : Bytes) : (∃ rs, unmarshalEventsData d = .ok rs) ↔
    AllRecords 0 24 d (fun x => beNat (sl x 1 5) ≠ 0 → ByteAt x 0 (Known eventFaultTypeTable)) := by
  have hs := (scan_fixed (by omega : 0 < 24) (by omega) d).1
  rw [events_eq, mapRes_exists_iff, ← forall_cut_iff (by omega)]
  simp only [List.drop_zero]
  rw [← hs, List.forall_mem_map]
  refine forall₂_congr fun t ht => ?_
  have hl := tok_sizes (by omega : 0 < 24) (by omega) d t ht
  rw [eventToken_accepts hl]
  unfold eventOf
  split
  · rename_i hz; simp [hz]
  · rename_i hz
    rw [eventRecord_accepts_iff]
    simp [hz, hl]

/-- C28, C05: whatever the scanner does with its buffers, every decoded field of every record comes from that
record's own 24 bytes. -/
theorem events_fields (d : Bytes) (rs : List EventRecord) (h : unmarshalEventsData d = .ok rs) :
    RecordsAre (fun x => eventOf x >>= fun r => .ok (decodedFields r)) 0 24 d (rs.map decodedFields) := by
  have hs := (scan_fixed (by omega : 0 < 24) (by omega) d).1
  rw [← mapRes_cut_iff (by omega), List.drop_zero, ← hs, mapRes_ok_iff, List.forall₂_map_left_iff, List.forall₂_map_right_iff]
  rw [events_eq, mapRes_ok_iff] at h
  have hl := tok_sizes (by omega : 0 < 24) (by omega) d
  generalize (scanAll (splitFixed 24) d).toks = ts at h hl
  induction h with
  | nil => exact .nil
  | @cons t r ts rs ht _ ih =>
    rw [List.forall_mem_cons] at hl
    refine .cons ?_ (ih hl.2)
    obtain ⟨r', h1, h2⟩ := eventToken_fields hl.1 r ht
    rw [h1, Res.bind_ok, h2]

/-- C28, C05: for sizes the scanner never moves, the records are exactly those of the file. -/
theorem events_ok_iff (d : Bytes) (hd : NeverMoved 24 d.length) (rs : List EventRecord) :
    unmarshalEventsData d = .ok rs ↔ RecordsAre eventOf 0 24 d rs := by
  have hs := (scan_fixed (by omega : 0 < 24) (by omega) d).1
  rw [events_eq, ← mapRes_cut_iff (by omega), List.drop_zero, ← hs, mapRes_map]
  have hr := retained_safe (by omega : 0 < 24) (by omega) d hd
  rw [mapRes_congr fun t ht => eventToken_retained (tok_sizes (by omega : 0 < 24) (by omega) d t ht) (hr t ht)]

omit [Charmap] in
theorem eventFault_table : eventFaultTypeTable ∈ allEnumTables := by decide

omit [Charmap] in
/-- C22: writing an event or fault record never panics and only extends the buffer. -/
theorem appendEventRecord_appends (r : EventRecord) : Appends (appendEventRecord · r) := by
  unfold appendEventRecord
  by_cases h : r.valid = false
  · simp only [if_pos h]
    exact Or.inl ⟨_, trivial, fun _ => rfl⟩
  · simp only [if_neg h]
    have h1 : Appends (fun dst : Bytes => .ok (dst ++ [marshalEnumLax eventFaultTypeTable r.type])) := Or.inl ⟨_, trivial, fun _ => rfl⟩
    have := appends_seq h1 (appends_seq (appendTimeReal_exact r.beginTime).appends (appends_seq (appendTimeReal_exact r.endTime).appends
      (appendVehicleRegistration_size r.registration).appends))
    simpa only [Res.bind_ok] using this

/-- What writing one parsed record gives. -/
theorem eventOf_restores {x : Bytes} (hl : x.length = 24) {r : EventRecord} (h : eventOf x = .ok r) :
    AppendsExactly 24 (appendEventRecord · r) ∧
    (appendEventRecord [] r = .ok x ↔
      (beNat (sl x 1 5) ≠ 0 → ByteAt x 9 (Known nationNumericTable) ∧ ByteAt x 10 KnownCodePage)) := by
  unfold eventOf at h
  split at h
  · rename_i hz
    rw [Res.ok.injEq] at h
    subst h
    exact ⟨appendsExactly_const hl, by simp [appendEventRecord, hz]⟩
  · rename_i hz
    obtain ⟨_, b, t, tb, te, reg, hb, ht, htb, hte, hreg, rfl⟩ := eventRecord_parse h
    obtain ⟨h1, h2⟩ := registration_restores hreg
    rw [byteAt_sl (by omega)] at h1 h2
    simp only [appendEventRecord, marshalEnumLax_known eventFault_table ht, timeReal_slice htb, timeReal_slice hte, Res.bind_ok,
      Bool.true_eq_false, if_false, List.append_assoc]
    by_cases hk : ByteAt x 9 (Known nationNumericTable)
    · obtain ⟨out, ho, hol, hoi⟩ := h1 hk
      rw [byteAt_sl (by omega)] at hoi
      simp only [ho]
      have hd : x = [b] ++ (sl x 1 5 ++ (sl x 5 9 ++ sl x 9 24)) := by
        rw [← hb]
        conv => lhs; rw [← List.take_length (l := x), hl, take_eq_sl]
        join_slices
      refine ⟨Or.inl ⟨[b] ++ (sl x 1 5 ++ (sl x 5 9 ++ out)), by simp [hol]; omega, fun dst => by simp⟩, ?_⟩
      conv => lhs; rhs; rw [hd]
      simp [hoi, hk, hz]
    · obtain ⟨e, he⟩ := h2 hk ([b] ++ (sl x 1 5 ++ sl x 5 9))
      refine ⟨?_, ?_⟩
      · rcases appendVehicleRegistration_size (some reg) with ⟨o, _, ho⟩ | ⟨m, hm⟩
        · dsimp only at ho; rw [ho] at he; cases he
        · exact Or.inr ⟨m, fun dst => hm _⟩
      · simp only [List.nil_append]
        rw [he]
        simp [hk, hz]

/-- C28: for such sizes the file is restored, without the bytes behind its last whole record, exactly when every
used record has a known nation and code page. -/
theorem events_restores_iff (d dst : Bytes) (hd : NeverMoved 24 d.length) (rs : List EventRecord) (h : unmarshalEventsData d = .ok rs) :
    appendEventsData dst rs = .ok (dst ++ wholeRecords 0 24 d) ↔
      AllRecords 0 24 d (fun x => beNat (sl x 1 5) ≠ 0 → ByteAt x 9 (Known nationNumericTable) ∧ ByteAt x 10 KnownCodePage) := by
  have h3 := (events_ok_iff d hd rs).mp h
  rw [← mapRes_cut_iff (by omega), List.drop_zero] at h3
  have hsz := cut_sizes (by omega : 0 < 24) d
  have h4 : mapRes (fun x => if x.length = 24 then eventOf x else .err "") (cut 24 d) = .ok rs := by
    rw [← h3]
    exact mapRes_congr fun x hx => by rw [if_pos (hsz x hx)]
  have key : ∀ x r, (if x.length = 24 then eventOf x else .err "") = .ok r → AppendsExactly 24 (appendEventRecord · r) ∧
    (appendEventRecord [] r = .ok x ↔
      (beNat (sl x 1 5) ≠ 0 → ByteAt x 9 (Known nationNumericTable) ∧ ByteAt x 10 KnownCodePage)) := by
    intro x r hx
    split at hx
    · rename_i hl; exact eventOf_restores hl hx
    · cases hx
  have hg : ∀ r ∈ rs, AppendsExactly 24 (appendEventRecord · r) := by
    intro r hr
    obtain ⟨x, _, hx⟩ := mapRes_mem h4 r hr
    exact (key x r hx).1
  unfold appendEventsData
  rw [appendEach_eq (fun r hr => AppendsWith.mono (hg r hr) fun _ _ => trivial), ← forall_cut_iff (by omega), List.drop_zero,
    wholeRecords_split (by omega), List.take_zero, List.nil_append, List.drop_zero]
  have := mapRes_restores h4 hg hsz (fun x r hx => (key x r hx).2) dst []
  simpa only [List.append_nil] using this

/-- C05: for every other size some event file without any used record is accepted and written differently. -/
theorem events_overwritten (size : Nat) (hbad : ¬ NeverMoved 24 size) :
    ∃ d rs, d.length = size ∧ unmarshalEventsData d = .ok rs ∧ appendEventsData [] rs ≠ .ok (wholeRecords 0 24 d) := by
  have hge : 24 ≤ size := by
    apply Nat.le_of_not_lt
    intro hc
    exact hbad ⟨by omega, Or.inr ⟨by omega, by omega⟩⟩
  have hlen : ((1 : UInt8) :: zeros (size - 1)).length = size := by simp; omega
  have hacc : ∃ rs, unmarshalEventsData ((1 : UInt8) :: zeros (size - 1)) = .ok rs := by
    rw [events_accepts_iff]
    intro i hi hz
    exfalso
    apply hz
    have : sl (record 0 24 i ((1 : UInt8) :: zeros (size - 1))) 1 5 = zeros 4 := by
      unfold recordCount at hi
      have h5 : sl (record 0 24 i ((1 : UInt8) :: zeros (size - 1))) 1 5 =
          ((((1 : UInt8) :: zeros (size - 1)).drop (0 + i * 24)).drop 1).take 4 := by
        unfold sl record
        rw [List.take_take, List.drop_take]
        rfl
      rw [h5, List.drop_drop, Nat.zero_add, List.drop_succ_cons]
      simp only [zeros, List.drop_replicate, List.take_replicate]
      congr 1
      omega
    rw [this]
    rfl
  obtain ⟨rs, hrs⟩ := hacc
  refine ⟨_, rs, hlen, hrs, ?_⟩
  rw [← hlen] at hbad
  obtain ⟨t, ts, ht, hb, r, v, hd, hv0, hv1, h0⟩ := retained_moved (by omega : 0 < 24) (by omega) _ hbad
  have hl := tok_sizes (by omega : 0 < 24) (by omega) _ t (by rw [ht]; exact List.mem_cons_self)
  rw [events_eq, ht] at hrs
  simp only [mapRes, bind_eq_ok, Res.pure_eq, Res.ok.injEq] at hrs
  obtain ⟨r1, hr1, rs', hrs', rfl⟩ := hrs
  have hz : sl t.bytes 1 5 = zeros 4 := by
    rw [hb]
    simp only [sl, List.take_take, List.take_succ_cons, List.drop_succ_cons, List.drop_zero, zeros, List.take_replicate]
    congr 1
    omega
  unfold unmarshalEventToken at hr1
  rw [sl?_ok (by omega) (by omega), Res.bind_ok, hz, if_pos (by rfl), Res.pure_eq, Res.ok.injEq, hd] at hr1
  subst hr1
  obtain ⟨v, rfl⟩ : ∃ u, v = u + 1 := ⟨v - 1, by omega⟩
  rw [List.length_cons] at hv1
  rw [List.getElem?_cons_succ, zeros, List.getElem?_replicate, if_pos (by simpa using hv1)] at h0
  match r, h0 with
  | y :: r, h0 =>
    have hy : y = 0 := by simpa using h0
    subst hy
    intro hc
    unfold appendEventsData at hc
    rw [appendEach_eq (fun r _ => appendEventRecord_appends r)] at hc
    simp only [mapRes, bind_eq_ok, Res.pure_eq, Res.ok.injEq] at hc
    obtain ⟨_, ⟨o1, ho1, outs, _, rfl⟩, hc⟩ := hc
    have ho1 : o1 = 0 :: r := by simpa [appendEventRecord] using ho1.symm
    rw [ho1, List.nil_append, List.flatten_cons, List.cons_append, wholeRecords] at hc
    have h6 : 0 < 0 + recordCount 0 24 ((1 : UInt8) :: zeros (size - 1)) * 24 := by
      unfold recordCount; rw [hlen]; omega
    obtain ⟨k, hk⟩ : ∃ k, 0 + recordCount 0 24 ((1 : UInt8) :: zeros (size - 1)) * 24 = k + 1 := ⟨_, (Nat.succ_pred_eq_of_pos h6).symm⟩
    rw [hk, List.take_succ_cons] at hc
    injection hc with hc _
    exact absurd hc (by decide)

omit [Charmap] in
/-- C22 -/
theorem appendEventsData_appends (rs : List EventRecord) : Appends (appendEventsData · rs) :=
  appendEach_appends fun r _ => appendEventRecord_appends r

end

/-! ## EF_GNSS_Places -/

theorem gnssEntry_parse {d : Bytes} {m : GnssPlaceEntry} (h : unmarshalGnssPlaceEntry d = .ok m) :
    d.length = 18 ∧ ∃ ts g, unmarshalTimeReal (sl d 0 4) = .ok ts ∧ unmarshalGNSSPlaceRecord (sl d 4 15) = .ok g ∧
      m = ⟨ts, some g, (beNat (sl d 15 18) : Int)⟩ := by
  simp only [unmarshalGnssPlaceEntry, Res.pure_eq, guard_eq_ok, bind_eq_ok, Res.ok.injEq, sl?_iff, odometer_accepts_iff] at h
  obtain ⟨hl, _, ⟨_, _, rfl⟩, ts, hts, _, ⟨_, _, rfl⟩, g, hg, _, ⟨_, _, rfl⟩, o, ⟨_, rfl⟩, rfl⟩ := h
  exact ⟨by omega, ts, g, hts, hg, rfl⟩

/-- C23: an 18-byte record is always accepted. -/
theorem gnssEntry_accepts_iff (d : Bytes) : (∃ m, unmarshalGnssPlaceEntry d = .ok m) ↔ d.length = 18 := by
  constructor
  · rintro ⟨m, h⟩; exact (gnssEntry_parse h).1
  · intro hl
    obtain ⟨ts, hts⟩ := timeReal_slice_ok (d := d) (a := 0) (b := 4) rfl (by omega)
    obtain ⟨g, hg⟩ := (gnss_accepts_iff (sl d 4 15)).mpr (by simp; omega)
    simp only [unmarshalGnssPlaceEntry, Res.pure_eq, guard_eq_ok, bind_eq_ok, Res.ok.injEq, sl?_iff, odometer_accepts_iff]
    exact ⟨_, by omega, _, ⟨by omega, by omega, rfl⟩, ts, hts, _, ⟨by omega, by omega, rfl⟩, g, hg, _, ⟨by omega, by omega, rfl⟩,
      _, ⟨by simp; omega, rfl⟩, rfl⟩

/-- C48 -/
theorem gnssEntry_fields (d : Bytes) (m : GnssPlaceEntry) (h : unmarshalGnssPlaceEntry d = .ok m) :
    m.timestamp = instant (sl d 0 4) ∧ (∃ g, unmarshalGNSSPlaceRecord (sl d 4 15) = .ok g ∧ m.place = some g) ∧
      m.odometerKm = (beNat (sl d 15 18) : Int) := by
  obtain ⟨_, ts, g, hts, hg, rfl⟩ := gnssEntry_parse h
  exact ⟨timeReal_instant hts, ⟨g, hg, rfl⟩, rfl⟩

/-- C23: the record is restored exactly when its odometer is at most 999999 km; otherwise it cannot be written. -/
theorem gnssEntry_restores_iff (d dst : Bytes) (m : GnssPlaceEntry) (h : unmarshalGnssPlaceEntry d = .ok m) :
    (appendGnssPlaceEntry dst m = .ok (dst ++ d) ↔ beNat (sl d 15 18) ≤ 999999) ∧
    ((∃ e, appendGnssPlaceEntry dst m = .err e) ↔ 999999 < beNat (sl d 15 18)) := by
  obtain ⟨hl, ts, g, hts, hg, rfl⟩ := gnssEntry_parse h
  simp only [appendGnssPlaceEntry, timeReal_slice hts, Res.bind_ok, gnss_roundtrip _ _ _ hg, Res.pure_eq]
  by_cases hk : beNat (sl d 15 18) ≤ 999999
  · rw [if_neg (by omega)]
    have hd : d = sl d 0 4 ++ (sl d 4 15 ++ sl d 15 18) := by
      conv => lhs; rw [← List.take_length (l := d), hl, take_eq_sl]
      join_slices
    simp only [Res.bind_ok, Res.pure_eq, appendOdometer_eq, odometer_slice (d := sl d 15 18) (by simp; omega), List.append_assoc]
    rw [← hd]
    simp [hk]
  · rw [if_pos (by omega)]
    simp [hk]
    omega

/-- C22 -/
theorem appendGnssPlaceEntry_exact (r : GnssPlaceEntry) : AppendsExactly 18 (appendGnssPlaceEntry · r) := by
  unfold appendGnssPlaceEntry
  refine appendsExactly_seq (a := 4) (b := 14) (appendTimeReal_exact r.timestamp) ?_ rfl
  refine appendsExactly_seq (a := 11) (b := 3) (appendGNSSPlaceRecord_exact r.place) ?_ rfl
  by_cases h : r.odometerKm < 0 ∨ r.odometerKm > 999999
  · exact Or.inr ⟨"invalid vehicle odometer value", fun dst => by simp [h]⟩
  · exact Or.inl ⟨beBytes 3 (low 32 r.odometerKm), by simp, fun dst => by simp [h, appendOdometer_eq]⟩

/-- C28: exactly the files with whole records are accepted; header and records are decoded in order. -/
theorem gnssPlaces_ok_iff (d : Bytes) (newest : Int) (rs : List GnssPlaceEntry) : unmarshalGnssPlaces d = .ok (newest, rs) ↔
    2 ≤ d.length ∧ (d.length - 2) % 18 = 0 ∧ newest = (beNat (sl d 0 2) : Int) ∧ RecordsAre unmarshalGnssPlaceEntry 2 18 d rs := by
  have hs := scan_fixed (by omega : 0 < 18) (by omega) (d.drop 2)
  rw [← mapRes_cut_iff (by omega), ← hs.1]
  simp only [unmarshalGnssPlaces, guard_eq_ok, bind_eq_ok, sl?_iff, from?_iff]
  constructor
  · rintro ⟨h1, h2, _, ⟨_, _, rfl⟩, _, ⟨_, rfl⟩, rs', hrs, h⟩
    rw [hs.2] at h
    simp only [Res.pure_eq, Res.ok.injEq, Prod.mk.injEq] at h
    obtain ⟨rfl, rfl⟩ := h
    exact ⟨by omega, by omega, rfl, hrs⟩
  · rintro ⟨h1, h2, rfl, h3⟩
    refine ⟨by omega, by omega, _, ⟨by omega, by omega, rfl⟩, _, ⟨by omega, rfl⟩, rs, h3, ?_⟩
    rw [hs.2]; rfl

/-- C28 -/
theorem gnssPlaces_accepts_iff (d : Bytes) : (∃ m, unmarshalGnssPlaces d = .ok m) ↔ 2 ≤ d.length ∧ (d.length - 2) % 18 = 0 := by
  constructor
  · rintro ⟨⟨n, rs⟩, h⟩
    obtain ⟨h1, h2, _⟩ := (gnssPlaces_ok_iff d n rs).mp h
    exact ⟨h1, h2⟩
  · rintro ⟨h1, h2⟩
    obtain ⟨rs, hrs⟩ := (mapRes_cut_exists (f := unmarshalGnssPlaceEntry) (d := d) (h := 2) (by omega : 0 < 18)).mpr
      (fun i hi => (gnssEntry_accepts_iff _).mpr (record_length hi (by omega)))
    exact ⟨(_, rs), (gnssPlaces_ok_iff d _ rs).mpr ⟨h1, h2, rfl, (mapRes_cut_iff (by omega)).mp hrs⟩⟩

/-- C28: an accepted file is restored exactly when every odometer is at most 999999 km. -/
theorem gnssPlaces_restores_iff (d dst : Bytes) (m : Int × List GnssPlaceEntry) (h : unmarshalGnssPlaces d = .ok m) :
    appendGnssPlaces dst (some m) = .ok (dst ++ d) ↔ AllRecords 2 18 d (fun x => beNat (sl x 15 18) ≤ 999999) := by
  obtain ⟨n, rs⟩ := m
  obtain ⟨h1, h2, rfl, h3⟩ := (gnssPlaces_ok_iff d n rs).mp h
  have hw := (wholeRecords_eq_iff (n := 18) h1).mpr h2
  rw [← mapRes_cut_iff (by omega)] at h3
  have := mapRes_restores h3 (fun r _ => appendGnssPlaceEntry_exact r) (cut_sizes (by omega) _)
    (fun x r hx => by simpa using (gnssEntry_restores_iff x [] r hx).1) (dst ++ d.take 2) []
  rw [forall_cut_iff (by omega)] at this
  rw [← this]
  unfold appendGnssPlaces
  dsimp only
  rw [appendEach_eq (fun r _ => (appendGnssPlaceEntry_exact r).appends), header2 h1]
  conv => lhs; rhs; rw [← hw, wholeRecords_split (by omega)]
  simp only [List.append_nil, List.append_assoc]

/-- C22 -/
theorem appendGnssPlaces_exact (n : Int) (rs : List GnssPlaceEntry) :
    AppendsExactly (2 + rs.length * 18) (appendGnssPlaces · (some (n, rs))) := by
  have := mapRes_size (beBytes 2 (low 16 n)) (fun r (_ : r ∈ rs) => appendGnssPlaceEntry_exact r)
  simp only [beBytes_length] at this
  unfold appendGnssPlaces
  simp only [appendEach_eq (fun r (_ : r ∈ rs) => (appendGnssPlaceEntry_exact r).appends), List.append_assoc]
  exact this

/-! ## EF_Vehicle_Units_Used -/

/-- One 10-byte record: instant, manufacturer, device id, software version. -/
def Spec.vehicleUnitOf (x : Bytes) : VehicleUnitRecord :=
  { timestamp := instant (sl x 0 4), manufacturerCode := ((x.getD 4 0).toNat : Int), deviceId := sl x 5 6, softwareVersion := sl x 6 10 }

theorem vehicleUnitToken_ok (heap : List Bytes) (t : Tok) (hl : t.bytes.length = 10) : unmarshalVehicleUnitToken heap t =
    .ok { vehicleUnitOf t.bytes with
      deviceId := sl ((deref heap t.ref).getD []) 5 6, softwareVersion := sl ((deref heap t.ref).getD []) 6 10 } := by
  obtain ⟨ts, hts⟩ := timeReal_slice_ok (d := t.bytes) (a := 0) (b := 4) rfl (by omega)
  simp only [unmarshalVehicleUnitToken, Res.pure_eq, guard_eq_ok, bind_eq_ok, Res.ok.injEq, sl?_iff, at?_iff]
  refine ⟨by omega, _, ⟨by omega, by omega, rfl⟩, ts, hts, _, ⟨by omega, sl_eq_singleton (by omega)⟩, _, ⟨by omega, by omega, rfl⟩,
    _, ⟨by omega, by omega, rfl⟩, ?_⟩
  rw [timeReal_instant hts]
  simp only [vehicleUnitOf, List.getD_eq_getElem?_getD, List.getElem?_eq_getElem (by omega : 4 < t.bytes.length), Option.getD_some]

theorem vehicleUnits_eq (d : Bytes) : unmarshalVehicleUnitsUsed d =
    if d.length < 2 ∨ (d.length - 2) % 10 ≠ 0 then
      .err (if d.length < 2 then "invalid data length for CardVehicleUnitsUsed" else "invalid records data length for CardVehicleUnitsUsed")
    else .ok ((beNat (sl d 0 2) : Int), (scanAll (splitFixed 10) (d.drop 2)).toks.map fun t =>
      { vehicleUnitOf t.bytes with
        deviceId := sl ((deref (scanAll (splitFixed 10) (d.drop 2)).heap t.ref).getD []) 5 6
        softwareVersion := sl ((deref (scanAll (splitFixed 10) (d.drop 2)).heap t.ref).getD []) 6 10 }) := by
  unfold unmarshalVehicleUnitsUsed
  by_cases h1 : d.length < 2
  · rw [if_pos h1, if_pos (Or.inl h1), if_pos h1]; rfl
  · by_cases h2 : (d.length - 2) % 10 ≠ 0
    · rw [if_neg h1, if_pos h2, if_pos (Or.inr h2), if_neg h1]; rfl
    · rw [if_neg h1, if_neg h2, if_neg (by omega)]
      have hs := scan_fixed (by omega : 0 < 10) (by omega) (d.drop 2)
      have hz := tok_sizes (by omega : 0 < 10) (by omega) (d.drop 2)
      have hf : from? d 2 = .ok (d.drop 2) := from?_iff.mpr ⟨by omega, rfl⟩
      simp only [Res.pure_eq, Res.bind_ok, sl?_ok (show 0 ≤ 2 by omega) (show 2 ≤ d.length by omega), hf]
      have : mapRes (unmarshalVehicleUnitToken (scanAll (splitFixed 10) (d.drop 2)).heap) (scanAll (splitFixed 10) (d.drop 2)).toks =
          .ok ((scanAll (splitFixed 10) (d.drop 2)).toks.map fun t => { vehicleUnitOf t.bytes with
            deviceId := sl ((deref (scanAll (splitFixed 10) (d.drop 2)).heap t.ref).getD []) 5 6
            softwareVersion := sl ((deref (scanAll (splitFixed 10) (d.drop 2)).heap t.ref).getD []) 6 10 }) := by
        rw [mapRes_ok_iff, List.forall₂_map_right_iff]
        exact List.forall₂_same.mpr fun t ht => vehicleUnitToken_ok _ t (hz t ht)
      rw [this, Res.bind_ok, hs.2]

/-- C28: exactly the files with whole records are accepted. -/
theorem vehicleUnits_accepts_iff (d : Bytes) : (∃ m, unmarshalVehicleUnitsUsed d = .ok m) ↔ 2 ≤ d.length ∧ (d.length - 2) % 10 = 0 := by
  rw [vehicleUnits_eq]
  split
  · simp; omega
  · simp; omega

/-- C28, C05: up to 409 records (4098 bytes), header and records are decoded in order from their own bytes. -/
theorem vehicleUnits_ok_iff (d : Bytes) (hd : d.length ≤ 4098) (newest : Int) (rs : List VehicleUnitRecord) :
    unmarshalVehicleUnitsUsed d = .ok (newest, rs) ↔
    2 ≤ d.length ∧ (d.length - 2) % 10 = 0 ∧ newest = (beNat (sl d 0 2) : Int) ∧ RecordsAre (fun x => .ok (vehicleUnitOf x)) 2 10 d rs := by
  rw [vehicleUnits_eq]
  split
  · simp; omega
  · rename_i hc
    have hr := retained_safe (by omega : 0 < 10) (by omega) (d.drop 2) ⟨by simp; omega, Or.inl (by simp; omega)⟩
    have hs := (scan_fixed (by omega : 0 < 10) (by omega) (d.drop 2)).1
    rw [← mapRes_cut_iff (by omega), ← hs, mapRes_map, mapRes_ok_iff]
    have hmap : (scanAll (splitFixed 10) (d.drop 2)).toks.map (fun t => { vehicleUnitOf t.bytes with
        deviceId := sl ((deref (scanAll (splitFixed 10) (d.drop 2)).heap t.ref).getD []) 5 6
        softwareVersion := sl ((deref (scanAll (splitFixed 10) (d.drop 2)).heap t.ref).getD []) 6 10 }) =
        (scanAll (splitFixed 10) (d.drop 2)).toks.map fun t => vehicleUnitOf t.bytes := by
      refine List.map_congr_left fun t ht => ?_
      rw [hr t ht]
      rfl
    rw [hmap]
    simp only [Res.ok.injEq, Prod.mk.injEq]
    have hf : ∀ (ts : List Tok), List.Forall₂ (fun t y => vehicleUnitOf t.bytes = y) ts rs ↔ ts.map (fun t => vehicleUnitOf t.bytes) = rs := by
      intro ts
      rw [← List.forall₂_eq_eq_eq, List.forall₂_map_left_iff]
    rw [hf]
    constructor
    · rintro ⟨rfl, rfl⟩; exact ⟨by omega, by omega, rfl, rfl⟩
    · rintro ⟨_, _, rfl, rfl⟩; exact ⟨rfl, rfl⟩

/-- C22 -/
theorem appendVehicleUnitRecord_exact (r : VehicleUnitRecord) : AppendsExactly 10 (appendVehicleUnitRecord · r) := by
  unfold appendVehicleUnitRecord
  refine appendsExactly_seq (a := 4) (b := 6) (appendTimeReal_exact r.timestamp) ?_ rfl
  by_cases h1 : r.manufacturerCode < 0 ∨ r.manufacturerCode > 255
  · exact Or.inr ⟨"invalid manufacturer code", fun dst => by simp [h1]⟩
  · by_cases h2 : r.deviceId.length > 1
    · exact Or.inr ⟨"device ID too long", fun dst => by simp [h1, h2]⟩
    · by_cases h3 : r.softwareVersion.length > 4
      · exact Or.inr ⟨"VU software version too long", fun dst => by simp [h1, h2, h3]⟩
      · exact Or.inl ⟨[i2b r.manufacturerCode] ++ [r.deviceId.headD 0] ++ (r.softwareVersion ++ zeros (4 - r.softwareVersion.length)),
          by simp; omega, fun dst => by simp [h1, h2, h3]⟩

theorem vehicleUnitOf_restores (x dst : Bytes) (hl : x.length = 10) : appendVehicleUnitRecord dst (vehicleUnitOf x) = .ok (dst ++ x) := by
  obtain ⟨ts, hts⟩ := timeReal_slice_ok (d := x) (a := 0) (b := 4) rfl (by omega)
  have h4 := sl_eq_singleton (d := x) (i := 4) (by omega)
  have h5 := sl_eq_singleton (d := x) (i := 5) (by omega)
  have hd : x = sl x 0 4 ++ (sl x 4 5 ++ (sl x 5 6 ++ sl x 6 10)) := by
    conv => lhs; rw [← List.take_length (l := x), hl, take_eq_sl]
    join_slices
  have hb : i2b ((x[4].toNat : Nat) : Int) = x[4] := i2b_toNat _
  have hlt := x[4].toNat_lt
  simp only [appendVehicleUnitRecord, vehicleUnitOf, ← timeReal_instant hts, timeReal_slice hts, Res.bind_ok]
  simp only [List.getD_eq_getElem?_getD, List.getElem?_eq_getElem (by omega : 4 < x.length), Option.getD_some, hb]
  have h6 : (sl x 6 10).length = 4 := by simp; omega
  rw [if_neg (by omega), h5, if_neg (by simp), if_neg (by omega)]
  simp only [Res.pure_eq, Res.bind_ok, List.headD_cons, h6, Nat.sub_self, List.append_assoc]
  conv => rhs; rw [hd, h4, h5]
  simp [zeros]

/-- C28: up to 4098 bytes, every accepted file is restored. -/
theorem vehicleUnits_restores (d dst : Bytes) (hd : d.length ≤ 4098) (m : Int × List VehicleUnitRecord)
    (h : unmarshalVehicleUnitsUsed d = .ok m) : appendVehicleUnitsUsed dst (some m) = .ok (dst ++ d) := by
  obtain ⟨n, rs⟩ := m
  obtain ⟨h1, h2, rfl, h3⟩ := (vehicleUnits_ok_iff d hd n rs).mp h
  have hw := (wholeRecords_eq_iff (n := 10) h1).mpr h2
  rw [← mapRes_cut_iff (by omega)] at h3
  have hsz := cut_sizes (by omega : 0 < 10) (d.drop 2)
  have h4 : mapRes (fun x => if x.length = 10 then .ok (vehicleUnitOf x) else .err "") (cut 10 (d.drop 2)) = .ok rs := by
    rw [← h3]
    exact mapRes_congr fun x hx => by rw [if_pos (hsz x hx)]
  have := (mapRes_restores h4 (fun r _ => appendVehicleUnitRecord_exact r) hsz (Good := fun _ => True)
    (fun x r hx => by
      split at hx
      · rename_i hl
        rw [Res.ok.injEq] at hx
        subst hx
        simpa using vehicleUnitOf_restores x [] hl
      · cases hx) (dst ++ d.take 2) []).mpr (fun _ _ => trivial)
  unfold appendVehicleUnitsUsed
  dsimp only
  rw [appendEach_eq (fun r _ => (appendVehicleUnitRecord_exact r).appends), header2 h1]
  conv => rhs; rw [← hw, wholeRecords_split (by omega)]
  simpa only [List.append_nil, List.append_assoc] using this

/-- C22 -/
theorem appendVehicleUnitsUsed_exact (n : Int) (rs : List VehicleUnitRecord) :
    AppendsExactly (2 + rs.length * 10) (appendVehicleUnitsUsed · (some (n, rs))) := by
  have := mapRes_size (beBytes 2 (low 16 n)) (fun r (_ : r ∈ rs) => appendVehicleUnitRecord_exact r)
  simp only [beBytes_length] at this
  unfold appendVehicleUnitsUsed
  simp only [appendEach_eq (fun r (_ : r ∈ rs) => (appendVehicleUnitRecord_exact r).appends), List.append_assoc]
  exact this

/-- C05: for every acceptable size above 4098 bytes some file is accepted with a wrong device id. -/
theorem vehicleUnits_overwritten (size : Nat) (hbig : 4098 < size) (hsz : (size - 2) % 10 = 0) :
    ∃ d newest r rs, d.length = size ∧ unmarshalVehicleUnitsUsed d = .ok (newest, r :: rs) ∧
      r.deviceId ≠ (vehicleUnitOf (record 2 10 0 d)).deviceId := by
  have hN : (zeros 5 ++ (1 : UInt8) :: zeros (size - 8)).length = size - 2 := by simp; omega
  have hbad : ¬ NeverMoved 10 (zeros 5 ++ (1 : UInt8) :: zeros (size - 8)).length := by
    rw [hN]; rintro ⟨h, _⟩; omega
  obtain ⟨t, ts, h1, h2, r, h3, h4⟩ := retained_moved_at (by omega : 0 < 10) (by omega) _ hbad
  obtain ⟨v, hv0, hv1, hv⟩ := h4 5 (by omega) (by rw [hN]; unfold overrun; omega)
  have heq := vehicleUnits_eq (0 :: 0 :: (zeros 5 ++ (1 : UInt8) :: zeros (size - 8)))
  have hlen : (0 :: 0 :: (zeros 5 ++ (1 : UInt8) :: zeros (size - 8))).length = size := by
    rw [List.length_cons, List.length_cons, hN]; omega
  rw [hlen, if_neg (by omega)] at heq
  have hdrop : (0 :: 0 :: (zeros 5 ++ (1 : UInt8) :: zeros (size - 8))).drop 2 = zeros 5 ++ (1 : UInt8) :: zeros (size - 8) := rfl
  rw [hdrop, h1] at heq
  refine ⟨_, _, _, _, hlen, heq, ?_⟩
  simp only [h3, Option.getD_some]
  intro hc
  have hrec : record 2 10 0 (0 :: 0 :: (zeros 5 ++ (1 : UInt8) :: zeros (size - 8))) = (zeros 5 ++ (1 : UInt8) :: zeros (size - 8)).take 10 := rfl
  rw [hrec] at hc
  have := congrArg (·[0]?) hc
  simp only [vehicleUnitOf, sl, List.getElem?_drop, List.getElem?_take, Nat.add_zero] at this
  rw [if_pos (by omega), hv] at this
  simp only [zeros] at this
  simp [List.getElem?_append] at this
  obtain ⟨k, rfl⟩ : ∃ k, v = k + 1 := ⟨v - 1, by omega⟩
  rw [List.getElem?_cons_succ, List.getElem?_replicate] at this
  split at this
  · injection this with this
    exact absurd this (by decide)
  · cases this

/-! ## The hypotheses are met -/

/-- A used event record: type 1 (card conflict), begin, end, Sweden, ISO 8859-1 "ABC 123". -/
def Spec.exampleEvent : Bytes := [1, 0x5E, 0, 0, 1, 0x5E, 0, 0, 2, 44, 1] ++ [65, 66, 67, 32, 49, 50, 51, 32, 32, 32, 32, 32, 32]

/-- Two records, one used, one not, and a partial third: accepted and restored but for the partial one. -/
example [Charmap] : ∃ rs, unmarshalEventsData (exampleEvent ++ 9 :: zeros 23 ++ [1, 2]) = .ok rs ∧
    appendEventsData [7] rs = .ok (7 :: (exampleEvent ++ 9 :: zeros 23)) := by
  have hlen : (exampleEvent ++ 9 :: zeros 23 ++ [1, 2]).length = 50 := by decide
  have hall : ∀ P : Bytes → Prop, P exampleEvent → P (9 :: zeros 23) → AllRecords 0 24 (exampleEvent ++ 9 :: zeros 23 ++ [1, 2]) P := by
    intro P h1 h2 i hi
    have hi : i < 2 := by unfold recordCount at hi; rw [hlen] at hi; exact hi
    match i, hi with
    | 0, _ => exact h1
    | 1, _ => exact h2
  obtain ⟨rs, h⟩ := (events_accepts_iff (exampleEvent ++ 9 :: zeros 23 ++ [1, 2])).mpr
    (hall _ (fun _ => ⟨1, rfl, known_iff.mpr ⟨_, rfl⟩⟩) (fun h => absurd rfl h))
  refine ⟨rs, h, ?_⟩
  have := (events_restores_iff _ [7] ⟨by rw [hlen]; omega, Or.inr (by rw [hlen]; omega)⟩ rs h).mpr
    (hall _ (fun _ => ⟨⟨44, rfl, known_iff.mpr ⟨_, rfl⟩⟩, ⟨1, rfl, by decide⟩⟩) (fun h => absurd rfl h))
  exact this

/-- The sizes of real cards are safe: 12 events of 6 types (Gen1), of 11 types (Gen2), 200 vehicle units. -/
example : NeverMoved 24 1728 ∧ NeverMoved 24 3168 ∧ NeverMoved 10 2000 := by simp [NeverMoved]
/-- Unsafe sizes exist: a partial record behind 2064 bytes, anything above 4096. -/
example : ¬ NeverMoved 24 2065 ∧ ¬ NeverMoved 24 4104 ∧ ¬ NeverMoved 10 5000 := by simp [NeverMoved]

/-- Two GNSS records, the second beyond 999999 km: accepted, not restored. -/
example : ∃ m, unmarshalGnssPlaces ([0, 1] ++ zeros 18 ++ zeros 15 ++ [0x0F, 0x42, 0x40]) = .ok m ∧
    appendGnssPlaces [] (some m) ≠ .ok ([0, 1] ++ zeros 18 ++ zeros 15 ++ [0x0F, 0x42, 0x40]) := by
  obtain ⟨m, h⟩ := (gnssPlaces_accepts_iff ([0, 1] ++ zeros 18 ++ zeros 15 ++ [0x0F, 0x42, 0x40])).mpr (by decide)
  refine ⟨m, h, fun hc => ?_⟩
  have := (gnssPlaces_restores_iff _ [] m h).mp hc 1 (by decide)
  exact absurd this (by decide)

/-- Two vehicle units. -/
example : ∃ m, unmarshalVehicleUnitsUsed ([0, 1] ++ [0x5E, 0, 0, 1, 7, 1, 65, 66, 67, 68] ++ zeros 10) = .ok m ∧
    appendVehicleUnitsUsed [9] (some m) = .ok ([9] ++ ([0, 1] ++ [0x5E, 0, 0, 1, 7, 1, 65, 66, 67, 68] ++ zeros 10)) := by
  obtain ⟨m, h⟩ := (vehicleUnits_accepts_iff ([0, 1] ++ [0x5E, 0, 0, 1, 7, 1, 65, 66, 67, 68] ++ zeros 10)).mpr (by decide)
  exact ⟨m, h, vehicleUnits_restores _ [9] (by decide) m h⟩

end Tacho
