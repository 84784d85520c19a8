import Verif.Spec.VuDamage
import Verif.Props.Fidelity
/-!
# C85: damage to one transfer of a vehicle unit download, and a lost transfer
-/

namespace Tacho

open Spec

variable [Charmap]

/-! ## Lists -/

omit [Charmap] in
theorem valuesOf_mid (ty : TransferType) (pre post : List Transfer) (t : Transfer) :
    valuesOf ty (pre ++ t :: post) = valuesOf ty pre ++ (if t.type = ty then [t.value] else []) ++ valuesOf ty post := by
  simp only [valuesOf, List.filter_append, List.map_append, List.filter_cons]
  split <;> simp_all

omit [Charmap] in
theorem sameWhere_refl {α : Type} (p : Prop) (i : Nat) (l : List α) : SameWhere p i l l := ⟨rfl, fun _ _ => rfl⟩

omit [Charmap] in
theorem sameWhere_mid {α : Type} {p : Prop} {i : Nat} {l m : List α} {x y : α} (hp : p) (hi : i = l.length) :
    SameWhere p i (l ++ [x] ++ m) (l ++ [y] ++ m) := by
  subst hi
  refine ⟨by simp, fun j hj => ?_⟩
  have hj := hj hp
  rw [List.append_assoc, List.append_assoc l]
  rcases Nat.lt_trichotomy j l.length with h | h | h
  · rw [List.getElem?_append_left h, List.getElem?_append_left h]
  · exact absurd h hj
  · rw [List.getElem?_append_right (Nat.le_of_lt h), List.getElem?_append_right (Nat.le_of_lt h)]
    obtain ⟨k, hk⟩ : ∃ k, j - l.length = k + 1 := ⟨j - l.length - 1, by omega⟩
    rw [hk]; simp

omit [Charmap] in
/-- Blocks that are kept as they are. -/
theorem sameWhere_map {α : Type} (f : Bytes → α) (ty : TransferType) (pre post : List Transfer) (t t' : Transfer) (ht : t'.type = t.type) :
    SameWhere (t.type = ty) (valuesOf t.type pre).length ((valuesOf ty (pre ++ t :: post)).map f)
      ((valuesOf ty (pre ++ t' :: post)).map f) := by
  rw [valuesOf_mid, valuesOf_mid, ht]
  by_cases h : t.type = ty
  · simp only [if_pos h, List.map_append, List.map_cons, List.map_nil]
    exact sameWhere_mid h (by simp [h])
  · simp only [if_neg h]
    exact sameWhere_refl _ _ _

omit [Charmap] in
/-- Blocks that are decoded. -/
theorem sameWhere_read {α : Type} {f : Bytes → Res α} {ty : TransferType} {pre post : List Transfer} {t t' : Transfer} (ht : t'.type = t.type)
    {l : List α} (h : List.Forall₂ (fun v x => f v = .ok x) (valuesOf ty (pre ++ t :: post)) l)
    (hr : t.type = ty → ∃ x, f t'.value = .ok x) :
    ∃ l', List.Forall₂ (fun v x => f v = .ok x) (valuesOf ty (pre ++ t' :: post)) l' ∧
      SameWhere (t.type = ty) (valuesOf t.type pre).length l l' := by
  rw [valuesOf_mid] at h
  rw [valuesOf_mid, ht]
  by_cases hy : t.type = ty
  · simp only [if_pos hy] at h ⊢
    obtain ⟨m, r, rfl, h1, h3⟩ := forall₂_split h
    obtain ⟨p, q, rfl, h0, h2⟩ := forall₂_split h1
    obtain ⟨x', hx'⟩ := hr hy
    cases h2 with
    | cons hx hn =>
      cases hn
      refine ⟨p ++ [x'] ++ r, List.rel_append (List.rel_append h0 (.cons hx' .nil)) h3, sameWhere_mid hy ?_⟩
      rw [hy, h0.length_eq]
  · simp only [if_neg hy] at h ⊢
    exact ⟨l, h, sameWhere_refl _ _ _⟩

/-! ## Reading transfers -/

/-- The file of these transfers is read as this message. -/
theorem vu_transfers_read {ts : List Transfer} {w : VehicleUnitFile} (h0 : ts ≠ []) (hc : ∀ t ∈ ts, Conforms t.type t.value)
    (h : (Only gen1Types ts ∧ ∃ g, Gen1Is ts g ∧ w = { generation := .gen1, gen1 := some g })
        ∨ (Only [.overviewG2V1, .speedGen2] ts
            ∧ w = { generation := .gen2, version := .v1, gen2V1 := some (gen2Message .overviewG2V1 ts) })
        ∨ (Only [.downloadInterfaceVersion, .overviewG2V2, .speedGen2] ts ∧ ¬ Only [.speedGen2] ts
            ∧ w = { generation := .gen2, version := .v2, gen2V2 := some (gen2Message .overviewG2V2 ts) })) :
    unmarshalFile (vuBytes ts) = .ok { type := .vehicleUnit, vehicleUnit := some w } := by
  rw [file_iff]
  refine .inl ⟨(vuBytes ts).tail, w, ?_, (vu_file_iff _ _).2 ⟨ts, h0, rfl, hc, h⟩, rfl⟩
  cases ts with
  | nil => exact absurd rfl h0
  | cons t ts => simp [vuBytes, Transfer.bytes]

/-- Complete transfers are read or refused; there is no panic. -/
theorem vu_transfers_total {ts : List Transfer} (hc : ∀ t ∈ ts, Conforms t.type t.value ∧ t.type ≠ .cardDownload) :
    unmarshalFile (vuBytes ts) ≠ .panic := by
  intro h
  rcases (file_panics_iff _).1 h with h' | ⟨⟨rest, hr⟩, -⟩
  · have := (vu_panics_iff _).2 h'
    exact vu_no_panic_complete ts (cut_of_conforms (fun t ht => (hc t ht).1) fun t ht => (hc t ht).2) this
  · cases ts with
    | nil => simp [vuBytes] at hr
    | cons t ts =>
      simp only [vuBytes, Transfer.bytes, List.flatMap_cons, List.cons_append, List.cons.injEq] at hr
      exact absurd hr.1 (by decide)

/-- What is read from a vehicle unit file is a vehicle unit message. -/
theorem vu_transfers_kind {ts : List Transfer} {f : File} (h0 : ts ≠ []) (h : unmarshalFile (vuBytes ts) = .ok f) :
    ∃ w, f = { type := .vehicleUnit, vehicleUnit := some w } := by
  rcases (file_iff _ _).1 h with ⟨_, w, _, _, rfl⟩ | ⟨_, _, hr, -⟩
  · exact ⟨w, rfl⟩
  · cases ts with
    | nil => exact absurd rfl h0
    | cons t ts =>
      simp only [vuBytes, Transfer.bytes, List.flatMap_cons, List.cons_append, List.cons.injEq] at hr
      exact absurd hr.1 (by decide)

omit [Charmap] in
theorem only_mid {types : List TransferType} {pre post : List Transfer} {t t' : Transfer} (ht : t'.type = t.type)
    (h : Only types (pre ++ t :: post)) : Only types (pre ++ t' :: post) := by
  intro x hx
  simp only [List.mem_append, List.mem_cons] at hx
  rcases hx with hx | rfl | hx
  · exact h x (by simp [hx])
  · rw [ht]; exact h t (by simp)
  · exact h x (by simp [hx])

omit [Charmap] in
theorem gen2Message_mid {ov : TransferType} {pre post : List Transfer} {t t' : Transfer} (ht : t'.type = t.type) :
    SameVu2But ov t.type (valuesOf t.type pre).length (gen2Message ov (pre ++ t :: post)) (gen2Message ov (pre ++ t' :: post)) := by
  refine ⟨fun h => ?_, rfl, rfl, sameWhere_map RawGen2.mk _ pre post t t' ht, rfl⟩
  simp only [gen2Message, valuesOf_mid, ht, if_neg h]

/-! ## C85 -/

/-- C85: one transfer of an accepted download is replaced by other bytes that make a complete transfer of the same type.
The download is refused exactly if these bytes cannot be decoded; otherwise it is accepted and everything but that
transfer is reported as before. -/
theorem vu_damage (pre post : List Transfer) (t t' : Transfer)
    (hc : ∀ x ∈ pre ++ t :: post, Conforms x.type x.value ∧ x.type ≠ .cardDownload)
    (ht : t'.type = t.type) (hc' : Conforms t'.type t'.value) (a : VehicleUnitFile)
    (h : unmarshalFile (vuBytes (pre ++ t :: post)) = .ok { type := .vehicleUnit, vehicleUnit := some a }) :
    (Readable t' ∧ ∃ b, unmarshalFile (vuBytes (pre ++ t' :: post)) = .ok { type := .vehicleUnit, vehicleUnit := some b } ∧
        SameVuBut t.type (valuesOf t.type pre).length a b) ∨
      (¬ Readable t' ∧ ∃ m, unmarshalFile (vuBytes (pre ++ t' :: post)) = .err m) := by
  obtain ⟨-, hta⟩ := vu_of_transfers hc h
  have hcm : ∀ x ∈ pre ++ t' :: post, Conforms x.type x.value ∧ x.type ≠ .cardDownload := by
    intro x hx
    simp only [List.mem_append, List.mem_cons] at hx
    rcases hx with hx | rfl | hx
    · exact hc x (by simp [hx])
    · exact ⟨hc', ht ▸ (hc t (by simp)).2⟩
    · exact hc x (by simp [hx])
  have hne : pre ++ t' :: post ≠ [] := by simp
  by_cases hr : Readable t'
  · refine .inl ⟨hr, ?_⟩
    rcases hta with ⟨ho, g, ⟨os, h1, h2, h3, h4, h5, h6⟩, rfl⟩ | ⟨ho, rfl⟩ | ⟨ho, hno, rfl⟩
    · obtain ⟨os', b1, s1⟩ := sameWhere_read ht h1 (fun e => hr.1 (ht.trans e))
      obtain ⟨as', b3, s3⟩ := sameWhere_read ht h3 (fun e => hr.2 (ht.trans e))
      refine ⟨_, vu_transfers_read hne (fun x hx => (hcm x hx).1) (.inl ⟨only_mid ht ho,
        { overview := os'.getLast?, activities := as'
          eventsAndFaults := (valuesOf .eventsGen1 (pre ++ t' :: post)).map signed
          detailedSpeed := (valuesOf .speedGen1 (pre ++ t' :: post)).map signed
          technicalData := (valuesOf .technicalGen1 (pre ++ t' :: post)).map signed },
        ⟨os', b1, rfl, b3, rfl, rfl, rfl⟩, rfl⟩), rfl, rfl, .some ⟨?_, s3, ?_, ?_, ?_⟩, .none, .none⟩
      · intro hn
        have : os' = os := by
          apply List.ext_getElem?
          intro j
          exact s1.2 j (fun e => absurd e hn)
        rw [h2, this]
      · rw [h4]; exact sameWhere_map signed _ pre post t t' ht
      · rw [h5]; exact sameWhere_map signed _ pre post t t' ht
      · rw [h6]; exact sameWhere_map signed _ pre post t t' ht
    · exact ⟨_, vu_transfers_read hne (fun x hx => (hcm x hx).1) (.inr (.inl ⟨only_mid ht ho, rfl⟩)), rfl, rfl, .none,
        .some (gen2Message_mid ht), .none⟩
    · refine ⟨_, vu_transfers_read hne (fun x hx => (hcm x hx).1) (.inr (.inr ⟨only_mid ht ho, fun hs => hno ?_, rfl⟩)), rfl, rfl, .none,
        .none, .some (gen2Message_mid ht)⟩
      exact only_mid ht.symm hs
  · refine .inr ⟨hr, ?_⟩
    cases hu : unmarshalFile (vuBytes (pre ++ t' :: post)) with
    | err m => exact ⟨m, rfl⟩
    | panic => exact absurd hu (vu_transfers_total hcm)
    | ok f =>
      exfalso
      apply hr
      obtain ⟨w, rfl⟩ := vu_transfers_kind hne hu
      obtain ⟨-, hw⟩ := vu_of_transfers hcm hu
      have hmem : ∀ ty, t'.type = ty → t'.value ∈ valuesOf ty (pre ++ t' :: post) := by
        intro ty e
        rw [valuesOf_mid]
        simp [e]
      rcases hw with ⟨ho, g, ⟨os, h1, h2, h3, h4, h5, h6⟩, rfl⟩ | ⟨ho, rfl⟩ | ⟨ho, hno, rfl⟩
      · refine ⟨fun e => ?_, fun e => ?_⟩
        · obtain ⟨i, hi⟩ := List.mem_iff_getElem.1 (hmem _ e)
          obtain ⟨hi, he⟩ := hi
          have := List.Forall₂.get h1 hi (h1.length_eq ▸ hi)
          simp only [List.get_eq_getElem, he] at this
          exact ⟨_, this⟩
        · obtain ⟨i, hi⟩ := List.mem_iff_getElem.1 (hmem _ e)
          obtain ⟨hi, he⟩ := hi
          have := List.Forall₂.get h3 hi (h3.length_eq ▸ hi)
          simp only [List.get_eq_getElem, he] at this
          exact ⟨_, this⟩
      all_goals
        have := ho t' (by simp)
        refine ⟨fun e => ?_, fun e => ?_⟩ <;>
        · rw [e] at this
          exact absurd this (by decide)

/-! ### Signatures -/

omit [Charmap] in
theorem byteAt_swap {b s s' : Bytes} {i : Nat} {P : UInt8 → Prop} (hi : i < b.length) : ByteAt (b ++ s) i P ↔ ByteAt (b ++ s') i P := by
  unfold ByteAt
  rw [List.getElem?_append_left hi, List.getElem?_append_left hi]

omit [Charmap] in
theorem sl_swap {b s s' : Bytes} {i j : Nat} (hj : j ≤ b.length) : sl (b ++ s) i j = sl (b ++ s') i j := by
  rw [sl_append_left hj, sl_append_left hj]

omit [Charmap] in
theorem lists_swap {α : Type} {Is : Bytes → α → Prop} {off size n : Nat} {b s s' : Bytes} {xs : List α} (hb : off + n * size ≤ b.length)
    (h : Lists Is off size n (b ++ s) xs) : Lists Is off size n (b ++ s') xs := by
  refine ⟨h.1, fun i hi => ?_⟩
  have := h.2 i hi
  rw [record_eq_sl] at this ⊢
  have hi' : i < n := h.1 ▸ hi
  have h2 : off + i * size + size ≤ b.length := by
    have : (i + 1) * size ≤ n * size := Nat.mul_le_mul_right _ hi'
    rw [Nat.add_mul] at this
    omega
  rwa [sl_swap (s' := s) h2]

/-- C85: the signature of an overview is not looked at: with another one the same contents are reported. -/
theorem overview_other_signature (b s s' : Bytes) (hs : s.length = 128) (hs' : s'.length = 128) (o : OverviewGen1)
    (h : unmarshalOverviewGen1 (b ++ s) = .ok o) :
    unmarshalOverviewGen1 (b ++ s') = .ok { o with rawData := b ++ s', signature := s' } := by
  obtain ⟨n, k, ⟨a1, a2, a3⟩, c1, c2, c3, c4, c5, c6, c7, c8, c9, c10, c11, c12⟩ := (overview_iff _ _).1 h
  simp only [List.length_append, hs] at a3
  have hb : b.length = 492 + n * 98 + 1 + k * 31 := by omega
  refine (overview_iff _ _).2 ⟨n, k, ⟨(byteAt_swap (by omega)).1 a1, (byteAt_swap (by omega)).1 a2, by simp [hs', hb]⟩, rfl, ?_, ?_, ?_, ?_, ?_,
    ?_, (byteAt_swap (by omega)).1 c8, ?_, lists_swap (by omega) c10, lists_swap (by omega) c11, ?_⟩
  · rw [sl_swap (s' := s) (by omega)]; exact c2
  · rw [sl_swap (s' := s) (by omega)]; exact c3
  · rw [sl_swap (s' := s) (by omega)]; exact c4
  · rw [sl_swap (s' := s) (by omega)]; exact c5
  · rw [sl_swap (s' := s) (by omega)]; exact c6
  · rw [sl_swap (s' := s) (by omega), sl_swap (s := s') (s' := s) (i := 428) (by omega)]; exact c7
  · rw [sl_swap (s := s') (s' := s) (i := 437) (by omega), sl_swap (s := s') (s' := s) (i := 455) (by omega),
      sl_swap (s := s') (s' := s) (i := 433) (by omega)]
    exact c9
  · simp only [← hb, List.length_append]
    rw [sl_append_right (by omega)]
    simp [sl]

/-- C85: the signature of a day of activities is not looked at either. -/
theorem activities_other_signature (b s s' : Bytes) (hs : s.length = 128) (hs' : s'.length = 128) (m : ActivitiesGen1)
    (h : unmarshalActivitiesGen1 (b ++ s) = .ok m) :
    unmarshalActivitiesGen1 (b ++ s') = .ok { m with rawData := b ++ s', signature := s' } := by
  obtain ⟨n, k, p, q, ⟨a1, a2, a3, a4, a5⟩, c1, c2, c3, c4, c5, c6, c7, c8⟩ := (activities_iff _ _).1 h
  simp only [List.length_append, hs] at a5
  have hb : b.length = 9 + n * 129 + 2 + k * 2 + 1 + p * 28 + 2 + q * 5 := by omega
  refine (activities_iff _ _).2 ⟨n, k, p, q, ⟨?_, ?_, (byteAt_swap (by omega)).1 a3, ?_, by simp [hs', hb]⟩, rfl, ?_, ?_,
    lists_swap (by omega) c4, lists_swap (by omega) c5, lists_swap (by omega) c6, lists_swap (by omega) c7, ?_⟩
  · rw [sl_swap (s' := s) (by omega)]; exact a1
  · rw [sl_swap (s' := s) (by omega)]; exact a2
  · rw [sl_swap (s' := s) (by omega)]; exact a4
  · rw [sl_swap (s' := s) (by omega)]; exact c2
  · rw [sl_swap (s' := s) (by omega)]; exact c3
  · simp only [← hb, List.length_append]
    rw [sl_append_right (by omega)]
    simp [sl]

omit [Charmap] in
theorem fills_swap {ps : List Piece} {b s s' : Bytes} (hs : s.length = 128) (hs' : s'.length = 128)
    (h : Fills (ps ++ [.fixed 128]) (b ++ s)) : Fills (ps ++ [.fixed 128]) (b ++ s') := by
  induction ps generalizing b with
  | nil =>
    obtain ⟨x, y, h1, h2, h3⟩ := h
    simp only [Piece.Fills] at h2
    have h3 : y = [] := h3
    subst h3
    have := congrArg List.length h1
    simp only [List.length_append, List.length_nil] at this
    have hb : b = [] := List.eq_nil_of_length_eq_zero (by omega)
    subst hb
    exact ⟨s', [], by simp, hs', rfl⟩
  | cons p ps ih =>
    obtain ⟨x, y, h1, h2, h3⟩ := h
    have hy : s.length ≤ y.length := by
      have : ∀ (ps : List Piece) (y : Bytes), Fills (ps ++ [.fixed 128]) y → 128 ≤ y.length := by
        intro ps
        induction ps with
        | nil =>
          rintro y ⟨x, z, rfl, h, -⟩
          simp only [Piece.Fills] at h
          simp; omega
        | cons q ps ih =>
          rintro y ⟨x, z, rfl, -, h⟩
          have := ih z h
          simp; omega
      rw [hs]; exact this ps y h3
    have hx : b = x ++ b.drop x.length := by
      have hl := congrArg List.length h1
      simp only [List.length_append] at hl
      have := congrArg (List.take x.length) h1
      rw [List.take_append_of_le_length (by omega), List.take_left] at this
      conv => lhs; rw [← List.take_append_drop x.length b, this]
    rw [hx, List.append_assoc] at h1
    have := List.append_cancel_left h1
    rw [hx, List.append_assoc]
    exact ⟨x, b.drop x.length ++ s', rfl, h2, ih (this ▸ h3)⟩

omit [Charmap] in
/-- A transfer of the first generation stays complete with another signature. -/
theorem conforms_other_signature {type : TransferType} {b s s' : Bytes} (ht : type ∈ gen1Types) (hs : s.length = 128) (hs' : s'.length = 128)
    (h : Conforms type (b ++ s)) : Conforms type (b ++ s') := by
  simp only [gen1Types, List.mem_cons, List.not_mem_nil, or_false] at ht
  rcases ht with rfl | rfl | rfl | rfl | rfl
  · exact fills_swap (ps := [.fixed 491, .counted 1 98, .counted 1 31]) hs hs' h
  · exact fills_swap (ps := [.fixed 7, .counted 2 129, .counted 2 2, .counted 1 28, .counted 2 5]) hs hs' h
  · exact fills_swap (ps := [.counted 1 82, .counted 1 83, .fixed 9, .counted 1 31, .counted 1 98]) hs hs' h
  · exact fills_swap (ps := [.counted 2 64]) hs hs' h
  · exact fills_swap (ps := [.fixed 136, .counted 1 167]) hs hs' h

omit [Charmap] in
theorem forall₂_value {α : Type} {f : Bytes → Res α} {vs : List Bytes} {l : List α} (h : List.Forall₂ (fun v x => f v = .ok x) vs l)
    {v : Bytes} (hv : v ∈ vs) : ∃ x, f v = .ok x := by
  obtain ⟨i, hi, he⟩ := List.mem_iff_getElem.1 hv
  have := List.Forall₂.get h hi (h.length_eq ▸ hi)
  simp only [List.get_eq_getElem, he] at this
  exact ⟨_, this⟩

omit [Charmap] in
theorem unsigned_signed {b s : Bytes} (hs : s.length = 128) : unsignedBlock (signed (b ++ s)) = ⟨b, []⟩ := by
  simp [unsignedBlock, signed, hs]

omit [Charmap] in
/-- The unsigned contents are those of the transfers without their signatures. -/
theorem read_unsigned {α β : Type} {f : Bytes → Res α} (u : α → β) {ty type : TransferType} {pre post : List Transfer} {b s s' : Bytes}
    (hu : ∀ x, f (b ++ s) = .ok x → ∃ x', f (b ++ s') = .ok x' ∧ u x' = u x) {l l' : List α}
    (h : List.Forall₂ (fun v x => f v = .ok x) (valuesOf ty (pre ++ ⟨type, b ++ s⟩ :: post)) l)
    (h' : List.Forall₂ (fun v x => f v = .ok x) (valuesOf ty (pre ++ ⟨type, b ++ s'⟩ :: post)) l') : l'.map u = l.map u := by
  have ru : ∀ {vs : List Bytes} {m m' : List α}, List.Forall₂ (fun v x => f v = .ok x) vs m → List.Forall₂ (fun v x => f v = .ok x) vs m' → m = m' :=
    fun h1 h2 => List.right_unique_forall₂' (fun e v w h1 h2 => by rw [h1] at h2; exact Res.ok.inj h2) h1 h2
  rw [valuesOf_mid] at h h'
  by_cases hy : type = ty
  · simp only [if_pos hy] at h h'
    obtain ⟨m, r, rfl, h1, h3⟩ := forall₂_split h
    obtain ⟨p, q, rfl, h0, h2⟩ := forall₂_split h1
    obtain ⟨m', r', rfl, h1', h3'⟩ := forall₂_split h'
    obtain ⟨p', q', rfl, h0', h2'⟩ := forall₂_split h1'
    obtain rfl := ru h0 h0'
    obtain rfl := ru h3 h3'
    cases h2 with
    | cons hx hn =>
      cases hn
      cases h2' with
      | cons hx' hn' =>
        cases hn'
        obtain ⟨z, hz, hzu⟩ := hu _ hx
        rw [hz] at hx'
        obtain rfl := Res.ok.inj hx'
        simp [hzu]
  · simp only [if_neg hy] at h h'
    rw [ru h h']

omit [Charmap] in
theorem blocks_unsigned {ty type : TransferType} {pre post : List Transfer} {b s s' : Bytes} (hs : s.length = 128) (hs' : s'.length = 128) :
    ((valuesOf ty (pre ++ ⟨type, b ++ s'⟩ :: post)).map signed).map unsignedBlock =
      ((valuesOf ty (pre ++ ⟨type, b ++ s⟩ :: post)).map signed).map unsignedBlock := by
  rw [valuesOf_mid, valuesOf_mid]
  by_cases hy : type = ty
  · simp only [if_pos hy, List.map_append, List.map_cons, List.map_nil, unsigned_signed hs, unsigned_signed hs']
  · simp only [if_neg hy]

/-- C85: damage to the signature of a transfer of the first generation is not noticed when the file is read, and changes
nothing but signatures and raw bytes in what is reported. -/
theorem vu_signature_damage (pre post : List Transfer) (type : TransferType) (b s s' : Bytes) (hs : s.length = 128) (hs' : s'.length = 128)
    (hc : ∀ x ∈ pre ++ ⟨type, b ++ s⟩ :: post, Conforms x.type x.value ∧ x.type ≠ .cardDownload) (g : VuGen1)
    (h : unmarshalFile (vuBytes (pre ++ ⟨type, b ++ s⟩ :: post)) =
      .ok { type := .vehicleUnit, vehicleUnit := some { generation := .gen1, gen1 := some g } }) :
    ∃ g', unmarshalFile (vuBytes (pre ++ ⟨type, b ++ s'⟩ :: post)) =
      .ok { type := .vehicleUnit, vehicleUnit := some { generation := .gen1, gen1 := some g' } } ∧ unsignedGen1 g' = unsignedGen1 g := by
  obtain ⟨-, hta⟩ := vu_of_transfers hc h
  have hone : Only gen1Types (pre ++ ⟨type, b ++ s⟩ :: post) ∧ Gen1Is (pre ++ ⟨type, b ++ s⟩ :: post) g := by
    rcases hta with ⟨ho, g1, hg, e⟩ | ⟨-, e⟩ | ⟨-, -, e⟩
    · simp only [VehicleUnitFile.mk.injEq, Option.some.injEq, true_and] at e
      rw [e.1]; exact ⟨ho, hg⟩
    · simp at e
    · simp at e
  obtain ⟨ho, hg⟩ := hone
  have hty : type ∈ gen1Types := ho ⟨type, b ++ s⟩ (by simp)
  have hmem : ∀ ty, type = ty → b ++ s ∈ valuesOf ty (pre ++ ⟨type, b ++ s⟩ :: post) := by
    intro ty e
    rw [valuesOf_mid]
    simp [e]
  obtain ⟨os, h1, h2, h3, h4, h5, h6⟩ := hg
  have hread : Readable ⟨type, b ++ s'⟩ := by
    refine ⟨fun e => ?_, fun e => ?_⟩
    · obtain ⟨x, hx⟩ := forall₂_value h1 (hmem _ e)
      exact ⟨_, overview_other_signature b s s' hs hs' x hx⟩
    · obtain ⟨x, hx⟩ := forall₂_value h3 (hmem _ e)
      exact ⟨_, activities_other_signature b s s' hs hs' x hx⟩
  rcases vu_damage pre post ⟨type, b ++ s⟩ ⟨type, b ++ s'⟩ hc rfl (conforms_other_signature hty hs hs' (hc ⟨type, b ++ s⟩ (by simp)).1) _ h with
    ⟨-, w, hw, hsame⟩ | ⟨hn, -⟩
  · have hcm : ∀ x ∈ pre ++ ⟨type, b ++ s'⟩ :: post, Conforms x.type x.value ∧ x.type ≠ .cardDownload := by
      intro x hx
      simp only [List.mem_append, List.mem_cons] at hx
      rcases hx with hx | rfl | hx
      · exact hc x (by simp [hx])
      · exact ⟨conforms_other_signature hty hs hs' (hc ⟨type, b ++ s⟩ (by simp)).1, (hc ⟨type, b ++ s⟩ (by simp)).2⟩
      · exact hc x (by simp [hx])
    obtain ⟨-, htw⟩ := vu_of_transfers hcm hw
    rcases htw with ⟨-, g', ⟨os', b1, b2, b3, b4, b5, b6⟩, rfl⟩ | ⟨-, rfl⟩ | ⟨-, -, rfl⟩
    · refine ⟨g', hw, ?_⟩
      have e1 := read_unsigned (fun o : OverviewGen1 => { o with rawData := [], signature := [] })
        (fun x hx => ⟨_, overview_other_signature b s s' hs hs' x hx, rfl⟩) h1 b1
      have e3 := read_unsigned (fun o : ActivitiesGen1 => { o with rawData := [], signature := [] })
        (fun x hx => ⟨_, activities_other_signature b s s' hs hs' x hx, rfl⟩) h3 b3
      simp only [unsignedGen1, VuGen1.mk.injEq]
      refine ⟨?_, e3, ?_, ?_, ?_⟩
      · rw [h2, b2, ← List.getLast?_map, e1, List.getLast?_map]
      · rw [h4, b4]; exact blocks_unsigned hs hs'
      · rw [h5, b5]; exact blocks_unsigned hs hs'
      · rw [h6, b6]; exact blocks_unsigned hs hs'
    · have := hsame.generation; cases this
    · have := hsame.generation; cases this
  · exact absurd hread hn

/-! ### A lost transfer -/

omit [Charmap] in
theorem valuesOf_lost (ty : TransferType) (pre post : List Transfer) (t : Transfer) :
    valuesOf ty (pre ++ post) =
      if t.type = ty then (valuesOf ty (pre ++ t :: post)).eraseIdx (valuesOf t.type pre).length else valuesOf ty (pre ++ t :: post) := by
  rw [valuesOf_mid, valuesOf_append]
  split
  · rename_i h
    subst h
    rw [List.append_assoc, List.eraseIdx_append_of_length_le (by omega)]
    simp
  · simp

omit [Charmap] in
theorem map_lost {α : Type} (f : Bytes → α) (ty : TransferType) (pre post : List Transfer) (t : Transfer) :
    (valuesOf ty (pre ++ post)).map f = if t.type = ty then ((valuesOf ty (pre ++ t :: post)).map f).eraseIdx (valuesOf t.type pre).length
      else (valuesOf ty (pre ++ t :: post)).map f := by
  rw [valuesOf_lost ty pre post t]
  split
  · rw [List.eraseIdx_eq_take_drop_succ, List.eraseIdx_eq_take_drop_succ]
    simp [List.map_take, List.map_drop]
  · rfl

omit [Charmap] in
theorem read_lost {α : Type} {f : Bytes → Res α} {ty : TransferType} {pre post : List Transfer} (t : Transfer) {l : List α}
    (h : List.Forall₂ (fun v x => f v = .ok x) (valuesOf ty (pre ++ t :: post)) l) :
    List.Forall₂ (fun v x => f v = .ok x) (valuesOf ty (pre ++ post))
      (if t.type = ty then l.eraseIdx (valuesOf t.type pre).length else l) := by
  rw [valuesOf_mid] at h
  rw [valuesOf_append]
  by_cases hy : t.type = ty
  · simp only [if_pos hy] at h ⊢
    obtain ⟨m, r, rfl, h1, h3⟩ := forall₂_split h
    obtain ⟨p, q, rfl, h0, h2⟩ := forall₂_split h1
    cases h2 with
    | @cons _ x _ _ hx hn =>
      cases hn
      have : (p ++ [x] ++ r).eraseIdx (valuesOf t.type pre).length = p ++ r := by
        rw [hy, h0.length_eq, List.append_assoc, List.eraseIdx_append_of_length_le (by omega)]
        simp
      rw [this]
      exact List.rel_append h0 h3
  · simpa only [if_neg hy, List.append_nil] using h

/-- C85: a transfer of the first generation that is missing from a download is missing from the message, and nothing
else is: nothing tells the reader that it was there. -/
theorem vu_lost (pre post : List Transfer) (t : Transfer) (h0 : pre ++ post ≠ [])
    (hc : ∀ x ∈ pre ++ t :: post, Conforms x.type x.value ∧ x.type ≠ .cardDownload) (g : VuGen1)
    (h : unmarshalFile (vuBytes (pre ++ t :: post)) =
      .ok { type := .vehicleUnit, vehicleUnit := some { generation := .gen1, gen1 := some g } }) :
    ∃ g', unmarshalFile (vuBytes (pre ++ post)) =
      .ok { type := .vehicleUnit, vehicleUnit := some { generation := .gen1, gen1 := some g' } } ∧
      Gen1Without t.type (valuesOf t.type pre).length g g' := by
  obtain ⟨-, hta⟩ := vu_of_transfers hc h
  have hone : Only gen1Types (pre ++ t :: post) ∧ Gen1Is (pre ++ t :: post) g := by
    rcases hta with ⟨ho, g1, hg, e⟩ | ⟨-, e⟩ | ⟨-, -, e⟩
    · simp only [VehicleUnitFile.mk.injEq, Option.some.injEq, true_and] at e
      rw [e.1]; exact ⟨ho, hg⟩
    · simp at e
    · simp at e
  obtain ⟨ho, os, h1, h2, h3, h4, h5, h6⟩ := hone
  have sub : ∀ x ∈ pre ++ post, x ∈ pre ++ t :: post := by
    intro x hx
    simp only [List.mem_append, List.mem_cons] at hx ⊢
    rcases hx with hx | hx
    · exact .inl hx
    · exact .inr (.inr hx)
  refine ⟨{ overview := (if t.type = .overviewGen1 then os.eraseIdx (valuesOf t.type pre).length else os).getLast?
            activities := if t.type = .activitiesGen1 then g.activities.eraseIdx (valuesOf t.type pre).length else g.activities
            eventsAndFaults := (valuesOf .eventsGen1 (pre ++ post)).map signed
            detailedSpeed := (valuesOf .speedGen1 (pre ++ post)).map signed
            technicalData := (valuesOf .technicalGen1 (pre ++ post)).map signed },
    vu_transfers_read h0 (fun x hx => (hc x (sub x hx)).1) (.inl ⟨fun x hx => ho x (sub x hx), _,
      ⟨_, read_lost t h1, rfl, read_lost t h3, rfl, rfl, rfl⟩, rfl⟩), ?_, rfl, ?_, ?_, ?_⟩
  · intro hn
    rw [h2, if_neg hn]
  · rw [h4]; exact map_lost signed _ pre post t
  · rw [h5]; exact map_lost signed _ pre post t
  · rw [h6]; exact map_lost signed _ pre post t

/-- C85: a download of the second version whose interface version (or only overview) got lost is taken for one of the
first version when nothing but detailed speed is left; the speed blocks are the same. -/
theorem vu_lost_version (t : Transfer) (post : List Transfer) (h0 : post ≠ [])
    (ht : t.type = .downloadInterfaceVersion ∨ t.type = .overviewG2V2) (hp : Only [.speedGen2] post)
    (hc : ∀ x ∈ t :: post, Conforms x.type x.value) :
    ∃ a b : VuGen2,
      unmarshalFile (vuBytes (t :: post)) =
        .ok { type := .vehicleUnit, vehicleUnit := some { generation := .gen2, version := .v2, gen2V2 := some a } } ∧
      unmarshalFile (vuBytes post) =
        .ok { type := .vehicleUnit, vehicleUnit := some { generation := .gen2, version := .v1, gen2V1 := some b } } ∧
      a.detailedSpeed = b.detailedSpeed := by
  have hsp : ∀ x ∈ post, x.type = .speedGen2 := fun x hx => by simpa using hp x hx
  have hne : t.type ≠ .speedGen2 := by rcases ht with h | h <;> rw [h] <;> decide
  refine ⟨gen2Message .overviewG2V2 (t :: post), gen2Message .overviewG2V1 post,
    vu_transfers_read (by simp) hc (.inr (.inr ⟨?_, fun h => ?_, rfl⟩)),
    vu_transfers_read h0 (fun x hx => hc x (by simp [hx])) (.inr (.inl ⟨fun x hx => by simp [hsp x hx], rfl⟩)), ?_⟩
  · intro x hx
    rcases List.mem_cons.1 hx with rfl | hx
    · rcases ht with h | h <;> rw [h] <;> decide
    · rw [hsp x hx]; decide
  · exact hne (by simpa using h t (by simp))
  · simp [gen2Message, valuesOf, hne]

/-! ## Examples -/

theorem sampleGen1_read : ∃ g, unmarshalFile (vuBytes sampleGen1) =
    .ok { type := .vehicleUnit, vehicleUnit := some { generation := .gen1, gen1 := some g } } ∧ g.activities.length = 2 := by
  obtain ⟨a, ha⟩ : ∃ m, unmarshalActivitiesGen1 sampleActivities = .ok m := by
    refine (activities_accepts_iff _).2 ⟨1, 2, 1, 0, sampleActivities_shape, fun i hi => ?_, fun i hi => ?_⟩
    · obtain rfl : i = 0 := by omega
      exact ⟨⟨1, by decide +kernel, Or.inl rfl⟩, ⟨0, by decide +kernel, Or.inl rfl⟩⟩
    · obtain rfl : i = 0 := by omega
      exact ⟨⟨0, by decide +kernel, ⟨2, by decide +kernel⟩⟩, ⟨0x0F, by decide +kernel, ⟨18, by decide +kernel⟩⟩⟩
  refine ⟨{ activities := [a, a], detailedSpeed := [⟨[0, 0] ++ zeros 128, zeros 128⟩] }, ?_, rfl⟩
  refine vu_transfers_read (by simp [sampleGen1]) sampleGen1_conforms (.inl ⟨by simp [Only, sampleGen1, gen1Types], _, ⟨[], ?_⟩, rfl⟩)
  have v1 : valuesOf .overviewGen1 sampleGen1 = [] := by simp [sampleGen1, valuesOf]
  have v2 : valuesOf .activitiesGen1 sampleGen1 = [sampleActivities, sampleActivities] := by simp [sampleGen1, valuesOf]
  have v3 : valuesOf .eventsGen1 sampleGen1 = [] := by simp [sampleGen1, valuesOf]
  have v4 : valuesOf .speedGen1 sampleGen1 = [[0, 0] ++ zeros 128] := by simp [sampleGen1, valuesOf]
  have v5 : valuesOf .technicalGen1 sampleGen1 = [] := by simp [sampleGen1, valuesOf]
  rw [v1, v2, v3, v4, v5]
  exact ⟨.nil, rfl, .cons ha (.cons ha .nil), rfl, by simp [signed, zeros], rfl⟩

theorem sampleGen1_hyps : ∀ x ∈ sampleGen1, Conforms x.type x.value ∧ x.type ≠ .cardDownload := by
  intro x hx
  refine ⟨sampleGen1_conforms x hx, ?_⟩
  simp only [sampleGen1, List.mem_cons, List.not_mem_nil, or_false] at hx
  rcases hx with rfl | rfl | rfl <;> decide

/-- The day of the sample with another byte in the place of its country. -/
def Spec.damagedActivities : Bytes := sampleActivities.set 168 0xE7

/-- One damaged country byte in the second day: the whole download is refused. -/
example : (∃ a, unmarshalFile (vuBytes sampleGen1) = .ok a) ∧
    ∃ m, unmarshalFile (vuBytes ([⟨.activitiesGen1, sampleActivities⟩, ⟨.speedGen1, [0, 0] ++ zeros 128⟩] ++
      [⟨.activitiesGen1, damagedActivities⟩])) = .err m := by
  obtain ⟨g, hg, -⟩ := sampleGen1_read
  refine ⟨⟨_, hg⟩, ?_⟩
  have hd : ActivitiesShape damagedActivities 1 2 1 0 :=
    ⟨by decide +kernel, by decide +kernel, ⟨1, by decide +kernel, rfl⟩, by decide +kernel, by decide +kernel⟩
  rcases vu_damage [⟨.activitiesGen1, sampleActivities⟩, ⟨.speedGen1, [0, 0] ++ zeros 128⟩] [] ⟨.activitiesGen1, sampleActivities⟩
    ⟨.activitiesGen1, damagedActivities⟩ sampleGen1_hyps rfl ((activities_conforms_iff _).2 ⟨_, _, _, _, hd⟩) _ hg with ⟨hr, -⟩ | ⟨-, hm⟩
  · obtain ⟨m, hm⟩ := hr.2 rfl
    refine absurd hm (activities_unknown_country_refused _ 1 2 1 0 0 hd (by omega) ?_ m)
    rintro ⟨b, hb, i, hi⟩
    have hb' : damagedActivities[9 + 1 * 129 + 2 + 2 * 2 + 1 + 0 * 28 + 23]? = some 0xE7 := by decide +kernel
    rw [hb'] at hb
    cases hb
    have : ∀ e ∈ nationNumericTable, e.2 ≠ some 0xE7 := by decide +kernel
    exact this _ hi rfl
  · exact hm

/-- Another signature under the first day: the two days are still read. -/
example : ∃ g', unmarshalFile (vuBytes ([] ++ ⟨.activitiesGen1, sampleActivities.take 175 ++ zeros 128⟩ ::
      [⟨.speedGen1, [0, 0] ++ zeros 128⟩, ⟨.activitiesGen1, sampleActivities⟩])) =
        .ok { type := .vehicleUnit, vehicleUnit := some { generation := .gen1, gen1 := some g' } } := by
  obtain ⟨g, hg, -⟩ := sampleGen1_read
  have e : sampleActivities = sampleActivities.take 175 ++ List.replicate 128 9 := by decide +kernel
  obtain ⟨g', h, -⟩ := vu_signature_damage [] [⟨.speedGen1, [0, 0] ++ zeros 128⟩, ⟨.activitiesGen1, sampleActivities⟩] .activitiesGen1
    (sampleActivities.take 175) (List.replicate 128 9) (zeros 128) (by simp) (by simp [zeros])
    (by rw [← e]; exact sampleGen1_hyps) g (by rw [← e]; exact hg)
  exact ⟨g', h⟩

/-- Without its second day the sample is read as a download of one day. -/
example : ∃ g', unmarshalFile (vuBytes ([⟨.activitiesGen1, sampleActivities⟩, ⟨.speedGen1, [0, 0] ++ zeros 128⟩] ++ [])) =
      .ok { type := .vehicleUnit, vehicleUnit := some { generation := .gen1, gen1 := some g' } } ∧ g'.activities.length = 1 := by
  obtain ⟨g, hg, hl⟩ := sampleGen1_read
  obtain ⟨g', h, hw⟩ := vu_lost [⟨.activitiesGen1, sampleActivities⟩, ⟨.speedGen1, [0, 0] ++ zeros 128⟩] [] ⟨.activitiesGen1, sampleActivities⟩
    (by simp) sampleGen1_hyps g hg
  refine ⟨g', h, ?_⟩
  rw [hw.activities]
  simp [valuesOf, hl, List.length_eraseIdx]

/-- The sample of the second version without its interface version. -/
example : ∃ b, unmarshalFile (vuBytes (sampleDownload.drop 1)) =
    .ok { type := .vehicleUnit, vehicleUnit := some { generation := .gen2, version := .v1, gen2V1 := some b } } := by
  obtain ⟨_, b, -, h, -⟩ := vu_lost_version ⟨.downloadInterfaceVersion, [1, 1]⟩ (sampleDownload.drop 1) (by decide) (.inl rfl)
    (by unfold Only; decide) (fun x hx => cut_conforms sampleDownload_cut x (by simpa [sampleDownload] using hx))
  exact ⟨b, h⟩

end Tacho
