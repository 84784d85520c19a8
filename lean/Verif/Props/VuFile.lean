import Verif.Spec.VuFile
import Verif.Props.VuGen1
/-!
# Vehicle unit files (C07, C09, C10)
-/

namespace Tacho
open Spec

/-! ## Record arrays -/

theorem proper_arrays (k : Nat) : Proper (List.replicate k .array) := by
  intro w s h
  simp at h

theorem unmarshalArrays_iff (names : List String) (v : Bytes) (m : RawGen2) :
    unmarshalArrays names v = .ok m ↔ Fills (List.replicate names.length .array) v ∧ m = ⟨v⟩ := by
  simp only [unmarshalArrays, bind_eq_ok, guard_eq_ok, Res.pure_eq, Res.ok.injEq, walkArrays_eq,
    sizeWalk_ok (proper_arrays _), List.drop_zero, Nat.zero_add]
  constructor
  · rintro ⟨m, ⟨n, hn, hm⟩, hl, hr⟩
    have hl : n = v.length := by omega
    have := fills_of_announced hn (by omega)
    rw [hl, List.take_length] at this
    exact ⟨this, hr.symm⟩
  · rintro ⟨h, rfl⟩
    have := announced_of_fills h []
    rw [List.append_nil] at this
    exact ⟨_, ⟨_, this, rfl⟩, by simp, rfl⟩

/-- Different numbers of arrays never fill the same bytes. -/
theorem arrays_count {k j : Nat} {v : Bytes} (h : Fills (List.replicate k .array) v)
    (h' : Fills (List.replicate j .array) v) : k = j := by
  induction k generalizing j v with
  | zero =>
    cases j with
    | zero => rfl
    | succ j =>
      obtain ⟨x, y, hv, hx, -⟩ := h'
      have hv0 : v = [] := h
      subst hv0
      have := (fills_step hx []).2
      have hl := congrArg List.length hv
      simp only [headSize, List.length_append, List.length_nil] at this hl
      omega
  | succ k ih =>
    obtain ⟨x, y, rfl, hx, hy⟩ := h
    cases j with
    | zero =>
      have hv0 : x ++ y = [] := h'
      have := (fills_step hx []).2
      have hl := congrArg List.length hv0
      simp only [headSize, List.length_append, List.length_nil] at this hl
      omega
    | succ j =>
      obtain ⟨x', y', he, hx', hy'⟩ := h'
      have hl : x.length = x'.length := by
        rw [← (fills_step hx y).1, he, (fills_step hx' y').1]
      obtain ⟨rfl, rfl⟩ := List.append_inj he hl
      rw [ih hy hy']

theorem announced_le {k i n : Nat} {v : Bytes} (h : Fills (List.replicate k .array) v)
    (h' : announced (List.replicate i .array) v = some n) : n ≤ v.length := by
  induction i generalizing k n v with
  | zero =>
    have h' : some 0 = some n := h'
    cases h'; omega
  | succ i ih =>
    rw [List.replicate_succ, announced_cons] at h'
    cases k with
    | zero =>
      have hv0 : v = [] := h
      subst hv0
      simp [headSize] at h'
    | succ k =>
      obtain ⟨x, y, rfl, hx, hy⟩ := h
      have hs := fills_step hx y
      rw [hs.1, if_neg (by simp; omega), List.drop_left] at h'
      obtain ⟨m, hm, rfl⟩ := Option.map_eq_some_iff.1 h'
      have := ih hy hm
      simp only [List.length_append]; omega

theorem unmarshalArrays_ne_panic {k : Nat} (names : List String) {v : Bytes}
    (h : Fills (List.replicate k .array) v) : unmarshalArrays names v ≠ .panic := by
  refine np_call ?_ fun _ => np_guard fun _ => np_pure
  rw [walkArrays_eq]
  intro hp
  obtain ⟨before, p, after, n, hb, -, ha, hn⟩ := (sizeWalk_panic (proper_arrays _) 0).1 hp
  have : before = List.replicate before.length .array := by
    rw [List.eq_replicate_iff]
    refine ⟨rfl, fun b hb' => ?_⟩
    have hm : b ∈ List.replicate names.length Piece.array := by rw [hb]; simp [hb']
    exact (List.mem_replicate.1 hm).2
  rw [this, List.drop_zero] at ha
  have := announced_le h ha
  omega

/-- How many arrays the parser looks for in each Gen2 transfer. -/
theorem gen2_overview (v : Bytes) (h : Conforms .overviewG2V1 v ∨ Conforms .overviewG2V2 v) :
    unmarshalOverviewG2V1 v = .ok ⟨v⟩ ∧ unmarshalOverviewG2V2 v = .ok ⟨v⟩ := by
  have h : Fills (List.replicate 11 .array) v := by rcases h with h | h <;> exact h
  exact ⟨(unmarshalArrays_iff _ _ _).2 ⟨h, rfl⟩, (unmarshalArrays_iff _ _ _).2 ⟨h, rfl⟩⟩

theorem gen2_speed (v : Bytes) (h : Conforms .speedGen2 v) : unmarshalSpeedGen2 v = .ok ⟨v⟩ :=
  (unmarshalArrays_iff _ _ _).2 ⟨h, rfl⟩

/-- What each of the Gen2 transfer parsers of the second pass takes, for every value: exactly so many
record arrays and nothing else, whatever the arrays contain. (A transfer that reaches them through a
file was cut by the first pass into a different number of arrays for most types: `gen2_unreadable`.) -/
theorem gen2_transfer_arrays (v : Bytes) (m : RawGen2) :
    (unmarshalOverviewG2V1 v = .ok m ↔ Fills (List.replicate 11 .array) v ∧ m = ⟨v⟩)
    ∧ (unmarshalOverviewG2V2 v = .ok m ↔ Fills (List.replicate 11 .array) v ∧ m = ⟨v⟩)
    ∧ (unmarshalActivitiesG2V1 v = .ok m ↔ Fills (List.replicate 7 .array) v ∧ m = ⟨v⟩)
    ∧ (unmarshalActivitiesG2V2 v = .ok m ↔ Fills (List.replicate 7 .array) v ∧ m = ⟨v⟩)
    ∧ (unmarshalEventsG2V1 v = .ok m ↔ Fills (List.replicate 5 .array) v ∧ m = ⟨v⟩)
    ∧ (unmarshalEventsG2V2 v = .ok m ↔ Fills (List.replicate 5 .array) v ∧ m = ⟨v⟩)
    ∧ (unmarshalSpeedGen2 v = .ok m ↔ Fills (List.replicate 2 .array) v ∧ m = ⟨v⟩)
    ∧ (unmarshalTechnicalG2V1 v = .ok m ↔ Fills (List.replicate 8 .array) v ∧ m = ⟨v⟩)
    ∧ (unmarshalTechnicalG2V2 v = .ok m ↔ Fills (List.replicate 8 .array) v ∧ m = ⟨v⟩) :=
  ⟨unmarshalArrays_iff _ v m, unmarshalArrays_iff _ v m, unmarshalArrays_iff _ v m,
    unmarshalArrays_iff _ v m, unmarshalArrays_iff _ v m, unmarshalArrays_iff _ v m,
    unmarshalArrays_iff _ v m, unmarshalArrays_iff _ v m, unmarshalArrays_iff _ v m⟩

/-- Five empty arrays: read as events, refused as technical data. -/
example : unmarshalEventsG2V1 (List.replicate 5 [9, 0, 0, 0, 0]).flatten
      = .ok ⟨(List.replicate 5 [9, 0, 0, 0, 0]).flatten⟩
    ∧ unmarshalTechnicalG2V1 (List.replicate 5 [9, 0, 0, 0, 0]).flatten
      ≠ .ok ⟨(List.replicate 5 [9, 0, 0, 0, 0]).flatten⟩ := by decide

/-! ## The loops -/

theorem valuesOf_cons (type : TransferType) (t : Transfer) (ts : List Transfer) :
    valuesOf type (t :: ts) = if t.type = type then t.value :: valuesOf type ts else valuesOf type ts := by
  unfold valuesOf
  by_cases h : t.type = type <;> simp [h]

theorem only_cons {types : List TransferType} {t : Transfer} {ts : List Transfer} :
    Only types (t :: ts) ↔ t.type ∈ types ∧ Only types ts := by simp [Only]

theorem getLast_or {α : Type} (o : α) (os : List α) (x : Option α) :
    (o :: os).getLast?.or x = os.getLast?.or (some o) := by
  rw [List.getLast?_cons]
  cases os.getLast? <;> simp

theorem mk_signed (v : Bytes) (h : 128 ≤ v.length) : unmarshalSignedGen1 v = .ok (signed v) := by
  unfold unmarshalSignedGen1
  rw [if_neg (by omega), from?, if_pos (by omega)]
  rfl

theorem signed_length {t : TransferType} {v : Bytes} (h : Conforms t v)
    (ht : t = .eventsGen1 ∨ t = .speedGen1 ∨ t = .technicalGen1) : 128 ≤ v.length := by
  rcases ht with rfl | rfl | rfl
  · obtain ⟨_, _, rfl, -, _, _, rfl, -, _, _, rfl, -, _, _, rfl, -, _, _, rfl, -, s, _, rfl, hs, -⟩ := h
    simp only [Piece.Fills] at hs
    simp only [List.length_append]; omega
  · obtain ⟨_, _, rfl, -, s, _, rfl, hs, -⟩ := h
    simp only [Piece.Fills] at hs
    simp only [List.length_append]; omega
  · obtain ⟨_, _, rfl, -, _, _, rfl, -, s, _, rfl, hs, -⟩ := h
    simp only [Piece.Fills] at hs
    simp only [List.length_append]; omega

section
variable [Charmap]

theorem vuGen1_loop (ts : List Transfer) (hc : ∀ t ∈ ts, Conforms t.type t.value) (out g : VuGen1) :
    unmarshalVuGen1 out (ts.map Transfer.record) = .ok g ↔ Only gen1Types ts ∧
      ∃ os as, List.Forall₂ (fun v o => unmarshalOverviewGen1 v = .ok o) (valuesOf .overviewGen1 ts) os
        ∧ List.Forall₂ (fun v a => unmarshalActivitiesGen1 v = .ok a) (valuesOf .activitiesGen1 ts) as
        ∧ g = { overview := os.getLast?.or out.overview
                activities := out.activities ++ as
                eventsAndFaults := out.eventsAndFaults ++ (valuesOf .eventsGen1 ts).map signed
                detailedSpeed := out.detailedSpeed ++ (valuesOf .speedGen1 ts).map signed
                technicalData := out.technicalData ++ (valuesOf .technicalGen1 ts).map signed } := by
  induction ts generalizing out with
  | nil =>
    simp only [List.map_nil, unmarshalVuGen1, Res.ok.injEq]
    constructor
    · rintro rfl
      exact ⟨by simp [Only], [], [], .nil, .nil, by simp [valuesOf]⟩
    · rintro ⟨-, os, as, ho, ha, rfl⟩
      cases ho; cases ha
      simp [valuesOf]
  | cons t ts ih =>
    obtain ⟨type, value⟩ := t
    have hc' : ∀ t ∈ ts, Conforms t.type t.value := fun t h => hc t (by simp [h])
    have hv := hc ⟨type, value⟩ (by simp)
    dsimp only at hv
    simp only [List.map_cons, unmarshalVuGen1, Transfer.record, only_cons, valuesOf_cons]
    cases type
    any_goals (constructor <;> intro h <;> first | (simp at h; done) | exact absurd h.1.1 (by decide))
    all_goals simp only [reduceCtorEq, if_true, if_false]
    case overviewGen1 =>
      simp only [bind_eq_ok, Res.bind_assoc, Res.bind_ok, Res.pure_eq, Res.ok.injEq, ih hc']
      constructor
      · rintro ⟨o, ho, hon, os, as, h1, h2, rfl⟩
        exact ⟨⟨by decide, hon⟩, o :: os, as, .cons ho h1, h2, by rw [getLast_or]⟩
      · rintro ⟨⟨-, hon⟩, _, as, h1, h2, rfl⟩
        cases h1 with
        | cons ho h1 => exact ⟨_, ho, hon, _, as, h1, h2, by rw [getLast_or]⟩
    case activitiesGen1 =>
      simp only [bind_eq_ok, Res.bind_assoc, Res.bind_ok, Res.pure_eq, Res.ok.injEq, ih hc']
      constructor
      · rintro ⟨a, ha, hon, os, as, h1, h2, rfl⟩
        exact ⟨⟨by decide, hon⟩, os, a :: as, h1, .cons ha h2, by simp⟩
      · rintro ⟨⟨-, hon⟩, os, _, h1, h2, rfl⟩
        cases h2 with
        | cons ha h2 => exact ⟨_, ha, hon, os, _, h1, h2, by simp⟩
    case eventsGen1 =>
      simp only [mk_signed _ (signed_length hv (by simp)), Res.bind_ok, Res.pure_eq, ih hc']
      simp [gen1Types]
    case speedGen1 =>
      simp only [mk_signed _ (signed_length hv (by simp)), Res.bind_ok, Res.pure_eq, ih hc']
      simp [gen1Types]
    case technicalGen1 =>
      simp only [mk_signed _ (signed_length hv (by simp)), Res.bind_ok, Res.pure_eq, ih hc']
      simp [gen1Types]

omit [Charmap] in
theorem arrays_refused {names : List String} {k : Nat} {v : Bytes} (h : Fills (List.replicate k .array) v)
    (hk : names.length ≠ k) (m : RawGen2) : unmarshalArrays names v ≠ .ok m := by
  intro h'
  exact hk (arrays_count ((unmarshalArrays_iff _ _ _).1 h').1 h)

omit [Charmap] in
theorem vuG2V1_loop (ts : List Transfer) (hc : ∀ t ∈ ts, Conforms t.type t.value) (out g : VuGen2) :
    unmarshalVuG2V1 out (ts.map Transfer.record) = .ok g ↔ Only [.overviewG2V1, .speedGen2] ts ∧
      g = { out with overview := (((valuesOf .overviewG2V1 ts).getLast?).map RawGen2.mk).or out.overview
                     detailedSpeed := out.detailedSpeed ++ (valuesOf .speedGen2 ts).map RawGen2.mk } := by
  induction ts generalizing out with
  | nil =>
    simp only [List.map_nil, unmarshalVuG2V1, Res.ok.injEq]
    constructor
    · rintro rfl
      exact ⟨by simp [Only], by simp [valuesOf]⟩
    · rintro ⟨-, rfl⟩
      simp [valuesOf]
  | cons t ts ih =>
    obtain ⟨type, value⟩ := t
    have hc' : ∀ t ∈ ts, Conforms t.type t.value := fun t h => hc t (by simp [h])
    have hv := hc ⟨type, value⟩ (by simp)
    dsimp only at hv
    simp only [List.map_cons, unmarshalVuG2V1, Transfer.record, only_cons, valuesOf_cons]
    cases type
    any_goals (constructor <;> intro h <;> first | (simp at h; done) | exact absurd h.1.1 (by decide))
    all_goals simp only [reduceCtorEq, if_true, if_false]
    case overviewG2V1 =>
      simp only [(gen2_overview value (.inl hv)).1, Res.bind_ok, Res.pure_eq, ih hc', List.getLast?_cons]
      cases h : (valuesOf .overviewG2V1 ts).getLast? <;> simp
    case speedGen2 =>
      simp only [gen2_speed value hv, Res.bind_ok, Res.pure_eq, ih hc']
      simp
    case activitiesG2V1 =>
      constructor
      · intro h
        simp only [bind_eq_ok] at h
        obtain ⟨m, hm, -⟩ := h
        exact absurd hm (arrays_refused hv (by decide) _)
      · intro h; exact absurd h.1.1 (by decide)
    case eventsG2V1 =>
      constructor
      · intro h
        simp only [bind_eq_ok] at h
        obtain ⟨m, hm, -⟩ := h
        exact absurd hm (arrays_refused hv (by decide) _)
      · intro h; exact absurd h.1.1 (by decide)
    case technicalG2V1 =>
      constructor
      · intro h
        simp only [bind_eq_ok] at h
        obtain ⟨m, hm, -⟩ := h
        exact absurd hm (arrays_refused hv (by decide) _)
      · intro h; exact absurd h.1.1 (by decide)

omit [Charmap] in
theorem vuG2V2_loop (ts : List Transfer) (hc : ∀ t ∈ ts, Conforms t.type t.value) (out g : VuGen2) :
    unmarshalVuG2V2 out (ts.map Transfer.record) = .ok g ↔
      Only [.downloadInterfaceVersion, .overviewG2V2, .speedGen2] ts ∧
      g = { out with overview := (((valuesOf .overviewG2V2 ts).getLast?).map RawGen2.mk).or out.overview
                     detailedSpeed := out.detailedSpeed ++ (valuesOf .speedGen2 ts).map RawGen2.mk } := by
  induction ts generalizing out with
  | nil =>
    simp only [List.map_nil, unmarshalVuG2V2, Res.ok.injEq]
    constructor
    · rintro rfl
      exact ⟨by simp [Only], by simp [valuesOf]⟩
    · rintro ⟨-, rfl⟩
      simp [valuesOf]
  | cons t ts ih =>
    obtain ⟨type, value⟩ := t
    have hc' : ∀ t ∈ ts, Conforms t.type t.value := fun t h => hc t (by simp [h])
    have hv := hc ⟨type, value⟩ (by simp)
    dsimp only at hv
    simp only [List.map_cons, unmarshalVuG2V2, Transfer.record, only_cons, valuesOf_cons]
    cases type
    any_goals (constructor <;> intro h <;> first | (simp at h; done) | exact absurd h.1.1 (by decide))
    all_goals simp only [reduceCtorEq, if_true, if_false]
    case downloadInterfaceVersion =>
      simp only [Res.bind_ok, ih hc']
      simp
    case overviewG2V2 =>
      simp only [(gen2_overview value (.inr hv)).2, Res.bind_ok, Res.pure_eq, ih hc', List.getLast?_cons]
      cases h : (valuesOf .overviewG2V2 ts).getLast? <;> simp
    case speedGen2 =>
      simp only [gen2_speed value hv, Res.bind_ok, Res.pure_eq, ih hc']
      simp
    case activitiesG2V2 =>
      constructor
      · intro h
        simp only [bind_eq_ok] at h
        obtain ⟨m, hm, -⟩ := h
        exact absurd hm (arrays_refused hv (by decide) _)
      · intro h; exact absurd h.1.1 (by decide)
    case eventsG2V2 =>
      constructor
      · intro h
        simp only [bind_eq_ok] at h
        obtain ⟨m, hm, -⟩ := h
        exact absurd hm (arrays_refused hv (by decide) _)
      · intro h; exact absurd h.1.1 (by decide)
    case technicalG2V2 =>
      constructor
      · intro h
        simp only [bind_eq_ok] at h
        obtain ⟨m, hm, -⟩ := h
        exact absurd hm (arrays_refused hv (by decide) _)
      · intro h; exact absurd h.1.1 (by decide)

/-! ## No panic in the second pass -/

omit [Charmap] in
theorem vuG2V1_total (ts : List Transfer) (hc : ∀ t ∈ ts, Conforms t.type t.value) (out : VuGen2) :
    unmarshalVuG2V1 out (ts.map Transfer.record) ≠ .panic := by
  induction ts generalizing out with
  | nil => simp [unmarshalVuG2V1]
  | cons t ts ih =>
    obtain ⟨type, value⟩ := t
    have hc' : ∀ t ∈ ts, Conforms t.type t.value := fun t h => hc t (by simp [h])
    have hv := hc ⟨type, value⟩ (by simp)
    dsimp only at hv
    simp only [List.map_cons, unmarshalVuG2V1, Transfer.record]
    cases type
    case overviewG2V1 => exact np_call (unmarshalArrays_ne_panic _ hv) fun _ => ih hc' _
    case activitiesG2V1 => exact np_call (unmarshalArrays_ne_panic _ hv) fun _ => ih hc' _
    case eventsG2V1 => exact np_call (unmarshalArrays_ne_panic _ hv) fun _ => ih hc' _
    case speedGen2 => exact np_call (unmarshalArrays_ne_panic _ hv) fun _ => ih hc' _
    case technicalG2V1 => exact np_call (unmarshalArrays_ne_panic _ hv) fun _ => ih hc' _
    all_goals simp

omit [Charmap] in
theorem vuG2V2_total (ts : List Transfer) (hc : ∀ t ∈ ts, Conforms t.type t.value) (out : VuGen2) :
    unmarshalVuG2V2 out (ts.map Transfer.record) ≠ .panic := by
  induction ts generalizing out with
  | nil => simp [unmarshalVuG2V2]
  | cons t ts ih =>
    obtain ⟨type, value⟩ := t
    have hc' : ∀ t ∈ ts, Conforms t.type t.value := fun t h => hc t (by simp [h])
    have hv := hc ⟨type, value⟩ (by simp)
    dsimp only at hv
    simp only [List.map_cons, unmarshalVuG2V2, Transfer.record]
    cases type
    case downloadInterfaceVersion => exact ih hc' _
    case overviewG2V2 => exact np_call (unmarshalArrays_ne_panic _ hv) fun _ => ih hc' _
    case activitiesG2V2 => exact np_call (unmarshalArrays_ne_panic _ hv) fun _ => ih hc' _
    case eventsG2V2 => exact np_call (unmarshalArrays_ne_panic _ hv) fun _ => ih hc' _
    case speedGen2 => exact np_call (unmarshalArrays_ne_panic _ hv) fun _ => ih hc' _
    case technicalG2V2 => exact np_call (unmarshalArrays_ne_panic _ hv) fun _ => ih hc' _
    all_goals simp

omit [Charmap] in
theorem signedGen1_total (v : Bytes) : unmarshalSignedGen1 v ≠ .panic := by
  unfold unmarshalSignedGen1 from?
  rw [if_pos (by omega : v.length - 128 ≤ v.length)]
  split <;> simp

theorem vuGen1_total (rs : List VuRec) (out : VuGen1) : unmarshalVuGen1 out rs ≠ .panic := by
  induction rs generalizing out with
  | nil => simp [unmarshalVuGen1]
  | cons r rs ih =>
    simp only [unmarshalVuGen1]
    split
    · exact np_call (overview_total _) fun _ => ih _
    · exact np_call (activities_total _) fun _ => ih _
    · exact np_call (signedGen1_total _) fun _ => ih _
    · exact np_call (signedGen1_total _) fun _ => ih _
    · exact np_call (signedGen1_total _) fun _ => ih _
    · simp

/-! ## The file -/

omit [Charmap] in
theorem cut_conforms {ts : List Transfer} {tail : Bytes} (h : Cut ts tail) :
    ∀ t ∈ ts, Conforms t.type t.value := by
  induction ts with
  | nil => simp
  | cons t ts ih =>
    obtain ⟨h1, -, h3⟩ := h
    intro x hx
    rcases List.mem_cons.1 hx with rfl | hx
    · exact h1
    · exact ih h3 x hx

omit [Charmap] in
theorem cut_of_conforms {ts : List Transfer} {tail : Bytes} (h : ∀ t ∈ ts, Conforms t.type t.value)
    (h' : ∀ t ∈ ts, t.type ≠ .cardDownload) : Cut ts tail := by
  induction ts with
  | nil => trivial
  | cons t ts ih =>
    exact ⟨h t (by simp), fun hc => absurd hc (h' t (by simp)),
      ih (fun x hx => h x (by simp [hx])) (fun x hx => h' x (by simp [hx]))⟩

omit [Charmap] in
theorem hasV2_iff (ts : List Transfer) : hasGen2V2Transfers (ts.map Transfer.record) = true ↔
    ∃ t ∈ ts, t.type ∈ [TransferType.downloadInterfaceVersion, .overviewG2V2, .activitiesG2V2, .eventsG2V2,
      .technicalG2V2] := by
  simp only [hasGen2V2Transfers, List.any_map, List.any_eq_true, Function.comp]
  constructor
  · rintro ⟨t, ht, h⟩
    refine ⟨t, ht, ?_⟩
    obtain ⟨type, v⟩ := t
    cases type <;> simp [Transfer.record] at h ⊢
  · rintro ⟨t, ht, h⟩
    refine ⟨t, ht, ?_⟩
    obtain ⟨type, v⟩ := t
    cases type <;> simp [Transfer.record] at h ⊢

/-- Which files are accepted, and with what result. A file is a sequence of complete transfers, either
of Gen1 types only, or of overviews and detailed speed blocks of the first version of Gen2, or of
interface versions, overviews and detailed speed blocks of the second version. -/
theorem vu_file_iff (d : Bytes) (f : VehicleUnitFile) :
    unmarshalVehicleUnitFile d = .ok f ↔
      ∃ ts, ts ≠ [] ∧ d = vuBytes ts ∧ (∀ t ∈ ts, Conforms t.type t.value) ∧
        ((Only gen1Types ts ∧ ∃ g, Gen1Is ts g ∧ f = { generation := .gen1, gen1 := some g })
        ∨ (Only [.overviewG2V1, .speedGen2] ts
            ∧ f = { generation := .gen2, version := .v1, gen2V1 := some (gen2Message .overviewG2V1 ts) })
        ∨ (Only [.downloadInterfaceVersion, .overviewG2V2, .speedGen2] ts ∧ ¬ Only [.speedGen2] ts
            ∧ f = { generation := .gen2, version := .v2, gen2V2 := some (gen2Message .overviewG2V2 ts) })) := by
  simp only [unmarshalVehicleUnitFile, bind_eq_ok, vu_slices_iff]
  constructor
  · rintro ⟨_, ⟨ts, rfl, hcut, rfl⟩, h⟩
    have hc := cut_conforms hcut
    cases ts with
    | nil => simp at h
    | cons t ts =>
      refine ⟨t :: ts, by simp, rfl, hc, ?_⟩
      rw [List.map_cons] at h
      dsimp only at h
      rw [← List.map_cons] at h
      cases hg : t.record.generation <;> rw [hg] at h <;> dsimp only at h
      · simp at h
      · simp only [bind_eq_ok, Res.pure_eq, Res.ok.injEq] at h
        obtain ⟨g, hgl, rfl⟩ := h
        obtain ⟨ho, os, as, h1, h2, rfl⟩ := (vuGen1_loop _ hc _ _).1 hgl
        exact .inl ⟨ho, _, ⟨os, h1, by simp, by simpa using h2, by simp, by simp, by simp⟩, rfl⟩
      · split at h
        · rename_i h2
          simp only [bind_eq_ok, Res.pure_eq, Res.ok.injEq] at h
          obtain ⟨g, hgl, rfl⟩ := h
          obtain ⟨ho, rfl⟩ := (vuG2V2_loop _ hc _ _).1 hgl
          refine .inr (.inr ⟨ho, ?_, by simp [gen2Message]⟩)
          intro hs
          obtain ⟨x, hx, hm⟩ := (hasV2_iff _).1 h2
          have := hs x hx
          simp only [List.mem_singleton] at this
          rw [this] at hm
          exact absurd hm (by decide)
        · simp only [bind_eq_ok, Res.pure_eq, Res.ok.injEq] at h
          obtain ⟨g, hgl, rfl⟩ := h
          obtain ⟨ho, rfl⟩ := (vuG2V1_loop _ hc _ _).1 hgl
          exact .inr (.inl ⟨ho, by simp [gen2Message]⟩)
  · rintro ⟨ts, hne, rfl, hc, h⟩
    have hcut : Cut ts [] := by
      refine cut_of_conforms hc fun t ht hcd => ?_
      rcases h with ⟨h, -⟩ | ⟨h, -⟩ | ⟨h, -⟩ <;>
      · have := h t ht
        rw [hcd] at this
        exact absurd this (by decide)
    refine ⟨_, ⟨ts, rfl, hcut, rfl⟩, ?_⟩
    cases ts with
    | nil => simp at hne
    | cons t ts =>
      rw [List.map_cons]
      dsimp only
      rw [← List.map_cons]
      rcases h with ⟨ho, g, ⟨os, h1, h2, h3, h4, h5, h6⟩, rfl⟩ | ⟨ho, rfl⟩ | ⟨ho, hns, rfl⟩
      · have hg : t.record.generation = .gen1 := by
          have := ho t (by simp)
          simp only [Transfer.record]
          revert this
          cases t.type <;> decide
        rw [hg]
        dsimp only
        rw [(vuGen1_loop _ hc {} g).2 ⟨ho, os, g.activities, h1, h3, by
          cases g; simp_all⟩]
        rfl
      · have hg : t.record.generation = .gen2 := by
          have := ho t (by simp)
          simp only [Transfer.record]
          revert this
          cases t.type <;> decide
        have hv : hasGen2V2Transfers ((t :: ts).map Transfer.record) = false := by
          rw [Bool.eq_false_iff]
          intro h2
          obtain ⟨x, hx, hm⟩ := (hasV2_iff _).1 h2
          have := ho x hx
          revert this hm
          cases x.type <;> decide
        rw [hg]
        dsimp only
        rw [hv, (vuG2V1_loop _ hc {} _).2 ⟨ho, rfl⟩]
        simp [gen2Message]
      · have hg : t.record.generation = .gen2 := by
          have := ho t (by simp)
          simp only [Transfer.record]
          revert this
          cases t.type <;> decide
        have hv : hasGen2V2Transfers ((t :: ts).map Transfer.record) = true := by
          refine (hasV2_iff _).2 ?_
          simp only [Only, Classical.not_forall] at hns
          obtain ⟨x, hx, hm⟩ := hns
          refine ⟨x, hx, ?_⟩
          have := ho x hx
          revert this hm
          cases x.type <;> decide
        rw [hg]
        dsimp only
        rw [hv, (vuG2V2_loop _ hc {} _).2 ⟨ho, rfl⟩]
        simp [gen2Message]

/-- The second pass never panics: the panics are those of the slicing pass. -/
theorem vu_file_panics_iff (d : Bytes) :
    unmarshalVehicleUnitFile d = .panic ↔
      ∃ ts t r, d = vuBytes ts ++ ([0x76, trep t] ++ r) ∧ Cut ts ([0x76, trep t] ++ r) ∧ Overruns t r := by
  rw [← vu_panics_iff]
  constructor
  · intro h
    cases hr : unmarshalRawVehicleUnitFile d with
    | panic => rfl
    | err m => simp [unmarshalVehicleUnitFile, hr] at h
    | ok rs =>
      exfalso
      obtain ⟨ts, rfl, hcut, rfl⟩ := (vu_slices_iff _ _).1 hr
      have hc := cut_conforms hcut
      revert h
      simp only [unmarshalVehicleUnitFile, hr, Res.bind_ok]
      split
      · exact np_err
      · rename_i heq
        split
        · exact np_call (vuGen1_total _ _) fun _ => np_pure
        · split
          · exact np_call (vuG2V2_total _ hc _) fun _ => np_pure
          · exact np_call (vuG2V1_total _ hc _) fun _ => np_pure
        · exact np_err
  · intro h
    simp [unmarshalVehicleUnitFile, h]

/-- A complete download with one of the six unreadable Gen2 transfers is refused with an error,
whatever the rest of it. -/
theorem gen2_unreadable (ts : List Transfer) (hcut : Cut ts []) (t : Transfer) (ht : t ∈ ts)
    (hu : t.type ∈ unreadable) : ∃ m, unmarshalVehicleUnitFile (vuBytes ts) = .err m := by
  cases h : unmarshalVehicleUnitFile (vuBytes ts) with
  | err m => exact ⟨m, rfl⟩
  | panic =>
    rw [vu_file_panics_iff, ← vu_panics_iff] at h
    exact absurd h (vu_no_panic_complete ts hcut)
  | ok f =>
    exfalso
    obtain ⟨ts', -, he, hc, hk⟩ := (vu_file_iff _ _).1 h
    have hcut' : Cut ts' [] := by
      refine cut_of_conforms hc fun t ht hcd => ?_
      rcases hk with ⟨h, -⟩ | ⟨h, -⟩ | ⟨h, -⟩ <;>
      · have := h t ht
        rw [hcd] at this
        exact absurd this (by decide)
    obtain rfl := vu_cut_unique _ _ hcut hcut' he
    rcases hk with ⟨h, -⟩ | ⟨h, -⟩ | ⟨h, -⟩ <;>
    · have := h t ht
      revert this hu
      cases t.type <;> decide

end

/-- The transfers that may appear in a file of which this generation and version were reported. -/
def Spec.Belongs (g : Generation) (v : Version) (t : TransferType) : Prop :=
  match g, v with
  | .gen1, .unspecified => t ∈ gen1Types
  | .gen2, .v1 => t ∈ [TransferType.overviewG2V1, .activitiesG2V1, .eventsG2V1, .speedGen2, .technicalG2V1]
  | .gen2, .v2 => t ∈ [TransferType.downloadInterfaceVersion, .overviewG2V2, .activitiesG2V2, .eventsG2V2,
      .speedGen2, .technicalG2V2]
  | _, _ => False

section
variable [Charmap]

/-- An accepted file is of one generation and version, which is the reported one, and exactly that
part of the message is filled in. In particular, no card download and no mixture is accepted. -/
theorem vu_homogeneous (ts : List Transfer) (hcut : Cut ts []) (f : VehicleUnitFile)
    (h : unmarshalVehicleUnitFile (vuBytes ts) = .ok f) :
    (∀ t ∈ ts, Belongs f.generation f.version t.type)
      ∧ (f.gen1.isSome ↔ f.generation = .gen1) ∧ (f.gen2V1.isSome ↔ f.version = .v1)
      ∧ (f.gen2V2.isSome ↔ f.version = .v2) := by
  obtain ⟨ts', -, he, hc, hk⟩ := (vu_file_iff _ _).1 h
  have hcut' : Cut ts' [] := by
    refine cut_of_conforms hc fun t ht hcd => ?_
    rcases hk with ⟨h, -⟩ | ⟨h, -⟩ | ⟨h, -⟩ <;>
    · have := h t ht
      rw [hcd] at this
      exact absurd this (by decide)
  obtain rfl := vu_cut_unique _ _ hcut hcut' he
  rcases hk with ⟨ho, g, -, rfl⟩ | ⟨ho, rfl⟩ | ⟨ho, -, rfl⟩
  · exact ⟨fun t ht => ho t ht, by simp, by simp, by simp⟩
  · refine ⟨fun t ht => ?_, by simp, by simp, by simp⟩
    have := ho t ht
    simp only [Belongs]
    revert this
    cases t.type <;> decide
  · refine ⟨fun t ht => ?_, by simp, by simp, by simp⟩
    have := ho t ht
    simp only [Belongs]
    revert this
    cases t.type <;> decide

/-- Two transfers of different generations, or a card download, in a complete download: refused. -/
theorem vu_mixture_refused (ts : List Transfer) (hcut : Cut ts []) (t u : Transfer) (ht : t ∈ ts)
    (hu : u ∈ ts) (hm : generation t.type ≠ generation u.type ∨ t.type = .cardDownload) :
    ∃ m, unmarshalVehicleUnitFile (vuBytes ts) = .err m := by
  cases h : unmarshalVehicleUnitFile (vuBytes ts) with
  | err m => exact ⟨m, rfl⟩
  | panic =>
    rw [vu_file_panics_iff, ← vu_panics_iff] at h
    exact absurd h (vu_no_panic_complete ts hcut)
  | ok f =>
    exfalso
    obtain ⟨hb, -⟩ := vu_homogeneous ts hcut f h
    have h1 := hb t ht
    have h2 := hb u hu
    revert h1 h2 hm
    cases f.generation <;> cases f.version <;> simp only [Belongs, false_implies, implies_true] <;>
      cases t.type <;> cases u.type <;> decide

/-! ## Examples -/

/-- A second version file: the detailed speed block is reported. -/
example : unmarshalVehicleUnitFile (vuBytes sampleDownload) =
    .ok { generation := .gen2, version := .v2
          gen2V2 := some { detailedSpeed := [⟨[1, 0, 3, 0, 2, 10, 11, 12, 13, 14, 15, 8, 0, 1, 0, 0]⟩] } } :=
  (vu_file_iff _ _).2 ⟨sampleDownload, by decide, rfl, cut_conforms sampleDownload_cut,
    .inr (.inr ⟨by unfold Only; decide, by unfold Only; decide, by decide⟩)⟩

/-- Without the interface version the same block makes a first version file. -/
example : unmarshalVehicleUnitFile (vuBytes (sampleDownload.drop 1)) =
    .ok { generation := .gen2, version := .v1
          gen2V1 := some { detailedSpeed := [⟨[1, 0, 3, 0, 2, 10, 11, 12, 13, 14, 15, 8, 0, 1, 0, 0]⟩] } } :=
  (vu_file_iff _ _).2 ⟨sampleDownload.drop 1, by decide, rfl,
    fun t ht => cut_conforms sampleDownload_cut t (List.mem_of_mem_drop ht),
    .inr (.inl ⟨by unfold Only; decide, by decide⟩)⟩

/-- Two days of Gen1 activities and a detailed speed block between them. -/
def Spec.sampleGen1 : List Transfer :=
  [⟨.activitiesGen1, sampleActivities⟩, ⟨.speedGen1, [0, 0] ++ zeros 128⟩, ⟨.activitiesGen1, sampleActivities⟩]

theorem sampleGen1_conforms : ∀ t ∈ sampleGen1, Conforms t.type t.value := by
  have ha : Conforms .activitiesGen1 sampleActivities :=
    (activities_conforms_iff _).2 ⟨_, _, _, _, sampleActivities_shape⟩
  have hs : Conforms .speedGen1 ([0, 0] ++ zeros 128) :=
    ⟨[0, 0], zeros 128, rfl, ⟨0, [], by omega, rfl, rfl⟩, zeros 128, [], rfl, rfl, rfl⟩
  intro t ht
  simp only [sampleGen1, List.mem_cons, List.not_mem_nil, or_false] at ht
  rcases ht with rfl | rfl | rfl
  · exact ha
  · exact hs
  · exact ha

example (a : ActivitiesGen1) (ha : unmarshalActivitiesGen1 sampleActivities = .ok a) :
    unmarshalVehicleUnitFile (vuBytes sampleGen1) = .ok
      { generation := .gen1
        gen1 := some { activities := [a, a], detailedSpeed := [⟨[0, 0] ++ zeros 128, zeros 128⟩] } } := by
  have v1 : valuesOf .overviewGen1 sampleGen1 = [] := by simp [sampleGen1, valuesOf]
  have v2 : valuesOf .activitiesGen1 sampleGen1 = [sampleActivities, sampleActivities] := by
    simp [sampleGen1, valuesOf]
  have v3 : valuesOf .eventsGen1 sampleGen1 = [] := by simp [sampleGen1, valuesOf]
  have v4 : valuesOf .speedGen1 sampleGen1 = [[0, 0] ++ zeros 128] := by simp [sampleGen1, valuesOf]
  have v5 : valuesOf .technicalGen1 sampleGen1 = [] := by simp [sampleGen1, valuesOf]
  refine (vu_file_iff _ _).2 ⟨sampleGen1, by simp [sampleGen1], rfl, sampleGen1_conforms,
    .inl ⟨by simp [Only, sampleGen1, gen1Types], _, ⟨[], ?_⟩, rfl⟩⟩
  rw [v1, v2, v3, v4, v5]
  exact ⟨.nil, rfl, .cons ha (.cons ha .nil), rfl, by simp [signed, zeros], rfl⟩

/-- A mixture of it and the Gen2 download. -/
example : ∃ m, unmarshalVehicleUnitFile (vuBytes (sampleGen1 ++ sampleDownload)) = .err m := by
  refine vu_mixture_refused _ (cut_of_conforms ?_ ?_) ⟨.speedGen1, [0, 0] ++ zeros 128⟩
    ⟨.downloadInterfaceVersion, [1, 1]⟩ ?_ ?_ (.inl (by decide))
  · intro t ht
    rcases List.mem_append.1 ht with h | h
    · exact sampleGen1_conforms t h
    · exact cut_conforms sampleDownload_cut t h
  · simp [sampleGen1, sampleDownload]
  · simp [sampleGen1]
  · simp [sampleDownload]

/-- Six empty arrays are a complete events and faults transfer, and unreadable. -/
example : ∃ m, unmarshalVehicleUnitFile (vuBytes [⟨.eventsG2V1, (List.replicate 6 [9, 0, 1, 0, 0]).flatten⟩]) = .err m := by
  refine gen2_unreadable _ ⟨?_, by simp, trivial⟩ _ (List.mem_singleton.2 rfl) (by decide)
  have e : ([9, 0, 1, 0, 0] : Bytes) = [9] ++ beBytes 2 1 ++ beBytes 2 0 ++ [] := by decide
  have one : Piece.array.Fills [9, 0, 1, 0, 0] := ⟨9, 1, 0, [], by omega, by omega, e, rfl⟩
  exact ⟨_, _, rfl, one, _, _, rfl, one, _, _, rfl, one, _, _, rfl, one, _, _, rfl, one, _, [], rfl, one, rfl⟩

end

end Tacho
