import Verif.Spec.VuLegacyCap
import Verif.Props.VuLegacy
/-!
# The older activity parser on a slice with spare capacity (C66)

The bytes after the input never show in a result: where the parser would stop the program without them, it may return an
error with them, and everything else stays the same.
-/

namespace Tacho
open Spec

/-! ## One step -/

/-- The outcomes of a step without and with spare capacity. -/
def StepC {α : Type} (d : Bytes) (r r' : Res (α × Nat)) : Prop :=
  (r' = r ∧ ∀ a o', r = .ok (a, o') → o' ≤ d.length) ∨
  (r = .panic ∧ (r' = .panic ∨ ∃ a o', r' = .ok (a, o') ∧ d.length < o'))

/-- The outcomes of the rest without and with spare capacity. -/
def RestC {β : Type} (r r' : Res β) : Prop := r' = r ∨ (r = .panic ∧ (r' = .panic ∨ ∃ e, r' = .err e))

theorem RestC.bind {α β : Type} {d : Bytes} {r r' : Res (α × Nat)} {f f' : α × Nat → Res β} (h : StepC d r r')
    (hin : ∀ a o, o ≤ d.length → RestC (f (a, o)) (f' (a, o))) (hout : ∀ a o, d.length < o → ∃ e, f' (a, o) = .err e) :
    RestC (r >>= f) (r' >>= f') := by
  rcases h with ⟨rfl, hb⟩ | ⟨rfl, rfl | ⟨a, o, rfl, ho⟩⟩
  · cases hr : r' with
    | ok x =>
      obtain ⟨a, o⟩ := x
      rw [Res.bind_ok, Res.bind_ok]
      exact hin a o (hb a o hr)
    | err e => exact .inl rfl
    | panic => exact .inl rfl
  · exact .inl rfl
  · obtain ⟨e, he⟩ := hout a o ho
    rw [Res.bind_ok, he]
    exact .inr ⟨rfl, .inr ⟨e, rfl⟩⟩

theorem RestC.refl {β : Type} (r : Res β) : RestC r r := .inl rfl

theorem slc?_in {d spare : Bytes} {lo hi : Nat} (h1 : lo ≤ hi) (h : hi ≤ d.length) : slc? d spare lo hi = sl? d lo hi := by
  unfold slc? sl?
  rw [if_pos ⟨h1, by rw [List.length_append]; omega⟩, if_pos ⟨h1, h⟩, sl_append_left h]

/-- The loop over records of `n` bytes. -/
abbrev piecesAt {α : Type} (n : Nat) (f : Bytes → Res α) (d : Bytes) (k o : Nat) : Res (List α × Nat) :=
  readMany (fun o => do let b ← sl? d o (o + n); let c ← f b; return (c, o + n)) k o

theorem piecesAt_in {α : Type} (n : Nat) (f : Bytes → Res α) (d spare : Bytes) (k o : Nat) (h : o + k * n ≤ d.length) :
    piecesAt n f (d ++ spare) k o = piecesAt n f d k o := by
  unfold piecesAt
  induction k generalizing o with
  | zero => rfl
  | succ k ih =>
    rw [Nat.succ_mul] at h
    unfold readMany
    rw [show sl? (d ++ spare) o (o + n) = sl? d o (o + n) from slc?_in (by omega) (by omega)]
    rw [sl?_ok (by omega) (by omega), Res.bind_ok]
    cases f (sl d o (o + n)) with
    | ok a =>
      simp only [Res.bind_ok, Res.pure_eq]
      have := ih (o + n) (by omega)
      simp only [Res.pure_eq] at this
      rw [this]
    | err e => rfl
    | panic => rfl

/-- The loop with spare capacity, exactly. -/
theorem piecesAt_cap {α : Type} {n : Nat} (hn : 0 < n) {f : Bytes → Res α} (hf : ∀ b, b.length = n → ∃ a, f b = .ok a)
    (d spare : Bytes) (k o : Nat) (ho : o ≤ d.length) :
    if d.length + spare.length < o + k * n then piecesAt n f (d ++ spare) k o = .panic
    else if d.length < o + k * n then ∃ as, piecesAt n f (d ++ spare) k o = .ok (as, o + k * n)
    else piecesAt n f (d ++ spare) k o = piecesAt n f d k o := by
  have h := readMany_total hn hf (d ++ spare) k o (by rw [List.length_append]; omega)
  rw [List.length_append] at h
  split
  · next h1 => rw [if_pos h1] at h; exact h
  · next h1 =>
    rw [if_neg h1] at h
    split
    · exact h
    · exact piecesAt_in n f d spare k o (by omega)

theorem piecesAt_step {α : Type} {n : Nat} (hn : 0 < n) {f : Bytes → Res α} (hf : ∀ b, b.length = n → ∃ a, f b = .ok a)
    (d spare : Bytes) (k o : Nat) (ho : o ≤ d.length) : StepC d (piecesAt n f d k o) (piecesAt n f (d ++ spare) k o) := by
  have h := piecesAt_cap hn hf d spare k o ho
  have h0 := readMany_total hn hf d k o ho
  split at h
  · rw [if_pos (by omega)] at h0
    exact .inr ⟨h0, .inl h⟩
  · split at h
    · next h1 =>
      rw [if_pos h1] at h0
      obtain ⟨as, h⟩ := h
      exact .inr ⟨h0, .inr ⟨as, _, h, h1⟩⟩
    · next h1 =>
      rw [if_neg h1] at h0
      refine .inl ⟨h, fun a o' he => ?_⟩
      obtain ⟨as, h0⟩ := h0
      have h0' : piecesAt n f d k o = .ok (as, o + k * n) := h0
      rw [he] at h0'
      simp only [Res.ok.injEq, Prod.mk.injEq] at h0'
      omega

theorem readU8_step (d : Bytes) (o : Nat) : StepC d (readU8 d o) (readU8 d o) := by
  refine .inl ⟨rfl, fun a o' h => ?_⟩
  unfold readU8 at h
  split at h
  · cases h
  · obtain ⟨b, _, h⟩ := bind_eq_ok.mp h
    simp at h
    omega

theorem readU8_past {d : Bytes} {o : Nat} (h : d.length < o) : readU8 d o = .err "unexpected EOF" := by
  unfold readU8
  rw [if_pos (by omega)]

theorem readN_past {d : Bytes} {o n : Nat} (h : d.length < o) : readN d o (n : Int) = .err "unexpected EOF" := by
  unfold readN
  rw [if_pos (by omega)]

theorem arrayHeader_past {d : Bytes} {o t : Nat} {s : Option Nat} (h : d.length < o) : ∃ e, arrayHeader t s d o = .err e := by
  unfold arrayHeader
  rw [if_pos (by omega)]
  exact ⟨_, rfl⟩

/-- A counted list with and without spare capacity. -/
theorem counted_step {α : Type} {n : Nat} (hn : 0 < n) {f : Bytes → Res α} (hf : ∀ b, b.length = n → ∃ a, f b = .ok a)
    (d spare : Bytes) (o : Nat) :
    StepC d (readU8 d o >>= fun x => piecesAt n f d x.1.toNat x.2) (readU8 d o >>= fun x => piecesAt n f (d ++ spare) x.1.toNat x.2) := by
  cases h : readU8 d o with
  | ok x =>
    obtain ⟨k, o1⟩ := x
    rw [Res.bind_ok, Res.bind_ok]
    rcases readU8_step d o with ⟨_, hb⟩ | ⟨hp, _⟩
    · exact piecesAt_step hn hf d spare _ _ (hb k o1 h)
    · rw [h] at hp; cases hp
  | err e => exact .inl ⟨rfl, fun a o' h => by simp at h⟩
  | panic => exact .inl ⟨rfl, fun a o' h => by simp at h⟩

theorem changes_step (d spare : Bytes) (o : Nat) : StepC d (legacyChanges d o) (legacyChangesC d spare o) :=
  counted_step (n := 2) (by omega) activityChange_total2 d spare o

theorem places_step (d spare : Bytes) (o : Nat) : StepC d (legacyPlaces d o) (legacyPlacesC d spare o) :=
  counted_step (n := 10) (by omega) legacyPlace_total10 d spare o

theorem conditions_step (d spare : Bytes) (o : Nat) : StepC d (legacyConditions d o) (legacyConditionsC d spare o) :=
  counted_step (n := 5) (by omega) specificCondition_total5 d spare o

theorem arrayHeader_step (t : Nat) (s : Option Nat) (d : Bytes) (o : Nat) : StepC d (arrayHeader t s d o) (arrayHeader t s d o) := by
  refine .inl ⟨rfl, fun a o' h => ?_⟩
  unfold arrayHeader at h
  by_cases h6 : o + 6 > d.length
  · rw [if_pos h6] at h; cases h
  · rw [if_neg h6] at h
    simp only [Res.pure_eq, Res.bind_ok] at h
    obtain ⟨r, _, h⟩ := bind_eq_ok.mp h
    split at h
    · cases h
    · cases s with
      | none => simp at h; omega
      | some s =>
        dsimp only at h
        split at h
        · cases h
        · simp at h; omega

theorem odometers_step (d spare : Bytes) (o : Nat) : StepC d (legacyOdometers d o) (legacyOdometersC d spare o) := by
  unfold legacyOdometers legacyOdometersC
  cases h : arrayHeader 2 (some 3) d o with
  | ok x =>
    obtain ⟨k, o1⟩ := x
    rw [Res.bind_ok, Res.bind_ok]
    rcases arrayHeader_step 2 (some 3) d o with ⟨_, hb⟩ | ⟨hp, _⟩
    · exact piecesAt_step (n := 3) (by omega) (fun b hb => ⟨_, (unmarshalOdometer_3 hb _).mpr rfl⟩) d spare _ _ (hb k o1 h)
    · rw [h] at hp; cases hp
  | err e => exact .inl ⟨rfl, fun a o' h => by simp at h⟩
  | panic => exact .inl ⟨rfl, fun a o' h => by simp at h⟩

variable [Charmap]

theorem iwData_past {d : Bytes} {o : Nat} (h : d.length < o) : legacyIWData d o = .err "unexpected EOF" := by
  unfold legacyIWData
  rw [readU8_past h]
  rfl

theorem iwData_step {d : Bytes} {o : Nat} (ho : o ≤ d.length) : StepC d (legacyIWData d o) (legacyIWData d o) := by
  refine .inl ⟨rfl, fun a o' h => ?_⟩
  obtain ⟨t, _, rfl⟩ := (reads_iw1.spec (a := a) (o' := o') ho).mp h
  omega

theorem iwGen2_same {d : Bytes} (spare : Bytes) {o : Nat} (ho : o ≤ d.length) : legacyIWGen2C d spare o = legacyIWGen2 d o := by
  unfold legacyIWGen2C legacyIWGen2
  cases h1 : readN d o 72 with
  | err e => rw [Res.bind_err, Res.bind_err]
  | panic => rw [Res.bind_panic, Res.bind_panic]
  | ok x =>
    obtain ⟨a, o1⟩ := x
    rw [Res.bind_ok, Res.bind_ok]
    dsimp only
    cases unmarshalHolderName a with
    | err e => rw [Res.bind_err, Res.bind_err]
    | panic => rw [Res.bind_panic, Res.bind_panic]
    | ok nm =>
      rw [Res.bind_ok, Res.bind_ok]
      cases h2 : readN d o1 20 with
      | err e => rw [Res.bind_err, Res.bind_err]
      | panic => rw [Res.bind_panic, Res.bind_panic]
      | ok y =>
        obtain ⟨b, o2⟩ := y
        rw [Res.bind_ok, Res.bind_ok]
        dsimp only
        cases h3 : unmarshalFullCardNumberAndGeneration b with
        | err e => rw [Res.bind_err, Res.bind_err]
        | panic => rw [Res.bind_panic, Res.bind_panic]
        | ok nb =>
          obtain ⟨u1, ⟨hal, p1⟩, rfl⟩ := ((reads_n 72).spec (a := a) (o' := o1) ho).mp h1
          obtain ⟨l1, _⟩ := (reads_n 72).left (a := a) (t := u1) ho ⟨hal, p1⟩
          obtain ⟨u2, ⟨hbl, _⟩, _⟩ := ((reads_n 20).spec (a := b) (o' := o2) l1).mp h2
          exact absurd h3 (number_20 hbl nb)

theorem iwArray_same {d : Bytes} (spare : Bytes) (o : Nat) : legacyIWArrayC d spare o = legacyIWArray d o := by
  unfold legacyIWArrayC legacyIWArray
  cases h : arrayHeader 0x0D none d o with
  | err e => rw [Res.bind_err, Res.bind_err]
  | panic => rw [Res.bind_panic, Res.bind_panic]
  | ok x =>
    obtain ⟨k, o1⟩ := x
    rw [Res.bind_ok, Res.bind_ok]
    have ho1 : o1 ≤ d.length := by
      rcases arrayHeader_step 0x0D none d o with ⟨_, hb⟩ | ⟨hp, _⟩
      · exact hb k o1 h
      · rw [h] at hp; cases hp
    cases k with
    | zero => rfl
    | succ k =>
      dsimp only
      rw [readMany, readMany]
      rw [iwGen2_same spare ho1]
      cases h2 : legacyIWGen2 d o1 with
      | err e => rw [Res.bind_err, Res.bind_err]
      | panic => rw [Res.bind_panic, Res.bind_panic]
      | ok y => exact absurd h2 (legacyIWGen2_never _ _ _)

theorem legacyGen1_rest (d spare : Bytes) (o : Nat) : RestC (legacyGen1 d o) (legacyGen1C d spare o) := by
  unfold legacyGen1 legacyGen1C
  cases ht : readTime d o with
  | err e => rw [Res.bind_err, Res.bind_err]; exact .refl _
  | panic => rw [Res.bind_panic, Res.bind_panic]; exact .refl _
  | ok x =>
    obtain ⟨t, o1⟩ := x
    rw [Res.bind_ok, Res.bind_ok]
    dsimp only
    have ho1 : o1 ≤ d.length := by
      unfold readTime at ht
      split at ht
      · cases ht
      · obtain ⟨r, _, h⟩ := bind_eq_ok.mp ht
        simp at h
        omega
    by_cases h3 : o1 + 3 ≤ d.length
    · rw [slc?_in (by omega) h3]
      cases sl? d o1 (o1 + 3) with
      | err e => rw [Res.bind_err, Res.bind_err]; exact .refl _
      | panic => rw [Res.bind_panic, Res.bind_panic]; exact .refl _
      | ok b =>
        rw [Res.bind_ok, Res.bind_ok]
        cases unmarshalOdometer b with
        | err e => rw [Res.bind_err, Res.bind_err]; exact .refl _
        | panic => rw [Res.bind_panic, Res.bind_panic]; exact .refl _
        | ok odo =>
          rw [Res.bind_ok, Res.bind_ok]
          refine (RestC.bind (iwData_step h3) (fun iw o2 _ => ?_) fun _ _ h => ⟨_, by
            show legacyChangesC d spare _ >>= _ = _
            unfold legacyChangesC
            rw [readU8_past h]; rfl⟩)
          refine (RestC.bind (changes_step d spare o2) (fun ch o3 _ => ?_) fun _ _ h => ⟨_, by
            show legacyPlacesC d spare _ >>= _ = _
            unfold legacyPlacesC
            rw [readU8_past h]; rfl⟩)
          refine (RestC.bind (places_step d spare o3) (fun pl o4 _ => ?_) fun _ _ h => ⟨_, by
            show legacyConditionsC d spare _ >>= _ = _
            unfold legacyConditionsC
            rw [readU8_past h]; rfl⟩)
          refine (RestC.bind (conditions_step d spare o4) (fun co o5 _ => .refl _) fun _ _ h => ⟨_, by
            show readN d _ ((128 : Nat) : Int) >>= _ = _
            rw [readN_past h]; rfl⟩)
    · have hp : sl? d o1 (o1 + 3) = .panic := sl?_panic_iff.mpr (by omega)
      rw [hp, Res.bind_panic]
      refine .inr ⟨rfl, ?_⟩
      cases hs : slc? d spare o1 (o1 + 3) with
      | err e => exact .inr ⟨e, rfl⟩
      | panic => exact .inl rfl
      | ok b =>
        rw [Res.bind_ok]
        cases hu : unmarshalOdometer b with
        | err e => exact .inr ⟨e, rfl⟩
        | panic => exact .inl rfl
        | ok odo =>
          rw [Res.bind_ok, iwData_past (by omega)]
          exact .inr ⟨_, rfl⟩

theorem legacyGen2_rest (d spare : Bytes) (o : Nat) : RestC (legacyGen2 d o) (legacyGen2C d spare o) := by
  unfold legacyGen2 legacyGen2C
  cases ht : legacyDates d o with
  | err e => rw [Res.bind_err, Res.bind_err]; exact .refl _
  | panic => rw [Res.bind_panic, Res.bind_panic]; exact .refl _
  | ok x =>
    obtain ⟨t, o1⟩ := x
    rw [Res.bind_ok, Res.bind_ok]
    dsimp only
    refine (RestC.bind (odometers_step d spare o1) (fun od o2 _ => ?_) fun _ o2 h => ?_)
    · dsimp only
      rw [iwArray_same]
      exact .refl _
    · dsimp only
      rw [iwArray_same]
      unfold legacyIWArray
      obtain ⟨e, he⟩ := arrayHeader_past (t := 0x0D) (s := none) h
      rw [he, Res.bind_err, Res.bind_err]
      exact ⟨e, rfl⟩

omit [Charmap] in
/-- A counted list with spare capacity: an error when the count is missing, a stop when the list goes beyond the
capacity, an offset past the input when it goes beyond the input only. -/
theorem counted_cap {α : Type} {n : Nat} (hn : 0 < n) {f : Bytes → Res α} (hf : ∀ b, b.length = n → ∃ a, f b = .ok a) {d : Bytes}
    (spare : Bytes) {o : Nat} (ho : o ≤ d.length) {r : Bytes → Bytes → Nat → Res (List α × Nat)}
    (hr : ∀ d spare o, r d spare o = readU8 d o >>= fun x => piecesAt n f (d ++ spare) x.1.toNat x.2) :
    match d.drop o with
    | [] => ∃ m, r d spare o = .err m
    | k :: rest => if rest.length + spare.length < k.toNat * n then r d spare o = .panic
      else if rest.length < k.toNat * n then ∃ as o', r d spare o = .ok (as, o') ∧ d.length < o'
      else ∃ as, r d spare o = .ok (as, o + 1 + k.toNat * n) ∧ o + 1 + k.toNat * n ≤ d.length ∧
        d.drop (o + 1 + k.toNat * n) = rest.drop (k.toNat * n) := by
  have h0 := counted_cases hn hf ho (r := fun d o => readU8 d o >>= fun x => piecesAt n f d x.1.toNat x.2) fun _ _ => rfl
  rw [hr]
  cases hd : d.drop o with
  | nil =>
    dsimp only
    have : d.length ≤ o := by
      have := congrArg List.length hd
      rw [List.length_drop, List.length_nil] at this
      omega
    refine ⟨"unexpected EOF", ?_⟩
    unfold readU8
    rw [if_pos this, Res.bind_err]
  | cons k rest =>
    rw [hd] at h0
    dsimp only at h0 ⊢
    have hl := congrArg List.length hd
    rw [List.length_drop, List.length_cons] at hl
    have h8 : readU8 d o = .ok (k, o + 1) := by
      rw [reads_u8.spec ho]
      exact ⟨rest, hd, by omega⟩
    rw [h8, Res.bind_ok] at h0 ⊢
    dsimp only at h0 ⊢
    have h := piecesAt_cap hn hf d spare k.toNat (o + 1) (by omega)
    split
    · rw [if_pos (by omega)] at h
      exact h
    · rw [if_neg (by omega)] at h
      split
      · rw [if_pos (by omega)] at h
        obtain ⟨as, h⟩ := h
        exact ⟨as, _, h, by omega⟩
      · next h2 =>
        rw [if_neg (by omega)] at h
        rw [if_neg h2] at h0
        rw [h]
        exact h0

/-! ## The theorems -/

theorem unmarshalC_gen1 (d spare : Bytes) {o : Nat} (ho : o + 4 < 2 ^ 63) :
    unmarshalVuActivitiesC true d spare o 1 = legacyGen1C d spare o := by
  unfold unmarshalVuActivitiesC
  rw [if_pos rfl, if_neg (by simp), if_neg (by omega), Int.toNat_natCast]

theorem unmarshalC_gen2 (d spare : Bytes) {o : Nat} (ho : o + 6 < 2 ^ 63) :
    unmarshalVuActivitiesC true d spare o 2 = legacyGen2C d spare o := by
  unfold unmarshalVuActivitiesC
  rw [if_neg (by omega), if_pos rfl, if_neg (by simp), if_neg (by omega), Int.toNat_natCast]

/-- C66. What lies after the input in its array never shows in a result. The outcome is that for a slice without spare
capacity, except that where the program would stop, an error may be returned instead. -/
theorem legacy_capacity (d spare : Bytes) (o : Nat) (g : Int) (ho : o + 6 < 2 ^ 63) :
    (unmarshalVuActivities d o g ≠ .panic → unmarshalVuActivitiesC true d spare o g = unmarshalVuActivities d o g) ∧
    (unmarshalVuActivities d o g = .panic →
      unmarshalVuActivitiesC true d spare o g = .panic ∨ ∃ e, unmarshalVuActivitiesC true d spare o g = .err e) := by
  have key : RestC (unmarshalVuActivities d o g) (unmarshalVuActivitiesC true d spare o g) := by
    by_cases h1 : g = 1
    · subst h1
      rw [unmarshalC_gen1 d spare (by omega)]
      exact legacyGen1_rest d spare o
    · by_cases h2 : g = 2
      · subst h2
        rw [unmarshalC_gen2 d spare ho]
        exact legacyGen2_rest d spare o
      · unfold unmarshalVuActivities unmarshalVuActivitiesC
        rw [if_neg h1, if_neg h2, if_neg h1, if_neg h2]
        exact .refl _
  rcases key with h | ⟨h, h'⟩
  · refine ⟨fun _ => h, fun hp => .inl (by rw [h, hp])⟩
  · exact ⟨fun hn => absurd h hn, fun _ => h'⟩

/-- C66. A day is read with spare capacity exactly if it is read without, with the same result. -/
theorem legacy_capacity_ok (d spare : Bytes) (o : Nat) (g : Int) (ho : o + 6 < 2 ^ 63) (x : Nat × LegacyActivities) :
    unmarshalVuActivitiesC true d spare o g = .ok x ↔ unmarshalVuActivities d o g = .ok x := by
  obtain ⟨h1, h2⟩ := legacy_capacity d spare o g ho
  by_cases hp : unmarshalVuActivities d o g = .panic
  · rcases h2 hp with h | ⟨e, h⟩ <;> rw [h, hp] <;> simp
  · rw [h1 hp]

/-- C66. When the Gen1 parser stops the program, given the spare capacity of its input. -/
theorem legacy_gen1_panics_cap_iff (d spare : Bytes) (o : Nat) (ho : o + 6 < 2 ^ 63) :
    unmarshalVuActivitiesC true d spare o 1 = .panic ↔
      (4 ≤ (d.drop o).length ∧ (d.drop o).length + spare.length < 7) ∨
      (∃ k tail, (d.drop o).drop 7 = k :: tail ∧ (k = 0 ∨ tail.length < 126) ∧ ListOverruns spare.length [2, 10, 5] tail) := by
  rw [unmarshalC_gen1 d spare (by omega)]
  generalize hi : d.drop o = i
  have hil : i.length = d.length - o := by rw [← hi, List.length_drop]
  by_cases h7 : o + 7 ≤ d.length
  · have h3 : ¬ (4 ≤ i.length ∧ i.length + spare.length < 7) := by omega
    simp only [h3, false_or]
    unfold legacyGen1C
    have ht : readTime d o = .ok (⟨(beNat (i.take 4) : Int), 0⟩, o + 4) := by
      unfold readTime
      rw [if_neg (by omega), ← hi, from?, if_pos (by omega)]
      rfl
    rw [ht, Res.bind_ok]
    dsimp only
    rw [slc?_in (by omega) (by omega), sl?_ok (by omega) (by omega), Res.bind_ok,
      (unmarshalOdometer_3 (by rw [sl_length_of (by omega)]; omega) _).mpr rfl, Res.bind_ok]
    have hd7 : d.drop (o + 7) = i.drop 7 := by rw [← hi, List.drop_drop]
    rw [show o + 4 + 3 = o + 7 from rfl]
    cases h8 : i.drop 7 with
    | nil =>
      have hb : readU8 d (o + 7) = .err "unexpected EOF" := by
        unfold readU8
        rw [if_pos]
        have := congrArg List.length h8
        rw [List.length_drop, List.length_nil] at this
        omega
      unfold legacyIWData
      rw [hb]
      simp
    | cons k tail =>
      have hk : (∃ k_1 tail_1, k :: tail = k_1 :: tail_1 ∧ (k_1 = 0 ∨ tail_1.length < 126) ∧ ListOverruns spare.length [2, 10, 5] tail_1) ↔
          (k = 0 ∨ tail.length < 126) ∧ ListOverruns spare.length [2, 10, 5] tail := by
        constructor
        · rintro ⟨_, _, h, h'⟩
          injection h with ha hb
          subst ha hb
          exact h'
        · intro h'; exact ⟨_, _, rfl, h'⟩
      rw [hk]
      have htl : tail.length + 8 = i.length := by
        have := congrArg List.length h8
        rw [List.length_drop, List.length_cons] at this
        omega
      have hd8 : d.drop (o + 8) = tail := by
        rw [show o + 8 = o + 7 + 1 from rfl, ← List.drop_drop, hd7, h8]; rfl
      have hu : readU8 d (o + 7) = .ok (k, o + 8) := by
        rw [reads_u8.spec h7]
        exact ⟨tail, by rw [hd7, h8], by omega⟩
      by_cases hiw : k = 0 ∨ tail.length < 126
      · have hw : legacyIWData d (o + 7) = .ok ([], o + 8) := by
          rw [reads_iw1.spec h7]
          exact ⟨tail, ⟨rfl, k, by rw [hd7, h8], hiw⟩, by omega⟩
        rw [hw, Res.bind_ok]
        simp only [hiw, true_and]
        have c1 := counted_cap (n := 2) (by omega) activityChange_total2 spare (show o + 8 ≤ d.length by omega) (r := legacyChangesC) fun _ _ _ => rfl
        rw [hd8] at c1
        match tail with
        | [] =>
          obtain ⟨m, hm⟩ := c1
          rw [hm]
          simp [ListOverruns]
        | k1 :: r1 =>
          dsimp only at c1
          unfold ListOverruns
          by_cases s1 : r1.length + spare.length < k1.toNat * 2
          · rw [if_pos s1] at c1
            rw [c1]
            simp [s1]
          · rw [if_neg s1] at c1
            by_cases e1 : r1.length < k1.toNat * 2
            · rw [if_pos e1] at c1
              obtain ⟨as1, o1, h1, b1⟩ := c1
              rw [h1, Res.bind_ok]
              dsimp only
              rw [show legacyPlacesC d spare o1 = .err "unexpected EOF" by
                unfold legacyPlacesC; rw [readU8_past b1]; rfl]
              simp only [Res.bind_err, reduceCtorEq, false_iff]
              omega
            · rw [if_neg e1] at c1
              obtain ⟨as1, h1, b1, d1⟩ := c1
              rw [h1, Res.bind_ok]
              simp only [s1, false_or, show k1.toNat * 2 ≤ r1.length by omega, true_and]
              have c2 := counted_cap (n := 10) (by omega) legacyPlace_total10 spare b1 (r := legacyPlacesC) fun _ _ _ => rfl
              rw [d1] at c2
              generalize r1.drop (k1.toNat * 2) = tail2 at *
              match tail2 with
              | [] =>
                obtain ⟨m, hm⟩ := c2
                rw [hm]
                simp [ListOverruns]
              | k2 :: r2 =>
                dsimp only at c2
                unfold ListOverruns
                by_cases s2 : r2.length + spare.length < k2.toNat * 10
                · rw [if_pos s2] at c2
                  rw [c2]
                  simp [s2]
                · rw [if_neg s2] at c2
                  by_cases e2 : r2.length < k2.toNat * 10
                  · rw [if_pos e2] at c2
                    obtain ⟨as2, o2, h2, b2⟩ := c2
                    rw [h2, Res.bind_ok]
                    dsimp only
                    rw [show legacyConditionsC d spare o2 = .err "unexpected EOF" by
                      unfold legacyConditionsC; rw [readU8_past b2]; rfl]
                    simp only [Res.bind_err, reduceCtorEq, false_iff]
                    omega
                  · rw [if_neg e2] at c2
                    obtain ⟨as2, h2, b2, d2⟩ := c2
                    rw [h2, Res.bind_ok]
                    simp only [s2, false_or, show k2.toNat * 10 ≤ r2.length by omega, true_and]
                    have c3 := counted_cap (n := 5) (by omega) specificCondition_total5 spare b2 (r := legacyConditionsC) fun _ _ _ => rfl
                    rw [d2] at c3
                    generalize r2.drop (k2.toNat * 10) = tail3 at *
                    match tail3 with
                    | [] =>
                      obtain ⟨m, hm⟩ := c3
                      rw [hm]
                      simp [ListOverruns]
                    | k3 :: r3 =>
                      dsimp only at c3
                      unfold ListOverruns
                      by_cases s3 : r3.length + spare.length < k3.toNat * 5
                      · rw [if_pos s3] at c3
                        rw [c3]
                        simp [s3]
                      · rw [if_neg s3] at c3
                        have hfin : ∃ as3 o3, legacyConditionsC d spare (o + 8 + 1 + k1.toNat * 2 + 1 + k2.toNat * 10) = .ok (as3, o3) := by
                          split at c3
                          · obtain ⟨a, b, h, _⟩ := c3; exact ⟨a, b, h⟩
                          · obtain ⟨a, h, _⟩ := c3; exact ⟨a, _, h⟩
                        obtain ⟨as3, o3, h3'⟩ := hfin
                        rw [h3', Res.bind_ok]
                        simp only [s3, false_or, ListOverruns, and_false, iff_false]
                        exact np_call (readN_np d o3 128) fun _ => np_pure
      · have hw : legacyIWData d (o + 7) ≠ .panic := by
          unfold legacyIWData
          rw [hu, Res.bind_ok]
          unfold readScanned
          refine np_from (by omega) fun _ _ => np_call (mapRes_ne_panic fun b hb => ?_) fun _ => by no_panic
          exact legacyIWRecord_np b
        simp only [hiw, false_and, iff_false]
        intro hp
        cases hq : legacyIWData d (o + 7) with
        | panic => exact hw hq
        | err m => rw [hq] at hp; simp at hp
        | ok x =>
          obtain ⟨t, ⟨_, k', hk', hh⟩, _⟩ := (reads_iw1.spec (a := x.1) (o' := x.2) h7).mp hq
          rw [hd7, h8] at hk'
          injection hk' with ha hb
          subst ha hb
          exact hiw hh
  · have hr : ¬ ∃ k tail, i.drop 7 = k :: tail ∧ (k = 0 ∨ tail.length < 126) ∧ ListOverruns spare.length [2, 10, 5] tail := by
      rintro ⟨k, tail, he, _⟩
      rw [List.drop_eq_nil_of_le (by omega)] at he
      cases he
    simp only [hr, or_false]
    unfold legacyGen1C
    by_cases h4 : o + 4 > d.length
    · have : readTime d o = .err "unexpected EOF" := by unfold readTime; rw [if_pos h4]
      rw [this, Res.bind_err]
      simp only [reduceCtorEq, false_iff]
      omega
    · have ht : readTime d o = .ok (⟨(beNat (i.take 4) : Int), 0⟩, o + 4) := by
        unfold readTime
        rw [if_neg h4, ← hi, from?, if_pos (by omega)]
        rfl
      rw [ht, Res.bind_ok]
      dsimp only
      by_cases hs : d.length + spare.length < o + 7
      · have : slc? d spare (o + 4) (o + 4 + 3) = .panic :=
          sl?_panic_iff.mpr (by rw [List.length_append]; omega)
        rw [this, Res.bind_panic]
        simp only [true_iff]
        omega
      · have hsl : slc? d spare (o + 4) (o + 4 + 3) = .ok (sl (d ++ spare) (o + 4) (o + 4 + 3)) :=
          sl?_ok (by omega) (by rw [List.length_append]; omega)
        rw [hsl, Res.bind_ok, (unmarshalOdometer_3 (by rw [sl_length_of (by rw [List.length_append]; omega)]; omega) _).mpr rfl,
          Res.bind_ok, iwData_past (by omega), Res.bind_err]
        simp only [reduceCtorEq, false_iff]
        omega

/-- C66. When the Gen2 parser stops the program, given the spare capacity of its input. -/
theorem legacy_gen2_panics_cap_iff (d spare : Bytes) (o : Nat) (ho : o + 6 < 2 ^ 63) :
    unmarshalVuActivitiesC true d spare o 2 = .panic ↔
      ∃ dates t1, ExactArray 1 4 (fun b (t : Timestamp) => t = { seconds := (beNat b : Int), nanos := 0 }) (d.drop o) dates t1 ∧
        ∃ c rest, c < 65536 ∧ t1 = wideHeader 2 3 c ++ rest ∧ rest.length + spare.length < 3 * c := by
  have hm := fun (k o : Nat) ho => piecesAt_cap (n := 3) (by omega) (f := unmarshalOdometer) (fun b hb => ⟨_, (unmarshalOdometer_3 hb _).mpr rfl⟩) d spare k o ho
  constructor
  · intro h
    have hp : unmarshalVuActivities d o 2 = .panic := by
      by_contra hn
      rw [(legacy_capacity d spare o 2 ho).1 hn] at h
      exact hn h
    obtain ⟨dates, t1, p1, c, rest, hc, he, hlt⟩ := (legacy_gen2_panics_iff d o).mp hp
    refine ⟨dates, t1, p1, c, rest, hc, he, ?_⟩
    have hod : o ≤ d.length := by
      by_contra hn
      obtain ⟨_, e, _⟩ := p1
      rw [List.drop_eq_nil_of_le (by omega)] at e
      have := congrArg List.length e
      simp [wideHeader_length] at this
      omega
    obtain ⟨l1, d1⟩ := reads_dates.left hod p1
    rw [← d1] at he
    obtain ⟨l2, d2⟩ := (reads_header 2 3 (by omega) (by omega)).left (a := c) (t := rest) l1 ⟨hc, he⟩
    have hr : rest.length ≤ d.length := by
      have := congrArg List.length d2
      rw [List.length_drop] at this; omega
    by_contra hns
    rw [unmarshalC_gen2 d spare ho] at h
    unfold legacyGen2C at h
    rw [(reads_dates.spec hod).mpr ⟨_, p1, rfl⟩, Res.bind_ok] at h
    dsimp only at h
    unfold legacyOdometersC at h
    rw [((reads_header 2 3 (by omega) (by omega)).spec (a := c) l1).mpr ⟨rest, ⟨hc, he⟩, rfl⟩, Res.bind_ok] at h
    have hh := hm c _ l2
    rw [if_neg (by omega), if_pos (by omega)] at hh
    obtain ⟨as, hh⟩ := hh
    dsimp only [piecesAt] at hh
    dsimp only [slc?] at h
    rw [hh, Res.bind_ok] at h
    dsimp only at h
    rw [iwArray_same] at h
    unfold legacyIWArray at h
    obtain ⟨e, hE⟩ := arrayHeader_past (t := 0x0D) (s := none) (d := d) (o := d.length - rest.length + c * 3) (by omega)
    rw [hE, Res.bind_err, Res.bind_err] at h
    cases h
  · rintro ⟨dates, t1, p1, c, rest, hc, he, hlt⟩
    have hod : o ≤ d.length := by
      by_contra hn
      obtain ⟨_, e, _⟩ := p1
      rw [List.drop_eq_nil_of_le (by omega)] at e
      have := congrArg List.length e
      simp [wideHeader_length] at this
      omega
    obtain ⟨l1, d1⟩ := reads_dates.left hod p1
    rw [← d1] at he
    obtain ⟨l2, d2⟩ := (reads_header 2 3 (by omega) (by omega)).left (a := c) (t := rest) l1 ⟨hc, he⟩
    have hr : rest.length ≤ d.length := by
      have := congrArg List.length d2
      rw [List.length_drop] at this; omega
    rw [unmarshalC_gen2 d spare ho]
    unfold legacyGen2C
    rw [(reads_dates.spec hod).mpr ⟨_, p1, rfl⟩, Res.bind_ok]
    dsimp only
    unfold legacyOdometersC
    rw [((reads_header 2 3 (by omega) (by omega)).spec (a := c) l1).mpr ⟨rest, ⟨hc, he⟩, rfl⟩, Res.bind_ok]
    have hh := hm c _ l2
    rw [if_pos (by omega)] at hh
    dsimp only [piecesAt] at hh
    dsimp only [slc?]
    rw [hh, Res.bind_panic]

/-- C66. A nil target stops the program, whatever the input. -/
theorem legacy_nil_target (d spare : Bytes) (o g : Int) :
    (unmarshalVuActivitiesC false d spare o g = .panic ↔ g = 1 ∨ g = 2) ∧ unmarshalVuRestC false d o g = .panic := by
  refine ⟨?_, rfl⟩
  unfold unmarshalVuActivitiesC
  by_cases h1 : g = 1
  · simp [h1]
  · by_cases h2 : g = 2
    · simp [h2]
    · simp [h1, h2]

/-- C66. An offset before the input stops the program, unless the input is too short for the first value even from
there; an offset at the end of the range of `int` always does. -/
theorem legacy_bad_offset (d spare : Bytes) (o : Int) :
    (-2 ^ 63 ≤ o → o < 0 → (unmarshalVuActivitiesC true d spare o 1 = .panic ↔ o + 4 ≤ d.length) ∧
      (unmarshalVuActivitiesC true d spare o 2 = .panic ↔ o + 6 ≤ d.length) ∧
      (∀ g x, unmarshalVuActivitiesC true d spare o g ≠ .ok x) ∧ ∀ g, unmarshalVuRestC true d o g = .panic) ∧
    (2 ^ 63 - 4 ≤ o → o < 2 ^ 63 → unmarshalVuActivitiesC true d spare o 1 = .panic ∧ unmarshalVuActivitiesC true d spare o 2 = .panic) := by
  refine ⟨fun hl hn => ⟨?_, ?_, ?_, ?_⟩, fun hl hu => ⟨?_, ?_⟩⟩
  · have : wrap64 (o + 4) = o + 4 := by unfold wrap64; omega
    unfold unmarshalVuActivitiesC
    rw [if_pos rfl, if_neg (by simp), if_pos (.inl hn), this]
    split <;> simp <;> omega
  · have : wrap64 (o + 6) = o + 6 := by unfold wrap64; omega
    unfold unmarshalVuActivitiesC
    rw [if_neg (by omega), if_pos rfl, if_neg (by simp), if_pos (.inl hn), this]
    split <;> simp <;> omega
  · intro g x
    unfold unmarshalVuActivitiesC
    split
    · rw [if_neg (by simp), if_pos (.inl hn)]
      split <;> simp
    · split
      · rw [if_neg (by simp), if_pos (.inl hn)]
        split <;> simp
      · simp
  · intro g
    unfold unmarshalVuRestC
    rw [if_pos (.inr hn)]
  · have : wrap64 (o + 4) < 0 := by unfold wrap64; omega
    unfold unmarshalVuActivitiesC
    rw [if_pos rfl, if_neg (by simp), if_pos (.inr (by omega)), if_neg (by omega)]
  · have : wrap64 (o + 6) < 0 := by unfold wrap64; omega
    unfold unmarshalVuActivitiesC
    rw [if_neg (by omega), if_pos rfl, if_neg (by simp), if_pos (.inr (by omega)), if_neg (by omega)]

/-! ## Examples -/

/-- A day cut off within the odometer: the program stops without spare capacity, and with one spare byte; with two there
is an error. -/
example : unmarshalVuActivities [0, 0, 0, 0, 1] 0 1 = .panic ∧ unmarshalVuActivitiesC true [0, 0, 0, 0, 1] [9] 0 1 = .panic ∧
    ∃ e, unmarshalVuActivitiesC true [0, 0, 0, 0, 1] [9, 9] 0 1 = .err e := by
  have h1 : unmarshalVuActivities [0, 0, 0, 0, 1] 0 1 = .panic := (legacy_gen1_panics_iff _ _).mpr (.inl (by decide))
  refine ⟨h1, (legacy_gen1_panics_cap_iff _ _ 0 (by omega)).mpr (.inl (by decide)), ?_⟩
  refine ((legacy_capacity [0, 0, 0, 0, 1] [9, 9] 0 1 (by omega)).2 h1).resolve_left fun h => ?_
  rcases (legacy_gen1_panics_cap_iff _ _ 0 (by omega)).mp h with h | ⟨k, t, h, _⟩
  · revert h; decide
  · simp at h

/-- A list of two changes of which one is there. -/
example : ListOverruns 1 [2, 10, 5] [2, 0xAA, 0xBB] ∧ ¬ ListOverruns 2 [2, 10, 5] [2, 0xAA, 0xBB] := by
  constructor
  · exact .inl (by decide)
  · simp [ListOverruns]

end Tacho
