import Verif.Props.Vehicle
/-!
# Append functions extend their destination (C22)
-/

namespace Tacho
open Spec

/-- The function appends a fixed byte string satisfying `P`, whatever the destination, or fails
(without panic) whatever the destination. -/
def Spec.AppendsWith (P : Bytes → Prop) (f : Bytes → Res Bytes) : Prop :=
  (∃ e, P e ∧ ∀ dst, f dst = .ok (dst ++ e)) ∨ (∃ m, ∀ dst, f dst = .err m)

/-- Exactly `n` bytes, or failure. -/
def Spec.AppendsExactly (n : Nat) (f : Bytes → Res Bytes) : Prop := AppendsWith (fun e => e.length = n) f

/-- Some bytes, or failure. -/
def Spec.Appends (f : Bytes → Res Bytes) : Prop := AppendsWith (fun _ => True) f

/-- What `AppendsExactly` means for a caller: the destination is a prefix of the result and exactly `n`
bytes were added. -/
theorem appendsExactly_result {n : Nat} {f : Bytes → Res Bytes} (h : AppendsExactly n f) (dst out : Bytes)
    (ho : f dst = .ok out) : dst <+: out ∧ out.length = dst.length + n := by
  rcases h with ⟨e, he, h⟩ | ⟨m, h⟩
  · rw [h, Res.ok.injEq] at ho
    subst ho
    exact ⟨⟨e, rfl⟩, by simp [he]⟩
  · rw [h] at ho; cases ho

theorem Spec.AppendsWith.mono {P Q : Bytes → Prop} {f : Bytes → Res Bytes} (h : AppendsWith P f)
    (hpq : ∀ e, P e → Q e) : AppendsWith Q f := by
  rcases h with ⟨e, he, h⟩ | h
  · exact Or.inl ⟨e, hpq e he, h⟩
  · exact Or.inr h

theorem appendsWith_seq {P Q R : Bytes → Prop} {f g : Bytes → Res Bytes} (hf : AppendsWith P f)
    (hg : AppendsWith Q g) (hr : ∀ a b, P a → Q b → R (a ++ b)) : AppendsWith R (fun dst => f dst >>= g) := by
  rcases hf with ⟨e, he, hf⟩ | ⟨m, hf⟩
  · rcases hg with ⟨e2, he2, hg⟩ | ⟨m, hg⟩
    · exact Or.inl ⟨e ++ e2, hr _ _ he he2, fun dst => by dsimp only; rw [hf, Res.bind_ok, hg, List.append_assoc]⟩
    · exact Or.inr ⟨m, fun dst => by dsimp only; rw [hf, Res.bind_ok, hg]⟩
  · exact Or.inr ⟨m, fun dst => by dsimp only; rw [hf]; rfl⟩

theorem appendsExactly_seq {a b n : Nat} {f g : Bytes → Res Bytes} (hf : AppendsExactly a f)
    (hg : AppendsExactly b g) (hn : n = a + b) : AppendsExactly n (fun dst => f dst >>= g) :=
  appendsWith_seq hf hg (by intro x y h1 h2; simp [h1, h2, hn])

theorem appendsExactly_const {n : Nat} {e : Bytes} (h : e.length = n) :
    AppendsExactly n (fun dst => .ok (dst ++ e)) := Or.inl ⟨e, h, fun _ => rfl⟩

theorem appendsWith_of_res {P : Bytes → Prop} {r : Res Bytes} {f : Bytes → Res Bytes} (hP : ∀ e, r = .ok e → P e)
    (hp : r ≠ .panic) (hf : ∀ dst, f dst = (r >>= fun e => .ok (dst ++ e))) : AppendsWith P f := by
  cases r with
  | ok e => exact Or.inl ⟨e, hP e rfl, fun dst => by rw [hf]; rfl⟩
  | err m => exact Or.inr ⟨m, fun dst => by rw [hf]; rfl⟩
  | panic => exact absurd rfl hp

/-- A byte computed by a fallible step and appended. -/
theorem appendsExactly_byte {r : Res UInt8} (hp : r ≠ .panic) :
    AppendsExactly 1 (fun dst => r >>= fun b => .ok (dst ++ [b])) := by
  cases r with
  | ok b => exact Or.inl ⟨[b], rfl, fun _ => rfl⟩
  | err m => exact Or.inr ⟨m, fun _ => rfl⟩
  | panic => exact absurd rfl hp

theorem Spec.AppendsExactly.ne_panic {n : Nat} {f : Bytes → Res Bytes} (h : AppendsExactly n f) (dst : Bytes) :
    f dst ≠ .panic := by
  rcases h with ⟨e, _, h⟩ | ⟨m, h⟩ <;> rw [h] <;> simp

theorem Spec.AppendsWith.ne_panic {P : Bytes → Prop} {f : Bytes → Res Bytes} (h : AppendsWith P f) (dst : Bytes) :
    f dst ≠ .panic := by
  rcases h with ⟨e, _, h⟩ | ⟨m, h⟩ <;> rw [h] <;> simp

theorem Res.bind_assoc {α β γ : Type} (r : Res α) (f : α → Res β) (g : β → Res γ) :
    ((r >>= f) >>= g) = (r >>= fun a => f a >>= g) := by cases r <;> rfl

theorem marshalEnum_ne_panic (t : EnumTable) (v : Int) : marshalEnum t v ≠ .panic := by
  unfold marshalEnum; split <;> simp

theorem enumByte_ne_panic (t : EnumTable) (v : Int) (u : Option Int) : enumByte t v u ≠ .panic := by
  unfold enumByte; split
  · simp
  · exact marshalEnum_ne_panic t v

theorem canvasOf_ne_panic (raw : Option Bytes) (n : Nat) : canvasOf raw n ≠ .panic := by
  unfold canvasOf; split
  · split <;> simp
  · simp

theorem canvasNonEmpty_ne_panic (raw : Option Bytes) (n : Nat) : canvasNonEmpty raw n ≠ .panic := by
  unfold canvasNonEmpty; dsimp only; split
  · split <;> simp
  · simp

/-! ## Primitive types -/

theorem appendTimeReal_exact (ts : Option Timestamp) : AppendsExactly 4 (appendTimeReal · ts) := by
  cases ts with
  | none => exact Or.inl ⟨_, by simp, fun _ => rfl⟩
  | some t =>
    by_cases h : t.nanos > 0
    · exact Or.inr ⟨"nanosecond resolution is not supported for TimeReal", fun _ => by simp only [appendTimeReal, h, if_true]⟩
    · exact Or.inl ⟨beBytes 4 (low 32 t.seconds), by simp, fun _ => by simp only [appendTimeReal, h, if_false]⟩

theorem appendOdometer_exact (v : Nat) (dst : Bytes) : ∃ e, e.length = 3 ∧ appendOdometer dst v = dst ++ e := by
  rw [appendOdometer_eq]; exact ⟨_, by simp, rfl⟩

theorem appendDate_exact (m : Date) : AppendsExactly 4 (appendDate · m) := by
  unfold appendDate
  cases h : canvasOf m.rawData 4 with
  | ok c => exact Or.inl ⟨_, rfl, fun _ => rfl⟩
  | err e => exact Or.inr ⟨e, fun _ => rfl⟩
  | panic => exact absurd h (canvasOf_ne_panic _ _)

theorem appendCardStructureVersion_exact (m : CardStructureVersion) :
    AppendsExactly 2 (appendCardStructureVersion · m) := by
  unfold appendCardStructureVersion
  cases h : canvasOf m.rawData 2 with
  | ok c => exact Or.inl ⟨_, rfl, fun _ => rfl⟩
  | err e => exact Or.inr ⟨e, fun _ => rfl⟩
  | panic => exact absurd h (canvasOf_ne_panic _ _)

theorem appendMonthYear_exact (m : MonthYear) : AppendsExactly 2 (appendMonthYear · m) := by
  unfold appendMonthYear
  dsimp only
  split
  · exact Or.inr ⟨_, fun _ => rfl⟩
  · exact Or.inl ⟨_, rfl, fun _ => rfl⟩

theorem appendControlType_exact (m : ControlType) : AppendsExactly 1 (appendControlType · m) := by
  unfold appendControlType
  cases h : canvasOf m.rawData 1 with
  | ok c =>
    have hc : c.length = 1 := by
      unfold canvasOf at h
      split at h
      · split at h
        · cases h
        · rename_i hh; rw [Res.ok.injEq] at h; subst h; simpa using hh
      · rw [Res.ok.injEq] at h; subst h; simp
    match c, hc with
    | [b], _ => exact Or.inl ⟨_, rfl, fun _ => rfl⟩
  | err e => exact Or.inr ⟨e, fun _ => rfl⟩
  | panic => exact absurd h (canvasOf_ne_panic _ _)

theorem appendGeoCoordinates_exact (m : GeoCoordinates) : AppendsExactly 6 (appendGeoCoordinates · m) :=
  Or.inl ⟨beBytes 3 (low 24 m.latitude) ++ beBytes 3 (low 24 m.longitude), by simp, fun dst => by
    simp [appendGeoCoordinates, appendInt24]⟩

theorem appendActivityChangeInfo_exact (m : ActivityChangeInfo) :
    AppendsExactly 2 (appendActivityChangeInfo · m) := by
  unfold appendActivityChangeInfo
  cases h : canvasOf m.rawData 2 with
  | ok c =>
    cases h2 : marshalEnum cardSlotNumberTable m.slot with
    | ok s =>
      cases h3 : marshalEnum driverActivityValueTable m.activity with
      | ok a => exact Or.inl ⟨_, by simp, fun _ => rfl⟩
      | err e => exact Or.inr ⟨e, fun _ => rfl⟩
      | panic => exact absurd h3 (marshalEnum_ne_panic _ _)
    | err e => exact Or.inr ⟨e, fun _ => rfl⟩
    | panic => exact absurd h2 (marshalEnum_ne_panic _ _)
  | err e => exact Or.inr ⟨e, fun _ => rfl⟩
  | panic => exact absurd h (canvasOf_ne_panic _ _)

/-! ## Variable-size types: the size is the message's length field -/

/-- A string value appends one byte more than its length field says. Without a length field it appends
the raw bytes or the whole text; a nil value is the single byte FF. -/
theorem appendStringValue_size (sv : Option StringValue) :
    AppendsWith (fun e => ∀ s l, sv = some s → s.length = some l → (e.length : Int) = 1 + l)
      (appendStringValue · sv) := by
  cases sv with
  | none => exact Or.inl ⟨[0xFF], by simp, fun _ => rfl⟩
  | some s =>
    obtain ⟨enc, raw, len, v⟩ := s
    cases raw with
    | some r =>
      by_cases h1 : r.length < 1
      · exact Or.inr ⟨"raw_data must include at least the code page byte", fun _ => by simp [appendStringValue, h1]⟩
      · by_cases h2 : len.any (fun l => (r.length : Int) ≠ 1 + l) = true
        · exact Or.inr ⟨"raw_data length does not match expected total length", fun _ => by
            simp only [appendStringValue, h1, if_false, h2, if_true]⟩
        · refine Or.inl ⟨getCodePageFromEncoding enc :: r.drop 1, ?_, fun _ => by
            simp only [appendStringValue, h1, if_false, h2]; rfl⟩
          intro s l hs hl
          rw [Option.some.injEq] at hs
          subst hs
          simp only at hl
          subst hl
          simp only [Option.any_some, decide_eq_true_eq, Decidable.not_not] at h2
          simp only [List.length_cons, List.length_drop]
          omega
    | none =>
      cases len with
      | none =>
        refine Or.inl ⟨getCodePageFromEncoding enc :: encodeWithCodePage (getCodePageFromEncoding enc) v, ?_, fun _ => rfl⟩
        intro s l hs hl
        rw [Option.some.injEq] at hs
        subst hs; cases hl
      | some l =>
        by_cases h : ((encodeWithCodePage (getCodePageFromEncoding enc) v).length : Int) > l
        · exact Or.inr ⟨"encoded string length exceeds allowed length", fun _ => by
            simp only [appendStringValue, h, if_true]⟩
        · refine Or.inl ⟨getCodePageFromEncoding enc :: padSpaces (encodeWithCodePage (getCodePageFromEncoding enc) v) l.toNat,
            ?_, fun _ => by simp only [appendStringValue, h, if_false]⟩
          intro s l' hs hl
          rw [Option.some.injEq] at hs
          subst hs
          simp only [Option.some.injEq] at hl
          subst hl
          simp only [List.length_cons, padSpaces, List.length_append, List.length_replicate]
          omega

theorem appendIa5StringValue_size (sv : Option Ia5StringValue) :
    AppendsWith (fun e => ∀ s l, sv = some s → s.length = some l → (e.length : Int) = l)
      (appendIa5StringValue · sv) := by
  cases sv with
  | none => exact Or.inl ⟨[], by simp, fun dst => by simp [appendIa5StringValue]⟩
  | some s =>
    obtain ⟨raw, len, v⟩ := s
    cases len with
    | none => exact Or.inr ⟨_, fun _ => rfl⟩
    | some l =>
      cases raw with
      | some r =>
        by_cases h : (r.length : Int) ≠ l
        · exact Or.inr ⟨"raw_data length does not match length field", fun _ => by simp [appendIa5StringValue, h]⟩
        · refine Or.inl ⟨r, ?_, fun _ => by simp only [appendIa5StringValue, h, if_false]⟩
          intro s l' hs hl
          rw [Option.some.injEq] at hs
          subst hs
          simp only [Option.some.injEq] at hl
          omega
      | none =>
        by_cases h : (v.length : Int) > l
        · exact Or.inr ⟨"string value is longer than the allowed length", fun _ => by simp only [appendIa5StringValue, h, if_true]⟩
        · refine Or.inl ⟨padSpaces v l.toNat, ?_, fun _ => by simp only [appendIa5StringValue, h, if_false]⟩
          intro s l' hs hl
          rw [Option.some.injEq] at hs
          subst hs
          simp only [Option.some.injEq] at hl
          subst hl
          simp only [padSpaces, List.length_append, List.length_replicate]
          omega

theorem packDigits_length (ds : List Nat) : (packDigits ds).length = ds.length / 2 := by
  match ds with
  | [] => rfl
  | [_] => simp [packDigits]
  | a :: b :: t => simp only [packDigits, List.length_cons, packDigits_length t]; omega

theorem appendBcdString_size (s : Option BcdString) :
    AppendsWith (fun e => ∀ x, s = some x → (e.length : Int) = x.length) (appendBcdString · s) := by
  cases s with
  | none => exact Or.inl ⟨[], by simp, fun dst => by simp [appendBcdString]⟩
  | some s =>
    unfold appendBcdString
    dsimp only
    by_cases h1 : s.value < 0
    · simp only [h1, if_true]; exact Or.inr ⟨_, fun _ => rfl⟩
    · by_cases h2 : s.length ≤ 0
      · simp only [h1, h2, if_true, if_false]; exact Or.inr ⟨_, fun _ => rfl⟩
      · simp only [h1, h2, if_false, appendBCD]
        by_cases h3 : (itoa s.value.toNat).length > s.length.toNat * 2
        · simp only [h3, if_true]; exact Or.inr ⟨_, fun _ => rfl⟩
        · simp only [h3, if_false]
          refine Or.inl ⟨_, ?_, fun _ => rfl⟩
          intro x hx
          rw [Option.some.injEq] at hx
          subst hx
          rw [packDigits_length]
          simp only [List.length_append, List.length_replicate]
          omega

/-! ## Composite records -/

theorem appendVehicleRegistration_size (v : Option VehicleRegistration) :
    AppendsWith (fun e => ∀ x, v = some x → (∀ s, x.number = some s → s.length = some 13) → e.length = 15)
      (appendVehicleRegistration · v) := by
  cases v with
  | none => exact Or.inr ⟨_, fun _ => rfl⟩
  | some v =>
    unfold appendVehicleRegistration
    dsimp only
    by_cases h1 : v.nation = enumUnrecognized
    · simp only [h1, if_true]; exact Or.inr ⟨_, fun _ => rfl⟩
    · simp only [h1, if_false, Res.pure_eq, Res.bind_ok]
      cases hm : marshalEnum nationNumericTable v.nation with
      | ok b =>
        have hs := appendStringValue_size (some (v.number.getD emptyVrn))
        rcases hs with ⟨e, he, hs⟩ | ⟨m, hs⟩
        · refine Or.inl ⟨b :: e, ?_, fun dst => by simp only [Res.bind_ok]; exact (hs _).trans (by simp)⟩
          intro x hx hn
          rw [Option.some.injEq] at hx
          subst hx
          have h13 : (v.number.getD emptyVrn).length = some 13 := by
            cases hh : v.number with
            | none => rfl
            | some s => exact hn s hh
          have := he _ _ rfl h13
          simp only [List.length_cons]; omega
        · exact Or.inr ⟨m, fun dst => by simp only [Res.bind_ok]; exact hs _⟩
      | err e => exact Or.inr ⟨e, fun _ => rfl⟩
      | panic => exact absurd hm (marshalEnum_ne_panic _ _)

theorem appendHolderName_size (h : Option HolderName) :
    AppendsWith (fun e => ∀ x, h = some x → (∃ s, x.surname = some s ∧ s.length = some 35) →
      (∃ s, x.firstNames = some s ∧ s.length = some 35) → e.length = 72) (appendHolderName · h) := by
  cases h with
  | none => exact Or.inr ⟨_, fun _ => rfl⟩
  | some h =>
    refine appendsWith_seq (appendStringValue_size h.surname) (appendStringValue_size h.firstNames) ?_
    intro a b ha hb x hx hs hf
    rw [Option.some.injEq] at hx
    subst hx
    obtain ⟨s, hs1, hs2⟩ := hs
    obtain ⟨f, hf1, hf2⟩ := hf
    have := ha s _ hs1 hs2
    have := hb f _ hf1 hf2
    simp only [List.length_append]; omega

/-- C22, finding: without names the "72 byte" holder name is two bytes long. -/
theorem appendHolderName_not_fixed : ¬ AppendsExactly 72 (appendHolderName · (some ⟨none, none⟩)) := by
  intro h
  have := (appendsExactly_result h [] [0xFF, 0xFF] rfl).2
  simp at this

/-- C22, finding: a registration number of another length makes the "15 byte" registration longer. -/
theorem appendVehicleRegistration_not_fixed :
    ¬ AppendsExactly 15 (appendVehicleRegistration · (some ⟨2, some ⟨2, none, some 20, []⟩⟩)) := by
  intro h
  have := (appendsExactly_result h [] (0 :: 0 :: List.replicate 20 0x20) rfl).2
  simp at this

theorem appendDriverIdentification_size (d : Option DriverIdentification) :
    AppendsWith (fun e => ∀ x s l, d = some x → x.number = some s → s.length = some l → (e.length : Int) = l)
      (appendDriverIdentification · d) := by
  cases d with
  | none => exact Or.inr ⟨_, fun _ => rfl⟩
  | some d =>
    refine AppendsWith.mono (appendIa5StringValue_size d.number) ?_
    intro e he x s l hx hs hl
    rw [Option.some.injEq] at hx
    subst hx
    exact he s l hs hl

/-- An owner identification with the regulation's field lengths. -/
def Spec.OwnerSized (o : OwnerIdentification) : Prop :=
  (∃ s, o.owner = some s ∧ s.length = some 13) ∧ (∃ s, o.consecutive = some s ∧ s.length = some 1) ∧
  (∃ s, o.replacement = some s ∧ s.length = some 1) ∧ (∃ s, o.renewal = some s ∧ s.length = some 1)

theorem appendOwnerIdentification_size (o : Option OwnerIdentification) :
    AppendsWith (fun e => ∀ x, o = some x → OwnerSized x → e.length = 16) (appendOwnerIdentification · o) := by
  cases o with
  | none => exact Or.inr ⟨_, fun _ => rfl⟩
  | some o =>
    have h34 := appendsWith_seq (R := fun e => ∀ s t, o.replacement = some s → s.length = some 1 →
        o.renewal = some t → t.length = some 1 → e.length = 2)
      (appendIa5StringValue_size o.replacement) (appendIa5StringValue_size o.renewal)
      (by
        intro a b ha hb s t h1 h2 h3 h4
        have := ha s _ h1 h2
        have := hb t _ h3 h4
        simp only [List.length_append]; omega)
    have h234 := appendsWith_seq (R := fun e => ∀ r s t, o.consecutive = some r → r.length = some 1 →
        o.replacement = some s → s.length = some 1 → o.renewal = some t → t.length = some 1 → e.length = 3)
      (appendIa5StringValue_size o.consecutive) h34
      (by
        intro a b ha hb r s t h1 h2 h3 h4 h5 h6
        have := ha r _ h1 h2
        have := hb s t h3 h4 h5 h6
        simp only [List.length_append]; omega)
    refine appendsWith_seq (appendIa5StringValue_size o.owner) h234 ?_
    intro a b ha hb x hx hsz
    rw [Option.some.injEq] at hx
    subst hx
    obtain ⟨⟨s1, a1, b1⟩, ⟨s2, a2, b2⟩, ⟨s3, a3, b3⟩, ⟨s4, a4, b4⟩⟩ := hsz
    have := ha s1 _ a1 b1
    have := hb s2 s3 s4 a2 b2 a3 b3 a4 b4
    simp only [List.length_append]; omega

/-- C22: a full card number appends 18 bytes whenever its identification, if any, has the lengths of the
regulation. -/
theorem appendFullCardNumber_size (c : Option FullCardNumber) :
    AppendsWith (fun e => ∀ x, c = some x →
      (∀ d, x.driver = some d → ∃ s, d.number = some s ∧ s.length = some 14) →
      (∀ o, x.owner = some o → OwnerSized o) → e.length = 18) (appendFullCardNumber · c) := by
  cases c with
  | none => exact Or.inr ⟨_, fun _ => rfl⟩
  | some c =>
    unfold appendFullCardNumber
    dsimp only
    cases hm : marshalEnum equipmentTypeTable c.cardType with
    | err e => exact Or.inr ⟨e, fun _ => rfl⟩
    | panic => exact absurd hm (marshalEnum_ne_panic _ _)
    | ok tb =>
      simp only [Res.bind_ok, Res.pure_eq]
      have hz : AppendsWith (fun e => ∀ x, some c = some x →
          (∀ d, x.driver = some d → ∃ s, d.number = some s ∧ s.length = some 14) →
          (∀ o, x.owner = some o → OwnerSized o) → e.length = 18)
          (fun dst => Res.ok (dst ++ [tb, i2b c.issuingState] ++ zeros 16)) :=
        Or.inl ⟨[tb, i2b c.issuingState] ++ zeros 16, by intros; simp, fun dst => by simp⟩
      split
      · cases hd : c.driver with
        | none => exact hz
        | some d =>
          dsimp only
          rcases appendDriverIdentification_size (some d) with ⟨e, he, h⟩ | ⟨m, h⟩
          · refine Or.inl ⟨[tb, i2b c.issuingState] ++ e ++ [0, 0], ?_, fun dst => by
              have := h (dst ++ [tb, i2b c.issuingState]); dsimp only at this ⊢; rw [this, Res.bind_ok]; simp⟩
            intro x hx h1 _
            rw [Option.some.injEq] at hx
            subst hx
            obtain ⟨s, hs, hl⟩ := h1 d hd
            have := he d s _ rfl hs hl
            simp only [List.length_append, List.length_cons, List.length_nil]; omega
          · exact Or.inr ⟨m, fun dst => by
              have := h (dst ++ [tb, i2b c.issuingState]); dsimp only at this ⊢; rw [this]; rfl⟩
      · split
        · cases ho : c.owner with
          | none => exact hz
          | some o =>
            dsimp only
            rcases appendOwnerIdentification_size (some o) with ⟨e, he, h⟩ | ⟨m, h⟩
            · refine Or.inl ⟨[tb, i2b c.issuingState] ++ e, ?_, fun dst => by
                exact (h _).trans (by simp)⟩
              intro x hx _ h1
              rw [Option.some.injEq] at hx
              subst hx
              have := he o rfl (h1 o ho)
              simp only [List.length_append, List.length_cons, List.length_nil]; omega
            · exact Or.inr ⟨m, fun dst => h _⟩
        · exact hz

theorem appendExtendedSerialNumber_exact (e : Option ExtendedSerialNumber) :
    AppendsExactly 8 (appendExtendedSerialNumber · e) := by
  cases e with
  | none => exact Or.inr ⟨_, fun _ => rfl⟩
  | some e =>
    have h1 := appendsExactly_seq (n := 6) (appendsExactly_const (e := beBytes 4 (low 32 e.serialNumber)) (by simp))
      (appendMonthYear_exact (e.monthYear.getD default)) rfl
    have h2 : AppendsExactly 2 (fun dst => marshalEnum equipmentTypeTable e.type >>= fun t =>
        .ok (dst ++ [t, i2b e.manufacturerCode])) := by
      cases hm : marshalEnum equipmentTypeTable e.type with
      | ok b => exact Or.inl ⟨_, rfl, fun _ => rfl⟩
      | err m => exact Or.inr ⟨m, fun _ => rfl⟩
      | panic => exact absurd hm (marshalEnum_ne_panic _ _)
    exact appendsExactly_seq h1 h2 rfl

theorem appendGNSSPlaceRecord_exact (r : Option GNSSPlaceRecord) :
    AppendsExactly 11 (appendGNSSPlaceRecord · r) := by
  cases r with
  | none => exact appendsExactly_const (by simp)
  | some r =>
    unfold appendGNSSPlaceRecord
    dsimp only
    by_cases h : r.accuracy < 0 ∨ r.accuracy > 255
    · simp only [h, if_true]
      have h2 : AppendsExactly 7 (fun _ => (Res.err "invalid GNSS accuracy" : Res Bytes)) := Or.inr ⟨_, fun _ => rfl⟩
      exact appendsExactly_seq (n := 11) (appendTimeReal_exact r.timestamp) h2 rfl
    · simp only [h, if_false, Res.pure_eq, Res.bind_ok]
      have h2 := appendsExactly_seq (n := 7) (appendsExactly_const (e := [i2b r.accuracy]) rfl)
        (appendGeoCoordinates_exact (r.geo.getD default)) rfl
      exact appendsExactly_seq (appendTimeReal_exact r.timestamp) h2 rfl

theorem appendGNSSPlaceAuthRecord_exact (r : Option GNSSPlaceAuthRecord) :
    AppendsExactly 12 (appendGNSSPlaceAuthRecord · r) := by
  cases r with
  | none => exact appendsExactly_const (by simp)
  | some r =>
    have h1 := appendsExactly_seq (n := 7) (appendsExactly_const (e := [i2b r.accuracy]) rfl)
        (appendGeoCoordinates_exact (r.geo.getD default)) rfl
    have h2 := appendsExactly_seq (n := 8) h1
      (appendsExactly_byte (enumByte_ne_panic positionAuthenticationStatusTable r.authStatus r.unrecognizedAuthStatus)) rfl
    exact appendsExactly_seq (appendTimeReal_exact r.timestamp) h2 rfl

theorem appendSpecificConditionRecord_exact (r : Option SpecificConditionRecord) :
    AppendsExactly 5 (appendSpecificConditionRecord · r) := by
  cases r with
  | none => exact Or.inr ⟨_, fun _ => rfl⟩
  | some r =>
    exact appendsExactly_seq (appendTimeReal_exact r.entryTime)
      (appendsExactly_byte (enumByte_ne_panic specificConditionTypeTable r.type r.unrecognizedType)) rfl

theorem paint_sz {c b : Bytes} {off n N : Nat} (hc : c.length = N) (h : off + n ≤ N) :
    (paint c off n b).length = N := by rw [paint_length (by omega), hc]

theorem paintPlace_length {c out : Bytes} {r : PlaceRecord} {N : Nat} (hc : c.length = N) (hN : 10 ≤ N)
    (h : paintPlace c r = .ok out) : out.length = N := by
  simp only [paintPlace, bind_eq_ok, Res.pure_eq, Res.ok.injEq] at h
  obtain ⟨t, _, rfl⟩ := h
  repeat refine paint_sz ?_ (by omega)
  exact hc

theorem paintPlace_ne_panic (c : Bytes) (r : PlaceRecord) : paintPlace c r ≠ .panic := by
  unfold paintPlace
  exact Res.bind_ne_panic ((appendTimeReal_exact _).ne_panic []) (fun _ => by simp)

theorem appendPlaceRecord_exact (r : PlaceRecord) : AppendsExactly 10 (appendPlaceRecord · r) := by
  refine appendsWith_of_res (r := canvasNonEmpty r.rawData 10 >>= fun c => paintPlace c r) ?_ ?_ ?_
  · intro e he
    obtain ⟨c, hc, he⟩ := bind_eq_ok.mp he
    exact paintPlace_length (canvasNonEmpty_length hc) (by omega) he
  · exact Res.bind_ne_panic (canvasNonEmpty_ne_panic _ _) (fun _ => paintPlace_ne_panic _ _)
  · intro dst; simp only [appendPlaceRecord, Res.bind_assoc, Res.pure_eq, Res.bind_ok, List.nil_append]

theorem appendPlaceRecordG2_exact (r : PlaceRecordG2) : AppendsExactly 21 (appendPlaceRecordG2 · r) := by
  refine appendsWith_of_res (r := appendPlaceRecordG2 [] r) ?_ ?_ ?_
  · intro e he
    simp only [appendPlaceRecordG2, bind_eq_ok, Res.pure_eq, Res.ok.injEq, List.nil_append] at he
    obtain ⟨c, hc, c2, hc2, g, _, rfl⟩ := he
    exact paint_sz (paintPlace_length (canvasNonEmpty_length hc) (by omega) hc2) (by omega)
  · unfold appendPlaceRecordG2
    refine Res.bind_ne_panic (canvasNonEmpty_ne_panic _ _) (fun _ => ?_)
    refine Res.bind_ne_panic (paintPlace_ne_panic _ _) (fun _ => ?_)
    exact Res.bind_ne_panic ((appendGNSSPlaceRecord_exact _).ne_panic []) (fun _ => by simp)
  · intro dst; simp only [appendPlaceRecordG2, Res.bind_assoc, Res.pure_eq, Res.bind_ok, List.nil_append]

theorem paintCardVehicle_length {c out : Bytes} {r : CardVehicleRecord} {N : Nat} (hc : c.length = N)
    (hN : 31 ≤ N) (h : paintCardVehicle c r = .ok out) : out.length = N := by
  simp only [paintCardVehicle, bind_eq_ok, Res.pure_eq, Res.ok.injEq] at h
  obtain ⟨t, _, t2, _, v, _, b, _, rfl⟩ := h
  repeat refine paint_sz ?_ (by omega)
  exact hc

theorem paintCardVehicle_ne_panic (c : Bytes) (r : CardVehicleRecord) : paintCardVehicle c r ≠ .panic := by
  unfold paintCardVehicle
  refine Res.bind_ne_panic ((appendTimeReal_exact _).ne_panic []) (fun _ => ?_)
  refine Res.bind_ne_panic ((appendTimeReal_exact _).ne_panic []) (fun _ => ?_)
  refine Res.bind_ne_panic ((appendVehicleRegistration_size _).ne_panic []) (fun _ => ?_)
  exact Res.bind_ne_panic ((appendBcdString_size _).ne_panic []) (fun _ => by simp)

theorem appendCardVehicleRecord_exact (r : CardVehicleRecord) :
    AppendsExactly 31 (appendCardVehicleRecord · r) := by
  refine appendsWith_of_res (r := appendCardVehicleRecord [] r) ?_ ?_ ?_
  · intro e he
    simp only [appendCardVehicleRecord, bind_eq_ok, Res.pure_eq, Res.ok.injEq, List.nil_append] at he
    obtain ⟨c, hc, c2, hc2, rfl⟩ := he
    exact paintCardVehicle_length (canvasNonEmpty_length hc) (by omega) hc2
  · unfold appendCardVehicleRecord
    refine Res.bind_ne_panic (canvasNonEmpty_ne_panic _ _) (fun _ => ?_)
    exact Res.bind_ne_panic (paintCardVehicle_ne_panic _ _) (fun _ => by simp)
  · intro dst; simp only [appendCardVehicleRecord, Res.bind_assoc, Res.pure_eq, Res.bind_ok, List.nil_append]

theorem appendCardVehicleRecordG2_exact (r : CardVehicleRecordG2) :
    AppendsExactly 48 (appendCardVehicleRecordG2 · r) := by
  refine appendsWith_of_res (r := appendCardVehicleRecordG2 [] r) ?_ ?_ ?_
  · intro e he
    simp only [appendCardVehicleRecordG2, bind_eq_ok, Res.pure_eq, Res.ok.injEq, List.nil_append] at he
    obtain ⟨c, hc, c2, hc2, rfl⟩ := he
    exact paint_sz (paintCardVehicle_length (canvasNonEmpty_length hc) (by omega) hc2) (by omega)
  · unfold appendCardVehicleRecordG2
    refine Res.bind_ne_panic (canvasNonEmpty_ne_panic _ _) (fun _ => ?_)
    exact Res.bind_ne_panic (paintCardVehicle_ne_panic _ _) (fun _ => by simp)
  · intro dst; simp only [appendCardVehicleRecordG2, Res.bind_assoc, Res.pure_eq, Res.bind_ok, List.nil_append]

theorem paintPreviousVehicle_length {c out : Bytes} {r : PreviousVehicleInfo} {N : Nat} (hc : c.length = N)
    (hN : 19 ≤ N) (h : paintPreviousVehicle c r = .ok out) : out.length = N := by
  simp only [paintPreviousVehicle, bind_eq_ok, Res.pure_eq, Res.ok.injEq] at h
  obtain ⟨t, _, t2, _, rfl⟩ := h
  repeat refine paint_sz ?_ (by omega)
  exact hc

theorem paintPreviousVehicle_ne_panic (c : Bytes) (r : PreviousVehicleInfo) :
    paintPreviousVehicle c r ≠ .panic := by
  unfold paintPreviousVehicle
  refine Res.bind_ne_panic ((appendVehicleRegistration_size _).ne_panic []) (fun _ => ?_)
  exact Res.bind_ne_panic ((appendTimeReal_exact _).ne_panic []) (fun _ => by simp)

theorem appendPreviousVehicleInfo_exact (r : PreviousVehicleInfo) :
    AppendsExactly 19 (appendPreviousVehicleInfo · r) := by
  refine appendsWith_of_res (r := appendPreviousVehicleInfo [] r) ?_ ?_ ?_
  · intro e he
    simp only [appendPreviousVehicleInfo, bind_eq_ok, Res.pure_eq, Res.ok.injEq, List.nil_append] at he
    obtain ⟨c, hc, c2, hc2, rfl⟩ := he
    exact paintPreviousVehicle_length (canvasNonEmpty_length hc) (by omega) hc2
  · unfold appendPreviousVehicleInfo
    refine Res.bind_ne_panic (canvasNonEmpty_ne_panic _ _) (fun _ => ?_)
    exact Res.bind_ne_panic (paintPreviousVehicle_ne_panic _ _) (fun _ => by simp)
  · intro dst; simp only [appendPreviousVehicleInfo, Res.bind_assoc, Res.pure_eq, Res.bind_ok, List.nil_append]

theorem appendPreviousVehicleInfoG2_exact (r : PreviousVehicleInfoG2) :
    AppendsExactly 20 (appendPreviousVehicleInfoG2 · r) := by
  refine appendsWith_of_res (r := appendPreviousVehicleInfoG2 [] r) ?_ ?_ ?_
  · intro e he
    simp only [appendPreviousVehicleInfoG2, bind_eq_ok, Res.pure_eq, Res.ok.injEq, List.nil_append] at he
    obtain ⟨c, hc, c2, hc2, g, _, rfl⟩ := he
    exact paint_sz (paintPreviousVehicle_length (canvasNonEmpty_length hc) (by omega) hc2) (by omega)
  · unfold appendPreviousVehicleInfoG2
    refine Res.bind_ne_panic (canvasNonEmpty_ne_panic _ _) (fun _ => ?_)
    refine Res.bind_ne_panic (paintPreviousVehicle_ne_panic _ _) (fun _ => ?_)
    exact Res.bind_ne_panic (marshalEnum_ne_panic _ _) (fun _ => by simp)
  · intro dst; simp only [appendPreviousVehicleInfoG2, Res.bind_assoc, Res.pure_eq, Res.bind_ok, List.nil_append]

theorem appendVuCardIWRecord_exact (r : VuCardIWRecord) : AppendsExactly 129 (appendVuCardIWRecord · r) := by
  refine appendsWith_of_res (r := appendVuCardIWRecord [] r) ?_ ?_ ?_
  · intro e he
    simp only [appendVuCardIWRecord, bind_eq_ok, Res.pure_eq, Res.ok.injEq, List.nil_append] at he
    obtain ⟨c, hc, _, _, _, _, _, _, _, _, _, _, _, _, rfl⟩ := he
    repeat refine paint_sz ?_ (by omega)
    exact canvasNonEmpty_length hc
  · unfold appendVuCardIWRecord
    refine Res.bind_ne_panic (canvasNonEmpty_ne_panic _ _) (fun _ => ?_)
    refine Res.bind_ne_panic ((appendHolderName_size _).ne_panic []) (fun _ => ?_)
    refine Res.bind_ne_panic ((appendFullCardNumber_size _).ne_panic []) (fun _ => ?_)
    refine Res.bind_ne_panic ((appendDate_exact _).ne_panic []) (fun _ => ?_)
    refine Res.bind_ne_panic ((appendTimeReal_exact _).ne_panic []) (fun _ => ?_)
    refine Res.bind_ne_panic ((appendTimeReal_exact _).ne_panic []) (fun _ => ?_)
    exact Res.bind_ne_panic ((appendPreviousVehicleInfo_exact _).ne_panic []) (fun _ => by simp)
  · intro dst; simp only [appendVuCardIWRecord, Res.bind_assoc, Res.pure_eq, Res.bind_ok, List.nil_append]

theorem appendFullCardNumberAndGeneration_size (c : Option FullCardNumberAndGeneration) :
    AppendsWith (fun e => ∀ x y, c = some x → x.number = some y →
      (∀ d, y.driver = some d → ∃ s, d.number = some s ∧ s.length = some 14) →
      (∀ o, y.owner = some o → OwnerSized o) → e.length = 19)
      (appendFullCardNumberAndGeneration · c) := by
  cases c with
  | none => exact Or.inr ⟨_, fun _ => rfl⟩
  | some c =>
    obtain ⟨num, gen⟩ := c
    cases num with
    | none =>
      refine AppendsWith.mono (appendsExactly_byte (marshalEnum_ne_panic generationTable gen)) ?_
      intro e _ x y hx hy
      rw [Option.some.injEq] at hx
      subst hx
      cases hy
    | some n =>
      refine appendsWith_seq (appendFullCardNumber_size (some n))
        (appendsExactly_byte (marshalEnum_ne_panic generationTable gen)) ?_
      intro a b ha hb x y hx hy h1 h2
      rw [Option.some.injEq] at hx
      subst hx
      simp only [Option.some.injEq] at hy
      subst hy
      simp [ha n rfl h1 h2, hb]

/-- C22, finding: without a card number, the "19 byte" structure is a single byte. -/
theorem appendFullCardNumberAndGeneration_not_fixed :
    ¬ AppendsExactly 19 (appendFullCardNumberAndGeneration · (some ⟨none, 1⟩)) := by
  intro h
  have := (appendsExactly_result h [] [1] rfl).2
  simp at this

theorem appendFullCardNumberAsString_appends (c : Option FullCardNumber) :
    Appends (appendFullCardNumberAsString · c) := by
  have h0 : ∀ sv, Appends (appendStringValue · sv) := fun sv => AppendsWith.mono (appendStringValue_size sv) (by simp)
  have h1 : ∀ sv, Appends (appendIa5StringValue · sv) := fun sv => AppendsWith.mono (appendIa5StringValue_size sv) (by simp)
  cases c with
  | none => exact Or.inr ⟨_, fun _ => rfl⟩
  | some c =>
    unfold appendFullCardNumberAsString
    dsimp only
    split
    · cases c.driver with
      | none => exact h0 _
      | some d => exact h1 _
    · split
      · cases c.owner with
        | none => exact h0 _
        | some d => exact h1 _
      · exact h0 _

/-- Non-vacuity: the sized hypotheses are met by a real card number, which appends 18 bytes. -/
example : ∃ out, appendFullCardNumber [7] (some ⟨2, 56, some ⟨some ⟨none, some 14, [0x41]⟩, none, none⟩, none⟩) = .ok out ∧
    out.length = 19 := ⟨_, rfl, by decide⟩

end Tacho
