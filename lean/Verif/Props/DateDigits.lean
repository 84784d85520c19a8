import Verif.Props.Regulation
import Verif.Model.EnumNames
/-!
# What the digits of a date stand for, and which card a card number is of

`Props/Prim.lean` says when dates are restored (C19); a reader and a writer that both swap month and day would
restore them too. Here the digits themselves are pinned: `Spec.hexDigits` are the hexadecimal digits of the bytes,
`Spec.decimal` the number a list of decimal digits denotes.
-/

namespace Tacho
open Spec

/-- C19: a date is four bytes: the digits of the first two are the year, of the third the month, of the last the
day. -/
theorem date_shown (d : Bytes) (m : Date) : unmarshalDate d = .ok m ↔
    ∃ b0 b1 b2 b3, d = [b0, b1, b2, b3] ∧ m.rawData = some d ∧ m.year = (Spec.decimal (hexDigits [b0, b1]) : Nat) ∧
      m.month = (Spec.decimal (hexDigits [b2]) : Nat) ∧ m.day = (Spec.decimal (hexDigits [b3]) : Nat) := by
  obtain ⟨raw, y, mo, da⟩ := m
  match d with
  | [] | [_] | [_, _] | [_, _, _] | _ :: _ :: _ :: _ :: _ :: _ => simp [unmarshalDate]
  | [b0, b1, b2, b3] =>
    simp only [unmarshalDate, at?, bcd2, hexDigits, Spec.decimal, List.length_cons, List.length_nil, ne_eq,
      Res.pure_eq, Res.bind_ok, List.getElem?_cons_zero, List.getElem?_cons_succ, List.cons.injEq, and_true, Res.ok.injEq]
    constructor
    · intro h
      simp only [not_true_eq_false, if_false, Res.ok.injEq, Date.mk.injEq, Nat.reduceAdd] at h
      obtain ⟨h1, h2, h3, h4⟩ := h
      exact ⟨b0, b1, b2, b3, ⟨rfl, rfl, rfl, rfl⟩, h1.symm, by omega, by omega, by omega⟩
    · rintro ⟨_, _, _, _, ⟨rfl, rfl, rfl, rfl⟩, h1, h2, h3, h4⟩
      simp only [not_true_eq_false, if_false, Res.ok.injEq, Date.mk.injEq, Nat.reduceAdd]
      exact ⟨h1.symm, by omega, by omega, by omega⟩

/-- C19: a structure version is two bytes: the digits of the first are the major version, of the second the minor
one. -/
theorem version_shown (d : Bytes) (m : CardStructureVersion) : unmarshalCardStructureVersion d = .ok m ↔
    ∃ b0 b1, d = [b0, b1] ∧ m.rawData = some d ∧ m.major = (Spec.decimal (hexDigits [b0]) : Nat) ∧
      m.minor = (Spec.decimal (hexDigits [b1]) : Nat) := by
  obtain ⟨raw, a, b⟩ := m
  match d with
  | [] | [_] | _ :: _ :: _ :: _ => simp [unmarshalCardStructureVersion]
  | [b0, b1] =>
    simp only [unmarshalCardStructureVersion, at?, bcd2, hexDigits, Spec.decimal, List.length_cons, List.length_nil, ne_eq,
      Res.pure_eq, Res.bind_ok, List.getElem?_cons_zero, List.getElem?_cons_succ, List.cons.injEq, and_true, Res.ok.injEq]
    constructor
    · intro h
      simp only [not_true_eq_false, if_false, Res.ok.injEq, CardStructureVersion.mk.injEq, Nat.reduceAdd] at h
      obtain ⟨h1, h2, h3⟩ := h
      exact ⟨b0, b1, ⟨rfl, rfl⟩, h1.symm, by omega, by omega⟩
    · rintro ⟨_, _, ⟨rfl, rfl⟩, h1, h2, h3⟩
      simp only [not_true_eq_false, if_false, Res.ok.injEq, CardStructureVersion.mk.injEq, Nat.reduceAdd]
      exact ⟨h1.symm, by omega, by omega⟩

/-- C19: a month and year is two bytes: the digits of the first are the month, of the second the year of the
century from 2000 on. Bytes of other digits, and 00 00, show month 0 of year 0. -/
theorem monthYear_shown (b0 b1 : UInt8) : ∃ m, unmarshalMonthYear [b0, b1] = .ok m ∧ m.rawData = some [b0, b1] ∧
    ((∀ n ∈ hexDigits [b0, b1], n < 10) ∧ [b0, b1] ≠ [0, 0] →
      m.month = (Spec.decimal (hexDigits [b0]) : Nat) ∧ m.year = (2000 + Spec.decimal (hexDigits [b1]) : Nat)) ∧
    ((∃ n ∈ hexDigits [b0, b1], 10 ≤ n) ∨ [b0, b1] = [0, 0] → m.month = 0 ∧ m.year = 0) := by
  refine ⟨_, monthYear_decode b0 b1, ?_, ?_, ?_⟩
  · split <;> rfl
  · rintro ⟨h1, h2⟩
    simp only [hexDigits, List.mem_cons, List.not_mem_nil, or_false, forall_eq_or_imp, forall_eq] at h1
    obtain ⟨h3, h4, h5, h6⟩ := h1
    rw [if_pos ⟨⟨h3, h4⟩, ⟨h5, h6⟩, by simpa using h2⟩]
    simp only [bcd2, hexDigits, Spec.decimal, List.length_cons, List.length_nil]
    omega
  · intro h
    rw [if_neg]
    · exact ⟨rfl, rfl⟩
    · rintro ⟨⟨a1, a2⟩, ⟨a3, a4⟩, a5⟩
      rcases h with ⟨n, hn, hn'⟩ | h
      · simp only [hexDigits, List.mem_cons, List.not_mem_nil, or_false] at hn
        omega
      · simp only [List.cons.injEq, and_true] at h
        exact a5 h

/-- C24: a card number that is read is of a driver card, a workshop card or a company card, by its first byte; it
has a driver number in the first case, an owner number in the others. -/
theorem card_number_type (d : Bytes) (m : FullCardNumber) (h : unmarshalFullCardNumber d = .ok m) :
    ∃ t, d[0]? = some t ∧
      ((t = 1 ∧ enumName equipmentTypeNames m.cardType = some "DRIVER_CARD" ∧ m.driver.isSome ∧ m.owner = none) ∨
       (t = 2 ∧ enumName equipmentTypeNames m.cardType = some "WORKSHOP_CARD" ∧ m.driver = none ∧ m.owner.isSome) ∨
       (t = 4 ∧ enumName equipmentTypeNames m.cardType = some "COMPANY_CARD" ∧ m.driver = none ∧ m.owner.isSome)) := by
  obtain ⟨_, t, n, ht, _, _, h⟩ := (fullCardNumber_decode d m).mp h
  refine ⟨t, ht, ?_⟩
  rcases h with ⟨rfl, h1, h2, x, _, h3⟩ | ⟨rfl | rfl, h1, h2, x, _, h3⟩
  · exact .inl ⟨rfl, by rw [h1]; decide, by rw [h3]; rfl, h2⟩
  · exact .inr (.inl ⟨rfl, by rw [h1]; decide, h2, by rw [h3]; rfl⟩)
  · exact .inr (.inr ⟨rfl, by rw [h1]; decide, h2, by rw [h3]; rfl⟩)

/-- C48: the four numbers of an Application_Identification_V2 file are its first four bytes, in this order. -/
theorem appIdV2_fields (d : Bytes) (m : AppIdV2) (h : unmarshalAppIdV2 d = .ok m) :
    ByteAt d 0 (fun b => m.borderCrossings = b.toNat) ∧ ByteAt d 1 (fun b => m.loadUnload = b.toNat) ∧
    ByteAt d 2 (fun b => m.loadTypes = b.toNat) ∧ ByteAt d 3 (fun b => m.vuConfigurationLength = b.toNat) := by
  match d, h with
  | [], h | [_], h | [_, _], h | [_, _, _], h => simp [unmarshalAppIdV2] at h
  | a :: b :: c :: e :: r, h =>
    have : ¬ (r.length + 1 + 1 + 1 + 1 < 4) := by omega
    simp only [unmarshalAppIdV2, at?, List.length_cons, this, if_false, Res.pure_eq, Res.bind_ok, List.getElem?_cons_zero,
      List.getElem?_cons_succ, Res.ok.injEq] at h
    subst h
    exact ⟨⟨a, rfl, rfl⟩, ⟨b, rfl, rfl⟩, ⟨c, rfl, rfl⟩, ⟨e, rfl, rfl⟩⟩

/-- 14 March 1985; month 12 of 2021; a driver card. -/
example : unmarshalDate [0x19, 0x85, 0x03, 0x14] = .ok ⟨some [0x19, 0x85, 0x03, 0x14], 1985, 3, 14⟩ ∧
    unmarshalMonthYear [0x12, 0x21] = .ok ⟨some [0x12, 0x21], 12, 2021⟩ ∧
    unmarshalCardStructureVersion [0x01, 0x10] = .ok ⟨some [0x01, 0x10], 1, 10⟩ ∧
    unmarshalAppIdV2 [1, 2, 3, 4] = .ok ⟨1, 2, 3, 4⟩ ∧
    (∃ m, unmarshalFullCardNumber (1 :: 0x12 :: List.replicate 16 0x31) = .ok m) := by
  refine ⟨by decide, by decide, by decide, by decide, (fullCardNumber_accepts_iff _).mpr ⟨by decide, 1, rfl, .inl rfl⟩⟩

end Tacho
