import Verif.Props.CardHolder
import Verif.Props.TextMeaning
/-!
# EF_Identification (C28, C48)
-/

namespace Tacho
open Spec

theorem ascii_split (x : Bytes) : ∃ p v q, x = p ++ v ++ q ∧ (∀ b ∈ p, Blank b) ∧ (∀ b ∈ q, Blank b) ∧ Trimmed v := by
  let P : UInt8 → Bool := fun b => decide (Blank b)
  let r := x.dropWhile P
  refine ⟨x.takeWhile P, (r.reverse.dropWhile P).reverse, (r.reverse.takeWhile P).reverse, ?_, ?_, ?_, ?_, ?_⟩
  · rw [List.append_assoc, ← List.reverse_append, List.takeWhile_append_dropWhile, List.reverse_reverse,
      List.takeWhile_append_dropWhile]
  · intro b hb
    have := List.all_takeWhile (p := P) (l := x)
    rw [List.all_eq_true] at this
    simpa [P] using this b hb
  · intro b hb
    rw [List.mem_reverse] at hb
    have := List.all_takeWhile (p := P) (l := r.reverse)
    rw [List.all_eq_true] at this
    simpa [P] using this b hb
  · intro b t h
    have h1 := List.head?_dropWhile_not (p := P) (l := x)
    have h2 : r = (r.reverse.dropWhile P).reverse ++ (r.reverse.takeWhile P).reverse := by
      rw [← List.reverse_append, List.takeWhile_append_dropWhile, List.reverse_reverse]
    rw [h, List.cons_append] at h2
    have h3 : x.dropWhile P = r := rfl
    rw [h3, h2] at h1
    simpa [P] using h1
  · intro b t h
    have h' := congrArg List.reverse h
    rw [List.reverse_reverse, List.reverse_append, List.reverse_cons, List.reverse_nil, List.nil_append,
      List.singleton_append] at h'
    have := List.head?_dropWhile_not (p := P) (l := r.reverse)
    rw [h'] at this
    simpa [P] using this

/-- Parsing seven bit text strips the blanks around it and nothing else. -/
theorem ia5_value {x : Bytes} {s : Ia5StringValue} (h : unmarshalIa5StringValue x = .ok s) (ha : Ascii x) :
    Trimmed s.value ∧ ∃ p q, x = p ++ s.value ++ q ∧ (∀ b ∈ p, Blank b) ∧ (∀ b ∈ q, Blank b) := by
  have hne := (ia5_accepts_iff x).mp ⟨s, h⟩
  obtain ⟨p, v, q, rfl, hp, hq, ht⟩ := ascii_split x
  obtain ⟨s', hs', rfl⟩ := ia5_text p q v hp hq (fun b hb => ha b (by simp [hb])) ht.1 ht.2 hne
  rw [h, Res.ok.injEq] at hs'
  subst hs'
  exact ⟨ht, p, q, rfl, hp, hq⟩

/-- The text shown for symbols without strays is their own bytes. -/
theorem shown_chars (cs : List Char) : shown (cs.map .char) = cs := by
  induction cs with
  | nil => rfl
  | cons c cs ih => rw [List.map_cons, shown, ih]

theorem reads_chars (cs : List Char) {s : Bytes} {ss : List Symbol} (h : Reads s ss) :
    Reads (cs.flatMap String.utf8EncodeChar ++ s) (cs.map .char ++ ss) := by
  induction cs with
  | nil => exact h
  | cons c cs ih =>
    rw [List.flatMap_cons, List.append_assoc]
    exact .char c ih

theorem reads_spaces (k : Nat) : Reads (List.replicate k 0x20) (List.replicate k (.char ' ')) := by
  induction k with
  | zero => exact .nil
  | succ k ih => exact .char ' ' ih

theorem shown_stray (b : UInt8) (m : List Symbol) : ∃ rest, shown (.stray b :: m) = '�' :: rest := by
  induction m generalizing b with
  | nil => exact ⟨_, rfl⟩
  | cons y m ih =>
    cases y with
    | char c => exact ⟨_, rfl⟩
    | stray y => rw [shown]; exact ih y

/-- If a text, cut to the length of the bytes it was shown for and padded with spaces, gives these bytes
back, then there was no stray byte in it. -/
theorem shown_kept {m q : List Symbol} {s : Bytes} (hr : Reads s (m ++ q)) (hlast : ∀ x t, m = t ++ [x] → ¬ x.Padding)
    (k : Nat) (hs : s = ((shown m).flatMap String.utf8EncodeChar).take s.length ++ List.replicate k 0x20) :
    ∃ cs : List Char, m = cs.map .char := by
  induction m generalizing s with
  | nil => exact ⟨[], rfl⟩
  | cons x m ih =>
    cases x with
    | char c =>
      have hb := reads_bytes hr
      obtain ⟨hd, hr'⟩ := reads_decode (x := .char c) hr
      have hb' := reads_bytes hr'
      simp only [Spec.Symbol.bytes] at hr' hb'
      rw [List.cons_append, List.flatMap_cons] at hb
      simp only [Spec.Symbol.bytes] at hb
      have hl : s.length = (String.utf8EncodeChar c).length + (s.drop (String.utf8EncodeChar c).length).length := by
        rw [hb']; rw [hb]; simp
      obtain ⟨cs, rfl⟩ := ih hr' (fun x t h => hlast x (.char c :: t) (by rw [h]; rfl)) (by
        rw [shown, List.flatMap_cons, hl, List.take_length_add_append, List.append_assoc] at hs
        conv => lhs; rw [hs, List.drop_left])
      exact ⟨c :: cs, rfl⟩
    | stray b =>
      exfalso
      obtain ⟨rest, hsh⟩ := shown_stray b m
      rw [hsh, List.flatMap_cons, show String.utf8EncodeChar '�' = [0xEF, 0xBF, 0xBD] from by decide] at hs
      have hend : m ++ q = [] ∨ (∃ y, m ++ q = [.stray y]) → False := by
        rintro (h | ⟨y, h⟩)
        · rw [(List.append_eq_nil_iff.1 h).1] at hlast
          exact hlast (.stray b) [] rfl trivial
        · cases m with
          | nil => exact hlast (.stray b) [] rfl trivial
          | cons z m =>
            rw [List.cons_append, List.cons.injEq] at h
            obtain ⟨rfl, h⟩ := h
            rw [(List.append_eq_nil_iff.1 h).1] at hlast
            exact hlast (.stray y) [.stray b] rfl trivial
      generalize hmq : m ++ q = mq at hend
      rw [List.cons_append, hmq] at hr
      cases hr with
      | @stray _ s' _ hb hr' =>
        match s', hr' with
        | [], hr' => exact hend (.inl (reads_unique hr' .nil))
        | [y], hr' =>
          simp only [List.length_cons, List.length_nil] at hs
          have hk : k = 0 := by
            have := congrArg List.length hs
            simp at this
            omega
          subst hk
          simp only [List.cons_append, List.nil_append, List.take_succ_cons, List.take_zero, List.replicate_zero,
            List.append_nil, List.cons.injEq, and_true, Nat.zero_add] at hs
          obtain ⟨rfl, rfl⟩ := hs
          refine hend (.inr ⟨0xBF, reads_unique hr' (.stray 0xBF ?_ .nil)⟩)
          exact (stray_iff _ _).2 (by decide)
        | y :: z :: s'', hr' =>
          simp only [List.length_cons, List.cons_append, List.nil_append, List.take_succ_cons, List.cons.injEq] at hs
          obtain ⟨rfl, rfl, rfl, -⟩ := hs
          exact hb '�' s'' (by rw [show String.utf8EncodeChar '�' = [0xEF, 0xBF, 0xBD] from by decide]; rfl)

theorem pad_value_iff {x : Bytes} {s : Ia5StringValue} {n : Nat} (h : unmarshalIa5StringValue x = .ok s)
    (hl : x.length = n) : padSpaces (s.value.take n) n = x ↔ SpacePadded x := by
  have hsh := ((ia5_value_iff x s).1 h).2.2.2
  subst hl
  constructor
  · intro e
    obtain ⟨p, m, q, hr, hp, hq, h1, h2, hv⟩ := hsh
    unfold padSpaces at e
    generalize x.length - (List.take x.length s.value).length = k at e
    rw [hv] at e
    have hp0 : m ≠ [] → p = [] := by
      intro hm
      obtain ⟨y, m', rfl⟩ := List.exists_cons_of_ne_nil hm
      cases y with
      | stray b => exact absurd trivial (h1 _ _ rfl)
      | char c =>
        have hle : (String.utf8EncodeChar c).length ≤ x.length := by
          rw [reads_bytes hr]
          simp only [List.flatMap_append, List.flatMap_cons, Spec.Symbol.bytes, List.length_append]
          omega
        obtain ⟨j, hj⟩ := Nat.exists_eq_add_of_le hle
        rw [shown, List.flatMap_cons, hj, List.take_length_add_append, List.append_assoc] at e
        obtain ⟨ss, hss⟩ := reads_exists (List.take j ((shown m').flatMap String.utf8EncodeChar) ++ List.replicate k 0x20)
        have hu := reads_unique hr (e ▸ Reads.char c hss)
        cases p with
        | nil => rfl
        | cons y p =>
          rw [List.cons_append, List.cons_append, List.cons.injEq] at hu
          exact absurd (hu.1 ▸ hp y (by simp)) (h1 _ _ rfl)
    by_cases hm : m = []
    · subst hm
      exact ⟨[], k, by simpa [shown] using e.symm, by simp, by simp⟩
    · rw [hp0 hm, List.nil_append] at hr
      obtain ⟨cs, rfl⟩ := shown_kept hr h2 k e.symm
      rw [shown_chars, List.take_of_length_le (by
        rw [reads_bytes hr, List.flatMap_append, List.flatMap_map]
        simp [Spec.Symbol.bytes])] at e
      refine ⟨cs, k, e.symm, ?_, ?_⟩
      · rintro c t rfl
        exact h1 _ _ rfl
      · rintro c t rfl
        exact h2 (.char c) (t.map .char) (by simp)
  · rintro ⟨cs, k, hx, hc1, hc2⟩
    have hsh' : Shows x (cs.flatMap String.utf8EncodeChar) := by
      refine ⟨[], cs.map .char, List.replicate k (.char ' '), ?_, by simp, ?_, ?_, ?_, ?_⟩
      · rw [hx]; exact reads_chars cs (reads_spaces k)
      · intro y hy
        rw [(List.mem_replicate.1 hy).2]
        simp [Spec.Symbol.Padding]
      · intro y t e
        cases cs with
        | nil => cases e
        | cons c cs =>
          rw [List.map_cons, List.cons.injEq] at e
          rw [← e.1]
          exact hc1 c cs rfl
      · intro y t e
        obtain ⟨l1, l2, rfl, -, h2⟩ := List.map_eq_append_iff.1 e
        cases l2 with
        | nil => cases h2
        | cons c l2 =>
          cases l2 with
          | nil =>
            rw [List.map_cons, List.cons.injEq] at h2
            rw [← h2.1]
            exact hc2 c l1 rfl
          | cons d l2 => simp at h2
      · rw [shown_chars]
    have hv : s.value = cs.flatMap String.utf8EncodeChar := by
      rw [← (cleaned_iff _ _).2 hsh, (cleaned_iff _ _).2 hsh']
    rw [hv, hx]
    unfold padSpaces
    rw [List.take_of_length_le (by simp)]
    simp

theorem firstByteOr_iff {b e : UInt8} {s : Ia5StringValue} (h : unmarshalIa5StringValue [b] = .ok s) :
    firstByteOr (some s) e = b ↔ (b.toNat < 0x80 ∧ ¬ Blank b ∨ b = e) := by
  unfold firstByteOr
  by_cases hb : b.toNat < 0x80
  · by_cases hbl : Blank b
    · obtain ⟨s', hs', hv⟩ := ia5_text [] [b] [] (by simp) (by simpa using hbl) (by simp [Ascii]) (by simp) (by simp) (by simp)
      have : s' = s := by simpa [h] using hs'.symm
      subst this
      simp [hv, hbl, eq_comm]
    · obtain ⟨s', hs', hv⟩ := ia5_text [] [] [b] (by simp) (by simp) (by simpa [Ascii] using hb)
        (by rintro c t h; simp only [List.cons.injEq] at h; rw [← h.1]; exact hbl)
        (by
          rintro c t h
          have : c = b := by
            have := congrArg List.getLast? h
            simpa using this.symm
          rw [this]; exact hbl) (by simp)
      have : s' = s := by simpa [h] using hs'.symm
      subst this
      simp [hv, hbl, hb]
  · have hsh : Shows [b] [] := by
      refine ⟨[.stray b], [], [], .stray b ?_ .nil, by simp [Spec.Symbol.Padding], by simp, by simp, by simp, rfl⟩
      intro c more hc
      obtain ⟨y, t, hy, hh⟩ := utf8EncodeChar_cons c
      rw [hy, List.cons_append, List.cons.injEq] at hc
      obtain ⟨rfl, hc⟩ := hc
      have ht := (List.append_eq_nil_iff.1 hc.symm).1
      rcases hh with ⟨h1, -⟩ | ⟨-, h2⟩
      · exact hb h1
      · exact h2 ht
    have hv : s.value = [] := by
      rw [← (cleaned_iff _ _).2 ((ia5_value_iff _ s).1 h).2.2.2, (cleaned_iff _ _).2 hsh]
    simp [hv, hb, eq_comm]

/-- What the 16 card number bytes must look like for a rewritten card number to be unchanged. -/
def Spec.NumberKept (x : Bytes) : Prop :=
  (ByteAt x 14 Digit ∧ ByteAt x 15 Digit → SpacePadded (sl x 0 14)) ∧
  (¬ (ByteAt x 14 Digit ∧ ByteAt x 15 Digit) →
    SpacePadded (sl x 0 13) ∧ ∀ i, 13 ≤ i → i < 16 → ByteAt x i (fun b => b.toNat < 0x80 ∧ ¬ Blank b ∨ b = 0))

theorem digit_guard (r w : UInt8) : (0x30 ≤ r ∧ r ≤ 0x39 ∧ 0x30 ≤ w ∧ w ≤ 0x39) ↔ Digit r ∧ Digit w := by
  simp only [Digit, UInt8.le_iff_toNat_le]
  constructor
  · rintro ⟨a, b, c, d⟩; exact ⟨⟨a, b⟩, c, d⟩
  · rintro ⟨⟨a, b⟩, c, d⟩; exact ⟨a, b, c, d⟩

theorem digit_not_blank {b : UInt8} (h : Digit b) : ¬ Blank b := by
  revert h; revert b; apply forall_byte; decide +kernel

theorem digit_lt {b : UInt8} (h : Digit b) : b.toNat < 0x80 := by
  have := h.2
  omega

/-- The card number part: a driver number exactly when the last two bytes are digits. -/
theorem cardNumber_parse (x : Bytes) (hl : x.length = 16) :
    (ByteAt x 14 Digit ∧ ByteAt x 15 Digit → ∃ n r w, unmarshalIa5StringValue (sl x 0 14) = .ok n ∧
      unmarshalIa5StringValue (sl x 14 15) = .ok r ∧ unmarshalIa5StringValue (sl x 15 16) = .ok w ∧
      unmarshalCardNumber x = .ok (.driverCard, some ⟨some n, some r, some w⟩, none)) ∧
    (¬ (ByteAt x 14 Digit ∧ ByteAt x 15 Digit) → ∃ n c r w, unmarshalIa5StringValue (sl x 0 13) = .ok n ∧
      unmarshalIa5StringValue (sl x 13 14) = .ok c ∧
      unmarshalIa5StringValue (sl x 14 15) = .ok r ∧ unmarshalIa5StringValue (sl x 15 16) = .ok w ∧
      unmarshalCardNumber x = .ok (.workshopCard, none, some ⟨some n, some c, some r, some w⟩)) := by
  obtain ⟨n, hn⟩ := ia5_slice_ok (d := x) (a := 0) (b := 14) (by omega) (by omega)
  obtain ⟨o, ho⟩ := ia5_slice_ok (d := x) (a := 0) (b := 13) (by omega) (by omega)
  obtain ⟨c, hc⟩ := ia5_slice_ok (d := x) (a := 13) (b := 14) (by omega) (by omega)
  obtain ⟨r, hr⟩ := ia5_slice_ok (d := x) (a := 14) (b := 15) (by omega) (by omega)
  obtain ⟨w, hw⟩ := ia5_slice_ok (d := x) (a := 15) (b := 16) (by omega) (by omega)
  have e14 := sl_eq_singleton (d := x) (i := 14) (by omega)
  have e15 := sl_eq_singleton (d := x) (i := 15) (by omega)
  have a14 : at? x 14 = .ok x[14] := at?_iff.mpr ⟨by omega, e14⟩
  have a15 : at? x 15 = .ok x[15] := at?_iff.mpr ⟨by omega, e15⟩
  rw [byteAt_of_sl e14, byteAt_of_sl e15, ← digit_guard]
  simp only [unmarshalCardNumber, sl?_ok (show (0:Nat) ≤ 14 by omega) (show 14 ≤ x.length by omega),
    sl?_ok (show (0:Nat) ≤ 13 by omega) (show 13 ≤ x.length by omega),
    sl?_ok (show (13:Nat) ≤ 14 by omega) (show 14 ≤ x.length by omega),
    sl?_ok (show (14:Nat) ≤ 15 by omega) (show 15 ≤ x.length by omega),
    sl?_ok (show (15:Nat) ≤ 16 by omega) (show 16 ≤ x.length by omega), Res.bind_ok, hn, ho, hc, hr, hw, a14, a15, Res.pure_eq]
  constructor
  · intro hg
    rw [if_pos hg]
    exact ⟨n, r, w, rfl, rfl, rfl, rfl⟩
  · intro hg
    rw [if_neg hg]
    exact ⟨o, c, r, w, rfl, rfl, rfl, rfl, rfl⟩

theorem cardNumber_kept {x : Bytes} (hl : x.length = 16) {ct dr ow} (h : unmarshalCardNumber x = .ok (ct, dr, ow)) :
    ∃ out : Bytes, out.length = 16 ∧ (out = x ↔ NumberKept x) ∧
      ∀ id : CardIdent, id.driver = dr → id.owner = ow → cardNumberBytes id = out := by
  obtain ⟨h1, h2⟩ := cardNumber_parse x hl
  have e13 := sl_eq_singleton (d := x) (i := 13) (by omega)
  have e14 := sl_eq_singleton (d := x) (i := 14) (by omega)
  have e15 := sl_eq_singleton (d := x) (i := 15) (by omega)
  unfold NumberKept
  by_cases hd : ByteAt x 14 Digit ∧ ByteAt x 15 Digit
  · obtain ⟨n, r, w, hn, hr, hw, hx⟩ := h1 hd
    rw [h, Res.ok.injEq] at hx
    injection hx with _ hx
    injection hx with hx1 hx2
    subst hx1 hx2
    rw [e14] at hr
    rw [e15] at hw
    rw [byteAt_of_sl e14, byteAt_of_sl e15] at hd
    refine ⟨padSpaces (n.value.take 14) 14 ++ [firstByteOr (some r) 0x30, firstByteOr (some w) 0x30], ?_, ?_, ?_⟩
    · unfold padSpaces; simp; omega
    · have e : x = sl x 0 14 ++ [x[14], x[15]] := by
        conv => lhs; rw [← sl_full' hl]
        rw [show [x[14], x[15]] = [x[14]] ++ [x[15]] from rfl, ← e14, ← e15]
        join_slices
      conv => lhs; rhs; rw [e]
      rw [append_eq_iff (by unfold padSpaces; simp; omega), pad_value_iff hn (by simp; omega),
        (firstByteOr_iff hr).mpr (.inl ⟨digit_lt hd.1, digit_not_blank hd.1⟩),
        (firstByteOr_iff hw).mpr (.inl ⟨digit_lt hd.2, digit_not_blank hd.2⟩),
        byteAt_of_sl e14, byteAt_of_sl e15]
      simp [hd]
    · rintro ⟨_, _, _, _, _, _, _⟩ rfl rfl
      rfl
  · obtain ⟨n, c, r, w, hn, hc, hr, hw, hx⟩ := h2 hd
    rw [h, Res.ok.injEq] at hx
    injection hx with _ hx
    injection hx with hx1 hx2
    subst hx1 hx2
    rw [e13] at hc
    rw [e14] at hr
    rw [e15] at hw
    simp only [hd, false_implies, true_and, not_false_eq_true, true_implies]
    refine ⟨padSpaces (n.value.take 13) 13 ++ [firstByteOr (some c) 0, firstByteOr (some r) 0, firstByteOr (some w) 0], ?_, ?_, ?_⟩
    · unfold padSpaces; simp; omega
    · have e : x = sl x 0 13 ++ [x[13], x[14], x[15]] := by
        conv => lhs; rw [← sl_full' hl]
        rw [show [x[13], x[14], x[15]] = [x[13]] ++ [x[14]] ++ [x[15]] from rfl, ← e13, ← e14, ← e15]
        join_slices
      conv => lhs; rhs; rw [e]
      rw [append_eq_iff (by unfold padSpaces; simp; omega), pad_value_iff hn (by simp; omega)]
      simp only [List.cons.injEq, and_true, firstByteOr_iff hc, firstByteOr_iff hr,
        firstByteOr_iff hw]
      refine and_congr Iff.rfl ?_
      constructor
      · rintro ⟨a, b, c⟩ i h3 h6
        have : i = 13 ∨ i = 14 ∨ i = 15 := by omega
        rcases this with rfl | rfl | rfl
        · exact (byteAt_of_sl e13).mpr a
        · exact (byteAt_of_sl e14).mpr b
        · exact (byteAt_of_sl e15).mpr c
      · intro hi
        exact ⟨(byteAt_of_sl e13).mp (hi 13 (by omega) (by omega)), (byteAt_of_sl e14).mp (hi 14 (by omega) (by omega)),
          (byteAt_of_sl e15).mp (hi 15 (by omega) (by omega))⟩
    · rintro ⟨_, _, _, _, _, _, _⟩ rfl rfl
      rfl

theorem AppendsWith.of_nil {P : Bytes → Prop} {f : Bytes → Res Bytes} {o : Bytes} (h : AppendsWith P f) (h0 : f [] = .ok o) :
    ∀ dst, f dst = .ok (dst ++ o) := by
  rcases h with ⟨e, _, he⟩ | ⟨m, hm⟩
  · have := he []
    rw [h0, Res.ok.injEq, List.nil_append] at this
    subst this
    exact he
  · rw [hm] at h0
    cases h0

section
variable [Charmap]

theorem identification_parse {d : Bytes} {m : Identification} (h : unmarshalIdentification d = .ok m) :
    143 ≤ d.length ∧ ∃ b ct dr ow au ti tb te sn fn bd la, sl d 0 1 = [b] ∧
      unmarshalCardNumber (sl d 1 17) = .ok (ct, dr, ow) ∧ unmarshalStringValue (sl d 17 53) = .ok au ∧
      unmarshalTimeReal (sl d 53 57) = .ok ti ∧ unmarshalTimeReal (sl d 57 61) = .ok tb ∧
      unmarshalTimeReal (sl d 61 65) = .ok te ∧ unmarshalStringValue (sl d 65 101) = .ok sn ∧
      unmarshalStringValue (sl d 101 137) = .ok fn ∧ unmarshalDate (sl d 137 141) = .ok bd ∧
      unmarshalIa5StringValue (sl d 141 143) = .ok la ∧
      m = ⟨ct, some ⟨enumOr1 nationNumericTable b, dr, ow, some au, ti, tb, te⟩, some ⟨some sn, some fn, some bd, some la⟩⟩ := by
  simp only [unmarshalIdentification, Res.pure_eq, guard_eq_ok, bind_eq_ok, Res.ok.injEq, sl?_iff, at?_iff, Prod.exists] at h
  obtain ⟨hl, b, ⟨_, hb⟩, _, ⟨_, _, rfl⟩, ct, dr, ow, hcn, _, ⟨_, _, rfl⟩, au, hau, _, ⟨_, _, rfl⟩, ti, hti, _, ⟨_, _, rfl⟩,
    tb, htb, _, ⟨_, _, rfl⟩, te, hte, _, ⟨_, _, rfl⟩, sn, hsn, _, ⟨_, _, rfl⟩, fn, hfn, _, ⟨_, _, rfl⟩, bd, hbd,
    _, ⟨_, _, rfl⟩, la, hla, rfl⟩ := h
  exact ⟨by omega, b, ct, dr, ow, au, ti, tb, te, sn, fn, bd, la, hb, hcn, hau, hti, htb, hte, hsn, hfn, hbd, hla, rfl⟩

theorem identification_accepts_iff (d : Bytes) : (∃ m, unmarshalIdentification d = .ok m) ↔ 143 ≤ d.length := by
  constructor
  · rintro ⟨m, h⟩; exact (identification_parse h).1
  · intro hl
    obtain ⟨ct, dr, ow, hcn⟩ : ∃ ct dr ow, unmarshalCardNumber (sl d 1 17) = .ok (ct, dr, ow) := by
      obtain ⟨h1, h2⟩ := cardNumber_parse (sl d 1 17) (by simp; omega)
      by_cases hd : ByteAt (sl d 1 17) 14 Digit ∧ ByteAt (sl d 1 17) 15 Digit
      · obtain ⟨_, _, _, _, _, _, h⟩ := h1 hd; exact ⟨_, _, _, h⟩
      · obtain ⟨_, _, _, _, _, _, _, _, h⟩ := h2 hd; exact ⟨_, _, _, h⟩
    obtain ⟨au, hau⟩ := (stringValue_accepts_iff (sl d 17 53)).mpr (by simp; omega)
    obtain ⟨ti, hti⟩ := timeReal_slice_ok (d := d) (a := 53) (b := 57) (by omega) (by omega)
    obtain ⟨tb, htb⟩ := timeReal_slice_ok (d := d) (a := 57) (b := 61) (by omega) (by omega)
    obtain ⟨te, hte⟩ := timeReal_slice_ok (d := d) (a := 61) (b := 65) (by omega) (by omega)
    obtain ⟨sn, hsn⟩ := (stringValue_accepts_iff (sl d 65 101)).mpr (by simp; omega)
    obtain ⟨fn, hfn⟩ := (stringValue_accepts_iff (sl d 101 137)).mpr (by simp; omega)
    obtain ⟨bd, _, hbd, _⟩ := date_slice (d := sl d 137 141) (by simp; omega)
    obtain ⟨la, hla⟩ := ia5_slice_ok (d := d) (a := 141) (b := 143) (by omega) (by omega)
    simp only [unmarshalIdentification, Res.pure_eq, guard_eq_ok, bind_eq_ok, Res.ok.injEq, sl?_iff, at?_iff, Prod.exists]
    exact ⟨_, by omega, d[0], ⟨by omega, sl_eq_singleton (by omega)⟩, _, ⟨by omega, by omega, rfl⟩, ct, dr, ow, hcn,
      _, ⟨by omega, by omega, rfl⟩, au, hau, _, ⟨by omega, by omega, rfl⟩, ti, hti, _, ⟨by omega, by omega, rfl⟩, tb, htb,
      _, ⟨by omega, by omega, rfl⟩, te, hte, _, ⟨by omega, by omega, rfl⟩, sn, hsn, _, ⟨by omega, by omega, rfl⟩, fn, hfn,
      _, ⟨by omega, by omega, rfl⟩, bd, hbd, _, ⟨by omega, by omega, rfl⟩, la, hla, rfl⟩

/-- C12/C28: the card type reported by EF_Identification depends on two bytes only. A driver card whose
replacement or renewal index is a letter is reported as a workshop card. -/
theorem identification_cardType (d : Bytes) (m : Identification) (h : unmarshalIdentification d = .ok m) :
    (m.cardType = .driverCard ↔ ByteAt d 15 Digit ∧ ByteAt d 16 Digit) ∧
    (m.cardType = .workshopCard ↔ ¬ (ByteAt d 15 Digit ∧ ByteAt d 16 Digit)) := by
  obtain ⟨hl, b, ct, dr, ow, au, ti, tb, te, sn, fn, bd, la, hb, hcn, hau, hti, htb, hte, hsn, hfn, hbd, hla, rfl⟩ :=
    identification_parse h
  obtain ⟨h1, h2⟩ := cardNumber_parse (sl d 1 17) (by simp; omega)
  rw [byteAt_sl (by omega), byteAt_sl (by omega)] at h1 h2
  by_cases hd : ByteAt d 15 Digit ∧ ByteAt d 16 Digit
  · obtain ⟨_, _, _, _, _, _, hx⟩ := h1 hd
    rw [hcn, Res.ok.injEq] at hx
    injection hx with hx _
    subst hx
    simp [hd]
  · obtain ⟨_, _, _, _, _, _, _, _, hx⟩ := h2 hd
    rw [hcn, Res.ok.injEq] at hx
    injection hx with hx _
    subst hx
    simp only [hd, not_false_eq_true, iff_true, iff_false]
    simp

/-- C28: parse then append restores the first 143 bytes exactly when every field survives on its own. -/
theorem identification_restores_iff (d dst : Bytes) (m : Identification) (h : unmarshalIdentification d = .ok m) :
    (appendIdentification dst m = .ok (dst ++ d.take 143) ↔
      ByteAt d 0 (Known nationNumericTable) ∧ NumberKept (sl d 1 17) ∧ ByteAt d 17 KnownCodePage ∧
      ByteAt d 65 KnownCodePage ∧ ByteAt d 101 KnownCodePage ∧ (∀ b ∈ sl d 137 141, IsBcd b)) ∧
    ((∃ e, appendIdentification dst m = .err e) ↔ ¬ ByteAt d 0 (Known nationNumericTable)) := by
  obtain ⟨hl, b, ct, dr, ow, au, ti, tb, te, sn, fn, bd, la, hb, hcn, hau, hti, htb, hte, hsn, hfn, hbd, hla, rfl⟩ :=
    identification_parse h
  obtain ⟨out, hol, hoi, hout⟩ := cardNumber_kept (by simp; omega) hcn
  obtain ⟨oa, hoa, hoal, hoai⟩ := stringValue_restores hau (by simp; omega)
  obtain ⟨os, hos, hosl, hosi⟩ := stringValue_restores hsn (by simp; omega)
  obtain ⟨of, hof, hofl, hofi⟩ := stringValue_restores hfn (by simp; omega)
  rw [byteAt_sl (by omega)] at hoai hosi hofi
  obtain ⟨bd', ob, hbd', hob, hobl, hobi⟩ := date_slice (d := sl d 137 141) (by simp; omega)
  rw [hbd, Res.ok.injEq] at hbd'
  subst hbd'
  have hobd : ∀ dst, appendDate dst bd = .ok (dst ++ ob) := AppendsWith.of_nil (appendDate_exact bd) hob
  obtain ⟨k1, k2⟩ := enumOr1_known (t := nationNumericTable) (by decide) (by decide) b
  rw [byteAt_of_sl hb]
  simp only [appendIdentification, appendCardIdentification, hout ⟨_, dr, ow, _, _, _, _⟩ rfl rfl]
  by_cases hk : Known nationNumericTable b
  · have hk1 : enumOr1 nationNumericTable b ≠ enumUnrecognized := by
      intro hc
      have := k1 hk
      rw [hc] at this
      revert this
      rw [show marshalEnum nationNumericTable enumUnrecognized = .err _ from rfl]
      simp
    rw [if_neg hk1]
    simp only [k1 hk, Res.bind_ok, hoa, timeReal_slice hti, timeReal_slice htb, timeReal_slice hte, appendDriverHolder, hos,
      hof, hobd, ia5_roundtrip _ _ (show (sl d 141 143).length < 2 ^ 31 by simp; omega) la hla, Res.pure_eq, Res.ok.injEq]
    have hd : d.take 143 = [b] ++ (sl d 1 17 ++ (sl d 17 53 ++ ((sl d 53 57 ++ sl d 57 61 ++ sl d 61 65) ++ (sl d 65 101 ++
        (sl d 101 137 ++ (sl d 137 141 ++ sl d 141 143)))))) := by
      rw [← hb, take_eq_sl]; join_slices
    rw [hd]
    have : dst ++ ([] ++ [b] ++ out ++ oa ++ sl d 53 57 ++ sl d 57 61 ++ sl d 61 65 ++ ([] ++ os ++ of) ++ ob ++ sl d 141 143)
       = dst ++ ([b] ++ (out ++ (oa ++ ((sl d 53 57 ++ sl d 57 61 ++ sl d 61 65) ++ (os ++ (of ++ (ob ++ sl d 141 143))))))) := by simp
    rw [this, List.append_cancel_left_eq, List.append_cancel_left_eq, append_eq_iff (by rw [hol]; simp; omega),
      append_eq_iff hoal, List.append_cancel_left_eq, append_eq_iff hosl, append_eq_iff hofl, append_eq_iff (by rw [hobl]; simp; omega),
      hoi, hoai, hosi, hofi, hobi]
    simp only [hk, true_and, and_true]
    simp
  · obtain ⟨e, he⟩ := k2 hk
    simp only [he]
    by_cases hk1 : enumOr1 nationNumericTable b = enumUnrecognized <;> simp [hk, hk1]

/-- C48: the fields of EF_Identification. The owner number is split 13 + 1 + 1 + 1. -/
theorem identification_fields (d : Bytes) (m : Identification) (h : unmarshalIdentification d = .ok m) :
    ∃ c p, m.card = some c ∧ m.driverHolder = some p ∧
    (∃ b, d[0]? = some b ∧ CodedLossy nationNumericTable b c.issuingState) ∧
    (m.cardType = .driverCard → c.owner = none ∧ ∃ n r w, c.driver = some ⟨some n, some r, some w⟩ ∧
      unmarshalIa5StringValue (sl d 1 15) = .ok n ∧ unmarshalIa5StringValue (sl d 15 16) = .ok r ∧
      unmarshalIa5StringValue (sl d 16 17) = .ok w) ∧
    (m.cardType ≠ .driverCard → c.driver = none ∧ ∃ n k r w, c.owner = some ⟨some n, some k, some r, some w⟩ ∧
      unmarshalIa5StringValue (sl d 1 14) = .ok n ∧ unmarshalIa5StringValue (sl d 14 15) = .ok k ∧
      unmarshalIa5StringValue (sl d 15 16) = .ok r ∧ unmarshalIa5StringValue (sl d 16 17) = .ok w) ∧
    (∃ s, unmarshalStringValue (sl d 17 53) = .ok s ∧ c.authority = some s) ∧
    c.issueDate = instant (sl d 53 57) ∧ c.validityBegin = instant (sl d 57 61) ∧ c.expiryDate = instant (sl d 61 65) ∧
    (∃ s, unmarshalStringValue (sl d 65 101) = .ok s ∧ p.surname = some s) ∧
    (∃ s, unmarshalStringValue (sl d 101 137) = .ok s ∧ p.firstNames = some s) ∧
    (∃ s, unmarshalDate (sl d 137 141) = .ok s ∧ p.birthDate = some s) ∧
    (∃ s, unmarshalIa5StringValue (sl d 141 143) = .ok s ∧ p.language = some s) := by
  obtain ⟨hl, b, ct, dr, ow, au, ti, tb, te, sn, fn, bd, la, hb, hcn, hau, hti, htb, hte, hsn, hfn, hbd, hla, rfl⟩ :=
    identification_parse h
  refine ⟨_, _, rfl, rfl, ⟨b, getElem?_of_sl hb, enumOr1_coded _ b⟩, ?_, ?_, ⟨au, hau, rfl⟩, timeReal_instant hti,
    timeReal_instant htb, timeReal_instant hte, ⟨sn, hsn, rfl⟩, ⟨fn, hfn, rfl⟩, ⟨bd, hbd, rfl⟩, ⟨la, hla, rfl⟩⟩
  all_goals
    obtain ⟨h1, h2⟩ := cardNumber_parse (sl d 1 17) (by simp; omega)
    rw [sl_sl (by omega), sl_sl (by omega), sl_sl (by omega)] at h1
    rw [sl_sl (by omega), sl_sl (by omega), sl_sl (by omega), sl_sl (by omega)] at h2
    by_cases hd : ByteAt (sl d 1 17) 14 Digit ∧ ByteAt (sl d 1 17) 15 Digit
  · obtain ⟨n, r, w, hn, hr, hw, hx⟩ := h1 hd
    rw [hcn, Res.ok.injEq] at hx
    injection hx with hx0 hx
    injection hx with hx1 hx2
    subst hx0 hx1 hx2
    exact fun _ => ⟨rfl, n, r, w, rfl, hn, hr, hw⟩
  · obtain ⟨n, k, r, w, hn, hk, hr, hw, hx⟩ := h2 hd
    rw [hcn, Res.ok.injEq] at hx
    injection hx with hx0 hx
    subst hx0
    exact fun h => absurd h (by simp)
  · obtain ⟨n, r, w, hn, hr, hw, hx⟩ := h1 hd
    rw [hcn, Res.ok.injEq] at hx
    injection hx with hx0 hx
    subst hx0
    exact fun h => absurd rfl h
  · obtain ⟨n, k, r, w, hn, hk, hr, hw, hx⟩ := h2 hd
    rw [hcn, Res.ok.injEq] at hx
    injection hx with hx0 hx
    injection hx with hx1 hx2
    subst hx0 hx1 hx2
    exact fun _ => ⟨rfl, n, k, r, w, rfl, hn, hk, hr, hw⟩

/-- A driver card of nation 13, number `DK000000000001` with indices `0` and `0`. -/
def exampleIdentification : Bytes :=
  [13] ++ ([0x44, 0x4B] ++ List.replicate 11 0x30 ++ [0x31, 0x30, 0x30]) ++ ([1] ++ List.replicate 35 0x41) ++
  [0x5E, 0x0B, 0xE1, 0x00, 0x5E, 0x0B, 0xE1, 0x00, 0x6E, 0x0B, 0xE1, 0x00] ++ ([1] ++ List.replicate 35 0x42) ++
  ([1] ++ List.replicate 35 0x43) ++ [0x19, 0x80, 0x12, 0x31] ++ [0x64, 0x61]

example : ∃ m, unmarshalIdentification exampleIdentification = .ok m ∧ m.cardType = .driverCard ∧
    appendIdentification [] m = .ok exampleIdentification := by
  obtain ⟨m, hm⟩ := (identification_accepts_iff exampleIdentification).mpr (by decide +kernel)
  refine ⟨m, hm, (identification_cardType _ m hm).1.mpr ⟨⟨0x30, rfl, by decide⟩, ⟨0x30, rfl, by decide⟩⟩, ?_⟩
  refine (identification_restores_iff exampleIdentification [] m hm).1.mpr ⟨⟨13, rfl, nation13_known⟩, ⟨fun _ => ?_, ?_⟩,
    ⟨1, rfl, by decide⟩, ⟨1, rfl, by decide⟩, ⟨1, rfl, by decide⟩, by decide⟩
  · refine ⟨"DK000000000001".toList, 0, by decide +kernel, ?_, ?_⟩
    · intro c t h
      have : c = 'D' := by simpa [eq_comm] using congrArg List.head? h
      rw [this]
      simp [Spec.Symbol.Padding]
    · intro c t h
      have : c = '1' := by simpa [eq_comm] using congrArg List.getLast? h
      rw [this]
      simp [Spec.Symbol.Padding]
  · intro h
    exact absurd ⟨⟨0x30, rfl, by decide⟩, ⟨0x30, rfl, by decide⟩⟩ h

end

end Tacho
