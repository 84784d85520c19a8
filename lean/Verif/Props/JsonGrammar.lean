import Verif.Spec.Json
import Verif.Lemmas.Strings
import Verif.Props.TextMeaning
/-!
# The decoder accepts the documents of RFC 8259, and takes them apart as the grammar says
-/

namespace Tacho
open Spec

/-! ## White space -/

theorem isJsonSpace_iff (b : UInt8) : isJsonSpace b = true ↔ b = 0x20 ∨ b = 0x09 ∨ b = 0x0D ∨ b = 0x0A := by
  simp [isJsonSpace, or_assoc]

theorem skip_blank {w : Bytes} (h : JsonBlank w) (s : Bytes) : skipJsonSpace (w ++ s) = skipJsonSpace s := by
  induction w with
  | nil => rfl
  | cons b w ih =>
    have hb := (isJsonSpace_iff b).mpr (h b (by simp))
    unfold skipJsonSpace at ih ⊢
    rw [List.cons_append, List.dropWhile_cons_of_pos hb]
    exact ih fun x hx => h x (by simp [hx])

theorem skip_cons {b : UInt8} (h : isJsonSpace b = false) (s : Bytes) : skipJsonSpace (b :: s) = b :: s := by
  unfold skipJsonSpace
  rw [List.dropWhile_cons_of_neg (by simp [h])]

theorem skip_split (s : Bytes) : ∃ w, JsonBlank w ∧ s = w ++ skipJsonSpace s := by
  refine ⟨s.takeWhile isJsonSpace, ?_, (List.takeWhile_append_dropWhile).symm⟩
  intro b hb
  exact (isJsonSpace_iff b).mp (List.all_eq_true.mp (List.all_takeWhile (p := isJsonSpace) (l := s)) b hb)

theorem skip_nil_iff (s : Bytes) : skipJsonSpace s = [] ↔ JsonBlank s := by
  constructor
  · intro h
    obtain ⟨w, hw, he⟩ := skip_split s
    rw [h, List.append_nil] at he
    rwa [he]
  · intro h
    have := skip_blank h []
    rwa [List.append_nil] at this

theorem blank_append {a b : Bytes} (ha : JsonBlank a) (hb : JsonBlank b) : JsonBlank (a ++ b) := by
  intro x hx
  rcases List.mem_append.mp hx with h | h
  · exact ha x h
  · exact hb x h

/-! ## Escapes -/

theorem every_byte (p : UInt8 → Prop) (h : ∀ n < 256, p (UInt8.ofNat n)) (b : UInt8) : p b := by
  have := h b.toNat b.toNat_lt
  rwa [UInt8.ofNat_toNat] at this

theorem hex_iff (b : UInt8) (v : Nat) : hexValue? b = some v ↔ HexDigit b v := by
  have h1 : ∀ n < 256, ∀ v, hexValue? (UInt8.ofNat n) = some v → HexDigit (UInt8.ofNat n) v := by
    intro n hn v h
    have : ∀ n < 256, ∀ v ∈ hexValue? (UInt8.ofNat n),
        (UInt8.ofNat n, v) ∈ (ascii "0123456789abcdefABCDEF").zip (List.range 16 ++ [10, 11, 12, 13, 14, 15]) := by decide +kernel
    exact this n hn v h
  have h2 : ∀ p ∈ (ascii "0123456789abcdefABCDEF").zip (List.range 16 ++ [10, 11, 12, 13, 14, 15]), hexValue? p.1 = some p.2 := by
    decide +kernel
  exact ⟨every_byte (fun b => hexValue? b = some v → HexDigit b v) (fun n hn => h1 n hn v) b, fun h => h2 _ h⟩

theorem getu4_iff (s : Bytes) (r : Nat) : getu4 s = some r ↔ ∃ e rest, s = e ++ rest ∧ UnicodeEscape e r := by
  constructor
  · intro h
    unfold getu4 at h
    split at h
    · rename_i b0 b1 h1 h2 h3 h4 rest
      split at h
      · rename_i hb
        obtain ⟨rfl, rfl⟩ := hb
        simp only [bind, Option.bind_eq_some_iff, pure, Option.some.injEq] at h
        obtain ⟨a, ha, b, hb, c, hc, d, hd, rfl⟩ := h
        exact ⟨_, rest, rfl, h1, h2, h3, h4, a, b, c, d, rfl, (hex_iff _ _).mp ha, (hex_iff _ _).mp hb,
          (hex_iff _ _).mp hc, (hex_iff _ _).mp hd, rfl⟩
      · simp at h
    · simp at h
  · rintro ⟨_, rest, rfl, h1, h2, h3, h4, a, b, c, d, rfl, ha, hb, hc, hd, rfl⟩
    show getu4 (0x5C :: 0x75 :: h1 :: h2 :: h3 :: h4 :: rest) = _
    unfold getu4
    dsimp only
    rw [if_pos ⟨rfl, rfl⟩, (hex_iff _ _).mpr ha, (hex_iff _ _).mpr hb, (hex_iff _ _).mpr hc, (hex_iff _ _).mpr hd]
    rfl

theorem escape_length {e : Bytes} {r : Nat} (h : UnicodeEscape e r) : e.length = 6 := by
  obtain ⟨h1, h2, h3, h4, a, b, c, d, rfl, _⟩ := h
  rfl

theorem escape_shape {e : Bytes} {r : Nat} (h : UnicodeEscape e r) : ∃ t, e = 0x5C :: 0x75 :: t ∧ t.length = 4 := by
  obtain ⟨h1, h2, h3, h4, a, b, c, d, rfl, _⟩ := h
  exact ⟨[h1, h2, h3, h4], rfl, rfl⟩

theorem escape_getu4 {e : Bytes} {r : Nat} (h : UnicodeEscape e r) (rest : Bytes) : getu4 (e ++ rest) = some r :=
  (getu4_iff _ _).mpr ⟨e, rest, rfl, h⟩

theorem short_byte (c : UInt8) : c ∈ [0x62, 0x66, 0x6E, 0x72, 0x74, 0x5C, 0x2F, 0x22] ↔
    ∃ p ∈ shortEscapes, String.utf8EncodeChar p.1 = [c] ∧ String.utf8EncodeChar p.2 = [shortEscape c] := by
  have h2 : ∀ c ∈ ([0x62, 0x66, 0x6E, 0x72, 0x74, 0x5C, 0x2F, 0x22] : List UInt8),
      ∃ p ∈ shortEscapes, String.utf8EncodeChar p.1 = [c] ∧ String.utf8EncodeChar p.2 = [shortEscape c] := by decide +kernel
  have h1 : ∀ p ∈ shortEscapes, ∃ c ∈ ([0x62, 0x66, 0x6E, 0x72, 0x74, 0x5C, 0x2F, 0x22] : List UInt8),
      String.utf8EncodeChar p.1 = [c] := by decide +kernel
  refine ⟨h2 c, ?_⟩
  rintro ⟨p, hp, h3, _⟩
  obtain ⟨d, hd, h4⟩ := h1 p hp
  rw [h3] at h4
  simp only [List.cons.injEq, and_true] at h4
  rwa [h4]

/-! ## Strings -/

/-- The bytes the scanner accepts between quotes. -/
inductive Body : Bytes → Prop
  | nil : Body []
  | plain {b : UInt8} {raw : Bytes} : b ≠ 0x22 → b ≠ 0x5C → 0x20 ≤ b.toNat → Body raw → Body (b :: raw)
  | short {c : UInt8} {raw : Bytes} : c ∈ [0x62, 0x66, 0x6E, 0x72, 0x74, 0x5C, 0x2F, 0x22] → Body raw → Body (0x5C :: c :: raw)
  | unicode {e raw : Bytes} {r : Nat} : UnicodeEscape e r → Body raw → Body (e ++ raw)

theorem scanString_cons (n : Nat) (b : UInt8) (t : Bytes) : scanString (n + 1) (b :: t) =
    if b = 0x22 then some ([], t)
    else if b = 0x5C then
      match t with
      | [] => none
      | c :: t' =>
        if c ∈ [0x62, 0x66, 0x6E, 0x72, 0x74, 0x5C, 0x2F, 0x22] then
          (scanString n t').map fun (raw, rest) => (b :: c :: raw, rest)
        else if (getu4 (b :: t)).isSome then
          (scanString n (t.drop 5)).map fun (raw, rest) => (b :: t.take 5 ++ raw, rest)
        else none
    else if b.toNat < 0x20 then none
    else (scanString n t).map fun (raw, rest) => (b :: raw, rest) := rfl

theorem scan_complete {raw : Bytes} (h : Body raw) (rest : Bytes) :
    ∀ n, raw.length < n → scanString n (raw ++ 0x22 :: rest) = some (raw, rest) := by
  induction h with
  | nil =>
    intro n hn
    obtain ⟨m, rfl⟩ : ∃ m, n = m + 1 := ⟨n - 1, by simp at hn; omega⟩
    rfl
  | @plain b raw h1 h2 h3 _ ih =>
    intro n hn
    rw [List.length_cons] at hn
    obtain ⟨m, rfl⟩ : ∃ m, n = m + 1 := ⟨n - 1, by omega⟩
    rw [List.cons_append, scanString_cons, if_neg h1, if_neg h2, if_neg (by omega), ih m (by omega)]
    rfl
  | @short c raw hc _ ih =>
    intro n hn
    simp only [List.length_cons] at hn
    obtain ⟨m, rfl⟩ : ∃ m, n = m + 1 := ⟨n - 1, by omega⟩
    rw [List.cons_append, List.cons_append, scanString_cons, if_neg (by decide), if_pos rfl]
    dsimp only
    rw [if_pos hc, ih m (by omega)]
    rfl
  | @unicode e raw r he _ ih =>
    intro n hn
    have hl := escape_length he
    rw [List.length_append] at hn
    obtain ⟨m, rfl⟩ : ∃ m, n = m + 1 := ⟨n - 1, by omega⟩
    have hg := escape_getu4 he (raw ++ 0x22 :: rest)
    obtain ⟨t, rfl, ht⟩ := escape_shape he
    rw [List.append_assoc]
    simp only [List.cons_append] at hg ⊢
    rw [scanString_cons, if_neg (by decide), if_pos rfl]
    dsimp only
    rw [if_neg (by decide), hg]
    rw [show (0x75 :: (t ++ (raw ++ 0x22 :: rest)) : Bytes) = (0x75 :: t) ++ (raw ++ 0x22 :: rest) from rfl,
      List.drop_left' (by rw [List.length_cons, ht]), List.take_left' (by rw [List.length_cons, ht]),
      ih m (by omega)]
    rfl

theorem scan_sound : ∀ n s raw rest, scanString n s = some (raw, rest) → s = raw ++ 0x22 :: rest ∧ Body raw := by
  intro n
  induction n with
  | zero => intro s raw rest h; simp [scanString] at h
  | succ n ih =>
    intro s raw rest h
    cases s with
    | nil => simp [scanString] at h
    | cons b t =>
      rw [scanString_cons] at h
      split at h
      · rename_i hb
        simp only [Option.some.injEq, Prod.mk.injEq] at h
        obtain ⟨rfl, rfl⟩ := h
        exact ⟨by rw [hb]; rfl, .nil⟩
      rename_i hq
      split at h
      · rename_i hb
        subst hb
        cases t with
        | nil => simp at h
        | cons c t' =>
          dsimp only at h
          split at h
          · rename_i hc
            simp only [Option.map_eq_some_iff, Prod.mk.injEq, Prod.exists] at h
            obtain ⟨raw', rest', h, rfl, rfl⟩ := h
            obtain ⟨rfl, hb⟩ := ih _ _ _ h
            exact ⟨rfl, .short hc hb⟩
          · split at h
            · rename_i hg
              obtain ⟨r, hr⟩ := Option.isSome_iff_exists.mp hg
              obtain ⟨e, more, he, hu⟩ := (getu4_iff _ _).mp hr
              simp only [Option.map_eq_some_iff, Prod.mk.injEq, Prod.exists] at h
              obtain ⟨raw', rest', h, rfl, rfl⟩ := h
              obtain ⟨x, rfl, hx⟩ := escape_shape hu
              simp only [List.cons_append, List.cons.injEq, true_and] at he
              obtain ⟨rfl, rfl⟩ := he
              rw [show (0x75 :: (x ++ more) : Bytes) = (0x75 :: x) ++ more from rfl,
                List.drop_left' (by rw [List.length_cons, hx])] at h
              obtain ⟨rfl, hb⟩ := ih _ _ _ h
              rw [show (0x75 :: (x ++ (raw' ++ 0x22 :: rest')) : Bytes) = (0x75 :: x) ++ (raw' ++ 0x22 :: rest') from rfl,
                List.take_left' (by rw [List.length_cons, hx])]
              exact ⟨by simp, .unicode hu hb⟩
            · simp at h
      rename_i hs
      split at h
      · simp at h
      · simp only [Option.map_eq_some_iff, Prod.mk.injEq, Prod.exists] at h
        obtain ⟨raw', rest', h, rfl, rfl⟩ := h
        obtain ⟨rfl, hb⟩ := ih _ _ _ h
        exact ⟨rfl, .plain hq hs (by omega) hb⟩

theorem enc_cases (c : Char) : (∃ b, String.utf8EncodeChar c = [b] ∧ b.toNat = c.toNat ∧ b.toNat < 0x80) ∨
    (∃ b t, String.utf8EncodeChar c = b :: t ∧ 0x80 ≤ b.toNat ∧ ∀ x ∈ t, 0x80 ≤ x.toNat) := by
  obtain ⟨b, t, h, _, ht, _⟩ := enc_shape c
  obtain ⟨b', t', h', hc⟩ := utf8EncodeChar_cons c
  rw [h] at h'
  simp only [List.cons.injEq] at h'
  obtain ⟨rfl, rfl⟩ := h'
  rcases hc with ⟨hb, rfl⟩ | ⟨hb, _⟩
  · refine .inl ⟨b, h, ?_, hb⟩
    have h1 := decodeRune_encode c []
    rw [h, List.append_nil, decodeRune_ascii b [] hb, Prod.mk.injEq] at h1
    exact h1.1
  · refine .inr ⟨b, t, h, hb, fun x hx => ?_⟩
    have := (isCont_iff x).mp (ht x hx)
    omega

theorem body_high {t raw : Bytes} (h : ∀ x ∈ t, 0x80 ≤ x.toNat) (hb : Body raw) : Body (t ++ raw) := by
  induction t with
  | nil => exact hb
  | cons x t ih =>
    have hx := h x (by simp)
    exact .plain (by rintro rfl; revert hx; decide) (by rintro rfl; revert hx; decide) (by omega)
      (ih fun y hy => h y (by simp [hy]))

theorem body_char {c : Char} (h1 : 0x20 ≤ c.toNat) (h2 : c ≠ '"') (h3 : c ≠ '\\') {raw : Bytes} (hb : Body raw) :
    Body (String.utf8EncodeChar c ++ raw) := by
  rcases enc_cases c with ⟨b, h, hv, _⟩ | ⟨b, t, h, hv, ht⟩
  · rw [h]
    refine .plain ?_ ?_ (by omega) hb
    · rintro rfl; exact h2 (char_toNat_inj hv.symm)
    · rintro rfl; exact h3 (char_toNat_inj hv.symm)
  · rw [h]
    exact body_high (by simpa using ⟨hv, ht⟩) hb

theorem body_of_text {raw text : Bytes} (h : StringText raw text) : Body raw := by
  induction h with
  | nil => exact .nil
  | char c h1 h2 h3 _ ih => exact body_char h1 h2 h3 ih
  | stray b h1 _ ih =>
    have := ((stray_iff _ _).1 h1).1
    exact body_high (t := [b]) (by simpa using this) ih
  | @short c v raw text hc _ ih =>
    have : ∀ p ∈ shortEscapes, ∃ c ∈ ([0x62, 0x66, 0x6E, 0x72, 0x74, 0x5C, 0x2F, 0x22] : List UInt8),
        String.utf8EncodeChar p.1 = [c] := by decide +kernel
    obtain ⟨b, hb, he⟩ := this _ hc
    rw [he]
    exact .short hb ih
  | unicode he _ _ _ ih => exact .unicode he ih
  | pair h1 h2 _ _ _ ih => rw [List.append_assoc]; exact .unicode h1 (.unicode h2 ih)
  | half he _ _ _ ih => exact .unicode he ih

theorem body_tail {b : UInt8} {t : Bytes} (h : Body (b :: t)) (hb : b ≠ 0x5C) :
    b ≠ 0x22 ∧ 0x20 ≤ b.toNat ∧ Body t := by
  generalize hs : b :: t = s at h
  cases h with
  | nil => simp at hs
  | plain h1 h2 h3 h4 =>
    simp only [List.cons.injEq] at hs
    obtain ⟨rfl, rfl⟩ := hs
    exact ⟨h1, h3, h4⟩
  | short h1 h2 =>
    simp only [List.cons.injEq] at hs
    exact absurd hs.1 hb
  | unicode he _ =>
    obtain ⟨x, rfl, _⟩ := escape_shape he
    simp only [List.cons_append, List.cons.injEq] at hs
    exact absurd hs.1 hb

theorem body_drop {t raw : Bytes} (ht : ∀ x ∈ t, 0x80 ≤ x.toNat) (h : Body (t ++ raw)) : Body raw := by
  induction t with
  | nil => exact h
  | cons x t ih =>
    refine ih (fun y hy => ht y (by simp [hy])) (body_tail h ?_).2.2
    have hx := ht x (by simp)
    rintro rfl
    revert hx
    decide

/-- Whatever the scanner accepts between quotes has a meaning. -/
theorem text_of_body {raw : Bytes} (h : Body raw) : ∃ text, StringText raw text := by
  generalize hn : raw.length = n
  induction n using Nat.strongRecOn generalizing raw with
  | _ n ih =>
    cases h with
    | nil => exact ⟨[], .nil⟩
    | @plain b t h1 h2 h3 h4 =>
      rcases Classical.em (∃ c more, b :: t = String.utf8EncodeChar c ++ more) with ⟨c, more, he⟩ | hno
      · have hmore : Body more := by
          rcases enc_cases c with ⟨x, hx, _⟩ | ⟨x, y, hx, hx1, hy⟩
          · rw [hx] at he
            simp only [List.cons_append, List.nil_append, List.cons.injEq] at he
            exact he.2 ▸ h4
          · rw [hx] at he
            simp only [List.cons_append, List.cons.injEq] at he
            obtain ⟨rfl, rfl⟩ := he
            exact body_drop hy h4
        have hl : more.length < n := by
          have := congrArg List.length he
          have := List.length_pos_iff.2 (enc_ne_nil c)
          simp at *; omega
        obtain ⟨text, ht⟩ := ih _ hl hmore rfl
        refine ⟨String.utf8EncodeChar c ++ text, he ▸ .char c ?_ ?_ ?_ ht⟩
        · rcases enc_cases c with ⟨x, hx, hv, _⟩ | ⟨x, y, hx, hx1, hy⟩
          · rw [hx] at he
            simp only [List.cons_append, List.nil_append, List.cons.injEq] at he
            rw [← hv, ← he.1]; exact h3
          · by_cases hc : c.toNat < 0x20
            · have hd := decodeRune_encode c more
              have hs : String.utf8EncodeChar c = [UInt8.ofNat c.toNat] := by
                have := enc_ascii (b := UInt8.ofNat c.toNat) (by rw [toNat_ofNat_lt (by omega)]; omega)
                rwa [toNat_ofNat_lt (by omega), Char.ofNat_toNat] at this
              rw [hs] at hx
              simp only [List.cons.injEq] at hx
              rw [← hx.1, toNat_ofNat_lt (by omega)] at hx1
              omega
            · omega
        · rintro rfl
          rw [show String.utf8EncodeChar '"' = [0x22] from by decide +kernel] at he
          simp only [List.cons_append, List.cons.injEq] at he
          exact h1 he.1
        · rintro rfl
          rw [show String.utf8EncodeChar '\\' = [0x5C] from by decide +kernel] at he
          simp only [List.cons_append, List.cons.injEq] at he
          exact h2 he.1
      · obtain ⟨text, ht⟩ := ih _ (by simp at hn; omega) h4 rfl
        exact ⟨_, .stray b (fun c more he => hno ⟨c, more, he⟩) ht⟩
    | @short c t hc h4 =>
      obtain ⟨text, ht⟩ := ih _ (by simp at hn; omega) h4 rfl
      obtain ⟨p, hp, he, _⟩ := (short_byte c).mp hc
      have := StringText.short (c := p.1) (v := p.2) hp ht
      rw [he] at this
      exact ⟨_, this⟩
    | @unicode e t r he h4 =>
      have hl := escape_length he
      rw [List.length_append] at hn
      obtain ⟨text, ht⟩ := ih _ (by omega) h4 rfl
      by_cases hh : HighHalf r
      · by_cases hp : ∃ e2 r2 more, UnicodeEscape e2 r2 ∧ LowHalf r2 ∧ t = e2 ++ more
        · obtain ⟨e2, r2, more, h5, h6, rfl⟩ := hp
          have hm : Body more := by
            obtain ⟨x, hx, hx4⟩ := escape_shape h5
            generalize hs : e2 ++ more = s at h4
            cases h4 with
            | nil =>
              rw [hx] at hs; simp at hs
            | plain _ h7 _ _ =>
              rw [hx] at hs
              simp only [List.cons_append, List.cons.injEq] at hs
              exact absurd hs.1.symm h7
            | short h7 _ =>
              rw [hx] at hs
              simp only [List.cons_append, List.cons.injEq] at hs
              rw [← hs.2.1] at h7
              exact absurd h7 (by decide)
            | unicode h7 h8 =>
              have := List.append_inj hs (by rw [escape_length h5, escape_length h7])
              rw [this.2]; exact h8
          have hl2 := escape_length h5
          obtain ⟨text2, ht2⟩ := ih more.length (by rw [List.length_append] at hn; omega) hm rfl
          have := StringText.pair he h5 hh h6 ht2
          rw [List.append_assoc] at this
          exact ⟨_, this⟩
        · exact ⟨_, .half he (.inl hh) (fun e2 r2 more _ h5 h6 h7 => hp ⟨e2, r2, more, h5, h6, h7⟩) ht⟩
      · by_cases hlow : LowHalf r
        · exact ⟨_, .half he (.inr hlow) (fun e2 r2 more h5 => absurd h5 hh) ht⟩
        · exact ⟨_, .unicode he hh hlow ht⟩

theorem body_iff (raw : Bytes) : Body raw ↔ ∃ text, StringText raw text :=
  ⟨text_of_body, fun ⟨_, h⟩ => body_of_text h⟩

/-! ## The value of a string -/

theorem unquoteN_cons (n : Nat) (b : UInt8) (t : Bytes) : unquoteN (n + 1) (b :: t) =
    if b = 0x5C then
      match getu4 (b :: t) with
      | some r =>
        if 0xD800 ≤ r ∧ r < 0xE000 then
          match (getu4 (t.drop 5)).bind (utf16Pair r) with
          | some c => encodeRune c ++ unquoteN n (t.drop 11)
          | none => encodeRune 0xFFFD ++ unquoteN n (t.drop 5)
        else encodeRune r ++ unquoteN n (t.drop 5)
      | none => shortEscape (t.headD 0) :: unquoteN n t.tail
    else if b.toNat < 0x80 then b :: unquoteN n t
    else encodeRune (decodeRune (b :: t)).1 ++ unquoteN n ((b :: t).drop (decodeRune (b :: t)).2) := rfl

theorem unquoteN_text {raw text : Bytes} (h : StringText raw text) : ∀ n, raw.length ≤ n → unquoteN n raw = text := by
  induction h with
  | nil => intro n _; cases n <;> rfl
  | @char c raw text h1 h2 h3 _ ih =>
    intro n hn
    rw [List.length_append] at hn
    have hpos := List.length_pos_iff.2 (enc_ne_nil c)
    obtain ⟨m, rfl⟩ : ∃ m, n = m + 1 := ⟨n - 1, by omega⟩
    have hd := decodeRune_encode c raw
    rcases enc_cases c with ⟨b, he, hv, hb⟩ | ⟨b, t, he, hb, ht⟩
    · rw [he] at hn ⊢
      simp only [List.length_cons, List.length_nil] at hn
      rw [List.cons_append, List.nil_append, unquoteN_cons, if_neg, if_pos hb, ih m (by omega)]
      · rfl
      · rintro rfl; exact h3 (char_toNat_inj hv.symm)
    · have hr : encodeRune c.toNat = String.utf8EncodeChar c := by rw [encodeRune, Char.ofNat_toNat]
      rw [he] at hd hn
      rw [he, List.cons_append, unquoteN_cons, if_neg (by rintro rfl; revert hb; decide), if_neg (by omega),
        ← List.cons_append, hd]
      dsimp only
      rw [hr, he, List.drop_left, ih m (by simp at hn; omega)]
  | @stray b raw text h1 _ ih =>
    intro n hn
    obtain ⟨hb, hd⟩ := (stray_iff _ _).1 h1
    rw [List.length_cons] at hn
    obtain ⟨m, rfl⟩ : ∃ m, n = m + 1 := ⟨n - 1, by omega⟩
    rw [unquoteN_cons, if_neg (by rintro rfl; revert hb; decide), if_neg (by omega), hd]
    dsimp only
    rw [List.drop_succ_cons, List.drop_zero, ih m (by omega)]
    rfl
  | @short c v raw text hc _ ih =>
    intro n hn
    have h1 : ∀ p ∈ shortEscapes, ∃ c ∈ ([0x62, 0x66, 0x6E, 0x72, 0x74, 0x5C, 0x2F, 0x22] : List UInt8),
        String.utf8EncodeChar p.1 = [c] ∧ String.utf8EncodeChar p.2 = [shortEscape c] := by decide +kernel
    obtain ⟨b, hb, he, hv⟩ := h1 _ hc
    dsimp only at he hv
    rw [he] at hn
    rw [he, hv]
    change (0x5C :: b :: raw).length ≤ n at hn
    change unquoteN n (0x5C :: b :: raw) = shortEscape b :: text
    simp only [List.length_cons] at hn
    obtain ⟨m, rfl⟩ : ∃ m, n = m + 1 := ⟨n - 1, by omega⟩
    have hg : getu4 (0x5C :: b :: raw) = none := by
      rw [Option.eq_none_iff_forall_ne_some]
      intro r hr
      obtain ⟨e, rest, h2, h3⟩ := (getu4_iff _ _).mp hr
      obtain ⟨x, rfl, _⟩ := escape_shape h3
      simp only [List.cons_append, List.cons.injEq] at h2
      rw [h2.2.1] at hb
      exact absurd hb (by decide)
    rw [unquoteN_cons, if_pos rfl, hg]
    dsimp only
    rw [List.headD_cons, List.tail_cons, ih m (by omega)]
  | @unicode e raw text r he h1 h2 _ ih =>
    intro n hn
    have hl := escape_length he
    rw [List.length_append] at hn
    obtain ⟨m, rfl⟩ : ∃ m, n = m + 1 := ⟨n - 1, by omega⟩
    have hg := escape_getu4 he raw
    obtain ⟨x, rfl, hx⟩ := escape_shape he
    simp only [List.cons_append] at hg ⊢
    unfold HighHalf LowHalf at *
    rw [unquoteN_cons, if_pos rfl, hg]
    dsimp only
    rw [if_neg (by omega), show (0x75 :: (x ++ raw) : Bytes) = (0x75 :: x) ++ raw from rfl,
      List.drop_left' (by rw [List.length_cons, hx]), ih m (by omega)]
    rfl
  | @pair e1 e2 raw text r1 r2 he1 he2 h1 h2 _ ih =>
    intro n hn
    have hl1 := escape_length he1
    have hl2 := escape_length he2
    simp only [List.length_append] at hn
    obtain ⟨m, rfl⟩ : ∃ m, n = m + 1 := ⟨n - 1, by omega⟩
    have hg := escape_getu4 he1 (e2 ++ raw)
    have hg2 := escape_getu4 he2 raw
    obtain ⟨x, rfl, hx⟩ := escape_shape he1
    rw [List.append_assoc]
    simp only [List.cons_append] at hg ⊢
    unfold HighHalf LowHalf at *
    rw [unquoteN_cons, if_pos rfl, hg]
    dsimp only
    rw [if_pos (by omega), show (0x75 :: (x ++ (e2 ++ raw)) : Bytes) = (0x75 :: x) ++ (e2 ++ raw) from rfl,
      List.drop_left' (by rw [List.length_cons, hx]), hg2, Option.bind_some, utf16Pair, if_pos (by omega)]
    dsimp only
    rw [← List.append_assoc, List.drop_left' (by rw [List.length_append, List.length_cons, hx, hl2]), ih m (by omega)]
    rw [encodeRune, show (r1 - 0xD800) * 1024 + (r2 - 0xDC00) + 0x10000 = 0x10000 + (r1 - 0xD800) * 0x400 + (r2 - 0xDC00) by omega]
  | @half e raw text r he h1 h2 _ ih =>
    intro n hn
    have hl := escape_length he
    rw [List.length_append] at hn
    obtain ⟨m, rfl⟩ : ∃ m, n = m + 1 := ⟨n - 1, by omega⟩
    have hg := escape_getu4 he raw
    obtain ⟨x, rfl, hx⟩ := escape_shape he
    simp only [List.cons_append] at hg ⊢
    rw [unquoteN_cons, if_pos rfl, hg]
    dsimp only
    have hnone : (getu4 raw).bind (utf16Pair r) = none := by
      rw [Option.eq_none_iff_forall_ne_some]
      intro c hc
      obtain ⟨r2, hr2, hp⟩ := Option.bind_eq_some_iff.mp hc
      obtain ⟨e2, more, hm, he2⟩ := (getu4_iff _ _).mp hr2
      unfold utf16Pair at hp
      split at hp
      · rename_i hh
        exact h2 e2 r2 more (by unfold HighHalf; omega) he2 (by unfold LowHalf; omega) hm
      · simp at hp
    unfold HighHalf LowHalf at h1
    rw [if_pos (by omega), show (0x75 :: (x ++ raw) : Bytes) = (0x75 :: x) ++ raw from rfl,
      List.drop_left' (by rw [List.length_cons, hx]), hnone, ih m (by omega)]
    rfl

/-- The decoder gives a string the text it means. -/
theorem unquote_iff {raw : Bytes} (h : ∃ text, StringText raw text) (text : Bytes) :
    unquote raw = text ↔ StringText raw text := by
  obtain ⟨t, ht⟩ := h
  have := unquoteN_text ht raw.length (Nat.le_refl _)
  constructor
  · rintro rfl
    rw [unquote, this]; exact ht
  · intro h
    exact unquoteN_text h _ (Nat.le_refl _)

/-! ## Numbers -/

theorem isDigit_iff (b : UInt8) : isDigit b = true ↔ 0x30 ≤ b.toNat ∧ b.toNat ≤ 0x39 := by
  simp [isDigit]

theorem digits_run {ds : Bytes} (h : ∀ b ∈ ds, 0x30 ≤ b.toNat ∧ b.toNat ≤ 0x39) (rest : Bytes)
    (hr : ∀ b, rest.head? = some b → isDigit b = false) : digitRun (ds ++ rest) = ds.length := by
  unfold digitRun
  rw [List.takeWhile_append_of_pos (fun b hb => (isDigit_iff b).mpr (h b hb))]
  cases rest with
  | nil => simp
  | cons b t => rw [List.takeWhile_cons_of_neg (by simp [hr b rfl])]; simp

theorem run_digits (s : Bytes) : ∀ b ∈ s.take (digitRun s), 0x30 ≤ b.toNat ∧ b.toNat ≤ 0x39 := by
  intro b hb
  have : s.take (digitRun s) = s.takeWhile isDigit := by
    unfold digitRun
    exact (List.prefix_iff_eq_take.mp (List.takeWhile_prefix _)).symm
  rw [this] at hb
  exact (isDigit_iff b).mp (List.all_eq_true.mp (List.all_takeWhile (p := isDigit) (l := s)) b hb)

theorem run_some {s : Bytes} (h : digitRun s ≠ 0) : SomeDigits (s.take (digitRun s)) := by
  refine ⟨?_, run_digits s⟩
  intro h0
  have := congrArg List.length h0
  rw [List.length_take, List.length_nil] at this
  have hl : digitRun s ≤ s.length := (List.takeWhile_prefix _).length_le
  omega

/-- What may follow a number. -/
def EndsNumber (rest : Bytes) : Prop := ∀ b, rest.head? = some b → isDigit b = false ∧ b ≠ 0x2E ∧ b ≠ 0x65 ∧ b ≠ 0x45

theorem exponentLength_cons (b : UInt8) (t : Bytes) : exponentLength (b :: t) =
    if b = 0x65 ∨ b = 0x45 then
      if digitRun (t.drop (signLength t)) = 0 then none else some (1 + signLength t + digitRun (t.drop (signLength t)))
    else some 0 := by
  simp only [exponentLength, List.head?_cons, Option.some.injEq, List.tail_cons]
  rfl

theorem exponent_complete {exponent rest : Bytes} (hr : EndsNumber rest)
    (h : exponent = [] ∨ ∃ e sg ds, exponent = e ++ sg ++ ds ∧ (e = ascii "e" ∨ e = ascii "E") ∧
      (sg = [] ∨ sg = ascii "+" ∨ sg = ascii "-") ∧ SomeDigits ds) :
    exponentLength (exponent ++ rest) = some exponent.length := by
  rcases h with rfl | ⟨e, sg, ds, rfl, he, hs, hd0, hd⟩
  · unfold exponentLength
    rw [List.nil_append, if_neg]
    · rfl
    · rintro (h | h)
      · exact (hr _ h).2.2.1 rfl
      · exact (hr _ h).2.2.2 rfl
  · have hrun := digits_run hd rest fun b hb => (hr b hb).1
    have hlen : ds.length ≠ 0 := by
      intro h; exact hd0 (List.length_eq_zero_iff.mp h)
    obtain ⟨x, rfl, hx⟩ : ∃ x : UInt8, e = [x] ∧ (x = 0x65 ∨ x = 0x45) := by
      rcases he with rfl | rfl
      · exact ⟨_, rfl, .inl rfl⟩
      · exact ⟨_, rfl, .inr rfl⟩
    simp only [List.cons_append, List.nil_append]
    rw [exponentLength_cons, if_pos hx]
    have hk : signLength ((sg ++ ds) ++ rest) = sg.length ∧ ((sg ++ ds) ++ rest).drop sg.length = ds ++ rest := by
      rw [List.append_assoc, List.drop_left]
      refine ⟨?_, rfl⟩
      rcases hs with rfl | rfl | rfl
      · cases ds with
        | nil => simp at hlen
        | cons b ds =>
          have hb := hd b (by simp)
          unfold signLength
          rw [if_neg]
          · rfl
          · simp only [List.nil_append, List.cons_append, List.head?_cons, Option.some.injEq]
            rintro (rfl | rfl) <;> revert hb <;> decide
      · rfl
      · rfl
    rw [hk.1, hk.2, hrun, if_neg hlen, List.length_cons, List.length_append]
    congr 1
    omega

theorem fraction_complete {fraction rest : Bytes} (hr : ∀ b, rest.head? = some b → isDigit b = false ∧ b ≠ 0x2E)
    (h : fraction = [] ∨ ∃ ds, fraction = ascii "." ++ ds ∧ SomeDigits ds) :
    fractionLength (fraction ++ rest) = some fraction.length := by
  rcases h with rfl | ⟨ds, rfl, hd0, hd⟩
  · unfold fractionLength
    rw [List.nil_append, if_neg]
    · rfl
    · intro h; exact (hr _ h).2 rfl
  · have hrun := digits_run hd rest fun b hb => (hr b hb).1
    have hlen : ds.length ≠ 0 := by
      intro h; exact hd0 (List.length_eq_zero_iff.mp h)
    change fractionLength (0x2E :: (ds ++ rest)) = some (ds.length + 1)
    unfold fractionLength
    rw [List.head?_cons, if_pos rfl, List.tail_cons, hrun, if_neg hlen, Nat.add_comm]

theorem head_append_cases {a b : Bytes} {x : UInt8} (h : (a ++ b).head? = some x) :
    a.head? = some x ∨ a = [] ∧ b.head? = some x := by
  cases a with
  | nil => exact .inr ⟨rfl, h⟩
  | cons y a => exact .inl h

theorem exponent_head {exponent : Bytes} {x : UInt8} (h : exponent = [] ∨ ∃ e sg ds, exponent = e ++ sg ++ ds ∧
      (e = ascii "e" ∨ e = ascii "E") ∧ (sg = [] ∨ sg = ascii "+" ∨ sg = ascii "-") ∧ SomeDigits ds)
    (hx : exponent.head? = some x) : x = 0x65 ∨ x = 0x45 := by
  rcases h with rfl | ⟨e, sg, ds, rfl, he, _⟩
  · simp at hx
  · rcases he with rfl | rfl
    · have : some (0x65 : UInt8) = some x := hx
      simp only [Option.some.injEq] at this
      exact .inl this.symm
    · have : some (0x45 : UInt8) = some x := hx
      simp only [Option.some.injEq] at this
      exact .inr this.symm

theorem number_complete {s : Bytes} (h : NumberText s) {rest : Bytes} (hr : EndsNumber rest) :
    scanNumber (s ++ rest) = some (s, rest) := by
  obtain ⟨sign, whole, fraction, exponent, rfl, hs, hw, hf, he⟩ := h
  have hexp := exponent_complete hr he
  have hr2 : ∀ b, (exponent ++ rest).head? = some b → isDigit b = false ∧ b ≠ 0x2E := by
    intro b hb
    rcases head_append_cases hb with h | ⟨_, h⟩
    · rcases exponent_head he h with rfl | rfl <;> decide
    · exact ⟨(hr b h).1, (hr b h).2.1⟩
  have hfrac := fraction_complete hr2 hf
  have hr3 : ∀ b, (fraction ++ (exponent ++ rest)).head? = some b → isDigit b = false := by
    intro b hb
    rcases head_append_cases hb with h | ⟨_, h⟩
    · rcases hf with rfl | ⟨ds, rfl, _⟩
      · simp at h
      · have : some (0x2E : UInt8) = some b := h
        simp only [Option.some.injEq] at this
        subst this
        decide
    · exact (hr2 b h).1
  have hneg : (if ((sign ++ whole ++ fraction ++ exponent) ++ rest).head? = some 0x2D then 1 else 0) = sign.length := by
    rcases hs with rfl | rfl
    · rw [if_neg]
      · rfl
      · simp only [List.nil_append, List.append_assoc]
        intro hb
        rcases hw with rfl | ⟨⟨h0, hd⟩, _⟩
        · revert hb
          change some (0x30 : UInt8) = some 0x2D → False
          decide
        · rcases head_append_cases hb with h | ⟨h, _⟩
          · have := hd 0x2D (List.mem_of_head? h)
            revert this
            decide
          · exact h0 h
    · rfl
  have hdrop : ((sign ++ whole ++ fraction ++ exponent) ++ rest).drop sign.length = whole ++ (fraction ++ (exponent ++ rest)) := by
    simp only [List.append_assoc]
    rw [List.drop_left]
  have hwhole : (if (whole ++ (fraction ++ (exponent ++ rest))).head? = some 0x30 then 1
      else digitRun (whole ++ (fraction ++ (exponent ++ rest)))) = whole.length ∧ whole.length ≠ 0 := by
    rcases hw with rfl | ⟨⟨h0, hd⟩, hz⟩
    · exact ⟨rfl, by decide⟩
    · refine ⟨?_, fun h => h0 (List.length_eq_zero_iff.mp h)⟩
      rw [if_neg]
      · exact digits_run hd _ hr3
      · intro hb
        rcases head_append_cases hb with h | ⟨h, _⟩
        · exact hz h
        · exact h0 h
  unfold scanNumber
  dsimp only
  rw [hneg, hdrop, hwhole.1, if_neg hwhole.2, List.drop_left, hfrac]
  rw [Option.bind_eq_bind, Option.bind_some, Nat.add_comm whole.length, ← List.append_assoc whole,
    List.drop_left' (by rw [List.length_append]; omega), hexp]
  rw [Option.bind_some]
  have hlen : sign.length + whole.length + fraction.length + exponent.length = (sign ++ whole ++ fraction ++ exponent).length := by
    simp only [List.length_append]
  rw [hlen, List.take_left, List.drop_left]
  rfl

theorem fraction_sound {s : Bytes} {k : Nat} (h : fractionLength s = some k) :
    s.take k = [] ∨ ∃ ds, s.take k = ascii "." ++ ds ∧ SomeDigits ds := by
  unfold fractionLength at h
  split at h
  · rename_i hh
    cases s with
    | nil => simp at hh
    | cons b t =>
      simp only [List.head?_cons, Option.some.injEq] at hh
      subst hh
      split at h
      · simp at h
      · rename_i hr
        simp only [Option.some.injEq, List.tail_cons] at h hr
        subst h
        refine .inr ⟨t.take (digitRun t), ?_, run_some hr⟩
        rw [Nat.add_comm]; rfl
  · simp only [Option.some.injEq] at h
    subst h
    exact .inl rfl

theorem exponent_sound {s : Bytes} {k : Nat} (h : exponentLength s = some k) :
    s.take k = [] ∨ ∃ e sg ds, s.take k = e ++ sg ++ ds ∧ (e = ascii "e" ∨ e = ascii "E") ∧
      (sg = [] ∨ sg = ascii "+" ∨ sg = ascii "-") ∧ SomeDigits ds := by
  cases s with
  | nil => exact .inl (by simp)
  | cons b t =>
    rw [exponentLength_cons] at h
    split at h
    · rename_i hh
      split at h
      · simp at h
      · rename_i hr
        simp only [Option.some.injEq] at h
        subst h
        refine .inr ⟨[b], t.take (signLength t), (t.drop (signLength t)).take (digitRun (t.drop (signLength t))), ?_, ?_, ?_, run_some hr⟩
        · rw [show 1 + signLength t + digitRun (t.drop (signLength t)) = (signLength t + digitRun (t.drop (signLength t))) + 1 by omega,
            List.take_succ_cons, List.take_add]
          simp
        · rcases hh with rfl | rfl
          · exact .inl rfl
          · exact .inr rfl
        · unfold signLength
          split
          · rename_i h1
            cases t with
            | nil => simp at h1
            | cons c t =>
              simp only [List.head?_cons, Option.some.injEq] at h1
              rcases h1 with rfl | rfl
              · exact .inr (.inl rfl)
              · exact .inr (.inr rfl)
          · exact .inl rfl
    · simp only [Option.some.injEq] at h
      subst h
      exact .inl rfl

theorem number_sound {s text rest : Bytes} (h : scanNumber s = some (text, rest)) : s = text ++ rest ∧ NumberText text := by
  unfold scanNumber at h
  dsimp only at h
  generalize hneg : (if s.head? = some 0x2D then 1 else 0) = neg at h
  generalize hwhole : (if (s.drop neg).head? = some 0x30 then 1 else digitRun (s.drop neg)) = whole at h
  split at h
  · simp at h
  rename_i h0
  simp only [Option.bind_eq_bind, Option.bind_eq_some_iff, pure, Option.some.injEq, Prod.mk.injEq] at h
  obtain ⟨f, hf, e, he, rfl, rfl⟩ := h
  refine ⟨(List.take_append_drop _ _).symm, s.take neg, (s.drop neg).take whole, ((s.drop neg).drop whole).take f,
    ((s.drop neg).drop (whole + f)).take e, ?_, ?_, ?_, fraction_sound hf, exponent_sound he⟩
  · simp only [List.take_add, List.drop_drop]
    simp [Nat.add_assoc]
  · rw [← hneg]
    split
    · rename_i h1
      cases s with
      | nil => simp at h1
      | cons b t =>
        simp only [List.head?_cons, Option.some.injEq] at h1
        subst h1
        exact .inr rfl
    · exact .inl rfl
  · rw [← hwhole] at h0 ⊢
    generalize s.drop neg = t at h0 ⊢
    split at h0
    · rename_i h1
      rw [if_pos h1]
      cases t with
      | nil => simp at h1
      | cons b t =>
        simp only [List.head?_cons, Option.some.injEq] at h1
        subst h1
        exact .inl rfl
    · rename_i h1
      rw [if_neg h1]
      refine .inr ⟨run_some h0, ?_⟩
      cases t with
      | nil => simp
      | cons b t =>
        intro h2
        have := run_some h0
        cases hk : digitRun (b :: t) with
        | zero => exact h0 hk
        | succ k =>
          rw [hk, List.take_succ_cons] at h2
          exact h1 h2

end Tacho
