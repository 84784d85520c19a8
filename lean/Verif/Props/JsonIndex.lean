import Verif.Props.JsonParse
import Verif.Lemmas.Calendar
import Mathlib.Data.List.Induction
/-!
# The index file: what the tool writes and what the library loads
-/

namespace Tacho
open Spec

/-! ## Strings as they are written -/

/-- How an ASCII byte is written. -/
theorem escapeByte_cases (b : UInt8) (hb : b.toNat < 0x80) :
    (escapeByte b = [b] ∧ 0x20 ≤ b.toNat ∧ b ≠ 0x22 ∧ b ≠ 0x5C) ∨
    (∃ x ∈ ([0x62, 0x66, 0x6E, 0x72, 0x74, 0x5C, 0x2F, 0x22] : List UInt8), escapeByte b = [0x5C, x] ∧ shortEscape x = b) ∨
    (UnicodeEscape (escapeByte b) b.toNat) := by
  have h : ∀ n < 128,
      (escapeByte (UInt8.ofNat n) = [UInt8.ofNat n] ∧ 0x20 ≤ n ∧ n ≠ 0x22 ∧ n ≠ 0x5C) ∨
      (∃ x ∈ ([0x62, 0x66, 0x6E, 0x72, 0x74, 0x5C, 0x2F, 0x22] : List UInt8), escapeByte (UInt8.ofNat n) = [0x5C, x] ∧
        shortEscape x = UInt8.ofNat n) ∨
      (escapeByte (UInt8.ofNat n)).length = 6 ∧ getu4 (escapeByte (UInt8.ofNat n)) = some n := by decide +kernel
  have h' := h b.toNat hb
  rw [UInt8.ofNat_toNat] at h'
  rcases h' with ⟨h1, h2, h3, h4⟩ | h1 | ⟨hl, h1⟩
  · exact .inl ⟨h1, h2, by rintro rfl; exact h3 rfl, by rintro rfl; exact h4 rfl⟩
  · exact .inr (.inl h1)
  · obtain ⟨e, rest, he, hu⟩ := (getu4_iff _ _).mp h1
    have hel := escape_length hu
    rw [he, List.length_append] at hl
    have : rest = [] := List.length_eq_zero_iff.mp (by omega)
    rw [this, List.append_nil] at he
    exact .inr (.inr (he ▸ hu))

theorem escape_unicode {e : Bytes} {r : Nat} (hl : e.length = 6) (h : getu4 e = some r) : UnicodeEscape e r := by
  obtain ⟨e', rest, he, hu⟩ := (getu4_iff _ _).mp h
  have hel := escape_length hu
  rw [he, List.length_append] at hl
  have : rest = [] := List.length_eq_zero_iff.mp (by omega)
  rw [this, List.append_nil] at he
  exact he ▸ hu

/-- The text of a symbol in the index. -/
def symbolText : Symbol → Bytes
  | .char c => String.utf8EncodeChar c
  | .stray _ => String.utf8EncodeChar '�'

theorem escapeN_text {s : Bytes} {ss : List Symbol} (h : Reads s ss) : ∀ n, s.length ≤ n →
    StringText (escapeN n s) (ss.flatMap symbolText) := by
  induction h with
  | nil => intro n _; cases n <;> exact .nil
  | @char c rest ss hr ih =>
    intro n hn
    rw [List.length_append] at hn
    have hpos := List.length_pos_iff.2 (enc_ne_nil c)
    obtain ⟨m, rfl⟩ : ∃ m, n = m + 1 := ⟨n - 1, by omega⟩
    have ih := ih m (by omega)
    have hd := decodeRune_encode c rest
    rw [List.flatMap_cons]
    rcases enc_cases c with ⟨b, he, hv, hb⟩ | ⟨b, t, he, hb, ht⟩
    · have hc : Char.ofNat b.toNat = c := by rw [hv, Char.ofNat_toNat]
      rw [show escapeN (m + 1) (String.utf8EncodeChar c ++ rest) = escapeByte b ++ escapeN m rest by
        rw [he]; show escapeN (m + 1) (b :: rest) = _; rw [escapeN, if_pos hb]]
      show StringText _ (String.utf8EncodeChar c ++ _)
      rcases escapeByte_cases b hb with ⟨h1, h2, h3, h4⟩ | ⟨x, hx, h1, h2⟩ | h1
      · rw [h1, ← he]
        refine .char c (by omega) ?_ ?_ ih
        · rintro rfl; exact h3 (by rw [show String.utf8EncodeChar '"' = [0x22] from by decide +kernel] at he; simpa using he.symm)
        · rintro rfl; exact h4 (by rw [show String.utf8EncodeChar '\\' = [0x5C] from by decide +kernel] at he; simpa using he.symm)
      · obtain ⟨p, hp, h5, h6⟩ := (short_byte x).mp hx
        have := StringText.short (c := p.1) (v := p.2) hp ih
        rw [h5, h6, h2] at this
        rw [h1, he]
        exact this
      · have := StringText.unicode h1 (by unfold HighHalf; omega) (by unfold LowHalf; omega) ih
        rwa [hc] at this
    · have hl : 2 ≤ (String.utf8EncodeChar c).length := by
        obtain ⟨b', t', h', hc⟩ := utf8EncodeChar_cons c
        rw [he] at h'
        simp only [List.cons.injEq] at h'
        obtain ⟨rfl, rfl⟩ := h'
        rcases hc with ⟨h1, _⟩ | ⟨_, h1⟩
        · omega
        · rw [he, List.length_cons]
          have := List.length_pos_iff.2 h1
          omega
      rw [show escapeN (m + 1) (String.utf8EncodeChar c ++ rest) =
          (if c.toNat = 0x2028 ∨ c.toNat = 0x2029 then ascii "\\u202" ++ [hexDigit (c.toNat % 16)] ++ escapeN m rest
            else String.utf8EncodeChar c ++ escapeN m rest) by
        have hdr : (String.utf8EncodeChar c ++ rest).drop (String.utf8EncodeChar c).length = rest := List.drop_left
        have htk : (String.utf8EncodeChar c ++ rest).take (String.utf8EncodeChar c).length = String.utf8EncodeChar c := List.take_left
        rw [he, List.cons_append] at hdr htk hd ⊢
        rw [escapeN, if_neg (by omega), hd]
        dsimp only
        rw [hdr, htk, if_neg]
        rw [he, List.length_cons] at hl
        rw [List.length_cons]
        omega]
      show StringText _ (String.utf8EncodeChar c ++ _)
      split
      · rename_i h2
        have hu : UnicodeEscape (ascii "\\u202" ++ [hexDigit (c.toNat % 16)]) c.toNat := by
          rcases h2 with h2 | h2 <;> rw [h2] <;> exact escape_unicode (by decide) (by decide)
        have := StringText.unicode hu (by unfold HighHalf; omega) (by unfold LowHalf; omega) ih
        rwa [Char.ofNat_toNat] at this
      · refine .char c ?_ ?_ ?_ ih
        · by_cases hc : c.toNat < 0x20
          · have hs : String.utf8EncodeChar c = [UInt8.ofNat c.toNat] := by
              have := enc_ascii (b := UInt8.ofNat c.toNat) (by rw [toNat_ofNat_lt (by omega)]; omega)
              rwa [toNat_ofNat_lt (by omega), Char.ofNat_toNat] at this
            rw [hs] at hl
            simp at hl
          · omega
        · rintro rfl; revert hl; decide +kernel
        · rintro rfl; revert hl; decide +kernel
  | @stray b rest ss hb hr ih =>
    intro n hn
    rw [List.length_cons] at hn
    obtain ⟨m, rfl⟩ : ∃ m, n = m + 1 := ⟨n - 1, by omega⟩
    obtain ⟨h1, h2⟩ := (stray_iff _ _).1 hb
    rw [escapeN, if_neg (by omega), h2]
    dsimp only
    rw [if_pos ⟨rfl, rfl⟩, List.flatMap_cons]
    have hu : UnicodeEscape (ascii "\\ufffd") 0xFFFD := escape_unicode (by decide) (by decide)
    exact StringText.unicode hu (by unfold HighHalf; omega) (by unfold LowHalf; omega) (ih m (by omega))

/-- A string is written so that it means itself, with U+FFFD for each stray byte. -/
theorem escape_text (s : Bytes) : ∃ t, Carried s t ∧ StringText (jsonEscape s) t := by
  obtain ⟨ss, hs⟩ := reads_exists s
  refine ⟨ss.flatMap symbolText, ⟨ss, hs, ?_⟩, escapeN_text hs _ (Nat.le_refl _)⟩
  congr

theorem escape_carried (s : Bytes) : Carried s (unquote (jsonEscape s)) := by
  obtain ⟨t, h1, h2⟩ := escape_text s
  rwa [(unquote_iff ⟨t, h2⟩ t).mpr h2]

theorem carried_unique {s t t' : Bytes} (h : Carried s t) (h' : Carried s t') : t = t' := by
  obtain ⟨ss, h1, rfl⟩ := h
  obtain ⟨ss', h2, rfl⟩ := h'
  rw [reads_unique h1 h2]

/-- Text in UTF-8 is carried unchanged. -/
theorem carried_utf8 (cs : List Char) (t : Bytes) : Carried (cs.flatMap String.utf8EncodeChar) t ↔ t = cs.flatMap String.utf8EncodeChar := by
  have hr : Reads (cs.flatMap String.utf8EncodeChar) (cs.map Symbol.char) := by
    induction cs with
    | nil => exact .nil
    | cons c cs ih => rw [List.flatMap_cons]; exact .char c ih
  have he : Carried (cs.flatMap String.utf8EncodeChar) (cs.flatMap String.utf8EncodeChar) := by
    refine ⟨_, hr, ?_⟩
    rw [List.flatMap_map]
  exact ⟨fun h => carried_unique h he, fun h => h ▸ he⟩

/-! ## The document that is written -/

theorem newline_blank (d : Nat) : JsonBlank (newline d) := by
  intro b hb
  simp only [newline, List.mem_cons, List.mem_replicate] at hb
  rcases hb with rfl | ⟨_, rfl⟩
  · exact .inr (.inr (.inr rfl))
  · exact .inl rfl

/-- Documents that can be written. -/
inductive Writable : Nat → Json → Prop
  | null (d : Nat) : Writable d .null
  | bool (d : Nat) (b : Bool) : Writable d (.bool b)
  | num (d : Nat) {t : Bytes} : NumberText t → Writable d (.num t)
  | str (d : Nat) {raw text : Bytes} : StringText raw text → Writable d (.str raw)
  | arr {d : Nat} {vs : List Json} : (∀ v ∈ vs, Writable d v) → Writable (d + 1) (.arr vs)
  | obj {d : Nat} {ms : List (Bytes × Json)} : (∀ m ∈ ms, ∃ text, StringText m.1 text) → (∀ m ∈ ms, Writable d m.2) →
      Writable (d + 1) (.obj ms)

theorem printItems_grammar {d k : Nat} : ∀ (v : Json) (vs : List Json), (∀ x ∈ v :: vs, JsonValue d (printJson k x) x) →
    ∀ w1 w2, JsonBlank w1 → JsonBlank w2 → JsonItems d (w1 ++ printJson k v ++ printItems k vs ++ w2) (v :: vs) := by
  intro v vs
  induction vs generalizing v with
  | nil =>
    intro h w1 w2 h1 h2
    rw [printItems, List.append_nil]
    exact .last h1 (h v (by simp)) h2
  | cons x vs ih =>
    intro h w1 w2 h1 h2
    have := JsonItems.more h1 (h v (by simp)) (show JsonBlank [] from by intro b hb; simp at hb)
      (ih x (fun y hy => h y (by simp at hy; simp [hy])) (newline k) w2 (newline_blank k) h2)
    rw [printItems]
    simpa [show ascii "," = [0x2C] from rfl] using this

theorem printMembers_grammar {d k : Nat} : ∀ (m : Bytes × Json) (ms : List (Bytes × Json)),
    (∀ x ∈ m :: ms, (∃ text, StringText x.1 text) ∧ JsonValue d (printJson k x.2) x.2) →
    ∀ w1 w2, JsonBlank w1 → JsonBlank w2 →
      JsonMembers d (w1 ++ printKey m.1 ++ printJson k m.2 ++ printMembers k ms ++ w2) (m :: ms) := by
  have hb0 : JsonBlank [] := by intro b hb; simp at hb
  have hb1 : JsonBlank [0x20] := by intro b hb; simp at hb; exact .inl hb
  intro m ms
  induction ms generalizing m with
  | nil =>
    intro h w1 w2 h1 h2
    obtain ⟨⟨text, ht⟩, hv⟩ := h m (by simp)
    have := JsonMembers.lastMember h1 ht hb0 hb1 hv h2
    rw [printMembers, printKey]
    simpa [show ascii "\"" = [0x22] from rfl, show ascii ":" = [0x3A] from rfl] using this
  | cons x ms ih =>
    intro h w1 w2 h1 h2
    obtain ⟨⟨text, ht⟩, hv⟩ := h m (by simp)
    have := JsonMembers.moreMembers h1 ht hb0 hb1 hv hb0
      (ih x (fun y hy => h y (by simp at hy; simp [hy])) (newline k) w2 (newline_blank k) h2)
    rw [show printMembers k (x :: ms) = [0x2C] ++ newline k ++ printKey x.1 ++ printJson k x.2 ++ printMembers k ms by
      rw [printMembers], printKey]
    simpa [show ascii "\"" = [0x22] from rfl, show ascii ":" = [0x3A] from rfl, show ascii "," = [0x2C] from rfl] using this

theorem print_grammar {d : Nat} {v : Json} (h : Writable d v) : ∀ k, JsonValue d (printJson k v) v := by
  have hb0 : JsonBlank [] := by intro b hb; simp at hb
  induction h with
  | null d => intro k; rw [printJson]; exact .null d
  | bool d b =>
    intro k
    rw [printJson]
    cases b
    · exact .false d
    · exact .true d
  | num d h => intro k; rw [printJson]; exact .num d h
  | str d h => intro k; rw [printJson]; exact .str d h
  | @arr d vs _ ih =>
    intro k
    cases vs with
    | nil => rw [printJson]; exact .noItems d hb0
    | cons v vs =>
      have := JsonValue.arr (printItems_grammar v vs (fun x hx => ih x hx (k + 1)) (newline (k + 1)) (newline k)
        (newline_blank _) (newline_blank _))
      rw [printJson]
      simpa [show ascii "[" = [0x5B] from rfl, show ascii "]" = [0x5D] from rfl] using this
  | @obj d ms h _ ih =>
    intro k
    cases ms with
    | nil => rw [printJson]; exact .noMembers d hb0
    | cons m ms =>
      have := JsonValue.obj (printMembers_grammar m ms (fun x hx => ⟨h x hx, ih x hx (k + 1)⟩) (newline (k + 1)) (newline k)
        (newline_blank _) (newline_blank _))
      rw [show printJson k (.obj (m :: ms)) = [0x7B] ++ newline (k + 1) ++ printKey m.1 ++ printJson (k + 1) m.2 ++
        printMembers (k + 1) ms ++ newline k ++ [0x7D] by rw [printJson]]
      simpa [show ascii "{" = [0x7B] from rfl, show ascii "}" = [0x7D] from rfl] using this

/-! ## What is stored -/

/-- What becomes of the values given for a name, one after the other. -/
def storeAll {α : Type} (store : α → Json → Option α) : α → List Json → Option α
  | old, [] => some old
  | old, v :: vs => (store old v).bind fun x => storeAll store x vs

/-- The values given for a name. -/
def valuesFor (name : String) (ms : List (Bytes × Json)) : List Json := (ms.filter fun m => keyIs m.1 name).map (·.2)

theorem valuesFor_cons (name : String) (m : Bytes × Json) (ms : List (Bytes × Json)) :
    valuesFor name (m :: ms) = if keyIs m.1 name then m.2 :: valuesFor name ms else valuesFor name ms := by
  unfold valuesFor
  rw [List.filter_cons]
  split <;> simp

theorem lowerCase_eq (s : Bytes) : lowerCase s = s.map lowerByte := rfl

theorem keyIs_iff {k : Bytes} (hk : ∃ text, StringText k text) (name : String) : keyIs k name = true ↔ KeyMeans name k := by
  unfold keyIs KeyMeans
  rw [beq_iff_eq, ← lowerCase_eq, ← lowerCase_eq]
  constructor
  · intro h
    exact ⟨_, (unquote_iff hk _).mp rfl, h⟩
  · rintro ⟨t, ht, h⟩
    rw [(unquote_iff hk t).mpr ht, h]

theorem given_iff {name : String} {ms : List (Bytes × Json)} (hk : ∀ m ∈ ms, ∃ text, StringText m.1 text) (vs : List Json) :
    Given name ms vs ↔ vs = valuesFor name ms := by
  induction ms generalizing vs with
  | nil =>
    constructor
    · intro h; cases h; rfl
    · rintro rfl; exact .nil
  | cons m ms ih =>
    obtain ⟨k, v⟩ := m
    have ih := fun vs => ih (fun m hm => hk m (by simp [hm])) vs
    have hkey := keyIs_iff (hk (k, v) (by simp)) name
    rw [valuesFor_cons]
    constructor
    · intro h
      cases h with
      | hit h1 h2 => rw [if_pos (hkey.mpr h1), (ih _).mp h2]
      | miss h1 h2 => rw [if_neg (fun h => h1 (hkey.mp h)), (ih _).mp h2]
    · rintro rfl
      split
      · rename_i h1; exact .hit (hkey.mp h1) ((ih _).mpr rfl)
      · rename_i h1; exact .miss (fun h => h1 (hkey.mpr h)) ((ih _).mpr rfl)

/-- Text given for a string field, starting from an old value. -/
theorem storeAll_string (old t : Bytes) (vs : List Json) (hs : ∀ raw, .str raw ∈ vs → ∃ text, StringText raw text) :
    storeAll storeString old vs = some t ↔
      (∀ v ∈ vs, v = .null ∨ ∃ raw, v = .str raw) ∧
      ((∀ v ∈ vs, v = .null) ∧ t = old ∨
       ∃ before raw after, vs = before ++ .str raw :: after ∧ (∀ v ∈ after, v = .null) ∧ StringText raw t) := by
  induction vs generalizing old with
  | nil =>
    rw [storeAll, Option.some.injEq]
    constructor
    · intro h; exact ⟨by simp, .inl ⟨by simp, h.symm⟩⟩
    · rintro ⟨_, ⟨_, h⟩ | ⟨a, raw, b, h, _⟩⟩
      · exact h.symm
      · simp at h
  | cons v vs ih =>
    have ih := fun old => ih old fun raw h => hs raw (by simp [h])
    rw [storeAll]
    cases v with
    | null =>
      rw [storeString, Option.bind_some, ih]
      constructor
      · rintro ⟨h1, h2⟩
        refine ⟨by simpa using h1, ?_⟩
        rcases h2 with ⟨h2, h3⟩ | ⟨a, raw, b, h2, h3, h4⟩
        · exact .inl ⟨by simpa using h2, h3⟩
        · exact .inr ⟨.null :: a, raw, b, by rw [h2]; rfl, h3, h4⟩
      · rintro ⟨h1, h2⟩
        refine ⟨fun v hv => h1 v (by simp [hv]), ?_⟩
        rcases h2 with ⟨h2, h3⟩ | ⟨a, raw, b, h2, h3, h4⟩
        · exact .inl ⟨fun v hv => h2 v (by simp [hv]), h3⟩
        · cases a with
          | nil => simp at h2
          | cons x a =>
            simp only [List.cons_append, List.cons.injEq] at h2
            exact .inr ⟨a, raw, b, h2.2, h3, h4⟩
    | str raw =>
      rw [storeString, Option.bind_some, ih]
      have hr := hs raw (by simp)
      constructor
      · rintro ⟨h1, h2⟩
        refine ⟨by simpa using h1, .inr ?_⟩
        rcases h2 with ⟨h2, h3⟩ | ⟨a, raw', b, h2, h3, h4⟩
        · exact ⟨[], raw, vs, rfl, h2, (unquote_iff hr t).mp h3.symm⟩
        · exact ⟨.str raw :: a, raw', b, by rw [h2]; rfl, h3, h4⟩
      · rintro ⟨h1, h2⟩
        refine ⟨fun v hv => h1 v (by simp [hv]), ?_⟩
        rcases h2 with ⟨h2, h3⟩ | ⟨a, raw', b, h2, h3, h4⟩
        · exact absurd (h2 (.str raw) (by simp)) (by simp)
        · cases a with
          | nil =>
            simp only [List.nil_append, List.cons.injEq, Json.str.injEq] at h2
            obtain ⟨rfl, rfl⟩ := h2
            exact .inl ⟨h3, ((unquote_iff hr t).mpr h4).symm⟩
          | cons x a =>
            simp only [List.cons_append, List.cons.injEq] at h2
            exact .inr ⟨a, raw', b, h2.2, h3, h4⟩
    | bool b => simp [storeString]
    | num t => simp [storeString]
    | arr l => simp [storeString]
    | obj l => simp [storeString]

/-- A key means one name only. -/
theorem keyIs_other {k : Bytes} {a b : String} (h : keyIs k a = true) (hne : (ascii a).map lowerByte ≠ (ascii b).map lowerByte) :
    keyIs k b = false := by
  unfold keyIs at h ⊢
  rw [beq_iff_eq] at h
  rw [h]
  simpa using hne

/-- Each field of an entry is stored on its own. -/
theorem storeMembers_iff (e e' : LoadedEntry) (ms : List (Bytes × Json)) : storeMembers e ms = some e' ↔
    storeAll storeString e.car (valuesFor "car" ms) = some e'.car ∧
    storeAll storeString e.chr (valuesFor "chr" ms) = some e'.chr ∧
    storeAll storeString e.country (valuesFor "country" ms) = some e'.country ∧
    storeAll storeString e.url (valuesFor "url" ms) = some e'.url ∧
    storeAll storeString e.expiration (valuesFor "expirationDate" ms) = some e'.expiration := by
  induction ms generalizing e with
  | nil =>
    obtain ⟨_, _, _, _, _⟩ := e
    obtain ⟨_, _, _, _, _⟩ := e'
    simp [storeMembers, valuesFor, storeAll]
  | cons m ms ih =>
    simp only [valuesFor_cons]
    rw [storeMembers, storeMember]
    by_cases h1 : keyIs m.1 "car" = true
    · rw [if_pos h1, if_pos h1, keyIs_other h1 (b := "chr") (by decide), keyIs_other h1 (b := "country") (by decide),
        keyIs_other h1 (b := "url") (by decide), keyIs_other h1 (b := "expirationDate") (by decide)]
      simp only [Bool.false_eq_true, if_false]
      rw [storeAll]
      cases storeString e.car m.2 with
      | none => simp
      | some v => simp only [Option.map_some, Option.bind_some]; exact ih _
    rw [if_neg h1, if_neg h1]
    by_cases h2 : keyIs m.1 "chr" = true
    · rw [if_pos h2, if_pos h2, keyIs_other h2 (b := "country") (by decide),
        keyIs_other h2 (b := "url") (by decide), keyIs_other h2 (b := "expirationDate") (by decide)]
      simp only [Bool.false_eq_true, if_false]
      rw [storeAll]
      cases storeString e.chr m.2 with
      | none => simp
      | some v => simp only [Option.map_some, Option.bind_some]; exact ih _
    rw [if_neg h2, if_neg h2]
    by_cases h3 : keyIs m.1 "country" = true
    · rw [if_pos h3, if_pos h3, keyIs_other h3 (b := "url") (by decide), keyIs_other h3 (b := "expirationDate") (by decide)]
      simp only [Bool.false_eq_true, if_false]
      rw [storeAll]
      cases storeString e.country m.2 with
      | none => simp
      | some v => simp only [Option.map_some, Option.bind_some]; exact ih _
    rw [if_neg h3, if_neg h3]
    by_cases h4 : keyIs m.1 "url" = true
    · rw [if_pos h4, if_pos h4, keyIs_other h4 (b := "expirationDate") (by decide)]
      simp only [Bool.false_eq_true, if_false]
      rw [storeAll]
      cases storeString e.url m.2 with
      | none => simp
      | some v => simp only [Option.map_some, Option.bind_some]; exact ih _
    rw [if_neg h4, if_neg h4]
    by_cases h5 : keyIs m.1 "expirationDate" = true
    · rw [if_pos h5, if_pos h5, storeAll]
      cases storeString e.expiration m.2 with
      | none => simp
      | some v => simp only [Option.map_some, Option.bind_some]; exact ih _
    rw [if_neg h5, if_neg h5]
    exact ih _

/-- Each field of the index is stored on its own. -/
theorem storeIndexMembers_iff (x x' : IndexFill) (ms : List (Bytes × Json)) : storeIndexMembers x ms = some x' ↔
    storeAll storeTime x.created (valuesFor "createTime" ms) = some x'.created ∧
    storeAll storeEntry x.root (valuesFor "root" ms) = some x'.root ∧
    storeAll storeEntries x.g1 (valuesFor "g1" ms) = some x'.g1 ∧
    storeAll storeEntries x.g2 (valuesFor "g2" ms) = some x'.g2 := by
  induction ms generalizing x with
  | nil =>
    obtain ⟨_, _, _, _⟩ := x
    obtain ⟨_, _, _, _⟩ := x'
    simp [storeIndexMembers, valuesFor, storeAll]
  | cons m ms ih =>
    simp only [valuesFor_cons]
    rw [storeIndexMembers, storeIndexMember]
    by_cases h1 : keyIs m.1 "createTime" = true
    · rw [if_pos h1, if_pos h1, keyIs_other h1 (b := "root") (by decide), keyIs_other h1 (b := "g1") (by decide),
        keyIs_other h1 (b := "g2") (by decide)]
      simp only [Bool.false_eq_true, if_false]
      rw [storeAll]
      cases storeTime x.created m.2 with
      | none => simp
      | some v => simp only [Option.map_some, Option.bind_some]; exact ih _
    rw [if_neg h1, if_neg h1]
    by_cases h2 : keyIs m.1 "root" = true
    · rw [if_pos h2, if_pos h2, keyIs_other h2 (b := "g1") (by decide), keyIs_other h2 (b := "g2") (by decide)]
      simp only [Bool.false_eq_true, if_false]
      rw [storeAll]
      cases storeEntry x.root m.2 with
      | none => simp
      | some v => simp only [Option.map_some, Option.bind_some]; exact ih _
    rw [if_neg h2, if_neg h2]
    by_cases h3 : keyIs m.1 "g1" = true
    · rw [if_pos h3, if_pos h3, keyIs_other h3 (b := "g2") (by decide)]
      simp only [Bool.false_eq_true, if_false]
      rw [storeAll]
      cases storeEntries x.g1 m.2 with
      | none => simp
      | some v => simp only [Option.map_some, Option.bind_some]; exact ih _
    rw [if_neg h3, if_neg h3]
    by_cases h4 : keyIs m.1 "g2" = true
    · rw [if_pos h4, if_pos h4, storeAll]
      cases storeEntries x.g2 m.2 with
      | none => simp
      | some v => simp only [Option.map_some, Option.bind_some]; exact ih _
    rw [if_neg h4, if_neg h4]
    exact ih _

/-! ## Values that come from a document -/

/-- A value of the grammar. -/
def Read (v : Json) : Prop := ∃ d s, JsonValue d s v

theorem read_str {raw : Bytes} (h : Read (.str raw)) : ∃ text, StringText raw text := by
  obtain ⟨d, s, h⟩ := h
  cases h with
  | str _ h => exact ⟨_, h⟩

theorem items_read {d : Nat} {s : Bytes} {vs : List Json} (h : JsonItems d s vs) : ∀ v ∈ vs, Read v := by
  induction vs generalizing s with
  | nil => simp
  | cons v vs ih =>
    cases h with
    | last h1 h2 h3 => intro x hx; simp only [List.mem_singleton] at hx; exact hx ▸ ⟨_, _, h2⟩
    | more h1 h2 h3 h4 =>
      intro x hx
      rcases List.mem_cons.mp hx with rfl | hx
      · exact ⟨_, _, h2⟩
      · exact ih h4 x hx

theorem members_read {d : Nat} {s : Bytes} {ms : List (Bytes × Json)} (h : JsonMembers d s ms) :
    ∀ m ∈ ms, (∃ text, StringText m.1 text) ∧ Read m.2 := by
  induction ms generalizing s with
  | nil => simp
  | cons m ms ih =>
    cases h with
    | lastMember h1 h2 h3 h4 h5 h6 => intro x hx; simp only [List.mem_singleton] at hx; exact hx ▸ ⟨⟨_, h2⟩, _, _, h5⟩
    | moreMembers h1 h2 h3 h4 h5 h6 h7 =>
      intro x hx
      rcases List.mem_cons.mp hx with rfl | hx
      · exact ⟨⟨_, h2⟩, _, _, h5⟩
      · exact ih h7 x hx

theorem read_arr {vs : List Json} (h : Read (.arr vs)) : ∀ v ∈ vs, Read v := by
  obtain ⟨d, s, h⟩ := h
  cases h with
  | noItems => simp
  | arr h => exact items_read h

theorem read_obj {ms : List (Bytes × Json)} (h : Read (.obj ms)) : ∀ m ∈ ms, (∃ text, StringText m.1 text) ∧ Read m.2 := by
  obtain ⟨d, s, h⟩ := h
  cases h with
  | noMembers => simp
  | obj h => exact members_read h

theorem valuesFor_mem {name : String} {ms : List (Bytes × Json)} {v : Json} (h : v ∈ valuesFor name ms) : ∃ k, (k, v) ∈ ms := by
  unfold valuesFor at h
  obtain ⟨m, hm, rfl⟩ := List.mem_map.mp h
  exact ⟨m.1, (List.mem_filter.mp hm).1⟩

theorem textGiven_iff {ms : List (Bytes × Json)} (h : ∀ m ∈ ms, (∃ text, StringText m.1 text) ∧ Read m.2) (name : String) (t : Bytes) :
    TextGiven name ms t ↔ storeAll storeString [] (valuesFor name ms) = some t := by
  rw [storeAll_string]
  · unfold TextGiven
    constructor
    · rintro ⟨vs, hg, h1⟩
      rw [(given_iff (fun m hm => (h m hm).1) vs).mp hg] at h1
      exact h1
    · intro h1
      exact ⟨_, (given_iff (fun m hm => (h m hm).1) _).mpr rfl, h1⟩
  · intro raw hr
    obtain ⟨k, hk⟩ := valuesFor_mem hr
    exact read_str (h _ hk).2

theorem storeMembers_append (e : LoadedEntry) (a b : List (Bytes × Json)) :
    storeMembers e (a ++ b) = (storeMembers e a).bind fun e' => storeMembers e' b := by
  induction a generalizing e with
  | nil => rfl
  | cons m a ih =>
    rw [List.cons_append, storeMembers, storeMembers]
    split
    · exact ih _
    · rfl

theorem storeAll_append {α : Type} (store : α → Json → Option α) (old : α) (a b : List Json) :
    storeAll store old (a ++ b) = (storeAll store old a).bind fun x => storeAll store x b := by
  induction a generalizing old with
  | nil => rfl
  | cons v a ih =>
    rw [List.cons_append, storeAll, storeAll]
    cases store old v with
    | none => rfl
    | some x => exact ih x

theorem storeAll_entry (old e : LoadedEntry) (vs : List Json) : storeAll storeEntry old vs = some e ↔
    (∀ v ∈ vs, v = .null ∨ ∃ ms, v = .obj ms) ∧ storeMembers old (vs.flatMap membersOf) = some e := by
  induction vs generalizing old with
  | nil => simp [storeAll, storeMembers]
  | cons v vs ih =>
    rw [storeAll, List.flatMap_cons, storeMembers_append]
    cases v with
    | null => rw [storeEntry, Option.bind_some, ih]; simp [membersOf, storeMembers]
    | obj ms =>
      rw [storeEntry, membersOf]
      cases storeMembers old ms with
      | none => simp
      | some x => rw [Option.bind_some, Option.bind_some, ih]; simp
    | bool b => simp [storeEntry]
    | num t => simp [storeEntry]
    | str t => simp [storeEntry]
    | arr t => simp [storeEntry]

theorem entrySays_iff {vs : List Json} (h : ∀ v ∈ vs, Read v) (e : LoadedEntry) : EntrySays vs e ↔ storeAll storeEntry {} vs = some e := by
  have hm : ∀ m ∈ vs.flatMap membersOf, (∃ text, StringText m.1 text) ∧ Read m.2 := by
    intro m hm
    obtain ⟨v, hv, hm⟩ := List.mem_flatMap.mp hm
    cases v with
    | obj ms => exact read_obj (h _ hv) m hm
    | _ => simp [membersOf] at hm
  rw [storeAll_entry, storeMembers_iff]
  unfold EntrySays
  simp only [textGiven_iff hm]

/-! ### Lists of entries -/

/-- Whether a value is stored does not depend on what was there. -/
theorem storeString_any (a b : Bytes) (v : Json) : (storeString a v).isSome = (storeString b v).isSome := by
  cases v <;> rfl

theorem storeMember_any (a b : LoadedEntry) (m : Bytes × Json) : (storeMember a m).isSome = (storeMember b m).isSome := by
  unfold storeMember
  split
  · simp only [Option.isSome_map]; exact storeString_any ..
  split
  · simp only [Option.isSome_map]; exact storeString_any ..
  split
  · simp only [Option.isSome_map]; exact storeString_any ..
  split
  · simp only [Option.isSome_map]; exact storeString_any ..
  split
  · simp only [Option.isSome_map]; exact storeString_any ..
  rfl

theorem storeMembers_any (a b : LoadedEntry) (ms : List (Bytes × Json)) : (storeMembers a ms).isSome = (storeMembers b ms).isSome := by
  induction ms generalizing a b with
  | nil => rfl
  | cons m ms ih =>
    have h := storeMember_any a b m
    rw [storeMembers, storeMembers]
    cases ha : storeMember a m with
    | none => rw [ha] at h; cases hb : storeMember b m with
      | none => rfl
      | some y => rw [hb] at h; simp at h
    | some x => rw [ha] at h; cases hb : storeMember b m with
      | none => rw [hb] at h; simp at h
      | some y => exact ih x y

theorem storeEntry_any (a b : LoadedEntry) (v : Json) : (storeEntry a v).isSome = (storeEntry b v).isSome := by
  cases v with
  | obj ms => exact storeMembers_any a b ms
  | _ => rfl

/-- Items that can be stored, and what they are stored over. -/
theorem storeItems_some {old : List LoadedEntry} {vs : List Json} (h : ∀ v ∈ vs, (storeEntry {} v).isSome) :
    ∃ es, storeItems old vs = some es ∧ es.length = vs.length ∧
      (∀ i v, vs[i]? = some v → storeEntry (old.getD i {}) v = some ((es ++ old.drop es.length).getD i {})) ∧
      ∀ i, vs[i]? = none → (es ++ old.drop es.length).getD i {} = old.getD i {} := by
  induction vs generalizing old with
  | nil => exact ⟨[], rfl, rfl, by simp, by simp⟩
  | cons v vs ih =>
    obtain ⟨es, h1, h2, h3, h4⟩ := ih (old := old.tail) fun x hx => h x (by simp [hx])
    have hv := h v (by simp)
    rw [storeEntry_any {} (old.headD {})] at hv
    obtain ⟨e, he⟩ := Option.isSome_iff_exists.mp hv
    have h0 : old.headD {} = old.getD 0 {} := by cases old <;> rfl
    have ht : ∀ i, old.tail.getD i {} = old.getD (i + 1) {} := by intro i; cases old <;> simp
    have hd : old.tail.drop es.length = old.drop (es.length + 1) := by cases old <;> simp
    refine ⟨e :: es, by rw [storeItems, he, h1]; rfl, by simp [h2], ?_, ?_⟩
    · intro i x hi
      cases i with
      | zero =>
        simp only [List.getElem?_cons_zero, Option.some.injEq] at hi
        subst hi
        rw [← h0, he]; rfl
      | succ i =>
        rw [List.getElem?_cons_succ] at hi
        have := h3 i x hi
        rw [ht] at this
        rw [this, hd]; rfl
    · intro i hi
      cases i with
      | zero => simp at hi
      | succ i =>
        rw [List.getElem?_cons_succ] at hi
        rw [← ht, ← h4 i hi, hd]; rfl

theorem storeItems_typed {old es : List LoadedEntry} {vs : List Json} (h : storeItems old vs = some es) :
    ∀ v ∈ vs, (storeEntry {} v).isSome := by
  induction vs generalizing old es with
  | nil => simp
  | cons v vs ih =>
    rw [storeItems] at h
    simp only [Option.bind_eq_bind, Option.bind_eq_some_iff] at h
    obtain ⟨e, he, es', hes, _⟩ := h
    intro x hx
    rcases List.mem_cons.mp hx with rfl | hx
    · rw [storeEntry_any {} (old.headD {}), he]; rfl
    · exact ih hes x hx

/-- Values that can be stored in a list of entries. -/
def Typed (v : Json) : Prop := (v = .null ∨ ∃ xs, v = .arr xs) ∧ ∀ x ∈ itemsOf v, (storeEntry {} x).isSome

theorem lastRun_snoc (vs : List Json) (v : Json) :
    lastRun (vs ++ [v]) = if (itemsOf v).isEmpty then [] else lastRun vs ++ [v] := by
  unfold lastRun
  rw [List.reverse_append, List.reverse_singleton, List.singleton_append, List.takeWhile_cons]
  cases (itemsOf v).isEmpty <;> simp

/-- What the elements of the array hold after values that can be stored. -/
theorem entries_stored (vs : List Json) (h : ∀ v ∈ vs, Typed v) : ∃ sl, storeAll storeEntries {} vs = some sl ∧
    sl.items.length = ((vs.getLast?.map itemsOf).getD []).length ∧
    ∀ i, storeAll storeEntry {} ((lastRun vs).filterMap fun v => (itemsOf v)[i]?) = some ((sl.items ++ sl.beyond).getD i {}) := by
  induction vs using List.reverseRecOn with
  | nil => exact ⟨{}, rfl, rfl, fun i => rfl⟩
  | append_singleton vs v ih =>
    obtain ⟨sl, h1, h2, h3⟩ := ih fun x hx => h x (by simp [hx])
    obtain ⟨hv, hx⟩ := h v (by simp)
    simp only [storeAll_append, h1, Option.bind_some, storeAll, lastRun_snoc, List.getLast?_append, List.getLast?_singleton,
      Option.some_or, Option.map_some, Option.getD_some]
    have hempty : itemsOf v = [] → storeEntries sl v = some {} → ∃ sl', ((storeEntries sl v).bind fun x => some x) = some sl' ∧
        sl'.items.length = (itemsOf v).length ∧
        ∀ i, storeAll storeEntry {} ((if (itemsOf v).isEmpty = true then [] else lastRun vs ++ [v]).filterMap fun v => (itemsOf v)[i]?) =
          some ((sl'.items ++ sl'.beyond).getD i {}) := by
      intro e1 e2
      rw [e1, e2]
      exact ⟨{}, rfl, rfl, fun i => rfl⟩
    rcases hv with rfl | ⟨xs, rfl⟩
    · exact hempty rfl rfl
    · cases xs with
      | nil => exact hempty rfl rfl
      | cons x xs =>
        obtain ⟨es, g1, g2, g3, g4⟩ := storeItems_some (old := sl.items ++ sl.beyond) hx
        refine ⟨⟨es, (sl.items ++ sl.beyond).drop es.length⟩, ?_, g2, ?_⟩
        · rw [storeEntries]
          rw [itemsOf] at g1
          rw [g1]; rfl
        · intro i
          rw [if_neg (by simp [itemsOf]), List.filterMap_append, storeAll_append, h3, Option.bind_some]
          cases hi : (itemsOf (.arr (x :: xs)))[i]? with
          | none =>
            rw [List.filterMap_cons_none (f := fun v => (itemsOf v)[i]?) hi, List.filterMap_nil, storeAll, g4 i hi]
          | some y =>
            rw [List.filterMap_cons_some (f := fun v => (itemsOf v)[i]?) hi, List.filterMap_nil, storeAll, g3 i y hi]; rfl

theorem entries_typed {old sl : EntrySlice} {vs : List Json} (h : storeAll storeEntries old vs = some sl) : ∀ v ∈ vs, Typed v := by
  induction vs generalizing old with
  | nil => simp
  | cons v vs ih =>
    rw [storeAll] at h
    obtain ⟨x, hx, hr⟩ := Option.bind_eq_some_iff.mp h
    intro y hy
    rcases List.mem_cons.mp hy with rfl | hy
    · cases y with
      | null => exact ⟨.inl rfl, by simp [itemsOf]⟩
      | arr xs =>
        cases xs with
        | nil => exact ⟨.inr ⟨_, rfl⟩, by simp [itemsOf]⟩
        | cons z zs =>
          rw [storeEntries] at hx
          obtain ⟨es, he, _⟩ := Option.map_eq_some_iff.mp hx
          exact ⟨.inr ⟨_, rfl⟩, storeItems_typed he⟩
      | bool b => simp [storeEntries] at hx
      | num t => simp [storeEntries] at hx
      | str t => simp [storeEntries] at hx
      | obj t => simp [storeEntries] at hx
    · exact ih hr y hy

theorem read_items {v : Json} (h : Read v) : ∀ x ∈ itemsOf v, Read x := by
  cases v with
  | arr xs => exact read_arr h
  | _ => simp [itemsOf]

theorem entriesSay_iff {vs : List Json} (h : ∀ v ∈ vs, Read v) (es : List LoadedEntry) :
    EntriesSay vs es ↔ ∃ sl, storeAll storeEntries {} vs = some sl ∧ sl.items = es := by
  have hrun : ∀ i : Nat, ∀ v ∈ ((lastRun vs).filterMap fun v => (itemsOf v)[i]?), Read v := by
    intro i v hv
    obtain ⟨w, hw, hi⟩ := List.mem_filterMap.mp hv
    have hw' : w ∈ vs := by
      unfold lastRun at hw
      rw [List.mem_reverse] at hw
      exact List.mem_reverse.mp (List.takeWhile_subset _ hw)
    exact read_items (h w hw') v (List.mem_of_getElem? hi)
  have htyped : (∀ v ∈ vs, Typed v) ↔
      (∀ v ∈ vs, v = .null ∨ ∃ xs, v = .arr xs) ∧ (∀ v ∈ vs, ∀ x ∈ itemsOf v, ∃ e, EntrySays [x] e) := by
    have hx : ∀ v ∈ vs, ∀ x ∈ itemsOf v, (storeEntry {} x).isSome ↔ ∃ e, EntrySays [x] e := by
      intro v hv x hx
      have hr : ∀ y ∈ [x], Read y := by simpa using read_items (h v hv) x hx
      simp only [entrySays_iff hr, storeAll, Option.isSome_iff_exists]
      cases storeEntry {} x <;> simp
    constructor
    · intro ht
      exact ⟨fun v hv => (ht v hv).1, fun v hv x hx' => (hx v hv x hx').mp ((ht v hv).2 x hx')⟩
    · rintro ⟨h1, h2⟩ v hv
      exact ⟨h1 v hv, fun x hx' => (hx v hv x hx').mpr (h2 v hv x hx')⟩
  have hget : ∀ (sl : EntrySlice) i (hi : i < sl.items.length), (sl.items ++ sl.beyond).getD i {} = sl.items[i] := by
    intro sl i hi
    rw [List.getD_eq_getElem?_getD, List.getElem?_append_left hi, List.getElem?_eq_getElem hi]; rfl
  unfold EntriesSay
  rw [← and_assoc, ← htyped]
  constructor
  · rintro ⟨ht, hl, hi⟩
    obtain ⟨sl, h1, h2, h3⟩ := entries_stored vs ht
    refine ⟨sl, h1, ?_⟩
    refine List.ext_getElem (by rw [h2, hl]) fun i hi1 hi2 => ?_
    have a := h3 i
    have b := (entrySays_iff (hrun i) _).mp (hi i hi2)
    rw [b, Option.some.injEq, hget sl i hi1] at a
    exact a.symm
  · rintro ⟨sl, hs, rfl⟩
    have ht := entries_typed hs
    obtain ⟨sl', h1, h2, h3⟩ := entries_stored vs ht
    have he : sl' = sl := Option.some.inj (h1.symm.trans hs)
    subst he
    exact ⟨ht, h2, fun i hi => (entrySays_iff (hrun i) _).mpr (by rw [h3 i, hget sl' i hi])⟩

/-! ### Times -/

theorem digit_iff (b : UInt8) : (digit? b).isSome = true ↔ 48 ≤ b.toNat ∧ b.toNat ≤ 57 := by
  unfold digit?
  split <;> simp_all

theorem zone_iff (s : Bytes) (o : Int) : parseZone s = some o ↔ ZoneText s o := by
  unfold ZoneText
  simp only [digits2_iff]
  have a1 : ascii "Z" = [0x5A] := rfl
  have a2 : ascii "+" = [0x2B] := rfl
  have a3 : ascii "-" = [0x2D] := rfl
  have a4 : ascii ":" = [0x3A] := rfl
  rw [a1, a2, a3, a4]
  constructor
  · intro h
    unfold parseZone at h
    split at h
    · exact .inl ⟨rfl, (Option.some.inj h).symm⟩
    · simp only [Option.bind_eq_bind, Option.bind_eq_some_iff, two?_iff] at h
      obtain ⟨hh, ⟨h1, h2⟩, mm, ⟨m1, m2⟩, h⟩ := h
      split at h
      · rename_i hc
        obtain ⟨rfl, c1, c2⟩ := hc
        refine .inr ⟨hh, mm, _, _, ⟨h1, rfl⟩, ⟨m1, rfl⟩, c1, c2, ?_⟩
        rw [← h2, ← m2]
        split at h
        · rename_i hs; subst hs; exact .inl ⟨rfl, (Option.some.inj h).symm⟩
        split at h
        · rename_i hs; subst hs; exact .inr ⟨rfl, (Option.some.inj h).symm⟩
        · simp at h
      · simp at h
    · simp at h
  · rintro (⟨rfl, rfl⟩ | ⟨h, m, sh, sm, ⟨h1, rfl⟩, ⟨m1, rfl⟩, c1, c2, hs⟩)
    · rfl
    · have t : ∀ n, n < 100 → two? (UInt8.ofNat (48 + n / 10 % 10)) (UInt8.ofNat (48 + n % 10)) = some n := by
        intro n hn; rw [two?_iff]; exact ⟨hn, rfl⟩
      rcases hs with ⟨rfl, rfl⟩ | ⟨rfl, rfl⟩ <;>
      · simp only [pad2, List.cons_append, List.nil_append, parseZone, Option.bind_eq_bind]
        rw [t _ h1, t _ m1]
        simp [c1, c2]

theorem zone_head {s : Bytes} {o : Int} (h : parseZone s = some o) : ∃ b t, s = b :: t ∧ b ≠ 0x2E ∧ (digit? b).isSome = false := by
  rcases (zone_iff s o).mp h with ⟨rfl, _⟩ | ⟨_, _, _, _, _, _, _, _, ⟨rfl, _⟩ | ⟨rfl, _⟩⟩
  · exact ⟨0x5A, [], rfl, by decide, by decide⟩
  · exact ⟨0x2B, _, by simp [show ascii "+" = [0x2B] from rfl]; rfl, by decide, by decide⟩
  · exact ⟨0x2D, _, by simp [show ascii "-" = [0x2D] from rfl]; rfl, by decide, by decide⟩

theorem nine_digits (ds : Bytes) (hd : ∀ b ∈ ds, 48 ≤ b.toNat ∧ b.toNat ≤ 57) (n : Nat) :
    (∃ ds' more, Digits 9 n ds' ∧ (ds = ds' ++ more ∨ ∃ k, ds' = ds ++ List.replicate k 48)) ↔
      ((ds ++ List.replicate 9 0x30).take 9).foldl (fun a (b : UInt8) => a * 10 + (b.toNat - 48)) 0 = n := by
  unfold Digits
  constructor
  · rintro ⟨ds', more, ⟨h1, _, h3⟩, h⟩
    rw [← h3]
    congr 1
    rcases h with rfl | ⟨k, rfl⟩
    · rw [List.append_assoc, List.take_append_of_le_length (by omega), List.take_of_length_le (by omega)]
    · rw [List.length_append, List.length_replicate] at h1
      rw [List.take_append, List.take_of_length_le (by omega), List.take_replicate]
      congr 2; omega
  · intro h
    refine ⟨(ds ++ List.replicate 9 0x30).take 9, ds.drop 9, ⟨by simp, ?_, h⟩, ?_⟩
    · intro b hb
      rcases List.mem_append.mp (List.mem_of_mem_take hb) with hb | hb
      · exact hd b hb
      · rw [(List.mem_replicate.mp hb).2]; decide
    · by_cases hl : 9 ≤ ds.length
      · left
        rw [List.take_append_of_le_length hl, List.take_append_drop]
      · right
        refine ⟨9 - ds.length, ?_⟩
        rw [List.take_append, List.take_of_length_le (by omega), List.take_replicate]
        congr 2; omega

/-- The fraction in front of a zone. -/
theorem fraction_iff (s : Bytes) (n : Nat) (o : Int) :
    (parseFraction s).1 = n ∧ parseZone (parseFraction s).2 = some o ↔ ∃ f z, s = f ++ z ∧ FractionText f n ∧ ZoneText z o := by
  have hdot : ascii "." = [0x2E] := rfl
  unfold FractionText
  rw [hdot]
  constructor
  · rintro ⟨h1, h2⟩
    by_cases hs : ∃ rest, s = 0x2E :: rest
    · obtain ⟨rest, rfl⟩ := hs
      rw [parseFraction] at h1 h2
      by_cases he : (rest.takeWhile fun b => (digit? b).isSome) = []
      · simp only [if_pos he] at h2
        obtain ⟨b, t, h, hb, _⟩ := zone_head h2
        simp only [List.cons.injEq] at h
        exact absurd h.1.symm hb
      · simp only [if_neg he] at h1 h2
        have hd : ∀ b ∈ rest.takeWhile fun b => (digit? b).isSome, 48 ≤ b.toNat ∧ b.toNat ≤ 57 := by
          intro b hb
          exact (digit_iff b).mp (List.all_eq_true.mp (List.all_takeWhile (l := rest)) b hb)
        obtain ⟨ds', more, h3⟩ := (nine_digits _ hd n).mpr h1
        refine ⟨_, _, ?_, .inr ⟨_, ds', more, rfl, he, hd, h3⟩, (zone_iff _ _).mp h2⟩
        rw [List.cons_append, List.nil_append, List.cons_append]
        congr 1
        obtain ⟨t, ht⟩ := List.takeWhile_prefix (l := rest) fun b => (digit? b).isSome
        generalize (rest.takeWhile fun b => (digit? b).isSome) = w at ht ⊢
        rw [← ht, List.drop_left]
    · have hp : parseFraction s = (0, s) := by
        unfold parseFraction
        split
        · exact absurd ⟨_, rfl⟩ hs
        · rfl
      rw [hp] at h1 h2
      exact ⟨[], s, rfl, .inl ⟨rfl, h1.symm⟩, (zone_iff _ _).mp h2⟩
  · rintro ⟨f, z, rfl, hf, hz⟩
    rw [← zone_iff] at hz
    obtain ⟨b, t, rfl, hb, hb'⟩ := zone_head hz
    rcases hf with ⟨rfl, rfl⟩ | ⟨ds, ds', more, rfl, hne, hd, h3⟩
    · have hp : parseFraction (b :: t) = (0, b :: t) := by
        unfold parseFraction
        split
        · rename_i h; simp only [List.cons.injEq] at h; exact absurd h.1 hb
        · rfl
      rw [List.nil_append, hp]
      exact ⟨rfl, hz⟩
    · have hw : ((ds ++ b :: t).takeWhile fun b => (digit? b).isSome) = ds := by
        rw [List.takeWhile_append_of_pos fun x hx => (digit_iff x).mpr (hd x hx), List.takeWhile_cons_of_neg (by simp [hb']),
          List.append_nil]
      rw [List.cons_append, List.nil_append, List.cons_append, parseFraction]
      simp only [hw, if_neg hne, List.drop_left]
      exact ⟨(nine_digits ds hd n).mp ⟨ds', more, h3⟩, hz⟩

theorem stamp_iff (s : Bytes) (t : LoadedTime) : parseTime s = some t ↔ StampText s t := by
  unfold parseTime StampText
  have hz : ascii "Z" = [0x5A] := rfl
  simp only [Option.bind_eq_bind, Option.bind_eq_some_iff, parseInstant_iff, timeText_iff, hz, pure, Option.some.injEq]
  constructor
  · rintro ⟨c, ⟨hb, hy, hv⟩, zone, h1, rfl⟩
    obtain ⟨f, z, h2, h3, h4⟩ := (fraction_iff _ _ _).mp ⟨rfl, h1⟩
    refine ⟨s.take 19, f, z, c.year, c.month, c.day, c.hour, c.minute, c.second, ?_, ⟨hb, hy, hv⟩, rfl, h3, h4⟩
    rw [List.append_assoc, ← h2, List.take_append_drop]
  · rintro ⟨body, f, z, y, m, d, h, i, x, rfl, ⟨hb, hy, hv⟩, hc, h3, h4⟩
    have hl : body.length = 19 := by
      have := congrArg List.length hb
      rw [List.length_append, show (rfc3339 ⟨y, m, d, h, i, x⟩).length = 20 from rfl, List.length_singleton] at this
      omega
    have ht : (body ++ f ++ z).take 19 = body := by rw [List.append_assoc, List.take_left' hl]
    have hd : (body ++ f ++ z).drop 19 = f ++ z := by rw [List.append_assoc, List.drop_left' hl]
    rw [ht, hd]
    obtain ⟨h5, h6⟩ := (fraction_iff (f ++ z) t.nanos t.offset).mpr ⟨f, z, rfl, h3, h4⟩
    obtain ⟨c, n, o⟩ := t
    dsimp only at hc h5 h6
    subst hc
    exact ⟨_, ⟨hb, hy, hv⟩, o, h6, by rw [h5]⟩

theorem storeAll_time (old t : Option LoadedTime) (vs : List Json) : storeAll storeTime old vs = some t ↔
    (∀ v ∈ vs, v = .null ∨ ∃ raw t, v = .str raw ∧ StampText raw t) ∧
    ((∀ v ∈ vs, v = .null) ∧ t = old ∨
     ∃ before raw after t', vs = before ++ .str raw :: after ∧ (∀ v ∈ after, v = .null) ∧ StampText raw t' ∧ t = some t') := by
  induction vs generalizing old with
  | nil =>
    rw [storeAll, Option.some.injEq]
    constructor
    · intro h; exact ⟨by simp, .inl ⟨by simp, h.symm⟩⟩
    · rintro ⟨_, ⟨_, h⟩ | ⟨a, raw, b, t', h, _⟩⟩
      · exact h.symm
      · simp at h
  | cons v vs ih =>
    rw [storeAll]
    cases v with
    | null =>
      rw [storeTime, Option.bind_some, ih]
      constructor
      · rintro ⟨h1, h2⟩
        refine ⟨by simpa using h1, ?_⟩
        rcases h2 with ⟨h2, h3⟩ | ⟨a, raw, b, t', h2, h3⟩
        · exact .inl ⟨by simpa using h2, h3⟩
        · exact .inr ⟨.null :: a, raw, b, t', by rw [h2]; rfl, h3⟩
      · rintro ⟨h1, h2⟩
        refine ⟨fun v hv => h1 v (by simp [hv]), ?_⟩
        rcases h2 with ⟨h2, h3⟩ | ⟨a, raw, b, t', h2, h3⟩
        · exact .inl ⟨fun v hv => h2 v (by simp [hv]), h3⟩
        · cases a with
          | nil => simp at h2
          | cons x a =>
            simp only [List.cons_append, List.cons.injEq] at h2
            exact .inr ⟨a, raw, b, t', h2.2, h3⟩
    | str raw =>
      rw [storeTime]
      constructor
      · intro h
        obtain ⟨x, hx, hr⟩ := Option.bind_eq_some_iff.mp h
        obtain ⟨t', ht, rfl⟩ := Option.map_eq_some_iff.mp hx
        rw [stamp_iff] at ht
        obtain ⟨h1, h2⟩ := (ih _).mp hr
        refine ⟨?_, .inr ?_⟩
        · intro v hv
          rcases List.mem_cons.mp hv with rfl | hv
          · exact .inr ⟨raw, t', rfl, ht⟩
          · exact h1 v hv
        · rcases h2 with ⟨h2, h3⟩ | ⟨a, raw', b, t'', h2, h3⟩
          · exact ⟨[], raw, vs, t', rfl, h2, ht, h3⟩
          · exact ⟨.str raw :: a, raw', b, t'', by rw [h2]; rfl, h3⟩
      · rintro ⟨h1, h2⟩
        obtain ⟨raw', t0, he, ht0⟩ := (h1 (.str raw) (by simp)).resolve_left (by simp)
        simp only [Json.str.injEq] at he
        subst he
        rw [(stamp_iff _ _).mpr ht0, Option.map_some, Option.bind_some, ih]
        refine ⟨fun v hv => h1 v (by simp [hv]), ?_⟩
        rcases h2 with ⟨h2, h3⟩ | ⟨a, raw', b, t', h2, h3, h4, h5⟩
        · exact absurd (h2 (.str raw) (by simp)) (by simp)
        · cases a with
          | nil =>
            simp only [List.nil_append, List.cons.injEq, Json.str.injEq] at h2
            obtain ⟨rfl, rfl⟩ := h2
            have : t0 = t' := by
              rw [← stamp_iff] at ht0 h4
              exact Option.some.inj (ht0.symm.trans h4)
            exact .inl ⟨h3, by rw [h5, this]⟩
          | cons x a =>
            simp only [List.cons_append, List.cons.injEq] at h2
            exact .inr ⟨a, raw', b, t', h2.2, h3, h4, h5⟩
    | bool b => simp [storeTime]
    | num t => simp [storeTime]
    | arr l => simp [storeTime]
    | obj l => simp [storeTime]

/-! ## C80 -/

/-- C80. A file is loaded exactly if it is a JSON document (RFC 8259) that says something about an index, and the result is what it
says. -/
theorem load_iff (data : Bytes) (x : LoadedIndex) : loadIndex data = .ok x ↔ ∃ v, JsonDocument data v ∧ IndexSays v x := by
  have key : ∀ v, JsonDocument data v → (IndexSays v x ↔ storeIndex v = some x) := by
    intro v hdoc
    have hr : Read v := by
      obtain ⟨_, s, _, _, _, h, _⟩ := hdoc
      exact ⟨_, s, h⟩
    unfold IndexSays
    cases v with
    | null => simp [storeIndex, eq_comm]
    | obj ms =>
      have hm := read_obj hr
      have hv : ∀ name, ∀ v ∈ valuesFor name ms, Read v := by
        intro name v hv
        obtain ⟨k, hk⟩ := valuesFor_mem hv
        exact (hm _ hk).2
      rw [storeIndex]
      have hg : ∀ name vs, Given name ms vs ↔ vs = valuesFor name ms := fun name vs => given_iff (fun m h => (hm m h).1) vs
      simp only [Option.map_eq_some_iff, storeIndexMembers_iff, reduceCtorEq, false_and, Json.obj.injEq, false_or]
      constructor
      · rintro ⟨_, _, _, _, _, rfl, e1, h1, e2, h2, e3, h3, e4, h4⟩
        rw [hg] at e1 e2 e3 e4
        subst e1 e2 e3 e4
        obtain ⟨s3, h3, e3⟩ := (entriesSay_iff (hv _) _).mp h3
        obtain ⟨s4, h4, e4⟩ := (entriesSay_iff (hv _) _).mp h4
        refine ⟨⟨x.created, x.root, s3, s4⟩, ⟨(storeAll_time _ _ _).mpr h1, (entrySays_iff (hv _) _).mp h2, h3, h4⟩, ?_⟩
        rw [e3, e4]
      · rintro ⟨f, ⟨h1, h2, h3, h4⟩, rfl⟩
        exact ⟨ms, _, _, _, _, rfl, (hg _ _).mpr rfl, (storeAll_time _ _ _).mp h1, (hg _ _).mpr rfl, (entrySays_iff (hv _) _).mpr h2,
          (hg _ _).mpr rfl, (entriesSay_iff (hv _) _).mpr ⟨_, h3, rfl⟩, (hg _ _).mpr rfl, (entriesSay_iff (hv _) _).mpr ⟨_, h4, rfl⟩⟩
    | bool b => simp [storeIndex]
    | num t => simp [storeIndex]
    | str t => simp [storeIndex]
    | arr t => simp [storeIndex]
  unfold loadIndex
  constructor
  · intro h
    split at h
    · rename_i x' hx
      obtain ⟨v, hv, hs⟩ := Option.bind_eq_some_iff.mp hx
      have := Res.ok.inj h
      subst this
      have hd := (parse_iff _ _).mp hv
      exact ⟨v, hd, (key v hd).mpr hs⟩
    · simp at h
  · rintro ⟨v, hd, hs⟩
    rw [(parse_iff _ _).mpr hd, Option.bind_some, (key v hd).mp hs]

/-- C80. A file that is loaded is a JSON document. -/
theorem load_document {data : Bytes} {x : LoadedIndex} (h : loadIndex data = .ok x) : ∃ v, JsonDocument data v := by
  unfold loadIndex at h
  split at h
  · rename_i x' hx
    obtain ⟨v, hv, _⟩ := Option.bind_eq_some_iff.mp hx
    exact ⟨v, (parse_iff _ _).mp hv⟩
  · simp at h

/-! ### What the tool writes -/

/-- The entry the library gets. -/
def carriedEntry (e : IndexEntry) : LoadedEntry where
  car := unquote (jsonEscape e.car)
  chr := unquote (jsonEscape e.chr)
  country := unquote (jsonEscape e.country)
  url := unquote (jsonEscape e.url)
  expiration := unquote (jsonEscape e.expiration)

theorem carriedEntry_spec (e : IndexEntry) : CarriesEntry e (carriedEntry e) :=
  ⟨escape_carried _, escape_carried _, escape_carried _, escape_carried _, escape_carried _⟩

theorem store_entry (e : IndexEntry) : storeEntry {} (entryJson e) = some (carriedEntry e) := by
  have hcar : ∀ x v, storeMembers x [strMember "car" v] = some { x with car := unquote (jsonEscape v) } := by
    intro x v
    rw [storeMembers, storeMember, strMember, if_pos (by dsimp only; decide +kernel)]; rfl
  have hurl : ∀ x v, storeMembers x [strMember "url" v] = some { x with url := unquote (jsonEscape v) } := by
    intro x v
    rw [storeMembers, storeMember, strMember, if_neg (by dsimp only; decide +kernel), if_neg (by dsimp only; decide +kernel), if_neg (by dsimp only; decide +kernel),
      if_pos (by dsimp only; decide +kernel)]; rfl
  have hpath : ∀ x v, storeMembers x [strMember "path" v] = some x := by
    intro x v
    rw [storeMembers, storeMember, strMember, if_neg (by dsimp only; decide +kernel), if_neg (by dsimp only; decide +kernel), if_neg (by dsimp only; decide +kernel),
      if_neg (by dsimp only; decide +kernel), if_neg (by dsimp only; decide +kernel)]; rfl
  have hchr : ∀ x v, x.chr = [] → storeMembers x (strMember? "chr" v) = some { x with chr := unquote (jsonEscape v) } := by
    intro x v hx
    unfold strMember?
    split
    · rename_i h; subst h; obtain ⟨_, _, _, _, _⟩ := x; dsimp only at hx; subst hx; rfl
    · rw [storeMembers, storeMember, strMember, if_neg (by dsimp only; decide +kernel), if_pos (by dsimp only; decide +kernel)]; rfl
  have hcountry : ∀ x v, x.country = [] → storeMembers x (strMember? "country" v) = some { x with country := unquote (jsonEscape v) } := by
    intro x v hx
    unfold strMember?
    split
    · rename_i h; subst h; obtain ⟨_, _, _, _, _⟩ := x; dsimp only at hx; subst hx; rfl
    · rw [storeMembers, storeMember, strMember, if_neg (by dsimp only; decide +kernel), if_neg (by dsimp only; decide +kernel), if_pos (by dsimp only; decide +kernel)]; rfl
  have hexp : ∀ x v, x.expiration = [] →
      storeMembers x (strMember? "expirationDate" v) = some { x with expiration := unquote (jsonEscape v) } := by
    intro x v hx
    unfold strMember?
    split
    · rename_i h; subst h; obtain ⟨_, _, _, _, _⟩ := x; dsimp only at hx; subst hx; rfl
    · rw [storeMembers, storeMember, strMember, if_neg (by dsimp only; decide +kernel), if_neg (by dsimp only; decide +kernel), if_neg (by dsimp only; decide +kernel),
        if_neg (by dsimp only; decide +kernel), if_pos (by dsimp only; decide +kernel)]; rfl
  rw [entryJson, storeEntry]
  simp only [storeMembers_append]
  rw [hcar, Option.bind_some, hchr _ _ rfl, Option.bind_some, hcountry _ _ rfl, Option.bind_some, hurl, Option.bind_some,
    hexp _ _ rfl, Option.bind_some, hpath]
  rfl

theorem store_entries (l : List IndexEntry) : storeEntries {} (entriesJson l) = some ⟨l.map carriedEntry, []⟩ := by
  have h : ∀ l : List IndexEntry, storeItems [] (l.map entryJson) = some (l.map carriedEntry) := by
    intro l
    induction l with
    | nil => rfl
    | cons e l ih =>
      rw [List.map_cons, storeItems, List.headD_nil, store_entry, List.tail_nil, ih]
      rfl
  unfold entriesJson
  split
  · rename_i h0; subst h0; rfl
  · cases l with
    | nil => rfl
    | cons e l =>
      have := h (e :: l)
      rw [List.map_cons] at this ⊢
      rw [storeEntries, show (({} : EntrySlice).items ++ ({} : EntrySlice).beyond) = [] from rfl, this]
      simp

theorem plain_text {b : UInt8} (hb : 0x20 ≤ b.toNat ∧ b.toNat < 0x80 ∧ b ≠ 0x22 ∧ b ≠ 0x5C ∧ b ≠ 0x3C ∧ b ≠ 0x3E ∧ b ≠ 0x26) :
    escapeByte b = [b] := by
  have := every_byte (fun b => 0x20 ≤ b.toNat ∧ b.toNat < 0x80 ∧ b ≠ 0x22 ∧ b ≠ 0x5C ∧ b ≠ 0x3C ∧ b ≠ 0x3E ∧ b ≠ 0x26 →
    escapeByte b = [b]) (by decide +kernel)
  exact this b hb

/-- Text without characters that need escapes is written as it is. -/
theorem escape_plain {s : Bytes} (h : ∀ b ∈ s, 0x20 ≤ b.toNat ∧ b.toNat < 0x80 ∧ b ≠ 0x22 ∧ b ≠ 0x5C ∧ b ≠ 0x3C ∧ b ≠ 0x3E ∧ b ≠ 0x26) :
    jsonEscape s = s := by
  unfold jsonEscape
  induction s with
  | nil => rfl
  | cons b t ih =>
    have hb := h b (by simp)
    rw [List.length_cons, escapeN, if_pos hb.2.1, plain_text hb, ih fun x hx => h x (by simp [hx])]
    rfl

theorem pad2_plain (n : Nat) : ∀ b ∈ pad2 n, 0x30 ≤ b.toNat ∧ b.toNat ≤ 0x39 := by
  intro b hb
  simp only [pad2, List.mem_cons, List.not_mem_nil, or_false] at hb
  rcases hb with rfl | rfl <;> rw [toNat_ofNat_lt (by omega)] <;> omega

theorem escape_time (c : Civil) : jsonEscape (rfc3339 c) = rfc3339 c := by
  apply escape_plain
  have hd : ∀ b : UInt8, 0x30 ≤ b.toNat ∧ b.toNat ≤ 0x39 →
      0x20 ≤ b.toNat ∧ b.toNat < 0x80 ∧ b ≠ 0x22 ∧ b ≠ 0x5C ∧ b ≠ 0x3C ∧ b ≠ 0x3E ∧ b ≠ 0x26 :=
    every_byte _ (by decide +kernel)
  intro b hb
  simp only [rfc3339, pad4, List.mem_append, List.mem_singleton] at hb
  rcases hb with (((((((((((hb | hb) | hb) | hb) | hb) | hb) | hb) | hb) | hb) | hb) | hb) | hb) | hb
  all_goals first
    | exact hd b (pad2_plain _ b hb)
    | (subst hb; decide)

theorem store_index (created : Civil) (root : IndexEntry) (g1 g2 : List IndexEntry) (hc : created.Valid) (hy : created.year < 10000) :
    storeIndex (indexJson created root g1 g2) =
      some ⟨some { civil := created }, carriedEntry root, g1.map carriedEntry, g2.map carriedEntry⟩ := by
  have k1 : valuesFor "createTime" [strMember "createTime" (rfc3339 created), (ascii "root", entryJson root), (ascii "g1", entriesJson g1),
    (ascii "g2", entriesJson g2)] = [.str (rfc3339 created)] := by
    simp only [valuesFor_cons, strMember]
    rw [if_pos (by decide +kernel), if_neg (by decide +kernel), if_neg (by decide +kernel), if_neg (by decide +kernel), escape_time]
    rfl
  have k2 : valuesFor "root" [strMember "createTime" (rfc3339 created), (ascii "root", entryJson root), (ascii "g1", entriesJson g1),
    (ascii "g2", entriesJson g2)] = [entryJson root] := by
    simp only [valuesFor_cons, strMember]
    rw [if_neg (by decide +kernel), if_pos (by decide +kernel), if_neg (by decide +kernel), if_neg (by decide +kernel)]
    rfl
  have k3 : valuesFor "g1" [strMember "createTime" (rfc3339 created), (ascii "root", entryJson root), (ascii "g1", entriesJson g1),
    (ascii "g2", entriesJson g2)] = [entriesJson g1] := by
    simp only [valuesFor_cons, strMember]
    rw [if_neg (by decide +kernel), if_neg (by decide +kernel), if_pos (by decide +kernel), if_neg (by decide +kernel)]
    rfl
  have k4 : valuesFor "g2" [strMember "createTime" (rfc3339 created), (ascii "root", entryJson root), (ascii "g1", entriesJson g1),
    (ascii "g2", entriesJson g2)] = [entriesJson g2] := by
    simp only [valuesFor_cons, strMember]
    rw [if_neg (by decide +kernel), if_neg (by decide +kernel), if_neg (by decide +kernel), if_pos (by decide +kernel)]
    rfl
  have ht : parseTime (rfc3339 created) = some { civil := created } := by
    have hb : (rfc3339 created).take 19 ++ [0x5A] = rfc3339 created := by simp [rfc3339, pad4, pad2]
    have hz : (rfc3339 created).drop 19 = [0x5A] := by simp [rfc3339, pad4, pad2]
    unfold parseTime
    rw [hb, hz, (parseInstant_iff _ _).mpr ⟨rfl, hy, hc⟩]
    rfl
  rw [indexJson, storeIndex, Option.map_eq_some_iff]
  refine ⟨⟨some { civil := created }, carriedEntry root, ⟨g1.map carriedEntry, []⟩, ⟨g2.map carriedEntry, []⟩⟩, ?_, rfl⟩
  rw [storeIndexMembers_iff, k1, k2, k3, k4]
  simp only [storeAll, storeTime, ht, Option.map_some, Option.bind_some, store_entry, store_entries, and_self]

theorem ascii_text {s : String} (h : ∃ raw, scanString ((ascii s).length + 1) (ascii s ++ [0x22]) = some (raw, [])) :
    ∃ text, StringText (ascii s) text := by
  obtain ⟨raw, h⟩ := h
  obtain ⟨h1, h2⟩ := scan_sound' h
  rw [List.append_cancel_right h1]
  exact h2

theorem strMember_writable (d : Nat) (key : String) (v : Bytes) (hk : ∃ text, StringText (ascii key) text) :
    (∃ text, StringText (strMember key v).1 text) ∧ Writable d (strMember key v).2 := by
  obtain ⟨t, _, ht⟩ := escape_text v
  exact ⟨hk, .str d ht⟩

theorem key_texts : ∀ key ∈ ["car", "chr", "country", "url", "expirationDate", "path", "createTime", "root", "g1", "g2"],
    ∃ text, StringText (ascii key) text := by
  have h : ∀ key ∈ ["car", "chr", "country", "url", "expirationDate", "path", "createTime", "root", "g1", "g2"],
      scanString ((ascii key).length + 1) (ascii key ++ [0x22]) = some (ascii key, []) := by decide +kernel
  intro key hk
  exact ascii_text ⟨_, h key hk⟩

theorem entry_writable (d : Nat) (e : IndexEntry) : Writable (d + 1) (entryJson e) := by
  have h : ∀ m ∈ [strMember "car" e.car] ++ strMember? "chr" e.chr ++ strMember? "country" e.country ++ [strMember "url" e.url] ++
      strMember? "expirationDate" e.expiration ++ [strMember "path" e.path],
      (∃ text, StringText m.1 text) ∧ Writable d m.2 := by
    have h1 : ∀ key ∈ ["car", "chr", "country", "url", "expirationDate", "path", "createTime", "root", "g1", "g2"], ∀ v,
        ∀ m ∈ [strMember key v], (∃ text, StringText m.1 text) ∧ Writable d m.2 := by
      intro key hk v m hm
      rw [List.mem_singleton] at hm
      exact hm ▸ strMember_writable d key v (key_texts key hk)
    have h2 : ∀ key ∈ ["car", "chr", "country", "url", "expirationDate", "path", "createTime", "root", "g1", "g2"], ∀ v,
        ∀ m ∈ strMember? key v, (∃ text, StringText m.1 text) ∧ Writable d m.2 := by
      intro key hk v m hm
      unfold strMember? at hm
      split at hm
      · simp at hm
      · exact h1 key hk v m hm
    intro m hm
    simp only [List.mem_append] at hm
    rcases hm with ((((hm | hm) | hm) | hm) | hm) | hm
    · exact h1 "car" (by simp) _ m hm
    · exact h2 "chr" (by simp) _ m hm
    · exact h2 "country" (by simp) _ m hm
    · exact h1 "url" (by simp) _ m hm
    · exact h2 "expirationDate" (by simp) _ m hm
    · exact h1 "path" (by simp) _ m hm
  exact .obj (fun m hm => (h m hm).1) (fun m hm => (h m hm).2)

theorem entries_writable (d : Nat) (l : List IndexEntry) : Writable (d + 2) (entriesJson l) := by
  unfold entriesJson
  split
  · exact .null _
  · refine .arr fun v hv => ?_
    obtain ⟨e, _, rfl⟩ := List.mem_map.mp hv
    exact entry_writable d e

theorem index_writable (d : Nat) (created : Civil) (root : IndexEntry) (g1 g2 : List IndexEntry) :
    Writable (d + 3) (indexJson created root g1 g2) := by
  have h : ∀ m ∈ [strMember "createTime" (rfc3339 created), (ascii "root", entryJson root), (ascii "g1", entriesJson g1),
    (ascii "g2", entriesJson g2)], (∃ text, StringText m.1 text) ∧ Writable (d + 2) m.2 := by
    intro m hm
    simp only [List.mem_cons, List.not_mem_nil, or_false] at hm
    rcases hm with rfl | rfl | rfl | rfl
    · exact strMember_writable _ _ _ (key_texts _ (by simp))
    · exact ⟨key_texts "root" (by simp), entry_writable (d + 1) root⟩
    · exact ⟨key_texts "g1" (by simp), entries_writable d g1⟩
    · exact ⟨key_texts "g2" (by simp), entries_writable d g2⟩
  exact .obj (fun m hm => (h m hm).1) (fun m hm => (h m hm).2)

/-- C80. What the tool writes is a JSON document. -/
theorem encode_document (created : Civil) (root : IndexEntry) (g1 g2 : List IndexEntry) :
    JsonDocument (encodeIndex created root g1 g2) (indexJson created root g1 g2) := by
  have hb0 : JsonBlank [] := by intro b hb; simp at hb
  exact ⟨[], _, [], by rw [encodeIndex]; simp, hb0, print_grammar (index_writable 9997 created root g1 g2) 0, hb0⟩

/-- C80. The library loads the index the tool has written: the time of creation, the root entry and the entries of both
generations in the same order, each with its references, country, address and expiration date, in which only bytes
that do not belong to a character are replaced. -/
theorem index_loads (created : Civil) (root : IndexEntry) (g1 g2 : List IndexEntry) (hc : created.Valid) (hy : created.year < 10000) :
    ∃ x, loadIndex (encodeIndex created root g1 g2) = .ok x ∧ x.created = some { civil := created } ∧ CarriesEntry root x.root ∧
      List.Forall₂ CarriesEntry g1 x.g1 ∧ List.Forall₂ CarriesEntry g2 x.g2 := by
  have hf : ∀ l : List IndexEntry, List.Forall₂ CarriesEntry l (l.map carriedEntry) := by
    intro l
    induction l with
    | nil => exact .nil
    | cons e l ih => exact .cons (carriedEntry_spec e) ih
  refine ⟨⟨some { civil := created }, carriedEntry root, g1.map carriedEntry, g2.map carriedEntry⟩, ?_, rfl, carriedEntry_spec root, hf g1, hf g2⟩
  unfold loadIndex
  rw [(parse_iff _ _).mpr (encode_document created root g1 g2), Option.bind_some, store_index created root g1 g2 hc hy]

/-- C80. A file that holds only the beginning of an index is not loaded. -/
theorem torn_refused (created : Civil) (root : IndexEntry) (g1 g2 : List IndexEntry) (k : Nat)
    (hk : k < (encodeIndex created root g1 g2).length) :
    ∃ m, loadIndex ((encodeIndex created root g1 g2).take k) = .err m := by
  generalize hdata : encodeIndex created root g1 g2 = data at hk
  cases hl : loadIndex (data.take k) with
  | err m => exact ⟨m, rfl⟩
  | panic => unfold loadIndex at hl; split at hl <;> simp at hl
  | ok x =>
    exfalso
    obtain ⟨v, w1, s, w2, he, h1, hv, h2⟩ := load_document hl
    have hdoc := encode_document created root g1 g2
    rw [hdata] at hdoc
    have hhead : data.head? = some 0x7B := by
      rw [← hdata]; rfl
    obtain ⟨b, t, rfl, hb, _⟩ := value_head hv
    have hw1 : w1 = [] := by
      cases w1 with
      | nil => rfl
      | cons c w1 =>
        have := congrArg List.head? he
        cases k with
        | zero => simp at he
        | succ k =>
          cases data with
          | nil => simp at hhead
          | cons d data =>
            simp only [List.head?_cons, Option.some.injEq] at hhead
            simp only [List.take_succ_cons, List.cons_append, List.cons.injEq] at he
            have := h1 c (by simp)
            rw [← he.1, hhead] at this
            exact absurd this (by decide)
    subst hw1
    have hb' : b = 0x7B := by
      cases k with
      | zero => simp at he
      | succ k =>
        cases data with
        | nil => simp at hhead
        | cons d data =>
          simp only [List.head?_cons, Option.some.injEq] at hhead
          simp only [List.take_succ_cons, List.nil_append, List.cons_append, List.cons.injEq] at he
          rw [← he.1, hhead]
    subst hb'
    have hnum : ¬ ∃ t, v = .num t := by
      rintro ⟨x, rfl⟩
      cases hv with
      | num _ h =>
        obtain ⟨b, t', h3, h4⟩ := number_head h
        simp only [List.cons.injEq] at h3
        rw [← h3.1] at h4
        exact absurd h4 (by decide)
    have hsplit : data = (0x7B :: t) ++ (w2 ++ data.drop k) := by
      rw [← List.append_assoc, ← List.nil_append (0x7B :: t), ← he, List.take_append_drop]
    have hp := value_complete hv (w2 ++ data.drop k) data.length (by rw [hsplit]; simp) (fun h => absurd h hnum)
    rw [← hsplit] at hp
    have hq : parseValue data.length 10000 data = some (indexJson created root g1 g2, []) := by
      have := value_complete (print_grammar (index_writable 9997 created root g1 g2) 0) [] data.length
        (by rw [← hdata]; exact Nat.le_refl _) (by rintro ⟨t, h⟩; simp [indexJson] at h)
      rw [List.append_nil] at this
      rw [← hdata] at this ⊢
      exact this
    rw [hq, Option.some.injEq, Prod.mk.injEq] at hp
    have hz := (List.append_eq_nil_iff.mp hp.2.symm).2
    have := congrArg List.length hz
    rw [List.length_drop, List.length_nil] at this
    omega

end Tacho
