import Verif.Props.JsonGrammar
/-!
# Documents: what the decoder takes apart is what the grammar says
-/

namespace Tacho
open Spec

/-! ## Every document of the grammar is read -/

theorem parseValue_blank {w : Bytes} (h : JsonBlank w) (n d : Nat) (s : Bytes) :
    parseValue n d (w ++ s) = parseValue n d s := by
  cases n with
  | zero => rw [parseValue, parseValue]
  | succ n => rw [parseValue, parseValue, skip_blank h]

theorem parseItems_blank {w : Bytes} (h : JsonBlank w) (n d : Nat) (s : Bytes) :
    parseItems n d (w ++ s) = parseItems n d s := by
  cases n with
  | zero => rw [parseItems, parseItems]
  | succ n => rw [parseItems, parseItems, parseValue_blank h]

theorem parseMembers_blank {w : Bytes} (h : JsonBlank w) (n d : Nat) (s : Bytes) :
    parseMembers n d (w ++ s) = parseMembers n d s := by
  cases n with
  | zero => rw [parseMembers, parseMembers]
  | succ n => rw [parseMembers, parseMembers, skip_blank h]

/-- The step on the first byte of a value. -/
theorem parseValue_cons (n d : Nat) (b : UInt8) (t : Bytes) (hb : isJsonSpace b = false) :
    parseValue (n + 1) d (b :: t) =
      if b = 0x22 then (scanString t.length t).map fun (raw, rest) => (.str raw, rest)
      else if b = 0x5B then
        if d = 0 then none
        else if (skipJsonSpace t).head? = some 0x5D then some (.arr [], (skipJsonSpace t).tail)
        else (parseItems n (d - 1) t).map fun (vs, rest) => (.arr vs, rest)
      else if b = 0x7B then
        if d = 0 then none
        else if (skipJsonSpace t).head? = some 0x7D then some (.obj [], (skipJsonSpace t).tail)
        else (parseMembers n (d - 1) t).map fun (ms, rest) => (.obj ms, rest)
      else if b = 0x2D ∨ isDigit b then (scanNumber (b :: t)).map fun (text, rest) => (.num text, rest)
      else scanLiteral (b :: t) := by
  rw [parseValue, skip_cons hb]

theorem ends_of_delim {rest : Bytes} (h : ∀ b, rest.head? = some b → isJsonSpace b = true ∨ b = 0x2C ∨ b = 0x5D ∨ b = 0x7D) :
    EndsNumber rest := by
  intro b hb
  rcases h b hb with h | rfl | rfl | rfl
  · rcases (isJsonSpace_iff b).mp h with rfl | rfl | rfl | rfl <;> decide
  · decide
  · decide
  · decide

theorem number_head {s : Bytes} (h : NumberText s) : ∃ b t, s = b :: t ∧ (b = 0x2D ∨ isDigit b = true) := by
  obtain ⟨sign, whole, fraction, exponent, rfl, hs, hw, _⟩ := h
  rcases hs with rfl | rfl
  · rcases hw with rfl | ⟨⟨h0, hd⟩, _⟩
    · exact ⟨0x30, _, rfl, .inr (by decide)⟩
    · cases whole with
      | nil => exact absurd rfl h0
      | cons b t => exact ⟨b, _, rfl, .inr ((isDigit_iff b).mpr (hd b (by simp)))⟩
  · exact ⟨0x2D, _, rfl, .inl rfl⟩

theorem value_head {d : Nat} {s : Bytes} {v : Json} (h : JsonValue d s v) :
    ∃ b t, s = b :: t ∧ isJsonSpace b = false ∧ b ≠ 0x5D := by
  cases h with
  | null => exact ⟨_, _, rfl, by decide, by decide⟩
  | true => exact ⟨_, _, rfl, by decide, by decide⟩
  | false => exact ⟨_, _, rfl, by decide, by decide⟩
  | num _ h =>
    obtain ⟨b, t, rfl, hb⟩ := number_head h
    refine ⟨b, t, rfl, ?_⟩
    rcases hb with rfl | hb
    · decide
    · have := every_byte (fun b => isDigit b = true → isJsonSpace b = false ∧ b ≠ 0x5D) (by decide +kernel)
      exact this b hb
  | str _ h => exact ⟨_, _, rfl, by decide, by decide⟩
  | noItems _ h => exact ⟨_, _, rfl, by decide, by decide⟩
  | arr h => exact ⟨_, _, rfl, by decide, by decide⟩
  | noMembers _ h => exact ⟨_, _, rfl, by decide, by decide⟩
  | obj h => exact ⟨_, _, rfl, by decide, by decide⟩

theorem items_head {d : Nat} {s : Bytes} {vs : List Json} (h : JsonItems d s vs) (rest : Bytes) :
    (skipJsonSpace (s ++ rest)).head? ≠ some 0x5D := by
  cases h with
  | last h1 h2 h3 =>
    obtain ⟨b, t, rfl, hb, hn⟩ := value_head h2
    simp only [List.append_assoc, List.cons_append]
    rw [skip_blank h1, skip_cons hb]
    simpa using hn
  | more h1 h2 h3 h4 =>
    obtain ⟨b, t, rfl, hb, hn⟩ := value_head h2
    simp only [List.append_assoc, List.cons_append]
    rw [skip_blank h1, skip_cons hb]
    simpa using hn

theorem members_head {d : Nat} {s : Bytes} {ms : List (Bytes × Json)} (h : JsonMembers d s ms) (rest : Bytes) :
    (skipJsonSpace (s ++ rest)).head? ≠ some 0x7D := by
  have hq : ∀ x : Bytes, skipJsonSpace (0x22 :: x) = 0x22 :: x := fun x => skip_cons (by decide) x
  have ha : ascii "\"" = [0x22] := rfl
  cases h with
  | lastMember h1 =>
    simp only [List.append_assoc, ha, List.cons_append]
    rw [skip_blank h1, hq]
    simp
  | moreMembers h1 =>
    simp only [List.append_assoc, ha, List.cons_append]
    rw [skip_blank h1, hq]
    simp

/-- Whatever follows a value in white space and a delimiter does not continue it. -/
theorem blank_ends {w : Bytes} (h : JsonBlank w) (b : UInt8) (hb : b = 0x2C ∨ b = 0x5D ∨ b = 0x7D) (rest : Bytes) :
    EndsNumber (w ++ b :: rest) := by
  apply ends_of_delim
  intro x hx
  rcases head_append_cases hx with h1 | ⟨_, h1⟩
  · exact .inl ((isJsonSpace_iff x).mpr (h x (List.mem_of_head? h1)))
  · simp only [List.head?_cons, Option.some.injEq] at h1
    exact .inr (h1 ▸ hb)

theorem scan_string {k text : Bytes} (h : StringText k text) (rest : Bytes) :
    scanString (k ++ 0x22 :: rest).length (k ++ 0x22 :: rest) = some (k, rest) :=
  scan_complete (body_of_text h) rest _ (by simp)

theorem value_complete {d : Nat} {s : Bytes} {v : Json} (h : JsonValue d s v) : ∀ (rest : Bytes) (n : Nat), s.length ≤ n →
    ((∃ t, v = .num t) → EndsNumber rest) → parseValue n d (s ++ rest) = some (v, rest) := by
  induction h using JsonValue.rec
    (motive_2 := fun d s vs _ => ∀ (rest : Bytes) (n : Nat), s.length < n → parseItems n d (s ++ 0x5D :: rest) = some (vs, rest))
    (motive_3 := fun d s ms _ => ∀ (rest : Bytes) (n : Nat), s.length < n → parseMembers n d (s ++ 0x7D :: rest) = some (ms, rest)) with
  | null d =>
    intro rest n hn hr
    obtain ⟨m, rfl⟩ : ∃ m, n = m + 1 := ⟨n - 1, by have : (4 : Nat) ≤ n := hn; omega⟩
    show parseValue (m + 1) d (0x6E :: (ascii "ull" ++ rest)) = _
    rw [parseValue_cons _ _ _ _ (by decide), if_neg (by decide), if_neg (by decide), if_neg (by decide), if_neg (by decide)]
    rfl
  | true d =>
    intro rest n hn hr
    obtain ⟨m, rfl⟩ : ∃ m, n = m + 1 := ⟨n - 1, by have : (4 : Nat) ≤ n := hn; omega⟩
    show parseValue (m + 1) d (0x74 :: (ascii "rue" ++ rest)) = _
    rw [parseValue_cons _ _ _ _ (by decide), if_neg (by decide), if_neg (by decide), if_neg (by decide), if_neg (by decide)]
    rfl
  | false d =>
    intro rest n hn hr
    obtain ⟨m, rfl⟩ : ∃ m, n = m + 1 := ⟨n - 1, by have : (5 : Nat) ≤ n := hn; omega⟩
    show parseValue (m + 1) d (0x66 :: (ascii "alse" ++ rest)) = _
    rw [parseValue_cons _ _ _ _ (by decide), if_neg (by decide), if_neg (by decide), if_neg (by decide), if_neg (by decide)]
    rfl
  | num d h =>
    intro rest n hn hr
    have hc := number_complete h (hr ⟨_, rfl⟩)
    obtain ⟨b, t, rfl, hb⟩ := number_head h
    obtain ⟨m, rfl⟩ : ∃ m, n = m + 1 := ⟨n - 1, by simp at hn; omega⟩
    have hd := every_byte (fun b => (b = 0x2D ∨ isDigit b = true) → isJsonSpace b = false ∧ b ≠ 0x22 ∧ b ≠ 0x5B ∧ b ≠ 0x7B)
      (by decide +kernel) b hb
    rw [List.cons_append] at hc ⊢
    rw [parseValue_cons _ _ _ _ hd.1, if_neg hd.2.1, if_neg hd.2.2.1, if_neg hd.2.2.2, if_pos hb, hc]
    rfl
  | @str d raw text h =>
    intro rest n hn hr
    change (0x22 :: (raw ++ [0x22])).length ≤ n at hn
    obtain ⟨m, rfl⟩ : ∃ m, n = m + 1 := ⟨n - 1, by simp at hn; omega⟩
    have : ascii "\"" ++ raw ++ ascii "\"" ++ rest = 0x22 :: (raw ++ 0x22 :: rest) := by
      rw [show ascii "\"" = [0x22] from rfl]; simp
    rw [this, parseValue_cons _ _ _ _ (by decide), if_pos rfl, scan_string h]
    rfl
  | @noItems d w h =>
    intro rest n hn hr
    change (0x5B :: (w ++ [0x5D])).length ≤ n at hn
    obtain ⟨m, rfl⟩ : ∃ m, n = m + 1 := ⟨n - 1, by simp at hn; omega⟩
    have : ascii "[" ++ w ++ ascii "]" ++ rest = 0x5B :: (w ++ 0x5D :: rest) := by
      rw [show ascii "[" = [0x5B] from rfl, show ascii "]" = [0x5D] from rfl]; simp
    rw [this, parseValue_cons _ _ _ _ (by decide), if_neg (by decide), if_pos rfl, if_neg (by omega), skip_blank h,
      skip_cons (by decide), List.head?_cons, if_pos rfl]
    rfl
  | @arr d s vs h ih =>
    intro rest n hn hr
    change (0x5B :: (s ++ [0x5D])).length ≤ n at hn
    simp only [List.length_cons, List.length_append, List.length_nil] at hn
    obtain ⟨m, rfl⟩ : ∃ m, n = m + 1 := ⟨n - 1, by omega⟩
    have : ascii "[" ++ s ++ ascii "]" ++ rest = 0x5B :: (s ++ 0x5D :: rest) := by
      rw [show ascii "[" = [0x5B] from rfl, show ascii "]" = [0x5D] from rfl]; simp
    rw [this, parseValue_cons _ _ _ _ (by decide), if_neg (by decide), if_pos rfl, if_neg (by omega),
      if_neg (items_head h _), Nat.add_sub_cancel, ih rest m (by omega)]
    rfl
  | @noMembers d w h =>
    intro rest n hn hr
    change (0x7B :: (w ++ [0x7D])).length ≤ n at hn
    obtain ⟨m, rfl⟩ : ∃ m, n = m + 1 := ⟨n - 1, by simp at hn; omega⟩
    have : ascii "{" ++ w ++ ascii "}" ++ rest = 0x7B :: (w ++ 0x7D :: rest) := by
      rw [show ascii "{" = [0x7B] from rfl, show ascii "}" = [0x7D] from rfl]; simp
    rw [this, parseValue_cons _ _ _ _ (by decide), if_neg (by decide), if_neg (by decide), if_pos rfl, if_neg (by omega), skip_blank h,
      skip_cons (by decide), List.head?_cons, if_pos rfl]
    rfl
  | @obj d s ms h ih =>
    intro rest n hn hr
    change (0x7B :: (s ++ [0x7D])).length ≤ n at hn
    simp only [List.length_cons, List.length_append, List.length_nil] at hn
    obtain ⟨m, rfl⟩ : ∃ m, n = m + 1 := ⟨n - 1, by omega⟩
    have : ascii "{" ++ s ++ ascii "}" ++ rest = 0x7B :: (s ++ 0x7D :: rest) := by
      rw [show ascii "{" = [0x7B] from rfl, show ascii "}" = [0x7D] from rfl]; simp
    rw [this, parseValue_cons _ _ _ _ (by decide), if_neg (by decide), if_neg (by decide), if_pos rfl, if_neg (by omega),
      if_neg (members_head h _), Nat.add_sub_cancel, ih rest m (by omega)]
    rfl
  | last h1 h2 h3 ih2 =>
    rename_i rest n hn
    simp only [List.length_append] at hn
    obtain ⟨m, rfl⟩ : ∃ m, n = m + 1 := ⟨n - 1, by omega⟩
    simp only [List.append_assoc]
    rw [parseItems_blank h1, parseItems, ih2 _ m (by omega) (fun _ => blank_ends h3 _ (.inr (.inl rfl)) _)]
    dsimp only
    rw [skip_blank h3, skip_cons (by decide)]
    rfl
  | more h1 h2 h3 h4 ih2 ih4 =>
    rename_i rest n hn
    simp only [show ascii "," = [0x2C] from rfl, List.length_append, List.length_cons, List.length_nil] at hn
    obtain ⟨m, rfl⟩ : ∃ m, n = m + 1 := ⟨n - 1, by omega⟩
    simp only [show ascii "," = [0x2C] from rfl, List.append_assoc, List.cons_append, List.nil_append]
    rw [parseItems_blank h1, parseItems, ih2 _ m (by omega) (fun _ => blank_ends h3 _ (.inl rfl) _)]
    dsimp only
    rw [skip_blank h3, skip_cons (by decide)]
    dsimp only
    rw [if_pos rfl, ih4 rest m (by omega)]
    rfl
  | lastMember h1 h2 h3 h4 h5 h6 ih5 =>
    rename_i rest n hn
    simp only [show ascii "\"" = [0x22] from rfl, show ascii ":" = [0x3A] from rfl, List.length_append, List.length_cons, List.length_nil] at hn
    obtain ⟨m, rfl⟩ : ∃ m, n = m + 1 := ⟨n - 1, by omega⟩
    simp only [show ascii "\"" = [0x22] from rfl, show ascii ":" = [0x3A] from rfl, List.append_assoc, List.cons_append, List.nil_append]
    rw [parseMembers_blank h1, parseMembers, skip_cons (by decide)]
    dsimp only
    rw [if_neg (by decide), scan_string h2]
    dsimp only
    rw [skip_blank h3, skip_cons (by decide)]
    dsimp only
    rw [if_neg (by decide), parseValue_blank h4, ih5 _ m (by omega) (fun _ => blank_ends h6 _ (.inr (.inr rfl)) _)]
    dsimp only
    rw [skip_blank h6, skip_cons (by decide)]
    rfl
  | moreMembers h1 h2 h3 h4 h5 h6 h7 ih5 ih7 =>
    rename_i rest n hn
    simp only [show ascii "\"" = [0x22] from rfl, show ascii ":" = [0x3A] from rfl, show ascii "," = [0x2C] from rfl,
      List.length_append, List.length_cons, List.length_nil] at hn
    obtain ⟨m, rfl⟩ : ∃ m, n = m + 1 := ⟨n - 1, by omega⟩
    simp only [show ascii "\"" = [0x22] from rfl, show ascii ":" = [0x3A] from rfl, show ascii "," = [0x2C] from rfl,
      List.append_assoc, List.cons_append, List.nil_append]
    rw [parseMembers_blank h1, parseMembers, skip_cons (by decide)]
    dsimp only
    rw [if_neg (by decide), scan_string h2]
    dsimp only
    rw [skip_blank h3, skip_cons (by decide)]
    dsimp only
    rw [if_neg (by decide), parseValue_blank h4, ih5 _ m (by omega) (fun _ => blank_ends h6 _ (.inl rfl) _)]
    dsimp only
    rw [skip_blank h6, skip_cons (by decide)]
    dsimp only
    rw [if_pos rfl, ih7 rest m (by omega)]
    rfl

/-! ## Whatever is read is a document of the grammar -/

theorem literal_sound {s : Bytes} {v : Json} {rest : Bytes} (h : scanLiteral s = some (v, rest)) (d : Nat) :
    ∃ t, s = t ++ rest ∧ JsonValue d t v := by
  have hp : ∀ (x : Bytes), x.isPrefixOf s = true → s = x ++ s.drop x.length := by
    intro x hx
    obtain ⟨r, rfl⟩ := List.isPrefixOf_iff_prefix.mp hx
    rw [List.drop_left]
  unfold scanLiteral at h
  split at h
  · rename_i h1
    simp only [Option.some.injEq, Prod.mk.injEq] at h
    obtain ⟨rfl, rfl⟩ := h
    exact ⟨_, hp _ h1, .null d⟩
  split at h
  · rename_i h1
    simp only [Option.some.injEq, Prod.mk.injEq] at h
    obtain ⟨rfl, rfl⟩ := h
    exact ⟨_, hp _ h1, .true d⟩
  split at h
  · rename_i h1
    simp only [Option.some.injEq, Prod.mk.injEq] at h
    obtain ⟨rfl, rfl⟩ := h
    exact ⟨_, hp _ h1, .false d⟩
  · simp at h

theorem scan_sound' {n : Nat} {s raw rest : Bytes} (h : scanString n s = some (raw, rest)) :
    s = raw ++ 0x22 :: rest ∧ ∃ text, StringText raw text := by
  obtain ⟨h1, h2⟩ := scan_sound _ _ _ _ h
  exact ⟨h1, (body_iff raw).mp h2⟩

theorem skip_to {s t : Bytes} {b : UInt8} (h : skipJsonSpace s = b :: t) : ∃ w, JsonBlank w ∧ s = w ++ b :: t := by
  obtain ⟨w, hw, he⟩ := skip_split s
  rw [h] at he
  exact ⟨w, hw, he⟩

theorem parse_sound : ∀ n,
    (∀ d s v rest, parseValue n d s = some (v, rest) → ∃ w t, JsonBlank w ∧ s = w ++ t ++ rest ∧ JsonValue d t v) ∧
    (∀ d s vs rest, parseItems n d s = some (vs, rest) → ∃ t, s = t ++ 0x5D :: rest ∧ JsonItems d t vs) ∧
    (∀ d s ms rest, parseMembers n d s = some (ms, rest) → ∃ t, s = t ++ 0x7D :: rest ∧ JsonMembers d t ms) := by
  intro n
  induction n with
  | zero =>
    refine ⟨?_, ?_, ?_⟩
    · intro d s v rest h; simp [parseValue] at h
    · intro d s v rest h; simp [parseItems] at h
    · intro d s v rest h; simp [parseMembers] at h
  | succ n ih =>
    obtain ⟨ihv, ihi, ihm⟩ := ih
    refine ⟨?_, ?_, ?_⟩
    · intro d s v rest h
      rw [parseValue] at h
      split at h
      · simp at h
      rename_i b t hs
      obtain ⟨w, hw, rfl⟩ := skip_to hs
      suffices ∃ x, b :: t = x ++ rest ∧ JsonValue d x v by
        obtain ⟨x, hx, hv⟩ := this
        exact ⟨w, x, hw, by rw [hx, List.append_assoc], hv⟩
      split at h
      · rename_i hb
        subst hb
        simp only [Option.map_eq_some_iff, Prod.mk.injEq, Prod.exists] at h
        obtain ⟨raw, rest', h, rfl, rfl⟩ := h
        obtain ⟨rfl, text, ht⟩ := scan_sound' h
        exact ⟨_, by rw [show ascii "\"" = [0x22] from rfl]; simp, .str d ht⟩
      split at h
      · rename_i hb
        subst hb
        split at h
        · simp at h
        rename_i hd
        obtain ⟨d, rfl⟩ : ∃ e, d = e + 1 := ⟨d - 1, by omega⟩
        split at h
        · rename_i hh
          simp only [Option.some.injEq, Prod.mk.injEq] at h
          obtain ⟨rfl, rfl⟩ := h
          cases hk : skipJsonSpace t with
          | nil => rw [hk] at hh; simp at hh
          | cons c t' =>
            rw [hk] at hh
            simp only [List.head?_cons, Option.some.injEq] at hh
            subst hh
            obtain ⟨w', hw', rfl⟩ := skip_to hk
            exact ⟨_, by rw [show ascii "[" = [0x5B] from rfl, show ascii "]" = [0x5D] from rfl]; simp, .noItems d hw'⟩
        · simp only [Option.map_eq_some_iff, Prod.mk.injEq, Prod.exists] at h
          obtain ⟨vs, rest', h, rfl, rfl⟩ := h
          obtain ⟨x, rfl, hx⟩ := ihi _ _ _ _ h
          exact ⟨_, by rw [show ascii "[" = [0x5B] from rfl, show ascii "]" = [0x5D] from rfl]; simp, .arr hx⟩
      split at h
      · rename_i hb
        subst hb
        split at h
        · simp at h
        rename_i hd
        obtain ⟨d, rfl⟩ : ∃ e, d = e + 1 := ⟨d - 1, by omega⟩
        split at h
        · rename_i hh
          simp only [Option.some.injEq, Prod.mk.injEq] at h
          obtain ⟨rfl, rfl⟩ := h
          cases hk : skipJsonSpace t with
          | nil => rw [hk] at hh; simp at hh
          | cons c t' =>
            rw [hk] at hh
            simp only [List.head?_cons, Option.some.injEq] at hh
            subst hh
            obtain ⟨w', hw', rfl⟩ := skip_to hk
            exact ⟨_, by rw [show ascii "{" = [0x7B] from rfl, show ascii "}" = [0x7D] from rfl]; simp, .noMembers d hw'⟩
        · simp only [Option.map_eq_some_iff, Prod.mk.injEq, Prod.exists] at h
          obtain ⟨vs, rest', h, rfl, rfl⟩ := h
          obtain ⟨x, rfl, hx⟩ := ihm _ _ _ _ h
          exact ⟨_, by rw [show ascii "{" = [0x7B] from rfl, show ascii "}" = [0x7D] from rfl]; simp, .obj hx⟩
      split at h
      · simp only [Option.map_eq_some_iff, Prod.mk.injEq, Prod.exists] at h
        obtain ⟨text, rest', h, rfl, rfl⟩ := h
        obtain ⟨h1, h2⟩ := number_sound h
        exact ⟨text, h1, .num d h2⟩
      · exact literal_sound h d
    · intro d s vs rest h
      rw [parseItems] at h
      split at h
      · simp at h
      rename_i v r hv
      obtain ⟨w1, t1, hw1, rfl, hval⟩ := ihv _ _ _ _ hv
      split at h
      · simp at h
      rename_i b t hs
      obtain ⟨w2, hw2, rfl⟩ := skip_to hs
      split at h
      · rename_i hb
        subst hb
        simp only [Option.map_eq_some_iff, Prod.mk.injEq, Prod.exists] at h
        obtain ⟨vs', rest', h, rfl, rfl⟩ := h
        obtain ⟨x, rfl, hx⟩ := ihi _ _ _ _ h
        exact ⟨_, by rw [show ascii "," = [0x2C] from rfl]; simp, .more hw1 hval hw2 hx⟩
      split at h
      · rename_i hb
        subst hb
        simp only [Option.some.injEq, Prod.mk.injEq] at h
        obtain ⟨rfl, rfl⟩ := h
        exact ⟨_, by simp, .last hw1 hval hw2⟩
      · simp at h
    · intro d s vs rest h
      rw [parseMembers] at h
      split at h
      · simp at h
      rename_i q t hs
      obtain ⟨w1, hw1, rfl⟩ := skip_to hs
      split at h
      · simp at h
      rename_i hq
      simp only [ne_eq, Decidable.not_not] at hq
      subst hq
      split at h
      · simp at h
      rename_i k r hk
      obtain ⟨rfl, text, ht⟩ := scan_sound' hk
      split at h
      · simp at h
      rename_i c t' hs
      obtain ⟨w2, hw2, rfl⟩ := skip_to hs
      split at h
      · simp at h
      rename_i hc
      simp only [ne_eq, Decidable.not_not] at hc
      subst hc
      split at h
      · simp at h
      rename_i v r hv
      obtain ⟨w3, t3, hw3, rfl, hval⟩ := ihv _ _ _ _ hv
      split at h
      · simp at h
      rename_i b t hs
      obtain ⟨w4, hw4, rfl⟩ := skip_to hs
      split at h
      · rename_i hb
        subst hb
        simp only [Option.map_eq_some_iff, Prod.mk.injEq, Prod.exists] at h
        obtain ⟨vs', rest', h, rfl, rfl⟩ := h
        obtain ⟨x, rfl, hx⟩ := ihm _ _ _ _ h
        exact ⟨_, by rw [show ascii "," = [0x2C] from rfl, show ascii ":" = [0x3A] from rfl, show ascii "\"" = [0x22] from rfl]; simp,
          .moreMembers hw1 ht hw2 hw3 hval hw4 hx⟩
      split at h
      · rename_i hb
        subst hb
        simp only [Option.some.injEq, Prod.mk.injEq] at h
        obtain ⟨rfl, rfl⟩ := h
        exact ⟨_, by rw [show ascii ":" = [0x3A] from rfl, show ascii "\"" = [0x22] from rfl]; simp, .lastMember hw1 ht hw2 hw3 hval hw4⟩
      · simp at h

/-- The decoder takes a file apart exactly if it is a JSON document, and then as the grammar says. -/
theorem parse_iff (data : Bytes) (v : Json) : parseJson data = some v ↔ JsonDocument data v := by
  constructor
  · intro h
    unfold parseJson at h
    split at h
    · rename_i v' rest hv
      split at h
      · rename_i hr
        simp only [Option.some.injEq] at h
        subst h
        obtain ⟨w, t, hw, he, hv⟩ := (parse_sound _).1 _ _ _ _ hv
        exact ⟨w, t, rest, he, hw, hv, (skip_nil_iff rest).mp hr⟩
      · simp at h
    · simp at h
  · rintro ⟨w1, s, w2, rfl, h1, h2, h3⟩
    unfold parseJson
    rw [List.append_assoc, parseValue_blank h1, value_complete h2 w2 _ (by simp; omega)]
    · dsimp only
      rw [if_pos ((skip_nil_iff w2).mpr h3)]
    · intro _
      apply ends_of_delim
      intro b hb
      exact .inl ((isJsonSpace_iff b).mpr (h3 b (List.mem_of_head? hb)))

/-- A document is taken apart in one way only. -/
theorem document_unique {data : Bytes} {v v' : Json} (h : JsonDocument data v) (h' : JsonDocument data v') : v = v' := by
  have := ((parse_iff _ _).mpr h).symm.trans ((parse_iff _ _).mpr h')
  simpa using this

end Tacho
