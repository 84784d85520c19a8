import Verif.Spec.FetchWeb
import Verif.Props.FetchPage
import Verif.Props.FetchRun
/-!
# Texts, links, names and answers of the web page (C59, C64)
-/

namespace Tacho
open Spec

/-! ## White space -/

theorem space_iff (c : Char) : isSpaceRune c.toNat = true ↔ WhiteSpace c := by
  unfold isSpaceRune WhiteSpace
  generalize c.toNat = n
  simp only [Bool.or_eq_true, beq_iff_eq, Bool.and_eq_true, decide_eq_true_eq, List.mem_cons, List.not_mem_nil, or_false]
  omega

theorem utf8_pos (c : Char) : 0 < (String.utf8EncodeChar c).length := by
  obtain ⟨b, t, h, _⟩ := utf8EncodeChar_cons c
  rw [h]; simp

theorem lastStart_two (s : Bytes) {a b : UInt8} (ha : isCont a = false) : lastStart (s ++ [a, b]) = s.length := by
  simp [lastStart, runeStart, ha, List.getD_eq_getElem?_getD]

theorem lastStart_three (s : Bytes) {a b c : UInt8} (ha : isCont a = false) (hb : isCont b = true) : lastStart (s ++ [a, b, c]) = s.length := by
  simp [lastStart, runeStart, ha, hb, List.getD_eq_getElem?_getD]

theorem lastStart_four (s : Bytes) {a b c e : UInt8} (ha : isCont a = false) (hb : isCont b = true) (hc : isCont c = true) :
    lastStart (s ++ [a, b, c, e]) = s.length := by
  simp [lastStart, runeStart, ha, hb, hc, List.getD_eq_getElem?_getD]

/-- Decoding from the end finds the scalar value whose encoding ends the slice. -/
theorem decodeLastRune_encode (s : Bytes) (c : Char) :
    decodeLastRune (s ++ String.utf8EncodeChar c) = (c.toNat, (String.utf8EncodeChar c).length) := by
  have hd := decodeRune_encode c []
  rw [List.append_nil] at hd
  suffices h : (∃ b, String.utf8EncodeChar c = [b] ∧ b.toNat < 0x80) ∨
      ((∃ b t, String.utf8EncodeChar c = t ++ [b] ∧ 0x80 ≤ b.toNat) ∧ lastStart (s ++ String.utf8EncodeChar c) = s.length) by
    rcases h with ⟨b, h, hb⟩ | ⟨⟨b, t, h, hb⟩, hs⟩
    · rw [h] at hd ⊢
      rw [decodeLastRune_ascii _ _ hb, ← hd, decodeRune_ascii _ _ hb]
    · unfold decodeLastRune
      have hl : (s ++ String.utf8EncodeChar c).getLast? = some b := by rw [h]; simp
      rw [hl]
      dsimp only
      rw [if_neg (by omega), hs, List.drop_left, hd, if_neg (by simp)]
  clear hd
  have hval : c.val.toNat.isValidChar := c.valid
  unfold Nat.isValidChar at hval
  unfold String.utf8EncodeChar
  generalize c.val.toNat = v at *
  dsimp only
  have cont : ∀ x, isCont (UInt8.ofNat (x % 64 + 0x80)) = true := by
    intro x
    rw [isCont_iff, toNat_ofNat_lt (by omega)]; omega
  have lead : ∀ x, 0xC0 ≤ x → x < 256 → isCont (UInt8.ofNat x) = false := by
    intro x h1 h2
    rw [← Bool.not_eq_true, isCont_iff, toNat_ofNat_lt h2]; omega
  by_cases h1 : v ≤ 0x7f
  · rw [if_pos h1]
    exact .inl ⟨_, rfl, by rw [toNat_ofNat_lt (by omega)]; omega⟩
  rw [if_neg h1]
  right
  by_cases h2 : v ≤ 0x7ff
  · rw [if_pos h2]
    refine ⟨⟨_, [_], rfl, by rw [toNat_ofNat_lt (by omega)]; omega⟩, ?_⟩
    exact lastStart_two s (lead _ (by omega) (by omega))
  rw [if_neg h2]
  by_cases h3 : v ≤ 0xffff
  · rw [if_pos h3]
    refine ⟨⟨_, [_, _], rfl, by rw [toNat_ofNat_lt (by omega)]; omega⟩, ?_⟩
    exact lastStart_three s (lead _ (by omega) (by omega)) (cont _)
  rw [if_neg h3]
  refine ⟨⟨_, [_, _, _], rfl, by rw [toNat_ofNat_lt (by omega)]; omega⟩, ?_⟩
  exact lastStart_four s (lead _ (by omega) (by omega)) (cont _) (cont _)

theorem trimLeft_utf8 (p v : List Char) (n : Nat) (hp : ∀ c ∈ p, WhiteSpace c) (hn : p.length ≤ n)
    (hv : ∀ c t, v = c :: t → ¬ WhiteSpace c) : trimSpaceLeft n (utf8 (p ++ v)) = utf8 v := by
  induction p generalizing n with
  | nil =>
    cases n with
    | zero => rfl
    | succ n =>
      rw [List.nil_append, trimSpaceLeft]
      cases v with
      | nil => simp [utf8]
      | cons c t =>
        have : utf8 (c :: t) = String.utf8EncodeChar c ++ utf8 t := rfl
        rw [this, decodeRune_encode, if_neg]
        rw [space_iff]; simp [hv c t rfl]
  | cons c p ih =>
    cases n with
    | zero => simp at hn
    | succ n =>
      have : utf8 (c :: p ++ v) = String.utf8EncodeChar c ++ utf8 (p ++ v) := rfl
      have hl := utf8_pos c
      rw [this, trimSpaceLeft, decodeRune_encode, if_pos ⟨by rw [List.length_append]; omega, (space_iff c).mpr (hp c (by simp))⟩, List.drop_left]
      exact ih n (fun x hx => hp x (by simp [hx])) (by simpa using hn)

theorem utf8_append' (a b : List Char) : utf8 (a ++ b) = utf8 a ++ utf8 b := by simp [utf8]

theorem utf8_length (a : List Char) : a.length ≤ (utf8 a).length := by
  induction a with
  | nil => simp
  | cons c a ih =>
    have : utf8 (c :: a) = String.utf8EncodeChar c ++ utf8 a := rfl
    have := utf8_pos c
    rw [‹utf8 (c :: a) = _›, List.length_append, List.length_cons]; omega

theorem trimRight_utf8 (p v : List Char) (n : Nat) (hp : ∀ c ∈ p, WhiteSpace c) (hn : p.length ≤ n)
    (hv : ∀ c t, v = t ++ [c] → ¬ WhiteSpace c) : trimSpaceRight n (utf8 (v ++ p.reverse)) = utf8 v := by
  have one : ∀ c, utf8 [c] = String.utf8EncodeChar c := by intro c; simp [utf8]
  induction p generalizing n with
  | nil =>
    simp only [List.reverse_nil, List.append_nil]
    cases n with
    | zero => rfl
    | succ n =>
      rw [trimSpaceRight]
      rcases List.eq_nil_or_concat v with rfl | ⟨t, c, rfl⟩
      · simp [utf8]
      · simp only [List.concat_eq_append] at *
        rw [utf8_append', one, decodeLastRune_encode, if_neg]
        rw [space_iff]; simp [hv c t rfl]
  | cons c p ih =>
    cases n with
    | zero => simp at hn
    | succ n =>
      have hl := utf8_pos c
      rw [List.reverse_cons, ← List.append_assoc, utf8_append', one, trimSpaceRight, decodeLastRune_encode,
        if_pos ⟨by rw [List.length_append]; omega, (space_iff c).mpr (hp c (by simp))⟩, List.length_append, Nat.add_sub_cancel, List.take_left]
      exact ih n (fun x hx => hp x (by simp [hx])) (by simpa using hn)

/-- C59. White space around the text of a cell, of any script, is removed, and nothing else. -/
theorem cell_trimmed (p v q : List Char) (hp : ∀ c ∈ p, WhiteSpace c) (hq : ∀ c ∈ q, WhiteSpace c)
    (h1 : ∀ c t, v = c :: t → ¬ WhiteSpace c) (h2 : ∀ c t, v = t ++ [c] → ¬ WhiteSpace c) :
    trimSpace (utf8 (p ++ v ++ q)) = utf8 v := by
  unfold trimSpace
  dsimp only
  by_cases hv : v = []
  · subst hv
    have e : trimSpaceLeft (utf8 (p ++ [] ++ q)).length (utf8 (p ++ [] ++ q)) = [] := by
      have := trimLeft_utf8 (p ++ q) [] (utf8 (p ++ [] ++ q)).length (by simpa [or_imp, forall_and] using ⟨hp, hq⟩)
        (by rw [List.append_nil]; exact utf8_length _) (by simp)
      simpa [utf8] using this
    rw [e]
    rfl
  · have e : trimSpaceLeft (utf8 (p ++ v ++ q)).length (utf8 (p ++ v ++ q)) = utf8 (v ++ q) := by
      rw [List.append_assoc]
      refine trimLeft_utf8 p (v ++ q) _ hp ?_ ?_
      · refine Nat.le_trans ?_ (utf8_length _); simp
      · intro c t hc
        cases v with
        | nil => exact absurd rfl hv
        | cons x v =>
          rw [List.cons_append, List.cons.injEq] at hc
          exact h1 c v (by rw [hc.1])
    rw [e]
    have := trimRight_utf8 q.reverse v (utf8 (v ++ q)).length (by intro c hc; simp at hc; exact hq c hc)
      (by rw [List.length_reverse]; exact Nat.le_trans (by simp) (utf8_length _)) h2
    rwa [List.reverse_reverse] at this

/-- An ideographic space and a no-break space around a country. -/
example : trimSpace (utf8 ("　".toList ++ "Österreich".toList ++ "  ".toList)) = utf8 "Österreich".toList :=
  cell_trimmed _ _ _ (by decide +kernel) (by decide +kernel) (by intro c t h; injection h with h; subst h; decide +kernel)
    (by intro c t h
        have : c = 'h' := by
          have := congrArg List.getLast? h
          rw [List.getLast?_append, List.getLast?_singleton] at this
          have e : "Österreich".toList.getLast? = some 'h' := by decide +kernel
          rw [e] at this
          simpa using this.symm
        subst this; decide +kernel)

/-! ## Links -/

theorem contains_infix (sub s : Bytes) : containsBytes sub s = true ↔ sub <:+: s := by
  rw [containsBytes_iff]
  constructor
  · rintro ⟨a, b, rfl⟩; exact ⟨a, b, rfl⟩
  · rintro ⟨a, b, rfl⟩; exact ⟨a, b, rfl⟩

theorem linkOfAttrs_spec (all attrs : List (Bytes × Bytes)) :
    linkOfAttrs (all.lookup (ascii "href")) attrs = attrs.findSome? (fileLink all) := by
  induction attrs with
  | nil => rfl
  | cons x rest ih =>
    obtain ⟨k, v⟩ := x
    rw [linkOfAttrs.eq_def, List.findSome?_cons, fileLink]
    simp only [contains_infix]
    split
    · rfl
    · split
      · cases hh : all.lookup (ascii "href") with
        | some h => rfl
        | none => rw [hh] at ih; exact ih
      · exact ih

theorem find_nonempty_append (a b : List Bytes) :
    ((a ++ b).find? (· ≠ [])).getD [] = if (a.find? (· ≠ [])).getD [] ≠ [] then (a.find? (· ≠ [])).getD [] else (b.find? (· ≠ [])).getD [] := by
  rw [List.find?_append]
  cases h : a.find? (· ≠ []) with
  | none => simp
  | some x =>
    have := List.find?_some h
    simp only [ne_eq, decide_not, Bool.not_eq_eq_eq_not, Bool.not_true, decide_eq_false_iff_not] at this
    simp [this]

mutual
/-- C59. The link followed is the first address of a certificate file in the cell, in document order; there is none exactly if
the cell has no such address. -/
theorem download_link_first (n : Html) : downloadLink n = ((linksIn n).find? (· ≠ [])).getD [] := by
  match n with
  | .text _ => rfl
  | .element name attrs cs =>
    rw [downloadLink, linksIn, linkOfAttrs_spec]
    by_cases hn : name = ascii "a"
    · rw [if_pos hn, if_pos hn]
      cases attrs.findSome? (fileLink attrs) with
      | some l =>
        dsimp only
        by_cases hl : l = []
        · subst hl; rfl
        · simp [hl]
      | none => exact download_links_first cs
    · rw [if_neg hn, if_neg hn]
      exact download_links_first cs
  | .other cs => rw [downloadLink, linksIn]; exact download_links_first cs
theorem download_links_first (cs : List Html) : downloadLinks cs = ((linksInAll cs).find? (· ≠ [])).getD [] := by
  match cs with
  | [] => rfl
  | c :: cs =>
    rw [downloadLinks, linksInAll, find_nonempty_append, ← download_link_first c, ← download_links_first cs]
end

/-- Both marks and the title are recognised; another link is passed over. -/
example : downloadLink (.other [
    .element (ascii "a") [(ascii "href", ascii "about.html")] [.text (ascii "About")],
    .element (ascii "p") [] [.element (ascii "a") [(ascii "class", ascii "x"), (ascii "href", ascii "f?BIN_ST=1")] []],
    .element (ascii "a") [(ascii "href", ascii "g?BIN_DT=2")] []]) = ascii "f?BIN_ST=1" ∧
    downloadLink (.element (ascii "a") [(ascii "title", ascii "Download certificate file 3"), (ascii "href", ascii "h")] []) = ascii "h" := by
  constructor <;> decide +kernel

/-! ## Names -/

theorem dropWhile_append_right {α : Type} (p : α → Bool) (a b : List α) (ha : ∀ x ∈ a, p x = true) : (a ++ b).dropWhile p = b.dropWhile p := by
  induction a with
  | nil => rfl
  | cons x a ih =>
    rw [List.cons_append, List.dropWhile_cons_of_pos (ha x (by simp))]
    exact ih fun y hy => ha y (by simp [hy])

/-- The last part of a path. -/
theorem pathBase_last (dir name slashes : Bytes) (hd : dir = [] ∨ ∃ s, dir = s ++ ascii "/") (hn : name ≠ []) (hs : (0x2F : UInt8) ∉ name)
    (hl : ∀ b ∈ slashes, b = 0x2F) : pathBase (dir ++ name ++ slashes) = name := by
  unfold pathBase
  rw [if_neg (by simp [hn])]
  dsimp only
  have hr : ∀ b ∈ slashes.reverse, (b == 0x2F) = true := by
    intro b hb; rw [beq_iff_eq]; exact hl b (by simpa using hb)
  obtain ⟨x, xs, hx⟩ : ∃ x xs, name.reverse = x :: xs := by
    cases h : name.reverse with
    | nil => exact absurd (List.reverse_eq_nil_iff.mp h) hn
    | cons x xs => exact ⟨x, xs, rfl⟩
  have hne : ∀ b ∈ name.reverse, (b != 0x2F) = true := by
    intro b hb
    rw [bne_iff_ne]
    rintro rfl
    exact hs (by simpa using hb)
  have e : (dir ++ name ++ slashes).reverse.dropWhile (· == 0x2F) = name.reverse ++ dir.reverse := by
    rw [List.reverse_append, dropWhile_append_right _ _ _ hr, List.reverse_append, hx, List.cons_append, List.dropWhile_cons_of_neg]
    have := hne x (by rw [hx]; simp)
    simpa using this
  rw [e, List.reverse_reverse, List.takeWhile_append_of_pos hne]
  have : dir.reverse.takeWhile (· != 0x2F) = [] := by
    rcases hd with rfl | ⟨s, rfl⟩
    · rfl
    · simp [ascii]
  rw [this, List.append_nil, List.reverse_reverse, if_neg hn]

/-- A path of slashes only. -/
theorem pathBase_root (p : Bytes) (hp : p ≠ []) (hl : ∀ b ∈ p, b = 0x2F) : pathBase p = ascii "/" := by
  unfold pathBase
  rw [if_neg hp]
  dsimp only
  have : p.reverse.dropWhile (· == 0x2F) = [] := by
    have := dropWhile_append_right (· == 0x2F) p.reverse [] (by intro b hb; rw [beq_iff_eq]; exact hl b (by simpa using hb))
    simpa using this
  rw [this]
  rfl

theorem split_last (p : UInt8 → Bool) (l : Bytes) :
    ∃ a b, l = a ++ b ∧ (∀ x ∈ b, p x = true) ∧ (a = [] ∨ ∃ a' x, a = a' ++ [x] ∧ p x = false) := by
  induction l with
  | nil => exact ⟨[], [], rfl, by simp, .inl rfl⟩
  | cons y l ih =>
    obtain ⟨a, b, rfl, hb, rfl | ⟨a', x, rfl, hx⟩⟩ := ih
    · cases hy : p y with
      | true => exact ⟨[], y :: b, rfl, by simpa [hy] using hb, .inl rfl⟩
      | false => exact ⟨[y], b, rfl, hb, .inr ⟨[], y, rfl, hy⟩⟩
    · exact ⟨y :: (a' ++ [x]), b, rfl, hb, .inr ⟨y :: a', x, rfl, hx⟩⟩

/-- Every path is of one of these forms. -/
theorem path_forms (p : Bytes) : p = [] ∨ (p ≠ [] ∧ ∀ b ∈ p, b = 0x2F) ∨
    ∃ dir name slashes, p = dir ++ name ++ slashes ∧ (dir = [] ∨ ∃ s, dir = s ++ ascii "/") ∧ name ≠ [] ∧ (0x2F : UInt8) ∉ name ∧
      ∀ b ∈ slashes, b = 0x2F := by
  obtain ⟨q, slashes, rfl, hs, rfl | ⟨q', x, rfl, hx⟩⟩ := split_last (· == 0x2F) p
  · by_cases h : slashes = []
    · exact .inl (by rw [h]; rfl)
    · exact .inr (.inl ⟨by simpa using h, by simpa using hs⟩)
  · right; right
    obtain ⟨dir, name, he, hn, hd⟩ := split_last (· != 0x2F) (q' ++ [x])
    refine ⟨dir, name, slashes, by rw [he], ?_, ?_, ?_, by simpa using hs⟩
    · rcases hd with hd | ⟨s, y, hd, hy⟩
      · exact .inl hd
      · have hy : y = 0x2F := by simpa using hy
        exact .inr ⟨s, by rw [hd, hy]; rfl⟩
    · rintro rfl
      rw [List.append_nil] at he
      rcases hd with rfl | ⟨s, y, rfl, hy⟩
      · simp at he
      · have := (List.append_inj' he rfl).2
        simp only [List.cons.injEq, and_true] at this
        subst this
        simp only [beq_eq_false_iff_ne, ne_eq] at hx
        exact hx (by simpa using hy)
    · intro hm
      simpa using hn _ hm

/-- C59. The name of a certificate whose address has no "=": the last part of the path. -/
theorem certificate_name_path (url : Bytes) (h : (0x3D : UInt8) ∉ url) :
    (url = [] ∧ certificateName url = ascii ".") ∨ (url ≠ [] ∧ (∀ b ∈ url, b = 0x2F) ∧ certificateName url = ascii "/") ∨
    ∃ dir slashes, url = dir ++ certificateName url ++ slashes ∧ (dir = [] ∨ ∃ s, dir = s ++ ascii "/") ∧ certificateName url ≠ [] ∧
      (0x2F : UInt8) ∉ certificateName url ∧ ∀ b ∈ slashes, b = 0x2F := by
  have e : certificateName url = pathBase url := by
    unfold certificateName
    rw [splitOn_none h]
    rfl
  rw [e]
  rcases path_forms url with rfl | ⟨h1, h2⟩ | ⟨dir, name, slashes, rfl, h1, h2, h3, h4⟩
  · exact .inl ⟨rfl, rfl⟩
  · exact .inr (.inl ⟨h1, h2, pathBase_root _ h1 h2⟩)
  · refine .inr (.inr ⟨dir, slashes, ?_⟩)
    rw [pathBase_last dir name slashes h1 h2 h3 h4]
    exact ⟨rfl, h1, h2, h3, h4⟩

theorem splitOn_before_last (sep : UInt8) (u v : Bytes) (h : sep ∉ v) : splitOn sep (u ++ sep :: v) = splitOn sep u ++ [v] := by
  induction u with
  | nil => simp [splitOn, splitOn_none h]
  | cons b u ih =>
    rw [List.cons_append, splitOn, splitOn, ih]
    split
    · rfl
    · cases hu : splitOn sep u with
      | nil => exact absurd hu (splitOn_ne_nil sep u)
      | cons p ps => rfl

theorem trimPrefix_without (p s : Bytes) : Without p s (trimPrefix p s) := by
  unfold trimPrefix
  split
  · rename_i h
    obtain ⟨t, rfl⟩ := List.isPrefixOf_iff_prefix.mp h
    exact .inl (by rw [List.drop_left])
  · rename_i h
    exact .inr ⟨fun hp => h (List.isPrefixOf_iff_prefix.mpr hp), rfl⟩

/-- C59. The name of a certificate whose address has an "=": what follows the last one, without the name of the directory on
the server. -/
theorem certificate_name_query (u v : Bytes) (h : (0x3D : UInt8) ∉ v) :
    ∃ w, Without (ascii "iot_doc/") v w ∧ Without (ascii "erca_of_doc/") w (certificateName (u ++ ascii "=" ++ v)) := by
  refine ⟨trimPrefix (ascii "iot_doc/") v, trimPrefix_without _ _, ?_⟩
  have e : certificateName (u ++ ascii "=" ++ v) = trimPrefix (ascii "erca_of_doc/") (trimPrefix (ascii "iot_doc/") v) := by
    have hs : splitOn 0x3D (u ++ ascii "=" ++ v) = splitOn 0x3D u ++ [v] := by
      have := splitOn_before_last 0x3D u v h
      simpa [ascii] using this
    have hn := splitOn_ne_nil 0x3D u
    have hl : 0 < (splitOn 0x3D u).length := List.length_pos_iff.mpr hn
    unfold certificateName
    rw [hs]
    dsimp only
    rw [if_neg (by simp; omega)]
    simp [List.getLastD_eq_getLast?]
  rw [e]
  exact trimPrefix_without _ _

/-- Both forms of address. -/
example : certificateName (ascii "/doc/files/cert.bin/") = ascii "cert.bin" ∧ certificateName (ascii "//") = ascii "/" ∧
    certificateName (ascii "get?a=b&c=iot_doc/FD_0001") = ascii "FD_0001" := by
  refine ⟨by decide +kernel, by decide +kernel, by decide +kernel⟩

/-! ## The root entry -/

/-- C64. The root entry: the first eight bytes of the root file as a number are both references, or zero if the file is shorter. -/
theorem root_entry_is (d : Bytes) :
    (∀ r t, d = r ++ t → r.length = 8 → (rootEntry d).car = decimal (beNat r) ∧ (rootEntry d).chr = decimal (beNat r)) ∧
    (d.length < 8 → (rootEntry d).car = decimal 0 ∧ (rootEntry d).chr = decimal 0) ∧
    (rootEntry d).url = ascii "https://dtc.jrc.ec.europa.eu/erca_of_doc/EC_PK.zip" ∧ (rootEntry d).path = ascii "root/EC_PK.bin" := by
  refine ⟨?_, ?_, rfl, rfl⟩
  · rintro r t rfl hr
    unfold rootEntry
    rw [if_pos (by simp; omega), ← hr, List.take_left]
    exact ⟨rfl, rfl⟩
  · intro h
    unfold rootEntry
    rw [if_neg (by omega)]
    exact ⟨rfl, rfl⟩

example : (rootEntry [0, 0, 0, 0, 0, 0, 1, 2]).chr = decimal 258 := ((root_entry_is _).1 [0, 0, 0, 0, 0, 0, 1, 2] [] rfl rfl).2

/-! ## Answers -/

/-- C64. The root certificate is the first member of that name in the archive that the server delivered with status 200. -/
theorem root_download_iff (env : FetchEnv) (c : Bytes) : downloadERCA env = .ok c ↔
    ∃ zip before after, Answered env.rootZip zip ∧ env.unzip zip = .ok (before ++ (ascii "EC_PK.bin", .ok c) :: after) ∧
      ∀ x ∈ before, x.1 ≠ ascii "EC_PK.bin" := by
  have hlook : ∀ (l : List (Bytes × Res Bytes)) r, l.lookup (ascii "EC_PK.bin") = some r ↔
      ∃ b a, l = b ++ (ascii "EC_PK.bin", r) :: a ∧ ∀ x ∈ b, x.1 ≠ ascii "EC_PK.bin" := by
    intro l r
    rw [List.lookup_eq_some_iff]
    constructor
    · rintro ⟨b, a, rfl, h⟩
      exact ⟨b, a, rfl, fun x hx he => by have := h x hx; simp [he] at this⟩
    · rintro ⟨b, a, rfl, h⟩
      exact ⟨b, a, rfl, fun x hx => by simpa using Ne.symm (h x hx)⟩
  unfold downloadERCA Answered
  simp only [bind_eq_ok, guard_eq_ok]
  constructor
  · rintro ⟨resp, h1, h2, zip, h3, members, h4, h5⟩
    cases hm : members.lookup (ascii "EC_PK.bin") with
    | none => rw [hm] at h5; cases h5
    | some r =>
      rw [hm] at h5
      dsimp only at h5
      subst h5
      obtain ⟨b, a, rfl, hb⟩ := (hlook _ _).mp hm
      exact ⟨zip, b, a, ⟨resp, h1, by omega, h3⟩, h4, hb⟩
  · rintro ⟨zip, b, a, ⟨resp, h1, h2, h3⟩, h4, hb⟩
    refine ⟨resp, h1, by omega, zip, h3, _, h4, ?_⟩
    rw [(hlook _ _).mpr ⟨b, a, rfl, hb⟩]

/-- C64. A certificate list is what the server delivered with status 200, read as a page. -/
theorem list_download_iff (env : FetchEnv) (r : Res Response) (doc : Html) : fetchList env r = .ok doc ↔
    ∃ page, Answered r page ∧ env.parseHtml page = .ok doc := by
  unfold fetchList Answered
  simp only [bind_eq_ok, guard_eq_ok]
  constructor
  · rintro ⟨resp, h1, h2, page, h3, h4⟩
    exact ⟨page, ⟨resp, h1, by omega, h3⟩, h4⟩
  · rintro ⟨page, ⟨resp, h1, h2, h3⟩, h4⟩
    exact ⟨resp, h1, by omega, page, h3, h4⟩

/-- C64. A run that finishes got a successful answer to each of its three requests. -/
theorem finished_run_answered (env : FetchEnv) (d : Disk) (h : (fetchMain env d).result = .ok ()) :
    (∃ c, Answered env.rootZip c) ∧ (∃ c, Answered env.list1 c) ∧ ∃ c, Answered env.list2 c := by
  unfold fetchMain at h
  obtain ⟨_, _, h, _⟩ := bind_result h
  obtain ⟨root, hroot, h, _⟩ := bind_result h
  obtain ⟨_, _, h, _⟩ := bind_result h
  obtain ⟨es1, hes1, h, _⟩ := bind_result h
  obtain ⟨es2, hes2, h, _⟩ := bind_result h
  obtain ⟨hr, _⟩ := root_ok hroot
  obtain ⟨⟨doc1, hd1⟩, _⟩ := index_ok hes1
  obtain ⟨⟨doc2, hd2⟩, _⟩ := index_ok hes2
  obtain ⟨z, _, _, hz, _⟩ := (root_download_iff env root).mp hr
  obtain ⟨p1, hp1, _⟩ := (list_download_iff env _ _).mp hd1
  obtain ⟨p2, hp2, _⟩ := (list_download_iff env _ _).mp hd2
  exact ⟨⟨z, hz⟩, ⟨p1, hp1⟩, ⟨p2, hp2⟩⟩

end Tacho
