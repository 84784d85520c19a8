import Verif.Props.FetchPage
/-!
# What becomes of a downloaded certificate (C57, C59) and how the client uses the index (C60)
-/

namespace Tacho
open Spec

/-! ## Downloads -/

/-- Which responses are taken for certificate data. -/
theorem download_ok_iff (get : Res Response) (max : Nat) (data : Bytes) :
    downloadCertificate get max = .ok data ↔ ∃ resp, get = .ok resp ∧ resp.status = 200 ∧ resp.body = .ok data ∧
      data.head? ≠ some 0x3C ∧ data.length ≤ max := by
  unfold downloadCertificate
  simp only [bind_eq_ok, guard_eq_ok, Res.pure_eq, Res.ok.injEq, Classical.not_not, Nat.not_lt]
  constructor
  · rintro ⟨resp, h1, h2, _, h3, h4, h5, rfl⟩
    exact ⟨resp, h1, h2, h3, h4, h5⟩
  · rintro ⟨resp, h1, h2, h3, h4, h5⟩
    exact ⟨resp, h1, h2, data, h3, h4, h5, rfl⟩

section
variable [Crypto]

/-- C57. Which Gen1 certificates get an entry: those delivered with status 200, of 194 bytes, and not
starting with the byte of "<" (finding: a signature may start with it). Whether the signature can be
checked does not matter. -/
theorem gen1_indexed_iff (n e : Nat) (m : CertMeta) (get : Res Response) :
    (∃ p, gen1Product n e m get = some p) ↔
      ∃ resp data, get = .ok resp ∧ resp.status = 200 ∧ resp.body = .ok data ∧ data.length = 194 ∧
        data.head? ≠ some 0x3C := by
  unfold gen1Product
  constructor
  · rintro ⟨p, h⟩
    split at h
    · rename_i data hd
      obtain ⟨resp, h1, h2, h3, h4, _⟩ := (download_ok_iff _ _ _).mp hd
      split at h
      · rename_i car hc
        obtain ⟨b, r, rfl, hb, hr, _⟩ := (fetch_gen1_car_iff _ _).mp hc
        exact ⟨resp, _, h1, h2, h3, by simp; omega, h4⟩
      · simp at h
    · simp at h
  · rintro ⟨resp, data, h1, h2, h3, h4, h5⟩
    rw [(download_ok_iff get 194 data).mpr ⟨resp, h1, h2, h3, h5, by omega⟩]
    have : fetchGen1CAR data = .ok (beNat (sl data 186 194)) := by
      unfold fetchGen1CAR
      rw [if_neg (by omega), sl?_ok (by omega) (by omega)]
      rfl
    dsimp only
    rw [this]
    exact ⟨_, rfl⟩

/-- C57. What the entry of a Gen1 certificate says. The references are the certificate's; without a
valid signature under the root's key the holder is left out and the date is that of the page. -/
theorem gen1_product_spec (n e : Nat) (m : CertMeta) (get : Res Response) (p : Product)
    (h : gen1Product n e m get = some p) :
    (∃ body car, p.content = body ++ car ∧ body.length = 186 ∧ car.length = 8 ∧ IsDecimal p.entry.car (beNat car)) ∧
    p.entry.country = m.country ∧ p.entry.url = m.url ∧
    p.entry.path = joinPath (ascii "g1") (certFilename p.entry.chr m.name) ∧
    ((∃ (content car : Bytes) (f : Content), Iso9796 n e p.content content car ∧ f.Layout content ∧ IsDecimal p.entry.chr (beNat f.chr) ∧
        (beNat f.eov ≠ 0 → UnixText p.entry.expiration (beNat f.eov)) ∧
        (beNat f.eov = 0 → p.entry.expiration = ascii "0001-01-01T00:00:00Z")) ∨
      (¬ ∃ content car, Iso9796 n e p.content content car) ∧ p.entry.chr = [] ∧
        p.entry.expiration = m.expiration) := by
  unfold gen1Product at h
  split at h
  case h_2 => simp at h
  rename_i data hd
  split at h
  case h_2 => simp at h
  rename_i car hc
  obtain ⟨b, r, hdat, hb, hr, hcar⟩ := (fetch_gen1_car_iff _ _).mp hc
  have first : ∃ body car', data = body ++ car' ∧ body.length = 186 ∧ car'.length = 8 ∧
      IsDecimal (decimal car) (beNat car') := ⟨b, r, hdat, hb, hr, by rw [hcar]; exact decimal_spec _⟩
  cases hrec : recoverGen1 data n e with
  | ok content =>
    obtain ⟨car', hiso⟩ := (fetch_recover_iff _ _ _ _).mp hrec
    have hl : content.length = 164 := by
      obtain ⟨_, _, _, _, _, h3, _, rfl, h4, _⟩ := hiso
      simp; omega
    obtain ⟨eov, g1, g2, g3⟩ := fetch_content_read _ content (content_layout hl)
    rw [hrec] at h
    dsimp only at h g1 g2 g3
    rw [g1, Option.some.injEq] at h
    subst h
    have hne : eov ≠ [] := by
      rintro rfl
      by_cases hz : beNat (sl content 16 20) = 0
      · exact absurd (g3 hz) (by decide)
      · obtain ⟨y, mo, d, hh, i, x, ht, _⟩ := g2 hz
        exact rfc3339_ne_nil _ ((timeText_iff _ _ _ _ _ _ _).mp ht).1.symm
    dsimp only
    rw [if_pos hne]
    exact ⟨first, rfl, rfl, rfl, .inl ⟨content, car', _, hiso, content_layout hl, decimal_spec _, g2, g3⟩⟩
  | err s =>
    rw [hrec, Option.some.injEq] at h
    subst h
    refine ⟨first, rfl, rfl, rfl, .inr ⟨?_, rfl, rfl⟩⟩
    rintro ⟨c, r, hi⟩
    rw [(fetch_recover_iff _ _ _ _).mpr ⟨r, hi⟩] at hrec
    simp at hrec
  | panic => exact absurd hrec (fetch_no_panic data n e).2.2.1

/-- The file has the bytes delivered. -/
theorem gen1_content (n e : Nat) (m : CertMeta) (data : Bytes) (p : Product)
    (hp : gen1Product n e m (.ok ⟨200, .ok data⟩) = some p) : p.content = data := by
  unfold gen1Product at hp
  split at hp
  case h_2 => simp at hp
  rename_i d hd
  obtain ⟨resp, e1, _, e3, _⟩ := (download_ok_iff _ _ _).mp hd
  rw [Res.ok.injEq] at e1
  subst e1
  rw [Res.ok.injEq] at e3
  subst e3
  split at hp
  case h_2 => simp at hp
  rw [Option.some.injEq] at hp
  rw [← hp]

end

/-- C57. Which Gen2 certificates get an entry. -/
theorem gen2_indexed_iff (m : CertMeta) (get : Res Response) :
    (∃ p, gen2Product m get = some p) ↔
      ∃ resp data car, get = .ok resp ∧ resp.status = 200 ∧ resp.body = .ok data ∧ 204 ≤ data.length ∧
        data.length ≤ 341 ∧ data.head? ≠ some 0x3C ∧ Gen2Authority data car := by
  unfold gen2Product
  constructor
  · rintro ⟨p, h⟩
    split at h
    · rename_i data hd
      obtain ⟨resp, h1, h2, h3, h4, _⟩ := (download_ok_iff _ _ _).mp hd
      split at h
      · simp at h
      split at h
      · rename_i car hc
        obtain ⟨car, hc, _⟩ := (fetch_gen2_car_iff _ _).mp hc
        exact ⟨resp, data, car, h1, h2, h3, by omega, by omega, h4, hc⟩
      · simp at h
    · simp at h
  · rintro ⟨resp, data, car, h1, h2, h3, h4, h5, h6, h7⟩
    rw [(download_ok_iff get 341 data).mpr ⟨resp, h1, h2, h3, h6, h5⟩]
    dsimp only
    rw [if_neg (by omega), (fetch_gen2_car_iff data _).mpr ⟨car, h7, rfl⟩]
    exact ⟨_, rfl⟩

/-- C57. What the entry of a Gen2 certificate says. -/
theorem gen2_product_spec (m : CertMeta) (get : Res Response) (p : Product) (h : gen2Product m get = some p) :
    (∃ car, Gen2Authority p.content car ∧ IsDecimal p.entry.car (beNat car)) ∧
    p.entry.country = m.country ∧ p.entry.url = m.url ∧ p.entry.expiration = m.expiration ∧
    p.entry.path = joinPath (ascii "g2") (certFilename p.entry.chr m.name) ∧
    ((∃ chr, Gen2Holder p.content chr ∧ IsDecimal p.entry.chr (beNat chr)) ∨
      (¬ ∃ chr, Gen2Holder p.content chr) ∧ p.entry.chr = []) := by
  unfold gen2Product at h
  split at h
  case h_2 => simp at h
  rename_i data hd
  split at h
  · simp at h
  split at h
  case h_2 => simp at h
  rename_i k hc
  obtain ⟨car, hcar, hk⟩ := (fetch_gen2_car_iff _ _).mp hc
  rw [Option.some.injEq] at h
  subst h
  refine ⟨⟨car, hcar, by rw [hk]; exact decimal_spec _⟩, rfl, rfl, rfl, rfl, ?_⟩
  dsimp only
  cases hr : fetchGen2CHR data with
  | ok k' =>
    obtain ⟨chr, h1, h2⟩ := (fetch_gen2_chr_iff _ _).mp hr
    exact .inl ⟨chr, h1, by rw [h2]; exact decimal_spec _⟩
  | err s =>
    refine .inr ⟨?_, rfl⟩
    rintro ⟨chr, h1⟩
    rw [(fetch_gen2_chr_iff _ _).mpr ⟨chr, h1, rfl⟩] at hr
    simp at hr
  | panic =>
    refine .inr ⟨?_, rfl⟩
    rintro ⟨chr, h1⟩
    rw [(fetch_gen2_chr_iff _ _).mpr ⟨chr, h1, rfl⟩] at hr
    simp at hr

/-- C58. Every date in the index is empty or a time in the notation of RFC 3339, as `index_ordered` and
`index_reproducible` ask for. -/
theorem expiration_form [Crypto] [LowerCase] (base : Bytes) (doc : Html) (m : CertMeta) (hm : m ∈ tableRows base doc)
    (get : Res Response) (n e : Nat) (p : Product)
    (h : gen1Product n e m get = some p ∨ gen2Product m get = some p) : DateOrNone p.entry.expiration := by
  obtain ⟨_, row, _, hrow⟩ := (table_rows_iff base doc m).mp hm
  have hpage := row_expiration_form base row m hrow
  rcases h with h | h
  · obtain ⟨_, _, _, _, ⟨_, _, f, _, _, _, g2, g3⟩ | ⟨_, _, he⟩⟩ := gen1_product_spec n e m get p h
    · by_cases hz : beNat f.eov = 0
      · rw [g3 hz]
        exact .inr ⟨1, 1, 1, 0, 0, 0, (timeText_iff _ _ _ _ _ _ _).mpr
          ⟨by decide +kernel, by decide, (validDate_iff _ _ _).mpr (by decide), by decide, by decide, by decide⟩⟩
      · obtain ⟨y, mo, d, hh, i, x, ht, _⟩ := g2 hz
        exact .inr ⟨y, mo, d, hh, i, x, ht⟩
    · rw [he]; exact hpage
  · obtain ⟨_, _, _, he, _⟩ := gen2_product_spec m get p h
    rw [he]; exact hpage

/-! ## Where the file goes -/

theorem joinPath_direct (dir file : Bytes) (h1 : 0x2F ∉ dir) (h2 : dir ≠ []) (h3 : dir ≠ [0x2E])
    (h4 : dir ≠ [0x2E, 0x2E]) (g1 : 0x2F ∉ file) (g2 : file ≠ []) (g3 : file ≠ [0x2E]) (g4 : file ≠ [0x2E, 0x2E]) :
    joinPath dir file = dir ++ [0x2F] ++ file := by
  unfold joinPath
  rw [show dir ++ [0x2F] ++ file = dir ++ 0x2F :: file from by simp, splitOn_cons h1, splitOn_none g1]
  rw [cleanParts, if_neg (by simp [h2, h3]), if_neg h4, cleanParts, if_neg (by simp [g2, g3]), if_neg g4, cleanParts]
  simp

theorem certFilename_ok (chr name : Bytes) (h : 0x2F ∉ chr) (h' : chr = [] → 0x2F ∉ name) :
    0x2F ∉ certFilename chr name ∧ certFilename chr name ≠ [] ∧ certFilename chr name ≠ [0x2E] ∧
    certFilename chr name ≠ [0x2E, 0x2E] := by
  have hb : ascii ".bin" = [0x2E, 0x62, 0x69, 0x6E] := by decide
  have hl : 4 ≤ (certFilename chr name).length := by
    unfold certFilename; rw [hb]; simp
  refine ⟨?_, ?_, ?_, ?_⟩
  · unfold certFilename
    rw [List.mem_append, hb]
    rintro (h1 | h1)
    · split at h1
      · exact h h1
      · rename_i hc; exact h' (by simpa using hc) h1
    · revert h1; decide
  all_goals
    intro h0
    rw [h0] at hl
    simp at hl

theorem decimal_no_slash {s : Bytes} {n : Nat} (h : IsDecimal s n) : (0x2F : UInt8) ∉ s := by
  intro hm
  have := h.2.1 _ hm
  simp at this

theorem directlyIn_join (dir chr name : Bytes) (h1 : 0x2F ∉ dir) (h2 : dir ≠ []) (h3 : dir ≠ [0x2E])
    (h4 : dir ≠ [0x2E, 0x2E]) (h : 0x2F ∉ chr) (h' : chr = [] → 0x2F ∉ name) :
    DirectlyIn dir (joinPath dir (certFilename chr name)) := by
  obtain ⟨g1, g2, g3, g4⟩ := certFilename_ok chr name h h'
  exact ⟨_, joinPath_direct _ _ h1 h2 h3 h4 g1 g2 g3 g4, g2, g3, g4, g1⟩

/-- C59. A certificate whose holder was read, or whose name from the page has no "/", is written directly
into the directory of its generation. -/
theorem files_confined [Crypto] (n e : Nat) (m : CertMeta) (get : Res Response) (p : Product) :
    (gen1Product n e m get = some p → p.entry.chr ≠ [] ∨ 0x2F ∉ m.name → DirectlyIn (ascii "g1") p.entry.path) ∧
    (gen2Product m get = some p → p.entry.chr ≠ [] ∨ 0x2F ∉ m.name → DirectlyIn (ascii "g2") p.entry.path) := by
  have fin : ∀ (dir chr : Bytes), 0x2F ∉ dir → dir ≠ [] → dir ≠ [0x2E] → dir ≠ [0x2E, 0x2E] → 0x2F ∉ chr →
      (chr ≠ [] ∨ 0x2F ∉ m.name) → DirectlyIn dir (joinPath dir (certFilename chr m.name)) := by
    intro dir chr h1 h2 h3 h4 h5 h6
    apply directlyIn_join _ _ _ h1 h2 h3 h4 h5
    intro hz
    rcases h6 with h6 | h6
    · exact absurd hz h6
    · exact h6
  constructor
  · intro h h6
    obtain ⟨_, _, _, hp, hc⟩ := gen1_product_spec n e m get p h
    rw [hp]
    refine fin _ _ (by decide) (by decide) (by decide) (by decide) ?_ h6
    rcases hc with ⟨_, _, _, _, _, hd, _⟩ | ⟨_, hd, _⟩
    · exact decimal_no_slash hd
    · rw [hd]; simp
  · intro h h6
    obtain ⟨_, _, _, _, hp, hc⟩ := gen2_product_spec m get p h
    rw [hp]
    refine fin _ _ (by decide) (by decide) (by decide) (by decide) ?_ h6
    rcases hc with ⟨_, _, hd⟩ | ⟨_, hd⟩
    · exact decimal_no_slash hd
    · rw [hd]; simp

/-- Finding. Otherwise the page decides where the file goes: this link makes the tool write above the output
directory, whatever the 194 bytes delivered are, as long as they are not signed with the root's key. -/
theorem file_escapes [Crypto] [LowerCase] (base data : Bytes) (n e : Nat) (hl : data.length = 194)
    (hh : data.head? ≠ some 0x3C) (hs : ¬ ∃ content car, Iso9796 n e data content car) :
    ∃ row m p, tableRow base row = some m ∧ gen1Product n e m (.ok ⟨200, .ok data⟩) = some p ∧
      p.entry.path = ascii "../x.bin" ∧ p.content = data := by
  have hrow : ∃ m, tableRow base [.element (ascii "td") [] [.text (ascii "Atlantis")], .element (ascii "td") [] [],
      .element (ascii "td") [] [.element (ascii "a") [(ascii "href", ascii "get.php?BIN_DT=../../x")] []]] = some m ∧
      m.name = ascii "../../x" := by
    refine ⟨_, rfl, ?_⟩
    dsimp only
    decide +kernel
  obtain ⟨m, h1, h2⟩ := hrow
  obtain ⟨p, hp⟩ := (gen1_indexed_iff n e m (.ok ⟨200, .ok data⟩)).mpr ⟨_, data, rfl, rfl, rfl, hl, hh⟩
  have hcont := gen1_content _ _ _ _ _ hp
  refine ⟨_, m, p, h1, hp, ?_, hcont⟩
  obtain ⟨_, _, _, hpath, hc⟩ := gen1_product_spec n e m _ p hp
  rw [hpath, h2]
  rcases hc with ⟨c, r, _, hi, _⟩ | ⟨_, hd, _⟩
  · rw [hcont] at hi; exact absurd ⟨c, r, hi⟩ hs
  · rw [hd]; decide +kernel

/-- 194 zero bytes are such a file, for every key with a positive exponent. -/
example [Crypto] (n e : Nat) (he : 0 < e) : (zeros 194).length = 194 ∧ (zeros 194).head? ≠ some 0x3C ∧
    ¬ ∃ content car, Iso9796 n e (zeros 194) content car := by
  refine ⟨by decide +kernel, by decide +kernel, ?_⟩
  rintro ⟨content, car, sig, cr, cn, h1, h2, _, _, rfl, _, h⟩
  have hz : beNat sig = 0 := by
    have hs : sig = zeros 128 := by
      have := congrArg (List.take 128) h1
      rw [List.append_assoc, ← h2, List.take_left, h2] at this
      rw [← this]; decide +kernel
    rw [hs]; decide +kernel
  rw [hz, Nat.zero_pow he, Nat.zero_mod] at h
  rw [beNat_append, show beNat [0xBC] = 188 from rfl] at h
  omega

/-! ## C60: the client gets the certificate back -/

/-- The entry as the library reads it from the index file. -/
def IndexEntry.toEntry (e : IndexEntry) : Entry := ⟨e.chr, e.url⟩

/-- C60, Gen1. When the server still delivers at the address of an entry what the tool downloaded, a client
with the index returns that certificate for the entry's holder reference (if the entry is the first
with it), reports the entry's authority reference, and, if that is the root's key identifier,
verifies it and reports the requested holder. -/
theorem index_serves_gen1 [Crypto] {σ : Type} (http : Http σ) (rootFile : Bytes) (root : RootCert) (n e : Nat)
    (m : CertMeta) (get : Res Response) (p : Product) (before after : List IndexEntry) (s s' : σ)
    (hroot : unmarshalRoot rootFile = .ok root) (hkey : fetchERCA rootFile = .ok (n, e))
    (hp : gen1Product n e m get = some p) (hchr : p.entry.chr ≠ []) (hfirst : ∀ x ∈ before, x.chr ≠ p.entry.chr)
    (hv : http.validUrl p.entry.url = true) (hget : http.get p.entry.url s = (.ok ⟨200, .ok p.content⟩, s')) :
    ∃ c, clientGet http (.ok ((before ++ p.entry :: after).map IndexEntry.toEntry)) unmarshalRsa p.entry.chr s =
        (.ok (some c), s') ∧ c.raw = p.content ∧ c.car = p.entry.car ∧
      (root.keyId = p.entry.car → ∃ c', verifyRsaWithRoot (some c) (some root) = (some c', .ok ()) ∧
        c'.chr = p.entry.chr) := by
  obtain ⟨⟨body, car, hcont, hb, hcar, hdec⟩, _, _, _, hcase⟩ := gen1_product_spec n e m get p hp
  obtain ⟨c, hc⟩ := (rsa_parse_total p.content).1 (by rw [hcont]; simp; omega)
  obtain ⟨b', r', hd, hb', hr', hcd, hceq⟩ := (rsa_parse_iff _ _).mp hc
  have hrr : r' = car := by
    rw [hcont] at hd
    exact ((append_eq_iff (by omega)).mp hd).2.symm
  have hccar : c.car = p.entry.car := by
    rw [isDecimal_iff.mp hcd, isDecimal_iff.mp hdec, hrr]
  have hraw : c.raw = p.content := by rw [hceq]
  refine ⟨c, ?_, hraw, hccar, ?_⟩
  · rw [client_ok_iff]
    refine ⟨before.map IndexEntry.toEntry, p.entry.toEntry, after.map IndexEntry.toEntry, p.content, c, ⟨200, .ok p.content⟩,
      by simp, ?_, rfl, hv, hget, rfl, rfl, hc, rfl⟩
    intro x hx
    obtain ⟨y, hy, rfl⟩ := List.mem_map.mp hx
    exact hfirst y hy
  · intro hk
    obtain ⟨content, car', f, hiso, hlay, hfd, _⟩ | ⟨_, h0, _⟩ := hcase
    · obtain ⟨root', hr0, hn, he, hn0, he0⟩ := (fetch_root_iff _ _ _).mp hkey
      rw [hroot, Res.ok.injEq] at hr0
      subst hr0
      have hm0 : root.modulus ≠ [] := by rintro h; rw [h] at hn; exact hn0 hn.symm
      have hx0 : root.exponent ≠ [] := by rintro h; rw [h] at he; exact he0 he.symm
      have hcc : car' = car := by
        obtain ⟨sig, cr, cn, g1, g2, g3, g4, _⟩ := hiso
        rw [hcont] at g1
        exact ((append_eq_iff (by simp; omega)).mp g1).2.symm
      refine ⟨_, (rsa_verify_root_iff c _ root).mpr ⟨hm0, hx0, content, car', f, ?_, ?_, hlay, rfl⟩, ?_⟩
      · rw [hn, he, hraw]; exact hiso
      · rw [hk, hcc]; exact hdec
      · exact (isDecimal_iff.mp hfd).symm
    · exact absurd h0 hchr

/-- C60, Gen2. Likewise, if the library reads the certificate at all: then it reports the references of the
entry, so the holder is the requested one. -/
theorem index_serves_gen2 {σ : Type} (http : Http σ) (m : CertMeta) (get : Res Response) (p : Product)
    (before after : List IndexEntry) (s s' : σ) (c : EccCert)
    (hp : gen2Product m get = some p) (hfirst : ∀ x ∈ before, x.chr ≠ p.entry.chr)
    (hv : http.validUrl p.entry.url = true) (hget : http.get p.entry.url s = (.ok ⟨200, .ok p.content⟩, s'))
    (hc : unmarshalEcc p.content = .ok c) :
    clientGet http (.ok ((before ++ p.entry :: after).map IndexEntry.toEntry)) unmarshalEcc p.entry.chr s =
        (.ok (some c), s') ∧ c.chr = p.entry.chr ∧ c.car = p.entry.car := by
  obtain ⟨car, chr, h1, h2, h3, h4⟩ := fetch_gen2_agrees _ _ hc
  have hents : p.entry.car = decimal car ∧ p.entry.chr = decimal chr := by
    unfold gen2Product at hp
    split at hp
    case h_2 => simp at hp
    rename_i data _
    split at hp
    · simp at hp
    split at hp
    case h_2 => simp at hp
    rename_i k hk
    rw [Option.some.injEq] at hp
    subst hp
    dsimp only at h1 h2 ⊢
    rw [h1, Res.ok.injEq] at hk
    rw [h2, hk]
    exact ⟨rfl, rfl⟩
  refine ⟨?_, by rw [h4, hents.2], by rw [h3, hents.1]⟩
  rw [client_ok_iff]
  refine ⟨before.map IndexEntry.toEntry, p.entry.toEntry, after.map IndexEntry.toEntry, p.content, c, ⟨200, .ok p.content⟩,
    by simp, ?_, rfl, hv, hget, rfl, rfl, hc, rfl⟩
  intro x hx
  obtain ⟨y, hy, rfl⟩ := List.mem_map.mp hx
  exact hfirst y hy

/-! ## Witnesses -/

/-- A root file with the prime modulus 2^1024 - 105 and exponent 2. -/
def witnessRoot : Bytes :=
  [0xFD, 0x45, 0x43, 0x20, 0, 0, 0, 1] ++ List.replicate 127 0xFF ++ [0x97] ++ zeros 7 ++ [2]

/-- A signature made with it; it starts with 3C. -/
def witnessSig : Bytes :=
  [0x3C, 0x52, 0x35, 0x46, 0x97, 0x5F, 0x96, 0x35, 0x95, 0xE8, 0x88, 0xFC, 0x8D, 0x84, 0xB8, 0xB4,
   0xB6, 0x58, 0x43, 0x4D, 0xE0, 0xC8, 0xE8, 0xBC, 0x5E, 0x10, 0x88, 0x67, 0x8B, 0xDF, 0x12, 0x59,
   0xD0, 0xF6, 0x3E, 0x47, 0x95, 0xE8, 0x9A, 0x7A, 0x69, 0x6F, 0x75, 0xFE, 0xE9, 0x66, 0xA3, 0x72,
   0x63, 0xB5, 0xDE, 0xA6, 0xB8, 0x0C, 0xB8, 0xB9, 0xEA, 0x3C, 0xDA, 0xE2, 0x1D, 0xD5, 0x6F, 0x48,
   0x09, 0xB0, 0x7E, 0xC2, 0x17, 0x56, 0x28, 0x54, 0xF7, 0xF5, 0x1A, 0x7E, 0xF1, 0xB5, 0x4B, 0x43,
   0xF5, 0x30, 0x2D, 0x7E, 0x9C, 0x0A, 0x1A, 0xDE, 0x69, 0x3F, 0xC6, 0xDC, 0x0E, 0x5D, 0xBD, 0xEE,
   0x1E, 0x86, 0xC6, 0x21, 0xD3, 0x43, 0x37, 0x2E, 0xB3, 0xE4, 0x2E, 0x91, 0x96, 0x06, 0x17, 0xBC,
   0xE3, 0xFB, 0x6C, 0x8E, 0x62, 0xEA, 0x51, 0xB9, 0x68, 0xCB, 0x9B, 0x4B, 0x9B, 0x74, 0x98, 0x03]

/-- The two parts of the content it signs. -/
def witnessCr : Bytes :=
  [0x01, 0xFD, 0x45, 0x43, 0x20, 0x00, 0x00, 0x00, 0x01, 0xFF, 0x54, 0x41, 0x43, 0x48, 0x4F, 0x06,
   0x70, 0xDB, 0xD8, 0x80, 0x0D, 0x53, 0x20, 0x20, 0x20, 0x01, 0x05, 0x0A, 0xC0, 0x00, 0x00, 0x00,
   0x00, 0x00, 0x00, 0x00, 0x00, 0x00, 0x00, 0x00, 0x00, 0x00, 0x00, 0x00, 0x00, 0x00, 0x00, 0x00,
   0x00, 0x00, 0x00, 0x00, 0x00, 0x00, 0x00, 0x00, 0x00, 0x00, 0x00, 0x00, 0x00, 0x00, 0x00, 0x00,
   0x00, 0x00, 0x00, 0x00, 0x00, 0x00, 0x00, 0x00, 0x00, 0x00, 0x00, 0x00, 0x00, 0x00, 0x00, 0x00,
   0x00, 0x00, 0x00, 0x00, 0x00, 0x00, 0x00, 0x00, 0x00, 0x00, 0x00, 0x00, 0x00, 0x00, 0x00, 0x00,
   0x00, 0x00, 0x00, 0x00, 0x00, 0x00, 0x00, 0x00, 0x00, 0x00]

def witnessCn : Bytes :=
  [0x00, 0x00, 0x00, 0x00, 0x00, 0x00, 0x00, 0x00, 0x00, 0x00, 0x00, 0x00, 0x00, 0x00, 0x00, 0x00,
   0x00, 0x00, 0x00, 0x00, 0x00, 0x00, 0x00, 0x00, 0x00, 0x00, 0x00, 0x00, 0x00, 0x00, 0x00, 0x00,
   0x00, 0x00, 0x00, 0x00, 0x00, 0x00, 0x00, 0x00, 0x00, 0x00, 0x00, 0x00, 0x00, 0x00, 0x00, 0x00,
   0x00, 0x00, 0x00, 0x00, 0x00, 0x00, 0x00, 0x01, 0x00, 0x01]

/-- The SHA-1 digest of the content. -/
def witnessDigest : Bytes :=
  [0x36, 0xCC, 0x83, 0x30, 0xBD, 0x1C, 0xD5, 0xA0, 0xF6, 0x29, 0x15, 0x89, 0xA4, 0x90, 0xD8, 0x0C,
   0xC3, 0x98, 0xD6, 0x92]

def witnessCert : Bytes := witnessSig ++ witnessCn ++ [0xFD, 0x45, 0x43, 0x20, 0, 0, 0, 1]

theorem witness_iso [Crypto] (h : Crypto.sha1 (witnessCr ++ witnessCn) = witnessDigest) :
    Iso9796 (2 ^ 1024 - 105) 2 witnessCert (witnessCr ++ witnessCn) [0xFD, 0x45, 0x43, 0x20, 0, 0, 0, 1] := by
  refine ⟨witnessSig, witnessCr, witnessCn, rfl, by decide +kernel, by decide +kernel, rfl, rfl, by decide +kernel, ?_⟩
  rw [h]
  decide +kernel

theorem witness_root : ∃ root, unmarshalRoot witnessRoot = .ok root ∧ root.keyId = decimal 0xFD45432000000001 ∧
    fetchERCA witnessRoot = .ok (2 ^ 1024 - 105, 2) := by
  have hk : fetchERCA witnessRoot = .ok (2 ^ 1024 - 105, 2) := by decide +kernel
  obtain ⟨root, h1, _⟩ := (fetch_root_iff _ _ _).mp hk
  refine ⟨root, h1, ?_, hk⟩
  rw [← (root_entry_reference _ _ h1).1]
  have : (rootEntry witnessRoot).chr = decimal (beNat (witnessRoot.take 8)) := by
    unfold rootEntry; dsimp only; rw [if_pos (by decide +kernel)]
  rw [this, show beNat (witnessRoot.take 8) = 0xFD45432000000001 from by decide +kernel]

/-- Finding. A certificate that the library verifies against the root is left out of the index because its
signature starts with the byte 3C. (The digest is the value of SHA-1; the model leaves SHA-1 open.) -/
theorem valid_certificate_left_out [Crypto] (h : Crypto.sha1 (witnessCr ++ witnessCn) = witnessDigest) (m : CertMeta) :
    ∃ root c c', unmarshalRoot witnessRoot = .ok root ∧ unmarshalRsa witnessCert = .ok c ∧
      verifyRsaWithRoot (some c) (some root) = (some c', .ok ()) ∧
      fetchERCA witnessRoot = .ok (2 ^ 1024 - 105, 2) ∧
      gen1Product (2 ^ 1024 - 105) 2 m (.ok ⟨200, .ok witnessCert⟩) = none := by
  obtain ⟨root, hr, hid, hk⟩ := witness_root
  have hlen : witnessCert.length = 194 := by decide +kernel
  obtain ⟨c, hc⟩ := (rsa_parse_total witnessCert).1 (by rw [hlen])
  have hcar : fetchGen1CAR witnessCert = .ok 0xFD45432000000001 := by decide +kernel
  have hver := ((fetch_gen1_agrees witnessRoot witnessCert root _ _ c hr hk hc).1).mpr
    ⟨⟨_, (fetch_recover_iff _ _ _ _).mpr ⟨_, witness_iso h⟩⟩, _, hcar, hid⟩
  refine ⟨root, c, (verifyRsaCore c root.modulus root.exponent root.keyId).1, hr, hc, ?_, hk, ?_⟩
  · have : verifyRsaWithRoot (some c) (some root) =
        (some (verifyRsaCore c root.modulus root.exponent root.keyId).1,
          (verifyRsaWithRoot (some c) (some root)).2) := rfl
    rw [this, hver]
  · cases hg : gen1Product (2 ^ 1024 - 105) 2 m (.ok ⟨200, .ok witnessCert⟩) with
    | none => rfl
    | some p =>
      obtain ⟨resp, data, h1, _, h3, _, h5⟩ := (gen1_indexed_iff _ _ _ _).mp ⟨p, hg⟩
      rw [Res.ok.injEq] at h1
      subst h1
      rw [Res.ok.injEq] at h3
      subst h3
      exact absurd (by decide +kernel) h5

/-- SHA-1 may have that value. -/
example : ∃ i : Crypto, i.sha1 (witnessCr ++ witnessCn) = witnessDigest :=
  ⟨⟨fun _ => witnessDigest, fun _ => by decide +kernel, id, id, id, fun _ _ _ _ _ _ => none⟩, rfl⟩

/-- The other square root of the message: the same certificate with a signature that starts with C3. -/
def witnessCert' : Bytes :=
  beBytes 128 (2 ^ 1024 - 105 - beNat witnessSig) ++ witnessCn ++ [0xFD, 0x45, 0x43, 0x20, 0, 0, 0, 1]

/-- It gets its entry, with the holder read from the signature and the date 2030-01-01, and the client with the
index finds it and verifies it. -/
theorem witness_served [Crypto] (h : Crypto.sha1 (witnessCr ++ witnessCn) = witnessDigest) (m : CertMeta) :
    ∃ root p c c', gen1Product (2 ^ 1024 - 105) 2 m (.ok ⟨200, .ok witnessCert'⟩) = some p ∧
      p.entry.chr = decimal 0x0D5320202001050A ∧ UnixText p.entry.expiration 1893456000 ∧
      unmarshalRoot witnessRoot = .ok root ∧
      clientGet (σ := Unit) ⟨fun _ => true, fun _ s => (.ok ⟨200, .ok witnessCert'⟩, s)⟩
        (.ok [p.entry.toEntry]) unmarshalRsa (decimal 0x0D5320202001050A) () = (.ok (some c), ()) ∧
      verifyRsaWithRoot (some c) (some root) = (some c', .ok ()) ∧ c'.chr = decimal 0x0D5320202001050A := by
  obtain ⟨root, hr, hid, hk⟩ := witness_root
  have hlen : witnessCert'.length = 194 := by decide +kernel
  have hiso : Iso9796 (2 ^ 1024 - 105) 2 witnessCert' (witnessCr ++ witnessCn) [0xFD, 0x45, 0x43, 0x20, 0, 0, 0, 1] := by
    refine ⟨beBytes 128 (2 ^ 1024 - 105 - beNat witnessSig), witnessCr, witnessCn, rfl, by decide +kernel,
      by decide +kernel, rfl, rfl, by decide +kernel, ?_⟩
    rw [h]
    decide +kernel
  obtain ⟨p, hp⟩ := (gen1_indexed_iff (2 ^ 1024 - 105) 2 m (.ok ⟨200, .ok witnessCert'⟩)).mpr
    ⟨_, witnessCert', rfl, rfl, rfl, hlen, by decide +kernel⟩
  have hcont := gen1_content _ _ _ _ _ hp
  obtain ⟨⟨body, car, hc1, hc2, hc3, hc4⟩, _, _, _, hcase⟩ := gen1_product_spec _ _ _ _ _ hp
  obtain ⟨content, car', f, i1, i2, i3, i4, _⟩ | ⟨hno, _⟩ := hcase
  swap
  · rw [hcont] at hno; exact absurd ⟨_, _, hiso⟩ hno
  rw [hcont] at i1
  have hcon : content = witnessCr ++ witnessCn := by
    have a := (fetch_recover_iff _ _ _ _).mpr ⟨_, i1⟩
    have b := (fetch_recover_iff _ _ _ _).mpr ⟨_, hiso⟩
    rw [a, Res.ok.injEq] at b
    exact b
  have hlay := content_layout (k := witnessCr ++ witnessCn) (by decide +kernel)
  obtain ⟨e1, r1⟩ := fetch_content_read f content i2
  obtain ⟨e2, r2, _⟩ := fetch_content_read _ _ hlay
  rw [hcon, r2] at r1
  have hv : beNat f.chr = 0x0D5320202001050A := by
    have := r1.1
    rw [Res.ok.injEq, Prod.mk.injEq] at this
    rw [← this.1]; decide +kernel
  have heov : beNat f.eov = 1893456000 := by
    obtain ⟨hc, g2, g3, g4, g5, g6, g7⟩ := i2
    have : sl content 16 20 = f.eov := by
      rw [hc]; unfold sl
      rw [show 20 = ([f.profile] ++ f.car ++ f.cha ++ f.eov).length from by simp; omega,
        List.append_assoc _ f.modulus, List.append_assoc _ f.chr, List.take_left,
        show 16 = ([f.profile] ++ f.car ++ f.cha).length from by simp; omega, List.drop_left]
    rw [← this, hcon]; decide +kernel
  have hchr : p.entry.chr = decimal 0x0D5320202001050A := by rw [isDecimal_iff.mp i3, hv]
  have hne : p.entry.chr ≠ [] := i3.1
  obtain ⟨c, g1, _, g3, g4⟩ := index_serves_gen1 (σ := Unit)
    ⟨fun _ => true, fun _ s => (.ok ⟨200, .ok witnessCert'⟩, s)⟩ witnessRoot root _ _ m _ p [] [] () () hr hk hp hne
    (by simp) rfl (by rw [hcont])
  have hcar : root.keyId = p.entry.car := by
    rw [hid, isDecimal_iff.mp hc4]
    have : car = [0xFD, 0x45, 0x43, 0x20, 0, 0, 0, 1] := by
      rw [hcont] at hc1
      exact ((append_eq_iff (by rw [hc2]; decide +kernel)).mp hc1).2.symm
    rw [this]; rfl
  obtain ⟨c', g5, g6⟩ := g4 hcar
  refine ⟨root, p, c, c', hp, hchr, ?_, hr, ?_, g5, by rw [g6, hchr]⟩
  · have := i4 (by rw [heov]; decide)
    rwa [heov] at this
  · rw [hchr] at g1
    exact g1

/-- A second generation certificate the library reads gets an entry with the same references. -/
example (m : CertMeta) : ∃ p c, gen2Product m (.ok ⟨200, .ok sampleCert⟩) = some p ∧ unmarshalEcc p.content = .ok c ∧
    c.chr = p.entry.chr := by
  obtain ⟨c, hc, _⟩ := sample_parses
  obtain ⟨car, chr, h1, h2, h3, h4⟩ := fetch_gen2_agrees _ _ hc
  have hd : downloadCertificate (.ok ⟨200, .ok sampleCert⟩) 341 = .ok sampleCert := by decide +kernel
  have hlen : ¬ (sampleCert.length < 204 ∨ sampleCert.length > 341) := by decide +kernel
  refine ⟨⟨sampleCert, ⟨decimal car, decimal chr, m.country, m.url, m.expiration,
    joinPath (ascii "g2") (certFilename (decimal chr) m.name)⟩⟩, c, ?_, hc, h4⟩
  unfold gen2Product
  rw [hd]
  dsimp only
  rw [if_neg hlen, h1, h2]

/-- Two downloads whose steps interleave: a file is saved while the other task waits for the mutex. -/
example (a b : Product) (hab : a.entry.path ≠ b.entry.path) :
    Schedule ([(.done, some a), (.done, some b)].map fun t => taskSteps t.1 t.2)
      [.save a.entry.path a.content, .save b.entry.path b.content, .add b.entry, .add a.entry] ∧
    ((openedProducts [(.done, some a), (.done, some b)]).map (·.entry.path)).Nodup := by
  refine ⟨.run (before := []) (.run (before := [_]) (after := []) (.run (before := [_]) (after := [])
    (.run (before := []) (.done (by simp))))), ?_⟩
  simp [openedProducts, hab]

/-- Three entries in the order of the index: Austria before Spain, later expiration first, no date last. -/
example : [⟨[], [], ascii "Austria", [], ascii "2030-01-01T00:00:00Z", []⟩,
      ⟨[], [], ascii "Spain", [], ascii "2028-02-29T00:00:00Z", []⟩,
      ⟨[], [], ascii "Spain", [], [], []⟩].Pairwise InOrder := by
  simp only [List.pairwise_cons, List.mem_cons, List.not_mem_nil, or_false, forall_eq_or_imp, forall_eq, InOrder,
    IsEmpty.forall_iff, implies_true, List.Pairwise.nil, and_true]
  decide +kernel

/-- A row of the page: the second cell is a date, the third holds the link. -/
example : ∃ (_ : LowerCase) (m : CertMeta), tableRow (ascii "https://x")
      [.element (ascii "td") [] [.text (ascii " Austria ")], .text [10], .element (ascii "td") [] [.text (ascii "29/02/2028")],
       .element (ascii "td") [] [.element (ascii "a") [(ascii "href", ascii "g.php?BIN_DT=iot_doc/a.bin")] [.text (ascii "Download")]]] =
        some m ∧
      m = ⟨ascii "a.bin", ascii "https://x/g.php?BIN_DT=iot_doc/a.bin", ascii "Austria", ascii "2028-02-29T00:00:00Z"⟩ :=
  ⟨⟨id⟩, _, rfl, by decide +kernel⟩

end Tacho
