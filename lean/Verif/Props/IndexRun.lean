import Verif.Props.JsonIndex
import Verif.Props.FetchRunExamples
import Verif.Props.Texts
/-!
# The index file between the tool and the library (C80)
-/

namespace Tacho
open Spec

theorem carried_ascii {s t : Bytes} (h : Carried s t) (ht : ∀ b ∈ t, b.toNat < 0x80) : s = t := by
  obtain ⟨ss, hr, rfl⟩ := h
  induction hr with
  | nil => rfl
  | char c _ ih =>
    rw [List.flatMap_cons] at ht ⊢
    rw [← ih fun b hb => ht b (by simp [hb])]
  | stray b _ _ _ =>
    have h : (0xEF : UInt8) ∈ String.utf8EncodeChar '\uFFFD' := by decide +kernel
    exact absurd (ht 0xEF (by rw [List.flatMap_cons]; exact List.mem_append_left _ h)) (by decide)

theorem ascii_carried {s t : Bytes} (h : Carried s t) (hs : ∀ b ∈ s, b.toNat < 0x80) : t = s := by
  have : Carried s s := by
    have he : s = (s.map fun b => Char.ofNat b.toNat).flatMap String.utf8EncodeChar := by
      clear h
      induction s with
      | nil => rfl
      | cons b s ih =>
        rw [List.map_cons, List.flatMap_cons, ← ih fun x hx => hs x (by simp [hx])]
        have : ∀ b : UInt8, b.toNat < 0x80 → [b] = String.utf8EncodeChar (Char.ofNat b.toNat) := every_byte _ (by decide +kernel)
        rw [← this b (hs b (by simp))]
        rfl
    have h2 := (carried_utf8 (s.map fun b => Char.ofNat b.toNat) _).mpr rfl
    rwa [← he] at h2
  exact carried_unique h this

theorem decimal_small {s : Bytes} {n : Nat} (h : IsDecimal s n) : ∀ b ∈ s, b.toNat < 0x80 := by
  rw [isDecimal_iff.mp h]
  exact ascii_decimal n

theorem rsaIndex_written (created : Civil) (root : IndexEntry) (g1 g2 : List IndexEntry) (hc : created.Valid) (hy : created.year < 10000) :
    rsaIndex (encodeIndex created root g1 g2) = .ok (g1.map fun e => (carriedEntry e).toEntry) ∧
    eccIndex (encodeIndex created root g1 g2) = .ok (g2.map fun e => (carriedEntry e).toEntry) := by
  unfold rsaIndex eccIndex loadIndex
  rw [(parse_iff _ _).mpr (encode_document created root g1 g2), Option.bind_some, store_index created root g1 g2 hc hy]
  simp [Res.bind_ok, Res.pure_eq, Function.comp_def]

/-- The client's answer for an entry of the index file. -/
theorem client_written {σ α : Type} (http : Http σ) (parse : Bytes → Res α) (before after : List IndexEntry) (e : IndexEntry)
    (content : Bytes) (c : α) (s s' : σ) (hchr : ∀ b ∈ e.chr, b.toNat < 0x80) (hurl : Carried e.url e.url)
    (hfirst : ∀ x ∈ before, x.chr ≠ e.chr) (hv : http.validUrl e.url = true)
    (hget : http.get e.url s = (.ok ⟨200, .ok content⟩, s')) (hp : parse content = .ok c) :
    clientGet http (.ok ((before ++ e :: after).map fun e => (carriedEntry e).toEntry)) parse e.chr s = (.ok (some c), s') := by
  have h1 : (carriedEntry e).chr = e.chr := ascii_carried (escape_carried e.chr) hchr
  have h2 : (carriedEntry e).url = e.url := carried_unique (escape_carried e.url) hurl
  rw [client_ok_iff]
  refine ⟨before.map fun e => (carriedEntry e).toEntry, (carriedEntry e).toEntry, after.map fun e => (carriedEntry e).toEntry,
    content, c, ⟨200, .ok content⟩, by simp, ?_, h1, by rw [← hv]; exact congrArg _ h2, by rw [← hget]; exact congrArg (http.get · s) h2,
    rfl, rfl, hp, rfl⟩
  intro x hx
  obtain ⟨y, hy, rfl⟩ := List.mem_map.mp hx
  intro hn
  have hc : Carried y.chr (carriedEntry y).chr := escape_carried y.chr
  have hn' : (carriedEntry y).chr = e.chr := hn
  rw [hn'] at hc
  exact hfirst y hy (carried_ascii hc hchr)

/-! ## C80 -/

/-- C80. Wherever a run of the tool fails or is cut off, the index file is the one that was there before, or the library refuses to
load it, or the run has done everything and the library loads from it what the run found: the time of the run, the
root certificate and the entries of both generations. (All this can be so although the run ends with an
error, if that occurs after the last byte of the index.) -/
theorem index_after_run [Crypto] [LowerCase] {env : FetchEnv} {base : Bytes} (hv : env.Valid base) (hc : env.clock.Valid)
    (hy : env.clock.year < 10000) (d d' : Disk) (h : CutOff d (fetchMain env d).ops d') :
    d'.lookup indexPath = d.lookup indexPath ∨
    (∃ file m, d'.lookup indexPath = some file ∧ loadIndex file = .err m) ∨
    ((fetchMain env d).result = .ok () ∨ ∃ k, env.write indexPath = .torn k) ∧ (∀ q, d'.lookup q = (d.run (fetchMain env d).ops).lookup q) ∧
      ∃ file root x, d'.lookup indexPath = some file ∧ downloadERCA env = .ok root ∧ loadIndex file = .ok x ∧
        x.created = some { civil := env.clock } ∧ CarriesEntry (rootEntry root) x.root ∧ List.Forall₂ CarriesEntry env.sorted1 x.g1 ∧
        List.Forall₂ CarriesEntry env.sorted2 x.g2 := by
  rcases main_shape hv d with ⟨_, h2⟩ | ⟨pre, c, c', h1, h2, ⟨root, hr, rfl⟩, h4⟩
  · refine .inl (cutOff_other h _ ?_)
    intro op ho
    obtain ⟨s, hs⟩ := h2 op ho
    exact bin_ne_index hs
  · rw [h2] at h ⊢
    rcases cutOff_last h (fun op ho => by obtain ⟨s, hs⟩ := h4 op ho; exact bin_ne_index hs) with h | ⟨k, h5, h6⟩
    · exact .inl h
    · right
      obtain ⟨k', hc', hw⟩ : ∃ k', c' = (encodeIndex env.clock (rootEntry root) env.sorted1 env.sorted2).take k' ∧
          ((fetchMain env d).result = .ok () ∨ ∃ k, env.write indexPath = .torn k) := by
        rcases h1 with ⟨h1, _, rfl⟩ | ⟨_, k', hk', rfl⟩
        · exact ⟨_, (List.take_length).symm, .inl h1⟩
        · exact ⟨k', rfl, .inr ⟨k', hk'⟩⟩
      rw [hc', List.take_take] at h5
      by_cases hk : min k k' < (encodeIndex env.clock (rootEntry root) env.sorted1 env.sorted2).length
      · obtain ⟨m, hm⟩ := torn_refused env.clock (rootEntry root) env.sorted1 env.sorted2 _ hk
        exact .inl ⟨_, m, h5, hm⟩
      · rw [List.take_of_length_le (by omega)] at h5
        obtain ⟨x, g1, g2, g3, g4, g5⟩ := index_loads env.clock (rootEntry root) env.sorted1 env.sorted2 hc hy
        refine .inr ⟨hw, ?_, _, root, x, h5, hr, g1, g2, g3, g4, g5⟩
        intro q
        by_cases hq : q = indexPath
        · subst hq
          rw [h5, run_append]
          show _ = ((d.run pre).put indexPath _).lookup indexPath
          rw [lookup_put, if_pos rfl, hc', List.take_of_length_le (by omega)]
        · exact h6 q hq

/-- C80, Gen1. A client with the index file the tool has written gets a certificate back: when the server still delivers at
the address of an entry what the tool downloaded, the client returns that certificate for the entry's holder reference,
if the entry is the first with it and its address is text in UTF-8. -/
theorem index_file_serves_gen1 [Crypto] {σ : Type} (http : Http σ) (n e : Nat) (m : CertMeta) (get : Res Response) (p : Product)
    (created : Civil) (root : IndexEntry) (before after g2 : List IndexEntry) (s s' : σ)
    (hc : created.Valid) (hy : created.year < 10000)
    (hp : gen1Product n e m get = some p) (hfirst : ∀ x ∈ before, x.chr ≠ p.entry.chr)
    (hu : ∃ text : List Char, p.entry.url = text.flatMap String.utf8EncodeChar)
    (hv : http.validUrl p.entry.url = true) (hget : http.get p.entry.url s = (.ok ⟨200, .ok p.content⟩, s')) :
    ∃ c, clientGet http (rsaIndex (encodeIndex created root (before ++ p.entry :: after) g2)) unmarshalRsa p.entry.chr s =
        (.ok (some c), s') ∧ c.raw = p.content ∧ c.car = p.entry.car := by
  obtain ⟨⟨body, car, hcont, hb, hcar, hdec⟩, _, _, _, hcase⟩ := gen1_product_spec n e m get p hp
  obtain ⟨c, hpc⟩ := (rsa_parse_total p.content).1 (by rw [hcont]; simp; omega)
  obtain ⟨b', r', hd, hb', hr', hcd, hceq⟩ := (rsa_parse_iff _ _).mp hpc
  have hrr : r' = car := by
    rw [hcont] at hd
    exact ((append_eq_iff (by omega)).mp hd).2.symm
  refine ⟨c, ?_, by rw [hceq], by rw [isDecimal_iff.mp hcd, isDecimal_iff.mp hdec, hrr]⟩
  rw [(rsaIndex_written _ _ _ _ hc hy).1]
  obtain ⟨text, hu⟩ := hu
  refine client_written http unmarshalRsa before after p.entry p.content c s s' ?_ (by rw [hu]; exact (carried_utf8 text _).mpr rfl) hfirst hv
    hget hpc
  obtain ⟨_, _, f, _, _, hfd, _⟩ | ⟨_, h0, _⟩ := hcase
  · exact decimal_small hfd
  · rw [h0]; simp

/-- C80, Gen2. Likewise, if the library reads the certificate at all. -/
theorem index_file_serves_gen2 {σ : Type} (http : Http σ) (m : CertMeta) (get : Res Response) (p : Product)
    (created : Civil) (root : IndexEntry) (before after g1 : List IndexEntry) (s s' : σ) (c : EccCert)
    (hc : created.Valid) (hy : created.year < 10000)
    (hp : gen2Product m get = some p) (hfirst : ∀ x ∈ before, x.chr ≠ p.entry.chr)
    (hu : ∃ text : List Char, p.entry.url = text.flatMap String.utf8EncodeChar)
    (hv : http.validUrl p.entry.url = true) (hget : http.get p.entry.url s = (.ok ⟨200, .ok p.content⟩, s'))
    (hpc : unmarshalEcc p.content = .ok c) :
    clientGet http (eccIndex (encodeIndex created root g1 (before ++ p.entry :: after))) unmarshalEcc p.entry.chr s =
      (.ok (some c), s') ∧ c.chr = p.entry.chr ∧ c.car = p.entry.car := by
  obtain ⟨_, _, _, _, _, hcase⟩ := gen2_product_spec m get p hp
  rw [(rsaIndex_written _ _ _ _ hc hy).2]
  obtain ⟨text, hu⟩ := hu
  refine ⟨client_written http unmarshalEcc before after p.entry p.content c s s' ?_ (by rw [hu]; exact (carried_utf8 text _).mpr rfl) hfirst hv
    hget hpc, (index_serves_gen2 http m get p before after s s' c hp hfirst hv hget hpc).2⟩
  obtain ⟨_, _, hfd⟩ | ⟨_, h0⟩ := hcase
  · exact decimal_small hfd
  · rw [h0]; simp

/-! ## Examples -/

/-- An entry with quotes, a character outside ASCII, a line separator, markup and a stray byte in the country, and no holder. -/
def exampleEntry : IndexEntry where
  car := ascii "12"
  chr := []
  country := ascii "\"C\\\n<" ++ [0xC3, 0xA9, 0xF0, 0x9D, 0x84, 0x9E, 0xE2, 0x80, 0xA8, 0xFF]
  url := ascii "https://h/get?f=1&g=2"
  expiration := ascii "2030-01-01T00:00:00Z"
  path := ascii "g1/1.bin"

/-- What is loaded from the index with that entry. -/
example : loadIndex (encodeIndex ⟨2025, 1, 2, 3, 4, 5⟩ ⟨ascii "1", ascii "2", [], [], [], []⟩ [exampleEntry] []) =
    .ok ⟨some ⟨⟨2025, 1, 2, 3, 4, 5⟩, 0, 0⟩, ⟨ascii "1", ascii "2", [], [], []⟩,
      [⟨ascii "12", [], ascii "\"C\\\n<" ++ [0xC3, 0xA9, 0xF0, 0x9D, 0x84, 0x9E, 0xE2, 0x80, 0xA8, 0xEF, 0xBF, 0xBD], ascii "https://h/get?f=1&g=2", ascii "2030-01-01T00:00:00Z"⟩], []⟩ := by
  decide +kernel

/-- Some other documents. -/
example : loadIndex (ascii " { \"G1\" : [ null, {\"Chr\":\"\\u00e9\\ud834\\udd1e\", \"x\":[1e3]} ], \"root\":null } ") =
    .ok ⟨none, {}, [{}, { chr := [0xC3, 0xA9, 0xF0, 0x9D, 0x84, 0x9E] }], []⟩ ∧
    loadIndex (ascii "null") = .ok {} ∧
    (∀ t ∈ ["", "[]", "{\"g1\":{}}", "{\"g1\":[1]}", "{\"root\":{\"car\":1}}", "{\"createTime\":\"now\"}", "{\"a\":01}", "{,}", "{} x"],
      ∃ m, loadIndex (ascii t) = .err m) := by
  refine ⟨by decide +kernel, by decide +kernel, ?_⟩
  intro t ht
  have : ∀ t ∈ ["", "[]", "{\"g1\":{}}", "{\"g1\":[1]}", "{\"root\":{\"car\":1}}", "{\"createTime\":\"now\"}", "{\"a\":01}", "{,}", "{} x"],
      (match loadIndex (ascii t) with | .err _ => true | _ => false) = true := by decide +kernel
  have := this t ht
  split at this
  · rename_i m hm; exact ⟨m, hm⟩
  · simp at this

/-- Names given twice: a shorter list hides the third entry, a longer one brings it back, and null starts afresh. -/
example : loadIndex (ascii "{\"g1\":[{\"car\":\"1\"},{\"car\":\"2\"},{\"car\":\"3\"}],\"g1\":[{\"chr\":\"4\"}],\"g1\":[{},null,{\"url\":\"5\"}]}") =
      .ok { g1 := [{ car := ascii "1", chr := ascii "4" }, { car := ascii "2" }, { car := ascii "3", url := ascii "5" }] } ∧
    loadIndex (ascii "{\"g2\":[{\"car\":\"1\"}],\"g2\":null,\"g2\":[{}],\"root\":{\"car\":\"1\"},\"root\":{\"chr\":\"2\"}}") =
      .ok { g2 := [{}], root := { car := ascii "1", chr := ascii "2" } } := by
  exact ⟨by decide +kernel, by decide +kernel⟩

/-- Times with a fraction and a zone, the last of those given. -/
example : loadIndex (ascii "{\"createTime\":\"2025-10-05T07:13:08Z\",\"createTime\":\"2024-02-29T23:59:59.1234567891-09:30\",\"createTime\":null}") =
      .ok { created := some ⟨⟨2024, 2, 29, 23, 59, 59⟩, 123456789, -570⟩ } ∧
    (∀ t ∈ ["{\"createTime\":\"2025-10-05T07:13:08\"}", "{\"createTime\":\"2025-10-05T07:13:08.Z\"}", "{\"createTime\":\"2025-10-05T07:13:08,5Z\"}",
        "{\"createTime\":\"2025-10-05T07:13:08+24:00\"}", "{\"createTime\":\"2025-10-05T7:13:08Z\"}", "{\"createTime\":\"2025-02-29T07:13:08Z\"}"],
      (match loadIndex (ascii t) with | .err _ => true | _ => false) = true) := by
  exact ⟨by decide +kernel, by decide +kernel⟩

/-- The run of `example_finished` meets the hypotheses of `index_after_run`, and it can be cut off so that the index is torn. -/
example [Crypto] : ∃ (lower : LowerCase) (env : FetchEnv), env.Valid (ascii "https://h") ∧ env.clock.Valid ∧ env.clock.year < 10000 ∧
    (fetchMain env exampleDisk).result = .ok () ∧
    ∃ d', CutOff exampleDisk (fetchMain env exampleDisk).ops d' ∧ d'.lookup indexPath = some [] := by
  letI := exampleLower
  obtain ⟨env, p, hv, hr, hc, _⟩ := example_finished
  refine ⟨exampleLower, env, hv, ?_, by rw [hc]; decide, hr, index_torn hv exampleDisk hr⟩
  rw [hc]
  exact ⟨⟨by decide, by decide, by decide, 31, by decide, by decide⟩, by decide, by decide, by decide⟩

end Tacho
