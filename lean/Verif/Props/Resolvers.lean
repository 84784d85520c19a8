import Verif.Model.Cert
import Verif.Lemmas.Security
/-!
# Certificate resolvers (C38, C39, C46)
-/

namespace Tacho
open Spec

/-! ## C38: the chain -/

namespace Spec

/-- The calls of `rs`, made one after the other from `s`, all return an error and end in world `s'`. -/
inductive AllFail {σ α : Type} : List (Call σ α) → σ → σ → Prop where
  | nil (s : σ) : AllFail [] s s
  | cons {r : Call σ α} {rs : List (Call σ α)} {s s1 s2 : σ} {m : String} :
      r s = (.err m, s1) → AllFail rs s1 s2 → AllFail (r :: rs) s s2

/-- Two calls answer alike in every world, up to the text of errors. -/
def SameAnswers {σ α : Type} (f g : Call σ α) : Prop :=
  ∀ s, (f s).2 = (g s).2 ∧ (∀ a, (f s).1 = .ok a ↔ (g s).1 = .ok a) ∧ ((f s).1 = .panic ↔ (g s).1 = .panic)

/-- Two resolvers answer alike. -/
def SameResolver {σ : Type} (r q : Resolver σ) : Prop :=
  SameAnswers r.root q.root ∧ (∀ chr, SameAnswers (r.rsa chr) (q.rsa chr)) ∧
  (∀ chr, SameAnswers (r.ecc chr) (q.ecc chr))

end Spec

/-- The chain answers with the first success, in the world right after it; later resolvers are not
asked. -/
theorem chain_ok_iff {σ α : Type} (msg : String) (rs : List (Call σ α)) (s s' : σ) (a : α) :
    chainGet msg rs s = (.ok a, s') ↔
      ∃ before r after s1, rs = before ++ r :: after ∧ AllFail before s s1 ∧ r s1 = (.ok a, s') := by
  induction rs generalizing s with
  | nil => simp [chainGet]
  | cons r rs ih =>
    rw [chainGet]
    cases hr : r s with
    | mk res s1 =>
    cases res with
    | ok b =>
      constructor
      · intro h; exact ⟨[], r, rs, s, rfl, .nil s, by rw [hr]; exact h⟩
      · rintro ⟨before, r', after, s2, e, hf, hok⟩
        cases hf with
        | nil =>
          simp only [List.nil_append, List.cons.injEq] at e
          rw [← e.1, hr] at hok; exact hok
        | cons h1 _ =>
          simp only [List.cons_append, List.cons.injEq] at e
          rw [← e.1, hr] at h1; simp at h1
    | err m =>
      simp only
      rw [ih]
      constructor
      · rintro ⟨before, r', after, s2, rfl, hf, hok⟩
        exact ⟨r :: before, r', after, s2, rfl, .cons hr hf, hok⟩
      · rintro ⟨before, r', after, s2, e, hf, hok⟩
        cases hf with
        | nil =>
          simp only [List.nil_append, List.cons.injEq] at e
          rw [← e.1, hr] at hok; simp at hok
        | cons h1 hf =>
          simp only [List.cons_append, List.cons.injEq] at e
          rw [← e.1, hr] at h1
          simp only [Prod.mk.injEq] at h1
          exact ⟨_, r', after, s2, e.2, h1.2 ▸ hf, hok⟩
    | panic =>
      constructor
      · intro h; simp at h
      · rintro ⟨before, r', after, s2, e, hf, hok⟩
        cases hf with
        | nil =>
          simp only [List.nil_append, List.cons.injEq] at e
          rw [← e.1, hr] at hok; simp at hok
        | cons h1 _ =>
          simp only [List.cons_append, List.cons.injEq] at e
          rw [← e.1, hr] at h1; simp at h1

/-- It returns an error only when every resolver was asked and failed. -/
theorem chain_err_iff {σ α : Type} (msg : String) (rs : List (Call σ α)) (s s' : σ) :
    (∃ m, chainGet msg rs s = (.err m, s')) ↔ AllFail rs s s' := by
  induction rs generalizing s with
  | nil =>
    simp only [chainGet, Prod.mk.injEq, Res.err.injEq]
    constructor
    · rintro ⟨_, _, rfl⟩; exact .nil s
    · rintro ⟨⟩; exact ⟨msg, rfl, rfl⟩
  | cons r rs ih =>
    rw [chainGet]
    cases hr : r s with
    | mk res s1 =>
    cases res with
    | ok b =>
      constructor
      · rintro ⟨m, h⟩; simp at h
      · rintro (_ | ⟨h1, _⟩); rw [hr] at h1; simp at h1
    | err m =>
      simp only
      rw [ih]
      constructor
      · exact .cons hr
      · rintro (_ | ⟨h1, h⟩)
        rw [hr] at h1
        simp only [Prod.mk.injEq] at h1
        exact h1.2 ▸ h
    | panic =>
      constructor
      · rintro ⟨m, h⟩; simp at h
      · rintro (_ | ⟨h1, _⟩); rw [hr] at h1; simp at h1

/-- A chain inside a chain answers as the flattened one. -/
theorem chainGet_nested {σ α : Type} (m1 m2 : String) (rs qs : List (Call σ α)) :
    SameAnswers (chainGet m1 (chainGet m2 rs :: qs)) (chainGet m1 (rs ++ qs)) := by
  induction rs with
  | nil => intro s; simp [chainGet]
  | cons r rs ih =>
    intro s
    have := ih (r s).2
    rw [List.cons_append]
    simp only [chainGet] at this ⊢
    cases hr : r s with
    | mk res s1 =>
    rw [hr] at this
    cases res with
    | ok b => simp
    | err m => exact this
    | panic => simp

theorem chainGet_congr {σ α : Type} (m1 m2 : String) (rs : List (Call σ α)) :
    SameAnswers (chainGet m1 rs) (chainGet m2 rs) := by
  induction rs with
  | nil => intro s; simp [chainGet]
  | cons r rs ih =>
    intro s
    simp only [chainGet]
    cases hr : r s with
    | mk res s1 =>
    cases res with
    | ok b => simp
    | err m => exact ih s1
    | panic => simp

/-- C38, associativity: a chain nested at the front or at the end of a chain answers like the flat
chain. -/
theorem chain_assoc {σ : Type} (rs qs : List (Resolver σ)) :
    SameResolver (chainResolver (chainResolver rs :: qs)) (chainResolver (rs ++ qs)) ∧
    SameResolver (chainResolver (rs ++ [chainResolver qs])) (chainResolver (rs ++ qs)) := by
  have hlast : ∀ {α : Type} (m1 m2 : String) (as bs : List (Call σ α)),
      SameAnswers (chainGet m1 (as ++ [chainGet m2 bs])) (chainGet m1 (as ++ bs)) := by
    intro α m1 m2 as bs
    induction as with
    | nil =>
      intro s
      simp only [List.nil_append, chainGet]
      have h := chainGet_congr m2 m1 bs s
      cases hb : chainGet m2 bs s with
      | mk res s1 =>
      rw [hb] at h
      cases res with
      | ok b => exact h
      | err m => exact ⟨h.1, fun a => by simpa using h.2.1 a, by simpa using h.2.2⟩
      | panic => exact h
    | cons a as ih =>
      intro s
      simp only [List.cons_append, chainGet]
      cases ha : a s with
      | mk res s1 =>
      cases res with
      | ok b => simp
      | err m => exact ih s1
      | panic => simp
  refine ⟨⟨?_, ?_, ?_⟩, ?_, ?_, ?_⟩
  · simpa [chainResolver] using chainGet_nested _ _ (rs.map fun r => r.root) (qs.map fun r => r.root)
  · intro chr
    simpa [chainResolver] using chainGet_nested _ _ (rs.map fun r => r.rsa chr) (qs.map fun r => r.rsa chr)
  · intro chr
    simpa [chainResolver] using chainGet_nested _ _ (rs.map fun r => r.ecc chr) (qs.map fun r => r.ecc chr)
  · simpa [chainResolver] using hlast _ _ (rs.map fun r => r.root) (qs.map fun r => r.root)
  · intro chr
    simpa [chainResolver] using hlast _ _ (rs.map fun r => r.rsa chr) (qs.map fun r => r.rsa chr)
  · intro chr
    simpa [chainResolver] using hlast _ _ (rs.map fun r => r.ecc chr) (qs.map fun r => r.ecc chr)

/-- C38 for the three methods of the resolver. -/
theorem chain_resolver_ok_iff {σ : Type} (rs : List (Resolver σ)) (s s' : σ) :
    (∀ c, (chainResolver rs).root s = (.ok c, s') ↔ ∃ before r after s1, rs = before ++ r :: after ∧
      AllFail (before.map fun q => q.root) s s1 ∧ r.root s1 = (.ok c, s')) ∧
    (∀ chr c, (chainResolver rs).rsa chr s = (.ok c, s') ↔ ∃ before r after s1, rs = before ++ r :: after ∧
      AllFail (before.map fun q => q.rsa chr) s s1 ∧ r.rsa chr s1 = (.ok c, s')) ∧
    (∀ chr c, (chainResolver rs).ecc chr s = (.ok c, s') ↔ ∃ before r after s1, rs = before ++ r :: after ∧
      AllFail (before.map fun q => q.ecc chr) s s1 ∧ r.ecc chr s1 = (.ok c, s')) := by
  have key : ∀ {α : Type} (g : Resolver σ → Call σ α) (m : String) (c : α),
      chainGet m (rs.map g) s = (.ok c, s') ↔ ∃ before r after s1, rs = before ++ r :: after ∧
        AllFail (before.map g) s s1 ∧ g r s1 = (.ok c, s') := by
    intro α g m c
    rw [chain_ok_iff]
    constructor
    · rintro ⟨before, r, after, s1, e, h1, h2⟩
      obtain ⟨b, t, rfl, rfl, ht⟩ := List.map_eq_append_iff.mp e
      obtain ⟨q, a, rfl, rfl, rfl⟩ := List.map_eq_cons_iff.mp ht
      exact ⟨b, q, a, s1, rfl, h1, h2⟩
    · rintro ⟨b, q, a, s1, rfl, h1, h2⟩
      exact ⟨b.map g, g q, a.map g, s1, by simp, h1, h2⟩
  exact ⟨fun c => key _ _ c, fun chr c => key (fun r => r.rsa chr) _ c, fun chr c => key (fun r => r.ecc chr) _ c⟩

/-- A chain where the first resolver fails and the second succeeds. -/
example : (chainGet "" [fun n => (.err "miss", n + 1), fun n => (.ok n, n + 1), fun n => (.ok 0, n + 1)] 5 : Res Nat × Nat) =
    (.ok 6, 7) := rfl

/-! ## C39: the embedded cache -/

namespace Spec
/-- Every file lies in the directory, as `//go:embed dir/*.bin` makes it. -/
def Under (dir : Bytes) (fs : EmbedFS) : Prop := ∀ p ∈ fs, ∃ base, p.1 = dir ++ 0x2F :: base
end Spec

/-- Lookups of references without a slash never find anything in a cache embedded with its directory. -/
theorem embedded_miss (dir : Bytes) (fs : EmbedFS) (h : Under dir fs) (chr : Bytes) (hc : 0x2F ∉ chr) :
    readCached fs chr = none := by
  unfold readCached EmbedFS.readFile
  rw [List.lookup_eq_none_iff]
  intro p hp
  obtain ⟨base, hb⟩ := h p hp
  simp only [bne_iff_ne, ne_eq]
  intro e
  rw [hb] at e
  have hmem : (0x2F : UInt8) ∈ chr ++ ascii ".bin" := by rw [e]; simp
  rcases List.mem_append.mp hmem with hm | hm
  · exact hc hm
  · revert hm; decide

/-- C39 fails for every reference the parsers can report: no decimal reference is found, whatever the
embedded files are, and the resolver returns an error. -/
theorem embedded_never_finds (fs1 fs2 : EmbedFS) (h1 : Under (ascii "g1") fs1) (h2 : Under (ascii "g2") fs2)
    (rootFile : Bytes) (n : Nat) (σ : Type) (s : σ) :
    (∃ m, ((embeddedResolver fs1 fs2 rootFile).rsa (decimal n) s) = (.err m, s)) ∧
    (∃ m, ((embeddedResolver fs1 fs2 rootFile).ecc (decimal n) s) = (.err m, s)) := by
  have hd : (0x2F : UInt8) ∉ decimal n := by
    intro h
    have := (decimal_spec n).2.1 _ h
    simp at this
  constructor
  · refine ⟨"certificate not found in embedded cache", ?_⟩
    simp only [embeddedResolver]
    rw [embedded_miss _ _ h1 _ hd]
  · refine ⟨"certificate not found in embedded cache", ?_⟩
    simp only [embeddedResolver]
    rw [embedded_miss _ _ h2 _ hd]

/-- In particular the two certificates shipped in the repository cannot be found by their reference,
although their files are there under it. -/
theorem shipped_not_found (b1 b2 rootFile : Bytes) (s : Unit) :
    (embeddedG1 b1).readFile (ascii "g1/" ++ decimal 1316820541096591105 ++ ascii ".bin") = some b1 ∧
    (embeddedG2 b2).readFile (ascii "g2/" ++ decimal 1316820541130145537 ++ ascii ".bin") = some b2 ∧
    (∃ m, (embeddedResolver (embeddedG1 b1) (embeddedG2 b2) rootFile).rsa (decimal 1316820541096591105) s = (.err m, s)) ∧
    (∃ m, (embeddedResolver (embeddedG1 b1) (embeddedG2 b2) rootFile).ecc (decimal 1316820541130145537) s = (.err m, s)) := by
  have hd : ∀ (str : Bytes) (n : Nat), IsDecimal str n → decimal n = str :=
    fun _ _ h => (isDecimal_iff.mp h).symm
  have e1 : decimal 1316820541096591105 = ascii "1316820541096591105" :=
    hd _ _ ⟨by decide +kernel, by decide +kernel, by decide +kernel, by decide +kernel⟩
  have e2 : decimal 1316820541130145537 = ascii "1316820541130145537" :=
    hd _ _ ⟨by decide +kernel, by decide +kernel, by decide +kernel, by decide +kernel⟩
  have u1 : Under (ascii "g1") (embeddedG1 b1) := by
    intro p hp
    simp only [embeddedG1, List.mem_singleton] at hp
    subst hp
    exact ⟨ascii "1316820541096591105.bin", by dsimp only; decide +kernel⟩
  have u2 : Under (ascii "g2") (embeddedG2 b2) := by
    intro p hp
    simp only [embeddedG2, List.mem_singleton] at hp
    subst hp
    exact ⟨ascii "1316820541130145537.bin", by dsimp only; decide +kernel⟩
  refine ⟨?_, ?_, (embedded_never_finds _ _ u1 u2 rootFile _ Unit s).1, (embedded_never_finds _ _ u1 u2 rootFile _ Unit s).2⟩
  · have : ascii "g1/" ++ decimal 1316820541096591105 ++ ascii ".bin" = ascii "g1/1316820541096591105.bin" := by
      rw [e1]; decide +kernel
    rw [this]; simp [EmbedFS.readFile, embeddedG1]
  · have : ascii "g2/" ++ decimal 1316820541130145537 ++ ascii ".bin" = ascii "g2/1316820541130145537.bin" := by
      rw [e2]; decide +kernel
    rw [this]; simp [EmbedFS.readFile, embeddedG2]

/-- What does hold: a certificate is found exactly when the reference, with the directory in front, names an embedded file
whose content is a certificate. -/
theorem embedded_lookup_iff (g1 g2 : EmbedFS) (rootFile name : Bytes) (σ : Type) (s : σ) :
    (∀ c, (embeddedResolver g1 g2 rootFile).rsa name s = (.ok (some c), s) ↔
      ∃ content, g1.lookup (name ++ ascii ".bin") = some content ∧ unmarshalRsa content = .ok c) ∧
    (∀ c, (embeddedResolver g1 g2 rootFile).ecc name s = (.ok (some c), s) ↔
      ∃ content, g2.lookup (name ++ ascii ".bin") = some content ∧ unmarshalEcc content = .ok c) := by
  constructor <;> intro c <;> simp only [embeddedResolver, readCached, EmbedFS.readFile]
  · cases g1.lookup (name ++ ascii ".bin") with
    | none => simp
    | some d => simp [bind_eq_ok]
  · cases g2.lookup (name ++ ascii ".bin") with
    | none => simp
    | some d => simp [bind_eq_ok]

/-- The root certificate is found: the shipped file is handed to the root parser. -/
theorem embedded_root (g1 g2 : EmbedFS) (rootFile : Bytes) (c : RootCert) (σ : Type) (s : σ) :
    (embeddedResolver g1 g2 rootFile).root s = (.ok (some c), s) ↔ unmarshalRoot rootFile = .ok c := by
  simp [embeddedResolver]

/-! ## C46: the client -/

/-- The entry looked up is the first one with the reference. -/
theorem findEntry_iff (es : List Entry) (chr : Bytes) (e : Entry) :
    findEntry es chr = some e ↔ ∃ before after, es = before ++ e :: after ∧ (∀ x ∈ before, x.chr ≠ chr) ∧
      e.chr = chr := by
  induction es with
  | nil => simp [findEntry]
  | cons x es ih =>
    rw [findEntry]
    split
    · rename_i hx
      simp only [Option.some.injEq]
      constructor
      · rintro rfl; exact ⟨[], es, rfl, by simp, hx⟩
      · rintro ⟨before, after, e1, h1, _⟩
        cases before with
        | nil => simp only [List.nil_append, List.cons.injEq] at e1; exact e1.1
        | cons y b =>
          simp only [List.cons_append, List.cons.injEq] at e1
          exact absurd (e1.1 ▸ hx) (h1 y (by simp))
    · rename_i hx
      rw [ih]
      constructor
      · rintro ⟨b, a, rfl, h1, h2⟩
        refine ⟨x :: b, a, rfl, ?_, h2⟩
        intro y hy
        rcases List.mem_cons.mp hy with rfl | hy
        · exact hx
        · exact h1 y hy
      · rintro ⟨b, a, e1, h1, h2⟩
        cases b with
        | nil => simp only [List.nil_append, List.cons.injEq] at e1; exact absurd (e1.1 ▸ h2) hx
        | cons y b =>
          simp only [List.cons_append, List.cons.injEq] at e1
          exact ⟨b, a, e1.2, fun z hz => h1 z (by simp [hz]), h2⟩

theorem findEntry_none_iff (es : List Entry) (chr : Bytes) :
    findEntry es chr = none ↔ ∀ e ∈ es, e.chr ≠ chr := by
  induction es with
  | nil => simp [findEntry]
  | cons x es ih =>
    rw [findEntry]
    split
    · rename_i h; simp [h]
    · rename_i h; simp [ih, h]

/-- C46. The client answers with a certificate exactly when the first entry with the reference has an
acceptable URL, the server answers the request for that URL with status 200 and a readable body, and
that body parses; the world has then seen exactly that one request. -/
theorem client_ok_iff {σ α : Type} (http : Http σ) (entries : List Entry) (parse : Bytes → Res α) (chr : Bytes)
    (s s' : σ) (c : Option α) :
    clientGet http (.ok entries) parse chr s = (.ok c, s') ↔
      ∃ before e after body cert resp, entries = before ++ e :: after ∧ (∀ x ∈ before, x.chr ≠ chr) ∧ e.chr = chr ∧
        http.validUrl e.url = true ∧ http.get e.url s = (.ok resp, s') ∧ resp.status = 200 ∧
        resp.body = .ok body ∧ parse body = .ok cert ∧ c = some cert := by
  simp only [clientGet]
  cases hf : findEntry entries chr with
  | none =>
    constructor
    · intro h; simp at h
    · rintro ⟨b, e, a, body, cert, resp, h1, h2, h3, _⟩
      rw [(findEntry_iff entries chr e).mpr ⟨b, a, h1, h2, h3⟩] at hf; simp at hf
  | some e =>
    obtain ⟨b, a, h1, h2, h3⟩ := (findEntry_iff entries chr e).mp hf
    have huniq : ∀ e', (∃ b' a', entries = b' ++ e' :: a' ∧ (∀ x ∈ b', x.chr ≠ chr) ∧ e'.chr = chr) → e' = e := by
      intro e' h
      have := (findEntry_iff entries chr e').mpr h
      rw [hf] at this; simpa using this.symm
    dsimp only
    split
    · rename_i hv
      constructor
      · intro h; simp at h
      · rintro ⟨b', e', a', body, cert, resp, g1, g2, g3, g4, _⟩
        rw [huniq e' ⟨b', a', g1, g2, g3⟩, hv] at g4; simp at g4
    rename_i hv
    have hv : http.validUrl e.url = true := by simpa using hv
    cases hg : http.get e.url s with
    | mk res s1 =>
    cases res with
    | err m =>
      constructor
      · intro h; simp at h
      · rintro ⟨b', e', a', body, cert, resp, g1, g2, g3, g4, g5, _⟩
        rw [huniq e' ⟨b', a', g1, g2, g3⟩, hg] at g5; simp at g5
    | panic =>
      constructor
      · intro h; simp at h
      · rintro ⟨b', e', a', body, cert, resp, g1, g2, g3, g4, g5, _⟩
        rw [huniq e' ⟨b', a', g1, g2, g3⟩, hg] at g5; simp at g5
    | ok resp =>
      dsimp only
      split
      · rename_i hs
        constructor
        · intro h; simp at h
        · rintro ⟨b', e', a', body, cert, resp', g1, g2, g3, g4, g5, g6, _⟩
          rw [huniq e' ⟨b', a', g1, g2, g3⟩, hg] at g5
          simp only [Prod.mk.injEq, Res.ok.injEq] at g5
          rw [g5.1] at hs; exact absurd g6 hs
      · rename_i hs
        simp only [Prod.mk.injEq, bind_eq_ok, Res.pure_eq, Res.ok.injEq]
        constructor
        · rintro ⟨⟨body, hb, cert, hp, rfl⟩, rfl⟩
          exact ⟨b, e, a, body, cert, resp, h1, h2, h3, hv, hg, by simpa using hs, hb, hp, rfl⟩
        · rintro ⟨b', e', a', body, cert, resp', g1, g2, g3, g4, g5, g6, g7, g8, rfl⟩
          rw [huniq e' ⟨b', a', g1, g2, g3⟩, hg] at g5
          simp only [Prod.mk.injEq, Res.ok.injEq] at g5
          exact ⟨⟨body, by rw [g5.1]; exact g7, cert, g8, rfl⟩, g5.2⟩

/-- C46. Without an entry (or without an index) nothing is requested and the answer is an error; with
one, nothing but its URL is requested, once at most. -/
theorem client_requests {σ α : Type} (http : Http σ) (index : Res (List Entry)) (parse : Bytes → Res α)
    (chr : Bytes) (s : σ) :
    ((∀ es, index = .ok es → ∀ e ∈ es, e.chr ≠ chr) → (clientGet http index parse chr s).2 = s ∧
      ∀ c, (clientGet http index parse chr s).1 ≠ .ok c) ∧
    (∀ before e after, index = .ok (before ++ e :: after) → (∀ x ∈ before, x.chr ≠ chr) → e.chr = chr →
      (clientGet http index parse chr s).2 =
        (if http.validUrl e.url then (http.get e.url s).2 else s)) := by
  constructor
  · intro h
    unfold clientGet
    cases index with
    | err m => simp
    | panic => simp
    | ok es =>
      dsimp only
      rw [(findEntry_none_iff es chr).mpr (h es rfl)]
      simp
  · intro b e a h h1 h2
    subst h
    simp only [clientGet]
    rw [(findEntry_iff _ chr e).mpr ⟨b, a, rfl, h1, h2⟩]
    dsimp only
    cases hv : http.validUrl e.url with
    | false => simp
    | true =>
      simp only [Bool.true_eq_false, if_false, if_true]
      cases hg : http.get e.url s with
      | mk res s1 =>
      cases res with
      | ok resp => dsimp only; split <;> rfl
      | err m => rfl
      | panic => rfl

/-- The client never provides a root certificate. -/
theorem client_no_root {σ : Type} (http : Http σ) (g1 g2 : Res (List Entry)) (s : σ) :
    ∃ m, (clientResolver http g1 g2).root s = (.err m, s) := ⟨_, rfl⟩

/-- A server that counts requests: the second of two entries with the reference is never asked. -/
example : ∃ c, (clientGet (σ := Nat) ⟨fun _ => true, fun u n => (.ok ⟨200, .ok (zeros 186 ++ u)⟩, n + 1)⟩
      (.ok [⟨[49], zeros 8⟩, ⟨[50], [1, 2, 3, 4, 5, 6, 7, 8]⟩, ⟨[50], zeros 8⟩]) unmarshalRsa [50] 0) =
    (.ok (some c), 1) ∧ c.raw = zeros 186 ++ [1, 2, 3, 4, 5, 6, 7, 8] := by
  refine ⟨{ car := decimal (beNat [1, 2, 3, 4, 5, 6, 7, 8]), raw := zeros 186 ++ [1, 2, 3, 4, 5, 6, 7, 8] }, ?_, rfl⟩
  rw [client_ok_iff]
  refine ⟨[⟨[49], zeros 8⟩], ⟨[50], [1, 2, 3, 4, 5, 6, 7, 8]⟩, [⟨[50], zeros 8⟩], _, _, _, rfl, by simp, rfl, rfl, rfl, rfl, rfl, ?_, rfl⟩
  simp only [unmarshalRsa]
  rw [if_neg (by decide +kernel), sl?_ok (by decide) (by decide +kernel)]
  simp only [Res.bind_ok, Res.pure_eq, Res.ok.injEq, RsaCert.mk.injEq, true_and, and_true]
  rw [show sl (zeros 186 ++ [1, 2, 3, 4, 5, 6, 7, 8]) 186 194 = [1, 2, 3, 4, 5, 6, 7, 8] from by decide +kernel]

/-- With the default chain, a decimal reference is always fetched remotely: the answer is the client's. -/
theorem default_resolver_is_client {σ : Type} (fs1 fs2 : EmbedFS) (h1 : Under (ascii "g1") fs1)
    (h2 : Under (ascii "g2") fs2) (rootFile : Bytes) (http : Http σ) (i1 i2 : Res (List Entry)) (n : Nat) :
    SameAnswers ((defaultResolver fs1 fs2 rootFile http i1 i2).rsa (decimal n)) (clientGet http i1 unmarshalRsa (decimal n)) ∧
    SameAnswers ((defaultResolver fs1 fs2 rootFile http i1 i2).ecc (decimal n)) (clientGet http i2 unmarshalEcc (decimal n)) := by
  have key : ∀ {α : Type} (m : String) (f : Call σ α) (s : σ), (chainGet m [f] s).2 = (f s).2 ∧
      (∀ a, (chainGet m [f] s).1 = .ok a ↔ (f s).1 = .ok a) ∧ ((chainGet m [f] s).1 = .panic ↔ (f s).1 = .panic) := by
    intro α m f s
    simp only [chainGet]
    cases hf : f s with
    | mk res s1 => cases res <;> simp
  constructor
  · intro s
    obtain ⟨m, hm⟩ := (embedded_never_finds fs1 fs2 h1 h2 rootFile n σ s).1
    simp only [defaultResolver, chainResolver, List.map_cons, List.map_nil]
    rw [chainGet, hm]
    exact key _ (clientGet http i1 unmarshalRsa (decimal n)) s
  · intro s
    obtain ⟨m, hm⟩ := (embedded_never_finds fs1 fs2 h1 h2 rootFile n σ s).2
    simp only [defaultResolver, chainResolver, List.map_cons, List.map_nil]
    rw [chainGet, hm]
    exact key _ (clientGet http i2 unmarshalEcc (decimal n)) s

end Tacho
