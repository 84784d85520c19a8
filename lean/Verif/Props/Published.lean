import Verif.Model.Built
import Verif.Spec.Published
import Verif.Props.IndexRun
import Verif.Props.Resolvers
import Verif.Props.IssuingEcc
import Verif.Props.IssuingFile
import Verif.Props.Fidelity
/-!
# From the published certificates to a verified card (C87)
-/

namespace Tacho
open Spec Spec.Regulation

theorem embedDir_under (d : Disk) (dir : Bytes) : Under dir (embedDir d dir) := by
  intro p hp
  simp only [embedDir, globBin, List.mem_filter, List.contains_iff_mem, Bool.and_eq_true, List.isPrefixOf_iff_prefix] at hp
  obtain ⟨t, ht⟩ := hp.2.2.1.1
  exact ⟨t, by rw [← ht]; simp⟩

theorem iso_unique [Crypto] {n e : Nat} {raw c c' r r' : Bytes} (h : Iso9796 n e raw c r) (h' : Iso9796 n e raw c' r') : c = c' := by
  obtain ⟨sig, cr, cn, e1, a1, a2, a3, rfl, a4, av⟩ := h
  obtain ⟨sig', cr', cn', e2, b1, b2, b3, rfl, b4, bv⟩ := h'
  rw [e1, append_eq_iff (by simp; omega), append_eq_iff (by omega)] at e2
  obtain ⟨⟨rfl, rfl⟩, rfl⟩ := e2
  have hs := beNat_inj (by simp [Crypto.sha1_length]; omega) (av.symm.trans bv)
  simp only [List.cons_append, List.nil_append, List.cons.injEq, true_and, List.append_assoc] at hs
  rw [((append_eq_iff (by omega)).mp hs).1]

/-- The entry of the index that the client finds for a holder. -/
theorem first_entry {l : List IndexEntry} {name url : Bytes} (h : ∃ e ∈ l, e.chr = name) (hu : ∀ e ∈ l, e.chr = name → e.url = url) :
    ∃ before e after, l = before ++ e :: after ∧ e.chr = name ∧ e.url = url ∧ ∀ x ∈ before, x.chr ≠ name := by
  induction l with
  | nil => obtain ⟨e, he, _⟩ := h; simp at he
  | cons a l ih =>
    by_cases ha : a.chr = name
    · exact ⟨[], a, l, rfl, ha, hu a (by simp) ha, by simp⟩
    · obtain ⟨e, he, hn⟩ := h
      have he' : e ∈ l := by
        rcases List.mem_cons.mp he with rfl | h
        · exact absurd hn ha
        · exact h
      obtain ⟨b, x, t, rfl, h1, h2, h3⟩ := ih ⟨e, he', hn⟩ fun e he => hu e (by simp [he])
      exact ⟨a :: b, x, t, rfl, h1, h2, by simpa [ha] using h3⟩

theorem written_mem {product : CertMeta → Res Response → Option Product} {metas : List CertMeta}
    {asked : List (Written × Res Response)} {p : Product} {i : Nat} {m : CertMeta} {get : Res Response}
    (h1 : metas[i]? = some m) (h2 : asked[i]? = some (.done, get)) (h3 : product m get = some p) :
    p ∈ writtenProducts (listTasks product metas asked) := by
  unfold writtenProducts listTasks
  refine List.mem_filterMap.mpr ⟨(.done, product m get), List.mem_map.mpr ⟨(m, .done, get), ?_, rfl⟩, by simp [h3]⟩
  exact List.mem_iff_getElem?.mpr ⟨i, List.getElem?_zip_eq_some.mpr ⟨h1, h2⟩⟩

theorem gen2_content (m : CertMeta) (data : Bytes) (p : Product) (hp : gen2Product m (.ok ⟨200, .ok data⟩) = some p) :
    p.content = data := by
  unfold gen2Product at hp
  split at hp
  case h_2 => simp at hp
  rename_i d hd
  obtain ⟨resp, e1, _, e3, _⟩ := (download_ok_iff _ _ _).mp hd
  rw [Res.ok.injEq] at e1
  subst e1
  rw [Res.ok.injEq] at e3
  subst e3
  split at hp
  · simp at hp
  split at hp
  case h_2 => simp at hp
  rw [Option.some.injEq] at hp
  rw [← hp]

section
variable [Crypto] [LowerCase] {σ : Type}

/-- What the library built after a successful run answers. -/
theorem built_answers {env : FetchEnv} {base : Bytes} (hv : env.Valid base) (hc : env.clock.Valid) (hy : env.clock.year < 10000)
    (d : Disk) (h : (fetchMain env d).result = .ok ())
    (hc1 : ∀ p ∈ openedPaths env.order1, DirectlyIn (ascii "g1") p) (hc2 : ∀ p ∈ openedPaths env.order2, DirectlyIn (ascii "g2") p)
    (http : Http σ) :
    (∀ rootFile root s, downloadERCA env = .ok rootFile → unmarshalRoot rootFile = .ok root →
      (builtResolver (d.run (fetchMain env d).ops) http).root s = (.ok (some root), s)) ∧
    (∀ chr url content c s s', (∃ e ∈ env.sorted1, IsDecimal e.chr (beNat chr)) →
      (∀ e ∈ env.sorted1, IsDecimal e.chr (beNat chr) → e.url = url) → Carried url url → http.validUrl url = true →
      http.get url s = (.ok ⟨200, .ok content⟩, s') → unmarshalRsa content = .ok c →
      (builtResolver (d.run (fetchMain env d).ops) http).rsa (decimal (beNat chr)) s = (.ok (some c), s')) ∧
    (∀ chr url content c s s', (∃ e ∈ env.sorted2, IsDecimal e.chr (beNat chr)) →
      (∀ e ∈ env.sorted2, IsDecimal e.chr (beNat chr) → e.url = url) → Carried url url → http.validUrl url = true →
      http.get url s = (.ok ⟨200, .ok content⟩, s') → unmarshalEcc content = .ok c →
      (builtResolver (d.run (fetchMain env d).ops) http).ecc (decimal (beNat chr)) s = (.ok (some c), s')) := by
  obtain ⟨root, doc1, doc2, data, hr, _, _, hdata, hi, hroot, _⟩ := finished_run hv d h hc1 hc2
  generalize d.run (fetchMain env d).ops = final at hi hroot
  have hindex : embedFile final (ascii "index.json") = data := by
    unfold embedFile
    rw [show ascii "index.json" = indexPath from rfl, hi]; rfl
  have hrootFile : embedFile final (ascii "root/EC_PK.bin") = root := by unfold embedFile; rw [hroot]; rfl
  have miss := embedded_never_finds (embedDir final (ascii "g1")) (embedDir final (ascii "g2")) (embedDir_under _ _)
    (embedDir_under _ _) root
  obtain ⟨i1, i2⟩ := rsaIndex_written env.clock (rootEntry root) env.sorted1 env.sorted2 hc hy
  unfold builtResolver
  rw [hindex, hrootFile, hdata, i1, i2]
  refine ⟨?_, ?_, ?_⟩
  · intro rootFile rc s e1 e2
    rw [hr] at e1
    obtain rfl := Res.ok.inj e1
    refine ((chain_resolver_ok_iff _ _ _).1 _).mpr ⟨[], _, _, s, rfl, .nil s, ?_⟩
    simp [embeddedResolver, e2, Res.bind_ok, Res.pure_eq]
  · intro chr url content c s s' hex hall hurl hvalid hget hp
    obtain ⟨m, hm⟩ := (miss (beNat chr) σ s).1
    have hex' : ∃ e ∈ env.sorted1, e.chr = decimal (beNat chr) := by
      obtain ⟨e, he, hd⟩ := hex; exact ⟨e, he, isDecimal_iff.mp hd⟩
    obtain ⟨b, e, a, hl, h1, h2, h3⟩ := first_entry hex' fun e he hd => hall e he (isDecimal_iff.mpr hd)
    refine ((chain_resolver_ok_iff _ _ _).2.1 _ _).mpr ⟨[_], _, [], s, rfl, .cons hm (.nil s), ?_⟩
    have hcl := client_written http unmarshalRsa b a e content c s s' (decimal_small (isDecimal_iff.mpr h1))
      (by rw [h2]; exact hurl) (by rw [h1]; exact h3) (by rw [h2]; exact hvalid) (by rw [h2]; exact hget) hp
    rw [← hl, h1] at hcl
    exact hcl
  · intro chr url content c s s' hex hall hurl hvalid hget hp
    obtain ⟨m, hm⟩ := (miss (beNat chr) σ s).2
    have hex' : ∃ e ∈ env.sorted2, e.chr = decimal (beNat chr) := by
      obtain ⟨e, he, hd⟩ := hex; exact ⟨e, he, isDecimal_iff.mp hd⟩
    obtain ⟨b, e, a, hl, h1, h2, h3⟩ := first_entry hex' fun e he hd => hall e he (isDecimal_iff.mpr hd)
    refine ((chain_resolver_ok_iff _ _ _).2.2 _ _).mpr ⟨[_], _, [], s, rfl, .cons hm (.nil s), ?_⟩
    have hcl := client_written http unmarshalEcc b a e content c s s' (decimal_small (isDecimal_iff.mpr h1))
      (by rw [h2]; exact hurl) (by rw [h1]; exact h3) (by rw [h2]; exact hvalid) (by rw [h2]; exact hget) hp
    rw [← hl, h1] at hcl
    exact hcl

/-- C87, first generation: the library built after the run finds the chain of such a certificate. -/
theorem published_genuine1 {env : FetchEnv} {base : Bytes} (hv : env.Valid base) (hc : env.clock.Valid)
    (hy : env.clock.year < 10000) (d : Disk) (h : (fetchMain env d).result = .ok ())
    (hc1 : ∀ p ∈ openedPaths env.order1, DirectlyIn (ascii "g1") p) (hc2 : ∀ p ∈ openedPaths env.order2, DirectlyIn (ascii "g2") p)
    (http : Http σ) (rawC : Bytes) (hp : PublishedIssuer1 env base http rawC) (s : σ) :
    ∃ t, Genuine1 (builtResolver (d.run (fetchMain env d).ops) http) rawC s t := by
  obtain ⟨n0, e0, d0, n1, e1, d1, fa, fc, rawA, doc, k0, s0, x0, k1, s1, hroot, ia, hm, he, ic, hcar, hhead, hd, text,
    ⟨i, m, resp, g1, g2, g3, g4, g5⟩, ⟨hvalid, hget⟩, hall⟩ := hp
  obtain ⟨a1, a2, _⟩ := built_answers hv hc hy d h hc1 hc2 http
  have hla : fa.car.length = 8 := by obtain ⟨_, _, hf, _⟩ := ia; exact hf.2.1
  obtain ⟨root, pr⟩ := (root_parse_total (fa.car ++ beBytes 128 n0 ++ beBytes 8 e0)).1 (by simp; omega)
  have hkey : fetchERCA (fa.car ++ beBytes 128 n0 ++ beBytes 8 e0) = .ok (n0, e0) := by
    refine (fetch_root_iff _ _ _).mpr ⟨root, pr, ?_⟩
    obtain ⟨key, hk, q1, q2, q3, _⟩ := (root_parse_iff _ _).mp pr
    rw [append_eq_iff (by simp; omega), append_eq_iff (by omega)] at hk
    obtain ⟨⟨_, km⟩, ke⟩ := hk
    refine ⟨by rw [← km, beNat_beBytes_of_lt (Nat.lt_of_lt_of_eq s0.2 (by decide +kernel))],
      by rw [← ke, beNat_beBytes_of_lt x0], ?_, ?_⟩
    · have := s0.1
      have h2 : 0 < 2 ^ 1023 := by positivity
      omega
    · rintro rfl; have := keyPair_pos k0; omega
  obtain ⟨content, sign, hf, hra, hs, hsig⟩ := ia
  have hl := layout_length hf
  have hlen : rawA.length = 194 := by rw [hra]; simp; omega
  have hiso : Iso9796 n0 e0 rawA content fa.car :=
    (iso_iff k0 s0 _ _ _).mpr ⟨sign, hra, hs, hl, hla, by rw [hsig, Nat.mod_mod]⟩
  obtain ⟨st, bd⟩ := resp
  dsimp only at g4 g5
  subst g4 g5
  obtain ⟨p, hprod⟩ := (gen1_indexed_iff n0 e0 m (.ok ⟨200, .ok rawA⟩)).mpr ⟨_, rawA, rfl, rfl, rfl, hlen, hhead⟩
  obtain ⟨_, sch⟩ := hv.gen1 _ _ _ _ hroot hkey hd
  have hmem : p.entry ∈ env.sorted1 := (hv.sort1.1.trans (entries_perm sch)).mem_iff.mpr
    (List.mem_map.mpr ⟨p, written_mem g1 g2 hprod, rfl⟩)
  have hpc := gen1_content _ _ _ _ _ hprod
  obtain ⟨_, _, _, _, hcase⟩ := gen1_product_spec _ _ _ _ _ hprod
  rw [hpc] at hcase
  have hchr : IsDecimal p.entry.chr (beNat fa.chr) := by
    rcases hcase with ⟨content', car', f', hiso', hf', hchr, _⟩ | ⟨hno, _⟩
    · obtain rfl := iso_unique hiso hiso'
      have he := hf.1.symm.trans hf'.1
      obtain ⟨_, u1, u2, u3, u4, u5, u6⟩ := hf
      obtain ⟨_, v1, v2, v3, v4, v5, v6⟩ := hf'
      rw [append_eq_iff (by simp; omega), append_eq_iff (by simp; omega), append_eq_iff (by simp; omega)] at he
      rw [he.1.1.2]; exact hchr
    · exact absurd ⟨content, fa.car, hiso⟩ hno
  obtain ⟨ca, pa⟩ := (rsa_parse_total rawA).1 hlen
  obtain ⟨t, ht⟩ := hget s
  exact ⟨t, n0, e0, d0, n1, e1, d1, root, fa, fc, rawA, ca, t, _, k0, s0, x0, k1, s1, pr,
    ⟨content, sign, hf, hra, hs, hsig⟩, hm, he, ic, hcar, pa, decimal_spec _,
    a2 fa.chr _ rawA ca s t ⟨_, hmem, hchr⟩ hall ((carried_utf8 text _).mpr rfl) hvalid ht pa, a1 _ root t hroot pr⟩

/-- C87, second generation. -/
theorem published_genuine2 {env : FetchEnv} {base : Bytes} (hv : env.Valid base) (hc : env.clock.Valid)
    (hy : env.clock.year < 10000) (d : Disk) (h : (fetchMain env d).result = .ok ())
    (hc1 : ∀ p ∈ openedPaths env.order1, DirectlyIn (ascii "g1") p) (hc2 : ∀ p ∈ openedPaths env.order2, DirectlyIn (ascii "g2") p)
    (http : Http σ) (raw : Bytes) (hp : PublishedIssuer2 env base http raw) (s : σ) :
    ∃ t, Genuine2 (builtResolver (d.run (fetchMain env d).ops) http) raw s t := by
  obtain ⟨ca, f, k, rca, sca, doc, z1, z2, iss, hcar, l1, l2, hd, text,
    ⟨i, m, resp, g1, g2, g3, g4, g5⟩, ⟨hvalid, hget⟩, hall⟩ := hp
  obtain ⟨_, _, a3⟩ := built_answers hv hc hy d h hc1 hc2 http
  obtain ⟨cca, pc, rep, _⟩ := prescribed_certificate_read ca z1 k rca sca l1 l2
  obtain ⟨len1, len2, _⟩ := (ecc_parse_iff _ _).mp pc
  obtain ⟨car, chr, f1, f2, _, hcd⟩ := fetch_gen2_agrees _ _ pc
  obtain ⟨carB, hauth, _⟩ := (fetch_gen2_car_iff _ _).mp f1
  obtain ⟨st, bd⟩ := resp
  dsimp only at g4 g5
  subst g4 g5
  have hhead : (ca.certificate rca sca).head? ≠ some 0x3C := by
    simp [Content2.certificate, dataObject]
  obtain ⟨p, hprod⟩ := (gen2_indexed_iff m (.ok ⟨200, .ok (ca.certificate rca sca)⟩)).mpr
    ⟨_, _, carB, rfl, rfl, rfl, len1, len2, hhead, hauth⟩
  obtain ⟨_, sch⟩ := hv.gen2 _ hd
  have hmem : p.entry ∈ env.sorted2 := (hv.sort2.1.trans (entries_perm sch)).mem_iff.mpr
    (List.mem_map.mpr ⟨p, written_mem g1 g2 hprod, rfl⟩)
  have hpc := gen2_content _ _ _ hprod
  obtain ⟨t, ht⟩ := hget s
  have hchr : p.entry.chr = cca.chr := by
    obtain ⟨_, _, _, _, _, hcase⟩ := gen2_product_spec _ _ _ hprod
    rw [hpc] at hcase
    rw [hcd]
    rcases hcase with ⟨chrB, hh, hdec⟩ | ⟨hno, _⟩
    · have := (fetch_gen2_chr_iff _ _).mpr ⟨chrB, hh, rfl⟩
      rw [f2] at this
      rw [isDecimal_iff.mp hdec, Res.ok.inj this]
    · obtain ⟨chrB, hh, _⟩ := (fetch_gen2_chr_iff _ _).mp f2
      exact absurd ⟨chrB, hh⟩ hno
  refine ⟨t, ca, f, k, rca, sca, cca, _, z1, z2, iss, hcar, l1, l2, pc, decimal_spec _,
    a3 ca.chr _ _ cca s t ⟨_, hmem, ?_⟩ hall ((carried_utf8 text _).mpr rfl) hvalid ht pc⟩
  rw [hchr]; exact rep.2.2.2.2.1

/-- C87. Run the tool, build the library with what it left, and verify a driver card download: if every file of the download
has prescribed contents, and the certificate of each application it contains was issued by an authority on the published
lists, then `VerifyFile` without a resolver of its own returns no error and marks the certificates as valid. The directory
the tool runs in may contain anything before. -/
theorem published_card_verified [Charmap] {env : FetchEnv} {base : Bytes} (hv : env.Valid base) (hc : env.clock.Valid)
    (hy : env.clock.year < 10000) (d : Disk) (h : (fetchMain env d).result = .ok ())
    (hc1 : ∀ p ∈ openedPaths env.order1, DirectlyIn (ascii "g1") p) (hc2 : ∀ p ∈ openedPaths env.order2, DirectlyIn (ascii "g2") p)
    (http : Http σ) (p : Part) (ps : List Part) (hicc : p.name = "ICC") (hg : p.g2 = false)
    (hconf : ∀ q ∈ p :: ps, q.Conforms)
    (h1 : PublishedDownload1 env base http (p :: ps)) (h2 : PublishedDownload2 env base http (p :: ps)) (s : σ) :
    ∃ card card' u, unmarshalFile (storedDownload (p :: ps)) = .ok { type := .driverCard, driverCard := some card } ∧
      verifyFile (builtResolver (d.run (fetchMain env d).ops) http) none (some { type := .driverCard, driverCard := some card }) s =
        ⟨some { type := .driverCard, driverCard := some card' }, .ok (), u⟩ ∧
      card'.icc = card.icc ∧ card'.ic = card.ic ∧
      (∀ raw, lastContents (p :: ps) "Card_Certificate" false = some raw →
        ∃ app cert cert', card.tachograph = some app ∧ unmarshalRsa raw = .ok cert ∧ app.cardCertificate = some cert ∧
          card'.tachograph = some { app with cardCertificate := some cert' } ∧ cert'.valid = true) ∧
      (∀ raw, lastContents (p :: ps) "CardSignCertificate" true = some raw →
        ∃ app cert cert', card.tachographG2 = some app ∧ unmarshalEcc raw = .ok cert ∧ app.cardSignCertificate = some cert ∧
          card'.tachographG2 = some { app with cardSignCertificate := some cert' } ∧ cert'.valid = true) := by
  have g1 : ∃ t, GenuineDownload1 (builtResolver (d.run (fetchMain env d).ops) http) (p :: ps) s t := by
    rcases h1 with h1 | ⟨raw, hl, hp⟩
    · exact ⟨s, .inl ⟨h1, rfl⟩⟩
    · obtain ⟨t, ht⟩ := published_genuine1 hv hc hy d h hc1 hc2 http raw hp s
      exact ⟨t, .inr ⟨raw, hl, ht⟩⟩
  obtain ⟨t, g1⟩ := g1
  have g2 : ∃ u, GenuineDownload2 (builtResolver (d.run (fetchMain env d).ops) http) (p :: ps) t u := by
    rcases h2 with h2 | ⟨raw, hl, hp⟩
    · exact ⟨t, .inl ⟨h2, rfl⟩⟩
    · obtain ⟨u, hu⟩ := published_genuine2 hv hc hy d h hc1 hc2 http raw hp t
      exact ⟨u, .inr ⟨raw, hl, hu⟩⟩
  obtain ⟨u, g2⟩ := g2
  obtain ⟨card, card', e1, e2, e3⟩ := genuine_download_verified (builtResolver (d.run (fetchMain env d).ops) http)
    (builtResolver (d.run (fetchMain env d).ops) http) p ps hicc hg hconf s t u g1 g2
  exact ⟨card, card', u, e1, e2, e3⟩

end

end Tacho
