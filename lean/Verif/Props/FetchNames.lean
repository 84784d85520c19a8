import Verif.Props.FetchClient
/-!
# The file names of the downloaded certificates (C59)
-/

namespace Tacho
open Spec

/-- The name of a file in a directory, spelled out. -/
theorem join_named (dir chr name : Bytes) (h1 : 0x2F ∉ dir) (h2 : dir ≠ []) (h3 : dir ≠ [0x2E]) (h4 : dir ≠ [0x2E, 0x2E])
    (h : 0x2F ∉ chr) : (chr ≠ [] → joinPath dir (certFilename chr name) = dir ++ ascii "/" ++ (chr ++ ascii ".bin")) ∧
    (chr = [] → 0x2F ∉ name → joinPath dir (certFilename chr name) = dir ++ ascii "/" ++ (name ++ ascii ".bin")) := by
  constructor
  · intro hc
    obtain ⟨g1, g2, g3, g4⟩ := certFilename_ok chr name h (fun h => absurd h hc)
    have := joinPath_direct _ _ h1 h2 h3 h4 g1 g2 g3 g4
    rw [this, certFilename, if_pos hc]; rfl
  · intro hc hn
    obtain ⟨g1, g2, g3, g4⟩ := certFilename_ok chr name h (fun _ => hn)
    have := joinPath_direct _ _ h1 h2 h3 h4 g1 g2 g3 g4
    rw [this, certFilename, if_neg (by simpa using hc)]; rfl

/-- C59: a certificate whose holder was read is stored under the holder's reference in decimal, with `.bin` after
it, in the directory of its generation; one whose holder was not read under its name on the page, if that has no
"/". -/
theorem certificate_file_name [Crypto] (n e : Nat) (m : CertMeta) (get : Res Response) (p : Product) :
    (gen1Product n e m get = some p →
      (p.entry.chr ≠ [] → p.entry.path = ascii "g1" ++ ascii "/" ++ (p.entry.chr ++ ascii ".bin")) ∧
      (p.entry.chr = [] → 0x2F ∉ m.name → p.entry.path = ascii "g1" ++ ascii "/" ++ (m.name ++ ascii ".bin"))) ∧
    (gen2Product m get = some p →
      (p.entry.chr ≠ [] → p.entry.path = ascii "g2" ++ ascii "/" ++ (p.entry.chr ++ ascii ".bin")) ∧
      (p.entry.chr = [] → 0x2F ∉ m.name → p.entry.path = ascii "g2" ++ ascii "/" ++ (m.name ++ ascii ".bin"))) := by
  constructor
  · intro h
    obtain ⟨_, _, _, hp, hc⟩ := gen1_product_spec n e m get p h
    rw [hp]
    refine join_named _ _ _ (by decide) (by decide) (by decide) (by decide) ?_
    rcases hc with ⟨_, _, _, _, _, hd, _⟩ | ⟨_, hd, _⟩
    · exact decimal_no_slash hd
    · rw [hd]; simp
  · intro h
    obtain ⟨_, _, _, _, hp, hc⟩ := gen2_product_spec m get p h
    rw [hp]
    refine join_named _ _ _ (by decide) (by decide) (by decide) (by decide) ?_
    rcases hc with ⟨_, _, hd⟩ | ⟨_, hd⟩
    · exact decimal_no_slash hd
    · rw [hd]; simp

/-- An unsigned file of 194 bytes from the page entry "x" is stored as g1/x.bin. -/
example [Crypto] (n e : Nat) (hs : ¬ ∃ content car, Iso9796 n e (zeros 194) content car) (country expiration url : Bytes) :
    ∃ p, gen1Product n e ⟨ascii "x", url, country, expiration⟩ (.ok ⟨200, .ok (zeros 194)⟩) = some p ∧
      p.entry.path = ascii "g1/x.bin" := by
  obtain ⟨p, hp⟩ := (gen1_indexed_iff n e ⟨ascii "x", url, country, expiration⟩ (.ok ⟨200, .ok (zeros 194)⟩)).mpr
    ⟨_, zeros 194, rfl, rfl, rfl, by decide +kernel, by decide +kernel⟩
  refine ⟨p, hp, ?_⟩
  have hcont := gen1_content _ _ _ _ _ hp
  obtain ⟨_, _, _, _, hc⟩ := gen1_product_spec _ _ _ _ p hp
  rcases hc with ⟨c, r, _, hi, _⟩ | ⟨_, hd, _⟩
  · rw [hcont] at hi; exact absurd ⟨c, r, hi⟩ hs
  · rw [((certificate_file_name _ _ _ _ p).1 hp).2 hd (show _ ∉ ascii "x" by decide)]; exact (by decide : ascii "g1" ++ ascii "/" ++ (ascii "x" ++ ascii ".bin") = ascii "g1/x.bin")

end Tacho
