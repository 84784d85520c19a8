import Verif.Props.FetchRun
/-!
# A concrete run of the certificate index tool (C64)

One Gen1 certificate on the page, none on the Gen2 page, an old index and an old certificate in the
directory.
-/

namespace Tacho
open Spec

theorem schedule_sequential (ts : List (List FetchStep)) : Schedule ts ts.flatten := by
  have : ∀ (n : Nat) (ts : List (List FetchStep)), ts.flatten.length = n → Schedule ts ts.flatten := by
    intro n
    induction n with
    | zero =>
      intro ts h
      have h := List.length_eq_zero_iff.mp h
      rw [h]
      exact .done (List.flatten_eq_nil_iff.mp h)
    | succ n ih =>
      intro ts h
      have split : ∀ us : List (List FetchStep), us.flatten ≠ [] →
          ∃ before s t after, us = before ++ (s :: t) :: after ∧ ∀ u ∈ before, u = [] := by
        intro us
        induction us with
        | nil => intro h; simp at h
        | cons u us ih =>
          intro h
          cases u with
          | cons s t => exact ⟨[], s, t, us, rfl, by simp⟩
          | nil =>
            obtain ⟨b, s, t, a, e, hb⟩ := ih (by simpa using h)
            exact ⟨[] :: b, s, t, a, by rw [e]; rfl, by simpa using hb⟩
      obtain ⟨b, s, t, a, rfl, hb⟩ := split ts (by intro e; rw [e] at h; simp at h)
      have hf : b.flatten = [] := List.flatten_eq_nil_iff.mpr hb
      have he : (b ++ (s :: t) :: a).flatten = s :: (b ++ t :: a).flatten := by simp [hf]
      rw [he] at h ⊢
      exact .run (ih _ (by simpa using h))
  exact this _ ts rfl

/-- A page with one row: no country text, no date, a link to a certificate. -/
def examplePage : Html :=
  .element (ascii "table") [] [.element (ascii "tr") []
    [.element (ascii "td") [] [.text (ascii "D")], .element (ascii "td") [] [],
     .element (ascii "td") [] [.element (ascii "a") [(ascii "href", ascii "get?f=CA1"), (ascii "title", ascii "Download certificate file")] []]]]

/-- A choice of `strings.ToLower`, for this page. -/
local instance exampleLower : LowerCase := ⟨id⟩

/-- The row. -/
def exampleMeta : CertMeta := ⟨ascii "CA1", ascii "https://h/get?f=CA1", [], []⟩

theorem example_rows : tableRows (ascii "https://h") examplePage = [exampleMeta] := by decide +kernel

theorem clean_succeeds (env : FetchEnv) (d : Disk) (h1 : ∀ p, env.mkdir p = true) (h2 : ∀ p, env.remove p = true) :
    (createDirectoryStructure env d).result = .ok () := by
  have hr : ∀ ps, (removeFiles env.remove ps).result = .ok () := by
    intro ps
    induction ps with
    | nil => rfl
    | cons p ps ih => rw [removeFiles, if_pos (h2 p)]; exact ih
  unfold createDirectoryStructure
  generalize [ascii "root", ascii "g1", ascii "g2"] = dirs
  induction dirs with
  | nil => rfl
  | cons dir dirs ih => rw [cleanDirs, if_pos (h1 dir), Io.bind.eq_def, hr]; exact ih

/-- An environment in which everything succeeds, given the root file, the answer to the only certificate
request, and what becomes of that. -/
def happyEnv (root : Bytes) (get : Res Response) (product : Option Product) : FetchEnv where
  mkdir := fun _ => true
  remove := fun _ => true
  write := fun _ => .done
  rootZip := .ok ⟨200, .ok [0x50, 0x4B]⟩
  unzip := fun _ => .ok [(ascii "readme", .err "unreadable"), (ascii "EC_PK.bin", .ok root)]
  list1 := .ok ⟨200, .ok [0x3C]⟩
  list2 := .ok ⟨200, .ok []⟩
  parseHtml := fun b => .ok (if b = [] then .other [] else examplePage)
  asked1 := [(.done, get)]
  asked2 := []
  order1 := taskSteps .done product
  order2 := []
  sorted1 := product.toList.map (·.entry)
  sorted2 := []
  clock := ⟨2025, 1, 2, 3, 4, 5⟩

theorem happy_erca (root : Bytes) (get : Res Response) (product : Option Product) :
    downloadERCA (happyEnv root get product) = .ok root := by
  show (match List.lookup (ascii "EC_PK.bin") [(ascii "readme", Res.err "unreadable"), (ascii "EC_PK.bin", Res.ok root)] with
    | some content => content
    | none => Res.err "EC_PK.bin not found in ERCA ZIP") = _
  rw [List.lookup_cons, show (ascii "EC_PK.bin" == ascii "readme") = false from by decide, List.lookup_cons,
    show (ascii "EC_PK.bin" == ascii "EC_PK.bin") = true from by decide]

theorem happy_valid [Crypto] (root : Bytes) (get : Res Response) (n e : Nat) (hk : fetchERCA root = .ok (n, e)) (p : Product)
    (hp : gen1Product n e exampleMeta get = some p) : (happyEnv root get (some p)).Valid (ascii "https://h") := by
  refine ⟨?_, ?_, ⟨.refl _, by simp [happyEnv]⟩, ⟨.refl _, by simp [happyEnv]⟩⟩
  · intro root' n' e' doc hr hk' hd
    rw [happy_erca] at hr
    have hr := Res.ok.inj hr
    subst hr
    rw [hk] at hk'
    have hk' := Res.ok.inj hk'
    simp only [Prod.mk.injEq] at hk'
    obtain ⟨rfl, rfl⟩ := hk'
    have hd' : fetchList (happyEnv root get (some p)) (happyEnv root get (some p)).list1 = .ok examplePage := rfl
    rw [hd'] at hd
    have hd := Res.ok.inj hd
    subst hd
    rw [example_rows]
    refine ⟨rfl, ?_⟩
    have := schedule_sequential [taskSteps .done (some p)]
    simpa [listTasks, happyEnv, hp] using this
  · intro doc hd
    have hd' : fetchList (happyEnv root get (some p)) (happyEnv root get (some p)).list2 = .ok (.other []) := rfl
    rw [hd'] at hd
    have hd := Res.ok.inj hd
    subst hd
    exact ⟨rfl, .done (by simp [listTasks, tableRows, tableRowsIn])⟩

theorem happy_run (root : Bytes) (get : Res Response) (n e : Nat) (hk : fetchERCA root = .ok (n, e)) (p : Product) (d : Disk) :
    (fetchMain (happyEnv root get (some p)) d).result = .ok () := by
  unfold fetchMain
  have h2 : (downloadAndSaveRoot (happyEnv root get (some p))).result = .ok root := by
    unfold downloadAndSaveRoot
    rw [happy_erca]
    rfl
  rw [Io.bind.eq_def, clean_succeeds _ _ (fun _ => rfl) (fun _ => rfl)]
  dsimp only
  rw [Io.bind.eq_def, h2]
  dsimp only
  rw [hk]
  rfl

/-- An old index, an old certificate and files that are none of the tool's business. -/
def exampleDisk : Disk :=
  [(indexPath, [1]), (ascii "g1/old.bin", [2]), (ascii "g1/old.txt", [3]), (ascii "g1/sub/deep.bin", [4])]

theorem old_certFile : CertFile (ascii "g1/old.bin") := ⟨ascii "g1", .inr (.inl rfl), ascii "old", by decide, by decide⟩

/-- The hypotheses of `finished_run`, `index_written_last` and `index_torn` are met by a run that saves a
certificate; what `finished_run` says of it. -/
theorem example_finished [Crypto] : ∃ (env : FetchEnv) (p : Product), env.Valid (ascii "https://h") ∧
    (fetchMain env exampleDisk).result = .ok () ∧ env.clock = ⟨2025, 1, 2, 3, 4, 5⟩ ∧ env.sorted1 = [p.entry] ∧ p.content = List.replicate 194 1 ∧
    (exampleDisk.run (fetchMain env exampleDisk).ops).lookup p.entry.path = some (List.replicate 194 1) ∧
    (exampleDisk.run (fetchMain env exampleDisk).ops).lookup indexPath =
      some (encodeIndex env.clock (rootEntry witnessRoot) [p.entry] []) ∧
    (p.entry.path ≠ ascii "g1/old.bin" →
      (exampleDisk.run (fetchMain env exampleDisk).ops).lookup (ascii "g1/old.bin") = none) := by
  obtain ⟨_, _, _, hk⟩ := witness_root
  generalize (2 : Nat) ^ 1024 - 105 = n at hk
  generalize hdata : List.replicate 194 (1 : UInt8) = data
  have hlen : data.length = 194 := by rw [← hdata]; exact List.length_replicate
  have hhead : data.head? ≠ some 0x3C := by rw [← hdata]; decide
  obtain ⟨p, hp⟩ := (gen1_indexed_iff n 2 exampleMeta (.ok ⟨200, .ok data⟩)).mpr
    ⟨⟨200, .ok data⟩, data, rfl, rfl, rfl, hlen, hhead⟩
  have hd := (files_confined _ _ _ _ p).1 hp (.inr (by decide))
  have hv := happy_valid witnessRoot _ n 2 hk p hp
  have hr := happy_run witnessRoot (.ok ⟨200, .ok data⟩) n 2 hk p exampleDisk
  have hs : (happyEnv witnessRoot (.ok ⟨200, .ok data⟩) (some p)).sorted1 = [p.entry] := rfl
  have hs2 : (happyEnv witnessRoot (.ok ⟨200, .ok data⟩) (some p)).sorted2 = [] := rfl
  have ha : (happyEnv witnessRoot (.ok ⟨200, .ok data⟩) (some p)).asked1 = [(.done, .ok ⟨200, .ok data⟩)] := rfl
  have hclock : (happyEnv witnessRoot (.ok ⟨200, .ok data⟩) (some p)).clock = ⟨2025, 1, 2, 3, 4, 5⟩ := rfl
  have ho1 : openedPaths (happyEnv witnessRoot (.ok ⟨200, .ok data⟩) (some p)).order1 = [p.entry.path] := rfl
  have ho2 : openedPaths (happyEnv witnessRoot (.ok ⟨200, .ok data⟩) (some p)).order2 = [] := rfl
  have ha2 : (happyEnv witnessRoot (.ok ⟨200, .ok data⟩) (some p)).asked2 = [] := rfl
  have he := happy_erca witnessRoot (.ok ⟨200, .ok data⟩) (some p)
  generalize happyEnv witnessRoot (.ok ⟨200, .ok data⟩) (some p) = env at hv hr hs hs2 ha ha2 ho1 ho2 he hclock
  obtain ⟨root, doc1, doc2, json, hroot, _, _, hj, hi, _, h1, _, h2, _⟩ := finished_run hv exampleDisk hr
    (by rw [ho1]; simpa using hd) (by rw [ho2]; simp)
  have hc : p.content = data := by
    unfold gen1Product at hp
    split at hp
    case h_2 => simp at hp
    rename_i data' hdl
    obtain ⟨resp, hr, _, hb, _⟩ := (download_ok_iff _ _ _).mp hdl
    have hr := Res.ok.inj hr
    subst hr
    have hb := Res.ok.inj hb
    subst hb
    split at hp
    case h_2 => simp at hp
    simp only [Option.some.injEq] at hp
    rw [← hp]
  rw [he] at hroot
  have hroot := Res.ok.inj hroot
  rw [hs, hs2, ← hroot] at hj
  refine ⟨env, p, hv, hr, hclock, hs, hc, ?_, by rw [hi, hj], ?_⟩
  · obtain ⟨content, hdel, hl⟩ := h1 (by rw [ho1]; simp) p.entry (by rw [hs]; simp)
    rw [hl]
    obtain ⟨i, m, resp, _, hasked, _, _, hb⟩ := hdel
    rw [ha] at hasked
    cases i with
    | succ i => simp at hasked
    | zero =>
      simp only [List.getElem?_cons_zero, Option.some.injEq, Prod.mk.injEq, Res.ok.injEq, true_and] at hasked
      subst hasked
      have hb := Res.ok.inj hb
      rw [hb]
  · intro hne
    rcases h2 _ old_certFile with h | ⟨e, he, h⟩ | ⟨part, hpart, _⟩ | h
    · exact absurd h (by decide)
    · rw [hs, hs2] at he
      simp only [List.append_nil, List.mem_singleton] at he
      subst he
      exact absurd h hne
    · exfalso
      rcases hpart with ⟨i, _, _, _, _, _, hp, _⟩ | ⟨i, _, _, _, _, _, hp, _⟩
      · rw [ha] at hp
        cases i <;> simp at hp
      · rw [ha2] at hp
        simp at hp
    · exact h

/-- The hypotheses of `failed_run_loses_certificates` are met when the server is down. -/
example (root : Bytes) (get : Res Response) (p : Option Product) :
    (createDirectoryStructure { happyEnv root get p with rootZip := .err "timeout" } exampleDisk).result = .ok () ∧
    (∀ r, downloadERCA { happyEnv root get p with rootZip := .err "timeout" } ≠ .ok r) ∧
    CertFile (ascii "g1/old.bin") ∧ exampleDisk.lookup (ascii "g1/old.bin") = some [2] :=
  ⟨clean_succeeds _ _ (fun _ => rfl) (fun _ => rfl), fun r h => by simp [downloadERCA] at h, old_certFile, by decide⟩

/-- The hypotheses of `full_disk_loses_index` are met when the disk is full after three bytes of the index. -/
example (root : Bytes) (get : Res Response) (n e : Nat) (hk : fetchERCA root = .ok (n, e)) (p : Product) (d : Disk) :
    ∃ env : FetchEnv, env.write indexPath = .torn 3 ∧
      (fetchMain { env with write := fun q => if q = indexPath then .done else env.write q } d).result = .ok () := by
  refine ⟨{ happyEnv root get (some p) with write := fun q => if q = indexPath then .torn 3 else .done }, by simp, ?_⟩
  have : (fun q : Bytes => if q = indexPath then Written.done else if q = indexPath then .torn 3 else .done) = fun _ => .done := by
    funext q; split <;> rfl
  dsimp only
  rw [this]
  exact happy_run root get n e hk p d

/-- Two tasks, one of which cannot write all of its file; the paths opened differ. -/
example (a b : Product) (hab : a.entry.path ≠ b.entry.path) :
    Schedule ([(.torn 5, some a), (.done, some b), (.refused, some a)].map fun t => taskSteps t.1 t.2)
      [.save b.entry.path b.content, .save a.entry.path (a.content.take 5), .add b.entry] ∧
    openedPaths [.save b.entry.path b.content, .save a.entry.path (a.content.take 5), .add b.entry] =
      [b.entry.path, a.entry.path] ∧ [b.entry.path, a.entry.path].Nodup := by
  refine ⟨.run (before := [_]) (.run (before := []) (.run (before := [_]) (.done (by simp [taskSteps])))), rfl, by simp [Ne.symm hab]⟩

/-- A completed run with two downloads at a time, and one task that finishes early. -/
example : ∃ ss k, Group.Steps ⟨some 2, [[.add (rootEntry [])], [], [.save [1] [2], .add (rootEntry [])]], []⟩ ss k ∧ Finished k :=
  (downloads_finish _ (by simp)).1

end Tacho
