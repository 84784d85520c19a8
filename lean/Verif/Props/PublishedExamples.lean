import Verif.Props.Published
/-!
# A run of the tool with one authority on each list, and a card of theirs (C87)
-/

namespace Tacho.PublishedExamples
open Spec Spec.Regulation

/-- A page with one row that links to the certificate with this name. -/
def page (name : String) : Html :=
  .element (ascii "table") [] [.element (ascii "tr") []
    [.element (ascii "td") [] [.text (ascii "D")], .element (ascii "td") [] [],
     .element (ascii "td") [] [.element (ascii "a") [(ascii "href", ascii ("get?f=" ++ name)), (ascii "title", ascii "Download certificate file")] []]]]

local instance lower : LowerCase := ⟨id⟩

/-- An ECDSA that accepts, and a hash of zeros. -/
local instance crypto : Crypto := ⟨fun _ => zeros 20, fun _ => by simp [zeros_length], fun _ => [], fun _ => [], fun _ => [],
  fun _ _ _ _ _ _ => some true⟩

def metaOf (name : String) : CertMeta := ⟨ascii name, ascii ("https://h/get?f=" ++ name), [], []⟩

theorem rows1 : tableRows (ascii "https://h") (page "CA1") = [metaOf "CA1"] := by decide +kernel
theorem rows2 : tableRows (ascii "https://h") (page "CA2") = [metaOf "CA2"] := by decide +kernel

/-- An environment in which everything succeeds. -/
def env (root raw1 raw2 : Bytes) (p1 p2 : Product) : FetchEnv where
  mkdir := fun _ => true
  remove := fun _ => true
  write := fun _ => .done
  rootZip := .ok ⟨200, .ok [0x50, 0x4B]⟩
  unzip := fun _ => .ok [(ascii "EC_PK.bin", .ok root)]
  list1 := .ok ⟨200, .ok [1]⟩
  list2 := .ok ⟨200, .ok [2]⟩
  parseHtml := fun b => .ok (if b = [1] then page "CA1" else page "CA2")
  asked1 := [(.done, .ok ⟨200, .ok raw1⟩)]
  asked2 := [(.done, .ok ⟨200, .ok raw2⟩)]
  order1 := taskSteps .done (some p1)
  order2 := taskSteps .done (some p2)
  sorted1 := [p1.entry]
  sorted2 := [p2.entry]
  clock := ⟨2025, 1, 2, 3, 4, 5⟩

theorem env_root (root raw1 raw2 : Bytes) (p1 p2 : Product) : downloadERCA (env root raw1 raw2 p1 p2) = .ok root := by
  show (match List.lookup (ascii "EC_PK.bin") [(ascii "EC_PK.bin", Res.ok root)] with
    | some content => content
    | none => Res.err "EC_PK.bin not found in ERCA ZIP") = _
  rw [List.lookup_cons, show (ascii "EC_PK.bin" == ascii "EC_PK.bin") = true from by decide]

theorem env_list1 (root raw1 raw2 : Bytes) (p1 p2 : Product) :
    fetchList (env root raw1 raw2 p1 p2) (env root raw1 raw2 p1 p2).list1 = .ok (page "CA1") := rfl
theorem env_list2 (root raw1 raw2 : Bytes) (p1 p2 : Product) :
    fetchList (env root raw1 raw2 p1 p2) (env root raw1 raw2 p1 p2).list2 = .ok (page "CA2") := rfl

theorem env_valid (root raw1 raw2 : Bytes) (p1 p2 : Product) (n e : Nat) (hk : fetchERCA root = .ok (n, e))
    (h1 : gen1Product n e (metaOf "CA1") (.ok ⟨200, .ok raw1⟩) = some p1)
    (h2 : gen2Product (metaOf "CA2") (.ok ⟨200, .ok raw2⟩) = some p2) :
    (env root raw1 raw2 p1 p2).Valid (ascii "https://h") := by
  refine ⟨?_, ?_, ⟨.refl _, by simp [env]⟩, ⟨.refl _, by simp [env]⟩⟩
  · intro root' n' e' doc hr hk' hd
    rw [env_root] at hr
    obtain rfl := Res.ok.inj hr
    rw [hk] at hk'
    have hk' := Res.ok.inj hk'
    simp only [Prod.mk.injEq] at hk'
    obtain ⟨rfl, rfl⟩ := hk'
    rw [env_list1] at hd
    obtain rfl := Res.ok.inj hd
    rw [rows1]
    refine ⟨rfl, ?_⟩
    have := schedule_sequential [taskSteps .done (some p1)]
    simpa [listTasks, env, h1] using this
  · intro doc hd
    rw [env_list2] at hd
    obtain rfl := Res.ok.inj hd
    rw [rows2]
    refine ⟨rfl, ?_⟩
    have := schedule_sequential [taskSteps .done (some p2)]
    simpa [listTasks, env, h2] using this

theorem env_run (root raw1 raw2 : Bytes) (p1 p2 : Product) (n e : Nat) (hk : fetchERCA root = .ok (n, e)) (d : Disk) :
    (fetchMain (env root raw1 raw2 p1 p2) d).result = .ok () := by
  unfold fetchMain
  have h2 : (downloadAndSaveRoot (env root raw1 raw2 p1 p2)).result = .ok root := by
    unfold downloadAndSaveRoot
    rw [env_root]
    rfl
  rw [Io.bind.eq_def, clean_succeeds _ _ (fun _ => rfl) (fun _ => rfl)]
  dsimp only
  rw [Io.bind.eq_def, h2]
  dsimp only
  rw [hk]
  rfl

/-! ## The authorities and the card -/

def n : Nat := sampleP * sampleQ

/-- The certificate of the member state authority and that of the card, first generation. -/
def fa : Content := ⟨1, beBytes 8 5, zeros 7, beBytes 4 1700000000, beBytes 8 6, beBytes 128 n, beBytes 8 65537⟩
def fc : Content := ⟨1, beBytes 8 6, zeros 7, beBytes 4 1700000000, beBytes 8 7, beBytes 128 n, beBytes 8 65537⟩

def content (f : Content) : Bytes := [f.profile] ++ f.car ++ f.cha ++ f.eov ++ f.chr ++ f.modulus ++ f.exponent

def issued (f : Content) : Bytes :=
  beBytes 128 (fastPow n (signedMessage (content f)) sampleD % n) ++ (content f).drop 106 ++ f.car

theorem issued_spec (f : Content) (hf : f.Layout (content f)) : Issued n sampleD f (issued f) ∧ (issued f).length = 194 := by
  have hl := layout_length hf
  have hlt : fastPow n (signedMessage (content f)) sampleD % n < 256 ^ 128 := by
    have e : (256 : Nat) ^ 128 = 2 ^ 1024 := by decide +kernel
    rw [e]
    exact Nat.lt_trans (Nat.mod_lt _ (by decide +kernel)) sample_keyPair.2.2
  refine ⟨⟨content f, _, hf, rfl, beBytes_length _ _, ?_⟩, ?_⟩
  · rw [beNat_beBytes_of_lt hlt]
    exact fastPow_spec n _ sampleD (by decide +kernel)
  · have := hf.2.1
    simp [issued, hl]; omega

theorem fa_layout : fa.Layout (content fa) := ⟨rfl, beBytes_length _ _, zeros_length _, beBytes_length _ _, beBytes_length _ _,
  beBytes_length _ _, beBytes_length _ _⟩
theorem fc_layout : fc.Layout (content fc) := ⟨rfl, beBytes_length _ _, zeros_length _, beBytes_length _ _, beBytes_length _ _,
  beBytes_length _ _, beBytes_length _ _⟩

theorem fa_head : (issued fa).head? ≠ some 0x3C := by decide +kernel

/-- The same, second generation. -/
def ga : Content2 := ⟨beBytes 8 1, zeros 7, .p256, zeros 32, zeros 32, beBytes 8 2, zeros 4, zeros 4⟩
def gc : Content2 := ⟨beBytes 8 2, zeros 7, .p256, zeros 32, zeros 32, beBytes 8 3, zeros 4, zeros 4⟩

theorem ga_sized : ga.Sized := ⟨beBytes_length _ _, zeros_length _, zeros_length _, zeros_length _, beBytes_length _ _,
  zeros_length _, zeros_length _⟩
theorem gc_sized : gc.Sized := ⟨beBytes_length _ _, zeros_length _, zeros_length _, zeros_length _, beBytes_length _ _,
  zeros_length _, zeros_length _⟩

def raw2 (f : Content2) : Bytes := f.certificate (zeros 32) (zeros 32)

def rootFile : Bytes := fa.car ++ beBytes 128 n ++ beBytes 8 65537

theorem root_key : fetchERCA rootFile = .ok (n, 65537) := by decide +kernel

/-- The server: the two certificates at the addresses of the pages, and nothing else. -/
def server : Http Unit where
  validUrl := fun _ => true
  get := fun url s => (if url = ascii "https://h/get?f=CA1" then .ok ⟨200, .ok (issued fa)⟩
    else if url = ascii "https://h/get?f=CA2" then .ok ⟨200, .ok (raw2 ga)⟩ else .err "not found", s)

/-- The download: ICC and the certificate of each application. -/
def parts : List Part :=
  [⟨"Card_Certificate", 0xC100, false, issued fc, none⟩, ⟨"CardSignCertificate", 0xC101, true, raw2 gc, none⟩]

/-- The hypotheses of `published_card_verified` are met, and this is what it says of the card. -/
theorem card_verified [Charmap] : ∃ (env : FetchEnv) (icc : Part) (card card' : DriverCard) (app : Tachograph) (app2 : TachographG2)
    (c1 : RsaCert) (c2 : EccCert), env.Valid (ascii "https://h") ∧
    (fetchMain env exampleDisk).result = .ok () ∧
    unmarshalFile (storedDownload (icc :: parts)) = .ok { type := .driverCard, driverCard := some card } ∧
    verifyFile (builtResolver (exampleDisk.run (fetchMain env exampleDisk).ops) server) none
      (some { type := .driverCard, driverCard := some card }) () =
      ⟨some { type := .driverCard, driverCard := some card' }, .ok (), ()⟩ ∧
    card'.tachograph = some app ∧ app.cardCertificate = some c1 ∧ c1.valid = true ∧
    card'.tachographG2 = some app2 ∧ app2.cardSignCertificate = some c2 ∧ c2.valid = true := by
  obtain ⟨ia, la⟩ := issued_spec fa fa_layout
  obtain ⟨ic, lc⟩ := issued_spec fc fc_layout
  obtain ⟨ec, qc, _⟩ := prescribed_certificate_read gc gc_sized .p256 (zeros 32) (zeros 32) (zeros_length _) (zeros_length _)
  obtain ⟨ea, qa, ra, _⟩ := prescribed_certificate_read ga ga_sized .p256 (zeros 32) (zeros 32) (zeros_length _) (zeros_length _)
  obtain ⟨l1, l2, f, full, l3, _⟩ := (ecc_parse_iff _ _).1 qc
  have he : EccFile (raw2 gc) := ⟨l1, l2, f, full, l3⟩
  obtain ⟨p1, h1⟩ := (gen1_indexed_iff n 65537 (metaOf "CA1") (.ok ⟨200, .ok (issued fa)⟩)).mpr
    ⟨_, issued fa, rfl, rfl, rfl, la, fa_head⟩
  obtain ⟨m1, m2, _⟩ := (ecc_parse_iff _ _).mp qa
  obtain ⟨car, chr, f1, f2, _, hcd⟩ := fetch_gen2_agrees _ _ qa
  obtain ⟨carB, hauth, _⟩ := (fetch_gen2_car_iff _ _).mp f1
  obtain ⟨p2, h2⟩ := (gen2_indexed_iff (metaOf "CA2") (.ok ⟨200, .ok (raw2 ga)⟩)).mpr
    ⟨_, raw2 ga, carB, rfl, rfl, rfl, m1, m2, by simp [raw2, Content2.certificate, dataObject], hauth⟩
  have hu1 := (gen1_product_spec _ _ _ _ _ h1).2.2.1
  have hu2 := (gen2_product_spec _ _ _ h2).2.2.1
  have hv := env_valid rootFile (issued fa) (raw2 ga) p1 p2 n 65537 root_key h1 h2
  have hr := env_run rootFile (issued fa) (raw2 ga) p1 p2 n 65537 root_key exampleDisk
  have t1 : ascii "https://h/get?f=CA1" = "https://h/get?f=CA1".toList.flatMap String.utf8EncodeChar := by decide +kernel
  have t2 : ascii "https://h/get?f=CA2" = "https://h/get?f=CA2".toList.flatMap String.utf8EncodeChar := by decide +kernel
  have e1 : (metaOf "CA1").url = ascii "https://h/get?f=CA1" := by decide +kernel
  have e2 : (metaOf "CA2").url = ascii "https://h/get?f=CA2" := by decide +kernel
  have hi : PublishedIssuer1 (env rootFile (issued fa) (raw2 ga) p1 p2) (ascii "https://h") server (issued fc) := by
    refine ⟨n, 65537, sampleD, n, 65537, sampleD, fa, fc, issued fa, page "CA1", sample_keyPair.1, sample_keyPair.2, by decide,
      sample_keyPair.1, sample_keyPair.2, env_root _ _ _ _ _, ia,
      beNat_beBytes_of_lt (Nat.lt_of_lt_of_eq sample_keyPair.2.2 (by decide +kernel)), by decide +kernel, ic, rfl, fa_head,
      env_list1 _ _ _ _ _, "https://h/get?f=CA1".toList, ?_, ⟨rfl, fun s => ⟨s, ?_⟩⟩, ?_⟩
    · rw [rows1]
      exact ⟨0, _, ⟨200, .ok (issued fa)⟩, rfl, rfl, by rw [e1, t1], rfl, rfl⟩
    · rw [← t1]; simp [server]
    · intro e he _
      have he : e = p1.entry := by simpa [env] using he
      rw [he, hu1, e1, t1]
  have hj : PublishedIssuer2 (env rootFile (issued fa) (raw2 ga) p1 p2) (ascii "https://h") server (raw2 gc) := by
    refine ⟨ga, gc, .p256, zeros 32, zeros 32, page "CA2", ga_sized, gc_sized,
      ⟨zeros 32, zeros 32, zeros_length _, zeros_length _, rfl, rfl⟩, rfl, zeros_length _, zeros_length _,
      env_list2 _ _ _ _ _, "https://h/get?f=CA2".toList, ?_, ⟨rfl, fun s => ⟨s, ?_⟩⟩, ?_⟩
    · rw [rows2]
      exact ⟨0, _, ⟨200, .ok (raw2 ga)⟩, rfl, rfl, by rw [e2, t2], rfl, rfl⟩
    · rw [← t2]
      have hne : ascii "https://h/get?f=CA2" ≠ ascii "https://h/get?f=CA1" := by decide
      simp only [server, if_neg hne, if_true]
      rfl
    · intro e he _
      have he : e = p2.entry := by simpa [env] using he
      rw [he, hu2, e2, t2]
  have hcl : (⟨2025, 1, 2, 3, 4, 5⟩ : Civil).Valid ∧ 2025 < 10000 :=
    ⟨⟨⟨by decide, by decide, by decide, 31, by decide, by decide⟩, by decide, by decide, by decide⟩, by decide⟩
  have hlen : (raw2 gc).length ≤ 341 := l2
  obtain ⟨card, card', u, r1, r2, _, _, r3, r4⟩ := published_card_verified hv hcl.1 hcl.2 exampleDisk hr
    (by intro e he
        have he : e = p1.entry.path := by simpa [env, taskSteps, openedPaths] using he
        rw [he]; exact (files_confined _ _ _ _ p1).1 h1 (.inr (by decide)))
    (by intro e he
        have he : e = p2.entry.path := by simpa [env, taskSteps, openedPaths] using he
        rw [he]; exact (files_confined 0 0 _ _ p2).2 h2 (.inr (by decide)))
    server ⟨"ICC", 2, false, zeros 7 ++ [1] ++ zeros 17, none⟩ parts rfl rfl
    (by
      intro q hq
      simp only [parts, List.mem_cons, List.not_mem_nil, or_false] at hq
      rcases hq with rfl | rfl | rfl
      · refine ⟨by decide, .inl ⟨rfl, rfl, ?_, ?_⟩, by simp, by simp [zeros_length], by simp⟩
        · exact ⟨0, by decide, by decide +kernel⟩
        · exact ⟨1, by decide, by decide +kernel⟩
      · exact ⟨by simp [masterFile, driverCardG1], by simp [contentsG1, lc], by simp, by simp [lc], by simp⟩
      · exact ⟨by simp [driverCardG2], by simp [contentsG2, he], by simp, by dsimp only; omega, by simp⟩)
    (.inr ⟨_, rfl, hi⟩) (.inr ⟨_, rfl, hj⟩) ()
  obtain ⟨app, c, c', _, _, _, q1, q2⟩ := r3 _ rfl
  obtain ⟨app2, d, d', _, _, _, q3, q4⟩ := r4 _ rfl
  exact ⟨_, _, card, card', _, _, c', d', hv, hr, r1, r2, q1, rfl, q2, q3, rfl, q4⟩

end Tacho.PublishedExamples
