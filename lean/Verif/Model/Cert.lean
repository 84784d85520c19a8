import Verif.Model.Security
/-!
# Certificate resolvers

Models `internal/cert` and cert.go. Asking a resolver may change the world (network, caches): a call
is a function from the world before to the answer and the world after. A Go pointer result is an
`Option`. The context argument is not modelled.
-/

namespace Tacho

/-- A call in a world of type `σ`. -/
abbrev Call (σ α : Type) := σ → Res α × σ

/-- `cert.Resolver`, internal/cert/resolver.go:10-19. -/
structure Resolver (σ : Type) where
  root : Call σ (Option RootCert)
  rsa : Bytes → Call σ (Option RsaCert)
  ecc : Bytes → Call σ (Option EccCert)

/-- The loop of each method of `ChainResolver`, internal/cert/chain.go:27-63: the errors collected on
the way only reach the text of the final error. -/
def chainGet {σ α : Type} (msg : String) : List (Call σ α) → Call σ α
  | [], s => (.err msg, s)
  | r :: rs, s =>
    match r s with
    | (.ok a, s') => (.ok a, s')
    | (.err _, s') => chainGet msg rs s'
    | (.panic, s') => (.panic, s')

/-- `ChainResolver`, internal/cert/chain.go:13-63. -/
def chainResolver {σ : Type} (rs : List (Resolver σ)) : Resolver σ where
  root := chainGet "failed to get root certificate" (rs.map fun r => r.root)
  rsa chr := chainGet "failed to get RSA certificate" (rs.map fun r => r.rsa chr)
  ecc chr := chainGet "failed to get ECC certificate" (rs.map fun r => r.ecc chr)

/-! ## The embedded cache -/

/-- An `embed.FS` as the list of its files: path and content. -/
abbrev EmbedFS := List (Bytes × Bytes)

/-- `embed.FS.ReadFile` for files. -/
def EmbedFS.readFile (fs : EmbedFS) (name : Bytes) : Option Bytes := fs.lookup name

/-- `ReadG1` and `ReadG2`, internal/cert/certcache/embed.go:21-36. -/
def readCached (fs : EmbedFS) (chr : Bytes) : Option Bytes := fs.readFile (chr ++ ascii ".bin")

/-- The files `//go:embed g1/*.bin` (internal/cert/certcache/embed.go:9) finds in the repository; the
content is left open. -/
def embeddedG1 (content : Bytes) : EmbedFS := [(ascii "g1/1316820541096591105.bin", content)]

/-- The files `//go:embed g2/*.bin` (internal/cert/certcache/embed.go:12) finds. -/
def embeddedG2 (content : Bytes) : EmbedFS := [(ascii "g2/1316820541130145537.bin", content)]

/-- `EmbeddedResolver`, internal/cert/embedded.go:13-43 and internal/cert/root.go:19-21. -/
def embeddedResolver {σ : Type} (g1 g2 : EmbedFS) (rootFile : Bytes) : Resolver σ where
  root s := (do let c ← unmarshalRoot rootFile; pure (some c), s)
  rsa chr s :=
    (match readCached g1 chr with
     | none => .err "certificate not found in embedded cache"
     | some data => do let c ← unmarshalRsa data; pure (some c), s)
  ecc chr s :=
    (match readCached g2 chr with
     | none => .err "certificate not found in embedded cache"
     | some data => do let c ← unmarshalEcc data; pure (some c), s)

/-! ## The remote client -/

/-- `certcache.Entry`, internal/cert/certcache/index.go:23-34: the two fields that are read. -/
structure Entry where
  chr : Bytes
  url : Bytes
  deriving Repr, DecidableEq

/-- A response: status code, and the body or the error of reading it. -/
structure Response where
  status : Nat
  body : Res Bytes

/-- The HTTP side: which URLs `http.NewRequestWithContext` accepts, and `httpClient.Do` for a GET. -/
structure Http (σ : Type) where
  validUrl : Bytes → Bool
  get : Bytes → Call σ Response

/-- The first index entry with the reference (the `for ... break` loops). -/
def findEntry : List Entry → Bytes → Option Entry
  | [], _ => none
  | e :: rest, chr => if e.chr = chr then some e else findEntry rest chr

/-- `Client.GetRsaCertificate` and `Client.GetEccCertificate`, internal/cert/client.go:35-67 and
70-102, which differ in the index list and the final parser. `index` is the outcome of `LoadIndex`. -/
def clientGet {σ α : Type} (http : Http σ) (index : Res (List Entry)) (parse : Bytes → Res α)
    (chr : Bytes) : Call σ (Option α) := fun s =>
  match index with
  | .err m => (.err m, s)
  | .panic => (.panic, s)
  | .ok entries =>
    match findEntry entries chr with
    | none => (.err "certificate not found in index", s)
    | some e =>
      if http.validUrl e.url = false then (.err "invalid URL", s)
      else
        match http.get e.url s with
        | (.err m, s') => (.err m, s')
        | (.panic, s') => (.panic, s')
        | (.ok resp, s') =>
          if resp.status ≠ 200 then (.err "failed to download certificate", s')
          else (do
            let body ← resp.body
            let c ← parse body
            pure (some c), s')

/-- `Client`, internal/cert/client.go:15-102. -/
def clientResolver {σ : Type} (http : Http σ) (g1 g2 : Res (List Entry)) : Resolver σ where
  root s := (.err "not implemented", s)
  rsa chr := clientGet http g1 unmarshalRsa chr
  ecc chr := clientGet http g2 unmarshalEcc chr

/-- `DefaultCertificateResolver`, cert.go:39-44. -/
def defaultResolver {σ : Type} (g1 g2 : EmbedFS) (rootFile : Bytes) (http : Http σ)
    (i1 i2 : Res (List Entry)) : Resolver σ :=
  chainResolver [embeddedResolver g1 g2 rootFile, clientResolver http i1 i2]

end Tacho
