import Verif.Spec.FetchRun
import Verif.Spec.GenuineDownload
import Verif.Model.Cert
/-!
# Specification: cards whose authorities are on the published lists (C87)
-/

namespace Tacho.Spec

/-- The server delivers this content for the address whenever it is asked. -/
def Serves {σ : Type} (http : Http σ) (url content : Bytes) : Prop :=
  http.validUrl url = true ∧ ∀ s, ∃ s', http.get url s = (.ok ⟨200, .ok content⟩, s')

/-- A list of certificates, as the tool found it, offers this certificate of the holder `chr`: the tool could download and
save it, its address is text, the server still delivers it there, and what the index has for this holder is this address. -/
def Offered {σ : Type} (http : Http σ) (rows : List CertMeta) (asked : List (Written × Res Response)) (index : List IndexEntry)
    (chr raw : Bytes) : Prop :=
  ∃ text : List Char, Delivered rows asked (text.flatMap String.utf8EncodeChar) raw ∧
    Serves http (text.flatMap String.utf8EncodeChar) raw ∧
    ∀ e ∈ index, IsDecimal e.chr (beNat chr) → e.url = text.flatMap String.utf8EncodeChar

variable [Crypto] [LowerCase]

/-- The bytes `rawC` are a first generation certificate that a member state authority issued. The authority's certificate was
issued by the root whose file is in the published archive, and is on the published list; it does not start with the byte of
"<" (finding: the tool takes such a certificate for an error page). -/
def PublishedIssuer1 {σ : Type} (env : FetchEnv) (base : Bytes) (http : Http σ) (rawC : Bytes) : Prop :=
  ∃ (n0 e0 d0 n1 e1 d1 : Nat) (fa fc : Content) (rawA : Bytes) (doc : Html),
    KeyPair n0 e0 d0 ∧ Size1024 n0 ∧ e0 < 256 ^ 8 ∧ KeyPair n1 e1 d1 ∧ Size1024 n1 ∧
    downloadERCA env = .ok (fa.car ++ beBytes 128 n0 ++ beBytes 8 e0) ∧
    Issued n0 d0 fa rawA ∧ beNat fa.modulus = n1 ∧ beNat fa.exponent = e1 ∧
    Issued n1 d1 fc rawC ∧ fc.car = fa.chr ∧ rawA.head? ≠ some 0x3C ∧
    fetchList env env.list1 = .ok doc ∧ Offered http (tableRows base doc) env.asked1 env.sorted1 fa.chr rawA

/-- The bytes `raw` are a second generation certificate issued by an authority whose certificate is on the published list. -/
def PublishedIssuer2 {σ : Type} (env : FetchEnv) (base : Bytes) (http : Http σ) (raw : Bytes) : Prop :=
  ∃ (ca f : Content2) (k : Curve) (rca sca : Bytes) (doc : Html),
    ca.Sized ∧ f.Sized ∧ Issued2 ca f raw ∧ f.car = ca.chr ∧
    rca.length = coordinateLength k ∧ sca.length = coordinateLength k ∧
    fetchList env env.list2 = .ok doc ∧
    Offered http (tableRows base doc) env.asked2 env.sorted2 ca.chr (ca.certificate rca sca)

namespace Regulation

/-- The files of the Tachograph application in a download, if there are any, include a certificate whose issuer is
published. -/
def PublishedDownload1 {σ : Type} (env : FetchEnv) (base : Bytes) (http : Http σ) (ps : List Part) : Prop :=
  (∀ q ∈ ps, q.g2 = false → (q.name, q.fid) ∈ masterFile) ∨
  ∃ raw, lastContents ps "Card_Certificate" false = some raw ∧ PublishedIssuer1 env base http raw

/-- The same for the Tachograph_G2 application. -/
def PublishedDownload2 {σ : Type} (env : FetchEnv) (base : Bytes) (http : Http σ) (ps : List Part) : Prop :=
  (∀ q ∈ ps, q.g2 = false) ∨
  ∃ raw, lastContents ps "CardSignCertificate" true = some raw ∧ PublishedIssuer2 env base http raw

end Regulation

end Tacho.Spec
