import Verif.Spec.Issuing
import Verif.Spec.Download
/-!
# Specification: driver card downloads with genuine certificates (C81)
-/

namespace Tacho.Spec.Regulation

variable [Crypto] {σ : Type}

omit [Crypto] in
/-- The contents of the last file of a download with this name in this application. -/
def lastContents (ps : List Part) (name : String) (g2 : Bool) : Option Bytes :=
  ((ps.filter fun q => q.name == name && q.g2 == g2).getLast?).map (·.contents)

/-- The files of the Tachograph application in a download, if there are any, include a certificate that was issued as
prescribed. -/
def GenuineDownload1 (r : Resolver σ) (ps : List Part) (s t : σ) : Prop :=
  ((∀ q ∈ ps, q.g2 = false → (q.name, q.fid) ∈ masterFile) ∧ t = s) ∨
  ∃ raw, lastContents ps "Card_Certificate" false = some raw ∧ Genuine1 r raw s t

/-- The same for the Tachograph_G2 application. -/
def GenuineDownload2 (r : Resolver σ) (ps : List Part) (s t : σ) : Prop :=
  ((∀ q ∈ ps, q.g2 = false) ∧ t = s) ∨
  ∃ raw, lastContents ps "CardSignCertificate" true = some raw ∧ Genuine2 r raw s t

end Tacho.Spec.Regulation
