import Verif.Model.FetchRun
import Verif.Spec.FetchCerts
/-!
# What a run of the certificate index tool should leave behind
-/

namespace Tacho.Spec

/-- The path of a certificate file: directly inside one of the three directories, ending in ".bin". -/
def CertFile (path : Bytes) : Prop :=
  ∃ dir, (dir = ascii "root" ∨ dir = ascii "g1" ∨ dir = ascii "g2") ∧
    ∃ name, path = dir ++ ascii "/" ++ name ++ ascii ".bin" ∧ 0x2F ∉ name

/-- The path of the index. -/
def indexPath : Bytes := ascii "index.json"

/-- The server delivered `content` for the certificate that the page lists under this address, and the
file could be saved. -/
def Delivered (rows : List CertMeta) (asked : List (Written × Res Response)) (url content : Bytes) : Prop :=
  ∃ (i : Nat) (m : CertMeta) (resp : Response), rows[i]? = some m ∧ asked[i]? = some (.done, .ok resp) ∧ m.url = url ∧
    resp.status = 200 ∧ resp.body = .ok content

/-- The server delivered a certificate that the page lists, and saving it failed when `part` of it was stored. -/
def DeliveredTorn (rows : List CertMeta) (asked : List (Written × Res Response)) (part : Bytes) : Prop :=
  ∃ (i : Nat) (m : CertMeta) (resp : Response) (content : Bytes) (k : Nat), rows[i]? = some m ∧
    asked[i]? = some (.torn k, .ok resp) ∧ resp.status = 200 ∧ resp.body = .ok content ∧ part = content.take k

/-- The paths of the files that the tasks opened for writing. -/
def openedPaths (order : List FetchStep) : List Bytes :=
  order.filterMap fun
    | .save path _ => some path
    | .add _ => none

/-- All tasks have been started and have finished. -/
def Finished (g : Group) : Prop := g.waiting = [] ∧ g.active = []

end Tacho.Spec
