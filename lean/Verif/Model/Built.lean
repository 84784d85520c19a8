import Verif.Model.Cert
import Verif.Model.FetchRun
/-!
# The library built with the files of a directory

`internal/cert/certcache` embeds the files that `tools/cmd/fetch-certs` leaves in that directory.
-/

namespace Tacho

/-- `//go:embed dir/*.bin`, internal/cert/certcache/embed.go:9-13: the files directly inside the directory whose name ends
in ".bin", under their path with the directory. -/
def embedDir (d : Disk) (dir : Bytes) : EmbedFS := d.filter fun f => (globBin d dir).contains f.1

/-- `//go:embed` of one file, internal/cert/certcache/embed.go:6-7 and index.go:10-11. (A missing file fails the build; here
it is empty.) -/
def embedFile (d : Disk) (path : Bytes) : Bytes := (d.lookup path).getD []

/-- `DefaultCertificateResolver`, cert.go:39-44, of a program built with these files in internal/cert/certcache. The index is
loaded anew for every lookup (internal/cert/client.go:36 and 71). -/
def builtResolver {σ : Type} (d : Disk) (http : Http σ) : Resolver σ :=
  defaultResolver (embedDir d (ascii "g1")) (embedDir d (ascii "g2")) (embedFile d (ascii "root/EC_PK.bin")) http
    (rsaIndex (embedFile d (ascii "index.json"))) (eccIndex (embedFile d (ascii "index.json")))

end Tacho
