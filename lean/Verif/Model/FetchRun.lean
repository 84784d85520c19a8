import Verif.Model.FetchCerts
import Verif.Model.Json
/-!
# A run of the certificate index tool, and its effects on the disk

Models `main` of `tools/cmd/fetch-certs/main.go` and the functions it calls, as the sequence of changes
it makes to the output directory. Directories, permissions and links are left out: the directory is
the list of its files by path. `log.Fatalf` ends the program: it is the error result.
-/

namespace Tacho

/-! ## The output directory -/

/-- The files in and below the output directory, by their path relative to it. -/
abbrev Disk := List (Bytes × Bytes)

/-- A change to the directory: `os.Remove` and `os.WriteFile`. -/
inductive DiskOp where
  | remove (path : Bytes)
  | write (path content : Bytes)
  deriving Repr, DecidableEq

/-- The directory without the file. -/
def Disk.del (d : Disk) (path : Bytes) : Disk := d.filter fun f => f.1 ≠ path

/-- The directory with the file replaced or added. -/
def Disk.put (d : Disk) (path content : Bytes) : Disk := (path, content) :: d.del path

/-- The effect of a change. -/
def Disk.apply (d : Disk) : DiskOp → Disk
  | .remove p => d.del p
  | .write p c => d.put p c

/-- The directory after a sequence of changes. -/
def Disk.run (d : Disk) (ops : List DiskOp) : Disk := ops.foldl Disk.apply d

/-- The states in which a kill or a crash can leave the directory: the first changes are made, the rest
are not, and a write that was under way has emptied the file and stored some of the bytes
(`os.WriteFile` truncates the file and then writes to it). -/
inductive CutOff : Disk → List DiskOp → Disk → Prop
  | before (d ops) : CutOff d ops d
  | during (d p c ops k) : CutOff d (.write p c :: ops) (d.put p (c.take k))
  | after {d op ops d'} (h : CutOff (d.apply op) ops d') : CutOff d (op :: ops) d'

/-- What a function does: the changes it makes, and how it ends. -/
structure Io (α : Type) where
  ops : List DiskOp
  result : Res α

def Io.lift {α : Type} (r : Res α) : Io α := ⟨[], r⟩

def Io.bind {α β : Type} (x : Io α) (f : α → Io β) : Io β :=
  match x.result with
  | .ok a => ⟨x.ops ++ (f a).ops, (f a).result⟩
  | .err e => ⟨x.ops, .err e⟩
  | .panic => ⟨x.ops, .panic⟩

instance : Monad Io where
  pure a := Io.lift (.ok a)
  bind := Io.bind

/-! ## The environment -/

/-- What the outside world does in one run. -/
structure FetchEnv where
  /-- Whether `os.MkdirAll` succeeds on a directory. -/
  mkdir : Bytes → Bool
  /-- Whether `os.Remove` succeeds on a file that `filepath.Glob` listed. -/
  remove : Bytes → Bool
  /-- How `os.WriteFile` ends on a path, for the root certificate and the index. -/
  write : Bytes → Written
  /-- The answer to the request for the root certificate. -/
  rootZip : Res Response
  /-- `zip.NewReader`: the names of the members and their contents. -/
  unzip : Bytes → Res (List (Bytes × Res Bytes))
  /-- The answers to the requests for the two certificate lists. -/
  list1 : Res Response
  list2 : Res Response
  /-- `html.Parse`. -/
  parseHtml : Bytes → Res Html
  /-- For each certificate of a list, in order, how the writing of its file ends, and the answer to the
  request for it. -/
  asked1 : List (Written × Res Response)
  asked2 : List (Written × Res Response)
  /-- The order in which the download tasks take their steps. -/
  order1 : List FetchStep
  order2 : List FetchStep
  /-- What `sort.Slice` makes of the entries. -/
  sorted1 : List IndexEntry
  sorted2 : List IndexEntry
  /-- The time `time.Now().UTC()` when the run starts (line 114). -/
  clock : Civil

/-! ## Functions -/

/-- `filepath.Glob(filepath.Join(dir, "*.bin"))`: the files directly inside the directory whose name
ends in ".bin". (An output directory whose name contains characters special to Glob is not
modelled.) -/
def globBin (d : Disk) (dir : Bytes) : List Bytes :=
  (d.map (·.1)).filter fun p =>
    (dir ++ [0x2F]).isPrefixOf p && !((p.drop (dir.length + 1)).contains 0x2F) &&
      (ascii ".bin").isSuffixOf (p.drop (dir.length + 1))

/-- The inner loop of `createDirectoryStructure`, lines 201-205. -/
def removeFiles (remove : Bytes → Bool) : List Bytes → Io Unit
  | [] => Io.lift (.ok ())
  | p :: ps =>
    if remove p then Io.bind ⟨[.remove p], .ok ()⟩ fun _ => removeFiles remove ps
    else Io.lift (.err "failed to remove file")

/-- The outer loop of `createDirectoryStructure`, lines 191-206. What Glob finds in a directory does not
depend on what was removed from the other two, so the initial state is used throughout. -/
def cleanDirs (env : FetchEnv) (d : Disk) : List Bytes → Io Unit
  | [] => Io.lift (.ok ())
  | dir :: dirs =>
    if env.mkdir dir then Io.bind (removeFiles env.remove (globBin d dir)) fun _ => cleanDirs env d dirs
    else Io.lift (.err "failed to create directory")

/-- `createDirectoryStructure`, tools/cmd/fetch-certs/main.go:183-210. -/
def createDirectoryStructure (env : FetchEnv) (d : Disk) : Io Unit :=
  cleanDirs env d [ascii "root", ascii "g1", ascii "g2"]

/-- `downloadERCA`, tools/cmd/fetch-certs/main.go:481-531: the first member of that name counts. -/
def downloadERCA (env : FetchEnv) : Res Bytes := do
  let resp ← env.rootZip
  if resp.status ≠ 200 then .err "ERCA download failed with status"
  let zipData ← resp.body
  let members ← env.unzip zipData
  match members.lookup (ascii "EC_PK.bin") with
  | some content => content
  | none => .err "EC_PK.bin not found in ERCA ZIP"

/-- `os.WriteFile`. -/
def writeFile (env : FetchEnv) (path content : Bytes) : Io Unit :=
  match env.write path with
  | .done => ⟨[.write path content], .ok ()⟩
  | .refused => Io.lift (.err "failed to write file")
  | .torn k => ⟨[.write path (content.take k)], .err "failed to write file"⟩

/-- `downloadAndSaveRootCertificate`, tools/cmd/fetch-certs/main.go:213-228. -/
def downloadAndSaveRoot (env : FetchEnv) : Io Bytes :=
  Io.bind (Io.lift (downloadERCA env)) fun certData =>
  Io.bind (writeFile env (ascii "root/EC_PK.bin") certData) fun _ => Io.lift (.ok certData)

/-- The first part of the two index functions: the certificate list as a tree,
tools/cmd/fetch-certs/main.go:259-274 and 362-377. -/
def fetchList (env : FetchEnv) (get : Res Response) : Res Html := do
  let resp ← get
  if resp.status ≠ 200 then .err "unexpected status code"
  env.parseHtml (← resp.body)

/-- The change a task step makes to the directory. -/
def FetchStep.op : FetchStep → Option DiskOp
  | .save p c => some (.write p c)
  | .add _ => none

/-- The second part of the two index functions, lines 282-359 and 385-459: the tasks run, in the order
of the environment, and the entries they added are returned. -/
def runTasks (order : List FetchStep) : Io (List IndexEntry) :=
  ⟨order.filterMap FetchStep.op, .ok (order.foldl FetchState.step {}).entries⟩

/-- `indexAndDownloadGen1Certificates` and `indexAndDownloadGen2Certificates`,
tools/cmd/fetch-certs/main.go:259-360 and 362-460. Their goroutines are in `FetchEnv.Valid`. -/
def indexAndDownload (env : FetchEnv) (list : Res Response) (order : List FetchStep) : Io (List IndexEntry) :=
  Io.bind (Io.lift (fetchList env list)) fun _ => runTasks order

/-- `writeIndexFile`, tools/cmd/fetch-certs/main.go:950-966, for index.json in the output directory; the
directory exists by then. The JSON encoding of these types cannot fail. -/
def writeIndexFile (env : FetchEnv) (root : IndexEntry) (g1 g2 : List IndexEntry) : Io Unit :=
  if env.mkdir (ascii ".") then
    writeFile env (ascii "index.json") (encodeIndex env.clock root g1 g2)
  else Io.lift (.err "failed to create output directory")

/-- `main`, tools/cmd/fetch-certs/main.go:95-179. -/
def fetchMain (env : FetchEnv) (d : Disk) : Io Unit :=
  Io.bind (createDirectoryStructure env d) fun _ =>
  Io.bind (downloadAndSaveRoot env) fun rootData =>
  Io.bind (Io.lift (fetchERCA rootData)) fun _ =>
  Io.bind (indexAndDownload env env.list1 env.order1) fun _ =>
  Io.bind (indexAndDownload env env.list2 env.order2) fun _ =>
  writeIndexFile env (rootEntry rootData) env.sorted1 env.sorted2

/-- The tasks of one list: for each certificate how the writing of its file ends, and what it produces. -/
def listTasks (product : CertMeta → Res Response → Option Product) (metas : List CertMeta)
    (asked : List (Written × Res Response)) : List (Written × Option Product) :=
  (metas.zip asked).map fun x => (x.2.1, product x.1 x.2.2)

/-- The choices of the environment that are not free: every certificate of a list is asked for, the
tasks take their steps in some order, and the sort keeps to its contract. -/
structure FetchEnv.Valid [Crypto] [LowerCase] (env : FetchEnv) (baseURL : Bytes) : Prop where
  gen1 : ∀ rootData n e doc, downloadERCA env = .ok rootData → fetchERCA rootData = .ok (n, e) →
    fetchList env env.list1 = .ok doc →
    env.asked1.length = (tableRows baseURL doc).length ∧
    Schedule ((listTasks (gen1Product n e) (tableRows baseURL doc) env.asked1).map fun t => taskSteps t.1 t.2) env.order1
  gen2 : ∀ doc, fetchList env env.list2 = .ok doc →
    env.asked2.length = (tableRows baseURL doc).length ∧
    Schedule ((listTasks gen2Product (tableRows baseURL doc) env.asked2).map fun t => taskSteps t.1 t.2) env.order2
  sort1 : SortedBy entryLess (env.order1.foldl FetchState.step {}).entries env.sorted1
  sort2 : SortedBy entryLess (env.order2.foldl FetchState.step {}).entries env.sorted2

/-! ## The limit on concurrent downloads -/

/-- An `errgroup` with a limit, as the two index functions use it: tasks not yet started, and the
remaining steps of those started. `none` is a negative limit: no limit. -/
structure Group where
  limit : Option Nat
  waiting : List (List FetchStep)
  active : List (List FetchStep)

/-- One step of the program: the loop over the certificates starts the next task when the group has
room (`g.Go` blocks until then), an active task takes a step, or a task that has finished leaves
the group. The label is the step taken on the shared state. -/
inductive Group.Step : Group → Option FetchStep → Group → Prop
  | start {limit t ts active} (h : ∀ n, limit = some n → active.length < n) :
      Group.Step ⟨limit, t :: ts, active⟩ none ⟨limit, ts, active ++ [t]⟩
  | act {limit waiting before after s t} :
      Group.Step ⟨limit, waiting, before ++ (s :: t) :: after⟩ (some s) ⟨limit, waiting, before ++ t :: after⟩
  | leave {limit waiting before after} :
      Group.Step ⟨limit, waiting, before ++ [] :: after⟩ none ⟨limit, waiting, before ++ after⟩

/-- Any number of steps, with the steps taken on the shared state. -/
inductive Group.Steps : Group → List FetchStep → Group → Prop
  | refl (g) : Group.Steps g [] g
  | silent {g h k ss} (h1 : Group.Step g none h) (h2 : Group.Steps h ss k) : Group.Steps g ss k
  | visible {g h k s ss} (h1 : Group.Step g (some s) h) (h2 : Group.Steps h ss k) : Group.Steps g (s :: ss) k

end Tacho
