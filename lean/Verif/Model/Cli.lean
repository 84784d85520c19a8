import Verif.Model.File
/-!
# The command line tool

Models `tachograph parse` (cmd/tachograph/main.go). Argument parsing (cobra), colours (fang) and
the text form of a message (protojson) are libraries and not modelled: `format` stands for the
latter.
-/

namespace Tacho

section
variable [Charmap]

/-- The loop of the `parse` command, cmd/tachograph/main.go:64-75: the texts printed, one per file, and
how the command ends. -/
def parseFiles (read : Bytes → Res Bytes) (format : File → Bytes) : List Bytes → List Bytes × Res Unit
  | [] => ([], .ok ())
  | name :: names =>
    match read name with
    | .err _ => ([], .err "error reading file")
    | .panic => ([], .panic)
    | .ok data =>
      match unmarshalFile data with
      | .err _ => ([], .err "error parsing file")
      | .panic => ([], .panic)
      | .ok file =>
        let r := parseFiles read format names
        (format file :: r.1, r.2)

/-- The `parse` command, cmd/tachograph/main.go:56-78; `cobra.MinimumNArgs(1)` refuses an empty list. -/
def parseCommand (read : Bytes → Res Bytes) (format : File → Bytes) (args : List Bytes) : List Bytes × Res Unit :=
  if args.length < 1 then ([], .err "requires at least 1 arg(s)") else parseFiles read format args

end

end Tacho
