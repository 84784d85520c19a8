"""Writes AXIOMS.md: for every theorem of MANIFEST.json, the axioms it depends on.

Run from /verif after `lake build`: python3 scripts/axioms.py
"""
import os
import subprocess
import tempfile

PROGRAM = r"""
import Verif
import Lean
open Lean
run_meta do
  let j ← IO.ofExcept (Json.parse (← IO.FS.readFile "../MANIFEST.json"))
  let claims ← IO.ofExcept ((← IO.ofExcept (j.getObjVal? "claims")).getArr?)
  let mut groups : Std.HashMap String (Array String) := {}
  let mut seen : NameSet := {}
  for c in claims do
    for t in ← IO.ofExcept ((← IO.ofExcept (c.getObjVal? "theorems")).getArr?) do
      let n := (← IO.ofExcept t.getStr?).toName
      if seen.contains n then continue
      seen := seen.insert n
      unless (← getEnv).contains n do throwError "unknown theorem {n}"
      let ax := (← collectAxioms n).map toString |>.qsort (· < ·)
      let key := if ax.isEmpty then "none" else String.intercalate ", " ax.toList
      groups := groups.insert key ((groups.getD key #[]).push (toString (n.replacePrefix `Tacho .anonymous)))
  for (k, v) in groups.toArray.qsort (fun a b => a.1 < b.1) do
    IO.println s!"### {k} ({v.size} theorems)\n"
    IO.println (String.intercalate ", " (v.qsort (· < ·)).toList)
    IO.println ""
"""

HEADER = """# Axioms of the theorems in MANIFEST.json

Generated: `python3 scripts/axioms.py` (after `lake build` in lean).

"""

with tempfile.TemporaryDirectory() as d:
    path = os.path.join(d, "axioms.lean")
    with open(path, "w") as f:
        f.write(PROGRAM)
    out = subprocess.run(["lake", "env", "lean", path], cwd="lean", capture_output=True, text=True)
    if out.returncode != 0:
        raise SystemExit(out.stdout + out.stderr)
with open("AXIOMS.md", "w") as f:
    f.write(HEADER + out.stdout)
