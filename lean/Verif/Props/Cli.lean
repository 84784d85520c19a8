import Verif.Model.Cli
import Verif.Props.File
import Mathlib.Data.List.Forall2
/-!
# The command line tool (C65)
-/

namespace Tacho
open Spec

section
variable [Charmap]

/-- The file of this name can be read and parsed, and this is the text of its message. -/
def Shows (read : Bytes → Res Bytes) (format : File → Bytes) (name text : Bytes) : Prop :=
  ∃ data file, read name = .ok data ∧ unmarshalFile data = .ok file ∧ text = format file

theorem parseFiles_good {read : Bytes → Res Bytes} {format : File → Bytes} {good out : List Bytes}
    (h : List.Forall₂ (Shows read format) good out) (rest : List Bytes) :
    parseFiles read format (good ++ rest) =
      (out ++ (parseFiles read format rest).1, (parseFiles read format rest).2) := by
  induction h with
  | nil => rfl
  | cons h _ ih =>
    obtain ⟨data, file, h1, h2, rfl⟩ := h
    rw [List.cons_append, parseFiles, h1]
    dsimp only
    rw [h2]
    dsimp only
    rw [ih]
    rfl

theorem parseFiles_split (read : Bytes → Res Bytes) (format : File → Bytes) (args : List Bytes) :
    ∃ good rest, args = good ++ rest ∧ List.Forall₂ (Shows read format) good (parseFiles read format args).1 ∧
      (rest = [] ∧ (parseFiles read format args).2 = .ok () ∨
       ∃ bad tail, rest = bad :: tail ∧
        (((∃ m, read bad = .err m) ∨ ∃ data m, read bad = .ok data ∧ unmarshalFile data = .err m) ∧
            (∃ m, (parseFiles read format args).2 = .err m) ∨
          (read bad = .panic ∨ ∃ data, read bad = .ok data ∧ unmarshalFile data = .panic) ∧
            (parseFiles read format args).2 = .panic)) := by
  induction args with
  | nil => exact ⟨[], [], rfl, .nil, .inl ⟨rfl, rfl⟩⟩
  | cons name names ih =>
    rw [parseFiles]
    cases h1 : read name with
    | err m => exact ⟨[], _, rfl, .nil, .inr ⟨_, _, rfl, .inl ⟨.inl ⟨m, h1⟩, _, rfl⟩⟩⟩
    | panic => exact ⟨[], _, rfl, .nil, .inr ⟨_, _, rfl, .inr ⟨.inl h1, rfl⟩⟩⟩
    | ok data =>
      dsimp only
      cases h2 : unmarshalFile data with
      | err m => exact ⟨[], _, rfl, .nil, .inr ⟨_, _, rfl, .inl ⟨.inr ⟨data, m, h1, h2⟩, _, rfl⟩⟩⟩
      | panic => exact ⟨[], _, rfl, .nil, .inr ⟨_, _, rfl, .inr ⟨.inr ⟨data, h1, h2⟩, rfl⟩⟩⟩
      | ok file =>
        obtain ⟨good, rest, e, hg, hr⟩ := ih
        exact ⟨name :: good, rest, by rw [e]; rfl, .cons ⟨data, file, h1, h2, rfl⟩ hg, hr⟩

theorem parseFiles_bad {read : Bytes → Res Bytes} {format : File → Bytes} {bad : Bytes} (tail : List Bytes)
    (h : (∃ m, read bad = .err m) ∨ ∃ data m, read bad = .ok data ∧ unmarshalFile data = .err m) :
    ∃ m, parseFiles read format (bad :: tail) = ([], .err m) := by
  rw [parseFiles]
  rcases h with ⟨m, h⟩ | ⟨data, m, h1, h2⟩
  · rw [h]; exact ⟨_, rfl⟩
  · rw [h1]; dsimp only; rw [h2]; exact ⟨_, rfl⟩

/-- C65. `tachograph parse` succeeds exactly if there is an argument and every file can be read and
parsed; it prints their messages, in order. -/
theorem parse_command_ok_iff (read : Bytes → Res Bytes) (format : File → Bytes) (args out : List Bytes) :
    parseCommand read format args = (out, .ok ()) ↔ args ≠ [] ∧
      List.Forall₂ (fun name text => ∃ data file, read name = .ok data ∧ unmarshalFile data = .ok file ∧
        text = format file) args out := by
  unfold parseCommand
  cases args with
  | nil => simp
  | cons a args =>
    rw [if_neg (by simp)]
    constructor
    · intro h
      refine ⟨by simp, ?_⟩
      obtain ⟨good, rest, e, hg, hr⟩ := parseFiles_split read format (a :: args)
      rw [h] at hg hr
      rcases hr with ⟨rfl, _⟩ | ⟨_, _, _, ⟨_, m, hm⟩ | ⟨_, hm⟩⟩
      · rw [e, List.append_nil]; exact hg
      · simp at hm
      · simp at hm
    · rintro ⟨_, h⟩
      have := parseFiles_good (read := read) (format := format) h []
      rw [List.append_nil] at this
      rw [this]
      simp [parseFiles]

/-- C65. It reports an error exactly if there is no argument, or some file cannot be read or parsed;
printed are the messages of the files before the first such file and nothing else. -/
theorem parse_command_err_iff (read : Bytes → Res Bytes) (format : File → Bytes) (args out : List Bytes) :
    (∃ msg, parseCommand read format args = (out, .err msg)) ↔ args = [] ∧ out = [] ∨
      ∃ good bad rest, args = good ++ bad :: rest ∧
        List.Forall₂ (fun name text => ∃ data file, read name = .ok data ∧ unmarshalFile data = .ok file ∧
          text = format file) good out ∧
        ((∃ m, read bad = .err m) ∨ ∃ data m, read bad = .ok data ∧ unmarshalFile data = .err m) := by
  unfold parseCommand
  cases args with
  | nil =>
    simp only [List.length_nil, Nat.zero_lt_one, if_true, Prod.mk.injEq, Res.err.injEq, exists_and_left, exists_eq', and_true, true_and]
    constructor
    · intro h; exact .inl h.symm
    · rintro (rfl | ⟨good, bad, rest, h, _⟩)
      · rfl
      · simp at h
  | cons a args =>
    rw [if_neg (by simp)]
    constructor
    · rintro ⟨msg, h⟩
      obtain ⟨good, rest, e, hg, hr⟩ := parseFiles_split read format (a :: args)
      rw [h] at hg hr
      rcases hr with ⟨_, hm⟩ | ⟨bad, tail, et, ⟨hb, _⟩ | ⟨_, hm⟩⟩
      · simp at hm
      · exact .inr ⟨good, bad, tail, by rw [e, et], hg, hb⟩
      · simp at hm
    · rintro (⟨h, _⟩ | ⟨good, bad, rest, e, hg, hb⟩)
      · simp at h
      · obtain ⟨m, hm⟩ := parseFiles_bad (format := format) rest hb
        refine ⟨m, ?_⟩
        rw [e, parseFiles_good hg, hm]
        simp

/-- C65, finding. It crashes instead of reporting an error on a file that `UnmarshalFile` panics on. -/
theorem parse_command_crash (read : Bytes → Res Bytes) (format : File → Bytes) (good out : List Bytes) (bad : Bytes)
    (rest : List Bytes) (data : Bytes)
    (hg : List.Forall₂ (fun name text => ∃ data file, read name = .ok data ∧ unmarshalFile data = .ok file ∧
      text = format file) good out) (h1 : read bad = .ok data) (h2 : unmarshalFile data = .panic) :
    parseCommand read format (good ++ bad :: rest) = (out, .panic) := by
  unfold parseCommand
  rw [if_neg (by simp), parseFiles_good hg, parseFiles, h1]
  dsimp only
  rw [h2]
  simp

/-- Such a file exists: two bytes are enough. -/
example (format : File → Bytes) : parseCommand (fun _ => .ok [0x76, 0x01]) format [[1]] = ([], .panic) :=
  parse_command_crash _ format [] [] [1] [] [0x76, 0x01] .nil rfl empty_overview_panics

/-- A file that parses, one that does not, and one that is not looked at. -/
example (format : File → Bytes) : ∃ msg,
    parseCommand (fun n => if n = [1] then .ok [0, 2, 0, 0, 3, 1, 2, 3, 5, 0x0C, 0, 0, 1, 9] else .ok [1, 2, 3]) format
      [[1], [2], [1]] =
      ([format { type := .rawCard, rawCard := some (sampleControlCard.map Tlv.record) }], .err msg) := by
  refine (parse_command_err_iff _ _ _ _).mpr (.inr ⟨[[1]], [2], [[1]], rfl, ?_, .inr ?_⟩)
  · exact .cons ⟨_, _, rfl, control_card_read, rfl⟩ .nil
  · obtain ⟨m, hm⟩ := file_refused (d := [1, 2, 3]) (by simp) (by simp)
    exact ⟨_, m, rfl, hm⟩

end

end Tacho
