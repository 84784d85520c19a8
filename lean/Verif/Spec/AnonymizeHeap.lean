import Verif.Model.AnonymizeHeap
/-!
# What an anonymised message shares with the original
-/

namespace Tacho.Spec
open Tacho

/-- Every object that existed in `h` is the same in `h'`. -/
def Untouched (h h' : Objects) : Prop := ∀ a < h.next, h'.time a = h.time a ∧ h'.gnss a = h.gnss a ∧ h'.place a = h.place a

/-- The objects that can be reached from the record at `a`: the record, its time, its GNSS record and the time of that. -/
inductive Reaches (h : Objects) (a : Nat) : Nat → Prop
  | record : Reaches h a a
  | time {t} : (h.place a).time = some t → Reaches h a t
  | gnss {g} : (h.place a).gnss = some g → Reaches h a g
  | gnssTime {g t} : (h.place a).gnss = some g → (h.gnss g).timestamp = some t → Reaches h a t

/-- All objects of the record at `a` exist. -/
def Present (h : Objects) (a : Nat) : Prop := ∀ x, Reaches h a x → x < h.next

end Tacho.Spec
