import Verif.Props.Size
import Verif.Props.CutOffExamples
/-!
# C77: the hypotheses are met
-/

namespace Tacho.CutOffExamples
open Tacho Spec WriteExamples AgainExamples

local instance : Charmap := latin1

/-- `message_records` applies to a vehicle unit download with one block of detailed speed. -/
example : unmarshalFile (vuBytes exVu) = .ok { type := .vehicleUnit, vehicleUnit := some exVuMessage } ∧
    Size.recordsIn { type := .vehicleUnit, vehicleUnit := some exVuMessage } = 1 := ⟨exVu_read, by decide +kernel⟩

end Tacho.CutOffExamples
