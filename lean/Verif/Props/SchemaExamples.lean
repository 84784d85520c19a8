import Verif.Props.Schema
import Verif.Props.CardSettledExamples
/-!
# A card with strings of both kinds, all of which satisfy the rules (C88), and strings that do not
-/

namespace Tacho.SchemaExamples
open Tacho Spec WriteExamples AgainExamples Schema

local instance : Charmap := latin1

/-- The card of `strayRecords` holds twelve string messages, and all satisfy the rules. -/
example : ∃ f, unmarshalFile (fileBytes strayRecords) = .ok f ∧ (strings f).length = 12 ∧ ∀ t ∈ strings f, t.Rules :=
  ⟨_, strayFile_read, by decide +kernel, file_validates _ _ strayFile_read⟩

/-- The identification of that card, as a message that can be anonymised. -/
example : ∀ t ∈ strings (anonymizeIdentification { toIdentification := strayMessage }), t.Rules := by
  have h : Validates strayMessage := ok_identification _ _ strayIdentification_read
  have e : strings ({ toIdentification := strayMessage } : AnyIdentification) = strings strayMessage := by
    show ((((_ ++ _) ++ []) ++ []) ++ []) = _
    rw [List.append_nil, List.append_nil, List.append_nil]
    rfl
  exact anonymized_identification_validates _ (e ▸ h)

/-- The rules are not empty: an unspecified encoding, a length that does not match the raw data, a length of 0. -/
example : ¬ PagedRules { encoding := 0, rawData := some [0, 0x41], length := some 1, value := [0x41] } ∧
    ¬ PagedRules { encoding := 4, rawData := some [1, 0x41], length := some 2, value := [0x41] } ∧
    ¬ Ia5Rules { rawData := none, length := some 0, value := [] } := by
  refine ⟨fun h => ?_, fun h => ?_, fun h => ?_⟩
  · exact absurd h.1 (by decide)
  · obtain ⟨-, -, n, h1, -, h2⟩ := h
    cases h1
    exact absurd (h2 _ rfl).2 (by decide)
  · obtain ⟨n, h1, h2, -⟩ := h
    cases h1
    exact absurd h2 (by decide)

/-- A text of three characters does not fit a field of two bytes without raw data, though the rules hold. -/
example : Ia5Rules { rawData := none, length := some 2, value := [0x41, 0x42, 0x43] } ∧
    ¬ ∃ out, appendIa5StringValue [] (some { rawData := none, length := some 2, value := [0x41, 0x42, 0x43] }) = .ok out := by
  have h : Ia5Rules { rawData := none, length := some 2, value := [0x41, 0x42, 0x43] } := ⟨2, rfl, by decide, fun _ h => by cases h⟩
  exact ⟨h, fun h' => absurd ((valid_ia5_written _ 2 h rfl []).1.1 h' rfl) (by decide)⟩

end Tacho.SchemaExamples
