import Verif.Model.FetchRun
import Verif.Spec.FetchCerts
/-!
# What the tool takes from the web: texts, links, names and answers
-/

namespace Tacho.Spec

/-- The characters with the property White_Space in the Unicode character database. -/
def WhiteSpace (c : Char) : Prop :=
  c.toNat ∈ [0x09, 0x0A, 0x0B, 0x0C, 0x0D, 0x20, 0x85, 0xA0, 0x1680, 0x2000, 0x2001, 0x2002, 0x2003, 0x2004, 0x2005, 0x2006,
    0x2007, 0x2008, 0x2009, 0x200A, 0x2028, 0x2029, 0x202F, 0x205F, 0x3000]

instance (c : Char) : Decidable (WhiteSpace c) := by unfold WhiteSpace; infer_instance

/-- A text in UTF-8. -/
def utf8 (cs : List Char) : Bytes := cs.flatMap String.utf8EncodeChar

/-- The address an attribute of a link element stands for: its value, if it is an address with one of the two marks of a
certificate file, or the address of the element, if it is the title of a download link. -/
def fileLink (attrs : List (Bytes × Bytes)) : Bytes × Bytes → Option Bytes
  | (key, value) =>
    if key = ascii "href" ∧ (ascii "BIN_DT" <:+: value ∨ ascii "BIN_ST" <:+: value) then some value
    else if key = ascii "title" ∧ ascii "Download certificate file" <:+: value then attrs.lookup (ascii "href")
    else none

mutual
/-- The addresses of certificate files in a part of the page, in document order. What is inside a link to a certificate file
does not count. -/
def linksIn : Html → List Bytes
  | .text _ => []
  | .element name attrs cs =>
    if name = ascii "a" then
      match attrs.findSome? (fileLink attrs) with
      | some l => [l]
      | none => linksInAll cs
    else linksInAll cs
  | .other cs => linksInAll cs
def linksInAll : List Html → List Bytes
  | [] => []
  | c :: cs => linksIn c ++ linksInAll cs
end

/-- The answer is a success with this content. -/
def Answered (r : Res Response) (content : Bytes) : Prop := ∃ x : Response, r = .ok x ∧ x.status = 200 ∧ x.body = .ok content

/-- `s` without the beginning `p`, if it begins with it. -/
def Without (p s r : Bytes) : Prop := s = p ++ r ∨ ¬ p <+: s ∧ r = s

end Tacho.Spec
