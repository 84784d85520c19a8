import Verif.Model.FetchCerts
import Verif.Spec.Certificates
/-!
# What the certificate index should contain

Stated without the calendar arithmetic, the text functions and the comparison of the tool: the
Gregorian calendar as a table, times as digits between separators, and the order of the entries on
their texts.
-/

namespace Tacho.Spec

/-! ## Calendar -/

/-- A leap year of the Gregorian calendar. -/
def Leap (y : Nat) : Prop := 4 ∣ y ∧ (¬ 100 ∣ y ∨ 400 ∣ y)

instance (y : Nat) : Decidable (Leap y) := by unfold Leap; infer_instance

/-- The lengths of the twelve months. -/
def months (y : Nat) : List Nat :=
  [31, if Leap y then 29 else 28, 31, 30, 31, 30, 31, 31, 30, 31, 30, 31]

/-- A day of the calendar. -/
def ValidDate (y m d : Nat) : Prop := 1 ≤ m ∧ m ≤ 12 ∧ 1 ≤ d ∧ ∃ n, (months y)[m - 1]? = some n ∧ d ≤ n

/-- Days from 1 January 1970 to the given day. -/
def dayNumber (y m d : Nat) : Nat :=
  ((List.range' 1970 (y - 1970)).map fun k => (months k).sum).sum + ((months y).take (m - 1)).sum + (d - 1)

/-! ## Texts -/

/-- `s` is `n` written with exactly `k` decimal digits. -/
def Digits (k n : Nat) (s : Bytes) : Prop :=
  s.length = k ∧ (∀ b ∈ s, 48 ≤ b.toNat ∧ b.toNat ≤ 57) ∧
  s.foldl (fun a b => a * 10 + (b.toNat - 48)) 0 = n

/-- `s` is a UTC time in the notation of RFC 3339: `2024-02-29T12:30:00Z`. -/
def TimeText (s : Bytes) (y m d h i x : Nat) : Prop :=
  ∃ sy sm sd sh si sx, Digits 4 y sy ∧ Digits 2 m sm ∧ Digits 2 d sd ∧ Digits 2 h sh ∧ Digits 2 i si ∧
    Digits 2 x sx ∧
    s = sy ++ ascii "-" ++ sm ++ ascii "-" ++ sd ++ ascii "T" ++ sh ++ ascii ":" ++ si ++ ascii ":" ++ sx ++
      ascii "Z" ∧
    ValidDate y m d ∧ h < 24 ∧ i < 60 ∧ x < 60

/-- `s` denotes the instant `n` seconds after 1970-01-01T00:00:00Z. -/
def UnixText (s : Bytes) (n : Nat) : Prop :=
  ∃ y m d h i x, TimeText s y m d h i x ∧ 1970 ≤ y ∧ n = dayNumber y m d * 86400 + h * 3600 + i * 60 + x

/-- `s` is a day in one of the two notations of the web page, `29/02/2024` or `2024-02-29`. -/
def DayText (s : Bytes) (y m d : Nat) : Prop :=
  ∃ sy sm sd, Digits 4 y sy ∧ Digits 2 m sm ∧ Digits 2 d sd ∧ ValidDate y m d ∧
    (s = sd ++ ascii "/" ++ sm ++ ascii "/" ++ sy ∨ s = sy ++ ascii "-" ++ sm ++ ascii "-" ++ sd)

/-- White space of ASCII. -/
def AsciiSpace (b : UInt8) : Prop := b = 9 ∨ b = 10 ∨ b = 11 ∨ b = 12 ∨ b = 13 ∨ b = 32

instance (b : UInt8) : Decidable (AsciiSpace b) := by unfold AsciiSpace; infer_instance

/-! ## The web page -/

/-- The first node is the second or lies somewhere below it. -/
inductive Within : Html → Html → Prop
  | self (n) : Within n n
  | inElement {n c name attrs cs} (h : Within n c) (hc : c ∈ cs) : Within n (.element name attrs cs)
  | inOther {n c cs} (h : Within n c) (hc : c ∈ cs) : Within n (.other cs)

/-- The cells of a row: its `td` and `th` elements, in order. -/
inductive Cells : List Html → List Html → Prop
  | nil : Cells [] []
  | cell {name attrs cs rest tds} (h : name = ascii "td" ∨ name = ascii "th") : Cells rest tds →
      Cells (.element name attrs cs :: rest) (.element name attrs cs :: tds)
  | skip {x rest tds} (h : ∀ attrs cs, x ≠ .element (ascii "td") attrs cs ∧ x ≠ .element (ascii "th") attrs cs) : Cells rest tds →
      Cells (x :: rest) tds

/-- All text in a list of nodes and below them, in document order. -/
inductive Texts : List Html → Bytes → Prop
  | nil : Texts [] []
  | text (d) {rest t} : Texts rest t → Texts (.text d :: rest) (d ++ t)
  | element {name attrs cs t rest u} : Texts cs t → Texts rest u → Texts (.element name attrs cs :: rest) (t ++ u)
  | other {cs t rest u} : Texts cs t → Texts rest u → Texts (.other cs :: rest) (t ++ u)

/-- A text that looks like a date: without white space around it ten bytes, with two slashes or two hyphens. -/
def DateLike (s : Bytes) : Prop := (trimSpace s).length = 10 ∧ ((trimSpace s).count 0x2F = 2 ∨ (trimSpace s).count 0x2D = 2)

/-- A cell text that can name a country: not a date, longer than two bytes, with neither "Download" nor
(in any case) "certificate" in it. -/
def Plausible [LowerCase] (s : Bytes) : Prop :=
  ¬ DateLike s ∧ s.length > 2 ∧ (¬ ∃ a b, s = a ++ ascii "Download" ++ b) ∧
  ¬ ∃ a b, LowerCase.toLower s = a ++ ascii "certificate" ++ b

/-- `x` is the first element of the list with the property, or there is none and `x` is `dflt`. -/
def FirstOr {α : Type} (P : α → Prop) (l : List α) (dflt x : α) : Prop :=
  (∃ before after, l = before ++ x :: after ∧ P x ∧ ∀ y ∈ before, ¬ P y) ∨ (∀ y ∈ l, ¬ P y) ∧ x = dflt

/-! ## Certificates -/

/-- The authority reference of a second generation certificate: the second item of the body. -/
def Gen2Authority (d car : Bytes) : Prop :=
  ∃ iOuter iBody iCpi iCar cpi t0 t1 t2, d = iOuter ++ t0 ∧ Item iOuter (iBody ++ t1) ∧
    Item iBody (iCpi ++ (iCar ++ t2)) ∧ Item iCpi cpi ∧ Item iCar car ∧ car.length = 8

/-- The holder reference: the fifth item of the body. -/
def Gen2Holder (d chr : Bytes) : Prop :=
  ∃ iOuter iBody i1 i2 i3 i4 iChr c1 c2 c3 c4 t0 t1 t2, d = iOuter ++ t0 ∧ Item iOuter (iBody ++ t1) ∧
    Item iBody (i1 ++ (i2 ++ (i3 ++ (i4 ++ (iChr ++ t2))))) ∧
    Item i1 c1 ∧ Item i2 c2 ∧ Item i3 c3 ∧ Item i4 c4 ∧ Item iChr chr ∧ chr.length = 8

/-! ## The index -/

/-- Entry `a` may stand before entry `b`: countries in ascending order; within a country later
expiration first, and entries without a date last. The times are compared as texts, which for this
notation is the order of time. -/
def InOrder (a b : IndexEntry) : Prop :=
  a.country < b.country ∨
  a.country = b.country ∧ (b.expiration = [] ∨ a.expiration ≠ [] ∧ b.expiration ≤ a.expiration)

/-- The path names a file directly inside the directory. -/
def DirectlyIn (dir path : Bytes) : Prop :=
  ∃ name, path = dir ++ ascii "/" ++ name ∧ name ≠ [] ∧ name ≠ ascii "." ∧ name ≠ ascii ".." ∧ 0x2F ∉ name

end Tacho.Spec
