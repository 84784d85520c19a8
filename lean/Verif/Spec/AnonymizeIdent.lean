import Verif.Model.AnonymizeIdent
/-!
# What an anonymised identification shares with the original
-/

namespace Tacho.Spec
open Tacho

/-- The object at `a` is the same in both states. -/
structure SameIdentObject (h h' : IdentObjects) (a : Nat) : Prop where
  time : h'.time a = h.time a
  text : h'.text a = h.text a
  ia5 : h'.ia5 a = h.ia5 a
  date : h'.date a = h.date a
  driver : h'.driver a = h.driver a
  owner : h'.owner a = h.owner a
  card : h'.card a = h.card a
  driverHolder : h'.driverHolder a = h.driverHolder a
  workshopHolder : h'.workshopHolder a = h.workshopHolder a
  controlHolder : h'.controlHolder a = h.controlHolder a
  companyHolder : h'.companyHolder a = h.companyHolder a
  ident : h'.ident a = h.ident a

/-- Every object that existed in `h` is the same in `h'`. -/
def IdentsUntouched (h h' : IdentObjects) : Prop := ∀ a < h.next, SameIdentObject h h' a

/-- The objects a driver identification consists of. -/
def driverObjects (h : IdentObjects) (a : Nat) : List Nat :=
  a :: ((h.driver a).number.toList ++ (h.driver a).replacement.toList ++ (h.driver a).renewal.toList)

/-- The indices of an owner identification. -/
def indexObjects (h : IdentObjects) (a : Nat) : List Nat :=
  (h.owner a).consecutive.toList ++ (h.owner a).replacement.toList ++ (h.owner a).renewal.toList

/-- The objects an owner identification consists of. -/
def ownerObjects (h : IdentObjects) (a : Nat) : List Nat := a :: ((h.owner a).owner.toList ++ indexObjects h a)

/-- The objects a card consists of. -/
def cardObjects (h : IdentObjects) (a : Nat) : List Nat :=
  a :: ((h.card a).driver.toList.flatMap (driverObjects h) ++ (h.card a).owner.toList.flatMap (ownerObjects h) ++
    (h.card a).authority.toList ++ (h.card a).issueDate.toList ++ (h.card a).validityBegin.toList ++ (h.card a).expiryDate.toList)

/-- The objects the holder of a driver card consists of. -/
def driverHolderObjects (h : IdentObjects) (a : Nat) : List Nat :=
  a :: ((h.driverHolder a).surname.toList ++ (h.driverHolder a).firstNames.toList ++ (h.driverHolder a).birthDate.toList ++
    (h.driverHolder a).language.toList)

/-- The objects the holder of a workshop or control card consists of. -/
def officeHolderObjects (s : Nat → OfficeHolderObj) (a : Nat) : List Nat :=
  a :: ((s a).name.toList ++ (s a).address.toList ++ (s a).surname.toList ++ (s a).firstNames.toList ++ (s a).language.toList)

/-- The objects the holder of a company card consists of. -/
def companyHolderObjects (h : IdentObjects) (a : Nat) : List Nat :=
  a :: ((h.companyHolder a).name.toList ++ (h.companyHolder a).address.toList ++ (h.companyHolder a).language.toList)

/-- The objects an identification consists of. -/
def identObjects (h : IdentObjects) (a : Nat) : List Nat :=
  a :: ((h.ident a).card.toList.flatMap (cardObjects h) ++ (h.ident a).driverHolder.toList.flatMap (driverHolderObjects h) ++
    (h.ident a).workshopHolder.toList.flatMap (officeHolderObjects h.workshopHolder) ++
    (h.ident a).controlHolder.toList.flatMap (officeHolderObjects h.controlHolder) ++
    (h.ident a).companyHolder.toList.flatMap (companyHolderObjects h))

/-- The preferred language of the holder a card of this type has. -/
def languageObject (h : IdentObjects) (a : Nat) : Option Nat :=
  match (h.ident a).cardType with
  | .driverCard => (h.ident a).driverHolder.bind (fun p => (h.driverHolder p).language)
  | .workshopCard => (h.ident a).workshopHolder.bind (fun p => (h.workshopHolder p).language)
  | .controlCard => (h.ident a).controlHolder.bind (fun p => (h.controlHolder p).language)
  | .companyCard => (h.ident a).companyHolder.bind (fun p => (h.companyHolder p).language)
  | _ => none

/-- What the copy shares with the original: the language of the holder and the indices of the owner. -/
def sharedIdentObjects (h : IdentObjects) (a : Nat) : List Nat :=
  (languageObject h a).toList ++
    (h.ident a).card.toList.flatMap (fun c => (h.card c).owner.toList.flatMap (indexObjects h))

end Tacho.Spec
