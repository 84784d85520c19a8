import Mathlib.Tactic.Tauto
import Verif.Spec.AnonymizeIdent
/-!
# What an anonymised identification shares with the original (C93)
-/

namespace Tacho
open Spec

/-- One state leads to the other by making new objects. -/
structure Grows (h h' : IdentObjects) : Prop where
  next : h.next ≤ h'.next
  same : IdentsUntouched h h'

theorem Grows.refl (h : IdentObjects) : Grows h h := ⟨Nat.le_refl _, fun _ _ => by constructor <;> rfl⟩

theorem Grows.trans {h h' h'' : IdentObjects} (e : Grows h h') (e' : Grows h' h'') : Grows h h'' :=
  ⟨Nat.le_trans e.next e'.next, fun a ha => by
    have x := e.same a ha
    have y := e'.same a (Nat.lt_of_lt_of_le ha e.next)
    exact ⟨y.1.trans x.1, y.2.trans x.2, y.3.trans x.3, y.4.trans x.4, y.5.trans x.5, y.6.trans x.6, y.7.trans x.7, y.8.trans x.8,
      y.9.trans x.9, y.10.trans x.10, y.11.trans x.11, y.12.trans x.12⟩⟩

section
variable (h : IdentObjects)
local macro "grows" n:ident : tactic => `(tactic| (
  refine ⟨Nat.le_succ _, fun a ha => ?_⟩
  have := Nat.ne_of_lt ha
  constructor <;> simp [$n:ident, this]))
theorem grows_time (v) : Grows h (h.newTime v).2 := by grows IdentObjects.newTime
theorem grows_text (v) : Grows h (h.newText v).2 := by grows IdentObjects.newText
theorem grows_ia5 (v) : Grows h (h.newIa5 v).2 := by grows IdentObjects.newIa5
theorem grows_date (v) : Grows h (h.newDate v).2 := by grows IdentObjects.newDate
theorem grows_driver (v) : Grows h (h.newDriver v).2 := by grows IdentObjects.newDriver
theorem grows_owner (v) : Grows h (h.newOwner v).2 := by grows IdentObjects.newOwner
theorem grows_card (v) : Grows h (h.newCard v).2 := by grows IdentObjects.newCard
theorem grows_driverHolder (v) : Grows h (h.newDriverHolder v).2 := by grows IdentObjects.newDriverHolder
theorem grows_workshopHolder (v) : Grows h (h.newWorkshopHolder v).2 := by grows IdentObjects.newWorkshopHolder
theorem grows_controlHolder (v) : Grows h (h.newControlHolder v).2 := by grows IdentObjects.newControlHolder
theorem grows_companyHolder (v) : Grows h (h.newCompanyHolder v).2 := by grows IdentObjects.newCompanyHolder
theorem grows_ident (v) : Grows h (h.newIdent v).2 := by grows IdentObjects.newIdent
end

/-! ### What is shown stays -/

theorem map_same {α β : Type} {f g : α → β} {o : Option α} (e : ∀ x ∈ o.toList, f x = g x) : o.map f = o.map g := by
  cases o with
  | none => rfl
  | some x => exact congrArg some (e x (by simp))

theorem flatMap_same {α β : Type} {f g : α → List β} {l : List α} (e : ∀ x ∈ l, f x = g x) : l.flatMap f = l.flatMap g := by
  induction l with
  | nil => rfl
  | cons a l ih => rw [List.flatMap_cons, List.flatMap_cons, e a (by simp), ih fun x hx => e x (by simp [hx])]

section
variable {h h' : IdentObjects} (e : IdentsUntouched h h')
include e

theorem driver_same {a : Nat} (p : ∀ x ∈ driverObjects h a, x < h.next) :
    h'.driverAt a = h.driverAt a ∧ driverObjects h' a = driverObjects h a := by
  have h0 := (e a (p a (by simp [driverObjects]))).driver
  refine ⟨?_, by simp only [driverObjects, h0]⟩
  simp only [IdentObjects.driverAt, h0]
  congr 1 <;> exact map_same fun x hx => (e x (p x (by simp_all [driverObjects]))).ia5

theorem owner_same {a : Nat} (p : ∀ x ∈ ownerObjects h a, x < h.next) :
    h'.ownerAt a = h.ownerAt a ∧ ownerObjects h' a = ownerObjects h a := by
  have h0 := (e a (p a (by simp [ownerObjects]))).owner
  refine ⟨?_, by simp only [ownerObjects, indexObjects, h0]⟩
  simp only [IdentObjects.ownerAt, h0]
  congr 1 <;> exact map_same fun x hx => (e x (p x (by simp_all [ownerObjects, indexObjects]))).ia5

theorem card_same {a : Nat} (p : ∀ x ∈ cardObjects h a, x < h.next) :
    h'.cardAt a = h.cardAt a ∧ cardObjects h' a = cardObjects h a := by
  have h0 := (e a (p a (by simp [cardObjects]))).card
  have pd : ∀ d ∈ (h.card a).driver.toList, ∀ x ∈ driverObjects h d, x < h.next := fun d hd x hx =>
    p x (by simp only [cardObjects, List.mem_cons, List.mem_append, List.mem_flatMap]; exact .inr (.inl (.inl (.inl (.inl (.inl ⟨d, hd, hx⟩))))))
  have po : ∀ d ∈ (h.card a).owner.toList, ∀ x ∈ ownerObjects h d, x < h.next := fun d hd x hx =>
    p x (by simp only [cardObjects, List.mem_cons, List.mem_append, List.mem_flatMap]; exact .inr (.inl (.inl (.inl (.inl (.inr ⟨d, hd, hx⟩))))))
  have h1 : ∀ x, x ∈ (h.card a).authority.toList ∨ x ∈ (h.card a).issueDate.toList ∨ x ∈ (h.card a).validityBegin.toList ∨
      x ∈ (h.card a).expiryDate.toList → x < h.next := fun x hx =>
    p x (by simp only [cardObjects, List.mem_cons, List.mem_append]; tauto)
  constructor
  · simp only [IdentObjects.cardAt, h0]
    congr 1
    · exact map_same fun d hd => (driver_same e (pd d hd)).1
    · exact map_same fun d hd => (owner_same e (po d hd)).1
    · exact map_same fun x hx => (e x (h1 x (by tauto))).text
    · exact map_same fun x hx => (e x (h1 x (by tauto))).time
    · exact map_same fun x hx => (e x (h1 x (by tauto))).time
    · exact map_same fun x hx => (e x (h1 x (by tauto))).time
  · simp only [cardObjects, h0]
    rw [flatMap_same fun d hd => (driver_same e (pd d hd)).2, flatMap_same fun d hd => (owner_same e (po d hd)).2]

theorem driverHolder_same {a : Nat} (p : ∀ x ∈ driverHolderObjects h a, x < h.next) :
    h'.driverHolderAt a = h.driverHolderAt a ∧ driverHolderObjects h' a = driverHolderObjects h a := by
  have h0 := (e a (p a (by simp [driverHolderObjects]))).driverHolder
  refine ⟨?_, by simp only [driverHolderObjects, h0]⟩
  simp only [IdentObjects.driverHolderAt, h0]
  congr 1
  · exact map_same fun x hx => (e x (p x (by simp_all [driverHolderObjects]))).text
  · exact map_same fun x hx => (e x (p x (by simp_all [driverHolderObjects]))).text
  · exact map_same fun x hx => (e x (p x (by simp_all [driverHolderObjects]))).date
  · exact map_same fun x hx => (e x (p x (by simp_all [driverHolderObjects]))).ia5

theorem workshopHolder_same {a : Nat} (p : ∀ x ∈ officeHolderObjects h.workshopHolder a, x < h.next) :
    h'.workshopHolderAt a = h.workshopHolderAt a ∧
    officeHolderObjects h'.workshopHolder a = officeHolderObjects h.workshopHolder a := by
  have h0 := (e a (p a (by simp [officeHolderObjects]))).workshopHolder
  refine ⟨?_, by simp only [officeHolderObjects, h0]⟩
  simp only [IdentObjects.workshopHolderAt, h0]
  congr 1 <;> exact map_same fun x hx => (e x (p x (by simp_all [officeHolderObjects]))).text

theorem controlHolder_same {a : Nat} (p : ∀ x ∈ officeHolderObjects h.controlHolder a, x < h.next) :
    h'.controlHolderAt a = h.controlHolderAt a ∧
    officeHolderObjects h'.controlHolder a = officeHolderObjects h.controlHolder a := by
  have h0 := (e a (p a (by simp [officeHolderObjects]))).controlHolder
  refine ⟨?_, by simp only [officeHolderObjects, h0]⟩
  simp only [IdentObjects.controlHolderAt, h0]
  congr 1 <;> exact map_same fun x hx => (e x (p x (by simp_all [officeHolderObjects]))).text

theorem companyHolder_same {a : Nat} (p : ∀ x ∈ companyHolderObjects h a, x < h.next) :
    h'.companyHolderAt a = h.companyHolderAt a ∧ companyHolderObjects h' a = companyHolderObjects h a := by
  have h0 := (e a (p a (by simp [companyHolderObjects]))).companyHolder
  refine ⟨?_, by simp only [companyHolderObjects, h0]⟩
  simp only [IdentObjects.companyHolderAt, h0]
  congr 1 <;> exact map_same fun x hx => (e x (p x (by simp_all [companyHolderObjects]))).text

/-- C93: what the getters show of an identification does not change if none of its objects is written to. -/
theorem ident_untouched_shows {a : Nat} (p : ∀ x ∈ identObjects h a, x < h.next) :
    h'.identAt a = h.identAt a ∧ identObjects h' a = identObjects h a := by
  have h0 := (e a (p a (by simp [identObjects]))).ident
  have p1 : ∀ d ∈ (h.ident a).card.toList, ∀ x ∈ cardObjects h d, x < h.next := fun d hd x hx =>
    p x (by simp only [identObjects, List.mem_cons, List.mem_append, List.mem_flatMap]; exact .inr (.inl (.inl (.inl (.inl ⟨d, hd, hx⟩)))))
  have p2 : ∀ d ∈ (h.ident a).driverHolder.toList, ∀ x ∈ driverHolderObjects h d, x < h.next := fun d hd x hx =>
    p x (by simp only [identObjects, List.mem_cons, List.mem_append, List.mem_flatMap]; exact .inr (.inl (.inl (.inl (.inr ⟨d, hd, hx⟩)))))
  have p3 : ∀ d ∈ (h.ident a).workshopHolder.toList, ∀ x ∈ officeHolderObjects h.workshopHolder d, x < h.next := fun d hd x hx =>
    p x (by simp only [identObjects, List.mem_cons, List.mem_append, List.mem_flatMap]; exact .inr (.inl (.inl (.inr ⟨d, hd, hx⟩))))
  have p4 : ∀ d ∈ (h.ident a).controlHolder.toList, ∀ x ∈ officeHolderObjects h.controlHolder d, x < h.next := fun d hd x hx =>
    p x (by simp only [identObjects, List.mem_cons, List.mem_append, List.mem_flatMap]; exact .inr (.inl (.inr ⟨d, hd, hx⟩)))
  have p5 : ∀ d ∈ (h.ident a).companyHolder.toList, ∀ x ∈ companyHolderObjects h d, x < h.next := fun d hd x hx =>
    p x (by simp only [identObjects, List.mem_cons, List.mem_append, List.mem_flatMap]; exact .inr (.inr ⟨d, hd, hx⟩))
  constructor
  · simp only [IdentObjects.identAt, h0]
    rw [map_same fun d hd => (card_same e (p1 d hd)).1, map_same fun d hd => (driverHolder_same e (p2 d hd)).1,
      map_same fun d hd => (workshopHolder_same e (p3 d hd)).1, map_same fun d hd => (controlHolder_same e (p4 d hd)).1,
      map_same fun d hd => (companyHolder_same e (p5 d hd)).1]
  · simp only [identObjects, h0]
    rw [flatMap_same fun d hd => (card_same e (p1 d hd)).2, flatMap_same fun d hd => (driverHolder_same e (p2 d hd)).2,
      flatMap_same fun d hd => (workshopHolder_same e (p3 d hd)).2, flatMap_same fun d hd => (controlHolder_same e (p4 d hd)).2,
      flatMap_same fun d hd => (companyHolder_same e (p5 d hd)).2]

end

/-! ### What is made -/

theorem driver_made (d : Option Nat) (h : IdentObjects) :
    Grows h (anonymizeDriverAt d h).2 ∧
    (∀ a ∈ (anonymizeDriverAt d h).1.toList, ∀ x ∈ driverObjects (anonymizeDriverAt d h).2 a,
      h.next ≤ x ∧ x < (anonymizeDriverAt d h).2.next) ∧
    (anonymizeDriverAt d h).1.map (anonymizeDriverAt d h).2.driverAt = anonymizeDriverIdentification (d.map h.driverAt) := by
  cases d with
  | none => exact ⟨Grows.refl h, by simp [anonymizeDriverAt], rfl⟩
  | some d =>
    refine ⟨(grows_ia5 _ _).trans (grows_driver _ _), ?_, ?_⟩
    · simp [anonymizeDriverAt, driverObjects, IdentObjects.newIa5, IdentObjects.newDriver]
      omega
    · simp [anonymizeDriverAt, IdentObjects.driverAt, IdentObjects.newIa5, IdentObjects.newDriver, anonymizeDriverIdentification]

theorem owner_made (o : Option Nat) (h : IdentObjects) (p : ∀ a ∈ o.toList, ∀ x ∈ ownerObjects h a, x < h.next) :
    Grows h (anonymizeOwnerAt o h).2 ∧
    (∀ a ∈ (anonymizeOwnerAt o h).1.toList, ∀ x ∈ ownerObjects (anonymizeOwnerAt o h).2 a,
      (h.next ≤ x ∧ x < (anonymizeOwnerAt o h).2.next) ∨ x ∈ o.toList.flatMap (indexObjects h)) ∧
    (∀ x ∈ o.toList.flatMap (indexObjects h),
      x ∈ (anonymizeOwnerAt o h).1.toList.flatMap (ownerObjects (anonymizeOwnerAt o h).2)) ∧
    (anonymizeOwnerAt o h).1.map (anonymizeOwnerAt o h).2.ownerAt = (o.map h.ownerAt).map fun o => {
      owner := some { rawData := none, length := some 13, value := "OWNER00000001".toUTF8.toList }
      consecutive := o.consecutive, replacement := o.replacement, renewal := o.renewal } := by
  cases o with
  | none => exact ⟨Grows.refl h, by simp [anonymizeOwnerAt], by simp, rfl⟩
  | some o =>
    have q : ∀ x ∈ indexObjects h o, x ≠ h.next := fun x hx =>
      Nat.ne_of_lt (p o (by simp) x (by simp only [ownerObjects, List.mem_cons, List.mem_append]; tauto))
    refine ⟨(grows_ia5 _ _).trans (grows_owner _ _), ?_, ?_, ?_⟩
    · intro a ha x hx
      simp only [anonymizeOwnerAt, IdentObjects.newIa5, IdentObjects.newOwner, Option.toList_some, List.mem_singleton] at ha
      subst ha
      simp only [anonymizeOwnerAt, ownerObjects, indexObjects, IdentObjects.newIa5, IdentObjects.newOwner, if_true, Option.toList_some,
        List.mem_cons, List.mem_append, List.not_mem_nil, or_false, List.flatMap_cons, List.flatMap_nil, List.append_nil] at hx ⊢
      rcases hx with rfl | rfl | hx
      · left; omega
      · left; omega
      · right; exact hx
    · intro x hx
      simp only [Option.toList_some, List.flatMap_cons, List.flatMap_nil, List.append_nil, anonymizeOwnerAt, ownerObjects, indexObjects,
        IdentObjects.newIa5, IdentObjects.newOwner, if_true, List.mem_cons, List.mem_append] at hx ⊢
      tauto
    · have k : ∀ c : Option Nat, (∀ x ∈ c.toList, x ∈ indexObjects h o) →
          c.map (fun a => if a = h.next then ({ rawData := none, length := some 13, value := "OWNER00000001".toUTF8.toList } : Ia5StringValue)
            else h.ia5 a) = c.map h.ia5 := fun c hc => map_same fun x hx => if_neg (q x (hc x hx))
      simp only [anonymizeOwnerAt, IdentObjects.ownerAt, IdentObjects.newIa5, IdentObjects.newOwner, if_true, Option.map_some]
      rw [k _ fun x hx => by simp only [indexObjects, List.mem_append]; tauto, k _ fun x hx => by simp only [indexObjects, List.mem_append]; tauto,
        k _ fun x hx => by simp only [indexObjects, List.mem_append]; tauto]

/-- The last steps of making a card. -/
def endOfCard (state : Int) (d o : Option Nat) (h : IdentObjects) : Nat × IdentObjects :=
  let a := testTextAt "TEST_AUTHORITY" h
  let t1 := a.2.newTime ⟨1577836800, 0⟩
  let t2 := t1.2.newTime ⟨1577836800, 0⟩
  let t3 := t2.2.newTime ⟨1735689599, 0⟩
  t3.2.newCard {
    issuingState := state, driver := d, owner := o, authority := some a.1
    issueDate := some t1.1, validityBegin := some t2.1, expiryDate := some t3.1 }

theorem endOfCard_made (state : Int) (d o : Option Nat) (h : IdentObjects) :
    Grows h (endOfCard state d o h).2 ∧ (endOfCard state d o h).1 = h.next + 4 ∧ (endOfCard state d o h).2.next = h.next + 5 ∧
    (endOfCard state d o h).2.card (h.next + 4) = ⟨state, d, o, some h.next, some (h.next + 1), some (h.next + 2), some (h.next + 3)⟩ ∧
    some ((endOfCard state d o h).2.text h.next) = testText "TEST_AUTHORITY" ∧
    (endOfCard state d o h).2.time (h.next + 1) = ⟨1577836800, 0⟩ ∧ (endOfCard state d o h).2.time (h.next + 2) = ⟨1577836800, 0⟩ ∧
    (endOfCard state d o h).2.time (h.next + 3) = ⟨1735689599, 0⟩ := by
  refine ⟨((((grows_text _ _).trans (grows_time _ _)).trans (grows_time _ _)).trans (grows_time _ _)).trans (grows_card _ _), ?_⟩
  simp [endOfCard, testTextAt, testText, IdentObjects.newText, IdentObjects.newTime, IdentObjects.newCard]

theorem card_made (c : Option Nat) (h : IdentObjects) (p : ∀ a ∈ c.toList, ∀ x ∈ cardObjects h a, x < h.next) :
    Grows h (anonymizeCardAt c h).2 ∧
    (∀ a ∈ (anonymizeCardAt c h).1.toList, ∀ x ∈ cardObjects (anonymizeCardAt c h).2 a,
      (h.next ≤ x ∧ x < (anonymizeCardAt c h).2.next) ∨ x ∈ c.toList.flatMap (fun c => (h.card c).owner.toList.flatMap (indexObjects h))) ∧
    (∀ x ∈ c.toList.flatMap (fun c => (h.card c).owner.toList.flatMap (indexObjects h)),
      x ∈ (anonymizeCardAt c h).1.toList.flatMap (cardObjects (anonymizeCardAt c h).2)) ∧
    (anonymizeCardAt c h).1.map (anonymizeCardAt c h).2.cardAt = (c.map h.cardAt).map anonymizeCardIdent := by
  cases c with
  | none => exact ⟨Grows.refl h, by simp [anonymizeCardAt], by simp, rfl⟩
  | some c =>
    have p := p c (by simp)
    have hc : c < h.next := p c (by simp [cardObjects])
    have po : ∀ d ∈ (h.card c).owner.toList, ∀ x ∈ ownerObjects h d, x < h.next := fun d hd x hx =>
      p x (by simp only [cardObjects, List.mem_cons, List.mem_append, List.mem_flatMap]; exact .inr (.inl (.inl (.inl (.inl (.inr ⟨d, hd, hx⟩))))))
    obtain ⟨d1, d2, d3⟩ := driver_made (h.card c).driver h
    have e : anonymizeCardAt (some c) h =
        let d := anonymizeDriverAt (h.card c).driver h
        let w := anonymizeOwnerAt (d.2.card c).owner d.2
        let x := endOfCard (h.card c).issuingState d.1 w.1 w.2
        (some x.1, x.2) := rfl
    rw [e]
    dsimp only
    generalize anonymizeDriverAt (h.card c).driver h = d at *
    rw [(d1.same c hc).card]
    have po' : ∀ a ∈ (h.card c).owner.toList, ∀ x ∈ ownerObjects d.2 a, x < d.2.next := fun a ha x hx => by
      rw [(owner_same d1.same (po a ha)).2] at hx
      exact Nat.lt_of_lt_of_le (po a ha x hx) d1.next
    obtain ⟨o1, o2, o3, o4⟩ := owner_made (h.card c).owner d.2 po'
    have hi : (h.card c).owner.toList.flatMap (indexObjects d.2) = (h.card c).owner.toList.flatMap (indexObjects h) :=
      flatMap_same fun a ha => by
        unfold indexObjects
        rw [(d1.same a (po a ha a (by simp [ownerObjects]))).owner]
    have hs : (h.card c).owner.map d.2.ownerAt = (h.card c).owner.map h.ownerAt :=
      map_same fun a ha => (owner_same d1.same (po a ha)).1
    rw [hi] at o2 o3
    rw [hs] at o4
    generalize anonymizeOwnerAt (h.card c).owner d.2 = w at *
    obtain ⟨x1, x2, x3, x4, x5, x6, x7, x8⟩ := endOfCard_made (h.card c).issuingState d.1 w.1 w.2
    generalize endOfCard (h.card c).issuingState d.1 w.1 w.2 = r at *
    have gd : Grows d.2 r.2 := o1.trans x1
    have gh : Grows h w.2 := d1.trans o1
    have kd : ∀ a ∈ d.1.toList, r.2.driverAt a = d.2.driverAt a ∧ driverObjects r.2 a = driverObjects d.2 a := fun a ha =>
      driver_same gd.same fun x hx => (d2 a ha x hx).2
    have hlt : ∀ x ∈ (h.card c).owner.toList.flatMap (indexObjects h), x < h.next := fun x hx => by
      rw [List.mem_flatMap] at hx
      obtain ⟨a, ha, hx⟩ := hx
      exact po a ha x (by simp only [ownerObjects, List.mem_cons, List.mem_append]; exact .inr (.inr hx))
    have ko : ∀ a ∈ w.1.toList, r.2.ownerAt a = w.2.ownerAt a ∧ ownerObjects r.2 a = ownerObjects w.2 a := fun a ha =>
      owner_same x1.same fun x hx => by
        rcases o2 a ha x hx with hx | hx
        · exact hx.2
        · exact Nat.lt_of_lt_of_le (hlt x hx) gh.next
    have n1 := gh.next
    have n2 := gd.next
    have n3 := d1.next
    have n4 := o1.next
    refine ⟨gh.trans x1, ?_, ?_, ?_⟩
    · intro a ha x hx
      simp only [Option.toList_some, List.mem_singleton] at ha
      subst ha
      rw [x2] at hx
      simp only [cardObjects, x4, List.mem_cons, List.mem_append, List.mem_flatMap, Option.toList_some, List.not_mem_nil, or_false] at hx
      rcases hx with hx | (((((⟨a, ha, hx⟩ | ⟨a, ha, hx⟩) | hx) | hx) | hx) | hx)
      · left; omega
      · rw [(kd a ha).2] at hx
        have := d2 a ha x hx
        left; omega
      · rw [(ko a ha).2] at hx
        rcases o2 a ha x hx with hx | hx
        · left; omega
        · right; simpa using hx
      all_goals left; omega
    · intro x hx
      have hx : x ∈ (h.card c).owner.toList.flatMap (indexObjects h) := by simpa using hx
      have := o3 x hx
      rw [List.mem_flatMap] at this
      obtain ⟨a, ha, hx⟩ := this
      rw [← (ko a ha).2] at hx
      simp only [Option.toList_some, List.flatMap_cons, List.flatMap_nil, List.append_nil, x2, cardObjects, x4, List.mem_cons, List.mem_append,
        List.mem_flatMap]
      exact .inr (.inl (.inl (.inl (.inl (.inr ⟨a, ha, hx⟩)))))
    · simp only [Option.map_some, x2, IdentObjects.cardAt, x4, x5, x6, x7, x8, anonymizeCardIdent]
      rw [map_same fun a ha => (kd a ha).1, map_same fun a ha => (ko a ha).1, d3, o4]

theorem driverHolder_made (p : Option Nat) (h : IdentObjects) (pp : ∀ a ∈ p.toList, ∀ x ∈ driverHolderObjects h a, x < h.next) :
    Grows h (anonymizeDriverHolderAt p h).2 ∧
    (∀ a ∈ (anonymizeDriverHolderAt p h).1.toList, ∀ x ∈ driverHolderObjects (anonymizeDriverHolderAt p h).2 a,
      (h.next ≤ x ∧ x < (anonymizeDriverHolderAt p h).2.next) ∨ x ∈ (p.bind fun p => (h.driverHolder p).language).toList) ∧
    (∀ x ∈ (p.bind fun p => (h.driverHolder p).language).toList,
      x ∈ (anonymizeDriverHolderAt p h).1.toList.flatMap (driverHolderObjects (anonymizeDriverHolderAt p h).2)) ∧
    (anonymizeDriverHolderAt p h).1.map (anonymizeDriverHolderAt p h).2.driverHolderAt = (p.map h.driverHolderAt).map fun h => {
      surname := testText "TEST_SURNAME", firstNames := testText "TEST_FIRSTNAME"
      birthDate := some testBirthDate, language := h.language } := by
  cases p with
  | none => exact ⟨Grows.refl h, by simp [anonymizeDriverHolderAt], by simp, rfl⟩
  | some p =>
    have hp : p < h.next := pp p (by simp) p (by simp [driverHolderObjects])
    have hl : ∀ l, (h.driverHolder p).language = some l → l < h.next := fun l hl =>
      pp p (by simp) l (by simp [driverHolderObjects, hl])
    have e0 : p ≠ h.next := Nat.ne_of_lt hp
    refine ⟨(((grows_text _ _).trans (grows_text _ _)).trans (grows_date _ _)).trans (grows_driverHolder _ _), ?_, ?_, ?_⟩
    · intro a ha x hx
      simp [anonymizeDriverHolderAt, testTextAt, IdentObjects.newText, IdentObjects.newDate, IdentObjects.newDriverHolder] at ha
      subst ha
      simp [anonymizeDriverHolderAt, testTextAt, driverHolderObjects, IdentObjects.newText, IdentObjects.newDate, IdentObjects.newDriverHolder] at hx ⊢
      rcases hx with hx | hx | hx | hx | hx
      all_goals first
        | exact .inr hx
        | (left; omega)
    · intro x hx
      simp [anonymizeDriverHolderAt, testTextAt, driverHolderObjects, IdentObjects.newText, IdentObjects.newDate, IdentObjects.newDriverHolder] at hx ⊢
      exact .inr (.inr (.inr (.inr (hx))))
    · have m2 : h.next ≠ h.next + 1 + 1 := by omega
      have m3 : h.next ≠ h.next + 1 + 1 + 1 := by omega
      cases hg : (h.driverHolder p).language with
      | none =>
        simp [anonymizeDriverHolderAt, testTextAt, testText, IdentObjects.driverHolderAt, IdentObjects.newText, IdentObjects.newDate, IdentObjects.newDriverHolder, hg, m2, m3]
      | some l =>
        have := hl l hg
        have n0 : l ≠ h.next := by omega
        have n1 : l ≠ h.next + 1 := by omega
        have n2 : l ≠ h.next + 1 + 1 := by omega
        have n3 : l ≠ h.next + 1 + 1 + 1 := by omega
        simp [anonymizeDriverHolderAt, testTextAt, testText, IdentObjects.driverHolderAt, IdentObjects.newText, IdentObjects.newDate, IdentObjects.newDriverHolder, hg, n0, n1, n2, n3, m2, m3]

theorem workshopHolder_made (p : Option Nat) (h : IdentObjects) (pp : ∀ a ∈ p.toList, ∀ x ∈ officeHolderObjects h.workshopHolder a, x < h.next) :
    Grows h (anonymizeWorkshopHolderAt p h).2 ∧
    (∀ a ∈ (anonymizeWorkshopHolderAt p h).1.toList, ∀ x ∈ officeHolderObjects (anonymizeWorkshopHolderAt p h).2.workshopHolder a,
      (h.next ≤ x ∧ x < (anonymizeWorkshopHolderAt p h).2.next) ∨ x ∈ (p.bind fun p => (h.workshopHolder p).language).toList) ∧
    (∀ x ∈ (p.bind fun p => (h.workshopHolder p).language).toList,
      x ∈ (anonymizeWorkshopHolderAt p h).1.toList.flatMap (officeHolderObjects (anonymizeWorkshopHolderAt p h).2.workshopHolder)) ∧
    (anonymizeWorkshopHolderAt p h).1.map (anonymizeWorkshopHolderAt p h).2.workshopHolderAt = (p.map h.workshopHolderAt).map fun h => {
      workshopName := testText "TEST_WORKSHOP", workshopAddress := testText "TEST_ADDRESS"
      surname := testText "TEST_SURNAME", firstNames := testText "TEST_FIRSTNAME", language := h.language } := by
  cases p with
  | none => exact ⟨Grows.refl h, by simp [anonymizeWorkshopHolderAt], by simp, rfl⟩
  | some p =>
    have hp : p < h.next := pp p (by simp) p (by simp [officeHolderObjects])
    have hl : ∀ l, (h.workshopHolder p).language = some l → l < h.next := fun l hl =>
      pp p (by simp) l (by simp [officeHolderObjects, hl])
    have e0 : p ≠ h.next := Nat.ne_of_lt hp
    refine ⟨((((grows_text _ _).trans (grows_text _ _)).trans (grows_text _ _)).trans (grows_text _ _)).trans (grows_workshopHolder _ _), ?_, ?_, ?_⟩
    · intro a ha x hx
      simp [anonymizeWorkshopHolderAt, testTextAt, IdentObjects.newText, IdentObjects.newWorkshopHolder] at ha
      subst ha
      simp [anonymizeWorkshopHolderAt, testTextAt, officeHolderObjects, IdentObjects.newText, IdentObjects.newWorkshopHolder] at hx ⊢
      rcases hx with hx | hx | hx | hx | hx | hx
      all_goals first
        | exact .inr hx
        | (left; omega)
    · intro x hx
      simp [anonymizeWorkshopHolderAt, testTextAt, officeHolderObjects, IdentObjects.newText, IdentObjects.newWorkshopHolder] at hx ⊢
      exact .inr (.inr (.inr (.inr (.inr (hx)))))
    · have m2 : h.next ≠ h.next + 1 + 1 := by omega
      have m3 : h.next ≠ h.next + 1 + 1 + 1 := by omega
      cases hg : (h.workshopHolder p).language with
      | none =>
        simp [anonymizeWorkshopHolderAt, testTextAt, testText, IdentObjects.workshopHolderAt, IdentObjects.newText, IdentObjects.newWorkshopHolder, hg, m2, m3]
      | some l =>
        have := hl l hg
        have n0 : l ≠ h.next := by omega
        have n1 : l ≠ h.next + 1 := by omega
        have n2 : l ≠ h.next + 1 + 1 := by omega
        have n3 : l ≠ h.next + 1 + 1 + 1 := by omega
        simp [anonymizeWorkshopHolderAt, testTextAt, testText, IdentObjects.workshopHolderAt, IdentObjects.newText, IdentObjects.newWorkshopHolder, hg, n0, n1, n2, n3, m2, m3]

theorem controlHolder_made (p : Option Nat) (h : IdentObjects) (pp : ∀ a ∈ p.toList, ∀ x ∈ officeHolderObjects h.controlHolder a, x < h.next) :
    Grows h (anonymizeControlHolderAt p h).2 ∧
    (∀ a ∈ (anonymizeControlHolderAt p h).1.toList, ∀ x ∈ officeHolderObjects (anonymizeControlHolderAt p h).2.controlHolder a,
      (h.next ≤ x ∧ x < (anonymizeControlHolderAt p h).2.next) ∨ x ∈ (p.bind fun p => (h.controlHolder p).language).toList) ∧
    (∀ x ∈ (p.bind fun p => (h.controlHolder p).language).toList,
      x ∈ (anonymizeControlHolderAt p h).1.toList.flatMap (officeHolderObjects (anonymizeControlHolderAt p h).2.controlHolder)) ∧
    (anonymizeControlHolderAt p h).1.map (anonymizeControlHolderAt p h).2.controlHolderAt = (p.map h.controlHolderAt).map fun h => {
      bodyName := testText "TEST_CONTROL_BODY", bodyAddress := testText "TEST_ADDRESS"
      surname := testText "TEST_SURNAME", firstNames := testText "TEST_FIRSTNAME", language := h.language } := by
  cases p with
  | none => exact ⟨Grows.refl h, by simp [anonymizeControlHolderAt], by simp, rfl⟩
  | some p =>
    have hp : p < h.next := pp p (by simp) p (by simp [officeHolderObjects])
    have hl : ∀ l, (h.controlHolder p).language = some l → l < h.next := fun l hl =>
      pp p (by simp) l (by simp [officeHolderObjects, hl])
    have e0 : p ≠ h.next := Nat.ne_of_lt hp
    refine ⟨((((grows_text _ _).trans (grows_text _ _)).trans (grows_text _ _)).trans (grows_text _ _)).trans (grows_controlHolder _ _), ?_, ?_, ?_⟩
    · intro a ha x hx
      simp [anonymizeControlHolderAt, testTextAt, IdentObjects.newText, IdentObjects.newControlHolder] at ha
      subst ha
      simp [anonymizeControlHolderAt, testTextAt, officeHolderObjects, IdentObjects.newText, IdentObjects.newControlHolder] at hx ⊢
      rcases hx with hx | hx | hx | hx | hx | hx
      all_goals first
        | exact .inr hx
        | (left; omega)
    · intro x hx
      simp [anonymizeControlHolderAt, testTextAt, officeHolderObjects, IdentObjects.newText, IdentObjects.newControlHolder] at hx ⊢
      exact .inr (.inr (.inr (.inr (.inr (hx)))))
    · have m2 : h.next ≠ h.next + 1 + 1 := by omega
      have m3 : h.next ≠ h.next + 1 + 1 + 1 := by omega
      cases hg : (h.controlHolder p).language with
      | none =>
        simp [anonymizeControlHolderAt, testTextAt, testText, IdentObjects.controlHolderAt, IdentObjects.newText, IdentObjects.newControlHolder, hg, m2, m3]
      | some l =>
        have := hl l hg
        have n0 : l ≠ h.next := by omega
        have n1 : l ≠ h.next + 1 := by omega
        have n2 : l ≠ h.next + 1 + 1 := by omega
        have n3 : l ≠ h.next + 1 + 1 + 1 := by omega
        simp [anonymizeControlHolderAt, testTextAt, testText, IdentObjects.controlHolderAt, IdentObjects.newText, IdentObjects.newControlHolder, hg, n0, n1, n2, n3, m2, m3]

theorem companyHolder_made (p : Option Nat) (h : IdentObjects) (pp : ∀ a ∈ p.toList, ∀ x ∈ companyHolderObjects h a, x < h.next) :
    Grows h (anonymizeCompanyHolderAt p h).2 ∧
    (∀ a ∈ (anonymizeCompanyHolderAt p h).1.toList, ∀ x ∈ companyHolderObjects (anonymizeCompanyHolderAt p h).2 a,
      (h.next ≤ x ∧ x < (anonymizeCompanyHolderAt p h).2.next) ∨ x ∈ (p.bind fun p => (h.companyHolder p).language).toList) ∧
    (∀ x ∈ (p.bind fun p => (h.companyHolder p).language).toList,
      x ∈ (anonymizeCompanyHolderAt p h).1.toList.flatMap (companyHolderObjects (anonymizeCompanyHolderAt p h).2)) ∧
    (anonymizeCompanyHolderAt p h).1.map (anonymizeCompanyHolderAt p h).2.companyHolderAt = (p.map h.companyHolderAt).map fun h => {
      companyName := testText "TEST_COMPANY", companyAddress := testText "TEST_ADDRESS", language := h.language } := by
  cases p with
  | none => exact ⟨Grows.refl h, by simp [anonymizeCompanyHolderAt], by simp, rfl⟩
  | some p =>
    have hp : p < h.next := pp p (by simp) p (by simp [companyHolderObjects])
    have hl : ∀ l, (h.companyHolder p).language = some l → l < h.next := fun l hl =>
      pp p (by simp) l (by simp [companyHolderObjects, hl])
    have e0 : p ≠ h.next := Nat.ne_of_lt hp
    refine ⟨((grows_text _ _).trans (grows_text _ _)).trans (grows_companyHolder _ _), ?_, ?_, ?_⟩
    · intro a ha x hx
      simp [anonymizeCompanyHolderAt, testTextAt, IdentObjects.newText, IdentObjects.newCompanyHolder] at ha
      subst ha
      simp [anonymizeCompanyHolderAt, testTextAt, companyHolderObjects, IdentObjects.newText, IdentObjects.newCompanyHolder] at hx ⊢
      rcases hx with hx | hx | hx | hx
      all_goals first
        | exact .inr hx
        | (left; omega)
    · intro x hx
      simp [anonymizeCompanyHolderAt, testTextAt, companyHolderObjects, IdentObjects.newText, IdentObjects.newCompanyHolder] at hx ⊢
      exact .inr (.inr (.inr (hx)))
    · have m2 : h.next ≠ h.next + 1 + 1 := by omega
      have m3 : h.next ≠ h.next + 1 + 1 + 1 := by omega
      cases hg : (h.companyHolder p).language with
      | none =>
        simp [anonymizeCompanyHolderAt, testTextAt, testText, IdentObjects.companyHolderAt, IdentObjects.newText, IdentObjects.newCompanyHolder, hg, m2, m3]
      | some l =>
        have := hl l hg
        have n0 : l ≠ h.next := by omega
        have n1 : l ≠ h.next + 1 := by omega
        have n2 : l ≠ h.next + 1 + 1 := by omega
        have n3 : l ≠ h.next + 1 + 1 + 1 := by omega
        simp [anonymizeCompanyHolderAt, testTextAt, testText, IdentObjects.companyHolderAt, IdentObjects.newText, IdentObjects.newCompanyHolder, hg, n0, n1, n2, n3, m2, m3]

/-- All of C93 about an identification. -/
theorem ident_made (i : Nat) (h : IdentObjects) (p : ∀ x ∈ identObjects h i, x < h.next) :
    IdentsUntouched h (anonymizeIdentificationAt i h).2 ∧
    (∀ x ∈ identObjects (anonymizeIdentificationAt i h).2 (anonymizeIdentificationAt i h).1,
      (h.next ≤ x ∧ x < (anonymizeIdentificationAt i h).2.next) ∨ x ∈ sharedIdentObjects h i) ∧
    (∀ x ∈ sharedIdentObjects h i, x ∈ identObjects (anonymizeIdentificationAt i h).2 (anonymizeIdentificationAt i h).1) ∧
    (anonymizeIdentificationAt i h).2.identAt (anonymizeIdentificationAt i h).1 = anonymizeIdentification (h.identAt i) := by
  have pc : ∀ d ∈ (h.ident i).card.toList, ∀ x ∈ cardObjects h d, x < h.next := fun d hd x hx =>
    p x (by simp only [identObjects, List.mem_cons, List.mem_append, List.mem_flatMap]; exact .inr (.inl (.inl (.inl (.inl ⟨d, hd, hx⟩)))))
  obtain ⟨c1, c2, c3, c4⟩ := card_made (h.ident i).card h pc
  have cl : ∀ x ∈ (h.ident i).card.toList.flatMap (fun c => (h.card c).owner.toList.flatMap (indexObjects h)), x < h.next := fun x hx => by
    simp only [List.mem_flatMap] at hx
    obtain ⟨a, ha, b, hb, hx⟩ := hx
    refine pc a ha x ?_
    simp only [cardObjects, List.mem_cons, List.mem_append, List.mem_flatMap]
    exact .inr (.inl (.inl (.inl (.inl (.inr ⟨b, hb, by simp only [ownerObjects, List.mem_cons, List.mem_append]; exact .inr (.inr hx)⟩)))))
  unfold anonymizeIdentificationAt
  dsimp only
  generalize anonymizeCardAt (h.ident i).card h = c at *
  have n1 := c1.next
  cases ht : (h.ident i).cardType with
  | unspecified =>
    have sh : sharedIdentObjects h i = (h.ident i).card.toList.flatMap (fun c => (h.card c).owner.toList.flatMap (indexObjects h)) := by
      simp [sharedIdentObjects, languageObject, ht]
    have g := grows_ident c.2 {
      cardType := .unspecified, card := c.1, driverHolder := none, workshopHolder := none, controlHolder := none
      companyHolder := none, signature := none, signatureVerified := none }
    dsimp only [IdentObjects.newIdent] at g ⊢
    generalize hR : (IdentObjects.mk _ _ _ _ _ _ _ _ _ _ _ _ _) = R at g ⊢
    have i1 : R.ident c.2.next = {
      cardType := .unspecified, card := c.1, driverHolder := none, workshopHolder := none, controlHolder := none
      companyHolder := none, signature := none, signatureVerified := none } := by rw [← hR]; simp
    have i2 : R.next = c.2.next + 1 := by rw [← hR]
    have kc : ∀ a ∈ c.1.toList, R.cardAt a = c.2.cardAt a ∧ cardObjects R a = cardObjects c.2 a := fun a ha =>
      card_same g.same fun x hx => by
        rcases c2 a ha x hx with hx | hx
        · exact hx.2
        · exact Nat.lt_of_lt_of_le (cl x hx) n1
    refine ⟨(c1.trans g).same, ?_, ?_, ?_⟩
    · intro x hx
      rw [sh]
      simp only [identObjects, i1, List.mem_cons, List.mem_append, List.mem_flatMap, Option.toList_none, List.not_mem_nil, false_and,
        exists_false, or_false] at hx
      rcases hx with hx | ⟨a, ha, hx⟩
      · left; omega
      · rw [(kc a ha).2] at hx
        rcases c2 a ha x hx with hx | hx
        · left; omega
        · exact .inr hx
    · intro x hx
      rw [sh] at hx
      simp only [identObjects, i1, List.mem_cons, List.mem_append, Option.toList_none, List.flatMap_nil, List.not_mem_nil, or_false]
      have := c3 x hx
      rw [← flatMap_same fun a ha => (kc a ha).2] at this
      exact .inr this
    · simp only [IdentObjects.identAt, i1, anonymizeIdentification, ht, Option.map_none]
      rw [map_same fun a ha => (kc a ha).1, c4]
  | gnssSimulatedCard =>
    have sh : sharedIdentObjects h i = (h.ident i).card.toList.flatMap (fun c => (h.card c).owner.toList.flatMap (indexObjects h)) := by
      simp [sharedIdentObjects, languageObject, ht]
    have g := grows_ident c.2 {
      cardType := .gnssSimulatedCard, card := c.1, driverHolder := none, workshopHolder := none, controlHolder := none
      companyHolder := none, signature := none, signatureVerified := none }
    dsimp only [IdentObjects.newIdent] at g ⊢
    generalize hR : (IdentObjects.mk _ _ _ _ _ _ _ _ _ _ _ _ _) = R at g ⊢
    have i1 : R.ident c.2.next = {
      cardType := .gnssSimulatedCard, card := c.1, driverHolder := none, workshopHolder := none, controlHolder := none
      companyHolder := none, signature := none, signatureVerified := none } := by rw [← hR]; simp
    have i2 : R.next = c.2.next + 1 := by rw [← hR]
    have kc : ∀ a ∈ c.1.toList, R.cardAt a = c.2.cardAt a ∧ cardObjects R a = cardObjects c.2 a := fun a ha =>
      card_same g.same fun x hx => by
        rcases c2 a ha x hx with hx | hx
        · exact hx.2
        · exact Nat.lt_of_lt_of_le (cl x hx) n1
    refine ⟨(c1.trans g).same, ?_, ?_, ?_⟩
    · intro x hx
      rw [sh]
      simp only [identObjects, i1, List.mem_cons, List.mem_append, List.mem_flatMap, Option.toList_none, List.not_mem_nil, false_and,
        exists_false, or_false] at hx
      rcases hx with hx | ⟨a, ha, hx⟩
      · left; omega
      · rw [(kc a ha).2] at hx
        rcases c2 a ha x hx with hx | hx
        · left; omega
        · exact .inr hx
    · intro x hx
      rw [sh] at hx
      simp only [identObjects, i1, List.mem_cons, List.mem_append, Option.toList_none, List.flatMap_nil, List.not_mem_nil, or_false]
      have := c3 x hx
      rw [← flatMap_same fun a ha => (kc a ha).2] at this
      exact .inr this
    · simp only [IdentObjects.identAt, i1, anonymizeIdentification, ht, Option.map_none]
      rw [map_same fun a ha => (kc a ha).1, c4]
  | driverCard =>
    have pf : ∀ a ∈ (h.ident i).driverHolder.toList, ∀ x ∈ driverHolderObjects h a, x < h.next := fun d hd x hx =>
      p x (by simp only [identObjects, List.mem_cons, List.mem_append, List.mem_flatMap]; exact .inr (.inl (.inl (.inl (.inr ⟨d, hd, hx⟩)))))
    have pf' : ∀ a ∈ (h.ident i).driverHolder.toList, ∀ x ∈ driverHolderObjects c.2 a, x < c.2.next := fun a ha x hx => by
      rw [(driverHolder_same c1.same (pf a ha)).2] at hx
      exact Nat.lt_of_lt_of_le (pf a ha x hx) n1
    obtain ⟨f1, f2, f3, f4⟩ := driverHolder_made (h.ident i).driverHolder c.2 pf'
    have hl : ((h.ident i).driverHolder.bind fun p => (c.2.driverHolder p).language) =
        (h.ident i).driverHolder.bind fun p => (h.driverHolder p).language := by
      cases hf : (h.ident i).driverHolder with
      | none => rfl
      | some q => exact congrArg DriverHolderObj.language (c1.same q (pf q (by simp [hf]) q (by simp [driverHolderObjects]))).driverHolder
    have hs : (h.ident i).driverHolder.map c.2.driverHolderAt = (h.ident i).driverHolder.map h.driverHolderAt :=
      map_same fun a ha => (driverHolder_same c1.same (pf a ha)).1
    rw [hl] at f2 f3
    rw [hs] at f4
    have sh : sharedIdentObjects h i = ((h.ident i).driverHolder.bind fun p => (h.driverHolder p).language).toList ++
        (h.ident i).card.toList.flatMap (fun c => (h.card c).owner.toList.flatMap (indexObjects h)) := by
      simp only [sharedIdentObjects, languageObject, ht]
    have ll : ∀ x ∈ ((h.ident i).driverHolder.bind fun p => (h.driverHolder p).language).toList, x < h.next := fun x hx => by
      cases hf : (h.ident i).driverHolder with
      | none => rw [hf] at hx; simp at hx
      | some q =>
        rw [hf] at hx
        exact pf q (by simp [hf]) x (by simp only [driverHolderObjects, List.mem_cons, List.mem_append]; exact .inr (.inr hx))
    generalize anonymizeDriverHolderAt (h.ident i).driverHolder c.2 = f at *
    have n2 := f1.next
    have g := grows_ident f.2 {
      cardType := .driverCard, card := c.1, workshopHolder := none, controlHolder := none
      companyHolder := none, signature := none, signatureVerified := none, driverHolder := f.1 }
    dsimp only [IdentObjects.newIdent] at g ⊢
    generalize hR : (IdentObjects.mk _ _ _ _ _ _ _ _ _ _ _ _ _) = R at g ⊢
    have i1 : R.ident f.2.next = {
      cardType := .driverCard, card := c.1, workshopHolder := none, controlHolder := none
      companyHolder := none, signature := none, signatureVerified := none, driverHolder := f.1 } := by rw [← hR]; simp
    have i2 : R.next = f.2.next + 1 := by rw [← hR]
    have kc : ∀ a ∈ c.1.toList, R.cardAt a = c.2.cardAt a ∧ cardObjects R a = cardObjects c.2 a := fun a ha =>
      card_same (f1.trans g).same fun x hx => by
        rcases c2 a ha x hx with hx | hx
        · exact hx.2
        · exact Nat.lt_of_lt_of_le (cl x hx) n1
    have kf : ∀ a ∈ f.1.toList, R.driverHolderAt a = f.2.driverHolderAt a ∧ driverHolderObjects R a = driverHolderObjects f.2 a := fun a ha =>
      driverHolder_same g.same fun x hx => by
        rcases f2 a ha x hx with hx | hx
        · exact hx.2
        · have := ll x hx; omega
    refine ⟨((c1.trans f1).trans g).same, ?_, ?_, ?_⟩
    · intro x hx
      rw [sh, List.mem_append]
      simp only [identObjects, i1, List.mem_cons, List.mem_append, List.mem_flatMap, Option.toList_none, List.not_mem_nil, false_and,
        exists_false, or_false] at hx
      rcases hx with hx | ⟨a, ha, hx⟩ | ⟨a, ha, hx⟩
      · left; omega
      · rw [(kc a ha).2] at hx
        rcases c2 a ha x hx with hx | hx
        · left; omega
        · exact .inr (.inr hx)
      · rw [(kf a ha).2] at hx
        rcases f2 a ha x hx with hx | hx
        · left; omega
        · exact .inr (.inl hx)
    · intro x hx
      rw [sh, List.mem_append] at hx
      simp only [identObjects, i1, List.mem_cons, List.mem_append, Option.toList_none, List.flatMap_nil, List.not_mem_nil, or_false]
      rcases hx with hx | hx
      · have := f3 x hx
        rw [← flatMap_same fun a ha => (kf a ha).2] at this
        exact .inr (.inr this)
      · have := c3 x hx
        rw [← flatMap_same fun a ha => (kc a ha).2] at this
        exact .inr (.inl this)
    · simp only [IdentObjects.identAt, i1, anonymizeIdentification, ht, Option.map_none]
      rw [map_same fun a ha => (kc a ha).1, map_same fun a ha => (kf a ha).1, c4, f4]
  | workshopCard =>
    have pf : ∀ a ∈ (h.ident i).workshopHolder.toList, ∀ x ∈ officeHolderObjects h.workshopHolder a, x < h.next := fun d hd x hx =>
      p x (by simp only [identObjects, List.mem_cons, List.mem_append, List.mem_flatMap]; exact .inr (.inl (.inl (.inr ⟨d, hd, hx⟩))))
    have pf' : ∀ a ∈ (h.ident i).workshopHolder.toList, ∀ x ∈ officeHolderObjects c.2.workshopHolder a, x < c.2.next := fun a ha x hx => by
      rw [(workshopHolder_same c1.same (pf a ha)).2] at hx
      exact Nat.lt_of_lt_of_le (pf a ha x hx) n1
    obtain ⟨f1, f2, f3, f4⟩ := workshopHolder_made (h.ident i).workshopHolder c.2 pf'
    have hl : ((h.ident i).workshopHolder.bind fun p => (c.2.workshopHolder p).language) =
        (h.ident i).workshopHolder.bind fun p => (h.workshopHolder p).language := by
      cases hf : (h.ident i).workshopHolder with
      | none => rfl
      | some q => exact congrArg OfficeHolderObj.language (c1.same q (pf q (by simp [hf]) q (by simp [officeHolderObjects]))).workshopHolder
    have hs : (h.ident i).workshopHolder.map c.2.workshopHolderAt = (h.ident i).workshopHolder.map h.workshopHolderAt :=
      map_same fun a ha => (workshopHolder_same c1.same (pf a ha)).1
    rw [hl] at f2 f3
    rw [hs] at f4
    have sh : sharedIdentObjects h i = ((h.ident i).workshopHolder.bind fun p => (h.workshopHolder p).language).toList ++
        (h.ident i).card.toList.flatMap (fun c => (h.card c).owner.toList.flatMap (indexObjects h)) := by
      simp only [sharedIdentObjects, languageObject, ht]
    have ll : ∀ x ∈ ((h.ident i).workshopHolder.bind fun p => (h.workshopHolder p).language).toList, x < h.next := fun x hx => by
      cases hf : (h.ident i).workshopHolder with
      | none => rw [hf] at hx; simp at hx
      | some q =>
        rw [hf] at hx
        exact pf q (by simp [hf]) x (by simp only [officeHolderObjects, List.mem_cons, List.mem_append]; exact .inr (.inr hx))
    generalize anonymizeWorkshopHolderAt (h.ident i).workshopHolder c.2 = f at *
    have n2 := f1.next
    have g := grows_ident f.2 {
      cardType := .workshopCard, card := c.1, driverHolder := none, controlHolder := none
      companyHolder := none, signature := none, signatureVerified := none, workshopHolder := f.1 }
    dsimp only [IdentObjects.newIdent] at g ⊢
    generalize hR : (IdentObjects.mk _ _ _ _ _ _ _ _ _ _ _ _ _) = R at g ⊢
    have i1 : R.ident f.2.next = {
      cardType := .workshopCard, card := c.1, driverHolder := none, controlHolder := none
      companyHolder := none, signature := none, signatureVerified := none, workshopHolder := f.1 } := by rw [← hR]; simp
    have i2 : R.next = f.2.next + 1 := by rw [← hR]
    have kc : ∀ a ∈ c.1.toList, R.cardAt a = c.2.cardAt a ∧ cardObjects R a = cardObjects c.2 a := fun a ha =>
      card_same (f1.trans g).same fun x hx => by
        rcases c2 a ha x hx with hx | hx
        · exact hx.2
        · exact Nat.lt_of_lt_of_le (cl x hx) n1
    have kf : ∀ a ∈ f.1.toList, R.workshopHolderAt a = f.2.workshopHolderAt a ∧ officeHolderObjects R.workshopHolder a = officeHolderObjects f.2.workshopHolder a := fun a ha =>
      workshopHolder_same g.same fun x hx => by
        rcases f2 a ha x hx with hx | hx
        · exact hx.2
        · have := ll x hx; omega
    refine ⟨((c1.trans f1).trans g).same, ?_, ?_, ?_⟩
    · intro x hx
      rw [sh, List.mem_append]
      simp only [identObjects, i1, List.mem_cons, List.mem_append, List.mem_flatMap, Option.toList_none, List.not_mem_nil, false_and,
        exists_false, or_false] at hx
      rcases hx with hx | ⟨a, ha, hx⟩ | ⟨a, ha, hx⟩
      · left; omega
      · rw [(kc a ha).2] at hx
        rcases c2 a ha x hx with hx | hx
        · left; omega
        · exact .inr (.inr hx)
      · rw [(kf a ha).2] at hx
        rcases f2 a ha x hx with hx | hx
        · left; omega
        · exact .inr (.inl hx)
    · intro x hx
      rw [sh, List.mem_append] at hx
      simp only [identObjects, i1, List.mem_cons, List.mem_append, Option.toList_none, List.flatMap_nil, List.not_mem_nil, or_false]
      rcases hx with hx | hx
      · have := f3 x hx
        rw [← flatMap_same fun a ha => (kf a ha).2] at this
        exact .inr (.inr this)
      · have := c3 x hx
        rw [← flatMap_same fun a ha => (kc a ha).2] at this
        exact .inr (.inl this)
    · simp only [IdentObjects.identAt, i1, anonymizeIdentification, ht, Option.map_none]
      rw [map_same fun a ha => (kc a ha).1, map_same fun a ha => (kf a ha).1, c4, f4]
  | controlCard =>
    have pf : ∀ a ∈ (h.ident i).controlHolder.toList, ∀ x ∈ officeHolderObjects h.controlHolder a, x < h.next := fun d hd x hx =>
      p x (by simp only [identObjects, List.mem_cons, List.mem_append, List.mem_flatMap]; exact .inr (.inl (.inr ⟨d, hd, hx⟩)))
    have pf' : ∀ a ∈ (h.ident i).controlHolder.toList, ∀ x ∈ officeHolderObjects c.2.controlHolder a, x < c.2.next := fun a ha x hx => by
      rw [(controlHolder_same c1.same (pf a ha)).2] at hx
      exact Nat.lt_of_lt_of_le (pf a ha x hx) n1
    obtain ⟨f1, f2, f3, f4⟩ := controlHolder_made (h.ident i).controlHolder c.2 pf'
    have hl : ((h.ident i).controlHolder.bind fun p => (c.2.controlHolder p).language) =
        (h.ident i).controlHolder.bind fun p => (h.controlHolder p).language := by
      cases hf : (h.ident i).controlHolder with
      | none => rfl
      | some q => exact congrArg OfficeHolderObj.language (c1.same q (pf q (by simp [hf]) q (by simp [officeHolderObjects]))).controlHolder
    have hs : (h.ident i).controlHolder.map c.2.controlHolderAt = (h.ident i).controlHolder.map h.controlHolderAt :=
      map_same fun a ha => (controlHolder_same c1.same (pf a ha)).1
    rw [hl] at f2 f3
    rw [hs] at f4
    have sh : sharedIdentObjects h i = ((h.ident i).controlHolder.bind fun p => (h.controlHolder p).language).toList ++
        (h.ident i).card.toList.flatMap (fun c => (h.card c).owner.toList.flatMap (indexObjects h)) := by
      simp only [sharedIdentObjects, languageObject, ht]
    have ll : ∀ x ∈ ((h.ident i).controlHolder.bind fun p => (h.controlHolder p).language).toList, x < h.next := fun x hx => by
      cases hf : (h.ident i).controlHolder with
      | none => rw [hf] at hx; simp at hx
      | some q =>
        rw [hf] at hx
        exact pf q (by simp [hf]) x (by simp only [officeHolderObjects, List.mem_cons, List.mem_append]; exact .inr (.inr hx))
    generalize anonymizeControlHolderAt (h.ident i).controlHolder c.2 = f at *
    have n2 := f1.next
    have g := grows_ident f.2 {
      cardType := .controlCard, card := c.1, driverHolder := none, workshopHolder := none
      companyHolder := none, signature := none, signatureVerified := none, controlHolder := f.1 }
    dsimp only [IdentObjects.newIdent] at g ⊢
    generalize hR : (IdentObjects.mk _ _ _ _ _ _ _ _ _ _ _ _ _) = R at g ⊢
    have i1 : R.ident f.2.next = {
      cardType := .controlCard, card := c.1, driverHolder := none, workshopHolder := none
      companyHolder := none, signature := none, signatureVerified := none, controlHolder := f.1 } := by rw [← hR]; simp
    have i2 : R.next = f.2.next + 1 := by rw [← hR]
    have kc : ∀ a ∈ c.1.toList, R.cardAt a = c.2.cardAt a ∧ cardObjects R a = cardObjects c.2 a := fun a ha =>
      card_same (f1.trans g).same fun x hx => by
        rcases c2 a ha x hx with hx | hx
        · exact hx.2
        · exact Nat.lt_of_lt_of_le (cl x hx) n1
    have kf : ∀ a ∈ f.1.toList, R.controlHolderAt a = f.2.controlHolderAt a ∧ officeHolderObjects R.controlHolder a = officeHolderObjects f.2.controlHolder a := fun a ha =>
      controlHolder_same g.same fun x hx => by
        rcases f2 a ha x hx with hx | hx
        · exact hx.2
        · have := ll x hx; omega
    refine ⟨((c1.trans f1).trans g).same, ?_, ?_, ?_⟩
    · intro x hx
      rw [sh, List.mem_append]
      simp only [identObjects, i1, List.mem_cons, List.mem_append, List.mem_flatMap, Option.toList_none, List.not_mem_nil, false_and,
        exists_false, or_false] at hx
      rcases hx with hx | ⟨a, ha, hx⟩ | ⟨a, ha, hx⟩
      · left; omega
      · rw [(kc a ha).2] at hx
        rcases c2 a ha x hx with hx | hx
        · left; omega
        · exact .inr (.inr hx)
      · rw [(kf a ha).2] at hx
        rcases f2 a ha x hx with hx | hx
        · left; omega
        · exact .inr (.inl hx)
    · intro x hx
      rw [sh, List.mem_append] at hx
      simp only [identObjects, i1, List.mem_cons, List.mem_append, Option.toList_none, List.flatMap_nil, List.not_mem_nil, or_false]
      rcases hx with hx | hx
      · have := f3 x hx
        rw [← flatMap_same fun a ha => (kf a ha).2] at this
        exact .inr (.inr this)
      · have := c3 x hx
        rw [← flatMap_same fun a ha => (kc a ha).2] at this
        exact .inr (.inl this)
    · simp only [IdentObjects.identAt, i1, anonymizeIdentification, ht, Option.map_none]
      rw [map_same fun a ha => (kc a ha).1, map_same fun a ha => (kf a ha).1, c4, f4]
  | companyCard =>
    have pf : ∀ a ∈ (h.ident i).companyHolder.toList, ∀ x ∈ companyHolderObjects h a, x < h.next := fun d hd x hx =>
      p x (by simp only [identObjects, List.mem_cons, List.mem_append, List.mem_flatMap]; exact .inr (.inr ⟨d, hd, hx⟩))
    have pf' : ∀ a ∈ (h.ident i).companyHolder.toList, ∀ x ∈ companyHolderObjects c.2 a, x < c.2.next := fun a ha x hx => by
      rw [(companyHolder_same c1.same (pf a ha)).2] at hx
      exact Nat.lt_of_lt_of_le (pf a ha x hx) n1
    obtain ⟨f1, f2, f3, f4⟩ := companyHolder_made (h.ident i).companyHolder c.2 pf'
    have hl : ((h.ident i).companyHolder.bind fun p => (c.2.companyHolder p).language) =
        (h.ident i).companyHolder.bind fun p => (h.companyHolder p).language := by
      cases hf : (h.ident i).companyHolder with
      | none => rfl
      | some q => exact congrArg CompanyHolderObj.language (c1.same q (pf q (by simp [hf]) q (by simp [companyHolderObjects]))).companyHolder
    have hs : (h.ident i).companyHolder.map c.2.companyHolderAt = (h.ident i).companyHolder.map h.companyHolderAt :=
      map_same fun a ha => (companyHolder_same c1.same (pf a ha)).1
    rw [hl] at f2 f3
    rw [hs] at f4
    have sh : sharedIdentObjects h i = ((h.ident i).companyHolder.bind fun p => (h.companyHolder p).language).toList ++
        (h.ident i).card.toList.flatMap (fun c => (h.card c).owner.toList.flatMap (indexObjects h)) := by
      simp only [sharedIdentObjects, languageObject, ht]
    have ll : ∀ x ∈ ((h.ident i).companyHolder.bind fun p => (h.companyHolder p).language).toList, x < h.next := fun x hx => by
      cases hf : (h.ident i).companyHolder with
      | none => rw [hf] at hx; simp at hx
      | some q =>
        rw [hf] at hx
        exact pf q (by simp [hf]) x (by simp only [companyHolderObjects, List.mem_cons, List.mem_append]; exact .inr (.inr hx))
    generalize anonymizeCompanyHolderAt (h.ident i).companyHolder c.2 = f at *
    have n2 := f1.next
    have g := grows_ident f.2 {
      cardType := .companyCard, card := c.1, driverHolder := none, workshopHolder := none, controlHolder := none
      signature := none, signatureVerified := none, companyHolder := f.1 }
    dsimp only [IdentObjects.newIdent] at g ⊢
    generalize hR : (IdentObjects.mk _ _ _ _ _ _ _ _ _ _ _ _ _) = R at g ⊢
    have i1 : R.ident f.2.next = {
      cardType := .companyCard, card := c.1, driverHolder := none, workshopHolder := none, controlHolder := none
      signature := none, signatureVerified := none, companyHolder := f.1 } := by rw [← hR]; simp
    have i2 : R.next = f.2.next + 1 := by rw [← hR]
    have kc : ∀ a ∈ c.1.toList, R.cardAt a = c.2.cardAt a ∧ cardObjects R a = cardObjects c.2 a := fun a ha =>
      card_same (f1.trans g).same fun x hx => by
        rcases c2 a ha x hx with hx | hx
        · exact hx.2
        · exact Nat.lt_of_lt_of_le (cl x hx) n1
    have kf : ∀ a ∈ f.1.toList, R.companyHolderAt a = f.2.companyHolderAt a ∧ companyHolderObjects R a = companyHolderObjects f.2 a := fun a ha =>
      companyHolder_same g.same fun x hx => by
        rcases f2 a ha x hx with hx | hx
        · exact hx.2
        · have := ll x hx; omega
    refine ⟨((c1.trans f1).trans g).same, ?_, ?_, ?_⟩
    · intro x hx
      rw [sh, List.mem_append]
      simp only [identObjects, i1, List.mem_cons, List.mem_append, List.mem_flatMap, Option.toList_none, List.not_mem_nil, false_and,
        exists_false, or_false] at hx
      rcases hx with hx | ⟨a, ha, hx⟩ | ⟨a, ha, hx⟩
      · left; omega
      · rw [(kc a ha).2] at hx
        rcases c2 a ha x hx with hx | hx
        · left; omega
        · exact .inr (.inr hx)
      · rw [(kf a ha).2] at hx
        rcases f2 a ha x hx with hx | hx
        · left; omega
        · exact .inr (.inl hx)
    · intro x hx
      rw [sh, List.mem_append] at hx
      simp only [identObjects, i1, List.mem_cons, List.mem_append, Option.toList_none, List.flatMap_nil, List.not_mem_nil, or_false]
      rcases hx with hx | hx
      · have := f3 x hx
        rw [← flatMap_same fun a ha => (kf a ha).2] at this
        exact .inr (.inr this)
      · have := c3 x hx
        rw [← flatMap_same fun a ha => (kc a ha).2] at this
        exact .inr (.inl this)
    · simp only [IdentObjects.identAt, i1, anonymizeIdentification, ht, Option.map_none]
      rw [map_same fun a ha => (kc a ha).1, map_same fun a ha => (kf a ha).1, c4, f4]

/-- C93: anonymising an identification writes to none of the objects there were, and the copy consists of new objects, except for
the preferred language of the holder and the indices of the owner, which are those of the original. -/
theorem anonymize_identification_shares (i : Nat) (h : IdentObjects) (p : ∀ x ∈ identObjects h i, x < h.next) :
    let r := anonymizeIdentificationAt i h
    IdentsUntouched h r.2 ∧ ∀ x ∈ identObjects r.2 r.1, x < h.next ↔ x ∈ sharedIdentObjects h i := by
  obtain ⟨a, b, c, _⟩ := ident_made i h p
  refine ⟨a, fun x hx => ⟨fun hl => ?_, fun hs => ?_⟩⟩
  · rcases b x hx with hx | hx
    · omega
    · exact hx
  · refine p x ?_
    simp only [sharedIdentObjects, List.mem_append, List.mem_flatMap] at hs
    simp only [identObjects, List.mem_cons, List.mem_append, List.mem_flatMap]
    rcases hs with hs | ⟨d, hd, o, ho, hs⟩
    · unfold languageObject at hs
      split at hs
      · cases hf : (h.ident i).driverHolder with
        | none => rw [hf] at hs; simp at hs
        | some q => rw [hf] at hs; exact .inr (.inl (.inl (.inl (.inr ⟨q, by simp, by
            simp only [driverHolderObjects, List.mem_cons, List.mem_append]; exact .inr (.inr hs)⟩))))
      · cases hf : (h.ident i).workshopHolder with
        | none => rw [hf] at hs; simp at hs
        | some q => rw [hf] at hs; exact .inr (.inl (.inl (.inr ⟨q, by simp, by
            simp only [officeHolderObjects, List.mem_cons, List.mem_append]; exact .inr (.inr hs)⟩)))
      · cases hf : (h.ident i).controlHolder with
        | none => rw [hf] at hs; simp at hs
        | some q => rw [hf] at hs; exact .inr (.inl (.inr ⟨q, by simp, by
            simp only [officeHolderObjects, List.mem_cons, List.mem_append]; exact .inr (.inr hs)⟩))
      · cases hf : (h.ident i).companyHolder with
        | none => rw [hf] at hs; simp at hs
        | some q => rw [hf] at hs; exact .inr (.inr ⟨q, by simp, by
            simp only [companyHolderObjects, List.mem_cons, List.mem_append]; exact .inr (.inr hs)⟩)
      · simp at hs
    · exact .inr (.inl (.inl (.inl (.inl ⟨d, hd, by
        simp only [cardObjects, List.mem_cons, List.mem_append, List.mem_flatMap]
        exact .inr (.inl (.inl (.inl (.inl (.inr ⟨o, ho, by
          simp only [ownerObjects, List.mem_cons, List.mem_append]; exact .inr (.inr hs)⟩)))))⟩))))

/-- C93: each of the shared objects is indeed part of the copy. -/
theorem anonymize_identification_shared (i : Nat) (h : IdentObjects) (p : ∀ x ∈ identObjects h i, x < h.next) :
    ∀ x ∈ sharedIdentObjects h i, x ∈ identObjects (anonymizeIdentificationAt i h).2 (anonymizeIdentificationAt i h).1 :=
  (ident_made i h p).2.2.1

/-- C93: through its pointers the copy shows what anonymising the values gives (C40), and the original shows what it did. -/
theorem anonymize_identification_shown (i : Nat) (h : IdentObjects) (p : ∀ x ∈ identObjects h i, x < h.next) :
    let r := anonymizeIdentificationAt i h
    r.2.identAt r.1 = anonymizeIdentification (h.identAt i) ∧ r.2.identAt i = h.identAt i :=
  ⟨(ident_made i h p).2.2.2, (ident_untouched_shows (ident_made i h p).1 p).1⟩

/-- A workshop card whose owner has three indices (objects 2, 3, 4) and whose holder has a language (object 5), and the language
of a driver (6). Object 0 is the workshop's identification, object 8 the driver's. -/
def sampleIdents : IdentObjects where
  next := 20
  time _ := ⟨0, 0⟩
  text a := { encoding := encoding_iso88591, rawData := none, length := some 2, value := [a.toUInt8, 0x61] }
  ia5 a := { rawData := none, length := some 1, value := [a.toUInt8 + 0x30] }
  date _ := ⟨none, 1980, 2, 3⟩
  driver _ := ⟨none, none, none⟩
  owner _ := ⟨some 1, some 2, some 3, some 4⟩
  card _ := ⟨7, none, some 10, some 11, some 12, some 12, some 13⟩
  driverHolder _ := ⟨some 14, some 15, some 16, some 6⟩
  workshopHolder _ := ⟨some 14, some 15, some 14, none, some 5⟩
  controlHolder _ := ⟨none, none, none, none, none⟩
  companyHolder _ := ⟨none, none, none⟩
  ident a := if a = 0 then ⟨.workshopCard, some 17, none, some 18, none, none, some [1], some true⟩
    else ⟨.driverCard, some 17, some 19, none, none, none, none, none⟩

example : (∀ x ∈ identObjects sampleIdents 0, x < sampleIdents.next) ∧ sharedIdentObjects sampleIdents 0 = [5, 2, 3, 4] ∧
    (∀ x ∈ identObjects sampleIdents 8, x < sampleIdents.next) ∧ sharedIdentObjects sampleIdents 8 = [6, 2, 3, 4] := by
  decide +kernel

/-- C93, finding: changing the renewal index of the owner in the copy, or the preferred language, changes the original. -/
theorem shared_index_changes_both : ∃ (h : IdentObjects) (i : Nat), (∀ x ∈ identObjects h i, x < h.next) ∧
    ∃ (c o n : Nat), ((anonymizeIdentificationAt i h).2.ident (anonymizeIdentificationAt i h).1).card = some c ∧
      ((anonymizeIdentificationAt i h).2.card c).owner = some o ∧ ((anonymizeIdentificationAt i h).2.owner o).renewal = some n ∧
      ∀ v, ((((anonymizeIdentificationAt i h).2.setIa5 n v).identAt i).card.bind (·.owner)).bind (·.renewal) = some v :=
  ⟨sampleIdents, 0, by decide +kernel, _, _, _, rfl, rfl, rfl, fun _ => rfl⟩

theorem shared_language_changes_both : ∃ (h : IdentObjects) (i : Nat), (∀ x ∈ identObjects h i, x < h.next) ∧
    ∃ (p n : Nat), ((anonymizeIdentificationAt i h).2.ident (anonymizeIdentificationAt i h).1).driverHolder = some p ∧
      ((anonymizeIdentificationAt i h).2.driverHolder p).language = some n ∧
      ∀ v, (((anonymizeIdentificationAt i h).2.setIa5 n v).identAt i).driverHolder.bind (·.language) = some v :=
  ⟨sampleIdents, 8, by decide +kernel, _, _, rfl, rfl, fun _ => rfl⟩

end Tacho
