import Verif.Props.AnonymizeIdent
/-!
# The new objects of an anonymised identification are distinct (C93)
-/

namespace Tacho
open Spec

/-- The objects from `b` on that are listed are distinct, and lie between `lo` and `hi`. -/
def NewIn (b lo hi : Nat) (l : List Nat) : Prop := (l.filter (b ≤ ·)).Nodup ∧ ∀ x ∈ l, b ≤ x → lo ≤ x ∧ x < hi

theorem NewIn.nil {b lo hi : Nat} : NewIn b lo hi [] := ⟨by simp, by simp⟩

theorem NewIn.old {b lo hi : Nat} {l : List Nat} (p : ∀ x ∈ l, x < b) : NewIn b lo hi l := by
  refine ⟨?_, fun x hx hb => by have := p x hx; omega⟩
  rw [List.filter_eq_nil_iff.2 fun x hx => by have := p x hx; simp; omega]
  exact List.nodup_nil

theorem NewIn.one {b a : Nat} : NewIn b a (a + 1) [a] := by
  refine ⟨?_, fun x hx _ => by simp at hx; omega⟩
  simp only [List.filter_cons, List.filter_nil]
  split <;> simp

theorem NewIn.append {b lo mid hi : Nat} {l m : List Nat} (p : NewIn b lo mid l) (q : NewIn b mid hi m) (h1 : lo ≤ mid) (h2 : mid ≤ hi) :
    NewIn b lo hi (l ++ m) := by
  constructor
  · rw [List.filter_append]
    refine List.nodup_append.2 ⟨p.1, q.1, fun x hx y hy e => ?_⟩
    simp only [List.mem_filter, decide_eq_true_eq] at hx hy
    have := p.2 x hx.1 hx.2
    have := q.2 y hy.1 hy.2
    omega
  · intro x hx hb
    rcases List.mem_append.1 hx with hx | hx
    · have := p.2 x hx hb; omega
    · have := q.2 x hx hb; omega

theorem NewIn.cons {b lo hi : Nat} {l : List Nat} (p : NewIn b lo hi l) (h1 : lo ≤ hi) : NewIn b lo (hi + 1) (hi :: l) := by
  constructor
  · rw [List.filter_cons]
    split
    · refine List.nodup_cons.2 ⟨fun hx => ?_, p.1⟩
      simp only [List.mem_filter, decide_eq_true_eq] at hx
      have := p.2 hi hx.1 hx.2
      omega
    · exact p.1
  · intro x hx hb
    rcases List.mem_cons.1 hx with hx | hx
    · omega
    · have := p.2 x hx hb; omega

theorem driver_new (b : Nat) (d : Option Nat) (h : IdentObjects) :
    NewIn b h.next (anonymizeDriverAt d h).2.next ((anonymizeDriverAt d h).1.toList.flatMap (driverObjects (anonymizeDriverAt d h).2)) := by
  cases d with
  | none => exact .nil
  | some d =>
    have := (NewIn.one (b := b) (a := h.next)).cons (Nat.le_succ _)
    simpa [anonymizeDriverAt, driverObjects, IdentObjects.newIa5, IdentObjects.newDriver] using this

theorem owner_new (b : Nat) (o : Option Nat) (h : IdentObjects) (p : ∀ a ∈ o.toList, ∀ x ∈ indexObjects h a, x < b) :
    NewIn b h.next (anonymizeOwnerAt o h).2.next ((anonymizeOwnerAt o h).1.toList.flatMap (ownerObjects (anonymizeOwnerAt o h).2)) := by
  cases o with
  | none => exact .nil
  | some o =>
    have := ((NewIn.one (b := b) (a := h.next)).append (.old (p o (by simp))) (Nat.le_succ _) (Nat.le_refl _)).cons (Nat.le_succ _)
    simpa [anonymizeOwnerAt, ownerObjects, indexObjects, IdentObjects.newIa5, IdentObjects.newOwner] using this

theorem card_new (c : Option Nat) (h : IdentObjects) (p : ∀ a ∈ c.toList, ∀ x ∈ cardObjects h a, x < h.next) :
    NewIn h.next h.next (anonymizeCardAt c h).2.next ((anonymizeCardAt c h).1.toList.flatMap (cardObjects (anonymizeCardAt c h).2)) := by
  cases c with
  | none => exact .nil
  | some c =>
    have p := p c (by simp)
    have hc : c < h.next := p c (by simp [cardObjects])
    have po : ∀ d ∈ (h.card c).owner.toList, ∀ x ∈ ownerObjects h d, x < h.next := fun d hd x hx =>
      p x (by simp only [cardObjects, List.mem_cons, List.mem_append, List.mem_flatMap]; exact .inr (.inl (.inl (.inl (.inl (.inr ⟨d, hd, hx⟩))))))
    obtain ⟨d1, d2, -⟩ := driver_made (h.card c).driver h
    have nd := driver_new h.next (h.card c).driver h
    have e : anonymizeCardAt (some c) h =
        let d := anonymizeDriverAt (h.card c).driver h
        let w := anonymizeOwnerAt (d.2.card c).owner d.2
        let x := endOfCard (h.card c).issuingState d.1 w.1 w.2
        (some x.1, x.2) := rfl
    rw [e]
    dsimp only
    generalize anonymizeDriverAt (h.card c).driver h = d at *
    rw [(d1.same c hc).card]
    have po' : ∀ a ∈ (h.card c).owner.toList, ∀ x ∈ ownerObjects d.2 a, x < h.next := fun a ha x hx => by
      rw [(owner_same d1.same (po a ha)).2] at hx
      exact po a ha x hx
    have pi : ∀ a ∈ (h.card c).owner.toList, ∀ x ∈ indexObjects d.2 a, x < h.next := fun a ha x hx =>
      po' a ha x (by simp only [ownerObjects, List.mem_cons, List.mem_append]; exact .inr (.inr hx))
    obtain ⟨o1, o2, -, -⟩ := owner_made (h.card c).owner d.2 fun a ha x hx => Nat.lt_of_lt_of_le (po' a ha x hx) d1.next
    have no := owner_new h.next (h.card c).owner d.2 pi
    generalize anonymizeOwnerAt (h.card c).owner d.2 = w at *
    obtain ⟨x1, x2, x3, x4, -⟩ := endOfCard_made (h.card c).issuingState d.1 w.1 w.2
    generalize endOfCard (h.card c).issuingState d.1 w.1 w.2 = r at *
    have n1 := d1.next
    have n2 := o1.next
    have kd : d.1.toList.flatMap (driverObjects r.2) = d.1.toList.flatMap (driverObjects d.2) := flatMap_same fun a ha =>
      (driver_same (o1.trans x1).same fun x hx => (d2 a ha x hx).2).2
    have ko : w.1.toList.flatMap (ownerObjects r.2) = w.1.toList.flatMap (ownerObjects w.2) := flatMap_same fun a ha =>
      (owner_same x1.same fun x hx => by
        rcases o2 a ha x hx with hx | hx
        · exact hx.2
        · rw [List.mem_flatMap] at hx
          obtain ⟨b, hb, hx⟩ := hx
          have := pi b hb x hx
          omega).2
    simp only [Option.toList_some, List.flatMap_cons, List.flatMap_nil, List.append_nil, x2, cardObjects, x4, x3, kd, ko]
    exact (((((nd.append no n1 n2).append .one (by omega) (by omega)).append .one (by omega) (by omega)).append .one (by omega) (by omega)).append .one
      (by omega) (by omega)).cons (by omega)

theorem driverHolder_new (b : Nat) (p : Option Nat) (h : IdentObjects) (pp : ∀ a ∈ p.toList, ∀ x ∈ driverHolderObjects h a, x < b) :
    NewIn b h.next (anonymizeDriverHolderAt p h).2.next
      ((anonymizeDriverHolderAt p h).1.toList.flatMap (driverHolderObjects (anonymizeDriverHolderAt p h).2)) := by
  cases p with
  | none => exact .nil
  | some p =>
    have hl : ∀ x ∈ (h.driverHolder p).language.toList, x < b := fun x hx =>
      pp p (by simp) x (by simp only [driverHolderObjects, List.mem_cons, List.mem_append]; exact .inr (.inr hx))
    have := (((NewIn.one (b := b) (a := h.next)).append .one (by omega) (by omega)).append .one (by omega) (by omega)).append (.old hl)
      (by omega) (Nat.le_refl _) |>.cons (by omega)
    simpa [anonymizeDriverHolderAt, testTextAt, driverHolderObjects, IdentObjects.newText, IdentObjects.newDate, IdentObjects.newDriverHolder] using this

theorem workshopHolder_new (b : Nat) (p : Option Nat) (h : IdentObjects) (pp : ∀ a ∈ p.toList, ∀ x ∈ officeHolderObjects h.workshopHolder a, x < b) :
    NewIn b h.next (anonymizeWorkshopHolderAt p h).2.next
      ((anonymizeWorkshopHolderAt p h).1.toList.flatMap (officeHolderObjects (anonymizeWorkshopHolderAt p h).2.workshopHolder)) := by
  cases p with
  | none => exact .nil
  | some p =>
    have hl : ∀ x ∈ (h.workshopHolder p).language.toList, x < b := fun x hx =>
      pp p (by simp) x (by simp only [officeHolderObjects, List.mem_cons, List.mem_append]; exact .inr (.inr hx))
    have := ((((NewIn.one (b := b) (a := h.next)).append .one (by omega) (by omega)).append .one (by omega) (by omega)).append .one (by omega)
      (by omega)).append (.old hl) (by omega) (Nat.le_refl _) |>.cons (by omega)
    simpa [anonymizeWorkshopHolderAt, testTextAt, officeHolderObjects, IdentObjects.newText, IdentObjects.newWorkshopHolder] using this

theorem controlHolder_new (b : Nat) (p : Option Nat) (h : IdentObjects) (pp : ∀ a ∈ p.toList, ∀ x ∈ officeHolderObjects h.controlHolder a, x < b) :
    NewIn b h.next (anonymizeControlHolderAt p h).2.next
      ((anonymizeControlHolderAt p h).1.toList.flatMap (officeHolderObjects (anonymizeControlHolderAt p h).2.controlHolder)) := by
  cases p with
  | none => exact .nil
  | some p =>
    have hl : ∀ x ∈ (h.controlHolder p).language.toList, x < b := fun x hx =>
      pp p (by simp) x (by simp only [officeHolderObjects, List.mem_cons, List.mem_append]; exact .inr (.inr hx))
    have := ((((NewIn.one (b := b) (a := h.next)).append .one (by omega) (by omega)).append .one (by omega) (by omega)).append .one (by omega)
      (by omega)).append (.old hl) (by omega) (Nat.le_refl _) |>.cons (by omega)
    simpa [anonymizeControlHolderAt, testTextAt, officeHolderObjects, IdentObjects.newText, IdentObjects.newControlHolder] using this

theorem companyHolder_new (b : Nat) (p : Option Nat) (h : IdentObjects) (pp : ∀ a ∈ p.toList, ∀ x ∈ companyHolderObjects h a, x < b) :
    NewIn b h.next (anonymizeCompanyHolderAt p h).2.next
      ((anonymizeCompanyHolderAt p h).1.toList.flatMap (companyHolderObjects (anonymizeCompanyHolderAt p h).2)) := by
  cases p with
  | none => exact .nil
  | some p =>
    have hl : ∀ x ∈ (h.companyHolder p).language.toList, x < b := fun x hx =>
      pp p (by simp) x (by simp only [companyHolderObjects, List.mem_cons, List.mem_append]; exact .inr (.inr hx))
    have := ((NewIn.one (b := b) (a := h.next)).append .one (by omega) (by omega)).append (.old hl) (by omega) (Nat.le_refl _) |>.cons (by omega)
    simpa [anonymizeCompanyHolderAt, testTextAt, companyHolderObjects, IdentObjects.newText, IdentObjects.newCompanyHolder] using this

/-- C93: the objects of the copy that are not those shared with the original are distinct: no two fields of the copy hold the
same new object. -/
theorem anonymize_identification_distinct (i : Nat) (h : IdentObjects) (p : ∀ x ∈ identObjects h i, x < h.next) :
    ((identObjects (anonymizeIdentificationAt i h).2 (anonymizeIdentificationAt i h).1).filter (h.next ≤ ·)).Nodup := by
  have pc : ∀ d ∈ (h.ident i).card.toList, ∀ x ∈ cardObjects h d, x < h.next := fun d hd x hx =>
    p x (by simp only [identObjects, List.mem_cons, List.mem_append, List.mem_flatMap]; exact .inr (.inl (.inl (.inl (.inl ⟨d, hd, hx⟩)))))
  obtain ⟨c1, c2, -, -⟩ := card_made (h.ident i).card h pc
  have nc := card_new (h.ident i).card h pc
  have cl : ∀ x ∈ (h.ident i).card.toList.flatMap (fun c => (h.card c).owner.toList.flatMap (indexObjects h)), x < h.next := fun x hx => by
    simp only [List.mem_flatMap] at hx
    obtain ⟨a, ha, b, hb, hx⟩ := hx
    refine pc a ha x ?_
    simp only [cardObjects, List.mem_cons, List.mem_append, List.mem_flatMap]
    exact .inr (.inl (.inl (.inl (.inl (.inr ⟨b, hb, by simp only [ownerObjects, List.mem_cons, List.mem_append]; exact .inr (.inr hx)⟩)))))
  unfold anonymizeIdentificationAt
  dsimp only
  generalize anonymizeCardAt (h.ident i).card h = c at *
  have n1 := c1.next
  have kc : ∀ R, Grows c.2 R → c.1.toList.flatMap (cardObjects R) = c.1.toList.flatMap (cardObjects c.2) := fun R g =>
    flatMap_same fun a ha => (card_same g.same fun x hx => by
      rcases c2 a ha x hx with hx | hx
      · exact hx.2
      · exact Nat.lt_of_lt_of_le (cl x hx) n1).2
  cases ht : (h.ident i).cardType with
  | unspecified =>
    have g := grows_ident c.2 {
      cardType := .unspecified, card := c.1, driverHolder := none, workshopHolder := none, controlHolder := none
      companyHolder := none, signature := none, signatureVerified := none }
    dsimp only [IdentObjects.newIdent] at g ⊢
    generalize hR : (IdentObjects.mk _ _ _ _ _ _ _ _ _ _ _ _ _) = R at g ⊢
    have i1 : R.ident c.2.next = {
      cardType := .unspecified, card := c.1, driverHolder := none, workshopHolder := none, controlHolder := none
      companyHolder := none, signature := none, signatureVerified := none } := by rw [← hR]; simp
    simp only [identObjects, i1, Option.toList_none, List.flatMap_nil, List.append_nil, kc R g]
    exact (nc.cons n1).1
  | gnssSimulatedCard =>
    have g := grows_ident c.2 {
      cardType := .gnssSimulatedCard, card := c.1, driverHolder := none, workshopHolder := none, controlHolder := none
      companyHolder := none, signature := none, signatureVerified := none }
    dsimp only [IdentObjects.newIdent] at g ⊢
    generalize hR : (IdentObjects.mk _ _ _ _ _ _ _ _ _ _ _ _ _) = R at g ⊢
    have i1 : R.ident c.2.next = {
      cardType := .gnssSimulatedCard, card := c.1, driverHolder := none, workshopHolder := none, controlHolder := none
      companyHolder := none, signature := none, signatureVerified := none } := by rw [← hR]; simp
    simp only [identObjects, i1, Option.toList_none, List.flatMap_nil, List.append_nil, kc R g]
    exact (nc.cons n1).1
  | driverCard =>
    have pf : ∀ a ∈ (h.ident i).driverHolder.toList, ∀ x ∈ driverHolderObjects h a, x < h.next := fun d hd x hx =>
      p x (by simp only [identObjects, List.mem_cons, List.mem_append, List.mem_flatMap]; exact .inr (.inl (.inl (.inl (.inr ⟨d, hd, hx⟩)))))
    have pf' : ∀ a ∈ (h.ident i).driverHolder.toList, ∀ x ∈ driverHolderObjects c.2 a, x < h.next := fun a ha x hx => by
      rw [(driverHolder_same c1.same (pf a ha)).2] at hx
      exact pf a ha x hx
    obtain ⟨f1, f2, -, -⟩ := driverHolder_made (h.ident i).driverHolder c.2 fun a ha x hx => Nat.lt_of_lt_of_le (pf' a ha x hx) n1
    have nf := driverHolder_new h.next (h.ident i).driverHolder c.2 pf'
    have ll : ∀ x ∈ ((h.ident i).driverHolder.bind fun p => (c.2.driverHolder p).language).toList, x < h.next := fun x hx => by
      cases hf : (h.ident i).driverHolder with
      | none => rw [hf] at hx; simp at hx
      | some q =>
        rw [hf] at hx
        exact pf' q (by simp [hf]) x (by simp only [driverHolderObjects, List.mem_cons, List.mem_append]; exact .inr (.inr hx))
    generalize anonymizeDriverHolderAt (h.ident i).driverHolder c.2 = f at *
    have n2 := f1.next
    have g := grows_ident f.2 {
      cardType := .driverCard, card := c.1, workshopHolder := none, controlHolder := none, companyHolder := none
      signature := none, signatureVerified := none, driverHolder := f.1 }
    dsimp only [IdentObjects.newIdent] at g ⊢
    generalize hR : (IdentObjects.mk _ _ _ _ _ _ _ _ _ _ _ _ _) = R at g ⊢
    have i1 : R.ident f.2.next = {
      cardType := .driverCard, card := c.1, workshopHolder := none, controlHolder := none, companyHolder := none
      signature := none, signatureVerified := none, driverHolder := f.1 } := by rw [← hR]; simp
    have kf : f.1.toList.flatMap (driverHolderObjects R) = f.1.toList.flatMap (driverHolderObjects f.2) := flatMap_same fun a ha =>
      (driverHolder_same g.same fun x hx => by
        rcases f2 a ha x hx with hx | hx
        · exact hx.2
        · have := ll x hx; omega).2
    simp only [identObjects, i1, Option.toList_none, List.flatMap_nil, List.append_nil, kc R (f1.trans g), kf]
    exact ((nc.append nf n1 n2).cons (by omega)).1
  | workshopCard =>
    have pf : ∀ a ∈ (h.ident i).workshopHolder.toList, ∀ x ∈ officeHolderObjects h.workshopHolder a, x < h.next := fun d hd x hx =>
      p x (by simp only [identObjects, List.mem_cons, List.mem_append, List.mem_flatMap]; exact .inr (.inl (.inl (.inr ⟨d, hd, hx⟩))))
    have pf' : ∀ a ∈ (h.ident i).workshopHolder.toList, ∀ x ∈ officeHolderObjects c.2.workshopHolder a, x < h.next := fun a ha x hx => by
      rw [(workshopHolder_same c1.same (pf a ha)).2] at hx
      exact pf a ha x hx
    obtain ⟨f1, f2, -, -⟩ := workshopHolder_made (h.ident i).workshopHolder c.2 fun a ha x hx => Nat.lt_of_lt_of_le (pf' a ha x hx) n1
    have nf := workshopHolder_new h.next (h.ident i).workshopHolder c.2 pf'
    have ll : ∀ x ∈ ((h.ident i).workshopHolder.bind fun p => (c.2.workshopHolder p).language).toList, x < h.next := fun x hx => by
      cases hf : (h.ident i).workshopHolder with
      | none => rw [hf] at hx; simp at hx
      | some q =>
        rw [hf] at hx
        exact pf' q (by simp [hf]) x (by simp only [officeHolderObjects, List.mem_cons, List.mem_append]; exact .inr (.inr hx))
    generalize anonymizeWorkshopHolderAt (h.ident i).workshopHolder c.2 = f at *
    have n2 := f1.next
    have g := grows_ident f.2 {
      cardType := .workshopCard, card := c.1, driverHolder := none, controlHolder := none, companyHolder := none
      signature := none, signatureVerified := none, workshopHolder := f.1 }
    dsimp only [IdentObjects.newIdent] at g ⊢
    generalize hR : (IdentObjects.mk _ _ _ _ _ _ _ _ _ _ _ _ _) = R at g ⊢
    have i1 : R.ident f.2.next = {
      cardType := .workshopCard, card := c.1, driverHolder := none, controlHolder := none, companyHolder := none
      signature := none, signatureVerified := none, workshopHolder := f.1 } := by rw [← hR]; simp
    have kf : f.1.toList.flatMap (officeHolderObjects R.workshopHolder) = f.1.toList.flatMap (officeHolderObjects f.2.workshopHolder) := flatMap_same fun a ha =>
      (workshopHolder_same g.same fun x hx => by
        rcases f2 a ha x hx with hx | hx
        · exact hx.2
        · have := ll x hx; omega).2
    simp only [identObjects, i1, Option.toList_none, List.flatMap_nil, List.append_nil, kc R (f1.trans g), kf]
    exact ((nc.append nf n1 n2).cons (by omega)).1
  | controlCard =>
    have pf : ∀ a ∈ (h.ident i).controlHolder.toList, ∀ x ∈ officeHolderObjects h.controlHolder a, x < h.next := fun d hd x hx =>
      p x (by simp only [identObjects, List.mem_cons, List.mem_append, List.mem_flatMap]; exact .inr (.inl (.inr ⟨d, hd, hx⟩)))
    have pf' : ∀ a ∈ (h.ident i).controlHolder.toList, ∀ x ∈ officeHolderObjects c.2.controlHolder a, x < h.next := fun a ha x hx => by
      rw [(controlHolder_same c1.same (pf a ha)).2] at hx
      exact pf a ha x hx
    obtain ⟨f1, f2, -, -⟩ := controlHolder_made (h.ident i).controlHolder c.2 fun a ha x hx => Nat.lt_of_lt_of_le (pf' a ha x hx) n1
    have nf := controlHolder_new h.next (h.ident i).controlHolder c.2 pf'
    have ll : ∀ x ∈ ((h.ident i).controlHolder.bind fun p => (c.2.controlHolder p).language).toList, x < h.next := fun x hx => by
      cases hf : (h.ident i).controlHolder with
      | none => rw [hf] at hx; simp at hx
      | some q =>
        rw [hf] at hx
        exact pf' q (by simp [hf]) x (by simp only [officeHolderObjects, List.mem_cons, List.mem_append]; exact .inr (.inr hx))
    generalize anonymizeControlHolderAt (h.ident i).controlHolder c.2 = f at *
    have n2 := f1.next
    have g := grows_ident f.2 {
      cardType := .controlCard, card := c.1, driverHolder := none, workshopHolder := none, companyHolder := none
      signature := none, signatureVerified := none, controlHolder := f.1 }
    dsimp only [IdentObjects.newIdent] at g ⊢
    generalize hR : (IdentObjects.mk _ _ _ _ _ _ _ _ _ _ _ _ _) = R at g ⊢
    have i1 : R.ident f.2.next = {
      cardType := .controlCard, card := c.1, driverHolder := none, workshopHolder := none, companyHolder := none
      signature := none, signatureVerified := none, controlHolder := f.1 } := by rw [← hR]; simp
    have kf : f.1.toList.flatMap (officeHolderObjects R.controlHolder) = f.1.toList.flatMap (officeHolderObjects f.2.controlHolder) := flatMap_same fun a ha =>
      (controlHolder_same g.same fun x hx => by
        rcases f2 a ha x hx with hx | hx
        · exact hx.2
        · have := ll x hx; omega).2
    simp only [identObjects, i1, Option.toList_none, List.flatMap_nil, List.append_nil, kc R (f1.trans g), kf]
    exact ((nc.append nf n1 n2).cons (by omega)).1
  | companyCard =>
    have pf : ∀ a ∈ (h.ident i).companyHolder.toList, ∀ x ∈ companyHolderObjects h a, x < h.next := fun d hd x hx =>
      p x (by simp only [identObjects, List.mem_cons, List.mem_append, List.mem_flatMap]; exact .inr (.inr ⟨d, hd, hx⟩))
    have pf' : ∀ a ∈ (h.ident i).companyHolder.toList, ∀ x ∈ companyHolderObjects c.2 a, x < h.next := fun a ha x hx => by
      rw [(companyHolder_same c1.same (pf a ha)).2] at hx
      exact pf a ha x hx
    obtain ⟨f1, f2, -, -⟩ := companyHolder_made (h.ident i).companyHolder c.2 fun a ha x hx => Nat.lt_of_lt_of_le (pf' a ha x hx) n1
    have nf := companyHolder_new h.next (h.ident i).companyHolder c.2 pf'
    have ll : ∀ x ∈ ((h.ident i).companyHolder.bind fun p => (c.2.companyHolder p).language).toList, x < h.next := fun x hx => by
      cases hf : (h.ident i).companyHolder with
      | none => rw [hf] at hx; simp at hx
      | some q =>
        rw [hf] at hx
        exact pf' q (by simp [hf]) x (by simp only [companyHolderObjects, List.mem_cons, List.mem_append]; exact .inr (.inr hx))
    generalize anonymizeCompanyHolderAt (h.ident i).companyHolder c.2 = f at *
    have n2 := f1.next
    have g := grows_ident f.2 {
      cardType := .companyCard, card := c.1, driverHolder := none, workshopHolder := none, controlHolder := none
      signature := none, signatureVerified := none, companyHolder := f.1 }
    dsimp only [IdentObjects.newIdent] at g ⊢
    generalize hR : (IdentObjects.mk _ _ _ _ _ _ _ _ _ _ _ _ _) = R at g ⊢
    have i1 : R.ident f.2.next = {
      cardType := .companyCard, card := c.1, driverHolder := none, workshopHolder := none, controlHolder := none
      signature := none, signatureVerified := none, companyHolder := f.1 } := by rw [← hR]; simp
    have kf : f.1.toList.flatMap (companyHolderObjects R) = f.1.toList.flatMap (companyHolderObjects f.2) := flatMap_same fun a ha =>
      (companyHolder_same g.same fun x hx => by
        rcases f2 a ha x hx with hx | hx
        · exact hx.2
        · have := ll x hx; omega).2
    simp only [identObjects, i1, Option.toList_none, List.flatMap_nil, List.append_nil, kc R (f1.trans g), kf]
    exact ((nc.append nf n1 n2).cons (by omega)).1

-- Two dates of the card of this original are one object, and so are two texts of its holder. In the copy they are not.
example : (∀ x ∈ identObjects sampleIdents 0, x < sampleIdents.next) ∧ ¬ (identObjects sampleIdents 0).Nodup ∧
    (identObjects (anonymizeIdentificationAt 0 sampleIdents).2 (anonymizeIdentificationAt 0 sampleIdents).1).Nodup ∧
    (identObjects (anonymizeIdentificationAt 0 sampleIdents).2 (anonymizeIdentificationAt 0 sampleIdents).1).length = 17 := by
  decide +kernel

end Tacho
