import Verif.Spec.VuLegacy
import Verif.Props.ScannedFiles
import Verif.Props.Anonymize
import Verif.Props.CardTotal
import Verif.Spec.VuGen1
/-!
# The older activity parser (C66)
-/

namespace Tacho
open Spec

/-! ## Readers and suffixes -/

/-- A reader that moves an offset, described by what it does to the input that is left. -/
structure Reads {α : Type} (r : Bytes → Nat → Res (α × Nat)) (P : Bytes → α → Bytes → Prop) : Prop where
  suffix : ∀ {i a t}, P i a t → ∃ p, i = p ++ t
  spec : ∀ {d o a o'}, o ≤ d.length → (r d o = .ok (a, o') ↔ ∃ t, P (d.drop o) a t ∧ o' = d.length - t.length)

theorem suffix_drop {d p t : Bytes} {o : Nat} (ho : o ≤ d.length) (h : d.drop o = p ++ t) :
    d.length - t.length ≤ d.length ∧ d.drop (d.length - t.length) = t ∧ d.length - t.length = o + p.length := by
  have hl := congrArg List.length h
  rw [List.length_drop, List.length_append] at hl
  have e : d.length - t.length = o + p.length := by omega
  refine ⟨by omega, ?_, e⟩
  rw [e, ← List.drop_drop, h, List.drop_left]

theorem Reads.left {α : Type} {r : Bytes → Nat → Res (α × Nat)} {P : Bytes → α → Bytes → Prop} (h : Reads r P) {d : Bytes}
    {o : Nat} {a : α} {t : Bytes} (ho : o ≤ d.length) (hp : P (d.drop o) a t) :
    d.length - t.length ≤ d.length ∧ d.drop (d.length - t.length) = t := by
  obtain ⟨p, e⟩ := h.suffix hp
  exact ⟨(suffix_drop ho e).1, (suffix_drop ho e).2.1⟩

/-- One reader after another. -/
theorem Reads.bind {α β : Type} {r : Bytes → Nat → Res (α × Nat)} {P : Bytes → α → Bytes → Prop}
    {s : α → Bytes → Nat → Res (β × Nat)} {Q : α → Bytes → β → Bytes → Prop} (hr : Reads r P) (hs : ∀ a, Reads (s a) (Q a)) :
    Reads (fun d o => r d o >>= fun x => s x.1 d x.2) (fun i b t => ∃ a u, P i a u ∧ Q a u b t) := by
  constructor
  · rintro i b t ⟨a, u, h1, h2⟩
    obtain ⟨p, rfl⟩ := hr.suffix h1
    obtain ⟨q, rfl⟩ := (hs a).suffix h2
    exact ⟨p ++ q, by simp⟩
  · intro d o b o' ho
    constructor
    · intro h
      obtain ⟨⟨a, o1⟩, h1, h2⟩ := bind_eq_ok.mp h
      obtain ⟨u, hu, rfl⟩ := (hr.spec ho).mp h1
      obtain ⟨hl, hd⟩ := hr.left ho hu
      obtain ⟨t, ht, rfl⟩ := ((hs a).spec hl).mp h2
      rw [hd] at ht
      exact ⟨t, ⟨a, u, hu, ht⟩, rfl⟩
    · rintro ⟨t, ⟨a, u, hu, ht⟩, rfl⟩
      obtain ⟨hl, hd⟩ := hr.left ho hu
      refine bind_eq_ok.mpr ⟨(a, _), (hr.spec ho).mpr ⟨u, hu, rfl⟩, ?_⟩
      exact ((hs a).spec hl).mpr ⟨t, by rwa [hd], rfl⟩

theorem Reads.congr {α : Type} {r : Bytes → Nat → Res (α × Nat)} {P Q : Bytes → α → Bytes → Prop} (h : Reads r P)
    (e : ∀ i a t, P i a t ↔ Q i a t) : Reads r Q := by
  constructor
  · intro i a t hq; exact h.suffix ((e _ _ _).mpr hq)
  · intro d o a o' ho
    rw [h.spec ho]
    exact exists_congr fun t => and_congr_left fun _ => e _ _ _

theorem drop_take_of_append {d p t : Bytes} {o : Nat} (h : d.drop o = p ++ t) : sl d o (o + p.length) = p := by
  unfold sl
  rw [List.drop_take, show o + p.length - o = p.length from by omega, h, List.take_left]

/-- Reading one byte. -/
theorem reads_u8 : Reads readU8 (fun i b t => i = b :: t) := by
  constructor
  · rintro i b t rfl; exact ⟨[b], rfl⟩
  · intro d o b o' ho
    unfold readU8 at?
    by_cases h : o ≥ d.length
    · rw [if_pos h, List.drop_eq_nil_of_le h]; simp
    · have hlt : o < d.length := by omega
      rw [if_neg h, List.getElem?_eq_getElem hlt, List.drop_eq_getElem_cons hlt]
      simp only [Res.bind_ok, Res.pure_eq, Res.ok.injEq, Prod.mk.injEq, List.cons.injEq]
      constructor
      · rintro ⟨rfl, rfl⟩
        exact ⟨d.drop (o + 1), ⟨rfl, rfl⟩, by simp; omega⟩
      · rintro ⟨t, ⟨rfl, rfl⟩, rfl⟩
        exact ⟨rfl, by simp; omega⟩

/-- Reading `n` bytes with a checked function. -/
theorem reads_piece {α : Type} (n : Nat) (f : Bytes → Res α) :
    Reads (fun d o => do let b ← sl? d o (o + n); let c ← f b; return (c, o + n))
      (fun i a t => ∃ x, x.length = n ∧ i = x ++ t ∧ f x = .ok a) := by
  constructor
  · rintro i a t ⟨x, _, rfl, _⟩; exact ⟨x, rfl⟩
  · intro d o a o' ho
    constructor
    · intro h
      obtain ⟨b, hb, h⟩ := bind_eq_ok.mp h
      obtain ⟨c, hc, h⟩ := bind_eq_ok.mp h
      simp only [Res.pure_eq, Res.ok.injEq, Prod.mk.injEq] at h
      obtain ⟨rfl, rfl⟩ := h
      unfold sl? at hb
      split at hb
      · rename_i hh
        have hb : sl d o (o + n) = b := Res.ok.inj hb
        have hbl : b.length = n := by rw [← hb, sl_length_of hh.2]; omega
        have hs : d.drop o = b ++ d.drop (o + n) := by
          rw [← hb, sl, List.drop_take, show o + n - o = n from by omega, ← List.drop_drop, List.take_append_drop]
        exact ⟨d.drop (o + n), ⟨b, hbl, hs, hc⟩, by rw [List.length_drop]; omega⟩
      · cases hb
    · rintro ⟨t, ⟨x, hl, hd, hf⟩, rfl⟩
      have h3 := suffix_drop ho hd
      have : sl? d o (o + n) = .ok x := by
        unfold sl?
        rw [if_pos (by omega), ← hl, drop_take_of_append hd]
      rw [this, Res.bind_ok, hf, Res.bind_ok, h3.2.2, hl]
      rfl

theorem reads_time : Reads readTime (fun i a t => ∃ x, x.length = 4 ∧ i = x ++ t ∧ a = ⟨(beNat x : Int), 0⟩) := by
  constructor
  · rintro i a t ⟨x, _, rfl, _⟩; exact ⟨x, rfl⟩
  · intro d o a o' ho
    unfold readTime from?
    by_cases h : o + 4 > d.length
    · rw [if_pos h]
      simp only [reduceCtorEq, false_iff]
      rintro ⟨t, ⟨x, hl, hd, _⟩, _⟩
      have := congrArg List.length hd
      rw [List.length_drop, List.length_append] at this
      omega
    · rw [if_neg h, if_pos ho]
      simp only [Res.bind_ok, Res.pure_eq, Res.ok.injEq, Prod.mk.injEq]
      constructor
      · rintro ⟨rfl, rfl⟩
        exact ⟨d.drop (o + 4), ⟨(d.drop o).take 4, by rw [List.length_take, List.length_drop]; omega,
          by rw [← List.drop_drop, List.take_append_drop], rfl⟩, by rw [List.length_drop]; omega⟩
      · rintro ⟨t, ⟨x, hl, hd, rfl⟩, rfl⟩
        have h3 := suffix_drop ho hd
        rw [hd, ← hl, List.take_left, h3.2.2]
        exact ⟨rfl, rfl⟩

theorem reads_n (n : Nat) : Reads (fun d o => readN d o (n : Int)) (fun i a t => a.length = n ∧ i = a ++ t) := by
  constructor
  · rintro i a t ⟨_, rfl⟩; exact ⟨a, rfl⟩
  · intro d o a o' ho
    unfold readN
    by_cases h : (o : Int) + n > d.length
    · rw [if_pos h]
      simp only [reduceCtorEq, false_iff]
      rintro ⟨t, ⟨hl, hd⟩, _⟩
      have := congrArg List.length hd
      rw [List.length_drop, List.length_append] at this
      omega
    · rw [if_neg h, if_neg (by omega), Int.toNat_natCast]
      have key := (reads_piece n (fun b => .ok b)).spec (d := d) (o := o) (a := a) (o' := o') ho
      simp only [Res.bind_ok, Res.ok.injEq] at key
      rw [key]
      constructor
      · rintro ⟨t, ⟨x, h1, h2, rfl⟩, h3⟩; exact ⟨t, ⟨h1, h2⟩, h3⟩
      · rintro ⟨t, ⟨h1, h2⟩, h3⟩; exact ⟨t, ⟨a, h1, h2, rfl⟩, h3⟩

/-- A loop of `k` readings. -/
theorem reads_many {α : Type} {n : Nat} {f : Bytes → α → Prop} {r : Bytes → Nat → Res (α × Nat)}
    (hr : Reads r (fun i a t => ∃ x, x.length = n ∧ i = x ++ t ∧ f x a)) (k : Nat) :
    Reads (fun d o => readMany (r d) k o) (fun i as t => as.length = k ∧ Pieces n f i as t) := by
  induction k with
  | zero =>
    constructor
    · rintro i as t ⟨h, xs, rfl, _, hf⟩; exact ⟨_, rfl⟩
    · intro d o as o' ho
      show (Res.ok ([], o) = _) ↔ _
      rw [Res.ok.injEq, Prod.mk.injEq]
      constructor
      · rintro ⟨rfl, rfl⟩
        exact ⟨d.drop o, ⟨rfl, [], by simp, by simp, .nil⟩, by rw [List.length_drop]; omega⟩
      · rintro ⟨t, ⟨h, xs, hd, _, hf⟩, rfl⟩
        have := List.length_eq_zero_iff.mp h
        subst this
        cases hf
        rw [List.flatten_nil, List.nil_append] at hd
        subst hd
        exact ⟨rfl, by rw [List.length_drop]; omega⟩
  | succ k ih =>
    have hb := hr.bind (s := fun a d o => readMany (r d) k o >>= fun x => .ok (a :: x.1, x.2))
      (Q := fun a i as t => ∃ bs, as = a :: bs ∧ bs.length = k ∧ Pieces n f i bs t) ?_
    · have hb : Reads (fun d o => readMany (r d) (k + 1) o) _ := hb
      refine hb.congr ?_
      intro i as t
      constructor
      · rintro ⟨a, u, ⟨x, hx, rfl, hf⟩, bs, rfl, hl, xs, rfl, h2, h3⟩
        exact ⟨by simp [hl], x :: xs, by simp, by simpa [hx] using h2, .cons hf h3⟩
      · rintro ⟨hl, xs, rfl, h2, h3⟩
        cases h3 with
        | nil => simp at hl
        | cons hf h3 =>
          rename_i x a xs bs
          refine ⟨a, xs.flatten ++ t, ⟨x, h2 x (by simp), by simp, hf⟩, bs, rfl, by simpa using hl, xs, rfl,
            fun y hy => h2 y (by simp [hy]), h3⟩
    · intro a
      constructor
      · rintro i as t ⟨bs, _, _, xs, rfl, _⟩; exact ⟨_, rfl⟩
      · intro d o as o' ho
        rw [bind_eq_ok]
        constructor
        · rintro ⟨⟨bs, o1⟩, h1, h2⟩
          simp only [Res.ok.injEq, Prod.mk.injEq] at h2
          obtain ⟨rfl, rfl⟩ := h2
          obtain ⟨t, ⟨h1, h2⟩, h3⟩ := (ih.spec ho).mp h1
          exact ⟨t, ⟨bs, rfl, h1, h2⟩, h3⟩
        · rintro ⟨t, ⟨bs, rfl, h1, h2⟩, h3⟩
          exact ⟨(bs, o'), (ih.spec ho).mpr ⟨t, ⟨h1, h2⟩, h3⟩, rfl⟩

/-- The scanner loops. -/
theorem reads_scanned {α : Type} {n : Nat} (h0 : 0 < n) (hn : n ≤ 65536) (f : Bytes → Res α) (k : Nat) :
    Reads (fun d o => readScanned n f k d o)
      (fun i as t => as.length = min k (i.length / n) ∧ Pieces n (fun b a => f b = .ok a) i as t) := by
  constructor
  · rintro i as t ⟨_, xs, rfl, _⟩; exact ⟨_, rfl⟩
  · intro d o as o' ho
    unfold readScanned from?
    rw [if_pos ho, Res.bind_ok]
    generalize hi : d.drop o = i
    have hs := scan_fixed h0 hn i
    dsimp only
    rw [List.map_take, hs.1, hs.2]
    simp only [Option.isSome_none, Bool.false_eq_true, and_false, if_false]
    have hcut : i = ((cut n i).take k).flatten ++ i.drop (((cut n i).take k).length * n) := by
      have hsz := cut_sizes h0 i
      have hlen := cut_length h0 i
      have hfl : ((cut n i).take k).flatten.length = ((cut n i).take k).length * n := by
        rw [flatten_length_const]
        intro x hx
        exact hsz x (List.mem_of_mem_take hx)
      have hpre : ((cut n i).take k).flatten = i.take (((cut n i).take k).length * n) := by
        have h1 := cut_flatten h0 i
        have h2 : (cut n i).flatten = ((cut n i).take k).flatten ++ ((cut n i).drop k).flatten := by
          rw [← List.flatten_append, List.take_append_drop]
        have h3 := congrArg (List.take (((cut n i).take k).length * n)) h2
        rw [List.take_left' hfl, h1, List.take_take, Nat.min_eq_left] at h3
        · exact h3.symm
        · refine Nat.mul_le_mul_right _ ?_
          rw [List.length_take, hlen]; omega
      rw [hpre, List.take_append_drop]
    have hcl : ((cut n i).take k).length = min k (i.length / n) := by rw [List.length_take, cut_length h0]
    constructor
    · intro h
      obtain ⟨rs, hr, h⟩ := bind_eq_ok.mp h
      simp only [Res.bind_ok, Res.pure_eq, Res.ok.injEq, Prod.mk.injEq] at h
      obtain ⟨rfl, rfl⟩ := h
      have hf := mapRes_ok_iff.mp hr
      have hlen := hf.length_eq
      refine ⟨_, ⟨by rw [← hlen, hcl], (cut n i).take k, hcut, ?_, hf⟩, ?_⟩
      · intro x hx; exact cut_sizes h0 i x (List.mem_of_mem_take hx)
      · rw [List.length_drop, hlen]
        have hil : i.length = d.length - o := by rw [← hi, List.length_drop]
        have : rs.length * n ≤ i.length := by
          rw [← hlen, hcl]
          exact Nat.le_trans (Nat.mul_le_mul_right _ (Nat.min_le_right _ _)) (Nat.div_mul_le_self _ _)
        omega
    · rintro ⟨t, ⟨hl, xs, he, hsz, hf⟩, rfl⟩
      have hx : (cut n i).take k = xs := by
        have hk : xs.length = min k (i.length / n) := hf.length_eq.trans hl
        have h1 : ((cut n i).take k).flatten ++ i.drop (((cut n i).take k).length * n) = xs.flatten ++ t := by rw [← hcut, he]
        have hls : ((cut n i).take k).flatten.length = xs.flatten.length := by
          rw [flatten_length_const (n := n), flatten_length_const (n := n) hsz, hcl, hk]
          intro x hx; exact cut_sizes h0 i x (List.mem_of_mem_take hx)
        have h2 := (List.append_inj h1 hls).1
        have h3 := congrArg (cut n) h2
        rwa [cut_of_flatten h0 _ hsz, cut_of_flatten h0] at h3
        intro x hx; exact cut_sizes h0 i x (List.mem_of_mem_take hx)
      rw [hx, mapRes_ok_iff.mpr hf, Res.bind_ok]
      simp only [Res.bind_ok, Res.pure_eq, Res.ok.injEq, Prod.mk.injEq, true_and]
      rw [he] at hi
      rw [(suffix_drop ho hi).2.2, flatten_length_const (n := n) hsz, hf.length_eq]

theorem unmarshalOdometer_3 {b : Bytes} (h : b.length = 3) (v : Nat) : unmarshalOdometer b = .ok v ↔ v = beNat b := by
  unfold unmarshalOdometer
  rw [if_neg (by omega)]
  simp [eq_comm]

theorem Pieces.congr {α : Type} {n : Nat} {f g : Bytes → α → Prop} (h : ∀ x a, x.length = n → (f x a ↔ g x a)) {i : Bytes}
    {as : List α} {t : Bytes} : Pieces n f i as t ↔ Pieces n g i as t := by
  refine exists_congr fun xs => and_congr_right fun _ => and_congr_right fun hs => ?_
  clear * - h hs
  constructor
  · intro hf
    induction hf with
    | nil => exact .nil
    | cons a _ ih => exact .cons ((h _ _ (hs _ (by simp))).mp a) (ih fun x hx => hs x (by simp [hx]))
  · intro hf
    induction hf with
    | nil => exact .nil
    | cons a _ ih => exact .cons ((h _ _ (hs _ (by simp))).mpr a) (ih fun x hx => hs x (by simp [hx]))

/-! ## Headers -/

theorem wideHeader_length (a b c : Nat) : (wideHeader a b c).length = 6 := by simp [wideHeader]

theorem split_header {i : Bytes} (h : 6 ≤ i.length) :
    i = wideHeader (beNat (i.take 2)) (beNat (sl i 2 4)) (beNat (sl i 4 6)) ++ i.drop 6 := by
  match i, h with
  | a :: b :: c :: d :: e :: f :: rest, _ =>
    unfold wideHeader sl
    simp only [List.take_succ_cons, List.take_zero, List.drop_succ_cons, List.drop_zero]
    rw [beBytes_beNat' (by rfl), beBytes_beNat' (by rfl), beBytes_beNat' (by rfl)]
    rfl

theorem header_parts {type size count : Nat} (h1 : type < 65536) (h2 : size < 65536) (h3 : count < 65536) (t : Bytes) :
    beNat ((wideHeader type size count ++ t).take 2) = type ∧ beNat (sl (wideHeader type size count ++ t) 2 4) = size ∧
    beNat (sl (wideHeader type size count ++ t) 4 6) = count ∧ (wideHeader type size count ++ t).drop 6 = t := by
  unfold wideHeader
  have l1 := beBytes_length 2 type
  have l2 := beBytes_length 2 size
  have l3 := beBytes_length 2 count
  have e1 := beNat_beBytes_of_lt (k := 2) h1
  have e2 := beNat_beBytes_of_lt (k := 2) h2
  have e3 := beNat_beBytes_of_lt (k := 2) h3
  generalize beBytes 2 type = x at *
  generalize beBytes 2 size = y at *
  generalize beBytes 2 count = z at *
  match x, y, z, l1, l2, l3 with
  | [a, b], [c, d], [e, f], _, _, _ => exact ⟨e1, e2, e3, rfl⟩

theorem reads_header (type size : Nat) (h1 : type < 65536) (h2 : size < 65536) :
    Reads (arrayHeader type (some size)) (fun i n t => n < 65536 ∧ i = wideHeader type size n ++ t) := by
  constructor
  · rintro i n t ⟨_, rfl⟩; exact ⟨_, rfl⟩
  · intro d o n o' ho
    unfold arrayHeader from?
    rw [if_pos ho]
    by_cases h : o + 6 > d.length
    · rw [if_pos h]
      simp only [Res.bind_err, reduceCtorEq, false_iff]
      rintro ⟨t, ⟨_, hd⟩, _⟩
      have := congrArg List.length hd
      rw [List.length_drop, List.length_append, wideHeader_length] at this
      omega
    · rw [if_neg h]
      simp only [Res.bind_ok, Res.pure_eq]
      generalize hi : d.drop o = i
      have hil : i.length = d.length - o := by rw [← hi, List.length_drop]
      constructor
      · intro hh
        by_cases ht : beNat (i.take 2) = type
        · by_cases hz : beNat (sl i 2 4) = size
          · rw [if_neg (by simpa using ht), if_neg (by simpa using hz)] at hh
            simp only [Res.ok.injEq, Prod.mk.injEq] at hh
            obtain ⟨rfl, rfl⟩ := hh
            refine ⟨i.drop 6, ⟨?_, ?_⟩, by rw [List.length_drop]; omega⟩
            · have := beNat_lt (sl i 4 6)
              have hl : (sl i 4 6).length = 2 := by rw [sl_length_of (by omega)]
              rw [hl] at this
              exact this
            · have := split_header (i := i) (by omega)
              rwa [ht, hz] at this
          · rw [if_neg (by simpa using ht), if_pos (by simpa using hz)] at hh
            simp at hh
        · rw [if_pos (by simpa using ht)] at hh
          simp at hh
      · rintro ⟨t, ⟨hn, rfl⟩, rfl⟩
        obtain ⟨e1, e2, e3, e4⟩ := header_parts h1 h2 hn t
        rw [e1, e2, e3, if_neg (by simp), if_neg (by simp)]
        rw [(suffix_drop ho hi).2.2, wideHeader_length]

theorem reads_header_any (type : Nat) (h1 : type < 65536) :
    Reads (arrayHeader type none) (fun i n t => n < 65536 ∧ ∃ size, size < 65536 ∧ i = wideHeader type size n ++ t) := by
  constructor
  · rintro i n t ⟨_, _, _, rfl⟩; exact ⟨_, rfl⟩
  · intro d o n o' ho
    unfold arrayHeader from?
    rw [if_pos ho]
    by_cases h : o + 6 > d.length
    · rw [if_pos h]
      simp only [Res.bind_err, reduceCtorEq, false_iff]
      rintro ⟨t, ⟨_, _, _, hd⟩, _⟩
      have := congrArg List.length hd
      rw [List.length_drop, List.length_append, wideHeader_length] at this
      omega
    · rw [if_neg h]
      simp only [Res.bind_ok, Res.pure_eq]
      generalize hi : d.drop o = i
      have hil : i.length = d.length - o := by rw [← hi, List.length_drop]
      constructor
      · intro hh
        by_cases ht : beNat (i.take 2) = type
        · rw [if_neg (by simpa using ht)] at hh
          simp only [Res.ok.injEq, Prod.mk.injEq] at hh
          obtain ⟨rfl, rfl⟩ := hh
          refine ⟨i.drop 6, ⟨?_, beNat (sl i 2 4), ?_, ?_⟩, by rw [List.length_drop]; omega⟩
          · have := beNat_lt (sl i 4 6)
            have hl : (sl i 4 6).length = 2 := by rw [sl_length_of (by omega)]
            rw [hl] at this
            exact this
          · have := beNat_lt (sl i 2 4)
            have hl : (sl i 2 4).length = 2 := by rw [sl_length_of (by omega)]
            rw [hl] at this
            exact this
          · have := split_header (i := i) (by omega)
            rwa [ht] at this
        · rw [if_pos (by simpa using ht)] at hh
          simp at hh
      · rintro ⟨t, ⟨hn, size, h2, rfl⟩, rfl⟩
        obtain ⟨e1, e2, e3, e4⟩ := header_parts h1 h2 hn t
        rw [e1, e3, if_neg (by simp)]
        rw [(suffix_drop ho hi).2.2, wideHeader_length]

/-! ## The lists of generation 1 -/

section
variable [Charmap]

/-- No card record can be read: the pieces have 126 bytes, and the record needs 130. -/
theorem reads_iw1 : Reads legacyIWData (fun i as t => as = [] ∧ ∃ k : UInt8, i = k :: t ∧ (k = 0 ∨ t.length < 126)) := by
  have h := reads_u8.bind (s := fun n d o => readScanned 126 legacyIWRecord n.toNat d o)
    fun n => reads_scanned (n := 126) (by omega) (by omega) legacyIWRecord n.toNat
  have h : Reads legacyIWData _ := h
  refine h.congr ?_
  intro i as t
  constructor
  · rintro ⟨k, u, rfl, hl, xs, rfl, hs, hf⟩
    cases hf with
    | nil =>
      refine ⟨rfl, k, by simp, ?_⟩
      rw [List.length_nil] at hl
      simp only [List.flatten_nil, List.nil_append] at hl
      by_cases hk : k = 0
      · exact .inl hk
      · refine .inr ?_
        have : 0 < k.toNat := Nat.pos_of_ne_zero fun e => hk (UInt8.toNat_inj.mp e)
        have : t.length / 126 = 0 := by omega
        rw [Nat.div_eq_zero_iff] at this
        omega
    | @cons x _ _ _ hx _ =>
      have := hs x (by simp)
      unfold legacyIWRecord at hx
      rw [if_pos (by omega)] at hx
      simp at hx
  · rintro ⟨rfl, k, rfl, hk⟩
    refine ⟨k, t, rfl, ?_, [], by simp, by simp, .nil⟩
    rcases hk with rfl | hk
    · simp
    · rw [Nat.div_eq_of_lt hk]; simp

omit [Charmap] in
theorem reads_counted {α : Type} (n : Nat) (f : Bytes → Res α) :
    Reads (fun d o => readU8 d o >>= fun x => readMany (fun o => do let b ← sl? d o (o + n); let c ← f b; return (c, o + n)) x.1.toNat x.2)
      (Counted n (fun b a => f b = .ok a)) := by
  refine (reads_u8.bind (s := fun k d o => readMany (fun o => do let b ← sl? d o (o + n); let c ← f b; return (c, o + n)) k.toNat o)
    fun k => reads_many (reads_piece n f) k.toNat).congr ?_
  intro i as t
  constructor
  · rintro ⟨k, u, rfl, h1, h2⟩; exact ⟨k, u, rfl, h1, h2⟩
  · rintro ⟨k, u, rfl, h1, h2⟩; exact ⟨k, u, rfl, h1, h2⟩

omit [Charmap] in
theorem legacyPlace_iff {b : Bytes} (h : b.length = 10) (p : LegacyPlace) : legacyPlace b = .ok p ↔ LegacyPlaceIs b p := by
  match b, h with
  | [b0, b1, b2, b3, b4, b5, b6, b7, b8, b9], _ =>
    unfold LegacyPlaceIs
    have e : legacyPlace [b0, b1, b2, b3, b4, b5, b6, b7, b8, b9] = .ok
      ⟨⟨(beNat [b0, b1, b2, b3] : Int), 0⟩, b4.toNat, b5.toNat, [b6], beNat [b7, b8, b9]⟩ := rfl
    rw [e]
    simp only [Res.ok.injEq, sl, List.take_succ_cons, List.take_zero, List.drop_succ_cons, List.drop_zero,
      List.getElem?_cons_succ, List.getElem?_cons_zero, Option.map_some, Option.some.injEq]
    constructor
    · rintro rfl; exact ⟨rfl, rfl, rfl, rfl, rfl⟩
    · rintro ⟨h1, h2, h3, h4, h5⟩
      cases p
      simp_all

omit [Charmap] in
theorem reads_changes : Reads legacyChanges (Counted 2 (fun b c => unmarshalActivityChangeInfo b = .ok c)) := reads_counted 2 _

omit [Charmap] in
theorem reads_places : Reads legacyPlaces (Counted 10 LegacyPlaceIs) := by
  have h : Reads legacyPlaces _ := reads_counted 10 legacyPlace
  refine h.congr ?_
  intro i as t
  unfold Counted
  refine exists_congr fun k => exists_congr fun u => and_congr_right fun _ => and_congr_right fun _ => ?_
  exact Pieces.congr fun x a hx => legacyPlace_iff hx a

omit [Charmap] in
theorem reads_conditions : Reads legacyConditions (Counted 5 (fun b c => unmarshalSpecificConditionRecord b = .ok c)) :=
  reads_counted 5 _

/-! ## Generation 1 -/

/-- C66. What the Gen1 parser accepts, and what it reports. -/
theorem legacy_gen1_iff (d : Bytes) (o n : Nat) (m : LegacyActivities) :
    unmarshalVuActivities d o 1 = .ok (n, m) ↔
      ∃ tail, LegacyGen1 (d.drop o) m tail ∧ n = (d.drop o).length - tail.length := by
  unfold unmarshalVuActivities
  rw [if_pos rfl]
  by_cases ho : o ≤ d.length
  · constructor
    · intro h
      obtain ⟨⟨t, o1⟩, h1, h⟩ := bind_eq_ok.mp h
      obtain ⟨x, hx, h⟩ := bind_eq_ok.mp h
      obtain ⟨odo, hodo, h⟩ := bind_eq_ok.mp h
      obtain ⟨⟨iw, o3⟩, h3, h⟩ := bind_eq_ok.mp h
      obtain ⟨⟨cs, o4⟩, h4, h⟩ := bind_eq_ok.mp h
      obtain ⟨⟨ps, o5⟩, h5, h⟩ := bind_eq_ok.mp h
      obtain ⟨⟨ss, o6⟩, h6, h⟩ := bind_eq_ok.mp h
      obtain ⟨⟨sg, o7⟩, h7, hF⟩ := bind_eq_ok.mp h
      obtain ⟨u1, p1, rfl⟩ := (reads_time.spec ho).mp h1
      obtain ⟨l1, e1⟩ := reads_time.left ho p1
      obtain ⟨u2, p2, he2⟩ := ((reads_piece 3 unmarshalOdometer).spec (a := odo) (o' := d.length - u1.length + 3) l1).mp (by
        rw [hx, Res.bind_ok, hodo]; rfl)
      obtain ⟨l2, e2⟩ := (reads_piece 3 unmarshalOdometer).left l1 p2
      rw [he2] at h3
      obtain ⟨u3, p3, rfl⟩ := (reads_iw1.spec l2).mp h3
      obtain ⟨l3, e3⟩ := reads_iw1.left l2 p3
      obtain ⟨u4, p4, rfl⟩ := (reads_changes.spec l3).mp h4
      obtain ⟨l4, e4⟩ := reads_changes.left l3 p4
      obtain ⟨u5, p5, rfl⟩ := (reads_places.spec l4).mp h5
      obtain ⟨l5, e5⟩ := reads_places.left l4 p5
      obtain ⟨u6, p6, rfl⟩ := (reads_conditions.spec l5).mp h6
      obtain ⟨l6, e6⟩ := reads_conditions.left l5 p6
      obtain ⟨u7, p7, rfl⟩ := ((reads_n 128).spec l6).mp h7
      rw [e6] at p7; rw [e5] at p6; rw [e4] at p5; rw [e3] at p4; rw [e2] at p3; rw [e1] at p2
      obtain ⟨y, hy, p1, rfl⟩ := p1
      obtain ⟨z, hz, rfl, p2⟩ := p2
      obtain ⟨rfl, k, rfl, hk⟩ := p3
      have hk : k = 0 := by
        refine hk.resolve_right fun hs => ?_
        obtain ⟨q4, rfl⟩ := reads_changes.suffix p4
        obtain ⟨q5, rfl⟩ := reads_places.suffix p5
        obtain ⟨q6, rfl⟩ := reads_conditions.suffix p6
        obtain ⟨p7, rfl⟩ := p7
        simp only [List.length_append] at hs
        omega
      subst hk
      simp only [Res.pure_eq, Res.ok.injEq, Prod.mk.injEq] at hF
      obtain ⟨rfl, rfl⟩ := hF
      refine ⟨u7, ⟨y ++ z, u3, u4, u5, by simp [hy, hz], by rw [p1]; simp, p4, p5, u6, p6, sg, p7.1, p7.2, ?_⟩, ?_⟩
      · rw [List.take_left' hy, List.drop_left' hy, (unmarshalOdometer_3 hz odo).mp p2]
      · rw [List.length_drop]; omega
    · rintro ⟨tail, ⟨t0, t1, t2, t3, hl, hi, p4, p5, u6, p6, sg, hsg, rfl, hm⟩, rfl⟩
      have p1 : ∃ x, x.length = 4 ∧ d.drop o = x ++ (t0.drop 4 ++ 0 :: t1) ∧
          (⟨(beNat (t0.take 4) : Int), 0⟩ : Timestamp) = ⟨(beNat x : Int), 0⟩ :=
        ⟨t0.take 4, by rw [List.length_take]; omega, by rw [hi, ← List.append_assoc, List.take_append_drop], rfl⟩
      have hz : (t0.drop 4).length = 3 := by rw [List.length_drop]; omega
      obtain ⟨l1, e1⟩ := reads_time.left ho p1
      have p2 : ∃ x, x.length = 3 ∧ d.drop (d.length - (t0.drop 4 ++ 0 :: t1).length) = x ++ 0 :: t1 ∧
          unmarshalOdometer x = .ok (beNat (t0.drop 4)) :=
        ⟨t0.drop 4, hz, e1, (unmarshalOdometer_3 hz _).mpr rfl⟩
      obtain ⟨l2, e2⟩ := (reads_piece 3 unmarshalOdometer).left l1 p2
      have h2 := ((reads_piece 3 unmarshalOdometer).spec l1).mpr ⟨0 :: t1, p2, rfl⟩
      obtain ⟨b, hb, h2⟩ := bind_eq_ok.mp h2
      obtain ⟨v, hv, h2⟩ := bind_eq_ok.mp h2
      simp only [Res.pure_eq, Res.ok.injEq, Prod.mk.injEq] at h2
      have p3 : (fun i (as : List LegacyIW) t => as = [] ∧ ∃ k : UInt8, i = k :: t ∧ (k = 0 ∨ t.length < 126))
          (d.drop (d.length - (0 :: t1).length)) [] t1 := ⟨rfl, 0, e2, .inl rfl⟩
      obtain ⟨l3, e3⟩ := reads_iw1.left l2 p3
      rw [← e3] at p4
      obtain ⟨l4, e4⟩ := reads_changes.left l3 p4
      rw [← e4] at p5
      obtain ⟨l5, e5⟩ := reads_places.left l4 p5
      rw [← e5] at p6
      obtain ⟨l6, e6⟩ := reads_conditions.left l5 p6
      have p7 : sg.length = 128 ∧ d.drop (d.length - (sg ++ tail).length) = sg ++ tail := ⟨hsg, e6⟩
      unfold legacyGen1
      rw [(reads_time.spec ho).mpr ⟨_, p1, rfl⟩, Res.bind_ok]
      dsimp only
      rw [hb, Res.bind_ok, hv, Res.bind_ok, h2.2, (reads_iw1.spec l2).mpr ⟨_, p3, rfl⟩, Res.bind_ok]
      dsimp only
      rw [(reads_changes.spec l3).mpr ⟨_, p4, rfl⟩, Res.bind_ok]
      dsimp only
      rw [(reads_places.spec l4).mpr ⟨_, p5, rfl⟩, Res.bind_ok]
      dsimp only
      rw [(reads_conditions.spec l5).mpr ⟨_, p6, rfl⟩, Res.bind_ok]
      dsimp only
      have := ((reads_n 128).spec (a := sg) (o' := d.length - tail.length) l6).mpr ⟨_, p7, rfl⟩
      rw [show ((128 : Nat) : Int) = 128 from rfl] at this
      rw [this, Res.bind_ok]
      dsimp only
      rw [Res.pure_eq, h2.1, ← hm, List.length_drop, Nat.sub_right_comm]
  · constructor
    · intro h
      obtain ⟨⟨t, o1⟩, h1, h⟩ := bind_eq_ok.mp h
      unfold readTime at h1
      rw [if_pos (by omega)] at h1
      cases h1
    · rintro ⟨tail, ⟨t0, t1, _, _, _, hi, _⟩, _⟩
      rw [List.drop_eq_nil_of_le (by omega)] at hi
      simp at hi

/-! ## The arrays of generation 2 -/

omit [Charmap] in
theorem reads_exact {α : Type} {type n : Nat} (h1 : type < 65536) (h2 : n < 65536) {f : Bytes → α → Prop}
    {r : Bytes → Nat → Res (α × Nat)} (hr : Reads r (fun i a t => ∃ x, x.length = n ∧ i = x ++ t ∧ f x a)) :
    Reads (fun d o => arrayHeader type (some n) d o >>= fun x => readMany (r d) x.1 x.2) (ExactArray type n f) := by
  refine ((reads_header type n h1 h2).bind (s := fun k d o => readMany (r d) k o) fun k => reads_many hr k).congr ?_
  intro i as t
  constructor
  · rintro ⟨k, u, ⟨hk, rfl⟩, rfl, h⟩; exact ⟨u, rfl, hk, h⟩
  · rintro ⟨u, rfl, hk, h⟩; exact ⟨_, u, ⟨hk, rfl⟩, rfl, h⟩

omit [Charmap] in
theorem reads_dates : Reads legacyDates (ExactArray 1 4 (fun b t => t = { seconds := (beNat b : Int), nanos := 0 })) :=
  reads_exact (by omega) (by omega) reads_time

omit [Charmap] in
theorem reads_odometers : Reads legacyOdometers (ExactArray 2 3 (fun b v => v = beNat b)) := by
  refine reads_exact (by omega) (by omega) ((reads_piece 3 unmarshalOdometer).congr ?_)
  intro i a t
  refine exists_congr fun x => and_congr_right fun hx => and_congr_right fun _ => ?_
  exact unmarshalOdometer_3 hx a

omit [Charmap] in
/-- A card number with generation is 19 bytes long. -/
theorem number_20 {b : Bytes} (h : b.length = 20) (m : FullCardNumberAndGeneration) : unmarshalFullCardNumberAndGeneration b ≠ .ok m := by
  intro hm
  unfold unmarshalFullCardNumberAndGeneration at hm
  rw [if_neg (by omega)] at hm
  obtain ⟨_, _, hm⟩ := bind_eq_ok.mp hm
  obtain ⟨_, _, hm⟩ := bind_eq_ok.mp hm
  obtain ⟨c, hc, hm⟩ := bind_eq_ok.mp hm
  obtain ⟨n, hn, _⟩ := bind_eq_ok.mp hm
  obtain ⟨h1, h2, rfl⟩ := sl?_iff.mp hc
  have hn : unmarshalFullCardNumber (sl b 0 (b.length - 1)) = .ok n := hn
  unfold unmarshalFullCardNumber at hn
  rw [if_pos (by rw [sl_length_of h2]; omega)] at hn
  cases hn

omit [Charmap] in
theorem legacyBorder_never {b : Bytes} (hb : b.length = 57) (a : LegacyBorder) : legacyBorder b ≠ .ok a := by
  intro h
  unfold legacyBorder at h
  rw [if_neg (by omega)] at h
  obtain ⟨c, hc, h⟩ := bind_eq_ok.mp h
  obtain ⟨n, hn, _⟩ := bind_eq_ok.mp h
  obtain ⟨h1, h2, rfl⟩ := sl?_iff.mp hc
  exact number_20 (by rw [sl_length_of h2]) n hn

omit [Charmap] in
theorem legacyLoad_never {b : Bytes} (hb : b.length = 60) (a : LegacyLoad) : legacyLoad b ≠ .ok a := by
  intro h
  unfold legacyLoad at h
  rw [if_neg (by omega)] at h
  obtain ⟨_, _, h⟩ := bind_eq_ok.mp h
  obtain ⟨_, _, h⟩ := bind_eq_ok.mp h
  obtain ⟨_, _, h⟩ := bind_eq_ok.mp h
  obtain ⟨c, hc, h⟩ := bind_eq_ok.mp h
  obtain ⟨n, hn, _⟩ := bind_eq_ok.mp h
  obtain ⟨h1, h2, rfl⟩ := sl?_iff.mp hc
  exact number_20 (by rw [sl_length_of h2]) n hn

/-- No card record of this generation can be read: the previous vehicle gets 20 bytes and takes 19. -/
theorem legacyIWGen2_never (d : Bytes) (o : Nat) (x : LegacyIW × Nat) : legacyIWGen2 d o ≠ .ok x := by
  intro h
  unfold legacyIWGen2 at h
  obtain ⟨⟨_, o1⟩, _, h⟩ := bind_eq_ok.mp h
  obtain ⟨_, _, h⟩ := bind_eq_ok.mp h
  obtain ⟨⟨_, o2⟩, _, h⟩ := bind_eq_ok.mp h
  obtain ⟨_, _, h⟩ := bind_eq_ok.mp h
  dsimp only at h
  split at h
  · simp at h
  obtain ⟨_, _, h⟩ := bind_eq_ok.mp h
  obtain ⟨_, _, h⟩ := bind_eq_ok.mp h
  obtain ⟨⟨_, o3⟩, _, h⟩ := bind_eq_ok.mp h
  obtain ⟨_, _, h⟩ := bind_eq_ok.mp h
  obtain ⟨_, _, h⟩ := bind_eq_ok.mp h
  obtain ⟨⟨_, o4⟩, _, h⟩ := bind_eq_ok.mp h
  obtain ⟨⟨_, o5⟩, _, h⟩ := bind_eq_ok.mp h
  obtain ⟨_, _, h⟩ := bind_eq_ok.mp h
  obtain ⟨_, _, h⟩ := bind_eq_ok.mp h
  obtain ⟨⟨p, o6⟩, hp, h⟩ := bind_eq_ok.mp h
  obtain ⟨v, hv, _⟩ := bind_eq_ok.mp h
  have hpl : p.length = 20 := by
    unfold readN at hp
    split at hp
    · cases hp
    split at hp
    · cases hp
    obtain ⟨b, hb, hp⟩ := bind_eq_ok.mp hp
    simp only [Res.pure_eq, Res.ok.injEq, Prod.mk.injEq] at hp
    obtain ⟨rfl, _⟩ := hp
    have hb' := hb
    rw [sl?_iff] at hb'
    obtain ⟨_, h2, rfl⟩ := hb'
    rw [sl_length_of h2]; omega
  have hv : unmarshalPreviousVehicleInfo p = .ok v := hv
  unfold unmarshalPreviousVehicleInfo at hv
  rw [if_pos (by omega)] at hv
  cases hv

theorem reads_iw2 : Reads legacyIWArray (fun i as t => as = [] ∧ ∃ size, size < 65536 ∧ i = wideHeader 0x0D size 0 ++ t) := by
  have hm : ∀ k, Reads (fun d o => readMany (legacyIWGen2 d) k o) (fun i (as : List LegacyIW) t => k = 0 ∧ as = [] ∧ i = t) := by
    intro k
    constructor
    · rintro i as t ⟨_, _, rfl⟩; exact ⟨[], rfl⟩
    · intro d o as o' ho
      cases k with
      | zero =>
        show (Res.ok ([], o) = _) ↔ _
        rw [Res.ok.injEq, Prod.mk.injEq]
        constructor
        · rintro ⟨rfl, rfl⟩
          exact ⟨d.drop o, ⟨rfl, rfl, rfl⟩, by rw [List.length_drop]; omega⟩
        · rintro ⟨t, ⟨_, rfl, rfl⟩, rfl⟩
          exact ⟨rfl, by rw [List.length_drop]; omega⟩
      | succ k =>
        constructor
        · intro h
          obtain ⟨x, hx, _⟩ := bind_eq_ok.mp h
          exact absurd hx (legacyIWGen2_never d o x)
        · rintro ⟨t, ⟨h, _⟩, _⟩; cases h
  have h : Reads legacyIWArray _ := (reads_header_any 0x0D (by omega)).bind (s := fun k d o => readMany (legacyIWGen2 d) k o) hm
  refine h.congr ?_
  intro i as t
  constructor
  · rintro ⟨k, u, ⟨_, size, hs, rfl⟩, rfl, rfl, rfl⟩; exact ⟨rfl, size, hs, rfl⟩
  · rintro ⟨rfl, size, hs, rfl⟩; exact ⟨0, t, ⟨by omega, size, hs, rfl⟩, rfl, rfl, rfl⟩

omit [Charmap] in
theorem reads_array {α : Type} {type size n : Nat} (h1 : type < 65536) (h2 : size < 65536) (h0 : 0 < n) (hn : n ≤ 65536)
    (f : Bytes → Res α) : Reads (legacyArray type size n f) (LooseArray type size n (fun b a => f b = .ok a)) := by
  have h : Reads (legacyArray type size n f) _ := (reads_header type size h1 h2).bind
    (s := fun k d o => readScanned n f k d o) fun k => reads_scanned h0 hn f k
  refine h.congr ?_
  intro i as t
  constructor
  · rintro ⟨k, u, ⟨hk, rfl⟩, hl, h⟩; exact ⟨k, u, hk, rfl, hl, h⟩
  · rintro ⟨k, u, hk, rfl, hl, h⟩; exact ⟨k, u, ⟨hk, rfl⟩, hl, h⟩

omit [Charmap] in
theorem LooseArray.congr {α : Type} {type size n : Nat} {f g : Bytes → α → Prop} (h : ∀ x a, x.length = n → (f x a ↔ g x a))
    {i : Bytes} {as : List α} {t : Bytes} : LooseArray type size n f i as t ↔ LooseArray type size n g i as t := by
  unfold LooseArray
  refine exists_congr fun c => exists_congr fun u => and_congr_right fun _ => and_congr_right fun _ => and_congr_right fun _ => ?_
  exact Pieces.congr h

omit [Charmap] in
theorem legacyGnss_iff {b : Bytes} (h : b.length = 14) (p : LegacyGnss) : legacyGnss b = .ok p ↔ LegacyGnssIs b p := by
  match b, h with
  | [b0, b1, b2, b3, b4, b5, b6, b7, b8, b9, b10, b11, b12, b13], _ =>
    unfold LegacyGnssIs
    have e : legacyGnss [b0, b1, b2, b3, b4, b5, b6, b7, b8, b9, b10, b11, b12, b13] = .ok
      ⟨some ⟨(beNat [b0, b1, b2, b3] : Int), 0⟩, (b4.toNat : Int),
        some ⟨wrap32 (beNat [b5, b6, b7, b8] : Int), wrap32 (beNat [b9, b10, b11, b12] : Int)⟩, (b13.toNat : Int)⟩ := rfl
    rw [e]
    simp only [Res.ok.injEq, sl, List.take_succ_cons, List.take_zero, List.drop_succ_cons, List.drop_zero,
      List.getElem?_cons_succ, List.getElem?_cons_zero, Option.map_some, Option.some.injEq]
    constructor
    · rintro rfl; exact ⟨rfl, rfl, rfl, rfl⟩
    · rintro ⟨h1, h2, h3, h4⟩
      cases p
      simp_all

omit [Charmap] in
theorem reads_placeArray : Reads legacyPlaceArray (LooseArray 4 10 10 LegacyPlaceIs) := by
  have h : Reads legacyPlaceArray _ := reads_array (by omega) (by omega) (by omega) (by omega) legacyPlace
  exact h.congr fun i a t => LooseArray.congr fun x a hx => legacyPlace_iff hx a

omit [Charmap] in
theorem reads_gnssArray : Reads legacyGnssArray (LooseArray 0x16 14 14 LegacyGnssIs) := by
  have h : Reads legacyGnssArray _ := reads_array (by omega) (by omega) (by omega) (by omega) legacyGnss
  exact h.congr fun i a t => LooseArray.congr fun x a hx => legacyGnss_iff hx a

/-! ## The arrays of version 2 -/

omit [Charmap] in
theorem placeAuth_np (d : Bytes) : unmarshalGNSSPlaceAuthRecord d ≠ .panic := by
  unfold unmarshalGNSSPlaceAuthRecord; no_panic

omit [Charmap] in
@[simp] theorem legacyPlaceAuth_np (d : Bytes) : legacyPlaceAuth d ≠ .panic :=
  np_call (placeAuth_np d) fun _ => np_pure

omit [Charmap] in
theorem legacyBorder_np (d : Bytes) : legacyBorder d ≠ .panic := by
  unfold legacyBorder; no_panic

omit [Charmap] in
theorem legacyLoad_np (d : Bytes) : legacyLoad d ≠ .panic := by
  unfold legacyLoad; no_panic

omit [Charmap] in
theorem arrayHeader_np (type : Nat) (size : Option Nat) (d : Bytes) (o : Nat) : arrayHeader type size d o ≠ .panic := by
  unfold arrayHeader
  refine np_guard fun h => np_from (by omega) fun x _ => ?_
  cases size with
  | none => dsimp only; no_panic
  | some s => dsimp only; no_panic

omit [Charmap] in
theorem legacyArray_np {α : Type} {type size : Nat} (n : Nat) (h1 : type < 65536) (h2 : size < 65536) {f : Bytes → Res α} (hf : ∀ b, f b ≠ .panic) (d : Bytes) (o : Nat) :
    legacyArray type size n f d o ≠ .panic := by
  intro hp
  unfold legacyArray at hp
  cases hh : arrayHeader type (some size) d o with
  | panic => exact arrayHeader_np _ _ _ _ hh
  | err m => rw [hh] at hp; simp at hp
  | ok x =>
    rw [hh, Res.bind_ok] at hp
    have ho : o ≤ d.length := by
      by_cases ho : o + 6 > d.length
      · unfold arrayHeader at hh
        rw [if_pos ho] at hh
        simp at hh
      · omega
    have hx : x.2 ≤ d.length := by
      obtain ⟨t, _, e⟩ := ((reads_header type size h1 h2).spec (a := x.1) (o' := x.2) ho).mp hh
      omega
    revert hp
    unfold readScanned
    refine np_from hx fun r _ => ?_
    refine np_call (mapRes_ne_panic fun b _ => hf b) fun _ => ?_
    no_panic

omit [Charmap] in
/-- When no record can be read, only an array without records can. -/
theorem loose_never {α : Type} {type size n : Nat} (h0 : 0 < n) {f : Bytes → α → Prop} (hf : ∀ b a, b.length = n → ¬ f b a)
    (i : Bytes) (l : List α) (t : Bytes) : LooseArray type size n f i l t ↔ l = [] ∧ EmptyArray type size n i t := by
  constructor
  · rintro ⟨c, r, hc, hi, hl, xs, hr, hx, hfs⟩
    match xs, l, hfs with
    | [], [], _ =>
      rw [List.flatten_nil, List.nil_append] at hr
      subst hr
      refine ⟨rfl, c, hc, hi, ?_⟩
      rw [List.length_nil] at hl
      rcases Nat.eq_zero_or_pos c with h | h
      · exact .inl h
      · exact .inr ((Nat.div_eq_zero_iff_lt h0).mp (by omega))
    | x :: xs, a :: l, .cons h _ => exact absurd h (hf x a (hx x (by simp)))
  · rintro ⟨rfl, c, hc, hi, h⟩
    refine ⟨c, t, hc, hi, ?_, [], by simp, by simp, .nil⟩
    rw [List.length_nil]
    rcases h with rfl | h
    · simp
    · rw [(Nat.div_eq_zero_iff_lt h0).mpr h]; simp

omit [Charmap] in
theorem reads_optional {α : Type} {type size n : Nat} (h1 : type < 65536) (h2 : size < 65536) (h0 : 0 < n) (hn : n ≤ 65536)
    {f : Bytes → Res α} (hf : ∀ b, f b ≠ .panic) (hv : ∀ b a, b.length = n → f b ≠ .ok a) :
    Reads (fun d o => optionalArray (legacyArray type size n f d o) o) (MaybeArray (α := α) type size n) := by
  have hr := (reads_array h1 h2 h0 hn f).congr fun i a t => loose_never (type := type) (size := size) h0 hv i a t
  constructor
  · rintro i a t (⟨rfl, h⟩ | ⟨rfl, rfl, _⟩)
    · exact hr.suffix (a := []) ⟨rfl, h⟩
    · exact ⟨[], rfl⟩
  · intro d o a o' ho
    unfold optionalArray MaybeArray
    cases hh : legacyArray type size n f d o with
    | panic => exact absurd hh (legacyArray_np _ h1 h2 hf _ _)
    | ok x =>
      obtain ⟨l, o1⟩ := x
      obtain ⟨u, hu, rfl⟩ := (hr.spec ho).mp hh
      dsimp only
      rw [Res.ok.injEq, Prod.mk.injEq]
      constructor
      · rintro ⟨rfl, rfl⟩; exact ⟨u, .inl ⟨by rw [hu.1], hu.2⟩, rfl⟩
      · rintro ⟨t, ⟨rfl, h'⟩ | ⟨rfl, rfl, h'⟩, rfl⟩
        · have := (hr.spec (a := []) ho).mpr ⟨t, ⟨rfl, h'⟩, rfl⟩
          rw [hh, Res.ok.injEq, Prod.mk.injEq] at this
          exact ⟨by rw [this.1], this.2⟩
        · exact absurd ⟨u, hu.2⟩ h'
    | err m =>
      have hno : ¬ ∃ t, EmptyArray type size n (d.drop o) t := by
        rintro ⟨t, h⟩
        have := (hr.spec (a := []) ho).mpr ⟨t, ⟨rfl, h⟩, rfl⟩
        rw [hh] at this
        cases this
      dsimp only
      rw [Res.ok.injEq, Prod.mk.injEq]
      constructor
      · rintro ⟨rfl, rfl⟩
        exact ⟨d.drop o, .inr ⟨rfl, rfl, hno⟩, by rw [List.length_drop]; omega⟩
      · rintro ⟨t, ⟨rfl, h'⟩ | ⟨rfl, rfl, _⟩, rfl⟩
        · exact absurd ⟨t, h'⟩ hno
        · exact ⟨rfl, by rw [List.length_drop]; omega⟩

omit [Charmap] in
theorem reads_legacyOptional : Reads legacyOptional (fun i x t => OptionalArrays i x.1 x.2 t) := by
  have hb : Reads (fun d o => optionalArray (legacyBorderArray d o) o) _ :=
    reads_optional (type := 0x17) (size := 59) (n := 57) (by omega) (by omega) (by omega) (by omega) legacyBorder_np (fun _ a h => legacyBorder_never h a)
  have hl : Reads (fun d o => optionalArray (legacyLoadArray d o) o) _ :=
    reads_optional (type := 0x18) (size := 58) (n := 60) (by omega) (by omega) (by omega) (by omega) legacyLoad_np (fun _ a h => legacyLoad_never h a)
  constructor
  · rintro i ⟨b, l⟩ t h
    unfold OptionalArrays at h
    split at h
    · exact ⟨[], by rw [h.2.2]; rfl⟩
    · obtain ⟨mid, h1, h2⟩ := h
      obtain ⟨p, rfl⟩ := hb.suffix h1
      split at h2
      · exact ⟨p, by rw [h2.2]⟩
      · obtain ⟨q, rfl⟩ := hl.suffix h2
        exact ⟨p ++ q, by simp⟩
  · rintro d o ⟨b, l⟩ o' ho
    unfold legacyOptional OptionalArrays
    have hlen : (d.drop o).length = d.length - o := List.length_drop
    rw [hlen]
    by_cases h10 : o + 10 ≤ d.length
    · rw [if_pos h10]
      simp only [show ¬ d.length - o < 10 from by omega, if_false]
      constructor
      · intro h
        obtain ⟨⟨b', o1⟩, h1, h⟩ := bind_eq_ok.mp h
        obtain ⟨mid, hm, rfl⟩ := (hb.spec ho).mp h1
        obtain ⟨l1, e1⟩ := hb.left ho hm
        dsimp only at h
        have hml : mid.length ≤ d.length := by
          obtain ⟨p, hp⟩ := hb.suffix hm
          have := congrArg List.length hp
          rw [hlen, List.length_append] at this; omega
        split at h
        · rename_i h5
          obtain ⟨⟨l', o2⟩, h2, h⟩ := bind_eq_ok.mp h
          obtain ⟨t, ht, rfl⟩ := (hl.spec l1).mp h2
          simp only [Res.pure_eq, Res.ok.injEq, Prod.mk.injEq] at h
          obtain ⟨⟨rfl, rfl⟩, rfl⟩ := h
          refine ⟨t, ⟨mid, hm, ?_⟩, rfl⟩
          rw [if_neg (by omega), ← e1]
          exact ht
        · simp only [Res.pure_eq, Res.ok.injEq, Prod.mk.injEq] at h
          obtain ⟨⟨rfl, rfl⟩, rfl⟩ := h
          exact ⟨mid, ⟨mid, hm, by rw [if_pos (by omega)]; exact ⟨rfl, rfl⟩⟩, rfl⟩
      · rintro ⟨t, ⟨mid, hm, h2⟩, rfl⟩
        obtain ⟨l1, e1⟩ := hb.left ho hm
        have hml : mid.length ≤ d.length := by
          obtain ⟨p, hp⟩ := hb.suffix hm
          have := congrArg List.length hp
          rw [hlen, List.length_append] at this; omega
        rw [(hb.spec ho).mpr ⟨mid, hm, rfl⟩, Res.bind_ok]
        dsimp only
        by_cases h5 : mid.length < 5
        · rw [if_pos h5] at h2
          obtain ⟨rfl, rfl⟩ := h2
          rw [if_neg (by omega)]
          rfl
        · rw [if_neg h5, ← e1] at h2
          rw [if_pos (by omega), (hl.spec l1).mpr ⟨t, h2, rfl⟩]
          rfl
    · rw [if_neg h10]
      simp only [show d.length - o < 10 from by omega, if_true]
      simp only [Res.pure_eq, Res.ok.injEq, Prod.mk.injEq]
      constructor
      · rintro ⟨⟨rfl, rfl⟩, rfl⟩; exact ⟨_, ⟨rfl, rfl, rfl⟩, by rw [hlen]; omega⟩
      · rintro ⟨t, ⟨rfl, rfl, rfl⟩, rfl⟩; exact ⟨⟨rfl, rfl⟩, by rw [hlen]; omega⟩

/-! ## The signature -/

omit [Charmap] in
theorem splitSignature_token {d : Bytes} {e : Bool} {n : Nat} : splitSignature d e = .token n ↔
    6 ≤ d.length ∧ beNat (sl d 2 4) ≠ 0 ∧ n = 6 + beNat (sl d 2 4) ∧ n ≤ d.length := by
  unfold splitSignature
  split
  · simp; omega
  · split
    · simp; omega
    · split
      · simp; omega
      · simp only [Split.token.injEq]
        constructor
        · rintro rfl; exact ⟨by omega, by assumption, rfl, by omega⟩
        · rintro ⟨_, _, rfl, _⟩; rfl

omit [Charmap] in
theorem splitSignature_stable : Stable splitSignature := by
  constructor
  · intro d n h t e
    obtain ⟨h1, h2, h3, h4⟩ := splitSignature_token.mp h
    rw [splitSignature_token, sl_append_left (by omega), List.length_append]
    exact ⟨by omega, h2, h3, by omega⟩
  · intro d m h t e
    unfold splitSignature at h ⊢
    split at h
    · cases h
    · split at h
      · rw [List.length_append, sl_append_left (by omega), if_neg (by omega), if_pos (by assumption)]
        exact h
      · split at h <;> cases h
  · intro d e n h
    obtain ⟨h1, h2, h3, h4⟩ := splitSignature_token.mp h
    omega

omit [Charmap] in
theorem look_signature {i : Bytes} {n : Nat} : look splitSignature i = .token n ↔
    6 ≤ i.length ∧ beNat (sl i 2 4) ≠ 0 ∧ n = 6 + beNat (sl i 2 4) ∧ n ≤ i.length ∧ n ≤ 65536 := by
  unfold look
  by_cases h : i.length < 65536
  · rw [if_pos h, splitSignature_token]
    constructor
    · rintro ⟨h1, h2, h3, h4⟩; exact ⟨h1, h2, h3, h4, by omega⟩
    · rintro ⟨h1, h2, h3, h4, _⟩; exact ⟨h1, h2, h3, h4⟩
  · rw [if_neg h]
    have hs : sl (i.take 65536) 2 4 = sl i 2 4 := by
      unfold sl; rw [List.take_take]; rfl
    have hl : (i.take 65536).length = 65536 := by rw [List.length_take]; omega
    have key := splitSignature_token (d := i.take 65536) (e := false) (n := n)
    rw [hs, hl] at key
    have hlt : beNat (sl i 2 4) < 65536 := by
      have := beNat_lt (sl i 2 4)
      rwa [sl_length_of (by omega)] at this
    constructor
    · intro hh
      have : splitSignature (i.take 65536) false = .token n := by
        revert hh
        cases splitSignature (i.take 65536) false <;> simp
      obtain ⟨h1, h2, h3, h4⟩ := key.mp this
      exact ⟨by omega, h2, h3, by omega, h4⟩
    · rintro ⟨h1, h2, h3, h4, h5⟩
      rw [key.mpr ⟨by omega, h2, h3, h5⟩]

omit [Charmap] in
theorem reads_signature : Reads legacySignature LegacySignature := by
  constructor
  · rintro i a t ⟨c1, c2, _, _, rfl⟩; exact ⟨_, rfl⟩
  · intro d o a o' ho
    unfold legacySignature from?
    rw [if_pos ho, Res.bind_ok]
    generalize hi : d.drop o = i
    have hc := congrArg Prod.fst (scanAll_chunks splitSignature_stable i)
    dsimp only at hc
    constructor
    · intro h
      cases ht : (scanAll splitSignature i).toks with
      | nil => rw [ht] at h; cases h
      | cons tk ts =>
        rw [ht, List.map_cons] at hc
        rw [ht] at h
        dsimp only at h
        rw [chunks] at hc
        cases hl : look splitSignature i with
        | more => rw [hl] at hc; cases hc
        | fail m => rw [hl] at hc; cases hc
        | token n =>
          rw [hl] at hc
          obtain ⟨h1, h2, h3, h4, h5⟩ := look_signature.mp hl
          dsimp only at hc
          rw [if_pos (by omega)] at hc
          have hb : tk.bytes = i.take n := (List.cons.inj hc).1
          obtain ⟨ty, hty, h⟩ := bind_eq_ok.mp h
          split at h
          · simp at h
          rename_i h8
          have h8 : beNat ty = 8 := by omega
          obtain ⟨s, hs, h⟩ := bind_eq_ok.mp h
          simp only [Res.pure_eq, Res.ok.injEq, Prod.mk.injEq] at h
          obtain ⟨rfl, rfl⟩ := h
          rw [hb] at hs hty ⊢
          have hnl : (i.take n).length = n := by rw [List.length_take]; omega
          rw [if_pos (by omega)] at hs
          have hs := Res.ok.inj hs
          have hsl : s.length = n - 6 := by rw [← hs, List.length_drop, hnl]
          have hi6 := split_header h1
          have hty : ty = i.take 2 := by
            have := (sl?_iff.mp hty).2.2
            rw [this]; unfold sl; rw [List.drop_zero, List.take_take, Nat.min_eq_left (by omega)]
          have hc12 : ∃ c1 c2, sl i 4 6 = [c1, c2] := by
            have : (sl i 4 6).length = 2 := sl_length_of (by omega)
            match sl i 4 6, this with
            | [c1, c2], _ => exact ⟨c1, c2, rfl⟩
          obtain ⟨c1, c2, hcc⟩ := hc12
          have hrest : i.drop 6 = s ++ i.drop n := by
            rw [← hs, List.drop_take, show i.drop n = (i.drop 6).drop (n - 6) from by rw [List.drop_drop]; congr 1; omega,
              List.take_append_drop]
          refine ⟨i.drop n, ⟨c1, c2, by omega, by omega, ?_⟩, ?_⟩
          · conv => lhs; rw [hi6]
            unfold wideHeader
            rw [← hty, h8, hrest, show s.length = beNat (sl i 2 4) from by omega,
              show beBytes 2 (beNat (sl i 4 6)) = [c1, c2] from by rw [beBytes_beNat' (by rw [hcc]; rfl), hcc]]
            simp
          · have := congrArg List.length hi
            rw [List.length_drop] at this
            rw [List.length_drop, hnl]; omega
    · rintro ⟨t, ⟨c1, c2, h0, h1, he⟩, rfl⟩
      have hw : i = wideHeader 8 a.length (beNat [c1, c2]) ++ (a ++ t) := by
        rw [he]; unfold wideHeader; rw [beBytes_beNat' (show [c1, c2].length = 2 from rfl)]; simp
      have hcl : beNat [c1, c2] < 65536 := by
        have := beNat_lt [c1, c2]
        rwa [show [c1, c2].length = 2 from rfl] at this
      obtain ⟨e1, e2, e3, e4⟩ := header_parts (type := 8) (by omega) (show a.length < 65536 by omega) hcl (a ++ t)
      rw [← hw] at e1 e2 e3 e4
      have hil : i.length = 6 + a.length + t.length := by rw [hw]; simp [wideHeader_length]; omega
      have hl : look splitSignature i = .token (6 + a.length) := by
        rw [look_signature, e2]; exact ⟨by omega, by omega, rfl, by omega, by omega⟩
      rw [chunks, hl] at hc
      dsimp only at hc
      rw [if_pos (by omega)] at hc
      cases ht : (scanAll splitSignature i).toks with
      | nil => rw [ht] at hc; cases hc
      | cons tk ts =>
        rw [ht, List.map_cons] at hc
        have hb : tk.bytes = i.take (6 + a.length) := (List.cons.inj hc).1
        have hnl : (i.take (6 + a.length)).length = 6 + a.length := by rw [List.length_take]; omega
        dsimp only
        rw [hb, sl?_ok (by omega) (by omega), Res.bind_ok]
        have : sl (i.take (6 + a.length)) 0 2 = i.take 2 := by
          unfold sl; rw [List.drop_zero, List.take_take, Nat.min_eq_left (by omega)]
        rw [this, e1, if_neg (by omega)]
        have hf : Tacho.from? (i.take (6 + a.length)) 6 = .ok a := by
          unfold Tacho.from?
          rw [if_pos (by omega), List.drop_take, e4, show 6 + a.length - 6 = a.length from by omega, List.take_left]
        unfold Tacho.from? at hf
        rw [hf]
        simp only [Res.bind_ok, Res.pure_eq, Res.ok.injEq, Prod.mk.injEq, true_and]
        have := congrArg List.length hi
        rw [List.length_drop] at this
        omega

/-! ## A whole Gen2 day -/

/-- C66. What the Gen2 parser accepts, and what it reports. -/
theorem legacy_gen2_iff (d : Bytes) (o n : Nat) (m : LegacyActivities) :
    unmarshalVuActivities d o 2 = .ok (n, m) ↔
      ∃ tail, LegacyGen2 (d.drop o) m tail ∧ n = (d.drop o).length - tail.length := by
  have h2 : unmarshalVuActivities d o 2 = legacyGen2 d o := rfl
  have rc : Reads legacyChangeArray _ := reads_array (by omega) (by omega) (by omega) (by omega) unmarshalActivityChangeInfo
  have rs : Reads legacyConditionArray _ := reads_array (by omega) (by omega) (by omega) (by omega) unmarshalSpecificConditionRecord
  rw [h2]
  unfold legacyGen2
  by_cases ho : o ≤ d.length
  · constructor
    · intro h
      obtain ⟨⟨a, o1⟩, h1, h⟩ := bind_eq_ok.mp h
      obtain ⟨⟨b, o2⟩, h2, h⟩ := bind_eq_ok.mp h
      obtain ⟨⟨c, o3⟩, h3, h⟩ := bind_eq_ok.mp h
      obtain ⟨⟨e, o4⟩, h4, h⟩ := bind_eq_ok.mp h
      obtain ⟨⟨f, o5⟩, h5, h⟩ := bind_eq_ok.mp h
      obtain ⟨⟨g, o6⟩, h6, h⟩ := bind_eq_ok.mp h
      obtain ⟨⟨hc, o7⟩, h7, h⟩ := bind_eq_ok.mp h
      obtain ⟨⟨⟨i1, i2⟩, o8⟩, h8, h⟩ := bind_eq_ok.mp h
      obtain ⟨⟨j, o9⟩, h9, hF⟩ := bind_eq_ok.mp h
      clear h
      obtain ⟨u1, p1, rfl⟩ := (reads_dates.spec ho).mp h1
      obtain ⟨l1, e1⟩ := reads_dates.left ho p1
      obtain ⟨u2, p2, rfl⟩ := (reads_odometers.spec l1).mp h2
      obtain ⟨l2, e2⟩ := reads_odometers.left l1 p2
      obtain ⟨u3, p3, rfl⟩ := (reads_iw2.spec l2).mp h3
      obtain ⟨l3, e3⟩ := reads_iw2.left l2 p3
      obtain ⟨u4, p4, rfl⟩ := (rc.spec l3).mp h4
      obtain ⟨l4, e4⟩ := rc.left l3 p4
      obtain ⟨u5, p5, rfl⟩ := (reads_placeArray.spec l4).mp h5
      obtain ⟨l5, e5⟩ := reads_placeArray.left l4 p5
      obtain ⟨u6, p6, rfl⟩ := (reads_gnssArray.spec l5).mp h6
      obtain ⟨l6, e6⟩ := reads_gnssArray.left l5 p6
      obtain ⟨u7, p7, rfl⟩ := (rs.spec l6).mp h7
      obtain ⟨l7, e7⟩ := rs.left l6 p7
      obtain ⟨u8, p8, rfl⟩ := (reads_legacyOptional.spec l7).mp h8
      obtain ⟨l8, e8⟩ := reads_legacyOptional.left l7 p8
      obtain ⟨u9, p9, rfl⟩ := (reads_signature.spec l8).mp h9
      rw [e8] at p9; rw [e7] at p8; rw [e6] at p7; rw [e5] at p6; rw [e4] at p5; rw [e3] at p4; rw [e2] at p3; rw [e1] at p2
      obtain ⟨rfl, p3⟩ := p3
      simp only [Res.ok.injEq, Prod.mk.injEq] at hF
      obtain ⟨rfl, rfl⟩ := hF
      refine ⟨u9, ⟨a, b, i1, i2, j, u1, u2, u3, u4, u5, u6, u7, u8, p1, p2, p3, p4, p5, p6, p7, p8, p9, rfl⟩, ?_⟩
      rw [List.length_drop]; omega
    · rintro ⟨u9, ⟨a, b, i1, i2, j, u1, u2, u3, u4, u5, u6, u7, u8, p1, p2, p3, p4, p5, p6, p7, p8, p9, hm⟩, rfl⟩
      obtain ⟨l1, e1⟩ := reads_dates.left ho p1
      rw [← e1] at p2
      obtain ⟨l2, e2⟩ := reads_odometers.left l1 p2
      rw [← e2] at p3
      obtain ⟨l3, e3⟩ := reads_iw2.left l2 (a := []) ⟨rfl, p3⟩
      rw [← e3] at p4
      obtain ⟨l4, e4⟩ := rc.left l3 p4
      rw [← e4] at p5
      obtain ⟨l5, e5⟩ := reads_placeArray.left l4 p5
      rw [← e5] at p6
      obtain ⟨l6, e6⟩ := reads_gnssArray.left l5 p6
      rw [← e6] at p7
      obtain ⟨l7, e7⟩ := rs.left l6 p7
      rw [← e7] at p8
      obtain ⟨l8, e8⟩ := reads_legacyOptional.left l7 (a := (i1, i2)) p8
      rw [← e8] at p9
      rw [(reads_dates.spec ho).mpr ⟨_, p1, rfl⟩, Res.bind_ok]; dsimp only
      rw [(reads_odometers.spec l1).mpr ⟨_, p2, rfl⟩, Res.bind_ok]; dsimp only
      rw [(reads_iw2.spec (a := []) l2).mpr ⟨_, ⟨rfl, p3⟩, rfl⟩, Res.bind_ok]; dsimp only
      rw [(rc.spec l3).mpr ⟨_, p4, rfl⟩, Res.bind_ok]; dsimp only
      rw [(reads_placeArray.spec l4).mpr ⟨_, p5, rfl⟩, Res.bind_ok]; dsimp only
      rw [(reads_gnssArray.spec l5).mpr ⟨_, p6, rfl⟩, Res.bind_ok]; dsimp only
      rw [(rs.spec l6).mpr ⟨_, p7, rfl⟩, Res.bind_ok]; dsimp only
      rw [(reads_legacyOptional.spec (a := (i1, i2)) l7).mpr ⟨_, p8, rfl⟩, Res.bind_ok]; dsimp only
      rw [(reads_signature.spec l8).mpr ⟨_, p9, rfl⟩, Res.bind_ok]; dsimp only
      rw [Res.pure_eq, ← hm, List.length_drop, Nat.sub_right_comm]
  · constructor
    · intro h
      obtain ⟨⟨t, o1⟩, h1, h⟩ := bind_eq_ok.mp h
      unfold legacyDates arrayHeader at h1
      rw [if_pos (by omega)] at h1
      simp at h1
    · rintro ⟨tail, ⟨_, _, _, _, _, _, _, _, _, _, _, _, _, ⟨_, h, _⟩, _⟩, _⟩
      rw [List.drop_eq_nil_of_le (by omega)] at h
      have := congrArg List.length h
      simp [wideHeader_length] at this
      omega

/-! ## When the program is stopped -/

omit [Charmap] in
theorem readMany_total {α : Type} {n : Nat} (hn : 0 < n) {f : Bytes → Res α} (hf : ∀ b, b.length = n → ∃ a, f b = .ok a) (d : Bytes)
    (k o : Nat) (ho : o ≤ d.length) :
    if d.length < o + k * n then
      readMany (fun o => do let b ← sl? d o (o + n); let c ← f b; return (c, o + n)) k o = .panic
    else ∃ as, readMany (fun o => do let b ← sl? d o (o + n); let c ← f b; return (c, o + n)) k o = .ok (as, o + k * n) := by
  induction k generalizing o with
  | zero =>
    rw [if_neg (by omega)]
    exact ⟨[], by simp [readMany]⟩
  | succ k ih =>
    rw [Nat.succ_mul]
    unfold readMany
    by_cases h : o + n ≤ d.length
    · obtain ⟨a, ha⟩ := hf (sl d o (o + n)) (by rw [sl_length_of h]; omega)
      rw [sl?_ok (by omega) h, Res.bind_ok, ha, Res.bind_ok]
      have := ih (o + n) h
      by_cases h2 : d.length < o + n + k * n
      · rw [if_pos h2] at this
        rw [if_pos (by omega)]
        simp only [Res.pure_eq, Res.bind_ok] at this ⊢
        rw [this]
        rfl
      · rw [if_neg h2] at this
        obtain ⟨as, has⟩ := this
        rw [if_neg (by omega)]
        refine ⟨a :: as, ?_⟩
        simp only [Res.pure_eq, Res.bind_ok] at has ⊢
        rw [has]
        simp only [Res.bind_ok, Res.ok.injEq, Prod.mk.injEq, true_and]
        omega
    · rw [if_pos (by have := Nat.zero_le (k * n); omega)]
      have : sl? d o (o + n) = .panic := by
        unfold sl?
        rw [if_neg (by omega)]
      rw [this]
      rfl

omit [Charmap] in
/-- A counted list: an error when the count is missing, a stop when the list is cut off. -/
theorem counted_cases {α : Type} {n : Nat} (hn : 0 < n) {f : Bytes → Res α} (hf : ∀ b, b.length = n → ∃ a, f b = .ok a) {d : Bytes}
    {o : Nat} (ho : o ≤ d.length) {r : Bytes → Nat → Res (List α × Nat)}
    (hr : ∀ d o, r d o = readU8 d o >>= fun x => readMany (fun o => do let b ← sl? d o (o + n); let c ← f b; return (c, o + n)) x.1.toNat x.2) :
    match d.drop o with
    | [] => ∃ m, r d o = .err m
    | k :: rest => if rest.length < k.toNat * n then r d o = .panic
      else ∃ as, r d o = .ok (as, o + 1 + k.toNat * n) ∧ o + 1 + k.toNat * n ≤ d.length ∧
        d.drop (o + 1 + k.toNat * n) = rest.drop (k.toNat * n) := by
  rw [hr]
  cases hd : d.drop o with
  | nil =>
    dsimp only
    have : d.length ≤ o := by
      have := congrArg List.length hd
      rw [List.length_drop, List.length_nil] at this
      omega
    refine ⟨"unexpected EOF", ?_⟩
    unfold readU8
    rw [if_pos this]
    rfl
  | cons k rest =>
    dsimp only
    have hl := congrArg List.length hd
    rw [List.length_drop, List.length_cons] at hl
    have h8 : readU8 d o = .ok (k, o + 1) := by
      rw [reads_u8.spec ho]
      exact ⟨rest, hd, by omega⟩
    rw [h8, Res.bind_ok]
    dsimp only
    have := readMany_total hn hf d k.toNat (o + 1) (by omega)
    split
    · rw [if_pos (by omega)] at this
      exact this
    · rw [if_neg (by omega)] at this
      obtain ⟨as, has⟩ := this
      refine ⟨as, has, by omega, ?_⟩
      rw [Nat.add_assoc, ← List.drop_drop, hd, Nat.add_comm, List.drop_succ_cons]

omit [Charmap] in
theorem specificCondition_total5 (b : Bytes) (h : b.length = 5) : ∃ a, unmarshalSpecificConditionRecord b = .ok a :=
  (specificCondition_accepts_iff b).mpr h

omit [Charmap] in
theorem activityChange_total2 (b : Bytes) (h : b.length = 2) : ∃ a, unmarshalActivityChangeInfo b = .ok a :=
  (aci_accepts_iff b).mpr h

omit [Charmap] in
theorem legacyPlace_total10 (b : Bytes) (h : b.length = 10) : ∃ a, legacyPlace b = .ok a := by
  match b, h with
  | [b0, b1, b2, b3, b4, b5, b6, b7, b8, b9], _ => exact ⟨_, rfl⟩

omit [Charmap] in
@[simp] theorem readTime_np (d : Bytes) (o : Nat) : readTime d o ≠ .panic := by
  unfold readTime; no_panic

theorem legacyIWRecord_np (d : Bytes) : legacyIWRecord d ≠ .panic := by
  unfold legacyIWRecord; no_panic

/-- C66. The Gen1 parser stops the program exactly when the day is cut off within the odometer, or
within a list whose count was read. -/
theorem legacy_gen1_panics_iff (d : Bytes) (o : Nat) :
    unmarshalVuActivities d o 1 = .panic ↔
      (4 ≤ (d.drop o).length ∧ (d.drop o).length < 7) ∨
      (∃ k tail, (d.drop o).drop 7 = k :: tail ∧ (k = 0 ∨ tail.length < 126) ∧ RunsShort [2, 10, 5] tail) := by
  have e1 : unmarshalVuActivities d o 1 = legacyGen1 d o := rfl
  rw [e1]
  unfold legacyGen1
  generalize hi : d.drop o = i
  have hil : i.length = d.length - o := by rw [← hi, List.length_drop]
  by_cases h4 : o + 4 > d.length
  · have : readTime d o = .err "unexpected EOF" := by unfold readTime; rw [if_pos h4]
    rw [this]
    simp only [Res.bind_err, reduceCtorEq, false_iff, not_or, not_and, not_exists]
    refine ⟨by omega, fun k tail he _ => ?_⟩
    rw [List.drop_eq_nil_of_le (by omega)] at he
    cases he
  · have ht : readTime d o = .ok (⟨(beNat (i.take 4) : Int), 0⟩, o + 4) := by
      unfold readTime
      rw [if_neg h4, ← hi, from?, if_pos (by omega)]
      rfl
    rw [ht, Res.bind_ok]
    dsimp only
    by_cases h7 : o + 7 ≤ d.length
    · rw [sl?_ok (by omega) (by omega), Res.bind_ok, (unmarshalOdometer_3 (by rw [sl_length_of (by omega)]; omega) _).mpr rfl, Res.bind_ok]
      have hd7 : d.drop (o + 7) = i.drop 7 := by rw [← hi, List.drop_drop]
      have h3 : ¬ (4 ≤ i.length ∧ i.length < 7) := by omega
      simp only [h3, false_or]
      rw [show o + 4 + 3 = o + 7 from rfl]
      cases h8 : i.drop 7 with
      | nil =>
        have hb : readU8 d (o + 7) = .err "unexpected EOF" := by
          unfold readU8
          rw [if_pos]
          have := congrArg List.length h8
          rw [List.length_drop, List.length_nil] at this
          omega
        unfold legacyIWData
        rw [hb]
        simp
      | cons k tail =>
        have hk : (∃ k_1 tail_1, k :: tail = k_1 :: tail_1 ∧ (k_1 = 0 ∨ tail_1.length < 126) ∧ RunsShort [2, 10, 5] tail_1) ↔
            (k = 0 ∨ tail.length < 126) ∧ RunsShort [2, 10, 5] tail := by
          constructor
          · rintro ⟨_, _, h, h'⟩
            injection h with ha hb
            subst ha hb
            exact h'
          · intro h'; exact ⟨_, _, rfl, h'⟩
        rw [hk]
        have htl : tail.length + 8 = i.length := by
          have := congrArg List.length h8
          rw [List.length_drop, List.length_cons] at this
          omega
        have hd8 : d.drop (o + 8) = tail := by
          rw [show o + 8 = o + 7 + 1 from rfl, ← List.drop_drop, hd7, h8]; rfl
        have hu : readU8 d (o + 7) = .ok (k, o + 8) := by
          rw [reads_u8.spec h7]
          exact ⟨tail, by rw [hd7, h8], by omega⟩
        by_cases hiw : k = 0 ∨ tail.length < 126
        · have hw : legacyIWData d (o + 7) = .ok ([], o + 8) := by
            rw [reads_iw1.spec h7]
            exact ⟨tail, ⟨rfl, k, by rw [hd7, h8], hiw⟩, by omega⟩
          rw [hw, Res.bind_ok]
          simp only [hiw, true_and]
          have c1 := counted_cases (n := 2) (by omega) activityChange_total2 (show o + 8 ≤ d.length by omega) (r := legacyChanges) fun _ _ => rfl
          rw [hd8] at c1
          match tail with
          | [] =>
            obtain ⟨m, hm⟩ := c1
            rw [hm]
            simp [RunsShort]
          | k1 :: r1 =>
            dsimp only at c1
            unfold RunsShort
            by_cases s1 : r1.length < k1.toNat * 2
            · rw [if_pos s1] at c1
              rw [c1]
              simp [s1]
            · rw [if_neg s1] at c1
              obtain ⟨as1, h1, b1, d1⟩ := c1
              rw [h1, Res.bind_ok]
              simp only [s1, false_or]
              have c2 := counted_cases (n := 10) (by omega) legacyPlace_total10 b1 (r := legacyPlaces) fun _ _ => rfl
              rw [d1] at c2
              generalize r1.drop (k1.toNat * 2) = tail2 at *
              match tail2 with
              | [] =>
                obtain ⟨m, hm⟩ := c2
                rw [hm]
                simp [RunsShort]
              | k2 :: r2 =>
                dsimp only at c2
                unfold RunsShort
                by_cases s2 : r2.length < k2.toNat * 10
                · rw [if_pos s2] at c2
                  rw [c2]
                  simp [s2]
                · rw [if_neg s2] at c2
                  obtain ⟨as2, h2, b2, d2⟩ := c2
                  rw [h2, Res.bind_ok]
                  simp only [s2, false_or]
                  have c3 := counted_cases (n := 5) (by omega) specificCondition_total5 b2 (r := legacyConditions) fun _ _ => rfl
                  rw [d2] at c3
                  generalize r2.drop (k2.toNat * 10) = tail3 at *
                  match tail3 with
                  | [] =>
                    obtain ⟨m, hm⟩ := c3
                    rw [hm]
                    simp [RunsShort]
                  | k3 :: r3 =>
                    dsimp only at c3
                    unfold RunsShort
                    by_cases s3 : r3.length < k3.toNat * 5
                    · rw [if_pos s3] at c3
                      rw [c3]
                      simp [s3]
                    · rw [if_neg s3] at c3
                      obtain ⟨as3, h3, b3, d3⟩ := c3
                      rw [h3, Res.bind_ok]
                      simp only [s3, false_or, RunsShort, iff_false]
                      refine np_call ?_ fun _ => np_pure
                      unfold readN
                      refine np_ite (fun _ => by simp) fun hle => np_ite (fun h => by omega) fun _ => ?_
                      refine np_sl (by omega) (by omega) fun _ _ => np_pure
        · have hw : legacyIWData d (o + 7) ≠ .panic := by
            unfold legacyIWData
            rw [hu, Res.bind_ok]
            unfold readScanned
            refine np_from (by omega) fun _ _ => np_call (mapRes_ne_panic fun b hb => ?_) fun _ => by no_panic
            exact legacyIWRecord_np b
          simp only [hiw, false_and, iff_false]
          intro hp
          cases hq : legacyIWData d (o + 7) with
          | panic => exact hw hq
          | err m => rw [hq] at hp; simp at hp
          | ok x =>
            obtain ⟨t, ⟨_, k', hk', hh⟩, _⟩ := (reads_iw1.spec (a := x.1) (o' := x.2) h7).mp hq
            rw [hd7, h8] at hk'
            injection hk' with ha hb
            subst ha hb
            exact hiw hh
    · have hp : sl? d (o + 4) (o + 4 + 3) = .panic := by
        unfold sl?
        rw [if_neg (by omega)]
      rw [hp]
      simp only [Res.bind_panic, true_iff]
      exact .inl (by omega)

omit [Charmap] in
theorem bind_eq_panic {α β : Type} {r : Res α} {f : α → Res β} : (r >>= f) = .panic ↔ r = .panic ∨ ∃ a, r = .ok a ∧ f a = .panic := by
  cases r <;> simp

omit [Charmap] in
theorem readMany_np {α : Type} {r : Nat → Res (α × Nat)} (h : ∀ o, r o ≠ .panic) (k o : Nat) : readMany r k o ≠ .panic := by
  induction k generalizing o with
  | zero => simp [readMany]
  | succ k ih => exact np_call (h o) fun x => np_call (ih x.2) fun _ => np_pure

omit [Charmap] in
theorem readN_np (d : Bytes) (o n : Nat) : readN d o (n : Int) ≠ .panic := by
  unfold readN
  refine np_ite (fun _ => by simp) fun hle => np_ite (fun h => by omega) fun _ => ?_
  exact np_sl (by omega) (by omega) fun _ _ => np_pure

omit [Charmap] in
theorem readU8_np (d : Bytes) (o : Nat) : readU8 d o ≠ .panic := by
  unfold readU8; no_panic

omit [Charmap] in
@[simp] theorem legacyPlace_np (d : Bytes) : legacyPlace d ≠ .panic := by
  unfold legacyPlace; no_panic

omit [Charmap] in
@[simp] theorem legacyGnss_np (d : Bytes) : legacyGnss d ≠ .panic := by
  unfold legacyGnss; no_panic

omit [Charmap] in
theorem optionalArray_np {α : Type} {r : Res (List α × Nat)} (h : r ≠ .panic) (o : Nat) : optionalArray r o ≠ .panic := by
  unfold optionalArray
  cases r <;> simp_all

omit [Charmap] in
theorem legacyOptional_np (d : Bytes) (o : Nat) : legacyOptional d o ≠ .panic := by
  unfold legacyOptional
  refine np_ite (fun _ => ?_) fun _ => np_pure
  refine np_call (optionalArray_np (legacyArray_np _ (by omega) (by omega) legacyBorder_np _ _) _) fun _ => ?_
  refine np_ite (fun _ => ?_) fun _ => np_pure
  exact np_call (optionalArray_np (legacyArray_np _ (by omega) (by omega) legacyLoad_np _ _) _) fun _ => np_pure

omit [Charmap] in
theorem legacySignature_np {d : Bytes} {o : Nat} (ho : o ≤ d.length) : legacySignature d o ≠ .panic := by
  unfold legacySignature
  refine np_from ho fun i _ => ?_
  have hc := congrArg Prod.fst (scanAll_chunks splitSignature_stable i)
  dsimp only at hc
  cases ht : (scanAll splitSignature i).toks with
  | nil => simp
  | cons tk ts =>
    have h6 : 6 ≤ tk.bytes.length := by
      rw [ht, List.map_cons, chunks] at hc
      cases hl : look splitSignature i with
      | more => rw [hl] at hc; cases hc
      | fail m => rw [hl] at hc; cases hc
      | token n =>
        rw [hl] at hc
        obtain ⟨h1, h2, h3, h4, h5⟩ := look_signature.mp hl
        dsimp only at hc
        rw [if_pos (by omega)] at hc
        rw [(List.cons.inj hc).1, List.length_take]
        omega
    dsimp only
    no_panic

omit [Charmap] in
theorem sl?_panic_iff {d : Bytes} {o n : Nat} : sl? d o (o + n) = .panic ↔ d.length < o + n := by
  unfold sl?
  split
  · simp; omega
  · simp; omega

/-- A card record never stops the program: its card number is refused first. -/
theorem legacyIWGen2_np {d : Bytes} {o : Nat} (ho : o ≤ d.length) : legacyIWGen2 d o ≠ .panic := by
  intro g0
  unfold legacyIWGen2 at g0
  obtain ⟨⟨a, o1⟩, h1, g1⟩ := (bind_eq_panic.mp g0).resolve_left (readN_np d o 72)
  obtain ⟨na, hna, g2⟩ := (bind_eq_panic.mp g1).resolve_left (by simp)
  obtain ⟨⟨b, o2⟩, h2, g3⟩ := (bind_eq_panic.mp g2).resolve_left (readN_np d o1 20)
  obtain ⟨nb, hnb, _⟩ := (bind_eq_panic.mp g3).resolve_left (by simp)
  obtain ⟨u1, ⟨hal, p1⟩, rfl⟩ := ((reads_n 72).spec (a := a) (o' := o1) ho).mp h1
  obtain ⟨l1, e1⟩ := (reads_n 72).left (a := a) (t := u1) ho ⟨hal, p1⟩
  obtain ⟨u2, ⟨hbl, _⟩, _⟩ := ((reads_n 20).spec (a := b) (o' := o2) l1).mp h2
  exact number_20 hbl nb hnb

/-- C66. The Gen2 parser stops the program exactly when the odometer array is cut off. -/
theorem legacy_gen2_panics_iff (d : Bytes) (o : Nat) :
    unmarshalVuActivities d o 2 = .panic ↔
      ∃ dates t1, ExactArray 1 4 (fun b (t : Timestamp) => t = { seconds := (beNat b : Int), nanos := 0 }) (d.drop o) dates t1 ∧
        ∃ c rest, c < 65536 ∧ t1 = wideHeader 2 3 c ++ rest ∧ rest.length < 3 * c := by
  have e1 : unmarshalVuActivities d o 2 = legacyGen2 d o := rfl
  rw [e1]
  have rc : Reads legacyChangeArray _ := reads_array (by omega) (by omega) (by omega) (by omega) unmarshalActivityChangeInfo
  have rs : Reads legacyConditionArray _ := reads_array (by omega) (by omega) (by omega) (by omega) unmarshalSpecificConditionRecord
  by_cases ho : o ≤ d.length
  · have hm := fun (k o : Nat) ho => readMany_total (n := 3) (by omega) (f := unmarshalOdometer) (fun b hb => ⟨_, (unmarshalOdometer_3 hb _).mpr rfl⟩) d k o ho
    unfold legacyGen2
    constructor
    · intro h
      have n1 : legacyDates d o ≠ .panic :=
        np_call (arrayHeader_np _ _ _ _) fun x => readMany_np (readTime_np d) x.1 x.2
      obtain ⟨⟨a, o1⟩, h1, h⟩ := (bind_eq_panic.mp h).resolve_left n1
      obtain ⟨u1, p1, rfl⟩ := (reads_dates.spec ho).mp h1
      obtain ⟨l1, d1⟩ := reads_dates.left ho p1
      refine ⟨a, u1, p1, ?_⟩
      rcases bind_eq_panic.mp h with h | ⟨⟨b, o2⟩, h2, h⟩
      · obtain ⟨⟨c, q⟩, hh, h⟩ := (bind_eq_panic.mp h).resolve_left (arrayHeader_np _ _ _ _)
        obtain ⟨rest, ⟨hc, p2⟩, rfl⟩ := ((reads_header 2 3 (by omega) (by omega)).spec l1).mp hh
        obtain ⟨l2, d2⟩ := (reads_header 2 3 (by omega) (by omega)).left (a := c) (t := rest) l1 ⟨hc, p2⟩
        rw [d1] at p2
        refine ⟨c, rest, hc, p2, ?_⟩
        have := hm c _ l2
        split at this
        · have hr : rest.length ≤ d.length := by
            have := congrArg List.length d2
            rw [List.length_drop] at this; omega
          omega
        · obtain ⟨as, has⟩ := this
          dsimp only at h
          rw [has] at h
          cases h
      · exfalso
        obtain ⟨u2, p2, rfl⟩ := (reads_odometers.spec l1).mp h2
        obtain ⟨l2, d2⟩ := reads_odometers.left l1 p2
        rcases bind_eq_panic.mp h with h | ⟨⟨c, o3⟩, h3, h⟩
        · obtain ⟨⟨k, q⟩, hh, h⟩ := (bind_eq_panic.mp h).resolve_left (arrayHeader_np _ _ _ _)
          obtain ⟨rest, ⟨hk, size, hs, p3⟩, rfl⟩ := ((reads_header_any 0x0D (by omega)).spec l2).mp hh
          obtain ⟨l3, d3⟩ := (reads_header_any 0x0D (by omega)).left (a := k) (t := rest) l2 ⟨hk, size, hs, p3⟩
          dsimp only at h
          match k with
          | 0 => cases h
          | k + 1 =>
            unfold readMany at h
            rcases bind_eq_panic.mp h with h | ⟨x, hx, _⟩
            · exact legacyIWGen2_np l3 h
            · exact absurd hx (legacyIWGen2_never _ _ _)
        · obtain ⟨u3, p3, rfl⟩ := (reads_iw2.spec l2).mp h3
          obtain ⟨l3, d3⟩ := reads_iw2.left l2 p3
          obtain ⟨⟨e, o4⟩, h4, h⟩ := (bind_eq_panic.mp h).resolve_left (legacyArray_np _ (by omega) (by omega) activityChange_np _ _)
          obtain ⟨u4, p4, rfl⟩ := (rc.spec l3).mp h4
          obtain ⟨l4, d4⟩ := rc.left l3 p4
          obtain ⟨⟨f, o5⟩, h5, h⟩ := (bind_eq_panic.mp h).resolve_left (legacyArray_np _ (by omega) (by omega) legacyPlace_np _ _)
          obtain ⟨u5, p5, rfl⟩ := (reads_placeArray.spec l4).mp h5
          obtain ⟨l5, d5⟩ := reads_placeArray.left l4 p5
          obtain ⟨⟨g, o6⟩, h6, h⟩ := (bind_eq_panic.mp h).resolve_left (legacyArray_np _ (by omega) (by omega) legacyGnss_np _ _)
          obtain ⟨u6, p6, rfl⟩ := (reads_gnssArray.spec l5).mp h6
          obtain ⟨l6, d6⟩ := reads_gnssArray.left l5 p6
          obtain ⟨⟨hc, o7⟩, h7, h⟩ := (bind_eq_panic.mp h).resolve_left (legacyArray_np _ (by omega) (by omega) specificCondition_np _ _)
          obtain ⟨u7, p7, rfl⟩ := (rs.spec l6).mp h7
          obtain ⟨l7, d7⟩ := rs.left l6 p7
          obtain ⟨⟨⟨i1, i2⟩, o8⟩, h8, h⟩ := (bind_eq_panic.mp h).resolve_left (legacyOptional_np _ _)
          obtain ⟨u8, p8, rfl⟩ := (reads_legacyOptional.spec l7).mp h8
          obtain ⟨l8, d8⟩ := reads_legacyOptional.left l7 p8
          obtain ⟨_, _, h⟩ := (bind_eq_panic.mp h).resolve_left (legacySignature_np l8)
          simp at h
    · rintro ⟨dates, t1, p1, c, rest, hc, he, hlt⟩
      obtain ⟨l1, d1⟩ := reads_dates.left ho p1
      rw [(reads_dates.spec ho).mpr ⟨_, p1, rfl⟩, Res.bind_ok]
      dsimp only
      rw [← d1] at he
      obtain ⟨l2, d2⟩ := (reads_header 2 3 (by omega) (by omega)).left (a := c) (t := rest) l1 ⟨hc, he⟩
      have : legacyOdometers d (d.length - t1.length) = .panic := by
        unfold legacyOdometers
        rw [((reads_header 2 3 (by omega) (by omega)).spec (a := c) l1).mpr ⟨rest, ⟨hc, he⟩, rfl⟩, Res.bind_ok]
        have := hm c _ l2
        have hr : rest.length ≤ d.length := by
          have := congrArg List.length d2
          rw [List.length_drop] at this; omega
        rw [if_pos (by omega)] at this
        exact this
      rw [this]
      rfl
  · constructor
    · intro h
      exfalso
      unfold legacyGen2 legacyDates arrayHeader at h
      rw [if_pos (by omega)] at h
      simp at h
    · rintro ⟨_, _, ⟨_, e, _⟩, _⟩
      rw [List.drop_eq_nil_of_le (by omega)] at e
      have := congrArg List.length e
      simp [wideHeader_length] at this
      omega

/-! ## What follows for messages of the regulation -/

/-- C66. No card insertion is ever reported. -/
theorem legacy_no_card_records {d : Bytes} {o n : Nat} {g : Int} {m : LegacyActivities}
    (h : unmarshalVuActivities d o g = .ok (n, m)) : m.cardIW = [] := by
  by_cases h1 : g = 1
  · subst h1
    obtain ⟨_, ⟨_, _, _, _, _, _, _, _, _, _, _, _, _, e⟩, _⟩ := (legacy_gen1_iff d o n m).mp h
    rw [e]
  · by_cases h2 : g = 2
    · subst h2
      obtain ⟨_, ⟨_, _, _, _, _, _, _, _, _, _, _, _, _, _, _, _, _, _, _, _, _, _, e⟩, _⟩ := (legacy_gen2_iff d o n m).mp h
      rw [e]
    · unfold unmarshalVuActivities at h
      rw [if_neg h1, if_neg h2] at h
      cases h

/-- C66. No border crossing and no loading operation is ever reported. -/
theorem legacy_no_border_records {d : Bytes} {o n : Nat} {g : Int} {m : LegacyActivities}
    (h : unmarshalVuActivities d o g = .ok (n, m)) : m.borders = [] ∧ m.loads = [] := by
  by_cases h1 : g = 1
  · subst h1
    obtain ⟨_, ⟨_, _, _, _, _, _, _, _, _, _, _, _, _, e⟩, _⟩ := (legacy_gen1_iff d o n m).mp h
    rw [e]; exact ⟨rfl, rfl⟩
  · by_cases h2 : g = 2
    · subst h2
      obtain ⟨_, ⟨_, _, _, _, _, _, _, _, _, _, _, _, _, _, _, _, _, _, _, _, ho, _, e⟩, _⟩ := (legacy_gen2_iff d o n m).mp h
      rw [e]
      unfold OptionalArrays at ho
      split at ho
      · rw [ho.1, ho.2.1]; exact ⟨rfl, rfl⟩
      · obtain ⟨mid, hb, hl⟩ := ho
        refine ⟨?_, ?_⟩
        · rcases hb with ⟨hb, _⟩ | ⟨hb, _⟩ <;> rw [hb] <;> rfl
        · split at hl
          · rw [hl.1]; rfl
          · rcases hl with ⟨hl, _⟩ | ⟨hl, _⟩ <;> rw [hl] <;> rfl
    · unfold unmarshalVuActivities at h
      rw [if_neg h1, if_neg h2] at h
      cases h

/-- C66. Another generation is an error. -/
theorem legacy_other_generation (d : Bytes) (o : Nat) {g : Int} (h1 : g ≠ 1) (h2 : g ≠ 2) :
    ∃ e, unmarshalVuActivities d o g = .err e := by
  unfold unmarshalVuActivities
  rw [if_neg h1, if_neg h2]
  exact ⟨_, rfl⟩

/-- C66. A message whose first record array has the header of the regulation (one byte for the type,
not zero) is never accepted as Gen2. -/
theorem legacy_gen2_refuses_regulation {d : Bytes} {o : Nat} {type : UInt8} {rest : Bytes} (h0 : type ≠ 0)
    (hd : d.drop o = type :: rest) (x : Nat × LegacyActivities) : unmarshalVuActivities d o 2 ≠ .ok x := by
  intro h
  obtain ⟨_, ⟨dates, _, _, _, _, _, _, _, _, _, _, _, _, ⟨r, e, _⟩, _⟩, _⟩ := (legacy_gen2_iff d o x.1 x.2).mp h
  rw [hd] at e
  unfold wideHeader at e
  have : beBytes 2 1 = [0, 1] := by decide
  rw [this] at e
  simp only [List.cons_append, List.cons.injEq] at e
  exact h0 e.1

omit [Charmap] in
theorem counted_inv {α : Type} {n : Nat} {f : Bytes → α → Prop} {k : UInt8} {i t : Bytes} {as : List α}
    (h : Counted n f (k :: i) as t) : as.length = k.toNat ∧ Pieces n f i as t := by
  obtain ⟨k', r, e, h1, h2⟩ := h
  injection e with ha hb
  subst ha hb
  exact ⟨h1, h2⟩

omit [Charmap] in
theorem pieces_nil {α : Type} {n : Nat} {f : Bytes → α → Prop} {i t : Bytes} (h : Pieces n f i [] t) : t = i := by
  obtain ⟨xs, rfl, _, h⟩ := h
  cases h
  rfl

omit [Charmap] in
/-- The start of a conforming day. -/
theorem shape_start {v : Bytes} {iw c p s : Nat} (h : ActivitiesShape v iw c p s) :
    ∃ t0 a b r, t0.length = 7 ∧ v = t0 ++ a :: b :: r ∧ beNat [a, b] = iw ∧
      (iw = 0 → ∃ c0 c1 r', r = c0 :: c1 :: r' ∧ beNat [c0, c1] = c ∧ r'.length = 2 * c + 28 * p + 5 * s + 131) := by
  obtain ⟨h1, h2, _, _, h5⟩ := h
  have hl : (v.drop 7).length = v.length - 7 := List.length_drop
  have hv : v = v.take 7 ++ v.drop 7 := (List.take_append_drop 7 v).symm
  have ht : (v.take 7).length = 7 := by rw [List.length_take]; omega
  have hs : ∀ k, sl v (7 + k) (9 + k) = ((v.drop 7).drop k).take 2 := by
    intro k
    unfold sl
    rw [List.drop_take, List.drop_drop]
    congr 1
    omega
  generalize hw : v.drop 7 = w at *
  match w, hl with
  | [], hl => rw [List.length_nil] at hl; omega
  | [_], hl => simp only [List.length_cons, List.length_nil] at hl; omega
  | a :: b :: r, hl =>
    refine ⟨v.take 7, a, b, r, ht, hv, ?_, ?_⟩
    · rw [← h1]; exact congrArg beNat (hs 0).symm
    · rintro rfl
      simp only [List.length_cons] at hl
      match r with
      | [] => simp only [List.length_nil] at hl; omega
      | [_] => simp only [List.length_cons, List.length_nil] at hl; omega
      | c0 :: c1 :: r' =>
        simp only [List.length_cons] at hl
        refine ⟨c0, c1, r', rfl, ?_, by omega⟩
        rw [← h2]; exact congrArg beNat (hs 2).symm

omit [Charmap] in
theorem beNat_pair (a b : UInt8) : beNat [a, b] = a.toNat * 256 + b.toNat := by
  simp [beNat]

omit [Charmap] in
theorem beNat_pair_small {a b : UInt8} {n : Nat} (h : beNat [a, b] = n) (hn : n < 256) : a = 0 ∧ b.toNat = n := by
  rw [beNat_pair] at h
  refine ⟨UInt8.toNat_inj.mp (show a.toNat = 0 by omega), by omega⟩

/-- C66. What is reported of a day that is laid out as the regulation says: no card insertion, as
many changes as there are card insertions, and, when there is none, no place and as many specific
conditions as there are activity changes. -/
theorem legacy_gen1_misreads {v : Bytes} {iw c p s n : Nat} {m : LegacyActivities} (hv : ActivitiesShape v iw c p s)
    (hiw : iw < 256) (h : unmarshalVuActivities v 0 1 = .ok (n, m)) :
    m.cardIW = [] ∧ m.changes.length = iw ∧
      (iw = 0 → c < 256 → m.changes = [] ∧ m.places = [] ∧ m.conditions.length = c) := by
  refine ⟨legacy_no_card_records h, ?_⟩
  obtain ⟨tail, ⟨u0, t1, t2, t3, hl, hi, p4, p5, u6, p6, sg, hsg, _, _⟩, _⟩ := (legacy_gen1_iff v 0 n m).mp h
  rw [List.drop_zero] at hi
  obtain ⟨t0, a, b, r, ht0, rfl, hab, hz⟩ := shape_start hv
  obtain ⟨ha, hb⟩ := beNat_pair_small hab hiw
  have hinj := List.append_inj hi (by omega)
  injection hinj.2 with _ h1
  subst h1
  obtain ⟨q1, q2⟩ := counted_inv p4
  refine ⟨by omega, ?_⟩
  intro hiw0 hc
  have hch : m.changes = [] := List.length_eq_zero_iff.mp (by omega)
  rw [hch] at q2
  have := pieces_nil q2
  subst this
  obtain ⟨c0, c1, r', rfl, hcc, _⟩ := hz hiw0
  obtain ⟨hc0, hc1⟩ := beNat_pair_small hcc hc
  obtain ⟨q3, q4⟩ := counted_inv p5
  have hpl : m.places = [] := List.length_eq_zero_iff.mp (by rw [q3, hc0]; rfl)
  rw [hpl] at q4
  have := pieces_nil q4
  subst this
  obtain ⟨q5, _⟩ := counted_inv p6
  exact ⟨hch, hpl, by omega⟩

omit [Charmap] in
theorem pieces_exist {α : Type} {n : Nat} {f : Bytes → Res α} (hf : ∀ b, b.length = n → ∃ a, f b = .ok a) (i : Bytes) (k : Nat)
    (h : k * n ≤ i.length) : ∃ as, as.length = k ∧ Pieces n (fun b a => f b = .ok a) i as (i.drop (k * n)) := by
  induction k generalizing i with
  | zero => exact ⟨[], rfl, [], by simp, by simp, .nil⟩
  | succ k ih =>
    rw [Nat.succ_mul] at h
    obtain ⟨as, hl, xs, he, hs, hF⟩ := ih (i.drop n) (by rw [List.length_drop]; omega)
    have htl : (i.take n).length = n := by rw [List.length_take]; omega
    obtain ⟨a, ha⟩ := hf (i.take n) htl
    refine ⟨a :: as, by simp [hl], i.take n :: xs, ?_, ?_, .cons ha hF⟩
    · rw [List.flatten_cons, List.append_assoc, Nat.succ_mul, Nat.add_comm, ← List.drop_drop, ← he, List.take_append_drop]
    · intro x hx
      rcases List.mem_cons.mp hx with rfl | hx
      · exact htl
      · exact hs x hx

/-- C66. When a conforming day without card insertions is accepted: only if it has so few activity
changes that they, read as specific conditions, fit. -/
theorem legacy_gen1_conforming_iff {v : Bytes} {c p s : Nat} (hv : ActivitiesShape v 0 c p s) (hc : c < 256) :
    (∃ x, unmarshalVuActivities v 0 1 = .ok x) ↔ 3 * c ≤ 3 + 28 * p + 5 * s := by
  obtain ⟨t0, a, b, r, ht0, hve, hab, hz⟩ := shape_start hv
  obtain ⟨c0, c1, r', rfl, hcc, hr⟩ := hz rfl
  obtain ⟨hc0, hc1⟩ := beNat_pair_small hcc hc
  obtain ⟨ha, hb⟩ := beNat_pair_small hab (by omega)
  have hb : b = 0 := UInt8.toNat_inj.mp hb
  constructor
  · rintro ⟨⟨n, m⟩, h⟩
    obtain ⟨hiw, hch, h3⟩ := legacy_gen1_misreads hv (by omega) h
    obtain ⟨hch, hpl, hcl⟩ := h3 rfl hc
    obtain ⟨tail, ⟨u0, t1, t2, t3, hl, hi, p4, p5, u6, p6, sg, hsg, e, _⟩, _⟩ := (legacy_gen1_iff v 0 n m).mp h
    rw [List.drop_zero, hve] at hi
    have hinj := List.append_inj hi (by omega)
    injection hinj.2 with _ h1
    subst h1
    rw [hch] at p4
    have := pieces_nil (counted_inv p4).2
    subst this
    rw [hpl] at p5
    have := pieces_nil (counted_inv p5).2
    subst this
    obtain ⟨xs, e', hs, hF⟩ := (counted_inv p6).2
    have hxl := flatten_length_const (n := 5) hs
    have := hF.length_eq
    rw [e', e] at hr
    simp only [List.length_append] at hr
    rw [hxl] at hr
    omega
  · intro hle
    obtain ⟨as, hal, has⟩ := pieces_exist (n := 5) specificCondition_total5 r' c (by omega)
    refine ⟨(_, _), (legacy_gen1_iff v 0 _ ⟨1, false, some ⟨(beNat (t0.take 4) : Int), 0⟩, some (beNat (t0.drop 4)), [], [], [], [], as, [], [],
      some ((r'.drop (c * 5)).take 128), none⟩).mpr ⟨(r'.drop (c * 5)).drop 128, ⟨t0, b :: c0 :: c1 :: r', c0 :: c1 :: r', c1 :: r', ht0, ?_, ?_, ?_,
      r'.drop (c * 5), ?_, (r'.drop (c * 5)).take 128, ?_, ?_, rfl⟩, rfl⟩⟩
    · rw [List.drop_zero, hve, ha]
    · exact ⟨b, _, rfl, by rw [hb]; rfl, [], rfl, by simp, .nil⟩
    · exact ⟨c0, _, rfl, by rw [hc0]; rfl, [], rfl, by simp, .nil⟩
    · exact ⟨c1, _, rfl, by rw [hal, hc1], has⟩
    · rw [List.length_take, List.length_drop]; omega
    · rw [List.take_append_drop]

omit [Charmap] in
/-- C66. The type of an entry is never the protocol's: for every byte the protocol knows, the value
reported is another one. Countries agree for one byte only, 56. -/
theorem legacy_place_enums {b : Bytes} {p : LegacyPlace} (h : LegacyPlaceIs b p) :
    (∀ x v, b[4]? = some x → (v, some x.toNat) ∈ entryTypeDailyWorkPeriodTable → (p.entryType : Int) ≠ v) ∧
    (∀ x v, b[5]? = some x → (v, some x.toNat) ∈ nationNumericTable → (p.country : Int) = v → x = 56) := by
  obtain ⟨_, h1, h2, _⟩ := h
  constructor
  · intro x v hx hv
    rw [hx] at h1
    have : x.toNat = p.entryType := Option.some.inj h1
    have key : ∀ e ∈ entryTypeDailyWorkPeriodTable, e.2.map Int.ofNat ≠ some e.1 := by decide
    have := key _ hv
    intro e
    apply this
    subst e
    simp [*]
  · intro x v hx hv e
    rw [hx] at h2
    have hx' : x.toNat = p.country := Option.some.inj h2
    have key : ∀ e ∈ nationNumericTable, e.2.map Int.ofNat = some e.1 → e.2 = some 56 := by decide
    have := key _ hv (by subst e; simp [hx'])
    exact UInt8.toNat_inj.mp (Option.some.inj this)

omit [Charmap] in
/-- C66. The authentication status of a position of the Gen2 list is never the protocol's. -/
theorem legacy_gnss_enum {b : Bytes} {g : LegacyGnss} (h : LegacyGnssIs b g) {x : UInt8} {v : Int} (hx : b[13]? = some x)
    (hv : (v, some x.toNat) ∈ positionAuthenticationStatusTable) : g.authentication ≠ v := by
  obtain ⟨_, _, _, h4⟩ := h
  rw [hx] at h4
  have h4 : (x.toNat : Int) = g.authentication := Option.some.inj h4
  have key : ∀ e ∈ positionAuthenticationStatusTable, e.2.map Int.ofNat ≠ some e.1 := by decide
  intro e
  apply key _ hv
  subst e
  simp [h4]

/-! ## Detailed speed and technical data -/

omit [Charmap] in
/-- C66. Both functions take everything that is left as the signature, whatever it is; an offset past the
end stops the program. -/
theorem legacy_rest (d : Bytes) (o : Nat) (g : Int) :
    unmarshalVuRest d o g = if o ≤ d.length then .ok (d.length - o, {
      generation := if g = 1 then 1 else 2
      signatureGen1 := if g = 1 then some (d.drop o) else none
      signatureGen2 := if g = 1 then none else some (d.drop o) }) else .panic := by
  unfold unmarshalVuRest readN
  rw [if_neg (by omega)]
  by_cases h : o ≤ d.length
  · rw [if_pos h, if_neg (by omega), show o + ((d.length : Int) - o).toNat = d.length from by omega, sl?_ok (by omega) (by omega)]
    simp only [Res.bind_ok, Res.pure_eq]
    have : sl d o d.length = d.drop o := by unfold sl; rw [List.take_length]
    rw [this]
  · rw [if_neg h, if_pos (by omega)]
    rfl

/-! ## Cases -/

/-- A day without any record is read. -/
example : ∃ x, unmarshalVuActivities (zeros 142) 0 1 = .ok x :=
  (legacy_gen1_conforming_iff (v := zeros 142) (c := 0) (p := 0) (s := 0)
    ⟨by decide +kernel, by decide +kernel, ⟨0, by decide +kernel, by decide⟩, by decide +kernel, by decide +kernel⟩ (by omega)).mpr (by omega)

/-- A conforming day with one activity change is accepted: no change and one specific condition are
reported. -/
theorem legacy_gen1_one_change : ∃ v n m, ActivitiesShape v 0 1 0 0 ∧ unmarshalVuActivities v 0 1 = .ok (n, m) ∧ m.changes = [] ∧ m.conditions.length = 1 := by
  have hs : ActivitiesShape ([0x65, 0x53, 0xF1, 0, 0, 1, 2, 0, 0, 0, 1, 0x18, 0x10, 0, 0, 0] ++ zeros 128) 0 1 0 0 :=
    ⟨by decide +kernel, by decide +kernel, ⟨0, by decide +kernel, by decide⟩, by decide +kernel, by decide +kernel⟩
  obtain ⟨⟨n, m⟩, h⟩ := (legacy_gen1_conforming_iff hs (by omega)).mpr (by omega)
  obtain ⟨_, _, h3⟩ := legacy_gen1_misreads hs (by omega) h
  exact ⟨_, n, m, hs, h, (h3 rfl (by omega)).1, (h3 rfl (by omega)).2.2⟩

/-- A day cut off within the odometer, and one cut off within its changes, stop the program. -/
example : unmarshalVuActivities [1, 2, 3, 4, 5] 0 1 = .panic :=
  (legacy_gen1_panics_iff _ _).mpr (.inl (by decide))

example : unmarshalVuActivities [1, 2, 3, 4, 5, 6, 7, 0, 3, 1, 1] 0 1 = .panic :=
  (legacy_gen1_panics_iff _ _).mpr (.inr ⟨0, [3, 1, 1], rfl, .inl rfl, by simp [RunsShort]⟩)

example : unmarshalVuActivities [0, 1, 0, 4, 0, 0, 0, 2, 0, 3, 0, 1, 9] 0 2 = .panic :=
  (legacy_gen2_panics_iff _ _).mpr ⟨[], [0, 2, 0, 3, 0, 1, 9], ⟨_, rfl, by decide, [], rfl, by simp, .nil⟩,
    1, [9], by decide, rfl, by decide⟩

/-- A Gen2 day is read when it is written with the headers this parser wants. -/
example : ∃ x, unmarshalVuActivities
    ([0, 1, 0, 4, 0, 1, 0x65, 0x53, 0xF1, 0] ++ [0, 2, 0, 3, 0, 1, 0, 1, 2] ++ [0, 0x0D, 0, 0, 0, 0] ++ [0, 3, 0, 2, 0, 0] ++
     [0, 4, 0, 10, 0, 0] ++ [0, 0x16, 0, 14, 0, 0] ++ [0, 9, 0, 5, 0, 0] ++ [0, 8, 0, 1, 0, 1, 0xAA]) 0 2 = .ok x := by
  refine ⟨(_, _), (legacy_gen2_iff _ _ _ ⟨2, false, some ⟨0x6553F100, 0⟩, some 258, [], [], [], [], [], [], [], none, some [0xAA]⟩).mpr
    ⟨[], ⟨[⟨0x6553F100, 0⟩], [258], none, none, [0xAA], _, _, _, _, _, _, _, _,
      ⟨_, rfl, by decide, [[0x65, 0x53, 0xF1, 0]], rfl, by decide, .cons rfl .nil⟩,
      ⟨_, rfl, by decide, [[0, 1, 2]], rfl, by decide, .cons rfl .nil⟩,
      ⟨0, by decide, rfl⟩,
      ⟨0, _, by decide, rfl, by simp, [], rfl, by simp, .nil⟩,
      ⟨0, _, by decide, rfl, by simp, [], rfl, by simp, .nil⟩,
      ⟨0, _, by decide, rfl, by simp, [], rfl, by simp, .nil⟩,
      ⟨0, _, by decide, rfl, by simp, [], rfl, by simp, .nil⟩,
      ?_, ⟨0, 1, by decide, by decide, rfl⟩, rfl⟩, rfl⟩⟩
  unfold OptionalArrays
  rw [if_pos (by decide)]
  exact ⟨rfl, rfl, rfl⟩

end

end Tacho
