import Verif.Spec.Certificates
import Verif.Lemmas.Slices
/-!
# Lemmas about number notations and DER items
-/

namespace Tacho
open Spec

/-! ## Decimal notation -/

theorem digit_toNat {k : Nat} (h : k < 10) : (UInt8.ofNat (48 + k)).toNat = 48 + k := by
  simp [UInt8.toNat_ofNat']; omega

theorem decimal_spec (n : Nat) : IsDecimal (decimal n) n := by
  induction n using Nat.strongRecOn with
  | _ n ih =>
  rw [decimal]
  split
  · rename_i h
    refine ⟨by simp, ?_, ?_, ?_⟩
    · intro b hb
      simp only [List.mem_singleton] at hb
      rw [hb, digit_toNat h]; omega
    · simp only [List.foldl_cons, List.foldl_nil, digit_toNat h]; omega
    · intro h0
      simp only [List.head?_cons, Option.some.injEq] at h0
      rw [h0]
  · rename_i h
    obtain ⟨h1, h2, h3, h4⟩ := ih (n / 10) (by omega)
    have hd : n % 10 < 10 := Nat.mod_lt _ (by omega)
    refine ⟨by simp, ?_, ?_, ?_⟩
    · intro b hb
      rcases List.mem_append.mp hb with hb | hb
      · exact h2 b hb
      · simp only [List.mem_singleton] at hb
        rw [hb, digit_toNat hd]; omega
    · rw [List.foldl_append, h3]
      simp only [List.foldl_cons, List.foldl_nil, digit_toNat hd]; omega
    · intro h0
      rw [List.head?_append_of_ne_nil _ h1] at h0
      have := h4 h0
      rw [this] at h3
      simp at h3; omega

/-- Decimal notation is unique. -/
theorem isDecimal_unique {s t : Bytes} {n : Nat} (hs : IsDecimal s n) (ht : IsDecimal t n) : s = t := by
  induction n using Nat.strongRecOn generalizing s t with
  | _ n ih =>
  obtain ⟨s1, s2, s3, s4⟩ := hs
  obtain ⟨t1, t2, t3, t4⟩ := ht
  obtain ⟨si, sl, rfl⟩ : ∃ i l, s = i ++ [l] := ⟨_, _, (List.dropLast_append_getLast s1).symm⟩
  obtain ⟨ti, tl, rfl⟩ : ∃ i l, t = i ++ [l] := ⟨_, _, (List.dropLast_append_getLast t1).symm⟩
  simp only [List.foldl_append, List.foldl_cons, List.foldl_nil] at s3 t3
  have hsl := s2 sl (by simp)
  have htl := t2 tl (by simp)
  have key : ∀ (u : Bytes) (l : UInt8), (∀ b ∈ u ++ [l], 48 ≤ b.toNat ∧ b.toNat ≤ 57) →
      ((u ++ [l]).head? = some 48 → u ++ [l] = [48]) →
      u.foldl (fun a b => a * 10 + (b.toNat - 48)) 0 = 0 → u = [] := by
    intro u l hu h0 hz
    cases u with
    | nil => rfl
    | cons a u =>
      have ha := hu a (by simp)
      have hpos : ∀ (v : Bytes) (acc : Nat), acc ≤ v.foldl (fun a b => a * 10 + (b.toNat - 48)) acc := by
        intro v
        induction v with
        | nil => intro acc; simp
        | cons b v ih => intro acc; rw [List.foldl_cons]; exact Nat.le_trans (by omega) (ih _)
      rw [List.foldl_cons] at hz
      have := hpos u (0 * 10 + (a.toNat - 48))
      have : a.toNat = 48 := by omega
      have : a = 48 := UInt8.toNat_inj.mp this
      have := h0 (by rw [this]; rfl)
      simp at this
  have hlast : sl = tl := by apply UInt8.toNat_inj.mp; omega
  have hval : si.foldl (fun a b => a * 10 + (b.toNat - 48)) 0 = ti.foldl (fun a b => a * 10 + (b.toNat - 48)) 0 := by
    omega
  rw [hlast]
  congr 1
  by_cases hz : si.foldl (fun a b => a * 10 + (b.toNat - 48)) 0 = 0
  · rw [key si sl s2 s4 hz, key ti tl t2 t4 (by omega)]
  · have hne : ∀ u : Bytes, u.foldl (fun a b => a * 10 + (b.toNat - 48)) 0 ≠ 0 → u ≠ [] := by
      intro u h e; rw [e] at h; exact h rfl
    have hh : ∀ (u : Bytes) (l : UInt8), u ≠ [] → ((u ++ [l]).head? = some 48 → u ++ [l] = [48]) →
        (u.head? = some 48 → u = [48]) := by
      intro u l hu h h0
      have := h (by rw [List.head?_append_of_ne_nil _ hu]; exact h0)
      have := congrArg List.length this
      simp only [List.length_append, List.length_cons, List.length_nil] at this
      exact absurd (List.length_eq_zero_iff.mp (by omega)) hu
    have hsn := hne si hz
    have htn := hne ti (by omega)
    have hltn : si.foldl (fun a b => a * 10 + (b.toNat - 48)) 0 < n := by
      generalize si.foldl (fun a b => a * 10 + (b.toNat - 48)) 0 = q at *
      omega
    exact ih _ hltn
      ⟨hsn, fun b hb => s2 b (by simp [hb]), rfl, hh si sl hsn s4⟩
      ⟨htn, fun b hb => t2 b (by simp [hb]), hval.symm, hh ti tl htn t4⟩

theorem isDecimal_iff {s : Bytes} {n : Nat} : IsDecimal s n ↔ s = decimal n :=
  ⟨fun h => isDecimal_unique h (decimal_spec n), fun h => h ▸ decimal_spec n⟩

theorem decimal_inj {m n : Nat} (h : decimal m = decimal n) : m = n := by
  have a := (decimal_spec m).2.2.1
  have b := (decimal_spec n).2.2.1
  rw [h] at a; omega

theorem decimal_ne_nil (n : Nat) : decimal n ≠ [] := (decimal_spec n).1

/-! ## Base 128 -/

theorem septets_append (a b : Bytes) (acc : Nat) :
    (a ++ b).foldl (fun a b => a * 128 + b.toNat % 128) acc =
      b.foldl (fun a b => a * 128 + b.toNat % 128) (a.foldl (fun a b => a * 128 + b.toNat % 128) acc) :=
  List.foldl_append ..

/-- The loop, from any point: it reads high-bit bytes and then one without. -/
theorem base128_iff (sh acc : Nat) (hsh : sh ≤ 5) (d : Bytes) (v : Nat) (r : Bytes) :
    base128 sh acc d = .ok (v, r) ↔
      ∃ init last, d = init ++ [last] ++ r ∧ (∀ b ∈ init, 128 ≤ b.toNat) ∧ last.toNat < 128 ∧
        sh + init.length + 1 ≤ 5 ∧ (sh = 0 → d.head? ≠ some 0x80) ∧
        (init ++ [last]).foldl (fun a b => a * 128 + b.toNat % 128) acc = v ∧ v ≤ 2147483647 := by
  induction d generalizing sh acc with
  | nil => simp [base128]
  | cons b t ih =>
    rw [base128]
    split
    · rename_i h5
      subst h5
      constructor
      · intro h; simp at h
      · rintro ⟨i, l, _, _, _, h, _⟩; omega
    rename_i h5
    split
    · rename_i h0
      constructor
      · intro h; simp at h
      · rintro ⟨i, l, _, _, _, _, h, _⟩
        exact absurd (by rw [h0.2]; rfl) (h h0.1)
    rename_i h0
    dsimp only
    have hhead : sh = 0 → (b :: t).head? ≠ some 0x80 := by
      intro e h; simp only [List.head?_cons, Option.some.injEq] at h; exact h0 ⟨e, h⟩
    split
    · rename_i hlt
      have hshape : ∀ i l, b :: t = i ++ [l] ++ r → (∀ b ∈ i, 128 ≤ b.toNat) → i = [] ∧ l = b ∧ t = r := by
        intro i l e hi
        cases i with
        | nil => simp only [List.nil_append, List.singleton_append, List.cons.injEq] at e
                 exact ⟨rfl, e.1.symm, e.2⟩
        | cons a i =>
          simp only [List.cons_append, List.cons.injEq] at e
          have := hi a (by simp)
          rw [← e.1] at this; omega
      split
      · rename_i hbig
        constructor
        · intro h; simp at h
        · rintro ⟨i, l, e, hi, _, _, _, hv, hm⟩
          obtain ⟨rfl, rfl, _⟩ := hshape i l e hi
          simp at hv; omega
      · rename_i hbig
        simp only [Res.ok.injEq, Prod.mk.injEq]
        constructor
        · rintro ⟨hv, rfl⟩
          exact ⟨[], b, by simp, by simp, hlt, by simp; omega, hhead, by simp [hv], by omega⟩
        · rintro ⟨i, l, e, hi, _, _, _, hv, hm⟩
          obtain ⟨rfl, rfl, rfl⟩ := hshape i l e hi
          exact ⟨by simpa using hv, rfl⟩
    · rename_i hge
      rw [ih (sh + 1) _ (by omega)]
      constructor
      · rintro ⟨i, l, e, hi, hl, hn, _, hv, hm⟩
        refine ⟨b :: i, l, by simp [e], ?_, hl, by simp; omega, hhead, by simpa using hv, hm⟩
        intro x hx
        rcases List.mem_cons.mp hx with rfl | hx
        · omega
        · exact hi x hx
      · rintro ⟨i, l, e, hi, hl, hn, _, hv, hm⟩
        cases i with
        | nil =>
          simp only [List.nil_append, List.singleton_append, List.cons.injEq] at e
          rw [← e.1] at hl; omega
        | cons a i =>
          simp only [List.cons_append, List.cons.injEq] at e
          refine ⟨i, l, by simpa using e.2, fun x hx => hi x (by simp [hx]), hl, by simp at hn; omega,
            by omega, ?_, hm⟩
          rw [← e.1] at hv; simpa using hv

theorem base128_zero_iff (d : Bytes) (v : Nat) (r : Bytes) :
    base128 0 0 d = .ok (v, r) ↔ ∃ ds, d = ds ++ r ∧ Base128 ds v := by
  rw [base128_iff 0 0 (by omega)]
  constructor
  · rintro ⟨i, l, e, hi, hl, hn, h0, hv, hm⟩
    refine ⟨i ++ [l], e, ⟨i, l, rfl, hi, hl⟩, by simp; omega, ?_, hv, hm⟩
    have := h0 rfl
    rwa [e, List.head?_append_of_ne_nil _ (by simp)] at this
  · rintro ⟨ds, e, ⟨i, l, rfl, hi, hl⟩, hn, h0, hv, hm⟩
    refine ⟨i, l, e, hi, hl, by simp at hn; omega, ?_, hv, hm⟩
    intro _
    rwa [e, List.head?_append_of_ne_nil _ (by simp)]

theorem base128_ne_panic (sh acc : Nat) (d : Bytes) : base128 sh acc d ≠ .panic := by
  induction d generalizing sh acc with
  | nil => simp [base128]
  | cons b t ih =>
    rw [base128]
    split
    · simp
    split
    · simp
    dsimp only
    split
    · split <;> simp
    · exact ih _ _

/-! ## Lengths -/

theorem longLength_iff (k acc : Nat) (d : Bytes) (n : Nat) (r : Bytes) (hacc : 0 < acc) :
    longLength k acc d = .ok (n, r) ↔
      ∃ ds, d = ds ++ r ∧ ds.length = k ∧ n = acc * 256 ^ k + beNat ds ∧ (k = 0 ∨ n < 2 ^ 31) := by
  induction k generalizing acc d with
  | zero =>
    rw [longLength]
    simp only [Res.ok.injEq, Prod.mk.injEq]
    constructor
    · rintro ⟨rfl, rfl⟩; exact ⟨[], rfl, rfl, by simp, Or.inl trivial⟩
    · rintro ⟨ds, e, h0, hn, _⟩
      have := List.length_eq_zero_iff.mp h0
      subst this
      simp at hn e
      exact ⟨hn.symm, e⟩
  | succ k ih =>
    cases d with
    | nil =>
      rw [longLength]
      constructor
      · intro h; simp at h
      · rintro ⟨ds, e, hl, _⟩
        have : ds = [] := (List.append_eq_nil_iff.mp e.symm).1
        rw [this] at hl; simp at hl
    | cons b t =>
      rw [longLength]
      have hb := b.toNat_lt
      split
      · rename_i hbig
        constructor
        · intro h; simp at h
        · rintro ⟨ds, e, hl, hn, hlt⟩
          have : 2 ^ 23 * 256 ≤ acc * 256 ^ (k + 1) := by
            rw [Nat.pow_succ 256 k, ← Nat.mul_assoc acc]
            apply Nat.mul_le_mul_right
            exact Nat.le_trans hbig (Nat.le_mul_of_pos_right _ (Nat.pow_pos (by omega)))
          omega
      rename_i hsm
      dsimp only
      rw [if_neg (by omega), ih _ _ (by omega)]
      constructor
      · rintro ⟨ds, rfl, hl, hn, hlt⟩
        refine ⟨b :: ds, rfl, by simp [hl], ?_, .inr ?_⟩
        · rw [hn, beNat_cons, hl, Nat.pow_succ, Nat.add_mul, Nat.mul_assoc, Nat.mul_comm 256]; omega
        · rcases hlt with rfl | h
          · have := List.length_eq_zero_iff.mp hl
            subst this
            simp at hn; omega
          · exact h
      · rintro ⟨ds, e, hl, hn, hlt⟩
        cases ds with
        | nil => simp at hl
        | cons a ds =>
          simp only [List.cons_append, List.cons.injEq] at e
          obtain ⟨rfl, rfl⟩ := e
          simp only [List.length_cons, Nat.add_right_cancel_iff] at hl
          refine ⟨ds, rfl, hl, ?_, .inr (by omega)⟩
          rw [hn, beNat_cons, hl, Nat.pow_succ, Nat.add_mul, Nat.mul_assoc, Nat.mul_comm 256]; omega

theorem longLength_ne_panic (k acc : Nat) (d : Bytes) : longLength k acc d ≠ .panic := by
  induction k generalizing acc d with
  | zero => simp [longLength]
  | succ k ih =>
    cases d with
    | nil => simp [longLength]
    | cons b t =>
      rw [longLength]
      split
      · simp
      dsimp only
      split
      · simp
      · exact ih _ _

theorem derLength_iff (d : Bytes) (n : Nat) (r : Bytes) :
    derLength d = .ok (n, r) ↔ ∃ l, d = l ++ r ∧ LengthOctets l n := by
  cases d with
  | nil =>
    rw [derLength]
    constructor
    · intro h; simp at h
    · rintro ⟨l, e, h⟩
      have : l = [] := (List.append_eq_nil_iff.mp e.symm).1
      subst this
      rcases h with ⟨b, h, _⟩ | ⟨c, ds, h, _⟩ <;> simp at h
  | cons b t =>
    rw [derLength]
    split
    · rename_i hb
      simp only [Res.ok.injEq, Prod.mk.injEq]
      constructor
      · rintro ⟨rfl, rfl⟩; exact ⟨[b], rfl, .inl ⟨b, rfl, hb, rfl⟩⟩
      · rintro ⟨l, e, ⟨c, rfl, hc, rfl⟩ | ⟨c, ds, rfl, hc, _⟩⟩
        · simp only [List.singleton_append, List.cons.injEq] at e
          exact ⟨by rw [e.1], e.2⟩
        · simp only [List.cons_append, List.cons.injEq] at e
          rw [← e.1] at hc; omega
    rename_i hb
    split
    · rename_i h0
      constructor
      · intro h; simp at h
      · rintro ⟨l, e, ⟨c, rfl, hc, rfl⟩ | ⟨c, ds, rfl, hc, hne, _⟩⟩
        · simp only [List.singleton_append, List.cons.injEq] at e
          rw [← e.1] at hc; omega
        · simp only [List.cons_append, List.cons.injEq] at e
          rw [← e.1] at hc
          have := b.toNat_lt
          have := List.length_pos_iff.mpr hne
          omega
    rename_i h0
    have hb256 := b.toNat_lt
    -- the first digit must be nonzero
    have hlong : ∀ m s, longLength (b.toNat % 128) 0 t = .ok (m, s) ↔
        ∃ ds, t = ds ++ s ∧ ds.length = b.toNat % 128 ∧ ds.head? ≠ some 0 ∧ m = beNat ds ∧ m < 2 ^ 31 := by
      intro m s
      obtain ⟨k, hk⟩ : ∃ k, b.toNat % 128 = k + 1 := ⟨b.toNat % 128 - 1, by omega⟩
      rw [hk]
      cases t with
      | nil =>
        rw [longLength]
        constructor
        · intro h; simp at h
        · rintro ⟨ds, e, hl, _⟩
          have : ds = [] := (List.append_eq_nil_iff.mp e.symm).1
          rw [this] at hl; simp at hl
      | cons a t =>
        rw [longLength, if_neg (by omega)]
        dsimp only
        split
        · rename_i ha
          constructor
          · intro h; simp at h
          · rintro ⟨ds, e, hl, hh, _⟩
            cases ds with
            | nil => simp at hl
            | cons c ds =>
              simp only [List.cons_append, List.cons.injEq] at e
              have : c = 0 := UInt8.toNat_inj.mp (by rw [← e.1]; simpa using ha)
              rw [this] at hh
              exact absurd rfl hh
        rename_i ha
        rw [longLength_iff _ _ _ _ _ (by omega)]
        have ha256 := a.toNat_lt
        constructor
        · rintro ⟨ds, rfl, hl, hn, hlt⟩
          refine ⟨a :: ds, rfl, by simp [hl], ?_, ?_, ?_⟩
          · intro h
            simp only [List.head?_cons, Option.some.injEq] at h
            rw [h] at ha; exact ha (by rfl)
          · rw [hn, beNat_cons, hl]; simp
          · rcases hlt with rfl | h
            · have := List.length_eq_zero_iff.mp hl
              subst this
              simp at hn; omega
            · exact h
        · rintro ⟨ds, e, hl, hh, hn, hlt⟩
          cases ds with
          | nil => simp at hl
          | cons c ds =>
            simp only [List.cons_append, List.cons.injEq] at e
            obtain ⟨rfl, rfl⟩ := e
            simp only [List.length_cons, Nat.add_right_cancel_iff] at hl
            refine ⟨ds, rfl, hl, ?_, .inr hlt⟩
            rw [hn, beNat_cons, hl]; simp
    simp only [bind_eq_ok, Res.pure_eq, guard_eq_ok, Prod.exists]
    constructor
    · rintro ⟨m, s, hm, hge, h⟩
      simp only [Res.ok.injEq, Prod.mk.injEq] at h
      obtain ⟨rfl, rfl⟩ := h
      obtain ⟨ds, rfl, hl, hh, hv, hlt⟩ := (hlong _ _).mp hm
      refine ⟨b :: ds, rfl, .inr ⟨b, ds, rfl, by omega, ?_, hh, hv.symm, by omega, hlt⟩⟩
      intro e; rw [e] at hl; simp at hl; omega
    · rintro ⟨l, e, ⟨c, rfl, hc, rfl⟩ | ⟨c, ds, rfl, hc, hne, hh, hv, hge, hlt⟩⟩
      · simp only [List.singleton_append, List.cons.injEq] at e
        rw [← e.1] at hc; omega
      · simp only [List.cons_append, List.cons.injEq] at e
        obtain ⟨rfl, rfl⟩ := e
        have := List.length_pos_iff.mpr hne
        exact ⟨n, r, (hlong _ _).mpr ⟨ds, rfl, by omega, hh, hv.symm, hlt⟩, by omega, rfl⟩

theorem derLength_ne_panic (d : Bytes) : derLength d ≠ .panic := by
  cases d with
  | nil => simp [derLength]
  | cons b t =>
    rw [derLength]
    split
    · simp
    split
    · simp
    apply Res.bind_ne_panic (longLength_ne_panic _ _ _)
    rintro ⟨n, r⟩
    dsimp only
    split <;> simp

/-! ## Tags and items -/

/-- What `tagAndLength` reads, with the class, form and tag it reports. -/
theorem tagAndLength_iff (d : Bytes) (t : TagLen) (r : Bytes) :
    tagAndLength d = .ok (t, r) ↔
      ∃ b ds l, d = b :: ds ++ l ++ r ∧ LengthOctets l t.length ∧ t.cls = b.toNat / 64 ∧
        t.compound = (b.toNat / 32 % 2 == 1) ∧
        ((b.toNat % 32 ≠ 31 ∧ ds = [] ∧ t.tag = b.toNat % 32) ∨
         (b.toNat % 32 = 31 ∧ Base128 ds t.tag ∧ 31 ≤ t.tag)) := by
  cases d with
  | nil => simp [tagAndLength]
  | cons b rest =>
    rw [tagAndLength, derTag]
    split
    · rename_i h31
      simp only [bind_eq_ok, Res.pure_eq, guard_eq_ok, Prod.exists, Res.ok.injEq, Prod.mk.injEq,
        base128_zero_iff, derLength_iff]
      constructor
      · rintro ⟨tag, r1, ⟨v, r2, ⟨ds, rfl, hds⟩, hge, rfl, rfl⟩, len, r3, ⟨l, rfl, hl⟩, rfl, rfl⟩
        exact ⟨b, ds, l, by simp, hl, rfl, rfl, .inr ⟨h31, hds, by show 31 ≤ v; omega⟩⟩
      · rintro ⟨b', ds, l, e, hl, h1, h2, ⟨h3, h4, h5⟩ | ⟨h3, h4, h5⟩⟩
        · simp only [List.cons_append, List.cons.injEq] at e
          rw [← e.1] at h3; exact absurd h31 h3
        · simp only [List.cons_append, List.cons.injEq] at e
          obtain ⟨rfl, rfl⟩ := e
          refine ⟨t.tag, l ++ r, ⟨t.tag, l ++ r, ⟨ds, by simp, h4⟩, by omega, rfl, rfl⟩, t.length, r,
            ⟨l, rfl, hl⟩, ?_, rfl⟩
          rw [← h1, ← h2]
    · rename_i h31
      simp only [bind_eq_ok, Res.pure_eq, Prod.exists, Res.ok.injEq, Prod.mk.injEq, derLength_iff]
      constructor
      · rintro ⟨tag, r1, ⟨rfl, rfl⟩, len, r3, ⟨l, rfl, hl⟩, rfl, rfl⟩
        exact ⟨b, [], l, by simp, hl, rfl, rfl, .inl ⟨h31, rfl, rfl⟩⟩
      · rintro ⟨b', ds, l, e, hl, h1, h2, ⟨h3, rfl, h5⟩ | ⟨h3, h4, h5⟩⟩
        · simp only [List.cons_append, List.nil_append, List.cons.injEq] at e
          obtain ⟨rfl, rfl⟩ := e
          refine ⟨t.tag, l ++ r, ⟨h5.symm, rfl⟩, t.length, r, ⟨l, rfl, hl⟩, ?_, rfl⟩
          rw [← h1, ← h2]
        · simp only [List.cons_append, List.cons.injEq] at e
          rw [← e.1] at h3; exact absurd h3 h31

theorem tagAndLength_ne_panic (d : Bytes) : tagAndLength d ≠ .panic := by
  cases d with
  | nil => simp [tagAndLength]
  | cons b rest =>
    rw [tagAndLength]
    apply Res.bind_ne_panic
    · unfold derTag
      split
      · apply Res.bind_ne_panic (base128_ne_panic _ _ _)
        rintro ⟨t, r⟩
        dsimp only
        split <;> simp
      · simp
    · rintro ⟨t, r⟩
      apply Res.bind_ne_panic (derLength_ne_panic _)
      rintro ⟨t, r⟩
      simp

/-- `asn1.Unmarshal` into a RawValue accepts exactly the inputs that begin with a DER item. -/
theorem asn1Raw_iff (d : Bytes) (v : RawValue) (r : Bytes) :
    asn1Raw d = .ok (v, r) ↔ d = v.full ++ r ∧ Item v.full v.bytes := by
  unfold asn1Raw
  simp only [bind_eq_ok, Res.pure_eq, guard_eq_ok, Prod.exists, Res.ok.injEq, Prod.mk.injEq,
    tagAndLength_iff]
  constructor
  · rintro ⟨t, r1, ⟨b, ds, l, rfl, hl, _, _, htag⟩, hlen, rfl, rfl⟩
    have hlen' : t.length ≤ r1.length := by omega
    have h1 : (b :: ds ++ l ++ r1).length - r1.length + t.length = (b :: ds ++ l).length + t.length := by
      simp only [List.length_append]; omega
    have h2 : (b :: ds ++ l ++ r1).take ((b :: ds ++ l ++ r1).length - r1.length + t.length) =
        b :: ds ++ l ++ r1.take t.length := by
      rw [h1, List.take_append]
      simp [List.take_of_length_le]
    dsimp only
    rw [h2]
    refine ⟨by simp, b :: ds, l, rfl, ?_, ?_⟩
    · rcases htag with ⟨h3, rfl, _⟩ | ⟨h3, h4, h5⟩
      · exact .inl ⟨b, rfl, h3⟩
      · exact .inr ⟨b, ds, _, rfl, h3, h4, h5⟩
    · rw [List.length_take, Nat.min_eq_left hlen']; exact hl
  · rintro ⟨rfl, i, l, hv, hi, hl⟩
    obtain ⟨b, ds, tag, rfl, htag⟩ : ∃ b ds tag, i = b :: ds ∧
        ((b.toNat % 32 ≠ 31 ∧ ds = [] ∧ tag = b.toNat % 32) ∨ (b.toNat % 32 = 31 ∧ Base128 ds tag ∧ 31 ≤ tag)) := by
      rcases hi with ⟨b, rfl, hb⟩ | ⟨b, ds, t, rfl, h⟩
      · exact ⟨b, [], _, rfl, .inl ⟨hb, rfl, rfl⟩⟩
      · exact ⟨b, ds, t, rfl, .inr h⟩
    refine ⟨⟨b.toNat / 64, b.toNat / 32 % 2 == 1, tag, v.bytes.length⟩, v.bytes ++ r,
      ⟨b, ds, l, by rw [hv]; simp, hl, rfl, rfl, htag⟩, by simp, ?_, by simp⟩
    cases v with
    | mk vb vf =>
      simp only at hv ⊢
      subst hv
      simp only [RawValue.mk.injEq]
      refine ⟨by simp, ?_⟩
      have : (b :: ds ++ l ++ vb ++ r).length - (vb ++ r).length + vb.length = (b :: ds ++ l ++ vb).length := by
        simp only [List.length_append]; omega
      rw [this, List.take_left]

theorem asn1Raw_ne_panic (d : Bytes) : asn1Raw d ≠ .panic := by
  unfold asn1Raw
  apply Res.bind_ne_panic (tagAndLength_ne_panic _)
  rintro ⟨t, r⟩
  dsimp only
  split <;> simp

/-! ## Object identifiers -/

theorem oidRest_iff (d : Bytes) (vs : List Nat) :
    oidRest d = .ok vs ↔ ∃ rest : List (Bytes × Nat), d = (rest.map Prod.fst).flatten ∧
      (∀ p ∈ rest, Base128 p.1 p.2) ∧ vs = rest.map Prod.snd := by
  induction hn : d.length using Nat.strongRecOn generalizing d vs with
  | _ n ih =>
  have hne : ∀ ds v, Base128 ds v → ds ≠ [] := by
    rintro ds v ⟨⟨i, l, rfl, _⟩, _⟩; simp
  cases d with
  | nil =>
    rw [oidRest]
    constructor
    · rintro ⟨⟩; exact ⟨[], rfl, by simp, rfl⟩
    · rintro ⟨rest, e, h, rfl⟩
      cases rest with
      | nil => rfl
      | cons p rest =>
        simp only [List.map_cons, List.flatten_cons] at e
        exact absurd (List.append_eq_nil_iff.mp e.symm).1 (hne _ _ (h p (by simp)))
  | cons b t =>
    rw [oidRest]
    split
    · rename_i v r h
      obtain ⟨ds, e, hds⟩ := (base128_zero_iff _ _ _).mp h
      have hlt : r.length < n := by
        have := base128_shorter h
        omega
      simp only [bind_eq_ok, Res.pure_eq, Res.ok.injEq]
      constructor
      · rintro ⟨vs', hvs, rfl⟩
        obtain ⟨rest, e', h', rfl⟩ := (ih _ hlt r vs' rfl).mp hvs
        refine ⟨(ds, v) :: rest, by rw [e, e']; simp, ?_, rfl⟩
        intro p hp
        rcases List.mem_cons.mp hp with rfl | hp
        · exact hds
        · exact h' p hp
      · rintro ⟨rest, e', h', rfl⟩
        cases rest with
        | nil => simp at e'
        | cons p rest =>
          have hp := h' p (by simp)
          have h2 : base128 0 0 (b :: t) = .ok (p.2, (rest.map Prod.fst).flatten) :=
            (base128_zero_iff _ _ _).mpr ⟨p.1, by rw [e']; simp, hp⟩
          rw [h] at h2
          simp only [Res.ok.injEq, Prod.mk.injEq] at h2
          refine ⟨rest.map Prod.snd, (ih _ hlt r _ rfl).mpr ⟨rest, h2.2, fun q hq => h' q (by simp [hq]), rfl⟩, ?_⟩
          rw [h2.1]; rfl
    · rename_i m h
      constructor
      · intro h; simp at h
      · rintro ⟨rest, e', h', rfl⟩
        cases rest with
        | nil => simp at e'
        | cons p rest =>
          have h2 : base128 0 0 (b :: t) = .ok (p.2, (rest.map Prod.fst).flatten) :=
            (base128_zero_iff _ _ _).mpr ⟨p.1, by rw [e']; simp, h' p (by simp)⟩
          rw [h] at h2; simp at h2
    · rename_i h
      exact absurd h (base128_ne_panic _ _ _)

theorem oidRest_ne_panic (d : Bytes) : oidRest d ≠ .panic := by
  induction hn : d.length using Nat.strongRecOn generalizing d with
  | _ n ih =>
  cases d with
  | nil => rw [oidRest]; simp
  | cons b t =>
    rw [oidRest]
    split
    · rename_i v r h
      have := base128_shorter h
      exact Res.bind_ne_panic (ih _ (by omega) r rfl) (by simp)
    · simp
    · rename_i h
      exact absurd h (base128_ne_panic _ _ _)

theorem parseOid_iff (d : Bytes) (ids : List Nat) : parseOid d = .ok ids ↔ OidOctets d ids := by
  unfold parseOid
  simp only [bind_eq_ok, Res.pure_eq, guard_eq_ok, Prod.exists, Res.ok.injEq, base128_zero_iff, oidRest_iff]
  constructor
  · rintro ⟨_, v, r, ⟨ds, rfl, hds⟩, vs, ⟨rest, rfl, h, rfl⟩, rfl⟩
    refine ⟨ds, v, rest, rfl, hds, h, ?_⟩
    split <;> simp
  · rintro ⟨ds, v, rest, rfl, hds, h, rfl⟩
    refine ⟨?_, v, _, ⟨ds, rfl, hds⟩, _, ⟨rest, rfl, h, rfl⟩, ?_⟩
    · obtain ⟨⟨i, l, rfl, _⟩, _⟩ := hds; simp
    · split <;> simp

theorem parseOid_ne_panic (d : Bytes) : parseOid d ≠ .panic := by
  unfold parseOid
  split
  · simp
  apply Res.bind_ne_panic (base128_ne_panic _ _ _)
  rintro ⟨v, r⟩
  exact Res.bind_ne_panic (oidRest_ne_panic _) (by simp)

/-- `asn1.Unmarshal` into an ObjectIdentifier: one identifier byte (primitive, tag 6, of the class). -/
theorem asn1Oid_iff (cls : Nat) (d : Bytes) (ids : List Nat) (r : Bytes) :
    asn1Oid cls d = .ok (ids, r) ↔ ∃ b l content, d = b :: l ++ content ++ r ∧ b.toNat = cls * 64 + 6 ∧
      LengthOctets l content.length ∧ OidOctets content ids := by
  unfold asn1Oid
  simp only [bind_eq_ok, Res.pure_eq, guard_eq_ok, Prod.exists, Res.ok.injEq, Prod.mk.injEq,
    tagAndLength_iff, parseOid_iff, Classical.not_not]
  constructor
  · rintro ⟨t, r1, ⟨b, ds, l, rfl, hl, hc, hcomp, htag⟩, ⟨h1, h2, h3⟩, hlen, ids', hoid, rfl, rfl⟩
    rcases htag with ⟨h4, rfl, h5⟩ | ⟨h4, h5, h6⟩
    · refine ⟨b, l, r1.take t.length, by simp, ?_, ?_, hoid⟩
      · rw [h3] at hcomp
        have : ¬ b.toNat / 32 % 2 = 1 := by
          intro h; rw [h] at hcomp; simp at hcomp
        omega
      · rw [List.length_take, Nat.min_eq_left (by omega)]; exact hl
    · omega
  · rintro ⟨b, l, content, rfl, hb, hl, hoid⟩
    refine ⟨⟨cls, false, 6, content.length⟩, content ++ r,
      ⟨b, [], l, by simp, hl, by simp; omega, ?_, .inl ⟨by omega, rfl, by simp; omega⟩⟩, ⟨rfl, rfl, rfl⟩,
      by simp, ids, by simpa using hoid, rfl, by simp⟩
    have : b.toNat / 32 % 2 = 0 := by omega
    simp [this]

theorem asn1Oid_ne_panic (cls : Nat) (d : Bytes) : asn1Oid cls d ≠ .panic := by
  unfold asn1Oid
  apply Res.bind_ne_panic (tagAndLength_ne_panic _)
  rintro ⟨t, r⟩
  dsimp only
  split
  · simp
  split
  · simp
  exact Res.bind_ne_panic (parseOid_ne_panic _) (by simp)

/-! ## Dotted notation -/

theorem oidString_spec (ids : List Nat) : IsDotted (oidString ids) ids := by
  refine ⟨ids.map decimal, ?_, ?_⟩
  · rw [List.forall₂_map_left_iff]
    exact List.forall₂_same.mpr fun n _ => decimal_spec n
  · induction ids with
    | nil => rfl
    | cons a t ih =>
      cases t with
      | nil => simp [oidString, List.intercalate, List.intersperse]
      | cons b t =>
        rw [oidString, ih]
        · simp [List.intercalate, List.intersperse]
        · simp

/-- A prefix without dots followed by a dot (or the end) is determined by the whole. -/
theorem dot_split {a b s t : Bytes} (ha : ∀ x ∈ a, x ≠ 0x2E) (hb : ∀ x ∈ b, x ≠ 0x2E)
    (hs : s = [] ∨ s.head? = some 0x2E) (ht : t = [] ∨ t.head? = some 0x2E) (h : a ++ s = b ++ t) :
    a = b ∧ s = t := by
  induction a generalizing b with
  | nil =>
    cases b with
    | nil => exact ⟨rfl, h⟩
    | cons y b =>
      rw [List.nil_append] at h
      rcases hs with rfl | hs
      · simp at h
      · rw [h] at hs; simp only [List.cons_append, List.head?_cons, Option.some.injEq] at hs
        exact absurd hs (hb y (by simp))
  | cons x a ih =>
    cases b with
    | nil =>
      rw [List.nil_append] at h
      rcases ht with rfl | ht
      · simp at h
      · rw [← h] at ht; simp only [List.cons_append, List.head?_cons, Option.some.injEq] at ht
        exact absurd ht (ha x (by simp))
    | cons y b =>
      simp only [List.cons_append, List.cons.injEq] at h
      obtain ⟨h1, h2⟩ := ih (fun z hz => ha z (by simp [hz])) (fun z hz => hb z (by simp [hz])) h.2
      exact ⟨by rw [h.1, h1], h2⟩

theorem decimal_no_dot (n : Nat) : ∀ x ∈ decimal n, x ≠ 0x2E := by
  intro x hx e
  have := (decimal_spec n).2.1 x hx
  rw [e] at this
  simp at this

theorem oidString_cons (a : Nat) (t : List Nat) :
    ∃ s, oidString (a :: t) = decimal a ++ s ∧ (s = [] ∨ s.head? = some 0x2E) ∧ (s = [] ↔ t = []) ∧
      (t ≠ [] → s = 0x2E :: oidString t) := by
  cases t with
  | nil => exact ⟨[], by simp [oidString], .inl rfl, by simp, by simp⟩
  | cons b t => exact ⟨0x2E :: oidString (b :: t), by rw [oidString]; simp, .inr rfl, by simp, by simp⟩

theorem oidString_inj {a b : List Nat} (h : oidString a = oidString b) : a = b := by
  have hne : ∀ (x : Nat) (t : List Nat), oidString (x :: t) ≠ [] := by
    intro x t e
    obtain ⟨s, hs, _⟩ := oidString_cons x t
    rw [hs] at e
    exact decimal_ne_nil x (List.append_eq_nil_iff.mp e).1
  induction a generalizing b with
  | nil =>
    cases b with
    | nil => rfl
    | cons y b => exact absurd h.symm (hne y b)
  | cons x a ih =>
    cases b with
    | nil => exact absurd h (hne x a)
    | cons y b =>
      obtain ⟨s, hs, s1, s2, s3⟩ := oidString_cons x a
      obtain ⟨t, ht, t1, t2, t3⟩ := oidString_cons y b
      rw [hs, ht] at h
      obtain ⟨h1, h2⟩ := dot_split (decimal_no_dot x) (decimal_no_dot y) s1 t1 h
      have hx := decimal_inj h1
      by_cases he : a = []
      · have : b = [] := t2.mp (h2 ▸ s2.mpr he)
        rw [hx, he, this]
      · have hb : b ≠ [] := fun e => he (s2.mp (h2 ▸ t2.mpr e))
        have h3 := s3 he
        have h4 := t3 hb
        rw [h2, h4] at h3
        simp only [List.cons.injEq, true_and] at h3
        rw [hx, ih h3.symm]

theorem isDotted_iff {s : Bytes} {ids : List Nat} : IsDotted s ids ↔ s = oidString ids := by
  constructor
  · rintro ⟨parts, h, rfl⟩
    obtain ⟨parts', h', e⟩ := oidString_spec ids
    have : parts = parts' := by
      clear e
      induction h generalizing parts' with
      | nil => cases h'; rfl
      | cons hx _ ih =>
        cases h' with
        | cons hy ht => rw [isDecimal_unique hx hy, ih _ ht]
    rw [e, this]
  · rintro rfl; exact oidString_spec ids

end Tacho
