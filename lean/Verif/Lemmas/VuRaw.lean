import Verif.Spec.VuLayout
import Verif.Lemmas.NoPanic
import Verif.Lemmas.RawCard
/-!
# The sizeOf functions as a walk over the pieces of a layout
-/

namespace Tacho

open Spec

/-- One step of a sizeOf function, for any piece. -/
def sizeStep (data : Bytes) (offset : Nat) : Piece → Res Nat
  | .fixed n => .ok (offset + n)
  | .counted k size => do
    let rest ← from? data offset
    if rest.length < k then .err ""
    let n := beNat (← sl? data offset (offset + k))
    return offset + k + n * size
  | .array => do
    let size ← sizeOfRecordArray data offset
    return offset + size

/-- All the steps. -/
def sizeWalk (data : Bytes) : List Piece → Nat → Res Nat
  | [], offset => .ok offset
  | p :: ps, offset => sizeStep data offset p >>= sizeWalk data ps

/-- Equality up to the text of errors. -/
def Same {α : Type} (a b : Res α) : Prop :=
  (∀ x, a = .ok x ↔ b = .ok x) ∧ (a = .panic ↔ b = .panic)

theorem Same.refl {α : Type} (a : Res α) : Same a a := ⟨fun _ => Iff.rfl, Iff.rfl⟩

theorem same_of_eq {α : Type} {a b : Res α} (h : a = b) : Same a b := h ▸ Same.refl _

theorem Same.bind {α β : Type} {a b : Res α} {f g : α → Res β} (h : Same a b)
    (hf : ∀ x, Same (f x) (g x)) : Same (a >>= f) (b >>= g) := by
  cases a with
  | ok x =>
    have := (h.1 x).1 rfl
    subst this
    exact hf x
  | err m =>
    cases b with
    | ok y => exact absurd ((h.1 y).2 rfl) (by simp)
    | err m' => simp [Same]
    | panic => exact absurd (h.2.2 rfl) (by simp)
  | panic =>
    have := h.2.1 rfl
    subst this
    simp [Same]

theorem same_counted (data : Bytes) (offset k size : Nat) (m : String) :
    Same (sizeCounted data offset k size m) (sizeStep data offset (.counted k size)) := by
  unfold sizeCounted sizeStep
  refine Same.bind (Same.refl _) fun rest => ?_
  by_cases h : rest.length < k
  · simp [h, Same]
  · simp only [if_neg h]; exact Same.refl _

theorem walkArrays_eq (data : Bytes) (names : List String) (offset : Nat) :
    walkArrays data names offset = sizeWalk data (List.replicate names.length .array) offset := by
  induction names generalizing offset with
  | nil => rfl
  | cons n ns ih =>
    simp only [walkArrays, List.length_cons, List.replicate_succ, sizeWalk, sizeStep]
    cases h : sizeOfRecordArray data offset <;> simp [h, ih]

theorem size_walk (data : Bytes) (t : TransferType) (ht : t ≠ .cardDownload) :
    Same (sizeOfTransferValue data t) (if t = .downloadInterfaceVersion ∧ data.length < 2
      then .err "" else sizeWalk data (layout t) 0) := by
  have hc : ∀ {o k s m} {f g : Nat → Res Nat}, (∀ x, Same (f x) (g x)) →
      Same (sizeCounted data o k s m >>= f) (sizeStep data o (.counted k s) >>= g) :=
    fun h => Same.bind (same_counted ..) h
  have hend : ∀ x, Same (Res.ok (x + 128) : Res Nat) (sizeWalk data [.fixed 128] x) := fun x => by
    simp [sizeWalk, sizeStep, Same]
  cases t with
  | downloadInterfaceVersion =>
    by_cases h : data.length < 2 <;>
      simp [sizeOfTransferValue, sizeOfDownloadInterfaceVersion, layout, sizeWalk, sizeStep, h, Same]
  | cardDownload => exact absurd rfl ht
  | overviewGen1 =>
    exact hc fun _ => hc hend
  | activitiesGen1 =>
    exact hc fun _ => hc fun _ => hc fun _ => hc hend
  | eventsGen1 =>
    exact hc fun _ => hc fun x => (hc fun _ => hc hend)
  | speedGen1 => exact hc hend
  | technicalGen1 => exact hc hend
  | _ => exact same_of_eq (walkArrays_eq data _ 0)

/-! ## The walk and the announced size -/

theorem announced_lt {t : TransferType} {p : Piece} (h : p ∈ layout t) :
    ∀ w s, p = .counted w s → 0 < w := by
  intro w s hp
  subst hp
  cases t <;> simp [layout] at h <;> omega

/-- Every count takes at least one byte. -/
def Proper (ps : List Piece) : Prop := ∀ w s, Piece.counted w s ∈ ps → 0 < w

theorem proper_layout (t : TransferType) : Proper (layout t) :=
  fun w s h => announced_lt h w s rfl

/-- Where the next piece begins. -/
def stepSize : Piece → Bytes → Nat
  | .fixed n, _ => n
  | .counted width size, b => width + beNat (b.take width) * size
  | .array, b => 5 + beNat ((b.take 3).drop 1) * beNat ((b.take 5).drop 3)

/-- The bytes of the header of a piece. -/
def headSize : Piece → Nat
  | .fixed _ => 0
  | .counted width _ => width
  | .array => 5

theorem announced_cons (p : Piece) (ps : List Piece) (b : Bytes) :
    announced (p :: ps) b = if b.length < headSize p then none
      else (announced ps (b.drop (stepSize p b))).map (stepSize p b + ·) := by
  cases p <;> first | rfl | simp [announced, headSize, stepSize]

theorem sizeStep_panic {data : Bytes} {offset : Nat} {p : Piece} (hp : ∀ k, p ≠ .fixed k)
    (h : data.length < offset) : sizeStep data offset p = .panic := by
  cases p with
  | fixed k => exact absurd rfl (hp k)
  | counted k s => simp [sizeStep, from?, Nat.not_le.2 h]
  | array => simp [sizeStep, sizeOfRecordArray, from?, Nat.not_le.2 h]

theorem sizeStep_err {data : Bytes} {offset : Nat} {p : Piece} (hp : ∀ k, p ≠ .fixed k)
    (h1 : offset ≤ data.length) (h2 : (data.drop offset).length < headSize p) :
    ∃ m, sizeStep data offset p = .err m := by
  simp only [List.length_drop] at h2
  cases p with
  | fixed k => exact absurd rfl (hp k)
  | counted k s =>
    simp only [headSize] at h2
    exact ⟨"", by simp [sizeStep, from?, h1, h2]⟩
  | array =>
    simp only [headSize] at h2
    exact ⟨_, by simp [sizeStep, sizeOfRecordArray, from?, h1, h2]; rfl⟩

theorem sizeStep_ok {data : Bytes} {offset : Nat} {p : Piece}
    (h1 : (∃ k, p = .fixed k) ∨ offset ≤ data.length) (h2 : ¬ (data.drop offset).length < headSize p) :
    sizeStep data offset p = .ok (offset + stepSize p (data.drop offset)) := by
  simp only [List.length_drop] at h2
  cases p with
  | fixed k => rfl
  | counted k s =>
    have h1 : offset ≤ data.length := by simpa using h1
    simp only [headSize] at h2
    simp only [sizeStep, from?, h1, if_true, Res.bind_ok, List.length_drop, h2, if_false]
    rw [sl?_ok (by omega) (by omega)]
    simp only [Res.bind_ok, Res.pure_eq, stepSize, sl, Res.ok.injEq]
    rw [List.drop_take]
    simp only [Nat.add_sub_cancel_left]
    omega
  | array =>
    have h1 : offset ≤ data.length := by simpa using h1
    simp only [headSize] at h2
    simp only [sizeStep, sizeOfRecordArray, from?, h1, if_true, Res.bind_ok, List.length_drop, h2, if_false]
    rw [sl?_ok (by omega) (by omega), sl?_ok (by omega) (by omega)]
    simp only [Res.bind_ok, Res.pure_eq, stepSize, sl, Res.ok.injEq]
    simp only [List.drop_take, List.drop_drop]
    rw [show offset + 3 - (offset + 1) = 2 by omega, show offset + 5 - (offset + 3) = 2 by omega]

theorem fixed_or (p : Piece) : (∃ k, p = .fixed k) ∨ ∀ k, p ≠ .fixed k := by
  cases p <;> simp

theorem Proper.head {p : Piece} {ps : List Piece} (h : Proper (p :: ps)) (hp : ∀ k, p ≠ .fixed k) :
    0 < headSize p := by
  cases p with
  | fixed k => exact absurd rfl (hp k)
  | counted w s => exact h w s (by simp)
  | array => simp [headSize]

theorem Proper.tail {p : Piece} {ps : List Piece} (h : Proper (p :: ps)) : Proper ps :=
  fun w s hm => h w s (by simp [hm])

theorem sizeWalk_ok {data : Bytes} {ps : List Piece} (hps : Proper ps) (offset m : Nat) :
    sizeWalk data ps offset = .ok m ↔
      ∃ n, announced ps (data.drop offset) = some n ∧ m = offset + n := by
  induction ps generalizing offset with
  | nil => simp [sizeWalk, announced, eq_comm]
  | cons p ps ih =>
    rw [announced_cons]
    simp only [sizeWalk]
    have key : ¬ (data.drop offset).length < headSize p →
        ((∃ k, p = .fixed k) ∨ offset ≤ data.length) := by
      intro h2
      rcases fixed_or p with h | h
      · exact .inl h
      · have := hps.head h
        simp only [List.length_drop] at h2
        exact .inr (by omega)
    by_cases h2 : (data.drop offset).length < headSize p
    · rw [if_pos h2]
      rcases fixed_or p with ⟨k, rfl⟩ | h
      · simp [headSize] at h2
      · by_cases h1 : offset ≤ data.length
        · obtain ⟨m, hm⟩ := sizeStep_err h h1 h2
          simp [hm]
        · simp [sizeStep_panic h (Nat.lt_of_not_le h1)]
    · rw [if_neg h2, sizeStep_ok (key h2) h2, Res.bind_ok, ih hps.tail]
      simp only [List.drop_drop, Option.map_eq_some_iff]
      constructor
      · rintro ⟨n, hn, rfl⟩
        exact ⟨_, ⟨n, hn, rfl⟩, by omega⟩
      · rintro ⟨_, ⟨n, hn, rfl⟩, rfl⟩
        exact ⟨n, hn, by omega⟩

theorem sizeWalk_panic {data : Bytes} {ps : List Piece} (hps : Proper ps) (offset : Nat) :
    sizeWalk data ps offset = .panic ↔
      ∃ before p after n, ps = before ++ p :: after ∧ (∀ k, p ≠ .fixed k)
        ∧ announced before (data.drop offset) = some n ∧ data.length < offset + n := by
  induction ps generalizing offset with
  | nil => simp [sizeWalk]
  | cons p ps ih =>
    simp only [sizeWalk]
    by_cases h0 : (∀ k, p ≠ .fixed k) ∧ data.length < offset
    · rw [sizeStep_panic h0.1 h0.2]
      simp only [Res.bind_panic, true_iff]
      exact ⟨[], p, ps, 0, rfl, h0.1, rfl, by omega⟩
    · have key : (∃ k, p = .fixed k) ∨ offset ≤ data.length := by
        rcases fixed_or p with h | h
        · exact .inl h
        · exact .inr (Nat.le_of_not_lt fun hh => h0 ⟨h, hh⟩)
      by_cases h2 : (data.drop offset).length < headSize p
      · have hp : ∀ k, p ≠ .fixed k := by
          rintro k rfl; simp [headSize] at h2
        have h1 : offset ≤ data.length := Nat.le_of_not_lt fun hh => h0 ⟨hp, hh⟩
        obtain ⟨m, hm⟩ := sizeStep_err hp h1 h2
        simp only [hm, Res.bind_err, reduceCtorEq, false_iff]
        rintro ⟨before, q, after, n, hb, hq, ha, hn⟩
        cases before with
        | nil =>
          simp only [announced, Option.some.injEq] at ha
          omega
        | cons x xs =>
          simp only [List.cons_append, List.cons.injEq] at hb
          obtain ⟨rfl, _⟩ := hb
          rw [announced_cons, if_pos h2] at ha
          simp at ha
      · rw [sizeStep_ok key h2, Res.bind_ok, ih hps.tail]
        constructor
        · rintro ⟨before, q, after, n, rfl, hq, ha, hn⟩
          refine ⟨p :: before, q, after, stepSize p (data.drop offset) + n, rfl, hq, ?_, by omega⟩
          rw [announced_cons, if_neg h2, List.drop_drop, ha]
          rfl
        · rintro ⟨before, q, after, n, hb, hq, ha, hn⟩
          cases before with
          | nil =>
            simp only [List.nil_append, List.cons.injEq] at hb
            obtain ⟨rfl, _⟩ := hb
            simp only [announced, Option.some.injEq] at ha
            exact absurd ⟨hq, by omega⟩ h0
          | cons x xs =>
            simp only [List.cons_append, List.cons.injEq] at hb
            obtain ⟨rfl, rfl⟩ := hb
            rw [announced_cons, if_neg h2] at ha
            simp only [List.drop_drop, Option.map_eq_some_iff] at ha
            obtain ⟨n', hn', rfl⟩ := ha
            exact ⟨xs, q, after, n', rfl, hq, hn', by omega⟩

/-! ## The announced size and the layout -/

theorem fills_step {p : Piece} {x : Bytes} (h : p.Fills x) (y : Bytes) :
    stepSize p (x ++ y) = x.length ∧ headSize p ≤ x.length := by
  cases p with
  | fixed n => simp [Piece.Fills] at h; simp [stepSize, headSize, h]
  | counted w s =>
    obtain ⟨c, rs, hc, rfl, hr⟩ := h
    simp only [stepSize, headSize, List.length_append, beBytes_length, hr]
    rw [List.append_assoc, List.take_append_of_le_length (by simp), List.take_of_length_le (by simp),
      beNat_beBytes_of_lt hc]
    omega
  | array =>
    obtain ⟨t, s, c, rs, hs, hc, rfl, hr⟩ := h
    have e1 : ((([t] ++ beBytes 2 s ++ beBytes 2 c ++ rs ++ y).take 3).drop 1) = beBytes 2 s := rfl
    have e2 : ((([t] ++ beBytes 2 s ++ beBytes 2 c ++ rs ++ y).take 5).drop 3) = beBytes 2 c := rfl
    simp only [stepSize, headSize, e1, e2]
    rw [beNat_beBytes_of_lt hs, beNat_beBytes_of_lt hc]
    simp [hr]
    omega

theorem step_fills {p : Piece} {b : Bytes} (h1 : headSize p ≤ b.length) (h2 : stepSize p b ≤ b.length) :
    p.Fills (b.take (stepSize p b)) := by
  cases p with
  | fixed n => simp only [Piece.Fills, stepSize, List.length_take] at h2 ⊢; omega
  | counted w s =>
    simp only [stepSize, headSize] at h1 h2 ⊢
    have hl : (b.take w).length = w := by simp [h1]
    refine ⟨beNat (b.take w), (b.drop w).take (beNat (b.take w) * s), ?_, ?_, ?_⟩
    · have := beNat_lt (b.take w); rwa [hl] at this
    · rw [beBytes_beNat' hl, List.take_add]
    · simp; omega
  | array =>
    simp only [stepSize, headSize] at h1 h2 ⊢
    match b, h1 with
    | t :: a1 :: a2 :: b1 :: b2 :: r, _ =>
      have e1 : ((t :: a1 :: a2 :: b1 :: b2 :: r).take 3).drop 1 = [a1, a2] := rfl
      have e2 : ((t :: a1 :: a2 :: b1 :: b2 :: r).take 5).drop 3 = [b1, b2] := rfl
      rw [e1, e2] at h2 ⊢
      generalize hs : beNat [a1, a2] = s at h2 ⊢
      generalize hc : beNat [b1, b2] = c at h2 ⊢
      have h3 : beBytes 2 s = [a1, a2] := hs ▸ beBytes_beNat' rfl
      have h4 : beBytes 2 c = [b1, b2] := hc ▸ beBytes_beNat' rfl
      have h5 : s < 65536 := by
        have := beNat_lt [a1, a2]
        rw [hs] at this
        simpa using this
      have h6 : c < 65536 := by
        have := beNat_lt [b1, b2]
        rw [hc] at this
        simpa using this
      refine ⟨t, s, c, r.take (s * c), h5, h6, ?_, ?_⟩
      · rw [h3, h4, Nat.add_comm]
        rfl
      · simp at h2 ⊢; omega

theorem announced_of_fills {ps : List Piece} {v : Bytes} (h : Fills ps v) (rest : Bytes) :
    announced ps (v ++ rest) = some v.length := by
  induction ps generalizing v with
  | nil => simp only [Fills] at h; subst h; rfl
  | cons p ps ih =>
    obtain ⟨x, y, rfl, hx, hy⟩ := h
    have := fills_step hx (y ++ rest)
    rw [announced_cons, List.append_assoc, this.1, if_neg (by simp; omega), List.drop_left, ih hy]
    simp

theorem fills_of_announced {ps : List Piece} {b : Bytes} {n : Nat} (h : announced ps b = some n)
    (hn : n ≤ b.length) : Fills ps (b.take n) := by
  induction ps generalizing b n with
  | nil => simp only [announced, Option.some.injEq] at h; subst h; rfl
  | cons p ps ih =>
    rw [announced_cons] at h
    by_cases h2 : b.length < headSize p
    · simp [h2] at h
    · rw [if_neg h2] at h
      obtain ⟨m, hm, rfl⟩ := Option.map_eq_some_iff.1 h
      refine ⟨_, _, List.take_add, step_fills (by omega) (by omega), ih hm (by simp; omega)⟩

/-- The size pass, for the transfers made of pieces. -/
theorem sizeOf_ok {t : TransferType} (ht : t ≠ .cardDownload) (data : Bytes) (n : Nat)
    (hn : n ≤ data.length) :
    sizeOfTransferValue data t = .ok n ↔ Fills (layout t) (data.take n) := by
  rw [(size_walk data t ht).1 n]
  have : (sizeWalk data (layout t) 0 = .ok n) ↔ Fills (layout t) (data.take n) := by
    rw [sizeWalk_ok (proper_layout t)]
    simp only [List.drop_zero, Nat.zero_add, exists_eq_right']
    constructor
    · exact fun h => fills_of_announced h hn
    · intro h
      have := announced_of_fills h (data.drop n)
      rwa [List.take_append_drop, List.length_take, Nat.min_eq_left hn] at this
  by_cases hd : t = .downloadInterfaceVersion ∧ data.length < 2
  · rw [if_pos hd]
    obtain ⟨rfl, hd⟩ := hd
    simp only [reduceCtorEq, false_iff, layout, Fills]
    rintro ⟨x, y, h, hx, rfl⟩
    have := congrArg List.length h
    simp [Piece.Fills] at hx this
    omega
  · rw [if_neg hd, this]

theorem sizeOf_panic {t : TransferType} (ht : t ≠ .cardDownload) (data : Bytes) :
    sizeOfTransferValue data t = .panic ↔ Overruns t data := by
  rw [(size_walk data t ht).2]
  by_cases hd : t = .downloadInterfaceVersion ∧ data.length < 2
  · rw [if_pos hd]
    obtain ⟨rfl, hd⟩ := hd
    simp only [reduceCtorEq, false_iff, Overruns, layout]
    rintro ⟨before, p, after, n, hb, hp, -⟩
    cases before with
    | nil => simp at hb; exact hp _ hb.1.symm
    | cons x xs => simp at hb
  · rw [if_neg hd, sizeWalk_panic (proper_layout t)]
    simp [Overruns]

/-! ## Card downloads -/

theorem cardDownloadLoop_spec (data : Bytes) (fuel offset : Nat) (h1 : offset ≤ data.length)
    (h2 : data.length - offset ≤ fuel) :
    cardDownloadLoop data fuel offset ≠ .panic ∧ ∀ m, cardDownloadLoop data fuel offset = .ok m ↔
      ∃ (ts : List Tlv) (r : Bytes), (∀ t ∈ ts, t.value.length < 65536) ∧ r.length < 5
        ∧ data.drop offset = fileBytes ts ++ r ∧ m = offset + (fileBytes ts).length := by
  have stop : (data.drop offset).length < 5 → ∀ m, offset = m ↔
      ∃ (ts : List Tlv) (r : Bytes), (∀ t ∈ ts, t.value.length < 65536) ∧ r.length < 5
        ∧ data.drop offset = fileBytes ts ++ r ∧ m = offset + (fileBytes ts).length := by
    intro h m
    constructor
    · rintro rfl
      exact ⟨[], data.drop offset, by simp, h, by simp [fileBytes], by simp [fileBytes]⟩
    · rintro ⟨ts, r, -, -, hd, rfl⟩
      cases ts with
      | nil => simp [fileBytes]
      | cons t ts =>
        have := congrArg List.length hd
        simp only [fileBytes, List.flatMap_cons, List.length_append, t.bytes_length] at this
        omega
  induction fuel generalizing offset with
  | zero =>
    simp only [cardDownloadLoop, Res.ok.injEq]
    exact ⟨by simp, stop (by simp; omega)⟩
  | succ fuel ih =>
    by_cases h3 : offset < data.length
    · simp only [cardDownloadLoop, h3, if_true, from?, h1, Res.bind_ok]
      by_cases h4 : (data.drop offset).length < 5
      · simp only [h4, if_true, Res.ok.injEq]
        exact ⟨by simp, stop h4⟩
      · simp only [h4, if_false]
        simp only [List.length_drop] at h4
        rw [sl?_ok (by omega) (by omega)]
        simp only [Res.bind_ok]
        have hsl : sl data (offset + 3) (offset + 5) = sl (data.drop offset) 3 5 := by
          simp only [sl, List.drop_take, List.drop_drop]
          rw [show offset + 5 - (offset + 3) = 2 by omega]
        by_cases h5 : offset + (5 + beNat (sl data (offset + 3) (offset + 5))) > data.length
        · simp only [h5, if_true, Res.bind_err, ne_eq, reduceCtorEq, not_false_eq_true, true_and, false_iff]
          rintro m ⟨ts, r, hts, hr, hd, rfl⟩
          cases ts with
          | nil =>
            have := congrArg List.length hd
            simp [fileBytes] at this
            omega
          | cons t ts =>
            simp only [fileBytes, List.flatMap_cons, List.append_assoc] at hd
            have hh := t.header (hts t (by simp)) (ts.flatMap Tlv.bytes ++ r)
            rw [← hd, ← hsl] at hh
            have := congrArg List.length hd
            simp only [List.length_append, t.bytes_length, List.length_drop] at this
            omega
        · simp only [h5, if_false]
          have hlen : 5 + beNat (sl (data.drop offset) 3 5) ≤ (data.drop offset).length := by
            rw [← hsl]; simp; omega
          obtain ⟨t, rest, hd, hv⟩ := exists_tlv (d := data.drop offset) (by simp; omega) hlen
          rw [hsl, ← hv]
          have hl2 := congrArg List.length hd
          simp only [List.length_append, t.bytes_length, List.length_drop] at hl2
          have hrest : data.drop (offset + (5 + t.value.length)) = rest := by
            rw [← List.drop_drop, hd, ← t.bytes_length, List.drop_left]
          have hvlt : t.value.length < 65536 := by
            have := beNat_lt (sl (data.drop offset) 3 5)
            have hl : (sl (data.drop offset) 3 5).length = 2 := by rw [sl_length_of (by simp; omega)]
            rw [hl] at this
            rw [hv]
            simpa using this
          have hrec := ih (offset + (5 + t.value.length)) (by omega) (by omega) (by
            intro h m
            constructor
            · rintro rfl
              exact ⟨[], _, by simp, h, by simp [fileBytes], by simp [fileBytes]⟩
            · rintro ⟨ts, r, -, -, hd, rfl⟩
              cases ts with
              | nil => simp [fileBytes]
              | cons t ts =>
                have := congrArg List.length hd
                simp only [fileBytes, List.flatMap_cons, List.length_append, t.bytes_length] at this
                omega)
          refine ⟨hrec.1, fun m => ?_⟩
          rw [hrec.2 m, hrest]
          constructor
          · rintro ⟨ts, r, hts, hr, rfl, rfl⟩
            refine ⟨t :: ts, r, ?_, hr, ?_, ?_⟩
            · intro x hx
              rcases List.mem_cons.1 hx with rfl | hx
              · exact hvlt
              · exact hts x hx
            · rw [hd]; simp [fileBytes]
            · simp only [fileBytes, List.flatMap_cons, List.length_append, t.bytes_length]; omega
          · rintro ⟨ts, r, hts, hr, hd', rfl⟩
            cases ts with
            | nil =>
              have := congrArg List.length hd'
              simp [fileBytes] at this
              omega
            | cons t' ts =>
              simp only [fileBytes, List.flatMap_cons, List.append_assoc] at hd'
              have hh := t'.header (hts t' (by simp)) (ts.flatMap Tlv.bytes ++ r)
              rw [← hd', ← hv] at hh
              have he : rest = fileBytes ts ++ r := by
                rw [← hrest, ← List.drop_drop, hd', hh, ← t'.bytes_length, List.drop_left]; rfl
              refine ⟨ts, r, fun x hx => hts x (by simp [hx]), hr, he, ?_⟩
              simp only [fileBytes, List.flatMap_cons, List.length_append, t'.bytes_length]; omega
    · simp only [cardDownloadLoop, h3, if_false, Res.ok.injEq]
      exact ⟨by simp, stop (by simp; omega)⟩

theorem sizeOfCardDownload_ne_panic (data : Bytes) : sizeOfCardDownload data ≠ .panic :=
  (cardDownloadLoop_spec data _ 0 (by omega) (by omega)).1

theorem sizeOfCardDownload_ok (data : Bytes) (n : Nat) : sizeOfCardDownload data = .ok n ↔
    ∃ (ts : List Tlv) (r : Bytes), (∀ t ∈ ts, t.value.length < 65536) ∧ r.length < 5
      ∧ data = fileBytes ts ++ r ∧ n = (fileBytes ts).length := by
  simpa [sizeOfCardDownload] using (cardDownloadLoop_spec data _ 0 (by omega) (by omega)).2 n

/-! ## Tags -/

theorem tag_of_type (t : TransferType) : findTransferTypeByTag (0x7600 + (trep t).toNat) = some t := by
  cases t <;> decide

theorem type_of_tag {tag : Nat} {t : TransferType} (h : findTransferTypeByTag tag = some t) :
    tag = 0x7600 + (trep t).toNat := by
  unfold findTransferTypeByTag at h
  obtain ⟨p, hp, rfl⟩ := Option.map_eq_some_iff.1 h
  have h1 := List.find?_some hp
  have h2 := List.mem_of_find?_eq_some hp
  have : ∀ p ∈ trepTable, 0x7600 ||| (p.2 &&& 0xFF) = 0x7600 + (trep p.1).toNat := by decide
  rw [← this p h2]
  exact (by simpa using h1 : _ = tag).symm

/-! ## One round of the slicing loop -/

theorem conforms_iff (t : TransferType) (ht : t ≠ .cardDownload) (v : Bytes) :
    Conforms t v ↔ Fills (layout t) v := by
  cases t <;> first | exact absurd rfl ht | rfl

/-- The size pass finds `n` bytes exactly when those bytes are a complete value. -/
theorem size_conforms (t : TransferType) (data : Bytes) (n : Nat) (hn : n ≤ data.length) :
    sizeOfTransferValue data t = .ok n ↔
      Conforms t (data.take n) ∧ (t = .cardDownload → (data.drop n).length < 5) := by
  by_cases ht : t = .cardDownload
  · subst ht
    simp only [sizeOfTransferValue, forall_const]
    rw [sizeOfCardDownload_ok]
    constructor
    · rintro ⟨ts, r, hts, hr, rfl, rfl⟩
      exact ⟨⟨ts, hts, by simp [fileBytes]⟩, by simpa using hr⟩
    · rintro ⟨⟨ts, hts, hv⟩, hr⟩
      refine ⟨ts, data.drop n, hts, hr, ?_, ?_⟩
      · rw [fileBytes, ← hv, List.take_append_drop]
      · rw [fileBytes, ← hv, List.length_take]; omega
  · rw [sizeOf_ok ht data n hn, conforms_iff t ht]
    simp [ht]

theorem size_panics (t : TransferType) (data : Bytes) :
    sizeOfTransferValue data t = .panic ↔ Overruns t data := by
  by_cases ht : t = .cardDownload
  · subst ht
    simp only [sizeOfTransferValue, sizeOfCardDownload_ne_panic, false_iff, Overruns, layout]
    rintro ⟨before, p, after, n, h, -⟩
    simp at h
  · exact sizeOf_panic ht data

end Tacho
