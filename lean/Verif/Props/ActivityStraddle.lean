import Verif.Spec.Download
import Verif.Props.ActivityLayout
/-!
# C26: the exact outcome for every activity file of the regulation

`StoredDays` (Spec/Download.lean) is the layout the regulation prescribes: it lets a day start anywhere, also
with its four byte header across the end of the buffer, and has no limit on the number of days.
-/

namespace Tacho
open Spec Spec.Regulation

/-- The header of the day that follows `pre` lies across the end of the buffer. -/
def Spec.Straddles (b : Bytes) (s : Nat) (pre : List Bytes) : Prop :=
  b.length < (s + pre.flatten.length) % b.length + 4

private theorem path_append {b : Bytes} {p q r : Int} {xs ys : List Bytes} (h : Path b p xs q) (h' : Path b q ys r) :
    Path b p (xs ++ ys) r := by
  induction h with
  | nil p => exact h'
  | cons p q x xs h1 h2 h3 h4 _ ih => exact Path.cons _ _ _ _ h1 h2 h3 h4 (ih h')

private theorem step_back {b : Bytes} {s : Nat} {zs post : List Bytes} {z d : Bytes}
    (hw : Window b s (zs ++ z :: d :: post).flatten) (hlen : (zs ++ z :: d :: post).flatten.length ≤ b.length)
    (hlk : Linked 0 (zs ++ z :: d :: post)) (hs : ¬ Straddles b s (zs ++ [z])) {rs : List Bytes} {q : Int}
    (hrest : Path b ((s + zs.flatten.length) % b.length : Nat) rs q) :
    Path b ((s + (zs ++ [z]).flatten.length) % b.length : Nat) (d :: rs) q := by
  have he' : zs ++ z :: d :: post = (zs ++ [z]) ++ d :: post := by simp
  obtain ⟨l1, l2, l3, _⟩ := linked_append (he' ▸ hlk)
  have hz := l3 zs z rfl
  have hfl : (zs ++ z :: d :: post).flatten = (zs ++ [z]).flatten ++ d ++ post.flatten := by simp
  have hwd : Window b (s + (zs ++ [z]).flatten.length) d := window_part (hfl ▸ hw)
  obtain ⟨zl, _⟩ := linked_append hlk
  have htot : zs.flatten.length + z.length + d.length ≤ b.length := by
    rw [hfl] at hlen
    simp only [List.flatten_append, List.flatten_cons, List.flatten_nil, List.append_nil,
      List.length_append] at hlen
    omega
  have hpos : (s + (zs ++ [z]).flatten.length) = (s + zs.flatten.length) + z.length := by
    simp only [List.flatten_append, List.flatten_cons, List.flatten_nil, List.append_nil,
      List.length_append]; omega
  unfold Straddles at hs
  rw [hpos] at hs hwd ⊢
  have hb : 0 < b.length := by omega
  generalize hA : s + zs.flatten.length = A at *
  have e1 : ownLength b (((A + z.length) % b.length : Nat) : Int) = d.length := by
    unfold ownLength
    rw [Int.toNat_natCast, window_sl hwd (by omega) l1 hb, l2]
  have e2 : prevLength b (((A + z.length) % b.length : Nat) : Int) = z.length := by
    unfold prevLength
    have := window_sl (i := 0) (j := 2) hwd (by omega) (by omega) hb
    rw [Nat.add_zero] at this
    rw [Int.toNat_natCast, this, hz]
  refine Path.cons _ _ _ _ ⟨by omega, by omega⟩ (by omega) e1.symm ?_ ?_
  · intro i hi
    rw [Int.toNat_natCast, ← hwd i hi, Nat.mod_add_mod]
  · unfold before
    rw [if_neg (by omega), e2]
    have hlt : A % b.length < b.length := Nat.mod_lt _ hb
    have hmod : (A + z.length) % b.length =
        if A % b.length + z.length < b.length then A % b.length + z.length
        else A % b.length + z.length - b.length := by
      rw [Nat.add_mod, Nat.mod_eq_of_lt (a := z.length) (by omega)]
      split
      · rw [Nat.mod_eq_of_lt (by omega)]
      · rw [Nat.mod_eq_sub_mod (by omega), Nat.mod_eq_of_lt (by omega)]
    have hb' : (if (((A + z.length) % b.length : Nat) : Int) - (z.length : Int) < 0 then
        (((A + z.length) % b.length : Nat) : Int) - (z.length : Int) + (b.length : Int)
        else (((A + z.length) % b.length : Nat) : Int) - (z.length : Int)) = ((A % b.length : Nat) : Int) := by
      rw [hmod]
      split <;> split <;> omega
    rw [hb']
    exact hrest

private theorem step_first {b : Bytes} {s : Nat} {post : List Bytes} {d : Bytes}
    (hw : Window b s (d :: post).flatten) (hlen : (d :: post).flatten.length ≤ b.length)
    (hlk : Linked 0 (d :: post)) (hs : ¬ Straddles b s []) : Path b (s % b.length : Nat) [d] (-1) := by
  obtain ⟨l1, l4, l2, _⟩ := hlk
  have hwd : Window b (s + 0) d := window_part (pre := []) (post := post.flatten) (by simpa using hw)
  simp only [Straddles, List.flatten_nil, List.length_nil, Nat.add_zero] at hs hwd
  have hb : 0 < b.length := by
    simp only [List.flatten_cons, List.length_append] at hlen; omega
  have e1 : ownLength b ((s % b.length : Nat) : Int) = d.length := by
    unfold ownLength
    rw [Int.toNat_natCast, window_sl hwd (by omega) l1 hb, l2]
  have e2 : prevLength b ((s % b.length : Nat) : Int) = 0 := by
    unfold prevLength
    have := window_sl (i := 0) (j := 2) hwd (by omega) (by omega) hb
    rw [Nat.add_zero] at this
    rw [Int.toNat_natCast, this, l4]
  refine Path.cons _ _ _ _ ⟨by omega, by omega⟩ (by omega) e1.symm ?_ ?_
  · intro i hi
    rw [Int.toNat_natCast, ← hwd i hi, Nat.mod_add_mod]
  · unfold before
    rw [if_pos e2]
    exact Path.nil _

/-- The way back from the last of the days `post` to the day `z` before them. -/
private theorem path_suffix {b : Bytes} {s : Nat} (zs : List Bytes) (z : Bytes) :
    ∀ (n : Nat) (post more : List Bytes), post.length = n →
    Window b s (zs ++ z :: (post ++ more)).flatten → (zs ++ z :: (post ++ more)).flatten.length ≤ b.length →
    Linked 0 (zs ++ z :: (post ++ more)) →
    (∀ a x c, post = a ++ x :: c → ¬ Straddles b s (zs ++ z :: a)) →
    Path b ((s + (zs ++ z :: post).dropLast.flatten.length) % b.length : Nat) post.reverse
      ((s + zs.flatten.length) % b.length : Nat) := by
  intro n
  induction n with
  | zero =>
    intro post more hl _ _ _ _
    obtain rfl := List.length_eq_zero_iff.mp hl
    rw [List.dropLast_concat]
    exact Path.nil _
  | succ n ih =>
    intro post more hl hw hlen hlk hns
    obtain ⟨ys, y, rfl⟩ : ∃ ys y, post = ys ++ [y] := by
      refine ⟨post.dropLast, post.getLast (by intro e; simp [e] at hl), ?_⟩
      rw [List.dropLast_concat_getLast]
    have hrec := ih ys (y :: more) (by simpa using hl) (by simpa using hw) (by simpa using hlen) (by simpa using hlk)
      (fun a x c e => hns a x (c ++ [y]) (by rw [e]; simp))
    have hd : (zs ++ z :: (ys ++ [y])).dropLast = zs ++ z :: ys := by
      rw [show zs ++ z :: (ys ++ [y]) = (zs ++ z :: ys) ++ [y] by simp, List.dropLast_concat]
    rw [hd, List.reverse_append]
    have hne : zs ++ z :: ys ≠ [] := by simp
    have hsp := List.dropLast_concat_getLast hne
    have hall : zs ++ z :: ((ys ++ [y]) ++ more) =
        (zs ++ z :: ys).dropLast ++ (zs ++ z :: ys).getLast hne :: y :: more := by
      conv => lhs; rw [show zs ++ z :: ((ys ++ [y]) ++ more) = (zs ++ z :: ys) ++ y :: more by simp, ← hsp]
      rw [List.append_assoc]; rfl
    have := step_back (b := b) (s := s) (zs := (zs ++ z :: ys).dropLast) (z := (zs ++ z :: ys).getLast hne) (d := y)
      (post := more) (hall ▸ hw) (hall ▸ hlen) (hall ▸ hlk) (by rw [hsp]; exact hns ys y [] rfl) hrec
    rw [hsp] at this
    exact this

/-- C26: what is read from any activity file the regulation allows. Reading goes back from the newest day and
stops without an error at the first day whose header lies across the end of the buffer: that day and all older
ones are lost (finding; `pre` is empty if there is no such day). The days `post` after it are reported, oldest
first, if they are at most 365; otherwise the file is refused. -/
theorem activity_exact (ptrs b : Bytes) (s : Nat) (pre post : List Bytes) (h : StoredDays ptrs b s (pre ++ post))
    (hpre : pre ≠ [] → Straddles b s pre.dropLast)
    (hpost : ∀ a x c, post = a ++ x :: c → ¬ Straddles b s (pre ++ a)) :
    (post.length ≤ 365 → ∃ m, unmarshalDriverActivityData (ptrs ++ b) = .ok m ∧
      m.rawData = some b ∧ List.Forall₂ DayOf post m.records) ∧
    (366 ≤ post.length → unmarshalDriverActivityData (ptrs ++ b) = .err "exceeded maximum record count") := by
  obtain ⟨hp, hne, hw, hlen, hlk, hn⟩ := h
  have hb : 0 < b.length := by
    match hd : pre ++ post, hlk, hne with
    | d :: rest, hlk, _ =>
      rw [hd, List.flatten_cons, List.length_append] at hlen
      have := hlk.1
      omega
  have hdrop : (ptrs ++ b).drop 4 = b := List.drop_left' hp
  have hsl : sl (ptrs ++ b) 2 4 = ptrs.drop 2 := by unfold sl; rw [List.take_left' hp]
  have hpath : ∃ q, Path b ((s + (pre ++ post).dropLast.flatten.length) % b.length : Nat) post.reverse q ∧ NoRecord b q := by
    rcases List.eq_nil_or_concat pre with rfl | ⟨zs, z, rfl⟩
    · match post, hne, hw, hlen, hlk, hpost with
      | d :: rest, _, hw, hlen, hlk, hpost =>
        refine ⟨-1, ?_, .inl (by rintro ⟨h, _⟩; omega)⟩
        have h1 := step_first (b := b) (s := s) hw hlen hlk (hpost [] d rest rfl)
        have h2 := path_suffix (b := b) (s := s) [] d rest.length rest [] rfl (by simpa using hw) (by simpa using hlen)
          (by simpa using hlk) (fun a x c e => hpost (d :: a) x c (by rw [e]; rfl))
        simp only [List.flatten_nil, List.length_nil, Nat.add_zero, List.nil_append] at h2 ⊢
        rw [List.reverse_cons]
        exact path_append h2 h1
    · refine ⟨((s + zs.flatten.length) % b.length : Nat), ?_, .inl ?_⟩
      · have h2 := path_suffix (b := b) (s := s) zs z post.length post [] rfl (by simpa using hw) (by simpa using hlen)
          (by simpa using hlk) (fun a x c e => by simpa using hpost a x c e)
        have e : zs ++ [z] ++ post = zs ++ z :: post := by simp
        simp only [List.concat_eq_append]
        rw [e]; exact h2
      · have := hpre (by simp)
        simp only [List.concat_eq_append, List.dropLast_concat, Straddles] at this
        rintro ⟨_, h⟩
        omega
  obtain ⟨q, hq, hno⟩ := hpath
  constructor
  · intro hmax
    have hex : ∀ rs : List Bytes, ∃ out, List.Forall₂ DayOf rs out := by
      intro rs
      induction rs with
      | nil => exact ⟨[], List.Forall₂.nil⟩
      | cons r rs ih =>
        obtain ⟨m, _, hm⟩ := dailyRecord_spec r
        obtain ⟨ms, hms⟩ := ih
        exact ⟨m :: ms, List.Forall₂.cons hm hms⟩
    obtain ⟨out, ho⟩ := hex post
    have hok := (activity_ok_iff _ _ out).mpr ⟨post.reverse, q, by simp; omega, hq, hno, by rwa [List.reverse_reverse]⟩
    refine ⟨⟨_, _, some b, out⟩, (driverActivity_decode _ _).2 ⟨by simp; omega, rfl, rfl, by rw [hdrop], ?_⟩, rfl, ho⟩
    show parseActivityRecords ((ptrs ++ b).drop 4) ((beNat (sl (ptrs ++ b) 2 4) : Nat) : Int) = _
    rw [hdrop, hsl, hn]
    exact hok
  · intro hmin
    have := activity_366_refused b _ q post.reverse (by simpa using hmin) hq
    unfold unmarshalDriverActivityData
    have hl : (ptrs ++ b).length = 4 + b.length := by simp [hp]
    rw [if_neg (by omega), sl?_ok (by omega) (by omega), sl?_ok (by omega) (by omega)]
    simp only [Res.bind_ok, Res.pure_eq, from?, if_pos (show 4 ≤ (ptrs ++ b).length by omega)]
    rw [hdrop, if_neg (by omega), hsl, hn, this]
    rfl

/-! Non-vacuity -/

/-- Three days of 14 bytes in a buffer of 44 bytes: the second starts two bytes before the end of the buffer. -/
def Spec.straddlingDays : List Bytes :=
  [[0, 0, 0, 14, 0x5F, 0, 0, 0, 0x00, 0x12, 0, 100, 0x28, 0x3C],
   [0, 14, 0, 14, 0x5F, 1, 0x51, 0x80, 0x00, 0x13, 0, 90, 0x18, 0x10],
   [0, 14, 0, 14, 0x5F, 2, 0xA3, 0x00, 0x00, 0x14, 0, 80, 0x18, 0x10]]

/-- The buffer that holds them: the first day from 28 on, the second from 42 on. -/
def Spec.straddlingBuffer : Bytes := (straddlingDays.flatten).drop 16 ++ [9, 9] ++ (straddlingDays.flatten).take 16

example : StoredDays [0, 28, 0, 12] straddlingBuffer 28 straddlingDays ∧
    Straddles straddlingBuffer 28 (straddlingDays.take 1) ∧ ¬ Straddles straddlingBuffer 28 (straddlingDays.take 2) := by
  refine ⟨⟨rfl, by decide, ?_, by decide, ⟨by decide, by decide, by decide, by decide, by decide, by decide, by decide,
    by decide, by decide, trivial⟩, by decide⟩, by unfold Straddles; decide, by unfold Straddles; decide⟩
  intro i hi
  have : ∀ i : Fin 42, straddlingBuffer[(28 + i.val) % 44]? = (straddlingDays.flatten)[i.val]? := by decide
  exact this ⟨i, hi⟩

/-- Of the three days only the newest is reported. -/
example : ∃ m r, unmarshalDriverActivityData ([0, 28, 0, 12] ++ straddlingBuffer) = .ok m ∧ m.records = [r] :=
  ⟨_, _, rfl, rfl⟩

/-- Any number of days of 14 bytes can be stored, in a buffer that has just the room, starting at 0. -/
theorem stored_many (n : Nat) (o1 o2 p1 p2 : UInt8) (hp : beNat [p1, p2] = 14 * n) :
    let days : List Bytes := (0 :: 0 :: 0 :: 14 :: zeros 10) :: List.replicate n (0 :: 14 :: 0 :: 14 :: zeros 10)
    StoredDays [o1, o2, p1, p2] days.flatten 0 days ∧
      ∀ a x c, days = a ++ x :: c → ¬ Straddles days.flatten 0 a := by
  intro days
  have hlen : ∀ x ∈ days, x.length = 14 := by
    intro x hx
    simp only [days, List.mem_cons, List.mem_replicate] at hx
    rcases hx with rfl | ⟨_, rfl⟩ <;> rfl
  have hfl : ∀ xs : List Bytes, (∀ x ∈ xs, x.length = 14) → xs.flatten.length = 14 * xs.length := by
    intro xs h
    induction xs with
    | nil => rfl
    | cons x xs ih =>
      rw [List.flatten_cons, List.length_append, h x (List.mem_cons_self ..),
        ih (fun y hy => h y (List.mem_cons_of_mem _ hy)), List.length_cons]
      omega
  have hd : days.length = n + 1 := by simp [days]
  have htot : days.flatten.length = 14 * (n + 1) := by rw [hfl days hlen, hd]
  refine ⟨⟨rfl, by simp [days], ?_, Nat.le_refl _, ?_, ?_⟩, ?_⟩
  · intro i hi
    rw [Nat.zero_add, Nat.mod_eq_of_lt hi]
  · refine ⟨by simp, rfl, rfl, ?_⟩
    show Linked 14 (List.replicate n _)
    clear hd htot hlen hp days
    induction n with
    | zero => trivial
    | succ n ih => exact ⟨by simp, rfl, rfl, ih⟩
  · have h1 : days.dropLast.length = n := by simp [days]
    rw [hfl _ (fun x hx => hlen x (List.dropLast_subset _ hx)), h1, htot, Nat.mod_eq_of_lt (by omega)]
    show beNat [p1, p2] = _
    omega
  · intro a x c e hs
    have h1 : a.flatten.length = 14 * a.length := hfl a fun y hy => hlen y (by rw [e]; simp [hy])
    have h2 : a.length + 1 + c.length = n + 1 := by rw [← hd, e]; simp; omega
    unfold Straddles at hs
    rw [htot, h1, Nat.mod_eq_of_lt (by omega)] at hs
    omega

/-- C26, finding: an activity file that conforms to the regulation and holds 366 days is refused. -/
theorem year_refused : ∃ ptrs b s days, StoredDays ptrs b s days ∧ days.length = 366 ∧
    unmarshalDriverActivityData (ptrs ++ b) = .err "exceeded maximum record count" := by
  obtain ⟨h1, h2⟩ := stored_many 365 0 0 0x13 0xF6 (by decide)
  have hl : ∀ (x y : Bytes) (n : Nat), (x :: List.replicate n y).length = n + 1 := by simp
  exact ⟨_, _, _, _, h1, hl _ _ _, (activity_exact _ _ 0 [] _ h1 (fun h => absurd rfl h) h2).2 (Nat.le_of_eq (hl _ _ _).symm)⟩

end Tacho
