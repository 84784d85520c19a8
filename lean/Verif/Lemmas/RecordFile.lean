import Mathlib.Data.List.Forall2
import Verif.Model.CardEF
import Verif.Spec.CardFiles
import Verif.Props.Append
import Verif.Lemmas.Slices
/-!
# Record loops
-/

namespace Tacho
open Spec

/-! ## Cutting -/

theorem cut_nil {n : Nat} {d : Bytes} (h : d.length < n) : cut n d = [] := by
  rw [cut, if_neg (by omega)]

theorem cut_cons {n : Nat} {d : Bytes} (h0 : 0 < n) (h : n ≤ d.length) : cut n d = d.take n :: cut n (d.drop n) := by
  rw [cut, if_pos ⟨h0, h⟩]

theorem cut_eq {n : Nat} (h0 : 0 < n) (d : Bytes) :
    cut n d = (List.range (d.length / n)).map (fun i => record 0 n i d) := by
  induction hk : d.length / n generalizing d with
  | zero =>
    rw [Nat.div_eq_zero_iff] at hk
    rw [cut_nil (by omega)]; rfl
  | succ k ih =>
    have hn : n ≤ d.length := by
      apply Nat.le_of_not_lt
      intro hc
      rw [Nat.div_eq_of_lt hc] at hk
      cases hk
    have hk' : (d.drop n).length / n = k := by
      rw [List.length_drop]
      rw [Nat.div_eq_sub_div h0 hn] at hk
      omega
    rw [cut_cons h0 hn, ih _ hk', List.range_succ_eq_map, List.map_cons, List.map_map]
    congr 1
    · simp [record]
    · apply List.map_congr_left
      intro i _
      simp only [record, Function.comp, List.drop_drop, Nat.zero_add]
      congr 2
      rw [Nat.succ_mul]; omega

theorem cut_length {n : Nat} (h0 : 0 < n) (d : Bytes) : (cut n d).length = d.length / n := by
  rw [cut_eq h0]; simp

theorem cut_sizes {n : Nat} (h0 : 0 < n) (d : Bytes) : ∀ x ∈ cut n d, x.length = n := by
  fun_induction cut n d with
  | case1 d h ih =>
    intro x hx
    rw [List.mem_cons] at hx
    rcases hx with rfl | hx
    · simp; omega
    · exact ih x hx
  | case2 d h => simp

theorem cut_flatten {n : Nat} (h0 : 0 < n) (d : Bytes) : (cut n d).flatten = d.take (d.length / n * n) := by
  fun_induction cut n d with
  | case1 d h ih =>
    rw [List.flatten_cons, ih, List.length_drop]
    have h1 : d.length / n = (d.length - n) / n + 1 := by rw [Nat.div_eq_sub_div h0 h.2]
    rw [h1, Nat.succ_mul, Nat.add_comm, List.take_add]
  | case2 d h =>
    rw [Nat.div_eq_of_lt (by omega)]; simp

theorem record_drop (h n i : Nat) (d : Bytes) : record 0 n i (d.drop h) = record h n i d := by
  simp [record, List.drop_drop]

theorem record_length {h n i : Nat} {d : Bytes} (hi : i < recordCount h n d) (h0 : 0 < n) : (record h n i d).length = n := by
  unfold recordCount at hi
  have h1 : (i + 1) * n ≤ (d.length - h) / n * n := Nat.mul_le_mul_right _ hi
  have h2 := Nat.div_mul_le_self (d.length - h) n
  rw [Nat.succ_mul] at h1
  simp only [record, List.length_take, List.length_drop]
  omega

/-! ## Parsing loops -/

theorem mapRes_ok_iff {α β : Type} {f : α → Res β} {xs : List α} {ys : List β} :
    mapRes f xs = .ok ys ↔ List.Forall₂ (fun x y => f x = .ok y) xs ys := by
  induction xs generalizing ys with
  | nil => simp [mapRes, eq_comm]
  | cons x xs ih =>
    simp only [mapRes, bind_eq_ok, Res.pure_eq, Res.ok.injEq, ih, List.forall₂_cons_left_iff]
    constructor
    · rintro ⟨y, hy, ys', hys, rfl⟩; exact ⟨y, ys', hy, hys, rfl⟩
    · rintro ⟨y, ys', hy, hys, rfl⟩; exact ⟨y, hy, ys', hys, rfl⟩

theorem mapRes_exists_iff {α β : Type} {f : α → Res β} {xs : List α} :
    (∃ ys, mapRes f xs = .ok ys) ↔ ∀ x ∈ xs, ∃ y, f x = .ok y := by
  induction xs with
  | nil => simp [mapRes]
  | cons x xs ih =>
    simp only [mapRes, bind_eq_ok, Res.pure_eq, Res.ok.injEq, List.forall_mem_cons, ← ih]
    constructor
    · rintro ⟨_, y, hy, ys, hys, _⟩; exact ⟨⟨y, hy⟩, ys, hys⟩
    · rintro ⟨⟨y, hy⟩, ys, hys⟩; exact ⟨_, y, hy, ys, hys, rfl⟩

theorem mapRes_ne_panic {α β : Type} {f : α → Res β} {xs : List α} (h : ∀ x ∈ xs, f x ≠ .panic) : mapRes f xs ≠ .panic := by
  induction xs with
  | nil => simp [mapRes]
  | cons x xs ih =>
    rw [List.forall_mem_cons] at h
    exact Res.bind_ne_panic h.1 fun y => Res.bind_ne_panic (ih h.2) fun ys => by simp

theorem mapUntilErr_ok {α β : Type} {f : α → Res β} {xs : List α} (h : ∀ x ∈ xs, ∃ y, f x = .ok y) :
    mapUntilErr f xs = mapRes f xs := by
  induction xs with
  | nil => rfl
  | cons x xs ih =>
    rw [List.forall_mem_cons] at h
    obtain ⟨⟨y, hy⟩, h⟩ := h
    simp [mapUntilErr, mapRes, hy, ih h]

theorem mapRes_cut_iff {α : Type} {f : Bytes → Res α} {n h : Nat} (h0 : 0 < n) {d : Bytes} {rs : List α} :
    mapRes f (cut n (d.drop h)) = .ok rs ↔ RecordsAre f h n d rs := by
  rw [mapRes_ok_iff, cut_eq h0, List.forall₂_map_left_iff, List.forall₂_iff_get]
  simp only [List.length_range, List.length_drop, List.get_eq_getElem, List.getElem_range, record_drop, RecordsAre, recordCount]
  constructor
  · rintro ⟨h1, h2⟩; exact ⟨h1.symm, fun i hi => h2 i (by omega) hi⟩
  · rintro ⟨h1, h2⟩; exact ⟨h1.symm, fun i _ hi => h2 i hi⟩

theorem forall_cut_iff {n h : Nat} (h0 : 0 < n) {d : Bytes} {P : Bytes → Prop} :
    (∀ x ∈ cut n (d.drop h), P x) ↔ AllRecords h n d P := by
  rw [cut_eq h0]
  simp only [List.forall_mem_map, List.mem_range, List.length_drop, record_drop, AllRecords, recordCount]

theorem mapRes_cut_exists {α : Type} {f : Bytes → Res α} {n h : Nat} (h0 : 0 < n) {d : Bytes} :
    (∃ rs, mapRes f (cut n (d.drop h)) = .ok rs) ↔ AllRecords h n d (fun x => ∃ r, f x = .ok r) := by
  rw [mapRes_exists_iff, forall_cut_iff h0]

/-! ## Writing loops -/

/-- Writing a list of records after one another. -/
theorem appendEach_eq {α : Type} {f : Bytes → α → Res Bytes} {xs : List α} (h : ∀ x ∈ xs, Appends (f · x)) (dst : Bytes) :
    appendEach f dst xs = (mapRes (f []) xs >>= fun outs => .ok (dst ++ outs.flatten)) := by
  induction xs generalizing dst with
  | nil => simp [appendEach, mapRes]
  | cons x xs ih =>
    rw [List.forall_mem_cons] at h
    rcases h.1 with ⟨e, _, he⟩ | ⟨m, hm⟩
    · simp only [appendEach, mapRes, he, Res.bind_ok, ih h.2, Res.bind_assoc, Res.pure_eq, List.flatten_cons, List.nil_append,
        List.append_assoc]
    · simp only [appendEach, mapRes, hm]; rfl

theorem appendEachNew_eq {α : Type} {f : Bytes → α → Res Bytes} (xs : List α) (dst : Bytes) :
    appendEachNew f dst xs = (mapRes (f []) xs >>= fun outs => .ok (dst ++ outs.flatten)) := by
  induction xs generalizing dst with
  | nil => simp [appendEachNew, mapRes]
  | cons x xs ih =>
    simp only [appendEachNew, mapRes, ih, Res.bind_assoc, Res.pure_eq, Res.bind_ok, List.flatten_cons, List.append_assoc]

theorem appendsExactly_nil {n : Nat} {f : Bytes → Res Bytes} {b : Bytes} (h : AppendsExactly n f) (hb : f [] = .ok b) : b.length = n := by
  have := (appendsExactly_result h [] b hb).2
  simpa using this

/-- Painting records of the right size onto a canvas of the right size leaves nothing of the canvas. -/
theorem paintEach_eq {α : Type} {f : Bytes → α → Res Bytes} {n : Nat} {xs : List α} (h : ∀ x ∈ xs, AppendsExactly n (f · x))
    (canvas : Bytes) (off : Nat) (hc : off + xs.length * n ≤ canvas.length) :
    paintEach f n canvas off xs = (mapRes (f []) xs >>= fun outs =>
      .ok (canvas.take off ++ outs.flatten ++ canvas.drop (off + xs.length * n))) := by
  induction xs generalizing canvas off with
  | nil => simp [paintEach, mapRes]
  | cons x xs ih =>
    rw [List.forall_mem_cons] at h
    simp only [List.length_cons, Nat.succ_mul] at hc ⊢
    cases hx : f [] x with
    | err m => simp [paintEach, mapRes, hx]
    | panic => simp [paintEach, mapRes, hx]
    | ok b =>
      have hb : b.length = n := appendsExactly_nil h.1 hx
      have hcond : ¬ (b.length ≠ n) := by omega
      simp only [paintEach, mapRes, hx, Res.bind_ok, if_neg hcond, Res.pure_eq, Res.bind_assoc]
      rw [ih h.2 _ _ (by rw [paint_length (by omega)]; omega), paint_eq hb]
      have e1 : (canvas.take off ++ b ++ canvas.drop (off + n)).take (off + n) = canvas.take off ++ b := by
        rw [List.take_append_of_le_length (by simp; omega), List.take_of_length_le (by simp; omega)]
      have e2 : (canvas.take off ++ b ++ canvas.drop (off + n)).drop (off + n + xs.length * n) =
          canvas.drop (off + (xs.length * n + n)) := by
        rw [List.drop_append, List.drop_eq_nil_of_le (by simp; omega), List.nil_append, List.drop_drop]
        congr 1
        simp; omega
      rw [e1, e2]
      simp only [List.flatten_cons, List.append_assoc]

/-- The raw data of a record file never influences what is written. -/
theorem appendRecordFile2_eq {α : Type} {f : Bytes → α → Res Bytes} {n : Nat} (v : RecordFile α)
    (h : ∀ x ∈ v.records, AppendsExactly n (f · x)) (dst : Bytes) :
    appendRecordFile2 f n dst (some v) = (mapRes (f []) v.records >>= fun outs =>
      .ok (dst ++ (beBytes 2 (low 16 v.newest) ++ outs.flatten))) := by
  unfold appendRecordFile2
  dsimp only
  split
  · rename_i hl
    have hp : (paint (v.rawData.getD []) 0 2 (beBytes 2 (low 16 v.newest))).length = 2 + v.records.length * n := by
      rw [paint_length (by omega), hl]
    rw [paintEach_eq h _ _ (by omega), List.drop_eq_nil_of_le (by omega), Res.bind_assoc]
    simp only [Res.bind_ok, Res.pure_eq, List.append_nil]
    rw [paint_eq (by simp)]
    have : ((v.rawData.getD []).take 0 ++ beBytes 2 (low 16 v.newest) ++ (v.rawData.getD []).drop (0 + 2)).take 2
        = beBytes 2 (low 16 v.newest) := by
      rw [List.take_zero, List.nil_append]
      exact List.take_left' (by simp)
    rw [this]
  · rw [appendEachNew_eq]
    simp only [List.append_assoc]

theorem flatten_length_const {outs : List Bytes} {n : Nat} (h : ∀ o ∈ outs, o.length = n) : outs.flatten.length = outs.length * n := by
  induction outs with
  | nil => simp
  | cons o os ih =>
    rw [List.forall_mem_cons] at h
    simp [ih h.2, h.1, Nat.succ_mul]; omega

theorem flatten_inj_const {a b : List Bytes} {n : Nat} (ha : ∀ o ∈ a, o.length = n) (hb : ∀ o ∈ b, o.length = n)
    (hl : a.length = b.length) : a.flatten = b.flatten ↔ a = b := by
  induction a generalizing b with
  | nil =>
    cases b with
    | nil => simp
    | cons _ _ => simp at hl
  | cons x xs ih =>
    cases b with
    | nil => simp at hl
    | cons y ys =>
      rw [List.forall_mem_cons] at ha hb
      simp only [List.flatten_cons]
      rw [append_eq_iff (by rw [ha.1, hb.1]), ih ha.2 hb.2 (by simpa using hl), List.cons.injEq]

theorem mapRes_sizes {α : Type} {f : Bytes → α → Res Bytes} {n : Nat} {xs : List α} {outs : List Bytes}
    (h : ∀ x ∈ xs, AppendsExactly n (f · x)) (ho : mapRes (f []) xs = .ok outs) :
    (∀ o ∈ outs, o.length = n) ∧ outs.length = xs.length := by
  rw [mapRes_ok_iff] at ho
  refine ⟨?_, ho.length_eq.symm⟩
  induction ho with
  | nil => simp
  | cons hx _ ih =>
    rw [List.forall_mem_cons] at h ⊢
    exact ⟨appendsExactly_nil h.1 hx, ih h.2⟩

/-- Writing parsed records restores the bytes exactly when each record is restored. -/
theorem mapRes_restores {α : Type} {f : Bytes → Res α} {g : Bytes → α → Res Bytes} {n : Nat} {xs : List Bytes} {rs : List α}
    (hf : mapRes f xs = .ok rs) (hg : ∀ r ∈ rs, AppendsExactly n (g · r)) (hs : ∀ x ∈ xs, x.length = n)
    {Good : Bytes → Prop} (hgood : ∀ x r, f x = .ok r → (g [] r = .ok x ↔ Good x)) (pre post : Bytes) :
    (mapRes (g []) rs >>= fun outs => .ok (pre ++ outs.flatten ++ post)) = Res.ok (pre ++ xs.flatten ++ post) ↔ ∀ x ∈ xs, Good x := by
  rw [mapRes_ok_iff] at hf
  have key : mapRes (g []) rs = .ok xs ↔ ∀ x ∈ xs, Good x := by
    clear hs hg
    induction hf with
    | nil => simp [mapRes]
    | @cons x r xs rs hx _ ih =>
      simp only [mapRes, bind_eq_ok, Res.pure_eq, Res.ok.injEq, List.cons.injEq, List.forall_mem_cons, ← ih, ← hgood x r hx]
      constructor
      · rintro ⟨_, h1, _, h2, rfl, rfl⟩; exact ⟨h1, h2⟩
      · rintro ⟨h1, h2⟩; exact ⟨_, h1, _, h2, rfl, rfl⟩
  rw [← key]
  constructor
  · intro h
    rw [bind_eq_ok] at h
    obtain ⟨outs, ho, h⟩ := h
    rw [Res.ok.injEq, List.append_cancel_right_eq, List.append_cancel_left_eq] at h
    obtain ⟨h1, h2⟩ := mapRes_sizes hg ho
    rw [ho, (flatten_inj_const h1 hs (by rw [h2, hf.length_eq])).mp h]
  · intro h
    rw [h]; rfl

/-- A step that never panics, on all records. -/
theorem mapRes_append_ne_panic {α : Type} {g : Bytes → α → Res Bytes} {rs : List α} (hg : ∀ r ∈ rs, Appends (g · r)) :
    mapRes (g []) rs ≠ .panic := mapRes_ne_panic fun r hr => AppendsWith.ne_panic (hg r hr) []

theorem mapRes_size {α : Type} {n : Nat} {g : Bytes → α → Res Bytes} {rs : List α} (pre : Bytes)
    (hg : ∀ r ∈ rs, AppendsExactly n (g · r)) :
    AppendsExactly (pre.length + rs.length * n) (fun dst => mapRes (g []) rs >>= fun outs => .ok (dst ++ (pre ++ outs.flatten))) := by
  cases h : mapRes (g []) rs with
  | ok outs =>
    obtain ⟨h1, h2⟩ := mapRes_sizes hg h
    exact Or.inl ⟨pre ++ outs.flatten, by dsimp only; rw [List.length_append, flatten_length_const h1, h2], fun dst => rfl⟩
  | err m => exact Or.inr ⟨m, fun _ => rfl⟩
  | panic => exact absurd h (mapRes_append_ne_panic fun r hr => AppendsWith.mono (hg r hr) (fun _ _ => trivial))

end Tacho
