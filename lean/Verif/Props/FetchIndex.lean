import Verif.Props.FetchCerts
/-!
# The certificate index: completeness and order (C58), the web page and the files (C59), and use by the
# client (C60)
-/

namespace Tacho
open Spec

/-! ## C58: every order of the downloads gives the same entries and files -/

theorem schedule_perm {ts : List (List FetchStep)} {ss : List FetchStep} (h : Schedule ts ss) :
    ss.Perm ts.flatten := by
  induction h with
  | done h => rw [List.flatten_eq_nil_iff.mpr h]
  | run h ih =>
    simp only [List.flatten_append, List.flatten_cons, List.cons_append] at ih ⊢
    exact (ih.cons _).trans List.perm_middle.symm

/-- The entry a step adds. -/
def FetchStep.added : FetchStep → Option IndexEntry
  | .add e => some e
  | _ => none

/-- The file a step saves. -/
def FetchStep.saved : FetchStep → Option (Bytes × Bytes)
  | .save f c => some (f, c)
  | _ => none

theorem run_entries (ss : List FetchStep) (s0 : FetchState) :
    (ss.foldl FetchState.step s0).entries = s0.entries ++ ss.filterMap FetchStep.added := by
  induction ss generalizing s0 with
  | nil => simp
  | cons s ss ih =>
    rw [List.foldl_cons, ih]
    cases s <;> simp [FetchState.step, FetchStep.added, List.filterMap_cons]

theorem run_files (ss : List FetchStep) (s0 : FetchState) :
    (ss.foldl FetchState.step s0).files = (ss.filterMap FetchStep.saved).reverse ++ s0.files := by
  induction ss generalizing s0 with
  | nil => simp
  | cons s ss ih =>
    rw [List.foldl_cons, ih]
    cases s <;> simp [FetchState.step, FetchStep.saved, List.filterMap_cons]

/-- The products whose file could be written. -/
def writtenProducts (tasks : List (Written × Option Product)) : List Product :=
  tasks.filterMap fun t => if t.1 = .done then t.2 else none

/-- The products whose file was opened for writing. -/
def openedProducts (tasks : List (Written × Option Product)) : List Product :=
  tasks.filterMap fun t => if t.1 = .refused then none else t.2

/-- The files, with what was stored in them. -/
def storedFiles (tasks : List (Written × Option Product)) : List (Bytes × Bytes) :=
  tasks.filterMap fun t => match t with
    | (.done, some p) => some (p.entry.path, p.content)
    | (.torn k, some p) => some (p.entry.path, p.content.take k)
    | _ => none

theorem stored_paths (tasks : List (Written × Option Product)) :
    (storedFiles tasks).map Prod.fst = (openedProducts tasks).map (·.entry.path) := by
  induction tasks with
  | nil => rfl
  | cons t ts ih =>
    obtain ⟨w, p⟩ := t
    unfold storedFiles openedProducts at ih ⊢
    cases p <;> cases w <;> simp [List.filterMap_cons, ih]

theorem stored_iff (tasks : List (Written × Option Product)) (f c : Bytes) : (f, c) ∈ storedFiles tasks ↔
    (∃ p ∈ writtenProducts tasks, p.entry.path = f ∧ p.content = c) ∨
    ∃ k p, (.torn k, some p) ∈ tasks ∧ p.entry.path = f ∧ p.content.take k = c := by
  unfold storedFiles writtenProducts
  simp only [List.mem_filterMap]
  constructor
  · rintro ⟨⟨w, p⟩, hm, h⟩
    split at h
    · rename_i p e
      obtain ⟨rfl, rfl⟩ := Prod.mk.inj e
      simp only [Option.some.injEq, Prod.mk.injEq] at h
      exact .inl ⟨p, ⟨_, hm, by simp⟩, h⟩
    · rename_i k p e
      obtain ⟨rfl, rfl⟩ := Prod.mk.inj e
      simp only [Option.some.injEq, Prod.mk.injEq] at h
      exact .inr ⟨k, p, hm, h⟩
    · simp at h
  · rintro (⟨p, ⟨⟨w, q⟩, hm, h⟩, rfl, rfl⟩ | ⟨k, p, hm, rfl, rfl⟩)
    · dsimp only at h
      split at h
      · rename_i hw
        subst hw h
        exact ⟨_, hm, rfl⟩
      · simp at h
    · exact ⟨_, hm, rfl⟩

theorem tasks_added (tasks : List (Written × Option Product)) :
    ((tasks.map fun t => taskSteps t.1 t.2).flatten).filterMap FetchStep.added =
      (writtenProducts tasks).map (·.entry) := by
  induction tasks with
  | nil => rfl
  | cons t ts ih =>
    obtain ⟨b, p⟩ := t
    rw [List.map_cons, List.flatten_cons, List.filterMap_append, ih]
    cases p <;> cases b <;> simp [taskSteps, writtenProducts, FetchStep.added, List.filterMap_cons]

theorem tasks_saved (tasks : List (Written × Option Product)) :
    ((tasks.map fun t => taskSteps t.1 t.2).flatten).filterMap FetchStep.saved = storedFiles tasks := by
  induction tasks with
  | nil => rfl
  | cons t ts ih =>
    obtain ⟨b, p⟩ := t
    rw [List.map_cons, List.flatten_cons, List.filterMap_append, ih]
    cases p <;> cases b <;> simp [taskSteps, storedFiles, FetchStep.saved, List.filterMap_cons]

theorem lookup_of_nodup {l : List (Bytes × Bytes)} (h : (l.map Prod.fst).Nodup) {k v : Bytes} (hm : (k, v) ∈ l) :
    l.lookup k = some v := by
  induction l with
  | nil => simp at hm
  | cons x l ih =>
    obtain ⟨a, b⟩ := x
    rw [List.map_cons, List.nodup_cons] at h
    rw [List.lookup_cons]
    rcases List.mem_cons.mp hm with e | hm'
    · simp only [Prod.mk.injEq] at e
      rw [e.1, e.2]; simp
    · have : k ≠ a := by
        rintro rfl
        exact h.1 (List.mem_map.mpr ⟨(k, v), hm', rfl⟩)
      rw [beq_eq_false_iff_ne.mpr this]
      exact ih h.2 hm'

/-- C58. Whatever the order in which the downloads take their steps: the entries are those of the
certificates whose file was written, each once; nothing else is written, except the first bytes of a
certificate whose writing failed; and when no two of the files opened share a path, every path in the
index holds its own certificate in the end. -/
theorem index_complete (tasks : List (Written × Option Product)) (ss : List FetchStep)
    (h : Schedule (tasks.map fun t => taskSteps t.1 t.2) ss) :
    let final := ss.foldl FetchState.step {}
    final.entries.Perm ((writtenProducts tasks).map (·.entry)) ∧
    (∀ f c, (f, c) ∈ final.files ↔ (∃ p ∈ writtenProducts tasks, p.entry.path = f ∧ p.content = c) ∨
      ∃ k p, (.torn k, some p) ∈ tasks ∧ p.entry.path = f ∧ p.content.take k = c) ∧
    (((openedProducts tasks).map (·.entry.path)).Nodup →
      ∀ p ∈ writtenProducts tasks, final.files.lookup p.entry.path = some p.content) := by
  intro final
  have hp := schedule_perm h
  have he : final.entries.Perm ((writtenProducts tasks).map (·.entry)) := by
    show (ss.foldl FetchState.step {}).entries.Perm _
    rw [run_entries, ← tasks_added]
    exact hp.filterMap _
  have hfiles : final.files.Perm (storedFiles tasks) := by
    show (ss.foldl FetchState.step {}).files.Perm _
    rw [run_files, ← tasks_saved, List.append_nil]
    exact (List.reverse_perm _).trans (hp.filterMap _)
  refine ⟨he, ?_, ?_⟩
  · intro f c
    rw [hfiles.mem_iff, stored_iff]
  · intro hn p hm
    apply lookup_of_nodup
    · have := hfiles.map Prod.fst
      rw [stored_paths] at this
      exact this.nodup_iff.mpr hn
    · rw [hfiles.mem_iff, stored_iff]
      exact .inl ⟨p, hm, rfl, rfl⟩

/-- C58. Finding. A certificate of the index can end up damaged: when two certificates have the same
holder and the writing of the second fails halfway, the index has the first, and its file the first
bytes of the second. -/
theorem index_file_damaged (a b : Product) (k : Nat) (h : a.entry.path = b.entry.path) :
    ∃ ss, Schedule ([(.done, some a), (.torn k, some b)].map fun t => taskSteps t.1 t.2) ss ∧
      (ss.foldl FetchState.step {}).entries = [a.entry] ∧
      (ss.foldl FetchState.step {}).files.lookup a.entry.path = some (b.content.take k) := by
  refine ⟨[.save a.entry.path a.content, .add a.entry, .save b.entry.path (b.content.take k)],
    .run (before := []) (.run (before := []) (.run (before := [[]]) (after := []) (.done (by simp)))), rfl, ?_⟩
  simp [FetchState.step, h]

/-- Finding. Two certificates for the same holder are saved under one name: the index has both, one
file remains, and which one depends on the schedule. -/
theorem index_same_holder_overwrites (a b : Product) (h : a.entry.path = b.entry.path) (hc : a.content ≠ b.content) :
    ∃ ss ss', Schedule ([(.done, some a), (.done, some b)].map fun t => taskSteps t.1 t.2) ss ∧
      Schedule ([(.done, some a), (.done, some b)].map fun t => taskSteps t.1 t.2) ss' ∧
      (ss.foldl FetchState.step {}).entries.length = 2 ∧ (ss'.foldl FetchState.step {}).entries.length = 2 ∧
      (ss.foldl FetchState.step {}).files.lookup a.entry.path = some b.content ∧
      (ss'.foldl FetchState.step {}).files.lookup b.entry.path = some a.content ∧ a.content ≠ b.content := by
  refine ⟨[.save a.entry.path a.content, .add a.entry, .save b.entry.path b.content, .add b.entry],
    [.save b.entry.path b.content, .add b.entry, .save a.entry.path a.content, .add a.entry], ?_, ?_, rfl, rfl, ?_, ?_, hc⟩
  · exact .run (before := []) (.run (before := []) (.run (before := [[]]) (after := []) (.run (before := [[]]) (after := [])
      (.done (by simp)))))
  · exact .run (before := [_]) (after := []) (.run (before := [_]) (after := []) (.run (before := []) (.run (before := [])
      (.done (by simp)))))
  · simp [FetchState.step, h]
  · simp [FetchState.step, h]

/-! ### The order -/

/-- No date, or a time in the notation of RFC 3339. -/
def DateOrNone (s : Bytes) : Prop := s = [] ∨ ∃ y m d h i x, TimeText s y m d h i x

theorem dateOrNone_iff (s : Bytes) : DateOrNone s ↔
    s = [] ∧ parseInstant s = none ∨ ∃ c, parseInstant s = some c ∧ s = rfc3339 c ∧ c.year < 10000 ∧ c.Valid := by
  unfold DateOrNone
  constructor
  · rintro (rfl | ⟨y, m, d, h, i, x, ht⟩)
    · exact .inl ⟨rfl, rfl⟩
    · have := (timeText_iff _ _ _ _ _ _ _).mp ht
      exact .inr ⟨_, (parseInstant_iff _ _).mpr this, this⟩
  · rintro (⟨rfl, _⟩ | ⟨⟨y, m, d, h, i, x⟩, _, ht⟩)
    · exact .inl rfl
    · exact .inr ⟨y, m, d, h, i, x, (timeText_iff _ _ _ _ _ _ _).mpr ht⟩

theorem rfc3339_ne_nil (c : Civil) : rfc3339 c ≠ [] := by simp [rfc3339, pad4, pad2]

theorem bytes_lt_of {a b : Bytes} (h : ¬ b < a) (hne : a ≠ b) : a < b := by
  have h : a ≤ b := h
  rcases List.le_iff_lt_or_eq.mp h with h | h
  · exact h
  · exact absurd h hne

theorem bytes_lt_asymm {a b : Bytes} (h : a < b) : ¬ b < a := List.lt_asymm h

/-- The comparison of the tool is the specified order. -/
theorem entryLess_iff {a b : IndexEntry} (ha : DateOrNone a.expiration) (hb : DateOrNone b.expiration) :
    entryLess b a = false ↔ InOrder a b := by
  unfold entryLess InOrder
  by_cases hc : b.country = a.country
  · rw [if_neg (by simpa using hc)]
    have h1 : ¬ a.country < a.country := List.lt_irrefl _
    rw [hc]
    simp only [h1, true_and, false_or]
    rcases (dateOrNone_iff _).mp hb with ⟨eb, pb⟩ | ⟨s, pb, eb, sy, sv⟩
    · rw [pb]
      cases parseInstant a.expiration <;> simp [eb]
    · rcases (dateOrNone_iff _).mp ha with ⟨ea, pa⟩ | ⟨t, pa, ea, ty, tv⟩
      · rw [pa, pb]
        simp [ea, eb, rfc3339_ne_nil]
      · rw [pa, pb]
        simp only [decide_eq_false_iff_not]
        rw [instant_lt_iff tv sv, ← rfc3339_lt_iff tv sv ty sy, ea, eb]
        simp only [rfc3339_ne_nil, false_or, ne_eq, not_false_eq_true, true_and]
        exact Iff.rfl
  · rw [if_pos hc, decide_eq_false_iff_not]
    constructor
    · intro h; exact .inl (bytes_lt_of h (fun e => hc e.symm))
    · rintro (h | h)
      · exact bytes_lt_asymm h
      · exact absurd h.1.symm hc

/-- C58. Whatever `sort.Slice` returns within its contract, the index is ordered as specified. -/
theorem index_ordered (entries out : List IndexEntry) (h : SortedBy entryLess entries out)
    (hd : ∀ e ∈ entries, DateOrNone e.expiration) : out.Pairwise InOrder := by
  refine h.2.imp_of_mem ?_
  intro a b ha hb hab
  exact (entryLess_iff (hd a (h.1.mem_iff.mp ha)) (hd b (h.1.mem_iff.mp hb))).mp hab

/-- Two entries each of which may stand before the other agree in country and expiration. -/
theorem inOrder_antisymm {a b : IndexEntry} (h : InOrder a b) (h' : InOrder b a) :
    a.country = b.country ∧ a.expiration = b.expiration := by
  rcases h with h | ⟨hc, h⟩
  · rcases h' with h' | ⟨hc', _⟩
    · exact absurd h' (bytes_lt_asymm h)
    · rw [hc'] at h; exact absurd h (List.lt_irrefl _)
  · refine ⟨hc, ?_⟩
    rcases h' with h' | ⟨_, h'⟩
    · rw [hc] at h'; exact absurd h' (List.lt_irrefl _)
    · rcases h with h | ⟨h1, h2⟩ <;> rcases h' with h' | ⟨h3, h4⟩
      · rw [h, h']
      · exact absurd h h3
      · exact absurd h' h1
      · exact List.le_antisymm h4 h2

/-- C58. When no two certificates have the same country and the same expiration, the list in the index
does not depend on the order of the downloads, nor on how the sort treats equal elements. -/
theorem index_reproducible (tasks : List (Written × Option Product)) (ss ss' : List FetchStep)
    (h : Schedule (tasks.map fun t => taskSteps t.1 t.2) ss)
    (h' : Schedule (tasks.map fun t => taskSteps t.1 t.2) ss') (out out' : List IndexEntry)
    (hs : SortedBy entryLess (ss.foldl FetchState.step {}).entries out)
    (hs' : SortedBy entryLess (ss'.foldl FetchState.step {}).entries out')
    (hd : ∀ p ∈ writtenProducts tasks, DateOrNone p.entry.expiration)
    (hu : ∀ p ∈ writtenProducts tasks, ∀ q ∈ writtenProducts tasks, p.entry.country = q.entry.country →
      p.entry.expiration = q.entry.expiration → p.entry = q.entry) : out = out' := by
  have c := (index_complete tasks ss h).1
  have c' := (index_complete tasks ss' h').1
  have mem : ∀ {e : IndexEntry} {l : List IndexEntry}, l.Perm ((writtenProducts tasks).map (·.entry)) → e ∈ l →
      ∃ p ∈ writtenProducts tasks, p.entry = e := by
    intro e l hl he
    exact List.mem_map.mp (hl.mem_iff.mp he)
  have dates : ∀ {l : List IndexEntry}, l.Perm ((writtenProducts tasks).map (·.entry)) →
      ∀ e ∈ l, DateOrNone e.expiration := by
    intro l hl e he
    obtain ⟨p, hp, rfl⟩ := mem hl he
    exact hd p hp
  refine List.Perm.eq_of_pairwise (le := InOrder) ?_ (index_ordered _ _ hs (dates c)) (index_ordered _ _ hs' (dates c'))
    ((hs.1.trans c).trans (hs'.1.trans c').symm)
  intro a b ha hb hab hba
  obtain ⟨p, hp, rfl⟩ := mem (hs.1.trans c) ha
  obtain ⟨q, hq, rfl⟩ := mem (hs'.1.trans c') hb
  obtain ⟨e1, e2⟩ := inOrder_antisymm hab hba
  exact hu p hp q hq e1 e2

/-- Finding. With two certificates of one country that expire together, the same downloads can give two
different indexes. -/
theorem index_not_reproducible (a b : IndexEntry) (hc : a.country = b.country) (he : a.expiration = b.expiration)
    (ha : DateOrNone a.expiration) (hne : a ≠ b) :
    SortedBy entryLess [a, b] [a, b] ∧ SortedBy entryLess [a, b] [b, a] ∧ [a, b] ≠ [b, a] := by
  have hb : DateOrNone b.expiration := he ▸ ha
  have o1 : InOrder a b := by
    refine .inr ⟨hc, ?_⟩
    by_cases h : b.expiration = []
    · exact .inl h
    · exact .inr ⟨he ▸ h, by rw [he]; exact List.le_refl _⟩
  have o2 : InOrder b a := by
    refine .inr ⟨hc.symm, ?_⟩
    by_cases h : a.expiration = []
    · exact .inl h
    · exact .inr ⟨he ▸ h, by rw [he]; exact List.le_refl _⟩
  refine ⟨⟨.refl _, ?_⟩, ⟨.swap _ _ _, ?_⟩, ?_⟩
  · simp [(entryLess_iff ha hb).mpr o1]
  · simp [(entryLess_iff hb ha).mpr o2]
  · intro h
    simp only [List.cons.injEq, and_true] at h
    exact hne h.1

end Tacho
