import Verif.Props.FetchClient
import Verif.Spec.FetchRun
/-!
# A run of the certificate index tool (C64)
-/

namespace Tacho
open Spec

/-! ## The directory -/

theorem lookup_del (d : Disk) (p q : Bytes) : (d.del p).lookup q = if q = p then none else d.lookup q := by
  induction d with
  | nil => simp [Disk.del]
  | cons f d ih =>
    obtain ⟨k, v⟩ := f
    unfold Disk.del at ih ⊢
    by_cases hk : k = p
    · subst hk
      rw [List.filter_cons_of_neg (by simp), ih, List.lookup_cons]
      by_cases hq : q = k
      · simp [hq]
      · rw [if_neg hq, if_neg hq, beq_eq_false_iff_ne.mpr hq]
    · rw [List.filter_cons_of_pos (by simpa using hk), List.lookup_cons, List.lookup_cons, ih]
      by_cases hq : q = k
      · subst hq; simp [hk]
      · rw [beq_eq_false_iff_ne.mpr hq]

theorem lookup_put (d : Disk) (p c q : Bytes) : (d.put p c).lookup q = if q = p then some c else d.lookup q := by
  unfold Disk.put
  rw [List.lookup_cons]
  by_cases hq : q = p
  · simp [hq]
  · rw [beq_eq_false_iff_ne.mpr hq, if_neg hq]
    show (d.del p).lookup q = _
    rw [lookup_del, if_neg hq]

/-- The path a change is about. -/
def DiskOp.path : DiskOp → Bytes
  | .remove p => p
  | .write p _ => p

theorem lookup_apply_other (d : Disk) (op : DiskOp) (q : Bytes) (h : op.path ≠ q) :
    (d.apply op).lookup q = d.lookup q := by
  cases op with
  | remove p => exact (lookup_del d p q).trans (if_neg fun e => h e.symm)
  | write p c => exact (lookup_put d p c q).trans (if_neg fun e => h e.symm)

theorem run_append (d : Disk) (a b : List DiskOp) : d.run (a ++ b) = (d.run a).run b := List.foldl_append

theorem run_cons (d : Disk) (op : DiskOp) (ops : List DiskOp) : d.run (op :: ops) = (d.apply op).run ops := rfl

theorem lookup_run_other (ops : List DiskOp) (d : Disk) (q : Bytes) (h : ∀ op ∈ ops, op.path ≠ q) :
    (d.run ops).lookup q = d.lookup q := by
  induction ops generalizing d with
  | nil => rfl
  | cons op ops ih =>
    rw [run_cons, ih _ fun o ho => h o (List.mem_cons_of_mem _ ho)]
    exact lookup_apply_other d op q (h op List.mem_cons_self)

theorem lookup_run_removes (ps : List Bytes) (d : Disk) (q : Bytes) :
    (d.run (ps.map .remove)).lookup q = if q ∈ ps then none else d.lookup q := by
  induction ps generalizing d with
  | nil => simp [Disk.run]
  | cons p ps ih =>
    rw [List.map_cons, run_cons, ih, show d.apply (.remove p) = d.del p from rfl, lookup_del]
    by_cases h1 : q ∈ ps <;> by_cases h2 : q = p <;> simp [h1, h2]

theorem lookup_run_writes (ws : List (Bytes × Bytes)) (d : Disk) (q : Bytes) :
    (d.run (ws.map fun w => .write w.1 w.2)).lookup q = ((ws.reverse.lookup q).or (d.lookup q)) := by
  induction ws generalizing d with
  | nil => simp [Disk.run]
  | cons w ws ih =>
    rw [List.map_cons, run_cons, ih, show d.apply (.write w.1 w.2) = d.put w.1 w.2 from rfl, lookup_put, List.reverse_cons]
    have : (ws.reverse ++ [w]).lookup q = (ws.reverse.lookup q).or ([w].lookup q) := by
      generalize ws.reverse = l
      induction l with
      | nil => simp
      | cons x l ih => rw [List.cons_append, List.lookup_cons, List.lookup_cons, ih]; split <;> simp
    rw [this, Option.or_assoc]
    congr 1
    rw [List.lookup_cons]
    by_cases hq : q = w.1
    · simp [hq]
    · rw [beq_eq_false_iff_ne.mpr hq, if_neg hq]; simp

/-! ## Sequences of changes -/

theorem bind_ops {α β : Type} (x : Io α) (f : α → Io β) (op : DiskOp) (h : op ∈ (x.bind f).ops) :
    op ∈ x.ops ∨ ∃ a, x.result = .ok a ∧ op ∈ (f a).ops := by
  unfold Io.bind at h
  split at h
  · rename_i a ha
    rcases List.mem_append.mp h with h | h
    · exact .inl h
    · exact .inr ⟨a, ha, h⟩
  · exact .inl h
  · exact .inl h

theorem bind_result {α β : Type} {x : Io α} {f : α → Io β} {b : β} (h : (x.bind f).result = .ok b) :
    ∃ a, x.result = .ok a ∧ (f a).result = .ok b ∧ (x.bind f).ops = x.ops ++ (f a).ops := by
  unfold Io.bind at h ⊢
  split at h <;> first | contradiction | skip
  rename_i a ha
  exact ⟨a, ha, h, rfl⟩

theorem lift_ops {α : Type} (r : Res α) : (Io.lift r).ops = [] := rfl
theorem lift_result {α : Type} (r : Res α) : (Io.lift r).result = r := rfl

/-- All changes up to the last concern files ending in ".bin"; the last, if the run succeeds or fails at
it, is the index. -/
def Shape (w : Written) (data : Bytes → Prop) (x : Io Unit) : Prop :=
  (x.result ≠ .ok () ∧ ∀ op ∈ x.ops, ∃ s, op.path = s ++ ascii ".bin") ∨
  ∃ pre c c', (x.result = .ok () ∧ w = .done ∧ c' = c ∨ x.result ≠ .ok () ∧ ∃ k, w = .torn k ∧ c' = c.take k) ∧
    x.ops = pre ++ [.write indexPath c'] ∧ data c ∧ ∀ op ∈ pre, ∃ s, op.path = s ++ ascii ".bin"

theorem shape_bind {α : Type} {w : Written} {data : Bytes → Prop} (x : Io α) (f : α → Io Unit)
    (hx : ∀ op ∈ x.ops, ∃ s, op.path = s ++ ascii ".bin") (hf : ∀ a, x.result = .ok a → Shape w data (f a)) :
    Shape w data (x.bind f) := by
  unfold Io.bind
  split
  · rename_i a ha
    rcases hf a ha with ⟨h1, h2⟩ | ⟨pre, c, c', h1, h2, h3, h4⟩
    · refine .inl ⟨h1, ?_⟩
      intro op ho
      rcases List.mem_append.mp ho with ho | ho
      · exact hx op ho
      · exact h2 op ho
    · refine .inr ⟨x.ops ++ pre, c, c', h1, by simp [h2], h3, ?_⟩
      intro op ho
      rcases List.mem_append.mp ho with ho | ho
      · exact hx op ho
      · exact h4 op ho
  · exact .inl ⟨by simp, hx⟩
  · exact .inl ⟨by simp, hx⟩

/-! ## Paths -/

theorem cleanParts_last (cs stack : List Bytes) (c : Bytes) (h1 : c ≠ []) (h2 : c ≠ [0x2E]) (h3 : c ≠ [0x2E, 0x2E]) :
    ∃ ps, cleanParts stack (cs ++ [c]) = ps ++ [c] := by
  induction cs generalizing stack with
  | nil =>
    refine ⟨stack.reverse, ?_⟩
    rw [List.nil_append, cleanParts.eq_def]
    simp only [h1, h2, h3, or_self, if_false]
    rw [cleanParts.eq_def]
    simp
  | cons x cs ih =>
    rw [List.cons_append, cleanParts.eq_def]
    dsimp only
    split
    · exact ih _
    · split
      · split
        · split <;> exact ih _
        · exact ih _
      · exact ih _

theorem splitOn_append_last (sep : UInt8) (s t : Bytes) (h : sep ∉ t) :
    ∃ cs u, splitOn sep (s ++ t) = cs ++ [u ++ t] := by
  induction s with
  | nil => exact ⟨[], [], by simp [splitOn_none h]⟩
  | cons b s ih =>
    obtain ⟨cs, u, e⟩ := ih
    rw [List.cons_append, splitOn, e]
    by_cases hb : b = sep
    · exact ⟨[] :: cs, u, by simp [hb]⟩
    · cases cs with
      | nil => exact ⟨[], b :: u, by simp [hb]⟩
      | cons c cs => exact ⟨(b :: c) :: cs, u, by simp [hb]⟩

theorem intercalate_last (sep c : Bytes) (ps : List Bytes) : ∃ s, sep.intercalate (ps ++ [c]) = s ++ c := by
  induction ps with
  | nil => exact ⟨[], by simp⟩
  | cons p ps ih =>
    obtain ⟨s, es⟩ := ih
    cases ps with
    | nil => exact ⟨p ++ sep, by simp [List.intercalate]⟩
    | cons q ps =>
      refine ⟨p ++ sep ++ s, ?_⟩
      have : sep.intercalate (p :: q :: (ps ++ [c])) = p ++ sep ++ sep.intercalate (q :: (ps ++ [c])) := by
        simp [List.intercalate]
      simp only [List.cons_append] at es ⊢
      rw [this, es]
      simp

/-- Whatever the page says, the path of a certificate file ends in ".bin". -/
theorem joinPath_bin (dir chr name : Bytes) : ∃ s, joinPath dir (certFilename chr name) = s ++ ascii ".bin" := by
  unfold joinPath certFilename
  generalize (if chr ≠ [] then chr else name) = x
  obtain ⟨cs, u, e⟩ := splitOn_append_last 0x2F (dir ++ [0x2F] ++ x) (ascii ".bin") (by decide)
  rw [show dir ++ [0x2F] ++ (x ++ ascii ".bin") = dir ++ [0x2F] ++ x ++ ascii ".bin" from by simp, e]
  have hl : 4 ≤ (u ++ ascii ".bin").length := by
    rw [show ascii ".bin" = [0x2E, 0x62, 0x69, 0x6E] from by decide]; simp
  obtain ⟨ps, ep⟩ := cleanParts_last cs [] (u ++ ascii ".bin") (by intro h; rw [h] at hl; simp at hl)
    (by intro h; rw [h] at hl; simp at hl) (by intro h; rw [h] at hl; simp at hl)
  rw [ep]
  split
  · rename_i h; simp at h
  · obtain ⟨s, es⟩ := intercalate_last [0x2F] (u ++ ascii ".bin") ps
    exact ⟨s ++ u, by rw [es]; simp⟩

theorem bin_ne_index {s : Bytes} {p : Bytes} (h : p = s ++ ascii ".bin") : p ≠ indexPath := by
  intro e
  have := congrArg List.getLast? (e.symm.trans h)
  rw [List.getLast?_append] at this
  rw [show (ascii ".bin").getLast? = some 0x6E from by decide, show indexPath.getLast? = some 0x6E from by decide] at this
  have h2 := congrArg (fun l : Bytes => l.reverse[1]?) (e.symm.trans h)
  rw [List.reverse_append] at h2
  rw [show (ascii ".bin").reverse = [0x6E, 0x69, 0x62, 0x2E] from by decide,
    show indexPath.reverse = [0x6E, 0x6F, 0x73, 0x6A, 0x2E, 0x78, 0x65, 0x64, 0x6E, 0x69] from by decide] at h2
  simp at h2

/-! ## Cleaning -/

theorem glob_iff (d : Disk) (dir p : Bytes) :
    p ∈ globBin d dir ↔ (∃ c, d.lookup p = some c) ∧ ∃ name, p = dir ++ ascii "/" ++ name ++ ascii ".bin" ∧ 0x2F ∉ name := by
  have hkey : p ∈ d.map (·.1) ↔ ∃ c, d.lookup p = some c := by
    induction d with
    | nil => simp
    | cons f d ih =>
      rw [List.map_cons, List.mem_cons, ih, List.lookup_cons]
      by_cases hp : p = f.1
      · simp [hp]
      · rw [beq_eq_false_iff_ne.mpr hp]; simp [hp]
  unfold globBin
  rw [List.mem_filter, hkey, show ascii "/" = [0x2F] from by decide]
  simp only [Bool.and_eq_true, Bool.not_eq_true', List.isPrefixOf_iff_prefix, List.isSuffixOf_iff_suffix]
  constructor
  · rintro ⟨h, ⟨⟨t, rfl⟩, h2⟩, ⟨name, h3⟩⟩
    refine ⟨h, name, ?_⟩
    have hd : (dir ++ [0x2F] ++ t).drop (dir.length + 1) = t := by
      rw [show dir.length + 1 = (dir ++ [0x2F]).length from by simp, List.drop_left]
    rw [hd] at h2 h3
    subst h3
    refine ⟨by simp, ?_⟩
    intro hm
    simp [hm] at h2
  · rintro ⟨h, name, rfl, h2⟩
    refine ⟨h, ?_⟩
    have hd : (dir ++ [0x2F] ++ name ++ ascii ".bin").drop (dir.length + 1) = name ++ ascii ".bin" := by
      rw [show dir.length + 1 = (dir ++ [0x2F]).length from by simp, List.append_assoc _ name, List.drop_left]
    rw [hd]
    refine ⟨⟨⟨name ++ ascii ".bin", by simp⟩, ?_⟩, List.suffix_append _ _⟩
    rw [show ascii ".bin" = [0x2E, 0x62, 0x69, 0x6E] from by decide]
    simp [h2]

theorem removeFiles_spec (remove : Bytes → Bool) (ps : List Bytes) :
    (∃ k, (removeFiles remove ps).ops = (ps.take k).map .remove) ∧
    ((removeFiles remove ps).result = .ok () → (removeFiles remove ps).ops = ps.map .remove) := by
  induction ps with
  | nil => exact ⟨⟨0, rfl⟩, fun _ => rfl⟩
  | cons p ps ih =>
    obtain ⟨⟨k, hk⟩, h2⟩ := ih
    unfold removeFiles
    split
    · refine ⟨⟨k + 1, ?_⟩, ?_⟩
      · show [DiskOp.remove p] ++ (removeFiles remove ps).ops = _
        rw [hk]; rfl
      · intro h
        show [DiskOp.remove p] ++ (removeFiles remove ps).ops = _
        rw [h2 h]; rfl
    · exact ⟨⟨0, rfl⟩, fun h => by simp [Io.lift] at h⟩

theorem cleanDirs_ops (env : FetchEnv) (d : Disk) (dirs : List Bytes) :
    ∀ op ∈ (cleanDirs env d dirs).ops, ∃ dir ∈ dirs, ∃ p ∈ globBin d dir, op = .remove p := by
  induction dirs with
  | nil => intro op h; simp [cleanDirs, Io.lift] at h
  | cons dir dirs ih =>
    intro op h
    unfold cleanDirs at h
    split at h
    · rcases bind_ops _ _ _ h with h | ⟨_, _, h⟩
      · obtain ⟨k, hk⟩ := (removeFiles_spec env.remove (globBin d dir)).1
        rw [hk] at h
        obtain ⟨p, hp, rfl⟩ := List.mem_map.mp h
        exact ⟨dir, List.mem_cons_self, p, List.mem_of_mem_take hp, rfl⟩
      · obtain ⟨x, hx, r⟩ := ih op h
        exact ⟨x, List.mem_cons_of_mem _ hx, r⟩
    · simp [Io.lift] at h

theorem cleanDirs_ok (env : FetchEnv) (d : Disk) (dirs : List Bytes) (h : (cleanDirs env d dirs).result = .ok ()) :
    (cleanDirs env d dirs).ops = (dirs.flatMap (globBin d)).map .remove := by
  induction dirs with
  | nil => rfl
  | cons dir dirs ih =>
    unfold cleanDirs at h ⊢
    split at h
    · rename_i hm
      obtain ⟨_, h1, h2, h3⟩ := bind_result h
      rw [if_pos hm, h3, (removeFiles_spec env.remove (globBin d dir)).2 h1, ih h2]
      simp
    · simp [Io.lift] at h

theorem certFile_iff (p : Bytes) : CertFile p ↔ ∃ dir ∈ [ascii "root", ascii "g1", ascii "g2"],
    ∃ name, p = dir ++ ascii "/" ++ name ++ ascii ".bin" ∧ 0x2F ∉ name := by
  unfold CertFile
  simp

/-- After cleaning no certificate file is left, and nothing else is touched. -/
theorem clean_effect (env : FetchEnv) (d : Disk) (h : (createDirectoryStructure env d).result = .ok ()) (q : Bytes) :
    (CertFile q → (d.run (createDirectoryStructure env d).ops).lookup q = none) ∧
    (¬ CertFile q → (d.run (createDirectoryStructure env d).ops).lookup q = d.lookup q) := by
  unfold createDirectoryStructure at h ⊢
  rw [cleanDirs_ok _ _ _ h, lookup_run_removes]
  constructor
  · intro hq
    obtain ⟨dir, hd, name, hn, hs⟩ := (certFile_iff q).mp hq
    split
    · rfl
    · rename_i hm
      cases hl : d.lookup q with
      | none => rfl
      | some c =>
        refine absurd ?_ hm
        exact List.mem_flatMap.mpr ⟨dir, hd, (glob_iff d dir q).mpr ⟨⟨c, hl⟩, name, hn, hs⟩⟩
  · intro hq
    rw [if_neg]
    intro hm
    obtain ⟨dir, hd, hg⟩ := List.mem_flatMap.mp hm
    obtain ⟨_, name, hn, hs⟩ := (glob_iff d dir q).mp hg
    exact hq ((certFile_iff q).mpr ⟨dir, hd, name, hn, hs⟩)

theorem clean_bin (env : FetchEnv) (d : Disk) :
    ∀ op ∈ (createDirectoryStructure env d).ops, ∃ s, op.path = s ++ ascii ".bin" := by
  intro op h
  obtain ⟨dir, _, p, hp, rfl⟩ := cleanDirs_ops env d _ op h
  obtain ⟨_, name, hn, _⟩ := (glob_iff d dir p).mp hp
  exact ⟨_, hn⟩

/-! ## Tasks -/

theorem op_saved (order : List FetchStep) :
    order.filterMap FetchStep.op = (order.filterMap FetchStep.saved).map fun w => .write w.1 w.2 := by
  induction order with
  | nil => rfl
  | cons s order ih => cases s <;> simp [FetchStep.op, FetchStep.saved, ih, List.filterMap_cons]

theorem saved_perm {tasks : List (Written × Option Product)} {order : List FetchStep}
    (h : Schedule (tasks.map fun t => taskSteps t.1 t.2) order) :
    (order.filterMap FetchStep.saved).Perm (storedFiles tasks) := by
  rw [← tasks_saved]
  exact (schedule_perm h).filterMap _

theorem entries_perm {tasks : List (Written × Option Product)} {order : List FetchStep}
    (h : Schedule (tasks.map fun t => taskSteps t.1 t.2) order) :
    (order.foldl FetchState.step {}).entries.Perm ((writtenProducts tasks).map (·.entry)) :=
  (index_complete tasks order h).1

theorem opened_saved (order : List FetchStep) : openedPaths order = (order.filterMap FetchStep.saved).map Prod.fst := by
  unfold openedPaths
  induction order with
  | nil => rfl
  | cons s order ih => cases s <;> simp [FetchStep.saved, ih, List.filterMap_cons]

theorem lookup_of_key {l : List (Bytes × Bytes)} {k : Bytes} (h : k ∈ l.map Prod.fst) : ∃ v, (k, v) ∈ l ∧ l.lookup k = some v := by
  induction l with
  | nil => simp at h
  | cons x l ih =>
    obtain ⟨a, b⟩ := x
    rw [List.lookup_cons]
    by_cases hk : k = a
    · exact ⟨b, by simp [hk], by simp [hk]⟩
    · obtain ⟨v, h1, h2⟩ := ih (by simpa [hk] using h)
      exact ⟨v, by simp [h1], by rw [beq_eq_false_iff_ne.mpr hk]; exact h2⟩

/-- What the tasks of one list do to the directory. -/
theorem tasks_effect {tasks : List (Written × Option Product)} {order : List FetchStep}
    (h : Schedule (tasks.map fun t => taskSteps t.1 t.2) order) (d : Disk) :
    (∀ q, q ∉ openedPaths order → (d.run (runTasks order).ops).lookup q = d.lookup q) ∧
    ((openedPaths order).Nodup → ∀ p ∈ writtenProducts tasks,
      (d.run (runTasks order).ops).lookup p.entry.path = some p.content) ∧
    (∀ q ∈ openedPaths order, ∃ c, (q, c) ∈ storedFiles tasks ∧ (d.run (runTasks order).ops).lookup q = some c) := by
  have hp := saved_perm h
  unfold runTasks
  dsimp only
  rw [op_saved, opened_saved]
  refine ⟨?_, ?_, ?_⟩
  · intro q hq
    apply lookup_run_other
    intro op ho
    obtain ⟨w, hw, rfl⟩ := List.mem_map.mp ho
    rintro rfl
    exact hq (List.mem_map.mpr ⟨w, hw, rfl⟩)
  · intro hn p hm
    rw [lookup_run_writes, lookup_of_nodup (v := p.content)]
    · rfl
    · exact ((List.reverse_perm _).map Prod.fst).nodup_iff.mpr hn
    · rw [List.mem_reverse, hp.mem_iff, stored_iff]
      exact .inl ⟨p, hm, rfl, rfl⟩
  · intro q hq
    obtain ⟨v, h1, h2⟩ := lookup_of_key (((List.reverse_perm _).map Prod.fst).mem_iff.mpr hq)
    exact ⟨v, hp.mem_iff.mp (List.mem_reverse.mp h1), by rw [lookup_run_writes, h2]; rfl⟩

theorem tasks_bin {tasks : List (Written × Option Product)} {order : List FetchStep}
    (h : Schedule (tasks.map fun t => taskSteps t.1 t.2) order)
    (hb : ∀ p ∈ openedProducts tasks, ∃ s, p.entry.path = s ++ ascii ".bin") :
    ∀ op ∈ (runTasks order).ops, ∃ s, op.path = s ++ ascii ".bin" := by
  intro op ho
  unfold runTasks at ho
  dsimp only at ho
  rw [op_saved] at ho
  obtain ⟨w, hw, rfl⟩ := List.mem_map.mp ho
  have hw : w.1 ∈ (storedFiles tasks).map Prod.fst := List.mem_map.mpr ⟨w, (saved_perm h).mem_iff.mp hw, rfl⟩
  rw [stored_paths] at hw
  obtain ⟨p, hm, e⟩ := List.mem_map.mp hw
  obtain ⟨s, hs⟩ := hb p hm
  exact ⟨s, by rw [← hs]; exact e.symm⟩

theorem task_of_list {product : CertMeta → Res Response → Option Product} {metas : List CertMeta}
    {asked : List (Written × Res Response)} {w : Written} {p : Product} (h : (w, some p) ∈ listTasks product metas asked) :
    ∃ (i : Nat) (m : CertMeta) (get : Res Response), metas[i]? = some m ∧ asked[i]? = some (w, get) ∧
      product m get = some p := by
  unfold listTasks at h
  obtain ⟨x, hx, he⟩ := List.mem_map.mp h
  obtain ⟨i, hi⟩ := List.mem_iff_getElem?.mp hx
  rw [List.getElem?_zip_eq_some] at hi
  obtain ⟨m, b, get⟩ := x
  dsimp only at he hi
  simp only [Prod.mk.injEq] at he
  obtain ⟨rfl, he⟩ := he
  exact ⟨i, m, get, hi.1, hi.2, he⟩

theorem written_task {tasks : List (Written × Option Product)} {p : Product} :
    p ∈ writtenProducts tasks ↔ (.done, some p) ∈ tasks := by
  unfold writtenProducts
  rw [List.mem_filterMap]
  constructor
  · rintro ⟨⟨w, q⟩, hm, h⟩
    dsimp only at h
    split at h
    · rename_i hw
      subst hw h
      exact hm
    · simp at h
  · exact fun h => ⟨_, h, by simp⟩

theorem opened_task {tasks : List (Written × Option Product)} {p : Product} (h : p ∈ openedProducts tasks) :
    ∃ w, (w, some p) ∈ tasks := by
  unfold openedProducts at h
  obtain ⟨⟨w, q⟩, hm, h⟩ := List.mem_filterMap.mp h
  dsimp only at h
  split at h
  · simp at h
  · subst h; exact ⟨w, hm⟩

theorem written_of_list {product : CertMeta → Res Response → Option Product} {metas : List CertMeta}
    {asked : List (Written × Res Response)} {p : Product} (h : p ∈ writtenProducts (listTasks product metas asked)) :
    ∃ (i : Nat) (m : CertMeta) (get : Res Response), metas[i]? = some m ∧ asked[i]? = some (.done, get) ∧
      product m get = some p :=
  task_of_list (written_task.mp h)

theorem root_ops (env : FetchEnv) : ∀ op ∈ (downloadAndSaveRoot env).ops, ∃ s, op.path = s ++ ascii ".bin" := by
  intro op h
  unfold downloadAndSaveRoot at h
  rcases bind_ops _ _ _ h with h | ⟨a, _, h⟩
  · simp [Io.lift] at h
  rcases bind_ops _ _ _ h with h | ⟨_, _, h⟩
  · unfold writeFile at h
    split at h
    · simp only [List.mem_singleton] at h
      subst h
      exact ⟨ascii "root/EC_PK", show ascii "root/EC_PK.bin" = _ from by decide⟩
    · simp [Io.lift] at h
    · simp only [List.mem_singleton] at h
      subst h
      exact ⟨ascii "root/EC_PK", show ascii "root/EC_PK.bin" = _ from by decide⟩
  · simp [Io.lift] at h

theorem root_ok {env : FetchEnv} {root : Bytes} (h : (downloadAndSaveRoot env).result = .ok root) :
    downloadERCA env = .ok root ∧ (downloadAndSaveRoot env).ops = [.write (ascii "root/EC_PK.bin") root] := by
  unfold downloadAndSaveRoot at h ⊢
  obtain ⟨a, h1, h2, h3⟩ := bind_result h
  obtain ⟨_, h4, h5, h6⟩ := bind_result h2
  simp only [lift_result, Res.ok.injEq] at h5
  subst h5
  refine ⟨h1, ?_⟩
  rw [h3, h6]
  unfold writeFile at h4 ⊢
  split at h4
  · rfl
  · simp [Io.lift] at h4
  · simp at h4

theorem index_ok {env : FetchEnv} {list : Res Response} {order : List FetchStep} {es : List IndexEntry}
    (h : (indexAndDownload env list order).result = .ok es) :
    (∃ doc, fetchList env list = .ok doc) ∧ (indexAndDownload env list order).ops = (runTasks order).ops := by
  unfold indexAndDownload at h ⊢
  obtain ⟨doc, h1, _, h3⟩ := bind_result h
  exact ⟨⟨doc, h1⟩, by rw [h3]; rfl⟩

theorem index_ops {env : FetchEnv} {list : Res Response} {order : List FetchStep} {op : DiskOp}
    (h : op ∈ (indexAndDownload env list order).ops) :
    (∃ doc, fetchList env list = .ok doc) ∧ op ∈ (runTasks order).ops := by
  unfold indexAndDownload at h
  rcases bind_ops _ _ _ h with h | ⟨doc, h1, h2⟩
  · simp [Io.lift] at h
  · exact ⟨⟨doc, h1⟩, h2⟩

theorem cutOff_other {d : Disk} {ops : List DiskOp} {d' : Disk} (h : CutOff d ops d') (q : Bytes)
    (hq : ∀ op ∈ ops, op.path ≠ q) : d'.lookup q = d.lookup q := by
  induction h with
  | before => rfl
  | during d p c ops k =>
    rw [lookup_put, if_neg]
    exact fun e => hq _ List.mem_cons_self e.symm
  | after h ih =>
    rw [ih fun o ho => hq o (List.mem_cons_of_mem _ ho)]
    exact lookup_apply_other _ _ _ (hq _ List.mem_cons_self)

theorem cutOff_last {d d' : Disk} {pre : List DiskOp} {p c : Bytes} (h : CutOff d (pre ++ [.write p c]) d')
    (hp : ∀ op ∈ pre, op.path ≠ p) :
    d'.lookup p = d.lookup p ∨ ∃ k, d'.lookup p = some (c.take k) ∧
      ∀ q, q ≠ p → d'.lookup q = (d.run (pre ++ [.write p c])).lookup q := by
  induction pre generalizing d with
  | nil =>
    cases h with
    | before => exact .inl rfl
    | during _ _ _ _ k =>
      refine .inr ⟨k, by rw [lookup_put, if_pos rfl], ?_⟩
      intro q hq
      show _ = (d.put p c).lookup q
      rw [lookup_put, lookup_put, if_neg hq, if_neg hq]
    | after h =>
      cases h with
      | before =>
        refine .inr ⟨c.length, ?_, fun q _ => rfl⟩
        show (d.put p c).lookup p = _
        rw [lookup_put, if_pos rfl, List.take_length]
  | cons op pre ih =>
    have hop := hp op List.mem_cons_self
    cases h with
    | before => exact .inl rfl
    | during _ p' c' _ k =>
      refine .inl ?_
      rw [lookup_put, if_neg]
      exact fun e => hop e.symm
    | after h =>
      rcases ih h (fun o ho => hp o (List.mem_cons_of_mem _ ho)) with h | ⟨k, h1, h2⟩
      · exact .inl (h.trans (lookup_apply_other _ _ _ hop))
      · exact .inr ⟨k, h1, h2⟩

theorem cutOff_torn (d : Disk) (pre : List DiskOp) (p c : Bytes) (k : Nat) :
    CutOff d (pre ++ [.write p c]) ((d.run pre).put p (c.take k)) := by
  induction pre generalizing d with
  | nil => exact .during _ _ _ _ k
  | cons op pre ih => exact .after (ih (d.apply op))

theorem certFile_of_direct {dir p s : Bytes} (h : DirectlyIn dir p) (hb : p = s ++ ascii ".bin")
    (hd : dir = ascii "root" ∨ dir = ascii "g1" ∨ dir = ascii "g2") : CertFile p := by
  obtain ⟨name, hp, _, _, _, hs⟩ := h
  refine ⟨dir, hd, ?_⟩
  have he := hp.symm.trans hb
  rcases List.append_eq_append_iff.mp he with ⟨t, h1, h2⟩ | ⟨t, h1, h2⟩
  · refine ⟨t, ?_, ?_⟩
    · rw [hp, h2]; simp
    · intro hm; exact hs (by rw [h2]; simp [hm])
  · rcases List.eq_nil_or_concat t with rfl | ⟨t, b, rfl⟩
    · refine ⟨[], ?_, by simp⟩
      rw [hp, show name = ascii ".bin" from by simpa using h2.symm]; simp
    · rw [List.concat_eq_append, ← List.append_assoc] at h1
      have hb : b = 0x2F := by
        have := congrArg List.getLast? h1
        rw [show ascii "/" = [0x2F] from by decide] at this
        simpa using this.symm
      have : (0x2F : UInt8) ∈ ascii ".bin" := by rw [h2, hb]; simp
      exact absurd this (by decide)

theorem direct_ne {dir dir' p q : Bytes} (h : DirectlyIn dir p) (h' : DirectlyIn dir' q)
    (hd : 0x2F ∉ dir) (hd' : 0x2F ∉ dir') (hne : dir ≠ dir') : p ≠ q := by
  obtain ⟨n, rfl, _⟩ := h
  obtain ⟨n', rfl, _⟩ := h'
  intro he
  rw [show ascii "/" = [0x2F] from by decide] at he
  have : ∀ (a b : Bytes), 0x2F ∉ a → (a ++ [0x2F] ++ b).takeWhile (· != 0x2F) = a := by
    intro a b ha
    induction a with
    | nil => simp
    | cons x a ih =>
      have hx : x ≠ 0x2F := fun e => ha (by simp [e])
      simp only [List.cons_append, List.takeWhile_cons, bne_iff_ne, ne_eq, hx, not_false_eq_true, if_true]
      rw [ih fun hm => ha (List.mem_cons_of_mem _ hm)]
  have e := congrArg (List.takeWhile (· != 0x2F)) he
  rw [this _ _ hd, this _ _ hd'] at e
  exact hne e

section
variable [Crypto] [LowerCase]

omit [LowerCase] in
theorem gen1_bin {n e : Nat} {metas : List CertMeta} {asked : List (Written × Res Response)} {p : Product}
    (h : p ∈ openedProducts (listTasks (gen1Product n e) metas asked)) : ∃ s, p.entry.path = s ++ ascii ".bin" := by
  obtain ⟨w, h⟩ := opened_task h
  obtain ⟨i, m, get, h1, h2, h3⟩ := task_of_list h
  obtain ⟨_, _, hu, hp, _⟩ := gen1_product_spec n e m get p h3
  rw [hp]; exact joinPath_bin _ _ _

omit [LowerCase] in
theorem gen1_source {n e : Nat} {metas : List CertMeta} {asked : List (Written × Res Response)} {w : Written} {p : Product}
    (h : (w, some p) ∈ listTasks (gen1Product n e) metas asked) :
    ∃ (i : Nat) (m : CertMeta) (resp : Response), metas[i]? = some m ∧ asked[i]? = some (w, .ok resp) ∧ m.url = p.entry.url ∧
      resp.status = 200 ∧ resp.body = .ok p.content := by
  obtain ⟨i, m, get, h1, h2, h3⟩ := task_of_list h
  obtain ⟨_, _, hu, hp, _⟩ := gen1_product_spec n e m get p h3
  unfold gen1Product at h3
  split at h3
  case h_2 => simp at h3
  rename_i data hd
  obtain ⟨resp, hr, hs, hb, _⟩ := (download_ok_iff _ _ _).mp hd
  split at h3
  case h_2 => simp at h3
  simp only [Option.some.injEq] at h3
  subst h3
  exact ⟨i, m, resp, h1, by rw [h2, hr], hu.symm, hs, hb⟩

theorem gen2_bin {metas : List CertMeta} {asked : List (Written × Res Response)} {p : Product}
    (h : p ∈ openedProducts (listTasks gen2Product metas asked)) : ∃ s, p.entry.path = s ++ ascii ".bin" := by
  obtain ⟨w, h⟩ := opened_task h
  obtain ⟨i, m, get, h1, h2, h3⟩ := task_of_list h
  obtain ⟨_, _, hu, _, hp, _⟩ := gen2_product_spec m get p h3
  rw [hp]; exact joinPath_bin _ _ _

theorem gen2_source {metas : List CertMeta} {asked : List (Written × Res Response)} {w : Written} {p : Product}
    (h : (w, some p) ∈ listTasks gen2Product metas asked) :
    ∃ (i : Nat) (m : CertMeta) (resp : Response), metas[i]? = some m ∧ asked[i]? = some (w, .ok resp) ∧ m.url = p.entry.url ∧
      resp.status = 200 ∧ resp.body = .ok p.content := by
  obtain ⟨i, m, get, h1, h2, h3⟩ := task_of_list h
  obtain ⟨_, _, hu, _, hp, _⟩ := gen2_product_spec m get p h3
  unfold gen2Product at h3
  split at h3
  case h_2 => simp at h3
  rename_i data hd
  obtain ⟨resp, hr, hs, hb, _⟩ := (download_ok_iff _ _ _).mp hd
  split at h3
  · simp at h3
  split at h3
  case h_2 => simp at h3
  simp only [Option.some.injEq] at h3
  subst h3
  exact ⟨i, m, resp, h1, by rw [h2, hr], hu.symm, hs, hb⟩

/-- What the last step stores. -/
def IndexData (env : FetchEnv) (c : Bytes) : Prop :=
  ∃ root, downloadERCA env = .ok root ∧ c = encodeIndex env.clock (rootEntry root) env.sorted1 env.sorted2

theorem main_shape {env : FetchEnv} {base : Bytes} (hv : env.Valid base) (d : Disk) :
    Shape (env.write indexPath) (IndexData env) (fetchMain env d) := by
  unfold fetchMain
  refine shape_bind _ _ (clean_bin env d) fun _ _ => ?_
  refine shape_bind _ _ (root_ops env) fun root hroot => ?_
  refine shape_bind _ _ (by simp [Io.lift]) fun ne hne => ?_
  obtain ⟨hr, _⟩ := root_ok hroot
  refine shape_bind _ _ ?_ fun _ _ => shape_bind _ _ ?_ fun _ _ => ?_
  · intro op ho
    obtain ⟨⟨doc, hd⟩, ho⟩ := index_ops ho
    exact tasks_bin (hv.gen1 root ne.1 ne.2 doc hr hne hd).2 (fun p hp => gen1_bin hp) op ho
  · intro op ho
    obtain ⟨⟨doc, hd⟩, ho⟩ := index_ops ho
    exact tasks_bin (hv.gen2 doc hd).2 (fun p hp => gen2_bin hp) op ho
  · unfold writeIndexFile
    split
    · unfold writeFile
      rw [show ascii "index.json" = indexPath from rfl]
      split
      · rename_i hw
        exact .inr ⟨[], _, _, .inl ⟨rfl, hw, rfl⟩, rfl, ⟨root, hr, rfl⟩, by simp⟩
      · exact .inl ⟨by simp [Io.lift], by simp [Io.lift]⟩
      · rename_i hw
        exact .inr ⟨[], _, _, .inr ⟨by simp, _, hw, rfl⟩, rfl, ⟨root, hr, rfl⟩, by simp⟩
    · exact .inl ⟨by simp [Io.lift], by simp [Io.lift]⟩

/-! ## C64 -/

/-- C64. Wherever a run fails or is cut off, the index on disk is the one that was there before, unless
the run was writing it: then everything else has been done, and the file holds the first bytes of the
new index; all of them, if the run has come to its end with success. -/
theorem index_written_last {env : FetchEnv} {base : Bytes} (hv : env.Valid base) (d d' : Disk)
    (h : CutOff d (fetchMain env d).ops d') :
    d'.lookup indexPath = d.lookup indexPath ∨
    ∃ root data k, downloadERCA env = .ok root ∧ data = encodeIndex env.clock (rootEntry root) env.sorted1 env.sorted2 ∧
      d'.lookup indexPath = some (data.take k) ∧
      (∀ q, q ≠ indexPath → d'.lookup q = (d.run (fetchMain env d).ops).lookup q) ∧
      ((fetchMain env d).result = .ok () → (d.run (fetchMain env d).ops).lookup indexPath = some data) := by
  rcases main_shape hv d with ⟨_, h2⟩ | ⟨pre, c, c', h1, h2, ⟨root, hr, hc⟩, h4⟩
  · refine .inl (cutOff_other h _ ?_)
    intro op ho
    obtain ⟨s, hs⟩ := h2 op ho
    exact bin_ne_index hs
  · rw [h2] at h ⊢
    rcases cutOff_last h (fun op ho => by obtain ⟨s, hs⟩ := h4 op ho; exact bin_ne_index hs) with h | ⟨k, h5, h6⟩
    · exact .inl h
    · have hlast : (d.run (pre ++ [.write indexPath c'])).lookup indexPath = some c' := by
        rw [run_append]
        show ((d.run pre).put indexPath c').lookup indexPath = _
        rw [lookup_put, if_pos rfl]
      rcases h1 with ⟨_, _, rfl⟩ | ⟨h1, k', _, rfl⟩
      · exact .inr ⟨root, c', k, hr, hc, h5, h6, fun _ => hlast⟩
      · exact .inr ⟨root, c, min k k', hr, hc, by rw [h5, List.take_take], h6, fun h => absurd h h1⟩

/-- C64. A run that ends with an error leaves the index as it was, unless the error was in writing the
index itself: then it can leave the first bytes of the new one. -/
theorem failed_run_keeps_index {env : FetchEnv} {base : Bytes} (hv : env.Valid base) (d : Disk)
    (h : (fetchMain env d).result ≠ .ok ()) :
    (d.run (fetchMain env d).ops).lookup indexPath = d.lookup indexPath ∨
    ∃ k root, env.write indexPath = .torn k ∧ downloadERCA env = .ok root ∧
      (d.run (fetchMain env d).ops).lookup indexPath =
        some ((encodeIndex env.clock (rootEntry root) env.sorted1 env.sorted2).take k) := by
  rcases main_shape hv d with ⟨_, h2⟩ | ⟨pre, c, c', h1, h2, ⟨root, hr, hc⟩, _⟩
  · refine .inl ?_
    apply lookup_run_other
    intro op ho
    obtain ⟨s, hs⟩ := h2 op ho
    exact bin_ne_index hs
  · rcases h1 with ⟨h1, _⟩ | ⟨_, k, hk, rfl⟩
    · exact absurd h1 h
    · refine .inr ⟨k, root, hk, hr, ?_⟩
      rw [h2, run_append, ← hc]
      show ((d.run pre).put indexPath _).lookup indexPath = _
      rw [lookup_put, if_pos rfl]

omit [Crypto] [LowerCase] in
/-- C64, finding. So a full disk costs the index: a run that would succeed, but for an error while it
writes the index, leaves the first bytes of the new index and none of the old one. -/
theorem full_disk_loses_index (env : FetchEnv) (d : Disk) (k : Nat)
    (h : (fetchMain { env with write := fun q => if q = indexPath then .done else env.write q } d).result = .ok ())
    (hk : env.write indexPath = .torn k) :
    (fetchMain env d).result ≠ .ok () ∧ ∃ root, downloadERCA env = .ok root ∧
      (d.run (fetchMain env d).ops).lookup indexPath =
        some ((encodeIndex env.clock (rootEntry root) env.sorted1 env.sorted2).take k) := by
  unfold fetchMain at h
  obtain ⟨_, hclean, h, _⟩ := bind_result h
  obtain ⟨root, hroot, h, _⟩ := bind_result h
  obtain ⟨ne, hne, h, _⟩ := bind_result h
  obtain ⟨es1, hes1, h, _⟩ := bind_result h
  obtain ⟨es2, hes2, h, _⟩ := bind_result h
  have hm : env.mkdir (ascii ".") = true := by
    unfold writeIndexFile at h
    split at h
    · assumption
    · simp [Io.lift] at h
  have hclean : (createDirectoryStructure env d).result = .ok () := by
    have : ∀ dirs, cleanDirs { env with write := fun q => if q = indexPath then .done else env.write q } d dirs = cleanDirs env d dirs := by
      intro dirs
      induction dirs with
      | nil => rfl
      | cons x dirs ih => unfold cleanDirs; rw [ih]
    rw [← hclean]; exact congrArg Io.result (this _).symm
  have hroot : (downloadAndSaveRoot env).result = .ok root := by
    rw [← hroot]
    unfold downloadAndSaveRoot writeFile
    dsimp only
    rw [if_neg (show ascii "root/EC_PK.bin" ≠ indexPath from by decide)]
    rfl
  have hes1 : (indexAndDownload env env.list1 env.order1).result = .ok es1 := hes1
  have hes2 : (indexAndDownload env env.list2 env.order2).result = .ok es2 := hes2
  have hw : writeIndexFile env (rootEntry root) env.sorted1 env.sorted2 =
      ⟨[.write indexPath ((encodeIndex env.clock (rootEntry root) env.sorted1 env.sorted2).take k)], .err "failed to write file"⟩ := by
    unfold writeIndexFile writeFile
    rw [if_pos hm, show ascii "index.json" = indexPath from rfl, hk]
  obtain ⟨hr, _⟩ := root_ok hroot
  unfold fetchMain
  rw [Io.bind.eq_def, hclean]
  dsimp only
  rw [Io.bind.eq_def, hroot]
  dsimp only
  rw [lift_result] at hne
  rw [show Io.lift (fetchERCA root) = ⟨[], .ok ne⟩ from by rw [hne]; rfl]
  rw [Io.bind.eq_def]
  dsimp only
  rw [Io.bind.eq_def, hes1]
  dsimp only
  rw [Io.bind.eq_def, hes2]
  dsimp only
  rw [hw]
  refine ⟨by simp, root, hr, ?_⟩
  simp only [← List.append_assoc, run_append]
  exact (lookup_put _ _ _ _).trans (if_pos rfl)

/-- C64, finding. The index is not replaced atomically: every run that finishes passes through a state in
which the index file is empty. -/
theorem index_torn {env : FetchEnv} {base : Bytes} (hv : env.Valid base) (d : Disk)
    (h : (fetchMain env d).result = .ok ()) :
    ∃ d', CutOff d (fetchMain env d).ops d' ∧ d'.lookup indexPath = some [] := by
  rcases main_shape hv d with ⟨h1, _⟩ | ⟨pre, _, c, _, h2, _, _⟩
  · exact absurd h h1
  · rw [h2]
    exact ⟨_, cutOff_torn d pre indexPath c 0, by rw [lookup_put, if_pos rfl]; rfl⟩

/-- C64. A run that succeeds leaves: the new index; the root certificate as it came in the archive; for
every entry of the index its file, with the bytes the server delivered for the address in the
entry; no other certificate file, except the first bytes of one that could not be written; and
everything else in the directory as it was. (The files opened must have paths inside the directory of
their generation, and for what is said of the files of the entries different ones: see
`files_confined`, `file_escapes`, `index_same_holder_overwrites` and `index_file_damaged`.) -/
theorem finished_run {env : FetchEnv} {base : Bytes} (hv : env.Valid base) (d : Disk)
    (h : (fetchMain env d).result = .ok ())
    (hc1 : ∀ p ∈ openedPaths env.order1, DirectlyIn (ascii "g1") p)
    (hc2 : ∀ p ∈ openedPaths env.order2, DirectlyIn (ascii "g2") p) :
    ∃ root doc1 doc2 data, downloadERCA env = .ok root ∧ fetchList env env.list1 = .ok doc1 ∧
      fetchList env env.list2 = .ok doc2 ∧
      data = encodeIndex env.clock (rootEntry root) env.sorted1 env.sorted2 ∧
      let final := d.run (fetchMain env d).ops
      final.lookup indexPath = some data ∧ final.lookup (ascii "root/EC_PK.bin") = some root ∧
      ((openedPaths env.order1).Nodup → ∀ e ∈ env.sorted1, ∃ content, Delivered (tableRows base doc1) env.asked1 e.url content ∧
        final.lookup e.path = some content) ∧
      ((openedPaths env.order2).Nodup → ∀ e ∈ env.sorted2, ∃ content, Delivered (tableRows base doc2) env.asked2 e.url content ∧
        final.lookup e.path = some content) ∧
      (∀ q, CertFile q → q = ascii "root/EC_PK.bin" ∨ (∃ e ∈ env.sorted1 ++ env.sorted2, e.path = q) ∨
        (∃ part, (DeliveredTorn (tableRows base doc1) env.asked1 part ∨ DeliveredTorn (tableRows base doc2) env.asked2 part) ∧
          final.lookup q = some part) ∨
        final.lookup q = none) ∧
      (∀ q, ¬ CertFile q → q ≠ indexPath → final.lookup q = d.lookup q) := by
  have hmain := h
  unfold fetchMain at h
  obtain ⟨_, hclean, h, o1⟩ := bind_result h
  obtain ⟨root, hroot, h, o2⟩ := bind_result h
  obtain ⟨ne, hne, h, o3⟩ := bind_result h
  obtain ⟨es1, hes1, h, o4⟩ := bind_result h
  obtain ⟨es2, hes2, h, o5⟩ := bind_result h
  obtain ⟨hr, or⟩ := root_ok hroot
  obtain ⟨⟨doc1, hd1⟩, ot1⟩ := index_ok hes1
  obtain ⟨⟨doc2, hd2⟩, ot2⟩ := index_ok hes2
  have hw : ∃ data, data = encodeIndex env.clock (rootEntry root) env.sorted1 env.sorted2 ∧
      (writeIndexFile env (rootEntry root) env.sorted1 env.sorted2).ops = [.write indexPath data] := by
    unfold writeIndexFile at h ⊢
    split at h
    · rename_i hm
      refine ⟨_, rfl, ?_⟩
      rw [if_pos hm]
      unfold writeFile at h ⊢
      split at h
      · rfl
      · simp [Io.lift] at h
      · simp at h
    · simp [Io.lift] at h
  obtain ⟨data, hdata, ow⟩ := hw
  have hops : (fetchMain env d).ops = (createDirectoryStructure env d).ops ++ ([.write (ascii "root/EC_PK.bin") root] ++
      ((runTasks env.order1).ops ++ ((runTasks env.order2).ops ++ [.write indexPath data]))) := by
    unfold fetchMain
    rw [o1, o2, o3, o4, o5, or, ot1, ot2, ow, lift_ops]
    simp
  obtain ⟨_, s1⟩ := hv.gen1 root ne.1 ne.2 doc1 hr hne hd1
  obtain ⟨_, s2⟩ := hv.gen2 doc2 hd2
  generalize hT1 : listTasks (gen1Product ne.1 ne.2) (tableRows base doc1) env.asked1 = T1 at s1
  generalize hT2 : listTasks gen2Product (tableRows base doc2) env.asked2 = T2 at s2
  have p1 := hv.sort1.1.trans (entries_perm s1)
  have p2 := hv.sort2.1.trans (entries_perm s2)
  have m1 : ∀ e, e ∈ env.sorted1 ↔ ∃ p ∈ writtenProducts T1, p.entry = e := fun e => by rw [p1.mem_iff, List.mem_map]
  have m2 : ∀ e, e ∈ env.sorted2 ↔ ∃ p ∈ writtenProducts T2, p.entry = e := fun e => by rw [p2.mem_iff, List.mem_map]
  have o1 : ∀ q, q ∈ openedPaths env.order1 ↔ ∃ p ∈ openedProducts T1, p.entry.path = q := fun q => by
    rw [opened_saved, ((saved_perm s1).map Prod.fst).mem_iff, stored_paths, List.mem_map]
  have o2 : ∀ q, q ∈ openedPaths env.order2 ↔ ∃ p ∈ openedProducts T2, p.entry.path = q := fun q => by
    rw [opened_saved, ((saved_perm s2).map Prod.fst).mem_iff, stored_paths, List.mem_map]
  have wo : ∀ {T : List (Written × Option Product)} {p : Product}, p ∈ writtenProducts T → p ∈ openedProducts T := by
    intro T p hp
    exact List.mem_filterMap.mpr ⟨_, written_task.mp hp, rfl⟩
  have rootDir : DirectlyIn (ascii "root") (ascii "root/EC_PK.bin") :=
    ⟨ascii "EC_PK.bin", by decide, by decide, by decide, by decide, by decide⟩
  have b1 : ∀ p ∈ writtenProducts T1, Delivered (tableRows base doc1) env.asked1 p.entry.url p.content :=
    fun p hp => gen1_source (n := ne.1) (e := ne.2) (by rw [hT1]; exact written_task.mp hp)
  have b2 : ∀ p ∈ writtenProducts T2, Delivered (tableRows base doc2) env.asked2 p.entry.url p.content :=
    fun p hp => gen2_source (by rw [hT2]; exact written_task.mp hp)
  have t1 : ∀ k p, (.torn k, some p) ∈ T1 → DeliveredTorn (tableRows base doc1) env.asked1 (p.content.take k) := by
    intro k p hp
    obtain ⟨i, m, resp, h1, h2, _, h3, h4⟩ := gen1_source (n := ne.1) (e := ne.2) (by rw [hT1]; exact hp)
    exact ⟨i, m, resp, p.content, k, h1, h2, h3, h4, rfl⟩
  have t2 : ∀ k p, (.torn k, some p) ∈ T2 → DeliveredTorn (tableRows base doc2) env.asked2 (p.content.take k) := by
    intro k p hp
    obtain ⟨i, m, resp, h1, h2, _, h3, h4⟩ := gen2_source (by rw [hT2]; exact hp)
    exact ⟨i, m, resp, p.content, k, h1, h2, h3, h4, rfl⟩
  have rootBin : ascii "root/EC_PK.bin" = ascii "root/EC_PK" ++ ascii ".bin" := by decide
  have f1 : ∀ q ∈ openedPaths env.order1, CertFile q := fun q hq => by
    obtain ⟨p, hp, e⟩ := (o1 q).mp hq
    obtain ⟨s, hs⟩ := gen1_bin (n := ne.1) (e := ne.2) (by rw [hT1]; exact hp)
    exact certFile_of_direct (hc1 q hq) (e.symm.trans hs) (.inr (.inl rfl))
  have f2 : ∀ q ∈ openedPaths env.order2, CertFile q := fun q hq => by
    obtain ⟨p, hp, e⟩ := (o2 q).mp hq
    obtain ⟨s, hs⟩ := gen2_bin (by rw [hT2]; exact hp)
    exact certFile_of_direct (hc2 q hq) (e.symm.trans hs) (.inr (.inr rfl))
  have fr : CertFile (ascii "root/EC_PK.bin") := certFile_of_direct rootDir rootBin (.inl rfl)
  have hidx : ∀ q, CertFile q → q ≠ indexPath := by
    rintro q ⟨_, _, name, hq, _⟩
    exact bin_ne_index hq
  refine ⟨root, doc1, doc2, data, hr, hd1, hd2, hdata, ?_⟩
  dsimp only
  rw [hops, run_append, run_append, run_append, run_append]
  have step5 : ∀ (x : Disk) q, (x.run [.write indexPath data]).lookup q = if q = indexPath then some data else x.lookup q :=
    fun x q => lookup_put x indexPath data q
  have step2 : ∀ (x : Disk) q, (x.run [.write (ascii "root/EC_PK.bin") root]).lookup q =
      if q = ascii "root/EC_PK.bin" then some root else x.lookup q := fun x q => lookup_put x _ root q
  have e1 := clean_effect env d hclean
  generalize d.run (createDirectoryStructure env d).ops = d1 at *
  have e3 := tasks_effect s1 (d1.run [.write (ascii "root/EC_PK.bin") root])
  generalize hD2 : d1.run [.write (ascii "root/EC_PK.bin") root] = d2 at *
  have e4 := tasks_effect s2 (d2.run (runTasks env.order1).ops)
  generalize d2.run (runTasks env.order1).ops = d3 at *
  generalize d3.run (runTasks env.order2).ops = d4 at *
  refine ⟨by rw [step5, if_pos rfl], ?_, ?_, ?_, ?_, ?_⟩
  · rw [step5, if_neg (hidx _ fr), e4.1 _ fun hq => direct_ne (hc2 _ hq) rootDir (by decide) (by decide) (by decide) rfl,
      e3.1 _ fun hq => direct_ne (hc1 _ hq) rootDir (by decide) (by decide) (by decide) rfl, ← hD2, step2, if_pos rfl]
  · intro hn e he
    obtain ⟨p, hp, rfl⟩ := (m1 e).mp he
    have hq := (o1 _).mpr ⟨p, wo hp, rfl⟩
    refine ⟨p.content, b1 p hp, ?_⟩
    rw [step5, if_neg (hidx _ (f1 _ hq)), e4.1 _ fun h => direct_ne (hc2 _ h) (hc1 _ hq) (by decide) (by decide) (by decide) rfl,
      e3.2.1 hn p hp]
  · intro hn e he
    obtain ⟨p, hp, rfl⟩ := (m2 e).mp he
    refine ⟨p.content, b2 p hp, ?_⟩
    rw [step5, if_neg (hidx _ (f2 _ ((o2 _).mpr ⟨p, wo hp, rfl⟩))), e4.2.1 hn p hp]
  · intro q hq
    by_cases hqr : q = ascii "root/EC_PK.bin"
    · exact .inl hqr
    by_cases hqe : ∃ e ∈ env.sorted1 ++ env.sorted2, e.path = q
    · exact .inr (.inl hqe)
    refine .inr (.inr ?_)
    rw [step5, if_neg (hidx _ hq)]
    by_cases h2 : q ∈ openedPaths env.order2
    · obtain ⟨c, hs, hl⟩ := e4.2.2 q h2
      rcases (stored_iff _ _ _).mp hs with ⟨p, hp, e, _⟩ | ⟨k, p, hp, _, rfl⟩
      · exact absurd ⟨p.entry, List.mem_append.mpr (.inr ((m2 _).mpr ⟨p, hp, rfl⟩)), e⟩ hqe
      · exact .inl ⟨_, .inr (t2 k p hp), hl⟩
    rw [e4.1 q h2]
    by_cases h1 : q ∈ openedPaths env.order1
    · obtain ⟨c, hs, hl⟩ := e3.2.2 q h1
      rcases (stored_iff _ _ _).mp hs with ⟨p, hp, e, _⟩ | ⟨k, p, hp, _, rfl⟩
      · exact absurd ⟨p.entry, List.mem_append.mpr (.inl ((m1 _).mpr ⟨p, hp, rfl⟩)), e⟩ hqe
      · exact .inl ⟨_, .inl (t1 k p hp), hl⟩
    rw [e3.1 q h1, ← hD2, step2, if_neg hqr, (e1 q).1 hq]
    exact .inr rfl
  · intro q hq hqi
    rw [step5, if_neg hqi, e4.1 _ fun h => hq (f2 q h), e3.1 _ fun h => hq (f1 q h), ← hD2, step2,
      if_neg (fun e : q = _ => hq (e ▸ fr)), (e1 q).2 hq]

end

/-- C64, finding. The old certificates are gone before the first download: when the root certificate
cannot be fetched, no certificate file is left, and the index still lists them. -/
theorem failed_run_loses_certificates (env : FetchEnv) (d : Disk)
    (h1 : (createDirectoryStructure env d).result = .ok ()) (h2 : ∀ root, downloadERCA env ≠ .ok root) :
    (fetchMain env d).result ≠ .ok () ∧
    ∀ q, (d.run (fetchMain env d).ops).lookup q = none ∧ CertFile q ∨
      (d.run (fetchMain env d).ops).lookup q = d.lookup q ∧ ¬ CertFile q := by
  have hr : ∀ a, (downloadAndSaveRoot env).result ≠ .ok a := fun a h => h2 a (root_ok h).1
  have ho : (downloadAndSaveRoot env).ops = [] := by
    unfold downloadAndSaveRoot Io.bind
    split
    · rename_i a ha; exact absurd ha (h2 a)
    · rfl
    · rfl
  constructor
  · intro h
    unfold fetchMain at h
    obtain ⟨_, _, h, _⟩ := bind_result h
    obtain ⟨a, h, _⟩ := bind_result h
    exact hr a h
  · have hops : (fetchMain env d).ops = (createDirectoryStructure env d).ops := by
      unfold fetchMain
      rw [Io.bind.eq_def, h1]
      dsimp only
      rw [Io.bind.eq_def]
      split
      · rename_i a ha; exact absurd ha (hr a)
      · simp [ho]
      · simp [ho]
    intro q
    rw [hops]
    have := clean_effect env d h1 q
    by_cases hc : CertFile q
    · exact .inl ⟨this.1 hc, hc⟩
    · exact .inr ⟨this.2 hc, hc⟩


/-! ## The limit on concurrent downloads -/

theorem schedule_insert_nil {ts : List (List FetchStep)} {ss : List FetchStep} (h : Schedule ts ss) :
    ∀ a b, ts = a ++ b → Schedule (a ++ [] :: b) ss := by
  induction h with
  | done h =>
    rintro a b rfl
    refine .done ?_
    intro t ht
    simp only [List.mem_append, List.mem_cons] at ht
    rcases ht with ht | rfl | ht
    · exact h t (by simp [ht])
    · rfl
    · exact h t (by simp [ht])
  | @run before after t s ss h ih =>
    intro a b e
    rcases List.append_eq_append_iff.mp e with ⟨x, h1, h2⟩ | ⟨x, h1, h2⟩
    · cases x with
      | nil =>
        simp only [List.append_nil, List.nil_append] at h1 h2
        subst h1; subst h2
        have := ih a (t :: after) rfl
        rw [show a ++ [] :: (s :: t) :: after = (a ++ [[]]) ++ (s :: t) :: after from by simp]
        refine .run ?_
        simpa using this
      | cons y x =>
        simp only [List.cons_append, List.cons.injEq] at h2
        obtain ⟨rfl, rfl⟩ := h2
        subst h1
        have := ih (before ++ t :: x) b (by simp)
        rw [show before ++ (s :: t) :: x ++ [] :: b = before ++ (s :: t) :: (x ++ [] :: b) from by simp]
        refine .run ?_
        simpa using this
    · subst h1
      subst h2
      have := ih a (x ++ t :: after) (by simp)
      rw [show a ++ [] :: (x ++ (s :: t) :: after) = (a ++ [] :: x) ++ (s :: t) :: after from by simp]
      refine .run ?_
      simpa using this

theorem group_schedule {g k : Group} {ss : List FetchStep} (h : g.Steps ss k) (hf : Finished k) :
    Schedule (g.active ++ g.waiting) ss := by
  induction h with
  | refl g => rw [hf.1, hf.2]; exact .done (by simp)
  | silent h1 _ ih =>
    have := ih hf
    cases h1 with
    | start _ => simpa using this
    | leave => simpa using schedule_insert_nil this _ _ (List.append_assoc _ _ _)
  | visible h1 _ ih =>
    have := ih hf
    cases h1 with
    | act =>
      rw [List.append_assoc, List.cons_append]
      refine .run ?_
      simpa using this

/-- C58. With any limit on the number of concurrent downloads, the steps of a completed run are one of
the orders of `Schedule`, over which `index_complete` and the other theorems range. -/
theorem limited_run_is_schedule (limit : Option Nat) (tasks : List (List FetchStep)) (ss : List FetchStep) (k : Group)
    (h : Group.Steps ⟨limit, tasks, []⟩ ss k) (hf : Finished k) : Schedule tasks ss :=
  group_schedule h hf

/-- What is left to do. -/
def Group.left (g : Group) : Nat :=
  (g.waiting.map fun t => t.length + 2).sum + (g.active.map fun t => t.length + 1).sum

theorem group_step_left {g k : Group} {l : Option FetchStep} (h : g.Step l k) : k.left < g.left := by
  cases h with
  | start _ => simp [Group.left]; omega
  | act => simp [Group.left]
  | leave => simp [Group.left]

theorem group_progress (g : Group) (hl : g.limit ≠ some 0) (hf : ¬ Finished g) :
    ∃ l k, g.Step l k ∧ k.limit = g.limit := by
  obtain ⟨limit, waiting, active⟩ := g
  cases active with
  | cons t active =>
    cases t with
    | nil => exact ⟨none, _, .leave (before := []), rfl⟩
    | cons s t => exact ⟨some s, _, .act (before := []), rfl⟩
  | nil =>
    cases waiting with
    | nil => exact absurd ⟨rfl, rfl⟩ hf
    | cons t ts =>
      refine ⟨none, _, .start ?_, rfl⟩
      intro n hn
      have : n ≠ 0 := fun e => hl (by rw [← e]; exact hn)
      simpa using Nat.pos_of_ne_zero this

/-- C64. Unless the limit is zero, the downloads cannot get stuck: from every state the group can go on to
the end, and no run goes on for ever (each step lessens what is left). -/
theorem downloads_finish (g : Group) (hl : g.limit ≠ some 0) :
    (∃ ss k, g.Steps ss k ∧ Finished k) ∧ ∀ l k, g.Step l k → k.left < g.left := by
  refine ⟨?_, fun _ _ => group_step_left⟩
  generalize hn : g.left = n
  induction n using Nat.strongRecOn generalizing g with
  | _ n ih =>
    by_cases hf : Finished g
    · exact ⟨[], g, .refl g, hf⟩
    · obtain ⟨l, k, h1, h2⟩ := group_progress g hl hf
      obtain ⟨ss, k', h3, h4⟩ := ih k.left (hn ▸ group_step_left h1) k (h2 ▸ hl) rfl
      cases l with
      | none => exact ⟨ss, k', .silent h1 h3, h4⟩
      | some s => exact ⟨s :: ss, k', .visible h1 h3, h4⟩

/-- C64. No more downloads are under way at a time than the limit allows. -/
theorem downloads_within_limit (n : Nat) (tasks : List (List FetchStep)) (ss : List FetchStep) (k : Group)
    (h : Group.Steps ⟨some n, tasks, []⟩ ss k) : k.active.length ≤ n := by
  have : ∀ g : Group, g.Steps ss k → g.limit = some n → g.active.length ≤ n → k.active.length ≤ n := by
    clear h
    intro g h
    have step : ∀ {g k : Group} {l : Option FetchStep}, g.Step l k → g.limit = some n → g.active.length ≤ n →
        k.limit = some n ∧ k.active.length ≤ n := by
      intro g k l h h1 h2
      cases h with
      | start h => exact ⟨h1, by have := h n h1; simp; omega⟩
      | act => exact ⟨h1, by simpa using h2⟩
      | leave => exact ⟨h1, by simp at h2 ⊢; omega⟩
    induction h with
    | refl g => exact fun _ h => h
    | silent h1 _ ih => exact fun a b => ih (step h1 a b).1 (step h1 a b).2
    | visible h1 _ ih => exact fun a b => ih (step h1 a b).1 (step h1 a b).2
  exact this _ h rfl (Nat.zero_le _)

/-- C64, finding. With `-concurrency 0` the tool hangs at the first certificate: no step is possible. -/
theorem downloads_hang (t : List FetchStep) (tasks : List (List FetchStep)) (ss : List FetchStep) (k : Group)
    (h : Group.Steps ⟨some 0, t :: tasks, []⟩ ss k) : ss = [] ∧ ¬ Finished k := by
  have stuck : ∀ {l k}, ¬ Group.Step ⟨some 0, t :: tasks, []⟩ l k := by
    intro l k h
    generalize hg : (⟨some 0, t :: tasks, []⟩ : Group) = g at h
    cases h with
    | start h =>
      simp only [Group.mk.injEq] at hg
      obtain ⟨rfl, _, rfl⟩ := hg
      exact absurd (h 0 rfl) (by simp)
    | act => simp at hg
    | leave => simp at hg
  cases h with
  | refl => exact ⟨rfl, fun h => by simp [Finished] at h⟩
  | silent h1 _ => exact absurd h1 stuck
  | visible h1 _ => exact absurd h1 stuck

end Tacho
