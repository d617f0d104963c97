import Verif.Spec.ReplicaGrid
import Verif.Lemmas.Misc

/-! Lemmas about the replica directory, for `Props/ReplicaGrid.lean`. -/
namespace ZKAP
open Spec

/-! ### Listing and resolving -/

theorem list_directory_dir {g : MemoryGrid} {cap : Cap} {n : Nat} (h : directory_number cap = some n)
    {children : Dict String Cap} (hl : g.dirs.lookup n = some children) :
    g.list_directory cap = g.describe_all children := by
  cases cap with
  | chk k => exact nomatch h
  | dirWrite k | dirRead k =>
    simp only [directory_number, Option.some.injEq] at h
    subst h
    simp only [MemoryGrid.list_directory, hl]

theorem list_directory_ok {g : MemoryGrid} {cap : Cap} {entries : Dict String DirEntry}
    (h : g.list_directory cap = .ok entries) :
    ∃ n children, directory_number cap = some n ∧ g.dirs.lookup n = some children ∧
      g.describe_all children = .ok entries := by
  cases cap with
  | chk k =>
    simp only [MemoryGrid.list_directory] at h
    split at h <;> exact nomatch h
  | dirWrite k | dirRead k =>
    simp only [MemoryGrid.list_directory] at h
    split at h
    · exact nomatch h
    · rename_i children hl
      exact ⟨k, children, rfl, hl, h⟩

theorem describe_present {g : MemoryGrid} {c : Cap} (h : Present g c) : ∃ e, g.describe c = .ok e := by
  cases c with
  | chk k => obtain ⟨d, hd⟩ := h; exact ⟨_, by simp only [MemoryGrid.describe, hd]; rfl⟩
  | dirWrite k | dirRead k => obtain ⟨d, hd⟩ := h; exact ⟨_, by simp only [MemoryGrid.describe, hd]; rfl⟩

theorem describe_all_present {g : MemoryGrid} (children : Dict String Cap)
    (h : ∀ e ∈ children, Present g e.2) : ∃ entries, g.describe_all children = .ok entries := by
  induction children with
  | nil => exact ⟨[], rfl⟩
  | cons p ps ih =>
    obtain ⟨e, he⟩ := describe_present (h p List.mem_cons_self)
    obtain ⟨es, hes⟩ := ih (fun q hq => h q (List.mem_cons_of_mem _ hq))
    exact ⟨(p.1, e) :: es, by simp only [MemoryGrid.describe_all, he, hes]⟩

theorem describe_file {g : MemoryGrid} {c : Cap} {size : Nat} {ro : Cap}
    (h : g.describe c = .ok (.file size ro)) :
    ∃ k data, c = .chk k ∧ ro = .chk k ∧ g.files.lookup k = some data ∧ size = data.length := by
  cases c with
  | chk k =>
    simp only [MemoryGrid.describe] at h
    split at h
    · rename_i data hd
      simp only [Except.ok.injEq, DirEntry.file.injEq] at h
      exact ⟨k, data, rfl, h.2.symm, hd, h.1.symm⟩
    · exact nomatch h
  | dirWrite k | dirRead k =>
    simp only [MemoryGrid.describe] at h
    split at h <;> exact nomatch h

theorem describe_directory {g : MemoryGrid} {c : Cap} {ro : Cap}
    (h : g.describe c = .ok (.directory ro)) :
    ∃ m, directory_number c = some m ∧ ro = .dirRead m := by
  cases c with
  | chk k =>
    simp only [MemoryGrid.describe] at h
    split at h <;> exact nomatch h
  | dirWrite k | dirRead k =>
    simp only [MemoryGrid.describe] at h
    split at h
    · simp only [Except.ok.injEq, DirEntry.directory.injEq] at h
      exact ⟨k, rfl, h.symm⟩
    · exact nomatch h

/-- An entry of a directory that can be listed. -/
theorem listed_entry {g : MemoryGrid} {cap : Cap} {n : Nat} (hn : directory_number cap = some n)
    {children : Dict String Cap} (hl : g.dirs.lookup n = some children)
    (hp : ∀ e ∈ children, Present g e.2) :
    ∃ entries, g.list_directory cap = .ok entries ∧
      ∀ name e, entries.lookup name = some e ↔
        ∃ c, children.lookup name = some c ∧ g.describe c = .ok e := by
  obtain ⟨entries, he⟩ := describe_all_present children hp
  exact ⟨entries, (list_directory_dir hn hl).trans he,
    fun name e => describe_all_lookup g children entries he name e⟩

theorem present_step {g : MemoryGrid} (hwf : GridWF g) (op : GridOp) {c : Cap} (h : Present g c) :
    Present (g.step op) c := by
  have hdirs : ∀ n children, g.dirs.lookup n = some children →
      ∃ children', (g.step op).dirs.lookup n = some children' := by
    intro n children hl
    cases op with
    | upload d => simp only [MemoryGrid.step, MemoryGrid.upload]; split <;> exact ⟨_, hl⟩
    | make_directory =>
      simp only [MemoryGrid.step, MemoryGrid.make_directory]
      split
      · dsimp only
        rw [Dict.lookup_set]
        split
        · exact ⟨_, rfl⟩
        · exact ⟨_, hl⟩
      · exact ⟨_, hl⟩
    | link d name cap =>
      simp only [MemoryGrid.step, MemoryGrid.link]
      repeat' split
      · exact ⟨_, hl⟩
      · dsimp only
        rw [Dict.lookup_set]
        split
        · exact ⟨_, rfl⟩
        · exact ⟨_, hl⟩
      · exact ⟨_, hl⟩
    | unlink d name =>
      simp only [MemoryGrid.step, MemoryGrid.unlink]
      repeat' split
      · exact ⟨_, hl⟩
      · exact ⟨_, hl⟩
      · dsimp only
        rw [Dict.lookup_set]
        split
        · exact ⟨_, rfl⟩
        · exact ⟨_, hl⟩
      · exact ⟨_, hl⟩
  cases c with
  | chk n => obtain ⟨d, hd⟩ := h; exact ⟨d, grid_file_step hwf hd op⟩
  | dirWrite n | dirRead n => obtain ⟨d, hd⟩ := h; exact hdirs n d hd

theorem mem_of_set {κ α} [BEq κ] [LawfulBEq κ] {d : Dict κ α} {k : κ} {v : α} {e : κ × α}
    (h : e ∈ d.set k v) : e = (k, v) ∨ e ∈ d := by
  induction d with
  | nil => exact .inl (List.mem_singleton.mp h)
  | cons p ps ih =>
    simp only [Dict.set] at h
    split at h
    · rename_i hk
      rcases List.mem_cons.mp h with h | h
      · exact .inl (by rw [h, eq_of_beq hk])
      · exact .inr (List.mem_cons_of_mem _ h)
    · rcases List.mem_cons.mp h with h | h
      · exact .inr (by rw [h]; exact List.mem_cons_self)
      · exact (ih h).imp id (List.mem_cons_of_mem _)

theorem intact_step {g : MemoryGrid} (hwf : GridWF g) (hi : Intact g) (op : GridOp)
    (hlink : ∀ d n c, op = .link d n c → Present g c) : Intact (g.step op) := by
  have old : ∀ n children, g.dirs.lookup n = some children → ∀ e ∈ children,
      Present (g.step op) e.2 := fun n children hl e he => present_step hwf op (hi n children hl e he)
  intro n children hl e he
  cases op with
  | upload d =>
    refine old n children ?_ e he
    simp only [MemoryGrid.step, MemoryGrid.upload] at hl
    split at hl <;> exact hl
  | make_directory =>
    simp only [MemoryGrid.step, MemoryGrid.make_directory] at hl
    split at hl
    · dsimp only at hl
      rw [Dict.lookup_set] at hl
      split at hl
      · cases hl; exact nomatch he
      · exact old n children hl e he
    · exact old n children hl e he
  | link d name cap =>
    have hcap := present_step hwf (.link d name cap) (hlink d name cap rfl)
    cases d with
    | chk k => exact old n children hl e he
    | dirRead k => exact old n children hl e he
    | dirWrite k =>
      cases hk : g.dirs.lookup k with
      | none =>
        simp only [MemoryGrid.step, MemoryGrid.link, hk] at hl
        exact old n children hl e he
      | some cs =>
        simp only [MemoryGrid.step, MemoryGrid.link, hk] at hl
        rw [Dict.lookup_set] at hl
        split at hl
        · cases hl
          rcases mem_of_set he with rfl | he
          · exact hcap
          · exact old k cs hk e he
        · exact old n children hl e he
  | unlink d name =>
    cases d with
    | chk k => exact old n children hl e he
    | dirRead k => exact old n children hl e he
    | dirWrite k =>
      cases hk : g.dirs.lookup k with
      | none =>
        simp only [MemoryGrid.step, MemoryGrid.unlink, hk] at hl
        exact old n children hl e he
      | some cs =>
        cases hc : cs.lookup name with
        | none =>
          simp only [MemoryGrid.step, MemoryGrid.unlink, hk, hc] at hl
          exact old n children hl e he
        | some c =>
          simp only [MemoryGrid.step, MemoryGrid.unlink, hk, hc] at hl
          rw [Dict.lookup_set] at hl
          split at hl
          · cases hl
            exact old k cs hk e (List.mem_filter.mp he).1
          · exact old n children hl e he

theorem intact_run {g : MemoryGrid} (hwf : GridWF g) (hi : Intact g) (ops : List GridOp)
    (hl : LinksPresent g ops) : Intact (g.run ops) := by
  induction ops generalizing g with
  | nil => exact hi
  | cons op ops ih => exact ih (grid_wf_step hwf op) (intact_step hwf hi op hl.1) hl.2

/-! ### The replica directory -/

/-- The entries of the directory are the files, in the same order. -/
inductive Aligned (g : MemoryGrid) : Dict String Cap → Files → Prop where
  | nil : Aligned g [] []
  | cons {name : String} {k : Nat} {data : Bytes} {children : Dict String Cap} {files : Files} :
      g.files.lookup k = some data → Aligned g children files →
      Aligned g ((name, .chk k) :: children) ((name, data) :: files)

/-- The directory holds the files. -/
structure HoldsFiles (g : MemoryGrid) (n : Nat) (files : Files) : Prop where
  wf : GridWF g
  nodup : (files.map (·.1)).Nodup
  aligned : ∃ children, g.dirs.lookup n = some children ∧ Aligned g children files

theorem Aligned.mono {g g' : MemoryGrid} (h : ∀ k d, g.files.lookup k = some d → g'.files.lookup k = some d)
    {children : Dict String Cap} {files : Files} (ha : Aligned g children files) :
    Aligned g' children files := by
  induction ha with
  | nil => exact .nil
  | cons hk _ ih => exact .cons (h _ _ hk) ih

theorem Aligned.set {g : MemoryGrid} {children : Dict String Cap} {files : Files}
    (ha : Aligned g children files) {k : Nat} {data : Bytes} (hk : g.files.lookup k = some data)
    (name : String) : Aligned g (Dict.set children name (.chk k)) (Dict.set files name data) := by
  induction ha with
  | nil => exact .cons hk .nil
  | cons hk' ha ih =>
    rename_i name' _ _ _ _
    simp only [Dict.set]
    by_cases h : (name' == name) = true
    · rw [if_pos h, if_pos h]; exact .cons hk ha
    · rw [if_neg h, if_neg h]; exact .cons hk' ih

theorem Aligned.keys {g : MemoryGrid} {children : Dict String Cap} {files : Files}
    (ha : Aligned g children files) : children.map (·.1) = files.map (·.1) := by
  induction ha with
  | nil => rfl
  | cons _ _ ih => simp only [List.map_cons, ih]

theorem Aligned.filter {g : MemoryGrid} {children : Dict String Cap} {files : Files}
    (ha : Aligned g children files) (p : String → Bool) :
    Aligned g (children.filter fun kv => p kv.1) (files.filter fun kv => p kv.1) := by
  induction ha with
  | nil => exact .nil
  | cons hk _ ih =>
    simp only [List.filter_cons]
    split
    · exact .cons hk ih
    · exact ih

theorem Aligned.lookup {g : MemoryGrid} {children : Dict String Cap} {files : Files}
    (ha : Aligned g children files) (name : String) :
    (∀ data, files.lookup name = some data →
      ∃ k, children.lookup name = some (.chk k) ∧ g.files.lookup k = some data) ∧
    (files.lookup name = none → children.lookup name = none) := by
  induction ha with
  | nil => exact ⟨fun _ h => (nomatch h), fun _ => rfl⟩
  | cons hk _ ih =>
    simp only [List.lookup_cons]
    split
    · refine ⟨fun data h => ?_, fun h => (nomatch h)⟩
      cases h
      exact ⟨_, rfl, hk⟩
    · exact ih

theorem mem_of_lookup {κ α} [BEq κ] [LawfulBEq κ] {d : List (κ × α)} {k : κ} {v : α}
    (h : d.lookup k = some v) : (k, v) ∈ d := by
  induction d with
  | nil => exact nomatch h
  | cons p ps ih =>
    rw [List.lookup_cons] at h
    split at h
    · rename_i hk
      cases h
      rw [eq_of_beq hk]
      exact List.mem_cons_self
    · exact List.mem_cons_of_mem _ (ih h)

/-- How a file shows in a listing. -/
def shown (g : MemoryGrid) : Dict String Cap → Files → Dict String DirEntry → Prop
  | [], [], [] => True
  | (name, c) :: cs, (name', data) :: fs, (name'', e) :: es =>
    name = name' ∧ name = name'' ∧ (∃ k, c = .chk k ∧ e = .file data.length (.chk k) ∧
      g.files.lookup k = some data) ∧ shown g cs fs es
  | _, _, _ => False

theorem Aligned.describe {g : MemoryGrid} {children : Dict String Cap} {files : Files}
    (ha : Aligned g children files) :
    ∃ entries, g.describe_all children = .ok entries ∧ shown g children files entries := by
  induction ha with
  | nil => exact ⟨[], rfl, trivial⟩
  | cons hk _ ih =>
    rename_i name k data cs fs _
    obtain ⟨es, hes, hs⟩ := ih
    refine ⟨(name, .file data.length (.chk k)) :: es, ?_, rfl, rfl, ⟨k, rfl, rfl, hk⟩, hs⟩
    simp only [MemoryGrid.describe_all, MemoryGrid.describe, hk, hes]

theorem shown_keys {g : MemoryGrid} : ∀ {children : Dict String Cap} {files : Files}
    {entries : Dict String DirEntry}, shown g children files entries →
    entries.map (·.1) = files.map (·.1)
  | [], [], [], _ => rfl
  | (_, _) :: _, (_, _) :: _, (_, _) :: _, h => by
    simp only [shown] at h
    obtain ⟨rfl, rfl, _, hs⟩ := h
    simp only [List.map_cons, shown_keys hs]
  | [], [], _ :: _, h => h.elim
  | [], _ :: _, _, h => by cases ‹Dict String DirEntry› <;> exact h.elim
  | _ :: _, [], _, h => h.elim
  | _ :: _, _ :: _, [], h => h.elim

theorem nodup_set {κ α} [BEq κ] [LawfulBEq κ] {d : Dict κ α} (h : (d.map (·.1)).Nodup) (k : κ) (v : α) :
    ((d.set k v).map (·.1)).Nodup := by
  induction d with
  | nil => simp [Dict.set]
  | cons p ps ih =>
    obtain ⟨a, b⟩ := p
    rw [List.map_cons, List.nodup_cons] at h
    simp only [Dict.set]
    split
    · rw [List.map_cons, List.nodup_cons]; exact h
    · rename_i hk
      rw [List.map_cons, List.nodup_cons]
      refine ⟨fun hm => ?_, ih h.2⟩
      rcases (keys_set ps k v a).mp hm with rfl | hm
      · exact hk (beq_self_eq_true _)
      · exact h.1 hm

theorem holds_other {g : MemoryGrid} {n : Nat} {files : Files} (h : HoldsFiles g n files) (op : GridOp)
    (hl : (ReplicaOp.other op).leaves (.dirWrite n)) : HoldsFiles (g.step op) n files := by
  obtain ⟨hwf, hnd, children, hc, ha⟩ := h
  refine ⟨grid_wf_step hwf op, hnd, children, ?_,
    ha.mono fun k d hk => grid_file_step hwf hk op⟩
  cases op with
  | upload d => simp only [MemoryGrid.step, MemoryGrid.upload]; split <;> exact hc
  | make_directory =>
    simp only [MemoryGrid.step, MemoryGrid.make_directory]
    split
    · have := hwf.dirs n (lookup_key hc)
      dsimp only
      rw [Dict.lookup_set, if_neg (by simp; omega)]
      exact hc
    · exact hc
  | link d name cap =>
    cases d with
    | chk k => exact hc
    | dirRead k => exact hc
    | dirWrite k =>
      have hne : k ≠ n := fun e => hl (by rw [e])
      simp only [MemoryGrid.step, MemoryGrid.link]
      split
      · exact hc
      · dsimp only
        rw [Dict.lookup_set, if_neg (by simpa using fun e => hne e.symm)]
        exact hc
  | unlink d name =>
    cases d with
    | chk k => exact hc
    | dirRead k => exact hc
    | dirWrite k =>
      have hne : k ≠ n := fun e => hl (by rw [e])
      simp only [MemoryGrid.step, MemoryGrid.unlink]
      split
      · exact hc
      · split
        · exact hc
        · dsimp only
          rw [Dict.lookup_set, if_neg (by simpa using fun e => hne e.symm)]
          exact hc

theorem holds_upload {g : MemoryGrid} {n : Nat} {files : Files} (h : HoldsFiles g n files)
    (name : String) (data : Bytes) :
    (g.counter < 2 ^ 128 ∧ (direntry_upload g (.dirWrite n) name data).1 = .ok () ∧
      HoldsFiles (direntry_upload g (.dirWrite n) name data).2 n (Dict.set files name data)) ∨
    (2 ^ 128 ≤ g.counter ∧ direntry_upload g (.dirWrite n) name data = (.error .valueError, g)) := by
  obtain ⟨hwf, hnd, children, hc, ha⟩ := h
  by_cases hlt : g.counter < 2 ^ 128
  · left
    have hup : g.upload data = (.ok (.chk g.counter), g.step (.upload data)) := by
      simp only [MemoryGrid.step, MemoryGrid.upload, if_pos hlt]
    have hwf1 := grid_wf_step hwf (.upload data)
    have hc1 : (g.step (.upload data)).dirs.lookup n = some children := by
      simp only [MemoryGrid.step, MemoryGrid.upload, if_pos hlt]; exact hc
    have hf1 : (g.step (.upload data)).files.lookup g.counter = some data := by
      simp only [MemoryGrid.step, MemoryGrid.upload, if_pos hlt]
      rw [Dict.lookup_set, if_pos (beq_self_eq_true _)]
    have hlk : direntry_upload g (.dirWrite n) name data =
        (.ok (), (g.step (.upload data)).step (.link (.dirWrite n) name (.chk g.counter))) := by
      simp only [direntry_upload, hup]
      generalize g.step (.upload data) = g1 at hc1
      simp only [MemoryGrid.step, MemoryGrid.link, hc1]
    rw [hlk]
    refine ⟨hlt, rfl, by exact grid_wf_step hwf1 (.link (.dirWrite n) name (.chk g.counter)), nodup_set hnd name data,
      Dict.set children name (.chk g.counter), ?_, ?_⟩
    · generalize g.step (.upload data) = g1 at hc1
      simp only [MemoryGrid.step, MemoryGrid.link, hc1]
      rw [Dict.lookup_set, if_pos (beq_self_eq_true _)]
    · exact ((ha.mono fun k d hk => grid_file_step hwf hk _).set hf1 name).mono
        fun k d hk => by exact grid_file_step hwf1 hk (.link (.dirWrite n) name (.chk g.counter))
  · right
    exact ⟨by omega, by simp only [direntry_upload, MemoryGrid.upload, if_neg hlt]⟩

theorem holds_unlink {g : MemoryGrid} {n : Nat} {files : Files} (h : HoldsFiles g n files)
    {name : String} (hm : name ∈ files.map (·.1)) :
    ∃ g', g.unlink (.dirWrite n) name = (.ok (), g') ∧
      HoldsFiles g' n (files.filter fun kv => kv.1 != name) := by
  obtain ⟨hwf, hnd, children, hc, ha⟩ := h
  have hwf1 := grid_wf_step hwf (.unlink (.dirWrite n) name)
  obtain ⟨c, hlc⟩ : ∃ c, children.lookup name = some c := by
    cases hl : children.lookup name with
    | some c => exact ⟨c, rfl⟩
    | none => exact absurd (ha.keys ▸ hm) (Dict.lookup_eq_none_iff name |>.mp hl)
  have hu : g.unlink (.dirWrite n) name = (.ok (), g.step (.unlink (.dirWrite n) name)) := by
    simp only [MemoryGrid.step, MemoryGrid.unlink, hc, hlc]
  refine ⟨_, hu, hwf1, ?_, children.filter (fun kv => kv.1 != name), ?_, ?_⟩
  · exact List.Nodup.sublist (List.filter_sublist.map _) hnd
  · simp only [MemoryGrid.step, MemoryGrid.unlink, hc, hlc]
    rw [Dict.lookup_set, if_pos (beq_self_eq_true _)]
  · exact (ha.filter fun s => s != name).mono fun k d hk => grid_file_step hwf hk _

/-- Whether the predicate raises for one of the names. -/
def prune_outcome (predicate : String → Except PyErr Bool) : List String → Except PyErr Unit
  | [] => .ok ()
  | name :: names =>
    match predicate name with
    | .error e => .error e
    | .ok _ => prune_outcome predicate names

theorem prune_outcome_error (predicate : String → Except PyErr Bool) (e : PyErr) :
    ∀ names, prune_outcome predicate names = .error e → ∃ name ∈ names, predicate name = .error e
  | [], h => nomatch h
  | m :: ms, h => by
    rw [prune_outcome] at h
    cases hm : predicate m with
    | error e' => rw [hm] at h; cases h; exact ⟨m, List.mem_cons_self, hm⟩
    | ok b =>
      rw [hm] at h
      obtain ⟨x, hx, hx'⟩ := prune_outcome_error predicate e ms h
      exact ⟨x, List.mem_cons_of_mem _ hx, hx'⟩

theorem prune_outcome_ok (predicate : String → Except PyErr Bool) :
    ∀ names, (∀ name ∈ names, ∃ b, predicate name = .ok b) → prune_outcome predicate names = .ok ()
  | [], _ => rfl
  | m :: ms, h => by
    obtain ⟨b, hb⟩ := h m List.mem_cons_self
    rw [prune_outcome, hb]
    exact prune_outcome_ok predicate ms fun x hx => h x (List.mem_cons_of_mem _ hx)

theorem filter_ne_of_not_mem {α} (files : Dict String α) (name : String)
    (h : name ∉ files.map (·.1)) : (files.filter fun kv => kv.1 != name) = files := by
  apply List.filter_eq_self.mpr
  intro kv hkv
  simp only [bne_iff_ne, ne_eq]
  exact fun e => h (e ▸ List.mem_map_of_mem hkv)

theorem prune_entries_holds (predicate : String → Except PyErr Bool) (n : Nat) :
    ∀ (files kept : Files) (g : MemoryGrid), HoldsFiles g n (kept ++ files) →
      (prune_entries predicate (.dirWrite n) (files.map (·.1)) g).1 =
        prune_outcome predicate (files.map (·.1)) ∧
      HoldsFiles (prune_entries predicate (.dirWrite n) (files.map (·.1)) g).2 n
        (kept ++ pruned predicate files)
  | [], kept, g, h => ⟨rfl, h⟩
  | (name, data) :: rest, kept, g, h => by
    simp only [List.map_cons, prune_entries, prune_outcome, pruned]
    cases hp : predicate name with
    | error e => exact ⟨rfl, h⟩
    | ok b =>
      cases b with
      | false =>
        have := prune_entries_holds predicate n rest (kept ++ [(name, data)]) g (by simpa using h)
        simpa using this
      | true =>
        obtain ⟨g', hu, hg'⟩ := holds_unlink h (name := name) (by simp)
        simp only [hu]
        have hnd := h.nodup
        simp only [List.map_append, List.map_cons, List.nodup_append, List.nodup_cons] at hnd
        have e : ((kept ++ (name, data) :: rest).filter fun kv => kv.1 != name) = kept ++ rest := by
          rw [List.filter_append, List.filter_cons]
          simp only [bne_self_eq_false, Bool.false_eq_true, if_false]
          rw [filter_ne_of_not_mem kept name (fun hm => hnd.2.2 name hm name List.mem_cons_self rfl),
            filter_ne_of_not_mem rest name hnd.2.1.1]
        rw [e] at hg'
        exact prune_entries_holds predicate n rest kept g' hg'

theorem holds_list {g : MemoryGrid} {n : Nat} {files : Files} (h : HoldsFiles g n files) {cap : Cap}
    (hcap : directory_number cap = some n) :
    ∃ children entries, g.list_directory cap = .ok entries ∧ shown g children files entries ∧
      g.dirs.lookup n = some children := by
  obtain ⟨_, _, children, hc, ha⟩ := h
  obtain ⟨entries, he, hs⟩ := ha.describe
  exact ⟨children, entries, (list_directory_dir hcap hc).trans he, hs, hc⟩

theorem holds_prune {g : MemoryGrid} {n : Nat} {files : Files} (h : HoldsFiles g n files)
    (predicate : String → Except PyErr Bool) :
    (direntry_prune g (.dirWrite n) predicate).1 = prune_outcome predicate (files.map (·.1)) ∧
    HoldsFiles (direntry_prune g (.dirWrite n) predicate).2 n (pruned predicate files) := by
  obtain ⟨children, entries, he, hs, _⟩ := holds_list h (cap := .dirRead n) rfl
  have hk : entries.keys = files.map (·.1) := shown_keys hs
  simp only [direntry_prune, Cap.reader, he, hk]
  exact prune_entries_holds predicate n files [] g h

theorem holds_run (n : Nat) : ∀ (ops : List ReplicaOp) (g : MemoryGrid) (files : Files),
    HoldsFiles g n files → (∀ op ∈ ops, op.leaves (.dirWrite n)) →
    HoldsFiles (replica_run (.dirWrite n) g ops) n
      (expected files (ops.zip (replica_outcomes (.dirWrite n) g ops)))
  | [], _, _, h, _ => h
  | op :: ops, g, files, h, hl => by
    have hl' := fun o ho => hl o (List.mem_cons_of_mem _ ho)
    simp only [replica_run, replica_outcomes, List.zip_cons_cons]
    cases op with
    | upload name data =>
      rcases holds_upload h name data with ⟨_, h1, h2⟩ | ⟨_, h1⟩
      · simp only [ReplicaOp.exec, h1, expected]
        exact holds_run n ops _ _ h2 hl'
      · simp only [ReplicaOp.exec, h1, expected]
        exact holds_run n ops _ _ h hl'
    | prune predicate =>
      simp only [ReplicaOp.exec, expected]
      exact holds_run n ops _ _ (holds_prune h predicate).2 hl'
    | other op =>
      simp only [ReplicaOp.exec, expected]
      exact holds_run n ops _ _ (holds_other h op (hl _ List.mem_cons_self)) hl'

theorem holds_new {g : MemoryGrid} (hwf : GridWF g) {dir : Cap} (h : g.make_directory.1 = .ok dir) :
    ∃ n, dir = .dirWrite n ∧ HoldsFiles g.make_directory.2 n [] := by
  have hw := grid_wf_step hwf .make_directory
  simp only [MemoryGrid.step] at hw
  by_cases hlt : g.counter < 2 ^ 128
  · simp only [MemoryGrid.make_directory, if_pos hlt, Except.ok.injEq] at h hw ⊢
    refine ⟨g.counter, h.symm, hw, List.nodup_nil, [], ?_, .nil⟩
    rw [Dict.lookup_set, if_pos (beq_self_eq_true _)]
  · simp only [MemoryGrid.make_directory, if_neg hlt] at h
    exact nomatch h

theorem shown_listing {g : MemoryGrid} : ∀ {children : Dict String Cap} {files : Files}
    {entries : Dict String DirEntry}, shown g children files entries →
    (entries.map fun kv => (kv.1, match kv.2 with
        | .file size _ => (⟨"filenode", size⟩ : DirectoryEntry)
        | .directory _ => ⟨"dirnode", 0⟩)) =
      files.map fun f => (f.1, ⟨"filenode", f.2.length⟩)
  | [], [], [], _ => rfl
  | (_, _) :: _, (_, _) :: _, (_, _) :: _, h => by
    simp only [shown] at h
    obtain ⟨rfl, rfl, ⟨k, rfl, rfl, _⟩, hs⟩ := h
    simp only [List.map_cons, shown_listing hs]
  | [], [], _ :: _, h => h.elim
  | [], _ :: _, _, h => by cases ‹Dict String DirEntry› <;> exact h.elim
  | _ :: _, [], _, h => h.elim
  | _ :: _, _ :: _, [], h => h.elim

/-! ### Paths on the disk -/

theorem split_slash_one : ∀ cs : List Char, '/' ∉ cs → split_slash cs = [cs]
  | [], _ => rfl
  | c :: cs, h => by
    rw [List.mem_cons, not_or] at h
    rw [split_slash, if_neg (fun e => h.1 e.symm), split_slash_one cs h.2]

theorem normpath_normal : ∀ (p done rest : FilePath), NormalPath p →
    normpath done (p ++ rest) = normpath (p.reverse ++ done) rest
  | [], _, _, _ => rfl
  | s :: p, done, rest, h => by
    have hs := h s List.mem_cons_self
    rw [List.cons_append, normpath, if_neg (by simp [hs.1, hs.2.1]), if_neg hs.2.2,
      normpath_normal p (s :: done) rest fun t ht => h t (List.mem_cons_of_mem _ ht),
      List.reverse_cons, List.append_assoc]
    rfl

theorem private_path_one {nodedir : FilePath} (hd : NormalPath nodedir) {name : String}
    (hn : OneSegment name) (h1 : name ≠ "") (h2 : name ≠ ".") (h3 : name ≠ "..") :
    get_private_path nodedir name = nodedir ++ ["private", name] := by
  have hne : name.toList ≠ [] := fun e => h1 (String.toList_inj.mp (by rw [e]; rfl))
  have hp : NormalPath (nodedir ++ ["private", name]) := by
    intro s hs
    rcases List.mem_append.mp hs with hs | hs
    · exact hd s hs
    · rcases List.mem_cons.mp hs with rfl | hs
      · exact ⟨by decide, by decide, by decide⟩
      · rw [List.mem_singleton.mp hs]; exact ⟨h1, h2, h3⟩
  rw [get_private_path, split_slash_one _ hn, if_neg (by simp [hne])]
  simp only [List.map_cons, List.map_nil, String.ofList_toList]
  have := normpath_normal (nodedir ++ ["private", name]) [] [] hp
  rw [List.append_nil] at this
  rw [this, List.append_nil, normpath, List.reverse_reverse]

theorem stream_name {name : String} (h : IsStream name) : name ≠ "" ∧ name ≠ "." ∧ name ≠ ".." := by
  refine ⟨?_, ?_, ?_⟩ <;> rintro rfl <;> revert h <;> decide

theorem isPrefix_stream (name : String) :
    ("event-stream-".toList.isPrefixOf name.toList = true) ↔ IsStream name :=
  List.isPrefixOf_iff_prefix

theorem download_streams_paths (g : MemoryGrid) (nodedir : FilePath) (p : FilePath) :
    ∀ (entries : Dict String DirEntry) (disk : Disk),
    (download_streams g nodedir entries disk).1.lookup p ≠ disk.lookup p →
    ∃ name ∈ entries.map (·.1), IsStream name ∧ p = get_private_path nodedir name
  | [], _, h => absurd rfl h
  | (name, .directory _) :: rest, disk, h => by
    obtain ⟨m, hm, h'⟩ := download_streams_paths g nodedir p rest disk h
    exact ⟨m, List.mem_cons_of_mem _ hm, h'⟩
  | (name, .file _ ro) :: rest, disk, h => by
    rw [download_streams] at h
    split at h
    · rename_i hs
      cases hd : g.download ro with
      | error e => simp only [hd] at h; exact absurd rfl h
      | ok data =>
        simp only [hd] at h
        by_cases hp : p = get_private_path nodedir name
        · exact ⟨name, List.mem_cons_self, (isPrefix_stream name).mp hs, hp⟩
        · have hset : (Dict.set disk (get_private_path nodedir name) data).lookup p = disk.lookup p := by
            rw [Dict.lookup_set, if_neg (by simpa using hp)]
          have h1 : (download_streams g nodedir rest
              (Dict.set disk (get_private_path nodedir name) data)).1.lookup p ≠
              (Dict.set disk (get_private_path nodedir name) data).lookup p := by
            rw [hset]
            split at h <;> rename_i heq <;> rw [heq] <;> exact h
          obtain ⟨m, hm, h'⟩ := download_streams_paths g nodedir p rest _ h1
          exact ⟨m, List.mem_cons_of_mem _ hm, h'⟩
    · obtain ⟨m, hm, h'⟩ := download_streams_paths g nodedir p rest disk h
      exact ⟨m, List.mem_cons_of_mem _ hm, h'⟩

/-- The event streams among the files. -/
def streams_of (files : Files) : Files := files.filter fun f => decide (IsStream f.1)

theorem download_streams_shown {g : MemoryGrid} (nodedir : FilePath) :
    ∀ {children : Dict String Cap} {files : Files} {entries : Dict String DirEntry} (disk : Disk),
    shown g children files entries →
    download_streams g nodedir entries disk =
      ((streams_of files).foldl (fun d f => Dict.set d (get_private_path nodedir f.1) f.2) disk,
        .ok ((streams_of files).map fun f => get_private_path nodedir f.1))
  | [], [], [], _, _ => rfl
  | (_, _) :: _, (_, _) :: _, (_, _) :: _, disk, h => by
    simp only [shown] at h
    obtain ⟨rfl, rfl, ⟨k, rfl, rfl, hk⟩, hs⟩ := h
    rename_i name _ data _ _
    rw [download_streams]
    by_cases hst : IsStream name
    · rw [if_pos ((isPrefix_stream name).mpr hst)]
      simp only [MemoryGrid.download, hk]
      rw [download_streams_shown nodedir _ hs]
      simp only [streams_of, List.filter_cons, hst, decide_true, if_true, List.foldl_cons, List.map_cons]
    · rw [if_neg (fun e => hst ((isPrefix_stream name).mp e)), download_streams_shown nodedir _ hs]
      simp only [streams_of, List.filter_cons, hst, decide_false, Bool.false_eq_true, if_false]
  | [], [], _ :: _, _, h => h.elim
  | [], _ :: _, _, _, h => by cases ‹Dict String DirEntry› <;> exact h.elim
  | _ :: _, [], _, _, h => h.elim
  | _ :: _, _ :: _, [], _, h => h.elim

theorem lookup_fold_set {κ α β} [BEq κ] [LawfulBEq κ] (path : β → κ) (val : β → α) (p : κ) :
    ∀ (fs : List β) (d : Dict κ α), (∀ f ∈ fs, path f ≠ p) →
    (fs.foldl (fun d f => Dict.set d (path f) (val f)) d).lookup p = d.lookup p
  | [], _, _ => rfl
  | f :: fs, d, h => by
    rw [List.foldl_cons, lookup_fold_set path val p fs _ fun x hx => h x (List.mem_cons_of_mem _ hx),
      Dict.lookup_set, if_neg]
    intro e
    exact h f List.mem_cons_self (eq_of_beq e).symm

theorem lookup_fold_set_mem {κ α β} [BEq κ] [LawfulBEq κ] (path : β → κ) (val : β → α) :
    ∀ (fs : List β) (d : Dict κ α), (fs.map path).Nodup → ∀ f ∈ fs,
    (fs.foldl (fun d f => Dict.set d (path f) (val f)) d).lookup (path f) = some (val f)
  | [], _, _, _, hf => nomatch hf
  | x :: fs, d, hnd, f, hf => by
    rw [List.map_cons, List.nodup_cons] at hnd
    rw [List.foldl_cons]
    rcases List.mem_cons.mp hf with rfl | hf
    · rw [lookup_fold_set path val (path f) fs _ fun y hy e => hnd.1 (List.mem_map.mpr ⟨y, hy, e⟩),
        Dict.lookup_set, if_pos (beq_self_eq_true _)]
    · exact lookup_fold_set_mem path val fs _ hnd.2 f hf

theorem child_of_holds {g : MemoryGrid} {n : Nat} {files : Files} (h : HoldsFiles g n files) {cap : Cap}
    (hcap : directory_number cap = some n) (name : String) :
    download_child g cap [name] =
      match files.lookup name with
      | some data => .ok data
      | none => .error .keyError := by
  obtain ⟨_, _, children, hc, ha⟩ := h
  obtain ⟨entries, he, _⟩ := ha.describe
  have hl := (list_directory_dir hcap hc).trans he
  have hlook := describe_all_lookup g children entries he name
  simp only [download_child, hl]
  cases hf : files.lookup name with
  | none =>
    have hn := (ha.lookup name).2 hf
    have : entries.lookup name = none := by
      cases hen : entries.lookup name with
      | none => rfl
      | some e =>
        obtain ⟨c, hc', _⟩ := (hlook e).mp hen
        rw [hn] at hc'; exact nomatch hc'
    simp only [this]
  | some data =>
    obtain ⟨k, hk, hkf⟩ := (ha.lookup name).1 data hf
    have : entries.lookup name = some (.file data.length (.chk k)) :=
      (hlook _).mpr ⟨_, hk, by simp only [MemoryGrid.describe, hkf]⟩
    simp only [this, ne_eq, not_true_eq_false, if_false, MemoryGrid.download, hkf]

/-! ### One download -/

theorem collect_other (temp : FilePath) (disk : Disk) {p : FilePath} (hp : p ≠ temp) :
    ∀ (chunks : List Bytes) (w : Bytes), ∀ d ∈ collect_states temp disk w chunks,
    d.lookup p = disk.lookup p
  | [], _, _, h => nomatch h
  | c :: cs, w, d, h => by
    rcases List.mem_cons.mp h with rfl | h
    · rw [Dict.lookup_set, if_neg (by simpa using hp)]
    · exact collect_other temp disk hp cs _ d h

end ZKAP
