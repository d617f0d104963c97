import Verif.Lemmas.ReplicaGrid
import Verif.Lemmas.ReplicationProps

/-! C106-C110: the replica directory, and how recovery fetches it. -/
namespace ZKAP
open Spec

/-! ### C106: recovery writes only into the private directory -/

/-- Whatever is in the directory that is recovered from, only files below `private` in the node's
directory change. -/
def C106_statement : Prop :=
  ∀ (g : MemoryGrid) (nodedir : FilePath) (cap : Cap) (disk : Disk) (path : FilePath),
    NormalPath nodedir →
    (tahoe_lafs_downloader g nodedir cap disk).1.lookup path ≠ disk.lookup path →
    nodedir ++ ["private"] <+: path

/-- A directory with a snapshot and an entry whose name climbs out of the private directory. -/
def hostile_grid : MemoryGrid :=
  MemoryGrid.run {} [.make_directory, .upload [1], .upload [66],
    .link (.dirWrite 0) "snapshot" (.chk 1),
    .link (.dirWrite 0) "event-stream-1/../../tahoe.cfg" (.chk 2)]

/-- The configuration of the node is overwritten. -/
theorem C106_outside_fails : ¬ C106_statement := by
  intro h
  have := h hostile_grid ["node"] (.dirRead 0) [(["node", "tahoe.cfg"], [65])] ["node", "tahoe.cfg"]
    (by decide +kernel) (by decide +kernel)
  revert this
  decide +kernel

/-- If no event stream has a slash in its name then only `private/snapshot` and the file of the same
name as an event stream of the directory change. -/
theorem C106_private_only_partial (g : MemoryGrid) (nodedir : FilePath) (cap : Cap) (disk : Disk)
    (hdir : NormalPath nodedir)
    (hnames : ∀ entries, g.list_directory cap = .ok entries → ∀ e ∈ entries, IsStream e.1 →
      OneSegment e.1)
    (path : FilePath)
    (h : (tahoe_lafs_downloader g nodedir cap disk).1.lookup path ≠ disk.lookup path) :
    ∃ entries, g.list_directory cap = .ok entries ∧ ∃ e ∈ entries,
      (e.1 = "snapshot" ∨ IsStream e.1) ∧ path = nodedir ++ ["private", e.1] := by
  unfold tahoe_lafs_downloader at h
  cases hl : g.list_directory cap with
  | error e => simp only [hl] at h; exact absurd rfl h
  | ok entries =>
    refine ⟨entries, rfl, ?_⟩
    simp only [hl] at h
    have hsnap : get_private_path nodedir "snapshot" = nodedir ++ ["private", "snapshot"] :=
      private_path_one hdir (by decide +kernel) (by decide) (by decide) (by decide)
    cases hc : download_child g cap ["snapshot"] with
    | error e => simp only [hc] at h; exact absurd rfl h
    | ok data =>
      simp only [hc] at h
      by_cases hp : path = get_private_path nodedir "snapshot"
      · have hs : ∃ e, entries.lookup "snapshot" = some e := by
          simp only [download_child, hl] at hc
          cases he : entries.lookup "snapshot" with
          | none => simp only [he] at hc; exact nomatch hc
          | some e => exact ⟨e, rfl⟩
        obtain ⟨e, he⟩ := hs
        exact ⟨("snapshot", e), mem_of_lookup he, .inl rfl, hp.trans hsnap⟩
      · have h1 : (download_streams g nodedir entries
            (Dict.set disk (get_private_path nodedir "snapshot") data)).1.lookup path ≠
            (Dict.set disk (get_private_path nodedir "snapshot") data).lookup path := by
          rw [Dict.lookup_set, if_neg (by simpa using hp)]
          split at h <;> rename_i heq <;> rw [heq] <;> exact h
        obtain ⟨name, hm, hst, hpath⟩ := download_streams_paths g nodedir path entries _ h1
        obtain ⟨e, he, rfl⟩ := List.mem_map.mp hm
        have hn := stream_name hst
        exact ⟨e, he, .inr hst,
          hpath.trans (private_path_one hdir (hnames entries hl e he hst) hn.1 hn.2.1 hn.2.2)⟩

/-! ### C107: a downloaded file is complete or not there -/

/-- At every moment of a download, and so after a crash at any of them, the destination has its old
content or all of the object's; and after success it has all of it. -/
def C107_statement : Prop :=
  ∀ (disk : Disk) (temp out : FilePath) (r : HttpResult) (body : Bytes), temp ≠ out → Sent body r →
    (∀ d ∈ (download_states disk temp out r).1, d.lookup out = disk.lookup out ∨ d.lookup out = some body) ∧
    ((download_states disk temp out r).2 = .ok () →
      ∀ d, (download_states disk temp out r).1.getLast? = some d → d.lookup out = some body)

/-- A response without a length, cut off by a lost connection, is taken for complete. -/
theorem C107_complete_fails : ¬ C107_statement := by
  intro h
  have := (h [] ["t"] ["o"] (.response 200 [[1]] .potentialDataLoss) [1, 2] (by decide) ⟨[2], rfl⟩).2 rfl
    _ rfl
  revert this
  decide

/-- If the server announces how long the body is then every download is all or nothing. -/
theorem C107_complete_partial (disk : Disk) (temp out : FilePath) (r : HttpResult) (body : Bytes)
    (hne : temp ≠ out) (hs : Sent body r) (hlen : ∀ s cs, r ≠ .response s cs .potentialDataLoss) :
    (∀ d ∈ (download_states disk temp out r).1,
      d.lookup out = disk.lookup out ∨ d.lookup out = some body) ∧
    ((download_states disk temp out r).2 = .ok () →
      ∀ d, (download_states disk temp out r).1.getLast? = some d → d.lookup out = some body) := by
  have hset : ∀ v, (Dict.set disk temp v).lookup out = disk.lookup out := by
    intro v
    rw [Dict.lookup_set, if_neg (by simpa using fun e : out = temp => hne e.symm)]
  cases r with
  | failed c =>
    refine ⟨fun d hd => .inl (by rw [List.mem_singleton.mp hd]), fun h => (nomatch h)⟩
  | response status chunks finish =>
    unfold download_states
    by_cases h200 : status = 200
    · simp only [if_pos h200]
      by_cases hf : finish = .failed
      · simp only [if_pos hf]
        refine ⟨fun d hd => .inl ?_, fun h => (nomatch h)⟩
        rcases List.mem_cons.mp hd with rfl | hd
        · rfl
        · rcases List.mem_cons.mp hd with rfl | hd
          · exact hset _
          · exact collect_other temp disk (fun e => hne e.symm) chunks _ d hd
      · have hfin : finish = .done := by
          cases finish with
          | done => rfl
          | potentialDataLoss => exact absurd rfl (hlen status chunks)
          | failed => exact absurd rfl hf
        subst hfin
        have hbody : chunks.flatten = body := hs
        have hlast : (Dict.set (disk.filter fun kv => kv.1 != temp) out chunks.flatten).lookup out =
            some body := by
          rw [Dict.lookup_set, if_pos (beq_self_eq_true _), hbody]
        simp only [if_neg hf]
        refine ⟨fun d hd => ?_, fun _ d hd => ?_⟩
        · rcases List.mem_append.mp hd with hd | hd
          · left
            rcases List.mem_cons.mp hd with rfl | hd
            · rfl
            · rcases List.mem_cons.mp hd with rfl | hd
              · exact hset _
              · exact collect_other temp disk (fun e => hne e.symm) chunks _ d hd
          · exact .inr (by rw [List.mem_singleton.mp hd]; exact hlast)
        · rw [List.getLast?_append] at hd
          simp only [List.getLast?_singleton, Option.some_or, Option.some.injEq] at hd
          rw [← hd]; exact hlast
    · simp only [if_neg h200]
      refine ⟨fun d hd => .inl (by rw [List.mem_singleton.mp hd]), fun h => (nomatch h)⟩

/-- Whatever the server does: no other file changes at any moment, a download that raises leaves
the destination as it was, and only status 200 makes one succeed. -/
theorem C107_others (disk : Disk) (temp out : FilePath) (r : HttpResult) (hne : temp ≠ out) :
    (∀ d ∈ (download_states disk temp out r).1, ∀ p, p ≠ temp → p ≠ out → d.lookup p = disk.lookup p) ∧
    ((download_states disk temp out r).2 ≠ .ok () →
      ∀ d ∈ (download_states disk temp out r).1, d.lookup out = disk.lookup out) ∧
    ((download_states disk temp out r).2 = .ok () → ∃ chunks finish, r = .response 200 chunks finish) := by
  have hset : ∀ v p, p ≠ temp → (Dict.set disk temp v).lookup p = disk.lookup p := by
    intro v p hp
    rw [Dict.lookup_set, if_neg (by simpa using hp)]
  cases r with
  | failed c =>
    refine ⟨fun d hd p _ _ => by rw [List.mem_singleton.mp hd],
      fun _ d hd => by rw [List.mem_singleton.mp hd], fun h => (nomatch h)⟩
  | response status chunks finish =>
    unfold download_states
    by_cases h200 : status = 200
    · simp only [if_pos h200]
      have hmid : ∀ d ∈ disk :: Dict.set disk temp [] :: collect_states temp disk [] chunks,
          ∀ p, p ≠ temp → d.lookup p = disk.lookup p := by
        intro d hd p hp
        rcases List.mem_cons.mp hd with rfl | hd
        · rfl
        · rcases List.mem_cons.mp hd with rfl | hd
          · exact hset _ p hp
          · exact collect_other temp disk hp chunks _ d hd
      by_cases hf : finish = .failed
      · simp only [if_pos hf]
        exact ⟨fun d hd p hp _ => hmid d hd p hp, fun _ d hd => hmid d hd out (fun e => hne e.symm),
          fun h => (nomatch h)⟩
      · simp only [if_neg hf]
        refine ⟨fun d hd p hp hp' => ?_, fun h => absurd rfl h, fun _ => ⟨chunks, finish, by rw [h200]⟩⟩
        rcases List.mem_append.mp hd with hd | hd
        · exact hmid d hd p hp
        · rw [List.mem_singleton.mp hd, Dict.lookup_set, if_neg (by simpa using hp'),
            lookup_filter_ne, if_neg (by simpa using hp)]
    · simp only [if_neg h200]
      exact ⟨fun d hd p _ _ => by rw [List.mem_singleton.mp hd],
        fun _ d hd => by rw [List.mem_singleton.mp hd], fun h => (nomatch h)⟩

example : Sent [1, 2, 3] (.response 200 [[1], [2, 3]] .done) := rfl

/-- An old file is replaced only in the last of the five states. -/
example : (download_states [(["o"], [9])] ["t"] ["o"] (.response 200 [[1], [2, 3]] .done)).1.map
    (fun d => d.lookup ["o"]) = [some [9], some [9], some [9], some [9], some [1, 2, 3]] := by
  decide +kernel

/-! ### C108: a path is followed through directories to a file -/

/-- What is downloaded is the content of the file the path leads to. -/
theorem C108_sound (g : MemoryGrid) (path : List String) (cap : Cap) (data : Bytes)
    (h : download_child g cap path = .ok data) :
    ∃ n, directory_number cap = some n ∧ Resolves g n path data := by
  induction path generalizing cap with
  | nil => exact nomatch h
  | cons name rest ih =>
    rw [download_child] at h
    cases hl : g.list_directory cap with
    | error e => simp only [hl] at h; exact nomatch h
    | ok entries =>
      obtain ⟨n, children, hn, hc, hd⟩ := list_directory_ok hl
      have hlook := describe_all_lookup g children entries hd name
      refine ⟨n, hn, ?_⟩
      simp only [hl] at h
      cases he : entries.lookup name with
      | none => simp only [he] at h; exact nomatch h
      | some e =>
        obtain ⟨c, hcc, hdc⟩ := (hlook e).mp he
        simp only [he] at h
        by_cases hr : rest ≠ []
        · simp only [if_pos hr] at h
          cases e with
          | file _ _ => exact nomatch h
          | directory ro =>
            obtain ⟨m, hm, rfl⟩ := describe_directory hdc
            obtain ⟨m', hm', hres⟩ := ih (.dirRead m) h
            cases hm'
            exact .directory hc hcc hm hres
        · simp only [if_neg hr] at h
          have hr' : rest = [] := Decidable.of_not_not hr
          subst hr'
          cases e with
          | directory _ => exact nomatch h
          | file size ro =>
            obtain ⟨k, d, rfl, rfl, hk, _⟩ := describe_file hdc
            simp only [MemoryGrid.download, hk, Except.ok.injEq] at h
            subst h
            exact .file hc hcc hk

/-- If no entry leads nowhere, every file a path leads to is downloaded by it. -/
theorem C108_complete (g : MemoryGrid) (hi : Intact g) (n : Nat) (path : List String) (data : Bytes)
    (h : Resolves g n path data) (cap : Cap) (hcap : directory_number cap = some n) :
    download_child g cap path = .ok data := by
  induction h generalizing cap with
  | file hc hname hk =>
    obtain ⟨entries, hl, hlook⟩ := listed_entry hcap hc (hi _ _ hc)
    rename_i k _ name d
    have : entries.lookup name = some (.file d.length (.chk k)) :=
      (hlook _ _).mpr ⟨_, hname, by simp only [MemoryGrid.describe, hk]⟩
    simp only [download_child, hl, this, ne_eq, not_true_eq_false, if_false, MemoryGrid.download, hk]
  | directory hc hname hm hres ih =>
    rename_i m children name c path data
    obtain ⟨entries, hl, hlook⟩ := listed_entry hcap hc (hi _ _ hc)
    have hp : Present g c := hi _ _ hc _ (mem_of_lookup hname)
    have hd : g.describe c = .ok (.directory (.dirRead m)) := by
      cases c with
      | chk k => exact nomatch hm
      | dirWrite k | dirRead k =>
        simp only [directory_number, Option.some.injEq] at hm
        subst hm
        obtain ⟨cs, hcs⟩ := hp
        simp only [MemoryGrid.describe, hcs]
    have : entries.lookup name = some (.directory (.dirRead m)) := (hlook _ _).mpr ⟨_, hname, hd⟩
    have hne : path ≠ [] := by cases hres <;> exact fun e => (nomatch e)
    rw [download_child]
    simp only [hl, this, if_pos hne]
    exact ih (.dirRead m) rfl

/-- The entries of every grid lead somewhere if only what existed was linked. -/
theorem C108_intact (ops : List GridOp) (h : LinksPresent {} ops) : Intact (MemoryGrid.run {} ops) :=
  intact_run ⟨by simp, by simp⟩ (fun _ _ h => absurd h (by simp)) ops h

/-- The errors: no path, no such entry, a file in the middle, a directory at the end. -/
theorem C108_errors (g : MemoryGrid) (hi : Intact g) (cap : Cap) (n : Nat)
    (hcap : directory_number cap = some n) (children : Dict String Cap)
    (hc : g.dirs.lookup n = some children) (name : String) (rest : List String) :
    download_child g cap [] = .error .valueError ∧
    (children.lookup name = none → download_child g cap (name :: rest) = .error .keyError) ∧
    (∀ k, children.lookup name = some (.chk k) → rest ≠ [] →
      download_child g cap (name :: rest) = .error not_a_directory) ∧
    (∀ c m, children.lookup name = some c → directory_number c = some m →
      download_child g cap [name] = .error .assertionError) := by
  obtain ⟨entries, hl, hlook⟩ := listed_entry hcap hc (hi _ _ hc)
  refine ⟨rfl, fun hnone => ?_, fun k hk hr => ?_, fun c m hcm hm => ?_⟩
  · have : entries.lookup name = none := by
      cases he : entries.lookup name with
      | none => rfl
      | some e =>
        obtain ⟨c, h1, _⟩ := (hlook name e).mp he
        rw [hnone] at h1; exact nomatch h1
    simp only [download_child, hl, this]
  · obtain ⟨d, hd⟩ : Present g (.chk k) := hi _ _ hc _ (mem_of_lookup hk)
    have : entries.lookup name = some (.file d.length (.chk k)) :=
      (hlook _ _).mpr ⟨_, hk, by simp only [MemoryGrid.describe, hd]⟩
    rw [download_child]
    simp only [hl, this, if_pos hr]
  · have hp : Present g c := hi _ _ hc _ (mem_of_lookup hcm)
    have hd : g.describe c = .ok (.directory (.dirRead m)) := by
      cases c with
      | chk k => exact nomatch hm
      | dirWrite k | dirRead k =>
        simp only [directory_number, Option.some.injEq] at hm
        subst hm
        obtain ⟨cs, hcs⟩ := hp
        simp only [MemoryGrid.describe, hcs]
    have : entries.lookup name = some (.directory (.dirRead m)) := (hlook _ _).mpr ⟨_, hcm, hd⟩
    simp only [download_child, hl, this, ne_eq, not_true_eq_false, if_false]

/-- A directory in a directory. -/
def nested_ops : List GridOp :=
  [.make_directory, .make_directory, .upload [7, 8], .link (.dirWrite 1) "x" (.chk 2),
    .link (.dirWrite 0) "sub" (.dirWrite 1)]

example : LinksPresent {} nested_ops := by
  refine ⟨?_, ?_, ?_, ?_, ?_, trivial⟩
  · exact fun _ _ _ h => (nomatch h)
  · exact fun _ _ _ h => (nomatch h)
  · exact fun _ _ _ h => (nomatch h)
  · intro d n c h; cases h; exact ⟨[7, 8], by decide +kernel⟩
  · intro d n c h; cases h; exact ⟨[("x", .chk 2)], by decide +kernel⟩

example : download_child (MemoryGrid.run {} nested_ops) (.dirRead 0) ["sub", "x"] = .ok [7, 8] ∧
    download_child (MemoryGrid.run {} nested_ops) (.dirRead 0) ["sub"] = .error .assertionError ∧
    download_child (MemoryGrid.run {} nested_ops) (.dirRead 0) ["sub", "x", "y"] =
      .error not_a_directory := by decide +kernel

/-! ### C109: the replica holds what was uploaded and not pruned -/

/-- After any history of a new replica directory, in which others may use the grid but not change
this directory, it lists exactly the files uploaded and not pruned since, with their sizes, and each
downloads as it was last uploaded. -/
theorem C109_contents (before : List GridOp) (dir : Cap) (ops : List ReplicaOp) :
    let g0 := MemoryGrid.run {} before
    let g := replica_run dir g0.make_directory.2 ops
    let files := expected [] (ops.zip (replica_outcomes dir g0.make_directory.2 ops))
    g0.make_directory.1 = .ok dir → (∀ op ∈ ops, op.leaves dir) →
    direntry_list g dir = .ok (files.map fun f => (f.1, ⟨"filenode", f.2.length⟩)) ∧
    ∀ name, download_child g dir.reader [name] =
      match files.lookup name with
      | some data => .ok data
      | none => .error .keyError := by
  intro g0 g files hdir hleaves
  obtain ⟨n, rfl, h0⟩ := holds_new (grid_wf_run ⟨by simp, by simp⟩ before) hdir
  have h : HoldsFiles g n files := holds_run n ops _ _ h0 hleaves
  obtain ⟨children, entries, hl, hs, _⟩ := holds_list h (cap := .dirRead n) rfl
  refine ⟨?_, fun name => child_of_holds h rfl name⟩
  simp only [direntry_list, Cap.reader, hl, Except.ok.injEq]
  exact shown_listing hs

/-- An upload fails only when the grid is full, and pruning exactly when the predicate raises for
one of the files, with its exception. -/
theorem C109_outcomes (before : List GridOp) (dir : Cap) (ops : List ReplicaOp) (name : String)
    (data : Bytes) (predicate : String → Except PyErr Bool) :
    let g0 := MemoryGrid.run {} before
    let g := replica_run dir g0.make_directory.2 ops
    let files := expected [] (ops.zip (replica_outcomes dir g0.make_directory.2 ops))
    g0.make_directory.1 = .ok dir → (∀ op ∈ ops, op.leaves dir) →
    ((direntry_upload g dir name data).1 = .ok () ↔ g.counter < 2 ^ 128) ∧
    (∀ e, (direntry_prune g dir predicate).1 = .error e →
      ∃ name ∈ files.map (·.1), predicate name = .error e) ∧
    ((∀ name ∈ files.map (·.1), ∃ b, predicate name = .ok b) →
      (direntry_prune g dir predicate).1 = .ok ()) := by
  intro g0 g files hdir hleaves
  obtain ⟨n, rfl, h0⟩ := holds_new (grid_wf_run ⟨by simp, by simp⟩ before) hdir
  have h : HoldsFiles g n files := holds_run n ops _ _ h0 hleaves
  refine ⟨?_, ?_, ?_⟩
  · rcases holds_upload h name data with ⟨hlt, h1, _⟩ | ⟨hge, h1⟩
    · exact ⟨fun _ => hlt, fun _ => h1⟩
    · refine ⟨fun hok => ?_, fun hlt => absurd hge (Nat.not_le.mpr hlt)⟩
      rw [h1] at hok
      exact nomatch (show Except.error PyErr.valueError = Except.ok () from hok)
  · rw [(holds_prune h predicate).1]
    exact fun e he => prune_outcome_error predicate e _ he
  · rw [(holds_prune h predicate).1]
    exact prune_outcome_ok predicate _

theorem pruned_lookup (predicate : String → Except PyErr Bool) (name : String) : ∀ (files : Files),
    (∀ f ∈ files, ∃ b, predicate f.1 = .ok b) →
    (pruned predicate files).lookup name =
      if predicate name = .ok true then none else files.lookup name
  | [], _ => by simp [pruned]
  | (m, data) :: files, h => by
    obtain ⟨b, hb⟩ := h _ List.mem_cons_self
    have ih := pruned_lookup predicate name files fun f hf => h f (List.mem_cons_of_mem _ hf)
    simp only at hb
    by_cases hm : name = m
    · subst hm
      cases b with
      | true => simp only [pruned, hb, ih, if_true]
      | false => simp [pruned, hb, List.lookup_cons]
    · have hm' : (name == m) = false := by simpa using hm
      cases b with
      | true => simp only [pruned, hb, ih, List.lookup_cons, hm']
      | false => simp only [pruned, hb, ih, List.lookup_cons, hm']

/-- Pruning by the replication service after the upload of a snapshot, in a directory with nothing but a
snapshot and event streams: it succeeds, the snapshot stays as it is, and so does every event stream with changes that
the snapshot lacks; all other event streams are gone. -/
theorem C109_service_prunes (before : List GridOp) (dir : Cap) (ops : List ReplicaOp) (seqnum : Nat) :
    let g0 := MemoryGrid.run {} before
    let g := replica_run dir g0.make_directory.2 ops
    let files := expected [] (ops.zip (replica_outcomes dir g0.make_directory.2 ops))
    let after := direntry_prune g dir (is_old_eventstream seqnum)
    g0.make_directory.1 = .ok dir → (∀ op ∈ ops, op.leaves dir) →
    (∀ f ∈ files, f.1 = "snapshot" ∨ ∃ k, f.1 = event_stream_name k) →
    after.1 = .ok () ∧
    download_child after.2 dir.reader ["snapshot"] = download_child g dir.reader ["snapshot"] ∧
    ∀ k, download_child after.2 dir.reader [event_stream_name k] =
      if k ≤ seqnum then .error .keyError else download_child g dir.reader [event_stream_name k] := by
  intro g0 g files after hdir hleaves hnames
  obtain ⟨n, rfl, h0⟩ := holds_new (grid_wf_run ⟨by simp, by simp⟩ before) hdir
  have h : HoldsFiles g n files := holds_run n ops _ _ h0 hleaves
  have hp := holds_prune h (is_old_eventstream seqnum)
  have hsnap : is_old_eventstream seqnum "snapshot" = .ok false := by
    have : stream_number "snapshot" = none := by decide +kernel
    unfold is_old_eventstream
    rw [this]
  have hold : ∀ k, is_old_eventstream seqnum (event_stream_name k) = .ok (decide (k ≤ seqnum)) := by
    intro k
    unfold is_old_eventstream
    rw [stream_number_name]
  have hok : ∀ f ∈ files, ∃ b, is_old_eventstream seqnum f.1 = .ok b := by
    intro f hf
    rcases hnames f hf with hn | ⟨k, hn⟩
    · exact ⟨_, by rw [hn]; exact hsnap⟩
    · exact ⟨_, by rw [hn]; exact hold k⟩
  refine ⟨?_, ?_, fun k => ?_⟩
  · exact hp.1.trans (prune_outcome_ok _ _ fun name hm => by
      obtain ⟨f, hf, rfl⟩ := List.mem_map.1 hm
      exact hok f hf)
  · rw [child_of_holds hp.2 (cap := Cap.reader (.dirWrite n)) rfl, child_of_holds h (cap := Cap.reader (.dirWrite n)) rfl,
      pruned_lookup _ _ _ hok, hsnap, if_neg (by simp)]
  · rw [child_of_holds hp.2 (cap := Cap.reader (.dirWrite n)) rfl, child_of_holds h (cap := Cap.reader (.dirWrite n)) rfl,
      pruned_lookup _ _ _ hok, hold]
    by_cases hk : k ≤ seqnum
    · rw [if_pos (by simpa using hk), if_pos hk]
    · rw [if_neg (by simpa using hk), if_neg hk]

/-- Three files. -/
def exService : MemoryGrid := replica_run (.dirWrite 0) (MemoryGrid.make_directory {}).2
  [.upload "snapshot" [1], .upload (event_stream_name 4) [2, 2], .upload (event_stream_name 12) [3]]

example : direntry_list (direntry_prune exService (.dirWrite 0) (is_old_eventstream 11)).2 (.dirWrite 0) =
    .ok [("snapshot", ⟨"filenode", 1⟩), ("event-stream-12", ⟨"filenode", 1⟩)] := by decide +kernel

/-- Two files are uploaded, one again, a third one pruned. -/
def replica_history : List ReplicaOp :=
  [.upload "snapshot" [1], .upload "event-stream-4" [2, 2], .other (.upload [9]),
    .upload "event-stream-7" [3], .prune (fun n => .ok (n == "event-stream-4")),
    .upload "snapshot" [5, 5, 5]]

example : (∀ op ∈ replica_history, op.leaves (.dirWrite 0)) := by
  intro op h
  simp only [replica_history, List.mem_cons, List.not_mem_nil, or_false] at h
  rcases h with rfl | rfl | rfl | rfl | rfl | rfl <;> trivial

example : direntry_list (replica_run (.dirWrite 0) (MemoryGrid.make_directory {}).2 replica_history)
      (.dirWrite 0) =
    .ok [("snapshot", ⟨"filenode", 3⟩), ("event-stream-7", ⟨"filenode", 1⟩)] := by decide +kernel

/-! ### C110: recovery fetches the snapshot and all event streams -/

/-- From the directory of such a history, with no slash in the names, recovery writes the snapshot
and every event stream to the private directory as they were last uploaded, names them in the order
of the directory, and changes no other file.  Without a snapshot it raises and writes nothing. -/
theorem C110_fetched (before : List GridOp) (dir : Cap) (ops : List ReplicaOp) (nodedir : FilePath)
    (disk : Disk) :
    let g0 := MemoryGrid.run {} before
    let g := replica_run dir g0.make_directory.2 ops
    let files := expected [] (ops.zip (replica_outcomes dir g0.make_directory.2 ops))
    let streams := files.filter fun f => decide (IsStream f.1)
    let result := tahoe_lafs_downloader g nodedir dir.reader disk
    g0.make_directory.1 = .ok dir → (∀ op ∈ ops, op.leaves dir) → NormalPath nodedir →
    (∀ f ∈ files, OneSegment f.1) →
    (files.lookup "snapshot" = none → result = (disk, .error .keyError)) ∧
    (∀ data, files.lookup "snapshot" = some data →
      result.2 = .ok (nodedir ++ ["private", "snapshot"],
        streams.map fun f => nodedir ++ ["private", f.1]) ∧
      result.1.lookup (nodedir ++ ["private", "snapshot"]) = some data ∧
      (∀ f ∈ streams, result.1.lookup (nodedir ++ ["private", f.1]) = some f.2) ∧
      ∀ p, p ≠ nodedir ++ ["private", "snapshot"] → (∀ f ∈ streams, p ≠ nodedir ++ ["private", f.1]) →
        result.1.lookup p = disk.lookup p) := by
  intro g0 g files streams result hdir hleaves hnode hnames
  obtain ⟨n, rfl, h0⟩ := holds_new (grid_wf_run ⟨by simp, by simp⟩ before) hdir
  have h : HoldsFiles g n files := holds_run n ops _ _ h0 hleaves
  obtain ⟨children, entries, hl, hs, _⟩ := holds_list h (cap := .dirRead n) rfl
  have hsnap : get_private_path nodedir "snapshot" = nodedir ++ ["private", "snapshot"] :=
    private_path_one hnode (by decide +kernel) (by decide) (by decide) (by decide)
  have hpath : ∀ f ∈ streams, get_private_path nodedir f.1 = nodedir ++ ["private", f.1] := by
    intro f hf
    obtain ⟨hf, hst⟩ := List.mem_filter.mp hf
    have hn := stream_name (of_decide_eq_true hst)
    exact private_path_one hnode (hnames f hf) hn.1 hn.2.1 hn.2.2
  have hchild := child_of_holds h (cap := .dirRead n) rfl "snapshot"
  refine ⟨fun hnone => ?_, fun data hdata => ?_⟩
  · rw [hnone] at hchild
    simp only [result, tahoe_lafs_downloader, Cap.reader, hl, hchild]
  · rw [hdata] at hchild
    have hres : result =
        (streams.foldl (fun d f => Dict.set d (get_private_path nodedir f.1) f.2)
          (Dict.set disk (get_private_path nodedir "snapshot") data),
        .ok (get_private_path nodedir "snapshot", streams.map fun f => get_private_path nodedir f.1)) := by
      simp only [result, tahoe_lafs_downloader, Cap.reader, hl, hchild]
      rw [download_streams_shown nodedir _ hs]
      rfl
    have hne : ∀ f ∈ streams, get_private_path nodedir f.1 ≠ nodedir ++ ["private", "snapshot"] := by
      intro f hf e
      rw [hpath f hf] at e
      have e' : f.1 = "snapshot" := by simpa using List.append_cancel_left e
      have hst : IsStream f.1 := of_decide_eq_true (List.mem_filter.mp hf).2
      rw [e'] at hst
      revert hst
      decide
    have hnd : (streams.map fun f => get_private_path nodedir f.1).Nodup := by
      rw [List.map_congr_left hpath]
      have hk : (streams.map (·.1)).Nodup := List.Nodup.sublist (List.filter_sublist.map _) h.nodup
      have : (streams.map fun f => nodedir ++ ["private", f.1]) =
          (streams.map (·.1)).map fun s => nodedir ++ ["private", s] := by
        rw [List.map_map]; rfl
      rw [this]
      refine List.pairwise_map.mpr (hk.imp ?_)
      intro a b hab e
      exact hab (by simpa using List.append_cancel_left e)
    rw [hres]
    refine ⟨?_, ?_, fun f hf => ?_, fun p hp hps => ?_⟩
    · rw [hsnap, List.map_congr_left hpath]
    · rw [lookup_fold_set _ _ _ _ _ hne, hsnap, Dict.lookup_set, if_pos (beq_self_eq_true _)]
    · rw [← hpath f hf]
      exact lookup_fold_set_mem (fun f : String × Bytes => get_private_path nodedir f.1) (·.2) streams _ hnd f hf
    · rw [lookup_fold_set _ _ _ _ _ fun f hf e => hps f hf (e.symm.trans (hpath f hf)), hsnap,
        Dict.lookup_set, if_neg (by simpa using hp)]

example : (tahoe_lafs_downloader
      (replica_run (.dirWrite 0) (MemoryGrid.make_directory {}).2 replica_history) ["node"] (.dirRead 0)
      [(["node", "tahoe.cfg"], [65])]) =
    ([(["node", "tahoe.cfg"], [65]), (["node", "private", "snapshot"], [5, 5, 5]),
      (["node", "private", "event-stream-7"], [3])],
      .ok (["node", "private", "snapshot"], [["node", "private", "event-stream-7"]])) := by
  decide +kernel

end ZKAP
