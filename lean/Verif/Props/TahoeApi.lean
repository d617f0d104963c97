import Verif.Lemmas.TahoeText
import Verif.Lemmas.TahoeCalls

/-! The client of the HTTP API of a Tahoe-LAFS node. -/
namespace ZKAP
open Spec

/-! ### C126: the HTTP client and the in-memory client -/

/-- The full property. -/
def C126_statement : Prop :=
  ∀ (T : ApiText), TextLaws T → ∀ (root : List String), PlainRoot root →
  ∀ (g : MemoryGrid) (hs : List Hindrance) (fuel : Nat), (∀ h ∈ hs, Harmless h) → hs.length < fuel →
    (∀ data, SameAs (call_api (hindered T) (upload_call T root data) fuel (g, hs)) (g.upload data)) ∧
    SameAs (call_api (hindered T) (mkdir_call T root) fuel (g, hs)) g.make_directory ∧
    (∀ dir name cap, name ≠ "" →
      SameAs (call_api (hindered T) (link_call T root dir name cap) fuel (g, hs)) (g.link dir name cap)) ∧
    (∀ dir name, name ≠ "" →
      SameAs (call_api (hindered T) (unlink_call T root dir name) fuel (g, hs)) (g.unlink dir name)) ∧
    (∀ dir, SameAs (list_directory_api T root (hindered T) dir fuel (g, hs)) (g.list_directory dir, g))

/-- It fails: to remove an entry from what is not a directory is `NotADirectoryError` with a node and
`NotWriteableError` in memory. -/
theorem C126_unlink_file_fails : ¬ C126_statement := by
  intro h
  obtain ⟨r, hs, h1, h2⟩ := (h exText exText_laws [] (.inl rfl) {} [] 1 (by simp) (by simp)).2.2.2.1 (.chk 0) "foo" (by decide)
  have hg : gateway exText {} (unlink_call exText [] (.chk 0) "foo").request =
      (html 400 ("Files have no children named " ++ "foo"), {}) :=
    gateway_file exText exText_laws {} 0 "foo" _ (by
      unfold unlink_call
      dsimp only
      rw [entry_path_eq (.inl rfl) (exText_laws.nonempty _)])
  have hread : (unlink_call exText [] (.chk 0) "foo").read (html 400 ("Files have no children named " ++ "foo")) =
      .error .notADirectory := by
    unfold unlink_call
    dsimp only
    rw [read_html, if_neg (by decide), if_neg (by rintro ⟨h, _⟩; exact absurd h (by decide)),
      if_pos ⟨rfl, no_children_text _⟩]
  rw [call_same exText _ (unlink_standard exText [] (.chk 0) "foo") [] (by simp) {} {} 1 (by simp) _ hg
    (by rw [hread]; intro e h; cases h; rfl), hread] at h1
  cases h1
  cases h2

/-- Through any sequence of refused connections and reports of missing servers after which nothing was done, an
upload, a new directory and a listing end as they do in memory, and leave the grid as they do there; a link and
an unlink do so on the capability of a directory, for the name of an entry that does not itself say that servers
are missing.
Missing: what is said of links in and unlinks from capabilities of files (`C126_file_capability`), where it is false. -/
theorem C126_same_partial (T : ApiText) (hT : TextLaws T) (root : List String) (hr : PlainRoot root)
    (g : MemoryGrid) (hs : List Hindrance) (fuel : Nat) (hh : ∀ h ∈ hs, Harmless h) (hf : hs.length < fuel) :
    (∀ data, SameAs (call_api (hindered T) (upload_call T root data) fuel (g, hs)) (g.upload data)) ∧
    SameAs (call_api (hindered T) (mkdir_call T root) fuel (g, hs)) g.make_directory ∧
    (∀ dir name cap, dir.is_directory = true → name ≠ "" → ¬ SaysNoServers name →
      SameAs (call_api (hindered T) (link_call T root dir name cap) fuel (g, hs)) (g.link dir name cap)) ∧
    (∀ dir name, dir.is_directory = true → name ≠ "" → ¬ SaysNoServers name →
      SameAs (call_api (hindered T) (unlink_call T root dir name) fuel (g, hs)) (g.unlink dir name)) ∧
    (∀ dir, SameAs (list_directory_api T root (hindered T) dir fuel (g, hs)) (g.list_directory dir, g)) :=
  ⟨fun data => upload_same T hT hr g hs fuel hh hf data, mkdir_same T hT hr g hs fuel hh hf,
    fun dir name cap hd hn hp => link_same T hT hr g hs fuel hh hf dir hd name hn hp cap,
    fun dir name hd hn hp => unlink_same T hT hr g hs fuel hh hf dir hd name hn hp,
    fun dir => list_same T hT hr g hs fuel hh hf dir⟩

/-- With the capability of a file, a link fails with another exception and an unlink with `NotADirectoryError`;
both leave the grid as it was. -/
theorem C126_file_capability (T : ApiText) (hT : TextLaws T) (root : List String) (hr : PlainRoot root)
    (g : MemoryGrid) (hs : List Hindrance) (fuel : Nat) (hh : ∀ h ∈ hs, Harmless h) (hf : hs.length < fuel)
    (n : Nat) (name : String) (hp : ¬ SaysNoServers ("Files have no children named " ++ name)) (hp2 : ¬ SaysNoServers name)
    (cap : Cap) :
    (∃ e, call_api (hindered T) (link_call T root (.chk n) name cap) fuel (g, hs) = some (.error e, g, []) ∧
      seenApi (.error e : Except TahoeErr Unit) = .other) ∧
    call_api (hindered T) (unlink_call T root (.chk n) name) fuel (g, hs) = some (.error .notADirectory, g, []) := by
  constructor
  · have hg := gateway_file T hT g n name (link_call T root (.chk n) name cap).request
      (by unfold link_call; dsimp only; rw [entry_path_eq hr (hT.nonempty _)])
    have hread : (link_call T root (.chk n) name cap).read (html 400 ("Files have no children named " ++ name)) =
        .error (.api "put" ["uri", T.show_cap (.chk n), name] [("t", "uri")] 400 ("Files have no children named " ++ name)) := by
      unfold link_call
      dsimp only
      rw [read_html, if_neg (by decide), if_neg (by rintro ⟨h, _⟩; exact absurd h (by decide)),
        entry_path_eq hr (hT.nonempty _)]
      rfl
    refine ⟨.api "put" ["uri", T.show_cap (.chk n), name] [("t", "uri")] 400
      ("Files have no children named " ++ name), ?_, rfl⟩
    · rw [call_same T _ (link_standard T root (.chk n) name cap) hs hh g g fuel hf _ hg, hread]
      rw [hread]
      intro e h
      cases h
      exact api_final (plain_char (by decide +kernel)) (entry_pieces T hT _ name hp2) (query_pieces _ (by decide +kernel)) hp
  · have hg := gateway_file T hT g n name (unlink_call T root (.chk n) name).request
      (by unfold unlink_call; dsimp only; rw [entry_path_eq hr (hT.nonempty _)])
    have hread : (unlink_call T root (.chk n) name).read (html 400 ("Files have no children named " ++ name)) =
        .error .notADirectory := by
      unfold unlink_call
      dsimp only
      rw [read_html, if_neg (by decide), if_neg (by rintro ⟨h, _⟩; exact absurd h (by decide)),
        if_pos ⟨rfl, no_children_text _⟩]
    rw [call_same T _ (unlink_standard T root (.chk n) name) hs hh g g fuel hf _ hg, hread]
    rw [hread]
    intro e h
    cases h
    rfl

/-- A grid with a directory that holds a file. -/
def exApiGrid : MemoryGrid :=
  MemoryGrid.run {} [.make_directory, .upload [1, 2, 3], .link (.dirWrite 0) "snapshot" (.chk 1)]

/-- A node that is not there at first and then lacks servers. -/
def exWaits : List Hindrance := [.refused, .noServers 410 "allmydata.interfaces.NoServersError: no servers" false]

theorem exWaits_harmless : ∀ h ∈ exWaits, Harmless h := by
  intro h hm
  simp only [exWaits, List.mem_cons, List.not_mem_nil, or_false] at hm
  rcases hm with rfl | rfl
  · trivial
  · refine ⟨⟨by decide, by decide, .inl ⟨[], ": no servers".toList, by decide +kernel⟩, ?_, ?_⟩, rfl⟩
    · exact not_mentions_char 'W' (by decide +kernel) (by decide +kernel)
    · exact not_mentions_char 'F' (by decide +kernel) (by decide +kernel)

theorem plain_snapshot : ¬ SaysNoServers "snapshot" := plain_char (by decide +kernel)

/-- The listing of the example arrives. -/
example : ∃ hs, list_directory_api exText [""] (hindered exText) (.dirRead 0) 3 (exApiGrid, exWaits) =
    some (.ok [("snapshot", .file 3 (.chk 1))], exApiGrid, hs) := by
  obtain ⟨r, hs, h1, h2⟩ := (C126_same_partial exText exText_laws [""] (.inr rfl) exApiGrid exWaits 3 exWaits_harmless
    (by decide)).2.2.2.2 (.dirRead 0)
  have h3 : exApiGrid.list_directory (.dirRead 0) = .ok [("snapshot", .file 3 (.chk 1))] := by rfl
  rw [h3] at h2
  refine ⟨hs, ?_⟩
  rw [h1]
  cases r with
  | ok a => cases h2; rfl
  | error e => cases e <;> cases h2

/-- And the removal of its entry. -/
example : ∃ r hs, call_api (hindered exText) (unlink_call exText [""] (.dirWrite 0) "snapshot") 3 (exApiGrid, exWaits) =
    some (r, (exApiGrid.unlink (.dirWrite 0) "snapshot").2, hs) ∧ seenApi r = .value () := by
  obtain ⟨r, hs, h1, h2⟩ := (C126_same_partial exText exText_laws [""] (.inr rfl) exApiGrid exWaits 3 exWaits_harmless
    (by decide)).2.2.2.1 (.dirWrite 0) "snapshot" rfl (by decide) plain_snapshot
  exact ⟨r, hs, h1, h2⟩

/-! ### C127: an operation that is retried is done once -/

/-- The full property, for a grid of any history: whatever was done by the requests that were reported as failed for want
of servers, an operation that would succeed does succeed in the end, and the grid holds what it held before
and the result of the operation. -/
def C127_statement : Prop :=
  ∀ (T : ApiText), TextLaws T → ∀ (root : List String), PlainRoot root →
  ∀ (ops : List GridOp) (hs : List Hindrance) (fuel : Nat), (∀ h ∈ hs, Temporary h) → hs.length < fuel →
    let g := MemoryGrid.run {} ops
    g.counter + hs.length < 2 ^ 128 →
    (∀ data, ∃ cap g', call_api (hindered T) (upload_call T root data) fuel (g, hs) = some (.ok cap, g', []) ∧
      Keeps g g' ∧ g'.download cap = .ok data) ∧
    (∃ n g', call_api (hindered T) (mkdir_call T root) fuel (g, hs) = some (.ok (.dirWrite n), g', []) ∧
      Keeps g g' ∧ g.dirs.lookup n = none ∧ g'.dirs.lookup n = some []) ∧
    (∀ dir name cap, name ≠ "" → (g.link dir name cap).1 = .ok () →
      call_api (hindered T) (link_call T root dir name cap) fuel (g, hs) = some (.ok (), (g.link dir name cap).2, [])) ∧
    (∀ dir name, name ≠ "" → (g.unlink dir name).1 = .ok () →
      call_api (hindered T) (unlink_call T root dir name) fuel (g, hs) = some (.ok (), (g.unlink dir name).2, []))

/-- The removal of an entry: it is removed, and the caller is told so only if no request that was reported as failed did
it. -/
theorem C127_unlink (T : ApiText) (hT : TextLaws T) (root : List String) (hr : PlainRoot root)
    (g : MemoryGrid) (hs : List Hindrance) (fuel : Nat) (hh : ∀ h ∈ hs, Temporary h) (hf : hs.length < fuel)
    (dir : Cap) (name : String) (hn : name ≠ "") (hp : ¬ SaysNoServers name) (hok : (g.unlink dir name).1 = .ok ()) :
    ∃ r, call_api (hindered T) (unlink_call T root dir name) fuel (g, hs) = some (r, (g.unlink dir name).2, []) ∧
      (r = .ok () ↔ ∀ status text, .noServers status text true ∉ hs) := by
  have hd : dir.is_directory = true := by
    cases dir with
    | chk n => simp [MemoryGrid.unlink] at hok
    | _ => rfl
  have hg := gateway_unlink T hT hr g dir hd name hn
  have hg2 := gateway_unlink T hT hr (g.unlink dir name).2 dir hd name hn
  rw [unlink_again hok] at hg2
  have hu : g.unlink dir name = (.ok (), (g.unlink dir name).2) := by rw [← hok]
  generalize hq : (g.unlink dir name).2 = g' at *
  rw [hu] at hg
  dsimp only at hg hg2
  obtain ⟨k, rfl⟩ : ∃ k, fuel = hs.length + (k + 1) := ⟨fuel - hs.length - 1, by omega⟩
  rw [call_hindered T _ (unlink_standard T root dir name) hs hh,
    after_two T _ g g' (by rw [hg]) (by rw [hg2])]
  have hdone : someDone hs = true ↔ ¬ ∀ status text, .noServers status text true ∉ hs := by
    unfold someDone
    rw [List.any_eq_true]
    constructor
    · rintro ⟨x, hx, hxd⟩ hall
      cases x with
      | refused => cases hxd
      | noServers status text done =>
        simp only at hxd
        subst hxd
        exact hall status text hx
    · intro h
      apply Classical.byContradiction
      intro h2
      apply h
      intro status text hm
      exact h2 ⟨_, hm, rfl⟩
  cases hsd : someDone hs with
  | true =>
    rw [if_pos rfl]
    refine ⟨_, call_last T _ g' g' k _ hg2 ?_, ?_⟩
    · rw [unlink_read_missing T hT hr]
      intro e h; cases h
      exact missing_final T hT dir name hp
    · rw [unlink_read_missing T hT hr]
      constructor
      · intro h; cases h
      · intro h; exact absurd h (hdone.mp hsd)
  | false =>
    rw [if_neg (by simp)]
    refine ⟨_, call_last T _ g g' k _ hg ?_, ?_⟩
    · rw [unlink_read_ok]
      intro e h; cases h
    · rw [unlink_read_ok]
      refine ⟨fun _ => ?_, fun _ => rfl⟩
      apply Classical.byContradiction
      intro h
      rw [hdone.mpr h] at hsd
      cases hsd

/-- A node that removes the entry and then reports that it lacks servers. -/
def exDone : List Hindrance := [.noServers 410 "allmydata.mutable.common.NotEnoughServersError: lost" true]

theorem exDone_temporary : ∀ h ∈ exDone, Temporary h := by
  intro h hm
  simp only [exDone, List.mem_cons, List.not_mem_nil, or_false] at hm
  subst hm
  refine ⟨by decide, by decide, .inr ⟨[], ": lost".toList, by decide +kernel⟩, ?_, ?_⟩
  · exact not_mentions_char 'W' (by decide +kernel) (by decide +kernel)
  · exact not_mentions_char 'F' (by decide +kernel) (by decide +kernel)

/-- It fails: the retried removal of an entry finds nothing to remove and reports an error. -/
theorem C127_unlink_fails : ¬ C127_statement := by
  intro h
  have h1 := (h exText exText_laws [""] (.inr rfl) [.make_directory, .upload [1, 2, 3], .link (.dirWrite 0) "snapshot" (.chk 1)]
    exDone 2 exDone_temporary (by decide) (by decide)).2.2.2 (.dirWrite 0) "snapshot" (by decide) rfl
  obtain ⟨r, h2, h3⟩ := C127_unlink exText exText_laws [""] (.inr rfl) exApiGrid exDone 2 exDone_temporary (by decide)
    (.dirWrite 0) "snapshot" (by decide) plain_snapshot rfl
  rw [show exApiGrid = MemoryGrid.run {} [.make_directory, .upload [1, 2, 3], .link (.dirWrite 0) "snapshot" (.chk 1)] from rfl,
    h1] at h2
  cases h2
  exact h3.mp rfl 410 "allmydata.mutable.common.NotEnoughServersError: lost" (List.mem_cons_self ..)

/-- An upload, a new directory and a link end well, whatever was done by the requests that were reported as failed; a
link leaves the very grid that one link does.
Missing: the removal of an entry, where it is false (`C127_unlink`). -/
theorem C127_once_partial (T : ApiText) (hT : TextLaws T) (root : List String) (hr : PlainRoot root)
    (ops : List GridOp) (hs : List Hindrance) (fuel : Nat) (hh : ∀ h ∈ hs, Temporary h) (hf : hs.length < fuel) :
    let g := MemoryGrid.run {} ops
    g.counter + hs.length < 2 ^ 128 →
    (∀ data, ∃ cap g', call_api (hindered T) (upload_call T root data) fuel (g, hs) = some (.ok cap, g', []) ∧
      Keeps g g' ∧ g'.download cap = .ok data) ∧
    (∃ n g', call_api (hindered T) (mkdir_call T root) fuel (g, hs) = some (.ok (.dirWrite n), g', []) ∧
      Keeps g g' ∧ g.dirs.lookup n = none ∧ g'.dirs.lookup n = some []) ∧
    (∀ dir name cap, name ≠ "" → (g.link dir name cap).1 = .ok () →
      call_api (hindered T) (link_call T root dir name cap) fuel (g, hs) = some (.ok (), (g.link dir name cap).2, [])) := by
  intro g hlt
  have hwf : GridWF g := grid_wf_run ⟨by simp, by simp⟩ ops
  have h0 : Grown g g 0 := ⟨⟨fun _ _ h => h, fun _ _ h => h⟩, hwf, by omega⟩
  clear_value g
  obtain ⟨k, rfl⟩ : ∃ k, fuel = hs.length + (k + 1) := ⟨fuel - hs.length - 1, by omega⟩
  refine ⟨?_, ?_, ?_⟩
  · intro data
    rw [call_hindered T _ (upload_standard T root data) hs hh]
    have hg := after_grown T (upload_call T root data).request g
      (fun g' k h1 h2 => by rw [gateway_upload_snd T hr]; exact (upload_grown h1 data h2).1) hs g 0 h0 (by omega)
    generalize hb : afterAll T (upload_call T root data).request hs g = b at hg
    have hc := hg.counter
    obtain ⟨h1, h2, h3⟩ := upload_grown hg data (by omega)
    have hgate := gateway_upload T hr b data
    rw [show b.upload data = (.ok (.chk b.counter), (b.upload data).2) by rw [← h2]] at hgate
    dsimp only at hgate
    have hread : (upload_call T root data).read (html 201 (T.show_cap (.chk b.counter))) = .ok (.chk b.counter) := by
      unfold upload_call
      dsimp only
      rw [read_html, if_pos (by omega), ApiText.readable, hT.cap]
      rfl
    refine ⟨.chk b.counter, (b.upload data).2, ?_, h1.keeps, ?_⟩
    · rw [call_last T _ b _ k _ hgate (by rw [hread]; intro e h; cases h), hread]
    · simp only [MemoryGrid.download, h3]
  · rw [call_hindered T _ (mkdir_standard T root) hs hh]
    have hg := after_grown T (mkdir_call T root).request g
      (fun g' k h1 h2 => by rw [gateway_mkdir_snd T hr]; exact (mkdir_grown h1 h2).1) hs g 0 h0 (by omega)
    generalize hb : afterAll T (mkdir_call T root).request hs g = b at hg
    have hc := hg.counter
    obtain ⟨h1, h2, h3⟩ := mkdir_grown hg (by omega)
    have hgate := gateway_mkdir T hr b
    rw [show b.make_directory = (.ok (.dirWrite b.counter), b.make_directory.2) by rw [← h2]] at hgate
    dsimp only at hgate
    have hread : (mkdir_call T root).read (html 200 (T.show_cap (.dirWrite b.counter))) = .ok (.dirWrite b.counter) := by
      unfold mkdir_call
      dsimp only
      rw [read_html, if_pos rfl, ApiText.writeable_directory, hT.cap]
      rfl
    refine ⟨b.counter, b.make_directory.2, ?_, h1.keeps, ?_, h3⟩
    · rw [call_last T _ b _ k _ hgate (by rw [hread]; intro e h; cases h), hread]
    · cases hl : g.dirs.lookup b.counter with
      | none => rfl
      | some c =>
        have := hwf.dirs _ (lookup_key hl)
        omega
  · intro dir name cap hn hok
    have hd : dir.is_directory = true := by
      cases dir with
      | chk n => simp [MemoryGrid.link] at hok
      | _ => rfl
    have hg := gateway_link T hT hr g dir hd name hn cap
    have hg2 := gateway_link T hT hr (g.link dir name cap).2 dir hd name hn cap
    rw [link_again hok] at hg2
    have hu : g.link dir name cap = (.ok (), (g.link dir name cap).2) := by rw [← hok]
    generalize hq : (g.link dir name cap).2 = g' at *
    rw [hu] at hg
    dsimp only at hg hg2
    rw [call_hindered T _ (link_standard T root dir name cap) hs hh,
      after_two T _ g g' (by rw [hg]) (by rw [hg2])]
    cases someDone hs with
    | true =>
      rw [if_pos rfl, call_last T _ g' g' k _ hg2 (by rw [link_read_ok]; intro e h; cases h), link_read_ok]
    | false =>
      rw [if_neg (by simp), call_last T _ g g' k _ hg (by rw [link_read_ok]; intro e h; cases h), link_read_ok]

/-- The directory of the example gets its entry although the first request had done it. -/
example : call_api (hindered exText) (link_call exText [""] (.dirWrite 0) "event-stream-7" (.chk 1)) 2 (exApiGrid, exDone) =
    some (.ok (), (exApiGrid.link (.dirWrite 0) "event-stream-7" (.chk 1)).2, []) :=
  (C127_once_partial exText exText_laws [""] (.inr rfl)
    [.make_directory, .upload [1, 2, 3], .link (.dirWrite 0) "snapshot" (.chk 1)] exDone 2 exDone_temporary (by decide)
    (by decide)).2.2 (.dirWrite 0) "event-stream-7" (.chk 1) (by decide) rfl

/-! ### C128: only missing servers and a missing node are waited for -/

/-- The full property, for a world of any kind: an answer that does not say that servers are missing ends the call. -/
def C128_statement : Prop :=
  ∀ (T : ApiText), TextLaws T → ∀ (root : List String), PlainRoot root →
  ∀ (W : Type) (send : ApiRequest → W → ApiReply × W) (w : W),
    (∀ data, Answers send (upload_call T root data) w → Ends send (upload_call T root data) w) ∧
    (Answers send (mkdir_call T root) w → Ends send (mkdir_call T root) w) ∧
    (∀ dir, Answers send (list_call T root dir) w → Ends send (list_call T root dir) w) ∧
    (∀ dir name cap, Answers send (link_call T root dir name cap) w → Ends send (link_call T root dir name cap) w) ∧
    (∀ dir name, Answers send (unlink_call T root dir name) w → Ends send (unlink_call T root dir name) w)

/-- A node that always answers that there is no such entry. -/
def sendMissing : ApiRequest → Unit → ApiReply × Unit := fun _ _ => (html 404 "no such child", ())

/-- It fails: the name of an entry is part of the error, and one that looks like an error for want of servers makes every
error look like one. -/
theorem C128_name_fails : ¬ C128_statement := by
  intro h
  obtain ⟨r, hr⟩ := (h exText exText_laws [] (.inl rfl) Unit sendMissing ()).2.2.2.2 (.dirWrite 0)
    "allmydata.interfaces.NoServersError" ⟨404, "no such child", rfl, plain_char (by decide +kernel)⟩
  have hnone : ∀ fuel, call_api sendMissing (unlink_call exText [] (.dirWrite 0) "allmydata.interfaces.NoServersError")
      fuel () = none := by
    intro fuel
    induction fuel with
    | zero => rfl
    | succ fuel ih =>
      rw [call_api]
      simp only [sendMissing] at ih ⊢
      rw [unlink_read_missing exText exText_laws (.inl rfl)]
      dsimp only
      rw [if_pos, ih]
      rw [common_iff]
      exact .inr ⟨_, _, _, _, _, rfl, "allmydata.interfaces.NoServersError", by simp [api_error_str],
        .inl ⟨[], [], by simp⟩⟩
  have h0 := hr 0
  rw [hnone] at h0
  cases h0

theorem retried_of {α} (r : ApiRequest) (f : Nat → String → Except TahoeErr α) (final : Nat → String → Prop)
    (hfin : ∀ status text, final status text → ∀ e, f status text = .error e → common_tahoe_error e = false)
    (hother : ∀ status text, ¬ final status text → f status text = api_error r status text)
    (hm : ¬ SaysNoServers r.method) (hp : ∀ x ∈ r.path, ¬ SaysNoServers x)
    (hq : ∀ kv ∈ r.query, ¬ SaysNoServers kv.1 ∧ ¬ SaysNoServers kv.2) (reply : ApiReply) :
    Retried ⟨r, fun reply => read_reply reply f⟩ reply ↔ reply = .refused ∨ Lacking reply final := by
  unfold Retried Lacking read_reply
  cases reply with
  | refused =>
    constructor
    · intro _; exact .inl rfl
    · intro _; exact ⟨_, rfl, by decide⟩
  | failed code =>
    constructor
    · rintro ⟨e, h, he⟩; cases h; cases he
    · rintro (h | ⟨_, _, _, h, _⟩) <;> cases h
  | reply status body =>
    dsimp only
    cases hd : py_decode body with
    | none =>
      constructor
      · rintro ⟨e, h, he⟩; cases h; exact absurd he (by decide)
      · rintro (h | ⟨_, _, _, h, h2, _⟩)
        · cases h
        · cases h; rw [hd] at h2; cases h2
    | some text =>
      dsimp only
      constructor
      · rintro ⟨e, h, he⟩
        by_cases hf : final status text
        · rw [hfin status text hf e h] at he; cases he
        · refine .inr ⟨status, body, text, rfl, hd, ?_, hf⟩
          rw [hother status text hf] at h
          cases h
          apply Classical.byContradiction
          intro hb
          rw [api_final hm hp hq hb] at he
          cases he
      · rintro (h | ⟨_, _, _, h, h2, h3, h4⟩)
        · cases h
        · cases h
          rw [hd] at h2
          cases h2
          exact ⟨_, hother status text h4, body_retried h3⟩

/-- An attempt is made again exactly if the connection was refused, or the node replied that it lacks servers with a
status that is not the one of a success (and, for links and removals, the reply is not one of those with a meaning of
their own); no other exception and no reply that is not text is retried. -/
theorem C128_retried_iff (T : ApiText) (hT : TextLaws T) (root : List String) (hr : PlainRoot root) (reply : ApiReply)
    (dir cap : Cap) (name : String) (hp : ¬ SaysNoServers name) (data : Bytes) :
    (Retried (upload_call T root data) reply ↔ reply = .refused ∨ Lacking reply fun status _ => status = 200 ∨ status = 201) ∧
    (Retried (mkdir_call T root) reply ↔ reply = .refused ∨ Lacking reply fun status _ => status = 200) ∧
    (Retried (list_call T root dir) reply ↔ reply = .refused ∨ Lacking reply fun status _ => status = 200) ∧
    (Retried (link_call T root dir name cap) reply ↔ reply = .refused ∨ Lacking reply fun status text =>
      status = 200 ∨ (status = 500 ∧ Mentions text "allmydata.mutable.common.NotWriteableError")) ∧
    (Retried (unlink_call T root dir name) reply ↔ reply = .refused ∨ Lacking reply fun status text =>
      status = 200 ∨ (status = 500 ∧ Mentions text "allmydata.mutable.common.NotWriteableError") ∨
        (status = 400 ∧ Mentions text "Files have no children named")) := by
  have huri : ∀ x ∈ url_child root "uri", ¬ SaysNoServers x := by
    rw [root_uri hr]
    intro x hx
    simp only [List.mem_singleton] at hx
    subst hx
    exact plain_char (by decide +kernel)
  have hentry : ∀ x ∈ entry_path root (T.show_cap dir) name, ¬ SaysNoServers x := by
    rw [entry_path_eq hr (hT.nonempty dir)]
    exact entry_pieces T hT dir name hp
  have hlist : ∀ x ∈ list_path root (T.show_cap dir), ¬ SaysNoServers x := by
    rw [list_path_eq hr (hT.nonempty dir)]
    exact entry_pieces T hT dir "" (plain_char (by decide +kernel))
  refine ⟨?_, ?_, ?_, ?_, ?_⟩
  · refine retried_of _ _ _ ?_ ?_ (plain_char (by dsimp only; decide +kernel)) huri (by simp) reply
    · intro status text hf e h
      rw [if_pos hf] at h
      exact recognized_final _ h
    · intro status text hf
      rw [if_neg hf]
  · refine retried_of _ _ _ ?_ ?_ (plain_char (by dsimp only; decide +kernel)) huri (query_pieces _ (by decide +kernel)) reply
    · intro status text hf e h
      rw [if_pos hf] at h
      exact recognized_final _ h
    · intro status text hf
      rw [if_neg hf]
  · refine retried_of _ _ _ ?_ ?_ (plain_char (by dsimp only; decide +kernel)) hlist (query_pieces _ (by decide +kernel)) reply
    · intro status text hf e h
      rw [if_pos hf] at h
      exact read_listing_final T _ h
    · intro status text hf
      rw [if_neg hf]
  · refine retried_of _ _ _ ?_ ?_ (plain_char (by dsimp only; decide +kernel)) hentry (query_pieces _ (by decide +kernel)) reply
    · intro status text hf e h
      rcases hf with rfl | ⟨rfl, hm⟩
      · rw [if_pos rfl] at h; cases h
      · rw [if_neg (by decide), if_pos ⟨rfl, (infix_mentions _ _).mpr hm⟩] at h
        cases h; rfl
    · intro status text hf
      rw [if_neg (fun h => hf (.inl h)), if_neg (fun h => hf (.inr ⟨h.1, (infix_mentions _ _).mp h.2⟩))]
  · refine retried_of _ _ _ ?_ ?_ (plain_char (by dsimp only; decide +kernel)) hentry (by simp) reply
    · intro status text hf e h
      rcases hf with rfl | ⟨rfl, hm⟩ | ⟨rfl, hm⟩
      · rw [if_pos rfl] at h; cases h
      · rw [if_neg (by decide), if_pos ⟨rfl, (infix_mentions _ _).mpr hm⟩] at h
        cases h; rfl
      · rw [if_neg (by decide), if_neg (fun h => absurd h.1 (by decide)), if_pos ⟨rfl, (infix_mentions _ _).mpr hm⟩] at h
        cases h; rfl
    · intro status text hf
      rw [if_neg (fun h => hf (.inl h)), if_neg (fun h => hf (.inr (.inl ⟨h.1, (infix_mentions _ _).mp h.2⟩))),
        if_neg (fun h => hf (.inr (.inr ⟨h.1, (infix_mentions _ _).mp h.2⟩)))]

theorem ends_of {W α} (send : ApiRequest → W → ApiReply × W) (c : ApiCall α) (w : W)
    (h : ¬ Retried c (send c.request w).1) : Ends send c w := by
  refine ⟨c.read (send c.request w).1, fun fuel => ?_⟩
  rw [call_api]
  cases hs : send c.request w with
  | mk reply w' =>
    rw [hs] at h
    dsimp only at h ⊢
    cases hr : c.read reply with
    | ok a => rfl
    | error e =>
      dsimp only
      rw [if_neg (fun he => h ⟨e, hr, he⟩)]

/-- Uploads, new directories and listings end with the first answer that does not say that servers are missing; so do links
and removals for the name of an entry that does not say so itself, as do all names that the plugin uses
(`C128_names`).
Missing: names that do say so, where it is false. -/
theorem C128_ends_partial (T : ApiText) (hT : TextLaws T) (root : List String) (hr : PlainRoot root)
    (W : Type) (send : ApiRequest → W → ApiReply × W) (w : W) :
    (∀ data, Answers send (upload_call T root data) w → Ends send (upload_call T root data) w) ∧
    (Answers send (mkdir_call T root) w → Ends send (mkdir_call T root) w) ∧
    (∀ dir, Answers send (list_call T root dir) w → Ends send (list_call T root dir) w) ∧
    (∀ dir name cap, ¬ SaysNoServers name →
      Answers send (link_call T root dir name cap) w → Ends send (link_call T root dir name cap) w) ∧
    (∀ dir name, ¬ SaysNoServers name →
      Answers send (unlink_call T root dir name) w → Ends send (unlink_call T root dir name) w) := by
  have key : ∀ (status : Nat) (text : String) (final : Nat → String → Prop), ¬ SaysNoServers text →
      ¬ (html status text = .refused ∨ Lacking (html status text) final) := by
    intro status text final hn h
    rcases h with h | ⟨s, b, t, h, h2, h3, _⟩
    · cases h
    · cases h
      rw [py_decode_encode] at h2
      cases h2
      exact hn h3
  have he : ¬ SaysNoServers "" := plain_char (by decide +kernel)
  refine ⟨?_, ?_, ?_, ?_, ?_⟩
  · rintro data ⟨status, text, h1, h2⟩
    apply ends_of
    rw [(C128_retried_iff T hT root hr _ (.chk 0) (.chk 0) "" he data).1, h1]
    exact key _ _ _ h2
  · rintro ⟨status, text, h1, h2⟩
    apply ends_of
    rw [(C128_retried_iff T hT root hr _ (.chk 0) (.chk 0) "" he []).2.1, h1]
    exact key _ _ _ h2
  · rintro dir ⟨status, text, h1, h2⟩
    apply ends_of
    rw [(C128_retried_iff T hT root hr _ dir (.chk 0) "" he []).2.2.1, h1]
    exact key _ _ _ h2
  · rintro dir name cap hp ⟨status, text, h1, h2⟩
    apply ends_of
    rw [(C128_retried_iff T hT root hr _ dir cap name hp []).2.2.2.1, h1]
    exact key _ _ _ h2
  · rintro dir name hp ⟨status, text, h1, h2⟩
    apply ends_of
    rw [(C128_retried_iff T hT root hr _ dir (.chk 0) name hp []).2.2.2.2, h1]
    exact key _ _ _ h2

/-- The names that the plugin gives to entries do not say that servers are missing. -/
theorem C128_names (n : Nat) : ¬ SaysNoServers "snapshot" ∧ ¬ SaysNoServers ("event-stream-" ++ toString n) := by
  refine ⟨plain_snapshot, plain_char ?_⟩
  rw [String.toList_append, List.mem_append]
  rintro (h | h)
  · exact absurd h (by decide +kernel)
  · exact digits_no_N n h

/-- The answer of the example node to the removal of `snapshot` ends the call. -/
example : Ends sendMissing (unlink_call exText [] (.dirWrite 0) "snapshot") () :=
  (C128_ends_partial exText exText_laws [] (.inl rfl) Unit sendMissing ()).2.2.2.2 (.dirWrite 0) "snapshot" plain_snapshot
    ⟨404, "no such child", rfl, plain_char (by decide +kernel)⟩

/-! ### C67: the text of an error -/

/-- What `str` shows of the error of a failed download depends on the capability through its digest only. -/
def C67_str_statement : Prop :=
  ∀ (digest : String → String) (api_root : List String) (status : Nat) (body : String), PlainRoot api_root →
    ∃ shown : String → List String, ∀ cap, RealCap cap →
      api_error_str "get" (download_path api_root cap) [] status body = shown (digest cap)

theorem download_path_eq {root : List String} (h : PlainRoot root) (cap : String) :
    download_path root cap = ["uri", cap] := by
  unfold download_path
  rw [root_uri h]
  unfold url_child
  rw [if_neg (by decide)]
  rfl

/-- The text of the error holds the capability itself, as it does for a listing, a link and a removal: `recover.py:132,141`
makes it the reason of a failed recovery that the API reports. -/
theorem C67_str_shows (root : List String) (hr : PlainRoot root) (cap : String) (hc : cap ≠ "") (status : Nat)
    (body name : String) (query : List (String × String)) :
    cap ∈ api_error_str "get" (download_path root cap) [] status body ∧
    cap ∈ api_error_str "get" (list_path root cap) [("t", "json")] status body ∧
    cap ∈ api_error_str "put" (entry_path root cap name) query status body ∧
    cap ∈ api_error_str "delete" (entry_path root cap name) query status body := by
  rw [download_path_eq hr, list_path_eq hr hc, entry_path_eq hr hc]
  simp [api_error_str]

/-- It fails even where the path that the error keeps is free of the capability (`C67_digest_only_partial`). -/
theorem C67_str_fails : ¬ C67_str_statement := by
  intro h
  obtain ⟨shown, h⟩ := h (fun _ => "") [] 404 "gone" (.inl rfl)
  have h1 := h "URI:A" ⟨by decide, by decide⟩
  have h2 := h "URI:B" ⟨by decide, by decide⟩
  rw [← h2] at h1
  revert h1
  decide

end ZKAP
