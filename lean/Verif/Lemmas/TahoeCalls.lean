import Verif.Lemmas.TahoeApi
import Verif.Lemmas.Snapshot

/-! One operation through the HTTP client and on the grid. -/
namespace ZKAP
open Spec

theorem upload_same (T : ApiText) (hT : TextLaws T) {root : List String} (hr : PlainRoot root) (g : MemoryGrid)
    (hs : List Hindrance) (fuel : Nat) (hh : ∀ h ∈ hs, Harmless h) (hf : hs.length < fuel) (data : Bytes) :
    SameAs (call_api (hindered T) (upload_call T root data) fuel (g, hs)) (g.upload data) := by
  have hg := gateway_upload T hr g data
  cases hu : g.upload data with
  | mk res g' =>
    rw [hu] at hg
    cases res with
    | ok cap =>
      dsimp only at hg
      have hn : ∃ n, cap = .chk n := by
        unfold MemoryGrid.upload at hu
        split at hu
        · cases hu; exact ⟨_, rfl⟩
        · cases hu
      obtain ⟨n, rfl⟩ := hn
      have hread : (upload_call T root data).read (html 201 (T.show_cap (.chk n))) = .ok (.chk n) := by
        unfold upload_call
        dsimp only
        rw [read_html, if_pos (by omega), ApiText.readable, hT.cap]
        rfl
      refine ⟨_, [], call_same T _ (upload_standard T root data) hs hh g g' fuel hf _ hg ?_, ?_⟩
      · rw [hread]; intro e h; cases h
      · rw [hread]; rfl
    | error e =>
      dsimp only at hg
      have hread : (upload_call T root data).read (html 500 "cannot upload") =
          .error (.api "put" ["uri"] [] 500 "cannot upload") := by
        unfold upload_call
        dsimp only
        rw [read_html, if_neg (by omega), root_uri hr]
        rfl
      refine ⟨_, [], call_same T _ (upload_standard T root data) hs hh g g' fuel hf _ hg ?_, ?_⟩
      · rw [hread]
        intro e h
        cases h
        exact api_final (plain_char (by decide +kernel)) (by
          intro x hx
          simp only [List.mem_singleton] at hx
          subst hx
          exact plain_char (by decide +kernel)) (by simp) (plain_char (by decide +kernel))
      · rw [hread]
        have : ∀ k, e ≠ .other k := by
          intro k hk
          subst hk
          unfold MemoryGrid.upload at hu
          split at hu <;> cases hu
        cases e with
        | other k => exact absurd rfl (this k)
        | _ => rfl

theorem mkdir_same (T : ApiText) (hT : TextLaws T) {root : List String} (hr : PlainRoot root) (g : MemoryGrid)
    (hs : List Hindrance) (fuel : Nat) (hh : ∀ h ∈ hs, Harmless h) (hf : hs.length < fuel) :
    SameAs (call_api (hindered T) (mkdir_call T root) fuel (g, hs)) g.make_directory := by
  have hg := gateway_mkdir T hr g
  cases hu : g.make_directory with
  | mk res g' =>
    rw [hu] at hg
    cases res with
    | ok cap =>
      dsimp only at hg
      have hn : ∃ n, cap = .dirWrite n := by
        unfold MemoryGrid.make_directory at hu
        split at hu
        · cases hu; exact ⟨_, rfl⟩
        · cases hu
      obtain ⟨n, rfl⟩ := hn
      have hread : (mkdir_call T root).read (html 200 (T.show_cap (.dirWrite n))) = .ok (.dirWrite n) := by
        unfold mkdir_call
        dsimp only
        rw [read_html, if_pos rfl, ApiText.writeable_directory, hT.cap]
        rfl
      refine ⟨_, [], call_same T _ (mkdir_standard T root) hs hh g g' fuel hf _ hg ?_, ?_⟩
      · rw [hread]; intro e h; cases h
      · rw [hread]; rfl
    | error e =>
      dsimp only at hg
      have hread : (mkdir_call T root).read (html 500 "cannot make directory") =
          .error (.api "post" ["uri"] [("t", "mkdir")] 500 "cannot make directory") := by
        unfold mkdir_call
        dsimp only
        rw [read_html, if_neg (by omega), root_uri hr]
        rfl
      refine ⟨_, [], call_same T _ (mkdir_standard T root) hs hh g g' fuel hf _ hg ?_, ?_⟩
      · rw [hread]
        intro e h
        cases h
        exact api_final (plain_char (by decide +kernel)) (by
          intro x hx
          simp only [List.mem_singleton] at hx
          subst hx
          exact plain_char (by decide +kernel)) (by
          intro x hx
          simp only [List.mem_singleton] at hx
          subst hx
          exact ⟨plain_char (by decide +kernel), plain_char (by decide +kernel)⟩) (plain_char (by decide +kernel))
      · rw [hread]
        have : ∀ k, e ≠ .other k := by
          intro k hk
          subst hk
          unfold MemoryGrid.make_directory at hu
          split at hu <;> cases hu
        cases e with
        | other k => exact absurd rfl (this k)
        | _ => rfl


theorem not_writeable_text : says_not_writeable "allmydata.mutable.common.NotWriteableError: read-only" = true := by
  decide +kernel

theorem no_children_text (name : String) : says_no_children ("Files have no children named " ++ name) = true := by
  unfold says_no_children
  rw [infix_mentions]
  exact ⟨[], ' ' :: name.toList, by simp [String.toList_append]⟩

/-- The pieces of the URL of an entry. -/
theorem entry_pieces (T : ApiText) (hT : TextLaws T) (dir : Cap) (name : String) (hp : ¬ SaysNoServers name) :
    ∀ x ∈ ["uri", T.show_cap dir, name], ¬ SaysNoServers x := by
  intro x hx
  simp only [List.mem_cons, List.not_mem_nil, or_false] at hx
  rcases hx with rfl | rfl | rfl
  · exact plain_char (by decide +kernel)
  · exact hT.plain dir
  · exact hp

theorem query_pieces (v : String) (hv : 'N' ∉ v.toList) : ∀ kv ∈ [("t", v)], ¬ SaysNoServers kv.1 ∧ ¬ SaysNoServers kv.2 := by
  intro kv hkv
  simp only [List.mem_singleton] at hkv
  subst hkv
  exact ⟨plain_char (s := "t") (by decide +kernel), plain_char hv⟩

theorem link_read_ok (T : ApiText) (root : List String) (dir : Cap) (name : String) (cap : Cap) (text : String) :
    (link_call T root dir name cap).read (html 200 text) = .ok () := by
  unfold link_call
  dsimp only
  rw [read_html, if_pos rfl]

theorem unlink_read_ok (T : ApiText) (root : List String) (dir : Cap) (name : String) (text : String) :
    (unlink_call T root dir name).read (html 200 text) = .ok () := by
  unfold unlink_call
  dsimp only
  rw [read_html, if_pos rfl]

theorem unlink_read_missing (T : ApiText) (hT : TextLaws T) {root : List String} (hr : PlainRoot root) (dir : Cap)
    (name : String) : (unlink_call T root dir name).read (html 404 "no such child") =
      .error (.api "delete" ["uri", T.show_cap dir, name] [] 404 "no such child") := by
  rw [(unlink_standard T root dir name).other 404 "no such child" (by decide) (by decide)
    (not_mentions_short (by decide +kernel)) (not_mentions_short (by decide +kernel))]
  unfold unlink_call api_error
  dsimp only
  rw [entry_path_eq hr (hT.nonempty dir)]

theorem missing_final (T : ApiText) (hT : TextLaws T) (dir : Cap) (name : String) (hp : ¬ SaysNoServers name) :
    common_tahoe_error (.api "delete" ["uri", T.show_cap dir, name] [] 404 "no such child") = false :=
  api_final (plain_char (by decide +kernel)) (entry_pieces T hT dir name hp) (by simp) (plain_char (by decide +kernel))

theorem describe_err {g : MemoryGrid} {cap : Cap} {e : PyErr} (h : g.describe cap = .error e) : e = .keyError := by
  unfold MemoryGrid.describe at h
  cases cap <;> dsimp only at h <;> split at h <;> cases h <;> rfl

theorem describe_all_err {g : MemoryGrid} {children : Dict String Cap} {e : PyErr}
    (h : g.describe_all children = .error e) : e = .keyError := by
  induction children with
  | nil => cases h
  | cons kc rest ih =>
    obtain ⟨name, cap⟩ := kc
    rw [MemoryGrid.describe_all] at h
    cases hd : g.describe cap with
    | error e2 => rw [hd] at h; cases h; exact describe_err hd
    | ok e2 =>
      rw [hd] at h
      dsimp only at h
      cases hr : g.describe_all rest with
      | error e3 => rw [hr] at h; cases h; exact ih hr
      | ok es2 => rw [hr] at h; cases h

theorem seen_list {g : MemoryGrid} {dir : Cap} {e : PyErr} (h : g.list_directory dir = .error e) :
    seenMem (.error e : Except PyErr (Dict String DirEntry)) = .other := by
  have : e = .keyError ∨ e = .valueError := by
    unfold MemoryGrid.list_directory at h
    cases dir with
    | chk n =>
      dsimp only at h
      split at h <;> cases h
      · exact .inr rfl
      · exact .inl rfl
    | _ =>
      dsimp only at h
      split at h
      · cases h; exact .inl rfl
      · exact .inl (describe_all_err h)
  rcases this with rfl | rfl <;> rfl

theorem link_same (T : ApiText) (hT : TextLaws T) {root : List String} (hr : PlainRoot root) (g : MemoryGrid)
    (hs : List Hindrance) (fuel : Nat) (hh : ∀ h ∈ hs, Harmless h) (hf : hs.length < fuel)
    (dir : Cap) (hd : dir.is_directory = true) (name : String) (hn : name ≠ "") (hp : ¬ SaysNoServers name) (cap : Cap) :
    SameAs (call_api (hindered T) (link_call T root dir name cap) fuel (g, hs)) (g.link dir name cap) := by
  have hg := gateway_link T hT hr g dir hd name hn cap
  have go : ∀ res g' reply, g.link dir name cap = (res, g') →
      gateway T g (link_call T root dir name cap).request = (reply, g') →
      (∀ e, (link_call T root dir name cap).read reply = .error e → common_tahoe_error e = false) →
      seenApi ((link_call T root dir name cap).read reply) = seenMem res →
      SameAs (call_api (hindered T) (link_call T root dir name cap) fuel (g, hs)) (g.link dir name cap) := by
    intro res g' reply h1 h2 h3 h4
    rw [h1]
    exact ⟨_, [], call_same T _ (link_standard T root dir name cap) hs hh g g' fuel hf _ h2 h3, h4⟩
  have hgone : (link_call T root dir name cap).read (html 410 "gone") =
      .error (.api "put" ["uri", T.show_cap dir, name] [("t", "uri")] 410 "gone") := by
    rw [(link_standard T root dir name cap).other 410 "gone" (by decide) (by decide)
      (not_mentions_short (by decide +kernel)) (not_mentions_short (by decide +kernel))]
    unfold link_call api_error
    dsimp only
    rw [entry_path_eq hr (hT.nonempty dir)]
  have hnw : (link_call T root dir name cap).read (html 500 "allmydata.mutable.common.NotWriteableError: read-only") =
      .error .notWriteable := by
    unfold link_call
    dsimp only
    rw [read_html, if_neg (by decide), if_pos ⟨rfl, not_writeable_text⟩]
  have hfin : common_tahoe_error (.api "put" ["uri", T.show_cap dir, name] [("t", "uri")] 410 "gone") = false :=
    api_final (plain_char (by decide +kernel)) (entry_pieces T hT dir name hp) (query_pieces _ (by decide +kernel))
      (plain_char (by decide +kernel))
  cases hu : g.link dir name cap with
  | mk res g' =>
    rw [← hu]
    rw [hu] at hg
    cases res with
    | ok u =>
      refine go _ _ _ hu hg ?_ ?_ <;> rw [link_read_ok]
      · intro e h; cases h
      · rfl
    | error e =>
      by_cases h10 : e = .other 10
      · subst h10
        refine go _ _ _ hu hg ?_ ?_ <;> rw [hnw]
        · intro e h; cases h; rfl
        · rfl
      · have hg2 : gateway T g (link_call T root dir name cap).request = (html 410 "gone", g') := by
          rw [hg]
          split
          · rename_i h; cases h
          · rename_i h; cases h; exact absurd rfl h10
          · rename_i h; cases h; rfl
        refine go _ _ _ hu hg2 ?_ ?_ <;> rw [hgone]
        · intro e h; cases h; exact hfin
        · show Seen.other = seenMem (.error e)
          unfold seenMem
          split
          · rename_i h; cases h
          · rename_i h; cases h; exact absurd rfl h10
          · rfl

theorem unlink_same (T : ApiText) (hT : TextLaws T) {root : List String} (hr : PlainRoot root) (g : MemoryGrid)
    (hs : List Hindrance) (fuel : Nat) (hh : ∀ h ∈ hs, Harmless h) (hf : hs.length < fuel)
    (dir : Cap) (hd : dir.is_directory = true) (name : String) (hn : name ≠ "") (hp : ¬ SaysNoServers name) :
    SameAs (call_api (hindered T) (unlink_call T root dir name) fuel (g, hs)) (g.unlink dir name) := by
  have hg := gateway_unlink T hT hr g dir hd name hn
  have go : ∀ res g' reply, g.unlink dir name = (res, g') →
      gateway T g (unlink_call T root dir name).request = (reply, g') →
      (∀ e, (unlink_call T root dir name).read reply = .error e → common_tahoe_error e = false) →
      seenApi ((unlink_call T root dir name).read reply) = seenMem res →
      SameAs (call_api (hindered T) (unlink_call T root dir name) fuel (g, hs)) (g.unlink dir name) := by
    intro res g' reply h1 h2 h3 h4
    rw [h1]
    exact ⟨_, [], call_same T _ (unlink_standard T root dir name) hs hh g g' fuel hf _ h2 h3, h4⟩
  have hnw : (unlink_call T root dir name).read (html 500 "allmydata.mutable.common.NotWriteableError: read-only") =
      .error .notWriteable := by
    unfold unlink_call
    dsimp only
    rw [read_html, if_neg (by decide), if_pos ⟨rfl, not_writeable_text⟩]
  cases hu : g.unlink dir name with
  | mk res g' =>
    rw [← hu]
    rw [hu] at hg
    cases res with
    | ok u =>
      refine go _ _ _ hu hg ?_ ?_ <;> rw [unlink_read_ok]
      · intro e h; cases h
      · rfl
    | error e =>
      by_cases h10 : e = .other 10
      · subst h10
        refine go _ _ _ hu hg ?_ ?_ <;> rw [hnw]
        · intro e h; cases h; rfl
        · rfl
      · have hg2 : gateway T g (unlink_call T root dir name).request = (html 404 "no such child", g') := by
          rw [hg]
          split
          · rename_i h; cases h
          · rename_i h; cases h; exact absurd rfl h10
          · rename_i h; cases h; rfl
        refine go _ _ _ hu hg2 ?_ ?_ <;> rw [unlink_read_missing T hT hr dir name]
        · intro e h; cases h; exact missing_final T hT dir name hp
        · show Seen.other = seenMem (.error e)
          unfold seenMem
          split
          · rename_i h; cases h
          · rename_i h; cases h; exact absurd rfl h10
          · rfl

theorem list_same (T : ApiText) (hT : TextLaws T) {root : List String} (hr : PlainRoot root) (g : MemoryGrid)
    (hs : List Hindrance) (fuel : Nat) (hh : ∀ h ∈ hs, Harmless h) (hf : hs.length < fuel) (dir : Cap) :
    SameAs (list_directory_api T root (hindered T) dir fuel (g, hs)) (g.list_directory dir, g) := by
  unfold list_directory_api
  by_cases hd : dir.is_directory = true
  · rw [if_pos hd]
    have hg := gateway_list T hT hr g dir hd
    cases hl : g.list_directory dir with
    | ok entries =>
      rw [hl] at hg
      have hread : (list_call T root dir).read (html 200 (T.dumps (listing_json T entries))) = .ok entries := by
        unfold list_call
        dsimp only
        rw [read_html, if_pos rfl]
        exact read_listing_json T hT entries (list_proper hl)
      refine ⟨_, [], call_same T _ (list_standard T root dir) hs hh g g fuel hf _ hg ?_, ?_⟩
      · rw [hread]; intro e h; cases h
      · rw [hread]; rfl
    | error e =>
      rw [hl] at hg
      have hread : (list_call T root dir).read (html 410 "gone") =
          .error (.api "get" ["uri", T.show_cap dir, ""] [("t", "json")] 410 "gone") := by
        unfold list_call
        dsimp only
        rw [read_html, if_neg (by decide), list_path_eq hr (hT.nonempty dir)]
        rfl
      refine ⟨_, [], call_same T _ (list_standard T root dir) hs hh g g fuel hf _ hg ?_, ?_⟩
      · rw [hread]
        intro e h
        cases h
        exact api_final (plain_char (by decide +kernel)) (entry_pieces T hT dir "" (plain_char (by decide +kernel)))
          (query_pieces _ (by decide +kernel)) (plain_char (by decide +kernel))
      · rw [hread]
        exact (seen_list hl).symm
  · rw [if_neg hd]
    refine ⟨_, hs, rfl, ?_⟩
    cases hl : g.list_directory dir with
    | ok entries =>
      cases dir with
      | chk n =>
        unfold MemoryGrid.list_directory at hl
        dsimp only at hl
        split at hl <;> cases hl
      | _ => exact absurd rfl hd
    | error e => exact (seen_list hl).symm

/-! ### Requests that were carried out although servers were missing -/

/-- The request was carried out at least once. -/
def someDone (hs : List Hindrance) : Bool := hs.any fun
  | .refused => false
  | .noServers _ _ done => done

theorem after_fixed (T : ApiText) (r : ApiRequest) (g : MemoryGrid) (h : (gateway T g r).2 = g) (hs : List Hindrance) :
    afterAll T r hs g = g := by
  induction hs with
  | nil => rfl
  | cons x hs ih =>
    cases x with
    | refused => exact ih
    | noServers status text done =>
      cases done with
      | false => exact ih
      | true =>
        simp only [afterAll, if_true]
        rw [h, ih]

theorem after_two (T : ApiText) (r : ApiRequest) (g g' : MemoryGrid) (h0 : (gateway T g r).2 = g')
    (h1 : (gateway T g' r).2 = g') (hs : List Hindrance) :
    afterAll T r hs g = if someDone hs then g' else g := by
  induction hs with
  | nil => rfl
  | cons x hs ih =>
    cases x with
    | refused => simpa [afterAll, someDone] using ih
    | noServers status text done =>
      cases done with
      | false => simpa [afterAll, someDone] using ih
      | true =>
        simp only [afterAll, if_true]
        rw [h0, after_fixed T r g' h1]
        simp [someDone]

theorem link_again {g : MemoryGrid} {dir : Cap} {name : String} {cap : Cap} (h : (g.link dir name cap).1 = .ok ()) :
    (g.link dir name cap).2.link dir name cap = (.ok (), (g.link dir name cap).2) := by
  cases dir with
  | chk n => simp [MemoryGrid.link] at h
  | dirRead n => simp [MemoryGrid.link] at h
  | dirWrite n =>
    simp only [MemoryGrid.link] at h ⊢
    cases hl : g.dirs.lookup n with
    | none => simp [hl] at h
    | some children =>
      dsimp only
      have h1 : (g.dirs.set n (children.set name cap)).lookup n = some (children.set name cap) := by
        rw [Dict.lookup_set]; simp
      rw [h1]
      dsimp only
      have h2 : (children.set name cap).set name cap = children.set name cap := by
        apply Dict.set_same
        rw [Dict.lookup_set]; simp
      rw [h2, Dict.set_same _ _ _ h1]

theorem unlink_again {g : MemoryGrid} {dir : Cap} {name : String} (h : (g.unlink dir name).1 = .ok ()) :
    (g.unlink dir name).2.unlink dir name = (.error .keyError, (g.unlink dir name).2) := by
  cases dir with
  | chk n => simp [MemoryGrid.unlink] at h
  | dirRead n => simp [MemoryGrid.unlink] at h
  | dirWrite n =>
    simp only [MemoryGrid.unlink] at h ⊢
    cases hl : g.dirs.lookup n with
    | none => simp [hl] at h
    | some children =>
      rw [hl] at h
      dsimp only at h ⊢
      cases hc : children.lookup name with
      | none => simp [hc] at h
      | some c =>
        dsimp only
        rw [Dict.lookup_set]
        simp only [beq_self_eq_true, if_true]
        have h3 : List.lookup name (children.filter fun kv => kv.1 != name) = none := by
          rw [List.lookup_eq_none_iff]
          intro p hp
          have := (List.mem_filter.mp hp).2
          simp only [bne_iff_ne, ne_eq] at this
          grind
        rw [h3]

/-- A grid that keeps what was on another one and has used `k` more numbers at most. -/
structure Grown (g g' : MemoryGrid) (k : Nat) : Prop where
  keeps : Keeps g g'
  wf : GridWF g'
  counter : g.counter ≤ g'.counter ∧ g'.counter ≤ g.counter + k

theorem upload_grown {g g' : MemoryGrid} {k : Nat} (h : Grown g g' k) (data : Bytes) (hlt : g'.counter < 2 ^ 128) :
    Grown g (g'.upload data).2 (k + 1) ∧ (g'.upload data).1 = .ok (.chk g'.counter) ∧
      (g'.upload data).2.files.lookup g'.counter = some data := by
  have hwf : GridWF (g'.upload data).2 := grid_wf_step h.wf (.upload data)
  unfold MemoryGrid.upload at hwf ⊢
  rw [if_pos hlt] at hwf ⊢
  refine ⟨⟨⟨?_, ?_⟩, hwf, ?_⟩, rfl, ?_⟩
  · intro n d hn
    have h1 := h.keeps.1 n d hn
    dsimp only
    rw [Dict.lookup_set]
    have : n < g'.counter := h.wf.files n (lookup_key h1)
    rw [if_neg (by simp; omega)]
    exact h1
  · exact h.keeps.2
  · have := h.counter
    dsimp only
    omega
  · dsimp only
    rw [Dict.lookup_set]
    simp

theorem mkdir_grown {g g' : MemoryGrid} {k : Nat} (h : Grown g g' k) (hlt : g'.counter < 2 ^ 128) :
    Grown g g'.make_directory.2 (k + 1) ∧ g'.make_directory.1 = .ok (.dirWrite g'.counter) ∧
      g'.make_directory.2.dirs.lookup g'.counter = some [] := by
  have hwf : GridWF g'.make_directory.2 := grid_wf_step h.wf .make_directory
  unfold MemoryGrid.make_directory at hwf ⊢
  rw [if_pos hlt] at hwf ⊢
  refine ⟨⟨⟨?_, ?_⟩, hwf, ?_⟩, rfl, ?_⟩
  · exact h.keeps.1
  · intro n d hn
    have h1 := h.keeps.2 n d hn
    dsimp only
    rw [Dict.lookup_set]
    have : n < g'.counter := h.wf.dirs n (lookup_key h1)
    rw [if_neg (by simp; omega)]
    exact h1
  · have := h.counter
    dsimp only
    omega
  · dsimp only
    rw [Dict.lookup_set]
    simp

theorem gateway_upload_snd (T : ApiText) {root : List String} (hr : PlainRoot root) (g : MemoryGrid) (data : Bytes) :
    (gateway T g (upload_call T root data).request).2 = (g.upload data).2 := by
  rw [gateway_upload T hr]
  split <;> (rename_i h; rw [h])

theorem gateway_mkdir_snd (T : ApiText) {root : List String} (hr : PlainRoot root) (g : MemoryGrid) :
    (gateway T g (mkdir_call T root).request).2 = g.make_directory.2 := by
  rw [gateway_mkdir T hr]
  split <;> (rename_i h; rw [h])

/-- Uploads that were done although servers were missing leave the rest alone. -/
theorem after_grown (T : ApiText) (r : ApiRequest) (g : MemoryGrid)
    (step : ∀ g' k, Grown g g' k → g'.counter < 2 ^ 128 → Grown g (gateway T g' r).2 (k + 1)) (hs : List Hindrance)
    (g' : MemoryGrid) (k : Nat) (h : Grown g g' k) (hlt : g.counter + k + hs.length < 2 ^ 128) :
    Grown g (afterAll T r hs g') (k + hs.length) := by
  induction hs generalizing g' k with
  | nil => exact h
  | cons x hs ih =>
    have weak : Grown g g' (k + 1) := ⟨h.keeps, h.wf, by have := h.counter; omega⟩
    have hlen : (x :: hs).length = hs.length + 1 := rfl
    rw [hlen] at hlt ⊢
    rw [show k + (hs.length + 1) = (k + 1) + hs.length by omega]
    cases x with
    | refused => exact ih _ _ weak (by omega)
    | noServers status text done =>
      cases done with
      | false => exact ih _ _ weak (by omega)
      | true =>
        have := h.counter
        exact ih _ _ (step g' k h (by omega)) (by omega)

/-! ### Errors of reading a reply -/

theorem recognized_final {α} (o : Option α) {e : TahoeErr} (h : recognized o = .error e) : common_tahoe_error e = false := by
  cases o with
  | none => cases h; rfl
  | some a => cases h

theorem entry_ro_final (parse : String → Option Cap) (j : Json) {e : TahoeErr} (h : entry_ro parse j = .error e) :
    common_tahoe_error e = false := by
  unfold entry_ro at h
  split at h
  · exact recognized_final _ h
  · cases h; rfl
  · cases h; rfl

theorem read_entry_final (T : ApiText) (j : Json) {e : TahoeErr} (h : read_entry T j = .error e) :
    common_tahoe_error e = false := by
  have hro : ∀ (parse : String → Option Cap) (k : Json) (f : Cap → DirEntry),
      (match entry_ro parse k with | .ok cap => .ok (f cap) | .error e => .error e : Except TahoeErr DirEntry) = .error e →
      common_tahoe_error e = false := by
    intro parse k f hk
    cases hr : entry_ro parse k with
    | ok cap => rw [hr] at hk; cases hk
    | error e2 => rw [hr] at hk; cases hk; exact entry_ro_final parse k hr
  unfold read_entry at h
  split at h
  · split at h
    · split at h
      · exact hro _ _ (DirEntry.file _) h
      · cases h; rfl
      · cases h; rfl
    · exact hro _ _ DirEntry.directory h
  · exact hro _ _ DirEntry.directory h
  · cases h; rfl
  · cases h; rfl

theorem read_entries_final (T : ApiText) (items : List (String × Json)) {e : TahoeErr} (h : read_entries T items = .error e) :
    common_tahoe_error e = false := by
  induction items with
  | nil => cases h
  | cons kv rest ih =>
    rw [read_entries] at h
    cases hr : read_entry T kv.2 with
    | error e2 => rw [hr] at h; cases h; exact read_entry_final T _ hr
    | ok a =>
      rw [hr] at h
      dsimp only at h
      cases hs : read_entries T rest with
      | error e2 => rw [hs] at h; cases h; exact ih hs
      | ok b => rw [hs] at h; cases h

theorem read_listing_final (T : ApiText) (content : String) {e : TahoeErr} (h : read_listing T content = .error e) :
    common_tahoe_error e = false := by
  unfold read_listing at h
  split at h
  · cases h; rfl
  · split at h
    · exact read_entries_final T _ h
    · cases h; rfl
  · cases h; rfl
  · cases h; rfl

end ZKAP
