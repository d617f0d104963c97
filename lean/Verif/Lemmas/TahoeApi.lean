import Verif.Spec.TahoeApi
import Verif.Lemmas.Misc
import Verif.Lemmas.Cbor

namespace ZKAP
open Spec

/-! ### Text -/

theorem py_decode_encode (s : String) : py_decode (utf8_encode s) = some s := by
  unfold py_decode utf8_encode points_of
  rw [utf8_points_decode]
  simp only [Option.map_some, of_points, points_back, String.ofList_toList]

theorem isInfix_iff (text body : List Char) : isInfix text body = true ↔ ∃ a b, body = a ++ text ++ b := by
  induction body with
  | nil =>
    simp only [isInfix, List.isEmpty_iff]
    constructor
    · rintro rfl; exact ⟨[], [], rfl⟩
    · rintro ⟨a, b, h⟩
      have h2 := congrArg List.length h
      simp only [List.length_nil, List.length_append] at h2
      exact List.length_eq_zero_iff.mp (by omega)
  | cons c cs ih =>
    simp only [isInfix, Bool.or_eq_true, ih, List.isPrefixOf_iff_prefix]
    constructor
    · rintro (⟨t, h⟩ | ⟨a, b, h⟩)
      · exact ⟨[], t, by simpa using h.symm⟩
      · exact ⟨c :: a, b, by simp [h]⟩
    · rintro ⟨a, b, h⟩
      cases a with
      | nil => exact .inl ⟨b, by simpa using h.symm⟩
      | cons x a =>
        simp only [List.cons_append, List.cons.injEq] at h
        exact .inr ⟨a, b, by simpa using h.2⟩

theorem infix_mentions (s text : String) : isInfix text.toList s.toList = true ↔ Mentions s text :=
  isInfix_iff _ _

theorem in_pieces_iff (text : String) (pieces : List String) :
    in_pieces text pieces = true ↔ ∃ p ∈ pieces, Mentions p text := by
  simp only [in_pieces, List.any_eq_true, infix_mentions]

/-- Which errors are retried. -/
theorem common_iff (e : TahoeErr) : common_tahoe_error e = true ↔
    e = .connectionRefused ∨ ∃ m p q status body, e = .api m p q status body ∧
      ∃ piece ∈ api_error_str m p q status body, SaysNoServers piece := by
  unfold common_tahoe_error
  simp only [List.any_cons, List.any_nil, Bool.or_false, Bool.or_eq_true]
  cases e with
  | api m p q status body =>
    simp only [not_enough_servers, connection_refused, Bool.or_eq_true, Bool.false_eq_true, or_false,
      in_pieces_iff, reduceCtorEq, false_or, TahoeErr.api.injEq]
    constructor
    · rintro (⟨x, hx, hm⟩ | ⟨x, hx, hm⟩)
      · exact ⟨m, p, q, status, body, ⟨rfl, rfl, rfl, rfl, rfl⟩, x, hx, .inl hm⟩
      · exact ⟨m, p, q, status, body, ⟨rfl, rfl, rfl, rfl, rfl⟩, x, hx, .inr hm⟩
    · rintro ⟨_, _, _, _, _, ⟨rfl, rfl, rfl, rfl, rfl⟩, x, hx, hm | hm⟩
      · exact .inl ⟨x, hx, hm⟩
      · exact .inr ⟨x, hx, hm⟩
  | _ => simp [not_enough_servers, connection_refused]

theorem not_mentions_short {s text : String} (h : s.toList.length < text.toList.length) : ¬ Mentions s text := by
  rintro ⟨a, b, e⟩
  have := congrArg List.length e
  simp only [List.length_append] at this
  omega

/-- Text without a certain letter. -/
theorem not_mentions_char {s text : String} (c : Char) (h1 : c ∈ text.toList) (h2 : c ∉ s.toList) : ¬ Mentions s text := by
  rintro ⟨a, b, e⟩
  apply h2
  rw [e]
  simp [h1]

theorem plain_char {s : String} (h : 'N' ∉ s.toList) : ¬ SaysNoServers s := by
  rintro (h1 | h1)
  · exact not_mentions_char 'N' (by decide +kernel) h h1
  · exact not_mentions_char 'N' (by decide +kernel) h h1

theorem digits_no_N (n : Nat) : 'N' ∉ (toString n).toList := by
  intro h
  have h1 : 'N' ∈ Nat.toDigits 10 n := by
    have h2 : (toString n) = n.repr := rfl
    rw [h2, Nat.repr] at h
    simpa using h
  have := Nat.isDigit_of_mem_toDigits (b := 10) (by decide) (by decide) h1
  revert this
  decide

/-! ### URLs -/

theorem root_uri {root : List String} (h : PlainRoot root) : url_child root "uri" = ["uri"] := by
  rcases h with rfl | rfl <;> decide

theorem entry_path_eq {root : List String} (h : PlainRoot root) {cap : String} (hc : cap ≠ "") (name : String) :
    entry_path root cap name = ["uri", cap, name] := by
  unfold entry_path
  rw [root_uri h]
  have h2 : url_child ["uri"] cap = ["uri", cap] := by
    unfold url_child
    rw [if_neg (by decide)]
    rfl
  rw [h2]
  unfold url_child
  rw [if_neg (by simpa using hc)]
  rfl

theorem list_path_eq {root : List String} (h : PlainRoot root) {cap : String} (hc : cap ≠ "") :
    list_path root cap = ["uri", cap, ""] := entry_path_eq h hc ""

/-! ### Calls -/

/-- How every call treats a refused connection and a reply that is neither a success nor one of the two replies with
a meaning. -/
structure Standard {α} (c : ApiCall α) : Prop where
  refused : c.read .refused = .error .connectionRefused
  other : ∀ status text, status ≠ 200 → status ≠ 201 → ¬ Mentions text "allmydata.mutable.common.NotWriteableError" →
    ¬ Mentions text "Files have no children named" → c.read (html status text) = api_error c.request status text

theorem read_html {α} (status : Nat) (text : String) (f : Nat → String → Except TahoeErr α) :
    read_reply (html status text) f = f status text := by
  unfold read_reply html
  dsimp only
  rw [py_decode_encode]

theorem upload_standard (T : ApiText) (root : List String) (data : Bytes) : Standard (upload_call T root data) := by
  refine ⟨rfl, fun status text h1 h2 _ _ => ?_⟩
  unfold upload_call
  dsimp only
  rw [read_html, if_neg (by omega)]

theorem mkdir_standard (T : ApiText) (root : List String) : Standard (mkdir_call T root) := by
  refine ⟨rfl, fun status text h1 h2 _ _ => ?_⟩
  unfold mkdir_call
  dsimp only
  rw [read_html, if_neg (by omega)]

theorem list_standard (T : ApiText) (root : List String) (dir : Cap) : Standard (list_call T root dir) := by
  refine ⟨rfl, fun status text h1 h2 _ _ => ?_⟩
  unfold list_call
  dsimp only
  rw [read_html, if_neg (by omega)]

theorem not_writeable_false {text : String} (h : ¬ Mentions text "allmydata.mutable.common.NotWriteableError") :
    says_not_writeable text = false := by
  rw [← Bool.not_eq_true]
  intro h2
  exact h ((infix_mentions _ _).mp h2)

theorem no_children_false {text : String} (h : ¬ Mentions text "Files have no children named") :
    says_no_children text = false := by
  rw [← Bool.not_eq_true]
  intro h2
  exact h ((infix_mentions _ _).mp h2)

theorem link_standard (T : ApiText) (root : List String) (dir : Cap) (name : String) (cap : Cap) :
    Standard (link_call T root dir name cap) := by
  refine ⟨rfl, fun status text h1 h2 h3 h4 => ?_⟩
  unfold link_call
  dsimp only
  rw [read_html, if_neg h1, if_neg (by rw [not_writeable_false h3]; simp)]

theorem unlink_standard (T : ApiText) (root : List String) (dir : Cap) (name : String) :
    Standard (unlink_call T root dir name) := by
  refine ⟨rfl, fun status text h1 h2 h3 h4 => ?_⟩
  unfold unlink_call
  dsimp only
  rw [read_html, if_neg h1, if_neg (by rw [not_writeable_false h3]; simp),
    if_neg (by rw [no_children_false h4]; simp)]

/-! ### Hindrances -/

theorem body_retried {m p q status body} (h : SaysNoServers body) :
    common_tahoe_error (.api m p q status body) = true := by
  rw [common_iff]
  exact .inr ⟨_, _, _, _, _, rfl, body, by simp [api_error_str], h⟩

/-- The grid after the hindrances. -/
def afterAll (T : ApiText) (r : ApiRequest) : List Hindrance → MemoryGrid → MemoryGrid
  | [], g => g
  | .refused :: hs, g => afterAll T r hs g
  | .noServers _ _ done :: hs, g => afterAll T r hs (if done then (gateway T g r).2 else g)

/-- Temporary hindrances are waited out. -/
theorem call_hindered {α} (T : ApiText) (c : ApiCall α) (hc : Standard c) (hs : List Hindrance)
    (hh : ∀ h ∈ hs, Temporary h) (g : MemoryGrid) (k : Nat) :
    call_api (hindered T) c (hs.length + k) (g, hs) =
      call_api (hindered T) c k (afterAll T c.request hs g, []) := by
  induction hs generalizing g with
  | nil => simp [afterAll]
  | cons h hs ih =>
    have hh2 : ∀ h ∈ hs, Temporary h := fun x hx => hh x (List.mem_cons_of_mem _ hx)
    rw [show (h :: hs).length + k = (hs.length + k) + 1 by simp only [List.length_cons]; omega]
    cases h with
    | refused =>
      rw [call_api]
      dsimp only [hindered]
      rw [hc.refused]
      dsimp only
      rw [if_pos (by decide), ih hh2]
      rfl
    | noServers status text done =>
      have ht : NoServersAnswer status text := hh _ (List.mem_cons_self ..)
      obtain ⟨h1, h2, h3, h4, h5⟩ := ht
      rw [call_api]
      dsimp only [hindered]
      rw [hc.other status text h1 h2 h4 h5]
      dsimp only [api_error]
      rw [if_pos (body_retried h3), ih hh2]
      rfl

theorem after_harmless (T : ApiText) (r : ApiRequest) (hs : List Hindrance) (hh : ∀ h ∈ hs, Harmless h)
    (g : MemoryGrid) : afterAll T r hs g = g := by
  induction hs with
  | nil => rfl
  | cons h hs ih =>
    have ih := ih (fun x hx => hh x (List.mem_cons_of_mem _ hx))
    cases h with
    | refused => exact ih
    | noServers status text done =>
      have := (hh _ (List.mem_cons_self ..) : NoServersAnswer status text ∧ done = false).2
      subst this
      exact ih

theorem harmless_temporary {h : Hindrance} (hh : Harmless h) : Temporary h := by
  cases h with
  | refused => trivial
  | noServers => exact hh.1

/-- The last attempt. -/
theorem call_last {α} (T : ApiText) (c : ApiCall α) (g g' : MemoryGrid) (k : Nat) (reply : ApiReply)
    (hg : gateway T g c.request = (reply, g'))
    (hr : ∀ e, c.read reply = .error e → common_tahoe_error e = false) :
    call_api (hindered T) c (k + 1) (g, []) = some (c.read reply, g', []) := by
  rw [call_api]
  simp only [hindered, hg]
  cases hx : c.read reply with
  | ok a => rfl
  | error e =>
    dsimp only
    rw [hr e hx]
    rfl

/-- All attempts, with harmless hindrances. -/
theorem call_same {α} (T : ApiText) (c : ApiCall α) (hc : Standard c) (hs : List Hindrance)
    (hh : ∀ h ∈ hs, Harmless h) (g g' : MemoryGrid) (fuel : Nat) (hf : hs.length < fuel) (reply : ApiReply)
    (hg : gateway T g c.request = (reply, g'))
    (hr : ∀ e, c.read reply = .error e → common_tahoe_error e = false) :
    call_api (hindered T) c fuel (g, hs) = some (c.read reply, g', []) := by
  obtain ⟨k, rfl⟩ : ∃ k, fuel = hs.length + (k + 1) := ⟨fuel - hs.length - 1, by omega⟩
  rw [call_hindered T c hc hs (fun h hm => harmless_temporary (hh h hm)), after_harmless T c.request hs hh]
  exact call_last T c g g' k reply hg hr

/-! ### What the node answers -/

theorem gateway_upload (T : ApiText) {root : List String} (hr : PlainRoot root) (g : MemoryGrid) (data : Bytes) :
    gateway T g (upload_call T root data).request =
      match g.upload data with
      | (.ok cap, g') => (html 201 (T.show_cap cap), g')
      | (.error _, g') => (html 500 "cannot upload", g') := by
  unfold gateway upload_call
  dsimp only
  rw [root_uri hr, if_neg (by decide)]
  rfl

theorem gateway_mkdir (T : ApiText) {root : List String} (hr : PlainRoot root) (g : MemoryGrid) :
    gateway T g (mkdir_call T root).request =
      match g.make_directory with
      | (.ok cap, g') => (html 200 (T.show_cap cap), g')
      | (.error _, g') => (html 500 "cannot make directory", g') := by
  unfold gateway mkdir_call
  dsimp only
  rw [root_uri hr, if_neg (by decide)]
  rfl

theorem gateway_link (T : ApiText) (hT : TextLaws T) {root : List String} (hr : PlainRoot root) (g : MemoryGrid)
    (dir : Cap) (hd : dir.is_directory = true) (name : String) (hn : name ≠ "") (cap : Cap) :
    gateway T g (link_call T root dir name cap).request =
      match g.link dir name cap with
      | (.ok (), g') => (html 200 (T.show_cap cap), g')
      | (.error (.other 10), g') => (html 500 "allmydata.mutable.common.NotWriteableError: read-only", g')
      | (.error _, g') => (html 410 "gone", g') := by
  unfold gateway link_call
  dsimp only
  rw [entry_path_eq hr (hT.nonempty dir), if_neg (by simp)]
  dsimp only
  rw [hT.cap]
  cases dir with
  | chk n => cases hd
  | _ =>
    dsimp only
    rw [if_neg (by intro h; exact absurd h.1 (by decide)), if_pos ⟨rfl, rfl, hn⟩, py_decode_encode,
      Option.bind_some, hT.cap]
    dsimp only
    rfl

theorem gateway_unlink (T : ApiText) (hT : TextLaws T) {root : List String} (hr : PlainRoot root) (g : MemoryGrid)
    (dir : Cap) (hd : dir.is_directory = true) (name : String) (hn : name ≠ "") :
    gateway T g (unlink_call T root dir name).request =
      match g.unlink dir name with
      | (.ok (), g') => (html 200 (T.show_cap dir), g')
      | (.error (.other 10), g') => (html 500 "allmydata.mutable.common.NotWriteableError: read-only", g')
      | (.error _, g') => (html 404 "no such child", g') := by
  unfold gateway unlink_call
  dsimp only
  rw [entry_path_eq hr (hT.nonempty dir), if_neg (by simp)]
  dsimp only
  rw [hT.cap]
  cases dir with
  | chk n => cases hd
  | _ =>
    dsimp only
    rw [if_neg (by intro h; exact absurd h.1 (by decide)), if_neg (by intro h; exact absurd h.1 (by decide)),
      if_pos ⟨rfl, rfl, hn⟩]
    rfl

theorem gateway_file (T : ApiText) (hT : TextLaws T) (g : MemoryGrid) (n : Nat) (name : String) (r : ApiRequest)
    (hr : r.path = ["uri", T.show_cap (.chk n), name]) :
    gateway T g r = (html 400 ("Files have no children named " ++ name), g) := by
  unfold gateway
  rw [hr, if_neg (by simp)]
  dsimp only
  rw [hT.cap]

theorem gateway_list (T : ApiText) (hT : TextLaws T) {root : List String} (hr : PlainRoot root) (g : MemoryGrid)
    (dir : Cap) (hd : dir.is_directory = true) :
    gateway T g (list_call T root dir).request =
      match g.list_directory dir with
      | .ok entries => (html 200 (T.dumps (listing_json T entries)), g)
      | .error _ => (html 410 "gone", g) := by
  unfold gateway list_call
  dsimp only
  rw [list_path_eq hr (hT.nonempty dir), if_neg (by simp)]
  dsimp only
  rw [hT.cap]
  cases dir with
  | chk n => cases hd
  | _ =>
    dsimp only
    rw [if_pos ⟨rfl, rfl, rfl⟩]
    rfl

/-! ### Listings -/

/-- An entry as `list_directory` of the in-memory grid describes it. -/
def DirEntry.IsProper : DirEntry → Prop
  | .file _ ro => ∃ n, ro = .chk n
  | .directory ro => ∃ n, ro = .dirRead n

theorem describe_proper {g : MemoryGrid} {cap : Cap} {e : DirEntry} (h : g.describe cap = .ok e) : e.IsProper := by
  unfold MemoryGrid.describe at h
  cases cap with
  | chk n =>
    dsimp only at h
    split at h
    · cases h; exact ⟨n, rfl⟩
    · cases h
  | dirWrite n =>
    dsimp only at h
    split at h
    · cases h; exact ⟨n, rfl⟩
    · cases h
  | dirRead n =>
    dsimp only at h
    split at h
    · cases h; exact ⟨n, rfl⟩
    · cases h

theorem describe_all_proper {g : MemoryGrid} {children : Dict String Cap} {es : Dict String DirEntry}
    (h : g.describe_all children = .ok es) : ∀ kv ∈ es, kv.2.IsProper := by
  induction children generalizing es with
  | nil => cases h; simp
  | cons kc rest ih =>
    obtain ⟨name, cap⟩ := kc
    rw [MemoryGrid.describe_all] at h
    cases hd : g.describe cap with
    | error e => rw [hd] at h; cases h
    | ok e =>
      rw [hd] at h
      dsimp only at h
      cases hr : g.describe_all rest with
      | error e => rw [hr] at h; cases h
      | ok es2 =>
        rw [hr] at h
        cases h
        intro kv hkv
        rcases List.mem_cons.mp hkv with rfl | h2
        · exact describe_proper hd
        · exact ih hr kv h2

theorem list_proper {g : MemoryGrid} {dir : Cap} {es : Dict String DirEntry} (h : g.list_directory dir = .ok es) :
    ∀ kv ∈ es, kv.2.IsProper := by
  unfold MemoryGrid.list_directory at h
  cases dir with
  | chk n =>
    dsimp only at h
    split at h <;> cases h
  | _ =>
    dsimp only at h
    split at h
    · cases h
    · exact describe_all_proper h

theorem read_entry_json (T : ApiText) (hT : TextLaws T) (e : DirEntry) (he : e.IsProper) :
    read_entry T (entry_json T e) = .ok e := by
  cases e with
  | file size ro =>
    obtain ⟨n, rfl⟩ := he
    unfold entry_json read_entry
    dsimp only
    rw [if_pos rfl]
    have h1 : (Json.obj [("mutable", .bool false), ("size", .int size), ("ro_uri", .str (T.show_cap (.chk n)))]).get
        "size" = .ok (.int size) := by simp [Json.get, List.lookup]
    have h2 : (Json.obj [("mutable", .bool false), ("size", .int size), ("ro_uri", .str (T.show_cap (.chk n)))]).get
        "ro_uri" = .ok (.str (T.show_cap (.chk n))) := by simp [Json.get, List.lookup]
    rw [h1]
    unfold entry_ro
    rw [h2]
    dsimp only
    unfold ApiText.readable
    rw [hT.cap]
    rfl
  | directory ro =>
    obtain ⟨n, rfl⟩ := he
    unfold entry_json read_entry
    dsimp only
    rw [if_neg (by decide)]
    have h2 : (Json.obj [("mutable", .bool true), ("ro_uri", .str (T.show_cap (.dirRead n)))]).get
        "ro_uri" = .ok (.str (T.show_cap (.dirRead n))) := by simp [Json.get, List.lookup]
    unfold entry_ro
    rw [h2]
    dsimp only
    unfold ApiText.readonly_directory
    rw [hT.cap]
    rfl

theorem read_entries_json (T : ApiText) (hT : TextLaws T) (es : Dict String DirEntry) (he : ∀ kv ∈ es, kv.2.IsProper) :
    read_entries T (es.map fun kv => (kv.1, entry_json T kv.2)) = .ok es := by
  induction es with
  | nil => rfl
  | cons kv rest ih =>
    rw [List.map_cons, read_entries, read_entry_json T hT kv.2 (he kv (List.mem_cons_self ..))]
    dsimp only
    rw [ih fun x hx => he x (List.mem_cons_of_mem _ hx)]

theorem read_listing_json (T : ApiText) (hT : TextLaws T) (es : Dict String DirEntry) (he : ∀ kv ∈ es, kv.2.IsProper) :
    read_listing T (T.dumps (listing_json T es)) = .ok es := by
  unfold read_listing
  rw [hT.json]
  unfold listing_json
  dsimp only
  have h1 : (Json.obj [("mutable", .bool true), ("children", .obj (es.map fun kv => (kv.1, entry_json T kv.2)))]).get
      "children" = .ok (.obj (es.map fun kv => (kv.1, entry_json T kv.2))) := by simp [Json.get, List.lookup]
  rw [h1]
  exact read_entries_json T hT es he

/-! ### Errors that end a call -/

theorem api_final {m : String} {p : List String} {q : List (String × String)} {status : Nat} {body : String}
    (hm : ¬ SaysNoServers m) (hp : ∀ x ∈ p, ¬ SaysNoServers x) (hq : ∀ kv ∈ q, ¬ SaysNoServers kv.1 ∧ ¬ SaysNoServers kv.2)
    (hb : ¬ SaysNoServers body) : common_tahoe_error (.api m p q status body) = false := by
  rw [← Bool.not_eq_true]
  intro h
  rcases (common_iff _).mp h with h | ⟨_, _, _, _, _, h, piece, hmem, hs⟩
  · cases h
  · cases h
    simp only [api_error_str, List.cons_append, List.mem_cons, List.mem_append, List.mem_flatMap, List.not_mem_nil,
      or_false] at hmem
    rcases hmem with rfl | (hmem | ⟨kv, hkv, rfl | rfl⟩) | rfl | rfl
    · exact hm hs
    · exact hp _ hmem hs
    · exact (hq kv hkv).1 hs
    · exact (hq kv hkv).2 hs
    · exact plain_char (digits_no_N _) hs
    · exact hb hs

end ZKAP
