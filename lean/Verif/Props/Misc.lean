import Verif.Lemmas.Misc

/-! The HTTP API, the Tahoe-LAFS client and the configuration text. -/
namespace ZKAP
open Spec

/-! ### C65: only holders of the token reach the API -/

/-- A request is let through if and only if its header is the scheme name, in any case, then one
space, then exactly the token (or, for an empty token, the scheme name alone). -/
theorem C65_token_required (token : Bytes) (header : Option Bytes) :
    private_tree token header = .granted ↔
      ∃ scheme, lower scheme = ascii "tahoe-lafs" ∧
        (header = some (scheme ++ [32] ++ token) ∨ (token = [] ∧ header = some scheme)) := by
  have hs : ascii "tahoe-lafs" = SCHEME := by decide
  rw [hs]
  constructor
  · intro h
    match header, h with
    | some (b :: bs), h =>
      have hsp := split_first_space_spec (b :: bs)
      simp only [private_tree] at h
      generalize split_first_space (b :: bs) = r at h hsp
      obtain ⟨first, rest⟩ := r
      dsimp only at h hsp
      by_cases hl : lower first = SCHEME
      · rw [if_pos hl] at h
        simp only [request_avatar_id, token_equals] at h
        by_cases ht : token = rest.getD []
        · refine ⟨first, hl, ?_⟩
          cases rest with
          | none => exact .inr ⟨by simpa using ht, by simpa using hsp.2⟩
          | some t =>
            left
            simp only [Option.getD_some] at ht
            rw [hsp.2, ht]
            simp
        · simp [ht] at h
      · rw [if_neg hl] at h; simp at h
  · rintro ⟨scheme, hl, h⟩
    have hns := lower_scheme_no_space hl
    have hne : scheme ≠ [] := by rintro rfl; revert hl; decide
    cases scheme with
    | nil => exact absurd rfl hne
    | cons b bs =>
      rcases h with rfl | ⟨rfl, rfl⟩
      · have e : (b :: bs) ++ [32] ++ token = b :: (bs ++ [32] ++ token) := rfl
        rw [e]
        simp only [private_tree]
        rw [← e, List.append_assoc, List.singleton_append, split_first_space_append _ _ hns]
        simp [hl, request_avatar_id, token_equals]
      · simp only [private_tree]
        rw [split_first_space_none _ hns]
        simp [hl, request_avatar_id, token_equals]

example : private_tree [1, 2] (some (ascii "Tahoe-LAFS " ++ [1, 2])) = .granted := by decide
example : private_tree [1, 2] (some (ascii "tahoe-lafs " ++ [1, 2, 3])) = .unauthorized := by
  decide
example : private_tree [1, 2] none = .unauthorized := rfl

/-! ### C66: the price endpoint rejects malformed requests -/

/-- The full property: only objects with exactly the two keys, the integer version and integer
sizes get a price. -/
def C66_statement : Prop :=
  ∀ (calculate : List Int → Int) (period : Int) (content_type : Option String)
    (body : Option Json) (answer : Int × Int),
    calculate_price calculate period content_type body = .price answer.1 answer.2 →
      ∃ sizes : List Nat,
        (body = some (.obj [("version", .int 1), ("sizes", .arr (sizes.map (fun n : Nat => .int n)))]) ∨
          body = some (.obj [("sizes", .arr (sizes.map (fun n : Nat => .int n))), ("version", .int 1)]))

/-- It fails: an extra key is accepted, and so are the booleans Python counts as integers. -/
theorem C66_strictness_fails : ¬ C66_statement := by
  intro h
  have := h (fun _ => 7) 31 (some "application/json")
    (some (.obj [("version", .bool true), ("extra", .null), ("sizes", .arr [.bool true])])) (7, 31)
    (by decide)
  obtain ⟨sizes, h | h⟩ := this <;> simp at h

/-- Exactly which requests get a price, and which price: JSON objects with a version equal to one
and a list of non-negative integers (or booleans) as sizes, whatever else they contain. -/
theorem C66_price_iff_partial (calculate : List Int → Int) (period : Int)
    (content_type : Option String) (body : Option Json) (p q : Int) :
    calculate_price calculate period content_type body = .price p q ↔
      content_type = some "application/json" ∧
        ∃ items version js ns, body = some (.obj items) ∧
          items.lookup "version" = some version ∧ version.isOne = true ∧
          items.lookup "sizes" = some (.arr js) ∧ AreSizes js ns ∧
          p = calculate ns ∧ q = period := by
  unfold calculate_price
  by_cases hc : content_type = some "application/json"
  · simp only [hc, ne_eq, not_true_eq_false, if_false, true_and]
    constructor
    · intro h
      repeat' split at h
      all_goals try (simp at h; done)
      rename_i items _ _ version hv hone _ js hs _ ns heq
      simp only [PriceResponse.price.injEq] at h
      exact ⟨items, version, js, ns, rfl, hv, hone, hs, (natural_sizes_iff _ _).mp heq, h.1.symm,
        h.2.symm⟩
    · rintro ⟨items, version, js, ns, rfl, hv, hone, hs, hn, rfl, rfl⟩
      simp only [hv, hs, hone, if_true]
      rw [(natural_sizes_iff _ _).mpr hn]
  · simp [hc]

/-- Every request that gets no price is answered with 400: there is no third answer. -/
theorem C66_otherwise_bad_request (calculate : List Int → Int) (period : Int)
    (content_type : Option String) (body : Option Json)
    (h : ∀ p q, calculate_price calculate period content_type body ≠ .price p q) :
    calculate_price calculate period content_type body = .badRequest := by
  cases hr : calculate_price calculate period content_type body with
  | badRequest => rfl
  | price p q => exact absurd hr (h p q)

/-- Well-formed requests are priced. -/
theorem C66_well_formed_priced (calculate : List Int → Int) (period : Int) (sizes : List Nat) :
    calculate_price calculate period (some "application/json")
        (some (.obj [("version", .int 1), ("sizes", .arr (sizes.map (fun n : Nat => .int n)))])) =
      .price (calculate (sizes.map Int.ofNat)) period := by
  rw [C66_price_iff_partial]
  refine ⟨rfl, _, .int 1, _, sizes.map Int.ofNat, rfl, rfl, by decide, rfl, ⟨?_, ?_⟩, rfl, rfl⟩
  · simp [Json.asInt]
  · intro n hn
    obtain ⟨m, _, rfl⟩ := List.mem_map.mp hn
    exact Int.natCast_nonneg _

/-- Negative sizes are not. -/
theorem C66_negative_rejected (calculate : List Int → Int) (period : Int)
    (content_type : Option String) (items : List (String × Json)) (js : List Json) (n : Int)
    (hs : items.lookup "sizes" = some (.arr js)) (hn : .int n ∈ js) (hneg : n < 0) :
    calculate_price calculate period content_type (some (.obj items)) = .badRequest := by
  apply C66_otherwise_bad_request
  intro p q h
  obtain ⟨_, items', _, js', ns, hb, _, _, hs', hsz, _⟩ :=
    (C66_price_iff_partial _ _ _ _ _ _).mp h
  simp only [Option.some.injEq, Json.obj.injEq] at hb
  subst hb
  rw [hs] at hs'
  simp only [Option.some.injEq, Json.arr.injEq] at hs'
  subst hs'
  have : some n ∈ ns.map some := by
    rw [← hsz.1]
    exact List.mem_map.mpr ⟨_, hn, rfl⟩
  obtain ⟨m, hm, e⟩ := List.mem_map.mp this
  simp only [Option.some.injEq] at e
  subst e
  have := hsz.2 m hm
  omega

example : calculate_price (fun ns => ns.sum) 31 (some "application/json")
    (some (.obj [("version", .int 1), ("sizes", .arr [.int 3, .int 4])])) = .price 7 31 := by decide
example : calculate_price (fun ns => ns.sum) 31 (some "application/json")
    (some (.obj [("version", .int 1), ("sizes", .arr [.int 3, .int (-4)])])) = .badRequest := by decide
example : calculate_price (fun ns => ns.sum) 31 (some "text/plain") none = .badRequest := by decide

/-! ### C67: capabilities are not leaked in error messages -/

/-- Scrubbing twice is the same as once. -/
theorem C67_scrub_idempotent (digest : String → String) (path : List String) :
    scrub_path digest (scrub_path digest path) = scrub_path digest path := by
  match path with
  | [] | [_] => rfl
  | first :: cap :: rest =>
    simp only [scrub_path]
    by_cases h : first = "uri" ∧ ¬ "URI:SCRUBBED:".toList.isPrefixOf cap.toList
    · rw [if_pos h]
      simp only [scrub_path]
      rw [if_neg]
      rintro ⟨_, hn⟩
      apply hn
      simp [scrub_cap, String.toList_append]
    · rw [if_neg h]
      simp only [scrub_path]
      rw [if_neg h]

/-- The full property: what the error shows depends on the capability through its digest only. -/
def C67_statement : Prop :=
  ∀ (digest : String → String) (api_root : List String), ∃ shown : String → List String,
    ∀ cap, RealCap cap → error_path digest (download_path api_root cap) = shown (digest cap)

/-- It fails if the API root has a path of its own: the capability is then shown in full. -/
theorem C67_api_root_path_fails : ¬ C67_statement := by
  intro h
  obtain ⟨shown, h⟩ := h (fun _ => "") ["tahoe"]
  have h1 := h "URI:A" ⟨by decide, by decide⟩
  have h2 := h "URI:B" ⟨by decide, by decide⟩
  rw [← h2] at h1
  revert h1
  decide

/-- With an API root without path (`http://host:port` or `http://host:port/`), as the plugin reads
it from `node.url`, the error of every request shows the capability's digest only.
Missing: API roots with a path, where it is false. -/
theorem C67_digest_only_partial (digest : String → String) (api_root : List String)
    (hroot : api_root = [] ∨ api_root = [""]) :
    ∃ shown : String → List String, ∃ shownIn : String → String → List String,
      ∀ cap, RealCap cap →
        error_path digest (download_path api_root cap) = shown (digest cap) ∧
        (∀ name, error_path digest (entry_path api_root cap name) = shownIn name (digest cap)) ∧
        error_path digest (list_path api_root cap) = shownIn "" (digest cap) := by
  refine ⟨fun d => ["uri", "URI:SCRUBBED:" ++ d],
    fun name d => ["uri", "URI:SCRUBBED:" ++ d, name], ?_⟩
  rintro cap ⟨hne, hreal⟩
  have h1 : url_child api_root "uri" = ["uri"] := by
    rcases hroot with rfl | rfl <;> decide
  have h2 : url_child ["uri"] cap = ["uri", cap] := by
    unfold url_child
    rw [if_neg (by decide)]
    rfl
  have h3 : ∀ name, url_child ["uri", cap] name = ["uri", cap, name] := by
    intro name
    unfold url_child
    rw [if_neg (by simpa using hne)]
    rfl
  have h4 : ∀ rest, scrub_path digest ("uri" :: cap :: rest) =
      "uri" :: scrub_cap digest cap :: rest := by
    intro rest
    simp only [scrub_path]
    rw [if_pos]
    simp only [hreal, Bool.false_eq_true, not_false_iff, and_self]
  unfold error_path download_path entry_path list_path
  rw [h1, h2]
  refine ⟨h4 _, fun name => ?_, ?_⟩
  · rw [h3]; exact h4 _
  · rw [h3]; exact h4 _

example : error_path (fun _ => "b'abcdef'") (entry_path [""] "URI:DIR2:secret:x" "snapshot") =
    ["uri", "URI:SCRUBBED:b'abcdef'", "snapshot"] := by decide
example : RealCap "URI:DIR2:secret:x" := ⟨by decide, by decide⟩

/-! ### C68: retrying stops at the first definitive outcome -/

/-- The loop ends with outcome `r` after exactly `n` attempts if and only if the `n`-th attempt is
the first whose outcome is a success or a non-retryable error, and `r` is that outcome. -/
theorem C68_first_definitive {ε α} (matchers : List (ε → Bool)) (f : Nat → Except ε α)
    (r : Except ε α) (n : Nat) :
    (∃ fuel, async_retry matchers f fuel = some (r, n)) ↔
      0 < n ∧ r = f (n - 1) ∧ Definitive matchers (f (n - 1)) ∧
        ∀ k, k < n - 1 → ¬ Definitive matchers (f k) := by
  simp only [async_retry, retry_loop_spec]
  constructor
  · rintro ⟨fuel, h1, h2, h3, h4, h5⟩
    exact ⟨h1, h3, h4, fun k hk => h5 k (Nat.zero_le _) hk⟩
  · rintro ⟨h1, h3, h4, h5⟩
    exact ⟨n, h1, by omega, h3, h4, fun k _ hk => h5 k hk⟩

/-- A success is returned, never retried. -/
theorem C68_success_is_definitive {ε α} (matchers : List (ε → Bool)) (a : α) :
    Definitive matchers (.ok a : Except ε α) := by
  intro e h; simp at h

/-- It goes on for ever only if every attempt fails with a retryable error. -/
theorem C68_runs_forever_iff {ε α} (matchers : List (ε → Bool)) (f : Nat → Except ε α) :
    (∀ fuel, async_retry matchers f fuel = none) ↔ ∀ k, ¬ Definitive matchers (f k) := by
  constructor
  · intro h k hd
    -- the least definitive attempt ends it
    have key : ∀ k, Definitive matchers (f k) →
        ∃ m, Definitive matchers (f m) ∧ ∀ j, j < m → ¬ Definitive matchers (f j) := by
      intro k
      induction k using Nat.strongRecOn with
      | _ k ih =>
        intro hd
        by_cases hex : ∃ j, j < k ∧ Definitive matchers (f j)
        · obtain ⟨j, hj, hjd⟩ := hex
          exact ih j hj hjd
        · exact ⟨k, hd, fun j hj hjd => hex ⟨j, hj, hjd⟩⟩
    obtain ⟨m, hm, hmin⟩ := key k hd
    obtain ⟨fuel, hf⟩ := (C68_first_definitive matchers f (f m) (m + 1)).mpr
      ⟨Nat.succ_pos _, rfl, hm, hmin⟩
    rw [h fuel] at hf
    simp at hf
  · intro h fuel
    cases hr : async_retry matchers f fuel with
    | none => rfl
    | some p =>
      obtain ⟨r, n⟩ := p
      exact absurd ((C68_first_definitive matchers f r n).mp ⟨fuel, hr⟩).2.2.1 (h _)

def exAttempts : Nat → Except Nat Nat
  | 0 => .error 3
  | 1 => .error 4
  | 2 => .ok 5
  | _ => .error 6

example : async_retry [(· == 3), (· == 4)] exAttempts 10 = some (.ok 5, 3) := by decide
example : async_retry [(· == 3)] exAttempts 10 = some (.error 4, 2) := by decide

/-! ### C69: configuration sections -/

/-- The full property: every item of every section, not overridden, is in the text. -/
def C69_statement : Prop :=
  ∀ (configs : List (Dict String (Dict String String))) (d : Dict String (Dict String String))
    (name : String) (items : Dict String String) (k v : String),
    d ∈ configs → (name, items) ∈ d → (k, v) ∈ items →
      (∀ d' ∈ configs, ∀ items' v', (name, items') ∈ d' → (k, v') ∈ items' → v' = v) →
      Occurs (k ++ " = " ++ tahoe_config_quote v) (config_string_from_sections configs)

/-- It fails: a later section replaces an earlier one of the same name with all its items. -/
theorem C69_merging_fails : ¬ C69_statement := by
  intro h
  obtain ⟨a, b, hab⟩ := h [[("s", [("x", "1")])], [("s", [("y", "2")])]] [("s", [("x", "1")])] "s"
    [("x", "1")] "x" "1" (by simp) (by simp) (by simp)
    (by
      intro d' hd' items' v' hi hv
      simp only [List.mem_cons, List.not_mem_nil, or_false] at hd'
      rcases hd' with rfl | rfl
      · simp only [List.mem_cons, List.not_mem_nil, or_false, Prod.mk.injEq] at hi
        obtain ⟨_, rfl⟩ := hi
        simpa using hv
      · simp only [List.mem_cons, List.not_mem_nil, or_false, Prod.mk.injEq] at hi
        obtain ⟨_, rfl⟩ := hi
        simp at hv)
  have e : config_string_from_sections [[("s", [("x", "1")])], [("s", [("y", "2")])]] =
      "[s]\ny = 2\n" := by decide
  have hx : 'x' ∈ (config_string_from_sections
      [[("s", [("x", "1")])], [("s", [("y", "2")])]]).toList := by
    rw [hab]
    simp
  rw [e] at hx
  revert hx
  decide

/-- If no section name is used twice, the text has every item.
Missing: section names used in several configurations, where it is false. -/
theorem C69_all_items_partial (configs : List (Dict String (Dict String String)))
    (hnd : (configs.flatten.map (·.1)).Nodup) (d : Dict String (Dict String String))
    (name : String) (items : Dict String String) (k v : String)
    (hd : d ∈ configs) (hi : (name, items) ∈ d) (hkv : (k, v) ∈ items) :
    Occurs (k ++ " = " ++ tahoe_config_quote v) (config_string_from_sections configs) := by
  unfold config_string_from_sections
  rw [merge_disjoint configs hnd]
  have hmem : (name, items) ∈ configs.flatten := List.mem_flatten.mpr ⟨d, hd, hi⟩
  refine occurs_trans ?_ (join_infix _ _ (List.mem_map.mpr ⟨_, hmem, rfl⟩))
  refine occurs_trans (intercalate_infix (items.map config_item) _
    (List.mem_map.mpr ⟨_, hkv, rfl⟩)) ?_
  exact ⟨"[" ++ name ++ "]\n", "\n", by simp [config_section, String.append_assoc]⟩

/-- If a name is used twice, the last section of that name is there in full. -/
theorem C69_last_section_kept (configs : List (Dict String (Dict String String)))
    (last : Dict String (Dict String String)) (name : String) (items : Dict String String)
    (k v : String) (hlast : last.lookup name = some items) (hnd : (last.map (·.1)).Nodup)
    (hkv : (k, v) ∈ items) :
    Occurs (k ++ " = " ++ tahoe_config_quote v)
      (config_string_from_sections (configs ++ [last])) := by
  have hl : (merge_dictionaries (configs ++ [last])).lookup name = some items := by
    unfold merge_dictionaries
    rw [List.foldl_append]
    simp only [List.foldl_cons, List.foldl_nil]
    generalize configs.foldl _ _ = acc
    unfold Dict.update
    have key : ∀ (l acc : Dict String (Dict String String)), (l.map (·.1)).Nodup →
        l.lookup name = some items →
        (l.foldl (fun acc kv => acc.set kv.1 kv.2) acc).lookup name = some items := by
      intro l
      induction l with
      | nil => intro acc _ h; simp at h
      | cons p ps ih =>
        obtain ⟨a, b⟩ := p
        intro acc hnd h
        simp only [List.map_cons, List.nodup_cons] at hnd
        simp only [List.foldl_cons]
        rw [List.lookup_cons] at h
        split at h
        · rename_i hna
          have hna := eq_of_beq hna
          subst hna
          simp only [Option.some.injEq] at h
          subst h
          have rest : ∀ (l acc : Dict String (Dict String String)), name ∉ l.map (·.1) →
              (l.foldl (fun acc kv => acc.set kv.1 kv.2) acc).lookup name = acc.lookup name := by
            intro l
            induction l with
            | nil => intro acc _; rfl
            | cons q qs ih2 =>
              intro acc hn
              simp only [List.map_cons, List.mem_cons, not_or] at hn
              simp only [List.foldl_cons]
              rw [ih2 _ hn.2, Dict.lookup_set, if_neg (by simpa using hn.1)]
          rw [rest ps _ hnd.1, Dict.lookup_set]
          simp
        · exact ih _ hnd.2 h
    exact key last acc hnd hlast
  have hmem : (name, items) ∈ merge_dictionaries (configs ++ [last]) := by
    have : ∀ (d : List (String × Dict String String)), d.lookup name = some items →
        (name, items) ∈ d := by
      intro d
      induction d with
      | nil => intro h; simp at h
      | cons p ps ih =>
        obtain ⟨a, b⟩ := p
        intro h
        rw [List.lookup_cons] at h
        split at h
        · rename_i hna
          have hna := eq_of_beq hna
          simp only [Option.some.injEq] at h
          rw [hna, h]
          exact List.mem_cons_self
        · exact List.mem_cons_of_mem _ (ih h)
    exact this _ hl
  unfold config_string_from_sections
  refine occurs_trans ?_ (join_infix _ _ (List.mem_map.mpr ⟨_, hmem, rfl⟩))
  refine occurs_trans (intercalate_infix (items.map config_item) _
    (List.mem_map.mpr ⟨_, hkv, rfl⟩)) ?_
  exact ⟨"[" ++ name ++ "]\n", "\n", by simp [config_section, String.append_assoc]⟩

/-- Quoted values read back as they were. -/
theorem C69_quoting_reads_back (text : String) :
    unquote (tahoe_config_quote text).toList = text.toList := by
  unfold tahoe_config_quote
  rw [String.toList_ofList]
  exact unquote_quote _

example : config_string_from_sections [[("a", [("x", "50%")])], [("b", [("y", "2"), ("z", "3")])]] =
    "[a]\nx = 50%%\n[b]\ny = 2\nz = 3\n" := by decide

/-! ### C72: the in-memory grid -/

/-- In any history, two uploads get different capabilities. -/
theorem C72_uploads_distinct (before between : List GridOp) (data1 data2 : Bytes) (c1 c2 : Cap) :
    let g1 := MemoryGrid.run {} before
    let g2 := ((g1.upload data1).2).run between
    (g1.upload data1).1 = .ok c1 → (g2.upload data2).1 = .ok c2 → c1 ≠ c2 := by
  intro g1 g2 h1 h2
  have hc : (g1.upload data1).2.counter ≤ g2.counter := grid_counter_run _ _
  have e1 : c1 = .chk g1.counter ∧ (g1.upload data1).2.counter = g1.counter + 1 := by
    unfold MemoryGrid.upload at h1 ⊢
    split at h1
    · rename_i hlt
      simp only [Except.ok.injEq] at h1
      rw [if_pos hlt]
      exact ⟨h1.symm, rfl⟩
    · simp at h1
  have e2 : c2 = .chk g2.counter := by
    unfold MemoryGrid.upload at h2
    split at h2
    · simp only [Except.ok.injEq] at h2
      exact h2.symm
    · simp at h2
  rw [e1.1, e2]
  intro e
  simp only [Cap.chk.injEq] at e
  omega

/-- In any history, what was uploaded can be downloaded ever after. -/
theorem C72_download_returns_upload (before after : List GridOp) (data : Bytes) (cap : Cap) :
    let g := MemoryGrid.run {} before
    (g.upload data).1 = .ok cap → (((g.upload data).2).run after).download cap = .ok data := by
  intro g h
  have hwf : GridWF g := grid_wf_run ⟨by simp, by simp⟩ before
  have hwf' : GridWF (g.upload data).2 := grid_wf_step hwf (.upload data)
  have hl : cap = .chk g.counter ∧ (g.upload data).2.files.lookup g.counter = some data := by
    unfold MemoryGrid.upload at h ⊢
    split at h
    · rename_i hlt
      simp only [Except.ok.injEq] at h
      rw [if_pos hlt]
      refine ⟨h.symm, ?_⟩
      dsimp only
      rw [Dict.lookup_set]
      simp
    · simp at h
  rw [hl.1]
  simp only [MemoryGrid.download]
  rw [grid_file_run hwf' hl.2 after]

/-- A link changes the one entry and nothing else. -/
theorem C72_link_one_entry (g : MemoryGrid) (dir cap : Cap) (name : String)
    (h : (g.link dir name cap).1 = .ok ()) (d : Cap) (x : String) :
    entry (g.link dir name cap).2 d x =
      if SameDirectory d dir ∧ x = name then some cap else entry g d x := by
  cases dir with
  | chk n => simp [MemoryGrid.link] at h
  | dirRead n => simp [MemoryGrid.link] at h
  | dirWrite n =>
    simp only [MemoryGrid.link] at h ⊢
    cases hl : g.dirs.lookup n with
    | none => simp [hl] at h
    | some children =>
      have key : ∀ m, ((g.dirs.set n (children.set name cap)).lookup m).bind
          (fun c => c.lookup x) = if m = n ∧ x = name then some cap else
            (g.dirs.lookup m).bind (fun c => c.lookup x) := by
        intro m
        rw [Dict.lookup_set]
        by_cases hm : m = n
        · subst hm
          simp only [beq_self_eq_true, if_true, Option.bind_some, true_and, hl]
          rw [Dict.lookup_set]
          simp
        · simp [hm]
      cases d with
      | chk m => simp [entry, SameDirectory, Cap.reader]
      | dirWrite m =>
        simp only [entry, key, SameDirectory, Cap.reader, Cap.dirRead.injEq]
      | dirRead m =>
        simp only [entry, key, SameDirectory, Cap.reader, Cap.dirRead.injEq]

/-- An unlink removes the one entry and nothing else. -/
theorem C72_unlink_one_entry (g : MemoryGrid) (dir : Cap) (name : String)
    (h : (g.unlink dir name).1 = .ok ()) (d : Cap) (x : String) :
    entry (g.unlink dir name).2 d x =
      if SameDirectory d dir ∧ x = name then none else entry g d x := by
  cases dir with
  | chk n => simp [MemoryGrid.unlink] at h
  | dirRead n => simp [MemoryGrid.unlink] at h
  | dirWrite n =>
    simp only [MemoryGrid.unlink] at h ⊢
    cases hl : g.dirs.lookup n with
    | none => simp [hl] at h
    | some children =>
      cases hc : children.lookup name with
      | none => simp [hl, hc] at h
      | some old =>
        have key : ∀ m, ((g.dirs.set n (children.filter (fun kv => kv.1 != name))).lookup m).bind
            (fun c => c.lookup x) = if m = n ∧ x = name then none else
              (g.dirs.lookup m).bind (fun c => c.lookup x) := by
          intro m
          rw [Dict.lookup_set]
          by_cases hm : m = n
          · subst hm
            simp only [beq_self_eq_true, if_true, Option.bind_some, true_and, hl]
            rw [lookup_filter_ne]
            simp
          · simp [hm]
        simp only [hc]
        cases d with
        | chk m => simp [entry, SameDirectory, Cap.reader]
        | dirWrite m =>
          simp only [entry, key, SameDirectory, Cap.reader, Cap.dirRead.injEq]
        | dirRead m =>
          simp only [entry, key, SameDirectory, Cap.reader, Cap.dirRead.injEq]

/-- An operation that raises changes nothing. -/
theorem C72_failure_changes_nothing (g : MemoryGrid) (dir cap : Cap) (name : String) :
    ((g.link dir name cap).1 ≠ .ok () → (g.link dir name cap).2 = g) ∧
      ((g.unlink dir name).1 ≠ .ok () → (g.unlink dir name).2 = g) := by
  constructor
  · intro h
    unfold MemoryGrid.link at h ⊢
    repeat' split at h
    all_goals first | exact absurd rfl h | simp [*]
  · intro h
    unfold MemoryGrid.unlink at h ⊢
    repeat' split at h
    all_goals first | exact absurd rfl h | simp [*]

/-- A listing shows exactly the entries, with the size of the file linked. -/
theorem C72_listing_shows_entries (g : MemoryGrid) (dir : Cap) (entries : Dict String DirEntry)
    (h : g.list_directory dir = .ok entries) (name : String) (e : DirEntry) :
    entries.lookup name = some e ↔ ∃ c, entry g dir name = some c ∧ g.describe c = .ok e := by
  cases dir with
  | chk n =>
    simp only [MemoryGrid.list_directory] at h
    split at h <;> simp at h
  | dirWrite n | dirRead n =>
    simp only [MemoryGrid.list_directory] at h
    cases hl : g.dirs.lookup n with
    | none => simp [hl] at h
    | some children =>
      simp only [hl] at h
      simp only [entry, hl, Option.bind_some]
      exact describe_all_lookup g children entries h name e

/-- What a listing says of a file is true: the capability shown downloads data of that size, and it is
the one that was linked. -/
theorem C72_listing_is_true (g : MemoryGrid) (dir : Cap) (entries : Dict String DirEntry)
    (h : g.list_directory dir = .ok entries) (name : String) :
    (∀ size ro, entries.lookup name = some (.file size ro) →
      entry g dir name = some ro ∧ ∃ data, g.download ro = .ok data ∧ data.length = size) ∧
    (∀ ro, entries.lookup name = some (.directory ro) →
      ∃ c, entry g dir name = some c ∧ SameDirectory c ro ∧ ∃ l, g.list_directory ro = l ∧
        l ≠ .error .valueError) := by
  constructor
  · intro size ro he
    obtain ⟨c, hc, hd⟩ := (C72_listing_shows_entries g dir entries h name _).mp he
    cases c with
    | chk n =>
      simp only [MemoryGrid.describe] at hd
      split at hd
      · rename_i data hdata
        simp only [Except.ok.injEq, DirEntry.file.injEq] at hd
        obtain ⟨rfl, rfl⟩ := hd
        exact ⟨hc, data, by simp [MemoryGrid.download, hdata], rfl⟩
      · simp at hd
    | dirWrite n | dirRead n =>
      simp only [MemoryGrid.describe] at hd
      split at hd <;> simp at hd
  · intro ro he
    obtain ⟨c, hc, hd⟩ := (C72_listing_shows_entries g dir entries h name _).mp he
    cases c with
    | chk n =>
      simp only [MemoryGrid.describe] at hd
      split at hd <;> simp at hd
    | dirWrite n | dirRead n =>
      simp only [MemoryGrid.describe] at hd
      split at hd
      · rename_i hl
        simp only [Except.ok.injEq, DirEntry.directory.injEq] at hd
        subst hd
        refine ⟨_, hc, rfl, _, rfl, ?_⟩
        simp only [MemoryGrid.list_directory, hl]
        rename_i children
        clear hl
        induction children with
        | nil => simp [MemoryGrid.describe_all]
        | cons p ps ih =>
          obtain ⟨a, b⟩ := p
          simp only [MemoryGrid.describe_all]
          cases hb : g.describe b with
          | error e =>
            simp only
            intro e'
            simp only [Except.error.injEq] at e'
            subst e'
            unfold MemoryGrid.describe at hb
            repeat' split at hb
            all_goals simp at hb
          | ok x =>
            cases hps : g.describe_all ps with
            | error e => rw [hps] at ih; simpa using ih
            | ok y => simp
      · simp at hd

def exGrid : MemoryGrid :=
  MemoryGrid.run {} [.make_directory, .upload [1, 2], .link (.dirWrite 0) "a" (.chk 1),
    .upload [3], .link (.dirWrite 0) "b" (.chk 2)]

example : exGrid.list_directory (.dirRead 0) =
    .ok [("a", .file 2 (.chk 1)), ("b", .file 1 (.chk 2))] := by decide
example : (exGrid.unlink (.dirWrite 0) "a").1 = .ok () ∧
    (exGrid.unlink (.dirWrite 0) "a").2.list_directory (.dirWrite 0) =
      .ok [("b", .file 1 (.chk 2))] := by decide
example : (exGrid.link (.dirRead 0) "c" (.chk 1)).1 ≠ .ok () := by decide

/-! ### C78: the stack limit -/

/-- The full property: whatever the operation does, the limit is what it was before. -/
def C78_statement : Prop :=
  ∀ (body : StackLimit → Except PyErr Unit × StackLimit) (limit : StackLimit),
    (less_limited_stack true body limit).2 = limit

/-- It fails when the operation raises: the code after the `yield` is skipped. -/
theorem C78_restore_fails : ¬ C78_statement := by
  intro h
  have := h (fun l => (.error .valueError, l)) ⟨8, 64⟩
  revert this
  decide

/-- An operation that returns leaves the limit as it was, and ran with the hard limit.
Missing: operations that raise, where it is false. -/
theorem C78_restored_on_success_partial {α} (body : StackLimit → Except PyErr α × StackLimit)
    (limit : StackLimit) (a : α) (h : (less_limited_stack true body limit).1 = .ok a) :
    (less_limited_stack true body limit).2 = limit ∧
      (body ⟨limit.hard, limit.hard⟩).1 = .ok a := by
  unfold less_limited_stack at h ⊢
  simp only [if_true] at h ⊢
  generalize body ⟨limit.hard, limit.hard⟩ = r at h ⊢
  obtain ⟨r, l⟩ := r
  cases r with
  | ok b => exact ⟨rfl, h⟩
  | error e => simp at h

example : (less_limited_stack true (fun l => (.ok l.soft, l)) ⟨8, 64⟩) = (.ok 64, ⟨8, 64⟩) := by
  decide

end ZKAP
