import Verif.Spec.Misc
import Verif.Lemmas.Dict
import Verif.Lemmas.Server

namespace ZKAP
open Spec

theorem split_first_space_spec (h : Bytes) :
    let r := split_first_space h
    32 ∉ r.1 ∧ h = r.1 ++ (match r.2 with
      | none => []
      | some rest => 32 :: rest) := by
  induction h with
  | nil => simp [split_first_space]
  | cons b bs ih =>
    simp only [split_first_space]
    by_cases hb : b = 32
    · rw [if_pos hb]; simp [hb]
    · rw [if_neg hb]
      generalize split_first_space bs = r at ih
      obtain ⟨first, rest⟩ := r
      dsimp only at *
      refine ⟨?_, by rw [List.cons_append, ← ih.2]⟩
      simp only [List.mem_cons, not_or]
      exact ⟨fun e => hb e.symm, ih.1⟩

theorem split_first_space_append (a rest : Bytes) (h : 32 ∉ a) :
    split_first_space (a ++ 32 :: rest) = (a, some rest) := by
  induction a with
  | nil => simp [split_first_space]
  | cons b bs ih =>
    simp only [List.mem_cons, not_or] at h
    simp only [List.cons_append, split_first_space]
    rw [if_neg (fun e => h.1 e.symm), ih h.2]

theorem split_first_space_none (a : Bytes) (h : 32 ∉ a) : split_first_space a = (a, none) := by
  induction a with
  | nil => rfl
  | cons b bs ih =>
    simp only [List.mem_cons, not_or] at h
    simp only [split_first_space]
    rw [if_neg (fun e => h.1 e.symm), ih h.2]

theorem lower_scheme_no_space {s : Bytes} (h : lower s = SCHEME) : 32 ∉ s := by
  intro hm
  have : (32 : UInt8) ∈ lower s := by
    unfold lower
    exact List.mem_map.mpr ⟨32, hm, by decide⟩
  rw [h] at this
  revert this
  decide

theorem natural_sizes_iff (js : List Json) (ns : List Int) :
    natural_sizes js = some ns ↔ AreSizes js ns := by
  unfold AreSizes
  induction js generalizing ns with
  | nil =>
    simp only [natural_sizes, Option.some.injEq, List.map_nil]
    constructor
    · rintro rfl; simp
    · rintro ⟨h, _⟩
      exact (List.map_eq_nil_iff.mp h.symm).symm
  | cons j js ih =>
    simp only [natural_sizes, List.map_cons]
    constructor
    · intro h
      cases hj : j.asInt with
      | none => simp [hj] at h
      | some n =>
        simp only [hj] at h
        by_cases hn : 0 ≤ n
        · rw [if_pos hn] at h
          cases hr : natural_sizes js with
          | none => simp [hr] at h
          | some rs =>
            simp only [hr, Option.some.injEq] at h
            subst h
            have := (ih rs).mp hr
            refine ⟨by simp [this.1], ?_⟩
            intro m hm
            rcases List.mem_cons.mp hm with rfl | hm
            · exact hn
            · exact this.2 m hm
        · rw [if_neg hn] at h; simp at h
    · rintro ⟨h1, h2⟩
      cases ns with
      | nil => simp at h1
      | cons n ns =>
        simp only [List.map_cons, List.cons.injEq] at h1
        rw [h1.1]
        dsimp only
        rw [if_pos (h2 n List.mem_cons_self),
          (ih ns).mpr ⟨h1.2, fun m hm => h2 m (List.mem_cons_of_mem _ hm)⟩]

theorem retry_loop_spec {ε α} (matchers : List (ε → Bool)) (f : Nat → Except ε α) (fuel attempt : Nat)
    (r : Except ε α) (n : Nat) :
    retry_loop matchers f fuel attempt = some (r, n) ↔
      attempt < n ∧ n ≤ attempt + fuel ∧ r = f (n - 1) ∧ Definitive matchers (f (n - 1)) ∧
        ∀ k, attempt ≤ k → k < n - 1 → ¬ Definitive matchers (f k) := by
  induction fuel generalizing attempt with
  | zero => simp only [retry_loop, reduceCtorEq, false_iff]; omega
  | succ fuel ih =>
    simp only [retry_loop]
    cases hf : f attempt with
    | ok a =>
      have hd : Definitive matchers (f attempt) := by rw [hf]; intro e h; simp at h
      simp only [Option.some.injEq, Prod.mk.injEq]
      constructor
      · rintro ⟨rfl, rfl⟩
        exact ⟨by omega, by omega, by simp [hf], by simpa using hd, fun k h1 h2 => by omega⟩
      · rintro ⟨h1, h2, h3, h4, h5⟩
        by_cases hn : n = attempt + 1
        · subst hn
          simp only [Nat.add_sub_cancel] at h3
          exact ⟨by rw [h3, hf], rfl⟩
        · exact absurd hd (h5 attempt (Nat.le_refl _) (by omega))
    | error e =>
      dsimp only
      by_cases hm : matchers.any (fun m => m e) = true
      · have hnd : ¬ Definitive matchers (f attempt) := by
          intro h
          obtain ⟨m, hm1, hm2⟩ := List.any_eq_true.mp hm
          have := h e hf m hm1
          rw [this] at hm2
          simp at hm2
        rw [if_pos hm, ih]
        constructor
        · rintro ⟨h1, h2, h3, h4, h5⟩
          refine ⟨by omega, by omega, h3, h4, ?_⟩
          intro k hk1 hk2
          by_cases hk : k = attempt
          · subst hk; exact hnd
          · exact h5 k (by omega) hk2
        · rintro ⟨h1, h2, h3, h4, h5⟩
          have hn : n ≠ attempt + 1 := by
            intro e'
            subst e'
            exact hnd (by simpa using h4)
          exact ⟨by omega, by omega, h3, h4, fun k hk1 hk2 => h5 k (by omega) hk2⟩
      · have hd : Definitive matchers (f attempt) := by
          intro e' he' m hm'
          rw [hf] at he'
          simp only [Except.error.injEq] at he'
          subst he'
          cases hv : m e with
          | false => rfl
          | true => exact absurd (List.any_eq_true.mpr ⟨m, hm', hv⟩) hm
        rw [if_neg hm]
        simp only [Option.some.injEq, Prod.mk.injEq]
        constructor
        · rintro ⟨rfl, rfl⟩
          exact ⟨by omega, by omega, by simp [hf], by simpa using hd, fun k h1 h2 => by omega⟩
        · rintro ⟨h1, h2, h3, h4, h5⟩
          by_cases hn : n = attempt + 1
          · subst hn
            simp only [Nat.add_sub_cancel] at h3
            exact ⟨by rw [h3, hf], rfl⟩
          · exact absurd hd (h5 attempt (Nat.le_refl _) (by omega))

/-! ### The grid -/

/-- Files and directories have numbers below the counter, each number used once. -/
structure GridWF (g : MemoryGrid) : Prop where
  files : ∀ n ∈ g.files.map (·.1), n < g.counter
  dirs : ∀ n ∈ g.dirs.map (·.1), n < g.counter

theorem keys_set {κ α} [BEq κ] [LawfulBEq κ] (d : Dict κ α) (k : κ) (v : α) (x : κ) :
    x ∈ (d.set k v).map (·.1) ↔ x = k ∨ x ∈ d.map (·.1) := by
  induction d with
  | nil => simp [Dict.set]
  | cons p ps ih =>
    obtain ⟨a, b⟩ := p
    simp only [Dict.set]
    by_cases h : a == k
    · have := eq_of_beq h
      subst this
      simp
    · simp only [h, Bool.false_eq_true, if_false]
      rw [List.map_cons, List.mem_cons, ih, List.map_cons, List.mem_cons]
      constructor
      · rintro (h | h | h)
        · exact .inr (.inl h)
        · exact .inl h
        · exact .inr (.inr h)
      · rintro (h | h | h)
        · exact .inr (.inl h)
        · exact .inl h
        · exact .inr (.inr h)

theorem lookup_key {κ α} [BEq κ] [LawfulBEq κ] {d : List (κ × α)} {k : κ} {v : α}
    (h : d.lookup k = some v) : k ∈ d.map (·.1) := by
  induction d with
  | nil => simp at h
  | cons p ps ih =>
    obtain ⟨a, b⟩ := p
    rw [List.lookup_cons] at h
    split at h
    · rename_i hk
      rw [eq_of_beq hk]
      exact List.mem_cons_self
    · exact List.mem_cons_of_mem _ (ih h)

theorem grid_wf_step {g : MemoryGrid} (h : GridWF g) (op : GridOp) : GridWF (g.step op) := by
  cases op with
  | upload data =>
    simp only [MemoryGrid.step, MemoryGrid.upload]
    split
    · refine ⟨?_, ?_⟩
      · intro n hn
        rcases (keys_set _ _ _ _).mp hn with rfl | hn
        · exact Nat.lt_succ_self _
        · exact Nat.lt_succ_of_lt (h.files n hn)
      · intro n hn; exact Nat.lt_succ_of_lt (h.dirs n hn)
    · exact h
  | make_directory =>
    simp only [MemoryGrid.step, MemoryGrid.make_directory]
    split
    · refine ⟨?_, ?_⟩
      · intro n hn; exact Nat.lt_succ_of_lt (h.files n hn)
      · intro n hn
        rcases (keys_set _ _ _ _).mp hn with rfl | hn
        · exact Nat.lt_succ_self _
        · exact Nat.lt_succ_of_lt (h.dirs n hn)
    · exact h
  | link d name c =>
    simp only [MemoryGrid.step, MemoryGrid.link]
    split
    · split
      · exact h
      · rename_i n _ children hl
        refine ⟨h.files, ?_⟩
        intro m hm
        rcases (keys_set _ _ _ _).mp hm with rfl | hm
        · exact h.dirs m (lookup_key hl)
        · exact h.dirs m hm
    · exact h
  | unlink d name =>
    simp only [MemoryGrid.step, MemoryGrid.unlink]
    split
    · split
      · exact h
      · rename_i n _ children hl
        split
        · exact h
        · refine ⟨h.files, ?_⟩
          intro m hm
          rcases (keys_set _ _ _ _).mp hm with rfl | hm
          · exact h.dirs m (lookup_key hl)
          · exact h.dirs m hm
    · exact h

theorem grid_wf_run {g : MemoryGrid} (h : GridWF g) (ops : List GridOp) : GridWF (g.run ops) := by
  induction ops generalizing g with
  | nil => exact h
  | cons op ops ih => exact ih (grid_wf_step h op)

theorem grid_counter_mono (g : MemoryGrid) (op : GridOp) : g.counter ≤ (g.step op).counter := by
  cases op <;> simp only [MemoryGrid.step, MemoryGrid.upload, MemoryGrid.make_directory,
    MemoryGrid.link, MemoryGrid.unlink] <;> (repeat' split) <;> simp

theorem grid_counter_run (g : MemoryGrid) (ops : List GridOp) : g.counter ≤ (g.run ops).counter := by
  induction ops generalizing g with
  | nil => exact Nat.le_refl _
  | cons op ops ih => exact Nat.le_trans (grid_counter_mono g op) (ih (g.step op))

/-- A stored file stays what it is. -/
theorem grid_file_step {g : MemoryGrid} (hwf : GridWF g) {n : Nat} {data : Bytes}
    (h : g.files.lookup n = some data) (op : GridOp) : (g.step op).files.lookup n = some data := by
  cases op with
  | upload d =>
    simp only [MemoryGrid.step, MemoryGrid.upload]
    split
    · dsimp only
      rw [Dict.lookup_set]
      have := hwf.files n (lookup_key h)
      rw [if_neg (by simp; omega)]
      exact h
    · exact h
  | make_directory =>
    simp only [MemoryGrid.step, MemoryGrid.make_directory]; split <;> exact h
  | link d name c =>
    simp only [MemoryGrid.step, MemoryGrid.link]; repeat' split
    all_goals exact h
  | unlink d name =>
    simp only [MemoryGrid.step, MemoryGrid.unlink]; repeat' split
    all_goals exact h

theorem grid_file_run {g : MemoryGrid} (hwf : GridWF g) {n : Nat} {data : Bytes}
    (h : g.files.lookup n = some data) (ops : List GridOp) :
    (g.run ops).files.lookup n = some data := by
  induction ops generalizing g with
  | nil => exact h
  | cons op ops ih => exact ih (grid_wf_step hwf op) (grid_file_step hwf h op)

end ZKAP

namespace ZKAP
open Spec

theorem lookup_filter_ne {κ α} [BEq κ] [LawfulBEq κ] (d : List (κ × α)) (k x : κ) :
    (d.filter (fun kv => kv.1 != k)).lookup x = if x == k then none else d.lookup x := by
  induction d with
  | nil => simp
  | cons p ps ih =>
    obtain ⟨a, b⟩ := p
    by_cases ha : a == k
    · have := eq_of_beq ha
      subst this
      simp only [List.filter_cons, bne_self_eq_false, Bool.false_eq_true, if_false, ih,
        List.lookup_cons]
      by_cases hx : x == a <;> simp [hx]
    · simp only [List.filter_cons, bne, ha, Bool.not_false, if_true, List.lookup_cons]
      by_cases hx : x == a
      · have := eq_of_beq hx
        subst this
        simp [ha]
      · simp only [hx, Bool.false_eq_true]
        simpa only [bne] using ih

theorem describe_all_lookup (g : MemoryGrid) (children : Dict String Cap)
    (entries : Dict String DirEntry) (h : g.describe_all children = .ok entries) (name : String)
    (e : DirEntry) :
    entries.lookup name = some e ↔
      ∃ c, children.lookup name = some c ∧ g.describe c = .ok e := by
  induction children generalizing entries with
  | nil =>
    simp only [MemoryGrid.describe_all, Except.ok.injEq] at h
    subst h
    simp
  | cons p ps ih =>
    obtain ⟨a, b⟩ := p
    simp only [MemoryGrid.describe_all] at h
    cases hd : g.describe b with
    | error e' => simp [hd] at h
    | ok entry =>
      simp only [hd] at h
      cases hr : g.describe_all ps with
      | error e' => simp [hr] at h
      | ok rest =>
        simp only [hr, Except.ok.injEq] at h
        subst h
        simp only [List.lookup_cons]
        by_cases hx : name == a
        · simp only [hx, Option.some.injEq]
          constructor
          · rintro rfl; exact ⟨b, rfl, hd⟩
          · rintro ⟨c, rfl, hc⟩
            rw [hd] at hc
            exact Except.ok.inj hc
        · simp only [hx]
          exact ih rest hr

theorem join_infix (l : List String) (s : String) (h : s ∈ l) : Occurs s (String.join l) := by
  obtain ⟨a, b, rfl⟩ := List.append_of_mem h
  refine ⟨String.join a, String.join b, ?_⟩
  simp [String.join_append, String.join_cons, String.append_assoc]

theorem occurs_trans {a b c : String} (h1 : Occurs a b) (h2 : Occurs b c) : Occurs a c := by
  obtain ⟨p, q, rfl⟩ := h1
  obtain ⟨r, s, rfl⟩ := h2
  exact ⟨r ++ p, q ++ s, by simp only [String.append_assoc]⟩

theorem intercalate_infix (l : List String) (s : String) (h : s ∈ l) :
    Occurs s (String.intercalate "\n" l) := by
  induction l with
  | nil => simp at h
  | cons x xs ih =>
    cases xs with
    | nil =>
      simp only [List.mem_cons, List.not_mem_nil, or_false] at h
      subst h
      exact ⟨"", "", by simp⟩
    | cons y ys =>
      rcases List.mem_cons.mp h with rfl | h
      · exact ⟨"", "\n" ++ String.intercalate "\n" (y :: ys), by simp [String.intercalate_cons_cons, String.append_assoc]⟩
      · refine occurs_trans (ih h) ⟨x ++ "\n", "", by simp [String.intercalate_cons_cons, String.append_assoc]⟩

theorem unquote_quote (cs : List Char) :
    unquote (cs.flatMap (fun c => if c = '%' then ['%', '%'] else [c])) = cs := by
  induction cs with
  | nil => rfl
  | cons c cs ih =>
    simp only [List.flatMap_cons]
    by_cases hc : c = '%'
    · subst hc
      simp only [if_true, List.cons_append, List.nil_append, unquote, ih]
    · simp only [hc, if_false, List.cons_append, List.nil_append]
      rw [unquote]
      · rw [ih]
      · rintro cs' rfl
        exact absurd rfl hc

theorem update_disjoint {κ α} [BEq κ] [LawfulBEq κ] (d e : Dict κ α)
    (hnd : ((d ++ e).map (·.1)).Nodup) : d.update e = d ++ e := by
  unfold Dict.update
  induction e generalizing d with
  | nil => simp
  | cons p ps ih =>
    obtain ⟨a, b⟩ := p
    simp only [List.foldl_cons]
    have hset : Dict.set d a b = d ++ [(a, b)] := by
      have ha : a ∉ d.map (·.1) := by
        rw [List.map_append, List.nodup_append] at hnd
        intro hm
        exact hnd.2.2 a hm a (by simp) rfl
      clear hnd ih
      induction d with
      | nil => rfl
      | cons q qs ih =>
        obtain ⟨x, y⟩ := q
        simp only [List.map_cons, List.mem_cons, not_or] at ha
        simp only [Dict.set]
        rw [if_neg (by simpa using fun e => ha.1 e.symm), ih ha.2]
        rfl
    rw [hset, ih _ (by simpa using hnd)]
    simp

theorem merge_disjoint {κ α} [BEq κ] [LawfulBEq κ] (ds : List (Dict κ α))
    (hnd : (ds.flatten.map (·.1)).Nodup) : merge_dictionaries ds = ds.flatten := by
  have key : ∀ (ds : List (Dict κ α)) (acc : Dict κ α), ((acc ++ ds.flatten).map (·.1)).Nodup →
      ds.foldl (fun result d => result.update d) acc = acc ++ ds.flatten := by
    intro ds
    induction ds with
    | nil => intro acc _; simp
    | cons d ds ih =>
      intro acc h
      simp only [List.foldl_cons, List.flatten_cons] at h ⊢
      have h1 : ((acc ++ d).map (·.1)).Nodup := by
        rw [← List.append_assoc, List.map_append, List.nodup_append] at h
        exact h.1
      rw [update_disjoint acc d h1, ih _ (by simpa using h)]
      simp
  exact key ds [] (by simpa using hnd)

end ZKAP
