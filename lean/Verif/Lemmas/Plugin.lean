import Verif.Spec.Plugin
import Verif.Lemmas.LeaseMaintenance

namespace ZKAP
open Spec

/-! ### Text -/

theorem split_comma_nonempty (s : List Char) : py_split_comma s ≠ [] := by
  induction s with
  | nil => intro h; exact nomatch h
  | cons c cs ih =>
    unfold py_split_comma
    by_cases hc : c = ','
    · rw [if_pos hc]; intro h; exact nomatch h
    · rw [if_neg hc]
      cases hs : py_split_comma cs with
      | nil => intro h; exact nomatch h
      | cons x xs => intro h; exact nomatch h

/-- The text is its items with commas between them. -/
theorem split_comma_join (s : List Char) :
    ∃ h t, py_split_comma s = h :: t ∧ ',' ∉ h ∧ (∀ i ∈ t, ',' ∉ i) ∧
      s = h ++ t.flatMap (fun i => ',' :: i) := by
  induction s with
  | nil => exact ⟨[], [], rfl, List.not_mem_nil, fun i hi => (nomatch hi), rfl⟩
  | cons c cs ih =>
    obtain ⟨h, t, hs, hh, ht, hj⟩ := ih
    unfold py_split_comma
    by_cases hc : c = ','
    · rw [if_pos hc, hs]
      refine ⟨[], h :: t, rfl, List.not_mem_nil, ?_, ?_⟩
      · intro i hi
        rcases List.mem_cons.mp hi with rfl | hi
        · exact hh
        · exact ht i hi
      · rw [hc, List.flatMap_cons, List.nil_append, List.cons_append, ← hj]
    · rw [if_neg hc, hs]
      refine ⟨c :: h, t, rfl, ?_, ht, ?_⟩
      · intro hm
        rcases List.mem_cons.mp hm with hm | hm
        · exact hc hm.symm
        · exact hh hm
      · rw [List.cons_append, ← hj]

theorem split_comma_item_of {s item : List Char} (h : item ∈ py_split_comma s) : ItemOf item s := by
  obtain ⟨x, t, hs, hx, ht, hj⟩ := split_comma_join s
  rw [hs] at h
  rcases List.mem_cons.mp h with rfl | hm
  · refine ⟨hx, [], t.flatMap (fun i => ',' :: i), by rw [List.nil_append]; exact hj, .inl rfl, ?_⟩
    cases t with
    | nil => exact .inl rfl
    | cons y ys => exact .inr ⟨y ++ ys.flatMap (fun i => ',' :: i), by rw [List.flatMap_cons]; rfl⟩
  · obtain ⟨a, b, rfl⟩ := List.append_of_mem hm
    refine ⟨ht item hm, x ++ a.flatMap (fun i => ',' :: i) ++ [','], b.flatMap (fun i => ',' :: i), ?_, ?_, ?_⟩
    · rw [hj, List.flatMap_append, List.flatMap_cons]
      simp only [List.append_assoc, List.cons_append, List.nil_append]
    · exact .inr ⟨_, rfl⟩
    · cases b with
      | nil => exact .inl rfl
      | cons y ys => exact .inr ⟨y ++ ys.flatMap (fun i => ',' :: i), by rw [List.flatMap_cons]; rfl⟩

theorem split_comma_no (s : List Char) (h : ',' ∉ s) : py_split_comma s = [s] := by
  induction s with
  | nil => rfl
  | cons c cs ih =>
    unfold py_split_comma
    rw [if_neg (by intro hc; exact h (hc ▸ List.mem_cons_self)),
      ih (fun hm => h (List.mem_cons_of_mem _ hm))]

theorem split_comma_cons (c : Char) (cs : List Char) :
    py_split_comma (c :: cs) = if c = ',' then [] :: py_split_comma cs
      else match py_split_comma cs with
        | [] => [[c]]
        | h :: t => (c :: h) :: t := rfl

theorem split_comma_append (a b : List Char) :
    py_split_comma (a ++ ',' :: b) = py_split_comma a ++ py_split_comma b := by
  induction a with
  | nil =>
    rw [List.nil_append]
    show (if ',' = ',' then [] :: py_split_comma b else _) = [[]] ++ _
    rw [if_pos rfl]
    rfl
  | cons c cs ih =>
    rw [List.cons_append, split_comma_cons, split_comma_cons c cs]
    by_cases hc : c = ','
    · rw [if_pos hc, if_pos hc, ih]; rfl
    · rw [if_neg hc, if_neg hc, ih]
      cases hs : py_split_comma cs with
      | nil => exact (split_comma_nonempty cs hs).elim
      | cons x xs => rfl

theorem split_comma_item {s item : List Char} : item ∈ py_split_comma s ↔ ItemOf item s := by
  refine ⟨split_comma_item_of, ?_⟩
  rintro ⟨hn, before, after, rfl, hb, ha⟩
  have mid : ∀ after, (after = [] ∨ ∃ a, after = ',' :: a) → item ∈ py_split_comma (item ++ after) := by
    rintro after (rfl | ⟨a, rfl⟩)
    · rw [List.append_nil, split_comma_no _ hn]; exact List.mem_singleton.mpr rfl
    · rw [split_comma_append, split_comma_no _ hn]; exact List.mem_cons_self
  rcases hb with rfl | ⟨b, rfl⟩
  · rw [List.nil_append]; exact mid after ha
  · rw [List.append_assoc, List.append_assoc, List.singleton_append, split_comma_append]
    exact List.mem_append_right _ (mid after ha)

theorem dropWhile_blank (b s : List Char) (h : Blank b) : (b ++ s).dropWhile py_space = s.dropWhile py_space := by
  induction b with
  | nil => rfl
  | cons c cs ih =>
    rw [List.cons_append, List.dropWhile_cons, if_pos (h c List.mem_cons_self)]
    exact ih (fun x hx => h x (List.mem_cons_of_mem _ hx))

theorem dropWhile_split (s : List Char) : ∃ b, Blank b ∧ s = b ++ s.dropWhile py_space := by
  refine ⟨s.takeWhile py_space, ?_, (List.takeWhile_append_dropWhile).symm⟩
  induction s with
  | nil => intro c hc; exact nomatch hc
  | cons x xs ih =>
    intro c hc
    rw [List.takeWhile_cons] at hc
    split at hc
    · rename_i hx
      rcases List.mem_cons.mp hc with rfl | hc
      · exact hx
      · exact ih c hc
    · exact nomatch hc

theorem strip_split (s : List Char) : ∃ a b, Blank a ∧ Blank b ∧ s = a ++ py_strip s ++ b := by
  unfold py_strip py_lstrip
  obtain ⟨a, ha, h1⟩ := dropWhile_split s
  obtain ⟨b, hb, h2⟩ := dropWhile_split (s.dropWhile py_space).reverse
  refine ⟨a, b.reverse, ha, fun c hc => hb c (List.mem_reverse.mp hc), ?_⟩
  have h3 := congrArg List.reverse h2
  rw [List.reverse_reverse, List.reverse_append] at h3
  rw [List.append_assoc, ← h3, ← h1]

/-- Text with no white space at its ends. -/
def Trim (s : List Char) : Prop := s.dropWhile py_space = s ∧ s.reverse.dropWhile py_space = s.reverse

theorem strip_blank (a s b : List Char) (ha : Blank a) (hb : Blank b) (hs : Trim s) :
    py_strip (a ++ s ++ b) = s := by
  unfold py_strip py_lstrip
  rw [List.append_assoc, dropWhile_blank a _ ha]
  have hbr : Blank b.reverse := fun c hc => hb c (List.mem_reverse.mp hc)
  have key : ((s ++ b).dropWhile py_space).reverse.dropWhile py_space = s.reverse := by
    cases s with
    | nil =>
      rw [List.nil_append]
      have := dropWhile_blank b [] hb
      rw [List.append_nil] at this
      rw [this]; rfl
    | cons c cs =>
      have hc : py_space c = false := by
        have h1 := hs.1
        rw [List.dropWhile_cons] at h1
        cases hcc : py_space c with
        | false => rfl
        | true =>
          rw [hcc, if_pos rfl] at h1
          have := congrArg List.length h1
          have l1 := List.Sublist.length_le (List.dropWhile_sublist py_space (l := cs))
          rw [List.length_cons] at this
          omega
      rw [List.cons_append, List.dropWhile_cons, hc, if_neg (by decide), ← List.cons_append,
        List.reverse_append, dropWhile_blank _ _ hbr, hs.2]
  rw [key, List.reverse_reverse]

theorem name_trim {s : List Char} (h : Name s) : Trim s := by
  have : ∀ l : List Char, (∀ c ∈ l, py_space c = false) → l.dropWhile py_space = l := by
    intro l hl
    cases l with
    | nil => rfl
    | cons c cs => rw [List.dropWhile_cons, hl c List.mem_cons_self, if_neg (by decide)]
  exact ⟨this s (fun c hc => (h.2 c hc).1), this _ (fun c hc => (h.2 c (List.mem_reverse.mp hc)).1)⟩

/-- Comparing the stripped items of a list with a name. -/
theorem stripped_items {s name : List Char} (hn : Name name) :
    name ∈ (py_split_comma s).map py_strip ↔ Lists s name := by
  constructor
  · intro h
    obtain ⟨item, hi, rfl⟩ := List.mem_map.mp h
    obtain ⟨a, b, ha, hb, he⟩ := strip_split item
    exact ⟨a, b, ha, hb, by rw [← he]; exact split_comma_item.mp hi⟩
  · rintro ⟨a, b, ha, hb, hi⟩
    exact List.mem_map.mpr ⟨_, split_comma_item.mpr hi, strip_blank a name b ha hb (name_trim hn)⟩

/-! ### Signing keys -/

theorem bytes_strip_blank (a s b : Bytes) (ha : ∀ c ∈ a, byte_space c = true)
    (hb : ∀ c ∈ b, byte_space c = true) (hs : ∀ c ∈ s, byte_space c = false) :
    bytes_strip (a ++ s ++ b) = s := by
  have drop : ∀ (a s : Bytes), (∀ c ∈ a, byte_space c = true) →
      (a ++ s).dropWhile byte_space = s.dropWhile byte_space := by
    intro a s ha
    induction a with
    | nil => rfl
    | cons c cs ih =>
      rw [List.cons_append, List.dropWhile_cons, if_pos (ha c List.mem_cons_self)]
      exact ih (fun x hx => ha x (List.mem_cons_of_mem _ hx))
  have keep : ∀ l : Bytes, (∀ c ∈ l, byte_space c = false) → l.dropWhile byte_space = l := by
    intro l hl
    cases l with
    | nil => rfl
    | cons c cs => rw [List.dropWhile_cons, hl c List.mem_cons_self, if_neg (by decide)]
  unfold bytes_strip
  rw [List.append_assoc, drop a _ ha]
  cases s with
  | nil =>
    have h1 := drop b [] hb
    rw [List.append_nil] at h1
    rw [List.nil_append, h1]; rfl
  | cons c cs =>
    rw [List.cons_append, List.dropWhile_cons, hs c List.mem_cons_self, if_neg (by decide),
      ← List.cons_append, List.reverse_append, drop _ _ (fun x hx => hb x (List.mem_reverse.mp hx)),
      keep _ (fun x hx => hs x (List.mem_reverse.mp hx)), List.reverse_reverse]

/-! ### Connections -/

/-- The entries of a node. -/
def storesOf (p : Plugin) (dir : String) : List Nat := (p.stores.filter (fun kv => kv.1 == dir)).map Prod.snd
def servicesOf (p : Plugin) (dir : String) : List Nat := (p.services.filter (fun s => s.1 == dir)).map Prod.snd

theorem filter_lookup_none {α} {l : Dict String α} {dir : String} (h : l.lookup dir = none) :
    l.filter (fun kv => kv.1 == dir) = [] := by
  induction l with
  | nil => rfl
  | cons x xs ih =>
    obtain ⟨k, v⟩ := x
    rw [List.lookup_cons] at h
    by_cases hk : dir == k
    · rw [hk] at h; exact nomatch h
    · rw [show (dir == k) = false by simpa using hk] at h
      have hk' : (k == dir) = false := by
        cases hh : k == dir with
        | false => rfl
        | true => rw [eq_of_beq hh] at hk; simp at hk
      rw [List.filter_cons]
      show (if (k == dir) = true then _ else _) = _
      rw [hk', if_neg (by decide)]
      exact ih h

theorem filter_lookup_some {α} {l : Dict String α} {dir : String} {v : α} (h : l.lookup dir = some v) :
    v ∈ (l.filter (fun kv => kv.1 == dir)).map Prod.snd := by
  induction l with
  | nil => exact nomatch h
  | cons x xs ih =>
    obtain ⟨k, w⟩ := x
    rw [List.lookup_cons] at h
    by_cases hk : dir == k
    · rw [hk] at h
      cases h
      refine List.mem_map.mpr ⟨(k, v), List.mem_filter.mpr ⟨List.mem_cons_self, ?_⟩, rfl⟩
      rw [eq_of_beq hk]; exact beq_self_eq_true _
    · rw [show (dir == k) = false by simpa using hk] at h
      obtain ⟨y, hy, rfl⟩ := List.mem_map.mp (ih h)
      exact List.mem_map.mpr ⟨y, by
        rw [List.mem_filter] at hy ⊢
        exact ⟨List.mem_cons_of_mem _ hy.1, hy.2⟩, rfl⟩

theorem filter_append_ne {α} (l : List (String × α)) {d dir : String} (v : α) (h : d ≠ dir) :
    (l ++ [(d, v)]).filter (fun kv => kv.1 == dir) = l.filter (fun kv => kv.1 == dir) := by
  rw [List.filter_append, List.filter_cons]
  rw [if_neg (by simpa using h)]
  rw [List.filter_nil, List.append_nil]

theorem filter_append_eq {α} (l : List (String × α)) {dir : String} (v : α) :
    (l ++ [(dir, v)]).filter (fun kv => kv.1 == dir) = l.filter (fun kv => kv.1 == dir) ++ [(dir, v)] := by
  rw [List.filter_append, List.filter_cons, if_pos (beq_self_eq_true _), List.filter_nil]

/-- How the entries of a node change. -/
theorem plugin_step (p : Plugin) (s : PluginStep) (dir : String) :
    (storesOf (p.step s) dir = storesOf p dir ∧ servicesOf (p.step s) dir = servicesOf p dir ∧
      (dir ∈ (p.step s).replicated ↔ dir ∈ p.replicated)) ∨
    (storesOf p dir = [] ∧ ∃ o a, s = .getStore dir o a ∧ storesOf (p.step s) dir = [p.next] ∧
      (p.step s).replicated = p.replicated ∧
      servicesOf (p.step s) dir = if dir ∈ p.replicated then servicesOf p dir ++ [p.next] else servicesOf p dir) ∨
    (s = .setup dir ∧ dir ∉ p.replicated ∧ dir ∈ (p.step s).replicated ∧
      storesOf (p.step s) dir = storesOf p dir ∧
      ∃ conn, p.stores.lookup dir = some conn ∧ servicesOf (p.step s) dir = servicesOf p dir ++ [conn]) ∨
    (s = .drop dir ∧ storesOf (p.step s) dir = [] ∧ servicesOf (p.step s) dir = servicesOf p dir ∧
      (p.step s).replicated = p.replicated) := by
  cases s with
  | getStore d o a =>
    simp only [Plugin.step, Plugin.get_store]
    cases hl : p.stores.lookup d with
    | some conn => exact .inl ⟨rfl, rfl, Iff.rfl⟩
    | none =>
      cases o with
      | error e => exact .inl ⟨rfl, rfl, Iff.rfl⟩
      | ok u =>
        dsimp only
        by_cases hd : d = dir
        · subst hd
          have he : storesOf p d = [] := by unfold storesOf; rw [filter_lookup_none hl]; rfl
          have hs : ((p.stores ++ [(d, p.next)]).filter (fun kv => kv.1 == d)).map Prod.snd = [p.next] := by
            rw [filter_append_eq, filter_lookup_none hl]; rfl
          by_cases hr : p.replicated.contains d = true
          · rw [if_pos hr]
            have hr' : d ∈ p.replicated := by simpa using hr
            cases a with
            | error e => exact .inl ⟨rfl, rfl, Iff.rfl⟩
            | ok u' =>
              refine .inr (.inl ⟨he, .ok u, .ok u', rfl, hs, rfl, ?_⟩)
              rw [if_pos hr']
              unfold servicesOf
              dsimp only
              rw [filter_append_eq, List.map_append]; rfl
          · rw [if_neg hr]
            have hr' : ¬ d ∈ p.replicated := by simpa using hr
            refine .inr (.inl ⟨he, .ok u, a, rfl, hs, rfl, ?_⟩)
            rw [if_neg hr']; rfl
        · refine .inl ?_
          by_cases hr : p.replicated.contains d = true
          · rw [if_pos hr]
            cases a with
            | error e => exact ⟨rfl, rfl, Iff.rfl⟩
            | ok u' =>
              refine ⟨?_, ?_, Iff.rfl⟩
              · unfold storesOf; dsimp only; rw [filter_append_ne _ _ hd]
              · unfold servicesOf; dsimp only; rw [filter_append_ne _ _ hd]
          · rw [if_neg hr]
            refine ⟨?_, rfl, Iff.rfl⟩
            unfold storesOf; dsimp only; rw [filter_append_ne _ _ hd]
  | setup d =>
    simp only [Plugin.step, Plugin.setup_replication]
    cases hl : p.stores.lookup d with
    | none => exact .inl ⟨rfl, rfl, Iff.rfl⟩
    | some conn =>
      dsimp only
      by_cases hr : p.replicated.contains d = true
      · rw [if_pos hr]; exact .inl ⟨rfl, rfl, Iff.rfl⟩
      · rw [if_neg hr]
        have hr' : ¬ d ∈ p.replicated := by simpa using hr
        by_cases hd : d = dir
        · subst hd
          refine .inr (.inr (.inl ⟨rfl, hr', List.mem_append_right _ (List.mem_singleton.mpr rfl), rfl, conn, hl, ?_⟩))
          unfold servicesOf; dsimp only; rw [filter_append_eq, List.map_append]; rfl
        · refine .inl ⟨rfl, ?_, ?_⟩
          · unfold servicesOf; dsimp only; rw [filter_append_ne _ _ hd]
          · rw [List.mem_append, List.mem_singleton]
            exact ⟨fun h => h.elim id (fun h => (hd h.symm).elim), .inl⟩
  | drop d =>
    unfold Plugin.step Plugin.drop
    by_cases hd : d = dir
    · subst hd
      refine .inr (.inr (.inr ⟨rfl, ?_, rfl, rfl⟩))
      unfold storesOf; dsimp only
      rw [List.filter_filter]
      rw [show (fun a : String × Nat => (a.1 == d && a.1 != d)) = fun _ => false by
        funext a
        cases h : a.1 == d
        · rfl
        · rw [bne, h]; rfl]
      rw [show p.stores.filter (fun _ => false) = [] from List.filter_eq_nil_iff.mpr (fun _ _ h => nomatch h)]; rfl
    · refine .inl ⟨?_, rfl, Iff.rfl⟩
      unfold storesOf; dsimp only
      rw [List.filter_filter]
      congr 1
      apply List.filter_congr
      intro x _
      cases h : x.1 == dir
      · rfl
      · have : x.1 = dir := eq_of_beq h
        rw [Bool.true_and, this]
        exact bne_iff_ne.mpr (fun hh => hd hh.symm)


theorem nospace_trim {s : List Char} (h : ∀ c ∈ s, py_space c = false) : Trim s := by
  have : ∀ l : List Char, (∀ c ∈ l, py_space c = false) → l.dropWhile py_space = l := by
    intro l hl
    cases l with
    | nil => rfl
    | cons c cs => rw [List.dropWhile_cons, hl c List.mem_cons_self, if_neg (by decide)]
  exact ⟨this s h, this _ (fun c hc => h c (List.mem_reverse.mp hc))⟩

theorem blank_no_comma {s : List Char} (h : Blank s) : ',' ∉ s := by
  intro hm
  have := h ',' hm
  exact absurd this (by decide)

/-- An item of the text without the white space at its ends is listed in the text. -/
theorem lists_of_stripped {s item : List Char} (h : ItemOf item (py_strip s)) : Lists s item := by
  obtain ⟨a, b, ha, hb, he⟩ := strip_split s
  obtain ⟨hn, before, after, hs, hbefore, hafter⟩ := h
  rw [hs] at he
  have hna := blank_no_comma ha
  have hnb := blank_no_comma hb
  rcases hbefore with rfl | ⟨b', rfl⟩
  · rcases hafter with rfl | ⟨a', rfl⟩
    · refine ⟨a, b, ha, hb, ?_, [], [], ?_, .inl rfl, .inl rfl⟩
      · simp only [List.mem_append, not_or]; exact ⟨⟨hna, hn⟩, hnb⟩
      · rw [he]; simp only [List.nil_append, List.append_nil]
    · refine ⟨a, [], ha, fun _ h => (nomatch h), ?_, [], ',' :: (a' ++ b), ?_, .inl rfl, .inr ⟨_, rfl⟩⟩
      · simp only [List.mem_append, not_or]; exact ⟨⟨hna, hn⟩, List.not_mem_nil⟩
      · rw [he]; simp only [List.nil_append, List.append_nil, List.append_assoc, List.cons_append]
  · rcases hafter with rfl | ⟨a', rfl⟩
    · refine ⟨[], b, fun _ h => (nomatch h), hb, ?_, a ++ (b' ++ [',']), [], ?_,
        .inr ⟨a ++ b', by rw [List.append_assoc]⟩, .inl rfl⟩
      · simp only [List.mem_append, not_or]; exact ⟨⟨List.not_mem_nil, hn⟩, hnb⟩
      · rw [he]; simp only [List.nil_append, List.append_nil, List.append_assoc]
    · refine ⟨[], [], fun _ h => (nomatch h), fun _ h => (nomatch h), ?_, a ++ (b' ++ [',']), ',' :: (a' ++ b), ?_,
        .inr ⟨a ++ b', by rw [List.append_assoc]⟩, .inr ⟨_, rfl⟩⟩
      · simp only [List.mem_append, not_or]; exact ⟨⟨List.not_mem_nil, hn⟩, List.not_mem_nil⟩
      · rw [he]; simp only [List.nil_append, List.append_nil, List.append_assoc, List.cons_append]

end ZKAP
