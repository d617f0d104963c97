import Verif.Lemmas.Recovery
import Verif.Lemmas.Permuted

/-! Replaying event streams on a restored snapshot. -/
namespace ZKAP
open Spec

/-! ### The order of event streams -/

theorem stream_key_le {s : List (Int × Sql)} {c : Int × Sql} (hc : c ∈ s) : c.1 ≤ stream_key s := by
  cases s with
  | nil => exact nomatch hc
  | cons a as =>
    have key : ∀ (l : List (Int × Sql)) (n : Int), n ≤ l.foldl (fun n c => max n c.1) n ∧
        ∀ c ∈ l, c.1 ≤ l.foldl (fun n c => max n c.1) n := by
      intro l
      induction l with
      | nil => intro n; exact ⟨Int.le_refl _, fun c h => nomatch h⟩
      | cons b bs ih =>
        intro n
        obtain ⟨h1, h2⟩ := ih (max n b.1)
        simp only [List.foldl_cons]
        refine ⟨by omega, fun c hc => ?_⟩
        rcases List.mem_cons.1 hc with rfl | hc
        · omega
        · exact h2 c hc
    obtain ⟨h1, h2⟩ := key as a.1
    rcases List.mem_cons.1 hc with rfl | hc
    · exact h1
    · exact h2 c hc

theorem stream_key_mem {s : List (Int × Sql)} (hs : s ≠ []) : ∃ c ∈ s, c.1 = stream_key s := by
  cases s with
  | nil => exact absurd rfl hs
  | cons a as =>
    have key : ∀ (l : List (Int × Sql)) (n : Int), l.foldl (fun n c => max n c.1) n = n ∨
        ∃ c ∈ l, c.1 = l.foldl (fun n c => max n c.1) n := by
      intro l
      induction l with
      | nil => intro n; exact Or.inl rfl
      | cons b bs ih =>
        intro n
        simp only [List.foldl_cons]
        rcases ih (max n b.1) with h | ⟨c, hc, h⟩
        · rw [h]
          by_cases hn : b.1 ≤ n
          · exact Or.inl (by omega)
          · exact Or.inr ⟨b, List.mem_cons_self, by omega⟩
        · exact Or.inr ⟨c, List.mem_cons_of_mem _ hc, h⟩
    rcases key as a.1 with h | ⟨c, hc, h⟩
    · exact ⟨a, List.mem_cons_self, h.symm⟩
    · exact ⟨c, List.mem_cons_of_mem _ hc, h⟩

theorem insert_by_key_perm (s : List (Int × Sql)) (l : List (List (Int × Sql))) :
    (insert_by_key s l).Perm (s :: l) := by
  induction l with
  | nil => exact List.Perm.refl _
  | cons t ts ih =>
    simp only [insert_by_key]
    split
    · exact List.Perm.refl _
    · exact (ih.cons t).trans (List.Perm.swap s t ts)

theorem insert_by_key_sorted {s : List (Int × Sql)} {l : List (List (Int × Sql))}
    (hl : l.Pairwise fun a b => stream_key a ≤ stream_key b) :
    (insert_by_key s l).Pairwise fun a b => stream_key a ≤ stream_key b := by
  induction l with
  | nil => simp [insert_by_key]
  | cons t ts ih =>
    rw [List.pairwise_cons] at hl
    simp only [insert_by_key]
    split
    · rename_i h
      rw [List.pairwise_cons, List.pairwise_cons]
      refine ⟨fun b hb => ?_, hl⟩
      rcases List.mem_cons.1 hb with rfl | hb
      · omega
      · have := hl.1 b hb; omega
    · rename_i h
      rw [List.pairwise_cons]
      refine ⟨fun b hb => ?_, ih hl.2⟩
      rcases List.mem_cons.1 ((insert_by_key_perm s ts).mem_iff.1 hb) with rfl | hb
      · omega
      · exact hl.1 b hb

theorem sort_event_streams_spec (l : List (List (Int × Sql))) :
    (sort_event_streams l).Pairwise (fun a b => stream_key a ≤ stream_key b) ∧
      (sort_event_streams l).Perm (l.filter fun s => !s.isEmpty) := by
  have key : ∀ (l acc : List (List (Int × Sql))), acc.Pairwise (fun a b => stream_key a ≤ stream_key b) →
      (l.foldl (fun acc s => insert_by_key s acc) acc).Pairwise (fun a b => stream_key a ≤ stream_key b) ∧
      (l.foldl (fun acc s => insert_by_key s acc) acc).Perm (l ++ acc) := by
    intro l
    induction l with
    | nil => intro acc h; exact ⟨h, List.Perm.refl _⟩
    | cons s ss ih =>
      intro acc h
      obtain ⟨h1, h2⟩ := ih (insert_by_key s acc) (insert_by_key_sorted h)
      refine ⟨h1, h2.trans ?_⟩
      exact ((insert_by_key_perm s acc).append_left ss).trans (List.perm_middle)
  have := key (l.filter fun s => !s.isEmpty) [] List.Pairwise.nil
  rw [List.append_nil] at this
  exact this

theorem sorted_streams_unique : ∀ (l m : List (List (Int × Sql))), l.Pairwise (fun a b => stream_key a < stream_key b) →
    m.Pairwise (fun a b => stream_key a ≤ stream_key b) → m.Perm l → m = l := by
  intro l
  induction l with
  | nil => intro m _ _ hp; exact List.Perm.eq_nil hp
  | cons a as ih =>
    intro m hl hm hp
    rw [List.pairwise_cons] at hl
    match m, hm, hp with
    | [], _, hp => exact absurd hp.length_eq (by simp)
    | b :: bs, hm, hp =>
      rw [List.pairwise_cons] at hm
      have hab : b = a := by
        have hb : b ∈ a :: as := hp.mem_iff.mp (by simp)
        have ha : a ∈ b :: bs := hp.mem_iff.mpr (by simp)
        rcases List.mem_cons.mp hb with hb | hb
        · exact hb
        · rcases List.mem_cons.mp ha with ha | ha
          · exact ha.symm
          · have h1 := hl.1 b hb
            have h2 := hm.1 a ha
            omega
      subst hab
      rw [ih bs hl.2 hm.2 (List.Perm.cons_inv hp)]

theorem flatten_nonempty {α : Type} (l : List (List α)) : (l.filter (fun s => !s.isEmpty)).flatten = l.flatten := by
  induction l with
  | nil => rfl
  | cons s ss ih => cases s <;> simp [ih]

/-- Event streams that do not overlap are put in order. -/
theorem sort_event_streams_eq {pieces files : List (List (Int × Sql))} (hp : files.Perm pieces)
    (hi : pieces.flatten.Pairwise fun a b => a.1 < b.1) : (sort_event_streams files).flatten = pieces.flatten := by
  obtain ⟨h1, h2⟩ := sort_event_streams_spec files
  have hs : (pieces.filter fun s => !s.isEmpty).Pairwise fun a b => stream_key a < stream_key b := by
    have hi' : (pieces.filter fun s => !s.isEmpty).flatten.Pairwise fun a b => a.1 < b.1 := by
      rw [flatten_nonempty]; exact hi
    have hne : ∀ s ∈ pieces.filter (fun s => !s.isEmpty), s ≠ [] := by
      intro s hs
      simpa using (List.mem_filter.1 hs).2
    generalize pieces.filter (fun s => !s.isEmpty) = l at hi' hne
    induction l with
    | nil => exact List.Pairwise.nil
    | cons s ss ih =>
      rw [List.flatten_cons, List.pairwise_append] at hi'
      rw [List.pairwise_cons]
      refine ⟨fun t ht => ?_, ih hi'.2.1 (fun s hs => hne s (List.mem_cons_of_mem _ hs))⟩
      obtain ⟨a, ha, ha'⟩ := stream_key_mem (hne s List.mem_cons_self)
      obtain ⟨b, hb, hb'⟩ := stream_key_mem (hne t (List.mem_cons_of_mem _ ht))
      have := hi'.2.2 a ha b (List.mem_flatten.2 ⟨t, ht, hb⟩)
      omega
  rw [sorted_streams_unique _ _ hs h1 (h2.trans (hp.filter _)), flatten_nonempty]

theorem flatMap_event_statements (l : List (List (Int × Sql)))
    (hs : ∀ c ∈ l.flatten, storeStatement c.2 = true) :
    l.flatMap event_statements = l.flatten.map Prod.snd := by
  induction l with
  | nil => rfl
  | cons s ss ih =>
    have h1 : event_statements s = s.map Prod.snd := by
      simp only [event_statements]
      rw [List.filter_eq_self]
      intro x hx
      obtain ⟨c, hc, rfl⟩ := List.mem_map.1 hx
      have := hs c (List.mem_flatten.2 ⟨s, List.mem_cons_self, hc⟩)
      cases hc2 : c.2 <;> rw [hc2] at this <;> first | rfl | exact nomatch this
    rw [List.flatMap_cons, List.flatten_cons, List.map_append, h1,
      ih (fun c hc => hs c (by rw [List.flatten_cons]; exact List.mem_append_right _ hc))]

/-! ### Deferred foreign keys -/

theorem insertRow_deferred {db db' : Database} {n row} (h : db.insertRow false n row = .ok db') :
    db.insertRow true n row = .ok db' := by
  unfold Database.insertRow at h ⊢
  cases ht : db.find n with
  | none => rw [ht] at h; exact nomatch h
  | some t =>
    rw [ht] at h
    simp only at h ⊢
    split at h
    · exact nomatch h
    · rename_i h1
      rw [if_neg h1]
      split at h
      · exact nomatch h
      · rename_i h2
        rw [if_neg h2]
        split at h
        · exact nomatch h
        · rename_i h3
          rw [if_neg h3]
          split at h
          · exact nomatch h
          · rename_i h4
            rw [if_neg h4]
            split at h
            · simpa using h
            · exact nomatch h

/-- A statement that succeeds also succeeds when foreign keys are checked later. -/
theorem sql_exec_deferred {utc} {db db' : Database} {s : Sql} (hs : storeStatement s = true)
    (h : s.exec utc false db = .ok db') : s.exec utc true db = .ok db' := by
  cases s with
  | insert n row => exact insertRow_deferred h
  | insertNamed n named =>
    simp only [Sql.exec] at h ⊢
    split at h
    · exact nomatch h
    · split at h
      · exact nomatch h
      · rename_i hc
        rw [if_neg hc]
        exact insertRow_deferred h
  | insertOrIgnore n named =>
    simp only [Sql.exec] at h ⊢
    split at h
    · exact nomatch h
    · split at h
      · exact nomatch h
      · rename_i hc
        rw [if_neg hc]
        split at h
        · rename_i hk
          rw [if_pos hk]
          exact h
        · rename_i hk
          rw [if_neg hk]
          exact insertRow_deferred h
  | update n sets wheres => exact h
  | delete n wheres =>
    simp only [Sql.exec] at h ⊢
    split at h
    · exact nomatch h
    · split at h
      · exact nomatch h
      · rename_i hc
        rw [if_neg hc]
        split at h
        · simpa using h
        · exact nomatch h
  | _ => exact nomatch hs

theorem execAll_deferred {utc} {ss : List Sql} (hs : ∀ s ∈ ss, storeStatement s = true) :
    ∀ {db db' : Database}, Sql.execAll utc false db ss = .ok db' → Sql.execAll utc true db ss = .ok db' := by
  induction ss with
  | nil => intro db db' h; exact h
  | cons s ss ih =>
    intro db db' h
    simp only [Sql.execAll] at h ⊢
    cases he : s.exec utc false db with
    | error e => rw [he] at h; exact nomatch h
    | ok d =>
      rw [he] at h
      rw [sql_exec_deferred (hs s List.mem_cons_self) he]
      exact ih (fun x hx => hs x (List.mem_cons_of_mem _ hx)) h

theorem load_event_streams_ok (l : List (List (Int × Sql))) : load_event_streams (l.map .ok) = .ok l := by
  induction l with
  | nil => rfl
  | cons s ss ih => simp only [List.map_cons, load_event_streams, ih]

/-- Importing a snapshot and event streams in a transaction. -/
theorem recover_replica (utc) (src d0 target final : Database) (before after : List Table) (b : Bool)
    (pieces files : List (List (Int × Sql)))
    (hw : WellFormed src) (hq : src.sequence.isSome) (hd : Droppable target)
    (hp : (before ++ after).Perm src.tables) (hf : files.Perm pieces)
    (hi : pieces.flatten.Pairwise fun a b => a.1 < b.1)
    (hs : ∀ c ∈ pieces.flatten, storeStatement c.2 = true)
    (hx : Sql.execAll utc false src (pieces.flatten.map Prod.snd) = .ok final) :
    ∃ db', Conn.recover utc ⟨d0, some target, b⟩
        ⟨.ok ((iterdump before src.sequence after).map some), files.map .ok⟩ =
          (⟨d0, some db', true⟩, .ok ()) ∧ Permuted db' final ∧ WellFormed final := by
  obtain ⟨db1, h1, h2, h3⟩ := recover_dump utc src d0 target before after b hw hd hp
  have hperm : Permuted db1 src := ⟨by rw [h2]; exact hp, hw.names, h3 hq⟩
  have hstmts : (sort_event_streams files).flatMap event_statements = pieces.flatten.map Prod.snd := by
    rw [flatMap_event_statements, sort_event_streams_eq hf hi]
    intro c hc
    rw [sort_event_streams_eq hf hi] at hc
    exact hs c hc
  have hs' : ∀ s ∈ pieces.flatten.map Prod.snd, storeStatement s = true := by
    intro s h
    obtain ⟨c, hc, rfl⟩ := List.mem_map.1 h
    exact hs c hc
  have hboth := Permuted.execAll utc true (pieces.flatten.map Prod.snd) hperm
  rw [execAll_deferred hs' hx] at hboth
  obtain ⟨db', res, e1, e2, e3⟩ := executeAll_inside utc (pieces.flatten.map Prod.snd) d0 db1 true
  cases res with
  | error e =>
    rw [e3 e rfl] at hboth
    exact hboth.elim
  | ok u =>
    rw [e2 rfl] at hboth
    refine ⟨db', ?_, hboth, Spec.WellFormed.execAll hs' hw hx⟩
    simp only [Conn.recover, h1, load_event_streams_ok, hstmts, e1]

end ZKAP
