import Verif.Lemmas.ReplicationInv

/-! Every orderly step preserves the invariant. -/
namespace ZKAP
open Spec

theorem prog_wf {t t' : Tables} (h : StoreWF t) {op : StoreOp} {a : Answer}
    (hr : (op.prog.run t).2 = .ok (a, t')) : StoreWF t' := by
  by_cases hop : op = .restart
  · subst hop
    simp only [StoreOp.prog, Prog.run] at hr
    injection hr with hr; injection hr with _ hr; subst hr; exact h
  · have := step_wf_store h op
    have he : (op.step t).2 = t' := by
      cases op <;> first | exact absurd rfl hop | simp only [StoreOp.step, transact, hr]
    rwa [he] at this

theorem signal_tables (env : RepEnv) (n : Node) (ms : List Mutation) :
    (n.signal env ms).tables = n.tables := (signal_core env n ms).1.tables

theorem call_inv {P} {env : RepEnv} {n : Node} (h : RepInv P n) {op : StoreOp}
    (ho : OrderlyStep n (.call op)) (hp : P (n.call env op).2.tables.app) :
    RepInv P (n.call env op).2 := by
  obtain ⟨hclean, hq⟩ := ho
  cases hres : (op.prog.run n.tables).2 with
  | error e =>
    have hrec : (op.prog.run n.tables).1 = [] := by
      rcases hclean with ⟨r, hr⟩ | hr
      · rw [hres] at hr; exact nomatch hr
      · exact hr
    have : (n.call env op).2 = { n with mutations := [] } := by
      unfold Node.call
      simp only [hres, hrec, h.muts, List.append_nil, ite_self]
    rw [this]
    exact h.core ⟨rfl, rfl, rfl, h.muts.symm, rfl⟩ rfl
  | ok r =>
    obtain ⟨a, t'⟩ := r
    have hcall : (n.call env op).2 = ({ n with tables := t', mutations := [] }).signal env
        (if n.activity = Activity.off then [] else (op.prog.run n.tables).1) := by
      unfold Node.call
      simp only [hres, h.muts, List.nil_append]
    rw [hcall] at hp ⊢
    have hw : StoreWF t' := prog_wf h.wf hres
    have hl : ∀ ms, ms = (if n.activity = Activity.off then [] else (op.prog.run n.tables).1) →
        n.activity ≠ .off →
        Leads n.tables (numbered (n.seq.getD 0) (ms.any (·.important)) (ms.flatMap (·.stmts))) t' := by
      intro ms hms hoff
      rw [if_neg hoff] at hms
      subst hms
      exact run_leads _ hres _ _
    generalize hms : (if n.activity = Activity.off then [] else (op.prog.run n.tables).1) = ms at *
    have hnum : Numbered (({ n with tables := t', mutations := [] } : Node).recorded ms) :=
      (h.num.of_same (m := { n with tables := t', mutations := [] }) rfl rfl rfl).add_events _ _
    obtain ⟨c, ha⟩ := signal_core env { n with tables := t', mutations := [] } ms
    rw [signal_tables] at hp
    by_cases hoff : n.activity = .off
    · -- nothing is recorded
      rw [if_pos hoff] at hms
      subst hms
      have hact := h.act
      rw [hoff] at hact
      refine ⟨hnum.core c, by rw [c.tables]; exact hw, by rw [c.mutations]; rfl,
        by rw [c.tables]; exact hp, ?_⟩
      rcases ha with ha | ⟨hi, _⟩
      · rw [ha]
        refine (congrArg (ActInv P (Node.signal env _ _)) hoff).mpr ?_
        show ((Node.signal env _ _).replica).snapshot = none
        rw [c.replica]; exact hact
      · exact absurd (hoff.symm.trans hi) (by simp)
    · have hact : ∀ m, SameCore (({ n with tables := t' } : Node).recorded ms) m →
          ActInv P m n.activity := fun m hm =>
        recorded_actInv h (hl ms rfl hoff) (fun hu => by
          rw [if_neg hoff] at hms; rw [← hms]; exact hq hu) hm
      have hcore : ∀ m, SameCore (({ n with tables := t', mutations := [] } : Node).recorded ms) m →
          SameCore (({ n with tables := t' } : Node).recorded ms) m := fun m hm =>
        ⟨hm.tables, hm.events, hm.seq, hm.mutations.trans h.muts.symm, hm.replica⟩
      refine ⟨hnum.core c, by rw [c.tables]; exact hw, by rw [c.mutations]; rfl,
        by rw [c.tables]; exact hp, ?_⟩
      rcases ha with ha | ⟨hi, m, hm, ha⟩
      · rw [ha]; exact hact _ (hcore _ c)
      · rw [ha]
        have hs : Settled P m := by
          have := hact m (hcore m hm)
          have hi : n.activity = .idle := hi
          rw [hi] at this
          exact this
        have hinv := run_jobs_inv (hnum.core hm) (by rw [hm.tables]; exact hw)
          (by rw [hm.mutations]; rfl) (by rw [hm.tables]; exact hp) hs [.event_stream]
        have d := (run_jobs_data m [.event_stream]).core
        exact hinv.act.core
          ⟨c.tables.trans (d.tables.trans hm.tables).symm, c.events.trans (d.events.trans hm.events).symm,
            c.seq.trans (d.seq.trans hm.seq).symm, c.mutations.trans (d.mutations.trans hm.mutations).symm,
            c.replica.trans (d.replica.trans hm.replica).symm⟩

theorem next_inv {P} {n : Node} (h : RepInv P n) (hs : Settled P n) : RepInv P n.next :=
  run_jobs_inv h.num h.wf h.muts h.had hs _

theorem set_append {α} {d : Dict Nat α} {k : Nat} {v : α} (h : ∀ kv ∈ d, kv.1 ≠ k) :
    Dict.set d k v = d ++ [(k, v)] := by
  induction d with
  | nil => rfl
  | cons x xs ih =>
    obtain ⟨a, b⟩ := x
    have h1 : a ≠ k := h (a, b) (by simp)
    simp only [Dict.set]
    have e : (a == k) = false := by simpa using h1
    rw [e]
    simp only [Bool.false_eq_true, if_false, List.cons_append]
    rw [ih (fun kv hkv => h kv (by simp [hkv]))]

theorem settled_same {P} {n m : Node} (h : Settled P n) (ht : m.tables = n.tables)
    (he : m.events = n.events) (hr : m.replica = n.replica) : Settled P m := by
  intro snap hs
  rw [hr] at hs
  rw [hr, he, ht]
  exact h snap hs

theorem listed_inv {P} {env : RepEnv} {n : Node} (h : RepInv P n) : RepInv P (n.listed env) := by
  unfold Node.listed
  split
  · rename_i ha
    have hs : Settled P n := h.settled (by rw [ha]; exact id)
    split
    · have c := (queue_job_data n .snapshot).core
      exact next_inv (queue_job_inv h _) (hs.core c)
    · split
      · have c := (queue_job_data n .event_stream).core
        exact next_inv (queue_job_inv h _) (hs.core c)
      · exact next_inv h hs
  · rename_i k ha
    have hact := h.act
    rw [ha] at hact
    obtain ⟨snap, h1, h2, h3, h4⟩ := hact
    split
    · rename_i hnil
      have hempty : n.replica.streams = [] := by
        match hst : n.replica.streams with
        | [] => rfl
        | kv :: kvs =>
          have hk := h3 kv (by simp [hst])
          have : kv.1 ∈ (n.replica.streams.map (·.1)).filter (fun k' => decide (k' ≤ k)) := by
            rw [List.mem_filter]
            exact ⟨List.mem_map.mpr ⟨kv, by simp [hst], rfl⟩, by simp; omega⟩
          rw [hnil] at this
          exact absurd this (by simp)
      apply next_inv h
      intro snap' hs'
      rw [h1] at hs'
      injection hs' with hs'; subst hs'
      rw [hempty]
      exact h2.stable
    · rename_i names _ hnames
      refine ⟨h.num.of_same rfl rfl rfl, h.wf, h.muts, h.had, snap, h1, h2, h3, ?_⟩
      intro kv hkv
      rw [List.mem_filter]
      exact ⟨List.mem_map.mpr ⟨kv, hkv, rfl⟩, by
        have := h3 kv hkv; simp; omega⟩
  · rename_i snap ha
    have hs : Settled P n := h.settled (by rw [ha]; exact id)
    split
    · have c := (queue_job_data n .snapshot).core
      exact next_inv (queue_job_inv h _) (hs.core c)
    · exact next_inv h hs
  · exact h

theorem linked_inv {P} {n : Node} (h : RepInv P n) : RepInv P n.linked := by
  unfold Node.linked
  split
  · rename_i snap k ha
    have hact := h.act
    rw [ha] at hact
    obtain ⟨h1, h2, h3, h4, h5⟩ := hact
    refine ⟨⟨h.num.inc, h.num.le, h.num.keys, ?_⟩, h.wf, h.muts, h.had, by simp, fun _ => rfl, h3, h4, h5⟩
    intro snap' hs
    have hs : some snap = some snap' := hs
    injection hs with hs; subst hs
    rcases h4 with ⟨h6, h7⟩ | ⟨h6, _, _⟩
    · rw [h6]; exact h7
    · rw [h6]; exact Nat.zero_le _
  · rename_i evs high ha
    have hact := h.act
    rw [ha] at hact
    obtain ⟨h1, rest, h2, h3⟩ := hact
    obtain ⟨_, h9, c, hc, h7⟩ := highest_some h1
    have hhigh : high ≤ n.seq.getD 0 := by
      rw [← h7]; exact (h.num.le c (by rw [h2]; simp [hc])).2
    refine ⟨⟨h.num.inc, h.num.le, ?_, h.num.base⟩, h.wf, h.muts, h.had, h1, rest, h2, ?_⟩
    · intro kv hkv
      rcases mem_set hkv with hkv | hkv
      · exact h.num.keys kv hkv
      · subst hkv; exact hhigh
    · intro snap hs
      rw [if_pos rfl]
      obtain ⟨Th, hp, hw, ⟨Tm, Tp, hst⟩, hl⟩ := h3 snap hs
      have hlt : ∀ kv ∈ n.replica.streams, kv.1 < high := by
        intro kv hkv
        have := (hst.later c hc).2 kv hkv
        omega
      show Stable P snap (Dict.set n.replica.streams high evs) rest n.tables
      rw [set_append (fun kv hkv => by have := hlt kv hkv; omega)]
      refine ⟨Tm, Th, ⟨hst.snap_app, hst.wfm, ?_, hl, hp, hw, ?_, ?_, ?_⟩⟩
      · rw [List.flatMap_append]
        simp only [List.flatMap_cons, List.flatMap_nil, List.append_nil]
        exact leads_append hst.streams_lead hst.events_lead
      · rw [List.pairwise_append]
        refine ⟨hst.sorted, by simp, ?_⟩
        intro a ha' b hb
        simp only [List.mem_singleton] at hb
        subst hb
        exact hlt a ha'
      · intro kv hkv
        rcases List.mem_append.mp hkv with hkv | hkv
        · exact hst.good kv hkv
        · simp only [List.mem_singleton] at hkv
          subst hkv
          exact ⟨h1, by have := (hst.later c hc).1; omega⟩
      · intro e he
        have hinc := h.num.inc
        rw [h2] at hinc
        have hce := (List.pairwise_append.mp hinc).2.2 c hc e he
        have := (hst.later c hc).1
        refine ⟨by omega, ?_⟩
        intro kv hkv
        rcases List.mem_append.mp hkv with hkv | hkv
        · have := hlt kv hkv; omega
        · simp only [List.mem_singleton] at hkv
          subst hkv
          show high < e.sequence
          omega
  · exact h

theorem uploaded_inv {P} {n : Node} (h : RepInv P n) : RepInv P n.uploaded := by
  unfold Node.uploaded
  split
  · rename_i snap k ha
    have hact := h.act
    rw [ha] at hact
    obtain ⟨h1, h2, h3, h4, h5⟩ := hact
    refine ⟨(h.num.prune k).of_same rfl rfl rfl, h.wf, h.muts, h.had, snap, h2 rfl, h3, h5, ?_⟩
    rcases h4 with ⟨h6, h7⟩ | ⟨h6, h7, _⟩
    · rw [h6]; exact Nat.le_refl _
    · rw [h6]; exact Nat.zero_le _
  · rename_i evs high ha
    have hact := h.act
    rw [ha] at hact
    obtain ⟨h1, rest, h2, h3⟩ := hact
    obtain ⟨_, h9, c, hc, h7⟩ := highest_some h1
    have hev : (n.prune_events_to high).events = rest := by
      show eventsAfter high n.events = rest
      rw [h2, after_append, after_of_le h9, List.nil_append]
      apply after_of_gt
      intro e he
      have hinc := h.num.inc
      rw [h2] at hinc
      have hce := (List.pairwise_append.mp hinc).2.2 c hc e he
      omega
    have hs : Settled P (n.prune_events_to high) := by
      intro snap hs
      have h4 := h3 snap hs
      rw [if_pos rfl] at h4
      rw [hev]
      exact h4
    have c := (queue_job_data (n.prune_events_to high) .consider_snapshot).core
    exact run_jobs_inv ((h.num.prune high).core c) (by rw [c.tables]; exact h.wf)
      (by rw [c.mutations]; exact h.muts) (by rw [c.tables]; exact h.had) (hs.core c) _
  · exact h

theorem unlinked_inv {P} {n : Node} (h : RepInv P n) : RepInv P n.unlinked := by
  unfold Node.unlinked
  split
  · rename_i seqnum k ks ha
    have hact := h.act
    rw [ha] at hact
    obtain ⟨snap, h1, h2, h3, h4⟩ := hact
    have hnum : Numbered { n with replica := { n.replica with streams := n.replica.streams.filter (fun kv => kv.1 != k) } } :=
      ⟨h.num.inc, h.num.le, fun kv hkv => h.num.keys kv (List.mem_filter.mp hkv).1, h.num.base⟩
    have hin : ∀ kv ∈ n.replica.streams.filter (fun kv => kv.1 != k), kv.1 ∈ ks := by
      intro kv hkv
      rw [List.mem_filter] at hkv
      have := h4 kv hkv.1
      rcases List.mem_cons.mp this with h5 | h5
      · exact absurd h5 (by simpa using hkv.2)
      · exact h5
    have hup : ∀ kv ∈ n.replica.streams.filter (fun kv => kv.1 != k), kv.1 ≤ snap.seq.getD 0 :=
      fun kv hkv => h3 kv (List.mem_filter.mp hkv).1
    dsimp only
    split
    · have hempty : n.replica.streams.filter (fun kv => kv.1 != k) = [] := by
        apply List.eq_nil_iff_forall_not_mem.mpr
        intro kv hkv
        exact absurd (hin kv hkv) (by simp)
      refine run_jobs_inv hnum h.wf h.muts h.had ?_ _
      intro snap' hs'
      have hs' : n.replica.snapshot = some snap' := hs'
      rw [h1] at hs'
      injection hs' with hs'; subst hs'
      show Stable P snap (n.replica.streams.filter (fun kv => kv.1 != k)) n.events n.tables
      rw [hempty]
      exact h2.stable
    · exact ⟨hnum.of_same rfl rfl rfl, h.wf, h.muts, h.had, snap, h1, h2, hup, hin⟩
  · exact h

theorem failed_inv {P} {n : Node} (h : RepInv P n) (ho : ¬ Unsettled n.activity) : RepInv P n.failed := by
  have hs := h.settled ho
  unfold Node.failed
  split
  · exact h
  · exact h
  · exact h
  · exact ⟨h.num.of_same rfl rfl rfl, h.wf, h.muts, h.had, hs⟩

theorem restart_inv {P} {env : RepEnv} {n : Node} (h : RepInv P n)
    (ho : OrderlyStep n .restart) : RepInv P (n.restart env) := by
  obtain ⟨hi, hu⟩ := ho
  have hs := h.settled hu
  have ht := leads_restart hi h.wf.to_discard h.wf.to_reset
  unfold Node.restart
  dsimp only
  rw [← ht]
  split
  · rename_i hoff
    exact h.core ⟨rfl, rfl, rfl, h.muts.symm, rfl⟩ rfl
  · exact ⟨h.num.of_same rfl rfl rfl, h.wf, rfl, h.had, hs⟩

theorem step_inv {P} {env : RepEnv} {n : Node} (h : RepInv P n) {s : RStep} (ho : OrderlyStep n s)
    (hp : P (n.step env s).tables.app) : RepInv P (n.step env s) := by
  cases s with
  | enable =>
    simp only [Node.step]
    split
    · rename_i hoff
      have hact := h.act
      rw [hoff] at hact
      refine ⟨h.num.of_same rfl rfl rfl, h.wf, h.muts, h.had, ?_⟩
      intro snap hs
      have hs : n.replica.snapshot = some snap := hs
      rw [hact] at hs
      exact nomatch hs
    · exact h
  | call op => exact call_inv h ho hp
  | restart => exact restart_inv h ho
  | crashedCall op => exact ho.elim
  | listed => exact listed_inv h
  | linked => exact linked_inv h
  | uploaded => exact uploaded_inv h
  | unlinked => exact unlinked_inv h
  | failed => exact failed_inv h ho

theorem fresh_inv {P : App → Prop} {n : Node} (h : Fresh n) (hp : P n.tables.app) : RepInv P n := by
  refine ⟨fresh_numbered h, ?_, h.mutations, hp, ?_⟩
  · obtain ⟨ops, ho⟩ := h.tables
    rw [ho]; exact run_wf_store ops wf_empty
  · rw [h.off]; show n.replica.snapshot = none; rw [h.replica]

theorem run_inv {P} {env : RepEnv} {n : Node} (h : RepInv P n) (steps : List RStep)
    (ho : Orderly env n steps) (hp : ∀ m ∈ moments env n steps, P m.tables.app) :
    RepInv P (n.run env steps) := by
  induction steps generalizing n with
  | nil => exact h
  | cons s ss ih =>
    refine ih (step_inv h ho.1 ?_) ho.2 (fun m hm => hp m (by simp [moments, hm]))
    apply hp
    cases ss <;> simp [moments]

/-! ### Recovering -/

theorem insert_last {s : List Change} {l : List (List Change)} {k : Nat}
    (hs : highest_sequence s = some k) (hl : ∀ r ∈ l, (highest_sequence r).getD 0 ≤ k) :
    insert_stream s l = l ++ [s] := by
  induction l with
  | nil => rfl
  | cons r rs ih =>
    have h1 := hl r (by simp)
    simp only [insert_stream, hs, Option.getD_some]
    rw [if_neg (by omega), ih (fun x hx => hl x (by simp [hx]))]
    rfl

/-- The key streams are sorted by. -/
def skey (s : List Change) : Nat := (highest_sequence s).getD 0

theorem insert_perm (s : List Change) (l : List (List Change)) :
    (insert_stream s l).Perm (s :: l) := by
  induction l with
  | nil => exact List.Perm.refl _
  | cons r rs ih =>
    simp only [insert_stream]
    split
    · exact List.Perm.refl _
    · exact (List.Perm.cons r ih).trans (List.Perm.swap _ _ _)

theorem insert_sorted {s : List Change} {l : List (List Change)}
    (hl : l.Pairwise (fun a b => skey a ≤ skey b)) :
    (insert_stream s l).Pairwise (fun a b => skey a ≤ skey b) := by
  induction l with
  | nil => simp [insert_stream]
  | cons r rs ih =>
    rw [List.pairwise_cons] at hl
    simp only [insert_stream]
    split
    · rename_i h
      have h : skey s < skey r := h
      rw [List.pairwise_cons]
      refine ⟨?_, List.pairwise_cons.mpr hl⟩
      intro x hx
      rcases List.mem_cons.mp hx with hx | hx
      · subst hx; omega
      · have := hl.1 x hx; omega
    · rename_i h
      have h : ¬ skey s < skey r := h
      rw [List.pairwise_cons]
      refine ⟨?_, ih hl.2⟩
      intro x hx
      rcases List.mem_cons.mp ((insert_perm s rs).mem_iff.mp hx) with hx | hx
      · subst hx; omega
      · exact hl.1 x hx

theorem foldl_insert (l acc : List (List Change))
    (ha : acc.Pairwise (fun a b => skey a ≤ skey b)) :
    (l.foldl (fun acc s => insert_stream s acc) acc).Pairwise (fun a b => skey a ≤ skey b) ∧
    (l.foldl (fun acc s => insert_stream s acc) acc).Perm (l ++ acc) := by
  induction l generalizing acc with
  | nil => exact ⟨ha, List.Perm.refl _⟩
  | cons s ss ih =>
    simp only [List.foldl_cons]
    obtain ⟨h1, h2⟩ := ih (insert_stream s acc) (insert_sorted ha)
    refine ⟨h1, h2.trans ?_⟩
    refine (List.Perm.append_left ss (insert_perm s acc)).trans ?_
    exact List.perm_middle

theorem sorted_streams (l : List (List Change)) :
    (sorted_event_streams l).Pairwise (fun a b => skey a ≤ skey b) ∧
    (sorted_event_streams l).Perm (l.filter (fun s => !s.isEmpty)) := by
  have := foldl_insert (l.filter (fun s => !s.isEmpty)) [] List.Pairwise.nil
  simpa [sorted_event_streams] using this

/-- A sorted permutation of a strictly sorted list is that list. -/
theorem sorted_unique : ∀ (l m : List (List Change)), l.Pairwise (fun a b => skey a < skey b) →
    m.Pairwise (fun a b => skey a ≤ skey b) → m.Perm l → m = l := by
  intro l
  induction l with
  | nil => intro m _ _ hp; exact List.Perm.eq_nil hp
  | cons a as ih =>
    intro m hl hm hp
    rw [List.pairwise_cons] at hl
    match m, hm, hp with
    | [], _, hp => exact absurd hp.length_eq (by simp)
    | b :: bs, hm, hp =>
      rw [List.pairwise_cons] at hm
      have hab : b = a := by
        have hb : b ∈ a :: as := hp.mem_iff.mp (by simp)
        have ha : a ∈ b :: bs := hp.mem_iff.mpr (by simp)
        rcases List.mem_cons.mp hb with hb | hb
        · exact hb
        · rcases List.mem_cons.mp ha with ha | ha
          · exact ha.symm
          · have h1 := hl.1 b hb
            have h2 := hm.1 a ha
            omega
      subst hab
      rw [ih bs hl.2 hm.2 (List.Perm.cons_inv hp)]

theorem sorted_of_perm {l m : List (List Change)} (hl : l.Pairwise (fun a b => skey a < skey b))
    (hne : ∀ s ∈ l, s ≠ []) (hp : m.Perm l) : sorted_event_streams m = l := by
  obtain ⟨h1, h2⟩ := sorted_streams m
  refine sorted_unique l _ hl h1 (h2.trans ?_)
  have : m.filter (fun s => !s.isEmpty) = m := by
    rw [List.filter_eq_self]
    intro s hs
    have := hne s (hp.mem_iff.mp hs)
    simpa using this
  rw [this]; exact hp

theorem recover_event_streams_flatten (l : List (List Change)) (t : Tables) :
    recover_event_streams l t = recover_event_stream l.flatten t := by
  induction l generalizing t with
  | nil => rfl
  | cons s ss ih =>
    simp only [recover_event_streams, List.flatten_cons, recover_event_stream_append]
    cases recover_event_stream s t with
    | error e => rfl
    | ok t' => exact ih _

theorem fk_ok {t : Tables} (h : StoreWF t) : foreign_keys_ok t.app = true := by
  unfold foreign_keys_ok
  rw [List.all_eq_true]
  intro r hr
  simpa using h.tokens_voucher r hr

theorem stable_recovers {P} {r : Replica} {snap : Snapshot} {events : List Change} {tables : Tables}
    (hsnap : r.snapshot = some snap) (h : Stable P snap r.streams events tables)
    {l : List (List Change)} (hl : Listing r l) :
    ∃ t, Recovers r l t ∧ P t.app ∧ ∃ t', recover_event_stream events t = .ok t' ∧ Sim t' tables := by
  obtain ⟨Tm, Tp, h⟩ := h
  have hsort : sorted_event_streams l = r.streams.map (·.2) := by
    refine sorted_of_perm ?_ ?_ hl
    · rw [List.pairwise_map]
      refine h.sorted.imp_of_mem ?_
      intro a b ha hb hab
      simp only [skey, (h.good a ha).1, (h.good b hb).1, Option.getD_some]
      exact hab
    · intro s hs
      obtain ⟨kv, hkv, rfl⟩ := List.mem_map.mp hs
      exact (highest_some (h.good kv hkv).1).1
  obtain ⟨r1, h1, h2⟩ := h.streams_lead { app := snap.app } (by
    have := sim_fresh h.wfm
    rw [h.snap_app]; exact this)
  obtain ⟨r2, h3, h4⟩ := h.events_lead r1 h2
  refine ⟨r1, ?_, by rw [h2.app]; exact h.had, r2, h3, h4⟩
  unfold Recovers recover
  rw [hsnap]
  simp only
  rw [hsort, recover_event_streams_flatten, ← List.flatMap_def, h1]
  simp only
  rw [h2.app, fk_ok h.wfp]
  simp

end ZKAP
