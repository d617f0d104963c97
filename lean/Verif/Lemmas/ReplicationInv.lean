import Verif.Lemmas.ReplicationAll

/-! The invariant of undisturbed histories: what the replica restores. -/
namespace ZKAP
open Spec

/-- From the snapshot the streams lead to tables `Tp` the source had, and `events` lead on to
`tables`. -/
structure StableFor (P : App → Prop) (snap : Snapshot) (streams : Dict Nat (List Change))
    (events : List Change) (tables Tm Tp : Tables) : Prop where
  snap_app : snap.app = Tm.app
  wfm : StoreWF Tm
  streams_lead : Leads Tm (streams.flatMap (·.2)) Tp
  events_lead : Leads Tp events tables
  had : P Tp.app
  wfp : StoreWF Tp
  sorted : streams.Pairwise (fun a b => a.1 < b.1)
  good : ∀ kv ∈ streams, highest_sequence kv.2 = some kv.1 ∧ snap.seq.getD 0 < kv.1
  later : ∀ e ∈ events, snap.seq.getD 0 < e.sequence ∧ ∀ kv ∈ streams, kv.1 < e.sequence

def Stable (P : App → Prop) (snap : Snapshot) (streams : Dict Nat (List Change))
    (events : List Change) (tables : Tables) : Prop :=
  ∃ Tm Tp, StableFor P snap streams events tables Tm Tp

theorem Stable.extend {P snap streams events tables} (h : Stable P snap streams events tables)
    {new : List Change} {tables' : Tables} (hl : Leads tables new tables')
    (hnew : ∀ e ∈ new, snap.seq.getD 0 < e.sequence ∧ ∀ kv ∈ streams, kv.1 < e.sequence) :
    Stable P snap streams (events ++ new) tables' := by
  obtain ⟨Tm, Tp, h⟩ := h
  refine ⟨Tm, Tp, { h with events_lead := leads_append h.events_lead hl, later := ?_ }⟩
  intro e he
  rcases List.mem_append.mp he with he | he
  · exact h.later e he
  · exact hnew e he

/-- The replica and the local events together restore the tables. -/
def Settled (P : App → Prop) (n : Node) : Prop :=
  ∀ snap, n.replica.snapshot = some snap → Stable P snap n.replica.streams n.events n.tables

/-- A snapshot that was taken when the tables were `Tk`. -/
structure TakenFrom (P : App → Prop) (snap : Snapshot) (events : List Change) (tables Tk : Tables) :
    Prop where
  had : P Tk.app
  wf : StoreWF Tk
  snap_app : snap.app = Tk.app
  lead : Leads Tk events tables
  later : ∀ e ∈ events, snap.seq.getD 0 < e.sequence

def Taken (P : App → Prop) (snap : Snapshot) (events : List Change) (tables : Tables) : Prop :=
  ∃ Tk, TakenFrom P snap events tables Tk

theorem Taken.extend {P snap events tables} (h : Taken P snap events tables)
    {new : List Change} {tables' : Tables} (hl : Leads tables new tables')
    (hnew : ∀ e ∈ new, snap.seq.getD 0 < e.sequence) :
    Taken P snap (events ++ new) tables' := by
  obtain ⟨Tk, h⟩ := h
  refine ⟨Tk, { h with lead := leads_append h.lead hl, later := ?_ }⟩
  intro e he
  rcases List.mem_append.mp he with he | he
  · exact h.later e he
  · exact hnew e he

theorem Taken.stable {P snap events tables} (h : Taken P snap events tables) :
    Stable P snap [] events tables := by
  obtain ⟨Tk, h⟩ := h
  exact ⟨Tk, Tk, ⟨h.snap_app, h.wf, leads_nil, h.lead, h.had, h.wf, List.Pairwise.nil, by simp,
    fun e he => ⟨h.later e he, by simp⟩⟩⟩

/-- Events after the number up to which a snapshot upload will prune. -/
def eventsAfter (k : Nat) (events : List Change) : List Change :=
  events.filter (fun e => decide (k < e.sequence))

/-- Bookkeeping of the number of a snapshot upload: the snapshot's own number, or, for a snapshot
taken before the first event, `1` while there is no event. -/
def SnapNumber (n : Node) (snap : Snapshot) (k : Nat) : Prop :=
  (snap.seq = some k ∧ k ≤ n.seq.getD 0) ∨ (snap.seq = none ∧ k = 1 ∧ n.seq = none)

def KeysUpTo (n : Node) (snap : Snapshot) : Prop :=
  ∀ kv ∈ n.replica.streams, kv.1 ≤ snap.seq.getD 0

/-- The invariant for each activity. -/
def ActInv (P : App → Prop) (n : Node) : Activity → Prop
  | .off => n.replica.snapshot = none
  | .idle | .startupListing | .considerListing _ | .dead => Settled P n
  | .snapshotUploading snap k linked =>
    (linked = false → Settled P n) ∧ (linked = true → n.replica.snapshot = some snap) ∧
    Taken P snap (eventsAfter k n.events) n.tables ∧ SnapNumber n snap k ∧ KeysUpTo n snap
  | .pruneListing k =>
    ∃ snap, n.replica.snapshot = some snap ∧ Taken P snap n.events n.tables ∧ KeysUpTo n snap ∧
      snap.seq.getD 0 ≤ k
  | .pruning _ names =>
    ∃ snap, n.replica.snapshot = some snap ∧ Taken P snap n.events n.tables ∧ KeysUpTo n snap ∧
      ∀ kv ∈ n.replica.streams, kv.1 ∈ names
  | .eventUploading evs high linked =>
    highest_sequence evs = some high ∧
    ∃ rest, n.events = evs ++ rest ∧
    ∀ snap, n.replica.snapshot = some snap →
      if linked then Stable P snap n.replica.streams rest n.tables
      else ∃ Th, P Th.app ∧ StoreWF Th ∧ Stable P snap n.replica.streams evs Th ∧
        Leads Th rest n.tables

structure RepInv (P : App → Prop) (n : Node) : Prop where
  num : Numbered n
  wf : StoreWF n.tables
  muts : n.mutations = []
  had : P n.tables.app
  act : ActInv P n n.activity

theorem ActInv.core {P} {n m : Node} {a : Activity} (h : ActInv P n a) (c : SameCore n m) :
    ActInv P m a := by
  cases a <;> simp only [ActInv, Settled, SnapNumber, KeysUpTo] at h ⊢ <;>
    simpa only [c.seq, c.events, c.replica, c.tables] using h

theorem RepInv.core {P} {n m : Node} (h : RepInv P n) (c : SameCore n m) (ha : m.activity = n.activity) :
    RepInv P m :=
  ⟨h.num.core c, by rw [c.tables]; exact h.wf, by rw [c.mutations]; exact h.muts,
    by rw [c.tables]; exact h.had, by rw [ha]; exact h.act.core c⟩

theorem after_of_le {k : Nat} {l : List Change} (h : ∀ e ∈ l, e.sequence ≤ k) : eventsAfter k l = [] := by
  unfold eventsAfter
  rw [List.filter_eq_nil_iff]
  intro e he
  have := h e he
  simp only [decide_eq_true_eq]
  omega

theorem after_of_gt {k : Nat} {l : List Change} (h : ∀ e ∈ l, k < e.sequence) : eventsAfter k l = l := by
  unfold eventsAfter
  rw [List.filter_eq_self]
  intro e he
  simpa using h e he

theorem after_append (k : Nat) (a b : List Change) : eventsAfter k (a ++ b) = eventsAfter k a ++ eventsAfter k b := by
  unfold eventsAfter; rw [List.filter_append]

/-- The start of a job, from a settled state. -/
theorem begin_actInv {P} {n : Node} (hn : Numbered n) (hw : StoreWF n.tables) (hp : P n.tables.app)
    (hs : Settled P n) {j : Job} {a : Activity} (hb : n.begin j = some a) : ActInv P n a := by
  cases j <;> simp only [Node.begin] at hb
  · injection hb with hb; subst hb; exact hs
  · split at hb
    · exact nomatch hb
    · rename_i high hh
      injection hb with hb; subst hb
      refine ⟨hh, [], by simp, fun snap hsnap => ?_⟩
      simp only [Bool.false_eq_true, if_false]
      exact ⟨n.tables, hp, hw, hs snap hsnap, leads_nil⟩
  · injection hb with hb; subst hb
    have hempty : eventsAfter (n.seq.getD 1) n.events = [] := by
      apply after_of_le
      intro e he
      have := (hn.le e he).2
      cases hseq : n.seq <;> simp [hseq] at this ⊢ <;> omega
    refine ⟨fun _ => hs, by simp, ⟨n.tables, hp, hw, rfl, ?_, ?_⟩, ?_, hn.keys⟩
    · rw [hempty]; exact leads_nil
    · rw [hempty]; simp
    · cases hseq : n.seq with
      | none => exact .inr ⟨hseq, by simp, hseq⟩
      | some k => exact .inl ⟨by simp [Node.snapshot, hseq], by simp [hseq]⟩
  · injection hb with hb; subst hb; exact hs

theorem run_jobs_inv {P} {n : Node} (hn : Numbered n) (hw : StoreWF n.tables) (hm : n.mutations = [])
    (hp : P n.tables.app) (hs : Settled P n) (js : List Job) : RepInv P (n.run_jobs js) := by
  have c := (run_jobs_data n js).core
  refine ⟨hn.core c, by rw [c.tables]; exact hw, by rw [c.mutations]; exact hm,
    by rw [c.tables]; exact hp, ?_⟩
  rcases run_jobs_activity n js with ⟨h1, _⟩ | ⟨j, a, h1, h2⟩
  · rw [h1]
    exact ActInv.core (a := .idle) hs c
  · rw [h2]; exact (begin_actInv hn hw hp hs h1).core c

theorem queue_job_inv {P} {n : Node} (h : RepInv P n) (j : Job) : RepInv P (n.queue_job j) := by
  rcases queue_job_activity n j with h1 | ⟨ha, h2⟩
  · exact h.core (queue_job_data n j).core h1
  · rw [h2]
    have hs := h.act
    rw [ha] at hs
    exact run_jobs_inv h.num h.wf h.muts h.had hs _

theorem Settled.core {P} {n m : Node} (h : Settled P n) (c : SameCore n m) : Settled P m :=
  ActInv.core (a := .idle) h c

/-- The invariant gives a settled state unless something is unsettled. -/
theorem RepInv.settled {P} {n : Node} (h : RepInv P n) (hu : ¬ Unsettled n.activity) : Settled P n := by
  have ha := h.act
  match hact : n.activity with
  | .off => rw [hact] at ha; intro snap hs; rw [ha] at hs; exact nomatch hs
  | .idle | .startupListing | .considerListing _ | .dead => rw [hact] at ha; exact ha
  | .snapshotUploading _ _ false => rw [hact] at ha; exact ha.1 rfl
  | .eventUploading evs high false =>
    rw [hact] at ha
    obtain ⟨h1, rest, h2, h3⟩ := ha
    intro snap hs
    obtain ⟨Th, _, _, h4, h5⟩ := h3 snap hs
    rw [h2]
    refine h4.extend h5 ?_
    obtain ⟨Tm, Tp, h6⟩ := h4
    obtain ⟨h8, h9, c, hc, h7⟩ := highest_some h1
    intro e he
    have hinc := h.num.inc
    rw [h2] at hinc
    have hlt := (List.pairwise_append.mp hinc).2.2 c hc e he
    have h10 := h6.later c hc
    exact ⟨by omega, fun kv hkv => by have := h10.2 kv hkv; omega⟩
  | .snapshotUploading _ _ true | .eventUploading _ _ true | .pruneListing _ | .pruning _ _ =>
    rw [hact] at hu; exact absurd trivial hu

/-- Recording the statements of a transaction. -/
theorem recorded_actInv {P} {n : Node} (h : RepInv P n) {tables' : Tables} {ms : List Mutation}
    (hl : Leads n.tables (numbered (n.seq.getD 0) (ms.any (·.important)) (ms.flatMap (·.stmts))) tables')
    (hq : UploadingFirst n.activity → ms = []) {m : Node}
    (hc : SameCore ({ n with tables := tables' }.recorded ms) m) :
    ActInv P m n.activity := by
  have hact := h.act
  have hseq : m.seq.getD 0 = n.seq.getD 0 + (ms.flatMap (·.stmts)).length := by
    rw [hc.seq]; exact add_events_seq _ _ _
  have hnew : ∀ e ∈ numbered (n.seq.getD 0) (ms.any (·.important)) (ms.flatMap (·.stmts)),
      n.seq.getD 0 < e.sequence := fun e he => (numbered_mem he).1
  have hev : m.events =
    n.events ++ numbered (n.seq.getD 0) (ms.any (·.important)) (ms.flatMap (·.stmts)) := hc.events
  have hrep : m.replica = n.replica := hc.replica
  have htab : m.tables = tables' := hc.tables
  have hset : Settled P n → Settled P m := by
    intro hs snap hsnap
    rw [hrep] at hsnap
    rw [hrep, htab, hev]
    refine (hs snap hsnap).extend hl ?_
    intro e he
    have h1 := hnew e he
    have h2 := h.num.base snap hsnap
    exact ⟨by omega, fun kv hkv => by have := h.num.keys kv hkv; omega⟩
  match ha : n.activity with
  | .off => rw [ha] at hact; simp only [ActInv, hrep]; exact hact
  | .idle | .startupListing | .considerListing _ | .dead => rw [ha] at hact; exact hset hact
  | .snapshotUploading snap k linked =>
    rw [ha] at hact hq
    obtain ⟨h1, h2, h3, h4, h5⟩ := hact
    refine ⟨fun hf => hset (h1 hf), by rw [hrep]; exact h2, ?_, ?_, by unfold KeysUpTo; rw [hrep]; exact h5⟩
    · rw [hev, after_append, htab]
      rcases h4 with ⟨h6, h7⟩ | ⟨h6, h7, h8⟩
      · rw [after_of_gt (l := numbered _ _ _) (fun e he => by have := hnew e he; omega)]
        exact h3.extend hl (fun e he => by have := hnew e he; rw [h6]; simp; omega)
      · have := hq h6
        subst this
        simp only [List.flatMap_nil, numbered] at hl ⊢
        have := h3.extend hl (by simp)
        simpa [eventsAfter] using this
    · rcases h4 with ⟨h6, h7⟩ | ⟨h6, h7, h8⟩
      · exact .inl ⟨h6, by omega⟩
      · have := hq h6
        subst this
        exact .inr ⟨h6, h7, by rw [hc.seq]; simp [Node.recorded, Node.add_events, h8]⟩
  | .pruneListing k =>
    rw [ha] at hact
    obtain ⟨snap, h1, h2, h3, h4⟩ := hact
    refine ⟨snap, by rw [hrep]; exact h1, ?_, by unfold KeysUpTo; rw [hrep]; exact h3, h4⟩
    rw [hev, htab]
    refine h2.extend hl (fun e he => ?_)
    have := hnew e he
    have := h.num.base snap h1
    omega
  | .pruning _ names =>
    rw [ha] at hact
    obtain ⟨snap, h1, h2, h3, h4⟩ := hact
    refine ⟨snap, by rw [hrep]; exact h1, ?_, by unfold KeysUpTo; rw [hrep]; exact h3, by rw [hrep]; exact h4⟩
    rw [hev, htab]
    refine h2.extend hl (fun e he => ?_)
    have := hnew e he
    have := h.num.base snap h1
    omega
  | .eventUploading evs high linked =>
    rw [ha] at hact
    obtain ⟨h1, rest, h2, h3⟩ := hact
    refine ⟨h1, rest ++ numbered (n.seq.getD 0) (ms.any (·.important)) (ms.flatMap (·.stmts)), ?_, ?_⟩
    · rw [hev, h2, List.append_assoc]
    · intro snap hs
      rw [hrep] at hs
      rw [hrep, htab]
      have h4 := h3 snap hs
      cases linked with
      | false =>
        simp only [Bool.false_eq_true, if_false] at h4 ⊢
        obtain ⟨Th, h5, h6, h7, h8⟩ := h4
        exact ⟨Th, h5, h6, h7, leads_append h8 hl⟩
      | true =>
        simp only [if_true] at h4 ⊢
        refine h4.extend hl ?_
        intro e he
        have h5 := hnew e he
        have h6 := h.num.base snap hs
        exact ⟨by omega, fun kv hkv => by have := h.num.keys kv hkv; omega⟩

end ZKAP
