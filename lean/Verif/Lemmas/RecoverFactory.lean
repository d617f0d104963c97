import Verif.Spec.RecoverFactory
import Verif.Lemmas.Recovery

/-! Lemmas about the clients of a recovery. -/
namespace ZKAP
open Spec

variable {κ : Type}

theorem sentTo_broadcast (f : RecoverFactory κ) (m : Sent) (c : Nat) :
    sentTo (f.broadcast m) c = sentTo f c ++ List.replicate (f.clients.count c) m := by
  have : ∀ l : List Nat, ((l.map fun c => (c, m)).filter fun e => e.1 == c).map Prod.snd =
      List.replicate (l.count c) m := by
    intro l
    induction l with
    | nil => rfl
    | cons x l ih =>
      rw [List.map_cons, List.filter_cons, List.count_cons]
      by_cases h : (x == c) = true
      · rw [if_pos h, if_pos h, List.map_cons, ih, List.replicate_succ]
      · rw [if_neg h, if_neg h, ih]; rfl
  simp only [sentTo, RecoverFactory.broadcast, List.filter_append, List.map_append, this]

theorem broadcasts (l : List RecoveryStages) : ∀ (f : RecoverFactory κ),
    let f' := l.foldl (fun f s => f.broadcast (.update s)) f
    f'.node = f.node ∧ f'.clients = f.clients ∧ f'.recovering_cap = f.recovering_cap ∧
    ∀ c, (f.clients.count c = 0 → sentTo f' c = sentTo f c) ∧
      (f.clients.count c = 1 → sentTo f' c = sentTo f c ++ l.map .update) := by
  induction l with
  | nil => intro f; exact ⟨rfl, rfl, rfl, fun c => ⟨fun _ => rfl, fun _ => (List.append_nil _).symm⟩⟩
  | cons s l ih =>
    intro f
    obtain ⟨h1, h2, h3, h4⟩ := ih (f.broadcast (.update s))
    refine ⟨h1, h2, h3, fun c => ⟨fun h => ?_, fun h => ?_⟩⟩
    · have := (h4 c).1 h
      simp only [List.foldl_cons]
      rw [this, sentTo_broadcast, h]
      exact List.append_nil _
    · have := (h4 c).2 h
      simp only [List.foldl_cons]
      rw [this, sentTo_broadcast, h]
      simp

theorem go_on_facts (f : RecoverFactory κ) (n : RecoveringNode) (l)
    (hl : n.reported = f.node.reported ++ l) :
    (f.go_on n).node = n ∧ (f.go_on n).clients = f.clients ∧
    (f.go_on n).recovering_cap = f.recovering_cap ∧
    ∀ c, (f.clients.count c = 0 → sentTo (f.go_on n) c = sentTo f c) ∧
      (f.clients.count c = 1 → sentTo (f.go_on n) c = sentTo f c ++ l.map .update) := by
  have hd : n.reported.drop f.node.reported.length = l := by rw [hl, List.drop_left]
  have := broadcasts l { f with node := n }
  simp only [RecoverFactory.go_on, hd]
  exact this

theorem request_reported (n : RecoveringNode) : ∃ l, n.request.reported = n.reported ++ l := by
  unfold RecoveringNode.request
  split
  · exact ⟨[], (List.append_nil _).symm⟩
  · split
    · exact ⟨_, rfl⟩
    · split
      · split
        · exact ⟨_, rfl⟩
        · exact ⟨[], (List.append_nil _).symm⟩
      · exact ⟨_, rfl⟩

theorem request_requested (n : RecoveringNode) : n.request.requested = true := by
  unfold RecoveringNode.request
  split
  · assumption
  · split
    · rfl
    · split
      · split <;> rfl
      · rfl

theorem progress_reported (n : RecoveringNode) (s) : ∃ l, (n.progress s).reported = n.reported ++ l := by
  unfold RecoveringNode.progress
  split
  · exact ⟨_, rfl⟩
  · exact ⟨[], (List.append_nil _).symm⟩

theorem progress_same (n : RecoveringNode) (s) :
    (n.progress s).requested = n.requested ∧ (n.progress s).waiting = n.waiting := by
  unfold RecoveringNode.progress
  split <;> exact ⟨rfl, rfl⟩

theorem downloaded_facts {n : RecoveringNode} (hn : NodeOk n) (hw : n.waiting = true) (utc r) :
    (∃ l, (n.downloaded utc r).reported = n.reported ++ l) ∧ (n.downloaded utc r).waiting = false ∧
      (n.downloaded utc r).requested = n.requested := by
  cases r with
  | error e =>
    obtain ⟨_, _, h3, h4, h5, _⟩ := downloaded_error utc hn hw e
    exact ⟨⟨_, h5⟩, h3, h4⟩
  | ok replica =>
    cases hr : n.conn.recover utc replica with
    | mk c res =>
      cases he : c.exit Database.foreignOk (.ok ()) with
      | mk c' res' =>
        obtain ⟨_, h2, h3, h4, _⟩ := downloaded_ok utc hw replica hr he
        exact ⟨⟨_, h4⟩, h2, h3⟩

theorem call_go_on (utc) (f : RecoverFactory κ) (ss) :
    (f.go_on (f.node.step utc (.call ss)).1).node = (f.node.step utc (.call ss)).1 ∧
    (f.go_on (f.node.step utc (.call ss)).1).clients = f.clients ∧
    (f.go_on (f.node.step utc (.call ss)).1).recovering_cap = f.recovering_cap ∧
    ∀ c, sentTo (f.go_on (f.node.step utc (.call ss)).1) c = sentTo f c := by
  have : (f.node.step utc (.call ss)).1.reported.drop f.node.reported.length = [] := by
    rw [show (f.node.step utc (.call ss)).1.reported = f.node.reported from rfl, List.drop_length]
  simp only [RecoverFactory.go_on, this, List.foldl_nil]
  exact ⟨trivial, trivial, trivial, fun _ => rfl⟩

variable [DecidableEq κ]

/-- A factory whose node is in order. -/
def FactoryOk (f : RecoverFactory κ) : Prop :=
  NodeOk f.node ∧ (f.node.requested = false ↔ f.recovering_cap = none)

theorem NodeOk.requested_of_waiting {n : RecoveringNode} (h : NodeOk n) (hw : n.waiting = true) :
    n.requested = true := by
  cases hr : n.requested with
  | true => rfl
  | false => exact nomatch (h.requested hr).1.symm.trans hw

/-- Every case of a request by a client. -/
theorem initiate_cases {f : RecoverFactory κ} (hf : FactoryOk f) (cap : κ) (client : Nat) :
    FactoryOk (f.initiate_recovery cap client).1 ∧
    (f.initiate_recovery cap client).1.clients = f.clients ++ [client] ∧
    (f.initiate_recovery cap client).1.node.requested = true ∧
    (f.node.requested = true → (f.initiate_recovery cap client).1.node = f.node ∧
      (f.initiate_recovery cap client).1.recovering_cap = f.recovering_cap ∧
      ∀ c, sentTo (f.initiate_recovery cap client).1 c = sentTo f c ++
        (if c = client ∧ f.recovering_cap = some cap then f.node.reported.map .update else [])) ∧
    (f.node.requested = false → (f.initiate_recovery cap client).1.recovering_cap = some cap ∧
      ∀ c, ((f.clients ++ [client]).count c = 0 → sentTo (f.initiate_recovery cap client).1 c = sentTo f c) ∧
        ((f.clients ++ [client]).count c = 1 → sentTo (f.initiate_recovery cap client).1 c = sentTo f c ++
          (f.initiate_recovery cap client).1.node.reported.map .update ++
            (if (f.initiate_recovery cap client).1.node.waiting then [] else [.close none]))) := by
  cases hr : f.node.requested with
  | false =>
    obtain ⟨l, hl⟩ := request_reported f.node
    have hrep := (hf.1.requested hr).2.2
    rw [hrep, List.nil_append] at hl
    have hg := go_on_facts { f with clients := f.clients ++ [client], recovering_cap := some cap }
      f.node.request l (by rw [hl]; simp [hrep])
    have hgn := hg.1
    have e : f.initiate_recovery cap client =
        let g := ({ f with clients := f.clients ++ [client], recovering_cap := some cap } : RecoverFactory κ).go_on f.node.request
        if g.node.waiting then (g, .ok ()) else (g.broadcast (.close none), .ok ()) := by
      simp only [RecoverFactory.initiate_recovery, hr, if_true]
    generalize ({ f with clients := f.clients ++ [client], recovering_cap := some cap } : RecoverFactory κ).go_on f.node.request = g at e hg hgn
    obtain ⟨h1, h2, h3, h4⟩ := hg
    simp only at e
    have hs : ∀ c, sentTo ({ f with clients := f.clients ++ [client], recovering_cap := some cap } : RecoverFactory κ) c = sentTo f c :=
      fun _ => rfl
    have hok : FactoryOk g := by
      refine ⟨by rw [hgn]; exact hf.1.request, ?_⟩
      rw [hgn, request_requested, h3]
      exact ⟨fun h => (nomatch h), fun h => (nomatch h)⟩
    by_cases hw : g.node.waiting = true
    · rw [if_pos hw] at e
      rw [e]
      refine ⟨hok, h2, by rw [hgn]; exact request_requested _, fun h => (nomatch h), fun _ => ⟨h3, fun c => ⟨fun h => ?_, fun h => ?_⟩⟩⟩
      · exact (h4 c).1 h
      · simp only
        rw [(h4 c).2 h, hs, if_pos hw, hgn, hl, List.append_nil]
    · rw [if_neg hw] at e
      rw [e]
      refine ⟨hok, h2, by show g.node.requested = true; rw [hgn]; exact request_requested _, fun h => (nomatch h), fun _ => ⟨h3, fun c => ⟨fun h => ?_, fun h => ?_⟩⟩⟩
      · simp only
        rw [sentTo_broadcast, (h4 c).1 h, hs, h2, h]
        exact List.append_nil _
      · simp only
        rw [sentTo_broadcast, (h4 c).2 h, hs, h2, h]
        have : (g.broadcast (.close none)).node = g.node := rfl
        rw [this, if_neg hw, hgn, hl]
        rfl
  | true =>
    simp only [RecoverFactory.initiate_recovery, hr, Bool.true_eq_false, if_false]
    by_cases hc : f.recovering_cap = some cap
    · rw [if_neg (fun h => h hc)]
      refine ⟨⟨hf.1, hf.2⟩, rfl, hr, fun _ => ⟨rfl, rfl, fun c => ?_⟩, fun h => (nomatch h)⟩
      simp only [sentTo, List.filter_append, List.map_append, hc, and_true]
      congr 1
      by_cases h : c = client
      · subst h
        simp only [if_true]
        induction f.node.reported with
        | nil => rfl
        | cons s l ih => simpa using ih
      · rw [if_neg h, List.filter_eq_nil_iff.2]
        · rfl
        · intro e he
          obtain ⟨s, _, rfl⟩ := List.mem_map.1 he
          simp only [beq_iff_eq]
          exact fun h' => h h'.symm
    · rw [if_pos hc]
      refine ⟨⟨hf.1, hf.2⟩, rfl, hr, fun _ => ⟨rfl, rfl, fun c => ?_⟩, fun h => (nomatch h)⟩
      simp only [hc, and_false, if_false, List.append_nil]
      rfl

theorem FactoryOk.step {f : RecoverFactory κ} (hf : FactoryOk f) (utc readonly s) :
    FactoryOk (f.step utc readonly s).1 := by
  cases s with
  | message client payload =>
    simp only [RecoverFactory.step, RecoverFactory.on_message]
    split
    · exact hf
    · exact (initiate_cases hf _ _).1
  | closed client => exact hf
  | call ss =>
    obtain ⟨h1, _, h3, _⟩ := call_go_on utc f ss
    refine ⟨?_, ?_⟩
    · show NodeOk (f.go_on (f.node.step utc (.call ss)).1).node
      rw [h1]; exact hf.1.step utc _
    · show (f.go_on (f.node.step utc (.call ss)).1).node.requested = false ↔
        (f.go_on (f.node.step utc (.call ss)).1).recovering_cap = none
      rw [h1, h3]; exact hf.2
  | progress s =>
    obtain ⟨l, hl⟩ := progress_reported f.node s
    obtain ⟨h1, _, h3, _⟩ := go_on_facts f _ l hl
    refine ⟨?_, ?_⟩
    · show NodeOk (f.go_on (f.node.progress s)).node
      rw [h1]; exact hf.1.progress s
    · show (f.go_on (f.node.progress s)).node.requested = false ↔ (f.go_on (f.node.progress s)).recovering_cap = none
      rw [h1, h3, (progress_same f.node s).1]; exact hf.2
  | downloaded r =>
    simp only [RecoverFactory.step]
    split
    · rename_i hw
      obtain ⟨⟨l, hl⟩, h2, h3⟩ := downloaded_facts hf.1 hw utc r
      obtain ⟨g1, _, g3, _⟩ := go_on_facts f _ l hl
      refine ⟨?_, ?_⟩
      · show NodeOk (f.go_on (f.node.downloaded utc r)).node
        rw [g1]; exact hf.1.downloaded utc r
      · show (f.go_on (f.node.downloaded utc r)).node.requested = false ↔ (f.go_on (f.node.downloaded utc r)).recovering_cap = none
        rw [g1, g3, h3]; exact hf.2
    · exact hf

theorem FactoryOk.started (db : Database) : FactoryOk (startedFactory (κ := κ) db) :=
  ⟨NodeOk.started db, ⟨fun _ => rfl, fun _ => rfl⟩⟩

theorem FactoryOk.run (utc readonly) (ss) : ∀ {f : RecoverFactory κ}, FactoryOk f →
    FactoryOk (f.run utc readonly ss) := by
  induction ss with
  | nil => intro f h; exact h
  | cons s ss ih => intro f h; exact ih (h.step utc readonly s)

theorem factory_append (utc readonly) (ss ts) : ∀ (f : RecoverFactory κ),
    f.run utc readonly (ss ++ ts) = (f.run utc readonly ss).run utc readonly ts := by
  induction ss with
  | nil => intro f; rfl
  | cons s ss ih => intro f; exact ih _

/-! ### Clients that are not in the list -/

theorem absent_step {f : RecoverFactory κ} (hf : FactoryOk f) (utc readonly) {c : Nat} {s : FactoryStep}
    (hs : ∀ payload, s ≠ .message c payload) (h0 : f.clients.count c = 0) :
    (f.step utc readonly s).1.clients.count c = 0 ∧ sentTo (f.step utc readonly s).1 c = sentTo f c := by
  cases s with
  | message client payload =>
    have hne : client ≠ c := fun h => hs payload (by rw [h])
    simp only [RecoverFactory.step, RecoverFactory.on_message]
    split
    · refine ⟨h0, ?_⟩
      simp [sentTo, List.filter_append, hne]
    · rename_i cap _
      obtain ⟨_, h2, _, h4, h5⟩ := initiate_cases hf cap client
      have hcount : (f.clients ++ [client]).count c = 0 := by
        rw [List.count_append, h0, List.count_singleton, if_neg]
        simpa using hne
      refine ⟨by rw [h2]; exact hcount, ?_⟩
      cases hr : f.node.requested with
      | true =>
        rw [(h4 hr).2.2 c, if_neg (fun h => hne h.1.symm), List.append_nil]
      | false => exact ((h5 hr).2 c).1 hcount
  | closed client =>
    refine ⟨?_, rfl⟩
    have : (f.clients.erase client).count c ≤ f.clients.count c := List.erase_sublist.count_le _
    show (f.clients.erase client).count c = 0
    omega
  | call ss =>
    obtain ⟨_, h2, _, h4⟩ := call_go_on utc f ss
    exact ⟨by show (f.go_on (f.node.step utc (.call ss)).1).clients.count c = 0; rw [h2]; exact h0, h4 c⟩
  | progress s =>
    obtain ⟨l, hl⟩ := progress_reported f.node s
    obtain ⟨_, h2, _, h4⟩ := go_on_facts f _ l hl
    exact ⟨by show (f.go_on (f.node.progress s)).clients.count c = 0; rw [h2]; exact h0, (h4 c).1 h0⟩
  | downloaded r =>
    simp only [RecoverFactory.step]
    split
    · rename_i hw
      obtain ⟨⟨l, hl⟩, _, _⟩ := downloaded_facts hf.1 hw utc r
      obtain ⟨_, g2, _, g4⟩ := go_on_facts f _ l hl
      refine ⟨by show (f.go_on (f.node.downloaded utc r)).clients.count c = 0; rw [g2]; exact h0, ?_⟩
      rw [sentTo_broadcast, (g4 c).1 h0, g2, h0]
      exact List.append_nil _
    · exact ⟨h0, rfl⟩

theorem absent_run (utc readonly) {c : Nat} (ss : List FactoryStep) : ∀ {f : RecoverFactory κ}, FactoryOk f →
    Silent c ss → f.clients.count c = 0 →
    (f.run utc readonly ss).clients.count c = 0 ∧ sentTo (f.run utc readonly ss) c = sentTo f c := by
  induction ss with
  | nil => intro f _ _ h; exact ⟨h, rfl⟩
  | cons s ss ih =>
    intro f hf hs h0
    obtain ⟨h1, h2⟩ := absent_step hf utc readonly (s := s)
      (fun p h => hs p (by rw [h]; exact List.mem_cons_self)) h0
    obtain ⟨h3, h4⟩ := ih (hf.step utc readonly s) (fun p h => hs p (List.mem_cons_of_mem _ h)) h1
    exact ⟨h3, h4.trans h2⟩

/-! ### Clients of the recovery -/

/-- What a client of the recovery has been sent; `late`: it asked when the recovery was over. -/
structure ClientOk (late : Bool) (c : Nat) (f : RecoverFactory κ) : Prop where
  ok : FactoryOk f
  once : f.clients.count c = 1
  requested : f.node.requested = true
  over : late = true → f.node.waiting = false
  sent : sentTo f c = f.node.reported.map .update ++
    (if f.node.waiting = true ∨ late = true then [] else [.close none])

theorem ClientOk.step {late c} {f : RecoverFactory κ} (h : ClientOk late c f) (utc readonly) {s : FactoryStep}
    (hs : ∀ payload, s ≠ .message c payload) (hc : s ≠ .closed c) :
    ClientOk late c (f.step utc readonly s).1 := by
  have hok := h.ok.step utc readonly s
  cases s with
  | message client payload =>
    have hne : client ≠ c := fun h => hs payload (by rw [h])
    simp only [RecoverFactory.step, RecoverFactory.on_message] at hok ⊢
    split
    · rename_i e he
      simp only [he] at hok
      refine ⟨hok, h.once, h.requested, h.over, ?_⟩
      rw [← h.sent]
      simp [sentTo, List.filter_append, hne]
    · rename_i cap he
      obtain ⟨_, h2, h3, h4, _⟩ := initiate_cases h.ok cap client
      obtain ⟨k1, _, k3⟩ := h4 h.requested
      simp only [he] at hok
      refine ⟨hok, ?_, h3, ?_, ?_⟩
      · rw [h2, List.count_append, h.once, List.count_singleton, if_neg (by simpa using hne)]
      · rw [k1]; exact h.over
      · rw [k3 c, if_neg (fun h => hne h.1.symm), List.append_nil, h.sent, k1]
  | closed client =>
    have hne : client ≠ c := fun h => hc (by rw [h])
    refine ⟨hok, ?_, h.requested, h.over, h.sent⟩
    show (f.clients.erase client).count c = 1
    rw [List.count_erase_of_ne (fun h => hne h.symm)]
    exact h.once
  | call ss =>
    obtain ⟨h1, h2, _, h4⟩ := call_go_on utc f ss
    refine ⟨hok, ?_, ?_, ?_, ?_⟩
    · show (f.go_on (f.node.step utc (.call ss)).1).clients.count c = 1
      rw [h2]; exact h.once
    · show (f.go_on (f.node.step utc (.call ss)).1).node.requested = true
      rw [h1]; exact h.requested
    · show late = true → (f.go_on (f.node.step utc (.call ss)).1).node.waiting = false
      rw [h1]; exact h.over
    · show sentTo (f.go_on (f.node.step utc (.call ss)).1) c =
        (f.go_on (f.node.step utc (.call ss)).1).node.reported.map .update ++
          (if (f.go_on (f.node.step utc (.call ss)).1).node.waiting = true ∨ late = true then [] else [.close none])
      rw [h4, h1]; exact h.sent
  | progress s =>
    obtain ⟨p1, p2⟩ := progress_same f.node s
    by_cases hp : f.node.waiting = true ∧ (s = .inspect_replica ∨ s = .downloading)
    · have hl : (f.node.progress s).reported = f.node.reported ++ [s] := by
        simp only [RecoveringNode.progress, if_pos hp]; rfl
      obtain ⟨h1, h2, _, h4⟩ := go_on_facts f _ [s] hl
      have hlate : late ≠ true := fun hl => nomatch (h.over hl).symm.trans hp.1
      refine ⟨hok, ?_, ?_, ?_, ?_⟩
      · show (f.go_on (f.node.progress s)).clients.count c = 1
        rw [h2]; exact h.once
      · show (f.go_on (f.node.progress s)).node.requested = true
        rw [h1, p1]; exact h.requested
      · exact fun hl => absurd hl hlate
      · show sentTo (f.go_on (f.node.progress s)) c = (f.go_on (f.node.progress s)).node.reported.map .update ++
          (if (f.go_on (f.node.progress s)).node.waiting = true ∨ late = true then [] else [.close none])
        rw [(h4 c).2 h.once, h.sent, h1, p2, hl, if_pos (Or.inl hp.1)]
        simp
    · have hsame : f.node.progress s = f.node := by simp only [RecoveringNode.progress, if_neg hp]
      have hl : (f.node.progress s).reported = f.node.reported ++ [] := by rw [hsame, List.append_nil]
      obtain ⟨h1, h2, _, h4⟩ := go_on_facts f _ [] hl
      refine ⟨hok, ?_, ?_, ?_, ?_⟩
      · show (f.go_on (f.node.progress s)).clients.count c = 1
        rw [h2]; exact h.once
      · show (f.go_on (f.node.progress s)).node.requested = true
        rw [h1, p1]; exact h.requested
      · show late = true → (f.go_on (f.node.progress s)).node.waiting = false
        rw [h1, p2]; exact h.over
      · show sentTo (f.go_on (f.node.progress s)) c = (f.go_on (f.node.progress s)).node.reported.map .update ++
          (if (f.go_on (f.node.progress s)).node.waiting = true ∨ late = true then [] else [.close none])
        rw [(h4 c).2 h.once, h1, hsame, List.map_nil, List.append_nil]
        exact h.sent
  | downloaded r =>
    simp only [RecoverFactory.step] at hok ⊢
    split
    · rename_i hw
      rw [if_pos hw] at hok
      obtain ⟨⟨l, hl⟩, d2, d3⟩ := downloaded_facts h.ok.1 hw utc r
      obtain ⟨g1, g2, _, g4⟩ := go_on_facts f _ l hl
      have hlate : late ≠ true := fun hl => nomatch (h.over hl).symm.trans hw
      refine ⟨hok, ?_, ?_, ?_, ?_⟩
      · show (f.go_on (f.node.downloaded utc r)).clients.count c = 1
        rw [g2]; exact h.once
      · show (f.go_on (f.node.downloaded utc r)).node.requested = true
        rw [g1, d3]; exact h.requested
      · exact fun hl => absurd hl hlate
      · have hb : ((f.go_on (f.node.downloaded utc r)).broadcast (.close none)).node = f.node.downloaded utc r := g1
        rw [sentTo_broadcast, (g4 c).2 h.once, h.sent, g2, h.once, hb, d2, hl, if_pos (Or.inl hw),
          if_neg (by simp [hlate])]
        simp
    · rename_i hw
      rw [if_neg hw] at hok
      exact h

theorem ClientOk.run (utc readonly) {late c} (ss : List FactoryStep) : ∀ {f : RecoverFactory κ},
    ClientOk late c f → Silent c ss → Stays c ss → ClientOk late c (f.run utc readonly ss) := by
  induction ss with
  | nil => intro f h _ _; exact h
  | cons s ss ih =>
    intro f h hs hc
    exact ih (h.step utc readonly (fun p h => hs p (by rw [h]; exact List.mem_cons_self))
        (fun h => hc (by rw [h]; exact List.mem_cons_self)))
      (fun p h => hs p (List.mem_cons_of_mem _ h)) (fun h => hc (List.mem_cons_of_mem _ h))

/-- A client asks for the active recovery, or for one if there is none. -/
theorem ClientOk.asks {f : RecoverFactory κ} (hf : FactoryOk f) {c : Nat} (h0 : f.clients.count c = 0)
    (hsent : sentTo f c = []) {cap : κ} (hcap : f.recovering_cap = none ∨ f.recovering_cap = some cap) :
    ClientOk (f.node.requested && !f.node.waiting) c (f.initiate_recovery cap c).1 := by
  obtain ⟨h1, h2, h3, h4, h5⟩ := initiate_cases hf cap c
  have hcount : (f.clients ++ [c]).count c = 1 := by
    rw [List.count_append, h0, List.count_singleton]; simp
  refine ⟨h1, by rw [h2]; exact hcount, h3, ?_, ?_⟩
  · intro hl
    simp only [Bool.and_eq_true, Bool.not_eq_true'] at hl
    rw [(h4 hl.1).1]; exact hl.2
  · cases hr : f.node.requested with
    | false =>
      obtain ⟨_, k2⟩ := h5 hr
      rw [(k2 c).2 hcount, hsent, List.nil_append]
      simp
    | true =>
      obtain ⟨k1, _, k3⟩ := h4 hr
      have hcap' : f.recovering_cap = some cap := by
        rcases hcap with h | h
        · exact nomatch hr.symm.trans (hf.2.2 h)
        · exact h
      rw [k3 c, if_pos ⟨rfl, hcap'⟩, hsent, k1, List.nil_append]
      cases f.node.waiting <;> simp

theorem asks_parse {readonly : String → Option κ} {payload cap} (h : Asks readonly payload cap) :
    parse_recovery_request readonly payload = .ok cap := by
  obtain ⟨s, rfl, hs⟩ := h
  simp only [parse_recovery_request, if_true, hs]

theorem parse_asks {readonly : String → Option κ} {payload cap}
    (h : parse_recovery_request readonly payload = .ok cap) : Asks readonly payload cap := by
  unfold parse_recovery_request at h
  split at h
  · split at h
    · rename_i hk
      subst hk
      split at h
      · split at h
        · rename_i s cap' hs
          cases h
          exact ⟨_, rfl, hs⟩
        · exact nomatch h
      · exact nomatch h
    · exact nomatch h
  · exact nomatch h

end ZKAP
