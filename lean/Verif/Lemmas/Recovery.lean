import Verif.Lemmas.WellFormed

/-! Lemmas about recovery. -/
namespace ZKAP
open Spec

/-- Inside a transaction only the working copy changes. -/
theorem executeAll_inside (utc) (ss : List Sql) : ∀ (d0 d : Database) (b : Bool),
    ∃ d' r, Conn.executeAll utc ⟨d0, some d, b⟩ ss = (⟨d0, some d', b⟩, r) ∧
      (r = .ok () → Sql.execAll utc b d ss = .ok d') ∧
      (∀ e, r = .error e → Sql.execAll utc b d ss = .error e) := by
  induction ss with
  | nil => intro d0 d b; exact ⟨d, .ok (), rfl, fun _ => rfl, fun _ h => nomatch h⟩
  | cons s ss ih =>
    intro d0 d b
    cases he : s.exec utc b d with
    | error e =>
      refine ⟨d, .error e, ?_, fun h => (nomatch h), ?_⟩
      · simp only [Conn.executeAll, Conn.execute, he]
      · intro e' h
        cases h
        simp only [Sql.execAll, he]
    | ok d1 =>
      obtain ⟨d', r, h1, h2, h3⟩ := ih d0 d1 b
      refine ⟨d', r, ?_, ?_, ?_⟩
      · simp only [Conn.executeAll, Conn.execute, he]
        exact h1
      · intro h
        simp only [Sql.execAll, he]
        exact h2 h
      · intro e h
        simp only [Sql.execAll, he]
        exact h3 e h

/-- A call outside any transaction is a transaction of its own. -/
theorem call_closed (utc) (c : Conn Database) (ss : List Sql) (hc : c.working = none) :
    c.call utc ss = match Sql.execAll utc false c.committed ss with
      | .ok d => (⟨d, none, false⟩, .ok ())
      | .error e => (⟨c.committed, none, false⟩, .error e) := by
  obtain ⟨d0, w, b⟩ := c
  simp only at hc
  subst hc
  obtain ⟨d', r, h1, h2, h3⟩ := executeAll_inside utc ss d0 d0 false
  simp only [Conn.call, Conn.with_cursor, Conn.begin, h1]
  cases r with
  | ok u => rw [h2 rfl]; rfl
  | error e => rw [h3 e rfl]; rfl

/-- A call inside the transaction of something else raises and ends that transaction. -/
theorem call_open (utc) (c : Conn Database) (ss : List Sql) (d : Database) (hc : c.working = some d) :
    c.call utc ss = (c.rollback, .error .operationalError) := by
  simp only [Conn.call, Conn.with_cursor, Conn.begin, hc, Conn.exit]

theorem call_working (utc) (c : Conn Database) (ss : List Sql) : (c.call utc ss).1.working = none := by
  cases hc : c.working with
  | some d => rw [call_open utc c ss d hc]; rfl
  | none =>
    rw [call_closed utc c ss hc]
    split <;> rfl

theorem call_error (utc) (c : Conn Database) (ss : List Sql) (h : (c.call utc ss).2 ≠ .ok ()) :
    (c.call utc ss).1.committed = c.committed := by
  cases hc : c.working with
  | some d => rw [call_open utc c ss d hc]; rfl
  | none =>
    rw [call_closed utc c ss hc] at h ⊢
    split
    · rename_i hx
      rw [hx] at h
      exact absurd rfl h
    · rfl

/-! ### Statements that keep vouchers -/

theorem insertRow_numbers {db db' : Database} {b n row} (h : db.insertRow b n row = .ok db') {v : Value}
    (hv : v ∈ voucherNumbers db) : v ∈ voucherNumbers db' := by
  obtain ⟨t, row', sq, ht, _, rfl⟩ := insertRow_ok h
  simp only [voucherNumbers] at hv ⊢
  have : ({ db.modify n (fun t => { t with rows := t.rows ++ [row'] }) with sequence := sq } : Database).find "vouchers" =
      (db.modify n (fun t => { t with rows := t.rows ++ [row'] })).find "vouchers" := rfl
  rw [this, find_modify _ _ _ _ (by intro t; rfl)]
  by_cases hn : "vouchers" = n
  · rw [if_pos hn]
    cases hf : db.find "vouchers" with
    | none => rw [hf] at hv; exact nomatch hv
    | some u =>
      rw [hf] at hv
      simp only [Option.map_some, Table.values, List.map_append, List.mem_append] at hv ⊢
      exact Or.inl hv
  · rw [if_neg hn]
    exact hv

theorem exec_numbers {utc b} {db db' : Database} {s : Sql} (hs : keepsVouchers s = true)
    (h : s.exec utc b db = .ok db') {v : Value} (hv : v ∈ voucherNumbers db) : v ∈ voucherNumbers db' := by
  cases s with
  | insert n row => exact insertRow_numbers h hv
  | insertNamed n named =>
    simp only [Sql.exec] at h
    split at h
    · exact nomatch h
    · split at h
      · exact nomatch h
      · exact insertRow_numbers h hv
  | insertOrIgnore n named =>
    simp only [Sql.exec] at h
    split at h
    · exact nomatch h
    · split at h
      · exact nomatch h
      · split at h
        · cases h; exact hv
        · exact insertRow_numbers h hv
  | update n sets wheres =>
    simp only [Sql.exec] at h
    split at h
    · exact nomatch h
    · rename_i t ht
      split at h
      · exact nomatch h
      · split at h
        · cases h
          simp only [voucherNumbers] at hv ⊢
          rw [find_modify _ _ _ _ (by intro t; rfl)]
          by_cases hn : "vouchers" = n
          · rw [if_pos hn]
            subst hn
            rw [ht] at hv ⊢
            simp only [keepsVouchers, bne_self_eq_false, Bool.false_or, List.all_eq_true, bne_iff_ne] at hs
            obtain ⟨row, hr, he⟩ := List.mem_map.1 hv
            refine List.mem_map.2 ⟨_, List.mem_map.2 ⟨row, hr, rfl⟩, ?_⟩
            simp only
            split
            · rw [get_assign _ _ _ _ hs]; exact he
            · exact he
          · rw [if_neg hn]
            exact hv
        · exact nomatch h
  | delete n wheres =>
    simp only [Sql.exec] at h
    split at h
    · exact nomatch h
    · split at h
      · exact nomatch h
      · split at h
        · cases h
          simp only [voucherNumbers] at hv ⊢
          rw [find_modify _ _ _ _ (by intro t; rfl), if_neg]
          · exact hv
          · intro hn
            subst hn
            exact nomatch hs
        · exact nomatch h
  | _ => exact nomatch hs

theorem execAll_numbers {utc b} {ss : List Sql} (hs : ∀ s ∈ ss, keepsVouchers s = true) {v : Value} :
    ∀ {db db' : Database}, Sql.execAll utc b db ss = .ok db' → v ∈ voucherNumbers db →
      v ∈ voucherNumbers db' := by
  induction ss with
  | nil => intro db db' h hv; cases h; exact hv
  | cons s ss ih =>
    intro db db' h hv
    simp only [Sql.execAll] at h
    cases he : s.exec utc b db with
    | error e => rw [he] at h; exact nomatch h
    | ok d1 =>
      rw [he] at h
      exact ih (fun x hx => hs x (List.mem_cons_of_mem _ hx)) h
        (exec_numbers (hs s List.mem_cons_self) he hv)

theorem call_numbers {utc} {c : Conn Database} {ss : List Sql} (hs : ∀ s ∈ ss, keepsVouchers s = true)
    {v : Value} (hv : v ∈ voucherNumbers c.committed) : v ∈ voucherNumbers (c.call utc ss).1.committed := by
  cases hc : c.working with
  | some d => rw [call_open utc c ss d hc]; exact hv
  | none =>
    rw [call_closed utc c ss hc]
    split
    · rename_i d hd
      exact execAll_numbers hs hd hv
    · exact hv

/-! ### What a node can look like -/

/-- What holds of a node at any time. -/
structure NodeOk (n : RecoveringNode) : Prop where
  /-- Only a waiting recovery has an open transaction, and it has not changed anything. -/
  working : n.conn.working = none ∨
    (n.waiting = true ∧ n.conn.working = some n.conn.committed ∧ n.conn.deferred = false)
  requested : n.requested = false → n.waiting = false ∧ n.stage = .inactive ∧ n.reported = []
  waiting : n.waiting = true → ∃ ds, (∀ s ∈ ds, downloadStage s) ∧ n.reported = .started :: ds

theorem NodeOk.started (db : Database) : NodeOk (startedNode db) :=
  ⟨Or.inl rfl, fun _ => ⟨rfl, rfl, rfl⟩, fun h => nomatch h⟩

theorem begin_if_empty_closed (c : Conn Database) (hc : c.working = none) :
    c.begin_if_empty = match c.committed.find "vouchers" with
      | none => (⟨c.committed, none, false⟩, .error .operationalError)
      | some t => if t.rows = [] then (⟨c.committed, some c.committed, false⟩, .ok ())
          else (⟨c.committed, none, false⟩, .error .notEmpty) := by
  obtain ⟨d0, w, b⟩ := c
  simp only at hc
  subst hc
  simp only [Conn.begin_if_empty, Conn.begin, Conn.current, Option.getD_some]
  cases d0.find "vouchers" with
  | none => rfl
  | some t =>
    simp only
    split <;> rfl

theorem exit_working (c : Conn Database) : (c.exit Database.foreignOk (.ok ())).1.working = none := by
  obtain ⟨d0, w, b⟩ := c
  cases w with
  | none => rfl
  | some d =>
    simp only [Conn.exit, Conn.commit]
    by_cases h : (!b || d.foreignOk) = true
    · rw [if_pos h]
    · rw [if_neg h]; rfl

theorem NodeOk.request {n : RecoveringNode} (h : NodeOk n) : NodeOk n.request := by
  unfold RecoveringNode.request
  split
  · exact h
  · rename_i hr
    simp only [Bool.not_eq_true] at hr
    obtain ⟨hw, hs, hrep⟩ := h.requested hr
    have hc : n.conn.working = none := by
      rcases h.working with h | h
      · exact h
      · rw [hw] at h; exact nomatch h.1
    rw [begin_if_empty_closed _ hc]
    split
    · rename_i c e he
      refine ⟨Or.inl ?_, fun h => (nomatch h), fun h => ?_⟩
      · split at he
        · cases he; rfl
        · split at he
          · exact nomatch (Prod.mk.inj he).2
          · cases he; rfl
      · exact nomatch hw.symm.trans h
    · rename_i c he
      have hcw : c = ⟨n.conn.committed, some n.conn.committed, false⟩ := by
        split at he
        · exact nomatch (Prod.mk.inj he).2
        · split at he
          · exact (Prod.mk.inj he).1.symm
          · exact nomatch (Prod.mk.inj he).2
      rw [if_neg (by simp [hs])]
      subst hcw
      exact ⟨Or.inr ⟨rfl, rfl, rfl⟩, fun h => (nomatch h), fun _ => ⟨[], fun _ h => (nomatch h), by
        simp [RecoveringNode.set_state, hrep]⟩⟩

theorem NodeOk.progress {n : RecoveringNode} (h : NodeOk n) (s) : NodeOk (n.progress s) := by
  unfold RecoveringNode.progress
  split
  · rename_i hs
    refine ⟨h.working, fun hr => ?_, fun hw => ?_⟩
    · exact nomatch (h.requested hr).1.symm.trans hs.1
    · obtain ⟨ds, h1, h2⟩ := h.waiting hs.1
      refine ⟨ds ++ [s], ?_, ?_⟩
      · intro x hx
        rcases List.mem_append.1 hx with hx | hx
        · exact h1 x hx
        · rw [List.mem_singleton.1 hx]; exact hs.2
      · simp [RecoveringNode.set_state, h2]
  · exact h

theorem exit_closed (c : Conn Database) (h : c.working = none) :
    c.exit Database.foreignOk (.ok ()) = (c, .ok ()) := by
  simp only [Conn.exit, Conn.commit, h]

/-- A download that failed ends the recovery and changes nothing. -/
theorem downloaded_error (utc) {n : RecoveringNode} (h : NodeOk n) (hw : n.waiting = true) (e) :
    (n.downloaded utc (.error e)).conn.working = none ∧
    (n.downloaded utc (.error e)).conn.committed = n.conn.committed ∧
    (n.downloaded utc (.error e)).waiting = false ∧
    (n.downloaded utc (.error e)).requested = n.requested ∧
    (n.downloaded utc (.error e)).reported = n.reported ++ [.download_failed] ∧
    (n.downloaded utc (.error e)).stage = .download_failed := by
  have hexit : ∃ c', n.conn.exit Database.foreignOk (.ok ()) = (c', .ok ()) ∧ c'.working = none ∧
      c'.committed = n.conn.committed := by
    rcases h.working with h | ⟨_, h1, h2⟩
    · exact ⟨_, exit_closed _ h, h, rfl⟩
    · refine ⟨_, exit_ok _ h2 (), rfl, ?_⟩
      simp only [Conn.current, h1, Option.getD_some]
  obtain ⟨c', h1, h2, h3⟩ := hexit
  have : n.downloaded utc (.error e) =
      { { n with waiting := false }.set_state .download_failed with conn := c' } := by
    simp only [RecoveringNode.downloaded, hw, if_true, RecoveringNode.set_state, h1]
  rw [this]
  exact ⟨h2, h3, rfl, rfl, rfl, rfl⟩

/-- What a replica that was downloaded leads to. -/
theorem downloaded_ok (utc) {n : RecoveringNode} (hw : n.waiting = true) (replica) {c res}
    (hr : n.conn.recover utc replica = (c, res)) {c' res'}
    (he : c.exit Database.foreignOk (.ok ()) = (c', res')) :
    (n.downloaded utc (.ok replica)).conn = c' ∧
    (n.downloaded utc (.ok replica)).waiting = false ∧
    (n.downloaded utc (.ok replica)).requested = n.requested ∧
    (n.downloaded utc (.ok replica)).reported = n.reported ++
      ((if res = .ok () then .succeeded else .import_failed) ::
        (if res' = .ok () then [] else [.import_failed])) ∧
    (n.downloaded utc (.ok replica)).stage =
      if res = .ok () ∧ res' = .ok () then .succeeded else .import_failed := by
  cases res with
  | error e =>
    cases res' with
    | error e' =>
      have : n.downloaded utc (.ok replica) =
          { { n with conn := c, waiting := false }.set_state .import_failed with conn := c' }.set_state .import_failed := by
        simp only [RecoveringNode.downloaded, hw, if_true, hr, RecoveringNode.set_state, he]
      rw [this]
      refine ⟨rfl, rfl, rfl, ?_, by simp [RecoveringNode.set_state]⟩
      simp [RecoveringNode.set_state]
    | ok u =>
      have : n.downloaded utc (.ok replica) =
          { { n with conn := c, waiting := false }.set_state .import_failed with conn := c' } := by
        simp only [RecoveringNode.downloaded, hw, if_true, hr, RecoveringNode.set_state, he]
      rw [this]
      refine ⟨rfl, rfl, rfl, ?_, by simp [RecoveringNode.set_state]⟩
      simp [RecoveringNode.set_state]
  | ok u =>
    cases res' with
    | error e' =>
      have : n.downloaded utc (.ok replica) =
          { { n with conn := c, waiting := false }.set_state .succeeded with conn := c' }.set_state .import_failed := by
        simp only [RecoveringNode.downloaded, hw, if_true, hr, RecoveringNode.set_state, he]
      rw [this]
      refine ⟨rfl, rfl, rfl, ?_, by simp [RecoveringNode.set_state]⟩
      simp [RecoveringNode.set_state]
    | ok u =>
      have : n.downloaded utc (.ok replica) =
          { { n with conn := c, waiting := false }.set_state .succeeded with conn := c' } := by
        simp only [RecoveringNode.downloaded, hw, if_true, hr, RecoveringNode.set_state, he]
      rw [this]
      refine ⟨rfl, rfl, rfl, ?_, by simp [RecoveringNode.set_state]⟩
      simp [RecoveringNode.set_state]

theorem NodeOk.downloaded {n : RecoveringNode} (h : NodeOk n) (utc) (r) : NodeOk (n.downloaded utc r) := by
  by_cases hw : n.waiting = true
  · have hreq : n.requested = true := by
      cases hr : n.requested with
      | true => rfl
      | false => exact nomatch (h.requested hr).1.symm.trans hw
    cases r with
    | error e =>
      obtain ⟨h1, _, h3, h4, _⟩ := downloaded_error utc h hw e
      refine ⟨Or.inl h1, fun hr => ?_, fun hw' => ?_⟩
      · exact nomatch hr.symm.trans (h4.trans hreq)
      · exact nomatch hw'.symm.trans h3
    | ok replica =>
      obtain ⟨h1, h2, h3, _⟩ := downloaded_ok utc hw replica rfl
        rfl
      refine ⟨Or.inl ?_, fun hr => ?_, fun hw' => ?_⟩
      · rw [h1]; exact exit_working _
      · exact nomatch hr.symm.trans (h3.trans hreq)
      · exact nomatch hw'.symm.trans h2
  · simp only [RecoveringNode.downloaded, hw]
    exact h

theorem NodeOk.call {n : RecoveringNode} (h : NodeOk n) (utc) (ss) :
    NodeOk { n with conn := (n.conn.call utc ss).1 } :=
  ⟨Or.inl (call_working utc n.conn ss), h.requested, h.waiting⟩

theorem NodeOk.step {n : RecoveringNode} (h : NodeOk n) (utc) (s) : NodeOk (n.step utc s).1 := by
  cases s with
  | call ss => exact h.call utc ss
  | request => exact h.request
  | progress s => exact h.progress s
  | downloaded r => exact h.downloaded utc r

theorem NodeOk.run (utc) (ss) : ∀ {n : RecoveringNode}, NodeOk n → NodeOk (n.run utc ss) := by
  induction ss with
  | nil => intro n h; exact h
  | cons s ss ih => intro n h; exact ih (h.step utc s)

theorem recovering_append (utc) (ss ts) : ∀ (n : RecoveringNode),
    n.run utc (ss ++ ts) = (n.run utc ss).run utc ts := by
  induction ss with
  | nil => intro n; rfl
  | cons s ss ih => intro n; exact ih _

/-! ### No voucher is lost if nothing is accepted while a recovery waits -/

theorem numbers_rows {db : Database} {v : Value} (h : v ∈ voucherNumbers db) :
    ∃ t, db.find "vouchers" = some t ∧ t.rows ≠ [] := by
  simp only [voucherNumbers] at h
  split at h
  · exact nomatch h
  · rename_i t ht
    refine ⟨t, ht, ?_⟩
    intro hr
    simp only [Table.values, hr] at h
    exact nomatch h

theorem request_refused {n : RecoveringNode} (hn : NodeOk n) (hr : n.requested = false) {t : Table}
    (ht : n.conn.committed.find "vouchers" = some t) (hne : t.rows ≠ []) :
    n.request = { n with conn := ⟨n.conn.committed, none, false⟩, requested := true }.set_state .import_failed := by
  obtain ⟨hw, _, _⟩ := hn.requested hr
  have hc : n.conn.working = none := by
    rcases hn.working with h | h
    · exact h
    · exact nomatch hw.symm.trans h.1
  simp only [RecoveringNode.request, hr, Bool.false_eq_true, if_false, begin_if_empty_closed _ hc, ht,
    if_neg hne]

/-- In a waiting node there is no voucher. -/
def WaitingEmpty (n : RecoveringNode) : Prop :=
  n.waiting = true → voucherNumbers n.conn.committed = []

theorem WaitingEmpty.step {utc} {n : RecoveringNode} (hn : NodeOk n) (he : WaitingEmpty n) (s)
    (hs : n.waiting = true → ∀ ss, s = .call ss → (n.step utc s).2 ≠ .ok ()) :
    WaitingEmpty (n.step utc s).1 := by
  intro hw
  cases s with
  | call ss =>
    have hw' : n.waiting = true := hw
    have := hs hw' ss rfl
    simp only [RecoveringNode.step] at this ⊢
    rw [call_error utc n.conn ss this]
    exact he hw'
  | request =>
    simp only [RecoveringNode.step] at hw ⊢
    cases hr : n.requested with
    | true =>
      simp only [RecoveringNode.request, hr, if_true] at hw ⊢
      exact he hw
    | false =>
      cases hv : voucherNumbers n.conn.committed with
      | nil =>
        obtain ⟨hw0, hs0, _⟩ := hn.requested hr
        have hc : n.conn.working = none := by
          rcases hn.working with h | h
          · exact h
          · exact nomatch hw0.symm.trans h.1
        simp only [RecoveringNode.request, hr, Bool.false_eq_true, if_false, begin_if_empty_closed _ hc] at hw ⊢
        cases hf : n.conn.committed.find "vouchers" with
        | none => exact hv
        | some t =>
          simp only
          by_cases hrows : t.rows = []
          · simp only [if_pos hrows, hs0, ne_eq, not_true_eq_false, if_false]
            exact hv
          · simp only [if_neg hrows]
            exact hv
      | cons v vs =>
        obtain ⟨t, ht, hne⟩ := numbers_rows (v := v) (by rw [hv]; exact List.mem_cons_self)
        rw [request_refused hn hr ht hne] at hw
        exact nomatch (hn.requested hr).1.symm.trans hw
  | progress s =>
    simp only [RecoveringNode.step, RecoveringNode.progress] at hw ⊢
    split
    · rename_i h
      exact he h.1
    · rename_i h
      rw [if_neg h] at hw
      exact he hw
  | downloaded r =>
    simp only [RecoveringNode.step] at hw ⊢
    by_cases hw0 : n.waiting = true
    · cases r with
      | error e => exact nomatch (downloaded_error utc hn hw0 e).2.2.1.symm.trans hw
      | ok replica =>
        have := (downloaded_ok utc hw0 replica rfl
          rfl).2.1
        exact nomatch this.symm.trans hw
    · simp only [RecoveringNode.downloaded, hw0] at hw ⊢
      exact absurd hw hw0

theorem numbers_step {utc} {n : RecoveringNode} (hn : NodeOk n) (he : WaitingEmpty n) (s)
    (hk : ∀ ss, s = .call ss → ∀ x ∈ ss, keepsVouchers x = true) {v : Value}
    (hv : v ∈ voucherNumbers n.conn.committed) : v ∈ voucherNumbers (n.step utc s).1.conn.committed := by
  have hnw : n.waiting = false := by
    cases hw : n.waiting with
    | false => rfl
    | true => rw [he hw] at hv; exact nomatch hv
  cases s with
  | call ss => exact call_numbers (hk ss rfl) hv
  | request =>
    simp only [RecoveringNode.step]
    cases hr : n.requested with
    | true => simp only [RecoveringNode.request, hr, if_true]; exact hv
    | false =>
      obtain ⟨t, ht, hne⟩ := numbers_rows hv
      rw [request_refused hn hr ht hne]
      exact hv
  | progress s =>
    simp only [RecoveringNode.step, RecoveringNode.progress, hnw, Bool.false_eq_true, false_and, if_false]
    exact hv
  | downloaded r =>
    simp only [RecoveringNode.step, RecoveringNode.downloaded, hnw, Bool.false_eq_true, if_false]
    exact hv

theorem numbers_run (utc) (ss : List RecoveryStep) : ∀ {n : RecoveringNode}, NodeOk n → WaitingEmpty n →
    CallsKeepVouchers ss → NoCallSucceedsWhileWaiting utc n ss → ∀ {v : Value},
    v ∈ voucherNumbers n.conn.committed → v ∈ voucherNumbers (n.run utc ss).conn.committed := by
  induction ss with
  | nil => intro n _ _ _ _ v hv; exact hv
  | cons s ss ih =>
    intro n hn he hk hq v hv
    exact ih (hn.step utc s) (he.step hn s hq.1) (fun x hx => hk x (List.mem_cons_of_mem _ hx)) hq.2
      (numbers_step hn he s (fun x hx => hk x (by rw [hx]; exact List.mem_cons_self)) hv)

theorem waitingEmpty_run (utc) (ss : List RecoveryStep) : ∀ {n : RecoveringNode}, NodeOk n → WaitingEmpty n →
    NoCallSucceedsWhileWaiting utc n ss → WaitingEmpty (n.run utc ss) := by
  induction ss with
  | nil => intro n _ h _; exact h
  | cons s ss ih =>
    intro n hn he hq
    exact ih (hn.step utc s) (he.step hn s hq.1) hq.2

theorem quiet_append (utc) (ss ts : List RecoveryStep) : ∀ {n : RecoveringNode},
    NoCallSucceedsWhileWaiting utc n (ss ++ ts) → NoCallSucceedsWhileWaiting utc n ss ∧
      NoCallSucceedsWhileWaiting utc (n.run utc ss) ts := by
  induction ss with
  | nil => intro n h; exact ⟨trivial, h⟩
  | cons s ss ih =>
    intro n h
    exact ⟨⟨h.1, (ih h.2).1⟩, (ih h.2).2⟩

/-! ### The usual course of a recovery -/

theorem empty_vouchers {db : Database} (h : OfVersion currentVersion db) (he : NoVouchers db) :
    ∃ t, db.find "vouchers" = some t ∧ t.rows = [] := by
  have h1 : (db.find "vouchers").isSome := by
    simp only [Database.find, List.find?_isSome]
    have : ∃ d ∈ schemaAt currentVersion, d.name = "vouchers" := by decide +kernel
    obtain ⟨d, hd, hn⟩ := this
    rw [← h.tables] at hd
    obtain ⟨t, ht, rfl⟩ := List.mem_map.1 hd
    exact ⟨t, ht, by simpa using hn⟩
  obtain ⟨t, ht⟩ := Option.isSome_iff_exists.1 h1
  exact ⟨t, ht, he t (find_mem ht) (find_name ht)⟩

theorem run_progress (utc) : ∀ (ds : List RecoveryStages) (n : RecoveringNode), n.waiting = true →
    (∀ s ∈ ds, downloadStage s) →
    n.run utc (ds.map .progress) = { n with stage := (n.stage :: ds).getLast (List.cons_ne_nil _ _),
                                            reported := n.reported ++ ds } := by
  intro ds
  induction ds with
  | nil => intro n _ _; simp [RecoveringNode.run]
  | cons s ds ih =>
    intro n hw hd
    simp only [List.map_cons, RecoveringNode.run, RecoveringNode.step, RecoveringNode.progress, hw, true_and]
    rw [if_pos (show s = .inspect_replica ∨ s = .downloading from hd s List.mem_cons_self),
      ih (n.set_state s) hw (fun x hx => hd x (List.mem_cons_of_mem _ hx))]
    simp [RecoveringNode.set_state, List.getLast_cons, hw]

/-- The node after recovery was requested of an empty store. -/
theorem request_started {db : Database} (h : OfVersion currentVersion db) (he : NoVouchers db) :
    (startedNode db).request = { conn := ⟨db, some db, false⟩, requested := true, waiting := true,
                                 stage := .started, reported := [.started] } := by
  obtain ⟨t, ht, hr⟩ := empty_vouchers h he
  have hc : (startedNode db).conn.working = none := rfl
  have hdb : (startedNode db).conn.committed = db := rfl
  have hb := begin_if_empty_closed _ hc
  rw [hdb] at hb
  simp only [ht, if_pos hr] at hb
  simp only [RecoveringNode.request, hb]
  rfl

/-! ### Calls keep a database well-formed -/

theorem Spec.WellFormed.execAll {utc} {ss : List Sql} (hs : ∀ s ∈ ss, storeStatement s = true) :
    ∀ {db db' : Database}, WellFormed db → Sql.execAll utc false db ss = .ok db' → WellFormed db' := by
  induction ss with
  | nil => intro db db' hw h; cases h; exact hw
  | cons s ss ih =>
    intro db db' hw h
    simp only [Sql.execAll] at h
    cases he : s.exec utc false db with
    | error e => rw [he] at h; exact nomatch h
    | ok d1 =>
      rw [he] at h
      exact ih (fun x hx => hs x (List.mem_cons_of_mem _ hx)) (hw.exec (hs s List.mem_cons_self) he) h

theorem Spec.WellFormed.call {utc} {c : Conn Database} (hw : WellFormed c.committed) {ss : List Sql}
    (hs : ∀ s ∈ ss, storeStatement s = true) : WellFormed (c.call utc ss).1.committed := by
  cases hc : c.working with
  | some d => rw [call_open utc c ss d hc]; exact hw
  | none =>
    rw [call_closed utc c ss hc]
    split
    · rename_i d hd
      exact hw.execAll hs hd
    · exact hw

theorem Spec.WellFormed.calls {utc} (calls : List (List Sql))
    (hcalls : ∀ ss ∈ calls, ∀ s ∈ ss, storeStatement s = true) :
    ∀ {n : RecoveringNode}, WellFormed n.conn.committed →
      WellFormed (n.run utc (calls.map .call)).conn.committed := by
  induction calls with
  | nil => intro n h; exact h
  | cons ss calls ih =>
    intro n h
    exact ih (fun x hx => hcalls x (List.mem_cons_of_mem _ hx)) (h.call (hcalls ss List.mem_cons_self))

/-- A database with no rows but a version is well-formed. -/
theorem wellFormed_new {db : Database} (h : OfVersion currentVersion db)
    (hr : ∀ t ∈ db.tables, t.schema.name ≠ "version" → t.rows = []) (hs : db.sequence = some []) :
    WellFormed db := by
  have hver : ∀ t ∈ db.tables, t.rows ≠ [] → t.schema.key = .none ∧ t.schema.foreign = [] ∧
      ∀ c ∈ t.schema.columns, c.notNull = false := by
    intro t ht hne
    have hn : t.schema.name = "version" := by
      apply Classical.byContradiction
      intro hn
      exact hne (hr t ht hn)
    have : ∀ d ∈ schemaAt currentVersion, d.name = "version" → d.key = .none ∧ d.foreign = [] ∧
      ∀ c ∈ d.columns, c.notNull = false := by decide +kernel
    exact this _ (mem_schemas h ht) hn
  have hrow : ∀ t ∈ db.tables, ∀ row ∈ t.rows, t.rows ≠ [] := by
    intro t _ row hrow e
    rw [e] at hrow
    exact nomatch hrow
  have hnames : db.tables.map (·.schema.name) = (schemaAt currentVersion).map (·.name) := by
    rw [← h.tables, List.map_map]
    rfl
  refine ⟨?_, ?_, ?_, ?_, ?_, ?_, ?_⟩
  · rw [hnames]; decide +kernel
  · intro t ht
    have : ∀ d ∈ schemaAt currentVersion, reservedName d.name = false := by decide +kernel
    exact this _ (mem_schemas h ht)
  · intro t ht
    refine ⟨h.rows t ht, ?_, ?_, ?_⟩
    · intro row hm c hc hcn
      exact nomatch ((hver t ht (hrow t ht row hm)).2.2 c hc).symm.trans hcn
    · intro c hc
      by_cases he : t.rows = []
      · rw [he]; exact List.Pairwise.nil
      · rw [(hver t ht he).1] at hc
        exact nomatch hc
    · intro c hc row hm
      rw [(hver t ht (hrow t ht row hm)).1] at hc
      rcases hc with hc | hc <;> exact nomatch hc
  · intro t ht f hf
    have : ∀ d ∈ schemaAt currentVersion, ∀ f ∈ d.foreign, ∃ p ∈ schemaAt currentVersion,
        p.name = f.parent ∧ p.key.column = some f.parentColumn := by decide +kernel
    obtain ⟨p, hp, h1, h2⟩ := this _ (mem_schemas h ht) f hf
    rw [← h.tables] at hp
    obtain ⟨u, hu, rfl⟩ := List.mem_map.1 hp
    exact ⟨u, hu, h1, h2⟩
  · intro t ht row hm f hf
    rw [(hver t ht (hrow t ht row hm)).2.1] at hf
    exact nomatch hf
  · intro s _
    have : ∃ d ∈ schemaAt currentVersion, d.key = .autoincrement "sequence-number" := by decide +kernel
    obtain ⟨d, hd, hk⟩ := this
    rw [← h.tables] at hd
    obtain ⟨u, hu, rfl⟩ := List.mem_map.1 hd
    exact ⟨u, hu, _, hk⟩
  · intro t ht c hc
    refine ⟨[], hs, ?_⟩
    intro row hm
    rw [(hver t ht (hrow t ht row hm)).1] at hc
    exact nomatch hc

/-! ### After the end of a recovery -/

theorem run_ended (utc) (steps : List RecoveryStep) : ∀ (n : RecoveringNode), (∀ ss, .call ss ∉ steps) →
    n.requested = true → n.waiting = false → n.run utc steps = n := by
  induction steps with
  | nil => intro n _ _ _; rfl
  | cons s steps ih =>
    intro n hs hr hw
    have hstep : (n.step utc s).1 = n := by
      cases s with
      | call ss => exact absurd List.mem_cons_self (hs ss)
      | request => simp only [RecoveringNode.step, RecoveringNode.request, hr, if_true]
      | progress s => simp only [RecoveringNode.step, RecoveringNode.progress, hw, Bool.false_eq_true, false_and, if_false]
      | downloaded r => simp only [RecoveringNode.step, RecoveringNode.downloaded, hw, Bool.false_eq_true, if_false]
    rw [RecoveringNode.run, hstep]
    exact ih n (fun ss h => hs ss (List.mem_cons_of_mem _ h)) hr hw

/-! ### An import only changes the open transaction -/

theorem create_tables_inside (utc) (ss : List (Option Sql)) : ∀ (d0 d : Database) (b : Bool),
    ∃ d' r, Conn.create_tables utc ⟨d0, some d, b⟩ ss = (⟨d0, some d', b⟩, r) := by
  induction ss with
  | nil => intro d0 d b; exact ⟨d, _, rfl⟩
  | cons s ss ih =>
    intro d0 d b
    cases s with
    | none => exact ⟨d, _, rfl⟩
    | some s =>
      simp only [Conn.create_tables]
      split
      · simp only [Conn.sql, Conn.execute]
        cases he : s.exec utc b d with
        | error e => exact ⟨d, _, rfl⟩
        | ok d' => exact ih d0 d' b
      · obtain ⟨d', r, h⟩ := ih d0 d b
        rw [h]
        cases r with
        | error e => exact ⟨d', _, rfl⟩
        | ok dml =>
          simp only
          split <;> exact ⟨d', _, rfl⟩

theorem recover_inside (utc) (replica) (d0 d : Database) (b : Bool) :
    ∃ d' b' r, Conn.recover utc ⟨d0, some d, b⟩ replica = (⟨d0, some d', b'⟩, r) := by
  simp only [Conn.recover]
  cases hs : replica.snapshot with
  | error e => exact ⟨d, b, _, rfl⟩
  | ok statements =>
    simp only [Conn.recover_snapshot]
    obtain ⟨d1, r1, h1, _⟩ := executeAll_inside utc
      ((Conn.mk d0 (some d) b).current.tables.map fun t => .dropTable t.schema.name) d0 d b
    rw [h1]
    cases r1 with
    | error e => exact ⟨d1, b, _, rfl⟩
    | ok u =>
      simp only [Conn.defer]
      obtain ⟨d2, r2, h2⟩ := create_tables_inside utc statements d0 d1 true
      rw [h2]
      cases r2 with
      | error e => exact ⟨d2, true, _, rfl⟩
      | ok dml =>
        simp only
        obtain ⟨d3, r3, h3, _⟩ := executeAll_inside utc dml d0 d2 true
        rw [h3]
        cases r3 with
        | error e => exact ⟨d3, true, _, rfl⟩
        | ok u =>
          simp only
          split
          · exact ⟨d3, true, _, rfl⟩
          · rename_i streams _
            obtain ⟨d4, r4, h4, _⟩ := executeAll_inside utc
              ((sort_event_streams streams).flatMap event_statements) d0 d3 true
            exact ⟨d4, true, r4, h4⟩

theorem recover_committed (utc) {d0 d : Database} {b : Bool} {replica c r}
    (h : Conn.recover utc ⟨d0, some d, b⟩ replica = (c, r)) : c.committed = d0 := by
  obtain ⟨d', b', r', h'⟩ := recover_inside utc replica d0 d b
  rw [h'] at h
  cases h
  rfl

/-! ### Reports -/

/-- What can be reported: what is documented, and `import_failed` after the end of an import. -/
def ReportShape (l : List RecoveryStages) : Prop :=
  DocumentedReports l ∨
    ∃ ds, (∀ s ∈ ds, downloadStage s) ∧ ∃ f, (f = .succeeded ∨ f = .import_failed) ∧
      l = .started :: ds ++ [f, .import_failed]

/-- The reports of a node, and how they are related to its state. -/
def Reporting (n : RecoveringNode) : Prop := ReportShape n.reported

theorem Reporting.started (db : Database) : Reporting (startedNode db) := Or.inl (Or.inl rfl)

theorem Reporting.step {n : RecoveringNode} (h : Reporting n) (utc) (s) (hn : NodeOk n) :
    Reporting (n.step utc s).1 := by
  cases s with
  | call ss => exact h
  | request =>
    simp only [RecoveringNode.step, Reporting]
    unfold RecoveringNode.request
    split
    · exact h
    · rename_i hr
      simp only [Bool.not_eq_true] at hr
      obtain ⟨_, hst, hrep⟩ := hn.requested hr
      split
      · exact Or.inl (Or.inr (Or.inl (by simp only [RecoveringNode.set_state, hrep, List.nil_append])))
      · rw [if_neg (fun h => h hst)]
        exact Or.inl (Or.inr (Or.inr ⟨[], fun _ h => (nomatch h), Or.inl (by
          simp only [RecoveringNode.set_state, hrep, List.nil_append])⟩))
  | progress s =>
    have := hn.progress s
    simp only [RecoveringNode.step, Reporting]
    unfold RecoveringNode.progress at this ⊢
    split
    · rename_i hs
      rw [if_pos hs] at this
      obtain ⟨ds, h1, h2⟩ := this.waiting hs.1
      exact Or.inl (Or.inr (Or.inr ⟨ds, h1, Or.inl h2⟩))
    · exact h
  | downloaded r =>
    simp only [RecoveringNode.step, Reporting]
    by_cases hw : n.waiting = true
    · obtain ⟨ds, h1, h2⟩ := hn.waiting hw
      cases r with
      | error e =>
        obtain ⟨_, _, _, _, h5, _⟩ := downloaded_error utc hn hw e
        rw [h5, h2]
        exact Or.inl (Or.inr (Or.inr ⟨ds, h1, Or.inr ⟨_, Or.inr (Or.inl rfl), rfl⟩⟩))
      | ok replica =>
        cases hr : n.conn.recover utc replica with
        | mk c res =>
          cases he : c.exit Database.foreignOk (.ok ()) with
          | mk c' res' =>
            obtain ⟨_, _, _, h4, _⟩ := downloaded_ok utc hw replica hr he
            rw [h4, h2]
            by_cases h0 : res' = .ok ()
            · rw [if_pos h0]
              refine Or.inl (Or.inr (Or.inr ⟨ds, h1, Or.inr ⟨_, ?_, rfl⟩⟩))
              split
              · exact Or.inl rfl
              · exact Or.inr (Or.inr rfl)
            · rw [if_neg h0]
              refine Or.inr ⟨ds, h1, _, ?_, rfl⟩
              split
              · exact Or.inl rfl
              · exact Or.inr rfl
    · simp only [RecoveringNode.downloaded, if_neg hw]
      exact h

theorem Reporting.run (utc) (ss) : ∀ {n : RecoveringNode}, Reporting n → NodeOk n → Reporting (n.run utc ss) := by
  induction ss with
  | nil => intro n h _; exact h
  | cons s ss ih => intro n h hn; exact ih (h.step utc s hn) (hn.step utc s)

end ZKAP
