import Verif.Lemmas.PassReuse
import Verif.Lemmas.Genuine
import Verif.Model.Traffic
import Verif.Model.MaintRun
import Verif.Spec.RealSigner

/-! Sessions with two signers that agree about the tokens in the store. -/
namespace ZKAP
open Spec

/-- The store has no token to spend that it did not have before. -/
structure Fewer (t t' : Tables) : Prop where
  sub : ∀ x, StoredIn t'.app true x → StoredIn t.app true x
  wf : StoreWF t → StoreWF t'

theorem Fewer.refl (t : Tables) : Fewer t t := ⟨fun _ h => h, fun h => h⟩

theorem Fewer.trans {a b c : Tables} (h : Fewer a b) (h' : Fewer b c) : Fewer a c :=
  ⟨fun x hx => h.sub x (h'.sub x hx), fun hw => h'.wf (h.wf hw)⟩

theorem fewer_discard (ts : List String) (t : Tables) : Fewer t (transact (store_discard ts) t).2 := by
  refine ⟨?_, fun h => ?_⟩
  · rw [discard_eq]
    rintro x ⟨r, hr, h⟩
    exact ⟨r, (List.mem_filter.mp hr).1, h⟩
  · have := step_wf_store h (.discard ts)
    simpa only [StoreOp.step, StoreOp.prog, transact_map] using this

theorem fewer_reset (ts : List String) (t : Tables) : Fewer t (transact (store_reset ts) t).2 := by
  refine ⟨?_, fun h => ?_⟩
  · rw [reset_eq]
    exact fun x hx => hx
  · have := step_wf_store h (.reset ts)
    simpa only [StoreOp.step, StoreOp.prog, transact_map] using this

theorem fewer_invalidate (reason : String) (ts : List String) (t : Tables) :
    Fewer t (transact (store_invalidate reason ts) t).2 := by
  refine ⟨?_, fun h => ?_⟩
  · rw [invalidate_eq]
    split
    · rintro x ⟨r, hr, h⟩
      exact ⟨r, (List.mem_filter.mp hr).1, h⟩
    · exact fun x hx => hx
  · have := step_wf_store h (.invalidate reason ts)
    simpa only [StoreOp.step, StoreOp.prog, transact_map] using this

theorem get_taken {o : Order} {n : Int} {t t' : Tables} {ts : List String}
    (h : transact (store_get_unblinded_tokens o n) t = (.ok ts, t')) : ∀ x ∈ ts, StoredIn t.app true x := by
  rw [getTokens_eq] at h
  dsimp only at h
  split at h
  · cases h
  · split at h
    · cases h
    · split at h
      · cases h
        intro x hx
        have hx := (sql_limit_sublist _ _).mem hx
        have hx := (o.perm _).mem_iff.mp hx
        exact ((mem_select_available t x).mp hx).1
      · cases h

theorem fewer_get (o : Order) (n : Int) (t : Tables) : Fewer t (transact (store_get_unblinded_tokens o n) t).2 := by
  refine ⟨?_, fun h => ?_⟩
  · rw [getTokens_eq]
    dsimp only
    split
    · exact fun x hx => hx
    · split
      · exact fun x hx => hx
      · split <;> exact fun x hx => hx
  · have := step_wf_store h (.getTokens o n)
    simpa only [StoreOp.step, StoreOp.prog, transact_map] using this

theorem fewer_spending (sign : Signer) (o : Order) (m : Bytes) (n : Int) (t : Tables) :
    Fewer t (spending_get sign o m n t).2 := by
  have h := fewer_get o n t
  unfold spending_get
  split
  · rename_i e t' he
    rwa [he] at h
  · rename_i ts t' he
    rw [he] at h
    split <;> exact h

theorem fewer_give_up (g : PassGroup) (e : PyErr) (t : Tables) : Fewer t (give_up g e t).2 := by
  have h := fewer_reset g.unblinded_tokens t
  unfold give_up PassGroup.reset
  split <;> rename_i he <;> rwa [he] at h

theorem fewer_on_success (s : OnSuccess) (n : Nat) (g : PassGroup) (t : Tables) : Fewer t (s.run n g t).2 := by
  unfold OnSuccess.run
  split
  · exact fewer_discard _ t
  · unfold spend_for_allocate_buckets
    split
    · exact Fewer.refl t
    · dsimp only
      generalize PassGroup.split g _ = sp
      have h := fewer_discard sp.1.unblinded_tokens t
      unfold PassGroup.mark_spent PassGroup.reset
      split <;> rename_i he <;> rw [he] at h
      · exact h
      · exact h.trans (fewer_reset _ _)

theorem fewer_rejected (g : PassGroup) (failed : List Nat) (t : Tables) :
    Fewer t (invalidate_rejected_passes g failed t).2 := by
  unfold invalidate_rejected_passes
  split
  · exact Fewer.refl t
  · dsimp only
    generalize PassGroup.split g _ = sp
    have h := fewer_invalidate "signature check failed" sp.1.unblinded_tokens t
    unfold PassGroup.mark_invalid
    split <;> rename_i he <;> rwa [he] at h

theorem fewer_expand (sign : Signer) (o : Order) (g : PassGroup) (n : Int) (t : Tables) :
    Fewer t (g.expand sign o n t).2 := by
  have h := fewer_spending sign o g.message n t
  unfold PassGroup.expand
  split <;> rename_i he <;> rwa [he] at h

theorem fewer_start (sign : Signer) (o : Order) (m : Bytes) (n : Int) (t : Tables) : Fewer t (call_start sign o m n t).2 := by
  have h := fewer_spending sign o m n t
  unfold call_start
  split <;> rename_i he <;> rwa [he] at h

theorem fewer_answer (sign : Signer) (o : Order) (s : OnSuccess) (n : Int) (g : PassGroup) (a : CallAnswer) (t : Tables) :
    Fewer t (call_answer sign o s n g a t).2 := by
  unfold call_answer
  split
  · rename_i b
    have h := fewer_on_success s b g t
    split <;> rename_i he <;> rw [he] at h
    · exact h.trans (fewer_give_up _ _ _)
    · exact h
  · exact fewer_give_up _ _ _
  · rename_i failed
    have h := fewer_rejected g failed t
    split <;> rename_i he <;> rw [he] at h
    · exact h.trans (fewer_give_up _ _ _)
    · exact h.trans (fewer_give_up _ _ _)
    · rename_i okay t1
      have h' := h.trans (fewer_expand sign o okay (n - okay.passes.length) t1)
      split <;> rename_i he' <;> rw [he'] at h'
      · exact h'.trans (fewer_give_up _ _ _)
      · exact h'

theorem fewer_send_paid (op : StorageOp) (c : Call) (t : Tables) : Fewer t (send_paid op c t).2.2 := by
  unfold send_paid
  split
  · exact Fewer.refl t
  · rename_i e _
    have h := fewer_give_up c.pass_group e t
    split <;> rename_i he <;> rwa [he] at h

theorem fewer_send_free (op : StorageOp) (r : StorageRequest) (t : Tables) : Fewer t (send_free op r t).2.2 := by
  unfold send_free
  split <;> exact Fewer.refl t

theorem fewer_settle (op : StorageOp) (c : Call) (r : OpResult) (s : CallState) (t : Tables) :
    Fewer t (settle op c r s t).2.2 := by
  unfold settle
  split
  · exact fewer_send_paid _ _ _
  · exact Fewer.refl t
  · exact Fewer.refl t

theorem fewer_pay (sign : Signer) (o : Order) (v : Int) (op : StorageOp) (n : Int) (t : Tables) :
    Fewer t (pay sign o v op n t).2.2 := by
  unfold pay
  exact (fewer_start sign o op.message n t).trans (fewer_settle _ _ _ _ _)

theorem fewer_op_start (sign : Signer) (o : Order) (v : Int) (get_rref : Except PyErr RRef) (op : StorageOp) (t : Tables) :
    Fewer t (op_start sign o v get_rref op t).2.2 := by
  unfold op_start
  split
  · exact Fewer.refl t
  · split
    · exact fewer_pay ..
    · exact fewer_send_free ..
    · split
      · exact fewer_send_free ..
      · exact fewer_pay ..
    · exact fewer_send_free ..

theorem fewer_op_asked (sign : Signer) (o : Order) (v now : Int) (op : StorageOp) (reply : Reply) (t : Tables) :
    Fewer t (op_asked sign o v now op reply t).2.2 := by
  unfold op_asked
  split
  · exact Fewer.refl t
  · split
    · split
      · exact Fewer.refl t
      · exact fewer_pay ..
    · split
      · exact Fewer.refl t
      · exact fewer_pay ..
    · split <;> exact Fewer.refl t

theorem fewer_op_paid (sign : Signer) (o : Order) (op : StorageOp) (c : Call) (reply : Reply) (t : Tables) :
    Fewer t (op_paid sign o op c reply t).2.2 := by
  unfold op_paid
  exact (fewer_answer ..).trans (fewer_settle ..)

/-! ### The same with both signers -/

section same
variable {good : String → Prop} {sign sign' : Signer}

/-- All tokens that can be spent are good. -/
structure AllGood (good : String → Prop) (t : Tables) : Prop where
  wf : StoreWF t
  all : ∀ x, StoredIn t.app true x → good x

theorem AllGood.fewer {t t' : Tables} (h : AllGood good t) (hf : Fewer t t') : AllGood good t' :=
  ⟨hf.wf h.wf, fun x hx => h.all x (hf.sub x hx)⟩

theorem AllGood.op {t : Tables} (h : AllGood good t) (op : StoreOp) (hi : ∀ x, IssuesSpendable x op → good x) :
    AllGood good (op.step t).2 := by
  refine ⟨step_wf_store h.wf op, fun x hx => ?_⟩
  by_cases h1 : IssuesSpendable x op
  · exact hi x h1
  · by_cases h2 : StoredIn t.app true x
    · exact h.all x h2
    · exact absurd hx (gone_step h.wf h1 h2)

theorem same_spending (hs : AgreeOn good sign sign') {t : Tables} (h : AllGood good t) (o : Order) (m : Bytes) (n : Int) :
    spending_get sign o m n t = spending_get sign' o m n t := by
  unfold spending_get
  split
  · rfl
  · rename_i ts t' he
    rw [hs m ts fun x hx => h.all x (get_taken he x hx)]

theorem same_start (hs : AgreeOn good sign sign') {t : Tables} (h : AllGood good t) (o : Order) (m : Bytes) (n : Int) :
    call_start sign o m n t = call_start sign' o m n t := by
  unfold call_start
  rw [same_spending hs h]

theorem same_answer (hs : AgreeOn good sign sign') {t : Tables} (h : AllGood good t) (o : Order) (s : OnSuccess) (n : Int)
    (g : PassGroup) (a : CallAnswer) : call_answer sign o s n g a t = call_answer sign' o s n g a t := by
  unfold call_answer
  split
  · rfl
  · rfl
  · rename_i failed
    have hf := fewer_rejected g failed t
    cases he : invalidate_rejected_passes g failed t with
    | mk r t1 =>
      rw [he] at hf
      cases r with
      | error e => rfl
      | ok okay =>
        cases okay with
        | none => rfl
        | some okay =>
          dsimp only
          unfold PassGroup.expand
          rw [same_spending hs (h.fewer hf)]

theorem same_pay (hs : AgreeOn good sign sign') {t : Tables} (h : AllGood good t) (o : Order) (v : Int) (op : StorageOp)
    (n : Int) : pay sign o v op n t = pay sign' o v op n t := by
  unfold pay
  rw [same_start hs h]

theorem same_op_start (hs : AgreeOn good sign sign') {t : Tables} (h : AllGood good t) (o : Order) (v : Int)
    (get_rref : Except PyErr RRef) (op : StorageOp) :
    op_start sign o v get_rref op t = op_start sign' o v get_rref op t := by
  unfold op_start
  split
  · rfl
  · split <;> simp only [same_pay hs h]

theorem same_op_asked (hs : AgreeOn good sign sign') {t : Tables} (h : AllGood good t) (o : Order) (v now : Int)
    (op : StorageOp) (reply : Reply) :
    op_asked sign o v now op reply t = op_asked sign' o v now op reply t := by
  unfold op_asked
  split
  · rfl
  · split <;> simp only [same_pay hs h]

theorem same_op_paid (hs : AgreeOn good sign sign') {t : Tables} (h : AllGood good t) (o : Order) (op : StorageOp) (c : Call)
    (reply : Reply) : op_paid sign o op c reply t = op_paid sign' o op c reply t := by
  unfold op_paid
  simp only [same_answer hs h]

/-- One event. -/
theorem same_step (hs : AgreeOn good sign sign') {s : StorageSession} (h : AllGood good s.store) (v : Int) (e : SessionEvent) :
    s.step sign v e = s.step sign' v e := by
  unfold StorageSession.step
  split
  · rw [same_op_start hs h]
  · split
    · rfl
    · rw [same_op_asked hs h]
  · split
    · rfl
    · rw [same_op_paid hs h]
  · rfl
  · rfl

/-- Tokens in the store were there before or are put there. -/
theorem good_step {s : StorageSession} (h : AllGood good s.store) (v : Int) (e : SessionEvent)
    (hi : ∀ op, e = .other op → ∀ x, IssuesSpendable x op → good x) : AllGood good (s.step sign v e).store := by
  unfold StorageSession.step
  split
  · exact h.fewer (fewer_op_start ..)
  · split
    · exact h
    · exact h.fewer (fewer_op_asked ..)
  · split
    · exact h
    · exact h.fewer (fewer_op_paid ..)
  · rename_i op
    split
    · exact h.op op (hi op rfl)
    · exact h
  · exact h.op .restart fun _ hx => hx.elim

theorem good_init : AllGood good ({} : StorageSession).store := by
  refine ⟨wf_empty, ?_⟩
  rintro x ⟨r, hr, -⟩
  cases hr

/-- Any history. -/
theorem same_run (hs : AgreeOn good sign sign') (v : Int) (es : List SessionEvent) {s : StorageSession}
    (h : AllGood good s.store) (hi : ∀ op, .other op ∈ es → ∀ x, IssuesSpendable x op → good x) :
    s.run sign v es = s.run sign' v es ∧ AllGood good (s.run sign v es).store ∧
      (NoReissueIn sign v s es → NoReissueIn sign' v s es) := by
  induction es generalizing s with
  | nil => exact ⟨rfl, h, fun _ => trivial⟩
  | cons e es ih =>
    have h1 := same_step hs h v e
    have h2 := good_step (sign := sign) h v e fun op he => hi op (by rw [he]; exact List.mem_cons_self)
    obtain ⟨h3, h4, h5⟩ := ih h2 fun op ho => hi op (List.mem_cons_of_mem _ ho)
    refine ⟨?_, h4, fun hn => ⟨hn.1, ?_⟩⟩
    · show (s.step sign v e).run sign v es = (s.step sign' v e).run sign' v es
      rw [h3, h1]
    · rw [← h1]
      exact h5 hn.2

theorem same_turn (hs : AgreeOn good sign sign') (cfg : ServerConfig) (v : Int) {k : Talk} (h : AllGood good k.client.store)
    (m : Moment) : k.turn sign cfg v m = k.turn sign' cfg v m ∧ AllGood good (k.turn sign cfg v m).client.store := by
  unfold Talk.turn
  split
  · dsimp only
    refine ⟨by rw [same_step hs h], ?_⟩
    refine good_step h v _ fun op he => ?_
    split at he <;> cases he
  · exact ⟨rfl, h⟩

theorem same_turns (hs : AgreeOn good sign sign') (cfg : ServerConfig) (v : Int) (ms : List Moment) {k : Talk}
    (h : AllGood good k.client.store) :
    ms.foldl (Talk.turn sign cfg v) k = ms.foldl (Talk.turn sign' cfg v) k ∧
      AllGood good (ms.foldl (Talk.turn sign cfg v) k).client.store := by
  induction ms generalizing k with
  | nil => exact ⟨rfl, h⟩
  | cons m ms ih =>
    obtain ⟨h1, h2⟩ := same_turn hs cfg v h m
    obtain ⟨h3, h4⟩ := ih h2
    exact ⟨by rw [List.foldl_cons, List.foldl_cons, h3, h1], h4⟩

/-- An operation with its calls. -/
theorem same_converse (hs : AgreeOn good sign sign') (cfg : ServerConfig) (v : Int) (op : StorageOp)
    (get_rref : Except PyErr RRef) (o : Order) {client : StorageSession} (h : AllGood good client.store) (server : Server)
    (ms : List Moment) :
    converse sign cfg v op get_rref o client server ms = converse sign' cfg v op get_rref o client server ms ∧
      AllGood good (converse sign cfg v op get_rref o client server ms).client.store := by
  unfold converse
  have h2 : AllGood good (client.step sign v (.start op get_rref o)).store := good_step h v _ fun _ he => (nomatch he)
  rw [← same_step hs h]
  exact same_turns hs cfg v ms h2

/-- Operations that go on at the same time. -/
theorem same_traffic_step (hs : AgreeOn good sign sign') (cfg : ServerConfig) (v : Int) {k : Traffic}
    (h : AllGood good k.store) (e : TrafficEvent) :
    k.step sign cfg v e = k.step sign' cfg v e ∧ AllGood good (k.step sign cfg v e).store := by
  unfold Traffic.step
  split
  · exact ⟨by rw [same_op_start hs h], h.fewer (fewer_op_start ..)⟩
  · refine ⟨rfl, ?_⟩
    split
    · split <;> exact h
    · exact h
  · split
    · exact ⟨by rw [same_op_asked hs h], h.fewer (fewer_op_asked ..)⟩
    · exact ⟨by rw [same_op_paid hs h], h.fewer (fewer_op_paid ..)⟩
    · exact ⟨rfl, h⟩
  · exact ⟨rfl, h⟩

theorem same_traffic (hs : AgreeOn good sign sign') (cfg : ServerConfig) (v : Int) (es : List TrafficEvent) {k : Traffic}
    (h : AllGood good k.store) :
    k.run sign cfg v es = k.run sign' cfg v es ∧ AllGood good (k.run sign cfg v es).store := by
  induction es generalizing k with
  | nil => exact ⟨rfl, h⟩
  | cons e es ih =>
    obtain ⟨h1, h2⟩ := same_traffic_step hs cfg v h e
    obtain ⟨h3, h4⟩ := ih h2
    refine ⟨?_, h4⟩
    show (k.step sign cfg v e).run sign cfg v es = (k.step sign' cfg v e).run sign' cfg v es
    rw [h3, h1]

/-! ### Maintenance runs -/

theorem same_ask {nd : MaintNode} (hs : AgreeOn good nd.sign sign') (cfg : ServerConfig) (e : Errand) (op : StorageOp)
    {client : StorageSession} (h : AllGood good client.store) (server : Server) :
    nd.ask cfg e op client server = { nd with sign := sign' }.ask cfg e op client server ∧
      AllGood good (nd.ask cfg e op client server).2.1.store := by
  obtain ⟨h1, h2⟩ := same_converse hs cfg nd.pass_value op e.get_rref e.order h server e.moments
  refine ⟨?_, h2⟩
  unfold MaintNode.ask
  dsimp only
  rw [h1]

theorem same_observe {nd : MaintNode} (a : LeaseMaintenance) (sizes : List Int) {client : StorageSession}
    (h : AllGood good client.store) :
    nd.observe a sizes client = { nd with sign := sign' }.observe a sizes client ∧
      AllGood good (nd.observe a sizes client).store :=
  ⟨rfl, good_step h _ _ fun op he x hx => by cases he; exact hx.elim⟩

/-- What remains of the client. -/
def ClientGood {α} (good : String → Prop) (r : Option (Except PyErr Unit × StorageSession × α)) : Prop :=
  ∀ e c s, r = some (e, c, s) → AllGood good c.store

theorem same_tend_loop {nd : MaintNode} (hs : AgreeOn good nd.sign sign') (a : LeaseMaintenance) (stop : MaintStop)
    (l : List (SI × List ShareStat)) {client : StorageSession} (h : AllGood good client.store) (server : Server) :
    tend_loop nd a stop l client server = tend_loop { nd with sign := sign' } a stop l client server ∧
      ClientGood good (tend_loop nd a stop l client server) := by
  induction l generalizing client server with
  | nil => exact ⟨rfl, fun e c s he => by cases he; exact h⟩
  | cons x l ih =>
    obtain ⟨si, stats⟩ := x
    unfold tend_loop
    by_cases h0 : stats.isEmpty = true
    · rw [if_pos h0, if_pos h0]
      exact ih h server
    · rw [if_neg h0, if_neg h0]
      dsimp only
      obtain ⟨ho, hg⟩ := same_observe (nd := nd) (sign' := sign') a (stats.map (·.size)) h
      rw [← ho]
      generalize nd.observe a (stats.map (·.size)) client = client at hg
      cases soonest_expiration stats with
      | error e => exact ⟨rfl, fun e c s he => by cases he; exact hg⟩
      | ok most =>
        dsimp only
        cases needs_lease_renew nd.min_lease_remaining most stop.now with
        | error e => exact ⟨rfl, fun e c s he => by cases he; exact hg⟩
        | ok b =>
          cases b with
          | false => exact ih hg server
          | true =>
            dsimp only
            unfold renew_lease
            dsimp only
            generalize hop : StorageOp.addLease si _ _ = op
            obtain ⟨h1, h2⟩ := same_ask hs stop.cfg (stop.renewal si) op hg server
            rw [← h1]
            generalize nd.ask stop.cfg (stop.renewal si) op client server = r at h2
            obtain ⟨r, client', server'⟩ := r
            cases r with
            | none => exact ⟨rfl, fun e c s he => (nomatch he)⟩
            | some r =>
              cases r with
              | error e => exact ⟨rfl, fun e c s he => by cases he; exact h2⟩
              | ok r => exact ih h2 server'

theorem same_tend_server {nd : MaintNode} (hs : AgreeOn good nd.sign sign') (a : LeaseMaintenance) (indexes : List SI)
    (stop : MaintStop) {client : StorageSession} (h : AllGood good client.store) :
    tend_server nd a indexes stop client = tend_server { nd with sign := sign' } a indexes stop client ∧
      ClientGood good (tend_server nd a indexes stop client) := by
  unfold tend_server
  obtain ⟨h1, h2⟩ := same_ask hs stop.cfg stop.stat (.statShares indexes) h stop.server
  rw [← h1]
  generalize nd.ask stop.cfg stop.stat (.statShares indexes) client stop.server = r at h2
  obtain ⟨r, client', server'⟩ := r
  cases r with
  | none => exact ⟨rfl, fun e c s he => (nomatch he)⟩
  | some r =>
    cases r with
    | error e => exact ⟨rfl, fun e c s he => by cases he; exact h2⟩
    | ok r => exact same_tend_loop hs a stop _ h2 server'

theorem same_tend_servers {nd : MaintNode} (hs : AgreeOn good nd.sign sign') (a : LeaseMaintenance) (finished : String)
    (indexes : List SI) (stops : List MaintStop) {client : StorageSession} (h : AllGood good client.store) :
    tend_servers nd a finished indexes stops client =
      tend_servers { nd with sign := sign' } a finished indexes stops client := by
  induction stops generalizing client with
  | nil => rfl
  | cons stop stops ih =>
    unfold tend_servers
    obtain ⟨h1, h2⟩ := same_tend_server hs a indexes stop h
    rw [← h1]
    cases hr : tend_server nd a indexes stop client with
    | none => rfl
    | some r =>
      obtain ⟨r, client', server⟩ := r
      have hg := h2 _ _ _ hr
      cases r with
      | error e => rfl
      | ok u =>
        cases u
        dsimp only
        rw [ih hg]

/-- A maintenance run. -/
theorem same_tend {nd : MaintNode} (hs : AgreeOn good nd.sign sign') (started finished : String) (indexes : List SI)
    (stops : List MaintStop) {client : StorageSession} (h : AllGood good client.store) :
    tend nd started finished indexes stops client =
      tend { nd with sign := sign' } started finished indexes stops client := by
  have hg : AllGood good ((StoreOp.maintStart started {}).step client.store).2 :=
    h.op _ fun _ hx => hx.elim
  unfold tend
  cases he : (StoreOp.maintStart started {}).step client.store with
  | mk r t =>
    rw [he] at hg
    cases r with
    | error e => rfl
    | ok r =>
      cases r with
      | maint a => exact same_tend_servers (client := { client with store := t }) hs _ _ _ _ hg
      | _ => rfl

end same

/-! ### The signer of the Ristretto redeemer -/

/-- The pass for one token; some pass if there is none. -/
def single_pass (sign : Signer) (message : Bytes) (x : String) : Pass :=
  match sign message [x] with
  | .ok [p] => p
  | _ => ⟨[], []⟩

/-- A signer that treats each token by itself and never raises. -/
def each_signer (sign : Signer) : Signer := fun message tokens => .ok (tokens.map (single_pass sign message))

theorem each_signs (sign : Signer) : Signs (each_signer sign) := fun _ _ => ⟨_, rfl, List.length_map _⟩

theorem genuine_pass (L : Ristretto) (hL : Lawful L) {x : String} {k : L.Scalar} {t : L.Preimage}
    (h : ascii x = L.unblinded_tokens.encode (t, L.smul k (L.hash t))) (message : Bytes) :
    single_pass (ristretto_signer L) message x = passOf L message k t := by
  unfold single_pass ristretto_signer
  have := tokens_to_passes_derived L hL message k [t]
  rw [List.map_cons, List.map_nil] at this
  rw [List.map_cons, List.map_nil, h]
  rw [show (t, L.smul k (L.hash t)) = L.rederive k t from rfl, this]
  rfl

theorem each_agrees (L : Ristretto) (hL : Lawful L) :
    AgreeOn (fun x => ∃ k, Genuine L k x) (ristretto_signer L) (each_signer (ristretto_signer L)) := by
  intro message tokens h
  obtain ⟨ps, hps⟩ := genuine_signs L hL message tokens h
  obtain ⟨hl, hg⟩ := signed_ok L hL hps
  rw [hps]
  show Except.ok ps = Except.ok (tokens.map (single_pass (ristretto_signer L) message))
  congr 1
  refine List.ext_getElem (by rw [hl, List.length_map]) fun i h1 h2 => ?_
  rw [List.getElem_map]
  have hi : i < tokens.length := by rwa [hl] at h1
  obtain ⟨k, t, ht⟩ := h tokens[i] (List.getElem_mem hi)
  rw [genuine_pass L hL ht]
  refine hg tokens[i] ps[i] ?_ k t ht
  have := List.getElem_mem (l := tokens.zip ps) (n := i) (by rw [List.length_zip, hl, Nat.min_self]; exact hi)
  rwa [List.getElem_zip] at this

theorem mem_zip_map {α β} {f : α → β} {l : List α} {x : α} {y : β} (h : (x, y) ∈ l.zip (l.map f)) : y = f x := by
  induction l with
  | nil => cases h
  | cons a l ih =>
    rw [List.map_cons, List.zip_cons_cons, List.mem_cons] at h
    rcases h with h | h
    · cases h; rfl
    · exact ih h

theorem each_good (L : Ristretto) (hL : Lawful L) (v : Int) (k : L.Scalar) {t : Tables} (h : AllGood (Genuine L k) t) :
    GoodTokens (each_signer (ristretto_signer L)) (server_with_key L v k) t := by
  refine ⟨each_signs _, ?_⟩
  intro message tokens passes hp x p hxp hx
  cases hp
  rw [mem_zip_map hxp]
  obtain ⟨pre, hpre⟩ := h.all x hx.1
  rw [genuine_pass L hL hpre]
  exact ⟨(passOf_wire L hL message k pre).2, passOf_verifies L hL v message k pre⟩

/-- Redeemed tokens are genuine. -/
theorem bought_genuine (L : Ristretto) (hL : Lawful L) (hS : Sound L) {k : L.Scalar} {x : String} (h : Bought L k x) :
    Genuine L k x := by
  obtain ⟨issuer, voucher, counter, random, pk, ts, h1, h2, hx⟩ := h
  unfold to_answer at h1
  split at h1
  · rename_i pk' toks he
    cases h1
    unfold redeemWithCounter at he
    split at he
    · exact nomatch he
    · have ht := redeemed_tokens L hL hS he k h2
      obtain ⟨u, hu, rfl⟩ := List.mem_map.mp hx
      rw [ht] at hu
      obtain ⟨t, -, rfl⟩ := List.mem_map.mp hu
      exact ⟨t.1, ascii_text _⟩
  · exact nomatch h1
  · exact nomatch h1
  · exact nomatch h1

end ZKAP
