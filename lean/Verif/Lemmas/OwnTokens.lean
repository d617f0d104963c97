import Verif.Lemmas.SignedOnce

/-! Lemmas about the tokens that storage operations hold: they came from the store. -/
namespace ZKAP
open Spec

/-- All tokens in the store, also invalid ones, are of this kind. -/
structure Within (P : String → Prop) (t : Tables) : Prop where
  stored : ∀ x ∈ storedTokens t, P x
  invalid : ∀ x ∈ invalidTokens t, P x

/-- So are those of a group. -/
def AllOf (P : String → Prop) (g : PassGroup) : Prop := ∀ x ∈ g.unblinded_tokens, P x

def StateOf (P : String → Prop) : CallState → Prop
  | .waiting g => AllOf P g
  | _ => True

def MovedOf (P : String → Prop) (m : Moved) : Prop :=
  Within P m.2.2 ∧ ∀ c, m.1 = .paying c → AllOf P c.pass_group

variable {P : String → Prop}

theorem within_discard (ts : List String) {t : Tables} (h : Within P t) : Within P (transact (store_discard ts) t).2 := by
  rw [discard_eq]
  exact ⟨fun x hx => h.stored x ((List.filter_sublist.map _).subset hx), h.invalid⟩

theorem within_reset (ts : List String) {t : Tables} (h : Within P t) : Within P (transact (store_reset ts) t).2 := by
  rw [reset_eq]
  exact ⟨h.stored, h.invalid⟩

theorem within_invalidate (reason : String) (ts : List String) (hts : ∀ x ∈ ts, P x) {t : Tables} (h : Within P t) :
    Within P (transact (store_invalidate reason ts) t).2 := by
  rw [invalidate_eq]
  split
  · refine ⟨fun x hx => h.stored x ((List.filter_sublist.map _).subset hx), ?_⟩
    intro x hx
    unfold invalidTokens at hx
    dsimp only at hx
    rw [List.map_append, List.map_map] at hx
    rcases List.mem_append.mp hx with hx | hx
    · exact h.invalid x hx
    · obtain ⟨y, hy, rfl⟩ := List.mem_map.mp hx
      exact hts y hy
  · exact h

theorem available_stored {t : Tables} {x : String} (h : x ∈ select_available t) : x ∈ storedTokens t := by
  unfold select_available at h
  obtain ⟨r, hr, hx⟩ := List.mem_flatMap.mp (List.mem_filter.mp h).1
  obtain ⟨_, _, rfl⟩ := List.mem_map.mp hx
  exact List.mem_map_of_mem hr

theorem limit_subset {n : Int} {l : List String} {x : String} (h : x ∈ sql_limit n l) : x ∈ l := by
  unfold sql_limit at h
  split at h
  · exact h
  · exact List.mem_of_mem_take h

theorem within_get (o : Order) (n : Int) {t : Tables} (h : Within P t) :
    Within P (transact (store_get_unblinded_tokens o n) t).2 ∧
    ∀ ts, (transact (store_get_unblinded_tokens o n) t).1 = .ok ts → ∀ x ∈ ts, P x := by
  rw [getTokens_eq]
  dsimp only
  repeat' split
  all_goals first
    | exact ⟨h, fun ts hts => nomatch hts⟩
    | skip
  refine ⟨⟨h.stored, h.invalid⟩, ?_⟩
  intro ts hts x hx
  cases hts
  exact h.stored x (available_stored ((o.perm _).mem_iff.mp (limit_subset hx)))

theorem within_spending (sign : Signer) (o : Order) (m : Bytes) (n : Int) {t : Tables} (h : Within P t) :
    Within P (spending_get sign o m n t).2 ∧ ∀ g, (spending_get sign o m n t).1 = .ok g → AllOf P g := by
  have h := within_get o n h
  unfold spending_get
  cases he : transact (store_get_unblinded_tokens o n) t with
  | mk r t1 =>
    rw [he] at h
    cases r with
    | error e => exact ⟨h.1, fun g hg => nomatch hg⟩
    | ok ts =>
      dsimp only
      cases hs : sign m ts with
      | error e => exact ⟨h.1, fun g hg => nomatch hg⟩
      | ok ps =>
        refine ⟨h.1, fun g hg x hx => ?_⟩
        cases hg
        unfold PassGroup.unblinded_tokens at hx
        obtain ⟨y, hy, rfl⟩ := List.mem_map.mp hx
        exact h.2 ts rfl _ (List.of_mem_zip hy).1

theorem within_give_up (g : PassGroup) (e : PyErr) {t : Tables} (h : Within P t) :
    Within P (give_up g e t).2 ∧ StateOf P (give_up g e t).1 := by
  have h := within_reset g.unblinded_tokens h
  unfold give_up PassGroup.reset
  split <;> rename_i he <;> rw [he] at h <;> exact ⟨h, trivial⟩

theorem within_on_success (s : OnSuccess) (n : Nat) (g : PassGroup) {t : Tables} (h : Within P t) :
    Within P (s.run n g t).2 := by
  unfold OnSuccess.run
  split
  · exact within_discard _ h
  · unfold spend_for_allocate_buckets
    split
    · exact h
    · dsimp only
      generalize PassGroup.split g _ = sp
      have h := within_discard sp.1.unblinded_tokens h
      unfold PassGroup.mark_spent PassGroup.reset
      split <;> rename_i he <;> rw [he] at h
      · exact h
      · exact within_reset _ h

theorem within_split {g : PassGroup} (hg : AllOf P g) (select : Nat → Bool) :
    AllOf P (g.split select).1 ∧ AllOf P (g.split select).2 := by
  rw [(split_tokens g select).1, (split_tokens g select).2]
  have sub : ∀ select : Nat → Bool, AllOf P ⟨g.message, atPositions select g.tokens⟩ := fun select x hx =>
    hg x (((atPositions_sublist select g.tokens).map Prod.fst).subset hx)
  exact ⟨sub _, sub _⟩

theorem within_rejected {g : PassGroup} (hg : AllOf P g) (failed : List Nat) {t : Tables} (h : Within P t) :
    Within P (invalidate_rejected_passes g failed t).2 ∧
    ∀ okay, (invalidate_rejected_passes g failed t).1 = .ok (some okay) → AllOf P okay := by
  unfold invalidate_rejected_passes
  split
  · exact ⟨h, fun okay ho => nomatch ho⟩
  · have hsp := within_split hg (fun i => failed.contains i)
    dsimp only
    revert hsp
    generalize PassGroup.split g _ = sp
    intro hsp
    have h := within_invalidate "signature check failed" sp.1.unblinded_tokens hsp.1 h
    unfold PassGroup.mark_invalid
    split <;> rename_i he <;> rw [he] at h
    · exact ⟨h, fun okay ho => nomatch ho⟩
    · refine ⟨h, fun okay ho => ?_⟩
      cases ho
      exact hsp.2

theorem within_expand (sign : Signer) (o : Order) {g : PassGroup} (hg : AllOf P g) (n : Int) {t : Tables} (h : Within P t) :
    Within P (g.expand sign o n t).2 ∧ ∀ g', (g.expand sign o n t).1 = .ok g' → AllOf P g' := by
  have h := within_spending sign o g.message n h
  unfold PassGroup.expand
  split <;> rename_i he <;> rw [he] at h
  · exact ⟨h.1, fun g' hg' => nomatch hg'⟩
  · rename_i more t'
    refine ⟨h.1, fun g' hg' x hx => ?_⟩
    cases hg'
    unfold PassGroup.add PassGroup.unblinded_tokens at hx
    rw [List.map_append] at hx
    rcases List.mem_append.mp hx with hx | hx
    · exact hg x hx
    · obtain ⟨y, hy, rfl⟩ := List.mem_map.mp hx
      exact h.2 more rfl _ (List.of_mem_zip hy).1

theorem within_start (sign : Signer) (o : Order) (m : Bytes) (n : Int) {t : Tables} (h : Within P t) :
    Within P (call_start sign o m n t).2 ∧ StateOf P (call_start sign o m n t).1 := by
  have h := within_spending sign o m n h
  unfold call_start
  split <;> rename_i he <;> rw [he] at h
  · exact ⟨h.1, trivial⟩
  · exact ⟨h.1, h.2 _ rfl⟩

theorem within_answer (sign : Signer) (o : Order) (s : OnSuccess) (n : Int) {g : PassGroup} (hg : AllOf P g) (a : CallAnswer)
    {t : Tables} (h : Within P t) :
    Within P (call_answer sign o s n g a t).2 ∧ StateOf P (call_answer sign o s n g a t).1 := by
  unfold call_answer
  split
  · rename_i b
    have h := within_on_success s b g h
    split <;> rename_i he <;> rw [he] at h
    · exact within_give_up _ _ h
    · exact ⟨h, trivial⟩
  · exact within_give_up _ _ h
  · rename_i failed
    have h := within_rejected hg failed h
    split <;> rename_i he <;> rw [he] at h
    · exact within_give_up _ _ h.1
    · exact within_give_up _ _ h.1
    · rename_i okay t1
      have h' := within_expand sign o (h.2 okay rfl) (n - okay.passes.length) h.1
      split <;> rename_i he' <;> rw [he'] at h'
      · exact within_give_up _ _ h'.1
      · exact ⟨h'.1, h'.2 _ rfl⟩

theorem within_send_paid (op : StorageOp) {c : Call} (hc : AllOf P c.pass_group) {t : Tables} (h : Within P t) :
    MovedOf P (send_paid op c t) := by
  unfold send_paid
  split
  · refine ⟨h, fun c' hc' => ?_⟩
    cases hc'
    exact hc
  · rename_i e _
    have h := within_give_up c.pass_group e h
    split <;> rename_i he <;> rw [he] at h <;> exact ⟨h.1, fun c' hc' => nomatch hc'⟩

theorem within_send_free (op : StorageOp) (r : StorageRequest) {t : Tables} (h : Within P t) :
    MovedOf P (send_free op r t) := by
  unfold send_free
  split <;> exact ⟨h, fun c' hc' => nomatch hc'⟩

theorem within_settle (op : StorageOp) (c : Call) (r : OpResult) {s : CallState} {t : Tables} (h : Within P t ∧ StateOf P s) :
    MovedOf P (settle op c r s t) := by
  unfold settle
  split
  · rename_i g
    exact within_send_paid (c := { c with pass_group := g }) _ h.2 h.1
  · exact ⟨h.1, fun c' hc' => nomatch hc'⟩
  · exact ⟨h.1, fun c' hc' => nomatch hc'⟩

theorem within_pay (sign : Signer) (o : Order) (v : Int) (op : StorageOp) (n : Int) {t : Tables} (h : Within P t) :
    MovedOf P (pay sign o v op n t) := by
  unfold pay
  exact within_settle _ _ _ (within_start sign o op.message n h)

theorem within_op_start (sign : Signer) (o : Order) (v : Int) (get_rref : Except PyErr RRef) (op : StorageOp) {t : Tables}
    (h : Within P t) : MovedOf P (op_start sign o v get_rref op t) := by
  unfold op_start
  split
  · exact ⟨h, fun c' hc' => nomatch hc'⟩
  · split
    · exact within_pay _ _ _ _ _ h
    · exact within_send_free _ _ h
    · split
      · exact within_send_free _ _ h
      · exact within_pay _ _ _ _ _ h
    · exact within_send_free _ _ h

theorem within_op_asked (sign : Signer) (o : Order) (v now : Int) (op : StorageOp) (reply : Reply) {t : Tables}
    (h : Within P t) : MovedOf P (op_asked sign o v now op reply t) := by
  unfold op_asked
  split
  · exact ⟨h, fun c' hc' => nomatch hc'⟩
  · split
    · split
      · exact ⟨h, fun c' hc' => nomatch hc'⟩
      · exact within_pay _ _ _ _ _ h
    · split
      · exact ⟨h, fun c' hc' => nomatch hc'⟩
      · exact within_pay _ _ _ _ _ h
    · split <;> exact ⟨h, fun c' hc' => nomatch hc'⟩

theorem within_op_paid (sign : Signer) (o : Order) (op : StorageOp) {c : Call} (hc : AllOf P c.pass_group) (reply : Reply)
    {t : Tables} (h : Within P t) : MovedOf P (op_paid sign o op c reply t) := by
  unfold op_paid
  exact within_settle _ _ _ (within_answer sign o c.on_success c.num_passes hc _ h)

/-- All tokens of a client are of this kind. -/
structure ClientOf (P : String → Prop) (s : StorageSession) : Prop where
  store : Within P s.store
  paying : ∀ oc ∈ s.paying, AllOf P oc.2.pass_group

theorem within_outside {op : StoreOp} (hn : notRedeeming op = true) (ho : outside op = true) {t : Tables} (h : Within P t) :
    Within P (op.step t).2 := by
  have same : (op.step t).2.app.unblinded = t.app.unblinded ∧ (op.step t).2.app.invalid = t.app.invalid := by
    cases op <;> simp only [notRedeeming, Bool.false_eq_true] at hn <;> simp only [outside, Bool.false_eq_true] at ho <;>
      simp only [StoreOp.step, StoreOp.prog, transact_map]
    case maintStart now m =>
      rw [maintStart_eq]
      cases m.rowid <;> exact ⟨rfl, rfl⟩
    case maintObserve pv sizes m =>
      rw [maintObserve_eq]
      cases required_passesE pv sizes <;> exact ⟨rfl, rfl⟩
    case maintFinish now m => exact ⟨rfl, rfl⟩
  constructor
  · unfold storedTokens; rw [same.1]; exact h.stored
  · unfold invalidTokens; rw [same.2]; exact h.invalid

theorem client_step (sign : Signer) (v : Int) {s : StorageSession} (h : ClientOf P s) (e : SessionEvent)
    (hp : (WholeEvent.storage e).possible = true) : ClientOf P (s.step sign v e) := by
  have still : ∀ {op : StorageOp} {m : Moved}, MovedOf P m → ∀ oc ∈ still_paying op m.1, AllOf P oc.2.pass_group := by
    intro op m hm oc hoc
    cases hs : m.1 with
    | paying c =>
      rw [hs] at hoc
      cases List.mem_singleton.mp hoc
      exact hm.2 c hs
    | _ => rw [hs] at hoc; exact nomatch hoc
  cases e with
  | start op rref o =>
    have hm := within_op_start sign o v rref op h.store
    refine ⟨hm.1, ?_⟩
    intro oc hoc
    rcases List.mem_append.mp hoc with hoc | hoc
    · exact h.paying oc hoc
    · exact still hm oc hoc
  | answer i reply now o =>
    simp only [StorageSession.step]
    split
    · exact h
    · rename_i op _
      have hm := within_op_asked sign o v now op reply h.store
      refine ⟨hm.1, ?_⟩
      intro oc hoc
      rcases List.mem_append.mp hoc with hoc | hoc
      · exact h.paying oc hoc
      · exact still hm oc hoc
  | answerPaid i reply now o =>
    simp only [StorageSession.step]
    split
    · exact h
    · rename_i op c hi
      have hm := within_op_paid sign o op (h.paying _ (List.mem_of_getElem? hi)) reply h.store
      refine ⟨hm.1, ?_⟩
      intro oc hoc
      rcases List.mem_append.mp hoc with hoc | hoc
      · rcases List.mem_append.mp hoc with hoc | hoc
        · exact h.paying oc (List.mem_of_mem_take hoc)
        · exact still hm oc hoc
      · exact h.paying oc (List.mem_of_mem_drop hoc)
  | other op =>
    simp only [StorageSession.step]
    split
    · rename_i ho
      exact ⟨within_outside hp ho h.store, h.paying⟩
    · exact h
  | restart => cases hp

/-- The controller does not find tokens invalid. -/
theorem invalid_step {cfg : RedeemCfg} (c : Controller) (e : RedeemEvent) (hp : (WholeEvent.redeeming e).possible = true) :
    (c.step cfg e).store.app.invalid = c.store.app.invalid := by
  cases e with
  | crash => cases hp
  | other op => cases hp
  | redeem w n => simp only [Controller.step]; split <;> rfl
  | timer => simp only [Controller.step]; split <;> rfl
  | answer i a =>
    simp only [Controller.step]
    split
    · rfl
    · split <;> rfl
  | work env =>
    cases ht : c.todo with
    | nil => simp only [Controller.step, ht]
    | cons task todo =>
      have hstep : c.step cfg (.work env) = task.run cfg env { c with todo := todo } := by
        simp only [Controller.step, ht]
      rw [hstep]
      cases task with
      | redeem w n => simp only [Task.run]; split <;> rfl
      | retry w =>
        simp only [Task.run]
        split
        · rfl
        · split
          · rfl
          · split <;> rfl
      | perform f ts =>
        simp only [Task.run, contact_issuer]
        split
        · rfl
        · split <;> rfl
      | iterate f =>
        simp only [Task.run]
        split
        rotate_left
        · rfl
        unfold get_random_tokens
        cases hg : token_count_for_group cfg.num_redemption_groups f.total f.counter with
        | error e => rfl
        | ok n =>
          dsimp only
          rcases add_effect env.order env.now f.voucher f.total f.counter
              (env.random f.voucher f.counter n.toNat) c.store with
            ⟨err, he⟩ | ⟨ts, he, hp, hne⟩ | ⟨ts, hget, he, hnil⟩
          · rw [he]
          · rw [he]
          · rw [he]; rfl
      | answered f a =>
        cases a with
        | success pk us =>
          simp only [Task.run, resume, redeem_success]
          rcases insert_effect env.now f.voucher pk us (f.counter + 1 == cfg.num_redemption_groups)
              (decide (pk ∈ cfg.allowed_public_keys)) c.store with ⟨err, he⟩ | ⟨row, hrow, he⟩
          · rw [he]
          · rw [he]; rfl
        | alreadySpent =>
          show (transact (store_mark_double_spent env.now f.voucher) c.store).2.app.invalid = _
          rw [doubleSpent_eq]
          split <;> rfl
        | unpaid => rfl
        | failed d => rfl

/-- The token is recorded as stored. -/
def Recorded (log : List Happening) (x : String) : Prop := ∃ v g pk us, .stored v g pk us ∈ log ∧ x ∈ us

theorem ClientOf.mono {P Q : String → Prop} (h : ∀ x, P x → Q x) {s : StorageSession} (hs : ClientOf P s) : ClientOf Q s :=
  ⟨⟨fun x hx => h x (hs.store.stored x hx), fun x hx => h x (hs.store.invalid x hx)⟩,
    fun oc hoc x hx => h x (hs.paying oc hoc x hx)⟩

/-- All tokens a node has anything to do with are recorded as stored. -/
theorem recordedAll_step {cfg : RedeemCfg} (sign : Signer) (v : Int) {n : WholeNode}
    (h : ClientOf (Recorded n.redeeming.log) n.storage) (e : WholeEvent) :
    ClientOf (Recorded (n.step cfg sign v e).redeeming.log) (n.step cfg sign v e).storage := by
  unfold WholeNode.step
  by_cases hp : e.possible = true
  case neg => rw [if_neg hp]; exact h
  rw [if_pos hp]
  have grow : ∀ {log l : List Happening} (x : String), Recorded log x → Recorded (log ++ l) x := by
    rintro log l x ⟨v, g, pk, us, h1, h2⟩
    exact ⟨v, g, pk, us, List.mem_append_left _ h1, h2⟩
  cases e with
  | crash =>
    refine ClientOf.mono (P := Recorded n.redeeming.log) grow ?_
    exact ⟨⟨h.store.stored, h.store.invalid⟩, fun oc hoc => nomatch hoc⟩
  | storage e =>
    dsimp only
    split
    · exact client_step sign v h e hp
    · exact h
  | redeeming e =>
    dsimp only
    obtain ⟨l, hl⟩ := step_log cfg { n.redeeming with store := n.storage.store } e
    have g : ∀ x, Recorded n.redeeming.log x →
        Recorded ({ n.redeeming with store := n.storage.store }.step cfg e).log x := by
      intro x hx
      rw [hl]
      exact grow x hx
    refine ⟨⟨?_, ?_⟩, fun oc hoc x hx => g x (h.paying oc hoc x hx)⟩
    · intro x hx
      rcases newly_held _ e hx with hx | ⟨f, pk, us, hlog, hx, -⟩
      · exact g x (h.store.stored x hx)
      · rw [hlog]
        exact ⟨f.voucher, f.counter, pk, us, by simp, hx⟩
    · intro x hx
      have hx' : x ∈ ({ n.redeeming with store := n.storage.store }.step cfg e).store.app.invalid.map InvalidRow.token := hx
      rw [invalid_step _ e hp] at hx'
      exact g x (h.store.invalid x hx')

theorem recordedAll_run {cfg : RedeemCfg} (sign : Signer) (v : Int) (events : List WholeEvent) {n : WholeNode}
    (h : ClientOf (Recorded n.redeeming.log) n.storage) :
    ClientOf (Recorded (n.run cfg sign v events).redeeming.log) (n.run cfg sign v events).storage := by
  induction events generalizing n with
  | nil => exact h
  | cons e es ih => exact ih (recordedAll_step sign v h e)

end ZKAP
