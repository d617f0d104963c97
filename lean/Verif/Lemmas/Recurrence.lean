import Verif.Lemmas.WholeNode
import Verif.Lemmas.ControllerSmooth
import Verif.Spec.Recurrence

/-! Lemmas about tokens that do not come back. -/
namespace ZKAP
open Spec

/-! ### What storage does to the store -/

/-- The tables are reached by operations that do not redeem. -/
structure Via (t t' : Tables) : Prop where
  ops : ∃ ops : List StoreOp, (∀ op ∈ ops, notRedeeming op = true) ∧ t' = runStore ops t

theorem Via.refl (t : Tables) : Via t t := ⟨[], fun _ h => (nomatch h), rfl⟩

theorem Via.trans {a b c : Tables} (h : Via a b) (h' : Via b c) : Via a c := by
  obtain ⟨l, h1, h2⟩ := h.ops
  obtain ⟨l', h1', h2'⟩ := h'.ops
  refine ⟨l ++ l', ?_, by rw [runStore_append, ← h2]; exact h2'⟩
  intro op hop
  rcases List.mem_append.mp hop with h | h
  · exact h1 op h
  · exact h1' op h

theorem via_op {t t' : Tables} (op : StoreOp) (hn : notRedeeming op = true) (h : t' = (op.step t).2) : Via t t' :=
  ⟨[op], fun _ hm => by rw [List.mem_singleton.mp hm]; exact hn, h⟩

theorem via_discard (ts : List String) (t : Tables) : Via t (transact (store_discard ts) t).2 :=
  via_op (.discard ts) rfl (by simp only [StoreOp.step, StoreOp.prog, transact_map])

theorem via_reset (ts : List String) (t : Tables) : Via t (transact (store_reset ts) t).2 :=
  via_op (.reset ts) rfl (by simp only [StoreOp.step, StoreOp.prog, transact_map])

theorem via_invalidate (reason : String) (ts : List String) (t : Tables) :
    Via t (transact (store_invalidate reason ts) t).2 :=
  via_op (.invalidate reason ts) rfl (by simp only [StoreOp.step, StoreOp.prog, transact_map])

theorem via_get (o : Order) (n : Int) (t : Tables) : Via t (transact (store_get_unblinded_tokens o n) t).2 :=
  via_op (.getTokens o n) rfl (by simp only [StoreOp.step, StoreOp.prog, transact_map])

theorem via_spending (sign : Signer) (o : Order) (m : Bytes) (n : Int) (t : Tables) :
    Via t (spending_get sign o m n t).2 := by
  have h := via_get o n t
  unfold spending_get
  split
  · rename_i e t' he
    rwa [he] at h
  · rename_i ts t' he
    rw [he] at h
    split <;> exact h

theorem via_give_up (g : PassGroup) (e : PyErr) (t : Tables) : Via t (give_up g e t).2 := by
  have h := via_reset g.unblinded_tokens t
  unfold give_up PassGroup.reset
  split <;> rename_i he <;> rwa [he] at h

theorem via_on_success (s : OnSuccess) (n : Nat) (g : PassGroup) (t : Tables) : Via t (s.run n g t).2 := by
  unfold OnSuccess.run
  split
  · exact via_discard _ t
  · unfold spend_for_allocate_buckets
    split
    · exact Via.refl t
    · dsimp only
      generalize PassGroup.split g _ = sp
      have h := via_discard sp.1.unblinded_tokens t
      unfold PassGroup.mark_spent PassGroup.reset
      split <;> rename_i he <;> rw [he] at h
      · exact h
      · exact h.trans (via_reset _ _)

theorem via_rejected (g : PassGroup) (failed : List Nat) (t : Tables) :
    Via t (invalidate_rejected_passes g failed t).2 := by
  unfold invalidate_rejected_passes
  split
  · exact Via.refl t
  · dsimp only
    generalize PassGroup.split g _ = sp
    have h := via_invalidate "signature check failed" sp.1.unblinded_tokens t
    unfold PassGroup.mark_invalid
    split <;> rename_i he <;> rwa [he] at h

theorem via_expand (sign : Signer) (o : Order) (g : PassGroup) (n : Int) (t : Tables) :
    Via t (g.expand sign o n t).2 := by
  have h := via_spending sign o g.message n t
  unfold PassGroup.expand
  split <;> rename_i he <;> rwa [he] at h

theorem via_start (sign : Signer) (o : Order) (m : Bytes) (n : Int) (t : Tables) : Via t (call_start sign o m n t).2 := by
  have h := via_spending sign o m n t
  unfold call_start
  split <;> rename_i he <;> rwa [he] at h

theorem via_answer (sign : Signer) (o : Order) (s : OnSuccess) (n : Int) (g : PassGroup) (a : CallAnswer) (t : Tables) :
    Via t (call_answer sign o s n g a t).2 := by
  unfold call_answer
  split
  · rename_i b
    have h := via_on_success s b g t
    split <;> rename_i he <;> rw [he] at h
    · exact h.trans (via_give_up _ _ _)
    · exact h
  · exact via_give_up _ _ _
  · rename_i failed
    have h := via_rejected g failed t
    split <;> rename_i he <;> rw [he] at h
    · exact h.trans (via_give_up _ _ _)
    · exact h.trans (via_give_up _ _ _)
    · rename_i okay t1
      have h' := h.trans (via_expand sign o okay (n - okay.passes.length) t1)
      split <;> rename_i he' <;> rw [he'] at h'
      · exact h'.trans (via_give_up _ _ _)
      · exact h'

theorem via_send_paid (op : StorageOp) (c : Call) (t : Tables) : Via t (send_paid op c t).2.2 := by
  unfold send_paid
  split
  · exact Via.refl t
  · rename_i e _
    have h := via_give_up c.pass_group e t
    split <;> rename_i he <;> rwa [he] at h

theorem via_send_free (op : StorageOp) (r : StorageRequest) (t : Tables) : Via t (send_free op r t).2.2 := by
  unfold send_free
  split <;> exact Via.refl t

theorem via_settle (op : StorageOp) (c : Call) (r : OpResult) (s : CallState) (t : Tables) :
    Via t (settle op c r s t).2.2 := by
  unfold settle
  split
  · exact via_send_paid _ _ _
  · exact Via.refl t
  · exact Via.refl t

theorem via_pay (sign : Signer) (o : Order) (v : Int) (op : StorageOp) (n : Int) (t : Tables) :
    Via t (pay sign o v op n t).2.2 := by
  unfold pay
  exact (via_start sign o op.message n t).trans (via_settle _ _ _ _ _)

theorem via_op_start (sign : Signer) (o : Order) (v : Int) (get_rref : Except PyErr RRef) (op : StorageOp) (t : Tables) :
    Via t (op_start sign o v get_rref op t).2.2 := by
  unfold op_start
  split
  · exact Via.refl t
  · split
    · exact via_pay ..
    · exact via_send_free ..
    · split
      · exact via_send_free ..
      · exact via_pay ..
    · exact via_send_free ..

theorem via_op_asked (sign : Signer) (o : Order) (v now : Int) (op : StorageOp) (reply : Reply) (t : Tables) :
    Via t (op_asked sign o v now op reply t).2.2 := by
  unfold op_asked
  split
  · exact Via.refl t
  · split
    · split
      · exact Via.refl t
      · exact via_pay ..
    · split
      · exact Via.refl t
      · exact via_pay ..
    · split <;> exact Via.refl t

theorem via_op_paid (sign : Signer) (o : Order) (op : StorageOp) (c : Call) (reply : Reply) (t : Tables) :
    Via t (op_paid sign o op c reply t).2.2 := by
  unfold op_paid
  exact (via_answer ..).trans (via_settle ..)


theorem via_session (sign : Signer) (v : Int) (s : StorageSession) (e : SessionEvent)
    (hp : (WholeEvent.storage e).possible = true) : Via s.store (s.step sign v e).store := by
  cases e with
  | start op rref o => exact via_op_start ..
  | answer i reply now o =>
    simp only [StorageSession.step]
    split
    · exact .refl _
    · exact via_op_asked ..
  | answerPaid i reply now o =>
    simp only [StorageSession.step]
    split
    · exact .refl _
    · exact via_op_paid ..
  | other op =>
    simp only [StorageSession.step]
    split
    · exact via_op op hp rfl
    · exact .refl _
  | restart => cases hp

/-! ### The controller of a whole node -/

/-- Both conditions for an event of the controller. -/
structure RealEvent (L : Ristretto) (c : Controller) (e : RedeemEvent) : Prop where
  answer : ∀ i pk us, e = .answer i (.success pk us) → ∀ s, c.waiting[i]? = some s →
    ∃ issuer, to_answer (redeemWithCounter L issuer s.frame.voucher s.frame.counter (s.tokens.map ascii)) = .success pk us
  fresh : ∀ made, Makes c e made → ∀ r ∈ made, ∀ p, HasPreimage L r p → ∀ v g r', KnownFor c v g r' → ¬ HasPreimage L r' p

inductive IssuedRun (L : Ristretto) (cfg : RedeemCfg) : Controller → List RedeemEvent → Prop
  | nil (c : Controller) : IssuedRun L cfg c []
  | cons {c : Controller} {e : RedeemEvent} {es : List RedeemEvent} (h : RealEvent L c e)
      (hs : IssuedRun L cfg (c.step cfg e) es) : IssuedRun L cfg c (e :: es)

theorem real_other (L : Ristretto) (c : Controller) (op : StoreOp) : RealEvent L c (.other op) :=
  ⟨fun _ _ _ h => (nomatch h), fun _ ⟨_, _, _, _, h, _⟩ => (nomatch h)⟩

theorem real_append {L : Ristretto} {cfg : RedeemCfg} {a b : List RedeemEvent} {c : Controller} (h : IssuedRun L cfg c a)
    (h' : IssuedRun L cfg (c.run cfg a) b) : IssuedRun L cfg c (a ++ b) := by
  induction h with
  | nil => exact h'
  | cons h1 _ ih => exact .cons h1 (ih h')

theorem real_others (L : Ristretto) (cfg : RedeemCfg) (ops : List StoreOp) (c : Controller) (ht : c.todo = [])
    (hn : ∀ op ∈ ops, notRedeeming op = true) :
    IssuedRun L cfg c (ops.map .other) ∧ c.run cfg (ops.map .other) = { c with store := runStore ops c.store } := by
  induction ops generalizing c with
  | nil => exact ⟨.nil _, rfl⟩
  | cons op ops ih =>
    have hs : c.step cfg (.other op) = { c with store := (op.step c.store).2 } := by
      simp only [Controller.step, ht, List.isEmpty_nil, hn op List.mem_cons_self, Bool.and_self, if_true]
    obtain ⟨h1, h2⟩ := ih { c with store := (op.step c.store).2 } ht fun op h => hn op (List.mem_cons_of_mem _ h)
    rw [← hs] at h1 h2
    refine ⟨.cons (real_other L c op) h1, ?_⟩
    show (c.step cfg (.other op)).run cfg _ = _
    rw [h2, hs]
    rfl

/-- The life of a node is one of its controller, too. -/
theorem as_controller (L : Ristretto) (cfg : RedeemCfg) (v : Int) (events : List WholeEvent) : ∀ n : WholeNode,
    n.redeeming.store = n.storage.store → FreshLife L cfg v n events →
    ∃ es, IssuedRun L cfg n.redeeming es ∧
      (n.run cfg (ristretto_signer L) v events).redeeming = n.redeeming.run cfg es ∧
      (n.run cfg (ristretto_signer L) v events).redeeming.store = (n.run cfg (ristretto_signer L) v events).storage.store := by
  induction events with
  | nil => exact fun n hn _ => ⟨[], .nil _, rfl, hn⟩
  | cons e es ih =>
    intro n hn ⟨h1, h2, h3⟩
    have hsame : { n.redeeming with store := n.storage.store } = n.redeeming := by rw [← hn]
    obtain ⟨now, hnow, hrun, hst⟩ : ∃ now, IssuedRun L cfg n.redeeming now ∧
        (n.step cfg (ristretto_signer L) v e).redeeming = n.redeeming.run cfg now ∧
        (n.step cfg (ristretto_signer L) v e).redeeming.store = (n.step cfg (ristretto_signer L) v e).storage.store := by
      unfold WholeNode.step
      by_cases hp : e.possible = true
      case neg => rw [if_neg hp]; exact ⟨[], .nil _, rfl, hn⟩
      rw [if_pos hp]
      cases e with
      | crash =>
        dsimp only
        rw [hsame]
        refine ⟨[.crash], .cons ⟨fun _ _ _ h => (nomatch h), fun _ ⟨_, _, _, _, h, _⟩ => (nomatch h)⟩ (.nil _), rfl, ?_⟩
        show (StoreOp.restart.step n.redeeming.store).2 = (StoreOp.restart.step n.storage.store).2
        rw [hn]
      | storage e =>
        dsimp only
        split
        · rename_i ht
          obtain ⟨ops, ho, hs⟩ := (via_session (ristretto_signer L) v n.storage e hp).ops
          obtain ⟨r1, r2⟩ := real_others L cfg ops n.redeeming (List.isEmpty_iff.mp ht) ho
          refine ⟨ops.map .other, r1, ?_, rfl⟩
          rw [r2, hn, ← hs]
        · exact ⟨[], .nil _, rfl, hn⟩
      | redeeming e =>
        dsimp only
        rw [hsame]
        refine ⟨[e], .cons ⟨?_, ?_⟩ (.nil _), rfl, rfl⟩
        · rintro i pk us rfl s hs
          exact h1 i pk us rfl s hs
        · intro made hm
          have := h2 e made rfl
          rw [hsame] at this
          exact this hm
    obtain ⟨later, hl, hrl, hsl⟩ := ih _ hst h3
    refine ⟨now ++ later, real_append hnow (by rw [← hrun]; exact hl), ?_, hsl⟩
    show (WholeNode.run cfg (ristretto_signer L) v (n.step cfg (ristretto_signer L) v e) es).redeeming = _
    rw [hrl, hrun]
    exact (List.foldl_append ..).symm

/-! ### Where tokens come from -/

theorem try_map_mem {α β ε} {f : α → Except ε β} {l : List α} {r : List β} (h : try_map f l = .ok r) :
    ∀ y ∈ r, ∃ x ∈ l, f x = .ok y := by
  induction l generalizing r with
  | nil => cases h; exact fun _ h => (nomatch h)
  | cons x xs ih =>
    unfold try_map at h
    cases hx : f x with
    | error e => rw [hx] at h; exact nomatch h
    | ok y =>
      rw [hx] at h
      cases hxs : try_map f xs with
      | error e => rw [hxs] at h; exact nomatch h
      | ok ys =>
        rw [hxs] at h
        cases h
        intro z hz
        rcases List.mem_cons.mp hz with rfl | hz
        · exact ⟨x, List.mem_cons_self, hx⟩
        · obtain ⟨w, hw, he⟩ := ih hxs z hz
          exact ⟨w, List.mem_cons_of_mem _ hw, he⟩

theorem mem_zipWith_left {α β γ} {f : α → β → γ} {l : List α} {m : List β} {z : γ} (h : z ∈ List.zipWith f l m) :
    ∃ x ∈ l, ∃ y, z = f x y := by
  induction l generalizing m with
  | nil => simp at h
  | cons x xs ih =>
    cases m with
    | nil => simp at h
    | cons y ys =>
      rw [List.zipWith_cons_cons] at h
      rcases List.mem_cons.mp h with rfl | h
      · exact ⟨x, List.mem_cons_self, y, rfl⟩
      · obtain ⟨x', hx, y', hz⟩ := ih h
        exact ⟨x', List.mem_cons_of_mem _ hx, y', hz⟩

/-- The token is made from this preimage. -/
def MadeOf (L : Ristretto) (x : String) (p : L.Preimage) : Prop := ∃ W, x = text (L.unblinded_tokens.encode (p, W))

theorem MadeOf.unique {L : Ristretto} (hL : Lawful L) {x : String} {p q : L.Preimage} (h : MadeOf L x p) (h' : MadeOf L x q) :
    p = q := by
  obtain ⟨W, rfl⟩ := h
  obtain ⟨W', he⟩ := h'
  have := congrArg ascii he
  rw [ascii_text, ascii_text] at this
  have := congrArg L.unblinded_tokens.decode this
  rw [hL.unblinded_tokens, hL.unblinded_tokens] at this
  cases this
  rfl

theorem answer_made_of {L : Ristretto} (hL : Lawful L) {issuer : RedeemRequest → Option Json} {voucher : String} {counter : Nat}
    {ts : List String} {pk : String} {us : List String}
    (h : to_answer (redeemWithCounter L issuer voucher counter (ts.map ascii)) = .success pk us) :
    ∀ u ∈ us, ∃ r ∈ ts, ∃ p, HasPreimage L r p ∧ MadeOf L u p := by
  unfold to_answer at h
  split at h
  · rename_i pk' toks he
    cases h
    unfold redeemWithCounter at he
    split at he
    · exact nomatch he
    · rename_i tokens hb
      intro u hu
      obtain ⟨b, hbm, rfl⟩ := List.mem_map.mp hu
      obtain ⟨result, v, _, _, _, hr⟩ := redeem_response_ok L he
      obtain ⟨proofj, sigsj, sigs, PK, signed, proof, unblinded, _, _, _, _, hpk, _, _, hun, ht⟩ :=
        redeem_succeeded_inv L hr
      obtain ⟨-, -, hz⟩ := invalid_or_unblind_some L hun
      obtain ⟨y, hy, hyb⟩ := try_map_mem ht b hbm
      rw [new_unblinded_token_ok L hL] at hyb
      cases hyb
      rw [hz] at hy
      obtain ⟨t, htm, q, rfl⟩ := mem_zipWith_left hy
      unfold basic_random_tokens at hb
      obtain ⟨raw, hraw, hd⟩ := try_map_mem hb t htm
      obtain ⟨r, hrm, rfl⟩ := List.mem_map.mp hraw
      refine ⟨r, hrm, t.1, ⟨t.2, ?_⟩, _, rfl⟩
      unfold Codec.decode_base64 at hd
      split at hd
      · cases hd; assumption
      · cases hd
  · exact nomatch h
  · exact nomatch h
  · exact nomatch h

/-! ### The invariant -/

theorem mem_random {v : String} {g : Nat} {t : Tables} {r : String} :
    r ∈ select_random_tokens v g t ↔ ⟨r, v, g⟩ ∈ t.app.tokens := by
  unfold select_random_tokens
  rw [List.mem_map]
  constructor
  · rintro ⟨row, hrow, rfl⟩
    obtain ⟨h1, h2⟩ := List.mem_filter.mp hrow
    simp only [Bool.and_eq_true, beq_iff_eq] at h2
    obtain ⟨rfl, rfl⟩ := h2
    exact h1
  · intro h
    exact ⟨_, List.mem_filter.mpr ⟨h, by simp⟩, rfl⟩

/-- The token is made of a random token that was sent for this group. -/
def SentFor (L : Ristretto) (c : Controller) (v : String) (g : Nat) (u : String) : Prop :=
  ∃ ts r p, .sent v g ts ∈ c.log ∧ r ∈ ts ∧ HasPreimage L r p ∧ MadeOf L u p

structure OriginInv (L : Ristretto) (c : Controller) : Prop where
  own : ∀ v g r v' g' r' p, KnownFor c v g r → KnownFor c v' g' r' → HasPreimage L r p → HasPreimage L r' p → v = v' ∧ g = g'
  answers : ∀ f pk us, .answered f (.success pk us) ∈ c.todo → ∀ u ∈ us, SentFor L c f.voucher f.counter u
  stored : ∀ v g pk us, .stored v g pk us ∈ c.log → ∀ u ∈ us, SentFor L c v g u
  seen : ∀ x ∈ storedTokens c.store, ∃ v g pk us, .stored v g pk us ∈ c.log ∧ x ∈ us

theorem originInv_init (L : Ristretto) : OriginInv L {} := by
  constructor <;> simp [KnownFor, select_random_tokens, storedTokens]

/-- A new random token of a group is made in this event. -/
def MadeIn (c : Controller) (e : RedeemEvent) (v : String) (g : Nat) (r : String) : Prop :=
  ∃ env f rest n made, e = .work env ∧ c.todo = .iterate f :: rest ∧ select_random_tokens f.voucher f.counter c.store = [] ∧
    env.random f.voucher f.counter n = .ok made ∧ r ∈ made ∧ v = f.voucher ∧ g = f.counter

theorem rows_step {cfg : RedeemCfg} (c : Controller) (e : RedeemEvent) {v : String} {g : Nat} {r : String}
    (h : r ∈ select_random_tokens v g (c.step cfg e).store) : r ∈ select_random_tokens v g c.store ∨
      MadeIn c e v g r := by
  have keep : (c.step cfg e).store.app.tokens = c.store.app.tokens → r ∈ select_random_tokens v g c.store := by
    intro he
    rw [mem_random, he] at h
    exact mem_random.mpr h
  cases e with
  | crash => exact .inl (keep rfl)
  | other op =>
    left
    apply keep
    simp only [Controller.step]
    split
    · rename_i hc
      simp only [Bool.and_eq_true] at hc
      exact (other_effect op hc.2 c.store).1
    · rfl
  | redeem w n => left; apply keep; simp only [Controller.step]; split <;> rfl
  | timer => left; apply keep; simp only [Controller.step]; split <;> rfl
  | answer i a =>
    left; apply keep
    simp only [Controller.step]
    split
    · rfl
    · split <;> rfl
  | work env =>
    cases ht : c.todo with
    | nil => left; apply keep; simp only [Controller.step, ht]
    | cons task todo =>
      have hstep : c.step cfg (.work env) = task.run cfg env { c with todo := todo } := by
        simp only [Controller.step, ht]
      cases task with
      | redeem w n => left; apply keep; rw [hstep]; simp only [Task.run]; split <;> rfl
      | retry w =>
        left; apply keep; rw [hstep]
        simp only [Task.run]
        split
        · rfl
        · split
          · rfl
          · split <;> rfl
      | perform f ts =>
        left; apply keep; rw [hstep]
        simp only [Task.run, contact_issuer]
        split
        · rfl
        · split <;> rfl
      | iterate f =>
        rw [hstep] at h keep
        simp only [Task.run] at h keep
        split at h
        rotate_left
        · exact .inl h
        unfold get_random_tokens at h
        cases hg : token_count_for_group cfg.num_redemption_groups f.total f.counter with
        | error e => rw [hg] at h; exact .inl h
        | ok n =>
          rw [hg] at h
          dsimp only at h
          rcases add_effect env.order env.now f.voucher f.total f.counter
              (env.random f.voucher f.counter n.toNat) c.store with
            ⟨err, he⟩ | ⟨ts, he, hp, hne⟩ | ⟨ts, hget, he, hnil⟩
          · rw [he] at h; exact .inl h
          · rw [he] at h; exact .inl h
          · rw [he] at h
            rw [mem_random] at h
            have h' : (⟨r, v, g⟩ : TokenRow) ∈ c.store.app.tokens ++ ts.map (fun x => ⟨x, f.voucher, f.counter⟩) := h
            rcases List.mem_append.mp h' with h' | h'
            · exact .inl (mem_random.mpr h')
            · obtain ⟨x, hx, hxe⟩ := List.mem_map.mp h'
              cases hxe
              exact .inr ⟨env, f, todo, _, ts, rfl, ht, hnil, hget, hx, rfl, rfl⟩
      | answered f a =>
        left
        cases a with
        | success pk us =>
          rw [hstep] at h
          simp only [Task.run, resume] at h
          dsimp only [redeem_success] at h
          rcases insert_effect env.now f.voucher pk us (f.counter + 1 == cfg.num_redemption_groups)
              (decide (pk ∈ cfg.allowed_public_keys)) c.store with ⟨err, he⟩ | ⟨row, hrow, he⟩
          · rw [he] at h; exact h
          · rw [he] at h
            rw [mem_random] at h ⊢
            exact (List.mem_filter.mp h).1
        | alreadySpent =>
          exact keep (by rw [hstep]; exact (doubleSpent_effect env.now f.voucher c.store).1)
        | unpaid => exact keep (by rw [hstep]; rfl)
        | failed d => exact keep (by rw [hstep]; rfl)

theorem MadeIn.same {c : Controller} {e : RedeemEvent} {v v' : String} {g g' : Nat} {r r' : String} (h : MadeIn c e v g r)
    (h' : MadeIn c e v' g' r') : v = v' ∧ g = g' := by
  obtain ⟨env, f, rest, n, made, -, ht, -, -, -, rfl, rfl⟩ := h
  obtain ⟨env', f', rest', n', made', -, ht', -, -, -, rfl, rfl⟩ := h'
  rw [ht] at ht'
  cases ht'
  exact ⟨rfl, rfl⟩

theorem known_step {cfg : RedeemCfg} {c : Controller} (hr : RInv cfg c) (e : RedeemEvent) {v : String} {g : Nat} {r : String}
    (h : KnownFor (c.step cfg e) v g r) : KnownFor c v g r ∨ MadeIn c e v g r := by
  rcases h with ⟨ts, hm, hrt⟩ | h
  · have old : .sent v g ts ∈ c.log → KnownFor c v g r := fun h => .inl ⟨ts, h, hrt⟩
    left
    rcases step_records cfg c e with h | ⟨f, d, rest, n, _, _, h⟩ | ⟨f, ts', rest, row, ht, _, _, _, h⟩ | ⟨w, d, a, h⟩ |
      ⟨f, pk, us, rest, now, _, _, h⟩ | h
    · rw [h] at hm; exact old hm
    · rw [h] at hm
      exact old (by simpa using hm)
    · rw [h] at hm
      rcases List.mem_append.mp hm with hm | hm
      · exact old hm
      · cases List.mem_singleton.mp hm
        exact .inr ((hr.perform f ts rest ht).2.2.2.1.subset hrt)
    · rw [h] at hm
      exact old (by simpa using hm)
    · rw [h] at hm
      exact old (by simpa using hm)
    · rw [h] at hm
      exact old (by simpa using hm)
  · rcases rows_step c e h with h | h
    · exact .inl (.inr h)
    · exact .inr h

theorem held_other {op : StoreOp} (hn : notRedeeming op = true) (t : Tables) {x : String}
    (h : x ∈ storedTokens (op.step t).2) : x ∈ storedTokens t := by
  have sub : (op.step t).2.app.unblinded.Sublist t.app.unblinded := by
    cases op <;> simp only [notRedeeming, Bool.false_eq_true] at hn <;>
      simp only [StoreOp.step, StoreOp.prog, transact_map]
    case getTokens o n =>
      rw [getTokens_eq]
      dsimp only
      repeat' split
      all_goals exact List.Sublist.refl _
    case discard ts => rw [discard_eq]; exact List.filter_sublist
    case invalidate reason ts =>
      rw [invalidate_eq]
      split
      · exact List.filter_sublist
      · exact List.Sublist.refl _
    case reset ts => rw [reset_eq]; exact List.Sublist.refl _
    case maintStart now m =>
      rw [maintStart_eq]
      cases m.rowid <;> exact List.Sublist.refl _
    case maintObserve pv sizes m =>
      rw [maintObserve_eq]
      cases required_passesE pv sizes <;> exact List.Sublist.refl _
    case maintFinish now m => exact List.Sublist.refl _
  exact (sub.map _).subset h

/-- Tokens come into the store only when they are recorded as stored. -/
theorem newly_held {cfg : RedeemCfg} (c : Controller) (e : RedeemEvent) {x : String}
    (h : x ∈ storedTokens (c.step cfg e).store) : x ∈ storedTokens c.store ∨
      ∃ f pk us, (c.step cfg e).log = c.log ++ [.stored f.voucher f.counter pk us] ∧ x ∈ us ∧
        (∃ rest, c.todo = .answered f (.success pk us) :: rest) := by
  have keep : (c.step cfg e).store.app.unblinded = c.store.app.unblinded → x ∈ storedTokens c.store := by
    intro he
    unfold storedTokens at h ⊢
    rwa [he] at h
  cases e with
  | crash => exact .inl (keep rfl)
  | other op =>
    left
    simp only [Controller.step] at h
    split at h
    · rename_i hc
      simp only [Bool.and_eq_true] at hc
      exact held_other hc.2 c.store h
    · exact h
  | redeem w n => left; apply keep; simp only [Controller.step]; split <;> rfl
  | timer => left; apply keep; simp only [Controller.step]; split <;> rfl
  | answer i a =>
    left; apply keep
    simp only [Controller.step]
    split
    · rfl
    · split <;> rfl
  | work env =>
    cases ht : c.todo with
    | nil => left; apply keep; simp only [Controller.step, ht]
    | cons task todo =>
      have hstep : c.step cfg (.work env) = task.run cfg env { c with todo := todo } := by
        simp only [Controller.step, ht]
      cases task with
      | redeem w n => left; apply keep; rw [hstep]; simp only [Task.run]; split <;> rfl
      | retry w =>
        left; apply keep; rw [hstep]
        simp only [Task.run]
        split
        · rfl
        · split
          · rfl
          · split <;> rfl
      | perform f ts =>
        left; apply keep; rw [hstep]
        simp only [Task.run, contact_issuer]
        split
        · rfl
        · split <;> rfl
      | iterate f =>
        left; apply keep; rw [hstep]
        simp only [Task.run]
        split
        rotate_left
        · rfl
        unfold get_random_tokens
        cases hg : token_count_for_group cfg.num_redemption_groups f.total f.counter with
        | error e => rfl
        | ok n =>
          dsimp only
          rcases add_effect env.order env.now f.voucher f.total f.counter
              (env.random f.voucher f.counter n.toNat) c.store with
            ⟨err, he⟩ | ⟨ts, he, hp, hne⟩ | ⟨ts, hget, he, hnil⟩
          · rw [he]
          · rw [he]
          · rw [he]; rfl
      | answered f a =>
        cases a with
        | success pk us =>
          rw [hstep] at h ⊢
          simp only [Task.run, resume, redeem_success] at h ⊢
          rcases insert_effect env.now f.voucher pk us (f.counter + 1 == cfg.num_redemption_groups)
              (decide (pk ∈ cfg.allowed_public_keys)) c.store with ⟨err, he⟩ | ⟨row, hrow, he⟩
          · rw [he] at h; exact .inl h
          · rw [he] at h ⊢
            unfold storedTokens inserted at h
            dsimp only at h
            rw [List.map_append, List.map_map] at h
            rcases List.mem_append.mp h with h | h
            · exact .inl h
            · right
              obtain ⟨y, hy, rfl⟩ := List.mem_map.mp h
              exact ⟨f, pk, us, rfl, hy, todo, rfl⟩
        | alreadySpent =>
          left; apply keep; rw [hstep]
          show (transact (store_mark_double_spent env.now f.voucher) c.store).2.app.unblinded = _
          rw [doubleSpent_eq]
          split <;> rfl
        | unpaid => exact .inl (keep (by rw [hstep]; rfl))
        | failed d => exact .inl (keep (by rw [hstep]; rfl))

/-- Work with an answer is there since the answer came. -/
theorem answered_since {cfg : RedeemCfg} (c : Controller) (e : RedeemEvent) {f : Frame} {a : IssuerAnswer}
    (h : .answered f a ∈ (c.step cfg e).todo) : .answered f a ∈ c.todo ∨
      ∃ i s, e = .answer i a ∧ c.waiting[i]? = some s ∧ s.frame = f := by
  cases e with
  | crash =>
    simp only [Controller.step, check_pending_vouchers] at h
    repeat' split at h
    all_goals simp at h
  | other op => simp only [Controller.step] at h; split at h <;> exact .inl h
  | redeem w n =>
    simp only [Controller.step] at h
    split at h
    · simp at h
    · exact .inl h
  | timer =>
    simp only [Controller.step, retry_redemption] at h
    split at h
    · simp at h
    · exact .inl h
  | answer i a' =>
    simp only [Controller.step] at h
    split at h
    · exact .inl h
    · rename_i s hs
      split at h
      · rcases List.mem_cons.mp h with h | h
        · cases h
          exact .inr ⟨i, s, rfl, hs, rfl⟩
        · exact .inl h
      · exact .inl h
  | work env =>
    left
    simp only [Controller.step] at h
    split at h
    · exact h
    · rename_i task todo ht
      rw [ht]
      apply List.mem_cons_of_mem
      cases task <;> simp only [Task.run, contact_issuer, resume, redeem_success] at h <;> (repeat' split at h) <;>
        first
        | exact h
        | exact (List.mem_cons.mp h).resolve_left (fun h => nomatch h)
        | skip
      · exact nomatch h
      · rename_i a' _ _
        cases a' <;> exact h

theorem SentFor.mono {L : Ristretto} {c c' : Controller} {v : String} {g : Nat} {u : String} {l : List Happening}
    (hl : c'.log = c.log ++ l) (h : SentFor L c v g u) : SentFor L c' v g u := by
  obtain ⟨ts, r, p, h1, h2⟩ := h
  exact ⟨ts, r, p, by rw [hl]; exact List.mem_append_left _ h1, h2⟩

theorem originInv_step {L : Ristretto} (hL : Lawful L) {cfg : RedeemCfg} {c : Controller} (hr : RInv cfg c)
    (h : OriginInv L c) {e : RedeemEvent} (he : RealEvent L c e) : OriginInv L (c.step cfg e) := by
  obtain ⟨l, hl⟩ := step_log cfg c e
  have fresh : ∀ {v g r p}, MadeIn c e v g r → HasPreimage L r p → ∀ v' g' r', KnownFor c v' g' r' → ¬ HasPreimage L r' p := by
    rintro v g r p ⟨env, f, rest, n, made, h1, h2, h3, h4, hm, -, -⟩ hp
    exact he.fresh made ⟨env, f, rest, n, h1, h2, h3, h4⟩ r hm p hp
  refine ⟨?_, ?_, ?_, ?_⟩
  · intro v g r v' g' r' p k k' hp hp'
    rcases known_step hr e k with k | k <;> rcases known_step hr e k' with k' | k'
    · exact h.own v g r v' g' r' p k k' hp hp'
    · exact absurd hp (fresh k' hp' _ _ _ k)
    · exact absurd hp' (fresh k hp _ _ _ k')
    · exact k.same k'
  · intro f pk us hm u hu
    apply SentFor.mono hl
    rcases answered_since c e hm with hm | ⟨i, s, hi, hs, rfl⟩
    · exact h.answers f pk us hm u hu
    · obtain ⟨issuer, hans⟩ := he.answer i pk us hi s hs
      obtain ⟨r, hrm, p, hp, hmade⟩ := answer_made_of hL hans u hu
      obtain ⟨l₁, l₂, hlog, -⟩ := (hr.waiting s (List.mem_of_getElem? hs)).2.2.2
      exact ⟨s.tokens, r, p, by rw [hlog]; simp, hrm, hp, hmade⟩
  · intro v g pk us hm u hu
    apply SentFor.mono hl
    rcases step_records cfg c e with h' | ⟨f, d, rest, n, _, _, h'⟩ | ⟨f, ts', rest, row, ht, _, _, _, h'⟩ | ⟨w, d, a, h'⟩ |
      ⟨f, pk', us', rest, now, ht, _, h'⟩ | h'
    · rw [h'] at hm; exact h.stored v g pk us hm u hu
    · rw [h'] at hm; exact h.stored v g pk us (by simpa using hm) u hu
    · rw [h'] at hm; exact h.stored v g pk us (by simpa using hm) u hu
    · rw [h'] at hm; exact h.stored v g pk us (by simpa using hm) u hu
    · rw [h'] at hm
      rcases List.mem_append.mp hm with hm | hm
      · exact h.stored v g pk us hm u hu
      · cases List.mem_singleton.mp hm
        exact h.answers f pk us (by rw [ht]; exact List.mem_cons_self) u hu
    · rw [h'] at hm; exact h.stored v g pk us (by simpa using hm) u hu
  · intro x hx
    rcases newly_held c e hx with hx | ⟨f, pk, us, hlog, hx, -⟩
    · obtain ⟨v, g, pk, us, h1, h2⟩ := h.seen x hx
      exact ⟨v, g, pk, us, by rw [hl]; exact List.mem_append_left _ h1, h2⟩
    · exact ⟨f.voucher, f.counter, pk, us, by rw [hlog]; simp, hx⟩

theorem originInv_run {L : Ristretto} (hL : Lawful L) {cfg : RedeemCfg} {es : List RedeemEvent} {c : Controller}
    (real : IssuedRun L cfg c es) (hr : RInv cfg c) (h : OriginInv L c) : OriginInv L (c.run cfg es) := by
  induction real with
  | nil => exact h
  | cons he _ ih => exact ih (rinv_step hr _) (originInv_step hL hr h he)

theorem redeemed_of_stored {v : String} {g : Nat} {pk : String} {us : List String} {log : List Happening}
    (h : .stored v g pk us ∈ log) : g ∈ redeemedGroups v log := by
  induction log with
  | nil => exact nomatch h
  | cons x xs ih =>
    rcases List.mem_cons.mp h with rfl | h0
    · simp [redeemedGroups]
    · cases x <;> simp only [redeemedGroups]
      all_goals first
        | exact ih h0
        | split
      · exact List.mem_cons_of_mem _ (ih h0)
      · exact ih h0

/-- A token that has been stored is not stored again, if no group is. -/
theorem not_again {L : Ristretto} (hL : Lawful L) {cfg : RedeemCfg} {es : List RedeemEvent} {c : Controller}
    (real : IssuedRun L cfg c es) (hr : RInv cfg c) (h : OriginInv L c)
    (once : ∀ w, (redeemedGroups w (c.run cfg es).log).Nodup) {x v : String} {g : Nat} {pk : String} {us : List String}
    (hm : .stored v g pk us ∈ c.log) (hx : x ∈ us) (gone : x ∉ storedTokens c.store) :
    x ∉ storedTokens (c.run cfg es).store := by
  induction real with
  | nil => exact gone
  | @cons c e es he hs ih =>
    obtain ⟨l, hl⟩ := step_log cfg c e
    refine ih (rinv_step hr e) (originInv_step hL hr h he) once (by rw [hl]; exact List.mem_append_left _ hm) ?_
    intro hheld
    rcases newly_held c e hheld with hh | ⟨f, pk', us', hlog, hx', rest, ht⟩
    · exact gone hh
    · obtain ⟨ts, r, p, h1, h2, h3, h4⟩ := h.stored v g pk us hm x hx
      obtain ⟨ts', r', p', h1', h2', h3', h4'⟩ := h.answers f pk' us' (by rw [ht]; exact List.mem_cons_self) x hx'
      cases h4.unique hL h4'
      obtain ⟨rfl, rfl⟩ := h.own v g r f.voucher f.counter r' p (.inl ⟨ts, h1, h2⟩) (.inl ⟨ts', h1', h2'⟩) h3 h3'
      have once' := once f.voucher
      obtain ⟨l', hl'⟩ := run_log cfg es (c.step cfg e)
      have hrun : (c.run cfg (e :: es)).log = (c.step cfg e).log ++ l' := hl'
      rw [hrun, hlog, redeemedGroups_append, redeemedGroups_append] at once'
      have := (List.nodup_append.mp (List.nodup_append.mp once').1).2.2 f.counter (redeemed_of_stored hm) f.counter (by simp [redeemedGroups])
      exact this rfl

end ZKAP
