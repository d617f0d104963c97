import Verif.Lemmas.RealSigner
import Verif.Lemmas.ControllerSteps
import Verif.Spec.WholeNode

/-! Lemmas about the whole node. -/
namespace ZKAP
open Spec

/-- The answers at hand were made from responses of the issuer. -/
def AnswersReal (L : Ristretto) (l : List Task) : Prop :=
  ∀ f pk us, .answered f (.success pk us) ∈ l →
    ∃ issuer voucher counter random, to_answer (redeemWithCounter L issuer voucher counter random) = .success pk us

theorem AnswersReal.calls {L : Ristretto} {l : List Task} (h : ∀ x ∈ l, x.isCall = true) : AnswersReal L l :=
  fun _ _ _ hm => nomatch h _ hm

theorem AnswersReal.cons {L : Ristretto} {task : Task} {l : List Task} (hl : AnswersReal L l)
    (ht : ∀ f pk us, task ≠ .answered f (.success pk us)) : AnswersReal L (task :: l) := by
  intro f pk us hm
  rcases List.mem_cons.mp hm with h | h
  · exact absurd h.symm (ht f pk us)
  · exact hl f pk us h

/-- What an event of the controller does to the store, other than ends and operations from elsewhere. -/
def OwnEvent : RedeemEvent → Prop
  | .crash | .other _ => False
  | _ => True

structure OwnOp (cfg : RedeemCfg) (c : Controller) (e : RedeemEvent) (op : StoreOp) : Prop where
  store : (c.step cfg e).store = (op.step c.store).2
  outside : outside op = true
  issues : ∀ x, Issues x op → ∃ env f pk us rest, e = .work env ∧ c.todo = .answered f (.success pk us) :: rest ∧ x ∈ us ∧
    (IssuesSpendable x op → pk ∈ cfg.allowed_public_keys)

theorem own_op {cfg : RedeemCfg} (c : Controller) (e : RedeemEvent) (ho : OwnEvent e) :
    (c.step cfg e).store = c.store ∨ ∃ op, OwnOp cfg c e op := by
  cases e with
  | redeem v n => simp only [Controller.step]; split <;> exact .inl rfl
  | timer => simp only [Controller.step]; split <;> exact .inl rfl
  | answer i a =>
    simp only [Controller.step]
    split
    · exact .inl rfl
    · split <;> exact .inl rfl
  | other op => exact ho.elim
  | crash => exact ho.elim
  | work env =>
    cases ht : c.todo with
    | nil =>
      left
      simp only [Controller.step, ht]
    | cons task todo =>
      have hstep : c.step cfg (.work env) = task.run cfg env { c with todo := todo } := by
        simp only [Controller.step, ht]
      cases task with
      | redeem w n => left; rw [hstep]; simp only [Task.run]; split <;> rfl
      | retry w =>
        left
        rw [hstep]
        simp only [Task.run]
        split
        · rfl
        · split
          · rfl
          · split <;> rfl
      | iterate f =>
        by_cases hlt : f.counter < cfg.num_redemption_groups
        · cases hg : token_count_for_group cfg.num_redemption_groups f.total f.counter with
          | error e => left; rw [hstep]; simp only [Task.run, get_random_tokens, hg, if_pos hlt]
          | ok n =>
            right
            refine ⟨.add env.order env.now f.voucher f.total f.counter (env.random f.voucher f.counter n.toNat), ?_, rfl,
              fun _ h => h.elim⟩
            rw [hstep]
            simp only [Task.run, get_random_tokens, hg, if_pos hlt, StoreOp.step, StoreOp.prog, transact_map]
            split <;> (rename_i he; simp [he])
        · left
          rw [hstep]
          simp only [Task.run, if_neg hlt]
      | perform f ts =>
        left
        rw [hstep]
        simp only [Task.run, contact_issuer]
        split
        · rfl
        · split <;> rfl
      | answered f a =>
        cases a with
        | success pk us =>
          right
          refine ⟨.insert env.now f.voucher pk us (f.counter + 1 == cfg.num_redemption_groups)
            (decide (pk ∈ cfg.allowed_public_keys)), ?_, rfl, ?_⟩
          · rw [hstep]
            simp only [Task.run, resume, StoreOp.step, StoreOp.prog, transact_map, redeem_success]
            split <;> (rename_i he; simp [he])
          · intro x hx
            exact ⟨env, f, pk, us, todo, rfl, ht, hx, fun h => of_decide_eq_true h.2⟩
        | alreadySpent =>
          right
          refine ⟨.doubleSpent env.now f.voucher, ?_, rfl, fun _ h => h.elim⟩
          rw [hstep]
          simp [Task.run, resume, StoreOp.step, StoreOp.prog, transact_map, redeem_failure]
        | unpaid => left; rw [hstep]; rfl
        | failed d => left; rw [hstep]; rfl

theorem answers_step {L : Ristretto} {cfg : RedeemCfg} {c : Controller} {e : RedeemEvent} (h : AnswersReal L c.todo)
    (ha : ∀ i pk us, e = .answer i (.success pk us) → ∀ s, c.waiting[i]? = some s →
      ∃ issuer voucher counter random, to_answer (redeemWithCounter L issuer voucher counter random) = .success pk us) :
    AnswersReal L (c.step cfg e).todo := by
  cases e with
  | redeem v n =>
    simp only [Controller.step]
    split
    · exact .calls (by simp [Task.isCall])
    · exact h
  | timer =>
    simp only [Controller.step]
    split
    · refine .calls fun x hx => ?_
      obtain ⟨w, _, rfl⟩ := List.mem_map.mp hx
      rfl
    · exact h
  | answer i a =>
    simp only [Controller.step]
    split
    · exact h
    · rename_i s hs
      split
      · intro f pk us hm
        rcases List.mem_cons.mp hm with hm | hm
        · cases hm
          exact ha i pk us rfl s hs
        · exact h f pk us hm
      · exact h
  | other op =>
    simp only [Controller.step]
    split <;> exact h
  | crash => exact .calls (check_pending_calls _)
  | work env =>
    cases ht : c.todo with
    | nil =>
      simp only [Controller.step, ht]
      rw [ht] at h
      exact h
    | cons task todo =>
      have hstep : c.step cfg (.work env) = task.run cfg env { c with todo := todo } := by
        simp only [Controller.step, ht]
      have h' : AnswersReal L todo := fun f pk us hm => h f pk us (by rw [ht]; exact List.mem_cons_of_mem _ hm)
      have add : ∀ task, (∀ f pk us, task ≠ .answered f (.success pk us)) → AnswersReal L (task :: todo) :=
        fun _ => h'.cons
      rw [hstep]
      cases task with
      | redeem w n =>
        simp only [Task.run]
        split
        · exact h'
        · exact h'
        · exact add _ (by simp)
      | retry w =>
        simp only [Task.run]
        split
        · exact h'
        · split
          · exact .calls (by simp)
          · split
            · exact add _ (by simp)
            · exact h'
      | iterate f =>
        simp only [Task.run]
        split
        · split
          · exact h'
          · exact add _ (by simp)
        · exact h'
      | perform f ts =>
        simp only [Task.run, contact_issuer]
        split
        · exact h'
        · split <;> exact h'
      | answered f a =>
        simp only [Task.run, resume]
        cases a with
        | success pk us =>
          dsimp only
          split
          · exact h'
          · exact add _ (by simp)
        | alreadySpent => exact h'
        | unpaid => exact h'
        | failed d => exact h'

/-- What the storage client of a node sees of the history of the node. -/
structure SeenAs (L : Ristretto) (k : L.Scalar) (v : Int) (s s' : StorageSession) (history : List SessionEvent) : Prop where
  run : s.run (ristretto_signer L) v history = s'
  bought : OnlyBought L k history
  reissue : NoReissueIn (ristretto_signer L) v s history

theorem SeenAs.refl (L : Ristretto) (k : L.Scalar) (v : Int) (s : StorageSession) : SeenAs L k v s s [] :=
  ⟨rfl, fun _ h => (nomatch h), trivial⟩

theorem SeenAs.cons {L : Ristretto} {k : L.Scalar} {v : Int} {s s' : StorageSession} {e : SessionEvent}
    {history : List SessionEvent} (hb : ∀ op, e = .other op → ∀ x, IssuesSpendable x op → Bought L k x)
    (hr : ∀ op, e = .other op → ∀ x, Issues x op → x ∉ invalidTokens s.store)
    (h : SeenAs L k v (s.step (ristretto_signer L) v e) s' history) : SeenAs L k v s s' (e :: history) := by
  refine ⟨h.run, ?_, hr, h.reissue⟩
  intro op ho x hx
  rcases List.mem_cons.mp ho with h1 | h1
  · exact hb op h1.symm x hx
  · exact h.bought op h1 x hx

theorem not_redeeming_issues {op : StoreOp} (h : notRedeeming op = true) (x : String) : ¬ Issues x op := by
  cases op <;> first | exact fun h => h | cases h

theorem seen_run (L : Ristretto) (k : L.Scalar) {cfg : RedeemCfg} (keys : OnlyKey L k cfg) (v : Int)
    (events : List WholeEvent) : ∀ n : WholeNode, AnswersReal L n.redeeming.todo → RealLife L cfg v n events →
      ∃ history, SeenAs L k v n.storage (n.run cfg (ristretto_signer L) v events).storage history := by
  induction events with
  | nil => exact fun n _ _ => ⟨[], .refl L k v _⟩
  | cons e es ih =>
    intro n hn ⟨h1, h2, h3⟩
    have next := ih (n.step cfg (ristretto_signer L) v e)
    by_cases hp : e.possible = true
    case neg =>
      have he : n.step cfg (ristretto_signer L) v e = n := by unfold WholeNode.step; rw [if_neg hp]
      rw [he] at next h3
      obtain ⟨history, hh⟩ := next hn h3
      refine ⟨history, ?_⟩
      show SeenAs L k v n.storage (WholeNode.run cfg (ristretto_signer L) v (n.step cfg (ristretto_signer L) v e) es).storage history
      rw [he]
      exact hh
    case pos =>
      show ∃ history, SeenAs L k v n.storage
        (WholeNode.run cfg (ristretto_signer L) v (n.step cfg (ristretto_signer L) v e) es).storage history
      generalize hn' : n.step cfg (ristretto_signer L) v e = n' at next h3 ⊢
      unfold WholeNode.step at hn'
      rw [if_pos hp] at hn'
      cases e with
      | crash =>
        dsimp only at hn'
        subst hn'
        obtain ⟨history, hh⟩ := next (.calls (check_pending_calls _)) h3
        exact ⟨.restart :: history, .cons (fun _ h => (nomatch h)) (fun _ h => (nomatch h)) hh⟩
      | storage e =>
        dsimp only at hn'
        split at hn'
        · subst hn'
          obtain ⟨history, hh⟩ := next hn h3
          have hno : ∀ op, e = .other op → ∀ x, ¬ Issues x op := by
            rintro op rfl x
            exact not_redeeming_issues hp x
          refine ⟨e :: history, .cons ?_ (fun op he x hx => absurd hx (hno op he x)) hh⟩
          intro op he x hx
          refine absurd ?_ (hno op he x)
          cases op <;> first | exact hx.1 | exact hx.elim
        · subst hn'
          exact next hn h3
      | redeeming e =>
        have own : OwnEvent e := by cases e <;> first | trivial | cases hp
        dsimp only at hn'
        subst hn'
        dsimp only at next h3 ⊢
        obtain ⟨history, hh⟩ := next (answers_step hn (by
          rintro i pk us rfl s hs
          obtain ⟨issuer, hi⟩ := h1 i pk us rfl s hs
          exact ⟨issuer, _, _, _, hi⟩)) h3
        rcases own_op (cfg := cfg) { n.redeeming with store := n.storage.store } e own with hs | ⟨op, hop⟩
        · refine ⟨history, ?_⟩
          rw [hs] at hh ⊢
          exact hh
        · refine ⟨.other op :: history, .cons ?_ ?_ ?_⟩
          · intro op' he x hx
            cases he
            have hi : Issues x op := by cases op <;> first | exact hx.1 | exact hx.elim
            obtain ⟨env, f, pk, us, rest, -, ht, hm, ha⟩ := hop.issues x hi
            obtain ⟨issuer, voucher, counter, random, hr⟩ := hn f pk us (by
              rw [show n.redeeming.todo = _ from ht]; exact List.mem_cons_self)
            exact ⟨issuer, voucher, counter, random, pk, us, hr, keys pk (ha hx), hm⟩
          · intro op' he x hx
            cases he
            obtain ⟨env, f, pk, us, rest, rfl, ht, hm, -⟩ := hop.issues x hx
            exact h2 env f pk us rest rfl ht x hm
          · have : n.storage.step (ristretto_signer L) v (.other op) =
                { n.storage with store := (Controller.step cfg { n.redeeming with store := n.storage.store } e).store } := by
              unfold StorageSession.step
              dsimp only
              rw [if_pos hop.outside, hop.store]
            rw [this]
            exact hh

end ZKAP
