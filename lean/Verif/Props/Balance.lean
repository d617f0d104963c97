import Verif.Lemmas.Balance
import Verif.Props.WholeNode
import Verif.Props.IssuedLife

/-! C174: the books of a node balance. -/
namespace ZKAP
open Spec

/-- **C174** for a storage client, with tokens from anywhere and any way to make passes: what the vouchers are recorded to have
given is what the client has paid, what was found to be invalid, and what is left. -/
theorem C174_client (sign : Signer) (works : Signs sign) (v : Int) (hv : 0 < v) (events : List SessionEvent)
    (fresh : NoReissueIn sign v {} events) :
    Balanced (sessionAfter sign v events).store (paidIn sign v {} events) := by
  have h := client_balance works hv events (sessionInv_init sign v) fresh (paid := 0) rfl
  rw [Nat.zero_add] at h
  exact balanced_of (session_inv_run works hv events (sessionInv_init sign v) fresh).held.wf h

theorem realLife_split (L : Ristretto) (cfg : RedeemCfg) (v : Int) (before after : List WholeEvent) : ∀ n : WholeNode,
    RealLife L cfg v n (before ++ after) → RealLife L cfg v n before := by
  induction before with
  | nil => exact fun _ _ => trivial
  | cons e es ih => exact fun n h => ⟨h.1, h.2.1, ih _ h.2.2⟩

/-- What an event does to the balance of a node. -/
theorem node_shifts (L : Ristretto) (hL : Lawful L) (hS : Sound L) (k : L.Scalar) (cfg : RedeemCfg)
    (keys : OnlyKey L k cfg) (v : Int) (hv : 0 < v) (before : List WholeEvent) (e : WholeEvent)
    (real : RealLife L cfg v {} before) :
    StoreWF (WholeNode.run cfg (ristretto_signer L) v {} before).storage.store ∧
    Shifts (WholeNode.run cfg (ristretto_signer L) v {} before).storage.store
      (WholeNode.step cfg (ristretto_signer L) v (WholeNode.run cfg (ristretto_signer L) v {} before) e).storage.store
      (nodePaidAt v (WholeNode.run cfg (ristretto_signer L) v {} before) e) := by
  obtain ⟨history, hh⟩ := own_history L k cfg keys v before real
  obtain ⟨h1, h2, h3⟩ := bought_all L hL hS hh.bought v
  have hinv := session_inv_run (each_signs (ristretto_signer L)) hv history (sessionInv_init _ v) (h3 hh.reissue)
  change SessionInv _ v (StorageSession.run (each_signer (ristretto_signer L)) v {} history) at hinv
  rw [← h1, hh.run] at hinv
  rw [hh.run] at h2
  generalize WholeNode.run cfg (ristretto_signer L) v {} before = n at *
  refine ⟨hinv.held.wf, ?_⟩
  unfold WholeNode.step
  by_cases hp : e.possible = true
  case neg =>
    rw [if_neg hp]
    have : nodePaidAt v n e = 0 := by
      cases e with
      | storage e => cases e <;> first | exact absurd rfl hp | exact ite_self _
      | _ => rfl
    rw [this]
    exact shifts_same rfl
  case pos =>
    rw [if_pos hp]
    cases e with
    | crash => exact shifts_same rfl
    | storage e =>
      dsimp only [nodePaidAt]
      split
      · dsimp only
        rw [same_step (bought_agrees L hL k) h2]
        exact session_shifts (each_signs _) hv hinv e
      · exact shifts_same rfl
    | redeeming e =>
      have own : OwnEvent e := by cases e <;> first | trivial | cases hp
      dsimp only
      rcases own_op (cfg := cfg) { n.redeeming with store := n.storage.store } e own with hs | ⟨op, hop⟩
      · rw [hs]; exact shifts_same rfl
      · rw [hop.store]
        exact outside_shifts hop.outside hinv.held.wf

/-- **C174**: at any moment of the life of a node, what all its vouchers together are recorded to have given is what its
storage operations have cost so far, the tokens found to be invalid, and what is left: the tokens to be had, those in use, and
those that are sequestered. -/
theorem C174_node (L : Ristretto) (hL : Lawful L) (hS : Sound L) (k : L.Scalar) (cfg : RedeemCfg) (keys : OnlyKey L k cfg)
    (v : Int) (hv : 0 < v) (events : List WholeEvent) (real : RealLife L cfg v {} events) :
    Balanced (WholeNode.run cfg (ristretto_signer L) v {} events).storage.store
      (nodePaidIn cfg (ristretto_signer L) v {} events) := by
  refine balanced_of (node_shifts L hL hS k cfg keys v hv events .crash real).1 ?_
  have key : ∀ after before paid, RealLife L cfg v {} (before ++ after) →
      givenByVouchers (WholeNode.run cfg (ristretto_signer L) v {} before).storage.store =
        paid + kept (WholeNode.run cfg (ristretto_signer L) v {} before).storage.store →
      givenByVouchers (WholeNode.run cfg (ristretto_signer L) v {} (before ++ after)).storage.store =
        paid + nodePaidIn cfg (ristretto_signer L) v (WholeNode.run cfg (ristretto_signer L) v {} before) after +
          kept (WholeNode.run cfg (ristretto_signer L) v {} (before ++ after)).storage.store := by
    intro after
    induction after with
    | nil =>
      intro before paid _ h
      rw [List.append_nil]
      exact h
    | cons e es ih =>
      intro before paid hreal h
      have hs := (node_shifts L hL hS k cfg keys v hv before e (realLife_split L cfg v before _ {} hreal)).2
      have hstep : WholeNode.step cfg (ristretto_signer L) v (WholeNode.run cfg (ristretto_signer L) v {} before) e =
          WholeNode.run cfg (ristretto_signer L) v {} (before ++ [e]) := by
        unfold WholeNode.run
        rw [List.foldl_append]
        rfl
      have hb := shifts_balanced hs h
      rw [hstep] at hb
      have := ih (before ++ [e]) _ (by rw [List.append_assoc]; exact hreal) hb
      rw [List.append_assoc, ← hstep] at this
      rw [show before ++ e :: es = before ++ ([e] ++ es) from rfl, this]
      simp only [nodePaidIn]
      omega
  have := key events [] 0 real rfl
  rw [Nat.zero_add] at this
  exact this

/-- **C174** with fresh random numbers and an issuer that redeems each group of a voucher for one list of random tokens. -/
theorem C174_issued (L : Ristretto) (hL : Lawful L) (hS : Sound L) (k : L.Scalar) (cfg : RedeemCfg) (keys : OnlyKey L k cfg)
    (v : Int) (hv : 0 < v) (events : List WholeEvent) (fresh : FreshLife L cfg v {} events)
    (signed : SignedOnce (WholeNode.run cfg (ristretto_signer L) v {} events).redeeming.log) :
    Balanced (WholeNode.run cfg (ristretto_signer L) v {} events).storage.store
      (nodePaidIn cfg (ristretto_signer L) v {} events) :=
  C174_node L hL hS k cfg keys v hv events (C171_real_life L hL cfg v events fresh signed)

/-- **C174** with fresh random numbers and any issuer, if no voucher that it called unpaid is started again after some of its
groups have been redeemed. -/
theorem C174_smooth (L : Ristretto) (hL : Lawful L) (hS : Sound L) (k : L.Scalar) (cfg : RedeemCfg) (keys : OnlyKey L k cfg)
    (v : Int) (hv : 0 < v) (events : List WholeEvent) (fresh : FreshLife L cfg v {} events)
    (smooth : ∀ w, NoUnpaidRestart w (WholeNode.run cfg (ristretto_signer L) v {} events).redeeming.log) :
    Balanced (WholeNode.run cfg (ristretto_signer L) v {} events).storage.store
      (nodePaidIn cfg (ristretto_signer L) v {} events) :=
  C174_node L hL hS k cfg keys v hv events (C171_real_life_smooth L hL cfg v events fresh smooth)

/-! ### Examples -/

/-- The upload of `exUploadSession`, which holds four of five tokens: the server refuses the second, the fifth is taken in its
place, and then there is one new bucket. -/
def exBooks : List SessionEvent := exUploadSession ++
  [.answerPaid 0 (.morePassesRequired [1]) 0 .natural,
   .answerPaid 0 (.result (.tuple [.set [.int 1], .dict [(.int 0, .ref 1)]])) 0 .natural]

/-- Of five tokens two were paid, one is invalid, two are left. -/
theorem exBooks_facts :
    givenByVouchers (sessionAfter exSign177 10 exBooks).store = 5 ∧ paidIn exSign177 10 {} exBooks = 2 ∧
    invalidTokens (sessionAfter exSign177 10 exBooks).store = ["b"] ∧
    select_available (sessionAfter exSign177 10 exBooks).store = ["d", "e"] := by decide +kernel

example : Balanced (sessionAfter exSign177 10 exBooks).store 2 := by
  have h := C174_client exSign177 exSign177_signs 10 (by decide) exBooks (by
    obtain ⟨h1, h2, -⟩ := exSession_noReissue exSign177 10
    refine ⟨h1, h2, ?_, ?_, ?_, trivial⟩ <;> (rintro op h; cases h))
  rw [exBooks_facts.2.1] at h
  exact h

/-- A node redeems a voucher for two tokens and spends both. -/
theorem spent_books : givenByVouchers (twoNode (spentLife (toyGives 1) (toyGives 5))).storage.store = 2 ∧
    nodePaidIn twoCfg (ristretto_signer toy) 10 {} (spentLife (toyGives 1) (toyGives 5)) = 2 := by decide +kernel

example : Balanced (twoNode (spentLife (toyGives 1) (toyGives 5))).storage.store 2 := by
  have h := C174_smooth toy toy_lawful toy_sound (3 : Fin 6) twoCfg toyCfg_key 10 (by decide) _ spentLife_fresh
    (smooth_of_paid spent_held.2.2)
  rw [spent_books.2] at h
  exact h

end ZKAP
