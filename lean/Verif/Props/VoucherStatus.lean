import Verif.Props.Controller
import Verif.Lemmas.VoucherStatus

/-!
C155: the status shown for a voucher is the outcome of the latest attempt to redeem it.

`docs/source/interface.rst:56-126` says what the parts of a status mean.  The histories are those of C25 to
C32; `Spec/VoucherStatus.lean` says how the diary of a voucher is kept and what status it calls for.
-/
namespace ZKAP
open Spec

/-- **C155** as stated: what is shown of a voucher was created when the voucher was added, and its state is the
outcome of the latest attempt, with the time of the attempt, the number of groups redeemed so far and the number of
tokens for which the voucher was redeemed. -/
def C155_statement : Prop :=
  ∀ (cfg : RedeemCfg) (history : List RedeemEvent) (v : String) (obj : Voucher String),
    get_voucher (controllerAfter cfg history) v = .ok obj →
    obj.created = addedAt (diary cfg v history) ∧
    obj.state = statusOf cfg (redeemedGroups v (controllerAfter cfg history).log).length
      (tokensStored v (controllerAfter cfg history).log) (diary cfg v history)

/-- Unpaid at first; paid, and one group redeemed; then the issuer fails. -/
def exHidden : List RedeemEvent :=
  [.redeem "v" none] ++ exSend "p" ++
  [.answer 0 .unpaid, .work (exEnv "q"), .timer, .work (exEnv "q")] ++ exSend "q" ++
  [.answer 0 (.success "key" ["a", "b", "c"])] ++ exSend "r" ++
  [.answer 0 (.failed "oops"), .work (exEnv "s")]

/-- **C155** does not hold: once a voucher has been reported unpaid, the running process shows it as unpaid, since
the time of that report, when a later attempt fails for another reason, although part of it has been
redeemed in the meantime. -/
theorem C155_unpaid_hides_failure_fails : ¬ C155_statement := by
  intro h
  have := (h exRedeemCfg exHidden "v" ⟨"v", 5, some "p", .unpaid "q"⟩ (by decide +kernel)).2
  exact absurd this (by decide +kernel)

example : diary exRedeemCfg "v" exHidden =
    [.failed "s" "oops", .began "r", .redeemed "r" 0, .began "q", .unpaid "q", .began "p", .added "p"] := by
  decide +kernel

/-- **C155** does not hold in another way: the number shown for a redeemed voucher is not the number of tokens for
which it was redeemed, when some of them are sequestered. -/
theorem C155_sequestered_not_counted_fails : ¬ C155_statement := by
  intro h
  have := (h exRedeemCfg exAll "v" ⟨"v", 5, some "p", .redeemed "s" 3⟩ (by decide +kernel)).2
  exact absurd this (by decide +kernel)

theorem C155_invariant (cfg : RedeemCfg) (history : List RedeemEvent) (v : String) :
    DInv cfg v (controllerAfter cfg history) (diary cfg v history) :=
  (dinv_run history (dinv_init cfg v) (rinv_init cfg)).2

/-- **C155**, when the voucher was created: always right. -/
theorem C155_created (cfg : RedeemCfg) (history : List RedeemEvent) (v : String) (obj : Voucher String)
    (ho : get_voucher (controllerAfter cfg history) v = .ok obj) :
    obj.created = addedAt (diary cfg v history) :=
  ((C155_invariant cfg history v).shown (controllerAfter_inv cfg history) ho).1

/-- **C155**, the state, where tokens received with a public key that is not allowed are not counted.  It is right
unless the latest attempt ended with a failure that no longer leaves a mark because the same process has seen an
earlier report that the voucher is unpaid, or ended with success for a group other than the last after an
earlier report or failure. -/
theorem C155_state_partial (cfg : RedeemCfg) (history : List RedeemEvent) (v : String) (obj : Voucher String)
    (ho : get_voucher (controllerAfter cfg history) v = .ok obj) (hp : Plain cfg (diary cfg v history)) :
    obj.state = statusOf cfg (redeemedGroups v (controllerAfter cfg history).log).length
      (spendableStored cfg.allowed_public_keys v (controllerAfter cfg history).log) (diary cfg v history) :=
  ((C155_invariant cfg history v).shown (controllerAfter_inv cfg history) ho).2 hp

/-- **C155**, while an attempt is under way: always shown as such, since the time when it began, with the number of
groups redeemed so far. -/
theorem C155_redeeming (cfg : RedeemCfg) (history : List RedeemEvent) (v : String) (obj : Voucher String)
    (ho : get_voucher (controllerAfter cfg history) v = .ok obj) (t : String) (n : Nat) :
    obj.state = .redeeming t n ↔
      n = (redeemedGroups v (controllerAfter cfg history).log).length ∧
      (diary cfg v history).head? = some (.began t) := by
  have h := C155_invariant cfg history v
  constructor
  · intro e
    have hk := (controllerAfter_inv cfg history).counter v
    have hact := h.active
    unfold get_voucher at ho
    cases hg : get_object v (controllerAfter cfg history).store with
    | error e' => rw [hg] at ho; cases ho
    | ok w =>
      rw [hg] at ho
      obtain rfl := Except.ok.inj ho
      have hnum := get_object_number hg
      have hnr : ∀ t n, w.state ≠ .redeeming t n := get_object_not_redeeming hg
      unfold incorporate_transient_state at e
      split at e
      · rw [hnum, hact] at e
        cases hd : diary cfg v history with
        | nil =>
          rw [hd] at e
          simp only [underWay] at e
          repeat' split at e
          all_goals simp_all
        | cons x l =>
          rw [hd] at e
          cases x with
          | began t' =>
            simp only [underWay, VoucherState.redeeming.injEq] at e
            exact ⟨by rw [← e.2, hk], by rw [e.1]; rfl⟩
          | _ =>
            simp only [underWay] at e
            repeat' split at e
            all_goals simp_all
      · exact absurd e (hnr _ _)
  · rintro ⟨rfl, hd⟩
    cases hl : diary cfg v history with
    | nil => rw [hl] at hd; cases hd
    | cons x l =>
      rw [hl] at hd
      obtain rfl := Option.some.inj hd
      have := C155_state_partial cfg history v obj ho (by rw [hl]; trivial)
      rw [this, hl]; rfl

theorem spendableStored_all {allowed : List String} {v : String} {log : List Happening}
    (h : ∀ g pk us, .stored v g pk us ∈ log → pk ∈ allowed) :
    spendableStored allowed v log = tokensStored v log := by
  induction log with
  | nil => rfl
  | cons x l ih =>
    have ih' := ih (fun g pk us hm => h g pk us (List.mem_cons_of_mem _ hm))
    cases x with
    | stored w g pk ts =>
      simp only [spendableStored, tokensStored, ih']
      by_cases hw : w = v
      · subst hw; simp [h g pk ts (List.mem_cons_self ..)]
      · simp [hw]
    | _ => exact ih'

/-- **C155** holds in full for a voucher all of whose tokens came with allowed public keys and to which nothing
happened that hides later outcomes. -/
theorem C155_full_partial (cfg : RedeemCfg) (history : List RedeemEvent) (v : String) (obj : Voucher String)
    (ho : get_voucher (controllerAfter cfg history) v = .ok obj) (hp : Plain cfg (diary cfg v history))
    (hkeys : ∀ g pk us, .stored v g pk us ∈ (controllerAfter cfg history).log → pk ∈ cfg.allowed_public_keys) :
    obj.created = addedAt (diary cfg v history) ∧
    obj.state = statusOf cfg (redeemedGroups v (controllerAfter cfg history).log).length
      (tokensStored v (controllerAfter cfg history).log) (diary cfg v history) := by
  rw [← spendableStored_all hkeys]
  exact ⟨C155_created cfg history v obj ho, C155_state_partial cfg history v obj ho hp⟩

/-- An attempt that fails, and the restart after it. -/
def exFailedAttempt : List RedeemEvent := exFirst ++ [.answer 0 (.failed "oops"), .work (exEnv "r")]

example : get_voucher (controllerAfter exRedeemCfg exFailedAttempt) "v" = .ok ⟨"v", 5, some "p", .error "r" "oops"⟩ ∧
    diary exRedeemCfg "v" exFailedAttempt =
      [.failed "r" "oops", .began "q", .redeemed "q" 0, .began "p", .added "p"] := by decide +kernel
example : Plain exRedeemCfg (diary exRedeemCfg "v" exFailedAttempt) := by
  have : diary exRedeemCfg "v" exFailedAttempt =
    [.failed "r" "oops", .began "q", .redeemed "q" 0, .began "p", .added "p"] := by decide +kernel
  rw [this]; rfl
example : get_voucher (controllerAfter exRedeemCfg (exFailedAttempt ++ [.crash])) "v" =
    .ok ⟨"v", 5, some "p", .pending 1⟩ := by decide +kernel
example : get_voucher (controllerAfter exRedeemCfg exFirst) "v" =
    .ok ⟨"v", 5, some "p", .redeeming "q" 1⟩ := by decide +kernel
example : diary exRedeemCfg "v" exAll =
    [.redeemed "s" 1, .began "r", .restarted, .began "q", .redeemed "q" 0, .began "p", .added "p"] := by
  decide +kernel

end ZKAP
