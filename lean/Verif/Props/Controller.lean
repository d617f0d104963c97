import Verif.Lemmas.ControllerRestart

/-!
Properties of the redemption of vouchers: C25 to C32, and C18 for the whole controller.

A history is a list of `RedeemEvent`s: calls of `redeem`, ticks of the retry timer, answers
of the issuer, pieces of work, other uses of the store, and crashes, in any order.
-/
namespace ZKAP
open Spec

/-- The controller of a new installation after a history. -/
def controllerAfter (cfg : RedeemCfg) (history : List RedeemEvent) : Controller :=
  ({} : Controller).run cfg history

theorem controllerAfter_inv (cfg : RedeemCfg) (history : List RedeemEvent) :
    RInv cfg (controllerAfter cfg history) := rinv_run cfg history (rinv_init cfg)

/-! ### Examples -/

/-- Surroundings whose random tokens begin with `p`. -/
def exEnv (p : String) : Env where
  now := p
  order := .natural
  random := fun v _ n => .ok ((List.range n).map fun i => p ++ v ++ String.ofList (List.replicate i 'x'))
  random_length := by intro v c n ts h; simp only [Except.ok.injEq] at h; rw [← h]; simp

/-- Two groups, five tokens. -/
def exRedeemCfg : RedeemCfg :=
  { num_redemption_groups := 2, default_token_count := 5, allowed_public_keys := ["key"] }

/-- Three pieces of work: start, get tokens, contact the issuer. -/
def exSend (p : String) : List RedeemEvent := [.work (exEnv p), .work (exEnv p), .work (exEnv p)]

/-- A call, and the first group answered. -/
def exFirst : List RedeemEvent :=
  [.redeem "v" none] ++ exSend "p" ++ [.answer 0 (.success "key" ["a", "b", "c"])] ++ exSend "q"

/-- All of a redemption, with a crash in the middle. -/
def exAll : List RedeemEvent :=
  exFirst ++ [.crash] ++ exSend "r" ++ [.answer 0 (.success "other" ["d", "e"]), .work (exEnv "s"),
    .work (exEnv "s")]

/-- Unpaid at first, then one group redeemed, then an error. -/
def exUnpaid : List RedeemEvent :=
  [.redeem "v" none] ++ exSend "p" ++
  [.answer 0 .unpaid, .work (exEnv "q"), .timer, .work (exEnv "q")] ++ exSend "q" ++
  [.answer 0 (.success "key" ["a", "b", "c"])] ++ exSend "r" ++
  [.answer 0 (.failed "oops"), .work (exEnv "s"), .timer, .work (exEnv "s")] ++ exSend "s"

/-! ### C25 -/

/-- **C25**: for every number of groups `N > 0` and every total of at least `N` tokens, every
group has a size, which is at least one; any two sizes differ by at most one; and the sizes add
up to the total. -/
theorem C25_groups_add_up (N total : Nat) (hN : 0 < N) (hT : N ≤ total) :
    ∃ sizes : List Nat, sizes.length = N ∧
      (∀ (g : Nat) (hg : g < sizes.length), token_count_for_group N total g = .ok (sizes[g] : Int)) ∧
      (∀ s ∈ sizes, 1 ≤ s) ∧ (∀ s ∈ sizes, ∀ s' ∈ sizes, s ≤ s' + 1) ∧ sizes.sum = total := by
  refine ⟨(List.range N).map (groupSize N total), by simp, ?_, ?_, ?_, groupsTotal_all hN⟩
  · intro g hg
    simp only [List.length_map, List.length_range] at hg
    rw [token_count_eq, if_pos ⟨hT, hg⟩]
    simp
  · intro s hs
    obtain ⟨g, _, rfl⟩ := List.mem_map.mp hs
    have : 1 ≤ total / N := (Nat.le_div_iff_mul_le hN).mpr (by omega)
    simp only [groupSize]; omega
  · intro s hs s' hs'
    obtain ⟨g, _, rfl⟩ := List.mem_map.mp hs
    obtain ⟨g', _, rfl⟩ := List.mem_map.mp hs'
    simp only [groupSize]
    split <;> split <;> omega

/-- **C25**, the other inputs: fewer tokens than groups, or a group that does not exist, is an
error, for all integers. -/
theorem C25_other_inputs_rejected (N total g : Int) (h : total < N ∨ g < 0 ∨ N ≤ g) :
    token_count_for_group N total g = .error .valueError := by
  unfold token_count_for_group
  by_cases h1 : total < N
  · rw [if_pos h1]
  · rw [if_neg h1, if_pos]
    simp only [Bool.or_eq_true, decide_eq_true_eq]
    omega

example : (List.range 16).map (fun (g : Nat) => token_count_for_group 16 (100 : Nat) g) =
    List.replicate 4 (.ok 7) ++ List.replicate 12 (.ok 6) := by decide +kernel
example : token_count_for_group 16 15 0 = .error .valueError ∧
    token_count_for_group 16 100 16 = .error .valueError := by decide +kernel

/-! ### C26 -/

/-- **C26**, first half: whenever a request is sent, the tokens in it are those stored for
the voucher and the group, and there are some.  This is for every history. -/
theorem C26_stored_before_sent (cfg : RedeemCfg) (history : List RedeemEvent) (e : RedeemEvent)
    (v : String) (g : Nat) (ts : List String)
    (hsent : ((controllerAfter cfg history).step cfg e).log =
      (controllerAfter cfg history).log ++ [.sent v g ts]) :
    ts.Perm (select_random_tokens v g (controllerAfter cfg history).store) ∧ ts ≠ [] ∧
    ts.Perm (select_random_tokens v g ((controllerAfter cfg history).step cfg e).store) := by
  have hr := controllerAfter_inv cfg history
  generalize controllerAfter cfg history = c at *
  rcases step_records cfg c e with hl | ⟨w, f, rest, n, ht, hs, hl⟩ |
    ⟨f, ts', rest, row', ht, hrow', hp, hstore, hl⟩ | ⟨w, d', a, hl⟩ |
    ⟨f, pk, us, rest, now, ht, _, hl⟩ | hl <;> rw [hl] at hsent
  · simp at hsent
  · simp at hsent
  · simp only [List.append_cancel_left_eq, List.cons.injEq, Happening.sent.injEq, and_true] at hsent
    obtain ⟨rfl, rfl, rfl⟩ := hsent
    obtain ⟨_, _, _, h1, h2⟩ := hr.perform f ts' rest ht
    exact ⟨h1, h2, by rw [hstore]; exact h1⟩
  · simp at hsent
  · simp at hsent
  · simp at hsent

/-- Every request in a record arises from such an event. -/
theorem C26_requests_come_from_events (cfg : RedeemCfg) (history : List RedeemEvent) (v : String)
    (g : Nat) (ts : List String) (h : .sent v g ts ∈ (controllerAfter cfg history).log) :
    ∃ before e later, history = before ++ e :: later ∧
      ((controllerAfter cfg before).step cfg e).log =
        (controllerAfter cfg before).log ++ [.sent v g ts] :=
  sent_from_event history (c := {}) (by simp) h

/-- **C26**, second half, as stated: two requests for the same voucher and group carry the
same tokens, unless the group succeeds between them. -/
def C26_statement : Prop :=
  ∀ (cfg : RedeemCfg) (history : List RedeemEvent) (v : String) (g : Nat) (l₁ l₂ l₃ : List Happening)
    (ts ts' : List String),
    (controllerAfter cfg history).log = l₁ ++ .sent v g ts :: (l₂ ++ .sent v g ts' :: l₃) →
    (∀ pk us, .stored v g pk us ∉ l₂) → ts.Perm ts'

/-- The history that breaks it: unpaid, then the first group succeeds, then an error, then
the retry redeems the first group again, which deletes the random tokens of the
second. -/
def exLost : List RedeemEvent :=
  exUnpaid ++ [.answer 0 (.success "key" ["d", "e", "f"]), .work (exEnv "t"), .work (exEnv "t"),
    .work (exEnv "t")]

/-- **C26** does not hold: a group is requested with tokens `r…`, fails, and is requested
again with different tokens. -/
theorem C26_same_tokens_fails : ¬ C26_statement := by
  intro h
  have := h exRedeemCfg exLost "v" 1
    ((controllerAfter exRedeemCfg exLost).log.take 7) [.answer "v" 1 (.failed "oops"), .begun "v" 0,
      .sent "v" 0 ["sv", "svx", "svxx"], .answer "v" 0 (.success "key" ["d", "e", "f"]),
      .stored "v" 0 "key" ["d", "e", "f"]] [] ["rv", "rvx"] ["tv", "tvx"]
    (by decide +kernel) (by simp)
  exact absurd this (by decide +kernel)

/-- **C26**, second half, for the vouchers whose redemption is never begun anew by a process that
has seen them reported unpaid after a group of them was redeemed (in particular for vouchers that
are never reported unpaid). -/
theorem C26_same_tokens_partial (cfg : RedeemCfg) (history : List RedeemEvent) (v : String)
    (hnu : NoUnpaidRestart v (controllerAfter cfg history).log) (g : Nat)
    (l₁ l₂ l₃ : List Happening) (ts ts' : List String)
    (hlog : (controllerAfter cfg history).log = l₁ ++ .sent v g ts :: (l₂ ++ .sent v g ts' :: l₃))
    (hopen : ∀ pk us, .stored v g pk us ∉ l₂) : ts.Perm ts' :=
  (sinv_run history (rinv_init cfg) (sinv_init v) hnu).same g l₁ ts l₂ ts' l₃ hlog hopen

theorem neverUnpaid_noRestart {v : String} {log : List Happening} (h : NeverUnpaid v log) :
    NoUnpaidRestart v log := by
  rintro l₁ c l₂ e ⟨m₁, d, m₂, e', _⟩
  exact absurd (by rw [e, e']; simp) (h d)

example : (controllerAfter exRedeemCfg (exFirst ++ [.crash] ++ exSend "r")).log =
    [.begun "v" 0, .sent "v" 0 ["pv", "pvx", "pvxx"], .answer "v" 0 (.success "key" ["a", "b", "c"]),
     .stored "v" 0 "key" ["a", "b", "c"], .sent "v" 1 ["qv", "qvx"], .restarted, .begun "v" 1,
     .sent "v" 1 ["qv", "qvx"]] := by decide +kernel
example : NeverUnpaid "v" (controllerAfter exRedeemCfg exAll).log := by
  have : (controllerAfter exRedeemCfg exAll).log.all
      (fun h => match h with | .answer _ _ .unpaid => false | _ => true) = true := by decide +kernel
  intro c hm
  have := List.all_eq_true.mp this _ hm
  simp at this

/-! ### C27 -/

/-- **C27**: at most one request for a voucher is outstanding, whatever the history. -/
theorem C27_one_request_outstanding (cfg : RedeemCfg) (history : List RedeemEvent) (v : String) :
    outstanding v (controllerAfter cfg history) ≤ 1 := by
  have hn := (controllerAfter_inv cfg history).nodup
  have hn' := (List.nodup_append.mp hn).1
  generalize (controllerAfter cfg history) = c at *
  have : outstanding v c = (c.waiting.map (·.frame.voucher)).count v := by
    rw [outstanding, List.count_eq_countP, List.countP_map]
    congr 1
  rw [this]
  exact List.nodup_iff_count.mp hn' v

example : outstanding "v" (controllerAfter exRedeemCfg ([.redeem "v" none] ++ exSend "p" ++
    [.redeem "v" none] ++ exSend "p" ++ [.timer] ++ exSend "q")) = 1 := by decide +kernel

/-! ### C28 -/

/-- **C28**, counting, for every history: the stored counter of a voucher is the number of
groups whose tokens have been stored. -/
theorem C28_counter_counts (cfg : RedeemCfg) (history : List RedeemEvent) (v : String) :
    ((voucherRow (controllerAfter cfg history).store v).map (·.counter)).getD 0 =
      (redeemedGroups v (controllerAfter cfg history).log).length :=
  ((controllerAfter_inv cfg history).counter v).symm

/-- **C28**, order: for a voucher never reported unpaid, the groups that have been redeemed are
`0, 1, 2, …` in that order, each once, and every request ever sent was for the first group not
redeemed at that time. -/
theorem C28_groups_in_order (cfg : RedeemCfg) (history : List RedeemEvent) (v : String)
    (hnu : NeverUnpaid v (controllerAfter cfg history).log) :
    redeemedGroups v (controllerAfter cfg history).log =
      List.range (((voucherRow (controllerAfter cfg history).store v).map (·.counter)).getD 0) ∧
    ∀ l₁ g ts l₂, (controllerAfter cfg history).log = l₁ ++ .sent v g ts :: l₂ →
      g = (redeemedGroups v l₁).length := by
  have h := sinv_run history (rinv_init cfg) (sinv_init v) (neverUnpaid_noRestart hnu)
  exact ⟨h.groups, h.at_counter⟩

/-- **C28**, resuming, for every history: when the process crashes at any point, it is started
again, and has finished its first work, then for every pending voucher with tokens stored for
the group its counter names, a request for that group has been sent with those
tokens. -/
theorem C28_crash_resumes (cfg : RedeemCfg) (history : List RedeemEvent) (v : String)
    (row : VoucherRow) (hrow : voucherRow (controllerAfter cfg history).store v = some row)
    (hp : row.state = "pending")
    (hts : select_random_tokens v row.counter (controllerAfter cfg history).store ≠ [])
    (envs : List Env)
    (hdone : (((controllerAfter cfg history).step cfg .crash).run cfg (envs.map .work)).todo = []) :
    ∃ l ts, (((controllerAfter cfg history).step cfg .crash).run cfg (envs.map .work)).log =
        (controllerAfter cfg history).log ++ .restarted :: l ∧
      .sent v row.counter ts ∈ l ∧
      ts.Perm (select_random_tokens v row.counter (controllerAfter cfg history).store) := by
  obtain ⟨l, ts, h1, h2, h3⟩ := restart_resumes (controllerAfter_inv cfg history) hrow hp hts envs hdone
  exact ⟨l, ts, by rw [h1]; simp, h2, h3⟩

example : redeemedGroups "v" (controllerAfter exRedeemCfg exAll).log = [0, 1] := by decide +kernel
example :
    (voucherRow (controllerAfter exRedeemCfg exFirst).store "v").map (fun r => (r.state, r.counter)) =
      some ("pending", 1) ∧
    select_random_tokens "v" 1 (controllerAfter exRedeemCfg exFirst).store = ["qv", "qvx"] ∧
    (((controllerAfter exRedeemCfg exFirst).step exRedeemCfg .crash).run exRedeemCfg
      ([exEnv "r", exEnv "r", exEnv "r"].map .work)).todo = [] := by decide +kernel

/-! ### C29 -/

/-- **C29**: when the issuer returns as many tokens as were submitted and never answers unpaid,
a redeemed voucher has yielded its value: its spendable and sequestered tokens add up to the
expected total, and that many tokens were stored. -/
theorem C29_redeemed_yields_value (cfg : RedeemCfg) (hN : 0 < cfg.num_redemption_groups)
    (history : List RedeemEvent) (v : String)
    (hnu : NeverUnpaid v (controllerAfter cfg history).log)
    (hfull : FullAnswers v (controllerAfter cfg history).log) (row : VoucherRow)
    (hrow : voucherRow (controllerAfter cfg history).store v = some row)
    (hst : row.state = "redeemed") :
    row.token_count.getD 0 + row.sequestered_count = row.expected_tokens ∧
    tokensStored v (controllerAfter cfg history).log = row.expected_tokens := by
  have hr := controllerAfter_inv cfg history
  have ht : TInv cfg v (controllerAfter cfg history) :=
    tinv_run history (rinv_init cfg) (sinv_init v) (tinv_init cfg v) (neverUnpaid_noRestart hnu) hfull
  have h1 := ht.total row hrow
  rw [ht.complete row hrow hst, groupsTotal_all hN] at h1
  have h2 := hr.tokens v
  rw [rowTokens, hrow] at h2
  simp only [Option.map_some, Option.getD_some] at h2
  exact ⟨by omega, h1⟩

/-- **C29**, when that is: under the same conditions a voucher is redeemed exactly when all its
groups have been redeemed. -/
theorem C29_redeemed_when_complete (cfg : RedeemCfg) (hN : 0 < cfg.num_redemption_groups)
    (history : List RedeemEvent) (v : String)
    (hnu : NeverUnpaid v (controllerAfter cfg history).log)
    (hfull : FullAnswers v (controllerAfter cfg history).log) (row : VoucherRow)
    (hrow : voucherRow (controllerAfter cfg history).store v = some row) :
    row.state = "redeemed" ↔
      redeemedGroups v (controllerAfter cfg history).log = List.range cfg.num_redemption_groups := by
  have ht : TInv cfg v (controllerAfter cfg history) :=
    tinv_run history (rinv_init cfg) (sinv_init v) (tinv_init cfg v) (neverUnpaid_noRestart hnu) hfull
  rw [(C28_groups_in_order cfg history v hnu).1, hrow]
  simp only [Option.map_some, Option.getD_some]
  constructor
  · intro h; rw [ht.complete row hrow h]
  · intro h
    have := congrArg List.length h
    simp only [List.length_range] at this
    exact ht.reached row hrow hN this

example :
    (voucherRow (controllerAfter exRedeemCfg exAll).store "v").map
      (fun r => (r.state, r.token_count, r.sequestered_count, r.expected_tokens)) =
      some ("redeemed", some 3, 2, 5) ∧
    tokensStored "v" (controllerAfter exRedeemCfg exAll).log = 5 := by decide +kernel

example : FullAnswers "v" (controllerAfter exRedeemCfg exAll).log := by
  have : (controllerAfter exRedeemCfg exAll).log =
    [.begun "v" 0, .sent "v" 0 ["pv", "pvx", "pvxx"], .answer "v" 0 (.success "key" ["a", "b", "c"]),
     .stored "v" 0 "key" ["a", "b", "c"], .sent "v" 1 ["qv", "qvx"], .restarted, .begun "v" 1,
     .sent "v" 1 ["qv", "qvx"], .answer "v" 1 (.success "other" ["d", "e"]),
     .stored "v" 1 "other" ["d", "e"]] := by decide +kernel
  intro l₁ c ts l₂ pk us l₃ e _
  have h1 : .sent "v" c ts ∈ (controllerAfter exRedeemCfg exAll).log := by rw [e]; simp
  have h2 : .answer "v" c (.success pk us) ∈ (controllerAfter exRedeemCfg exAll).log := by rw [e]; simp
  rw [this] at h1 h2
  simp at h1 h2
  grind

/-! ### C30 -/

/-- **C30**: once a voucher is redeemed or double-spent its row never changes again, and nothing
is begun, requested or stored for it again, whatever happens later. -/
theorem C30_final (cfg : RedeemCfg) (history later : List RedeemEvent) (v : String)
    (row : VoucherRow) (hrow : voucherRow (controllerAfter cfg history).store v = some row)
    (hst : row.state = "redeemed" ∨ row.state = "double-spend") :
    voucherRow (controllerAfter cfg (history ++ later)).store v = some row ∧
    ∃ l, (controllerAfter cfg (history ++ later)).log = (controllerAfter cfg history).log ++ l ∧
      (∀ g ts, .sent v g ts ∉ l) ∧ (∀ g, .begun v g ∉ l) ∧ (∀ g pk us, .stored v g pk us ∉ l) := by
  have he : controllerAfter cfg (history ++ later) = (controllerAfter cfg history).run cfg later := by
    simp [controllerAfter, Controller.run]
  rw [he]
  refine final_run later (controllerAfter_inv cfg history) hrow ?_
  rcases hst with h | h <;> rw [h] <;> decide

/-- **C30**, how a voucher becomes double-spent: as soon as an answer that the voucher was
already spent has been dealt with. -/
theorem C30_already_spent (cfg : RedeemCfg) (history : List RedeemEvent) (i : Nat) (s : Suspended)
    (env : Env) (hw : (controllerAfter cfg history).waiting[i]? = some s)
    (hcalls : (controllerAfter cfg history).todo.all (·.isCall) = true) :
    (voucherRow (controllerAfter cfg (history ++ [.answer i .alreadySpent, .work env])).store
      s.frame.voucher).map (·.state) = some "double-spend" := by
  have hr := controllerAfter_inv cfg history
  have he : controllerAfter cfg (history ++ [.answer i .alreadySpent, .work env]) =
      ((controllerAfter cfg history).step cfg (.answer i .alreadySpent)).step cfg (.work env) := by
    simp [controllerAfter, Controller.run]
  rw [he]
  generalize controllerAfter cfg history = c at *
  obtain ⟨⟨row, hrow, hp, _⟩, _⟩ := hr.waiting s (List.mem_of_getElem? hw)
  simp only [Controller.step, hw, hcalls, if_true, Task.run, resume, redeem_failure]
  rw [(doubleSpent_effect env.now s.frame.voucher c.store).2, if_pos rfl, hrow]
  simp [hp]

example :
    (voucherRow (controllerAfter exRedeemCfg ([.redeem "v" none] ++ exSend "p" ++
      [.answer 0 .alreadySpent, .work (exEnv "q")])).store "v").map (·.state) = some "double-spend" ∧
    (controllerAfter exRedeemCfg (exAll ++ [.redeem "v" none] ++ exSend "t" ++ [.crash])).log =
      (controllerAfter exRedeemCfg exAll).log ++ [.restarted] := by decide +kernel

/-! ### C31 -/

/-- A request for the voucher has been sent since. -/
def SentSince (v : String) (before now : Controller) : Prop :=
  ∃ l g ts, now.log = before.log ++ l ∧ .sent v g ts ∈ l

/-- **C31** as stated: when no code is running and a voucher is in the error state, the
timer leads to a request for the voucher. -/
def C31_statement : Prop :=
  ∀ (cfg : RedeemCfg) (history : List RedeemEvent) (v : String) (obj : Voucher String)
    (finished details : String),
    (controllerAfter cfg history).todo = [] →
    get_voucher (controllerAfter cfg history) v = .ok obj → obj.state = .error finished details →
    ∃ envs : List Env, SentSince v (controllerAfter cfg history)
      (((controllerAfter cfg history).step cfg .timer).run cfg (envs.map .work))

/-- **C31** is wrong in every case: a voucher in the error state is never requested again, by the
timer or by calls of `redeem`, until the process is restarted. -/
theorem C31_never_retried (cfg : RedeemCfg) (history later : List RedeemEvent) (v : String)
    (obj : Voucher String) (finished details : String)
    (hidle : (controllerAfter cfg history).todo = [])
    (hobj : get_voucher (controllerAfter cfg history) v = .ok obj)
    (herr : obj.state = .error finished details) (hlater : .crash ∉ later) :
    ¬ SentSince v (controllerAfter cfg history) ((controllerAfter cfg history).run cfg later) := by
  have hr := controllerAfter_inv cfg history
  generalize controllerAfter cfg history = c at *
  have hstuck : ErrorStuck v c := by
    unfold get_voucher at hobj
    rw [get_object_eq] at hobj
    cases hrow : voucherRow c.store v with
    | none => simp [hrow] at hobj
    | some row =>
      have hnum := voucherRow_number hrow
      simp only [hrow] at hobj
      by_cases hp : row.state = "pending"
      · rw [from_row_pending hp] at hobj
        simp only [incorporate_transient_state, hnum, Except.ok.injEq] at hobj
        subst hobj
        cases ha : c.active.lookup v with
        | some x => simp [ha] at herr
        | none =>
          cases hu : c.unpaid.lookup v with
          | some x => simp [ha, hu] at herr
          | none =>
            cases he : c.error.lookup v with
            | none => simp [ha, hu, he] at herr
            | some x =>
              refine ⟨(lookup_isSome _ _).mp (by rw [he]; rfl), ?_, by rw [hrow]; simp, ?_⟩
              · intro hm
                have := (lookup_isSome _ _).mpr hm
                rw [hu] at this; simp at this
              · intro f hf hv
                simp only [frames, hidle, List.filterMap_nil, List.append_nil] at hf
                obtain ⟨s, hs, rfl⟩ := List.mem_map.mp hf
                have : v ∈ c.active.keys := by
                  rw [hr.active, ← hv]
                  exact List.mem_append_left _ (List.mem_map_of_mem (f := fun s : Suspended => s.frame.voucher) hs)
                have := (lookup_isSome _ _).mpr this
                rw [ha] at this; simp at this
      · rcases from_row_other hp with ⟨e, he, hne⟩ | ⟨d, hd⟩ | ⟨d, k, hd⟩
        · rw [he] at hobj; simp at hobj
        · rw [hd] at hobj
          simp only [incorporate_transient_state, Except.ok.injEq] at hobj
          subst hobj; simp at herr
        · rw [hd] at hobj
          simp only [incorporate_transient_state, Except.ok.injEq] at hobj
          subst hobj; simp at herr
  rintro ⟨l, g, ts, hl, hm⟩
  obtain ⟨l', hl', hno⟩ := errorStuck_run later hlater hr hstuck
  rw [hl'] at hl
  rw [← List.append_cancel_left hl] at hm
  exact hno g ts hm

/-- A redemption that failed. -/
def exFailed : List RedeemEvent :=
  [.redeem "v" none] ++ exSend "p" ++ [.answer 0 (.failed "oops"), .work (exEnv "q")]

theorem C31_error_retried_fails : ¬ C31_statement := by
  intro h
  obtain ⟨envs, hs⟩ := h exRedeemCfg exFailed "v" ⟨"v", 5, some "p", .error "q" "oops"⟩ "q" "oops"
    (by decide +kernel) (by decide +kernel) rfl
  refine C31_never_retried exRedeemCfg exFailed (.timer :: envs.map .work) "v"
    ⟨"v", 5, some "p", .error "q" "oops"⟩ "q" "oops" (by decide +kernel) (by decide +kernel) rfl ?_ hs
  simp

/-- **C31**, what holds: after a restart of the process a voucher that was in the error state is
requested again, with the tokens stored for it. -/
theorem C31_restart_retries_partial (cfg : RedeemCfg) (history : List RedeemEvent) (v : String)
    (obj : Voucher String) (finished details : String)
    (hobj : get_voucher (controllerAfter cfg history) v = .ok obj)
    (herr : obj.state = .error finished details)
    (hts : ∀ row, voucherRow (controllerAfter cfg history).store v = some row →
      select_random_tokens v row.counter (controllerAfter cfg history).store ≠ [])
    (envs : List Env)
    (hdone : (((controllerAfter cfg history).step cfg .crash).run cfg (envs.map .work)).todo = []) :
    SentSince v (controllerAfter cfg history)
      (((controllerAfter cfg history).step cfg .crash).run cfg (envs.map .work)) := by
  unfold get_voucher at hobj
  rw [get_object_eq] at hobj
  cases hrow : voucherRow (controllerAfter cfg history).store v with
  | none => simp [hrow] at hobj
  | some row =>
    simp only [hrow] at hobj
    by_cases hp : row.state = "pending"
    · obtain ⟨l, ts, h1, h2, _⟩ := C28_crash_resumes cfg history v row hrow hp (hts row hrow) envs hdone
      exact ⟨_, _, _, h1, List.mem_cons_of_mem _ h2⟩
    · exfalso
      rcases from_row_other hp with ⟨e, he, hne⟩ | ⟨d, hd⟩ | ⟨d, k, hd⟩
      · rw [he] at hobj; simp at hobj
      · rw [hd] at hobj
        simp only [incorporate_transient_state, Except.ok.injEq] at hobj
        subst hobj; simp at herr
      · rw [hd] at hobj
        simp only [incorporate_transient_state, Except.ok.injEq] at hobj
        subst hobj; simp at herr

example :
    get_voucher (controllerAfter exRedeemCfg exFailed) "v" = .ok ⟨"v", 5, some "p", .error "q" "oops"⟩ ∧
    select_random_tokens "v" 0 (controllerAfter exRedeemCfg exFailed).store ≠ [] ∧
    (((controllerAfter exRedeemCfg exFailed).step exRedeemCfg .crash).run exRedeemCfg
      ([exEnv "r", exEnv "r", exEnv "r"].map .work)).todo = [] := by decide +kernel

/-! ### C32 -/

/-- **C32** as stated: every redemption begins with the first unredeemed group. -/
def C32_statement : Prop :=
  ∀ (cfg : RedeemCfg) (history : List RedeemEvent) (v : String) (l₁ l₂ : List Happening) (g : Nat),
    (controllerAfter cfg history).log = l₁ ++ .begun v g :: l₂ → g = (redeemedGroups v l₁).length

/-- **C32** does not hold: a voucher reported unpaid, then partially redeemed, then failed, is
redeemed from the first group again. -/
theorem C32_resumes_after_unpaid_fails : ¬ C32_statement := by
  intro h
  have := h exRedeemCfg exUnpaid "v" ((controllerAfter exRedeemCfg exUnpaid).log.take 9)
    ((controllerAfter exRedeemCfg exUnpaid).log.drop 10) 0 (by decide +kernel)
  exact absurd this (by decide +kernel)

/-- **C32** holds for every redemption begun by a process that has not seen the voucher
reported unpaid; in particular by a restarted process. -/
theorem C32_resumes_partial (cfg : RedeemCfg) (history : List RedeemEvent) (v : String)
    (l₁ l₂ : List Happening) (g : Nat)
    (hlog : (controllerAfter cfg history).log = l₁ ++ .begun v g :: l₂)
    (hnu : ¬ ReportedUnpaid v l₁) : g = (redeemedGroups v l₁).length :=
  begins_run history (rinv_init cfg) (by intro l₁ d l₂ e; simp at e) l₁ g l₂ hlog hnu

example : (controllerAfter exRedeemCfg exUnpaid).log =
    [.begun "v" 0, .sent "v" 0 ["pv", "pvx", "pvxx"], .answer "v" 0 .unpaid, .begun "v" 0,
     .sent "v" 0 ["pv", "pvx", "pvxx"], .answer "v" 0 (.success "key" ["a", "b", "c"]),
     .stored "v" 0 "key" ["a", "b", "c"], .sent "v" 1 ["rv", "rvx"],
     .answer "v" 1 (.failed "oops"), .begun "v" 0, .sent "v" 0 ["sv", "svx", "svxx"]] := by
  decide +kernel

/-! ### C18 for the controller -/

/-- **C18**: a token is never obtainable from the store unless the issuer has sent it in an
answer signed with an allowed key, whatever the history. -/
theorem C18_only_allowed_keys (cfg : RedeemCfg) (history : List RedeemEvent) (x : String)
    (hx : ∀ v g pk us, .answer v g (.success pk us) ∈ (controllerAfter cfg history).log → x ∈ us →
      pk ∉ cfg.allowed_public_keys) :
    ¬ Available (controllerAfter cfg history).store x ∧
    ∀ o n ts, ((StoreOp.getTokens o n).step (controllerAfter cfg history).store).1 =
      .ok (.tokens ts) → x ∉ ts := by
  have hr := controllerAfter_inv cfg history
  obtain ⟨ops, ho, hi⟩ := run_ops history (rinv_init cfg) (c := {}) (by intro f a rest e; simp at e)
  have hg : ¬ StoredIn (controllerAfter cfg history).store.app true x := by
    unfold controllerAfter
    rw [ho]
    refine gone_run ops ?_ wf_empty ?_
    · intro op hop hiss
      obtain ⟨v, g, pk, us, h1, h2, h3⟩ := hi op hop x hiss
      exact hx v g pk us h1 h2 h3
    · simp [StoredIn]
  exact ⟨fun h => hg h.1, fun o n ts' hs =>
    getTokens_not_blocked hr.wf (t' := _) (Prod.ext hs rfl) (.inr hg)⟩

example :
    ((StoreOp.getTokens .natural 3).step (controllerAfter exRedeemCfg exAll).store).1 =
      .ok (.tokens ["a", "b", "c"]) ∧
    ((StoreOp.getTokens .natural 4).step (controllerAfter exRedeemCfg exAll).store).1 =
      .error .notEnoughTokens := by decide +kernel

end ZKAP
