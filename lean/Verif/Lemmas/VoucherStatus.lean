import Verif.Spec.VoucherStatus
import Verif.Lemmas.ControllerInv

/-! The diary of a voucher and what the controller remembers about it. -/
namespace ZKAP
open Spec

theorem Dict.lookup_del {α} (d : Dict String α) (k k' : String) :
    (d.del k).lookup k' = if k' = k then none else d.lookup k' := by
  unfold Dict.del
  induction d with
  | nil => simp
  | cons p d ih =>
    obtain ⟨a, x⟩ := p
    simp only [List.filter_cons, Bool.not_eq_true', beq_eq_false_iff_ne]
    by_cases ha : a = k
    · subst ha
      simp only [ne_eq, not_true_eq_false, if_false, ih, List.lookup_cons]
      by_cases hk : k' = a
      · simp [hk]
      · have : (k' == a) = false := by simp [hk]
        simp [hk, this]
    · simp only [ne_eq, ha, not_false_eq_true, if_true, List.lookup_cons, ih]
      by_cases hk : k' = k
      · subst hk
        have : (k' == a) = false := by simp [Ne.symm ha]
        simp [this]
      · simp [hk]

/-- What the diary says outlasts the process: when the voucher was redeemed (left) or found spent (right). -/
def lasting (cfg : RedeemCfg) : List Note → Option (Sum String String)
  | .restarted :: l => lasting cfg l
  | .redeemed t g :: _ => if g + 1 = cfg.num_redemption_groups then some (.inl t) else none
  | .spent t :: _ => some (.inr t)
  | _ => none

/-- The row says what outlasts the process. -/
def RowSays : Option (Sum String String) → VoucherRow → Prop
  | none, r => r.state = "pending"
  | some (.inl t), r => r.state = "redeemed" ∧ r.finished = some t ∧ r.token_count ≠ none
  | some (.inr t), r => r.state = "double-spend" ∧ r.finished = some t

/-- Since when an attempt is under way, and the groups redeemed before. -/
def underWay (k : Nat) : List Note → Option (String × Nat)
  | .began t :: _ => some (t, k)
  | _ => none

structure DInv (cfg : RedeemCfg) (v : String) (c : Controller) (notes : List Note) : Prop where
  active : c.active.lookup v = underWay (rowCounter c.store v) notes
  unpaid : c.unpaid.lookup v = lastUnpaid notes
  error : c.error.lookup v = lastFailure notes
  fresh : voucherRow c.store v = none → ∀ n ∈ notes, n = .restarted
  row : ∀ r, voucherRow c.store v = some r → addedAt notes = some r.created ∧ RowSays (lasting cfg notes) r
  tokens : ((voucherRow c.store v).map (fun r => r.token_count.getD 0)).getD 0 =
    spendableStored cfg.allowed_public_keys v c.log
  head : ∀ t l, notes = .added t :: l → lastUnpaid l = none ∧ lastFailure l = none

theorem dinv_init (cfg : RedeemCfg) (v : String) : DInv cfg v {} [] := by
  constructor <;> simp [underWay, lastUnpaid, lastFailure, voucherRow, spendableStored]

theorem spendableStored_append (allowed : List String) (v : String) (a b : List Happening) :
    spendableStored allowed v (a ++ b) = spendableStored allowed v a + spendableStored allowed v b := by
  induction a with
  | nil => simp [spendableStored]
  | cons h l ih =>
    cases h <;> simp only [List.cons_append, spendableStored, ih]
    omega

theorem restarts_nothing {l : List Note} (h : ∀ n ∈ l, n = .restarted) (cfg : RedeemCfg) :
    lastUnpaid l = none ∧ lastFailure l = none ∧ addedAt l = none ∧ lasting cfg l = none := by
  induction l with
  | nil => exact ⟨rfl, rfl, rfl, rfl⟩
  | cons n l ih =>
    obtain rfl := h n (List.mem_cons_self ..)
    obtain ⟨_, _, h3, h4⟩ := ih (fun n hn => h n (List.mem_cons_of_mem _ hn))
    exact ⟨rfl, rfl, h3, h4⟩

/-- What does not touch the voucher leaves the diary right. -/
theorem DInv.same {cfg : RedeemCfg} {v : String} {c c' : Controller} {notes : List Note}
    (h : DInv cfg v c notes) (ha : c'.active.lookup v = c.active.lookup v)
    (hu : c'.unpaid.lookup v = c.unpaid.lookup v) (he : c'.error.lookup v = c.error.lookup v)
    (hr : voucherRow c'.store v = voucherRow c.store v)
    (hl : spendableStored cfg.allowed_public_keys v c'.log = spendableStored cfg.allowed_public_keys v c.log) :
    DInv cfg v c' notes := by
  refine ⟨?_, ?_, ?_, ?_, ?_, ?_, h.head⟩
  · rw [ha, h.active]; unfold rowCounter; rw [hr]
  · rw [hu, h.unpaid]
  · rw [he, h.error]
  · rw [hr]; exact h.fresh
  · rw [hr]; exact h.row
  · rw [hr, hl]; exact h.tokens

theorem not_busy_active {cfg : RedeemCfg} {c : Controller} (hr : RInv cfg c) {v : String} (h : v ∉ busy c) :
    c.active.lookup v = none := by
  rw [Dict.lookup_eq_none_iff]
  exact fun hm => h ((hr.active v).mp hm)

/-- An answer other than success to an attempt for the voucher. -/
theorem DInv.failure {cfg : RedeemCfg} {v : String} {c : Controller} {notes : List Note} {env : Env}
    {f : Frame} {a : IssuerAnswer} {rest : List Task} (h : DInv cfg v c notes) (hr : RInv cfg c)
    (et : c.todo = .answered f a :: rest) (ha : ∀ pk us, a ≠ .success pk us) :
    DInv cfg v (c.step cfg (.work env)) (noted cfg v c (.work env) ++ notes) := by
  obtain ⟨⟨row, hrow, hp, _⟩, _, _⟩ := hr.answered f a rest et
  have hstep : c.step cfg (.work env) =
      { redeem_failure env f.voucher a { c with todo := rest } with
        active := (redeem_failure env f.voucher a { c with todo := rest }).active.del f.voucher } := by
    simp only [Controller.step, et, Task.run, resume]
  have hn : noted cfg v c (.work env) = if f.voucher = v then
      (match a with
        | .success _ _ => []
        | .alreadySpent => [.spent env.now]
        | .unpaid => [.unpaid env.now]
        | .failed d => [.failed env.now d]) else [] := by
    simp only [noted, et]
    cases a with
    | success pk us => exact absurd rfl (ha pk us)
    | _ => rfl
  rw [hstep, hn]
  by_cases hv : f.voucher = v
  · rw [if_pos hv]
    subst hv
    obtain ⟨hadd, hsays⟩ := h.row row hrow
    cases a with
    | success pk us => exact absurd rfl (ha pk us)
    | alreadySpent =>
      obtain ⟨_, hds⟩ := doubleSpent_effect env.now f.voucher c.store
      have hnew : voucherRow (transact (store_mark_double_spent env.now f.voucher) c.store).2 f.voucher =
          some { row with state := "double-spend", finished := some env.now } := by
        rw [hds f.voucher, if_pos rfl, hrow]; simp [hp]
      dsimp only [redeem_failure]
      refine ⟨?_, h.unpaid, h.error, ?_, ?_, ?_, nofun⟩
      · rw [Dict.lookup_del, if_pos rfl]; rfl
      · intro hnone; rw [hnew] at hnone; cases hnone
      · intro r e
        rw [hnew] at e
        obtain rfl := Option.some.inj e
        exact ⟨hadd, rfl, rfl⟩
      · have := h.tokens
        rw [hrow] at this
        rw [hnew]; exact this
    | unpaid =>
      dsimp only [redeem_failure]
      refine ⟨?_, ?_, h.error, ?_, ?_, h.tokens, nofun⟩
      · rw [Dict.lookup_del, if_pos rfl]; rfl
      · rw [Dict.lookup_set]; simp [lastUnpaid]
      · intro hnone; rw [hrow] at hnone; cases hnone
      · intro r e
        rw [hrow] at e
        obtain rfl := Option.some.inj e
        exact ⟨hadd, hp⟩
    | failed d =>
      dsimp only [redeem_failure]
      refine ⟨?_, h.unpaid, ?_, ?_, ?_, h.tokens, nofun⟩
      · rw [Dict.lookup_del, if_pos rfl]; rfl
      · rw [Dict.lookup_set]; simp [lastFailure]
      · intro hnone; rw [hrow] at hnone; cases hnone
      · intro r e
        rw [hrow] at e
        obtain rfl := Option.some.inj e
        exact ⟨hadd, hp⟩
  · rw [if_neg hv]
    have hv' : ¬ v = f.voucher := fun e => hv e.symm
    refine h.same ?_ ?_ ?_ ?_ ?_ <;> cases a <;>
      simp only [redeem_failure, Dict.lookup_del, Dict.lookup_set, beq_iff_eq, if_neg hv',
        (doubleSpent_effect env.now f.voucher c.store).2 v]

theorem DInv.success {cfg : RedeemCfg} {v : String} {c : Controller} {notes : List Note} {env : Env}
    {f : Frame} {pk : String} {us : List String} {rest : List Task} (h : DInv cfg v c notes) (hr : RInv cfg c)
    (et : c.todo = .answered f (.success pk us) :: rest) :
    DInv cfg v (c.step cfg (.work env)) (noted cfg v c (.work env) ++ notes) := by
  obtain ⟨⟨row, hrow, hp, _⟩, _, _⟩ := hr.answered f _ rest et
  rcases insert_effect env.now f.voucher pk us (f.counter + 1 == cfg.num_redemption_groups)
      (decide (pk ∈ cfg.allowed_public_keys)) c.store with ⟨err, he⟩ | ⟨row', hrow', he⟩
  · have hstep : c.step cfg (.work env) =
        { c with todo := rest, active := c.active.del f.voucher } := by
      simp only [Controller.step, et, Task.run, resume, redeem_success, he]
    have hn : noted cfg v c (.work env) = if f.voucher = v then [.notStored env.now] else [] := by
      simp only [noted, et, hstep, ne_eq, not_true_eq_false, if_false]
    rw [hstep, hn]
    by_cases hv : f.voucher = v
    · rw [if_pos hv]
      subst hv
      obtain ⟨hadd, hsays⟩ := h.row row hrow
      refine ⟨?_, h.unpaid, h.error, ?_, ?_, h.tokens, nofun⟩
      · dsimp only; rw [Dict.lookup_del, if_pos rfl]; rfl
      · intro hnone; rw [hrow] at hnone; cases hnone
      · intro r e
        rw [hrow] at e
        obtain rfl := Option.some.inj e
        exact ⟨hadd, hp⟩
    · rw [if_neg hv]
      refine h.same ?_ rfl rfl rfl rfl
      dsimp only
      rw [Dict.lookup_del, if_neg (fun e => hv e.symm)]
  · rw [hrow] at hrow'
    obtain rfl := Option.some.inj hrow'
    have hstep : c.step cfg (.work env) =
        { c with
          store := inserted env.now f.voucher pk us (f.counter + 1 == cfg.num_redemption_groups) (decide (pk ∈ cfg.allowed_public_keys)) c.store
          active := c.active.del f.voucher
          todo := .iterate { f with counter := f.counter + 1 } :: rest
          log := c.log ++ [.stored f.voucher f.counter pk us] } := by
      simp only [Controller.step, et, Task.run, resume, redeem_success, he]
    have hn : noted cfg v c (.work env) =
        if f.voucher = v then [.redeemed env.now f.counter] else [] := by
      have : c.log ++ [Happening.stored f.voucher f.counter pk us] ≠ c.log := by simp
      simp only [noted, et, hstep, ne_eq, this, not_false_eq_true, if_true]
    rw [hstep, hn]
    by_cases hv : f.voucher = v
    · rw [if_pos hv]
      subst hv
      obtain ⟨hadd, hsays⟩ := h.row row hrow
      have hnew : voucherRow (inserted env.now f.voucher pk us (f.counter + 1 == cfg.num_redemption_groups)
          (decide (pk ∈ cfg.allowed_public_keys)) c.store) f.voucher = some (redeemedRow env.now us.length
          (f.counter + 1 == cfg.num_redemption_groups) (decide (pk ∈ cfg.allowed_public_keys)) row) := by
        rw [voucherRow_inserted, if_pos rfl, hrow]; rfl
      refine ⟨?_, h.unpaid, h.error, ?_, ?_, ?_, nofun⟩
      · dsimp only; rw [Dict.lookup_del, if_pos rfl]; rfl
      · intro hnone; rw [hnew] at hnone; cases hnone
      · intro r e
        rw [hnew] at e
        obtain rfl := Option.some.inj e
        refine ⟨hadd, ?_⟩
        simp only [List.singleton_append, lasting]
        by_cases hg : f.counter + 1 = cfg.num_redemption_groups
        · rw [if_pos hg]
          exact ⟨by simp [redeemedRow, hg], rfl, by simp [redeemedRow]⟩
        · rw [if_neg hg]
          simp [RowSays, redeemedRow, hg]
      · have := h.tokens
        rw [hrow] at this
        rw [hnew, spendableStored_append, ← this]
        simp only [Option.map_some, Option.getD_some, redeemedRow, spendableStored, true_and]
        simp
    · rw [if_neg hv]
      have hv' : ¬ v = f.voucher := fun e => hv e.symm
      refine h.same ?_ rfl rfl ?_ ?_
      · dsimp only; rw [Dict.lookup_del, if_neg hv']
      · dsimp only; rw [voucherRow_inserted, if_neg hv']
      · dsimp only; rw [spendableStored_append]; simp [spendableStored, hv]

theorem DInv.iterate {cfg : RedeemCfg} {v : String} {c : Controller} {notes : List Note} {env : Env}
    {f : Frame} {rest : List Task} (h : DInv cfg v c notes) (hr : RInv cfg c)
    (et : c.todo = .iterate f :: rest) :
    DInv cfg v (c.step cfg (.work env)) (noted cfg v c (.work env) ++ notes) := by
  obtain ⟨hnb, _⟩ := hr.iterate f rest et
  -- what happens to the store
  have key : ∃ t todo, c.step cfg (.work env) = { c with store := t, todo := todo } ∧
      (t = c.store ∨ ∃ ts, t = added env.now f.voucher f.total f.counter ts c.store) := by
    simp only [Controller.step, et, Task.run]
    split
    · unfold get_random_tokens
      cases hg : token_count_for_group cfg.num_redemption_groups f.total f.counter with
      | error e => exact ⟨_, _, rfl, .inl rfl⟩
      | ok n =>
        dsimp only
        rcases add_effect env.order env.now f.voucher f.total f.counter
            (env.random f.voucher f.counter n.toNat) c.store with
          ⟨err, he⟩ | ⟨ts', he, _⟩ | ⟨ts', _, he, _⟩ <;> rw [he]
        · exact ⟨_, _, rfl, .inl rfl⟩
        · exact ⟨_, _, rfl, .inl rfl⟩
        · exact ⟨_, _, rfl, .inr ⟨_, rfl⟩⟩
    · exact ⟨_, _, rfl, .inl rfl⟩
  obtain ⟨t, todo, hstep, ht⟩ := key
  have hn : noted cfg v c (.work env) =
      if (voucherRow c.store v).isNone ∧ (voucherRow t v).isSome then [.added env.now] else [] := by
    simp only [noted, et, hstep]
  rw [hn, hstep]
  rcases ht with rfl | ⟨ts, rfl⟩
  · rw [if_neg (by cases voucherRow c.store v <;> simp)]
    exact h.same rfl rfl rfl rfl rfl
  · rw [voucherRow_added]
    by_cases hv : v = f.voucher
    · subst hv
      rw [if_pos rfl]
      cases hold : voucherRow c.store f.voucher with
      | none =>
        rw [if_pos (by simp)]
        obtain ⟨h1, h2, h3, h4⟩ := restarts_nothing (h.fresh hold) cfg
        have hnew : voucherRow (added env.now f.voucher f.total f.counter ts c.store) f.voucher =
            some (newRow env.now f.voucher f.total) := by rw [voucherRow_added, if_pos rfl, hold]; rfl
        refine ⟨?_, h.unpaid, h.error, ?_, ?_, ?_, ?_⟩
        · exact not_busy_active hr hnb
        · intro e; rw [hnew] at e; cases e
        · intro r e
          rw [hnew] at e
          obtain rfl := Option.some.inj e
          exact ⟨by simp [addedAt, h3, newRow], rfl⟩
        · have := h.tokens
          rw [hold] at this
          rw [hnew]; exact this
        · intro t l e
          obtain ⟨_, rfl⟩ := List.cons.inj e
          exact ⟨h1, h2⟩
      | some r =>
        rw [if_neg (by simp)]
        refine h.same rfl rfl rfl ?_ rfl
        dsimp only
        rw [voucherRow_added, if_pos rfl, hold]; rfl
    · rw [if_neg hv, if_neg (by cases voucherRow c.store v <;> simp)]
      refine h.same rfl rfl rfl ?_ rfl
      dsimp only
      rw [voucherRow_added, if_neg hv]

theorem DInv.perform {cfg : RedeemCfg} {v : String} {c : Controller} {notes : List Note} {env : Env}
    {f : Frame} {ts : List String} {rest : List Task} (h : DInv cfg v c notes)
    (et : c.todo = .perform f ts :: rest) :
    DInv cfg v (c.step cfg (.work env)) (noted cfg v c (.work env) ++ notes) := by
  have key : c.step cfg (.work env) = { c with todo := rest } ∨
      ∃ row, voucherRow c.store f.voucher = some row ∧ row.state = "pending" ∧
        c.step cfg (.work env) = { c with
          active := c.active.set f.voucher (env.now, row.counter)
          waiting := c.waiting ++ [⟨f, ts⟩]
          todo := rest
          log := c.log ++ [.sent f.voucher f.counter ts] } := by
    simp only [Controller.step, et, Task.run, contact_issuer, get_object_eq]
    cases hrow : voucherRow c.store f.voucher with
    | none => exact .inl rfl
    | some row =>
      dsimp only
      by_cases hp : row.state = "pending"
      · rw [from_row_pending hp]
        exact .inr ⟨row, rfl, hp, rfl⟩
      · left
        rcases from_row_other hp with ⟨e, he, _⟩ | ⟨d, he⟩ | ⟨d, n, he⟩ <;> rw [he]
  rcases key with hstep | ⟨row, hrow, hp, hstep⟩
  · have hn : noted cfg v c (.work env) = [] := by simp [noted, et, hstep]
    rw [hn, hstep]
    exact h.same rfl rfl rfl rfl rfl
  · have hn : noted cfg v c (.work env) = if f.voucher = v then [.began env.now] else [] := by
      simp [noted, et, hstep]
    rw [hn, hstep]
    by_cases hv : f.voucher = v
    · rw [if_pos hv]
      subst hv
      refine ⟨?_, h.unpaid, h.error, ?_, ?_, ?_, nofun⟩
      · dsimp only
        rw [Dict.lookup_set]
        simp [underWay, rowCounter, hrow]
      · intro e; rw [hrow] at e; cases e
      · intro r e
        refine ⟨(h.row r e).1, ?_⟩
        rw [hrow] at e
        obtain rfl := Option.some.inj e
        exact hp
      · dsimp only; rw [spendableStored_append]; exact h.tokens
    · rw [if_neg hv]
      refine h.same ?_ rfl rfl rfl ?_
      · dsimp only; rw [Dict.lookup_set]; simp [Ne.symm hv]
      · dsimp only; rw [spendableStored_append]; rfl

theorem dinv_step {cfg : RedeemCfg} {v : String} {c : Controller} {notes : List Note}
    (h : DInv cfg v c notes) (hr : RInv cfg c) (e : RedeemEvent) :
    DInv cfg v (c.step cfg e) (noted cfg v c e ++ notes) := by
  cases e with
  | redeem w n =>
    simp only [Controller.step, noted, List.nil_append]; split
    · exact h.same rfl rfl rfl rfl rfl
    · exact h
  | timer =>
    simp only [Controller.step, noted, List.nil_append]; split
    · exact h.same rfl rfl rfl rfl rfl
    · exact h
  | answer i a =>
    simp only [Controller.step, noted, List.nil_append]
    split
    · exact h
    · split
      · refine h.same rfl rfl rfl rfl ?_
        dsimp only; rw [spendableStored_append]; rfl
      · exact h
  | other op =>
    simp only [Controller.step, noted, List.nil_append]
    split
    · rename_i hop
      simp only [Bool.and_eq_true] at hop
      obtain ⟨_, h2⟩ := other_effect op hop.2 c.store
      refine h.same rfl rfl rfl ?_ rfl
      unfold voucherRow
      rw [h2]
    · exact h
  | crash =>
    have hrow : voucherRow (c.step cfg .crash).store v = voucherRow c.store v := rfl
    refine ⟨rfl, rfl, rfl, ?_, ?_, ?_, nofun⟩
    · rw [hrow]
      intro e n hn
      rcases List.mem_cons.mp hn with rfl | hn
      · rfl
      · exact h.fresh e n hn
    · rw [hrow]
      exact h.row
    · rw [hrow, h.tokens]
      show _ = spendableStored _ v (c.log ++ [.restarted])
      rw [spendableStored_append]; rfl
  | work env =>
    cases et : c.todo with
    | nil =>
      have hn : noted cfg v c (.work env) = [] := by simp [noted, et]
      have hs : c.step cfg (.work env) = c := by simp only [Controller.step, et]
      rw [hn, hs]; exact h
    | cons task rest =>
      cases task with
      | redeem w n =>
        have hn : noted cfg v c (.work env) = [] := by simp [noted, et]
        rw [hn]
        simp only [Controller.step, et, Task.run]
        split
        · exact h.same rfl rfl rfl rfl rfl
        · exact h.same rfl rfl rfl rfl rfl
        · refine h.same rfl rfl rfl rfl ?_
          dsimp only; rw [spendableStored_append]; rfl
      | retry w =>
        have hn : noted cfg v c (.work env) = [] := by simp [noted, et]
        rw [hn]
        simp only [Controller.step, et, Task.run]
        repeat' split
        all_goals exact h.same rfl rfl rfl rfl rfl
      | iterate f => exact h.iterate hr et
      | perform f ts => exact h.perform et
      | answered f a =>
        cases a with
        | success pk us => exact h.success hr et
        | _ => exact h.failure hr et nofun

theorem dinv_run {cfg : RedeemCfg} {v : String} (events : List RedeemEvent) {c : Controller} {notes : List Note}
    (h : DInv cfg v c notes) (hr : RInv cfg c) :
    (diaryFrom cfg v (c, notes) events).1 = c.run cfg events ∧
    DInv cfg v (c.run cfg events) (diaryFrom cfg v (c, notes) events).2 := by
  induction events generalizing c notes with
  | nil => exact ⟨rfl, h⟩
  | cons e es ih => exact ih (dinv_step h hr e) (rinv_step hr e)

/-- What the status calls for, in terms of the three things the controller remembers and the row. -/
theorem statusOf_lasting {cfg : RedeemCfg} {k n : Nat} (l : List Note) :
    (∀ t, lasting cfg l = some (.inl t) → statusOf cfg k n l = .redeemed t n) ∧
    (∀ t, lasting cfg l = some (.inr t) → statusOf cfg k n l = .doubleSpend t) ∧
    (lasting cfg l = none → ∀ t m, statusOf cfg k n l ≠ .redeemed t m ∧ statusOf cfg k n l ≠ .doubleSpend t) := by
  induction l with
  | nil => simp [lasting, statusOf]
  | cons x l ih =>
    cases x with
    | redeemed t g => simp only [lasting, statusOf]; split <;> simp
    | restarted =>
      simp only [lasting, statusOf]
      obtain ⟨h1, h2, h3⟩ := ih
      refine ⟨fun t e => by rw [h1 t e], fun t e => by rw [h2 t e], fun e t m => ?_⟩
      have := h3 e
      split
      · rename_i e'; exact absurd e' (this _ _).1
      · rename_i e'; exact absurd e' (this _ 0).2
      · simp
    | _ => simp [lasting, statusOf]

/-- What is shown of a voucher. -/
theorem DInv.shown {cfg : RedeemCfg} {v : String} {c : Controller} {notes : List Note} (h : DInv cfg v c notes)
    (hr : RInv cfg c) {obj : Voucher String} (ho : get_voucher c v = .ok obj) :
    obj.created = addedAt notes ∧
    (Plain cfg notes → obj.state = statusOf cfg (redeemedGroups v c.log).length
      (spendableStored cfg.allowed_public_keys v c.log) notes) := by
  have hk := hr.counter v
  have htk := h.tokens
  unfold get_voucher at ho
  rw [get_object_eq] at ho
  cases hrow : voucherRow c.store v with
  | none => rw [hrow] at ho; simp at ho
  | some r =>
    rw [hrow] at ho htk
    have hnum : r.number = v := by
      have := List.find?_some hrow
      simpa using this
    obtain ⟨hadd, hsays⟩ := h.row r hrow
    simp only [rowCounter, hrow, Option.map_some, Option.getD_some] at hk htk
    have hact := h.active
    simp only [rowCounter, hrow, Option.map_some, Option.getD_some] at hact
    obtain ⟨s1, s2, s3⟩ := statusOf_lasting (cfg := cfg) (k := (redeemedGroups v c.log).length)
      (n := spendableStored cfg.allowed_public_keys v c.log) notes
    rcases hl : lasting cfg notes with _ | (t | t)
    · rw [hl] at hsays
      dsimp only at ho
      rw [from_row_pending hsays] at ho
      dsimp only at ho
      obtain rfl := Except.ok.inj ho
      have hcr : ∀ w : Voucher String, (incorporate_transient_state c w).created = w.created := by
        intro w
        unfold incorporate_transient_state
        repeat' split
        all_goals rfl
      refine ⟨by rw [hcr, hadd], fun hplain => ?_⟩
      simp only [incorporate_transient_state, hnum, hact, h.unpaid, h.error]
      have hfr := h.head
      rw [← hk] at *
      match notes with
      | [] => rfl
      | .added t :: l =>
        obtain ⟨h1, h2⟩ := hfr t l rfl
        simp only [underWay, lastUnpaid, lastFailure, h1, h2, statusOf]
      | .began t :: l => rfl
      | .redeemed t g :: l =>
        simp only [lasting] at hl
        by_cases hg : g + 1 = cfg.num_redemption_groups
        · rw [if_pos hg] at hl; cases hl
        · obtain ⟨h1, h2⟩ := hplain.resolve_left hg
          simp only [underWay, lastUnpaid, lastFailure, h1, h2, statusOf, if_neg hg]
      | .notStored t :: l =>
        obtain ⟨h1, h2⟩ := hplain
        simp only [underWay, lastUnpaid, lastFailure, h1, h2, statusOf]
      | .spent t :: l => cases hl
      | .unpaid t :: l => rfl
      | .failed t d :: l =>
        have h1 : lastUnpaid l = none := hplain
        simp only [underWay, lastUnpaid, lastFailure, h1, statusOf]
      | .restarted :: l =>
        obtain ⟨_, _, s3⟩ := statusOf_lasting (cfg := cfg) (k := (redeemedGroups v c.log).length)
          (n := spendableStored cfg.allowed_public_keys v c.log) l
        simp only [underWay, lastUnpaid, lastFailure, statusOf]
        split
        · rename_i e'; exact absurd e' (s3 hl _ _).1
        · rename_i e'; exact absurd e' (s3 hl _ 0).2
        · rfl
    · rw [hl] at hsays
      obtain ⟨h1, h2, h3⟩ := hsays
      obtain ⟨n, hn⟩ := Option.ne_none_iff_exists'.mp h3
      rw [hn] at htk
      simp only [Voucher.from_row, sameText, state_from_row, h1, h2, hn] at ho
      obtain rfl := Except.ok.inj ho
      refine ⟨hadd.symm, fun _ => ?_⟩
      rw [s1 t hl, ← htk]; rfl
    · rw [hl] at hsays
      obtain ⟨h1, h2⟩ := hsays
      simp only [Voucher.from_row, sameText, state_from_row, h1, h2] at ho
      obtain rfl := Except.ok.inj ho
      exact ⟨hadd.symm, fun _ => (s2 t hl).symm⟩

theorem get_object_facts {v : String} {t : Tables} {w : Voucher String} (h : get_object v t = .ok w) :
    w.number = v ∧ ∀ s n, w.state ≠ .redeeming s n := by
  rw [get_object_eq] at h
  cases hrow : voucherRow t v with
  | none => rw [hrow] at h; simp at h
  | some r =>
    rw [hrow] at h
    dsimp only at h
    have hnum : r.number = v := by
      have := List.find?_some hrow
      simpa using this
    by_cases hp : r.state = "pending"
    · rw [from_row_pending hp] at h
      obtain rfl := Except.ok.inj h
      exact ⟨hnum, nofun⟩
    · rcases from_row_other hp with ⟨e, he, _⟩ | ⟨d, he⟩ | ⟨d, n, he⟩ <;> rw [he] at h
      · cases h
      · obtain rfl := Except.ok.inj h
        exact ⟨hnum, nofun⟩
      · obtain rfl := Except.ok.inj h
        exact ⟨hnum, nofun⟩

theorem get_object_number {v : String} {t : Tables} {w : Voucher String} (h : get_object v t = .ok w) :
    w.number = v := (get_object_facts h).1

theorem get_object_not_redeeming {v : String} {t : Tables} {w : Voucher String} (h : get_object v t = .ok w) :
    ∀ s n, w.state ≠ .redeeming s n := (get_object_facts h).2

end ZKAP
