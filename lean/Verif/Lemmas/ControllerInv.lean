import Verif.Lemmas.Controller

/-! What holds of a controller at any time. -/
namespace ZKAP
open Spec

/-! ### Records of what happened -/

theorem redeemedGroups_append (v : String) (a b : List Happening) :
    redeemedGroups v (a ++ b) = redeemedGroups v a ++ redeemedGroups v b := by
  induction a with
  | nil => rfl
  | cons h l ih =>
    cases h <;> simp only [List.cons_append, redeemedGroups, ih]
    split <;> simp

theorem tokensStored_append (v : String) (a b : List Happening) :
    tokensStored v (a ++ b) = tokensStored v a + tokensStored v b := by
  induction a with
  | nil => simp [tokensStored]
  | cons h l ih =>
    cases h <;> simp only [List.cons_append, tokensStored, ih]
    split <;> omega

theorem snoc_split {α} {l₁ l₂ log : List α} {x h : α} (e : log ++ [h] = l₁ ++ x :: l₂) :
    (l₂ = [] ∧ x = h ∧ l₁ = log) ∨ ∃ l₂', l₂ = l₂' ++ [h] ∧ log = l₁ ++ x :: l₂' := by
  rcases List.eq_nil_or_concat l₂ with rfl | ⟨l₂', y, rfl⟩
  · left
    have := List.append_inj' e rfl
    exact ⟨rfl, by simpa using this.2.symm, this.1.symm⟩
  · right
    have e' : log ++ [h] = (l₁ ++ x :: l₂') ++ [y] := by simpa using e
    have := List.append_inj' e' rfl
    have hy : h = y := by simpa using this.2
    exact ⟨l₂', by rw [hy]; simp, this.1⟩

theorem reportedUnpaid_snoc {v : String} {log : List Happening} {h : Happening}
    (hr : ReportedUnpaid v log) (hh : h ≠ .restarted) : ReportedUnpaid v (log ++ [h]) := by
  obtain ⟨l₁, c, l₂, rfl, hn⟩ := hr
  exact ⟨l₁, c, l₂ ++ [h], by simp, by simp [hn, Ne.symm hh]⟩

/-! ### Dicts -/

theorem Dict.keys_del {α} (d : Dict String α) (k x : String) :
    x ∈ (d.del k).keys ↔ x ∈ d.keys ∧ x ≠ k := by
  unfold Dict.del Dict.keys
  simp only [List.mem_map, List.mem_filter, Bool.not_eq_true', beq_eq_false_iff_ne]
  constructor
  · rintro ⟨p, ⟨hp, hk⟩, rfl⟩; exact ⟨⟨p, hp, rfl⟩, hk⟩
  · rintro ⟨⟨p, hp, rfl⟩, hk⟩; exact ⟨p, ⟨hp, hk⟩, rfl⟩

theorem Dict.mem_keys_set {α} (d : Dict String α) (k x : String) (a : α) :
    x ∈ (d.set k a).keys ↔ x ∈ d.keys ∨ x = k := by
  unfold Dict.keys
  rw [Dict.keys_set]
  split
  · rename_i h
    have hk : k ∈ d.map Prod.fst := by simpa using h
    constructor
    · exact .inl
    · rintro (h | rfl)
      · exact h
      · exact hk
  · simp

theorem lookup_isSome {α} (d : Dict String α) (k : String) :
    (d.lookup k).isSome = true ↔ k ∈ d.keys := by
  have := Dict.lookup_eq_none_iff (d := d) k
  rw [← Decidable.not_iff_not]
  unfold Dict.keys
  rw [← this]
  exact Option.not_isSome_iff_eq_none

/-! ### The invariant -/

/-- The voucher of a coroutine that has been resumed. -/
def resumed : List Task → List String
  | .answered f _ :: _ => [f.voucher]
  | _ => []

/-- The vouchers with a coroutine between sending a request and dealing with the answer. -/
def busy (c : Controller) : List String := c.waiting.map (·.frame.voucher) ++ resumed c.todo

/-- The voucher is pending and has the total the coroutine works with. -/
def Fits (t : Tables) (f : Frame) : Prop :=
  ∃ row, voucherRow t f.voucher = some row ∧ row.state = "pending" ∧ row.expected_tokens = f.total

/-- The voucher, if it is known, has the total the coroutine works with. -/
def Total (t : Tables) (f : Frame) : Prop :=
  ∀ row, voucherRow t f.voucher = some row → row.expected_tokens = f.total

/-- A row that can be turned into an object. -/
def RowOK (r : VoucherRow) : Prop :=
  r.state = "pending" ∨ (r.state = "double-spend" ∧ r.finished ≠ none) ∨
    (r.state = "redeemed" ∧ r.finished ≠ none ∧ r.token_count ≠ none)

/-- The number of groups of the voucher that the store counts. -/
def rowCounter (t : Tables) (v : String) : Nat := ((voucherRow t v).map (·.counter)).getD 0

/-- The number of tokens of the voucher that the store counts. -/
def rowTokens (t : Tables) (v : String) : Nat :=
  ((voucherRow t v).map (fun r => r.token_count.getD 0 + r.sequestered_count)).getD 0

/-- The latest request for the group is the one the coroutine waits for. -/
def Latest (log : List Happening) (s : Suspended) : Prop :=
  ∃ l₁ l₂, log = l₁ ++ .sent s.frame.voucher s.frame.counter s.tokens :: l₂ ∧
    ∀ d ts, .sent s.frame.voucher d ts ∉ l₂

structure RInv (cfg : RedeemCfg) (c : Controller) : Prop where
  wf : StoreWF c.store
  nodup : (busy c).Nodup
  active : ∀ v, v ∈ c.active.keys ↔ v ∈ busy c
  waiting : ∀ s ∈ c.waiting, Fits c.store s.frame ∧ s.frame.counter < cfg.num_redemption_groups ∧
    s.tokens.Perm (select_random_tokens s.frame.voucher s.frame.counter c.store) ∧
    Latest c.log s
  answered : ∀ f a rest, c.todo = .answered f a :: rest →
    Fits c.store f ∧ f.counter < cfg.num_redemption_groups ∧
    (a = .unpaid → ReportedUnpaid f.voucher c.log)
  iterate : ∀ f rest, c.todo = .iterate f :: rest → f.voucher ∉ busy c ∧ Total c.store f
  perform : ∀ f ts rest, c.todo = .perform f ts :: rest →
    f.voucher ∉ busy c ∧ Total c.store f ∧ f.counter < cfg.num_redemption_groups ∧
    ts.Perm (select_random_tokens f.voucher f.counter c.store) ∧ ts ≠ []
  calls : ∀ x ∈ c.todo.tail, x.isCall = true
  rows : ∀ v row, voucherRow c.store v = some row → RowOK row
  unpaid : ∀ v ∈ c.unpaid.keys, ReportedUnpaid v c.log
  counter : ∀ v, (redeemedGroups v c.log).length = rowCounter c.store v
  tokens : ∀ v, tokensStored v c.log = rowTokens c.store v
  sizes : ∀ v d, select_random_tokens v d c.store ≠ [] → ∃ row, voucherRow c.store v = some row ∧
    token_count_for_group cfg.num_redemption_groups row.expected_tokens d =
      .ok ((select_random_tokens v d c.store).length : Int)
  nonempty : ∀ v d ts, .sent v d ts ∈ c.log → ts ≠ []

theorem rinv_init (cfg : RedeemCfg) : RInv cfg {} := by
  constructor <;>
    simp [busy, resumed, Dict.keys, wf_empty, voucherRow, redeemedGroups, tokensStored, rowCounter,
      rowTokens, select_random_tokens]

theorem resumed_calls {l : List Task} (h : ∀ x ∈ l, x.isCall = true) : resumed l = [] := by
  match l with
  | [] => rfl
  | .answered f a :: _ => simp [Task.isCall] at h
  | .redeem .. :: _ => rfl
  | .retry .. :: _ => rfl
  | .iterate .. :: _ => rfl
  | .perform .. :: _ => rfl

/-- Starting calls changes nothing. -/
theorem RInv.start {cfg : RedeemCfg} {c : Controller} (h : RInv cfg c) {l : List Task}
    (hl : ∀ x ∈ l, x.isCall = true) (hr : resumed c.todo = []) : RInv cfg { c with todo := l } := by
  have hb : busy { c with todo := l } = busy c := by
    simp only [busy, resumed_calls hl, hr]
  refine { h with
    nodup := by rw [hb]; exact h.nodup
    active := fun v => by rw [hb]; exact h.active v
    answered := ?_, iterate := ?_, perform := ?_, calls := ?_ }
  · intro f a rest e; simp only at e; subst e; simp [Task.isCall] at hl
  · intro f rest e; simp only at e; subst e; simp [Task.isCall] at hl
  · intro f ts rest e; simp only at e; subst e; simp [Task.isCall] at hl
  · intro x hx; exact hl x (List.mem_of_mem_tail hx)

theorem take_drop_perm {α} (l : List α) (i : Nat) (s : α) (h : l[i]? = some s) :
    (s :: (l.take i ++ l.drop (i + 1))).Perm l := by
  have hlt : i < l.length := by
    rcases Nat.lt_or_ge i l.length with h' | h'
    · exact h'
    · rw [List.getElem?_eq_none h'] at h; simp at h
  have hs : l[i] = s := by rw [List.getElem?_eq_getElem hlt] at h; simpa using h
  have : l = l.take i ++ s :: l.drop (i + 1) := by
    conv => lhs; rw [← List.take_append_drop i l]
    rw [← List.getElem_cons_drop hlt, hs]
  conv => rhs; rw [this]
  exact List.perm_middle.symm

/-- Happenings that say nothing about stored tokens. -/
def Quiet : Happening → Prop
  | .stored .. => False
  | _ => True

theorem redeemedGroups_quiet {h : Happening} (hq : Quiet h) (v : String) (log : List Happening) :
    redeemedGroups v (log ++ [h]) = redeemedGroups v log := by
  rw [redeemedGroups_append]
  cases h <;> simp_all [Quiet, redeemedGroups]

theorem tokensStored_quiet {h : Happening} (hq : Quiet h) (v : String) (log : List Happening) :
    tokensStored v (log ++ [h]) = tokensStored v log := by
  rw [tokensStored_append]
  cases h <;> simp_all [Quiet, tokensStored]

theorem Latest.snoc {log : List Happening} {s : Suspended} (h : Latest log s) {x : Happening}
    (hx : ∀ d ts, x ≠ .sent s.frame.voucher d ts) : Latest (log ++ [x]) s := by
  obtain ⟨l₁, l₂, rfl, hn⟩ := h
  refine ⟨l₁, l₂ ++ [x], by simp, fun d ts hm => ?_⟩
  rcases List.mem_append.mp hm with hm | hm
  · exact hn d ts hm
  · exact hx d ts (List.mem_singleton.mp hm).symm

/-- The issuer's answer. -/
theorem RInv.answer {cfg : RedeemCfg} {c : Controller} (h : RInv cfg c) (i : Nat) (a : IssuerAnswer) :
    RInv cfg (c.step cfg (.answer i a)) := by
  simp only [Controller.step]
  cases hi : c.waiting[i]? with
  | none => exact h
  | some s =>
    dsimp only
    split
    · rename_i hcalls
      have hcalls' : ∀ x ∈ c.todo, x.isCall = true := by simpa using hcalls
      have hs : s ∈ c.waiting := List.mem_of_getElem? hi
      have hp := take_drop_perm _ _ _ hi
      have hsub : ∀ s' ∈ c.waiting.take i ++ c.waiting.drop (i + 1), s' ∈ c.waiting := fun s' hs' =>
        hp.mem_iff.mp (List.mem_cons_of_mem _ hs')
      have hb : ((c.waiting.take i ++ c.waiting.drop (i + 1)).map (·.frame.voucher) ++
          [s.frame.voucher]).Perm (busy c) := by
        simp only [busy, resumed_calls hcalls', List.append_nil]
        refine List.perm_append_comm.trans ?_
        exact hp.map (fun s : Suspended => s.frame.voucher)
      refine { h with
        nodup := hb.nodup_iff.mpr h.nodup
        active := fun v => (h.active v).trans hb.mem_iff.symm
        waiting := ?_, answered := ?_, iterate := ?_, perform := ?_, calls := ?_
        unpaid := fun v hv => reportedUnpaid_snoc (h.unpaid v hv) (by simp)
        counter := fun v => by rw [redeemedGroups_quiet (by trivial)]; exact h.counter v
        tokens := fun v => by rw [tokensStored_quiet (by trivial)]; exact h.tokens v
        nonempty := fun v d ts hm => h.nonempty v d ts (by simpa using hm) }
      · intro s' hs'
        obtain ⟨h1, h2, h3, h4⟩ := h.waiting s' (hsub s' hs')
        exact ⟨h1, h2, h3, h4.snoc (by simp)⟩
      · intro f a' rest e
        simp only [List.cons.injEq, Task.answered.injEq] at e
        obtain ⟨⟨rfl, rfl⟩, rfl⟩ := e
        refine ⟨(h.waiting s hs).1, (h.waiting s hs).2.1, ?_⟩
        rintro rfl
        exact ⟨c.log, s.frame.counter, [], by simp, by simp⟩
      · intro f rest e; simp at e
      · intro f ts rest e; simp at e
      · exact hcalls'
    · exact h

/-- Other uses of the store. -/
theorem RInv.same_store {cfg : RedeemCfg} {c : Controller} (h : RInv cfg c) {t : Tables}
    (hwf : StoreWF t) (ht : t.app.tokens = c.store.app.tokens)
    (hv : t.app.vouchers = c.store.app.vouchers) : RInv cfg { c with store := t } := by
  have hrow : ∀ v, voucherRow t v = voucherRow c.store v := fun v => by unfold voucherRow; rw [hv]
  have hsel : ∀ v d, select_random_tokens v d t = select_random_tokens v d c.store := fun v d => by
    unfold select_random_tokens; rw [ht]
  exact { h with
    wf := hwf
    waiting := fun s hs => by
      simp only [Fits, hrow, hsel]; exact h.waiting s hs
    answered := fun f a rest e => by simp only [Fits, hrow]; exact h.answered f a rest e
    iterate := fun f rest e => by simp only [Total, hrow]; exact h.iterate f rest e
    perform := fun f ts rest e => by simp only [Total, hrow, hsel]; exact h.perform f ts rest e
    rows := fun v row hr => h.rows v row (by rw [← hrow]; exact hr)
    counter := fun v => by simp only [rowCounter, hrow]; exact h.counter v
    tokens := fun v => by simp only [rowTokens, hrow]; exact h.tokens v
    sizes := fun v d => by simp only [hrow, hsel]; exact h.sizes v d }

theorem RInv.other {cfg : RedeemCfg} {c : Controller} (h : RInv cfg c) (op : StoreOp) :
    RInv cfg (c.step cfg (.other op)) := by
  simp only [Controller.step]
  split
  · rename_i hc
    simp only [Bool.and_eq_true] at hc
    obtain ⟨h1, h2⟩ := other_effect op hc.2 c.store
    exact h.same_store (step_wf_store h.wf op) h1 h2
  · exact h

theorem check_pending_calls (t : Tables) : ∀ x ∈ check_pending_vouchers t, x.isCall = true := by
  intro x hx
  unfold check_pending_vouchers at hx
  split at hx
  · simp at hx
  · split at hx
    · simp at hx
    · obtain ⟨v, _, rfl⟩ := List.mem_map.mp hx
      rfl

theorem RInv.crash {cfg : RedeemCfg} {c : Controller} (h : RInv cfg c) :
    RInv cfg (c.step cfg .crash) := by
  simp only [Controller.step, StoreOp.step]
  have hcalls := check_pending_calls { c.store with temp := {} }
  generalize check_pending_vouchers { c.store with temp := {} } = l at hcalls ⊢
  have hb : busy { store := { c.store with temp := {} }, todo := l, log := c.log ++ [.restarted] } = [] := by
    simp only [busy, resumed_calls hcalls, List.map_nil, List.append_nil]
  exact {
    wf := wf_restart h.wf
    nodup := by rw [hb]; exact List.nodup_nil
    active := fun v => by rw [hb]; simp [Dict.keys]
    waiting := by simp
    answered := fun f a rest e => by simp only at e; subst e; simp [Task.isCall] at hcalls
    iterate := fun f rest e => by simp only at e; subst e; simp [Task.isCall] at hcalls
    perform := fun f ts rest e => by simp only at e; subst e; simp [Task.isCall] at hcalls
    calls := fun x hx => hcalls x (List.mem_of_mem_tail hx)
    rows := h.rows
    unpaid := by simp [Dict.keys]
    counter := fun v => by
      rw [redeemedGroups_quiet (by trivial)]; exact h.counter v
    tokens := fun v => by
      rw [tokensStored_quiet (by trivial)]; exact h.tokens v
    sizes := h.sizes
    nonempty := fun v d ts hm => h.nonempty v d ts (by simpa using hm) }

/-! ### Pieces of work -/

theorem token_count_pos {N T k : Nat} {n : Int} (hg : token_count_for_group N T k = .ok n) :
    1 ≤ n := by
  unfold token_count_for_group at hg
  split at hg
  · simp at hg
  · split at hg
    · simp at hg
    · split at hg
      · simp at hg
      · rename_i h1 h2 h3
        have hpos : 1 ≤ (T : Int).fdiv N := by
          rw [Int.fdiv_eq_ediv_of_nonneg _ (by omega)]
          exact (Int.le_ediv_iff_mul_le (by omega)).mpr (by omega)
        dsimp only at hg
        split at hg <;> simp only [Except.ok.injEq] at hg <;> omega


theorem redeem_start_some {cfg : RedeemCfg} {v : String} {n : Option Nat} {c : Controller}
    {f : Frame} (h : redeem_start cfg v n c = .ok (some f)) :
    f.voucher = v ∧
    ((voucherRow c.store v = none ∧ f.total = n.getD cfg.default_token_count ∧ f.counter = 0) ∨
     (∃ row, voucherRow c.store v = some row ∧ row.state = "pending" ∧ f.total = row.expected_tokens ∧
       v ∉ c.active.keys ∧
       ((v ∈ c.unpaid.keys ∧ f.counter = 0) ∨
        (v ∉ c.unpaid.keys ∧ v ∉ c.error.keys ∧ f.counter = row.counter)))) := by
  unfold redeem_start get_voucher at h
  rw [get_object_eq] at h
  cases hrow : voucherRow c.store v with
  | none =>
    simp only [hrow, Except.ok.injEq, Option.some.injEq] at h
    subst h
    exact ⟨rfl, .inl ⟨rfl, rfl, rfl⟩⟩
  | some row =>
    have hnum := voucherRow_number hrow
    simp only [hrow] at h
    by_cases hp : row.state = "pending"
    · rw [from_row_pending hp] at h
      simp only [incorporate_transient_state, hnum] at h
      cases ha : c.active.lookup v with
      | some x =>
        simp [ha, VoucherState.should_start_redemption] at h
      | none =>
        have ha' : v ∉ c.active.keys := (Dict.lookup_eq_none_iff v).mp ha
        simp only [ha] at h
        cases hu : c.unpaid.lookup v with
        | some x =>
          have hu' : v ∈ c.unpaid.keys := (lookup_isSome _ _).mp (by simp [hu])
          simp only [hu, VoucherState.should_start_redemption, VoucherState.start_at_counter, if_true,
            Except.ok.injEq, Option.some.injEq] at h
          subst h
          exact ⟨rfl, .inr ⟨row, rfl, hp, rfl, ha', .inl ⟨hu', rfl⟩⟩⟩
        | none =>
          have hu' : v ∉ c.unpaid.keys := (Dict.lookup_eq_none_iff v).mp hu
          simp only [hu] at h
          cases he : c.error.lookup v with
          | some x =>
            simp [he, VoucherState.should_start_redemption, VoucherState.start_at_counter] at h
          | none =>
            have he' : v ∉ c.error.keys := (Dict.lookup_eq_none_iff v).mp he
            simp only [he, VoucherState.should_start_redemption, VoucherState.start_at_counter, if_true,
              Except.ok.injEq, Option.some.injEq] at h
            subst h
            exact ⟨rfl, .inr ⟨row, rfl, hp, rfl, ha', .inr ⟨hu', he', rfl⟩⟩⟩
    · rcases from_row_other hp with ⟨e, he, hne⟩ | ⟨d, hd⟩ | ⟨d, k, hd⟩
      · rw [he] at h
        cases e <;> simp_all
      · simp [hd, incorporate_transient_state, VoucherState.should_start_redemption] at h
      · simp [hd, incorporate_transient_state, VoucherState.should_start_redemption] at h

theorem RInv.drop {cfg : RedeemCfg} {c : Controller} (h : RInv cfg c) {task : Task}
    {todo : List Task} (e : c.todo = task :: todo) (hr : resumed c.todo = []) :
    RInv cfg { c with todo := todo } :=
  h.start (by have := h.calls; rw [e] at this; simpa using this) hr

theorem RInv.do_redeem {cfg : RedeemCfg} {c : Controller} (h : RInv cfg c)
    (hc : ∀ x ∈ c.todo, x.isCall = true) (env : Env) (v : String) (n : Option Nat) :
    RInv cfg ((Task.redeem v n).run cfg env c) := by
  simp only [Task.run]
  cases hs : redeem_start cfg v n c with
  | error e => exact h
  | ok o =>
    cases o with
    | none => exact h
    | some f =>
      dsimp only
      obtain ⟨hv, hcase⟩ := redeem_start_some hs
      have hb : busy { c with todo := Task.iterate f :: c.todo, log := c.log ++ [.begun f.voucher f.counter] } = busy c := by
        simp only [busy, resumed_calls hc]; rfl
      refine { h with
        nodup := by rw [hb]; exact h.nodup
        active := fun v => by rw [hb]; exact h.active v
        waiting := ?_
        answered := by simp
        iterate := ?_
        perform := by simp
        calls := by simpa using hc
        unpaid := fun v hv => reportedUnpaid_snoc (h.unpaid v hv) (by simp)
        counter := fun v => by rw [redeemedGroups_quiet (by trivial)]; exact h.counter v
        tokens := fun v => by rw [tokensStored_quiet (by trivial)]; exact h.tokens v
        nonempty := fun v d ts hm => h.nonempty v d ts (by simpa using hm) }
      · intro s hs'
        obtain ⟨h1, h2, h3, h4⟩ := h.waiting s hs'
        exact ⟨h1, h2, h3, h4.snoc (by simp)⟩
      · intro f' rest e
        simp only [List.cons.injEq, Task.iterate.injEq] at e
        obtain ⟨rfl, rfl⟩ := e
        rw [hb, hv]
        rcases hcase with ⟨hnone, _, _⟩ | ⟨row, hrow, hp, ht, ha, _⟩
        · refine ⟨?_, ?_⟩
          · intro hm
            simp only [busy, resumed_calls hc, List.append_nil, List.mem_map] at hm
            obtain ⟨s, hs', hsv⟩ := hm
            obtain ⟨⟨row, hrow, _⟩, _⟩ := h.waiting s hs'
            rw [hsv] at hrow
            simp [hnone] at hrow
          · intro row hrow
            simp [hv, hnone] at hrow
        · refine ⟨fun hm => ha ((h.active v).mpr hm), ?_⟩
          intro row' hrow'
          simp only [hv, hrow, Option.some.injEq] at hrow'
          rw [← hrow', ht]

theorem RInv.do_retry {cfg : RedeemCfg} {c : Controller} (h : RInv cfg c)
    (hc : ∀ x ∈ c.todo, x.isCall = true) (env : Env) (v : String) :
    RInv cfg ((Task.retry v).run cfg env c) := by
  simp only [Task.run]
  split
  · exact h
  · split
    · exact h.start (by simp) (resumed_calls hc)
    · split
      · refine h.start ?_ (resumed_calls hc)
        intro x hx
        rcases List.mem_cons.mp hx with rfl | hx
        · rfl
        · exact hc x hx
      · exact h

/-- Adding random tokens for a voucher that has no request out. -/
theorem RInv.do_iterate {cfg : RedeemCfg} {c : Controller} (h : RInv cfg c)
    (hc : ∀ x ∈ c.todo, x.isCall = true) (env : Env) {f : Frame}
    (hf : f.voucher ∉ busy c ∧ Total c.store f) :
    RInv cfg ((Task.iterate f).run cfg env c) := by
  simp only [Task.run]
  split
  rotate_left
  · exact h
  rename_i hlt
  unfold get_random_tokens
  cases hg : token_count_for_group cfg.num_redemption_groups f.total f.counter with
  | error e => exact h
  | ok n =>
    dsimp only
    have hbusy : ∀ (t : Tables) (ts : List String),
        busy { c with store := t, todo := Task.perform f ts :: c.todo } = busy c := by
      intro t ts; simp only [busy, resumed_calls hc]; rfl
    rcases add_effect env.order env.now f.voucher f.total f.counter
        (env.random f.voucher f.counter n.toNat) c.store with
      ⟨err, he⟩ | ⟨ts, he, hp, hne⟩ | ⟨ts, hget, he, hnil⟩
    · rw [he]; exact h
    · rw [he]
      dsimp only
      exact { h with
        nodup := by rw [hbusy]; exact h.nodup
        active := fun v => by rw [hbusy]; exact h.active v
        answered := by simp
        iterate := by simp
        perform := by
          intro f' ts' rest e
          simp only [List.cons.injEq, Task.perform.injEq] at e
          obtain ⟨⟨rfl, rfl⟩, rfl⟩ := e
          rw [hbusy]
          exact ⟨hf.1, hf.2, hlt, hp, hne⟩
        calls := by simpa using hc }
    · have hwf' : StoreWF (added env.now f.voucher f.total f.counter ts c.store) := by
        have := wf_add h.wf env.order env.now f.voucher f.total f.counter
          (env.random f.voucher f.counter n.toNat)
        rw [he] at this; exact this
      rw [he]
      dsimp only
      have hrow := voucherRow_added env.now f.voucher f.total f.counter ts c.store
      have hsel := select_added env.now f.voucher f.total f.counter ts c.store
      have hkeep : ∀ w, w ≠ f.voucher →
          voucherRow (added env.now f.voucher f.total f.counter ts c.store) w = voucherRow c.store w := by
        intro w hw; rw [hrow, if_neg hw]
      have hn1 := token_count_pos hg
      have hlen : ts.length = n.toNat := env.random_length _ _ _ _ hget
      have htotal : ∀ row, voucherRow (added env.now f.voucher f.total f.counter ts c.store) f.voucher =
          some row → row.expected_tokens = f.total := by
        intro row hr
        rw [hrow, if_pos rfl] at hr
        cases ho : voucherRow c.store f.voucher with
        | none => rw [ho] at hr; simp only [Option.getD_none, Option.some.injEq] at hr; rw [← hr]; rfl
        | some r =>
          rw [ho] at hr
          simp only [Option.getD_some, Option.some.injEq] at hr
          rw [← hr]; exact hf.2 r ho
      exact {
        wf := hwf'
        nodup := by rw [hbusy]; exact h.nodup
        active := fun v => by rw [hbusy]; exact h.active v
        waiting := by
          intro s hs
          obtain ⟨h1, h2, h3, h4⟩ := h.waiting s hs
          have hne : s.frame.voucher ≠ f.voucher := fun e => hf.1 (by
            simp only [busy, List.mem_append, List.mem_map]
            exact .inl ⟨s, hs, e⟩)
          refine ⟨?_, h2, ?_, h4⟩
          · simp only [Fits, hkeep _ hne]; exact h1
          · rw [hsel, if_neg (fun hh => hne hh.1), List.append_nil]; exact h3
        answered := by simp
        iterate := by simp
        perform := by
          intro f' ts' rest e
          simp only [List.cons.injEq, Task.perform.injEq] at e
          obtain ⟨⟨rfl, rfl⟩, rfl⟩ := e
          rw [hbusy]
          refine ⟨hf.1, htotal, hlt, ?_, ?_⟩
          · rw [hsel, if_pos ⟨rfl, rfl⟩, hnil, List.nil_append]
          · intro e
            rw [e] at hlen
            simp only [List.length_nil] at hlen
            omega
        calls := by simpa using hc
        rows := by
          intro v row hr
          rw [hrow] at hr
          split at hr
          · cases ho : voucherRow c.store f.voucher with
            | none =>
              rw [ho] at hr
              simp only [Option.getD_none, Option.some.injEq] at hr
              rw [← hr]; exact .inl rfl
            | some r =>
              rw [ho] at hr
              simp only [Option.getD_some, Option.some.injEq] at hr
              rw [← hr]; exact h.rows _ r ho
          · exact h.rows v row hr
        unpaid := h.unpaid
        counter := by
          intro v
          rw [h.counter v]
          unfold rowCounter
          rw [hrow]
          split
          · rename_i e; subst e
            cases ho : voucherRow c.store f.voucher <;> simp [newRow]
          · rfl
        tokens := by
          intro v
          rw [h.tokens v]
          unfold rowTokens
          rw [hrow]
          split
          · rename_i e; subst e
            cases ho : voucherRow c.store f.voucher <;> simp [newRow]
          · rfl
        sizes := by
          intro v d hne
          rw [hsel] at hne ⊢
          by_cases hvd : v = f.voucher ∧ d = f.counter
          · obtain ⟨rfl, rfl⟩ := hvd
            refine ⟨_, by rw [hrow, if_pos rfl], ?_⟩
            have ht : ((voucherRow c.store f.voucher).getD (newRow env.now f.voucher f.total)).expected_tokens
                = f.total := htotal _ (by rw [hrow, if_pos rfl])
            rw [ht, hg, if_pos ⟨rfl, rfl⟩, hnil, List.nil_append, hlen]
            congr 1
            omega
          · rw [if_neg hvd, List.append_nil] at hne ⊢
            obtain ⟨row, hr, hs⟩ := h.sizes v d hne
            refine ⟨row, ?_, hs⟩
            rw [hrow]
            split
            · rename_i e; subst e; rw [hr]; rfl
            · exact hr
        nonempty := h.nonempty }

/-- Sending a request. -/
theorem RInv.do_perform {cfg : RedeemCfg} {c : Controller} (h : RInv cfg c)
    (hc : ∀ x ∈ c.todo, x.isCall = true) (env : Env) {f : Frame} {ts : List String}
    (hf : f.voucher ∉ busy c ∧ Total c.store f ∧ f.counter < cfg.num_redemption_groups ∧
      ts.Perm (select_random_tokens f.voucher f.counter c.store) ∧ ts ≠ []) :
    RInv cfg ((Task.perform f ts).run cfg env c) := by
  simp only [Task.run, contact_issuer, get_object_eq]
  cases hrow : voucherRow c.store f.voucher with
  | none => exact h
  | some row =>
    dsimp only
    by_cases hp : row.state = "pending"
    · rw [from_row_pending hp]
      dsimp only
      have hb : busy { c with active := c.active.set f.voucher (env.now, row.counter), waiting := c.waiting ++ [⟨f, ts⟩], log := c.log ++ [.sent f.voucher f.counter ts] } = busy c ++ [f.voucher] := by
        simp [busy, resumed_calls hc]
      refine { h with
        nodup := ?_, active := ?_, waiting := ?_, answered := ?_, iterate := ?_, perform := ?_
        unpaid := fun v hv => reportedUnpaid_snoc (h.unpaid v hv) (by simp)
        counter := fun v => by rw [redeemedGroups_quiet (by trivial)]; exact h.counter v
        tokens := fun v => by rw [tokensStored_quiet (by trivial)]; exact h.tokens v
        nonempty := fun v d ts' hm => by
          rcases List.mem_append.mp hm with hm | hm
          · exact h.nonempty v d ts' hm
          · simp only [List.mem_singleton, Happening.sent.injEq] at hm
            rw [hm.2.2]; exact hf.2.2.2.2 }
      · rw [hb]
        exact nodup_append_fresh h.nodup (by simp) (by simpa using hf.1)
      · intro v
        rw [hb, List.mem_append, List.mem_singleton, ← h.active v]
        exact Dict.mem_keys_set _ _ _ _
      · intro s hs
        rcases List.mem_append.mp hs with hs | hs
        · obtain ⟨h1, h2, h3, h4⟩ := h.waiting s hs
          refine ⟨h1, h2, h3, h4.snoc ?_⟩
          intro d ts' e
          simp only [Happening.sent.injEq] at e
          exact hf.1 (by
            simp only [busy, List.mem_append, List.mem_map]
            exact .inl ⟨s, hs, e.1.symm⟩)
        · rw [List.mem_singleton.mp hs]
          refine ⟨⟨row, hrow, hp, hf.2.1 row hrow⟩, hf.2.2.1, hf.2.2.2.1, c.log, [], by simp, by simp⟩
      · intro f' a rest e
        simp only at e
        exact absurd (hc (.answered f' a) (by rw [e]; simp)) (by simp [Task.isCall])
      · intro f' rest e
        simp only at e
        exact absurd (hc (.iterate f') (by rw [e]; simp)) (by simp [Task.isCall])
      · intro f' ts' rest e
        simp only at e
        exact absurd (hc (.perform f' ts') (by rw [e]; simp)) (by simp [Task.isCall])
    · rcases from_row_other hp with ⟨e, he, hne⟩ | ⟨d, hd⟩ | ⟨d, k, hd⟩
      · rw [he]; exact h
      · rw [hd]; exact h
      · rw [hd]; exact h

/-- Ending a coroutine's activity. -/
theorem RInv.release {cfg : RedeemCfg} {c : Controller} (h : RInv cfg c) {f : Frame}
    {a : IssuerAnswer} {rest : List Task} (e : c.todo = .answered f a :: rest) :
    RInv cfg { c with todo := rest, active := c.active.del f.voucher } := by
  have hcalls : ∀ x ∈ rest, x.isCall = true := by have := h.calls; rw [e] at this; simpa using this
  have hold : busy c = c.waiting.map (·.frame.voucher) ++ [f.voucher] := by simp [busy, e, resumed]
  have hb : busy { c with todo := rest, active := c.active.del f.voucher } =
      c.waiting.map (·.frame.voucher) := by
    simp [busy, resumed_calls hcalls]
  have hnd := h.nodup
  rw [hold, List.nodup_append] at hnd
  exact { h with
    nodup := by rw [hb]; exact hnd.1
    active := fun v => by
      rw [hb, Dict.keys_del, h.active, hold, List.mem_append, List.mem_singleton]
      constructor
      · rintro ⟨h1 | h1, h2⟩
        · exact h1
        · exact absurd h1 h2
      · intro h1
        exact ⟨.inl h1, hnd.2.2 v h1 f.voucher (by simp)⟩
    answered := fun f' a' rest' e' => by simp only at e'; subst e'; simp [Task.isCall] at hcalls
    iterate := fun f' rest' e' => by simp only at e'; subst e'; simp [Task.isCall] at hcalls
    perform := fun f' ts rest' e' => by simp only at e'; subst e'; simp [Task.isCall] at hcalls
    calls := fun x hx => hcalls x (List.mem_of_mem_tail hx) }

theorem rowCounter_inserted (now v pk : String) (ts : List String) (cm sp : Bool) (t : Tables)
    {row : VoucherRow} (hrow : voucherRow t v = some row) (w : String) :
    rowCounter (inserted now v pk ts cm sp t) w = rowCounter t w + if w = v then 1 else 0 := by
  unfold rowCounter
  rw [voucherRow_inserted]
  split
  · rename_i e; subst e; rw [hrow]; simp [redeemedRow]
  · rfl

theorem rowTokens_inserted (now v pk : String) (ts : List String) (cm sp : Bool) (t : Tables)
    {row : VoucherRow} (hrow : voucherRow t v = some row) (w : String) :
    rowTokens (inserted now v pk ts cm sp t) w = rowTokens t w + if w = v then ts.length else 0 := by
  unfold rowTokens
  rw [voucherRow_inserted]
  split
  · rename_i e; subst e; rw [hrow]
    cases sp <;> simp [redeemedRow] <;> omega
  · rfl

/-- Storing the unblinded tokens of a group, and going on with the next. -/
theorem RInv.do_stored {cfg : RedeemCfg} {c : Controller} (h : RInv cfg c)
    (hc : ∀ x ∈ c.todo, x.isCall = true) (now pk : String) (us : List String) (cm sp : Bool)
    {f : Frame} {row : VoucherRow} (hf : f.voucher ∉ busy c)
    (hrow : voucherRow c.store f.voucher = some row) (htot : row.expected_tokens = f.total)
    (hwf : StoreWF (inserted now f.voucher pk us cm sp c.store)) :
    RInv cfg { c with
      store := inserted now f.voucher pk us cm sp c.store
      todo := .iterate { f with counter := f.counter + 1 } :: c.todo
      log := c.log ++ [.stored f.voucher f.counter pk us] } := by
  have hr := voucherRow_inserted now f.voucher pk us cm sp c.store
  have hs := select_inserted now f.voucher pk us cm sp c.store hrow
  have hb : busy { c with
      store := inserted now f.voucher pk us cm sp c.store
      todo := .iterate { f with counter := f.counter + 1 } :: c.todo
      log := c.log ++ [.stored f.voucher f.counter pk us] } = busy c := by
    simp only [busy, resumed_calls hc]; rfl
  exact { h with
    wf := hwf
    nodup := by rw [hb]; exact h.nodup
    active := fun v => by rw [hb]; exact h.active v
    waiting := by
      intro s hs'
      obtain ⟨h1, h2, h3, h4⟩ := h.waiting s hs'
      have hne : s.frame.voucher ≠ f.voucher := fun e => hf (by
        simp only [busy, List.mem_append, List.mem_map]
        exact .inl ⟨s, hs', e⟩)
      refine ⟨?_, h2, ?_, h4.snoc (by simp)⟩
      · simp only [Fits, hr, if_neg hne]; exact h1
      · rw [hs, if_neg (fun hh => hne hh.1)]; exact h3
    answered := by simp
    iterate := by
      intro f' rest e
      simp only [List.cons.injEq, Task.iterate.injEq] at e
      obtain ⟨rfl, rfl⟩ := e
      rw [hb]
      refine ⟨hf, ?_⟩
      intro row' hrow'
      dsimp only at hrow' ⊢
      rw [hr, if_pos rfl, hrow] at hrow'
      simp only [Option.map_some, Option.some.injEq] at hrow'
      rw [← hrow', ← htot]
      rfl
    perform := by simp
    calls := by simpa using hc
    rows := by
      intro v row' hrow'
      rw [hr] at hrow'
      split at hrow'
      · rw [hrow] at hrow'
        simp only [Option.map_some, Option.some.injEq] at hrow'
        rw [← hrow']
        cases cm <;> simp [RowOK, redeemedRow]
      · exact h.rows v row' hrow'
    unpaid := fun v hv => reportedUnpaid_snoc (h.unpaid v hv) (by simp)
    counter := by
      intro v
      rw [rowCounter_inserted _ _ _ _ _ _ _ hrow, redeemedGroups_append, List.length_append,
        h.counter v]
      simp only [redeemedGroups]
      by_cases e : f.voucher = v
      · simp [e]
      · simp [e, Ne.symm e]
    tokens := by
      intro v
      rw [rowTokens_inserted _ _ _ _ _ _ _ hrow, tokensStored_append, h.tokens v]
      simp only [tokensStored]
      by_cases e : f.voucher = v
      · simp [e]
      · simp [e, Ne.symm e]
    sizes := by
      intro v d hne
      rw [hs] at hne ⊢
      split at hne
      · simp at hne
      · rename_i hvd
        rw [if_neg hvd]
        obtain ⟨row', hr', hsz⟩ := h.sizes v d hne
        by_cases e : v = f.voucher
        · subst e
          rw [hrow] at hr'
          simp only [Option.some.injEq] at hr'
          subst hr'
          exact ⟨redeemedRow now us.length cm sp row, by rw [hr, if_pos rfl, hrow]; rfl, hsz⟩
        · exact ⟨row', by rw [hr, if_neg e]; exact hr', hsz⟩
    nonempty := fun v d ts hm => h.nonempty v d ts (by simpa using hm) }

/-- Marking a voucher without a request out double-spent. -/
theorem RInv.do_doubleSpent {cfg : RedeemCfg} {c : Controller} (h : RInv cfg c)
    (hc : ∀ x ∈ c.todo, x.isCall = true) (now : String) {v : String} (hv : v ∉ busy c) :
    RInv cfg { c with store := (transact (store_mark_double_spent now v) c.store).2 } := by
  obtain ⟨ht, hr⟩ := doubleSpent_effect now v c.store
  have hwf := wf_doubleSpent h.wf now v
  generalize (transact (store_mark_double_spent now v) c.store).2 = t at ht hr hwf ⊢
  have hs : ∀ w d, select_random_tokens w d t = select_random_tokens w d c.store := fun w d => by
    unfold select_random_tokens; rw [ht]
  have hcnt : ∀ w, rowCounter t w = rowCounter c.store w := by
    intro w
    unfold rowCounter
    rw [hr]
    split
    · rename_i e; subst e
      cases voucherRow c.store w with
      | none => rfl
      | some r => simp only [Option.map_some, Option.getD_some]; split <;> rfl
    · rfl
  have htok : ∀ w, rowTokens t w = rowTokens c.store w := by
    intro w
    unfold rowTokens
    rw [hr]
    split
    · rename_i e; subst e
      cases voucherRow c.store w with
      | none => rfl
      | some r => simp only [Option.map_some, Option.getD_some]; split <;> rfl
    · rfl
  exact { h with
    wf := hwf
    waiting := by
      intro s hs'
      obtain ⟨h1, h2, h3, h4⟩ := h.waiting s hs'
      have hne : s.frame.voucher ≠ v := fun e => hv (by
        simp only [busy, List.mem_append, List.mem_map]
        exact .inl ⟨s, hs', e⟩)
      refine ⟨?_, h2, ?_, h4⟩
      · simp only [Fits, hr, if_neg hne]; exact h1
      · rw [hs]; exact h3
    answered := fun f' a' rest' e' => by
      simp only at e'; rw [e'] at hc; simp [Task.isCall] at hc
    iterate := fun f' rest' e' => by
      simp only at e'; rw [e'] at hc; simp [Task.isCall] at hc
    perform := fun f' ts rest' e' => by
      simp only at e'; rw [e'] at hc; simp [Task.isCall] at hc
    rows := by
      intro w row hrow
      rw [hr] at hrow
      split at hrow
      · cases ho : voucherRow c.store v with
        | none => rw [ho] at hrow; simp at hrow
        | some r =>
          rw [ho] at hrow
          simp only [Option.map_some, Option.some.injEq] at hrow
          rw [← hrow]
          split
          · exact .inr (.inl ⟨rfl, by simp⟩)
          · exact h.rows v r ho
      · exact h.rows w row hrow
    counter := fun w => by rw [hcnt]; exact h.counter w
    tokens := fun w => by rw [htok]; exact h.tokens w
    sizes := by
      intro w d hne
      rw [hs] at hne ⊢
      obtain ⟨row, hr', hsz⟩ := h.sizes w d hne
      rw [hr]
      split
      · rename_i e; subst e
        rw [hr']
        refine ⟨_, rfl, ?_⟩
        dsimp only
        split <;> exact hsz
      · exact ⟨row, hr', hsz⟩ }

theorem busy_release {c : Controller} {f : Frame} {a : IssuerAnswer} {rest : List Task}
    {cfg : RedeemCfg} (h : RInv cfg c) (e : c.todo = .answered f a :: rest) :
    f.voucher ∉ busy { c with todo := rest, active := c.active.del f.voucher } := by
  have hcalls : ∀ x ∈ rest, x.isCall = true := by have := h.calls; rw [e] at this; simpa using this
  have hold : busy c = c.waiting.map (·.frame.voucher) ++ [f.voucher] := by simp [busy, e, resumed]
  have hnd := h.nodup
  rw [hold, List.nodup_append] at hnd
  simp only [busy, resumed_calls hcalls, List.append_nil]
  intro hm
  exact hnd.2.2 _ hm f.voucher (by simp) rfl

theorem RInv.with_errors {cfg : RedeemCfg} {c : Controller} (h : RInv cfg c)
    (d : Dict String (String × String)) : RInv cfg { c with error := d } := { h with }

theorem RInv.with_unpaid {cfg : RedeemCfg} {c : Controller} (h : RInv cfg c) {v now : String}
    (hv : ReportedUnpaid v c.log) : RInv cfg { c with unpaid := c.unpaid.set v now } :=
  { h with
    unpaid := by
      intro w hw
      rcases (Dict.mem_keys_set _ _ _ _).mp hw with hw | rfl
      · exact h.unpaid w hw
      · exact hv }

/-- Dealing with the issuer's answer. -/
theorem RInv.do_answered {cfg : RedeemCfg} {c : Controller} (h : RInv cfg c) (env : Env) {f : Frame}
    {a : IssuerAnswer} {rest : List Task} (e : c.todo = .answered f a :: rest) :
    RInv cfg ((Task.answered f a).run cfg env { c with todo := rest }) := by
  have hcalls : ∀ x ∈ rest, x.isCall = true := by have := h.calls; rw [e] at this; simpa using this
  have hrel := h.release e
  have hfree := busy_release h e
  simp only [Task.run, resume]
  cases a with
  | success pk us =>
    dsimp only [redeem_success]
    obtain ⟨⟨row, hrow, hp, ht⟩, _⟩ := h.answered f _ rest e
    have hwf := wf_insert h.wf env.now f.voucher pk us
      (f.counter + 1 == cfg.num_redemption_groups) (decide (pk ∈ cfg.allowed_public_keys))
    rcases insert_effect env.now f.voucher pk us (f.counter + 1 == cfg.num_redemption_groups)
        (decide (pk ∈ cfg.allowed_public_keys)) c.store with ⟨err, he⟩ | ⟨row', hrow', he⟩
    · rw [he]; exact hrel
    · rw [he] at hwf ⊢
      exact hrel.do_stored hcalls env.now pk us _ _ hfree hrow ht hwf
  | alreadySpent => exact hrel.do_doubleSpent hcalls env.now hfree
  | unpaid => exact hrel.with_unpaid ((h.answered f _ rest e).2.2 rfl)
  | failed d => exact hrel.with_errors _

/-- The invariant is kept by every event. -/
theorem rinv_step {cfg : RedeemCfg} {c : Controller} (h : RInv cfg c) (e : RedeemEvent) :
    RInv cfg (c.step cfg e) := by
  cases e with
  | redeem v n =>
    simp only [Controller.step]
    split
    · rename_i he
      have : c.todo = [] := by simpa using he
      exact h.start (by simp [Task.isCall]) (by rw [this]; rfl)
    · exact h
  | timer =>
    simp only [Controller.step]
    split
    · rename_i he
      have : c.todo = [] := by simpa using he
      refine h.start ?_ (by rw [this]; rfl)
      intro x hx
      obtain ⟨v, _, rfl⟩ := List.mem_map.mp hx
      rfl
    · exact h
  | answer i a => exact h.answer i a
  | other op => exact h.other op
  | crash => exact h.crash
  | work env =>
    simp only [Controller.step]
    split
    · exact h
    · rename_i task todo e
      have hcalls : ∀ x ∈ todo, x.isCall = true := by
        have := h.calls; rw [e] at this; simpa using this
      have hbusy : ∀ t, c.todo = t :: todo → resumed (t :: todo) = [] →
          busy { c with todo := todo } = busy c := by
        intro t ht hr
        simp only [busy, resumed_calls hcalls, ht, hr]
      cases task with
      | redeem v n => exact (h.drop e (by rw [e]; rfl)).do_redeem hcalls env v n
      | retry v => exact (h.drop e (by rw [e]; rfl)).do_retry hcalls env v
      | iterate f =>
        refine (h.drop e (by rw [e]; rfl)).do_iterate hcalls env ?_
        rw [hbusy _ e rfl]
        exact h.iterate f todo e
      | perform f ts =>
        refine (h.drop e (by rw [e]; rfl)).do_perform hcalls env ?_
        rw [hbusy _ e rfl]
        exact h.perform f ts todo e
      | answered f a => exact h.do_answered env e

theorem rinv_run (cfg : RedeemCfg) (events : List RedeemEvent) {c : Controller} (h : RInv cfg c) :
    RInv cfg (c.run cfg events) := by
  induction events generalizing c with
  | nil => exact h
  | cons e es ih => exact ih (rinv_step h e)

/-- The record only grows. -/
theorem step_log (cfg : RedeemCfg) (c : Controller) (e : RedeemEvent) :
    ∃ l, (c.step cfg e).log = c.log ++ l := by
  cases e with
  | redeem v n => simp only [Controller.step]; split <;> exact ⟨[], by simp⟩
  | timer => simp only [Controller.step]; split <;> exact ⟨[], by simp⟩
  | answer i a =>
    simp only [Controller.step]
    split
    · exact ⟨[], by simp⟩
    · split
      · exact ⟨_, rfl⟩
      · exact ⟨[], by simp⟩
  | other op => simp only [Controller.step]; split <;> exact ⟨[], by simp⟩
  | crash => exact ⟨_, rfl⟩
  | work env =>
    simp only [Controller.step]
    split
    · exact ⟨[], by simp⟩
    · rename_i task todo _
      cases task with
      | redeem v n =>
        simp only [Task.run]
        split
        · exact ⟨[], by simp⟩
        · exact ⟨[], by simp⟩
        · exact ⟨_, rfl⟩
      | retry v =>
        simp only [Task.run]
        split
        · exact ⟨[], by simp⟩
        · split
          · exact ⟨[], by simp⟩
          · split <;> exact ⟨[], by simp⟩
      | iterate f =>
        simp only [Task.run]
        split
        · split <;> exact ⟨[], by simp⟩
        · exact ⟨[], by simp⟩
      | perform f ts =>
        simp only [Task.run, contact_issuer]
        split
        · exact ⟨[], by simp⟩
        · split
          · exact ⟨_, rfl⟩
          · exact ⟨[], by simp⟩
      | answered f a =>
        simp only [Task.run, resume]
        split
        · split
          · exact ⟨[], by simp⟩
          · exact ⟨_, rfl⟩
        · cases a <;> exact ⟨[], by simp [redeem_failure]⟩

theorem run_log (cfg : RedeemCfg) (events : List RedeemEvent) (c : Controller) :
    ∃ l, (c.run cfg events).log = c.log ++ l := by
  induction events generalizing c with
  | nil => exact ⟨[], by simp [Controller.run]⟩
  | cons e es ih =>
    obtain ⟨l₁, h₁⟩ := step_log cfg c e
    obtain ⟨l₂, h₂⟩ := ih (c.step cfg e)
    exact ⟨l₁ ++ l₂, by
      show ((c.step cfg e).run cfg es).log = _
      rw [h₂, h₁, List.append_assoc]⟩

end ZKAP
