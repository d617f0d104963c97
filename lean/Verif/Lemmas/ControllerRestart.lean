import Verif.Lemmas.ControllerSteps

/-! What a restarted process does. -/
namespace ZKAP
open Spec

theorem from_row_ok {r : VoucherRow} (h : RowOK r) :
    ∃ o, Voucher.from_row sameText r = .ok o ∧ o.number = r.number ∧
      (o.state.should_start_redemption = true ↔ r.state = "pending") := by
  rcases h with h | ⟨h, hf⟩ | ⟨h, hf, hc⟩
  · exact ⟨_, from_row_pending h, rfl, by simp [VoucherState.should_start_redemption, h]⟩
  · obtain ⟨f, hf⟩ := Option.ne_none_iff_exists'.mp hf
    refine ⟨⟨r.number, r.expected_tokens, some r.created, .doubleSpend f⟩, ?_, rfl, ?_⟩
    · simp [Voucher.from_row, state_from_row, sameText, h, hf]
    · simp [VoucherState.should_start_redemption, h]
  · obtain ⟨f, hf⟩ := Option.ne_none_iff_exists'.mp hf
    obtain ⟨n, hn⟩ := Option.ne_none_iff_exists'.mp hc
    refine ⟨⟨r.number, r.expected_tokens, some r.created, .redeemed f n⟩, ?_, rfl, ?_⟩
    · simp [Voucher.from_row, state_from_row, sameText, h, hf, hn]
    · simp [VoucherState.should_start_redemption, h]

theorem mapM_ok {α β} {f : α → Except PyErr β} {l : List α} (h : ∀ x ∈ l, ∃ y, f x = .ok y) :
    ∃ ys, l.mapM f = .ok ys ∧ (∀ x ∈ l, ∀ y, f x = .ok y → y ∈ ys) ∧
      ∀ y ∈ ys, ∃ x ∈ l, f x = .ok y := by
  induction l with
  | nil => exact ⟨[], rfl, by simp, by simp⟩
  | cons a as ih =>
    obtain ⟨b, hb⟩ := h a List.mem_cons_self
    obtain ⟨bs, hbs, hm, hm'⟩ := ih (fun x hx => h x (List.mem_cons_of_mem _ hx))
    refine ⟨b :: bs, ?_, ?_, ?_⟩
    · simp [List.mapM_cons, hb, hbs, bind, Except.bind, pure, Except.pure]
    · intro x hx y hy
      rcases List.mem_cons.mp hx with rfl | hx
      · rw [hb] at hy; simp only [Except.ok.injEq] at hy; subst hy; exact List.mem_cons_self
      · exact List.mem_cons_of_mem _ (hm x hx y hy)
    · intro y hy
      rcases List.mem_cons.mp hy with rfl | hy
      · exact ⟨a, List.mem_cons_self, hb⟩
      · obtain ⟨x, hx, e⟩ := hm' y hy
        exact ⟨x, List.mem_cons_of_mem _ hx, e⟩

/-- A restarted process will redeem every pending voucher, and nothing else. -/
theorem check_pending_mem {t : Tables} (hwf : StoreWF t)
    (hrows : ∀ v row, voucherRow t v = some row → RowOK row) (task : Task) :
    task ∈ check_pending_vouchers t ↔
      ∃ v row, voucherRow t v = some row ∧ row.state = "pending" ∧ task = .redeem v none := by
  have hall : ∀ x ∈ t.app.vouchers, ∃ y, Voucher.from_row sameText x = .ok y := by
    intro x hx
    obtain ⟨o, ho, _⟩ := from_row_ok (hrows _ _ (voucherRow_of_mem hwf hx))
    exact ⟨o, ho⟩
  obtain ⟨ys, hys, hm, hm'⟩ := mapM_ok hall
  unfold check_pending_vouchers
  simp only [transact, store_list, Prog.run, hys]
  constructor
  · intro h
    obtain ⟨o, ho, rfl⟩ := List.mem_map.mp h
    obtain ⟨ho, hs⟩ := List.mem_filter.mp ho
    obtain ⟨x, hx, e⟩ := hm' o ho
    have hrow := voucherRow_of_mem hwf hx
    obtain ⟨o', ho', hn, hp⟩ := from_row_ok (hrows _ _ hrow)
    rw [e] at ho'
    simp only [Except.ok.injEq] at ho'
    subst ho'
    exact ⟨x.number, x, hrow, hp.mp hs, by rw [hn]⟩
  · rintro ⟨v, row, hrow, hp, rfl⟩
    obtain ⟨o, ho, hn, hs⟩ := from_row_ok (hrows _ _ hrow)
    rw [← voucherRow_number hrow, ← hn]
    exact List.mem_map_of_mem (f := fun o : Voucher String => Task.redeem o.number none)
      (List.mem_filter.mpr ⟨hm row (voucherRow_mem hrow) o ho, hs.mpr hp⟩)

/-- What remains to be done for a voucher that a restarted process will redeem. -/
structure WillResume (v : String) (row : VoucherRow) (c : Controller) : Prop where
  known : voucherRow c.store v = some row
  error : c.error = []
  unpaid : c.unpaid = []
  active : v ∉ c.active.keys
  retries : ∀ w, .retry w ∉ c.todo
  answers : ∀ f a, .answered f a ∉ c.todo
  todo : (.redeem v none ∈ c.todo ∧ ∀ task ∈ c.todo, ∀ f, taskFrame task = some f → f.voucher ≠ v) ∨
    (∃ rest, c.todo = .iterate ⟨v, row.expected_tokens, row.counter⟩ :: rest) ∨
    (∃ ts rest, c.todo = .perform ⟨v, row.expected_tokens, row.counter⟩ ts :: rest)

/-- A request for the voucher's first unredeemed group has been sent. -/
def Resumed (v : String) (row : VoucherRow) (ts₀ : List String) (l₀ log : List Happening) : Prop :=
  ∃ l ts, log = l₀ ++ l ∧ .sent v row.counter ts ∈ l ∧ ts.Perm ts₀

theorem resumes_step {cfg : RedeemCfg} {v : String} {row : VoucherRow} (hp : row.state = "pending")
    {c : Controller} (hr : RInv cfg c) (h : WillResume v row c)
    (hts : select_random_tokens v row.counter c.store ≠ []) (env : Env) {l₀ : List Happening}
    (hl : ∃ l, c.log = l₀ ++ l) :
    (WillResume v row (c.step cfg (.work env)) ∧
      select_random_tokens v row.counter (c.step cfg (.work env)).store =
        select_random_tokens v row.counter c.store) ∨
    Resumed v row (select_random_tokens v row.counter c.store) l₀ (c.step cfg (.work env)).log := by
  simp only [Controller.step]
  cases ht : c.todo with
  | nil =>
    exfalso
    rcases h.todo with ⟨hm, _⟩ | ⟨rest, e⟩ | ⟨ts, rest, e⟩ <;> simp [ht] at *
  | cons task todo =>
    dsimp only
    have hcalls : ∀ x ∈ todo, x.isCall = true := by
      have := hr.calls; rw [ht] at this; simpa using this
    have hret : ∀ w, .retry w ∉ todo := fun w hm => h.retries w (by rw [ht]; exact List.mem_cons_of_mem _ hm)
    have hans : ∀ f a, .answered f a ∉ todo := fun f a hm =>
      h.answers f a (by rw [ht]; exact List.mem_cons_of_mem _ hm)
    have hnoframe : ∀ task ∈ todo, ∀ f, taskFrame task = some f → f.voucher ≠ v := by
      intro x hx f hf
      have := hcalls x hx
      cases x <;> simp_all [Task.isCall, taskFrame]
    have hcall : ∀ x, x.isCall = true → x ≠ .redeem v none → x = task → .redeem v none ∈ todo := by
      intro x hx hne e
      subst e
      rcases h.todo with ⟨hm, _⟩ | ⟨rest, e⟩ | ⟨ts, rest, e⟩
      · rw [ht] at hm
        rcases List.mem_cons.mp hm with e | hm
        · exact absurd e.symm hne
        · exact hm
      · rw [ht] at e; simp only [List.cons.injEq] at e; rw [e.1] at hx; simp [Task.isCall] at hx
      · rw [ht] at e; simp only [List.cons.injEq] at e; rw [e.1] at hx; simp [Task.isCall] at hx
    have hdrop : .redeem v none ∈ todo → WillResume v row { c with todo := todo } := fun hm =>
      { h with retries := hret, answers := hans, todo := .inl ⟨hm, hnoframe⟩ }
    cases task with
    | retry w => exact absurd (by rw [ht]; exact List.mem_cons_self) (h.retries w)
    | answered f a => exact absurd (by rw [ht]; exact List.mem_cons_self) (h.answers f a)
    | redeem w n =>
      simp only [Task.run]
      by_cases hw : w = v
      · by_cases hn : n = none
        · subst hw hn
          left
          have hs : redeem_start cfg w none { c with todo := todo } =
              .ok (some ⟨w, row.expected_tokens, row.counter⟩) := by
            have hnum := voucherRow_number h.known
            have hlk : c.active.lookup w = none := by
              rw [← Option.not_isSome_iff_eq_none]
              intro hsome
              exact h.active ((lookup_isSome _ _).mp hsome)
            simp only [redeem_start, get_voucher, get_object_eq, h.known, from_row_pending hp,
              incorporate_transient_state, hnum, hlk, h.unpaid, h.error, List.lookup_nil,
              VoucherState.should_start_redemption, VoucherState.start_at_counter, if_true]
          rw [hs]
          refine ⟨?_, rfl⟩
          exact { h with
            retries := fun x hx => by
              rcases List.mem_cons.mp hx with e | hx
              · simp at e
              · exact hret x hx
            answers := fun f a hx => by
              rcases List.mem_cons.mp hx with e | hx
              · simp at e
              · exact hans f a hx
            todo := .inr (.inl ⟨_, rfl⟩) }
        · -- a call with a number of tokens; not made at startup
          left
          have hm := hcall (.redeem w n) rfl (by simp [hn]) rfl
          subst hw
          have hs : redeem_start cfg w n { c with todo := todo } =
              .ok (some ⟨w, row.expected_tokens, row.counter⟩) := by
            have hnum := voucherRow_number h.known
            have hlk : c.active.lookup w = none := by
              rw [← Option.not_isSome_iff_eq_none]
              intro hsome
              exact h.active ((lookup_isSome _ _).mp hsome)
            simp only [redeem_start, get_voucher, get_object_eq, h.known, from_row_pending hp,
              incorporate_transient_state, hnum, hlk, h.unpaid, h.error, List.lookup_nil,
              VoucherState.should_start_redemption, VoucherState.start_at_counter, if_true]
          rw [hs]
          refine ⟨?_, rfl⟩
          exact { h with
            retries := fun x hx => by
              rcases List.mem_cons.mp hx with e | hx
              · simp at e
              · exact hret x hx
            answers := fun f a hx => by
              rcases List.mem_cons.mp hx with e | hx
              · simp at e
              · exact hans f a hx
            todo := .inr (.inl ⟨_, rfl⟩) }
      · left
        have hm := hcall (.redeem w n) rfl (by simp [hw]) rfl
        cases hs : redeem_start cfg w n { c with todo := todo } with
        | error e => exact ⟨hdrop hm, rfl⟩
        | ok o =>
          cases o with
          | none => exact ⟨hdrop hm, rfl⟩
          | some f =>
            have hfv := (redeem_start_some hs).1
            refine ⟨{ h with
              retries := fun x hx => by
                rcases List.mem_cons.mp hx with e | hx
                · simp at e
                · exact hret x hx
              answers := fun f a hx => by
                rcases List.mem_cons.mp hx with e | hx
                · simp at e
                · exact hans f a hx
              todo := .inl ⟨List.mem_cons_of_mem _ hm, ?_⟩ }, rfl⟩
            intro x hx g hg
            rcases List.mem_cons.mp hx with rfl | hx
            · simp only [taskFrame, Option.some.injEq] at hg
              rw [← hg, hfv]; exact hw
            · exact hnoframe x hx g hg
    | iterate f =>
      left
      simp only [Task.run]
      by_cases hf : f.voucher = v
      · -- our voucher
        have hff : f = ⟨v, row.expected_tokens, row.counter⟩ := by
          rcases h.todo with ⟨_, hno⟩ | ⟨rest, e⟩ | ⟨ts, rest, e⟩
          · exact absurd hf (hno (.iterate f) (by rw [ht]; exact List.mem_cons_self) f rfl)
          · rw [ht] at e; simp only [List.cons.injEq, Task.iterate.injEq] at e; exact e.1
          · rw [ht] at e; simp at e
        subst hff
        obtain ⟨row', hrow', hsize⟩ := hr.sizes v row.counter hts
        rw [h.known, Option.some.injEq] at hrow'
        subst hrow'
        have hlt : row.counter < cfg.num_redemption_groups := by
          rw [token_count_eq] at hsize
          split at hsize
          · rename_i hh; exact hh.2
          · simp at hsize
        rw [if_pos hlt]
        unfold get_random_tokens
        dsimp only
        rw [hsize]
        dsimp only
        rcases add_effect env.order env.now v row.expected_tokens row.counter
            (env.random v row.counter (select_random_tokens v row.counter c.store).length) c.store with
          ⟨err, he⟩ | ⟨ts, he, hp', hne⟩ | ⟨ts, hget, he, hnil⟩
        · exfalso
          rw [add_eq, if_pos hts] at he
          simp at he
        · simp only [Int.toNat_natCast]
          rw [he]
          refine ⟨{ h with
            retries := fun x hx => by
              rcases List.mem_cons.mp hx with e | hx
              · simp at e
              · exact hret x hx
            answers := fun f a hx => by
              rcases List.mem_cons.mp hx with e | hx
              · simp at e
              · exact hans f a hx
            todo := .inr (.inr ⟨_, _, rfl⟩) }, rfl⟩
        · exact absurd hnil hts
      · have hm : .redeem v none ∈ todo := by
          rcases h.todo with ⟨hm, _⟩ | ⟨rest, e⟩ | ⟨ts, rest, e⟩
          · rw [ht] at hm
            rcases List.mem_cons.mp hm with e | hm
            · simp at e
            · exact hm
          · rw [ht] at e; simp only [List.cons.injEq, Task.iterate.injEq] at e
            rw [e.1] at hf; exact absurd rfl hf
          · rw [ht] at e; simp at e
        split
        rotate_left
        · exact ⟨hdrop hm, rfl⟩
        unfold get_random_tokens
        cases hg : token_count_for_group cfg.num_redemption_groups f.total f.counter with
        | error e => exact ⟨hdrop hm, rfl⟩
        | ok n =>
          dsimp only
          have hperf : ∀ (t : Tables) ts, voucherRow t v = some row →
              WillResume v row { c with store := t, todo := .perform f ts :: todo } := by
            intro t ts hrow
            refine { h with
              known := hrow
              retries := fun x hx => by
                rcases List.mem_cons.mp hx with e | hx
                · simp at e
                · exact hret x hx
              answers := fun f a hx => by
                rcases List.mem_cons.mp hx with e | hx
                · simp at e
                · exact hans f a hx
              todo := .inl ⟨List.mem_cons_of_mem _ hm, ?_⟩ }
            intro x hx g hg
            rcases List.mem_cons.mp hx with rfl | hx
            · simp only [taskFrame, Option.some.injEq] at hg
              rw [← hg]; exact hf
            · exact hnoframe x hx g hg
          rcases add_effect env.order env.now f.voucher f.total f.counter
              (env.random f.voucher f.counter n.toNat) c.store with
            ⟨err, he⟩ | ⟨ts, he, hp', hne⟩ | ⟨ts, hget, he, hnil⟩
          · rw [he]; exact ⟨hdrop hm, rfl⟩
          · rw [he]; exact ⟨hperf _ _ h.known, rfl⟩
          · rw [he]
            refine ⟨hperf _ _ ?_, ?_⟩
            · rw [voucherRow_added, if_neg (Ne.symm hf)]; exact h.known
            · dsimp only
              rw [select_added, if_neg (fun e => hf e.1.symm), List.append_nil]
    | perform f ts =>
      simp only [Task.run, contact_issuer, get_object_eq]
      by_cases hf : f.voucher = v
      · right
        have hff : f = ⟨v, row.expected_tokens, row.counter⟩ := by
          rcases h.todo with ⟨_, hno⟩ | ⟨rest, e⟩ | ⟨ts, rest, e⟩
          · exact absurd hf (hno (.perform f ts) (by rw [ht]; exact List.mem_cons_self) f rfl)
          · rw [ht] at e; simp at e
          · rw [ht] at e; simp only [List.cons.injEq, Task.perform.injEq] at e; exact e.1.1
        subst hff
        dsimp only
        rw [h.known]
        dsimp only
        rw [from_row_pending hp]
        dsimp only
        obtain ⟨l, hl⟩ := hl
        exact ⟨l ++ [.sent v row.counter ts], ts, by rw [hl]; simp, by simp, (hr.perform _ ts todo ht).2.2.2.1⟩
      · left
        have hm : .redeem v none ∈ todo := by
          rcases h.todo with ⟨hm, _⟩ | ⟨rest, e⟩ | ⟨ts, rest, e⟩
          · rw [ht] at hm
            rcases List.mem_cons.mp hm with e | hm
            · simp at e
            · exact hm
          · rw [ht] at e; simp at e
          · rw [ht] at e; simp only [List.cons.injEq, Task.perform.injEq] at e
            rw [e.1.1] at hf; exact absurd rfl hf
        split
        · exact ⟨hdrop hm, rfl⟩
        · split
          · refine ⟨{ hdrop hm with active := ?_ }, rfl⟩
            intro hk
            rcases (Dict.mem_keys_set _ _ _ _).mp hk with hk | hk
            · exact h.active hk
            · exact hf hk.symm
          · exact ⟨hdrop hm, rfl⟩

theorem resumes_run {cfg : RedeemCfg} {v : String} {row : VoucherRow} (hp : row.state = "pending")
    (envs : List Env) {c : Controller} (hr : RInv cfg c) {l₀ : List Happening}
    (hl : ∃ l, c.log = l₀ ++ l) {ts₀ : List String} (hne : ts₀ ≠ [])
    (h : (WillResume v row c ∧ select_random_tokens v row.counter c.store = ts₀) ∨
      Resumed v row ts₀ l₀ c.log) :
    let c' := c.run cfg (envs.map .work)
    (WillResume v row c' ∧ select_random_tokens v row.counter c'.store = ts₀) ∨
      Resumed v row ts₀ l₀ c'.log := by
  induction envs generalizing c with
  | nil => exact h
  | cons env envs ih =>
    obtain ⟨m, hm⟩ := step_log cfg c (.work env)
    refine ih (rinv_step hr _) ?_ ?_
    · obtain ⟨l, hl⟩ := hl
      exact ⟨l ++ m, by rw [hm, hl, List.append_assoc]⟩
    · rcases h with ⟨h, hts⟩ | ⟨l, ts, h1, h2, h3⟩
      · rcases resumes_step hp hr h (by rw [hts]; exact hne) env hl with ⟨h', hs⟩ | h'
        · exact .inl ⟨h', hs.trans hts⟩
        · rw [hts] at h'; exact .inr h'
      · exact .inr ⟨l ++ m, ts, by rw [hm, h1, List.append_assoc], List.mem_append_left _ h2, h3⟩

/-- A restarted process sends a request for the first unredeemed group of every pending voucher
that has tokens stored for it. -/
theorem restart_resumes {cfg : RedeemCfg} {c : Controller} (hr : RInv cfg c) {v : String}
    {row : VoucherRow} (hrow : voucherRow c.store v = some row) (hp : row.state = "pending")
    (hts : select_random_tokens v row.counter c.store ≠ []) (envs : List Env)
    (hdone : ((c.step cfg .crash).run cfg (envs.map .work)).todo = []) :
    Resumed v row (select_random_tokens v row.counter c.store) (c.log ++ [.restarted])
      ((c.step cfg .crash).run cfg (envs.map .work)).log := by
  have hr' := rinv_step hr .crash
  have hmem := check_pending_mem hr'.wf hr'.rows
  have hw : WillResume v row (c.step cfg .crash) := {
    known := hrow
    error := rfl
    unpaid := rfl
    active := by simp [Controller.step, Dict.keys]
    retries := fun w hw => by
      obtain ⟨_, _, _, _, e⟩ := (hmem _).mp hw
      simp at e
    answers := fun f a hw => by
      obtain ⟨_, _, _, _, e⟩ := (hmem _).mp hw
      simp at e
    todo := .inl ⟨(hmem _).mpr ⟨v, row, hrow, hp, rfl⟩, fun task ht f hf => by
      obtain ⟨_, _, _, _, rfl⟩ := (hmem _).mp ht
      simp [taskFrame] at hf⟩ }
  rcases resumes_run hp envs hr' (l₀ := c.log ++ [.restarted]) ⟨[], by simp [Controller.step]⟩ hts
      (.inl ⟨hw, rfl⟩) with ⟨h, _⟩ | h
  · exfalso
    rcases h.todo with ⟨hm, _⟩ | ⟨rest, e⟩ | ⟨ts, rest, e⟩ <;> simp [hdone] at *
  · exact h

end ZKAP
