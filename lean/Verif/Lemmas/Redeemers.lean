import Verif.Spec.Redeemers
import Verif.Lemmas.Finish
import Verif.Lemmas.Decimal
import Verif.Lemmas.Base64
import Verif.Spec.Spending

/-! Facts about the redeemers for tests. -/
namespace ZKAP
open Spec

/-! ### The tokens they make up -/

theorem digit_bounds {d : Nat} (h : d < 10) :
    '0' ≤ digit d ∧ digit d ≤ '9' ∧ (digit d).toNat - '0'.toNat = d := by
  have : d = 0 ∨ d = 1 ∨ d = 2 ∨ d = 3 ∨ d = 4 ∨ d = 5 ∨ d = 6 ∨ d = 7 ∨ d = 8 ∨ d = 9 := by omega
  rcases this with rfl | rfl | rfl | rfl | rfl | rfl | rfl | rfl | rfl | rfl <;> decide

theorem decimal_digits (n : Nat) : ∀ c ∈ decimal n, '0' ≤ c ∧ c ≤ '9' := by
  fun_induction decimal n with
  | case1 n h =>
    intro c hc
    rw [List.mem_singleton] at hc
    subst hc
    exact ⟨(digit_bounds h).1, (digit_bounds h).2.1⟩
  | case2 n h ih =>
    intro c hc
    rcases List.mem_append.mp hc with hc | hc
    · exact ih c hc
    · rw [List.mem_singleton] at hc
      subst hc
      have := digit_bounds (Nat.mod_lt n (by omega : 10 > 0))
      exact ⟨this.1, this.2.1⟩

theorem decimal_value (n : Nat) : Nat.ofDigitChars 10 (decimal n) 0 = n := by
  fun_induction decimal n with
  | case1 n h =>
    rw [Nat.ofDigitChars_cons, Nat.ofDigitChars_nil, (digit_bounds h).2.2]
    omega
  | case2 n h ih =>
    rw [Nat.ofDigitChars_append, ih, Nat.ofDigitChars_cons, Nat.ofDigitChars_nil,
      (digit_bounds (Nat.mod_lt n (by omega : 10 > 0))).2.2]
    omega

theorem decimal_length {n k : Nat} (hk : 0 < k) (h : n < 10 ^ k) : (decimal n).length ≤ k := by
  fun_induction decimal n generalizing k with
  | case1 n h => exact hk
  | case2 n hn ih =>
    obtain ⟨j, rfl⟩ : ∃ j, k = j + 1 := ⟨k - 1, by omega⟩
    rw [Nat.pow_succ] at h
    have h2 : n / 10 < 10 ^ j := Nat.div_lt_of_lt_mul (by omega)
    have hj : 0 < j := by
      rcases Nat.eq_zero_or_pos j with rfl | hj
      · simp at h2; omega
      · exact hj
    have := ih hj h2
    simp only [List.length_append, List.length_singleton]
    omega

theorem zero_padded_length {w n : Nat} (hw : 0 < w) (h : n < 10 ^ w) :
    (zero_padded w n).length = w := by
  have := decimal_length hw h
  simp only [zero_padded, List.length_append, List.length_replicate]
  omega

theorem zero_padded_digits (w n : Nat) : ∀ c ∈ zero_padded w n, '0' ≤ c ∧ c ≤ '9' := by
  intro c hc
  rcases List.mem_append.mp hc with hc | hc
  · rw [List.eq_of_mem_replicate hc]; decide
  · exact decimal_digits n c hc

theorem zero_padded_value (w n : Nat) : Nat.ofDigitChars 10 (zero_padded w n) 0 = n := by
  unfold zero_padded
  rw [Nat.ofDigitChars_append, Nat.ofDigitChars_replicate_zero, Nat.mul_zero, decimal_value]

theorem ascii_text_of (b : Bytes) : ZKAP.ascii (text_of b) = b := by
  unfold ZKAP.ascii text_of
  rw [String.toList_ofList, List.map_map]
  conv => rhs; rw [← List.map_id b]
  apply List.map_congr_left
  intro c _
  have hc : c.toNat < 256 := c.toNat_lt
  have : (Char.ofNat c.toNat).toNat = c.toNat := by
    unfold Char.ofNat
    rw [dif_pos (show c.toNat.isValidChar from .inl (by omega))]
    rfl
  simp only [Function.comp, id, this]
  exact UInt8.ofNat_toNat

/-- The digits in the tokens made up. -/
def madeUpDigits (counter n : Nat) : List Char := zero_padded 4 counter ++ zero_padded 60 n

theorem base64_bytes_ok {len : Nat} {b : Bytes} (h : base64_bytes len b = .ok ()) : b.length = len := by
  unfold base64_bytes at h
  split at h
  · cases h
  · rename_i hh; exact Decidable.not_not.mp hh

theorem base64_bytes_of {len : Nat} {b : Bytes} (h : b.length = len) : base64_bytes len b = .ok () := by
  unfold base64_bytes; rw [if_neg (by simp [h])]

theorem madeUpDigits_length {counter n : Nat} (hc : counter < 10 ^ 4) (hn : n < 10 ^ 60) :
    (madeUpDigits counter n).length = 64 := by
  unfold madeUpDigits
  rw [List.length_append, zero_padded_length (by omega) hc, zero_padded_length (by omega) hn]

theorem dummy_padding_eq (counter n : Nat) :
    dummy_padding counter n = (madeUpDigits counter n).map (fun c => UInt8.ofNat c.toNat) := rfl

theorem dummy_random_token_ok {v : Bytes} {counter n : Nat} {x : String}
    (h : dummy_random_token v counter n = .ok x) :
    x = text_of (b64encode (v ++ dummy_padding counter n)) ∧
      (b64encode (v ++ dummy_padding counter n)).length = 128 := by
  unfold dummy_random_token at h
  dsimp only at h
  split at h
  · cases h
  · rename_i hh
    exact ⟨(Except.ok.inj h).symm, base64_bytes_ok hh⟩

theorem dummy_random_token_of {v : Bytes} {counter n : Nat} (hc : counter < 10 ^ 4) (hn : n < 10 ^ 60)
    (hv : 30 ≤ v.length ∧ v.length ≤ 32) :
    dummy_random_token v counter n = .ok (text_of (b64encode (v ++ dummy_padding counter n))) := by
  unfold dummy_random_token
  have hl : (b64encode (v ++ dummy_padding counter n)).length = 128 := by
    rw [b64encode_length, List.length_append, dummy_padding_eq, List.length_map,
      madeUpDigits_length hc hn]
    omega
  dsimp only
  rw [base64_bytes_of hl]

/-- Vouchers of more than 32 bytes have no tokens. -/
theorem dummy_random_token_long {v : Bytes} {counter n : Nat} (hv : 32 < v.length) :
    dummy_random_token v counter n = .error .valueError := by
  unfold dummy_random_token base64_bytes
  dsimp only
  rw [if_pos]
  intro hl
  rw [b64encode_length, List.length_append, dummy_padding_eq, List.length_map] at hl
  have h4 : 4 ≤ (zero_padded 4 counter).length := by
    simp only [zero_padded, List.length_append, List.length_replicate]; omega
  have h60 : 60 ≤ (zero_padded 60 n).length := by
    simp only [zero_padded, List.length_append, List.length_replicate]; omega
  have : 64 ≤ (madeUpDigits counter n).length := by
    simp only [madeUpDigits, List.length_append]; omega
  omega

theorem first_results_length {α} {f : Nat → Except PyErr α} {n : Nat} {xs : List α}
    (h : first_results f n = .ok xs) : xs.length = n := by
  induction n generalizing xs with
  | zero => simp only [first_results, Except.ok.injEq] at h; subst h; rfl
  | succ n ih =>
    simp only [first_results] at h
    split at h
    · cases h
    · rename_i ys hys
      split at h
      · cases h
      · rw [← Except.ok.inj h, List.length_append, ih hys]; rfl

theorem first_results_mem {α} {f : Nat → Except PyErr α} {n : Nat} {xs : List α}
    (h : first_results f n = .ok xs) : ∀ x ∈ xs, ∃ i < n, f i = .ok x := by
  induction n generalizing xs with
  | zero => simp only [first_results, Except.ok.injEq] at h; subst h; simp
  | succ n ih =>
    simp only [first_results] at h
    split at h
    · cases h
    · rename_i ys hys
      split at h
      · cases h
      · rename_i y hy
        rw [← Except.ok.inj h]
        intro x hx
        rcases List.mem_append.mp hx with hx | hx
        · obtain ⟨i, hi, e⟩ := ih hys x hx
          exact ⟨i, by omega, e⟩
        · rw [List.mem_singleton] at hx
          exact ⟨n, by omega, hx ▸ hy⟩

theorem first_results_of {α} {f : Nat → Except PyErr α} {g : Nat → α} {n : Nat}
    (h : ∀ i < n, f i = .ok (g i)) : first_results f n = .ok ((List.range n).map g) := by
  induction n with
  | zero => rfl
  | succ n ih =>
    simp only [first_results, ih (fun i hi => h i (by omega)), h n (by omega), List.range_succ,
      List.map_append, List.map_cons, List.map_nil]

theorem dummy_random_length {v c n ts} (h : dummy_random_tokens v c n = .ok ts) : ts.length = n := by
  unfold dummy_random_tokens at h
  split at h
  · cases h
  · exact first_results_length h

theorem each_result_mem {α β} {f : α → Except PyErr β} {xs : List α} {ys : List β}
    (h : each_result f xs = .ok ys) : ∀ y ∈ ys, ∃ x ∈ xs, f x = .ok y := by
  induction xs generalizing ys with
  | nil => simp only [each_result, Except.ok.injEq] at h; subst h; simp
  | cons x xs ih =>
    simp only [each_result] at h
    split at h
    · cases h
    · rename_i y0 hy0
      split at h
      · cases h
      · rename_i ys0 hys0
        rw [← Except.ok.inj h]
        intro y hy
        rcases List.mem_cons.mp hy with rfl | hy
        · exact ⟨x, List.mem_cons_self, hy0⟩
        · obtain ⟨z, hz, e⟩ := ih hys0 y hy
          exact ⟨z, List.mem_cons_of_mem _ hz, e⟩

theorem each_result_of {α β} {f : α → Except PyErr β} {xs : List α}
    (h : ∀ x ∈ xs, ∃ y, f x = .ok y) : ∃ ys, each_result f xs = .ok ys := by
  induction xs with
  | nil => exact ⟨[], rfl⟩
  | cons x xs ih =>
    obtain ⟨y, hy⟩ := h x List.mem_cons_self
    obtain ⟨ys, hys⟩ := ih (fun z hz => h z (List.mem_cons_of_mem _ hz))
    exact ⟨y :: ys, by simp only [each_result, hy, hys]⟩

theorem each_result_length {α β} {f : α → Except PyErr β} {xs : List α} {ys : List β}
    (h : each_result f xs = .ok ys) : ys.length = xs.length := by
  induction xs generalizing ys with
  | nil => simp only [each_result, Except.ok.injEq] at h; subst h; rfl
  | cons x xs ih =>
    simp only [each_result] at h
    split at h
    · cases h
    · split at h
      · cases h
      · rename_i ys0 hys0
        rw [← Except.ok.inj h, List.length_cons, List.length_cons, ih hys0]

/-- The unblinded token for a random token that was made up. -/
theorem unblinded_of_random {v : Bytes} {counter n : Nat} {x : String}
    (hc : counter < 10 ^ 4) (hn : n < 10 ^ 60) (h : dummy_random_token v counter n = .ok x) :
    v.length ≤ 32 ∧ ∃ y, dummy_unblinded_token x = .ok y ∧ MadeUp v counter n y := by
  obtain ⟨rfl, hlen⟩ := dummy_random_token_ok h
  have hl := madeUpDigits_length hc hn
  rw [b64encode_length, List.length_append, dummy_padding_eq, List.length_map, hl] at hlen
  refine ⟨by omega, text_of (b64encode (v ++ dummy_padding counter n ++
    List.replicate (32 - v.length) 120)), ?_, ?_⟩
  · unfold dummy_unblinded_token
    rw [ascii_text_of, b64_roundtrip]
    dsimp only
    have e : 96 - (v ++ dummy_padding counter n).length = 32 - v.length := by
      rw [List.length_append, dummy_padding_eq, List.length_map, hl]; omega
    rw [e, base64_bytes_of]
    rw [b64encode_length]
    simp only [List.length_append, dummy_padding_eq, List.length_map, hl, List.length_replicate]
    omega
  · refine ⟨madeUpDigits counter n, ⟨hl, ?_⟩, ?_, ?_, ?_⟩
    · intro c hc
      rcases List.mem_append.mp hc with hc | hc
      · exact zero_padded_digits _ _ c hc
      · exact zero_padded_digits _ _ c hc
    · rw [madeUpDigits, List.take_left' (zero_padded_length (by omega) hc), zero_padded_value]
    · rw [madeUpDigits, List.drop_left' (zero_padded_length (by omega) hc), zero_padded_value]
    · rw [ascii_text_of, dummy_padding_eq]

/-- Every random token that was made up has an unblinded token. -/
theorem unblinded_exists {v : String} {c n : Nat} {ts : List String} (h : dummy_random_tokens v c n = .ok ts)
    {x : String} (hx : x ∈ ts) : ∃ y, dummy_unblinded_token x = .ok y := by
  unfold dummy_random_tokens at h
  split at h
  · cases h
  · rename_i b hb
    obtain ⟨i, _, hi⟩ := first_results_mem h x hx
    obtain ⟨rfl, hlen⟩ := dummy_random_token_ok hi
    unfold dummy_unblinded_token
    rw [ascii_text_of, b64_roundtrip]
    dsimp only
    rw [b64encode_length] at hlen
    rw [base64_bytes_of]
    · exact ⟨_, rfl⟩
    · rw [b64encode_length, List.length_append, List.length_replicate]
      omega

/-- Only vouchers of at most 32 bytes have random tokens made up. -/
theorem dummy_random_short {v : String} {c n : Nat} {ts : List String} (hn : 0 < n)
    (h : dummy_random_tokens v c n = .ok ts) :
    ∃ b, urlsafe_b64decode (ZKAP.ascii v) = .ok b ∧ b.length ≤ 32 := by
  unfold dummy_random_tokens at h
  split at h
  · cases h
  · rename_i b hb
    refine ⟨b, hb, ?_⟩
    have hl := first_results_length h
    have : ∃ x, x ∈ ts := by
      cases ts with
      | nil => simp at hl; omega
      | cons x _ => exact ⟨x, List.mem_cons_self⟩
    obtain ⟨x, hx⟩ := this
    obtain ⟨i, _, hi⟩ := first_results_mem h x hx
    rcases Nat.lt_or_ge 32 b.length with hlt | hge
    · rw [dummy_random_token_long hlt] at hi; cases hi
    · exact hge

/-! ### What the answers of a redeemer can do to a controller -/

/-- The events of a history bring answers, random tokens and vouchers as described. -/
def Obeys (P : String → Nat → IssuerAnswer → Prop) (R : String → Nat → String → Prop)
    (V : String → Prop) (c : Controller) : RedeemEvent → Prop
  | .answer i a => ∀ s, c.waiting[i]? = some s →
      (∀ x ∈ s.tokens, R s.frame.voucher s.frame.counter x) → P s.frame.voucher s.frame.counter a
  | .work env => ∀ v d n ts, env.random v d n = .ok ts → (∀ x ∈ ts, R v d x) ∧ (0 < n → V v)
  | _ => True

/-- The controller shows only what such events can bring. -/
structure Brought (P : String → Nat → IssuerAnswer → Prop) (R : String → Nat → String → Prop)
    (V : String → Prop) (c : Controller) : Prop where
  answered : ∀ f a, .answered f a ∈ c.todo → P f.voucher f.counter a
  perform : ∀ f ts, .perform f ts ∈ c.todo → ∀ x ∈ ts, R f.voucher f.counter x
  waiting : ∀ s ∈ c.waiting, ∀ x ∈ s.tokens, R s.frame.voucher s.frame.counter x
  tokens : ∀ r ∈ c.store.app.tokens, R r.voucher r.counter r.text
  error : ∀ v p, (v, p) ∈ c.error → ∃ w d, P w d (.failed p.2)
  unpaid : ∀ v p, (v, p) ∈ c.unpaid → ∃ w d, P w d .unpaid
  rows : ∀ v row, voucherRow c.store v = some row → V v ∧
    (row.state = "double-spend" → ∃ d, P v d .alreadySpent) ∧
    (row.state = "redeemed" → ∃ d pk us, P v d (.success pk us))
  stored : ∀ x, Stored c.store x → ∃ v d pk us, P v d (.success pk us) ∧ x ∈ us

theorem mem_set_text {α} {d : Dict String α} {k : String} {a : α} {p : String × α}
    (h : p ∈ d.set k a) : p ∈ d ∨ p.2 = a := by
  induction d with
  | nil => exact .inr (by rw [List.mem_singleton.mp h])
  | cons q d ih =>
    simp only [Dict.set] at h
    split at h
    · rcases List.mem_cons.mp h with h | h
      · exact .inr (by rw [h])
      · exact .inl (List.mem_cons_of_mem _ h)
    · rcases List.mem_cons.mp h with h | h
      · exact .inl (by rw [h]; exact List.mem_cons_self)
      · rcases ih h with h | h
        · exact .inl (List.mem_cons_of_mem _ h)
        · exact .inr h

theorem stored_other {op : StoreOp} (h : notRedeeming op = true) {t : Tables} {x : String}
    (hx : Stored (op.step t).2 x) : Stored t x := by
  cases op <;> simp only [notRedeeming, Bool.false_eq_true] at h <;>
    simp only [StoreOp.step, StoreOp.prog, transact_map] at hx
  case getTokens o n =>
    rw [getTokens_eq] at hx
    dsimp only at hx
    repeat' split at hx
    all_goals exact hx
  case discard ts =>
    rw [discard_eq] at hx
    obtain ⟨r, hr, e⟩ := hx
    exact ⟨r, (List.mem_filter.mp hr).1, e⟩
  case invalidate reason ts =>
    rw [invalidate_eq] at hx
    split at hx
    · obtain ⟨r, hr, e⟩ := hx
      exact ⟨r, (List.mem_filter.mp hr).1, e⟩
    · exact hx
  case reset ts => rw [reset_eq] at hx; exact hx
  case maintStart now m =>
    rw [maintStart_eq] at hx
    cases hm : m.rowid <;> rw [hm] at hx <;> exact hx
  case maintObserve pv sizes m =>
    rw [maintObserve_eq] at hx
    cases hm : required_passesE pv sizes <;> rw [hm] at hx <;> exact hx
  case maintFinish now m => exact hx

theorem token_row_selected {v : String} {d : Nat} {t : Tables} {x : String}
    (h : x ∈ select_random_tokens v d t) : ∃ r ∈ t.app.tokens, r.voucher = v ∧ r.counter = d ∧ r.text = x := by
  unfold select_random_tokens at h
  obtain ⟨r, hr, rfl⟩ := List.mem_map.mp h
  obtain ⟨h1, h2⟩ := List.mem_filter.mp hr
  simp only [Bool.and_eq_true, beq_iff_eq] at h2
  exact ⟨r, h1, h2.1, h2.2, rfl⟩

theorem brought_init (P : String → Nat → IssuerAnswer → Prop) (R : String → Nat → String → Prop)
    (V : String → Prop) : Brought P R V {} := by
  constructor <;> simp [voucherRow, Stored]

theorem brought_step {P : String → Nat → IssuerAnswer → Prop} {R : String → Nat → String → Prop}
    {V : String → Prop} {cfg : RedeemCfg} {c : Controller} (h : Brought P R V c) (e : RedeemEvent)
    (he : Obeys P R V c e) : Brought P R V (c.step cfg e) := by
  cases e with
  | redeem v n =>
    simp only [Controller.step]
    split
    · exact { h with
        answered := by simp
        perform := by simp }
    · exact h
  | timer =>
    simp only [Controller.step]
    split
    · exact { h with
        answered := by simp [retry_redemption]
        perform := by simp [retry_redemption] }
    · exact h
  | answer i a =>
    simp only [Controller.step]
    split
    · exact h
    · rename_i s hs
      split
      · have hmem : s ∈ c.waiting := List.mem_of_getElem? hs
        exact { h with
          answered := by
            intro f b hb
            rcases List.mem_cons.mp hb with hb | hb
            · injection hb with h1 h2
              subst h1; subst h2
              exact he s hs (h.waiting s hmem)
            · exact h.answered f b hb
          perform := by
            intro f ts hb
            rcases List.mem_cons.mp hb with hb | hb
            · cases hb
            · exact h.perform f ts hb
          waiting := by
            intro s' hs'
            refine h.waiting s' ?_
            rcases List.mem_append.mp hs' with h' | h'
            · exact List.mem_of_mem_take h'
            · exact List.mem_of_mem_drop h' }
      · exact h
  | other op =>
    simp only [Controller.step]
    split
    · rename_i hop
      simp only [Bool.and_eq_true] at hop
      obtain ⟨h1, h2⟩ := other_effect op hop.2 c.store
      exact { h with
        tokens := by intro r hr; rw [h1] at hr; exact h.tokens r hr
        rows := by
          intro v row hrow
          unfold voucherRow at hrow
          rw [h2] at hrow
          exact h.rows v row hrow
        stored := fun x hx => h.stored x (stored_other hop.2 hx) }
    · exact h
  | crash =>
    exact {
      answered := by
        intro f a hm
        simp only [Controller.step, check_pending_vouchers] at hm
        split at hm
        · cases hm
        · split at hm
          · cases hm
          · obtain ⟨_, _, e⟩ := List.mem_map.mp hm; cases e
      perform := by
        intro f a hm
        simp only [Controller.step, check_pending_vouchers] at hm
        split at hm
        · cases hm
        · split at hm
          · cases hm
          · obtain ⟨_, _, e⟩ := List.mem_map.mp hm; cases e
      waiting := by intro s hs; cases hs
      tokens := h.tokens
      error := by intro v p hp; cases hp
      unpaid := by intro v p hp; cases hp
      rows := h.rows
      stored := h.stored }
  | work env =>
    simp only [Controller.step]
    cases et : c.todo with
    | nil => exact h
    | cons task todo =>
      have hsub : ∀ x ∈ todo, x ∈ c.todo := by intro x hx; rw [et]; exact List.mem_cons_of_mem _ hx
      have h0 : Brought P R V { c with todo := todo } := { h with
        answered := fun f a hm => h.answered f a (hsub _ hm)
        perform := fun f ts hm => h.perform f ts (hsub _ hm) }
      dsimp only
      cases task with
      | redeem v n =>
        simp only [Task.run]
        split
        · exact h0
        · exact h0
        · exact { h0 with
            answered := by intro f a hm; rcases List.mem_cons.mp hm with hm | hm
                           · cases hm
                           · exact h0.answered f a hm
            perform := by intro f a hm; rcases List.mem_cons.mp hm with hm | hm
                          · cases hm
                          · exact h0.perform f a hm }
      | retry v =>
        simp only [Task.run]
        split
        · exact h0
        · split
          · exact { h0 with
              answered := by simp
              perform := by simp }
          · split
            · exact { h0 with
                answered := by intro f a hm; rcases List.mem_cons.mp hm with hm | hm
                               · cases hm
                               · exact h0.answered f a hm
                perform := by intro f a hm; rcases List.mem_cons.mp hm with hm | hm
                              · cases hm
                              · exact h0.perform f a hm }
            · exact h0
      | iterate f =>
        simp only [Task.run]
        split
        rotate_left
        · exact h0
        unfold get_random_tokens
        cases hg : token_count_for_group cfg.num_redemption_groups f.total f.counter with
        | error e => exact h0
        | ok n =>
          dsimp only
          rcases add_effect env.order env.now f.voucher f.total f.counter
              (env.random f.voucher f.counter n.toNat) c.store with
            ⟨err, he'⟩ | ⟨ts', he', hp, hne'⟩ | ⟨ts', hget, he', hnil⟩
          · rw [he']; exact h0
          · rw [he']
            exact { h0 with
              answered := by intro f a hm; rcases List.mem_cons.mp hm with hm | hm
                             · cases hm
                             · exact h0.answered f a hm
              perform := by
                intro f' ts hm x hx
                rcases List.mem_cons.mp hm with hm | hm
                · injection hm with e1 e2
                  subst e1; subst e2
                  obtain ⟨r, hr, e1, e2, e3⟩ := token_row_selected (hp.mem_iff.mp hx)
                  rw [← e1, ← e2, ← e3]
                  exact h.tokens r hr
                · exact h0.perform f' ts hm x hx }
          · rw [he']
            obtain ⟨hR, hV⟩ := he f.voucher f.counter n.toNat ts' hget
            have hpos : 0 < n.toNat := by
              rw [token_count_eq] at hg
              split at hg
              · rename_i hh
                have hk : 1 ≤ f.total / cfg.num_redemption_groups :=
                  (Nat.le_div_iff_mul_le (by omega)).mpr (by omega)
                have := Except.ok.inj hg
                have hge : 1 ≤ groupSize cfg.num_redemption_groups f.total f.counter := by
                  unfold groupSize; omega
                omega
              · simp at hg
            exact { h0 with
              answered := by intro f a hm; rcases List.mem_cons.mp hm with hm | hm
                             · cases hm
                             · exact h0.answered f a hm
              perform := by
                intro f' ts hm x hx
                rcases List.mem_cons.mp hm with hm | hm
                · injection hm with e1 e2
                  subst e1; subst e2
                  exact hR x hx
                · exact h0.perform f' ts hm x hx
              tokens := by
                intro r hr
                rcases List.mem_append.mp hr with hr | hr
                · exact h.tokens r hr
                · obtain ⟨x, hx, rfl⟩ := List.mem_map.mp hr
                  exact hR x hx
              rows := by
                intro v row hrow
                dsimp only at hrow
                rw [voucherRow_added] at hrow
                split at hrow
                · rename_i hv
                  subst hv
                  cases hold : voucherRow c.store f.voucher with
                  | none =>
                    rw [hold] at hrow
                    rw [← Option.some.inj hrow]
                    exact ⟨hV hpos, by simp [newRow], by simp [newRow]⟩
                  | some r =>
                    rw [hold] at hrow
                    rw [← Option.some.inj hrow]
                    exact h.rows _ _ hold
                · exact h.rows _ _ hrow }
      | perform f ts' =>
        simp only [Task.run, contact_issuer]
        split
        · exact h0
        · split
          · exact { h0 with
              waiting := by
                intro s hs
                rcases List.mem_append.mp hs with hs | hs
                · exact h.waiting s hs
                · rw [List.mem_singleton] at hs
                  subst hs
                  exact h.perform f ts' (by rw [et]; exact List.mem_cons_self) }
          · exact h0
      | answered f a =>
        have ha : P f.voucher f.counter a := h.answered f a (by rw [et]; exact List.mem_cons_self)
        simp only [Task.run, resume]
        cases a with
        | success pk us =>
          dsimp only [redeem_success]
          rcases insert_effect env.now f.voucher pk us (f.counter + 1 == cfg.num_redemption_groups)
              (decide (pk ∈ cfg.allowed_public_keys)) c.store with ⟨err, he'⟩ | ⟨row', hrow', he'⟩
          · rw [he']
            exact { h0 with }
          · rw [he']
            exact {
              answered := by intro f a hm; rcases List.mem_cons.mp hm with hm | hm
                             · cases hm
                             · exact h0.answered f a hm
              perform := by intro f a hm; rcases List.mem_cons.mp hm with hm | hm
                            · cases hm
                            · exact h0.perform f a hm
              waiting := h.waiting
              tokens := fun r hr => h.tokens r (List.mem_filter.mp hr).1
              error := h.error
              unpaid := h.unpaid
              rows := by
                intro v row hrow
                dsimp only at hrow
                rw [voucherRow_inserted] at hrow
                split at hrow
                · rename_i hv
                  subst hv
                  rw [hrow'] at hrow
                  rw [← Option.some.inj hrow]
                  refine ⟨(h.rows _ _ hrow').1, ?_, fun _ => ⟨_, _, _, ha⟩⟩
                  dsimp only [redeemedRow]
                  split <;> (intro hh; exact absurd hh (by decide))
                · exact h.rows _ _ hrow
              stored := by
                rintro x ⟨r, hr, rfl⟩
                rcases List.mem_append.mp hr with hr | hr
                · exact h.stored _ ⟨r, hr, rfl⟩
                · obtain ⟨y, hy, rfl⟩ := List.mem_map.mp hr
                  exact ⟨_, _, _, _, ha, hy⟩ }
        | alreadySpent =>
          obtain ⟨h1, hv⟩ := doubleSpent_effect env.now f.voucher c.store
          dsimp only [redeem_failure]
          exact { h0 with
            tokens := by intro r hr; dsimp only at hr; rw [h1] at hr; exact h.tokens r hr
            rows := by
              intro v row hrow
              dsimp only at hrow
              rw [hv v] at hrow
              split at hrow
              · rename_i hvf
                subst hvf
                cases hold : voucherRow c.store f.voucher with
                | none => rw [hold] at hrow; cases hrow
                | some r =>
                  rw [hold] at hrow
                  have := Option.some.inj hrow
                  dsimp only at this
                  split at this
                  · rw [← this]
                    exact ⟨(h.rows _ _ hold).1, fun _ => ⟨_, ha⟩, by simp⟩
                  · rw [← this]; exact h.rows _ _ hold
              · exact h.rows _ _ hrow
            stored := by
              intro x hx
              refine h.stored x ?_
              dsimp only at hx
              rw [doubleSpent_eq] at hx
              split at hx <;> exact hx }
        | unpaid =>
          exact { h0 with
            unpaid := by
              intro v p hp
              rcases mem_set_text hp with hp | hp
              · exact h.unpaid v p hp
              · exact ⟨_, _, ha⟩ }
        | failed d =>
          exact { h0 with
            error := by
              intro v p hp
              rcases mem_set_text hp with hp | hp
              · exact h.error v p hp
              · dsimp only at hp; rw [hp]; exact ⟨_, _, ha⟩ }

/-- The answers of a redeemer for tests. -/
def testAnswer (r : Redeemer) (v : String) (d : Nat) (a : IssuerAnswer) : Prop :=
  match r with
  | .ristretto _ => True
  | .dummy pk => ∃ us, a = .success pk us ∧ ∀ u ∈ us, ∃ count ts t,
      dummy_random_tokens v d count = .ok ts ∧ t ∈ ts ∧ dummy_unblinded_token t = .ok u
  | .non => False
  | .error details => a = .failed details
  | .doubleSpend => a = .alreadySpent
  | .unpaid => a = .unpaid

/-- The random tokens of a redeemer for tests. -/
def testRandom (r : Redeemer) (v : String) (d : Nat) (x : String) : Prop :=
  match r with
  | .ristretto _ => True
  | _ => ∃ count ts, dummy_random_tokens v d count = .ok ts ∧ x ∈ ts

/-- The vouchers that a redeemer for tests can deal with. -/
def testVoucher (r : Redeemer) (v : String) : Prop :=
  match r with
  | .ristretto _ => True
  | _ => ∃ b, urlsafe_b64decode (ZKAP.ascii v) = .ok b ∧ b.length ≤ 32

theorem byRedeemer_obeys {r : Redeemer} {c : Controller} {e : RedeemEvent} (h : ByRedeemer r c e) :
    Obeys (testAnswer r) (testRandom r) (testVoucher r) c e := by
  cases e with
  | redeem _ _ => trivial
  | timer => trivial
  | other _ => trivial
  | crash => trivial
  | work env =>
    intro v d n ts hts
    rcases h with ⟨issuer, rfl⟩ | h
    · exact ⟨fun _ _ => trivial, fun _ => trivial⟩
    · rw [h] at hts
      cases r with
      | ristretto _ => exact ⟨fun _ _ => trivial, fun _ => trivial⟩
      | _ => exact ⟨fun x hx => ⟨n, ts, hts, hx⟩, fun hn => dummy_random_short hn hts⟩
  | answer i a =>
    intro s hs hR
    obtain ⟨ask, ha⟩ := h s hs
    cases r with
    | ristretto _ => trivial
    | non => cases ha
    | error _ => exact (Option.some.inj ha).symm
    | doubleSpend => exact (Option.some.inj ha).symm
    | unpaid => exact (Option.some.inj ha).symm
    | dummy pk =>
      simp only [Redeemer.redeemWithCounter] at ha
      obtain ⟨ys, hys⟩ := each_result_of (f := dummy_unblinded_token) (xs := s.tokens) (by
        intro x hx
        obtain ⟨count, ts, hts, hm⟩ := hR x hx
        exact unblinded_exists hts hm)
      rw [hys] at ha
      refine ⟨ys, (Option.some.inj ha).symm, ?_⟩
      intro u hu
      obtain ⟨x, hx, e⟩ := each_result_mem hys u hu
      obtain ⟨count, ts, hts, hm⟩ := hR x hx
      exact ⟨count, ts, x, hts, hm, e⟩

theorem brought_run {r : Redeemer} {cfg : RedeemCfg} (events : List RedeemEvent) {c : Controller}
    (h : Brought (testAnswer r) (testRandom r) (testVoucher r) c) (hw : WithRedeemer r cfg c events) :
    Brought (testAnswer r) (testRandom r) (testVoucher r) (c.run cfg events) := by
  induction events generalizing c with
  | nil => exact h
  | cons e es ih => exact ih (brought_step h e (byRedeemer_obeys hw.1)) hw.2

theorem lookup_mem_text {α} {d : Dict String α} {k : String} {a : α} (h : d.lookup k = some a) :
    (k, a) ∈ d := by
  induction d with
  | nil => cases h
  | cons q d ih =>
    obtain ⟨k', v'⟩ := q
    rw [List.lookup_cons] at h
    split at h
    · rename_i hk
      rw [beq_iff_eq] at hk
      rw [← Option.some.inj h, hk]
      exact List.mem_cons_self
    · exact List.mem_cons_of_mem _ (ih h)

/-- What is shown has been brought. -/
theorem brought_shown {r : Redeemer} {c : Controller}
    (h : Brought (testAnswer r) (testRandom r) (testVoucher r) c) {v : String} {obj : Voucher String}
    (hv : get_voucher c v = .ok obj) : CanShow r obj.state := by
  unfold get_voucher at hv
  rw [get_object_eq] at hv
  cases hrow : voucherRow c.store v with
  | none => rw [hrow] at hv; cases hv
  | some row =>
    rw [hrow] at hv
    dsimp only at hv
    have hr := h.rows v row hrow
    by_cases hp : row.state = "pending"
    · rw [from_row_pending hp] at hv
      rw [← Except.ok.inj hv]
      unfold incorporate_transient_state
      dsimp only
      split
      · cases r <;> trivial
      · split
        · rename_i hu
          obtain ⟨w, d, hP⟩ := h.unpaid _ _ (lookup_mem_text hu)
          cases r with
          | ristretto _ => trivial
          | non => exact hP
          | error _ => cases hP
          | doubleSpend => cases hP
          | unpaid => trivial
          | dummy _ => obtain ⟨_, e, _⟩ := hP; cases e
        · split
          · rename_i he
            obtain ⟨w, d, hP⟩ := h.error _ _ (lookup_mem_text he)
            cases r with
            | ristretto _ => trivial
            | non => exact hP
            | error _ => exact IssuerAnswer.failed.inj hP
            | doubleSpend => cases hP
            | unpaid => cases hP
            | dummy _ => obtain ⟨_, e, _⟩ := hP; cases e
          · cases r <;> trivial
    · have key : (∃ d, row.state = "double-spend" ∧ Voucher.from_row sameText row =
          .ok ⟨row.number, row.expected_tokens, some row.created, .doubleSpend d⟩) ∨
          (∃ d n, row.state = "redeemed" ∧ Voucher.from_row sameText row =
          .ok ⟨row.number, row.expected_tokens, some row.created, .redeemed d n⟩) ∨
          ∃ e, Voucher.from_row sameText row = .error e := by
        simp only [Voucher.from_row, sameText, state_from_row, beq_iff_eq, hp, if_false]
        by_cases h1 : row.state = "double-spend"
        · simp only [h1, if_true]
          cases row.finished <;> simp
        · simp only [h1, if_false]
          by_cases h2 : row.state = "redeemed"
          · simp only [h2, if_true]
            cases row.token_count <;> cases row.finished <;> simp
          · simp [h2]
      rcases key with ⟨d, hs, e⟩ | ⟨d, n, hs, e⟩ | ⟨e', e⟩
      · rw [e] at hv
        rw [← Except.ok.inj hv]
        obtain ⟨_, hP⟩ := hr.2.1 hs
        cases r with
        | ristretto _ => trivial
        | non => exact hP
        | error _ => cases hP
        | doubleSpend => trivial
        | unpaid => cases hP
        | dummy _ => obtain ⟨_, e, _⟩ := hP; cases e
      · rw [e] at hv
        rw [← Except.ok.inj hv]
        obtain ⟨_, _, _, hP⟩ := hr.2.2 hs
        cases r with
        | ristretto _ => trivial
        | non => exact hP
        | error _ => cases hP
        | doubleSpend => cases hP
        | unpaid => cases hP
        | dummy _ => trivial
      · rw [e] at hv; cases hv

end ZKAP
