import Verif.Spec.VoucherWeb
import Verif.Lemmas.ControllerInv

namespace ZKAP
open Spec

/-! ### UTF-8 -/

theorem utf8_ascii (s : Bytes) (h : ∀ b ∈ s, b.toNat < 128) : utf8_decode s = some (s.map UInt8.toNat) := by
  induction s with
  | nil => rfl
  | cons a rest ih =>
    unfold utf8_decode
    rw [if_pos (h a List.mem_cons_self), ih (fun b hb => h b (List.mem_cons_of_mem _ hb))]
    rfl

theorem option_map_some {α β} {f : α → β} {o : Option α} {y : β} (h : o.map f = some y) :
    ∃ x, o = some x ∧ f x = y := by
  cases o with
  | none => exact nomatch h
  | some x => exact ⟨x, rfl, Option.some.inj h⟩

/-- If the code points are all ASCII, they are the bytes. -/
theorem utf8_only_ascii (s : Bytes) : ∀ cs, utf8_decode s = some cs → (∀ c ∈ cs, c < 128) →
    cs = s.map UInt8.toNat := by
  fun_induction utf8_decode s with
  | case1 => intro cs h _; cases h; rfl
  | case2 a rest ha ih =>
    intro cs h hc
    obtain ⟨cs', h', rfl⟩ := option_map_some h
    rw [ih cs' h' (fun c hc' => hc c (List.mem_cons_of_mem _ hc'))]
    rfl
  | case3 => intro cs h; exact nomatch h
  | case4 a b rest ha hr hb ih =>
    intro cs h hc
    obtain ⟨cs', h', rfl⟩ := option_map_some h
    have := hc _ List.mem_cons_self
    rw [Bool.and_eq_true] at hr
    have h1 := of_decide_eq_true hr.1
    omega
  | case5 => intro cs h; exact nomatch h
  | case6 => intro cs h; exact nomatch h
  | case7 a b c rest ha hr hr2 hb ih =>
    intro cs h hc
    obtain ⟨cs', h', rfl⟩ := option_map_some h
    have := hc _ List.mem_cons_self
    simp only [Bool.and_eq_true, Bool.or_eq_true, bne_iff_ne, decide_eq_true_eq, utf8_cont] at hr hr2 hb
    omega
  | case8 => intro cs h; exact nomatch h
  | case9 => intro cs h; exact nomatch h
  | case10 a b c d rest ha hr hr2 hb ih =>
    intro cs h hc
    obtain ⟨cs', h', rfl⟩ := option_map_some h
    have := hc _ List.mem_cons_self
    simp only [Bool.and_eq_true, Bool.or_eq_true, bne_iff_ne, decide_eq_true_eq, utf8_cont] at hr hr2 hb
    omega
  | case11 => intro cs h; exact nomatch h

/-! ### Acceptance -/

theorem syntactic_iff (v : String) : is_syntactic_voucher (points_of v) = true ↔ Acceptable v := by
  unfold is_syntactic_voucher points_of Acceptable
  rw [List.length_map, List.map_map]
  by_cases h1 : v.toList.length = 44
  · rw [if_neg (by omega)]
    by_cases h2 : ∀ c ∈ v.toList, c.toNat < 128
    · rw [if_neg (by
        rw [Bool.not_eq_true, List.any_eq_false]
        intro x hx
        obtain ⟨c, hc, rfl⟩ := List.mem_map.mp hx
        have := h2 c hc
        simp only [ge_iff_le, decide_eq_true_eq]
        omega)]
      have e : v.toList.map (UInt8.ofNat ∘ Char.toNat) = v.toList.map (fun c => UInt8.ofNat c.toNat) := rfl
      rw [e]
      cases hd : urlsafe_b64decode (v.toList.map (fun c => UInt8.ofNat c.toNat)) with
      | ok bs => exact ⟨fun _ => ⟨h1, h2, bs, rfl⟩, fun _ => rfl⟩
      | error er => exact ⟨fun h => (nomatch h), fun ⟨_, _, _, h⟩ => (nomatch h)⟩
    · rw [if_pos]
      · exact ⟨fun h => (nomatch h), fun h => (h2 h.2.1).elim⟩
      · rw [List.any_eq_true]
        apply Classical.byContradiction
        intro hn
        apply h2
        intro c hc
        apply Classical.byContradiction
        intro hlt
        exact hn ⟨c.toNat, List.mem_map.mpr ⟨c, hc, rfl⟩, decide_eq_true (by omega)⟩
  · rw [if_pos h1]
    exact ⟨fun h => (nomatch h), fun h => (h1 h.1).elim⟩

theorem submitted_iff (body : Option Json) (v : String) :
    submitted body = some v ↔ Submits body v ∧ Acceptable v := by
  unfold Submits
  rw [← syntactic_iff]
  unfold submitted
  split
  · rename_i items
    by_cases hk : items.map Prod.fst = ["voucher"]
    · rw [if_pos hk]
      match items, hk with
      | [(k, j)], hk =>
        have hk' : k = "voucher" := by simpa using hk
        subst hk'
        show (match List.lookup "voucher" [("voucher", j)] with
          | some (.str voucher) => if is_syntactic_voucher (points_of voucher) then some voucher else none
          | _ => none) = some v ↔ _
        rw [show List.lookup "voucher" [("voucher", j)] = some j from by
          rw [List.lookup_cons_self]]
        cases j with
        | str s =>
          simp only []
          by_cases hs : is_syntactic_voucher (points_of s) = true
          · rw [if_pos hs]
            constructor
            · intro h; cases h; exact ⟨rfl, hs⟩
            · intro ⟨h, _⟩; cases h; rfl
          · rw [if_neg hs]
            constructor
            · intro h; exact nomatch h
            · intro ⟨h, h'⟩; cases h; exact (hs h').elim
        | _ => exact ⟨fun h => (nomatch h), fun ⟨h, _⟩ => (nomatch h)⟩
    · rw [if_neg hk]
      constructor
      · intro h; exact nomatch h
      · intro ⟨h, _⟩; cases h; exact (hk rfl).elim
  · rename_i hno
    constructor
    · intro h; exact nomatch h
    · intro ⟨h, _⟩; exact (hno _ h).elim

/-! ### What a submission does -/

theorem recorded_iff (c : Controller) (v : String) :
    Recorded c v ↔ ∃ row, voucherRow c.store v = some row := by
  constructor
  · intro ⟨row, hr, hn⟩
    cases h : voucherRow c.store v with
    | some r => exact ⟨r, rfl⟩
    | none => exact absurd (List.mem_map.mpr ⟨row, hr, hn⟩) (voucherRow_none.mp h)
  · intro ⟨row, h⟩
    exact ⟨row, voucherRow_mem h, voucherRow_number h⟩

/-- A piece of work that is not an answer only adds vouchers. -/
theorem work_keeps (cfg : RedeemCfg) (env : Env) (c : Controller) (v : String)
    (hno : ∀ f a rest, c.todo ≠ .answered f a :: rest)
    (h : ∃ row, voucherRow c.store v = some row) :
    ∃ row, voucherRow (c.step cfg (.work env)).store v = some row := by
  show ∃ row, voucherRow (match c.todo with
    | [] => c
    | task :: todo => task.run cfg env { c with todo := todo }).store v = some row
  split
  · exact h
  · rename_i task rest ht
    cases task with
    | redeem w n =>
      simp only [Task.run]
      split <;> exact h
    | retry w =>
      simp only [Task.run]
      split
      · exact h
      · split
        · exact h
        · split <;> exact h
    | iterate f =>
      simp only [Task.run]
      split
      · rename_i hlt
        unfold get_random_tokens
        split
        · rename_i e t he
          split at he
          · cases he; exact h
          · rcases add_effect env.order env.now f.voucher f.total f.counter _ c.store with ⟨_, hr⟩ | ⟨_, hr, _⟩ | ⟨_, _, hr, _⟩
            · rw [hr] at he; cases he; exact h
            · rw [hr] at he; exact nomatch he
            · rw [hr] at he; exact nomatch he
        · rename_i ts t he
          split at he
          · exact nomatch he
          · rcases add_effect env.order env.now f.voucher f.total f.counter _ c.store with ⟨_, hr⟩ | ⟨_, hr, _⟩ | ⟨ts', _, hr, _⟩
            · rw [hr] at he; exact nomatch he
            · rw [hr] at he; cases he; exact h
            · rw [hr] at he; cases he
              show ∃ row, voucherRow (added env.now f.voucher f.total f.counter _ c.store) v = some row
              rw [voucherRow_added]
              split
              · exact ⟨_, rfl⟩
              · exact h
      · exact h
    | perform f ts =>
      simp only [Task.run, contact_issuer]
      split
      · exact h
      · split <;> exact h
    | answered f a => exact (hno f a rest ht).elim

/-- No coroutine is being resumed. -/
def NoAnswer (c : Controller) : Prop := ∀ f a, Task.answered f a ∉ c.todo

theorem work_no_answer (cfg : RedeemCfg) (env : Env) (c : Controller) (hno : NoAnswer c) :
    NoAnswer (c.step cfg (.work env)) := by
  show NoAnswer (match c.todo with
    | [] => c
    | task :: todo => task.run cfg env { c with todo := todo })
  split
  · exact hno
  · rename_i task rest ht
    have hrest : ∀ f a, Task.answered f a ∉ rest := fun f a h =>
      hno f a (by rw [ht]; exact List.mem_cons_of_mem _ h)
    have hcons : ∀ x : Task, (∀ f a, x ≠ .answered f a) → ∀ f a, Task.answered f a ∉ x :: rest := by
      intro x hx f a h
      rcases List.mem_cons.mp h with h | h
      · exact hx f a h.symm
      · exact hrest f a h
    cases task with
    | redeem w n =>
      simp only [Task.run]
      split
      · exact hrest
      · exact hrest
      · exact hcons _ (fun f a h => (nomatch h))
    | retry w =>
      simp only [Task.run]
      split
      · exact hrest
      · split
        · intro f a h; exact nomatch h
        · split
          · exact hcons _ (fun f a h => (nomatch h))
          · exact hrest
    | iterate f =>
      simp only [Task.run]
      split
      · split
        · exact hrest
        · exact hcons _ (fun f a h => (nomatch h))
      · exact hrest
    | perform f ts =>
      simp only [Task.run, contact_issuer]
      split
      · exact hrest
      · split <;> exact hrest
    | answered f a => exact (hno f a (by rw [ht]; exact List.mem_cons_self)).elim

theorem put_keeps (cfg : RedeemCfg) (env : Env) (c : Controller) (v w : String) (ht : c.todo = [])
    (h : ∃ row, voucherRow c.store w = some row) :
    ∃ row, voucherRow (c.run cfg [.redeem v none, .work env, .work env, .work env]).store w = some row := by
  show ∃ row, voucherRow ((((c.step cfg (.redeem v none)).step cfg (.work env)).step cfg (.work env)).step cfg
    (.work env)).store w = some row
  have e : c.step cfg (.redeem v none) = { c with todo := [.redeem v none] } := by
    show (if c.todo.isEmpty then _ else _) = _
    rw [if_pos (by rw [ht]; rfl)]
  have n1 : NoAnswer (c.step cfg (.redeem v none)) := by
    rw [e]; intro f a h; rcases List.mem_cons.mp h with h | h <;> exact nomatch h
  have hd : ∀ {d : Controller}, NoAnswer d → ∀ f a rest, d.todo ≠ .answered f a :: rest :=
    fun hd f a rest h => hd f a (by rw [h]; exact List.mem_cons_self)
  have n2 := work_no_answer cfg env _ n1
  have n3 := work_no_answer cfg env _ n2
  refine work_keeps cfg env _ w (hd n3) (work_keeps cfg env _ w (hd n2) (work_keeps cfg env _ w (hd n1) ?_))
  rw [e]
  exact h

/-- A new voucher is recorded, and the request for its first group sent. -/
theorem put_new (cfg : RedeemCfg) (env : Env) (c : Controller) (hc : RInv cfg c) (v : String)
    (ht : c.todo = []) (hnone : voucherRow c.store v = none) (hN : 0 < cfg.num_redemption_groups)
    (hcount : cfg.num_redemption_groups ≤ cfg.default_token_count) (hf : FreshTokens env c v) :
    ∃ ts, (c.run cfg [.redeem v none, .work env, .work env, .work env]).log =
        c.log ++ [.begun v 0, .sent v 0 ts] ∧
      voucherRow (c.run cfg [.redeem v none, .work env, .work env, .work env]).store v =
        some (newRow env.now v cfg.default_token_count) ∧
      (c.run cfg [.redeem v none, .work env, .work env, .work env]).todo = [] ∧
      select_random_tokens v 0 (c.run cfg [.redeem v none, .work env, .work env, .work env]).store = ts := by
  show ∃ ts, ((((c.step cfg (.redeem v none)).step cfg (.work env)).step cfg (.work env)).step cfg
    (.work env)).log = _ ∧ _
  have e1 : c.step cfg (.redeem v none) = { c with todo := [.redeem v none] } := by
    show (if c.todo.isEmpty then _ else _) = _
    rw [if_pos (by rw [ht]; rfl)]
  have e2 : (c.step cfg (.redeem v none)).step cfg (.work env) =
      { c with todo := [.iterate ⟨v, cfg.default_token_count, 0⟩], log := c.log ++ [.begun v 0] } := by
    rw [e1]
    show Task.run cfg env (.redeem v none) { c with todo := [] } = _
    simp only [Task.run, redeem_start, get_voucher]
    rw [get_object_eq, hnone]
    rfl
  obtain ⟨n, hn⟩ : ∃ n, token_count_for_group cfg.num_redemption_groups cfg.default_token_count (0 : Nat) = .ok n := by
    unfold token_count_for_group
    rw [if_neg (by omega), if_neg (by
      rw [Bool.or_eq_true, decide_eq_true_eq, decide_eq_true_eq]; omega), if_neg (by omega)]
    simp only []
    split <;> exact ⟨_, rfl⟩
  obtain ⟨ts, hts, hnd, hfresh⟩ := hf n.toNat
  have hsel : select_random_tokens v 0 c.store = [] := by
    apply Classical.byContradiction
    intro hne
    obtain ⟨row, hr, _⟩ := hc.sizes v 0 hne
    rw [hnone] at hr
    exact nomatch hr
  have e3 : ((c.step cfg (.redeem v none)).step cfg (.work env)).step cfg (.work env) =
      { c with
        store := added env.now v cfg.default_token_count 0 ts c.store
        todo := [.perform ⟨v, cfg.default_token_count, 0⟩ ts], log := c.log ++ [.begun v 0] } := by
    rw [e2]
    show Task.run cfg env (.iterate ⟨v, cfg.default_token_count, 0⟩)
      { c with todo := [], log := c.log ++ [.begun v 0] } = _
    simp only [Task.run, get_random_tokens]
    rw [if_pos hN, hn]
    simp only []
    rw [add_eq, if_neg (by rw [hsel]; exact fun h => h rfl), hts]
    simp only []
    rw [if_pos ⟨hnd, hfresh⟩]
  have hrow : voucherRow (added env.now v cfg.default_token_count 0 ts c.store) v =
      some (newRow env.now v cfg.default_token_count) := by
    rw [voucherRow_added, if_pos rfl, hnone]; rfl
  have e4 : (((c.step cfg (.redeem v none)).step cfg (.work env)).step cfg (.work env)).step cfg (.work env) =
      { c with
        store := added env.now v cfg.default_token_count 0 ts c.store
        active := c.active.set v (env.now, 0)
        waiting := c.waiting ++ [⟨⟨v, cfg.default_token_count, 0⟩, ts⟩]
        todo := [], log := c.log ++ [.begun v 0] ++ [.sent v 0 ts] } := by
    rw [e3]
    show Task.run cfg env (.perform ⟨v, cfg.default_token_count, 0⟩ ts)
      { c with
        store := added env.now v cfg.default_token_count 0 ts c.store
        todo := [], log := c.log ++ [.begun v 0] } = _
    simp only [Task.run, contact_issuer]
    rw [get_object_eq, hrow]
    simp only []
    rw [from_row_pending rfl]
    rfl
  have e5 : c.run cfg [.redeem v none, .work env, .work env, .work env] =
      (((c.step cfg (.redeem v none)).step cfg (.work env)).step cfg (.work env)).step cfg (.work env) := rfl
  rw [e5, e4]
  refine ⟨ts, ?_, hrow, rfl, ?_⟩
  · rw [List.append_assoc]; rfl
  · rw [select_added, hsel, if_pos ⟨rfl, rfl⟩]; rfl

/-! ### The views -/

theorem web_from_row_ok {r : VoucherRow} (h : RowOK r) :
    ∃ v, Voucher.from_row sameText r = .ok v ∧ v.number = r.number := by
  rcases h with h | ⟨h, hf⟩ | ⟨h, hf, hn⟩
  · exact ⟨_, from_row_pending h, rfl⟩
  · cases hf' : r.finished with
    | none => exact (hf hf').elim
    | some d => simp [Voucher.from_row, sameText, state_from_row, h, hf']
  · cases hf' : r.finished with
    | none => exact (hf hf').elim
    | some d =>
      cases hn' : r.token_count with
      | none => exact (hn hn').elim
      | some n => simp [Voucher.from_row, sameText, state_from_row, h, hf', hn']

theorem mapM_rows {rows : List VoucherRow} (h : ∀ r ∈ rows, RowOK r) :
    ∃ vs, rows.mapM (Voucher.from_row sameText) = .ok vs ∧ vs.map (·.number) = rows.map (·.number) ∧
      ∀ v, v ∈ vs ↔ ∃ r ∈ rows, Voucher.from_row sameText r = .ok v := by
  induction rows with
  | nil => exact ⟨[], rfl, rfl, fun v => ⟨fun h => (nomatch h), fun ⟨_, h, _⟩ => (nomatch h)⟩⟩
  | cons r rs ih =>
    obtain ⟨vs, h1, h2, h3⟩ := ih (fun r hr => h r (List.mem_cons_of_mem _ hr))
    obtain ⟨v, hv, hn⟩ := web_from_row_ok (h r List.mem_cons_self)
    refine ⟨v :: vs, ?_, ?_, ?_⟩
    · rw [List.mapM_cons, hv, h1]; rfl
    · rw [List.map_cons, List.map_cons, h2, hn]
    · intro w
      constructor
      · intro hw
        rcases List.mem_cons.mp hw with rfl | hw
        · exact ⟨r, List.mem_cons_self, hv⟩
        · obtain ⟨r', hr', e⟩ := (h3 w).mp hw
          exact ⟨r', List.mem_cons_of_mem _ hr', e⟩
      · intro ⟨r', hr', e⟩
        rcases List.mem_cons.mp hr' with rfl | hr'
        · rw [hv] at e; cases e; exact List.mem_cons_self
        · exact List.mem_cons_of_mem _ ((h3 w).mpr ⟨r', hr', e⟩)

theorem incorporate_number (c : Controller) (v : Voucher String) :
    (incorporate_transient_state c v).number = v.number := by
  unfold incorporate_transient_state
  split
  · split
    · rfl
    · split
      · rfl
      · split <;> rfl
  · rfl

/-- The listing of a controller with the invariant. -/
theorem listing (cfg : RedeemCfg) (c : Controller) (hc : RInv cfg c) :
    ∃ vs, render_GET c = .ok vs ∧ vs.map (·.number) = c.store.app.vouchers.map (·.number) ∧
      ∀ v, v ∈ vs ↔ ∃ r ∈ c.store.app.vouchers, ∃ w, Voucher.from_row sameText r = .ok w ∧
        v = incorporate_transient_state c w := by
  obtain ⟨vs, h1, h2, h3⟩ := mapM_rows (rows := c.store.app.vouchers) (fun r hr =>
    hc.rows r.number r (voucherRow_of_mem hc.wf hr))
  refine ⟨vs.map (incorporate_transient_state c), ?_, ?_, ?_⟩
  · unfold render_GET transact store_list
    simp only [Prog.run]
    rw [h1]
  · rw [List.map_map, ← h2]
    apply List.map_congr_left
    intro v _
    exact incorporate_number c v
  · intro v
    rw [List.mem_map]
    constructor
    · rintro ⟨w, hw, rfl⟩
      obtain ⟨r, hr, e⟩ := (h3 w).mp hw
      exact ⟨r, hr, w, e, rfl⟩
    · rintro ⟨r, hr, w, e, rfl⟩
      exact ⟨w, (h3 w).mpr ⟨r, hr, e⟩, rfl⟩

theorem of_points_text (v : String) : of_points (points_of v) = v := by
  unfold of_points points_of
  rw [List.map_map]
  have : v.toList.map (Char.ofNat ∘ Char.toNat) = v.toList := by
    conv => rhs; rw [← List.map_id v.toList]
    apply List.map_congr_left
    intro c _
    exact Char.ofNat_toNat c
  rw [this, String.ofList_toList]

/-- The child at the address of an acceptable voucher number. -/
theorem child_of (c : Controller) (v : String) (hv : Acceptable v) :
    getChild c (v.toList.map (fun ch => UInt8.ofNat ch.toNat)) =
      match get_object v c.store with
      | .error .keyError => .notFound
      | .error _ => .serverError
      | .ok o => .view (incorporate_transient_state c o) := by
  have hb : (v.toList.map (fun ch => UInt8.ofNat ch.toNat)).map UInt8.toNat = points_of v := by
    rw [List.map_map]
    apply List.map_congr_left
    intro ch hch
    have := hv.2.1 ch hch
    show (UInt8.ofNat ch.toNat).toNat = ch.toNat
    rw [UInt8.toNat_ofNat']
    exact Nat.mod_eq_of_lt (by omega)
  have hd : utf8_decode (v.toList.map (fun ch => UInt8.ofNat ch.toNat)) = some (points_of v) := by
    rw [utf8_ascii, hb]
    intro b hbm
    have : b.toNat ∈ points_of v := by rw [← hb]; exact List.mem_map_of_mem hbm
    obtain ⟨ch, hch, e⟩ := List.mem_map.mp this
    rw [← e]
    exact hv.2.1 ch hch
  unfold getChild
  rw [hd]
  simp only []
  rw [if_pos ((syntactic_iff v).mpr hv), of_points_text]
  rfl

end ZKAP
