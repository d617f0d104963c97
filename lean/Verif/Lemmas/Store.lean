import Verif.Model.Store

/-! Closed forms of the store operations. -/
namespace ZKAP

theorem map_run {α β} (f : α → β) (p : Prog α) (t : Tables) :
    (p.map f).run t = ((p.run t).1, (p.run t).2.map (fun r => (f r.1, r.2))) := by
  induction p generalizing t with
  | done a => rfl
  | raise e => rfl
  | query k ih => exact ih t t
  | execute i s k ih =>
    simp only [Prog.map, Prog.run]
    cases exec s t with
    | error e => rfl
    | ok x => simp only [ih]
  | executemany i ss k ih =>
    simp only [Prog.map, Prog.run]
    cases execMany ss t with
    | error e => rfl
    | ok x => simp only [ih]

theorem transact_map {α β} (f : α → β) (p : Prog α) (t : Tables) :
    transact (p.map f) t = ((transact p t).1.map f, (transact p t).2) := by
  unfold transact
  rw [map_run]
  cases (p.run t).2 with
  | error e => rfl
  | ok x => rfl

/-! ### executemany -/

theorem execMany_toDiscard (ts : List String) (t : Tables) :
    execMany (ts.map .insertToDiscard) t =
      .ok { t with temp := { t.temp with to_discard := t.temp.to_discard ++ ts } } := by
  induction ts generalizing t with
  | nil => simp [execMany]
  | cons x xs ih => simp [execMany, exec, ih]

theorem execMany_toReset (ts : List String) (t : Tables) :
    execMany (ts.map .insertToReset) t =
      .ok { t with temp := { t.temp with to_reset := t.temp.to_reset ++ ts } } := by
  induction ts generalizing t with
  | nil => simp [execMany]
  | cons x xs ih => simp [execMany, exec, ih]

theorem execMany_inUse (ts : List String) (t : Tables) :
    execMany (ts.map .insertInUse) t =
      if ts.Nodup ∧ (∀ x ∈ ts, x ∉ t.temp.in_use) then
        .ok { t with temp := { t.temp with in_use := t.temp.in_use ++ ts } }
      else .error .integrityError := by
  induction ts generalizing t with
  | nil => simp [execMany]
  | cons x xs ih =>
    simp only [List.map_cons, execMany, exec]
    by_cases hx : x ∈ t.temp.in_use
    · simp [hx]
    · simp only [hx, if_false, ih]
      by_cases hc : (x :: xs).Nodup ∧ (∀ y ∈ x :: xs, y ∉ t.temp.in_use)
      · rw [if_pos hc, if_pos]
        · simp
        · grind
      · rw [if_neg hc, if_neg]
        grind

theorem execMany_invalid (reason : String) (ts : List String) (t : Tables) :
    execMany (ts.map (fun x => .insertInvalid x reason)) t =
      if ts.Nodup ∧ (∀ x ∈ ts, x ∉ t.app.invalid.map (·.token)) then
        .ok { t with app := { t.app with invalid :=
          (t.app.invalid ++ ts.map (fun x => { token := x, reason := reason })) } }
      else .error .integrityError := by
  induction ts generalizing t with
  | nil => simp [execMany]
  | cons x xs ih =>
    simp only [List.map_cons, execMany, exec]
    by_cases hx : x ∈ t.app.invalid.map (·.token)
    · simp only [hx, if_true]
      rw [if_neg]
      intro h
      exact h.2 x (List.mem_cons_self ..) hx
    · simp only [hx, if_false, ih]
      by_cases hc : (x :: xs).Nodup ∧ (∀ y ∈ x :: xs, y ∉ t.app.invalid.map (·.token))
      · rw [if_pos hc, if_pos]
        · simp
        · obtain ⟨h1, h2⟩ := hc
          rw [List.nodup_cons] at h1
          refine ⟨h1.2, fun y hy => ?_⟩
          simp only [List.map_append, List.map_cons, List.map_nil, List.mem_append,
            List.mem_singleton]
          rintro (h | rfl)
          · exact h2 y (List.mem_cons_of_mem _ hy) h
          · exact h1.1 hy
      · rw [if_neg hc, if_neg]
        rintro ⟨h1, h2⟩
        apply hc
        simp only [List.map_append, List.map_cons, List.map_nil, List.mem_append,
            List.mem_singleton, not_or] at h2
        refine ⟨List.nodup_cons.mpr ⟨fun h => (h2 x h).2 rfl, h1⟩, ?_⟩
        intro y hy
        rcases List.mem_cons.mp hy with rfl | hy
        · exact hx
        · exact (h2 y hy).1

theorem execMany_unblinded (g : Nat) (ts : List String) (t : Tables) :
    execMany (ts.map (fun x => .insertUnblinded x g)) t =
      if ts.Nodup ∧ (∀ x ∈ ts, x ∉ t.app.unblinded.map (·.token)) then
        .ok { t with app := { t.app with unblinded :=
          (t.app.unblinded ++ ts.map (fun x => { token := x, group := g })) } }
      else .error .integrityError := by
  induction ts generalizing t with
  | nil => simp [execMany]
  | cons x xs ih =>
    simp only [List.map_cons, execMany, exec]
    by_cases hx : x ∈ t.app.unblinded.map (·.token)
    · simp only [hx, if_true]
      rw [if_neg]
      intro h
      exact h.2 x (List.mem_cons_self ..) hx
    · simp only [hx, if_false, ih]
      by_cases hc : (x :: xs).Nodup ∧ (∀ y ∈ x :: xs, y ∉ t.app.unblinded.map (·.token))
      · rw [if_pos hc, if_pos]
        · simp
        · obtain ⟨h1, h2⟩ := hc
          rw [List.nodup_cons] at h1
          refine ⟨h1.2, fun y hy => ?_⟩
          simp only [List.map_append, List.map_cons, List.map_nil, List.mem_append,
            List.mem_singleton]
          rintro (h | rfl)
          · exact h2 y (List.mem_cons_of_mem _ hy) h
          · exact h1.1 hy
      · rw [if_neg hc, if_neg]
        rintro ⟨h1, h2⟩
        apply hc
        simp only [List.map_append, List.map_cons, List.map_nil, List.mem_append,
            List.mem_singleton, not_or] at h2
        refine ⟨List.nodup_cons.mpr ⟨fun h => (h2 x h).2 rfl, h1⟩, ?_⟩
        intro y hy
        rcases List.mem_cons.mp hy with rfl | hy
        · exact hx
        · exact (h2 y hy).1

theorem execMany_token (v : String) (c : Nat) (ts : List String) (t : Tables)
    (hv : v ∈ t.app.vouchers.map (·.number)) :
    execMany (ts.map (fun x => .insertToken v c x)) t =
      if ts.Nodup ∧ (∀ x ∈ ts, x ∉ t.app.tokens.map (·.text)) then
        .ok { t with app := { t.app with tokens :=
          (t.app.tokens ++ ts.map (fun x => { text := x, voucher := v, counter := c })) } }
      else .error .integrityError := by
  induction ts generalizing t with
  | nil => simp [execMany]
  | cons x xs ih =>
    simp only [List.map_cons, execMany, exec]
    by_cases hx : x ∈ t.app.tokens.map (·.text)
    · simp only [hx, if_true]
      rw [if_neg]
      intro h
      exact h.2 x (List.mem_cons_self ..) hx
    · simp only [hx, if_false, hv, not_true_eq_false]
      rw [ih _ (by exact hv)]
      by_cases hc : (x :: xs).Nodup ∧ (∀ y ∈ x :: xs, y ∉ t.app.tokens.map (·.text))
      · rw [if_pos hc, if_pos]
        · simp
        · obtain ⟨h1, h2⟩ := hc
          rw [List.nodup_cons] at h1
          refine ⟨h1.2, fun y hy => ?_⟩
          simp only [List.map_append, List.map_cons, List.map_nil, List.mem_append,
            List.mem_singleton]
          rintro (h | rfl)
          · exact h2 y (List.mem_cons_of_mem _ hy) h
          · exact h1.1 hy
      · rw [if_neg hc, if_neg]
        rintro ⟨h1, h2⟩
        apply hc
        simp only [List.map_append, List.map_cons, List.map_nil, List.mem_append,
            List.mem_singleton, not_or] at h2
        refine ⟨List.nodup_cons.mpr ⟨fun h => (h2 x h).2 rfl, h1⟩, ?_⟩
        intro y hy
        rcases List.mem_cons.mp hy with rfl | hy
        · exact hx
        · exact (h2 y hy).1

/-! ### Closed forms -/

theorem discard_eq (ts : List String) (t : Tables) :
    transact (store_discard ts) t =
      (.ok (), { app := { t.app with unblinded :=
                    t.app.unblinded.filter (·.token ∉ t.temp.to_discard ++ ts) },
                 temp := { t.temp with
                    in_use := t.temp.in_use.filter (· ∉ t.temp.to_discard ++ ts)
                    to_discard := [] } }) := by
  simp only [transact, store_discard, Prog.run, execMany_toDiscard, exec]

theorem reset_eq (ts : List String) (t : Tables) :
    transact (store_reset ts) t =
      (.ok (), { t with temp := { t.temp with
                    in_use := t.temp.in_use.filter (· ∉ t.temp.to_reset ++ ts)
                    to_reset := [] } }) := by
  simp only [transact, store_reset, Prog.run, execMany_toReset, exec]

theorem invalidate_eq (reason : String) (ts : List String) (t : Tables) :
    transact (store_invalidate reason ts) t =
      if ts.Nodup ∧ (∀ x ∈ ts, x ∉ t.app.invalid.map (·.token)) then
        (.ok (), { app := { t.app with
                      invalid := t.app.invalid ++ ts.map (fun x => ⟨x, reason⟩)
                      unblinded := t.app.unblinded.filter
                        (·.token ∉ t.app.invalid.map (·.token) ++ ts) },
                   temp := { t.temp with
                      in_use := t.temp.in_use.filter
                        (· ∉ t.app.invalid.map (·.token) ++ ts) } })
      else (.error .integrityError, t) := by
  simp only [transact, store_invalidate, Prog.run, execMany_invalid]
  by_cases h : ts.Nodup ∧ (∀ x ∈ ts, x ∉ t.app.invalid.map (·.token))
  · simp only [if_pos h, exec, List.map_append, List.map_map, Function.comp_def, List.map_id_fun', id]
  · simp only [if_neg h]

theorem getTokens_eq (o : Order) (n : Int) (t : Tables) :
    transact (store_get_unblinded_tokens o n) t =
      if n > SQLITE3_INTEGER_MAX then (.error .notEnoughTokens, t)
      else
        let texts := sql_limit n (o.f (select_available t))
        if (texts.length : Int) < n then (.error .notEnoughTokens, t)
        else if texts.Nodup ∧ (∀ x ∈ texts, x ∉ t.temp.in_use) then
          (.ok texts, { t with temp := { t.temp with in_use := t.temp.in_use ++ texts } })
        else (.error .integrityError, t) := by
  unfold transact store_get_unblinded_tokens
  by_cases h1 : n > SQLITE3_INTEGER_MAX
  · simp [h1, Prog.run]
  · simp only [h1, if_false, Prog.run]
    by_cases h2 : ((sql_limit n (o.f (select_available t))).length : Int) < n
    · simp [h2, Prog.run]
    · simp only [h2, if_false, Prog.run, execMany_inUse]
      by_cases h3 : (sql_limit n (o.f (select_available t))).Nodup ∧
          (∀ x ∈ sql_limit n (o.f (select_available t)), x ∉ t.temp.in_use)
      · simp only [if_pos h3]
      · simp only [if_neg h3]

theorem doubleSpent_eq (now v : String) (t : Tables) :
    transact (store_mark_double_spent now v) t =
      if (∃ r ∈ t.app.vouchers, r.number = v ∧ r.state = "pending") then
        (.ok (), { t with app := { t.app with vouchers := t.app.vouchers.map (fun r =>
            if r.number == v && r.state == "pending" then
              { r with state := "double-spend", finished := some now }
            else r) } })
      else (.error .valueError, t) := by
  unfold transact store_mark_double_spent
  simp only [Prog.run, exec]
  by_cases h : ∃ r ∈ t.app.vouchers, r.number = v ∧ r.state = "pending"
  · have hc : t.app.vouchers.countP (fun r => r.number == v && r.state == "pending") ≠ 0 := by
      obtain ⟨r, hr, h1, h2⟩ := h
      have : 0 < t.app.vouchers.countP (fun r => r.number == v && r.state == "pending") :=
        List.countP_pos_iff.mpr ⟨r, hr, by simp [h1, h2]⟩
      omega
    simp [hc, h, Prog.run]
  · have hc : t.app.vouchers.countP (fun r => r.number == v && r.state == "pending") = 0 := by
      rw [List.countP_eq_zero]
      intro r hr
      simp only [Bool.and_eq_true, beq_iff_eq]
      exact fun hh => h ⟨r, hr, hh⟩
    simp [hc, h, Prog.run]

/-- What a successful redemption of a group does. -/
def inserted (now v pk : String) (ts : List String) (completed spendable : Bool)
    (t : Tables) : Tables :=
  { t with app := { t.app with
      groups := t.app.groups ++ [⟨nextRowid (t.app.groups.map (·.rowid)), v, spendable, some pk⟩]
      vouchers := t.app.vouchers.map (fun r =>
        if r.number == v then
          { r with
            state := if completed then "redeemed" else "pending"
            token_count := some (r.token_count.getD 0 + if spendable then ts.length else 0)
            sequestered_count := r.sequestered_count + if spendable then 0 else ts.length
            finished := some now
            counter := r.counter + 1 }
        else r)
      unblinded := t.app.unblinded ++
        ts.map (fun x => ⟨x, nextRowid (t.app.groups.map (·.rowid))⟩)
      tokens := t.app.tokens.filter (fun r => !(r.voucher == v &&
        r.counter == (((t.app.vouchers.filter (·.number == v)).map (·.counter)).headD 0))) } }

theorem insert_eq (now v pk : String) (ts : List String) (completed spendable : Bool)
    (t : Tables) :
    transact (store_insert_unblinded now v pk ts completed spendable) t =
      if v ∉ t.app.vouchers.map (·.number) then (.error .valueError, t)
      else if ts.Nodup ∧ (∀ x ∈ ts, x ∉ t.app.unblinded.map (·.token)) then
        (.ok (), inserted now v pk ts completed spendable t)
      else (.error .integrityError, t) := by
  unfold transact store_insert_unblinded
  simp only [Prog.run, exec]
  by_cases hv : v ∈ t.app.vouchers.map (·.number)
  · have hc : t.app.vouchers.countP (fun r => r.number == v) ≠ 0 := by
      obtain ⟨r, hr, h1⟩ := List.mem_map.mp hv
      have : 0 < t.app.vouchers.countP (fun r => r.number == v) :=
        List.countP_pos_iff.mpr ⟨r, hr, by simp [h1]⟩
      omega
    obtain ⟨r, l, hl⟩ : ∃ r l, t.app.vouchers.filter (·.number == v) = r :: l := by
      rw [List.countP_eq_length_filter] at hc
      cases h : t.app.vouchers.filter (·.number == v) with
      | nil => simp [h] at hc
      | cons r l => exact ⟨r, l, rfl⟩
    have hf : ∀ f : VoucherRow → VoucherRow, (∀ r, (f r).number = r.number) →
        (t.app.vouchers.map (fun r => if (r.number == v) = true then f r else r)).filter
          (·.number == v) = (t.app.vouchers.filter (·.number == v)).map f := by
      intro f hfn
      generalize t.app.vouchers = vs
      induction vs with
      | nil => rfl
      | cons a as ih =>
        by_cases ha : a.number = v
        · simp only [List.map_cons, List.filter_cons, ha, hfn, ih, beq_self_eq_true, if_true]
        · have ha' : (a.number == v) = false := by simpa using ha
          simp only [List.map_cons, List.filter_cons, ha', ih, Bool.false_eq_true, if_false]
    simp only [hc, if_false, hv, not_true_eq_false, Prog.run]
    have hf' := hf (fun r => { r with
            state := if completed then "redeemed" else "pending"
            token_count := some (r.token_count.getD 0 + if spendable then ts.length else 0)
            sequestered_count := r.sequestered_count + if spendable then 0 else ts.length
            finished := some now
            counter := r.counter + 1 }) (fun _ => rfl)
    rw [hf', hl]
    simp only [List.map_cons, Prog.run, execMany_unblinded]
    by_cases h : ts.Nodup ∧ (∀ x ∈ ts, x ∉ t.app.unblinded.map (·.token))
    · simp only [if_pos h, exec, inserted, hl, List.map_cons, List.headD_cons, Nat.add_sub_cancel]
    · simp only [if_neg h]
  · have hc : t.app.vouchers.countP (fun r => r.number == v) = 0 := by
      rw [List.countP_eq_zero]
      intro r hr
      simp only [beq_iff_eq]
      exact fun hh => hv (List.mem_map.mpr ⟨r, hr, hh⟩)
    simp only [hc, if_true, hv, not_false_eq_true, Prog.run]

/-- What adding new random tokens does. -/
def added (now v : String) (expected c : Nat) (ts : List String) (t : Tables) : Tables :=
  { t with app := { t.app with
      vouchers := if v ∈ t.app.vouchers.map (·.number) then t.app.vouchers
        else t.app.vouchers ++ [{ number := v, created := now, expected_tokens := expected }]
      tokens := t.app.tokens ++ ts.map (fun x => ⟨x, v, c⟩) } }

theorem add_eq (o : Order) (now v : String) (expected c : Nat)
    (get : Except PyErr (List String)) (t : Tables) :
    transact (store_add o now v expected c get) t =
      if select_random_tokens v c t ≠ [] then
        (.ok (o.f (select_random_tokens v c t)), t)
      else match get with
        | .error e => (.error e, t)
        | .ok ts =>
          if ts.Nodup ∧ (∀ x ∈ ts, x ∉ t.app.tokens.map (·.text)) then
            (.ok ts, added now v expected c ts t)
          else (.error .integrityError, t) := by
  unfold transact store_add
  simp only [Prog.run]
  have hlen : (o.f (select_random_tokens v c t)).length = (select_random_tokens v c t).length :=
    (o.perm _).length_eq
  by_cases h : select_random_tokens v c t = []
  · have h0 : ¬ (o.f (select_random_tokens v c t)).length > 0 := by rw [hlen, h]; simp
    rw [if_neg h0, if_neg (by simp [h])]
    cases get with
    | error e => rfl
    | ok ts =>
      simp only [Prog.run, exec]
      by_cases hv : v ∈ t.app.vouchers.map (·.number)
      · simp only [hv, if_true]
        rw [execMany_token _ _ _ _ hv]
        by_cases h : ts.Nodup ∧ (∀ x ∈ ts, x ∉ t.app.tokens.map (·.text))
        · simp only [if_pos h, added, hv, if_true]
        · simp only [if_neg h]
      · simp only [hv, if_false]
        rw [execMany_token _ _ _ _ (by simp)]
        by_cases h : ts.Nodup ∧ (∀ x ∈ ts, x ∉ t.app.tokens.map (·.text))
        · simp only [if_pos h, added, hv, if_false]
        · simp only [if_neg h]
  · have h0 : (o.f (select_random_tokens v c t)).length > 0 := by
      rw [hlen]; exact List.length_pos_iff.mpr h
    simp [h0, h, Prog.run]

end ZKAP
