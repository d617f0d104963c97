import Verif.Lemmas.StoreSql
import Verif.Lemmas.Store

/-! The methods of the store against their SQL. -/
namespace ZKAP
open Spec

/-- The session stands for the tables, in which every token belongs to a voucher. -/
structure Tracks (s : Session) (t : Tables) : Prop where
  main : Finds s.main t.app
  temp : TempFinds s.temp t.temp
  foreign : ForeignKeys t.app

theorem exec_foreign {st : Stmt} {t : Tables} {x : Executed} (hk : ForeignKeys t.app)
    (h : exec st t = .ok x) : ForeignKeys x.tables.app := by
  have keep : ∀ (vs : List VoucherRow), (∀ n ∈ t.app.vouchers.map (·.number), n ∈ vs.map (·.number)) →
      ∀ r ∈ t.app.tokens, r.voucher ∈ vs.map (·.number) := fun vs hvs r hr => hvs _ (hk r hr)
  have upd : ∀ (f : VoucherRow → VoucherRow), (∀ v, (f v).number = v.number) →
      ∀ n ∈ t.app.vouchers.map (·.number), n ∈ (t.app.vouchers.map f).map (·.number) := by
    intro f hf n hn
    rw [List.map_map]
    obtain ⟨v, hv, rfl⟩ := List.mem_map.1 hn
    exact List.mem_map.2 ⟨v, hv, hf v⟩
  cases st <;> simp only [exec] at h
  case insertVoucher n e c =>
    split at h <;> cases h
    · exact hk
    · exact keep _ (fun m hm => by rw [List.map_append]; exact List.mem_append_left _ hm)
  case insertToken v c x =>
    split at h
    · cases h
    · split at h
      · cases h
      · rename_i hv
        cases h
        intro r hr
        rcases List.mem_append.1 hr with hr | hr
        · exact hk r hr
        · rw [List.mem_singleton.1 hr]
          exact Decidable.not_not.1 hv
  case updateRedeemed =>
    cases h
    refine keep _ (upd _ ?_)
    intro v
    split <;> rfl
  case updateDoubleSpent =>
    cases h
    refine keep _ (upd _ ?_)
    intro v
    split <;> rfl
  case deleteTokens =>
    cases h
    exact fun r hr => hk r (List.mem_filter.1 hr).1
  all_goals first
    | (cases h; exact hk)
    | (split at h <;> cases h; exact hk)

/-- A statement of a session against the tables it stands for. -/
theorem tracks_exec {s : Session} {t : Tables} (h : Tracks s t) (st : Stmt) :
    match exec st t, s.exec false (sqlOf st) with
    | .error e, .error f => e = f
    | .ok x, .ok s' => Tracks s' x.tables
    | _, _ => False := by
  have hf := follows h.main h.temp false (Or.inr h.foreign) st
  simp only [stmtExec, Bool.false_eq_true, if_false] at hf
  cases hx : exec st t with
  | error e =>
    rw [hx] at hf
    cases hr : s.exec false (sqlOf st) with
    | error f => rw [hr] at hf; exact hf
    | ok s' => rw [hr] at hf; exact hf.elim
  | ok x =>
    rw [hx] at hf
    cases hr : s.exec false (sqlOf st) with
    | error f => rw [hr] at hf; exact hf.elim
    | ok s' => rw [hr] at hf; exact ⟨hf.1, hf.2, exec_foreign h.foreign hx⟩

/-- The record of a mutation in SQL. -/
def sqlMutation (m : Mutation) : SqlMutation := ⟨m.important, m.stmts.map sqlOf⟩

/-- The two runs of a method record the same and end in the same way. -/
def Agree {α} (x : List Mutation × Except PyErr (α × Tables))
    (r : List SqlMutation × Except PyErr (α × Session)) : Prop :=
  r.1 = x.1.map sqlMutation ∧
  match x.2, r.2 with
  | .error e, .error f => e = f
  | .ok y, .ok z => y.1 = z.1 ∧ Tracks z.2 y.2
  | _, _ => False

theorem agree_done {α} (a : α) {s : Session} {t : Tables} (h : Tracks s t) :
    Agree ((Prog.done a).run t) ((SqlProg.done a).run s) := ⟨rfl, rfl, h⟩

theorem agree_raise {α} (e : PyErr) (s : Session) (t : Tables) :
    Agree ((Prog.raise e : Prog α).run t) ((SqlProg.raise e : SqlProg α).run s) := ⟨rfl, rfl⟩

theorem agree_query {α} {q : Select} {s : Session} {t : Tables} {rows : List Row}
    (hq : q.rows s = .ok rows) {k : Tables → Prog α} {k' : List Row → SqlProg α}
    (h : Agree ((k t).run t) ((k' rows).run s)) :
    Agree ((Prog.query k).run t) ((SqlProg.query q k').run s) := by
  simp only [Prog.run, SqlProg.run, hq]
  exact h

theorem agree_execute {α} {i : Bool} {st : Stmt} {q : StoreSql} {s : Session} {t : Tables} (h : Tracks s t)
    (hq : q = sqlOf st) {k : Nat → Nat → Prog α} {k' : Nat → Int → SqlProg α}
    (hk : ∀ x s', exec st t = .ok x → s.exec false q = .ok s' → Tracks s' x.tables →
      Agree ((k x.rowcount x.lastrowid).run x.tables)
        ((k' (s.rowcount s' q) (s'.lastrowid q.target)).run s')) :
    Agree ((Prog.execute i st k).run t) ((SqlProg.execute i q k').run s) := by
  subst hq
  have hf := tracks_exec h st
  simp only [Prog.run, SqlProg.run]
  cases hx : exec st t with
  | error e =>
    rw [hx] at hf
    cases hr : s.exec false (sqlOf st) with
    | error f => rw [hr] at hf; exact ⟨rfl, hf⟩
    | ok s' => rw [hr] at hf; exact hf.elim
  | ok x =>
    rw [hx] at hf
    cases hr : s.exec false (sqlOf st) with
    | error f => rw [hr] at hf; exact hf.elim
    | ok s' =>
      rw [hr] at hf
      have := hk x s' hx hr hf
      exact ⟨by rw [List.map_cons, ← this.1]; rfl, this.2⟩

theorem tracks_execMany {s : Session} {t : Tables} (h : Tracks s t) (sts : List Stmt) :
    match execMany sts t, Session.execMany false (sts.map sqlOf) s with
    | .error e, .error f => e = f
    | .ok t', .ok s' => Tracks s' t'
    | _, _ => False := by
  induction sts generalizing s t with
  | nil => exact h
  | cons st sts ih =>
    simp only [List.map_cons, execMany, Session.execMany]
    have hf := tracks_exec h st
    cases hx : exec st t with
    | error e =>
      rw [hx] at hf
      cases hr : s.exec false (sqlOf st) with
      | error f => rw [hr] at hf; exact hf
      | ok s' => rw [hr] at hf; exact hf.elim
    | ok x =>
      rw [hx] at hf
      cases hr : s.exec false (sqlOf st) with
      | error f => rw [hr] at hf; exact hf.elim
      | ok s' =>
        rw [hr] at hf
        exact ih hf

theorem agree_many {α} {i : Bool} {sts : List Stmt} {qs : List StoreSql} {s : Session} {t : Tables}
    (h : Tracks s t) (hq : qs = sts.map sqlOf) {k : Prog α} {k' : SqlProg α}
    (hk : ∀ t' s', Tracks s' t' → Agree (k.run t') (k'.run s')) :
    Agree ((Prog.executemany i sts k).run t) ((SqlProg.executemany i qs k').run s) := by
  subst hq
  have hf := tracks_execMany h sts
  simp only [Prog.run, SqlProg.run]
  cases hx : execMany sts t with
  | error e =>
    rw [hx] at hf
    cases hr : Session.execMany false (sts.map sqlOf) s with
    | error f => rw [hr] at hf; exact ⟨rfl, hf⟩
    | ok s' => rw [hr] at hf; exact hf.elim
  | ok t' =>
    rw [hx] at hf
    cases hr : Session.execMany false (sts.map sqlOf) s with
    | error f => rw [hr] at hf; exact hf.elim
    | ok s' =>
      rw [hr] at hf
      have := hk t' s' hf
      exact ⟨by rw [List.map_cons, ← this.1]; rfl, this.2⟩

/-- The result of a converted method. -/
theorem sql_run_map {α β} (f : α → β) (p : SqlProg α) (s : Session) :
    (p.map f).run s = ((p.run s).1, match (p.run s).2 with
      | .error e => .error e
      | .ok (a, s') => .ok (f a, s')) := by
  induction p generalizing s with
  | done a => rfl
  | raise e => rfl
  | query q k ih =>
    simp only [SqlProg.map, SqlProg.run]
    cases q.rows s with
    | error e => rfl
    | ok rows => exact ih rows s
  | execute i q k ih =>
    simp only [SqlProg.map, SqlProg.run]
    cases s.exec false q with
    | error e => rfl
    | ok s' => simp only [ih]
  | executemany i qs k ih =>
    simp only [SqlProg.map, SqlProg.run]
    cases Session.execMany false qs s with
    | error e => rfl
    | ok s' => simp only [ih]

/-! ### Queries -/

theorem find_tokens {s : Session} {t : Tables} (h : Tracks s t) :
    s.find "tokens" = some ⟨tokensNow, t.app.tokens.map tokenValues⟩ := by
  rw [session_find_main h.temp (not_temp (by simp))]; exact h.main.tokens

theorem find_unblinded {s : Session} {t : Tables} (h : Tracks s t) :
    s.find "unblinded-tokens" = some ⟨unblindedNow, t.app.unblinded.map unblindedValues⟩ := by
  rw [session_find_main h.temp (not_temp (by simp))]; exact h.main.unblinded

theorem find_groups {s : Session} {t : Tables} (h : Tracks s t) :
    s.find "redemption-groups" = some ⟨groupsNow, t.app.groups.map groupValues⟩ := by
  rw [session_find_main h.temp (not_temp (by simp))]; exact h.main.groups

theorem find_maint {s : Session} {t : Tables} (h : Tracks s t) :
    s.find "lease-maintenance-spending" = some ⟨maintNow, t.app.maint.map maintValues⟩ := by
  rw [session_find_main h.temp (not_temp (by simp))]; exact h.main.maint

theorem find_vouchers {s : Session} {t : Tables} (h : Tracks s t) : ∃ pk : String → Value,
    s.find "vouchers" = some ⟨vouchersNow, t.app.vouchers.map fun v => voucherValues (pk v.number) v⟩ := by
  rw [session_find_main h.temp (not_temp (by simp))]; exact h.main.vouchers

theorem nat_beq (a b : Nat) : ((a : Int) == (b : Int)) = (a == b) := by
  rw [Bool.eq_iff_iff]; simp; omega

theorem tokens_selects (v : String) (c : Nat) (r : TokenRow) :
    tokensNow.selects [("voucher", .text v), ("counter", .int c)] (tokenValues r) =
      (r.voucher == v && r.counter == c) := by
  show (_ && (Value.text r.voucher == Value.text v) &&
      (_ && (Value.int r.counter == Value.int c) && true)) = _
  rw [text_beq, int_beq, nat_beq]
  simp [text_ne_null, int_ne_null]

theorem vouchers_selects (n : String) (pk : Value) (v : VoucherRow) :
    vouchersNow.selects [("number", .text n)] (voucherValues pk v) = (v.number == n) := by
  show (_ && (Value.text v.number == Value.text n) && true) = _
  rw [text_beq]
  simp [text_ne_null]

theorem vouchers_selects_pending (n : String) (pk : Value) (v : VoucherRow) :
    vouchersNow.selects [("number", .text n), ("state", .text "pending")] (voucherValues pk v) =
      (v.number == n && v.state == "pending") := by
  show (_ && (Value.text v.number == Value.text n) &&
    (_ && (Value.text v.state == Value.text "pending") && true)) = _
  rw [text_beq, text_beq]
  simp [text_ne_null]

theorem rows_random_tokens {s : Session} {t : Tables} (h : Tracks s t) (v : String) (c : Nat) :
    (Select.columns ["text"] "tokens" [("voucher", .text v), ("counter", .int c)]).rows s =
      .ok ((select_random_tokens v c t).map fun x => [Value.text x]) := by
  have hh : (["text"].all (fun c => (tokensNow.index c).isSome) &&
    tokensNow.hasAll [("voucher", .text v), ("counter", .int c)]) = true := rfl
  simp only [Select.rows, find_tokens h, hh, Bool.not_true, Bool.false_eq_true, if_false]
  rw [filter_map_eq _ _ _ _ (tokens_selects v c), List.map_map]
  simp only [select_random_tokens, List.map_map]
  rfl

theorem all_texts_map (l : List String) : all_texts (l.map fun x => [Value.text x]) = .ok l := by
  induction l with
  | nil => rfl
  | cons x xs ih => simp only [List.map_cons, all_texts, one_text, ih]

theorem rows_counter {s : Session} {t : Tables} (h : Tracks s t) (v : String) :
    (Select.columns ["counter"] "vouchers" [("number", .text v)]).rows s =
      .ok (((t.app.vouchers.filter (·.number == v)).map (·.counter)).map fun (n : Nat) => [Value.int n]) := by
  obtain ⟨pk, hpk⟩ := find_vouchers h
  have hh : (["counter"].all (fun c => (vouchersNow.index c).isSome) &&
    vouchersNow.hasAll [("number", .text v)]) = true := rfl
  simp only [Select.rows, hpk, hh, Bool.not_true, Bool.false_eq_true, if_false]
  rw [filter_map_eq _ _ _ _ (fun w => vouchers_selects v (pk w.number) w), List.map_map, List.map_map]
  rfl

theorem rows_state {s : Session} {t : Tables} (h : Tracks s t) (v : String) :
    ∃ rows, (Select.columns ["state"] "vouchers" [("number", .text v)]).rows s = .ok rows := by
  obtain ⟨pk, hpk⟩ := find_vouchers h
  have hh : (["state"].all (fun c => (vouchersNow.index c).isSome) &&
    vouchersNow.hasAll [("number", .text v)]) = true := rfl
  simp only [Select.rows, hpk, hh, Bool.not_true, Bool.false_eq_true, if_false]
  exact ⟨_, rfl⟩

theorem isNotIn_texts (x : String) (l : List String) :
    (Value.text x).isNotIn (l.map fun y => Value.text y) = decide (x ∉ l) := by
  have h := contains_map_text l id x
  rw [List.map_id] at h
  have h' : (l.map fun y => Value.text y).contains (.text x) = decide (x ∈ l) := h
  have hn : (l.map fun y => Value.text y).contains .null = false := by
    rw [Bool.eq_false_iff]
    intro hc
    rw [List.contains_iff_mem, List.mem_map] at hc
    obtain ⟨y, _, hy⟩ := hc
    exact nomatch hy
  simp only [Value.isNotIn, h', hn, text_ne_null]
  cases l with
  | nil => simp
  | cons y ys => simp

theorem rows_available {s : Session} {t : Tables} (h : Tracks s t) :
    available_query.rows s = .ok ((select_available t).map fun x => [Value.text x]) := by
  have hh : (["token", "redemption-group"].all (fun c => (unblindedNow.index c).isSome) &&
    ["rowid", "spendable"].all (fun c => (groupsNow.index c).isSome)) = true := rfl
  simp only [available_query, Select.rows, find_unblinded h, find_groups h, values_in_use h.temp, hh,
    Bool.not_true, Bool.false_eq_true, if_false]
  congr 1
  have h1 : ((t.app.unblinded.map unblindedValues).flatMap fun row =>
      ((t.app.groups.map groupValues).filter fun group =>
          unblindedNow.get row "redemption-group" != .null &&
          unblindedNow.get row "redemption-group" == groupsNow.get group "rowid" &&
          groupsNow.get group "spendable" != .null && groupsNow.get group "spendable" == .int 1).map fun _ =>
            [unblindedNow.get row "token"]) =
      (t.app.unblinded.flatMap fun r =>
        (t.app.groups.filter (fun g => r.group == g.rowid && g.spendable)).map fun _ => r.token).map
          fun x => [Value.text x] := by
    rw [List.flatMap_map, List.map_flatMap]
    congr 1
    funext r
    rw [filter_map_eq (q := fun g => r.group == g.rowid && g.spendable), List.map_map, List.map_map]
    · rfl
    · intro g
      show ((Value.int r.group != .null) && (Value.int r.group == Value.int g.rowid) &&
        (Value.int (if g.spendable then 1 else 0) != .null) &&
        (Value.int (if g.spendable then 1 else 0) == Value.int 1)) = _
      rw [int_beq, nat_beq, int_beq]
      cases g.spendable <;> simp [int_ne_null]
  rw [h1]
  refine filter_map_eq _ _ _ _ ?_
  intro x
  exact isNotIn_texts x t.temp.in_use

/-! ### What statements report -/

theorem rowcount_redeemed {s : Session} {t : Tables} (h : Tracks s t) (s' : Session) (sets : Dict String SetTo)
    (number : String) :
    s.rowcount s' (.set "vouchers" sets [("number", .text number)]) =
      t.app.vouchers.countP (·.number == number) := by
  obtain ⟨pk, hpk⟩ := find_vouchers h
  simp only [Session.rowcount, hpk, List.countP_map]
  congr 1
  funext v
  exact vouchers_selects number (pk v.number) v

theorem rowcount_doubleSpent {s : Session} {t : Tables} (h : Tracks s t) (s' : Session)
    (sets : Dict String SetTo) (number : String) :
    s.rowcount s' (.set "vouchers" sets [("number", .text number), ("state", .text "pending")]) =
      t.app.vouchers.countP (fun v => v.number == number && v.state == "pending") := by
  obtain ⟨pk, hpk⟩ := find_vouchers h
  simp only [Session.rowcount, hpk, List.countP_map]
  congr 1
  funext v
  exact vouchers_selects_pending number (pk v.number) v

theorem lastrowid_group {s : Session} {t : Tables} (h : Tracks s t) {g : GroupRow} {l : List GroupRow}
    (hg : t.app.groups = l ++ [g]) : s.lastrowid "redemption-groups" = (g.rowid : Nat) := by
  simp only [Session.lastrowid, find_groups h, hg, List.map_append, List.map_cons, List.map_nil,
    List.getLast?_append, List.getLast?_singleton, Option.some_or]
  rfl

theorem lastrowid_maint {s : Session} {t : Tables} (h : Tracks s t) {g : MaintRow} {l : List MaintRow}
    (hg : t.app.maint = l ++ [g]) : s.lastrowid "lease-maintenance-spending" = (g.id : Nat) := by
  simp only [Session.lastrowid, find_maint h, hg, List.map_append, List.map_cons, List.map_nil,
    List.getLast?_append, List.getLast?_singleton, Option.some_or]
  rfl

/-! ### Methods -/

theorem agree_map {α β} (f : α → β) {p : Prog α} {q : SqlProg α} {s : Session} {t : Tables}
    (h : Agree (p.run t) (q.run s)) : Agree ((p.map f).run t) ((q.map f).run s) := by
  rw [map_run, sql_run_map]
  refine ⟨h.1, ?_⟩
  have h2 := h.2
  cases hx : (p.run t).2 with
  | error e =>
    rw [hx] at h2
    cases hr : (q.run s).2 with
    | error e' => rw [hr] at h2; exact h2
    | ok z => rw [hr] at h2; exact h2.elim
  | ok y =>
    rw [hx] at h2
    cases hr : (q.run s).2 with
    | error e' => rw [hr] at h2; exact h2.elim
    | ok z =>
      rw [hr] at h2
      exact ⟨congrArg f h2.1, h2.2⟩

theorem agree_add {s : Session} {t : Tables} (h : Tracks s t) (o : Order) (now v : String) (e c : Nat)
    (ts : Except PyErr (List String)) :
    Agree ((store_add o now v e c ts).run t) ((sql_add o now v e c ts).run s) := by
  refine agree_query (rows_random_tokens h v c) ?_
  have hl : (o.f (select_random_tokens v c t)).length =
      ((select_random_tokens v c t).map fun x => [Value.text x]).length := by
    rw [List.length_map]; exact (o.perm _).length_eq
  by_cases hp : (o.f (select_random_tokens v c t)).length > 0
  · simp only [if_pos hp]
    rw [hl] at hp
    simp only [if_pos hp, all_texts_map]
    exact agree_done _ h
  · simp only [if_neg hp]
    rw [hl] at hp
    simp only [if_neg hp]
    cases ts with
    | error e => exact agree_raise _ _ _
    | ok ts =>
      refine agree_execute h rfl ?_
      intro x s' _ _ h'
      refine agree_many h' ?_ fun t' s' h' => agree_done _ h'
      rw [List.map_map]
      rfl

theorem agree_insert {s : Session} {t : Tables} (h : Tracks s t) (now v pk : String) (ts : List String)
    (c sp : Bool) :
    Agree ((store_insert_unblinded now v pk ts c sp).run t) ((sql_insert_unblinded now v pk ts c sp).run s) := by
  refine agree_execute h rfl ?_
  intro x s1 hx _ h1
  simp only [exec] at hx
  cases hx
  have hid : s1.lastrowid (sqlOf (.insertGroup v pk sp)).target =
      (nextRowid (t.app.groups.map (·.rowid)) : Nat) := lastrowid_group h1 rfl
  rw [hid]
  refine agree_execute h1 (by cases sp <;> cases c <;> rfl) ?_
  intro x s2 hx _ h2
  simp only [exec] at hx
  cases hx
  simp only [rowcount_redeemed h1]
  split
  · exact agree_raise _ _ _
  · refine agree_query (rows_counter h2 v) ?_
    split
    · rename_i hnil
      rw [hnil]
      exact agree_raise _ _ _
    · rename_i n ns hcons
      rw [hcons]
      simp only [List.map_cons]
      have hpos : 1 ≤ n := by
        have hm : n ∈ n :: ns := List.mem_cons_self
        rw [← hcons] at hm
        obtain ⟨w, hw, rfl⟩ := List.mem_map.1 hm
        obtain ⟨hw, hwn⟩ := List.mem_filter.1 hw
        obtain ⟨u, _, rfl⟩ := List.mem_map.1 hw
        by_cases hu : u.number == v
        · simp only [if_pos hu]; omega
        · simp only [if_neg hu] at hwn
          exact absurd hwn hu
      refine agree_many h2 (by rw [List.map_map]; rfl) ?_
      intro t' s' h'
      refine agree_execute h' (st := .deleteTokens v (n - 1)) ?_ fun _ _ _ _ h' => agree_done _ h'
      have : (n : Int) - 1 = ((n - 1 : Nat) : Int) := by omega
      rw [this]
      rfl

theorem agree_doubleSpent {s : Session} {t : Tables} (h : Tracks s t) (now v : String) :
    Agree ((store_mark_double_spent now v).run t) ((sql_mark_double_spent now v).run s) := by
  refine agree_execute h rfl ?_
  intro x s1 hx _ h1
  simp only [exec] at hx
  cases hx
  have hc : s.rowcount s1 (sqlOf (.updateDoubleSpent now v)) =
      t.app.vouchers.countP (fun w => w.number == v && w.state == "pending") := rowcount_doubleSpent h s1 _ v
  rw [hc]
  simp only
  split
  · rename_i h0
    obtain ⟨rows, hr⟩ := rows_state h1 v
    simp only [SqlProg.run, hr]
    exact ⟨rfl, rfl⟩
  · exact agree_done _ h1

theorem agree_getTokens {s : Session} {t : Tables} (h : Tracks s t) (o : Order) (n : Int) :
    Agree ((store_get_unblinded_tokens o n).run t) ((sql_get_unblinded_tokens o n).run s) := by
  unfold store_get_unblinded_tokens sql_get_unblinded_tokens
  split
  · exact agree_raise _ _ _
  · refine agree_query (rows_available h) ?_
    simp only [all_texts_map]
    split
    · exact agree_raise _ _ _
    · exact agree_many h (by rw [List.map_map]; rfl) fun _ _ h' => agree_done _ h'

theorem agree_discard {s : Session} {t : Tables} (h : Tracks s t) (ts : List String) :
    Agree ((store_discard ts).run t) ((sql_discard ts).run s) :=
  agree_many h (by rw [List.map_map]; rfl) fun _ _ h =>
    agree_execute h rfl fun _ _ _ _ h => agree_execute h rfl fun _ _ _ _ h =>
      agree_execute h rfl fun _ _ _ _ h => agree_done _ h

theorem agree_invalidate {s : Session} {t : Tables} (h : Tracks s t) (r : String) (ts : List String) :
    Agree ((store_invalidate r ts).run t) ((sql_invalidate r ts).run s) :=
  agree_many h (by rw [List.map_map]; rfl) fun _ _ h =>
    agree_execute h rfl fun _ _ _ _ h => agree_execute h rfl fun _ _ _ _ h => agree_done _ h

theorem agree_reset {s : Session} {t : Tables} (h : Tracks s t) (ts : List String) :
    Agree ((store_reset ts).run t) ((sql_reset ts).run s) :=
  agree_many h (by rw [List.map_map]; rfl) fun _ _ h =>
    agree_execute h rfl fun _ _ _ _ h => agree_execute h rfl fun _ _ _ _ h => agree_done _ h

theorem agree_maintStart {s : Session} {t : Tables} (h : Tracks s t) (now : String) (m : LeaseMaintenance) :
    Agree ((maint_start now m).run t) ((sql_maint_start now m).run s) := by
  obtain ⟨_ | n⟩ := m
  · refine agree_execute h rfl ?_
    intro x s1 hx _ h1
    simp only [exec] at hx
    cases hx
    have hid : s1.lastrowid (sqlOf (.insertMaint now)).target =
        (nextRowid (t.app.maint.map (·.id)) : Nat) := lastrowid_maint h1 rfl
    rw [hid]
    exact agree_done _ h1
  · exact agree_raise _ _ _

theorem rowidValue_eq (m : LeaseMaintenance) : rowidValue m = optNat m.rowid := by
  obtain ⟨_ | n⟩ := m <;> rfl

theorem agree_maintObserve {s : Session} {t : Tables} (h : Tracks s t) (pv : Int) (sizes : List Int)
    (m : LeaseMaintenance) :
    Agree ((maint_observe pv sizes m).run t) ((sql_maint_observe pv sizes m).run s) := by
  unfold maint_observe sql_maint_observe
  cases required_passesE pv sizes with
  | error e => exact agree_raise _ _ _
  | ok count => exact agree_execute h (by rw [rowidValue_eq]; rfl) fun _ _ _ _ h => agree_done _ h

theorem agree_maintFinish {s : Session} {t : Tables} (h : Tracks s t) (now : String) (m : LeaseMaintenance) :
    Agree ((maint_finish now m).run t) ((sql_maint_finish now m).run s) :=
  agree_execute h (by rw [rowidValue_eq]; rfl) fun _ _ _ _ h => agree_done _ h

theorem agree_op {s : Session} {t : Tables} (h : Tracks s t) (op : StoreOp) :
    Agree (op.prog.run t) (op.sqlProg.run s) := by
  cases op with
  | add o now v e c ts => exact agree_map _ (agree_add h o now v e c ts)
  | insert now v pk ts c sp => exact agree_map _ (agree_insert h now v pk ts c sp)
  | doubleSpent now v => exact agree_map _ (agree_doubleSpent h now v)
  | getTokens o n => exact agree_map _ (agree_getTokens h o n)
  | discard ts => exact agree_map _ (agree_discard h ts)
  | invalidate r ts => exact agree_map _ (agree_invalidate h r ts)
  | reset ts => exact agree_map _ (agree_reset h ts)
  | maintStart now m => exact agree_map _ (agree_maintStart h now m)
  | maintObserve pv sizes m => exact agree_map _ (agree_maintObserve h pv sizes m)
  | maintFinish now m => exact agree_map _ (agree_maintFinish h now m)
  | restart => exact agree_done _ h

theorem agree_transact {α} {p : Prog α} {q : SqlProg α} {s : Session} {t : Tables} (h : Tracks s t)
    (ha : Agree (p.run t) (q.run s)) :
    (q.transact s).1 = (transact p t).1 ∧ Tracks (q.transact s).2 (transact p t).2 := by
  have h2 := ha.2
  unfold transact SqlProg.transact
  cases hx : (p.run t).2 with
  | error e =>
    rw [hx] at h2
    cases hr : (q.run s).2 with
    | error e' => rw [hr] at h2; cases h2; exact ⟨rfl, h⟩
    | ok z => rw [hr] at h2; exact h2.elim
  | ok y =>
    rw [hx] at h2
    cases hr : (q.run s).2 with
    | error e' => rw [hr] at h2; exact h2.elim
    | ok z =>
      rw [hr] at h2
      obtain ⟨a, t'⟩ := y
      obtain ⟨b, s'⟩ := z
      exact ⟨by rw [show a = b from h2.1], h2.2⟩

theorem tracks_opened {db : Database} {a : App} (h : Finds db a) (hk : ForeignKeys a) :
    Tracks (Session.opened db) ⟨a, {}⟩ :=
  ⟨h, ⟨rfl, rfl, rfl, rfl⟩, hk⟩

theorem tracks_step {s : Session} {t : Tables} (h : Tracks s t) (op : StoreOp) :
    (op.sqlStep s).1 = (op.step t).1 ∧ Tracks (op.sqlStep s).2 (op.step t).2 := by
  have ha := agree_transact h (agree_op h op)
  cases op with
  | restart => exact ⟨rfl, tracks_opened h.main h.foreign⟩
  | _ => exact ha

theorem tracks_run {s : Session} {t : Tables} (h : Tracks s t) (ops : List StoreOp) :
    (runSql ops s).1 = answers ops t ∧ Tracks (runSql ops s).2 (runStore ops t) := by
  induction ops generalizing s t with
  | nil => exact ⟨rfl, h⟩
  | cons op ops ih =>
    have hs := tracks_step h op
    have hi := ih hs.2
    simp only [runSql, answers, runStore]
    exact ⟨by rw [hs.1, ← hi.1], hi.2⟩

/-! ### Reading methods -/

theorem filter_all {α} (l : List α) : l.filter (fun _ => true) = l := List.filter_eq_self.2 fun _ _ => rfl

theorem from_columns_eq {τ} (parse : String → Except PyErr τ) (pk : Value) (v : VoucherRow) :
    Voucher.from_columns parse (voucher_columns.map (vouchersNow.get (voucherValues pk v))) =
      Voucher.from_row parse v := by
  have hcols : voucher_columns.map (vouchersNow.get (voucherValues pk v)) =
      [.text v.number, .text v.created, .int v.expected_tokens, .text v.state, optText v.finished,
        optNat v.token_count, pk, .int v.counter] := rfl
  rw [hcols]
  have hst : state_from_columns parse v.state [optText v.finished, optNat v.token_count, pk, .int v.counter] =
      state_from_row parse v := by
    simp only [state_from_columns, state_from_row]
    obtain ⟨n, cr, st, fin, tc, k, ex, sq⟩ := v
    cases fin <;> cases tc <;> rfl
  simp only [Voucher.from_columns, Voucher.from_row, hst]
  rfl

theorem rows_vouchers {s : Session} {t : Tables} (h : Tracks s t) : ∃ pk : String → Value,
    (Select.columns voucher_columns "vouchers" []).rows s =
      .ok (t.app.vouchers.map fun v => voucher_columns.map (vouchersNow.get (voucherValues (pk v.number) v))) := by
  obtain ⟨pk, hpk⟩ := find_vouchers h
  refine ⟨pk, ?_⟩
  have hh : (voucher_columns.all (fun c => (vouchersNow.index c).isSome) && vouchersNow.hasAll []) = true := rfl
  simp only [Select.rows, hpk, hh, Bool.not_true, Bool.false_eq_true, if_false]
  rw [filter_map_eq (q := fun _ => true) _ _ _ (fun w => rfl), filter_all, List.map_map]
  rfl

theorem rows_voucher {s : Session} {t : Tables} (h : Tracks s t) (n : String) : ∃ pk : String → Value,
    (Select.columns voucher_columns "vouchers" [("number", .text n)]).rows s =
      .ok ((t.app.vouchers.filter (·.number == n)).map fun v =>
        voucher_columns.map (vouchersNow.get (voucherValues (pk v.number) v))) := by
  obtain ⟨pk, hpk⟩ := find_vouchers h
  refine ⟨pk, ?_⟩
  have hh : (voucher_columns.all (fun c => (vouchersNow.index c).isSome) &&
    vouchersNow.hasAll [("number", .text n)]) = true := rfl
  simp only [Select.rows, hpk, hh, Bool.not_true, Bool.false_eq_true, if_false]
  rw [filter_map_eq _ _ _ _ (fun w => vouchers_selects n (pk w.number) w), List.map_map]
  rfl

theorem sql_get_eq {τ} (parse : String → Except PyErr τ) {s : Session} {t : Tables} (h : Tracks s t)
    (n : String) : ((sql_get parse n).transact s).1 =
      match (transact (store_get n) t).1 with
      | .error e => .error e
      | .ok r => Voucher.from_row parse r := by
  obtain ⟨pk, hr⟩ := rows_voucher h n
  simp only [SqlProg.transact, sql_get, SqlProg.run, hr, transact, store_get, Prog.run]
  cases t.app.vouchers.filter (·.number == n) with
  | nil => rfl
  | cons v vs =>
    simp only [List.map_cons, from_columns_eq]
    cases hv : Voucher.from_row parse v <;> simp only [SqlProg.run, Prog.run, hv]

theorem all_from_columns_eq {τ} (parse : String → Except PyErr τ) (pk : String → Value) (vs : List VoucherRow) :
    all_from_columns parse (vs.map fun v => voucher_columns.map (vouchersNow.get (voucherValues (pk v.number) v))) =
      allFromRow parse vs := by
  induction vs with
  | nil => rfl
  | cons v vs ih =>
    simp only [List.map_cons, all_from_columns, allFromRow, from_columns_eq, ih]
    cases Voucher.from_row parse v with
    | error e => rfl
    | ok w => cases allFromRow parse vs <;> rfl

theorem sql_list_eq {τ} (parse : String → Except PyErr τ) {s : Session} {t : Tables} (h : Tracks s t) :
    ((sql_list parse).transact s).1 = allFromRow parse t.app.vouchers := by
  obtain ⟨pk, hr⟩ := rows_vouchers h
  simp only [SqlProg.transact, sql_list, SqlProg.run, hr, all_from_columns_eq]
  cases allFromRow parse t.app.vouchers <;> rfl

theorem sql_count_random_eq {s : Session} {t : Tables} (h : Tracks s t) :
    (sql_count_random_tokens.transact s).1 = .ok t.app.tokens.length := by
  have hh : (([] : List String).all (fun c => (tokensNow.index c).isSome) && tokensNow.hasAll []) = true := rfl
  simp only [SqlProg.transact, sql_count_random_tokens, SqlProg.run, Select.rows, find_tokens h, hh,
    Bool.not_true, Bool.false_eq_true, if_false]
  rw [filter_map_eq (q := fun _ => true) _ _ _ (fun w => rfl), filter_all, List.length_map,
    List.length_map]
  rfl

theorem sql_count_unblinded_eq {s : Session} {t : Tables} (h : Tracks s t) :
    (sql_count_unblinded_tokens.transact s).1 = .ok (select_available t).length := by
  simp only [SqlProg.transact, sql_count_unblinded_tokens, SqlProg.run, Select.rows, rows_available h,
    List.length_map]
  rfl

theorem lastBy_eq (l : List MaintRow) :
    lastBy maintNow "finished" ((l.map maintValues).filter fun row => maintNow.get row "finished" != .null) =
      (latest_by_finished (finished_rows l)).map maintValues ∧
    ∀ r, latest_by_finished (finished_rows l) = some r → ∃ f, r.finished = some f := by
  induction l with
  | nil => exact ⟨rfl, fun r h => nomatch h⟩
  | cons r l ih =>
    obtain ⟨id, started, fin, count⟩ := r
    cases fin with
    | none => exact ih
    | some f =>
      have hf : ((MaintRow.mk id started (some f) count :: l).map maintValues).filter
          (fun row => maintNow.get row "finished" != .null) = maintValues ⟨id, started, some f, count⟩ ::
          ((l.map maintValues).filter fun row => maintNow.get row "finished" != .null) := rfl
      have hg : finished_rows (⟨id, started, some f, count⟩ :: l) =
          (f, ⟨id, started, some f, count⟩) :: finished_rows l := rfl
      rw [hf, hg]
      simp only [lastBy, latest_by_finished]
      rw [ih.1]
      cases hl : latest_by_finished (finished_rows l) with
      | none =>
        refine ⟨rfl, ?_⟩
        intro r hr
        cases hr
        exact ⟨f, rfl⟩
      | some r' =>
        obtain ⟨f', hf'⟩ := ih.2 r' hl
        simp only [Option.map_some]
        have hb : (maintNow.get (maintValues ⟨id, started, some f, count⟩) "finished").before
            (maintNow.get (maintValues r') "finished") = decide (r'.finished.getD "" > f) := by
          obtain ⟨a, b, c, d⟩ := r'
          simp only at hf'
          subst hf'
          rfl
        rw [hb]
        split
        · exact ⟨rfl, fun r hr => by cases hr; exact ⟨f', hf'⟩⟩
        · exact ⟨rfl, fun r hr => by cases hr; exact ⟨f, rfl⟩⟩

theorem sql_latest_eq {s : Session} {t : Tables} (h : Tracks s t) :
    (sql_latest_activity.transact s).1 = (transact store_latest_activity t).1 := by
  have hh : ("finished" :: ["started", "count", "finished"]).all (fun c => (maintNow.index c).isSome) = true := rfl
  obtain ⟨h1, h2⟩ := lastBy_eq t.app.maint
  simp only [SqlProg.transact, sql_latest_activity, SqlProg.run, Select.rows, find_maint h, hh,
    Bool.not_true, Bool.false_eq_true, if_false, h1, transact, store_latest_activity, Prog.run]
  cases hl : latest_by_finished (finished_rows t.app.maint) with
  | none => rfl
  | some r =>
    obtain ⟨f, hf⟩ := h2 r hl
    obtain ⟨a, b, c, d⟩ := r
    simp only at hf
    subst hf
    rfl

/-! ### Errors -/

theorem exec_error {st : Stmt} {t : Tables} {e : PyErr} (h : exec st t = .error e) : e = .integrityError := by
  cases st <;> simp only [exec] at h
  all_goals first
    | cases h
    | (split at h <;> first
      | (cases h; done)
      | (cases h; rfl)
      | (split at h <;> first | (cases h; done) | (cases h; rfl)))

theorem execMany_error {sts : List Stmt} {t : Tables} {e : PyErr} (h : execMany sts t = .error e) :
    e = .integrityError := by
  induction sts generalizing t with
  | nil => exact nomatch h
  | cons st sts ih =>
    simp only [execMany] at h
    cases hx : exec st t with
    | error f => rw [hx] at h; injection h with h; subst h; exact exec_error hx
    | ok x => rw [hx] at h; exact ih h

/-- The errors that a method raises itself. -/
inductive Raises {α : Type} : Prog α → PyErr → Prop
  | raise {e : PyErr} : Raises (.raise e) e
  | query {k : Tables → Prog α} {t : Tables} {e : PyErr} : Raises (k t) e → Raises (.query k) e
  | execute {i : Bool} {st : Stmt} {k : Nat → Nat → Prog α} {r l : Nat} {e : PyErr} :
      Raises (k r l) e → Raises (.execute i st k) e
  | executemany {i : Bool} {sts : List Stmt} {k : Prog α} {e : PyErr} :
      Raises k e → Raises (.executemany i sts k) e

theorem raises_map {α β : Type} {f : α → β} {p : Prog α} {e : PyErr} (h : Raises (p.map f) e) : Raises p e := by
  induction p with
  | done a => cases h
  | raise g => cases h; exact .raise
  | query k ih => cases h with | query h => exact .query (ih _ h)
  | execute i st k ih => cases h with | execute h => exact .execute (ih _ _ h)
  | executemany i sts k ih => cases h with | executemany h => exact .executemany (ih h)

theorem run_error {α} {p : Prog α} {t : Tables} {e : PyErr} (h : (p.run t).2 = .error e) :
    e = .integrityError ∨ Raises p e := by
  induction p generalizing t with
  | done a => exact nomatch h
  | raise f => injection h with h; subst h; exact Or.inr .raise
  | query k ih => exact (ih t h).imp_right .query
  | execute i st k ih =>
    simp only [Prog.run] at h
    cases hx : exec st t with
    | error f => rw [hx] at h; injection h with h; subst h; exact Or.inl (exec_error hx)
    | ok x => rw [hx] at h; exact (ih _ _ h).imp_right .execute
  | executemany i sts k ih =>
    simp only [Prog.run] at h
    cases hx : execMany sts t with
    | error f => rw [hx] at h; injection h with h; subst h; exact Or.inl (execMany_error hx)
    | ok x => rw [hx] at h; exact (ih h).imp_right .executemany

theorem raises_op {op : StoreOp} (ho : makesTokensOutside op) (h : Raises op.prog .operationalError) : False := by
  cases op with
  | add o now v e c ts =>
    have := raises_map h
    cases this with
    | query h =>
      rename_i t
      simp only at h
      split at h
      · cases h
      · cases ts with
        | error f => cases h; exact ho rfl
        | ok ts => cases h with | execute h => cases h with | executemany h => cases h
  | insert now v pk ts c sp =>
    have := raises_map h
    cases this with
    | execute h =>
      cases h with
      | execute h =>
        simp only at h
        split at h
        · cases h
        · cases h with
          | query h =>
            simp only at h
            split at h
            · cases h
            · cases h with | executemany h => cases h with | execute h => cases h
  | doubleSpent now v =>
    have := raises_map h
    cases this with
    | execute h =>
      simp only at h
      split at h <;> cases h
  | getTokens o n =>
    have := raises_map h
    unfold store_get_unblinded_tokens at this
    split at this
    · cases this
    · cases this with
      | query h =>
        simp only at h
        split at h
        · cases h
        · cases h with | executemany h => cases h
  | discard ts =>
    have := raises_map h
    cases this with
    | executemany h =>
      cases h with | execute h => cases h with | execute h => cases h with | execute h => cases h
  | invalidate r ts =>
    have := raises_map h
    cases this with
    | executemany h => cases h with | execute h => cases h with | execute h => cases h
  | reset ts =>
    have := raises_map h
    cases this with
    | executemany h => cases h with | execute h => cases h with | execute h => cases h
  | maintStart now m =>
    have := raises_map h
    unfold maint_start at this
    split at this
    · cases this
    · cases this with | execute h => cases h
  | maintObserve pv sizes m =>
    have := raises_map h
    unfold maint_observe at this
    split at this
    · rename_i e he
      have hz : ∀ l : List Int, required_passesE pv l ≠ .error .operationalError := by
        intro l
        induction l with
        | nil => exact fun h => nomatch h
        | cons x xs ih =>
          unfold required_passesE
          split
          · exact fun h => nomatch h
          · cases hx : required_passesE pv xs with
            | error f =>
              rw [hx] at ih
              exact fun h => ih h
            | ok n => exact fun h => nomatch h
      cases this
      exact hz sizes he
    · cases this with | execute h => cases h
  | maintFinish now m =>
    have := raises_map h
    cases this with | execute h => cases h
  | restart => cases h

end ZKAP
