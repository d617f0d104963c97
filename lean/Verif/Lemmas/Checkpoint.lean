import Verif.Spec.Checkpoint
import Verif.Lemmas.StoreHistory

/-! The order in which tokens are handed out. -/
namespace ZKAP
open Spec

theorem unspent_eq {t : Tables} (h : StoreWF t) : unspent t = select_available t := by
  unfold unspent
  rw [step_getTokens h]
  have e : sql_limit (-1) (Order.natural.f (select_available t)) = select_available t := rfl
  rw [e, if_neg (by
    intro hc
    rcases hc with hc | hc
    · exact absurd hc (by decide)
    · omega)]

theorem flatMap_one {α} (l : List UnblindedRow) (f : UnblindedRow → List α) (p : UnblindedRow → Bool) :
    (l.filter p).flatMap f = l.flatMap (fun r => if p r then f r else []) := by
  induction l with
  | nil => rfl
  | cons r l ih =>
    rw [List.flatMap_cons, List.filter_cons]
    split
    · rw [List.flatMap_cons, ih]
    · rw [ih]; rfl

theorem flatMap_same {α β} {l : List α} {f g : α → List β} (h : ∀ x ∈ l, f x = g x) :
    l.flatMap f = l.flatMap g := by
  induction l with
  | nil => rfl
  | cons a l ih =>
    rw [List.flatMap_cons, List.flatMap_cons, h a (by simp), ih fun x hx => h x (by simp [hx])]

/-- Storing a redeemed group adds its tokens, if they may be spent, after all others. -/
theorem available_inserted {t : Tables} (h : StoreWF t) (hu : t.temp.in_use = []) (now v pk : String)
    (ts : List String) (c s : Bool) :
    select_available (inserted now v pk ts c s t) = select_available t ++ if s then ts else [] := by
  have hfresh := nextRowid_fresh (t.app.groups.map (·.rowid))
  unfold select_available inserted
  dsimp only
  rw [hu]
  have hall : ∀ l : List String, l.filter (· ∉ ([] : List String)) = l := by
    intro l; rw [List.filter_eq_self]; intro x _; simp
  rw [hall, hall, List.flatMap_append]
  congr 1
  · apply flatMap_same
    intro r hr
    obtain ⟨g, hg, e⟩ := h.grp r hr
    rw [List.filter_append, List.map_append]
    have : (r.group == nextRowid (t.app.groups.map (·.rowid))) = false := by
      apply beq_eq_false_iff_ne.mpr
      intro e'
      apply hfresh
      rw [← e', ← e]
      exact List.mem_map.mpr ⟨g, hg, rfl⟩
    simp [this]
  · have hold : ∀ r : UnblindedRow, r.group = nextRowid (t.app.groups.map (·.rowid)) →
        t.app.groups.filter (fun g => r.group == g.rowid && g.spendable) = [] := by
      intro r e
      rw [List.filter_eq_nil_iff]
      intro g hg hc
      simp only [Bool.and_eq_true, beq_iff_eq] at hc
      apply hfresh
      rw [← e, hc.1]
      exact List.mem_map.mpr ⟨g, hg, rfl⟩
    rw [List.flatMap_map]
    rw [flatMap_same (g := fun x => if s then [x] else []) (by
      intro x _
      rw [List.filter_append, hold ⟨x, nextRowid (t.app.groups.map (·.rowid))⟩ rfl]
      cases s <;> simp)]
    cases s <;> simp

/-- Neutral calls do not change what can be spent. -/
theorem available_same {t t' : Tables} (h : SameTokens t t') : select_available t' = select_available t := by
  unfold select_available
  rw [h.1, h.2.1, h.2.2.2]

theorem available_discard (t : Tables) (ts us : List String) :
    select_available { app := { t.app with unblinded := t.app.unblinded.filter (·.token ∉ ts) },
                       temp := { t.temp with in_use := us } }
      = (select_available { t with temp := { t.temp with in_use := us } }).filter (· ∉ ts) := by
  unfold select_available
  dsimp only
  rw [flatMap_one, List.filter_filter]
  rw [show (fun x => decide (x ∉ ts) && decide (x ∉ us)) = (fun x => decide (x ∉ us) && decide (x ∉ ts)) from
    funext fun x => Bool.and_comm _ _]
  rw [← List.filter_filter]
  congr 1
  induction t.app.unblinded with
  | nil => rfl
  | cons r l ih =>
    rw [List.flatMap_cons, List.flatMap_cons, List.filter_append, ← ih]
    congr 1
    generalize t.app.groups.filter (fun g => r.group == g.rowid && g.spendable) = gs
    by_cases hr : r.token ∈ ts
    · simp [hr]
    · rw [if_pos (by simp [hr])]
      symm
      rw [List.filter_eq_self]
      intro x hx
      obtain ⟨_, _, rfl⟩ := List.mem_map.mp hx
      simp [hr]

theorem available_free (t : Tables) (hu : t.temp.in_use = []) :
    select_available { t with temp := { t.temp with in_use := [] } } = select_available t := by
  unfold select_available
  dsimp only
  rw [hu]

/-- One storage operation takes tokens from the front. -/
theorem use_call {t : Tables} (h : StoreWF t) (hu : t.temp.in_use = []) (n : Int) (k : Nat) :
    (runStore ((Use.call n k).ops t) t).temp.in_use = [] ∧
    ∃ spent, select_available t = spent ++ select_available (runStore ((Use.call n k).ops t) t) := by
  unfold Use.ops
  dsimp only
  rw [step_getTokens h]
  by_cases hc : n > SQLITE3_INTEGER_MAX ∨ ((sql_limit n (Order.natural.f (select_available t))).length : Int) < n
  · rw [if_pos hc]
    dsimp only
    have e : runStore [StoreOp.getTokens .natural n] t = t := by
      unfold runStore
      rw [step_getTokens h, if_pos hc]
      rfl
    rw [e]
    exact ⟨hu, [], rfl⟩
  · rw [if_neg hc]
    dsimp only
    obtain ⟨ts, rest, hts, hav⟩ : ∃ ts rest, sql_limit n (Order.natural.f (select_available t)) = ts ∧
        select_available t = ts ++ rest := by
      unfold sql_limit
      split
      · exact ⟨_, [], rfl, by simp [Order.natural]⟩
      · exact ⟨_, (select_available t).drop n.toNat, rfl, by simp [Order.natural]⟩
    have hnd : (ts ++ rest).Nodup := hav ▸ nodup_select_available h
    rw [hts]
    have e1 : (StoreOp.getTokens .natural n).step t = (.ok (.tokens ts),
        { t with temp := { t.temp with in_use := ts } }) := by
      rw [step_getTokens h, if_neg hc, hts, hu]
      rfl
    have w1 := step_wf_store h (.getTokens .natural n)
    have w2 := step_wf_store w1 (.discard (ts.take k))
    have hdrop : ts.filter (fun x => x ∉ ts.take k) = ts.drop k := by
      have hn := (List.nodup_append.mp hnd).1
      have hd := List.nodup_append.mp ((List.take_append_drop k ts).symm ▸ hn)
      calc ts.filter (fun x => x ∉ ts.take k)
          = (ts.take k ++ ts.drop k).filter (fun x => x ∉ ts.take k) := by rw [List.take_append_drop]
        _ = ts.drop k := by
          rw [List.filter_append]
          have a : (ts.take k).filter (fun x => x ∉ ts.take k) = [] := by
            rw [List.filter_eq_nil_iff]; intro x hx; simp [hx]
          have b : (ts.drop k).filter (fun x => x ∉ ts.take k) = ts.drop k := by
            rw [List.filter_eq_self]
            intro x hx
            have : x ∉ ts.take k := fun hx' => hd.2.2 x hx' x hx rfl
            simp [this]
          rw [a, b]; rfl
    have e2 : runStore [.getTokens .natural n, .discard (ts.take k), .reset (ts.drop k)] t =
        { app := { t.app with unblinded := t.app.unblinded.filter (·.token ∉ ts.take k) },
          temp := { t.temp with in_use := [] } } := by
      show ((StoreOp.reset (ts.drop k)).step ((StoreOp.discard (ts.take k)).step
        ((StoreOp.getTokens .natural n).step t).2).2).2 = _
      rw [step_reset w2]
      rw [step_discard w1]
      rw [e1]
      dsimp only
      rw [hdrop]
      congr 2
      rw [List.filter_eq_nil_iff]
      intro x hx
      simp [hx]
    rw [e2]
    refine ⟨rfl, ts.take k, ?_⟩
    rw [available_discard, available_free t hu, hav, List.filter_append, hdrop, ← List.append_assoc,
      List.take_append_drop]
    congr 1
    symm
    rw [List.filter_eq_self]
    intro x hx
    have : x ∉ ts.take k := fun hx' =>
      (List.nodup_append.mp hnd).2.2 x (List.mem_of_mem_take hx') x hx rfl
    simp [this]

/-- Other events add tokens at the end. -/
theorem use_other {t : Tables} (h : StoreWF t) (hu : t.temp.in_use = []) (op : StoreOp) (ho : ¬ AboutUse op) :
    (runStore [op] t).temp.in_use = [] ∧
    ∃ new, select_available (runStore [op] t) = select_available t ++ new ∧
      ∀ old, AddsNone old op → ∀ x ∈ new, x ∉ old := by
  show (op.step t).2.temp.in_use = [] ∧ ∃ new, select_available (op.step t).2 = _ ∧ _
  have same : ∀ t', SameTokens t t' → t'.temp.in_use = [] ∧
      ∃ new, select_available t' = select_available t ++ new ∧ ∀ old, AddsNone old op → ∀ x ∈ new, x ∉ old := by
    intro t' hs
    refine ⟨by rw [hs.2.2.2]; exact hu, [], by rw [available_same hs, List.append_nil], ?_⟩
    intro old _ x hx
    cases hx
  cases op with
  | getTokens o n => exact absurd trivial ho
  | discard ts => exact absurd trivial ho
  | invalidate r ts => exact absurd trivial ho
  | reset ts => exact absurd trivial ho
  | restart =>
    refine ⟨rfl, [], ?_, fun _ _ x hx => (nomatch hx)⟩
    show select_available { t with temp := {} } = _
    rw [List.append_nil]
    unfold select_available
    dsimp only
    rw [hu]
  | insert now v pk ts c s =>
    rw [step_insert]
    split
    · exact same t ⟨rfl, rfl, rfl, rfl⟩
    · split
      · refine ⟨hu, _, available_inserted h hu now v pk ts c s, ?_⟩
        intro old hold x hx
        split at hx
        · exact hold x hx
        · cases hx
      · exact same t ⟨rfl, rfl, rfl, rfl⟩
  | add o now v e c get => exact same _ (step_neutral (op := .add o now v e c get) trivial t)
  | doubleSpent now v => exact same _ (step_neutral (op := .doubleSpent now v) trivial t)
  | maintStart now m => exact same _ (step_neutral (op := .maintStart now m) trivial t)
  | maintObserve pv sizes m => exact same _ (step_neutral (op := .maintObserve pv sizes m) trivial t)
  | maintFinish now m => exact same _ (step_neutral (op := .maintFinish now m) trivial t)

theorem uses_order (us : List Use) : ∀ {t : Tables}, StoreWF t → t.temp.in_use = [] → OneByOne us →
    StoreWF (runUses us t) ∧ (runUses us t).temp.in_use = [] ∧
    ∃ spent kept new, select_available t = spent ++ kept ∧ select_available (runUses us t) = kept ++ new ∧
      ∀ old, (∀ op, Use.other op ∈ us → AddsNone old op) → ∀ x ∈ new, x ∉ old := by
  induction us with
  | nil =>
    intro t h hu _
    exact ⟨h, hu, [], select_available t, [], rfl, by simp [runUses], fun _ _ x hx => (nomatch hx)⟩
  | cons u us ih =>
    intro t h hu ho
    have w1 : StoreWF (runStore (u.ops t) t) := run_wf_store _ h
    have ho' : OneByOne us := fun op hop => ho op (by simp [hop])
    cases u with
    | call n k =>
      obtain ⟨hu1, spent, e1⟩ := use_call h hu n k
      obtain ⟨w2, hu2, spent', kept, new, e2, e3, hn⟩ := ih w1 hu1 ho'
      refine ⟨w2, hu2, spent ++ spent', kept, new, ?_, e3, ?_⟩
      · rw [e1, e2, List.append_assoc]
      · intro old hold
        exact hn old (fun op hop => hold op (by simp [hop]))
    | other op =>
      obtain ⟨hu1, new1, e1, hn1⟩ := use_other h hu op (ho op (by simp))
      obtain ⟨w2, hu2, spent, kept, new, e2, e3, hn⟩ := ih w1 hu1 ho'
      have e2' : select_available t ++ new1 = spent ++ kept := e1.symm.trans e2
      refine ⟨w2, hu2, ?_⟩
      have hw : runUses (Use.other op :: us) t = runUses us (runStore ((Use.other op).ops t) t) := rfl
      rw [hw, e3]
      have hold1 : ∀ old, (∀ op', Use.other op' ∈ Use.other op :: us → AddsNone old op') →
          (∀ x ∈ new1, x ∉ old) ∧ ∀ x ∈ new, x ∉ old := by
        intro old hold
        exact ⟨hn1 old (hold op (by simp)), hn old (fun op' hop => hold op' (by simp [hop]))⟩
      rcases List.append_eq_append_iff.mp e2' with ⟨m, hm1, hm2⟩ | ⟨m, hm1, hm2⟩
      · -- all old tokens are spent, and some of the new ones
        refine ⟨select_available t, [], kept ++ new, by simp, rfl, ?_⟩
        intro old hold x hx
        obtain ⟨a, b⟩ := hold1 old hold
        rcases List.mem_append.mp hx with hx | hx
        · exact a x (by rw [hm2]; simp [hx])
        · exact b x hx
      · refine ⟨spent, m, new1 ++ new, hm1, by rw [hm2, List.append_assoc], ?_⟩
        intro old hold x hx
        obtain ⟨a, b⟩ := hold1 old hold
        rcases List.mem_append.mp hx with hx | hx
        · exact a x hx
        · exact b x hx

end ZKAP
