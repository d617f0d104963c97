import Verif.Spec.Loss
import Verif.Lemmas.ControllerSteps

/-! Facts about installations that may be lost. -/
namespace ZKAP
open Spec

theorem kept_iff {t : Tables} {v : String} {g : Nat} {ts : List String} :
    Kept t v g ts ↔ g < rowCounter t v ∨ ts.Perm (select_random_tokens v g t) := by
  unfold Kept rowCounter
  cases voucherRow t v <;> simp

theorem kept_same {t t' : Tables} {v : String} {g : Nat} {ts : List String} (h : Kept t v g ts)
    (hv : t'.app.vouchers = t.app.vouchers) (ht : t'.app.tokens = t.app.tokens) :
    Kept t' v g ts := by
  unfold Kept voucherRow select_random_tokens at *
  rw [hv, ht]; exact h

/-- No event at the node loses the tokens of a group. -/
theorem kept_step {cfg : RedeemCfg} {c : Controller} {v : String} {g : Nat} {ts : List String}
    (hne : ts ≠ []) (h : Kept c.store v g ts) (e : RedeemEvent) :
    Kept (c.step cfg e).store v g ts := by
  cases e with
  | redeem w n => simp only [Controller.step]; split <;> exact h
  | timer => simp only [Controller.step]; split <;> exact h
  | answer i a =>
    simp only [Controller.step]
    split
    · exact h
    · split <;> exact h
  | other op =>
    simp only [Controller.step]
    split
    · rename_i hop
      simp only [Bool.and_eq_true] at hop
      obtain ⟨h1, h2⟩ := other_effect op hop.2 c.store
      exact kept_same h h2 h1
    · exact h
  | crash => exact kept_same h rfl rfl
  | work env =>
    simp only [Controller.step]
    cases et : c.todo with
    | nil => exact h
    | cons task todo =>
      dsimp only
      cases task with
      | redeem w n => simp only [Task.run]; split <;> exact h
      | retry w =>
        simp only [Task.run]
        split
        · exact h
        · split
          · exact h
          · split <;> exact h
      | iterate f =>
        simp only [Task.run]
        split
        rotate_left
        · exact h
        unfold get_random_tokens
        cases hg : token_count_for_group cfg.num_redemption_groups f.total f.counter with
        | error e => exact h
        | ok n =>
          dsimp only
          rcases add_effect env.order env.now f.voucher f.total f.counter
              (env.random f.voucher f.counter n.toNat) c.store with
            ⟨err, he⟩ | ⟨ts', he, hp, hne'⟩ | ⟨ts', hget, he, hnil⟩
          · rw [he]; exact h
          · rw [he]; exact h
          · rw [he]
            dsimp only
            rw [kept_iff] at h ⊢
            have hcnt : rowCounter (added env.now f.voucher f.total f.counter ts' c.store) v =
                rowCounter c.store v :=
              rowCounter_added env.now f.voucher f.total f.counter ts' c.store v
            rw [hcnt]
            rcases h with h | h
            · exact .inl h
            · right
              rw [select_added]
              by_cases hvd : v = f.voucher ∧ g = f.counter
              · obtain ⟨rfl, rfl⟩ := hvd
                rw [hnil] at h
                exact absurd (List.perm_nil.mp h) hne
              · rw [if_neg hvd, List.append_nil]; exact h
      | perform f ts' =>
        simp only [Task.run, contact_issuer]
        split
        · exact h
        · split <;> exact h
      | answered f a =>
        simp only [Task.run, resume]
        cases a with
        | success pk us =>
          dsimp only [redeem_success]
          rcases insert_effect env.now f.voucher pk us (f.counter + 1 == cfg.num_redemption_groups)
              (decide (pk ∈ cfg.allowed_public_keys)) c.store with ⟨err, he⟩ | ⟨row, hrow, he⟩
          · rw [he]; exact h
          · rw [he]
            dsimp only
            rw [kept_iff] at h ⊢
            have hcnt := rowCounter_inserted env.now f.voucher pk us
              (f.counter + 1 == cfg.num_redemption_groups)
              (decide (pk ∈ cfg.allowed_public_keys)) c.store hrow v
            have hsel := select_inserted env.now f.voucher pk us
              (f.counter + 1 == cfg.num_redemption_groups)
              (decide (pk ∈ cfg.allowed_public_keys)) c.store hrow v g
            rw [hcnt, hsel]
            by_cases hv : v = f.voucher
            · subst hv
              have hrc : rowCounter c.store f.voucher = row.counter := by
                unfold rowCounter; rw [hrow]; rfl
              rw [if_pos rfl]
              rcases h with h | h
              · left; omega
              · by_cases hg : g = row.counter
                · left; omega
                · right; rw [if_neg (fun hh => hg hh.2)]; exact h
            · rw [if_neg hv, if_neg (fun hh => hv hh.1)]; exact h
        | alreadySpent =>
          obtain ⟨ht, _⟩ := doubleSpent_effect env.now f.voucher c.store
          have hc := rowCounter_doubleSpent env.now f.voucher c.store v
          rw [kept_iff] at h ⊢
          dsimp only [redeem_failure]
          rw [hc]
          unfold select_random_tokens at h ⊢
          rw [ht]
          exact h
        | unpaid => exact h
        | failed d => exact h

theorem kept_run {cfg : RedeemCfg} {v : String} {g : Nat} {ts : List String} (hne : ts ≠ [])
    (events : List RedeemEvent) {c : Controller} (h : Kept c.store v g ts) :
    Kept (c.run cfg events).store v g ts := by
  induction events generalizing c with
  | nil => exact h
  | cons e es ih => exact ih (kept_step hne h e)

theorem run_append_events (cfg : RedeemCfg) (c : Controller) (a b : List RedeemEvent) :
    c.run cfg (a ++ b) = (c.run cfg a).run cfg b := by
  simp [Controller.run]

theorem Installation.run_append (cfg : RedeemCfg) (w : Installation) (a b : List InstallationEvent) :
    w.run cfg (a ++ b) = (w.run cfg a).run cfg b := by
  simp [Installation.run]

theorem Installation.run_snoc (cfg : RedeemCfg) (w : Installation) (a : List InstallationEvent)
    (e : InstallationEvent) : w.run cfg (a ++ [e]) = (w.run cfg a).step cfg e := by
  simp [Installation.run]

/-- The node has gone on from what the replica knows. -/
theorem node_from_replica (cfg : RedeemCfg) (w : Installation) :
    w.node cfg = (w.replica cfg).run cfg (w.past.drop w.uploaded) := by
  unfold Installation.node Installation.replica
  rw [← run_append_events, List.take_append_drop]

theorem node_rinv (cfg : RedeemCfg) (w : Installation) : RInv cfg (w.node cfg) :=
  rinv_run cfg w.past (rinv_init cfg)

/-- What is true of an installation as far as a voucher is concerned. -/
structure LossInv (cfg : RedeemCfg) (v : String) (w : Installation) : Prop where
  short : w.uploaded ≤ w.past.length
  nonempty : ∀ k ts, (k, ts) ∈ w.signed → ts ≠ []
  kept : ∀ g ts, HasSigned w v g ts → Kept (w.replica cfg).store v g ts
  refused : ∀ g, (v, g) ∉ w.refused
  log : ∀ g, .answer v g .alreadySpent ∉ (w.node cfg).log

theorem lossInv_init (cfg : RedeemCfg) (v : String) : LossInv cfg v {} := by
  constructor <;> simp [HasSigned, Installation.node, Controller.run]

theorem lookup_mem {α β} [BEq α] [LawfulBEq α] {l : List (α × β)} {k : α} {b : β}
    (h : l.lookup k = some b) : (k, b) ∈ l := by
  induction l with
  | nil => simp at h
  | cons p l ih =>
    obtain ⟨k', b'⟩ := p
    rw [List.lookup_cons] at h
    split at h
    · rename_i hk
      simp only [Option.some.injEq] at h
      simp [eq_of_beq hk, h]
    · exact List.mem_cons_of_mem _ (ih h)

/-- Extending the past leaves the replica alone. -/
theorem replica_extend (cfg : RedeemCfg) (w : Installation) (h : w.uploaded ≤ w.past.length)
    (l : List RedeemEvent) (signed : Signed) (refused : List (String × Nat)) :
    ({ past := w.past ++ l, uploaded := w.uploaded, signed := signed, refused := refused } :
      Installation).replica cfg = w.replica cfg := by
  unfold Installation.replica
  dsimp only
  rw [List.take_append_of_le_length h]

/-- Is this an answer? -/
def isAnswer : RedeemEvent → Bool
  | .answer .. => true
  | _ => false

/-- Only answers are recorded as answers. -/
theorem log_no_answer {cfg : RedeemCfg} (c : Controller) (e : RedeemEvent) (he : isAnswer e = false) :
    (c.step cfg e).log = c.log ∨
      ∃ x, (c.step cfg e).log = c.log ++ [x] ∧ ∀ v g a, x ≠ .answer v g a := by
  cases e with
  | redeem v n => simp only [Controller.step]; split <;> exact .inl rfl
  | timer => simp only [Controller.step]; split <;> exact .inl rfl
  | answer i a => simp [isAnswer] at he
  | other op => simp only [Controller.step]; split <;> exact .inl rfl
  | crash => exact .inr ⟨_, rfl, by simp⟩
  | work env =>
    simp only [Controller.step]
    cases ht : c.todo with
    | nil => exact .inl rfl
    | cons task todo =>
      dsimp only
      cases task with
      | redeem v n =>
        simp only [Task.run]
        split
        · exact .inl rfl
        · exact .inl rfl
        · exact .inr ⟨_, rfl, by simp⟩
      | retry v =>
        simp only [Task.run]
        split
        · exact .inl rfl
        · split
          · exact .inl rfl
          · split <;> exact .inl rfl
      | iterate f =>
        simp only [Task.run]
        split
        · split <;> exact .inl rfl
        · exact .inl rfl
      | perform f ts =>
        simp only [Task.run, contact_issuer]
        split
        · exact .inl rfl
        · split
          · exact .inr ⟨_, rfl, by simp⟩
          · exact .inl rfl
      | answered f a =>
        simp only [Task.run, resume]
        cases a with
        | success pk us =>
          dsimp only
          split
          · exact .inl rfl
          · exact .inr ⟨_, rfl, by simp⟩
        | alreadySpent => exact .inl rfl
        | unpaid => exact .inl rfl
        | failed d => exact .inl rfl

/-- What an answer records. -/
theorem log_answer {cfg : RedeemCfg} (c : Controller) (i : Nat) (a : IssuerAnswer) :
    (c.step cfg (.answer i a)).log = c.log ∨ ∃ s, c.waiting[i]? = some s ∧
      (c.step cfg (.answer i a)).log = c.log ++ [.answer s.frame.voucher s.frame.counter a] := by
  simp only [Controller.step]
  split
  · exact .inl rfl
  · rename_i s hs
    split
    · exact .inr ⟨s, hs, rfl⟩
    · exact .inl rfl

theorem node_snoc (cfg : RedeemCfg) (past : List RedeemEvent) (e : RedeemEvent) :
    ({} : Controller).run cfg (past ++ [e]) = (({} : Controller).run cfg past).step cfg e := by
  simp [Controller.run]

/-- The record of the replica is a part of that of the node. -/
theorem replica_log (cfg : RedeemCfg) (w : Installation) :
    ∃ l, (w.node cfg).log = (w.replica cfg).log ++ l := by
  rw [node_from_replica]
  exact run_log cfg _ _

/-- After a loss the record is that of the replica, with a restart. -/
theorem lose_log (cfg : RedeemCfg) (w : Installation) :
    ((w.step cfg .lose).node cfg).log = (w.replica cfg).log ++ [.restarted] := by
  show (({} : Controller).run cfg (w.past.take w.uploaded ++ [.crash])).log = _
  rw [node_snoc]
  rfl

theorem accepts_kept {cfg : RedeemCfg} {v : String} {w : Installation} (h : LossInv cfg v w)
    (hs : SInv v (w.node cfg)) {s : Suspended} (hw : s ∈ (w.node cfg).waiting)
    (hv : s.frame.voucher = v) : w.signed.accepts s.frame.voucher s.frame.counter s.tokens = true := by
  subst hv
  unfold Signed.accepts
  cases hl : w.signed.lookup (s.frame.voucher, s.frame.counter) with
  | none => rfl
  | some ts =>
    have hm := lookup_mem hl
    have hk := h.kept _ _ hm
    have hk' := kept_run (cfg := cfg) (h.nonempty _ _ hm) (w.past.drop w.uploaded) hk
    rw [← node_from_replica, kept_iff] at hk'
    have hc := hs.frames s.frame (List.mem_append_left _ (List.mem_map_of_mem hw)) rfl
    have hp := ((node_rinv cfg w).waiting s hw).2.2.1
    rcases hk' with hk' | hk'
    · omega
    · exact List.isPerm_iff.mpr (hp.trans hk'.symm)

theorem waiting_nonempty {cfg : RedeemCfg} {c : Controller} (hr : RInv cfg c) {s : Suspended}
    (hw : s ∈ c.waiting) : s.tokens ≠ [] := by
  obtain ⟨l₁, l₂, hl, _⟩ := (hr.waiting s hw).2.2.2
  exact hr.nonempty s.frame.voucher s.frame.counter _ (by rw [hl]; simp)

theorem lossInv_step {cfg : RedeemCfg} {v : String} {w : Installation} (h : LossInv cfg v w)
    (hs : SInv v (w.node cfg)) (e : InstallationEvent)
    (hu : ∀ i key us d s, e = .issue i key us d → (w.node cfg).waiting[i]? = some s →
      s.frame.voucher = v →
      s.tokens.Perm (select_random_tokens v s.frame.counter (w.replica cfg).store)) :
    LossInv cfg v (w.step cfg e) := by
  have extend : ∀ (ev : RedeemEvent),
      (∀ g, .answer v g .alreadySpent ∉ ((({} : Controller).run cfg w.past).step cfg ev).log) →
      LossInv cfg v { w with past := w.past ++ [ev] } := by
    intro ev hlog
    have hrep := replica_extend cfg w h.short [ev] w.signed w.refused
    exact {
      short := by simp only [List.length_append]; have := h.short; omega
      nonempty := h.nonempty
      kept := fun g ts hm => by rw [hrep]; exact h.kept g ts hm
      refused := h.refused
      log := fun g => by
        show _ ∉ (({} : Controller).run cfg (w.past ++ [ev])).log
        rw [node_snoc]; exact hlog g }
  have quiet : ∀ (ev : RedeemEvent), isAnswer ev = false →
      ∀ g, .answer v g .alreadySpent ∉ ((({} : Controller).run cfg w.past).step cfg ev).log := by
    intro ev hev g hm
    rcases log_no_answer (cfg := cfg) (({} : Controller).run cfg w.past) ev hev with hl | ⟨x, hl, hx⟩
    · rw [hl] at hm; exact h.log g hm
    · rw [hl] at hm
      rcases List.mem_append.mp hm with hm | hm
      · exact h.log g hm
      · exact hx _ _ _ (List.mem_singleton.mp hm).symm
  have answer : ∀ (i : Nat) (a : IssuerAnswer),
      (a = .alreadySpent → ∀ s, (w.node cfg).waiting[i]? = some s → s.frame.voucher ≠ v) →
      ∀ g, .answer v g .alreadySpent ∉ ((({} : Controller).run cfg w.past).step cfg (.answer i a)).log := by
    intro i a ha g hm
    rcases log_answer (cfg := cfg) (({} : Controller).run cfg w.past) i a with hl | ⟨s, hw, hl⟩
    · rw [hl] at hm; exact h.log g hm
    · rw [hl] at hm
      rcases List.mem_append.mp hm with hm | hm
      · exact h.log g hm
      · have := List.mem_singleton.mp hm
        simp only [Happening.answer.injEq] at this
        exact ha this.2.2.symm s hw this.1.symm
  cases e with
  | node e =>
    cases e with
    | answer i a => exact h
    | redeem v n => exact extend _ (quiet _ rfl)
    | timer => exact extend _ (quiet _ rfl)
    | work env => exact extend _ (quiet _ rfl)
    | other op => exact extend _ (quiet _ rfl)
    | crash => exact extend _ (quiet _ rfl)
  | unpaid i => exact extend _ (answer _ _ (by simp))
  | fail i d => exact extend _ (answer _ _ (by simp))
  | upload n =>
    simp only [Installation.step]
    split
    · rename_i hn
      refine { h with short := hn.2, kept := fun g ts hm => ?_ }
      have hk := h.kept g ts hm
      have : ({ w with uploaded := n } : Installation).replica cfg =
          (w.replica cfg).run cfg ((w.past.take n).drop w.uploaded) := by
        unfold Installation.replica
        dsimp only
        rw [← run_append_events]
        congr 1
        have : w.past.take w.uploaded = (w.past.take n).take w.uploaded := by
          rw [List.take_take, Nat.min_eq_left hn.1]
        rw [this, List.take_append_drop]
      rw [this]
      exact kept_run (h.nonempty _ _ hm) _ hk
    · exact h
  | lose =>
    have hrep : (w.step cfg .lose).replica cfg = w.replica cfg := by
      simp only [Installation.step, Installation.replica]
      rw [List.take_append_of_le_length (by rw [List.length_take]; have := h.short; omega),
        List.take_take, Nat.min_self]
    exact {
      short := by
        simp only [Installation.step, List.length_append, List.length_take]
        have := h.short; omega
      nonempty := h.nonempty
      kept := fun g ts hm => by rw [hrep]; exact h.kept g ts hm
      refused := h.refused
      log := fun g hm => by
        rw [lose_log] at hm
        rcases List.mem_append.mp hm with hm | hm
        · obtain ⟨l, hl⟩ := replica_log cfg w
          exact h.log g (by rw [hl]; exact List.mem_append_left _ hm)
        · simp at hm }
  | issue i key us delivered =>
    simp only [Installation.step]
    cases hw : (w.node cfg).waiting[i]? with
    | none => exact h
    | some s =>
      have hmem := List.mem_of_getElem? hw
      dsimp only
      by_cases hv : s.frame.voucher = v
      · rw [if_pos (accepts_kept h hs hmem hv)]
        have hsub : LossInv cfg v
            { w with signed := ((s.frame.voucher, s.frame.counter), s.tokens) :: w.signed } := {
          short := h.short
          nonempty := fun k ts hm => by
            rcases List.mem_cons.mp hm with hm | hm
            · obtain ⟨_, rfl⟩ := Prod.mk.inj hm
              exact waiting_nonempty (node_rinv cfg w) hmem
            · exact h.nonempty k ts hm
          kept := fun g ts hm => by
            rcases List.mem_cons.mp hm with hm | hm
            · obtain ⟨hk, rfl⟩ := Prod.mk.inj hm
              obtain ⟨_, rfl⟩ := Prod.mk.inj hk
              exact .inr (hu i key us delivered s rfl hw hv)
            · exact h.kept g ts hm
          refused := h.refused
          log := h.log }
        cases delivered with
        | false => exact hsub
        | true =>
          have hrep := replica_extend cfg w h.short [.answer i (.success key us)]
            (((s.frame.voucher, s.frame.counter), s.tokens) :: w.signed) w.refused
          exact { hsub with
            short := by simp only [if_true, List.length_append]; have := h.short; omega
            kept := fun g ts hm => by
              simp only [if_true]; rw [hrep]; exact hsub.kept g ts hm
            log := fun g => by
              show _ ∉ (({} : Controller).run cfg (w.past ++ [.answer i (.success key us)])).log
              rw [node_snoc]; exact answer _ _ (by simp) g }
      · have hne : ∀ s', (w.node cfg).waiting[i]? = some s' → s'.frame.voucher ≠ v := by
          intro s' hs'
          rw [hw] at hs'
          rw [← Option.some.inj hs']; exact hv
        split
        · have hsub : LossInv cfg v
              { w with signed := ((s.frame.voucher, s.frame.counter), s.tokens) :: w.signed } := {
            short := h.short
            nonempty := fun k ts hm => by
              rcases List.mem_cons.mp hm with hm | hm
              · obtain ⟨_, rfl⟩ := Prod.mk.inj hm
                exact waiting_nonempty (node_rinv cfg w) hmem
              · exact h.nonempty k ts hm
            kept := fun g ts hm => by
              rcases List.mem_cons.mp hm with hm | hm
              · obtain ⟨hk, rfl⟩ := Prod.mk.inj hm
                exact absurd (Prod.mk.inj hk).1.symm hv
              · exact h.kept g ts hm
            refused := h.refused
            log := h.log }
          cases delivered with
          | false => exact hsub
          | true =>
            have hrep := replica_extend cfg w h.short [.answer i (.success key us)]
              (((s.frame.voucher, s.frame.counter), s.tokens) :: w.signed) w.refused
            exact { hsub with
              short := by simp only [if_true, List.length_append]; have := h.short; omega
              kept := fun g ts hm => by
                simp only [if_true]; rw [hrep]; exact hsub.kept g ts hm
              log := fun g => by
                show _ ∉ (({} : Controller).run cfg (w.past ++ [.answer i (.success key us)])).log
                rw [node_snoc]; exact answer _ _ (by simp) g }
        · have hsub : LossInv cfg v
              { w with refused := w.refused ++ [(s.frame.voucher, s.frame.counter)] } := {
            short := h.short
            nonempty := h.nonempty
            kept := h.kept
            refused := fun g hm => by
              rcases List.mem_append.mp hm with hm | hm
              · exact h.refused g hm
              · exact hv (Prod.mk.inj (List.mem_singleton.mp hm)).1.symm
            log := h.log }
          cases delivered with
          | false => exact hsub
          | true =>
            have hrep := replica_extend cfg w h.short [.answer i .alreadySpent] w.signed
              (w.refused ++ [(s.frame.voucher, s.frame.counter)])
            exact { hsub with
              short := by simp only [if_true, List.length_append]; have := h.short; omega
              kept := fun g ts hm => by
                simp only [if_true]; rw [hrep]; exact hsub.kept g ts hm
              log := fun g => by
                show _ ∉ (({} : Controller).run cfg (w.past ++ [.answer i .alreadySpent])).log
                rw [node_snoc]; exact answer _ _ (fun _ => hne) g }

/-! ### Complete answers -/

theorem fullAnswers_snoc {v : String} {log : List Happening} (h : FullAnswers v log) {x : Happening}
    (hx : ∀ c pk us, x = .answer v c (.success pk us) → ∀ l₁ ts l₂, log = l₁ ++ .sent v c ts :: l₂ →
      (∀ ts', .sent v c ts' ∉ l₂) → us.length = ts.length) : FullAnswers v (log ++ [x]) := by
  intro l₁ c ts l₂ pk us l₃ e hn
  rw [← List.cons_append, ← List.append_assoc] at e
  rcases snoc_split e with ⟨_, h2, h3⟩ | ⟨l₃', rfl, h2⟩
  · exact hx c pk us h2.symm l₁ ts l₂ h3.symm hn
  · exact h l₁ c ts l₂ pk us l₃' (by rw [h2]; simp) hn

/-- The latest request in a record is the latest request in it. -/
theorem latest_unique {v : String} {c : Nat} {ts ts' : List String} {l₁ l₂ m₁ m₂ : List Happening}
    (e : l₁ ++ .sent v c ts :: l₂ = m₁ ++ .sent v c ts' :: m₂) (h : ∀ x, .sent v c x ∉ l₂)
    (h' : ∀ x, .sent v c x ∉ m₂) : ts = ts' := by
  rcases List.append_eq_append_iff.mp e with ⟨a, h1, h2⟩ | ⟨a, h1, h2⟩
  · cases a with
    | nil => simp at h2; exact h2.1
    | cons y a =>
      simp only [List.cons_append, List.cons.injEq] at h2
      exact absurd (by rw [h2.2]; simp) (h ts')
  · cases a with
    | nil => simp at h2; exact h2.1.symm
    | cons y a =>
      simp only [List.cons_append, List.cons.injEq] at h2
      exact absurd (by rw [h2.2]; simp) (h' ts)

theorem full_step {cfg : RedeemCfg} {v : String} {w : Installation}
    (h : FullAnswers v (w.node cfg).log) (e : InstallationEvent)
    (hu : ∀ i key us d s, e = .issue i key us d → (w.node cfg).waiting[i]? = some s →
      us.length = s.tokens.length) :
    FullAnswers v ((w.step cfg e).node cfg).log := by
  have quiet : ∀ (ev : RedeemEvent), isAnswer ev = false →
      FullAnswers v (({} : Controller).run cfg (w.past ++ [ev])).log := by
    intro ev hev
    rw [node_snoc]
    rcases log_no_answer (cfg := cfg) (({} : Controller).run cfg w.past) ev hev with hl | ⟨x, hl, hx⟩
    · rw [hl]; exact h
    · rw [hl]; exact fullAnswers_snoc h (fun c pk us hxe => absurd hxe (hx _ _ _))
  have answer : ∀ (i : Nat) (a : IssuerAnswer),
      (∀ pk us, a = .success pk us → ∀ s, (w.node cfg).waiting[i]? = some s →
        us.length = s.tokens.length) →
      FullAnswers v (({} : Controller).run cfg (w.past ++ [.answer i a])).log := by
    intro i a ha
    rw [node_snoc]
    rcases log_answer (cfg := cfg) (({} : Controller).run cfg w.past) i a with hl | ⟨s, hw, hl⟩
    · rw [hl]; exact h
    · rw [hl]
      refine fullAnswers_snoc h ?_
      intro c pk us hx l₁ ts l₂ e hn
      simp only [Happening.answer.injEq] at hx
      obtain ⟨rfl, rfl, rfl⟩ := hx
      obtain ⟨m₁, m₂, hm, hno⟩ := ((node_rinv cfg w).waiting s (List.mem_of_getElem? hw)).2.2.2
      have : ts = s.tokens :=
        latest_unique (show l₁ ++ .sent _ _ ts :: l₂ = m₁ ++ .sent _ _ s.tokens :: m₂ from
          e.symm.trans hm) hn (fun x => hno _ x)
      rw [this]
      exact ha pk us rfl s hw
  cases e with
  | node e =>
    cases e with
    | answer i a => exact h
    | redeem v n => exact quiet _ rfl
    | timer => exact quiet _ rfl
    | work env => exact quiet _ rfl
    | other op => exact quiet _ rfl
    | crash => exact quiet _ rfl
  | unpaid i => exact answer _ _ (by simp)
  | fail i d => exact answer _ _ (by simp)
  | upload n => simp only [Installation.step]; split <;> exact h
  | lose =>
    rw [lose_log]
    obtain ⟨l, hl⟩ := replica_log cfg w
    rw [hl] at h
    exact fullAnswers_snoc (fullAnswers_prefix h) (by simp)
  | issue i key us delivered =>
    simp only [Installation.step]
    cases hw : (w.node cfg).waiting[i]? with
    | none => exact h
    | some s =>
      dsimp only
      split
      · cases delivered with
        | false => exact h
        | true =>
          refine answer i (.success key us) ?_
          intro pk us' he s' hs'
          simp only [IssuerAnswer.success.injEq] at he
          rw [← he.2]
          exact hu i key us true s' rfl hs'
      · cases delivered with
        | false => exact h
        | true => exact answer i .alreadySpent (by simp)

/-! ### Double-spent vouchers -/

/-- A voucher is only marked double-spent after an answer that says so. -/
def SpentAnswered (v : String) (c : Controller) : Prop :=
  (∀ g, .answer v g .alreadySpent ∉ c.log) →
    ∀ row, voucherRow c.store v = some row → row.state ≠ "double-spend"

theorem spentAnswered_step {cfg : RedeemCfg} {v : String} {c : Controller}
    (ha : AnswersLogged c) (h : SpentAnswered v c) (e : RedeemEvent) :
    SpentAnswered v (c.step cfg e) := by
  intro hno row hrow
  have hno' : ∀ g, .answer v g .alreadySpent ∉ c.log := by
    intro g hm
    obtain ⟨l, hl⟩ := step_log cfg c e
    exact hno g (by rw [hl]; exact List.mem_append_left _ hm)
  have h := h hno'
  cases e with
  | redeem w n => simp only [Controller.step] at hrow; split at hrow <;> exact h row hrow
  | timer => simp only [Controller.step] at hrow; split at hrow <;> exact h row hrow
  | answer i a =>
    simp only [Controller.step] at hrow
    split at hrow
    · exact h row hrow
    · split at hrow <;> exact h row hrow
  | other op =>
    simp only [Controller.step] at hrow
    split at hrow
    · rename_i hop
      simp only [Bool.and_eq_true] at hop
      obtain ⟨h1, h2⟩ := other_effect op hop.2 c.store
      refine h row ?_
      unfold voucherRow at hrow ⊢
      rw [← h2]; exact hrow
    · exact h row hrow
  | crash => exact h row hrow
  | work env =>
    simp only [Controller.step] at hrow
    cases et : c.todo with
    | nil => rw [et] at hrow; exact h row hrow
    | cons task todo =>
      rw [et] at hrow
      dsimp only at hrow
      cases task with
      | redeem w n => simp only [Task.run] at hrow; split at hrow <;> exact h row hrow
      | retry w =>
        simp only [Task.run] at hrow
        split at hrow
        · exact h row hrow
        · split at hrow
          · exact h row hrow
          · split at hrow <;> exact h row hrow
      | iterate f =>
        simp only [Task.run] at hrow
        split at hrow
        rotate_left
        · exact h row hrow
        unfold get_random_tokens at hrow
        cases hg : token_count_for_group cfg.num_redemption_groups f.total f.counter with
        | error e => rw [hg] at hrow; exact h row hrow
        | ok n =>
          rw [hg] at hrow
          dsimp only at hrow
          rcases add_effect env.order env.now f.voucher f.total f.counter
              (env.random f.voucher f.counter n.toNat) c.store with
            ⟨err, he⟩ | ⟨ts', he, hp, hne'⟩ | ⟨ts', hget, he, hnil⟩
          · rw [he] at hrow; exact h row hrow
          · rw [he] at hrow; exact h row hrow
          · rw [he] at hrow
            dsimp only at hrow
            rw [voucherRow_added] at hrow
            split at hrow
            · rename_i hv
              cases hold : voucherRow c.store f.voucher with
              | none =>
                rw [hold] at hrow
                simp only [Option.getD_none, Option.some.injEq] at hrow
                rw [← hrow]
                simp [newRow]
              | some r =>
                rw [hold] at hrow
                simp only [Option.getD_some, Option.some.injEq] at hrow
                rw [← hrow]
                exact h r (by rw [hv]; exact hold)
            · exact h row hrow
      | perform f ts' =>
        simp only [Task.run, contact_issuer] at hrow
        split at hrow
        · exact h row hrow
        · split at hrow <;> exact h row hrow
      | answered f a =>
        simp only [Task.run, resume] at hrow
        cases a with
        | success pk us =>
          dsimp only [redeem_success] at hrow
          rcases insert_effect env.now f.voucher pk us (f.counter + 1 == cfg.num_redemption_groups)
              (decide (pk ∈ cfg.allowed_public_keys)) c.store with ⟨err, he⟩ | ⟨row', hrow', he⟩
          · rw [he] at hrow; exact h row hrow
          · rw [he] at hrow
            dsimp only at hrow
            rw [voucherRow_inserted] at hrow
            split at hrow
            · rw [hrow'] at hrow
              simp only [Option.map_some, Option.some.injEq] at hrow
              rw [← hrow]
              simp only [redeemedRow]
              split <;> decide
            · exact h row hrow
        | alreadySpent =>
          obtain ⟨_, hv⟩ := doubleSpent_effect env.now f.voucher c.store
          dsimp only [redeem_failure] at hrow
          rw [hv v] at hrow
          split at hrow
          · rename_i hvf
            have := ha f .alreadySpent todo et
            rw [← hvf] at this
            exact absurd this (hno' _)
          · exact h row hrow
        | unpaid => exact h row hrow
        | failed d => exact h row hrow

theorem spentAnswered_run {cfg : RedeemCfg} {v : String} (events : List RedeemEvent) {c : Controller}
    (hr : RInv cfg c) (ha : AnswersLogged c) (h : SpentAnswered v c) :
    SpentAnswered v (c.run cfg events) := by
  induction events generalizing c with
  | nil => exact h
  | cons e es ih =>
    exact ih (rinv_step hr e) (answersLogged_step hr ha e) (spentAnswered_step ha h e)

/-! ### Whole histories -/

theorem Installation.run_induction {cfg : RedeemCfg} {p : Installation → Prop}
    (events : List InstallationEvent) (h0 : p {})
    (hs : ∀ before e after, events = before ++ e :: after → p (({} : Installation).run cfg before) →
      p ((({} : Installation).run cfg before).step cfg e)) : p (({} : Installation).run cfg events) := by
  have key : ∀ n, n ≤ events.length → p (({} : Installation).run cfg (events.take n)) := by
    intro n
    induction n with
    | zero => intro _; simpa [Installation.run] using h0
    | succ n ih =>
      intro hn
      have hlt : n < events.length := hn
      rw [← List.take_append_getElem hlt, Installation.run_snoc]
      exact hs _ _ (events.drop (n + 1)) (by
        rw [List.getElem_cons_drop, List.take_append_drop]) (ih (by omega))
  have := key events.length (Nat.le_refl _)
  rwa [List.take_length] at this

theorem lossInv_run {cfg : RedeemCfg} {v : String} (events : List InstallationEvent)
    (hu : UploadedFirst cfg v events) (hn : NoUnpaidBegin cfg v events) :
    LossInv cfg v (({} : Installation).run cfg events) := by
  refine Installation.run_induction events (lossInv_init cfg v) ?_
  intro before e after he h
  refine lossInv_step h ?_ e ?_
  · exact sinv_run _ (rinv_init cfg) (sinv_init v) (hn before (e :: after) he)
  · rintro i key us d s rfl hw hv
    exact hu before i key us d after s he hw hv

theorem full_run {cfg : RedeemCfg} {v : String} (events : List InstallationEvent)
    (hu : SignsAll cfg events) :
    FullAnswers v ((({} : Installation).run cfg events).node cfg).log := by
  refine Installation.run_induction (p := fun w => FullAnswers v (w.node cfg).log) events ?_ ?_
  · intro l₁ c ts l₂ pk us l₃ e
    simp [Installation.node, Controller.run] at e
  · intro before e after he h
    refine full_step h e ?_
    rintro i key us d s rfl hw
    exact hu before i key us d after s he hw

/-- Without reports that anything is unpaid, none is recorded. -/
theorem paidFor_noUnpaid {cfg : RedeemCfg} {v : String} {events : List InstallationEvent}
    (h : PaidFor events) : NoUnpaidBegin cfg v events := by
  intro before after he
  have hp : PaidFor before := fun i hm => h i (by rw [he]; exact List.mem_append_left _ hm)
  have : ∀ c, .answer v c .unpaid ∉ ((({} : Installation).run cfg before).node cfg).log := by
    refine Installation.run_induction
      (p := fun w => ∀ c, .answer v c .unpaid ∉ (w.node cfg).log) before ?_ ?_
    · intro c; simp [Installation.node, Controller.run]
    · intro b e a hb ih c hm
      generalize ({} : Installation).run cfg b = w at ih hm
      have quiet : ∀ (ev : RedeemEvent), isAnswer ev = false →
          .answer v c .unpaid ∉ (({} : Controller).run cfg (w.past ++ [ev])).log := by
        intro ev hev hm
        rw [node_snoc] at hm
        rcases log_no_answer (cfg := cfg) (({} : Controller).run cfg w.past) ev hev with
          hl | ⟨x, hl, hx⟩
        · rw [hl] at hm; exact ih c hm
        · rw [hl] at hm
          rcases List.mem_append.mp hm with hm | hm
          · exact ih c hm
          · exact hx _ _ _ (List.mem_singleton.mp hm).symm
      have answer : ∀ (i : Nat) (a : IssuerAnswer), a ≠ .unpaid →
          .answer v c .unpaid ∉ (({} : Controller).run cfg (w.past ++ [.answer i a])).log := by
        intro i a ha hm
        rw [node_snoc] at hm
        rcases log_answer (cfg := cfg) (({} : Controller).run cfg w.past) i a with hl | ⟨s, _, hl⟩
        · rw [hl] at hm; exact ih c hm
        · rw [hl] at hm
          rcases List.mem_append.mp hm with hm | hm
          · exact ih c hm
          · have := List.mem_singleton.mp hm
            simp only [Happening.answer.injEq] at this
            exact ha this.2.2.symm
      cases e with
      | node e =>
        cases e with
        | answer i a => exact ih c hm
        | redeem v n => exact quiet _ rfl hm
        | timer => exact quiet _ rfl hm
        | work env => exact quiet _ rfl hm
        | other op => exact quiet _ rfl hm
        | crash => exact quiet _ rfl hm
      | unpaid i => exact hp i (by rw [hb]; simp)
      | fail i d => exact answer _ _ (by simp) hm
      | upload n => simp only [Installation.step] at hm; split at hm <;> exact ih c hm
      | lose =>
        rw [lose_log] at hm
        obtain ⟨l, hl⟩ := replica_log cfg w
        rcases List.mem_append.mp hm with hm | hm
        · exact ih c (by rw [hl]; exact List.mem_append_left _ hm)
        · simp at hm
      | issue i key us delivered =>
        simp only [Installation.step] at hm
        cases hw : (w.node cfg).waiting[i]? with
        | none => rw [hw] at hm; exact ih c hm
        | some s =>
          rw [hw] at hm
          dsimp only at hm
          split at hm
          · cases delivered with
            | false => exact ih c hm
            | true => exact answer i (.success key us) (by simp) hm
          · cases delivered with
            | false => exact ih c hm
            | true => exact answer i .alreadySpent (by simp) hm
  rintro l₁ c l₂ e ⟨m₁, d, m₂, e', _⟩
  exact absurd (by rw [e, e']; simp) (this d)

end ZKAP
