import Verif.Spec.Backup
import Verif.Lemmas.Loss

/-! Lemmas about backups. -/
namespace ZKAP
open Spec

/-- What the issuer has signed for the voucher is kept by the node, and nothing has been refused. -/
structure BackupInv (cfg : RedeemCfg) (v : String) (w : Installation) : Prop where
  nonempty : ∀ k ts, (k, ts) ∈ w.signed → ts ≠ []
  inRange : ∀ g ts, HasSigned w v g ts → g < cfg.num_redemption_groups
  kept : ∀ g ts, HasSigned w v g ts → Kept (w.node cfg).store v g ts
  refused : ∀ g, (v, g) ∉ w.refused
  log : ∀ g, .answer v g .alreadySpent ∉ (w.node cfg).log

theorem backupInv_init (cfg : RedeemCfg) (v : String) : BackupInv cfg v {} := by
  constructor <;> simp [HasSigned, Installation.node, Controller.run]

theorem accepts_node {cfg : RedeemCfg} {v : String} {w : Installation} (h : BackupInv cfg v w)
    (hs : SInv v (w.node cfg)) {s : Suspended} (hw : s ∈ (w.node cfg).waiting)
    (hv : s.frame.voucher = v) : w.signed.accepts s.frame.voucher s.frame.counter s.tokens = true := by
  subst hv
  unfold Signed.accepts
  cases hl : w.signed.lookup (s.frame.voucher, s.frame.counter) with
  | none => rfl
  | some ts =>
    have hm := lookup_mem hl
    have hk := h.kept _ _ hm
    rw [kept_iff] at hk
    have hc := hs.frames s.frame (List.mem_append_left _ (List.mem_map_of_mem hw)) rfl
    have hp := ((node_rinv cfg w).waiting s hw).2.2.1
    rcases hk with hk | hk
    · omega
    · exact List.isPerm_iff.mpr (hp.trans hk.symm)

/-- An event at the node. -/
theorem BackupInv.extend {cfg : RedeemCfg} {v : String} {w : Installation} (h : BackupInv cfg v w)
    (e : RedeemEvent)
    (he : ∀ i a, e = .answer i a → a = .alreadySpent → ∀ s, (w.node cfg).waiting[i]? = some s →
      s.frame.voucher ≠ v) : BackupInv cfg v { w with past := w.past ++ [e] } := by
  have hnode : ({ w with past := w.past ++ [e] } : Installation).node cfg = (w.node cfg).step cfg e :=
    node_snoc cfg w.past e
  refine { nonempty := h.nonempty, inRange := h.inRange, refused := h.refused, kept := ?_, log := ?_ }
  · intro g ts hm
    rw [hnode]
    exact kept_step (h.nonempty _ _ hm) (h.kept g ts hm) e
  · intro g hm
    rw [hnode] at hm
    by_cases hq : isAnswer e = false
    · rcases log_no_answer (cfg := cfg) (w.node cfg) e hq with hl | ⟨x, hl, hx⟩
      · rw [hl] at hm; exact h.log g hm
      · rw [hl] at hm
        rcases List.mem_append.mp hm with hm | hm
        · exact h.log g hm
        · exact hx _ _ _ (List.mem_singleton.mp hm).symm
    · cases e with
      | answer i a =>
        rcases log_answer (cfg := cfg) (w.node cfg) i a with hl | ⟨s, hw, hl⟩
        · rw [hl] at hm; exact h.log g hm
        · rw [hl] at hm
          rcases List.mem_append.mp hm with hm | hm
          · exact h.log g hm
          · have := List.mem_singleton.mp hm
            simp only [Happening.answer.injEq] at this
            exact he i a rfl this.2.2.symm s hw this.1.symm
      | redeem => simp [isAnswer] at hq
      | timer => simp [isAnswer] at hq
      | work => simp [isAnswer] at hq
      | other => simp [isAnswer] at hq
      | crash => simp [isAnswer] at hq

/-- The issuer signs. -/
theorem BackupInv.sign {cfg : RedeemCfg} {v : String} {w : Installation} (h : BackupInv cfg v w)
    {s : Suspended} (hs : s ∈ (w.node cfg).waiting) :
    BackupInv cfg v { w with signed := ((s.frame.voucher, s.frame.counter), s.tokens) :: w.signed } := by
  have hr := node_rinv cfg w
  refine { refused := h.refused, log := h.log, nonempty := ?_, inRange := ?_, kept := ?_ }
  · intro k ts hm
    rcases List.mem_cons.mp hm with hm | hm
    · obtain ⟨_, rfl⟩ := Prod.mk.inj hm
      exact waiting_nonempty hr hs
    · exact h.nonempty k ts hm
  · intro g ts hm
    rcases List.mem_cons.mp hm with hm | hm
    · obtain ⟨hk, rfl⟩ := Prod.mk.inj hm
      obtain ⟨_, rfl⟩ := Prod.mk.inj hk
      exact (hr.waiting s hs).2.1
    · exact h.inRange g ts hm
  · intro g ts hm
    rcases List.mem_cons.mp hm with hm | hm
    · obtain ⟨hk, rfl⟩ := Prod.mk.inj hm
      obtain ⟨rfl, rfl⟩ := Prod.mk.inj hk
      exact .inr (hr.waiting s hs).2.2.1
    · exact h.kept g ts hm

theorem backupInv_step {cfg : RedeemCfg} {v : String} {w : Installation} (h : BackupInv cfg v w)
    (hs : SInv v (w.node cfg)) (e : InstallationEvent)
    (hl : e = .lose → ∀ g ts, HasSigned w v g ts → Kept (w.replica cfg).store v g ts) :
    BackupInv cfg v (w.step cfg e) := by
  cases e with
  | node e =>
    cases e with
    | answer i a => exact h
    | redeem v n => exact h.extend _ (by simp)
    | timer => exact h.extend _ (by simp)
    | work env => exact h.extend _ (by simp)
    | other op => exact h.extend _ (by simp)
    | crash => exact h.extend _ (by simp)
  | unpaid i =>
    refine h.extend _ ?_
    rintro j a e rfl
    simp at e
  | fail i d =>
    refine h.extend _ ?_
    rintro j a e rfl
    simp at e
  | upload n =>
    simp only [Installation.step]
    split
    · exact { h with }
    · exact h
  | lose =>
    have hnode : (w.step cfg .lose).node cfg = (w.replica cfg).step cfg .crash := node_snoc cfg _ _
    refine { nonempty := h.nonempty, inRange := h.inRange, refused := h.refused, kept := ?_, log := ?_ }
    · intro g ts hm
      rw [hnode]
      exact kept_step (h.nonempty _ _ hm) (hl rfl g ts hm) .crash
    · intro g hm
      rw [lose_log] at hm
      rcases List.mem_append.mp hm with hm | hm
      · obtain ⟨l, hl⟩ := replica_log cfg w
        exact h.log g (by rw [hl]; exact List.mem_append_left _ hm)
      · simp at hm
  | issue i key us delivered =>
    simp only [Installation.step]
    cases hw : (w.node cfg).waiting[i]? with
    | none => exact h
    | some s =>
      have hmem := List.mem_of_getElem? hw
      dsimp only
      split
      · have h1 := h.sign hmem
        cases delivered with
        | false => exact h1
        | true =>
          refine h1.extend (.answer i (.success key us)) ?_
          rintro j a e rfl
          simp at e
      · rename_i hacc
        have hv : s.frame.voucher ≠ v := fun hv => hacc (accepts_node h hs hmem hv)
        have h1 : BackupInv cfg v { w with refused := w.refused ++ [(s.frame.voucher, s.frame.counter)] } := {
          nonempty := h.nonempty
          inRange := h.inRange
          kept := h.kept
          log := h.log
          refused := fun g hm => by
            rcases List.mem_append.mp hm with hm | hm
            · exact h.refused g hm
            · exact hv (Prod.mk.inj (List.mem_singleton.mp hm)).1.symm }
        cases delivered with
        | false => exact h1
        | true =>
          refine h1.extend (.answer i .alreadySpent) ?_
          intro j a e _ s' hs'
          simp only [RedeemEvent.answer.injEq] at e
          rw [← e.1] at hs'
          have : (w.node cfg).waiting[i]? = some s' := hs'
          rw [hw] at this
          rw [← Option.some.inj this]
          exact hv

theorem backupInv_run {cfg : RedeemCfg} {v : String} (events : List InstallationEvent)
    (hb : SignedBackedUp cfg v events) (hn : NoUnpaidBegin cfg v events) :
    BackupInv cfg v (({} : Installation).run cfg events) := by
  refine Installation.run_induction events (backupInv_init cfg v) ?_
  intro before e after he h
  refine backupInv_step h (sinv_run _ (rinv_init cfg) (sinv_init v) (hn before (e :: after) he)) e ?_
  rintro rfl
  exact hb before after he

/-- A backup made after the voucher was redeemed has everything. -/
theorem redeemed_backup {cfg : RedeemCfg} {v : String} (events : List InstallationEvent)
    (hall : SignsAll cfg events) (hn : NoUnpaidBegin cfg v events)
    (hb : BackedUpRedeemed cfg v events) : SignedBackedUp cfg v events := by
  have restored : ∀ before after, events = before ++ .lose :: after →
      BackupInv cfg v (({} : Installation).run cfg before) →
      ∀ g ts, HasSigned (({} : Installation).run cfg before) v g ts →
        Kept ((({} : Installation).run cfg before).replica cfg).store v g ts := by
    intro before after he h g ts hm
    rcases hb before after he with ⟨row, hrow, hst⟩ | hno
    · have hfull : FullAnswers v ((({} : Installation).run cfg before).node cfg).log := by
        refine full_run before ?_
        intro b i key us d a s hb' hw
        exact hall b i key us d (a ++ .lose :: after) s (by rw [he, hb']; simp) hw
      have hno := hn before (.lose :: after) he
      obtain ⟨l, hl⟩ := replica_log cfg (({} : Installation).run cfg before)
      rw [hl] at hfull hno
      have ht : TInv cfg v ((({} : Installation).run cfg before).replica cfg) :=
        tinv_run _ (rinv_init cfg) (sinv_init v) (tinv_init cfg v) (noUnpaidRestart_prefix hno)
          (fullAnswers_prefix hfull)
      exact .inl ⟨row, hrow, by rw [ht.complete row hrow hst]; exact h.inRange g ts hm⟩
    · exact absurd hm (hno g ts)
  have key : ∀ n, ∀ before after, before.length = n → events = before ++ after →
      BackupInv cfg v (({} : Installation).run cfg before) := by
    intro n
    induction n with
    | zero =>
      intro before after hlen _
      cases List.length_eq_zero_iff.mp hlen
      exact backupInv_init cfg v
    | succ n ih =>
      intro before after hlen he
      rcases List.eq_nil_or_concat before with rfl | ⟨b, e, rfl⟩
      · simp at hlen
      rw [List.concat_eq_append] at hlen he ⊢
      have hib := ih b (e :: after) (by simpa using hlen) (by simpa using he)
      rw [Installation.run_snoc]
      refine backupInv_step hib
        (sinv_run _ (rinv_init cfg) (sinv_init v) (hn b (e :: after) (by simpa using he))) e ?_
      rintro rfl
      exact restored b after (by simpa using he) hib
  intro before after he
  exact restored before after he (key _ before (.lose :: after) rfl he)

end ZKAP
