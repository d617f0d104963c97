import Verif.Lemmas.OwnTokens
import Verif.Props.Recurrence

/-! C171 with fresh random numbers in place of an assumption about the tokens that are issued. -/
namespace ZKAP
open Spec

/-- A node that stores its groups in order does not get tokens again that it found invalid. -/
theorem not_reissued {L : Ristretto} (hL : Lawful L) {cfg : RedeemCfg} {v : Int} {past : List WholeEvent}
    (fresh : FreshLife L cfg v {} past)
    (order : ∀ f pk us rest, (WholeNode.run cfg (ristretto_signer L) v {} past).redeeming.todo =
        .answered f (.success pk us) :: rest →
      f.counter ∉ redeemedGroups f.voucher (WholeNode.run cfg (ristretto_signer L) v {} past).redeeming.log)
    (e : WholeEvent) : NotReissued (WholeNode.run cfg (ristretto_signer L) v {} past) e := by
  intro env f pk us rest _ ht x hx hinv
  obtain ⟨es, real, s, -⟩ := as_controller L cfg v past {} rfl fresh
  have ho := originInv_run hL real (rinv_init cfg) (originInv_init L)
  rw [← s] at ho
  have hrec : ClientOf (Recorded (WholeNode.run cfg (ristretto_signer L) v {} past).redeeming.log)
      (WholeNode.run cfg (ristretto_signer L) v {} past).storage :=
    recordedAll_run _ v past ⟨⟨fun _ hx => (nomatch hx), fun _ hx => (nomatch hx)⟩, fun _ hoc => (nomatch hoc)⟩
  obtain ⟨w, g, pk', us', hm, hx'⟩ := hrec.store.invalid x hinv
  obtain ⟨ts, r, p, h1, h2, h3, h4⟩ := ho.stored w g pk' us' hm x hx'
  obtain ⟨ts', r', p', h1', h2', h3', h4'⟩ := ho.answers f pk us (by rw [ht]; exact List.mem_cons_self) x hx
  cases h4.unique hL h4'
  obtain ⟨rfl, rfl⟩ := ho.own w g r f.voucher f.counter r' p (.inl ⟨ts, h1, h2⟩) (.inl ⟨ts', h1', h2'⟩) h3 h3'
  exact order f pk us rest ht (redeemed_of_stored hm)

theorem fresh_answers {L : Ristretto} {cfg : RedeemCfg} {v : Int} {events : List WholeEvent} {n : WholeNode}
    (fresh : FreshLife L cfg v n events) {i : Nat} {e : WholeEvent} (he : events[i]? = some e) :
    AnswerReal L (n.run cfg (ristretto_signer L) v (events.take i)) e := by
  induction events generalizing n i with
  | nil => exact nomatch he
  | cons e' es ih =>
    obtain ⟨h1, -, h3⟩ := fresh
    cases i with
    | zero => cases he; exact h1
    | succ i => exact ih h3 he

theorem fresh_take {L : Ristretto} {cfg : RedeemCfg} {v : Int} {events : List WholeEvent} {n : WholeNode}
    (fresh : FreshLife L cfg v n events) (i : Nat) : FreshLife L cfg v n (events.take i) := by
  rw [← List.take_append_drop i events] at fresh
  exact (freshLife_append fresh).1

/-- The record of the past is part of the record. -/
theorem take_log {L : Ristretto} {cfg : RedeemCfg} {v : Int} {events : List WholeEvent}
    (fresh : FreshLife L cfg v {} events) (i : Nat) : ∃ l,
    (WholeNode.run cfg (ristretto_signer L) v {} events).redeeming.log =
      (WholeNode.run cfg (ristretto_signer L) v {} (events.take i)).redeeming.log ++ l := by
  have fresh' := fresh
  rw [← List.take_append_drop i events] at fresh'
  obtain ⟨f1, f2⟩ := freshLife_append fresh'
  obtain ⟨e1, -, -, t1⟩ := as_controller L cfg v _ {} rfl f1
  obtain ⟨e2, -, s2, -⟩ := as_controller L cfg v _ _ t1 f2
  rw [← whole_run_append, List.take_append_drop] at s2
  obtain ⟨l, hl⟩ := run_log cfg e2 (WholeNode.run cfg (ristretto_signer L) v {} (events.take i)).redeeming
  exact ⟨l, by rw [s2]; exact hl⟩

/-- **C171**, the assumption about tokens that are issued again: random numbers that are fresh, and an issuer that redeems each
group of a voucher for one list of random tokens, give lives that C171 is about. -/
theorem C171_real_life (L : Ristretto) (hL : Lawful L) (cfg : RedeemCfg) (v : Int) (events : List WholeEvent)
    (fresh : FreshLife L cfg v {} events)
    (signed : SignedOnce (WholeNode.run cfg (ristretto_signer L) v {} events).redeeming.log) :
    RealLife L cfg v {} events := by
  refine realLife_of events {} fun i e he => ⟨fresh_answers fresh he, ?_⟩
  have hf := fresh_take fresh i
  refine not_reissued hL hf ?_ e
  intro f pk us rest ht
  obtain ⟨l, hl⟩ := take_log fresh i
  rw [hl] at signed
  have signed' := SignedOnce.prefix signed
  obtain ⟨es, real, s, -⟩ := as_controller L cfg v _ {} rfl hf
  rw [s] at signed' ht ⊢
  have h := onceInv_run real (rinv_init cfg) (onceInv_init L f.voucher) signed'
  have hc : f.counter = rowCounter _ f.voucher := (h.ready f pk us rest ht rfl).1
  rw [h.groups, hc]
  simp

/-- **C171**, the same for any issuer, if no voucher that it called unpaid is started again after some of its groups have been
redeemed. -/
theorem C171_real_life_smooth (L : Ristretto) (hL : Lawful L) (cfg : RedeemCfg) (v : Int) (events : List WholeEvent)
    (fresh : FreshLife L cfg v {} events)
    (smooth : ∀ w, NoUnpaidRestart w (WholeNode.run cfg (ristretto_signer L) v {} events).redeeming.log) :
    RealLife L cfg v {} events := by
  refine realLife_of events {} fun i e he => ⟨fresh_answers fresh he, ?_⟩
  have hf := fresh_take fresh i
  refine not_reissued hL hf ?_ e
  intro f pk us rest ht
  obtain ⟨l, hl⟩ := take_log fresh i
  have hs := smooth f.voucher
  rw [hl] at hs
  have hs := noUnpaidRestart_prefix hs
  obtain ⟨es, real, s, -⟩ := as_controller L cfg v _ {} rfl hf
  rw [s] at hs ht ⊢
  have h := sinv_run es (rinv_init cfg) (sinv_init f.voucher) hs
  have hc : f.counter = rowCounter _ f.voucher :=
    h.frames f (List.mem_append_right _ (by rw [ht]; simp [taskFrame])) rfl
  rw [h.groups, hc]
  simp

/-- **C171** for single operations, with fresh random numbers and an issuer that redeems each group once. -/
theorem C171_operation_issued (L : Ristretto) (hL : Lawful L) (hS : Sound L) (k : L.Scalar) (cfg : RedeemCfg)
    (keys : OnlyKey L k cfg) (c : Customer) (events : List WholeEvent) (fresh : FreshLife L cfg c.cfg.pass_value {} events)
    (signed : SignedOnce (WholeNode.run cfg (ristretto_signer L) c.cfg.pass_value {} events).redeeming.log)
    (client : c.client = (WholeNode.run cfg (ristretto_signer L) c.cfg.pass_value {} events).storage)
    (signer : c.sign = ristretto_signer L) (key : HasKey L k c.cfg) (h : EnoughTokens c)
    (quiet : IsWrite c.op → NoLeaseEnds c) : CarriedOut c (charged c) :=
  C171_operation L hL hS k cfg keys c events (C171_real_life L hL cfg _ events fresh signed) client signer key h quiet

/-- The life of `soundLife` is one, and that of `spentLife`. -/
example : RealLife toy twoCfg 10 {} soundLife :=
  C171_real_life toy toy_lawful twoCfg 10 soundLife soundLife_fresh (signedOnce_of sound_held.2.2.1)

example : RealLife toy twoCfg 10 {} (spentLife (toyGives 1) (toyGives 5)) :=
  C171_real_life_smooth toy toy_lawful twoCfg 10 _ spentLife_fresh (smooth_of_paid spent_held.2.2)

end ZKAP
