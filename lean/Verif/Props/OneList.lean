import Verif.Lemmas.SameTokens
import Verif.Props.IssuedValue
import Verif.Props.Finish

/-! More about issuers that redeem each group of a voucher for one list of random tokens: C26 and C120. -/
namespace ZKAP
open Spec

/-- **C26**, second half, in the life of a node with such an issuer: also for vouchers that are started again after they were
called unpaid. -/
theorem C26_issued_partial (L : Ristretto) (cfg : RedeemCfg) (v : Int) (events : List WholeEvent)
    (fresh : FreshLife L cfg v {} events)
    (signed : SignedOnce (WholeNode.run cfg (ristretto_signer L) v {} events).redeeming.log) (voucher : String) (g : Nat)
    (l₁ l₂ l₃ : List Happening) (ts ts' : List String)
    (hlog : (WholeNode.run cfg (ristretto_signer L) v {} events).redeeming.log =
      l₁ ++ .sent voucher g ts :: (l₂ ++ .sent voucher g ts' :: l₃))
    (hopen : ∀ pk us, .stored voucher g pk us ∉ l₂) : ts.Perm ts' := by
  obtain ⟨es, real, s, -⟩ := as_controller L cfg v events {} rfl fresh
  rw [s] at signed hlog
  exact (keptInv_issued real (rinv_init cfg) (onceInv_init L voucher) (keptInv_init voucher) signed).same
    g l₁ ts l₂ ts' l₃ hlog hopen

/-- **C120** after the life of a node with such an issuer: also for vouchers that were started again after they were called
unpaid. -/
theorem C120_issued_partial (L : Ristretto) (cfg : RedeemCfg) (hN : 0 < cfg.num_redemption_groups) (v : Int)
    (history : List WholeEvent) (fresh : FreshLife L cfg v {} history)
    (signed : SignedOnce (WholeNode.run cfg (ristretto_signer L) v {} history).redeeming.log) (events : List RedeemEvent)
    (voucher : String) (row : VoucherRow)
    (hrow : voucherRow (WholeNode.run cfg (ristretto_signer L) v {} history).redeeming.store voucher = some row)
    (hp : row.state = "pending")
    (hs : SmoothRun cfg ((WholeNode.run cfg (ristretto_signer L) v {} history).redeeming.step cfg .crash) events)
    (hi : Idle (((WholeNode.run cfg (ristretto_signer L) v {} history).redeeming.step cfg .crash).run cfg events)) :
    ∃ row', voucherRow (((WholeNode.run cfg (ristretto_signer L) v {} history).redeeming.step cfg .crash).run cfg events).store
      voucher = some row' ∧ row'.state = "redeemed" := by
  obtain ⟨es, real, s, -⟩ := as_controller L cfg v history {} rfl fresh
  rw [s] at signed hrow hs hi ⊢
  have ht := tinv_issued real (rinv_init cfg) (onceInv_init L voucher) (tinv_init cfg voucher) (fullAnswers_nil _) signed
  have ho := onceInv_run real (rinv_init cfg) (onceInv_init L voucher) signed
  have hlt : row.counter < cfg.num_redemption_groups := by
    have he := groups_exist (v := voucher) es (rinv_init cfg) (fun g h => nomatch h)
    rw [ho.groups, rowCounter, hrow] at he
    have hne : row.counter ≠ cfg.num_redemption_groups := by
      intro h
      rw [ht.reached row hrow hN h] at hp
      exact absurd hp (by decide)
    rcases Nat.eq_zero_or_pos row.counter with h0 | h0
    · omega
    · have := he (row.counter - 1) (List.mem_range.mpr (by show row.counter - 1 < row.counter; omega))
      omega
  exact C120_groups_left_partial cfg es events voucher row hrow hp hlt hs hi

/-! ### Examples -/

/-- The voucher is unpaid at first, its first group is redeemed, and it is started again with it.  For its new random tokens
the issuer does not redeem the group, and the voucher is tried once more. -/
def strictLifeWith (a : IssuerAnswer) : List WholeEvent := backFirst a .unpaid ++ [.redeeming .timer, idle, idle, idle, idle]

def strictLife : List WholeEvent := strictLifeWith (toyGives 1)

theorem strict_answer {a : IssuerAnswer} {pk : String} {us : List String} {i j : Nat}
    (h : (strictLifeWith a)[i]? = some (.redeeming (.answer j (.success pk us)))) : j = 0 ∧ i = 11 ∧ .success pk us = a := by
  match i, h with
  | 11, h => cases h; exact ⟨rfl, rfl, rfl⟩
  | n + 27, h => exact nomatch h

theorem strict_random {a : IssuerAnswer} {env : Env} {i : Nat} {w : String} {g n : Nat} {made : List String}
    (h : (strictLifeWith a)[i]? = some (.redeeming (.work env))) (hm : env.random w g n = .ok made) :
    i = 2 ∧ made = [toyRandom 1] ∨ i = 17 ∧ made = [toyRandom 5] := by
  have key : ∀ k, (strictLifeWith a)[k]? = some (.redeeming (.work env)) →
      env = envWith none ∨ k = 2 ∧ env = envWith (some 1) ∨ k = 17 ∧ env = envWith (some 5) := by
    intro k h
    match k, h with
    | 1, h | 3, h | 5, h | 7, h | 8, h | 9, h | 10, h | 12, h | 13, h | 15, h | 16, h | 18, h | 20, h | 21, h
    | 23, h | 24, h | 25, h | 26, h => cases h; exact .inl rfl
    | 2, h => cases h; exact .inr (.inl ⟨rfl, rfl⟩)
    | 17, h => cases h; exact .inr (.inr ⟨rfl, rfl⟩)
    | n + 27, h => exact nomatch h
  rcases key i h with rfl | ⟨rfl, rfl⟩ | ⟨rfl, rfl⟩
  · cases hm
  · exact .inl ⟨rfl, envWith_random hm⟩
  · exact .inr ⟨rfl, envWith_random hm⟩

theorem strict_asks : (twoNode (strictLife.take 11)).redeeming.waiting.map (·.tokens) = [[toyRandom 1]] := by decide +kernel

theorem strict_known : knownRandom (twoNode (strictLife.take 2)) = [] ∧
    ∀ r ∈ knownRandom (twoNode (strictLife.take 17)), r = toyRandom 1 := by decide +kernel

theorem strictLife_fresh : FreshLife toy twoCfg 10 {} strictLife := by
  refine freshLife_of strictLife {} fun i e he => ⟨?_, ?_⟩
  · rintro j pk us rfl s hs
    refine ⟨honestIssuer toy (fun _ _ => (0 : Fin 1)) (3 : Fin 6), ?_⟩
    obtain ⟨rfl, rfl, ha⟩ := strict_answer he
    rw [ha]; exact toy_gives 1 (only_waiting strict_asks hs) _ _
  · rintro e' made rfl ⟨env, f, rest, n, rfl, -, -, hm⟩ r hr p hp w g r' hk hp'
    have hk' := known_random hk
    rcases strict_random he hm with ⟨rfl, rfl⟩ | ⟨rfl, rfl⟩
    · rw [show knownRandom (WholeNode.run twoCfg (ristretto_signer toy) 10 {} (strictLife.take 2)) = [] from
        strict_known.1] at hk'
      exact nomatch hk'
    · rw [strict_known.2 r' hk'] at hp'
      rw [List.mem_singleton.mp hr] at hp
      have h1 := toy_preimage hp
      have h2 := toy_preimage hp'
      rw [h1] at h2
      exact absurd h2 (by decide)

theorem strict_signed : ∀ a ∈ signedRequests (twoNode strictLife).redeeming.log,
    ∀ b ∈ signedRequests (twoNode strictLife).redeeming.log, a.1 = b.1 → a.2.1 = b.2.1 → ∀ r ∈ a.2.2, r ∈ b.2.2 := by
  decide +kernel

/-- After it was redeemed, the first group is asked for twice more, with the same random tokens. -/
example : (twoNode strictLife).redeeming.log.filterMap
    (fun h => match h with | .sent _ g ts => some (g, ts) | .stored _ g _ _ => some (g, []) | _ => none) =
      [(0, [toyRandom 1]), (0, [toyRandom 1]), (0, []), (0, [toyRandom 5]), (0, [toyRandom 5])] := by decide +kernel

/-- The second group is not redeemed; it is when the node is started again. -/
theorem strict_row : ∃ row, voucherRow (twoNode strictLife).redeeming.store "voucher" = some row ∧ row.state = "pending" ∧
    row.counter = 1 := by
  have h : (voucherRow (twoNode strictLife).redeeming.store "voucher").map (fun r => (r.state, r.counter)) =
    some ("pending", 1) := by decide +kernel
  obtain ⟨row, h1, h2⟩ := Option.map_eq_some_iff.mp h
  exact ⟨row, h1, congrArg Prod.fst h2, congrArg Prod.snd h2⟩

example : ∃ events row, SmoothRun twoCfg ((twoNode strictLife).redeeming.step twoCfg .crash) events ∧
    voucherRow (((twoNode strictLife).redeeming.step twoCfg .crash).run twoCfg events).store "voucher" = some row ∧
    row.state = "redeemed" := by
  obtain ⟨es, -, s, -⟩ := as_controller toy twoCfg 10 strictLife {} rfl strictLife_fresh
  obtain ⟨events, hs, hi⟩ := C120_finishes twoCfg es
  have s' : (twoNode strictLife).redeeming = controllerAfter twoCfg es := s
  unfold restartedAfter at hs hi
  rw [← s'] at hs hi
  obtain ⟨row, h1, h2, -⟩ := strict_row
  obtain ⟨row', h3, h4⟩ := C120_issued_partial toy twoCfg (by decide) 10 strictLife strictLife_fresh
    (signedOnce_of strict_signed) events "voucher" row h1 h2 hs hi
  exact ⟨events, row', hs, h3, h4⟩

end ZKAP
