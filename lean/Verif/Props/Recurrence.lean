import Verif.Lemmas.SignedOnce
import Verif.Props.WholeNode

/-! C172: a token that was spent does not come back. -/
namespace ZKAP
open Spec

/-- **C172**: in the life of a node, from its first start on, a token that was in the database and no longer is does not
come into it again. -/
def C172_statement : Prop :=
  ∀ (L : Ristretto), Lawful L → ∀ (cfg : RedeemCfg) (v : Int) (before between after : List WholeEvent),
    FreshLife L cfg v {} (before ++ between ++ after) → ∀ x,
    HeldBy (WholeNode.run cfg (ristretto_signer L) v {} before) x →
    ¬ HeldBy (WholeNode.run cfg (ristretto_signer L) v {} (before ++ between)) x →
    ¬ HeldBy (WholeNode.run cfg (ristretto_signer L) v {} (before ++ between ++ after)) x

theorem freshLife_append {L : Ristretto} {cfg : RedeemCfg} {v : Int} {a b : List WholeEvent} : ∀ {n : WholeNode},
    FreshLife L cfg v n (a ++ b) → FreshLife L cfg v n a ∧ FreshLife L cfg v (n.run cfg (ristretto_signer L) v a) b := by
  induction a with
  | nil => exact fun h => ⟨trivial, h⟩
  | cons e es ih =>
    intro n ⟨h1, h2, h3⟩
    obtain ⟨k1, k2⟩ := ih h3
    exact ⟨⟨h1, h2, k1⟩, k2⟩

theorem whole_run_append (cfg : RedeemCfg) (sign : Signer) (v : Int) (n : WholeNode) (a b : List WholeEvent) :
    n.run cfg sign v (a ++ b) = (n.run cfg sign v a).run cfg sign v b := List.foldl_append ..

/-- **C172** for histories in which the tokens of a group of a voucher are stored once.  What is missing: vouchers that
are started again from the first group. -/
theorem C172_once_partial (L : Ristretto) (hL : Lawful L) (cfg : RedeemCfg) (v : Int)
    (before between after : List WholeEvent) (fresh : FreshLife L cfg v {} (before ++ between ++ after))
    (once : ∀ w, (redeemedGroups w
      (WholeNode.run cfg (ristretto_signer L) v {} (before ++ between ++ after)).redeeming.log).Nodup)
    (x : String) (held : HeldBy (WholeNode.run cfg (ristretto_signer L) v {} before) x)
    (gone : ¬ HeldBy (WholeNode.run cfg (ristretto_signer L) v {} (before ++ between)) x) :
    ¬ HeldBy (WholeNode.run cfg (ristretto_signer L) v {} (before ++ between ++ after)) x := by
  obtain ⟨f12, f3⟩ := freshLife_append fresh
  obtain ⟨f1, f2⟩ := freshLife_append f12
  obtain ⟨e1, r1, s1, t1⟩ := as_controller L cfg v before {} rfl f1
  obtain ⟨e2, r2, s2, t2⟩ := as_controller L cfg v between _ t1 f2
  rw [← whole_run_append] at s2 t2
  obtain ⟨e3, r3, s3, t3⟩ := as_controller L cfg v after _ t2 f3
  rw [← whole_run_append] at s3 t3
  unfold HeldBy at held gone ⊢
  rw [← t1, s1] at held
  rw [← t2, s2, s1] at gone
  rw [← t3, s3, s2, s1]
  rw [s3, s2, s1] at once
  rw [s1] at r2
  rw [s2, s1] at r3
  have hr1 := rinv_run cfg e1 (rinv_init cfg)
  have ho1 := originInv_run hL r1 (rinv_init cfg) (originInv_init L)
  obtain ⟨w, g, pk, us, hm, hx⟩ := ho1.seen x held
  have hr2 := rinv_run cfg e2 hr1
  have ho2 := originInv_run hL r2 hr1 ho1
  obtain ⟨l, hl⟩ := run_log cfg e2 (Controller.run cfg {} e1)
  exact not_again hL r3 hr2 ho2 once (by rw [hl]; exact List.mem_append_left _ hm) hx gone

/-- **C172** for histories in which no voucher that the issuer called unpaid is started again after some of its groups have
been redeemed.  What is missing: such vouchers. -/
theorem C172_partial (L : Ristretto) (hL : Lawful L) (cfg : RedeemCfg) (v : Int)
    (before between after : List WholeEvent) (fresh : FreshLife L cfg v {} (before ++ between ++ after))
    (smooth : ∀ w, NoUnpaidRestart w
      (WholeNode.run cfg (ristretto_signer L) v {} (before ++ between ++ after)).redeeming.log)
    (x : String) (held : HeldBy (WholeNode.run cfg (ristretto_signer L) v {} before) x)
    (gone : ¬ HeldBy (WholeNode.run cfg (ristretto_signer L) v {} (before ++ between)) x) :
    ¬ HeldBy (WholeNode.run cfg (ristretto_signer L) v {} (before ++ between ++ after)) x := by
  refine C172_once_partial L hL cfg v before between after fresh ?_ x held gone
  obtain ⟨es, -, s, -⟩ := as_controller L cfg v _ {} rfl fresh
  intro w
  have hs := smooth w
  rw [s] at hs ⊢
  rw [(sinv_run es (rinv_init cfg) (sinv_init w) hs).groups]
  exact List.nodup_range

/-- **C172** with an issuer that redeems each group of a voucher for one list of random tokens, as long as it is asked about
it.  What is missing: issuers that sign other random tokens for a group they have signed some for. -/
theorem C172_issuer_partial (L : Ristretto) (hL : Lawful L) (cfg : RedeemCfg) (v : Int)
    (before between after : List WholeEvent) (fresh : FreshLife L cfg v {} (before ++ between ++ after))
    (signed : SignedOnce (WholeNode.run cfg (ristretto_signer L) v {} (before ++ between ++ after)).redeeming.log)
    (x : String) (held : HeldBy (WholeNode.run cfg (ristretto_signer L) v {} before) x)
    (gone : ¬ HeldBy (WholeNode.run cfg (ristretto_signer L) v {} (before ++ between)) x) :
    ¬ HeldBy (WholeNode.run cfg (ristretto_signer L) v {} (before ++ between ++ after)) x := by
  refine C172_once_partial L hL cfg v before between after fresh ?_ x held gone
  obtain ⟨es, real, s, -⟩ := as_controller L cfg v _ {} rfl fresh
  intro w
  rw [s] at signed ⊢
  rw [(onceInv_run real (rinv_init cfg) (onceInv_init L w) signed).groups]
  exact List.nodup_range

/-! ### A token that comes back -/

/-- What the toy issuer with key 3 makes of random tokens. -/
theorem toy_answer (ts : List (toy.Preimage × toy.Scalar)) (voucher : String) (counter : Nat) :
    to_answer (redeemWithCounter toy (honestIssuer toy (fun _ _ => (0 : Fin 1)) (3 : Fin 6)) voucher counter
      (ts.map toy.random_tokens.encode)) =
      .success toyKeyText (ts.map fun t => text (toy.unblinded_tokens.encode (toy.rederive (3 : Fin 6) t.1))) := by
  have hb : basic_random_tokens toy (ts.map toy.random_tokens.encode) = .ok ts := by
    unfold basic_random_tokens
    rw [try_map_map, try_map_of (g := id) (by
      intro t _; unfold Codec.decode_base64; rw [toy_lawful.random_tokens]; rfl), List.map_id]
  unfold redeemWithCounter
  rw [hb]
  dsimp only
  rw [honest_response toy toy_lawful _ toy_complete]
  show IssuerAnswer.success _ (List.map _ (List.map _ _)) = _
  rw [List.map_map]
  rfl

/-- A random token. -/
def toyRandom (p : Fin 6) : String := text (toy.random_tokens.encode (p, (3 : Fin 6)))

/-- What is made of it. -/
def toyTokenOf (p : Fin 6) : String := text (toy.unblinded_tokens.encode (toy.rederive (3 : Fin 6) p))

/-- The answer to a request with one random token. -/
def toyGives (p : Fin 6) : IssuerAnswer := .success toyKeyText [toyTokenOf p]

theorem toy_gives {ts : List String} (p : Fin 6) (h : ts = [toyRandom p]) (voucher : String) (counter : Nat) :
    to_answer (redeemWithCounter toy (honestIssuer toy (fun _ _ => (0 : Fin 1)) (3 : Fin 6)) voucher counter
      (ts.map ascii)) = toyGives p := by
  subst h
  have : [toyRandom p].map ascii = [(p, (3 : Fin 6))].map toy.random_tokens.encode := by
    simp only [toyRandom, List.map_cons, List.map_nil, ascii_text]
  rw [this, toy_answer]
  rfl

/-- Surroundings in which one random token can be made, and those in which none can. -/
def envWith (p : Option (Fin 6)) : Env where
  now := "2020"
  order := .natural
  random := fun _ _ n => match p with
    | some p => if n = 1 then .ok [toyRandom p] else .error .valueError
    | none => .error .valueError
  random_length := by
    intro v c n ts h
    cases p with
    | none => cases h
    | some p =>
      dsimp only at h
      split at h
      · cases h; subst n; rfl
      · cases h

/-- Vouchers are for two tokens, in two groups. -/
def twoCfg : RedeemCfg := { num_redemption_groups := 2, default_token_count := 2, allowed_public_keys := [toyKeyText] }

def idle : WholeEvent := .redeeming (.work (envWith none))

/-- The voucher is not paid for at first.  Then its first group is redeemed; for the second no random tokens can be made.  It
is started again with the first group, because it was unpaid once. -/
def backFirst (a b : IssuerAnswer) : List WholeEvent :=
  [.redeeming (.redeem "voucher" none), idle, .redeeming (.work (envWith (some 1))), idle,
   .redeeming (.answer 0 .unpaid), idle,
   .redeeming .timer, idle, idle, idle, idle, .redeeming (.answer 0 a), idle, idle,
   .redeeming .timer, idle, idle, .redeeming (.work (envWith (some 5))), idle, .redeeming (.answer 0 b), idle, idle]

/-- Two tokens are spent for a lease. -/
def backSpend : List WholeEvent :=
  [.storage (.start exExtend exRight .natural), .storage (.answer 0 (.result (.dict [(.int 0, .int 20)])) 0 .natural),
   .storage (.answerPaid 0 (.result .none) 0 .natural)]

/-- The voucher is started again. -/
def backAgain (b : IssuerAnswer) : List WholeEvent :=
  [.redeeming .timer, idle, idle, idle, idle, .redeeming (.answer 0 b), idle, idle]

def twoNode (events : List WholeEvent) : WholeNode := WholeNode.run twoCfg (ristretto_signer toy) 10 {} events

def backLifeWith (a b : IssuerAnswer) : List WholeEvent := backFirst a b ++ backSpend ++ backAgain b

def backLife : List WholeEvent := backLifeWith (toyGives 1) (toyGives 5)

theorem back_answer {a b : IssuerAnswer} {pk : String} {us : List String} {i j : Nat}
    (h : (backLifeWith a b)[i]? = some (.redeeming (.answer j (.success pk us)))) :
    j = 0 ∧ (i = 11 ∧ .success pk us = a ∨ i = 19 ∧ .success pk us = b ∨ i = 30 ∧ .success pk us = b) := by
  match i, h with
  | 11, h => cases h; exact ⟨rfl, .inl ⟨rfl, rfl⟩⟩
  | 19, h => cases h; exact ⟨rfl, .inr (.inl ⟨rfl, rfl⟩)⟩
  | 30, h => cases h; exact ⟨rfl, .inr (.inr ⟨rfl, rfl⟩)⟩
  | n + 33, h => exact nomatch h

theorem envWith_random {p : Fin 6} {w : String} {g n : Nat} {made : List String}
    (h : (envWith (some p)).random w g n = .ok made) : made = [toyRandom p] := by
  unfold envWith at h
  dsimp only at h
  split at h
  · cases h; rfl
  · cases h

theorem back_random {a b : IssuerAnswer} {env : Env} {i : Nat} {w : String} {g n : Nat} {made : List String}
    (h : (backLifeWith a b)[i]? = some (.redeeming (.work env))) (hm : env.random w g n = .ok made) :
    i = 2 ∧ made = [toyRandom 1] ∨ i = 17 ∧ made = [toyRandom 5] := by
  have key : ∀ k, (backLifeWith a b)[k]? = some (.redeeming (.work env)) →
      env = envWith none ∨ k = 2 ∧ env = envWith (some 1) ∨ k = 17 ∧ env = envWith (some 5) := by
    intro k h
    match k, h with
    | 1, h | 3, h | 5, h | 7, h | 8, h | 9, h | 10, h | 12, h | 13, h | 15, h | 16, h | 18, h | 20, h | 21, h
    | 26, h | 27, h | 28, h | 29, h | 31, h | 32, h => cases h; exact .inl rfl
    | 2, h => cases h; exact .inr (.inl ⟨rfl, rfl⟩)
    | 17, h => cases h; exact .inr (.inr ⟨rfl, rfl⟩)
    | n + 33, h => exact nomatch h
  rcases key i h with rfl | ⟨rfl, rfl⟩ | ⟨rfl, rfl⟩
  · cases hm
  · exact .inl ⟨rfl, envWith_random hm⟩
  · exact .inr ⟨rfl, envWith_random hm⟩

theorem freshLife_of {L : Ristretto} {cfg : RedeemCfg} {v : Int} (events : List WholeEvent) : ∀ n : WholeNode,
    (∀ i e, events[i]? = some e → AnswerReal L (n.run cfg (ristretto_signer L) v (events.take i)) e ∧
      NewRandom L (n.run cfg (ristretto_signer L) v (events.take i)) e) → FreshLife L cfg v n events := by
  induction events with
  | nil => exact fun _ _ => trivial
  | cons e es ih =>
    intro n h
    exact ⟨(h 0 e rfl).1, (h 0 e rfl).2, ih _ fun i e' he => h (i + 1) e' he⟩

def sentRandom : Happening → List String
  | .sent _ _ ts => ts
  | _ => []

/-- The random tokens a node knows. -/
def knownRandom (n : WholeNode) : List String :=
  n.redeeming.log.flatMap sentRandom ++ n.storage.store.app.tokens.map (·.text)

theorem known_random {n : WholeNode} {w r : String} {g : Nat}
    (h : KnownFor { n.redeeming with store := n.storage.store } w g r) : r ∈ knownRandom n := by
  rcases h with ⟨ts, h1, h2⟩ | h
  · exact List.mem_append_left _ (List.mem_flatMap.mpr ⟨_, h1, h2⟩)
  · exact List.mem_append_right _ (List.mem_map.mpr ⟨_, mem_random.mp h, rfl⟩)

theorem toy_preimage {p : Fin 6} {q : toy.Preimage} (h : HasPreimage toy (toyRandom p) q) : q = p := by
  obtain ⟨b, h⟩ := h
  unfold toyRandom at h
  rw [ascii_text, toy_lawful.random_tokens] at h
  cases h
  rfl

theorem back_asks :
    (twoNode (backLife.take 11)).redeeming.waiting.map (·.tokens) = [[toyRandom 1]] ∧
    (twoNode (backLife.take 19)).redeeming.waiting.map (·.tokens) = [[toyRandom 5]] ∧
    (twoNode (backLife.take 30)).redeeming.waiting.map (·.tokens) = [[toyRandom 5]] := by decide +kernel

theorem back_known : knownRandom (twoNode (backLife.take 2)) = [] ∧
    ∀ r ∈ knownRandom (twoNode (backLife.take 17)), r = toyRandom 1 := by decide +kernel

theorem backLife_fresh : FreshLife toy twoCfg 10 {} backLife := by
  refine freshLife_of backLife {} fun i e he => ⟨?_, ?_⟩
  · rintro j pk us rfl s hs
    refine ⟨honestIssuer toy (fun _ _ => (0 : Fin 1)) (3 : Fin 6), ?_⟩
    obtain ⟨rfl, ⟨rfl, ha⟩ | ⟨rfl, ha⟩ | ⟨rfl, ha⟩⟩ := back_answer he
    · rw [ha]; exact toy_gives 1 (only_waiting back_asks.1 hs) _ _
    · rw [ha]; exact toy_gives 5 (only_waiting back_asks.2.1 hs) _ _
    · rw [ha]; exact toy_gives 5 (only_waiting back_asks.2.2 hs) _ _
  · rintro e' made rfl ⟨env, f, rest, n, rfl, -, -, hm⟩ r hr p hp w g r' hk hp'
    have hk' := known_random hk
    rcases back_random he hm with ⟨rfl, rfl⟩ | ⟨rfl, rfl⟩
    · rw [show knownRandom (WholeNode.run twoCfg (ristretto_signer toy) 10 {} (backLife.take 2)) = [] from back_known.1] at hk'
      exact nomatch hk'
    · rw [back_known.2 r' hk'] at hp'
      rw [List.mem_singleton.mp hr] at hp
      have h1 := toy_preimage hp
      have h2 := toy_preimage hp'
      rw [h1] at h2
      exact absurd h2 (by decide)

theorem back_held :
    toyTokenOf 5 ∈ storedTokens (twoNode (backFirst (toyGives 1) (toyGives 5))).storage.store ∧
    storedTokens (twoNode (backFirst (toyGives 1) (toyGives 5) ++ backSpend)).storage.store = [] ∧
    toyTokenOf 5 ∈ storedTokens
      (twoNode (backFirst (toyGives 1) (toyGives 5) ++ backSpend ++ backAgain (toyGives 5))).storage.store := by decide +kernel

theorem none_left {n : WholeNode} (h : storedTokens n.storage.store = []) (x : String) : ¬ HeldBy n x := by
  intro hx
  unfold HeldBy at hx
  rw [h] at hx
  exact nomatch hx

/-- **C172** does not hold: a voucher that was unpaid at first is started again with its first group although that has been
redeemed.  The random tokens made for this stay in the database when their signatures are stored, and are sent again the
next time; the tokens that they give may have been spent since. -/
theorem C172_fails : ¬ C172_statement := by
  intro h
  exact h toy toy_lawful twoCfg 10 (backFirst (toyGives 1) (toyGives 5)) backSpend (backAgain (toyGives 5)) backLife_fresh
    (toyTokenOf 5) back_held.1 (none_left back_held.2.1 _) back_held.2.2

/-! ### An example -/

/-- A voucher is redeemed. -/
def spentFirst (a b : IssuerAnswer) : List WholeEvent :=
  [.redeeming (.redeem "voucher" none), idle, .redeeming (.work (envWith (some 1))), idle, .redeeming (.answer 0 a), idle,
   .redeeming (.work (envWith (some 5))), idle, .redeeming (.answer 0 b), idle, idle]

/-- The process is started again, and so is the voucher. -/
def spentAgain : List WholeEvent := [.crash, .redeeming (.redeem "voucher" none), idle]

/-- In between its tokens are spent. -/
def spentLife (a b : IssuerAnswer) : List WholeEvent := spentFirst a b ++ backSpend ++ spentAgain

theorem spent_answer {a b : IssuerAnswer} {pk : String} {us : List String} {i j : Nat}
    (h : (spentLife a b)[i]? = some (.redeeming (.answer j (.success pk us)))) :
    j = 0 ∧ (i = 4 ∧ .success pk us = a ∨ i = 8 ∧ .success pk us = b) := by
  match i, h with
  | 4, h => cases h; exact ⟨rfl, .inl ⟨rfl, rfl⟩⟩
  | 8, h => cases h; exact ⟨rfl, .inr ⟨rfl, rfl⟩⟩
  | n + 17, h => exact nomatch h

theorem spent_random {a b : IssuerAnswer} {env : Env} {i : Nat} {w : String} {g n : Nat} {made : List String}
    (h : (spentLife a b)[i]? = some (.redeeming (.work env))) (hm : env.random w g n = .ok made) :
    i = 2 ∧ made = [toyRandom 1] ∨ i = 6 ∧ made = [toyRandom 5] := by
  have key : ∀ k, (spentLife a b)[k]? = some (.redeeming (.work env)) →
      env = envWith none ∨ k = 2 ∧ env = envWith (some 1) ∨ k = 6 ∧ env = envWith (some 5) := by
    intro k h
    match k, h with
    | 1, h | 3, h | 5, h | 7, h | 9, h | 10, h | 16, h => cases h; exact .inl rfl
    | 2, h => cases h; exact .inr (.inl ⟨rfl, rfl⟩)
    | 6, h => cases h; exact .inr (.inr ⟨rfl, rfl⟩)
    | n + 17, h => exact nomatch h
  rcases key i h with rfl | ⟨rfl, rfl⟩ | ⟨rfl, rfl⟩
  · cases hm
  · exact .inl ⟨rfl, envWith_random hm⟩
  · exact .inr ⟨rfl, envWith_random hm⟩

theorem spent_asks :
    (twoNode ((spentLife (toyGives 1) (toyGives 5)).take 4)).redeeming.waiting.map (·.tokens) = [[toyRandom 1]] ∧
    (twoNode ((spentLife (toyGives 1) (toyGives 5)).take 8)).redeeming.waiting.map (·.tokens) = [[toyRandom 5]] := by
  decide +kernel

theorem spent_known : knownRandom (twoNode ((spentLife (toyGives 1) (toyGives 5)).take 2)) = [] ∧
    ∀ r ∈ knownRandom (twoNode ((spentLife (toyGives 1) (toyGives 5)).take 6)), r = toyRandom 1 := by decide +kernel

theorem spentLife_fresh : FreshLife toy twoCfg 10 {} (spentLife (toyGives 1) (toyGives 5)) := by
  refine freshLife_of _ {} fun i e he => ⟨?_, ?_⟩
  · rintro j pk us rfl s hs
    refine ⟨honestIssuer toy (fun _ _ => (0 : Fin 1)) (3 : Fin 6), ?_⟩
    obtain ⟨rfl, ⟨rfl, ha⟩ | ⟨rfl, ha⟩⟩ := spent_answer he
    · rw [ha]; exact toy_gives 1 (only_waiting spent_asks.1 hs) _ _
    · rw [ha]; exact toy_gives 5 (only_waiting spent_asks.2 hs) _ _
  · rintro e' made rfl ⟨env, f, rest, n, rfl, -, -, hm⟩ r hr p hp w g r' hk hp'
    have hk' := known_random hk
    rcases spent_random he hm with ⟨rfl, rfl⟩ | ⟨rfl, rfl⟩
    · rw [show knownRandom (WholeNode.run twoCfg (ristretto_signer toy) 10 {}
        ((spentLife (toyGives 1) (toyGives 5)).take 2)) = [] from spent_known.1] at hk'
      exact nomatch hk'
    · rw [spent_known.2 r' hk'] at hp'
      rw [List.mem_singleton.mp hr] at hp
      have h1 := toy_preimage hp
      have h2 := toy_preimage hp'
      rw [h1] at h2
      exact absurd h2 (by decide)

theorem spent_held :
    toyTokenOf 5 ∈ storedTokens (twoNode (spentFirst (toyGives 1) (toyGives 5))).storage.store ∧
    storedTokens (twoNode (spentFirst (toyGives 1) (toyGives 5) ++ backSpend)).storage.store = [] ∧
    (twoNode (spentFirst (toyGives 1) (toyGives 5) ++ backSpend ++ spentAgain)).redeeming.log.all
      (fun h => match h with | .answer _ _ .unpaid => false | _ => true) = true := by decide +kernel

theorem smooth_of_paid {log : List Happening}
    (h : log.all (fun h => match h with | .answer _ _ .unpaid => false | _ => true) = true) (w : String) :
    NoUnpaidRestart w log := by
  rintro l₁ c l₂ rfl ⟨l, d, l', rfl, -⟩
  have := List.all_eq_true.mp h (.answer w d .unpaid) (by simp)
  cases this

example : ¬ HeldBy (twoNode (spentFirst (toyGives 1) (toyGives 5) ++ backSpend ++ spentAgain)) (toyTokenOf 5) :=
  C172_partial toy toy_lawful twoCfg 10 (spentFirst (toyGives 1) (toyGives 5)) backSpend spentAgain spentLife_fresh
    (smooth_of_paid spent_held.2.2) (toyTokenOf 5) spent_held.1 (none_left spent_held.2.1 _)

/-- Is there a successful answer about the group before the next request about the voucher? -/
def repliedIn (v : String) (g : Nat) : List Happening → Bool
  | [] => false
  | .sent w _ _ :: l => if w = v then false else repliedIn v g l
  | .answer w d (.success _ _) :: l => if w = v ∧ d = g then true else repliedIn v g l
  | _ :: l => repliedIn v g l

/-- The requests that were answered with signatures. -/
def signedRequests : List Happening → List (String × Nat × List String)
  | [] => []
  | .sent v g ts :: l => if repliedIn v g l then (v, g, ts) :: signedRequests l else signedRequests l
  | _ :: l => signedRequests l

theorem repliedIn_of {v : String} {g : Nat} {pk : String} {us : List String} {l₂ l₃ : List Happening}
    (h : ∀ d ts, .sent v d ts ∉ l₂) : repliedIn v g (l₂ ++ .answer v g (.success pk us) :: l₃) = true := by
  induction l₂ with
  | nil => simp [repliedIn]
  | cons x xs ih =>
    have ih := ih fun d ts hm => h d ts (List.mem_cons_of_mem _ hm)
    cases x with
    | sent w d ts =>
      rw [List.cons_append, repliedIn, if_neg]
      · exact ih
      · rintro rfl
        exact h d ts List.mem_cons_self
    | answer w d a =>
      cases a with
      | success pk us =>
        rw [List.cons_append, repliedIn]
        split
        · rfl
        · exact ih
      | _ => exact ih
    | _ => exact ih

theorem signedRequests_of {log : List Happening} {v : String} {g : Nat} {ts : List String} (h : AnsweredFor log v g ts) :
    (v, g, ts) ∈ signedRequests log := by
  obtain ⟨l₁, l₂, l₃, pk, us, rfl, h⟩ := h
  induction l₁ with
  | nil =>
    show _ ∈ signedRequests (.sent v g ts :: (l₂ ++ .answer v g (.success pk us) :: l₃))
    rw [signedRequests, if_pos (repliedIn_of h)]
    exact List.mem_cons_self
  | cons x xs ih =>
    cases x with
    | sent w d ts' =>
      show _ ∈ signedRequests (.sent w d ts' :: (xs ++ .sent v g ts :: l₂ ++ .answer v g (.success pk us) :: l₃))
      rw [signedRequests]
      split
      · exact List.mem_cons_of_mem _ ih
      · exact ih
    | _ => exact ih

theorem signedOnce_of {log : List Happening}
    (h : ∀ a ∈ signedRequests log, ∀ b ∈ signedRequests log, a.1 = b.1 → a.2.1 = b.2.1 → ∀ r ∈ a.2.2, r ∈ b.2.2) :
    SignedOnce log :=
  fun _ _ _ _ h1 h2 => h _ (signedRequests_of h1) _ (signedRequests_of h2) rfl rfl

/-- The voucher is unpaid at first, as in `backFirst`, but the issuer does not sign other random tokens for the first group.
The token is spent, and the voucher tried again. -/
def soundFirst : List WholeEvent := backFirst (toyGives 1) .alreadySpent

def soundSpend : List WholeEvent :=
  [.storage (.start exExtend exRight .natural), .storage (.answer 0 (.result (.dict [(.int 0, .int 10)])) 0 .natural),
   .storage (.answerPaid 0 (.result .none) 0 .natural)]

def soundAgain : List WholeEvent := [.redeeming .timer, idle, idle]

def soundLifeWith (a : IssuerAnswer) : List WholeEvent := backFirst a .alreadySpent ++ soundSpend ++ soundAgain

def soundLife : List WholeEvent := soundLifeWith (toyGives 1)

theorem sound_answer {a : IssuerAnswer} {pk : String} {us : List String} {i j : Nat}
    (h : (soundLifeWith a)[i]? = some (.redeeming (.answer j (.success pk us)))) : j = 0 ∧ i = 11 ∧ .success pk us = a := by
  match i, h with
  | 11, h => cases h; exact ⟨rfl, rfl, rfl⟩
  | n + 28, h => exact nomatch h

theorem sound_random {a : IssuerAnswer} {env : Env} {i : Nat} {w : String} {g n : Nat} {made : List String}
    (h : (soundLifeWith a)[i]? = some (.redeeming (.work env))) (hm : env.random w g n = .ok made) :
    i = 2 ∧ made = [toyRandom 1] ∨ i = 17 ∧ made = [toyRandom 5] := by
  have key : ∀ k, (soundLifeWith a)[k]? = some (.redeeming (.work env)) →
      env = envWith none ∨ k = 2 ∧ env = envWith (some 1) ∨ k = 17 ∧ env = envWith (some 5) := by
    intro k h
    match k, h with
    | 1, h | 3, h | 5, h | 7, h | 8, h | 9, h | 10, h | 12, h | 13, h | 15, h | 16, h | 18, h | 20, h | 21, h
    | 26, h | 27, h => cases h; exact .inl rfl
    | 2, h => cases h; exact .inr (.inl ⟨rfl, rfl⟩)
    | 17, h => cases h; exact .inr (.inr ⟨rfl, rfl⟩)
    | n + 28, h => exact nomatch h
  rcases key i h with rfl | ⟨rfl, rfl⟩ | ⟨rfl, rfl⟩
  · cases hm
  · exact .inl ⟨rfl, envWith_random hm⟩
  · exact .inr ⟨rfl, envWith_random hm⟩

theorem sound_asks : (twoNode (soundLife.take 11)).redeeming.waiting.map (·.tokens) = [[toyRandom 1]] := by decide +kernel

theorem sound_known : knownRandom (twoNode (soundLife.take 2)) = [] ∧
    ∀ r ∈ knownRandom (twoNode (soundLife.take 17)), r = toyRandom 1 := by decide +kernel

theorem soundLife_fresh : FreshLife toy twoCfg 10 {} soundLife := by
  refine freshLife_of soundLife {} fun i e he => ⟨?_, ?_⟩
  · rintro j pk us rfl s hs
    refine ⟨honestIssuer toy (fun _ _ => (0 : Fin 1)) (3 : Fin 6), ?_⟩
    obtain ⟨rfl, rfl, ha⟩ := sound_answer he
    rw [ha]; exact toy_gives 1 (only_waiting sound_asks hs) _ _
  · rintro e' made rfl ⟨env, f, rest, n, rfl, -, -, hm⟩ r hr p hp w g r' hk hp'
    have hk' := known_random hk
    rcases sound_random he hm with ⟨rfl, rfl⟩ | ⟨rfl, rfl⟩
    · rw [show knownRandom (WholeNode.run twoCfg (ristretto_signer toy) 10 {} (soundLife.take 2)) = [] from
        sound_known.1] at hk'
      exact nomatch hk'
    · rw [sound_known.2 r' hk'] at hp'
      rw [List.mem_singleton.mp hr] at hp
      have h1 := toy_preimage hp
      have h2 := toy_preimage hp'
      rw [h1] at h2
      exact absurd h2 (by decide)

theorem sound_held :
    toyTokenOf 1 ∈ storedTokens (twoNode soundFirst).storage.store ∧
    storedTokens (twoNode (soundFirst ++ soundSpend)).storage.store = [] ∧
    (∀ a ∈ signedRequests (twoNode (soundFirst ++ soundSpend ++ soundAgain)).redeeming.log,
      ∀ b ∈ signedRequests (twoNode (soundFirst ++ soundSpend ++ soundAgain)).redeeming.log,
        a.1 = b.1 → a.2.1 = b.2.1 → ∀ r ∈ a.2.2, r ∈ b.2.2) ∧
    signedRequests (twoNode (soundFirst ++ soundSpend ++ soundAgain)).redeeming.log = [("voucher", 0, [toyRandom 1])] := by
  decide +kernel

example : ¬ HeldBy (twoNode (soundFirst ++ soundSpend ++ soundAgain)) (toyTokenOf 1) :=
  C172_issuer_partial toy toy_lawful twoCfg 10 soundFirst soundSpend soundAgain soundLife_fresh
    (signedOnce_of sound_held.2.2.1) (toyTokenOf 1) sound_held.1 (none_left sound_held.2.1 _)

end ZKAP
