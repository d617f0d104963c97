import Verif.Lemmas.WholeNode
import Verif.Props.RealSigner

/-! C171: the vouchers a node redeems buy the storage it uses. -/
namespace ZKAP
open Spec

/-- What the storage client of a node is after the node has lived, it is after a history of its own with tokens that
came from redeemed vouchers only. -/
theorem own_history (L : Ristretto) (k : L.Scalar) (cfg : RedeemCfg) (keys : OnlyKey L k cfg) (v : Int)
    (events : List WholeEvent) (real : RealLife L cfg v {} events) :
    ∃ history, SeenAs L k v {} (WholeNode.run cfg (ristretto_signer L) v {} events).storage history :=
  seen_run L k keys v events {} (fun _ _ _ h => (nomatch h)) real

/-- **C171**, the history: as its storage client sees it, the life of the node is one of the histories C169 is about. -/
theorem C171_history (L : Ristretto) (k : L.Scalar) (cfg : RedeemCfg) (keys : OnlyKey L k cfg) (v : Int)
    (events : List WholeEvent) (real : RealLife L cfg v {} events) : ∃ history,
      (WholeNode.run cfg (ristretto_signer L) v {} events).storage = StorageSession.run (ristretto_signer L) v {} history ∧
      OnlyBought L k history ∧ NoReissueIn (ristretto_signer L) v {} history := by
  obtain ⟨history, h⟩ := own_history L k cfg keys v events real
  exact ⟨history, h.run.symm, h.bought, h.reissue⟩

/-- **C171** for single operations: at a node that redeems vouchers and uses storage, from its first start on and with
any crashes, an operation on a server with the signing key that there are tokens for is carried out, and costs what it
costs.  As in C156, a lease that ends during a write is excepted. -/
theorem C171_operation (L : Ristretto) (hL : Lawful L) (hS : Sound L) (k : L.Scalar) (cfg : RedeemCfg)
    (keys : OnlyKey L k cfg) (c : Customer) (events : List WholeEvent) (real : RealLife L cfg c.cfg.pass_value {} events)
    (client : c.client = (WholeNode.run cfg (ristretto_signer L) c.cfg.pass_value {} events).storage)
    (signer : c.sign = ristretto_signer L) (key : HasKey L k c.cfg) (h : EnoughTokens c)
    (quiet : IsWrite c.op → NoLeaseEnds c) : CarriedOut c (charged c) := by
  obtain ⟨history, hh⟩ := own_history L k cfg keys _ events real
  obtain ⟨sign, scfg, op, rref, o, past, server, m1, m2⟩ := c
  dsimp only at signer key client hh real
  subst signer
  have hcl : (Customer.mk (ristretto_signer L) scfg op rref o history server m1 m2).client =
      (Customer.mk (ristretto_signer L) scfg op rref o past server m1 m2).client := hh.run.trans client.symm
  have hres : (Customer.mk (ristretto_signer L) scfg op rref o history server m1 m2).result =
      (Customer.mk (ristretto_signer L) scfg op rref o past server m1 m2).result := by
    unfold Customer.result
    rw [hcl]
  have key := C169_operation L hL hS k (Customer.mk (ristretto_signer L) scfg op rref o history server m1 m2) rfl key
    hh.bought ⟨⟨h.value, h.right, h.paid, h.proper, by rw [hcl]; exact h.affords, h.time, h.tellable, h.willing,
      h.undisturbed⟩, hh.reissue⟩ quiet
  unfold CarriedOut charged at key ⊢
  rw [hcl, hres] at key
  exact key

/-- **C171** for operations that go on at the same time. -/
theorem C171_traffic (L : Ristretto) (hL : Lawful L) (hS : Sound L) (k : L.Scalar) (cfg : RedeemCfg)
    (keys : OnlyKey L k cfg) (c : Household) (life : List WholeEvent) (real : RealLife L cfg c.cfg.pass_value {} life)
    (store : c.store = (WholeNode.run cfg (ristretto_signer L) c.cfg.pass_value {} life).storage.store)
    (signer : c.sign = ristretto_signer L) (key : HasKey L k c.cfg) (first last : Int) (events : List TrafficEvent)
    (h : EnoughForAll c first last events) (before later : List TrafficEvent) (he : events = before ++ later) :
    NoneFails c before := by
  obtain ⟨history, hh⟩ := own_history L k cfg keys _ life real
  obtain ⟨sign, scfg, past, server⟩ := c
  dsimp only at signer key hh real
  subst signer
  have hst : (Household.mk (ristretto_signer L) scfg history server).store =
      (Household.mk (ristretto_signer L) scfg past server).store := by
    rw [store, ← hh.run]
    rfl
  have haf : ∀ es, (Household.mk (ristretto_signer L) scfg history server).after es =
      (Household.mk (ristretto_signer L) scfg past server).after es := by
    intro es
    unfold Household.after
    rw [hst]
  have key := C169_traffic L hL hS k (Household.mk (ristretto_signer L) scfg history server) first last events rfl key
    hh.bought ⟨⟨h.value, h.right, h.paid, h.apart, h.each, by rw [hst]; exact h.affords, h.times, h.tellable, h.willing,
      h.leases, by
        intro b ops l e op hop hn
        rw [haf]
        exact h.undisturbed b ops l e op hop hn⟩, hh.reissue⟩ before later he
  obtain ⟨k1, k2, k3, k4⟩ := key
  rw [haf] at k1 k2 k3 k4
  exact ⟨k1, k2, k3, k4⟩

/-- **C171** for maintenance runs. -/
theorem C171_maintenance (L : Ristretto) (hL : Lawful L) (hS : Sound L) (k : L.Scalar) (cfg : RedeemCfg)
    (keys : OnlyKey L k cfg) (c : MaintScene) (events : List WholeEvent)
    (real : RealLife L cfg c.node.pass_value {} events)
    (client : c.client = (WholeNode.run cfg (ristretto_signer L) c.node.pass_value {} events).storage)
    (signer : c.node.sign = ristretto_signer L) (h : EnoughToTend L k c) :
    ∃ client servers, WellTended c client servers := by
  obtain ⟨history, hh⟩ := own_history L k cfg keys _ events real
  obtain ⟨⟨sign, v, hashes, renewal, cancel, least⟩, past, indexes, stops, started, finished⟩ := c
  dsimp only at signer hh real client
  subst signer
  generalize hc : MaintScene.mk ⟨ristretto_signer L, v, hashes, renewal, cancel, least⟩ past indexes stops started
    finished = c at h client
  generalize hc' : MaintScene.mk ⟨ristretto_signer L, v, hashes, renewal, cancel, least⟩ history indexes stops
    started finished = c'
  have hcl : c'.client = c.client := by rw [client, ← hc']; exact hh.run
  have hrun : c'.run = c.run := by
    unfold MaintScene.run
    rw [hcl]
    subst hc hc'
    rfl
  obtain ⟨client', servers, hw⟩ := C169_maintenance L hL hS k c' (by subst hc'; rfl) (by subst hc'; exact hh.bought) (by
    refine ⟨⟨?_, ?_, ?_, ?_, ?_⟩, ?_⟩
    · have := h.value; subst hc hc'; exact this
    · have := h.distinct; subst hc hc'; exact this
    · have := h.minimum; subst hc hc'; exact this
    · intro stop hs
      obtain ⟨hp, hk⟩ := h.stops stop (by subst hc hc'; exact hs)
      refine ⟨?_, hk⟩
      subst hc hc'
      exact ⟨hp.value, hp.shares, hp.tellable, hp.dates, hp.right, hp.reached, hp.alone, hp.room, hp.clock, hp.proper, hp.each⟩
    · have := h.affords
      rw [hcl]
      subst hc hc'
      exact this
    · subst hc'; exact hh.reissue)
  refine ⟨client', servers, ?_, ?_, ?_, ?_, ?_⟩
  · rw [← hrun]; exact hw.complete
  · have := hw.all; subst hc hc'; exact this
  · have := hw.leases; subst hc hc'; exact this
  · have := hw.tokens; rw [hcl] at this; subst hc hc'; exact this
  · have := hw.record; rw [hcl] at this; subst hc hc'; exact this

/-! ### An example -/

theorem toyBought_answer (voucher : String) (counter : Nat) :
    to_answer (redeemWithCounter toy (honestIssuer toy (fun _ _ => (0 : Fin 1)) (3 : Fin 6)) voucher counter
      (toyTokens.map toy.random_tokens.encode)) =
      .success (text (toy.points.encode (toy.public_key (3 : Fin 6)))) toyBought := by
  have hb : basic_random_tokens toy (toyTokens.map toy.random_tokens.encode) = .ok toyTokens := by
    unfold basic_random_tokens
    rw [try_map_map, try_map_of (g := id) (by
      intro t _; unfold Codec.decode_base64; rw [toy_lawful.random_tokens]; rfl), List.map_id]
  unfold redeemWithCounter
  rw [hb]
  dsimp only
  rw [honest_response toy toy_lawful _ toy_complete]
  show IssuerAnswer.success _ (List.map _ (List.map _ _)) = _
  rw [List.map_map]
  rfl

/-- Surroundings that give these random tokens to whoever wants three. -/
def toyEnv : Env where
  now := "2020"
  order := .natural
  random := fun _ _ n => if n = 3 then .ok (toyTokens.map fun t => text (toy.random_tokens.encode t)) else .error .valueError
  random_length := by
    intro v c n ts h
    split at h
    · cases h; subst n; rfl
    · cases h

def toyKeyText : String := text (toy.points.encode (toy.public_key (3 : Fin 6)))

def toyCfg : RedeemCfg := { num_redemption_groups := 1, default_token_count := 3, allowed_public_keys := [toyKeyText] }

/-- A voucher is redeemed; the process ends before the issuer has answered, and asks again. -/
def toyLifeWith (a : IssuerAnswer) : List WholeEvent :=
  [.redeeming (.redeem "voucher" none), .redeeming (.work toyEnv), .redeeming (.work toyEnv), .redeeming (.work toyEnv),
   .crash, .redeeming (.work toyEnv), .redeeming (.work toyEnv), .redeeming (.work toyEnv),
   .redeeming (.answer 0 a), .redeeming (.work toyEnv), .redeeming (.work toyEnv)]

def toyLife : List WholeEvent := toyLifeWith (.success toyKeyText toyBought)

def toyNode (events : List WholeEvent) : WholeNode := WholeNode.run toyCfg (ristretto_signer toy) 10 {} events

theorem realLife_of {L : Ristretto} {cfg : RedeemCfg} {v : Int} (events : List WholeEvent) : ∀ n : WholeNode,
    (∀ i e, events[i]? = some e → AnswerReal L (n.run cfg (ristretto_signer L) v (events.take i)) e ∧
      NotReissued (n.run cfg (ristretto_signer L) v (events.take i)) e) → RealLife L cfg v n events := by
  induction events with
  | nil => exact fun _ _ => trivial
  | cons e es ih =>
    intro n h
    exact ⟨(h 0 e rfl).1, (h 0 e rfl).2, ih _ fun i e' he => h (i + 1) e' he⟩

theorem toyLife_asks : (toyNode (toyLife.take 8)).redeeming.waiting.map (·.tokens) =
    [toyTokens.map fun t => text (toy.random_tokens.encode t)] := by decide +kernel

theorem toyLife_invalid : ∀ i, i < 11 → (toyNode (toyLife.take i)).storage.store.app.invalid = [] := by decide +kernel

theorem toyLife_answer {a b : IssuerAnswer} {i j : Nat} (h : (toyLifeWith a)[i]? = some (.redeeming (.answer j b))) :
    i = 8 ∧ j = 0 ∧ b = a := by
  match i, h with
  | 8, h => cases h; exact ⟨rfl, rfl, rfl⟩
  | n + 11, h => exact nomatch h

theorem only_waiting {l : List Suspended} {ts : List String} (h : l.map (·.tokens) = [ts]) {s : Suspended}
    (hs : l[0]? = some s) : s.tokens = ts := by
  have hs' : (l.map (·.tokens))[0]? = some s.tokens := by
    rw [List.getElem?_map, hs]
    rfl
  rw [h] at hs'
  exact (Option.some.inj hs').symm

theorem toyLife_real : RealLife toy toyCfg 10 {} toyLife := by
  refine realLife_of toyLife {} fun i e he => ⟨?_, ?_⟩
  · rintro j pk us rfl s hs
    obtain ⟨rfl, rfl, h8⟩ := toyLife_answer he
    cases h8
    refine ⟨honestIssuer toy (fun _ _ => (0 : Fin 1)) (3 : Fin 6), ?_⟩
    have ht : s.tokens = toyTokens.map fun t => text (toy.random_tokens.encode t) := by
      exact only_waiting toyLife_asks hs
    rw [ht, List.map_map]
    have : ZKAP.ascii ∘ (fun t => text (toy.random_tokens.encode t)) = toy.random_tokens.encode := by
      funext t
      exact ascii_text _
    rw [this]
    exact toyBought_answer _ _
  · intro env f pk us rest h _ x _ hx
    have hi : i < 11 := (List.getElem?_eq_some_iff.mp he).1
    unfold invalidTokens at hx
    rw [show (WholeNode.run toyCfg (ristretto_signer toy) 10 {} (toyLife.take i)).storage.store.app.invalid = [] from
      toyLife_invalid i hi] at hx
    exact nomatch hx

theorem toyLife_available : select_available (toyNode toyLife).storage.store = toyBought := by decide +kernel

theorem toyCfg_key : OnlyKey toy (3 : Fin 6) toyCfg := by
  intro pk hpk
  rw [List.mem_singleton.mp hpk]
  show toy.points.decode (ZKAP.ascii (text _)) = _
  rw [ascii_text]
  exact toy_lawful.points _

/-- The node with these tokens renews a lease for two of them. -/
example : ∃ history, (toyNode toyLife).storage = { toyShop with history := history }.client ∧
    CarriedOut { toyShop with history := history } 2 := by
  obtain ⟨history, h, -, -⟩ := C171_history toy (3 : Fin 6) toyCfg toyCfg_key 10 toyLife toyLife_real
  refine ⟨history, h, ?_⟩
  have ht := toyShop_hasTokens
  refine C171_operation toy toy_lawful toy_sound (3 : Fin 6) toyCfg toyCfg_key { toyShop with history := history } toyLife
    toyLife_real h.symm rfl rfl ⟨ht.value, ht.right, ht.paid, ht.proper, ?_, ht.time, ht.tellable, ht.willing,
    ht.undisturbed⟩ (fun h => h.elim)
  intro t
  refine ⟨(ht.affords t).1, toyBought, by decide +kernel, ?_, ?_⟩
  · intro x hx
    rw [← toyLife_available] at hx
    rw [show toyNode toyLife = WholeNode.run toyCfg (ristretto_signer toy) 10 {} toyLife from rfl, h] at hx
    exact (mem_select_available _ _).mp hx
  · show bucketPrice 10 exShelf ≤ 3
    decide

end ZKAP
