import Verif.Lemmas.RealSigner
import Verif.Props.ShortRun
import Verif.Props.Traffic
import Verif.Props.Plugin

/-! C169: the tokens of redeemed vouchers buy what they are for. -/
namespace ZKAP
open Spec

theorem bought_all (L : Ristretto) (hL : Lawful L) (hS : Sound L) {k : L.Scalar} {history : List SessionEvent}
    (h : OnlyBought L k history) (v : Int) :
    StorageSession.run (ristretto_signer L) v {} history = StorageSession.run (each_signer (ristretto_signer L)) v {} history ∧
      AllGood (Genuine L k) (StorageSession.run (ristretto_signer L) v {} history).store ∧
      (NoReissueIn (ristretto_signer L) v {} history → NoReissueIn (each_signer (ristretto_signer L)) v {} history) := by
  refine same_run (fun m ts hg => each_agrees L hL m ts fun x hx => ⟨k, hg x hx⟩) v history good_init ?_
  exact fun op ho x hx => bought_genuine L hL hS (h op ho x hx)

theorem bought_agrees (L : Ristretto) (hL : Lawful L) (k : L.Scalar) :
    AgreeOn (Genuine L k) (ristretto_signer L) (each_signer (ristretto_signer L)) :=
  fun m ts hg => each_agrees L hL m ts fun x hx => ⟨k, hg x hx⟩

/-- **C169**, the passes: whatever happens, a client whose tokens to spend were all those of redeemed vouchers, under whatever
keys, does exactly what it would do if a pass could be made from anything. -/
theorem C169_passes_made (L : Ristretto) (hL : Lawful L) (hS : Sound L) : ∃ sign', Signs sign' ∧
    ∀ (v : Int) (history : List SessionEvent),
      (∀ op, .other op ∈ history → ∀ x, IssuesSpendable x op → ∃ k, Bought L k x) →
      StorageSession.run (ristretto_signer L) v {} history = StorageSession.run sign' v {} history :=
  ⟨each_signer (ristretto_signer L), each_signs _, fun v history h =>
    (same_run (each_agrees L hL) v history good_init fun op ho x hx => by
      obtain ⟨k, hk⟩ := h op ho x hx
      exact ⟨k, bought_genuine L hL hS hk⟩).1⟩

/-- **C169** for single operations: with the passes the Ristretto library makes from tokens that redeemed vouchers
gave, and a server that has the signing key, an operation that there are tokens for is carried out, and costs what it
costs.  As in C156, a lease that ends during a write is excepted. -/
theorem C169_operation (L : Ristretto) (hL : Lawful L) (hS : Sound L) (k : L.Scalar) (c : Customer)
    (signer : c.sign = ristretto_signer L) (key : HasKey L k c.cfg) (bought : OnlyBought L k c.history)
    (h : HasTokens c) (quiet : IsWrite c.op → NoLeaseEnds c) : CarriedOut c (charged c) := by
  obtain ⟨sign, cfg, op, rref, o, history, server, m1, m2⟩ := c
  dsimp only at signer key bought
  subst signer
  unfold HasKey at key
  generalize hv : cfg.pass_value = v at key
  subst key
  obtain ⟨h1, h2, h3⟩ := bought_all L hL hS bought (server_with_key L v k).pass_value
  have hcl : (Customer.mk (each_signer (ristretto_signer L)) (server_with_key L v k) op rref o history server m1 m2).client =
      (Customer.mk (ristretto_signer L) (server_with_key L v k) op rref o history server m1 m2).client := h1.symm
  have hres : (Customer.mk (each_signer (ristretto_signer L)) (server_with_key L v k) op rref o history server m1 m2).result =
      (Customer.mk (ristretto_signer L) (server_with_key L v k) op rref o history server m1 m2).result := by
    unfold Customer.result
    rw [hcl]
    exact (same_converse (bought_agrees L hL k) _ _ _ _ _ h2 _ _).1.symm
  have key := C156_carried_out_partial
    (Customer.mk (each_signer (ristretto_signer L)) (server_with_key L v k) op rref o history server m1 m2)
    ⟨⟨⟨h.value, h.right, h.paid, h.proper, by rw [hcl]; exact h.affords, h.time, h.tellable, h.willing,
      h.undisturbed⟩, h3 h.reissue⟩, by rw [hcl]; exact each_good L hL v k h2⟩ quiet
  unfold CarriedOut charged at key ⊢
  rw [hcl, hres] at key
  exact key

/-- **C169** for operations that go on at the same time. -/
theorem C169_traffic (L : Ristretto) (hL : Lawful L) (hS : Sound L) (k : L.Scalar) (c : Household) (first last : Int)
    (events : List TrafficEvent) (signer : c.sign = ristretto_signer L) (key : HasKey L k c.cfg)
    (bought : OnlyBought L k c.history) (h : HasTokensForAll c first last events) (before later : List TrafficEvent)
    (he : events = before ++ later) : NoneFails c before := by
  obtain ⟨sign, cfg, history, server⟩ := c
  dsimp only at signer key bought
  subst signer
  unfold HasKey at key
  generalize hv : cfg.pass_value = v at key
  subst key
  obtain ⟨h1, h2, h3⟩ := bought_all L hL hS bought (server_with_key L v k).pass_value
  have hst : (Household.mk (each_signer (ristretto_signer L)) (server_with_key L v k) history server).store =
      (Household.mk (ristretto_signer L) (server_with_key L v k) history server).store := by
    unfold Household.store
    rw [← h1]
  have haf : ∀ es, (Household.mk (each_signer (ristretto_signer L)) (server_with_key L v k) history server).after es =
      (Household.mk (ristretto_signer L) (server_with_key L v k) history server).after es := by
    intro es
    unfold Household.after
    rw [hst]
    exact (same_traffic (bought_agrees L hL k) _ _ es h2).1.symm
  have key := C162_none_fails
    (Household.mk (each_signer (ristretto_signer L)) (server_with_key L v k) history server) first last events
    ⟨⟨⟨h.value, h.right, h.paid, h.apart, h.each, by rw [hst]; exact h.affords, h.times, h.tellable, h.willing,
      h.leases, by
        intro b ops l e op hop hn
        rw [haf]
        exact h.undisturbed b ops l e op hop hn⟩, h3 h.reissue⟩,
      by rw [hst]; exact each_good L hL v k h2⟩ before later he
  obtain ⟨k1, k2, k3, k4⟩ := key
  rw [haf] at k1 k2 k3 k4
  exact ⟨k1, k2, k3, k4⟩

/-- **C169** for maintenance runs. -/
theorem C169_maintenance (L : Ristretto) (hL : Lawful L) (hS : Sound L) (k : L.Scalar) (c : MaintScene)
    (signer : c.node.sign = ristretto_signer L) (bought : OnlyBought L k c.history) (h : HasTokensToTend L k c) :
    ∃ client servers, WellTended c client servers := by
  obtain ⟨⟨sign, v, hashes, renewal, cancel, least⟩, history, indexes, stops, started, finished⟩ := c
  dsimp only at signer bought
  subst signer
  obtain ⟨h1, h2, h3⟩ := bought_all L hL hS bought v
  generalize hc : MaintScene.mk ⟨ristretto_signer L, v, hashes, renewal, cancel, least⟩ history indexes stops started
    finished = c at h
  generalize hc' : MaintScene.mk ⟨each_signer (ristretto_signer L), v, hashes, renewal, cancel, least⟩ history indexes stops
    started finished = c'
  have hcl : c'.client = c.client := by rw [← hc, ← hc']; exact h1.symm
  have hrun : c'.run = c.run := by
    unfold MaintScene.run
    rw [hcl]
    subst hc hc'
    exact (same_tend (nd := ⟨ristretto_signer L, v, hashes, renewal, cancel, least⟩) (bought_agrees L hL k) started finished
      indexes stops h2).symm
  have hst : c'.stops = c.stops := by rw [← hc, ← hc']
  have hix : c'.indexes = c.indexes := by rw [← hc, ← hc']
  have hcost : c'.cost = c.cost := by rw [← hc, ← hc']; rfl
  have hval : c'.value = c.value := by rw [← hc, ← hc']; rfl
  have hleast : c'.node.min_lease_remaining = c.node.min_lease_remaining := by rw [← hc, ← hc']
  have hsf : c'.started = c.started ∧ c'.finished = c.finished := by rw [← hc, ← hc']; exact ⟨rfl, rfl⟩
  obtain ⟨client, servers, hw⟩ := C166_well_tended c' (by
    refine ⟨?_, ?_, ?_, ?_, ?_, ?_, ?_⟩
    · have := h.value; subst hc hc'; exact this
    · have := h.reissue; subst hc hc'; exact h3 this
    · subst hc'; exact each_signs _
    · have := h.distinct; subst hc hc'; exact this
    · have := h.minimum; subst hc hc'; exact this
    · intro stop hs
      rw [hst] at hs
      obtain ⟨hp, hk⟩ := h.stops stop hs
      refine ⟨?_, ?_⟩
      · subst hc hc'
        exact ⟨hp.value, hp.shares, hp.tellable, hp.dates, hp.right, hp.reached, hp.alone, hp.room, hp.clock, hp.proper, hp.each⟩
      · rw [hcl, hk]
        subst hc hc'
        exact each_good L hL _ k h2
    · rw [hcl, hst, hcost]; exact h.affords)
  refine ⟨client, servers, ?_, ?_, ?_, ?_, ?_⟩
  · rw [← hrun]; exact hw.complete
  · rw [← hst]; exact hw.all
  · rw [← hst, ← hix, ← hleast]; exact hw.leases
  · rw [← hcl, ← hst, ← hcost]; exact hw.tokens
  · rw [← hcl, ← hst, ← hval, ← hsf.1, ← hsf.2]; exact hw.record

/-! ### An example -/

/-- The tokens that the toy issuer with key 3 gives for `toyTokens`. -/
def toyBought : List String := toyTokens.map fun t => text (toy.unblinded_tokens.encode (toy.rederive (3 : Fin 6) t.1))

theorem toyBought_bought : ∀ x ∈ toyBought, Bought toy (3 : Fin 6) x := by
  intro x hx
  refine ⟨honestIssuer toy (fun _ _ => (0 : Fin 1)) (3 : Fin 6), "v", 0, toyTokens.map toy.random_tokens.encode,
    text (toy.points.encode (toy.public_key (3 : Fin 6))), toyBought, ?_, ?_, hx⟩
  · have hb : basic_random_tokens toy (toyTokens.map toy.random_tokens.encode) = .ok toyTokens := by
      unfold basic_random_tokens
      rw [try_map_map, try_map_of (g := id) (by
        intro t _; unfold Codec.decode_base64; rw [toy_lawful.random_tokens]; rfl), List.map_id]
    unfold redeemWithCounter
    rw [hb]
    dsimp only
    rw [honest_response toy toy_lawful _ toy_complete]
    show IssuerAnswer.success _ (List.map _ (List.map _ _)) = _
    rw [List.map_map]
    rfl
  · rw [ascii_text]
    exact toy_lawful.points _

def toyShopper : List SessionEvent :=
  [.other (.add .natural "2020" "voucher" 3 0 (.ok ["r"])),
   .other (.insert "2021" "voucher" "key" toyBought true true)]

/-- A client with these three tokens renews a lease for two of them. -/
def toyShop : Customer :=
  { exShop exExtend 99 with
    sign := ristretto_signer toy, cfg := server_with_key toy 10 (3 : Fin 6), history := toyShopper }

theorem toyShop_available : select_available toyShop.client.store = toyBought := by
  have h : select_available ((StoreOp.insert "2021" "voucher" "key" toyBought true true).step
      ((StoreOp.add .natural "2020" "voucher" 3 0 (.ok ["r"])).step {}).2).2 = toyBought := by
    decide +kernel
  have hrun : ∀ (sign : Signer) (ts : List String), (StorageSession.run sign 10 {}
      [.other (.add .natural "2020" "voucher" 3 0 (.ok ["r"])), .other (.insert "2021" "voucher" "key" ts true true)]).store =
      ((StoreOp.insert "2021" "voucher" "key" ts true true).step
        ((StoreOp.add .natural "2020" "voucher" 3 0 (.ok ["r"])).step {}).2).2 := fun _ _ => rfl
  rw [← hrun (ristretto_signer toy)] at h
  exact h

theorem toyShopper_bought : OnlyBought toy (3 : Fin 6) toyShopper := by
  intro op ho x hx
  simp only [toyShopper, List.mem_cons, SessionEvent.other.injEq, List.not_mem_nil, or_false] at ho
  rcases ho with rfl | rfl
  · exact hx.elim
  · exact toyBought_bought x hx.1

theorem toyShop_reissue : NoReissueIn (ristretto_signer toy) 10 {} toyShopper := by
  refine ⟨?_, ?_, trivial⟩
  · rintro op h x hx; cases h; cases hx
  · rintro op h x hx
    cases h
    have : (StorageSession.step (ristretto_signer toy) 10 {}
        (.other (.add .natural "2020" "voucher" 3 0 (.ok ["r"])))).store.app.invalid = [] := by
      have h1 : (if outside (.add .natural "2020" "voucher" 3 0 (.ok ["r"])) then
        ((StoreOp.add .natural "2020" "voucher" 3 0 (.ok ["r"])).step {}).2.app.invalid else []) = [] := by decide +kernel
      simpa [StorageSession.step, outside] using h1
    unfold invalidTokens
    show x ∉ List.map _ (StorageSession.step (ristretto_signer toy) 10 {}
        (.other (.add .natural "2020" "voucher" 3 0 (.ok ["r"])))).store.app.invalid
    rw [this]
    exact List.not_mem_nil

theorem toyShop_hasTokens : HasTokens toyShop := by
  have h1 := exShop_canPay exExtend 99 (fun h => h)
    ⟨⟨⟨by decide, fun _ h => (nomatch h)⟩, by decide, by decide, by decide⟩, trivial⟩ rfl
    (fun t => by show bucketPrice 10 exShelf ≤ 7; decide) (fun _ => rfl)
  refine ⟨⟨h1.value, h1.right, h1.paid, h1.proper, ?_, h1.time, h1.tellable, h1.willing, h1.undisturbed⟩, toyShop_reissue⟩
  intro t
  refine ⟨(h1.affords t).1, toyBought, by decide +kernel, ?_, ?_⟩
  · intro x hx
    rw [← toyShop_available] at hx
    exact (mem_select_available _ _).mp hx
  · show bucketPrice 10 exShelf ≤ 3
    decide

/-- The lease is renewed, for two of the three tokens. -/
example : CarriedOut toyShop 2 := by
  have := C169_operation toy toy_lawful toy_sound (3 : Fin 6) toyShop rfl rfl toyShopper_bought toyShop_hasTokens
    (fun h => h.elim)
  exact this

/-- A pass of the same token for a server with another key is not accepted, so the operation fails there. -/
example : ({ toyShop with cfg := server_with_key toy 10 (4 : Fin 6) }.result.client.log.getLast?.map fun
    | Out.returned .. => true
    | _ => false) = some false := by decide +kernel

end ZKAP
