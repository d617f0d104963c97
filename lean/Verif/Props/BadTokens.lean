import Verif.Lemmas.BadTokens
import Verif.Props.Conversation

/-! Property C157: bad tokens do not prevent an operation, against `Spec/BadTokens.lean`. -/
namespace ZKAP
open Spec

theorem kind_of {sign : Signer} {cfg : ServerConfig} {t : Tables} {good : String → Prop}
    (h : MixedTokens sign cfg t good) (x : String) (hx : Available t x) : Kind sign cfg good x := by
  rintro m p ⟨tokens, made, h1, h2⟩
  exact h.made _ _ _ h1 _ _ h2 hx

theorem pay_sends_mixed {sign : Signer} {cfg : ServerConfig} {t : Tables} {good : String → Prop}
    (hg : MixedTokens sign cfg t good) {held : List String}
    (h : Held t held) (o : Order) (v : Int) {op : StorageOp} (hf : Fits (op.request [])) {n : Int} (h0 : 0 ≤ n)
    (h1 : n ≤ 2 ^ 20) (hn : AffordsGood t good n) :
    ∃ g t', pay sign o v op n t =
        (.paying ⟨op.on_success v, n, g⟩, [.sent op (op.request (g.passes.map Pass.pass_bytes))], t') ∧
      t'.app = t.app ∧ g.message = op.message ∧ (g.tokens.length : Int) = n ∧ GroupMade sign g ∧
      (∀ x ∈ g.unblinded_tokens, Available t x) ∧ Held t' (held ++ g.unblinded_tokens) := by
  obtain ⟨l, hl1, hl2, hl3⟩ := hn
  obtain ⟨g, t', he, h2, h3, h4, h5, h6⟩ := get_affords hg.works h o op.message h0 h1
    ⟨l, hl1, fun x hx => (hl2 x hx).1, hl3⟩
  have hmade := (get_made he).1
  refine ⟨g, t', ?_, h2, h3, h4, hmade, h5, h6⟩
  unfold pay call_start
  rw [he]
  dsimp only [settle, send_paid]
  rw [(C115_calls_arrive _).1 (fits_paid hf (by
    rw [List.length_map, PassGroup.passes, List.length_map]; omega)
    (group_parses hmade fun x hx => kind_of hg x (h5 x hx)).2.1)]

/-- The tries that follow the first one. -/
theorem tries {sign : Signer} {cfg : ServerConfig} (hv : 0 < cfg.pass_value)
    {good : String → Prop} {op : StorageOp} (hf : Fits (op.request []))
    (hwp : ∀ ps, (op.request ps).with_passes = true) {n : Int} (hn : n ≤ 2 ^ 20) {asked : List StorageOp}
    {paying : List (StorageOp × Call)} {held : List String} (ms : List Moment) {k : Nat} {t t1 : Tables}
    (htok : MixedTokens sign cfg t good) (hheld0 : Held t held)
    (haff : AffordsGood t good n) (hbad : BadAtMost t good k) {g : PassGroup} {log : List Out} {b server : Server}
    (hk : k < ms.length) (hserve : ServesAll cfg op n server ms) (happ : t1.app = t.app)
    (hmsg : g.message = op.message) (hlen : (g.tokens.length : Int) = n) (hmade : GroupMade sign g)
    (hav : ∀ x ∈ g.unblinded_tokens, Available t x) (hheld : Held t1 (held ++ g.unblinded_tokens)) :
    ∃ (t' : Tables) (s0 s' : Server) (w : Wire) (r : OpResult) (k' : Nat) (records : List Bytes) (gl : PassGroup)
        (rejected : List String) (log' : List Out),
        ms.foldl (Talk.turn sign cfg cfg.pass_value)
          ⟨⟨t1, asked, paying ++ [(op, ⟨op.on_success cfg.pass_value, n, g⟩)],
            log ++ [.sent op (op.request (g.passes.map Pass.pass_bytes))]⟩, b, server⟩ =
          ⟨⟨t', asked, paying, log'⟩, s0, s'⟩ ∧
        log'.getLast? = some (.returned op r) ∧ Performed cfg op gl s0 s' w r k' records ∧
        (gl.tokens.length : Int) = n ∧ rejected.Nodup ∧ (∀ x ∈ rejected, Available t x ∧ ¬ good x) ∧
        t'.app.invalid = t.app.invalid ++ rejected.map (fun x => ⟨x, "signature check failed"⟩) ∧
        (storedTokens t).length = (storedTokens t').length + records.length + rejected.length := by
  have hav1 : ∀ x, Available t1 x → Available t x := by
    intro x hx
    rw [available_iff hheld, happ] at hx
    rw [available_iff hheld0]
    exact ⟨hx.1, fun h => hx.2 (List.mem_append_left _ h)⟩
  obtain ⟨l, hl1, hl2, hl3⟩ := haff
  obtain ⟨t', s0, s', w, r, k', records, gl, rejected, log', e1, e2, e3, e4, e5, e6, e7, e8⟩ :=
    keeps_trying (log := log) (b := b) (asked := asked) (paying := paying) hv htok.works (good := good) hf hwp hn ms
      hk hserve hheld hmade hmsg hlen (fun x hx => kind_of htok x (hav x hx))
      (fun x hx => kind_of htok x (hav1 x hx))
      ⟨l, hl1, fun x hx => ⟨(hl2 x hx).2, by
        by_cases hxg : x ∈ g.unblinded_tokens
        · exact .inl hxg
        · refine .inr ?_
          have := (hl2 x hx).1
          rw [available_iff hheld0] at this
          rw [available_iff hheld, happ]
          exact ⟨this.1, fun h => (List.mem_append.mp h).elim this.2 hxg⟩⟩, hl3⟩
      (fun m hm hx => hbad m hm fun x hxm => ⟨(hx x hxm).2.elim (hav x) (hav1 x), (hx x hxm).1⟩)
  refine ⟨t', s0, s', w, r, k', records, gl, rejected, log', e1, e2, e3, e4, e5,
    fun x hx => ⟨(e6 x hx).2.elim (hav x) (hav1 x), (e6 x hx).1⟩, ?_, ?_⟩
  · rw [e7, happ]
  · rw [store_of_app happ] at e8; exact e8

theorem serves_all {cfg : ServerConfig} {op : StorageOp} {n : Int} {si : SI} {bucket : Bucket} (ms : List Moment)
    {s : Server} (hm : ∀ m ∈ ms, ∀ s : Server, s.buckets si = bucket → Serves cfg op n m s)
    (h : ∀ k, (s.run cfg ((ms.take k).flatMap (·.others))).buckets si = bucket) : ServesAll cfg op n s ms := by
  induction ms generalizing s with
  | nil => trivial
  | cons m ms ih =>
    refine ⟨hm m List.mem_cons_self _ (by simpa using h 1), ih (fun m' hm' => hm m' (List.mem_cons_of_mem _ hm')) ?_⟩
    intro k
    have := h (k + 1)
    rw [List.take_succ_cons, List.flatMap_cons] at this
    rw [← this]
    unfold Server.run
    rw [List.foldl_append]

/-- **C157**, in full. -/
theorem C157_bad_tokens (c : Customer) (good : String → Prop) (later : List Moment) (h : CanPayWithGood c good later) :
    CarriedOutWithGood c good later := by
  obtain ⟨sign, cfg, op, get_rref, o, history, server, m1, m2⟩ := c
  have hv := h.value
  have inv := session_inv_run h.tokens.works hv history (sessionInv_init sign cfg.pass_value) h.reissue
  have hheld := inv.held
  have hright : client_rref get_rref = .ok ⟨true, some expected_remote_interface_name⟩ := by
    have := h.right
    unfold RightServer at this
    dsimp only at this
    rw [this]
    rfl
  have htok := h.tokens
  have haff := h.affords
  have hbad := h.bad
  have htell := h.tellable
  have hpaid := h.paid
  have hprop := h.proper
  have hwill := h.willing
  have hsteady := h.steady.shares
  have hleases := h.steady.leases
  have htime := h.time
  clear h
  suffices hgoal : ∃ (t' : Tables) (s0 s' : Server) (w : Wire) (r : OpResult) (k' : Nat) (records : List Bytes)
        (gl : PassGroup) (rejected : List String) (as : List StorageOp) (ps : List (StorageOp × Call)) (log' : List Out),
        (Customer.mk sign cfg op get_rref o history server m1 m2).outcome later = ⟨⟨t', as, ps, log'⟩, s0, s'⟩ ∧
        log'.getLast? = some (.returned op r) ∧ Performed cfg op gl s0 s' w r k' records ∧
        ((∀ si renew cancel nums size canary, op ≠ .allocateBuckets si renew cancel nums size canary) →
          (gl.tokens.length : Int) = costOf cfg.pass_value
            (Customer.mk sign cfg op get_rref o history server m1 m2).bucket m1.client_now op) ∧
        rejected.Nodup ∧
        (∀ x ∈ rejected, Available (Customer.mk sign cfg op get_rref o history server m1 m2).client.store x ∧ ¬ good x) ∧
        t'.app.invalid = (Customer.mk sign cfg op get_rref o history server m1 m2).client.store.app.invalid ++
          rejected.map (fun x => ⟨x, "signature check failed"⟩) ∧
        (storedTokens (Customer.mk sign cfg op get_rref o history server m1 m2).client.store).length =
          (storedTokens t').length + records.length + rejected.length by
    obtain ⟨t', s0, s', w, r, k', records, gl, rejected, as, ps, log', e1, e2, e3, e4, e5, e6, e7, e8⟩ := hgoal
    constructor
    · rw [e1]; exact ⟨r, e2⟩
    · rw [e1]
      refine ⟨records, rejected, e3.spent, ?_, e5, e6, e7, e8⟩
      dsimp only
      split
      · obtain ⟨h1, -, h3⟩ := e3.upload _ _ _ _ _ _ rfl
        rw [h3, Nat.add_sub_cancel_left, h1]
      · rename_i hne
        rw [← e4 fun _ _ _ _ _ _ e => hne _ _ _ _ _ _ e,
          e3.other fun _ _ _ _ _ _ e => hne _ _ _ _ _ _ e]
  unfold Customer.outcome
  unfold Customer.bucket Customer.asked at *
  unfold Customer.client at *
  dsimp only at *
  generalize StorageSession.run sign cfg.pass_value {} history = S at *
  obtain ⟨t, asked, paying, log⟩ := S
  dsimp only at *
  cases op with
  | allocateBuckets si renew cancel nums size canary =>
    have hpr : 0 ≤ total cfg.pass_value (List.replicate nums.length (size : Int)) := by
      rw [total_replicate]
      exact Int.mul_nonneg (by omega) (passes_nonneg _ hv (by omega))
    obtain ⟨g, t', h1, h2, h3, h4, h5, h6, h7⟩ :=
      pay_sends_mixed htok hheld o cfg.pass_value hprop.1 hpr haff.1 haff.2
    have hstart : StorageSession.step sign cfg.pass_value ⟨t, asked, paying, log⟩
        (.start (.allocateBuckets si renew cancel nums size canary) get_rref o) =
        ⟨t', asked, paying ++ [(.allocateBuckets si renew cancel nums size canary,
          ⟨StorageOp.on_success cfg.pass_value (.allocateBuckets si renew cancel nums size canary),
            total cfg.pass_value (List.replicate nums.length (size : Int)), g⟩)],
          log ++ [.sent (.allocateBuckets si renew cancel nums size canary) (StorageOp.request
            (g.passes.map Pass.pass_bytes) (.allocateBuckets si renew cancel nums size canary))]⟩ := by
      dsimp only [StorageSession.step, op_start]
      rw [hright]
      dsimp only [client_allocate_num_passes]
      rw [required_passes_eq _ hv, h1]
      simp only [still_asked, still_paying, List.append_nil]
    have hserve : ∀ (ms : List Moment) (s : Server), ServesAll cfg (.allocateBuckets si renew cancel nums size canary)
        (total cfg.pass_value (List.replicate nums.length (size : Int))) s ms := by
      intro ms
      induction ms with
      | nil => intro s; trivial
      | cons m ms ih => intro s; exact ⟨serves_allocate hv m _, ih _⟩
    obtain ⟨t2, s0, s', w, r, k', records, gl, rejected, log', e1, e2, e3, e4, e5, e6, e7, e8⟩ :=
      tries (log := log) (b := server) (server := server) (asked := asked) (paying := paying) hv hprop.1 (fun _ => rfl)
        haff.1 (m1 :: m2 :: later) (k := later.length) htok hheld haff.2 hbad
        (by rw [List.length_cons, List.length_cons]; omega) (hserve _ _) h2 h3 h4 h5 h6 h7
    refine ⟨t2, s0, s', w, r, k', records, gl, rejected, asked, paying, log', ?_, e2, e3, fun hne => absurd rfl (hne _ _ _ _ _ _),
      e5, e6, e7, e8⟩
    unfold converse
    rw [hstart]
    exact e1
  | addLease si renew cancel =>
    have hpr := bucket_price_nonneg hv ((server.run cfg m1.others).buckets si)
    have hfit : Fits (.shareSizes si) := hprop.1.2.1
    have hstart : StorageSession.step sign cfg.pass_value ⟨t, asked, paying, log⟩
        (.start (.addLease si renew cancel) get_rref o) =
        ⟨t, asked ++ [.addLease si renew cancel], paying, log ++ [.sent (.addLease si renew cancel) (.shareSizes si)]⟩ := by
      dsimp only [StorageSession.step, op_start]
      rw [hright]
      dsimp only [send_free]
      rw [(C115_calls_arrive _).1 hfit]
      simp only [still_asked, still_paying, List.append_nil]
    obtain ⟨g, t', h1, h2, h3, h4, h5, h6, h7⟩ :=
      pay_sends_mixed htok hheld m1.order cfg.pass_value hprop.1 hpr haff.1 haff.2
    have hasked : op_asked sign m1.order cfg.pass_value m1.client_now (.addLease si renew cancel)
        (.result (.dict ((remote_share_sizes (server.run cfg m1.others) si none).map fun kv =>
          (.int kv.1, .int kv.2)))) t = pay sign m1.order cfg.pass_value (.addLease si renew cancel)
            (bucketPrice cfg.pass_value ((server.run cfg m1.others).buckets si)) t := by
      dsimp only [op_asked, Reply.value]
      rw [lease_answer_price (si := si) hv htell]
    have hturn := turn_asked (cfg := cfg) (asked := asked) (paying := paying) (log := log) (before := server)
      (server := server) (r := .shareSizes si) rfl m1 rfl (hasked.trans h1)
    dsimp only [still_asked, still_paying] at hturn
    rw [List.append_nil, show ∀ (l : List Out) (a b : Out), l ++ a :: [b] = l ++ [a] ++ [b] from
      fun l a b => List.append_cons l a [b]] at hturn
    have hserve : ServesAll cfg (.addLease si renew cancel)
        (bucketPrice cfg.pass_value ((server.run cfg m1.others).buckets si)) (server.run cfg m1.others) (m2 :: later) :=
      serves_all (si := si) (bucket := (server.run cfg m1.others).buckets si) (m2 :: later) (fun m hm s hb => by
        rw [← hb]
        exact serves_add_lease hv m s (by rw [hb]; exact htell.1) (hwill m (List.mem_cons_of_mem _ hm))) hsteady
    obtain ⟨t2, s0, s', w, r, k', records, gl, rejected, log', e1, e2, e3, e4, e5, e6, e7, e8⟩ :=
      tries (log := log ++ [.sent (.addLease si renew cancel) (.shareSizes si)] ++
        [.got (.addLease si renew cancel) (.result (.dict ((remote_share_sizes (server.run cfg m1.others) si none).map
          fun kv => (.int kv.1, .int kv.2)))) m1.client_now]) (b := server.run cfg m1.others)
        (asked := asked) (paying := paying) hv hprop.1 (fun _ => rfl)
        haff.1 (m2 :: later) (k := later.length) htok hheld haff.2 hbad
        (by rw [List.length_cons]; omega) hserve h2 h3 h4 h5 h6 h7
    refine ⟨t2, s0, s', w, r, k', records, gl, rejected, asked, paying, log', ?_, e2, e3, fun _ => e4,
      e5, e6, e7, e8⟩
    unfold converse
    rw [hstart, List.foldl_cons, hturn]
    exact e1
  | writev si secrets tw rv =>
    obtain ⟨hfit, htw, hnl⟩ := hprop
    have hprice : ∀ m ∈ m2 :: later,
        writePrice cfg.pass_value ((server.run cfg m1.others).buckets si) m.server_now tw =
          writePrice cfg.pass_value ((server.run cfg m1.others).buckets si) m1.client_now tw := fun m hm =>
      Int.le_antisymm
        (write_price_later hv (fun kv hkv => (hleases trivial m hm kv hkv).mp) tw)
        (write_price_later hv (fun kv hkv => (hleases trivial m hm kv hkv).mpr) tw)
    have hserve : ServesAll cfg (.writev si secrets tw rv)
        (writePrice cfg.pass_value ((server.run cfg m1.others).buckets si) m1.client_now tw)
        (server.run cfg m1.others) (m2 :: later) :=
      serves_all (si := si) (bucket := (server.run cfg m1.others).buckets si) (m2 :: later) (fun m hm s hb => by
        have hw := hwill m (List.mem_cons_of_mem _ hm)
        rw [← hprice m hm, ← hb]
        exact serves_writev hv m s (by rw [hb]; exact htell.1) htw hnl hw.1 (by rw [hb]; exact hw.2)) hsteady
    by_cases hdata : (get_write_sharenums tw).length > 0
    · have hpr := writePrice_nonneg cfg.pass_value hv ((server.run cfg m1.others).buckets si) m1.client_now tw
      have hfit1 : Fits (.statShares [si]) := fun s hs => by
        rw [List.mem_singleton.mp hs]
        exact hfit.2.1
      have hstart : StorageSession.step sign cfg.pass_value ⟨t, asked, paying, log⟩
          (.start (.writev si secrets tw rv) get_rref o) =
          ⟨t, asked ++ [.writev si secrets tw rv], paying,
            log ++ [.sent (.writev si secrets tw rv) (.statShares [si])]⟩ := by
        dsimp only [StorageSession.step, op_start]
        rw [hright]
        dsimp only [send_free]
        rw [if_pos hdata, (C115_calls_arrive _).1 hfit1]
        simp only [still_asked, still_paying, List.append_nil]
      obtain ⟨g, t', h1, h2, h3, h4, h5, h6, h7⟩ :=
        pay_sends_mixed htok hheld m1.order cfg.pass_value hfit hpr haff.1 haff.2
      have hasked : op_asked sign m1.order cfg.pass_value m1.client_now (.writev si secrets tw rv)
          (.result (.list ((remote_stat_shares (server.run cfg m1.others) [si]).map fun d =>
            .dict (d.map stat_to_wire)))) t = pay sign m1.order cfg.pass_value (.writev si secrets tw rv)
              (writePrice cfg.pass_value ((server.run cfg m1.others).buckets si) m1.client_now tw) t := by
        dsimp only [op_asked, Reply.value]
        rw [write_answer_price (si := si) hv htell htw hnl htime]
      have hturn := turn_asked (cfg := cfg) (asked := asked) (paying := paying) (log := log) (before := server)
        (server := server) (r := .statShares [si]) rfl m1 rfl (hasked.trans h1)
      dsimp only [still_asked, still_paying] at hturn
      rw [List.append_nil, show ∀ (l : List Out) (a b : Out), l ++ a :: [b] = l ++ [a] ++ [b] from
        fun l a b => List.append_cons l a [b]] at hturn
      obtain ⟨t2, s0, s', w, r, k', records, gl, rejected, log', e1, e2, e3, e4, e5, e6, e7, e8⟩ :=
        tries (log := log ++ [.sent (.writev si secrets tw rv) (.statShares [si])] ++
          [.got (.writev si secrets tw rv) (.result (.list ((remote_stat_shares (server.run cfg m1.others) [si]).map
            fun d => .dict (d.map stat_to_wire)))) m1.client_now]) (b := server.run cfg m1.others)
          (asked := asked) (paying := paying) hv hfit (fun _ => rfl)
          haff.1 (m2 :: later) (k := later.length) htok hheld haff.2 hbad
          (by rw [List.length_cons]; omega) hserve h2 h3 h4 h5 h6 h7
      refine ⟨t2, s0, s', w, r, k', records, gl, rejected, asked, paying, log', ?_, e2, e3, fun _ => e4,
        e5, e6, e7, e8⟩
      unfold converse
      rw [hstart, List.foldl_cons, hturn]
      exact e1
    · have hnone : ∀ kv ∈ tw, kv.2.datav = [] := fun kv hkv => by
        cases hd : kv.2.datav with
        | nil => rfl
        | cons d ds => exact absurd ((writes_any tw).mpr ⟨kv, hkv, by rw [hd]; exact nofun⟩) hdata
      have hcost : ∀ bucket now, writePrice cfg.pass_value bucket now tw = 0 := fun bucket now =>
        write_price_no_data bucket now hnone
      rw [hcost] at hserve
      have haff2 := haff.2
      dsimp only [costOf] at haff2
      rw [hcost] at haff2
      obtain ⟨g, t', h1, h2, h3, h4, h5, h6, h7⟩ :=
        pay_sends_mixed htok hheld o cfg.pass_value (n := 0) hfit (Int.le_refl _) (by decide) haff2
      have hstart : StorageSession.step sign cfg.pass_value ⟨t, asked, paying, log⟩
          (.start (.writev si secrets tw rv) get_rref o) =
          ⟨t', asked, paying ++ [(.writev si secrets tw rv,
            ⟨StorageOp.on_success cfg.pass_value (.writev si secrets tw rv), 0, g⟩)],
            log ++ [.sent (.writev si secrets tw rv) (StorageOp.request
              (g.passes.map Pass.pass_bytes) (.writev si secrets tw rv))]⟩ := by
        dsimp only [StorageSession.step, op_start]
        rw [hright]
        dsimp only
        rw [if_neg hdata, h1]
        simp only [still_asked, still_paying, List.append_nil]
      have hw := hwill m1 List.mem_cons_self
      have hs1 : Serves cfg (.writev si secrets tw rv) 0 m1 (server.run cfg m1.others) := by
        have := serves_writev (cfg := cfg) (secrets := secrets) (rv := rv) hv m1 (server.run cfg m1.others) htell.1 htw
          hnl hw.1 hw.2
        rwa [hcost] at this
      obtain ⟨t2, s0, s', w, r, k', records, gl, rejected, log', e1, e2, e3, e4, e5, e6, e7, e8⟩ :=
        tries (log := log) (b := server) (server := server) (asked := asked) (paying := paying) hv hfit (fun _ => rfl)
          (by decide) (m1 :: m2 :: later) (k := later.length) htok hheld haff2 hbad
          (by rw [List.length_cons, List.length_cons]; omega) ⟨hs1, hserve⟩ h2 h3 h4 h5 h6 h7
      refine ⟨t2, s0, s', w, r, k', records, gl, rejected, asked, paying, log', ?_, e2, e3, fun _ => ?_,
        e5, e6, e7, e8⟩
      · unfold converse
        rw [hstart]
        exact e1
      · dsimp only [costOf]
        rw [hcost]
        exact e4
  | _ => exact absurd trivial hpaid

/-- A server that does not accept the passes of the tokens "a" and "c". -/
def exPicky : ServerConfig :=
  ⟨10, fun _ p => p.preimage != List.replicate 88 97 && p.preimage != List.replicate 88 99⟩

/-- The renewal of `exShop`, which costs two tokens, at that server. -/
def exPickyShop : Customer := { exShop exExtend 99 with cfg := exPicky }

def exPickyLater : List Moment := [⟨[], 120, fun _ => true, 121, .natural⟩, ⟨[], 140, fun _ => true, 141, .natural⟩]

theorem exPicky_canPay : CanPayWithGood exPickyShop (fun x => x ≠ "a" ∧ x ≠ "c") exPickyLater := by
  have h := exShop_canPay exExtend 99 (fun h => h)
    ⟨⟨⟨by decide, fun _ h => (nomatch h)⟩, by decide, by decide, by decide⟩, trivial⟩ rfl
    (fun t => by show bucketPrice 10 exShelf ≤ 7; decide) (fun _ => rfl)
  have havail : ∀ x, Available exPickyShop.client.store x ↔ x ∈ exTokens := fun x => by
    rw [← exShop_available exExtend 99]
    exact (mem_select_available _ _).symm
  refine ⟨h.value, h.reissue, h.right, h.paid, h.proper, ⟨h.tokens.works, ?_⟩, ⟨?_, ?_⟩, ?_, h.time, h.tellable, ?_,
    ⟨?_, fun h => nomatch h⟩⟩
  · intro m ts ps hs x p hm hx
    have hx' : x ∈ exTokens := (havail x).mp hx
    have hp : p = exPass (exHead x) := by
      cases hs
      have : ∀ ts : List String, (x, p) ∈ ts.zip (ts.map fun x => exPass (exHead x)) → p = exPass (exHead x) := by
        intro ts
        induction ts with
        | nil => intro h; exact nomatch h
        | cons t ts ih =>
          intro h
          rw [List.map_cons, List.zip_cons_cons, List.mem_cons] at h
          rcases h with h | h
          · cases h; rfl
          · exact ih h
      exact this ts hm
    rw [hp]
    have : ∀ x ∈ exTokens, Pass.from_bytes (exPass (exHead x)).pass_bytes = .ok (exPass (exHead x)) ∧
      (exPicky.verifies m (exPass (exHead x)) = true ↔ x ≠ "a" ∧ x ≠ "c") := by
      show ∀ x ∈ exTokens, _ ∧ (((exPass (exHead x)).preimage != List.replicate 88 97 &&
        (exPass (exHead x)).preimage != List.replicate 88 99) = true ↔ _)
      decide +kernel
    exact this x hx'
  · show bucketPrice 10 exShelf ≤ 2 ^ 20
    decide
  · refine ⟨["b", "d"], by decide, ?_, by show bucketPrice 10 exShelf ≤ 2; decide⟩
    intro x hx
    rw [havail]
    revert x
    decide
  · intro ts hnd hts
    have : ∀ x ∈ ts, x ∈ ["a", "c"] := fun x hx => by
      have := hts x hx
      simp only [List.mem_cons, List.not_mem_nil, or_false]
      by_cases h1 : x = "a"
      · exact .inl h1
      · by_cases h2 : x = "c"
        · exact .inr h2
        · exact absurd ⟨h1, h2⟩ this.2
    exact nodup_subset_length hnd this
  · intro m hm n
    simp only [exPickyShop, exShop, exPickyLater, List.mem_cons, List.not_mem_nil, or_false] at hm
    rcases hm with rfl | rfl | rfl | rfl <;> rfl
  · intro k
    have : (((exPickyShop.second :: exPickyLater).take k).flatMap (·.others)) = [] := by
      rw [List.flatMap_eq_nil_iff]
      intro m hm
      have hm := List.mem_of_mem_take hm
      simp only [exPickyShop, exShop, exPickyLater, List.mem_cons, List.not_mem_nil, or_false] at hm
      rcases hm with rfl | rfl | rfl <;> rfl
    rw [this]
    rfl

/-- The renewal is carried out: "a" and "c" are set aside in turn, and "b" and "d" are spent. -/
example : CarriedOutWithGood exPickyShop (fun x => x ≠ "a" ∧ x ≠ "c") exPickyLater :=
  C157_bad_tokens _ _ _ exPicky_canPay

example : (exPickyShop.outcome exPickyLater).client.store.app.invalid.map (·.token) = ["a", "c"] ∧
    (exPickyShop.outcome exPickyLater).server.spent.length = 2 ∧
    (storedTokens (exPickyShop.outcome exPickyLater).client.store).length = 3 := by decide +kernel

end ZKAP
