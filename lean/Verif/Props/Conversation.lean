import Verif.Lemmas.Conversation
import Verif.Props.Books
import Verif.Props.StorageClient

/-! Property C156: an operation that can be paid for is carried out, against `Spec/Conversation.lean`. -/
namespace ZKAP
open Spec

/-- Where an operation that was carried out has got to. -/
structure Finished (k : Talk) (op : StorageOp) (stored : Nat) (price : Int) : Prop where
  returned : ∃ r, k.client.log.getLast? = some (.returned op r)
  tokens : (stored : Int) = (storedTokens k.client.store).length + price
  records : ∃ records, k.server.spent = k.before.spent ++ records ∧ (records.length : Int) = price

theorem finish {sign : Signer} {cfg : ServerConfig} (hv : 0 < cfg.pass_value) {t : Tables}
    {held : List String} {asked : List StorageOp} {paying : List (StorageOp × Call)} {log : List Out} {op : StorageOp}
    {n : Int} {g : PassGroup} {b server : Server} (m : Moment) (h : Held t (held ++ g.unblinded_tokens))
    (hwp : (op.request (g.passes.map Pass.pass_bytes)).with_passes = true)
    {s' : Server} {w : Wire} {r : OpResult} {k : Nat} {records : List Bytes}
    (hs : server_reply cfg m (server.run cfg m.others) (op.request (g.passes.map Pass.pass_bytes)) = (s', .result w))
    (hr : paid_result w op = .ok (r, k)) (hsp : s'.spent = (server.run cfg m.others).spent ++ records)
    (hp : ∀ si renew cancel nums size canary, op = .allocateBuckets si renew cancel nums size canary →
      (records.length : Int) = total cfg.pass_value (List.replicate k (size : Int)) ∧
        records.length ≤ g.tokens.length)
    (hp' : (∀ si renew cancel nums size canary, op ≠ .allocateBuckets si renew cancel nums size canary) →
      records.length = g.tokens.length) :
    Finished (Talk.turn sign cfg cfg.pass_value ⟨⟨t, asked, paying ++ [(op, ⟨op.on_success cfg.pass_value, n, g⟩)],
      log ++ [.sent op (op.request (g.passes.map Pass.pass_bytes))]⟩, b, server⟩ m) op (storedTokens t).length
      records.length ∧
    (Talk.turn sign cfg cfg.pass_value ⟨⟨t, asked, paying ++ [(op, ⟨op.on_success cfg.pass_value, n, g⟩)],
      log ++ [.sent op (op.request (g.passes.map Pass.pass_bytes))]⟩, b, server⟩ m).server = s' ∧
    (Talk.turn sign cfg cfg.pass_value ⟨⟨t, asked, paying ++ [(op, ⟨op.on_success cfg.pass_value, n, g⟩)],
      log ++ [.sent op (op.request (g.passes.map Pass.pass_bytes))]⟩, b, server⟩ m).before =
        server.run cfg m.others := by
  obtain ⟨t', h1, h2, -⟩ := paid_returns (sign := sign) (n := n) hv h m.order hr hp hp'
  rw [turn_paid hwp m hs h1]
  refine ⟨⟨⟨r, ?_⟩, ?_, records, hsp, rfl⟩, rfl, rfl⟩
  · dsimp only
    rw [show log ++ [Out.sent op (op.request (g.passes.map Pass.pass_bytes))] ++
        .got op (.result w) m.client_now :: [.returned op r] =
      (log ++ [Out.sent op (op.request (g.passes.map Pass.pass_bytes))] ++ [.got op (.result w) m.client_now]) ++
        [.returned op r] by simp, List.getLast?_concat]
  · dsimp only
    omega

/-- What C156 says in full: a storage operation that the client can pay for, and that the server would perform for a
client who pays, is carried out for its price. -/
def C156_statement : Prop := ∀ c : Customer, CanPay c → CarriedOut c (charged c)

theorem store_of_app {t t' : Tables} (h : t'.app = t.app) : storedTokens t' = storedTokens t := by
  unfold storedTokens; rw [h]

/-- **C156** for uploads, lease renewals, and writes during which no lease on the shares of the storage index ends.
Missing: writes during which one does, see `C156_lease_ends_fails`. -/
theorem C156_carried_out_partial (c : Customer) (h : CanPay c) (quiet : IsWrite c.op → NoLeaseEnds c) :
    CarriedOut c (charged c) := by
  obtain ⟨sign, cfg, op, get_rref, o, history, server, m1, m2⟩ := c
  have hv := h.value
  have inv := session_inv_run h.tokens.works hv history (sessionInv_init sign cfg.pass_value) h.reissue
  have hheld := inv.held
  have hright : client_rref get_rref = .ok ⟨true, some expected_remote_interface_name⟩ := by
    have := h.right
    unfold RightServer at this
    dsimp only at this
    rw [this]
    rfl
  have htok := h.tokens
  have haff := h.affords
  have htell := h.tellable
  have hpaid := h.paid
  have hprop := h.proper
  have hwill := h.willing
  have hund := h.undisturbed
  have htime := h.time
  unfold NoLeaseEnds at quiet
  unfold CarriedOut charged
  unfold Customer.result
  unfold Customer.bucket Customer.asked at *
  unfold Customer.client at *
  dsimp only at *
  generalize StorageSession.run sign cfg.pass_value {} history = S at *
  obtain ⟨t, asked, paying, log⟩ := S
  dsimp only at *
  cases op with
  | allocateBuckets si renew cancel nums size canary =>
    have hpr : 0 ≤ total cfg.pass_value (List.replicate nums.length (size : Int)) := by
      rw [total_replicate]
      exact Int.mul_nonneg (by omega) (passes_nonneg _ hv (by omega))
    obtain ⟨g, t', h1, h2, h3, h4, h5, h6⟩ := pay_sends htok hheld o cfg.pass_value hprop.1 hpr (haff 0).1 (haff 0).2
    obtain ⟨s', w, r, k, records, h7, h8, h9, h10, h11, h12⟩ := reply_allocate hv m1 (server.run cfg m1.others)
      (renew := renew) (cancel := cancel) (canary := canary) h5 h3 h4
    obtain ⟨hfin, hs1, hs2⟩ := finish (sign := sign) (asked := asked) (paying := paying) (log := log)
      (n := total cfg.pass_value (List.replicate nums.length (size : Int))) (b := server) hv m1 h6 rfl h7 h8 h10
      (fun _ _ _ _ _ _ e => by cases e; exact ⟨h11, h12⟩) (fun hne => absurd rfl (hne _ _ _ _ _ _))
    have hstart : StorageSession.step sign cfg.pass_value ⟨t, asked, paying, log⟩
        (.start (.allocateBuckets si renew cancel nums size canary) get_rref o) =
        ⟨t', asked, paying ++ [(.allocateBuckets si renew cancel nums size canary,
          ⟨StorageOp.on_success cfg.pass_value (.allocateBuckets si renew cancel nums size canary),
            total cfg.pass_value (List.replicate nums.length (size : Int)), g⟩)],
          log ++ [.sent (.allocateBuckets si renew cancel nums size canary) (StorageOp.request
            (g.passes.map Pass.pass_bytes) (.allocateBuckets si renew cancel nums size canary))]⟩ := by
      dsimp only [StorageSession.step, op_start]
      rw [hright]
      dsimp only [client_allocate_num_passes]
      rw [required_passes_eq _ hv, h1]
      simp only [still_asked, still_paying, List.append_nil]
    unfold converse
    rw [hstart, List.foldl_cons, List.foldl_cons, List.foldl_nil]
    obtain ⟨r', hr'⟩ := hfin.returned
    rw [turn_over hr' m2, hs1, hs2, h9, Nat.add_sub_cancel_left]
    dsimp only
    rw [← h11]
    rw [store_of_app h2] at hfin
    exact ⟨⟨r', hr'⟩, hfin.tokens, records, h10, rfl⟩
  | addLease si renew cancel =>
    have hpr := bucket_price_nonneg hv ((server.run cfg m1.others).buckets si)
    have hfit : Fits (.shareSizes si) := hprop.1.2.1
    have hstart : StorageSession.step sign cfg.pass_value ⟨t, asked, paying, log⟩
        (.start (.addLease si renew cancel) get_rref o) =
        ⟨t, asked ++ [.addLease si renew cancel], paying, log ++ [.sent (.addLease si renew cancel) (.shareSizes si)]⟩ := by
      dsimp only [StorageSession.step, op_start]
      rw [hright]
      dsimp only [send_free]
      rw [(C115_calls_arrive _).1 hfit]
      simp only [still_asked, still_paying, List.append_nil]
    obtain ⟨g, t', h1, h2, h3, h4, h5, h6⟩ := pay_sends htok hheld m1.order cfg.pass_value hprop.1 hpr
      (haff 0).1 (haff 0).2
    have hasked : op_asked sign m1.order cfg.pass_value m1.client_now (.addLease si renew cancel)
        (.result (.dict ((remote_share_sizes (server.run cfg m1.others) si none).map fun kv =>
          (.int kv.1, .int kv.2)))) t = pay sign m1.order cfg.pass_value (.addLease si renew cancel)
            (bucketPrice cfg.pass_value ((server.run cfg m1.others).buckets si)) t := by
      dsimp only [op_asked, Reply.value]
      rw [lease_answer_price (si := si) hv htell]
    have hb2 : ((server.run cfg m1.others).run cfg m2.others).buckets si =
      (server.run cfg m1.others).buckets si := hund
    obtain ⟨s', w, r, k, records, h7, h8, h10, h11⟩ := reply_add_lease hv m2
      ((server.run cfg m1.others).run cfg m2.others) (renew := renew) (cancel := cancel) h5 h3
      (by rw [hb2]; exact htell.1) hwill.2 (by rw [hb2, h4]; exact Int.le_refl _)
    obtain ⟨hfin, hs1, hs2⟩ := finish (sign := sign) (asked := asked) (paying := paying)
      (log := log ++ [.sent (.addLease si renew cancel) (.shareSizes si)] ++
        [.got (.addLease si renew cancel) (.result (.dict ((remote_share_sizes (server.run cfg m1.others) si none).map
          fun kv => (.int kv.1, .int kv.2)))) m1.client_now])
      (n := bucketPrice cfg.pass_value ((server.run cfg m1.others).buckets si)) (b := server.run cfg m1.others)
      hv m2 h6 rfl h7 h8 h10 (fun _ _ _ _ _ _ e => nomatch e) (fun _ => h11)
    have hturn := turn_asked (cfg := cfg) (asked := asked) (paying := paying) (log := log) (before := server)
      (server := server) (r := .shareSizes si) rfl m1 rfl (hasked.trans h1)
    dsimp only [still_asked, still_paying] at hturn
    rw [List.append_nil, show ∀ (l : List Out) (a b : Out), l ++ a :: [b] = l ++ [a] ++ [b] from
      fun l a b => List.append_cons l a [b]] at hturn
    unfold converse
    rw [hstart, List.foldl_cons, List.foldl_cons, List.foldl_nil, hturn]
    have hrl : (records.length : Int) = bucketPrice cfg.pass_value ((server.run cfg m1.others).buckets si) := by
      rw [h11]; exact h4
    rw [store_of_app h2, hrl] at hfin
    exact ⟨hfin.returned, hfin.tokens, hfin.records⟩
  | writev si secrets tw rv =>
    obtain ⟨hfit, htw, hnl⟩ := hprop
    have hb2 : ((server.run cfg m1.others).run cfg m2.others).buckets si =
      (server.run cfg m1.others).buckets si := hund
    by_cases hdata : (get_write_sharenums tw).length > 0
    · have hpr := writePrice_nonneg cfg.pass_value hv ((server.run cfg m1.others).buckets si) m1.client_now tw
      have hfit1 : Fits (.statShares [si]) := fun s hs => by
        rw [List.mem_singleton.mp hs]
        exact hfit.2.1
      have hstart : StorageSession.step sign cfg.pass_value ⟨t, asked, paying, log⟩
          (.start (.writev si secrets tw rv) get_rref o) =
          ⟨t, asked ++ [.writev si secrets tw rv], paying,
            log ++ [.sent (.writev si secrets tw rv) (.statShares [si])]⟩ := by
        dsimp only [StorageSession.step, op_start]
        rw [hright]
        dsimp only [send_free]
        rw [if_pos hdata, (C115_calls_arrive _).1 hfit1]
        simp only [still_asked, still_paying, List.append_nil]
      obtain ⟨g, t', h1, h2, h3, h4, h5, h6⟩ := pay_sends htok hheld m1.order cfg.pass_value hfit hpr
        (haff m1.client_now).1 (haff m1.client_now).2
      have hasked : op_asked sign m1.order cfg.pass_value m1.client_now (.writev si secrets tw rv)
          (.result (.list ((remote_stat_shares (server.run cfg m1.others) [si]).map fun d =>
            .dict (d.map stat_to_wire)))) t = pay sign m1.order cfg.pass_value (.writev si secrets tw rv)
              (writePrice cfg.pass_value ((server.run cfg m1.others).buckets si) m1.client_now tw) t := by
        dsimp only [op_asked, Reply.value]
        rw [write_answer_price (si := si) hv htell htw hnl htime]
      obtain ⟨s', w, r, k, records, h7, h8, h10, h11⟩ := reply_writev hv m2
        ((server.run cfg m1.others).run cfg m2.others) (secrets := secrets) (rv := rv) h5 h3
        (by rw [hb2]; exact htell.1) htw hnl hwill.2.1 (by rw [hb2]; exact hwill.2.2)
        (by rw [hb2, h4]; exact write_price_later hv (quiet trivial) tw)
      obtain ⟨hfin, hs1, hs2⟩ := finish (sign := sign) (asked := asked) (paying := paying)
        (log := log ++ [.sent (.writev si secrets tw rv) (.statShares [si])] ++
          [.got (.writev si secrets tw rv) (.result (.list ((remote_stat_shares (server.run cfg m1.others) [si]).map
            fun d => .dict (d.map stat_to_wire)))) m1.client_now])
        (n := writePrice cfg.pass_value ((server.run cfg m1.others).buckets si) m1.client_now tw)
        (b := server.run cfg m1.others) hv m2 h6 rfl h7 h8 h10 (fun _ _ _ _ _ _ e => nomatch e) (fun _ => h11)
      have hturn := turn_asked (cfg := cfg) (asked := asked) (paying := paying) (log := log) (before := server)
        (server := server) (r := .statShares [si]) rfl m1 rfl (hasked.trans h1)
      dsimp only [still_asked, still_paying] at hturn
      rw [List.append_nil, show ∀ (l : List Out) (a b : Out), l ++ a :: [b] = l ++ [a] ++ [b] from
      fun l a b => List.append_cons l a [b]] at hturn
      unfold converse
      rw [hstart, List.foldl_cons, List.foldl_cons, List.foldl_nil, hturn]
      have hrl : (records.length : Int) =
          writePrice cfg.pass_value ((server.run cfg m1.others).buckets si) m1.client_now tw := by
        rw [h11]; exact h4
      rw [store_of_app h2, hrl] at hfin
      exact ⟨hfin.returned, hfin.tokens, hfin.records⟩
    · have hnone : ∀ kv ∈ tw, kv.2.datav = [] := fun kv hkv => by
        cases hd : kv.2.datav with
        | nil => rfl
        | cons d ds => exact absurd ((writes_any tw).mpr ⟨kv, hkv, by rw [hd]; exact nofun⟩) hdata
      have hcost : ∀ bucket now, writePrice cfg.pass_value bucket now tw = 0 := fun bucket now =>
        write_price_no_data bucket now hnone
      obtain ⟨g, t', h1, h2, h3, h4, h5, h6⟩ := pay_sends htok hheld o cfg.pass_value (n := 0) hfit (Int.le_refl _)
        (by decide) ⟨[], List.nodup_nil, fun _ hx => (nomatch hx), Int.le_refl _⟩
      have hstart : StorageSession.step sign cfg.pass_value ⟨t, asked, paying, log⟩
          (.start (.writev si secrets tw rv) get_rref o) =
          ⟨t', asked, paying ++ [(.writev si secrets tw rv,
            ⟨StorageOp.on_success cfg.pass_value (.writev si secrets tw rv), 0, g⟩)],
            log ++ [.sent (.writev si secrets tw rv) (StorageOp.request
              (g.passes.map Pass.pass_bytes) (.writev si secrets tw rv))]⟩ := by
        dsimp only [StorageSession.step, op_start]
        rw [hright]
        dsimp only
        rw [if_neg hdata, h1]
        simp only [still_asked, still_paying, List.append_nil]
      obtain ⟨s', w, r, k, records, h7, h8, h10, h11⟩ := reply_writev hv m1
        (server.run cfg m1.others) (secrets := secrets) (rv := rv) h5 h3
        htell.1 htw hnl hwill.1.1 hwill.1.2 (by rw [hcost]; omega)
      obtain ⟨hfin, hs1, hs2⟩ := finish (sign := sign) (asked := asked) (paying := paying) (log := log)
        (n := 0) (b := server) hv m1 h6 rfl h7 h8 h10 (fun _ _ _ _ _ _ e => nomatch e) (fun _ => h11)
      unfold converse
      rw [hstart, List.foldl_cons, List.foldl_cons, List.foldl_nil]
      obtain ⟨r', hr'⟩ := hfin.returned
      rw [turn_over hr' m2]
      have hrl : (records.length : Int) = 0 := by rw [h11]; exact h4
      rw [store_of_app h2, hrl] at hfin
      dsimp only [costOf]
      rw [hcost]
      exact ⟨hfin.returned, hfin.tokens, hfin.records⟩
  | _ => exact absurd trivial hpaid

/-- A voucher was redeemed for the seven tokens. -/
def exShopper : List SessionEvent :=
  [.other (.add .natural "2020" "voucher" 5 0 (.ok ["r"])), .other (.insert "2021" "voucher" "key" exTokens true true)]

/-- A slot with one share of 15 bytes, with a lease that ends at 100. -/
def exShelf : Bucket := [(0, ⟨true, List.replicate 32 1, List.replicate 15 7, [⟨[5], 100⟩]⟩)]

/-- A client with seven tokens and a server with the slot at index 9.  The client learns of the slot at 99; the server
is asked to perform the operation at this time. -/
def exShop (op : StorageOp) (now : Int) : Customer :=
  ⟨exSign88, exCfg, op, exRight, .natural, exShopper, Server.init (fun si => if si = [9] then exShelf else []),
    ⟨[], 99, fun _ => true, 99, .natural⟩, ⟨[], now, fun _ => true, now, .natural⟩⟩

/-- Three bytes at the start of the share are written over, and then read. -/
def exEdit : StorageOp :=
  .writev [9] (List.replicate 32 1, List.replicate 32 5, List.replicate 32 6) [(0, ⟨[], [(0, [1, 2, 3])], none⟩)] [(0, 3)]

/-- Shares 3 and 4, of 12 bytes, are uploaded. -/
def exPut : StorageOp := .allocateBuckets [9] (List.replicate 32 5) (List.replicate 32 6) [3, 4] 12 77

/-- The lease of the share is renewed. -/
def exExtend : StorageOp := .addLease [9] (List.replicate 32 5) (List.replicate 32 6)

theorem exShop_available (op : StorageOp) (now : Int) : select_available (exShop op now).client.store = exTokens := by
  have h : select_available ((StoreOp.insert "2021" "voucher" "key" exTokens true true).step
      ((StoreOp.add .natural "2020" "voucher" 5 0 (.ok ["r"])).step {}).2).2 = exTokens := by
    decide +kernel
  rw [← h]
  congr 1

theorem exShop_canPay (op : StorageOp) (now : Int) (paid : ¬ Free op) (proper : Proper op) (at9 : indexOf op = [9])
    (cheap : ∀ t, costOf 10 exShelf t op ≤ 7) (willing : Willing exShelf (fun _ => true) op) :
    CanPay (exShop op now) := by
  have hb : (exShop op now).bucket = exShelf := by
    unfold Customer.bucket exShop
    dsimp only
    rw [at9]
    rfl
  have hr : NoReissueIn (exShop op now).sign (exShop op now).cfg.pass_value {} (exShop op now).history := by
    refine ⟨?_, ?_, trivial⟩
    · rintro op h x hx; cases h; cases hx
    · rintro op h x hx
      cases h
      have : (StorageSession.step exSign88 10 {}
          (.other (.add .natural "2020" "voucher" 5 0 (.ok ["r"])))).store.app.invalid = [] := by
        have h1 : (if outside (.add .natural "2020" "voucher" 5 0 (.ok ["r"])) then
          ((StoreOp.add .natural "2020" "voucher" 5 0 (.ok ["r"])).step {}).2.app.invalid else []) = [] := by decide +kernel
        simpa [StorageSession.step, outside] using h1
      unfold invalidTokens
      show x ∉ List.map _ (StorageSession.step exSign88 10 {}
          (.other (.add .natural "2020" "voucher" 5 0 (.ok ["r"])))).store.app.invalid
      rw [this]
      exact List.not_mem_nil
  refine ⟨⟨⟨by show (0 : Int) < 10; decide, rfl, paid, proper, ?_, by show (0:Int) ≤ 99; decide, ?_, ?_, ?_⟩, hr⟩,
    ⟨fun _ _ => ⟨_, rfl, by simp⟩, ?_⟩⟩
  · intro t
    rw [hb]
    refine ⟨Int.le_trans (cheap t) (by decide), exTokens, by decide, ?_, cheap t⟩
    intro x hx
    rw [← exShop_available op now] at hx
    exact (mem_select_available _ _).mp hx
  · rw [hb]
    refine ⟨by unfold Dict.WF; decide, ?_⟩
    intro kv hkv
    rw [List.mem_singleton.mp hkv]
    decide
  · rw [hb]
    exact ⟨willing, willing⟩
  · unfold Customer.bucket
    rfl
  · intro m ts ps h x p hm hx
    have hx' : x ∈ exTokens := by
      rw [← exShop_available op now]
      exact (mem_select_available _ _).mpr hx
    obtain ⟨rfl, h1⟩ : p = exPass (exHead x) ∧ True := by
      refine ⟨?_, trivial⟩
      cases h
      have : ∀ ts : List String, (x, p) ∈ ts.zip (ts.map fun x => exPass (exHead x)) → p = exPass (exHead x) := by
        intro ts
        induction ts with
        | nil => intro h; exact nomatch h
        | cons t ts ih =>
          intro h
          rw [List.map_cons, List.zip_cons_cons, List.mem_cons] at h
          rcases h with h | h
          · cases h; rfl
          · exact ih h
      exact this ts hm
    have : ∀ x ∈ exTokens, Pass.from_bytes (exPass (exHead x)).pass_bytes = .ok (exPass (exHead x)) ∧
      (exPass (exHead x)).preimage ≠ List.replicate 88 90 := by decide +kernel
    exact ⟨(this x hx').1, bne_iff_ne.mpr (this x hx').2⟩

theorem exEdit_canPay (now : Int) : CanPay (exShop exEdit now) := by
  refine exShop_canPay exEdit now (fun h => h) ⟨?_, ?_⟩ rfl ?_ ?_
  · refine ⟨⟨by decide, fun _ h => (nomatch h)⟩, by decide, by decide, ?_, ?_⟩
    · intro kv hkv
      rw [List.mem_singleton.mp hkv]
      refine ⟨by decide, fun _ h => (nomatch h), ?_, fun _ h => (nomatch h)⟩
      intro d hd
      rw [List.mem_singleton.mp hd]
      decide
    · intro d hd
      rw [List.mem_singleton.mp hd]
      decide
  · refine ⟨by unfold Dict.WF; decide, ?_⟩
    intro kv hkv
    rw [List.mem_singleton.mp hkv]
  · intro t
    show (growth 10 (paidSize exShelf t 0) 3) + 0 ≤ 7
    have h0 : 0 ≤ paidSize exShelf t 0 := by
      unfold paidSize
      split <;> try split
      all_goals omega
    have := growth_le_new 10 (paidSize exShelf t 0) 3 (by decide) h0 (by decide)
    have h3 : passes 10 3 = 1 := by decide
    omega
  · exact ⟨fun _ => rfl, by
      intro kv hkv
      rw [List.mem_singleton.mp hkv]
      decide⟩

/-- While the lease runs the write is free and carried out. -/
example : CarriedOut (exShop exEdit 99) 0 := by
  have h := C156_carried_out_partial _ (exEdit_canPay 99) (fun _ => by
    intro kv hkv
    rw [show kv = (0, ⟨true, List.replicate 32 1, List.replicate 15 7, [⟨[5], 100⟩]⟩) from List.mem_singleton.mp hkv]
    exact id)
  have : charged (exShop exEdit 99) = 0 := by
    show costOf 10 exShelf 99 exEdit = 0
    decide +kernel
  rwa [this] at h

/-- Renewing the lease costs two of the tokens, whenever the server gets to it. -/
example (now : Int) : CarriedOut (exShop exExtend now) 2 := by
  have h := C156_carried_out_partial (exShop exExtend now) (exShop_canPay exExtend now (fun h => h)
    ⟨⟨⟨by decide, fun _ h => (nomatch h)⟩, by decide, by decide, by decide⟩, trivial⟩ rfl
    (fun t => by show bucketPrice 10 exShelf ≤ 7; decide) (fun _ => rfl)) (fun h => nomatch h)
  have : charged (exShop exExtend now) = 2 := by
    show bucketPrice 10 exShelf = 2
    decide
  rwa [this] at h

/-- An upload of two shares costs four. -/
example : CarriedOut (exShop exPut 99) 4 := by
  have h := C156_carried_out_partial (exShop exPut 99) (exShop_canPay exPut 99 (fun h => h)
    ⟨⟨⟨by decide, fun _ h => (nomatch h)⟩, by decide, by decide, by decide, by decide, by
      intro n hn
      rcases List.mem_cons.mp hn with rfl | hn
      · decide
      · rw [List.mem_singleton.mp hn]; decide, by decide⟩, trivial⟩ rfl
    (fun t => by show total 10 (List.replicate 2 12) ≤ 7; decide) trivial) (fun h => nomatch h)
  have : charged (exShop exPut 99) = 4 := by
    decide +kernel
  rwa [this] at h

/-- C156 fails: the client takes the share for paid at 99 and offers no passes, the lease ends, and the server refuses
the write for want of a pass that the client has. -/
theorem C156_lease_ends_fails : ¬ C156_statement := by
  intro h
  obtain ⟨⟨r, h1⟩, -⟩ := h _ (exEdit_canPay 101)
  have h2 : ((exShop exEdit 101).result.client.log.getLast?.map fun
      | .raised .. => true
      | _ => false) = some true := by decide +kernel
  rw [h1] at h2
  exact nomatch h2

end ZKAP
