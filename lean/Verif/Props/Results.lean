import Verif.Lemmas.Happened
import Verif.Props.Conversation

/-! Properties C158 to C160: what a client is told is what happened, what costs nothing is answered, and what was
written is read, against `Spec/Results.lean`. -/
namespace ZKAP
open Spec

/-- **C158**: if an operation returned a result, what the result says happened at the server: the last call
changed it from `before` to `server`. -/
theorem C158_told (sign : Signer) (cfg : ServerConfig) (v : Int) (op : StorageOp) (rref : Except PyErr RRef) (o : Order)
    (client : StorageSession) (server : Server) (hb : ProperShares server.buckets) (hs : Sets op) (ms : List Moment)
    (r : OpResult)
    (h : (converse sign cfg v op rref o client server ms).client.log.getLast? = some (.returned op r)) :
    ∃ m ∈ ms, Happened (converse sign cfg v op rref o client server ms).before
      (converse sign cfg v op rref o client server ms).server m.server_now op r := by
  obtain ⟨-, m, hm, ps, w, hrep, hres⟩ := converse_returned h
  have hwf := (converse_wf (sign := sign) (cfg := cfg) (v := v) (op := op) (rref := rref) (o := o) (client := client)
    (s := server) hb ms).1
  refine ⟨m, hm, ?_⟩
  rcases hres with ⟨hf, hres⟩ | ⟨hf, k, hres⟩
  · exact happened_free hwf hf hrep hres _
  · exact happened_paid hwf hs hf hrep hres

/-- The readers of the shares at an index: they are numbered in order. -/
def readersOf (bucket : Bucket) : Dict Int Wire :=
  (((bucket.map fun kv => (kv.1, kv.2.data)).zipIdx).map fun nb => (nb.1.1, nb.2)).map
    fun kv => ((kv.1 : Int), Wire.ref kv.2)

theorem readers_answer {cfg : ServerConfig} {m : Moment} {s : Server} {si : SI} (ht : Tellable (s.buckets si))
    (hl : (s.buckets si).length ≤ 256) (hi : ∀ kv ∈ s.buckets si, kv.2.is_mutable = false) :
    ∃ w, remote_get_buckets s si = .ok ((s.buckets si).map fun kv => (kv.1, kv.2.data)) ∧
      server_reply cfg m s ((StorageOp.getBuckets si).request []) = (s, .result w) ∧
      free_result w (.getBuckets si) = .ok (.buckets (readersOf (s.buckets si))) := by
  have hg : remote_get_buckets s si = .ok ((s.buckets si).map fun kv => (kv.1, kv.2.data)) := by
    unfold remote_get_buckets original_get_buckets
    rw [if_neg (by
      simp only [List.any_eq_true, not_exists, not_and, Bool.not_eq_true]
      exact hi)]
    dsimp only
    rw [List.map_map]
    rfl
  have hc : response_ok "get_buckets" (.dict (((s.buckets si).map fun kv => (kv.1, kv.2.data)).zipIdx.map fun nb =>
      (.int nb.1.1, .ref nb.2))) = true := by
    have hw : ∀ w, response_ok "get_buckets" w = (Constraint.dictOf .int .ref (some MAX_BUCKETS)).check w := fun _ => rfl
    rw [hw, check_dict, Bool.and_eq_true]
    constructor
    · rw [List.length_map, List.length_zipIdx, List.length_map]
      exact (within_some 256 _).mpr hl
    · rw [List.all_map, List.all_eq_true]
      intro nb hnb
      have hmem : nb.1 ∈ (s.buckets si).map fun kv => (kv.1, kv.2.data) := by
        rw [← List.zipIdx_map_fst 0 ((s.buckets si).map fun kv => (kv.1, kv.2.data))]
        exact List.mem_map_of_mem hnb
      obtain ⟨kv, hkv, e⟩ := List.mem_map.mp hmem
      rw [Function.comp, Bool.and_eq_true]
      refine ⟨(check_int nb.1.1).mpr ?_, rfl⟩
      rw [← e]
      exact (ht.2 kv hkv).1
  have hwf2 : Dict.WF ((((s.buckets si).map fun kv => (kv.1, kv.2.data)).zipIdx).map fun nb => (nb.1.1, nb.2)) := by
    unfold Dict.WF
    rw [List.map_map]
    show (List.map (Prod.fst ∘ Prod.fst) _).Nodup
    rw [← List.map_map, List.zipIdx_map_fst, List.map_map]
    exact ht.1
  refine ⟨.dict (((s.buckets si).map fun kv => (kv.1, kv.2.data)).zipIdx.map fun nb => (.int nb.1.1, .ref nb.2)), hg, ?_, ?_⟩
  · dsimp only [StorageOp.request, server_reply]
    rw [hg]
  · dsimp only [free_result]
    unfold client_get_buckets
    rw [if_pos hc]
    dsimp only
    have := known_items_nat (value := some) (enc := Wire.ref) (f := Wire.ref) (fun _ => rfl) hwf2
    rw [List.map_map] at this
    rw [show ((fun nb : (Nat × Bytes) × Nat => ((.int nb.1.1, .ref nb.2) : Wire × Wire))) =
      ((fun kv : Nat × Nat => ((.int kv.1, .ref kv.2) : Wire × Wire)) ∘ fun nb : (Nat × Bytes) × Nat => (nb.1.1, nb.2))
      from rfl, this]
    rfl

theorem answerable_result {cfg : ServerConfig} {m : Moment} {s : Server} {op : StorageOp} (hf : Free op)
    (ha : Answerable s op) (hwf : BucketsWF s) :
    ∃ w r, server_reply cfg m s (op.request []) = (s, .result w) ∧ free_result w op = .ok r := by
  cases op with
  | allocateBuckets => exact hf.elim
  | addLease => exact hf.elim
  | writev => exact hf.elim
  | getVersion => exact ⟨_, _, rfl, rfl⟩
  | adviseCorruptShare => exact ⟨_, _, rfl, rfl⟩
  | getBuckets si =>
    obtain ⟨w, -, h1, h2⟩ := readers_answer (cfg := cfg) (m := m) ha.1 ha.2.1 ha.2.2
    exact ⟨w, _, h1, h2⟩
  | statShares sis =>
    have hc : response_ok "stat_shares" (.list ((remote_stat_shares s sis).map fun d => .dict (d.map stat_to_wire))) =
        true := by
      have hw : ∀ w, response_ok "stat_shares" w = (Constraint.listOf (.dictOf .int .any none) none).check w := fun _ => rfl
      rw [hw, check_list, within_none, Bool.true_and, List.all_map, List.all_eq_true]
      intro d hd
      rw [Function.comp, check_dict, within_none, Bool.true_and, List.all_map, List.all_eq_true]
      intro kv hkv
      rw [Function.comp, Bool.and_eq_true]
      refine ⟨(check_int kv.1).mpr ?_, check_any _⟩
      unfold remote_stat_shares at hd
      obtain ⟨si, hsi, rfl⟩ := List.mem_map.mp hd
      rw [share_stats_all, Dict.ofItems_wf _ (wf_map_val (hwf si) fun kv => share_stat kv.2)] at hkv
      obtain ⟨kv', hkv', rfl⟩ := List.mem_map.mp hkv
      exact ((ha si hsi).2 kv' hkv').1
    refine ⟨_, .stats (sis.map fun si => (s.buckets si).map fun kv => ((kv.1 : Int),
        [("size", Wire.int (share_stat kv.2).size), ("lease_expiration", .int (share_stat kv.2).lease_expiration)])),
      rfl, ?_⟩
    dsimp only [free_result]
    unfold client_stat_shares
    rw [if_pos hc]
    dsimp only
    rw [stat_items_all hwf]
    rfl
  | readv si shares rv =>
    have h2 := ha
    have hp : ∀ k, (shares.contains k || shares.isEmpty) = true → Named shares k := by
      intro k hk
      rw [Bool.or_eq_true, List.contains_iff_mem, List.isEmpty_iff] at hk
      exact hk.symm
    have hg : remote_slot_readv s si shares rv = .ok (original_evaluate_read_vectors
        ((s.buckets si).filter (fun kv => shares.contains kv.1 || shares.isEmpty)) rv) := by
      unfold remote_slot_readv original_slot_readv
      dsimp only
      rw [if_neg]
      simp only [List.any_eq_true, not_exists, not_and, Bool.not_eq_true', Bool.not_eq_false]
      intro kv hkv
      rw [List.mem_filter] at hkv
      exact (h2 kv hkv.1 (hp _ hkv.2)).2
    have hc : response_ok "slot_readv" (.dict ((original_evaluate_read_vectors
        ((s.buckets si).filter (fun kv => shares.contains kv.1 || shares.isEmpty)) rv).map read_to_wire)) = true := by
      have hw : ∀ w, response_ok "slot_readv" w = (Constraint.dictOf .int ReadDataConstraint none).check w := fun _ => rfl
      rw [hw, check_dict, within_none, Bool.true_and, List.all_map, List.all_eq_true]
      intro kv hkv
      unfold original_evaluate_read_vectors at hkv
      obtain ⟨kv', hkv', rfl⟩ := List.mem_map.mp hkv
      rw [List.mem_filter] at hkv'
      rw [Function.comp, Bool.and_eq_true]
      refine ⟨(check_int kv'.1).mpr (h2 kv' hkv'.1 (hp _ hkv'.2)).1, ?_⟩
      show ReadDataConstraint.check (byte_strings_to_wire _) = true
      unfold ReadDataConstraint byte_strings_to_wire
      rw [check_list, within_none, Bool.true_and, List.all_map, List.all_eq_true]
      intro b _
      exact check_any_bytes b
    refine ⟨.dict ((original_evaluate_read_vectors
        ((s.buckets si).filter (fun kv => shares.contains kv.1 || shares.isEmpty)) rv).map read_to_wire),
      .read (.dict ((original_evaluate_read_vectors
        ((s.buckets si).filter (fun kv => shares.contains kv.1 || shares.isEmpty)) rv).map read_to_wire)), ?_, ?_⟩
    rotate_left
    · dsimp only [free_result]
      unfold client_slot_readv
      rw [if_pos hc]
      rfl
    · dsimp only [StorageOp.request, server_reply]
      rw [hg]

theorem free_conversation {sign : Signer} {cfg : ServerConfig} {v : Int} {op : StorageOp} {rref : Except PyErr RRef}
    {o : Order} {client : StorageSession} {server : Server} {m : Moment} (hf : Free op) (hright : RightServer rref)
    (hfit : Fits (op.request [])) {w : Wire} {r : OpResult}
    (h1 : server_reply cfg m (server.run cfg m.others) (op.request []) = (server.run cfg m.others, .result w))
    (h2 : free_result w op = .ok r) :
    (converse sign cfg v op rref o client server [m]).client =
        { client with log := client.log ++ [.sent op (op.request []), .got op (.result w) m.client_now, .returned op r] } ∧
      (converse sign cfg v op rref o client server [m]).server = server.run cfg m.others := by
  obtain ⟨t, asked, paying, log⟩ := client
  have hstart : StorageSession.step sign v ⟨t, asked, paying, log⟩ (.start op rref o) =
      ⟨t, asked ++ [op], paying, log ++ [.sent op (op.request [])]⟩ := by
    have hr : client_rref rref = .ok ⟨true, some expected_remote_interface_name⟩ := by
      unfold RightServer at hright
      rw [hright]
      rfl
    have : op_start sign o v rref op t = (.asked, [.sent op (op.request [])], t) := by
      unfold op_start
      rw [hr]
      cases op with
      | allocateBuckets => exact hf.elim
      | addLease => exact hf.elim
      | writev => exact hf.elim
      | _ =>
        dsimp only [send_free]
        rw [(C115_calls_arrive _).1 hfit]
    dsimp only [StorageSession.step]
    rw [this]
    dsimp only [still_asked, still_paying]
    rw [List.append_nil]
  have hasked : op_asked sign m.order v m.client_now op (.result w) t = (.over, [.returned op r], t) := by
    dsimp only [op_asked, Reply.value]
    cases op with
    | allocateBuckets => exact hf.elim
    | addLease => exact hf.elim
    | writev => exact hf.elim
    | _ =>
      dsimp only
      rw [h2]
  have hfree : (op.request []).with_passes = false := first_call_free (.free op hf)
  have hturn := turn_asked (v := v) (cfg := cfg) (asked := asked) (paying := paying) (log := log) (before := server)
    (server := server) hfree m h1 hasked
  dsimp only [still_asked, still_paying] at hturn
  rw [List.append_nil, List.append_nil] at hturn
  unfold converse
  rw [hstart, List.foldl_cons, List.foldl_nil, hturn]
  refine ⟨?_, rfl⟩
  dsimp only
  rw [List.append_assoc]
  rfl

/-- **C159**: an operation that costs nothing is answered: it returns what the server has, and neither the tokens of
the client nor the server are touched. -/
theorem C159_answered (sign : Signer) (cfg : ServerConfig) (v : Int) (op : StorageOp) (rref : Except PyErr RRef)
    (o : Order) (client : StorageSession) (server : Server) (hb : ProperShares server.buckets) (m : Moment)
    (hf : Free op) (hright : RightServer rref) (hfit : Fits (op.request []))
    (ha : Answerable (server.run cfg m.others) op) :
    ∃ reply r, (converse sign cfg v op rref o client server [m]).client =
        { client with log := client.log ++ [.sent op (op.request []), .got op reply m.client_now, .returned op r] } ∧
      (converse sign cfg v op rref o client server [m]).server = server.run cfg m.others ∧
      Happened (server.run cfg m.others) (server.run cfg m.others) m.server_now op r := by
  have hwf : BucketsWF (server.run cfg m.others) := run_wf cfg m.others _ hb
  obtain ⟨w, r, h1, h2⟩ := answerable_result (cfg := cfg) (m := m) hf ha hwf
  obtain ⟨h3, h4⟩ := free_conversation (sign := sign) (v := v) (o := o) (client := client) hf hright hfit h1 h2
  exact ⟨.result w, r, h3, h4, happened_free hwf hf h1 h2 _⟩

theorem written_share {cfg : ServerConfig} {a : WritevArgs} {s : Server} {read : Dict Nat (List Bytes)}
    (hb : Dict.WF (s.buckets a.storage_index)) (htw : Dict.WF a.tw_vectors)
    (hok : (remote_slot_writev cfg a s).2 = .ok (true, read)) {n : Nat} {t : TW} (ht : a.tw_vectors.lookup n = some t) :
    ∃ share, StoredShare (remote_slot_writev cfg a s).1 a.storage_index n share ∧ share.is_mutable = true ∧
      share.write_enabler = a.write_enabler ∧
      ∀ i, share.data[i]? = byteAfter (dataOf (s.buckets a.storage_index) n) t.datav i := by
  obtain ⟨bucket, ho, hbk⟩ := writev_ok cfg a s hok
  have h1 := original_slot_writev_ok ho
  rw [if_pos rfl] at h1
  have hl := lookup_write_vectors a.write_enabler a.tw_vectors htw (s.buckets a.storage_index) n
  rw [← h1, ht] at hl
  dsimp only at hl
  have hold :
      (((s.buckets a.storage_index).lookup n).getD ⟨true, a.write_enabler, [], []⟩).is_mutable = true ∧
      (((s.buckets a.storage_index).lookup n).getD ⟨true, a.write_enabler, [], []⟩).write_enabler = a.write_enabler := by
    cases hs : (s.buckets a.storage_index).lookup n with
    | none => exact ⟨rfl, rfl⟩
    | some old =>
      have hmem := lookup_mem_share hs
      unfold original_slot_writev at ho
      split at ho
      · cases ho
      · rename_i hmut
        split at ho
        · cases ho
        · rename_i hwe
          simp only [List.any_eq_true, not_exists, not_and, Bool.not_eq_true', Bool.not_eq_false] at hmut
          simp only [List.any_eq_true, not_exists, not_and, bne_iff_ne, ne_eq, Decidable.not_not] at hwe
          exact ⟨hmut _ hmem, hwe _ hmem⟩
  obtain ⟨ls, hls⟩ := (loop_only_leases a.space ⟨a.renew_secret, a.now + LEASE_PERIOD⟩
    (wants_lease a.tw_vectors a.now) bucket n).2 _ hl
  have hst : StoredShare (remote_slot_writev cfg a s).1 a.storage_index n
      ⟨(((s.buckets a.storage_index).lookup n).getD ⟨true, a.write_enabler, [], []⟩).is_mutable,
        (((s.buckets a.storage_index).lookup n).getD ⟨true, a.write_enabler, [], []⟩).write_enabler,
        t.datav.foldl original_write (((s.buckets a.storage_index).lookup n).getD ⟨true, a.write_enabler, [], []⟩).data,
        ls⟩ := by
    unfold StoredShare
    rw [hbk]
    unfold set_bucket
    rw [if_pos rfl]
    exact hls
  refine ⟨_, hst, hold.1, hold.2, ?_⟩
  intro i
  have := (C125_written cfg a s hb htw read hok).2.1 n t ht i
  unfold dataOf at this
  unfold StoredShare at hst
  rw [hst] at this
  exact this

/-- **C160**: what a client wrote to a share, every client reads from it, until somebody with the write enabler
writes to it again. -/
theorem C160_written_is_read (sign : Signer) (cfg : ServerConfig) (v : Int) (si : SI) (secrets : Bytes × Bytes × Bytes)
    (tw : TWVectors) (rv : List (Nat × Nat)) (rref : Except PyErr RRef) (o : Order) (client : StorageSession)
    (server : Server) (hb : ProperShares server.buckets) (htw : Dict.WF tw) (ms : List Moment) (d : Dict Int (List Bytes))
    (h : (converse sign cfg v (.writev si secrets tw rv) rref o client server ms).client.log.getLast? =
      some (.returned (.writev si secrets tw rv) (.written true d)))
    (hw : ∀ w ∈ (converse sign cfg v (.writev si secrets tw rv) rref o client server ms).server.writers, w.si ≠ si)
    (n : Nat) (t : TW) (ht : tw.lookup n = some t)
    (sign' : Signer) (v' : Int) (rv' : List (Nat × Nat)) (rref' : Except PyErr RRef) (o' : Order)
    (reader : StorageSession) (hright : RightServer rref') (hfit : Fits (.readv si [n] rv')) (m : Moment)
    (hm : ∀ op ∈ m.others, ProperOp op ∧ ¬ UploadAt si op ∧ ¬ HolderWrite si secrets.1 op) :
    ∃ new : Bytes,
      (∀ i, new[i]? = byteAfter (dataOf
        ((converse sign cfg v (.writev si secrets tw rv) rref o client server ms).before.buckets si) n) t.datav i) ∧
      (converse sign' cfg v' (.readv si [n] rv') rref' o' reader
        (converse sign cfg v (.writev si secrets tw rv) rref o client server ms).server [m]).client.log.getLast? =
          some (.returned (.readv si [n] rv') (.read (.dict [(.int n, .list ((selected new rv').map .bytes))]))) ∧
      (converse sign' cfg v' (.readv si [n] rv') rref' o' reader
        (converse sign cfg v (.writev si secrets tw rv) rref o client server ms).server [m]).client.store =
          reader.store := by
  obtain ⟨-, m0, -, ps, w, hrep, hres⟩ := converse_returned h
  obtain ⟨hwf, hwf'⟩ := converse_wf (sign := sign) (cfg := cfg) (v := v) (op := .writev si secrets tw rv) (rref := rref)
    (o := o) (client := client) (s := server) hb ms
  generalize (converse sign cfg v (.writev si secrets tw rv) rref o client server ms).before = before at *
  generalize (converse sign cfg v (.writev si secrets tw rv) rref o client server ms).server = after at *
  have hpaid := hres.resolve_left (fun h => h.1.elim)
  obtain ⟨-, k, hres⟩ := hpaid
  have hok : ∃ read, remote_slot_writev cfg ⟨ps, si, secrets.1, secrets.2.1, tw, rv, m0.server_now, m0.room⟩ before =
      (after, .ok (true, read)) := by
    dsimp only [StorageOp.request, server_reply] at hrep
    cases hg : remote_slot_writev cfg ⟨ps, si, secrets.1, secrets.2.1, tw, rv, m0.server_now, m0.room⟩ before with
    | mk s1 res =>
      rw [hg] at hrep
      cases res with
      | error e =>
        dsimp only at hrep
        unfold error_reply at hrep
        split at hrep <;> cases hrep
      | ok gr =>
        obtain ⟨good, read⟩ := gr
        cases hrep
        dsimp only [paid_result] at hres
        split at hres
        · cases hres
        · rename_i ok data hc
          cases hres
          unfold client_writev_answer at hc
          split at hc
          · dsimp only at hc
            split at hc
            · cases hc
              exact ⟨read, rfl⟩
            · cases hc
          · cases hc
  obtain ⟨read, hok⟩ := hok
  obtain ⟨share, h1, h2, h3, h4⟩ := written_share (hwf si) htw (by rw [hok]) ht
  rw [hok] at h1
  obtain ⟨ls, h5⟩ := mutable_run cfg m.others si n after share hw h1 (by rw [h3]; exact hm)
  have hwf2 : BucketsWF (after.run cfg m.others) := run_wf cfg m.others _ hwf'
  refine ⟨share.data, h4, ?_⟩
  have hread := slot_readv_reads (after.run cfg m.others) hwf2 si n _ h5 h2 rv'
  have ha : Answerable (after.run cfg m.others) (.readv si [n] rv') := by
    intro kv hkv hn
    have hn : kv.1 = n := by
      rcases hn with hn | hn
      · cases hn
      · exact List.mem_singleton.mp hn
    have := mem_lookup (hwf2 si) hkv
    rw [hn, h5] at this
    have := Option.some.inj this
    exact ⟨by rw [hn]; exact hfit.2.1 n (List.mem_singleton.mpr rfl), by rw [← this]; exact h2⟩
  obtain ⟨w', r, g1, g2⟩ := answerable_result (cfg := cfg) (m := m) (by exact trivial) ha hwf2
  obtain ⟨h6, -⟩ := free_conversation (op := .readv si [n] rv') (sign := sign') (v := v') (o := o') (client := reader) (by exact trivial) hright
    hfit g1 g2
  rw [h6]
  refine ⟨?_, rfl⟩
  dsimp only [StorageOp.request, server_reply] at g1
  rw [hread] at g1
  cases g1
  dsimp only [free_result] at g2
  unfold client_slot_readv at g2
  split at g2
  · cases g2
    dsimp only
    rw [show ∀ (l : List Out) (a b c : Out), l ++ [a, b, c] = (l ++ [a, b]) ++ [c] from fun l a b c => by simp,
      List.getLast?_concat]
    rfl
  · cases g2

theorem exShop_proper (op : StorageOp) (now : Int) : ProperShares (exShop op now).server.buckets := by
  intro si
  show Dict.WF (if si = [9] then exShelf else [])
  split
  · unfold Dict.WF; decide
  · exact List.nodup_nil

/-- The client that writes three bytes over is told that the tests held and what was there before. -/
theorem exEdit_written : (exShop exEdit 99).result.client.log.getLast? =
    some (.returned exEdit (.written true [(0, [[7, 7, 7]])])) := by
  have h := C156_carried_out_partial _ (exEdit_canPay 99) (fun _ => by
    intro kv hkv
    rw [show kv = (0, ⟨true, List.replicate 32 1, List.replicate 15 7, [⟨[5], 100⟩]⟩) from List.mem_singleton.mp hkv]
    exact id)
  obtain ⟨⟨r, h1⟩, -⟩ := h
  let told : Out → List (Int × List Bytes)
    | .returned _ (.written true d) => d
    | _ => []
  have h2 : (exShop exEdit 99).result.client.log.getLast?.elim [] told = [(0, [[7, 7, 7]])] := by
    decide +kernel
  rw [h1] at h2
  cases r with
  | written ok d =>
    cases ok with
    | true => rw [h1, show d = [(0, [[7, 7, 7]])] from h2]; rfl
    | false => exact nomatch h2
  | _ => exact nomatch h2

/-- C158 for this write. -/
example : ∃ now, Happened (exShop exEdit 99).result.before (exShop exEdit 99).result.server now exEdit
    (.written true [(0, [[7, 7, 7]])]) := by
  obtain ⟨m, -, h⟩ := C158_told _ _ _ _ _ _ _ _ (exShop_proper exEdit 99) (by show Dict.WF _; unfold Dict.WF; decide) _ _
    exEdit_written
  exact ⟨_, h⟩

/-- C159: a client without a token asks how large the share is and when its lease ends. -/
example : ∃ reply e, (converse exSign88 exCfg 10 (.statShares [[9]]) exRight .natural {}
    (Server.init fun si => if si = [9] then exShelf else []) [⟨[], 5, fun _ => true, 5, .natural⟩]).client.log =
      [.sent (.statShares [[9]]) (.statShares [[9]]), .got (.statShares [[9]]) reply 5,
        .returned (.statShares [[9]]) (.stats e)] := by
  obtain ⟨reply, r, h, -, h2⟩ := C159_answered exSign88 exCfg 10 (.statShares [[9]]) exRight .natural {}
    (Server.init fun si => if si = [9] then exShelf else []) (exShop_proper exEdit 99)
    ⟨[], 5, fun _ => true, 5, .natural⟩ trivial rfl (by
      intro si hsi
      rw [List.mem_singleton.mp hsi]
      decide) (by
      intro si hsi
      rw [List.mem_singleton.mp hsi]
      refine ⟨by show Dict.WF exShelf; unfold Dict.WF; decide, ?_⟩
      intro kv hkv
      rw [List.mem_singleton.mp (show kv ∈ exShelf from hkv)]
      decide)
  rw [h]
  cases r with
  | stats e => exact ⟨reply, e, rfl⟩
  | _ => exact h2.elim

/-- C160: a client without a token reads the five first bytes after the write, although somebody else has tried to
write with another enabler in between. -/
example : ∃ new : Bytes, (converse exSign88 exCfg 10 (.readv [9] [0] [(0, 5)]) exRight .natural {}
      (exShop exEdit 99).result.server
      [⟨[.writev ⟨[], [9], List.replicate 32 2, List.replicate 32 5, [(0, ⟨[], [(0, [8])], none⟩)], [], 99, fun _ => true⟩],
        99, fun _ => true, 99, .natural⟩]).client.log.getLast? =
      some (.returned (.readv [9] [0] [(0, 5)]) (.read (.dict [(.int 0, .list [.bytes (new.take 5)])]))) ∧
    ∀ i, new[i]? = byteAfter (dataOf ((exShop exEdit 99).result.before.buckets [9]) 0) [(0, [1, 2, 3])] i := by
  obtain ⟨new, h1, h2, -⟩ := C160_written_is_read exSign88 exCfg 10 [9] _ _ _ exRight .natural (exShop exEdit 99).client
    (exShop exEdit 99).server (exShop_proper exEdit 99) (by unfold Dict.WF; decide) _ _ exEdit_written
    (fun w hw => absurd hw (by
      have : (exShop exEdit 99).result.server.writers.isEmpty = true := by decide +kernel
      have h0 := List.isEmpty_iff.mp this
      change (converse ..).server.writers = [] at h0
      exact fun hw => List.not_mem_nil (h0 ▸ hw))) 0 _ rfl exSign88 10 [(0, 5)] exRight .natural {} rfl
    ⟨by decide, by decide, by intro r hr; rw [List.mem_singleton.mp hr]; decide⟩
    ⟨[.writev ⟨[], [9], List.replicate 32 2, List.replicate 32 5, [(0, ⟨[], [(0, [8])], none⟩)], [], 99, fun _ => true⟩],
      99, fun _ => true, 99, .natural⟩ (by
      intro op hop
      rw [List.mem_singleton.mp hop]
      refine ⟨by show Dict.WF _; unfold Dict.WF; decide, ?_, ?_⟩
      · rintro ⟨a, h, -⟩
        cases h
      · rintro ⟨a, h, -, he⟩
        cases h
        exact absurd he (by decide))
  exact ⟨new, h2, h1⟩

end ZKAP
