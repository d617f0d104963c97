import Verif.Lemmas.Uploads

/-! Property C163: what a client uploaded, every client reads, against `Spec/Uploads.lean`. -/
namespace ZKAP
open Spec

theorem readers_lookup {n : Nat} {share : Share} : ∀ (bucket : Bucket) (k : Nat), bucket.lookup n = some share →
    ∃ i, List.lookup (n : Int) ((((bucket.map fun kv => (kv.1, kv.2.data)).zipIdx k).map fun nb => (nb.1.1, nb.2)).map
        fun kv => ((kv.1 : Int), Wire.ref kv.2)) = some (.ref (k + i)) ∧
      (bucket.map fun kv => (kv.1, kv.2.data))[i]? = some (n, share.data)
  | [], _, h => nomatch h
  | (a, sh) :: bucket, k, h => by
    rw [List.lookup_cons] at h
    simp only [List.map_cons, List.zipIdx_cons, List.lookup_cons]
    by_cases hn : n = a
    · subst hn
      simp at h
      subst h
      exact ⟨0, by simp, by simp⟩
    · have h1 : (n == a) = false := by simpa using hn
      have h2 : ((n : Int) == (a : Int)) = false := by simpa using fun h : (n : Int) = a => hn (Int.ofNat.inj h)
      rw [h1] at h
      obtain ⟨i, e1, e2⟩ := readers_lookup bucket (k + 1) h
      refine ⟨i + 1, ?_, by simpa using e2⟩
      rw [h2]
      dsimp only
      rw [e1]
      congr 2
      omega

/-- **C163**: a client asks to upload shares and is given a writer for one of them; data is written and the writer is
closed.  From then on every client that asks is given a reader for the share, through which exactly the data is
read, and its tokens stay as they are. -/
theorem C163_uploaded_is_read (u : Upload) (h : GoodUpload u)
    (sign : Signer) (v : Int) (rref : Except PyErr RRef) (o : Order) (reader : StorageSession)
    (hright : RightServer rref) (hfit : Fits (.getBuckets u.si)) (m : Moment) (hm : ∀ op ∈ m.others, NoSlot u.si op)
    (hnum : ∀ kv ∈ (u.closed.run u.cfg m.others).buckets u.si, kv.1 < 2 ^ 31 ∧ kv.2.data.length < 2 ^ 64)
    (hlen : ((u.closed.run u.cfg m.others).buckets u.si).length ≤ 256) :
    ∃ reply readers, (converse sign u.cfg v (.getBuckets u.si) rref o reader u.closed [m]).client =
        { reader with log := reader.log ++ [.sent (.getBuckets u.si) (.getBuckets u.si), .got (.getBuckets u.si) reply m.client_now, .returned (.getBuckets u.si) (.buckets readers)] } ∧
      ReaderOf (u.closed.run u.cfg m.others) u.si readers u.sharenum u.data := by
  obtain ⟨cfg, buckets, earlier, usign, uv, si, renew, cancel, nums, size, canary, urref, uo, client, ms, n, writer,
    meanwhile, data⟩ := u
  obtain ⟨hbk, h0, he, hnums, hms, ⟨got, writers, hret, hw⟩, hmean, hd⟩ := h
  dsimp only [Upload.op, Upload.closed] at *
  -- the server after the upload was asked for
  have hwf0 : BucketsWF ((Server.init buckets).run cfg earlier) :=
    run_wf cfg earlier _ (show BucketsWF (Server.init buckets) from hbk)
  obtain ⟨m0, hm0, hhap⟩ := C158_told usign cfg uv (.allocateBuckets si renew cancel nums size canary) urref uo client
    ((Server.init buckets).run cfg earlier) hwf0 trivial ms _ hret
  obtain ⟨ops, hops, hrun⟩ := converse_run (sign := usign) (cfg := cfg) (v := uv)
    (op := .allocateBuckets si renew cancel nums size canary) urref uo client ((Server.init buckets).run cfg earlier) ms
  obtain ⟨-, gs, opened, -, -, hwr, hopen⟩ := hhap
  dsimp only [Upload.asked, Upload.op] at *
  generalize (converse usign cfg uv (.allocateBuckets si renew cancel nums size canary) urref uo client
    ((Server.init buckets).run cfg earlier) ms).server = s1 at *
  have hops' : ∀ op ∈ ops, NoSlot si op := by
    intro op hop
    obtain ⟨m1, hm1, hx | ⟨ps, hx⟩⟩ := hops op hop
    · exact hms m1 hm1 op hx
    · rw [List.mem_singleton.mp hx]
      exact ⟨hnums, fun ⟨_, e, _⟩ => nomatch e⟩
  -- the writer
  have hwm : (⟨writer, si, n, size, ⟨renew, m0.server_now + 31 * 24 * 60 * 60⟩, canary⟩ : Writer) ∈ s1.writers := by
    cases hwr
    obtain ⟨nb, hnb, e⟩ := List.mem_map.mp hw
    injection e with e1 e2
    injection e1 with e1
    injection e2 with e2
    have := (hopen nb hnb).2.2
    rwa [Int.ofNat.inj e1, e2] at this
  have htidy1 : Tidy s1 := by
    rw [hrun]
    exact tidy_run cfg ops _ (tidy_run cfg earlier _ (tidy_init buckets))
  have hw2 := writer_run cfg meanwhile s1 htidy1 hwm fun op hop => (hmean op hop).2
  -- all requests up to the closing, as one list
  have hall : (s1.run cfg meanwhile) = (Server.init buckets).run cfg (earlier ++ ops ++ meanwhile) := by
    rw [server_run_append, server_run_append, ← hrun]
  rw [hall] at hw2
  have hno : ∀ op ∈ earlier ++ ops ++ meanwhile, ProperOp op ∧ ¬ SlotWriteAt si op := by
    intro op hop
    rcases List.mem_append.mp hop with hop | hop
    · rcases List.mem_append.mp hop with hop | hop
      · exact he op hop
      · exact hops' op hop
    · exact (hmean op hop).1
  obtain ⟨share, hst, himm, hdata⟩ := C141_uploaded cfg buckets (earlier ++ ops ++ meanwhile) m.others
    (fun op hop => (hno op hop).1) (fun op hop => (hm op hop).1) _ hw2 data hd
  rw [hall] at hnum hlen ⊢
  have hs : (((Server.init buckets).run cfg (earlier ++ ops ++ meanwhile)).step cfg (.close writer data)).run cfg m.others =
      ((Server.init buckets).run cfg (earlier ++ ops ++ meanwhile)).run cfg (.close writer data :: m.others) := rfl
  have hwf : BucketsWF (((Server.init buckets).run cfg (earlier ++ ops ++ meanwhile)).run cfg (.close writer data :: m.others)) :=
    run_wf cfg _ _ (run_wf cfg _ _ (show BucketsWF (Server.init buckets) from hbk))
  have honly := immutable_only_run cfg (.close writer data :: m.others) si _ (by
      intro op hop
      rcases List.mem_cons.mp hop with rfl | hop
      · exact ⟨trivial, fun ⟨_, e, _⟩ => (nomatch e)⟩
      · exact hm op hop)
    (immutable_only_run cfg (earlier ++ ops ++ meanwhile) si (Server.init buckets) hno h0)
  rw [← hs] at hwf honly hst
  have hi : ∀ kv ∈ ((((Server.init buckets).run cfg (earlier ++ ops ++ meanwhile)).step cfg (.close writer data)).run cfg
      m.others).buckets si, kv.2.is_mutable = false := fun kv hkv => honly kv.1 kv.2 (mem_lookup (hwf si) hkv)
  obtain ⟨w, hg, h1, h2⟩ := readers_answer (cfg := cfg) (m := m) ⟨hwf si, hnum⟩ hlen hi
  obtain ⟨h3, -⟩ := free_conversation (sign := sign) (v := v) (o := o) (client := reader) (op := .getBuckets si) trivial
    hright hfit h1 h2
  obtain ⟨i, e1, e2⟩ := readers_lookup _ 0 hst
  refine ⟨.result w, _, h3, i, _, ?_, hg, ?_⟩
  · rw [Nat.zero_add] at e1
    exact e1
  · rw [e2, hdata]

theorem upload_returned {u : Upload} {op : StorageOp} {r : OpResult}
    (h : u.asked.client.log.getLast? = some (.returned op r)) : op = u.op := (converse_returned h).1

/-- Shares 3 and 4 are uploaded to an empty server.  Share 3 is completed first, then three bytes of share 4. -/
def exTwoShares : Upload :=
  ⟨exCfg, fun _ => [], [], exSign88, 10, [8], List.replicate 32 5, List.replicate 32 6, [3, 4], 12, 77, exRight, .natural,
    (exShop exPut 99).client, [⟨[], 99, fun _ => true, 99, .natural⟩], 4, 1, [.close 0 [1, 2]], [9, 8, 7]⟩

theorem exTwoShares_good : GoodUpload exTwoShares := by
  refine ⟨fun _ => by unfold Dict.WF; exact List.nodup_nil, fun _ _ h => (nomatch h), fun _ h => (nomatch h), by decide,
    ?_, ?_, ?_, by decide⟩
  · intro m hm op hop
    rw [List.mem_singleton.mp hm] at hop
    cases hop
  · let given : Out → Bool
      | .returned _ (.allocated _ (.dict items)) => items.any fun
        | (.int 4, .ref 1) => true
        | _ => false
      | _ => false
    have h1 : exTwoShares.asked.client.log.getLast?.elim false given = true := by decide +kernel
    cases hl : exTwoShares.asked.client.log.getLast? with
    | none => rw [hl] at h1; exact nomatch h1
    | some out =>
      rw [hl] at h1
      cases out with
      | returned op' r =>
        have hop := upload_returned hl
        cases r with
        | allocated got w =>
          cases w with
          | dict items =>
            have h1 : items.any _ = true := h1
            obtain ⟨kv, hkv, he⟩ := List.any_eq_true.mp h1
            refine ⟨got, items, by rw [hop], ?_⟩
            split at he
            · exact hkv
            · cases he
          | _ => exact nomatch h1
        | _ => exact nomatch h1
      | _ => exact nomatch h1
  · intro op hop
    rw [List.mem_singleton.mp hop]
    refine ⟨⟨trivial, fun ⟨_, e, _⟩ => nomatch e⟩, ?_⟩
    show GoesOn 1 77 (.close 0 [1, 2])
    refine ⟨fun data h => ?_, (fun h => nomatch h), (fun h => nomatch h)⟩
    injection h with h
    exact absurd h (by decide)

/-- Somebody else uploads the same shares, and the first connection is lost. -/
def exAfterwards : Moment :=
  ⟨[.allocate (exAllocate [70, 71, 72, 73]), .disconnect 77], 100, fun _ => true, 100, .natural⟩

theorem exTwoShares_bucket : (exTwoShares.closed.run exTwoShares.cfg exAfterwards.others).buckets exTwoShares.si =
    [(3, ⟨false, [], [1, 2], [⟨List.replicate 32 5, 99 + LEASE_PERIOD⟩]⟩),
      (4, ⟨false, [], [9, 8, 7], [⟨List.replicate 32 5, 99 + LEASE_PERIOD⟩]⟩)] := by
  decide +kernel

/-- A client without a token is given a reader for share 4 and reads the three bytes. -/
example : ∃ reply readers, (converse exSign88 exTwoShares.cfg 10 (.getBuckets exTwoShares.si) exRight .natural {}
      exTwoShares.closed [exAfterwards]).client = { ({} : StorageSession) with log := [] ++ [.sent (.getBuckets exTwoShares.si) (.getBuckets exTwoShares.si), .got (.getBuckets exTwoShares.si) reply exAfterwards.client_now, .returned (.getBuckets exTwoShares.si) (.buckets readers)] } ∧
      ReaderOf (exTwoShares.closed.run exTwoShares.cfg exAfterwards.others) exTwoShares.si readers 4 [9, 8, 7] := by
  refine C163_uploaded_is_read exTwoShares exTwoShares_good exSign88 10 exRight .natural {} rfl
    (by show [8].length ≤ 16; decide) exAfterwards ?_ ?_ ?_
  · intro op hop
    have hop : op ∈ [ServerOp.allocate (exAllocate [70, 71, 72, 73]), .disconnect 77] := hop
    simp only [List.mem_cons, List.not_mem_nil, or_false] at hop
    rcases hop with rfl | rfl
    · exact ⟨(by decide : [3, 4].Nodup), fun ⟨_, e, _⟩ => nomatch e⟩
    · exact ⟨trivial, fun ⟨_, e, _⟩ => nomatch e⟩
  · intro kv hkv
    rw [exTwoShares_bucket] at hkv
    simp only [List.mem_cons, List.not_mem_nil, or_false] at hkv
    rcases hkv with rfl | rfl
    · exact ⟨by decide, by decide⟩
    · exact ⟨by decide, by decide⟩
  · rw [exTwoShares_bucket]
    decide

end ZKAP
