import Verif.Lemmas.Keeping
import Verif.Props.Upkeep
import Verif.Props.WholeNode
import Verif.Props.ServerReads

/-! C177: what a node keeps up can be read. -/
namespace ZKAP
open Spec

/-- C177: data that can be read now, and is not being uploaded, can be read for ever after, whatever is asked of the
server: also after writes to a slot with the same index. -/
theorem C177_stays_readable (cfg : ServerConfig) (s : Server) (si : SI) (n : Nat) (data : Bytes) (h : CanBeRead s si n data)
    (hu : ¬ BeingUploaded s si n) (ops : List ServerOp) : CanBeRead (s.run cfg ops) si n data :=
  (at_rest_run cfg ops (at_rest_of_read h hu)).canBeRead

/-- What was uploaded to an index without slots is at rest when the upload is over. -/
theorem at_rest_upload (cfg : ServerConfig) (buckets : SI → Bucket) (hbk : ProperShares buckets) (before : List ServerOp)
    (hb : ∀ op ∈ before, ProperOp op) (w : Writer) (hw : w ∈ ((Server.init buckets).run cfg before).writers)
    (h0 : ∀ n share, StoredShare ((Server.init buckets).run cfg before) w.si n share → share.is_mutable = false)
    (data : Bytes) (hd : data.length ≤ w.allocated_size) :
    AtRest (((Server.init buckets).run cfg before).step cfg (.close w.bw data)) w.si w.sharenum data := by
  have hp := places_step cfg _ (places_run cfg before _ (places_init buckets) hb) (.close w.bw data) trivial
  obtain ⟨share, hs, hm, hdata⟩ := C141_uploaded cfg buckets before [] hb (fun _ h => nomatch h) w hw data hd
  have hwf := step_wf cfg _ (run_wf cfg before _ (show BucketsWF (Server.init buckets) from hbk)) (.close w.bw data)
  have honly := immutable_only_run cfg [.close w.bw data] w.si _
    (by intro op hop; rw [List.mem_singleton.mp hop]; exact ⟨trivial, fun ⟨_, e, _⟩ => nomatch e⟩) h0
  refine ⟨⟨share, hs, hdata⟩, fun kv hkv => honly kv.1 kv.2 (mem_lookup (hwf w.si) hkv), ?_⟩
  rintro ⟨v, hv, e1, e2⟩
  have := hp.free v hv share (by rw [e1, e2]; exact hs)
  rw [hm] at this
  cases this

/-- C177: data uploaded to an index where there is no slot when the upload is completed can be read from then on,
whatever was asked of the server before and is asked after it. -/
theorem C177_uploaded (cfg : ServerConfig) (buckets : SI → Bucket) (hbk : ProperShares buckets) (before after : List ServerOp)
    (hb : ∀ op ∈ before, ProperOp op) (w : Writer) (hw : w ∈ ((Server.init buckets).run cfg before).writers)
    (h0 : ∀ n share, StoredShare ((Server.init buckets).run cfg before) w.si n share → share.is_mutable = false)
    (data : Bytes) (hd : data.length ≤ w.allocated_size) :
    CanBeRead (((Server.init buckets).run cfg before).run cfg (.close w.bw data :: after)) w.si w.sharenum data :=
  (at_rest_run cfg after (at_rest_upload cfg buckets hbk before hb w hw h0 data hd)).canBeRead

/-- C177: data that can be read when the first maintenance run comes, at an index that it finds, can be read and is
leased from then on, at every time until the next visit. -/
theorem C177_kept (runs : List MaintScene) (h : Upkeep CanTend runs) (first : MaintScene) (hf : runs.head? = some first)
    (i : Nat) (stop : MaintStop) (hi : first.stops[i]? = some stop) (si : SI) (hsi : si ∈ first.indexes) (n : Nat)
    (data : Bytes) (hr : CanBeRead stop.server si n data) (hu : ¬ BeingUploaded stop.server si n) (k : Nat) :
    KeptFrom runs i si n data k :=
  kept_from C166_well_tended h hf hi hsi (at_rest_of_read hr hu) k

/-- C142, all but the case in which it fails: a mutable share that is not just being replaced by an upload to its very
place keeps its data and its write enabler, and reading it gives its data, whatever is asked of the server by those
who do not know the write enabler, also uploads to the same index. -/
theorem C142_quiet_partial (cfg : ServerConfig) (s : Server) (hwf : ProperShares s.buckets) (si : SI) (n : Nat) (share : Share)
    (h : StoredShare s si n share) (hm : share.is_mutable = true) (hu : ¬ BeingUploaded s si n) (ops : List ServerOp)
    (ho : ∀ op ∈ ops, ProperOp op ∧ ¬ HolderWrite si share.write_enabler op) :
    (∃ share', StoredShare (s.run cfg ops) si n share' ∧ share'.data = share.data ∧
      share'.write_enabler = share.write_enabler ∧ share'.is_mutable = true) ∧
    remote_slot_readv (s.run cfg ops) si [n] [(0, share.data.length)] = .ok [(n, [share.data])] := by
  obtain ⟨ls, h'⟩ := slot_at_rest cfg ops si n s share h hu ho
  refine ⟨⟨_, h', rfl, rfl, hm⟩, ?_⟩
  rw [slot_readv_reads _ (run_wf cfg _ _ (show BucketsWF s from hwf)) si n _ h' hm]
  simp

/-- A maintenance run of a whole node, started at some moment of its life, when it has enough tokens. -/
def WholeRun (L : Ristretto) (key : L.Scalar) (cfg : RedeemCfg) (c : MaintScene) : Prop :=
  ∃ events, RealLife L cfg c.node.pass_value {} events ∧
    c.client = (WholeNode.run cfg (ristretto_signer L) c.node.pass_value {} events).storage ∧
    c.node.sign = ristretto_signer L ∧ EnoughToTend L key c

/-- C177 for a node that pays with what it got for its vouchers, and data that was uploaded before its first run. -/
theorem C177_uploaded_kept (L : Ristretto) (hL : Lawful L) (hS : Sound L) (key : L.Scalar) (cfg : RedeemCfg)
    (keys : OnlyKey L key cfg) (runs : List MaintScene) (h : Upkeep (WholeRun L key cfg) runs) (first : MaintScene)
    (hf : runs.head? = some first) (i : Nat) (stop : MaintStop) (hi : first.stops[i]? = some stop)
    (scfg : ServerConfig) (buckets : SI → Bucket) (hbk : ProperShares buckets) (before after : List ServerOp)
    (hb : ∀ op ∈ before, ProperOp op) (w : Writer) (hw : w ∈ ((Server.init buckets).run scfg before).writers)
    (h0 : ∀ n share, StoredShare ((Server.init buckets).run scfg before) w.si n share → share.is_mutable = false)
    (data : Bytes) (hd : data.length ≤ w.allocated_size)
    (hstop : stop.server = ((Server.init buckets).run scfg before).run scfg (.close w.bw data :: after))
    (hsi : w.si ∈ first.indexes) (k : Nat) : KeptFrom runs i w.si w.sharenum data k := by
  refine kept_from (fun c ⟨events, h1, h2, h3, h4⟩ => C171_maintenance L hL hS key cfg keys c events h1 h2 h3 h4) h hf hi hsi
    ?_ k
  rw [hstop]
  exact at_rest_run scfg after (at_rest_upload scfg buckets hbk before hb w hw h0 data hd)

/-! ### Examples -/

/-- After the upload of share 3 somebody writes to a slot with the same index, share 4 is uploaded and the connection is
lost. -/
def exAfterUpload : List ServerOp := [.writev exIntruder, .close 1 [9], .disconnect 77]

def exUploaded : Server :=
  ((Server.init fun _ => []).run exCfg [.allocate (exAllocate [65, 66, 67, 68])]).run exCfg (.close 0 [1, 2] :: exAfterUpload)

def exUploader : Writer := ⟨0, [8], 3, 15, ⟨[6], 100 + LEASE_PERIOD⟩, 77⟩

theorem exUploader_before : ∀ op ∈ [ServerOp.allocate (exAllocate [65, 66, 67, 68])], ProperOp op := by
  intro op hop
  rw [List.mem_singleton.mp hop]
  exact (by decide : [3, 4].Nodup)

theorem exUploader_free : ∀ n share, StoredShare ((Server.init fun _ => []).run exCfg [.allocate (exAllocate [65, 66, 67, 68])])
    exUploader.si n share → share.is_mutable = false := by
  intro n share h
  have hb : ((Server.init fun _ => []).run exCfg [.allocate (exAllocate [65, 66, 67, 68])]).buckets exUploader.si = [] := by
    decide +kernel
  unfold StoredShare at h
  rw [hb] at h
  cases h

/-- The data can be read, in spite of the slot. -/
example : CanBeRead exUploaded [8] 3 [1, 2] :=
  C177_uploaded exCfg (fun _ => []) (fun _ => by unfold Dict.WF; exact List.nodup_nil)
    [.allocate (exAllocate [65, 66, 67, 68])] exAfterUpload exUploader_before exUploader
    (by decide +kernel) exUploader_free [1, 2] (by decide)

/-- An upload of shares 3 and 4 to the index of a slot with share 0. -/
def exBeside : List ServerOp :=
  [.allocate { exAllocate [65, 66, 67, 68] with storage_index := [9] }, .close 0 [1, 2], .disconnect 77]

/-- Share 0 stays as it was, and share 3 is there too. -/
example : remote_slot_readv (exServer.run exCfg exBeside) [9] [0] [(0, 15)] = .ok [(0, [List.replicate 15 7])] ∧
    ((exServer.run exCfg exBeside).buckets [9]).keys = [0, 1, 3] := by
  refine ⟨(C142_quiet_partial exCfg exServer exServer_wf [9] 0 _ rfl rfl (fun ⟨_, h, _⟩ => nomatch h) exBeside ?_).2, by decide +kernel⟩
  intro op hop
  simp only [exBeside, List.mem_cons, List.not_mem_nil, or_false] at hop
  rcases hop with rfl | rfl | rfl
  · exact ⟨(by decide : [3, 4].Nodup), fun ⟨_, e, _⟩ => nomatch e⟩
  · exact ⟨trivial, fun ⟨_, e, _⟩ => nomatch e⟩
  · exact ⟨trivial, fun ⟨_, e, _⟩ => nomatch e⟩

/-- The two runs of `exVisits` keep the share, and it is read in between. -/
example (k : Nat) : KeptFrom [exVisit 47, exVisit 71] 0 [8] 4 (List.replicate 25 7) k :=
  C177_kept _ exVisits _ rfl 0 _ rfl [8] (by decide) 4 _ ⟨_, rfl, rfl⟩ (fun ⟨_, h, _⟩ => nomatch h) k

/-- A node comes to that server on the 31st day. -/
def toyVisit (history : List SessionEvent) : MaintScene :=
  ⟨{ exTender with sign := ristretto_signer toy }, history, [[7], [8]],
    [⟨server_with_key toy 10 (3 : Fin 6), [3], 732 * 60 * 60 * 1000000, exCall (732 * 60 * 60), fun _ => exCall (732 * 60 * 60),
      exUploaded⟩], "2022", "2023"⟩

/-- The leases of the two shares have to be renewed then. -/
theorem toyVisit_expiring (history : List SessionEvent) :
    (toyVisit history).stops.map (toyVisit history).expiring = [[[8]]] := by
  show (toyVisit []).stops.map (toyVisit []).expiring = [[[8]]]
  decide +kernel

theorem toyVisit_whole (history : List SessionEvent)
    (h : (toyNode toyLife).storage = StorageSession.run (ristretto_signer toy) 10 {} history) :
    WholeRun toy (3 : Fin 6) toyCfg (toyVisit history) := by
  have all : ∀ {P : SI → Prop}, P [7] ∧ P [8] → ∀ si ∈ (toyVisit history).indexes, P si := by
    intro P h si hsi
    simp only [toyVisit, List.mem_cons, List.not_mem_nil, or_false] at hsi
    rcases hsi with rfl | rfl
    · exact h.1
    · exact h.2
  refine ⟨toyLife, toyLife_real, h.symm, rfl, by show (0 : Int) < 10; decide, by show [[7], [8]].Nodup; decide,
    by show (0 : Int) ≤ 24 * 60 * 60 * 1000000 ∧ (24 * 60 * 60 * 1000000 : Int) ≤ 31 * 24 * 60 * 60 * 1000000; decide, ?_, ?_⟩
  · intro stop hs
    simp only [toyVisit, List.mem_cons, List.not_mem_nil, or_false] at hs
    subst hs
    have h7 : exUploaded.buckets [7] = [] := by decide +kernel
    have h8 : exUploaded.buckets [8] = [(3, ⟨false, [], [1, 2], [⟨[6], 100 + LEASE_PERIOD⟩]⟩),
      (4, ⟨false, [], [9], [⟨[6], 100 + LEASE_PERIOD⟩]⟩)] := by decide +kernel
    refine ⟨⟨rfl, ?_, all ?_, all ?_, ⟨rfl, fun _ _ => rfl⟩, ⟨by decide, fun _ _ => Nat.le_refl 2⟩,
        ⟨exCall_moments fun _ _ _ => rfl, fun _ _ => exCall_moments fun _ _ _ => rfl⟩,
        fun _ _ => exCall_moments fun _ => rfl, ⟨by decide, fun _ _ => exCall_moments (by decide)⟩,
        ⟨?_, all ⟨⟨?_, trivial⟩, ⟨?_, trivial⟩⟩⟩, all ?_⟩, rfl⟩
    · exact run_wf _ _ _ (run_wf _ _ _ fun _ => by unfold Dict.WF; exact List.nodup_nil)
    · dsimp only
      rw [h7, h8]
      constructor <;> exact ⟨by unfold Dict.WF; decide, by decide⟩
    · dsimp only
      rw [h7, h8]
      decide
    · exact all (by decide)
    · exact ⟨⟨by decide, fun _ h => (nomatch h)⟩, by decide, rfl, rfl⟩
    · exact ⟨⟨by decide, fun _ h => (nomatch h)⟩, by decide, rfl, rfl⟩
    · show (toyVisit []).price _ [7] ≤ 2 ^ 20 ∧ (toyVisit []).price _ [8] ≤ 2 ^ 20
      decide +kernel
  · refine ⟨toyBought, by decide +kernel, ?_, ?_⟩
    · intro x hx
      rw [← toyLife_available, h] at hx
      exact (mem_select_available _ _).mp hx
    · show (List.map (toyVisit []).cost (toyVisit []).stops).sum ≤ _
      decide +kernel

/-- The node renews them with what it got for its voucher, and the data is read and leased for another day. -/
example : ∃ history, ∀ k, KeptFrom [toyVisit history] 0 [8] 3 [1, 2] k := by
  obtain ⟨history, h, -, -⟩ := C171_history toy (3 : Fin 6) toyCfg toyCfg_key 10 toyLife toyLife_real
  exact ⟨history, C177_uploaded_kept toy toy_lawful toy_sound (3 : Fin 6) toyCfg toyCfg_key [toyVisit history]
    (toyVisit_whole history h) _ rfl 0 _ rfl exCfg (fun _ => []) (fun _ => by unfold Dict.WF; exact List.nodup_nil)
    [.allocate (exAllocate [65, 66, 67, 68])] exAfterUpload exUploader_before exUploader
    (by decide +kernel) exUploader_free [1, 2] (by decide) rfl (by show [8] ∈ [[7], [8]]; decide)⟩

end ZKAP
