import Verif.Lemmas.LeaseSecrets

/-!
C132: the leases on a share, and whose they are.
-/
namespace ZKAP
open Spec

/-- C132: whatever clients ask of a storage server, no share gets two leases with one secret. -/
theorem C132_one_lease_each (cfg : ServerConfig) (s : Server) (h : OneLeaseEach s) (ops : List ServerOp) :
    OneLeaseEach (s.run cfg ops) :=
  oneEach_run cfg ops h

/-- A server without shares is a place to start from. -/
example (cfg : ServerConfig) (ops : List ServerOp) : OneLeaseEach ((Server.init fun _ => []).run cfg ops) :=
  C132_one_lease_each cfg _ (by intro si kv hkv; simp [Server.init] at hkv) ops

/-- C132, full statement: from an empty server, a lease that a share has got is never lost or shortened. -/
def C132_statement : Prop :=
  ∀ (cfg : ServerConfig) (before after : List ServerOp) (si : SI) (n : Nat) (secret : Secret) (e : Int),
    LeaseUntil ((Server.init fun _ => []).run cfg before) si n secret e →
    ∃ e', e ≤ e' ∧ LeaseUntil ((Server.init fun _ => []).run cfg (before ++ after)) si n secret e'

/-- The upload of an immutable share of no bytes: it costs nothing. -/
def exEmptyUpload : AllocateArgs := ⟨[], [7], [1], [0], 0, 0, 100, fun _ => true⟩

/-- A write to a slot at the same storage index. -/
def exSlotWrite : WritevArgs := ⟨[], [7], [9], [2], [(0, ⟨[], [(0, [])], none⟩)], [], 200, fun _ => true⟩

def exLeaseConfig : ServerConfig := ⟨1000, fun _ _ => false⟩

/-- C132 is false of the code: an upload of an immutable share that was begun before there was a slot at its
storage index replaces the share of the slot, with its leases, when it is finished. -/
theorem C132_upload_replaces_fails : ¬ C132_statement := by
  intro h
  obtain ⟨e', _, share, h1, h2⟩ := h exLeaseConfig [.allocate exEmptyUpload, .writev exSlotWrite] [.close 0 []] [7] 0 [2]
    (200 + LEASE_PERIOD) ⟨⟨true, [9], [], [⟨[2], 200 + LEASE_PERIOD⟩]⟩, by decide +kernel, by decide⟩
  have h3 : (((Server.init fun _ => []).run exLeaseConfig
      ([.allocate exEmptyUpload, .writev exSlotWrite] ++ [.close 0 []])).buckets [7]).lookup 0 =
      some ⟨false, [], [], [⟨[1], 100 + LEASE_PERIOD⟩]⟩ := by decide +kernel
  rw [h3] at h1
  cases h1
  simp at h2

/-- C132, what holds: a lease on a share that is not being uploaded is never lost or shortened, whatever
happens at the server from then on. -/
theorem C132_never_shortened_partial (cfg : ServerConfig) (s : Server) (ops : List ServerOp) (si : SI) (n : Nat)
    (secret : Secret) (e : Int) (h : LeaseUntil s si n secret e) (hu : ¬ BeingUploaded s si n) :
    ∃ e', e ≤ e' ∧ LeaseUntil (s.run cfg ops) si n secret e' :=
  leaseUntil_run cfg ops h hu

/-- After the upload of a share is finished, it is not being uploaded. -/
example (ops : List ServerOp) :
    ∃ e', 100 + LEASE_PERIOD ≤ e' ∧ LeaseUntil
      (((Server.init fun _ => []).run exLeaseConfig [.allocate exEmptyUpload, .close 0 []]).run exLeaseConfig ops) [7] 0 [1] e' :=
  C132_never_shortened_partial _ _ ops _ _ _ _
    ⟨⟨false, [], [], [⟨[1], 100 + LEASE_PERIOD⟩]⟩, by decide +kernel, by decide⟩ (by
      have : ((Server.init fun _ => []).run exLeaseConfig [.allocate exEmptyUpload, .close 0 []]).writers = [] := by
        decide +kernel
      rintro ⟨w, hw, _⟩
      rw [this] at hw
      simp at hw)

/-- The server's answer to lease maintenance. -/
def maintained (h : LeaseHashes) (cfg : ServerConfig) (renewal_secret cancel_secret : Bytes) (si : SI)
    (lease_seed : Bytes) (passes : List Bytes) (now : Int) (space : Nat → Bool) (s : Server) :
    Server × Except SErr Unit :=
  renew_lease h renewal_secret cancel_secret si lease_seed
    fun si renew _ => remote_add_lease cfg ⟨passes, si, renew, now, space⟩ s

theorem maintained_ok {h : LeaseHashes} {cfg : ServerConfig} {rs cs : Bytes} {si : SI} {seed : Bytes}
    {passes : List Bytes} {now : Int} {space : Nat → Bool} {s : Server}
    (hok : (maintained h cfg rs cs si seed passes now space s).2 = .ok ()) :
    (original_add_lease space ⟨original_renewal_secret h rs si seed, now + LEASE_PERIOD⟩ (s.buckets si)).2 = true ∧
    (maintained h cfg rs cs si seed passes now space s).1.buckets = set_bucket s.buckets si
      (original_add_lease space ⟨original_renewal_secret h rs si seed, now + LEASE_PERIOD⟩ (s.buckets si)).1 := by
  unfold maintained renew_lease remote_add_lease at hok ⊢
  dsimp only at hok ⊢
  split at hok
  · cases hok
  · split at hok
    · cases hok
    · split at hok
      · rename_i hr
        rw [if_pos hr]
        exact ⟨hr, rfl⟩
      · cases hok

/-- C132: lease maintenance renews the lease with which the node stored the share: there is no second one.  If
the server grants the renewal, every share on which the node has a lease keeps the leases it has, in order, and
the node's lease lasts for the lease period from now on, or for longer if it did before. -/
theorem C132_maintenance_renews (h : LeaseHashes) (cfg : ServerConfig) (rs cs : Bytes) (si : SI) (seed : Bytes)
    (passes : List Bytes) (now : Int) (space : Nat → Bool) (s : Server) (wf : (s.buckets si).keys.Nodup)
    (one : OneLeaseEach s) (hok : (maintained h cfg rs cs si seed passes now space s).2 = .ok ()) (n : Nat)
    (share : Share) (hs : (s.buckets si).lookup n = some share) (e : Int)
    (hl : ⟨original_renewal_secret h rs si seed, e⟩ ∈ share.leases) :
    ∃ share', ((maintained h cfg rs cs si seed passes now space s).1.buckets si).lookup n = some share' ∧
      share'.leases = share.leases.map (fun l =>
        if l.renew_secret = original_renewal_secret h rs si seed then ⟨l.renew_secret, max e (now + LEASE_PERIOD)⟩
        else l) := by
  obtain ⟨h1, h2⟩ := maintained_ok hok
  obtain ⟨share', h3, _, _, h4⟩ := (add_leases_loop_lookup space
    ⟨original_renewal_secret h rs si seed, now + LEASE_PERIOD⟩ (fun _ _ => true) (s.buckets si) wf n).2 share hs
  refine ⟨share', by rw [h2]; simp only [set_bucket, if_true]; exact h3, ?_⟩
  have h5 := h4 rfl h1
  have hnd := one si _ (lookup_mem_share hs)
  dsimp only at hnd
  unfold original_add_or_renew_lease at h5
  have key : ∀ ls : List Lease, (ls.map (·.renew_secret)).Nodup →
      ⟨original_renewal_secret h rs si seed, e⟩ ∈ ls →
      original_renew (original_renewal_secret h rs si seed) (now + LEASE_PERIOD) ls = some (ls.map (fun l =>
        if l.renew_secret = original_renewal_secret h rs si seed then ⟨l.renew_secret, max e (now + LEASE_PERIOD)⟩
        else l)) := by
    intro ls
    induction ls with
    | nil => intro _ h; simp at h
    | cons l ls ih =>
      intro hnd hl
      simp only [List.map_cons, List.nodup_cons] at hnd
      unfold original_renew
      rcases List.mem_cons.mp hl with rfl | hl
      · have hrest : ls.map (fun l =>
            if l.renew_secret = original_renewal_secret h rs si seed then
              (⟨l.renew_secret, max e (now + LEASE_PERIOD)⟩ : Lease) else l) = ls := by
          have : ∀ l ∈ ls, (if l.renew_secret = original_renewal_secret h rs si seed then
              (⟨l.renew_secret, max e (now + LEASE_PERIOD)⟩ : Lease) else l) = l := by
            intro l hl
            rw [if_neg]
            intro e'
            exact hnd.1 (List.mem_map.mpr ⟨l, hl, e'⟩)
          rw [List.map_congr_left this, List.map_id']
        rw [if_pos rfl, List.map_cons, hrest, if_pos rfl]
      · have hne : l.renew_secret ≠ original_renewal_secret h rs si seed :=
          fun e' => hnd.1 (e' ▸ List.mem_map_of_mem (f := fun l : Lease => l.renew_secret) hl)
        rw [if_neg hne, ih hnd.2 hl, List.map_cons, if_neg hne]
        rfl
  rw [key _ hnd hl] at h5
  cases h5
  rfl

/-- C132: with hashes that do not collide, a renewal leaves the leases of other nodes, and at other storage
indexes, as they are.  This holds whether it is granted or not. -/
theorem C132_others_untouched (h : LeaseHashes) (free : CollisionFree h) (cfg : ServerConfig) (rs cs : Bytes)
    (si : SI) (seed : Bytes) (passes : List Bytes) (now : Int) (space : Nat → Bool) (s : Server)
    (rs' : Bytes) (si' : SI) (other : (rs', si') ≠ (rs, si)) (n : Nat) (e : Int) :
    LeaseUntil s si' n (original_renewal_secret h rs' si' seed) e →
    LeaseUntil (maintained h cfg rs cs si seed passes now space s).1 si' n (original_renewal_secret h rs' si' seed) e := by
  have hne : original_renewal_secret h rs' si' seed ≠ original_renewal_secret h rs si seed := by
    intro e'
    have := free.file (free.bucket e').1
    exact other (by rw [this.1, this.2])
  rintro ⟨share, h1, h2⟩
  have hb : ∃ b, (maintained h cfg rs cs si seed passes now space s).1.buckets = b ∧
      (b = s.buckets ∨ b = set_bucket s.buckets si
        (original_add_lease space ⟨original_renewal_secret h rs si seed, now + LEASE_PERIOD⟩ (s.buckets si)).1) := by
    refine ⟨_, rfl, ?_⟩
    unfold maintained renew_lease remote_add_lease
    dsimp only
    split
    · exact .inl rfl
    · split
      · exact .inl rfl
      · split <;> exact .inr rfl
  obtain ⟨b, hb1, hb2⟩ := hb
  have same : (s.buckets si').lookup n = some share →
      ∃ share', (b si').lookup n = some share' ∧ ⟨original_renewal_secret h rs' si' seed, e⟩ ∈ share'.leases := by
    intro h1
    rcases hb2 with rfl | rfl
    · exact ⟨share, h1, h2⟩
    · unfold set_bucket
      by_cases hsi : si' = si
      · rw [if_pos hsi]
        rw [hsi] at h1
        have := loop_kept (space := space) (lease := ⟨original_renewal_secret h rs si seed, now + LEASE_PERIOD⟩)
          (sel := fun _ _ => true) h1 h2 hne
        exact this
      · rw [if_neg hsi]
        exact ⟨share, h1, h2⟩
  obtain ⟨share', h3, h4⟩ := same h1
  exact ⟨share', by rw [hb1]; exact h3, h4⟩

/-- A pair of strings as one string. -/
def exPair (a b : Bytes) : Bytes := List.replicate a.length 1 ++ 0 :: (a ++ b)

theorem exPair_injective {a a' b b' : Bytes} (h : exPair a b = exPair a' b') : a = a' ∧ b = b' := by
  have key : ∀ (n n' : Nat) (x y : Bytes), List.replicate n (1 : UInt8) ++ 0 :: x = List.replicate n' 1 ++ 0 :: y →
      n = n' ∧ x = y := by
    intro n
    induction n with
    | zero =>
      intro n' x y h
      cases n' with
      | zero => exact ⟨rfl, by simpa using h⟩
      | succ n' => simp [List.replicate_succ] at h
    | succ n ih =>
      intro n' x y h
      cases n' with
      | zero => simp [List.replicate_succ] at h
      | succ n' =>
        simp only [List.replicate_succ, List.cons_append, List.cons.injEq, true_and] at h
        obtain ⟨h1, h2⟩ := ih n' x y h
        exact ⟨by omega, h2⟩
  obtain ⟨h1, h2⟩ := key _ _ _ _ h
  exact List.append_inj h2 h1

/-- Hashes that do not collide. -/
def exHashes : LeaseHashes := ⟨exPair, exPair, exPair, exPair⟩

theorem exHashes_free : CollisionFree exHashes := ⟨exPair_injective, exPair_injective⟩

/-- A share with leases of two nodes, both about to run out. -/
def exLeased : Server := Server.init fun si => if si = [7] then
  [(0, ⟨false, [], [], [⟨original_renewal_secret exHashes [1] [7] [5], 10⟩,
    ⟨original_renewal_secret exHashes [2] [7] [5], 20⟩]⟩)] else []

/-- The second node renews its lease. -/
example : ((maintained exHashes exLeaseConfig [2] [3] [7] [5] [] 15 (fun _ => true) exLeased).1.buckets [7]).lookup 0 =
    some ⟨false, [], [], [⟨original_renewal_secret exHashes [1] [7] [5], 10⟩,
      ⟨original_renewal_secret exHashes [2] [7] [5], 15 + LEASE_PERIOD⟩]⟩ ∧
    (maintained exHashes exLeaseConfig [2] [3] [7] [5] [] 15 (fun _ => true) exLeased).2 = .ok () := by
  decide +kernel

example : OneLeaseEach exLeased ∧ (exLeased.buckets [7]).keys.Nodup := by
  refine ⟨?_, by decide +kernel⟩
  intro si kv hkv
  unfold exLeased Server.init at hkv
  dsimp only at hkv
  split at hkv
  · simp only [List.mem_singleton] at hkv
    subst hkv
    decide +kernel
  · simp at hkv

end ZKAP
