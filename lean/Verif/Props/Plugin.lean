import Verif.Lemmas.Plugin
import Verif.Lemmas.Genuine
import Verif.Props.Ristretto
import Verif.Props.Spending
import Verif.Props.LeaseMaintenance

/-! C94–C102: the plugin as a whole. -/
namespace ZKAP
open Spec

/-! ### C94: which tokens are given up as invalid -/

theorem refused_of_validate (L : Ristretto) (v : Int) (k : L.Scalar) (m : Bytes) (sent : List Pass)
    {r : ValidationResult} (h : validate_passes (server_with_key L v k) m (sent.map Pass.pass_bytes) = .ok r) :
    RefusedBy L k m sent r.signature_check_failed := by
  obtain ⟨ps, hps⟩ := validate_loop_parses _ _ _ _ h
  obtain ⟨r', h1, _, h3⟩ := validate_passes_ok _ m _ ps hps
  rw [h] at h1
  cases h1
  exact ⟨ps, hps, h3⟩

theorem original_slot_writev_error {we : Secret} {b : Bucket} {tw : TWVectors} {rv : List (Nat × Nat)}
    {n : Nat} {required : Int} {failed : List Nat}
    (h : original_slot_writev we b tw rv = .error (.morePassesRequired n required failed)) : False := by
  unfold original_slot_writev at h
  split at h
  · exact nomatch h
  · split at h
    · exact nomatch h
    · dsimp only at h
      split at h
      · exact nomatch h
      · exact nomatch h

/-- C94: what the three methods of the storage server that take passes say when they ask for more. -/
theorem C94_server_refuses (L : Ristretto) (v : Int) (k : L.Scalar) (s : Server) (sent : List Pass)
    (n : Nat) (required : Int) (failed : List Nat) :
    (∀ a : AllocateArgs, a.passes = sent.map Pass.pass_bytes →
      (remote_allocate_buckets (server_with_key L v k) a s).2 = .error (.morePassesRequired n required failed) →
      RefusedBy L k (allocate_buckets_message a.storage_index) sent failed) ∧
    (∀ a : AddLeaseArgs, a.passes = sent.map Pass.pass_bytes →
      (remote_add_lease (server_with_key L v k) a s).2 = .error (.morePassesRequired n required failed) →
      RefusedBy L k (add_lease_message a.storage_index) sent failed) ∧
    (∀ a : WritevArgs, a.passes = sent.map Pass.pass_bytes →
      (remote_slot_writev (server_with_key L v k) a s).2 = .error (.morePassesRequired n required failed) →
      RefusedBy L k (slot_testv_and_readv_and_writev_message a.storage_index) sent failed) := by
  refine ⟨?_, ?_, ?_⟩
  · intro a ha h
    unfold remote_allocate_buckets at h
    rw [ha] at h
    cases hr : validate_passes (server_with_key L v k) (allocate_buckets_message a.storage_index)
        (sent.map Pass.pass_bytes) with
    | error e => rw [hr] at h; exact nomatch h
    | ok r =>
      rw [hr] at h
      have hf := refused_of_validate L v k _ _ hr
      simp only [check_pass_quantity_for_write, check_pass_quantity] at h
      split at h
      · rename_i e he
        split at he
        · cases he
          cases h
          exact hf
        · exact nomatch he
      · exact nomatch h
  · intro a ha h
    unfold remote_add_lease at h
    rw [ha] at h
    cases hr : validate_passes (server_with_key L v k) (add_lease_message a.storage_index)
        (sent.map Pass.pass_bytes) with
    | error e => rw [hr] at h; exact nomatch h
    | ok r =>
      rw [hr] at h
      have hf := refused_of_validate L v k _ _ hr
      simp only [check_pass_quantity_for_lease, check_pass_quantity] at h
      split at h
      · rename_i e he
        split at he
        · cases he
          cases h
          exact hf
        · exact nomatch he
      · split at h
        · exact nomatch h
        · exact nomatch h
  · intro a ha h
    unfold remote_slot_writev at h
    rw [ha] at h
    split at h
    · exact nomatch h
    · cases hr : validate_passes (server_with_key L v k) (slot_testv_and_readv_and_writev_message a.storage_index)
          (sent.map Pass.pass_bytes) with
      | error e => rw [hr] at h; exact nomatch h
      | ok r =>
        rw [hr] at h
        have hf := refused_of_validate L v k _ _ hr
        dsimp only at h
        split at h
        · cases h
          exact hf
        · split at h
          · rename_i e he
            dsimp only at h
            cases h
            exact (original_slot_writev_error he).elim
          · split at h
            · exact nomatch h
            · exact nomatch h

/-- C94 in full: if every token was made with one of the keys of an issuer, and every server that is
used holds one of them, then no token is given up as invalid. -/
def C94_statement : Prop :=
  ∀ (L : Ristretto), Lawful L → ∀ (keys : L.Scalar → Prop) (events : List ClientEvent),
    TokensMadeWith L keys events → ServersHold L keys {} events →
    invalidTokens (clientAfter (ristretto_signer L) events).store = []

theorem genuine_init (L : Ristretto) (keys : L.Scalar → Prop) : GenuineInv L keys {} :=
  ⟨fun _ hc => (nomatch hc), fun _ hx => (nomatch hx)⟩

/-- C94, what holds for any set of keys: each token given up as invalid was not made with the key of
some server. -/
theorem C94_invalid_under_some_key_partial (L : Ristretto) (hL : Lawful L) (keys : L.Scalar → Prop)
    (events : List ClientEvent) (servers : ServersHold L keys {} events) (x : String)
    (hx : x ∈ invalidTokens (clientAfter (ristretto_signer L) events).store) :
    ∃ k, keys k ∧ ¬ Genuine L k x :=
  (genuine_run L hL events (genuine_init L keys) servers).invalid x hx

/-- C94, what holds: with a single key no token is ever given up as invalid. -/
theorem C94_one_key_partial (L : Ristretto) (hL : Lawful L) (k : L.Scalar) (events : List ClientEvent)
    (tokens : TokensMadeWith L (· = k) events) (servers : ServersHold L (· = k) {} events) :
    invalidTokens (clientAfter (ristretto_signer L) events).store = [] := by
  have hg := genuine_run L hL events (genuine_init L (· = k)) servers
  have hh := held_run L hL (P := Genuine L k) events (genuine_init L (· = k))
    ⟨fun x hx => (by obtain ⟨r, hr, _⟩ := hx; exact nomatch hr), fun _ hc => (nomatch hc), fun _ hx => (nomatch hx)⟩
    (fun op ho x hx => by obtain ⟨k', rfl, h⟩ := tokens op ho x hx; exact h) servers
  apply List.eq_nil_iff_forall_not_mem.mpr
  intro x hx
  obtain ⟨k', rfl, hn⟩ := hg.invalid x hx
  exact hn (hh.invalid x hx)

/-- A token made with key 3 of the toy group. -/
def toyToken : String := text (toy.unblinded_tokens.encode ((2 : Fin 6), toyMul 3 2))

def toyEvents : List ClientEvent :=
  [.other (.add .natural "2020" "voucher" 1 0 (.ok ["r"])),
   .other (.insert "2021" "voucher" "key" [toyToken] true true),
   .start .spendAll (add_lease_message [1]) 1 .natural]

theorem toyToken_genuine : Genuine toy (3 : Fin 6) toyToken := ⟨(2 : Fin 6), by unfold toyToken; rw [ascii_text]⟩

theorem toyEvents_tokens (l : List ClientEvent) (hl : ∀ op, .other op ∉ l) :
    TokensMadeWith toy (fun k => k = (3 : Fin 6)) (toyEvents ++ l) := by
  intro op ho x hx
  refine ⟨(3 : Fin 6), rfl, ?_⟩
  rcases List.mem_append.mp ho with ho | ho
  · simp only [toyEvents, List.mem_cons, ClientEvent.other.injEq, reduceCtorEq, List.not_mem_nil, or_false] at ho
    rcases ho with rfl | rfl
    · exact nomatch hx
    · have : x ∈ [toyToken] := hx
      rw [List.mem_singleton] at this
      rw [this]; exact toyToken_genuine
  · exact (hl op ho).elim

/-- The one call in progress after these events. -/
theorem toyEvents_call : (clientAfter (ristretto_signer toy) toyEvents).active.map
    (fun c => (c.pass_group.message, c.pass_group.passes)) =
      [(add_lease_message [1], [passOf toy (add_lease_message [1]) (3 : Fin 6) (2 : Fin 6)])] := by
  decide +kernel

/-- A storage server of the toy group with one share, whose signing key is 4. -/
def toyLease (passes : List Bytes) : AddLeaseArgs := ⟨passes, [1], [], 0, fun _ => true⟩
def toyServer : Server := Server.init (fun si => if si = [1] then [(0, ⟨true, [], [5, 5], []⟩)] else [])

theorem toy_refused : RefusedBy toy (4 : Fin 6) (add_lease_message [1])
    [passOf toy (add_lease_message [1]) (3 : Fin 6) (2 : Fin 6)] [0] :=
  (C94_server_refuses toy 10 (4 : Fin 6) toyServer [passOf toy (add_lease_message [1]) (3 : Fin 6) (2 : Fin 6)] 0 1 [0]).2.1
    (toyLease [(passOf toy (add_lease_message [1]) (3 : Fin 6) (2 : Fin 6)).pass_bytes]) rfl (by decide +kernel)

theorem servers_append {L : Ristretto} {keys : L.Scalar → Prop} {a b : List ClientEvent} {w : Client}
    (ha : ServersHold L keys w a) (hb : ServersHold L keys (w.run (ristretto_signer L) a) b) :
    ServersHold L keys w (a ++ b) := by
  induction a generalizing w with
  | nil => exact hb
  | cons e es ih => exact ⟨ha.1, ih ha.2 hb⟩

theorem toy_served {keys : toy.Scalar → Prop} : ServersHold toy keys {} toyEvents := by
  refine ⟨?_, ?_, ?_, trivial⟩
  · intro i failed o c he; exact nomatch he
  · intro i failed o c he; exact nomatch he
  · intro i failed o c he; exact nomatch he

/-- C94 fails: the issuer has two keys, 3 and 4.  A client with a token of key 3 calls a server with
key 4, and gives the token up as invalid. -/
theorem C94_two_keys_fails : ¬ C94_statement := by
  intro h
  have := h toy toy_lawful (fun k => k = (3 : Fin 6) ∨ k = (4 : Fin 6))
    (toyEvents ++ [.answer 0 (.rejected [0]) .natural]) (by
      intro op ho x hx
      obtain ⟨k, hk, hg⟩ := toyEvents_tokens [.answer 0 (.rejected [0]) .natural] (by
        intro op h; rw [List.mem_singleton] at h; exact nomatch h) op ho x hx
      exact ⟨k, .inl hk, hg⟩) (by
      refine servers_append toy_served ⟨?_, trivial⟩
      intro i failed o c he hc
      cases he
      refine ⟨(4 : Fin 6), .inr rfl, ?_⟩
      have hc' := congrArg (Option.map (fun c : Call => (c.pass_group.message, c.pass_group.passes))) hc
      rw [← List.getElem?_map, show ((Client.run (ristretto_signer toy) {} toyEvents).active.map
        (fun c : Call => (c.pass_group.message, c.pass_group.passes))) = _ from toyEvents_call] at hc'
      have hc2 := Option.some.inj hc'
      have e1 : add_lease_message [1] = c.pass_group.message := congrArg Prod.fst hc2
      have e2 : [passOf toy (add_lease_message [1]) (3 : Fin 6) (2 : Fin 6)] = c.pass_group.passes := congrArg Prod.snd hc2
      rw [← e1, ← e2]
      exact toy_refused)
  revert this
  decide +kernel

theorem genuine_not_refused (L : Ristretto) (hL : Lawful L) (m : Bytes) (k : L.Scalar) (t : L.Preimage) :
    ¬ RefusedBy L k m [passOf L m k t] [0] := by
  rintro ⟨ps, hp, hf⟩
  have hw := (passOf_wire L hL m k t).2
  unfold Parses at hp
  rw [List.map_cons, List.map_cons, List.map_nil, List.map_nil, hw] at hp
  cases ps with
  | nil => exact nomatch hp
  | cons p ps =>
    rw [List.map_cons] at hp
    injection hp with hp1 hp2
    cases hp1
    obtain ⟨q, hq, hbad⟩ := (hf.2 0).mp List.mem_cons_self
    cases hq
    have hv := passOf_verifies L hL 1 m k t
    exact Bool.noConfusion (hbad.symm.trans hv)

/-- With one key only, of the same events the last cannot happen; the others meet the conditions. -/
example : TokensMadeWith toy (· = (3 : Fin 6)) toyEvents ∧ ServersHold toy (· = (3 : Fin 6)) {} toyEvents ∧
    ¬ RefusedBy toy (3 : Fin 6) (add_lease_message [1])
      [passOf toy (add_lease_message [1]) (3 : Fin 6) (2 : Fin 6)] [0] := by
  refine ⟨?_, toy_served, ?_⟩
  · have := toyEvents_tokens [] (fun _ h => nomatch h)
    rw [List.append_nil] at this
    exact this
  · exact genuine_not_refused toy toy_lawful _ _ _

/-! ### C21 with the real way of making passes -/

/-- **C21** for the redeemer that is used in production: if all tokens were made by an issuer, the
tokens in use are exactly those held by calls that are waiting for a server. -/
theorem C21_in_use_means_waiting_ristretto (L : Ristretto) (hL : Lawful L) (events : List ClientEvent)
    (tokens : TokensMadeWith L (fun _ => True) events) (fresh : NoReissue (ristretto_signer L) {} events)
    (x : String) :
    x ∈ (clientAfter (ristretto_signer L) events).store.temp.in_use ↔
      ∃ c ∈ (clientAfter (ristretto_signer L) events).active, x ∈ holds c := by
  obtain ⟨h1, h2⟩ := run_total L hL events (w := {})
    (fun y hy => by obtain ⟨r, hr, _⟩ := hy; exact nomatch hr)
    (fun op ho y hy => by obtain ⟨k, _, hk⟩ := tokens op ho y hy; exact ⟨k, hk⟩) fresh
  unfold clientAfter
  rw [h1]
  exact C21_in_use_means_waiting_partial (total_signer L) (total_signs L hL) events h2 x

theorem one_key_noReissue (L : Ristretto) (hL : Lawful L) (k : L.Scalar) (es : List ClientEvent)
    {w : Client} (hg : GenuineInv L (· = k) w) (hh : HeldInv (Genuine L k) w)
    (hi : ∀ op, .other op ∈ es → ∀ x, Issues x op → Genuine L k x)
    (hr : ServersHold L (· = k) w es) : NoReissue (ristretto_signer L) w es := by
  induction es generalizing w with
  | nil => trivial
  | cons e es ih =>
    refine ⟨?_, ih (genuine_step L hL hg e hr.1) (held_step L hL hg hh e ?_) ?_ hr.2⟩
    · intro op _ x _ hx
      obtain ⟨k', rfl, hn⟩ := hg.invalid x hx
      exact hn (hh.invalid x hx)
    · intro op he x hx
      exact hi op (by rw [← he]; exact List.mem_cons_self) x hx
    · intro op he x hx
      exact hi op (List.mem_cons_of_mem _ he) x hx

/-- **C21** and **C22** with one key: no condition on the issuer's tokens other than that they are
made with the key is left. -/
theorem C21_one_key (L : Ristretto) (hL : Lawful L) (k : L.Scalar) (events : List ClientEvent)
    (tokens : TokensMadeWith L (· = k) events) (servers : ServersHold L (· = k) {} events) :
    (∀ x, x ∈ (clientAfter (ristretto_signer L) events).store.temp.in_use ↔
      ∃ c ∈ (clientAfter (ristretto_signer L) events).active, x ∈ holds c) ∧
    ∀ c ∈ (clientAfter (ristretto_signer L) events).active, 0 ≤ c.num_passes →
      (c.pass_group.passes.length : Int) = c.num_passes ∧ (holds c).Nodup := by
  have htok : ∀ op, .other op ∈ events → ∀ x, Issues x op → Genuine L k x :=
    fun op ho x hx => by obtain ⟨k', rfl, h⟩ := tokens op ho x hx; exact h
  have fresh := one_key_noReissue L hL k events (w := {}) (genuine_init L (· = k))
    ⟨fun x hx => (by obtain ⟨r, hr, _⟩ := hx; exact nomatch hr), fun _ hc => (nomatch hc), fun _ hx => (nomatch hx)⟩
    htok servers
  refine ⟨fun x => C21_in_use_means_waiting_ristretto L hL events
    (fun op ho y hy => ⟨k, trivial, htok op ho y hy⟩) fresh x, ?_⟩
  obtain ⟨h1, h2⟩ := run_total L hL events (w := {})
    (fun y hy => by obtain ⟨r, hr, _⟩ := hy; exact nomatch hr)
    (fun op ho y hy => ⟨k, htok op ho y hy⟩) fresh
  intro c hc hn
  unfold clientAfter at hc
  rw [h1] at hc
  exact C22_exact_number_of_passes (total_signer L) (total_signs L hL) events h2 c hc hn

/-- A call that is waiting, with the token it holds. -/
example : (clientAfter (ristretto_signer toy) toyEvents).store.temp.in_use = [toyToken] ∧
    (clientAfter (ristretto_signer toy) toyEvents).active.map holds = [[toyToken]] := by
  decide +kernel

/-! ### C95: whose passes a server gets -/

/-- C95: a client that can use a server pays it with passes from the issuer which both the server
announces and the client is configured for. -/
theorem C95_same_issuer (c : NodeConfig) (announcement : Announcement) (client : StorageClient) (issuer : String)
    (h : get_storage_client c announcement = .ok client) (hr : client.redeemer = .ristretto issuer) :
    announcement.lookup "ristretto-issuer-root-url" = some issuer ∧
      c.option "storageclient.plugins.privatestorageio-zkapauthz-v2" "ristretto-issuer-root-url" = some issuer := by
  have key : ristretto_make c (some announcement) = .ok issuer := by
    unfold get_storage_client at h
    split at h
    · exact nomatch h
    · rename_i redeemer hg
      split at h
      · exact nomatch h
      · cases h
        dsimp only at hr
        subst hr
        unfold get_redeemer at hg
        dsimp only at hg
        split at hg
        · exact nomatch hg
        · split at hg
          · split at hg <;> exact nomatch hg
          · split at hg
            · exact nomatch hg
            · split at hg
              · exact nomatch hg
              · split at hg
                · split at hg <;> exact nomatch hg
                · split at hg
                  · split at hg
                    · exact nomatch hg
                    · rename_i i hi
                      cases hg
                      exact hi
                  · exact nomatch hg
  unfold ristretto_make NodeConfig.get_config at key
  cases ho : c.option client_section "ristretto-issuer-root-url" with
  | none => rw [ho] at key; exact nomatch key
  | some configured =>
    rw [ho] at key
    dsimp only at key
    cases hl : announcement.lookup "ristretto-issuer-root-url" with
    | none => rw [hl] at key; exact nomatch key
    | some announced =>
      rw [hl] at key
      dsimp only at key
      by_cases hne : announced ≠ configured
      · rw [if_pos hne] at key; exact nomatch key
      · rw [if_neg hne] at key
        cases key
        exact ⟨congrArg some (Decidable.not_not.mp hne), ho⟩

/-- C95: with the redeemer that is the default, a server is usable exactly if it announces the
configured issuer (and the configured value of a pass is a number); one that announces another
issuer is refused with a configuration mismatch. -/
theorem C95_usable_iff (c : NodeConfig) (announcement : Announcement) (mine theirs : String)
    (hk : c.option client_section "redeemer" = none ∨ c.option client_section "redeemer" = some "ristretto")
    (hm : c.option client_section "ristretto-issuer-root-url" = some mine)
    (ht : announcement.lookup "ristretto-issuer-root-url" = some theirs)
    (v : Int) (hv : get_configured_pass_value c = .ok v) :
    (theirs = mine → get_storage_client c announcement = .ok ⟨v, .ristretto mine⟩) ∧
    (theirs ≠ mine → get_storage_client c announcement = .error issuerConfigurationMismatch) := by
  have hg : get_redeemer c (some announcement) =
      match ristretto_make c (some announcement) with
      | .error e => .error e
      | .ok issuer => .ok (.ristretto issuer) := by
    unfold get_redeemer
    have : (c.option client_section "redeemer").getD "ristretto" = "ristretto" := by
      rcases hk with h | h <;> rw [h] <;> rfl
    rw [this]
    dsimp only
    rw [if_neg (by decide), if_neg (by decide), if_neg (by decide), if_neg (by decide), if_neg (by decide),
      if_pos rfl]
    cases ristretto_make c (some announcement) <;> rfl
  unfold get_storage_client
  rw [hg]
  unfold ristretto_make NodeConfig.get_config
  rw [hm]
  dsimp only
  rw [ht]
  dsimp only
  constructor
  · intro he
    rw [if_neg (by simpa using he)]
    dsimp only
    rw [hv]
  · intro he
    rw [if_pos he]

/-- C95: a server that announces no issuer is not used. -/
theorem C95_no_issuer (c : NodeConfig) (announcement : Announcement)
    (ha : announcement.lookup "ristretto-issuer-root-url" = none) (issuer : String) (v : Int) :
    get_storage_client c announcement ≠ .ok ⟨v, .ristretto issuer⟩ := by
  intro h
  have := (C95_same_issuer c announcement _ issuer h rfl).1
  rw [ha] at this
  exact nomatch this

def exNode : NodeConfig where
  path := "/node"
  option s o :=
    if s = client_section ∧ o = "ristretto-issuer-root-url" then some "https://issuer/"
    else if s = client_section ∧ o = "allowed-public-keys" then some "a, b"
    else if s = "client" ∧ o = "storage.plugins" then some "other , privatestorageio-zkapauthz-v2"
    else none
  private_file n := if n = "privatestorageio-zkapauthz-v2.replica-rwcap" then some "URI:DIR2:replica" else none

example : get_storage_client exNode [("ristretto-issuer-root-url", "https://issuer/")] =
      .ok ⟨1048576, .ristretto "https://issuer/"⟩ ∧
    get_storage_client exNode [("ristretto-issuer-root-url", "https://other/")] =
      .error issuerConfigurationMismatch := by decide +kernel

/-! ### C96: connections to the database -/

/-- C96 in full: one process has at most one connection to the database of a node, and replicates
it at most once. -/
def C96_statement : Prop :=
  ∀ (replicated : List String) (steps : List PluginStep) (dir : String),
    ((Plugin.run { replicated := replicated } steps).connections dir).length ≤ 1 ∧
    ((Plugin.run { replicated := replicated } steps).services.filter (fun s => s.1 == dir)).length ≤ 1

/-- C96 fails: if the store is no longer referred to, and garbage collected, the next user gets a
second connection, and a second replication service on it. -/
theorem C96_collected_fails : ¬ C96_statement := by
  intro h
  have := h [] [.getStore "/node" (.ok ()) (.ok ()), .setup "/node", .drop "/node", .getStore "/node" (.ok ()) (.ok ())]
    "/node"
  revert this
  decide +kernel

/-- The state of a node whose store is not collected. -/
def OneConnection (p : Plugin) (dir : String) : Prop :=
  (storesOf p dir = [] ∧ servicesOf p dir = []) ∨
  ∃ conn, storesOf p dir = [conn] ∧
    ((servicesOf p dir = [] ∧ dir ∉ p.replicated) ∨ (servicesOf p dir = [conn] ∧ dir ∈ p.replicated))

theorem one_connection_step {p : Plugin} {dir : String} (h : OneConnection p dir) (s : PluginStep)
    (hs : s ≠ .drop dir) : OneConnection (p.step s) dir := by
  rcases plugin_step p s dir with ⟨h1, h2, h3⟩ | ⟨h1, o, a, _, h2, h3, h4⟩ | ⟨_, h1, h2, h3, conn, h4, h5⟩ | ⟨h1, _⟩
  · unfold OneConnection
    rw [h1, h2, h3]
    exact h
  · have hse : servicesOf p dir = [] := by
      rcases h with h | ⟨conn, hc, _⟩
      · exact h.2
      · rw [h1] at hc; exact nomatch hc
    refine .inr ⟨p.next, h2, ?_⟩
    rw [h3, h4, hse]
    by_cases hr : dir ∈ p.replicated
    · rw [if_pos hr]; exact .inr ⟨rfl, hr⟩
    · rw [if_neg hr]; exact .inl ⟨rfl, hr⟩
  · have hm : conn ∈ storesOf p dir := filter_lookup_some h4
    rcases h with h | ⟨conn', hc, hh⟩
    · rw [h.1] at hm; exact nomatch hm
    · rw [hc, List.mem_singleton] at hm
      subst hm
      rcases hh with hh | hh
      · exact .inr ⟨conn, by rw [h3, hc], .inr ⟨by rw [h5, hh.1]; rfl, h2⟩⟩
      · exact (h1 hh.2).elim
  · exact (hs h1).elim

theorem connections_eq (p : Plugin) (dir : String) :
    p.connections dir = (storesOf p dir ++ servicesOf p dir).eraseDups := rfl

/-- C96, what holds: as long as the store of a node is not collected there is at most one connection
to its database and at most one replication service, and whoever asks gets that connection. -/
theorem C96_kept_partial (replicated : List String) (steps : List PluginStep) (dir : String)
    (kept : PluginStep.drop dir ∉ steps) :
    ((Plugin.run { replicated := replicated } steps).connections dir).length ≤ 1 ∧
    ((Plugin.run { replicated := replicated } steps).services.filter (fun s => s.1 == dir)).length ≤ 1 ∧
    ∀ opened added conn, (Plugin.run { replicated := replicated } steps).stores.lookup dir = some conn →
      (Plugin.run { replicated := replicated } steps).get_store dir opened added =
        (Plugin.run { replicated := replicated } steps, .ok conn) := by
  have inv : ∀ (steps : List PluginStep) (p : Plugin), PluginStep.drop dir ∉ steps → OneConnection p dir →
      OneConnection (p.run steps) dir := by
    intro steps
    induction steps with
    | nil => intro p _ h; exact h
    | cons s steps ih =>
      intro p hk h
      exact ih _ (fun hm => hk (List.mem_cons_of_mem _ hm))
        (one_connection_step h s (fun he => hk (he ▸ List.mem_cons_self)))
  have h := inv steps { replicated := replicated } kept (.inl ⟨rfl, rfl⟩)
  have hlen : ∀ p : Plugin, (p.services.filter (fun s => s.1 == dir)).length = (servicesOf p dir).length := by
    intro p; unfold servicesOf; rw [List.length_map]
  rw [connections_eq, hlen]
  refine ⟨?_, ?_, ?_⟩
  · rcases h with ⟨h1, h2⟩ | ⟨conn, h1, h2 | h2⟩
    · rw [h1, h2]; decide
    · rw [h1, h2.1, List.append_nil, List.eraseDups_cons]; simp
    · rw [h1, h2.1]
      rw [List.singleton_append, List.eraseDups_cons]
      simp
  · rcases h with ⟨h1, h2⟩ | ⟨conn, h1, h2 | h2⟩
    · rw [h2]; exact Nat.zero_le _
    · rw [h2.1]; exact Nat.zero_le _
    · rw [h2.1]; exact Nat.le_refl _
  · intro opened added conn hl
    unfold Plugin.get_store
    rw [hl]

/-- C96, what holds even if the store is collected: a node that does not replicate has at most one
connection. -/
theorem C96_unreplicated_partial (replicated : List String) (steps : List PluginStep) (dir : String)
    (never : dir ∉ replicated) (no_setup : PluginStep.setup dir ∉ steps) :
    ((Plugin.run { replicated := replicated } steps).connections dir).length ≤ 1 ∧
    (Plugin.run { replicated := replicated } steps).services.filter (fun s => s.1 == dir) = [] := by
  have inv : ∀ (steps : List PluginStep) (p : Plugin), PluginStep.setup dir ∉ steps →
      (dir ∉ p.replicated ∧ servicesOf p dir = [] ∧ (storesOf p dir).length ≤ 1) →
      (dir ∉ (p.run steps).replicated ∧ servicesOf (p.run steps) dir = [] ∧ (storesOf (p.run steps) dir).length ≤ 1) := by
    intro steps
    induction steps with
    | nil => intro p _ h; exact h
    | cons s steps ih =>
      intro p hk h
      refine ih _ (fun hm => hk (List.mem_cons_of_mem _ hm)) ?_
      rcases plugin_step p s dir with ⟨h1, h2, h3⟩ | ⟨h1, o, a, _, h2, h3, h4⟩ | ⟨hs, _⟩ | ⟨_, h1, h2, h3⟩
      · rw [h1, h2, h3]; exact h
      · rw [h2, h3, h4, if_neg h.1]; exact ⟨h.1, h.2.1, Nat.le_refl _⟩
      · exact (hk (hs ▸ List.mem_cons_self)).elim
      · rw [h1, h2, h3]; exact ⟨h.1, h.2.1, Nat.zero_le _⟩
  obtain ⟨-, h2, h3⟩ := inv steps { replicated := replicated } no_setup ⟨never, rfl, Nat.zero_le _⟩
  rw [connections_eq, h2, List.append_nil]
  refine ⟨?_, ?_⟩
  · cases hs : storesOf (Plugin.run { replicated := replicated } steps) dir with
    | nil => exact Nat.zero_le _
    | cons x xs =>
      rw [hs] at h3
      cases xs with
      | nil => rw [List.eraseDups_cons]; simp
      | cons y ys => simp at h3
  · have := h2
    unfold servicesOf at this
    exact List.map_eq_nil_iff.mp this

/-- Every connection was made before, and belongs to one node directory. -/
def Separate (p : Plugin) : Prop :=
  (∀ kv ∈ p.stores ++ p.services, kv.2 < p.next) ∧
    ∀ kv ∈ p.stores ++ p.services, ∀ kw ∈ p.stores ++ p.services, kv.2 = kw.2 → kv.1 = kw.1

theorem separate_subset {p q : Plugin} (h : Separate p) (hn : p.next ≤ q.next)
    (hs : ∀ kv ∈ q.stores ++ q.services, kv ∈ p.stores ++ p.services) : Separate q :=
  ⟨fun kv hkv => Nat.lt_of_lt_of_le (h.1 kv (hs kv hkv)) hn,
    fun kv hkv kw hkw e => h.2 kv (hs kv hkv) kw (hs kw hkw) e⟩

theorem separate_new {p q : Plugin} (h : Separate p) (dir : String) (hn : q.next = p.next + 1)
    (hs : ∀ kv ∈ q.stores ++ q.services, kv ∈ p.stores ++ p.services ∨ kv = (dir, p.next)) : Separate q := by
  refine ⟨fun kv hkv => ?_, fun kv hkv kw hkw e => ?_⟩
  · rcases hs kv hkv with h1 | rfl
    · have := h.1 kv h1; omega
    · rw [hn]; exact Nat.lt_succ_self _
  · rcases hs kv hkv with h1 | rfl <;> rcases hs kw hkw with h2 | rfl
    · exact h.2 kv h1 kw h2 e
    · have := h.1 kv h1; dsimp only at e; omega
    · have := h.1 kw h2; dsimp only at e; omega
    · rfl

theorem separate_step {p : Plugin} (h : Separate p) (s : PluginStep) : Separate (p.step s) := by
  cases s with
  | getStore dir o a =>
    simp only [Plugin.step, Plugin.get_store]
    cases hl : p.stores.lookup dir with
    | some conn => exact h
    | none =>
      cases o with
      | error e => exact h
      | ok u =>
        dsimp only
        split
        · cases a with
          | error e => exact separate_subset h (Nat.le_succ _) (fun _ hk => hk)
          | ok u =>
            refine separate_new h dir rfl ?_
            intro kv hkv
            simp only [List.mem_append, List.mem_singleton] at hkv ⊢
            rcases hkv with (h | h) | (h | h)
            · exact .inl (.inl h)
            · exact .inr h
            · exact .inl (.inr h)
            · exact .inr h
        · refine separate_new h dir rfl ?_
          intro kv hkv
          simp only [List.mem_append, List.mem_singleton] at hkv ⊢
          rcases hkv with (h | h) | h
          · exact .inl (.inl h)
          · exact .inr h
          · exact .inl (.inr h)
  | setup dir =>
    simp only [Plugin.step, Plugin.setup_replication]
    cases hl : p.stores.lookup dir with
    | none => exact h
    | some conn =>
      dsimp only
      split
      · exact h
      · refine separate_subset h (Nat.le_refl _) ?_
        intro kv hkv
        simp only [List.mem_append, List.mem_singleton] at hkv ⊢
        rcases hkv with h | h | rfl
        · exact .inl h
        · exact .inr h
        · left
          obtain ⟨y, hy, hy2⟩ := List.mem_map.mp (filter_lookup_some hl)
          obtain ⟨hy', hk⟩ := List.mem_filter.mp hy
          obtain ⟨k, w⟩ := y
          cases eq_of_beq hk
          cases hy2
          exact hy'
  | drop dir =>
    refine separate_subset h (Nat.le_refl _) ?_
    intro kv hkv
    simp only [Plugin.step, Plugin.drop, List.mem_append, List.mem_filter] at hkv ⊢
    rcases hkv with h | h
    · exact .inl h.1
    · exact .inr h

/-- C96: a connection to the database of one node is never used for another, collected or not. -/
theorem C96_separate (replicated : List String) (steps : List PluginStep) (dir other : String) (conn : Nat)
    (h1 : conn ∈ (Plugin.run { replicated := replicated } steps).connections dir)
    (h2 : conn ∈ (Plugin.run { replicated := replicated } steps).connections other) : dir = other := by
  have inv : ∀ (steps : List PluginStep) (p : Plugin), Separate p → Separate (p.run steps) := by
    intro steps
    induction steps with
    | nil => intro p h; exact h
    | cons s steps ih => intro p h; exact ih _ (separate_step h s)
  have h := inv steps { replicated := replicated } ⟨by simp, by simp⟩
  have mem : ∀ {p : Plugin} {d}, conn ∈ p.connections d → (d, conn) ∈ p.stores ++ p.services := by
    intro p d hm
    unfold Plugin.connections at hm
    rw [List.mem_eraseDups] at hm
    rcases List.mem_append.mp hm with hm | hm
    all_goals
      obtain ⟨⟨k, w⟩, hy, rfl⟩ := List.mem_map.mp hm
      obtain ⟨hy', hk⟩ := List.mem_filter.mp hy
      cases eq_of_beq hk
    · exact List.mem_append_left _ hy'
    · exact List.mem_append_right _ hy'
  exact h.2 _ (mem h1) _ (mem h2) rfl

/-- Two nodes, one of which replicates from the start. -/
example : let p := Plugin.run { replicated := ["/b"] } [.getStore "/a" (.ok ()) (.ok ()), .getStore "/b" (.ok ()) (.ok ()),
      .setup "/a", .getStore "/a" (.ok ()) (.ok ()), .setup "/a", .getStore "/b" (.error .valueError) (.ok ())]
    p.connections "/a" = [0] ∧ p.connections "/b" = [1] ∧ p.services = [("/b", 1), ("/a", 0)] := by decide +kernel

/-! ### C97, C98: services -/

theorem lookup_none_not_mem {α} {l : Dict String α} {k : String} {v : α} (h : l.lookup k = none) : (k, v) ∉ l := by
  intro hm
  have := filter_lookup_none h
  rw [List.filter_eq_nil_iff] at this
  exact this _ hm (beq_self_eq_true _)

theorem NAME_name : Name NAME.toList := by
  refine ⟨by decide +kernel, ?_⟩
  decide +kernel

theorem enabled_iff (c : NodeConfig) : _is_client_plugin_enabled c = true ↔
    Lists ((c.option "client" "storage.plugins").getD "").toList NAME.toList := by
  unfold _is_client_plugin_enabled
  dsimp only
  rw [List.contains_iff_mem]
  exact stripped_items NAME_name

/-- C97: if its database can be opened, a node has a lease maintenance service after initialisation
exactly if it had one before or it lists the plugin among its storage plugins and the service could
be created; otherwise its services are what they were, a service that cannot be created does not
stop the node. -/
theorem C97_lease_maintenance {S : Type} (p : Plugin) (node : TahoeNode S) (added : Except PyErr Unit)
    (make_service : Except PyErr S)
    (opened : ∀ e, (p.get_store node.config.path (.ok ()) added).2 ≠ .error e) :
    let r := _attach_zkapauthorizer_services p node (.ok ()) added make_service
    r.2.2 = .ok () ∧ r.2.1.config = node.config ∧
    ((∃ s, r.2.1.services.lookup MAINTENANCE_SERVICE_NAME = some s) ↔
      (∃ s, node.services.lookup MAINTENANCE_SERVICE_NAME = some s) ∨
      (Lists ((node.config.option "client" "storage.plugins").getD "").toList NAME.toList ∧
        ∃ s, make_service = .ok s)) ∧
    (∀ other, other ≠ MAINTENANCE_SERVICE_NAME → r.2.1.services.lookup other = node.services.lookup other) ∧
    (Dict.WF node.services → Dict.WF r.2.1.services) := by
  dsimp only
  unfold _attach_zkapauthorizer_services
  cases hg : p.get_store node.config.path (.ok ()) added with
  | mk p' r =>
    rw [hg] at opened
    cases r with
    | error e => exact (opened e rfl).elim
    | ok conn =>
      dsimp only
      by_cases he : _is_client_plugin_enabled node.config = true
      · rw [if_pos he]
        have hl := (enabled_iff node.config).mp he
        dsimp only
        unfold _maybe_attach_service
        cases hlk : node.services.lookup MAINTENANCE_SERVICE_NAME with
        | some s =>
          dsimp only
          rw [hlk]
          exact ⟨rfl, rfl, ⟨fun _ => .inl ⟨s, rfl⟩, fun _ => ⟨s, rfl⟩⟩, fun _ _ => rfl, id⟩
        | none =>
          dsimp only
          cases make_service with
          | error e =>
            dsimp only
            rw [hlk]
            refine ⟨rfl, rfl, ⟨fun h => .inl h, ?_⟩, fun _ _ => rfl, id⟩
            rintro (h | ⟨_, s, hs⟩)
            · exact h
            · exact nomatch hs
          | ok service =>
            dsimp only
            refine ⟨rfl, rfl, ⟨fun _ => .inr ⟨hl, service, rfl⟩, fun _ => ⟨service, ?_⟩⟩, ?_, ?_⟩
            · rw [List.lookup_append, hlk, Option.none_or, List.lookup_cons, beq_self_eq_true]
            · intro other ho
              rw [List.lookup_append, List.lookup_cons, show (other == MAINTENANCE_SERVICE_NAME) = false by simpa using ho]
              simp
            · intro hwf
              unfold Dict.WF at hwf ⊢
              rw [List.map_append, List.nodup_append]
              refine ⟨hwf, by simp, ?_⟩
              intro a ha b hb hab
              rw [List.map_cons, List.map_nil, List.mem_singleton] at hb
              subst hb
              subst hab
              obtain ⟨⟨k, v⟩, hkv, hk⟩ := List.mem_map.mp ha
              have hk' : k = MAINTENANCE_SERVICE_NAME := hk
              subst hk'
              exact lookup_none_not_mem hlk hkv
      · rw [if_neg he]
        have hl := mt (enabled_iff node.config).mpr he
        dsimp only
        refine ⟨rfl, rfl, ⟨fun h => .inl h, ?_⟩, fun _ _ => rfl, id⟩
        rintro (h | ⟨h, _⟩)
        · exact h
        · exact (hl h).elim


/-- The service is attached once, however often a node is initialised, and only if the plugin is
enabled; other services stay. -/
example : let r := _attach_zkapauthorizer_services {} ⟨exNode, [("introducer", 7)]⟩ (.ok ()) (.ok ()) (.ok 8)
    r.2.1.services = [("introducer", 7), ("lease maintenance service", 8)] ∧
    (_attach_zkapauthorizer_services r.1 r.2.1 (.ok ()) (.ok ()) (.ok 9)).2.1.services = r.2.1.services ∧
    (_attach_zkapauthorizer_services {} ⟨{ exNode with option := fun _ _ => none }, [("introducer", 7)]⟩
      (.ok ()) (.ok ()) (.ok 8)).2.1.services = [("introducer", 7)] := by decide +kernel

/-- C98 in full: a node that does not list the plugin starts as if the plugin did not exist. -/
def C98_statement : Prop :=
  ∀ (p : Plugin) (node : TahoeNode Unit) (opened added : Except PyErr Unit) (make_service : Except PyErr Unit),
    ¬ Lists ((node.config.option "client" "storage.plugins").getD "").toList NAME.toList →
    (_attach_zkapauthorizer_services p node opened added make_service).2.2 = .ok () ∧
    (_attach_zkapauthorizer_services p node opened added make_service).1.next = p.next

/-- C98 fails: every node gets a database, and a node whose database cannot be opened does not
start. -/
theorem C98_database_fails : ¬ C98_statement := by
  intro h
  have hn : ¬ Lists (({ exNode with option := fun _ _ => none } : NodeConfig).option "client" "storage.plugins" |>.getD "").toList
      NAME.toList := by
    intro hl
    have := (enabled_iff { exNode with option := fun _ _ => none }).mpr hl
    revert this
    decide +kernel
  have := (h {} ⟨{ exNode with option := fun _ _ => none }, []⟩ (.error (.other 9)) (.ok ()) (.ok ()) hn).1
  revert this
  decide +kernel

/-- C98, what holds: the services of the node, and its configuration, are not changed. -/
theorem C98_services_partial {S : Type} (p : Plugin) (node : TahoeNode S) (opened added : Except PyErr Unit)
    (make_service : Except PyErr S)
    (disabled : ¬ Lists ((node.config.option "client" "storage.plugins").getD "").toList NAME.toList) :
    (_attach_zkapauthorizer_services p node opened added make_service).2.1 = node := by
  have he := mt (enabled_iff node.config).mp disabled
  unfold _attach_zkapauthorizer_services
  split
  · rfl
  · rw [if_neg he]

/-- A node that does not enable the plugin gets a connection to a database all the same. -/
example : (_attach_zkapauthorizer_services {} ⟨{ exNode with option := fun _ _ => none }, [("introducer", 7)]⟩
      (.ok ()) (.ok ()) (.ok 8)).1.connections "/node" = [0] := by decide +kernel

/-! ### C99: what lease maintenance covers -/

/-- C99 in full: the leases of the replica are maintained. -/
def C99_statement : Prop :=
  ∀ (ν σ : Type) (g : NodeGraph ν σ) (create_node : String → ν) (c : NodeConfig) (fuel : Nat)
    (visited : List σ) (cap : String),
    c.private_file "privatestorageio-zkapauthz-v2.replica-rwcap" = some cap →
    visit_storage_indexes g fuel (get_root_nodes create_node c) = some (.ok visited) →
    g.storage_index (create_node cap) ∈ visited

/-- C99 fails: a node without a `rootcap` file maintains no leases at all, not even those of its
replica. -/
theorem C99_no_rootcap_fails : ¬ C99_statement := by
  intro h
  exact nomatch h String String ⟨id, fun _ => .ok none⟩ id exNode 0 [] "URI:DIR2:replica" rfl rfl

/-- C99, what holds: exactly what can be reached from the `rootcap` is maintained, so the replica is
if it can be reached from there. -/
theorem C99_reachable_partial {ν σ : Type} (g : NodeGraph ν σ) (create_node : String → ν) (c : NodeConfig)
    (fuel : Nat) (visited : List σ)
    (h : visit_storage_indexes g fuel (get_root_nodes create_node c) = some (.ok visited)) :
    (∀ x, x ∈ visited ↔ ∃ rootcap n, c.private_file "rootcap" = some rootcap ∧
      Reachable g [create_node rootcap] n ∧ g.storage_index n = x) ∧
    (∀ rootcap cap, c.private_file "rootcap" = some rootcap →
      Reachable g [create_node rootcap] (create_node cap) → g.storage_index (create_node cap) ∈ visited) ∧
    (c.private_file "rootcap" = none → visited = []) := by
  have hx := C41_visits_exactly_reachable g fuel _ visited h
  have key : ∀ x, x ∈ visited ↔ ∃ rootcap n, c.private_file "rootcap" = some rootcap ∧
      Reachable g [create_node rootcap] n ∧ g.storage_index n = x := by
    intro x
    rw [hx x]
    unfold get_root_nodes
    cases hr : c.private_file "rootcap" with
    | none =>
      constructor
      · rintro ⟨n, hn, -⟩
        exfalso
        clear hx h
        induction hn with
        | root hm => exact nomatch hm
        | child _ _ ih => exact ih
      · rintro ⟨_, _, h, _⟩; exact nomatch h
    | some rootcap =>
      constructor
      · rintro ⟨n, hn, hs⟩; exact ⟨rootcap, n, rfl, hn, hs⟩
      · rintro ⟨rootcap', n, h, hn, hs⟩; cases h; exact ⟨n, hn, hs⟩
  refine ⟨key, fun rootcap cap hr hc => (key _).mpr ⟨rootcap, _, hr, hc, rfl⟩, ?_⟩
  intro hr
  apply List.eq_nil_iff_forall_not_mem.mpr
  intro x hm
  obtain ⟨_, _, h', _⟩ := (key x).mp hm
  rw [hr] at h'
  exact nomatch h'

/-- A root directory that holds the replica. -/
example : let g : NodeGraph String String := ⟨fun n => "SI:" ++ n, fun n => if n = "root" then .ok (some [("backup", "replica")]) else .ok none⟩
    visit_storage_indexes g 5 (get_root_nodes id { exNode with private_file := fun _ => some "root" }) =
      some (.ok ["SI:root", "SI:replica"]) := by decide +kernel

/-! ### C100: which public keys are allowed -/

/-- C100 in full: a key is allowed exactly if the configuration lists it. -/
def C100_statement : Prop :=
  ∀ (c : NodeConfig) (v : String) (key : String),
    c.option client_section "allowed-public-keys" = some v → Name key.toList → Lists v.toList key.toList →
    ∃ allowed, get_configured_allowed_public_keys c = .ok allowed ∧ key ∈ allowed

/-- C100 fails: a space after a comma becomes part of the key. -/
theorem C100_space_fails : ¬ C100_statement := by
  intro h
  obtain ⟨allowed, h1, h2⟩ := h exNode "a, b" "b" (by decide +kernel)
    ⟨by decide +kernel, by decide +kernel⟩
    ⟨[' '], [], by intro c hc; rw [List.mem_singleton] at hc; subst hc; decide, fun _ hc => (nomatch hc),
      by decide +kernel, ['a', ','], [], by decide +kernel, .inr ⟨['a'], rfl⟩, .inl rfl⟩
  have he : get_configured_allowed_public_keys exNode = .ok ["a", " b"] := by decide +kernel
  rw [he] at h1
  cases h1
  revert h2
  decide +kernel

theorem allowed_iff {c : NodeConfig} {v : String} (h : c.option client_section "allowed-public-keys" = some v) :
    ∃ allowed, get_configured_allowed_public_keys c = .ok allowed ∧
      ∀ key, key ∈ allowed ↔ ItemOf key.toList (py_strip v.toList) := by
  unfold get_configured_allowed_public_keys NodeConfig.get_config
  rw [h]
  refine ⟨_, rfl, fun key => ?_⟩
  rw [← split_comma_item, List.mem_map]
  constructor
  · rintro ⟨item, hi, rfl⟩
    rw [String.toList_ofList]; exact hi
  · intro hi
    exact ⟨key.toList, hi, String.ofList_toList⟩

/-- C100, what holds: only listed keys are allowed, and if the list has white space at most at its ends
then all of them are. -/
theorem C100_no_space_partial (c : NodeConfig) (v : String)
    (h : c.option client_section "allowed-public-keys" = some v) :
    ∃ allowed, get_configured_allowed_public_keys c = .ok allowed ∧
      (∀ key ∈ allowed, Lists v.toList key.toList) ∧
      ∀ before keys after, v.toList = before ++ keys ++ after → Blank before → Blank after →
        (∀ ch ∈ keys, py_space ch = false) → ∀ key : String, key ∈ allowed ↔ ItemOf key.toList keys := by
  obtain ⟨allowed, h1, h2⟩ := allowed_iff h
  refine ⟨allowed, h1, fun key hk => lists_of_stripped ((h2 key).mp hk), ?_⟩
  intro before keys after hv hb ha hs key
  rw [h2 key, hv, strip_blank before keys after hb ha (nospace_trim hs)]

/-- C100: without the item the configuration is not usable. -/
theorem C100_missing (c : NodeConfig) (h : c.option client_section "allowed-public-keys" = none) :
    get_configured_allowed_public_keys c = .error missingConfigEntry := by
  unfold get_configured_allowed_public_keys NodeConfig.get_config
  rw [h]

example : get_configured_allowed_public_keys
    { exNode with option := fun _ _ => some " AAAA,BBBB,CCCC\n" } = .ok ["AAAA", "BBBB", "CCCC"] := by decide +kernel

/-! ### C101: a server honours the keys it announces -/

theorem storage_server_inv (L : Ristretto) {decode : Bytes → Option L.Scalar} {files : String → Option Bytes}
    {configuration : Dict String String} {srv : AnnouncedServer}
    (h : get_storage_server L decode files configuration = .ok srv) :
    ∃ url path content k, configuration.lookup "ristretto-issuer-root-url" = some url ∧
      configuration.lookup "ristretto-signing-key-path" = some path ∧ files path = some content ∧
      decode (bytes_strip content) = some k ∧
      server_pass_value configuration = .ok srv.config.pass_value ∧
      srv.announcement = [("ristretto-issuer-root-url", url)] ∧
      srv.public_keys = [L.points.encode (L.public_key k)] ∧
      srv.config = server_with_key L srv.config.pass_value k := by
  unfold get_storage_server load_signing_key at h
  split at h
  · exact nomatch h
  · rename_i url hurl
    split at h
    · exact nomatch h
    · rename_i v hv
      split at h
      · exact nomatch h
      · rename_i path hpath
        split at h
        · exact nomatch h
        · rename_i content hcontent
          cases hk : decode (bytes_strip content) with
          | none => rw [hk] at h; exact nomatch h
          | some k =>
            rw [hk] at h
            cases h
            exact ⟨url, path, content, k, hurl, hpath, hcontent, hk, hv, rfl, rfl, rfl⟩

/-- C101: passes made from tokens that were redeemed under a public key which the server announces
are accepted by that server. -/
theorem C101_announced_keys_honoured (L : Ristretto) (hL : Lawful L) (hS : Sound L)
    (decode : Bytes → Option L.Scalar) (files : String → Option Bytes) (configuration : Dict String String)
    (srv : AnnouncedServer) (h : get_storage_server L decode files configuration = .ok srv)
    (issuer : RedeemRequest → Option Json) (voucher : String) (counter : Nat)
    (tokens : List (L.Preimage × L.Scalar)) (pk : String) (utoks : List Bytes)
    (hr : redeemWithCounter L issuer voucher counter (tokens.map L.random_tokens.encode) = .ok (pk, utoks))
    (announced : ascii pk ∈ srv.public_keys) (message : Bytes) :
    ∃ passes, tokens_to_passes L message utoks = .ok passes ∧ passes.length = tokens.length ∧
      ∀ p ∈ passes, srv.config.verifies message p = true := by
  obtain ⟨url, path, content, k, _, _, _, _, _, _, hpk, hc⟩ := storage_server_inv L h
  rw [hpk, List.mem_singleton] at announced
  obtain ⟨passes, h1, h2, h3⟩ := C88_accepted L hL hS issuer voucher counter tokens pk utoks hr k
    (by rw [announced]; exact hL.points _) message srv.config.pass_value
  refine ⟨passes, h1, ?_, ?_⟩
  · have := congrArg List.length h2
    rw [List.length_map, List.length_map] at this
    exact this
  · intro p hp
    rw [hc]
    exact (h3 p hp).1

/-- C101: white space around the key in the signing key file does not matter. -/
theorem C101_white_space (L : Ristretto) (decode : Bytes → Option L.Scalar) (before key after : Bytes)
    (hb : ∀ c ∈ before, byte_space c = true) (ha : ∀ c ∈ after, byte_space c = true)
    (hk : ∀ c ∈ key, byte_space c = false) :
    load_signing_key decode (before ++ key ++ after) = load_signing_key decode key := by
  have h0 := bytes_strip_blank [] key [] (fun _ h => (nomatch h)) (fun _ h => (nomatch h)) hk
  rw [List.nil_append, List.append_nil] at h0
  unfold load_signing_key
  rw [bytes_strip_blank before key after hb ha hk, h0]

/-- C101: a server only comes up if its configuration is complete and its key can be read. -/
theorem C101_starts_iff (L : Ristretto) (decode : Bytes → Option L.Scalar) (files : String → Option Bytes)
    (configuration : Dict String String) :
    (∃ srv, get_storage_server L decode files configuration = .ok srv) ↔
      (∃ url, configuration.lookup "ristretto-issuer-root-url" = some url) ∧
      (∃ v, server_pass_value configuration = .ok v) ∧
      ∃ path content k, configuration.lookup "ristretto-signing-key-path" = some path ∧
        files path = some content ∧ decode (bytes_strip content) = some k := by
  constructor
  · rintro ⟨srv, h⟩
    obtain ⟨url, path, content, k, h1, h2, h3, h4, h5, _⟩ := storage_server_inv L h
    exact ⟨⟨url, h1⟩, ⟨_, h5⟩, path, content, k, h2, h3, h4⟩
  · rintro ⟨⟨url, h1⟩, ⟨v, h2⟩, path, content, k, h3, h4, h5⟩
    unfold get_storage_server load_signing_key
    rw [h1]
    dsimp only
    rw [h2]
    dsimp only
    rw [h3]
    dsimp only
    rw [h4]
    dsimp only
    rw [h5]
    exact ⟨_, rfl⟩

/-- A key file for the toy group: one byte, the key. -/
def toyKey (s : Bytes) : Option toy.Scalar := match s with
  | [b] => some (Fin.ofNat 6 (b.toNat - 48))
  | _ => none

def toyConfiguration : Dict String String :=
  [("ristretto-issuer-root-url", "https://issuer/"), ("ristretto-signing-key-path", "/key"), ("pass-value", "10")]

/-- The file ends with a line feed. -/
def toyFiles : String → Option Bytes := fun p => if p = "/key" then some [51, 10] else none

example : ∃ srv, get_storage_server toy toyKey toyFiles toyConfiguration = .ok srv ∧
    srv.public_keys = [toy.points.encode (toy.public_key (3 : Fin 6))] ∧ srv.config.pass_value = 10 ∧
    srv.announcement = [("ristretto-issuer-root-url", "https://issuer/")] := by
  obtain ⟨srv, h⟩ := (C101_starts_iff toy toyKey toyFiles toyConfiguration).mpr
    ⟨⟨"https://issuer/", by decide +kernel⟩, ⟨10, by decide +kernel⟩, "/key", [51, 10], (3 : Fin 6), by decide +kernel⟩
  obtain ⟨url, path, content, k, h1, h2, h3, h4, h5, h6, h7, _⟩ := storage_server_inv toy h
  have e1 : toyConfiguration.lookup "ristretto-issuer-root-url" = some "https://issuer/" := by decide +kernel
  have e2 : toyConfiguration.lookup "ristretto-signing-key-path" = some "/key" := by decide +kernel
  have e5 : server_pass_value toyConfiguration = .ok 10 := by decide +kernel
  rw [e1] at h1; cases h1
  rw [e2] at h2; cases h2
  rw [show toyFiles "/key" = some [51, 10] by decide +kernel] at h3; cases h3
  rw [show toyKey (bytes_strip [51, 10]) = some (3 : Fin 6) by decide +kernel] at h4; cases h4
  rw [e5] at h5
  exact ⟨srv, h, h7, (Except.ok.inj h5).symm, h6⟩

/-! ### C102: the value of a pass -/

/-- C102 in full: a client that can use a server counts passes with that server's pass value. -/
def C102_statement : Prop :=
  ∀ (L : Ristretto) (decode : Bytes → Option L.Scalar) (files : String → Option Bytes)
    (configuration : Dict String String) (srv : AnnouncedServer) (c : NodeConfig) (client : StorageClient),
    get_storage_server L decode files configuration = .ok srv →
    get_storage_client c srv.announcement = .ok client → client.pass_value = srv.config.pass_value

/-- C102 fails: the value is configured on both sides, and not announced. -/
theorem C102_not_announced_fails : ¬ C102_statement := by
  intro h
  obtain ⟨srv, hs⟩ := (C101_starts_iff toy toyKey toyFiles toyConfiguration).mpr
    ⟨⟨"https://issuer/", by decide +kernel⟩, ⟨10, by decide +kernel⟩, "/key", [51, 10], (3 : Fin 6), by decide +kernel⟩
  obtain ⟨url, path, content, k, h1, h2, h3, h4, h5, h6, _⟩ := storage_server_inv toy hs
  have e1 : toyConfiguration.lookup "ristretto-issuer-root-url" = some "https://issuer/" := by decide +kernel
  rw [e1] at h1; cases h1
  have e5 : server_pass_value toyConfiguration = .ok 10 := by decide +kernel
  rw [e5] at h5
  have hc : get_storage_client exNode srv.announcement = .ok ⟨1048576, .ristretto "https://issuer/"⟩ := by
    rw [h6]; decide +kernel
  have := h toy toyKey toyFiles toyConfiguration srv exNode _ hs hc
  rw [← Except.ok.inj h5] at this
  exact absurd this (by decide)

/-- C102, what holds: if both have the same `pass-value` item, or neither has one, the values agree. -/
theorem C102_same_item_partial (L : Ristretto) (decode : Bytes → Option L.Scalar) (files : String → Option Bytes)
    (configuration : Dict String String) (srv : AnnouncedServer) (c : NodeConfig) (client : StorageClient)
    (hs : get_storage_server L decode files configuration = .ok srv)
    (hc : get_storage_client c srv.announcement = .ok client)
    (same : c.option client_section "pass-value" = configuration.lookup "pass-value") :
    client.pass_value = srv.config.pass_value := by
  obtain ⟨_, _, _, _, _, _, _, _, hv, _⟩ := storage_server_inv L hs
  unfold get_storage_client at hc
  split at hc
  · exact nomatch hc
  · split at hc
    · exact nomatch hc
    · rename_i v hv'
      cases hc
      dsimp only
      unfold get_configured_pass_value NodeConfig.get_int at hv'
      unfold server_pass_value at hv
      rw [same] at hv'
      rw [hv'] at hv
      exact Except.ok.inj hv

end ZKAP
