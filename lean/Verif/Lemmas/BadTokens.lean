import Verif.Lemmas.Conversation
import Verif.Spec.BadTokens

namespace ZKAP
open Spec

/-- What is known of a token: passes made from it are well-formed, and are accepted if it is good. -/
def Kind (sign : Signer) (cfg : ServerConfig) (good : String → Prop) (x : String) : Prop :=
  ∀ message p, MadeFor sign message x p → Pass.from_bytes p.pass_bytes = .ok p ∧ (cfg.verifies message p = true ↔ good x)

theorem group_parses {sign : Signer} {cfg : ServerConfig} {good : String → Prop} {g : PassGroup}
    (hm : GroupMade sign g) (hk : ∀ x ∈ g.unblinded_tokens, Kind sign cfg good x) :
    Parses (g.passes.map Pass.pass_bytes) g.passes ∧ (∀ b ∈ g.passes.map Pass.pass_bytes, b.length = 177) ∧
      ∀ x p, (x, p) ∈ g.tokens → (cfg.verifies g.message p = true ↔ good x) := by
  have key : ∀ x p, (x, p) ∈ g.tokens →
      Pass.from_bytes p.pass_bytes = .ok p ∧ (cfg.verifies g.message p = true ↔ good x) := fun x p hxp =>
    hk x (List.mem_map_of_mem (f := Prod.fst) hxp) _ _ (hm x p hxp)
  refine ⟨?_, ?_, fun x p h => (key x p h).2⟩
  · unfold Parses
    rw [List.map_map]
    apply List.map_congr_left
    intro p hp
    obtain ⟨xp, hxp, rfl⟩ := List.mem_map.mp hp
    exact (key _ _ hxp).1
  · intro b hb
    obtain ⟨p, hp, rfl⟩ := List.mem_map.mp hb
    obtain ⟨xp, hxp, rfl⟩ := List.mem_map.mp hp
    obtain ⟨-, h2, h3⟩ := C13_parse_sound _ _ (key _ _ hxp).1
    unfold Pass.pass_bytes
    rw [List.length_append, List.length_cons, h2, h3]

/-- What the server did for the passes of a group. -/
structure Performed (cfg : ServerConfig) (op : StorageOp) (g : PassGroup) (s s' : Server) (w : Wire) (r : OpResult)
    (k : Nat) (records : List Bytes) : Prop where
  result : paid_result w op = .ok (r, k)
  spent : s'.spent = s.spent ++ records
  upload : ∀ si renew cancel nums size canary, op = .allocateBuckets si renew cancel nums size canary →
    (records.length : Int) = total cfg.pass_value (List.replicate k (size : Int)) ∧
      records.length ≤ g.tokens.length ∧ s'.writers.length = s.writers.length + k
  other : (∀ si renew cancel nums size canary, op ≠ .allocateBuckets si renew cancel nums size canary) →
    records.length = g.tokens.length

/-- At this moment the server performs the operation for this many good passes, and points out the bad ones. -/
structure Serves (cfg : ServerConfig) (op : StorageOp) (n : Int) (m : Moment) (s : Server) : Prop where
  good : ∀ g : PassGroup, GoodGroup cfg g → g.message = op.message → (g.tokens.length : Int) = n →
    ∃ s' w r k records, server_reply cfg m s (op.request (g.passes.map Pass.pass_bytes)) = (s', .result w) ∧
      Performed cfg op g s s' w r k records
  bad : ∀ g : PassGroup, Parses (g.passes.map Pass.pass_bytes) g.passes → g.message = op.message →
    (g.tokens.length : Int) = n → (∃ p ∈ g.passes, cfg.verifies g.message p = false) →
    ∃ failed, FailedPositions (cfg.verifies g.message) g.passes failed ∧
      server_reply cfg m s (op.request (g.passes.map Pass.pass_bytes)) = (s, .morePassesRequired failed)

/-- It does so at all of these moments. -/
def ServesAll (cfg : ServerConfig) (op : StorageOp) (n : Int) : Server → List Moment → Prop
  | _, [] => True
  | s, m :: ms => Serves cfg op n m (s.run cfg m.others) ∧ ServesAll cfg op n (s.run cfg m.others) ms

theorem valid_lt {ok : Pass → Bool} {ps : List Pass} (h : ∃ p ∈ ps, ok p = false) : validCount ok ps < ps.length := by
  unfold validCount
  obtain ⟨p, hp, hok⟩ := h
  have h1 := List.length_filter_le ok ps
  rcases Nat.lt_or_ge (ps.filter ok).length ps.length with h2 | h2
  · exact h2
  · have := List.length_filter_eq_length_iff.mp (Nat.le_antisymm h1 h2) p hp
    rw [hok] at this
    exact nomatch this

theorem passes_length (g : PassGroup) : g.passes.length = g.tokens.length := by
  unfold PassGroup.passes; rw [List.length_map]

theorem serves_allocate {cfg : ServerConfig} (hv : 0 < cfg.pass_value) (m : Moment) (s : Server)
    {si renew cancel : Bytes} {nums : List Nat} {size canary : Nat} :
    Serves cfg (.allocateBuckets si renew cancel nums size canary)
      (total cfg.pass_value (List.replicate nums.length (size : Int))) m s := by
  constructor
  · intro g hg hm hl
    obtain ⟨s', w, r, k, records, h1, h2, h3, h4, h5, h6⟩ := reply_allocate hv m s (renew := renew) (cancel := cancel)
      (canary := canary) hg hm hl
    exact ⟨s', w, r, k, records, h1, h2, h4, fun _ _ _ _ _ _ e => by cases e; exact ⟨h5, h6, h3⟩,
      fun hne => absurd rfl (hne _ _ _ _ _ _)⟩
  · intro g hg hm hl hbad
    have hlt := valid_lt hbad
    rw [hm] at hlt ⊢
    rw [passes_length] at hlt
    rw [total_replicate] at hl
    obtain ⟨failed, h1, h2⟩ := allocate_refused cfg hv ⟨g.passes.map Pass.pass_bytes, si, renew, nums, size, canary,
      m.server_now, m.room⟩ s g.passes hg (by
        dsimp only
        rw [← hl]
        exact Int.ofNat_lt.mpr hlt)
    refine ⟨failed, h1, ?_⟩
    dsimp only [StorageOp.request, server_reply]
    rw [h2]
    rfl

theorem serves_add_lease {cfg : ServerConfig} (hv : 0 < cfg.pass_value) (m : Moment) (s : Server)
    {si renew cancel : Bytes} (hb : Dict.WF (s.buckets si)) (hroom : ∀ n, m.room n = true) :
    Serves cfg (.addLease si renew cancel) (bucketPrice cfg.pass_value (s.buckets si)) m s := by
  constructor
  · intro g hg hm hl
    obtain ⟨s', w, r, k, records, h1, h2, h3, h4⟩ := reply_add_lease hv m s (renew := renew) (cancel := cancel)
      hg hm hb hroom (by rw [hl]; exact Int.le_refl _)
    exact ⟨s', w, r, k, records, h1, h2, h3, fun _ _ _ _ _ _ e => (nomatch e), fun _ => h4⟩
  · intro g hg hm hl hbad
    have hlt := valid_lt hbad
    rw [hm] at hlt ⊢
    rw [passes_length] at hlt
    obtain ⟨failed, h1, h2⟩ := add_lease_refused cfg hv ⟨g.passes.map Pass.pass_bytes, si, renew, m.server_now, m.room⟩
      s hb g.passes hg (by
        dsimp only
        rw [← hl]
        exact Int.ofNat_lt.mpr hlt)
    refine ⟨failed, h1, ?_⟩
    dsimp only [StorageOp.request, server_reply]
    rw [h2]
    rfl

theorem serves_writev {cfg : ServerConfig} (hv : 0 < cfg.pass_value) (m : Moment) (s : Server)
    {si : Bytes} {secrets : Bytes × Bytes × Bytes} {tw : TWVectors} {rv : List (Nat × Nat)}
    (hb : Dict.WF (s.buckets si)) (htw : Dict.WF tw) (hnl : ∀ kv ∈ tw, kv.2.new_length = none)
    (hroom : ∀ n, m.room n = true)
    (hkind : ∀ kv ∈ s.buckets si, kv.2.is_mutable = true ∧ kv.2.write_enabler = secrets.1) :
    Serves cfg (.writev si secrets tw rv) (writePrice cfg.pass_value (s.buckets si) m.server_now tw) m s := by
  constructor
  · intro g hg hm hl
    obtain ⟨s', w, r, k, records, h1, h2, h3, h4⟩ := reply_writev hv m s (secrets := secrets) (rv := rv)
      hg hm hb htw hnl hroom hkind (by rw [hl]; exact Int.le_refl _)
    exact ⟨s', w, r, k, records, h1, h2, h3, fun _ _ _ _ _ _ e => (nomatch e), fun _ => h4⟩
  · intro g hg hm hl hbad
    have hlt := valid_lt hbad
    rw [hm] at hlt ⊢
    rw [passes_length] at hlt
    obtain ⟨failed, h1, h2⟩ := writev_refused cfg hv ⟨g.passes.map Pass.pass_bytes, si, secrets.1, secrets.2.1, tw, rv,
      m.server_now, m.room⟩ s hb htw hnl g.passes hg (by
        dsimp only
        rw [← hl]
        exact Int.ofNat_lt.mpr hlt)
    refine ⟨failed, h1, ?_⟩
    dsimp only [StorageOp.request, server_reply]
    rw [h2]
    rfl

/-! ### The client's next try -/

theorem filter_both {α} (f : α → Bool) (l : List α) :
    (l.filter f).length + (l.filter fun x => !f x).length = l.length := by
  induction l with
  | nil => rfl
  | cons x l ih =>
    rw [List.filter_cons, List.filter_cons]
    cases f x <;> simp <;> omega

theorem passes_at (g : PassGroup) (i : Nat) : g.passes[i]? = (g.tokens[i]?).map Prod.snd := by
  unfold PassGroup.passes; rw [List.getElem?_map]

theorem available_iff {t : Tables} {held : List String} (h : Held t held) (x : String) :
    Available t x ↔ StoredIn t.app true x ∧ x ∉ held :=
  and_congr Iff.rfl (not_congr h.perm.mem_iff)

/-- The group of the next try, after these tokens were pointed out. -/
structure NextTry (sign : Signer) (good : String → Prop) (held : List String) (t : Tables) (g : PassGroup)
    (R : List String) (g' : PassGroup) (t' : Tables) : Prop where
  message : g'.message = g.message
  length : g'.tokens.length = g.tokens.length
  made : GroupMade sign g'
  held : Held t' (held ++ g'.unblinded_tokens)
  app : t'.app = { t.app with unblinded := t.app.unblinded.filter (·.token ∉ R), invalid := t.app.invalid ++ R.map (fun x => ⟨x, "signature check failed"⟩) }
  from_before : ∀ x ∈ g'.unblinded_tokens, x ∈ g.unblinded_tokens ∨ Available t x
  available : ∀ x, Available t' x → Available t x
  kept : ∀ x ∈ g.unblinded_tokens, good x → x ∈ g'.unblinded_tokens
  left : ∀ x, Available t x → Available t' x ∨ x ∈ g'.unblinded_tokens
  some : R ≠ []
  nodup : R.Nodup
  rejected : ∀ x ∈ R, x ∈ g.unblinded_tokens ∧ ¬ good x ∧ x ∉ g'.unblinded_tokens ∧ ¬ Available t' x

theorem rejected_goes_on {sign : Signer} (hs : Signs sign) {good : String → Prop} {ok : Pass → Bool} {t : Tables}
    {held : List String} {g : PassGroup} (h : Held t (held ++ g.unblinded_tokens)) (hm : GroupMade sign g)
    {n : Int} (hl : (g.tokens.length : Int) = n) (hn : n ≤ 2 ^ 20)
    (hok : ∀ x p, (x, p) ∈ g.tokens → (ok p = true ↔ good x)) {failed : List Nat}
    (hf : FailedPositions ok g.passes failed) (hbad : ∃ p ∈ g.passes, ok p = false)
    {G : List String} (hG : G.Nodup) (hGg : ∀ x ∈ G, good x ∧ (x ∈ g.unblinded_tokens ∨ Available t x))
    (hGn : n ≤ G.length) (o : Order) (k : OnSuccess) :
    ∃ R g' t', call_answer sign o k n g (.rejected failed) t = (.waiting g', t') ∧ NextTry sign good held t g R g' t' := by
  have hne : failed ≠ [] := by
    obtain ⟨p, hp, hpf⟩ := hbad
    obtain ⟨i, hi⟩ := List.getElem?_of_mem hp
    exact List.ne_nil_of_mem ((hf.2 i).mpr ⟨p, hi, hpf⟩)
  obtain ⟨okay, hokay⟩ : ∃ l, l = atPositions (fun i => !failed.contains i) g.tokens := ⟨_, rfl⟩
  obtain ⟨R, hR⟩ : ∃ l, l = (atPositions failed.contains g.tokens).map Prod.fst := ⟨_, rfl⟩
  -- the tokens of the group
  have hRok : ∀ x, x ∈ R → x ∈ g.unblinded_tokens ∧ ¬ good x := by
    intro x hx
    rw [hR] at hx
    obtain ⟨⟨y, p⟩, hyp, rfl⟩ := List.mem_map.mp hx
    obtain ⟨i, hi, hc⟩ := (mem_atPositions _ _ _).mp hyp
    have hmem := List.mem_of_getElem? hi
    refine ⟨List.mem_map_of_mem (f := Prod.fst) hmem, fun hgood => ?_⟩
    obtain ⟨p', hp', hf'⟩ := (hf.2 i).mp (List.contains_iff_mem.mp hc)
    rw [passes_at, hi] at hp'
    cases hp'
    rw [(hok y p hmem).mpr hgood] at hf'
    exact nomatch hf'
  have hkept : ∀ x ∈ g.unblinded_tokens, good x → x ∈ okay.map Prod.fst := by
    intro x hx hgood
    obtain ⟨⟨y, p⟩, hyp, rfl⟩ := List.mem_map.mp hx
    obtain ⟨i, hi⟩ := List.getElem?_of_mem hyp
    rw [hokay]
    refine List.mem_map_of_mem (f := Prod.fst) ((mem_atPositions _ _ _).mpr ⟨i, hi, ?_⟩)
    rw [Bool.not_eq_true', ← Bool.not_eq_true]
    intro hc
    obtain ⟨p', hp', hf'⟩ := (hf.2 i).mp (List.contains_iff_mem.mp hc)
    rw [passes_at, hi] at hp'
    cases hp'
    rw [(hok y p hyp).mpr hgood] at hf'
    exact nomatch hf'
  have hperm : (R ++ okay.map Prod.fst).Perm g.unblinded_tokens := by
    have := split_unblinded_perm g failed.contains
    obtain ⟨h1, h2⟩ := split_tokens g failed.contains
    rw [h1, h2] at this
    rw [hR, hokay]
    exact this
  have hRne : R ≠ [] := by
    obtain ⟨p, hp, hpf⟩ := hbad
    obtain ⟨i, hi⟩ := List.getElem?_of_mem hp
    have hif := (hf.2 i).mpr ⟨p, hi, hpf⟩
    rw [passes_at] at hi
    obtain ⟨xp, hxp, -⟩ := Option.map_eq_some_iff.mp hi
    rw [hR]
    exact List.ne_nil_of_mem (List.mem_map_of_mem (f := Prod.fst)
      ((mem_atPositions _ _ _).mpr ⟨i, hxp, List.contains_iff_mem.mpr hif⟩))
  have hnd : g.unblinded_tokens.Nodup := (List.nodup_append.mp h.nodup).2.1
  have hdis : ∀ x ∈ R, x ∉ okay.map Prod.fst := fun x hx hx' =>
    (List.nodup_append.mp (hperm.nodup_iff.mpr hnd)).2.2 x hx x hx' rfl
  have hRnd : R.Nodup := (List.nodup_append.mp (hperm.nodup_iff.mpr hnd)).1
  have hokl : okay.length ≤ g.tokens.length := by
    rw [hokay]; exact (atPositions_sublist _ _).length_le
  -- the store without them
  have hsp := held_split (a := held) (b := []) failed.contains (by simpa using h)
  obtain ⟨t1, h1, h2, h3⟩ := invalidate_held "signature check failed" hsp
  obtain ⟨g1, g2⟩ := split_tokens g failed.contains
  rw [g1] at h1 h2
  rw [g2, List.append_nil] at h3
  have hu1 : PassGroup.unblinded_tokens ⟨g.message, atPositions failed.contains g.tokens⟩ = R := by rw [hR]; rfl
  have hu2 : PassGroup.unblinded_tokens ⟨g.message, atPositions (fun i => !failed.contains i) g.tokens⟩ =
      okay.map Prod.fst := by rw [hokay]; rfl
  rw [hu1] at h1 h2
  rw [hu2] at h3
  have hstored : ∀ x, StoredIn t1.app true x ↔ StoredIn t.app true x ∧ x ∉ R := by
    intro x
    unfold StoredIn
    rw [h2]
    dsimp only
    constructor
    · rintro ⟨r, hr, rfl, hg⟩
      obtain ⟨ha, hb⟩ := List.mem_filter.mp hr
      exact ⟨⟨r, ha, rfl, hg⟩, of_decide_eq_true hb⟩
    · rintro ⟨⟨r, hr, rfl, hg⟩, hx⟩
      exact ⟨r, List.mem_filter.mpr ⟨hr, decide_eq_true hx⟩, rfl, hg⟩
  have hav : ∀ x, Available t1 x ↔ Available t x := by
    intro x
    rw [available_iff h3, available_iff h, hstored, List.mem_append, List.mem_append, ← hperm.mem_iff, List.mem_append]
    constructor
    · rintro ⟨⟨ha, hb⟩, hc⟩
      exact ⟨ha, fun hx => hx.elim (fun hx => hc (.inl hx)) fun hx => hx.elim hb fun hx => hc (.inr hx)⟩
    · rintro ⟨ha, hb⟩
      exact ⟨⟨ha, fun hx => hb (.inr (.inl hx))⟩, fun hx => hb (hx.elim .inl fun hx => .inr (.inr hx))⟩
  -- enough is left
  have haff : Affords t1 (n - okay.length) := by
    refine ⟨G.filter (· ∉ okay.map Prod.fst), hG.filter _, ?_, ?_⟩
    · intro x hx
      obtain ⟨ha, hb⟩ := List.mem_filter.mp hx
      rw [hav]
      rcases (hGg x ha).2 with hc | hc
      · exact absurd (hkept x hc (hGg x ha).1) (of_decide_eq_true hb)
      · exact hc
    · have hle : (G.filter (· ∈ okay.map Prod.fst)).length ≤ (okay.map Prod.fst).length :=
        nodup_subset_length (hG.filter _) fun x hx => of_decide_eq_true (List.mem_filter.mp hx).2
      have hsum := filter_both (fun x => decide (x ∈ okay.map Prod.fst)) G
      have heq : G.filter (fun x => !decide (x ∈ okay.map Prod.fst)) = G.filter (· ∉ okay.map Prod.fst) := by
        apply List.filter_congr
        intro x _
        rw [decide_not]
      rw [heq] at hsum
      rw [List.length_map] at hle
      omega
  obtain ⟨more, t2, he, k2, km, kn, ka, kh⟩ := get_affords hs h3 o g.message (n := n - okay.length) (by omega) (by omega) haff
  have hcall : call_answer sign o k n g (.rejected failed) t = (.waiting ⟨g.message, okay ++ more.tokens⟩, t2) := by
    unfold call_answer invalidate_rejected_passes
    have hlen : ¬ failed.length = 0 := fun h0 => hne (List.length_eq_zero_iff.mp h0)
    dsimp only
    rw [if_neg hlen]
    dsimp only [PassGroup.mark_invalid]
    rw [g1, g2, hu1, h1, ← hokay]
    dsimp only
    rw [passes_length]
    dsimp only [PassGroup.expand]
    rw [he]
    dsimp only [PassGroup.add]
    rw [zip_unblinded]
  have hun : PassGroup.unblinded_tokens ⟨g.message, okay ++ more.tokens⟩ = okay.map Prod.fst ++ more.unblinded_tokens := by
    unfold PassGroup.unblinded_tokens
    rw [List.map_append]
  have hheld : Held t2 (held ++ PassGroup.unblinded_tokens ⟨g.message, okay ++ more.tokens⟩) := by
    rw [hun, ← List.append_assoc]; exact kh
  have hst2 : ∀ x, StoredIn t2.app true x ↔ StoredIn t1.app true x := fun x => by rw [k2]
  refine ⟨R, _, t2, hcall, rfl, ?_, (answer_made hcall hm).1, hheld, ?_, ?_, ?_, ?_, ?_, hRne, hRnd, ?_⟩
  · dsimp only
    rw [List.length_append]
    omega
  · rw [k2, h2]
  · intro x hx
    rw [hun] at hx
    rcases List.mem_append.mp hx with hx | hx
    · exact .inl (hperm.mem_iff.mp (List.mem_append_right _ hx))
    · exact .inr ((hav x).mp (ka x hx))
  · intro x hx
    rw [available_iff hheld, hun, hst2] at hx
    rw [← hav, available_iff h3]
    exact ⟨hx.1, fun hm => hx.2 (by
      rw [← List.append_assoc]; exact List.mem_append_left _ hm)⟩
  · intro x hx hgood
    rw [hun]
    exact List.mem_append_left _ (hkept x hx hgood)
  · intro x hx
    by_cases hmore : x ∈ PassGroup.unblinded_tokens ⟨g.message, okay ++ more.tokens⟩
    · exact .inr hmore
    · refine .inl ?_
      rw [available_iff hheld, hst2]
      rw [← hav, available_iff h3] at hx
      refine ⟨hx.1, fun hc => ?_⟩
      rcases List.mem_append.mp hc with hc | hc
      · exact hx.2 (List.mem_append_left _ hc)
      · exact hmore hc
  · intro x hx
    obtain ⟨ha, hb⟩ := hRok x hx
    have hnot : ¬ StoredIn t1.app true x := fun hc => ((hstored x).mp hc).2 hx
    refine ⟨ha, hb, fun hc => ?_, fun hc => hnot ((hst2 x).mp hc.1)⟩
    rw [hun] at hc
    rcases List.mem_append.mp hc with hc | hc
    · exact hdis x hx hc
    · exact hnot (ka x hc).1

theorem turn_again {sign : Signer} {cfg : ServerConfig} {v : Int} {t : Tables} {asked : List StorageOp}
    {paying : List (StorageOp × Call)} {c c' : Call} {log : List Out} {op : StorageOp} {r : StorageRequest}
    {before server : Server} (hr : r.with_passes = true) (m : Moment) {server' : Server} {reply : Reply}
    (hs : server_reply cfg m (server.run cfg m.others) r = (server', reply)) {out : List Out}
    {t' : Tables} (hm : op_paid sign m.order op c reply t = (.paying c', out, t')) :
    Talk.turn sign cfg v ⟨⟨t, asked, paying ++ [(op, c)], log ++ [.sent op r]⟩, before, server⟩ m =
      ⟨⟨t', asked, paying ++ [(op, c')], log ++ [.sent op r] ++ .got op reply m.client_now :: out⟩,
        server.run cfg m.others, server'⟩ := by
  unfold Talk.turn
  dsimp only
  rw [List.getLast?_concat]
  dsimp only
  rw [hs, hr]
  dsimp only [StorageSession.step]
  rw [if_pos rfl]
  have hi : (paying ++ [(op, c)]).length - 1 = paying.length := by simp
  rw [hi]
  dsimp only
  rw [List.getElem?_concat_length]
  dsimp only
  rw [hm]
  dsimp only
  rw [List.take_left, List.drop_eq_nil_of_le (by simp), List.append_nil]
  simp only [still_paying]

theorem turns_over {sign : Signer} {cfg : ServerConfig} {v : Int} {op : StorageOp} {r : OpResult} (ms : List Moment)
    {k : Talk} (h : k.client.log.getLast? = some (.returned op r)) : ms.foldl (Talk.turn sign cfg v) k = k := by
  induction ms with
  | nil => rfl
  | cons m ms ih => rw [List.foldl_cons, turn_over h m, ih]

/-- The client that tries again. -/
theorem try_again {sign : Signer} {op : StorageOp} (hf : Fits (op.request [])) {v n : Int} (hn : n ≤ 2 ^ 20)
    {cfg : ServerConfig} {good : String → Prop} {g g' : PassGroup} {t t' : Tables} {failed : List Nat} (o : Order)
    (h : call_answer sign o (op.on_success v) n g (.rejected failed) t = (.waiting g', t'))
    (hm : GroupMade sign g') (hl : (g'.tokens.length : Int) = n)
    (hk : ∀ x ∈ g'.unblinded_tokens, Kind sign cfg good x) :
    op_paid sign o op ⟨op.on_success v, n, g⟩ (.morePassesRequired failed) t =
      (.paying ⟨op.on_success v, n, g'⟩, [.sent op (op.request (g'.passes.map Pass.pass_bytes))], t') := by
  unfold op_paid
  dsimp only [Reply.for_call]
  rw [h]
  dsimp only [settle, send_paid]
  rw [(C115_calls_arrive _).1 (fits_paid hf (by
    rw [List.length_map, passes_length]; omega) (group_parses hm hk).2.1)]

theorem keeps_trying {sign : Signer} {cfg : ServerConfig} (hv : 0 < cfg.pass_value) (hs : Signs sign)
    {good : String → Prop} {op : StorageOp} (hf : Fits (op.request []))
    (hwp : ∀ ps, (op.request ps).with_passes = true) {n : Int} (hn : n ≤ 2 ^ 20) {asked : List StorageOp}
    {paying : List (StorageOp × Call)} {held : List String} (ms : List Moment) :
    ∀ {k : Nat} {t : Tables} {g : PassGroup} {log : List Out} {b server : Server}, k < ms.length →
      ServesAll cfg op n server ms → Held t (held ++ g.unblinded_tokens) → GroupMade sign g → g.message = op.message →
      (g.tokens.length : Int) = n → (∀ x ∈ g.unblinded_tokens, Kind sign cfg good x) →
      (∀ x, Available t x → Kind sign cfg good x) →
      (∃ G : List String, G.Nodup ∧ (∀ x ∈ G, good x ∧ (x ∈ g.unblinded_tokens ∨ Available t x)) ∧ n ≤ G.length) →
      (∀ l : List String, l.Nodup → (∀ x ∈ l, ¬ good x ∧ (x ∈ g.unblinded_tokens ∨ Available t x)) → l.length ≤ k) →
      ∃ (t' : Tables) (s0 s' : Server) (w : Wire) (r : OpResult) (k' : Nat) (records : List Bytes) (gl : PassGroup)
        (rejected : List String) (log' : List Out),
        ms.foldl (Talk.turn sign cfg cfg.pass_value)
          ⟨⟨t, asked, paying ++ [(op, ⟨op.on_success cfg.pass_value, n, g⟩)],
            log ++ [.sent op (op.request (g.passes.map Pass.pass_bytes))]⟩, b, server⟩ =
          ⟨⟨t', asked, paying, log'⟩, s0, s'⟩ ∧
        log'.getLast? = some (.returned op r) ∧ Performed cfg op gl s0 s' w r k' records ∧
        (gl.tokens.length : Int) = n ∧ rejected.Nodup ∧
        (∀ x ∈ rejected, ¬ good x ∧ (x ∈ g.unblinded_tokens ∨ Available t x)) ∧
        t'.app.invalid = t.app.invalid ++ rejected.map (fun x => ⟨x, "signature check failed"⟩) ∧
        (storedTokens t).length = (storedTokens t').length + records.length + rejected.length := by
  induction ms with
  | nil => intro k t g log b server hk; exact absurd hk (Nat.not_lt_zero _)
  | cons m ms ih =>
    intro k t g log b server hk hserve hheld hmade hmsg hlen hkg hka hG hbad
    obtain ⟨hsv, hserve⟩ := hserve
    obtain ⟨hpar, h177, hver⟩ := group_parses hmade hkg
    rw [List.foldl_cons]
    by_cases hall : ∀ p ∈ g.passes, cfg.verifies g.message p = true
    · obtain ⟨s', w, r, k', records, h1, h2⟩ := hsv.good g ⟨hpar, hall, h177⟩ hmsg hlen
      obtain ⟨t', h3, h4, h5⟩ := paid_returns (sign := sign) (n := n) hv hheld m.order h2.result
        (fun si renew cancel nums size canary e => ⟨(h2.upload _ _ _ _ _ _ e).1, (h2.upload _ _ _ _ _ _ e).2.1⟩) h2.other
      have hturn := turn_paid (v := cfg.pass_value) (asked := asked) (paying := paying) (log := log) (before := b) (hwp _) m h1 h3
      have hlast : (log ++ [Out.sent op (op.request (g.passes.map Pass.pass_bytes))] ++
          Out.got op (.result w) m.client_now :: [.returned op r]).getLast? = some (.returned op r) := by
        rw [List.append_cons (bs := [Out.returned op r]), List.getLast?_concat]
      rw [hturn, turns_over ms (by exact hlast)]
      refine ⟨t', _, _, w, r, k', records, g, [], _, ?_, hlast, h2, hlen, List.nodup_nil, fun _ h => (nomatch h), ?_, ?_⟩
      · rfl
      · rw [h5, List.map_nil, List.append_nil]
      · rw [List.length_nil]; omega
    · have hsome : ∃ p ∈ g.passes, cfg.verifies g.message p = false := by
        apply Classical.byContradiction
        intro hno
        apply hall
        intro p hp
        cases hb : cfg.verifies g.message p with
        | true => rfl
        | false => exact absurd ⟨p, hp, hb⟩ hno
      obtain ⟨failed, h1, h2⟩ := hsv.bad g hpar hmsg hlen hsome
      obtain ⟨G, hG1, hG2, hG3⟩ := hG
      obtain ⟨R, g', t', h3, h4⟩ := rejected_goes_on hs (ok := cfg.verifies g.message) hheld hmade hlen hn hver h1 hsome
        hG1 hG2 hG3 m.order (op.on_success cfg.pass_value)
      have hlen' : (g'.tokens.length : Int) = n := by rw [h4.length]; exact hlen
      have hkg' : ∀ x ∈ g'.unblinded_tokens, Kind sign cfg good x := fun x hx =>
        (h4.from_before x hx).elim (hkg x) (hka x)
      have h5 := try_again hf hn m.order h3 h4.made hlen' hkg'
      have hturn := turn_again (v := cfg.pass_value) (asked := asked) (paying := paying) (log := log) (before := b) (hwp _) m h2 h5
      rw [List.append_cons (bs := [Out.sent op _])] at hturn
      rw [hturn]
      have hRpos : 1 ≤ R.length := List.length_pos_iff.mpr h4.some
      have hRk : R.length ≤ k := hbad R h4.nodup fun x hx => ⟨(h4.rejected x hx).2.1, .inl (h4.rejected x hx).1⟩
      have hbad' : ∀ l : List String, l.Nodup →
          (∀ x ∈ l, ¬ good x ∧ (x ∈ g'.unblinded_tokens ∨ Available t' x)) → l.length ≤ k - 1 := by
        intro l hl hx
        have := hbad (R ++ l) (List.nodup_append.mpr ⟨h4.nodup, hl, fun a ha b hb e => by
            subst e
            rcases (hx a hb).2 with h | h
            · exact (h4.rejected a ha).2.2.1 h
            · exact (h4.rejected a ha).2.2.2 h⟩) (by
          intro x hxm
          rcases List.mem_append.mp hxm with hm | hm
          · exact ⟨(h4.rejected x hm).2.1, .inl (h4.rejected x hm).1⟩
          · exact ⟨(hx x hm).1, (hx x hm).2.elim (h4.from_before x) fun h => .inr (h4.available x h)⟩)
        rw [List.length_append] at this
        omega
      obtain ⟨t2, s0, s', w, r, k', records, gl, rejected, log', e1, e2, e3, e4, e5, e6, e7, e8⟩ :=
        ih (k := k - 1) (b := server.run cfg m.others) (by rw [List.length_cons] at hk; omega) hserve h4.held h4.made
          (h4.message.trans hmsg) hlen' hkg'
          (fun x hx => hka x (h4.available x hx))
          ⟨G, hG1, fun x hx => ⟨(hG2 x hx).1, (hG2 x hx).2.elim (fun h => .inl (h4.kept x h (hG2 x hx).1))
            fun h => (h4.left x h).symm⟩, hG3⟩ hbad'
      refine ⟨t2, s0, s', w, r, k', records, gl, R ++ rejected, log', e1, e2, e3, e4, ?_, ?_, ?_, ?_⟩
      · refine List.nodup_append.mpr ⟨h4.nodup, e5, fun a ha b hb e => ?_⟩
        subst e
        rcases (e6 a hb).2 with h | h
        · exact (h4.rejected a ha).2.2.1 h
        · exact (h4.rejected a ha).2.2.2 h
      · intro x hx
        rcases List.mem_append.mp hx with hm | hm
        · exact ⟨(h4.rejected x hm).2.1, .inl (h4.rejected x hm).1⟩
        · exact ⟨(e6 x hm).1, (e6 x hm).2.elim (h4.from_before x) fun h => .inr (h4.available x h)⟩
      · rw [e7, h4.app, List.map_append, List.append_assoc]
      · have hst : storedTokens t' = (storedTokens t).filter (· ∉ R) := by
          unfold storedTokens
          rw [h4.app, List.filter_map]
          rfl
        have := filter_gone_length (l := storedTokens t) hheld.wf.unblinded h4.nodup fun x hx => by
          obtain ⟨r, hr, hrx, -⟩ := hheld.wf.in_use_stored x
            (hheld.mem (List.mem_append_right _ (h4.rejected x hx).1))
          exact List.mem_map.mpr ⟨r, hr, hrx⟩
        rw [← hst] at this
        rw [List.length_append]
        omega

end ZKAP
