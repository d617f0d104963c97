import Verif.Spec.Plugin
import Verif.Lemmas.Spending
import Verif.Lemmas.Ristretto
import Verif.Lemmas.ServerOps

/-! The client with the real signer. -/
namespace ZKAP
open Spec

theorem try_map_get {α β ε} {f : α → Except ε β} {l : List α} {r : List β} (h : try_map f l = .ok r)
    {i : Nat} {x : α} (hx : l[i]? = some x) : ∃ y, r[i]? = some y ∧ f x = .ok y := by
  induction l generalizing r i with
  | nil => exact nomatch hx
  | cons a l ih =>
    unfold try_map at h
    cases ha : f a with
    | error e => rw [ha] at h; exact nomatch h
    | ok b =>
      rw [ha] at h
      cases hl : try_map f l with
      | error e => rw [hl] at h; exact nomatch h
      | ok bs =>
        rw [hl] at h
        cases h
        cases i with
        | zero =>
          simp only [List.getElem?_cons_zero, Option.some.injEq] at hx
          exact ⟨b, rfl, hx ▸ ha⟩
        | succ i =>
          rw [List.getElem?_cons_succ] at hx
          obtain ⟨y, hy, hf⟩ := ih hl hx
          exact ⟨y, by rw [List.getElem?_cons_succ]; exact hy, hf⟩

/-- Passes are made one by one. -/
theorem tokens_to_passes_get (L : Ristretto) {m : Bytes} {us : List Bytes} {ps : List Pass}
    (h : tokens_to_passes L m us = .ok ps) :
    ps.length = us.length ∧ ∀ (i : Nat) (u : Bytes), us[i]? = some u → ∃ b p, L.unblinded_tokens.decode u = some b ∧
      ps[i]? = some p ∧
      Pass.new (L.preimages.encode b.1) (L.signatures.encode (L.sign (L.derive b.1 b.2) m)) = .ok p := by
  unfold tokens_to_passes at h
  cases hb : try_map L.unblinded_tokens.decode_base64 us with
  | error e => rw [hb] at h; exact nomatch h
  | ok basic =>
    rw [hb] at h
    simp only [List.map_map] at h
    rw [zip_map_map, try_map_map] at h
    have l1 := try_map_ok hb
    have l2 := try_map_ok h
    refine ⟨l2.trans l1, ?_⟩
    intro i u hu
    obtain ⟨b, hib, hd⟩ := try_map_get hb hu
    obtain ⟨p, hip, hp⟩ := try_map_get h hib
    refine ⟨b, p, ?_, hip, ?_⟩
    · unfold Codec.decode_base64 at hd
      split at hd
      · rename_i x hx; cases hd; exact hx
      · exact nomatch hd
    · dsimp only at hp
      split at hp
      · exact nomatch hp
      · rename_i q hq
        cases hp
        exact hq

theorem zip_unzip {α β} (l : List (α × β)) : (l.map Prod.fst).zip (l.map Prod.snd) = l := by
  induction l with
  | nil => rfl
  | cons x xs ih => rw [List.map_cons, List.map_cons, List.zip_cons_cons, ih]

/-- The passes of a group are those of its tokens. -/
def GroupOk (L : Ristretto) (g : PassGroup) : Prop :=
  ∀ x p, (x, p) ∈ g.tokens → ∀ k t, ascii x = L.unblinded_tokens.encode (t, L.smul k (L.hash t)) →
    p = passOf L g.message k t

theorem signed_ok (L : Ristretto) (hL : Lawful L) {m : Bytes} {ts : List String} {ps : List Pass}
    (h : ristretto_signer L m ts = .ok ps) : ps.length = ts.length ∧ GroupOk L ⟨m, ts.zip ps⟩ := by
  unfold ristretto_signer at h
  cases hp : tokens_to_passes L m (ts.map ascii) with
  | error e => rw [hp] at h; exact nomatch h
  | ok ps' =>
    rw [hp] at h
    cases h
    obtain ⟨hl, hg⟩ := tokens_to_passes_get L hp
    refine ⟨by rw [hl, List.length_map], ?_⟩
    intro x p hxp k t hx
    obtain ⟨i, hi⟩ := List.getElem?_of_mem hxp
    rw [List.getElem?_zip_eq_some] at hi
    obtain ⟨hi1, hi2⟩ := hi
    obtain ⟨b, q, hb, hq, hn⟩ := hg i (ascii x) (by rw [List.getElem?_map]; simp only [] at hi1; rw [hi1]; rfl)
    rw [hx, hL.unblinded_tokens] at hb
    cases hb
    simp only [] at hi2
    rw [hi2] at hq
    cases hq
    rw [show Pass.new _ _ = _ from passOf_new L hL m k t] at hn
    exact (Except.ok.inj hn).symm

theorem get_invalid (sign : Signer) (o : Order) (m : Bytes) (n : Int) (t : Tables) :
    (spending_get sign o m n t).2.app = t.app := by
  unfold spending_get
  rw [getTokens_eq]
  by_cases h1 : n > SQLITE3_INTEGER_MAX
  · rw [if_pos h1]
  · rw [if_neg h1]
    dsimp only
    by_cases h2 : ((sql_limit n (o.f (select_available t))).length : Int) < n
    · rw [if_pos h2]
    · rw [if_neg h2]
      by_cases h3 : (sql_limit n (o.f (select_available t))).Nodup ∧
        ∀ x ∈ sql_limit n (o.f (select_available t)), x ∉ t.temp.in_use
      · rw [if_pos h3]
        dsimp only
        cases sign m (sql_limit n (o.f (select_available t))) <;> rfl
      · rw [if_neg h3]

theorem get_group (L : Ristretto) (hL : Lawful L) {o : Order} {m : Bytes} {n : Int} {t t' : Tables}
    {g : PassGroup} (h : spending_get (ristretto_signer L) o m n t = (.ok g, t')) :
    g.message = m ∧ GroupOk L g ∧ g.unblinded_tokens.zip g.passes = g.tokens := by
  unfold spending_get at h
  split at h
  · exact nomatch h
  · split at h
    · exact nomatch h
    · rename_i ps hs
      cases h
      exact ⟨rfl, (signed_ok L hL hs).2, zip_unzip _⟩

theorem group_split (L : Ristretto) {g : PassGroup} (h : GroupOk L g) (select : Nat → Bool) :
    GroupOk L (g.split select).1 ∧ GroupOk L (g.split select).2 := by
  have hs := split_tokens g select
  have h1 : ∀ s, ∀ y ∈ atPositions s g.tokens, y ∈ g.tokens :=
    fun s y hy => (atPositions_sublist s g.tokens).subset hy
  refine ⟨?_, ?_⟩
  · intro x p hxp
    rw [hs.1] at hxp
    exact h x p (h1 _ _ hxp)
  · intro x p hxp
    rw [hs.2] at hxp
    exact h x p (h1 (fun i => !select i) _ hxp)

theorem group_add (L : Ristretto) {a b : PassGroup} (ha : GroupOk L a) (hb : GroupOk L b)
    (hm : b.message = a.message) : GroupOk L (a.add b) := by
  intro x p hxp k t hx
  unfold PassGroup.add at hxp
  rcases List.mem_append.mp hxp with h | h
  · exact ha x p h k t hx
  · have : b.unblinded_tokens.zip b.passes = b.tokens := zip_unzip _
    rw [this] at h
    have := hb x p h k t hx
    rw [hm] at this
    exact this

theorem give_up_app (g : PassGroup) (e : PyErr) (t : Tables) :
    (give_up g e t).2.app = t.app ∧ ∀ g', (give_up g e t).1 ≠ .waiting g' := by
  unfold give_up PassGroup.reset
  rw [reset_eq]
  exact ⟨rfl, fun g' h => (nomatch h)⟩

theorem success_invalid (s : OnSuccess) (n : Nat) (g : PassGroup) (t : Tables) :
    (s.run n g t).2.app.invalid = t.app.invalid := by
  cases s with
  | spendAll =>
    show (g.mark_spent t).2.app.invalid = _
    unfold PassGroup.mark_spent
    rw [discard_eq]
  | allocate pv size =>
    show (spend_for_allocate_buckets pv size n g t).2.app.invalid = _
    unfold spend_for_allocate_buckets
    split
    · rfl
    · simp only [PassGroup.mark_spent, PassGroup.reset, discard_eq, reset_eq]

/-- What is true of the client at all times. -/
structure GenuineInv (L : Ristretto) (keys : L.Scalar → Prop) (w : Client) : Prop where
  groups : ∀ c ∈ w.active, GroupOk L c.pass_group
  invalid : ∀ x ∈ invalidTokens w.store, ∃ k, keys k ∧ ¬ Genuine L k x

theorem refused_not_genuine (L : Ristretto) (hL : Lawful L) {g : PassGroup} (hg : GroupOk L g)
    {k : L.Scalar} {failed : List Nat} (h : RefusedBy L k g.message g.passes failed) (x : String)
    (hx : x ∈ (g.split (fun i => failed.contains i)).1.unblinded_tokens) : ¬ Genuine L k x := by
  rintro ⟨t, ht⟩
  obtain ⟨ps, hp, hf⟩ := h
  unfold PassGroup.unblinded_tokens at hx
  rw [(split_tokens g _).1] at hx
  obtain ⟨⟨x', p⟩, hxp, rfl⟩ := List.mem_map.mp hx
  obtain ⟨i, hi, hc⟩ := (mem_atPositions _ _ _).mp hxp
  have hpass := hg x' p (List.mem_of_getElem? hi) k t ht
  have hif : i ∈ failed := by simpa using hc
  obtain ⟨q, hq, hbad⟩ := (hf.2 i).mp hif
  have hsent : (g.passes.map Pass.pass_bytes)[i]? = some p.pass_bytes := by
    unfold PassGroup.passes
    rw [List.getElem?_map, List.getElem?_map, hi]
    rfl
  have := congrArg (fun l : List (Except PyErr Pass) => l[i]?) hp
  rw [List.getElem?_map, hsent, List.getElem?_map, hq] at this
  simp only [Option.map_some, Option.some.injEq] at this
  rw [hpass, (passOf_wire L hL _ k t).2] at this
  cases this
  have hv := passOf_verifies L hL 1 g.message k t
  have hv' : (!_is_invalid_pass L g.message (passOf L g.message k t) k) = true := hv
  dsimp only at hbad
  rw [hv'] at hbad
  exact nomatch hbad

theorem answer_genuine (L : Ristretto) (hL : Lawful L) {o : Order} {s : OnSuccess} {n : Int} {g : PassGroup}
    {a : CallAnswer} {t : Tables} (hg : GroupOk L g) :
    (∀ g', (call_answer (ristretto_signer L) o s n g a t).1 = .waiting g' → GroupOk L g') ∧
    ∀ x ∈ invalidTokens (call_answer (ristretto_signer L) o s n g a t).2, x ∈ invalidTokens t ∨
      ∃ failed, a = .rejected failed ∧ x ∈ (g.split (fun i => failed.contains i)).1.unblinded_tokens := by
  have inv : ∀ {t' : Tables}, t'.app = t.app → ∀ x ∈ invalidTokens t', x ∈ invalidTokens t := by
    intro t' h x hx
    unfold invalidTokens at hx ⊢
    rw [← h]
    exact hx
  cases a with
  | ok b =>
    unfold call_answer
    dsimp only
    have hs := success_invalid s b g t
    split
    · rename_i e t1 he
      rw [he] at hs
      obtain ⟨h1, h2⟩ := give_up_app g e t1
      refine ⟨fun g' hg' => (h2 g' hg').elim, fun x hx => .inl ?_⟩
      unfold invalidTokens at hx ⊢
      rw [h1, hs] at hx
      exact hx
    · rename_i t1 he
      rw [he] at hs
      refine ⟨fun g' hg' => (nomatch hg'), fun x hx => .inl ?_⟩
      unfold invalidTokens at hx ⊢
      dsimp only at hx hs
      rw [hs] at hx
      exact hx
  | error e =>
    obtain ⟨h1, h2⟩ := give_up_app g e t
    exact ⟨fun g' hg' => (h2 g' hg').elim, fun x hx => .inl (inv h1 x hx)⟩
  | rejected failed =>
    obtain ⟨hs1, hs2⟩ := group_split L hg (fun i => failed.contains i)
    unfold call_answer invalidate_rejected_passes
    dsimp only
    by_cases hf : failed.length = 0
    · rw [if_pos hf]
      obtain ⟨h1, h2⟩ := give_up_app g morePassesRequired t
      exact ⟨fun g' hg' => (h2 g' hg').elim, fun x hx => .inl (inv h1 x hx)⟩
    · rw [if_neg hf]
      generalize hsp : g.split (fun i => failed.contains i) = sp at hs1 hs2
      obtain ⟨rej, okay⟩ := sp
      dsimp only [] at hs1 hs2 ⊢
      unfold PassGroup.mark_invalid
      rw [invalidate_eq]
      by_cases hc : rej.unblinded_tokens.Nodup ∧ ∀ x ∈ rej.unblinded_tokens, x ∉ t.app.invalid.map (·.token)
      · rw [if_pos hc]
        dsimp only
        generalize ht1 : (Tables.mk (App.mk _ _ _ _ _ _) _ : Tables) = t1
        have hinv1 : invalidTokens t1 = invalidTokens t ++ rej.unblinded_tokens := by
          rw [← ht1]
          unfold invalidTokens
          simp [List.map_append, List.map_map, Function.comp_def]
        have hmsg : okay.message = g.message := by
          have := congrArg (fun p => p.2.message) hsp
          exact this.symm
        have hexp : ∀ y ∈ invalidTokens t1, y ∈ invalidTokens t ∨
            ∃ failed', CallAnswer.rejected failed = .rejected failed' ∧
              y ∈ (g.split (fun i => failed'.contains i)).1.unblinded_tokens := by
          intro y hy
          rw [hinv1] at hy
          rcases List.mem_append.mp hy with hy | hy
          · exact .inl hy
          · exact .inr ⟨failed, rfl, by rw [hsp]; exact hy⟩
        unfold PassGroup.expand
        have hget := get_invalid (ristretto_signer L) o okay.message (n - okay.passes.length) t1
        cases hg' : spending_get (ristretto_signer L) o okay.message (n - okay.passes.length) t1 with
        | mk r t2 =>
          rw [hg'] at hget
          have hinv2 : invalidTokens t2 = invalidTokens t1 := by
            unfold invalidTokens; dsimp only at hget; rw [hget]
          cases r with
          | error e =>
            obtain ⟨h1, h2⟩ := give_up_app okay e t2
            refine ⟨fun g' hg' => (h2 g' hg').elim, fun x hx => hexp x ?_⟩
            rw [← hinv2]
            unfold invalidTokens at hx ⊢
            rw [← h1]
            exact hx
          | ok more =>
            obtain ⟨hm1, hm2, -⟩ := get_group L hL hg'
            refine ⟨fun g' h' => ?_, fun x hx => hexp x ?_⟩
            · cases h'
              exact group_add L hs2 hm2 hm1
            · rw [← hinv2]; exact hx
      · rw [if_neg hc]
        dsimp only
        obtain ⟨h1, h2⟩ := give_up_app g .integrityError t
        exact ⟨fun g' hg' => (h2 g' hg').elim, fun x hx => .inl (inv h1 x hx)⟩

theorem genuine_step (L : Ristretto) (hL : Lawful L) {keys : L.Scalar → Prop} {w : Client}
    (h : GenuineInv L keys w) (e : ClientEvent)
    (hr : ∀ i failed o c, e = .answer i (.rejected failed) o → w.active[i]? = some c →
      ∃ k, keys k ∧ RefusedBy L k c.pass_group.message c.pass_group.passes failed) :
    GenuineInv L keys (w.step (ristretto_signer L) e) := by
  cases e with
  | start s m n o =>
    simp only [Client.step]
    unfold call_start
    have hi := get_invalid (ristretto_signer L) o m n w.store
    cases hg : spending_get (ristretto_signer L) o m n w.store with
    | mk r t1 =>
      rw [hg] at hi
      have hinv : ∀ x ∈ invalidTokens t1, ∃ k, keys k ∧ ¬ Genuine L k x := by
        intro x hx
        refine h.invalid x ?_
        unfold invalidTokens at hx ⊢
        dsimp only at hi
        rw [hi] at hx
        exact hx
      cases r with
      | error e =>
        dsimp only [place]
        exact ⟨fun c hc => h.groups c (by simpa using hc), hinv⟩
      | ok g =>
        dsimp only [place]
        refine ⟨fun c hc => ?_, hinv⟩
        rcases List.mem_append.mp hc with hc | hc
        · exact h.groups c hc
        · rw [List.mem_singleton] at hc
          subst hc
          exact (get_group L hL hg).2.1
  | answer i a o =>
    simp only [Client.step]
    cases hi : w.active[i]? with
    | none => exact h
    | some c =>
      dsimp only
      have hg := h.groups c (List.mem_of_getElem? hi)
      obtain ⟨h1, h2⟩ := answer_genuine L hL (o := o) (s := c.on_success) (n := c.num_passes) (a := a)
        (t := w.store) hg
      refine ⟨fun c' hc' => ?_, fun x hx => ?_⟩
      · rcases List.mem_append.mp hc' with hc' | hc'
        · rcases List.mem_append.mp hc' with hc' | hc'
          · exact h.groups c' (List.mem_of_mem_take hc')
          · cases hst : (call_answer (ristretto_signer L) o c.on_success c.num_passes c.pass_group a w.store).1 with
            | waiting g =>
              rw [hst, place, List.mem_singleton] at hc'
              subst hc'
              exact h1 g hst
            | returned => rw [hst] at hc'; cases hc'
            | raised e => rw [hst] at hc'; cases hc'
        · exact h.groups c' (List.mem_of_mem_drop hc')
      · rcases h2 x hx with hx' | ⟨failed, rfl, hx'⟩
        · exact h.invalid x hx'
        · obtain ⟨k, hk, href⟩ := hr i failed o c rfl hi
          exact ⟨k, hk, refused_not_genuine L hL hg href x hx'⟩
  | other op =>
    simp only [Client.step]
    cases ho : outside op with
    | false => simpa using h
    | true =>
      obtain ⟨-, h2, -⟩ := outside_temp ho w.store
      simp only [if_true]
      refine ⟨h.groups, fun x hx => h.invalid x ?_⟩
      unfold invalidTokens at hx ⊢
      dsimp only at hx
      rw [h2] at hx
      exact hx
  | restart =>
    simp only [Client.step]
    exact ⟨fun c hc => (nomatch hc), h.invalid⟩

theorem try_map_each {α β ε} {f : α → Except ε β} {l : List α} (h : ∀ x ∈ l, ∃ y, f x = .ok y) :
    ∃ ys, try_map f l = .ok ys := by
  induction l with
  | nil => exact ⟨[], rfl⟩
  | cons x xs ih =>
    obtain ⟨y, hy⟩ := h x List.mem_cons_self
    obtain ⟨ys, hys⟩ := ih (fun z hz => h z (List.mem_cons_of_mem _ hz))
    exact ⟨y :: ys, by unfold try_map; rw [hy, hys]⟩

/-- Genuine tokens can be made into passes. -/
theorem genuine_signs (L : Ristretto) (hL : Lawful L) (m : Bytes) (ts : List String)
    (h : ∀ x ∈ ts, ∃ k, Genuine L k x) : ∃ ps, ristretto_signer L m ts = .ok ps := by
  unfold ristretto_signer tokens_to_passes
  obtain ⟨basic, hb⟩ : ∃ basic, try_map L.unblinded_tokens.decode_base64 (ts.map ascii) = .ok basic := by
    refine try_map_each ?_
    intro u hu
    obtain ⟨x, hx, rfl⟩ := List.mem_map.mp hu
    obtain ⟨k, t, ht⟩ := h x hx
    refine ⟨(t, L.smul k (L.hash t)), ?_⟩
    unfold Codec.decode_base64
    rw [ht, hL.unblinded_tokens]
  rw [hb]
  simp only [List.map_map]
  rw [zip_map_map, try_map_map]
  have : ∃ ps, try_map (fun b : L.Preimage × L.Point =>
      match Pass.new (L.preimages.encode b.1) (L.signatures.encode (L.sign (L.derive b.1 b.2) m)) with
      | .error e => (.error (.py e) : Except RedeemErr Pass)
      | .ok p => .ok p) basic = .ok ps := by
    refine try_map_each ?_
    intro b _
    have hn : Pass.new (L.preimages.encode b.1) (L.signatures.encode (L.sign (L.derive b.1 b.2) m)) =
        .ok ⟨L.preimages.encode b.1, L.signatures.encode (L.sign (L.derive b.1 b.2) m)⟩ := by
      rw [Pass.new_ok]
      refine ⟨?_, ?_, rfl⟩
      · unfold Codec.encode; rw [b64encode_length, hL.preimage_size]
      · unfold Codec.encode; rw [b64encode_length, hL.signature_size]
    exact ⟨_, by rw [hn]⟩
  obtain ⟨ps, hps⟩ := this
  refine ⟨ps, ?_⟩
  generalize hx : try_map _ basic = r
  have : r = .ok ps := hx.symm.trans hps
  rw [this]

/-- A signer that never raises, and is the real one where that does not raise. -/
def total_signer (L : Ristretto) : Signer := fun m ts =>
  match ristretto_signer L m ts with
  | .ok ps => .ok ps
  | .error _ => .ok (List.replicate ts.length ⟨[], []⟩)

theorem total_signs (L : Ristretto) (hL : Lawful L) : Signs (total_signer L) := by
  intro m ts
  unfold total_signer
  cases h : ristretto_signer L m ts with
  | ok ps => exact ⟨ps, rfl, (signed_ok L hL h).1⟩
  | error e => exact ⟨_, rfl, List.length_replicate⟩

theorem get_congr {sign sign' : Signer} {o : Order} {m : Bytes} {n : Int} {t : Tables}
    (h : ∀ m ts, (∀ x ∈ ts, Stored t x) → sign m ts = sign' m ts) :
    spending_get sign o m n t = spending_get sign' o m n t := by
  unfold spending_get
  rw [getTokens_eq]
  by_cases h1 : n > SQLITE3_INTEGER_MAX
  · rw [if_pos h1]
  · rw [if_neg h1]
    dsimp only
    by_cases h2 : ((sql_limit n (o.f (select_available t))).length : Int) < n
    · rw [if_pos h2]
    · rw [if_neg h2]
      by_cases h3 : (sql_limit n (o.f (select_available t))).Nodup ∧
        ∀ x ∈ sql_limit n (o.f (select_available t)), x ∉ t.temp.in_use
      · rw [if_pos h3]
        dsimp only
        rw [h m]
        intro x hx
        have hx' : x ∈ select_available t := by
          have : x ∈ o.f (select_available t) := by
            unfold sql_limit at hx
            split at hx
            · exact hx
            · exact List.mem_of_mem_take hx
          exact (o.perm _).mem_iff.mp this
        unfold select_available at hx'
        rw [List.mem_filter, List.mem_flatMap] at hx'
        obtain ⟨⟨r, hr, hg⟩, -⟩ := hx'
        obtain ⟨_, -, rfl⟩ := List.mem_map.mp hg
        exact ⟨r, hr, rfl⟩
      · rw [if_neg h3]

theorem step_congr {sign sign' : Signer} {w : Client} (e : ClientEvent)
    (h : ∀ m ts, (∀ x ∈ ts, Stored w.store x) → sign m ts = sign' m ts) :
    w.step sign e = w.step sign' e := by
  cases e with
  | start s m n o =>
    simp only [Client.step, call_start]
    rw [get_congr h]
  | answer i a o =>
    simp only [Client.step]
    cases w.active[i]? with
    | none => rfl
    | some c =>
      have : call_answer sign o c.on_success c.num_passes c.pass_group a w.store =
          call_answer sign' o c.on_success c.num_passes c.pass_group a w.store := by
        cases a with
        | ok b => rfl
        | error e => rfl
        | rejected failed =>
          unfold call_answer invalidate_rejected_passes
          dsimp only
          by_cases hf : failed.length = 0
          · rw [if_pos hf]
          · rw [if_neg hf]
            unfold PassGroup.mark_invalid
            rw [invalidate_eq]
            by_cases hc : (c.pass_group.split (fun i => failed.contains i)).1.unblinded_tokens.Nodup ∧
                ∀ x ∈ (c.pass_group.split (fun i => failed.contains i)).1.unblinded_tokens,
                  x ∉ w.store.app.invalid.map (·.token)
            · rw [if_pos hc]
              dsimp only
              unfold PassGroup.expand
              rw [get_congr]
              intro m ts hts
              refine h m ts (fun x hx => ?_)
              obtain ⟨r, hr, rfl⟩ := hts x hx
              exact ⟨r, (List.mem_filter.mp hr).1, rfl⟩
            · rw [if_neg hc]
      dsimp only
      rw [this]
  | other op => rfl
  | restart => rfl

theorem get_stored (sign : Signer) (o : Order) (m : Bytes) (n : Int) (t : Tables) (x : String)
    (h : Stored (spending_get sign o m n t).2 x) : Stored t x := by
  unfold Stored at h ⊢
  rw [get_invalid] at h
  exact h

theorem success_stored (s : OnSuccess) (n : Nat) (g : PassGroup) (t : Tables) (x : String)
    (h : Stored (s.run n g t).2 x) : Stored t x := by
  cases s with
  | spendAll =>
    have h' : Stored (g.mark_spent t).2 x := h
    unfold PassGroup.mark_spent at h'
    rw [discard_eq] at h'
    obtain ⟨r, hr, rfl⟩ := h'
    exact ⟨r, (List.mem_filter.mp hr).1, rfl⟩
  | allocate pv size =>
    have h' : Stored (spend_for_allocate_buckets pv size n g t).2 x := h
    unfold spend_for_allocate_buckets at h'
    split at h'
    · exact h'
    · simp only [PassGroup.mark_spent, PassGroup.reset, discard_eq, reset_eq] at h'
      obtain ⟨r, hr, rfl⟩ := h'
      exact ⟨r, (List.mem_filter.mp hr).1, rfl⟩

theorem give_up_stored (g : PassGroup) (e : PyErr) (t : Tables) (x : String)
    (h : Stored (give_up g e t).2 x) : Stored t x := by
  unfold Stored at h ⊢
  rw [(give_up_app g e t).1] at h
  exact h

theorem answer_stored (sign : Signer) (o : Order) (s : OnSuccess) (n : Int) (g : PassGroup)
    (a : CallAnswer) (t : Tables) (x : String) (h : Stored (call_answer sign o s n g a t).2 x) :
    Stored t x := by
  cases a with
  | ok b =>
    unfold call_answer at h
    dsimp only at h
    have hs := success_stored s b g t x
    split at h
    · rename_i he; rw [he] at hs; exact hs (give_up_stored _ _ _ _ h)
    · rename_i he; rw [he] at hs; exact hs h
  | error e => exact give_up_stored _ _ _ _ h
  | rejected failed =>
    unfold call_answer invalidate_rejected_passes at h
    dsimp only at h
    by_cases hf : failed.length = 0
    · rw [if_pos hf] at h; exact give_up_stored _ _ _ _ h
    · rw [if_neg hf] at h
      unfold PassGroup.mark_invalid at h
      rw [invalidate_eq] at h
      by_cases hc : (g.split (fun i => failed.contains i)).1.unblinded_tokens.Nodup ∧
          ∀ x ∈ (g.split (fun i => failed.contains i)).1.unblinded_tokens,
            x ∉ t.app.invalid.map (·.token)
      · rw [if_pos hc] at h
        dsimp only at h
        unfold PassGroup.expand at h
        generalize ht1 : (Tables.mk (App.mk _ _ _ _ _ _) _ : Tables) = t1 at h
        have h1 : ∀ y, Stored t1 y → Stored t y := by
          rintro y ⟨r, hr, rfl⟩
          rw [← ht1] at hr
          exact ⟨r, (List.mem_filter.mp hr).1, rfl⟩
        have hget := get_stored sign o (g.split (fun i => failed.contains i)).2.message
          (n - (g.split (fun i => failed.contains i)).2.passes.length) t1 x
        cases hg' : spending_get sign o (g.split (fun i => failed.contains i)).2.message
            (n - (g.split (fun i => failed.contains i)).2.passes.length) t1 with
        | mk r t2 =>
          rw [hg'] at hget h
          cases r with
          | error e => exact h1 _ (hget (give_up_stored _ _ _ _ h))
          | ok more => exact h1 _ (hget h)
      · rw [if_neg hc] at h
        exact give_up_stored _ _ _ _ h

/-- Tokens only get into the store by being issued. -/
theorem step_stored (sign : Signer) (w : Client) (e : ClientEvent) (x : String)
    (h : Stored (w.step sign e).store x) : Stored w.store x ∨ ∃ op, e = .other op ∧ Issues x op := by
  cases e with
  | start s m n o =>
    refine .inl ?_
    simp only [Client.step, call_start] at h
    have hg := get_stored sign o m n w.store x
    cases he : spending_get sign o m n w.store with
    | mk r t1 =>
      rw [he] at h hg
      cases r with
      | error e => exact hg h
      | ok g => exact hg h
  | answer i a o =>
    refine .inl ?_
    simp only [Client.step] at h
    cases hi : w.active[i]? with
    | none => rw [hi] at h; exact h
    | some c =>
      rw [hi] at h
      exact answer_stored _ _ _ _ _ _ _ _ h
  | other op =>
    simp only [Client.step] at h
    cases ho : outside op with
    | false => rw [ho] at h; exact .inl h
    | true =>
      rw [ho] at h
      obtain ⟨r, hr, rfl⟩ := h
      rcases (outside_temp ho w.store).2.2 r hr with hr | hr
      · exact .inl ⟨r, hr, rfl⟩
      · exact .inr ⟨op, rfl, hr⟩
  | restart => exact .inl h

/-- On a store of genuine tokens the real signer never raises. -/
theorem signer_agrees (L : Ristretto) (hL : Lawful L) {t : Tables}
    (ht : ∀ x, Stored t x → ∃ k, Genuine L k x) (m : Bytes) (ts : List String)
    (h : ∀ x ∈ ts, Stored t x) : ristretto_signer L m ts = total_signer L m ts := by
  obtain ⟨ps, hps⟩ := genuine_signs L hL m ts (fun x hx => ht x (h x hx))
  unfold total_signer
  rw [hps]

theorem run_total (L : Ristretto) (hL : Lawful L) (es : List ClientEvent) {w : Client}
    (hw : ∀ x, Stored w.store x → ∃ k, Genuine L k x)
    (hi : ∀ op, .other op ∈ es → ∀ x, Issues x op → ∃ k, Genuine L k x)
    (hr : NoReissue (ristretto_signer L) w es) :
    w.run (ristretto_signer L) es = w.run (total_signer L) es ∧ NoReissue (total_signer L) w es := by
  induction es generalizing w with
  | nil => exact ⟨rfl, trivial⟩
  | cons e es ih =>
    have hstep : w.step (ristretto_signer L) e = w.step (total_signer L) e :=
      step_congr e (signer_agrees L hL hw)
    obtain ⟨h1, h2⟩ := ih (w := w.step (ristretto_signer L) e) (by
      intro x hx
      rcases step_stored _ w e x hx with hx' | ⟨op, rfl, hx'⟩
      · exact hw x hx'
      · exact hi op List.mem_cons_self x hx')
      (fun op ho => hi op (List.mem_cons_of_mem _ ho)) hr.2
    refine ⟨?_, hr.1, ?_⟩
    · show (w.step (ristretto_signer L) e).run _ es = (w.step (total_signer L) e).run _ es
      rw [h1, hstep]
    · rw [← hstep]; exact h2

theorem genuine_run (L : Ristretto) (hL : Lawful L) {keys : L.Scalar → Prop} (es : List ClientEvent)
    {w : Client} (h : GenuineInv L keys w) (hr : ServersHold L keys w es) :
    GenuineInv L keys (w.run (ristretto_signer L) es) := by
  induction es generalizing w with
  | nil => exact h
  | cons e es ih => exact ih (genuine_step L hL h e hr.1) hr.2

/-! ### Where held and invalidated tokens come from -/

theorem get_obtained {sign : Signer} {o : Order} {m : Bytes} {n : Int} {t t' : Tables} {g : PassGroup}
    (h : spending_get sign o m n t = (.ok g, t')) (x : String) (hx : x ∈ g.unblinded_tokens) : Stored t x := by
  unfold spending_get at h
  rw [getTokens_eq] at h
  by_cases h1 : n > SQLITE3_INTEGER_MAX
  · rw [if_pos h1] at h; exact nomatch h
  · rw [if_neg h1] at h
    dsimp only at h
    by_cases h2 : ((sql_limit n (o.f (select_available t))).length : Int) < n
    · rw [if_pos h2] at h; exact nomatch h
    · rw [if_neg h2] at h
      split at h
      · exact nomatch h
      · rename_i texts t1 he
        split at he
        · cases he
          split at h
          · exact nomatch h
          · cases h
            unfold PassGroup.unblinded_tokens at hx
            obtain ⟨⟨y, p⟩, hy, rfl⟩ := List.mem_map.mp hx
            have hm := (List.of_mem_zip hy).1
            have := (mem_select_available t y).mp ((o.perm _).mem_iff.mp ((sql_limit_sublist _ _).mem hm))
            obtain ⟨r, hr, hrx, -⟩ := this.1
            exact ⟨r, hr, hrx⟩
        · exact nomatch he

theorem split_held (g : PassGroup) (select : Nat → Bool) (x : String)
    (hx : x ∈ (g.split select).1.unblinded_tokens ∨ x ∈ (g.split select).2.unblinded_tokens) :
    x ∈ g.unblinded_tokens := by
  have hs := split_tokens g select
  have h1 : ∀ s, ∀ y ∈ atPositions s g.tokens, y ∈ g.tokens :=
    fun s y hy => (atPositions_sublist s g.tokens).subset hy
  unfold PassGroup.unblinded_tokens at hx ⊢
  rw [hs.1, hs.2] at hx
  rcases hx with hx | hx
  · obtain ⟨y, hy, rfl⟩ := List.mem_map.mp hx
    exact List.mem_map.mpr ⟨y, h1 _ _ hy, rfl⟩
  · obtain ⟨y, hy, rfl⟩ := List.mem_map.mp hx
    exact List.mem_map.mpr ⟨y, h1 (fun i => !select i) _ hy, rfl⟩

theorem answer_held {sign : Signer} {o : Order} {s : OnSuccess} {n : Int} {g g' : PassGroup}
    {a : CallAnswer} {t : Tables} (h : (call_answer sign o s n g a t).1 = .waiting g') (x : String)
    (hx : x ∈ g'.unblinded_tokens) : x ∈ g.unblinded_tokens ∨ Stored t x := by
  cases a with
  | ok b =>
    unfold call_answer at h
    dsimp only at h
    split at h
    · exact ((give_up_app _ _ _).2 g' h).elim
    · exact nomatch h
  | error e => exact ((give_up_app _ _ _).2 g' h).elim
  | rejected failed =>
    unfold call_answer invalidate_rejected_passes at h
    dsimp only at h
    by_cases hf : failed.length = 0
    · rw [if_pos hf] at h; exact ((give_up_app _ _ _).2 g' h).elim
    · rw [if_neg hf] at h
      unfold PassGroup.mark_invalid at h
      rw [invalidate_eq] at h
      by_cases hc : (g.split (fun i => failed.contains i)).1.unblinded_tokens.Nodup ∧
          ∀ x ∈ (g.split (fun i => failed.contains i)).1.unblinded_tokens,
            x ∉ t.app.invalid.map (·.token)
      · rw [if_pos hc] at h
        dsimp only at h
        unfold PassGroup.expand at h
        generalize ht1 : (Tables.mk (App.mk _ _ _ _ _ _) _ : Tables) = t1 at h
        have h1 : ∀ y, Stored t1 y → Stored t y := by
          rintro y ⟨r, hr, rfl⟩
          rw [← ht1] at hr
          exact ⟨r, (List.mem_filter.mp hr).1, rfl⟩
        cases hg' : spending_get sign o (g.split (fun i => failed.contains i)).2.message
            (n - (g.split (fun i => failed.contains i)).2.passes.length) t1 with
        | mk r t2 =>
          rw [hg'] at h
          cases r with
          | error e => exact ((give_up_app _ _ _).2 g' h).elim
          | ok more =>
            cases h
            unfold PassGroup.add PassGroup.unblinded_tokens at hx
            rw [List.map_append] at hx
            rcases List.mem_append.mp hx with hx | hx
            · exact .inl (split_held g _ x (.inr hx))
            · have hz : (List.map Prod.fst more.tokens).zip more.passes = more.tokens := zip_unzip _
              rw [hz] at hx
              exact .inr (h1 x (get_obtained hg' x hx))
      · rw [if_neg hc] at h
        exact ((give_up_app _ _ _).2 g' h).elim

/-- Something that is true of every token that is stored, held by a call or invalidated. -/
structure HeldInv (P : String → Prop) (w : Client) : Prop where
  stored : ∀ x, Stored w.store x → P x
  held : ∀ c ∈ w.active, ∀ x ∈ c.pass_group.unblinded_tokens, P x
  invalid : ∀ x ∈ invalidTokens w.store, P x

theorem held_step (L : Ristretto) (hL : Lawful L) {P : String → Prop} {keys : L.Scalar → Prop} {w : Client}
    (hg : GenuineInv L keys w) (h : HeldInv P w) (e : ClientEvent)
    (hi : ∀ op, e = .other op → ∀ x, Issues x op → P x) : HeldInv P (w.step (ristretto_signer L) e) := by
  have hst : ∀ x, Stored (w.step (ristretto_signer L) e).store x → P x := by
    intro x hx
    rcases step_stored _ w e x hx with hx | ⟨op, he, hx⟩
    · exact h.stored x hx
    · exact hi op he x hx
  refine ⟨hst, ?_, ?_⟩
  · intro c hc x hx
    cases e with
    | start s m n o =>
      simp only [Client.step, call_start] at hc
      cases he : spending_get (ristretto_signer L) o m n w.store with
      | mk r t1 =>
        rw [he] at hc
        cases r with
        | error e =>
          dsimp only [place] at hc
          exact h.held c (by simpa using hc) x hx
        | ok g =>
          dsimp only [place] at hc
          rcases List.mem_append.mp hc with hc | hc
          · exact h.held c hc x hx
          · rw [List.mem_singleton] at hc
            subst hc
            exact h.stored x (get_obtained he x hx)
    | answer i a o =>
      simp only [Client.step] at hc
      cases hw : w.active[i]? with
      | none => rw [hw] at hc; exact h.held c hc x hx
      | some d =>
        rw [hw] at hc
        dsimp only at hc
        rcases List.mem_append.mp hc with hc | hc
        · rcases List.mem_append.mp hc with hc | hc
          · exact h.held c (List.mem_of_mem_take hc) x hx
          · cases hs : (call_answer (ristretto_signer L) o d.on_success d.num_passes d.pass_group a w.store).1 with
            | waiting g =>
              rw [hs, place, List.mem_singleton] at hc
              subst hc
              rcases answer_held hs x hx with hx | hx
              · exact h.held d (List.mem_of_getElem? hw) x hx
              · exact h.stored x hx
            | returned => rw [hs] at hc; cases hc
            | raised e => rw [hs] at hc; cases hc
        · exact h.held c (List.mem_of_mem_drop hc) x hx
    | other op =>
      simp only [Client.step] at hc
      split at hc
      · exact h.held c hc x hx
      · exact h.held c hc x hx
    | restart => exact nomatch hc
  · intro x hx
    cases e with
    | start s m n o =>
      refine h.invalid x ?_
      have hi' := get_invalid (ristretto_signer L) o m n w.store
      simp only [Client.step, call_start] at hx
      cases he : spending_get (ristretto_signer L) o m n w.store with
      | mk r t1 =>
        rw [he] at hx hi'
        unfold invalidTokens at hx ⊢
        dsimp only at hi'
        cases r with
        | error e => dsimp only at hx; rw [hi'] at hx; exact hx
        | ok g => dsimp only at hx; rw [hi'] at hx; exact hx
    | answer i a o =>
      simp only [Client.step] at hx
      cases hw : w.active[i]? with
      | none => rw [hw] at hx; exact h.invalid x hx
      | some d =>
        rw [hw] at hx
        dsimp only at hx
        rcases (answer_genuine L hL (hg.groups d (List.mem_of_getElem? hw))).2 x hx with hx | ⟨failed, -, hx⟩
        · exact h.invalid x hx
        · exact h.held d (List.mem_of_getElem? hw) x (split_held _ _ x (.inl hx))
    | other op =>
      refine h.invalid x ?_
      simp only [Client.step] at hx
      cases ho : outside op with
      | false => rw [ho] at hx; exact hx
      | true =>
        rw [ho] at hx
        obtain ⟨-, h2, -⟩ := outside_temp ho w.store
        unfold invalidTokens at hx ⊢
        simp only [if_true] at hx
        rw [h2] at hx
        exact hx
    | restart => exact h.invalid x hx

theorem held_run (L : Ristretto) (hL : Lawful L) {P : String → Prop} {keys : L.Scalar → Prop}
    (es : List ClientEvent) {w : Client} (hg : GenuineInv L keys w) (h : HeldInv P w)
    (hi : ∀ op, .other op ∈ es → ∀ x, Issues x op → P x) (hr : ServersHold L keys w es) :
    HeldInv P (w.run (ristretto_signer L) es) := by
  induction es generalizing w with
  | nil => exact h
  | cons e es ih =>
    refine ih (genuine_step L hL hg e hr.1) (held_step L hL hg h e ?_) ?_ hr.2
    · intro op he x hx
      exact hi op (by rw [← he]; exact List.mem_cons_self) x hx
    · intro op he x hx
      exact hi op (List.mem_cons_of_mem _ he) x hx

end ZKAP
