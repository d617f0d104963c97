import Verif.Spec.PassReuse
import Verif.Lemmas.StorageClient

namespace ZKAP
open Spec

/-! ### What a method shows -/

/-- What a method shows when it moves, and what becomes of the tokens it held. -/
structure ShowMove (sign : Signer) (op : StorageOp) (own : List String) (t : Tables) (m : Moved) : Prop where
  out : ∃ y, m.2.1 = [y] ∧ ∀ op' r, y = .sent op' r → op' = op ∧
    (passesIn r = [] ∨ ∃ c, m.1 = .paying c ∧ r = op.request (c.pass_group.passes.map Pass.pass_bytes) ∧
      GroupMade sign c.pass_group)
  fresh : ∀ c, m.1 = .paying c → ∀ x ∈ holds c, x ∈ own ∨ (Stored t x ∧ x ∉ t.temp.in_use)
  kept : ∀ x ∈ own, ¬ Stored m.2.2 x ∨ (∃ e, .raised op e ∈ m.2.1) ∨
    (∃ result, .returned op result ∈ m.2.1 ∧ FewerBuckets op result) ∨ ∃ c, m.1 = .paying c ∧ x ∈ holds c
  stored : ∀ x, Stored m.2.2 x → Stored t x

theorem show_over {sign : Signer} {op : StorageOp} {t : Tables} {y : Out} (hy : ∀ op' r, y ≠ .sent op' r) :
    ShowMove sign op [] t (.over, [y], t) :=
  ⟨⟨y, rfl, fun op' r e => absurd e (hy op' r)⟩, fun _ e => (nomatch e), fun _ h => (nomatch h), fun _ h => h⟩

theorem show_free {sign : Signer} {op : StorageOp} {r : StorageRequest} {t : Tables} (hp : passesIn r = []) :
    ShowMove sign op [] t (send_free op r t) := by
  unfold send_free
  split
  · rename_i r' hr'
    have := transmit_same hr'
    subst this
    exact ⟨⟨_, rfl, fun op' r e => by cases e; exact ⟨rfl, .inl hp⟩⟩, fun _ e => (nomatch e),
      fun _ h => (nomatch h), fun _ h => h⟩
  · exact show_over (fun _ _ e => nomatch e)

/-- What holds for a group that is about to be sent. -/
structure ShowGroup (sign : Signer) (own : List String) (t t1 : Tables) (g : PassGroup) : Prop where
  made : GroupMade sign g
  fresh : ∀ x ∈ g.unblinded_tokens, x ∈ own ∨ (Stored t x ∧ x ∉ t.temp.in_use)
  kept : ∀ x ∈ own, ¬ Stored t1 x ∨ x ∈ g.unblinded_tokens

theorem show_paid {sign : Signer} {op : StorageOp} {c : Call} {own a b : List String} {t t1 : Tables}
    (hh : Held t1 (a ++ c.pass_group.unblinded_tokens ++ b)) (h : ShowGroup sign own t t1 c.pass_group)
    (hs : ∀ x, Stored t1 x → Stored t x) : ShowMove sign op own t (send_paid op c t1) := by
  unfold send_paid
  split
  · rename_i r' hr'
    have := transmit_same hr'
    subst this
    refine ⟨⟨_, rfl, fun op' r e => by cases e; exact ⟨rfl, .inr ⟨c, rfl, rfl, h.made⟩⟩⟩,
      fun c' e => by cases e; exact h.fresh, fun x hx => ?_, hs⟩
    rcases h.kept x hx with h1 | h1
    · exact .inl h1
    · exact .inr (.inr (.inr ⟨c, rfl, h1⟩))
  · rename_i e he
    obtain ⟨t', h1, h2, h3⟩ := give_up_held e hh
    rw [h1]
    refine ⟨⟨_, rfl, fun _ _ e => nomatch e⟩, fun _ e => (nomatch e),
      fun x _ => .inr (.inl ⟨e, List.mem_singleton.mpr rfl⟩), fun x hx => hs x ?_⟩
    unfold Stored at *
    rwa [← h2]

theorem show_pay {sign : Signer} (hs : Signs sign) {v : Int} {op : StorageOp} {n : Int} {held : List String}
    {t : Tables} (h : Held t held) (o : Order) : ShowMove sign op [] t (pay sign o v op n t) := by
  unfold pay call_start
  rcases get_held hs h o op.message n with he | ⟨g, t', he, h2, hm, hn, ha, hh⟩
  · rw [he]
    exact show_over (fun _ _ e => nomatch e)
  · rw [he]
    refine show_paid (a := held) (b := []) (by simpa using hh) ⟨(get_made he).1, fun x hx => .inr ?_, fun _ hx => (nomatch hx)⟩
      fun x hx => ?_
    · obtain ⟨⟨r, hr, h3, -⟩, h4⟩ := ha x hx
      exact ⟨⟨r, hr, h3⟩, h4⟩
    · unfold Stored at *
      rwa [← h2]

theorem show_start {sign : Signer} (hs : Signs sign) {v : Int} {op : StorageOp} {held : List String} {t : Tables}
    (h : Held t held) (o : Order) (get_rref : Except PyErr RRef) :
    ShowMove sign op [] t (op_start sign o v get_rref op t) := by
  unfold op_start
  split
  · exact show_over (fun _ _ e => nomatch e)
  · split
    · exact show_pay hs h o
    · exact show_free rfl
    · split
      · exact show_free rfl
      · exact show_pay hs h o
    · rename_i h1 h2 h3
      cases op with
      | allocateBuckets => exact absurd rfl (h1 _ _ _ _ _ _)
      | addLease => exact absurd rfl (h2 _ _ _)
      | writev => exact absurd rfl (h3 _ _ _ _)
      | _ => exact show_free rfl

theorem show_asked {sign : Signer} (hs : Signs sign) {v : Int} {op : StorageOp} {held : List String} {t : Tables}
    (h : Held t held) (o : Order) (now : Int) (reply : Reply) :
    ShowMove sign op [] t (op_asked sign o v now op reply t) := by
  unfold op_asked
  split
  · exact show_over (fun _ _ e => nomatch e)
  · split
    · split
      · exact show_over (fun _ _ e => nomatch e)
      · exact show_pay hs h o
    · split
      · exact show_over (fun _ _ e => nomatch e)
      · exact show_pay hs h o
    · split <;> exact show_over (fun _ _ e => nomatch e)

/-- An upload that gets as many buckets as it asked for pays with all its tokens. -/
theorem total_enough {v : Int} (hv : 0 < v) {size : Nat} {n k : Nat} (h : k ≤ n) :
    (total v (List.replicate k (size : Int))) ≤ total v (List.replicate n (size : Int)) := by
  rw [total_replicate, total_replicate]
  have h0 : 0 ≤ passes v (size : Int) := passes_nonneg v hv (by omega)
  exact Int.mul_le_mul_of_nonneg_right (by omega) h0

theorem show_paid_answer {sign : Signer} (hs : Signs sign) {v : Int} (hv : 0 < v) {log : List Out} {op : StorageOp}
    {c : Call} {a b : List String} {t : Tables} (h : Held t (a ++ c.pass_group.unblinded_tokens ++ b)) (o : Order)
    (reply : Reply) (hc : PayInv sign v log op c) :
    ShowMove sign op (holds c) t (op_paid sign o op c reply t) ∧
    (∀ c', (op_paid sign o op c reply t).1 = .paying c' → ∃ failed, reply = .morePassesRequired failed ∧ failed ≠ []) := by
  have err : ∀ e res, reply.for_call op = (.error e, res) →
      ShowMove sign op (holds c) t (op_paid sign o op c reply t) ∧
      (∀ c', (op_paid sign o op c reply t).1 = .paying c' →
        ∃ failed, reply = .morePassesRequired failed ∧ failed ≠ []) := by
    intro e res hfc
    obtain ⟨t', h1, h2, -⟩ := answer_error_held (sign := sign) h o c.on_success c.num_passes e
    unfold op_paid
    rw [hfc]
    dsimp only
    rw [h1]
    refine ⟨⟨⟨_, rfl, fun _ _ e => nomatch e⟩, fun _ e => (nomatch e),
      fun x _ => .inr (.inl ⟨e, List.mem_singleton.mpr rfl⟩), fun x hx => ?_⟩, fun _ e => (nomatch e)⟩
    unfold Stored settle at *
    dsimp only at hx
    rwa [h2] at hx
  cases reply with
  | failure e => exact err e .none rfl
  | result w =>
    cases hres : paid_result w op with
    | error e => exact err e .none (by simp only [Reply.for_call, hres])
    | ok rn =>
      obtain ⟨res, n⟩ := rn
      obtain ⟨st, t', h1, -, -, h4⟩ := answer_ok_held (sign := sign) h o c.on_success c.num_passes n
      have hfc : (Reply.result w).for_call op = (.ok n, res) := by simp only [Reply.for_call, hres]
      unfold op_paid
      rw [hfc]
      dsimp only
      rw [h1]
      rw [hc.on_success] at h4
      have hp := hc.paid
      have full : (st = .returned ∧ t'.app =
          { t.app with unblinded := t.app.unblinded.filter (·.token ∉ c.pass_group.unblinded_tokens) }) →
          ShowMove sign op (holds c) t (settle op c res st t') ∧
          (∀ c', (settle op c res st t').1 = .paying c' →
            ∃ failed, Reply.result w = .morePassesRequired failed ∧ failed ≠ []) := by
        rintro ⟨rfl, happ⟩
        refine ⟨⟨⟨_, rfl, fun _ _ e => nomatch e⟩, fun _ e => (nomatch e), fun x hx => .inl ?_, ?_⟩,
          fun _ e => (nomatch e)⟩
        · rintro ⟨r, hr, rfl⟩
          unfold settle at hr
          dsimp only at hr
          rw [happ] at hr
          have := (List.mem_filter.mp hr).2
          simp only [decide_eq_true_eq] at this
          exact this hx
        · rintro x ⟨r, hr, rfl⟩
          unfold settle at hr
          dsimp only at hr
          rw [happ] at hr
          exact ⟨r, (List.mem_filter.mp hr).1, rfl⟩
      cases op with
      | addLease => exact full h4
      | writev => exact full h4
      | allocateBuckets si renew cancel shs size canary =>
        dsimp only [StorageOp.on_success] at h4
        rw [C01_checked_eq v hv, required_passes_eq v hv] at h4
        dsimp only at h4
        by_cases hn : shs.length ≤ n
        · apply full
          refine ⟨h4.1, ?_⟩
          rw [h4.2, List.take_of_length_le]
          have hpr : c.num_passes = total v (List.replicate shs.length (size : Int)) := hc.price
          have h0 : 0 ≤ c.num_passes := by
            rw [hpr, total_replicate]
            exact Int.mul_nonneg (by omega) (passes_nonneg v hv (by omega))
          have hl := hc.size h0
          have := total_enough hv (size := size) hn
          unfold PassGroup.unblinded_tokens
          rw [List.length_map]
          omega
        · obtain ⟨rfl, happ⟩ := h4
          refine ⟨⟨⟨_, rfl, fun _ _ e => nomatch e⟩, fun _ e => (nomatch e),
            fun x hx => .inr (.inr (.inl ⟨res, List.mem_singleton.mpr rfl, ?_⟩)), ?_⟩, fun _ e => (nomatch e)⟩
          · unfold paid_result client_allocate_answer at hres
            dsimp only at hres
            split at hres
            · exact nomatch hres
            · rename_i got bw k hk
              cases hres
              split at hk
              · split at hk
                · exact nomatch hk
                · split at hk
                  · exact nomatch hk
                  · rename_i hlen
                    cases hk
                    exact ⟨_, _, _, _, _, _, _, _, _, rfl, rfl, hlen, by omega⟩
              · exact nomatch hk
          · rintro x ⟨r, hr, rfl⟩
            unfold settle at hr
            dsimp only at hr
            rw [happ] at hr
            exact ⟨r, (List.mem_filter.mp hr).1, rfl⟩
      | _ => exact absurd trivial hp
  | morePassesRequired failed =>
    by_cases hf : failed = []
    · subst hf
      obtain ⟨t', h1, h2, -⟩ := answer_rejected_nil_held (sign := sign) h o c.on_success c.num_passes
      unfold op_paid
      dsimp only [Reply.for_call]
      rw [h1]
      refine ⟨⟨⟨_, rfl, fun _ _ e => nomatch e⟩, fun _ e => (nomatch e),
        fun x _ => .inr (.inl ⟨_, List.mem_singleton.mpr rfl⟩), fun x hx => ?_⟩, fun _ e => (nomatch e)⟩
      unfold Stored settle at *
      dsimp only at hx
      rwa [h2] at hx
    · refine ⟨?_, fun _ _ => ⟨failed, rfl, hf⟩⟩
      have hmade := @answer_made sign o c.on_success c.num_passes c.pass_group
      obtain ⟨st, t', t1, h1, h2, h3, h4, h5, h6⟩ :=
        answer_rejected_held hs h o c.on_success c.num_passes failed hf
      have hsub : ∀ x, Stored t' x → Stored t x ∧ x ∉ (atPositions failed.contains c.pass_group.tokens).map Prod.fst := by
        rintro x ⟨r, hr, rfl⟩
        rw [h2] at hr
        have := List.mem_filter.mp hr
        exact ⟨⟨r, this.1, rfl⟩, by simpa using this.2⟩
      unfold op_paid
      dsimp only [Reply.for_call]
      rw [h1]
      rcases h6 with rfl | ⟨more, rfl, h7, -⟩
      · exact ⟨⟨_, rfl, fun _ _ e => nomatch e⟩, fun _ e => (nomatch e),
          fun x _ => .inr (.inl ⟨_, List.mem_singleton.mpr rfl⟩), fun x hx => (hsub x hx).1⟩
      · refine show_paid (a := a) (b := b) h5 ⟨(hmade h1 hc.made).1, fun x hx => ?_, fun x hx => ?_⟩ fun x hx => (hsub x hx).1
        · simp only [PassGroup.unblinded_tokens, List.map_append, List.mem_append] at hx
          rcases hx with hx | hx
          · left
            obtain ⟨y, hy, rfl⟩ := List.mem_map.mp hx
            exact List.mem_map_of_mem ((atPositions_sublist _ _).subset hy)
          · obtain ⟨p, hp, rfl⟩ := List.mem_map.mp hx
            obtain ⟨⟨r, hr, h8, -⟩, h9⟩ := h7 p hp
            rw [h3] at hr
            obtain ⟨h10, h11⟩ := hsub p.1 ⟨r, hr, h8⟩
            refine .inr ⟨h10, fun hu => h9 ?_⟩
            rw [h4.perm.mem_iff]
            have := h.perm.mem_iff.mp hu
            have hsplit : ∀ y ∈ c.pass_group.unblinded_tokens,
                y ∈ (atPositions failed.contains c.pass_group.tokens).map Prod.fst ∨
                y ∈ (atPositions (fun i => !failed.contains i) c.pass_group.tokens).map Prod.fst := by
              intro y hy
              have := ((atPositions_perm failed.contains c.pass_group.tokens).map Prod.fst).mem_iff.mpr hy
              rw [List.map_append] at this
              exact List.mem_append.mp this
            simp only [List.mem_append] at this ⊢
            rcases this with (h | h) | h
            · exact .inl (.inl h)
            · rcases hsplit _ h with h | h
              · exact absurd h h11
              · exact .inl (.inr h)
            · exact .inr h
        · have hx' := ((atPositions_perm failed.contains c.pass_group.tokens).map Prod.fst).mem_iff.mpr hx
          rw [List.map_append] at hx'
          rcases List.mem_append.mp hx' with h | h
          · exact .inl fun hst => (hsub x hst).2 h
          · right
            simp only [PassGroup.unblinded_tokens, List.map_append, List.mem_append]
            exact .inl h

/-! ### Sessions -/

/-- What has become of a token that was sent by an operation. -/
def Fate (s : StorageSession) (op : StorageOp) (l2 : List Out) (x : String) : Prop :=
  ¬ Stored s.store x ∨ GivenBack op l2 ∨ ∃ c, (op, c) ∈ s.paying ∧ x ∈ holds c

/-- What holds for the tokens sent in a session. -/
structure ShownInv (sign : Signer) (T : String → Prop) (v : Int) (s : StorageSession) : Prop where
  base : SessionInv sign v s
  tokens : ∀ x, Stored s.store x → T x
  known : ∀ op r, .sent op r ∈ s.log → ∀ b ∈ preimages r, ∃ x m p, T x ∧ MadeFor sign m x p ∧ p.pass_bytes.take 88 = b
  fate : ∀ l1 op r l2, s.log = l1 ++ .sent op r :: l2 → ∀ x, T x → Shows sign r x → Fate s op l2 x
  twice : ∀ l1 op r l2 op' r' l3, s.log = l1 ++ .sent op r :: (l2 ++ .sent op' r' :: l3) →
    ∀ x, T x → Shows sign r x → Shows sign r' x → GivenBack op l2 ∨ (op' = op ∧ Refused op l2)

theorem givenBack_mono {op : StorageOp} {l : List Out} (l' : List Out) (h : GivenBack op l) : GivenBack op (l ++ l') := by
  rcases h with ⟨e, h⟩ | ⟨res, h, h'⟩ | h
  · exact .inl ⟨e, List.mem_append_left _ h⟩
  · exact .inr (.inl ⟨res, List.mem_append_left _ h, h'⟩)
  · exact .inr (.inr (List.mem_append_left _ h))

/-- An element of a list with one more at its end. -/
theorem log_snoc_split {α} {l l1 l2 : List α} {x y : α} (h : l ++ [y] = l1 ++ x :: l2) :
    (l = l1 ∧ x = y ∧ l2 = []) ∨ ∃ l2', l2 = l2' ++ [y] ∧ l = l1 ++ x :: l2' := by
  rcases List.eq_nil_or_concat l2 with rfl | ⟨l2', z, rfl⟩
  · obtain ⟨e1, e2⟩ := List.append_inj' h rfl
    cases e2
    exact .inl ⟨e1, rfl, rfl⟩
  · rw [List.concat_eq_append, ← List.cons_append, ← List.append_assoc] at h
    obtain ⟨e1, e2⟩ := List.append_inj' h rfl
    cases e2
    exact .inr ⟨l2', List.concat_eq_append, e1⟩

/-- A remote call without passes shows no token. -/
theorem shows_free {sign : Signer} {r : StorageRequest} (h : passesIn r = []) (x : String) : ¬ Shows sign r x := by
  rintro ⟨m, p, -, hp⟩
  unfold preimages at hp
  rw [h] at hp
  exact nomatch hp

theorem passesIn_request {op : StorageOp} (passes : List Bytes) (h : ¬ Free op) : passesIn (op.request passes) = passes := by
  cases op with
  | allocateBuckets => rfl
  | addLease => rfl
  | writev => rfl
  | _ => exact absurd trivial h

/-- A remote call with passes shows the tokens of the group. -/
theorem shows_paid {sign : Signer} {T : String → Prop} (hr : Recognisable sign T) {op : StorageOp} {g : PassGroup}
    (hg : GroupMade sign g) (ht : ∀ y ∈ g.unblinded_tokens, T y) {x : String} (hx : T x) (h : Shows sign (op.request (g.passes.map Pass.pass_bytes)) x) : x ∈ g.unblinded_tokens := by
  obtain ⟨m, p, h1, h2⟩ := h
  unfold preimages at h2
  by_cases hf : Free op
  · have : passesIn (op.request (g.passes.map Pass.pass_bytes)) = [] := by
      cases op with
      | allocateBuckets => exact hf.elim
      | addLease => exact hf.elim
      | writev => exact hf.elim
      | _ => rfl
    rw [this] at h2
    exact nomatch h2
  · rw [passesIn_request _ hf] at h2
    obtain ⟨b, hb, hbe⟩ := List.mem_map.mp h2
    obtain ⟨q, hq, rfl⟩ := List.mem_map.mp hb
    obtain ⟨⟨y, q'⟩, hyq, rfl⟩ := List.mem_map.mp hq
    have := (hr m x p g.message y q' hx (ht y (List.mem_map.mpr ⟨_, hyq, rfl⟩)) h1 (hg y q' hyq)).mp hbe.symm
    subst this
    exact List.mem_map.mpr ⟨_, hyq, rfl⟩

/-- Entries that are not remote calls. -/
theorem shown_log {sign : Signer} {T : String → Prop} {v : Int} {s s' : StorageSession} (h : ShownInv sign T v s)
    {y : Out} (hy : ∀ op r, y ≠ .sent op r) (base : SessionInv sign v s') (log : s'.log = s.log ++ [y])
    (tokens : ∀ x, Stored s'.store x → T x) (fate : ∀ op x l2, Fate s op l2 x → Fate s' op (l2 ++ [y]) x) :
    ShownInv sign T v s' := by
  refine ⟨base, tokens, ?_, ?_, ?_⟩
  · intro op r hm
    rw [log] at hm
    rcases List.mem_append.mp hm with hm | hm
    · exact h.known op r hm
    · exact absurd (List.mem_singleton.mp hm).symm (hy _ _)
  · intro l1 op r l2 e x ht hx
    rw [log] at e
    rcases log_snoc_split e with ⟨-, e2, -⟩ | ⟨l2', rfl, e2⟩
    · exact absurd e2.symm (hy _ _)
    · exact fate op x l2' (h.fate l1 op r l2' e2 x ht hx)
  · intro l1 op r l2 op' r' l3 e x ht hx hx'
    rw [log] at e
    have e' : s.log ++ [y] = (l1 ++ .sent op r :: l2) ++ .sent op' r' :: l3 := by simpa using e
    rcases log_snoc_split e' with ⟨-, e2, -⟩ | ⟨l3', rfl, e2⟩
    · exact absurd e2.symm (hy _ _)
    · exact h.twice l1 op r l2 op' r' l3' (by simpa using e2) x ht hx hx'

/-- One more entry of the log, written by a method. -/
theorem shown_move {sign : Signer} {T : String → Prop} (hr : Recognisable sign T) {v : Int} {s s' : StorageSession} {op0 : StorageOp}
    {own : List String} {m : Moved} {pre post : List (StorageOp × Call)} {mid : List (StorageOp × Call)} {pfx : List Out}
    (h : ShownInv sign T v s) (hm : ShowMove sign op0 own s.store m) (base : SessionInv sign v s')
    (paying : s.paying = pre ++ mid ++ post) (hmid : ∀ oc ∈ mid, oc.1 = op0 ∧ holds oc.2 = own)
    (hown : ∀ x ∈ own, ∃ oc ∈ mid, x ∈ holds oc.2)
    (paying' : s'.paying = pre ++ still_paying op0 m.1 ++ post) (store' : s'.store = m.2.2)
    (hpfx : ∀ op r, .sent op r ∉ pfx)
    (retry : ∀ c, m.1 = .paying c → own ≠ [] → Refused op0 pfx)
    (log' : s'.log = s.log ++ pfx ++ m.2.1) : ShownInv sign T v s' := by
  have hfate : ∀ op l2 x, Fate s op l2 x → Fate s' op (l2 ++ (pfx ++ m.2.1)) x := by
    intro op l2 x hf
    rcases hf with hf | hf | ⟨c, hc, hx⟩
    · refine .inl fun hst => hf (hm.stored x ?_)
      rwa [store'] at hst
    · exact .inr (.inl (givenBack_mono _ hf))
    · rw [paying, List.append_assoc] at hc
      rcases List.mem_append.mp hc with hc | hc
      · exact .inr (.inr ⟨c, by rw [paying', List.append_assoc]; exact List.mem_append_left _ hc, hx⟩)
      · rcases List.mem_append.mp hc with hc | hc
        · obtain ⟨h1, h2⟩ := hmid _ hc
          dsimp only at h1 h2
          subst h1
          rw [h2] at hx
          rcases hm.kept x hx with h3 | ⟨e, h3⟩ | ⟨res, h3, h4⟩ | ⟨c', h3, h4⟩
          · left
            rwa [store']
          · exact .inr (.inl (.inl ⟨e, List.mem_append_right _ (List.mem_append_right _ h3)⟩))
          · exact .inr (.inl (.inr (.inl ⟨res, List.mem_append_right _ (List.mem_append_right _ h3), h4⟩)))
          · refine .inr (.inr ⟨c', ?_, h4⟩)
            rw [paying', h3]
            simp [still_paying]
        · exact .inr (.inr ⟨c, by rw [paying']; exact List.mem_append_right _ hc, hx⟩)
  obtain ⟨y, hy, hsent⟩ := hm.out
  have hlog : s'.log = (s.log ++ pfx) ++ [y] := by rw [log', hy]
  have hold : ∀ {l1 op r l2}, s.log ++ pfx = l1 ++ .sent op r :: l2 → ∃ l2', l2 = l2' ++ pfx ∧ s.log = l1 ++ .sent op r :: l2' := by
    intro l1 op r l2 e
    rcases List.append_eq_append_iff.mp e with ⟨a, -, e2⟩ | ⟨a, e1, e2⟩
    · exact absurd (by rw [e2]; simp) (hpfx op r)
    · cases a with
      | nil => exact absurd (by rw [List.nil_append] at e2; rw [← e2]; simp) (hpfx op r)
      | cons z a =>
        cases e2
        exact ⟨a, rfl, e1⟩
  have hT : ∀ c, m.1 = .paying c → ∀ x ∈ holds c, T x := by
    intro c hc x hx
    rcases hm.fresh c hc x hx with h1 | ⟨h1, -⟩
    · obtain ⟨oc, hoc, hx3⟩ := hown x h1
      have hin : x ∈ s.store.temp.in_use := h.base.held.perm.mem_iff.mpr (List.mem_flatMap.mpr
        ⟨oc, by rw [paying]; exact List.mem_append_left _ (List.mem_append_right _ hoc), hx3⟩)
      obtain ⟨row, hrow, h4, -⟩ := h.base.held.wf.in_use_stored x hin
      exact h.tokens x ⟨row, hrow, h4⟩
    · exact h.tokens x h1
  refine ⟨base, fun x hx => h.tokens x (hm.stored x (by rwa [store'] at hx)), ?_, ?_, ?_⟩
  · intro op r hmem b hb
    rw [hlog] at hmem
    rcases List.mem_append.mp hmem with hmem | hmem
    · rcases List.mem_append.mp hmem with hmem | hmem
      · exact h.known op r hmem b hb
      · exact absurd hmem (hpfx op r)
    · obtain ⟨rfl, h1⟩ := hsent op r (List.mem_singleton.mp hmem).symm
      rcases h1 with h1 | ⟨c, h1, rfl, h2⟩
      · unfold preimages at hb
        rw [h1] at hb
        exact nomatch hb
      · by_cases hf : Free op
        · have : preimages (op.request (c.pass_group.passes.map Pass.pass_bytes)) = [] := by
            cases op with
            | allocateBuckets => exact hf.elim
            | addLease => exact hf.elim
            | writev => exact hf.elim
            | _ => rfl
          rw [this] at hb
          exact nomatch hb
        · unfold preimages at hb
          rw [passesIn_request _ hf] at hb
          obtain ⟨b', hb', rfl⟩ := List.mem_map.mp hb
          obtain ⟨q, hq, rfl⟩ := List.mem_map.mp hb'
          obtain ⟨⟨y, q'⟩, hyq, rfl⟩ := List.mem_map.mp hq
          exact ⟨y, _, q', hT c h1 y (List.mem_map.mpr ⟨_, hyq, rfl⟩), h2 y q' hyq, rfl⟩
  · intro l1 op r l2 e x ht hx
    rw [hlog] at e
    rcases log_snoc_split e with ⟨-, e2, rfl⟩ | ⟨l2', rfl, e2⟩
    · obtain ⟨rfl, h1⟩ := hsent op r e2.symm
      rcases h1 with h1 | ⟨c, h1, rfl, h2⟩
      · exact absurd hx (shows_free h1 x)
      · refine .inr (.inr ⟨c, ?_, shows_paid hr h2 (hT c h1) ht hx⟩)
        rw [paying', h1]
        simp [still_paying]
    · obtain ⟨l2'', rfl, e3⟩ := hold e2
      have := hfate op l2'' x (h.fate l1 op r l2'' e3 x ht hx)
      rwa [hy, ← List.append_assoc] at this
  · intro l1 op r l2 op' r' l3 e x ht hx hx'
    rw [hlog] at e
    have e' : (s.log ++ pfx) ++ [y] = (l1 ++ .sent op r :: l2) ++ .sent op' r' :: l3 := by simpa using e
    rcases log_snoc_split e' with ⟨e1, e2, rfl⟩ | ⟨l3', rfl, e2⟩
    · obtain ⟨rfl, h1⟩ := hsent op' r' e2.symm
      rcases h1 with h1 | ⟨c, h1, rfl, h2⟩
      · exact absurd hx' (shows_free h1 x)
      · have hxc : x ∈ holds c := shows_paid hr h2 (hT c h1) ht hx'
        obtain ⟨l2', rfl, e3⟩ := hold e1
        have hf := h.fate l1 op r l2' e3 x ht hx
        rcases hf with hf | hf | ⟨c', hc', hx2⟩
        · exfalso
          rcases hm.fresh c h1 x hxc with h3 | ⟨h3, -⟩
          · obtain ⟨oc, hoc, hx3⟩ := hown x h3
            have hin : x ∈ s.store.temp.in_use := h.base.held.perm.mem_iff.mpr (List.mem_flatMap.mpr
              ⟨oc, by rw [paying]; exact List.mem_append_left _ (List.mem_append_right _ hoc), hx3⟩)
            obtain ⟨row, hrow, h4, -⟩ := h.base.held.wf.in_use_stored x hin
            exact hf ⟨row, hrow, h4⟩
          · exact hf h3
        · exact .inl (givenBack_mono _ hf)
        · have hin : x ∈ s.store.temp.in_use := h.base.held.perm.mem_iff.mpr (List.mem_flatMap.mpr ⟨_, hc', hx2⟩)
          rcases hm.fresh c h1 x hxc with h3 | ⟨-, h3⟩
          · right
            obtain ⟨oc, hoc, hx3⟩ := hown x h3
            obtain ⟨h4, h5⟩ := hmid oc hoc
            obtain ⟨failed, now, h6, h7⟩ := retry c h1 (List.ne_nil_of_mem h3)
            have hsame : op' = op := by
              have hnod := h.base.held.nodup
              rw [paying, List.flatMap_append, List.flatMap_append] at hnod
              rw [paying, List.append_assoc] at hc'
              rw [List.nodup_append, List.nodup_append] at hnod
              have hxm : x ∈ mid.flatMap fun oc => holds oc.2 := List.mem_flatMap.mpr ⟨oc, hoc, hx3⟩
              rcases List.mem_append.mp hc' with hc' | hc'
              · exact absurd rfl (hnod.1.2.2 x (List.mem_flatMap.mpr ⟨_, hc', hx2⟩) x hxm)
              · rcases List.mem_append.mp hc' with hc' | hc'
                · exact (hmid _ hc').1.symm
                · exact absurd rfl (hnod.2.2 x (List.mem_append_right _ hxm) x (List.mem_flatMap.mpr ⟨_, hc', hx2⟩))
            subst hsame
            exact ⟨rfl, failed, now, List.mem_append_right _ h6, h7⟩
          · exact absurd hin h3
    · have e3 : s.log ++ pfx = l1 ++ .sent op r :: (l2 ++ .sent op' r' :: l3') := by simpa using e2
      have e4 : s.log ++ pfx = (l1 ++ .sent op r :: l2) ++ .sent op' r' :: l3' := by simpa using e2
      obtain ⟨l3'', -, e5⟩ := hold e4
      exact h.twice l1 op r l2 op' r' l3'' (by simpa using e5) x ht hx hx'

theorem shown_init (sign : Signer) (T : String → Prop) (v : Int) : ShownInv sign T v {} := by
  refine ⟨sessionInv_init sign v, fun _ ⟨_, h, _⟩ => (nomatch h), fun _ _ h => (nomatch h), ?_, ?_⟩
  · intro l1 op r l2 e
    have := congrArg List.length e
    simp at this
  · intro l1 op r l2 op' r' l3 e
    have := congrArg List.length e
    simp at this

theorem shown_step {sign : Signer} (hs : Signs sign) {T : String → Prop} (hr : Recognisable sign T) {v : Int} (hv : 0 < v) {s : StorageSession}
    (h : ShownInv sign T v s) (e : SessionEvent)
    (hn : ∀ op, e = .other op → ∀ x, Issues x op →
      x ∉ invalidTokens s.store ∧ ∀ op' r, .sent op' r ∈ s.log → ¬ Shows sign r x)
    (hi : ∀ op, e = .other op → ∀ x, Issues x op → T x) :
    ShownInv sign T v (s.step sign v e) := by
  have base := session_inv_step hs hv h.base e fun op e x hx => (hn op e x hx).1
  cases e with
  | start op get_rref o =>
    exact shown_move hr (pre := s.paying) (mid := []) (post := []) (pfx := []) h
      (show_start hs h.base.held o get_rref) base (by simp) (fun _ h => (nomatch h)) (fun _ h => (nomatch h))
      (by simp [StorageSession.step]) rfl (fun _ _ h => (nomatch h)) (fun _ _ hne => absurd rfl hne)
      (by simp [StorageSession.step])
  | answer i reply now o =>
    unfold StorageSession.step at base ⊢
    dsimp only at base ⊢
    split
    · exact h
    · rename_i op hi
      rw [hi] at base
      exact shown_move hr (pre := s.paying) (mid := []) (post := []) (pfx := [.got op reply now]) h
        (show_asked hs h.base.held o now reply) base (by simp) (fun _ h => (nomatch h)) (fun _ h => (nomatch h))
        (by simp) rfl (fun _ _ h => by simp at h) (fun _ _ hne => absurd rfl hne)
        (by simp)
  | answerPaid i reply now o =>
    unfold StorageSession.step at base ⊢
    dsimp only at base ⊢
    split
    · exact h
    · rename_i op c hi
      rw [hi] at base
      have hp := h.base.paying _ (List.mem_of_getElem? hi)
      have hh := h.base.held
      rw [getElem?_split hi] at hh
      have hh' : Held s.store (((s.paying.take i).flatMap fun oc => holds oc.2) ++ c.pass_group.unblinded_tokens ++
          ((s.paying.drop (i + 1)).flatMap fun oc => holds oc.2)) := by
        simpa [holds, PassGroup.unblinded_tokens] using hh
      obtain ⟨h1, h2⟩ := show_paid_answer hs hv hh' o reply hp
      refine shown_move hr (pre := s.paying.take i) (mid := [(op, c)]) (post := s.paying.drop (i + 1))
        (pfx := [.got op reply now]) h h1 base (getElem?_split hi) ?_ ?_ rfl rfl (fun _ _ h => by simp at h) ?_ (by simp)
      · intro oc hoc
        rw [List.mem_singleton.mp hoc]
        exact ⟨rfl, rfl⟩
      · intro x hx
        exact ⟨_, List.mem_singleton.mpr rfl, hx⟩
      · intro c' hc' _
        obtain ⟨failed, rfl, hf⟩ := h2 c' hc'
        exact ⟨failed, now, List.mem_singleton.mpr rfl, hf⟩
  | other op =>
    unfold StorageSession.step at base ⊢
    dsimp only at base ⊢
    split
    · rename_i ho
      rw [if_pos ho] at base
      refine ⟨base, ?_, h.known, ?_, h.twice⟩
      · rintro x ⟨row, hrow, rfl⟩
        rcases (outside_temp ho s.store).2.2 row hrow with h1 | h1
        · exact h.tokens _ ⟨row, h1, rfl⟩
        · exact hi op rfl _ h1
      intro l1 op' r l2 e x ht hx
      rcases h.fate l1 op' r l2 e x ht hx with hf | hf | hf
      · refine .inl ?_
        rintro ⟨row, hrow, rfl⟩
        rcases (outside_temp ho s.store).2.2 row hrow with h1 | h1
        · exact hf ⟨row, h1, rfl⟩
        · exact (hn op rfl row.token h1).2 op' r (by rw [e]; simp) hx
      · exact .inr (.inl hf)
      · exact .inr (.inr hf)
    · exact h
  | restart =>
    exact shown_log h (y := .restarted) (fun _ _ e => nomatch e) base rfl h.tokens fun op x l2 _ =>
      .inr (.inl (.inr (.inr (List.mem_append_right _ (List.mem_singleton.mpr rfl)))))

theorem shown_run {sign : Signer} (hs : Signs sign) {T : String → Prop} (hr : Recognisable sign T) {v : Int} (hv : 0 < v)
    (es : List SessionEvent) {s : StorageSession} (h : ShownInv sign T v s) (hn : NeverReissued sign v s es)
    (hi : ∀ x, IssuedIn es x → T x) :
    ShownInv sign T v (s.run sign v es) := by
  induction es generalizing s with
  | nil => exact h
  | cons e es ih =>
    have h1 := shown_step hs hr hv h e hn.1 fun op he x hx => hi x ⟨op, by rw [he]; exact List.mem_cons_self, hx⟩
    exact ih h1 hn.2 fun x ⟨op, h2, h3⟩ => hi x ⟨op, List.mem_cons_of_mem _ h2, h3⟩

/-! ### Tokens that are gone -/

/-- A step shows tokens that are stored; stored tokens were stored before or are issued. -/
theorem step_shows_stored {sign : Signer} (hs : Signs sign) {T : String → Prop} (hr : Recognisable sign T) {v : Int} (hv : 0 < v)
    {s : StorageSession} (h : SessionInv sign v s) (ht : ∀ x, Stored s.store x → T x) (e : SessionEvent) :
    (∃ l, (s.step sign v e).log = s.log ++ l ∧
      ∀ op r, .sent op r ∈ l → ∀ x, T x → Shows sign r x → Stored s.store x) ∧
    ∀ x, Stored (s.step sign v e).store x → Stored s.store x ∨ ∃ op, e = .other op ∧ Issues x op := by
  have one : ∀ {op : StorageOp} {own : List String} {m : Moved}, ShowMove sign op own s.store m → ∀ pfx : List Out,
      (∀ op r, .sent op r ∉ pfx) → (∀ x ∈ own, Stored s.store x) → ∀ op r, .sent op r ∈ pfx ++ m.2.1 →
      ∀ x, T x → Shows sign r x → Stored s.store x := by
    intro op own m hm pfx hp hown op' r hmem x hx hsh
    obtain ⟨y, hy, hsent⟩ := hm.out
    rw [hy] at hmem
    rcases List.mem_append.mp hmem with h1 | h1
    · exact absurd h1 (hp op' r)
    · obtain ⟨rfl, h2⟩ := hsent op' r (List.mem_singleton.mp h1).symm
      rcases h2 with h2 | ⟨c, h2, rfl, h3⟩
      · exact absurd hsh (shows_free h2 x)
      · have hst : ∀ y ∈ holds c, Stored s.store y := fun y hy => (hm.fresh c h2 y hy).elim (hown y) And.left
        exact hst x (shows_paid hr h3 (fun y hy => ht y (hst y hy)) hx hsh)
  cases e with
  | start op get_rref o =>
    have hm := show_start hs (v := v) (op := op) h.held o get_rref
    exact ⟨⟨_, rfl, fun op' r hx => one hm [] (fun _ _ h => (nomatch h)) (fun _ h => (nomatch h)) op' r hx⟩, fun x hx => .inl (hm.stored x hx)⟩
  | answer i reply now o =>
    unfold StorageSession.step
    dsimp only
    split
    · exact ⟨⟨[], by simp, fun _ _ h => (nomatch h)⟩, fun x hx => .inl hx⟩
    · rename_i op hi
      have hm := show_asked hs (v := v) (op := op) h.held o now reply
      exact ⟨⟨_, rfl, fun op' r hx => one hm [.got op reply now] (fun _ _ h => by simp at h) (fun _ h => (nomatch h)) op' r hx⟩,
        fun x hx => .inl (hm.stored x hx)⟩
  | answerPaid i reply now o =>
    unfold StorageSession.step
    dsimp only
    split
    · exact ⟨⟨[], by simp, fun _ _ h => (nomatch h)⟩, fun x hx => .inl hx⟩
    · rename_i op c hi
      have hp := h.paying _ (List.mem_of_getElem? hi)
      have hh := h.held
      rw [getElem?_split hi] at hh
      have hh' : Held s.store (((s.paying.take i).flatMap fun oc => holds oc.2) ++ c.pass_group.unblinded_tokens ++
          ((s.paying.drop (i + 1)).flatMap fun oc => holds oc.2)) := by
        simpa [holds, PassGroup.unblinded_tokens] using hh
      have hown : ∀ x ∈ holds c, Stored s.store x := by
        intro x hx
        obtain ⟨row, hrow, h6, -⟩ := h.held.wf.in_use_stored x
          (h.held.perm.mem_iff.mpr (List.mem_flatMap.mpr ⟨_, List.mem_of_getElem? hi, hx⟩))
        exact ⟨row, hrow, h6⟩
      obtain ⟨hm, -⟩ := show_paid_answer hs hv hh' o reply hp
      exact ⟨⟨_, rfl, fun op' r hx => one hm [.got op reply now] (fun _ _ h => by simp at h) hown op' r hx⟩,
        fun x hx => .inl (hm.stored x hx)⟩
  | other op =>
    unfold StorageSession.step
    dsimp only
    split
    · rename_i ho
      refine ⟨⟨[], by simp, fun _ _ h => (nomatch h)⟩, ?_⟩
      rintro x ⟨row, hrow, rfl⟩
      rcases (outside_temp ho s.store).2.2 row hrow with h1 | h1
      · exact .inl ⟨row, h1, rfl⟩
      · exact .inr ⟨op, rfl, h1⟩
    · exact ⟨⟨[], by simp, fun _ _ h => (nomatch h)⟩, fun x hx => .inl hx⟩
  | restart => exact ⟨⟨[.restarted], rfl, fun _ _ h => by simp at h⟩, fun x hx => .inl hx⟩

/-- A token that was sent and is no longer stored is never sent again. -/
theorem gone_run_session {sign : Signer} (hs : Signs sign) {T : String → Prop} (hr : Recognisable sign T) {v : Int}
    (hv : 0 < v) (es : List SessionEvent) {s : StorageSession} (h : ShownInv sign T v s)
    (hn : NeverReissued sign v s es) (hi : ∀ x, IssuedIn es x → T x) {x : String} (hx : T x)
    (shown : ∃ op r, .sent op r ∈ s.log ∧ Shows sign r x) (gone : ¬ Stored s.store x) :
    ∃ l, (s.run sign v es).log = s.log ++ l ∧ ∀ op r, .sent op r ∈ l → ¬ Shows sign r x := by
  induction es generalizing s with
  | nil => exact ⟨[], by simp [StorageSession.run], fun _ _ h => (nomatch h)⟩
  | cons e es ih =>
    have h1 := shown_step hs hr hv h e hn.1 fun op he x hx => hi x ⟨op, by rw [he]; exact List.mem_cons_self, hx⟩
    obtain ⟨⟨l, hl, hlast⟩, hst⟩ := step_shows_stored hs hr hv h.base h.tokens e
    have gone' : ¬ Stored (s.step sign v e).store x := by
      intro hc
      rcases hst x hc with hc | ⟨op, he, hc2⟩
      · exact gone hc
      · obtain ⟨op', r, h2, h3⟩ := shown
        exact (hn.1 op he x hc2).2 op' r h2 h3
    obtain ⟨op0, r0, h2, h3⟩ := shown
    obtain ⟨l', hl', hl''⟩ := ih h1 hn.2 (fun x ⟨op, h2, h3⟩ => hi x ⟨op, List.mem_cons_of_mem _ h2, h3⟩)
      ⟨op0, r0, by rw [hl]; exact List.mem_append_left _ h2, h3⟩ gone'
    refine ⟨l ++ l', ?_, ?_⟩
    · change ((s.step sign v e).run sign v es).log = _
      rw [hl', hl, List.append_assoc]
    · intro op r hm hsh
      rcases List.mem_append.mp hm with hm | hm
      · exact gone (hlast op r hm x hx hsh)
      · exact hl'' op r hm hsh

end ZKAP
