import Verif.Spec.Worth
import Verif.Lemmas.Balance
import Verif.Lemmas.PassReuse
import Verif.Lemmas.Recurrence
import Verif.Lemmas.RealSigner

/-! Lemmas about what the vouchers of a node are for. -/
namespace ZKAP
open Spec

theorem nodup_bytes_length {l m : List Bytes} (hl : l.Nodup) (h : ∀ x ∈ l, x ∈ m) : l.length ≤ m.length := by
  induction l generalizing m with
  | nil => exact Nat.zero_le _
  | cons x l ih =>
    obtain ⟨h1, h2⟩ := List.nodup_cons.mp hl
    have hx := h x List.mem_cons_self
    have := ih h2 (m := m.erase x) fun y hy =>
      (List.mem_erase_of_ne (fun e : y = x => h1 (e ▸ hy))).mpr (h y (List.mem_cons_of_mem _ hy))
    rw [List.length_erase_of_mem hx] at this
    have := List.length_pos_of_mem hx
    rw [List.length_cons]
    omega

/-- Tokens that are recorded as given, the passes of which are all that was sent. -/
structure Given (sign : Signer) (s : StorageSession) (l : List String) : Prop where
  many : l.length = givenByVouchers s.store
  stored : ∀ x, Stored s.store x → x ∈ l
  sent : ∀ op r, .sent op r ∈ s.log → ∀ b ∈ preimages r, ∃ x ∈ l, ∃ m p, MadeFor sign m x p ∧ p.pass_bytes.take 88 = b

theorem given_init (sign : Signer) : Given sign {} [] :=
  ⟨rfl, fun _ ⟨_, h, _⟩ => (nomatch h), fun _ _ h => (nomatch h)⟩

theorem outside_rows {op : StoreOp} (ho : outside op = true) (t : Tables) :
    ∃ extra, (op.step t).2.app.unblinded = t.app.unblinded ++ extra := by
  by_cases hn : Neutral op
  · exact ⟨[], by rw [List.append_nil]; exact (step_neutral hn t).1⟩
  · cases op <;> simp only [Neutral, not_true] at hn <;> simp only [outside, Bool.false_eq_true] at ho
    simp only [StoreOp.step, StoreOp.prog, transact_map]
    rw [insert_eq]
    split
    · exact ⟨[], (List.append_nil _).symm⟩
    · split
      · exact ⟨_, rfl⟩
      · exact ⟨[], (List.append_nil _).symm⟩

theorem outside_given {op : StoreOp} (ho : outside op = true) {t : Tables} (h : StoreWF t) :
    ∃ extra : List String, givenByVouchers (op.step t).2 = givenByVouchers t + extra.length ∧
      ∀ x, Stored (op.step t).2 x → Stored t x ∨ x ∈ extra := by
  obtain ⟨extra, he⟩ := outside_rows ho t
  refine ⟨extra.map (·.token), ?_, ?_⟩
  · have h1 := outside_shifts ho h
    have h2 := (outside_temp ho t).2.1
    unfold Shifts kept at h1
    rw [he, h2, List.length_append] at h1
    rw [List.length_map]
    omega
  · rintro x ⟨r, hr, rfl⟩
    rw [he] at hr
    rcases List.mem_append.mp hr with hr | hr
    · exact .inl ⟨r, hr, rfl⟩
    · exact .inr (List.mem_map_of_mem hr)

theorem via_given {t t' : Tables} (h : Via t t') : givenByVouchers t' = givenByVouchers t := by
  obtain ⟨ops, h1, rfl⟩ := h.ops
  clear h
  unfold givenByVouchers
  suffices (runStore ops t).app.vouchers = t.app.vouchers by rw [this]
  induction ops generalizing t with
  | nil => rfl
  | cons op ops ih =>
    have := ih (t := (op.step t).2) (fun op h => h1 op (List.mem_cons_of_mem _ h))
    exact this.trans (other_effect op (h1 op List.mem_cons_self) t).2

theorem preimages_made {sign : Signer} {op : StorageOp} {g : PassGroup} (hg : GroupMade sign g) :
    ∀ b ∈ preimages (op.request (g.passes.map Pass.pass_bytes)), ∃ x ∈ g.unblinded_tokens, ∃ m p,
      MadeFor sign m x p ∧ p.pass_bytes.take 88 = b := by
  intro b hb
  unfold preimages at hb
  obtain ⟨w, hw, rfl⟩ := List.mem_map.mp hb
  have : w ∈ g.passes.map Pass.pass_bytes := by
    cases op <;> first | exact hw | exact nomatch hw
  obtain ⟨p, hp, rfl⟩ := List.mem_map.mp this
  obtain ⟨⟨x, p'⟩, hx, rfl⟩ := List.mem_map.mp hp
  exact ⟨x, List.mem_map_of_mem hx, _, _, hg x p' hx, rfl⟩

theorem given_step {sign : Signer} (hs : Signs sign) {v : Int} (hv : 0 < v) {s : StorageSession}
    (h : SessionInv sign v s) {l : List String} (hg : Given sign s l) (e : SessionEvent) :
    ∃ l', Given sign (s.step sign v e) l' := by
  have one : ∀ {op : StorageOp} {own : List String} {m : Moved} {s' : StorageSession}, ShowMove sign op own s.store m →
      ∀ pfx : List Out, (∀ op r, .sent op r ∉ pfx) → (∀ x ∈ own, Stored s.store x) → Via s.store m.2.2 →
      s'.store = m.2.2 → s'.log = s.log ++ (pfx ++ m.2.1) → Given sign s' l := by
    intro op own m s' hm pfx hp hown hvia hstore hlog
    refine ⟨?_, ?_, ?_⟩
    · rw [hstore, via_given hvia]; exact hg.many
    · intro x hx
      rw [hstore] at hx
      exact hg.stored x (hm.stored x hx)
    · intro op' r hmem b hb
      rw [hlog] at hmem
      rcases List.mem_append.mp hmem with h1 | h1
      · exact hg.sent op' r h1 b hb
      · obtain ⟨y, hy, hsent⟩ := hm.out
        rw [hy] at h1
        rcases List.mem_append.mp h1 with h1 | h1
        · exact absurd h1 (hp op' r)
        · obtain ⟨rfl, h2⟩ := hsent op' r (List.mem_singleton.mp h1).symm
          rcases h2 with h2 | ⟨c, h2, rfl, h3⟩
          · unfold preimages at hb
            rw [h2] at hb
            exact nomatch hb
          · obtain ⟨x, hx, rest⟩ := preimages_made h3 b hb
            exact ⟨x, hg.stored x ((hm.fresh c h2 x hx).elim (hown x) And.left), rest⟩
  cases e with
  | start op get_rref o =>
    exact ⟨l, one (show_start hs (v := v) (op := op) h.held o get_rref) [] (fun _ _ h => (nomatch h))
      (fun _ h => (nomatch h)) (via_op_start ..) rfl rfl⟩
  | answer i reply now o =>
    unfold StorageSession.step
    dsimp only
    split
    · exact ⟨l, hg⟩
    · rename_i op hi
      exact ⟨l, one (show_asked hs (v := v) (op := op) h.held o now reply) [.got op reply now]
        (fun _ _ h => by simp at h) (fun _ h => (nomatch h)) (via_op_asked ..) rfl rfl⟩
  | answerPaid i reply now o =>
    unfold StorageSession.step
    dsimp only
    split
    · exact ⟨l, hg⟩
    · rename_i op c hi
      have hp := h.paying _ (List.mem_of_getElem? hi)
      have hh := h.held
      rw [getElem?_split hi] at hh
      have hh' : Held s.store (((s.paying.take i).flatMap fun oc => holds oc.2) ++ c.pass_group.unblinded_tokens ++
          ((s.paying.drop (i + 1)).flatMap fun oc => holds oc.2)) := by
        simpa [holds, PassGroup.unblinded_tokens] using hh
      have hown : ∀ x ∈ holds c, Stored s.store x := by
        intro x hx
        obtain ⟨row, hrow, h6, -⟩ := h.held.wf.in_use_stored x
          (h.held.perm.mem_iff.mpr (List.mem_flatMap.mpr ⟨_, List.mem_of_getElem? hi, hx⟩))
        exact ⟨row, hrow, h6⟩
      exact ⟨l, one (show_paid_answer hs hv hh' o reply hp).1 [.got op reply now] (fun _ _ h => by simp at h) hown
        (via_op_paid ..) rfl rfl⟩
  | other op =>
    unfold StorageSession.step
    dsimp only
    split
    · rename_i ho
      obtain ⟨extra, h1, h2⟩ := outside_given ho h.held.wf
      refine ⟨l ++ extra, ?_, ?_, ?_⟩
      · rw [List.length_append, hg.many]; exact h1.symm
      · intro x hx
        rcases h2 x hx with h3 | h3
        · exact List.mem_append_left _ (hg.stored x h3)
        · exact List.mem_append_right _ h3
      · intro op' r hm b hb
        obtain ⟨x, hx, rest⟩ := hg.sent op' r hm b hb
        exact ⟨x, List.mem_append_left _ hx, rest⟩
    · exact ⟨l, hg⟩
  | restart =>
    refine ⟨l, hg.many, hg.stored, fun op r hm => hg.sent op r ?_⟩
    rcases List.mem_append.mp hm with h1 | h1
    · exact h1
    · simp at h1

theorem given_run {sign : Signer} (hs : Signs sign) {v : Int} (hv : 0 < v) (es : List SessionEvent) {s : StorageSession}
    (h : SessionInv sign v s) (hr : NoReissueIn sign v s es) {l : List String} (hg : Given sign s l) :
    ∃ l', Given sign (s.run sign v es) l' := by
  induction es generalizing s l with
  | nil => exact ⟨l, hg⟩
  | cons e es ih =>
    obtain ⟨l', hg'⟩ := given_step hs hv h hg e
    exact ih (session_inv_step hs hv h e hr.1) hr.2 hg'

/-- There are no more different passes than tokens. -/
theorem given_limit {sign : Signer} (one : OnePreimage sign) {s : StorageSession} {l : List String} (hg : Given sign s l)
    {passes : List Bytes} (h : DifferentPasses s.log passes) : passes.length ≤ givenByVouchers s.store := by
  classical
  let f : String → Bytes := fun x =>
    if hx : ∃ b m p, MadeFor sign m x p ∧ p.pass_bytes.take 88 = b then hx.choose else []
  have key := nodup_bytes_length (m := l.map f) h.different (by
    intro b hb
    obtain ⟨op, r, h1, h2⟩ := h.sent b hb
    obtain ⟨x, hx, m, p, h3, h4⟩ := hg.sent op r h1 b h2
    refine List.mem_map.mpr ⟨x, hx, ?_⟩
    have hex : ∃ b m p, MadeFor sign m x p ∧ p.pass_bytes.take 88 = b := ⟨b, m, p, h3, h4⟩
    have hf : f x = hex.choose := dif_pos hex
    rw [hf]
    obtain ⟨m', q, h5, h6⟩ := hex.choose_spec
    rw [← h6, ← h4]
    exact one m' m x q p h5 h3)
  rw [List.length_map, hg.many] at key
  exact key

/-! ### Real passes -/

theorem single_pass_eq (L : Ristretto) (hL : Lawful L) (m : Bytes) (x : String) :
    single_pass (ristretto_signer L) m x =
      match L.unblinded_tokens.decode (ascii x) with
      | none => ⟨[], []⟩
      | some b => ⟨L.preimages.encode b.1, L.signatures.encode (L.sign (L.derive b.1 b.2) m)⟩ := by
  unfold single_pass ristretto_signer tokens_to_passes
  cases hd : L.unblinded_tokens.decode (ascii x) with
  | none => simp only [List.map_cons, List.map_nil, try_map, Codec.decode_base64, hd]
  | some b =>
    have hn : Pass.new (L.preimages.encode b.1) (L.signatures.encode (L.sign (L.derive b.1 b.2) m)) =
        .ok ⟨L.preimages.encode b.1, L.signatures.encode (L.sign (L.derive b.1 b.2) m)⟩ := by
      rw [Pass.new_ok]
      refine ⟨?_, ?_, rfl⟩
      · unfold Codec.encode; rw [b64encode_length, hL.preimage_size]
      · unfold Codec.encode; rw [b64encode_length, hL.signature_size]
    simp only [List.map_cons, List.map_nil, try_map, Codec.decode_base64, hd, List.zip_cons_cons, List.zip_nil_left, hn]

theorem each_onePreimage (L : Ristretto) (hL : Lawful L) : OnePreimage (each_signer (ristretto_signer L)) := by
  rintro m m' x p q ⟨ts, ps, h1, h2⟩ ⟨ts', qs, h3, h4⟩
  cases h1
  cases h3
  rw [mem_zip_map h2, mem_zip_map h4, single_pass_eq L hL, single_pass_eq L hL]
  cases L.unblinded_tokens.decode (ascii x) with
  | none => rfl
  | some b =>
    have hl : (L.preimages.encode b.1).length = 88 := by
      unfold Codec.encode; rw [b64encode_length, hL.preimage_size]
    unfold Pass.pass_bytes
    dsimp only
    rw [List.take_append_of_le_length (by omega), List.take_append_of_le_length (by omega)]

/-! ### What vouchers are for -/

theorem sum_le_sum {α} (f g : α → Nat) (l : List α) (h : ∀ x ∈ l, f x ≤ g x) : (l.map f).sum ≤ (l.map g).sum := by
  induction l with
  | nil => exact Nat.le_refl _
  | cons x l ih =>
    have h1 := h x List.mem_cons_self
    have h2 := ih fun y hy => h y (List.mem_cons_of_mem _ hy)
    simp only [List.map_cons, List.sum_cons]
    omega

end ZKAP
