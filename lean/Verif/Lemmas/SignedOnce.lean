import Verif.Lemmas.Recurrence

/-! Lemmas about issuers that redeem each group of a voucher for one list of random tokens. -/
namespace ZKAP
open Spec

theorem try_map_defined {α β ε} {f : α → Except ε β} {l : List α} {r : List β} (h : try_map f l = .ok r) :
    ∀ x ∈ l, ∃ y, f x = .ok y := by
  induction l generalizing r with
  | nil => exact fun _ h => (nomatch h)
  | cons x xs ih =>
    unfold try_map at h
    cases hx : f x with
    | error e => rw [hx] at h; exact nomatch h
    | ok y =>
      rw [hx] at h
      cases hxs : try_map f xs with
      | error e => rw [hxs] at h; exact nomatch h
      | ok ys =>
        intro z hz
        rcases List.mem_cons.mp hz with rfl | hz
        · exact ⟨y, hx⟩
        · exact ih hxs z hz

/-- Random tokens for which the issuer gave signatures can be read. -/
theorem answer_readable {L : Ristretto} {issuer : RedeemRequest → Option Json} {voucher : String} {counter : Nat}
    {ts : List String} {pk : String} {us : List String}
    (h : to_answer (redeemWithCounter L issuer voucher counter (ts.map ascii)) = .success pk us) :
    ∀ r ∈ ts, ∃ p, HasPreimage L r p := by
  unfold to_answer at h
  split at h
  · rename_i pk' toks he
    unfold redeemWithCounter at he
    split at he
    · exact nomatch he
    · rename_i tokens hb
      intro r hr
      unfold basic_random_tokens at hb
      obtain ⟨t, ht⟩ := try_map_defined hb (ascii r) (List.mem_map_of_mem hr)
      unfold Codec.decode_base64 at ht
      split at ht
      · rename_i t' he'
        exact ⟨t'.1, t'.2, he'⟩
      · cases ht
  · exact nomatch h
  · exact nomatch h
  · exact nomatch h

theorem AnsweredFor.mono {log l : List Happening} {v : String} {g : Nat} {ts : List String} (h : AnsweredFor log v g ts) :
    AnsweredFor (log ++ l) v g ts := by
  obtain ⟨l₁, l₂, l₃, pk, us, rfl, h⟩ := h
  exact ⟨l₁, l₂, l₃ ++ l, pk, us, by simp, h⟩

theorem SignedOnce.prefix {log l : List Happening} (h : SignedOnce (log ++ l)) : SignedOnce log :=
  fun v g ts ts' h1 h2 => h v g ts ts' (AnsweredFor.mono h1) (AnsweredFor.mono h2)

theorem answered_head {cfg : RedeemCfg} {c : Controller} (hr : RInv cfg c) (e : RedeemEvent) {f : Frame} {a : IssuerAnswer}
    {rest : List Task} (h : (c.step cfg e).todo = .answered f a :: rest) : c.step cfg e = c ∨
      ∃ i s, e = .answer i a ∧ c.waiting[i]? = some s ∧ s.frame = f ∧
        (c.step cfg e).log = c.log ++ [.answer f.voucher f.counter a] ∧ (c.step cfg e).store = c.store := by
  have nocall : ∀ {l : List Task}, (∀ x ∈ l, x.isCall = true) → l = .answered f a :: rest → False := by
    rintro l hl rfl
    exact nomatch hl _ List.mem_cons_self
  cases e with
  | crash => exact (nocall (check_pending_calls _) h).elim
  | other op =>
    simp only [Controller.step] at h ⊢
    split at h
    · rename_i hc
      simp only [Bool.and_eq_true, List.isEmpty_iff] at hc
      rw [hc.1] at h
      exact nomatch h
    · rename_i hc; rw [if_neg hc]; exact .inl rfl
  | redeem w n =>
    simp only [Controller.step] at h ⊢
    split at h
    · exact nomatch h
    · rename_i hc; rw [if_neg hc]; exact .inl rfl
  | timer =>
    simp only [Controller.step] at h ⊢
    split at h
    · refine (nocall ?_ h).elim
      intro x hx
      obtain ⟨w, _, rfl⟩ := List.mem_map.mp hx
      rfl
    · rename_i hc; rw [if_neg hc]; exact .inl rfl
  | answer i a' =>
    simp only [Controller.step] at h ⊢
    cases hw : c.waiting[i]? with
    | none => exact .inl rfl
    | some s =>
      rw [hw] at h
      dsimp only at h ⊢
      by_cases hc : c.todo.all (·.isCall) = true
      · rw [if_pos hc] at h ⊢
        cases h
        exact .inr ⟨i, s, rfl, hw, rfl, rfl, rfl⟩
      · rw [if_neg hc]; exact .inl rfl
  | work env =>
    have hcalls := hr.calls
    simp only [Controller.step] at h ⊢
    split at h
    · exact .inl rfl
    · rename_i task todo ht
      rw [ht] at hcalls
      have no := nocall (l := todo) hcalls
      exfalso
      cases task <;> simp only [Task.run, contact_issuer, resume, redeem_success] at h <;> (repeat' split at h) <;>
        first
        | exact no h
        | (simp at h; done)
        | skip
      · rename_i a' _ _
        cases a' <;> exact no h

theorem frames_step {cfg : RedeemCfg} {c : Controller} (e : RedeemEvent) {f' : Frame}
    (h : f' ∈ frames (c.step cfg e)) : f' ∈ frames c ∨
      (∃ rest w n, c.todo = .redeem w n :: rest ∧ redeem_start cfg w n { c with todo := rest } = .ok (some f')) ∨
      (∃ f pk us rest, c.todo = .answered f (.success pk us) :: rest ∧ f' = { f with counter := f.counter + 1 } ∧
        (c.step cfg e).log = c.log ++ [.stored f.voucher f.counter pk us]) := by
  cases e with
  | crash =>
    simp only [Controller.step, frames, frames_calls (check_pending_calls _), List.map_nil, List.append_nil,
      List.not_mem_nil] at h
  | other op => left; simp only [Controller.step] at h; split at h <;> exact h
  | redeem w n =>
    left
    simp only [Controller.step] at h
    split at h
    · exact List.mem_append_left _ (by simpa [frames, taskFrame] using h)
    · exact h
  | timer =>
    left
    simp only [Controller.step] at h
    split at h
    · have : (retry_redemption c).filterMap taskFrame = [] := by
        apply frames_calls
        intro x hx
        obtain ⟨w, _, rfl⟩ := List.mem_map.mp hx
        rfl
      simp only [frames, this, List.append_nil] at h
      exact List.mem_append_left _ h
    · exact h
  | answer i a =>
    left
    simp only [Controller.step] at h
    split at h
    · exact h
    · rename_i s hs
      split at h
      · have hp := take_drop_perm _ _ _ hs
        simp only [frames, List.filterMap_cons, taskFrame, List.mem_append, List.mem_cons] at h ⊢
        rcases h with hf | rfl | hf
        · left
          obtain ⟨s', hs', rfl⟩ := List.mem_map.mp hf
          exact List.mem_map_of_mem (hp.mem_iff.mp (List.mem_cons_of_mem _ hs'))
        · left
          exact List.mem_map_of_mem (f := fun s : Suspended => s.frame) (hp.mem_iff.mp List.mem_cons_self)
        · exact .inr hf
      · exact h
  | work env =>
    cases ht : c.todo with
    | nil => left; simp only [Controller.step, ht] at h; exact h
    | cons task todo =>
      have hstep : c.step cfg (.work env) = task.run cfg env { c with todo := todo } := by
        simp only [Controller.step, ht]
      have hw : ∀ g ∈ c.waiting.map (·.frame), g ∈ frames c := fun g hg => List.mem_append_left _ hg
      have htd : ∀ g ∈ todo.filterMap taskFrame, g ∈ frames c := fun g hg => by
        refine List.mem_append_right _ ?_
        rw [ht, List.filterMap_cons]
        split
        · exact hg
        · exact List.mem_cons_of_mem _ hg
      have hhd : ∀ g, taskFrame task = some g → g ∈ frames c := fun g hg => by
        refine List.mem_append_right _ ?_
        rw [ht, List.filterMap_cons, hg]
        exact List.mem_cons_self
      have plain : ∀ {c' : Controller}, f' ∈ frames c' → c'.waiting = c.waiting → c'.todo = todo → f' ∈ frames c := by
        intro c' h3 h1 h2
        simp only [frames, h1, h2, List.mem_append] at h3
        rcases h3 with h3 | h3
        · exact hw _ h3
        · exact htd _ h3
      rw [hstep] at h ⊢
      cases task with
      | redeem w n =>
        simp only [Task.run] at h
        split at h
        · exact .inl (plain h rfl rfl)
        · exact .inl (plain h rfl rfl)
        · rename_i f hs
          simp only [frames, List.filterMap_cons, taskFrame, List.mem_append, List.mem_cons] at h
          rcases h with h | rfl | h
          · exact .inl (hw _ h)
          · exact .inr (.inl ⟨todo, w, n, rfl, hs⟩)
          · exact .inl (htd _ h)
      | retry w =>
        left
        simp only [Task.run] at h
        split at h
        · exact plain h rfl rfl
        · split at h
          · simp only [frames, List.filterMap_nil, List.append_nil] at h
            exact hw _ h
          · split at h
            · simp only [frames, List.filterMap_cons, taskFrame, List.mem_append] at h
              rcases h with h | h
              · exact hw _ h
              · exact htd _ h
            · exact plain h rfl rfl
      | iterate f =>
        left
        simp only [Task.run] at h
        split at h
        · split at h
          · exact plain h rfl rfl
          · simp only [frames, List.filterMap_cons, taskFrame, List.mem_append, List.mem_cons] at h
            rcases h with h | rfl | h
            · exact hw _ h
            · exact hhd _ rfl
            · exact htd _ h
        · exact plain h rfl rfl
      | perform f ts =>
        left
        simp only [Task.run, contact_issuer] at h
        split at h
        · exact plain h rfl rfl
        · split at h
          · simp only [frames, List.map_append, List.map_cons, List.map_nil, List.mem_append, List.mem_singleton] at h
            rcases h with (h | rfl) | h
            · exact hw _ h
            · exact hhd _ rfl
            · exact htd _ h
          · exact plain h rfl rfl
      | answered f a =>
        cases a with
        | success pk us =>
          simp only [Task.run, resume, redeem_success] at h ⊢
          rcases insert_effect env.now f.voucher pk us (f.counter + 1 == cfg.num_redemption_groups)
              (decide (pk ∈ cfg.allowed_public_keys)) c.store with ⟨err, he⟩ | ⟨row, hrow, he⟩
          · rw [he] at h; exact .inl (plain h rfl rfl)
          · rw [he] at h ⊢
            simp only [frames, List.filterMap_cons, taskFrame, List.mem_append, List.mem_cons] at h
            rcases h with h | rfl | h
            · exact .inl (hw _ h)
            · exact .inr (.inr ⟨f, pk, us, todo, rfl, rfl, rfl⟩)
            · exact .inl (htd _ h)
        | alreadySpent => exact .inl (plain h rfl rfl)
        | unpaid => exact .inl (plain h rfl rfl)
        | failed d => exact .inl (plain h rfl rfl)

/-- A random token that can be read was sent for the group and signed. -/
def SignedFor (L : Ristretto) (log : List Happening) (v : String) (g : Nat) (r : String) : Prop :=
  ∃ ts p, AnsweredFor log v g ts ∧ r ∈ ts ∧ HasPreimage L r p

theorem SignedFor.mono {L : Ristretto} {log l : List Happening} {v : String} {g : Nat} {r : String}
    (h : SignedFor L log v g r) : SignedFor L (log ++ l) v g r := by
  obtain ⟨ts, p, h1, h2⟩ := h
  exact ⟨ts, p, AnsweredFor.mono h1, h2⟩

structure OnceInv (L : Ristretto) (v : String) (c : Controller) : Prop where
  upto : ∀ f ∈ frames c, f.voucher = v → f.counter ≤ rowCounter c.store v
  groups : redeemedGroups v c.log = List.range (rowCounter c.store v)
  gone : ∀ g < rowCounter c.store v, ∃ r, SignedFor L c.log v g r ∧ r ∉ select_random_tokens v g c.store
  ready : ∀ f pk us rest, c.todo = .answered f (.success pk us) :: rest → f.voucher = v →
    f.counter = rowCounter c.store v ∧ ∃ r, SignedFor L c.log v f.counter r

theorem onceInv_init (L : Ristretto) (v : String) : OnceInv L v {} := by
  constructor <;> simp [frames, rowCounter, voucherRow, redeemedGroups]

theorem onceInv_step {L : Ristretto} {cfg : RedeemCfg} {v : String} {c : Controller} (hr : RInv cfg c)
    (h : OnceInv L v c) {e : RedeemEvent} (he : RealEvent L c e) (once : SignedOnce (c.step cfg e).log) :
    OnceInv L v (c.step cfg e) := by
  have hr' := rinv_step hr e
  obtain ⟨l, hl⟩ := step_log cfg c e
  have hgrow : rowCounter c.store v ≤ rowCounter (c.step cfg e).store v := by
    rw [← hr.counter, ← hr'.counter, hl, redeemedGroups_append, List.length_append]
    exact Nat.le_add_right ..
  -- what is signed and gone stays so
  have stay : ∀ g r, SignedFor L c.log v g r → r ∉ select_random_tokens v g c.store →
      SignedFor L (c.step cfg e).log v g r ∧ r ∉ select_random_tokens v g (c.step cfg e).store := by
    intro g r hs hn
    refine ⟨by rw [hl]; exact hs.mono, fun hm => ?_⟩
    rcases rows_step c e hm with hm | ⟨env, f, rest, n, made, h1, h2, h3, h4, h5, -, -⟩
    · exact hn hm
    · obtain ⟨ts, p, ⟨l₁, l₂, l₃, pk, us, hlog, -⟩, hrt, hp⟩ := hs
      exact he.fresh made ⟨env, f, rest, n, h1, h2, h3, h4⟩ r h5 p hp v g r (.inl ⟨ts, by rw [hlog]; simp, hrt⟩) hp
  -- answers
  have ready : ∀ f pk us rest, (c.step cfg e).todo = .answered f (.success pk us) :: rest → f.voucher = v →
      f.counter = rowCounter (c.step cfg e).store v ∧ ∃ r, SignedFor L (c.step cfg e).log v f.counter r := by
    intro f pk us rest ht hv
    rcases answered_head hr e ht with hsame | ⟨i, s, hi, hs, rfl, hlog, hst⟩
    · rw [hsame] at ht ⊢
      exact h.ready f pk us rest ht hv
    · have hmem := List.mem_of_getElem? hs
      obtain ⟨-, -, hperm, l₁, l₂, hl₁, hl₂⟩ := hr.waiting s hmem
      obtain ⟨issuer, hans⟩ := he.answer i pk us hi s hs
      have hne := hr.nonempty s.frame.voucher s.frame.counter s.tokens (by rw [hl₁]; simp)
      obtain ⟨r, hrs⟩ := List.exists_mem_of_ne_nil _ hne
      have hans' : AnsweredFor (c.step cfg e).log s.frame.voucher s.frame.counter s.tokens :=
        ⟨l₁, l₂, [], pk, us, by rw [hlog, hl₁], hl₂⟩
      obtain ⟨p, hp⟩ := answer_readable hans r hrs
      subst hv
      refine ⟨?_, r, s.tokens, p, hans', hrs, hp⟩
      rw [hst]
      have hle := h.upto s.frame (List.mem_append_left _ (List.mem_map_of_mem hmem)) rfl
      rcases Nat.lt_or_eq_of_le hle with hlt | heq
      · obtain ⟨r', ⟨ts, p', ha, hrt, -⟩, hn⟩ := h.gone _ hlt
        have ha' : AnsweredFor (c.step cfg e).log s.frame.voucher s.frame.counter ts := by rw [hl]; exact AnsweredFor.mono ha
        exact absurd (hperm.subset (once _ _ _ _ ha' hans' r' hrt)) hn
      · exact heq
  -- what is stored
  rcases step_records cfg c e with h' | ⟨f, d, rest, n, _, _, h'⟩ | ⟨f, ts', rest, row, ht, _, _, _, h'⟩ | ⟨w, d, a, h'⟩ |
    ⟨f, pk, us, rest, now, ht, hins, h'⟩ | h'
  case inr.inr.inr.inr.inl =>
    by_cases hv : f.voucher = v
    · subst hv
      obtain ⟨hcount, r, hsig⟩ := h.ready f pk us rest ht rfl
      have hc' : rowCounter (c.step cfg e).store f.voucher = rowCounter c.store f.voucher + 1 := by
        rw [← hr.counter, ← hr'.counter, h', redeemedGroups_append, List.length_append]
        simp [redeemedGroups]
      refine ⟨?_, ?_, ?_, ready⟩
      · intro f' hf' hv'
        rcases frames_step e hf' with hf' | ⟨rest', w, n, ht', -⟩ | ⟨f'', pk', us', rest', ht', rfl, -⟩
        · have := h.upto f' hf' hv'
          omega
        · rw [ht] at ht'; exact nomatch ht'
        · rw [ht] at ht'
          cases ht'
          show f.counter + 1 ≤ _
          omega
      · rw [h', redeemedGroups_append, h.groups, hc', List.range_succ]
        simp [redeemedGroups, hcount]
      · intro g hg
        rcases Nat.lt_or_eq_of_le (Nat.le_of_lt_succ (by rw [hc'] at hg; exact hg)) with hlt | rfl
        · obtain ⟨r', h1, h2⟩ := h.gone g hlt
          exact ⟨r', stay g r' h1 h2⟩
        · refine ⟨r, by rw [hl, ← hcount]; exact hsig.mono, ?_⟩
          rcases insert_effect now f.voucher pk us (f.counter + 1 == cfg.num_redemption_groups)
              (decide (pk ∈ cfg.allowed_public_keys)) c.store with ⟨err, he'⟩ | ⟨row, hrow, he'⟩
          · rw [he'] at hins; exact nomatch hins
          · rw [he'] at hins
            have hst : inserted now f.voucher pk us (f.counter + 1 == cfg.num_redemption_groups)
              (decide (pk ∈ cfg.allowed_public_keys)) c.store = (c.step cfg e).store := (Prod.mk.inj hins).2
            rw [← hst, select_inserted _ _ _ _ _ _ _ hrow, if_pos ⟨rfl, by unfold rowCounter; rw [hrow]; rfl⟩]
            exact fun h => nomatch h
    · have hc' : rowCounter (c.step cfg e).store v = rowCounter c.store v := by
        rw [← hr.counter, ← hr'.counter, h', redeemedGroups_append, List.length_append]
        simp [redeemedGroups, hv]
      refine ⟨?_, ?_, ?_, ready⟩
      · intro f' hf' hv'
        rw [hc']
        rcases frames_step e hf' with hf' | ⟨rest', w, n, ht', -⟩ | ⟨f'', pk', us', rest', ht', rfl, -⟩
        · exact h.upto f' hf' hv'
        · rw [ht] at ht'; exact nomatch ht'
        · rw [ht] at ht'
          cases ht'
          exact absurd hv' hv
      · rw [h', redeemedGroups_append, h.groups, hc']
        simp [redeemedGroups, hv]
      · intro g hg
        rw [hc'] at hg
        obtain ⟨r', h1, h2⟩ := h.gone g hg
        exact ⟨r', stay g r' h1 h2⟩
  all_goals
    have hg' : redeemedGroups v (c.step cfg e).log = redeemedGroups v c.log := by
      first | (rw [h']; done) | (rw [h', redeemedGroups_append]; simp [redeemedGroups])
    have hc' : rowCounter (c.step cfg e).store v = rowCounter c.store v := by
      rw [← hr.counter, ← hr'.counter, hg']
    refine ⟨?_, by rw [hg', hc']; exact h.groups, ?_, ready⟩
    · intro f' hf' hv'
      rw [hc']
      rcases frames_step e hf' with hf' | ⟨rest', w, n, ht', hs'⟩ | ⟨f'', pk', us', rest', ht', rfl, hlog⟩
      · exact h.upto f' hf' hv'
      · obtain ⟨hw, hcase⟩ := redeem_start_some hs'
        rw [hw] at hv'
        subst hv'
        rcases hcase with ⟨hn, _, h0⟩ | ⟨row, hrow, hp, _, _, ⟨hu, h0⟩ | ⟨_, _, h0⟩⟩
        · rw [h0]; exact Nat.zero_le _
        · rw [h0]; exact Nat.zero_le _
        · rw [h0, rowCounter, show voucherRow c.store w = some row from hrow]
          exact Nat.le_refl _
      · rw [hlog] at h'
        exfalso
        revert h'
        simp
    · intro g hg
      rw [hc'] at hg
      obtain ⟨r', h1, h2⟩ := h.gone g hg
      exact ⟨r', stay g r' h1 h2⟩

theorem onceInv_run {L : Ristretto} {cfg : RedeemCfg} {v : String} {es : List RedeemEvent} {c : Controller}
    (real : IssuedRun L cfg c es) (hr : RInv cfg c) (h : OnceInv L v c) (once : SignedOnce (c.run cfg es).log) :
    OnceInv L v (c.run cfg es) := by
  induction real with
  | nil => exact h
  | @cons c e es he _ ih =>
    obtain ⟨l, hl⟩ := run_log cfg es (c.step cfg e)
    have : SignedOnce ((c.step cfg e).log ++ l) := by rw [← hl]; exact once
    exact ih (rinv_step hr _) (onceInv_step hr h he (SignedOnce.prefix this)) once

end ZKAP
