import Verif.Lemmas.ControllerInv

/-! What holds of a voucher whose redemption is never begun anew after it was reported
unpaid. -/
namespace ZKAP
open Spec

/-- The coroutine behind a piece of work. -/
def taskFrame : Task → Option Frame
  | .iterate f => some f
  | .perform f _ => some f
  | .answered f _ => some f
  | _ => none

/-- The coroutines of a controller. -/
def frames (c : Controller) : List Frame := c.waiting.map (·.frame) ++ c.todo.filterMap taskFrame

/-- The group's tokens are not stored in this part of the record. -/
def NotStored (v : String) (d : Nat) (l : List Happening) : Prop := ∀ pk us, .stored v d pk us ∉ l

structure SInv (v : String) (c : Controller) : Prop where
  frames : ∀ f ∈ frames c, f.voucher = v → f.counter = rowCounter c.store v
  groups : redeemedGroups v c.log = List.range (rowCounter c.store v)
  «open» : ∀ d l₁ ts l₂, c.log = l₁ ++ .sent v d ts :: l₂ → NotStored v d l₂ →
    ts.Perm (select_random_tokens v d c.store)
  same : ∀ d l₁ ts l₂ ts' l₃, c.log = l₁ ++ .sent v d ts :: (l₂ ++ .sent v d ts' :: l₃) →
    NotStored v d l₂ → ts.Perm ts'
  at_counter : ∀ l₁ d ts l₂, c.log = l₁ ++ .sent v d ts :: l₂ → d = (redeemedGroups v l₁).length

theorem sinv_init (v : String) : SInv v {} := by
  constructor <;> simp [frames, rowCounter, voucherRow, redeemedGroups]

/-- Happenings that are not about the voucher's tokens. -/
def Silent (v : String) : Happening → Prop
  | .sent w .. => w ≠ v
  | .stored w .. => w ≠ v
  | _ => True

theorem redeemedGroups_silent {v : String} {h : Happening} (hs : Silent v h) (log : List Happening) :
    redeemedGroups v (log ++ [h]) = redeemedGroups v log := by
  rw [redeemedGroups_append]
  cases h <;> simp_all [Silent, redeemedGroups]

/-- Steps that leave the voucher alone. -/
theorem SInv.keep {v : String} {c c' : Controller} (h : SInv v c)
    (hf : ∀ f ∈ ZKAP.frames c', f.voucher = v → f ∈ ZKAP.frames c)
    (hc : rowCounter c'.store v = rowCounter c.store v)
    (hs : ∀ d, select_random_tokens v d c'.store = select_random_tokens v d c.store)
    (hl : c'.log = c.log ∨ ∃ x, c'.log = c.log ++ [x] ∧ Silent v x) : SInv v c' := by
  rcases hl with hl | ⟨x, hl, hx⟩
  · exact {
      frames := fun f hf' hv => by rw [hc]; exact h.frames f (hf f hf' hv) hv
      groups := by rw [hl, hc]; exact h.groups
      «open» := fun d l₁ ts l₂ e hn => by rw [hs]; exact h.open d l₁ ts l₂ (hl ▸ e) hn
      same := fun d l₁ ts l₂ ts' l₃ e hn => h.same d l₁ ts l₂ ts' l₃ (hl ▸ e) hn
      at_counter := fun l₁ d ts l₂ e => h.at_counter l₁ d ts l₂ (hl ▸ e) }
  · have hsent : ∀ d ts, x ≠ .sent v d ts := by
      rintro d ts rfl; exact hx rfl
    exact {
      frames := fun f hf' hv => by rw [hc]; exact h.frames f (hf f hf' hv) hv
      groups := by rw [hl, hc, redeemedGroups_silent hx]; exact h.groups
      «open» := fun d l₁ ts l₂ e hn => by
        rw [hs]
        rw [hl] at e
        rcases snoc_split e with ⟨_, h2, _⟩ | ⟨l₂', rfl, h2⟩
        · exact absurd h2.symm (hsent d ts)
        · exact h.open d l₁ ts l₂' h2 (fun pk us hm => hn pk us (List.mem_append_left _ hm))
      same := fun d l₁ ts l₂ ts' l₃ e hn => by
        rw [hl, ← List.cons_append, ← List.append_assoc] at e
        rcases snoc_split e with ⟨_, h2, _⟩ | ⟨l₃', rfl, h2⟩
        · exact absurd h2.symm (hsent d ts')
        · exact h.same d l₁ ts l₂ ts' l₃' (by rw [h2]; simp) hn
      at_counter := fun l₁ d ts l₂ e => by
        rw [hl] at e
        rcases snoc_split e with ⟨_, h2, _⟩ | ⟨l₂', rfl, h2⟩
        · exact absurd h2.symm (hsent d ts)
        · exact h.at_counter l₁ d ts l₂' h2 }

theorem frames_calls {l : List Task} (h : ∀ x ∈ l, x.isCall = true) : l.filterMap taskFrame = [] := by
  rw [List.filterMap_eq_nil_iff]
  intro x hx
  have := h x hx
  cases x <;> simp_all [Task.isCall, taskFrame]

theorem noUnpaidRestart_prefix {v : String} {log l : List Happening}
    (h : NoUnpaidRestart v (log ++ l)) : NoUnpaidRestart v log :=
  fun l₁ c l₂ e hr => h l₁ c (l₂ ++ l) (by rw [e]; simp) hr

theorem rowCounter_same {t t' : Tables} {v : String} (h : voucherRow t' v = voucherRow t v) :
    rowCounter t' v = rowCounter t v := by unfold rowCounter; rw [h]

theorem rowCounter_added (now w : String) (e c : Nat) (ts : List String) (t : Tables) (v : String) :
    rowCounter (added now w e c ts t) v = rowCounter t v := by
  unfold rowCounter
  rw [voucherRow_added]
  split
  · rename_i h; subst h
    cases voucherRow t v <;> simp [newRow]
  · rfl

theorem rowCounter_doubleSpent (now w : String) (t : Tables) (v : String) :
    rowCounter (transact (store_mark_double_spent now w) t).2 v = rowCounter t v := by
  obtain ⟨_, hr⟩ := doubleSpent_effect now w t
  unfold rowCounter
  rw [hr]
  split
  · rename_i e; subst e
    cases voucherRow t v with
    | none => rfl
    | some r => simp only [Option.map_some, Option.getD_some]; split <;> rfl
  · rfl

theorem sinv_step {cfg : RedeemCfg} {v : String} {c : Controller} (hr : RInv cfg c) (h : SInv v c)
    (e : RedeemEvent) (hno : NoUnpaidRestart v (c.step cfg e).log) : SInv v (c.step cfg e) := by
  cases e with
  | redeem w n =>
    simp only [Controller.step]
    split
    · refine h.keep ?_ rfl (fun _ => rfl) (.inl rfl)
      intro f hf _
      simp only [frames, List.filterMap_cons, taskFrame, List.filterMap_nil, List.append_nil] at hf
      exact List.mem_append_left _ hf
    · exact h
  | timer =>
    simp only [Controller.step]
    split
    · refine h.keep ?_ rfl (fun _ => rfl) (.inl rfl)
      intro f hf _
      have : (retry_redemption c).filterMap taskFrame = [] := by
        apply frames_calls
        intro x hx
        obtain ⟨w, _, rfl⟩ := List.mem_map.mp hx
        rfl
      simp only [frames, this, List.append_nil] at hf
      exact List.mem_append_left _ hf
    · exact h
  | answer i a =>
    simp only [Controller.step]
    split
    · exact h
    · rename_i s hs
      split
      · refine h.keep ?_ rfl (fun _ => rfl) (.inr ⟨_, rfl, trivial⟩)
        intro f hf _
        have hp := take_drop_perm _ _ _ hs
        simp only [frames, List.filterMap_cons, taskFrame, List.mem_append, List.mem_cons] at hf ⊢
        rcases hf with hf | rfl | hf
        · left
          obtain ⟨s', hs', rfl⟩ := List.mem_map.mp hf
          exact List.mem_map_of_mem (hp.mem_iff.mp (List.mem_cons_of_mem _ hs'))
        · left
          exact List.mem_map_of_mem (f := fun s : Suspended => s.frame) (hp.mem_iff.mp List.mem_cons_self)
        · exact .inr hf
      · exact h
  | other op =>
    simp only [Controller.step]
    split
    · rename_i hop
      simp only [Bool.and_eq_true] at hop
      obtain ⟨h1, h2⟩ := other_effect op hop.2 c.store
      refine h.keep (fun f hf _ => hf) ?_ ?_ (.inl rfl)
      · apply rowCounter_same
        unfold voucherRow
        rw [h2]
      · intro d
        unfold select_random_tokens
        rw [h1]
    · exact h
  | crash =>
    simp only [Controller.step, StoreOp.step]
    refine h.keep ?_ rfl (fun _ => rfl) (.inr ⟨_, rfl, trivial⟩)
    intro f hf _
    simp only [frames, frames_calls (check_pending_calls _), List.map_nil, List.append_nil,
      List.not_mem_nil] at hf
  | work env =>
    simp only [Controller.step] at hno ⊢
    split at hno
    · exact h
    · rename_i task todo et
      have hcalls : ∀ x ∈ todo, x.isCall = true := by
        have := hr.calls; rw [et] at this; simpa using this
      have hfr : frames c = c.waiting.map (·.frame) ++ (taskFrame task).toList := by
        simp only [frames, et, List.filterMap_cons, frames_calls hcalls]
        cases taskFrame task <;> rfl
      have hfr0 : ∀ c' : Controller, c'.todo = todo → frames c' = c'.waiting.map (·.frame) := by
        intro c' hc'
        simp only [frames, hc', frames_calls hcalls, List.append_nil]
      cases task with
      | redeem w n =>
        simp only [Task.run] at hno ⊢
        split
        · exact h.keep (fun f hf _ => by rw [hfr0 _ rfl] at hf; rw [hfr]; exact List.mem_append_left _ hf)
            rfl (fun _ => rfl) (.inl rfl)
        · exact h.keep (fun f hf _ => by rw [hfr0 _ rfl] at hf; rw [hfr]; exact List.mem_append_left _ hf)
            rfl (fun _ => rfl) (.inl rfl)
        · rename_i f hs
          rw [hs] at hno
          dsimp only at hno
          obtain ⟨hv, hcase⟩ := redeem_start_some hs
          dsimp only at hcase
          have h1 : SInv v { c with todo := todo, log := c.log ++ [.begun f.voucher f.counter] } :=
            h.keep (fun f hf _ => by rw [hfr0 _ rfl] at hf; rw [hfr]; exact List.mem_append_left _ hf)
              rfl (fun _ => rfl) (.inr ⟨_, rfl, trivial⟩)
          refine { h1 with frames := ?_ }
          intro f' hf' hv'
          simp only [frames, List.filterMap_cons, taskFrame, List.mem_append, List.mem_cons,
            frames_calls hcalls, List.not_mem_nil, or_false] at hf'
          rcases hf' with hf' | rfl
          · exact h.frames f' (by rw [hfr]; exact List.mem_append_left _ hf') hv'
          · show f'.counter = rowCounter c.store v
            rw [hv] at hv'
            subst hv'
            rcases hcase with ⟨hn, _, h0⟩ | ⟨row, hrow, hp, _, _, ⟨hu, h0⟩ | ⟨_, _, h0⟩⟩
            · rw [h0, rowCounter, hn]; rfl
            · have hrep := hr.unpaid _ hu
              have hnil := hno c.log f'.counter [] (by rw [hv]) hrep
              have hcnt := hr.counter w
              rw [hnil] at hcnt
              rw [h0, ← hcnt]; rfl
            · rw [h0, rowCounter, hrow]; rfl
      | retry w =>
        have hk : ∀ l, (∀ x ∈ l, x.isCall = true) → SInv v { c with todo := l } := by
          intro l hl
          refine h.keep (fun f hf _ => ?_) rfl (fun _ => rfl) (.inl rfl)
          simp only [frames, frames_calls hl, List.append_nil] at hf
          rw [hfr]; exact List.mem_append_left _ hf
        simp only [Task.run]
        split
        · exact hk todo hcalls
        · split
          · exact hk [] (by simp)
          · split
            · refine hk _ ?_
              intro x hx
              rcases List.mem_cons.mp hx with rfl | hx
              · rfl
              · exact hcalls x hx
            · exact hk todo hcalls
      | iterate f =>
        have hk : SInv v { c with todo := todo } :=
          h.keep (fun f hf _ => by rw [hfr0 _ rfl] at hf; rw [hfr]; exact List.mem_append_left _ hf)
            rfl (fun _ => rfl) (.inl rfl)
        simp only [Task.run]
        split
        rotate_left
        · exact hk
        unfold get_random_tokens
        cases hg : token_count_for_group cfg.num_redemption_groups f.total f.counter with
        | error e => exact hk
        | ok n =>
          dsimp only
          rcases add_effect env.order env.now f.voucher f.total f.counter
              (env.random f.voucher f.counter n.toNat) c.store with
            ⟨err, he⟩ | ⟨ts, he, hp, hne⟩ | ⟨ts, hget, he, hnil⟩
          · rw [he]; exact hk
          · rw [he]
            refine h.keep (fun f' hf' _ => ?_) rfl (fun _ => rfl) (.inl rfl)
            simp only [frames, List.filterMap_cons, taskFrame, frames_calls hcalls] at hf'
            rw [hfr]; exact hf'
          · rw [he]
            dsimp only
            have hcnt := rowCounter_added env.now f.voucher f.total f.counter ts c.store v
            have hsel := select_added env.now f.voucher f.total f.counter ts c.store
            exact {
              frames := fun f' hf' hv' => by
                rw [hcnt]
                refine h.frames f' ?_ hv'
                simp only [frames, List.filterMap_cons, taskFrame, frames_calls hcalls] at hf'
                rw [hfr]; exact hf'
              groups := by rw [hcnt]; exact h.groups
              «open» := fun d l₁ ts' l₂ el hn => by
                have h1 := h.open d l₁ ts' l₂ el hn
                rw [hsel]
                by_cases hvd : v = f.voucher ∧ d = f.counter
                · obtain ⟨rfl, rfl⟩ := hvd
                  rw [hnil] at h1
                  have h2 : .sent f.voucher f.counter ts' ∈ c.log := by
                    have : c.log = l₁ ++ .sent f.voucher f.counter ts' :: l₂ := el
                    rw [this]; simp
                  exact absurd (List.perm_nil.mp h1) (hr.nonempty _ _ _ h2)
                · rw [if_neg hvd, List.append_nil]; exact h1
              same := h.same
              at_counter := h.at_counter }
      | perform f ts =>
        have hk : SInv v { c with todo := todo } :=
          h.keep (fun f hf _ => by rw [hfr0 _ rfl] at hf; rw [hfr]; exact List.mem_append_left _ hf)
            rfl (fun _ => rfl) (.inl rfl)
        simp only [Task.run, contact_issuer, get_object_eq]
        cases hrow : voucherRow c.store f.voucher with
        | none => exact hk
        | some row =>
          dsimp only
          by_cases hp : row.state = "pending"
          · rw [from_row_pending hp]
            dsimp only
            have hfc : ∀ f' ∈ frames { c with todo := todo, active := c.active.set f.voucher (env.now, row.counter), waiting := c.waiting ++ [⟨f, ts⟩], log := c.log ++ [.sent f.voucher f.counter ts] }, f' ∈ frames c := by
              intro f' hf'
              rw [hfr0 _ rfl] at hf'
              rw [hfr]
              simpa [taskFrame] using hf'
            by_cases hv : f.voucher = v
            · subst hv
              have hfcount : f.counter = rowCounter c.store f.voucher :=
                h.frames f (by rw [hfr]; simp [taskFrame]) rfl
              obtain ⟨_, _, _, hperm, _⟩ := hr.perform f ts todo et
              exact {
                frames := fun f' hf' hv' => h.frames f' (hfc f' hf') hv'
                groups := by rw [redeemedGroups_quiet (by trivial)]; exact h.groups
                «open» := fun d l₁ ts' l₂ el hn => by
                  rcases snoc_split el with ⟨_, h2, _⟩ | ⟨l₂', rfl, h2⟩
                  · simp only [Happening.sent.injEq, true_and] at h2
                    obtain ⟨rfl, rfl⟩ := h2
                    exact hperm
                  · exact h.open d l₁ ts' l₂' h2 (fun pk us hm => hn pk us (List.mem_append_left _ hm))
                same := fun d l₁ ts₁ l₂ ts₂ l₃ el hn => by
                  dsimp only at el
                  rw [← List.cons_append, ← List.append_assoc] at el
                  rcases snoc_split el with ⟨_, h2, h3⟩ | ⟨l₃', rfl, h2⟩
                  · simp only [Happening.sent.injEq, true_and] at h2
                    obtain ⟨rfl, rfl⟩ := h2
                    exact (h.open _ l₁ ts₁ l₂ h3.symm hn).trans hperm.symm
                  · exact h.same d l₁ ts₁ l₂ ts₂ l₃' (by rw [h2]; simp) hn
                at_counter := fun l₁ d ts' l₂ el => by
                  rcases snoc_split el with ⟨_, h2, h3⟩ | ⟨l₂', rfl, h2⟩
                  · simp only [Happening.sent.injEq, true_and] at h2
                    rw [h2.1, hfcount, h3, hr.counter]
                  · exact h.at_counter l₁ d ts' l₂' h2 }
            · exact h.keep (fun f' hf' _ => hfc f' hf') rfl (fun _ => rfl) (.inr ⟨_, rfl, hv⟩)
          · rcases from_row_other hp with ⟨e, he, hne⟩ | ⟨d, hd⟩ | ⟨d, k, hd⟩
            · rw [he]; exact hk
            · rw [hd]; exact hk
            · rw [hd]; exact hk
      | answered f a =>
        have hsubf : ∀ c' : Controller, c'.todo = todo → c'.waiting = c.waiting →
            ∀ f' ∈ frames c', f'.voucher = v → f' ∈ frames c := by
          intro c' h1 h2 f' hf' _
          rw [hfr0 c' h1, h2] at hf'
          rw [hfr]; exact List.mem_append_left _ hf'
        simp only [Task.run, resume]
        cases a with
        | success pk us =>
          dsimp only [redeem_success]
          rcases insert_effect env.now f.voucher pk us (f.counter + 1 == cfg.num_redemption_groups)
              (decide (pk ∈ cfg.allowed_public_keys)) c.store with ⟨err, he⟩ | ⟨row, hrow, he⟩
          · rw [he]
            exact h.keep (hsubf _ rfl rfl) rfl (fun _ => rfl) (.inl rfl)
          · rw [he]
            dsimp only
            have hcnt := rowCounter_inserted env.now f.voucher pk us
              (f.counter + 1 == cfg.num_redemption_groups)
              (decide (pk ∈ cfg.allowed_public_keys)) c.store hrow v
            have hsel := select_inserted env.now f.voucher pk us
              (f.counter + 1 == cfg.num_redemption_groups)
              (decide (pk ∈ cfg.allowed_public_keys)) c.store hrow
            have hold : busy c = c.waiting.map (·.frame.voucher) ++ [f.voucher] := by
              simp [busy, et, resumed]
            have hnd := hr.nodup
            rw [hold, List.nodup_append] at hnd
            by_cases hv : f.voucher = v
            · subst hv
              have hfcount : f.counter = rowCounter c.store f.voucher :=
                h.frames f (by rw [hfr]; simp [taskFrame]) rfl
              have hrc : rowCounter c.store f.voucher = row.counter := by
                unfold rowCounter; rw [hrow]; rfl
              rw [if_pos rfl] at hcnt
              exact {
                frames := fun f' hf' hv' => by
                  simp only [frames, List.filterMap_cons, taskFrame, List.mem_append, List.mem_cons,
                    frames_calls hcalls, List.not_mem_nil, or_false] at hf'
                  rcases hf' with hf' | rfl
                  · obtain ⟨s, hs, rfl⟩ := List.mem_map.mp hf'
                    exact absurd hv' (hnd.2.2 s.frame.voucher (List.mem_map.mpr ⟨s, hs, rfl⟩)
                      f.voucher (by simp))
                  · show f.counter + 1 = _
                    rw [hcnt, hfcount]
                groups := by
                  rw [hcnt, redeemedGroups_append, h.groups, List.range_succ]
                  simp [redeemedGroups, hfcount]
                «open» := fun d l₁ ts l₂ el hn => by
                  rcases snoc_split el with ⟨_, h2, _⟩ | ⟨l₂', rfl, h2⟩
                  · simp at h2
                  · have hd : d ≠ f.counter := fun hd => hn pk us (by simp [hd])
                    rw [hsel, if_neg (by rw [← hrc, ← hfcount]; exact fun hh => hd hh.2)]
                    exact h.open d l₁ ts l₂' h2 (fun pk us hm => hn pk us (List.mem_append_left _ hm))
                same := fun d l₁ ts₁ l₂ ts₂ l₃ el hn => by
                  dsimp only at el
                  rw [← List.cons_append, ← List.append_assoc] at el
                  rcases snoc_split el with ⟨_, h2, h3⟩ | ⟨l₃', rfl, h2⟩
                  · simp at h2
                  · exact h.same d l₁ ts₁ l₂ ts₂ l₃' (by rw [h2]; simp) hn
                at_counter := fun l₁ d ts' l₂ el => by
                  rcases snoc_split el with ⟨_, h2, h3⟩ | ⟨l₂', rfl, h2⟩
                  · simp at h2
                  · exact h.at_counter l₁ d ts' l₂' h2 }
            · refine h.keep ?_ ?_ ?_ (.inr ⟨_, rfl, hv⟩)
              · intro f' hf' hv'
                simp only [frames, List.filterMap_cons, taskFrame, List.mem_append, List.mem_cons,
                  frames_calls hcalls, List.not_mem_nil, or_false] at hf'
                rcases hf' with hf' | rfl
                · rw [hfr]; exact List.mem_append_left _ hf'
                · exact absurd hv' hv
              · dsimp only; rw [hcnt, if_neg (Ne.symm hv)]; rfl
              · intro d
                dsimp only
                rw [hsel, if_neg (fun hh => hv hh.1.symm)]
        | alreadySpent =>
          refine h.keep (hsubf _ rfl rfl) ?_ ?_ (.inl rfl)
          · exact rowCounter_doubleSpent env.now f.voucher c.store v
          · intro d
            obtain ⟨ht, _⟩ := doubleSpent_effect env.now f.voucher c.store
            dsimp only [redeem_failure]
            unfold select_random_tokens
            rw [ht]
        | unpaid => exact h.keep (hsubf _ rfl rfl) rfl (fun _ => rfl) (.inl rfl)
        | failed d => exact h.keep (hsubf _ rfl rfl) rfl (fun _ => rfl) (.inl rfl)

theorem sinv_run {cfg : RedeemCfg} {v : String} (events : List RedeemEvent) {c : Controller}
    (hr : RInv cfg c) (h : SInv v c) (hno : NoUnpaidRestart v (c.run cfg events).log) :
    SInv v (c.run cfg events) := by
  induction events generalizing c with
  | nil => exact h
  | cons e es ih =>
    obtain ⟨l, hl⟩ := run_log cfg es (c.step cfg e)
    have hno' : NoUnpaidRestart v (c.step cfg e).log := by
      have : (c.run cfg (e :: es)).log = (c.step cfg e).log ++ l := hl
      rw [this] at hno
      exact noUnpaidRestart_prefix hno
    exact ih (rinv_step hr e) (sinv_step hr h e hno') hno

end ZKAP
