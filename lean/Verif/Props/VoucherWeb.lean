import Verif.Lemmas.VoucherWeb
import Verif.Props.Controller

/-! C91–C93: the HTTP interface for vouchers.

A history is as in `Props/Controller.lean`; a request is made when no other code is running. -/
namespace ZKAP
open Spec

/-- 32 zero bytes, in base64. -/
def exWebVoucher : String := "AAAAAAAAAAAAAAAAAAAAAAAAAAAAAAAAAAAAAAAAAAA="

theorem exWebVoucher_ok : Acceptable exWebVoucher := by
  rw [← syntactic_iff]
  decide +kernel

/-! ### C91: what is accepted is recorded -/

/-- C91: a request is accepted exactly if its body is an object with the one key "voucher" and
an acceptable voucher number. -/
theorem C91_accepted_iff (cfg : RedeemCfg) (env : Env) (body : Option Json) (c : Controller) :
    (render_PUT cfg env body c).1 = .accepted ↔ ∃ v, Submits body v ∧ Acceptable v := by
  unfold render_PUT
  cases h : submitted body with
  | none =>
    refine ⟨fun h => (nomatch h), fun ⟨v, hv⟩ => ?_⟩
    rw [(submitted_iff body v).mpr hv] at h
    exact nomatch h
  | some v => exact ⟨fun _ => ⟨v, (submitted_iff body v).mp h⟩, fun _ => rfl⟩

/-- C91: a refused request changes nothing. -/
theorem C91_refused_unchanged (cfg : RedeemCfg) (env : Env) (body : Option Json) (c : Controller)
    (h : (render_PUT cfg env body c).1 = .badRequest) : (render_PUT cfg env body c).2 = c := by
  unfold render_PUT at h ⊢
  split
  · rfl
  · rename_i v hs
    rw [hs] at h
    exact nomatch h

/-- C91 in full: a voucher that was accepted is recorded in the database when the answer is
given.  The number of groups is the program's, the random tokens are new. -/
def C91_statement : Prop :=
  ∀ (cfg : RedeemCfg) (history : List RedeemEvent) (env : Env) (v : String),
    cfg.num_redemption_groups = 16 →
    (controllerAfter cfg history).todo = [] → FreshTokens env (controllerAfter cfg history) v →
    (render_PUT cfg env (some (.obj [("voucher", .str v)])) (controllerAfter cfg history)).1 = .accepted →
    Recorded (render_PUT cfg env (some (.obj [("voucher", .str v)])) (controllerAfter cfg history)).2 v

theorem exEnv_fresh (c : Controller) (v : String) (h : c.store.app.tokens = []) :
    FreshTokens (exEnv "p") c v := by
  intro n
  refine ⟨_, rfl, ?_, ?_⟩
  · rw [List.nodup_iff_pairwise_ne, List.pairwise_map]
    refine List.Pairwise.imp ?_ List.nodup_range
    intro a b hne he
    apply hne
    have := congrArg String.length he
    simpa using this
  · intro x _
    rw [h]
    exact List.not_mem_nil

/-- C91: with a configured token count below the number of groups the voucher is accepted, but
nothing is recorded. -/
theorem C91_small_count_fails : ¬ C91_statement := by
  intro h
  have hr := h { default_token_count := 15, allowed_public_keys := [] } [] (exEnv "p") exWebVoucher rfl rfl
    (exEnv_fresh _ _ rfl) ((C91_accepted_iff _ _ _ _).mpr ⟨exWebVoucher, rfl, exWebVoucher_ok⟩)
  rw [recorded_iff] at hr
  obtain ⟨row, hr⟩ := hr
  have : (voucherRow (render_PUT { default_token_count := 15, allowed_public_keys := [] } (exEnv "p")
    (some (.obj [("voucher", .str exWebVoucher)])) {}).2.store exWebVoucher) = none := by decide +kernel
  rw [show controllerAfter { default_token_count := 15, allowed_public_keys := [] } [] = {} from rfl, this] at hr
  exact nomatch hr

/-- C91, what holds: if the configured token count is at least the number of groups, every
accepted voucher is recorded, and for a voucher that was not known the request for the first group
has been sent with random tokens that are in the database. -/
theorem C91_recorded_partial (cfg : RedeemCfg) (history : List RedeemEvent) (env : Env) (body : Option Json)
    (v : String) (hv : Submits body v) (hN : 0 < cfg.num_redemption_groups)
    (hcount : cfg.num_redemption_groups ≤ cfg.default_token_count)
    (hidle : (controllerAfter cfg history).todo = [])
    (hfresh : FreshTokens env (controllerAfter cfg history) v)
    (hacc : (render_PUT cfg env body (controllerAfter cfg history)).1 = .accepted) :
    Recorded (render_PUT cfg env body (controllerAfter cfg history)).2 v ∧
    (¬ Recorded (controllerAfter cfg history) v →
      ∃ tokens, (render_PUT cfg env body (controllerAfter cfg history)).2.log =
          (controllerAfter cfg history).log ++ [.begun v 0, .sent v 0 tokens] ∧
        select_random_tokens v 0 (render_PUT cfg env body (controllerAfter cfg history)).2.store = tokens) := by
  obtain ⟨w, hw, ha⟩ := (C91_accepted_iff _ _ _ _).mp hacc
  have hwv : w = v := by unfold Submits at hw hv; rw [hv] at hw; cases hw; rfl
  subst hwv
  have e : (render_PUT cfg env body (controllerAfter cfg history)).2 =
      (controllerAfter cfg history).run cfg [.redeem w none, .work env, .work env, .work env] := by
    unfold render_PUT
    rw [(submitted_iff body w).mpr ⟨hw, ha⟩]
  rw [e, recorded_iff, recorded_iff]
  cases hr : voucherRow (controllerAfter cfg history).store w with
  | some row =>
    exact ⟨put_keeps cfg env _ w w hidle ⟨row, hr⟩, fun hn => (hn ⟨row, rfl⟩).elim⟩
  | none =>
    obtain ⟨ts, h1, h2, _, h4⟩ := put_new cfg env _ (controllerAfter_inv cfg history) w hidle hr hN hcount hfresh
    exact ⟨⟨_, h2⟩, fun _ => ⟨ts, h1, h4⟩⟩

/-- C91: an accepted request never removes another voucher. -/
theorem C91_others_kept (cfg : RedeemCfg) (history : List RedeemEvent) (env : Env) (body : Option Json)
    (w : String) (hidle : (controllerAfter cfg history).todo = [])
    (hw : Recorded (controllerAfter cfg history) w) :
    Recorded (render_PUT cfg env body (controllerAfter cfg history)).2 w := by
  rw [recorded_iff] at hw ⊢
  unfold render_PUT
  split
  · exact hw
  · exact put_keeps cfg env _ _ w hidle hw

example : Recorded (render_PUT exRedeemCfg (exEnv "p") (some (.obj [("voucher", .str exWebVoucher)])) {}).2 exWebVoucher :=
  (C91_recorded_partial exRedeemCfg [] (exEnv "p") _ exWebVoucher rfl (by decide) (by decide) rfl
    (exEnv_fresh _ _ rfl) ((C91_accepted_iff _ _ _ _).mpr ⟨exWebVoucher, rfl, exWebVoucher_ok⟩)).1

/-- An extra key is refused. -/
example : (render_PUT exRedeemCfg (exEnv "p")
    (some (.obj [("voucher", .str exWebVoucher), ("x", .null)])) {}).1 = .badRequest := by decide +kernel

/-! ### C92: the two views -/

/-- C92: the listing always succeeds and names every recorded voucher once; the view of a single
voucher shows exactly the entry of the listing, and a voucher is not found exactly if it is
not listed. -/
theorem C92_views_agree (cfg : RedeemCfg) (history : List RedeemEvent) :
    ∃ listed, render_GET (controllerAfter cfg history) = .ok listed ∧
      listed.map (·.number) = (controllerAfter cfg history).store.app.vouchers.map (·.number) ∧
      (listed.map (·.number)).Nodup ∧
      ∀ v, Acceptable v →
        (∀ obj, getChild (controllerAfter cfg history) (v.toList.map (fun ch => UInt8.ofNat ch.toNat)) = .view obj ↔
          obj ∈ listed ∧ obj.number = v) ∧
        (getChild (controllerAfter cfg history) (v.toList.map (fun ch => UInt8.ofNat ch.toNat)) = .notFound ↔
          v ∉ listed.map (·.number)) := by
  have hc := controllerAfter_inv cfg history
  obtain ⟨vs, h1, h2, h3⟩ := listing cfg _ hc
  refine ⟨vs, h1, h2, by rw [h2]; exact hc.wf.vouchers, ?_⟩
  intro v hv
  rw [child_of _ v hv, get_object_eq]
  cases hr : voucherRow (controllerAfter cfg history).store v with
  | none =>
    have hn : v ∉ vs.map (·.number) := by rw [h2]; exact voucherRow_none.mp hr
    refine ⟨fun obj => ⟨fun h => (nomatch h), fun ⟨hm, e⟩ => ?_⟩, ⟨fun _ => hn, fun _ => rfl⟩⟩
    exact (hn (List.mem_map.mpr ⟨obj, hm, e⟩)).elim
  | some row =>
    obtain ⟨w, hw, hwn⟩ := web_from_row_ok (hc.rows v row hr)
    have hnum := voucherRow_number hr
    simp only [hw]
    refine ⟨fun obj => ⟨?_, ?_⟩, ⟨fun h => (nomatch h), fun h => ?_⟩⟩
    · intro h
      cases h
      exact ⟨(h3 _).mpr ⟨row, voucherRow_mem hr, w, hw, rfl⟩, by rw [incorporate_number, hwn, hnum]⟩
    · rintro ⟨hm, e⟩
      obtain ⟨r', hr', w', hw', rfl⟩ := (h3 obj).mp hm
      rw [incorporate_number] at e
      obtain ⟨_, hw'', hn'⟩ := web_from_row_ok (hc.rows _ r' (voucherRow_of_mem hc.wf hr'))
      rw [hw'] at hw''
      cases hw''
      have : voucherRow (controllerAfter cfg history).store v = some r' := by
        rw [← e, hn']; exact voucherRow_of_mem hc.wf hr'
      rw [hr] at this
      cases this
      rw [hw] at hw'
      cases hw'
      rfl
    · apply (h _).elim
      rw [h2, ← hnum]
      exact List.mem_map_of_mem (voucherRow_mem hr)

/-- A voucher being redeemed, in both views. -/
example : ∃ obj, (render_GET (controllerAfter exRedeemCfg
      ([.redeem exWebVoucher none, .work (exEnv "p"), .work (exEnv "p"), .work (exEnv "p")] : List RedeemEvent))) = .ok [obj] ∧
    obj.state = .redeeming "p" 0 ∧
    getChild (controllerAfter exRedeemCfg
      ([.redeem exWebVoucher none, .work (exEnv "p"), .work (exEnv "p"), .work (exEnv "p")] : List RedeemEvent))
      (exWebVoucher.toList.map (fun ch => UInt8.ofNat ch.toNat)) = .view obj :=
  ⟨⟨exWebVoucher, 5, some "p", .redeeming "p" 0⟩, by decide +kernel, rfl, by decide +kernel⟩

/-! ### C93: addresses that are no voucher numbers -/

/-- C93 in full: asking for an address that has not 44 bytes is a bad request. -/
def C93_statement : Prop :=
  ∀ (c : Controller) (segment : Bytes), segment.length ≠ 44 → getChild c segment = .badRequest

/-- C93: an address that is not UTF-8 makes the handler raise. -/
theorem C93_not_utf8_fails : ¬ C93_statement := by
  intro h
  have := h {} [255] (by decide)
  exact absurd this (by decide)

/-- C93, what holds: if the address is UTF-8. -/
theorem C93_utf8_partial (c : Controller) (segment : Bytes) (h : segment.length ≠ 44)
    (hu : utf8_decode segment ≠ none) : getChild c segment = .badRequest := by
  unfold getChild
  cases hd : utf8_decode segment with
  | none => exact (hu hd).elim
  | some cs =>
    simp only []
    rw [if_neg]
    unfold is_syntactic_voucher
    by_cases hl : cs.length = 44
    · rw [if_neg (by omega), if_pos]
      · exact fun h => (nomatch h)
      · apply Classical.byContradiction
        intro hn
        rw [Bool.not_eq_true, List.any_eq_false] at hn
        have := utf8_only_ascii segment cs hd (by
          intro x hx
          have := hn x hx
          simp only [ge_iff_le, decide_eq_true_eq] at this
          omega)
        rw [this, List.length_map] at hl
        exact h hl
    · rw [if_pos hl]
      exact fun h => (nomatch h)

/-- Plain ASCII is UTF-8, and so is a two-byte character. -/
example : getChild {} (List.replicate 43 65) = .badRequest ∧ getChild {} [195, 169] = .badRequest :=
  ⟨C93_utf8_partial {} _ (by decide) (by decide +kernel), C93_utf8_partial {} _ (by decide) (by decide +kernel)⟩

end ZKAP
