import Verif.Props.Controller
import Verif.Lemmas.Redeemers

/-!
C138: with each of the redeemers for tests, vouchers come only to what that redeemer is for.
C139: the dummy redeemer makes up tokens for every voucher, all of them different.
-/
namespace ZKAP
open Spec

/-! ### Examples -/

/-- A voucher of 32 bytes. -/
def exTestVoucher : String := "AAAAAAAAAAAAAAAAAAAAAAAAAAAAAAAAAAAAAAAAAAA="

/-- A voucher of 33 bytes. -/
def exLongVoucher : String := "AAAAAAAAAAAAAAAAAAAAAAAAAAAAAAAAAAAAAAAAAAAA"

/-- Surroundings with a redeemer for tests. -/
def exTestEnv (now : String) : Env where
  now := now
  order := .natural
  random := dummy_random_tokens
  random_length := fun _ _ _ _ h => dummy_random_length h

/-- A voucher is redeemed up to the first request. -/
def exTestStart (voucher : String) : List RedeemEvent :=
  [.redeem voucher none, .work (exTestEnv "p"), .work (exTestEnv "p"), .work (exTestEnv "p")]

/-- The answer of the dummy redeemer to the request that waits. -/
def exDummyAnswer (c : Controller) : IssuerAnswer :=
  ((Redeemer.dummy "key").redeemWithCounter .unpaid ((c.waiting.map (·.tokens)).headD [])).getD .unpaid

/-- The answer to the first request, and the second request. -/
def exDummyFirst : List RedeemEvent :=
  exTestStart exTestVoucher ++
    [.answer 0 (exDummyAnswer (controllerAfter exRedeemCfg (exTestStart exTestVoucher))),
      .work (exTestEnv "q"), .work (exTestEnv "q"), .work (exTestEnv "q")]

/-- A whole redemption with the dummy redeemer. -/
def exDummyAll : List RedeemEvent :=
  exDummyFirst ++ [.answer 0 (exDummyAnswer (controllerAfter exRedeemCfg exDummyFirst)),
    .work (exTestEnv "r"), .work (exTestEnv "r")]

/-! ### C138 -/

/-- **C138**: whatever happens, with each redeemer a voucher is shown only in the states that
redeemer is for: waiting or in progress with all of them; besides that, redeemed with the dummy
redeemer, as spent before with the double-spend redeemer, as unpaid with the unpaid redeemer, and with
the error redeemer as failed with exactly the configured text. -/
theorem C138_shown (r : Redeemer) (cfg : RedeemCfg) (history : List RedeemEvent)
    (h : WithRedeemer r cfg {} history) (voucher : String) (obj : Voucher String)
    (hv : get_voucher (controllerAfter cfg history) voucher = .ok obj) : CanShow r obj.state :=
  brought_shown (brought_run history (brought_init _ _ _) h) hv

/-- **C138**: with the redeemers that redeem nothing, there are never any tokens to spend. -/
theorem C138_no_tokens (r : Redeemer) (hr : (∀ issuer, r ≠ .ristretto issuer) ∧ ∀ key, r ≠ .dummy key)
    (cfg : RedeemCfg) (history : List RedeemEvent) (h : WithRedeemer r cfg {} history) (x : String) :
    ¬ Stored (controllerAfter cfg history).store x := by
  intro hx
  obtain ⟨v, d, pk, us, hP, _⟩ := (brought_run history (brought_init _ _ _) h).stored x hx
  cases r with
  | ristretto i => exact hr.1 i rfl
  | dummy k => exact hr.2 k rfl
  | non => exact hP
  | error _ => cases hP
  | doubleSpend => cases hP
  | unpaid => cases hP

/-- **C138**: with the dummy redeemer, every token in the store is made from a random token that was
made up for some voucher and group. -/
theorem C138_dummy_tokens (key : String) (cfg : RedeemCfg) (history : List RedeemEvent)
    (h : WithRedeemer (.dummy key) cfg {} history) (x : String)
    (hx : Stored (controllerAfter cfg history).store x) :
    ∃ voucher group count ts t, dummy_random_tokens voucher group count = .ok ts ∧ t ∈ ts ∧
      dummy_unblinded_token t = .ok x := by
  obtain ⟨v, d, pk, us, ⟨us', e, hus⟩, hm⟩ := (brought_run history (brought_init _ _ _) h).stored x hx
  obtain ⟨_, rfl⟩ := IssuerAnswer.success.inj e
  obtain ⟨count, ts, t, h1, h2, h3⟩ := hus x hm
  exact ⟨v, d, count, ts, t, h1, h2, h3⟩

/-- C138: the redeemer of a node is the one its settings name, with the argument they give; without a
setting it is the one that asks an issuer.  So made-up tokens are never used unless asked for. -/
theorem C138_selected (c : NodeConfig) (announcement : Option Announcement) (r : Redeemer)
    (h : get_redeemer c announcement = .ok r) : AskedFor c r := by
  have kind : ∀ k, (c.option client_section "redeemer").getD "ristretto" = k →
      c.option client_section "redeemer" = some k ∨
        c.option client_section "redeemer" = none ∧ k = "ristretto" := by
    intro k hk
    cases ho : c.option client_section "redeemer" with
    | none => rw [ho] at hk; exact .inr ⟨rfl, hk.symm⟩
    | some v => rw [ho] at hk; exact .inl (congrArg some hk)
  have cfg : ∀ o v, c.get_config client_section o = .ok v → c.option client_section o = some v := by
    intro o v hv
    unfold NodeConfig.get_config at hv
    split at hv
    · cases hv
    · cases hv; assumption
  unfold get_redeemer at h
  dsimp only at h
  by_cases h1 : (c.option client_section "redeemer").getD "ristretto" = "non"
  · rw [if_pos h1] at h; cases h; exact ⟨kind _ h1, trivial⟩
  rw [if_neg h1] at h
  by_cases h2 : (c.option client_section "redeemer").getD "ristretto" = "dummy"
  · rw [if_pos h2] at h
    cases hg : c.get_config client_section "issuer-public-key" with
    | error e => rw [hg] at h; cases h
    | ok k => rw [hg] at h; cases h; exact ⟨kind _ h2, cfg _ _ hg⟩
  rw [if_neg h2] at h
  by_cases h3 : (c.option client_section "redeemer").getD "ristretto" = "double-spend"
  · rw [if_pos h3] at h; cases h; exact ⟨kind _ h3, trivial⟩
  rw [if_neg h3] at h
  by_cases h4 : (c.option client_section "redeemer").getD "ristretto" = "unpaid"
  · rw [if_pos h4] at h; cases h; exact ⟨kind _ h4, trivial⟩
  rw [if_neg h4] at h
  by_cases h5 : (c.option client_section "redeemer").getD "ristretto" = "error"
  · rw [if_pos h5] at h
    cases hg : c.get_config client_section "details" with
    | error e => rw [hg] at h; cases h
    | ok k => rw [hg] at h; cases h; exact ⟨kind _ h5, cfg _ _ hg⟩
  rw [if_neg h5] at h
  by_cases h6 : (c.option client_section "redeemer").getD "ristretto" = "ristretto"
  · rw [if_pos h6] at h
    cases hg : ristretto_make c announcement with
    | error e => rw [hg] at h; cases h
    | ok issuer =>
      rw [hg] at h; cases h
      refine ⟨kind _ h6, ?_⟩
      unfold ristretto_make at hg
      split at hg
      · cases hg
      · rename_i configured hc
        have e : issuer = configured := by
          split at hg
          · cases hg; rfl
          · split at hg
            · cases hg
            · split at hg
              · cases hg
              · cases hg; rfl
        rw [e]
        exact cfg _ _ hc
  · rw [if_neg h6] at h; cases h

/-- C138: a redeemer for tests that the settings ask for is the one that is used. -/
theorem C138_selectable (c : NodeConfig) (announcement : Option Announcement) (r : Redeemer)
    (hr : ∀ issuer, r ≠ .ristretto issuer) (h : AskedFor c r) : get_redeemer c announcement = .ok r := by
  obtain ⟨hk, ha⟩ := h
  have hk' : c.option client_section "redeemer" = some (redeemerName r) := by
    rcases hk with hk | ⟨_, hk⟩
    · exact hk
    · cases r with
      | ristretto issuer => exact absurd rfl (hr issuer)
      | _ => exact absurd hk (by simp [redeemerName])
  unfold get_redeemer
  dsimp only
  rw [hk']
  cases r with
  | ristretto issuer => exact absurd rfl (hr issuer)
  | dummy k =>
    have ha : c.option client_section "issuer-public-key" = some k := ha
    simp [redeemerName, NodeConfig.get_config, ha]
  | error d =>
    have ha : c.option client_section "details" = some d := ha
    simp [redeemerName, NodeConfig.get_config, ha]
  | non => simp [redeemerName]
  | doubleSpend => simp [redeemerName]
  | unpaid => simp [redeemerName]

/-- A node configured for the dummy redeemer. -/
example : AskedFor ⟨"/n", fun s o => if s = client_section ∧ o = "redeemer" then some "dummy"
    else if s = client_section ∧ o = "issuer-public-key" then some "key" else none, fun _ => none⟩ (.dummy "key") := by
  refine ⟨.inl ?_, ?_⟩ <;> decide +kernel

/-- A voucher with the unpaid redeemer. -/
def exTestUnpaid : List RedeemEvent :=
  exTestStart exTestVoucher ++ [.answer 0 .unpaid, .work (exTestEnv "q")]

/-- The voucher is shown as unpaid. -/
example : WithRedeemer .unpaid exRedeemCfg {} exTestUnpaid ∧
    (get_voucher (controllerAfter exRedeemCfg exTestUnpaid) exTestVoucher).map (·.state) =
      .ok (.unpaid "q") :=
  ⟨⟨trivial, .inr rfl, .inr rfl, .inr rfl, fun _ _ => ⟨.unpaid, rfl⟩, .inr rfl, trivial⟩,
    by decide +kernel⟩

/-- The voucher is redeemed with the dummy redeemer. -/
example : WithRedeemer (.dummy "key") exRedeemCfg {} exDummyAll ∧
    (get_voucher (controllerAfter exRedeemCfg exDummyAll) exTestVoucher).map (·.state) =
      .ok (.redeemed "r" 5) := by
  refine ⟨⟨trivial, .inr rfl, .inr rfl, .inr rfl, fun s hs => ?_, .inr rfl, .inr rfl, .inr rfl,
    fun s hs => ?_, .inr rfl, .inr rfl, trivial⟩, by decide +kernel⟩
  · refine ⟨.unpaid, ?_⟩
    have h : ((controllerAfter exRedeemCfg (exTestStart exTestVoucher)).waiting[0]?.map
        (fun s => (Redeemer.dummy "key").redeemWithCounter .unpaid s.tokens)) =
        some (some (exDummyAnswer (controllerAfter exRedeemCfg (exTestStart exTestVoucher)))) := by
      decide +kernel
    rw [show (controllerAfter exRedeemCfg (exTestStart exTestVoucher)).waiting[0]? = some s from hs] at h
    exact Option.some.inj h
  · refine ⟨.unpaid, ?_⟩
    have h : ((controllerAfter exRedeemCfg exDummyFirst).waiting[0]?.map
        (fun s => (Redeemer.dummy "key").redeemWithCounter .unpaid s.tokens)) =
        some (some (exDummyAnswer (controllerAfter exRedeemCfg exDummyFirst))) := by
      decide +kernel
    rw [show (controllerAfter exRedeemCfg exDummyFirst).waiting[0]? = some s from hs] at h
    exact Option.some.inj h

/-! ### C139 -/

/-- **C139** as stated: for every voucher that the API accepts, the redeemers for tests make up as many
random tokens as they are asked for, all different. -/
def C139_statement : Prop :=
  ∀ (voucher : String) (group count : Nat), is_syntactic_voucher (voucher.toList.map Char.toNat) = true →
    group < 10 ^ 4 → count ≤ 10 ^ 60 →
    ∃ ts, dummy_random_tokens voucher group count = .ok ts ∧ ts.length = count ∧ ts.Nodup

/-- **C139** does not hold: a voucher without padding is 33 bytes long, and its random tokens are too
long to be random tokens. -/
theorem C139_long_voucher_fails : ¬ C139_statement := by
  intro h
  obtain ⟨ts, h1, _⟩ := h exLongVoucher 0 1 (by decide +kernel) (by decide) (Nat.one_le_pow _ _ (by decide))
  have : dummy_random_tokens exLongVoucher 0 1 = .error .valueError := by decide +kernel
  rw [this] at h1
  cases h1

/-- Random tokens that were made up are the same only for the same voucher, group and number. -/
theorem random_distinct {v v' : Bytes} {c c' n n' : Nat} (hc : c < 10 ^ 4) (hc' : c' < 10 ^ 4)
    (hn : n < 10 ^ 60) (hn' : n' < 10 ^ 60)
    (h : b64encode (v ++ dummy_padding c n) = b64encode (v' ++ dummy_padding c' n')) :
    v = v' ∧ c = c' ∧ n = n' := by
  have h1 : v ++ dummy_padding c n = v' ++ dummy_padding c' n' := by
    have := b64_roundtrip (v ++ dummy_padding c n)
    rw [h, b64_roundtrip] at this
    exact (Option.some.inj this).symm
  have hl := madeUpDigits_length hc hn
  have hl' := madeUpDigits_length hc' hn'
  rw [dummy_padding_eq, dummy_padding_eq] at h1
  have h2 := List.append_inj' h1 (by rw [List.length_map, List.length_map, hl, hl'])
  refine ⟨h2.1, ?_⟩
  have h3 : madeUpDigits c n = madeUpDigits c' n' := by
    have hinj : ∀ (l l' : List Char), (∀ x ∈ l, '0' ≤ x ∧ x ≤ '9') → (∀ x ∈ l', '0' ≤ x ∧ x ≤ '9') →
        l.map (fun c => UInt8.ofNat c.toNat) = l'.map (fun c => UInt8.ofNat c.toNat) → l = l' := by
      intro l
      induction l with
      | nil => intro l' _ _ e; cases l' with
        | nil => rfl
        | cons _ _ => cases e
      | cons x l ih =>
        intro l' hx hx' e
        cases l' with
        | nil => cases e
        | cons y l' =>
          simp only [List.map_cons, List.cons.injEq] at e
          have h1 := hx x List.mem_cons_self
          have h2 := hx' y List.mem_cons_self
          have hxy : x.toNat = y.toNat := by
            have e' := congrArg UInt8.toNat e.1
            have b1 : x.toNat ≤ 57 := h1.2
            have b2 : y.toNat ≤ 57 := h2.2
            rw [UInt8.toNat_ofNat', UInt8.toNat_ofNat'] at e'
            omega
          rw [Char.toNat_inj.mp hxy, ih l' (fun z hz => hx z (List.mem_cons_of_mem _ hz))
            (fun z hz => hx' z (List.mem_cons_of_mem _ hz)) e.2]
    refine hinj _ _ ?_ ?_ h2.2
    · intro x hx
      rcases List.mem_append.mp hx with hx | hx <;> exact zero_padded_digits _ _ x hx
    · intro x hx
      rcases List.mem_append.mp hx with hx | hx <;> exact zero_padded_digits _ _ x hx
  have h4 := List.append_inj h3 (by rw [zero_padded_length (by omega) hc, zero_padded_length (by omega) hc'])
  refine ⟨?_, ?_⟩
  · rw [← zero_padded_value 4 c, h4.1, zero_padded_value]
  · rw [← zero_padded_value 60 n, h4.2, zero_padded_value]

/-- **C139**, for vouchers of at most 32 bytes: as many random tokens as asked for, all different.
Missing: vouchers of 33 bytes. -/
theorem C139_random_tokens_partial (voucher : String) (b : Bytes) (group count : Nat)
    (hb : urlsafe_b64decode (ZKAP.ascii voucher) = .ok b) (hlen : 30 ≤ b.length ∧ b.length ≤ 32)
    (hg : group < 10 ^ 4) (hc : count ≤ 10 ^ 60) :
    ∃ ts, dummy_random_tokens voucher group count = .ok ts ∧ ts.length = count ∧ ts.Nodup := by
  have h := first_results_of (f := dummy_random_token b group)
    (g := fun n => text_of (b64encode (b ++ dummy_padding group n))) (n := count)
    (fun i hi => dummy_random_token_of hg (by omega) hlen)
  refine ⟨_, by unfold dummy_random_tokens; rw [hb]; exact h, by simp, ?_⟩
  unfold List.Nodup
  rw [List.pairwise_map]
  refine List.Pairwise.imp_of_mem ?_ (List.nodup_range (n := count))
  intro i j hi hj hij e
  have e' := congrArg ZKAP.ascii e
  rw [ascii_text_of, ascii_text_of] at e'
  exact hij (random_distinct hg hg (by have := List.mem_range.mp hi; omega)
    (by have := List.mem_range.mp hj; omega) e').2.2

/-- **C139**: the same random token is made up only for the same bytes of a voucher, and the same
group. -/
theorem C139_random_tokens_distinct (voucher voucher' : String) (group group' count count' : Nat)
    (ts ts' : List String) (hg : group < 10 ^ 4) (hg' : group' < 10 ^ 4) (hc : count ≤ 10 ^ 60)
    (hc' : count' ≤ 10 ^ 60) (h : dummy_random_tokens voucher group count = .ok ts)
    (h' : dummy_random_tokens voucher' group' count' = .ok ts') (x : String) (hx : x ∈ ts) (hx' : x ∈ ts') :
    urlsafe_b64decode (ZKAP.ascii voucher) = urlsafe_b64decode (ZKAP.ascii voucher') ∧ group = group' := by
  unfold dummy_random_tokens at h h'
  cases hb : urlsafe_b64decode (ZKAP.ascii voucher) with
  | error e => rw [hb] at h; cases h
  | ok b =>
    cases hb' : urlsafe_b64decode (ZKAP.ascii voucher') with
    | error e => rw [hb'] at h'; cases h'
    | ok b' =>
      rw [hb] at h
      rw [hb'] at h'
      obtain ⟨i, hi, e⟩ := first_results_mem h x hx
      obtain ⟨j, hj, e'⟩ := first_results_mem h' x hx'
      have e1 := congrArg ZKAP.ascii (dummy_random_token_ok e).1
      have e2 := congrArg ZKAP.ascii (dummy_random_token_ok e').1
      rw [ascii_text_of] at e1 e2
      obtain ⟨h1, h2, _⟩ := random_distinct hg hg' (by omega) (by omega) (e1.symm.trans e2)
      exact ⟨by rw [h1], h2⟩

/-- **C139**: the unblinded token of the dummy redeemer for the `n`-th random token of a group spells out
the voucher, the group and the number. -/
theorem C139_unblinded (voucher : String) (b : Bytes) (group count : Nat) (ts us : List String)
    (hb : urlsafe_b64decode (ZKAP.ascii voucher) = .ok b) (hg : group < 10 ^ 4) (hc : count ≤ 10 ^ 60)
    (h : dummy_random_tokens voucher group count = .ok ts)
    (hu : each_result dummy_unblinded_token ts = .ok us) :
    us.length = count ∧ ∀ u ∈ us, ∃ n < count, MadeUp b group n u := by
  refine ⟨by rw [each_result_length hu, dummy_random_length h], ?_⟩
  intro u hu'
  obtain ⟨t, ht, e⟩ := each_result_mem hu u hu'
  unfold dummy_random_tokens at h
  rw [hb] at h
  obtain ⟨i, hi, e'⟩ := first_results_mem h t ht
  obtain ⟨_, y, hy, hm⟩ := unblinded_of_random hg (by omega) e'
  rw [e] at hy
  exact ⟨i, hi, Except.ok.inj hy ▸ hm⟩

/-- **C139**: with the redeemers for tests, a voucher of 33 bytes, which the API accepts, is never
recorded, however often it is submitted. -/
theorem C139_never_recorded (r : Redeemer) (hr : ∀ issuer, r ≠ .ristretto issuer) (cfg : RedeemCfg)
    (history : List RedeemEvent) (h : WithRedeemer r cfg {} history) (voucher : String) (b : Bytes)
    (hb : urlsafe_b64decode (ZKAP.ascii voucher) = .ok b) (hlen : 32 < b.length) :
    get_voucher (controllerAfter cfg history) voucher = .error .keyError := by
  have hi := brought_run history (brought_init _ _ _) h
  unfold get_voucher
  rw [get_object_eq]
  cases hrow : voucherRow (controllerAfter cfg history).store voucher with
  | none => rfl
  | some row =>
    have hv := (hi.rows voucher row hrow).1
    have : ∃ b', urlsafe_b64decode (ZKAP.ascii voucher) = .ok b' ∧ b'.length ≤ 32 := by
      cases r with
      | ristretto i => exact absurd rfl (hr i)
      | _ => exact hv
    obtain ⟨b', hb', hle⟩ := this
    rw [hb] at hb'
    have := Except.ok.inj hb'
    subst this
    omega

/-- **C139**: the passes of the dummy redeemer have the length of real ones, and two of them are equal
only if the digests of the tokens agree in all but the first nine digits. -/
theorem C139_passes (hexdigest : Bytes → Bytes) (hd : ∀ b, (hexdigest b).length = 64)
    (t t' : String) :
    ∃ p p', dummy_token_to_pass hexdigest t = .ok p ∧ dummy_token_to_pass hexdigest t' = .ok p' ∧
      p.pass_bytes.length = 177 ∧
      (p = p' ↔ (hexdigest (ZKAP.ascii t)).drop 9 = (hexdigest (ZKAP.ascii t')).drop 9) := by
  have key : ∀ t, dummy_token_to_pass hexdigest t = .ok
      ⟨b64encode (ZKAP.ascii "preimage-" ++ (hexdigest (ZKAP.ascii t)).drop 9),
        b64encode (ZKAP.ascii "signature-" ++ (hexdigest (ZKAP.ascii t)).drop 10)⟩ := by
    intro t
    unfold dummy_token_to_pass Pass.new
    dsimp only
    have h9 : (ZKAP.ascii "preimage-").length = 9 := by decide +kernel
    have h10 : (ZKAP.ascii "signature-").length = 10 := by decide +kernel
    rw [base64_bytes_of, base64_bytes_of]
    · rw [b64encode_length, List.length_append, List.length_drop, hd, h10]
    · rw [b64encode_length, List.length_append, List.length_drop, hd, h9]
  have hinj : ∀ a b, b64encode a = b64encode b → a = b := by
    intro a b e
    have := b64_roundtrip a
    rw [e, b64_roundtrip] at this
    exact (Option.some.inj this).symm
  refine ⟨_, _, key t, key t', ?_, ?_⟩
  · have h9 : (ZKAP.ascii "preimage-").length = 9 := by decide +kernel
    have h10 : (ZKAP.ascii "signature-").length = 10 := by decide +kernel
    simp only [Pass.pass_bytes, List.length_append, List.length_cons, b64encode_length,
      List.length_drop, hd, h9, h10]
  · constructor
    · intro e
      have := congrArg Pass.preimage e
      exact List.append_cancel_left (hinj _ _ this)
    · intro e
      have e10 : (hexdigest (ZKAP.ascii t)).drop 10 = (hexdigest (ZKAP.ascii t')).drop 10 := by
        have := congrArg (List.drop 1) e
        rwa [List.drop_drop, List.drop_drop] at this
      rw [e, e10]

example : is_syntactic_voucher (exTestVoucher.toList.map Char.toNat) = true ∧
    urlsafe_b64decode (ZKAP.ascii exTestVoucher) = .ok (List.replicate 32 0) ∧
    is_syntactic_voucher (exLongVoucher.toList.map Char.toNat) = true ∧
    urlsafe_b64decode (ZKAP.ascii exLongVoucher) = .ok (List.replicate 33 0) := by decide +kernel

/-- A voucher of 33 bytes is submitted, and not recorded. -/
example : WithRedeemer (.dummy "key") exRedeemCfg {} (exTestStart exLongVoucher) ∧
    (controllerAfter exRedeemCfg (exTestStart exLongVoucher)).store.app.vouchers = [] :=
  ⟨⟨trivial, .inr rfl, .inr rfl, .inr rfl, trivial⟩, by decide +kernel⟩

end ZKAP
