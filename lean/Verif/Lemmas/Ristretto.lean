import Verif.Spec.Ristretto
import Verif.Lemmas.Base64
import Verif.Lemmas.Pass

namespace ZKAP
open Spec

theorem char_ofNat_byte (b : UInt8) : (Char.ofNat b.toNat).toNat = b.toNat := by
  have hb := b.toNat_lt
  have h : Nat.isValidChar b.toNat := Or.inl (by omega)
  rw [Char.ofNat, dif_pos h]
  rfl

theorem ascii_text (s : Bytes) : ascii (text s) = s := by
  unfold ascii text
  rw [String.toList_ofList, List.map_map]
  induction s with
  | nil => rfl
  | cons b bs ih =>
    rw [List.map_cons, ih, Function.comp_apply, char_ofNat_byte]
    congr 1
    exact UInt8.ofNat_toNat

theorem map_ascii_text (l : List Bytes) : (l.map text).map ascii = l := by
  rw [List.map_map]
  induction l with
  | nil => rfl
  | cons b bs ih => rw [List.map_cons, ih, Function.comp_apply, ascii_text]

theorem b64char_lt : ∀ i : Nat, i < 64 → (b64char i).toNat < 128 := by decide

theorem b64encode_ascii (s : Bytes) : ∀ c ∈ b64encode s, c.toNat < 128 := by
  fun_induction b64encode s with
  | case1 => intro c hc; exact nomatch hc
  | case2 a =>
    have ha := u8_lt a
    intro c hc
    simp only [List.mem_cons, List.not_mem_nil, or_false] at hc
    rcases hc with h | h | h | h <;> subst h
    · exact b64char_lt _ (by omega)
    · exact b64char_lt _ (by omega)
    · decide
    · decide
  | case3 a b =>
    have ha := u8_lt a
    have hb := u8_lt b
    intro c hc
    simp only [List.mem_cons, List.not_mem_nil, or_false] at hc
    rcases hc with h | h | h | h <;> subst h
    · exact b64char_lt _ (by omega)
    · exact b64char_lt _ (by omega)
    · exact b64char_lt _ (by omega)
    · decide
  | case4 a b d rest ih =>
    have ha := u8_lt a
    have hb := u8_lt b
    have hd := u8_lt d
    intro c hc
    simp only [List.mem_cons] at hc
    rcases hc with h | h | h | h | h
    · subst h; exact b64char_lt _ (by omega)
    · subst h; exact b64char_lt _ (by omega)
    · subst h; exact b64char_lt _ (by omega)
    · subst h; exact b64char_lt _ (by omega)
    · exact ih c h

theorem encode_ascii_text (s : Bytes) (h : ∀ c ∈ s, c.toNat < 128) :
    (Json.str (text s)).encode_ascii = .ok s := by
  show (if (text s).toList.all (fun c => decide (c.toNat < 128)) then
      Except.ok (ascii (text s)) else .error (RedeemErr.py .valueError)) = _
  rw [if_pos, ascii_text]
  unfold text
  rw [String.toList_ofList, List.all_map, List.all_eq_true]
  intro c hc
  rw [Function.comp_apply, char_ofNat_byte]
  exact decide_eq_true (h c hc)

theorem decode_json_encode {α} (c : Codec α) (hc : RoundTrips c) (x : α) :
    c.decode_json (.str (text (c.encode x))) = .ok x := by
  unfold Codec.decode_json
  rw [encode_ascii_text (c.encode x) (b64encode_ascii _)]
  show c.decode_base64 (c.encode x) = _
  unfold Codec.decode_base64
  rw [hc x]

theorem try_map_ok {α β ε} {f : α → Except ε β} {l : List α} {r : List β} (h : try_map f l = .ok r) :
    r.length = l.length := by
  induction l generalizing r with
  | nil => cases h; rfl
  | cons x xs ih =>
    unfold try_map at h
    cases hx : f x with
    | error e => rw [hx] at h; exact nomatch h
    | ok y =>
      rw [hx] at h
      simp only [] at h
      cases hxs : try_map f xs with
      | error e => rw [hxs] at h; exact nomatch h
      | ok ys =>
        rw [hxs] at h
        cases h
        rw [List.length_cons, List.length_cons, ih hxs]

theorem try_map_of {α β ε} {f : α → Except ε β} {g : α → β} {l : List α}
    (h : ∀ x ∈ l, f x = .ok (g x)) : try_map f l = .ok (l.map g) := by
  induction l with
  | nil => rfl
  | cons x xs ih =>
    unfold try_map
    rw [h x (List.mem_cons_self), ih (fun y hy => h y (List.mem_cons_of_mem _ hy))]
    rfl

theorem try_map_map {α β γ ε} (f : β → Except ε γ) (g : α → β) (l : List α) :
    try_map f (l.map g) = try_map (fun x => f (g x)) l := by
  induction l with
  | nil => rfl
  | cons x xs ih =>
    rw [List.map_cons]
    unfold try_map
    rw [ih]

theorem new_unblinded_token_ok (L : Ristretto) (hL : Lawful L) (t : L.Preimage × L.Point) :
    new_unblinded_token L t = .ok (L.unblinded_tokens.encode t) := by
  have h : (L.unblinded_tokens.encode t).length = 128 := by
    unfold Codec.encode
    rw [b64encode_length, hL.unblinded_size]
  unfold new_unblinded_token base64_bytes
  rw [if_neg (by rw [h]; decide)]

theorem zipWith_unblind {α β γ δ} (g : α → β) (sk : β → γ) (f : α → γ → δ) (h : α → δ)
    (hh : ∀ a, f a (sk (g a)) = h a) (l : List α) :
    List.zipWith f l ((l.map g).map sk) = l.map h := by
  induction l with
  | nil => rfl
  | cons x xs ih =>
    rw [List.map_cons, List.map_cons, List.zipWith_cons_cons, ih, hh, List.map_cons]

/-- What a successful answer contained. -/
theorem redeem_succeeded_inv (L : Ristretto) {tokens result pk utoks}
    (h : redeem_succeeded L tokens result = .ok (pk, utoks)) :
    ∃ proofj sigsj sigs PK signed proof unblinded,
      result.lookup "public-key" = some (.str pk) ∧
      result.lookup "proof" = some proofj ∧
      result.lookup "signatures" = some sigsj ∧ sigsj.iter = .ok sigs ∧
      L.points.decode_json (.str pk) = .ok PK ∧
      try_map L.points.decode_json sigs = .ok signed ∧
      L.proofs.decode_json proofj = .ok proof ∧
      L.invalid_or_unblind proof tokens (tokens.map L.blind) signed PK = .ok unblinded ∧
      try_map (new_unblinded_token L) unblinded = .ok utoks := by
  unfold redeem_succeeded result_get at h
  obtain hk | ⟨kj, hk⟩ : result.lookup "public-key" = none ∨ ∃ v, result.lookup "public-key" = some v := by
    cases result.lookup "public-key" with
    | none => exact .inl rfl
    | some v => exact .inr ⟨v, rfl⟩
  · rw [hk] at h; exact nomatch h
  rw [hk] at h
  obtain hp | ⟨pj, hp⟩ : result.lookup "proof" = none ∨ ∃ v, result.lookup "proof" = some v := by
    cases result.lookup "proof" with
    | none => exact .inl rfl
    | some v => exact .inr ⟨v, rfl⟩
  · rw [hp] at h; exact nomatch h
  rw [hp] at h
  obtain hs | ⟨sj, hs⟩ : result.lookup "signatures" = none ∨ ∃ v, result.lookup "signatures" = some v := by
    cases result.lookup "signatures" with
    | none => exact .inl rfl
    | some v => exact .inr ⟨v, rfl⟩
  · rw [hs] at h; exact nomatch h
  rw [hs] at h
  simp only [bind, Except.bind] at h
  cases hi : sj.iter with
  | error e => rw [hi] at h; exact nomatch h
  | ok sigs =>
  rw [hi] at h
  simp only [] at h
  cases hpk : L.points.decode_json kj with
  | error e => rw [hpk] at h; exact nomatch h
  | ok PK =>
  rw [hpk] at h
  simp only [] at h
  cases hsg : try_map L.points.decode_json sigs with
  | error e => rw [hsg] at h; exact nomatch h
  | ok signed =>
  rw [hsg] at h
  simp only [] at h
  cases hpr : L.proofs.decode_json pj with
  | error e => rw [hpr] at h; exact nomatch h
  | ok proof =>
  rw [hpr] at h
  simp only [] at h
  cases hu : L.invalid_or_unblind proof tokens (tokens.map L.blind) signed PK with
  | error e => rw [hu] at h; exact nomatch h
  | ok unblinded =>
  rw [hu] at h
  simp only [] at h
  cases ht : try_map (new_unblinded_token L) unblinded with
  | error e => rw [ht] at h; exact nomatch h
  | ok ts =>
  rw [ht] at h
  simp only [] at h
  cases kj with
  | str s =>
    cases h
    exact ⟨pj, sj, sigs, PK, signed, proof, unblinded, hk, hp, hs, hi, hpk, hsg, hpr, hu, ht⟩
  | _ => exact nomatch h

theorem redeem_response_ok (L : Ristretto) {tokens body pk utoks}
    (h : redeem_response L tokens body = .ok (pk, utoks)) :
    ∃ result v, body = some (.obj result) ∧ result.lookup "success" = some v ∧ v.truthy = true ∧
      redeem_succeeded L tokens result = .ok (pk, utoks) := by
  unfold redeem_response at h
  split at h
  · exact nomatch h
  · rename_i result
    simp only [] at h
    split at h
    · rename_i hs
      refine ⟨result, ?_⟩
      cases hl : result.lookup "success" with
      | none => rw [hl] at hs; exact nomatch hs
      | some v =>
        rw [hl] at hs
        exact ⟨v, rfl, rfl, hs, h⟩
    · split at h
      · exact nomatch h
      · split at h <;> exact nomatch h
  · exact nomatch h

theorem invalid_or_unblind_some (L : Ristretto) {proof tokens blinded signed pk r}
    (h : L.invalid_or_unblind proof tokens blinded signed pk = .ok r) :
    L.proves proof blinded signed pk = true ∧ tokens.length = signed.length ∧
      r = List.zipWith (fun t q => (t.1, L.smul (L.inverse t.2) q)) tokens signed := by
  unfold Ristretto.invalid_or_unblind at h
  split at h
  · rename_i hc
    rw [Bool.and_eq_true] at hc
    cases h
    exact ⟨hc.1, of_decide_eq_true hc.2, rfl⟩
  · exact nomatch h

/-- What tokens from a sound answer are: those the key's holder would derive. -/
theorem redeemed_tokens (L : Ristretto) (hL : Lawful L) (hS : Sound L) {tokens body pk utoks}
    (h : redeem_response L tokens body = .ok (pk, utoks)) (k : L.Scalar)
    (hk : L.points.decode (ascii pk) = some (L.public_key k)) :
    utoks = tokens.map (fun t => L.unblinded_tokens.encode (L.rederive k t.1)) := by
  obtain ⟨result, v, _, _, _, hr⟩ := redeem_response_ok L h
  obtain ⟨proofj, sigsj, sigs, PK, signed, proof, unblinded, _, _, _, _, hpk, _, _, hu, ht⟩ :=
    redeem_succeeded_inv L hr
  have hPK : PK = L.public_key k := by
    unfold Codec.decode_json Json.encode_ascii at hpk
    simp only [] at hpk
    split at hpk
    · exact nomatch hpk
    · rename_i s hs
      split at hs
      · cases hs
        unfold Codec.decode_base64 at hpk
        rw [hk] at hpk
        cases hpk; rfl
      · exact nomatch hs
  obtain ⟨hp, _, hz⟩ := invalid_or_unblind_some L hu
  have hsigned := hS _ _ _ _ hp k hPK.symm
  rw [hsigned, zipWith_unblind L.blind (L.smul k) _ (fun t => L.rederive k t.1)
    (by intro t; show (t.1, L.smul (L.inverse t.2) (L.smul k (L.smul t.2 (L.hash t.1)))) = _
        rw [hL.unblinds]; rfl)] at hz
  rw [hz, try_map_of (g := L.unblinded_tokens.encode)
    (fun x _ => new_unblinded_token_ok L hL x), List.map_map] at ht
  cases ht
  rfl

/-- The pass made of a token derived with a key. -/
def passOf (L : Ristretto) (message : Bytes) (k : L.Scalar) (t : L.Preimage) : Pass :=
  ⟨L.preimages.encode t, L.signatures.encode (L.sign (L.derive t (L.smul k (L.hash t))) message)⟩

theorem passOf_new (L : Ristretto) (hL : Lawful L) (message : Bytes) (k : L.Scalar) (t : L.Preimage) :
    Pass.new (L.preimages.encode t)
      (L.signatures.encode (L.sign (L.derive t (L.smul k (L.hash t))) message))
      = .ok (passOf L message k t) := by
  rw [Pass.new_ok]
  refine ⟨?_, ?_, rfl⟩
  · unfold Codec.encode; rw [b64encode_length, hL.preimage_size]
  · unfold Codec.encode; rw [b64encode_length, hL.signature_size]

theorem zip_map_map {α β γ} (f : α → β) (g : α → γ) (l : List α) :
    (l.map f).zip (l.map g) = l.map (fun x => (f x, g x)) := by
  induction l with
  | nil => rfl
  | cons x xs ih => rw [List.map_cons, List.map_cons, List.zip_cons_cons, ih, List.map_cons]

theorem tokens_to_passes_derived (L : Ristretto) (hL : Lawful L) (message : Bytes) (k : L.Scalar)
    (ts : List L.Preimage) :
    tokens_to_passes L message (ts.map (fun t => L.unblinded_tokens.encode (L.rederive k t)))
      = .ok (ts.map (passOf L message k)) := by
  unfold tokens_to_passes
  rw [try_map_map, try_map_of (g := L.rederive k) (by
    intro t _
    unfold Codec.decode_base64
    rw [hL.unblinded_tokens])]
  simp only [List.map_map]
  rw [zip_map_map, try_map_map]
  refine try_map_of ?_
  intro t _
  show (match Pass.new (L.preimages.encode t)
      (L.signatures.encode (L.sign (L.derive t (L.smul k (L.hash t))) message)) with
    | .error e => Except.error (RedeemErr.py e)
    | .ok p => .ok p) = _
  rw [passOf_new L hL]

theorem passOf_verifies (L : Ristretto) (hL : Lawful L) (v : Int) (message : Bytes) (k : L.Scalar)
    (t : L.Preimage) : (server_with_key L v k).verifies message (passOf L message k t) = true := by
  show (!_is_invalid_pass L message (passOf L message k t) k) = true
  unfold _is_invalid_pass passOf
  simp only []
  rw [hL.preimages]
  simp only []
  rw [hL.signatures]
  show (!(!L.same _ _)) = true
  rw [Bool.not_not]
  exact hL.same_refl _

theorem passOf_wire (L : Ristretto) (hL : Lawful L) (message : Bytes) (k : L.Scalar) (t : L.Preimage) :
    (passOf L message k t).pass_bytes.length = 177 ∧
      Pass.from_bytes (passOf L message k t).pass_bytes = .ok (passOf L message k t) := by
  have hp : (L.preimages.encode t).length = 88 := by
    unfold Codec.encode; rw [b64encode_length, hL.preimage_size]
  have hs : (L.signatures.encode (L.sign (L.derive t (L.smul k (L.hash t))) message)).length = 88 := by
    unfold Codec.encode; rw [b64encode_length, hL.signature_size]
  constructor
  · show (L.preimages.encode t ++ (32 :: L.signatures.encode _)).length = 177
    rw [List.length_append, List.length_cons, hp, hs]
  · show Pass.from_bytes (L.preimages.encode t ++ (32 :: L.signatures.encode _)) = _
    unfold Pass.from_bytes
    rw [bytes_split_append (L.preimages.encode t) _ (b64encode_no_space _),
      bytes_split_nosep (L.signatures.encode _) (b64encode_no_space _)]
    exact passOf_new L hL message k t

theorem readPoints_text (L : Ristretto) (hL : Lawful L) (ps : List L.Point) :
    readPoints L (ps.map (fun p => text (L.points.encode p))) = some ps := by
  induction ps with
  | nil => rfl
  | cons p ps ih =>
    rw [List.map_cons]
    unfold readPoints
    rw [ascii_text, hL.points, ih]

theorem honest_response (L : Ristretto) (hL : Lawful L)
    (prove : L.Scalar → List L.Point → L.Proof) (hC : Complete L prove) (k : L.Scalar)
    (voucher : String) (counter : Nat) (tokens : List (L.Preimage × L.Scalar)) :
    redeem_response L tokens (honestIssuer L prove k (redeem_request L voucher counter tokens))
      = .ok (text (L.points.encode (L.public_key k)),
          tokens.map (fun t => L.unblinded_tokens.encode (L.rederive k t.1))) := by
  unfold honestIssuer redeem_request
  simp only []
  rw [readPoints_text L hL]
  unfold redeem_response
  simp only [List.lookup, show ("success" == "success") = true from by decide, Option.getD_some, Json.truthy,
    if_true]
  unfold redeem_succeeded result_get
  simp only [List.lookup, bind, Except.bind,
    show ("public-key" == "success") = false from by decide,
    show ("public-key" == "public-key") = true from by decide,
    show ("proof" == "success") = false from by decide,
    show ("proof" == "public-key") = false from by decide,
    show ("proof" == "signatures") = false from by decide,
    show ("proof" == "proof") = true from by decide,
    show ("signatures" == "success") = false from by decide,
    show ("signatures" == "public-key") = false from by decide,
    show ("signatures" == "signatures") = true from by decide, Json.iter]
  rw [decode_json_encode _ hL.points]
  simp only []
  rw [try_map_map, try_map_of (g := L.smul k) (fun p _ => decode_json_encode _ hL.points _)]
  simp only []
  rw [decode_json_encode _ hL.proofs]
  simp only []
  unfold Ristretto.invalid_or_unblind
  rw [hC, Bool.true_and, if_pos (by
    apply decide_eq_true
    rw [List.length_map, List.length_map]),
    zipWith_unblind L.blind (L.smul k) _ (fun t => L.rederive k t.1)
    (by intro t; show (t.1, L.smul (L.inverse t.2) (L.smul k (L.smul t.2 (L.hash t.1)))) = _
        rw [hL.unblinds]; rfl)]
  simp only []
  rw [try_map_of (g := L.unblinded_tokens.encode) (fun x _ => new_unblinded_token_ok L hL x),
    List.map_map]
  rfl

/-! ### Where the two refusals come from -/

/-- Not one of the two answers that mean something to the controller. -/
def NotRefusal (e : RedeemErr) : Prop := e ≠ .alreadySpent ∧ e ≠ .unpaid

theorem bind_not {α β} {x : Except RedeemErr α} {f : α → Except RedeemErr β}
    (hx : ∀ e, x = .error e → NotRefusal e) (hf : ∀ a e, f a = .error e → NotRefusal e) :
    ∀ e, (x >>= f) = .error e → NotRefusal e := by
  intro e h
  cases hc : x with
  | error e' => rw [hc] at h; cases h; exact hx _ hc
  | ok a => rw [hc] at h; exact hf a e h

theorem result_get_not (result : Dict String Json) (k : String) :
    ∀ e, result_get result k = .error e → NotRefusal e := by
  intro e h
  unfold result_get at h
  split at h
  · exact nomatch h
  · cases h; exact ⟨fun h => (nomatch h), fun h => (nomatch h)⟩

theorem decode_json_not {α} (c : Codec α) (j : Json) :
    ∀ e, c.decode_json j = .error e → NotRefusal e := by
  intro e h
  unfold Codec.decode_json Json.encode_ascii Codec.decode_base64 at h
  split at h
  · rename_i e' he
    cases h
    split at he
    · split at he
      · exact nomatch he
      · cases he; exact ⟨fun h => (nomatch h), fun h => (nomatch h)⟩
    · cases he; exact ⟨fun h => (nomatch h), fun h => (nomatch h)⟩
  · split at h
    · exact nomatch h
    · cases h; exact ⟨fun h => (nomatch h), fun h => (nomatch h)⟩

theorem try_map_not {α β} {f : α → Except RedeemErr β}
    (hf : ∀ a e, f a = .error e → NotRefusal e) (l : List α) :
    ∀ e, try_map f l = .error e → NotRefusal e := by
  induction l with
  | nil => intro e h; exact nomatch h
  | cons x xs ih =>
    intro e h
    unfold try_map at h
    cases hx : f x with
    | error e' => rw [hx] at h; cases h; exact hf _ _ hx
    | ok y =>
      rw [hx] at h
      simp only [] at h
      cases hxs : try_map f xs with
      | error e' => rw [hxs] at h; cases h; exact ih _ hxs
      | ok ys => rw [hxs] at h; exact nomatch h

theorem redeem_succeeded_not (L : Ristretto) (tokens : List (L.Preimage × L.Scalar))
    (result : Dict String Json) :
    ∀ e, redeem_succeeded L tokens result = .error e → NotRefusal e := by
  unfold redeem_succeeded
  refine bind_not (result_get_not _ _) fun pkj => ?_
  refine bind_not (result_get_not _ _) fun prj => ?_
  refine bind_not (result_get_not _ _) fun sgj => ?_
  refine bind_not ?_ fun signed => ?_
  · intro e h
    unfold Json.iter at h
    split at h
    · exact nomatch h
    · exact nomatch h
    · exact nomatch h
    · cases h; exact ⟨fun h => (nomatch h), fun h => (nomatch h)⟩
  refine bind_not (decode_json_not _ _) fun pk => ?_
  refine bind_not (try_map_not (decode_json_not _) _) fun sg => ?_
  refine bind_not (decode_json_not _ _) fun pr => ?_
  refine bind_not ?_ fun unblinded => ?_
  · intro e h
    unfold Ristretto.invalid_or_unblind at h
    split at h
    · exact nomatch h
    · cases h; exact ⟨fun h => (nomatch h), fun h => (nomatch h)⟩
  refine bind_not (try_map_not ?_ _) fun toks => ?_
  · intro a e h
    unfold new_unblinded_token at h
    split at h
    · cases h; exact ⟨fun h => (nomatch h), fun h => (nomatch h)⟩
    · exact nomatch h
  · intro e h
    split at h
    · exact nomatch h
    · cases h; exact ⟨fun h => (nomatch h), fun h => (nomatch h)⟩

theorem isStr_iff (j : Json) (s : String) : j.isStr s = true ↔ j = .str s := by
  cases j <;> simp [Json.isStr]

theorem redeem_response_refused (L : Ristretto) (tokens : List (L.Preimage × L.Scalar))
    (body : Option Json) :
    (redeem_response L tokens body = .error .alreadySpent ↔ RefusedWith body "double-spend") ∧
    (redeem_response L tokens body = .error .unpaid ↔ RefusedWith body "unpaid") := by
  unfold redeem_response RefusedWith
  split
  · refine ⟨⟨fun h => (nomatch h), ?_⟩, ⟨fun h => (nomatch h), ?_⟩⟩ <;>
      · intro ⟨_, h, _⟩; exact nomatch h
  · rename_i result
    simp only []
    by_cases hs : ((result.lookup "success").getD (.bool false)).truthy = true
    · rw [if_pos hs]
      have hno : ¬ ∀ v, result.lookup "success" = some v → v.truthy = false := by
        intro h
        cases hl : result.lookup "success" with
        | none => rw [hl] at hs; exact nomatch hs
        | some v =>
          rw [hl] at hs
          have := h v hl
          rw [show v.truthy = true from hs] at this
          exact nomatch this
      refine ⟨⟨fun h => ((redeem_succeeded_not L tokens result _ h).1 rfl).elim, ?_⟩,
        ⟨fun h => ((redeem_succeeded_not L tokens result _ h).2 rfl).elim, ?_⟩⟩ <;>
      · intro ⟨r, h1, h2, _⟩; cases h1; exact (hno h2).elim
    · rw [if_neg hs]
      have hyes : ∀ v, result.lookup "success" = some v → v.truthy = false := by
        intro v hl
        rw [hl] at hs
        exact Bool.eq_false_iff.mpr hs
      have hreason : ∀ s, ((result.lookup "reason").getD .null).isStr s = true ↔
          result.lookup "reason" = some (.str s) := by
        intro s
        rw [isStr_iff]
        cases result.lookup "reason" with
        | none => exact ⟨fun h => (nomatch h), fun h => (nomatch h)⟩
        | some v => exact ⟨fun h => congrArg some h, fun h => Option.some.inj h⟩
      by_cases h1 : ((result.lookup "reason").getD .null).isStr "double-spend" = true
      · rw [if_pos h1]
        have h1' := (hreason _).mp h1
        refine ⟨⟨fun _ => ⟨result, rfl, hyes, h1'⟩, fun _ => rfl⟩, ⟨fun h => (nomatch h), ?_⟩⟩
        intro ⟨r, e, _, h⟩
        cases e
        rw [h1'] at h
        have e : "double-spend" = "unpaid" := Json.str.inj (Option.some.inj h)
        exact absurd e (by decide)
      · rw [if_neg h1]
        by_cases h2 : ((result.lookup "reason").getD .null).isStr "unpaid" = true
        · rw [if_pos h2]
          have h2' := (hreason _).mp h2
          refine ⟨⟨fun h => (nomatch h), ?_⟩, ⟨fun _ => ⟨result, rfl, hyes, h2'⟩, fun _ => rfl⟩⟩
          intro ⟨r, e, _, h⟩
          cases e
          exact (h1 ((hreason _).mpr h)).elim
        · rw [if_neg h2]
          refine ⟨⟨fun h => (nomatch h), ?_⟩, ⟨fun h => (nomatch h), ?_⟩⟩
          · intro ⟨r, e, _, h⟩
            cases e
            exact (h1 ((hreason _).mpr h)).elim
          · intro ⟨r, e, _, h⟩
            cases e
            exact (h2 ((hreason _).mpr h)).elim
  · rename_i hno
    refine ⟨⟨fun h => (nomatch h), ?_⟩, ⟨fun h => (nomatch h), ?_⟩⟩ <;>
      · intro ⟨r, h, _⟩; exact (hno r (Option.some.inj h)).elim

end ZKAP
