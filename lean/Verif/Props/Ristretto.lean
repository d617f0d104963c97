import Verif.Lemmas.Ristretto
import Verif.Props.Server

/-! C88–C90: what the issuer's answer is worth. -/
namespace ZKAP
open Spec

/-! ### A small group with all the properties asked of the library

Scalars and points are the numbers 1 to 6, multiplied modulo 7. -/

/-- Multiplication modulo 7 of the numbers `a + 1` and `b + 1`. -/
def toyMul (a b : Fin 6) : Fin 6 := Fin.ofNat 6 ((a.val + 1) * (b.val + 1) % 7 - 1)

/-- Inverse modulo 7: the fifth power. -/
def toyInv (a : Fin 6) : Fin 6 := toyMul a (toyMul a (toyMul a (toyMul a a)))

def toyCodec (N n : Nat) : Codec (Fin N) where
  raw x := List.replicate n (UInt8.ofNat x.val)
  decode s := match b64decode s with
    | some (b :: _) => if h : b.toNat < N then some ⟨b.toNat, h⟩ else none
    | _ => none

/-- Two values, the first 64 bytes long and the second 32. -/
def toyPairCodec : Codec (Fin 6 × Fin 6) where
  raw x := List.replicate 64 (UInt8.ofNat x.1.val) ++ List.replicate 32 (UInt8.ofNat x.2.val)
  decode s := match b64decode s with
    | none => none
    | some bs => match bs[0]?, bs[64]? with
      | some a, some b => some (Fin.ofNat 6 a.toNat, Fin.ofNat 6 b.toNat)
      | _, _ => none

abbrev toy : Ristretto where
  Scalar := Fin 6
  Point := Fin 6
  Preimage := Fin 6
  MacKey := Fin 6 × Fin 6
  Signature := Fin 256
  Proof := Fin 1
  smul := toyMul
  inverse := toyInv
  base := 2
  hash t := t
  derive t w := (t, w)
  sign k m := Fin.ofNat 256 (k.1.val + 6 * k.2.val + 36 * (m.map UInt8.toNat).sum)
  same a b := a == b
  proves _ ps qs pk := qs == ps.map (toyMul (toyMul (toyInv 2) pk))
  random_tokens := toyPairCodec
  points := toyCodec 6 32
  unblinded_tokens := toyPairCodec
  preimages := toyCodec 6 64
  signatures := toyCodec 256 64
  proofs := toyCodec 1 64

theorem toyCodec_roundtrips (N n : Nat) (hn : 0 < n) (hN : N ≤ 256) :
    RoundTrips (toyCodec N n) := by
  intro x
  show (match b64decode (b64encode (List.replicate n (UInt8.ofNat x.val))) with
    | some (b :: _) => if h : b.toNat < N then some ⟨b.toNat, h⟩ else none
    | _ => none) = some x
  rw [b64_roundtrip]
  obtain ⟨m, rfl⟩ : ∃ m, n = m + 1 := ⟨n - 1, by omega⟩
  have hx := x.isLt
  have hv : (UInt8.ofNat x.val).toNat = x.val := by
    rw [UInt8.toNat_ofNat']; exact Nat.mod_eq_of_lt (by omega)
  rw [List.replicate_succ]
  simp only [hv, hx, dif_pos]

theorem toyPair_roundtrips : RoundTrips toyPairCodec := by
  intro x
  show (match b64decode (b64encode (List.replicate 64 (UInt8.ofNat x.1.val) ++
      List.replicate 32 (UInt8.ofNat x.2.val))) with
    | none => none
    | some bs => match bs[0]?, bs[64]? with
      | some a, some b => some (Fin.ofNat 6 a.toNat, Fin.ofNat 6 b.toNat)
      | _, _ => none) = some x
  rw [b64_roundtrip]
  obtain ⟨a, b⟩ := x
  revert a b
  decide +kernel

theorem toy_lawful : Lawful toy where
  random_tokens := toyPair_roundtrips
  points := toyCodec_roundtrips _ _ (by decide) (by decide)
  unblinded_tokens := toyPair_roundtrips
  preimages := toyCodec_roundtrips _ _ (by decide) (by decide)
  signatures := toyCodec_roundtrips _ _ (by decide) (by decide)
  proofs := toyCodec_roundtrips _ _ (by decide) (by decide)
  unblinded_size := by
    intro t
    show (List.replicate 64 _ ++ List.replicate 32 _).length = 96
    rw [List.length_append, List.length_replicate, List.length_replicate]
  preimage_size := fun t => List.length_replicate
  signature_size := fun t => List.length_replicate
  unblinds := by show ∀ r k P : Fin 6, toyMul (toyInv r) (toyMul k (toyMul r P)) = toyMul k P; decide
  same_refl := by intro s; exact beq_self_eq_true _

theorem toy_sound : Sound toy := by
  intro proof blinded signed pk h k hk
  have h' : signed = blinded.map (toyMul (toyMul (toyInv 2) pk)) := eq_of_beq h
  have hk' : toyMul k 2 = pk := hk
  have e : ∀ k : Fin 6, toyMul (toyInv 2) (toyMul k 2) = k := by decide
  have e' : toyMul (toyInv 2) pk = k := by rw [← hk']; exact e k
  rw [h', e']

theorem toy_complete : Complete toy (fun _ _ => (0 : Fin 1)) := by
  intro k blinded
  show (blinded.map (toyMul k) == blinded.map (toyMul (toyMul (toyInv 2) (toyMul k 2)))) = true
  have e : ∀ k : Fin 6, toyMul (toyInv 2) (toyMul k 2) = k := by decide
  have e' : toyMul (toyInv 2) (toyMul k 2) = k := e k
  rw [e']
  exact beq_self_eq_true _

theorem toy_blinds : Blinds toy := by
  show ∀ t Q : Fin 6, ∃ r : Fin 6, toyMul r t = Q
  decide

/-! ### C88: redeemed tokens buy service -/

/-- C88: if the issuer's answer is accepted then, for every message, the tokens turn into as many
passes as random tokens were sent, with the preimages of those random tokens, each accepted by
every server that holds the signing key of the public key in the answer, and each of the length
the network protocol demands. -/
theorem C88_accepted (L : Ristretto) (hL : Lawful L) (hS : Sound L)
    (issuer : RedeemRequest → Option Json) (voucher : String) (counter : Nat)
    (tokens : List (L.Preimage × L.Scalar)) (pk : String) (utoks : List Bytes)
    (h : redeemWithCounter L issuer voucher counter (tokens.map L.random_tokens.encode) = .ok (pk, utoks))
    (k : L.Scalar) (hk : L.points.decode (ascii pk) = some (L.public_key k))
    (message : Bytes) (v : Int) :
    ∃ passes, tokens_to_passes L message utoks = .ok passes ∧
      passes.map Pass.preimage = tokens.map (fun t => L.preimages.encode t.1) ∧
      ∀ p ∈ passes, (server_with_key L v k).verifies message p = true ∧
        p.pass_bytes.length = _PASS_LENGTH ∧ Pass.from_bytes p.pass_bytes = .ok p := by
  have hb : basic_random_tokens L (tokens.map L.random_tokens.encode) = .ok tokens := by
    unfold basic_random_tokens
    rw [try_map_map, try_map_of (g := id) (by
      intro t _; unfold Codec.decode_base64; rw [hL.random_tokens]; rfl), List.map_id]
  unfold redeemWithCounter at h
  rw [hb] at h
  have ht := redeemed_tokens L hL hS h k hk
  refine ⟨(tokens.map Prod.fst).map (passOf L message k), ?_, ?_, ?_⟩
  · rw [ht, ← tokens_to_passes_derived L hL, List.map_map]; rfl
  · rw [List.map_map, List.map_map]; rfl
  · intro p hp
    obtain ⟨t, _, rfl⟩ := List.mem_map.mp hp
    exact ⟨passOf_verifies L hL v message k t, passOf_wire L hL message k t⟩

/-- C88: an issuer that follows the protocol is always believed. -/
theorem C88_honest_issuer (L : Ristretto) (hL : Lawful L)
    (prove : L.Scalar → List L.Point → L.Proof) (hC : Complete L prove) (k : L.Scalar)
    (voucher : String) (counter : Nat) (tokens : List (L.Preimage × L.Scalar)) :
    ∃ utoks, redeemWithCounter L (honestIssuer L prove k) voucher counter
        (tokens.map L.random_tokens.encode) = .ok (text (L.points.encode (L.public_key k)), utoks) ∧
      utoks.length = tokens.length := by
  have hb : basic_random_tokens L (tokens.map L.random_tokens.encode) = .ok tokens := by
    unfold basic_random_tokens
    rw [try_map_map, try_map_of (g := id) (by
      intro t _; unfold Codec.decode_base64; rw [hL.random_tokens]; rfl), List.map_id]
  unfold redeemWithCounter
  rw [hb]
  exact ⟨_, honest_response L hL prove hC k voucher counter tokens, List.length_map _⟩

/-- C88: put together with the database (which keeps the tokens as text) and the storage server:
with as many redeemed tokens as the lease costs, the server never asks for more. -/
theorem C88_lease_paid (L : Ristretto) (hL : Lawful L) (hS : Sound L)
    (issuer : RedeemRequest → Option Json) (voucher : String) (counter : Nat)
    (tokens : List (L.Preimage × L.Scalar)) (pk : String) (stored : List String)
    (h : to_answer (redeemWithCounter L issuer voucher counter (tokens.map L.random_tokens.encode))
      = .success pk stored)
    (k : L.Scalar) (hk : L.points.decode (ascii pk) = some (L.public_key k))
    (v : Int) (hv : 0 < v) (s : Server) (si : SI) (renew : Secret) (now : Int) (space : Nat → Bool)
    (hb : Dict.WF (s.buckets si)) (spend : List String) (hsub : ∀ t ∈ spend, t ∈ stored)
    (hprice : (spend.length : Int) = client_add_lease_num_passes v (remote_share_sizes s si none)) :
    ∃ passes, tokens_to_passes L (add_lease_message si) (spend.map ascii) = .ok passes ∧
      ∀ n r f, (remote_add_lease (server_with_key L v k)
        ⟨passes.map Pass.pass_bytes, si, renew, now, space⟩ s).2 ≠ .error (.morePassesRequired n r f) := by
  obtain ⟨utoks, hr, hst⟩ : ∃ utoks, redeemWithCounter L issuer voucher counter
      (tokens.map L.random_tokens.encode) = .ok (pk, utoks) ∧ stored = utoks.map text := by
    unfold to_answer at h
    split at h
    · rename_i pk' toks he
      cases h
      exact ⟨toks, he, rfl⟩
    · exact nomatch h
    · exact nomatch h
    · exact nomatch h
  have hb' : basic_random_tokens L (tokens.map L.random_tokens.encode) = .ok tokens := by
    unfold basic_random_tokens
    rw [try_map_map, try_map_of (g := id) (by
      intro t _; unfold Codec.decode_base64; rw [hL.random_tokens]; rfl), List.map_id]
  unfold redeemWithCounter at hr
  rw [hb'] at hr
  have ht := redeemed_tokens L hL hS hr k hk
  obtain ⟨ts, hts⟩ : ∃ ts : List L.Preimage,
      spend.map ascii = ts.map (fun t => L.unblinded_tokens.encode (L.rederive k t)) := by
    clear hprice
    induction spend with
    | nil => exact ⟨[], rfl⟩
    | cons x xs ih =>
      obtain ⟨ts, hts⟩ := ih (fun t ht => hsub t (List.mem_cons_of_mem _ ht))
      have hx := hsub x List.mem_cons_self
      rw [hst] at hx
      obtain ⟨u, hu, rfl⟩ := List.mem_map.mp hx
      rw [ht] at hu
      obtain ⟨t, _, rfl⟩ := List.mem_map.mp hu
      exact ⟨t.1 :: ts, by rw [List.map_cons, List.map_cons, hts, ascii_text]⟩
  refine ⟨ts.map (passOf L (add_lease_message si) k), ?_, ?_⟩
  · rw [hts, tokens_to_passes_derived L hL]
  · have hlen : ts.length = spend.length := by
      have := congrArg List.length hts
      rw [List.length_map, List.length_map] at this
      exact this.symm
    refine C06_never_refused (server_with_key L v k) hv _ s hb (ts.map (passOf L (add_lease_message si) k)) ?_ ?_ ?_
    · show (List.map Pass.pass_bytes _).map Pass.from_bytes = _
      rw [List.map_map, List.map_map, List.map_map]
      apply List.map_congr_left
      intro t _
      exact (passOf_wire L hL _ k t).2
    · intro p hp
      obtain ⟨t, _, rfl⟩ := List.mem_map.mp hp
      exact passOf_verifies L hL v _ k t
    · rw [List.length_map, hlen]; exact hprice

/-- Three random tokens, redeemed with the toy issuer whose key is 4. -/
def toyTokens : List (toy.Preimage × toy.Scalar) := [((1 : Fin 6), (3 : Fin 6)), ((5 : Fin 6), (2 : Fin 6)), ((0 : Fin 6), (5 : Fin 6))]

example : ∃ utoks passes, redeemWithCounter toy (honestIssuer toy (fun _ _ => (0 : Fin 1)) (3 : Fin 6)) "v" 0
      (toyTokens.map toy.random_tokens.encode) = .ok (text (toy.points.encode (toy.public_key (3 : Fin 6))), utoks) ∧
    tokens_to_passes toy [1, 2] utoks = .ok passes ∧ passes.length = 3 ∧
    ∀ p ∈ passes, (server_with_key toy 10 (3 : Fin 6)).verifies [1, 2] p = true := by
  obtain ⟨utoks, h, _⟩ := C88_honest_issuer toy toy_lawful _ toy_complete (3 : Fin 6) "v" 0 toyTokens
  obtain ⟨passes, h1, h2, h3⟩ := C88_accepted toy toy_lawful toy_sound _ _ _ _ _ _ h (3 : Fin 6)
    (by rw [ascii_text]; exact toy_lawful.points _) [1, 2] 10
  have hl := congrArg List.length h2
  rw [List.length_map, List.length_map] at hl
  exact ⟨utoks, passes, h, h1, hl, fun p hp => (h3 p hp).1⟩

/-- The check is not empty: with another key, or for another message, a pass fails. -/
example : (server_with_key toy 10 (3 : Fin 6)).verifies [1] (passOf toy [1] (3 : Fin 6) (2 : Fin 6)) = true ∧
    (server_with_key toy 10 (4 : Fin 6)).verifies [1] (passOf toy [1] (3 : Fin 6) (2 : Fin 6)) = false ∧
    (server_with_key toy 10 (3 : Fin 6)).verifies [2] (passOf toy [1] (3 : Fin 6) (2 : Fin 6)) = false := by
  decide +kernel

/-! ### C89: what the answers mean -/

/-- C89: tokens are accepted only with a proof that verifies, for exactly the blinded tokens that
were sent, as many signed tokens, and the very public key that is reported. -/
theorem C89_proved (L : Ristretto) (tokens : List (L.Preimage × L.Scalar)) (body : Option Json)
    (pk : String) (utoks : List Bytes) (h : redeem_response L tokens body = .ok (pk, utoks)) :
    ∃ result PK signed proof, body = some (.obj result) ∧
      result.lookup "public-key" = some (.str pk) ∧ L.points.decode (ascii pk) = some PK ∧
      L.proves proof (tokens.map (fun t => L.smul t.2 (L.hash t.1))) signed PK = true ∧
      signed.length = tokens.length ∧ utoks.length = tokens.length := by
  obtain ⟨result, v, hb, _, _, hr⟩ := redeem_response_ok L h
  obtain ⟨proofj, sigsj, sigs, PK, signed, proof, unblinded, hkey, _, _, _, hpk, _, _, hu, ht⟩ :=
    redeem_succeeded_inv L hr
  obtain ⟨hp, hlen, hz⟩ := invalid_or_unblind_some L hu
  refine ⟨result, PK, signed, proof, hb, hkey, ?_, hp, hlen.symm, ?_⟩
  · unfold Codec.decode_json Json.encode_ascii at hpk
    simp only [] at hpk
    split at hpk
    · exact nomatch hpk
    · rename_i s hs
      split at hs
      · cases hs
        unfold Codec.decode_base64 at hpk
        split at hpk
        · rename_i x hx
          cases hpk
          exact hx
        · exact nomatch hpk
      · exact nomatch hs
  · rw [try_map_ok ht, hz, List.length_zipWith, ← hlen, Nat.min_self]

/-- C89: a voucher is taken to be already spent exactly if the issuer's answer is an object
that does not claim success and gives the reason "double-spend"; to be unpaid exactly if the reason is
"unpaid".  Every other answer that is no valid success is an error. -/
theorem C89_classified (L : Ristretto) (tokens : List (L.Preimage × L.Scalar)) (body : Option Json) :
    (to_answer (redeem_response L tokens body) = .alreadySpent ↔ RefusedWith body "double-spend") ∧
    (to_answer (redeem_response L tokens body) = .unpaid ↔ RefusedWith body "unpaid") ∧
    ((∀ pk toks, to_answer (redeem_response L tokens body) ≠ .success pk toks) →
      ¬ RefusedWith body "double-spend" → ¬ RefusedWith body "unpaid" →
      ∃ details, to_answer (redeem_response L tokens body) = .failed details) := by
  obtain ⟨h1, h2⟩ := redeem_response_refused L tokens body
  rw [← h1, ← h2]
  unfold to_answer
  split
  · rename_i he; rw [he]; simp
  · rename_i he; rw [he]; simp
  · rename_i he; rw [he]; simp
  · rename_i e hn1 hn2 he
    rw [he]
    refine ⟨⟨fun h => (nomatch h), fun h => ?_⟩, ⟨fun h => (nomatch h), fun h => ?_⟩, fun _ _ _ => ⟨_, rfl⟩⟩
    · cases h; exact (hn1 rfl).elim
    · cases h; exact (hn2 rfl).elim

/-- C89: whatever the answer, a redemption that is not proved leaves no tokens. -/
theorem C89_no_tokens_without_proof (L : Ristretto) (tokens : List (L.Preimage × L.Scalar))
    (body : Option Json)
    (hno : ∀ proof signed PK, L.proves proof (tokens.map (fun t => L.smul t.2 (L.hash t.1))) signed PK = false)
    (pk : String) (stored : List String) :
    to_answer (redeem_response L tokens body) ≠ .success pk stored := by
  intro h
  unfold to_answer at h
  split at h
  · rename_i pk' toks he
    obtain ⟨_, PK, signed, proof, _, _, _, hp, _⟩ := C89_proved L tokens body _ _ he
    rw [hno] at hp
    exact nomatch hp
  · exact nomatch h
  · exact nomatch h
  · exact nomatch h

example : to_answer (redeem_response toy toyTokens (some (.obj [("reason", .str "double-spend")]))) = .alreadySpent :=
  (C89_classified _ _ _).1.mpr ⟨_, rfl, fun _ h => (nomatch h), rfl⟩

/-- A signature too few, and an answer that is no object. -/
example : to_answer (redeem_response toy toyTokens (some (.obj [("success", .int 1),
      ("public-key", .str (text (toy.points.encode (toy.public_key (3 : Fin 6))))),
      ("signatures", .arr []), ("proof", .str (text (toy.proofs.encode (0 : Fin 1))))]))) = .failed "" ∧
    to_answer (redeem_response toy toyTokens (some (.arr []))) = .failed "" := by
  decide +kernel

/-! ### C90: the issuer learns nothing about the passes -/

/-- C90: for what the issuer is sent, every list of as many preimages is equally possible: there
are blinds with which it would have been sent exactly the same. -/
theorem C90_unlinkable (L : Ristretto) (hB : Blinds L) (voucher : String) (counter : Nat)
    (tokens : List (L.Preimage × L.Scalar)) (others : List L.Preimage)
    (hlen : others.length = tokens.length) :
    ∃ tokens', tokens'.map Prod.fst = others ∧
      redeem_request L voucher counter tokens' = redeem_request L voucher counter tokens := by
  suffices h : ∃ tokens' : List (L.Preimage × L.Scalar), tokens'.map Prod.fst = others ∧
      tokens'.map L.blind = tokens.map L.blind by
    obtain ⟨t, h1, h2⟩ := h
    exact ⟨t, h1, by unfold redeem_request; rw [h2]⟩
  induction tokens generalizing others with
  | nil =>
    have : others = [] := List.eq_nil_of_length_eq_zero hlen
    subst this
    exact ⟨[], rfl, rfl⟩
  | cons t ts ih =>
    cases others with
    | nil => exact nomatch hlen
    | cons o os =>
      obtain ⟨r, hr⟩ := hB o (L.blind t)
      obtain ⟨ts', h1, h2⟩ := ih os (by simpa using hlen)
      exact ⟨(o, r) :: ts', by rw [List.map_cons, h1],
        by rw [List.map_cons, List.map_cons, h2]; show L.smul r (L.hash o) :: _ = _; rw [hr]⟩

/-- C90: the request names the voucher, the counter and one blinded token per random token, and
nothing else. -/
theorem C90_request (L : Ristretto) (voucher : String) (counter : Nat)
    (tokens : List (L.Preimage × L.Scalar)) :
    redeem_request L voucher counter tokens = ⟨voucher, counter,
      tokens.map (fun t => text (b64encode (L.points.raw (L.smul t.2 (L.hash t.1)))))⟩ := by
  unfold redeem_request
  rw [List.map_map]
  rfl

example : ∃ tokens', tokens'.map Prod.fst = [(4 : Fin 6), (4 : Fin 6), (2 : Fin 6)] ∧
    redeem_request toy "v" 0 tokens' = redeem_request toy "v" 0 toyTokens :=
  C90_unlinkable toy toy_blinds "v" 0 toyTokens _ rfl

end ZKAP
