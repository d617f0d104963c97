import Verif.Lemmas.Pass

/-! Properties C09, C13, C35, C73. -/
namespace ZKAP

/-! ### C73 -/

/-- C73: decoding inverts encoding, for every byte string. -/
theorem C73_b64_roundtrip (s : Bytes) : b64decode (b64encode s) = some s := b64_roundtrip s

/-- C73: distinct byte strings have distinct encodings. -/
theorem C73_b64_injective (s t : Bytes) (h : b64encode s = b64encode t) : s = t := by
  have := C73_b64_roundtrip s
  rw [h, C73_b64_roundtrip t] at this
  exact (Option.some.inj this).symm

/-- C73: the URL-safe variant is accepted by the code's own decoder and inverts too. -/
theorem C73_urlsafe_roundtrip (s : Bytes) : urlsafe_b64decode (urlsafe_b64encode s) = .ok s := by
  -- every digit survives the two translations
  have fin1 : ∀ i : Fin 64,
      (fun c : UInt8 => if c = 45 then (43 : UInt8) else if c = 95 then 47 else c)
        ((fun c : UInt8 => if c = 43 then (45 : UInt8) else if c = 47 then 95 else c)
          (b64char i.val)) = b64char i.val
      ∧ urlsafe_digit ((fun c : UInt8 => if c = 43 then (45 : UInt8) else if c = 47 then 95 else c)
          (b64char i.val)) = true := by decide +kernel
  have d1 := fun i (h : i < 64) => (fin1 ⟨i, h⟩).1
  have d2 := fun i (h : i < 64) => (fin1 ⟨i, h⟩).2
  have inv : alt_to_std (urlsafe_b64encode s) = b64encode s := by
    unfold urlsafe_b64encode alt_to_std std_to_alt
    rw [List.map_map]
    fun_induction b64encode s with
    | case1 => rfl
    | case2 a =>
      have ha := u8_lt a
      simp only [List.map_cons, List.map_nil, Function.comp, d1 _ (by omega : a.toNat / 4 < 64),
        d1 _ (by omega : a.toNat % 4 * 16 < 64)]
      simp
    | case3 a b =>
      have ha := u8_lt a
      have hb := u8_lt b
      simp only [List.map_cons, List.map_nil, Function.comp, d1 _ (by omega : a.toNat / 4 < 64),
        d1 _ (by omega : a.toNat % 4 * 16 + b.toNat / 16 < 64),
        d1 _ (by omega : b.toNat % 16 * 4 < 64)]
      simp
    | case4 a b c rest ih =>
      have ha := u8_lt a
      have hb := u8_lt b
      have hc := u8_lt c
      simp only [List.map_cons, ih]
      simp only [Function.comp, d1 _ (by omega : a.toNat / 4 < 64),
        d1 _ (by omega : a.toNat % 4 * 16 + b.toNat / 16 < 64),
        d1 _ (by omega : b.toNat % 16 * 4 + c.toNat / 64 < 64), d1 _ (by omega : c.toNat % 64 < 64)]
  have val : b64_validator_match (urlsafe_b64encode s) = true := by
    clear inv
    unfold urlsafe_b64encode std_to_alt
    fun_induction b64encode s with
    | case1 => rfl
    | case2 a =>
      have ha := u8_lt a
      have h1 := d2 _ (by omega : a.toNat / 4 < 64)
      have h2 := d2 _ (by omega : a.toNat % 4 * 16 < 64)
      simp only [] at h1 h2
      simp only [List.map_cons, List.map_nil, b64_validator_match, h1, h2, if_true]
      decide
    | case3 a b =>
      have ha := u8_lt a
      have hb := u8_lt b
      have h1 := d2 _ (by omega : a.toNat / 4 < 64)
      have h2 := d2 _ (by omega : a.toNat % 4 * 16 + b.toNat / 16 < 64)
      have h3 := d2 _ (by omega : b.toNat % 16 * 4 < 64)
      simp only [] at h1 h2 h3
      simp only [List.map_cons, List.map_nil, b64_validator_match, h1, h2, h3, if_true]
      decide
    | case4 a b c rest ih =>
      have ha := u8_lt a
      have hb := u8_lt b
      have hc := u8_lt c
      have h1 := d2 _ (by omega : a.toNat / 4 < 64)
      have h2 := d2 _ (by omega : a.toNat % 4 * 16 + b.toNat / 16 < 64)
      have h3 := d2 _ (by omega : b.toNat % 16 * 4 + c.toNat / 64 < 64)
      have h4 := d2 _ (by omega : c.toNat % 64 < 64)
      simp only [] at h1 h2 h3 h4
      simp only [List.map_cons, b64_validator_match, h1, h2, h3, h4, if_true]
      exact ih
  unfold urlsafe_b64decode
  rw [val, inv, C73_b64_roundtrip]
  rfl

/-- C73: the length of the encoding. -/
theorem C73_b64_length (s : Bytes) : (b64encode s).length = (s.length + 2) / 3 * 4 :=
  b64encode_length s

example : b64encode (ascii "hello") = ascii "aGVsbG8=" ∧ urlsafe_b64encode [251, 255] = ascii "-_8=" := by
  decide

/-! ### C09 -/

/-- The operations whose requests carry passes. -/
inductive Operation where
  | allocateBuckets | addLease | slotWrite
  deriving DecidableEq

/-- The message the code binds passes to, per operation. -/
def messageFor : Operation → Bytes → Bytes
  | .allocateBuckets => allocate_buckets_message
  | .addLease => add_lease_message
  | .slotWrite => slot_testv_and_readv_and_writev_message

/-- C09: equal messages mean the same operation on the same storage index. -/
theorem C09_message_binding (o o' : Operation) (si si' : Bytes)
    (h : messageFor o si = messageFor o' si') : o = o' ∧ si = si' := by
  have l1 : (32 : UInt8) ∉ ascii "allocate_buckets" := by decide
  have l2 : (32 : UInt8) ∉ ascii "add_lease" := by decide
  have l3 : (32 : UInt8) ∉ ascii "slot_testv_and_readv_and_writev" := by decide
  cases o <;> cases o' <;>
    simp only [messageFor, allocate_buckets_message, add_lease_message,
      slot_testv_and_readv_and_writev_message, make_message] at h
  · exact ⟨rfl, C73_b64_injective _ _ (split_at_sep l1 l1 h).2⟩
  · exact absurd (split_at_sep l1 l2 h).1 (by decide)
  · exact absurd (split_at_sep l1 l3 h).1 (by decide)
  · exact absurd (split_at_sep l2 l1 h).1 (by decide)
  · exact ⟨rfl, C73_b64_injective _ _ (split_at_sep l2 l2 h).2⟩
  · exact absurd (split_at_sep l2 l3 h).1 (by decide)
  · exact absurd (split_at_sep l3 l1 h).1 (by decide)
  · exact absurd (split_at_sep l3 l2 h).1 (by decide)
  · exact ⟨rfl, C73_b64_injective _ _ (split_at_sep l3 l3 h).2⟩

/-- C09: if a signature determines the message it was made for, then a pass accepted for
one operation on one index is accepted for no other operation or index. -/
theorem C09_pass_binding (verifies : Bytes → Pass → Bool)
    (binds : ∀ m m' p, verifies m p = true → verifies m' p = true → m = m')
    (o o' : Operation) (si si' : Bytes) (p : Pass) (h : verifies (messageFor o si) p = true)
    (hne : o ≠ o' ∨ si ≠ si') : verifies (messageFor o' si') p = false := by
  cases hv : verifies (messageFor o' si') p with
  | false => rfl
  | true =>
    have := C09_message_binding o o' si si' (binds _ _ p h hv)
    rcases hne with h1 | h1
    · exact absurd this.1 h1
    · exact absurd this.2 h1

example : messageFor .addLease [1] ≠ messageFor .addLease [1, 0]
    ∧ messageFor .addLease [1] ≠ messageFor .slotWrite [1] := by decide

/-- A verification function that binds its message exists: signature = a copy of the message. -/
example : ∃ verifies : Bytes → Pass → Bool,
    (∀ m m' p, verifies m p = true → verifies m' p = true → m = m')
      ∧ ∃ p, verifies (messageFor .addLease [7]) p = true :=
  ⟨fun m p => p.signature == m, fun m m' p h h' => by simp at h h'; rw [← h, ← h'],
    ⟨[], messageFor .addLease [7]⟩, by simp⟩

/-! ### C13 -/

/-- C13: a pass has exactly the length the protocol schema allows. -/
theorem C13_wire_length (a b : Bytes) (p : Pass) (h : Pass.new a b = .ok p) :
    p.pass_bytes.length = _PASS_LENGTH := by
  obtain ⟨h1, h2, rfl⟩ := Pass.new_ok.mp h
  simp [Pass.pass_bytes, _PASS_LENGTH, h1, h2]

/-- C13 in full would be: every constructible pass parses back to itself.  It fails: the
validator does not reject a space, and a pass containing one is not parsed. -/
theorem C13_roundtrip_fails :
    ¬ ∀ (a b : Bytes) (p : Pass), Pass.new a b = .ok p → Pass.from_bytes p.pass_bytes = .ok p := by
  intro h
  have := h (List.replicate 88 32) (List.replicate 88 65) ⟨List.replicate 88 32, List.replicate 88 65⟩
    (by decide)
  revert this
  decide

/-- C13: a pass whose parts contain no space (such as base64 text) parses back. Missing from the
full property: passes with a space in either part, which the constructor wrongly admits. -/
theorem C13_roundtrip_partial (a b : Bytes) (p : Pass) (h : Pass.new a b = .ok p)
    (ha : (32 : UInt8) ∉ a) (hb : (32 : UInt8) ∉ b) : Pass.from_bytes p.pass_bytes = .ok p := by
  obtain ⟨h1, h2, rfl⟩ := Pass.new_ok.mp h
  unfold Pass.from_bytes Pass.pass_bytes
  simp only [bytes_split_append a b ha, bytes_split_nosep b hb]
  exact h

/-- C13: passes made, as the code does, from base64-encoded values survive the wire. -/
theorem C13_base64_roundtrip (x y : Bytes) (hx : x.length = 64) (hy : y.length = 64) :
    ∃ p, Pass.new (b64encode x) (b64encode y) = .ok p ∧ Pass.from_bytes p.pass_bytes = .ok p
      ∧ p.pass_bytes.length = 177 ∧ b64decode p.preimage = some x ∧ b64decode p.signature = some y := by
  have l1 : (b64encode x).length = 88 := by rw [b64encode_length, hx]
  have l2 : (b64encode y).length = 88 := by rw [b64encode_length, hy]
  have hn : Pass.new (b64encode x) (b64encode y) = .ok ⟨b64encode x, b64encode y⟩ :=
    Pass.new_ok.mpr ⟨l1, l2, rfl⟩
  exact ⟨_, hn, C13_roundtrip_partial _ _ _ hn (b64encode_no_space x) (b64encode_no_space y),
    C13_wire_length _ _ _ hn, C73_b64_roundtrip x, C73_b64_roundtrip y⟩

/-- C13: whatever parses was the wire form of the result, so two different wire strings
never give the same pass. -/
theorem C13_parse_sound (s : Bytes) (p : Pass) (h : Pass.from_bytes s = .ok p) :
    p.pass_bytes = s ∧ p.preimage.length = 88 ∧ p.signature.length = 88 := by
  obtain ⟨hd, t, e, h1, h2, h3⟩ := bytes_split_spec (sep := 32) s
  unfold Pass.from_bytes at h
  rw [e] at h
  match t, h, h3 with
  | [], h, _ => simp at h
  | [b], h, h3 =>
    simp only at h
    obtain ⟨l1, l2, rfl⟩ := Pass.new_ok.mp h
    refine ⟨?_, l1, l2⟩
    simp [h3, Pass.pass_bytes]
  | b :: c :: t, h, _ => simp at h

example : ∃ p, Pass.new (List.replicate 88 65) (List.replicate 88 66) = .ok p
    ∧ Pass.from_bytes p.pass_bytes = .ok p := ⟨⟨List.replicate 88 65, List.replicate 88 66⟩, by decide, by decide⟩

/-! ### C35 -/

/-- The voucher syntax the documentation asks for: the URL-safe base64 text of 32 bytes. -/
def Spec.isVoucherText (s : List Nat) : Prop :=
  ∃ b : Bytes, b.length = 32 ∧ s = (urlsafe_b64encode b).map UInt8.toNat

/-- What the endpoint accepts, exactly: 44 characters, of which the last `p ≤ 2` are `=`
and all others are URL-safe base64 digits. -/
theorem C35_accepts_iff (s : List Nat) :
    is_syntactic_voucher s = true ↔
      s.length = 44 ∧ (∀ c ∈ s, c < 128) ∧
      ∃ ds p, s.map UInt8.ofNat = ds ++ List.replicate p 61 ∧ p ≤ 2 ∧
        (∀ c ∈ ds, urlsafe_digit c = true) := by
  unfold is_syntactic_voucher
  by_cases hl : ¬ s.length = 44
  · simp [hl]
  have hl : s.length = 44 := Decidable.byContradiction hl
  by_cases ha : s.any (fun c => decide (c ≥ 128)) = true
  · have : ¬ ∀ c ∈ s, c < 128 := by
      obtain ⟨c, hc, h⟩ := List.any_eq_true.mp ha
      intro hall
      have := hall c hc
      simp at h; omega
    simp only [hl, ne_eq, not_true_eq_false, if_false, ha, if_true, Bool.false_eq_true, false_iff]
    exact fun h => this h.2.1
  have hall : ∀ c ∈ s, c < 128 := by
    intro c hc
    apply Decidable.byContradiction
    intro h
    exact ha (List.any_eq_true.mpr ⟨c, hc, by simp; omega⟩)
  simp only [hl, ne_eq, not_true_eq_false, if_false, ha]
  unfold urlsafe_b64decode
  have hlen : (s.map UInt8.ofNat).length = 44 := by simpa using hl
  generalize s.map UInt8.ofNat = b at hlen
  by_cases hv : ¬ b64_validator_match b = true
  · have hv' : b64_validator_match b = false := by simpa using hv
    simp only [hv', Bool.not_false, if_true, ite_self, Bool.false_eq_true, false_iff]
    rintro ⟨_, _, ds, p, h, hp, hds⟩
    apply hv
    rw [validator_iff]
    refine ⟨ds, _, h, hds, ?_⟩
    have : p = 0 ∨ p = 1 ∨ p = 2 := by omega
    rcases this with rfl | rfl | rfl <;> decide
  have hv : b64_validator_match b = true := by simpa using hv
  obtain ⟨ds, t, rfl, hds, ht⟩ := (validator_iff b).mp hv
  obtain ⟨out, l', p', e, _, hp'⟩ := urlsafe_decode_digits ds t hds
  simp only [hv, Bool.not_true, Bool.false_eq_true, if_false, e]
  have cases6 : t = [] ∨ t = [61] ∨ t = [61, 61] ∨ t = [10] ∨ t = [61, 10] ∨ t = [61, 61, 10] := by
    simpa [b64_tail, Bool.or_eq_true, or_assoc] using ht
  rw [List.length_append] at hlen
  have hne : ds ≠ [] := by
    intro h
    subst h
    rcases cases6 with h | h | h | h | h | h <;> subst h <;> simp at hlen
  have hp0 := hp' hne
  subst hp0
  -- a final newline is neither a digit nor a pad
  have nl : ∀ b : Bytes, (10 : UInt8) ∈ b → ¬ (True ∧ (∀ c ∈ s, c < 128) ∧
      ∃ ds p, b = ds ++ List.replicate p 61 ∧ p ≤ 2 ∧ (∀ c ∈ ds, urlsafe_digit c = true)) := by
    rintro b hm ⟨_, _, ds', p, h, hp, hds'⟩
    rw [h, List.mem_append] at hm
    rcases hm with hm | hm
    · exact absurd (hds' _ hm) (by decide)
    · rw [List.mem_replicate] at hm
      exact absurd hm.2 (by decide)
  rcases cases6 with h | h | h | h | h | h <;> subst h
  · have : ds.length % 4 = 0 := by simp at hlen; omega
    simp only [this, alt_to_std, List.map_nil, a2b_base64, if_true, Option.map_some, true_iff]
    exact ⟨trivial, hall, ds, 0, by simp, by omega, hds⟩
  · have : ds.length % 4 = 3 := by simp at hlen; omega
    have e2 : a2b_base64 (alt_to_std [61]) 3 l' 0 = some [] := by
      simp [alt_to_std, a2b_base64]
    simp only [this, e2, Option.map_some, true_iff]
    exact ⟨trivial, hall, ds, 1, by simp, by omega, hds⟩
  · have : ds.length % 4 = 2 := by simp at hlen; omega
    have e2 : a2b_base64 (alt_to_std [61, 61]) 2 l' 0 = some [] := by
      simp [alt_to_std, a2b_base64]
    simp only [this, e2, Option.map_some, true_iff]
    exact ⟨trivial, hall, ds, 2, by simp, by omega, hds⟩
  all_goals refine iff_of_false ?_ (nl _ (by simp))
  · have : ds.length % 4 = 3 := by simp at hlen; omega
    have e2 : a2b_base64 (alt_to_std [10]) 3 l' 0 = none := by
      have : b64val 10 = none := by decide
      simp [alt_to_std, a2b_base64, this]
    simp [this, e2]
  · have : ds.length % 4 = 2 := by simp at hlen; omega
    have e2 : a2b_base64 (alt_to_std [61, 10]) 2 l' 0 = none := by
      have : b64val 10 = none := by decide
      simp [alt_to_std, a2b_base64, this]
    simp [this, e2]
  · have : ds.length % 4 = 1 := by simp at hlen; omega
    have e2 : a2b_base64 (alt_to_std [61, 61, 10]) 1 l' 0 = none := by
      have : b64val 10 = none := by decide
      simp [alt_to_std, a2b_base64, this]
    simp [this, e2]

/-- C35 fails as stated: the text of 33 bytes (44 digits, no padding), of 31 bytes (two pads)
and non-canonical text of 32 bytes are all accepted. -/
theorem C35_exact_fails : ¬ ∀ s : List Nat, is_syntactic_voucher s = true ↔ Spec.isVoucherText s := by
  intro h
  have h1 : is_syntactic_voucher (List.replicate 44 65) = true := by decide
  obtain ⟨b, hb, e⟩ := (h _).mp h1
  have e2 : urlsafe_b64encode b = List.replicate 44 65 := by
    have := congrArg (List.map UInt8.ofNat) e
    rw [List.map_map] at this
    have hid : UInt8.ofNat ∘ UInt8.toNat = id := by funext x; simp
    rw [hid, List.map_id] at this
    exact this.symm.trans (by decide)
  have e3 := C73_urlsafe_roundtrip b
  rw [e2] at e3
  have e4 : urlsafe_b64decode (List.replicate 44 65) = .ok (List.replicate 33 0) := by decide
  rw [e4] at e3
  have : b = List.replicate 33 0 := by injection e3 with e5; exact e5.symm
  rw [this] at hb
  simp at hb

/-- Three strings that are accepted although they are not the encoding of 32 bytes. -/
theorem C35_accepts_wrong_lengths_fails :
    is_syntactic_voucher (List.replicate 42 65 ++ [61, 61]) = true
    ∧ urlsafe_b64decode (List.replicate 42 65 ++ [61, 61]) = .ok (List.replicate 31 0)
    ∧ is_syntactic_voucher (List.replicate 42 65 ++ [66, 61]) = true
    ∧ urlsafe_b64decode (List.replicate 42 65 ++ [66, 61]) = .ok (List.replicate 32 0)
    ∧ urlsafe_b64encode (List.replicate 32 0) ≠ List.replicate 42 65 ++ [66, 61] := by decide

/-- C35, the direction that holds: every correct voucher text is accepted.  Missing from the
full property: the converse, which fails (`C35_exact_fails`). -/
theorem C35_accepts_vouchers_partial (s : List Nat) (h : Spec.isVoucherText s) :
    is_syntactic_voucher s = true := by
  obtain ⟨b, hb, rfl⟩ := h
  have hlen : (urlsafe_b64encode b).length = 44 := by
    simp [urlsafe_b64encode, std_to_alt, b64encode_length, hb]
  have hmap : ((urlsafe_b64encode b).map UInt8.toNat).map UInt8.ofNat = urlsafe_b64encode b := by
    rw [List.map_map]
    have : UInt8.ofNat ∘ UInt8.toNat = id := by funext x; simp
    rw [this, List.map_id]
  have hr := C73_urlsafe_roundtrip b
  have hv : b64_validator_match (urlsafe_b64encode b) = true := by
    cases h : b64_validator_match (urlsafe_b64encode b) with
    | true => rfl
    | false => unfold urlsafe_b64decode at hr; simp [h] at hr
  have asc : ∀ c ∈ (urlsafe_b64encode b).map UInt8.toNat, c < 128 := by
    intro c hc
    obtain ⟨d, hd, rfl⟩ := List.mem_map.mp hc
    obtain ⟨ds, t, e, h1, h2⟩ := (validator_iff _).mp hv
    rw [e, List.mem_append] at hd
    rcases hd with hd | hd
    · have := h1 d hd
      unfold urlsafe_digit at this
      simp [Bool.or_eq_true] at this
      omega
    · have : d = 61 ∨ d = 10 := by
        have ht : t = [] ∨ t = [61] ∨ t = [61, 61] ∨ t = [10] ∨ t = [61, 10] ∨ t = [61, 61, 10] := by
          simpa [b64_tail, Bool.or_eq_true, or_assoc] using h2
        rcases ht with h | h | h | h | h | h <;> subst h <;> simp at hd <;> grind
      rcases this with h | h <;> subst h <;> decide
  unfold is_syntactic_voucher
  have : ((urlsafe_b64encode b).map UInt8.toNat).any (fun c => decide (c ≥ 128)) = false := by
    rw [List.any_eq_false]
    intro c hc
    have := asc c hc
    simp; omega
  rw [this, hmap, hr]
  simp [hlen]

/-- C35: everything accepted decodes to 31, 32 or 33 bytes. -/
theorem C35_decoded_length (s : List Nat) (h : is_syntactic_voucher s = true) :
    ∃ b, urlsafe_b64decode (s.map UInt8.ofNat) = .ok b ∧ 31 ≤ b.length ∧ b.length ≤ 33 := by
  have h0 := h
  obtain ⟨hl, _, ds, p, e, hp, hds⟩ := (C35_accepts_iff s).mp h
  unfold is_syntactic_voucher at h0
  have hlen : ds.length + p = 44 := by
    have := congrArg List.length e
    simp [hl] at this; omega
  cases hd : urlsafe_b64decode (s.map UInt8.ofNat) with
  | error err => rw [hd] at h0; simp at h0
  | ok b =>
    refine ⟨b, rfl, ?_⟩
    unfold urlsafe_b64decode at hd
    rw [e] at hd
    obtain ⟨out, l', p', e', hout, hp'⟩ := urlsafe_decode_digits ds (List.replicate p 61) hds
    rw [e'] at hd
    have hne : ds ≠ [] := by intro h; subst h; simp at hlen; omega
    have := hp' hne; subst this
    have hb : b = out := by
      split at hd
      · simp at hd
      · have : p = 0 ∨ p = 1 ∨ p = 2 := by omega
        rcases this with rfl | rfl | rfl
        · have : ds.length % 4 = 0 := by omega
          simp [this, alt_to_std, a2b_base64] at hd; exact hd.symm
        · have : ds.length % 4 = 3 := by omega
          simp [this, alt_to_std, a2b_base64] at hd; exact hd.symm
        · have : ds.length % 4 = 2 := by omega
          simp [this, alt_to_std, a2b_base64] at hd; exact hd.symm
    rw [hb, hout]; omega

example : is_syntactic_voucher ((urlsafe_b64encode (List.replicate 32 7)).map UInt8.toNat) = true :=
  C35_accepts_vouchers_partial _ ⟨_, by decide, rfl⟩

end ZKAP
