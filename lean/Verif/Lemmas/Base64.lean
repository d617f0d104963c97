import Verif.Model.Base64

namespace ZKAP

theorem b64val_char_fin : ∀ i : Fin 64, b64val (b64char i.val) = some i.val ∧ b64char i.val ≠ 61
    ∧ b64char i.val ≠ 32 := by
  decide +kernel

theorem b64val_char (i : Nat) (h : i < 64) : b64val (b64char i) = some i :=
  (b64val_char_fin ⟨i, h⟩).1

theorem b64char_ne_pad (i : Nat) (h : i < 64) : b64char i ≠ 61 := (b64val_char_fin ⟨i, h⟩).2.1

theorem b64char_ne_space (i : Nat) (h : i < 64) : b64char i ≠ 32 := (b64val_char_fin ⟨i, h⟩).2.2

/-- One digit step. -/
theorem a2b_digit (i : Nat) (h : i < 64) (cs : Bytes) (q l p : Nat) :
    a2b_base64 (b64char i :: cs) q l p =
      (if q = 0 then a2b_base64 cs 1 i 0
       else if q = 1 then (a2b_base64 cs 2 (i % 16) 0).map (UInt8.ofNat (l * 4 + i / 16) :: ·)
       else if q = 2 then (a2b_base64 cs 3 (i % 4) 0).map (UInt8.ofNat (l * 16 + i / 4) :: ·)
       else (a2b_base64 cs 0 0 0).map (UInt8.ofNat (l * 64 + i) :: ·)) := by
  rw [a2b_base64.eq_2]
  simp only [b64char_ne_pad i h, if_false, b64val_char i h]

theorem u8_lt (a : UInt8) : a.toNat < 256 := a.toNat_lt

theorem ofNat_eq (a : UInt8) (n : Nat) (h : n = a.toNat) : UInt8.ofNat n = a := by
  subst h; exact UInt8.ofNat_toNat

theorem b64_roundtrip (s : Bytes) : b64decode (b64encode s) = some s := by
  unfold b64decode
  fun_induction b64encode s with
  | case1 => rfl
  | case2 a =>
    have ha := u8_lt a
    rw [a2b_digit _ (by omega), if_pos rfl, a2b_digit _ (by omega), if_neg (by omega), if_pos rfl]
    simp only [a2b_base64]
    rw [ofNat_eq a _ (by omega)]
    rfl
  | case3 a b =>
    have ha := u8_lt a
    have hb := u8_lt b
    rw [a2b_digit _ (by omega), if_pos rfl, a2b_digit _ (by omega), if_neg (by omega), if_pos rfl,
      a2b_digit _ (by omega), if_neg (by omega), if_neg (by omega), if_pos rfl]
    simp only [a2b_base64]
    rw [ofNat_eq a _ (by omega), ofNat_eq b _ (by omega)]
    rfl
  | case4 a b c rest ih =>
    have ha := u8_lt a
    have hb := u8_lt b
    have hc := u8_lt c
    rw [a2b_digit _ (by omega), if_pos rfl, a2b_digit _ (by omega), if_neg (by omega), if_pos rfl,
      a2b_digit _ (by omega), if_neg (by omega), if_neg (by omega), if_pos rfl,
      a2b_digit _ (by omega), if_neg (by omega), if_neg (by omega), if_neg (by omega), ih]
    rw [ofNat_eq a _ (by omega), ofNat_eq b _ (by omega), ofNat_eq c _ (by omega)]
    rfl

theorem b64encode_length (s : Bytes) : (b64encode s).length = (s.length + 2) / 3 * 4 := by
  fun_induction b64encode s with
  | case1 => rfl
  | case2 a => simp
  | case3 a b => simp
  | case4 a b c rest ih => simp only [List.length_cons, ih]; omega

theorem b64encode_no_space (s : Bytes) : (32 : UInt8) ∉ b64encode s := by
  fun_induction b64encode s with
  | case1 => simp
  | case2 a =>
    have ha := u8_lt a
    have h1 := b64char_ne_space (a.toNat / 4) (by omega)
    have h2 := b64char_ne_space (a.toNat % 4 * 16) (by omega)
    simp only [List.mem_cons, List.not_mem_nil, or_false, not_or]
    exact ⟨h1.symm, h2.symm, by decide, by decide⟩
  | case3 a b =>
    have ha := u8_lt a
    have hb := u8_lt b
    have h1 := b64char_ne_space (a.toNat / 4) (by omega)
    have h2 := b64char_ne_space (a.toNat % 4 * 16 + b.toNat / 16) (by omega)
    have h3 := b64char_ne_space (b.toNat % 16 * 4) (by omega)
    simp only [List.mem_cons, List.not_mem_nil, or_false, not_or]
    exact ⟨h1.symm, h2.symm, h3.symm, by decide⟩
  | case4 a b c rest ih =>
    have ha := u8_lt a
    have hb := u8_lt b
    have hc := u8_lt c
    have h1 := b64char_ne_space (a.toNat / 4) (by omega)
    have h2 := b64char_ne_space (a.toNat % 4 * 16 + b.toNat / 16) (by omega)
    have h3 := b64char_ne_space (b.toNat % 16 * 4 + c.toNat / 64) (by omega)
    have h4 := b64char_ne_space (c.toNat % 64) (by omega)
    simp only [List.mem_cons, not_or]
    exact ⟨h1.symm, h2.symm, h3.symm, h4.symm, ih⟩

theorem split_at_sep {sep : UInt8} {a b x y : Bytes} (ha : sep ∉ a) (hb : sep ∉ b)
    (h : a ++ sep :: x = b ++ sep :: y) : a = b ∧ x = y := by
  induction a generalizing b with
  | nil =>
    cases b with
    | nil => simpa using h
    | cons c b => simp at h hb; exact absurd h.1 hb.1
  | cons c a ih =>
    cases b with
    | nil => simp at h ha; exact absurd h.1.symm ha.1
    | cons d b =>
      simp only [List.cons_append, List.cons.injEq] at h
      simp only [List.mem_cons, not_or] at ha hb
      have := ih ha.2 hb.2 h.2
      exact ⟨by rw [h.1, this.1], this.2⟩

/-- Running the decoder over digits only. -/
theorem a2b_digits (ds t : Bytes) (hds : ∀ c ∈ ds, c ≠ 61 ∧ (b64val c).isSome) (q l p : Nat)
    (hq : q < 4) :
    ∃ out l' p', a2b_base64 (ds ++ t) q l p
        = (a2b_base64 t ((q + ds.length) % 4) l' p').map (out ++ ·)
      ∧ out.length = 3 * (q + ds.length) / 4 - 3 * q / 4 ∧ (ds ≠ [] → p' = 0) := by
  induction ds generalizing q l p with
  | nil =>
    refine ⟨[], l, p, ?_, ?_, by simp⟩
    · simp [Nat.mod_eq_of_lt hq]
    · simp
  | cons c ds ih =>
    have hc := hds c (by simp)
    have hds' : ∀ d ∈ ds, d ≠ 61 ∧ (b64val d).isSome := fun d hd => hds d (by simp [hd])
    obtain ⟨v, hv⟩ := Option.isSome_iff_exists.mp hc.2
    have step : a2b_base64 (c :: ds ++ t) q l p =
        (if q = 0 then a2b_base64 (ds ++ t) 1 v 0
         else if q = 1 then (a2b_base64 (ds ++ t) 2 (v % 16) 0).map (UInt8.ofNat (l * 4 + v / 16) :: ·)
         else if q = 2 then (a2b_base64 (ds ++ t) 3 (v % 4) 0).map (UInt8.ofNat (l * 16 + v / 4) :: ·)
         else (a2b_base64 (ds ++ t) 0 0 0).map (UInt8.ofNat (l * 64 + v) :: ·)) := by
      rw [List.cons_append, a2b_base64.eq_2]
      simp only [hc.1, if_false, hv]
    rw [step]
    have hp : ∀ (p' : Nat), (ds ≠ [] → p' = 0) → (ds = [] → p' = 0) → p' = 0 := by
      intro p' h1 h2
      by_cases h : ds = [] <;> simp_all
    have fix : ∀ (q' l1 : Nat), q' < 4 → ∃ out l' p', a2b_base64 (ds ++ t) q' l1 0
        = (a2b_base64 t ((q' + ds.length) % 4) l' p').map (out ++ ·)
      ∧ out.length = 3 * (q' + ds.length) / 4 - 3 * q' / 4 ∧ p' = 0 := by
      intro q' l1 hq'
      by_cases h : ds = []
      · subst h
        refine ⟨[], l1, 0, ?_, by simp, rfl⟩
        simp [Nat.mod_eq_of_lt hq']
      · obtain ⟨out, l', p', h1, h2, h3⟩ := ih hds' q' l1 0 hq'
        exact ⟨out, l', p', h1, h2, h3 h⟩
    have hlen : (c :: ds).length = ds.length + 1 := rfl
    split
    · rename_i h0
      obtain ⟨out, l', p', h1, h2, h3⟩ := fix 1 v (by omega)
      refine ⟨out, l', p', ?_, ?_, fun _ => h3⟩
      · rw [h1, h0, hlen]; congr 2; omega
      · rw [h2, hlen]; omega
    · split
      · obtain ⟨out, l', p', h1, h2, h3⟩ := fix 2 (v % 16) (by omega)
        refine ⟨UInt8.ofNat (l * 4 + v / 16) :: out, l', p', ?_, ?_, fun _ => h3⟩
        · rw [h1, hlen, Option.map_map]; subst q
          have : (2 + ds.length) % 4 = (1 + (ds.length + 1)) % 4 := by omega
          rw [this]; rfl
        · simp only [List.length_cons, h2]; omega
      · split
        · obtain ⟨out, l', p', h1, h2, h3⟩ := fix 3 (v % 4) (by omega)
          refine ⟨UInt8.ofNat (l * 16 + v / 4) :: out, l', p', ?_, ?_, fun _ => h3⟩
          · rw [h1, hlen, Option.map_map]; subst q
            have : (3 + ds.length) % 4 = (2 + (ds.length + 1)) % 4 := by omega
            rw [this]; rfl
          · simp only [List.length_cons, h2]; omega
        · obtain ⟨out, l', p', h1, h2, h3⟩ := fix 0 0 (by omega)
          refine ⟨UInt8.ofNat (l * 64 + v) :: out, l', p', ?_, ?_, fun _ => h3⟩
          · rw [h1, hlen, Option.map_map]
            have : (0 + ds.length) % 4 = (q + (ds.length + 1)) % 4 := by omega
            rw [this]; rfl
          · simp only [List.length_cons, h2]; omega

theorem alt_digit_fin : ∀ n : Fin 256, urlsafe_digit (UInt8.ofNat n.val) = true →
    ((if UInt8.ofNat n.val = 45 then (43 : UInt8) else if UInt8.ofNat n.val = 95 then 47
        else UInt8.ofNat n.val) ≠ 61 ∧
     (b64val (if UInt8.ofNat n.val = 45 then (43 : UInt8) else if UInt8.ofNat n.val = 95 then 47
        else UInt8.ofNat n.val)).isSome = true) := by
  decide +kernel

theorem alt_digit (c : UInt8) (h : urlsafe_digit c = true) :
    ((if c = 45 then (43 : UInt8) else if c = 95 then 47 else c) ≠ 61 ∧
     (b64val (if c = 45 then (43 : UInt8) else if c = 95 then 47 else c)).isSome = true) := by
  have := alt_digit_fin ⟨c.toNat, u8_lt c⟩
  simp only [UInt8.ofNat_toNat] at this
  exact this h

theorem digit_not_tail_fin : ∀ n : Fin 256, urlsafe_digit (UInt8.ofNat n.val) = true →
    UInt8.ofNat n.val ≠ 61 ∧ UInt8.ofNat n.val ≠ 10 := by decide +kernel

theorem digit_not_tail (c : UInt8) (h : urlsafe_digit c = true) : c ≠ 61 ∧ c ≠ 10 := by
  have := digit_not_tail_fin ⟨c.toNat, u8_lt c⟩
  simp only [UInt8.ofNat_toNat] at this
  exact this h

/-- The regular expression as digits followed by a tail. -/
theorem validator_iff (s : Bytes) :
    b64_validator_match s = true ↔
      ∃ ds t, s = ds ++ t ∧ (∀ c ∈ ds, urlsafe_digit c = true) ∧ b64_tail t = true := by
  induction s with
  | nil => exact ⟨fun _ => ⟨[], [], rfl, fun c hc => absurd hc (by simp), by decide⟩, fun _ => rfl⟩
  | cons c cs ih =>
    unfold b64_validator_match
    by_cases hc : urlsafe_digit c = true
    · simp only [hc, if_true, ih]
      constructor
      · rintro ⟨ds, t, rfl, h1, h2⟩
        exact ⟨c :: ds, t, rfl, by simpa [hc] using h1, h2⟩
      · rintro ⟨ds, t, h, h1, h2⟩
        cases ds with
        | nil =>
          exfalso
          have hn := digit_not_tail c hc
          simp only [List.nil_append] at h
          subst h
          simp [b64_tail, hn.1, hn.2] at h2
        | cons d ds =>
          simp only [List.cons_append, List.cons.injEq] at h
          exact ⟨ds, t, h.2, fun x hx => h1 x (by simp [hx]), h2⟩
    · have hc' : urlsafe_digit c = false := by simpa using hc
      simp only [hc', Bool.false_eq_true, if_false]
      constructor
      · intro h; exact ⟨[], c :: cs, rfl, by simp, h⟩
      · rintro ⟨ds, t, h, h1, h2⟩
        cases ds with
        | nil => simp at h; rw [h]; exact h2
        | cons d ds =>
          simp only [List.cons_append, List.cons.injEq] at h
          have := h1 d (by simp)
          rw [← h.1] at this
          exact absurd this hc

theorem alt_to_std_append (a b : Bytes) : alt_to_std (a ++ b) = alt_to_std a ++ alt_to_std b := by
  simp [alt_to_std]

/-- Decoding digits followed by a tail. -/
theorem urlsafe_decode_digits (ds t : Bytes) (hds : ∀ c ∈ ds, urlsafe_digit c = true) :
    ∃ out l' p', b64decode (alt_to_std (ds ++ t))
        = (a2b_base64 (alt_to_std t) (ds.length % 4) l' p').map (out ++ ·)
      ∧ out.length = 3 * ds.length / 4 ∧ (ds ≠ [] → p' = 0) := by
  unfold b64decode
  rw [alt_to_std_append]
  have hd : ∀ c ∈ alt_to_std ds, c ≠ 61 ∧ (b64val c).isSome = true := by
    intro c hc
    obtain ⟨d, hd, rfl⟩ := List.mem_map.mp hc
    exact alt_digit d (hds d hd)
  obtain ⟨out, l', p', h1, h2, h3⟩ := a2b_digits (alt_to_std ds) (alt_to_std t) hd 0 0 0 (by omega)
  refine ⟨out, l', p', ?_, ?_, ?_⟩
  · rw [h1]; simp [alt_to_std]
  · rw [h2]; simp [alt_to_std]
  · intro h; apply h3; simpa [alt_to_std] using h

end ZKAP
