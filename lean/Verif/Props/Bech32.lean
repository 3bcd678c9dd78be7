import Verif.Lemmas.Bech32

/-! Property theorems C34–C37 about `bech32.c`. -/
open Bech32
open Bech32Spec (Valid lower char isUpper isLower polymod hrpExpand)

theorem illegal_false_iff (s : List Byte) : illegal s = false ↔
    (∀ c ∈ s, 33 ≤ c.toNat ∧ c.toNat ≤ 126) ∧ ¬ ((∃ c ∈ s, isUpper c) ∧ ∃ c ∈ s, isLower c) := by
  have h1 : (s.any fun c => decide (c.toNat < 33 ∨ c.toNat > 126)) = false ↔
      ∀ c ∈ s, 33 ≤ c.toNat ∧ c.toNat ≤ 126 := by
    rw [List.any_eq_false]
    constructor
    · intro h c hc
      have := h c hc
      simp only [decide_eq_true_eq] at this
      omega
    · intro h c hc
      have := h c hc
      simp only [decide_eq_true_eq]
      omega
  have h2 : ∀ (P : Byte → Prop) [DecidablePred P], (s.any fun c => decide (P c)) = true ↔ ∃ c ∈ s, P c := by
    intro P _
    rw [List.any_eq_true]
    simp only [decide_eq_true_eq]
  rw [illegal, Bool.or_eq_false_iff, h1, Bool.and_eq_false_iff, ← Bool.not_eq_true, ← Bool.not_eq_true,
    h2, h2]
  constructor
  · rintro ⟨h, hm⟩
    exact ⟨h, fun ⟨hu, hl⟩ => hm.elim (fun h => h hl) fun h => h hu⟩
  · rintro ⟨h, hm⟩
    refine ⟨h, ?_⟩
    by_cases hl : ∃ c ∈ s, isLower c
    · exact .inr fun hu => hm ⟨hu, hl⟩
    · exact .inl hl

theorem lower_49 : ∀ c : Byte, lower c = 49#8 → c = 49#8 := by decide +kernel
theorem char_ne_49 : ∀ v : Byte, v.toNat < 32 → char v ≠ 49#8 := by decide +kernel
theorem char_lower : ∀ v : Byte, v.toNat < 32 → lower (char v) = char v ∧ ¬ isUpper (char v) ∧
    33 ≤ (char v).toNat ∧ (char v).toNat ≤ 126 := by decide +kernel

theorem char_inj (v w : Byte) (hv : v.toNat < 32) (hw : w.toNat < 32) (h : char v = char w) : v = w := by
  have h1 := value?_of (char v) v hv (char_lower v hv).1.symm
  have h2 := value?_of (char v) w hw (by rw [(char_lower v hv).1, h])
  rw [h1] at h2
  injection h2

theorem map_char_inj (l m : List Byte) (hl : ∀ v ∈ l, v.toNat < 32) (hm : ∀ v ∈ m, v.toNat < 32)
    (h : l.map char = m.map char) : l = m := by
  induction l generalizing m with
  | nil => cases m with
    | nil => rfl
    | cons _ _ => simp at h
  | cons v l ih => cases m with
    | nil => simp at h
    | cons w m =>
      simp only [List.map_cons, List.cons.injEq] at h
      rw [char_inj v w (hl v (by simp)) (hm w (by simp)) h.1,
        ih m (fun v hv => hl v (by simp [hv])) (fun v hv => hm v (by simp [hv])) h.2]

/-- Characters that are, in lower case, the characters of `D` have the values `D`. -/
theorem vals_of_map (d D : List Byte) (hD : ∀ v ∈ D, v.toNat < 32) (h : d.map lower = D.map char) :
    vals d = D ∧ ∀ c ∈ d, value? c ≠ none ∧ c ≠ 49#8 := by
  induction d generalizing D with
  | nil => cases D with
    | nil => exact ⟨rfl, by simp⟩
    | cons _ _ => simp at h
  | cons c d ih => cases D with
    | nil => simp at h
    | cons v D =>
      simp only [List.map_cons, List.cons.injEq] at h
      have hv := value?_of c v (hD v (by simp)) h.1.symm
      have := ih D (fun v hv => hD v (by simp [hv])) h.2
      rw [vals_cons_some d hv, this.1]
      refine ⟨rfl, ?_⟩
      intro x hx
      rcases List.mem_cons.mp hx with rfl | hx
      · refine ⟨by rw [hv]; simp, ?_⟩
        intro hx
        have := char_ne_49 v (hD v (by simp))
        rw [hx, show lower 49#8 = 49#8 from by decide] at h
        exact this h.1.symm
      · exact this.2 x hx

/-- The string of a valid parse, cut at the separator and before the checksum. -/
theorem valid_split {s H D : List Byte} (hv : Valid s H D) :
    ∃ a d k, s = a ++ [49#8] ++ d ++ k ∧ a.map lower = H ∧ vals d = D ∧ k.length = 6 ∧
      d.length = D.length ∧ (∀ c ∈ d ++ k, value? c ≠ none ∧ c ≠ 49#8) ∧
      polymod (hrpExpand H ++ vals d ++ vals k) = 1#30 := by
  obtain ⟨S, hS6, hlt, hmap, hp⟩ := hv.parts
  rw [List.map_append] at hmap
  rw [← List.append_assoc] at hmap
  obtain ⟨u, k, hs, hu, hk⟩ := List.map_eq_append_iff.mp hmap
  obtain ⟨w, d, hu2, hw, hd⟩ := List.map_eq_append_iff.mp hu
  obtain ⟨a, o, hw2, ha, ho⟩ := List.map_eq_append_iff.mp hw
  have ho1 : o = [49#8] := by
    obtain ⟨x, t, hx, e1, e2⟩ := List.map_eq_cons_iff.mp ho
    rw [hx, lower_49 x e1, List.map_eq_nil_iff.mp e2]
  subst ho1 hw2 hu2 hs
  have hD := vals_of_map d D (fun v hv => hlt v (by simp [hv])) hd
  have hS := vals_of_map k S (fun v hv => hlt v (by simp [hv])) hk
  refine ⟨a, d, k, rfl, ha, hD.1, ?_, ?_, ?_, ?_⟩
  · have := congrArg List.length hk; simpa [hS6] using this
  · have := congrArg List.length hd; simpa using this
  · intro c hc
    rcases List.mem_append.mp hc with h | h
    · exact hD.2 c h
    · exact hS.2 c h
  · rw [hD.1, hS.1]; exact hp

theorem decode_of_valid {s H D : List Byte} (hv : Valid s H D) (post hrp : List Byte) (cap : Nat)
    (b32 : List Byte) (hcap : cap ≤ hrp.length) (hH : H.length ≤ cap) (hD : D.length ≤ b32.length) :
    decode (s ++ 0#8 :: post) s.length hrp cap b32 =
      .ok ⟨D.length, over H hrp, H.length, over D b32⟩ := by
  obtain ⟨a, d, k, hs, ha, hd, hk, hdl, hleg, hp⟩ := valid_split hv
  have hill : illegal s = false := (illegal_false_iff s).mpr ⟨hv.range, hv.case⟩
  have hnz : ∀ c ∈ s, c ≠ 0#8 := by
    intro c hc h0
    have := hv.range c hc
    rw [h0] at this
    simp at this
  have hal : a.length = H.length := by rw [← ha, List.length_map]
  have hH0 : H.length ≠ 0 := fun h => hv.hrp_ne (List.length_eq_zero_iff.mp h)
  rw [decode, isIllegal_eq, Res.ok_bind, hill]
  simp only [Bool.false_eq_true, if_false]
  have hstr : strrchr (s ++ 0#8 :: post) (chr '1') = .ok (some a.length) := by
    have := strrchrFrom_some 49#8 a (d ++ k) post 0 none (by decide)
      (fun x hx => hnz x (by rw [hs]; simp [hx]))
      (fun x hx => ⟨(hleg x hx).2, hnz x (by rw [hs]; rcases List.mem_append.mp hx with h | h <;> simp [h])⟩)
    rw [Nat.zero_add] at this
    rw [strrchr, show chr '1' = 49#8 from by decide, hs, ← this]
    simp
  rw [hstr]
  simp only [Res.ok_bind]
  have hsl : s.length = a.length + 1 + d.length + 6 := by rw [hs]; simp [hk]; omega
  have hl := hv.length
  rw [if_neg (by omega), if_neg (by omega)]
  have := decodeAt_eq a d k (0#8 :: post) hrp b32 hk (by omega) (by omega)
  rw [← hs] at this
  rw [this, if_pos (fun c hc => (hleg c hc).1), ha, if_pos hp, hd, hal, hdl]

theorem valid_lower_eq {s H D : List Byte} (hv : Valid s H D) :
    s.map lower = Bech32Spec.encode H D ∧ ∀ v ∈ D, v.toNat < 32 := by
  obtain ⟨S, hS6, hlt, hmap, hp⟩ := hv.parts
  have := (Bech32Spec.checksum_unique (hrpExpand H ++ D) S hS6 (fun v hv => hlt v (by simp [hv]))).mp hp
  rw [← Bech32Spec.checksum_eq] at this
  refine ⟨?_, fun v hv => hlt v (by simp [hv])⟩
  rw [hmap, this]; rfl

theorem valid_encode {H D : List Byte} (hH : H ≠ []) (hr : ∀ c ∈ H, 33 ≤ c.toNat ∧ c.toNat ≤ 126)
    (hu : ∀ c ∈ H, ¬ isUpper c) (hD : ∀ v ∈ D, v.toNat < 32) (hlen : H.length + D.length + 7 ≤ 90) :
    Valid (Bech32Spec.encode H D) H D := by
  have hall : ∀ v ∈ D ++ Bech32Spec.checksum H D, v.toNat < 32 := by
    intro v hv
    rcases List.mem_append.mp hv with h | h
    · exact hD v h
    · exact checksum_lt H D v h
  have hch : ∀ c ∈ Bech32Spec.encode H D, lower c = c ∧ ¬ isUpper c ∧ 33 ≤ c.toNat ∧ c.toNat ≤ 126 := by
    intro c hc
    rw [Bech32Spec.encode] at hc
    rcases List.mem_append.mp hc with h | h
    · rcases List.mem_append.mp h with h | h
      · exact ⟨by rw [lower, if_neg (hu c h)], hu c h, hr c h⟩
      · rw [List.mem_singleton.mp h]; decide
    · obtain ⟨v, hv, rfl⟩ := List.mem_map.mp h
      exact char_lower v (hall v hv)
  refine ⟨by rw [encode_length]; exact hlen, fun c hc => (hch c hc).2.2,
    fun ⟨⟨c, hc, h⟩, _⟩ => (hch c hc).2.1 h, hH, Bech32Spec.checksum H D, rfl, hall, ?_, ?_⟩
  · have : (Bech32Spec.encode H D).map lower = (Bech32Spec.encode H D).map id :=
      List.map_congr_left fun c hc => (hch c hc).1
    rw [this, List.map_id]; rfl
  · exact (Bech32Spec.checksum_unique (hrpExpand H ++ D) _ rfl (fun v hv => checksum_lt H D v hv)).mpr rfl

/-- C34. Round trip for every legal lower-case human-readable part and 5-bit data up to the limit of
90 characters. -/
theorem C34_bech32_roundtrip (H D out post hrp b32 : List Byte) (cap : Nat) (hH : H ≠ [])
    (hr : ∀ c ∈ H, 33 ≤ c.toNat ∧ c.toNat ≤ 126) (hu : ∀ c ∈ H, ¬ isUpper c)
    (hD : ∀ v ∈ D, v.toNat < 32) (hlen : encodeLength H.length D.length ≤ 90)
    (hout : encodeLength H.length D.length ≤ out.length)
    (hcap : cap ≤ hrp.length) (hH2 : H.length ≤ cap) (hb : D.length ≤ b32.length) :
    ∃ text, encode H H.length D D.length out = .ok (over text out) ∧
      text.length = encodeLength H.length D.length ∧
      decode (text ++ 0#8 :: post) text.length hrp cap b32 =
        .ok ⟨D.length, over H hrp, H.length, over D b32⟩ := by
  unfold encodeLength at hlen hout ⊢
  have h1 := encode_eq H H.length D D.length out (by omega) (by omega)
    (by rw [List.take_length]; exact hD) (by omega)
  rw [List.take_length, List.take_length] at h1
  exact ⟨_, h1, encode_length H D, decode_of_valid (valid_encode hH hr hu hD hlen) post hrp cap b32 hcap hH2 hb⟩

/-- Concrete instance of C34. -/
example : encode (cstr "bc") 2 [0, 14, 20] 3 (List.replicate 12 0) = .ok (cstr "bc1qw56k6g7k") ∧
    decode (cstr "bc1qw56k6g7k" ++ [0]) 12 [9, 9, 9] 3 [9, 9, 9, 9] =
      .ok ⟨3, [0x62, 0x63, 9], 2, [0, 14, 20, 9]⟩ := by decide +kernel

theorem last_split {l : List Byte} {c : Byte} (h : c ∈ l) : ∃ a b, l = a ++ c :: b ∧ ∀ x ∈ b, x ≠ c := by
  induction l with
  | nil => simp at h
  | cons x l ih =>
    by_cases hl : c ∈ l
    · obtain ⟨a, b, e, hb⟩ := ih hl
      exact ⟨x :: a, b, by rw [e]; rfl, hb⟩
    · have : x = c := by
        rcases List.mem_cons.mp h with h | h
        · exact h.symm
        · exact absurd h hl
      subst this
      exact ⟨[], l, rfl, fun y hy e => hl (e ▸ hy)⟩

theorem first_zero {l : List Byte} (h : 0#8 ∈ l) : ∃ a b, l = a ++ 0#8 :: b ∧ ∀ x ∈ a, x ≠ 0#8 := by
  induction l with
  | nil => simp at h
  | cons x l ih =>
    by_cases hx : x = 0#8
    · exact ⟨[], l, by rw [hx]; rfl, by simp⟩
    · have : 0#8 ∈ l := by
        rcases List.mem_cons.mp h with h | h
        · exact absurd h.symm hx
        · exact h
      obtain ⟨a, b, e, hb⟩ := ih this
      refine ⟨x :: a, b, by rw [e]; rfl, ?_⟩
      intro y hy
      rcases List.mem_cons.mp hy with rfl | hy
      · exact hx
      · exact hb y hy

/-- Everything about one call: it is defined, it changes only a prefix of `hrp` of at most `cap` bytes and a
prefix of `b32` of at most `str_len - 8` bytes, and a result that is not negative means `Valid`. -/
theorem decode_any (s post hrp : List Byte) (cap : Nat) (b32 : List Byte) (hz : 0#8 ∈ post)
    (hcap : cap ≤ hrp.length) (hb : s.length - 8 ≤ b32.length) :
    ∃ r H n B, decode (s ++ post) s.length hrp cap b32 = .ok ⟨r, over H hrp, n, over B b32⟩ ∧
      H.length ≤ cap ∧ B.length ≤ s.length - 8 ∧
      (0 ≤ r → Valid s H B ∧ r = B.length ∧ n = H.length) ∧
      (r < 0 → r = -1 ∨ r = -2 ∨ r = -3 ∨ r = -4 ∨ r = -5) := by
  have triv : ∀ r : Int, r < 0 → (r = -1 ∨ r = -2 ∨ r = -3 ∨ r = -4 ∨ r = -5) →
      decode (s ++ post) s.length hrp cap b32 = .ok ⟨r, hrp, cap, b32⟩ →
      ∃ r H n B, decode (s ++ post) s.length hrp cap b32 = .ok ⟨r, over H hrp, n, over B b32⟩ ∧
      H.length ≤ cap ∧ B.length ≤ s.length - 8 ∧
      (0 ≤ r → Valid s H B ∧ r = B.length ∧ n = H.length) ∧
      (r < 0 → r = -1 ∨ r = -2 ∨ r = -3 ∨ r = -4 ∨ r = -5) := by
    intro r hr hr2 h
    exact ⟨r, [], cap, [], by rw [h, over_nil, over_nil], by simp, by simp, fun h => absurd h (by omega),
      fun _ => hr2⟩
  by_cases hill : illegal s = true
  · apply triv (-1) (by omega) (by simp)
    rw [decode, isIllegal_eq, Res.ok_bind, hill]
    rfl
  rw [Bool.not_eq_true] at hill
  obtain ⟨hrange, hcase⟩ := (illegal_false_iff s).mp hill
  obtain ⟨mid, post', hpost, hmid⟩ := first_zero hz
  have hl0 : ∀ c ∈ s ++ mid, c ≠ 0#8 := by
    intro c hc
    rcases List.mem_append.mp hc with h | h
    · intro h0
      have := hrange c h
      rw [h0] at this
      simp at this
    · exact hmid c h
  have hstr : s ++ post = (s ++ mid) ++ 0#8 :: post' := by rw [hpost, List.append_assoc]
  have hdec : decode (s ++ post) s.length hrp cap b32 = (do
      match ← strrchr (s ++ post) (chr '1') with
      | none => pure ⟨-2, hrp, cap, b32⟩
      | some pos =>
        if s.length > 90 ∨ pos = 0 ∨ pos + 7 > s.length ∨ s.length ≤ 7 then pure ⟨-2, hrp, cap, b32⟩
        else if cap < pos then pure ⟨-3, hrp, cap, b32⟩
        else decodeAt (s ++ post) s.length pos hrp b32) := by
    rw [decode, isIllegal_eq, Res.ok_bind, hill]
    rfl
  by_cases h1 : 49#8 ∈ s ++ mid
  · obtain ⟨a, b, hab, hb49⟩ := last_split h1
    have hsr : strrchr (s ++ post) (chr '1') = .ok (some a.length) := by
      have := strrchrFrom_some 49#8 a b post' 0 none (by decide)
        (fun x hx => hl0 x (by rw [hab]; simp [hx])) (fun x hx => ⟨hb49 x hx, hl0 x (by rw [hab]; simp [hx])⟩)
      rw [Nat.zero_add, ← hab, ← hstr] at this
      exact this
    rw [hsr, Res.ok_bind] at hdec
    by_cases hg : s.length > 90 ∨ a.length = 0 ∨ a.length + 7 > s.length ∨ s.length ≤ 7
    · apply triv (-2) (by omega) (by simp)
      rw [hdec]
      exact if_pos hg
    by_cases hc : cap < a.length
    · apply triv (-3) (by omega) (by simp)
      rw [hdec]
      show (if _ then _ else if _ then _ else _) = _
      rw [if_neg hg, if_pos hc]
      rfl
    have hdec' : decode (s ++ post) s.length hrp cap b32 = decodeAt (s ++ post) s.length a.length hrp b32 := by
      rw [hdec]
      show (if _ then _ else if _ then _ else _) = _
      rw [if_neg hg, if_neg hc]
    clear hdec
    simp only [not_or] at hg
    obtain ⟨g1, g2, g3, g4⟩ := hg
    -- cut `s` at the separator
    obtain ⟨t, ht⟩ : ∃ t, s = a ++ [49#8] ++ t := by
      have h1 : s = (a ++ 49#8 :: b).take s.length := by rw [← hab, List.take_left]
      refine ⟨b.take (s.length - a.length - 1), ?_⟩
      conv => lhs; rw [h1]
      rw [List.take_append, List.take_of_length_le (by omega), List.append_assoc]
      congr 1
      rw [show s.length - a.length = (s.length - a.length - 1) + 1 by omega, List.take_succ_cons]
      rfl
    have htl : s.length = a.length + 1 + t.length := by rw [ht]; simp; omega
    have ht2 : s = a ++ [49#8] ++ t.take (t.length - 6) ++ t.drop (t.length - 6) := by
      rw [List.append_assoc, List.take_append_drop]; exact ht
    generalize hd : t.take (t.length - 6) = d at ht2
    generalize hk : t.drop (t.length - 6) = k at ht2
    have hkl : k.length = 6 := by rw [← hk, List.length_drop]; omega
    have hdl : d.length = t.length - 6 := by rw [← hd, List.length_take]; omega
    have e := decodeAt_eq a d k post hrp b32 hkl (by omega) (by omega)
    rw [← ht2] at e
    refine ⟨_, _, _, _, hdec'.trans e, by rw [List.length_map]; omega, ?_, ?_, ?_⟩
    · have := vals_length_le d; omega
    · intro hr
      by_cases hall : ∀ c ∈ d ++ k, value? c ≠ none
      · rw [if_pos hall] at hr ⊢
        by_cases hp : polymod (hrpExpand (a.map lower) ++ vals d ++ vals k) = 1#30
        · rw [if_pos hp] at hr ⊢
          have vd := vals_all d (fun c hc => hall c (by simp [hc]))
          have vk := vals_all k (fun c hc => hall c (by simp [hc]))
          refine ⟨⟨by omega, hrange, hcase, ?_, vals k, by omega, ?_, ?_, hp⟩, by rw [vd.2], by
            rw [List.length_map]⟩
          · intro h
            have := congrArg List.length h
            simp at this
            rw [this] at g2
            simp at g2
          · intro v hv
            rcases List.mem_append.mp hv with h | h
            · exact vals_lt d v h
            · exact vals_lt k v h
          · rw [ht2, List.map_append, List.map_append, List.map_append, List.map_append, vd.1, vk.1]
            simp [show lower 49#8 = 49#8 from by decide]
        · rw [if_neg hp] at hr; omega
      · rw [if_neg hall] at hr; omega
    · intro hr
      by_cases hall : ∀ c ∈ d ++ k, value? c ≠ none
      · rw [if_pos hall] at hr ⊢
        by_cases hp : polymod (hrpExpand (a.map lower) ++ vals d ++ vals k) = 1#30
        · rw [if_pos hp] at hr; omega
        · rw [if_neg hp]; simp
      · rw [if_neg hall]; simp
  · have hsr : strrchr (s ++ post) (chr '1') = .ok none := by
      rw [hstr]
      exact strrchrFrom_none 49#8 (s ++ mid) post' 0 none (by decide)
        (fun x hx => ⟨fun e => h1 (e ▸ hx), hl0 x hx⟩)
    apply triv (-2) (by omega) (by simp)
    rw [hdec, hsr, Res.ok_bind]
    rfl

/-- C35 (soundness). A result that is not negative is only given for strings satisfying BIP 173; it is
the number of data values, these and the lower-case human-readable part are what was written, and
re-encoding them gives the string in lower case. -/
theorem C35_bech32_sound (s post hrp b32 : List Byte) (cap : Nat) (r : DecodeResult) (hz : 0#8 ∈ post)
    (hcap : cap ≤ hrp.length) (hb : s.length - 8 ≤ b32.length)
    (h : decode (s ++ post) s.length hrp cap b32 = .ok r) (hr : 0 ≤ r.ret) :
    ∃ H D, Valid s H D ∧ r = ⟨D.length, over H hrp, H.length, over D b32⟩ ∧
      ∀ out : List Byte, encodeLength H.length D.length ≤ out.length →
        encode H H.length D D.length out = .ok (over (s.map lower) out) := by
  obtain ⟨r', H, n, B, e, hH, hB, hv, -⟩ := decode_any s post hrp cap b32 hz hcap hb
  rw [e] at h
  injection h with h
  subst h
  obtain ⟨v, rfl, rfl⟩ := hv hr
  refine ⟨H, B, v, rfl, ?_⟩
  intro out hout
  unfold encodeLength at hout
  have hl := valid_lower_eq v
  have := encode_eq H H.length B B.length out (by omega) (by omega)
    (by rw [List.take_length]; exact hl.2) (by omega)
  rw [List.take_length, List.take_length, ← hl.1] at this
  exact this

/-- C35 (completeness). Every valid string is accepted, in either case, if the human-readable part
fits. -/
theorem C35_bech32_complete (s H D post hrp b32 : List Byte) (cap : Nat) (hv : Valid s H D)
    (hcap : cap ≤ hrp.length) (hH : H.length ≤ cap) (hD : D.length ≤ b32.length) :
    decode (s ++ 0#8 :: post) s.length hrp cap b32 = .ok ⟨D.length, over H hrp, H.length, over D b32⟩ :=
  decode_of_valid hv post hrp cap b32 hcap hH hD

/-- Test vectors of BIP 173: accepted with upper case; rejected for mixed case, for a wrong
checksum, for an empty human-readable part, for a missing separator. -/
example : (∃ r, decode (cstr "A12UEL5L" ++ [0]) 8 [9, 9] 2 [] = .ok r ∧ r.ret = 0) ∧
    (∃ r, decode (cstr "A12uEL5L" ++ [0]) 8 [9, 9] 2 [] = .ok r ∧ r.ret = -1) ∧
    (∃ r, decode (cstr "A1G7SGD8" ++ [0]) 8 [9, 9] 2 [] = .ok r ∧ r.ret = -5) ∧
    (∃ r, decode (cstr "10a06t8" ++ [0]) 7 [9, 9] 2 [] = .ok r ∧ r.ret = -2) ∧
    (∃ r, decode (cstr "pzry9x0s0muk" ++ [0]) 12 [9, 9] 2 [0, 0, 0, 0] = .ok r ∧ r.ret = -2) :=
  ⟨⟨⟨0, [0x61, 9], 1, []⟩, by decide +kernel⟩, ⟨⟨-1, [9, 9], 2, []⟩, by decide +kernel⟩,
   ⟨⟨-5, [0x61, 9], 1, []⟩, by decide +kernel⟩, ⟨⟨-2, [9, 9], 2, []⟩, by decide +kernel⟩,
   ⟨⟨-2, [9, 9], 2, [0, 0, 0, 0]⟩, by decide +kernel⟩⟩

/-- C36. Two strings of equal length that share the human-readable part and separator, and that
differ (letter case aside) only within at most six consecutive characters after the separator, are
never both accepted. -/
theorem C36_burst_detected (p x y q post1 post2 hrp1 hrp2 b1 b2 : List Byte) (cap1 cap2 : Nat)
    (r1 r2 : DecodeResult) (hlen : x.length = y.length) (h6 : x.length ≤ 6)
    (hne : x.map lower ≠ y.map lower) (hz1 : 0#8 ∈ post1) (hz2 : 0#8 ∈ post2)
    (hc1 : cap1 ≤ hrp1.length) (hc2 : cap2 ≤ hrp2.length)
    (hb1 : (p ++ x ++ q).length - 8 ≤ b1.length) (hb2 : (p ++ y ++ q).length - 8 ≤ b2.length)
    (h1 : decode ((p ++ x ++ q) ++ post1) (p ++ x ++ q).length hrp1 cap1 b1 = .ok r1)
    (h2 : decode ((p ++ y ++ q) ++ post2) (p ++ y ++ q).length hrp2 cap2 b2 = .ok r2)
    (hs1 : r1.hrpSize < p.length) (hs2 : r2.hrpSize = r1.hrpSize) :
    ¬ (0 ≤ r1.ret ∧ 0 ≤ r2.ret) := by
  rintro ⟨hr1, hr2⟩
  obtain ⟨H1, D1, v1, rfl, -⟩ := C35_bech32_sound _ _ _ _ _ _ hz1 hc1 hb1 h1 hr1
  obtain ⟨H2, D2, v2, rfl, -⟩ := C35_bech32_sound _ _ _ _ _ _ hz2 hc2 hb2 h2 hr2
  simp only at hs1 hs2
  obtain ⟨S1, hS1, hl1, hm1, hp1⟩ := v1.parts
  obtain ⟨S2, hS2, hl2, hm2, hp2⟩ := v2.parts
  -- both strings start with the same `p`
  have key : ∀ (z H D S : List Byte), (p ++ z ++ q).map lower = H ++ [49#8] ++ (D ++ S).map char →
      H.length < p.length → H = (p.map lower).take H.length ∧
      (D ++ S).map char = ((p.map lower).drop (H.length + 1)) ++ z.map lower ++ q.map lower := by
    intro z H D S hm hH
    rw [List.map_append, List.map_append] at hm
    constructor
    · have := congrArg (List.take H.length) hm
      rw [List.append_assoc, List.take_append_of_le_length (by rw [List.length_map]; omega)] at this
      rw [List.append_assoc H, List.take_left] at this
      exact this.symm
    · have := congrArg (List.drop (H.length + 1)) hm
      rw [List.append_assoc, List.drop_append_of_le_length (by rw [List.length_map]; omega)] at this
      rw [show H.length + 1 = (H ++ [49#8]).length by simp, List.drop_left] at this
      rw [← this]
      simp
  obtain ⟨a1, c1⟩ := key x H1 D1 S1 hm1 hs1
  obtain ⟨a2, c2⟩ := key y H2 D2 S2 hm2 (by omega)
  have hH : H1 = H2 := by rw [a1, a2, hs2]
  subst hH
  obtain ⟨u1, Q1, e1, f1, g1⟩ := List.map_eq_append_iff.mp c1
  obtain ⟨P1, X, e1', f1', g1'⟩ := List.map_eq_append_iff.mp f1
  obtain ⟨u2, Q2, e2, f2, g2⟩ := List.map_eq_append_iff.mp c2
  obtain ⟨P2, Y, e2', f2', g2'⟩ := List.map_eq_append_iff.mp f2
  subst e1' e2'
  have lt1 : ∀ v ∈ P1 ++ X ++ Q1, v.toNat < 32 := by rw [← e1]; exact hl1
  have lt2 : ∀ v ∈ P2 ++ Y ++ Q2, v.toNat < 32 := by rw [← e2]; exact hl2
  have hP : P1 = P2 := map_char_inj _ _ (fun v hv => lt1 v (by simp [hv])) (fun v hv => lt2 v (by simp [hv]))
    (by rw [f1', f2'])
  have hQ : Q1 = Q2 := map_char_inj _ _ (fun v hv => lt1 v (by simp [hv])) (fun v hv => lt2 v (by simp [hv]))
    (by rw [g1, g2])
  subst hP hQ
  have hXY : X = Y := by
    have hXl : X.length = x.length := by have := congrArg List.length g1'; simpa using this
    have hYl : Y.length = y.length := by have := congrArg List.length g2'; simpa using this
    refine Bech32Spec.burst 1#30 (hrpExpand H1 ++ P1) X Y Q1 (by omega) (by omega)
      (fun v hv => lt1 v (by simp [hv])) (fun v hv => lt2 v (by simp [hv])) ?_
    have r1 : hrpExpand H1 ++ P1 ++ X ++ Q1 = hrpExpand H1 ++ D1 ++ S1 := by
      rw [List.append_assoc (hrpExpand H1) D1, e1]; simp
    have r2 : hrpExpand H1 ++ P1 ++ Y ++ Q1 = hrpExpand H1 ++ D2 ++ S2 := by
      rw [List.append_assoc (hrpExpand H1) D2, e2]; simp
    rw [r1, r2]
    exact hp1.trans hp2.symm
  rw [hXY] at g1'
  exact hne (g1'.symm.trans g2')

/-- Non-vacuity of C36: a valid string and one with two characters changed meet the hypotheses; the
second is rejected. -/
example : ∃ r1 r2, decode (cstr "bc1q" ++ cstr "w5" ++ cstr "6k6g7k" ++ [0]) 12 [9, 9, 9] 3 [9, 9, 9, 9] = .ok r1 ∧
    decode (cstr "bc1q" ++ cstr "5w" ++ cstr "6k6g7k" ++ [0]) 12 [9, 9, 9] 3 [9, 9, 9, 9] = .ok r2 ∧
    r1.hrpSize < (cstr "bc1q").length ∧ r2.hrpSize = r1.hrpSize ∧ r1.ret = 3 ∧ r2.ret = -5 :=
  ⟨⟨3, [0x62, 0x63, 9], 2, [0, 14, 20, 9]⟩, ⟨-5, [0x62, 0x63, 9], 2, [0, 20, 14, 9]⟩, by decide +kernel⟩

/-- C37. Whatever the first `str_len` bytes are, provided a NUL follows: the call is defined (no access outside
the objects), it changes at most the first `*hrp_size` bytes of `hrp` and the first `str_len - 8` bytes
of `b32`, and returns -1 … -5 or a number of data values of at most `str_len - 8`. -/
theorem C37_bech32_decode_safe (s post hrp b32 : List Byte) (cap : Nat) (hz : 0#8 ∈ post)
    (hcap : cap ≤ hrp.length) (hb : s.length - 8 ≤ b32.length) :
    ∃ r, decode (s ++ post) s.length hrp cap b32 = .ok r ∧
      r.hrp.length = hrp.length ∧ r.hrp.drop cap = hrp.drop cap ∧
      r.b32.length = b32.length ∧ r.b32.drop (s.length - 8) = b32.drop (s.length - 8) ∧
      -5 ≤ r.ret ∧ r.ret ≤ (s.length - 8 : Nat) := by
  obtain ⟨r, H, n, B, e, hH, hB, hv, hn⟩ := decode_any s post hrp cap b32 hz hcap hb
  have drp : ∀ (W m : List Byte) (k : Nat), W.length ≤ k → (over W m).drop k = m.drop k := by
    intro W m k h
    rw [over, List.drop_append, List.drop_eq_nil_of_le h, List.drop_drop, List.nil_append]
    congr 1; omega
  refine ⟨_, e, over_length _ _ (by omega), drp _ _ _ hH, over_length _ _ (by omega), drp _ _ _ hB, ?_, ?_⟩
  · by_cases h : 0 ≤ r
    · show -5 ≤ r; omega
    · have := hn (by omega)
      show -5 ≤ r; omega
  · by_cases h : 0 ≤ r
    · have := (hv h).2.1
      show r ≤ _; omega
    · show r ≤ _; omega

example : ∃ s post hrp b32 : List Byte, 0#8 ∈ post ∧ 1 ≤ hrp.length ∧ s.length - 8 ≤ b32.length ∧
    s.length = 9 := ⟨[0, 1, 0xFF, 0x31, 5, 5, 5, 5, 5], [1, 0], [3], [4], by decide⟩
