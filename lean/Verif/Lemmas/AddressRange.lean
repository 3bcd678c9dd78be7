import Verif.Lemmas.Address
/-! Which first bytes / characters are possible when a string is read both as base58 and as Bech32. -/
namespace Address
open AddressSpec Positional

theorem digits_head_range (B n d : Nat) (ds : List Nat) (hB : 2 ≤ B) (h : digits B n = d :: ds) :
    d * B ^ ds.length ≤ n ∧ n < (d + 1) * B ^ ds.length := by
  have h1 := value_digits B n hB
  rw [h, value_cons] at h1
  have h2 := value_lt B ds (fun x hx => digits_lt B n hB x (by rw [h]; simp [hx]))
  constructor
  · omega
  · rw [Nat.add_mul]; omega

theorem decode?_nospace (s W : List Byte) (hs : ∀ c ∈ s, Base58Spec.isSpace c = false)
    (h : Base58Spec.decode? s = some W) :
    (∀ c ∈ s, (Base58Spec.value? c).isSome) ∧ W = Base58Spec.bytes s := by
  have hd : s.dropWhile Base58Spec.isSpace = s := by
    cases s with
    | nil => rfl
    | cons c r => rw [List.dropWhile_cons_of_neg]; rw [hs c (by simp)]; simp
  obtain ⟨h1, h2⟩ := all_takeWhile (fun c => !Base58Spec.isSpace c) s (by intro c hc; simp [hs c hc])
  unfold Base58Spec.decode? at h
  simp only [hd, h1, h2] at h
  split at h
  · rename_i hc
    simp only [Bool.and_eq_true, List.all_eq_true] at hc
    injection h with h
    exact ⟨fun c hc' => hc.1 c hc', h.symm⟩
  · simp at h

theorem filterMap_length (s : List Byte) (h : ∀ c ∈ s, (Base58Spec.value? c).isSome) :
    (s.filterMap Base58Spec.value?).length = s.length := by
  induction s with
  | nil => rfl
  | cons c s ih =>
    obtain ⟨v, hv⟩ := Option.isSome_iff_exists.mp (h c (by simp))
    rw [List.filterMap_cons_some hv, List.length_cons, List.length_cons, ih (fun x hx => h x (by simp [hx]))]

theorem filterMap_lt (s : List Byte) : ∀ v ∈ s.filterMap Base58Spec.value?, v < 58 := by
  intro v hv
  obtain ⟨c, -, hc⟩ := List.mem_filterMap.mp hv
  exact Base58.value?_lt c v hc

/-- A number with leading base-58 digits `x` and `r` further digits may have leading byte `b` and `k` more bytes. -/
def mayStartAt (x r b k : Nat) : Bool :=
  Nat.blt (b * 256 ^ k) ((x + 1) * 58 ^ r) && Nat.blt (x * 58 ^ r) ((b + 1) * 256 ^ k)

/-- A number with leading base-58 digits `x` and `r` further digits may have leading byte `b`.  (Only two lengths are possible.) -/
def mayStart (x r b : Nat) : Bool :=
  Nat.beq x 0 || mayStartAt x r b (Nat.log2 (x * 58 ^ r) / 8) || mayStartAt x r b ((Nat.log2 (x * 58 ^ r) + 1) / 8)

theorem mayStart_of (x r b k : Nat) (hb : 1 ≤ b) (hb2 : b ≤ 255) (h1 : b * 256 ^ k < (x + 1) * 58 ^ r)
    (h2 : x * 58 ^ r < (b + 1) * 256 ^ k) : mayStart x r b = true := by
  have hat : mayStartAt x r b k = true := by
    rw [mayStartAt, Bool.and_eq_true, Nat.blt_eq, Nat.blt_eq]; exact ⟨h1, h2⟩
  rw [mayStart, Bool.or_eq_true, Bool.or_eq_true]
  by_cases hx : x = 0
  · left; left; rw [hx]; rfl
  · have hA : x * 58 ^ r ≠ 0 := Nat.mul_ne_zero hx (Nat.pow_pos (by omega)).ne'
    have l1 : 2 ^ Nat.log2 (x * 58 ^ r) ≤ x * 58 ^ r := Nat.log2_self_le hA
    have l2 : x * 58 ^ r < 2 ^ (Nat.log2 (x * 58 ^ r) + 1) := Nat.lt_log2_self
    have p1 : 256 ^ k = 2 ^ (8 * k) := by rw [Nat.pow_mul]
    have a1 : 2 ^ (8 * k) < 2 ^ (Nat.log2 (x * 58 ^ r) + 2) := by
      have : 1 * 256 ^ k ≤ b * 256 ^ k := Nat.mul_le_mul_right _ hb
      have hx1 : 58 ^ r ≤ x * 58 ^ r := Nat.le_mul_of_pos_left _ (by omega)
      rw [Nat.add_mul] at h1
      rw [Nat.pow_succ, ← p1]
      omega
    have a2 : 2 ^ Nat.log2 (x * 58 ^ r) < 2 ^ (8 * k + 8) := by
      have : (b + 1) * 256 ^ k ≤ 256 * 256 ^ k := Nat.mul_le_mul_right _ (by omega)
      rw [Nat.pow_add, ← p1]
      omega
    have b1 := (Nat.pow_lt_pow_iff_right (by omega : 1 < 2)).1 a1
    have b2 := (Nat.pow_lt_pow_iff_right (by omega : 1 < 2)).1 a2
    have hk : k = Nat.log2 (x * 58 ^ r) / 8 ∨ k = (Nat.log2 (x * 58 ^ r) + 1) / 8 := by omega
    rcases hk with hk | hk
    · left; right; rw [← hk]; exact hat
    · right; rw [← hk]; exact hat

theorem top_range (p q W : List Byte) (b : Byte) (hs : ∀ c ∈ p ++ q, Base58Spec.isSpace c = false)
    (h1 : p.head? ≠ some 49#8) (hp : p ≠ [])
    (h : Base58Spec.decode? (p ++ q) = some (b :: W)) :
    (∀ c ∈ p, (Base58Spec.value? c).isSome) ∧ b ≠ 0#8 ∧
    mayStart (value 58 (p.filterMap Base58Spec.value?)) q.length b.toNat = true := by
  obtain ⟨hsome, hW⟩ := decode?_nospace _ _ hs h
  have hno : (p ++ q).takeWhile (· = 49#8) = [] := by
    cases p with
    | nil => exact absurd rfl hp
    | cons c p =>
      rw [List.cons_append, List.takeWhile_cons_of_neg]
      simpa using h1
  rw [Base58Spec.bytes, hno, List.length_nil, List.replicate_zero, List.nil_append] at hW
  rw [List.filterMap_append, value_append, filterMap_length q (fun c hc => hsome c (by simp [hc]))] at hW
  have hq := value_lt 58 _ (filterMap_lt q)
  rw [filterMap_length q (fun c hc => hsome c (by simp [hc]))] at hq
  obtain ⟨d, ds, hd, hb, hWd⟩ := List.map_eq_cons_iff.mp hW.symm
  have hr := digits_head_range 256 _ d ds (by omega) hd
  have hd0 := digits_head 256 _ (by omega) d ds hd
  have hdlt := digits_lt 256 _ (by omega) d (by rw [hd]; simp)
  have hbt : b.toNat = d := by rw [← hb, BitVec.toNat_ofNat]; omega
  refine ⟨fun c hc => hsome c (by simp [hc]), ?_, ?_⟩
  · intro h0; rw [h0] at hbt; simp at hbt; omega
  · rw [hbt]
    refine mayStart_of _ _ _ ds.length (by omega) (by omega) ?_ ?_
    · rw [Nat.add_mul]; omega
    · exact Nat.lt_of_le_of_lt (Nat.le_add_right _ _) hr.2

/-- The first characters of a witness address, as base-58 digits. -/
def lead (hrp : List Byte) (v : Byte) : List Byte := hrp ++ [49#8, Bech32Spec.char v]

theorem witness_split (hrp : List Byte) (v : Byte) (prog : List Byte) :
    ∃ q, witness hrp v prog = lead hrp v ++ q ∧ q.length = (8 * prog.length + 4) / 5 + 6 := by
  refine ⟨(Base32Spec.encodeRaw prog ++ Bech32Spec.checksum hrp (v :: Base32Spec.encodeRaw prog)).map
    Bech32Spec.char, ?_, ?_⟩
  · simp [witness, Bech32Spec.encode, lead]
  · rw [List.length_map, List.length_append, encodeRaw_length, Bech32.checksum_length]

/-- Whether the witness address can be read as base58 with leading byte `b ≠ 0`. -/
def clash (hrp : List Byte) (v : Byte) (size b : Nat) : Bool :=
  (lead hrp v).all (fun c => (Base58Spec.value? c).isSome) &&
    mayStart (value 58 ((lead hrp v).filterMap Base58Spec.value?)) ((8 * size + 4) / 5 + 6) b

theorem witness_chars (hrp : List Byte) (v : Byte) (prog : List Byte) (hv : v.toNat < 32)
    (hr : ∀ c ∈ hrp, 33 ≤ c.toNat ∧ c.toNat ≤ 126) :
    ∀ c ∈ witness hrp v prog, 33 ≤ c.toNat ∧ c.toNat ≤ 126 := by
  intro c hc
  rw [witness, Bech32Spec.encode] at hc
  simp only [List.mem_append, List.mem_map, List.mem_cons, List.not_mem_nil, or_false] at hc
  rcases hc with (hc | hc) | ⟨x, hx, rfl⟩
  · exact hr c hc
  · rw [hc]; decide
  · refine (char_lower x ?_).2.2
    rcases hx with (hx | hx) | hx
    · rw [hx]; exact hv
    · exact encodeRaw_lt prog x hx
    · exact Bech32.checksum_lt _ _ x hx

theorem not_space (c : Byte) (h : 33 ≤ c.toNat ∧ c.toNat ≤ 126) : Base58Spec.isSpace c = false := by
  simp only [Base58Spec.isSpace, Bool.or_eq_false_iff, Bool.and_eq_false_iff, decide_eq_false_iff_not]
  omega

theorem witness_clash (hrp : List Byte) (v b : Byte) (prog W : List Byte) (hv : v.toNat < 32)
    (hr : ∀ c ∈ hrp, 33 ≤ c.toNat ∧ c.toNat ≤ 126) (hne : hrp ≠ []) (h1 : hrp.head? ≠ some 49#8)
    (hl : hrp.length + (8 * prog.length + 4) / 5 + 8 ≤ 90)
    (h : Base58Spec.decode? (witness hrp v prog) = some (b :: W)) :
    b ≠ 0#8 ∧ clash hrp v prog.length b.toNat = true := by
  have hc := witness_chars hrp v prog hv hr
  have hwl := witness_length hrp v prog
  obtain ⟨q, hq, hql⟩ := witness_split hrp v prog
  rw [hq] at h hc hwl
  obtain ⟨h2, h3, h4⟩ := top_range (lead hrp v) q W b (fun c hc' => not_space c (hc c hc'))
    (by
      cases hrp with
      | nil => exact absurd rfl hne
      | cons c r => simpa [lead] using h1) (by simp [lead]) h
  refine ⟨h3, ?_⟩
  rw [clash, ← hql, h4, Bool.and_true, List.all_eq_true]
  exact h2

/-- The tables behind the statements on confusion of the two formats; `b`, `t`, `r`: mainnet,
testnet, regtest. -/
def hrpB : List Byte := cstr "bc"
def hrpT : List Byte := cstr "tb"
def hrpR : List Byte := cstr "bcrt"

theorem clash_main (v : Fin 17) (n : Fin 41) :
    (clash hrpB (BitVec.ofNat 8 v.1) n.1 5 = true → n.1 = 23 ∨ n.1 = 32 ∨ n.1 < 2) ∧
    (clash hrpT (BitVec.ofNat 8 v.1) n.1 5 = true → n.1 = 35 ∨ n.1 < 2) ∧
    (clash hrpR (BitVec.ofNat 8 v.1) n.1 5 = true → n.1 = 31 ∨ n.1 < 2) := by
  revert v n; decide +kernel

theorem clash_test (v : Fin 17) (n : Fin 41) :
    (clash hrpB (BitVec.ofNat 8 v.1) n.1 0x6F = true ∨ clash hrpB (BitVec.ofNat 8 v.1) n.1 0xC4 = true ∨
    clash hrpT (BitVec.ofNat 8 v.1) n.1 0x6F = true ∨ clash hrpT (BitVec.ofNat 8 v.1) n.1 0xC4 = true ∨
    clash hrpR (BitVec.ofNat 8 v.1) n.1 0x6F = true ∨ clash hrpR (BitVec.ofNat 8 v.1) n.1 0xC4 = true) →
      n.1 < 2 := by
  revert v n; decide +kernel

end Address

namespace Address
open AddressSpec Positional

/-- If a number starts with the byte `v` and has 24 more bytes, its first base-58 digit is not that
of a human-readable part. -/
theorem first_digit (v : Fin 3) (d : Fin 58) (k : Fin 60) :
    ([5, 0x6F, 0xC4].getD v.1 0) * 256 ^ 24 < (d.1 + 1) * 58 ^ k.1 →
    d.1 * 58 ^ k.1 < ([5, 0x6F, 0xC4].getD v.1 0 + 1) * 256 ^ 24 →
    Bech32Spec.lower (Base58Spec.char d.1) ≠ 98#8 ∧ Bech32Spec.lower (Base58Spec.char d.1) ≠ 116#8 := by
  revert v d k; decide +kernel

theorem number_cons (b : Byte) (l : List Byte) :
    Base58Spec.number (b :: l) = b.toNat * 256 ^ l.length + Base58Spec.number l := by
  simp [Base58Spec.number, value_cons]

theorem base58_head (v : Byte) (hash : List Byte) (h20 : hash.length = 20)
    (hv : v = 0#8 ∨ v = 5#8 ∨ v = 0x6F#8 ∨ v = 0xC4#8) :
    ∃ c r, base58 v hash = c :: r ∧ Bech32Spec.lower c ≠ 98#8 ∧ Bech32Spec.lower c ≠ 116#8 := by
  by_cases h0 : v = 0#8
  · refine ⟨49#8, (base58 v hash).tail, ?_, by decide, by decide⟩
    rw [h0, base58, Base58CheckSpec.encode, Base58Spec.encode, List.cons_append,
      List.takeWhile_cons_of_pos (by simp), List.length_cons, List.replicate_succ]
    rfl
  · have hN := number_cons v (hash ++ Base58CheckSpec.checksum (v :: hash))
    have hlt := Base58.number_lt (hash ++ Base58CheckSpec.checksum (v :: hash))
    have hl : (hash ++ Base58CheckSpec.checksum (v :: hash)).length = 24 := by
      rw [List.length_append, Base58Check.checksum_length]; omega
    rw [hl] at hN hlt
    have he : base58 v hash = (digits 58 (Base58Spec.number (v :: hash ++ Base58CheckSpec.checksum (v :: hash)))).map
        Base58Spec.char := by
      rw [base58, Base58CheckSpec.encode, Base58Spec.encode, List.cons_append,
        List.takeWhile_cons_of_neg (by simpa using h0)]
      rfl
    rw [List.cons_append] at he
    generalize Base58Spec.number (v :: (hash ++ Base58CheckSpec.checksum (v :: hash))) = N at he hN
    have hv1 : 1 ≤ v.toNat := by
      rcases hv with h | h | h | h
      · exact absurd h h0
      all_goals rw [h]; decide
    have hNlt : N < 256 ^ 25 := by
      have : v.toNat ≤ 255 := by have := v.isLt; omega
      have : v.toNat * 256 ^ 24 ≤ 255 * 256 ^ 24 := Nat.mul_le_mul_right _ this
      omega
    cases hd : digits 58 N with
    | nil =>
      have := value_digits 58 N (by omega)
      rw [hd] at this
      simp only [value, List.foldl_nil] at this
      have : 1 * 256 ^ 24 ≤ v.toNat * 256 ^ 24 := Nat.mul_le_mul_right _ hv1
      omega
    | cons d ds =>
      rw [hd, List.map_cons] at he
      refine ⟨_, _, he, ?_⟩
      have hr := digits_head_range 58 N d ds (by omega) hd
      have hd58 : d < 58 := digits_lt 58 N (by omega) d (by rw [hd]; simp)
      have hlen : ds.length < 60 := by
        have := digits_length_le 58 N 35 (by omega) (Nat.lt_of_lt_of_le hNlt (by decide))
        rw [hd, List.length_cons] at this
        omega
      rcases hv with h | h | h | h
      · exact absurd h h0
      · subst h
        exact first_digit ⟨0, by omega⟩ ⟨d, hd58⟩ ⟨ds.length, hlen⟩
          (Nat.lt_of_le_of_lt (show 5 * 256 ^ 24 ≤ N by
            rw [show (5#8 : Byte).toNat = 5 from rfl] at hN; omega) hr.2)
          (Nat.lt_of_le_of_lt hr.1 (show N < (5 + 1) * 256 ^ 24 by
            rw [show (5#8 : Byte).toNat = 5 from rfl] at hN; omega))
      · subst h
        exact first_digit ⟨1, by omega⟩ ⟨d, hd58⟩ ⟨ds.length, hlen⟩
          (Nat.lt_of_le_of_lt (show 0x6F * 256 ^ 24 ≤ N by
            rw [show (0x6F#8 : Byte).toNat = 0x6F from rfl] at hN; omega) hr.2)
          (Nat.lt_of_le_of_lt hr.1 (show N < (0x6F + 1) * 256 ^ 24 by
            rw [show (0x6F#8 : Byte).toNat = 0x6F from rfl] at hN; omega))
      · subst h
        exact first_digit ⟨2, by omega⟩ ⟨d, hd58⟩ ⟨ds.length, hlen⟩
          (Nat.lt_of_le_of_lt (show 0xC4 * 256 ^ 24 ≤ N by
            rw [show (0xC4#8 : Byte).toNat = 0xC4 from rfl] at hN; omega) hr.2)
          (Nat.lt_of_le_of_lt hr.1 (show N < (0xC4 + 1) * 256 ^ 24 by
            rw [show (0xC4#8 : Byte).toNat = 0xC4 from rfl] at hN; omega))

/-- `fingera_bech32_decode` on a string that is too long or too short: nothing is written. -/
theorem bech32_long (s post hrp : List Byte) (cap : Nat) (b32 : List Byte) (hz : 0#8 ∈ post)
    (hl : s.length > 90) :
    ∃ r, Bech32.decode (s ++ post) s.length hrp cap b32 = .ok ⟨r, hrp, cap, b32⟩ ∧ r < 0 := by
  rw [Bech32.decode, Bech32.isIllegal_eq, Res.ok_bind]
  cases hill : Bech32.illegal s with
  | true => exact ⟨-1, rfl, by omega⟩
  | false =>
    obtain ⟨hrange, -⟩ := (illegal_false_iff s).mp hill
    obtain ⟨mid, post', hpost, hmid⟩ := first_zero hz
    have hl0 : ∀ c ∈ s ++ mid, c ≠ 0#8 := by
      intro c hc
      rcases List.mem_append.mp hc with h | h
      · intro h0
        have := hrange c h
        rw [h0] at this
        simp at this
      · exact hmid c h
    have hstr : s ++ post = (s ++ mid) ++ 0#8 :: post' := by rw [hpost, List.append_assoc]
    have hsr : ∃ o, strrchr (s ++ post) (chr '1') = .ok o := by
      by_cases h1 : 49#8 ∈ s ++ mid
      · obtain ⟨a, b, hab, hb49⟩ := last_split h1
        have := Bech32.strrchrFrom_some 49#8 a b post' 0 none (by decide)
          (fun x hx => hl0 x (by rw [hab]; simp [hx])) (fun x hx => ⟨hb49 x hx, hl0 x (by rw [hab]; simp [hx])⟩)
        rw [← hab, ← hstr] at this
        exact ⟨_, this⟩
      · have := Bech32.strrchrFrom_none 49#8 (s ++ mid) post' 0 none (by decide)
          (fun x hx => ⟨fun h => h1 (h ▸ hx), hl0 x hx⟩)
        rw [← hstr] at this
        exact ⟨_, this⟩
    obtain ⟨o, ho⟩ := hsr
    refine ⟨-2, ?_, by omega⟩
    simp only [Bool.false_eq_true, if_false]
    rw [ho, Res.ok_bind]
    cases o with
    | none => rfl
    | some pos => exact if_pos (.inl hl)

/-- The Bech32 branch on any string: either the string is rejected, or it is a valid Bech32 string
with the network's human-readable part. -/
theorem decodeBech32_any (s post : List Byte) (cs : Bool) (stack out : List Byte) (outSize : Nat)
    (param : ChainParameters) (hs : stack.length = 128) (hz : 0#8 ∈ post)
    (hp : param.bech32HrpSize ≤ param.bech32Hrp.length) :
    decodeBech32 cs stack (s ++ post) s.length out outSize param = .ok ⟨.bad, out, outSize⟩ ∨
    ∃ D, Bech32Spec.Valid s (param.bech32Hrp.take param.bech32HrpSize) D ∧ D ≠ [] ∧
      decodeBech32 cs stack (s ++ post) s.length out outSize param =
        decodeWitness cs (over D stack) D.length out outSize := by
  by_cases hl : s.length > 90
  · obtain ⟨r, hr, hr0⟩ := bech32_long s post (List.replicate 16 0xAA#8) 16 (buffer stack s.length) hz hl
    left
    rw [decodeBech32, hr, Res.ok_bind, if_pos (.inl (by simp only; omega))]
    rfl
  have hbl : s.length - 8 ≤ (buffer stack s.length).length := by
    by_cases h7 : 7 ≤ s.length
    · rw [buffer_length stack _ h7 (by omega) hs]; omega
    · omega
  obtain ⟨r, H, n, B, e, hH, hB, hv, -⟩ := decode_any s post (List.replicate 16 0xAA#8) 16
    (buffer stack s.length) hz (by simp) hbl
  by_cases hr : r < 1
  · left
    rw [decodeBech32, e, Res.ok_bind, if_pos (.inl hr)]
    rfl
  obtain ⟨hval, hrB, hnH⟩ := hv (by omega)
  subst hrB hnH
  have hBne : B ≠ [] := by rintro rfl; simp at hr
  by_cases he : H = param.bech32Hrp.take param.bech32HrpSize
  · right
    refine ⟨B, he ▸ hval, hBne, ?_⟩
    have hsl : s.length = H.length + B.length + 7 := by
      have h2 := congrArg List.length (valid_lower_eq hval).1
      rwa [List.length_map, Bech32.encode_length] at h2
    have hHl : H.length = param.bech32HrpSize := by rw [he, List.length_take]; omega
    rw [buffer_length stack _ (by omega) (by omega) hs] at e
    rw [decodeBech32, buffer_length stack _ (by omega) (by omega) hs, e, Res.ok_bind,
      if_neg (by simp only [not_or]; omega), memeq, if_pos (by simp [over]; omega), Res.ok_bind]
    simp only
    rw [show (over H (List.replicate 16 0xAA#8)).take H.length = H from BtcHash.take_over rfl, hHl,
      show (H == param.bech32Hrp.take param.bech32HrpSize) = true from by simpa using he]
    rfl
  · left
    rw [decodeBech32, e, Res.ok_bind]
    by_cases hsz : H.length = param.bech32HrpSize
    · rw [if_neg (by simp only [not_or]; omega), memeq, if_pos (by simp [over]; omega), Res.ok_bind]
      simp only
      rw [show (over H (List.replicate 16 0xAA#8)).take H.length = H from BtcHash.take_over rfl, hsz,
        show (H == param.bech32Hrp.take param.bech32HrpSize) = false from by simpa using he]
      rfl
    · rw [if_pos (.inr hsz)]
      rfl

end Address
