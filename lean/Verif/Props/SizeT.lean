import Verif.Model.SizeT
import Verif.Props.Base58Total
/-! Property theorems C82: the announced lengths in the arithmetic of a `size_t`. -/

/-- C82 (hex, Base64, Base32, Bech32). On every machine (a `size_t` of `w` bits, at least 16 as C demands) and for the size of every
object (less than 2^(w-1), half the address space) the announced lengths are the exact ones, without wrapping around. -/
theorem C82_lengths_do_not_wrap {w : Nat} (hw : 16 ≤ w) (n : BitVec w) (hn : n.toNat < 2 ^ (w - 1)) :
    (SizeT.toHexLength n).toNat = Hex.toHexLength n.toNat ∧
    (SizeT.fromHexLength n).toNat = Hex.fromHexLength n.toNat ∧
    (SizeT.toBase64Length n).toNat = Base64.toBase64Length n.toNat ∧
    (SizeT.toBase64UrlsafeLength n).toNat = Base64.toBase64UrlsafeLength n.toNat ∧
    (SizeT.fromBase64UrlsafeLength n).toNat = Base64.fromBase64UrlsafeLength n.toNat ∧
    (SizeT.toBase32Length n).toNat = Base32.toBase32Length n.toNat ∧
    (SizeT.fromBase32RawLength n).bind (fun r => .ok r.toNat) = Base32.fromBase32RawLength n.toNat ∧
    ∀ hrp : BitVec w, hrp.toNat ≤ 83 → (SizeT.bech32EncodeLength hrp n).toNat = Bech32.encodeLength hrp.toNat n.toNat := by
  have hW : 2 ^ 16 ≤ 2 ^ w := Nat.pow_le_pow_right (by omega) hw
  have hH : 2 ^ (w - 1) * 2 = 2 ^ w := by rw [← Nat.pow_succ]; congr 1; omega
  have hk : ∀ k, k < 65536 → (BitVec.ofNat w k).toNat = k := by
    intro k hk; rw [BitVec.toNat_ofNat]; exact Nat.mod_eq_of_lt (by omega)
  have heq : ∀ (a : BitVec w) k, k < 65536 → (a = BitVec.ofNat w k ↔ a.toNat = k) := by
    intro a k h
    rw [← BitVec.toNat_inj, hk k h]
  have h1 := hk 1 (by omega); have h2 := hk 2 (by omega); have h3 := hk 3 (by omega); have h4 := hk 4 (by omega)
  have h5 := hk 5 (by omega); have h7 := hk 7 (by omega); have h8 := hk 8 (by omega)
  generalize 2 ^ (w - 1) = H at hH hn
  refine ⟨?_, ?_, ?_, ?_, ?_, ?_, ?_, fun hrp hh => ?_⟩
  · rw [SizeT.toHexLength, BitVec.toNat_mul, h2, Hex.toHexLength]
    exact Nat.mod_eq_of_lt (by omega)
  · rw [SizeT.fromHexLength, BitVec.toNat_udiv, BitVec.toNat_add, h1, h2, Hex.fromHexLength, Nat.mod_eq_of_lt (by omega)]
  · rw [SizeT.toBase64Length, BitVec.toNat_mul, BitVec.toNat_udiv, BitVec.toNat_add, h2, h3, h4, Base64.toBase64Length,
      Nat.mod_eq_of_lt (a := n.toNat + 2) (by omega)]
    exact Nat.mod_eq_of_lt (by omega)
  · have e : (n / 3#w * 4#w).toNat = n.toNat / 3 * 4 := by
      rw [BitVec.toNat_mul, BitVec.toNat_udiv, h3, h4]
      exact Nat.mod_eq_of_lt (by omega)
    have et : (n % 3#w).toNat = n.toNat % 3 := by rw [BitVec.toNat_umod, h3]
    rw [SizeT.toBase64UrlsafeLength, Base64.toBase64UrlsafeLength]
    simp only [heq _ 1 (by omega), heq _ 2 (by omega), et]
    split
    · rw [BitVec.toNat_add, e, h2]
      exact Nat.mod_eq_of_lt (by omega)
    · split
      · rw [BitVec.toNat_add, e, h3]
        exact Nat.mod_eq_of_lt (by omega)
      · exact e
  · have e : (n / 4#w * 3#w).toNat = n.toNat / 4 * 3 := by
      rw [BitVec.toNat_mul, BitVec.toNat_udiv, h3, h4]
      exact Nat.mod_eq_of_lt (by omega)
    have et : (n % 4#w).toNat = n.toNat % 4 := by rw [BitVec.toNat_umod, h4]
    rw [SizeT.fromBase64UrlsafeLength, Base64.fromBase64UrlsafeLength]
    simp only [heq _ 3 (by omega), heq _ 2 (by omega), et]
    split
    · rw [BitVec.toNat_add, e, h1]
      exact Nat.mod_eq_of_lt (by omega)
    · split
      · rw [BitVec.toNat_add, e, h2]
        exact Nat.mod_eq_of_lt (by omega)
      · exact e
  · rw [SizeT.toBase32Length, BitVec.toNat_mul, BitVec.toNat_udiv, BitVec.toNat_add, h4, h5, h8, Base32.toBase32Length,
      Nat.mod_eq_of_lt (a := n.toNat + 4) (by omega)]
    exact Nat.mod_eq_of_lt (by omega)
  · have e : (n / 8#w * 5#w).toNat = n.toNat / 8 * 5 := by
      rw [BitVec.toNat_mul, BitVec.toNat_udiv, h8, h5]
      exact Nat.mod_eq_of_lt (by omega)
    have et : (n % 8#w).toNat = n.toNat % 8 := by rw [BitVec.toNat_umod, h8]
    rw [SizeT.fromBase32RawLength, Base32.fromBase32RawLength, et]
    have hr : ∃ t, rd Base32.TAIL_TO_BYTES (n.toNat % 8) = .ok t ∧ t ≤ 4 := by
      have : ∀ i : Fin 8, ∃ t, rd Base32.TAIL_TO_BYTES i.val = .ok t ∧ t ≤ 4 := by
        intro i
        have h : ∀ i : Fin 8, (match rd Base32.TAIL_TO_BYTES i.val with | .ok t => decide (t ≤ 4) | _ => false) = true := by decide
        have := h i
        cases hr : rd Base32.TAIL_TO_BYTES i.val with
        | ok t => rw [hr] at this; exact ⟨t, rfl, by simpa using this⟩
        | ub => rw [hr] at this; cases this
        | abort => rw [hr] at this; cases this
      exact this ⟨n.toNat % 8, Nat.mod_lt _ (by omega)⟩
    obtain ⟨t, hr, ht⟩ := hr
    rw [hr]
    show Res.ok _ = Res.ok _
    congr 1
    rw [BitVec.toNat_add, e, hk t (by omega)]
    exact Nat.mod_eq_of_lt (by omega)
  · rw [SizeT.bech32EncodeLength, BitVec.toNat_add, BitVec.toNat_add, h7, Bech32.encodeLength,
      Nat.mod_eq_of_lt (a := hrp.toNat + n.toNat) (by omega)]
    exact Nat.mod_eq_of_lt (by omega)

theorem scaled_iff {W n a b : Nat} (hW : 65536 ≤ W) (hb : 0 < b) (hb' : b ≤ 1000) (hb2 : 2 ≤ b) :
    ((n * a % W) / b + 2) % W = n * a / b + 2 ↔ n * a < W := by
  have hm : n * a % W < W := Nat.mod_lt _ (by omega)
  generalize hx : n * a = x at hm ⊢
  have h1 : (x % W) / b ≤ (x % W) / 2 := Nat.div_le_div_left hb2 (by omega)
  rw [Nat.mod_eq_of_lt (by omega)]
  constructor
  · intro h
    apply Classical.byContradiction
    intro hc
    have h2 : x % W + W ≤ x := by
      have := Nat.mod_add_div x W
      have h3 : 1 ≤ x / W := Nat.div_pos (by omega) (by omega)
      have h4 : W * 1 ≤ W * (x / W) := Nat.mul_le_mul_left W h3
      omega
    have h3 : (x % W + b) / b ≤ x / b := Nat.div_le_div_right (by omega)
    rw [Nat.add_div_right _ hb] at h3
    omega
  · intro h
    rw [Nat.mod_eq_of_lt h]

/-- C82 (Base58). The announced lengths are the exact ones if and only if the product fits a `size_t`; otherwise less is announced. -/
theorem C82_base58_lengths_iff_partial {w : Nat} (hw : 16 ≤ w) (n : BitVec w) :
    ((SizeT.toBase58Length n).toNat = Base58.toBase58Length n.toNat ↔ n.toNat * 138 < 2 ^ w) ∧
    ((SizeT.fromBase58Length n).toNat = Base58.fromBase58Length n.toNat ↔ n.toNat * 733 < 2 ^ w) ∧
    ((SizeT.fromBase58CheckLength n).toNat = Base58Check.fromBase58CheckLength n.toNat ↔ n.toNat * 733 < 2 ^ w) ∧
    ∀ pre : BitVec w, n.toNat + 4 + pre.toNat < 2 ^ w →
      ((SizeT.toBase58CheckLength n pre).toNat = Base58Check.toBase58CheckLength n.toNat pre.toNat ↔
        (n.toNat + 4 + pre.toNat) * 138 < 2 ^ w) := by
  have hW : 2 ^ 16 ≤ 2 ^ w := Nat.pow_le_pow_right (by omega) hw
  have hk : ∀ k, k < 65536 → (BitVec.ofNat w k).toNat = k := by
    intro k hk; rw [BitVec.toNat_ofNat]; exact Nat.mod_eq_of_lt (by omega)
  have hto : ∀ n : BitVec w, (SizeT.toBase58Length n).toNat = Base58.toBase58Length n.toNat ↔ n.toNat * 138 < 2 ^ w := by
    intro n
    rw [SizeT.toBase58Length, BitVec.toNat_add, BitVec.toNat_udiv, BitVec.toNat_mul, hk 138 (by omega), hk 100 (by omega),
      hk 2 (by omega), Base58.toBase58Length]
    exact scaled_iff (by omega) (by omega) (by omega) (by omega)
  have hfrom : (SizeT.fromBase58Length n).toNat = Base58.fromBase58Length n.toNat ↔ n.toNat * 733 < 2 ^ w := by
    rw [SizeT.fromBase58Length, BitVec.toNat_add, BitVec.toNat_udiv, BitVec.toNat_mul, hk 733 (by omega), hk 1000 (by omega),
      hk 2 (by omega), Base58.fromBase58Length]
    exact scaled_iff (by omega) (by omega) (by omega) (by omega)
  refine ⟨hto n, hfrom, hfrom, fun pre hp => ?_⟩
  have e : (n + 4#w + pre).toNat = n.toNat + 4 + pre.toNat := by
    rw [BitVec.toNat_add, BitVec.toNat_add, hk 4 (by omega), Nat.mod_eq_of_lt (a := n.toNat + 4) (by omega), Nat.mod_eq_of_lt hp]
  have := hto (n + 4#w + pre)
  rw [e] at this
  exact this

/-- The other way round: sizes of objects for which they are right, on the usual machines. -/
theorem C82_base58_lengths_64 (n : BitVec 64) (h : n.toNat < 2 ^ 54) :
    (SizeT.toBase58Length n).toNat = Base58.toBase58Length n.toNat ∧
    (SizeT.fromBase58Length n).toNat = Base58.fromBase58Length n.toNat := by
  obtain ⟨h1, h2, -⟩ := C82_base58_lengths_iff_partial (w := 64) (by omega) n
  exact ⟨h1.mpr (by omega), h2.mpr (by omega)⟩

/-- C82 is violated by the Base58 lengths where a `size_t` has 32 bits: for a buffer of 31,122,952 bytes that does not begin with a zero,
2 bytes are announced for a text of over 2.9 million characters; for a text of 5,859,437 characters, which may be all `'1'`s and then
denotes as many zero bytes, 2 bytes are announced. -/
theorem C82_violated_32bit :
    SizeT.toBase58Length 31122952#32 = 2#32 ∧
    (∀ bs : List Byte, bs.length = 31122952 → bs.head? ≠ some 0#8 → 2929718 < (Base58Spec.encode bs).length) ∧
    SizeT.fromBase58Length 5859437#32 = 2#32 ∧
    Base58Spec.decode? (List.replicate 5859437 49#8) = some (List.replicate 5859437 0#8) := by
  refine ⟨by decide, fun bs hl hh => ?_, by decide, ?_⟩
  · have hs : significant bs = bs.length := by
      rw [significant]
      cases bs with
      | nil => rfl
      | cons b r =>
        have : b ≠ 0#8 := by simpa using hh
        rw [List.dropWhile_cons_of_neg (by simpa using this)]
    have h := digits58_long bs (by omega)
    rw [Base58Spec.encode, List.length_append, List.length_map]
    omega
  · have h := decode_encode58 (List.replicate 5859437 0#8)
    have e : Base58Spec.encode (List.replicate 5859437 0#8) = List.replicate 5859437 49#8 := by
      generalize 5859437 = k
      have hn : Base58Spec.number (List.replicate k 0#8) = Base58Spec.number [] := by
        rw [← Base58.number_dropZeros, List.dropWhile_replicate]; rfl
      rw [Base58Spec.encode, hn, List.takeWhile_replicate]
      simp [Base58Spec.number, Positional.value, Positional.digits]
    rw [e] at h
    exact h

/-- A buffer of one gigabyte on a 32-bit machine. -/
example : (1000000000#32).toNat < 2 ^ (32 - 1) ∧ (SizeT.toBase32Length 1000000000#32).toNat = 1600000000 ∧
    (SizeT.toBase64Length 1000000000#32).toNat = 1333333336 := by decide
