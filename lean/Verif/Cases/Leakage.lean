import Verif.Props.Leakage
import Verif.Cases.Keys

/-! The theorems of `Verif.Props.Leakage` applied to concrete data. -/
namespace Cases
open Endian Secp256k1 WordSpec AddressSpec

/-- Two messages of 3 bytes, on two machines: the same is seen. -/
example : ∃ t r r', Leakage.sha2_256 .little ⟨"msg", 0, cstr "abc"⟩ 3 "hash" (aa 32) = .ok r t ∧
    Leakage.sha2_256 .big ⟨"msg", 0, cstr "xyz"⟩ 3 "hash" (aa 40) = .ok r' t := by
  obtain ⟨t, h⟩ := (C92_hashes 3 (by decide)).1
  exact ⟨t, _, _, h .little _ _ (by decide) (by decide +kernel), h .big _ _ (by decide) (by decide +kernel)⟩

/-- Two keys and two messages: the same is seen. -/
example : ∃ t r r', Leakage.hmac_sha512 .little ⟨"key", 0, cstr "Jefe"⟩ 4 ⟨"msg", 0, cstr "what"⟩ 4 "out" (aa 64) = .ok r t ∧
    Leakage.hmac_sha512 .little ⟨"key", 0, cstr "Jane"⟩ 4 ⟨"msg", 0, cstr "when"⟩ 4 "out" (aa 64) = .ok r' t := by
  obtain ⟨t, h⟩ := (C92_hmac 4 4 (by decide) (by decide)).2
  exact ⟨t, _, _, h .little _ _ _ (by decide) (by decide) (by decide +kernel), h .little _ _ _ (by decide) (by decide) (by decide +kernel)⟩

example : ∃ t r r', Leakage.exkeyInit .little kb ⟨"seed", 0, aa 64⟩ 64 = .ok r t ∧
    Leakage.exkeyInit .little kb ⟨"seed", 0, List.replicate 64 0x55#8⟩ 64 = .ok r' t := by
  obtain ⟨t, h⟩ := C92_exkey_init 64 (by decide)
  obtain ⟨r, -, h1⟩ := h .little kb (aa 64) (by decide +kernel) kb_buf
  obtain ⟨r', -, h2⟩ := h .little kb (List.replicate 64 0x55#8) (by decide +kernel) kb_buf
  exact ⟨t, r, r', h1, h2⟩

/-- Different keys give themselves away by different observations. -/
example (t : List Leakage.Ev) (r r' : List Byte × Nat) (h : Leakage.keyToString .little ⟨"key32", 0, one32⟩ (aa 80) true Network.main.param = .ok r t)
    (h' : Leakage.keyToString .little ⟨"key32", 0, aa 32⟩ (aa 80) true Network.main.param = .ok r' t) : False :=
  absurd (C93_violated_wif .little .little .main .main one32 (aa 32) (aa 80) (aa 80) true r r' t (by decide +kernel) (by decide +kernel)
    (by decide +kernel) (by decide +kernel) h h') (by decide +kernel)

/-- The runs these theorems speak about exist. -/
example : ∃ t r, Leakage.keyToString .little ⟨"key32", 0, one32⟩ (aa 80) true Network.main.param = .ok r t := by
  obtain ⟨f, h⟩ := C93_violated_recover_wif true
  obtain ⟨t, h, -⟩ := h .little .main one32 (aa 80) (by decide +kernel) (by decide +kernel)
  exact ⟨t, _, h⟩

example (t : List Leakage.Ev) (r r' : List Byte × Nat) (h : Leakage.exkeyToString .little m1 (aa 120) Network.main.param = .ok r t)
    (h' : Leakage.exkeyToString .little kb (aa 120) Network.test.param = .ok r' t) : m1 = kb :=
  C93_violated_exkey .little .little .main .test m1 kb (aa 120) (aa 120) r r' t m1_buf kb_buf
    (by decide +kernel) (by decide +kernel) h h'

example : ∃ t r, Leakage.exkeyToString .little m1 (aa 120) Network.main.param = .ok r t := by
  obtain ⟨f, h⟩ := C93_violated_recover_exkey
  obtain ⟨t, h, -⟩ := h .little .main m1 (aa 120) m1_buf (by decide +kernel)
  exact ⟨t, _, h⟩

example (t : List Leakage.Ev) (r r' : List Byte) (h : Leakage.toHex ⟨"buf", 0, cstr "abc"⟩ 3 (aa 6) false = .ok r t)
    (h' : Leakage.toHex ⟨"buf", 0, cstr "abd"⟩ 3 (aa 6) false = .ok r' t) : False :=
  absurd (C93_violated_hex (cstr "abc") (cstr "abd") (aa 6) (aa 6) r r' 3 false t (by decide) (by decide) (by decide +kernel) (by decide +kernel) h h')
    (by decide)

/-- What is seen of two bytes: the nibbles `6 1`, `f 0`. -/
example : Leakage.toHex ⟨"buf", 0, [0x61#8, 0xf0#8]⟩ 2 (aa 4) false = .ok (cstr "61f0")
    [.branch false, .branch true, .load "buf" 0 1, .load "HEX_STRING_LOWER" 6 1, .store "str" 0 1, .load "HEX_STRING_LOWER" 1 1,
      .store "str" 1 1, .branch true, .load "buf" 1 1, .load "HEX_STRING_LOWER" 15 1, .store "str" 2 1, .load "HEX_STRING_LOWER" 0 1,
      .store "str" 3 1, .branch false] := by decide +kernel

example (t : List Leakage.Ev) (r r' : List Byte × Nat) (h : Leakage.toBase58 ⟨"buf", 0, cstr "abc"⟩ 3 (aa 10) = .ok r t)
    (h' : Leakage.toBase58 ⟨"buf", 0, cstr "ab"⟩ 2 (aa 10) = .ok r' t) : False :=
  absurd (C93_violated_base58 (cstr "abc") (cstr "ab") (aa 10) (aa 10) r r' t (by decide) (by decide) (by decide +kernel) (by decide +kernel) h h')
    (by decide)

/-- What is seen of the text "2g" of the byte 0x61: the digits 1 and 39. -/
example : (match Leakage.toBase58 ⟨"buf", 0, cstr "a"⟩ 1 (aa 3) with
    | .ok r t => decide (r.1 = cstr "2g" ++ [0xAA#8] ∧ t.filter Leakage.isText = [.store "str" 0 0, .load "BASE58_ENCODE" 1 1, .store "str" 0 1,
        .load "BASE58_ENCODE" 39 1, .store "str" 1 1])
    | _ => false) = true := by decide +kernel

/-- Two keys, a hardened step each: the same is seen. -/
example : ∃ t r r', Leakage.keyDerive false .little ⟨"key32", 0, m1.key⟩ ⟨"chain32", 0, aa 32⟩ (aa 32) (aa 32) 0x80000000#32 = .ok r t ∧
    Leakage.keyDerive false .little ⟨"key32", 0, one32⟩ ⟨"chain32", 0, m1.ext.chainCode⟩ (aa 32) (aa 32) 0x80000007#32 = .ok r' t := by
  obtain ⟨t, h⟩ := C92_key_derive false true
  obtain ⟨r, -, h1⟩ := h .little m1.key (aa 32) (aa 32) (aa 32) 0x80000000#32 m1_wf.1 (by decide +kernel) (by decide +kernel) (by decide +kernel) (by decide)
  obtain ⟨r', -, h2⟩ := h .little one32 m1.ext.chainCode (aa 32) (aa 32) 0x80000007#32 (by
    refine ⟨by decide +kernel, by decide +kernel, by decide +kernel⟩) (by rw [m1_buf.2]) (by decide +kernel) (by decide +kernel) (by decide)
  exact ⟨t, r, r', h1, h2⟩

example : ∃ t r, Leakage.exkeyDerive false .little m1 kb 5#32 7#32 = .ok r t := by
  obtain ⟨t, h⟩ := C92_exkey_derive false false
  obtain ⟨r, ok, -, h1⟩ := h .little m1 kb 5#32 7#32 m1_wf kb_buf (by decide)
  exact ⟨_, _, h1⟩
end Cases
