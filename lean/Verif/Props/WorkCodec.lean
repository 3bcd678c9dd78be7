import Verif.Lemmas.LeakageCodec
import Verif.Props.Work
import Verif.Props.Base64
import Verif.Props.Base32Total
import Verif.Props.CompressInteger
import Verif.Props.Bech32
import Verif.Props.Address

/-! C102 for the remaining text formats and the integers: Base64, Base32, varint, zigzag, Bech32, addresses. -/
open WordSpec AddressSpec WorkSpec

/-- C102, Base64: at most five units of work for each byte or character, in both directions, accepted or not. -/
theorem C102_base64 (bs str text out : List Byte) (n len : Nat) (hs : Base64.toBase64Length bs.length ≤ str.length) (hn : n ≤ text.length)
    (hl : Base64.fromBase64Length text n = .ok len) (ho : len ≤ out.length) :
    (∃ t, Leakage.toBase64 ⟨"buf", 0, bs⟩ bs.length str = .ok (over (Base64Spec.encode bs) str) t ∧ work t ≤ 4 * bs.length + 14) ∧
    (∃ t, Leakage.fromBase64 ⟨"str", 0, text⟩ n out =
        .ok (over (Base64Spec.decodeRaw false (Base64Spec.strip (text.take n))) out,
          (Base64Spec.decodeRaw false (Base64Spec.strip (text.take n))).length) t ∧ work t ≤ 4 * n + 21) :=
  ⟨Leakage.toBase64Impl_costs ⟨"buf", 0, bs⟩ bs.length str false _ (C04_to_base64_rfc4648 bs str hs).1,
    Leakage.fromBase64_costs ⟨"str", 0, text⟩ n out _ (C08_base64_decode_content text out n hn len hl ho)⟩

/-- C102, the URL-safe Base64. -/
theorem C102_base64_urlsafe (bs str text out : List Byte) (n : Nat) (hs : Base64.toBase64UrlsafeLength bs.length ≤ str.length)
    (hn : n ≤ text.length) (ho : Base64.fromBase64UrlsafeLength n ≤ out.length) :
    (∃ t, Leakage.toBase64Urlsafe ⟨"buf", 0, bs⟩ bs.length str = .ok (over (Base64Spec.encodeRaw true bs) str) t ∧
      work t ≤ 4 * bs.length + 14) ∧
    (∃ t, Leakage.fromBase64Urlsafe ⟨"str", 0, text⟩ n out =
        .ok (over (Base64Spec.decodeRaw true (text.take n)) out, (Base64Spec.decodeRaw true (text.take n)).length) t ∧
      work t ≤ 4 * n + 15) :=
  ⟨Leakage.toBase64Impl_costs ⟨"buf", 0, bs⟩ bs.length str true _ (C05_to_base64_urlsafe_rfc4648 bs str hs).1,
    Leakage.fromBase64Impl_costs ⟨"str", 0, text⟩ n out true _ (C08_base64_urlsafe_decode_content text out n hn ho)⟩

/-- C102, Base32 written. -/
theorem C102_to_base32 (bs str raw : List Byte) (hs : Base32.toBase32Length bs.length ≤ str.length)
    (hr : (8 * bs.length + 4) / 5 ≤ raw.length) :
    (∃ t, Leakage.toBase32 ⟨"buf", 0, bs⟩ bs.length str = .ok (over (Base32Spec.encode bs) str) t ∧ work t ≤ 5 * bs.length + 33) ∧
    (∃ t, Leakage.toBase32Raw ⟨"buf", 0, bs⟩ bs.length "raw" 0 raw =
        .ok (over (Base32Spec.encodeRaw bs) raw, (Base32Spec.encodeRaw bs).length) t ∧ work t ≤ 5 * bs.length + 33) :=
  ⟨Leakage.toBase32_costs ⟨"buf", 0, bs⟩ bs.length str _ (C09_to_base32_rfc4648 bs str hs).1,
    Leakage.toBase32Impl_costs ⟨"buf", 0, bs⟩ bs.length "raw" 0 raw true _ (C09_to_base32_raw bs raw hr).1⟩

/-- C102, Base32 read: every run on a text that is defined at all (C12 says which are), accepted or not. -/
theorem C102_from_base32 (cs : Bool) (s post buf : List Byte) (r : List Byte × Nat)
    (h : Base32.fromBase32 cs (s ++ 0#8 :: post) s.length buf = .ok r) :
    ∃ t, Leakage.fromBase32 cs ⟨"str", 0, s ++ 0#8 :: post⟩ s.length buf = .ok r t ∧ work t ≤ 7 * s.length + 29 :=
  Leakage.fromBase32_costs cs s post s.length buf (Nat.le_refl _) r h

/-- C102, integers: bounded, whatever the value and the bytes are. -/
theorem C102_varint (tmp0 buf : List Byte) (v : U64) (ht : tmp0.length = 10) (hb : 10 ≤ buf.length) (inp : List Byte) (size : Nat)
    (hs : min size 10 ≤ inp.length) :
    (∃ r t, CompressInteger.encodeVarint tmp0 v buf = .ok r ∧ Leakage.encodeVarint tmp0 v buf = .ok r t ∧ work t ≤ 63) ∧
    (∃ r t, CompressInteger.decodeVarint inp size = .ok r ∧ Leakage.decodeVarint ⟨"buf", 0, inp⟩ size = .ok r t ∧ work t ≤ 32) := by
  obtain ⟨W, -, -, -, h10, -, -, hE⟩ := C21_encode_varint v
  have hW := (hE tmp0 buf ht).1 (by omega)
  obtain ⟨x, k, hx, -⟩ := C22_decode_varint_any inp size hs
  obtain ⟨t, h1, h2⟩ := Leakage.encodeVarint_costs tmp0 ht v buf _ hW
  obtain ⟨u, h3, h4⟩ := Leakage.decodeVarint_costs ⟨"buf", 0, inp⟩ size _ hx
  exact ⟨⟨_, t, hW, h1, h2⟩, ⟨_, u, hx, h3, h4⟩⟩

/-- C102, signed integers: every defined run (`INT64_MIN` is not, C24). -/
theorem C102_zigzag (tmp0 buf : List Byte) (v out0 : BitVec 64) (ht : tmp0.length = 10) (inp : List Byte) (size : Nat) :
    (∀ r, CompressInteger.encodeZigzag tmp0 v buf = .ok r → ∃ t, Leakage.encodeZigzag tmp0 v buf = .ok r t ∧ work t ≤ 65) ∧
    (∀ r, CompressInteger.decodeZigzag inp size out0 = .ok r →
      ∃ t, Leakage.decodeZigzag ⟨"buf", 0, inp⟩ size out0 = .ok r t ∧ work t ≤ 34) :=
  ⟨Leakage.encodeZigzag_costs tmp0 ht v buf, Leakage.decodeZigzag_costs ⟨"buf", 0, inp⟩ size out0⟩

/-- C102, Bech32 read: linear in the length of the text, whatever the text is. -/
theorem C102_bech32_decode (s post hrp b32 : List Byte) (cap : Nat) (h0 : ∀ b ∈ s, b ≠ 0#8) (hcap : cap ≤ hrp.length)
    (hb : s.length - 8 ≤ b32.length) :
    ∃ r t, Bech32.decode (s ++ 0#8 :: post) s.length hrp cap b32 = .ok r ∧
      Leakage.bech32Decode ⟨"str", 0, s ++ 0#8 :: post⟩ s.length "hrp" hrp cap "b32" b32 = .ok r t ∧ work t ≤ 29 * s.length + 92 := by
  obtain ⟨r, hr, -⟩ := C37_bech32_decode_safe s (0#8 :: post) hrp b32 cap (by simp) hcap hb
  obtain ⟨t, h1, h2⟩ := Leakage.bech32Decode_costs "str" s post s.length "hrp" hrp cap "b32" b32 h0 r hr
  exact ⟨r, t, hr, h1, by omega⟩

/-- C102, Bech32 written: linear in the length of the text. -/
theorem C102_bech32_encode (hrp b32 out r : List Byte) (h : Bech32.encode hrp hrp.length b32 b32.length out = .ok r) :
    ∃ t, Leakage.bech32Encode ⟨"hrp", 0, hrp⟩ hrp.length ⟨"b32", 0, b32⟩ b32.length out = .ok r t ∧
      work t ≤ 14 * hrp.length + 11 * b32.length + 78 :=
  Leakage.bech32Encode_costs ⟨"hrp", 0, hrp⟩ hrp.length ⟨"b32", 0, b32⟩ b32.length out r h

/-- C102, addresses written in base 58: at most quadratic in the length of the hash (which is 20 in practice: below 7000). -/
theorem C102_to_address_base58 (net : Network) (host : Host) (hash out : List Byte) (outSize : Nat) (hsz : hash.length ≤ 999999)
    (ho : outSize ≤ out.length) :
    (∃ r t, Address.toAddressPubkey host hash hash.length out outSize net.param = .ok r ∧
      Leakage.toAddressPubkey host ⟨"key_id", 0, hash⟩ hash.length out outSize net.param = .ok r t ∧
      work t ≤ 7 * (hash.length + 5) ^ 2 + 34 * (hash.length + 5) + 1531) ∧
    (∃ r t, Address.toAddressScript host hash hash.length out outSize net.param = .ok r ∧
      Leakage.toAddressScript host ⟨"script_id", 0, hash⟩ hash.length out outSize net.param = .ok r t ∧
      work t ≤ 7 * (hash.length + 5) ^ 2 + 34 * (hash.length + 5) + 1531) := by
  obtain ⟨hp, hs, -⟩ := C41_base58_encoders net host hash out outSize hsz ho
  obtain ⟨t, h1, h2⟩ := (Leakage.toAddressBase58_costs host ⟨"key_id", 0, hash⟩ hash.length out outSize net.param).1 _ hp
  obtain ⟨u, h3, h4⟩ := (Leakage.toAddressBase58_costs host ⟨"script_id", 0, hash⟩ hash.length out outSize net.param).2 _ hs
  rw [(net_pub net).2.1] at h2
  rw [(net_script net).2.1] at h4
  exact ⟨⟨_, t, hp, h1, h2⟩, ⟨_, u, hs, h3, h4⟩⟩

/-- C102, witness addresses written: bounded, every run that ends. -/
theorem C102_to_address_witness (net : Network) (nd : Bool) (prog out : List Byte) (n outSize : Nat) (r : List Byte × Nat) :
    (Address.toAddressWitnessV0Keyhash nd prog n out outSize net.param = .ok r →
      ∃ t, Leakage.toAddressWitnessV0Keyhash nd ⟨"key_hash", 0, prog⟩ n out outSize net.param = .ok r t ∧ work t ≤ 1200) ∧
    (Address.toAddressWitnessV0Scripthash nd prog n out outSize net.param = .ok r →
      ∃ t, Leakage.toAddressWitnessV0Scripthash nd ⟨"script_hash", 0, prog⟩ n out outSize net.param = .ok r t ∧ work t ≤ 1200) ∧
    (Address.toAddressWitnessUnknown prog n out outSize net.param = .ok r →
      ∃ t, Leakage.toAddressWitnessUnknown ⟨"version_program", 0, prog⟩ n out outSize net.param = .ok r t ∧ work t ≤ 1200) := by
  have hh : net.param.bech32HrpSize ≤ 4 := by cases net <;> decide
  refine ⟨fun h => ?_, fun h => ?_, fun h => ?_⟩
  · obtain ⟨t, h1, h2⟩ := (Leakage.toAddressWitness_costs nd ⟨"key_hash", 0, prog⟩ n out outSize net.param hh).1 r h
    exact ⟨t, h1, by omega⟩
  · obtain ⟨t, h1, h2⟩ := (Leakage.toAddressWitness_costs nd ⟨"script_hash", 0, prog⟩ n out outSize net.param hh).2.1 r h
    exact ⟨t, h1, by omega⟩
  · obtain ⟨t, h1, h2⟩ := (Leakage.toAddressWitness_costs nd ⟨"version_program", 0, prog⟩ n out outSize net.param hh).2.2 r h
    exact ⟨t, h1, by omega⟩

/-- C102, addresses read: at most quadratic in the length of the text, every defined run, whatever the text is. -/
theorem C102_address_decode (net : Network) (host : Host) (cs : Bool) (stack s post out : List Byte) (m : Nat) (h0 : ∀ b ∈ s, b ≠ 0#8)
    (r : Address.Decoded) (h : Address.addressDecode host cs stack (s ++ 0#8 :: post) s.length out m net.param = .ok r) :
    ∃ t, Leakage.addressDecode host cs stack ⟨"str", 0, s ++ 0#8 :: post⟩ s.length out m net.param = .ok r t ∧
      work t ≤ 4 * s.length ^ 2 + 72 * s.length + 2600 := by
  obtain ⟨t, h1, h2⟩ := Leakage.addressDecode_costs host cs stack "str" s post s.length out m net.param h0
    (by cases net <;> decide) (Nat.le_of_eq (net_pub net).2.1) (Nat.le_of_eq (net_script net).2.1) r h
  refine ⟨t, h1, Nat.le_trans h2 ?_⟩
  clear h2 h1 h
  have := read_bound s.length
  omega
