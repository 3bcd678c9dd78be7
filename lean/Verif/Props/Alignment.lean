import Verif.Lemmas.Alignment
import Verif.Lemmas.Sha1
/-!
Property theorems C85: on a machine where `uint32_t` and `uint64_t` have an alignment, the hash functions are defined only for suitably
placed outputs and local arrays.  `abi.a4`, `abi.a8` are the alignments of `uint32_t` and `uint64_t`; `addr` is the address of the output,
the other addresses are those of byte arrays inside the library, chosen by the compiler.  Addresses of messages, keys and of other inputs
do not occur: inputs are read bytewise.
-/
open Alignment Endian Sha2Spec Sha1Spec RipemdSpec HmacSpec WordSpec

theorem Alignment.onlyIf_dvd {α : Type} (c d : Prop) [Decidable c] [Decidable d] (r : Res α) (h : c ↔ d) :
    onlyIf c r = if d then r else .ub := (onlyIf_congr r h).trans rfl

theorem Alignment.mod_dvd (a b : Nat) : a % b = 0 ↔ b ∣ a := ⟨Nat.dvd_of_mod_eq_zero, Nat.mod_eq_zero_of_dvd⟩

/-- C85 (partial: the digest appears only if the places are aligned, while the interface asks for byte arrays).  SHA-256 into `hash` at
the address `addr`, with the block buffer of `sha256_final` at `chunk`. -/
theorem C85_sha256_iff_partial (abi : Abi) (host : Host) (chunk addr : Nat) (msg : List Byte) (n : Nat) (hash : List Byte)
    (hn : n ≤ msg.length) (hlen : n < 2^61) (hh : 32 ≤ hash.length) :
    Alignment.sha2_256 abi host chunk addr msg n hash =
      if abi.a4 ∣ addr ∧ abi.a8 ∣ chunk + 56 then .ok (over (SHA256 (msg.take n)) hash) else .ub := by
  rw [Alignment.sha2_256_eq abi host chunk addr msg n hash _ (Sha2.sha2_256_eq host msg n hash hn hlen hh)]
  exact onlyIf_dvd _ _ _ (by simp only [mod_dvd])

/-- C85 (partial).  SHA-512. -/
theorem C85_sha512_iff_partial (abi : Abi) (host : Host) (chunk addr : Nat) (msg : List Byte) (n : Nat) (hash : List Byte)
    (hn : n ≤ msg.length) (hlen : n < 2^61) (hh : 64 ≤ hash.length) :
    Alignment.sha2_512 abi host chunk addr msg n hash =
      if abi.a8 ∣ addr ∧ abi.a8 ∣ chunk + 120 then .ok (over (SHA512 (msg.take n)) hash) else .ub := by
  rw [Alignment.sha2_512_eq abi host chunk addr msg n hash _ (Sha2.sha2_512_eq host msg n hash hn hlen hh)]
  exact onlyIf_dvd _ _ _ (by simp only [mod_dvd])

/-- C85 (partial).  SHA-1. -/
theorem C85_sha1_iff_partial (abi : Abi) (host : Host) (chunk addr : Nat) (msg : List Byte) (n : Nat) (hash : List Byte)
    (hn : n ≤ msg.length) (hlen : n < 2^61) (hh : 20 ≤ hash.length) :
    Alignment.sha1 abi host chunk addr msg n hash =
      if abi.a4 ∣ addr ∧ abi.a8 ∣ chunk + 56 then .ok (over (SHA1 (msg.take n)) hash) else .ub := by
  rw [Alignment.sha1_eq abi host chunk addr msg n hash _ (Sha1.sha1_eq host msg n hash hn hlen hh)]
  exact onlyIf_dvd _ _ _ (by simp only [mod_dvd])

/-- C85 (partial).  RIPEMD-160. -/
theorem C85_ripemd160_iff_partial (abi : Abi) (host : Host) (chunk addr : Nat) (msg : List Byte) (n : Nat) (hash : List Byte)
    (hn : n ≤ msg.length) (hlen : n < 2^61) (hh : 20 ≤ hash.length) :
    Alignment.ripemd160 abi host chunk addr msg n hash =
      if abi.a4 ∣ addr ∧ abi.a8 ∣ chunk + 56 then .ok (over (RIPEMD160 (msg.take n)) hash) else .ub := by
  rw [Alignment.ripemd160_eq abi host chunk addr msg n hash _ (Ripemd160.ripemd160_eq host msg n hash hn hlen hh)]
  exact onlyIf_dvd _ _ _ (by simp only [mod_dvd])

/-- C85 (partial).  HMAC-SHA-256; the block buffer `kc` of the hash of the key matters for keys longer than a block only. -/
theorem C85_hmac_sha256_iff_partial (abi : Abi) (host : Host) (kc ic oc addr : Nat) (key : List Byte) (kn : Nat) (msg : List Byte)
    (n : Nat) (out : List Byte) (hk : kn ≤ key.length) (hk2 : kn < 2^61) (hn : n ≤ msg.length) (hn2 : n + 64 < 2^61)
    (ho : 32 ≤ out.length) :
    Alignment.hmac_sha256 abi host kc ic oc addr key kn msg n out =
      if abi.a4 ∣ addr ∧ (kn ≤ 64 ∨ abi.a8 ∣ kc + 56) ∧ abi.a8 ∣ ic + 56 ∧ abi.a8 ∣ oc + 56
      then .ok (over (hmac SHA256 64 (key.take kn) (msg.take n)) out) else .ub := by
  rw [Alignment.hmac_sha256_eq abi host kc ic oc addr key kn msg n out _
    (Sha2.hmac_sha256_eq host key kn msg n out hk hk2 hn hn2 ho)]
  exact onlyIf_dvd _ _ _ (by simp only [mod_dvd])

/-- C85 (partial).  HMAC-SHA-512. -/
theorem C85_hmac_sha512_iff_partial (abi : Abi) (host : Host) (kc ic oc addr : Nat) (key : List Byte) (kn : Nat) (msg : List Byte)
    (n : Nat) (out : List Byte) (hk : kn ≤ key.length) (hk2 : kn < 2^61) (hn : n ≤ msg.length) (hn2 : n + 128 < 2^61)
    (ho : 64 ≤ out.length) :
    Alignment.hmac_sha512 abi host kc ic oc addr key kn msg n out =
      if abi.a8 ∣ addr ∧ (kn ≤ 128 ∨ abi.a8 ∣ kc + 120) ∧ abi.a8 ∣ ic + 120 ∧ abi.a8 ∣ oc + 120
      then .ok (over (hmac SHA512 128 (key.take kn) (msg.take n)) out) else .ub := by
  rw [Alignment.hmac_sha512_eq abi host kc ic oc addr key kn msg n out _
    (Sha2.hmac_sha512_eq host key kn msg n out hk hk2 hn hn2 ho)]
  exact onlyIf_dvd _ _ _ (by simp only [mod_dvd])

/-- C85 (partial).  Bitcoin's double SHA-256: the intermediate digest is an array of `char` at `dig`. -/
theorem C85_hash256_iff_partial (abi : Abi) (host : Host) (dig c1 c2 addr : Nat) (msg : List Byte) (n : Nat) (hash : List Byte)
    (hn : n ≤ msg.length) (hlen : n < 2^61) (hh : 32 ≤ hash.length) :
    Alignment.hash256 abi host dig c1 c2 addr msg n hash =
      if (abi.a4 ∣ dig ∧ abi.a8 ∣ c1 + 56) ∧ abi.a4 ∣ addr ∧ abi.a8 ∣ c2 + 56
      then .ok (over (SHA256 (SHA256 (msg.take n))) hash) else .ub := by
  rw [Alignment.hash256_eq abi host dig c1 c2 addr msg n hash _ (BtcHash.hash256_eq host msg n hash hn hlen hh)]
  exact onlyIf_dvd _ _ _ (by simp only [mod_dvd])

/-- C85 (partial).  Bitcoin's RIPEMD-160 of SHA-256. -/
theorem C85_hash160_iff_partial (abi : Abi) (host : Host) (dig c1 c2 addr : Nat) (msg : List Byte) (n : Nat) (hash : List Byte)
    (hn : n ≤ msg.length) (hlen : n < 2^61) (hh : 20 ≤ hash.length) :
    Alignment.hash160 abi host dig c1 c2 addr msg n hash =
      if (abi.a4 ∣ dig ∧ abi.a8 ∣ c1 + 56) ∧ abi.a4 ∣ addr ∧ abi.a8 ∣ c2 + 56
      then .ok (over (RIPEMD160 (SHA256 (msg.take n))) hash) else .ub := by
  rw [Alignment.hash160_eq abi host dig c1 c2 addr msg n hash _ (BtcHash.hash160_eq host msg n hash hn hlen hh)]
  exact onlyIf_dvd _ _ _ (by simp only [mod_dvd])

/-- C85 (partial).  Double SHA-256 of blocks of 64 bytes: defined as soon as the first output address is aligned. -/
theorem C85_hash256_d64_iff_partial (abi : Abi) (host : Host) (addr : Nat) (out inp : List Byte) (blocks : Nat) (h4 : abi.a4 ∣ 32)
    (ho : 32 * blocks ≤ out.length) (hi : 64 * blocks ≤ inp.length) :
    Alignment.hash256_d64 abi host addr out inp blocks =
      if blocks = 0 ∨ abi.a4 ∣ addr then
        .ok (over ((List.range blocks).flatMap fun i => SHA256 (SHA256 ((inp.drop (64 * i)).take 64))) out)
      else .ub := by
  rw [Alignment.hash256_d64_eq abi host addr out inp blocks h4, BtcHash.hash256_d64_eq host out inp blocks ho hi]
  exact onlyIf_dvd _ _ _ (by simp only [mod_dvd])

/-- C85 (partial).  The hash of BIP 32. -/
theorem C85_bip32_hash_iff_partial (abi : Abi) (host : Host) (ic oc addr : Nat) (chain : List Byte) (child : U32) (header : Byte)
    (data out : List Byte) (hc : 32 ≤ chain.length) (hd : 32 ≤ data.length) (ho : 64 ≤ out.length) :
    Alignment.bip32_hash abi host ic oc addr chain child header data out =
      if abi.a8 ∣ addr ∧ abi.a8 ∣ ic + 120 ∧ abi.a8 ∣ oc + 120
      then .ok (over (hmac SHA512 128 (chain.take 32) (header :: data.take 32 ++ beBytes 4 child.toNat)) out) else .ub := by
  rw [Alignment.bip32_hash_eq abi host ic oc addr chain child header data out _
    (BtcHash.bip32_hash_eq host chain child header data out hc hd ho)]
  exact onlyIf_dvd _ _ _ (by simp only [mod_dvd])

/-- C85.  Where bytes and words have the same alignment (x86 instructions without alignment checks) every place will do. -/
theorem C85_unaligned_machine (host : Host) (chunk addr : Nat) (msg : List Byte) (n : Nat) (hash : List Byte)
    (hn : n ≤ msg.length) (hlen : n < 2^61) (hh : 32 ≤ hash.length) :
    Alignment.sha2_256 ⟨1, 1⟩ host chunk addr msg n hash = .ok (over (SHA256 (msg.take n)) hash) := by
  rw [C85_sha256_iff_partial ⟨1, 1⟩ host chunk addr msg n hash hn hlen hh, if_pos ⟨Nat.one_dvd _, Nat.one_dvd _⟩]

/-- C85.  With the usual alignments 4 and 8 aligned places suffice: no message makes a call undefined. -/
theorem C85_aligned_places (host : Host) (q r : Nat) (msg : List Byte) (n : Nat) (hash : List Byte) (hn : n ≤ msg.length)
    (hlen : n < 2^61) (hh : 32 ≤ hash.length) :
    Alignment.sha2_256 ⟨4, 8⟩ host (8 * q) (4 * r) msg n hash = .ok (over (SHA256 (msg.take n)) hash) := by
  rw [C85_sha256_iff_partial ⟨4, 8⟩ host _ _ msg n hash hn hlen hh, if_pos]
  refine ⟨⟨r, rfl⟩, ⟨q + 7, ?_⟩⟩
  show 8 * q + 56 = 8 * (q + 7)
  omega

/-- C85, violated: an array of 32 bytes at an address that is no multiple of 4 — a digest field inside a record of bytes — is undefined
behaviour for every message. -/
theorem C85_violated_unaligned_output (host : Host) (chunk addr : Nat) (msg : List Byte) (n : Nat) (hash : List Byte)
    (hn : n ≤ msg.length) (hlen : n < 2^61) (hh : 32 ≤ hash.length) (ha : ¬ 4 ∣ addr) :
    Alignment.sha2_256 ⟨4, 8⟩ host chunk addr msg n hash = .ub := by
  rw [C85_sha256_iff_partial ⟨4, 8⟩ host chunk addr msg n hash hn hlen hh, if_neg (fun x => ha x.1)]

/-- C85, violated: whether a Base58Check text can be made at all depends on the places the compiler gave to four arrays of `char`. -/
theorem C85_violated_to_base58_check_partial (abi : Abi) (pl : Places) (host : Host) (data : List Byte) (n : Nat) (pre : List Byte)
    (m : Nat) (str : List Byte) (hn : n ≤ data.length) (hm : m ≤ pre.length) (hsz : n + m + 4 < 2^30)
    (hs : (Base58CheckSpec.encode (pre.take m ++ data.take n)).length ≤ str.length) :
    Alignment.toBase58Check abi pl host data n pre m str =
      if (abi.a4 ∣ pl.dig ∧ abi.a8 ∣ pl.chunk1 + 56) ∧ abi.a4 ∣ pl.hash ∧ abi.a8 ∣ pl.chunk2 + 56 then
        .ok (over (Base58CheckSpec.encode (pre.take m ++ data.take n)) str,
          (Base58CheckSpec.encode (pre.take m ++ data.take n)).length)
      else .ub := by
  rw [Alignment.toBase58Check_eq abi pl host data n pre m str _ (Base58Check.toBase58Check_eq host data n pre m str hn hm hsz hs)]
  exact onlyIf_dvd _ _ _ (by simp only [Good, mod_dvd])

/-- C85, violated: and so does reading a text that decodes to at least four bytes; shorter and malformed texts are rejected wherever the
arrays are. -/
theorem C85_violated_from_base58_check_partial (abi : Abi) (pl : Places) (host : Host) (cs : Bool) (s post buf W : List Byte)
    (h0 : ∀ b ∈ s, b ≠ 0#8) (h7 : cs = true → ∀ b ∈ s, b.toNat < 128) (hlen : s.length ≤ 2929669)
    (hW : Base58Spec.decode? s = some W) (hb : W.length ≤ buf.length) :
    Alignment.fromBase58Check abi pl host cs (s ++ 0#8 :: post) s.length buf =
      if W.length < 4 ∨ ((abi.a4 ∣ pl.dig ∧ abi.a8 ∣ pl.chunk1 + 56) ∧ abi.a4 ∣ pl.hash ∧ abi.a8 ∣ pl.chunk2 + 56) then
        .ok (over W buf, match Base58CheckSpec.check? W with | some p => p.length | none => 0)
      else .ub := by
  have hb' : ∀ V, Base58Spec.decode? s = some V → V.length ≤ buf.length := by
    intro V hV
    rw [hW] at hV
    cases hV
    exact hb
  have h := Base58Check.fromBase58Check_eq host cs s post buf h0 h7 hlen hb'
  rw [hW] at h
  rw [Alignment.fromBase58Check_eq abi pl host cs _ _ buf _ _ ((C16_from_base58_any cs s post buf h0 h7 hlen hb').2 W hW) h]
  exact onlyIf_dvd _ _ _ (by simp only [Good, mod_dvd])

/-- Concrete runs: aligned, misaligned output, misaligned block buffer. -/
example : Alignment.sha1 ⟨4, 8⟩ .little 16 40 (cstr "abc") 3 (List.replicate 20 0#8) = .ok (SHA1 (cstr "abc")) ∧
    Alignment.sha1 ⟨4, 8⟩ .little 16 41 (cstr "abc") 3 (List.replicate 20 0#8) = .ub ∧
    Alignment.sha1 ⟨4, 8⟩ .little 17 40 (cstr "abc") 3 (List.replicate 20 0#8) = .ub := by decide +kernel

/-- The hypotheses of the Base58Check theorems: a text that decodes to six bytes. -/
example : Base58Spec.decode? (cstr "3yZe7d") ≠ none ∧ (4 : Nat) ∣ 32 := by decide +kernel
