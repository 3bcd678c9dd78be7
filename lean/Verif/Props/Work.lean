import Verif.Lemmas.LeakageWorkLower
import Verif.Spec.Work
import Verif.Props.LeakageRead

/-! Property theorems C102: how much a call does. -/
open Endian Sha2Spec Sha1Spec RipemdSpec HmacSpec WordSpec Secp256k1 AddressSpec WorkSpec

/-- C102, hash functions: linear in the length of the message. -/
theorem C102_hashes (host : Host) (msg hash : List Byte) (n : Nat) (hm : n ≤ msg.length) (hn : n < 2 ^ 61) :
    (32 ≤ hash.length → ∃ t, Leakage.sha2_256 host ⟨"msg", 0, msg⟩ n "hash" hash = .ok (over (SHA256 (msg.take n)) hash) t ∧ work t ≤ 3 * n + 750) ∧
    (64 ≤ hash.length → ∃ t, Leakage.sha2_512 host ⟨"msg", 0, msg⟩ n "hash" hash = .ok (over (SHA512 (msg.take n)) hash) t ∧ work t ≤ 3 * n + 1500) ∧
    (20 ≤ hash.length → ∃ t, Leakage.sha1 host ⟨"msg", 0, msg⟩ n "hash" hash = .ok (over (SHA1 (msg.take n)) hash) t ∧ work t ≤ 2 * n + 650) ∧
    (20 ≤ hash.length → ∃ t, Leakage.ripemd160 host ⟨"msg", 0, msg⟩ n "hash" hash = .ok (over (RIPEMD160 (msg.take n)) hash) t ∧ work t ≤ 3 * n + 700) ∧
    (20 ≤ hash.length → ∃ t, Leakage.hash160 host ⟨"msg", 0, msg⟩ n "hash" hash = .ok (over (RIPEMD160 (SHA256 (msg.take n))) hash) t ∧
      work t ≤ 3 * n + 1500) ∧
    (32 ≤ hash.length → ∃ t, Leakage.hash256 host ⟨"msg", 0, msg⟩ n "hash" hash = .ok (over (SHA256 (SHA256 (msg.take n))) hash) t ∧
      work t ≤ 3 * n + 1500) := by
  refine ⟨fun h => ⟨_, Leakage.sha2_256_shows host ⟨"msg", 0, msg⟩ n "hash" hash _ (Sha2.sha2_256_eq host msg n hash hm hn h), ?_⟩,
    fun h => ⟨_, Leakage.sha2_512_shows host ⟨"msg", 0, msg⟩ n "hash" hash (by omega) _ (Sha2.sha2_512_eq host msg n hash hm hn h), ?_⟩,
    fun h => ⟨_, Leakage.sha1_shows host ⟨"msg", 0, msg⟩ n "hash" hash _ (Sha1.sha1_eq host msg n hash hm hn h), ?_⟩,
    fun h => ⟨_, Leakage.ripemd160_shows host ⟨"msg", 0, msg⟩ n "hash" hash _ (Ripemd160.ripemd160_eq host msg n hash hm hn h), ?_⟩,
    fun h => ⟨_, Leakage.hash160_shows host ⟨"msg", 0, msg⟩ n "hash" hash _ (BtcHash.hash160_eq host msg n hash hm hn h), ?_⟩,
    fun h => ⟨_, Leakage.hash256_shows host ⟨"msg", 0, msg⟩ n "hash" hash _ (BtcHash.hash256_eq host msg n hash hm hn h), ?_⟩⟩
  · refine Nat.le_trans (Leakage.work_sha256 "msg" 0 n "hash") ?_; omega
  · refine Nat.le_trans (Leakage.work_sha512 "msg" 0 n "hash") ?_; omega
  · refine Nat.le_trans (Leakage.work_sha1 "msg" 0 n "hash") ?_; omega
  · refine Nat.le_trans (Leakage.work_ripemd "msg" 0 n "hash") ?_; omega
  · refine Nat.le_trans (Leakage.work_hash160 "msg" 0 n "hash") ?_; omega
  · refine Nat.le_trans (Leakage.work_hash256 "msg" 0 n "hash") ?_; omega

/-- C102, HMAC: linear in the lengths of key and message. -/
theorem C102_hmac (host : Host) (key msg out : List Byte) (kn n : Nat) (hk : kn ≤ key.length) (hm : n ≤ msg.length) (hkn : kn < 2 ^ 61)
    (hn : n + 128 < 2 ^ 61) :
    (32 ≤ out.length → ∃ t, Leakage.hmac_sha256 host ⟨"key", 0, key⟩ kn ⟨"msg", 0, msg⟩ n "out" out =
      .ok (over (hmac SHA256 64 (key.take kn) (msg.take n)) out) t ∧ work t ≤ 3 * (kn + n) + 3200) ∧
    (64 ≤ out.length → ∃ t, Leakage.hmac_sha512 host ⟨"key", 0, key⟩ kn ⟨"msg", 0, msg⟩ n "out" out =
      .ok (over (hmac SHA512 128 (key.take kn) (msg.take n)) out) t ∧ work t ≤ 3 * (kn + n) + 6000) := by
  refine ⟨fun h => ⟨_, Leakage.hmac_sha256_shows host ⟨"key", 0, key⟩ kn ⟨"msg", 0, msg⟩ n "out" out _
      (Sha2.hmac_sha256_eq host key kn msg n out hk hkn hm (by omega) h), ?_⟩,
    fun h => ⟨_, Leakage.hmac_sha512_shows host ⟨"key", 0, key⟩ kn ⟨"msg", 0, msg⟩ n "out" out _
      (Sha2.hmac_sha512_eq host key kn msg n out hk hkn hm (by omega) h), ?_⟩⟩
  · refine Nat.le_trans (Leakage.work_hmac256 "key" 0 kn "msg" 0 n "out") ?_; omega
  · refine Nat.le_trans (Leakage.work_hmac512 "key" 0 kn "msg" 0 n "out") ?_; omega

/-- C102, the double SHA-256 of many blocks: linear in their number. -/
theorem C102_hash256_d64 (host : Host) (out inp : List Byte) (k : Nat) (ho : 32 * k ≤ out.length) (hi : 64 * k ≤ inp.length) :
    ∃ t, Leakage.hash256_d64 host "output" out ⟨"input", 0, inp⟩ k =
      .ok (over ((List.range k).flatMap fun i => SHA256 (SHA256 ((inp.drop (64 * i)).take 64))) out) t ∧ work t ≤ 97 * k + 1 :=
  ⟨_, Leakage.hash256_d64_shows host "output" out ⟨"input", 0, inp⟩ k _ (C31_hash256_d64_digests host out inp k ho hi).1,
    Leakage.work_d64Loop "output" "input" 0 k 0⟩

attribute [local irreducible] Leakage.hmac512T in
theorem work_bip32 (co : String) (cb : Nat) (do_ : String) (db : Nat) (dst : String) : work (Leakage.bip32T co cb do_ db dst) ≤ 6200 := by
  unfold Leakage.bip32T
  have := Leakage.work_hmac512 co cb 32 "hmac_msg" 0 37 dst
  simp only [Leakage.work_append, Leakage.work_cons, Leakage.work_nil, Leakage.cost_load, Leakage.cost_store]
  omega

/-- C102, BIP32 hash: bounded. -/
theorem C102_bip32_hash (host : Host) (chain data out : List Byte) (child : U32) (header : Byte) (hc : chain.length = 32)
    (hd : data.length = 32) (ho : 64 ≤ out.length) :
    ∃ t, Leakage.bip32_hash host ⟨"chain", 0, chain⟩ child header ⟨"data", 0, data⟩ "out" out =
      .ok (over (hmac SHA512 128 chain (header :: data ++ beBytes 4 child.toNat)) out) t ∧ work t ≤ 7000 := by
  refine ⟨_, Leakage.bip32_hash_shows host ⟨"chain", 0, chain⟩ child header ⟨"data", 0, data⟩ "out" out _
    (C32_bip32_hash host chain child header data out hc hd ho), ?_⟩
  exact Nat.le_trans (work_bip32 "chain" 0 "data" 0 "out") (by omega)

attribute [local irreducible] Leakage.hmac512T in
/-- C102, master keys: linear in the length of the seed. -/
theorem C102_exkey_init (host : Host) (buf : Exkey.ExKey) (seed : List Byte) (hb : BufPriv buf) (hn : seed.length < 2 ^ 60) :
    ∃ k t, Exkey.exkeyInit host buf seed seed.length = .ok k ∧ Leakage.exkeyInit host buf ⟨"seed", 0, seed⟩ seed.length = .ok k t ∧
      work t ≤ 3 * seed.length + 6300 := by
  have h := C61_master_key host buf seed hb (by omega)
  refine ⟨_, _, h, Leakage.exkeyInit_shows host buf ⟨"seed", 0, seed⟩ seed.length _ h, ?_⟩
  have := Leakage.work_hmac512 "hashkey" 0 12 "seed" 0 seed.length "out"
  simp only [Leakage.work_append, Leakage.work_cons, Leakage.work_nil, Leakage.cost_load, Leakage.cost_store]
  omega

/-! ## Texts -/

/-- C102, hexadecimal: linear. -/
theorem C102_hex (bs str text out : List Byte) (n : Nat) (upper : Bool) (hs : Hex.toHexLength bs.length ≤ str.length) (hn : n ≤ text.length)
    (ho : n / 2 ≤ out.length) :
    (∃ t, Leakage.toHex ⟨"buf", 0, bs⟩ bs.length str upper = .ok (over (HexSpec.encode upper bs) str) t ∧ work t ≤ 6 * bs.length + 2) ∧
    (∃ t, Leakage.fromHex ⟨"str", 0, text⟩ n "buf" out =
        .ok (over (HexSpec.decode (text.take n)) out, (HexSpec.decode (text.take n)).length) t ∧ work t ≤ 4 * n + 1) := by
  refine ⟨?_, Leakage.fromHex_costs ⟨"str", 0, text⟩ n "buf" out _ (C02_from_hex_any text out n hn ho).1⟩
  have := Leakage.toHex_costs ⟨"buf", 0, bs⟩ upper bs.length str (Nat.le_refl _) (by rw [Nat.mul_comm]; exact hs) _ rfl
  rwa [List.take_of_length_le (Nat.le_refl _)] at this

/-- C102, writing base 58: at most quadratic in the length of the data. -/
theorem C102_to_base58 (bs str : List Byte) (hn : bs.length < 2 ^ 30) (hs : (Base58Spec.encode bs).length ≤ str.length) :
    ∃ t, Leakage.toBase58 ⟨"buf", 0, bs⟩ bs.length str = .ok (over (Base58Spec.encode bs) str, (Base58Spec.encode bs).length) t ∧
      work t ≤ 7 * bs.length ^ 2 + 28 * bs.length + 20 :=
  Leakage.toBase58_costs ⟨"buf", 0, bs⟩ bs.length str _ (C13_to_base58_canonical bs str hn hs)

/-- C102, writing base 58 does take quadratic time: whatever the bytes are that follow the zeroes at the beginning. -/
theorem C102_to_base58_least (z : Nat) (d str : List Byte) (hd : d.head? ≠ some 0#8) (r : List Byte × Nat) (t : List Leakage.Ev)
    (h : Leakage.toBase58 ⟨"buf", 0, List.replicate z 0#8 ++ d⟩ (z + d.length) str = .ok r t) :
    2 * d.length ^ 2 ≤ work t := by
  have := Leakage.toBase58_least "buf" 0 z d str hd r t h
  rw [Nat.pow_two]
  have e : 2 * (d.length * (d.length + 1)) = 2 * (d.length * d.length) + 2 * d.length := by ring
  omega

theorem read_bound (M : Nat) : Leakage.readBound M ((733 * M + 1000) / 1000) ≤ 4 * M ^ 2 + 33 * M + 40 ∧ (733 * M + 1000) / 1000 ≤ M + 1 := by
  have h1 : 1000 * ((733 * M + 1000) / 1000) ≤ 733 * M + 1000 := by omega
  generalize (733 * M + 1000) / 1000 = S at h1 ⊢
  refine ⟨?_, by omega⟩
  unfold Leakage.readBound
  nlinarith [Nat.mul_le_mul_left M h1]

/-- C102, reading base 58: at most quadratic in the length of the text, whatever the text is. -/
theorem C102_from_base58 (cs : Bool) (s post buf : List Byte) (h0 : ∀ b ∈ s, b ≠ 0#8) (h7 : cs = true → ∀ b ∈ s, b.toNat < 128)
    (hlen : s.length ≤ 2929669) (hb : ∀ W, Base58Spec.decode? s = some W → W.length ≤ buf.length) :
    ∃ r t, Base58.fromBase58 cs (s ++ 0#8 :: post) s.length buf = .ok r ∧
      Leakage.fromBase58 cs ⟨"str", 0, s ++ 0#8 :: post⟩ s.length "buf" buf = .ok r t ∧ work t ≤ 4 * s.length ^ 2 + 33 * s.length + 40 := by
  obtain ⟨h1, h2⟩ := C16_from_base58_any cs s post buf h0 h7 hlen hb
  obtain ⟨r, hr⟩ : ∃ r, Base58.fromBase58 cs (s ++ 0#8 :: post) s.length buf = .ok r := by
    cases hd : Base58Spec.decode? s with
    | none => exact ⟨_, h1 hd⟩
    | some W => exact ⟨_, h2 W hd⟩
  obtain ⟨t, ht, hw⟩ := Leakage.fromBase58_costs cs "str" s post s.length "buf" buf r hr
  exact ⟨r, t, hr, ht, Nat.le_trans hw (read_bound s.length).1⟩

/-- C102, reading base 58 does take quadratic time: whatever the digits are that follow the ones at the beginning. -/
theorem C102_from_base58_least (cs : Bool) (z : Nat) (d post buf : List Byte) (r : List Byte × Nat) (t : List Leakage.Ev)
    (hs : ∀ c ∈ d, (Base58Spec.value? c).isSome = true) (hd : d.head? ≠ some (chr '1'))
    (h : Leakage.fromBase58 cs ⟨"str", 0, List.replicate z (chr '1') ++ d ++ 0#8 :: post⟩ (z + d.length) "buf" buf = .ok r t) :
    4 * d.length ^ 2 ≤ 3 * work t :=
  Leakage.fromBase58_least cs "str" "buf" z d post buf r t hs hd h

/-- C102, keys as text: bounded. -/
theorem C102_key_to_string (host : Host) (net : Network) (key str : List Byte) (c : Bool) (hk : key.length = 32)
    (hs : Base58Check.toBase58CheckLength 32 8 ≤ str.length) :
    ∃ t, Leakage.keyToString host ⟨"key32", 0, key⟩ str c net.param =
      .ok (over (WifSpec.wif net key c) str, (WifSpec.wif net key c).length) t ∧ work t ≤ 18000 :=
  Leakage.keyToString_costs host ⟨"key32", 0, key⟩ str c net.param (by rw [(net_secret net).2.1]; decide) _
    (C45_key_to_string host net key str c hk hs)

/-- C102, extended keys as text: bounded. -/
theorem C102_exkey_to_string (host : Host) (net : Network) (k : Exkey.ExKey) (str : List Byte) (hk : BufPriv k)
    (hs : Base58Check.toBase58CheckLength 74 8 ≤ str.length) :
    ∃ t, Leakage.exkeyToString host k str net.param = .ok (over (xprv net k) str, (xprv net k).length) t ∧ work t ≤ 58000 :=
  Leakage.exkeyToString_costs host k str net.param (by rw [(net_ext net).1]; decide) _
    (C54_to_string host net k ⟨⟨0#8, 0#32, 0#32, List.replicate 32 0#8⟩, List.replicate 33 0#8⟩ str hk ⟨by simp, by simp⟩ hs).1

/-- C102, keys from text: at most quadratic in the length of the text, whether it is accepted or not. -/
theorem C102_key_from_string (nd : Bool) (host : Host) (cs : Bool) (net : Network) (s post key32 : List Byte) (flag : Int)
    (h0 : ∀ b ∈ s, b ≠ 0#8) (hr : Base58Spec.Readable cs s) (hk : 32 ≤ key32.length)
    (h40 : ∀ W, Base58Spec.decode? s = some W → W.length ≤ 40) :
    ∃ r t, Key.keyFromString nd host cs (s ++ 0#8 :: post) s.length key32 flag net.param = .ok r ∧
      Leakage.keyFromString nd host cs ⟨"str", 0, s ++ 0#8 :: post⟩ s.length key32 flag net.param = .ok r t ∧
      work t ≤ 4 * s.length ^ 2 + 40 * s.length + 1700 := by
  have h := C46_from_string_spec_partial nd host cs net s post key32 flag h0 hr hk h40
  obtain ⟨t, ht, hw⟩ := Leakage.keyFromString_costs nd host cs s post s.length key32 flag net.param (by rw [(net_secret net).2.1]; decide) _ h
  refine ⟨_, t, h, ht, Nat.le_trans hw ?_⟩
  have := read_bound s.length
  omega

/-- C102, extended keys from text: the same. -/
theorem C102_exkey_from_string (nd : Bool) (host : Host) (cs : Bool) (net : Network) (s post : List Byte) (buf : Exkey.ExKey)
    (h0 : ∀ b ∈ s, b ≠ 0#8) (hr : Base58Spec.Readable cs s) (hb : BufPriv buf)
    (h82 : ∀ W, Base58Spec.decode? s = some W → W.length ≤ 82) :
    ∃ r t, Exkey.exkeyFromString nd host cs (s ++ 0#8 :: post) s.length buf net.param = .ok r ∧
      Leakage.exkeyFromString nd host cs ⟨"str", 0, s ++ 0#8 :: post⟩ s.length buf net.param = .ok r t ∧
      work t ≤ 4 * s.length ^ 2 + 40 * s.length + 1850 := by
  obtain ⟨h1, h2⟩ := C54_exkey_from_string_spec_partial nd host cs net s post buf h0 hr hb h82
  obtain ⟨r, h⟩ : ∃ r, Exkey.exkeyFromString nd host cs (s ++ 0#8 :: post) s.length buf net.param = .ok r := by
    by_cases hp : ∃ p, Base58CheckSpec.decode? s = some (net.extSecret ++ p) ∧ p.length = 74
    · obtain ⟨p, hp, hl⟩ := hp
      obtain ⟨k, hk, -⟩ := h1 p hp hl
      exact ⟨_, hk⟩
    · exact ⟨_, h2 hp⟩
  obtain ⟨t, ht, hw⟩ := Leakage.exkeyFromString_costs nd host cs s post s.length buf net.param _ h
  refine ⟨r, t, h, ht, Nat.le_trans hw ?_⟩
  have := read_bound s.length
  omega
