import Verif.Lemmas.LeakageText
import Verif.Props.Hash
import Verif.Props.Injective
import Verif.Props.Bip32

/-! Property theorems C92 and C93: what an observer of branches and addresses learns. -/
open Endian Sha2Spec Sha1Spec RipemdSpec HmacSpec WordSpec Secp256k1 AddressSpec

/-- C92, hash functions. For every message length there is one sequence of branches and array accesses that is seen whatever the
message is, and whatever the result buffer held before. -/
theorem C92_hashes (n : Nat) (hn : n < 2 ^ 61) :
    (∃ t, ∀ host msg hash, n ≤ msg.length → 32 ≤ hash.length →
      Leakage.sha2_256 host ⟨"msg", 0, msg⟩ n "hash" hash = .ok (over (SHA256 (msg.take n)) hash) t) ∧
    (∃ t, ∀ host msg hash, n ≤ msg.length → 64 ≤ hash.length →
      Leakage.sha2_512 host ⟨"msg", 0, msg⟩ n "hash" hash = .ok (over (SHA512 (msg.take n)) hash) t) ∧
    (∃ t, ∀ host msg hash, n ≤ msg.length → 20 ≤ hash.length →
      Leakage.sha1 host ⟨"msg", 0, msg⟩ n "hash" hash = .ok (over (SHA1 (msg.take n)) hash) t) ∧
    (∃ t, ∀ host msg hash, n ≤ msg.length → 20 ≤ hash.length →
      Leakage.ripemd160 host ⟨"msg", 0, msg⟩ n "hash" hash = .ok (over (RIPEMD160 (msg.take n)) hash) t) ∧
    (∃ t, ∀ host msg hash, n ≤ msg.length → 20 ≤ hash.length →
      Leakage.hash160 host ⟨"msg", 0, msg⟩ n "hash" hash = .ok (over (RIPEMD160 (SHA256 (msg.take n))) hash) t) ∧
    (∃ t, ∀ host msg hash, n ≤ msg.length → 32 ≤ hash.length →
      Leakage.hash256 host ⟨"msg", 0, msg⟩ n "hash" hash = .ok (over (SHA256 (SHA256 (msg.take n))) hash) t) :=
  ⟨⟨Leakage.sha2_256T "msg" 0 n "hash", fun host msg hash h h' => Leakage.sha2_256_shows host ⟨"msg", 0, msg⟩ n "hash" hash _
      (Sha2.sha2_256_eq host msg n hash h hn h')⟩,
   ⟨Leakage.sha2_512T "msg" 0 n "hash", fun host msg hash h h' => Leakage.sha2_512_shows host ⟨"msg", 0, msg⟩ n "hash" hash (by omega) _
      (Sha2.sha2_512_eq host msg n hash h hn h')⟩,
   ⟨Leakage.sha1T "msg" 0 n "hash", fun host msg hash h h' => Leakage.sha1_shows host ⟨"msg", 0, msg⟩ n "hash" hash _
      (Sha1.sha1_eq host msg n hash h hn h')⟩,
   ⟨Leakage.ripemd160T "msg" 0 n "hash", fun host msg hash h h' => Leakage.ripemd160_shows host ⟨"msg", 0, msg⟩ n "hash" hash _
      (Ripemd160.ripemd160_eq host msg n hash h hn h')⟩,
   ⟨Leakage.hash160T "msg" 0 n "hash", fun host msg hash h h' => Leakage.hash160_shows host ⟨"msg", 0, msg⟩ n "hash" hash _
      (BtcHash.hash160_eq host msg n hash h hn h')⟩,
   ⟨Leakage.hash256T "msg" 0 n "hash", fun host msg hash h h' => Leakage.hash256_shows host ⟨"msg", 0, msg⟩ n "hash" hash _
      (BtcHash.hash256_eq host msg n hash h hn h')⟩⟩

/-- C92, HMAC: what is seen depends on the lengths of key and message only. -/
theorem C92_hmac (kn n : Nat) (hk : kn < 2 ^ 61) (hn : n + 128 < 2 ^ 61) :
    (∃ t, ∀ host key msg out, kn ≤ key.length → n ≤ msg.length → 32 ≤ out.length →
      Leakage.hmac_sha256 host ⟨"key", 0, key⟩ kn ⟨"msg", 0, msg⟩ n "out" out =
        .ok (over (hmac SHA256 64 (key.take kn) (msg.take n)) out) t) ∧
    (∃ t, ∀ host key msg out, kn ≤ key.length → n ≤ msg.length → 64 ≤ out.length →
      Leakage.hmac_sha512 host ⟨"key", 0, key⟩ kn ⟨"msg", 0, msg⟩ n "out" out =
        .ok (over (hmac SHA512 128 (key.take kn) (msg.take n)) out) t) :=
  ⟨⟨Leakage.hmac256T "key" 0 kn "msg" 0 n "out", fun host key msg out h h' h'' => Leakage.hmac_sha256_shows host ⟨"key", 0, key⟩ kn ⟨"msg", 0, msg⟩ n "out" out _
      (Sha2.hmac_sha256_eq host key kn msg n out h hk h' (by omega) h'')⟩,
   ⟨Leakage.hmac512T "key" 0 kn "msg" 0 n "out", fun host key msg out h h' h'' => Leakage.hmac_sha512_shows host ⟨"key", 0, key⟩ kn ⟨"msg", 0, msg⟩ n "out" out _
      (Sha2.hmac_sha512_eq host key kn msg n out h hk h' (by omega) h'')⟩⟩

/-- C92, the double SHA-256 of many 64-byte blocks: what is seen depends on their number only. -/
theorem C92_hash256_d64 (k : Nat) : ∃ t, ∀ host out inp, 32 * k ≤ out.length → 64 * k ≤ inp.length →
    Leakage.hash256_d64 host "output" out ⟨"input", 0, inp⟩ k =
      .ok (over ((List.range k).flatMap fun i => SHA256 (SHA256 ((inp.drop (64 * i)).take 64))) out) t :=
  ⟨Leakage.d64LoopT "output" "input" 0 0 k, fun host out inp ho hi => Leakage.hash256_d64_shows host "output" out ⟨"input", 0, inp⟩ k _
    (C31_hash256_d64_digests host out inp k ho hi).1⟩

/-- C92, BIP32 hash: the same is always seen. -/
theorem C92_bip32_hash : ∃ t, ∀ host chain child header data out, chain.length = 32 → data.length = 32 → 64 ≤ out.length →
    Leakage.bip32_hash host ⟨"chain", 0, chain⟩ child header ⟨"data", 0, data⟩ "out" out =
      .ok (over (hmac SHA512 128 chain (header :: data ++ beBytes 4 child.toNat)) out) t :=
  ⟨Leakage.bip32T "chain" 0 "data" 0 "out", fun host chain child header data out hc hd ho =>
    Leakage.bip32_hash_shows host ⟨"chain", 0, chain⟩ child header ⟨"data", 0, data⟩ "out" out _
      (C32_bip32_hash host chain child header data out hc hd ho)⟩

/-- C92, master keys: what is seen depends on the length of the seed only. -/
theorem C92_exkey_init (n : Nat) (hn : n < 2 ^ 60) : ∃ t, ∀ host (buf : Exkey.ExKey) seed, seed.length = n → BufPriv buf →
    ∃ k, Exkey.exkeyInit host buf seed n = .ok k ∧ Leakage.exkeyInit host buf ⟨"seed", 0, seed⟩ n = .ok k t := by
  refine ⟨Leakage.hmac512T "hashkey" 0 12 "seed" 0 n "out" ++
        ([.store "key.ext.depth" 0 1, .store "key.ext.child" 0 4, .store "key.ext.fingerprint" 0 4] ++
        ([.load "out" 0 32, .store "key.key" 0 32] ++ ([.load "out" 32 32, .store "key.ext.chain_code" 0 32] ++
        ([.store "out" 0 64] ++ [])))), fun host buf seed hs hb => ?_⟩
  have h := C61_master_key host buf seed hb (by omega)
  rw [hs] at h
  exact ⟨_, h, Leakage.exkeyInit_shows host buf ⟨"seed", 0, seed⟩ n _ h⟩

theorem hardened_iff (child : U32) : decide (child >>> 31 ≠ 0#32) = decide (0x80000000 ≤ child.toNat) := by
  have e : (child >>> 31 ≠ 0#32) ↔ 0x80000000 ≤ child.toNat := by
    constructor
    · intro h
      have : (child >>> 31).toNat ≠ 0 := fun h' => h (BitVec.eq_of_toNat_eq h')
      rw [BitVec.toNat_ushiftRight, Nat.shiftRight_eq_div_pow] at this
      omega
    · intro h h'
      have := congrArg BitVec.toNat h'
      rw [BitVec.toNat_ushiftRight, Nat.shiftRight_eq_div_pow] at this
      have h0 : (0#32).toNat = 0 := rfl
      omega
  exact decide_eq_decide.mpr e

/-- C92, derivation from a private key: what is seen depends on whether the child is a hardened one, and not on key, chain code and
the rest of the index.  Not looked at: what happens inside libsecp256k1. -/
theorem C92_key_derive (nd hardened : Bool) : ∃ t, ∀ host key chain outKey outChain (child : U32), ValidKey key → 32 ≤ chain.length →
    32 ≤ outKey.length → 32 ≤ outChain.length → decide (0x80000000 ≤ child.toNat) = hardened →
    ∃ r, Key.keyDerive nd host key chain outKey outChain child = .ok r ∧
      Leakage.keyDerive nd host ⟨"key32", 0, key⟩ ⟨"chain32", 0, chain⟩ outKey outChain child = .ok r t := by
  refine ⟨Leakage.keyDeriveT nd "key32" 0 "chain32" 0 hardened, fun host key chain outKey outChain child hv hc ho ho' hh => ?_⟩
  have h := Key.keyDerive_eq nd host key chain outKey outChain child hv hc ho ho'
  refine ⟨_, h, ?_⟩
  have := Leakage.keyDerive_shows nd host ⟨"key32", 0, key⟩ ⟨"chain32", 0, chain⟩ outKey outChain child hv hc _ h
  rw [this, ← hh]
  rw [hardened_iff]

/-- C92, derivation of extended private keys: the same, and whether it succeeded. -/
theorem C92_exkey_derive (nd hardened : Bool) : ∃ t : Bool → List Leakage.Ev, ∀ host (key der : Exkey.ExKey) (child fp : U32),
    WfPriv key → BufPriv der → decide (0x80000000 ≤ child.toNat) = hardened →
    ∃ r ok, Exkey.exkeyDerive nd host key der child fp = .ok (r, ok) ∧
      Leakage.exkeyDerive nd host key der child fp = .ok (r, ok) (t ok) := by
  refine ⟨fun ok => Leakage.keyDeriveT nd "key.key" 0 "key.ext.chain_code" 0 hardened ++ ([.branch ok] ++
    (if ok then [.store "derived.ext.fingerprint" 0 4, .load "key.ext.depth" 0 1, .store "derived.ext.depth" 0 1,
      .store "derived.ext.child" 0 4] else [])), fun host key der child fp hk hd hh => ?_⟩
  obtain ⟨r, h⟩ : ∃ r, Key.keyDerive nd host key.key key.ext.chainCode der.key der.ext.chainCode child = .ok r :=
    ⟨_, Key.keyDerive_eq nd host key.key key.ext.chainCode der.key der.ext.chainCode child hk.1 (by rw [hk.2])
      (by rw [hd.1]) (by rw [hd.2])⟩
  have h2 := Leakage.keyDerive_shows nd host ⟨"key.key", 0, key.key⟩ ⟨"key.ext.chain_code", 0, key.ext.chainCode⟩ der.key
    der.ext.chainCode child hk.1 (by rw [hk.2]) _ h
  rw [hardened_iff, hh] at h2
  unfold Exkey.exkeyDerive Leakage.exkeyDerive
  rw [h, h2]
  obtain ⟨ok, k, c⟩ := r
  cases ok
  · exact ⟨_, false, rfl, rfl⟩
  · exact ⟨_, true, rfl, rfl⟩

/-- C92, extended keys to bytes and back: the same is always seen. -/
theorem C92_exkey_code : (∃ t, ∀ host (key : Exkey.ExKey) code, BufPriv key → 74 ≤ code.length →
      ∃ r, Exkey.exkeyEncode host key code = .ok r ∧ Leakage.exkeyEncode host key "code" code = .ok r t) ∧
    (∃ t, ∀ host (key : Exkey.ExKey) code, BufPriv key → 74 ≤ code.length →
      ∃ r, Exkey.exkeyDecode host code key = .ok r ∧ Leakage.exkeyDecode host ⟨"code", 0, code⟩ key = .ok r t) :=
  ⟨⟨Leakage.exkeyEncodeT "code", fun host key code hk hc =>
      have h := Exkey.exkeyEncode_eq host key code (by rw [hk.2]) (by rw [hk.1]) hc
      ⟨_, h, Leakage.exkeyEncode_shows host key "code" code _ h⟩⟩,
   ⟨[.load "code" 0 1, .store "key.ext.depth" 0 1] ++ ([.load "code" 1 4, .store "key.ext.fingerprint" 0 4] ++
      ([.load "code" 5 4, .store "key.ext.child" 0 4] ++ ([.load "code" 9 32, .store "key.ext.chain_code" 0 32] ++
      ([.load "code" 42 32, .store "key.key" 0 32] ++ [])))), fun host key code hk hc =>
      have h := Exkey.exkeyDecode_eq host code key hc hk.2 hk.1
      ⟨_, h, Leakage.exkeyDecode_shows host ⟨"code", 0, code⟩ key _ h⟩⟩⟩

/-! ## Texts -/

/-- C93 (what holds, hexadecimal). Apart from the accesses to the table of digits, what is seen while hexadecimal text is written depends
on the length of the data only.  Missing: those accesses (`C93_violated_hex`). -/
theorem C93_hex_partial (n : Nat) (upper : Bool) : ∃ t, ∀ buf str, n ≤ buf.length → Hex.toHexLength n ≤ str.length →
    ∃ t', Leakage.toHex ⟨"buf", 0, buf⟩ n str upper = .ok (over (HexSpec.encode upper (buf.take n)) str) t' ∧
      Leakage.besides (Leakage.hexTable upper) t' = t := by
  refine ⟨Leakage.besides (Leakage.hexTable upper) (.branch upper :: Leakage.hexT "buf" 0 upper 0 (List.replicate n 0#8)),
    fun buf str hn hs => ⟨_, Leakage.toHex_seen ⟨"buf", 0, buf⟩ n str upper hn (by rw [Nat.mul_comm]; exact hs), ?_⟩⟩
  have := Leakage.hexT_besides "buf" 0 upper (by cases upper <;> decide) (buf.take n) (List.replicate n 0#8) 0
    (by rw [List.length_take, List.length_replicate]; omega)
  unfold Leakage.besides at this ⊢
  rw [List.filter_cons_of_pos rfl, List.filter_cons_of_pos rfl]
  exact congrArg _ this

/-- C93 is violated, hexadecimal: what is seen while two pieces of data of the same length are written is the same only if the data
are the same. -/
theorem C93_violated_hex (a b o o' r r' : List Byte) (n : Nat) (upper : Bool) (t : List Leakage.Ev) (ha : n ≤ a.length)
    (hb : n ≤ b.length) (ho : Hex.toHexLength n ≤ o.length) (ho' : Hex.toHexLength n ≤ o'.length)
    (h : Leakage.toHex ⟨"buf", 0, a⟩ n o upper = .ok r t) (h' : Leakage.toHex ⟨"buf", 0, b⟩ n o' upper = .ok r' t) :
    a.take n = b.take n := by
  rw [Leakage.toHex_seen ⟨"buf", 0, a⟩ n o upper ha (by rw [Nat.mul_comm]; exact ho)] at h
  rw [Leakage.toHex_seen ⟨"buf", 0, b⟩ n o' upper hb (by rw [Nat.mul_comm]; exact ho')] at h'
  cases h
  injection h' with _ e
  exact (Leakage.hexT_inj _ _ _ _ _ _ (List.cons.inj e).2).symm

/-- C93 is violated, base 58: the same. -/
theorem C93_violated_base58 (a b o o' : List Byte) (r r' : List Byte × Nat) (t : List Leakage.Ev) (ha : a.length < 2 ^ 30)
    (hb : b.length < 2 ^ 30) (ho : Base58.toBase58Length a.length ≤ o.length) (ho' : Base58.toBase58Length b.length ≤ o'.length)
    (h : Leakage.toBase58 ⟨"buf", 0, a⟩ a.length o = .ok r t) (h' : Leakage.toBase58 ⟨"buf", 0, b⟩ b.length o' = .ok r' t) :
    a = b := by
  obtain ⟨x, e, q⟩ := Leakage.toBase58_text ⟨"buf", 0, a⟩ o (by simp) ha (Nat.le_trans (encode58_length_le a) ho)
  obtain ⟨y, e', q'⟩ := Leakage.toBase58_text ⟨"buf", 0, b⟩ o' (by simp) hb (Nat.le_trans (encode58_length_le b) ho')
  cases h.symm.trans e
  cases h'.symm.trans e'
  exact base58_inj a b (Leakage.text_inj (q.symm.trans q'))

/-- What is seen of two Base58Check texts of the same length is the same only if the data are. -/
theorem check_inj (host host' : Host) (buf buf' : Leakage.Ptr) (n m : Nat) (pre pre' str str' : List Byte) (r r' : List Byte × Nat)
    (t : List Leakage.Ev) (hobj : buf.obj = buf'.obj) (hbase : buf.base = buf'.base) (hn : n ≤ buf.mem.length) (hn' : n ≤ buf'.mem.length)
    (hm : m ≤ pre.length) (hm' : m ≤ pre'.length) (hsz : n + m + 4 < 2^30)
    (hs : (Base58CheckSpec.encode (pre.take m ++ buf.mem.take n)).length ≤ str.length)
    (hs' : (Base58CheckSpec.encode (pre'.take m ++ buf'.mem.take n)).length ≤ str'.length)
    (h : Leakage.toBase58Check host buf n pre m str = .ok r t) (h' : Leakage.toBase58Check host' buf' n pre' m str' = .ok r' t) :
    buf.mem.take n = buf'.mem.take n := by
  obtain ⟨x, e, q⟩ := Leakage.toBase58Check_text host buf n pre m str hn hm hsz hs
  obtain ⟨y, e', q'⟩ := Leakage.toBase58Check_text host' buf' n pre' m str' hn' hm' hsz hs'
  rw [h] at e
  rw [h', ← hobj, ← hbase] at e'
  injection e with _ e
  injection e' with _ e'
  have hxy := List.append_cancel_right (List.append_cancel_left (e.symm.trans e'))
  rw [hxy] at q
  have := base58check_inj _ _ (Leakage.text_inj (q.symm.trans q'))
  exact (List.append_inj this (by rw [List.length_take, List.length_take]; omega)).2

theorem after_inv {α : Type} {p : Leakage.Leak α} {s t : List Leakage.Ev} {a : α} (h : p.after s = .ok a t) :
    ∃ t', p = .ok a t' ∧ t = s ++ t' := by
  cases p with
  | ok b u => cases h; exact ⟨u, rfl, rfl⟩
  | ub => cases h
  | abort => cases h

theorem last_inv {α : Type} {p : Leakage.Leak α} {s t : List Leakage.Ev} {a : α}
    (h : (p >>= fun r => (pure r : Leakage.Leak α).after s) = .ok a t) : ∃ t', p = .ok a t' ∧ t = t' ++ (s ++ []) := by
  cases p with
  | ok b u => cases h; exact ⟨u, rfl, rfl⟩
  | ub => cases h
  | abort => cases h

/-- C93 is violated, private keys as text (`fingera_btc_key_to_string`): what is seen while two keys are written for the same kind of public
key is the same only if the keys are the same. -/
theorem C93_violated_wif (host host' : Host) (net net' : Network) (a b o o' : List Byte) (c : Bool) (r r' : List Byte × Nat)
    (t : List Leakage.Ev) (ha : a.length = 32) (hb : b.length = 32)
    (ho : Base58Check.toBase58CheckLength 32 8 ≤ o.length) (ho' : Base58Check.toBase58CheckLength 32 8 ≤ o'.length)
    (h : Leakage.keyToString host ⟨"key32", 0, a⟩ o c net.param = .ok r t)
    (h' : Leakage.keyToString host' ⟨"key32", 0, b⟩ o' c net'.param = .ok r' t) : a = b := by
  obtain ⟨n1, n2, n3⟩ := net_secret net
  obtain ⟨m1, m2, m3⟩ := net_secret net'
  have hl := Nat.le_trans (wif_length_le net a c ha) ho
  have hl' := Nat.le_trans (wif_length_le net' b c hb) ho'
  have hp : net'.param.prefixSecretKeySize = net.param.prefixSecretKeySize := by rw [m2, n2]
  rw [hp] at m1 m3
  unfold Leakage.keyToString at h h'
  rw [hp] at h'
  cases c with
  | false =>
    simp only [Leakage.branch, Leakage.seen_ok, Leakage.ok_bind, Bool.false_eq_true, if_false] at h h'
    obtain ⟨t1, h, e⟩ := after_inv h
    obtain ⟨t2, h', e'⟩ := after_inv h'
    rw [← List.append_cancel_left (e.symm.trans e')] at h'
    have e1 : WifSpec.payload net a false = net.param.prefixSecretKey.take net.param.prefixSecretKeySize ++ a.take 32 := by
      rw [n3, List.take_of_length_le (by omega)]; simp [WifSpec.payload]
    have e2 : WifSpec.payload net' b false = net'.param.prefixSecretKey.take net.param.prefixSecretKeySize ++ b.take 32 := by
      rw [m3, List.take_of_length_le (by omega)]; simp [WifSpec.payload]
    rw [WifSpec.wif, e1] at hl
    rw [WifSpec.wif, e2] at hl'
    have := check_inj host host' ⟨"key32", 0, a⟩ ⟨"key32", 0, b⟩ 32 _ _ _ o o' r r' t1 rfl rfl (by simp only [ha]; omega)
      (by simp only [hb]; omega) n1 m1 (by omega) hl hl' h h'
    rwa [List.take_of_length_le (by simp only [ha]; omega), List.take_of_length_le (by simp only [hb]; omega)] at this
  | true =>
    have e33 : ∀ key : List Byte, key.length = 32 → memcpy (List.replicate 33 0xAA#8) 0 key 32 = .ok (key ++ [0xAA#8]) := by
      intro key hk
      rw [memcpy_ok _ _ _ _ (by omega) (by simp), List.take_of_length_le (l := key) (by omega)]
      rfl
    have e34 : ∀ key : List Byte, key.length = 32 → wr (key ++ [0xAA#8]) 32 1#8 = .ok (key ++ [1#8]) := by
      intro key hk
      rw [wr, if_pos (by simp [hk]), List.set_append_right _ _ (by omega), hk]
      rfl
    simp only [Leakage.branch, Leakage.memcpyL, Leakage.cleanseL, Leakage.seen_ok, Leakage.ok_bind, if_true, e33 a ha, e33 b hb, e34 a ha,
      e34 b hb] at h h'
    obtain ⟨t1, h, e⟩ := after_inv h
    obtain ⟨t2, h', e'⟩ := after_inv h'
    rw [← List.append_cancel_left (e.symm.trans e')] at h'
    obtain ⟨t3, h, f⟩ := after_inv h
    obtain ⟨t4, h', f'⟩ := after_inv h'
    rw [← List.append_cancel_left (f.symm.trans f')] at h'
    obtain ⟨t5, h, g⟩ := after_inv h
    obtain ⟨t6, h', g'⟩ := after_inv h'
    rw [← List.append_cancel_left (g.symm.trans g')] at h'
    obtain ⟨t7, h, i⟩ := last_inv h
    obtain ⟨t8, h', i'⟩ := last_inv h'
    rw [← List.append_cancel_right (i.symm.trans i')] at h'
    have e1 : WifSpec.payload net a true = net.param.prefixSecretKey.take net.param.prefixSecretKeySize ++ (a ++ [1#8]).take 33 := by
      rw [n3, List.take_of_length_le (by simp [ha])]; simp [WifSpec.payload]
    have e2 : WifSpec.payload net' b true = net'.param.prefixSecretKey.take net.param.prefixSecretKeySize ++ (b ++ [1#8]).take 33 := by
      rw [m3, List.take_of_length_le (by simp [hb])]; simp [WifSpec.payload]
    rw [WifSpec.wif, e1] at hl
    rw [WifSpec.wif, e2] at hl'
    have := check_inj host host' ⟨"buf33", 0, a ++ [1#8]⟩ ⟨"buf33", 0, b ++ [1#8]⟩ 33 _ _ _ o o' r r' t7 rfl rfl (by simp [ha])
      (by simp [hb]) n1 m1 (by omega) hl hl' h h'
    rw [List.take_of_length_le (by simp [ha]), List.take_of_length_le (by simp [hb])] at this
    exact List.append_cancel_right this

/-- C93 is violated, extended private keys as text. -/
theorem C93_violated_exkey (host host' : Host) (net net' : Network) (a b : Exkey.ExKey) (o o' : List Byte) (r r' : List Byte × Nat)
    (t : List Leakage.Ev) (ha : BufPriv a) (hb : BufPriv b)
    (ho : Base58Check.toBase58CheckLength 74 8 ≤ o.length) (ho' : Base58Check.toBase58CheckLength 74 8 ≤ o'.length)
    (h : Leakage.exkeyToString host a o net.param = .ok r t)
    (h' : Leakage.exkeyToString host' b o' net'.param = .ok r' t) : a = b := by
  obtain ⟨n1, -, n3, -, n5, -, n7, -⟩ := net_ext net
  obtain ⟨m1, -, m3, -, m5, -, m7, -⟩ := net_ext net'
  have la := privBytes_length a ha
  have lb := privBytes_length b hb
  have enc : ∀ (host : Host) (k : Exkey.ExKey), BufPriv k → Leakage.exkeyEncode host k "extkey" (List.replicate 74 0xAA#8) =
      .ok (privBytes k) (Leakage.exkeyEncodeT "extkey") := by
    intro host k hk
    have h := Exkey.exkeyEncode_eq host k (List.replicate 74 0xAA#8) (by rw [hk.2]) (by rw [hk.1]) (by simp)
    rw [← privBytes_eq k hk, Exkey.over_all (by rw [privBytes_length k hk]; simp)] at h
    exact Leakage.exkeyEncode_shows host k "extkey" _ _ h
  unfold Leakage.exkeyToString at h h'
  rw [n1, enc host a ha] at h
  rw [m1, enc host' b hb] at h'
  simp only [Leakage.cleanseL, Leakage.seen_ok, Leakage.ok_bind] at h h'
  obtain ⟨t1, h, e⟩ := after_inv h
  obtain ⟨t2, h', e'⟩ := after_inv h'
  rw [← List.append_cancel_left (e.symm.trans e')] at h'
  obtain ⟨t3, h, f⟩ := last_inv h
  obtain ⟨t4, h', f'⟩ := last_inv h'
  rw [← List.append_cancel_right (f.symm.trans f')] at h'
  have hl := Nat.le_trans (ext_length_le net.extSecret (privBytes a) n7 la) ho
  have hl' := Nat.le_trans (ext_length_le net'.extSecret (privBytes b) m7 lb) ho'
  have ta : (privBytes a).take 74 = privBytes a := List.take_of_length_le (by omega)
  have tb : (privBytes b).take 74 = privBytes b := List.take_of_length_le (by omega)
  have := check_inj host host' ⟨"extkey", 0, privBytes a⟩ ⟨"extkey", 0, privBytes b⟩ 74 4 _ _ o o' r r' t3 rfl rfl (by simp only [la]; omega)
    (by simp only [lb]; omega) n3 m3 (by omega) (by rw [n5, ta]; exact hl) (by rw [m5, tb]; exact hl') h h'
  simp only [ta, tb] at this
  exact privBytes_inj a b ha hb this

/-! ## The observer gets the key -/

theorem recover_of_inj {κ : Type} (d : κ) (P : κ → List Leakage.Ev → Prop) (h : ∀ a b t, P a t → P b t → a = b) :
    ∃ f : List Leakage.Ev → κ, ∀ a t, P a t → f t = a := by
  classical
  refine ⟨fun t => if hx : ∃ a, P a t then hx.choose else d, fun a t hp => ?_⟩
  have hx : ∃ a, P a t := ⟨a, hp⟩
  simp only [dif_pos hx]
  exact h _ _ t hx.choose_spec hp

/-- C93 is violated, hexadecimal: from what is seen, and the length, the data follow. -/
theorem C93_violated_recover_hex (n : Nat) (upper : Bool) : ∃ recover : List Leakage.Ev → List Byte, ∀ buf str, n ≤ buf.length →
    Hex.toHexLength n ≤ str.length →
    ∃ t, Leakage.toHex ⟨"buf", 0, buf⟩ n str upper = .ok (over (HexSpec.encode upper (buf.take n)) str) t ∧ recover t = buf.take n := by
  obtain ⟨f, hf⟩ := recover_of_inj [] (fun d t => d.length = n ∧ ∃ buf str r, buf.take n = d ∧ n ≤ buf.length ∧ Hex.toHexLength n ≤ str.length ∧
    Leakage.toHex ⟨"buf", 0, buf⟩ n str upper = .ok r t) (by
      rintro a b t ⟨-, x, o, r, rfl, h1, h2, h3⟩ ⟨-, y, o', r', rfl, h4, h5, h6⟩
      exact C93_violated_hex x y o o' r r' n upper t h1 h4 h2 h5 h3 h6)
  refine ⟨f, fun buf str hn hs => ?_⟩
  have h := Leakage.toHex_seen ⟨"buf", 0, buf⟩ n str upper hn (by rw [Nat.mul_comm]; exact hs)
  exact ⟨_, h, hf _ _ ⟨by simp only [List.length_take]; omega, buf, str, _, rfl, hn, hs, h⟩⟩

theorem keyToString_runs (host : Host) (net : Network) (key str : List Byte) (c : Bool) (hk : key.length = 32)
    (hs : Base58Check.toBase58CheckLength 32 8 ≤ str.length) :
    ∃ t, Leakage.keyToString host ⟨"key32", 0, key⟩ str c net.param = .ok (over (WifSpec.wif net key c) str, (WifSpec.wif net key c).length) t := by
  obtain ⟨n1, n2, n3⟩ := net_secret net
  have hl := Nat.le_trans (wif_length_le net key c hk) hs
  unfold Leakage.keyToString
  cases c with
  | false =>
    have e1 : WifSpec.payload net key false = net.param.prefixSecretKey.take net.param.prefixSecretKeySize ++ key.take 32 := by
      rw [n3, List.take_of_length_le (by omega)]; simp [WifSpec.payload]
    rw [WifSpec.wif, e1] at hl ⊢
    obtain ⟨t, e, -⟩ := Leakage.toBase58Check_text host ⟨"key32", 0, key⟩ 32 net.param.prefixSecretKey net.param.prefixSecretKeySize str
      (by simp only [hk]; omega) n1 (by omega) hl
    simp only [Leakage.branch, Leakage.seen_ok, Leakage.ok_bind, Bool.false_eq_true, if_false, e]
    exact ⟨_, rfl⟩
  | true =>
    have e1 : WifSpec.payload net key true = net.param.prefixSecretKey.take net.param.prefixSecretKeySize ++ (key ++ [1#8]).take 33 := by
      rw [n3, List.take_of_length_le (by simp [hk])]; simp [WifSpec.payload]
    rw [WifSpec.wif, e1] at hl ⊢
    obtain ⟨t, e, -⟩ := Leakage.toBase58Check_text host ⟨"buf33", 0, key ++ [1#8]⟩ 33 net.param.prefixSecretKey net.param.prefixSecretKeySize str
      (by simp [hk]) n1 (by omega) hl
    have e33 : memcpy (List.replicate 33 0xAA#8) 0 key 32 = .ok (key ++ [0xAA#8]) := by
      rw [memcpy_ok _ _ _ _ (by omega) (by simp), List.take_of_length_le (l := key) (by omega)]
      rfl
    have e34 : wr (key ++ [0xAA#8]) 32 1#8 = .ok (key ++ [1#8]) := by
      rw [wr, if_pos (by simp [hk]), List.set_append_right _ _ (by omega), hk]
      rfl
    simp only [Leakage.branch, Leakage.memcpyL, Leakage.cleanseL, Leakage.seen_ok, Leakage.ok_bind, if_true, e33, e34, e]
    exact ⟨_, rfl⟩

/-- C93 is violated, private keys as text: the key follows from what is seen. -/
theorem C93_violated_recover_wif (c : Bool) : ∃ recover : List Leakage.Ev → List Byte, ∀ host (net : Network) key str, key.length = 32 →
    Base58Check.toBase58CheckLength 32 8 ≤ str.length →
    ∃ t, Leakage.keyToString host ⟨"key32", 0, key⟩ str c net.param =
        .ok (over (WifSpec.wif net key c) str, (WifSpec.wif net key c).length) t ∧ recover t = key := by
  obtain ⟨f, hf⟩ := recover_of_inj [] (fun k t => k.length = 32 ∧ ∃ host, ∃ net : Network, ∃ str r,
    Base58Check.toBase58CheckLength 32 8 ≤ str.length ∧ Leakage.keyToString host ⟨"key32", 0, k⟩ str c net.param = .ok r t) (by
      rintro a b t ⟨ha, h, n, o, r, h1, h2⟩ ⟨hb, h', n', o', r', h3, h4⟩
      exact C93_violated_wif h h' n n' a b o o' c r r' t ha hb h1 h3 h2 h4)
  refine ⟨f, fun host net key str hk hs => ?_⟩
  obtain ⟨t, h⟩ := keyToString_runs host net key str c hk hs
  exact ⟨t, h, hf _ _ ⟨hk, host, net, str, _, hs, h⟩⟩

theorem exkeyToString_runs (host : Host) (net : Network) (k : Exkey.ExKey) (str : List Byte) (hk : BufPriv k)
    (hs : Base58Check.toBase58CheckLength 74 8 ≤ str.length) :
    ∃ t, Leakage.exkeyToString host k str net.param = .ok (over (xprv net k) str, (xprv net k).length) t := by
  obtain ⟨n1, -, n3, -, n5, -, n7, -⟩ := net_ext net
  have la := privBytes_length k hk
  have hl := Nat.le_trans (ext_length_le net.extSecret (privBytes k) n7 la) hs
  have h := Exkey.exkeyEncode_eq host k (List.replicate 74 0xAA#8) (by rw [hk.2]) (by rw [hk.1]) (by simp)
  rw [← privBytes_eq k hk, Exkey.over_all (by rw [la]; simp)] at h
  have h2 := Leakage.exkeyEncode_shows host k "extkey" _ _ h
  have ta : (privBytes k).take 74 = privBytes k := List.take_of_length_le (by omega)
  obtain ⟨t, e, -⟩ := Leakage.toBase58Check_text host ⟨"extkey", 0, privBytes k⟩ 74 net.param.prefixExtSecretKey 4 str
    (by simp only [la]; omega) n3 (by omega) (by rw [n5, ta]; exact hl)
  unfold Leakage.exkeyToString
  rw [h2, n1]
  simp only [Leakage.cleanseL, Leakage.seen_ok, Leakage.ok_bind, e, n5, ta]
  exact ⟨_, rfl⟩

/-- C93 is violated, extended private keys as text: all of it follows from what is seen. -/
theorem C93_violated_recover_exkey : ∃ recover : List Leakage.Ev → Exkey.ExKey, ∀ host (net : Network) (k : Exkey.ExKey) str, BufPriv k →
    Base58Check.toBase58CheckLength 74 8 ≤ str.length →
    ∃ t, Leakage.exkeyToString host k str net.param = .ok (over (xprv net k) str, (xprv net k).length) t ∧ recover t = k := by
  obtain ⟨f, hf⟩ := recover_of_inj (⟨⟨0#8, 0#32, 0#32, []⟩, []⟩ : Exkey.ExKey) (fun k t => BufPriv k ∧ ∃ host, ∃ net : Network, ∃ str r,
    Base58Check.toBase58CheckLength 74 8 ≤ str.length ∧ Leakage.exkeyToString host k str net.param = .ok r t) (by
      rintro a b t ⟨ha, h, n, o, r, h1, h2⟩ ⟨hb, h', n', o', r', h3, h4⟩
      exact C93_violated_exkey h h' n n' a b o o' r r' t ha hb h1 h3 h2 h4)
  refine ⟨f, fun host net k str hk hs => ?_⟩
  obtain ⟨t, h⟩ := exkeyToString_runs host net k str hk hs
  exact ⟨t, h, hf _ _ ⟨hk, host, net, str, _, hs, h⟩⟩
