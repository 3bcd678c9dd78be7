import Verif.Lemmas.TextPrefix
import Verif.Props.Address
import Verif.Props.Exkey
/-!
Property theorem C73: how the texts the library writes begin and how long they are, for every key, hash and program.
-/
open Address AddressSpec Exkey Key TextPrefix

/-- One of the characters of a set, followed by exactly `n` characters. -/
def Begins (set : String) (n : Nat) (text : List Byte) : Prop :=
  ∃ c ∈ set.toList, ∃ t : List Byte, text = chr c :: t ∧ t.length = n

/-- `word`, followed by exactly `n` characters. -/
def BeginsWord (word : String) (n : Nat) (text : List Byte) : Prop :=
  ∃ t : List Byte, text = cstr word ++ t ∧ t.length = n

theorem digit1 (q : Nat) (h : 0 < q) (h2 : q < 58) : (Positional.digits 58 q).map Base58Spec.char = [Base58Spec.char q] := by
  rw [Positional.digits_pos 58 q (by omega) (by omega), Nat.div_eq_of_lt h2, Positional.digits_zero, Nat.mod_eq_of_lt h2]
  rfl

/-- A text whose first digit is between `lo` and `hi - 1`. -/
theorem begins_of {pre rest : List Byte} (set : String) (lo hi k m : Nat) (hm : rest.length = m)
    (hz : (pre ++ rest).head? ≠ some 0#8) (hlo : 0 < lo) (hhi : hi ≤ 58)
    (h1 : lo * 58 ^ k ≤ Base58Spec.number pre * 256 ^ m) (h2 : (Base58Spec.number pre + 1) * 256 ^ m ≤ hi * 58 ^ k)
    (hs : ∀ q : Fin 58, lo ≤ q.1 → q.1 < hi → ∃ c ∈ set.toList, Base58Spec.char q.1 = chr c) :
    Begins set k (Base58Spec.encode (pre ++ rest)) := by
  obtain ⟨q, t, a, b, c, d⟩ := encode_top pre rest lo hi k m hm hz hlo h1 h2
  obtain ⟨ch, e1, e2⟩ := hs ⟨q, by omega⟩ a b
  rw [digit1 q (by omega) (by omega), e2] at c
  exact ⟨ch, e1, t, c, d⟩

/-- A text whose first digits are those of `q`. -/
theorem begins_word_of {pre rest : List Byte} (word : String) (q k m : Nat) (hm : rest.length = m)
    (hz : (pre ++ rest).head? ≠ some 0#8) (hlo : 0 < q)
    (h1 : q * 58 ^ k ≤ Base58Spec.number pre * 256 ^ m) (h2 : (Base58Spec.number pre + 1) * 256 ^ m ≤ (q + 1) * 58 ^ k)
    (hs : (Positional.digits 58 q).map Base58Spec.char = cstr word) :
    BeginsWord word k (Base58Spec.encode (pre ++ rest)) := by
  obtain ⟨q', t, a, b, c, d⟩ := encode_top pre rest q (q + 1) k m hm hz hlo h1 h2
  have : q' = q := by omega
  rw [this, hs] at c
  exact ⟨t, c, d⟩

theorem text_P2PKH (net : Network) (hash : List Byte) (h : hash.length = 20) :
    if net = .main then (base58 net.pubkeyVersion hash).head? = some (chr '1') ∧
        25 ≤ (base58 net.pubkeyVersion hash).length ∧ (base58 net.pubkeyVersion hash).length ≤ 34
    else Begins "mn" 33 (base58 net.pubkeyVersion hash) := by
  have hl : ∀ v : Byte, (hash ++ Base58CheckSpec.checksum (v :: hash)).length = 24 := by
    intro v; rw [List.length_append, Base58Check.checksum_length]; omega
  have test : Begins "mn" 33 (base58 0x6F#8 hash) :=
    begins_of (pre := [0x6F#8]) "mn" 44 46 33 24 (hl _) (by simp) (by omega) (by omega) (by decide +kernel) (by decide +kernel)
      (by decide +kernel)
  cases net with
  | test => exact test
  | reg => exact test
  | main =>
    refine ⟨?_, ?_, ?_⟩
    · show (Base58Spec.encode (0#8 :: (hash ++ _))).head? = _
      rw [Base58Spec.encode, List.takeWhile_cons_of_pos (by simp), List.length_cons, List.replicate_succ]
      rfl
    · have := encode_length_ge (0#8 :: (hash ++ Base58CheckSpec.checksum (0#8 :: hash)))
      rw [List.length_cons, hl] at this
      exact this
    · exact encode_zero_length _ (hl _)

theorem text_P2SH (net : Network) (hash : List Byte) (h : hash.length = 20) :
    if net = .main then Begins "3" 33 (base58 net.scriptVersion hash) else Begins "2" 34 (base58 net.scriptVersion hash) := by
  have hl : ∀ v : Byte, (hash ++ Base58CheckSpec.checksum (v :: hash)).length = 24 := by
    intro v; rw [List.length_append, Base58Check.checksum_length]; omega
  have test : Begins "2" 34 (base58 0xC4#8 hash) :=
    begins_of (pre := [0xC4#8]) "2" 1 2 34 24 (hl _) (by simp) (by omega) (by omega) (by decide +kernel) (by decide +kernel)
      (by decide +kernel)
  cases net with
  | test => exact test
  | reg => exact test
  | main =>
    exact begins_of (pre := [0x05#8]) "3" 2 3 33 24 (hl _) (by simp) (by omega) (by omega) (by decide +kernel)
      (by decide +kernel) (by decide +kernel)

theorem text_wif (net : Network) (key : List Byte) (h : key.length = 32) (c : Bool) :
    match net, c with
    | .main, false => Begins "5" 50 (WifSpec.wif net key c)
    | .main, true => Begins "KL" 51 (WifSpec.wif net key c)
    | _, false => Begins "9" 50 (WifSpec.wif net key c)
    | _, true => Begins "c" 51 (WifSpec.wif net key c) := by
  have l0 : ∀ v : Byte, ((key ++ []) ++ Base58CheckSpec.checksum (v :: (key ++ []))).length = 36 := by
    intro v; rw [List.length_append, Base58Check.checksum_length, List.append_nil]; omega
  have l1 : ∀ v : Byte, ((key ++ [1#8]) ++ Base58CheckSpec.checksum (v :: (key ++ [1#8]))).length = 37 := by
    intro v; rw [List.length_append, Base58Check.checksum_length, List.length_append]; simp; omega
  have t0 : Begins "9" 50 (WifSpec.wif .test key false) :=
    begins_of (pre := [0xEF#8]) "9" 8 9 50 36 (l0 _) (by simp) (by omega) (by omega) (by decide +kernel) (by decide +kernel)
      (by decide +kernel)
  have t1 : Begins "c" 51 (WifSpec.wif .test key true) :=
    begins_of (pre := [0xEF#8]) "c" 35 36 51 37 (l1 _) (by simp) (by omega) (by omega) (by decide +kernel) (by decide +kernel)
      (by decide +kernel)
  cases net with
  | test => cases c <;> assumption
  | reg => cases c <;> assumption
  | main =>
    cases c with
    | false =>
      exact begins_of (pre := [0x80#8]) "5" 4 5 50 36 (l0 _) (by simp) (by omega) (by omega) (by decide +kernel)
        (by decide +kernel) (by decide +kernel)
    | true =>
      exact begins_of (pre := [0x80#8]) "KL" 18 20 51 37 (l1 _) (by simp) (by omega) (by omega) (by decide +kernel)
        (by decide +kernel) (by decide +kernel)

theorem text_ext {pre code : List Byte} (word : String) (q : Nat) (hc : code.length = 74) (hz : (pre ++ code).head? ≠ some 0#8)
    (hlo : 0 < q) (h1 : q * 58 ^ 107 ≤ Base58Spec.number pre * 256 ^ 78)
    (h2 : (Base58Spec.number pre + 1) * 256 ^ 78 ≤ (q + 1) * 58 ^ 107)
    (hs : (Positional.digits 58 q).map Base58Spec.char = cstr word) :
    BeginsWord word 107 (Base58CheckSpec.encode (pre ++ code)) := by
  rw [Base58CheckSpec.encode, List.append_assoc]
  refine begins_word_of word q 107 78 ?_ ?_ hlo h1 h2 hs
  · rw [List.length_append, Base58Check.checksum_length, hc]
  · rw [← List.append_assoc]
    cases h : pre ++ code with
    | nil => rw [List.append_eq_nil_iff] at h; rw [h.2] at hc; cases hc
    | cons a b => rw [h] at hz; simpa using hz

theorem text_xprv (net : Network) (k : ExKey) (hk : BufPriv k) :
    BeginsWord (match net with | .main => "xprv" | _ => "tprv") 107 (xprv net k) := by
  have tp : BeginsWord "tprv" 107 (Base58CheckSpec.encode ([0x04#8, 0x35#8, 0x83#8, 0x94#8] ++ privBytes k)) :=
    text_ext "tprv" 10111715 (privBytes_length k hk) (by simp) (by omega) (by decide +kernel) (by decide +kernel) (by decide +kernel)
  cases net with
  | main =>
    exact text_ext (pre := [0x04#8, 0x88#8, 0xAD#8, 0xE4#8]) "xprv" 10892163 (privBytes_length k hk) (by simp) (by omega)
      (by decide +kernel) (by decide +kernel) (by decide +kernel)
  | test => exact tp
  | reg => exact tp

theorem text_xpub (net : Network) (pk : ExPubkey) (hpk : BufPub pk) :
    BeginsWord (match net with | .main => "xpub" | _ => "tpub") 107 (xpub net pk) := by
  have tp : BeginsWord "tpub" 107 (Base58CheckSpec.encode ([0x04#8, 0x35#8, 0x87#8, 0xCF#8] ++ pubBytes pk)) :=
    text_ext "tpub" 10111870 (pubBytes_length pk hpk) (by simp) (by omega) (by decide +kernel) (by decide +kernel) (by decide +kernel)
  cases net with
  | main =>
    exact text_ext (pre := [0x04#8, 0x88#8, 0xB2#8, 0x1E#8]) "xpub" 10892318 (pubBytes_length pk hpk) (by simp) (by omega)
      (by decide +kernel) (by decide +kernel) (by decide +kernel)
  | test => exact tp
  | reg => exact tp

/-- C73, addresses of hashes.  P2PKH: mainnet `1…` (25 to 34 characters), testnet and regtest `m…` or `n…` (34); P2SH: mainnet
`3…` (34), testnet and regtest `2…` (35). -/
theorem C73_base58_addresses (net : Network) (host : Host) (hash out : List Byte) (h : hash.length = 20) (ho : 36 ≤ out.length) :
    ∃ p s, toAddressPubkey host hash 20 out out.length net.param = .ok (over p out, p.length) ∧
      toAddressScript host hash 20 out out.length net.param = .ok (over s out, s.length) ∧
      (match net with
        | .main => p.head? = some (chr '1') ∧ 25 ≤ p.length ∧ p.length ≤ 34 ∧ Begins "3" 33 s
        | .test | .reg => Begins "mn" 33 p ∧ Begins "2" 34 s) := by
  have e := C41_base58_encoders net host hash out out.length (by omega) (Nat.le_refl _)
  rw [h] at e
  have e36 : Base58Check.toBase58CheckLength 20 1 = 36 := rfl
  rw [e36, if_neg (by omega), if_neg (by omega)] at e
  refine ⟨_, _, e.1, e.2.1, ?_⟩
  have a := text_P2PKH net hash h
  have b := text_P2SH net hash h
  cases net with
  | main =>
    rw [if_pos rfl] at a b
    exact ⟨a.1, a.2.1, a.2.2, b⟩
  | test => exact ⟨a, b⟩
  | reg => exact ⟨a, b⟩

/-- C73, witness addresses: `bc1q…`, `tb1q…`, `bcrt1q…` for version 0; the human-readable part, `1` and the version's character
otherwise. -/
theorem C73_witness_addresses (net : Network) (nd : Bool) (kh sh prog out : List Byte) (v : Byte) (hk : kh.length = 20)
    (hs : sh.length = 32) (hv : 1 ≤ v.toNat ∧ v.toNat ≤ 16) (hp : 2 ≤ prog.length ∧ prog.length ≤ 40) (ho : 77 ≤ out.length) :
    ∃ a b c, toAddressWitnessV0Keyhash nd kh 20 out out.length net.param = .ok (over a out, a.length) ∧
      toAddressWitnessV0Scripthash nd sh 32 out out.length net.param = .ok (over b out, b.length) ∧
      toAddressWitnessUnknown (v :: prog) (prog.length + 1) out out.length net.param = .ok (over c out, c.length) ∧
      BeginsWord (match net with | .main => "bc1q" | .test => "tb1q" | .reg => "bcrt1q") 38 a ∧
      BeginsWord (match net with | .main => "bc1q" | .test => "tb1q" | .reg => "bcrt1q") 58 b ∧
      BeginsWord (match net with | .main => "bc1" | .test => "tb1" | .reg => "bcrt1") (7 + (8 * prog.length + 4) / 5) c := by
  have wl : ∀ (v : Byte) (p : List Byte), ∃ t, witness net.hrp v p = net.hrp ++ [49#8, Bech32Spec.char v] ++ t ∧
      t.length = (8 * p.length + 4) / 5 + 6 := fun v p => witness_split net.hrp v p
  have h4 := (net_hrp net).2.2.1
  have e1 := (C41_witness_v0_encoders net nd kh out out.length (Nat.le_refl _)).1
  have e2 := (C41_witness_v0_encoders net nd sh out out.length (Nat.le_refl _)).2
  have e3 := (C41_witness_unknown_encoder net (v :: prog) out out.length (Nat.le_refl _)).2 v prog rfl hp.1 hp.2
  have l1 := C41_witness_length net 0#8 kh
  have l2 := C41_witness_length net 0#8 sh
  have l3 := C41_witness_length net v prog
  rw [hk] at e1 l1
  rw [hs] at e2 l2
  rw [if_pos rfl, if_neg (by omega)] at e1
  rw [if_pos rfl, if_neg (by omega)] at e2
  rw [if_pos ⟨hv.1, hv.2, by omega⟩, List.length_cons] at e3
  refine ⟨_, _, _, e1, e2, e3, ?_, ?_, ?_⟩
  · obtain ⟨t, h1, h2⟩ := wl 0#8 kh
    refine ⟨t, ?_, by omega⟩
    rw [h1]; cases net <;> rfl
  · obtain ⟨t, h1, h2⟩ := wl 0#8 sh
    refine ⟨t, ?_, by omega⟩
    rw [h1]; cases net <;> rfl
  · obtain ⟨t, h1, h2⟩ := wl v prog
    refine ⟨Bech32Spec.char v :: t, ?_, by rw [List.length_cons]; omega⟩
    rw [h1]; cases net <;> simp [Network.hrp] <;> rfl

/-- C73, secret keys: mainnet `5…` (51 characters) for uncompressed, `K…` or `L…` (52) for compressed public keys; testnet and
regtest `9…` and `c…`. -/
theorem C73_secret_keys (net : Network) (host : Host) (key out : List Byte) (h : key.length = 32)
    (ho : Base58Check.toBase58CheckLength 32 8 ≤ out.length) :
    ∃ u c, keyToString host key out false net.param = .ok (over u out, u.length) ∧
      keyToString host key out true net.param = .ok (over c out, c.length) ∧
      (match net with
        | .main => Begins "5" 50 u ∧ Begins "KL" 51 c
        | .test | .reg => Begins "9" 50 u ∧ Begins "c" 51 c) := by
  refine ⟨_, _, C45_key_to_string host net key out false h ho, C45_key_to_string host net key out true h ho, ?_⟩
  have a := text_wif net key h false
  have b := text_wif net key h true
  cases net <;> exact ⟨a, b⟩

/-- C73, extended keys: 111 characters, `xprv…` and `xpub…` on mainnet, `tprv…` and `tpub…` on testnet and regtest. -/
theorem C73_extended_keys (net : Network) (host : Host) (k : ExKey) (pk : ExPubkey) (out : List Byte) (hk : BufPriv k)
    (hpk : BufPub pk) (ho : Base58Check.toBase58CheckLength 74 8 ≤ out.length) :
    ∃ s p, exkeyToString host k out net.param = .ok (over s out, s.length) ∧
      expubkeyToString host pk out net.param = .ok (over p out, p.length) ∧
      BeginsWord (match net with | .main => "xprv" | _ => "tprv") 107 s ∧
      BeginsWord (match net with | .main => "xpub" | _ => "tpub") 107 p := by
  obtain ⟨e1, e2⟩ := C54_to_string host net k pk out hk hpk ho
  exact ⟨_, _, e1, e2, text_xprv net k hk, text_xpub net pk hpk⟩

/-- The shortest and the longest mainnet form. -/
example : (base58 0x00#8 (List.replicate 20 0#8)).length = 27 ∧ (base58 0x00#8 (List.replicate 20 0xFF#8)).length = 34 := by
  decide +kernel

/-- The master key of the BIP's first test vector, as an instance. -/
example : BeginsWord "xprv" 107 vector1Text := ⟨vector1Text.drop 4, by decide +kernel, by decide +kernel⟩
