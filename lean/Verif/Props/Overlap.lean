import Verif.Lemmas.Overlap
import Verif.Props.Hash
import Verif.Props.Wif
/-! Property theorems C83 and C84: results written over the data they are computed from. -/
open Endian Sha2Spec Sha1Spec RipemdSpec HmacSpec WordSpec
open Base58 Base58Check AddressSpec

/-- The object `mem` with the bytes `w` at offset `b`. -/
def put (mem : List Byte) (b : Nat) (w : List Byte) : List Byte := mem.take b ++ w ++ mem.drop (b + w.length)

/-- The `n` bytes at offset `a` of an object. -/
def part (mem : List Byte) (a n : Nat) : List Byte := (mem.drop a).take n

theorem put_over (mem w : List Byte) (b : Nat) : mem.take b ++ over w (mem.drop b) = put mem b w := by
  unfold put over
  rw [List.drop_drop, List.append_assoc]

theorem at_ok (b : Nat) (f : List Byte → Res (List Byte)) (mem w : List Byte) (h : f (mem.drop b) = .ok (over w (mem.drop b))) :
    Overlap.at_ b f mem = .ok (put mem b w) := by
  unfold Overlap.at_; rw [h]; simp only [Res.ok_bind, Res.pure_eq, put_over]

/-- C83. A digest may be written anywhere into the object that holds the message, also over the message: every hash function writes the
digest of the message as it was before the call and changes nothing else. -/
theorem C83_digest_over_message (host : Host) (mem : List Byte) (a n b : Nat) (ha : a + n ≤ mem.length) (hn : n < 2 ^ 61) :
    (b + 20 ≤ mem.length → Overlap.sha1 host mem a n b = .ok (put mem b (SHA1 (part mem a n)))) ∧
    (b + 20 ≤ mem.length → Overlap.ripemd160 host mem a n b = .ok (put mem b (RIPEMD160 (part mem a n)))) ∧
    (b + 32 ≤ mem.length → Overlap.sha2_256 host mem a n b = .ok (put mem b (SHA256 (part mem a n)))) ∧
    (b + 64 ≤ mem.length → Overlap.sha2_512 host mem a n b = .ok (put mem b (SHA512 (part mem a n)))) ∧
    (b + 20 ≤ mem.length → Overlap.hash160 host mem a n b = .ok (put mem b (RIPEMD160 (SHA256 (part mem a n))))) ∧
    (b + 32 ≤ mem.length → Overlap.hash256 host mem a n b = .ok (put mem b (SHA256 (SHA256 (part mem a n))))) := by
  have hl : n ≤ (mem.drop a).length := by rw [List.length_drop]; omega
  have hd : ∀ k, b + k ≤ mem.length → k ≤ (mem.drop b).length := fun k h => by rw [List.length_drop]; omega
  refine ⟨fun h => ?_, fun h => ?_, fun h => ?_, fun h => ?_, fun h => ?_, fun h => ?_⟩
  · rw [Overlap.sha1_at host mem a n b (by omega)]
    exact at_ok _ _ _ _ (Sha1.sha1_eq host _ n _ hl hn (hd _ h))
  · rw [Overlap.ripemd160_at host mem a n b (by omega)]
    exact at_ok _ _ _ _ (Ripemd160.ripemd160_eq host _ n _ hl hn (hd _ h))
  · rw [Overlap.sha2_256_at host mem a n b (by omega)]
    exact at_ok _ _ _ _ (Sha2.sha2_256_eq host _ n _ hl hn (hd _ h))
  · rw [Overlap.sha2_512_at host mem a n b (by omega)]
    exact at_ok _ _ _ _ (Sha2.sha2_512_eq host _ n _ hl hn (hd _ h))
  · rw [Overlap.hash160_at host mem a n b]
    exact at_ok _ _ _ _ (BtcHash.hash160_eq host _ n _ hl hn (hd _ h))
  · rw [Overlap.hash256_at host mem a n b]
    exact at_ok _ _ _ _ (BtcHash.hash256_eq host _ n _ hl hn (hd _ h))

/-- A message of 50 bytes in an object of 64, its digest in the middle of it. -/
example : 3 + 50 ≤ (List.replicate 64 1#8).length ∧ 50 < 2 ^ 61 ∧ 10 + 32 ≤ (List.replicate 64 1#8).length := by decide

/-- C83. The same for the HMACs: key, message and code may overlap in any way. -/
theorem C83_hmac_over_inputs (host : Host) (mem : List Byte) (k kn a n b : Nat) (hk : k + kn ≤ mem.length) (hkn : kn < 2 ^ 61)
    (ha : a + n ≤ mem.length) (hn : n + 128 < 2 ^ 61) :
    (b + 32 ≤ mem.length →
      Overlap.hmac_sha256 host mem k kn a n b = .ok (put mem b (hmac SHA256 64 (part mem k kn) (part mem a n)))) ∧
    (b + 64 ≤ mem.length →
      Overlap.hmac_sha512 host mem k kn a n b = .ok (put mem b (hmac SHA512 128 (part mem k kn) (part mem a n)))) := by
  have hl : n ≤ (mem.drop a).length := by rw [List.length_drop]; omega
  have hkl : kn ≤ (mem.drop k).length := by rw [List.length_drop]; omega
  have hd : ∀ k, b + k ≤ mem.length → k ≤ (mem.drop b).length := fun k h => by rw [List.length_drop]; omega
  refine ⟨fun h => ?_, fun h => ?_⟩
  · rw [Overlap.hmac_sha256_at host mem k kn a n b (by omega)]
    exact at_ok _ _ _ _ (C29_hmac_sha256 host _ kn _ n _ hkl hkn hl (by omega) (hd _ h))
  · rw [Overlap.hmac_sha512_at host mem k kn a n b (by omega)]
    exact at_ok _ _ _ _ (C30_hmac_sha512 host _ kn _ n _ hkl hkn hl hn (hd _ h))

example : 0 + 100 ≤ (List.replicate 200 1#8).length ∧ 100 < 2 ^ 61 ∧ 50 + 100 ≤ (List.replicate 200 1#8).length ∧ 100 + 128 < 2 ^ 61 ∧
    20 + 64 ≤ (List.replicate 200 1#8).length := by simp only [List.length_replicate]; omega

/-- C83. The BIP 32 hash may be written over its chain code and its data. -/
theorem C83_bip32_hash_over_inputs (host : Host) (mem : List Byte) (c : Nat) (child : U32) (header : Byte) (d b : Nat)
    (hc : c + 32 ≤ mem.length) (hd : d + 32 ≤ mem.length) (hb : b + 64 ≤ mem.length) :
    Overlap.bip32_hash host mem c child header d b =
      .ok (put mem b (hmac SHA512 128 (part mem c 32) (header :: part mem d 32 ++ WordSpec.beBytes 4 child.toNat))) := by
  rw [Overlap.bip32_hash_at host mem c child header d b (by omega)]
  exact at_ok _ _ _ _ (BtcHash.bip32_hash_eq host _ child header _ _ (by rw [List.length_drop]; omega) (by rw [List.length_drop]; omega)
    (by rw [List.length_drop]; omega))

example : 0 + 32 ≤ (List.replicate 64 1#8).length ∧ 32 + 32 ≤ (List.replicate 64 1#8).length ∧ 0 + 64 ≤ (List.replicate 64 1#8).length := by
  decide

/-- A function called with argument and result in one object does what it does with the argument in a place of its own, wherever the two
begin: `f` on one object (argument at offset `a`, `n` bytes, result at offset `b`), `g` with argument and result given separately. -/
def SameAnywhere (f : List Byte → Nat → Nat → Nat → Res (List Byte × Nat))
    (g : List Byte → Nat → List Byte → Res (List Byte × Nat)) : Prop :=
  ∀ mem a n b, a ≤ mem.length → b ≤ mem.length →
    f mem a n b = (do let (buf, r) ← g (mem.drop a) n (mem.drop b); pure (mem.take b ++ buf, r))

/-- C84. Base58 and Base58Check conversion, in both directions, and the five address encoders give the same result (value, bytes
written, rest untouched, and the same undefined behaviour, if any) when their output lies anywhere in the object of their input as with
a copy of the input elsewhere. -/
theorem C84_conversions_in_place (host : Host) (cs nd : Bool) (pre : List Byte) (pn outSize : Nat) (param : ChainParameters) :
    SameAnywhere Overlap.toBase58 Base58.toBase58 ∧
    SameAnywhere (Overlap.fromBase58 cs) (Base58.fromBase58 cs) ∧
    SameAnywhere (Overlap.toBase58Check host pre pn) (fun buf n str => Base58Check.toBase58Check host buf n pre pn str) ∧
    SameAnywhere (Overlap.fromBase58Check host cs) (Base58Check.fromBase58Check host cs) ∧
    SameAnywhere (Overlap.toAddressPubkey host outSize param) (fun id n out => Address.toAddressPubkey host id n out outSize param) ∧
    SameAnywhere (Overlap.toAddressScript host outSize param) (fun id n out => Address.toAddressScript host id n out outSize param) ∧
    SameAnywhere (Overlap.toAddressWitnessV0Keyhash nd outSize param)
      (fun id n out => Address.toAddressWitnessV0Keyhash nd id n out outSize param) ∧
    SameAnywhere (Overlap.toAddressWitnessV0Scripthash nd outSize param)
      (fun id n out => Address.toAddressWitnessV0Scripthash nd id n out outSize param) ∧
    SameAnywhere (Overlap.toAddressWitnessUnknown outSize param)
      (fun id n out => Address.toAddressWitnessUnknown id n out outSize param) :=
  ⟨fun mem a n b _ hb => Overlap.toBase58_at mem a n b hb, fun mem a n b _ hb => Overlap.fromBase58_at cs mem a n b hb,
    fun mem a n b _ _ => Overlap.toBase58Check_at host pre pn mem a n b,
    fun mem a n b _ hb => Overlap.fromBase58Check_at host cs mem a n b hb,
    fun mem a n b _ _ => Overlap.toAddressPubkey_at host outSize param mem a n b,
    fun mem a n b _ _ => Overlap.toAddressScript_at host outSize param mem a n b,
    fun mem a n b _ _ => Overlap.toAddressWitnessV0Keyhash_at nd outSize param mem a n b,
    fun mem a n b _ _ => Overlap.toAddressWitnessV0Scripthash_at nd outSize param mem a n b,
    fun mem a n b _ _ => Overlap.toAddressWitnessUnknown_at outSize param mem a n b⟩

/-- A non-trivial run: two bytes at offset 1 become the text at offset 0, over them. -/
example : Overlap.toBase58 ([9, 0x0D, 0x24, 9] ++ [9]) 1 2 0 = .ok (cstr "211" ++ [9, 9], 3) := by decide +kernel
example : Overlap.fromBase58 true (cstr "211" ++ [0, 9]) 0 3 0 = .ok ([0x0D, 0x24] ++ cstr "1" ++ [0, 9], 2) := by decide +kernel

theorem skipZeroes_prefix (bs rest : List Byte) : ∀ k p, p + k ≤ bs.length →
    Base58.skipZeroes (bs ++ rest) k p = Base58.skipZeroes bs k p := by
  intro k
  induction k with
  | zero => intro p _; rfl
  | succ k ih =>
    intro p h
    unfold Base58.skipZeroes
    have hr : rd (bs ++ rest) p = rd bs p := by unfold rd; rw [List.getElem?_append_left (by omega)]
    rw [hr]
    cases rd bs p with
    | ub => rfl
    | abort => rfl
    | ok c =>
      simp only [Res.ok_bind]
      split
      · exact ih (p + 1) (by omega)
      · rfl

theorem forLoop_prefix {σ : Type} (f g : Nat → σ → Res σ) (hi : Nat) (h : ∀ i, i < hi → f i = g i) :
    ∀ k i s, i + k ≤ hi → forLoop f i k s = forLoop g i k s := by
  intro k
  induction k with
  | zero => intro i s _; rfl
  | succ k ih =>
    intro i s hk
    rw [forLoop, forLoop, h i (by omega)]
    congr 1; funext s'
    exact ih _ _ (by omega)

/-- `fingera_to_base58` looks at its input only. -/
theorem toBase58_prefix (bs rest str : List Byte) : Base58.toBase58 (bs ++ rest) bs.length str = Base58.toBase58 bs bs.length str := by
  unfold Base58.toBase58
  rw [skipZeroes_prefix bs rest bs.length 0 (by omega), Base58.skipZeroes_eq bs bs.length 0 (by omega)]
  simp only [Res.ok_bind, List.drop_zero, List.take_length, Nat.zero_add]
  have hz : (bs.takeWhile (· = 0#8)).length ≤ bs.length := (List.takeWhile_sublist _).length_le
  generalize (bs.takeWhile (· = 0#8)).length = z at hz ⊢
  split
  · rfl
  · rw [forLoop_prefix (Base58.encBody (bs ++ rest) _) (Base58.encBody bs _) bs.length (fun i hi => by
      funext st
      unfold Base58.encBody
      have hr : rd (bs ++ rest) i = rd bs i := by unfold rd; rw [List.getElem?_append_left (by omega)]
      rw [hr]) _ _ _ (by omega)]

/-- C84. Base58 round trip in one buffer: the data are replaced by their text, the text (with a NUL put behind it) by the data. -/
theorem C84_base58_roundtrip_in_place (cs : Bool) (bs rest : List Byte) (hn : bs.length ≤ 2000000)
    (hr : Base58.toBase58Length bs.length + 1 ≤ bs.length + rest.length) :
    ∃ mem m, Overlap.toBase58 (bs ++ rest) 0 bs.length 0 = .ok (mem, m) ∧ m + 1 ≤ mem.length ∧ mem.take m = Base58Spec.encode bs ∧
      ∃ tail, Overlap.fromBase58 cs (put mem m [0#8]) 0 m 0 = .ok (bs ++ tail, bs.length) := by
  have hlen := encode58_length_le bs
  have hsig : significant bs ≤ 1556147570 := by
    have : significant bs ≤ bs.length := (List.dropWhile_suffix _).length_le
    omega
  have h1 := (C13_to_base58_any bs (bs ++ rest)).1 hsig (by rw [List.length_append]; omega)
  have hover : (over (Base58Spec.encode bs) (bs ++ rest)).length = bs.length + rest.length := by
    rw [over_length _ _ (by rw [List.length_append]; omega), List.length_append]
  have htake : (over (Base58Spec.encode bs) (bs ++ rest)).take (Base58Spec.encode bs).length = Base58Spec.encode bs :=
    BtcHash.take_over rfl
  refine ⟨over (Base58Spec.encode bs) (bs ++ rest), (Base58Spec.encode bs).length, ?_, by omega, htake, ?_⟩
  · rw [Overlap.toBase58_at _ _ _ _ (by omega)]
    unfold Overlap.atV
    rw [List.drop_zero, toBase58_prefix, h1]
    simp
  · rw [Overlap.fromBase58_at cs _ _ _ _ (by omega)]
    unfold Overlap.atV
    rw [List.drop_zero]
    have hput : put (over (Base58Spec.encode bs) (bs ++ rest)) (Base58Spec.encode bs).length [0#8] =
        Base58Spec.encode bs ++ 0#8 :: (over (Base58Spec.encode bs) (bs ++ rest)).drop ((Base58Spec.encode bs).length + 1) := by
      unfold put; rw [htake, List.append_assoc]; rfl
    rw [hput]
    generalize hX : (over (Base58Spec.encode bs) (bs ++ rest)).drop ((Base58Spec.encode bs).length + 1) = X
    have hXl : X.length = bs.length + rest.length - ((Base58Spec.encode bs).length + 1) := by rw [← hX, List.length_drop, hover]
    have hlimit : Base58.toBase58Length 2000000 = 2760002 := by decide
    have hmono : Base58.toBase58Length bs.length ≤ 2760002 := by
      rw [← hlimit]; unfold Base58.toBase58Length; omega
    have hread := readable_of cs (Base58Spec.encode bs) (fun _ b hb => (encode58_chars bs b hb).2.2.1) (by omega)
    have h2 := (((Base58.fromBase58_total cs (Base58Spec.encode bs) X (Base58Spec.encode bs ++ 0#8 :: X)
      (fun b hb => (encode58_chars bs b hb).2.1)).2 hread.1 hread.2).2 bs (decode_encode58 bs)).1 (by
        rw [List.length_append, List.length_cons, hXl]; omega)
    rw [h2]
    exact ⟨_, rfl⟩

example : Base58.toBase58Length 3 + 1 ≤ [1#8, 2, 3].length + (List.replicate 4 0#8).length := by decide

/-- C84. A secret key may be written over its text and the text over the key. -/
theorem C84_secret_keys_in_place (nd : Bool) (host : Host) (cs : Bool) (net : Network) (c : Bool) (flag : Int) (mem : List Byte)
    (a n b : Nat) (hb : b ≤ mem.length) :
    Overlap.keyToString host c net.param mem a b =
      (do let (str, r) ← Key.keyToString host (mem.drop a) (mem.drop b) c net.param; pure (mem.take b ++ str, r)) ∧
    Overlap.keyFromString nd host cs flag net.param mem a n b =
      (do let r ← Key.keyFromString nd host cs (mem.drop a) n (mem.drop b) flag net.param
          pure ⟨r.ok, mem.take b ++ r.key32, r.isCompressed⟩) :=
  ⟨Overlap.keyToString_at host c net.param mem a b, Overlap.keyFromString_at nd host cs flag net.param mem a n b hb⟩

/-- C84, addresses, the part that holds: an address that is decoded with a copy of the text elsewhere is decoded with the output over
the text too if it is a Base58 address, or if the text contains a character Base58 does not know (among those of Bech32 texts: `0` or
`l`) so that nothing is written before the text is read again. -/
theorem C84_address_in_place_partial (net : Network) (host : Host) (cs : Bool) (stack s post pre out : List Byte) (b : Nat)
    (outSize : Nat) (r : Address.Decoded) (h0 : ∀ c ∈ s, c ≠ 0#8) (hb : b ≤ pre.length + s.length + 1 + post.length)
    (hout : out = (pre ++ s ++ 0#8 :: post).drop b)
    (hr : Address.addressDecode host cs stack (s ++ 0#8 :: post) s.length out outSize net.param = .ok r)
    (hk : r.kind = .pubkey ∨ r.kind = .script ∨ Base58Spec.decode? s = none) :
    Overlap.addressDecode host cs stack outSize net.param (pre ++ s ++ 0#8 :: post) pre.length s.length b =
      .ok ⟨r.kind, (pre ++ s ++ 0#8 :: post).take b ++ r.out, r.outSize⟩ := by
  have hdrop : (pre ++ s ++ 0#8 :: post).drop pre.length = s ++ 0#8 :: post := by rw [List.append_assoc, List.drop_left]
  refine Overlap.addressDecode_at host cs stack outSize net.param _ pre.length s.length b ?_ r ?_ ?_
  · simp only [List.length_append, List.length_cons]; omega
  · rw [hdrop, ← hout]; exact hr
  · rcases hk with hk | hk | hk
    · exact .inl hk
    · exact .inr (.inl hk)
    · refine .inr (.inr fun buf size h => ?_)
      rw [hdrop, ← hout] at h
      rw [← hout]
      obtain ⟨u1, u2⟩ := fromBase58_total cs s post out h0
      by_cases hbad : Base58Spec.TooLong s ∨ (cs = true ∧ Base58Spec.MeetsNegative s)
      · rw [u1 hbad] at h; cases h
      · rw [(u2 (fun h => hbad (.inl h)) (fun h => hbad (.inr h))).1 hk] at h
        cases h; rfl

/-- The address of the key hash FF … FF contains an `l`; it is decoded over itself. -/
example : ∃ out, Overlap.addressDecode .little true (List.replicate 128 0#8) 43 mainnet
    (cstr "bc1qllllllllllllllllllllllllllllllllfglmy6" ++ [0#8]) 0 42 0 = .ok ⟨.witnessV0Keyhash, out, 20⟩ ∧
    out.take 20 = List.replicate 20 0xFF#8 := by
  refine ⟨List.replicate 20 0xFF ++ (cstr "bc1qllllllllllllllllllllllllllllllllfglmy6" ++ [0#8]).drop 20, ?_, by decide +kernel⟩
  decide +kernel

/-- The outcome is a normal one with the property `P`. -/
def returns (P : Address.Decoded → Bool) (r : Res Address.Decoded) : Bool := match r with | .ok d => P d | _ => false

theorem ok_of_check (P : Address.Decoded → Bool) (r : Res Address.Decoded) (h : returns P r = true) :
    ∃ d, r = .ok d ∧ P d = true := by
  cases r with
  | ok d => exact ⟨d, rfl, h⟩
  | ub => cases h
  | abort => cases h

/-- C84 is violated by the code for addresses: the mainnet address of the key hash 55…55 happens to be a Base58 text; it is decoded when
the output is elsewhere, but when the output is the text's own buffer the Base58 attempt overwrites the text before it is read as
Bech32, and the address is rejected. -/
theorem C84_violated_address_in_place :
    Address.toAddressWitnessV0Keyhash false (List.replicate 20 0x55) 20 (List.replicate 42 0) 42 mainnet =
        .ok (cstr "bc1q2424242424242424242424242424242484yscm", 42) ∧
    (∃ out, Address.addressDecode .little true (List.replicate 128 0#8)
        (cstr "bc1q2424242424242424242424242424242484yscm" ++ [0#8]) 42
        (cstr "bc1q2424242424242424242424242424242484yscm" ++ [0#8]) 43 mainnet = .ok ⟨.witnessV0Keyhash, out, 20⟩ ∧
      out.take 20 = List.replicate 20 0x55#8) ∧
    (∃ out n, Overlap.addressDecode .little true (List.replicate 128 0#8) 43 mainnet
        (cstr "bc1q2424242424242424242424242424242484yscm" ++ [0#8]) 0 42 0 = .ok ⟨.bad, out, n⟩) := by
  refine ⟨by decide +kernel, ?_, ?_⟩
  · have hc : returns (fun d => d.kind == .witnessV0Keyhash && d.outSize == 20 && d.out.take 20 == List.replicate 20 0x55#8)
        (Address.addressDecode .little true (List.replicate 128 0#8) (cstr "bc1q2424242424242424242424242424242484yscm" ++ [0#8]) 42
        (cstr "bc1q2424242424242424242424242424242484yscm" ++ [0#8]) 43 mainnet) = true := by decide +kernel
    obtain ⟨⟨k, o, m⟩, h, hp⟩ := ok_of_check _ _ hc
    simp only [Bool.and_eq_true, beq_iff_eq] at hp
    obtain ⟨⟨h1, h2⟩, h3⟩ := hp
    subst h1 h2
    exact ⟨o, h, h3⟩
  · have hc : returns (fun d => d.kind == .bad) (Overlap.addressDecode .little true (List.replicate 128 0#8) 43 mainnet
        (cstr "bc1q2424242424242424242424242424242484yscm" ++ [0#8]) 0 42 0) = true := by decide +kernel
    obtain ⟨⟨k, o, m⟩, h, hp⟩ := ok_of_check _ _ hc
    simp only [beq_iff_eq] at hp
    subst hp
    exact ⟨o, m, h⟩
