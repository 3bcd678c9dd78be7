import Verif.Model.Overlap
import Verif.Lemmas.Basic
/-! Lemmas about functions whose arguments and results lie in one object (`Verif.Model.Overlap`). -/
namespace Overlap
open Endian

/-- What happens behind `pre`. -/
def behind (pre : List Byte) (r : Res (List Byte)) : Res (List Byte) := r.bind fun s => .ok (pre ++ s)

@[simp] theorem behind_ok (pre s : List Byte) : behind pre (.ok s) = .ok (pre ++ s) := rfl
@[simp] theorem behind_ub (pre : List Byte) : behind pre .ub = .ub := rfl
@[simp] theorem behind_abort (pre : List Byte) : behind pre .abort = .abort := rfl

theorem at_eq (b : Nat) (f : List Byte → Res (List Byte)) (mem : List Byte) : at_ b f mem = behind (mem.take b) (f (mem.drop b)) := by
  unfold at_ behind; cases f (mem.drop b) <;> rfl

theorem behind_bind (pre : List Byte) (r : Res (List Byte)) (f : List Byte → Res (List Byte)) :
    (behind pre r >>= f) = r >>= fun s => f (pre ++ s) := by cases r <;> rfl

theorem bind_behind {α : Type} (pre : List Byte) (r : Res α) (f : α → Res (List Byte)) :
    behind pre (r >>= f) = r >>= fun s => behind pre (f s) := by cases r <;> rfl

theorem memcpy_behind (pre s : List Byte) (off : Nat) (src : List Byte) (n : Nat) :
    memcpy (pre ++ s) (pre.length + off) src n = behind pre (memcpy s off src n) := by
  unfold memcpy
  by_cases h : n ≤ src.length ∧ off + n ≤ s.length
  · rw [if_pos h, if_pos (by rw [List.length_append]; omega), behind_ok]
    congr 1
    rw [List.take_append, List.drop_append, List.take_of_length_le (by omega), List.drop_of_length_le (l := pre) (by omega),
      show pre.length + off - pre.length = off by omega, show pre.length + off + n - pre.length = off + n by omega]
    simp only [List.append_assoc, List.nil_append]
  · rw [if_neg h, if_neg (by rw [List.length_append]; omega), behind_ub]

theorem memset_behind (pre s : List Byte) (off : Nat) (v : Byte) (n : Nat) :
    memset (pre ++ s) (pre.length + off) v n = behind pre (memset s off v n) := by
  unfold memset
  by_cases h : off + n ≤ s.length
  · rw [if_pos h, if_pos (by rw [List.length_append]; omega), behind_ok]
    congr 1
    rw [List.take_append, List.drop_append, List.take_of_length_le (by omega), List.drop_of_length_le (l := pre) (by omega),
      show pre.length + off - pre.length = off by omega, show pre.length + off + n - pre.length = off + n by omega]
    simp only [List.append_assoc, List.nil_append]
  · rw [if_neg h, if_neg (by rw [List.length_append]; omega), behind_ub]

theorem wr_behind (pre s : List Byte) (i : Nat) (v : Byte) : wr (pre ++ s) (pre.length + i) v = behind pre (wr s i v) := by
  unfold wr
  by_cases h : i < s.length
  · rw [if_pos h, if_pos (by rw [List.length_append]; omega), behind_ok, List.set_append, if_neg (by omega),
      show pre.length + i - pre.length = i by omega]
  · rw [if_neg h, if_neg (by rw [List.length_append]; omega), behind_ub]

theorem forLoop_behind (pre : List Byte) (f g : Nat → List Byte → Res (List Byte))
    (h : ∀ i s, f i (pre ++ s) = behind pre (g i s)) (k : Nat) :
    ∀ i s, forLoop f i k (pre ++ s) = behind pre (forLoop g i k s) := by
  induction k with
  | zero => intro i s; rfl
  | succ k ih =>
    intro i s
    rw [forLoop, forLoop, h, behind_bind, bind_behind]
    congr 1; funext s'
    exact ih _ _

theorem storeBig32_behind (host : Host) (pre : List Byte) (ws : List U32) :
    ∀ s off, Sha2.storeBig32 host (pre ++ s) (pre.length + off) ws = behind pre (Sha2.storeBig32 host s off ws) := by
  induction ws with
  | nil => intro s off; rfl
  | cons w ws ih =>
    intro s off
    rw [Sha2.storeBig32, Sha2.storeBig32, store32, store32, memcpy_behind, behind_bind, bind_behind]
    congr 1; funext s'
    rw [Nat.add_assoc]; exact ih _ _

theorem storeLittle32_behind (host : Host) (pre : List Byte) (ws : List U32) :
    ∀ s off, Ripemd160.storeLittle32 host (pre ++ s) (pre.length + off) ws = behind pre (Ripemd160.storeLittle32 host s off ws) := by
  induction ws with
  | nil => intro s off; rfl
  | cons w ws ih =>
    intro s off
    rw [Ripemd160.storeLittle32, Ripemd160.storeLittle32, store32, store32, memcpy_behind, behind_bind, bind_behind]
    congr 1; funext s'
    rw [Nat.add_assoc]; exact ih _ _

theorem storeBig64_behind (host : Host) (pre : List Byte) (ws : List U64) :
    ∀ s off, Sha2.storeBig64 host (pre ++ s) (pre.length + off) ws = behind pre (Sha2.storeBig64 host s off ws) := by
  induction ws with
  | nil => intro s off; rfl
  | cons w ws ih =>
    intro s off
    rw [Sha2.storeBig64, Sha2.storeBig64, store64, store64, memcpy_behind, behind_bind, bind_behind]
    congr 1; funext s'
    rw [Nat.add_assoc]; exact ih _ _

section
variable (host : Host) (mem : List Byte) (b : Nat) (hb : b ≤ mem.length)
include hb

theorem len_take : (mem.take b).length = b := by rw [List.length_take]; omega

theorem storeBig32_at (ws : List U32) : Sha2.storeBig32 host mem b ws = at_ b (fun s => Sha2.storeBig32 host s 0 ws) mem := by
  have h := storeBig32_behind host (mem.take b) ws (mem.drop b) 0
  rw [List.take_append_drop, len_take mem b hb, Nat.add_zero] at h
  rw [h, at_eq]

theorem storeLittle32_at (ws : List U32) :
    Ripemd160.storeLittle32 host mem b ws = at_ b (fun s => Ripemd160.storeLittle32 host s 0 ws) mem := by
  have h := storeLittle32_behind host (mem.take b) ws (mem.drop b) 0
  rw [List.take_append_drop, len_take mem b hb, Nat.add_zero] at h
  rw [h, at_eq]

theorem storeBig64_at (ws : List U64) : Sha2.storeBig64 host mem b ws = at_ b (fun s => Sha2.storeBig64 host s 0 ws) mem := by
  have h := storeBig64_behind host (mem.take b) ws (mem.drop b) 0
  rw [List.take_append_drop, len_take mem b hb, Nat.add_zero] at h
  rw [h, at_eq]

theorem memcpy_at (src : List Byte) (n : Nat) : memcpy mem b src n = at_ b (fun s => memcpy s 0 src n) mem := by
  have h := memcpy_behind (mem.take b) (mem.drop b) 0 src n
  rw [List.take_append_drop, len_take mem b hb, Nat.add_zero] at h
  rw [h, at_eq]

theorem memset_at (v : Byte) (n : Nat) : memset mem b v n = at_ b (fun s => memset s 0 v n) mem := by
  have h := memset_behind (mem.take b) (mem.drop b) 0 v n
  rw [List.take_append_drop, len_take mem b hb, Nat.add_zero] at h
  rw [h, at_eq]

end

/-- `at_` and the binds of the models. -/
theorem at_bind {α : Type} (r : Res α) (f : α → List Byte → Res (List Byte)) (b : Nat) (mem : List Byte) :
    (r >>= fun x => at_ b (f x) mem) = at_ b (fun s => r >>= fun x => f x s) mem := by cases r <;> rfl

theorem sha1_at (host : Host) (mem : List Byte) (a n b : Nat) (hb : b ≤ mem.length) :
    sha1 host mem a n b = at_ b (Sha1.sha1 host (mem.drop a) n) mem := by
  unfold sha1 Sha1.sha1
  simp only [storeBig32_at host mem b hb]
  rw [at_bind]

theorem ripemd160_at (host : Host) (mem : List Byte) (a n b : Nat) (hb : b ≤ mem.length) :
    ripemd160 host mem a n b = at_ b (Ripemd160.ripemd160 host (mem.drop a) n) mem := by
  unfold ripemd160 Ripemd160.ripemd160
  simp only [storeLittle32_at host mem b hb]
  rw [at_bind]

theorem sha2_256_at (host : Host) (mem : List Byte) (a n b : Nat) (hb : b ≤ mem.length) :
    sha2_256 host mem a n b = at_ b (Sha2.sha2_256 host (mem.drop a) n) mem := by
  unfold sha2_256 Sha2.sha2_256
  simp only [storeBig32_at host mem b hb]
  rw [at_bind]

theorem sha2_512_at (host : Host) (mem : List Byte) (a n b : Nat) (hb : b ≤ mem.length) :
    sha2_512 host mem a n b = at_ b (Sha2.sha2_512 host (mem.drop a) n) mem := by
  unfold sha2_512 Sha2.sha2_512
  simp only [storeBig64_at host mem b hb]
  rw [at_bind]

theorem hmac_sha256_at (host : Host) (mem : List Byte) (k kn a n b : Nat) (hb : b ≤ mem.length) :
    hmac_sha256 host mem k kn a n b = at_ b (Sha2.hmac_sha256 host (mem.drop k) kn (mem.drop a) n) mem := by
  unfold hmac_sha256 Sha2.hmac_sha256
  simp only [storeBig32_at host mem b hb, at_bind]

theorem hmac_sha512_at (host : Host) (mem : List Byte) (k kn a n b : Nat) (hb : b ≤ mem.length) :
    hmac_sha512 host mem k kn a n b = at_ b (Sha2.hmac_sha512 host (mem.drop k) kn (mem.drop a) n) mem := by
  unfold hmac_sha512 Sha2.hmac_sha512
  simp only [storeBig64_at host mem b hb, at_bind]

theorem hash160_at (host : Host) (mem : List Byte) (a n b : Nat) :
    hash160 host mem a n b = at_ b (BtcHash.hash160 host (mem.drop a) n) mem := by
  unfold hash160 BtcHash.hash160
  simp only [at_bind]

theorem hash256_at (host : Host) (mem : List Byte) (a n b : Nat) :
    hash256 host mem a n b = at_ b (BtcHash.hash256 host (mem.drop a) n) mem := by
  unfold hash256 BtcHash.hash256
  simp only [at_bind]

theorem bip32_hash_at (host : Host) (mem : List Byte) (c : Nat) (child : U32) (header : Byte) (d b : Nat) (hb : b ≤ mem.length) :
    bip32_hash host mem c child header d b = at_ b (BtcHash.bip32_hash host (mem.drop c) child header (mem.drop d)) mem := by
  unfold bip32_hash BtcHash.bip32_hash Sha2.hmac_sha512
  simp only [storeBig64_at host mem b hb, at_bind]

/-! Base58. -/

theorem atV_bind {α β : Type} (r : Res α) (f : α → List Byte → Res (List Byte × β)) (b : Nat) (mem : List Byte) :
    (r >>= fun x => atV b (f x) mem) = atV b (fun s => r >>= fun x => f x s) mem := by cases r <;> rfl

theorem at_then {β : Type} (b : Nat) (f : List Byte → Res (List Byte)) (mem : List Byte) (v : β) :
    (at_ b f mem >>= fun m => pure (m, v)) = atV b (fun s => f s >>= fun m => pure (m, v)) mem := by
  unfold at_ atV
  dsimp only
  cases f (mem.drop b) <;> rfl

theorem out58_at (mem : List Byte) (b : Nat) (hb : b ≤ mem.length) (v : Byte) (zeroes : Nat) (f : Nat → Nat → List Byte → Res (List Byte))
    (hf : ∀ pre s i off, f (List.length pre + off) i (pre ++ s) = behind pre (f off i s)) (i k r : Nat) :
    (do let mem ← memset mem b v zeroes
        let mem ← forLoop (f (b + zeroes)) i k mem
        pure (mem, r)) =
    atV b (fun str => do
        let str ← memset str 0 v zeroes
        let str ← forLoop (f zeroes) i k str
        pure (str, r)) mem := by
  rw [memset_at mem b hb]
  unfold at_ atV
  dsimp only
  cases memset (mem.drop b) 0 v zeroes with
  | ub => rfl
  | abort => rfl
  | ok s =>
    simp only [Res.ok_bind, Res.pure_eq]
    rw [forLoop_behind (mem.take b) (f (b + zeroes)) (f zeroes) (fun i s => by
      have h := hf (mem.take b) s i zeroes
      rwa [len_take mem b hb] at h) k i s]
    cases forLoop (f zeroes) i k s <;> rfl

theorem toBase58_at (mem : List Byte) (a n b : Nat) (hb : b ≤ mem.length) :
    toBase58 mem a n b = atV b (Base58.toBase58 (mem.drop a) n) mem := by
  have hf : ∀ (b58 : List Byte) (it : Nat) (pre s : List Byte) (i off : Nat),
      Base58.encOut b58 (pre.length + off) it i (pre ++ s) = behind pre (Base58.encOut b58 off it i s) := by
    intro b58 it pre s i off
    unfold Base58.encOut
    simp only [Nat.add_assoc, wr_behind, bind_behind]
  unfold toBase58 Base58.toBase58
  rw [← atV_bind]
  congr 1; funext zeroes
  dsimp only
  by_cases h : (n - zeroes) * 138 / 100 + 1 ≥ 2 ^ 31
  · simp only [if_pos h]; rfl
  · simp only [if_neg h]
    rw [← atV_bind]
    congr 1; funext x
    rw [← atV_bind]
    congr 1; funext iter
    exact out58_at mem b hb _ _ (fun off => Base58.encOut x.1 off iter) (hf x.1 iter) _ _ _

theorem fromBase58_at (cs : Bool) (mem : List Byte) (a n b : Nat) (hb : b ≤ mem.length) :
    fromBase58 cs mem a n b = atV b (Base58.fromBase58 cs (mem.drop a) n) mem := by
  have hf : ∀ (b256 : List Byte) (it : Nat) (pre s : List Byte) (i off : Nat),
      Base58.decOut b256 (pre.length + off) it i (pre ++ s) = behind pre (Base58.decOut b256 off it i s) := by
    intro b58 it pre s i off
    unfold Base58.decOut
    simp only [Nat.add_assoc, wr_behind, bind_behind]
  have hp : ∀ r : Nat, (pure (mem, r) : Res (List Byte × Nat)) = atV b (fun s => pure (s, r)) mem := by
    intro r; unfold atV; simp [List.take_append_drop]
  unfold fromBase58 Base58.fromBase58
  rw [← atV_bind]
  congr 1; funext x
  obtain ⟨x1, x2⟩ := x
  dsimp only
  rw [← atV_bind]
  congr 1; funext y
  obtain ⟨y1, y2⟩ := y
  dsimp only
  by_cases h : y2 ≥ 2 ^ 31
  · simp only [if_pos h]; rfl
  · simp only [if_neg h]
    rw [← atV_bind]
    congr 1; funext size
    rw [← atV_bind]
    congr 1; funext z
    cases z with
    | none => exact hp 0
    | some z =>
      obtain ⟨z1, z2, z3⟩ := z
      dsimp only
      rw [← atV_bind]
      congr 1; funext str4
      rw [← atV_bind]
      congr 1; funext c
      by_cases hc : c ≠ 0#8
      · simp only [if_pos hc]; exact hp 0
      · simp only [if_neg hc]
        rw [← atV_bind]
        congr 1; funext it
        exact out58_at mem b hb _ _ (fun off => Base58.decOut z2 off it) (hf z2 it) _ _ _

theorem toBase58Check_at (host : Host) (pre : List Byte) (prefixSize : Nat) (mem : List Byte) (a n b : Nat) :
    toBase58Check host pre prefixSize mem a n b =
      atV b (Base58Check.toBase58Check host (mem.drop a) n pre prefixSize) mem := by
  unfold toBase58Check Base58Check.toBase58Check
  simp only [atV_bind]

theorem atV_pure {α : Type} (b : Nat) (mem : List Byte) (r : α) :
    (pure (mem, r) : Res (List Byte × α)) = atV b (fun s => pure (s, r)) mem := by
  unfold atV; simp [List.take_append_drop]

theorem drop_put (mem buf : List Byte) (b : Nat) (hb : b ≤ mem.length) : (mem.take b ++ buf).drop b = buf := by
  rw [List.drop_append, len_take mem b hb, List.drop_of_length_le (by rw [len_take mem b hb]; omega), Nat.sub_self, List.drop_zero,
    List.nil_append]

theorem take_put (mem buf : List Byte) (b : Nat) (hb : b ≤ mem.length) : (mem.take b ++ buf).take b = mem.take b := by
  rw [List.take_append, len_take mem b hb, Nat.sub_self, List.take_zero, List.append_nil,
    List.take_of_length_le (by rw [len_take mem b hb]; omega)]

theorem fromBase58Check_at (host : Host) (cs : Bool) (mem : List Byte) (a n b : Nat) (hb : b ≤ mem.length) :
    fromBase58Check host cs mem a n b = atV b (Base58Check.fromBase58Check host cs (mem.drop a) n) mem := by
  unfold fromBase58Check Base58Check.fromBase58Check
  dsimp only
  rw [fromBase58_at cs mem a n b hb]
  unfold atV
  dsimp only
  cases Base58.fromBase58 cs (mem.drop a) n (mem.drop b) with
  | ub => rfl
  | abort => rfl
  | ok r =>
    obtain ⟨buf, size⟩ := r
    simp only [Res.ok_bind, Res.pure_eq]
    by_cases h4 : size < 4
    · simp only [if_pos h4, Res.ok_bind]
    · simp only [if_neg h4]
      rw [drop_put mem buf b hb]
      cases BtcHash.hash256 host buf (size - 4) (List.replicate 32 0xAA#8) with
      | ub => rfl
      | abort => rfl
      | ok hash =>
        simp only [Res.ok_bind]
        cases memeq hash (buf.drop (size - 4)) 4 with
        | ub => rfl
        | abort => rfl
        | ok same => cases same <;> rfl

theorem keyToString_at (host : Host) (isCompressed : Bool) (param : ChainParameters) (mem : List Byte) (a b : Nat) :
    keyToString host isCompressed param mem a b = atV b (fun s => Key.keyToString host (mem.drop a) s isCompressed param) mem := by
  unfold keyToString Key.keyToString
  cases isCompressed with
  | true =>
    rw [if_pos rfl]
    simp only [if_pos]
    simp only [atV_bind]
  | false =>
    rw [if_neg (by decide), toBase58Check_at]
    simp only [Bool.false_eq_true, if_false]

theorem witnessEncode_at (buffer : List Byte) (version : Byte) (outSize : Nat) (param : ChainParameters) (mem : List Byte) (a n b : Nat) :
    witnessEncode buffer version outSize param mem a n b =
      atV b (fun s => Address.witnessEncode buffer version (mem.drop a) n s outSize param) mem := by
  unfold witnessEncode Address.witnessEncode
  rw [← atV_bind]
  congr 1; funext buf
  rw [← atV_bind]
  congr 1; funext x
  obtain ⟨rest, m⟩ := x
  dsimp only
  by_cases h : outSize < Bech32.encodeLength param.bech32HrpSize (m + 1)
  · simp only [if_pos h]; exact atV_pure b mem 0
  · simp only [if_neg h]; exact at_then b _ mem _

theorem toAddressPubkey_at (host : Host) (outSize : Nat) (param : ChainParameters) (mem : List Byte) (a n b : Nat) :
    toAddressPubkey host outSize param mem a n b =
      atV b (fun s => Address.toAddressPubkey host (mem.drop a) n s outSize param) mem := by
  unfold toAddressPubkey Address.toAddressPubkey
  by_cases h : outSize < Base58Check.toBase58CheckLength n param.prefixPubkeyAddressSize
  · simp only [if_pos h]; exact atV_pure b mem 0
  · simp only [if_neg h]; exact toBase58Check_at host _ _ mem a n b

theorem toAddressScript_at (host : Host) (outSize : Nat) (param : ChainParameters) (mem : List Byte) (a n b : Nat) :
    toAddressScript host outSize param mem a n b =
      atV b (fun s => Address.toAddressScript host (mem.drop a) n s outSize param) mem := by
  unfold toAddressScript Address.toAddressScript
  by_cases h : outSize < Base58Check.toBase58CheckLength n param.prefixScriptAddressSize
  · simp only [if_pos h]; exact atV_pure b mem 0
  · simp only [if_neg h]; exact toBase58Check_at host _ _ mem a n b

theorem toAddressWitnessV0Keyhash_at (nd : Bool) (outSize : Nat) (param : ChainParameters) (mem : List Byte) (a n b : Nat) :
    toAddressWitnessV0Keyhash nd outSize param mem a n b =
      atV b (fun s => Address.toAddressWitnessV0Keyhash nd (mem.drop a) n s outSize param) mem := by
  unfold toAddressWitnessV0Keyhash Address.toAddressWitnessV0Keyhash
  rw [← atV_bind]
  congr 1; funext _
  by_cases h : n ≠ 20
  · simp only [if_pos h]; exact atV_pure b mem 0
  · simp only [if_neg h]; exact witnessEncode_at _ _ _ _ mem a n b

theorem toAddressWitnessV0Scripthash_at (nd : Bool) (outSize : Nat) (param : ChainParameters) (mem : List Byte) (a n b : Nat) :
    toAddressWitnessV0Scripthash nd outSize param mem a n b =
      atV b (fun s => Address.toAddressWitnessV0Scripthash nd (mem.drop a) n s outSize param) mem := by
  unfold toAddressWitnessV0Scripthash Address.toAddressWitnessV0Scripthash
  rw [← atV_bind]
  congr 1; funext _
  by_cases h : n ≠ 32
  · simp only [if_pos h]; exact atV_pure b mem 0
  · simp only [if_neg h]; exact witnessEncode_at _ _ _ _ mem a n b

theorem toAddressWitnessUnknown_at (outSize : Nat) (param : ChainParameters) (mem : List Byte) (a n b : Nat) :
    toAddressWitnessUnknown outSize param mem a n b =
      atV b (fun s => Address.toAddressWitnessUnknown (mem.drop a) n s outSize param) mem := by
  unfold toAddressWitnessUnknown Address.toAddressWitnessUnknown
  by_cases h : n < 3 ∨ n > 41
  · simp only [if_pos h]; exact atV_pure b mem 0
  · simp only [if_neg h]
    rw [← atV_bind]
    congr 1; funext v
    by_cases hv : v.toNat < 1 ∨ v.toNat > 16
    · simp only [if_pos hv]; exact atV_pure b mem 0
    · simp only [if_neg hv]
      rw [witnessEncode_at, List.drop_drop]

/-- A decoded address with the object its output is part of. -/
def whole (mem : List Byte) (b : Nat) (r : Res Address.Decoded) : Res Address.Decoded :=
  r >>= fun d => pure ⟨d.kind, mem.take b ++ d.out, d.outSize⟩

theorem whole_bind {α : Type} (mem : List Byte) (b : Nat) (r : Res α) (f : α → Res Address.Decoded) :
    whole mem b (r >>= f) = r >>= fun x => whole mem b (f x) := by cases r <;> rfl

theorem whole_bad (mem : List Byte) (b : Nat) (k : Address.Kind) (r : Nat) :
    (pure ⟨k, mem, r⟩ : Res Address.Decoded) = whole mem b (pure ⟨k, mem.drop b, r⟩) := by
  unfold whole; simp [List.take_append_drop]

theorem decodeBech32_at (cs : Bool) (stack : List Byte) (outSize : Nat) (param : ChainParameters) (mem : List Byte) (a n b : Nat) :
    decodeBech32 cs stack outSize param mem a n b =
      whole mem b (Address.decodeBech32 cs stack (mem.drop a) n (mem.drop b) outSize param) := by
  unfold decodeBech32 Address.decodeBech32
  rw [whole_bind]
  congr 1; funext r
  by_cases h : r.ret < 1 ∨ r.hrpSize ≠ param.bech32HrpSize
  · rw [if_pos h, if_pos h]; exact whole_bad mem b _ _
  · rw [if_neg h, if_neg h, whole_bind]
    congr 1; funext same
    cases same with
    | false => exact whole_bad mem b _ _
    | true => rfl

/-- What an address decoder does with a text that is read through `s` and the memory `out`, from the point where Base58Check has been
tried. -/
theorem addressDecode_at (host : Host) (cs : Bool) (stack : List Byte) (outSize : Nat) (param : ChainParameters) (mem : List Byte)
    (a n b : Nat) (hb : b ≤ mem.length) (r : Address.Decoded)
    (hr : Address.addressDecode host cs stack (mem.drop a) n (mem.drop b) outSize param = .ok r)
    (hk : r.kind = .pubkey ∨ r.kind = .script ∨
      ∀ buf size, Base58.fromBase58 cs (mem.drop a) n (mem.drop b) = .ok (buf, size) → buf = mem.drop b) :
    addressDecode host cs stack outSize param mem a n b = .ok ⟨r.kind, mem.take b ++ r.out, r.outSize⟩ := by
  have key : addressDecode host cs stack outSize param mem a n b =
      whole mem b (Address.addressDecode host cs stack (mem.drop a) n (mem.drop b) outSize param) := by
    revert hr
    unfold addressDecode Address.addressDecode
    by_cases ho : outSize < Base58Check.fromBase58CheckLength n
    · intro _; rw [if_pos ho, if_pos ho]; exact whole_bad mem b _ _
    · rw [if_neg ho, if_neg ho, fromBase58Check_at host cs mem a n b hb]
      cases hf : Base58Check.fromBase58Check host cs (mem.drop a) n (mem.drop b) with
      | ub => intro h; cases h
      | abort => intro h; cases h
      | ok x =>
        obtain ⟨buf, size⟩ := x
        have hat : atV b (Base58Check.fromBase58Check host cs (mem.drop a) n) mem = .ok (mem.take b ++ buf, size) := by
          unfold atV; rw [hf]; rfl
        rw [hat]
        simp only [Res.ok_bind]
        have hlast : Address.decodeBech32 cs stack (mem.drop a) n buf outSize param = .ok r →
            decodeBech32 cs stack outSize param (mem.take b ++ buf) a n b =
              whole mem b (Address.decodeBech32 cs stack (mem.drop a) n buf outSize param) := by
          intro h
          have hkk : r.kind ≠ .pubkey ∧ r.kind ≠ .script := by
            revert h
            unfold Address.decodeBech32
            cases Bech32.decode (mem.drop a) n (List.replicate 16 0xAA#8) 16 (Address.buffer stack n) with
            | ub => intro h; cases h
            | abort => intro h; cases h
            | ok d =>
              simp only [Res.ok_bind]
              by_cases hd : d.ret < 1 ∨ d.hrpSize ≠ param.bech32HrpSize
              · rw [if_pos hd]; intro h; cases h; exact ⟨nofun, nofun⟩
              · rw [if_neg hd]
                cases memeq d.hrp param.bech32Hrp d.hrpSize with
                | ub => intro h; cases h
                | abort => intro h; cases h
                | ok same =>
                  cases same with
                  | false => intro h; cases h; exact ⟨nofun, nofun⟩
                  | true =>
                    simp only [Res.ok_bind, Bool.not_true, Bool.false_eq_true, if_false]
                    unfold Address.decodeWitness
                    cases Base32.fromBase32RawLength (d.ret.toNat - 1) with
                    | ub => intro h; cases h
                    | abort => intro h; cases h
                    | ok need =>
                      simp only [Res.ok_bind]
                      by_cases hn : outSize ≥ need
                      · rw [if_pos hn]
                        cases rd d.b32 0 with
                        | ub => intro h; cases h
                        | abort => intro h; cases h
                        | ok v =>
                          simp only [Res.ok_bind]
                          by_cases hv : v = 0#8
                          · rw [if_pos hv]
                            cases Base32.fromBase32Raw cs (d.b32.drop 1) (d.ret.toNat - 1) buf with
                            | ub => intro h; cases h
                            | abort => intro h; cases h
                            | ok q =>
                              obtain ⟨o, m⟩ := q
                              simp only [Res.ok_bind]
                              split
                              · intro h; cases h; exact ⟨nofun, nofun⟩
                              · split
                                · intro h; cases h; exact ⟨nofun, nofun⟩
                                · intro h; cases h; exact ⟨nofun, nofun⟩
                          · rw [if_neg hv]
                            cases wr buf 0 v with
                            | ub => intro h; cases h
                            | abort => intro h; cases h
                            | ok o =>
                              simp only [Res.ok_bind]
                              cases Base32.fromBase32Raw cs (d.b32.drop 1) (d.ret.toNat - 1) (o.drop 1) with
                              | ub => intro h; cases h
                              | abort => intro h; cases h
                              | ok q =>
                                obtain ⟨o', m⟩ := q
                                simp only [Res.ok_bind]
                                split
                                · intro h; cases h; exact ⟨nofun, nofun⟩
                                · intro h; cases h; exact ⟨nofun, nofun⟩
                      · rw [if_neg hn]; intro h; cases h; exact ⟨nofun, nofun⟩
          rcases hk with hk | hk | hk
          · exact absurd hk hkk.1
          · exact absurd hk hkk.2
          · have hbuf : buf = mem.drop b := by
              revert hf
              unfold Base58Check.fromBase58Check
              dsimp only
              cases hq : Base58.fromBase58 cs (mem.drop a) n (mem.drop b) with
              | ub => intro h; cases h
              | abort => intro h; cases h
              | ok y =>
                obtain ⟨y1, y2⟩ := y
                have hy := hk y1 y2 hq
                simp only [Res.ok_bind]
                by_cases h4 : y2 < 4
                · rw [if_pos h4]; intro h; cases h; exact hy
                · rw [if_neg h4]
                  cases BtcHash.hash256 host y1 (y2 - 4) (List.replicate 32 0xAA#8) with
                  | ub => intro h; cases h
                  | abort => intro h; cases h
                  | ok hash =>
                    simp only [Res.ok_bind]
                    cases memeq hash (y1.drop (y2 - 4)) 4 with
                    | ub => intro h; cases h
                    | abort => intro h; cases h
                    | ok same => cases same <;> (intro h; cases h; exact hy)
            rw [hbuf, List.take_append_drop]
            exact decodeBech32_at cs stack outSize param mem a n b
        by_cases hs : size ≠ 0
        · rw [if_pos hs, if_pos hs, drop_put mem buf b hb]
          cases Address.hasPrefix buf size param.prefixPubkeyAddress param.prefixPubkeyAddressSize with
          | ub => intro h; cases h
          | abort => intro h; cases h
          | ok isP =>
            simp only [Res.ok_bind]
            cases isP with
            | true =>
              intro _
              simp only [if_true]
              unfold strip whole
              rw [drop_put mem buf b hb, take_put mem buf b hb]
            | false =>
              simp only [Bool.false_eq_true, if_false]
              cases Address.hasPrefix buf size param.prefixScriptAddress param.prefixScriptAddressSize with
              | ub => intro h; cases h
              | abort => intro h; cases h
              | ok isS =>
                simp only [Res.ok_bind]
                cases isS with
                | true =>
                  intro _
                  simp only [if_true]
                  unfold strip whole
                  rw [drop_put mem buf b hb, take_put mem buf b hb]
                | false =>
                  simp only [Bool.false_eq_true, if_false]
                  exact hlast
        · rw [if_neg hs, if_neg hs]
          exact hlast
  rw [key, hr]; rfl

/-- The result of importing a secret key, with the object the key is part of. -/
def wholeKey (mem : List Byte) (b : Nat) (r : Res Key.FromString) : Res Key.FromString :=
  r >>= fun d => pure ⟨d.ok, mem.take b ++ d.key32, d.isCompressed⟩

theorem wholeKey_bind {α : Type} (mem : List Byte) (b : Nat) (r : Res α) (f : α → Res Key.FromString) :
    wholeKey mem b (r >>= f) = r >>= fun x => wholeKey mem b (f x) := by cases r <;> rfl

theorem wholeKey_no (mem : List Byte) (b : Nat) (k : Int) :
    (pure ⟨false, mem, k⟩ : Res Key.FromString) = wholeKey mem b (pure ⟨false, mem.drop b, k⟩) := by
  unfold wholeKey; simp [List.take_append_drop]

theorem wifFinish_at (buf mem : List Byte) (b : Nat) (hb : b ≤ mem.length) (k : Int) (param : ChainParameters) :
    wifFinish buf mem b k param = wholeKey mem b (Key.wifFinish buf (mem.drop b) k param) := by
  unfold wifFinish Key.wifFinish
  rw [wholeKey_bind]
  congr 1; funext same
  cases same with
  | false => exact wholeKey_no mem b k
  | true =>
    simp only [Bool.not_true, Bool.false_eq_true, if_false]
    rw [memcpy_at mem b hb]
    unfold at_
    dsimp only
    cases memcpy (mem.drop b) 0 (buf.drop param.prefixSecretKeySize) 32 <;> rfl

theorem keyFromString_at (nd : Bool) (host : Host) (cs : Bool) (k : Int) (param : ChainParameters) (mem : List Byte) (a n b : Nat)
    (hb : b ≤ mem.length) :
    keyFromString nd host cs k param mem a n b = wholeKey mem b (Key.keyFromString nd host cs (mem.drop a) n (mem.drop b) k param) := by
  unfold keyFromString Key.keyFromString
  dsimp only
  rw [wholeKey_bind]
  congr 1; funext _
  rw [wholeKey_bind]
  congr 1; funext x
  obtain ⟨buf, size⟩ := x
  dsimp only
  by_cases h : size ≤ 32
  · rw [if_pos h, if_pos h]; exact wholeKey_no mem b k
  · rw [if_neg h, if_neg h]
    by_cases h1 : param.prefixSecretKeySize ≠ size - 32
    · rw [if_pos h1, if_pos h1]
      by_cases h2 : param.prefixSecretKeySize ≠ size - 32 - 1
      · rw [if_pos h2, if_pos h2]; exact wholeKey_no mem b k
      · rw [if_neg h2, if_neg h2, wholeKey_bind]
        congr 1; funext c
        by_cases h3 : c ≠ 1#8
        · rw [if_pos h3, if_pos h3]; exact wholeKey_no mem b k
        · rw [if_neg h3, if_neg h3]; exact wifFinish_at buf mem b hb 1 param
    · rw [if_neg h1, if_neg h1]; exact wifFinish_at buf mem b hb 0 param

end Overlap
