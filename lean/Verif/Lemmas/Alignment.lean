import Verif.Model.Alignment
import Verif.Lemmas.Base58Check
/-!
The functions with addresses behave as those without, except that they are undefined when an address converted to `uint32_t *` or
`uint64_t *` is misaligned.
-/
namespace Alignment
open Endian

/-- `r`, or undefined unless `c` holds. -/
def onlyIf (c : Prop) [Decidable c] {α : Type} (r : Res α) : Res α := if c then r else .ub

theorem onlyIf_pos {c : Prop} [Decidable c] {α : Type} (h : c) (r : Res α) : onlyIf c r = r := if_pos h

theorem onlyIf_neg {c : Prop} [Decidable c] {α : Type} (h : ¬ c) (r : Res α) : onlyIf c r = .ub := if_neg h

theorem onlyIf_true {α : Type} (r : Res α) : onlyIf True r = r := rfl

theorem onlyIf_bind {c : Prop} [Decidable c] {α β : Type} (r : Res α) (f : α → Res β) : (onlyIf c r >>= f) = onlyIf c (r >>= f) := by
  by_cases h : c
  · rw [onlyIf_pos h, onlyIf_pos h]
  · rw [onlyIf_neg h, onlyIf_neg h]; rfl

theorem onlyIf_onlyIf {c d : Prop} [Decidable c] [Decidable d] {α : Type} (r : Res α) : onlyIf c (onlyIf d r) = onlyIf (c ∧ d) r := by
  by_cases h : c
  · by_cases h2 : d
    · rw [onlyIf_pos h, onlyIf_pos h2, onlyIf_pos ⟨h, h2⟩]
    · rw [onlyIf_pos h, onlyIf_neg h2, onlyIf_neg (fun x => h2 x.2)]
  · rw [onlyIf_neg h, onlyIf_neg (fun x => h x.1)]

theorem onlyIf_congr {c d : Prop} [Decidable c] [Decidable d] {α : Type} (r : Res α) (h : c ↔ d) : onlyIf c r = onlyIf d r := by
  by_cases hc : c
  · rw [onlyIf_pos hc, onlyIf_pos (h.1 hc)]
  · rw [onlyIf_neg hc, onlyIf_neg (fun x => hc (h.2 x))]

theorem asPtr_eq (al addr : Nat) : asPtr al addr = onlyIf (addr % al = 0) (.ok ()) := rfl

theorem bind_ok {α β : Type} {r : Res α} {f : α → Res β} {b : β} (h : (r >>= f) = .ok b) : ∃ a, r = .ok a ∧ f a = .ok b := by
  cases r with
  | ok a => exact ⟨a, rfl, h⟩
  | ub => exact nomatch h
  | abort => exact nomatch h

theorem finish_eq {δ : Type} (abi : Abi) (chunk : Nat) (tr : δ → List Byte → Res δ) (B thr : Nat) (ce : List Byte) (d : δ)
    (msg : List Byte) (n : Nat) (r : δ) (h : HashCommon.finish tr B thr ce d msg n = .ok r) :
    finish abi chunk tr B thr ce d msg n = onlyIf ((chunk + (B - 8)) % abi.a8 = 0) (.ok r) := by
  rw [HashCommon.finish] at h
  obtain ⟨⟨d1, b1, n1⟩, h1, h⟩ := bind_ok h
  dsimp only at h
  obtain ⟨l1, h2, h⟩ := bind_ok h
  obtain ⟨l2, h3, h⟩ := bind_ok h
  obtain ⟨l3, h4, h⟩ := bind_ok h
  rw [finish, h1]
  simp only [Res.ok_bind]
  rw [h2]
  simp only [Res.ok_bind]
  rw [h3]
  simp only [Res.ok_bind]
  rw [h4]
  simp only [Res.ok_bind]
  by_cases ht : n1 > thr
  · rw [if_pos ht] at h ⊢
    obtain ⟨d2, h5, h⟩ := bind_ok h
    obtain ⟨l4, h6, h⟩ := bind_ok h
    rw [h5]
    simp only [Res.ok_bind]
    rw [h6]
    simp only [Res.ok_bind, Res.pure_eq] at h ⊢
    rw [asPtr_eq, onlyIf_bind]
    simp only [Res.ok_bind]
    rw [h]
  · rw [if_neg ht] at h ⊢
    simp only [Res.ok_bind, Res.pure_eq] at h ⊢
    rw [asPtr_eq, onlyIf_bind]
    simp only [Res.ok_bind]
    rw [h]

theorem sha256Final_eq (abi : Abi) (host : Host) (chunk : Nat) (d : List U32) (msg : List Byte) (n k : Nat) (r : List U32)
    (h : Sha2.sha256Final host d msg n k = .ok r) :
    sha256Final abi host chunk d msg n k = onlyIf ((chunk + 56) % abi.a8 = 0) (.ok r) :=
  finish_eq abi chunk _ 64 55 _ d msg n r h

theorem sha512Final_eq (abi : Abi) (host : Host) (chunk : Nat) (d : List U64) (msg : List Byte) (n k : Nat) (r : List U64)
    (h : Sha2.sha512Final host d msg n k = .ok r) :
    sha512Final abi host chunk d msg n k = onlyIf ((chunk + 120) % abi.a8 = 0) (.ok r) :=
  finish_eq abi chunk _ 128 111 _ d msg n r h

theorem sha1_eq (abi : Abi) (host : Host) (chunk addr : Nat) (msg : List Byte) (n : Nat) (hash r : List Byte)
    (h : Sha1.sha1 host msg n hash = .ok r) :
    sha1 abi host chunk addr msg n hash = onlyIf (addr % abi.a4 = 0 ∧ (chunk + 56) % abi.a8 = 0) (.ok r) := by
  rw [Sha1.sha1] at h
  obtain ⟨d, h1, h⟩ := bind_ok h
  rw [sha1, asPtr_eq, onlyIf_bind]
  simp only [Res.ok_bind]
  rw [finish_eq abi chunk _ 64 55 _ _ msg n d h1, onlyIf_bind]
  simp only [Res.ok_bind]
  rw [h, onlyIf_onlyIf]

theorem ripemd160_eq (abi : Abi) (host : Host) (chunk addr : Nat) (msg : List Byte) (n : Nat) (hash r : List Byte)
    (h : Ripemd160.ripemd160 host msg n hash = .ok r) :
    ripemd160 abi host chunk addr msg n hash = onlyIf (addr % abi.a4 = 0 ∧ (chunk + 56) % abi.a8 = 0) (.ok r) := by
  rw [Ripemd160.ripemd160] at h
  obtain ⟨d, h1, h⟩ := bind_ok h
  rw [ripemd160, asPtr_eq, onlyIf_bind]
  simp only [Res.ok_bind]
  rw [finish_eq abi chunk _ 64 55 _ _ msg n d h1, onlyIf_bind]
  simp only [Res.ok_bind]
  rw [h, onlyIf_onlyIf]

theorem sha2_256_eq (abi : Abi) (host : Host) (chunk addr : Nat) (msg : List Byte) (n : Nat) (hash r : List Byte)
    (h : Sha2.sha2_256 host msg n hash = .ok r) :
    sha2_256 abi host chunk addr msg n hash = onlyIf (addr % abi.a4 = 0 ∧ (chunk + 56) % abi.a8 = 0) (.ok r) := by
  rw [Sha2.sha2_256] at h
  obtain ⟨d, h1, h⟩ := bind_ok h
  rw [sha2_256, asPtr_eq, onlyIf_bind]
  simp only [Res.ok_bind]
  rw [sha256Final_eq abi host chunk _ msg n 0 d h1, onlyIf_bind]
  simp only [Res.ok_bind]
  rw [h, onlyIf_onlyIf]

theorem sha2_512_eq (abi : Abi) (host : Host) (chunk addr : Nat) (msg : List Byte) (n : Nat) (hash r : List Byte)
    (h : Sha2.sha2_512 host msg n hash = .ok r) :
    sha2_512 abi host chunk addr msg n hash = onlyIf (addr % abi.a8 = 0 ∧ (chunk + 120) % abi.a8 = 0) (.ok r) := by
  rw [Sha2.sha2_512] at h
  obtain ⟨d, h1, h⟩ := bind_ok h
  rw [sha2_512, asPtr_eq, onlyIf_bind]
  simp only [Res.ok_bind]
  rw [sha512Final_eq abi host chunk _ msg n 0 d h1, onlyIf_bind]
  simp only [Res.ok_bind]
  rw [h, onlyIf_onlyIf]

theorem hmacBuffer256_eq (abi : Abi) (host : Host) (chunk : Nat) (key : List Byte) (kn : Nat) (r : List Byte)
    (h : Sha2.hmacBuffer256 host key kn = .ok r) :
    hmacBuffer256 abi host chunk key kn = onlyIf (kn ≤ 64 ∨ (chunk + 56) % abi.a8 = 0) (.ok r) := by
  rw [Sha2.hmacBuffer256] at h
  rw [hmacBuffer256]
  by_cases hk : kn ≤ 64
  · rw [if_pos hk] at h ⊢
    rw [h, onlyIf_pos (.inl hk)]
  · rw [if_neg hk] at h ⊢
    obtain ⟨d, h1, h⟩ := bind_ok h
    rw [sha2_256_eq abi host chunk 0 key kn _ d h1, onlyIf_bind]
    simp only [Res.ok_bind]
    rw [h]
    exact onlyIf_congr _ ⟨fun x => .inr x.2, fun x => ⟨Nat.zero_mod _, x.resolve_left hk⟩⟩

theorem hmacBuffer512_eq (abi : Abi) (host : Host) (chunk : Nat) (key : List Byte) (kn : Nat) (r : List Byte)
    (h : Sha2.hmacBuffer512 host key kn = .ok r) :
    hmacBuffer512 abi host chunk key kn = onlyIf (kn ≤ 128 ∨ (chunk + 120) % abi.a8 = 0) (.ok r) := by
  rw [Sha2.hmacBuffer512] at h
  rw [hmacBuffer512]
  by_cases hk : kn ≤ 128
  · rw [if_pos hk] at h ⊢
    rw [h, onlyIf_pos (.inl hk)]
  · rw [if_neg hk] at h ⊢
    obtain ⟨d, h1, h⟩ := bind_ok h
    rw [sha2_512_eq abi host chunk 0 key kn _ d h1, onlyIf_bind]
    simp only [Res.ok_bind]
    rw [h]
    exact onlyIf_congr _ ⟨fun x => .inr x.2, fun x => ⟨Nat.zero_mod _, x.resolve_left hk⟩⟩

theorem hmac_sha256_eq (abi : Abi) (host : Host) (kc ic oc addr : Nat) (key : List Byte) (kn : Nat) (msg : List Byte) (n : Nat)
    (out r : List Byte) (h : Sha2.hmac_sha256 host key kn msg n out = .ok r) :
    hmac_sha256 abi host kc ic oc addr key kn msg n out =
      onlyIf (addr % abi.a4 = 0 ∧ (kn ≤ 64 ∨ (kc + 56) % abi.a8 = 0) ∧ (ic + 56) % abi.a8 = 0 ∧ (oc + 56) % abi.a8 = 0) (.ok r) := by
  rw [Sha2.hmac_sha256] at h
  obtain ⟨b, hb, h⟩ := bind_ok h
  obtain ⟨ki, hki, h⟩ := bind_ok h
  obtain ⟨ko, hko, h⟩ := bind_ok h
  obtain ⟨i1, hi1, h⟩ := bind_ok h
  obtain ⟨i2, hi2, h⟩ := bind_ok h
  obtain ⟨o1, ho1, h⟩ := bind_ok h
  obtain ⟨o2, ho2, h⟩ := bind_ok h
  rw [hmac_sha256, asPtr_eq, onlyIf_bind]
  simp only [Res.ok_bind]
  rw [hmacBuffer256_eq abi host kc key kn b hb, onlyIf_bind]
  simp only [Res.ok_bind]
  rw [hki]
  simp only [Res.ok_bind]
  rw [hko]
  simp only [Res.ok_bind]
  rw [hi1]
  simp only [Res.ok_bind]
  rw [sha256Final_eq abi host ic _ msg n 64 _ hi2, onlyIf_bind]
  simp only [Res.ok_bind]
  rw [ho1]
  simp only [Res.ok_bind]
  rw [sha256Final_eq abi host oc _ _ 32 64 _ ho2, onlyIf_bind]
  simp only [Res.ok_bind]
  rw [h, onlyIf_onlyIf, onlyIf_onlyIf, onlyIf_onlyIf]
  exact onlyIf_congr _ (by simp only [and_assoc])

theorem hmac_sha512_eq (abi : Abi) (host : Host) (kc ic oc addr : Nat) (key : List Byte) (kn : Nat) (msg : List Byte) (n : Nat)
    (out r : List Byte) (h : Sha2.hmac_sha512 host key kn msg n out = .ok r) :
    hmac_sha512 abi host kc ic oc addr key kn msg n out =
      onlyIf (addr % abi.a8 = 0 ∧ (kn ≤ 128 ∨ (kc + 120) % abi.a8 = 0) ∧ (ic + 120) % abi.a8 = 0 ∧ (oc + 120) % abi.a8 = 0) (.ok r) := by
  rw [Sha2.hmac_sha512] at h
  obtain ⟨b, hb, h⟩ := bind_ok h
  obtain ⟨ki, hki, h⟩ := bind_ok h
  obtain ⟨ko, hko, h⟩ := bind_ok h
  obtain ⟨i1, hi1, h⟩ := bind_ok h
  obtain ⟨i2, hi2, h⟩ := bind_ok h
  obtain ⟨o1, ho1, h⟩ := bind_ok h
  obtain ⟨o2, ho2, h⟩ := bind_ok h
  rw [hmac_sha512, asPtr_eq, onlyIf_bind]
  simp only [Res.ok_bind]
  rw [hmacBuffer512_eq abi host kc key kn b hb, onlyIf_bind]
  simp only [Res.ok_bind]
  rw [hki]
  simp only [Res.ok_bind]
  rw [hko]
  simp only [Res.ok_bind]
  rw [hi1]
  simp only [Res.ok_bind]
  rw [sha512Final_eq abi host ic _ msg n 128 _ hi2, onlyIf_bind]
  simp only [Res.ok_bind]
  rw [ho1]
  simp only [Res.ok_bind]
  rw [sha512Final_eq abi host oc _ _ 64 128 _ ho2, onlyIf_bind]
  simp only [Res.ok_bind]
  rw [h, onlyIf_onlyIf, onlyIf_onlyIf, onlyIf_onlyIf]
  exact onlyIf_congr _ (by simp only [and_assoc])

theorem hash160_eq (abi : Abi) (host : Host) (dig c1 c2 addr : Nat) (msg : List Byte) (n : Nat) (hash r : List Byte)
    (h : BtcHash.hash160 host msg n hash = .ok r) :
    hash160 abi host dig c1 c2 addr msg n hash =
      onlyIf ((dig % abi.a4 = 0 ∧ (c1 + 56) % abi.a8 = 0) ∧ addr % abi.a4 = 0 ∧ (c2 + 56) % abi.a8 = 0) (.ok r) := by
  rw [BtcHash.hash160] at h
  obtain ⟨d, h1, h⟩ := bind_ok h
  rw [hash160]
  rw [sha2_256_eq abi host c1 dig msg n _ d h1, onlyIf_bind]
  simp only [Res.ok_bind]
  rw [ripemd160_eq abi host c2 addr d 32 hash r h, onlyIf_onlyIf]

theorem hash256_eq (abi : Abi) (host : Host) (dig c1 c2 addr : Nat) (msg : List Byte) (n : Nat) (hash r : List Byte)
    (h : BtcHash.hash256 host msg n hash = .ok r) :
    hash256 abi host dig c1 c2 addr msg n hash =
      onlyIf ((dig % abi.a4 = 0 ∧ (c1 + 56) % abi.a8 = 0) ∧ addr % abi.a4 = 0 ∧ (c2 + 56) % abi.a8 = 0) (.ok r) := by
  rw [BtcHash.hash256] at h
  obtain ⟨d, h1, h⟩ := bind_ok h
  rw [hash256]
  rw [sha2_256_eq abi host c1 dig msg n _ d h1, onlyIf_bind]
  simp only [Res.ok_bind]
  rw [sha2_256_eq abi host c2 addr d 32 hash r h, onlyIf_onlyIf]

theorem bip32_hash_eq (abi : Abi) (host : Host) (ic oc addr : Nat) (chain : List Byte) (child : U32) (header : Byte)
    (data out r : List Byte) (h : BtcHash.bip32_hash host chain child header data out = .ok r) :
    bip32_hash abi host ic oc addr chain child header data out =
      onlyIf (addr % abi.a8 = 0 ∧ (ic + 120) % abi.a8 = 0 ∧ (oc + 120) % abi.a8 = 0) (.ok r) := by
  rw [BtcHash.bip32_hash] at h
  obtain ⟨b1, h1, h⟩ := bind_ok h
  obtain ⟨b2, h2, h⟩ := bind_ok h
  obtain ⟨b3, h3, h⟩ := bind_ok h
  rw [bip32_hash]
  rw [h1]
  simp only [Res.ok_bind]
  rw [h2]
  simp only [Res.ok_bind]
  rw [h3]
  simp only [Res.ok_bind]
  rw [hmac_sha512_eq abi host 0 ic oc addr chain 32 b3 37 out r h]
  exact onlyIf_congr _ ⟨fun x => ⟨x.1, x.2.2⟩, fun x => ⟨x.1, .inl (by omega), x.2⟩⟩

theorem hash256_d64_eq (abi : Abi) (host : Host) (addr : Nat) (out inp : List Byte) (blocks : Nat) (h4 : abi.a4 ∣ 32) :
    hash256_d64 abi host addr out inp blocks =
      onlyIf (blocks = 0 ∨ addr % abi.a4 = 0) (BtcHash.hash256_d64 host out inp blocks) := by
  have hz : ∀ i, (addr + 32 * i) % abi.a4 = addr % abi.a4 := by
    intro i
    obtain ⟨q, hq⟩ := h4
    rw [hq, Nat.mul_assoc, Nat.add_mul_mod_self_left]
  rw [hash256_d64, BtcHash.hash256_d64]
  by_cases hb : blocks = 0
  · rw [onlyIf_pos (.inl hb), hb]
    rfl
  · by_cases ha : addr % abi.a4 = 0
    · rw [onlyIf_pos (.inr ha)]
      have : ∀ (i : Nat) (o : List Byte), (asPtr abi.a4 (addr + 32 * i) >>= fun _ => do
          let o' ← Sha2.d64Transform host (o.drop (32 * i)) (inp.drop (64 * i))
          pure (o.take (32 * i) ++ o')) = (do
          let o' ← Sha2.d64Transform host (o.drop (32 * i)) (inp.drop (64 * i))
          pure (o.take (32 * i) ++ o')) := by
        intro i o
        rw [asPtr_eq, onlyIf_pos (by rw [hz, ha])]
        rfl
      simp only [this]
    · rw [onlyIf_neg (fun x => x.elim hb ha)]
      obtain ⟨k, rfl⟩ := Nat.exists_eq_succ_of_ne_zero hb
      rw [forLoop, asPtr_eq, onlyIf_neg (by rw [hz]; exact ha)]
      rfl

/-- The places of the byte arrays are aligned. -/
abbrev Good (abi : Abi) (pl : Places) : Prop :=
  (pl.dig % abi.a4 = 0 ∧ (pl.chunk1 + 56) % abi.a8 = 0) ∧ pl.hash % abi.a4 = 0 ∧ (pl.chunk2 + 56) % abi.a8 = 0

theorem toBase58Check_eq (abi : Abi) (pl : Places) (host : Host) (buf : List Byte) (n : Nat) (pre : List Byte) (m : Nat)
    (str : List Byte) (r : List Byte × Nat) (h : Base58Check.toBase58Check host buf n pre m str = .ok r) :
    toBase58Check abi pl host buf n pre m str = onlyIf (Good abi pl) (.ok r) := by
  rw [Base58Check.toBase58Check] at h
  obtain ⟨b1, h1, h⟩ := bind_ok h
  obtain ⟨b2, h2, h⟩ := bind_ok h
  obtain ⟨d, h3, h⟩ := bind_ok h
  rw [toBase58Check]
  rw [h1]
  simp only [Res.ok_bind]
  rw [h2]
  simp only [Res.ok_bind]
  rw [hash256_eq abi host _ _ _ _ _ _ _ d h3, onlyIf_bind]
  simp only [Res.ok_bind]
  rw [h]

theorem fromBase58Check_eq (abi : Abi) (pl : Places) (host : Host) (cs : Bool) (str : List Byte) (n : Nat) (buf : List Byte)
    (r d : List Byte × Nat) (hd : Base58.fromBase58 cs str n buf = .ok d)
    (h : Base58Check.fromBase58Check host cs str n buf = .ok r) :
    fromBase58Check abi pl host cs str n buf = onlyIf (d.2 < 4 ∨ Good abi pl) (.ok r) := by
  obtain ⟨b, k⟩ := d
  rw [Base58Check.fromBase58Check, hd] at h
  rw [fromBase58Check, hd]
  simp only [Res.ok_bind] at h ⊢
  by_cases hk : k < 4
  · rw [if_pos hk] at h ⊢
    rw [h, onlyIf_pos (.inl hk)]
  · rw [if_neg hk] at h ⊢
    obtain ⟨d, h3, h⟩ := bind_ok h
    rw [hash256_eq abi host _ _ _ _ _ _ _ d h3, onlyIf_bind]
    simp only [Res.ok_bind]
    rw [h]
    exact onlyIf_congr _ ⟨fun x => .inr x, fun x => x.resolve_left hk⟩

end Alignment
