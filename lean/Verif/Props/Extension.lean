import Verif.Spec.Extension
import Verif.Props.Hash
import Verif.Lemmas.BeNat
import Verif.Lemmas.Words
/-! Property theorems C115: digests of longer texts (`src/hash/sha2.c`, `sha1.c`, `ripemd160.c`). -/
open WordSpec

namespace Extension

theorem unpack {w k : Nat} (hk : 0 < k) (enc : BitVec w → List Byte) (dec : List Byte → BitVec w) (hl : ∀ x, (enc x).length = k) (hd : ∀ x, dec (enc x) = x) :
    ∀ H : List (BitVec w), (pieces k (H.flatMap enc)).map dec = H
  | [] => by simp [pieces]
  | x :: H => by
    rw [List.flatMap_cons, HashCommon.pieces_cons k hk _ _ (hl x), List.map_cons, hd, unpack hk enc dec hl hd H]

theorem unpackBe {w k : Nat} (hk : 0 < k) (hw : w = 8 * k) (H : List (BitVec w)) :
    (pieces k (H.flatMap fun x => beBytes k x.toNat)).map (fun p => BitVec.ofNat w (beNat p)) = H := by
  subst hw
  refine unpack hk _ _ (fun x => by simp [beBytes]) (fun x => ?_) H
  have hp : x.toNat < 256 ^ k := by
    have h : (2 : Nat) ^ (8 * k) = 256 ^ k := by rw [Nat.pow_mul]
    exact h ▸ x.isLt
  rw [beNat_beBytes_lt k x.toNat hp, BitVec.ofNat_toNat, BitVec.setWidth_eq]

theorem unpackLe (H : List (BitVec 32)) :
    (pieces 4 (H.flatMap fun x => leBytes 4 x.toNat)).map (fun p => BitVec.ofNat 32 (leNat p)) = H := by
  refine unpack (by decide) _ _ (fun x => by simp [leBytes]) (fun x => ?_) H
  have hp : x.toNat < 256 ^ 4 := x.isLt
  have h : (leBytes 4 x.toNat).reverse = beBytes 4 x.toNat := by simp [leBytes, beBytes, List.range_succ]
  rw [Endian.leNat_reverse, h, beNat_beBytes_lt 4 x.toNat hp, BitVec.ofNat_toNat, BitVec.setWidth_eq]

/-- Running through `a ++ b` is running through `b` from where `a` ends, for whole blocks `a`. -/
theorem run {β γ : Type} (n : Nat) (hn : 0 < n) (f : γ → β → γ) (g : List Byte → β) (a b : List Byte) (h : a.length % n = 0) (s : γ) :
    ((pieces n (a ++ b)).map g).foldl f s = ((pieces n b).map g).foldl f (((pieces n a).map g).foldl f s) := by
  rw [HashCommon.pieces_append n hn a b (a.length / n) (by have := Nat.div_add_mod a.length n; rw [Nat.mul_comm]; omega), List.map_append, List.foldl_append]

theorem fill (B x : Nat) (hB : 0 < B) : (x + (B - x % B) % B) % B = 0 := by
  rw [Nat.add_mod_mod]
  have h := Nat.mod_lt x hB
  have h2 := Nat.div_add_mod x B
  have : x + (B - x % B) = B * (x / B + 1) := by rw [Nat.mul_add]; omega
  rw [this, Nat.mul_mod_right]

open Sha2Spec in
theorem sha2 {w : Nat} (v : Variant w) (hk : 0 < v.wordBytes) (hw : w = 8 * v.wordBytes) (hB : 0 < v.blockBytes) (msg more : List Byte) :
    Sha2Spec.hash v (msg ++ glue v msg.length ++ more) = extension v (Sha2Spec.hash v msg) msg.length more := by
  have hpad : ∀ m, pad v m = m ++ glue v m.length := by intro m; simp [pad, glue]
  have hlen : (msg ++ glue v msg.length).length % v.blockBytes = 0 := by
    have := fill v.blockBytes (msg.length + 1 + v.lengthBytes) hB
    rw [← this]; congr 1
    simp [glue, zeros, beBytes]; omega
  have hwords : words v (Sha2Spec.hash v msg) = hashWords v msg := by
    unfold words Sha2Spec.hash; exact unpackBe hk hw _
  unfold extension
  rw [hwords]
  show (hashWords v _).flatMap _ = _
  congr 1
  unfold hashWords
  rw [hpad (msg ++ glue v msg.length ++ more), List.append_assoc (msg ++ glue v msg.length), run _ hB _ _ _ _ hlen, hpad msg]
  simp only [List.length_append]

theorem sha1 (msg more : List Byte) :
    Sha1Spec.SHA1 (msg ++ Sha2Spec.glue Sha2Spec.sha256 msg.length ++ more) = Sha1Spec.extension (Sha1Spec.SHA1 msg) msg.length more := by
  have hpad : ∀ m, Sha1Spec.pad m = m ++ Sha2Spec.glue Sha2Spec.sha256 m.length := by intro m; simp [Sha1Spec.pad, Sha2Spec.pad, Sha2Spec.glue]
  have hlen : (msg ++ Sha2Spec.glue Sha2Spec.sha256 msg.length).length % 64 = 0 := by
    have := fill 64 (msg.length + 1 + 8) (by decide)
    rw [← this]; congr 1
    simp [Sha2Spec.glue, Sha2Spec.zeros, Sha2Spec.sha256, beBytes]; omega
  unfold Sha1Spec.extension
  rw [show Sha1Spec.words (Sha1Spec.SHA1 msg) = _ by unfold Sha1Spec.words Sha1Spec.SHA1; exact unpackBe (by decide : 0 < 4) rfl _]
  unfold Sha1Spec.SHA1
  rw [hpad (msg ++ _ ++ more), List.append_assoc (msg ++ _), run 64 (by decide) _ _ _ _ hlen, hpad msg]
  simp only [List.length_append]

theorem ripemd (msg more : List Byte) :
    RipemdSpec.RIPEMD160 (msg ++ RipemdSpec.glue msg.length ++ more) = RipemdSpec.extension (RipemdSpec.RIPEMD160 msg) msg.length more := by
  have hpad : ∀ m, RipemdSpec.pad m = m ++ RipemdSpec.glue m.length := by intro m; simp [RipemdSpec.pad, RipemdSpec.glue]
  have hlen : (msg ++ RipemdSpec.glue msg.length).length % 64 = 0 := by
    have := fill 64 (msg.length + 9) (by decide)
    rw [← this]; congr 1
    simp [RipemdSpec.glue, leBytes]; omega
  unfold RipemdSpec.extension
  rw [show RipemdSpec.words (RipemdSpec.RIPEMD160 msg) = _ by unfold RipemdSpec.words RipemdSpec.RIPEMD160; exact unpackLe _]
  unfold RipemdSpec.RIPEMD160
  rw [hpad (msg ++ _ ++ more), List.append_assoc (msg ++ _), run 64 (by decide) _ _ _ _ hlen, hpad msg]
  simp only [List.length_append]

end Extension

/-- C115 fails for SHA-256: who is told the digest of a text (and its length) but not the text computes the digest of a longer text that
begins with it, with the ending `more` of his choice. -/
theorem C115_violated_sha256 (host : Host) (msg more hash hash2 : List Byte) (h32 : 32 ≤ hash.length) (h32' : 32 ≤ hash2.length)
    (hlen : (msg ++ Sha2Spec.glue Sha2Spec.sha256 msg.length ++ more).length < 2 ^ 61) :
    ∃ D : List Byte, D.length = 32 ∧ Sha2.sha2_256 host msg msg.length hash = .ok (over D hash) ∧
      Sha2.sha2_256 host (msg ++ Sha2Spec.glue Sha2Spec.sha256 msg.length ++ more) (msg ++ Sha2Spec.glue Sha2Spec.sha256 msg.length ++ more).length hash2 =
        .ok (over (Sha2Spec.extension Sha2Spec.sha256 D msg.length more) hash2) := by
  have h1 := C25_sha256 host msg msg.length hash (Nat.le_refl _) (by simp only [List.length_append] at hlen; omega) h32
  have h2 := C25_sha256 host _ _ hash2 (Nat.le_refl _) hlen h32'
  rw [List.take_length] at h1 h2
  refine ⟨_, h1.2, h1.1, ?_⟩
  rw [h2.1]; unfold Sha2Spec.SHA256
  rw [Extension.sha2 Sha2Spec.sha256 (by decide) rfl (by decide)]

/-- C115 fails for SHA-512. -/
theorem C115_violated_sha512 (host : Host) (msg more hash hash2 : List Byte) (h64 : 64 ≤ hash.length) (h64' : 64 ≤ hash2.length)
    (hlen : (msg ++ Sha2Spec.glue Sha2Spec.sha512 msg.length ++ more).length < 2 ^ 61) :
    ∃ D : List Byte, D.length = 64 ∧ Sha2.sha2_512 host msg msg.length hash = .ok (over D hash) ∧
      Sha2.sha2_512 host (msg ++ Sha2Spec.glue Sha2Spec.sha512 msg.length ++ more) (msg ++ Sha2Spec.glue Sha2Spec.sha512 msg.length ++ more).length hash2 =
        .ok (over (Sha2Spec.extension Sha2Spec.sha512 D msg.length more) hash2) := by
  have h1 := C26_sha512 host msg msg.length hash (Nat.le_refl _) (by simp only [List.length_append] at hlen; omega) h64
  have h2 := C26_sha512 host _ _ hash2 (Nat.le_refl _) hlen h64'
  rw [List.take_length] at h1 h2
  refine ⟨_, h1.2, h1.1, ?_⟩
  rw [h2.1]; unfold Sha2Spec.SHA512
  rw [Extension.sha2 Sha2Spec.sha512 (by decide) rfl (by decide)]

/-- C115 fails for SHA-1. -/
theorem C115_violated_sha1 (host : Host) (msg more hash hash2 : List Byte) (h20 : 20 ≤ hash.length) (h20' : 20 ≤ hash2.length)
    (hlen : (msg ++ Sha2Spec.glue Sha2Spec.sha256 msg.length ++ more).length < 2 ^ 61) :
    ∃ D : List Byte, D.length = 20 ∧ Sha1.sha1 host msg msg.length hash = .ok (over D hash) ∧
      Sha1.sha1 host (msg ++ Sha2Spec.glue Sha2Spec.sha256 msg.length ++ more) (msg ++ Sha2Spec.glue Sha2Spec.sha256 msg.length ++ more).length hash2 =
        .ok (over (Sha1Spec.extension D msg.length more) hash2) := by
  have h1 := C27_sha1 host msg msg.length hash (Nat.le_refl _) (by simp only [List.length_append] at hlen; omega) h20
  have h2 := C27_sha1 host _ _ hash2 (Nat.le_refl _) hlen h20'
  rw [List.take_length] at h1 h2
  refine ⟨_, h1.2, h1.1, ?_⟩
  rw [h2.1, Extension.sha1]

/-- C115 fails for RIPEMD-160. -/
theorem C115_violated_ripemd160 (host : Host) (msg more hash hash2 : List Byte) (h20 : 20 ≤ hash.length) (h20' : 20 ≤ hash2.length)
    (hlen : (msg ++ RipemdSpec.glue msg.length ++ more).length < 2 ^ 61) :
    ∃ D : List Byte, D.length = 20 ∧ Ripemd160.ripemd160 host msg msg.length hash = .ok (over D hash) ∧
      Ripemd160.ripemd160 host (msg ++ RipemdSpec.glue msg.length ++ more) (msg ++ RipemdSpec.glue msg.length ++ more).length hash2 =
        .ok (over (RipemdSpec.extension D msg.length more) hash2) := by
  have h1 := C28_ripemd160 host msg msg.length hash (Nat.le_refl _) (by simp only [List.length_append] at hlen; omega) h20
  have h2 := C28_ripemd160 host _ _ hash2 (Nat.le_refl _) hlen h20'
  rw [List.take_length] at h1 h2
  refine ⟨_, h1.2, h1.1, ?_⟩
  rw [h2.1, Extension.ripemd]
