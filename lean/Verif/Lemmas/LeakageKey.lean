import Verif.Model.LeakageKey
import Verif.Lemmas.Leakage
import Verif.Lemmas.Base58Check
import Verif.Lemmas.Bip32

/-! What is seen of the functions that handle keys. -/
namespace Leakage
open Endian SecpLib Exkey Secp256k1 Bip32Spec WordSpec

/-! ### Derivation and serialisation -/

theorem exkeyInit_shows (host : Host) (key : ExKey) (seed : Ptr) (len : Nat) :
    Shows (exkeyInit host key seed len) (Exkey.exkeyInit host key seed.mem len)
      (hmac512T "hashkey" 0 12 seed.obj seed.base len "out" ++
        ([.store "key.ext.depth" 0 1, .store "key.ext.child" 0 4, .store "key.ext.fingerprint" 0 4] ++
        ([.load "out" 0 32, .store "key.key" 0 32] ++ ([.load "out" 32 32, .store "key.ext.chain_code" 0 32] ++
        ([.store "out" 0 64] ++ []))))) := by
  unfold exkeyInit Exkey.exkeyInit
  refine shows_bind (hmac_sha512_shows host ⟨"hashkey", 0, hashkey⟩ 12 seed len "out" _) fun out _ => ?_
  refine shows_extra ?_
  refine shows_bind (shows_seen _ _) fun k _ => ?_
  refine shows_bind (shows_seen _ _) fun c _ => ?_
  exact shows_extra (shows_pure _)

def assertT (nd c : Bool) : List Ev := if nd then [] else [.branch c]

theorem assertL_true (nd : Bool) : assertL nd true = .ok () (assertT nd true) := by cases nd <;> rfl

theorem keyGetPub_seen (nd : Bool) (key : Ptr) (pk : PubObj) (h : pubkeyCreate key.mem = .ok (pk, true)) :
    keyGetPub nd key = .ok pk ([.call "secp256k1_ec_pubkey_create"] ++ (assertT nd true ++ [])) := by
  unfold keyGetPub
  rw [h]
  simp only [seen_ok, ok_bind, assertL_true, after_ok, pure_eq]

theorem pubkeyEncode_seen (nd : Bool) (pk : PubObj) (out out' : List Byte)
    (h : pubkeySerialize out 33 pk true = .ok (out', 33, true)) :
    pubkeyEncode nd pk out 33 = .ok (out', true) (assertT nd true ++ ([.branch false] ++
      ([.branch true, .call "secp256k1_ec_pubkey_serialize"] ++ ([.branch true] ++ (assertT nd true ++ []))))) := by
  unfold pubkeyEncode
  have e1 : ((33 : Nat) == 65 || (33 : Nat) == 33) = true := rfl
  have e2 : ((33 : Nat) == 33) = true := rfl
  have e3 : ¬ ((33 : Nat) ≠ 65 ∧ (33 : Nat) ≠ 33) := by omega
  rw [e1, assertL_true, ok_bind]
  simp only [if_neg e3, e2, h, seen_ok, ok_bind, branch, assertL_true, after_ok, pure_eq, if_true, decide_true,
    decide_eq_false e3]


def getPubT (nd : Bool) : List Ev := [.call "secp256k1_ec_pubkey_create"] ++ (assertT nd true ++ [])

def encodePubT (nd : Bool) : List Ev := assertT nd true ++ ([.branch false] ++
  ([.branch true, .call "secp256k1_ec_pubkey_serialize"] ++ ([.branch true] ++ (assertT nd true ++ []))))

def deriveHashT (nd : Bool) (ko : String) (kb : Nat) (co : String) (cb : Nat) (hardened : Bool) : List Ev :=
  [.branch (!hardened)] ++
    (if hardened then bip32T co cb ko kb "out" ++ []
    else getPubT nd ++ (encodePubT nd ++ ([.load "encoded_pubkey" 0 1] ++
      (bip32T co cb "encoded_pubkey" 1 "out" ++ ([.store "pubkey64" 0 64] ++ ([.store "encoded_pubkey" 0 33] ++ []))))))

theorem deriveHash_shows (nd : Bool) (host : Host) (key chain : Ptr) (child : U32) (hv : ValidKey key.mem) :
    Shows (deriveHash nd host key chain child) (Key.deriveHash nd host key.mem chain.mem child)
      (deriveHashT nd key.obj key.base chain.obj chain.base (child >>> 31 ≠ 0#32)) := by
  unfold deriveHash Key.deriveHash deriveHashT
  by_cases h : child >>> 31 = 0#32
  · obtain ⟨x, y, h1, h2, h3⟩ := Key.pubkeyCreate_valid key.mem hv
    obtain ⟨x', y', g1, g2, -⟩ := Key.keyGetPub_eq nd key.mem hv
    rw [h2] at g2
    cases g2
    have hs := Key.serialize_eq (List.replicate 33 0xAA#8) 33 x y true rfl (by simp)
    simp only [h, ne_eq, not_true, decide_false, decide_true, Bool.not_false, g1, if_true, Bool.false_eq_true,
      if_false, keyGetPub_seen nd key _ h1]
    refine shows_extra ?_
    simp only [ok_bind, Res.ok_bind]
    rw [pubkeyEncode_seen nd _ _ _ hs, Key.pubkeyEncode_eq nd x y _ 33 true rfl (by simp)]
    simp only [ok_bind, Res.ok_bind, if_true]
    refine after_shows (after_shows ?_)
    refine shows_bind (shows_seen _ _) fun hd _ => ?_
    refine shows_bind (bip32_hash_shows host chain child hd ⟨"encoded_pubkey", 1, _⟩ "out" _) fun o _ => ?_
    refine shows_extra (shows_extra ?_)
    exact shows_pure _
  · simp only [h, ne_eq, not_false_eq_true, decide_false, decide_true, Bool.not_true, if_true]
    refine shows_extra ?_
    exact shows_bind (bip32_hash_shows host chain child 0#8 key "out" _) fun o _ => shows_pure _

def keyDeriveT (nd : Bool) (ko : String) (kb : Nat) (co : String) (cb : Nat) (hardened : Bool) : List Ev :=
  deriveHashT nd ko kb co cb hardened ++ ([.branch true] ++ ([.load ko kb 32, .store "out_key32" 0 32] ++
    ([.load "out" 32 32, .store "out_chain32" 0 32] ++ ([.call "secp256k1_ec_privkey_tweak_add"] ++
    ([.store "out" 0 64] ++ [])))))

theorem keyDerive_shows (nd : Bool) (host : Host) (key chain : Ptr) (outKey outChain : List Byte) (child : U32)
    (hv : ValidKey key.mem) (hc : 32 ≤ chain.mem.length) :
    Shows (keyDerive nd host key chain outKey outChain child)
      (Key.keyDerive nd host key.mem chain.mem outKey outChain child)
      (keyDeriveT nd key.obj key.base chain.obj chain.base (child >>> 31 ≠ 0#32)) := by
  unfold keyDerive Key.keyDerive
  refine shows_bind (deriveHash_shows nd host key chain child hv) fun x hx => ?_
  rw [Key.deriveHash_eq nd host key.mem chain.mem child hv hc] at hx
  cases hx
  simp only [if_true]
  refine shows_extra ?_
  refine shows_bind (shows_seen _ _) fun k _ => ?_
  refine shows_bind (shows_seen _ _) fun c _ => ?_
  refine shows_bind (shows_seen _ _) fun r _ => ?_
  exact shows_extra (shows_pure _)

def exkeyEncodeT (dst : String) : List Ev :=
  [.load "key.ext.depth" 0 1, .store dst 0 1] ++ ([.load "key.ext.fingerprint" 0 4, .store dst 1 4] ++
    ([.load "key.ext.child" 0 4, .store dst 5 4] ++ ([.load "key.ext.chain_code" 0 32, .store dst 9 32] ++
    ([.store dst 41 1] ++ [.load "key.key" 0 32, .store dst 42 32]))))

theorem bind_assoc {α β γ : Type} (p : Res α) (f : α → Res β) (g : β → Res γ) :
    ((p >>= f) >>= g) = (p >>= fun a => f a >>= g) := by cases p <;> rfl

theorem exkeyEncode_shows (host : Host) (key : ExKey) (dst : String) (code : List Byte) :
    Shows (exkeyEncode host key dst code) (Exkey.exkeyEncode host key code) (exkeyEncodeT dst) := by
  unfold exkeyEncode Exkey.exkeyEncode writeKeyExtension
  simp only [bind_assoc]
  refine shows_bind (shows_seen _ _) fun c _ => ?_
  refine shows_bind (shows_seen _ _) fun c _ => ?_
  refine shows_bind (shows_seen _ _) fun c _ => ?_
  refine shows_bind (shows_seen _ _) fun c _ => ?_
  refine shows_bind (shows_seen _ _) fun c _ => ?_
  exact shows_seen _ _

theorem exkeyDecode_shows (host : Host) (code : Ptr) (key : ExKey) :
    Shows (exkeyDecode host code key) (Exkey.exkeyDecode host code.mem key)
      ([.load code.obj code.base 1, .store "key.ext.depth" 0 1] ++
      ([.load code.obj (code.base + 1) 4, .store "key.ext.fingerprint" 0 4] ++
      ([.load code.obj (code.base + 5) 4, .store "key.ext.child" 0 4] ++
      ([.load code.obj (code.base + 9) 32, .store "key.ext.chain_code" 0 32] ++
      ([.load code.obj (code.base + 42) 32, .store "key.key" 0 32] ++ []))))) := by
  unfold exkeyDecode Exkey.exkeyDecode readKeyExtension
  simp only [bind_assoc, Res.pure_eq, Res.ok_bind]
  refine shows_bind (shows_seen _ _) fun a _ => ?_
  refine shows_bind (shows_seen _ _) fun b _ => ?_
  refine shows_bind (shows_seen _ _) fun c _ => ?_
  refine shows_bind (shows_seen _ _) fun d _ => ?_
  refine shows_bind (shows_seen _ _) fun e _ => ?_
  exact shows_pure _

end Leakage
