import Verif.Spec.Climb
import Verif.Props.Bip32
/-! Property theorems C112: the secret key of a child and its parent (`src/btc/key.c`, `src/btc/exkey.c`). -/
open Key Exkey SecpLib Secp256k1 WordSpec Bip32Spec

theorem climb_eq (nd : Bool) (host : Host) (buf : ExKey) (hb : BufPriv buf) (path : List (U32 × U32)) (hp : ∀ s ∈ path, s.1.toNat < 2 ^ 31) :
    ∀ key ckey : ExKey, WfPriv key → privPath nd host buf key path = .ok (ckey, true) →
      climb (mul (beNat key.key) G) key.ext.chainCode (path.map Prod.fst) (beNat ckey.key) = beNat key.key := by
  induction path with
  | nil =>
    intro key ckey _ h
    rw [privPath] at h
    rw [(Prod.mk.inj (Res.ok.inj h)).1]; rfl
  | cons s path ih =>
    obtain ⟨child, fp⟩ := s
    intro key ckey hk h
    have hi : child.toNat < 2 ^ 31 := hp _ (List.mem_cons_self)
    rw [privPath, C52_exkey_derive nd host key buf child fp hk hb, Res.ok_bind] at h
    have hcomm := ckd_commute (beNat key.key) key.ext.chainCode child hk.1.2.2 hi
    have hI : privI (beNat key.key) key.ext.chainCode child = pubI (mul (beNat key.key) G) key.ext.chainCode child := by
      rw [privI, if_neg (by omega)]; rfl
    cases hc : ckdPriv (beNat key.key) key.ext.chainCode child with
    | none => rw [hc] at h; simp at h
    | some kc =>
      obtain ⟨k, c⟩ := kc
      rw [hc] at h hcomm
      simp only [if_true] at h
      obtain ⟨s1, s2, s3⟩ := ckdPriv_some hc
      obtain ⟨v1, v2⟩ := ser256_valid s1 s2
      have hwf : WfPriv ⟨⟨key.ext.depth + 1#8, fp, child, c⟩, ser256 k⟩ := ⟨v1, s3⟩
      have hrec := ih (fun s hs => hp s (List.mem_cons_of_mem _ hs)) _ ckey hwf h
      simp only [v2] at hrec
      rw [ckdPriv, hI] at hc
      rw [ckdPub, Option.map_some] at hcomm
      rw [List.map_cons, climb]
      have hlt := hk.1.2.2
      generalize pubI (mul (beNat key.key) G) key.ext.chainCode child = I at *
      generalize mul (beNat key.key) G = P at *
      generalize hIL : parse256 (I.take 32) = IL at *
      simp only [] at hc hcomm ⊢
      generalize mul IL G = S at *
      generalize add S P = U at *
      split at hc
      · cases hc
      · rename_i hn
        split at hcomm
        · cases hcomm
        · rw [Option.some.injEq, Prod.mk.injEq] at hc hcomm
          rw [hcomm.1, hcomm.2, hrec]
          generalize beNat key.key = K at *
          have hILn : IL < n := by omega
          rw [← hc.1, Nat.mod_add_mod, show IL + K + (n - IL) = K + n by omega, Nat.add_mod_right, Nat.mod_eq_of_lt hlt]

/-- C112 is violated by the code, as by BIP 32: from the extended public key of an ancestor and the secret key of any descendant on a path without hardened
indices the secret key of the ancestor (and so that of all its descendants) is computed by `climb`, from public data and at the cost of a derivation. -/
theorem C112_violated_ancestor (nd : Bool) (host : Host) (buf : ExKey) (out : ExPubkey) (path : List (U32 × U32)) (key ckey : ExKey)
    (hb : BufPriv buf) (ho : BufPub out) (hk : WfPriv key) (hp : ∀ s ∈ path, s.1.toNat < 2 ^ 31)
    (h : privPath nd host buf key path = .ok (ckey, true)) :
    ∃ x y, exkeyGetPub nd key out = .ok ⟨key.ext, compressed x y⟩ ∧
      ser256 (climb (some (x, y)) key.ext.chainCode (path.map Prod.fst) (beNat ckey.key)) = key.key := by
  obtain ⟨x, y, h1, h2, -⟩ := exkeyGetPub_eq nd key out hk ho
  refine ⟨x, y, h1, ?_⟩
  have := climb_eq nd host buf hb path hp key ckey hk h
  rw [h2] at this
  rw [this, ser256]
  have hl := hk.1.1
  rw [← hl]
  exact beBytes_beNat key.key

/-- C112 is violated (one step). From the extended public key and the secret key of one child that is not hardened: subtract the first half of the HMAC of
chain code, public key and index. -/
theorem C112_violated_parent (nd : Bool) (host : Host) (der : ExKey) (out : ExPubkey) (key ckey : ExKey) (child fp : U32)
    (hd : BufPriv der) (ho : BufPub out) (hk : WfPriv key) (hi : child.toNat < 2 ^ 31)
    (h : exkeyDerive nd host key der child fp = .ok (ckey, true)) :
    ∃ pub, exkeyGetPub nd key out = .ok pub ∧
      ser256 ((beNat ckey.key + (n - beNat ((Bip32Spec.hmac pub.ext.chainCode (pub.pubkey ++ ser32 child)).take 32))) % n) = key.key := by
  obtain ⟨x, y, h1, h2⟩ := C112_violated_ancestor nd host der out [(child, fp)] key ckey hd ho hk (by simpa using hi) (by
    rw [privPath, h]; rfl)
  exact ⟨_, h1, h2⟩
