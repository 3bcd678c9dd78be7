import Verif.Spec.Nonces
import Verif.Props.Binding
import Verif.Props.Collision
/-! Property theorems C114: two signatures with the same first half (`src/btc/key.c`). -/
open Key SecpLib Secp256k1 WordSpec HmacSpec Sha2Spec

namespace Nonces

theorem hmac256_length (k m : List Byte) : (hmac256 k m).length = 32 := Collision.hmac256_length k m

theorem hmac256_binds {k k' m m' : List Byte} (hk : k.length = 32) (hk' : k'.length = 32) (h : hmac256 k m = hmac256 k' m') :
    (k = k' ∧ m = m') ∨ ∃ x ∈ hmacHashed k m, ∃ y ∈ hmacHashed k' m', Collide SHA256 x y := by
  rcases Collision.hmac_binds (fun m => by rw [Sha2.SHA256_length]; decide) h with ⟨h1, h2⟩ | h1 | h1
  · left
    refine ⟨?_, h2⟩
    obtain ⟨z, h3 | h3⟩ := Collision.blockKey_short (by omega) (by omega) h1
    · have := congrArg List.length h3
      rw [List.length_append, List.length_replicate] at this
      obtain rfl : z = 0 := by omega
      rw [h3]; simp
    · have := congrArg List.length h3
      rw [List.length_append, List.length_replicate] at this
      obtain rfl : z = 0 := by omega
      rw [h3]; simp
  · exact .inr ⟨_, by simp [hmacHashed], _, by simp [hmacHashed], h1⟩
  · exact .inr ⟨_, by simp [hmacHashed], _, by simp [hmacHashed], h1⟩

theorem nonce_binds (i : Nat) : ∀ KV KV' : List Byte × List Byte, KV.1.length = 32 → KV'.1.length = 32 → rfcNonce KV i = rfcNonce KV' i →
    KV = KV' ∨ ∃ x ∈ nonceHashed KV i, ∃ y ∈ nonceHashed KV' i, Collide SHA256 x y := by
  induction i with
  | zero =>
    intro KV KV' hk hk' h
    rcases hmac256_binds hk hk' h with ⟨h1, h2⟩ | h1
    · exact .inl (Prod.ext h1 h2)
    · exact .inr h1
  | succ i ih =>
    intro KV KV' hk hk' h
    simp only [rfcNonce] at h
    simp only [nonceHashed]
    rcases ih _ _ (hmac256_length _ _) (hmac256_length _ _) h with h1 | ⟨x, hx, y, hy, h1⟩
    · rcases hmac256_binds hk hk' (Prod.mk.inj h1).1 with ⟨h2, h3⟩ | ⟨x, hx, y, hy, h2⟩
      · rcases hmac256_binds hk hk' (List.append_inj h3 (by rw [hmac256_length, hmac256_length])).1 with ⟨h4, h5⟩ | ⟨x, hx, y, hy, h4⟩
        · exact .inl (Prod.ext h4 h5)
        · exact .inr ⟨x, by simp only [List.mem_append]; tauto, y, by simp only [List.mem_append]; tauto, h4⟩
      · exact .inr ⟨x, by simp only [List.mem_append]; tauto, y, by simp only [List.mem_append]; tauto, h2⟩
    · exact .inr ⟨x, by simp only [List.mem_append]; tauto, y, by simp only [List.mem_append]; tauto, h1⟩

theorem init_binds {d d' : List Byte} (h : rfcInit d = rfcInit d') : d = d' ∨ ∃ x ∈ initHashed d, ∃ y ∈ initHashed d', Collide SHA256 x y := by
  simp only [rfcInit] at h
  simp only [initHashed]
  rcases hmac256_binds (hmac256_length _ _) (hmac256_length _ _) (Prod.mk.inj h).1 with ⟨-, h2⟩ | ⟨x, hx, y, hy, h2⟩
  · exact .inl (List.cons.inj (List.append_inj h2 (by rw [hmac256_length, hmac256_length])).2).2
  · exact .inr ⟨x, by simp only [List.mem_append]; tauto, y, by simp only [List.mem_append]; tauto, h2⟩

theorem rfcNonce_length (i : Nat) : ∀ KV : List Byte × List Byte, (rfcNonce KV i).length = 32 := by
  induction i with
  | zero => intro KV; exact hmac256_length _ _
  | succ i ih => intro KV; exact ih _

theorem beNat_inj {a b : List Byte} (hl : a.length = b.length) (h : beNat a = beNat b) : a = b := by
  rw [← beBytes_beNat a, ← beBytes_beNat b, h, hl]

theorem binds {key key' hash hash' : List Byte} {i j : Nat} (hk : key.length = 32) (hk' : key'.length = 32)
    (h : nonce key hash i j = nonce key' hash' i j) :
    (key = key' ∧ hash = hash') ∨ ∃ x ∈ allHashed key hash i j, ∃ y ∈ allHashed key' hash' i j, Collide SHA256 x y := by
  have h1 := beNat_inj (by rw [rfcNonce_length, rfcNonce_length]) h
  rcases nonce_binds j _ _ (by simp only [rfcInit]; exact hmac256_length _ _) (by simp only [rfcInit]; exact hmac256_length _ _) h1 with
    h2 | ⟨x, hx, y, hy, h2⟩
  · rcases init_binds h2 with h3 | ⟨x, hx, y, hy, h3⟩
    · have h4 := List.append_cancel_right h3
      exact .inl (List.append_inj h4 (by rw [hk, hk']))
    · exact .inr ⟨x, List.mem_append_left _ hx, y, List.mem_append_left _ hy, h3⟩
  · exact .inr ⟨x, List.mem_append_right _ hx, y, List.mem_append_right _ hy, h2⟩

/-- Nonces of the same `r`. -/
theorem same_r {k k' x y x' y' : Nat} (h0 : 0 < k) (hk : k < n) (h0' : 0 < k') (hk' : k' < n) (h : mul k G = some (x, y)) (h' : mul k' G = some (x', y'))
    (hx : x % n = x' % n) (hu : p ≤ x % n + n) : k = k' ∨ k + k' = n := by
  have a := mul_spec (lt_trans hk n_lt) G_onCurve
  have b := mul_spec (lt_trans hk' n_lt) G_onCurve
  rw [h] at a
  rw [h'] at b
  rcases Binding.usual hu a.1 rfl b.1 hx.symm with e | e
  · left
    rw [a.2, b.2] at e
    have := nsmul_cancel toPoint_G_ne e
    rw [Nat.mod_eq_of_lt hk, Nat.mod_eq_of_lt hk'] at this
    exact this.symm
  · right
    rw [a.2, b.2, eq_neg_iff_add_eq_zero, ← add_nsmul, nsmul_G_eq_zero] at e
    obtain ⟨c, hc⟩ := e
    have h1 : c < 2 := by
      by_contra hge
      have : n * 2 ≤ n * c := Nat.mul_le_mul_left _ (by omega)
      omega
    have h2 : c ≠ 0 := by intro e; rw [e, Nat.mul_zero] at hc; omega
    obtain rfl : c = 1 := by omega
    omega

/-- The key from two relations with the same nonce up to its sign. -/
theorem solve {r z s z' s' d : Nat} (hr0 : 0 < r) (hr : r < n) (hs0 : 0 < s) (hs : s < n) (hs' : s' < n) (hd : d < n)
    (hz : z % n ≠ z' % n) (h : (s' * (z + r * d) : ZMod n) = s * (z' + r * d) ∨ (s' * (z + r * d) : ZMod n) = -(s * (z' + r * d))) :
    d ∈ keysFrom r z s z' s' := by
  have cs := cast_ne_zero hs0 hs
  have cr := cast_ne_zero hr0 hr
  have cz : (z : ZMod n) ≠ z' := fun e => hz ((ZMod.natCast_eq_natCast_iff' _ _ _).1 e)
  have cn : ((n : Nat) : ZMod n) = 0 := ZMod.natCast_self n
  have csub : ((n - s : Nat) : ZMod n) = -(s : ZMod n) := by rw [Nat.cast_sub (by omega), cn, zero_sub]
  have csub' : ((n - s' : Nat) : ZMod n) = -(s' : ZMod n) := by rw [Nat.cast_sub (by omega), cn, zero_sub]
  have fin : ∀ v : Nat, ((v : Nat) : ZMod n) = d → v % n = d := by
    intro v hv
    have := (ZMod.natCast_eq_natCast_iff' _ _ _).1 hv
    rwa [Nat.mod_eq_of_lt hd] at this
  rw [keysFrom, List.mem_cons, List.mem_singleton]
  rcases h with h | h
  · left
    symm
    apply fin
    push_cast
    rw [inv_cast]
    push_cast
    rw [csub, csub']
    have hne : (s' : ZMod n) + -(s : ZMod n) ≠ 0 := by
      intro e
      have e1 : (s' : ZMod n) = s := by linear_combination e
      rw [e1] at h
      have e2 : (s : ZMod n) * ((z : ZMod n) - z') = 0 := by linear_combination h
      rcases mul_eq_zero.1 e2 with e3 | e3
      · exact cs e3
      · exact cz (sub_eq_zero.1 e3)
    field_simp
    linear_combination -h
  · right
    symm
    apply fin
    have cm : ((n - (s * z' + s' * z) % n : Nat) : ZMod n) = -((s : ZMod n) * z' + s' * z) := by
      rw [Nat.cast_sub (Nat.mod_lt _ n_pos).le, cn, ZMod.natCast_mod]; push_cast; ring
    rw [Nat.cast_mul, inv_cast, cm]
    push_cast
    have hne : (s' : ZMod n) + (s : ZMod n) ≠ 0 := by
      intro e
      have e1 : (s' : ZMod n) = -(s : ZMod n) := by linear_combination e
      rw [e1] at h
      have e2 : (s : ZMod n) * ((z : ZMod n) - z') = 0 := by linear_combination -h
      rcases mul_eq_zero.1 e2 with e3 | e3
      · exact cs e3
      · exact cz (sub_eq_zero.1 e3)
    field_simp
    linear_combination -h

end Nonces

open Nonces

/-- C114 (what it would cost). Two signatures accepted under the public key of `key` for hashes of different residues, with the same `r` (not one of the few
with `r + n < p`), give the key away: it is one of two numbers computed from them. -/
theorem C114_violated_same_first_half (nd : Bool) (key : List Byte) (pk : PubObj) (hash hash' : List Byte) (r s s' : Nat) (hv : ValidKey key)
    (hk : keyGetPub nd key = .ok pk) (hh : hash.length = 32) (hh' : hash'.length = 32) (hr : r < n) (hs : s < n) (hs' : s' < n) (hu : p ≤ r + n)
    (hz : beNat hash % n ≠ beNat hash' % n) (h : keyVerify pk hash ⟨r, s⟩ = .ok true) (h' : keyVerify pk hash' ⟨r, s'⟩ = .ok true) :
    ∃ d ∈ keysFrom r (beNat hash) s (beNat hash') s', key = beBytes 32 d := by
  obtain ⟨x0, y0, hp1, hp2, hp3⟩ := pubkeyCreate_valid key hv
  have hQe : pk = some (x0, y0) := by
    rw [keyGetPub, hp1, Res.ok_bind] at hk
    simp only [assertNd_true, Res.ok_bind, Res.pure_eq] at hk
    exact (Res.ok.inj hk).symm
  subst hQe
  have hQ : OnCurve (some (x0, y0)) := hp3
  have hT : toPoint (some (x0, y0)) = beNat key • toPoint G := by
    rw [← hp2]; exact (mul_spec (lt_trans hv.2.2 n_lt) G_onCurve).2
  obtain ⟨hrs, x, y, h1, h2, h3⟩ := (verify_true_iff hQ _ _ _).1 ((Binding.accepts _ hash ⟨r, s⟩ hQ hh hr hs).1 h)
  obtain ⟨hrs', x', y', h1', h2', h3'⟩ := (verify_true_iff hQ _ _ _).1 ((Binding.accepts _ hash' ⟨r, s'⟩ hQ hh' hr hs').1 h')
  simp only [] at hrs hrs' h2 h2' h3 h3'
  rw [hT, ← mul_nsmul', ← add_nsmul] at h3 h3'
  refine ⟨beNat key, ?_, ?_⟩
  · refine solve hrs.1 hrs.2.1 hrs.2.2.1 hrs.2.2.2 hrs'.2.2.2 hv.2.2 hz ?_
    have A : s' • (beNat hash + r * beNat key) • toPoint G = s' • s • toPoint (some (x, y)) := by rw [h3]
    have B : s • (beNat hash' + r * beNat key) • toPoint G = s • s' • toPoint (some (x', y')) := by rw [h3']
    have C : s • s' • toPoint (some (x, y)) = s' • s • toPoint (some (x, y)) := by rw [← mul_nsmul', ← mul_nsmul', Nat.mul_comm]
    rcases Binding.usual hu h1 h2 h1' h2' with e | e
    · left
      rw [e, C, ← A, ← mul_nsmul', ← mul_nsmul'] at B
      have := (ZMod.natCast_eq_natCast_iff' _ _ _).2 (nsmul_cancel toPoint_G_ne B)
      push_cast at this
      exact this.symm
    · right
      rw [e, neg_nsmul, neg_nsmul, C, ← A, eq_neg_iff_add_eq_zero, ← mul_nsmul', ← mul_nsmul', ← add_nsmul, nsmul_G_eq_zero] at B
      have := (ZMod.natCast_eq_zero_iff _ _).2 B
      push_cast at this
      linear_combination this
  · have := beBytes_beNat key
    rw [hv.1] at this
    exact this.symm

/-- C114 (nonces). The signatures `fingera_btc_key_sign` makes with numbers of the generator at the same place have the same `r` only if the two numbers are
opposite modulo `n`, or key and hash are the same, or SHA-256 collides at texts that were given to it for the two. -/
theorem C114_nonces_partial (nd nd' : Bool) (host host' : Host) (sf fuel sf' fuel' : Nat) (key key' hash hash' : List Byte) (sig sig' : Sig)
    (hv : ValidKey key) (hv' : ValidKey key') (hh : hash.length = 32) (hh' : hash'.length = 32)
    (h : keySign nd host sf fuel key hash = .ok (some sig)) (h' : keySign nd' host' sf' fuel' key' hash' = .ok (some sig'))
    (same : sig.r = sig'.r) (hu : p ≤ sig.r + n) :
    ∃ i j i' j', nonceSig key hash (extraData i) j = some (sig.r, sig.s) ∧ nonceSig key' hash' (extraData i') j' = some (sig'.r, sig'.s) ∧
      ((i, j) ≠ (i', j') ∨ nonce key hash i j + nonce key' hash' i' j' = n ∨ (key = key' ∧ hash = hash') ∨
        ∃ x ∈ allHashed key hash i j, ∃ y ∈ allHashed key' hash' i' j', Collide SHA256 x y) := by
  obtain ⟨a, ha, ha2⟩ := C69_sign_sound nd host sf fuel key hash hv hh
  obtain ⟨b, hb, hb2⟩ := C69_sign_sound nd' host' sf' fuel' key' hash' hv' hh'
  rw [h, Res.ok.injEq] at ha
  rw [h', Res.ok.injEq] at hb
  obtain ⟨i, ⟨j, hj, -⟩, -, -⟩ := ha2 sig ha.symm
  obtain ⟨i', ⟨j', hj', -⟩, -, -⟩ := hb2 sig' hb.symm
  refine ⟨i, j, i', j', hj, hj', ?_⟩
  by_cases he : (i, j) = (i', j')
  · obtain ⟨rfl, rfl⟩ := Prod.mk.inj he
    right
    rw [nonceSig] at hj hj'
    have e1 : beNat (rfcNonce (rfcInit (key ++ hash ++ extraData i)) j) = nonce key hash i j := rfl
    have e2 : beNat (rfcNonce (rfcInit (key' ++ hash' ++ extraData i)) j) = nonce key' hash' i j := rfl
    rw [e1] at hj
    rw [e2] at hj'
    split at hj
    · rename_i hk
      split at hj'
      · rename_i hk'
        obtain ⟨x, y, -, m1, m2, -⟩ := sign_some hj
        obtain ⟨x', y', -, m1', m2', -⟩ := sign_some hj'
        rcases same_r hk.1 hk.2 hk'.1 hk'.2 m1 m1' (by rw [← m2, ← m2', same]) (by rw [← m2]; exact hu) with e | e
        · exact .inr (binds hv.1 hv'.1 e)
        · exact .inl e
      · cases hj'
    · cases hj
  · exact .inl he
