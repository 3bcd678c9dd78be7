import Verif.Spec.Binding
import Verif.Lemmas.Binding
import Verif.Props.Ecdsa
import Verif.Lemmas.BeNat
/-! Property theorems C111: for which hashes, keys and forms a signature is accepted (`src/btc/key.c`). -/
open Key SecpLib Secp256k1 WordSpec

namespace Binding

theorem accepts (Q : Nat × Nat) (hash : List Byte) (sig : Sig) (hQ : OnCurve (some Q)) (hh : hash.length = 32) (hr : sig.r < n) (hs : sig.s < n) :
    keyVerify (some Q) hash sig = .ok true ↔ verify (some Q) (beNat hash) sig.r sig.s = true := by
  rw [C66_verify_exact Q hash sig hQ hh hr hs]
  exact ⟨Res.ok.inj, congrArg Res.ok⟩

/-- The two points of the usual case. -/
theorem usual {r x y x' y' : Nat} (hu : p ≤ r + n) (h : OnCurve (some (x, y))) (hx : x % n = r) (h' : OnCurve (some (x', y'))) (hx' : x' % n = r) :
    toPoint (some (x', y')) = toPoint (some (x, y)) ∨ toPoint (some (x', y')) = -toPoint (some (x, y)) := by
  rcases abscissa (onCurve_some.1 h).1 hx with rfl | ⟨-, e⟩
  · rcases abscissa (onCurve_some.1 h').1 hx' with rfl | ⟨-, e⟩
    · exact neg_some h h'
    · omega
  · omega

theorem neg_accept {x y : Nat} (h : OnCurve (some (x, y))) : ∃ y', OnCurve (some (x, y')) ∧ toPoint (some (x, y')) = -toPoint (some (x, y)) :=
  ⟨_, (neg_spec h).1, (neg_spec h).2⟩

end Binding

/-- C111 (hashes). Every signature is accepted under a public key for hashes of at most two residues modulo `n`; four if `r + n` is below
`p` (about one `r` in 2^127). -/
theorem C111_few_messages (Q : Nat × Nat) (sig : Sig) (hQ : OnCurve (some Q)) (hr : sig.r < n) (hs : sig.s < n) :
    ∃ L : List Nat, L.length ≤ (if sig.r + n < p then 4 else 2) ∧
      ∀ hash, hash.length = 32 → keyVerify (some Q) hash sig = .ok true → beNat hash % n ∈ L := by
  obtain ⟨L, hl, hm⟩ := few sig.r (fun (a : Nat) T => a < n ∧ sig.s • T = a • toPoint G + sig.r • toPoint (some Q)) (by
    rintro a b T ⟨ha, h1⟩ ⟨hb, h2⟩
    have := nsmul_cancel toPoint_G_ne (add_right_cancel (h1.symm.trans h2))
    rwa [Nat.mod_eq_of_lt ha, Nat.mod_eq_of_lt hb] at this)
  refine ⟨L, hl, fun hash hh h => ?_⟩
  obtain ⟨-, x, y, h1, h2, h3⟩ := (verify_true_iff hQ _ _ _).1 ((Binding.accepts Q hash sig hQ hh hr hs).1 h)
  exact hm _ x y h1 h2 ⟨Nat.mod_lt _ n_pos, by rw [nsmul_mod]; exact h3⟩

/-- C111 (keys). Every signature is accepted for a hash under at most two public keys; four if `r + n` is below `p`. -/
theorem C111_few_keys (hash : List Byte) (sig : Sig) (hh : hash.length = 32) (hr : sig.r < n) (hs : sig.s < n) :
    ∃ L : List (Nat × Nat), L.length ≤ (if sig.r + n < p then 4 else 2) ∧
      ∀ Q, OnCurve (some Q) → keyVerify (some Q) hash sig = .ok true → Q ∈ L := by
  by_cases h0 : 0 < sig.r
  · obtain ⟨L, hl, hm⟩ := few sig.r
      (fun (Q : Nat × Nat) T => OnCurve (some Q) ∧ sig.s • T = beNat hash • toPoint G + sig.r • toPoint (some Q)) (by
      rintro a b T ⟨ha, h1⟩ ⟨hb, h2⟩
      have := toPoint_inj ha hb (nsmul_inj h0 hr (add_left_cancel (h1.symm.trans h2)))
      exact Option.some.inj this)
    refine ⟨L, hl, fun Q hQ h => ?_⟩
    obtain ⟨-, x, y, h1, h2, h3⟩ := (verify_true_iff hQ _ _ _).1 ((Binding.accepts Q hash sig hQ hh hr hs).1 h)
    exact hm _ x y h1 h2 ⟨hQ, h3⟩
  · refine ⟨[], by simp, fun Q hQ h => ?_⟩
    obtain ⟨⟨h1, -⟩, -⟩ := (verify_true_iff hQ _ _ _).1 ((Binding.accepts Q hash sig hQ hh hr hs).1 h)
    exact absurd h1 h0

/-- C111 (forms). For a public key, a hash and the first half `r` of a signature at most two second halves are accepted; four if `r + n`
is below `p`. -/
theorem C111_few_forms (Q : Nat × Nat) (hash : List Byte) (r : Nat) (hQ : OnCurve (some Q)) (hh : hash.length = 32) (hr : r < n) :
    ∃ L : List Nat, L.length ≤ (if r + n < p then 4 else 2) ∧
      ∀ s, s < n → keyVerify (some Q) hash ⟨r, s⟩ = .ok true → s ∈ L := by
  obtain ⟨L, hl, hm⟩ := few r
    (fun (s : Nat) T => s < n ∧ T ≠ 0 ∧ s • T = beNat hash • toPoint G + r • toPoint (some Q)) (by
    rintro a b T ⟨ha, h0, h1⟩ ⟨hb, -, h2⟩
    have := nsmul_cancel h0 (h1.trans h2.symm)
    rwa [Nat.mod_eq_of_lt ha, Nat.mod_eq_of_lt hb] at this)
  refine ⟨L, hl, fun s hs h => ?_⟩
  obtain ⟨-, x, y, h1, h2, h3⟩ := (verify_true_iff hQ _ _ _).1 ((Binding.accepts Q hash ⟨r, s⟩ hQ hh hr hs).1 h)
  exact hm _ x y h1 h2 ⟨hs, some_ne_zero h1, h3⟩

/-- C111 (malleability). In the usual case (`r + n` is not below `p`) an accepted signature can be changed in its second half in exactly one
way: to `n - s`. -/
theorem C111_forms_exact (Q : Nat × Nat) (hash : List Byte) (r s s' : Nat) (hQ : OnCurve (some Q)) (hh : hash.length = 32) (hr : r < n)
    (hs : s < n) (hs' : s' < n) (hu : p ≤ r + n) (h : keyVerify (some Q) hash ⟨r, s⟩ = .ok true) :
    keyVerify (some Q) hash ⟨r, s'⟩ = .ok true ↔ s' = s ∨ s' = n - s := by
  obtain ⟨⟨-, -, hs0, -⟩, x, y, h1, h2, h3⟩ := (verify_true_iff hQ _ _ _).1 ((Binding.accepts Q hash ⟨r, s⟩ hQ hh hr hs).1 h)
  simp only [] at hs0 h2 h3
  constructor
  · intro h'
    obtain ⟨-, x', y', h1', h2', h3'⟩ := (verify_true_iff hQ _ _ _).1 ((Binding.accepts Q hash ⟨r, s'⟩ hQ hh hr hs').1 h')
    simp only [] at h2' h3'
    rw [← h3] at h3'
    rcases Binding.usual hu h1 h2 h1' h2' with e | e
    · left
      rw [e] at h3'
      have := nsmul_cancel (some_ne_zero h1) h3'
      rwa [Nat.mod_eq_of_lt hs, Nat.mod_eq_of_lt hs'] at this
    · right
      rw [e, neg_nsmul, neg_eq_iff_add_eq_zero, ← add_nsmul] at h3'
      have := nsmul_cancel (b := 0) (some_ne_zero h1) (by rw [h3', zero_nsmul])
      rw [Nat.zero_mod] at this
      obtain ⟨q, hq⟩ := Nat.dvd_of_mod_eq_zero this
      have : q = 1 := by
        have h2n : n * q < n * 2 := by omega
        have := Nat.lt_of_mul_lt_mul_left h2n
        rcases (by omega : q = 0 ∨ q = 1) with rfl | rfl
        · omega
        · rfl
      subst this
      omega
  · rintro (rfl | rfl)
    · exact h
    · rw [C66_both_forms Q hash r s hQ hh hr hs0 hs]; exact h

/-- C111 is violated by ECDSA itself: hashes are taken modulo `n`, so hashes of the same residue have the same signatures. -/
theorem C111_violated_residue (Q : Nat × Nat) (hash hash' : List Byte) (sig : Sig) (hQ : OnCurve (some Q)) (hh : hash.length = 32)
    (hh' : hash'.length = 32) (hr : sig.r < n) (hs : sig.s < n) (h : beNat hash % n = beNat hash' % n) :
    keyVerify (some Q) hash sig = keyVerify (some Q) hash' sig := by
  rw [C66_verify_exact Q hash sig hQ hh hr hs, C66_verify_exact Q hash' sig hQ hh' hr hs, ← verify_mod, h, verify_mod]

/-- C111 (hashes, exactly). In the usual case a signature accepted under the public key of `key` is accepted for another hash exactly if
that is the same, or minus the same minus `2·r·key`, modulo `n`. -/
theorem C111_messages_exact (nd : Bool) (key : List Byte) (Q : Nat × Nat) (hash hash' : List Byte) (sig : Sig) (hv : ValidKey key)
    (hk : keyGetPub nd key = .ok (some Q)) (hh : hash.length = 32) (hh' : hash'.length = 32) (hr : sig.r < n) (hs : sig.s < n)
    (hu : p ≤ sig.r + n) (h : keyVerify (some Q) hash sig = .ok true) :
    keyVerify (some Q) hash' sig = .ok true ↔
      beNat hash' % n = beNat hash % n ∨ (beNat hash' + beNat hash + 2 * sig.r * beNat key) % n = 0 := by
  obtain ⟨x0, y0, hp1, hp2, hp3⟩ := pubkeyCreate_valid key hv
  have hQe : Q = (x0, y0) := by
    rw [keyGetPub, hp1, Res.ok_bind] at hk
    simp only [assertNd_true, Res.ok_bind, Res.pure_eq] at hk
    exact (Option.some.inj (Res.ok.inj hk)).symm
  subst hQe
  have hQ : OnCurve (some (x0, y0)) := hp3
  have hT : toPoint (some (x0, y0)) = beNat key • toPoint G := by
    rw [← hp2]; exact (mul_spec (lt_trans hv.2.2 n_lt) G_onCurve).2
  obtain ⟨hrs, x, y, h1, h2, h3⟩ := (verify_true_iff hQ _ _ _).1 ((Binding.accepts _ hash sig hQ hh hr hs).1 h)
  rw [hT] at h3
  rw [Binding.accepts _ hash' sig hQ hh' hr hs, verify_true_iff hQ, hT]
  have hneg : ∀ z' : Nat, (z' + beNat hash + 2 * sig.r * beNat key) % n = 0 ↔
      -(beNat hash • toPoint G + sig.r • beNat key • toPoint G) = z' • toPoint G + sig.r • beNat key • toPoint G := by
    intro z'
    rw [neg_eq_iff_add_eq_zero, ← mul_nsmul', ← add_nsmul, ← add_nsmul, ← add_nsmul, nsmul_G_eq_zero, Nat.dvd_iff_mod_eq_zero]
    rw [show beNat hash + sig.r * beNat key + (z' + sig.r * beNat key) = z' + beNat hash + 2 * sig.r * beNat key by ring]
  rw [hneg]
  constructor
  · rintro ⟨-, x', y', h1', h2', h3'⟩
    rcases Binding.usual hu h1 h2 h1' h2' with e | e
    · left
      rw [e, h3] at h3'
      exact (nsmul_cancel toPoint_G_ne (add_right_cancel h3')).symm
    · right
      rw [e, neg_nsmul, h3] at h3'
      exact h3'
  · rintro (e | e)
    · exact ⟨hrs, x, y, h1, h2, by rw [h3, ← nsmul_mod (beNat hash), ← e, nsmul_mod]⟩
    · obtain ⟨y', g1, g2⟩ := Binding.neg_accept h1
      exact ⟨hrs, x, y', g1, h2, by rw [g2, neg_nsmul, h3, e]⟩

/-- C111 is violated by ECDSA itself: with the key one can name, for every signature accepted under its public key, a second hash (of another
residue modulo `n`) for which it is accepted too. -/
theorem C111_violated_second_message (nd : Bool) (key : List Byte) (Q : Nat × Nat) (hash : List Byte) (sig : Sig) (hv : ValidKey key)
    (hk : keyGetPub nd key = .ok (some Q)) (hh : hash.length = 32) (hr : sig.r < n) (hs : sig.s < n)
    (h : keyVerify (some Q) hash sig = .ok true) :
    ∃ hash' : List Byte, hash'.length = 32 ∧ (beNat hash' + beNat hash + 2 * sig.r * beNat key) % n = 0 ∧
      beNat hash' % n ≠ beNat hash % n ∧ keyVerify (some Q) hash' sig = .ok true := by
  obtain ⟨x0, y0, hp1, hp2, hp3⟩ := pubkeyCreate_valid key hv
  have hQe : Q = (x0, y0) := by
    rw [keyGetPub, hp1, Res.ok_bind] at hk
    simp only [assertNd_true, Res.ok_bind, Res.pure_eq] at hk
    exact (Option.some.inj (Res.ok.inj hk)).symm
  subst hQe
  have hQ : OnCurve (some (x0, y0)) := hp3
  have hT : toPoint (some (x0, y0)) = beNat key • toPoint G := by
    rw [← hp2]; exact (mul_spec (lt_trans hv.2.2 n_lt) G_onCurve).2
  obtain ⟨hrs, x, y, h1, h2, h3⟩ := (verify_true_iff hQ _ _ _).1 ((Binding.accepts _ hash sig hQ hh hr hs).1 h)
  rw [hT] at h3
  let t := beNat hash + 2 * sig.r * beNat key
  let z' := (n - t % n) % n
  have hz' : z' < n := Nat.mod_lt _ n_pos
  have hb : beNat (beBytes 32 z') = z' := by
    rw [beNat_beBytes]; exact Nat.mod_eq_of_lt (lt_trans hz' (lt_of_lt_of_eq n_lt (by norm_num)))
  have hsum : (z' + t) % n = 0 := by
    have ht : t % n < n := Nat.mod_lt _ n_pos
    have hd := Nat.div_add_mod t n
    rw [show z' = (n - t % n) % n from rfl, Nat.mod_add_mod, show n - t % n + t = n * (t / n + 1) by rw [Nat.mul_add, Nat.mul_one]; omega,
      Nat.mul_mod_right]
  have hz : (beNat (beBytes 32 z') + beNat hash + 2 * sig.r * beNat key) % n = 0 := by
    rw [hb, Nat.add_assoc]; exact hsum
  have hneg : -(beNat hash • toPoint G + sig.r • beNat key • toPoint G) = z' • toPoint G + sig.r • beNat key • toPoint G := by
    rw [neg_eq_iff_add_eq_zero, ← mul_nsmul', ← add_nsmul, ← add_nsmul, ← add_nsmul, nsmul_G_eq_zero, Nat.dvd_iff_mod_eq_zero]
    rw [show beNat hash + sig.r * beNat key + (z' + sig.r * beNat key) = z' + beNat hash + 2 * sig.r * beNat key by ring]
    rw [hb] at hz; exact hz
  obtain ⟨y', g1, g2⟩ := Binding.neg_accept h1
  refine ⟨beBytes 32 z', by simp [beBytes], hz, ?_, ?_⟩
  · rw [hb]
    intro e
    have e2 : z' • toPoint G = beNat hash • toPoint G := by rw [← nsmul_mod z', e, nsmul_mod]
    rw [e2, ← h3, neg_eq_iff_add_eq_zero] at hneg
    have h0 := no_two_torsion _ hneg
    exact some_ne_zero h1 (nsmul_inj hrs.2.2.1 hrs.2.2.2 (h0.trans (nsmul_zero _).symm))
  · rw [Binding.accepts _ _ sig hQ (by simp [beBytes]) hr hs, verify_true_iff hQ, hT, hb]
    exact ⟨hrs, x, y', g1, h2, by rw [g2, neg_nsmul, h3, hneg]⟩

set_option linter.constructorNameAsVariable false in
theorem Binding.otherKey_spec {Q : Pt} (hQ : OnCurve Q) (z r : Nat) (h0 : 0 < r) (hr : r < n) : OnCurve (otherKey Q z r) ∧
    r • toPoint (otherKey Q z r) = -(2 • z • toPoint G + r • toPoint Q) := by
  obtain ⟨b1, b2⟩ := mul_spec (P := G) (lt_of_mod (2 * z * invMod n r)) G_onCurve
  unfold otherKey
  generalize mul (2 * z * invMod n r % n) G = A at b1 b2 ⊢
  obtain ⟨c1, c2⟩ := add_spec b1 hQ
  generalize add A Q = B at c1 c2 ⊢
  obtain ⟨d1, d2⟩ := neg_spec c1
  refine ⟨d1, ?_⟩
  rw [d2, c2, b2, neg_nsmul, nsmul_add, nsmul_mod]
  generalize toPoint G = T
  rw [← mul_nsmul', ← mul_nsmul']
  have : ((r * (2 * z * invMod n r) : Nat) : ZMod n) = ((2 * z : Nat) : ZMod n) := by
    have := cast_ne_zero h0 hr
    push_cast
    rw [inv_cast]
    field_simp
  rw [nsmul_congr this]

attribute [local irreducible] otherKey

/-- C111 (keys, exactly). In the usual case a signature accepted under `Q` is accepted under another public key exactly if that is
`Q` or `-(Q + 2·z/r·G)`. -/
theorem C111_keys_exact (Q Q' : Nat × Nat) (hash : List Byte) (sig : Sig) (hQ : OnCurve (some Q)) (hQ' : OnCurve (some Q')) (hh : hash.length = 32)
    (hr : sig.r < n) (hs : sig.s < n) (hu : p ≤ sig.r + n) (h : keyVerify (some Q) hash sig = .ok true) :
    keyVerify (some Q') hash sig = .ok true ↔ Q' = Q ∨ some Q' = otherKey (some Q) (beNat hash) sig.r := by
  obtain ⟨hrs, x, y, h1, h2, h3⟩ := (verify_true_iff hQ _ _ _).1 ((Binding.accepts _ hash sig hQ hh hr hs).1 h)
  obtain ⟨o1, o2⟩ := Binding.otherKey_spec hQ (beNat hash) sig.r hrs.1 hrs.2.1
  rw [Binding.accepts _ hash sig hQ' hh hr hs, verify_true_iff hQ']
  have key : ∀ T U V : W.Point, -(U + V) = U + T ↔ T = -(2 • U + V) := by
    intro T U V
    constructor
    · intro e; rw [two_nsmul, add_assoc, neg_add, e]; abel
    · intro e; rw [e, two_nsmul]; abel
  constructor
  · rintro ⟨-, x', y', h1', h2', h3'⟩
    rcases Binding.usual hu h1 h2 h1' h2' with e | e
    · left
      rw [e, h3] at h3'
      exact (Option.some.inj (toPoint_inj hQ hQ' (nsmul_inj hrs.1 hrs.2.1 (add_left_cancel h3')))).symm
    · right
      rw [e, neg_nsmul, h3, key, ← o2] at h3'
      exact toPoint_inj hQ' o1 (nsmul_inj hrs.1 hrs.2.1 h3')
  · rintro (rfl | e)
    · exact ⟨hrs, x, y, h1, h2, h3⟩
    · obtain ⟨y', g1, g2⟩ := Binding.neg_accept h1
      exact ⟨hrs, x, y', g1, h2, by rw [g2, neg_nsmul, h3, key, e, o2]⟩

/-- C111 is violated by ECDSA itself: from a signature accepted under `Q` anybody can compute a second point under which, unless it is the point at
infinity, the signature is accepted too. -/
theorem C111_violated_second_key (Q : Nat × Nat) (hash : List Byte) (sig : Sig) (hQ : OnCurve (some Q)) (hh : hash.length = 32)
    (hr : sig.r < n) (hs : sig.s < n) (h : keyVerify (some Q) hash sig = .ok true) :
    otherKey (some Q) (beNat hash) sig.r ≠ some Q ∧
    ∀ Q', otherKey (some Q) (beNat hash) sig.r = some Q' → OnCurve (some Q') ∧ keyVerify (some Q') hash sig = .ok true := by
  obtain ⟨hrs, x, y, h1, h2, h3⟩ := (verify_true_iff hQ _ _ _).1 ((Binding.accepts _ hash sig hQ hh hr hs).1 h)
  obtain ⟨o1, o2⟩ := Binding.otherKey_spec hQ (beNat hash) sig.r hrs.1 hrs.2.1
  constructor
  · intro e
    rw [e] at o2
    have h0 := no_two_torsion (sig.s • toPoint (some (x, y))) (by
      rw [h3]
      generalize toPoint G = T at o2
      generalize toPoint (some Q) = S at o2
      generalize beNat hash • T = U at o2
      generalize sig.r • S = V at o2
      rw [two_nsmul, eq_neg_iff_add_eq_zero] at o2
      rw [← o2]; abel)
    exact some_ne_zero h1 (nsmul_inj hrs.2.2.1 hrs.2.2.2 (h0.trans (nsmul_zero _).symm))
  · intro Q' e
    rw [e] at o1 o2
    refine ⟨o1, ?_⟩
    obtain ⟨y', g1, g2⟩ := Binding.neg_accept h1
    rw [Binding.accepts _ hash sig o1 hh hr hs, verify_true_iff o1]
    refine ⟨hrs, x, y', g1, h2, ?_⟩
    rw [g2, neg_nsmul, h3, o2, two_nsmul]; abel
