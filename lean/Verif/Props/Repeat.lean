import Verif.Props.Nonces
import Verif.Props.OneKey
/-! Property theorem C114, the violation by counting (`src/btc/key.c`). -/
open Key SecpLib Secp256k1 WordSpec

/-- C114 cannot hold without exception. For every secret key there is a hash `fingera_btc_key_sign` never finishes with, or there are two hashes of different
residues whose signatures have the same first half, from which the key is computed as in `C114_violated_same_first_half` (unless `r` is one of the few with
`r + n < p`). -/
theorem C114_violated_repeat (key : List Byte) (hv : ValidKey key) :
    (∃ hash : List Byte, hash.length = 32 ∧ ∀ (nd : Bool) (host : Host) (sf fuel : Nat) (sig : Sig), keySign nd host sf fuel key hash ≠ .ok (some sig)) ∨
    ∃ (hash hash' : List Byte) (r s s' : Nat), hash.length = 32 ∧ hash'.length = 32 ∧ beNat hash % n ≠ beNat hash' % n ∧
      (∀ (nd : Bool) (host : Host), ∃ sf fuel, keySign nd host sf fuel key hash = .ok (some ⟨r, s⟩) ∧
        keySign nd host sf fuel key hash' = .ok (some ⟨r, s'⟩)) ∧
      (p ≤ r + n → ∃ d ∈ keysFrom r (beNat hash) s (beNat hash') s', key = beBytes 32 d) := by
  by_cases hall : ∀ hash : List Byte, hash.length = 32 → ∃ r s, LowRSig key hash r s
  · right
    choose! R S hRS using hall
    obtain ⟨i, hi, j, hj, hij, he⟩ := Finset.exists_ne_map_eq_of_card_lt_of_maps_to (s := Finset.range (2 ^ 255 + 1))
      (t := Finset.range (2 ^ 255)) (f := fun i => R (beBytes 32 i)) (by rw [Finset.card_range, Finset.card_range]; exact Nat.lt_succ_self _)
      (fun i _ => Finset.mem_coe.2 (Finset.mem_range.2 (lowRSig_range (hRS (beBytes 32 i) (Endian.beBytes_length ..))).2.2.1))
    have small : ∀ {i : Nat}, i ∈ Finset.range (2 ^ 255 + 1) → beNat (beBytes 32 i) = i ∧ i % n = i := fun h =>
      ⟨beNat_beBytes_lt 32 _ (Nat.lt_of_lt_of_le (Finset.mem_range.1 h) (by decide)),
        Nat.mod_eq_of_lt (Nat.lt_of_lt_of_le (Finset.mem_range.1 h) (by decide))⟩
    have hne : beNat (beBytes 32 i) % n ≠ beNat (beBytes 32 j) % n := by
      rw [(small hi).1, (small hj).1, (small hi).2, (small hj).2]; exact hij
    have hli := Endian.beBytes_length 32 i
    have hlj := Endian.beBytes_length 32 j
    have he : R (beBytes 32 i) = R (beBytes 32 j) := he
    have hsi := hRS _ hli
    have hsj := hRS _ hlj
    rw [← he] at hsj
    generalize beBytes 32 i = hash at *
    generalize beBytes 32 j = hash' at *
    have both : ∀ (nd : Bool) (host : Host), ∃ sf fuel, keySign nd host sf fuel key hash = .ok (some ⟨R hash, S hash⟩) ∧
        keySign nd host sf fuel key hash' = .ok (some ⟨R hash, S hash'⟩) := by
      intro nd host
      obtain ⟨a, b, h1⟩ := C69_sign_complete nd host key hash hv hli _ _ hsi
      obtain ⟨c, d, h2⟩ := C69_sign_complete nd host key hash' hv hlj _ _ hsj
      exact ⟨max a c, max b d, h1 _ _ (Nat.le_max_left ..) (Nat.le_max_left ..), h2 _ _ (Nat.le_max_right ..) (Nat.le_max_right ..)⟩
    refine ⟨hash, hash', R hash, S hash, S hash', hli, hlj, hne, both, fun hu => ?_⟩
    obtain ⟨sf, fuel, h1, h2⟩ := both true .little
    obtain ⟨pk, hpk, v1⟩ := C65_sign_verify true .little sf fuel key hash _ hv hli h1
    obtain ⟨pk', hpk', v2⟩ := C65_sign_verify true .little sf fuel key hash' _ hv hlj h2
    rw [← Res.ok.inj (hpk.symm.trans hpk')] at v2
    have hn : n / 2 < n := by decide
    have r1 := lowRSig_range hsi
    have r2 := lowRSig_range hsj
    exact C114_violated_same_first_half true key pk hash hash' _ _ _ hv hpk hli hlj r1.2.1 (Nat.lt_of_le_of_lt r1.2.2.2.2 hn)
      (Nat.lt_of_le_of_lt r2.2.2.2.2 hn) hu hne v1 v2
  · left
    push Not at hall
    obtain ⟨hash, hh, hno⟩ := hall
    refine ⟨hash, hh, fun nd host sf fuel sig he => ?_⟩
    obtain ⟨x, hx, hx2⟩ := C69_sign_sound nd host sf fuel key hash hv hh
    rw [he, Res.ok.injEq] at hx
    exact hno _ _ (hx2 sig hx.symm)
