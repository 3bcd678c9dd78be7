import Verif.Props.Nonces
import Verif.Cases.Binding
/-! Concrete cases for C114: the key 1, the hashes 5 and 7, both signed with the nonce 1 (so `r` is the abscissa of `G`). -/
namespace Cases
open Key SecpLib Secp256k1 WordSpec

theorem nonce_one (z : Nat) (hz : z < 1000) : keyVerify (some (gx, gy)) (beBytes 32 z) ⟨gx, gx + z⟩ = .ok true := by
  have h1 : gx + 1000 < n := by decide +kernel
  have h0 : 0 < gx := by decide +kernel
  have hG : (some (gx, gy) : Pt) = G := rfl
  have hb : beNat (beBytes 32 z) = z := beNat_beBytes_lt 32 z (by omega)
  have hon := g_on
  have hlt : gx + z < n := Nat.lt_of_le_of_lt (Nat.add_le_add_left hz.le gx) h1
  have hg : gx < n := Nat.lt_of_le_of_lt (Nat.le_add_right gx z) hlt
  have hp : 0 < gx + z := Nat.lt_of_lt_of_le h0 (Nat.le_add_right gx z)
  refine (Binding.accepts _ _ _ hon (by simp [beBytes]) hg hlt).2 ((verify_true_iff hon _ _ _).2 ?_)
  rw [hb]
  refine ⟨⟨h0, hg, hp, hlt⟩, gx, gy, hon, Nat.mod_eq_of_lt hg, ?_⟩
  simp only []
  rw [hG, ← add_nsmul, Nat.add_comm z]

example : ∃ d ∈ keysFrom gx (beNat (beBytes 32 5)) (gx + 5) (beNat (beBytes 32 7)) (gx + 7), beBytes 32 1 = beBytes 32 d :=
  C114_violated_same_first_half false (beBytes 32 1) (some (gx, gy)) (beBytes 32 5) (beBytes 32 7) gx (gx + 5) (gx + 7) one_valid' one_pub
    (by decide +kernel) (by decide +kernel) (by decide +kernel) (by decide +kernel) (by decide +kernel) (by decide +kernel) (by decide +kernel)
    (nonce_one 5 (by decide)) (nonce_one 7 (by decide))
/-- Indeed. -/
example : (keysFrom gx 5 (gx + 5) 7 (gx + 7)).head? = some 1 := by decide +kernel

example : ∃ i j i' j', nonceSig (beBytes 32 1) satoshiHash (extraData i) j = some (sg.r, sg.s) ∧
    nonceSig (beBytes 32 1) satoshiHash (extraData i') j' = some (sg.r, sg.s) := by
  obtain ⟨sf, fuel, h⟩ := signed
  obtain ⟨i, j, i', j', h1, h2, -⟩ := C114_nonces_partial false false .little .little sf fuel sf fuel _ _ _ _ sg sg one_valid' one_valid' hash_len hash_len
    h h rfl sg_usual
  exact ⟨i, j, i', j', h1, h2⟩

end Cases
