import Verif.Props.Binding
import Verif.Cases.Keys
/-! The theorems of `Verif.Props.Binding` applied: the signature of `satoshiHash` with the key 1. -/
namespace Cases
open Key SecpLib Secp256k1 WordSpec

theorem one_pub : keyGetPub false (beBytes 32 1) = .ok (some (gx, gy)) := by decide +kernel
theorem sg_ok : keyVerify (some (gx, gy)) satoshiHash sg = .ok true := by
  obtain ⟨sf, fuel, h⟩ := signed
  obtain ⟨pk, h1, h2⟩ := C65_sign_verify false .little sf fuel _ _ sg one_valid' hash_len h
  rw [one_pub] at h1
  rw [Res.ok.inj h1]; exact h2
theorem sg_r : sg.r < n := by decide +kernel
theorem sg_s : sg.s < n := by decide +kernel
theorem sg_usual : p ≤ sg.r + n := by decide +kernel

example := C111_few_messages (gx, gy) sg g_on sg_r sg_s
example := C111_few_keys satoshiHash sg hash_len sg_r sg_s
example := C111_few_forms (gx, gy) satoshiHash sg.r g_on hash_len sg_r
example := C111_forms_exact (gx, gy) satoshiHash sg.r sg.s (n - sg.s) g_on hash_len sg_r sg_s (by decide +kernel) sg_usual sg_ok
example := C111_violated_residue (gx, gy) (beBytes 32 5) (beBytes 32 (n + 5)) sg g_on (by decide +kernel) (by decide +kernel) sg_r sg_s (by decide +kernel)
example := C111_messages_exact false (beBytes 32 1) (gx, gy) satoshiHash (beBytes 32 7) sg one_valid' one_pub hash_len (by decide +kernel) sg_r sg_s
  sg_usual sg_ok
example := C111_violated_second_message false (beBytes 32 1) (gx, gy) satoshiHash sg one_valid' one_pub hash_len sg_r sg_s sg_ok
example := C111_keys_exact (gx, gy) (gx, gy) satoshiHash sg g_on g_on hash_len sg_r sg_s sg_usual sg_ok
example := C111_violated_second_key (gx, gy) satoshiHash sg g_on hash_len sg_r sg_s sg_ok
/-- The second key is indeed a point. -/
example : otherKey (some (gx, gy)) (beNat satoshiHash) sg.r ≠ none := by
  intro e
  have h := (Binding.otherKey_spec g_on (beNat satoshiHash) sg.r (by decide +kernel) sg_r).2
  rw [e, show toPoint none = 0 from rfl, nsmul_zero, eq_comm, neg_eq_zero, show (some (gx, gy) : Pt) = G from rfl, ← mul_nsmul', ← add_nsmul,
    nsmul_G_eq_zero] at h
  exact absurd h (by decide +kernel)
end Cases
