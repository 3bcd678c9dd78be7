import Verif.Props.Alignment
import Verif.Props.InPlaceKeys
import Verif.Props.KeyContext
import Verif.Props.OutOfMemory
import Verif.Props.Overlap
import Verif.Props.RandomOs
import Verif.Props.SizeT
import Verif.Props.Temporaries
import Verif.Props.TextKinds
import Verif.Props.Threads
import Verif.Cases.Keys
/-!
Every theorem with hypotheses of the remaining files of `Props` (alignment, calls in place, the key context, out of memory, overlapping
arrays, randomness, `size_t`, temporaries, kinds of texts, threads), applied to concrete arguments that meet them.
-/
namespace Cases

section
open Alignment

/-! ### Alignment -/
example := C85_sha256_iff_partial ⟨4, 8⟩ .little 40 13 (cstr "abc") 3 (aa 32) (by decide) (by decide) (by decide)
example := C85_sha512_iff_partial ⟨4, 8⟩ .little 40 16 (cstr "abc") 3 (aa 64) (by decide) (by decide) (by decide)
example := C85_sha1_iff_partial ⟨4, 4⟩ .little 44 12 (cstr "abc") 3 (aa 20) (by decide) (by decide) (by decide)
example := C85_ripemd160_iff_partial ⟨4, 8⟩ .little 40 12 (cstr "abc") 3 (aa 20) (by decide) (by decide) (by decide)
example := C85_hmac_sha256_iff_partial ⟨4, 8⟩ .little 8 16 24 12 (cstr "Jefe") 4 (cstr "what") 4 (aa 32) (by decide) (by decide) (by decide)
  (by decide) (by decide)
example := C85_hmac_sha512_iff_partial ⟨4, 8⟩ .little 8 16 24 12 (cstr "Jefe") 4 (cstr "what") 4 (aa 64) (by decide) (by decide) (by decide)
  (by decide) (by decide)
example := C85_hash256_iff_partial ⟨4, 8⟩ .little 4 8 16 12 (cstr "abc") 3 (aa 32) (by decide) (by decide) (by decide)
example := C85_hash160_iff_partial ⟨4, 8⟩ .little 4 8 16 12 (cstr "abc") 3 (aa 20) (by decide) (by decide) (by decide)
example := C85_hash256_d64_iff_partial ⟨4, 8⟩ .little 12 (aa 64) (List.replicate 128 1#8) 2 (by decide) (by decide) (by decide +kernel)
example := C85_bip32_hash_iff_partial ⟨4, 8⟩ .little 8 16 12 (aa 32) 7#32 0#8 (aa 33) (aa 64) (by decide) (by decide) (by decide)
example := C85_unaligned_machine .little 41 13 (cstr "abc") 3 (aa 32) (by decide) (by decide) (by decide)
example := C85_aligned_places .little 5 3 (cstr "abc") 3 (aa 32) (by decide) (by decide) (by decide)
example := C85_violated_unaligned_output .little 40 13 (cstr "abc") 3 (aa 32) (by decide) (by decide) (by decide) (by decide)
example := C85_violated_to_base58_check_partial ⟨4, 8⟩ ⟨4, 8, 12, 16⟩ .little [1#8, 2#8, 3#8] 3 [0#8] 1 (aa 12) (by decide) (by decide) (by decide)
  (by decide +kernel)
example := C85_violated_from_base58_check_partial ⟨4, 8⟩ ⟨4, 8, 12, 16⟩ .little true (cstr "13DV5niCGP") [] (aa 9)
  [0#8, 1#8, 2#8, 3#8, 0xF7#8, 0xA3#8, 0x55#8, 0xC0#8] (by decide) (by decide) (by decide) (by decide +kernel) (by decide)
end

section
open InPlaceKeys Exkey Key SecpLib Secp256k1 Bip32Spec WordSpec

/-! ### InPlaceKeys -/
example := C79_public_in_place_bip32 false .little ⟨3#8, 5#32, 7#32, vector1Chain⟩ gx gy 7#32 9#32 g_on (by decide +kernel) (by decide)
example := C79_private_in_place_partial false .little m1 7#32 9#32 (by decide +kernel)
example := C79_private_in_place_bip32_partial false .little m1 0x80000000#32 9#32 m1_wf
example := C79_paths_in_place_partial false .little kb kb_buf [(7#32, 9#32), (0x80000000#32, 1#32)] m1 m1_wf
example := C79_violated_overlapping_memcpy false .little m1 7#32 9#32 m1_wf
end

section
open KeyContext Random SecpLib Secp256k1 WordSpec

/-! ### KeyContext -/
def ff32 : List Byte := List.replicate 32 0xFF#8
example := C56_key_new_valid true 5 [.bytes ff32, .bytes (List.replicate 32 7#8), .error] [.error] (aa 34)
  (List.replicate 32 7#8 ++ [0xAA#8, 0xAA#8]) (by decide) (by decide +kernel)
example := C56_first_valid 2 [ff32] one32 [.error] (aa 34) (by decide) (by decide +kernel) one_valid (by decide)

/-- A history: started, stopped, started, used; and one without the use. -/
def hist : List KeyContext.Call := [.init goodOs, .uninit, .init goodOs, .op .keySign]
def hist0 : List KeyContext.Call := [.init goodOs, .init goodOs, .uninit]
theorem os_ok (cs : List KeyContext.Call) (h : ∀ os, KeyContext.Call.init os ∈ cs → os = goodOs) : OsReturns cs := by
  intro os hos
  rw [h os hos]
  exact ⟨_, C58_full_read_partial _ (List.replicate 32 9#8) 32 [] (by omega) (by simp) (by simp)⟩
theorem hist_os : OsReturns hist := os_ok _ (by simp [hist])
theorem hist0_os : OsReturns hist0 := os_ok _ (by simp [hist0])
theorem hist0_noops : NoOps hist0 := by simp [NoOps, hist0]
example := (C57_assertions hist0 hist0_os hist0_noops).2 (fun h => h)
example := C57_clean true hist hist_os trivial
example := C57_ndebug_no_double_free hist0 hist0_os hist0_noops
example := C64_calls false hist .keyVerify hist_os trivial
end

section
open OutOfMemory AddressSpec

/-! ### OutOfMemory -/
example := C81_served (fun _ _ => true) (fun _ _ => rfl) .little true [1#8, 2#8] [0#8] (aa 9) 2 1 3
example := C81_from_base58_exact (fun k _ => k == 0) true (cstr " 115T ") [] (aa 9) 0 (by decide)
example := (C81_violated_refused (fun _ _ => false) (fun _ _ => rfl) .little true (List.replicate 125 1#8) [0#8] (aa 200) (List.replicate 175 50#8)
  [] (aa 200) 0 (by decide +kernel)).2.1 (by decide +kernel)
example := C81_violated_address (fun _ _ => false) (fun _ _ => rfl) .little true junk (List.replicate 175 50#8) [] (aa 200) 200 0 mainnet
  (by decide +kernel) (by decide +kernel) (by decide +kernel)
end

section
open Base58 Base58Check AddressSpec

/-! ### Overlap -/
example := (C83_digest_over_message .little (aa 64) 3 50 10 (by decide) (by decide)).2.2.1 (by decide)
example := (C83_hmac_over_inputs .little (aa 200) 0 100 50 100 20 (by decide +kernel) (by decide) (by decide +kernel) (by decide)).2
  (by decide +kernel)
example := C83_bip32_hash_over_inputs .little (aa 64) 0 7#32 0#8 32 0 (by decide) (by decide) (by decide)
example := C84_base58_roundtrip_in_place true [1#8, 2#8, 3#8] (aa 4) (by decide) (by decide)
example := C84_secret_keys_in_place false .little true .main true 7 (aa 64) 3 52 10 (by decide)
example := C84_address_in_place_partial .main .little true (List.replicate 128 0#8) (cstr "bc1pllls43h4a4") [] [] (cstr "bc1pllls43h4a4" ++ [0#8]) 0 15
  ⟨.witnessUnknown, [1#8, 0xFF#8, 0xFF#8] ++ cstr "pllls43h4a4" ++ [0#8], 3⟩ (by decide) (by decide) (by decide) (by decide +kernel)
  (.inr (.inr (by decide +kernel)))
end

section
open Random

/-! ### Random, RandomOs -/
example := C59_cleanse (cstr "secret") 5 (by decide)
example := C59_cleanse_msvc (cstr "secret") 5 (by decide)
example := C59_no_trace (cstr "secret") (cstr "abcdet") 5 (by decide) (by decide) (by decide)
example := C58_full_read_partial (aa 5) (cstr "random") 4 [.error] (by decide) (by decide) (by decide)
example := C58_returns_only_after_delivery ⟨true, [.bytes [1, 2], .bytes [3, 4]]⟩ [0xAA, 0xAA, 0xAA, 0xAA] [3, 4, 0xAA, 0xAA] 4 [] (by decide)
  (by decide +kernel)
example := C58_errors_are_fatal ⟨true, [.bytes [1, 2], .error, .bytes [3, 4]]⟩ (aa 4) 4 [[1, 2]] .error [.bytes [3, 4]] (by decide) (by decide) rfl
  (.inl rfl)
example := C58_violated_short_read [1, 2] [0xAA, 0xAA, 0xAA, 0xAA] [3, 4, 0xAA, 0xAA] 4 [.bytes [3, 4]] [] (by decide) (by decide) (by decide)
  (by decide +kernel)
theorem goodWin_exact : goodWin.Exact := by
  intro n bs h
  have h : some (List.replicate n 0x42#8) = some bs := h
  rw [Option.some.injEq] at h
  rw [← h, List.length_replicate]
example := C74_windows_fills_partial goodWin goodWin_exact (aa 5) 4 (by decide) (by decide)
example := C74_violated_large_request goodWin goodWin_exact 7 rfl nofun (aa (2 ^ 32 + 5)) (2 ^ 32 + 4)
  (by rw [aa, List.length_replicate]; decide)
example := C74_violated_witness goodWin 7 rfl nofun (aa (2 ^ 32)) List.length_replicate
example := C75_windows_closes goodWin [1, 2, 3, 4] [0x42, 0x42, 0x42, 4] 3 [.opened 7, .generate 7 3, .closed 7] (.inl (by decide))
end

/-! ### SizeT -/
example := C82_lengths_do_not_wrap (w := 32) (by decide) 1000000000#32 (by decide)
example := C82_base58_lengths_iff_partial (w := 32) (by decide) 31122952#32
example := C82_base58_lengths_64 1000000000000#64 (by decide)

section
open Temporaries AddressSpec Exkey Key

/-! ### Temporaries -/

/-- The text of the key 1 is read. -/
theorem wif_one : Key.keyFromString false .little true (WifSpec.wif .main one32 true ++ [0#8]) (WifSpec.wif .main one32 true).length (aa 33) 5
    Network.main.param = .ok ⟨true, over one32 (aa 33), 1⟩ := by
  obtain ⟨s, n, h1, -, h2⟩ := C45_wif_roundtrip false .little true .main one32 (aa 64) [] (aa 33) true 5 (by decide) (by decide) (by decide)
  rw [C45_key_to_string .little .main one32 (aa 64) true (by decide) (by decide)] at h1
  obtain ⟨h1, h4⟩ := Prod.mk.inj (Res.ok.inj h1)
  rw [← h1, ← h4, BtcHash.take_over rfl, if_pos rfl] at h2
  exact h2
example := C71_violated_key_from_string false .little true _ _ (aa 33) 5 Network.main.param _ wif_one rfl
example := C71_exkey_from_string_wipes_partial false .little true _ _ kb m1 Network.main.param (C63_valid_partial false .little true .main m1 kb m1_wf kb_buf)
example := C71_violated_exkey_other_network false .little true .main .test m1 kb [] m1_buf (by decide)
example := C71_violated_exkey_from_string false .little true testnet (xprv .main m1) [] kb Network.main.extSecret (privBytes m1) xprv_nz xprv_readable.1
  rfl (by decide) (by decide +kernel)
  (by rw [Base58CheckSpec.decode?, xprv, Base58CheckSpec.encode, decode_encode58, Option.bind_some, Base58Check.check?_append]) (by decide) (by decide)
end

section
open Address AddressSpec Exkey Key TextPrefix

/-! ### TextKinds, Texts -/
example := C76_keys_are_no_addresses .main .test .little true junk [] (aa 90) one32 true m1 p1 (by decide +kernel) (by decide) m1_buf p1_buf
example := C76_others_are_no_extended_keys .main .test false .little true [] h20 one32 true m1 kb p1 pb (by decide) (by decide) m1_buf p1_buf
  kb_buf pb_buf
example := C76_addresses_are_no_secret_keys_partial .main .test false .little true [] h20 (aa 33) 7 (by decide) (by decide)
example := C76_violated_extended_key_as_secret_key .main .test false .little true [] (aa 33) 7 m1 p1 m1_buf p1_buf
example := C73_base58_addresses .main .little h20 (aa 36) (by decide) (by decide)
example := C73_witness_addresses .test false h20 h32 h32 (aa 80) 16#8 (by decide) (by decide) (by decide) (by decide) (by decide)
example := C73_secret_keys .reg .little one32 (aa 70) (by decide) (by decide)
example := C73_extended_keys .main .little m1 p1 (aa 120) m1_buf p1_buf (by decide)
end

section
open KeyContext Threads Random SecpLib

/-! ### Threads -/
example := C77_alone false start none goodOs _ (C58_full_read_partial _ (List.replicate 32 9#8) 32 [] (by omega) (by simp) (by simp)) .keySign
example := C77_threads_safe false hist hist_os trivial rfl [[Op.keySign], [Op.keyVerify, Op.keyNew]] [0, 1, 1, 0]
/-- A signature is verified, and uninit comes after it: all goes well, and yet the threads race for want of an order between them. -/
example := C77_init_uninit_race false [0, 0, 0, 0, 0, 0, 1, 1, 1, 1, 1, 1, 1, 1] .keyVerify Threads.uninitProg (Or.inr rfl) (up 0) _ _ _ rfl _ _ rfl rfl
  rfl rfl
end

end Cases
