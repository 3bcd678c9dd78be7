import Verif.Props.Injective
import Verif.Cases.Keys
/-! Every theorem with hypotheses of `Props/Injective`, applied to concrete arguments that meet them. -/
namespace Cases
open AddressSpec

example := C87_hex [0x12, 0x34] [0x12, 0x34] [9, 9, 9, 9] [7, 7, 7, 7, 7] (cstr "1234") (cstr "1234" ++ [7]) false true (by decide) (by decide)
  (by decide +kernel) (by decide +kernel) (by decide +kernel)
example := C87_base64 (cstr "foob") (cstr "foob") (List.replicate 8 0) (List.replicate 9 1) (cstr "Zm9vYg==") (cstr "Zm9vYg==" ++ [1])
  (by decide) (by decide) (by decide +kernel) (by decide +kernel) (by decide +kernel)
example := C87_base64_urlsafe [0xfb, 0xff] [0xfb, 0xff] (List.replicate 3 0) (List.replicate 4 1) (cstr "-_8") (cstr "-_8" ++ [1])
  (by decide) (by decide) (by decide +kernel) (by decide +kernel) (by decide +kernel)
example := C87_base32 (cstr "f") (cstr "f") (List.replicate 8 0) (List.replicate 9 1) (cstr "my======") (cstr "my======" ++ [1])
  (by decide) (by decide) (by decide +kernel) (by decide +kernel) (by decide +kernel)
example := C87_base32_raw [0xFF] [0xFF] [0, 0] [1, 1, 1] [31, 28] [31, 28, 1] 2 2 (by decide) (by decide) (by decide +kernel) (by decide +kernel)
  (by decide +kernel)
example := C87_base58 (cstr "abc") (cstr "abc") (List.replicate 7 0) (List.replicate 8 1) (cstr "ZiCa" ++ List.replicate 3 0)
  (cstr "ZiCa" ++ List.replicate 4 1) 4 4 (by decide) (by decide) (by decide +kernel) (by decide +kernel) (by decide +kernel)
example := C87_base58check .little .big [0] [1, 2, 3] [0, 1] [2, 3] (List.replicate 20 0) (List.replicate 20 1)
  (cstr "13DV5niCGP" ++ List.replicate 10 0) (cstr "13DV5niCGP" ++ List.replicate 10 1) 10 10 (by decide) (by decide) (by decide) (by decide)
  (by decide +kernel) (by decide +kernel) (by decide +kernel)
example := C87_bech32 (cstr "bc") [0, 14, 20] (cstr "bc") [0, 14, 20] (List.replicate 12 0) (List.replicate 13 1) (cstr "bc1qw56k6g7k")
  (cstr "bc1qw56k6g7k" ++ [1]) (by decide) (by decide) (by decide) (by decide) (by decide +kernel) (by decide +kernel) (by decide +kernel)
example := C87_varint (aa 10) (List.replicate 10 0) (List.replicate 10 0) (List.replicate 11 1) ([0x81, 0x2C] ++ List.replicate 8 0)
  ([0x81, 0x2C] ++ List.replicate 9 1) 300#64 300#64 2 2 (by decide) (by decide) (by decide +kernel) (by decide +kernel)
  (by decide +kernel)
example := C87_zigzag (aa 10) (List.replicate 10 0) (List.replicate 10 0) (List.replicate 11 1) ([0x03] ++ List.replicate 9 0)
  ([0x03] ++ List.replicate 10 1) (-1#64) (-1#64) 1 1 (by decide) (by decide) (by decide +kernel) (by decide +kernel)
  (by decide +kernel)

open Key SecpLib Secp256k1 Exkey DerSpec

theorem taken (W o o' : List Byte) : (over W o).take W.length = (over W o').take W.length := by rw [over_take, over_take]

example := C87_key_der false true vector1Key vector1Key (aa 280) (aa 214) _ _ true true m1_wf.1 m1_wf.1 (by decide +kernel) (by decide +kernel)
  (C47_key_encode false vector1Key (aa 280) true m1_wf.1 (by decide +kernel)).2 (C47_key_encode true vector1Key (aa 214) true m1_wf.1 (by decide +kernel)).2
  (by rw [← (C47_key_encode false vector1Key (aa 280) true m1_wf.1 (by decide +kernel)).1]; exact taken _ _ _)
example : ∃ r, pubkeyEncode false (some (gx, gy)) (aa 33) 33 = .ok (r, true) := by
  obtain ⟨enc, -, -, h, -⟩ := C67_pubkey_roundtrip false gx gy (aa 33) true g_on (by decide)
  exact ⟨_, h⟩
theorem g_text (nd : Bool) (o : List Byte) (ho : 33 ≤ o.length) :
    pubkeyEncode nd (some (gx, gy)) o 33 = .ok (over (compressed gx gy) o, true) ∧ (compressed gx gy).length = 33 := by
  obtain ⟨enc, h1, h2, h3, -⟩ := C67_pubkey_roundtrip nd gx gy o true g_on ho
  rw [if_pos rfl] at h1 h2
  rw [h1] at h2 h3
  exact ⟨h3, h2⟩
example := C87_pubkey false true (gx, gy) (gx, gy) (aa 33) (aa 34) _ _ true true g_on g_on (by decide) (by decide)
  (g_text false (aa 33) (by decide)).1 (g_text true (aa 34) (by decide)).1
  (by rw [if_pos rfl, ← (g_text true (aa 34) (by decide)).2]; exact taken _ _ _)
example := C87_signature sg sg (aa 72) (aa 73) _ _ _ _ (by decide +kernel) (by decide +kernel) (by decide) (by decide)
  (C68_signature_roundtrip sg (aa 72) [] (by decide +kernel) (by decide +kernel) (by decide) (by decide)).1
  (C68_signature_roundtrip sg (aa 73) [] (by decide +kernel) (by decide +kernel) (by decide) (by decide)).1 (taken _ _ _)
example := C87_extended .little .big m1 m1 p1 p1 (aa 74) (aa 75) _ _ _ _ m1_buf m1_buf p1_buf p1_buf (by decide) (by decide)
  (C53_encode_layout .little m1 p1 (aa 74) m1_buf p1_buf (by decide)).1 (C53_encode_layout .big m1 p1 (aa 75) m1_buf p1_buf (by decide)).1
  (C53_encode_layout .little m1 p1 (aa 74) m1_buf p1_buf (by decide)).2 (C53_encode_layout .big m1 p1 (aa 75) m1_buf p1_buf (by decide)).2

/-- The two networks for testing share the texts of hashes. -/
example := C87_texts false true .little .big .test .reg (.pubkeyHash h20) (.pubkeyHash h20) (aa 128) (aa 129) _ _ _ _ (show h20.length = 20 by decide)
  (show h20.length = 20 by decide) (by decide +kernel) (by decide +kernel)
  (Item.write_eq false .little .test (aa 128) (.pubkeyHash h20) (show h20.length = 20 by decide) (by decide +kernel))
  (Item.write_eq true .big .reg (aa 129) (.pubkeyHash h20) (show h20.length = 20 by decide) (by decide +kernel)) (taken _ _ _)
example := C87_texts false true .little .big .main .main (.extSecret m1) (.extSecret m1) (aa 128) (aa 129) _ _ _ _ m1_buf m1_buf (by decide +kernel) (by decide +kernel)
  (Item.write_eq false .little .main (aa 128) (.extSecret m1) m1_buf (by decide +kernel))
  (Item.write_eq true .big .main (aa 129) (.extSecret m1) m1_buf (by decide +kernel)) (taken _ _ _)
end Cases
