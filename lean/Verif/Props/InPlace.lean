import Verif.Lemmas.InPlace
import Verif.Props.Hex
import Verif.Props.Base64
import Verif.Props.Base32Total
/-! Property theorems C78: decoders whose output overwrites their text. -/

/-- A decoder called with text and output in one object does what it does with the text in a place of its own: `f` on one object (text
at offset `a`, `n` characters, output at offset `b`), `g` with the text and the output buffer given separately. -/
def SameAsSeparate (f : List Byte → Nat → Nat → Nat → Res (List Byte × Nat))
    (g : List Byte → Nat → List Byte → Res (List Byte × Nat)) : Prop :=
  ∀ mem a n b, b ≤ a → a ≤ mem.length →
    f mem a n b = (do let (buf, r) ← g (mem.drop a) n (mem.drop b); pure (mem.take b ++ buf, r))

/-- C78. When the output begins where the text begins, or before it, in the same object, every decoder gives the same result (count,
decoded bytes, untouched rest, and also the same undefined behaviour, if any) as with a copy of the text elsewhere. -/
theorem C78_overwriting_decoders :
    SameAsSeparate InPlace.fromHex Hex.fromHex ∧
    SameAsSeparate InPlace.fromBase64 Base64.fromBase64 ∧
    SameAsSeparate InPlace.fromBase64Urlsafe Base64.fromBase64Urlsafe ∧
    ∀ cs, SameAsSeparate (InPlace.fromBase32 cs) (Base32.fromBase32 cs) ∧
      SameAsSeparate (InPlace.fromBase32Raw cs) (Base32.fromBase32Raw cs) := by
  refine ⟨fun mem a n b hba ha => InPlace.fromHex_put mem a n b hba ha, fun mem a n b hba ha => ?_,
    fun mem a n b hba ha => InPlace.fromBase64Impl_put mem a n b true hba ha, fun cs =>
    ⟨fun mem a n b hba ha => InPlace.fromBase32Impl_put cs mem a n b false hba ha,
      fun mem a n b hba ha => InPlace.fromBase32Impl_put cs mem a n b true hba ha⟩⟩
  unfold InPlace.fromBase64 Base64.fromBase64
  cases Base64.stripLen (mem.drop a) n with
  | ub => rfl
  | abort => rfl
  | ok m => exact InPlace.fromBase64Impl_put mem a m b false hba ha

/-- Decoding "666f6f", "Zm9v" and "mzxw6===" onto themselves. -/
example : InPlace.fromHex (cstr "666f6f" ++ [0]) 0 6 0 = .ok (cstr "foof6f" ++ [0], 3) ∧
    InPlace.fromBase64 (cstr "Zm9vYg==" ++ [0]) 0 8 0 = .ok (cstr "foobYg==" ++ [0], 4) ∧
    InPlace.fromBase32 true (cstr "mzxw6===" ++ [0]) 0 8 0 = .ok (cstr "foow6===" ++ [0], 3) := by decide +kernel

/-- C78 (round trips in place). Text written by an encoder at the beginning of an object, followed by anything (a NUL first, for
base32), is replaced by the encoded bytes when it is decoded onto itself. -/
theorem C78_roundtrips_in_place (cs : Bool) (bs post : List Byte) :
    (∀ upper, ∃ rest, InPlace.fromHex (HexSpec.encode upper bs ++ post) 0 (HexSpec.encode upper bs).length 0 =
      .ok (bs ++ rest, bs.length)) ∧
    (∃ rest, InPlace.fromBase64 (Base64Spec.encode bs ++ post) 0 (Base64Spec.encode bs).length 0 = .ok (bs ++ rest, bs.length)) ∧
    (∃ rest, InPlace.fromBase64Urlsafe (Base64Spec.encodeRaw true bs ++ post) 0 (Base64Spec.encodeRaw true bs).length 0 =
      .ok (bs ++ rest, bs.length)) ∧
    (∃ rest, InPlace.fromBase32 cs (Base32Spec.encode bs ++ 0 :: post) 0 (Base32Spec.encode bs).length 0 =
      .ok (bs ++ rest, bs.length)) := by
  have hlen64 : ∀ url, Base64.fromBase64UrlsafeLength (Base64Spec.encodeRaw url bs).length = bs.length := by
    intro url
    rw [Base64.encodeRaw_length]; unfold Base64.fromBase64UrlsafeLength; simp only
    split
    · omega
    · split <;> omega
  refine ⟨fun upper => ?_, ?_, ?_, ?_⟩
  · have hl := Hex.encode_length upper bs
    refine ⟨(HexSpec.encode upper bs ++ post).drop bs.length, ?_⟩
    rw [C78_overwriting_decoders.1 _ 0 _ 0 (Nat.le_refl _) (Nat.zero_le _), List.drop_zero,
      Hex.fromHex_eq _ _ _ (by simp) (by simp; omega), List.take_left, Hex.decode_encode]
    rfl
  · refine ⟨(Base64Spec.encode bs ++ post).drop bs.length, ?_⟩
    have h : bs.length ≤ (Base64Spec.encode bs ++ post).length := by
      have h1 := hlen64 false
      rw [encode_eq_raw_padding, List.length_append, List.length_append]
      unfold Base64.fromBase64UrlsafeLength at h1; simp only at h1
      split at h1
      · omega
      · split at h1 <;> omega
    rw [C78_overwriting_decoders.2.1 _ 0 _ 0 (Nat.le_refl _) (Nat.zero_le _), List.drop_zero,
      Base64.fromBase64_eq _ _ _ (by simp) (by rw [List.take_left, Base64.strip_encode, hlen64]; exact h), List.take_left,
      Base64.strip_encode, Base64.decodeRaw_encodeRaw]
    rfl
  · refine ⟨(Base64Spec.encodeRaw true bs ++ post).drop bs.length, ?_⟩
    have h : bs.length ≤ (Base64Spec.encodeRaw true bs ++ post).length := by
      have h1 := hlen64 true
      rw [List.length_append]
      unfold Base64.fromBase64UrlsafeLength at h1; simp only at h1
      split at h1
      · omega
      · split at h1 <;> omega
    rw [C78_overwriting_decoders.2.2.1 _ 0 _ 0 (Nat.le_refl _) (Nat.zero_le _), List.drop_zero]
    unfold Base64.fromBase64Urlsafe
    rw [Base64.fromBase64Impl_eq _ _ _ _ (by simp) (by rw [hlen64]; exact h), List.take_left, Base64.decodeRaw_encodeRaw]
    rfl
  · refine ⟨(Base32Spec.encode bs ++ 0 :: post).drop bs.length, ?_⟩
    have hdl := decLen_encText false bs
    have hl := (C09_to_base32_rfc4648 bs (List.replicate (Base32.toBase32Length bs.length) 0) (by simp)).2
    have h : bs.length ≤ (Base32Spec.encode bs ++ 0 :: post).length := by
      rw [List.length_append, hl]; unfold Base32.toBase32Length; omega
    rw [(C78_overwriting_decoders.2.2.2 cs).1 _ 0 _ 0 (Nat.le_refl _) (Nat.zero_le _), List.drop_zero,
      fromBase32_eq cs _ post _ (fun b hb => (encode_chars bs b hb).1)
      (fun _ b hb => (encode_chars bs b hb).2) (by rw [takeWhile_encode, hdl]; exact h),
      takeWhile_encode, Base32.decPure_encText]
    rfl

/-- C78 (why not after the beginning of the text). An output that begins inside the text destroys characters before they are read:
"666f6f" decoded one character further on gives other bytes than with a copy of the text. -/
theorem C78_output_behind_text_differs : ∃ mem a n b, a < b ∧ a ≤ mem.length ∧
    InPlace.fromHex mem a n b ≠ (do let (buf, r) ← Hex.fromHex (mem.drop a) n (mem.drop b); pure (mem.take b ++ buf, r)) :=
  ⟨cstr "666f6f" ++ [0], 0, 6, 2, by decide +kernel⟩
