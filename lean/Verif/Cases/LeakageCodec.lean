import Verif.Props.LeakageCodec
import Verif.Cases.LeakageRead

/-! The theorems of `Verif.Props.LeakageCodec` applied to concrete data. -/
namespace Cases

/-! ### C93 -/

/-- Four bytes written as Base64: what is seen differs in the look-ups only. -/
example : ∃ t t', Leakage.toBase64 ⟨"buf", 0, cstr "abcd"⟩ 4 (aa 8) = .ok (over (cstr "YWJjZA==") (aa 8)) t ∧
    Leakage.toBase64 ⟨"buf", 0, cstr "wxyz"⟩ 4 (aa 9) = .ok (over (cstr "d3h5eg==") (aa 9)) t' ∧
    Leakage.besides "BASE64_STANDARD_ENCODE" t = Leakage.besides "BASE64_STANDARD_ENCODE" t' := by
  obtain ⟨s, h⟩ := C93_base64_partial 4
  obtain ⟨t, h1, e1⟩ := h (cstr "abcd") (aa 8) (by decide) (by decide +kernel)
  obtain ⟨t', h2, e2⟩ := h (cstr "wxyz") (aa 9) (by decide) (by decide +kernel)
  rw [show Base64Spec.encode (cstr "abcd") = cstr "YWJjZA==" by decide +kernel] at h1
  rw [show Base64Spec.encode (cstr "wxyz") = cstr "d3h5eg==" by decide +kernel] at h2
  exact ⟨t, t', h1, h2, e1.trans e2.symm⟩

example : ∃ t t', Leakage.toBase64Urlsafe ⟨"buf", 0, cstr "abcd"⟩ 4 (aa 8) = .ok (over (cstr "YWJjZA") (aa 8)) t ∧
    Leakage.toBase64Urlsafe ⟨"buf", 0, cstr "wxyz"⟩ 4 (aa 9) = .ok (over (cstr "d3h5eg") (aa 9)) t' ∧
    Leakage.besides "BASE64_URLSAFE_ENCODE" t = Leakage.besides "BASE64_URLSAFE_ENCODE" t' := by
  obtain ⟨s, h⟩ := C93_base64_urlsafe_partial 4
  obtain ⟨t, h1, e1⟩ := h (cstr "abcd") (aa 8) (by decide) (by decide +kernel)
  obtain ⟨t', h2, e2⟩ := h (cstr "wxyz") (aa 9) (by decide) (by decide +kernel)
  rw [show Base64Spec.encodeRaw true (cstr "abcd") = cstr "YWJjZA" by decide +kernel] at h1
  rw [show Base64Spec.encodeRaw true (cstr "wxyz") = cstr "d3h5eg" by decide +kernel] at h2
  exact ⟨t, t', h1, h2, e1.trans e2.symm⟩

example : ∃ t t', Leakage.toBase32 ⟨"buf", 0, cstr "abcd"⟩ 4 (aa 8) = .ok (over (cstr "mfrggza=") (aa 8)) t ∧
    Leakage.toBase32 ⟨"buf", 0, cstr "wxyz"⟩ 4 (aa 9) = .ok (over (cstr "o54hs6q=") (aa 9)) t' ∧
    Leakage.besides "BASE32_ENCODE" t = Leakage.besides "BASE32_ENCODE" t' := by
  obtain ⟨s, h⟩ := C93_base32_partial 4
  obtain ⟨t, h1, e1⟩ := h (cstr "abcd") (aa 8) (by decide) (by decide +kernel)
  obtain ⟨t', h2, e2⟩ := h (cstr "wxyz") (aa 9) (by decide) (by decide +kernel)
  rw [show Base32Spec.encode (cstr "abcd") = cstr "mfrggza=" by decide +kernel] at h1
  rw [show Base32Spec.encode (cstr "wxyz") = cstr "o54hs6q=" by decide +kernel] at h2
  exact ⟨t, t', h1, h2, e1.trans e2.symm⟩

/-- What is seen of one byte written as Base64: the look-ups are its digits 24 and 16. -/
example : Leakage.toBase64 ⟨"buf", 0, cstr "a"⟩ 1 (aa 4) = .ok (cstr "YQ==")
    [.branch false, .branch false, .branch true, .load "buf" 0 1, .load "BASE64_STANDARD_ENCODE" 24 1, .store "str" 0 1, .branch false,
      .load "BASE64_STANDARD_ENCODE" 16 1, .store "str" 1 1, .branch true, .store "str" 2 1, .store "str" 3 1] := by decide +kernel

/-- Two different pieces of data never look the same. -/
example (r r' : List Byte) (t : List Leakage.Ev) (h : Leakage.toBase64 ⟨"buf", 0, cstr "abcd"⟩ (cstr "abcd").length (aa 8) = .ok r t)
    (h' : Leakage.toBase64 ⟨"buf", 0, cstr "abce"⟩ (cstr "abce").length (aa 8) = .ok r' t) : False :=
  absurd (C93_violated_base64 (cstr "abcd") (cstr "abce") _ _ r r' t (by decide) (by decide +kernel) (by decide +kernel) h h') (by decide)

example (r r' : List Byte) (t : List Leakage.Ev) (h : Leakage.toBase64Urlsafe ⟨"buf", 0, cstr "abcd"⟩ (cstr "abcd").length (aa 8) = .ok r t)
    (h' : Leakage.toBase64Urlsafe ⟨"buf", 0, cstr "abce"⟩ (cstr "abce").length (aa 8) = .ok r' t) : False :=
  absurd (C93_violated_base64_urlsafe (cstr "abcd") (cstr "abce") _ _ r r' t (by decide) (by decide +kernel) (by decide +kernel) h h') (by decide)

example (r r' : List Byte) (t : List Leakage.Ev) (h : Leakage.toBase32 ⟨"buf", 0, cstr "abcd"⟩ (cstr "abcd").length (aa 8) = .ok r t)
    (h' : Leakage.toBase32 ⟨"buf", 0, cstr "abce"⟩ (cstr "abce").length (aa 8) = .ok r' t) : False :=
  absurd (C93_violated_base32 (cstr "abcd") (cstr "abce") _ _ r r' t (by decide) (by decide +kernel) (by decide +kernel) h h') (by decide)

example : ∃ f : List Leakage.Ev → List Byte, ∃ t r, Leakage.toBase64 ⟨"buf", 0, one32⟩ 32 (aa 44) = .ok r t ∧ f t = one32 := by
  obtain ⟨f, h⟩ := C93_violated_recover_base64 32
  obtain ⟨t, h1, h2⟩ := h one32 (aa 44) (by decide +kernel) (by decide +kernel)
  exact ⟨f, t, _, h1, h2⟩

example : ∃ f : List Leakage.Ev → List Byte, ∃ t r, Leakage.toBase64Urlsafe ⟨"buf", 0, one32⟩ 32 (aa 43) = .ok r t ∧ f t = one32 := by
  obtain ⟨f, h⟩ := C93_violated_recover_base64_urlsafe 32
  obtain ⟨t, h1, h2⟩ := h one32 (aa 43) (by decide +kernel) (by decide +kernel)
  exact ⟨f, t, _, h1, h2⟩

example : ∃ f : List Leakage.Ev → List Byte, ∃ t r, Leakage.toBase32 ⟨"buf", 0, one32⟩ 32 (aa 56) = .ok r t ∧ f t = one32 := by
  obtain ⟨f, h⟩ := C93_violated_recover_base32 32
  obtain ⟨t, h1, h2⟩ := h one32 (aa 56) (by decide +kernel) (by decide +kernel)
  exact ⟨f, t, _, h1, h2⟩

/-! ### C101 -/

example : ∃ t t', Leakage.fromBase64 ⟨"str", 0, Base64Spec.encode (cstr "abcd") ++ junk⟩ 8 (aa 4) = .ok (over (cstr "abcd") (aa 4), 4) t ∧
    Leakage.fromBase64 ⟨"str", 0, Base64Spec.encode (cstr "wxyz") ++ []⟩ 8 (aa 5) = .ok (over (cstr "wxyz") (aa 5), 4) t' ∧
    Leakage.besides "BASE64_STANDARD_DECODE" t = Leakage.besides "BASE64_STANDARD_DECODE" t' := by
  obtain ⟨s, h⟩ := C101_base64_partial 4
  obtain ⟨t, h1, e1⟩ := h (cstr "abcd") (aa 4) junk (by decide) (by decide +kernel)
  obtain ⟨t', h2, e2⟩ := h (cstr "wxyz") (aa 5) [] (by decide) (by decide +kernel)
  exact ⟨t, t', h1, h2, e1.trans e2.symm⟩

example : ∃ t t', Leakage.fromBase64Urlsafe ⟨"str", 0, Base64Spec.encodeRaw true (cstr "abcd") ++ junk⟩ 6 (aa 4) =
      .ok (over (cstr "abcd") (aa 4), 4) t ∧
    Leakage.fromBase64Urlsafe ⟨"str", 0, Base64Spec.encodeRaw true (cstr "wxyz") ++ []⟩ 6 (aa 5) = .ok (over (cstr "wxyz") (aa 5), 4) t' ∧
    Leakage.besides "BASE64_URLSAFE_DECODE" t = Leakage.besides "BASE64_URLSAFE_DECODE" t' := by
  obtain ⟨s, h⟩ := C101_base64_urlsafe_partial 4
  obtain ⟨t, h1, e1⟩ := h (cstr "abcd") (aa 4) junk (by decide) (by decide +kernel)
  obtain ⟨t', h2, e2⟩ := h (cstr "wxyz") (aa 5) [] (by decide) (by decide +kernel)
  exact ⟨t, t', h1, h2, e1.trans e2.symm⟩

example : ∃ t t', Leakage.fromBase32 true ⟨"str", 0, Base32Spec.encode (cstr "abcd") ++ 0#8 :: junk⟩ 8 (aa 4) = .ok (over (cstr "abcd") (aa 4), 4) t ∧
    Leakage.fromBase32 true ⟨"str", 0, Base32Spec.encode (cstr "wxyz") ++ 0#8 :: []⟩ 8 (aa 5) = .ok (over (cstr "wxyz") (aa 5), 4) t' ∧
    Leakage.besides "BASE32_DECODE" t = Leakage.besides "BASE32_DECODE" t' := by
  obtain ⟨s, h⟩ := C101_base32_partial true 4
  obtain ⟨t, h1, e1⟩ := h (cstr "abcd") (aa 4) junk (by decide) (by decide +kernel)
  obtain ⟨t', h2, e2⟩ := h (cstr "wxyz") (aa 5) [] (by decide) (by decide +kernel)
  exact ⟨t, t', h1, h2, e1.trans e2.symm⟩

example (t : List Leakage.Ev) (h : Leakage.fromBase64 ⟨"str", 0, cstr "YWI="⟩ 4 (aa 2) = .ok (cstr "ab", 2) t)
    (h' : Leakage.fromBase64 ⟨"str", 0, cstr "YWM="⟩ 4 (aa 2) = .ok (cstr "ac", 2) t) : False :=
  absurd (C101_violated_base64 _ _ _ _ _ _ _ t h h') (by decide)

example (t : List Leakage.Ev) (h : Leakage.fromBase64Urlsafe ⟨"str", 0, cstr "YWI"⟩ 3 (aa 2) = .ok (cstr "ab", 2) t)
    (h' : Leakage.fromBase64Urlsafe ⟨"str", 0, cstr "YWM"⟩ 3 (aa 2) = .ok (cstr "ac", 2) t) : False :=
  absurd (C101_violated_base64_urlsafe _ _ _ _ _ _ _ t h h') (by decide)

example (t : List Leakage.Ev) (h : Leakage.fromBase32 false ⟨"str", 0, cstr "mfra====" ++ [0#8]⟩ 8 (aa 2) = .ok (cstr "ab", 2) t)
    (h' : Leakage.fromBase32 false ⟨"str", 0, cstr "mfrq====" ++ [0#8]⟩ 8 (aa 2) = .ok (cstr "ac", 2) t) : False :=
  absurd (C101_violated_base32 false _ _ _ _ _ _ _ t h h') (by decide)

example : ∃ f : List Leakage.Ev → List Byte, ∃ t, Leakage.fromBase64 ⟨"str", 0, Base64Spec.encode one32 ++ junk⟩ 44 (aa 32) =
    .ok (over one32 (aa 32), 32) t ∧ f t = one32 := by
  obtain ⟨f, h⟩ := C101_violated_recover_base64 44
  obtain ⟨t, h1, h2⟩ := h one32 (aa 32) junk (by decide +kernel) (by decide +kernel)
  exact ⟨f, t, h1, h2⟩

example : ∃ f : List Leakage.Ev → List Byte, ∃ t, Leakage.fromBase64Urlsafe ⟨"str", 0, Base64Spec.encodeRaw true one32 ++ junk⟩ 43 (aa 32) =
    .ok (over one32 (aa 32), 32) t ∧ f t = one32 := by
  obtain ⟨f, h⟩ := C101_violated_recover_base64_urlsafe 43
  obtain ⟨t, h1, h2⟩ := h one32 (aa 32) junk (by decide +kernel) (by decide +kernel)
  exact ⟨f, t, h1, h2⟩

example : ∃ f : List Leakage.Ev → List Byte, ∃ t, Leakage.fromBase32 true ⟨"str", 0, Base32Spec.encode one32 ++ 0#8 :: junk⟩ 56 (aa 32) =
    .ok (over one32 (aa 32), 32) t ∧ f t = one32 := by
  obtain ⟨f, h⟩ := C101_violated_recover_base32 true 56
  obtain ⟨t, h1, h2⟩ := h one32 (aa 32) junk (by decide +kernel) (by decide +kernel)
  exact ⟨f, t, h1, h2⟩

end Cases
