import Verif.Props.Extension
/-! Concrete cases for C115: the text "secret", of which only digest and length are known, continued with "&admin". -/
namespace Cases
open Sha2Spec

example : ∃ D : List Byte, D.length = 32 ∧ Sha2.sha2_256 .little (cstr "secret") 6 (List.replicate 40 1#8) = .ok (over D (List.replicate 40 1#8)) ∧
    Sha2.sha2_256 .little (cstr "secret" ++ glue sha256 6 ++ cstr "&admin") 70 (List.replicate 32 0#8) =
      .ok (over (extension sha256 D 6 (cstr "&admin")) (List.replicate 32 0#8)) :=
  C115_violated_sha256 .little (cstr "secret") (cstr "&admin") _ _ (by decide) (by decide) (by decide)
/-- The extension is not empty talk: it is the digest, computed from the digest. -/
example : extension sha256 (SHA256 (cstr "secret")) 6 (cstr "&admin") = SHA256 (cstr "secret" ++ glue sha256 6 ++ cstr "&admin") := by decide +kernel

example : ∃ D : List Byte, D.length = 64 ∧ Sha2.sha2_512 .big (cstr "secret") 6 (List.replicate 70 1#8) = .ok (over D (List.replicate 70 1#8)) ∧
    Sha2.sha2_512 .big (cstr "secret" ++ glue sha512 6 ++ cstr "&admin") 134 (List.replicate 64 0#8) =
      .ok (over (extension sha512 D 6 (cstr "&admin")) (List.replicate 64 0#8)) :=
  C115_violated_sha512 .big (cstr "secret") (cstr "&admin") _ _ (by decide) (by decide) (by decide +kernel)

example : ∃ D : List Byte, D.length = 20 ∧ Sha1.sha1 .little (cstr "secret") 6 (List.replicate 40 1#8) = .ok (over D (List.replicate 40 1#8)) ∧
    Sha1.sha1 .little (cstr "secret" ++ glue sha256 6 ++ cstr "&admin") 70 (List.replicate 32 0#8) =
      .ok (over (Sha1Spec.extension D 6 (cstr "&admin")) (List.replicate 32 0#8)) :=
  C115_violated_sha1 .little (cstr "secret") (cstr "&admin") _ _ (by decide) (by decide) (by decide)

example : ∃ D : List Byte, D.length = 20 ∧ Ripemd160.ripemd160 .little (cstr "secret") 6 (List.replicate 40 1#8) = .ok (over D (List.replicate 40 1#8)) ∧
    Ripemd160.ripemd160 .little (cstr "secret" ++ RipemdSpec.glue 6 ++ cstr "&admin") 70 (List.replicate 32 0#8) =
      .ok (over (RipemdSpec.extension D 6 (cstr "&admin")) (List.replicate 32 0#8)) :=
  C115_violated_ripemd160 .little (cstr "secret") (cstr "&admin") _ _ (by decide) (by decide) (by decide)

end Cases
