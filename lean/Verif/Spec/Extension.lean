import Verif.Spec.Sha2
import Verif.Spec.Sha1
import Verif.Spec.Ripemd160
/-! The digest of a longer text, from the digest of a text that is not known (specification of C115). Only the length of that text and what follows is used. -/
namespace Sha2Spec
open WordSpec
variable {w : Nat} (v : Variant w)

/-- What the padding appends to a text of `n` bytes. -/
def glue (n : Nat) : List (BitVec 8) := [0x80#8] ++ List.replicate (zeros v n) 0#8 ++ beBytes v.lengthBytes (8 * n)

/-- From the digest `D` of a text of `n` bytes: the digest of that text, followed by `glue n` and `more`. -/
def extension (D : List (BitVec 8)) (n : Nat) (more : List (BitVec 8)) : List (BitVec 8) :=
  let total := n + (glue v n).length + more.length
  (((pieces v.blockBytes (more ++ glue v total)).map (words v)).foldl (compress v) (words v D)).flatMap fun x => beBytes v.wordBytes x.toNat

end Sha2Spec

namespace Sha1Spec
open WordSpec
/-- The same for SHA-1 (the padding is that of SHA-256). -/
def extension (D : List (BitVec 8)) (n : Nat) (more : List (BitVec 8)) : List (BitVec 8) :=
  let total := n + (Sha2Spec.glue Sha2Spec.sha256 n).length + more.length
  (((pieces 64 (more ++ Sha2Spec.glue Sha2Spec.sha256 total)).map words).foldl compress (words D)).flatMap fun x => beBytes 4 x.toNat
end Sha1Spec

namespace RipemdSpec
open WordSpec
def glue (n : Nat) : List (BitVec 8) := [0x80#8] ++ List.replicate ((64 - (n + 9) % 64) % 64) 0#8 ++ leBytes 8 (8 * n)
/-- The same for RIPEMD-160. -/
def extension (D : List (BitVec 8)) (n : Nat) (more : List (BitVec 8)) : List (BitVec 8) :=
  let total := n + (glue n).length + more.length
  (((pieces 64 (more ++ glue total)).map words).foldl compress (words D)).flatMap fun x => leBytes 4 x.toNat
end RipemdSpec
