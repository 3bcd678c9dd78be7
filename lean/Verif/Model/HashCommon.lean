import Verif.Model.Endian

/-!
The message loop and the padding code that `sha256_final`, `sha512_final`, `fingera_sha1` and
`fingera_ripemd160` share textually.
-/
namespace HashCommon

variable {δ : Type}

/-- `while (msg_len >= B) { transform(digest, msg_buf); msg_len -= B; msg_buf += B; }`
(sha2.c 676-680, 720-724; sha1.c 127-131; ripemd160.c 293-297).  `fuel` bounds the number of
evaluations of the loop condition; running out of it (a loop that does not end) is `ub`. -/
def blocks (tr : δ → List Byte → Res δ) (B : Nat) :
    Nat → δ → List Byte → Nat → Res (δ × List Byte × Nat)
  | 0, _, _, _ => .ub
  | fuel+1, digest, buf, n =>
    if n ≥ B then do
      let digest ← tr digest buf
      blocks tr B fuel digest (buf.drop B) (n - B)
    else .ok (digest, buf, n)

/-- The rest of the functions (sha2.c 681-691, 725-735; sha1.c 132-142; ripemd160.c 298-308):
`last_chunk` has `B` bytes and is zeroed, the rest of the message and `0x80` are put in, if the rest
is longer than `thr` it is processed on its own, then the eight bytes of `chunk_end` are stored at
the end.  The final `fingera_cleanse` of the local buffers has no observable effect here and is
left out. -/
def finish (tr : δ → List Byte → Res δ) (B thr : Nat) (chunkEnd : List Byte)
    (digest : δ) (msg : List Byte) (msgLen : Nat) : Res δ := do
  let (digest, buf, n) ← blocks tr B (msgLen + 1) digest msg msgLen
  let last ← memset (List.replicate B 0xAA#8) 0 0#8 B
  let last ← memcpy last 0 buf n
  let last ← wr last n 0x80#8
  let (digest, last) ←
    if n > thr then do
      let digest ← tr digest last
      let last ← memset last 0 0#8 B
      pure (digest, last)
    else pure (digest, last)
  let last ← memcpy last (B - 8) chunkEnd 8
  tr digest last

end HashCommon
