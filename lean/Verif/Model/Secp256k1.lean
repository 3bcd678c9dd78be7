import Verif.Model.Basic
import Verif.Spec.Ecc
/-!
The functions of libsecp256k1 that `src/btc/key.c` calls.  The library is an external dependency, not part
of /repo (`external/secp256k1` is an empty submodule); these definitions are its documented behaviour
(`secp256k1.h`) as of 2018, the time of the pinned commit, on the executable curve of
`Verif.Spec.Secp256k1`.

Opaque objects are modelled by what they stand for: a `secp256k1_pubkey` by its point (`none`: the
all-zero object left behind by a failed call, which every consumer reports to the illegal-argument
callback, whose default is `abort`), a `secp256k1_ecdsa_signature` by the pair `(r, s)`.
Context arguments are left out; that contexts exist is the subject of `Verif.Model.KeyContext`.
-/
namespace SecpLib
open Secp256k1 WordSpec

/-- `secp256k1_pubkey`. -/
abbrev PubObj := Option (Nat × Nat)

/-- `secp256k1_ecdsa_signature`. -/
structure Sig where
  r : Nat
  s : Nat
deriving DecidableEq, Repr

/-- Read a 32-byte big-endian number from a C pointer. -/
def get32 (mem : List Byte) (off : Nat) : Res Nat :=
  if off + 32 ≤ mem.length then .ok (beNat ((mem.drop off).take 32)) else .ub

/-- `secp256k1_ec_seckey_verify`, called in src/btc/key.c:232, 357. -/
def seckeyVerify (key : List Byte) : Res Bool := do
  let d ← get32 key 0
  pure (decide (0 < d ∧ d < n))

/-- `secp256k1_ec_pubkey_create`, called in src/btc/key.c:259, 457: the object and the return value. -/
def pubkeyCreate (key : List Byte) : Res (PubObj × Bool) := do
  let d ← get32 key 0
  if 0 < d ∧ d < n then pure (pub d, true) else pure (none, false)

/-- `secp256k1_ec_pubkey_serialize`, called in src/btc/key.c:288, 321, 494: `outLen` is the size
announced for `out`; the memory, `*outputlen` and the return value. -/
def pubkeySerialize (out : List Byte) (outLen : Nat) (pk : PubObj) (compr : Bool) :
    Res (List Byte × Nat × Bool) :=
  if outLen < (if compr then 33 else 65) then .abort
  else match pk with
  | none => .abort
  | some (x, y) => do
    let out ← memset out 0 0#8 outLen
    let enc := if compr then compressed x y else uncompressed x y
    let out ← memcpy out 0 enc enc.length
    pure (out, enc.length, true)

/-- A square root modulo `p` if there is one (`p ≡ 3 mod 4`). -/
def sqrtP (a : Nat) : Nat := powMod p 256 a ((p + 1) / 4)

/-- The point with abscissa `x` and an ordinate of the given parity. -/
def liftX (x : Nat) (odd : Bool) : PubObj :=
  let y := sqrtP ((x * x * x + 7) % p)
  if x < p ∧ y * y % p = (x * x * x + 7) % p then
    some (x, if decide (y % 2 = 1) = odd then y else (p - y) % p)
  else none

/-- `secp256k1_ec_pubkey_parse`, called in src/btc/key.c:474, 513: the object and the return value.
Compressed (02, 03), uncompressed (04) and hybrid (06, 07) encodings are accepted. -/
def pubkeyParse (inp : List Byte) (len : Nat) : Res (PubObj × Bool) :=
  if inp.length < len then .ub
  else
    let inp := inp.take len
    match inp with
    | [] => .ok (none, false)
    | t :: rest =>
      if len = 33 ∧ (t = 0x02#8 ∨ t = 0x03#8) then
        match liftX (beNat rest) (decide (t = 0x03#8)) with
        | none => .ok (none, false)
        | some P => .ok (some P, true)
      else if len = 65 ∧ (t = 0x04#8 ∨ t = 0x06#8 ∨ t = 0x07#8) then
        let x := beNat (rest.take 32)
        let y := beNat (rest.drop 32)
        if OnCurve (some (x, y)) ∧ (t = 0x06#8 → y % 2 = 0) ∧ (t = 0x07#8 → y % 2 = 1)
        then .ok (some (x, y), true) else .ok (none, false)
      else .ok (none, false)

/-- `secp256k1_ec_privkey_tweak_add`, called in src/btc/key.c:421: the memory at `seckey` and the return
value.  The key is wiped if the call fails. -/
def privkeyTweakAdd (key tweak : List Byte) : Res (List Byte × Bool) := do
  let d ← get32 key 0
  let t ← get32 tweak 0
  let sum := (d + t) % n
  if t < n ∧ sum ≠ 0 then do
    let key ← memcpy key 0 (beBytes 32 sum) 32
    pure (key, true)
  else do
    let key ← memset key 0 0#8 32
    pure (key, false)

/-- `secp256k1_ec_pubkey_tweak_add`, called in src/btc/key.c:477. -/
def pubkeyTweakAdd (pk : PubObj) (tweak : List Byte) : Res (PubObj × Bool) :=
  match pk with
  | none => .abort
  | some P => do
    let t ← get32 tweak 0
    if t < n then
      match add (some P) (mul t G) with
      | none => pure (none, false)
      | some Q => pure (some Q, true)
    else pure (none, false)

/-- `secp256k1_ecdsa_signature_parse_compact`, called in src/btc/key.c:32, 155, 161: the object is zeroed
if a number is not below `n`. -/
def sigParseCompact (inp : List Byte) : Res (Sig × Bool) := do
  let r ← get32 inp 0
  let s ← get32 inp 32
  if r < n ∧ s < n then pure (⟨r, s⟩, true) else pure (⟨0, 0⟩, false)

/-- `secp256k1_ecdsa_signature_serialize_compact`, called in src/btc/key.c:520. -/
def sigSerializeCompact (out : List Byte) (sig : Sig) : Res (List Byte) :=
  memcpy out 0 (beBytes 32 sig.r ++ beBytes 32 sig.s) 64

/-- `secp256k1_ecdsa_signature_serialize_der`, called in src/btc/key.c:562: memory, `*outputlen`, return
value. -/
def sigSerializeDer (out : List Byte) (outLen : Nat) (sig : Sig) : Res (List Byte × Nat × Bool) :=
  let enc := derSig sig.r sig.s
  if outLen < enc.length then .ok (out, enc.length, false)
  else do
    let out ← memcpy out 0 enc enc.length
    pure (out, enc.length, true)

/-- `secp256k1_ecdsa_signature_normalize`, called in src/btc/key.c:597. -/
def sigNormalize (sig : Sig) : Sig := if n / 2 < sig.s then ⟨sig.r, n - sig.s⟩ else sig

/-- `secp256k1_ecdsa_verify`, called in src/btc/key.c:599: `s` above `n / 2` is refused. -/
def ecdsaVerify (sig : Sig) (msg : List Byte) (pk : PubObj) : Res Bool := do
  let z ← get32 msg 0
  if n / 2 < sig.s then pure false
  else match pk with
    | none => .abort
    | some Q => pure (verify (some Q) (z % n) sig.r sig.s)

/-- The seed `secp256k1_nonce_function_rfc6979` gives to the generator: key, message and, unless NULL, the
extra 32 bytes of the caller. -/
def nonceSeed (msg key : List Byte) (extra : Option (List Byte)) : List Byte :=
  key.take 32 ++ msg.take 32 ++ (extra.map (·.take 32)).getD []

/-- `secp256k1_ecdsa_sign` with `secp256k1_nonce_function_rfc6979`, called in src/btc/key.c:538, 548: nonces are
tried until one is a valid scalar and gives non-zero `r` and `s`.  The loop has no bound; the first
argument is the number of attempts after which the model gives up (`none`). -/
def ecdsaSignLoop (d z : Nat) (KV : List Byte × List Byte) : Nat → Nat → Option Sig
  | 0, _ => none
  | fuel+1, count =>
    let k := beNat (rfcNonce KV count)
    if 0 < k ∧ k < n then
      match sign d z k with
      | some (r, s) => some ⟨r, s⟩
      | none => ecdsaSignLoop d z KV fuel (count+1)
    else ecdsaSignLoop d z KV fuel (count+1)

/-- See `ecdsaSignLoop`: `none` if the model gives up, otherwise the signature object and the return value. -/
def ecdsaSign (fuel : Nat) (msg key : List Byte) (extra : Option (List Byte)) : Res (Option (Sig × Bool)) := do
  let z ← get32 msg 0
  let d ← get32 key 0
  if 0 < d ∧ d < n then
    pure ((ecdsaSignLoop d (z % n) (rfcInit (nonceSeed msg key extra)) fuel 0).map (·, true))
  else pure (some (⟨0, 0⟩, false))

end SecpLib
