import Verif.Model.Key
import Verif.Model.Random
/-!
Model of the library contexts and of key generation in `src/btc/key.c`.

The two static pointers of key.c:329-330 and the contexts allocated in libsecp256k1 are a state; each exported function is
modelled here by the library calls it makes and the context it hands to each (what they compute is in
`Verif.Model.Key`).
-/
namespace KeyContext
open SecpLib Random

/-- What a context was created for (`SECP256K1_CONTEXT_SIGN`, `SECP256K1_CONTEXT_VERIFY`). -/
inductive Kind where
  | sign | verify
deriving DecidableEq, Repr

/-- The state: the two pointers (`none` is NULL), the contexts that are allocated with their kinds, and the number of
contexts created so far (the next allocation). -/
structure State where
  sign : Option Nat
  verify : Option Nat
  live : List (Nat × Kind)
  created : Nat
deriving DecidableEq, Repr

/-- Before the first call: src/btc/key.c:329-330. -/
def start : State := ⟨none, none, [], 0⟩

/-- `secp256k1_context_create`: a new context (its `malloc` is taken to succeed; the library aborts otherwise). -/
def create (k : Kind) (s : State) : Nat × State := (s.created, { s with live := (s.created, k) :: s.live, created := s.created + 1 })

/-- `secp256k1_context_destroy`: NULL is ignored; freeing what is not allocated is undefined. -/
def destroy (c : Option Nat) (s : State) : Res State :=
  match c with
  | none => .ok s
  | some id => if id ∈ s.live.map (·.1) then .ok { s with live := s.live.filter (·.1 ≠ id) } else .ub

/-- A library call with context `c` that needs capability `need`: NULL and dangling pointers are undefined, a context without
the capability is reported to the illegal-argument callback, which aborts. -/
def libCall (c : Option Nat) (need : Option Kind) (s : State) : Res Unit :=
  match c with
  | none => .ub
  | some id =>
    match s.live.find? (·.1 = id) with
    | none => .ub
    | some (_, k) => if need = none ∨ need = some k then .ok () else .abort

/-- `fingera_btc_key_init`, src/btc/key.c:332-343 (`none`: a `read` does not return).  `secp256k1_context_randomize` needs a
signing context and then returns 1. -/
def init (nd : Bool) (os : Os) (s : State) : Res (Option State) := do
  assertNd nd s.verify.isNone
  let (v, s) := create .verify s
  let s := { s with verify := some v }
  assertNd nd s.sign.isNone
  let (c, s) := create .sign s
  let s := { s with sign := some c }
  match ← osRandBytes os (List.replicate 32 0xAA#8) 32 with
  | none => pure none
  | some _ => do
    libCall s.sign (some .sign) s
    pure (some s)

/-- `fingera_btc_key_uninit`, src/btc/key.c:345-352. -/
def uninit (nd : Bool) (s : State) : Res State := do
  assertNd nd s.sign.isSome
  let s ← destroy s.sign s
  let s := { s with sign := none }
  assertNd nd s.verify.isSome
  let s ← destroy s.verify s
  pure { s with verify := none }

/-- The exported functions of key.c that hand a context to the library. -/
inductive Op where
  | keyNew | keyDerive | keyEncode | keyDecode | keyGetPub | pubkeyDerive | pubkeyEncode | pubkeyDecode
  | keySign | signatureEncode | signatureDecode | keyVerify | keyKeyid | pubkeyKeyid
deriving DecidableEq, Repr

/-- The pointer a library call is given, and the capability the call needs (secp256k1.h of 2018: `ec_pubkey_create` and
`ecdsa_sign` a signing context, `ec_pubkey_tweak_add` and `ecdsa_verify` a verifying one, the others any context). -/
def calls : Op → List (Kind × Option Kind)
  /- seckey_verify, key.c:357 -/
  | .keyNew => [(.sign, none)]
  /- get_pub (457), pubkey_encode (495), privkey_tweak_add (421) -/
  | .keyDerive => [(.sign, some .sign), (.sign, none), (.sign, none)]
  /- pubkey_create (259), pubkey_serialize (288, 321) with the context of 438 -/
  | .keyEncode => [(.sign, some .sign), (.sign, none)]
  /- seckey_verify (232) with the context of 450 -/
  | .keyDecode => [(.sign, none)]
  | .keyGetPub => [(.sign, some .sign)]
  /- pubkey_decode (513), pubkey_parse (474), pubkey_tweak_add (477), pubkey_encode (495) -/
  | .pubkeyDerive => [(.verify, none), (.verify, none), (.verify, some .verify), (.sign, none)]
  | .pubkeyEncode => [(.sign, none)]
  | .pubkeyDecode => [(.verify, none)]
  /- ecdsa_sign (539, 548), signature_serialize_compact (520) -/
  | .keySign => [(.sign, some .sign), (.sign, none)]
  | .signatureEncode => [(.sign, none)]
  /- signature_parse_compact (32, 155, 161) with the context of 581 -/
  | .signatureDecode => [(.verify, none)]
  /- signature_normalize (597), ecdsa_verify (599) -/
  | .keyVerify => [(.verify, none), (.verify, some .verify)]
  /- get_pub (457), pubkey_keyid: key.c:603-607 -/
  | .keyKeyid => [(.sign, some .sign), (.sign, none)]
  /- pubkey_encode (495): key.c:609-617 -/
  | .pubkeyKeyid => [(.sign, none)]

/-- Make a list of library calls. -/
def libCalls (s : State) : List (Kind × Option Kind) → Res Unit
  | [] => .ok ()
  | (p, need) :: rest => do
    libCall (match p with | .sign => s.sign | .verify => s.verify) need s
    libCalls s rest

/-- One call of the interface. -/
inductive Call where
  | init (os : Os)
  | uninit
  | op (o : Op)
deriving DecidableEq, Repr

/-- Run a history of calls (`none`: some `read` does not return). -/
def run (nd : Bool) : List Call → State → Res (Option State)
  | [], s => .ok (some s)
  | .init os :: cs, s => do
    match ← init nd os s with
    | none => pure none
    | some s => run nd cs s
  | .uninit :: cs, s => do
    let s ← uninit nd s
    run nd cs s
  | .op o :: cs, s => do
    libCalls s (calls o)
    run nd cs s

/-- `fingera_btc_key_new`, src/btc/key.c:354-358: the memory at `key32` and the replies left, `none` if a `read` does not
return.  `opens`: does each `open` succeed.  The loop has no bound: the model gives up (`none`) after `fuel` rounds. -/
def keyNew (opens : Bool) : Nat → List Reply → List Byte → Res (Option (List Byte × List Reply))
  | 0, _, _ => .ok none
  | fuel+1, replies, key => do
    match ← osRandBytes ⟨opens, replies⟩ key 32 with
    | none => pure none
    | some (key, replies) => do
      let ok ← seckeyVerify key
      if ok then pure (some (key, replies)) else keyNew opens fuel replies key

end KeyContext
