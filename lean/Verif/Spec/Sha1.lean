import Verif.Spec.Sha2

/-!
SHA-1 as published in FIPS 180-4 (byte-oriented messages).
-/
namespace Sha1Spec
open WordSpec

abbrev W32 := BitVec 32

/-- FIPS 180-4 (4.1): the function of round `t`. -/
def f (t : Nat) (x y z : W32) : W32 :=
  if t < 20 then (x &&& y) ^^^ (~~~x &&& z)
  else if t < 40 then x ^^^ y ^^^ z
  else if t < 60 then (x &&& y) ^^^ (x &&& z) ^^^ (y &&& z)
  else x ^^^ y ^^^ z

/-- FIPS 180-4 4.2.1. -/
def K (t : Nat) : W32 :=
  if t < 20 then 0x5a827999#32 else if t < 40 then 0x6ed9eba1#32
  else if t < 60 then 0x8f1bbcdc#32 else 0xca62c1d6#32

/-- FIPS 180-4 5.3.1. -/
def H0 : List W32 := [0x67452301#32, 0xefcdab89#32, 0x98badcfe#32, 0x10325476#32, 0xc3d2e1f0#32]

/-- One more word of the message schedule: `W_t = ROTL 1 (W_{t-3} ⊕ W_{t-8} ⊕ W_{t-14} ⊕ W_{t-16})`
(6.1.2 step 1). -/
def extend (ws : List W32) : List W32 :=
  let t := ws.length
  ws ++ [rotl 1 (ws.getD (t-3) 0#32 ^^^ ws.getD (t-8) 0#32 ^^^ ws.getD (t-14) 0#32 ^^^
    ws.getD (t-16) 0#32)]

def extendN : Nat → List W32 → List W32
  | 0, ws => ws
  | n+1, ws => extendN n (extend ws)

/-- The eighty words of the message schedule of a block of 16 words. -/
def schedule (m : List W32) : List W32 := extendN 64 m

/-- The working variables. -/
structure Vars where
  (a b c d e : W32)

/-- 6.1.2 step 3 for round `t`. -/
def round (t : Nat) (s : Vars) (wt : W32) : Vars :=
  ⟨rotl 5 s.a + f t s.b s.c s.d + s.e + K t + wt, s.a, rotl 30 s.b, s.c, s.d⟩

/-- Rounds `t, t+1, …` with the given schedule words. -/
def rounds (t : Nat) (s : Vars) : List W32 → Vars
  | [] => s
  | wt :: r => rounds (t+1) (round t s wt) r

/-- The hash value (five words) after one more block. -/
def compress (H : List W32) (m : List W32) : List W32 :=
  let s := rounds 0 ⟨H.getD 0 0#32, H.getD 1 0#32, H.getD 2 0#32, H.getD 3 0#32, H.getD 4 0#32⟩
    (schedule m)
  [s.a + H.getD 0 0#32, s.b + H.getD 1 0#32, s.c + H.getD 2 0#32, s.d + H.getD 3 0#32,
   s.e + H.getD 4 0#32]

/-- 5.1.1: the padding is the one of SHA-256 (length field of 64 bits, blocks of 512 bits). -/
def pad (msg : List (BitVec 8)) : List (BitVec 8) := Sha2Spec.pad Sha2Spec.sha256 msg

/-- A block as sixteen big-endian words. -/
def words (block : List (BitVec 8)) : List W32 :=
  (pieces 4 block).map fun p => BitVec.ofNat 32 (beNat p)

/-- SHA-1 of a byte string. -/
def SHA1 (msg : List (BitVec 8)) : List (BitVec 8) :=
  (((pieces 64 (pad msg)).map words).foldl compress H0).flatMap fun x => beBytes 4 x.toNat

end Sha1Spec
