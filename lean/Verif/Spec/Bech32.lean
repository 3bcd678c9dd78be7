/-! Bech32 as specified in BIP 173, transcribed from the reference implementation given there. -/
namespace Bech32Spec

/-- The 32 characters of the data part, in the order of their values. -/
def charset : List (BitVec 8) :=
  "qpzry9x8gf2tvdw0s3jn54khce6mua7l".toList.map fun c => BitVec.ofNat 8 c.toNat

/-- Character of a 5-bit value. -/
def char (v : BitVec 8) : BitVec 8 := charset.getD v.toNat 0

/-- One step of `bech32_polymod`: the 30-bit register is shifted left by one 5-bit symbol, `v` is added and,
for each bit that was shifted out, the corresponding multiple of the generator polynomial. -/
def step (chk : BitVec 30) (v : BitVec 8) : BitVec 30 :=
  let g := fun (i : Nat) (gen : BitVec 30) => if chk.getLsbD (25 + i) then gen else 0#30
  (chk <<< 5) ^^^ v.setWidth 30 ^^^ g 0 0x3b6a57b2#30 ^^^ g 1 0x26508e6d#30 ^^^ g 2 0x1ea119fa#30 ^^^
    g 3 0x3d4233dd#30 ^^^ g 4 0x2a1462b3#30

/-- `bech32_polymod(values)`. -/
def polymod (values : List (BitVec 8)) : BitVec 30 := values.foldl step 1#30

/-- `bech32_hrp_expand`. -/
def hrpExpand (hrp : List (BitVec 8)) : List (BitVec 8) :=
  hrp.map (fun c : BitVec 8 => c >>> 5) ++ [0#8] ++ hrp.map (fun c : BitVec 8 => c &&& 31#8)

/-- `bech32_create_checksum`. -/
def checksum (hrp data : List (BitVec 8)) : List (BitVec 8) :=
  let p := polymod (hrpExpand hrp ++ data ++ List.replicate 6 0#8) ^^^ 1#30
  (List.range 6).map fun i => (p >>> (5 * (5 - i))).setWidth 8 &&& 31#8

/-- `bech32_encode`. -/
def encode (hrp data : List (BitVec 8)) : List (BitVec 8) :=
  hrp ++ [49#8] ++ (data ++ checksum hrp data).map char

def isUpper (c : BitVec 8) : Prop := 65 ≤ c.toNat ∧ c.toNat ≤ 90
def isLower (c : BitVec 8) : Prop := 97 ≤ c.toNat ∧ c.toNat ≤ 122
instance (c : BitVec 8) : Decidable (isUpper c) := inferInstanceAs (Decidable (_ ∧ _))
instance (c : BitVec 8) : Decidable (isLower c) := inferInstanceAs (Decidable (_ ∧ _))

/-- Lower-case form of a character. -/
def lower (c : BitVec 8) : BitVec 8 := if isUpper c then c + 32#8 else c

/-- `s` is a valid Bech32 string with human-readable part `hrp` and data values `data` (BIP 173): at
most 90 characters in 33..126, not both upper- and lower-case letters; in lower case it is the
non-empty `hrp`, the separator, and the characters of `data` and of six checksum values that make
`polymod` 1.  (As `1` is not a data character the separator is the last `1`.) -/
structure Valid (s hrp data : List (BitVec 8)) : Prop where
  length : s.length ≤ 90
  range : ∀ c ∈ s, 33 ≤ c.toNat ∧ c.toNat ≤ 126
  case : ¬ ((∃ c ∈ s, isUpper c) ∧ ∃ c ∈ s, isLower c)
  hrp_ne : hrp ≠ []
  parts : ∃ sum : List (BitVec 8), sum.length = 6 ∧ (∀ v ∈ data ++ sum, v.toNat < 32) ∧
    s.map lower = hrp ++ [49#8] ++ (data ++ sum).map char ∧
    polymod (hrpExpand hrp ++ data ++ sum) = 1#30

/-- The number of places at which two lists of the same length differ. -/
def differences {α : Type} [DecidableEq α] (x y : List α) : Nat :=
  (List.zip x y).countP fun p => p.1 != p.2

end Bech32Spec
