import Verif.Model.Locale
import Verif.Spec.Base58
import Verif.Spec.Bech32
/-! What the C standard promises about the character functions of every locale, and how a text looks in one. -/

/-- C11 7.4.1: the six standard white-space characters are spaces, letters and digits of the basic character set are not, nor is NUL;
of the printable ASCII characters exactly the 26 letters are upper case.  What `tolower` makes of them is up to the locale. -/
structure Locale.Lawful (L : Locale) : Prop where
  spaces : ∀ c, Base58Spec.isSpace c = true → L.isspace c = true
  alnum : ∀ c : Byte, (48 ≤ c.toNat ∧ c.toNat ≤ 57) ∨ (65 ≤ c.toNat ∧ c.toNat ≤ 90) ∨ (97 ≤ c.toNat ∧ c.toNat ≤ 122) → L.isspace c = false
  nul : L.isspace 0#8 = false
  upper : ∀ c : Byte, 33 ≤ c.toNat ∧ c.toNat ≤ 126 → (L.isupper c = true ↔ Bech32Spec.isUpper c)

/-- A character that is a space of the locale, as a blank.  Where `char` is signed (`cs`) characters from 128 on are negative: they
are outside the domain of `isspace`, or its EOF. -/
def Locale.blank (L : Locale) (cs : Bool) (c : Byte) : Byte :=
  if L.isspace c = true ∧ ¬ (cs = true ∧ 128 ≤ c.toNat) then 32#8 else c

/-- A locale that turns upper-case letters into the lower-case letters of ASCII, with the possible exception of `I` (Turkish and
Azerbaijani, where the lower case of `I` is a dotless `ı`). -/
def Locale.Usual (L : Locale) : Prop := ∀ c : Byte, Bech32Spec.isUpper c → c ≠ 73#8 → L.tolower c = c + 32#8
