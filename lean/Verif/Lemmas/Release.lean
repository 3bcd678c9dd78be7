import Verif.Model.Release
/-! Debug and release builds. -/
namespace Release

/-- `b` (release) is what `a` (debug) is, unless `a` ends with a failed assertion. -/
def Only {α : Type} (a b : Res α) : Prop := a = .abort ∨ b = a

theorem Only.refl {α : Type} (a : Res α) : Only a a := Or.inr rfl

theorem Only.bind {α β : Type} {a b : Res α} {f g : α → Res β} (h : Only a b) (hf : ∀ x, Only (f x) (g x)) :
    Only (a >>= f) (b >>= g) := by
  rcases h with h | h
  · rw [h]; exact Or.inl rfl
  · rw [h]
    cases a with
    | ok x => exact hf x
    | ub => exact Or.inr rfl
    | abort => exact Or.inl rfl

/-- The same code in front. -/
theorem Only.bind' {α β : Type} (a : Res α) {f g : α → Res β} (hf : ∀ x, Only (f x) (g x)) : Only (a >>= f) (a >>= g) :=
  Only.bind (Only.refl a) hf

theorem Only.assert (c : Bool) : Only (assertNd false c) (assertNd true c) := by
  cases c
  · exact Or.inl rfl
  · exact Or.inr rfl

theorem Only.ite {α : Type} {p : Prop} [Decidable p] {a b c d : Res α} (h : Only a b) (h' : Only c d) :
    Only (if p then a else c) (if p then b else d) := by
  by_cases hp : p
  · rw [if_pos hp, if_pos hp]; exact h
  · rw [if_neg hp, if_neg hp]; exact h'

theorem Only.forLoop {σ : Type} {f g : Nat → σ → Res σ} (h : ∀ i s, Only (f i s) (g i s)) (k : Nat) :
    ∀ i s, Only (forLoop f i k s) (forLoop g i k s) := by
  induction k with
  | zero => exact fun i s => Only.refl _
  | succ k ih => exact fun i s => Only.bind (h i s) fun s => ih (i + 1) s

theorem Only.eq {α : Type} {a b : Res α} (h : Only a b) (ha : a ≠ .abort) : b = a := h.resolve_left ha

/-! ### With `nd = false` these are the functions of the other files -/

theorem encBody_false : encBody false = Base58.encBody := rfl
theorem toBase58_false : toBase58 false = Base58.toBase58 := rfl

theorem digitLoop_false (cs : Bool) (size : Nat) : ∀ (s b256 : List Byte) (len : Nat),
    digitLoop false cs size s b256 len = Base58.digitLoop cs size s b256 len
  | [], _, _ => rfl
  | c :: r, b256, len => by
    unfold digitLoop Base58.digitLoop
    simp only [digitLoop_false cs size r]
    rfl

theorem fromBase58_false (cs : Bool) (str : List Byte) (n : Nat) (buf : List Byte) :
    fromBase58 false cs str n buf = Base58.fromBase58 cs str n buf := by
  unfold fromBase58 Base58.fromBase58
  simp only [digitLoop_false]
  rfl

theorem toBase58Check_false : toBase58Check false = Base58Check.toBase58Check := rfl

theorem fromBase58Check_false (host : Host) (cs : Bool) (str : List Byte) (n : Nat) (buf : List Byte) :
    fromBase58Check false host cs str n buf = Base58Check.fromBase58Check host cs str n buf := by
  unfold fromBase58Check Base58Check.fromBase58Check
  simp only [fromBase58_false]

theorem bech32Encode_false : bech32Encode false = Bech32.encode := rfl
theorem toAddressPubkey_false : toAddressPubkey false = Address.toAddressPubkey := rfl
theorem toAddressScript_false : toAddressScript false = Address.toAddressScript := rfl
theorem witnessEncode_false : witnessEncode false = Address.witnessEncode := rfl
theorem toAddressWitnessV0Keyhash_false : toAddressWitnessV0Keyhash false = Address.toAddressWitnessV0Keyhash false := rfl
theorem toAddressWitnessV0Scripthash_false :
    toAddressWitnessV0Scripthash false = Address.toAddressWitnessV0Scripthash false := rfl
theorem toAddressWitnessUnknown_false : toAddressWitnessUnknown false = Address.toAddressWitnessUnknown := rfl

theorem addressDecode_false (host : Host) (cs : Bool) (stack str : List Byte) (n : Nat) (out : List Byte) (outSize : Nat)
    (param : ChainParameters) : addressDecode false host cs stack str n out outSize param =
      Address.addressDecode host cs stack str n out outSize param := by
  unfold addressDecode Address.addressDecode
  simp only [fromBase58Check_false]

theorem keyToString_false : keyToString false = Key.keyToString := rfl

theorem keyFromString_false (host : Host) (cs : Bool) (str : List Byte) (n : Nat) (key32 : List Byte) (comp : Int)
    (param : ChainParameters) : keyFromString false host cs str n key32 comp param =
      Key.keyFromString false host cs str n key32 comp param := by
  unfold keyFromString Key.keyFromString
  simp only [fromBase58Check_false]

theorem exkeyToString_false : exkeyToString false = Exkey.exkeyToString := rfl
theorem expubkeyToString_false : expubkeyToString false = Exkey.expubkeyToString := rfl

theorem exkeyFromString_false (host : Host) (cs : Bool) (str : List Byte) (n : Nat) (key : Exkey.ExKey)
    (param : ChainParameters) : exkeyFromString false host cs str n key param =
      Exkey.exkeyFromString false host cs str n key param := by
  unfold exkeyFromString Exkey.exkeyFromString
  simp only [fromBase58Check_false]

theorem expubkeyFromString_false (host : Host) (cs : Bool) (str : List Byte) (n : Nat) (pub : Exkey.ExPubkey)
    (param : ChainParameters) : expubkeyFromString false host cs str n pub param =
      Exkey.expubkeyFromString false host cs str n pub param := by
  unfold expubkeyFromString Exkey.expubkeyFromString
  simp only [fromBase58Check_false]

/-! ### base58, Bech32 and what is built from them -/

theorem toBase58_only (buf : List Byte) (n : Nat) (str : List Byte) : Only (toBase58 false buf n str) (toBase58 true buf n str) := by
  unfold toBase58
  refine Only.bind' _ fun z => Only.ite (Only.refl _) (Only.bind (Only.forLoop (fun i s => ?_) _ _ _) fun x => Only.refl _)
  unfold encBody
  exact Only.bind' _ fun b => Only.bind' _ fun r => Only.bind (Only.assert _) fun _ => Only.refl _

theorem digitLoop_only (cs : Bool) (size : Nat) : ∀ (s b256 : List Byte) (len : Nat),
    Only (digitLoop false cs size s b256 len) (digitLoop true cs size s b256 len)
  | [], _, _ => Only.refl _
  | c :: r, b256, len => by
    unfold digitLoop
    refine Only.ite (Only.refl _) (Only.bind' _ fun b => Only.ite (Only.refl _) (Only.bind' _ fun v => Only.ite (Only.refl _)
      (Only.bind' _ fun x => Only.bind (Only.assert _) fun _ => digitLoop_only cs size r _ _)))

theorem fromBase58_only (cs : Bool) (str : List Byte) (n : Nat) (buf : List Byte) :
    Only (fromBase58 false cs str n buf) (fromBase58 true cs str n buf) := by
  unfold fromBase58
  exact Only.bind' _ fun x => Only.bind' _ fun y => Only.ite (Only.refl _) (Only.bind' _ fun s =>
    Only.bind (digitLoop_only cs s _ _ _) fun r => Only.refl _)

theorem toBase58Check_only (host : Host) (buf : List Byte) (n : Nat) (pre : List Byte) (m : Nat) (str : List Byte) :
    Only (toBase58Check false host buf n pre m str) (toBase58Check true host buf n pre m str) := by
  unfold toBase58Check
  exact Only.bind' _ fun _ => Only.bind' _ fun _ => Only.bind' _ fun _ => Only.bind' _ fun _ => toBase58_only _ _ _

theorem fromBase58Check_only (host : Host) (cs : Bool) (str : List Byte) (n : Nat) (buf : List Byte) :
    Only (fromBase58Check false host cs str n buf) (fromBase58Check true host cs str n buf) := by
  unfold fromBase58Check
  exact Only.bind (fromBase58_only cs str n buf) fun x => Only.refl _

theorem bech32Encode_only (hrp : List Byte) (hn : Nat) (b32 : List Byte) (n : Nat) (res : List Byte) :
    Only (bech32Encode false hrp hn b32 n res) (bech32Encode true hrp hn b32 n res) := by
  unfold bech32Encode
  refine Only.bind' _ fun _ => Only.bind' _ fun _ => Only.bind' _ fun _ => Only.bind (Only.forLoop (fun i s => ?_) _ _ _)
    fun x => Only.refl _
  exact Only.bind' _ fun b => Only.bind (Only.assert _) fun _ => Only.refl _

theorem witnessEncode_only (buffer : List Byte) (v : Byte) (prog : List Byte) (n : Nat) (out : List Byte) (outSize : Nat)
    (param : ChainParameters) : Only (witnessEncode false buffer v prog n out outSize param)
      (witnessEncode true buffer v prog n out outSize param) := by
  unfold witnessEncode
  exact Only.bind' _ fun _ => Only.bind' _ fun _ => Only.ite (Only.refl _) (Only.bind (bech32Encode_only _ _ _ _ _) fun _ => Only.refl _)

theorem addressPubkey_only (host : Host) (id : List Byte) (n : Nat) (out : List Byte) (m : Nat) (param : ChainParameters) :
    Only (toAddressPubkey false host id n out m param) (toAddressPubkey true host id n out m param) :=
  Only.ite (Only.refl _) (toBase58Check_only _ _ _ _ _ _)

theorem addressScript_only (host : Host) (id : List Byte) (n : Nat) (out : List Byte) (m : Nat) (param : ChainParameters) :
    Only (toAddressScript false host id n out m param) (toAddressScript true host id n out m param) :=
  Only.ite (Only.refl _) (toBase58Check_only _ _ _ _ _ _)

theorem addressKeyhash_only (id : List Byte) (n : Nat) (out : List Byte) (m : Nat) (param : ChainParameters) :
    Only (toAddressWitnessV0Keyhash false id n out m param) (toAddressWitnessV0Keyhash true id n out m param) := by
  unfold toAddressWitnessV0Keyhash
  exact Only.bind (Only.assert _) fun _ => Only.ite (Only.refl _) (witnessEncode_only _ _ _ _ _ _ _)

theorem addressScripthash_only (id : List Byte) (n : Nat) (out : List Byte) (m : Nat) (param : ChainParameters) :
    Only (toAddressWitnessV0Scripthash false id n out m param) (toAddressWitnessV0Scripthash true id n out m param) := by
  unfold toAddressWitnessV0Scripthash
  exact Only.bind (Only.assert _) fun _ => Only.ite (Only.refl _) (witnessEncode_only _ _ _ _ _ _ _)

theorem addressUnknown_only (vp : List Byte) (n : Nat) (out : List Byte) (m : Nat) (param : ChainParameters) :
    Only (toAddressWitnessUnknown false vp n out m param) (toAddressWitnessUnknown true vp n out m param) := by
  unfold toAddressWitnessUnknown
  exact Only.ite (Only.refl _) (Only.bind' _ fun _ => Only.ite (Only.refl _) (witnessEncode_only _ _ _ _ _ _ _))

theorem addressDecode_only (host : Host) (cs : Bool) (stack str : List Byte) (n : Nat) (out : List Byte) (outSize : Nat)
    (param : ChainParameters) : Only (addressDecode false host cs stack str n out outSize param)
      (addressDecode true host cs stack str n out outSize param) := by
  unfold addressDecode
  exact Only.ite (Only.refl _) (Only.bind (fromBase58Check_only _ _ _ _ _) fun _ => Only.refl _)

theorem keyToString_only (host : Host) (key str : List Byte) (c : Bool) (param : ChainParameters) :
    Only (keyToString false host key str c param) (keyToString true host key str c param) := by
  unfold keyToString
  exact Only.ite (Only.bind' _ fun _ => Only.bind' _ fun _ => toBase58Check_only _ _ _ _ _ _) (toBase58Check_only _ _ _ _ _ _)

theorem keyFromString_only (host : Host) (cs : Bool) (str : List Byte) (n : Nat) (key32 : List Byte) (comp : Int)
    (param : ChainParameters) : Only (keyFromString false host cs str n key32 comp param)
      (keyFromString true host cs str n key32 comp param) := by
  unfold keyFromString
  exact Only.bind (Only.assert _) fun _ => Only.bind (fromBase58Check_only _ _ _ _ _) fun _ => Only.refl _

theorem exkeyToString_only (host : Host) (key : Exkey.ExKey) (str : List Byte) (param : ChainParameters) :
    Only (exkeyToString false host key str param) (exkeyToString true host key str param) := by
  unfold exkeyToString
  exact Only.bind' _ fun _ => toBase58Check_only _ _ _ _ _ _

theorem expubkeyToString_only (host : Host) (key : Exkey.ExPubkey) (str : List Byte) (param : ChainParameters) :
    Only (expubkeyToString false host key str param) (expubkeyToString true host key str param) := by
  unfold expubkeyToString
  exact Only.bind' _ fun _ => toBase58Check_only _ _ _ _ _ _

theorem exkeyFromString_only (host : Host) (cs : Bool) (str : List Byte) (n : Nat) (key : Exkey.ExKey)
    (param : ChainParameters) : Only (exkeyFromString false host cs str n key param) (exkeyFromString true host cs str n key param) := by
  unfold exkeyFromString
  exact Only.bind (Only.assert _) fun _ => Only.bind (fromBase58Check_only _ _ _ _ _) fun _ => Only.bind (Only.assert _) fun _ => Only.refl _

theorem expubkeyFromString_only (host : Host) (cs : Bool) (str : List Byte) (n : Nat) (pub : Exkey.ExPubkey)
    (param : ChainParameters) :
    Only (expubkeyFromString false host cs str n pub param) (expubkeyFromString true host cs str n pub param) := by
  unfold expubkeyFromString
  exact Only.bind (Only.assert _) fun _ => Only.bind (fromBase58Check_only _ _ _ _ _) fun _ => Only.bind (Only.assert _) fun _ => Only.refl _

/-! ### Keys -/
open Key Exkey SecpLib

theorem exportWrite_only (out key32 begin middle : List Byte) (pk : PubObj) (n t : Nat) (c : Bool) :
    Only (exportWrite false out key32 begin middle pk n t c) (exportWrite true out key32 begin middle pk n t c) := by
  unfold exportWrite
  exact Only.bind' _ fun _ => Only.bind' _ fun _ => Only.bind' _ fun _ => Only.bind' _ fun _ => Only.bind (Only.assert _) fun _ => Only.refl _

theorem exportDer_only (out : List Byte) (len : Nat) (key32 : List Byte) (c : Bool) :
    Only (exportDer false out len key32 c) (exportDer true out len key32 c) := by
  unfold exportDer
  generalize beginCompressed = b1
  generalize middleCompressed = b2
  generalize beginUncompressed = b3
  generalize middleUncompressed = b4
  refine Only.bind' _ fun x => ?_
  refine Only.ite (Only.refl _) ?_
  refine Only.ite ?_ ?_
  · exact Only.bind (Only.assert _) fun _ => exportWrite_only _ _ _ _ _ _ _ _
  · exact Only.bind (Only.assert _) fun _ => exportWrite_only _ _ _ _ _ _ _ _

theorem keyEncode_only (key32 out : List Byte) (len : Nat) : Only (keyEncode false key32 out len) (keyEncode true key32 out len) := by
  unfold keyEncode
  exact Only.bind (Only.assert _) fun _ => Only.ite (Only.refl _) (Only.bind (exportDer_only _ _ _ _) fun _ =>
    Only.bind (Only.assert _) fun _ => Only.refl _)

theorem keyGetPub_only (key32 : List Byte) : Only (keyGetPub false key32) (keyGetPub true key32) := by
  unfold keyGetPub
  exact Only.bind' _ fun _ => Only.bind (Only.assert _) fun _ => Only.refl _

theorem pubkeyEncode_only (pk : PubObj) (out : List Byte) (len : Nat) :
    Only (pubkeyEncode false pk out len) (pubkeyEncode true pk out len) := by
  unfold pubkeyEncode
  exact Only.bind (Only.assert _) fun _ => Only.ite (Only.refl _) (Only.bind' _ fun _ =>
    Only.bind (Only.assert _) fun _ => Only.refl _)

theorem pubkeyDecode_only (enc : List Byte) (len : Nat) : Only (pubkeyDecode false enc len) (pubkeyDecode true enc len) := by
  unfold pubkeyDecode
  exact Only.bind (Only.assert _) fun _ => Only.refl _

theorem deriveHash_only (host : Host) (key chain : List Byte) (child : U32) :
    Only (deriveHash false host key chain child) (deriveHash true host key chain child) := by
  unfold deriveHash
  exact Only.ite (Only.bind (keyGetPub_only _) fun _ => Only.bind (pubkeyEncode_only _ _ _) fun _ => Only.refl _) (Only.refl _)

theorem keyDerive_only (host : Host) (key chain outKey outChain : List Byte) (child : U32) :
    Only (keyDerive false host key chain outKey outChain child) (keyDerive true host key chain outKey outChain child) := by
  unfold keyDerive
  exact Only.bind (deriveHash_only _ _ _ _) fun _ => Only.refl _

theorem pubkeyDerive_only (host : Host) (pub chain outPub outChain : List Byte) (child : U32) :
    Only (pubkeyDerive false host pub chain outPub outChain child) (pubkeyDerive true host pub chain outPub outChain child) := by
  unfold pubkeyDerive
  exact Only.bind (Only.assert _) fun _ => Only.bind' _ fun _ => Only.bind (Only.assert _) fun _ =>
    Only.bind (pubkeyDecode_only _ _) fun _ => Only.ite (Only.refl _) (Only.bind' _ fun _ => Only.bind' _ fun _ =>
      Only.bind' _ fun _ => Only.ite (Only.refl _) (Only.bind' _ fun _ => Only.ite (Only.refl _)
        (Only.bind (pubkeyEncode_only _ _ _) fun _ => Only.refl _)))

theorem keySign_only (host : Host) (sf fuel : Nat) (key hash : List Byte) :
    Only (keySign false host sf fuel key hash) (keySign true host sf fuel key hash) := by
  unfold keySign
  refine Only.bind' _ fun x => ?_
  cases x with
  | none => exact Only.refl _
  | some p =>
    refine Only.bind' _ fun y => ?_
    cases y with
    | none => exact Only.refl _
    | some q => exact Only.bind (Only.assert _) fun _ => Only.refl _

theorem pubkeyKeyid_only (host : Host) (pk : PubObj) (c : Bool) (id : List Byte) :
    Only (pubkeyKeyid false host pk c id) (pubkeyKeyid true host pk c id) := by
  unfold pubkeyKeyid
  exact Only.bind (pubkeyEncode_only _ _ _) fun _ => Only.bind (Only.assert _) fun _ => Only.refl _

theorem keyKeyid_only (host : Host) (key : List Byte) (c : Bool) (id : List Byte) :
    Only (keyKeyid false host key c id) (keyKeyid true host key c id) := by
  unfold keyKeyid
  exact Only.bind (keyGetPub_only _) fun _ => pubkeyKeyid_only _ _ _ _

theorem keyFingerprint_only (host : Host) (key : List Byte) (c : Bool) :
    Only (keyFingerprint false host key c) (keyFingerprint true host key c) := by
  unfold keyFingerprint
  exact Only.bind (keyKeyid_only _ _ _ _) fun _ => Only.refl _

theorem exkeyDerive_only (host : Host) (key derived : ExKey) (child fp : U32) :
    Only (exkeyDerive false host key derived child fp) (exkeyDerive true host key derived child fp) := by
  unfold exkeyDerive
  exact Only.bind (keyDerive_only _ _ _ _ _ _) fun _ => Only.refl _

theorem expubkeyDerive_only (host : Host) (key derived : ExPubkey) (child fp : U32) :
    Only (expubkeyDerive false host key derived child fp) (expubkeyDerive true host key derived child fp) := by
  unfold expubkeyDerive
  exact Only.bind (pubkeyDerive_only _ _ _ _ _ _) fun _ => Only.refl _

theorem exkeyGetPub_only (key : ExKey) (pub : ExPubkey) : Only (exkeyGetPub false key pub) (exkeyGetPub true key pub) := by
  unfold exkeyGetPub
  exact Only.bind (keyGetPub_only _) fun _ => Only.bind (pubkeyEncode_only _ _ _) fun _ => Only.bind (Only.assert _) fun _ => Only.refl _

theorem init_only (os : Random.Os) (s : KeyContext.State) : Only (KeyContext.init false os s) (KeyContext.init true os s) := by
  unfold KeyContext.init
  exact Only.bind (Only.assert _) fun _ => Only.bind (Only.assert _) fun _ => Only.refl _

theorem uninit_only (s : KeyContext.State) : Only (KeyContext.uninit false s) (KeyContext.uninit true s) := by
  unfold KeyContext.uninit
  exact Only.bind (Only.assert _) fun _ => Only.bind' _ fun _ => Only.bind (Only.assert _) fun _ => Only.refl _

theorem run_only : ∀ (cs : List KeyContext.Call) (s : KeyContext.State), Only (KeyContext.run false cs s) (KeyContext.run true cs s)
  | [], _ => Only.refl _
  | .init os :: cs, s => by
    unfold KeyContext.run
    refine Only.bind (init_only os s) fun x => ?_
    cases x with
    | none => exact Only.refl _
    | some s => exact run_only cs s
  | .uninit :: cs, s => by
    unfold KeyContext.run
    exact Only.bind (uninit_only s) fun s => run_only cs s
  | .op o :: cs, s => by
    unfold KeyContext.run
    exact Only.bind' _ fun _ => run_only cs s

end Release
