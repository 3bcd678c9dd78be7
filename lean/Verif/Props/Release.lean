import Verif.Lemmas.ReleaseBech32
import Verif.Props.Ecdsa
import Verif.Props.Der
import Verif.Props.Bip32
/-!
C98: a release build (`NDEBUG`) does what a debug build does.  `Release.f true` is the release build of `f`; the functions of key.c and
exkey.c that reach no assertion of base58.c or bech32.c have `nd` as a parameter of their own.
-/
open Base58Spec ReleaseSpec

/-- C98 (writers of base58 texts). No assertion of the encoders can fail: for all arguments – objects of any size, sizes that do not
match them – debug and release build do the same. -/
theorem C98_base58_writers (host : Host) (buf : List Byte) (n : Nat) (pre : List Byte) (m : Nat) (str : List Byte) (outSize : Nat)
    (c : Bool) (key : Exkey.ExKey) (pub : Exkey.ExPubkey) (param : ChainParameters) :
    Release.toBase58 true buf n str = Base58.toBase58 buf n str ∧
    Release.toBase58Check true host buf n pre m str = Base58Check.toBase58Check host buf n pre m str ∧
    Release.toAddressPubkey true host buf n str outSize param = Address.toAddressPubkey host buf n str outSize param ∧
    Release.toAddressScript true host buf n str outSize param = Address.toAddressScript host buf n str outSize param ∧
    Release.keyToString true host buf str c param = Key.keyToString host buf str c param ∧
    Release.exkeyToString true host key str param = Exkey.exkeyToString host key str param ∧
    Release.expubkeyToString true host pub str param = Exkey.expubkeyToString host pub str param := by
  refine ⟨Release.toBase58_release _ _ _, Release.toBase58Check_release _ _ _ _ _ _, ?_, ?_, ?_, ?_, ?_⟩
  · unfold Release.toAddressPubkey Address.toAddressPubkey; simp only [Release.toBase58Check_release]
  · unfold Release.toAddressScript Address.toAddressScript; simp only [Release.toBase58Check_release]
  · unfold Release.keyToString Key.keyToString; simp only [Release.toBase58Check_release]
  · unfold Release.exkeyToString Exkey.exkeyToString; simp only [Release.toBase58Check_release]
  · unfold Release.expubkeyToString Exkey.expubkeyToString; simp only [Release.toBase58Check_release]

/-- C98 (readers of base58 texts). Where the debug build does not fail an assertion the release build does the same: it returns the same
value, leaves the same bytes everywhere, and is undefined in the same cases. -/
theorem C98_base58_readers (host : Host) (cs : Bool) (stack str : List Byte) (n : Nat) (buf : List Byte) (outSize : Nat) (c : Int)
    (key : Exkey.ExKey) (pub : Exkey.ExPubkey) (param : ChainParameters) :
    (Base58.fromBase58 cs str n buf ≠ .abort → Release.fromBase58 true cs str n buf = Base58.fromBase58 cs str n buf) ∧
    (Base58Check.fromBase58Check host cs str n buf ≠ .abort →
      Release.fromBase58Check true host cs str n buf = Base58Check.fromBase58Check host cs str n buf) ∧
    (Address.addressDecode host cs stack str n buf outSize param ≠ .abort →
      Release.addressDecode true host cs stack str n buf outSize param = Address.addressDecode host cs stack str n buf outSize param) ∧
    (Key.keyFromString false host cs str n buf c param ≠ .abort →
      Release.keyFromString true host cs str n buf c param = Key.keyFromString false host cs str n buf c param) ∧
    (Exkey.exkeyFromString false host cs str n key param ≠ .abort →
      Release.exkeyFromString true host cs str n key param = Exkey.exkeyFromString false host cs str n key param) ∧
    (Exkey.expubkeyFromString false host cs str n pub param ≠ .abort →
      Release.expubkeyFromString true host cs str n pub param = Exkey.expubkeyFromString false host cs str n pub param) := by
  refine ⟨fun h => ?_, fun h => ?_, fun h => ?_, fun h => ?_, fun h => ?_, fun h => ?_⟩
  · rw [← Release.fromBase58_false] at h ⊢; exact (Release.fromBase58_only _ _ _ _).eq h
  · rw [← Release.fromBase58Check_false] at h ⊢; exact (Release.fromBase58Check_only _ _ _ _ _).eq h
  · rw [← Release.addressDecode_false] at h ⊢; exact (Release.addressDecode_only _ _ _ _ _ _ _ _).eq h
  · rw [← Release.keyFromString_false] at h ⊢; exact (Release.keyFromString_only _ _ _ _ _ _ _).eq h
  · rw [← Release.exkeyFromString_false] at h ⊢; exact (Release.exkeyFromString_only _ _ _ _ _ _).eq h
  · rw [← Release.expubkeyFromString_false] at h ⊢; exact (Release.expubkeyFromString_only _ _ _ _ _ _).eq h

/-- The decoder's assertion does not fail on a text announced with its length. -/
theorem Base58.fromBase58_noabort (cs : Bool) (s post buf : List Byte) (h0 : ∀ b ∈ s, b ≠ 0#8) :
    Base58.fromBase58 cs (s ++ 0#8 :: post) s.length buf ≠ .abort := by
  obtain ⟨u1, u2⟩ := Base58.fromBase58_total cs s post buf h0
  by_cases hl : TooLong s
  · rw [u1 (.inl hl)]; simp
  by_cases hn : cs = true ∧ MeetsNegative s
  · rw [u1 (.inr hn)]; simp
  obtain ⟨v1, v2⟩ := u2 hl hn
  cases hd : decode? s with
  | none => rw [v1 hd]; simp
  | some W =>
    by_cases hb : W.length ≤ buf.length
    · rw [(v2 W hd).1 hb]; simp
    · rw [(v2 W hd).2 (by omega)]; simp

/-- C98 (texts announced with their length). For every NUL-terminated text, good or bad, that is announced with its length debug and
release build do the same; the readers of keys under parameters with prefixes of at most eight bytes. -/
theorem C98_announced_texts (host : Host) (cs : Bool) (stack s post buf : List Byte) (outSize : Nat) (c : Int)
    (key : Exkey.ExKey) (pub : Exkey.ExPubkey) (param : ChainParameters) (h0 : ∀ b ∈ s, b ≠ 0#8)
    (hp : param.prefixSecretKeySize ≤ 8 ∧ param.prefixExtSecretKeySize ≤ 8 ∧ param.prefixExtPublicKeySize ≤ 8) :
    let str := s ++ 0#8 :: post
    Release.fromBase58 true cs str s.length buf = Base58.fromBase58 cs str s.length buf ∧
    Release.fromBase58Check true host cs str s.length buf = Base58Check.fromBase58Check host cs str s.length buf ∧
    Release.addressDecode true host cs stack str s.length buf outSize param =
      Address.addressDecode host cs stack str s.length buf outSize param ∧
    Release.keyFromString true host cs str s.length buf c param = Key.keyFromString false host cs str s.length buf c param ∧
    Release.exkeyFromString true host cs str s.length key param = Exkey.exkeyFromString false host cs str s.length key param ∧
    Release.expubkeyFromString true host cs str s.length pub param = Exkey.expubkeyFromString false host cs str s.length pub param := by
  have e1 : ∀ buf, Release.fromBase58 true cs (s ++ 0#8 :: post) s.length buf = Base58.fromBase58 cs (s ++ 0#8 :: post) s.length buf := by
    intro buf
    have h := Base58.fromBase58_noabort cs s post buf h0
    rw [← Release.fromBase58_false] at h ⊢
    exact (Release.fromBase58_only _ _ _ _).eq h
  have e2 : ∀ buf, Release.fromBase58Check true host cs (s ++ 0#8 :: post) s.length buf =
      Base58Check.fromBase58Check host cs (s ++ 0#8 :: post) s.length buf := by
    intro buf
    unfold Release.fromBase58Check Base58Check.fromBase58Check
    simp only [e1]
  have hsz : ∀ buf : List Byte, buf.length = 82 → ∀ o k, Base58Check.fromBase58Check host cs (s ++ 0#8 :: post) s.length buf = .ok (o, k) →
      k ≤ 82 := by
    intro buf hb o k hk
    have hr := (Base58Check.fromBase58Check_ub_iff host cs s post buf h0).not.mp (by rw [hk]; simp)
    rw [not_not] at hr
    rw [Base58Check.fromBase58Check_readable host cs s post buf h0 hr.1 hr.2] at hk
    split at hk
    · have := (Prod.mk.inj (Res.ok.inj hk)).2; omega
    · rename_i W hd
      have hk := (Prod.mk.inj (Res.ok.inj hk)).2
      have hW := hr.2 W hd
      split at hk
      · rename_i p hp
        unfold Base58CheckSpec.check? at hp
        split at hp
        · rw [← Option.some.inj hp, List.length_take] at hk; omega
        · cases hp
      · omega
  refine ⟨e1 buf, e2 buf, ?_, ?_, ?_, ?_⟩
  · unfold Release.addressDecode Address.addressDecode; simp only [e2]
  · unfold Release.keyFromString Key.keyFromString
    simp only [e2, hp.1, decide_true, assertNd, assertC, if_true, Bool.false_eq_true, if_false]
  · unfold Release.exkeyFromString Exkey.exkeyFromString
    simp only [e2, hp.2.1, decide_true, assertNd, assertC, if_true, Bool.false_eq_true, if_false, Res.ok_bind]
    cases hk : Base58Check.fromBase58Check host cs (s ++ 0#8 :: post) s.length (List.replicate 82 0xAA#8) with
    | ub => rfl
    | abort => rfl
    | ok x =>
      simp only [Res.ok_bind, hsz _ (by simp) x.1 x.2 hk, decide_true, if_true]
  · unfold Release.expubkeyFromString Exkey.expubkeyFromString
    simp only [e2, hp.2.2, decide_true, assertNd, assertC, if_true, Bool.false_eq_true, if_false, Res.ok_bind]
    cases hk : Base58Check.fromBase58Check host cs (s ++ 0#8 :: post) s.length (List.replicate 82 0xAA#8) with
    | ub => rfl
    | abort => rfl
    | ok x =>
      simp only [Res.ok_bind, hsz _ (by simp) x.1 x.2 hk, decide_true, if_true]

/-- C98 is violated by base58: with an announced length that is too small the debug build fails an assertion, the release build returns
the wrong bytes – the number the text stands for, without its most significant bytes – as if nothing were wrong. -/
theorem C98_violated_base58 (cs : Bool) (s post buf W : List Byte) (n : Nat) (h0 : ∀ b ∈ s, b ≠ 0#8)
    (h7 : cs = true → ∀ b ∈ s, b.toNat < 128) (hd : decode? s = some W) (hl : leading s ≤ n) (hn : n * 733 < 2 ^ 31)
    (hb : (cut (workArea n (leading s)) W).length ≤ buf.length) :
    Release.fromBase58 true cs (s ++ 0#8 :: post) n buf =
        .ok (over (cut (workArea n (leading s)) W) buf, (cut (workArea n (leading s)) W).length) ∧
    (cut (workArea n (leading s)) W ≠ W ↔ Base58.fromBase58 cs (s ++ 0#8 :: post) n buf = .abort) := by
  refine ⟨Release.fromBase58_cut cs s post buf W n h0 h7 hd hl hn hb, ?_⟩
  rw [ne_eq, Release.cut_self, C97_violated_base58 cs s post buf W n h0 h7 hd hl hn]
  by_cases h : significant W ≤ workArea n (leading s)
  · rw [if_pos h]
    exact ⟨fun h' => absurd h h', fun h' => by split at h' <;> cases h'⟩
  · rw [if_neg h]; exact ⟨fun _ => rfl, fun _ => h⟩

/-- C98 is violated by Base58Check: a release build accepts texts nobody wrote.  Whatever bytes are put in front of a payload and its
checksum: if the announced length of the text that spells all of them makes room for the payload and the checksum only, the payload is
returned, although the checksum does not belong to the text; the debug build fails an assertion. -/
theorem C98_violated_base58check (host : Host) (cs : Bool) (x b : Byte) (p junk post buf : List Byte) (n : Nat) (hx : x ≠ 0#8)
    (hb : b ≠ 0#8) (hn : n * 733 < 2 ^ 31) (hw : workArea n 0 = (b :: p).length + 4) (hl : (b :: p).length + 4 ≤ buf.length) :
    let text := Base58Spec.encode (x :: junk ++ (b :: p) ++ Base58CheckSpec.checksum (b :: p))
    Release.fromBase58Check true host cs (text ++ 0#8 :: post) n buf =
        .ok (over ((b :: p) ++ Base58CheckSpec.checksum (b :: p)) buf, (b :: p).length) ∧
    Base58Check.fromBase58Check host cs (text ++ 0#8 :: post) n buf = .abort := by
  have hcl := Base58Check.checksum_length (b :: p)
  have hck : Base58CheckSpec.check? ((b :: p) ++ Base58CheckSpec.checksum (b :: p)) = some (b :: p) := by
    have h4 : ((b :: p) ++ Base58CheckSpec.checksum (b :: p)).length - 4 = (b :: p).length := by rw [List.length_append, hcl]; omega
    rw [Base58CheckSpec.check?, h4, List.take_left' rfl, List.drop_left' rfl, if_pos ⟨by rw [List.length_append, hcl]; omega, rfl⟩]
  generalize Base58CheckSpec.checksum (b :: p) = q at hcl hck ⊢
  obtain ⟨W, hWe⟩ : ∃ W, W = x :: junk ++ (b :: p) ++ q := ⟨_, rfl⟩
  simp only [← hWe]
  have hhead : W.dropWhile (· = 0#8) = W ∧ W.takeWhile (· = 0#8) = [] := by
    rw [hWe, List.cons_append, List.cons_append]
    exact ⟨List.dropWhile_cons_of_neg (by simpa using hx), List.takeWhile_cons_of_neg (by simpa using hx)⟩
  have hlead : leading (encode W) = 0 := by rw [Release.leading_encode, hhead.2]; rfl
  have hlenW : W.length = 1 + junk.length + (b :: p).length + 4 := by rw [hWe]; simp [hcl]; omega
  have hcut : cut (workArea n (leading (encode W))) W = (b :: p) ++ q := by
    rw [hlead, hw, cut]
    simp only [hhead.1, hhead.2, List.nil_append]
    rw [show W.length - ((b :: p).length + 4) = (x :: junk).length by simp only [List.length_cons] at hlenW ⊢; omega, hWe, List.append_assoc,
      List.drop_left' rfl, List.cons_append, List.dropWhile_cons_of_neg (by simpa using hb)]
  have h0 : ∀ c ∈ encode W, c ≠ 0#8 := fun c hc => (encode58_chars W c hc).2.1
  have h7 : cs = true → ∀ c ∈ encode W, c.toNat < 128 := fun _ c hc => (encode58_chars W c hc).2.2.1
  have hrel := Release.fromBase58_cut cs (encode W) post buf W n h0 h7 (decode_encode58 W) (by omega) hn
    (by rw [hcut, List.length_append, hcl]; exact hl)
  rw [hcut] at hrel
  constructor
  · unfold Release.fromBase58Check
    rw [hrel]
    simp only [Res.ok_bind]
    rw [Base58Check.checkTail_eq host buf ((b :: p) ++ q) (by rw [List.length_append, hcl]; exact hl)
      (by rw [List.length_append, hcl]; unfold workArea at hw; omega), hck]
  · unfold Base58Check.fromBase58Check
    rw [C97_violated_base58 cs (encode W) post buf W n h0 h7 (decode_encode58 W) (by omega) hn, hlead, hw, significant, hhead.1,
      if_neg (by omega)]
    rfl

/-- C98 is violated by the readers of keys: from such a text a release build takes the key whose text was put behind the junk, as if that
text had been given; the debug build fails an assertion. -/
theorem C98_violated_keys (host : Host) (cs : Bool) (x b : Byte) (p junk post key32 : List Byte) (n : Nat) (c : Int) (key : Exkey.ExKey)
    (pub : Exkey.ExPubkey) (param : ChainParameters) (hx : x ≠ 0#8) (hb : b ≠ 0#8) (hn : n * 733 < 2 ^ 31)
    (hw : workArea n 0 = (b :: p).length + 4)
    (hp : param.prefixSecretKeySize ≤ 8 ∧ param.prefixExtSecretKeySize ≤ 8 ∧ param.prefixExtPublicKeySize ≤ 8) :
    let bad := Base58Spec.encode (x :: junk ++ (b :: p) ++ Base58CheckSpec.checksum (b :: p)) ++ 0#8 :: post
    let good := Base58CheckSpec.encode (b :: p)
    ((b :: p).length + 4 ≤ 40 →
      Release.keyFromString true host cs bad n key32 c param =
        Key.keyFromString false host cs (good ++ 0#8 :: post) good.length key32 c param ∧
      Key.keyFromString false host cs bad n key32 c param = .abort) ∧
    ((b :: p).length + 4 ≤ 82 →
      Release.exkeyFromString true host cs bad n key param =
        Exkey.exkeyFromString false host cs (good ++ 0#8 :: post) good.length key param ∧
      Release.expubkeyFromString true host cs bad n pub param =
        Exkey.expubkeyFromString false host cs (good ++ 0#8 :: post) good.length pub param ∧
      Exkey.exkeyFromString false host cs bad n key param = .abort ∧
      Exkey.expubkeyFromString false host cs bad n pub param = .abort) := by
  intro bad good
  have hcl := Base58Check.checksum_length (b :: p)
  have h0 : ∀ a ∈ good, a ≠ 0#8 := fun a ha => (encode58_chars _ a ha).2.1
  have h7 : cs = true → ∀ a ∈ good, a.toNat < 128 := fun _ a ha => (encode58_chars _ a ha).2.2.1
  have hgood : ∀ buf : List Byte, buf.length ≤ 82 → (b :: p).length + 4 ≤ buf.length →
      Base58Check.fromBase58Check host cs (good ++ 0#8 :: post) good.length buf =
        Release.fromBase58Check true host cs bad n buf ∧
      Base58Check.fromBase58Check host cs bad n buf = .abort := by
    intro buf hbl hl
    obtain ⟨r1, r2⟩ := C98_violated_base58check host cs x b p junk post buf n hx hb hn hw hl
    refine ⟨?_, r2⟩
    have hd : decode? good = some ((b :: p) ++ Base58CheckSpec.checksum (b :: p)) := decode_encode58 _
    have hck : Base58CheckSpec.check? ((b :: p) ++ Base58CheckSpec.checksum (b :: p)) = some (b :: p) := by
      have h4 : ((b :: p) ++ Base58CheckSpec.checksum (b :: p)).length - 4 = (b :: p).length := by rw [List.length_append, hcl]; omega
      rw [Base58CheckSpec.check?, h4, List.take_left' rfl, List.drop_left' rfl, if_pos ⟨by rw [List.length_append, hcl]; omega, rfl⟩]
    have hlen : good.length ≤ 2929669 := by
      have := encodeCheck_length_le (b :: p)
      refine Nat.le_trans this ?_
      unfold Base58.toBase58Length
      omega
    rw [Base58Check.fromBase58Check_readable host cs good post buf h0 (Base58Check.readable_of cs good h7 hlen)
      (fun W hW => by rw [hd] at hW; rw [← Option.some.inj hW, List.length_append, hcl]; exact hl), hd]
    simp only [hck]
    exact r1.symm
  constructor
  · intro hle
    obtain ⟨g1, g2⟩ := hgood (List.replicate 40 0xAA#8) (by simp) (by rw [List.length_replicate]; exact hle)
    constructor
    · unfold Release.keyFromString Key.keyFromString
      simp only [g1, hp.1, decide_true, assertNd, assertC, if_true, Bool.false_eq_true, if_false]
    · unfold Key.keyFromString
      simp only [g2, hp.1, decide_true, assertNd, assertC, if_true, Bool.false_eq_true, if_false]
      rfl
  · intro hle
    obtain ⟨g1, g2⟩ := hgood (List.replicate 82 0xAA#8) (by simp) (by rw [List.length_replicate]; exact hle)
    obtain ⟨r1, -⟩ := C98_violated_base58check host cs x b p junk post (List.replicate 82 0xAA#8) n hx hb hn hw (by rw [List.length_replicate]; exact hle)
    have r1 : Release.fromBase58Check true host cs bad n (List.replicate 82 0xAA#8) = _ := r1
    have hsz : decide ((b :: p).length ≤ 82) = true := decide_eq_true (by omega)
    refine ⟨?_, ?_, ?_, ?_⟩
    · unfold Release.exkeyFromString Exkey.exkeyFromString
      simp only [g1, r1, hp.2.1, hsz, decide_true, assertNd, assertC, if_true, Bool.false_eq_true, if_false, Res.ok_bind]
    · unfold Release.expubkeyFromString Exkey.expubkeyFromString
      simp only [g1, r1, hp.2.2, hsz, decide_true, assertNd, assertC, if_true, Bool.false_eq_true, if_false, Res.ok_bind]
    · unfold Exkey.exkeyFromString
      simp only [g2, hp.2.1, decide_true, assertNd, assertC, if_true, Bool.false_eq_true, if_false]
      rfl
    · unfold Exkey.expubkeyFromString
      simp only [g2, hp.2.2, decide_true, assertNd, assertC, if_true, Bool.false_eq_true, if_false]
      rfl

/-! ### Bech32 and witness addresses -/

/-- C98 for `fingera_bech32_encode`: on values below 32 both builds do the same. -/
theorem C98_bech32 (hrp : List Byte) (m : Nat) (b32 : List Byte) (n : Nat) (out : List Byte)
    (hm : m ≤ hrp.length) (hn : n ≤ b32.length) (hv : ∀ v ∈ b32.take n, v.toNat < 32) (ho : m + n + 7 ≤ out.length) :
    Release.bech32Encode true hrp m b32 n out = Bech32.encode hrp m b32 n out := by
  rw [Release.bech32Encode_release hrp m b32 n out hm hn (fun v h => Nat.le_of_lt (hv v h)) ho, Bech32.encode_eq hrp m b32 n out hm hn hv ho]

/-- C98 is violated by `fingera_bech32_encode`: where the debug build fails an assertion because of a value of 32 or more, the release
build writes a NUL into the text for 32 (the end of the table's string literal), and for a greater value reads beyond the table. -/
theorem C98_violated_bech32 (hrp : List Byte) (m : Nat) (b32 : List Byte) (n : Nat) (out : List Byte)
    (hm : m ≤ hrp.length) (hn : n ≤ b32.length) (hv : ∃ v ∈ b32.take n, 32 ≤ v.toNat) (ho : m + n + 7 ≤ out.length) :
    Bech32.encode hrp m b32 n out = .abort ∧
    ((∃ v ∈ b32.take n, 32 < v.toNat) → Release.bech32Encode true hrp m b32 n out = .ub) ∧
    ((∀ v ∈ b32.take n, v.toNat ≤ 32) → ∃ text, Release.bech32Encode true hrp m b32 n out = .ok (over text out) ∧
      text.length = m + n + 7 ∧ 0#8 ∈ text) := by
  refine ⟨Release.bech32Encode_abort hrp m b32 n out hm hn hv ho, Release.bech32Encode_ub hrp m b32 n out hm hn, fun hle => ?_⟩
  refine ⟨_, Release.bech32Encode_release hrp m b32 n out hm hn hle ho, ?_, ?_⟩
  · rw [Bech32.encode_length, List.length_take, List.length_take]; omega
  · obtain ⟨v, hv, h32⟩ := hv
    have : v = 32#8 := BitVec.eq_of_toNat_eq (by have := hle v hv; simpa using by omega)
    subst this
    rw [Bech32Spec.encode, List.map_append]
    have : Bech32Spec.char 32#8 = 0#8 := by decide +kernel
    rw [← this]
    exact List.mem_append_right _ (List.mem_append_left _ (List.mem_map_of_mem hv))

/-- C98 (witness addresses). For a hash of the right size both builds do the same; any other size fails an assertion in the debug build
and is refused, with nothing written, by the release build. -/
theorem C98_witness_v0 (hash out : List Byte) (outSize n : Nat) (param : ChainParameters)
    (hh : param.bech32HrpSize ≤ param.bech32Hrp.length) (ho : outSize ≤ out.length) :
    (hash.length = 20 → Release.toAddressWitnessV0Keyhash true hash 20 out outSize param =
      Address.toAddressWitnessV0Keyhash false hash 20 out outSize param) ∧
    (hash.length = 32 → Release.toAddressWitnessV0Scripthash true hash 32 out outSize param =
      Address.toAddressWitnessV0Scripthash false hash 32 out outSize param) ∧
    (n ≠ 20 → Release.toAddressWitnessV0Keyhash true hash n out outSize param = .ok (out, 0) ∧
      Address.toAddressWitnessV0Keyhash false hash n out outSize param = .abort) ∧
    (n ≠ 32 → Release.toAddressWitnessV0Scripthash true hash n out outSize param = .ok (out, 0) ∧
      Address.toAddressWitnessV0Scripthash false hash n out outSize param = .abort) := by
  refine ⟨fun hl => ?_, fun hl => ?_, fun hne => ⟨?_, ?_⟩, fun hne => ⟨?_, ?_⟩⟩
  · rw [← Release.toAddressWitnessV0Keyhash_false]
    refine (Release.addressKeyhash_only _ _ _ _ _).eq ?_
    rw [Release.toAddressWitnessV0Keyhash_false, Address.toAddressWitnessV0Keyhash]
    have := Address.witnessEncode_eq (List.replicate 64 0xAA#8) 0#8 hash out outSize param (by decide) (by rw [hl]; simp) hh ho
    rw [hl] at this
    simp only [assertNd, assertC, beq_self_eq_true, if_true, Bool.false_eq_true, if_false, Res.ok_bind, ne_eq, not_true_eq_false]
    rw [this]; simp
  · rw [← Release.toAddressWitnessV0Scripthash_false]
    refine (Release.addressScripthash_only _ _ _ _ _).eq ?_
    rw [Release.toAddressWitnessV0Scripthash_false, Address.toAddressWitnessV0Scripthash]
    have := Address.witnessEncode_eq (List.replicate 64 0xAA#8) 0#8 hash out outSize param (by decide) (by rw [hl]; simp) hh ho
    rw [hl] at this
    simp only [assertNd, assertC, beq_self_eq_true, if_true, Bool.false_eq_true, if_false, Res.ok_bind, ne_eq, not_true_eq_false]
    rw [this]; simp
  · rw [Release.toAddressWitnessV0Keyhash, if_pos hne]; rfl
  · rw [Address.toAddressWitnessV0Keyhash, show (n == 20) = false from by simpa using hne]; rfl
  · rw [Release.toAddressWitnessV0Scripthash, if_pos hne]; rfl
  · rw [Address.toAddressWitnessV0Scripthash, show (n == 32) = false from by simpa using hne]; rfl

/-- C98 (other witness programs). For every object with a version byte and a program, good or bad, both builds do the same. -/
theorem C98_witness_unknown (vp out : List Byte) (outSize : Nat) (param : ChainParameters)
    (hh : param.bech32HrpSize ≤ param.bech32Hrp.length) (ho : outSize ≤ out.length) :
    Release.toAddressWitnessUnknown true vp vp.length out outSize param = Address.toAddressWitnessUnknown vp vp.length out outSize param := by
  rw [← Release.toAddressWitnessUnknown_false]
  refine (Release.addressUnknown_only _ _ _ _ _).eq ?_
  rw [Release.toAddressWitnessUnknown_false, Address.toAddressWitnessUnknown]
  split
  · simp
  · rename_i hlen
    cases vp with
    | nil => simp at hlen
    | cons v prog =>
      rw [show rd (v :: prog) 0 = .ok v from rfl]
      simp only [Res.ok_bind]
      split
      · simp
      · have := Address.witnessEncode_eq (List.replicate 128 0xAA#8) v prog out outSize param (by omega)
          (by simp at hlen ⊢; omega) hh ho
        rw [List.drop_succ_cons, List.drop_zero, List.length_cons, Nat.add_sub_cancel, this]
        simp

/-! ### Keys -/
section
open Key Exkey SecpLib Secp256k1 Bip32Spec WordSpec

/-- C98 (keys). Where the debug build of a function of key.c neither fails an assertion nor is stopped by libsecp256k1, the release build
does the same. -/
theorem C98_keys (host : Host) (key chain out out' enc hash : List Byte) (len sf fuel : Nat) (pk : PubObj) (child : U32) (c : Bool) :
    (keyEncode false key out len ≠ .abort → keyEncode true key out len = keyEncode false key out len) ∧
    (keyGetPub false key ≠ .abort → keyGetPub true key = keyGetPub false key) ∧
    (pubkeyEncode false pk out len ≠ .abort → pubkeyEncode true pk out len = pubkeyEncode false pk out len) ∧
    (pubkeyDecode false enc len ≠ .abort → pubkeyDecode true enc len = pubkeyDecode false enc len) ∧
    (keyDerive false host key chain out out' child ≠ .abort →
      keyDerive true host key chain out out' child = keyDerive false host key chain out out' child) ∧
    (pubkeyDerive false host enc chain out out' child ≠ .abort →
      pubkeyDerive true host enc chain out out' child = pubkeyDerive false host enc chain out out' child) ∧
    (keySign false host sf fuel key hash ≠ .abort → keySign true host sf fuel key hash = keySign false host sf fuel key hash) ∧
    (pubkeyKeyid false host pk c out ≠ .abort → pubkeyKeyid true host pk c out = pubkeyKeyid false host pk c out) ∧
    (keyKeyid false host key c out ≠ .abort → keyKeyid true host key c out = keyKeyid false host key c out) ∧
    (keyFingerprint false host key c ≠ .abort → keyFingerprint true host key c = keyFingerprint false host key c) :=
  ⟨(Release.keyEncode_only _ _ _).eq, (Release.keyGetPub_only _).eq, (Release.pubkeyEncode_only _ _ _).eq,
    (Release.pubkeyDecode_only _ _).eq, (Release.keyDerive_only _ _ _ _ _ _).eq, (Release.pubkeyDerive_only _ _ _ _ _ _).eq,
    (Release.keySign_only _ _ _ _ _).eq, (Release.pubkeyKeyid_only _ _ _ _).eq, (Release.keyKeyid_only _ _ _ _).eq,
    (Release.keyFingerprint_only _ _ _).eq⟩

/-- C98 (extended keys). The same for exkey.c. -/
theorem C98_extended_keys (host : Host) (key der : ExKey) (pub derPub : ExPubkey) (child fp : U32) :
    (exkeyDerive false host key der child fp ≠ .abort →
      exkeyDerive true host key der child fp = exkeyDerive false host key der child fp) ∧
    (expubkeyDerive false host pub derPub child fp ≠ .abort →
      expubkeyDerive true host pub derPub child fp = expubkeyDerive false host pub derPub child fp) ∧
    (exkeyGetPub false key pub ≠ .abort → exkeyGetPub true key pub = exkeyGetPub false key pub) :=
  ⟨(Release.exkeyDerive_only _ _ _ _ _).eq, (Release.expubkeyDerive_only _ _ _ _ _).eq, (Release.exkeyGetPub_only _ _).eq⟩

/-- C98 (context). Every history of `init`, `uninit` and key calls that the debug build survives has the same outcome in the release
build. -/
theorem C98_context (calls : List KeyContext.Call) (s : KeyContext.State) (h : KeyContext.run false calls s ≠ .abort) :
    KeyContext.run true calls s = KeyContext.run false calls s := (Release.run_only calls s).eq h

/-- What the library makes of 32 bytes that are not a secret key. -/
theorem SecpLib.pubkeyCreate_invalid (key : List Byte) (hk : key.length = 32) (hv : ¬ ValidKey key) : pubkeyCreate key = .ok (none, false) := by
  have hg := get32_left key [] hk
  rw [List.append_nil] at hg
  rw [pubkeyCreate, hg, Res.ok_bind, if_neg (fun h => hv ⟨hk, h.1, h.2⟩)]; rfl

/-- C98 (32 bytes that are not a secret key). Where the debug build fails an assertion because of such bytes, the release build does not
get far either: whatever needs the public key is stopped by libsecp256k1. -/
theorem C98_invalid_keys (host : Host) (key chain out out' : List Byte) (ek : ExKey) (ep : ExPubkey) (child : U32) (c : Bool)
    (hk : key.length = 32) (hv : ¬ ValidKey key) (hek : ek.key = key) (hi : child.toNat < 2 ^ 31) (nd : Bool) :
    keyDerive nd host key chain out out' child = .abort ∧
    keyKeyid nd host key c out = .abort ∧
    keyFingerprint nd host key c = .abort ∧
    exkeyGetPub nd ek ep = .abort := by
  have hc := SecpLib.pubkeyCreate_invalid key hk hv
  have hg : ∀ nd, keyGetPub nd key = if nd then .ok none else .abort := by
    intro nd; rw [keyGetPub, hc]; cases nd <;> rfl
  have he : ∀ nd out len, (len = 33 ∨ len = 65) → pubkeyEncode nd none out len = .abort := by
    intro nd out len hl
    rcases hl with rfl | rfl <;> cases nd <;> rfl
  have hid : ∀ keyid, keyKeyid nd host key c keyid = .abort := by
    intro keyid
    rw [keyKeyid, hg nd]
    cases nd with
    | false => rfl
    | true =>
      rw [if_pos rfl, Res.ok_bind, pubkeyKeyid]
      simp only
      rw [he true _ _ (by cases c <;> simp)]
      rfl
  refine ⟨?_, hid out, ?_, ?_⟩
  · rw [keyDerive, deriveHash]
    simp only
    rw [if_pos ((shift31 child).2 hi), hg nd]
    cases nd with
    | false => rfl
    | true => rw [if_pos rfl, Res.ok_bind, he true _ _ (Or.inl rfl)]; rfl
  · rw [keyFingerprint, hid]; rfl
  · rw [exkeyGetPub, hek, hg nd]
    cases nd with
    | false => rfl
    | true => rw [if_pos rfl, Res.ok_bind, he true _ _ (Or.inl rfl)]; rfl

/-- C98 is violated by `fingera_btc_key_sign`: with 32 bytes that are not a secret key the debug build fails an assertion; the release
build returns, and what it returns is encoded without complaint but is not accepted by any public key. -/
theorem C98_violated_sign (host : Host) (sf fuel : Nat) (key hash out : List Byte) (hk : key.length = 32) (hv : ¬ ValidKey key)
    (hh : hash.length = 32) (ho : 72 ≤ out.length) :
    keySign false host sf (fuel + 1) key hash = .abort ∧
    keySign true host sf (fuel + 1) key hash = .ok (some ⟨0, 0⟩) ∧
    signatureEncode ⟨0, 0⟩ out = .ok (over [0x30#8, 6#8, 2#8, 1#8, 0#8, 2#8, 1#8, 0#8] out, 8) ∧
    ∀ Q, keyVerify (some Q) hash ⟨0, 0⟩ = .ok false := by
  have hg := get32_left key [] hk
  rw [List.append_nil] at hg
  have hg2 := get32_left hash [] hh
  rw [List.append_nil] at hg2
  have hs : ecdsaSign sf hash key none = .ok (some (⟨0, 0⟩, false)) := by
    rw [ecdsaSign, hg2, Res.ok_bind, hg, Res.ok_bind, if_neg (fun h => hv ⟨hk, h.1, h.2⟩)]; rfl
  refine ⟨?_, ?_, ?_, ?_⟩
  · rw [keySign, hs]; rfl
  · rw [keySign, hs]; rfl
  · have h0 : (0 : Nat) < n := by decide
    have := (C68_signature_roundtrip ⟨0, 0⟩ out [] h0 h0 ho (by simp)).1
    rw [this]
    have e : Secp256k1.derSig 0 0 = [0x30#8, 6#8, 2#8, 1#8, 0#8, 2#8, 1#8, 0#8] := by decide +kernel
    rw [e]; rfl
  · intro Q
    rw [keyVerify, ecdsaVerify, hg2]
    have : sigNormalize ⟨0, 0⟩ = ⟨0, 0⟩ := by decide +kernel
    rw [this]
    simp only [Res.ok_bind]
    rw [if_neg (by omega)]
    simp [verify]

/-- C98 is violated by `fingera_btc_pubkey_derive`: BIP 32 defines no hardened children of public keys and the debug build fails an
assertion; the release build derives a key – from the public key, as if the index were not hardened – and reports success. -/
theorem C98_violated_hardened (host : Host) (x y : Nat) (chain outPub outChain : List Byte) (child : U32)
    (hon : OnCurve (some (x, y))) (hi : 2 ^ 31 ≤ child.toNat)
    (hc : chain.length = 32) (ho : 33 ≤ outPub.length) (ho' : 32 ≤ outChain.length) :
    pubkeyDerive false host (compressed x y) chain outPub outChain child = .abort ∧
    pubkeyDerive true host (compressed x y) chain outPub outChain child = .ok
      (match ckdPub (some (x, y)) chain child with
      | some (K, c) => ⟨true, over (serP K) outPub, over c outChain⟩
      | none => ⟨false, outPub, over ((pubI (some (x, y)) chain child).drop 32) outChain⟩) := by
  constructor
  · have : (child >>> 31 == 0#32) = false := by
      rw [beq_eq_false_iff_ne]
      intro h; have := (shift31 child).1 h; omega
    rw [pubkeyDerive, this]; rfl
  · have := pubkeyDerive_eq' true host x y [] chain outPub outChain child hon rfl (by omega) ho ho'
    rwa [List.append_nil, List.take_of_length_le (by omega)] at this

/-- C98 (sizes). The functions that fail an assertion for a wrong size in the debug build refuse it in the release build and write nothing. -/
theorem C98_sizes (key out enc : List Byte) (pk : PubObj) (len : Nat) :
    (len ≠ 279 ∧ len ≠ 214 → keyEncode true key out len = .ok (out, false) ∧ keyEncode false key out len = .abort) ∧
    (len ≠ 65 ∧ len ≠ 33 → pubkeyEncode true pk out len = .ok (out, false) ∧ pubkeyEncode false pk out len = .abort ∧
      pubkeyDecode true enc len = .ok (none, false) ∧ pubkeyDecode false enc len = .abort) := by
  refine ⟨fun h => ⟨?_, ?_⟩, fun h => ⟨?_, ?_, ?_, ?_⟩⟩
  · rw [keyEncode, if_pos h]; rfl
  · rw [keyEncode, show (len == 279 || len == 214) = false by simp [h.1, h.2]]; rfl
  · rw [pubkeyEncode, if_pos h]; rfl
  · rw [pubkeyEncode, show (len == 65 || len == 33) = false by simp [h.1, h.2]]; rfl
  · rw [pubkeyDecode, if_pos h]; rfl
  · rw [pubkeyDecode, show (len == 65 || len == 33) = false by simp [h.1, h.2]]; rfl

end
