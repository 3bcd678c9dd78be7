import Verif.Lemmas.LeakageRead
import Verif.Lemmas.LeakageTextWork
import Verif.Props.Leakage
import Verif.Props.Exkey

/-! Property theorems C101: what an observer of branches and addresses learns while secrets are read from texts. -/
open Endian AddressSpec

/-! ## Hexadecimal -/

/-- What is seen of `k` pairs that are digits, from pair `j` on, apart from the look-ups. -/
def unhexT (so dst : String) (j m : Nat) : Nat → List Leakage.Ev
  | 0 => [.branch false]
  | k+1 => .branch true :: .load so (2 * j) 1 :: .load so (2 * j + 1) 1 :: .branch false :: .branch false :: .store dst m 1 ::
      unhexT so dst (j + 1) (m + 1) k

theorem seen_inv {α : Type} {r : Res α} {s t : List Leakage.Ev} {a : α} (h : Leakage.seen s r = .ok a t) : t = s := by
  cases r with
  | ok b => cases h; rfl
  | ub => cases h
  | abort => cases h

theorem unhex_seen (so dst : String) (x : List Byte) (hs : so ≠ "HEX_MAP") (hd : dst ≠ "HEX_MAP") : ∀ (k j : Nat) (s r : List Byte × Nat)
    (t : List Leakage.Ev), Leakage.unhexLoop ⟨so, 0, x⟩ dst j k s = .ok r t →
    r.2 ≤ s.2 + k ∧ (r.2 = s.2 + k → Leakage.besides "HEX_MAP" t = unhexT so dst j s.2 k)
  | 0, j, s, r, t, h => by
    unfold Leakage.unhexLoop at h
    cases h
    exact ⟨Nat.le_refl _, fun _ => rfl⟩
  | k+1, j, s, r, t, h => by
    unfold Leakage.unhexLoop at h
    obtain ⟨_, t1, t2, h1, g1, rfl⟩ := Leakage.bind_inv h
    cases h1
    obtain ⟨c, t3, t4, h1, g2, rfl⟩ := Leakage.bind_inv g1
    obtain rfl := seen_inv h1
    obtain ⟨hi, t5, t6, h1, g3, rfl⟩ := Leakage.bind_inv g2
    obtain rfl := seen_inv h1
    obtain ⟨d, t7, t8, h1, g4, rfl⟩ := Leakage.bind_inv g3
    obtain rfl := seen_inv h1
    obtain ⟨lo, t9, t10, h1, g5, rfl⟩ := Leakage.bind_inv g4
    obtain rfl := seen_inv h1
    obtain ⟨_, t11, t12, h1, g6, rfl⟩ := Leakage.bind_inv g5
    obtain rfl := seen_inv h1
    split at g6
    · cases g6
      exact ⟨by omega, fun e => by omega⟩
    · rename_i hg
      have hg1 : ¬ hi = 0xFF := fun e => hg (Or.inl e)
      have hg2 : ¬ lo = 0xFF := fun e => hg (Or.inr e)
      obtain ⟨b, t13, t14, h1, g7, rfl⟩ := Leakage.bind_inv g6
      obtain rfl := seen_inv h1
      obtain ⟨ih1, ih2⟩ := unhex_seen so dst x hs hd k (j + 1) _ _ _ g7
      simp only at ih1 ih2
      refine ⟨by omega, fun e => ?_⟩
      have := ih2 (by omega)
      unfold Leakage.besides at this ⊢
      rw [if_neg hg1]
      simp only [hg1, hg2, decide_false, Nat.zero_add]
      simp only [List.filter_append, this, unhexT]
      simp [List.filter, Leakage.notTable, hs]

/-- C101 (what holds, hexadecimal). Apart from the look-ups of the characters, what is seen while a text of hexadecimal digits is read
depends on its length only.  Missing: those look-ups (`C101_violated_hex`), and texts that are not digits throughout. -/
theorem C101_hex_partial (n : Nat) : ∃ t, ∀ str out, n ≤ str.length → n / 2 ≤ out.length → (HexSpec.decode (str.take n)).length = n / 2 →
    ∃ t', Leakage.fromHex ⟨"str", 0, str⟩ n "buf" out = .ok (over (HexSpec.decode (str.take n)) out, n / 2) t' ∧
      Leakage.besides "HEX_MAP" t' = t := by
  refine ⟨unhexT "str" "buf" 0 0 (n / 2), fun str out hn ho hd => ?_⟩
  have h := (C02_from_hex_any str out n hn ho).1
  obtain ⟨t, h, -⟩ := Leakage.fromHex_costs ⟨"str", 0, str⟩ n "buf" out _ h
  rw [hd] at h
  exact ⟨t, h, (unhex_seen "str" "buf" str (by decide) (by decide) (n / 2) 0 (out, 0) _ t h).2 (by simp only; omega)⟩

/-- C101 is violated, hexadecimal: reading two texts looks the same only if the same bytes are delivered. -/
theorem C101_violated_hex (x y o o' : List Byte) (n n' : Nat) (r r' : List Byte × Nat) (t : List Leakage.Ev)
    (h : Leakage.fromHex ⟨"str", 0, x⟩ n "buf" o = .ok r t) (h' : Leakage.fromHex ⟨"str", 0, y⟩ n' "buf" o' = .ok r' t) :
    r.1.take r.2 = r'.1.take r'.2 := by
  obtain ⟨-, e, a⟩ := Leakage.fromHex_tells x y o o' n n' "str" "buf" r t r' t [] [] h h' rfl
  rw [← e]
  exact a.2.2

/-- C101 is violated, hexadecimal: from what is seen, whatever was read follows. -/
theorem C101_violated_recover_hex : ∃ recover : List Leakage.Ev → List Byte, ∀ str out n, n ≤ str.length → n / 2 ≤ out.length →
    ∃ t, Leakage.fromHex ⟨"str", 0, str⟩ n "buf" out =
        .ok (over (HexSpec.decode (str.take n)) out, (HexSpec.decode (str.take n)).length) t ∧
      recover t = HexSpec.decode (str.take n) := by
  obtain ⟨f, hf⟩ := recover_of_inj [] (fun d t => ∃ str out n r, r.1.take r.2 = d ∧ Leakage.fromHex ⟨"str", 0, str⟩ n "buf" out = .ok r t) (by
    rintro a b t ⟨x, o, n, r, rfl, h⟩ ⟨y, o', n', r', rfl, h'⟩
    exact C101_violated_hex x y o o' n n' r r' t h h')
  refine ⟨f, fun str out n hn ho => ?_⟩
  obtain ⟨h1, h2, -⟩ := C02_from_hex_any str out n hn ho
  obtain ⟨t, h, -⟩ := Leakage.fromHex_costs ⟨"str", 0, str⟩ n "buf" out _ h1
  refine ⟨t, h, hf _ _ ⟨str, out, n, _, ?_, h⟩⟩
  exact over_take _ _

/-! ## Base 58 -/

/-- C101 is violated, base 58: reading two texts of the same announced length looks the same only if the same bytes are delivered. -/
theorem C101_violated_base58 (cs : Bool) (x y o o' : List Byte) (n : Nat) (r r' : List Byte × Nat) (t : List Leakage.Ev)
    (h : Leakage.fromBase58 cs ⟨"str", 0, x⟩ n "buf" o = .ok r t) (h' : Leakage.fromBase58 cs ⟨"str", 0, y⟩ n "buf" o' = .ok r' t) :
    r.1.take r.2 = r'.1.take r'.2 := by
  obtain ⟨-, e, a, -⟩ := Leakage.fromBase58_tells cs x y o o' n "str" "buf" r t r' t [] [] h h' rfl
  rw [← e]
  exact a.2.2

/-- C101 is violated, base 58: from what is seen, and the length of the text, the data follow. -/
theorem C101_violated_recover_base58 (cs : Bool) (n : Nat) : ∃ recover : List Leakage.Ev → List Byte, ∀ (bs out post : List Byte),
    (Base58Spec.encode bs).length = n → n ≤ 2929669 → bs.length ≤ out.length →
    ∃ t, Leakage.fromBase58 cs ⟨"str", 0, Base58Spec.encode bs ++ 0#8 :: post⟩ n "buf" out = .ok (over bs out, bs.length) t ∧
      recover t = bs := by
  obtain ⟨f, hf⟩ := recover_of_inj [] (fun d t => ∃ str out r, r.1.take r.2 = d ∧ Leakage.fromBase58 cs ⟨"str", 0, str⟩ n "buf" out = .ok r t) (by
    rintro a b t ⟨x, o, r, rfl, h⟩ ⟨y, o', r', rfl, h'⟩
    exact C101_violated_base58 cs x y o o' n r r' t h h')
  refine ⟨f, fun bs out post hn hl ho => ?_⟩
  have hc := encode58_chars bs
  have hd := decode_encode58 bs
  have h1 := (C16_from_base58_any cs (Base58Spec.encode bs) post out (fun b hb => (hc b hb).2.1) (fun _ b hb => (hc b hb).2.2.1) (by omega)
    (fun W hW => by rw [hd] at hW; cases hW; exact ho)).2 bs hd
  rw [hn] at h1
  obtain ⟨t, h, -⟩ := Leakage.fromBase58_costs cs "str" (Base58Spec.encode bs) post n "buf" out _ h1
  exact ⟨t, h, hf _ _ ⟨_, out, _, over_take _ _, h⟩⟩

/-! ## Private keys -/

/-- C101 is violated, private keys (`fingera_btc_key_from_string`): reading two texts of the same length looks the same only if both are
refused, or both are accepted and the same key and the same flag are delivered. -/
theorem C101_violated_wif (nd : Bool) (host host' : Host) (cs : Bool) (x y k k' : List Byte) (n : Nat) (c c' : Int) (net : Network)
    (r r' : Key.FromString) (t : List Leakage.Ev) (h : Leakage.keyFromString nd host cs ⟨"str", 0, x⟩ n k c net.param = .ok r t)
    (h' : Leakage.keyFromString nd host' cs ⟨"str", 0, y⟩ n k' c' net.param = .ok r' t) :
    r.ok = r'.ok ∧ (r.ok = true → r.key32.take 32 = r'.key32.take 32 ∧ r.isCompressed = r'.isCompressed) := by
  obtain ⟨-, e, a⟩ := Leakage.keyFromString_tells nd host host' cs x y n k k' c c' net.param r t r' t [] [] h h' rfl
  exact ⟨e, fun h => ⟨(a h).1.2.2, (a h).2⟩⟩

/-- C101 is violated, private keys: the key follows from what is seen while its text is read, and the length of the text. -/
theorem C101_violated_recover_wif (nd cs : Bool) (net : Network) (n : Nat) : ∃ recover : List Leakage.Ev → List Byte,
    ∀ host (key key32 post : List Byte) (c : Bool) (flag : Int), key.length = 32 → 32 ≤ key32.length → (WifSpec.wif net key c).length = n →
    ∃ t, Leakage.keyFromString nd host cs ⟨"str", 0, WifSpec.wif net key c ++ 0#8 :: post⟩ n key32 flag net.param =
        .ok ⟨true, over key key32, if c then 1 else 0⟩ t ∧ recover t = key := by
  obtain ⟨f, hf⟩ := recover_of_inj [] (fun d t => ∃ host str k flag r, Key.FromString.ok r = true ∧ r.key32.take 32 = d ∧
      Leakage.keyFromString nd host cs ⟨"str", 0, str⟩ n k flag net.param = .ok r t) (by
    rintro a b t ⟨h, x, k, c, r, hr, rfl, e⟩ ⟨h', y, k', c', r', hr', rfl, e'⟩
    exact ((C101_violated_wif nd h h' cs x y k k' n c c' net r r' t e e').2 hr).1)
  refine ⟨f, fun host key key32 post c flag hk hk2 hn => ?_⟩
  obtain ⟨s, m, h1, -, h2⟩ := C45_wif_roundtrip nd host cs net key (List.replicate (Base58Check.toBase58CheckLength 32 8) 0#8) post key32 c flag hk
    (by rw [List.length_replicate]) hk2
  rw [C45_key_to_string host net key _ c hk (by rw [List.length_replicate])] at h1
  obtain ⟨rfl, rfl⟩ := Prod.mk.inj (Res.ok.inj h1)
  rw [over_take, hn] at h2
  obtain ⟨t, h, -⟩ := Leakage.keyFromString_costs nd host cs _ post n key32 flag net.param (by rw [(net_secret net).2.1]; decide) _ h2
  refine ⟨t, h, hf _ _ ⟨host, _, key32, flag, _, rfl, ?_, h⟩⟩
  have := over_take key key32
  rwa [hk] at this

/-- C101 is violated, extended private keys (`fingera_exkey_from_string`): the same. -/
theorem C101_violated_exkey (nd : Bool) (host host' : Host) (cs : Bool) (x y : List Byte) (n : Nat) (k k' : Exkey.ExKey) (net : Network)
    (r r' : Exkey.ExKey × Bool) (t : List Leakage.Ev) (hk : BufPriv k) (hk' : BufPriv k')
    (h : Leakage.exkeyFromString nd host cs ⟨"str", 0, x⟩ n k net.param = .ok r t)
    (h' : Leakage.exkeyFromString nd host' cs ⟨"str", 0, y⟩ n k' net.param = .ok r' t) :
    r.2 = r'.2 ∧ (r.2 = true → r.1 = r'.1) :=
  (Leakage.exkeyFromString_tells nd host host' cs x y n k k' net.param hk hk' r t r' t [] [] h h' rfl).2

/-- C101 is violated, extended private keys: all of it follows from what is seen, and the length of the text. -/
theorem C101_violated_recover_exkey (nd cs : Bool) (net : Network) (n : Nat) : ∃ recover : List Leakage.Ev → Exkey.ExKey,
    ∀ host (k buf : Exkey.ExKey) post, BufPriv k → BufPriv buf → (xprv net k).length = n →
    ∃ t, Leakage.exkeyFromString nd host cs ⟨"str", 0, xprv net k ++ 0#8 :: post⟩ n buf net.param = .ok (k, true) t ∧ recover t = k := by
  obtain ⟨f, hf⟩ := recover_of_inj (⟨⟨0#8, 0#32, 0#32, []⟩, []⟩ : Exkey.ExKey) (fun d t => ∃ host str buf, BufPriv buf ∧
      Leakage.exkeyFromString nd host cs ⟨"str", 0, str⟩ n buf net.param = .ok (d, true) t) (by
    rintro a b t ⟨h, x, k, hk, e⟩ ⟨h', y, k', hk', e'⟩
    exact (C101_violated_exkey nd h h' cs x y n k k' net _ _ t hk hk' e e').2 rfl)
  refine ⟨f, fun host k buf post hk hb hn => ?_⟩
  have h2 := (exkey_from_string_text nd host cs net net k buf post hk hb).1 rfl
  rw [hn] at h2
  obtain ⟨t, h, -⟩ := Leakage.exkeyFromString_costs nd host cs _ post n buf net.param _ h2
  exact ⟨t, h, hf _ _ ⟨host, _, buf, hb, h⟩⟩
