import Verif.Lemmas.Base32
import Mathlib.Data.List.TakeWhile
/-! Property theorems C09–C12 about `base32.c`. -/
open Base32

theorem encode32_eq (bs : List Byte) :
    Base32Spec.encode bs = encText false bs ++ padding false bs.length := by
  have : (BaseN.digitsOf 5 bs).map Base32Spec.char = encText false bs := rfl
  simp [Base32Spec.encode, this, padding, encText_length]

/-- C09. `fingera_to_base32` writes exactly the lower-case padded RFC 4648 text, of exactly
`fingera_to_base32_length` characters. -/
theorem C09_to_base32_rfc4648 (bs str : List Byte) (hs : toBase32Length bs.length ≤ str.length) :
    toBase32 bs bs.length str = .ok (over (Base32Spec.encode bs) str) ∧
    (Base32Spec.encode bs).length = toBase32Length bs.length := by
  have hl : (Base32Spec.encode bs).length = toBase32Length bs.length := by
    rw [encode32_eq, List.length_append, encText_length]
    simp only [padding, Bool.false_eq_true, if_false, List.length_replicate, toBase32Length]
    omega
  refine ⟨?_, hl⟩
  unfold toBase32
  rw [toBase32Impl_eq bs str false (by rw [← encode32_eq]; omega), ← encode32_eq]
  rfl

/-- C09 (raw). `fingera_to_base32_raw` writes the ⌈8n/5⌉ five-bit groups, one per byte, and returns
their number. -/
theorem C09_to_base32_raw (bs out : List Byte) (hs : (8 * bs.length + 4) / 5 ≤ out.length) :
    toBase32Raw bs bs.length out =
      .ok (over (Base32Spec.encodeRaw bs) out, (Base32Spec.encodeRaw bs).length) ∧
    (Base32Spec.encodeRaw bs).length = (8 * bs.length + 4) / 5 ∧
    ∀ g ∈ Base32Spec.encodeRaw bs, g.toNat < 32 := by
  have he : Base32Spec.encodeRaw bs = encText true bs ++ padding true bs.length := by
    simp [Base32Spec.encodeRaw, encText, padding, encChar]
  have hl : (Base32Spec.encodeRaw bs).length = (8 * bs.length + 4) / 5 := by
    rw [he, List.length_append, encText_length]; simp [padding]
  refine ⟨?_, hl, ?_⟩
  · unfold toBase32Raw
    rw [toBase32Impl_eq bs out true (by rw [← he]; omega), ← he]
  · intro g hg
    obtain ⟨d, hd, rfl⟩ := List.mem_map.mp hg
    have : d < 2^5 := BaseN.digitsOf_lt 5 bs (by omega) d hd
    rw [BitVec.toNat_ofNat]; omega

example : Base32Spec.encode [0x66, 0x6f, 0x6f, 0x62] = cstr "mzxw6yq=" := by decide +kernel
example : toBase32 [0x66, 0x6f, 0x6f, 0x62] 4 (List.replicate 8 0) = .ok (cstr "mzxw6yq=") := by
  decide +kernel
example : toBase32Raw [0xFF, 0x01] 2 (List.replicate 5 9) = .ok ([31, 28, 0, 16, 9], 4) := by
  decide +kernel

theorem strlen_nul (s post : List Byte) (h : ∀ b ∈ s, b ≠ 0) :
    strlen (s ++ 0 :: post) s.length = .ok (s.takeWhile (· ≠ chr '=')).length := by
  unfold strlen strchr
  by_cases hc : ∀ b ∈ s, b ≠ chr '='
  · rw [strchrFrom_none _ s post 0 (by decide) hc]
    have : s.takeWhile (· ≠ chr '=') = s := by
      rw [List.takeWhile_eq_self_iff]; simpa using hc
    simp only [Res.ok_bind, Res.pure_eq, this]
  · have hdw : s.dropWhile (· ≠ chr '=') ≠ [] := by
      intro h0
      apply hc
      have h1 := List.takeWhile_append_dropWhile (p := (· ≠ chr '=')) (l := s)
      rw [h0, List.append_nil] at h1
      intro b hb
      rw [← h1] at hb
      simpa using List.mem_takeWhile_imp hb
    obtain ⟨c, r, hr⟩ := List.exists_cons_of_ne_nil hdw
    have hcc : c = chr '=' := by
      have := List.head_dropWhile_not (· ≠ chr '=') hdw
      simp only [hr, List.head_cons] at this
      simpa using this
    have hs : s = s.takeWhile (· ≠ chr '=') ++ chr '=' :: r := by
      conv => lhs; rw [← List.takeWhile_append_dropWhile (p := (· ≠ chr '=')) (l := s)]
      rw [hr, hcc]
    have : s ++ 0 :: post = s.takeWhile (· ≠ chr '=') ++ chr '=' :: (r ++ 0 :: post) := by
      conv => lhs; rw [hs]
      simp
    rw [this, strchrFrom_some (chr '=') (s.takeWhile (· ≠ chr '=')) _ 0 (by
      intro b hb
      exact ⟨by simpa using List.mem_takeWhile_imp hb, h b ((List.takeWhile_sublist _).subset hb)⟩)]
    simp

theorem fromBase32Length_eq (s post : List Byte) (h : ∀ b ∈ s, b ≠ 0) :
    fromBase32Length (s ++ 0 :: post) s.length = .ok (decLen (s.takeWhile (· ≠ chr '=')).length) := by
  unfold fromBase32Length
  rw [strlen_nul s post h]
  simp only [Res.ok_bind]
  rw [rd_tail _ (Nat.mod_lt _ (by omega)), decLen_eq (s.takeWhile _).length]
  simp

theorem fromBase32_eq (cs : Bool) (s post buf : List Byte) (h : ∀ b ∈ s, b ≠ 0)
    (hcs : cs = true → ∀ b ∈ s, b.toNat < 128)
    (hb : decLen (s.takeWhile (· ≠ chr '=')).length ≤ buf.length) :
    fromBase32 cs (s ++ 0 :: post) s.length buf =
      .ok (over (decPure false (s.takeWhile (· ≠ chr '='))) buf,
        (decPure false (s.takeWhile (· ≠ chr '='))).length) := by
  have hpre : s.takeWhile (· ≠ chr '=') <+: s := List.takeWhile_prefix _
  have htk : (s ++ 0 :: post).take (s.takeWhile (· ≠ chr '=')).length = s.takeWhile (· ≠ chr '=') := by
    rw [List.take_append_of_le_length hpre.length_le]
    exact (List.prefix_iff_eq_take.mp hpre).symm
  unfold fromBase32
  rw [fromBase32Impl_eq cs false _ buf s.length _ (strlen_nul s post h)
    (by have := hpre.length_le; simp only [List.length_append]; omega)
    (by rw [htk]; intro hc b hb; exact hcs hc b (hpre.subset hb)) hb, htk]

theorem encText_chars (bs : List Byte) (c : Byte) (h : c ∈ encText false bs) :
    c ≠ chr '=' ∧ c ≠ 0 ∧ c.toNat < 128 := by
  obtain ⟨d, hd, rfl⟩ := List.mem_map.mp h
  have hlt : d < 2^5 := BaseN.digitsOf_lt 5 bs (by omega) d hd
  have : ∀ n : Fin 32, encChar false n.1 ≠ chr '=' ∧ encChar false n.1 ≠ 0 ∧
      (encChar false n.1).toNat < 128 := by decide +kernel
  exact this ⟨d, hlt⟩

theorem encode_chars (bs : List Byte) (c : Byte) (h : c ∈ Base32Spec.encode bs) :
    c ≠ 0 ∧ c.toNat < 128 := by
  rw [encode32_eq] at h
  rcases List.mem_append.mp h with h | h
  · exact (encText_chars bs c h).2
  · simp only [padding, Bool.false_eq_true, if_false] at h
    rw [List.eq_of_mem_replicate h]; decide

theorem takeWhile_encode (bs : List Byte) :
    (Base32Spec.encode bs).takeWhile (· ≠ chr '=') = encText false bs := by
  rw [encode32_eq, List.takeWhile_append_of_pos (by
    intro a ha; simpa using (encText_chars bs a ha).1)]
  simp only [padding, Bool.false_eq_true, if_false]
  cases (8 - ((8 * bs.length + 4) / 5) % 8) % 8 with
  | zero => simp
  | succ n =>
    have : chr '=' = 61#8 := by decide
    simp [List.replicate_succ, this]

theorem decLen_encText (raw : Bool) (bs : List Byte) : decLen (encText raw bs).length = bs.length := by
  have h2 := decPure_encText raw bs
  have h3 := (decPure_full_iff raw (encText raw bs)).mpr (by
    intro c hc
    have hc := List.mem_of_mem_take hc
    obtain ⟨d, hd, rfl⟩ := List.mem_map.mp hc
    have hlt : d < 2^5 := BaseN.digitsOf_lt 5 bs (by omega) d hd
    rw [decVal_encChar raw d hlt]
    have : ∀ n : Fin 32, BitVec.ofNat 8 n.1 ≠ 0xFF#8 := by decide
    exact this ⟨d, hlt⟩)
  rw [h2] at h3
  exact h3.symm

/-- C10. Round trip: terminate the encoder's output with NUL, decode it; the decode length function
predicts the size exactly.  `cs` says whether plain `char` is signed; the result does not depend on
it, nor on what follows the NUL. -/
theorem C10_base32_roundtrip (cs : Bool) (bs str post out : List Byte)
    (hs : str.length = toBase32Length bs.length) (ho : bs.length ≤ out.length) :
    ∃ s, toBase32 bs bs.length str = .ok s ∧
      fromBase32Length (s ++ 0 :: post) s.length = .ok bs.length ∧
      fromBase32 cs (s ++ 0 :: post) s.length out = .ok (over bs out, bs.length) := by
  obtain ⟨h1, hl⟩ := C09_to_base32_rfc4648 bs str (by omega)
  have hov : over (Base32Spec.encode bs) str = Base32Spec.encode bs := by
    simp [over, hl]; omega
  rw [hov] at h1
  have hdl := decLen_encText false bs
  refine ⟨_, h1, ?_, ?_⟩
  · rw [fromBase32Length_eq _ _ (fun b hb => (encode_chars bs b hb).1), takeWhile_encode, hdl]
  · rw [fromBase32_eq cs _ post out (fun b hb => (encode_chars bs b hb).1)
      (fun _ b hb => (encode_chars bs b hb).2) (by rw [takeWhile_encode, hdl]; exact ho),
      takeWhile_encode, decPure_encText]

example : ∃ bs str out : List Byte, bs.length = 4 ∧ str.length = toBase32Length bs.length ∧
    bs.length ≤ out.length := ⟨[1, 2, 3, 4], List.replicate 8 0, [0, 0, 0, 0, 7], by decide⟩

/-- ASCII lower-casing of a letter. -/
def lower32 (c : Byte) : Byte := if 65 ≤ c.toNat ∧ c.toNat ≤ 90 then c + 32 else c

/-- C10 (case). Letter case does not matter when decoding a 7-bit NUL-terminated string. -/
theorem C10_base32_case_insensitive (cs : Bool) (s post buf : List Byte) (h : ∀ b ∈ s, b ≠ 0)
    (h7 : ∀ b ∈ s, b.toNat < 128) (len : Nat)
    (hl : fromBase32Length (s ++ 0 :: post) s.length = .ok len) (hb : len ≤ buf.length) :
    fromBase32 cs (s.map lower32 ++ 0 :: post) (s.map lower32).length buf =
      fromBase32 cs (s ++ 0 :: post) s.length buf := by
  have hv : ∀ c : Byte, decVal false (lower32 c) = decVal false c := by decide +kernel
  have hz : ∀ c : Byte, c.toNat < 128 ∧ c ≠ 0 → (lower32 c).toNat < 128 ∧ lower32 c ≠ 0 := by
    decide +kernel
  have he : ∀ c : Byte, (decide (lower32 c ≠ chr '=')) = decide (c ≠ chr '=') := by decide +kernel
  rw [fromBase32Length_eq s post h, Res.ok.injEq] at hl
  subst hl
  have htw : (s.map lower32).takeWhile (· ≠ chr '=') = (s.takeWhile (· ≠ chr '=')).map lower32 := by
    rw [List.takeWhile_map]
    have : (fun x => decide (x ≠ chr '=')) ∘ lower32 = fun x => decide (x ≠ chr '=') := by
      funext c; exact he c
    rw [this]
  have hdp : ∀ l : List Byte, decPure false (l.map lower32) = decPure false l := by
    intro l
    induction l using groups8_induction with
    | short l hlen =>
      rw [decPure_short _ _ (by simpa using hlen), decPure_short _ _ hlen, List.map_map]
      congr 1
      apply List.map_congr_left; intro a _; exact hv a
    | step g rest hg ih =>
      rw [List.map_append, decPure_cons8 _ _ _ (by simpa using hg), decPure_cons8 _ _ _ hg, ih]
      have hm : (g.map lower32).map (decVal false) = g.map (decVal false) := by
        rw [List.map_map]; apply List.map_congr_left; intro a _; exact hv a
      have hx : (∃ c ∈ g.map lower32, decVal false c = 0xFF#8) ↔ ∃ c ∈ g, decVal false c = 0xFF#8 := by
        constructor
        · rintro ⟨c, hc, e⟩
          obtain ⟨a, ha, rfl⟩ := List.mem_map.mp hc
          exact ⟨a, ha, by rw [← hv a]; exact e⟩
        · rintro ⟨c, hc, e⟩
          exact ⟨lower32 c, List.mem_map_of_mem hc, by rw [hv c]; exact e⟩
      rw [hm]
      simp only [hx]
  have e1 := fromBase32_eq cs s post buf h (fun _ => h7) hb
  have e2 := fromBase32_eq cs (s.map lower32) post buf
    (by intro b hb; obtain ⟨c, hc, rfl⟩ := List.mem_map.mp hb; exact (hz c ⟨h7 c hc, h c hc⟩).2)
    (by intro _ b hb; obtain ⟨c, hc, rfl⟩ := List.mem_map.mp hb; exact (hz c ⟨h7 c hc, h c hc⟩).1)
    (by rw [htw, List.length_map]; exact hb)
  rw [e1, e2, htw, hdp]

example : fromBase32Length (cstr "MZxw6===" ++ [0]) 8 = .ok 3 ∧
    fromBase32 true (cstr "MZxw6===" ++ [0]) 8 [0, 0, 0] = .ok ([0x66, 0x6f, 0x6f], 3) := by
  decide +kernel

/-- C11 is violated by the code: `fingera_from_base32_raw` runs `strchr` over the raw data.  The
encoding of five 0xFF bytes contains no zero group, so in an object of exactly the returned size
decoding reads beyond it (undefined behaviour), and with other neighbours the answer changes. -/
theorem C11_violated_raw_roundtrip :
    toBase32Raw [0xFF, 0xFF, 0xFF, 0xFF, 0xFF] 5 (List.replicate 8 0) =
        .ok ([31, 31, 31, 31, 31, 31, 31, 31], 8) ∧
    fromBase32Raw true [31, 31, 31, 31, 31, 31, 31, 31] 8 (List.replicate 5 0) = .ub ∧
    fromBase32Raw true ([31, 31, 31, 31, 31, 31, 31, 31] ++ cstr "=") 8 (List.replicate 5 0) =
        .ok ([0xFF, 0xFF, 0xFF, 0xFF, 0xFF], 5) ∧
    fromBase32Raw true ([31, 31, 31, 31, 31, 31, 31, 31] ++ cstr "xxxxxxxx=") 8
        (List.replicate 5 0) = .ok ([0xFF, 0xFF, 0xFF, 0xFF, 0xFF], 5) := by
  decide +kernel

theorem fromBase32Raw_eq (cs : Bool) (bs post out : List Byte) (n : Nat)
    (hn : strlen (Base32Spec.encodeRaw bs ++ post) (Base32Spec.encodeRaw bs).length =
      .ok (Base32Spec.encodeRaw bs).length)
    (ho : bs.length ≤ out.length) (hnn : n = (Base32Spec.encodeRaw bs).length) :
    fromBase32Raw cs (Base32Spec.encodeRaw bs ++ post) n out = .ok (over bs out, bs.length) := by
  subst hnn
  have he : Base32Spec.encodeRaw bs = encText true bs := by
    simp [Base32Spec.encodeRaw, encText, encChar]
  have hlt : ∀ g ∈ encText true bs, g.toNat < 32 := by
    rw [← he]
    exact (C09_to_base32_raw bs (List.replicate ((8 * bs.length + 4) / 5) 0) (by simp)).2.2
  have hdl := decLen_encText true bs
  unfold fromBase32Raw
  rw [he] at hn ⊢
  rw [fromBase32Impl_eq cs true _ out _ _ hn (by simp) (by
    intro _ b hb
    rw [List.take_left] at hb
    have := hlt b hb; omega) (by rw [hdl]; exact ho), List.take_left, decPure_encText]

/-- C11, the part that holds: the round trip is correct whenever the first byte of the memory object
that is 0 or `'='` (the encoder's own output never contains `'='`, so this is a zero group or lies
in the memory after the raw data), exists and is a 0.
Missing for the full claim: independence from the memory after the buffer (see
`C11_violated_raw_roundtrip`). -/
theorem C11_raw_roundtrip_partial (cs : Bool) (bs str raw pre post post' out : List Byte) (n : Nat)
    (hs : str.length = (8 * bs.length + 4) / 5) (hr : toBase32Raw bs bs.length str = .ok (raw, n))
    (hp : raw ++ post = pre ++ 0 :: post')
    (hpre : ∀ b ∈ pre, b ≠ 0 ∧ b ≠ chr '=') (ho : bs.length ≤ out.length) :
    n = raw.length ∧ fromBase32RawLength n = .ok bs.length ∧
    fromBase32Raw cs (raw ++ post) n out = .ok (over bs out, bs.length) := by
  obtain ⟨h1, hl, -⟩ := C09_to_base32_raw bs str (by omega)
  rw [h1] at hr
  simp only [Res.ok.injEq, Prod.mk.injEq] at hr
  obtain ⟨hr, rfl⟩ := hr
  have hov : over (Base32Spec.encodeRaw bs) str = Base32Spec.encodeRaw bs := by
    simp [over, hl]; omega
  rw [hov] at hr
  subst hr
  have he : Base32Spec.encodeRaw bs = encText true bs := by
    simp [Base32Spec.encodeRaw, encText, encChar]
  refine ⟨rfl, ?_, ?_⟩
  · unfold fromBase32RawLength
    rw [rd_tail _ (Nat.mod_lt _ (by omega))]
    simp only [Res.ok_bind, Res.pure_eq, ← decLen_eq, he, decLen_encText]
  · refine fromBase32Raw_eq cs bs post out _ ?_ ho rfl
    unfold strlen strchr
    rw [hp, strchrFrom_none _ pre _ 0 (by decide) (fun b hb => (hpre b hb).2)]
    rfl

/-- Non-vacuity of the previous theorem: raw data containing a zero group, any neighbours. -/
example : ∃ raw pre post', toBase32Raw [0, 0xFF] 2 (List.replicate 4 0) = .ok (raw, 4) ∧
    raw ++ cstr "=garbage" = pre ++ 0 :: post' ∧ ∀ b ∈ pre, b ≠ 0 ∧ b ≠ chr '=' :=
  ⟨[0, 3, 31, 16], [], [3, 31, 16] ++ cstr "=garbage", by decide +kernel, by decide +kernel, by simp⟩

/-- C12 is violated by the code: (1) the incomplete last group is not validated – `"a!"` decodes to
the full documented length although `'!'` is illegal; (2) where plain `char` is signed, a byte of
0x80 or more indexes the decode table negatively. -/
theorem C12_violated_arbitrary :
    (fromBase32Length (cstr "a!" ++ [0]) 2 = .ok 1 ∧
      fromBase32 true (cstr "a!" ++ [0]) 2 [0] = .ok ([0x3F], 1) ∧
      Base32Spec.value? (chr '!') = none) ∧
    (fromBase32Length [0xE9, 0xE9, 0] 2 = .ok 1 ∧ fromBase32 true [0xE9, 0xE9, 0] 2 [0] = .ub) := by
  decide +kernel

/-- C12, the part that holds: on every NUL-terminated string (7-bit where `char` is signed) decoding
is defined, touches only a prefix of the buffer not longer than the documented length, and that
length is returned exactly when every character in a complete group of eight (before the first
`'='`) is a legal base32 character; if moreover the characters of the incomplete last group are
legal, the bytes are the RFC 4648 ones.
Missing for the full claim: the incomplete group is not checked, bytes ≥ 0x80 are excluded (see
`C12_violated_arbitrary`). -/
theorem C12_from_base32_partial (cs : Bool) (s post buf : List Byte) (len : Nat)
    (h : ∀ b ∈ s, b ≠ 0) (hcs : cs = true → ∀ b ∈ s, b.toNat < 128)
    (hl : fromBase32Length (s ++ 0 :: post) s.length = .ok len) (hb : len ≤ buf.length) :
    ∃ W, fromBase32 cs (s ++ 0 :: post) s.length buf = .ok (over W buf, W.length) ∧
      W.length ≤ len ∧
      (∀ t, t = s.takeWhile (· ≠ chr '=') →
        (W.length = len ↔ ∀ c ∈ t.take (t.length / 8 * 8), Base32Spec.value? c ≠ none) ∧
        ((∀ c ∈ t, Base32Spec.value? c ≠ none) →
         (t.length % 8 = 0 ∨ t.length % 8 = 2 ∨ t.length % 8 = 4 ∨ t.length % 8 = 5 ∨
          t.length % 8 = 7) →
         W = BaseN.bytesOf 5 (t.filterMap Base32Spec.value?))) := by
  have hv : ∀ c : Byte, decVal false c ≠ 0xFF#8 ↔ Base32Spec.value? c ≠ none := by decide +kernel
  have hv2 : ∀ c : Byte, Base32Spec.value? c ≠ none →
      Base32Spec.value? c = some (decVal false c).toNat := by decide +kernel
  rw [fromBase32Length_eq s post h, Res.ok.injEq] at hl
  subst hl
  refine ⟨_, fromBase32_eq cs s post buf h hcs hb, decPure_length_le _ _, ?_⟩
  rintro t rfl
  constructor
  · rw [decPure_full_iff]
    simp only [hv]
  · intro ht hlen
    rw [decPure_legal false _ (fun c hc => (hv c).mpr (ht c hc)) hlen]
    congr 1
    generalize s.takeWhile (· ≠ chr '=') = t at ht
    clear hlen hb
    induction t with
    | nil => rfl
    | cons a t ih =>
      rw [List.map_cons, List.filterMap_cons_some (hv2 a (ht a (by simp))), ih (fun c hc => ht c (by simp [hc]))]

example : fromBase32Length (cstr "mzxw6yt*mzxw6yt*" ++ [0]) 16 = .ok 10 ∧
    fromBase32 true (cstr "mzxw6ytbmzxw6yt*" ++ [0]) 16 (List.replicate 10 0) =
      .ok ([0x66, 0x6f, 0x6f, 0x62, 0x61, 0, 0, 0, 0, 0], 5) := by decide +kernel
