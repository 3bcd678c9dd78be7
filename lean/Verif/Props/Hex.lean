import Verif.Lemmas.Hex
/-! Property theorems C01–C03 about `hex.c`. -/
open Hex

/-- C01 (content). `fingera_to_hex` writes, into any buffer of at least
`fingera_to_hex_length` characters, exactly the two-digit-per-byte text, and touches nothing else. -/
theorem C01_to_hex_writes_spec (bs str : List Byte) (upper : Bool)
    (hs : toHexLength bs.length ≤ str.length) :
    toHex bs bs.length str upper = .ok (over (HexSpec.encode upper bs) str) ∧
    (HexSpec.encode upper bs).length = toHexLength bs.length := by
  refine ⟨?_, by rw [encode_length]; simp [toHexLength]; omega⟩
  have := toHex_eq bs bs.length str upper (Nat.le_refl _) (by simpa [toHexLength, Nat.mul_comm] using hs)
  simpa using this

/-- C01. Round trip through a string of the documented size; decoding fills any output buffer of at
least `bs.length` bytes. -/
theorem C01_hex_roundtrip (bs str out : List Byte) (upper : Bool)
    (hs : str.length = toHexLength bs.length) (ho : bs.length ≤ out.length) :
    ∃ s, toHex bs bs.length str upper = .ok s ∧ s.length = 2 * bs.length ∧
      fromHex s s.length out = .ok (over bs out, bs.length) := by
  have h1 := (C01_to_hex_writes_spec bs str upper (by omega)).1
  have hl := encode_length upper bs
  have hov : over (HexSpec.encode upper bs) str = HexSpec.encode upper bs := by
    simp only [toHexLength] at hs
    simp [over, hl]; omega
  rw [hov] at h1
  refine ⟨_, h1, hl, ?_⟩
  rw [fromHex_eq _ _ _ (Nat.le_refl _) (by omega), List.take_length, decode_encode]

example : ∃ bs str out : List Byte, bs ≠ [] ∧ str.length = toHexLength bs.length ∧
    bs.length ≤ out.length := ⟨[0xAB, 0x01], [0, 0, 0, 0], [1, 2, 3], by decide⟩

/-- ASCII lower-casing. -/
def asciiLower (c : Byte) : Byte := if 65 ≤ c.toNat ∧ c.toNat ≤ 90 then c + 32 else c

/-- C01 (case). Decoding does not depend on the letter case of the digits. -/
theorem C01_hex_case_insensitive (str out : List Byte) (n : Nat) (hn : n ≤ str.length)
    (ho : n / 2 ≤ out.length) :
    fromHex (str.map asciiLower) n out = fromHex str n out := by
  have hv : ∀ c : Byte, HexSpec.value? (asciiLower c) = HexSpec.value? c := by decide +kernel
  have hd : ∀ l : List Byte, HexSpec.decode (l.map asciiLower) = HexSpec.decode l := by
    intro l
    induction l using HexSpec.decode.induct with
    | case1 a b rest x y hy hx ih => simp [HexSpec.decode, hv, ih]
    | case2 a b rest h => simp only [List.map_cons, HexSpec.decode, hv]
    | case3 l h =>
      match l, h with
      | [], _ => rfl
      | [a], _ => rfl
      | a :: b :: r, h => exact absurd rfl (h a b r)
  rw [fromHex_eq _ _ _ (by simpa using hn) ho, fromHex_eq _ _ _ hn ho, ← List.map_take, hd]

example : fromHex ([chr 'A', chr 'f'].map asciiLower) 2 [0] = .ok ([0xAF], 1) := by decide

/-- C02. On any readable string and any output buffer of `str_len/2` bytes (hence of
`fingera_from_hex_length` bytes) `fingera_from_hex` is defined, decodes exactly the longest prefix
of digit pairs within the first `str_len` characters, returns its byte count and leaves the rest of
the buffer alone.  Since `str` may end right after `str_len`, nothing beyond is read. -/
theorem C02_from_hex_any (str out : List Byte) (n : Nat) (hn : n ≤ str.length)
    (ho : n / 2 ≤ out.length) :
    fromHex str n out =
      .ok (over (HexSpec.decode (str.take n)) out, (HexSpec.decode (str.take n)).length) ∧
    (HexSpec.decode (str.take n)).length ≤ n / 2 ∧ n / 2 ≤ fromHexLength n := by
  refine ⟨fromHex_eq str n out hn ho, ?_, by simp [fromHexLength]; omega⟩
  have := decode_length_le (str.take n)
  simpa [Nat.min_eq_left hn] using this

example : fromHex [chr '0', chr 'f', chr 'x', chr '1', chr '2'] 5 [9, 9, 9] = .ok ([15, 9, 9], 1) := by
  decide

/-- C02 (the prefix is the longest one): if the decoder stops early, the next pair is not two
hexadecimal digits. -/
theorem C02_from_hex_longest (str out : List Byte) (n : Nat) (hn : n ≤ str.length)
    (ho : n / 2 ≤ out.length) (out' : List Byte) (r : Nat)
    (h : fromHex str n out = .ok (out', r)) :
    (∀ i (_ : 2*i + 1 < str.length), i < r →
      HexSpec.value? str[2*i] ≠ none ∧ HexSpec.value? str[2*i+1] ≠ none) ∧
    (2 * r + 1 < n → ∀ _ : 2*r + 1 < str.length,
      HexSpec.value? str[2*r] = none ∨ HexSpec.value? str[2*r+1] = none) := by
  rw [fromHex_eq _ _ _ hn ho] at h
  injection h with h; injection h with _ h
  subst h
  have key : ∀ l : List Byte,
      (∀ i (h1 : 2*i < l.length) (h2 : 2*i + 1 < l.length), i < (HexSpec.decode l).length →
        HexSpec.value? l[2*i] ≠ none ∧ HexSpec.value? l[2*i+1] ≠ none) ∧
      (∀ (h1 : 2 * (HexSpec.decode l).length < l.length)
        (h2 : 2 * (HexSpec.decode l).length + 1 < l.length),
        HexSpec.value? l[2 * (HexSpec.decode l).length] = none ∨
        HexSpec.value? l[2 * (HexSpec.decode l).length + 1] = none) := by
    intro l
    induction l using HexSpec.decode.induct with
    | case1 a b rest x y hy hx ih =>
      have hd : HexSpec.decode (a :: b :: rest) = BitVec.ofNat 8 (16*x+y) :: HexSpec.decode rest := by
        simp [HexSpec.decode, hx, hy]
      constructor
      · intro i h1 h2 hi
        match i with
        | 0 => simp [hx, hy]
        | i+1 =>
          rw [hd] at hi
          have h2' : 2 * i + 1 < rest.length := by simp at h2; omega
          simpa [show 2 * (i+1) = 2*i+1+1 by omega] using
            ih.1 i (by omega) h2' (by simpa using hi)
      · intro h1 h2
        simp only [hd, List.length_cons] at h1 h2 ⊢
        have h2' : 2 * (HexSpec.decode rest).length + 1 < rest.length := by omega
        simpa [show 2 * ((HexSpec.decode rest).length+1) = 2*(HexSpec.decode rest).length+1+1 by omega]
          using ih.2 (by omega) h2'
    | case2 a b rest h =>
      have hd : HexSpec.decode (a :: b :: rest) = [] := by
        simp only [HexSpec.decode]
      refine ⟨fun i h1 h2 hi => by simp [hd] at hi, fun h1 h2 => ?_⟩
      simp only [hd, List.length_nil, Nat.mul_zero, Nat.zero_add, List.getElem_cons_zero,
        List.getElem_cons_succ]
      rcases hx : HexSpec.value? a with _ | x
      · simp
      · rcases hy : HexSpec.value? b with _ | y
        · simp
        · exact absurd hy (h x y hx)
    | case3 l h =>
      match l, h with
      | [], _ => exact ⟨fun i h1 => by simp at h1, fun h1 => by simp at h1⟩
      | [a], _ => exact ⟨fun i h1 h2 => by simp at h2, fun h1 h2 => by simp at h2⟩
      | a :: b :: r, h => exact absurd rfl (h a b r)
  have hle := decode_length_le (str.take n)
  rw [List.length_take, Nat.min_eq_left hn] at hle
  obtain ⟨k1, k2⟩ := key (str.take n)
  constructor
  · intro i hi hr
    have := k1 i (by simp; omega) (by simp; omega) hr
    simpa using this
  · intro hlt hl
    have := k2 (by simp; omega) (by simp; omega)
    simpa using this

/-- C03. The dump of any buffer is the specified text (and the 1024-byte cache is never overrun,
whatever it contained before: the run is defined). -/
theorem C03_hex_dump (cache0 buf : List Byte) (n : Nat) (upper : Bool)
    (hc : cache0.length = 1024) (hn : n ≤ buf.length) :
    hexDump cache0 buf n upper = .ok (HexSpec.dump upper (buf.take n)) :=
  hexDump_eq cache0 buf n upper hc hn

example : ∃ cache0 buf : List Byte, cache0.length = 1024 ∧ 5 ≤ buf.length :=
  ⟨List.replicate 1024 0, [1, 2, 3, 4, 5], List.length_replicate, by decide⟩
example : HexSpec.dump false [1, 2, 3, 4, 0xAB] = cstr "01020304 ab\n" := by decide
