import Verif.Lemmas.Base64
/-! Property theorems C04–C08 about `base64.c`. -/
open Base64

theorem encode_eq_raw_padding (bs : List Byte) :
    Base64Spec.encode bs = Base64Spec.encodeRaw false bs ++ padding false bs.length := by
  simp [Base64Spec.encode, padding, encodeRaw_length]

/-- C04. `fingera_to_base64` writes exactly the RFC 4648 section 4 text, of exactly
`fingera_to_base64_length` characters, into any buffer of at least that size. -/
theorem C04_to_base64_rfc4648 (bs str : List Byte) (hs : toBase64Length bs.length ≤ str.length) :
    toBase64 bs bs.length str = .ok (over (Base64Spec.encode bs) str) ∧
    (Base64Spec.encode bs).length = toBase64Length bs.length := by
  have hl : (Base64Spec.encode bs).length = toBase64Length bs.length := by
    simp only [Base64Spec.encode, List.length_append, List.length_replicate, encodeRaw_length,
      toBase64Length]
    omega
  refine ⟨?_, hl⟩
  have h2 : (8 * bs.length + 5) / 6 + (padding false bs.length).length = toBase64Length bs.length := by
    rw [← hl, encode_eq_raw_padding, List.length_append, encodeRaw_length]
  unfold toBase64
  rw [toBase64Impl_eq bs str false (by omega), encode_eq_raw_padding]

example : Base64Spec.encode [0x66, 0x6f, 0x6f, 0x62] = cstr "Zm9vYg==" := by decide +kernel
example : toBase64 [0x66, 0x6f, 0x6f, 0x62] 4 (List.replicate 8 0) = .ok (cstr "Zm9vYg==") := by
  decide +kernel

/-- C05. `fingera_to_base64_urlsafe` writes exactly the unpadded RFC 4648 section 5 text, of exactly
`fingera_to_base64_urlsafe_length` characters. -/
theorem C05_to_base64_urlsafe_rfc4648 (bs str : List Byte)
    (hs : toBase64UrlsafeLength bs.length ≤ str.length) :
    toBase64Urlsafe bs bs.length str = .ok (over (Base64Spec.encodeRaw true bs) str) ∧
    (Base64Spec.encodeRaw true bs).length = toBase64UrlsafeLength bs.length := by
  have hl : (Base64Spec.encodeRaw true bs).length = toBase64UrlsafeLength bs.length := by
    rw [encodeRaw_length]; unfold toBase64UrlsafeLength; simp only
    split
    · omega
    · split <;> omega
  refine ⟨?_, hl⟩
  unfold toBase64Urlsafe
  rw [toBase64Impl_eq bs str true (by simp [padding]; rw [encodeRaw_length] at hl; omega)]
  simp [padding]

/-- C05. The URL-safe text contains none of `+ / =`. -/
theorem C05_urlsafe_alphabet (bs : List Byte) (c : Byte) (h : c ∈ Base64Spec.encodeRaw true bs) :
    c ≠ chr '+' ∧ c ≠ chr '/' ∧ c ≠ chr '=' := by
  obtain ⟨d, hd, rfl⟩ := List.mem_map.mp h
  have hlt := BaseN.digitsOf_lt 6 bs (by omega) d hd
  have : ∀ n : Fin 64, Base64Spec.char true n.1 ≠ chr '+' ∧ Base64Spec.char true n.1 ≠ chr '/' ∧
      Base64Spec.char true n.1 ≠ chr '=' := by decide +kernel
  exact this ⟨d, hlt⟩

example : Base64Spec.encodeRaw true [0xfb, 0xff] = cstr "-_8" := by decide +kernel
example : ∃ c, c ∈ Base64Spec.encodeRaw true [0xfb, 0xff] := ⟨chr '-', by decide +kernel⟩

/-- C06. Standard round trip, with the decode length function giving the exact size. -/
theorem C06_base64_roundtrip (bs str out : List Byte) (hs : str.length = toBase64Length bs.length)
    (ho : bs.length ≤ out.length) :
    ∃ s, toBase64 bs bs.length str = .ok s ∧
      fromBase64Length s s.length = .ok bs.length ∧
      fromBase64 s s.length out = .ok (over bs out, bs.length) := by
  obtain ⟨h1, hl⟩ := C04_to_base64_rfc4648 bs str (by omega)
  have hov : over (Base64Spec.encode bs) str = Base64Spec.encode bs := by
    simp [over, hl]; omega
  rw [hov] at h1
  have hlen : fromBase64UrlsafeLength (Base64Spec.encodeRaw false bs).length = bs.length := by
    rw [encodeRaw_length]; unfold fromBase64UrlsafeLength; simp only
    split
    · omega
    · split <;> omega
  refine ⟨_, h1, ?_, ?_⟩
  · unfold fromBase64Length
    rw [stripLen_eq _ _ (Nat.le_refl _), List.take_length, strip_encode]
    simp [hlen]
  · rw [fromBase64_eq _ _ _ (Nat.le_refl _) (by rw [List.take_length, strip_encode, hlen]; exact ho)]
    rw [List.take_length, strip_encode, decodeRaw_encodeRaw]

/-- C06. URL-safe round trip. -/
theorem C06_base64_urlsafe_roundtrip (bs str out : List Byte)
    (hs : str.length = toBase64UrlsafeLength bs.length) (ho : bs.length ≤ out.length) :
    ∃ s, toBase64Urlsafe bs bs.length str = .ok s ∧
      fromBase64UrlsafeLength s.length = bs.length ∧
      fromBase64Urlsafe s s.length out = .ok (over bs out, bs.length) := by
  obtain ⟨h1, hl⟩ := C05_to_base64_urlsafe_rfc4648 bs str (by omega)
  have hov : over (Base64Spec.encodeRaw true bs) str = Base64Spec.encodeRaw true bs := by
    simp [over, hl]; omega
  rw [hov] at h1
  have hlen : fromBase64UrlsafeLength (Base64Spec.encodeRaw true bs).length = bs.length := by
    rw [encodeRaw_length]; unfold fromBase64UrlsafeLength; simp only
    split
    · omega
    · split <;> omega
  refine ⟨_, h1, hlen, ?_⟩
  unfold fromBase64Urlsafe
  rw [fromBase64Impl_eq _ _ _ _ (Nat.le_refl _) (by omega), List.take_length, decodeRaw_encodeRaw]

example : ∃ bs str out : List Byte, bs.length = 4 ∧ str.length = toBase64Length bs.length ∧
    bs.length ≤ out.length := ⟨[1, 2, 3, 4], List.replicate 8 0, [0, 0, 0, 0, 7], by decide⟩
example : ∃ bs str out : List Byte, bs.length = 4 ∧ str.length = toBase64UrlsafeLength bs.length ∧
    bs.length ≤ out.length := ⟨[1, 2, 3, 4], List.replicate 6 0, [0, 0, 0, 0, 7], by decide⟩

/-- C07 (standard). For any string and any output buffer of the documented size the decoder is
defined (no read outside the first `str_len` characters – the object may end there –, no write
outside the buffer), writes only a prefix no longer than the documented length and leaves the rest. -/
theorem C07_from_base64_safe (str out : List Byte) (n len : Nat) (hn : n ≤ str.length)
    (hlen : fromBase64Length str n = .ok len) (ho : len ≤ out.length) :
    ∃ W, fromBase64 str n out = .ok (over W out, W.length) ∧ W.length ≤ len := by
  unfold fromBase64Length at hlen
  rw [stripLen_eq _ _ hn] at hlen
  simp only [Res.ok_bind, Res.pure_eq, Res.ok.injEq] at hlen
  subst hlen
  exact ⟨_, fromBase64_eq str out n hn ho, decodeRaw_length_le false _⟩

/-- The documented length itself is computed without reading outside the string. -/
theorem C07_from_base64_length_defined (str : List Byte) (n : Nat) (hn : n ≤ str.length) :
    ∃ len, fromBase64Length str n = .ok len ∧ len ≤ n := by
  unfold fromBase64Length
  rw [stripLen_eq _ _ hn]
  obtain ⟨m, hm, he⟩ := strip_take (str.take n)
  refine ⟨_, rfl, ?_⟩
  rw [he]; simp at hm ⊢
  rw [Nat.min_eq_left (by omega)]
  unfold fromBase64UrlsafeLength; simp only
  split
  · omega
  · split <;> omega

/-- C07 (URL-safe). -/
theorem C07_from_base64_urlsafe_safe (str out : List Byte) (n : Nat) (hn : n ≤ str.length)
    (ho : fromBase64UrlsafeLength n ≤ out.length) :
    ∃ W, fromBase64Urlsafe str n out = .ok (over W out, W.length) ∧
      W.length ≤ fromBase64UrlsafeLength n := by
  refine ⟨_, fromBase64Impl_eq str out n true hn ho, ?_⟩
  have := decodeRaw_length_le true (str.take n)
  rwa [List.length_take, Nat.min_eq_left hn] at this

example : fromBase64Length (cstr "Zm9v*m9v=") 9 = .ok 6 ∧
    fromBase64 (cstr "Zm9v*m9v=") 9 [0, 0, 0, 0, 0, 0, 7] =
      .ok ([0x66, 0x6f, 0x6f, 0, 0, 0, 7], 3) := by decide +kernel

/-- The characters a decoder looks at: a lone character after the last complete group is skipped. -/
def lookedAt (cs : List Byte) : List Byte := if cs.length % 4 = 1 then cs.dropLast else cs

/-- C08 (content). Decoding yields exactly the bytes of all groups before the first group that
contains an illegal character. -/
theorem C08_base64_decode_content (str out : List Byte) (n : Nat) (hn : n ≤ str.length) (len : Nat)
    (hlen : fromBase64Length str n = .ok len) (ho : len ≤ out.length) :
    fromBase64 str n out =
      .ok (over (Base64Spec.decodeRaw false (Base64Spec.strip (str.take n))) out,
        (Base64Spec.decodeRaw false (Base64Spec.strip (str.take n))).length) := by
  unfold fromBase64Length at hlen
  rw [stripLen_eq _ _ hn] at hlen
  simp only [Res.ok_bind, Res.pure_eq, Res.ok.injEq] at hlen
  subst hlen
  exact fromBase64_eq str out n hn ho

theorem C08_base64_urlsafe_decode_content (str out : List Byte) (n : Nat) (hn : n ≤ str.length)
    (ho : fromBase64UrlsafeLength n ≤ out.length) :
    fromBase64Urlsafe str n out = .ok (over (Base64Spec.decodeRaw true (str.take n)) out,
        (Base64Spec.decodeRaw true (str.take n)).length) :=
  fromBase64Impl_eq str out n true hn ho

theorem full_length_iff (url : Bool) (cs : List Byte) :
    (Base64Spec.decodeRaw url cs).length = fromBase64UrlsafeLength cs.length ↔
      ∀ c ∈ lookedAt cs, Base64Spec.decodeValue? url c ≠ none := by
  have hnone : ∀ c, Base64Spec.decodeValue? url c = none ↔ tblVal url c = 0xFF := by
    intro c
    rcases tblVal_cases url c with ⟨a, b⟩ | ⟨a, b, _⟩
    · simp only [a, b]
    · simp only [a, b]; simp
  have : ∀ n, ∀ cs : List Byte, cs.length ≤ n →
      ((Base64Spec.decodeRaw url cs).length = fromBase64UrlsafeLength cs.length ↔
      ∀ c ∈ lookedAt cs, Base64Spec.decodeValue? url c ≠ none) := by
    intro n
    induction n with
    | zero => intro cs h; have : cs = [] := by simpa using h
              subst this; simp [decodeRaw_0, lookedAt, fromBase64UrlsafeLength]
    | succ n ih =>
      intro cs h
      match cs with
      | [] => simp [decodeRaw_0, lookedAt, fromBase64UrlsafeLength]
      | [a] => simp [decodeRaw_1, lookedAt, fromBase64UrlsafeLength]
      | [a, b] =>
        rw [decodeRaw_2]
        simp only [ne_eq, hnone]
        split <;> simp_all [fromBase64UrlsafeLength, lookedAt]
        intro h1; simp_all
      | [a, b, c] =>
        rw [decodeRaw_3]
        simp only [ne_eq, hnone]
        split <;> simp_all [fromBase64UrlsafeLength, lookedAt]
        intro h1 h2; simp_all
      | a :: b :: c :: d :: r =>
        have hl : fromBase64UrlsafeLength (a :: b :: c :: d :: r).length =
            3 + fromBase64UrlsafeLength r.length := by
          simp only [List.length_cons]
          unfold fromBase64UrlsafeLength; simp only
          split <;> split <;> (try split) <;> (try split) <;> omega
        have hlk : lookedAt (a :: b :: c :: d :: r) = a :: b :: c :: d :: lookedAt r := by
          unfold lookedAt
          have : (a :: b :: c :: d :: r).length % 4 = r.length % 4 := by simp only [List.length_cons]; omega
          rw [this]
          split
          · cases r <;> simp_all
          · rfl
        rw [decodeRaw_cons4, hl, hlk]
        have ih' := ih r (by simp at h; omega)
        split
        · rename_i hbad
          constructor
          · intro h; simp only [List.length_nil] at h; omega
          · intro h
            exfalso
            rcases hbad with hb | hb | hb | hb
            · exact h a (by simp) ((hnone _).mpr hb)
            · exact h b (by simp) ((hnone _).mpr hb)
            · exact h c (by simp) ((hnone _).mpr hb)
            · exact h d (by simp) ((hnone _).mpr hb)
        · rename_i hgood
          simp only [not_or] at hgood
          simp only [List.length_append, List.length_cons, List.length_nil, Nat.zero_add,
            Nat.reduceAdd, Nat.add_left_cancel_iff, ih', List.mem_cons, forall_eq_or_imp]
          simp only [ne_eq, hnone, hgood, not_false_eq_true, true_and]
  exact this _ cs (Nat.le_refl _)

/-- C08 (standard). The returned length is the documented one exactly when every character looked
at (after removing up to two trailing `=`) is a base64 character or `=`. -/
theorem C08_base64_accepts_iff (str out : List Byte) (n len : Nat) (hn : n ≤ str.length)
    (hlen : fromBase64Length str n = .ok len) (ho : len ≤ out.length) :
    ∃ out' r, fromBase64 str n out = .ok (out', r) ∧
      (r = len ↔ ∀ c ∈ lookedAt (Base64Spec.strip (str.take n)),
        (Base64Spec.value? false c ≠ none ∨ c = chr '=')) := by
  have hc := C08_base64_decode_content str out n hn len hlen ho
  unfold fromBase64Length at hlen
  rw [stripLen_eq _ _ hn] at hlen
  simp only [Res.ok_bind, Res.pure_eq, Res.ok.injEq] at hlen
  subst hlen
  refine ⟨_, _, hc, ?_⟩
  rw [full_length_iff]
  have : ∀ c : Byte, Base64Spec.decodeValue? false c ≠ none ↔
      (Base64Spec.value? false c ≠ none ∨ c = chr '=') := by decide +kernel
  simp only [this]

/-- C08 (URL-safe). -/
theorem C08_base64_urlsafe_accepts_iff (str out : List Byte) (n : Nat) (hn : n ≤ str.length)
    (ho : fromBase64UrlsafeLength n ≤ out.length) :
    ∃ out' r, fromBase64Urlsafe str n out = .ok (out', r) ∧
      (r = fromBase64UrlsafeLength n ↔ ∀ c ∈ lookedAt (str.take n),
        Base64Spec.value? true c ≠ none) := by
  refine ⟨_, _, C08_base64_urlsafe_decode_content str out n hn ho, ?_⟩
  have := full_length_iff true (str.take n)
  rw [List.length_take, Nat.min_eq_left hn] at this
  rw [this]
  have : ∀ c : Byte, Base64Spec.decodeValue? true c = Base64Spec.value? true c := by decide +kernel
  simp only [this]

example : ∃ str out : List Byte, fromBase64Length str 5 = .ok 3 ∧ 3 ≤ out.length ∧ 5 ≤ str.length :=
  ⟨cstr "Zm9vY", [0, 0, 0], by decide +kernel⟩
