import Verif.Lemmas.Base58Total
import Verif.Props.Base58Check
/-!
Property theorems C13–C19 without bounds on sizes: base58 and Base58Check on every buffer and every NUL-terminated string.
The limits of the code (`Base58Spec.TooLong`, `Base58Spec.MeetsNegative`, a work buffer that does not fit an `int`) are exact:
inside them the specification holds, outside them the behaviour is undefined.
-/
open Base58

/-- Number of bytes behind the leading zero bytes. -/
def significant (bs : List Byte) : Nat := (bs.dropWhile (· = 0#8)).length

theorem significant_eq (bs : List Byte) : bs.length - (bs.takeWhile (· = 0#8)).length = significant bs := by
  have : (bs.takeWhile (· = 0#8)).length + (bs.dropWhile (· = 0#8)).length = bs.length := by
    rw [← List.length_append, List.takeWhile_append_dropWhile]
  rw [significant]; omega

/-- C13, every buffer: up to 1,556,147,570 bytes behind the leading zeros the text is the canonical one; from there on the size of
the work buffer does not fit the `int` it is converted to. -/
theorem C13_to_base58_any (bs str : List Byte) :
    (significant bs ≤ 1556147570 → (Base58Spec.encode bs).length ≤ str.length →
      toBase58 bs bs.length str = .ok (over (Base58Spec.encode bs) str, (Base58Spec.encode bs).length)) ∧
    (1556147570 < significant bs → toBase58 bs bs.length str = .ub) := by
  refine ⟨fun h hs => ?_, fun h => ?_⟩
  · exact toBase58_eq_exact bs str (by rw [significant_eq]; omega) hs
  · have hz := skipZeroes_eq bs bs.length 0 (by omega)
    simp only [List.drop_zero, List.take_length, Nat.zero_add] at hz
    rw [toBase58, hz]
    simp only [Res.ok_bind]
    rw [significant_eq, if_pos (by omega)]

/-- C14, the part that holds: with the documented output size nothing goes wrong – no assertion failure, no access outside the work
buffer, the input or the output – and at most the documented number of characters is written.  Missing: more than 1,556,147,570
significant bytes, see `C14_violated_huge`. -/
theorem C14_to_base58_safe_partial (bs str : List Byte) (hn : significant bs ≤ 1556147570)
    (hs : toBase58Length bs.length ≤ str.length) :
    ∃ W, toBase58 bs bs.length str = .ok (over W str, W.length) ∧ W.length ≤ toBase58Length bs.length :=
  ⟨_, (C13_to_base58_any bs str).1 hn (Nat.le_trans (encode58_length_le bs) hs), encode58_length_le bs⟩

/-- C14 is violated by the code for every larger input. -/
theorem C14_violated_huge (bs str : List Byte) (hn : 1556147570 < significant bs) : toBase58 bs bs.length str = .ub :=
  (C13_to_base58_any bs str).2 hn

/-- Such inputs exist. -/
example : 1556147570 < significant (List.replicate 1556147571 1#8) := by
  rw [significant, List.dropWhile_replicate, if_neg (by decide), List.length_replicate]; decide

theorem encode58_dropSpaces (bs : List Byte) : (Base58Spec.encode bs).dropWhile Base58Spec.isSpace = Base58Spec.encode bs := by
  cases h : Base58Spec.encode bs with
  | nil => rfl
  | cons c r =>
    rw [List.dropWhile_cons_of_neg]
    rw [(encode58_chars bs c (by rw [h]; simp)).1]; simp

/-- The limits of the decoder on a text of the encoder. -/
theorem tooLong_encode (bs : List Byte) : Base58Spec.TooLong (Base58Spec.encode bs) ↔
    2 ^ 31 ≤ bs.length - significant bs ∨ 2929718 < (Positional.digits 58 (Base58Spec.number bs)).length := by
  have hz : bs.length - significant bs = (bs.takeWhile (· = 0#8)).length := by
    have := significant_eq bs
    have : (bs.takeWhile (· = 0#8)).length ≤ bs.length := (List.takeWhile_sublist _).length_le
    omega
  rw [Base58Spec.TooLong, encode58_dropSpaces, hz, Base58Spec.encode]
  have hone : ∀ r : List Byte, (List.replicate (bs.takeWhile (· = 0#8)).length 49#8 ++ r).takeWhile (· = 49#8) =
      List.replicate (bs.takeWhile (· = 0#8)).length 49#8 ++ r.takeWhile (· = 49#8) := fun r =>
    List.takeWhile_append_of_pos (fun x hx => by rw [List.eq_of_mem_replicate hx]; rfl)
  have hone' : ∀ r : List Byte, (List.replicate (bs.takeWhile (· = 0#8)).length 49#8 ++ r).dropWhile (· = 49#8) =
      r.dropWhile (· = 49#8) := fun r =>
    List.dropWhile_append_of_pos (fun x hx => by rw [List.eq_of_mem_replicate hx]; rfl)
  rw [hone, hone']
  have hd : ((Positional.digits 58 (Base58Spec.number bs)).map Base58Spec.char).takeWhile (· = 49#8) = [] ∧
      ((Positional.digits 58 (Base58Spec.number bs)).map Base58Spec.char).dropWhile (· = 49#8) =
        (Positional.digits 58 (Base58Spec.number bs)).map Base58Spec.char := by
    cases h : Positional.digits 58 (Base58Spec.number bs) with
    | nil => exact ⟨rfl, rfl⟩
    | cons d r =>
      have h1 := Positional.digits_head 58 (Base58Spec.number bs) (by omega) d r h
      have h2 := Positional.digits_lt 58 (Base58Spec.number bs) (by omega) d (by rw [h]; simp)
      have h3 : ¬ (decide (Base58Spec.char d = 49#8) = true) := by
        rw [decide_eq_true_eq, (char_props d h2).2.2.2]; exact h1
      rw [List.map_cons]
      exact ⟨List.takeWhile_cons_of_neg (p := fun x => decide (x = 49#8)) h3,
        List.dropWhile_cons_of_neg (p := fun x => decide (x = 49#8)) h3⟩
  rw [hd.1, hd.2, List.append_nil, List.length_replicate, List.length_map]
  generalize (Positional.digits 58 (Base58Spec.number bs)).length = m
  omega

theorem not_negative_encode (bs : List Byte) : ¬ Base58Spec.MeetsNegative (Base58Spec.encode bs) := by
  rintro ⟨p, b, r, e, -, hb, -⟩
  have := (encode58_chars bs b (by rw [e]; simp)).2.2.1
  rw [Base58Spec.Negative] at hb
  omega

/-- C15, the part that holds: decoding the NUL-terminated text of a buffer gives the buffer back, for texts of up to 2,929,718
digits behind the leading `'1'`s (and fewer than 2^31 of those).  Missing: longer texts, see `C15_violated_long`. -/
theorem C15_base58_roundtrip_partial (cs : Bool) (bs str post out : List Byte) (hz : bs.length - significant bs < 2 ^ 31)
    (hd : (Positional.digits 58 (Base58Spec.number bs)).length ≤ 2929718) (hn : significant bs ≤ 1556147570)
    (hs : toBase58Length bs.length ≤ str.length) (ho : bs.length ≤ out.length) :
    ∃ s n, toBase58 bs bs.length str = .ok (s, n) ∧
      fromBase58 cs (s.take n ++ 0#8 :: post) n out = .ok (over bs out, bs.length) := by
  refine ⟨_, _, (C13_to_base58_any bs str).1 hn (Nat.le_trans (encode58_length_le bs) hs), ?_⟩
  rw [show (over (Base58Spec.encode bs) str).take (Base58Spec.encode bs).length = Base58Spec.encode bs by simp [over]]
  have hl : ¬ Base58Spec.TooLong (Base58Spec.encode bs) := by rw [tooLong_encode]; omega
  exact ((((fromBase58_total cs _ post out (fun b hb => (encode58_chars bs b hb).2.1)).2 hl
    (fun h => not_negative_encode bs h.2)).2 bs (decode_encode58 bs)).1 ho)

/-- C15, buffers of up to two million bytes: the hypotheses about digits hold. -/
theorem C15_base58_roundtrip_upto_2MB_partial (cs : Bool) (bs str post out : List Byte) (hn : bs.length ≤ 2000000)
    (hs : toBase58Length bs.length ≤ str.length) (ho : bs.length ≤ out.length) :
    ∃ s n, toBase58 bs bs.length str = .ok (s, n) ∧
      fromBase58 cs (s.take n ++ 0#8 :: post) n out = .ok (over bs out, bs.length) := by
  have hle := encode58_length_le bs
  have hd : (Positional.digits 58 (Base58Spec.number bs)).length ≤ (Base58Spec.encode bs).length := by
    rw [Base58Spec.encode, List.length_append, List.length_map]; omega
  have hs' := significant_eq bs
  rw [toBase58Length] at hle
  refine C15_base58_roundtrip_partial cs bs str post out ?_ ?_ ?_ hs ho
  · have : bs.length - significant bs ≤ bs.length := Nat.sub_le _ _
    omega
  · omega
  · omega

example : ∃ bs str out : List Byte, bs = [0, 0, 1, 2] ∧ bs.length ≤ 2000000 ∧
    toBase58Length bs.length ≤ str.length ∧ bs.length ≤ out.length :=
  ⟨[0, 0, 1, 2], List.replicate 7 0, List.replicate 4 0, by decide⟩

/-- C15 is violated by the code: the text of a longer buffer makes `(int)(str_end - str) * 733` overflow. -/
theorem C15_violated_long (cs : Bool) (bs str post out : List Byte)
    (hd : 2929718 < (Positional.digits 58 (Base58Spec.number bs)).length) (hn : significant bs ≤ 1556147570)
    (hs : toBase58Length bs.length ≤ str.length) :
    ∃ s n, toBase58 bs bs.length str = .ok (s, n) ∧ fromBase58 cs (s.take n ++ 0#8 :: post) n out = .ub := by
  refine ⟨_, _, (C13_to_base58_any bs str).1 hn (Nat.le_trans (encode58_length_le bs) hs), ?_⟩
  rw [show (over (Base58Spec.encode bs) str).take (Base58Spec.encode bs).length = Base58Spec.encode bs by simp [over]]
  exact (fromBase58_total cs _ post out (fun b hb => (encode58_chars bs b hb).2.1)).1
    (.inl ((tooLong_encode bs).mpr (.inr hd)))

theorem digits58_long (bs : List Byte) (h : 2200000 ≤ significant bs) :
    2929718 < (Positional.digits 58 (Base58Spec.number bs)).length := by
  rw [← number_dropZeros bs]
  rw [significant] at h
  have hne : bs.dropWhile (· = 0#8) ≠ [] := by intro e; rw [e] at h; simp at h
  have hhead := List.head_dropWhile_not (fun x : Byte => decide (x = 0#8)) (l := bs) hne
  cases hd : bs.dropWhile (· = 0#8) with
  | nil => exact absurd hd hne
  | cons c q =>
    simp only [hd, List.head_cons, decide_eq_false_iff_not] at hhead
    rw [hd, List.length_cons] at h
    have hc : 1 ≤ c.toNat := by
      rcases Nat.eq_zero_or_pos c.toNat with h0 | h0
      · exact absurd (BitVec.eq_of_toNat_eq h0) hhead
      · exact h0
    have hnum : 256 ^ q.length ≤ Base58Spec.number (c :: q) := by
      rw [Base58Spec.number, List.map_cons, Positional.value_cons, List.length_map]
      calc 256 ^ q.length = 1 * 256 ^ q.length := (Nat.one_mul _).symm
        _ ≤ c.toNat * 256 ^ q.length := Nat.mul_le_mul_right _ hc
        _ ≤ _ := Nat.le_add_right _ _
    refine Nat.lt_of_not_le fun hle => ?_
    have h1 := Positional.value_lt 58 (Positional.digits 58 (Base58Spec.number (c :: q)))
      (Positional.digits_lt 58 _ (by omega))
    rw [Positional.value_digits 58 _ (by omega)] at h1
    obtain ⟨k, hk⟩ : ∃ k, k = 732430 := ⟨_, rfl⟩
    have h2 : 58 ^ (Positional.digits 58 (Base58Spec.number (c :: q))).length ≤ 58 ^ (4 * k) :=
      Nat.pow_le_pow_right (by omega) (by omega)
    have h3 : (58 ^ 4) ^ k ≤ (256 ^ 3) ^ k := Nat.pow_le_pow_left (by decide) _
    have h4 : 256 ^ (3 * k) ≤ 256 ^ q.length := Nat.pow_le_pow_right (by omega) (by omega)
    rw [← Nat.pow_mul, ← Nat.pow_mul] at h3
    exact absurd (Nat.lt_of_le_of_lt (Nat.le_trans h3 (Nat.le_trans h4 hnum)) (Nat.lt_of_lt_of_le h1 h2)) (Nat.lt_irrefl _)

/-- Such buffers: any with 2,200,000 significant bytes. -/
example : 2929718 < (Positional.digits 58 (Base58Spec.number (List.replicate 2200000 1#8))).length := by
  refine digits58_long _ ?_
  rw [significant, List.dropWhile_replicate, if_neg (by decide), List.length_replicate]; decide

/-- C16 (exact behaviour on every NUL-terminated string).  Texts that are too long for the `int` arithmetic, and, where `char` is
signed, texts that are scanned up to a negative character: undefined.  Otherwise: texts that are not blanks–digits–blanks yield 0
and an untouched buffer; the others yield exactly the specified bytes, if the buffer holds them. -/
theorem C16_from_base58_total (cs : Bool) (s post buf : List Byte) (h0 : ∀ b ∈ s, b ≠ 0#8) :
    (Base58Spec.TooLong s ∨ (cs = true ∧ Base58Spec.MeetsNegative s) →
      fromBase58 cs (s ++ 0#8 :: post) s.length buf = .ub) ∧
    (¬ Base58Spec.TooLong s → ¬ (cs = true ∧ Base58Spec.MeetsNegative s) →
      (Base58Spec.decode? s = none → fromBase58 cs (s ++ 0#8 :: post) s.length buf = .ok (buf, 0)) ∧
      ∀ W, Base58Spec.decode? s = some W →
        (W.length ≤ buf.length → fromBase58 cs (s ++ 0#8 :: post) s.length buf = .ok (over W buf, W.length)) ∧
        (buf.length < W.length → fromBase58 cs (s ++ 0#8 :: post) s.length buf = .ub)) :=
  fromBase58_total cs s post buf h0

/-- C16. Whenever decoding returns a length other than 0 – for whatever string, buffer and platform – the string is blanks, digits,
blanks, the bytes are the ones it denotes, nothing behind them was touched, and encoding them gives the string without the blanks. -/
theorem C16_from_base58_sound (cs : Bool) (s post buf mem : List Byte) (n : Nat) (h0 : ∀ b ∈ s, b ≠ 0#8)
    (h : fromBase58 cs (s ++ 0#8 :: post) s.length buf = .ok (mem, n)) (hn : n ≠ 0) :
    ∃ W, Base58Spec.decode? s = some W ∧ n = W.length ∧ mem = over W buf ∧ n ≤ buf.length ∧
      ∀ str : List Byte, toBase58Length n ≤ str.length →
        toBase58 W n str = .ok (over (trim58 s) str, (trim58 s).length) := by
  obtain ⟨u1, u2⟩ := fromBase58_total cs s post buf h0
  have hl : ¬ Base58Spec.TooLong s := fun hl => by rw [u1 (.inl hl)] at h; cases h
  have hneg : ¬ (cs = true ∧ Base58Spec.MeetsNegative s) := fun hn => by rw [u1 (.inr hn)] at h; cases h
  obtain ⟨v1, v2⟩ := u2 hl hneg
  cases hd : Base58Spec.decode? s with
  | none =>
    rw [v1 hd, Res.ok.injEq, Prod.mk.injEq] at h
    exact absurd h.2.symm hn
  | some W =>
    refine ⟨W, rfl, ?_⟩
    by_cases hW : W.length ≤ buf.length
    · rw [(v2 W hd).1 hW, Res.ok.injEq, Prod.mk.injEq] at h
      refine ⟨h.2.symm, h.1.symm, by omega, fun str hs => ?_⟩
      rw [← h.2] at hs ⊢
      have hlt := Base58Check.decode_short s W hl hd
      have hsig : significant W ≤ 1556147570 := by
        have := significant_eq W
        rw [Base58Spec.TooLong, not_or, Nat.not_le, Nat.not_le] at hl
        have hre := C16_reencode s W hd
        have hdl : significant W ≤ ((s.dropWhile Base58Spec.isSpace).dropWhile (· = 49#8)).length * 733 / 1000 + 1 := by
          unfold Base58Spec.decode? at hd
          simp only at hd
          split at hd
          · rw [Option.some.injEq] at hd
            rw [← hd, significant]
            generalize s.dropWhile Base58Spec.isSpace = t
            obtain ⟨s1, -, s3⟩ := body_split t
            rw [Base58Spec.bytes, s3, s1, value_bytes_ones _ _ (all_takeWhile_ones t),
              List.dropWhile_append_of_pos (fun x hx => by rw [List.eq_of_mem_replicate hx]; rfl)]
            refine Nat.le_trans (List.dropWhile_suffix _).length_le ?_
            rw [List.length_map]
            have hlt := Positional.value_lt 58 (((t.dropWhile (· = 49#8)).takeWhile fun c => !Base58Spec.isSpace c).filterMap Base58Spec.value?) (by
              intro d hd
              obtain ⟨c, -, hc⟩ := List.mem_filterMap.mp hd
              exact value?_lt c d hc)
            have hl1 := List.length_filterMap_le Base58Spec.value? ((t.dropWhile (· = 49#8)).takeWhile fun c => !Base58Spec.isSpace c)
            have hl2 := (List.takeWhile_sublist (fun c => !Base58Spec.isSpace c) (l := t.dropWhile (· = 49#8))).length_le
            refine Nat.le_trans (Positional.digits_length_le 256 _ _ (by omega) (Nat.lt_of_lt_of_le hlt (pow_bound_dec _))) ?_
            omega
          · cases hd
        omega
      rw [(C13_to_base58_any W str).1 hsig (Nat.le_trans (encode58_length_le W) hs), C16_reencode s W hd]
    · rw [(v2 W hd).2 (Nat.lt_of_not_le hW)] at h
      cases h

example : Base58Spec.MeetsNegative (cstr "2x" ++ [0xC3#8, 0xA9#8]) ∧ ¬ Base58Spec.TooLong (cstr "2x" ++ [0xC3#8, 0xA9#8]) := by
  refine ⟨⟨cstr "2x", 0xC3#8, [0xA9#8], rfl, by decide, by decide, by decide +kernel⟩, ?_⟩
  rw [Base58Spec.TooLong]; decide +kernel
example : fromBase58 true (cstr "2x" ++ [0xC3#8, 0xA9#8, 0#8]) 4 [0, 0, 0, 0] = .ub ∧
    fromBase58 false (cstr "2x" ++ [0xC3#8, 0xA9#8, 0#8]) 4 [0, 0, 0, 0] = .ok ([0, 0, 0, 0], 0) ∧
    fromBase58 true (cstr "0" ++ [0xC3#8, 0xA9#8, 0#8]) 3 [0, 0, 0, 0] = .ok ([0, 0, 0, 0], 0) := by decide +kernel

/-- C17, exact: with a buffer of the documented size (and no more) decoding is out of bounds or otherwise undefined exactly for the
texts outside the limits and those that denote more bytes than documented. -/
theorem C17_from_base58_undefined_iff_partial (cs : Bool) (s post buf : List Byte) (h0 : ∀ b ∈ s, b ≠ 0#8)
    (hb : buf.length = fromBase58Length s.length) :
    fromBase58 cs (s ++ 0#8 :: post) s.length buf = .ub ↔
      (Base58Spec.TooLong s ∨ (cs = true ∧ Base58Spec.MeetsNegative s) ∨
        ∃ W, Base58Spec.decode? s = some W ∧ fromBase58Length s.length < W.length) := by
  obtain ⟨u1, u2⟩ := fromBase58_total cs s post buf h0
  rw [← hb]
  by_cases hl : Base58Spec.TooLong s
  · exact ⟨fun _ => .inl hl, fun _ => u1 (.inl hl)⟩
  by_cases hneg : cs = true ∧ Base58Spec.MeetsNegative s
  · exact ⟨fun _ => .inr (.inl hneg), fun _ => u1 (.inr hneg)⟩
  obtain ⟨v1, v2⟩ := u2 hl hneg
  cases hd : Base58Spec.decode? s with
  | none =>
    rw [v1 hd]
    refine ⟨fun h => (by cases h), ?_⟩
    rintro (h | h | ⟨W, h, -⟩)
    · exact absurd h hl
    · exact absurd h hneg
    · cases h
  | some W =>
    by_cases hW : W.length ≤ buf.length
    · rw [(v2 W hd).1 hW]
      refine ⟨fun h => (by cases h), ?_⟩
      rintro (h | h | ⟨W', h, h'⟩)
      · exact absurd h hl
      · exact absurd h hneg
      · rw [Option.some.injEq] at h
        rw [h] at hW; omega
    · exact ⟨fun _ => .inr (.inr ⟨W, rfl, by omega⟩), fun _ => (v2 W hd).2 (by omega)⟩

/-! ## Base58Check -/
open Base58Check

/-- C18, the part that holds: encoding `prefix || buf` into a buffer of the documented size and decoding the text gives
`prefix || buf` back (followed in memory by the checksum) and returns its length, for texts of up to 2,929,718 digits.
Missing: longer texts, see `C18_violated_long`. -/
theorem C18_base58check_roundtrip_partial (host : Host) (cs : Bool) (buf pre str post out : List Byte)
    (hl : ¬ Base58Spec.TooLong (Base58CheckSpec.encode (pre ++ buf)))
    (hn : significant (pre ++ buf ++ Base58CheckSpec.checksum (pre ++ buf)) ≤ 1556147570) (h61 : (pre ++ buf).length < 2 ^ 61)
    (hs : toBase58CheckLength buf.length pre.length ≤ str.length)
    (ho : pre.length + buf.length + 4 ≤ out.length) :
    ∃ s n, toBase58Check host buf buf.length pre pre.length str = .ok (s, n) ∧
      n ≤ toBase58CheckLength buf.length pre.length ∧
      ∃ mem, fromBase58Check host cs (s.take n ++ 0#8 :: post) n out = .ok (mem, (pre ++ buf).length) ∧
        mem.take (pre ++ buf).length = pre ++ buf ∧
        mem.drop ((pre ++ buf).length + 4) = out.drop ((pre ++ buf).length + 4) := by
  have hle := encodeCheck_length_le (pre ++ buf)
  have hsl : Base58.toBase58Length ((pre ++ buf).length + 4) = toBase58CheckLength buf.length pre.length := by
    rw [toBase58CheckLength, List.length_append]; congr 1; omega
  rw [hsl] at hle
  have h1 := toBase58Check_toBase58 host buf buf.length pre pre.length str (by omega) (by omega)
    (by rw [List.length_append] at h61; omega)
  rw [List.take_length, List.take_length, (C13_to_base58_any _ str).1 hn (Nat.le_trans hle hs)] at h1
  refine ⟨_, _, h1, hle, ?_⟩
  rw [BtcHash.take_over rfl]
  have hd : Base58Spec.decode? (Base58CheckSpec.encode (pre ++ buf)) =
      some (pre ++ buf ++ Base58CheckSpec.checksum (pre ++ buf)) := decode_encode58 _
  have hWl : (pre ++ buf ++ Base58CheckSpec.checksum (pre ++ buf)).length = (pre ++ buf).length + 4 := by
    rw [List.length_append, checksum_length]
  have h2 := (((fromBase58Check_total host cs (Base58CheckSpec.encode (pre ++ buf)) post out
    (fun b hb => (encode58_chars _ b hb).2.1)).2 hl (fun h => not_negative_encode _ h.2)).2 _ hd).1
    (by rw [hWl, List.length_append]; omega)
  rw [check?_append] at h2
  refine ⟨_, h2, ?_, ?_⟩
  · rw [over, List.append_assoc, List.append_assoc, ← List.append_assoc pre, List.take_left]
  · rw [over, ← hWl, List.drop_left]

/-- C18, payloads of up to a million bytes: the hypotheses about the limits hold. -/
theorem C18_base58check_roundtrip_upto_1MB_partial (host : Host) (cs : Bool) (buf pre str post out : List Byte)
    (hsz : buf.length + pre.length ≤ 1000000)
    (hs : toBase58CheckLength buf.length pre.length ≤ str.length)
    (ho : pre.length + buf.length + 4 ≤ out.length) :
    ∃ s n, toBase58Check host buf buf.length pre pre.length str = .ok (s, n) ∧
      n ≤ toBase58CheckLength buf.length pre.length ∧
      ∃ mem, fromBase58Check host cs (s.take n ++ 0#8 :: post) n out = .ok (mem, (pre ++ buf).length) ∧
        mem.take (pre ++ buf).length = pre ++ buf ∧
        mem.drop ((pre ++ buf).length + 4) = out.drop ((pre ++ buf).length + 4) := by
  have hWl : (pre ++ buf ++ Base58CheckSpec.checksum (pre ++ buf)).length = buf.length + pre.length + 4 := by
    rw [List.length_append, List.length_append, checksum_length]; omega
  have hsig : significant (pre ++ buf ++ Base58CheckSpec.checksum (pre ++ buf)) ≤ buf.length + pre.length + 4 := by
    rw [← hWl, significant]; exact (List.dropWhile_suffix _).length_le
  refine C18_base58check_roundtrip_partial host cs buf pre str post out ?_ (by omega)
    (by rw [List.length_append]; omega) hs ho
  have hd : (Positional.digits 58 (Base58Spec.number (pre ++ buf ++ Base58CheckSpec.checksum (pre ++ buf)))).length ≤
      (Base58CheckSpec.encode (pre ++ buf)).length := by
    rw [Base58CheckSpec.encode, Base58Spec.encode, List.length_append, List.length_map]; omega
  have hle := encodeCheck_length_le (pre ++ buf)
  rw [Base58.toBase58Length, List.length_append] at hle
  rw [Base58CheckSpec.encode, tooLong_encode, hWl]
  omega

/-- A concrete instance of C18: the text for the prefix 0 and three bytes. -/
example : ∃ s n, toBase58Check .little [1, 2, 3] 3 [0] 1 (List.replicate 13 7) = .ok (s, n) ∧
    fromBase58Check .little true (s.take n ++ [0]) n (List.replicate 9 7) =
      .ok ([0, 1, 2, 3, 0xF7, 0xA3, 0x55, 0xC0, 7], 4) :=
  ⟨cstr "13DV5niCGP" ++ [7, 7, 7], 10, by decide +kernel, by decide +kernel⟩

/-- C18 is violated by the code: the text of any payload with 2,200,000 bytes or more behind its leading zero bytes cannot be
decoded. -/
theorem C18_violated_long (host : Host) (cs : Bool) (buf pre str post out : List Byte)
    (h1 : 2200000 ≤ significant (pre ++ buf ++ Base58CheckSpec.checksum (pre ++ buf)))
    (hn : significant (pre ++ buf ++ Base58CheckSpec.checksum (pre ++ buf)) ≤ 1556147570) (h61 : (pre ++ buf).length < 2 ^ 61)
    (hs : toBase58CheckLength buf.length pre.length ≤ str.length) :
    ∃ s n, toBase58Check host buf buf.length pre pre.length str = .ok (s, n) ∧
      fromBase58Check host cs (s.take n ++ 0#8 :: post) n out = .ub := by
  have hle := encodeCheck_length_le (pre ++ buf)
  have hsl : Base58.toBase58Length ((pre ++ buf).length + 4) = toBase58CheckLength buf.length pre.length := by
    rw [toBase58CheckLength, List.length_append]; congr 1; omega
  rw [hsl] at hle
  have he := toBase58Check_toBase58 host buf buf.length pre pre.length str (by omega) (by omega)
    (by rw [List.length_append] at h61; omega)
  rw [List.take_length, List.take_length, (C13_to_base58_any _ str).1 hn (Nat.le_trans hle hs)] at he
  refine ⟨_, _, he, ?_⟩
  rw [BtcHash.take_over rfl]
  exact (fromBase58Check_total host cs _ post out (fun b hb => (encode58_chars _ b hb).2.1)).1
    (.inl ((tooLong_encode _).mpr (.inr (digits58_long _ h1))))

/-- Such payloads exist. -/
example : ∃ buf pre : List Byte, 2200000 ≤ significant (pre ++ buf ++ Base58CheckSpec.checksum (pre ++ buf)) ∧
    significant (pre ++ buf ++ Base58CheckSpec.checksum (pre ++ buf)) ≤ 1556147570 ∧ (pre ++ buf).length < 2 ^ 61 := by
  refine ⟨List.replicate 2200000 1#8, [], ?_⟩
  generalize hc : Base58CheckSpec.checksum ([] ++ List.replicate 2200000 1#8) = c
  have h4 : c.length = 4 := by rw [← hc]; exact checksum_length _
  have hd : ([] ++ List.replicate 2200000 1#8 ++ c).dropWhile (· = 0#8) = List.replicate 2200000 1#8 ++ c := by
    rw [List.nil_append, List.replicate_succ, List.cons_append, List.dropWhile_cons_of_neg (by decide)]
  rw [significant, hd, List.length_append, List.nil_append, List.length_replicate, h4]
  omega

/-- C19 (exact behaviour on every NUL-terminated string). -/
theorem C19_from_base58check_total (host : Host) (cs : Bool) (s post buf : List Byte) (h0 : ∀ b ∈ s, b ≠ 0#8) :
    (Base58Spec.TooLong s ∨ (cs = true ∧ Base58Spec.MeetsNegative s) →
      fromBase58Check host cs (s ++ 0#8 :: post) s.length buf = .ub) ∧
    (¬ Base58Spec.TooLong s → ¬ (cs = true ∧ Base58Spec.MeetsNegative s) →
      (Base58Spec.decode? s = none → fromBase58Check host cs (s ++ 0#8 :: post) s.length buf = .ok (buf, 0)) ∧
      ∀ W, Base58Spec.decode? s = some W →
        (W.length ≤ buf.length → fromBase58Check host cs (s ++ 0#8 :: post) s.length buf =
          .ok (over W buf, match Base58CheckSpec.check? W with | some p => p.length | none => 0)) ∧
        (buf.length < W.length → fromBase58Check host cs (s ++ 0#8 :: post) s.length buf = .ub)) :=
  fromBase58Check_total host cs s post buf h0

/-- C19. Whenever decoding returns a length other than 0 – for whatever string, buffer and platform – the string is well-formed
base58 of `payload || checksum` with the right checksum, the payload has been written, and, blanks at the ends apart, the string is
what `fingera_to_base58_check` produces for this payload, however it is split into prefix and data. -/
theorem C19_base58check_sound (host : Host) (cs : Bool) (s post buf mem : List Byte) (n : Nat)
    (h0 : ∀ b ∈ s, b ≠ 0#8)
    (h : fromBase58Check host cs (s ++ 0#8 :: post) s.length buf = .ok (mem, n)) (hn : n ≠ 0) :
    n = (mem.take n).length ∧
    Base58Spec.decode? s = some (mem.take n ++ (BtcHashSpec.hash256 (mem.take n)).take 4) ∧
    ∀ (pre dat str : List Byte), pre ++ dat = mem.take n →
      toBase58CheckLength dat.length pre.length ≤ str.length →
      toBase58Check host dat dat.length pre pre.length str = .ok (over (trim58 s) str, (trim58 s).length) := by
  obtain ⟨u1, u2⟩ := fromBase58Check_total host cs s post buf h0
  have hl : ¬ Base58Spec.TooLong s := fun hl => by rw [u1 (.inl hl)] at h; cases h
  have hneg : ¬ (cs = true ∧ Base58Spec.MeetsNegative s) := fun hn => by rw [u1 (.inr hn)] at h; cases h
  obtain ⟨v1, v2⟩ := u2 hl hneg
  cases hd : Base58Spec.decode? s with
  | none =>
    rw [v1 hd, Res.ok.injEq, Prod.mk.injEq] at h
    exact absurd h.2.symm hn
  | some W =>
    by_cases hW : W.length ≤ buf.length
    · rw [(v2 W hd).1 hW, Res.ok.injEq, Prod.mk.injEq] at h
      cases hc : Base58CheckSpec.check? W with
      | none => rw [hc] at h; exact absurd h.2.symm hn
      | some p =>
        rw [hc] at h
        have hWe := check?_some hc
        have hp : mem.take n = p := by
          rw [← h.1, ← h.2, hWe, over, List.append_assoc, List.take_left]
        rw [hp]
        refine ⟨h.2.symm, by rw [hWe]; rfl, ?_⟩
        intro pre dat str hsplit hstr
        -- the base58 decoder itself, with a buffer of exactly the size
        have hsound := C16_from_base58_sound cs s post buf (over W buf) W.length h0
          ((fromBase58_total cs s post buf h0).2 hl hneg |>.2 W hd |>.1 hW) (by
            rw [hWe, List.length_append, checksum_length]; omega)
        obtain ⟨W', e1, -, -, -, e2⟩ := hsound
        rw [hd, Option.some.injEq] at e1
        have hpl : pre.length + dat.length = p.length := by rw [← hsplit, List.length_append]
        have hshort := decode_short s W hl hd
        have hWlen : W.length = p.length + 4 := by rw [hWe, List.length_append, checksum_length]
        rw [toBase58Check_toBase58 host dat dat.length pre pre.length str (by omega) (by omega) (by omega), List.take_length,
          List.take_length, hsplit, ← hWe]
        have := e2 str (by
          rw [hWlen]
          rw [toBase58CheckLength] at hstr
          rw [show p.length + 4 = dat.length + 4 + pre.length by omega]; exact hstr)
        rw [← e1] at this
        exact this
    · rw [(v2 W hd).2 (Nat.lt_of_not_le hW)] at h
      cases h

/-- Accepted and rejected concrete strings: the first is accepted with a four-byte payload, the
second has one character changed. -/
example : (∃ mem, fromBase58Check .little true (cstr "13DV5niCGP" ++ [0]) 10 (List.replicate 11 7) = .ok (mem, 4)) ∧
    (∃ mem, fromBase58Check .little true (cstr "13DV5niCGQ" ++ [0]) 10 (List.replicate 11 7) = .ok (mem, 0)) :=
  ⟨⟨[0, 1, 2, 3, 0xF7, 0xA3, 0x55, 0xC0, 7, 7, 7], by decide +kernel⟩,
   ⟨[0, 1, 2, 3, 0xF7, 0xA3, 0x55, 0xC1, 7, 7, 7], by decide +kernel⟩⟩
