import Verif.Model.InPlaceBech32
import Verif.Lemmas.InPlace
import Verif.Lemmas.Bech32
/-! Property theorem C105: Bech32 on one object. -/
open Bech32

namespace InPlace

/-- Two loops without exit that go in step. -/
theorem floop_put {σ : Type} (f g : Nat → σ → Res σ) (p : σ → σ) (I : Nat → σ → Prop) (N : Nat)
    (h : ∀ j s, j < N → I j s → f j (p s) = (g j s >>= fun r => pure (p r)) ∧ ∀ s', g j s = .ok s' → I (j+1) s')
    (k j : Nat) (s : σ) (hk : j + k ≤ N) (hs : I j s) : forLoop f j k (p s) = (forLoop g j k s >>= fun r => pure (p r)) := by
  induction k generalizing j s with
  | zero => rfl
  | succ k ih =>
    obtain ⟨h1, h2⟩ := h j s (by omega) hs
    rw [forLoop, forLoop, h1]
    cases hg : g j s with
    | ub => rfl
    | abort => rfl
    | ok s1 => exact ih (j+1) s1 (by omega) (h2 s1 hg)

theorem bech32_body (mem0 : List Byte) (a b p : Nat) (hb : b ≤ a + p) (j : Nat) (buf : List Byte) (hI : Inv mem0 b (a + (p + j)) buf) :
    bech32Body a b p j (put mem0 b buf) =
      (decodeBody (mem0.drop a) p j buf >>= fun r => pure (putStep (put mem0 b) (put mem0 b) r)) ∧
    ∀ buf', decodeBody (mem0.drop a) p j buf = .ok (.next buf') → Inv mem0 b (a + (p + (j+1))) buf' := by
  rw [bech32Body, decodeBody, rd_put hI a (p + j) (Nat.le_refl _)]
  cases rd (mem0.drop a) (p + j) with
  | ub => exact ⟨rfl, fun _ h => by cases h⟩
  | abort => exact ⟨rfl, fun _ h => by cases h⟩
  | ok c =>
    simp only [Res.ok_bind]
    cases rd BECH32_DECODE c.toNat with
    | ub => exact ⟨rfl, fun _ h => by cases h⟩
    | abort => exact ⟨rfl, fun _ h => by cases h⟩
    | ok rev =>
      simp only [Res.ok_bind]
      by_cases hr : rev = -1
      · rw [if_pos hr, if_pos hr]
        exact ⟨rfl, fun _ h => by cases h⟩
      · rw [if_neg hr, if_neg hr, wr_put mem0 b hI.1]
        cases hw : wr buf j (BitVec.ofInt 8 rev) with
        | ub => exact ⟨rfl, fun _ h => by cases h⟩
        | abort => exact ⟨rfl, fun _ h => by cases h⟩
        | ok buf1 =>
          refine ⟨rfl, fun _ h => ?_⟩
          cases h
          exact inv_wr hI hw (by omega) (by omega)

theorem drop_put' (mem0 buf : List Byte) (b : Nat) (hb : b ≤ mem0.length) : (put mem0 b buf).drop b = buf := by
  rw [put, List.drop_left' (by rw [List.length_take]; omega)]

theorem decodeChars_put {mem0 : List Byte} {b k : Nat} {buf : List Byte} (hI : Inv mem0 b k buf) (a p n : Nat) (hk : k ≤ a + p)
    (out : List Byte) : decodeChars ((put mem0 b buf).drop a) p n out = decodeChars (mem0.drop a) p n out := by
  have e : decodeBody ((put mem0 b buf).drop a) p = decodeBody (mem0.drop a) p := by
    funext i out
    have : rd ((put mem0 b buf).drop a) (p + i) = rd (mem0.drop a) (p + i) := by
      rw [← rd_put hI a (p + i) (by omega)]
      unfold rd
      rw [List.getElem?_drop]
    rw [decodeBody, decodeBody, this]
  rw [decodeChars, decodeChars, e]

/-- What a call with a separate output would leave, seen in the object. -/
def seenIn (mem0 : List Byte) (b : Nat) (r : DecodeResult) : DecodeResult := { r with b32 := put mem0 b r.b32 }

theorem bech32DecodeAt_eq (mem0 : List Byte) (a n pos : Nat) (hrp : List Byte) (b : Nat) (hb : b ≤ a + (pos + 1)) (hm : b ≤ mem0.length)
    (hn : pos + 7 ≤ n) : bech32DecodeAt mem0 a n pos hrp b =
      (decodeAt (mem0.drop a) n pos hrp (mem0.drop b) >>= fun r => pure (seenIn mem0 b r)) := by
  rw [bech32DecodeAt, decodeAt]
  cases forLoop (fun i hrp => do wr hrp i (toLower (← rd (mem0.drop a) i))) 0 pos hrp with
  | ub => rfl
  | abort => rfl
  | ok hrp =>
    simp only [Res.ok_bind]
    have hu : untilPtr (pos + 1) (n - 6) = .ok (n - 6 - (pos + 1)) := by
      unfold untilPtr; rw [if_pos (by omega)]
    rw [hu]
    simp only [Res.ok_bind]
    have hl := loop_put (bech32Body a b (pos + 1)) (decodeBody (mem0.drop a) (pos + 1)) (put mem0 b) (put mem0 b)
      (fun j buf => Inv mem0 b (a + (pos + 1 + j)) buf) (fun j buf hI => bech32_body mem0 a b (pos + 1) hb j buf hI)
      (n - 6 - (pos + 1)) 0 (mem0.drop b) (inv_start mem0 b _ hm)
    rw [put_start] at hl
    rw [bech32Chars, decodeChars, hl.1]
    cases hg : forLoopB (decodeBody (mem0.drop a) (pos + 1)) 0 (n - 6 - (pos + 1)) (mem0.drop b) with
    | ub => rfl
    | abort => rfl
    | ok r =>
      cases r with
      | stop buf => rfl
      | next buf =>
        have hI := hl.2 buf hg
        rw [Nat.zero_add, show a + (pos + 1 + (n - 6 - (pos + 1))) = a + (n - 6) by omega] at hI
        simp only [Res.ok_bind, Res.pure_eq, putStep, Bool.not_true]
        rw [decodeChars_put hI a (n - 6) 6 (Nat.le_refl _), drop_put' _ _ _ hm]
        cases decodeChars (mem0.drop a) (n - 6) 6 (List.replicate 6 0xAA#8) with
        | ub => rfl
        | abort => rfl
        | ok r =>
          obtain ⟨checksum, good⟩ := r
          cases good
          · rfl
          · simp only [Res.ok_bind, Bool.not_true]
            cases verifyChecksum hrp pos buf (n - 6 - (pos + 1)) checksum <;> rfl

end InPlace

/-- C105 (decoding). `fingera_bech32_decode(obj + a, n, hrp, &hrp_size, obj + b)` whose values go to the text itself - the output begins
before the text, with it, or up to two bytes behind its beginning - returns the same, and writes the same values, as with a copy of the
text elsewhere (and misbehaves only when it would then). -/
theorem C105_decode_onto_text (mem : List Byte) (a n : Nat) (hrp : List Byte) (hrpSize b : Nat) (hb : b ≤ a + 2) (hm : b ≤ mem.length) :
    InPlace.bech32Decode mem a n hrp hrpSize b =
      (do let r ← decode (mem.drop a) n hrp hrpSize (mem.drop b)
          pure { r with b32 := mem.take b ++ r.b32 }) := by
  have e0 : mem.take b ++ mem.drop b = mem := List.take_append_drop _ _
  rw [InPlace.bech32Decode, decode]
  cases isIllegal (mem.drop a) n with
  | ub => rfl
  | abort => rfl
  | ok r =>
    simp only [Res.ok_bind]
    cases r
    · simp only [Bool.false_eq_true, if_false]
      cases strrchr (mem.drop a) (chr '1') with
      | ub => rfl
      | abort => rfl
      | ok p =>
        simp only [Res.ok_bind]
        cases p with
        | none => simp only [Res.pure_eq, Res.ok_bind, e0]
        | some pos =>
          simp only []
          split
          · simp only [Res.pure_eq, Res.ok_bind, e0]
          · split
            · simp only [Res.pure_eq, Res.ok_bind, e0]
            · rw [InPlace.bech32DecodeAt_eq mem a n pos hrp b (by omega) hm (by omega)]; rfl
    · simp only [if_true, Res.pure_eq, Res.ok_bind, e0]

namespace InPlace

/-- The values from the `i`th on are still as they were. -/
def Later (mem0 : List Byte) (a m b i : Nat) (buf : List Byte) : Prop :=
  ∀ j, i ≤ j → j < m → (put mem0 b buf)[a + j]? = mem0[a + j]?

theorem later_of_ne {mem0 : List Byte} {a m b i i' : Nat} {buf buf' : List Byte} (hm : b ≤ mem0.length) (h : Later mem0 a m b i buf)
    (hi : i ≤ i') (he : ∀ j, i' ≤ j → j < m → b ≤ a + j → buf'[a + j - b]? = buf[a + j - b]?) : Later mem0 a m b i' buf' := by
  intro j hj hjm
  rw [← h j (by omega) hjm]
  have hl : (mem0.take b).length = b := by rw [List.length_take]; omega
  unfold put
  by_cases hb : a + j < b
  · rw [List.getElem?_append_left (by omega), List.getElem?_append_left (by omega)]
  · rw [List.getElem?_append_right (by omega), List.getElem?_append_right (by omega), hl]
    exact he j hj hjm (by omega)

theorem later_wr {mem0 : List Byte} {a m b i i' p : Nat} {v : Byte} {buf buf' : List Byte} (hm : b ≤ mem0.length)
    (h : Later mem0 a m b i buf) (hi : i ≤ i') (hw : wr buf p v = .ok buf') (hp : b + p < a + i' ∨ a + m ≤ b) :
    Later mem0 a m b i' buf' := by
  unfold wr at hw
  split at hw
  · cases hw
    exact later_of_ne hm h hi fun j _ _ _ => by rw [List.getElem?_set_ne (by omega)]
  · cases hw

theorem later_memcpy {mem0 : List Byte} {a m b n : Nat} {src buf buf' : List Byte} (hm : b ≤ mem0.length)
    (h : Later mem0 a m b 0 buf) (hw : memcpy buf 0 src n = .ok buf') (hp : b + n ≤ a ∨ a + m ≤ b) : Later mem0 a m b 0 buf' := by
  unfold memcpy at hw
  split at hw
  · rename_i hc
    cases hw
    refine later_of_ne hm h (Nat.le_refl _) fun j _ _ hb => ?_
    rw [List.take_zero, List.nil_append, List.getElem?_append_right (by rw [List.length_take]; omega), List.getElem?_drop,
      List.length_take]
    congr 1; omega
  · cases hw

theorem bech32Encode_eq (hrp : List Byte) (hrpLen : Nat) (mem : List Byte) (a m b : Nat) (hb : b + hrpLen + 1 ≤ a ∨ a + m ≤ b)
    (hm : b ≤ mem.length) : bech32Encode hrp hrpLen mem a m b =
      (encode hrp hrpLen (mem.drop a) m (mem.drop b) >>= fun s => pure (put mem b s)) := by
  rw [bech32Encode, encode]
  cases createChecksum hrp hrpLen (mem.drop a) m (List.replicate 6 0xAA#8) with
  | ub => rfl
  | abort => rfl
  | ok checksum =>
  simp only [Res.ok_bind, Overlap.at_]
  have h0 : Later mem a m b 0 (mem.drop b) := fun j _ _ => by rw [put_start]
  cases h1 : memcpy (mem.drop b) 0 hrp hrpLen with
  | ub => rfl
  | abort => rfl
  | ok buf1 =>
  have h1' := later_memcpy hm h0 h1 (by omega)
  simp only [Res.ok_bind, Res.pure_eq]
  rw [show mem.take b ++ buf1 = put mem b buf1 from rfl, wr_put mem b hm]
  cases h2 : wr buf1 hrpLen (chr '1') with
  | ub => rfl
  | abort => rfl
  | ok buf2 =>
  have h2' := later_wr hm h1' (Nat.le_refl _) h2 (by omega)
  simp only [Res.ok_bind, Res.pure_eq]
  rw [floop_put _ (fun i result => do
      let v ← rd (mem.drop a) i
      assertC (v.toNat < 32)
      wr result (hrpLen + 1 + i) (← rd BECH32_ENCODE v.toNat)) (put mem b) (fun i buf => Later mem a m b i buf) m ?_ m 0 buf2 (by omega) h2']
  · cases forLoop (fun i result => do
      let v ← rd (mem.drop a) i
      assertC (v.toNat < 32)
      wr result (hrpLen + 1 + i) (← rd BECH32_ENCODE v.toNat)) 0 m buf2 with
    | ub => rfl
    | abort => rfl
    | ok buf3 =>
    simp only [Res.ok_bind, Res.pure_eq]
    rw [floop_put _ (fun i result => do
      let v ← rd checksum i
      wr result (hrpLen + 1 + m + i) (← rd BECH32_ENCODE v.toNat)) (put mem b) (fun _ _ => True) 6 ?_ 6 0 buf3 (by omega) trivial]
    · rfl
    · intro j s _ _
      refine ⟨?_, fun _ _ => trivial⟩
      cases rd checksum j with
      | ub => rfl
      | abort => rfl
      | ok v =>
      simp only [Res.ok_bind]
      cases rd BECH32_ENCODE v.toNat with
      | ub => rfl
      | abort => rfl
      | ok c => exact wr_put mem b hm s _ c
  · intro j s hj hs
    have hr : rd (put mem b s) (a + j) = rd (mem.drop a) j := by
      unfold rd
      rw [hs j (Nat.le_refl _) hj, List.getElem?_drop]
    simp only [hr]
    cases rd (mem.drop a) j with
    | ub => exact ⟨rfl, fun _ h => by cases h⟩
    | abort => exact ⟨rfl, fun _ h => by cases h⟩
    | ok v =>
    simp only [Res.ok_bind]
    cases assertC (v.toNat < 32) with
    | ub => exact ⟨rfl, fun _ h => by cases h⟩
    | abort => exact ⟨rfl, fun _ h => by cases h⟩
    | ok _ =>
    simp only [Res.ok_bind]
    cases rd BECH32_ENCODE v.toNat with
    | ub => exact ⟨rfl, fun _ h => by cases h⟩
    | abort => exact ⟨rfl, fun _ h => by cases h⟩
    | ok c =>
    simp only [Res.ok_bind]
    exact ⟨wr_put mem b hm s _ c, fun s' h => later_wr hm hs (by omega) h (by omega)⟩

end InPlace

/-- C105 (encoding). `fingera_bech32_encode(hrp, hrp_len, obj + a, m, obj + b)` whose text goes to the object of the values - so that
each value is read before its place is overwritten, at least the human-readable part and the `1` in front of the values, or all of
the text behind them - writes the text it writes with a copy of the values elsewhere (and misbehaves only when it would then). -/
theorem C105_encode_over_values (hrp : List Byte) (hrpLen : Nat) (mem : List Byte) (a m b : Nat) (hb : b + hrpLen + 1 ≤ a ∨ a + m ≤ b)
    (hm : b ≤ mem.length) : InPlace.bech32Encode hrp hrpLen mem a m b =
      (do let s ← encode hrp hrpLen (mem.drop a) m (mem.drop b)
          pure (mem.take b ++ s)) :=
  InPlace.bech32Encode_eq hrp hrpLen mem a m b hb hm

/-- C105 (the conditions are needed). With the two values `1, 2` at the beginning of the output the encoder reads the text it has already
written and its `assert` fails, although the values are legal; a decoder that writes three bytes behind the beginning of the text reads
values instead of characters. -/
theorem C105_positions_matter :
    InPlace.bech32Encode [chr 'a'] 1 (1#8 :: 2#8 :: List.replicate 10 0#8) 0 2 0 = .abort ∧
    encode [chr 'a'] 1 (1#8 :: 2#8 :: List.replicate 10 0#8) 2 (1#8 :: 2#8 :: List.replicate 10 0#8) ≠ .abort ∧
    (InPlace.bech32Decode (cstr "a1qpzry9x8gf" ++ List.replicate 10 0#8) 0 12 (List.replicate 5 0#8) 5 3 >>= fun r => pure r.b32) ≠
      (decode (cstr "a1qpzry9x8gf" ++ List.replicate 10 0#8) 12 (List.replicate 5 0#8) 5
          ((cstr "a1qpzry9x8gf" ++ List.replicate 10 0#8).drop 3) >>= fun r =>
        pure ((cstr "a1qpzry9x8gf" ++ List.replicate 10 0#8).take 3 ++ r.b32)) := by
  decide +kernel
