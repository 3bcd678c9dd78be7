import Verif.Props.InPlaceDer
/-! Property theorems C106, continued: results anywhere, also inside the encoding that is decoded. -/
open Key SecpLib DerSpec Secp256k1 WordSpec Endian

namespace InPlace

/-- Where the bytes of the key are in an encoding that `privateKey?` accepts: their offset (behind the tag, the length of one or two
bytes more than its first, the version and the two bytes of the OCTET STRING's header) and their number. -/
def keyOffset (enc : List Byte) : Nat := 2 + ((enc.getD 1 0#8).toNat - 128) + 5
def keyCount (enc : List Byte) : Nat := (enc.getD (keyOffset enc - 1) 0#8).toNat

variable {α : Type}

/-- The body of the parser with what follows it left open. -/
def parseBody (fail : Res α) (found : Nat → Nat → Res α) (inp : List Byte) (len pos : Nat) : Res α :=
  if len < pos + 3 then fail
  else do
    let v0 ← rd inp pos
    let v1 ← rd inp (pos+1)
    let v2 ← rd inp (pos+2)
    if v0 ≠ 0x02#8 ∨ v1 ≠ 0x01#8 ∨ v2 ≠ 0x01#8 then fail
    else
      let pos := pos + 3
      if len < pos + 2 then fail
      else do
        let t ← rd inp pos
        if t ≠ 0x04#8 then fail
        else do
          let c ← rd inp (pos+1)
          let oslen := c.toNat
          let pos := pos + 2
          if oslen > 32 ∨ len < pos + oslen then fail
          else found pos oslen

/-- The parser with what follows it left open. -/
def parse (fail : Res α) (found : Nat → Nat → Res α) (inp : List Byte) (len : Nat) : Res α :=
  if len < 0 + 1 then fail
  else do
    let t ← rd inp 0
    if t ≠ 0x30#8 then fail
    else if len < 1 + 1 then fail
    else do
      let c ← rd inp 1
      if c &&& 0x80#8 = 0#8 then fail
      else
        let lenb := (c &&& 0x7F#8).toNat
        if lenb < 1 ∨ lenb > 2 then fail
        else if len < 2 + lenb then fail
        else do
          let lo ← rd inp (2 + (lenb - 1))
          let hi ← if lenb > 1 then rd inp (2 + (lenb - 2)) else pure 0#8
          let sl := hi.toNat * 256 + lo.toNat
          if len < 2 + lenb + sl then fail
          else parseBody fail found inp len (2 + lenb)

/-- What `importBody` does once the key is found. -/
def finishImport (mem : List Byte) (a b : Nat) (pos oslen : Nat) : Res (List Byte × Bool) := do
  let mem ← memcpyIn mem (b + (32 - oslen)) (a + pos) oslen
  let ok ← seckeyVerify (mem.drop b)
  if !ok then do
    let mem ← memset mem b 0#8 32
    pure (mem, false)
  else pure (mem, true)

theorem keyDecode_parse (mem : List Byte) (a len b : Nat) : keyDecode mem a len b =
    (memset mem b 0#8 32 >>= fun m => parse (.ok (m, false)) (finishImport m a b) (view m a len) len) := rfl

theorem parseBody_eq (fail : Res α) (found : Nat → Nat → Res α) (inp : List Byte) (pos : Nat) (hp : pos ≤ inp.length) :
    parseBody fail found inp inp.length pos = (match inp.drop pos with
      | v0 :: v1 :: v2 :: os :: l :: rest =>
        if v0 = 0x02#8 ∧ v1 = 0x01#8 ∧ v2 = 0x01#8 ∧ os = 0x04#8 ∧ l.toNat ≤ 32 ∧ l.toNat ≤ rest.length then found (pos + 5) l.toNat
        else fail
      | _ => fail) := by
  have hlen : (inp.drop pos).length = inp.length - pos := List.length_drop
  rw [parseBody]
  by_cases h3 : inp.length < pos + 3
  · rw [if_pos h3]
    match hd : inp.drop pos with
    | [] => rfl
    | [_] => rfl
    | [_, _] => rfl
    | [_, _, _] => rfl
    | [_, _, _, _] => rfl
    | _ :: _ :: _ :: _ :: _ :: _ => rw [hd] at hlen; simp at hlen; omega
  obtain ⟨v0, v1, v2, r3, hd⟩ : ∃ v0 v1 v2 r3, inp.drop pos = v0 :: v1 :: v2 :: r3 := by
    match hd : inp.drop pos with
    | [] => rw [hd] at hlen; simp at hlen; omega
    | [_] => rw [hd] at hlen; simp at hlen; omega
    | [_, _] => rw [hd] at hlen; simp at hlen; omega
    | v0 :: v1 :: v2 :: r3 => exact ⟨v0, v1, v2, r3, rfl⟩
  have d1 := drop_succ_of _ _ _ _ hd
  have d2 := drop_succ_of _ _ _ _ d1
  have d3 := drop_succ_of _ _ _ _ d2
  rw [hd, if_neg h3, rd_drop _ _ _ _ hd, Res.ok_bind, rd_drop _ _ _ _ d1, Res.ok_bind]
  rw [show pos + 2 = pos + 1 + 1 by omega, rd_drop _ _ _ _ d2, Res.ok_bind]
  by_cases hv : v0 ≠ 0x02#8 ∨ v1 ≠ 0x01#8 ∨ v2 ≠ 0x01#8
  · rw [if_pos hv]
    match r3 with
    | [] => rfl
    | [_] => rfl
    | os :: l :: rest =>
      simp only []
      rw [if_neg (by rintro ⟨a, b, c, -⟩; rcases hv with h | h | h <;> contradiction)]
  have hv' : v0 = 0x02#8 ∧ v1 = 0x01#8 ∧ v2 = 0x01#8 := by
    refine ⟨?_, ?_, ?_⟩ <;> by_contra h <;> exact hv (by simp [h])
  rw [if_neg hv]
  rw [hd] at hlen
  simp only [List.length_cons] at hlen
  by_cases h5 : inp.length < pos + 3 + 2
  · simp only []
    rw [if_pos h5]
    match r3 with
    | [] => rfl
    | [_] => rfl
    | _ :: _ :: _ => simp at hlen; omega
  obtain ⟨os, l, rest, hr⟩ : ∃ os l rest, r3 = os :: l :: rest := by
    match r3 with
    | [] => simp at hlen; omega
    | [_] => simp at hlen; omega
    | os :: l :: rest => exact ⟨os, l, rest, rfl⟩
  rw [hr] at d3 hlen
  have d4 := drop_succ_of _ _ _ _ d3
  simp only [List.length_cons] at hlen
  simp only [hr]
  rw [if_neg h5, show pos + 3 = pos + 1 + 1 + 1 by omega, rd_drop _ _ _ _ d3, Res.ok_bind]
  by_cases hos : os = 0x04#8
  swap
  · rw [if_pos hos, if_neg (by rintro ⟨-, -, -, a, -⟩; exact hos a)]
  rw [if_neg (by simpa using hos), rd_drop _ _ _ _ d4, Res.ok_bind]
  by_cases hl : l.toNat > 32 ∨ inp.length < pos + 1 + 1 + 1 + 2 + l.toNat
  · rw [if_pos hl, if_neg (by rintro ⟨-, -, -, -, a, b⟩; omega)]
  · rw [if_neg hl, if_pos ⟨hv'.1, hv'.2.1, hv'.2.2, hos, by omega, by omega⟩]

/-- The parser finds the key where the specification does. -/
theorem parse_eq (fail : Res α) (found : Nat → Nat → Res α) (inp : List Byte) :
    parse fail found inp inp.length = (match privateKey? inp with
      | some _ => found (keyOffset inp) (keyCount inp)
      | none => fail) ∧
    ∀ k, privateKey? inp = some k → k = List.replicate (32 - keyCount inp) 0#8 ++ (inp.drop (keyOffset inp)).take (keyCount inp) ∧
      keyCount inp ≤ 32 ∧ keyOffset inp + keyCount inp ≤ inp.length := by
  rw [parse]
  match inp with
  | [] => exact ⟨rfl, fun k h => by cases h⟩
  | [t] =>
    refine ⟨?_, fun k h => by cases h⟩
    rw [if_neg (by simp), show rd [t] 0 = .ok t from rfl, Res.ok_bind]
    by_cases ht : t ≠ 0x30#8
    · rw [if_pos ht]; rfl
    · rw [if_neg ht, if_pos (by simp)]; rfl
  | t :: b :: rest =>
    rw [if_neg (by simp), show rd (t :: b :: rest) 0 = .ok t from rfl, Res.ok_bind, privateKey?]
    by_cases ht : t = 0x30#8
    swap
    · rw [if_pos ht, if_neg (fun h => ht h.1)]; exact ⟨rfl, fun k h => by cases h⟩
    rw [if_neg (by simpa using ht), if_neg (by simp), show rd (t :: b :: rest) 1 = .ok b from rfl, Res.ok_bind]
    by_cases hb : b &&& 0x80#8 = 0#8
    · rw [if_pos hb, if_neg]
      · exact ⟨rfl, fun k h => by cases h⟩
      · rintro ⟨-, h | h, -⟩ <;> rw [h] at hb <;> exact absurd hb (by decide)
    rw [if_neg hb, lenb_eq b hb]
    simp only []
    have h12 := lenb_12 b hb
    by_cases hk : b.toNat - 128 < 1 ∨ b.toNat - 128 > 2
    · rw [if_pos hk, if_neg (fun h => h12.2 h.2.1 hk)]; exact ⟨rfl, fun k h => by cases h⟩
    have hb12 := h12.1 hk
    rw [if_neg hk]
    have hoff : keyOffset (t :: b :: rest) = 2 + (b.toNat - 128) + 5 := rfl
    rw [keyCount, hoff]
    obtain ⟨k, hkk⟩ : ∃ k, b.toNat - 128 = k := ⟨_, rfl⟩
    rw [hkk] at hk ⊢
    simp only [List.length_cons]
    by_cases hkl : k ≤ rest.length
    swap
    · rw [if_pos (by omega), if_neg (fun h => hkl h.2.2.1)]; exact ⟨rfl, fun k h => by cases h⟩
    rw [if_neg (by omega)]
    obtain ⟨lo, hi, g1, g2, g3⟩ := seqLen t b rest k (by omega) hkl
    have push : ∀ f : Byte → Res α,
        (if k > 1 then (rd (t :: b :: rest) (2 + (k - 2)) >>= f) else (pure 0#8 >>= f)) = f hi := by
      intro f
      by_cases h1 : k > 1
      · rw [if_pos h1] at g2 ⊢
        rw [g2, Res.ok_bind]
      · rw [if_neg h1] at g2 ⊢
        rw [g2, Res.ok_bind]
    rw [g1, Res.ok_bind, push, g3]
    have hdl : (rest.drop k).length = rest.length - k := List.length_drop
    by_cases hsl : beNat (rest.take k) ≤ (rest.drop k).length
    swap
    · rw [if_pos (by omega), if_neg (fun h => hsl h.2.2.2)]; exact ⟨rfl, fun k h => by cases h⟩
    rw [if_neg (by omega), if_pos ⟨ht, hb12, hkl, hsl⟩]
    have hbody := parseBody_eq fail found (t :: b :: rest) (2 + k) (by simp; omega)
    rw [List.length_cons, List.length_cons] at hbody
    rw [hbody, ← List.drop_drop]
    rw [show (t :: b :: rest).drop 2 = rest from rfl]
    match hd : rest.drop k with
    | [] => exact ⟨rfl, fun k h => by cases h⟩
    | [_] => exact ⟨rfl, fun k h => by cases h⟩
    | [_, _] => exact ⟨rfl, fun k h => by cases h⟩
    | [_, _, _] => exact ⟨rfl, fun k h => by cases h⟩
    | [_, _, _, _] => exact ⟨rfl, fun k h => by cases h⟩
    | v0 :: v1 :: v2 :: os :: l :: r =>
      simp only []
      have hget : (t :: b :: rest).getD (2 + k + 5 - 1) 0#8 = l := by
        have : (t :: b :: rest)[2 + k + 5 - 1]? = (rest.drop k)[4]? := by
          rw [List.getElem?_drop, show 2 + k + 5 - 1 = (k + 4) + 1 + 1 by omega]; rfl
        rw [List.getD_eq_getElem?_getD, this, hd]; rfl
      have hdr : (t :: b :: rest).drop (2 + k + 5) = r := by
        rw [show 2 + k + 5 = k + 5 + 1 + 1 by omega, List.drop_succ_cons, List.drop_succ_cons, ← List.drop_drop, hd]; rfl
      rw [hget]
      by_cases h : v0 = 0x02#8 ∧ v1 = 0x01#8 ∧ v2 = 0x01#8 ∧ os = 0x04#8 ∧ l.toNat ≤ 32 ∧ l.toNat ≤ r.length
      · rw [if_pos h, if_pos h, hdr]
        refine ⟨rfl, fun k' hk' => ⟨?_, h.2.2.2.2.1, ?_⟩⟩
        · exact (Option.some.inj hk').symm
        · have hc := congrArg List.length hd
          have h9 := h.2.2.2.2.2
          simp only [List.length_cons, List.length_drop] at hc ⊢
          omega
      · rw [if_neg h, if_neg h]; exact ⟨rfl, fun k h => by cases h⟩

end InPlace

/-- C106 (decoding a key, all positions). `fingera_btc_key_decode(obj + a, len, obj + b)` for every encoding and every two places: let `V` be
the encoding after 32 zeros were written at `b`.  If `V` encodes no key, 0 is returned and the zeros stay.  If the key's bytes in it (there
are `n` of them at offset `p`) overlap the last `n` bytes of the result, behaviour is undefined (`memcpy` of overlapping places).
Otherwise the key `V` encodes is the result if it is valid, else zeros. -/
theorem C106_key_decode_positions (mem : List Byte) (a len b : Nat) (hl : a + len ≤ mem.length) (hb : b + 32 ≤ mem.length) :
    let zeros := List.replicate 32 0#8
    let V := part (put mem b zeros) a len
    let p := InPlace.keyOffset V
    let n := InPlace.keyCount V
    InPlace.keyDecode mem a len b = match privateKey? V with
      | none => .ok (put mem b zeros, false)
      | some k => if n = 0 ∨ b + 32 ≤ a + p ∨ a + p + n ≤ b + (32 - n) then
          .ok (if ValidKey k then (put mem b k, true) else (put mem b zeros, false)) else .ub := by
  intro zeros V p n
  have hz : zeros.length = 32 := List.length_replicate
  have hpl : (put mem b zeros).length = mem.length := InPlace.put_length _ _ _ (by omega)
  have hV : V = InPlace.view (put mem b zeros) a len := rfl
  have hVl : V.length = len := InPlace.view_length _ _ _ (by omega)
  rw [InPlace.keyDecode_parse, InPlace.memset_put mem b 32 hb, Res.ok_bind, show List.replicate 32 0#8 = zeros from rfl, ← hV, ← hVl]
  obtain ⟨h1, h2⟩ := InPlace.parse_eq (.ok (put mem b zeros, false)) (InPlace.finishImport (put mem b zeros) a b) V
  rw [h1]
  cases hk : privateKey? V with
  | none => rfl
  | some k =>
    obtain ⟨k1, k2, k3⟩ := h2 k hk
    simp only []
    change k = List.replicate (32 - n) 0#8 ++ (V.drop p).take n at k1
    change n ≤ 32 at k2
    change p + n ≤ V.length at k3
    change InPlace.finishImport (put mem b zeros) a b p n = _
    rw [InPlace.finishImport, InPlace.memcpyIn]
    by_cases hd : n = 0 ∨ b + 32 ≤ a + p ∨ a + p + n ≤ b + (32 - n)
    swap
    · rw [if_neg hd, if_neg (by omega)]; rfl
    rw [if_pos hd, if_pos (by omega)]
    have hsrc : ((put mem b zeros).drop (a + p)).take n = (V.drop p).take n := by
      rw [hV, InPlace.view, List.drop_take, List.drop_drop, List.take_take, Nat.min_eq_left (by omega)]
    have hkl : ((V.drop p).take n).length = n := by rw [List.length_take, List.length_drop]; omega
    have hcopy : memcpy (put mem b zeros) (b + (32 - n)) ((put mem b zeros).drop (a + p)) n = .ok (put mem b k) := by
      rw [memcpy_ok _ _ _ _ (by rw [List.length_drop]; omega) (by omega), hsrc]
      have e1 : (put mem b zeros).take (b + (32 - n)) ++ (V.drop p).take n ++ (put mem b zeros).drop (b + (32 - n) + n) =
          put (put mem b zeros) (b + (32 - n)) ((V.drop p).take n) := by rw [put.eq_1 (put mem b zeros), hkl]
      rw [e1]
      have e2 : put mem b zeros = put (put mem b (List.replicate (32 - n) 0#8)) (b + (List.replicate (32 - n) 0#8).length)
          (List.replicate n 0#8) := by
        rw [InPlace.put_append _ _ _ _ (by simp only [List.length_append, List.length_replicate]; omega), List.replicate_append_replicate,
          Nat.sub_add_cancel k2]
      have hrl : (List.replicate (32 - n) 0#8 : List Byte).length = 32 - n := List.length_replicate
      rw [e2, hrl, InPlace.put_put _ _ _ _ (by
          rw [List.length_replicate, InPlace.put_length _ _ _ (by rw [hrl]; omega)]; omega) (by rw [List.length_replicate, hkl])]
      conv => lhs; rw [← hrl]
      rw [hrl]
      have e3 := InPlace.put_append mem b (List.replicate (32 - n) 0#8) ((V.drop p).take n) (by
        simp only [List.length_append, hrl, hkl]; omega)
      rw [hrl] at e3
      rw [e3, ← k1]
    have hk32 : k.length = 32 := by rw [k1, List.length_append, hkl, List.length_replicate]; omega
    rw [hcopy, Res.ok_bind]
    have hdrop : (put mem b k).drop b = k ++ mem.drop (b + 32) := by
      rw [put, List.append_assoc, List.drop_left' (by rw [List.length_take]; omega), hk32]
    rw [hdrop, seckeyVerify_eq k _ hk32, Res.ok_bind]
    by_cases hv : ValidKey k
    · rw [decide_eq_true hv, if_pos hv]; rfl
    · rw [decide_eq_false hv, if_neg hv, if_pos (by decide),
        InPlace.memset_put _ _ _ (by rw [InPlace.put_length _ _ _ (by omega)]; exact hb), Res.ok_bind,
        InPlace.put_put _ _ _ _ (by omega) (by rw [hk32, List.length_replicate])]
      rfl

/-- C106 (decoding a signature, all positions). For every encoding and every two places: what is decoded is the encoding as it stands after
the signature (0, 0) was written at `b`. -/
theorem C106_signature_decode_positions (repr : Sig → List Byte) (hr : ∀ s, (repr s).length = 64) (mem : List Byte)
    (a len b : Nat) (hb : b + 64 ≤ mem.length) (hl : a + len ≤ mem.length) (hlen : len < 2 ^ 64) :
    InPlace.signatureDecode repr mem a len b = .ok (match signature? (part (put mem b (repr ⟨0, 0⟩)) a len) with
      | none => (put mem b (repr ⟨0, 0⟩), false)
      | some (r, s) => (put mem b (repr (if r < Secp256k1.n ∧ s < Secp256k1.n then ⟨r, s⟩ else ⟨0, 0⟩)), true)) := by
  have hpl : (put mem b (repr ⟨0, 0⟩)).length = mem.length := InPlace.put_length _ _ _ (by rw [hr]; exact hb)
  rw [InPlace.signatureDecode, InPlace.memcpy_put _ _ _ _ (hr _) hb, Res.ok_bind]
  have hv : (InPlace.view (put mem b (repr ⟨0, 0⟩)) a len).length = len := InPlace.view_length _ a len (by omega)
  have h := C49_signature_decode_spec (InPlace.view (put mem b (repr ⟨0, 0⟩)) a len) (by omega)
  rw [signatureDecode, hv] at h
  rw [h, show part (put mem b (repr ⟨0, 0⟩)) a len = InPlace.view (put mem b (repr ⟨0, 0⟩)) a len from rfl]
  have hs : ∀ s, memcpy (put mem b (repr ⟨0, 0⟩)) b (repr s) 64 = .ok (put mem b (repr s)) := fun s => by
    rw [InPlace.memcpy_put _ _ _ _ (hr _) (by omega), InPlace.put_put _ _ _ _ (by rw [hr]; exact hb) (by rw [hr, hr])]
  cases signature? (InPlace.view (put mem b (repr ⟨0, 0⟩)) a len) with
  | none => simp only [Res.ok_bind, hs, Res.pure_eq]
  | some q => simp only [Res.ok_bind, hs, Res.pure_eq]

namespace InPlace

/-- An encoding of a key with the bytes behind the key replaced. -/
theorem privateKey?_prefix (key Y : List Byte) (compr : Bool) (hk : key.length = 32)
    (hY : Y.length = if compr then 174 else 238) :
    privateKey? ((if compr then beginCompressed else beginUncompressed) ++ key ++ Y) = some key := by
  cases compr with
  | true =>
    simp only [if_true] at hY ⊢
    rw [beginCompressed]
    simp only [List.cons_append, List.nil_append, privateKey?]
    rw [show (0x81#8).toNat - 128 = 1 from rfl, if_pos]
    · simp only [List.drop_succ_cons, List.drop_zero]
      rw [show (0x20#8).toNat = 32 from rfl, if_pos ⟨trivial, trivial, trivial, trivial, by omega, by simp; omega⟩,
        List.take_left' hk]
      simp
    · refine ⟨trivial, by simp, by simp, ?_⟩
      simp only [List.take_succ_cons, List.take_zero, List.drop_succ_cons, List.drop_zero, List.length_cons,
        List.length_append, hk, hY]
      simp [beNat]
  | false =>
    simp only [Bool.false_eq_true, if_false] at hY ⊢
    rw [beginUncompressed]
    simp only [List.cons_append, List.nil_append, privateKey?]
    rw [show (0x82#8).toNat - 128 = 2 from rfl, if_pos]
    · simp only [List.drop_succ_cons, List.drop_zero]
      rw [show (0x20#8).toNat = 32 from rfl, if_pos ⟨trivial, trivial, trivial, trivial, by omega, by simp; omega⟩,
        List.take_left' hk]
      simp
    · refine ⟨trivial, by simp, by simp, ?_⟩
      simp only [List.take_succ_cons, List.take_zero, List.drop_succ_cons, List.drop_zero, List.length_cons,
        List.length_append, hk, hY]
      simp [beNat]

/-- A header with zeros written over its end (but not over its first byte) encodes no key, or the key 0. -/
theorem privateKey?_cleared (compr : Bool) (j : Nat) (Z : List Byte) (h1 : 0 < j) (h2 : j < if compr then 8 else 9) (k : List Byte)
    (h : privateKey? ((if compr then beginCompressed else beginUncompressed).take j ++ (List.replicate 32 0#8 ++ Z)) = some k) :
    k = List.replicate 32 0#8 ∧
      keyCount ((if compr then beginCompressed else beginUncompressed).take j ++ (List.replicate 32 0#8 ++ Z)) = 0 := by
  have hr : (List.replicate 32 0#8 ++ Z : List Byte) = 0#8 :: 0#8 :: 0#8 :: 0#8 :: 0#8 :: 0#8 :: 0#8 :: (List.replicate 25 0#8 ++ Z) := rfl
  generalize List.replicate 25 0#8 ++ Z = Z' at hr
  rw [hr] at h ⊢
  cases compr with
  | true =>
    simp only [if_true] at h h2 ⊢
    rw [beginCompressed] at h ⊢
    obtain rfl | rfl | rfl | rfl | rfl | rfl | rfl : j = 1 ∨ j = 2 ∨ j = 3 ∨ j = 4 ∨ j = 5 ∨ j = 6 ∨ j = 7 := by omega
    all_goals simp [privateKey?, keyCount, keyOffset] at h ⊢
    all_goals simp_all
  | false =>
    simp only [Bool.false_eq_true, if_false] at h h2 ⊢
    rw [beginUncompressed] at h ⊢
    obtain rfl | rfl | rfl | rfl | rfl | rfl | rfl | rfl : j = 1 ∨ j = 2 ∨ j = 3 ∨ j = 4 ∨ j = 5 ∨ j = 6 ∨ j = 7 ∨ j = 8 := by omega
    all_goals simp [privateKey?, keyCount, keyOffset] at h ⊢
    all_goals simp_all

theorem view_take (mem : List Byte) (a len j : Nat) : (view mem a len).take j = view mem a (min j len) := by
  rw [view, view, List.take_take]

/-- What lies in front of the place that is written. -/
theorem view_put_take (mem : List Byte) (b a len j : Nat) (w : List Byte) (hb : b + w.length ≤ mem.length) (hj : a + j ≤ b) :
    (view (_root_.put mem b w) a len).take j = (view mem a len).take j := by
  rw [view_take, view_take, view_put mem b a _ w hb (by omega)]

theorem ecPrivateKey_begin (key : List Byte) (compr : Bool) (hv : ValidKey key) :
    ∃ Y, ecPrivateKey key compr = (if compr then beginCompressed else beginUncompressed) ++ key ++ Y ∧
      Y.length = if compr then 174 else 238 := by
  obtain ⟨x, y, h1, h2, h3⟩ := pubkeyCreate_valid key hv
  have hk := hv.1
  have l1 : middleCompressed.length = 141 := by decide +kernel
  have l2 : middleUncompressed.length = 173 := by decide +kernel
  cases compr with
  | true =>
    refine ⟨middleCompressed ++ compressed x y, ?_, ?_⟩
    · rw [ecPrivateKey_compressed key hk x y h2]; simp only [if_true, List.append_assoc]
    · rw [List.length_append, l1, compressed_length]; rfl
  | false =>
    refine ⟨middleUncompressed ++ uncompressed x y, ?_, ?_⟩
    · rw [ecPrivateKey_uncompressed key hk x y h2]; simp only [Bool.false_eq_true, if_false, List.append_assoc]
    · rw [List.length_append, l2, uncompressed_length]; rfl

theorem keyOffset_begin (compr : Bool) (X : List Byte) :
    keyOffset ((if compr then beginCompressed else beginUncompressed) ++ X) = (if compr then 8 else 9) ∧
    keyCount ((if compr then beginCompressed else beginUncompressed) ++ X) = 32 := by
  cases compr <;> simp [keyOffset, keyCount, beginCompressed, beginUncompressed]

end InPlace

/-- C106 (decoding what `fingera_btc_key_encode` wrote, all positions). The header takes `h` bytes, then come the 32 bytes of the key.  A
result in front of the encoding or behind the key - also where the rest of the encoding stands - is the key; a result that begins among the
key's bytes is undefined behaviour; a result over the header or the first byte is refused, and zeros are left. -/
theorem C106_key_decode_own_encoding (mem : List Byte) (a b : Nat) (compr : Bool) (key : List Byte) (hv : ValidKey key)
    (hE : part mem a (if compr then 214 else 279) = ecPrivateKey key compr)
    (hl : a + (if compr then 214 else 279) ≤ mem.length) (hb : b + 32 ≤ mem.length) :
    let h := if compr then 8 else 9
    InPlace.keyDecode mem a (if compr then 214 else 279) b =
      if b + 32 ≤ a ∨ a + h + 32 ≤ b then .ok (put mem b key, true)
      else if a + h ≤ b then .ub
      else .ok (put mem b (List.replicate 32 0#8), false) := by
  intro h
  have hz : (List.replicate 32 0#8 : List Byte).length = 32 := List.length_replicate
  obtain ⟨Y, hY, hYl⟩ := InPlace.ecPrivateKey_begin key compr hv
  have hk := hv.1
  have hbl : (if compr then beginCompressed else beginUncompressed).length = h := by cases compr <;> rfl
  obtain ⟨L, hL⟩ : ∃ L, L = if compr then 214 else 279 := ⟨_, rfl⟩
  rw [← hL] at hE hl ⊢
  have hLh : L = h + 32 + Y.length := by rw [hL, hYl]; cases compr <;> rfl
  have hpl : (put mem b (List.replicate 32 0#8)).length = mem.length := InPlace.put_length _ _ _ (by omega)
  rw [C106_key_decode_positions mem a L b hl hb]
  obtain ⟨V, hVd⟩ : ∃ V, V = part (put mem b (List.replicate 32 0#8)) a L := ⟨_, rfl⟩
  have hVl : V.length = L := by rw [hVd]; exact InPlace.view_length _ _ _ (by omega)
  rw [← hVd]
  -- a text that begins with the header
  have hhead : ∀ key' Y', V = (if compr then beginCompressed else beginUncompressed) ++ key' ++ Y' → key'.length = 32 →
      privateKey? V = some key' ∧ InPlace.keyOffset V = h ∧ InPlace.keyCount V = 32 := by
    intro key' Y' hV hk'
    have hYl' : Y'.length = if compr then 174 else 238 := by
      have := congrArg List.length hV
      simp only [List.length_append] at this
      omega
    refine ⟨by rw [hV]; exact InPlace.privateKey?_prefix key' Y' compr hk' hYl', ?_, ?_⟩
    · rw [hV, List.append_assoc]; exact (InPlace.keyOffset_begin compr _).1
    · rw [hV, List.append_assoc]; exact (InPlace.keyOffset_begin compr _).2
  by_cases c1 : b + 32 ≤ a ∨ a + h + 32 ≤ b
  · rw [if_pos c1]
    have hV : ∃ Y', V = (if compr then beginCompressed else beginUncompressed) ++ key ++ Y' := by
      rcases c1 with c1 | c1
      · refine ⟨Y, ?_⟩
        rw [hVd, ← hY, ← hE]
        exact InPlace.view_put mem b a L _ (by omega) (by omega)
      · refine ⟨V.drop (h + 32), ?_⟩
        have ht := InPlace.view_put_take mem b a L (h + 32) (List.replicate 32 0#8) (by omega) (by omega)
        rw [show InPlace.view (put mem b (List.replicate 32 0#8)) a L = V from hVd.symm,
          show InPlace.view mem a L = ecPrivateKey key compr from hE, hY,
          List.take_left' (by rw [List.length_append, hbl, hk])] at ht
        rw [← ht, List.take_append_drop]
    obtain ⟨Y', hV⟩ := hV
    obtain ⟨g1, g2, g3⟩ := hhead key Y' hV hk
    rw [g1, g2, g3]
    simp only []
    rw [if_pos (by omega), if_pos hv]
  rw [if_neg c1]
  by_cases c2 : a + h ≤ b
  · rw [if_pos c2]
    have ht := InPlace.view_put_take mem b a L h (List.replicate 32 0#8) (by omega) (by omega)
    rw [show InPlace.view (put mem b (List.replicate 32 0#8)) a L = V from hVd.symm,
      show InPlace.view mem a L = ecPrivateKey key compr from hE, hY, List.append_assoc, List.take_left' hbl] at ht
    obtain ⟨g1, g2, g3⟩ := hhead ((V.drop h).take 32) (V.drop (h + 32)) (by
      rw [← ht, List.append_assoc, ← List.drop_drop, List.take_append_drop, List.take_append_drop]) (by
      rw [List.length_take, List.length_drop]; omega)
    rw [g1, g2, g3]
    simp only []
    rw [if_neg (by omega)]
  rw [if_neg c2]
  by_cases c3 : b ≤ a
  · have hx := C106_violated_key_decode_over_encoding mem a L b hb c3 (by omega)
    rw [C106_key_decode_positions mem a L b hl hb] at hx
    rw [← hVd] at hx
    exact hx
  · obtain ⟨j, rfl⟩ : ∃ j, b = a + j := ⟨b - a, by omega⟩
    have ht := InPlace.view_put_take mem (a + j) a L j (List.replicate 32 0#8) (by omega) (by omega)
    rw [show InPlace.view (put mem (a + j) (List.replicate 32 0#8)) a L = V from hVd.symm,
      show InPlace.view mem a L = ecPrivateKey key compr from hE, hY, List.append_assoc,
      List.take_append_of_le_length (by omega)] at ht
    have hmid : (V.drop j).take 32 = List.replicate 32 0#8 := by
      apply List.ext_getElem?
      intro i
      by_cases hi : i < 32
      · rw [List.getElem?_take_of_lt hi, List.getElem?_drop, hVd,
          show part (put mem (a + j) (List.replicate 32 0#8)) a L = InPlace.view (put mem (a + j) (List.replicate 32 0#8)) a L from rfl,
          InPlace.view_get, if_pos (by omega), InPlace.put_get _ _ _ (by omega), if_neg (by omega), hz, if_pos (by omega)]
        congr 1; omega
      · rw [List.getElem?_take_eq_none (by omega), List.getElem?_eq_none (by rw [hz]; omega)]
    have hV : V = (if compr then beginCompressed else beginUncompressed).take j ++ (List.replicate 32 0#8 ++ V.drop (j + 32)) := by
      rw [← ht, ← hmid, ← List.drop_drop, List.take_append_drop, List.take_append_drop]
    cases hp : privateKey? V with
    | none => rfl
    | some k =>
      simp only []
      obtain ⟨g1, g2⟩ := InPlace.privateKey?_cleared compr j (V.drop (j + 32)) (by omega) (by omega) k (by rw [← hV]; exact hp)
      rw [← hV] at g2
      rw [if_pos (Or.inl g2), if_neg]
      rw [g1]
      exact fun hvz => absurd hvz (by decide +kernel)
