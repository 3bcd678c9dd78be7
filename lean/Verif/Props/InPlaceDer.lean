import Verif.Model.InPlaceDer
import Verif.Props.Der
import Verif.Props.Overlap
/-! Property theorems C106: DER encodings and what they encode in one object. -/
open Key SecpLib DerSpec Secp256k1 WordSpec Endian

namespace InPlace

/-- What a function did to its own part of the object. -/
def seenAt (pre : List Byte) : Res (List Byte × Bool) → Res (List Byte × Bool)
  | .ok r => .ok (pre ++ r.1, r.2)
  | .ub => .ub
  | .abort => .abort

theorem seenAt_bind {α : Type} (pre : List Byte) (m : Res α) (f : α → Res (List Byte × Bool)) :
    seenAt pre (m >>= f) = (m >>= fun x => seenAt pre (f x)) := by cases m <;> rfl

theorem view_length (mem : List Byte) (a len : Nat) (h : a + len ≤ mem.length) : (view mem a len).length = len := by
  rw [view, List.length_take, List.length_drop]; omega

theorem put_get (mem : List Byte) (b : Nat) (w : List Byte) (hb : b + w.length ≤ mem.length) (i : Nat) :
    (_root_.put mem b w)[i]? = if i < b then mem[i]? else if i < b + w.length then w[i - b]? else mem[i]? := by
  have h1 : (mem.take b).length = b := by rw [List.length_take]; omega
  rw [_root_.put, List.append_assoc]
  by_cases h : i < b
  · rw [if_pos h, List.getElem?_append_left (by omega), List.getElem?_take_of_lt h]
  · rw [if_neg h, List.getElem?_append_right (by omega), h1]
    by_cases h' : i < b + w.length
    · rw [if_pos h', List.getElem?_append_left (by omega)]
    · rw [if_neg h', List.getElem?_append_right (by omega), List.getElem?_drop]
      congr 1; omega

theorem view_get (mem : List Byte) (a len i : Nat) : (view mem a len)[i]? = if i < len then mem[a + i]? else none := by
  unfold view
  by_cases h : i < len
  · rw [if_pos h, List.getElem?_take_of_lt h, List.getElem?_drop]
  · rw [if_neg h, List.getElem?_take_eq_none (by omega)]

/-- Bytes outside of what is written are seen unchanged. -/
theorem view_put (mem : List Byte) (b a len : Nat) (w : List Byte) (hb : b + w.length ≤ mem.length)
    (hd : b + w.length ≤ a ∨ a + len ≤ b) : view (_root_.put mem b w) a len = view mem a len := by
  apply List.ext_getElem?
  intro i
  rw [view_get, view_get]
  by_cases h : i < len
  · rw [if_pos h, if_pos h, put_get mem b w hb]
    split
    · rfl
    · rw [if_neg (by omega)]
  · rw [if_neg h, if_neg h]

theorem importBody_eq (mem : List Byte) (a len b pos : Nat) (hb : b ≤ mem.length) (hd : b + 32 ≤ a ∨ a + len ≤ b)
    (hl : a + len ≤ mem.length) : importBody mem a len b pos =
      seenAt (mem.take b) (Key.importBody (mem.drop b) (view mem a len) len pos) := by
  have e0 : mem.take b ++ mem.drop b = mem := List.take_append_drop _ _
  rw [importBody, Key.importBody]
  by_cases h3 : len < pos + 3
  · simp only [if_pos h3, seenAt, e0]
  simp only [if_neg h3, seenAt_bind]
  congr 1; funext v0
  congr 1; funext v1
  congr 1; funext v2
  by_cases hv : v0 ≠ 0x02#8 ∨ v1 ≠ 0x01#8 ∨ v2 ≠ 0x01#8
  · rw [if_pos hv, if_pos hv]; simp only [Res.pure_eq, seenAt, e0]
  rw [if_neg hv, if_neg hv]
  by_cases h5 : len < pos + 3 + 2
  · rw [if_pos h5, if_pos h5]; simp only [Res.pure_eq, seenAt, e0]
  rw [if_neg h5, if_neg h5]
  simp only [seenAt_bind]
  congr 1; funext t
  by_cases ht : t ≠ 0x04#8
  · rw [if_pos ht, if_pos ht]; simp only [Res.pure_eq, seenAt, e0]
  rw [if_neg ht, if_neg ht]
  simp only [seenAt_bind]
  congr 1; funext c
  by_cases hc : c.toNat > 32 ∨ len < pos + 3 + 2 + c.toNat
  · rw [if_pos hc, if_pos hc]; simp only [Res.pure_eq, seenAt, e0]
  rw [if_neg hc, if_neg hc]
  generalize hp : pos + 3 + 2 = p at hc ⊢
  generalize hn : c.toNat = n at hc ⊢
  have hm : memcpyIn mem (b + (32 - n)) (a + p) n = (memcpy (mem.drop b) (32 - n) ((view mem a len).drop p) n >>= fun o => pure (mem.take b ++ o)) := by
    have ht : (view mem a len).drop p = (mem.drop (a + p)).take (len - p) := by
      rw [view, List.drop_take, List.drop_drop]
    rw [memcpyIn, if_pos (by omega), memcpy, memcpy, ht]
    by_cases hr : b + 32 ≤ mem.length
    · rw [if_pos (by rw [List.length_drop]; omega), if_pos (by simp only [List.length_take, List.length_drop]; omega)]
      simp only [Res.ok_bind, Res.pure_eq]
      rw [List.take_take, Nat.min_eq_left (by omega), List.take_add, List.drop_drop]
      simp only [List.append_assoc, Nat.add_assoc]
    · rw [if_neg (by omega), if_neg (by simp only [List.length_drop]; omega)]; rfl
  rw [hm, seenAt_bind]
  cases ho : memcpy (mem.drop b) (32 - n) ((view mem a len).drop p) n with
  | ub => rfl
  | abort => rfl
  | ok o =>
  simp only [Res.ok_bind, Res.pure_eq]
  have h1 : (mem.take b).length = b := by rw [List.length_take]; omega
  rw [List.drop_left' h1, seenAt_bind]
  cases seckeyVerify o with
  | ub => rfl
  | abort => rfl
  | ok v =>
  simp only [Res.ok_bind]
  cases v
  · simp only [Bool.not_false, if_true]
    rw [memset, memset]
    by_cases hz : 0 + 32 ≤ o.length
    · rw [if_pos (by rw [List.length_append]; omega), if_pos hz]
      simp only [Res.ok_bind, seenAt, List.take_zero, List.nil_append, Nat.zero_add]
      rw [List.take_left' h1, List.append_assoc, List.drop_append, h1, List.drop_of_length_le (by omega), List.nil_append,
        Nat.add_sub_cancel_left]
    · rw [if_neg (by rw [List.length_append]; omega), if_neg hz]; rfl
  · simp only [Bool.not_true]; rfl

theorem memset_put (mem : List Byte) (b k : Nat) (h : b + k ≤ mem.length) :
    memset mem b 0#8 k = .ok (_root_.put mem b (List.replicate k 0#8)) := by
  rw [memset, if_pos h, _root_.put, List.length_replicate]

theorem keyDecode_eq (mem : List Byte) (a len b : Nat) (hb : b + 32 ≤ mem.length) (hd : b + 32 ≤ a ∨ a + len ≤ b)
    (hl : a + len ≤ mem.length) : keyDecode mem a len b = seenAt (mem.take b) (importDer (mem.drop b) (view mem a len) len) := by
  have hz : (List.replicate 32 0#8).length = 32 := List.length_replicate
  have h1 : (mem.take b).length = b := by rw [List.length_take]; omega
  have hlen : (_root_.put mem b (List.replicate 32 0#8)).length = mem.length := by
    rw [_root_.put]; simp only [List.length_append, List.length_take, List.length_drop, List.length_replicate]; omega
  have ht : (_root_.put mem b (List.replicate 32 0#8)).take b = mem.take b := by
    rw [_root_.put, List.append_assoc, List.take_left' h1]
  have hdr : (_root_.put mem b (List.replicate 32 0#8)).drop b = List.replicate 32 0#8 ++ (mem.drop b).drop 32 := by
    rw [_root_.put, List.append_assoc, List.drop_left' h1, List.length_replicate, List.drop_drop]
  rw [keyDecode, importDer, memset_put mem b 32 hb, memset_all _ _ _ (by rw [List.length_drop]; omega)]
  simp only [Res.ok_bind]
  rw [view_put mem b a len _ (by rw [hz]; exact hb) (by rw [hz]; exact hd)]
  have hbody : ∀ pos, importBody (_root_.put mem b (List.replicate 32 0#8)) a len b pos =
      seenAt (mem.take b) (Key.importBody (List.replicate 32 0#8 ++ (mem.drop b).drop 32) (view mem a len) len pos) := by
    intro pos
    rw [importBody_eq _ a len b pos (by omega) hd (by omega), ht, hdr,
      view_put mem b a len _ (by rw [hz]; exact hb) (by rw [hz]; exact hd)]
  have hp : mem.take b ++ (List.replicate 32 0#8 ++ (mem.drop b).drop 32) = _root_.put mem b (List.replicate 32 0#8) := by
    rw [← hdr, ← ht, List.take_append_drop]
  have hf : Res.ok (_root_.put mem b (List.replicate 32 0#8), false) =
      seenAt (mem.take b) (.ok (List.replicate 32 0#8 ++ (mem.drop b).drop 32, false)) := by
    rw [seenAt, hp]
  generalize _root_.put mem b (List.replicate 32 0#8) = mem1 at *
  generalize List.replicate 32 0#8 ++ (mem.drop b).drop 32 = out1 at *
  generalize view mem a len = inp at *
  simp only [Res.pure_eq, hf]
  by_cases c1 : len < 0 + 1
  · rw [if_pos c1, if_pos c1]
  rw [if_neg c1, if_neg c1, seenAt_bind]
  congr 1; funext t
  by_cases c2 : t ≠ 0x30#8
  · rw [if_pos c2, if_pos c2]
  rw [if_neg c2, if_neg c2]
  by_cases c3 : len < 1 + 1
  · rw [if_pos c3, if_pos c3]
  rw [if_neg c3, if_neg c3, seenAt_bind]
  congr 1; funext c
  by_cases c4 : c &&& 0x80#8 = 0#8
  · rw [if_pos c4, if_pos c4]
  rw [if_neg c4, if_neg c4]
  by_cases c5 : (c &&& 0x7F#8).toNat < 1 ∨ (c &&& 0x7F#8).toNat > 2
  · rw [if_pos c5, if_pos c5]
  rw [if_neg c5, if_neg c5]
  by_cases c6 : len < 2 + (c &&& 0x7F#8).toNat
  · rw [if_pos c6, if_pos c6]
  rw [if_neg c6, if_neg c6, seenAt_bind]
  congr 1; funext lo
  have fin : ∀ hi : Byte, (if len < 2 + (c &&& 0x7F#8).toNat + (hi.toNat * 256 + lo.toNat) then
        seenAt (mem.take b) (.ok (out1, false)) else importBody mem1 a len b (2 + (c &&& 0x7F#8).toNat)) =
      seenAt (mem.take b) (if len < 2 + (c &&& 0x7F#8).toNat + (hi.toNat * 256 + lo.toNat) then .ok (out1, false)
        else Key.importBody out1 inp len (2 + (c &&& 0x7F#8).toNat)) := by
    intro hi
    by_cases c7 : len < 2 + (c &&& 0x7F#8).toNat + (hi.toNat * 256 + lo.toNat)
    · rw [if_pos c7, if_pos c7]
    · rw [if_neg c7, if_neg c7]; exact hbody _
  by_cases c8 : (c &&& 0x7F#8).toNat > 1
  · rw [if_pos c8, if_pos c8, seenAt_bind]
    congr 1; funext hi; exact fin hi
  · rw [if_neg c8, if_neg c8, seenAt_bind]
    congr 1; funext hi; exact fin hi

theorem put_at (mem : List Byte) (b : Nat) (w : List Byte) : mem.take b ++ over w (mem.drop b) = _root_.put mem b w :=
  put_over mem w b

end InPlace

/-- C106 (decoding a key, separate places). Where the 32 bytes of the result do not overlap the encoding, the result is the key that is
encoded, or 32 zeros, as if the encoding were elsewhere; nothing else changes. -/
theorem C106_key_decode_separate_partial (mem : List Byte) (a len b : Nat) (hl : a + len ≤ mem.length) (hb : b + 32 ≤ mem.length)
    (hd : b + 32 ≤ a ∨ a + len ≤ b) :
    InPlace.keyDecode mem a len b = .ok (match privateKey? (part mem a len) with
      | some k => if ValidKey k then (put mem b k, true) else (put mem b (List.replicate 32 0#8), false)
      | none => (put mem b (List.replicate 32 0#8), false)) := by
  rw [InPlace.keyDecode_eq mem a len b hb hd hl]
  have hv : (InPlace.view mem a len).length = len := InPlace.view_length mem a len hl
  have h := C48_key_decode_spec (InPlace.view mem a len) (mem.drop b) (by rw [List.length_drop]; omega)
  rw [keyDecode, hv] at h
  rw [h, show part mem a len = InPlace.view mem a len from rfl]
  cases privateKey? (InPlace.view mem a len) with
  | none => simp only [InPlace.seenAt, InPlace.put_at]
  | some k =>
    simp only []
    split <;> simp only [InPlace.seenAt, InPlace.put_at]

/-- C106 (decoding a key over its encoding: violated). If the result covers the first byte of the encoding - in particular if
`fingera_btc_key_decode(p, len, p)` is called - every encoding is refused, also that of a valid key, and 32 zeros take its place: the
function clears the result before it reads. -/
theorem C106_violated_key_decode_over_encoding (mem : List Byte) (a len b : Nat) (hb : b + 32 ≤ mem.length) (h1 : b ≤ a) (h2 : a < b + 32) :
    InPlace.keyDecode mem a len b = .ok (put mem b (List.replicate 32 0#8), false) := by
  rw [InPlace.keyDecode, InPlace.memset_put mem b 32 hb]
  simp only [Res.ok_bind]
  by_cases c1 : len < 0 + 1
  · rw [if_pos c1]; rfl
  have hr : rd (InPlace.view (put mem b (List.replicate 32 0#8)) a len) 0 = .ok 0#8 := by
    rw [rd, InPlace.view_get, if_pos (by omega), InPlace.put_get _ _ _ (by rw [List.length_replicate]; omega), if_neg (by omega),
      List.length_replicate, if_pos (by omega), List.getElem?_replicate_of_lt (by omega)]
  rw [if_neg c1, hr, Res.ok_bind, if_pos (by decide)]; rfl

namespace InPlace

theorem memcpy_put (mem : List Byte) (b k : Nat) (w : List Byte) (hw : w.length = k) (h : b + k ≤ mem.length) :
    memcpy mem b w k = .ok (_root_.put mem b w) := by
  rw [memcpy_ok _ _ _ _ (by omega) h, List.take_of_length_le (l := w) (by omega), _root_.put, hw]

theorem put_length (mem : List Byte) (b : Nat) (w : List Byte) (h : b + w.length ≤ mem.length) : (_root_.put mem b w).length = mem.length := by
  rw [_root_.put]; simp only [List.length_append, List.length_take, List.length_drop]; omega

theorem put_put (mem : List Byte) (b : Nat) (w v : List Byte) (h : b + w.length ≤ mem.length) (hv : w.length = v.length) :
    _root_.put (_root_.put mem b w) b v = _root_.put mem b v := by
  apply List.ext_getElem?
  intro i
  rw [put_get (_root_.put mem b w) _ _ (by rw [put_length _ _ _ h]; omega), put_get mem b v (by omega), put_get mem b w h, hv]
  split
  · rfl
  · split
    · rfl
    · rfl

/-- Writing right behind what has been written. -/
theorem put_append (mem : List Byte) (b : Nat) (w v : List Byte) (h : b + (w ++ v).length ≤ mem.length) :
    _root_.put (_root_.put mem b w) (b + w.length) v = _root_.put mem b (w ++ v) := by
  rw [List.length_append] at h
  apply List.ext_getElem?
  intro i
  rw [put_get _ _ _ (by rw [put_length _ _ _ (by omega)]; omega), put_get _ _ _ (by omega),
    put_get _ _ _ (by rw [List.length_append]; omega), List.length_append]
  by_cases h1 : i < b
  · rw [if_pos (by omega), if_pos h1, if_pos h1]
  · rw [if_neg h1, if_neg h1]
    by_cases h2 : i < b + w.length
    · rw [if_pos h2, if_pos h2, if_pos (by omega), List.getElem?_append_left (by omega)]
    · rw [if_neg h2, if_neg h2]
      by_cases h3 : i < b + w.length + v.length
      · rw [if_pos h3, if_pos (by omega), List.getElem?_append_right (by omega)]; congr 1; omega
      · rw [if_neg h3, if_neg (by omega)]

end InPlace

/-- C106 (decoding a signature, separate places). `repr` is the layout of a signature in memory. -/
theorem C106_signature_decode_separate_partial (repr : Sig → List Byte) (hr : ∀ s, (repr s).length = 64) (mem : List Byte)
    (a len b : Nat) (hb : b + 64 ≤ mem.length) (hl : a + len ≤ mem.length) (hlen : len < 2 ^ 64) (hd : b + 64 ≤ a ∨ a + len ≤ b) :
    InPlace.signatureDecode repr mem a len b = .ok (match signature? (part mem a len) with
      | none => (put mem b (repr ⟨0, 0⟩), false)
      | some (r, s) => (put mem b (repr (if r < n ∧ s < n then ⟨r, s⟩ else ⟨0, 0⟩)), true)) := by
  rw [InPlace.signatureDecode, InPlace.memcpy_put _ _ _ _ (hr _) hb, Res.ok_bind,
    InPlace.view_put mem b a len _ (by rw [hr]; exact hb) (by rw [hr]; exact hd)]
  have hv : (InPlace.view mem a len).length = len := InPlace.view_length mem a len hl
  have h := C49_signature_decode_spec (InPlace.view mem a len) (by omega)
  rw [signatureDecode, hv] at h
  rw [h, show part mem a len = InPlace.view mem a len from rfl]
  have hs : ∀ s, memcpy (put mem b (repr ⟨0, 0⟩)) b (repr s) 64 = .ok (put mem b (repr s)) := fun s => by
    rw [InPlace.memcpy_put _ _ _ _ (hr _) (by rw [InPlace.put_length _ _ _ (by rw [hr]; exact hb)]; exact hb),
      InPlace.put_put _ _ _ _ (by rw [hr]; exact hb) (by rw [hr, hr])]
  cases signature? (InPlace.view mem a len) with
  | none => simp only [Res.ok_bind, hs, Res.pure_eq]
  | some p => simp only [Res.ok_bind, hs, Res.pure_eq]

/-- C106 (decoding a signature over its encoding: violated). That (0, 0) consists of zeros is what libsecp256k1 does.  If the result
covers the first byte of the encoding, 0 is returned for every encoding and (0, 0) takes its place. -/
theorem C106_violated_signature_decode_over_encoding (repr : Sig → List Byte) (hz : repr ⟨0, 0⟩ = List.replicate 64 0#8)
    (mem : List Byte) (a len b : Nat) (hb : b + 64 ≤ mem.length) (hl : a + len ≤ mem.length) (hlen : len < 2 ^ 64)
    (h1 : b ≤ a) (h2 : a < b + 64) :
    InPlace.signatureDecode repr mem a len b = .ok (put mem b (repr ⟨0, 0⟩), false) := by
  have hr : (repr ⟨0, 0⟩).length = 64 := by rw [hz, List.length_replicate]
  rw [InPlace.signatureDecode, InPlace.memcpy_put _ _ _ _ hr hb, Res.ok_bind]
  have hpl := InPlace.put_length mem b (repr ⟨0, 0⟩) (by omega)
  have hv : (InPlace.view (put mem b (repr ⟨0, 0⟩)) a len).length = len := InPlace.view_length _ a len (by omega)
  have h := C49_signature_decode_spec (InPlace.view (put mem b (repr ⟨0, 0⟩)) a len) (by omega)
  rw [signatureDecode, hv] at h
  have hn : signature? (InPlace.view (put mem b (repr ⟨0, 0⟩)) a len) = none := by
    match hw : InPlace.view (put mem b (repr ⟨0, 0⟩)) a len with
    | [] => rfl
    | c :: rest =>
      have hc : c = 0#8 := by
        have e : (c :: rest)[0]? = some 0#8 := by
          rw [← hw, InPlace.view_get, if_pos (by rw [← hv, hw]; simp), InPlace.put_get _ _ _ (by omega), if_neg (by omega), if_pos (by omega), hz,
            List.getElem?_replicate_of_lt (by omega)]
        exact Option.some.inj e
      subst hc
      match rest with
      | [] => rfl
      | _ :: _ => simp [signature?, sequence?]
  rw [h, hn]
  simp only [Res.ok_bind]
  rw [InPlace.memcpy_put _ _ _ _ hr (by omega), InPlace.put_put _ _ _ _ (by omega) rfl]; rfl

namespace InPlace

theorem exportWrite_eq (nd : Bool) (mem : List Byte) (a b : Nat) (begin middle : List Byte) (x y len total : Nat) (c : Bool)
    (hc : len = if c then 33 else 65) (ht : total = begin.length + 32 + middle.length + len) (ho : b + total ≤ mem.length)
    (ha : a + 32 ≤ mem.length) :
    exportWrite nd mem a b begin middle (some (x, y)) len total c =
      (if b + begin.length + 32 ≤ a ∨ a + 32 ≤ b + begin.length then
        .ok (_root_.put mem b (begin ++ view (_root_.put mem b begin) a 32 ++ middle ++ (if c then compressed x y else uncompressed x y)), total, true)
      else .ub) := by
  have he : (if c then compressed x y else uncompressed x y).length = len := by
    rw [hc]; cases c <;> simp [compressed_length, uncompressed_length]
  generalize hE : (if c then compressed x y else uncompressed x y) = e at *
  have l1 : (_root_.put mem b begin).length = mem.length := put_length _ _ _ (by omega)
  have l2 : (view (_root_.put mem b begin) a 32).length = 32 := view_length _ _ _ (by omega)
  rw [exportWrite, memcpy_put _ _ _ _ rfl (by omega), Res.ok_bind, memcpyIn]
  by_cases hd : b + begin.length + 32 ≤ a ∨ a + 32 ≤ b + begin.length
  swap
  · rw [if_neg (by omega), if_neg hd]; rfl
  rw [if_pos (by omega), if_pos hd]
  have h2 : memcpy (_root_.put mem b begin) (b + begin.length) ((_root_.put mem b begin).drop a) 32 =
      .ok (_root_.put mem b (begin ++ view (_root_.put mem b begin) a 32)) := by
    rw [← put_append _ _ _ _ (by rw [List.length_append, l2]; omega), memcpy_ok _ _ _ _ (by rw [List.length_drop]; omega) (by omega)]
    rw [_root_.put.eq_1 (_root_.put mem b begin) (b + begin.length), l2]; rfl
  rw [h2, Res.ok_bind]
  generalize view (_root_.put mem b begin) a 32 = k at *
  have h3 : memcpy (_root_.put mem b (begin ++ k)) (b + (begin.length + 32)) middle middle.length =
      .ok (_root_.put mem b (begin ++ k ++ middle)) := by
    rw [memcpy_put _ _ _ _ rfl (by rw [put_length _ _ _ (by rw [List.length_append]; omega)]; omega),
      ← put_append mem b (begin ++ k) middle (by simp only [List.length_append]; omega), List.length_append, l2]
  rw [h3, Res.ok_bind]
  simp only []
  have l3 : (begin ++ k ++ middle).length = begin.length + 32 + middle.length := by simp only [List.length_append]; omega
  have l4 : (_root_.put mem b (begin ++ k ++ middle)).length = mem.length := put_length _ _ _ (by omega)
  rw [serialize_eq _ len x y c hc (by rw [List.length_drop]; omega), hE]
  simp only [Res.ok_bind]
  rw [show assertNd nd (begin.length + 32 + middle.length + len == total) = .ok () by
    rw [ht]; cases nd <;> simp [assertNd, assertC], Res.ok_bind, ← ht, ← l3, put_at, put_append _ _ _ _ (by rw [List.length_append]; omega)]
  rfl

theorem pubkeyCreate_view (mem : List Byte) (a : Nat) (h : a + 32 ≤ mem.length) : pubkeyCreate (mem.drop a) = pubkeyCreate (view mem a 32) := by
  have e : get32 (mem.drop a) 0 = get32 (view mem a 32) 0 := by
    rw [get32, get32, if_pos (by rw [List.length_drop]; omega), if_pos (by rw [view_length _ _ _ h])]
    rw [List.drop_zero, List.drop_zero, view, List.take_take]; rfl
  rw [pubkeyCreate, pubkeyCreate, e]

end InPlace

/-- C106 (encoding a key, all positions). `fingera_btc_key_encode(obj + a, obj + b, len)` with a valid key `k` at `a`.  Let `E` be the
encoding of `k`; its header takes `h` bytes, then comes the key.  If the key's own place overlaps the place of the key in the encoding,
behaviour is undefined (`memcpy` of overlapping places).  Otherwise the encoding of the key is written - except that the key in it is what
stands at `a` after the header was written. -/
theorem C106_key_encode_positions (nd : Bool) (mem : List Byte) (a b : Nat) (compr : Bool) (ha : a + 32 ≤ mem.length)
    (hb : b + (if compr then 214 else 279) ≤ mem.length) (hv : ValidKey (part mem a 32)) :
    let E := ecPrivateKey (part mem a 32) compr
    let h := if compr then 8 else 9
    InPlace.keyEncode nd mem a b (if compr then 214 else 279) =
      if b + h + 32 ≤ a ∨ a + 32 ≤ b + h then
        .ok (put mem b (E.take h ++ part (put mem b (E.take h)) a 32 ++ E.drop (h + 32)), true)
      else .ub := by
  obtain ⟨x, y, h1, h2, h3⟩ := pubkeyCreate_valid _ hv
  have hk := hv.1
  have l1 : middleCompressed.length = 141 := by decide +kernel
  have l2 : middleUncompressed.length = 173 := by decide +kernel
  have l3 : beginCompressed.length = 8 := by decide +kernel
  have l4 : beginUncompressed.length = 9 := by decide +kernel
  have hp : pubkeyCreate (mem.drop a) = .ok (some (x, y), true) := by rw [InPlace.pubkeyCreate_view _ _ ha]; exact h1
  intro E h
  cases compr with
  | true =>
    simp only [if_true] at hb ⊢
    have hE : E = beginCompressed ++ part mem a 32 ++ middleCompressed ++ compressed x y := ecPrivateKey_compressed _ hk x y h2
    have e1 : E.take h = beginCompressed := by
      rw [hE, List.append_assoc, List.append_assoc]; exact List.take_left' l3
    have e2 : E.drop (h + 32) = middleCompressed ++ compressed x y := by
      rw [hE, List.append_assoc]; exact List.drop_left' (by rw [List.length_append, l3, hk]; rfl)
    have he := InPlace.exportWrite_eq nd mem a b beginCompressed middleCompressed x y 33 214 true rfl (by rw [l1, l3]) hb ha
    rw [InPlace.keyEncode, show assertNd nd ((214:Nat) == 279 || (214:Nat) == 214) = .ok () by cases nd <;> rfl, Res.ok_bind,
      if_neg (by simp), InPlace.exportDer, hp, Res.ok_bind]
    simp only [Bool.not_true, Bool.false_eq_true, if_false, beq_self_eq_true, if_true]
    rw [show assertNd nd (decide ((214:Nat) ≥ 214)) = .ok () by cases nd <;> rfl, Res.ok_bind, he, e1, e2, l3]
    by_cases hd : b + 8 + 32 ≤ a ∨ a + 32 ≤ b + 8
    · rw [if_pos hd, if_pos (show b + h + 32 ≤ a ∨ a + 32 ≤ b + h from hd)]
      simp only [Res.ok_bind, if_true, List.append_assoc]
      cases nd <;> rfl
    · rw [if_neg hd, if_neg (show ¬ (b + h + 32 ≤ a ∨ a + 32 ≤ b + h) from hd)]; rfl
  | false =>
    simp only [Bool.false_eq_true, if_false] at hb ⊢
    have hE : E = beginUncompressed ++ part mem a 32 ++ middleUncompressed ++ uncompressed x y := ecPrivateKey_uncompressed _ hk x y h2
    have e1 : E.take h = beginUncompressed := by
      rw [hE, List.append_assoc, List.append_assoc]; exact List.take_left' l4
    have e2 : E.drop (h + 32) = middleUncompressed ++ uncompressed x y := by
      rw [hE, List.append_assoc]; exact List.drop_left' (by rw [List.length_append, l4, hk]; rfl)
    have he := InPlace.exportWrite_eq nd mem a b beginUncompressed middleUncompressed x y 65 279 false rfl (by rw [l2, l4]) hb ha
    rw [InPlace.keyEncode, show assertNd nd ((279:Nat) == 279 || (279:Nat) == 214) = .ok () by cases nd <;> rfl, Res.ok_bind,
      if_neg (by simp), InPlace.exportDer, hp, Res.ok_bind, show ((279:Nat) == 214) = false from rfl]
    simp only [Bool.not_true, Bool.false_eq_true, if_false]
    rw [show assertNd nd (decide ((279:Nat) ≥ 279)) = .ok () by cases nd <;> rfl, Res.ok_bind, he, e1, e2, l4]
    by_cases hd : b + 9 + 32 ≤ a ∨ a + 32 ≤ b + 9
    · rw [if_pos hd, if_pos (show b + h + 32 ≤ a ∨ a + 32 ≤ b + h from hd)]
      simp only [Res.ok_bind, if_true, List.append_assoc]
      cases nd <;> rfl
    · rw [if_neg hd, if_neg (show ¬ (b + h + 32 ≤ a ∨ a + 32 ≤ b + h) from hd)]; rfl

/-- The encoding is its header, the key and the rest. -/
theorem InPlace.ecPrivateKey_parts (key : List Byte) (compr : Bool) (hv : ValidKey key) :
    (ecPrivateKey key compr).length = (if compr then 214 else 279) ∧
    (ecPrivateKey key compr).take (if compr then 8 else 9) ++ key ++ (ecPrivateKey key compr).drop ((if compr then 8 else 9) + 32) =
      ecPrivateKey key compr := by
  obtain ⟨x, y, h1, h2, h3⟩ := pubkeyCreate_valid key hv
  refine ⟨(C47_key_encode true key (List.replicate 279 0#8) compr hv (by rw [List.length_replicate]; cases compr <;> decide)).1, ?_⟩
  have hk := hv.1
  have l3 : beginCompressed.length = 8 := by decide +kernel
  have l4 : beginUncompressed.length = 9 := by decide +kernel
  cases compr with
  | true =>
    rw [ecPrivateKey_compressed _ hk x y h2]
    simp only [if_true, List.append_assoc]
    rw [List.take_left' l3, ← List.append_assoc beginCompressed key, ← List.append_assoc beginCompressed key,
      List.drop_left' (by rw [List.length_append, l3, hk])]
  | false =>
    rw [ecPrivateKey_uncompressed _ hk x y h2]
    simp only [Bool.false_eq_true, if_false, List.append_assoc]
    rw [List.take_left' l4, ← List.append_assoc beginUncompressed key, ← List.append_assoc beginUncompressed key,
      List.drop_left' (by rw [List.length_append, l4, hk])]

/-- C106 (encoding a key, good positions). If the key lies in front of the encoding, or behind its first 40 (41) bytes - also where the
rest of the encoding will be written - the encoding is that of the key as it was. -/
theorem C106_key_encode_partial (nd : Bool) (mem : List Byte) (a b : Nat) (compr : Bool) (ha : a + 32 ≤ mem.length)
    (hb : b + (if compr then 214 else 279) ≤ mem.length) (hv : ValidKey (part mem a 32))
    (hd : b + (if compr then 40 else 41) ≤ a ∨ a + 32 ≤ b) :
    InPlace.keyEncode nd mem a b (if compr then 214 else 279) = .ok (put mem b (ecPrivateKey (part mem a 32) compr), true) := by
  obtain ⟨hl, hp⟩ := InPlace.ecPrivateKey_parts _ compr hv
  rw [C106_key_encode_positions nd mem a b compr ha hb hv]
  have hw : ((ecPrivateKey (part mem a 32) compr).take (if compr then 8 else 9)).length = if compr then 8 else 9 := by
    rw [List.length_take, hl]; cases compr <;> rfl
  have hq : part (put mem b ((ecPrivateKey (part mem a 32) compr).take (if compr then 8 else 9))) a 32 = part mem a 32 :=
    InPlace.view_put mem b a 32 _ (by rw [hw]; cases compr <;> simp at hb ⊢ <;> omega) (by rw [hw]; cases compr <;> simp at hd ⊢ <;> omega)
  rw [if_pos (by cases compr <;> simp at hd ⊢ <;> omega), hq, hp]

/-- C106 (encoding a key: violated, silently). If the key's last bytes lie where the header of the encoding goes, the call returns 1 and
leaves the encoding of another key: the last bytes of the key have become those of the header (the public key is still the right one). -/
theorem C106_violated_key_encode_header (nd : Bool) (mem : List Byte) (a b : Nat) (compr : Bool) (ha : a + 32 ≤ mem.length)
    (hb : b + (if compr then 214 else 279) ≤ mem.length) (hv : ValidKey (part mem a 32)) (h1 : b < a + 32)
    (h2 : a + 32 ≤ b + (if compr then 8 else 9)) :
    let E := ecPrivateKey (part mem a 32) compr
    let h := if compr then 8 else 9
    InPlace.keyEncode nd mem a b (if compr then 214 else 279) =
      .ok (put mem b (E.take h ++ ((part mem a 32).take (b - a) ++ E.take (a + 32 - b)) ++ E.drop (h + 32)), true) := by
  obtain ⟨hl, hp⟩ := InPlace.ecPrivateKey_parts _ compr hv
  intro E h
  have hw : (E.take h).length = h := by
    rw [List.length_take, hl]; cases compr <;> rfl
  rw [C106_key_encode_positions nd mem a b compr ha hb hv, if_pos (Or.inr h2)]
  have hq : part (put mem b (E.take h)) a 32 = (part mem a 32).take (b - a) ++ E.take (a + 32 - b) := by
    have hh : a + 32 ≤ b + h := h2
    have hle : h ≤ 9 := by cases compr <;> decide
    have hbb : b + h ≤ mem.length := by
      refine Nat.le_trans (Nat.add_le_add_left ?_ b) hb
      cases compr <;> decide
    have hk : ((part mem a 32).take (b - a)).length = b - a := by
      rw [part, List.length_take, List.length_take, List.length_drop]; omega
    apply List.ext_getElem?
    intro i
    rw [show part (put mem b (E.take h)) a 32 = InPlace.view (put mem b (E.take h)) a 32 from rfl, InPlace.view_get,
      InPlace.put_get _ _ _ (by rw [hw]; exact hbb), hw]
    by_cases hi : i < 32
    · rw [if_pos hi]
      by_cases hi2 : a + i < b
      · rw [if_pos hi2, List.getElem?_append_left (by omega), List.getElem?_take_of_lt (by omega)]
        rw [show part mem a 32 = InPlace.view mem a 32 from rfl, InPlace.view_get, if_pos hi]
      · rw [if_neg hi2, if_pos (by omega), List.getElem?_append_right (by omega), hk, List.getElem?_take_of_lt (by omega),
          List.getElem?_take_of_lt (by omega)]
        congr 1; omega
    · rw [if_neg hi, List.getElem?_append_right (by omega), hk, List.getElem?_take_eq_none (by omega)]
  rw [hq]
