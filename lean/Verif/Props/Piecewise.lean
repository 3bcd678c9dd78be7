import Verif.Props.Hex
import Verif.Props.Base64
import Verif.Props.Base32
/-! C88: a long text may be produced and read piece by piece, if the pieces end at the boundaries of groups. -/
namespace Piecewise

theorem over_append (A B o p : List Byte) (h : A.length = o.length) : over (A ++ B) (o ++ p) = over A o ++ over B p := by
  simp only [over, List.length_append, h, List.drop_append, List.drop_length, List.append_assoc,
    List.append_nil]
  rw [List.drop_of_length_le (by omega), List.nil_append, Nat.add_sub_cancel_left]

theorem hex_encode_append (u : Bool) (a b : List Byte) : HexSpec.encode u (a ++ b) = HexSpec.encode u a ++ HexSpec.encode u b := by
  simp [HexSpec.encode]

theorem base64_encode_append (a b : List Byte) (h : a.length % 3 = 0) :
    Base64Spec.encode (a ++ b) = Base64Spec.encode a ++ Base64Spec.encode b := by
  have e := Base64.encodeRaw_append false (a.length / 3) a b (by omega)
  have l : (Base64Spec.encodeRaw false a).length % 4 = 0 := by rw [Base64.encodeRaw_length]; omega
  simp only [Base64Spec.encode, e, List.length_append]
  have l2 : ((Base64Spec.encodeRaw false a).length + (Base64Spec.encodeRaw false b).length) % 4 =
      (Base64Spec.encodeRaw false b).length % 4 := by omega
  rw [l2, l]; simp

theorem base32_encode_append (a b : List Byte) (h : a.length % 5 = 0) :
    Base32Spec.encode (a ++ b) = Base32Spec.encode a ++ Base32Spec.encode b := by
  have e : (BaseN.digitsOf 5 (a ++ b)) = BaseN.digitsOf 5 a ++ BaseN.digitsOf 5 b :=
    BaseN.digitsOf_append 5 (8 * (a.length / 5)) a b (by omega) (by omega)
  have l : ((BaseN.digitsOf 5 a).map Base32Spec.char).length % 8 = 0 := by
    have := (C09_to_base32_raw a (List.replicate ((8 * a.length + 4) / 5) 0) (by simp)).2.1
    rw [Base32Spec.encodeRaw, List.length_map] at this
    rw [List.length_map, this]; omega
  simp only [Base32Spec.encode, e, List.map_append, List.length_append]
  have l2 : (((BaseN.digitsOf 5 a).map Base32Spec.char).length + ((BaseN.digitsOf 5 b).map Base32Spec.char).length) % 8 =
      ((BaseN.digitsOf 5 b).map Base32Spec.char).length % 8 := by omega
  rw [l2, l]; simp

theorem base32_raw_append (a b : List Byte) (h : a.length % 5 = 0) :
    Base32Spec.encodeRaw (a ++ b) = Base32Spec.encodeRaw a ++ Base32Spec.encodeRaw b := by
  rw [Base32Spec.encodeRaw, BaseN.digitsOf_append 5 (8 * (a.length / 5)) a b (by omega) (by omega), List.map_append]; rfl

theorem hex_decode_append (s t : List Byte) (h : 2 * (HexSpec.decode s).length = s.length) :
    HexSpec.decode (s ++ t) = HexSpec.decode s ++ HexSpec.decode t := by
  have : ∀ n, ∀ s : List Byte, s.length ≤ n → 2 * (HexSpec.decode s).length = s.length →
      HexSpec.decode (s ++ t) = HexSpec.decode s ++ HexSpec.decode t := by
    intro n
    induction n with
    | zero => intro s hn h; have : s = [] := by simpa using hn
              subst this; simp [HexSpec.decode]
    | succ n ih =>
      intro s hn h
      match s with
      | [] => simp [HexSpec.decode]
      | [a] => simp [HexSpec.decode] at h
      | a :: b :: r =>
        simp only [HexSpec.decode, List.cons_append] at h ⊢
        split at h
        · rename_i x y hx hy
          simp only [List.length_cons] at h hn
          simp only [List.cons_append, List.cons.injEq, true_and]
          exact ih r (by omega) (by omega)
        · simp at h
  exact this _ s (Nat.le_refl _) h

theorem legalGroups_append (g : Nat) (val : Byte → Option Nat) (hg : 0 < g) (m : Nat) (s t : List Byte) (hm : s.length = m * g)
    (h : ∀ c ∈ s, (val c).isSome) :
    BaseN.legalGroups g val (s ++ t) = BaseN.legalGroups g val s ++ BaseN.legalGroups g val t := by
  induction m generalizing s with
  | zero => have : s = [] := by simpa using hm
            subst this; simp
  | succ m ih =>
    have hs : s = s.take g ++ s.drop g := (List.take_append_drop g s).symm
    have hl : (s.take g).length = g := by rw [List.length_take, hm, Nat.succ_mul]; omega
    have hall : (s.take g).all (fun x => (val x).isSome) = true := by
      rw [List.all_eq_true]; intro x hx; exact h x (List.mem_of_mem_take hx)
    have i := ih (s.drop g) (by rw [List.length_drop, hm, Nat.succ_mul]; omega) (fun c hc => h c (List.mem_of_mem_drop hc))
    have e1 := BaseN.legalGroups_cons g val (s.take g) (s.drop g ++ t) hg hl
    have e2 := BaseN.legalGroups_cons g val (s.take g) (s.drop g) hg hl
    rw [if_pos hall] at e1 e2
    rw [← List.append_assoc, List.take_append_drop] at e1
    rw [List.take_append_drop] at e2
    rw [e1, e2, i, List.append_assoc]

theorem base64_decode_append (url : Bool) (s t : List Byte) (hm : s.length % 4 = 0)
    (h : (Base64Spec.decodeRaw url s).length = Base64.fromBase64UrlsafeLength s.length) :
    Base64Spec.decodeRaw url (s ++ t) = Base64Spec.decodeRaw url s ++ Base64Spec.decodeRaw url t := by
  have hall := (full_length_iff url s).mp h
  rw [lookedAt, if_neg (by omega)] at hall
  have hall' : ∀ c ∈ s, (Base64Spec.decodeValue? url c).isSome := fun c hc => Option.isSome_iff_ne_none.mpr (hall c hc)
  rw [Base64Spec.decodeRaw, legalGroups_append 4 _ (by omega) (s.length / 4) s t (by omega) hall',
    BaseN.legalGroups_all 4 _ s (by omega) hall']
  have len : (s.filterMap (Base64Spec.decodeValue? url)).length = s.length := by
    clear h hm hall
    induction s with
    | nil => rfl
    | cons c s ih =>
      obtain ⟨v, hv⟩ := Option.isSome_iff_exists.mp (hall' c (by simp))
      rw [List.filterMap_cons_some hv, List.length_cons, ih (fun d hd => hall' d (by simp [hd])), List.length_cons]
  rw [BaseN.bytesOf_append 6 (6 * (s.length / 4) / 2) _ _ (by rw [len]; omega)]
  rw [Base64Spec.decodeRaw, BaseN.legalGroups_all 4 _ s (by omega) hall']; rfl

theorem length_append (a b : Nat) (h : a % 4 = 0) :
    Base64.fromBase64UrlsafeLength (a + b) = Base64.fromBase64UrlsafeLength a + Base64.fromBase64UrlsafeLength b := by
  have h4 : (a + b) % 4 = b % 4 := by omega
  have h5 : (a + b) / 4 = a / 4 + b / 4 := by omega
  simp only [Base64.fromBase64UrlsafeLength, h4, h5, h]
  split
  · simp only [Nat.reduceEqDiff, if_false]; omega
  · split <;> simp only [Nat.reduceEqDiff, if_false] <;> omega

theorem strip_append (s t : List Byte) (h : s.getLast? ≠ some 61#8) : Base64Spec.strip (s ++ t) = s ++ Base64Spec.strip t := by
  rcases List.eq_nil_or_concat t with rfl | ⟨t', c, rfl⟩
  · rw [List.append_nil, Base64Spec.strip, if_neg h]; simp [Base64Spec.strip]
  · rw [List.concat_eq_append]
    simp only [Base64Spec.strip, ← List.append_assoc, List.getLast?_concat, List.dropLast_concat]
    split
    · rcases List.eq_nil_or_concat t' with rfl | ⟨t'', d, rfl⟩
      · simp only [List.append_nil, List.getLast?_nil]
        rw [if_neg h]; simp
      · simp only [List.concat_eq_append, ← List.append_assoc, List.getLast?_concat, List.dropLast_concat]
        split <;> simp
    · exact List.append_assoc _ _ _

end Piecewise
open Piecewise

/-- C88 (hexadecimal). The texts of two pieces of data, one behind the other, are the text of the whole data. -/
theorem C88_to_hex (a b o p r q : List Byte) (u : Bool) (ho : o.length = Hex.toHexLength a.length)
    (hp : Hex.toHexLength b.length ≤ p.length) (h1 : Hex.toHex a a.length o u = .ok r) (h2 : Hex.toHex b b.length p u = .ok q) :
    Hex.toHex (a ++ b) (a ++ b).length (o ++ p) u = .ok (r ++ q) := by
  have e1 := C01_to_hex_writes_spec a o u (by omega)
  have e2 := C01_to_hex_writes_spec b p u hp
  rw [e1.1] at h1
  rw [e2.1] at h2
  have l : Hex.toHexLength (a ++ b).length = Hex.toHexLength a.length + Hex.toHexLength b.length := by
    simp only [Hex.toHexLength, List.length_append]; omega
  rw [(C01_to_hex_writes_spec (a ++ b) (o ++ p) u (by rw [l, List.length_append]; omega)).1, hex_encode_append,
    over_append _ _ _ _ (by rw [e1.2, ho]), Res.ok.inj h1, Res.ok.inj h2]

/-- C88 (Base64). The same if the first piece has a multiple of three bytes. -/
theorem C88_to_base64 (a b o p r q : List Byte) (ha : a.length % 3 = 0) (ho : o.length = Base64.toBase64Length a.length)
    (hp : Base64.toBase64Length b.length ≤ p.length) (h1 : Base64.toBase64 a a.length o = .ok r)
    (h2 : Base64.toBase64 b b.length p = .ok q) :
    Base64.toBase64 (a ++ b) (a ++ b).length (o ++ p) = .ok (r ++ q) := by
  have e1 := C04_to_base64_rfc4648 a o (by omega)
  have e2 := C04_to_base64_rfc4648 b p hp
  rw [e1.1] at h1
  rw [e2.1] at h2
  have l : Base64.toBase64Length (a ++ b).length = Base64.toBase64Length a.length + Base64.toBase64Length b.length := by
    simp only [Base64.toBase64Length, List.length_append]; omega
  rw [(C04_to_base64_rfc4648 (a ++ b) (o ++ p) (by rw [l, List.length_append]; omega)).1, base64_encode_append _ _ ha,
    over_append _ _ _ _ (by rw [e1.2, ho]), Res.ok.inj h1, Res.ok.inj h2]

/-- C88 (URL-safe Base64). -/
theorem C88_to_base64_urlsafe (a b o p r q : List Byte) (ha : a.length % 3 = 0)
    (ho : o.length = Base64.toBase64UrlsafeLength a.length) (hp : Base64.toBase64UrlsafeLength b.length ≤ p.length)
    (h1 : Base64.toBase64Urlsafe a a.length o = .ok r) (h2 : Base64.toBase64Urlsafe b b.length p = .ok q) :
    Base64.toBase64Urlsafe (a ++ b) (a ++ b).length (o ++ p) = .ok (r ++ q) := by
  have e1 := C05_to_base64_urlsafe_rfc4648 a o (by omega)
  have e2 := C05_to_base64_urlsafe_rfc4648 b p hp
  rw [e1.1] at h1
  rw [e2.1] at h2
  have ea := Base64.encodeRaw_append true (a.length / 3) a b (by omega)
  have l : Base64.toBase64UrlsafeLength (a ++ b).length =
      Base64.toBase64UrlsafeLength a.length + Base64.toBase64UrlsafeLength b.length := by
    rw [← e1.2, ← e2.2, ← List.length_append, ← ea,
      (C05_to_base64_urlsafe_rfc4648 (a ++ b) (List.replicate (Base64.toBase64UrlsafeLength (a ++ b).length) 0) (by simp)).2]
  rw [(C05_to_base64_urlsafe_rfc4648 (a ++ b) (o ++ p) (by rw [l, List.length_append]; omega)).1, ea,
    over_append _ _ _ _ (by rw [e1.2, ho]), Res.ok.inj h1, Res.ok.inj h2]

/-- C88 (Base32). The same if the first piece has a multiple of five bytes. -/
theorem C88_to_base32 (a b o p r q : List Byte) (ha : a.length % 5 = 0) (ho : o.length = Base32.toBase32Length a.length)
    (hp : Base32.toBase32Length b.length ≤ p.length) (h1 : Base32.toBase32 a a.length o = .ok r)
    (h2 : Base32.toBase32 b b.length p = .ok q) :
    Base32.toBase32 (a ++ b) (a ++ b).length (o ++ p) = .ok (r ++ q) := by
  have e1 := C09_to_base32_rfc4648 a o (by omega)
  have e2 := C09_to_base32_rfc4648 b p hp
  rw [e1.1] at h1
  rw [e2.1] at h2
  have ea := base32_encode_append a b ha
  have l : Base32.toBase32Length (a ++ b).length = Base32.toBase32Length a.length + Base32.toBase32Length b.length := by
    rw [← e1.2, ← e2.2, ← List.length_append, ← ea,
      (C09_to_base32_rfc4648 (a ++ b) (List.replicate (Base32.toBase32Length (a ++ b).length) 0) (by simp)).2]
  rw [(C09_to_base32_rfc4648 (a ++ b) (o ++ p) (by rw [l, List.length_append]; omega)).1, ea,
    over_append _ _ _ _ (by rw [e1.2, ho]), Res.ok.inj h1, Res.ok.inj h2]

/-- C88 (groups of five bits). The numbers of groups add up too. -/
theorem C88_to_base32_raw (a b o p r q : List Byte) (n m : Nat) (ha : a.length % 5 = 0) (ho : o.length = (8 * a.length + 4) / 5)
    (hp : (8 * b.length + 4) / 5 ≤ p.length) (h1 : Base32.toBase32Raw a a.length o = .ok (r, n))
    (h2 : Base32.toBase32Raw b b.length p = .ok (q, m)) :
    Base32.toBase32Raw (a ++ b) (a ++ b).length (o ++ p) = .ok (r ++ q, n + m) := by
  have e1 := C09_to_base32_raw a o (by omega)
  have e2 := C09_to_base32_raw b p hp
  rw [e1.1] at h1
  rw [e2.1] at h2
  obtain ⟨h1a, h1b⟩ := Prod.mk.inj (Res.ok.inj h1)
  obtain ⟨h2a, h2b⟩ := Prod.mk.inj (Res.ok.inj h2)
  rw [(C09_to_base32_raw (a ++ b) (o ++ p) (by rw [List.length_append, List.length_append]; omega)).1, base32_raw_append _ _ ha,
    over_append _ _ _ _ (by rw [e1.2.1, ho]), h1a, h2a, List.length_append, h1b, h2b]

/-- C88 (reading hexadecimal). If the first piece of a text was read completely, reading the whole text gives what the first and
the second piece give one behind the other, and the numbers of bytes add up. -/
theorem C88_from_hex (s t o p r q : List Byte) (n m : Nat) (ho : 2 * o.length = s.length) (hp : t.length / 2 ≤ p.length)
    (h1 : Hex.fromHex s s.length o = .ok (r, n)) (hn : n = o.length) (h2 : Hex.fromHex t t.length p = .ok (q, m)) :
    Hex.fromHex (s ++ t) (s ++ t).length (o ++ p) = .ok (r ++ q, n + m) := by
  have e1 := (C02_from_hex_any s o s.length (Nat.le_refl _) (by omega)).1
  have e2 := (C02_from_hex_any t p t.length (Nat.le_refl _) hp).1
  rw [e1, List.take_length] at h1
  rw [e2, List.take_length] at h2
  obtain ⟨h1a, h1b⟩ := Prod.mk.inj (Res.ok.inj h1)
  obtain ⟨h2a, h2b⟩ := Prod.mk.inj (Res.ok.inj h2)
  have ed := hex_decode_append s t (by omega)
  rw [(C02_from_hex_any (s ++ t) (o ++ p) (s ++ t).length (Nat.le_refl _)
      (by rw [List.length_append, List.length_append]; omega)).1, List.take_length, ed,
    over_append _ _ _ _ (by omega), h1a, h2a, List.length_append, h1b, h2b]

/-- C88 (reading URL-safe Base64). The first piece has a multiple of four characters and is read completely. -/
theorem C88_from_base64_urlsafe (s t o p r q : List Byte) (n m : Nat) (hs : s.length % 4 = 0)
    (ho : o.length = Base64.fromBase64UrlsafeLength s.length) (hp : Base64.fromBase64UrlsafeLength t.length ≤ p.length)
    (h1 : Base64.fromBase64Urlsafe s s.length o = .ok (r, n)) (hn : n = o.length)
    (h2 : Base64.fromBase64Urlsafe t t.length p = .ok (q, m)) :
    Base64.fromBase64Urlsafe (s ++ t) (s ++ t).length (o ++ p) = .ok (r ++ q, n + m) := by
  have e1 := C08_base64_urlsafe_decode_content s o s.length (Nat.le_refl _) (by omega)
  have e2 := C08_base64_urlsafe_decode_content t p t.length (Nat.le_refl _) hp
  rw [e1, List.take_length] at h1
  rw [e2, List.take_length] at h2
  obtain ⟨h1a, h1b⟩ := Prod.mk.inj (Res.ok.inj h1)
  obtain ⟨h2a, h2b⟩ := Prod.mk.inj (Res.ok.inj h2)
  have ed := base64_decode_append true s t hs (by omega)
  have l : Base64.fromBase64UrlsafeLength (s ++ t).length =
      Base64.fromBase64UrlsafeLength s.length + Base64.fromBase64UrlsafeLength t.length := by
    rw [List.length_append, length_append _ _ hs]
  rw [C08_base64_urlsafe_decode_content (s ++ t) (o ++ p) (s ++ t).length (Nat.le_refl _)
      (by rw [l, List.length_append]; omega), List.take_length, ed,
    over_append _ _ _ _ (by omega), h1a, h2a, List.length_append, h1b, h2b]

/-- C88 (reading Base64). The first piece has a multiple of four characters, does not end in `=` and is read completely. -/
theorem C88_from_base64 (s t o p r q : List Byte) (n m k : Nat) (hs : s.length % 4 = 0) (hpad : s.getLast? ≠ some (chr '='))
    (ho : Base64.fromBase64Length s s.length = .ok o.length) (hk : Base64.fromBase64Length t t.length = .ok k) (hp : k ≤ p.length)
    (h1 : Base64.fromBase64 s s.length o = .ok (r, n)) (hn : n = o.length) (h2 : Base64.fromBase64 t t.length p = .ok (q, m)) :
    Base64.fromBase64Length (s ++ t) (s ++ t).length = .ok (o.length + k) ∧
    Base64.fromBase64 (s ++ t) (s ++ t).length (o ++ p) = .ok (r ++ q, n + m) := by
  have hc : chr '=' = 61#8 := by decide
  rw [hc] at hpad
  have es : Base64Spec.strip s = s := by rw [Base64Spec.strip, if_neg hpad]
  have len : ∀ x : List Byte, Base64.fromBase64Length x x.length =
      .ok (Base64.fromBase64UrlsafeLength (Base64Spec.strip x).length) := by
    intro x
    rw [Base64.fromBase64Length, Base64.stripLen_eq x x.length (Nat.le_refl _), List.take_length]; rfl
  have e1 := C08_base64_decode_content s o s.length (Nat.le_refl _) _ ho (Nat.le_refl _)
  have e2 := C08_base64_decode_content t p t.length (Nat.le_refl _) k hk hp
  rw [e1, List.take_length, es] at h1
  rw [e2, List.take_length] at h2
  rw [len, es] at ho
  rw [len] at hk
  have ho := Res.ok.inj ho
  have hk := Res.ok.inj hk
  obtain ⟨h1a, h1b⟩ := Prod.mk.inj (Res.ok.inj h1)
  obtain ⟨h2a, h2b⟩ := Prod.mk.inj (Res.ok.inj h2)
  have ed := base64_decode_append false s (Base64Spec.strip t) hs (by omega)
  have l : Base64.fromBase64Length (s ++ t) (s ++ t).length = .ok (o.length + k) := by
    rw [len, strip_append s t hpad, List.length_append, length_append _ _ hs, ho, hk]
  refine ⟨l, ?_⟩
  rw [C08_base64_decode_content (s ++ t) (o ++ p) (s ++ t).length (Nat.le_refl _) _ l
      (by rw [List.length_append]; omega), List.take_length, strip_append s t hpad, ed,
    over_append _ _ _ _ (by omega), h1a, h2a, List.length_append, h1b, h2b]

/-- Other places to cut do not work: one byte, then two bytes. -/
example : Base64.toBase64 (cstr "f") 1 (List.replicate 4 0) = .ok (cstr "Zg==") ∧
    Base64.toBase64 (cstr "oo") 2 (List.replicate 4 0) = .ok (cstr "b28=") ∧
    Base64.toBase64 (cstr "foo") 3 (List.replicate 4 0) = .ok (cstr "Zm9v") := by decide +kernel
/-- And a piece that ends in `=` may not be followed by another one: the padding is then read as digits. -/
example : Base64.fromBase64 (cstr "Zg==") 4 [0] = .ok (cstr "f", 1) ∧ Base64.fromBase64 (cstr "b28=") 4 [0, 0] = .ok (cstr "oo", 2) ∧
    Base64.fromBase64 (cstr "Zg==b28=") 8 (List.replicate 5 9) = .ok (cstr "f" ++ [0, 0] ++ cstr "oo", 5) := by decide +kernel
