import Verif.Lemmas.NeedDecode
import Verif.Props.Hex
import Verif.Props.Base64
import Verif.Props.Base32
import Verif.Props.Base32Total
import Verif.Props.Injective
import Verif.Props.Base58Total
import Verif.Props.Bech32
/-! Property theorems C95: the exact size of the output object every decoder needs, and C96: the verdict of the Bech32 decoder on every text. -/

/-- C95, hex: the bytes of the pairs before the first that is not hexadecimal, and not one less, whatever `fingera_from_hex_length` says. -/
theorem C95_from_hex (s post buf : List Byte) :
    Hex.fromHex (s ++ post) s.length buf =
      if (HexSpec.decode s).length ≤ buf.length then .ok (over (HexSpec.decode s) buf, (HexSpec.decode s).length) else .ub := by
  have := Hex.fromHex_total (s ++ post) buf s.length (by simp)
  rw [List.take_left] at this
  exact this

/-- C95, Base64: the bytes before the first group with a character outside the alphabet. -/
theorem C95_from_base64 (s post buf : List Byte) :
    Base64.fromBase64 (s ++ post) s.length buf =
      (if (Base64Spec.decodeRaw false (Base64Spec.strip s)).length ≤ buf.length then
        .ok (over (Base64Spec.decodeRaw false (Base64Spec.strip s)) buf, (Base64Spec.decodeRaw false (Base64Spec.strip s)).length)
      else .ub) ∧
    Base64.fromBase64Urlsafe (s ++ post) s.length buf =
      (if (Base64Spec.decodeRaw true s).length ≤ buf.length then
        .ok (over (Base64Spec.decodeRaw true s) buf, (Base64Spec.decodeRaw true s).length)
      else .ub) := by
  constructor
  · rw [Base64.fromBase64, Base64.stripLen_eq _ _ (by simp), List.take_left]
    simp only [Res.ok_bind]
    obtain ⟨m, hm, he⟩ := Base64.strip_take s
    have hl : (Base64Spec.strip s).length = m := by rw [he, List.length_take]; omega
    have ht : (s ++ post).take m = Base64Spec.strip s := by rw [he, List.take_append_of_le_length hm]
    have := Base64.fromBase64Impl_total (s ++ post) buf m false (by simp; omega)
    rw [ht] at this
    rw [hl]
    exact this
  · have := Base64.fromBase64Impl_total (s ++ post) buf s.length true (by simp)
    rw [List.take_left] at this
    exact this

/-- C95, Base32: the bytes `W` that large objects get (for a well-formed text the ones it denotes), and not one less. -/
theorem C95_from_base32 (cs : Bool) (s post : List Byte) (h : ∀ b ∈ s, b ≠ 0) (hcs : cs = true → ∀ b ∈ s, b.toNat < 128) :
    ∃ W, (∀ t, t = s.takeWhile (· ≠ chr '=') → (∀ c ∈ t, Base32Spec.value? c ≠ none) →
        (t.length % 8 = 0 ∨ t.length % 8 = 2 ∨ t.length % 8 = 4 ∨ t.length % 8 = 5 ∨ t.length % 8 = 7) →
        W = BaseN.bytesOf 5 (t.filterMap Base32Spec.value?)) ∧
      ∀ buf : List Byte, Base32.fromBase32 cs (s ++ 0 :: post) s.length buf =
        if W.length ≤ buf.length then .ok (over W buf, W.length) else .ub := by
  have hpre : s.takeWhile (· ≠ chr '=') <+: s := List.takeWhile_prefix _
  have htk : (s ++ 0 :: post).take (s.takeWhile (· ≠ chr '=')).length = s.takeWhile (· ≠ chr '=') := by
    rw [List.take_append_of_le_length hpre.length_le]
    exact (List.prefix_iff_eq_take.mp hpre).symm
  have hneg : ¬ ∃ b ∈ Base32.reads false (s.takeWhile (· ≠ chr '=')), Base32.Neg cs b := by
    rintro ⟨b, hb, hc, h128⟩
    obtain ⟨i, c, hi, h128', -, -⟩ := (Base32.reads_negative false _).mp ⟨b, hb, h128⟩
    have := hcs hc c (hpre.subset (List.mem_of_getElem? hi))
    omega
  have htot : ∀ buf : List Byte, Base32.fromBase32 cs (s ++ 0 :: post) s.length buf =
      if (Base32.decPure false (s.takeWhile (· ≠ chr '='))).length ≤ buf.length then
        .ok (over (Base32.decPure false (s.takeWhile (· ≠ chr '='))) buf, (Base32.decPure false (s.takeWhile (· ≠ chr '='))).length)
      else .ub := by
    intro buf
    rw [Base32.fromBase32, Base32.fromBase32Impl_total cs false _ buf s.length _ (strlen_nul s post h)
      (by have := hpre.length_le; simp only [List.length_append]; omega), htk]
    by_cases hf : (Base32.decPure false (s.takeWhile (· ≠ chr '='))).length ≤ buf.length
    · rw [if_pos hf, if_neg (by rintro (h | h); exact hneg h; omega)]
    · rw [if_neg hf, if_pos (.inr (by omega))]
  refine ⟨Base32.decPure false (s.takeWhile (· ≠ chr '=')), fun t ht hleg htail => ?_, htot⟩
  have hlen := fromBase32Length_eq s post h
  obtain ⟨W, e1, -, e2⟩ := C12_from_base32_partial cs s post
    (List.replicate (Base32.decLen (s.takeWhile (· ≠ chr '=')).length) 0#8) _ h hcs hlen (by simp)
  have := (e2 t ht).2 hleg htail
  rw [← this]
  have e3 := fromBase32_eq cs s post (List.replicate (Base32.decLen (s.takeWhile (· ≠ chr '=')).length) 0#8) h hcs (by simp)
  rw [e1] at e3
  obtain ⟨h1, h2⟩ := Prod.mk.inj (Res.ok.inj e3)
  exact (over_inj h1 h2).symm

/-- C95, Base58 and Base58Check: the bytes of the number the digits denote with its leading zeros; for Base58Check the four bytes of the
checksum are among them although only the others are counted in the result. -/
theorem C95_from_base58 (host : Host) (cs : Bool) (s post buf W : List Byte) (h0 : ∀ b ∈ s, b ≠ 0#8) (hl : ¬ Base58Spec.TooLong s)
    (hn : ¬ (cs = true ∧ Base58Spec.MeetsNegative s)) (hd : Base58Spec.decode? s = some W) :
    Base58.fromBase58 cs (s ++ 0#8 :: post) s.length buf =
      (if W.length ≤ buf.length then .ok (over W buf, W.length) else .ub) ∧
    Base58Check.fromBase58Check host cs (s ++ 0#8 :: post) s.length buf =
      (if W.length ≤ buf.length then .ok (over W buf, match Base58CheckSpec.check? W with | some p => p.length | none => 0) else .ub) := by
  obtain ⟨a1, a2⟩ := ((C16_from_base58_total cs s post buf h0).2 hl hn).2 W hd
  obtain ⟨b1, b2⟩ := ((C19_from_base58check_total host cs s post buf h0).2 hl hn).2 W hd
  by_cases hf : W.length ≤ buf.length
  · rw [if_pos hf, if_pos hf]; exact ⟨a1 hf, b1 hf⟩
  · rw [if_neg hf, if_neg hf]; exact ⟨a2 (by omega), b2 (by omega)⟩

namespace Bech32
open Bech32Spec

/-- The values of the leading characters of `l` that belong to the alphabet of Bech32, upper or lower case, are the list `v`. -/
def Leading (l v : List Byte) : Prop :=
  (∀ x ∈ v, x.toNat < 32) ∧ v.length ≤ l.length ∧ (l.take v.length).map lower = v.map char ∧
    (v.length < l.length → ∀ x : Byte, x.toNat < 32 → l[v.length]?.map lower ≠ some (char x))

theorem leading_vals (l : List Byte) : Leading l (vals l) := by
  induction l with
  | nil => exact ⟨by simp [vals], by simp [vals], by simp [vals], by simp⟩
  | cons c l ih =>
    cases hv : value? c with
    | none =>
      rw [vals_cons_none l hv]
      refine ⟨by simp, by simp, by simp, ?_⟩
      intro _ x hx h
      simp only [List.length_nil, List.getElem?_cons_zero, Option.map_some, Option.some.injEq] at h
      rw [value?_of c x hx h.symm] at hv
      cases hv
    | some v =>
      rw [vals_cons_some l hv]
      obtain ⟨h1, h2, h3, h4⟩ := ih
      obtain ⟨v1, v2⟩ := value?_some c v hv
      refine ⟨?_, ?_, ?_, ?_⟩
      · intro x hx
        rcases List.mem_cons.mp hx with rfl | hx
        · exact v1
        · exact h1 x hx
      · simp only [List.length_cons]; omega
      · simp only [List.length_cons, List.take_succ_cons, List.map_cons, h3, v2]
      · intro hlt x hx
        simp only [List.length_cons] at hlt
        rw [List.length_cons, List.getElem?_cons_succ]
        exact h4 (by omega) x hx

/-- There is only one such list. -/
theorem leading_unique (l v w : List Byte) (hv : Leading l v) (hw : Leading l w) : v = w := by
  have key : ∀ v w : List Byte, Leading l v → Leading l w → w.length ≤ v.length := by
    intro v w hv hw
    by_cases h : v.length < w.length
    · exfalso
      have hl : v.length < l.length := by have := hw.2.1; omega
      have h2 := congrArg (fun z => z[v.length]?) hw.2.2.1
      simp only [List.getElem?_map, List.getElem?_take_of_lt h] at h2
      rw [List.getElem?_eq_getElem h, Option.map_some] at h2
      refine hv.2.2.2 hl w[v.length] (hw.1 _ (List.getElem_mem h)) ?_
      exact h2
    · omega
  have hlen : v.length = w.length := Nat.le_antisymm (key w v hw hv) (key v w hv hw)
  apply map_char_inj v w hv.1 hw.1
  rw [← hv.2.2.1, ← hw.2.2.1, hlen]

theorem lead_all (l v : List Byte) (h : Leading l v) : (∀ c ∈ l, value? c ≠ none) ↔ v.length = l.length := by
  rw [leading_unique l v (vals l) h (leading_vals l)]
  constructor
  · exact fun h => (vals_all l h).2
  · intro hl c hc hn
    have h1 : (l.takeWhile fun c => (value? c).isSome).length = l.length := by
      have := List.length_filterMap_le value? (l.takeWhile fun c => (value? c).isSome)
      have h2 := (List.takeWhile_prefix (l := l) fun c => (value? c).isSome).length_le
      rw [vals] at hl
      omega
    have h2 := (List.takeWhile_prefix (l := l) fun c => (value? c).isSome).eq_of_length h1
    rw [← h2] at hc
    have := List.mem_takeWhile_imp hc
    rw [hn] at this
    simp at this

/-- What stands after the two first tests. -/
theorem decode_head (s post hrp b32 : List Byte) (cap : Nat) (hr : ∀ c ∈ s, 33 ≤ c.toNat ∧ c.toNat ≤ 126)
    (hc : ¬ ((∃ c ∈ s, isUpper c) ∧ ∃ c ∈ s, isLower c)) :
    decode (s ++ 0#8 :: post) s.length hrp cap b32 = (do
      match ← strrchr (s ++ 0#8 :: post) (chr '1') with
      | none => pure ⟨-2, hrp, cap, b32⟩
      | some pos =>
        if s.length > 90 ∨ pos = 0 ∨ pos + 7 > s.length ∨ s.length ≤ 7 then pure ⟨-2, hrp, cap, b32⟩
        else if cap < pos then pure ⟨-3, hrp, cap, b32⟩
        else decodeAt (s ++ 0#8 :: post) s.length pos hrp b32) := by
  rw [decode, isIllegal_eq, Res.ok_bind, (illegal_false_iff s).mpr ⟨hr, hc⟩]
  rfl

end Bech32

open Bech32 Bech32Spec in
/-- C96. A text with a character outside 33..126 or with both upper- and lower-case letters: -1, nothing is written. -/
theorem C96_bech32_bad_character (s post hrp b32 : List Byte) (cap : Nat)
    (h : ¬ ((∀ c ∈ s, 33 ≤ c.toNat ∧ c.toNat ≤ 126) ∧ ¬ ((∃ c ∈ s, isUpper c) ∧ ∃ c ∈ s, isLower c))) :
    Bech32.decode (s ++ post) s.length hrp cap b32 = .ok ⟨-1, hrp, cap, b32⟩ := by
  have : illegal s = true := by
    cases hi : illegal s with
    | true => rfl
    | false => exact absurd ((illegal_false_iff s).mp hi) h
  rw [Bech32.decode, isIllegal_eq, Res.ok_bind, this]
  rfl

open Bech32 Bech32Spec in
/-- C96. Otherwise, a text without the separator `1`, of more than 90 characters, with nothing before the last `1` or fewer than six
characters behind it: -2, nothing is written. -/
theorem C96_bech32_bad_shape (s post hrp b32 : List Byte) (cap : Nat) (hr : ∀ c ∈ s, 33 ≤ c.toNat ∧ c.toNat ≤ 126)
    (hc : ¬ ((∃ c ∈ s, isUpper c) ∧ ∃ c ∈ s, isLower c))
    (h : s.length > 90 ∨ ∀ a d, s = a ++ 49#8 :: d → 49#8 ∉ d → a = [] ∨ d.length < 6) :
    Bech32.decode (s ++ 0#8 :: post) s.length hrp cap b32 = .ok ⟨-2, hrp, cap, b32⟩ := by
  have hl0 : ∀ c ∈ s, c ≠ 0#8 := by
    intro c hc h0
    have := hr c hc
    rw [h0] at this
    simp at this
  rw [decode_head s post hrp b32 cap hr hc]
  by_cases h1 : 49#8 ∈ s
  · obtain ⟨a, d, hab, hd⟩ := last_split h1
    have hsr : strrchr (s ++ 0#8 :: post) (chr '1') = .ok (some a.length) := by
      have := strrchrFrom_some 49#8 a d post 0 none (by decide)
        (fun x hx => hl0 x (by rw [hab]; simp [hx])) (fun x hx => ⟨hd x hx, hl0 x (by rw [hab]; simp [hx])⟩)
      rw [Nat.zero_add, ← hab] at this
      exact this
    rw [hsr, Res.ok_bind]
    refine if_pos ?_
    rcases h with h | h
    · exact .inl h
    · rcases h a d hab (fun hm => hd _ hm rfl) with h | h
      · exact .inr (.inl (by rw [h]; rfl))
      · refine .inr (.inr (.inl ?_))
        rw [hab, List.length_append, List.length_cons]
        omega
  · have hsr : strrchr (s ++ 0#8 :: post) (chr '1') = .ok none :=
      strrchrFrom_none 49#8 s post 0 none (by decide) (fun x hx => ⟨fun e => h1 (e ▸ hx), hl0 x hx⟩)
    rw [hsr, Res.ok_bind]
    rfl

open Bech32 Bech32Spec in
/-- C96 and C95. Otherwise the text is `a`, the separator, data characters `d` and six checksum characters `k`.  If the object for the
human-readable part is announced to be shorter than `a`: -3, nothing is written.  Else the lower-case form of `a` and the values `v` of the leading
legal characters of `d` are written – which is possible exactly when the object for the data has as many bytes – and the result is -4
if a character of `d` or `k` is not in the alphabet, else -5 if the checksum is wrong, else the number of data characters. -/
theorem C96_bech32_verdict (s post hrp b32 a d k v w : List Byte) (cap : Nat) (hr : ∀ c ∈ s, 33 ≤ c.toNat ∧ c.toNat ≤ 126)
    (hc : ¬ ((∃ c ∈ s, isUpper c) ∧ ∃ c ∈ s, isLower c)) (hs : s = a ++ [49#8] ++ d ++ k) (h1 : 49#8 ∉ d ++ k) (hk : k.length = 6)
    (ha : a ≠ []) (hl : s.length ≤ 90) (hcap : cap ≤ hrp.length) (hv : Leading d v) (hw : Leading k w) :
    (cap < a.length → Bech32.decode (s ++ 0#8 :: post) s.length hrp cap b32 = .ok ⟨-3, hrp, cap, b32⟩) ∧
    (a.length ≤ cap → Bech32.decode (s ++ 0#8 :: post) s.length hrp cap b32 =
      if v.length ≤ b32.length then
        .ok ⟨if v.length < d.length ∨ w.length < 6 then -4
              else if polymod (hrpExpand (a.map lower) ++ v ++ w) = 1#30 then (d.length : Int) else -5,
            over (a.map lower) hrp, a.length, over v b32⟩
      else .ub) := by
  have hl0 : ∀ c ∈ s, c ≠ 0#8 := by
    intro c hc h0
    have := hr c hc
    rw [h0] at this
    simp at this
  have hab : s = a ++ 49#8 :: (d ++ k) := by rw [hs]; simp
  have hsr : strrchr (s ++ 0#8 :: post) (chr '1') = .ok (some a.length) := by
    have := strrchrFrom_some 49#8 a (d ++ k) post 0 none (by decide)
      (fun x hx => hl0 x (by rw [hab]; simp [hx])) (fun x hx => ⟨fun e => h1 (e ▸ hx), hl0 x (by rw [hab, List.mem_append]; exact .inr (by simp only [List.mem_cons]; exact .inr hx))⟩)
    rw [Nat.zero_add, ← hab] at this
    exact this
  have hal : 0 < a.length := List.length_pos_iff.mpr ha
  have hsl : s.length = a.length + 1 + d.length + 6 := by rw [hs]; simp; omega
  rw [decode_head s post hrp b32 cap hr hc, hsr, Res.ok_bind]
  have hev := leading_unique d v (vals d) hv (leading_vals d)
  have hew := leading_unique k w (vals k) hw (leading_vals k)
  constructor
  · intro hlt
    show (if _ then _ else if _ then _ else _) = _
    rw [if_neg (by omega), if_pos hlt]
    rfl
  · intro hle
    show (if _ then _ else if _ then _ else _) = _
    rw [if_neg (by omega), if_neg (by omega)]
    have e := decodeAt_total a d k (0#8 :: post) hrp b32 hk (by omega)
    rw [← hs] at e
    rw [e, ← hev, ← hew]
    have hall : (∀ c ∈ d ++ k, value? c ≠ none) ↔ ¬ (v.length < d.length ∨ w.length < 6) := by
      have e1 := lead_all d v hv
      have e2 := lead_all k w hw
      have l1 := hv.2.1
      have l2 := hw.2.1
      constructor
      · intro h
        have := e1.mp fun c hc => h c (by simp [hc])
        have := e2.mp fun c hc => h c (by simp [hc])
        omega
      · intro h c hc
        rcases List.mem_append.mp hc with hc | hc
        · exact e1.mpr (by omega) c hc
        · exact e2.mpr (by omega) c hc
    by_cases hg : v.length < d.length ∨ w.length < 6
    · rw [if_neg (fun h => hall.mp h hg), if_pos hg]
    · rw [if_pos (hall.mpr hg), if_neg hg]
