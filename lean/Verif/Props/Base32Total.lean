import Verif.Spec.Base32
import Verif.Lemmas.Base32Total
/-! Properties C11 and C12 on every input: when `fingera_from_base32` and `fingera_from_base32_raw` are undefined, and what they
return otherwise. -/
namespace Base32
open Base32Spec

theorem reads_short (raw : Bool) (l : List Byte) (h : l.length < 8) :
    reads raw l = if l.length = 2 ∨ l.length = 4 ∨ l.length = 5 ∨ l.length = 7 then l else [] := by
  match l, h with
  | [], _ => rfl
  | [_], _ => rfl
  | [_, _], _ => rfl
  | [_, _, _], _ => rfl
  | [_, _, _, _], _ => rfl
  | [_, _, _, _, _], _ => rfl
  | [_, _, _, _, _, _], _ => rfl
  | [_, _, _, _, _, _, _], _ => rfl
  | _ :: _ :: _ :: _ :: _ :: _ :: _ :: _ :: r, h => simp at h; omega

theorem reads_cons8 (raw : Bool) (g rest : List Byte) (hg : g.length = 8) :
    reads raw (g ++ rest) = if ∃ c ∈ g, decVal raw c = 0xFF#8 then g else g ++ reads raw rest := by
  match g, hg with
  | [a, b, c, d, e, f, g, h], _ =>
    simp only [List.cons_append, List.nil_append]
    rw [reads]
    refine if_congr ?_ rfl rfl
    simp

theorem reads_negative (raw : Bool) (l : List Byte) :
    (∃ b ∈ reads raw l, 128 ≤ b.toNat) ↔ MeetsNegative (fun c => decVal raw c ≠ 0xFF#8) l := by
  induction l using groups8_induction with
  | short l h =>
    rw [reads_short raw l h]
    constructor
    · rintro ⟨b, hb, h128⟩
      split at hb
      case isFalse => simp at hb
      case isTrue ht =>
        obtain ⟨i, hi, rfl⟩ := List.mem_iff_getElem.mp hb
        refine ⟨i, l[i], List.getElem?_eq_getElem hi, h128, ?_, .inr ?_⟩
        · intro k d hk; omega
        · rw [Nat.mod_eq_of_lt h]; exact ht
    · rintro ⟨i, c, hi, h128, -, ht⟩
      have hlt := (List.getElem?_eq_some_iff.mp hi).1
      rcases ht with ht | ht
      · omega
      · rw [Nat.mod_eq_of_lt h, usableTail] at ht
        refine ⟨c, ?_, h128⟩
        rw [if_pos ht]
        exact List.mem_of_getElem? hi
  | step g rest hg ih =>
    rw [reads_cons8 raw g rest hg]
    constructor
    · rintro ⟨b, hb, h128⟩
      by_cases hin : b ∈ g
      · obtain ⟨i, hi, rfl⟩ := List.mem_iff_getElem.mp hin
        refine ⟨i, g[i], ?_, h128, ?_, .inl ?_⟩
        · rw [List.getElem?_append_left hi, List.getElem?_eq_getElem hi]
        · intro k d hk; omega
        · rw [List.length_append]; omega
      · split at hb
        case isTrue => exact absurd hb hin
        case isFalse hgood =>
          have hb : b ∈ reads raw rest := by
            rcases List.mem_append.mp hb with h | h
            · exact absurd h hin
            · exact h
          obtain ⟨i, c, hi, hc, hlegal, ht⟩ := ih.mp ⟨b, hb, h128⟩
          refine ⟨8 + i, c, ?_, hc, ?_, ?_⟩
          · rw [List.getElem?_append_right (by omega), hg, Nat.add_sub_cancel_left, hi]
          · intro k d hk hd
            by_cases hk8 : k < 8
            · rw [List.getElem?_append_left (by omega)] at hd
              exact fun h => hgood ⟨d, List.mem_of_getElem? hd, h⟩
            · rw [List.getElem?_append_right (by omega), hg] at hd
              exact hlegal (k - 8) d (by omega) hd
          · rw [List.length_append, hg]
            rcases ht with ht | ht
            · exact .inl (by omega)
            · exact .inr (by rw [Nat.add_mod_left]; exact ht)
    · rintro ⟨i, c, hi, h128, hlegal, ht⟩
      by_cases hi8 : i < 8
      · rw [List.getElem?_append_left (by omega)] at hi
        have hc := List.mem_of_getElem? hi
        refine ⟨c, ?_, h128⟩
        split
        · exact hc
        · exact List.mem_append_left _ hc
      · have hgood : ¬ ∃ c ∈ g, decVal raw c = 0xFF#8 := by
          rintro ⟨d, hd, hbad⟩
          obtain ⟨k, hk, rfl⟩ := List.mem_iff_getElem.mp hd
          refine hlegal k g[k] (by omega) ?_ hbad
          rw [List.getElem?_append_left hk, List.getElem?_eq_getElem hk]
        rw [if_neg hgood]
        rw [List.getElem?_append_right (by omega), hg] at hi
        obtain ⟨b, hb, hb128⟩ := ih.mpr ⟨i - 8, c, hi, h128, by
          intro k d hk hd
          refine hlegal (8 + k) d (by omega) ?_
          rw [List.getElem?_append_right (by omega), hg, Nat.add_sub_cancel_left, hd], by
          rw [List.length_append, hg, Nat.add_mod_left] at ht
          rcases ht with ht | ht
          · exact .inl (by omega)
          · exact .inr ht⟩
        exact ⟨b, List.mem_append_right _ hb, hb128⟩

theorem reads_neg_iff (cs raw : Bool) (l : List Byte) :
    (∃ b ∈ reads raw l, Neg cs b) ↔ cs = true ∧ MeetsNegative (fun c => decVal raw c ≠ 0xFF#8) l := by
  rw [← reads_negative]
  constructor
  · rintro ⟨b, hb, h1, h2⟩; exact ⟨h1, b, hb, h2⟩
  · rintro ⟨h1, b, hb, h2⟩; exact ⟨b, hb, h1, h2⟩

theorem legal_iff : (fun c : Byte => decVal false c ≠ 0xFF#8) = fun c => value? c ≠ none := by
  funext c
  have : ∀ c : Byte, decVal false c ≠ 0xFF#8 ↔ value? c ≠ none := by decide +kernel
  exact propext (this c)

theorem fromBase32_total (cs : Bool) (s post buf : List Byte) (h : ∀ b ∈ s, b ≠ 0) :
    fromBase32 cs (s ++ 0 :: post) s.length buf =
      if (∃ b ∈ reads false (s.takeWhile (· ≠ chr '=')), Neg cs b) ∨
          buf.length < (decPure false (s.takeWhile (· ≠ chr '='))).length then .ub
      else .ok (over (decPure false (s.takeWhile (· ≠ chr '='))) buf,
        (decPure false (s.takeWhile (· ≠ chr '='))).length) := by
  have hpre : s.takeWhile (· ≠ chr '=') <+: s := List.takeWhile_prefix _
  have htk : (s ++ 0 :: post).take (s.takeWhile (· ≠ chr '=')).length = s.takeWhile (· ≠ chr '=') := by
    rw [List.take_append_of_le_length hpre.length_le]
    exact (List.prefix_iff_eq_take.mp hpre).symm
  unfold fromBase32
  rw [fromBase32Impl_total cs false _ buf s.length _ (strlen_nul s post h)
    (by have := hpre.length_le; simp only [List.length_append]; omega), htk]

/-- C12: where exactly `fingera_from_base32` breaks. For every NUL-terminated string and every buffer of the documented size
(`fingera_from_base32_length`), the call is undefined if and only if `char` is signed and the decoder meets a character of 0x80 or
more among those before the first `'='`; where `char` is unsigned it is defined on every string. -/
theorem C12_undefined_iff_partial (cs : Bool) (s post buf : List Byte) (len : Nat) (h : ∀ b ∈ s, b ≠ 0)
    (hl : fromBase32Length (s ++ 0 :: post) s.length = .ok len) (hb : len ≤ buf.length) :
    fromBase32 cs (s ++ 0 :: post) s.length buf = .ub ↔
      cs = true ∧ MeetsNegative (fun c => value? c ≠ none) (s.takeWhile (· ≠ chr '=')) := by
  rw [fromBase32Length_eq s post h, Res.ok.injEq] at hl
  have hiff := reads_neg_iff cs false (s.takeWhile (· ≠ chr '='))
  rw [legal_iff] at hiff
  rw [fromBase32_total cs s post buf h]
  have := decPure_length_le false (s.takeWhile (· ≠ chr '='))
  constructor
  · intro he
    split at he
    case isTrue hc =>
      rcases hc with hc | hc
      · exact hiff.mp hc
      · omega
    case isFalse => cases he
  · intro hc
    rw [if_pos (.inl (hiff.mpr hc))]

/-- C12 is violated by the code: where `char` is signed, every text that begins with two characters of 0x80 or more (for instance in
UTF-8) and has no `'='` makes the decoder index its table negatively, unless it is one of 3 or 6 characters. -/
theorem C12_violated_negative (s post buf : List Byte) (a b : Byte) (len : Nat) (ha : 128 ≤ a.toNat) (hbb : 128 ≤ b.toNat)
    (h : ∀ c ∈ s, c ≠ 0 ∧ c ≠ chr '=') (h36 : s.length ≠ 1 ∧ s.length ≠ 4)
    (hl : fromBase32Length (a :: b :: s ++ 0 :: post) (a :: b :: s).length = .ok len) (hb : len ≤ buf.length) :
    fromBase32 true (a :: b :: s ++ 0 :: post) (a :: b :: s).length buf = .ub := by
  have hne : ∀ c : Byte, 128 ≤ c.toNat → c ≠ 0 ∧ c ≠ chr '=' := by decide +kernel
  have hall : ∀ c ∈ a :: b :: s, c ≠ 0 ∧ c ≠ chr '=' := by
    intro c hc
    rcases List.mem_cons.mp hc with rfl | hc
    · exact hne _ ha
    rcases List.mem_cons.mp hc with rfl | hc
    · exact hne _ hbb
    exact h c hc
  rw [C12_undefined_iff_partial true (a :: b :: s) post buf len (fun c hc => (hall c hc).1) hl hb]
  have htw : (a :: b :: s).takeWhile (· ≠ chr '=') = a :: b :: s := by
    rw [List.takeWhile_eq_self_iff]
    intro c hc
    simpa using (hall c hc).2
  rw [htw]
  refine ⟨rfl, 0, a, rfl, ha, fun k d hk => by omega, ?_⟩
  simp only [List.length_cons, usableTail]
  omega

/-- C12: every defined run, without the restriction to 7-bit characters of `C12_from_base32_partial`: at most the documented number
of bytes is written and returned; it is the documented length exactly when every character in a complete group is legal; and if all
characters are legal and the length is possible, the bytes are the RFC 4648 ones.
Missing: undefined runs and the unchecked last group. -/
theorem C12_from_base32_defined_partial (cs : Bool) (s post buf bufOut : List Byte) (len n : Nat) (h : ∀ b ∈ s, b ≠ 0)
    (hl : fromBase32Length (s ++ 0 :: post) s.length = .ok len)
    (hrun : fromBase32 cs (s ++ 0 :: post) s.length buf = .ok (bufOut, n)) :
    n ≤ len ∧ n ≤ buf.length ∧ ∃ W, W.length = n ∧ bufOut = over W buf ∧
      (∀ t, t = s.takeWhile (· ≠ chr '=') →
        (n = len ↔ ∀ c ∈ t.take (t.length / 8 * 8), value? c ≠ none) ∧
        ((∀ c ∈ t, value? c ≠ none) → (t.length % 8 = 0 ∨ usableTail (t.length % 8)) →
         W = BaseN.bytesOf 5 (t.filterMap value?))) := by
  have hv : ∀ c : Byte, decVal false c ≠ 0xFF#8 ↔ value? c ≠ none := by decide +kernel
  have hv2 : ∀ c : Byte, value? c ≠ none → value? c = some (decVal false c).toNat := by decide +kernel
  rw [fromBase32Length_eq s post h, Res.ok.injEq] at hl
  rw [fromBase32_total cs s post buf h] at hrun
  split at hrun
  · cases hrun
  case isFalse hno =>
    simp only [Res.ok.injEq, Prod.mk.injEq] at hrun
    obtain ⟨r1, r2⟩ := hrun
    subst hl
    have hle := decPure_length_le false (s.takeWhile (· ≠ chr '='))
    refine ⟨by rw [← r2]; exact hle, ?_, _, r2, r1.symm, ?_⟩
    · rw [← r2]
      exact Nat.le_of_not_lt fun hlt => hno (.inr hlt)
    rintro t rfl
    constructor
    · rw [← r2, decPure_full_iff]
      simp only [hv]
    · intro ht hlen
      rw [decPure_legal false _ (fun c hc => (hv c).mpr (ht c hc)) hlen]
      congr 1
      generalize s.takeWhile (· ≠ chr '=') = t at ht
      clear hlen r1 r2 hno hle
      induction t with
      | nil => rfl
      | cons a t ih =>
        rw [List.map_cons, List.filterMap_cons_some (hv2 a (ht a (by simp))), ih (fun c hc => ht c (by simp [hc]))]

/-- C12: what is written, for every string on which the call is defined: exactly the bytes of the complete groups before the first
one with an illegal character, if there is such a group, and their number is returned. -/
theorem C12_stops_at_illegal_group (cs : Bool) (s post buf t bufOut : List Byte) (i n : Nat) (c : Byte) (h : ∀ b ∈ s, b ≠ 0)
    (ht : t = s.takeWhile (· ≠ chr '=')) (hi : 8 * i + 8 ≤ t.length) (hgood : ∀ d ∈ t.take (8 * i), value? d ≠ none)
    (hc : c ∈ (t.drop (8 * i)).take 8) (hbad : value? c = none)
    (hrun : fromBase32 cs (s ++ 0 :: post) s.length buf = .ok (bufOut, n)) :
    n = 5 * i ∧ bufOut = over (BaseN.bytesOf 5 ((t.take (8 * i)).filterMap value?)) buf ∧
      (BaseN.bytesOf 5 ((t.take (8 * i)).filterMap value?)).length = 5 * i := by
  have hdp : ∀ (i : Nat) (t : List Byte), 8 * i + 8 ≤ t.length → (∀ d ∈ t.take (8 * i), value? d ≠ none) →
      c ∈ (t.drop (8 * i)).take 8 → decPure false t = BaseN.bytesOf 5 ((t.take (8 * i)).filterMap value?) ∧
        (decPure false t).length = 5 * i := by
    intro i
    have hv2 : ∀ c : Byte, value? c ≠ none → value? c = some (decVal false c).toNat ∧ decVal false c ≠ 0xFF#8 := by decide +kernel
    have hv3 : ∀ c : Byte, value? c = none → decVal false c = 0xFF#8 := by decide +kernel
    induction i with
    | zero =>
      intro t hi hgood hc
      rw [← List.take_append_drop 8 t, decPure_cons8 false _ _ (by simp; omega), if_pos]
      · exact ⟨rfl, rfl⟩
      · exact ⟨c, by simpa using hc, hv3 c hbad⟩
    | succ i ih =>
      intro t hi hgood hc
      have h8 : (t.take 8).length = 8 := by simp; omega
      have htt : t.take (8 * (i + 1)) = t.take 8 ++ (t.drop 8).take (8 * i) := by
        rw [show 8 * (i + 1) = 8 + 8 * i by omega, List.take_add]
      rw [htt] at hgood ⊢
      obtain ⟨e1, e2⟩ := ih (t.drop 8) (by rw [List.length_drop]; omega) (fun d hd => hgood d (List.mem_append_right _ hd))
        (by rw [List.drop_drop, show 8 + 8 * i = 8 * (i + 1) by omega]; exact hc)
      have hmap : ∀ l : List Byte, (∀ d ∈ l, value? d ≠ none) → l.filterMap value? = (l.map (decVal false)).map BitVec.toNat := by
        intro l hl
        induction l with
        | nil => rfl
        | cons a l ih =>
          rw [List.filterMap_cons_some (hv2 a (hl a (by simp))).1, ih (fun d hd => hl d (by simp [hd]))]
          rfl
      have hdec : decPure false t = BaseN.bytesOf 5 (((t.take 8).map (decVal false)).map BitVec.toNat) ++ decPure false (t.drop 8) := by
        conv => lhs; rw [← List.take_append_drop 8 t, decPure_cons8 false _ _ h8]
        rw [if_neg]
        rintro ⟨d, hd, hf⟩
        exact (hv2 d (hgood d (List.mem_append_left _ hd))).2 hf
      rw [hdec]
      constructor
      · rw [List.filterMap_append, BaseN.bytesOf_append 5 5, e1, hmap (t.take 8) (fun d hd => hgood d (List.mem_append_left _ hd))]
        rw [hmap _ (fun d hd => hgood d (List.mem_append_left _ hd))]
        rw [List.length_map, List.length_map, h8]
      · rw [List.length_append, bytes_group_length _ (by rw [List.length_map, h8]), e2]; omega
  subst ht
  obtain ⟨e1, e2⟩ := hdp i _ hi hgood hc
  rw [fromBase32_total cs s post buf h] at hrun
  split at hrun
  · cases hrun
  · simp only [Res.ok.injEq, Prod.mk.injEq] at hrun
    obtain ⟨r1, r2⟩ := hrun
    refine ⟨by rw [← r2, e2], by rw [← r1, e1], by rw [← e1, e2]⟩

/-- Instances: a defined run over a text with a byte of 0xE9 beyond the first illegal group, and the facts of the theorem above. -/
example : fromBase32 true (cstr "mzxw6yt*" ++ List.replicate 8 0xE9 ++ [0]) 16 (List.replicate 10 0) =
    .ok (List.replicate 10 0, 0) := by decide +kernel
example : fromBase32 true (cstr "mzxw6ytbmzxw6yt*" ++ [0]) 16 (List.replicate 10 0) =
    .ok ([0x66, 0x6f, 0x6f, 0x62, 0x61, 0, 0, 0, 0, 0], 5) := by decide +kernel

theorem raw_chars (bs : List Byte) : ∀ g ∈ encodeRaw bs, g.toNat < 32 :=
  (C09_to_base32_raw bs (List.replicate ((8 * bs.length + 4) / 5) 0) (by simp)).2.2

theorem strchrFrom_end (c : Byte) (s : List Byte) (i : Nat) (h : ∀ b ∈ s, b ≠ c ∧ b ≠ 0) : strchrFrom c s i = .ub := by
  induction s generalizing i with
  | nil => rfl
  | cons b s ih =>
    obtain ⟨h1, h2⟩ := h b (by simp)
    simp only [strchrFrom, h1, h2, if_false]
    exact ih (i + 1) fun b hb => h b (by simp [hb])

/-- C11 is violated by the code for all raw data without a zero group: if the memory object ends with the data, decoding reads
beyond it. -/
theorem C11_violated_reads_beyond (cs : Bool) (bs out : List Byte) (hz : 0#8 ∉ encodeRaw bs) :
    fromBase32Raw cs (encodeRaw bs) (encodeRaw bs).length out = .ub := by
  have h := strchrFrom_end (chr '=') (encodeRaw bs) 0 (by
    intro b hb
    have := raw_chars bs b hb
    exact ⟨by rintro rfl; exact absurd this (by decide), by rintro rfl; exact hz hb⟩)
  unfold fromBase32Raw fromBase32Impl strlen strchr
  rw [h]
  rfl

/-- C11 is violated by the code, also where the read is harmless: for all raw data without a zero group, if eight bytes of 1 to 31
and a `'='` happen to follow in memory, decoding writes beyond an output buffer of exactly the right size. -/
theorem C11_violated_writes_beyond (cs : Bool) (bs g post out : List Byte) (hz : 0#8 ∉ encodeRaw bs) (hg : g.length = 8)
    (hr : ∀ b ∈ g, b ≠ 0#8 ∧ b.toNat < 32) (ho : out.length = bs.length) :
    fromBase32Raw cs (encodeRaw bs ++ g ++ chr '=' :: post) (encodeRaw bs).length out = .ub := by
  have hall : ∀ b ∈ encodeRaw bs ++ g, b.toNat < 32 ∧ b ≠ 0 := by
    intro b hb
    rcases List.mem_append.mp hb with hb | hb
    · exact ⟨raw_chars bs b hb, by rintro rfl; exact hz hb⟩
    · exact ⟨(hr b hb).2, (hr b hb).1⟩
  have hlegal : ∀ b : Byte, b.toNat < 32 → decVal true b ≠ 0xFF#8 := by decide +kernel
  have he : encodeRaw bs = encText true bs := by simp [encodeRaw, encText, encChar]
  have hstr : strlen (encodeRaw bs ++ g ++ chr '=' :: post) (encodeRaw bs).length = .ok (encodeRaw bs ++ g).length := by
    unfold strlen strchr
    rw [strchrFrom_some (chr '=') (encodeRaw bs ++ g) post 0 (by
      intro b hb
      obtain ⟨h1, h2⟩ := hall b hb
      exact ⟨by rintro rfl; exact absurd h1 (by decide), h2⟩)]
    simp
  unfold fromBase32Raw
  rw [fromBase32Impl_total cs true _ out _ _ hstr (by simp), List.take_left, if_pos]
  refine .inr ?_
  rw [(decPure_full_iff true (encodeRaw bs ++ g)).mpr (fun c hc => hlegal c (hall c (List.mem_of_mem_take hc)).1),
    List.length_append, hg, decLen_add8, he, decLen_encText, ho]
  omega

/-- C11, exactly: the raw round trip is correct whatever follows the data in memory if and only if one of its groups is zero. -/
theorem C11_raw_roundtrip_iff_partial (bs : List Byte) :
    (∀ (cs : Bool) (post out : List Byte), bs.length ≤ out.length →
      fromBase32Raw cs (encodeRaw bs ++ post) (encodeRaw bs).length out = .ok (over bs out, bs.length)) ↔
    0#8 ∈ encodeRaw bs := by
  constructor
  · intro h
    by_contra hz
    have := h true [] bs (Nat.le_refl _)
    rw [List.append_nil, C11_violated_reads_beyond true bs bs hz] at this
    cases this
  · intro hz cs post out ho
    refine fromBase32Raw_eq cs bs post out _ ?_ ho rfl
    obtain ⟨p, q, hpq⟩ := List.append_of_mem hz
    unfold strlen strchr
    have hp : encodeRaw bs ++ post = p ++ 0 :: (q ++ post) := by
      rw [hpq]; simp
    rw [hp, strchrFrom_none (chr '=') p (q ++ post) 0 (by decide) (by
      intro b hb
      have := raw_chars bs b (by rw [hpq]; exact List.mem_append_left _ hb)
      rintro rfl
      exact absurd this (by decide))]
    rfl

/-- Instances: data with and without a zero group. -/
example : 0#8 ∈ encodeRaw [0, 0xFF] ∧ 0#8 ∉ encodeRaw (List.replicate 20 0xFF) := by decide +kernel

end Base32
