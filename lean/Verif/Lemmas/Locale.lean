import Verif.Spec.Locale
import Verif.Lemmas.Base58
import Verif.Props.NeedDecode
/-! The readers of texts in an arbitrary locale (`Model/Locale`). -/
namespace Localized
open Base58 Base58Spec

variable {L : Locale} {cs : Bool}

theorem blank_zero (h : L.Lawful) : L.blank cs 0#8 = 0#8 := by
  rw [Locale.blank, if_neg]; simp [h.nul]

theorem blank_ne_zero (c : Byte) (hc : c ≠ 0#8) : L.blank cs c ≠ 0#8 := by
  rw [Locale.blank]; split
  · decide
  · exact hc

/-- `isspace` of the locale is `isspace` of the "C" locale, with the locale's spaces as blanks. -/
theorem isspace_blank (h : L.Lawful) (c : Byte) : Base58.isspace cs (L.blank cs c) = isspace L cs c := by
  rw [Localized.isspace, Base58.isspace, Locale.blank]
  by_cases hd : L.isspace c = true ∧ ¬ (cs = true ∧ 128 ≤ c.toNat)
  · rw [if_pos hd]
    have hlt : cs = false ∨ c.toNat < 128 := by
      cases cs
      · exact .inl rfl
      · right; have := hd.2; simp at this; omega
    have h1 : ¬ ((cs && decide (128 ≤ c.toNat) && decide (c.toNat < 255)) = true) := by
      rcases hlt with h | h <;> simp [h]
    have h2 : ¬ ((cs && decide (c.toNat = 255)) = true) := by
      rcases hlt with h | h
      · simp [h]
      · simp; omega
    rw [if_neg h1, if_neg h2, hd.1, if_neg (by simp)]
    rfl
  · rw [if_neg hd]
    split
    · rfl
    · rename_i h1
      by_cases h2 : (cs && decide (c.toNat = 255)) = true
      · rw [if_pos h2]
        simp at h2
        congr 1; simp [h2.2]
      · rw [if_neg h2]
        have hn : ¬ (cs = true ∧ 128 ≤ c.toNat) := by
          intro h
          simp [h.1] at h1 h2
          have := h1 h.2
          have := c.isLt
          omega
        have hs : L.isspace c = false := by
          cases hl : L.isspace c
          · rfl
          · exact absurd ⟨hl, hn⟩ hd
        rw [hs]
        congr 1
        cases hq : isSpace c
        · exact hq
        · rw [h.spaces c hq] at hs; cases hs

/-- What follows a text: nothing, or memory behind its NUL. -/
def Ends (post : List Byte) : Prop := post = [] ∨ post.head? = some 0#8

theorem isspace_zero (h : L.Lawful) : isspace L cs 0#8 = .ok false := by
  rw [Localized.isspace]; simp [h.nul]

theorem skipSpaces_blank (h : L.Lawful) (t post : List Byte) (n : Nat) (hp : Ends post) :
    (skipSpaces L cs (t ++ post) n = .ub ∧ Base58.skipSpaces cs (t.map (L.blank cs) ++ post) n = .ub) ∨
    ∃ t' m, skipSpaces L cs (t ++ post) n = .ok (t' ++ post, m) ∧
      Base58.skipSpaces cs (t.map (L.blank cs) ++ post) n = .ok (t'.map (L.blank cs) ++ post, m) := by
  induction t generalizing n with
  | nil =>
    rcases post with _ | ⟨b, q⟩
    · left; exact ⟨rfl, rfl⟩
    · have hb : b = 0#8 := by rcases hp with h | h <;> simp at h; exact h
      subst hb
      right
      exact ⟨[], n, by simp [skipSpaces, Res.pure_eq], by simp [Base58.skipSpaces, Res.pure_eq]⟩
  | cons c t ih =>
    simp only [List.cons_append, List.map_cons, skipSpaces, Base58.skipSpaces]
    by_cases hc : c = 0#8
    · right
      subst hc
      rw [blank_zero h]
      exact ⟨0#8 :: t, n, by simp [Res.pure_eq], by simp [Res.pure_eq, blank_zero h]⟩
    · rw [if_neg hc, if_neg (blank_ne_zero c hc), isspace_blank h]
      cases hs : isspace L cs c with
      | ub => left; exact ⟨rfl, rfl⟩
      | abort => rw [isspace] at hs; split at hs <;> try split at hs
                 all_goals cases hs
      | ok b =>
        cases b
        · right
          exact ⟨c :: t, n, rfl, rfl⟩
        · exact ih (n + 1)

theorem countOnes_blank (h : L.Lawful) (t post : List Byte) (n : Nat) (hp : Ends post) :
    (Base58.countOnes (t ++ post) n = .ub ∧ Base58.countOnes (t.map (L.blank cs) ++ post) n = .ub) ∨
    ∃ t' m, Base58.countOnes (t ++ post) n = .ok (t' ++ post, m) ∧
      Base58.countOnes (t.map (L.blank cs) ++ post) n = .ok (t'.map (L.blank cs) ++ post, m) := by
  induction t generalizing n with
  | nil =>
    rcases post with _ | ⟨b, q⟩
    · left; exact ⟨rfl, rfl⟩
    · have hb : b = 0#8 := by rcases hp with h | h <;> simp at h; exact h
      subst hb
      right
      exact ⟨[], n, by simp [countOnes, chr], by simp [countOnes, chr]⟩
  | cons c t ih =>
    simp only [List.cons_append, List.map_cons, countOnes]
    by_cases hc : c = chr '1'
    · have : L.blank cs c = c := by
        rw [Locale.blank, if_neg]
        rw [hc, h.alnum _ (.inl (by decide))]; simp
      rw [this, if_pos hc, if_pos hc]
      exact ih (n + 1)
    · have : L.blank cs c ≠ chr '1' := by
        rw [Locale.blank]; split
        · decide
        · exact hc
      rw [if_neg hc, if_neg this]
      right
      exact ⟨c :: t, n, rfl, rfl⟩

theorem digitLoop_blank (h : L.Lawful) (size : Nat) (t post b256 : List Byte) (n : Nat) (hp : Ends post) :
    (∃ r, digitLoop L cs size (t ++ post) b256 n = r ∧ Base58.digitLoop cs size (t.map (L.blank cs) ++ post) b256 n = r ∧
      (r = .ub ∨ r = .abort ∨ r = .ok none)) ∨
    ∃ t' b m, digitLoop L cs size (t ++ post) b256 n = .ok (some (t' ++ post, b, m)) ∧
      Base58.digitLoop cs size (t.map (L.blank cs) ++ post) b256 n = .ok (some (t'.map (L.blank cs) ++ post, b, m)) := by
  induction t generalizing b256 n with
  | nil =>
    rcases post with _ | ⟨b, q⟩
    · left; exact ⟨.ub, rfl, rfl, .inl rfl⟩
    · have hb : b = 0#8 := by rcases hp with h | h <;> simp at h; exact h
      subst hb
      right
      exact ⟨[], b256, n, by simp [digitLoop, Res.pure_eq], by simp [Base58.digitLoop, Res.pure_eq]⟩
  | cons c t ih =>
    simp only [List.cons_append, List.map_cons, digitLoop, Base58.digitLoop]
    by_cases hc : c = 0#8
    · right
      subst hc
      rw [blank_zero h]
      exact ⟨0#8 :: t, b256, n, by simp [Res.pure_eq], by simp [Res.pure_eq, blank_zero h]⟩
    · rw [if_neg hc, if_neg (blank_ne_zero c hc), isspace_blank h]
      cases hs : isspace L cs c with
      | ub => left; exact ⟨.ub, rfl, rfl, .inl rfl⟩
      | abort => rw [isspace] at hs; split at hs <;> try split at hs
                 all_goals cases hs
      | ok b =>
        cases b
        · have hb : L.blank cs c = c := by
            rw [Locale.blank, if_neg]
            intro hd
            rw [isspace] at hs
            have hlt : cs = false ∨ c.toNat < 128 := by
              cases cs
              · exact .inl rfl
              · right; have := hd.2; simp at this; omega
            have h1 : ¬ ((cs && decide (128 ≤ c.toNat) && decide (c.toNat < 255)) = true) := by
              rcases hlt with h | h <;> simp [h]
            have h2 : ¬ ((cs && decide (c.toNat = 255)) = true) := by
              rcases hlt with h | h
              · simp [h]
              · simp; omega
            rw [if_neg h1, if_neg h2, hd.1] at hs
            cases hs
          rw [hb]
          simp only [Res.ok_bind, Bool.false_eq_true, if_false]
          cases hv : rd BASE58_DECODE c.toNat with
          | ub => left; exact ⟨.ub, rfl, rfl, .inl rfl⟩
          | abort => left; exact ⟨.abort, rfl, rfl, .inr (.inl rfl)⟩
          | ok v =>
            simp only [Res.ok_bind]
            by_cases hv1 : v = -1
            · rw [if_pos hv1, if_pos hv1]; left; exact ⟨.ok none, rfl, rfl, .inr (.inr rfl)⟩
            · rw [if_neg hv1, if_neg hv1]
              cases hl : carryLoop 256 58 n size 0 v.toNat b256 with
              | ub => left; exact ⟨.ub, rfl, rfl, .inl rfl⟩
              | abort => left; exact ⟨.abort, rfl, rfl, .inr (.inl rfl)⟩
              | ok w =>
                obtain ⟨b', i, carry⟩ := w
                simp only [Res.ok_bind]
                cases ha : assertC (carry == 0) with
                | ub => left; exact ⟨.ub, rfl, rfl, .inl rfl⟩
                | abort => left; exact ⟨.abort, rfl, rfl, .inr (.inl rfl)⟩
                | ok _ => exact ih b' i
        · right
          exact ⟨c :: t, b256, n, rfl, rfl⟩

theorem skipTrailing_blank (h : L.Lawful) (t post : List Byte) (hp : Ends post) :
    (skipTrailing L cs (t ++ post) = .ub ∧ Base58.skipTrailing cs (t.map (L.blank cs) ++ post) = .ub) ∨
    ∃ t', skipTrailing L cs (t ++ post) = .ok (t' ++ post) ∧
      Base58.skipTrailing cs (t.map (L.blank cs) ++ post) = .ok (t'.map (L.blank cs) ++ post) := by
  induction t with
  | nil =>
    rcases post with _ | ⟨b, q⟩
    · left; exact ⟨rfl, rfl⟩
    · have hb : b = 0#8 := by rcases hp with h | h <;> simp at h; exact h
      subst hb
      right
      refine ⟨[], ?_, ?_⟩
      · simp only [List.nil_append, skipTrailing, isspace_zero h]; rfl
      · simp only [List.map_nil, List.nil_append, Base58.skipTrailing]
        rw [← blank_zero (cs := cs) h, isspace_blank h, isspace_zero h]; rfl
  | cons c t ih =>
    simp only [List.cons_append, List.map_cons, skipTrailing, Base58.skipTrailing]
    rw [isspace_blank h]
    cases hs : isspace L cs c with
    | ub => left; exact ⟨rfl, rfl⟩
    | abort => rw [isspace] at hs; split at hs <;> try split at hs
               all_goals cases hs
    | ok b =>
      cases b
      · right
        exact ⟨c :: t, rfl, rfl⟩
      · exact ih

/-- Reading base58 in a locale is reading, in the "C" locale, the text whose spaces are blanks. -/
theorem fromBase58_blank (h : L.Lawful) (t post buf : List Byte) (n : Nat) (hp : Ends post) :
    fromBase58 L cs (t ++ post) n buf = Base58.fromBase58 cs (t.map (L.blank cs) ++ post) n buf := by
  rw [fromBase58, Base58.fromBase58]
  rcases skipSpaces_blank (cs := cs) h t post 0 hp with ⟨h1, h2⟩ | ⟨t1, m1, h1, h2⟩
  · rw [h1, h2]; rfl
  rw [h1, h2]
  simp only [Res.ok_bind]
  rcases countOnes_blank (cs := cs) h t1 post 0 hp with ⟨h1, h2⟩ | ⟨t2, m2, h1, h2⟩
  · rw [h1, h2]; rfl
  rw [h1, h2]
  simp only [Res.ok_bind]
  split
  · rfl
  cases hw : workSize ((n : Int) - (m1 : Int) - (m2 : Int)) with
  | ub => rfl
  | abort => rfl
  | ok size =>
    simp only [Res.ok_bind]
    rcases digitLoop_blank (cs := cs) h size t2 post (List.replicate size 0#8) 0 hp with ⟨r, h1, h2, hr⟩ | ⟨t3, b, m3, h1, h2⟩
    · rw [h1, h2]; rcases hr with rfl | rfl | rfl <;> rfl
    rw [h1, h2]
    simp only [Res.ok_bind]
    rcases skipTrailing_blank (cs := cs) h t3 post hp with ⟨h1, h2⟩ | ⟨t4, h1, h2⟩
    · rw [h1, h2]
    rw [h1, h2]
    simp only [Res.ok_bind]
    rcases t4 with _ | ⟨c, t4⟩
    · rfl
    · simp only [List.map_cons, List.cons_append]
      have e1 : rd (c :: (t4 ++ post)) 0 = .ok c := rd_ok (c :: (t4 ++ post)) 0 (by simp)
      have e2 : rd (L.blank cs c :: (t4.map (L.blank cs) ++ post)) 0 = .ok (L.blank cs c) :=
        rd_ok (L.blank cs c :: (t4.map (L.blank cs) ++ post)) 0 (by simp)
      rw [e1, e2]
      simp only [Res.ok_bind]
      by_cases hc : c = 0#8
      · subst hc; rw [blank_zero h]
      · rw [if_pos hc, if_pos (blank_ne_zero c hc)]

theorem c_lawful : Locale.c.Lawful where
  spaces c h := h
  alnum c h := by simp only [Locale.c]; simp; omega
  nul := by decide
  upper c _ := by simp [Locale.c, Bech32Spec.isUpper]

theorem isspace_c (c : Byte) : isspace Locale.c cs c = Base58.isspace cs c := by
  rw [isspace, Base58.isspace]
  split
  · rfl
  · split
    · rename_i h; simp at h; congr 1; simp [h.2]
    · rfl

theorem skipSpaces_c (s : List Byte) (n : Nat) : skipSpaces Locale.c cs s n = Base58.skipSpaces cs s n := by
  induction s generalizing n with
  | nil => rfl
  | cons c s ih => simp only [skipSpaces, Base58.skipSpaces, isspace_c, ih]

theorem digitLoop_c (size : Nat) (s b : List Byte) (n : Nat) :
    digitLoop Locale.c cs size s b n = Base58.digitLoop cs size s b n := by
  induction s generalizing b n with
  | nil => rfl
  | cons c s ih => simp only [digitLoop, Base58.digitLoop, isspace_c, ih]

theorem skipTrailing_c (s : List Byte) : skipTrailing Locale.c cs s = Base58.skipTrailing cs s := by
  induction s with
  | nil => rfl
  | cons c s ih => simp only [skipTrailing, Base58.skipTrailing, isspace_c, ih]

theorem fromBase58_c (s buf : List Byte) (n : Nat) : fromBase58 Locale.c cs s n buf = Base58.fromBase58 cs s n buf := by
  simp only [fromBase58, Base58.fromBase58, skipSpaces_c, digitLoop_c, skipTrailing_c]
  rfl

/-- Texts that read the same in the two locales. -/
theorem fromBase58_agree {L' : Locale} (h : L.Lawful) (h' : L'.Lawful) (t post buf : List Byte) (n : Nat) (hp : Ends post)
    (ha : ∀ c ∈ t, L.isspace c = L'.isspace c) :
    fromBase58 L cs (t ++ post) n buf = fromBase58 L' cs (t ++ post) n buf := by
  rw [fromBase58_blank h t post buf n hp, fromBase58_blank h' t post buf n hp]
  congr 2
  apply List.map_congr_left
  intro c hc
  rw [Locale.blank, Locale.blank, ha c hc]

/-! ### Everything built on it -/

theorem fromBase58Check_blank (h : L.Lawful) (host : Host) (t post buf : List Byte) (n : Nat) (hp : Ends post) :
    fromBase58Check L host cs (t ++ post) n buf = Base58Check.fromBase58Check host cs (t.map (L.blank cs) ++ post) n buf := by
  rw [fromBase58Check, Base58Check.fromBase58Check, fromBase58_blank h t post buf n hp]

theorem fromBase58Check_c (host : Host) (s buf : List Byte) (n : Nat) :
    fromBase58Check Locale.c host cs s n buf = Base58Check.fromBase58Check host cs s n buf := by
  rw [fromBase58Check, Base58Check.fromBase58Check, fromBase58_c]

theorem keyFromString_blank (h : L.Lawful) (nd : Bool) (host : Host) (t post key : List Byte) (n : Nat) (z : Int) (param : ChainParameters)
    (hp : Ends post) : keyFromString L nd host cs (t ++ post) n key z param =
      Key.keyFromString nd host cs (t.map (L.blank cs) ++ post) n key z param := by
  rw [keyFromString, Key.keyFromString, fromBase58Check_blank h host t post _ n hp]

theorem exkeyFromString_blank (h : L.Lawful) (nd : Bool) (host : Host) (t post : List Byte) (key : Exkey.ExKey) (n : Nat)
    (param : ChainParameters) (hp : Ends post) : exkeyFromString L nd host cs (t ++ post) n key param =
      Exkey.exkeyFromString nd host cs (t.map (L.blank cs) ++ post) n key param := by
  rw [exkeyFromString, Exkey.exkeyFromString, fromBase58Check_blank h host t post _ n hp]

theorem expubkeyFromString_blank (h : L.Lawful) (nd : Bool) (host : Host) (t post : List Byte) (key : Exkey.ExPubkey) (n : Nat)
    (param : ChainParameters) (hp : Ends post) : expubkeyFromString L nd host cs (t ++ post) n key param =
      Exkey.expubkeyFromString nd host cs (t.map (L.blank cs) ++ post) n key param := by
  rw [expubkeyFromString, Exkey.expubkeyFromString, fromBase58Check_blank h host t post _ n hp]

theorem toLower_c (c : Byte) : toLower Locale.c c = Bech32.toLower c := by
  simp only [toLower, Locale.c, Bech32.toLower, Bool.and_eq_true, decide_eq_true_eq]
  split <;> rfl

theorem bech32DecodeAt_c (s : List Byte) (n pos : Nat) (hrp b32 : List Byte) :
    bech32DecodeAt Locale.c s n pos hrp b32 = Bech32.decodeAt s n pos hrp b32 := by
  simp only [bech32DecodeAt, Bech32.decodeAt, toLower_c]

theorem bech32Decode_c (s : List Byte) (n cap : Nat) (hrp b32 : List Byte) :
    bech32Decode Locale.c s n hrp cap b32 = Bech32.decode s n hrp cap b32 := by
  simp only [bech32Decode, Bech32.decode, bech32DecodeAt_c]
  rfl

theorem decodeBech32_c (cs : Bool) (stack s : List Byte) (n : Nat) (out : List Byte) (m : Nat) (param : ChainParameters) :
    decodeBech32 Locale.c cs stack s n out m param = Address.decodeBech32 cs stack s n out m param := by
  rw [decodeBech32, Address.decodeBech32, bech32Decode_c]

theorem addressDecode_c (host : Host) (cs : Bool) (stack s : List Byte) (n : Nat) (out : List Byte) (m : Nat) (param : ChainParameters) :
    addressDecode Locale.c host cs stack s n out m param = Address.addressDecode host cs stack s n out m param := by
  rw [addressDecode, Address.addressDecode, fromBase58Check_c]
  simp only [decodeBech32_c]

end Localized

namespace Localized
open Bech32 Bech32Spec

/-- `decodeAt_total` for every locale. -/
theorem bech32DecodeAt_total (L : Locale) (a d k q hrp b32 : List Byte) (hk : k.length = 6) (ha : a.length ≤ hrp.length) :
    bech32DecodeAt L (a ++ [49#8] ++ d ++ k ++ q) (a ++ [49#8] ++ d ++ k).length a.length hrp b32 =
      if (vals d).length ≤ b32.length then
        .ok ⟨if ∀ c ∈ d ++ k, value? c ≠ none then
                (if polymod (hrpExpand (a.map (toLower L)) ++ vals d ++ vals k) = 1#30 then (d.length : Int) else -5)
              else -4,
            over (a.map (toLower L)) hrp, a.length, over (vals d) b32⟩
      else .ub := by
  rw [bech32DecodeAt]
  have e1 := wr_loop (fun i hrp => do wr hrp i (toLower L (← rd (a ++ [49#8] ++ d ++ k ++ q) i))) []
    (a.map (toLower L)) hrp (by
      intro i hi mem
      have hi' : i < a.length := by simpa using hi
      simp only [List.append_assoc]
      rw [rd_ok _ i (by simp; omega), List.getElem_append_left hi']
      simp only [Res.ok_bind, List.length_nil, Nat.zero_add, List.getElem_map]) (by simpa using ha)
  rw [over_nil, List.nil_append, List.length_map] at e1
  rw [e1]
  simp only [Res.ok_bind]
  have hn : untilPtr (a.length + 1) ((a ++ [49#8] ++ d ++ k).length - 6) = .ok d.length := by
    rw [untilPtr, if_pos (by simp; omega)]
    congr 1; simp; omega
  rw [hn]
  simp only [Res.ok_bind]
  have e2 := decodeChars_total (a ++ [49#8]) d (k ++ q) b32
  rw [show (a ++ [49#8]).length = a.length + 1 from by simp,
    show a ++ [49#8] ++ d ++ (k ++ q) = a ++ [49#8] ++ d ++ k ++ q by simp] at e2
  rw [e2]
  by_cases hf : (vals d).length ≤ b32.length
  case neg => rw [if_neg hf, if_neg hf]; rfl
  rw [if_pos hf, if_pos hf]
  simp only [Res.ok_bind]
  by_cases hgd : ∀ c ∈ d, value? c ≠ none
  · have e3 := decodeChars_eq (a ++ [49#8] ++ d) k q (List.replicate 6 0xAA#8) (by simp; omega)
    rw [decide_eq_true hgd]
    rw [show (a ++ [49#8] ++ d ++ k).length - 6 = (a ++ [49#8] ++ d).length by simp; omega]
    rw [hk] at e3
    rw [e3]
    simp only [Bool.not_true, Bool.false_eq_true, if_false, Res.ok_bind]
    by_cases hgk : ∀ c ∈ k, value? c ≠ none
    · have hall : ∀ c ∈ d ++ k, value? c ≠ none := by
        intro c hc
        rcases List.mem_append.mp hc with h | h
        · exact hgd c h
        · exact hgk c h
      rw [decide_eq_true hgk, if_pos hall]
      simp only [Bool.not_true, Bool.false_eq_true, if_false]
      have hvl := (vals_all d hgd).2
      have hkl := (vals_all k hgk).2
      have t1 : (over (a.map (toLower L)) hrp).take a.length = a.map (toLower L) := by
        rw [over, List.take_left' (by simp)]
      have t2 : (over (vals d) b32).take d.length = vals d := by
        rw [over, List.take_left' hvl]
      have t3 : (over (vals k) (List.replicate 6 0xAA#8)).take 6 = vals k := by
        rw [over, List.take_left' (by omega)]
      rw [verifyChecksum_eq _ _ _ _ _ (by rw [over_length _ _ (by simpa using ha)]; exact ha)
        (by rw [over_length _ _ (by omega)]; omega)
        (by rw [over_length _ _ (by simp; omega)]; simp), t1, t2, t3]
      simp only [Res.ok_bind, Res.pure_eq]
      congr 2
      simp only [decide_eq_true_eq]
    · have hall : ¬ ∀ c ∈ d ++ k, value? c ≠ none := fun h => hgk fun c hc => h c (by simp [hc])
      rw [decide_eq_false hgk, if_neg hall]
      rfl
  · have hall : ¬ ∀ c ∈ d ++ k, value? c ≠ none := fun h => hgd fun c hc => h c (by simp [hc])
    rw [decide_eq_false hgd, if_neg hall]
    rfl

/-- The locale matters only after the last `1` of a well-formed text has been found. -/
theorem bech32Decode_split (t post hrp b32 : List Byte) (cap : Nat) :
    (∃ e : Int, e < 0 ∧ ∀ L, bech32Decode L (t ++ 0#8 :: post) t.length hrp cap b32 = .ok ⟨e, hrp, cap, b32⟩) ∨
    ∃ a d k, t = a ++ [49#8] ++ d ++ k ∧ k.length = 6 ∧ (∀ c ∈ t, 33 ≤ c.toNat ∧ c.toNat ≤ 126) ∧ a.length ≤ cap ∧
      ∀ L, bech32Decode L (t ++ 0#8 :: post) t.length hrp cap b32 =
        bech32DecodeAt L (a ++ [49#8] ++ d ++ k ++ 0#8 :: post) (a ++ [49#8] ++ d ++ k).length a.length hrp b32 := by
  cases hill : illegal t with
  | true => left; exact ⟨-1, by decide, fun L => by rw [bech32Decode, isIllegal_eq, Res.ok_bind, hill]; rfl⟩
  | false =>
    obtain ⟨hr, _⟩ := (illegal_false_iff t).mp hill
    have hnz : ∀ c ∈ t, c ≠ 0#8 := by
      intro c hc h0
      have := hr c hc
      rw [h0] at this
      simp at this
    by_cases h1 : 49#8 ∈ t
    · obtain ⟨a, e, hab, he⟩ := last_split h1
      have hstr : strrchr (t ++ 0#8 :: post) (chr '1') = .ok (some a.length) := by
        have := strrchrFrom_some 49#8 a e post 0 none (by decide)
          (fun x hx => hnz x (by rw [hab]; simp [hx])) (fun x hx => ⟨he x hx, hnz x (by rw [hab]; simp [hx])⟩)
        rw [Nat.zero_add, ← hab] at this
        exact this
      by_cases h2 : t.length > 90 ∨ a.length = 0 ∨ a.length + 7 > t.length ∨ t.length ≤ 7
      · left
        refine ⟨-2, by decide, fun L => ?_⟩
        rw [bech32Decode, isIllegal_eq, Res.ok_bind, hill, hstr]
        simp only [Bool.false_eq_true, if_false, Res.ok_bind]
        rw [if_pos h2]; rfl
      · by_cases h3 : cap < a.length
        · left
          refine ⟨-3, by decide, fun L => ?_⟩
          rw [bech32Decode, isIllegal_eq, Res.ok_bind, hill, hstr]
          simp only [Bool.false_eq_true, if_false, Res.ok_bind]
          rw [if_neg h2, if_pos h3]; rfl
        · right
          have hle : t.length = a.length + 1 + e.length := by rw [hab]; simp; omega
          have ht : t = a ++ [49#8] ++ e.take (e.length - 6) ++ e.drop (e.length - 6) := by
            rw [List.append_assoc _ (e.take _), List.take_append_drop, hab]; simp
          refine ⟨a, e.take (e.length - 6), e.drop (e.length - 6), ht, by simp; omega, hr, by omega, fun L => ?_⟩
          rw [bech32Decode, isIllegal_eq, Res.ok_bind, hill, hstr]
          simp only [Bool.false_eq_true, if_false, Res.ok_bind]
          rw [if_neg h2, if_neg h3, ← ht]
    · left
      have hstr : strrchr (t ++ 0#8 :: post) (chr '1') = .ok none :=
        strrchrFrom_none 49#8 t post 0 none (by decide) fun b hb => ⟨fun h => h1 (h ▸ hb), hnz b hb⟩
      refine ⟨-2, by decide, fun L => ?_⟩
      rw [bech32Decode, isIllegal_eq, Res.ok_bind, hill, hstr]
      simp only [Bool.false_eq_true, if_false, Res.ok_bind]
      rfl

end Localized
