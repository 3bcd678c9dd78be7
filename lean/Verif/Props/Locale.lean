import Verif.Lemmas.Locale
import Verif.Props.Base58Total
import Verif.Props.Mistyped
import Verif.Lemmas.Bech32Code
/-!
Property theorems C100: reading texts in programs that call `setlocale`.  `L` ranges over all locales the C standard allows
(`Locale.Lawful`, Spec/Locale).
-/
open Address AddressSpec

/-- In the "C" locale – the one a program has that does not call `setlocale` – the functions are those of all other theorems. -/
theorem C100_c_locale (nd : Bool) (host : Host) (cs : Bool) (stack s buf out key : List Byte) (hrp b32 : List Byte) (n cap m : Nat) (z : Int)
    (k : Exkey.ExKey) (pk : Exkey.ExPubkey) (param : ChainParameters) :
    Localized.fromBase58 .c cs s n buf = Base58.fromBase58 cs s n buf ∧
    Localized.fromBase58Check .c host cs s n buf = Base58Check.fromBase58Check host cs s n buf ∧
    Localized.keyFromString .c nd host cs s n key z param = Key.keyFromString nd host cs s n key z param ∧
    Localized.exkeyFromString .c nd host cs s n k param = Exkey.exkeyFromString nd host cs s n k param ∧
    Localized.expubkeyFromString .c nd host cs s n pk param = Exkey.expubkeyFromString nd host cs s n pk param ∧
    Localized.bech32Decode .c s n hrp cap b32 = Bech32.decode s n hrp cap b32 ∧
    Localized.addressDecode .c host cs stack s n out m param = addressDecode host cs stack s n out m param ∧ Locale.c.Lawful := by
  refine ⟨Localized.fromBase58_c _ _ _, Localized.fromBase58Check_c _ _ _ _, ?_, ?_, ?_, Localized.bech32Decode_c _ _ _ _ _,
    Localized.addressDecode_c _ _ _ _ _ _ _ _, Localized.c_lawful⟩
  · rw [Localized.keyFromString, Key.keyFromString, Localized.fromBase58Check_c]
  · rw [Localized.exkeyFromString, Exkey.exkeyFromString, Localized.fromBase58Check_c]
  · rw [Localized.expubkeyFromString, Exkey.expubkeyFromString, Localized.fromBase58Check_c]

/-- C100 (base58). In every locale the readers of base58 do with a text exactly what they do in the "C" locale with the text in
which the locale's spaces are written as blanks. -/
theorem C100_base58_exact (L : Locale) (hL : L.Lawful) (nd : Bool) (host : Host) (cs : Bool) (t post buf key : List Byte) (n : Nat) (z : Int)
    (k : Exkey.ExKey) (pk : Exkey.ExPubkey) (param : ChainParameters) :
    Localized.fromBase58 L cs (t ++ 0#8 :: post) n buf = Base58.fromBase58 cs (t.map (L.blank cs) ++ 0#8 :: post) n buf ∧
    Localized.fromBase58Check L host cs (t ++ 0#8 :: post) n buf =
      Base58Check.fromBase58Check host cs (t.map (L.blank cs) ++ 0#8 :: post) n buf ∧
    Localized.keyFromString L nd host cs (t ++ 0#8 :: post) n key z param =
      Key.keyFromString nd host cs (t.map (L.blank cs) ++ 0#8 :: post) n key z param ∧
    Localized.exkeyFromString L nd host cs (t ++ 0#8 :: post) n k param =
      Exkey.exkeyFromString nd host cs (t.map (L.blank cs) ++ 0#8 :: post) n k param ∧
    Localized.expubkeyFromString L nd host cs (t ++ 0#8 :: post) n pk param =
      Exkey.expubkeyFromString nd host cs (t.map (L.blank cs) ++ 0#8 :: post) n pk param := by
  have hp : Localized.Ends (0#8 :: post) := .inr rfl
  exact ⟨Localized.fromBase58_blank hL _ _ _ _ hp, Localized.fromBase58Check_blank hL _ _ _ _ _ hp,
    Localized.keyFromString_blank hL _ _ _ _ _ _ _ _ hp, Localized.exkeyFromString_blank hL _ _ _ _ _ _ _ hp,
    Localized.expubkeyFromString_blank hL _ _ _ _ _ _ _ hp⟩

namespace Localized

theorem alnum_of_value {c : Byte} (h : (Base58Spec.value? c).isSome = true) :
    (48 ≤ c.toNat ∧ c.toNat ≤ 57) ∨ (65 ≤ c.toNat ∧ c.toNat ≤ 90) ∨ (97 ≤ c.toNat ∧ c.toNat ≤ 122) := by
  revert c; decide +kernel

theorem chars_of_decode {s W : List Byte} (h : Base58Spec.decode? s = some W) :
    ∀ c ∈ s, (Base58Spec.value? c).isSome = true ∨ Base58Spec.isSpace c = true := by
  rw [Base58Spec.decode?] at h
  split at h
  case isFalse => cases h
  case isTrue hc =>
    simp only [Bool.and_eq_true, List.all_eq_true] at hc
    intro c hm
    rw [← List.takeWhile_append_dropWhile (p := Base58Spec.isSpace) (l := s)] at hm
    rcases List.mem_append.mp hm with hm | hm
    · exact .inr (List.mem_takeWhile_imp hm)
    · rw [← List.takeWhile_append_dropWhile (p := fun c => !Base58Spec.isSpace c) (l := s.dropWhile Base58Spec.isSpace)] at hm
      rcases List.mem_append.mp hm with hm | hm
      · exact .inl (hc.1 c hm)
      · exact .inr (hc.2 c hm)

/-- A text that is accepted in two locales looks the same in both. -/
theorem blank_agree {L M : Locale} (hL : L.Lawful) (hM : M.Lawful) (cs : Bool) {t W X : List Byte}
    (h1 : Base58Spec.decode? (t.map (L.blank cs)) = some W) (h2 : Base58Spec.decode? (t.map (M.blank cs)) = some X) :
    t.map (L.blank cs) = t.map (M.blank cs) := by
  apply List.map_congr_left
  intro c hc
  have a1 := chars_of_decode h1 _ (List.mem_map_of_mem hc)
  have a2 := chars_of_decode h2 _ (List.mem_map_of_mem hc)
  have key : ∀ (N : Locale), N.Lawful → (Base58Spec.value? (N.blank cs c)).isSome = true ∨ Base58Spec.isSpace (N.blank cs c) = true →
      ((Base58Spec.value? c).isSome = true ∧ N.blank cs c = c) ∨ ((Base58Spec.value? c).isSome = false ∧ N.blank cs c = 32#8) := by
    intro N hN ha
    by_cases hv : (Base58Spec.value? c).isSome = true
    · left
      refine ⟨hv, ?_⟩
      rw [Locale.blank, if_neg]
      rw [hN.alnum c (alnum_of_value hv)]; simp
    · right
      refine ⟨by simpa using hv, ?_⟩
      by_cases hb : N.isspace c = true ∧ ¬ (cs = true ∧ 128 ≤ c.toNat)
      · rw [Locale.blank, if_pos hb]
      · rw [Locale.blank, if_neg hb] at ha
        rcases ha with ha | ha
        · exact absurd ha hv
        · exact absurd ⟨hN.spaces c ha, by
            rw [Base58Spec.isSpace] at ha; simp at ha; omega⟩ hb
  rcases key L hL a1 with ⟨v1, e1⟩ | ⟨v1, e1⟩ <;> rcases key M hM a2 with ⟨v2, e2⟩ | ⟨v2, e2⟩
  · rw [e1, e2]
  · rw [v1] at v2; cases v2
  · rw [v1] at v2; cases v2
  · rw [e1, e2]

theorem base58_accepts {cs : Bool} {s post buf mem : List Byte} {n : Nat} (h0 : ∀ b ∈ s, b ≠ 0#8)
    (h : Base58.fromBase58 cs (s ++ 0#8 :: post) s.length buf = .ok (mem, n)) (hn : n ≠ 0) : ∃ W, Base58Spec.decode? s = some W := by
  obtain ⟨W, hW, _⟩ := C16_from_base58_sound cs s post buf mem n h0 h hn
  exact ⟨W, hW⟩

theorem check_accepts {host : Host} {cs : Bool} {s post buf mem : List Byte} {n : Nat} (h0 : ∀ b ∈ s, b ≠ 0#8)
    (h : Base58Check.fromBase58Check host cs (s ++ 0#8 :: post) s.length buf = .ok (mem, n)) (hn : n ≠ 0) :
    ∃ W, Base58Spec.decode? s = some W := by
  rw [Base58Check.fromBase58Check] at h
  cases hb : Base58.fromBase58 cs (s ++ 0#8 :: post) s.length buf with
  | ub => rw [hb] at h; cases h
  | abort => rw [hb] at h; cases h
  | ok x =>
    obtain ⟨b, k⟩ := x
    refine base58_accepts h0 hb ?_
    intro hk
    rw [hb, hk] at h
    simp only [Res.ok_bind, show (0 : Nat) < 4 by omega, if_true, Res.pure_eq] at h
    exact hn (Prod.mk.inj (Res.ok.inj h)).2.symm

theorem key_accepts {nd : Bool} {host : Host} {cs : Bool} {s post key : List Byte} {z : Int} {param : ChainParameters}
    {r : Key.FromString} (h0 : ∀ b ∈ s, b ≠ 0#8)
    (h : Key.keyFromString nd host cs (s ++ 0#8 :: post) s.length key z param = .ok r) (hr : r.ok = true) :
    ∃ W, Base58Spec.decode? s = some W := by
  rw [Key.keyFromString] at h
  cases ha : assertNd nd (decide (param.prefixSecretKeySize ≤ 8)) with
  | ub => rw [ha] at h; cases h
  | abort => rw [ha] at h; cases h
  | ok _ =>
    cases hb : Base58Check.fromBase58Check host cs (s ++ 0#8 :: post) s.length (List.replicate 40 0xAA#8) with
    | ub => rw [ha, hb] at h; cases h
    | abort => rw [ha, hb] at h; cases h
    | ok x =>
      obtain ⟨b, k⟩ := x
      refine check_accepts h0 hb ?_
      intro hk
      rw [ha, hb, hk] at h
      simp only [Res.ok_bind, show (0 : Nat) ≤ 32 by omega, if_true, Res.pure_eq] at h
      rw [← Res.ok.inj h] at hr
      cases hr

theorem exkey_accepts {nd : Bool} {host : Host} {cs : Bool} {s post : List Byte} {k a : Exkey.ExKey} {param : ChainParameters}
    (h0 : ∀ b ∈ s, b ≠ 0#8) (h : Exkey.exkeyFromString nd host cs (s ++ 0#8 :: post) s.length k param = .ok (a, true)) :
    ∃ W, Base58Spec.decode? s = some W := by
  rw [Exkey.exkeyFromString] at h
  cases ha : assertNd nd (decide (param.prefixExtSecretKeySize ≤ 8)) with
  | ub => rw [ha] at h; cases h
  | abort => rw [ha] at h; cases h
  | ok _ =>
    cases hb : Base58Check.fromBase58Check host cs (s ++ 0#8 :: post) s.length (List.replicate 82 0xAA#8) with
    | ub => rw [ha, hb] at h; cases h
    | abort => rw [ha, hb] at h; cases h
    | ok x =>
      obtain ⟨b, n⟩ := x
      refine check_accepts h0 hb ?_
      intro hk
      rw [ha, hb, hk] at h
      simp only [Res.ok_bind] at h
      cases hc : assertNd nd (decide (0 ≤ 82)) with
      | ub => rw [hc] at h; cases h
      | abort => rw [hc] at h; cases h
      | ok _ =>
        rw [hc] at h
        simp only [Res.ok_bind] at h
        rw [if_pos (by omega)] at h
        have := (Prod.mk.inj (Res.ok.inj h)).2
        cases this


theorem expubkey_accepts {nd : Bool} {host : Host} {cs : Bool} {s post : List Byte} {k a : Exkey.ExPubkey} {param : ChainParameters}
    (h0 : ∀ b ∈ s, b ≠ 0#8) (h : Exkey.expubkeyFromString nd host cs (s ++ 0#8 :: post) s.length k param = .ok (a, true)) :
    ∃ W, Base58Spec.decode? s = some W := by
  rw [Exkey.expubkeyFromString] at h
  cases ha : assertNd nd (decide (param.prefixExtPublicKeySize ≤ 8)) with
  | ub => rw [ha] at h; cases h
  | abort => rw [ha] at h; cases h
  | ok _ =>
    cases hb : Base58Check.fromBase58Check host cs (s ++ 0#8 :: post) s.length (List.replicate 82 0xAA#8) with
    | ub => rw [ha, hb] at h; cases h
    | abort => rw [ha, hb] at h; cases h
    | ok x =>
      obtain ⟨b, n⟩ := x
      refine check_accepts h0 hb ?_
      intro hk
      rw [ha, hb, hk] at h
      simp only [Res.ok_bind] at h
      cases hc : assertNd nd (decide (0 ≤ 82)) with
      | ub => rw [hc] at h; cases h
      | abort => rw [hc] at h; cases h
      | ok _ =>
        rw [hc] at h
        simp only [Res.ok_bind] at h
        rw [if_pos (by omega)] at h
        have := (Prod.mk.inj (Res.ok.inj h)).2
        cases this

end Localized

/-- C100 (base58, no confusion). If a text is accepted in two locales it has the same value in both: no locale turns a text into
another key, extended key or payload. -/
theorem C100_base58_same (L M : Locale) (hL : L.Lawful) (hM : M.Lawful) (nd : Bool) (host : Host) (cs : Bool) (t post buf key : List Byte)
    (z : Int) (k : Exkey.ExKey) (pk : Exkey.ExPubkey) (param : ChainParameters) (h0 : ∀ b ∈ t, b ≠ 0#8) :
    (∀ a n b m, Localized.fromBase58 L cs (t ++ 0#8 :: post) t.length buf = .ok (a, n) →
      Localized.fromBase58 M cs (t ++ 0#8 :: post) t.length buf = .ok (b, m) → n ≠ 0 → m ≠ 0 → a = b ∧ n = m) ∧
    (∀ a n b m, Localized.fromBase58Check L host cs (t ++ 0#8 :: post) t.length buf = .ok (a, n) →
      Localized.fromBase58Check M host cs (t ++ 0#8 :: post) t.length buf = .ok (b, m) → n ≠ 0 → m ≠ 0 → a = b ∧ n = m) ∧
    (∀ r s, Localized.keyFromString L nd host cs (t ++ 0#8 :: post) t.length key z param = .ok r →
      Localized.keyFromString M nd host cs (t ++ 0#8 :: post) t.length key z param = .ok s → r.ok = true → s.ok = true → r = s) ∧
    (∀ a b, Localized.exkeyFromString L nd host cs (t ++ 0#8 :: post) t.length k param = .ok (a, true) →
      Localized.exkeyFromString M nd host cs (t ++ 0#8 :: post) t.length k param = .ok (b, true) → a = b) ∧
    (∀ a b, Localized.expubkeyFromString L nd host cs (t ++ 0#8 :: post) t.length pk param = .ok (a, true) →
      Localized.expubkeyFromString M nd host cs (t ++ 0#8 :: post) t.length pk param = .ok (b, true) → a = b) := by
  have hz : ∀ N : Locale, ∀ b ∈ t.map (N.blank cs), b ≠ 0#8 := by
    intro N b hb
    obtain ⟨c, hc, rfl⟩ := List.mem_map.mp hb
    exact Localized.blank_ne_zero c (h0 c hc)
  have hl : ∀ N : Locale, (t.map (N.blank cs)).length = t.length := fun N => by simp
  obtain ⟨l1, l2, l3, l4, l5⟩ := C100_base58_exact L hL nd host cs t post buf key t.length z k pk param
  obtain ⟨m1, m2, m3, m4, m5⟩ := C100_base58_exact M hM nd host cs t post buf key t.length z k pk param
  rw [l1, l2, l3, l4, l5, m1, m2, m3, m4, m5]
  rw [show t.length = (t.map (L.blank cs)).length from (hl L).symm]
  have hm : (t.map (L.blank cs)).length = (t.map (M.blank cs)).length := by simp
  refine ⟨?_, ?_, ?_, ?_, ?_⟩
  · intro a n b m e1 e2 hn hm'
    rw [hm] at e2
    obtain ⟨W, hW⟩ := Localized.base58_accepts (hz L) e1 hn
    obtain ⟨X, hX⟩ := Localized.base58_accepts (hz M) e2 hm'
    rw [← Localized.blank_agree hL hM cs hW hX, e1] at e2
    exact Prod.mk.inj (Res.ok.inj e2)
  · intro a n b m e1 e2 hn hm'
    rw [hm] at e2
    obtain ⟨W, hW⟩ := Localized.check_accepts (hz L) e1 hn
    obtain ⟨X, hX⟩ := Localized.check_accepts (hz M) e2 hm'
    rw [← Localized.blank_agree hL hM cs hW hX, e1] at e2
    exact Prod.mk.inj (Res.ok.inj e2)
  · intro r s e1 e2 hr hs
    rw [hm] at e2
    obtain ⟨W, hW⟩ := Localized.key_accepts (hz L) e1 hr
    obtain ⟨X, hX⟩ := Localized.key_accepts (hz M) e2 hs
    rw [← Localized.blank_agree hL hM cs hW hX, e1] at e2
    exact Res.ok.inj e2
  · intro a b e1 e2
    rw [hm] at e2
    obtain ⟨W, hW⟩ := Localized.exkey_accepts (hz L) e1
    obtain ⟨X, hX⟩ := Localized.exkey_accepts (hz M) e2
    rw [← Localized.blank_agree hL hM cs hW hX, e1] at e2
    exact (Prod.mk.inj (Res.ok.inj e2)).1
  · intro a b e1 e2
    rw [hm] at e2
    obtain ⟨W, hW⟩ := Localized.expubkey_accepts (hz L) e1
    obtain ⟨X, hX⟩ := Localized.expubkey_accepts (hz M) e2
    rw [← Localized.blank_agree hL hM cs hW hX, e1] at e2
    exact (Prod.mk.inj (Res.ok.inj e2)).1

/-- C100 (base58, accepted texts). What is accepted in the "C" locale is accepted, with the same result, in every locale. -/
theorem C100_base58_accepted (L : Locale) (hL : L.Lawful) (nd : Bool) (host : Host) (cs : Bool) (t post buf key : List Byte)
    (z : Int) (k : Exkey.ExKey) (pk : Exkey.ExPubkey) (param : ChainParameters) (h0 : ∀ b ∈ t, b ≠ 0#8) :
    (∀ a n, Base58.fromBase58 cs (t ++ 0#8 :: post) t.length buf = .ok (a, n) → n ≠ 0 →
      Localized.fromBase58 L cs (t ++ 0#8 :: post) t.length buf = .ok (a, n)) ∧
    (∀ a n, Base58Check.fromBase58Check host cs (t ++ 0#8 :: post) t.length buf = .ok (a, n) → n ≠ 0 →
      Localized.fromBase58Check L host cs (t ++ 0#8 :: post) t.length buf = .ok (a, n)) ∧
    (∀ r, Key.keyFromString nd host cs (t ++ 0#8 :: post) t.length key z param = .ok r → r.ok = true →
      Localized.keyFromString L nd host cs (t ++ 0#8 :: post) t.length key z param = .ok r) ∧
    (∀ a, Exkey.exkeyFromString nd host cs (t ++ 0#8 :: post) t.length k param = .ok (a, true) →
      Localized.exkeyFromString L nd host cs (t ++ 0#8 :: post) t.length k param = .ok (a, true)) ∧
    (∀ a, Exkey.expubkeyFromString nd host cs (t ++ 0#8 :: post) t.length pk param = .ok (a, true) →
      Localized.expubkeyFromString L nd host cs (t ++ 0#8 :: post) t.length pk param = .ok (a, true)) := by
  have hp : Localized.Ends (0#8 :: post) := .inr rfl
  have agree : ∀ W, Base58Spec.decode? t = some W → ∀ c ∈ t, L.isspace c = Locale.c.isspace c := by
    intro W hW c hc
    rcases Localized.chars_of_decode hW c hc with hv | hs
    · rw [hL.alnum c (Localized.alnum_of_value hv), Localized.c_lawful.alnum c (Localized.alnum_of_value hv)]
    · rw [hL.spaces c hs, Localized.c_lawful.spaces c hs]
  have key58 : ∀ W b, Base58Spec.decode? t = some W →
      Localized.fromBase58 L cs (t ++ 0#8 :: post) t.length b = Base58.fromBase58 cs (t ++ 0#8 :: post) t.length b := by
    intro W b hW
    rw [Localized.fromBase58_agree hL Localized.c_lawful t _ b _ hp (agree W hW), Localized.fromBase58_c]
  have keyCk : ∀ W b, Base58Spec.decode? t = some W → Localized.fromBase58Check L host cs (t ++ 0#8 :: post) t.length b =
      Base58Check.fromBase58Check host cs (t ++ 0#8 :: post) t.length b := by
    intro W b hW
    rw [Localized.fromBase58Check, Base58Check.fromBase58Check, key58 W b hW]
  refine ⟨?_, ?_, ?_, ?_, ?_⟩
  · intro a n e hn
    obtain ⟨W, hW⟩ := Localized.base58_accepts h0 e hn
    rw [key58 W _ hW, e]
  · intro a n e hn
    obtain ⟨W, hW⟩ := Localized.check_accepts h0 e hn
    rw [keyCk W _ hW, e]
  · intro r e hr
    obtain ⟨W, hW⟩ := Localized.key_accepts h0 e hr
    rw [← e, Localized.keyFromString, Key.keyFromString, keyCk W _ hW]
  · intro a e
    obtain ⟨W, hW⟩ := Localized.exkey_accepts h0 e
    rw [← e, Localized.exkeyFromString, Exkey.exkeyFromString, keyCk W _ hW]
  · intro a e
    obtain ⟨W, hW⟩ := Localized.expubkey_accepts h0 e
    rw [← e, Localized.expubkeyFromString, Exkey.expubkeyFromString, keyCk W _ hW]

namespace Localized

theorem skipSpaces_succ (L : Locale) (cs : Bool) (s : List Byte) (n : Nat) : skipSpaces L cs s (n + 1) =
    (skipSpaces L cs s n >>= fun x => .ok (x.1, x.2 + 1)) := by
  induction s generalizing n with
  | nil => rfl
  | cons c s ih =>
    simp only [skipSpaces]
    by_cases hc : c = 0#8
    · rw [if_pos hc, if_pos hc]; rfl
    · rw [if_neg hc, if_neg hc]
      cases hs : isspace L cs c with
      | ub => rfl
      | abort => rfl
      | ok b => cases b
                · rfl
                · exact ih (n + 1)

/-- A space of the locale in front of a text is skipped. -/
theorem fromBase58_space (L : Locale) (cs : Bool) (c : Byte) (s : List Byte) (n : Nat) (buf : List Byte) (hc0 : c ≠ 0#8)
    (hc : L.isspace c = true) (hcs : cs = true → c.toNat < 128) : fromBase58 L cs (c :: s) (n + 1) buf = fromBase58 L cs s n buf := by
  have hs : isspace L cs c = .ok true := by
    rw [isspace, if_neg, if_neg, hc]
    · cases cs
      · simp
      · have := hcs rfl; simp; omega
    · cases cs
      · simp
      · have := hcs rfl; simp; omega
  have h1 : skipSpaces L cs (c :: s) 0 = skipSpaces L cs s (0 + 1) := by
    rw [skipSpaces, if_neg hc0, hs]; rfl
  rw [fromBase58, fromBase58, h1, skipSpaces_succ]
  cases hk : skipSpaces L cs s 0 with
  | ub => rfl
  | abort => rfl
  | ok x =>
    obtain ⟨r, m⟩ := x
    simp only [Res.ok_bind]
    cases ho : Base58.countOnes r 0 with
    | ub => rfl
    | abort => rfl
    | ok y =>
      obtain ⟨r2, m2⟩ := y
      simp only [Res.ok_bind]
      rw [show ((n + 1 : Nat) : Int) - ((m + 1 : Nat) : Int) - (m2 : Int) = (n : Int) - (m : Int) - (m2 : Int) by omega]

theorem not_tooLong {s : List Byte} (h : s.length * 733 < 2 ^ 31) : ¬ Base58Spec.TooLong s := by
  have h1 : (s.dropWhile Base58Spec.isSpace).length ≤ s.length := (List.dropWhile_suffix _).length_le
  have h2 : ((s.dropWhile Base58Spec.isSpace).takeWhile (· = 49#8)).length ≤ (s.dropWhile Base58Spec.isSpace).length := (List.takeWhile_sublist _).length_le
  have h3 : ((s.dropWhile Base58Spec.isSpace).dropWhile (· = 49#8)).length ≤ (s.dropWhile Base58Spec.isSpace).length := (List.dropWhile_suffix _).length_le
  rintro (h | h) <;> omega

end Localized

/-- C100 fails for spaces: a character that is a space of the locale but not of the "C" locale makes a text that is accepted in the
former, with the value of the text behind it, and refused in the latter. -/
theorem C100_violated_blank (L : Locale) (hL : L.Lawful) (cs : Bool) (c : Byte) (t post buf W : List Byte)
    (h0 : ∀ b ∈ t, b ≠ 0#8) (hc : L.isspace c = true) (hn : Base58Spec.isSpace c = false) (hcs : cs = true → c.toNat < 128)
    (hW : Base58Spec.decode? t = some W) (hlong : (c :: t).length * 733 < 2 ^ 31) (hb : W.length ≤ buf.length) :
    Localized.fromBase58 L cs ((c :: t) ++ 0#8 :: post) (c :: t).length buf = .ok (over W buf, W.length) ∧
    Base58.fromBase58 cs ((c :: t) ++ 0#8 :: post) (c :: t).length buf = .ok (buf, 0) := by
  have hc0 : c ≠ 0#8 := by intro h; rw [h, hL.nul] at hc; cases hc
  have hval : Base58Spec.value? c = none := by
    cases hv : Base58Spec.value? c with
    | none => rfl
    | some v => rw [hL.alnum c (Localized.alnum_of_value (by rw [hv]; rfl))] at hc; cases hc
  have hchars := Localized.chars_of_decode hW
  have hlow : ∀ b ∈ t, b.toNat < 128 := by
    intro b hb
    rcases hchars b hb with h | h
    · have := Localized.alnum_of_value h; omega
    · rw [Base58Spec.isSpace] at h; simp at h; omega
  have hneg : ∀ s : List Byte, (∀ b ∈ s, cs = true → b.toNat < 128) → ¬ (cs = true ∧ Base58Spec.MeetsNegative s) := by
    rintro s hs ⟨h1, p, b, r, rfl, -, h2, -⟩
    have := hs b (by simp) h1
    rw [Base58Spec.Negative] at h2
    omega
  have hlt : t.length * 733 < 2 ^ 31 := by
    refine Nat.lt_of_le_of_lt (Nat.mul_le_mul_right 733 ?_) hlong
    rw [List.length_cons]; exact Nat.le_succ _
  constructor
  · rw [List.cons_append, List.length_cons, Localized.fromBase58_space L cs c _ _ buf hc0 hc hcs,
      Localized.fromBase58_agree hL Localized.c_lawful t _ buf _ (.inr rfl) (by
        intro b hb
        rcases hchars b hb with hv | hs
        · rw [hL.alnum b (Localized.alnum_of_value hv), Localized.c_lawful.alnum b (Localized.alnum_of_value hv)]
        · rw [hL.spaces b hs, Localized.c_lawful.spaces b hs]), Localized.fromBase58_c]
    exact (((Base58.fromBase58_total cs t post buf h0).2 (Localized.not_tooLong hlt)
      (hneg t fun b hb _ => hlow b hb)).2 W hW).1 hb
  · have := (Base58.fromBase58_total cs (c :: t) post buf (by
      intro b hb
      rcases List.mem_cons.mp hb with rfl | hb
      · exact hc0
      · exact h0 b hb)).2 (Localized.not_tooLong hlong) (hneg _ (by
        intro b hb hcs'
        rcases List.mem_cons.mp hb with rfl | hb
        · exact hcs hcs'
        · exact hlow b hb))
    refine this.1 ?_
    rw [Base58Spec.decode?]
    simp only [List.dropWhile_cons, hn, Bool.false_eq_true, if_false, List.takeWhile_cons, Bool.not_false, if_true, List.all_cons, hval]
    rfl

namespace Localized
open Bech32Spec (isUpper lower hrpExpand polymod differences)

theorem toLower_of {L : Locale} (hL : L.Lawful) {c : Byte} (hr : 33 ≤ c.toNat ∧ c.toNat ≤ 126)
    (h : isUpper c → L.tolower c = c + 32#8) : toLower L c = lower c := by
  rw [toLower, lower]
  by_cases hu : isUpper c
  · rw [if_pos ((hL.upper c hr).mpr hu), if_pos hu, h hu]
  · rw [if_neg (fun h => hu ((hL.upper c hr).mp h)), if_neg hu]

theorem differences_append' {α : Type} [DecidableEq α] (x y u v : List α) (h : x.length = y.length) :
    differences (x ++ u) (y ++ v) = differences x y + differences u v := by
  rw [differences, differences, differences, List.zip_append h, List.countP_append]

theorem differences_self {α : Type} [DecidableEq α] (x : List α) : differences x x = 0 := by
  induction x with
  | nil => rfl
  | cons a x ih => rw [differences] at ih ⊢; simp [ih]

theorem differences_maps {α β : Type} [DecidableEq β] (f g : α → β) (p : α → Bool) (x : List α) (h : ∀ a ∈ x, p a = false → f a = g a) :
    differences (x.map f) (x.map g) ≤ x.countP p := by
  induction x with
  | nil => exact Nat.le_refl _
  | cons a x ih =>
    have := ih fun b hb => h b (by simp [hb])
    rw [differences] at this ⊢
    simp only [List.map_cons, List.zip_cons_cons, List.countP_cons]
    cases hp : p a with
    | true => split <;> simp <;> omega
    | false => rw [h a (by simp) hp]; simpa using this

theorem expand_inj {x y : List Byte} (hl : x.length = y.length) (h : hrpExpand x = hrpExpand y) : x = y := by
  rw [hrpExpand, hrpExpand] at h
  obtain ⟨h1, h2⟩ := List.append_inj h (by simp [hl])
  obtain ⟨h3, -⟩ := List.append_inj h1 (by simp [hl])
  have split : ∀ a : Byte, a = (a >>> 5) <<< 5 ||| (a &&& 31#8) := by decide +kernel
  have key : ∀ a b : Byte, a >>> 5 = b >>> 5 → a &&& 31#8 = b &&& 31#8 → a = b := by
    intro a b h1 h2
    rw [split a, split b, h1, h2]
  refine List.ext_getElem hl fun i hi hj => key _ _ ?_ ?_
  · have := congrArg (·[i]?) h3
    simpa [hi, hj] using this
  · have := congrArg (·[i]?) h2
    simpa [hi, hj] using this

theorem expand_lt (x : List Byte) : ∀ v ∈ hrpExpand x, v.toNat < 32 := by
  have k1 : ∀ c : Byte, (c >>> 5).toNat < 32 := by decide +kernel
  have k2 : ∀ c : Byte, (c &&& 31#8).toNat < 32 := by decide +kernel
  intro v hv
  rw [hrpExpand] at hv
  simp only [List.mem_append, List.mem_map, List.mem_singleton] at hv
  rcases hv with (⟨c, -, rfl⟩ | rfl) | ⟨c, -, rfl⟩
  · exact k1 c
  · decide
  · exact k2 c

end Localized

open Bech32Spec (isUpper lower Valid) in
/-- C100 (Bech32). A text is read in every locale as in the "C" locale – same verdict, same prefix, same values – if the locale
lowers the upper-case letters of the text as ASCII does.  In particular: every text without upper-case letters, in every locale. -/
theorem C100_bech32_partial (L : Locale) (hL : L.Lawful) (t post hrp b32 : List Byte) (cap : Nat) (hcap : cap ≤ hrp.length)
    (h : ∀ c ∈ t, isUpper c → L.tolower c = c + 32#8) :
    Localized.bech32Decode L (t ++ 0#8 :: post) t.length hrp cap b32 = Bech32.decode (t ++ 0#8 :: post) t.length hrp cap b32 := by
  rw [← Localized.bech32Decode_c]
  rcases Localized.bech32Decode_split t post hrp b32 cap with ⟨e, he, hr⟩ | ⟨a, d, k, ht, hk, hrange, ha, hd⟩
  · rw [hr L, hr Locale.c]
  · rw [hd L, hd Locale.c, Localized.bech32DecodeAt_total L a d k _ hrp b32 hk (by omega),
      Localized.bech32DecodeAt_total Locale.c a d k _ hrp b32 hk (by omega)]
    have : a.map (Localized.toLower L) = a.map (Localized.toLower Locale.c) := by
      apply List.map_congr_left
      intro c hc
      have hm : c ∈ t := by rw [ht]; simp [hc]
      rw [Localized.toLower_of hL (hrange c hm) (h c hm), Localized.toLower_c, Bech32.toLower_eq]
    rw [this]

open Bech32Spec (isUpper lower Valid) in
/-- C100 fails for the letter `I` of Turkish and Azerbaijani locales, whose lower case is not `i`: a text in upper case with one or
two `I`s in its prefix is valid, is accepted in the "C" locale and, in lower case, in every locale, but is refused, with the verdict
"wrong checksum", in such a locale.  (The bound on the length is where the distance of the code is known.) -/
theorem C100_violated_turkish (L : Locale) (hL : L.Lawful) (hU : L.Usual) (hI : L.tolower 73#8 ≠ 105#8) (t post hrp b32 H D : List Byte)
    (cap : Nat) (hv : Valid t H D) (hup : ∃ c ∈ t, isUpper c) (h1 : 105#8 ∈ H) (h2 : H.count 105#8 ≤ 2) (hlen : t.length + H.length ≤ 89)
    (hcap : cap ≤ hrp.length) (hH : H.length ≤ cap) (hD : D.length ≤ b32.length) :
    Bech32.decode (t ++ 0#8 :: post) t.length hrp cap b32 = .ok ⟨D.length, over H hrp, H.length, over D b32⟩ ∧
    Localized.bech32Decode L (t.map lower ++ 0#8 :: post) t.length hrp cap b32 = .ok ⟨D.length, over H hrp, H.length, over D b32⟩ ∧
    ∃ r, Localized.bech32Decode L (t ++ 0#8 :: post) t.length hrp cap b32 = .ok r ∧ r.ret = -5 := by
  have hlow : ∀ c : Byte, 33 ≤ c.toNat ∧ c.toNat ≤ 126 → 33 ≤ (lower c).toNat ∧ (lower c).toNat ≤ 126 ∧ ¬ isUpper (lower c) ∧
      lower (lower c) = lower c := by decide +kernel
  have hvl : Valid (t.map lower) H D := by
    refine ⟨by simpa using hv.length, ?_, ?_, hv.hrp_ne, ?_⟩
    · intro c hc
      obtain ⟨b, hb, rfl⟩ := List.mem_map.mp hc
      have := hlow b (hv.range b hb)
      exact ⟨this.1, this.2.1⟩
    · rintro ⟨⟨c, hc, hu⟩, -⟩
      obtain ⟨b, hb, rfl⟩ := List.mem_map.mp hc
      exact (hlow b (hv.range b hb)).2.2.1 hu
    · obtain ⟨S, a1, a2, a3, a4⟩ := hv.parts
      refine ⟨S, a1, a2, ?_, a4⟩
      rw [← a3, List.map_map]
      apply List.map_congr_left
      intro c hc
      exact (hlow c (hv.range c hc)).2.2.2
  refine ⟨decode_of_valid hv post hrp cap b32 hcap hH hD, ?_, ?_⟩
  · have := C100_bech32_partial L hL (t.map lower) post hrp b32 cap hcap (by
      intro c hc hu
      obtain ⟨b, hb, rfl⟩ := List.mem_map.mp hc
      exact absurd hu (hlow b (hv.range b hb)).2.2.1)
    rw [decode_of_valid hvl post hrp cap b32 hcap hH hD, List.length_map] at this
    exact this
  · have hdec := decode_of_valid hv post hrp cap b32 hcap hH hD
    rw [← Localized.bech32Decode_c] at hdec
    rcases Localized.bech32Decode_split t post hrp b32 cap with ⟨e, he, hr⟩ | ⟨a, d, k, ht, hk, hrange, ha, hd⟩
    · rw [hr Locale.c] at hdec
      have := congrArg Bech32.DecodeResult.ret (Res.ok.inj hdec)
      simp only at this
      omega
    · have hcase : ∀ c ∈ t, ¬ Bech32Spec.isLower c := fun c hc hl => hv.case ⟨hup, c, hc, hl⟩
      rw [hd Locale.c, Localized.bech32DecodeAt_total Locale.c a d k _ hrp b32 hk (by omega)] at hdec
      rw [hd L, Localized.bech32DecodeAt_total L a d k _ hrp b32 hk (by omega)]
      have hfit : (Bech32.vals d).length ≤ b32.length := by
        by_cases hf : (Bech32.vals d).length ≤ b32.length
        · exact hf
        · rw [if_neg hf] at hdec; cases hdec
      rw [if_pos hfit] at hdec ⊢
      have hlc : a.map (Localized.toLower Locale.c) = a.map lower := by
        apply List.map_congr_left
        intro c _
        rw [Localized.toLower_c, Bech32.toLower_eq]
      rw [hlc] at hdec
      obtain ⟨e1, e2, e3, -⟩ := Bech32.DecodeResult.mk.inj (Res.ok.inj hdec)
      have hHa : a.map lower = H := by
        have := congrArg (List.take H.length) e2
        rw [over, over, List.take_left, List.take_left' (by rw [List.length_map]; exact e3)] at this
        exact this
      have hleg : ∀ c ∈ d ++ k, Bech32.value? c ≠ none := by
        by_cases hl : ∀ c ∈ d ++ k, Bech32.value? c ≠ none
        · exact hl
        · rw [if_neg hl] at e1; omega
      rw [if_pos hleg] at e1
      have hp : Bech32Spec.polymod (Bech32Spec.hrpExpand (a.map lower) ++ Bech32.vals d ++ Bech32.vals k) = 1#30 := by
        by_cases hp : Bech32Spec.polymod (Bech32Spec.hrpExpand (a.map lower) ++ Bech32.vals d ++ Bech32.vals k) = 1#30
        · exact hp
        · rw [if_neg hp] at e1; omega
      refine ⟨_, rfl, ?_⟩
      simp only
      rw [if_pos hleg, if_neg]
      intro hp'
      have hvd := Bech32.vals_all d fun c hc => hleg c (by simp [hc])
      have hvk := Bech32.vals_all k fun c hc => hleg c (by simp [hc])
      have hmem : ∀ c ∈ a, c ∈ t := fun c hc => by rw [ht]; simp [hc]
      have hdiff : ∀ (f : Byte → Byte), Bech32Spec.differences ((a.map (Localized.toLower L)).map f) ((a.map lower).map f) ≤ H.count 105#8 := by
        intro f
        rw [List.map_map, List.map_map]
        refine Nat.le_trans (Localized.differences_maps _ _ (fun c => c == 73#8) a ?_) ?_
        · intro c hc h73
          simp only [Function.comp_apply]
          rw [Localized.toLower_of hL (hrange c (hmem c hc)) fun hu => hU c hu (by simpa using h73)]
        · rw [← hHa, List.count, List.countP_map]
          apply List.countP_mono_left
          intro c _ h73
          have : c = 73#8 := by simpa using h73
          rw [this]; decide
      have hx := Bech32Spec.distance 1#30 (Bech32Spec.hrpExpand (a.map (Localized.toLower L)) ++ Bech32.vals d ++ Bech32.vals k)
        (Bech32Spec.hrpExpand (a.map lower) ++ Bech32.vals d ++ Bech32.vals k) (by simp [Bech32Spec.hrpExpand])
        (by
          have : t.length = a.length + 1 + d.length + 6 := by rw [ht]; simp [hk]; omega
          simp only [Bech32Spec.hrpExpand, List.length_append, List.length_map, List.length_singleton]
          omega)
        (by
          intro v hv'
          rcases List.mem_append.mp hv' with hv' | hv'
          · rcases List.mem_append.mp hv' with hv' | hv'
            · exact Localized.expand_lt _ v hv'
            · exact Bech32.vals_lt d v hv'
          · exact Bech32.vals_lt k v hv')
        (by
          intro v hv'
          rcases List.mem_append.mp hv' with hv' | hv'
          · rcases List.mem_append.mp hv' with hv' | hv'
            · exact Localized.expand_lt _ v hv'
            · exact Bech32.vals_lt d v hv'
          · exact Bech32.vals_lt k v hv')
        (by
          rw [Localized.differences_append' _ _ _ _ (by simp [Bech32Spec.hrpExpand]),
            Localized.differences_append' _ _ _ _ (by simp [Bech32Spec.hrpExpand]), Localized.differences_self, Localized.differences_self,
            Bech32Spec.hrpExpand, Bech32Spec.hrpExpand, Localized.differences_append' _ _ _ _ (by simp),
            Localized.differences_append' _ _ _ _ (by simp), Localized.differences_self]
          have q1 := hdiff (fun c => c >>> 5)
          have q2 := hdiff (fun c => c &&& 31#8)
          have q3 : H.count 105#8 + H.count 105#8 ≤ 4 := by omega
          simp only [Nat.add_zero]
          exact Nat.le_trans (Nat.add_le_add q1 q2) q3)
        (by rw [← Bech32Spec.polymod, ← Bech32Spec.polymod, hp, hp'])
      have hx1 := (List.append_inj (List.append_inj hx (by simp [Bech32Spec.hrpExpand])).1 (by simp [Bech32Spec.hrpExpand])).1
      have hx2 := Localized.expand_inj (by simp) hx1
      rw [← hHa] at h1
      obtain ⟨c, hc, hc5⟩ := List.mem_map.mp h1
      have hc73 : c = 73#8 := by
        have key : ∀ c : Byte, lower c = 105#8 → c = 73#8 ∨ Bech32Spec.isLower c := by decide +kernel
        rcases key c hc5 with h | h
        · exact h
        · exact absurd h (hcase c (hmem c hc))
      have := List.map_inj_left.mp hx2 c hc
      rw [hc73, Localized.toLower, if_pos ((hL.upper 73#8 (by decide)).mpr (by decide))] at this
      exact hI (by rw [this]; decide)

namespace Localized

/-- Letters of the networks' prefixes. -/
theorem net_letters (net : Network) : ∀ c ∈ net.hrp, c ∈ [98#8, 99#8, 116#8, 114#8] := by cases net <;> decide

/-- Reading a witness address in a usual locale. -/
theorem decodeBech32_usual (L : Locale) (hL : L.Lawful) (hU : L.Usual) (hI : L.tolower 73#8 ∉ [98#8, 99#8, 116#8, 114#8])
    (net : Network) (cs : Bool) (stack t post out : List Byte) (m : Nat) :
    decodeBech32 L cs stack (t ++ 0#8 :: post) t.length out m net.param =
      Address.decodeBech32 cs stack (t ++ 0#8 :: post) t.length out m net.param := by
  obtain ⟨n1, n2, n4, n5, n6, n7, n8⟩ := net_hrp net
  rw [← decodeBech32_c, decodeBech32, decodeBech32]
  rcases bech32Decode_split t post (List.replicate 16 0xAA#8) (Address.buffer stack t.length) 16 with ⟨e, he, hr⟩ | ⟨a, d, k, ht, hk, hrange, ha, hd⟩
  · rw [hr L, hr Locale.c]
  have hmem : ∀ c ∈ a, c ∈ t := fun c hc => by rw [ht]; simp [hc]
  have hlc : a.map (toLower Locale.c) = a.map Bech32Spec.lower := by
    apply List.map_congr_left
    intro c _
    rw [toLower_c, Bech32.toLower_eq]
  rw [hd L, hd Locale.c, bech32DecodeAt_total L a d k _ _ _ hk (by simp; omega),
    bech32DecodeAt_total Locale.c a d k _ _ _ hk (by simp; omega), hlc]
  by_cases h73 : 73#8 ∈ a
  · have bad : ∀ (p : List Byte) (x : Byte) (v : Int) (b : List Byte), p.length = a.length → x ∈ p → x ∉ [98#8, 99#8, 116#8, 114#8] →
        ((Res.ok (⟨v, over p (List.replicate 16 0xAA#8), a.length, b⟩ : Bech32.DecodeResult)) >>= fun r =>
          if r.ret < 1 ∨ r.hrpSize ≠ net.param.bech32HrpSize then pure ⟨.bad, out, m⟩
          else do
            let same ← memeq r.hrp net.param.bech32Hrp r.hrpSize
            if !same then pure ⟨.bad, out, m⟩
            else Address.decodeWitness cs r.b32 r.ret.toNat out m) = (.ok ⟨.bad, out, m⟩ : Res Decoded) := by
      intro p x v b hp hx hn
      rw [Res.ok_bind]
      by_cases hc : v < 1 ∨ a.length ≠ net.param.bech32HrpSize
      · rw [if_pos hc]; rfl
      · rw [if_neg hc]
        have hsz : a.length = net.param.bech32HrpSize := by
          by_cases h : a.length = net.param.bech32HrpSize
          · exact h
          · exact absurd (.inr h) hc
        have hne : memeq (over p (List.replicate 16 0xAA#8)) net.param.bech32Hrp a.length = .ok false := by
          rw [memeq, if_pos ⟨by rw [over_length _ _ (by simp; omega)]; simpa using ha, by omega⟩]
          congr 1
          rw [over, List.take_left' hp, hsz, n2]
          rw [beq_eq_false_iff_ne]
          intro e
          rw [e] at hx
          exact hn (net_letters net x hx)
        simp only [hne, Res.ok_bind]
        rfl
    split
    · rw [bad (a.map (toLower L)) (L.tolower 73#8) _ _ (by simp) (by
        refine List.mem_map.mpr ⟨73#8, h73, ?_⟩
        rw [toLower, if_pos ((hL.upper 73#8 (by decide)).mpr (by decide))]) hI,
        bad (a.map Bech32Spec.lower) 105#8 _ _ (by simp) (List.mem_map.mpr ⟨73#8, h73, by decide⟩) (by decide)]
    · rfl
  · have : a.map (toLower L) = a.map Bech32Spec.lower := by
      apply List.map_congr_left
      intro c hc
      rw [toLower_of hL (hrange c (hmem c hc)) fun hu => hU c hu fun h => h73 (h ▸ hc)]
    rw [this]

end Localized

/-- C100 (addresses). An address is read in every usual locale, the Turkish ones included, as in the "C" locale, unless it contains
a character that is a space in that locale only.  (`I` may be lowered to anything but the letters `b`, `c`, `r`, `t`.) -/
theorem C100_address (L : Locale) (hL : L.Lawful) (hU : L.Usual) (hI : L.tolower 73#8 ∉ [98#8, 99#8, 116#8, 114#8]) (net : Network)
    (host : Host) (cs : Bool) (stack t post out : List Byte) (m : Nat) (hs : ∀ c ∈ t, L.isspace c = Base58Spec.isSpace c) :
    Localized.addressDecode L host cs stack (t ++ 0#8 :: post) t.length out m net.param =
      addressDecode host cs stack (t ++ 0#8 :: post) t.length out m net.param := by
  rw [Localized.addressDecode, addressDecode]
  have hb : ∀ b, Localized.fromBase58Check L host cs (t ++ 0#8 :: post) t.length b =
      Base58Check.fromBase58Check host cs (t ++ 0#8 :: post) t.length b := by
    intro b
    rw [Localized.fromBase58Check, Base58Check.fromBase58Check,
      Localized.fromBase58_agree hL Localized.c_lawful t _ b _ (.inr rfl) (fun c hc => hs c hc), Localized.fromBase58_c]
  simp only [hb, Localized.decodeBech32_usual L hL hU hI net cs stack t post]

/-- C100 (accepted addresses). What is an address in the "C" locale is the same address in every usual locale. -/
theorem C100_address_accepted (L : Locale) (hL : L.Lawful) (hU : L.Usual) (hI : L.tolower 73#8 ∉ [98#8, 99#8, 116#8, 114#8]) (net : Network)
    (host : Host) (cs : Bool) (stack t post out : List Byte) (r : Decoded) (h0 : ∀ b ∈ t, b ≠ 0#8) (hst : stack.length = 128)
    (h : addressDecode host cs stack (t ++ 0#8 :: post) t.length out out.length net.param = .ok r) (hk : r.kind ≠ .bad) :
    Localized.addressDecode L host cs stack (t ++ 0#8 :: post) t.length out out.length net.param = .ok r := by
  rw [C100_address L hL hU hI net host cs stack t post out out.length ?_, h]
  have hdec : ∀ out' sz, decodeBech32 cs stack (t ++ 0#8 :: post) t.length out' sz net.param = .ok r → ∃ D, Bech32Spec.Valid t net.hrp D := by
    intro out' sz he
    obtain ⟨n1, n2, -⟩ := net_hrp net
    rcases decodeBech32_any t (0#8 :: post) cs stack out' sz net.param hst (by simp) n1 with hb | ⟨D, hD, -, -⟩
    · rw [hb] at he
      rw [← Res.ok.inj he] at hk
      exact absurd rfl hk
    · rw [n2] at hD; exact ⟨D, hD⟩
  have hacc : (∃ W, Base58Spec.decode? t = some W) ∨ ∃ D, Bech32Spec.Valid t net.hrp D := by
    rw [addressDecode] at h
    split at h
    · rw [← Res.ok.inj h] at hk; exact absurd rfl hk
    · cases hb : Base58Check.fromBase58Check host cs (t ++ 0#8 :: post) t.length out with
      | ub => rw [hb] at h; cases h
      | abort => rw [hb] at h; cases h
      | ok x =>
        obtain ⟨b, n⟩ := x
        by_cases hn : n = 0
        · right
          rw [hb, hn] at h
          simp only [Res.ok_bind, ne_eq, not_true, if_false] at h
          exact hdec _ _ h
        · left
          exact Localized.check_accepts h0 hb hn
  intro c hc
  rcases hacc with ⟨W, hW⟩ | ⟨D, hD⟩
  · rcases Localized.chars_of_decode hW c hc with hv | hs
    · rw [hL.alnum c (Localized.alnum_of_value hv)]
      exact (Localized.c_lawful.alnum c (Localized.alnum_of_value hv)).symm
    · rw [hL.spaces c hs, hs]
  · have hal : (48 ≤ c.toNat ∧ c.toNat ≤ 57) ∨ (65 ≤ c.toNat ∧ c.toNat ≤ 90) ∨ (97 ≤ c.toNat ∧ c.toNat ≤ 122) := by
      obtain ⟨S, -, hlt, hmap, -⟩ := hD.parts
      have hm : Bech32Spec.lower c ∈ net.hrp ++ [49#8] ++ (D ++ S).map Bech32Spec.char := by
        rw [← hmap]; exact List.mem_map_of_mem hc
      have key : ∀ c : Byte, ((48 ≤ (Bech32Spec.lower c).toNat ∧ (Bech32Spec.lower c).toNat ≤ 57) ∨
          (97 ≤ (Bech32Spec.lower c).toNat ∧ (Bech32Spec.lower c).toNat ≤ 122)) →
          (48 ≤ c.toNat ∧ c.toNat ≤ 57) ∨ (65 ≤ c.toNat ∧ c.toNat ≤ 90) ∨ (97 ≤ c.toNat ∧ c.toNat ≤ 122) := by decide +kernel
      refine key c ?_
      rcases List.mem_append.mp hm with hm | hm
      · rcases List.mem_append.mp hm with hm | hm
        · have := Localized.net_letters net _ hm
          revert this
          generalize Bech32Spec.lower c = x
          revert x; decide +kernel
        · rw [List.mem_singleton.mp hm]; decide
      · obtain ⟨v, hv, hv2⟩ := List.mem_map.mp hm
        rw [← hv2]
        have hl := hlt v hv
        revert hl
        generalize v = x
        revert x; decide +kernel
    rw [hL.alnum c hal]
    exact (Localized.c_lawful.alnum c hal).symm
