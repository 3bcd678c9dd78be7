import Verif.Lemmas.Announced
import Verif.Props.NeedDecode

/-! C97: does the announced length delimit the text? -/
open Base58Spec Positional

namespace Base58

theorem filterMap_value (l : List Byte) (h : ∀ c ∈ l, (value? c).isSome = true) : (l.filterMap value?).length = l.length := by
  induction l with
  | nil => rfl
  | cons c l ih =>
    obtain ⟨v, hv⟩ := Option.isSome_iff_exists.mp (h c (by simp))
    rw [List.filterMap_cons_some hv, List.length_cons, List.length_cons, ih fun c hc => h c (by simp [hc])]

/-- The digits of a text up to the first blank are all its leading digits. -/
theorem takeWhile_digits (t : List Byte) (h : (t.takeWhile fun c => !isSpace c).all (fun c => (value? c).isSome) = true) :
    (t.takeWhile fun c => (value? c).isSome) = t.takeWhile fun c => !isSpace c := by
  induction t with
  | nil => rfl
  | cons c t ih =>
    by_cases hs : isSpace c = true
    · have hd : (value? c).isSome = false := by
        cases hv : (value? c).isSome with
        | false => rfl
        | true => rw [digit_not_space c hv] at hs; cases hs
      simp [hs, hd]
    · simp only [List.takeWhile_cons, hs, Bool.not_false, if_true, List.all_cons, Bool.and_eq_true] at h ⊢
      rw [if_pos h.1, ih h.2]

theorem number_bytes (l : List Byte) : number (bytes l) = value 58 (l.filterMap value?) := by
  unfold number bytes
  rw [List.map_append, value_append, value_zeros, List.map_map]
  · have : ((digits 256 (value 58 (l.filterMap value?))).map (BitVec.toNat ∘ BitVec.ofNat 8)) = digits 256 (value 58 (l.filterMap value?)) := by
      conv => rhs; rw [← List.map_id (digits 256 (value 58 (l.filterMap value?)))]
      apply List.map_congr_left
      intro d hd
      have := digits_lt 256 _ (by omega) d hd
      simp only [Function.comp, BitVec.toNat_ofNat, id]
      omega
    rw [this, value_digits 256 _ (by omega)]; simp
  · intro x hx
    obtain ⟨y, hy, rfl⟩ := List.mem_map.mp hx
    rw [List.eq_of_mem_replicate hy]; rfl

theorem decode_number (s W : List Byte) (hd : decode? s = some W) : leadingNumber s = number W := by
  unfold decode? at hd
  simp only at hd
  split at hd
  · rename_i h
    rw [Bool.and_eq_true] at h
    rw [← Option.some.inj hd, number_bytes, leadingNumber, takeWhile_digits _ h.1]
  · cases hd

theorem number_lt_iff (W : List Byte) (k : Nat) : number W < 256 ^ k ↔ significant W ≤ k := by
  have e : (digits 256 (number W)).length = significant W := by
    have := dropWhile_zero_eq_digits 256 (by omega) (W.map BitVec.toNat) (by
      intro d hd
      obtain ⟨b, -, rfl⟩ := List.mem_map.mp hd
      exact b.isLt)
    rw [number, ← this, significant, List.dropWhile_map, List.length_map]
    congr 2
    funext b
    simp only [Function.comp, decide_eq_decide]
    constructor
    · intro h; exact BitVec.eq_of_toNat_eq h
    · intro h; rw [h]; rfl
  constructor
  · intro h; rw [← e]; exact digits_length_le 256 _ k (by omega) h
  · intro h
    have := value_lt 256 _ (digits_lt 256 (number W) (by omega))
    rw [value_digits 256 _ (by omega), e] at this
    exact Nat.lt_of_lt_of_le this (Nat.pow_le_pow_right (by omega) h)

/-- The work area sized by the length of a text of digits suffices for it. -/
theorem digits_fit (t : List Byte) (ht : ∀ b ∈ t, (value? b).isSome = true) :
    value 58 (t.filterMap value?) < 256 ^ workArea t.length (t.takeWhile (· = 49#8)).length := by
  conv => lhs; rw [← List.takeWhile_append_dropWhile (p := (· = 49#8)) (l := t)]
  rw [value_bytes_ones _ _ (all_takeWhile_ones t)]
  have hv := value_lt 58 ((t.dropWhile (· = 49#8)).filterMap value?) (by
    intro d hd
    obtain ⟨c, -, hc⟩ := List.mem_filterMap.mp hd
    exact value?_lt c d hc)
  rw [filterMap_value _ (fun c hc => ht c ((List.dropWhile_suffix _).subset hc))] at hv
  have hb := pow_bound_dec (t.dropWhile (· = 49#8)).length
  have hsum : (t.takeWhile (· = 49#8)).length + (t.dropWhile (· = 49#8)).length = t.length := by
    rw [← List.length_append, List.takeWhile_append_dropWhile]
  rw [workArea, show t.length - (t.takeWhile (· = 49#8)).length = (t.dropWhile (· = 49#8)).length by omega]
  exact Nat.lt_of_lt_of_le hv hb

theorem decode_blanks (t r : List Byte) (ht : ∀ b ∈ t, (value? b).isSome = true) (hr : ∀ b ∈ r, isSpace b = true) (hne : t ≠ []) :
    decode? (t ++ r) = some (bytes t) ∧ leading (t ++ r) = (t.takeWhile (· = 49#8)).length := by
  have hsp : ∀ b ∈ t, isSpace b = false := fun b hb => digit_not_space b (ht b hb)
  have hdrop : (t ++ r).dropWhile isSpace = t ++ r := by
    obtain ⟨b, t', rfl⟩ := List.exists_cons_of_ne_nil hne
    rw [List.cons_append, List.dropWhile_cons_of_neg (by rw [hsp b (by simp)]; decide)]
  have htake : (t ++ r).takeWhile isSpace = [] := by
    obtain ⟨b, t', rfl⟩ := List.exists_cons_of_ne_nil hne
    rw [List.cons_append, List.takeWhile_cons_of_neg (by rw [hsp b (by simp)]; decide)]
  have hr0 : r.takeWhile (fun c => !isSpace c) = [] ∧ r.dropWhile (fun c => !isSpace c) = r ∧ r.takeWhile (· = 49#8) = [] := by
    cases r with
    | nil => simp
    | cons c r =>
      have hc := hr c (by simp)
      have hc1 : c ≠ 49#8 := by rintro rfl; exact absurd hc (by decide)
      simp [hc, hc1]
  have hbody : (t ++ r).takeWhile (fun c => !isSpace c) = t := by
    rw [List.takeWhile_append_of_pos (by intro b hb; rw [hsp b hb]; rfl), hr0.1, List.append_nil]
  have hrest : (t ++ r).dropWhile (fun c => !isSpace c) = r := by
    rw [List.dropWhile_append_of_pos (by intro b hb; rw [hsp b hb]; rfl), hr0.2.1]
  have hones : (t ++ r).takeWhile (· = 49#8) = t.takeWhile (· = 49#8) := by
    rw [List.takeWhile_append]
    split
    · rename_i h
      rw [hr0.2.2, List.append_nil]
      exact ((List.takeWhile_prefix _).eq_of_length h).symm
    · rfl
  constructor
  · unfold decode?
    simp only [hdrop, hbody, hrest]
    rw [if_pos]
    rw [Bool.and_eq_true, List.all_eq_true, List.all_eq_true]
    exact ⟨ht, hr⟩
  · rw [leading, htake, hdrop, hones]; simp

end Base58

/-- C97 holds for hex, Base64 and URL-safe Base64: the result depends on the announced characters only, no terminator is needed. -/
theorem C97_hex_base64 (s post post' buf : List Byte) :
    Hex.fromHex (s ++ post) s.length buf = Hex.fromHex (s ++ post') s.length buf ∧
    Base64.fromBase64 (s ++ post) s.length buf = Base64.fromBase64 (s ++ post') s.length buf ∧
    Base64.fromBase64Urlsafe (s ++ post) s.length buf = Base64.fromBase64Urlsafe (s ++ post') s.length buf := by
  rw [C95_from_hex, C95_from_hex, (C95_from_base64 s post buf).1, (C95_from_base64 s post' buf).1, (C95_from_base64 s post buf).2,
    (C95_from_base64 s post' buf).2]
  exact ⟨rfl, rfl, rfl⟩

/-- C97 is violated by base58: text is read up to the NUL, whatever length was announced.  A text that stands for the bytes `W` is decoded
to `W` – unless the work area, whose size is all the announced length decides, is too small: then an assertion fails. -/
theorem C97_violated_base58 (cs : Bool) (s post buf W : List Byte) (n : Nat) (h0 : ∀ b ∈ s, b ≠ 0#8)
    (h7 : cs = true → ∀ b ∈ s, b.toNat < 128) (hd : decode? s = some W) (hl : leading s ≤ n) (hn : n * 733 < 2 ^ 31) :
    Base58.fromBase58 cs (s ++ 0#8 :: post) n buf =
      if significant W ≤ workArea n (leading s) then
        if W.length ≤ buf.length then .ok (over W buf, W.length) else .ub
      else .abort := by
  have hw : Base58.workSize ((n : Int) - (leading s : Int)) = .ok (workArea n (leading s)) := by
    rw [show (n : Int) - (leading s : Int) = ((n - leading s : Nat) : Int) by omega]
    exact Base58.workSize_eq _ (Nat.lt_of_le_of_lt (Nat.mul_le_mul_right _ (Nat.sub_le _ _)) hn)
  have ho : ((s.dropWhile isSpace).takeWhile (· = 49#8)).length < 2 ^ 31 := by
    unfold leading at hl; omega
  rw [Base58.fromBase58_any cs s post buf n _ h0 h7 ho hw, hd, Base58.decode_number s W hd]
  simp only [Base58.number_lt_iff]

/-- C97 for base58 holds where nothing but blanks stands between the text and the next NUL: a text of digits, announced with its length,
is decoded as if the NUL followed at once. -/
theorem C97_base58_partial (cs : Bool) (t r post buf : List Byte) (ht : ∀ b ∈ t, value? b ≠ none) (hne : t ≠ [])
    (hr : ∀ b ∈ r, isSpace b = true) (hn : t.length * 733 < 2 ^ 31) :
    Base58.fromBase58 cs (t ++ r ++ 0#8 :: post) t.length buf =
      if (bytes t).length ≤ buf.length then .ok (over (bytes t) buf, (bytes t).length) else .ub := by
  have hdig : ∀ b : Byte, value? b ≠ none → b ≠ 0#8 ∧ b.toNat < 128 := by decide +kernel
  have hbl : ∀ b : Byte, isSpace b = true → b ≠ 0#8 ∧ b.toNat < 128 := by decide +kernel
  have hsome : ∀ b ∈ t, (value? b).isSome = true := fun b hb => Option.isSome_iff_ne_none.mpr (ht b hb)
  obtain ⟨hd, hl⟩ := Base58.decode_blanks t r hsome hr hne
  have hle : (t.takeWhile (· = 49#8)).length ≤ t.length := (List.takeWhile_sublist _).length_le
  have hboth : ∀ b ∈ t ++ r, b ≠ 0#8 ∧ b.toNat < 128 := by
    intro b hb
    rcases List.mem_append.mp hb with hb | hb
    · exact hdig b (ht b hb)
    · exact hbl b (hr b hb)
  rw [C97_violated_base58 cs (t ++ r) post buf _ t.length (fun b hb => (hboth b hb).1) (fun _ b hb => (hboth b hb).2) hd
    (by rw [hl]; exact hle) hn, if_pos]
  rw [← Base58.number_lt_iff, Base58.number_bytes, hl]
  exact Base58.digits_fit t hsome

/-- C97 is violated by base58: a text of legal digits only, announced with its length, is refused if a character that is neither a digit
nor a blank follows it in memory. -/
theorem C97_violated_base58_refused (cs : Bool) (t r post buf : List Byte) (c : Byte) (ht : ∀ b ∈ t, value? b ≠ none)
    (hc : value? c = none ∧ isSpace c = false) (h0 : c ≠ 0#8 ∧ ∀ b ∈ r, b ≠ 0#8)
    (h7 : cs = true → c.toNat < 128 ∧ ∀ b ∈ r, b.toNat < 128) (hn : t.length * 733 < 2 ^ 31) :
    Base58.fromBase58 cs (t ++ c :: r ++ 0#8 :: post) t.length buf = .ok (buf, 0) := by
  have hdig : ∀ b : Byte, value? b ≠ none → b ≠ 0#8 ∧ b.toNat < 128 ∧ isSpace b = false := by decide +kernel
  have hsome : ∀ b ∈ t, (value? b).isSome = true := fun b hb => Option.isSome_iff_ne_none.mpr (ht b hb)
  have hc1 : c ≠ 49#8 := by rintro rfl; exact absurd hc.1 (by decide +kernel)
  have hdrop : (t ++ c :: r).dropWhile isSpace = t ++ c :: r := by
    cases t with
    | nil => rw [List.nil_append, List.dropWhile_cons_of_neg (by rw [hc.2]; decide)]
    | cons b t => rw [List.cons_append, List.dropWhile_cons_of_neg (by rw [(hdig b (ht b (by simp))).2.2]; decide)]
  have htake : (t ++ c :: r).takeWhile isSpace = [] := by
    cases t with
    | nil => rw [List.nil_append, List.takeWhile_cons_of_neg (by rw [hc.2]; decide)]
    | cons b t => rw [List.cons_append, List.takeWhile_cons_of_neg (by rw [(hdig b (ht b (by simp))).2.2]; decide)]
  have hones : (t ++ c :: r).takeWhile (· = 49#8) = t.takeWhile (· = 49#8) := by
    rw [List.takeWhile_append]
    split
    · rename_i h
      rw [List.takeWhile_cons_of_neg (by simpa using hc1), List.append_nil]
      exact ((List.takeWhile_prefix _).eq_of_length h).symm
    · rfl
  have hlead : leading (t ++ c :: r) = (t.takeWhile (· = 49#8)).length := by
    rw [leading, htake, hdrop, hones]; simp
  have hle : (t.takeWhile (· = 49#8)).length ≤ t.length := (List.takeWhile_sublist _).length_le
  have hd0 : decode? (t ++ c :: r) = none := by
    unfold decode?
    simp only [hdrop]
    rw [if_neg]
    intro h
    rw [Bool.and_eq_true, List.all_eq_true] at h
    have : c ∈ (t ++ c :: r).takeWhile (fun c => !isSpace c) := by
      rw [List.takeWhile_append_of_pos (by intro b hb; rw [(hdig b (ht b hb)).2.2]; rfl), List.takeWhile_cons_of_pos (by rw [hc.2]; rfl)]
      simp
    have := h.1 c this
    rw [hc.1] at this; cases this
  have hnum : Base58.leadingNumber (t ++ c :: r) < 256 ^ workArea t.length (leading (t ++ c :: r)) := by
    rw [Base58.leadingNumber, hdrop, List.takeWhile_append_of_pos hsome, List.takeWhile_cons_of_neg (by rw [hc.1]; decide),
      List.append_nil, hlead]
    exact Base58.digits_fit t hsome
  have hw : Base58.workSize ((t.length : Int) - (leading (t ++ c :: r) : Int)) = .ok (workArea t.length (leading (t ++ c :: r))) := by
    rw [hlead, show (t.length : Int) - ((t.takeWhile (· = 49#8)).length : Int) = ((t.length - (t.takeWhile (· = 49#8)).length : Nat) : Int) by omega]
    exact Base58.workSize_eq _ (Nat.lt_of_le_of_lt (Nat.mul_le_mul_right _ (Nat.sub_le _ _)) hn)
  rw [Base58.fromBase58_any cs (t ++ c :: r) post buf t.length _ ?_ ?_ ?_ hw, if_pos hnum, hd0]
  · intro b hb
    rcases List.mem_append.mp hb with hb | hb
    · exact (hdig b (ht b hb)).1
    · rcases List.mem_cons.mp hb with rfl | hb
      · exact h0.1
      · exact h0.2 b hb
  · intro hcs b hb
    rcases List.mem_append.mp hb with hb | hb
    · exact (hdig b (ht b hb)).2.1
    · rcases List.mem_cons.mp hb with rfl | hb
      · exact (h7 hcs).1
      · exact (h7 hcs).2 b hb
  · rw [hdrop, hones]; omega

/-- C97 is violated by base58 and Base58Check: a text that is not followed by a NUL makes them read beyond the memory it lies in, even if
its length is announced correctly. -/
theorem C97_violated_base58_unterminated (host : Host) (cs : Bool) (t buf W : List Byte) (h0 : ∀ b ∈ t, b ≠ 0#8) (hl : ¬ TooLong t)
    (hn : ¬ (cs = true ∧ MeetsNegative t)) (hd : decode? t = some W) (hW : W ≠ []) :
    Base58.fromBase58 cs t t.length buf = .ub ∧ Base58Check.fromBase58Check host cs t t.length buf = .ub := by
  have key : Base58.fromBase58 cs t t.length buf = .ub := by
    have ht := ((Base58.fromBase58_total cs t [] buf h0).2 hl hn).2 W hd
    rcases Base58.fromBase58_no_nul cs t buf t.length h0 with h | h | h
    · exact h
    · have h := h [0#8]
      by_cases hb : W.length ≤ buf.length
      · rw [ht.1 hb] at h; cases h
      · rw [ht.2 (by omega)] at h; cases h
    · have h := h [0#8]
      by_cases hb : W.length ≤ buf.length
      · rw [ht.1 hb] at h
        have := congrArg Prod.snd (Res.ok.inj h)
        exact absurd (List.length_eq_zero_iff.mp this) hW
      · rw [ht.2 (by omega)] at h; cases h
  refine ⟨key, ?_⟩
  unfold Base58Check.fromBase58Check
  rw [key]; rfl

/-- C97 is violated by Base58Check, WIF, xprv and xpub: for text standing for `W`, the announced length decides nothing but whether an
assertion fails: if it does not, the result is the same as for the length of the whole text up to the NUL. (`nd` concerns key.c and exkey.c;
base58.c is built with assertions here, see C98 for the other case.) -/
theorem C97_violated_base58check (nd : Bool) (host : Host) (cs : Bool) (s post buf W : List Byte) (n : Nat) (h0 : ∀ b ∈ s, b ≠ 0#8)
    (h7 : cs = true → ∀ b ∈ s, b.toNat < 128) (hd : decode? s = some W) (hl : leading s ≤ n) (hn : n * 733 < 2 ^ 31)
    (hs : s.length ≤ 2929669) (key32 : List Byte) (c : Int) (key : Exkey.ExKey) (pub : Exkey.ExPubkey) (param : ChainParameters)
    (hp : param.prefixSecretKeySize ≤ 8 ∧ param.prefixExtSecretKeySize ≤ 8 ∧ param.prefixExtPublicKeySize ≤ 8) :
    let str := s ++ 0#8 :: post
    (significant W ≤ workArea n (leading s) →
      Base58Check.fromBase58Check host cs str n buf = Base58Check.fromBase58Check host cs str s.length buf ∧
      Key.keyFromString nd host cs str n key32 c param = Key.keyFromString nd host cs str s.length key32 c param ∧
      Exkey.exkeyFromString nd host cs str n key param = Exkey.exkeyFromString nd host cs str s.length key param ∧
      Exkey.expubkeyFromString nd host cs str n pub param = Exkey.expubkeyFromString nd host cs str s.length pub param) ∧
    (workArea n (leading s) < significant W →
      Base58Check.fromBase58Check host cs str n buf = .abort ∧
      Key.keyFromString nd host cs str n key32 c param = .abort ∧
      Exkey.exkeyFromString nd host cs str n key param = .abort ∧
      Exkey.expubkeyFromString nd host cs str n pub param = .abort) := by
  have h := fun buf => C97_violated_base58 cs s post buf W n h0 h7 hd hl hn
  have hr := Base58Check.readable_of cs s h7 hs
  have ht := fun buf => ((Base58.fromBase58_total cs s post buf h0).2 hr.1 hr.2).2 W hd
  have e : ∀ buf, significant W ≤ workArea n (leading s) →
      Base58Check.fromBase58Check host cs (s ++ 0#8 :: post) n buf = Base58Check.fromBase58Check host cs (s ++ 0#8 :: post) s.length buf := by
    intro buf hfit
    unfold Base58Check.fromBase58Check
    rw [h buf, if_pos hfit]
    by_cases hb : W.length ≤ buf.length
    · rw [if_pos hb, (ht buf).1 hb]
    · rw [if_neg hb, (ht buf).2 (by omega)]
  have e' : ∀ buf, workArea n (leading s) < significant W → Base58Check.fromBase58Check host cs (s ++ 0#8 :: post) n buf = .abort := by
    intro buf hfit
    unfold Base58Check.fromBase58Check
    rw [h buf, if_neg (by omega)]; rfl
  refine ⟨fun hfit => ⟨e buf hfit, ?_, ?_, ?_⟩, fun hfit => ⟨e' buf hfit, ?_, ?_, ?_⟩⟩
  · unfold Key.keyFromString; simp only [e _ hfit]
  · unfold Exkey.exkeyFromString; simp only [e _ hfit]
  · unfold Exkey.expubkeyFromString; simp only [e _ hfit]
  · unfold Key.keyFromString; simp only [e' _ hfit, hp.1, decide_true]; cases nd <;> rfl
  · unfold Exkey.exkeyFromString; simp only [e' _ hfit, hp.2.1, decide_true]; cases nd <;> rfl
  · unfold Exkey.expubkeyFromString; simp only [e' _ hfit, hp.2.2, decide_true]; cases nd <;> rfl

/-- C97 for Base32 holds where no `'='` stands between the text and the next NUL: then the result depends on the announced characters
only. -/
theorem C97_base32_partial (cs : Bool) (s u post post' buf : List Byte) (hs : ∀ b ∈ s ++ u, b ≠ 0#8 ∧ b ≠ chr '=') :
    Base32.fromBase32 cs (s ++ u ++ 0#8 :: post) s.length buf = Base32.fromBase32 cs (s ++ 0#8 :: post') s.length buf := by
  have h1 : Base32.strlen (s ++ u ++ 0#8 :: post) s.length = .ok s.length := by
    unfold Base32.strlen strchr
    rw [show (0#8 : Byte) :: post = 0 :: post from rfl, strchrFrom_none _ (s ++ u) post 0 (by decide) (fun b hb => (hs b hb).2)]; rfl
  have h2 : Base32.strlen (s ++ 0#8 :: post') s.length = .ok s.length := by
    unfold Base32.strlen strchr
    rw [show (0#8 : Byte) :: post' = 0 :: post' from rfl,
      strchrFrom_none _ s post' 0 (by decide) (fun b hb => (hs b (List.mem_append_left _ hb)).2)]; rfl
  unfold Base32.fromBase32
  rw [Base32.fromBase32Impl_total cs false _ buf _ _ h1 (by simp), Base32.fromBase32Impl_total cs false _ buf _ _ h2 (by simp),
    List.append_assoc, List.take_left, List.take_left]

/-- C97 is violated by Base32: if a `'='` stands somewhere before the next NUL, all text before it is decoded, whatever length was
announced; and the required size is computed from it, too. -/
theorem C97_violated_base32 (cs : Bool) (s post post' buf : List Byte) (n : Nat) (hs : ∀ b ∈ s, b ≠ 0#8 ∧ b ≠ chr '=') :
    Base32.fromBase32 cs (s ++ chr '=' :: post) n buf = Base32.fromBase32 cs (s ++ 0#8 :: post') s.length buf ∧
    Base32.fromBase32Length (s ++ chr '=' :: post) n = Base32.fromBase32Length (s ++ 0#8 :: post') s.length := by
  have h1 : Base32.strlen (s ++ chr '=' :: post) n = .ok s.length := by
    unfold Base32.strlen strchr
    rw [strchrFrom_some _ s post 0 (fun b hb => ⟨(hs b hb).2, (hs b hb).1⟩)]
    simp only [Nat.zero_add]; rfl
  have h2 : Base32.strlen (s ++ 0#8 :: post') s.length = .ok s.length := by
    unfold Base32.strlen strchr
    rw [show (0#8 : Byte) :: post' = 0 :: post' from rfl, strchrFrom_none _ s post' 0 (by decide) (fun b hb => (hs b hb).2)]; rfl
  refine ⟨?_, ?_⟩
  · unfold Base32.fromBase32
    rw [Base32.fromBase32Impl_total cs false _ buf _ _ h1 (by simp), Base32.fromBase32Impl_total cs false _ buf _ _ h2 (by simp),
      List.take_left, List.take_left]
  · unfold Base32.fromBase32Length
    rw [h1, h2]

/-- C97 is violated by Base32: text that is followed neither by a `'='` nor by a NUL makes the decoder and the computation of the
required size read beyond the memory it lies in. -/
theorem C97_violated_base32_unterminated (cs : Bool) (s buf : List Byte) (n : Nat) (hs : ∀ b ∈ s, b ≠ 0#8 ∧ b ≠ chr '=') :
    Base32.fromBase32 cs s n buf = .ub ∧ Base32.fromBase32Length s n = .ub := by
  have h := Base32.strchrFrom_end (chr '=') s 0 (fun b hb => ⟨(hs b hb).2, (hs b hb).1⟩)
  refine ⟨?_, ?_⟩
  · unfold Base32.fromBase32 Base32.fromBase32Impl Base32.strlen strchr; rw [h]; rfl
  · unfold Base32.fromBase32Length Base32.strlen strchr; rw [h]; rfl

open Bech32 Bech32Spec in
theorem Bech32.decode_head' (s post hrp b32 : List Byte) (cap : Nat) (hr : ∀ c ∈ s, 33 ≤ c.toNat ∧ c.toNat ≤ 126)
    (hc : ¬ ((∃ c ∈ s, isUpper c) ∧ ∃ c ∈ s, isLower c)) :
    Bech32.decode (s ++ post) s.length hrp cap b32 = (do
      match ← strrchr (s ++ post) (chr '1') with
      | none => pure ⟨-2, hrp, cap, b32⟩
      | some pos =>
        if s.length > 90 ∨ pos = 0 ∨ pos + 7 > s.length ∨ s.length ≤ 7 then pure ⟨-2, hrp, cap, b32⟩
        else if cap < pos then pure ⟨-3, hrp, cap, b32⟩
        else decodeAt (s ++ post) s.length pos hrp b32) := by
  rw [Bech32.decode, isIllegal_eq, Res.ok_bind, (illegal_false_iff s).mpr ⟨hr, hc⟩]
  rfl

theorem strrchrFrom_end (c : Byte) : ∀ (l : List Byte) (i : Nat) (last : Option Nat), (∀ b ∈ l, b ≠ 0#8) → strrchrFrom c l i last = .ub
  | [], _, _, _ => rfl
  | b :: l, i, last, h => by
    rw [strrchrFrom, if_neg (h b (by simp))]
    split
    · exact strrchrFrom_end c l _ _ fun b hb => h b (by simp [hb])
    · exact strrchrFrom_end c l _ _ fun b hb => h b (by simp [hb])

open Bech32 Bech32Spec in
/-- C97 for Bech32 holds where no `'1'` stands between the text and the next NUL: then the result depends on the announced characters
only. -/
theorem C97_bech32_partial (s r post post' hrp b32 : List Byte) (cap : Nat) (hr0 : ∀ b ∈ r, b ≠ 0#8 ∧ b ≠ 49#8) (hcap : cap ≤ hrp.length) :
    Bech32.decode (s ++ (r ++ 0#8 :: post)) s.length hrp cap b32 = Bech32.decode (s ++ 0#8 :: post') s.length hrp cap b32 := by
  by_cases hl : (∀ c ∈ s, 33 ≤ c.toNat ∧ c.toNat ≤ 126) ∧ ¬ ((∃ c ∈ s, isUpper c) ∧ ∃ c ∈ s, isLower c)
  · obtain ⟨hr, hc⟩ := hl
    have hs0 : ∀ b ∈ s, b ≠ 0#8 := by rintro b hb rfl; exact absurd (hr _ hb).1 (by decide)
    rw [Bech32.decode_head' s _ hrp b32 cap hr hc, Bech32.decode_head' s _ hrp b32 cap hr hc]
    unfold strrchr
    by_cases h1 : 49#8 ∈ s
    · obtain ⟨a, d, rfl, hd⟩ := last_split h1
      have e1 := strrchrFrom_some (chr '1') a (d ++ r) post 0 none (by decide) (fun b hb => hs0 b (by simp [hb])) (by
        intro b hb
        rcases List.mem_append.mp hb with hb | hb
        · exact ⟨hd b hb, hs0 b (by simp [hb])⟩
        · exact ⟨(hr0 b hb).2, (hr0 b hb).1⟩)
      have e2 := strrchrFrom_some (chr '1') a d post' 0 none (by decide) (fun b hb => hs0 b (by simp [hb])) (fun b hb => ⟨hd b hb, hs0 b (by simp [hb])⟩)
      rw [show chr '1' = 49#8 from by decide] at e1 e2 ⊢
      rw [show (a ++ 49#8 :: d ++ (r ++ 0#8 :: post)) = a ++ 49#8 :: (d ++ r) ++ 0#8 :: post by simp, e1, e2]
      simp only [Res.ok_bind, Nat.zero_add]
      split
      · rfl
      · rename_i hn
        split
        · rfl
        · have hdl : 6 ≤ d.length := by
            simp only [List.length_append, List.length_cons] at hn; omega
          obtain ⟨d', k, rfl, hk⟩ : ∃ d' k, d = d' ++ k ∧ k.length = 6 :=
            ⟨d.take (d.length - 6), d.drop (d.length - 6), (List.take_append_drop _ _).symm, by rw [List.length_drop]; omega⟩
          have f1 := decodeAt_total a d' k (r ++ 0#8 :: post) hrp b32 hk (by omega)
          have f2 := decodeAt_total a d' k (0#8 :: post') hrp b32 hk (by omega)
          rw [← f2] at f1
          simpa using f1
    · have hs1 : ∀ b ∈ s, b ≠ 49#8 := fun b hb h => h1 (h ▸ hb)
      have e1 := strrchrFrom_none (chr '1') (s ++ r) post 0 none (by decide) (by
        intro b hb
        rcases List.mem_append.mp hb with hb | hb
        · exact ⟨hs1 b hb, hs0 b hb⟩
        · exact ⟨(hr0 b hb).2, (hr0 b hb).1⟩)
      have e2 := strrchrFrom_none (chr '1') s post' 0 none (by decide) (fun b hb => ⟨hs1 b hb, hs0 b hb⟩)
      rw [← List.append_assoc, e1, e2]
      rfl
  · rw [C96_bech32_bad_character s _ hrp b32 cap hl, C96_bech32_bad_character s _ hrp b32 cap hl]

open Bech32 Bech32Spec in
/-- C97 is violated by Bech32: if a `'1'` stands between the announced text and the next NUL, the text is refused (-2), valid or not. -/
theorem C97_violated_bech32 (s r r' post hrp b32 : List Byte) (cap : Nat) (hr : ∀ c ∈ s, 33 ≤ c.toNat ∧ c.toNat ≤ 126)
    (hc : ¬ ((∃ c ∈ s, isUpper c) ∧ ∃ c ∈ s, isLower c)) (h0 : 0#8 ∉ r ++ r') :
    Bech32.decode (s ++ r ++ 49#8 :: r' ++ 0#8 :: post) s.length hrp cap b32 = .ok ⟨-2, hrp, cap, b32⟩ := by
  have hs0 : ∀ b ∈ s, b ≠ 0#8 := by rintro b hb rfl; exact absurd (hr _ hb).1 (by decide)
  obtain ⟨a, d, e, hd⟩ := last_split (l := 49#8 :: r') (c := 49#8) (by simp)
  have hz : ∀ b ∈ s ++ r ++ a ++ d, b ≠ 0#8 := by
    rintro b hb rfl
    simp only [List.mem_append, or_assoc] at hb
    have hm : ∀ x, x ∈ a ∨ x ∈ d → x = 49#8 ∨ x ∈ r' := by
      intro x hx
      have : x ∈ 49#8 :: r' := by rw [e]; rcases hx with h | h <;> simp [h]
      simpa using this
    rw [List.mem_append, not_or] at h0
    rcases hb with hb | hb | hb
    · exact hs0 _ hb rfl
    · exact h0.1 hb
    · rcases hm _ hb with h | h
      · exact absurd h (by decide)
      · exact h0.2 h
  rw [List.append_assoc, List.append_assoc, Bech32.decode_head' s _ hrp b32 cap hr hc]
  unfold strrchr
  have e1 := strrchrFrom_some (chr '1') (s ++ r ++ a) d post 0 none (by decide)
    (fun b hb => hz b (List.mem_append_left _ hb)) (fun b hb => ⟨hd b hb, hz b (by simp [hb])⟩)
  rw [show chr '1' = 49#8 from by decide] at e1 ⊢
  rw [e, show (s ++ (r ++ (a ++ 49#8 :: d ++ 0#8 :: post))) = s ++ r ++ a ++ 49#8 :: d ++ 0#8 :: post by simp, e1]
  simp only [Res.ok_bind]
  rw [if_pos (by simp only [List.length_append]; omega)]
  rfl

open Bech32 Bech32Spec in
/-- C97 is violated by Bech32: text without illegal characters that is not followed by a NUL makes the decoder read beyond the memory it
lies in. -/
theorem C97_violated_bech32_unterminated (s r hrp b32 : List Byte) (cap : Nat) (hr : ∀ c ∈ s, 33 ≤ c.toNat ∧ c.toNat ≤ 126)
    (hc : ¬ ((∃ c ∈ s, isUpper c) ∧ ∃ c ∈ s, isLower c)) (h0 : 0#8 ∉ r) :
    Bech32.decode (s ++ r) s.length hrp cap b32 = .ub := by
  have hs0 : ∀ b ∈ s, b ≠ 0#8 := by rintro b hb rfl; exact absurd (hr _ hb).1 (by decide)
  rw [Bech32.decode_head' s _ hrp b32 cap hr hc]
  unfold strrchr
  rw [strrchrFrom_end]
  · rfl
  · intro b hb
    rcases List.mem_append.mp hb with hb | hb
    · exact hs0 b hb
    · rintro rfl; exact h0 hb
