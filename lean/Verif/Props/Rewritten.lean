import Verif.Spec.Rewritten
import Verif.Lemmas.Rewritten
import Verif.Props.Piecewise
import Verif.Props.Injective
import Verif.Props.Exkey
/-! C91: what was read from a text is written again as that text. -/
namespace Rewritten
open BaseN

theorem values (val : Byte → Option Nat) (char : Nat → Byte) (norm : Byte → Byte) (B : Nat)
    (hv : ∀ c v, val c = some v → v < B ∧ char v = norm c) (s : List Byte) (h : ∀ c ∈ s, val c ≠ none) :
    (s.filterMap val).length = s.length ∧ (∀ v ∈ s.filterMap val, v < B) ∧ (s.filterMap val).map char = s.map norm := by
  induction s with
  | nil => simp
  | cons c s ih =>
    obtain ⟨h1, h2, h3⟩ := ih (fun d hd => h d (by simp [hd]))
    obtain ⟨v, hc⟩ := Option.ne_none_iff_exists'.mp (h c (by simp))
    rw [List.filterMap_cons_some hc]
    refine ⟨by simp [h1], ?_, ?_⟩
    · intro x hx
      rw [List.mem_cons] at hx
      rcases hx with rfl | hx
      · exact (hv c x hc).1
      · exact h2 x hx
    · rw [List.map_cons, List.map_cons, h3, (hv c v hc).2]

theorem value64 (url : Bool) (c : Byte) (v : Nat) (h : Base64Spec.value? url c = some v) : v < 64 ∧ Base64Spec.char url v = id c := by
  have : ∀ url : Bool, ∀ c : Byte, (match Base64Spec.value? url c with | none => true | some v => v < 64 && Base64Spec.char url v = c) = true := by
    decide +kernel
  have := this url c
  rw [h] at this
  simpa using this

theorem value32 (c : Byte) (v : Nat) (h : Base32Spec.value? c = some v) : v < 32 ∧ Base32Spec.char v = lower32 c := by
  have : ∀ c : Byte, (match Base32Spec.value? c with | none => true | some v => v < 32 && Base32Spec.char v = lower32 c) = true := by
    decide +kernel
  have := this c
  rw [h] at this
  simpa using this

theorem decodeValue_of (url : Bool) (c : Byte) (h : Base64Spec.value? url c ≠ none) : Base64Spec.decodeValue? url c = Base64Spec.value? url c := by
  have : ∀ url : Bool, ∀ c : Byte, (Base64Spec.value? url c).isSome → Base64Spec.decodeValue? url c = Base64Spec.value? url c := by decide +kernel
  exact this url c (Option.isSome_iff_ne_none.mpr h)

/-- Digits that are written again, one by one. -/
theorem digits_again (k r m : Nat) (val : Byte → Option Nat) (char : Nat → Byte) (norm : Byte → Byte) (hk : 0 < k)
    (hv : ∀ c v, val c = some v → v < 2 ^ k ∧ char v = norm c) (s : List Byte) (c : Byte) (v : Nat) (hc : val c = some v)
    (h : ∀ c ∈ s, val c ≠ none) (hl : k * (s.length + 1) = m * 8 + r) (hr : r < 8) (hrk : r < k) :
    (digitsOf k (bytesOf k ((s ++ [c]).filterMap val))).map char = s.map norm ++ [char (v / 2 ^ r * 2 ^ r)] := by
  obtain ⟨h1, h2, h3⟩ := values val char norm (2 ^ k) hv s h
  rw [List.filterMap_append, List.filterMap_cons_some hc, List.filterMap_nil,
    digitsOf_bytesOf k m r _ v hk (by rw [h1]; exact hl) hr hrk h2 (hv c v hc).1, List.map_append, h3]
  rfl

theorem decode_all (url : Bool) (s : List Byte) (h : ∀ c ∈ s, Base64Spec.value? url c ≠ none) :
    Base64Spec.decodeRaw url s = bytesOf 6 (s.filterMap (Base64Spec.value? url)) := by
  rw [Base64Spec.decodeRaw, legalGroups_all 4 _ s (by omega) (fun c hc => by
    rw [decodeValue_of url c (h c hc)]; exact Option.isSome_iff_ne_none.mpr (h c hc))]
  congr 1
  apply List.filterMap_congr
  intro c hc
  exact decodeValue_of url c (h c hc)

theorem mul_div_dvd (v r : Nat) : v / 2 ^ r * 2 ^ r = v ↔ 2 ^ r ∣ v :=
  ⟨fun h => ⟨v / 2 ^ r, by rw [Nat.mul_comm]; exact h.symm⟩, fun h => Nat.div_mul_cancel h⟩

/-- A text without a superfluous last character. -/
theorem base64_again (url : Bool) (s : List Byte) (h : ∀ c ∈ s, Base64Spec.value? url c ≠ none) (h1 : s.length % 4 ≠ 1) :
    (Base64Spec.encodeRaw url (Base64Spec.decodeRaw url s)).dropLast = s.dropLast ∧
    (Base64Spec.encodeRaw url (Base64Spec.decodeRaw url s)).length = s.length ∧
    (Base64Spec.encodeRaw url (Base64Spec.decodeRaw url s) = s ↔ Base64Spec.Ends url s) := by
  rcases List.eq_nil_or_concat s with rfl | ⟨t, c, rfl⟩
  · refine ⟨rfl, rfl, fun _ => ⟨by simp, by simp⟩, fun _ => rfl⟩
  · rw [List.concat_eq_append] at h h1 ⊢
    obtain ⟨v, hc⟩ := Option.ne_none_iff_exists'.mp (h c (by simp))
    rw [List.length_append, List.length_singleton] at h1
    have key := digits_again 6 (6 * (t.length + 1) % 8) (6 * (t.length + 1) / 8) (Base64Spec.value? url) (Base64Spec.char url) id (by omega)
      (value64 url) t c v hc (fun d hd => h d (by simp [hd])) (by omega) (by omega) (by omega)
    rw [Base64Spec.encodeRaw, decode_all url _ h, key]
    simp only [List.map_id, List.dropLast_concat, List.length_append, List.length_singleton, true_and]
    obtain ⟨hv, hcv⟩ := value64 url c v hc
    constructor
    · intro e
      have e' : Base64Spec.char url (v / 2 ^ (6 * (t.length + 1) % 8) * 2 ^ (6 * (t.length + 1) % 8)) = c := by
        have := List.append_cancel_left e; simpa using this
      have hlt : v / 2 ^ (6 * (t.length + 1) % 8) * 2 ^ (6 * (t.length + 1) % 8) < 64 := Nat.lt_of_le_of_lt (Nat.div_mul_le_self _ _) hv
      have := Base64.value_char url _ hlt
      rw [e', hc] at this
      refine ⟨by rw [List.length_append, List.length_singleton]; exact h1, fun c' v' hc' hv' => ?_⟩
      rw [List.getLast?_concat] at hc'
      rw [← Option.some.inj hc', hc] at hv'
      rw [← Option.some.inj hv', SpareBitsZero, List.length_append, List.length_singleton]
      exact (mul_div_dvd _ _).mp (Option.some.inj this).symm
    · intro e
      have := e.2 c v (List.getLast?_concat ..) hc
      rw [SpareBitsZero, List.length_append, List.length_singleton] at this
      rw [(mul_div_dvd _ _).mpr this, hcv]; rfl

theorem base64_again_any (url : Bool) (s : List Byte) (h : ∀ c ∈ lookedAt s, Base64Spec.value? url c ≠ none) :
    (Base64Spec.encodeRaw url (Base64Spec.decodeRaw url s) = s ↔ Base64Spec.Ends url s) ∧
    (Base64Spec.encodeRaw url (Base64Spec.decodeRaw url s)).take (s.length - 1) = s.dropLast := by
  by_cases h1 : s.length % 4 = 1
  · rw [lookedAt, if_pos h1] at h
    rcases List.eq_nil_or_concat s with rfl | ⟨t, c, rfl⟩
    · simp at h1
    · rw [List.concat_eq_append] at h h1 ⊢
      rw [List.dropLast_concat] at h
      rw [List.length_append, List.length_singleton] at h1
      have hm : t.length % 4 = 0 := by omega
      have hall : (Base64Spec.decodeRaw url t).length = Base64.fromBase64UrlsafeLength t.length := by
        rw [full_length_iff, lookedAt, if_neg (by omega)]
        intro c hc; rw [decodeValue_of url c (h c hc)]; exact h c hc
      obtain ⟨a, b, e⟩ := base64_again url t h (by omega)
      have en : Base64Spec.Ends url t := by
        refine ⟨by omega, fun c v _ _ => ?_⟩
        rw [SpareBitsZero, show 6 * t.length % 8 = 0 by omega]; exact Nat.one_dvd _
      rw [Piecewise.base64_decode_append url t [c] hm hall, Base64.decodeRaw_1, List.append_nil, e.mpr en]
      refine ⟨⟨fun e => ?_, fun e => absurd (by simpa using h1) e.1⟩, ?_⟩
      · have := congrArg List.length e; simp at this
      · rw [List.dropLast_concat, List.length_append, List.length_singleton, Nat.add_sub_cancel, List.take_length]
  · rw [lookedAt, if_neg h1] at h
    obtain ⟨a, b, e⟩ := base64_again url s h h1
    refine ⟨e, ?_⟩
    rw [← a, List.dropLast_eq_take, b]

theorem hex_again (s : List Byte) (h : 2 * (HexSpec.decode s).length = s.length) :
    HexSpec.encode false (HexSpec.decode s) = s.map asciiLower ∧ HexSpec.encode true (HexSpec.decode s) = s.map asciiUpper := by
  have dv : ∀ c : Byte, (HexSpec.value? c).all (fun v =>
      decide (v < 16) && decide (HexSpec.digit false v = asciiLower c) && decide (HexSpec.digit true v = asciiUpper c)) = true := by decide +kernel
  have : ∀ n, ∀ s : List Byte, s.length ≤ n → 2 * (HexSpec.decode s).length = s.length →
      HexSpec.encode false (HexSpec.decode s) = s.map asciiLower ∧ HexSpec.encode true (HexSpec.decode s) = s.map asciiUpper := by
    intro n
    induction n with
    | zero => intro s hn h; have : s = [] := by simpa using hn
              subst this; exact ⟨rfl, rfl⟩
    | succ n ih =>
      intro s hn h
      match s with
      | [] => exact ⟨rfl, rfl⟩
      | [a] => simp [HexSpec.decode] at h
      | a :: b :: r =>
        simp only [HexSpec.decode] at h ⊢
        split at h
        · rename_i x y hx hy
          simp only [List.length_cons] at h hn
          obtain ⟨i1, i2⟩ := ih r (by omega) (by omega)
          have ha := dv a
          have hb := dv b
          rw [hx] at ha
          rw [hy] at hb
          simp only [Option.all_some, Bool.and_eq_true, decide_eq_true_eq] at ha hb
          have hn : (BitVec.ofNat 8 (16 * x + y)).toNat = 16 * x + y := by
            rw [BitVec.toNat_ofNat, Nat.mod_eq_of_lt (by omega)]
          have e1 : (16 * x + y) / 16 = x := by omega
          have e2 : (16 * x + y) % 16 = y := by omega
          constructor
          · rw [HexSpec.encode, List.flatMap_cons, hn, e1, e2, List.map_cons, List.map_cons, ← i1, ha.1.2, hb.1.2]; rfl
          · rw [HexSpec.encode, List.flatMap_cons, hn, e1, e2, List.map_cons, List.map_cons, ← i2, ha.2, hb.2]; rfl
        · simp at h
  exact this _ s (Nat.le_refl _) h

theorem legal_of (url : Bool) (s : List Byte) (hp : chr '=' ∉ s) (h : ∀ c ∈ lookedAt s, Base64Spec.decodeValue? url c ≠ none) :
    ∀ c ∈ lookedAt s, Base64Spec.value? url c ≠ none := by
  intro c hc hn
  have hm : c ∈ s := by
    rw [lookedAt] at hc
    split at hc
    · exact List.mem_of_mem_dropLast hc
    · exact hc
  have : ∀ url : Bool, ∀ c : Byte, c ≠ chr '=' → Base64Spec.value? url c = none → Base64Spec.decodeValue? url c = none := by decide +kernel
  exact h c hc (this url c (fun e => hp (by rw [← e]; exact hm)) hn)

theorem strip_pad (s : List Byte) (h4 : s.length % 4 = 0) (hp : chr '=' ∉ Base64Spec.strip s) :
    Base64Spec.strip s ++ List.replicate ((4 - (Base64Spec.strip s).length % 4) % 4) 61#8 = s := by
  rcases List.eq_nil_or_concat s with rfl | ⟨t, c, rfl⟩
  · rfl
  · rw [List.concat_eq_append] at h4 hp ⊢
    by_cases hc : c = 61#8
    · rcases List.eq_nil_or_concat t with rfl | ⟨u, d, rfl⟩
      · simp at h4
      · rw [List.concat_eq_append] at h4 hp ⊢
        by_cases hd : d = 61#8
        · have e : Base64Spec.strip (u ++ [d] ++ [c]) = u := by
            simp [Base64Spec.strip, hc, hd]
          rw [List.length_append, List.length_append, List.length_singleton, List.length_singleton] at h4
          rw [e, show (4 - u.length % 4) % 4 = 2 by omega, hc, hd]; simp
        · have e : Base64Spec.strip (u ++ [d] ++ [c]) = u ++ [d] := by
            rw [Base64Spec.strip, List.getLast?_concat, if_pos (by rw [hc]), List.dropLast_concat, List.getLast?_concat, if_neg (by simpa using hd)]
          rw [List.length_append, List.length_append, List.length_singleton, List.length_singleton] at h4
          rw [e, List.length_append, List.length_singleton, show (4 - (u.length + 1) % 4) % 4 = 1 by omega, hc]; simp
    · have e : Base64Spec.strip (t ++ [c]) = t ++ [c] := by
        rw [Base64Spec.strip, List.getLast?_concat, if_neg (by simpa using hc)]
      rw [e, h4]; simp

theorem base32_again (t : List Byte) (h : ∀ c ∈ t, Base32Spec.value? c ≠ none)
    (hl : t.length % 8 = 0 ∨ t.length % 8 = 2 ∨ t.length % 8 = 4 ∨ t.length % 8 = 5 ∨ t.length % 8 = 7) :
    ((digitsOf 5 (bytesOf 5 (t.filterMap Base32Spec.value?))).map Base32Spec.char).length = t.length ∧
    ((digitsOf 5 (bytesOf 5 (t.filterMap Base32Spec.value?))).map Base32Spec.char = t.map lower32 ↔ Base32Spec.Ends t) := by
  rcases List.eq_nil_or_concat t with rfl | ⟨u, c, rfl⟩
  · exact ⟨rfl, fun _ => by simp [Base32Spec.Ends], fun _ => rfl⟩
  · rw [List.concat_eq_append] at h hl ⊢
    obtain ⟨v, hc⟩ := Option.ne_none_iff_exists'.mp (h c (by simp))
    rw [List.length_append, List.length_singleton] at hl
    have key := digits_again 5 (5 * (u.length + 1) % 8) (5 * (u.length + 1) / 8) Base32Spec.value? Base32Spec.char lower32 (by omega)
      value32 u c v hc (fun d hd => h d (by simp [hd])) (by omega) (by omega) (by omega)
    rw [key]
    obtain ⟨hv, hcv⟩ := value32 c v hc
    refine ⟨by simp, ?_, ?_⟩
    · intro e
      have hlt : v / 2 ^ (5 * (u.length + 1) % 8) * 2 ^ (5 * (u.length + 1) % 8) < 32 := Nat.lt_of_le_of_lt (Nat.div_mul_le_self _ _) hv
      have e' : Base32Spec.char (v / 2 ^ (5 * (u.length + 1) % 8) * 2 ^ (5 * (u.length + 1) % 8)) = lower32 c := by
        rw [List.map_append] at e
        have := List.append_cancel_left e; simpa using this
      rw [← hcv] at e'
      have inj : ∀ a b : Fin 32, Base32Spec.char a.1 = Base32Spec.char b.1 → a = b := by decide +kernel
      have := Fin.val_eq_of_eq (inj ⟨_, hlt⟩ ⟨v, hv⟩ e')
      intro c' v' hc' hv'
      rw [List.getLast?_concat] at hc'
      rw [← Option.some.inj hc', hc] at hv'
      rw [← Option.some.inj hv', SpareBitsZero, List.length_append, List.length_singleton]
      exact (mul_div_dvd _ _).mp this
    · intro e
      have := e c v (List.getLast?_concat ..) hc
      rw [SpareBitsZero, List.length_append, List.length_singleton] at this
      rw [(mul_div_dvd _ _).mpr this, hcv, List.map_append]; rfl

end Rewritten
open Rewritten

/-- C91 (hexadecimal). A text that was read to its end is written again as it was, letters in the case that is asked for. -/
theorem C91_hex (s out mem str : List Byte) (r : Nat) (ho : s.length / 2 ≤ out.length)
    (h : Hex.fromHex s s.length out = .ok (mem, r)) (full : 2 * r = s.length) (hs : Hex.toHexLength r ≤ str.length) :
    Hex.toHex (mem.take r) r str false = .ok (over (s.map asciiLower) str) ∧
    Hex.toHex (mem.take r) r str true = .ok (over (s.map asciiUpper) str) := by
  have e := (C02_from_hex_any s out s.length (Nat.le_refl _) ho).1
  rw [List.take_length, h] at e
  obtain ⟨e1, e2⟩ := Prod.mk.inj (Res.ok.inj e)
  have t : mem.take r = HexSpec.decode s := by rw [e1, e2, over_take]
  obtain ⟨a1, a2⟩ := hex_again s (by rw [← e2]; exact full)
  rw [t, e2, (C01_to_hex_writes_spec _ str false (by rw [← e2]; exact hs)).1, (C01_to_hex_writes_spec _ str true (by rw [← e2]; exact hs)).1, a1, a2]
  exact ⟨rfl, rfl⟩

/-- C91 (URL-safe Base64). A text that was read to its end is written again up to its last character; it is written again as it was
exactly if it ends with the last character of a byte and the bits of this character that belong to no byte are zero. -/
theorem C91_base64_urlsafe_partial (s out mem str : List Byte) (r : Nat) (ho : Base64.fromBase64UrlsafeLength s.length ≤ out.length)
    (h : Base64.fromBase64Urlsafe s s.length out = .ok (mem, r)) (full : r = Base64.fromBase64UrlsafeLength s.length)
    (hs : Base64.toBase64UrlsafeLength r ≤ str.length) :
    ∃ t, Base64.toBase64Urlsafe (mem.take r) r str = .ok (over t str) ∧ t.length = Base64.toBase64UrlsafeLength r ∧
      t.take (s.length - 1) = s.dropLast ∧ (t = s ↔ Base64Spec.Ends true s) := by
  have e := C08_base64_urlsafe_decode_content s out s.length (Nat.le_refl _) ho
  rw [List.take_length, h] at e
  obtain ⟨e1, e2⟩ := Prod.mk.inj (Res.ok.inj e)
  have t : mem.take r = Base64Spec.decodeRaw true s := by rw [e1, e2, over_take]
  obtain ⟨w1, w2⟩ := C05_to_base64_urlsafe_rfc4648 (Base64Spec.decodeRaw true s) str (by rw [← e2]; exact hs)
  have hall := (full_length_iff true s).mp (by rw [← e2]; exact full)
  obtain ⟨a, b⟩ := base64_again_any true s hall
  rw [← e2] at w1 w2
  rw [t]
  exact ⟨_, w1, w2, b, a⟩

/-- C91 (Base64). A text that was read to its end is written again as it was exactly if it is padded to a multiple of four characters,
`'='` occurs among its padding alone, and the bits of the last character before the padding that belong to no byte are zero. -/
theorem C91_base64_partial (s out mem str : List Byte) (r len : Nat) (hl : Base64.fromBase64Length s s.length = .ok len)
    (ho : len ≤ out.length) (h : Base64.fromBase64 s s.length out = .ok (mem, r)) (full : r = len)
    (hs : Base64.toBase64Length r ≤ str.length) :
    ∃ t, Base64.toBase64 (mem.take r) r str = .ok (over t str) ∧ t.length = Base64.toBase64Length r ∧
      (t = s ↔ s.length % 4 = 0 ∧ chr '=' ∉ Base64Spec.strip s ∧ Base64Spec.Ends false (Base64Spec.strip s)) := by
  have e := C08_base64_decode_content s out s.length (Nat.le_refl _) len hl ho
  rw [List.take_length, h] at e
  obtain ⟨e1, e2⟩ := Prod.mk.inj (Res.ok.inj e)
  have t : mem.take r = Base64Spec.decodeRaw false (Base64Spec.strip s) := by rw [e1, e2, over_take]
  obtain ⟨w1, w2⟩ := C04_to_base64_rfc4648 (Base64Spec.decodeRaw false (Base64Spec.strip s)) str (by rw [← e2]; exact hs)
  rw [Base64.fromBase64Length, Base64.stripLen_eq _ _ (Nat.le_refl _), List.take_length, Res.ok_bind, Res.pure_eq, Res.ok.injEq] at hl
  have hall := (full_length_iff false (Base64Spec.strip s)).mp (by rw [← e2, full, hl])
  rw [← e2] at w1 w2
  rw [t]
  refine ⟨_, w1, w2, fun e => ?_, fun ⟨h4, hp, hE⟩ => ?_⟩
  · have hst : Base64Spec.strip s = Base64Spec.encodeRaw false (Base64Spec.decodeRaw false (Base64Spec.strip s)) := by
      conv => lhs; rw [← e, Base64.strip_encode]
    have hl4 : s.length % 4 = 0 := by rw [← e, w2, Base64.toBase64Length]; omega
    have hne : chr '=' ∉ Base64Spec.strip s := by
      rw [hst]
      intro hm
      obtain ⟨d, -, hd⟩ := List.mem_map.mp hm
      exact Base64.char_ne_pad false d hd
    refine ⟨hl4, hne, (base64_again_any false _ (fun c hc => ?_)).1.mp hst.symm⟩
    exact legal_of false _ hne hall c hc
  · have hraw := (base64_again_any false _ (legal_of false _ hp hall)).1.mpr hE
    rw [Base64Spec.encode, hraw]
    exact strip_pad s h4 hp

/-- C91 (Base32). A padded text of legal characters is written again, in lower case, exactly if the bits of the last character before the
padding that belong to no byte are zero. -/
theorem C91_base32_partial (cs : Bool) (t post out str : List Byte) (legal : ∀ c ∈ t, Base32Spec.value? c ≠ none)
    (hl : t.length % 8 = 0 ∨ t.length % 8 = 2 ∨ t.length % 8 = 4 ∨ t.length % 8 = 5 ∨ t.length % 8 = 7)
    (ho : 5 * t.length / 8 ≤ out.length) (hs : Base32.toBase32Length (5 * t.length / 8) ≤ str.length) :
    ∃ W w, Base32.fromBase32 cs ((t ++ Base32Spec.pad t.length) ++ 0#8 :: post) (t ++ Base32Spec.pad t.length).length out = .ok (over W out, W.length) ∧
      Base32.toBase32 W W.length str = .ok (over w str) ∧ w.length = (t ++ Base32Spec.pad t.length).length ∧
      (w = (t ++ Base32Spec.pad t.length).map lower32 ↔ Base32Spec.Ends t) := by
  have chars : ∀ c ∈ t, c ≠ 0#8 ∧ c ≠ chr '=' ∧ c.toNat < 128 := by
    have : ∀ c : Byte, Base32Spec.value? c ≠ none → c ≠ 0#8 ∧ c ≠ chr '=' ∧ c.toNat < 128 := by decide +kernel
    exact fun c hc => this c (legal c hc)
  have pads : ∀ c ∈ Base32Spec.pad t.length, c = chr '=' := fun c hc => (List.mem_replicate.mp hc).2
  have htw : (t ++ Base32Spec.pad t.length).takeWhile (· ≠ chr '=') = t := by
    have hp : (Base32Spec.pad t.length).takeWhile (· ≠ chr '=') = [] := by
      rcases hq : Base32Spec.pad t.length with _ | ⟨a, q⟩
      · rfl
      · rw [List.takeWhile_cons, if_neg]; simp [pads a (by rw [hq]; simp)]
    rw [List.takeWhile_append_of_pos (fun c hc => by simp [(chars c hc).2.1]), hp, List.append_nil]
  have hlen : Base32.fromBase32Length ((t ++ Base32Spec.pad t.length) ++ 0#8 :: post) (t ++ Base32Spec.pad t.length).length = .ok (Base32.decLen t.length) := by
    have e := fromBase32Length_eq (t ++ Base32Spec.pad t.length) post (fun b hb => by
      rcases List.mem_append.mp hb with hb | hb
      · exact (chars b hb).1
      · rw [pads b hb]; decide)
    rw [htw] at e; exact e
  have hdec : Base32.decLen t.length = 5 * t.length / 8 := by
    rw [Base32.decLen_eq]
    rcases hl with h | h | h | h | h <;> rw [h] <;> simp only [Base32.decLen] <;> omega
  obtain ⟨W, g1, -, g3⟩ := C12_from_base32_partial cs (t ++ Base32Spec.pad t.length) post out (Base32.decLen t.length) (fun b hb => by
    rcases List.mem_append.mp hb with hb | hb
    · exact (chars b hb).1
    · rw [pads b hb]; decide) (fun _ b hb => by
    rcases List.mem_append.mp hb with hb | hb
    · exact (chars b hb).2.2
    · rw [pads b hb]; decide) hlen (by rw [hdec]; exact ho)
  obtain ⟨f1, f2⟩ := g3 t htw.symm
  have hW := f2 legal hl
  have hWl : W.length = 5 * t.length / 8 := by rw [← hdec]; exact f1.mpr (fun c hc => legal c (List.mem_of_mem_take hc))
  obtain ⟨w1, w2⟩ := C09_to_base32_rfc4648 W str (by rw [hWl]; exact hs)
  obtain ⟨b1, b2⟩ := base32_again t legal hl
  rw [← hW] at b1 b2
  have hpl : (Base32Spec.pad t.length).map lower32 = Base32Spec.pad t.length := by
    conv => rhs; rw [← List.map_id (Base32Spec.pad t.length)]
    apply List.map_congr_left
    intro c hc
    rw [pads c hc]; decide
  refine ⟨W, _, g1, w1, ?_, ?_⟩
  · rw [Base32Spec.encode, List.length_append, b1, List.length_append, Base32Spec.pad]
  · rw [Base32Spec.encode, b1, List.map_append, hpl, ← b2]
    exact ⟨fun e => List.append_cancel_right e, fun e => by rw [e]; rfl⟩

/-- C91 is violated by the code: two texts that differ in such bits are both accepted, as the same bytes. -/
theorem C91_violated_spare_bits :
    (Base64.fromBase64Urlsafe (cstr "Zg") 2 [0#8] = .ok ([0x66#8], 1) ∧ Base64.fromBase64Urlsafe (cstr "Zh") 2 [0#8] = .ok ([0x66#8], 1)) ∧
    (Base64.fromBase64 (cstr "Zg==") 4 [0#8] = .ok ([0x66#8], 1) ∧ Base64.fromBase64 (cstr "Zh==") 4 [0#8] = .ok ([0x66#8], 1)) ∧
    (Base32.fromBase32 true (cstr "my======" ++ [0#8]) 8 [0#8] = .ok ([0x66#8], 1) ∧
      Base32.fromBase32 true (cstr "mz======" ++ [0#8]) 8 [0#8] = .ok ([0x66#8], 1)) := by decide +kernel

section Keys
open Key AddressSpec WifSpec Base58Check Exkey

/-- C91 (secret keys). A key that was read is written again as the text it was read from, blanks at the ends apart. -/
theorem C91_wif (nd : Bool) (host host' : Host) (cs : Bool) (net : Network) (s post key32 str : List Byte) (flag : Int) (r : FromString)
    (h0 : ∀ b ∈ s, b ≠ 0#8) (hk : 32 ≤ key32.length)
    (h : keyFromString nd host cs (s ++ 0#8 :: post) s.length key32 flag net.param = .ok r) (hr : r.ok = true)
    (hs : toBase58CheckLength 32 8 ≤ str.length) :
    keyToString host' (r.key32.take 32) str (r.isCompressed ≠ 0) net.param = .ok (over (trim58 s) str, (trim58 s).length) := by
  obtain ⟨key, c, h1, h2, h3, h4⟩ := C46_from_string_sound nd host cs net s post key32 flag h0 hk r h hr
  have e1 : r.key32.take 32 = key := by rw [h3, ← h1, over_take]
  have e2 : decide (r.isCompressed ≠ 0) = c := by rw [h4]; cases c <;> simp
  rw [e1, e2, C45_key_to_string host' net key str c h1 hs, h2]

/-- C91 (extended public keys). -/
theorem C91_xpub (nd : Bool) (host host' : Host) (cs : Bool) (net : Network) (s post str : List Byte) (buf k : ExPubkey)
    (h0 : ∀ b ∈ s, b ≠ 0#8) (hb : BufPub buf)
    (h : expubkeyFromString nd host cs (s ++ 0#8 :: post) s.length buf net.param = .ok (k, true))
    (hs : toBase58CheckLength 74 8 ≤ str.length) :
    expubkeyToString host' k str net.param = .ok (over (trim58 s) str, (trim58 s).length) := by
  obtain ⟨hk, e⟩ := C54_expubkey_from_string_sound nd host cs net s post buf k h0 hb h
  rw [(C54_to_string host' net ⟨⟨0#8, 0#32, 0#32, List.replicate 32 0#8⟩, List.replicate 32 0#8⟩ k str ⟨rfl, rfl⟩ hk hs).2, e]

/-- C91 (extended private keys). The text is written again exactly if the byte before the key, which ought to be zero, is zero in it
(see `C63_violated_pad_byte` for texts where it is not). -/
theorem C91_xprv_partial (nd : Bool) (host host' : Host) (cs : Bool) (net : Network) (s post str : List Byte) (buf k : ExKey)
    (h0 : ∀ b ∈ s, b ≠ 0#8) (hb : BufPriv buf)
    (h : exkeyFromString nd host cs (s ++ 0#8 :: post) s.length buf net.param = .ok (k, true))
    (hs : toBase58CheckLength 74 8 ≤ str.length) :
    ∃ w, exkeyToString host' k str net.param = .ok (over w str, w.length) ∧
      (w = trim58 s ↔ ∃ p, trim58 s = Base58CheckSpec.encode (net.extSecret ++ p) ∧ p.length = 74 ∧ p[41]? = some 0#8) := by
  obtain ⟨hk, p, e, hp, hkp⟩ := C54_exkey_from_string_sound nd host cs net s post buf k h0 hb h
  refine ⟨_, (C54_to_string host' net k ⟨⟨0#8, 0#32, 0#32, List.replicate 32 0#8⟩, List.replicate 33 0#8⟩ str hk ⟨rfl, rfl⟩ hs).1, ?_, ?_⟩
  · intro e'
    refine ⟨p, e, hp, ?_⟩
    rw [e, xprv] at e'
    have := List.append_cancel_left (base58check_inj _ _ e')
    rw [← this, hkp, List.getElem?_set_self (by omega)]
  · rintro ⟨q, e', -, hq⟩
    have hpq : p = q := List.append_cancel_left (base58check_inj _ _ (e.symm.trans e'))
    rw [← hpq] at hq
    rw [e, xprv, hkp]
    congr 2
    obtain ⟨h1, h2⟩ := List.getElem?_eq_some_iff.mp hq
    conv => rhs; rw [← List.set_getElem_self h1]
    rw [h2]

end Keys

section Addresses
open Address AddressSpec Base58Check

theorem witness_kinds (cs : Bool) (buffer out : List Byte) (n sz : Nat) (r : Decoded) (h : decodeWitness cs buffer n out sz = .ok r) :
    r.kind ≠ .pubkey ∧ r.kind ≠ .script := by
  rw [decodeWitness] at h
  cases h1 : Base32.fromBase32RawLength (n - 1) with
  | ub => rw [h1] at h; cases h
  | abort => rw [h1] at h; cases h
  | ok need =>
    rw [h1, Res.ok_bind] at h
    split at h
    · cases h2 : rd buffer 0 with
      | ub => rw [h2] at h; cases h
      | abort => rw [h2] at h; cases h
      | ok v =>
        rw [h2, Res.ok_bind] at h
        split at h
        · cases h3 : Base32.fromBase32Raw cs (buffer.drop 1) (n - 1) out with
          | ub => rw [h3] at h; cases h
          | abort => rw [h3] at h; cases h
          | ok x =>
            rw [h3, Res.ok_bind] at h
            simp only [Res.pure_eq] at h
            split at h
            · rw [← Res.ok.inj h]; exact ⟨nofun, nofun⟩
            · split at h <;> (rw [← Res.ok.inj h]; exact ⟨nofun, nofun⟩)
        · cases h3 : wr out 0 v with
          | ub => rw [h3] at h; cases h
          | abort => rw [h3] at h; cases h
          | ok o =>
            rw [h3, Res.ok_bind] at h
            cases h4 : Base32.fromBase32Raw cs (buffer.drop 1) (n - 1) (o.drop 1) with
            | ub => rw [h4] at h; cases h
            | abort => rw [h4] at h; cases h
            | ok x =>
              rw [h4, Res.ok_bind] at h
              simp only [Res.pure_eq] at h
              split at h <;> (rw [← Res.ok.inj h]; exact ⟨nofun, nofun⟩)
    · rw [← Res.ok.inj h]; exact ⟨nofun, nofun⟩

/-- C91 (addresses of keys and scripts). -/
theorem C91_base58_address (net : Network) (host : Host) (cs : Bool) (stack s post out str : List Byte) (r : Decoded)
    (h0 : ∀ b ∈ s, b ≠ 0#8) (hst : stack.length = 128)
    (h : addressDecode host cs stack (s ++ 0#8 :: post) s.length out out.length net.param = .ok r)
    (hs : toBase58CheckLength r.outSize 1 ≤ str.length) :
    (r.kind = .pubkey → toAddressPubkey host (r.out.take r.outSize) r.outSize str str.length net.param =
      .ok (over (trim58 s) str, (trim58 s).length)) ∧
    (r.kind = .script → toAddressScript host (r.out.take r.outSize) r.outSize str str.length net.param =
      .ok (over (trim58 s) str, (trim58 s).length)) := by
  obtain ⟨p1, p2, p3⟩ := net_pub net
  obtain ⟨q1, q2, q3⟩ := net_script net
  obtain ⟨n1, n2, n4, n5, n6, n7, n8⟩ := net_hrp net
  have hbech : ∀ out' sz, decodeBech32 cs stack (s ++ 0#8 :: post) s.length out' sz net.param = .ok r → r.kind ≠ .pubkey ∧ r.kind ≠ .script := by
    intro out' sz he
    rcases decodeBech32_any s (0#8 :: post) cs stack out' sz net.param hst (by simp) n1 with hb | ⟨D, hD, -, hb⟩
    · rw [hb] at he
      rw [← Res.ok.inj he]; exact ⟨nofun, nofun⟩
    · rw [hb] at he
      exact witness_kinds _ _ _ _ _ r he
  by_cases hc : fromBase58CheckLength s.length ≤ out.length
  · by_cases hr : Base58Spec.Readable cs s ∧ ∀ W, Base58Spec.decode? s = some W → W.length ≤ out.length
    · have hread := fromBase58Check_readable host cs s post out h0 hr.1 hr.2
      rw [addressDecode_eq host cs stack s post out out.length net.param h0 hr.1 hc hr.2 p1 q1] at h
      split at h
      · rename_i c p hd
        have again : ∀ pre : List Byte, 1 ≤ pre.length → pre.take 1 = [c] → toBase58CheckLength p.length 1 ≤ str.length →
            toBase58Check host p p.length pre 1 str = .ok (over (trim58 s) str, (trim58 s).length) := by
          intro pre hpl hpre hstr
          rw [Base58CheckSpec.decode?] at hd
          cases hW : Base58Spec.decode? s with
          | none => rw [hW] at hd; cases hd
          | some W =>
            rw [hW, Option.bind_some] at hd
            have hfrom := ((C19_from_base58check_total host cs s post out h0).2 hr.1.1 hr.1.2).2 W hW |>.1 (hr.2 W hW)
            rw [hd] at hfrom
            have hWe := check?_some hd
            have ht : (over W out).take (c :: p).length = c :: p := by
              rw [hWe, over, List.append_assoc, List.take_left]
            obtain ⟨-, -, z⟩ := C19_base58check_sound host cs s post out _ _ h0 hfrom (by simp)
            have hshort := decode_short s W hr.1.1 hW
            have hWl : (c :: p).length + 4 = W.length := by rw [hWe, List.length_append, checksum_length]
            rw [List.length_cons] at hWl
            have e := z [c] p str ht.symm hstr
            rw [show [c].length = 1 from rfl, toBase58Check_toBase58 host p p.length [c] 1 str (by omega) (by simp) (by omega)] at e
            rw [toBase58Check_toBase58 host p p.length pre 1 str (by omega) hpl (by omega), hpre]
            exact e
        simp only at h
        split at h
        · rename_i hpre
          rw [p3] at hpre
          have hv : c = net.pubkeyVersion := by
            obtain ⟨x, hx⟩ := hpre
            exact (List.cons.inj hx).1.symm
          have hr' := Res.ok.inj h
          rw [p2] at hr'
          rw [← hr'] at hs ⊢
          refine ⟨fun _ => ?_, nofun⟩
          simp only [List.drop_one, List.tail_cons, List.length_cons, Nat.add_sub_cancel] at hs ⊢
          rw [over_take, toAddressPubkey, p2, if_neg (by omega)]
          rw [p2] at p1 p3
          exact again _ p1 (by rw [p3, hv]) hs
        · split at h
          · rename_i hpre
            rw [q3] at hpre
            have hv : c = net.scriptVersion := by
              obtain ⟨x, hx⟩ := hpre
              exact (List.cons.inj hx).1.symm
            have hr' := Res.ok.inj h
            rw [q2] at hr'
            rw [← hr'] at hs ⊢
            refine ⟨nofun, fun _ => ?_⟩
            simp only [List.drop_one, List.tail_cons, List.length_cons, Nat.add_sub_cancel] at hs ⊢
            rw [over_take, toAddressScript, q2, if_neg (by omega)]
            rw [q2] at q1 q3
            exact again _ q1 (by rw [q3, hv]) hs
          · obtain ⟨z1, z2⟩ := hbech _ _ h
            exact ⟨fun e => absurd e z1, fun e => absurd e z2⟩
      · obtain ⟨z1, z2⟩ := hbech _ _ h
        exact ⟨fun e => absurd e z1, fun e => absurd e z2⟩
    · rw [addressDecode_ub net host cs stack s post out h0 hc hr] at h
      cases h
  · rw [addressDecode, if_pos (by omega)] at h
    rw [← Res.ok.inj h]
    exact ⟨nofun, nofun⟩

end Addresses
