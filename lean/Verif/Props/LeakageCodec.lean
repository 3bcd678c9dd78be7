import Verif.Lemmas.LeakageCodecAlike
import Verif.Lemmas.LeakageTextWork
import Verif.Props.Leakage
import Verif.Props.Injective

/-! Property theorems C93, C101 for Base64 and Base32: what an observer of branches and addresses learns of the data written as Base64 or
Base32, or read from such texts. -/
open Base64 Base32

/-- If every run of a family exists and any two look the same apart from a table, there is one thing that is seen apart from the table. -/
theorem common_view {ι : Type} (tb : String) (P : ι → List Leakage.Ev → Prop) (run : ∀ i, ∃ t, P i t)
    (same : ∀ i j t t', P i t → P j t' → Leakage.besides tb t = Leakage.besides tb t') :
    ∃ t, ∀ i, ∃ t', P i t' ∧ Leakage.besides tb t' = t := by
  by_cases h : ∃ i t, P i t
  · obtain ⟨i, t, h⟩ := h
    refine ⟨Leakage.besides tb t, fun j => ?_⟩
    obtain ⟨t', h'⟩ := run j
    exact ⟨t', h', same j i t' t h' h⟩
  · refine ⟨[], fun j => ?_⟩
    obtain ⟨t', h'⟩ := run j
    exact absurd ⟨j, t', h'⟩ h

/-! ## Writing -/

/-- C93 (what holds, Base64). Apart from the look-ups of the characters, what is seen while data are written as Base64 depends on their
length only.  Missing: those look-ups (`C93_violated_base64`). -/
theorem C93_base64_partial (n : Nat) : ∃ t, ∀ bs str : List Byte, bs.length = n → toBase64Length n ≤ str.length →
    ∃ t', Leakage.toBase64 ⟨"buf", 0, bs⟩ n str = .ok (over (Base64Spec.encode bs) str) t' ∧
      Leakage.besides "BASE64_STANDARD_ENCODE" t' = t := by
  obtain ⟨t, h⟩ := common_view (ι := {p : List Byte × List Byte // p.1.length = n ∧ toBase64Length n ≤ p.2.length}) "BASE64_STANDARD_ENCODE"
    (fun p t => Leakage.toBase64 ⟨"buf", 0, p.1.1⟩ n p.1.2 = .ok (over (Base64Spec.encode p.1.1) p.1.2) t) (by
      rintro ⟨⟨bs, str⟩, h1, h2⟩
      simp only at h1 h2 ⊢
      subst h1
      obtain ⟨t, h, -⟩ := Leakage.toBase64Impl_costs ⟨"buf", 0, bs⟩ bs.length str false _ (C04_to_base64_rfc4648 bs str h2).1
      exact ⟨t, h⟩) (by
      rintro ⟨⟨x, s⟩, h1, h2⟩ ⟨⟨y, s'⟩, h3, h4⟩ t t' h h'
      exact (Leakage.toBase64Impl_alike false "buf" x y s s' n _ _ _ _ h h').1)
  exact ⟨t, fun bs str h1 h2 => h ⟨(bs, str), h1, h2⟩⟩

/-- C93 (what holds, URL-safe Base64). As `C93_base64_partial`.  Missing: the look-ups (`C93_violated_base64_urlsafe`). -/
theorem C93_base64_urlsafe_partial (n : Nat) : ∃ t, ∀ bs str : List Byte, bs.length = n → toBase64UrlsafeLength n ≤ str.length →
    ∃ t', Leakage.toBase64Urlsafe ⟨"buf", 0, bs⟩ n str = .ok (over (Base64Spec.encodeRaw true bs) str) t' ∧
      Leakage.besides "BASE64_URLSAFE_ENCODE" t' = t := by
  obtain ⟨t, h⟩ := common_view (ι := {p : List Byte × List Byte // p.1.length = n ∧ toBase64UrlsafeLength n ≤ p.2.length}) "BASE64_URLSAFE_ENCODE"
    (fun p t => Leakage.toBase64Urlsafe ⟨"buf", 0, p.1.1⟩ n p.1.2 = .ok (over (Base64Spec.encodeRaw true p.1.1) p.1.2) t) (by
      rintro ⟨⟨bs, str⟩, h1, h2⟩
      simp only at h1 h2 ⊢
      subst h1
      obtain ⟨t, h, -⟩ := Leakage.toBase64Impl_costs ⟨"buf", 0, bs⟩ bs.length str true _ (C05_to_base64_urlsafe_rfc4648 bs str h2).1
      exact ⟨t, h⟩) (by
      rintro ⟨⟨x, s⟩, h1, h2⟩ ⟨⟨y, s'⟩, h3, h4⟩ t t' h h'
      exact (Leakage.toBase64Impl_alike true "buf" x y s s' n _ _ _ _ h h').1)
  exact ⟨t, fun bs str h1 h2 => h ⟨(bs, str), h1, h2⟩⟩

/-- C93 (what holds, Base32). As `C93_base64_partial`.  Missing: the look-ups (`C93_violated_base32`). -/
theorem C93_base32_partial (n : Nat) : ∃ t, ∀ bs str : List Byte, bs.length = n → toBase32Length n ≤ str.length →
    ∃ t', Leakage.toBase32 ⟨"buf", 0, bs⟩ n str = .ok (over (Base32Spec.encode bs) str) t' ∧
      Leakage.besides "BASE32_ENCODE" t' = t := by
  obtain ⟨t, h⟩ := common_view (ι := {p : List Byte × List Byte // p.1.length = n ∧ toBase32Length n ≤ p.2.length}) "BASE32_ENCODE"
    (fun p t => Leakage.toBase32 ⟨"buf", 0, p.1.1⟩ n p.1.2 = .ok (over (Base32Spec.encode p.1.1) p.1.2) t) (by
      rintro ⟨⟨bs, str⟩, h1, h2⟩
      simp only at h1 h2 ⊢
      subst h1
      obtain ⟨t, h, -⟩ := Leakage.toBase32_costs ⟨"buf", 0, bs⟩ bs.length str _ (C09_to_base32_rfc4648 bs str h2).1
      exact ⟨t, h⟩) (by
      rintro ⟨⟨x, s⟩, h1, h2⟩ ⟨⟨y, s'⟩, h3, h4⟩ t t' h h'
      unfold Leakage.toBase32 at h h'
      exact (Leakage.alike_bind (Leakage.toBase32Impl_alike false "buf" "str" 0 x y s s' n)
        (fun _ _ _ => Leakage.alike_pure (R := fun _ _ => True) trivial) _ _ _ _ h h').1)
  exact ⟨t, fun bs str h1 h2 => h ⟨(bs, str), h1, h2⟩⟩

/-- C93 is violated, Base64: writing data of one length looks the same only for the same data. -/
theorem C93_violated_base64 (a b o o' r r' : List Byte) (t : List Leakage.Ev) (hab : a.length = b.length)
    (ho : toBase64Length a.length ≤ o.length) (ho' : toBase64Length b.length ≤ o'.length)
    (h : Leakage.toBase64 ⟨"buf", 0, a⟩ a.length o = .ok r t) (h' : Leakage.toBase64 ⟨"buf", 0, b⟩ b.length o' = .ok r' t) : a = b := by
  have e1 := (C04_to_base64_rfc4648 a o ho).1
  have e2 := (C04_to_base64_rfc4648 b o' ho').1
  obtain ⟨t1, g1, -⟩ := Leakage.toBase64Impl_costs ⟨"buf", 0, a⟩ a.length o false _ e1
  obtain ⟨t2, g2, -⟩ := Leakage.toBase64Impl_costs ⟨"buf", 0, b⟩ b.length o' false _ e2
  obtain ⟨rfl, -⟩ := Leakage.ok_inj (h.symm.trans g1)
  obtain ⟨rfl, -⟩ := Leakage.ok_inj (h'.symm.trans g2)
  refine C87_base64 a b o o' _ _ ho ho' e1 e2 ?_
  rw [← hab] at h'
  obtain ⟨-, e⟩ := Leakage.toBase64Impl_tells false "buf" a b o o' a.length _ _ _ _ [] [] h h' rfl
  have hn : 4 * (a.length / 3) + Leakage.tail64 false (a.length % 3) = toBase64Length a.length := by
    unfold Leakage.tail64 toBase64Length
    by_cases h0 : a.length % 3 = 0
    · rw [if_pos h0]; omega
    · rw [if_neg h0, if_neg (by decide)]; omega
  rw [← hab, ← hn]
  exact e.2.2

/-- C93 is violated, URL-safe Base64. -/
theorem C93_violated_base64_urlsafe (a b o o' r r' : List Byte) (t : List Leakage.Ev) (hab : a.length = b.length)
    (ho : toBase64UrlsafeLength a.length ≤ o.length) (ho' : toBase64UrlsafeLength b.length ≤ o'.length)
    (h : Leakage.toBase64Urlsafe ⟨"buf", 0, a⟩ a.length o = .ok r t)
    (h' : Leakage.toBase64Urlsafe ⟨"buf", 0, b⟩ b.length o' = .ok r' t) : a = b := by
  have e1 := (C05_to_base64_urlsafe_rfc4648 a o ho).1
  have e2 := (C05_to_base64_urlsafe_rfc4648 b o' ho').1
  obtain ⟨t1, g1, -⟩ := Leakage.toBase64Impl_costs ⟨"buf", 0, a⟩ a.length o true _ e1
  obtain ⟨t2, g2, -⟩ := Leakage.toBase64Impl_costs ⟨"buf", 0, b⟩ b.length o' true _ e2
  obtain ⟨rfl, -⟩ := Leakage.ok_inj (h.symm.trans g1)
  obtain ⟨rfl, -⟩ := Leakage.ok_inj (h'.symm.trans g2)
  refine C87_base64_urlsafe a b o o' _ _ ho ho' e1 e2 ?_
  rw [← hab] at h'
  obtain ⟨-, e⟩ := Leakage.toBase64Impl_tells true "buf" a b o o' a.length _ _ _ _ [] [] h h' rfl
  have hn : 4 * (a.length / 3) + Leakage.tail64 true (a.length % 3) = toBase64UrlsafeLength a.length := by
    have l1 := (C05_to_base64_urlsafe_rfc4648 a o ho).2
    rw [encodeRaw_length] at l1
    rw [← l1]
    unfold Leakage.tail64
    by_cases h0 : a.length % 3 = 0
    · rw [if_pos h0]; omega
    · rw [if_neg h0, if_pos rfl]; omega
  rw [← hab, ← hn]
  exact e.2.2

/-- C93 is violated, Base32. -/
theorem C93_violated_base32 (a b o o' r r' : List Byte) (t : List Leakage.Ev) (hab : a.length = b.length)
    (ho : toBase32Length a.length ≤ o.length) (ho' : toBase32Length b.length ≤ o'.length)
    (h : Leakage.toBase32 ⟨"buf", 0, a⟩ a.length o = .ok r t) (h' : Leakage.toBase32 ⟨"buf", 0, b⟩ b.length o' = .ok r' t) : a = b := by
  obtain ⟨e1, l1⟩ := C09_to_base32_rfc4648 a o ho
  obtain ⟨e2, l2⟩ := C09_to_base32_rfc4648 b o' ho'
  obtain ⟨t1, g1, -⟩ := Leakage.toBase32_costs ⟨"buf", 0, a⟩ a.length o _ e1
  obtain ⟨t2, g2, -⟩ := Leakage.toBase32_costs ⟨"buf", 0, b⟩ b.length o' _ e2
  obtain ⟨rfl, -⟩ := Leakage.ok_inj (h.symm.trans g1)
  obtain ⟨rfl, -⟩ := Leakage.ok_inj (h'.symm.trans g2)
  refine C87_base32 a b o o' _ _ ho ho' e1 e2 ?_
  rw [← hab] at h'
  have e3 := toBase32Impl_eq a o false (by rw [← encode32_eq, l1]; exact ho)
  rw [← encode32_eq, l1] at e3
  obtain ⟨t7, g7, -⟩ := Leakage.toBase32Impl_costs ⟨"buf", 0, a⟩ a.length "str" 0 o false _ e3
  unfold Leakage.toBase32 at h h'
  obtain ⟨⟨s1, m1⟩, t3, t4, q1, q2, qt⟩ := Leakage.bind_inv h
  obtain ⟨⟨s2, m2⟩, t5, t6, q3, q4, qt'⟩ := Leakage.bind_inv h'
  obtain ⟨z1, z2⟩ := Leakage.ok_inj q2
  obtain ⟨z3, z4⟩ := Leakage.ok_inj q4
  subst z2 z4
  rw [List.append_nil] at qt qt'
  subst qt qt'
  obtain ⟨-, e, ag⟩ := Leakage.toBase32Impl_tells false "buf" "str" 0 a b o o' a.length _ _ _ _ [] [] q1 q3 rfl
  obtain ⟨g8, -⟩ := Leakage.ok_inj (q1.symm.trans g7)
  obtain ⟨g8, g9⟩ := Prod.mk.inj g8
  simp only at ag z1 z3
  rw [← hab, ← g9, ← z1, ← z3]
  exact ag.2.2

/-- C93 is violated, Base64: from what is seen, and the length, the data follow. -/
theorem C93_violated_recover_base64 (n : Nat) : ∃ recover : List Leakage.Ev → List Byte, ∀ bs str : List Byte, bs.length = n →
    toBase64Length n ≤ str.length →
    ∃ t, Leakage.toBase64 ⟨"buf", 0, bs⟩ n str = .ok (over (Base64Spec.encode bs) str) t ∧ recover t = bs := by
  obtain ⟨f, hf⟩ := recover_of_inj [] (fun d t => d.length = n ∧ ∃ str r, toBase64Length n ≤ str.length ∧
    Leakage.toBase64 ⟨"buf", 0, d⟩ n str = .ok r t) (by
      rintro a b t ⟨h0, o, r, h2, h3⟩ ⟨h4, o', r', h5, h6⟩
      exact C93_violated_base64 a b o o' r r' t (by omega) (by rw [h0]; exact h2) (by rw [h4]; exact h5) (by rw [h0]; exact h3) (by rw [h4]; exact h6))
  refine ⟨f, fun bs str hn hs => ?_⟩
  subst hn
  obtain ⟨t, h, -⟩ := Leakage.toBase64Impl_costs ⟨"buf", 0, bs⟩ bs.length str false _ (C04_to_base64_rfc4648 bs str hs).1
  exact ⟨t, h, hf _ _ ⟨rfl, str, _, hs, h⟩⟩

/-- C93 is violated, URL-safe Base64: from what is seen, and the length, the data follow. -/
theorem C93_violated_recover_base64_urlsafe (n : Nat) : ∃ recover : List Leakage.Ev → List Byte, ∀ bs str : List Byte, bs.length = n →
    toBase64UrlsafeLength n ≤ str.length →
    ∃ t, Leakage.toBase64Urlsafe ⟨"buf", 0, bs⟩ n str = .ok (over (Base64Spec.encodeRaw true bs) str) t ∧ recover t = bs := by
  obtain ⟨f, hf⟩ := recover_of_inj [] (fun d t => d.length = n ∧ ∃ str r, toBase64UrlsafeLength n ≤ str.length ∧
    Leakage.toBase64Urlsafe ⟨"buf", 0, d⟩ n str = .ok r t) (by
      rintro a b t ⟨h0, o, r, h2, h3⟩ ⟨h4, o', r', h5, h6⟩
      exact C93_violated_base64_urlsafe a b o o' r r' t (by omega) (by rw [h0]; exact h2) (by rw [h4]; exact h5) (by rw [h0]; exact h3)
        (by rw [h4]; exact h6))
  refine ⟨f, fun bs str hn hs => ?_⟩
  subst hn
  obtain ⟨t, h, -⟩ := Leakage.toBase64Impl_costs ⟨"buf", 0, bs⟩ bs.length str true _ (C05_to_base64_urlsafe_rfc4648 bs str hs).1
  exact ⟨t, h, hf _ _ ⟨rfl, str, _, hs, h⟩⟩

/-- C93 is violated, Base32: from what is seen, and the length, the data follow. -/
theorem C93_violated_recover_base32 (n : Nat) : ∃ recover : List Leakage.Ev → List Byte, ∀ bs str : List Byte, bs.length = n →
    toBase32Length n ≤ str.length →
    ∃ t, Leakage.toBase32 ⟨"buf", 0, bs⟩ n str = .ok (over (Base32Spec.encode bs) str) t ∧ recover t = bs := by
  obtain ⟨f, hf⟩ := recover_of_inj [] (fun d t => d.length = n ∧ ∃ str r, toBase32Length n ≤ str.length ∧
    Leakage.toBase32 ⟨"buf", 0, d⟩ n str = .ok r t) (by
      rintro a b t ⟨h0, o, r, h2, h3⟩ ⟨h4, o', r', h5, h6⟩
      exact C93_violated_base32 a b o o' r r' t (by omega) (by rw [h0]; exact h2) (by rw [h4]; exact h5) (by rw [h0]; exact h3) (by rw [h4]; exact h6))
  refine ⟨f, fun bs str hn hs => ?_⟩
  subst hn
  obtain ⟨t, h, -⟩ := Leakage.toBase32_costs ⟨"buf", 0, bs⟩ bs.length str _ (C09_to_base32_rfc4648 bs str hs).1
  exact ⟨t, h, hf _ _ ⟨rfl, str, _, hs, h⟩⟩

/-! ## Reading -/

theorem read_base64 (bs out post : List Byte) (ho : bs.length ≤ out.length) :
    fromBase64 (Base64Spec.encode bs ++ post) (Base64Spec.encode bs).length out = .ok (over bs out, bs.length) := by
  have hlen : fromBase64UrlsafeLength (Base64Spec.encodeRaw false bs).length = bs.length := by
    rw [encodeRaw_length]; unfold fromBase64UrlsafeLength; simp only
    split
    · omega
    · split <;> omega
  have ht : (Base64Spec.encode bs ++ post).take (Base64Spec.encode bs).length = Base64Spec.encode bs := by simp
  rw [fromBase64_eq _ _ _ (by simp) (by rw [ht, strip_encode, hlen]; exact ho), ht, strip_encode, decodeRaw_encodeRaw]

theorem read_base64_urlsafe (bs out post : List Byte) (ho : bs.length ≤ out.length) :
    fromBase64Urlsafe (Base64Spec.encodeRaw true bs ++ post) (Base64Spec.encodeRaw true bs).length out = .ok (over bs out, bs.length) := by
  have hlen : fromBase64UrlsafeLength (Base64Spec.encodeRaw true bs).length = bs.length := by
    rw [encodeRaw_length]; unfold fromBase64UrlsafeLength; simp only
    split
    · omega
    · split <;> omega
  have ht : (Base64Spec.encodeRaw true bs ++ post).take (Base64Spec.encodeRaw true bs).length = Base64Spec.encodeRaw true bs := by simp
  unfold fromBase64Urlsafe
  rw [fromBase64Impl_eq _ _ _ _ (by simp) (by omega), ht, decodeRaw_encodeRaw]

theorem read_base32 (cs : Bool) (bs out post : List Byte) (ho : bs.length ≤ out.length) :
    fromBase32 cs (Base32Spec.encode bs ++ 0#8 :: post) (Base32Spec.encode bs).length out = .ok (over bs out, bs.length) := by
  have hdl := decLen_encText false bs
  have h := fromBase32_eq cs _ post out (fun b hb => (encode_chars bs b hb).1)
    (fun _ b hb => (encode_chars bs b hb).2) (by rw [takeWhile_encode, hdl]; exact ho)
  rw [takeWhile_encode, decPure_encText] at h
  exact h

theorem legal64 (url : Bool) (bs post : List Byte) :
    Leakage.Legal64 url (Base64Spec.encodeRaw url bs).length (Base64Spec.encodeRaw url bs ++ post) := by
  intro i c hi hc
  rw [List.getElem?_append_left hi] at hc
  obtain ⟨d, hd, rfl⟩ := List.mem_map.mp (List.mem_of_getElem? hc)
  have hlt := BaseN.digitsOf_lt 6 bs (by omega) d hd
  have : ∀ url, ∀ n : Fin 64, Base64Spec.value? url (Base64Spec.char url n.1) ≠ none := by decide +kernel
  exact this url ⟨d, hlt⟩

theorem legal32 (bs : List Byte) : ∀ b ∈ encText false bs, Base32Spec.value? b ≠ none := by
  intro b hb
  obtain ⟨d, hd, rfl⟩ := List.mem_map.mp hb
  have hlt := BaseN.digitsOf_lt 5 bs (by omega) d hd
  have : ∀ n : Fin 32, Base32Spec.value? (encChar false n.1) ≠ none := by decide +kernel
  exact this ⟨d, hlt⟩

theorem encode_length64 (bs : List Byte) : (Base64Spec.encode bs).length = toBase64Length bs.length :=
  (C04_to_base64_rfc4648 bs (List.replicate (toBase64Length bs.length) 0#8) (by simp)).2

theorem encode_length64u (bs : List Byte) : (Base64Spec.encodeRaw true bs).length = toBase64UrlsafeLength bs.length :=
  (C05_to_base64_urlsafe_rfc4648 bs (List.replicate (toBase64UrlsafeLength bs.length) 0#8) (by simp)).2

theorem encode_length32 (bs : List Byte) : (Base32Spec.encode bs).length = toBase32Length bs.length :=
  (C09_to_base32_rfc4648 bs (List.replicate (toBase32Length bs.length) 0#8) (by simp)).2

/-- C101 (what holds, Base64). Apart from the look-ups of the characters, what is seen while the Base64 text of some data is read depends on
the length of the data only.  Missing: those look-ups (`C101_violated_base64`), and texts that are not the Base64 of anything. -/
theorem C101_base64_partial (n : Nat) : ∃ t, ∀ bs out post : List Byte, bs.length = n → n ≤ out.length →
    ∃ t', Leakage.fromBase64 ⟨"str", 0, Base64Spec.encode bs ++ post⟩ (toBase64Length n) out = .ok (over bs out, n) t' ∧
      Leakage.besides "BASE64_STANDARD_DECODE" t' = t := by
  obtain ⟨t, h⟩ := common_view (ι := {p : List Byte × List Byte × List Byte // p.1.length = n ∧ n ≤ p.2.1.length}) "BASE64_STANDARD_DECODE"
    (fun p t => Leakage.fromBase64 ⟨"str", 0, Base64Spec.encode p.1.1 ++ p.1.2.2⟩ (toBase64Length n) p.1.2.1 = .ok (over p.1.1 p.1.2.1, n) t) (by
      rintro ⟨⟨bs, out, post⟩, h1, h2⟩
      simp only at h1 h2 ⊢
      subst h1
      obtain ⟨t, h, -⟩ := Leakage.fromBase64_costs ⟨"str", 0, Base64Spec.encode bs ++ post⟩ _ out _ (read_base64 bs out post h2)
      rw [encode_length64] at h
      exact ⟨t, h⟩) (by
      rintro ⟨⟨x, s, p⟩, h1, h2⟩ ⟨⟨y, s', p'⟩, h3, h4⟩ t t' h h'
      simp only at h1 h2 h3 h4 h h'
      have len : ∀ z q : List Byte, z.length = n → stripLen (Base64Spec.encode z ++ q) (toBase64Length n) = .ok ((8 * n + 5) / 6) := by
        intro z q hz
        rw [← hz, ← encode_length64 z, stripLen_eq _ _ (by simp), List.take_left, strip_encode, encodeRaw_length]
      have leg : ∀ z q : List Byte, z.length = n → Leakage.Legal64 false ((8 * n + 5) / 6) (Base64Spec.encode z ++ q) := by
        intro z q hz
        have := legal64 false z (List.replicate ((4 - (Base64Spec.encodeRaw false z).length % 4) % 4) 61#8 ++ q)
        rw [encodeRaw_length, hz, ← List.append_assoc] at this
        simp only [Base64Spec.encode]
        rw [encodeRaw_length, hz]
        exact this
      exact (Leakage.fromBase64_alike "str" _ _ s s' (toBase64Length n) _ (len x p h1) (len y p' h3) (leg x p h1) (leg y p' h3) _ _ _ _ h h').1)
  exact ⟨t, fun bs out post h1 h2 => h ⟨(bs, out, post), h1, h2⟩⟩

/-- C101 (what holds, URL-safe Base64). As `C101_base64_partial`. -/
theorem C101_base64_urlsafe_partial (n : Nat) : ∃ t, ∀ bs out post : List Byte, bs.length = n → n ≤ out.length →
    ∃ t', Leakage.fromBase64Urlsafe ⟨"str", 0, Base64Spec.encodeRaw true bs ++ post⟩ (toBase64UrlsafeLength n) out = .ok (over bs out, n) t' ∧
      Leakage.besides "BASE64_URLSAFE_DECODE" t' = t := by
  obtain ⟨t, h⟩ := common_view (ι := {p : List Byte × List Byte × List Byte // p.1.length = n ∧ n ≤ p.2.1.length}) "BASE64_URLSAFE_DECODE"
    (fun p t => Leakage.fromBase64Urlsafe ⟨"str", 0, Base64Spec.encodeRaw true p.1.1 ++ p.1.2.2⟩ (toBase64UrlsafeLength n) p.1.2.1 =
      .ok (over p.1.1 p.1.2.1, n) t) (by
      rintro ⟨⟨bs, out, post⟩, h1, h2⟩
      simp only at h1 h2 ⊢
      subst h1
      obtain ⟨t, h, -⟩ := Leakage.fromBase64Impl_costs ⟨"str", 0, Base64Spec.encodeRaw true bs ++ post⟩ _ out true _ (read_base64_urlsafe bs out post h2)
      rw [encode_length64u] at h
      exact ⟨t, h⟩) (by
      rintro ⟨⟨x, s, p⟩, h1, h2⟩ ⟨⟨y, s', p'⟩, h3, h4⟩ t t' h h'
      simp only at h1 h2 h3 h4 h h'
      have leg : ∀ z q : List Byte, z.length = n → Leakage.Legal64 true (toBase64UrlsafeLength n) (Base64Spec.encodeRaw true z ++ q) := by
        intro z q hz
        have := legal64 true z q
        rwa [encode_length64u, hz] at this
      exact (Leakage.fromBase64Impl_alike true "str" _ _ s s' (toBase64UrlsafeLength n) (leg x p h1) (leg y p' h3) _ _ _ _ h h').1)
  exact ⟨t, fun bs out post h1 h2 => h ⟨(bs, out, post), h1, h2⟩⟩

/-- C101 (what holds, Base32). As `C101_base64_partial`. -/
theorem C101_base32_partial (cs : Bool) (n : Nat) : ∃ t, ∀ bs out post : List Byte, bs.length = n → n ≤ out.length →
    ∃ t', Leakage.fromBase32 cs ⟨"str", 0, Base32Spec.encode bs ++ 0#8 :: post⟩ (toBase32Length n) out = .ok (over bs out, n) t' ∧
      Leakage.besides "BASE32_DECODE" t' = t := by
  obtain ⟨t, h⟩ := common_view (ι := {p : List Byte × List Byte × List Byte // p.1.length = n ∧ n ≤ p.2.1.length}) "BASE32_DECODE"
    (fun p t => Leakage.fromBase32 cs ⟨"str", 0, Base32Spec.encode p.1.1 ++ 0#8 :: p.1.2.2⟩ (toBase32Length n) p.1.2.1 =
      .ok (over p.1.1 p.1.2.1, n) t) (by
      rintro ⟨⟨bs, out, post⟩, h1, h2⟩
      simp only at h1 h2 ⊢
      subst h1
      obtain ⟨t, h, -⟩ := Leakage.fromBase32_costs cs (Base32Spec.encode bs) post _ out (Nat.le_refl _) _ (read_base32 cs bs out post h2)
      rw [encode_length32] at h
      exact ⟨t, h⟩) (by
      rintro ⟨⟨x, s, p⟩, h1, h2⟩ ⟨⟨y, s', p'⟩, h3, h4⟩ t t' h h'
      simp only at h1 h2 h3 h4 h h'
      have hl : (encText false x).length = (encText false y).length := by rw [encText_length, encText_length, h1, h3]
      have hn := encode_length32 x
      rw [encode32_eq, List.append_assoc] at h h'
      rw [encode32_eq, List.length_append] at hn
      rw [h1] at h hn
      rw [h3] at h'
      cases hp : Base32.padding false n with
      | nil =>
        rw [hp] at h h' hn
        exact (Leakage.fromBase32_alike cs (encText false x) (encText false y) p p' s s' 0#8 (.inr rfl) (toBase32Length n) hl
          (fun _ => by rw [← hn]; simp) (legal32 x) (legal32 y) _ _ _ _ h h').1
      | cons d q =>
        have hd : d = 61#8 := by
          have : d ∈ Base32.padding false n := by rw [hp]; simp
          unfold Base32.padding at this
          rw [if_neg (by decide)] at this
          exact List.eq_of_mem_replicate this
        subst hd
        rw [hp] at h h'
        exact (Leakage.fromBase32_alike cs (encText false x) (encText false y) _ _ s s' 61#8 (.inl (by decide)) (toBase32Length n) hl
          (fun h0 => absurd h0 (by decide)) (legal32 x) (legal32 y) _ _ _ _ h h').1)
  exact ⟨t, fun bs out post h1 h2 => h ⟨(bs, out, post), h1, h2⟩⟩

/-- C101 is violated, Base64: reading two texts of one length looks the same only if the same bytes are delivered. -/
theorem C101_violated_base64 (x y o o' : List Byte) (n : Nat) (r r' : List Byte × Nat) (t : List Leakage.Ev)
    (h : Leakage.fromBase64 ⟨"str", 0, x⟩ n o = .ok r t) (h' : Leakage.fromBase64 ⟨"str", 0, y⟩ n o' = .ok r' t) :
    r.1.take r.2 = r'.1.take r'.2 := by
  obtain ⟨-, e, a⟩ := Leakage.fromBase64_tells "str" x y o o' n r t r' t [] [] h h' rfl
  rw [← e]
  exact a.2.2

/-- C101 is violated, URL-safe Base64. -/
theorem C101_violated_base64_urlsafe (x y o o' : List Byte) (n : Nat) (r r' : List Byte × Nat) (t : List Leakage.Ev)
    (h : Leakage.fromBase64Urlsafe ⟨"str", 0, x⟩ n o = .ok r t) (h' : Leakage.fromBase64Urlsafe ⟨"str", 0, y⟩ n o' = .ok r' t) :
    r.1.take r.2 = r'.1.take r'.2 := by
  obtain ⟨-, e, a⟩ := Leakage.fromBase64Impl_tells true "str" x y o o' n r t r' t [] [] h h' rfl
  rw [← e]
  exact a.2.2

/-- C101 is violated, Base32. -/
theorem C101_violated_base32 (cs : Bool) (x y o o' : List Byte) (n : Nat) (r r' : List Byte × Nat) (t : List Leakage.Ev)
    (h : Leakage.fromBase32 cs ⟨"str", 0, x⟩ n o = .ok r t) (h' : Leakage.fromBase32 cs ⟨"str", 0, y⟩ n o' = .ok r' t) :
    r.1.take r.2 = r'.1.take r'.2 := by
  obtain ⟨-, e, a⟩ := Leakage.fromBase32Impl_tells cs false "str" "buf" 0 0 x y o o' n r t r' t [] [] h h' rfl
  rw [← e]
  exact a.2.2

/-- C101 is violated, Base64: from what is seen, and the length of the text, the data follow. -/
theorem C101_violated_recover_base64 (n : Nat) : ∃ recover : List Leakage.Ev → List Byte, ∀ bs out post : List Byte,
    (Base64Spec.encode bs).length = n → bs.length ≤ out.length →
    ∃ t, Leakage.fromBase64 ⟨"str", 0, Base64Spec.encode bs ++ post⟩ n out = .ok (over bs out, bs.length) t ∧ recover t = bs := by
  obtain ⟨f, hf⟩ := recover_of_inj [] (fun d t => ∃ str out r, r.1.take r.2 = d ∧ Leakage.fromBase64 ⟨"str", 0, str⟩ n out = .ok r t) (by
    rintro a b t ⟨x, o, r, rfl, h⟩ ⟨y, o', r', rfl, h'⟩
    exact C101_violated_base64 x y o o' n r r' t h h')
  refine ⟨f, fun bs out post hn ho => ?_⟩
  subst hn
  obtain ⟨t, h, -⟩ := Leakage.fromBase64_costs ⟨"str", 0, Base64Spec.encode bs ++ post⟩ _ out _ (read_base64 bs out post ho)
  exact ⟨t, h, hf _ _ ⟨_, out, _, over_take _ _, h⟩⟩

/-- C101 is violated, URL-safe Base64: from what is seen, and the length of the text, the data follow. -/
theorem C101_violated_recover_base64_urlsafe (n : Nat) : ∃ recover : List Leakage.Ev → List Byte, ∀ bs out post : List Byte,
    (Base64Spec.encodeRaw true bs).length = n → bs.length ≤ out.length →
    ∃ t, Leakage.fromBase64Urlsafe ⟨"str", 0, Base64Spec.encodeRaw true bs ++ post⟩ n out = .ok (over bs out, bs.length) t ∧ recover t = bs := by
  obtain ⟨f, hf⟩ := recover_of_inj [] (fun d t => ∃ str out r, r.1.take r.2 = d ∧ Leakage.fromBase64Urlsafe ⟨"str", 0, str⟩ n out = .ok r t) (by
    rintro a b t ⟨x, o, r, rfl, h⟩ ⟨y, o', r', rfl, h'⟩
    exact C101_violated_base64_urlsafe x y o o' n r r' t h h')
  refine ⟨f, fun bs out post hn ho => ?_⟩
  subst hn
  obtain ⟨t, h, -⟩ := Leakage.fromBase64Impl_costs ⟨"str", 0, Base64Spec.encodeRaw true bs ++ post⟩ _ out true _ (read_base64_urlsafe bs out post ho)
  exact ⟨t, h, hf _ _ ⟨_, out, _, over_take _ _, h⟩⟩

/-- C101 is violated, Base32: from what is seen, and the length of the text, the data follow. -/
theorem C101_violated_recover_base32 (cs : Bool) (n : Nat) : ∃ recover : List Leakage.Ev → List Byte, ∀ bs out post : List Byte,
    (Base32Spec.encode bs).length = n → bs.length ≤ out.length →
    ∃ t, Leakage.fromBase32 cs ⟨"str", 0, Base32Spec.encode bs ++ 0#8 :: post⟩ n out = .ok (over bs out, bs.length) t ∧ recover t = bs := by
  obtain ⟨f, hf⟩ := recover_of_inj [] (fun d t => ∃ str out r, r.1.take r.2 = d ∧ Leakage.fromBase32 cs ⟨"str", 0, str⟩ n out = .ok r t) (by
    rintro a b t ⟨x, o, r, rfl, h⟩ ⟨y, o', r', rfl, h'⟩
    exact C101_violated_base32 cs x y o o' n r r' t h h')
  refine ⟨f, fun bs out post hn ho => ?_⟩
  subst hn
  obtain ⟨t, h, -⟩ := Leakage.fromBase32_costs cs (Base32Spec.encode bs) post _ out (Nat.le_refl _) _ (read_base32 cs bs out post ho)
  exact ⟨t, h, hf _ _ ⟨_, out, _, over_take _ _, h⟩⟩
