import Verif.Lemmas.Base58
/-! Property theorems C13, C16 and C17 about `base58.c`; without bounds on sizes, and C14, C15: `Props/Base58Total.lean`. -/
open Base58

theorem encode58_length_le (bs : List Byte) : (Base58Spec.encode bs).length ≤ toBase58Length bs.length := by
  have hz : (bs.takeWhile (· = 0#8)).length + (bs.dropWhile (· = 0#8)).length = bs.length := by
    rw [← List.length_append, List.takeWhile_append_dropWhile]
  have hlt := number_lt (bs.dropWhile (· = 0#8))
  rw [number_dropZeros] at hlt
  have h2 := Positional.digits_length_le 58 _ _ (by omega)
    (Nat.lt_of_lt_of_le hlt (pow_bound_enc _))
  simp only [Base58Spec.encode, List.length_append, List.length_replicate, List.length_map, toBase58Length]
  change (bs.takeWhile (· = 0#8)).length + _ ≤ _
  generalize (bs.takeWhile (· = 0#8)).length = a at *
  generalize (Positional.digits 58 (Base58Spec.number bs)).length = d at *
  generalize hb : (bs.dropWhile (· = 0#8)).length = b at *
  change a + b = bs.length at hz
  omega

/-- C13. For every byte buffer, `fingera_to_base58` writes one `'1'` per leading zero byte followed
by the canonical base-58 digits of the big-endian number, returns the number of characters and
touches nothing else.  The buffer needs to hold the text only (see C14 for the documented size). -/
theorem C13_to_base58_canonical (bs str : List Byte) (hn : bs.length < 2^30)
    (hs : (Base58Spec.encode bs).length ≤ str.length) :
    toBase58 bs bs.length str =
      .ok (over (Base58Spec.encode bs) str, (Base58Spec.encode bs).length) :=
  toBase58_eq bs str hn hs

/-- C13 (what "canonical digits" means): the digits are below 58, do not start with 0 and denote
exactly the number; any digit string with these properties is the one produced. -/
theorem C13_digits_canonical (n : Nat) (ds : List Nat) :
    ds = Positional.digits 58 n ↔
      (∀ d ∈ ds, d < 58) ∧ ds.head? ≠ some 0 ∧ Positional.value 58 ds = n := by
  constructor
  · rintro rfl
    refine ⟨Positional.digits_lt 58 n (by omega), ?_, Positional.value_digits 58 n (by omega)⟩
    cases h : Positional.digits 58 n with
    | nil => simp
    | cons d ds => simpa using Positional.digits_head 58 n (by omega) d ds h
  · rintro ⟨h1, h2, rfl⟩
    exact (Positional.digits_value 58 (by omega) ds h1 (by
      rintro d r rfl; simpa using h2)).symm

example : Base58Spec.encode [0, 0, 0x28, 0x7F, 0xB4, 0xCD] = cstr "11233QC4" := by
  have h : Base58Spec.number [0, 0, 0x28, 0x7F, 0xB4, 0xCD] = 679457997 := by decide
  have d : Positional.digits 58 679457997 = [1, 2, 2, 23, 11, 3] :=
    ((C13_digits_canonical _ _).mpr ⟨by decide, by decide, by decide⟩).symm
  rw [Base58Spec.encode, h, d]; decide
example : toBase58 [0, 0, 0x28, 0x7F, 0xB4, 0xCD] 6 (List.replicate 10 7) =
    .ok (cstr "11233QC4" ++ [7, 7], 8) := by decide +kernel

theorem value?_char (d : Nat) (h : d < 58) : Base58Spec.value? (Base58Spec.char d) = some d := by
  have : ∀ d : Fin 58, Base58Spec.value? (Base58Spec.char d.1) = some d.1 := by decide +kernel
  exact this ⟨d, h⟩

theorem char_props (d : Nat) (h : d < 58) : Base58Spec.isSpace (Base58Spec.char d) = false ∧
    Base58Spec.char d ≠ 0#8 ∧ (Base58Spec.char d).toNat < 128 ∧
    (Base58Spec.char d = 49#8 ↔ d = 0) := by
  have : ∀ d : Fin 58, Base58Spec.isSpace (Base58Spec.char d.1) = false ∧
    Base58Spec.char d.1 ≠ 0#8 ∧ (Base58Spec.char d.1).toNat < 128 ∧
    (Base58Spec.char d.1 = 49#8 ↔ d.1 = 0) := by decide +kernel
  exact this ⟨d, h⟩

theorem encode58_chars (bs : List Byte) (c : Byte) (h : c ∈ Base58Spec.encode bs) :
    Base58Spec.isSpace c = false ∧ c ≠ 0#8 ∧ c.toNat < 128 ∧ (Base58Spec.value? c).isSome := by
  rcases List.mem_append.mp h with h | h
  · rw [List.eq_of_mem_replicate h]; decide +kernel
  · obtain ⟨d, hd, rfl⟩ := List.mem_map.mp h
    have hlt := Positional.digits_lt 58 _ (by omega) d hd
    obtain ⟨h1, h2, h3, -⟩ := char_props d hlt
    rw [value?_char d hlt]
    exact ⟨h1, h2, h3, rfl⟩

theorem takeWhile_ones_encode (bs : List Byte) :
    ((Base58Spec.encode bs).takeWhile (· = 49#8)).length = (bs.takeWhile (· = 0#8)).length := by
  rw [Base58Spec.encode, List.takeWhile_append_of_pos (by
    intro a ha; rw [List.eq_of_mem_replicate ha]; simp)]
  have : ((Positional.digits 58 (Base58Spec.number bs)).map Base58Spec.char).takeWhile (· = 49#8) = [] := by
    cases h : Positional.digits 58 (Base58Spec.number bs) with
    | nil => rfl
    | cons d ds =>
      have h0 := Positional.digits_head 58 _ (by omega) d ds h
      have hlt := Positional.digits_lt 58 (Base58Spec.number bs) (by omega) d (by rw [h]; simp)
      have := (char_props d hlt).2.2.2
      simp only [List.map_cons]
      rw [List.takeWhile_cons_of_neg (by simp [this, h0])]
  rw [this]; simp

theorem values_encode (bs : List Byte) :
    Positional.value 58 ((Base58Spec.encode bs).filterMap Base58Spec.value?) = Base58Spec.number bs := by
  rw [Base58Spec.encode, value_bytes_ones _ _ (fun x hx => List.eq_of_mem_replicate hx)]
  have : ((Positional.digits 58 (Base58Spec.number bs)).map Base58Spec.char).filterMap Base58Spec.value? =
      Positional.digits 58 (Base58Spec.number bs) := by
    have hlt := Positional.digits_lt 58 (Base58Spec.number bs) (by omega)
    generalize Positional.digits 58 (Base58Spec.number bs) = ds at hlt
    induction ds with
    | nil => rfl
    | cons d ds ih =>
      rw [List.map_cons, List.filterMap_cons_some (value?_char d (hlt d (by simp))),
        ih (fun x hx => hlt x (by simp [hx]))]
  rw [this, Positional.value_digits 58 _ (by omega)]

theorem zeros_digits (bs : List Byte) :
    List.replicate (bs.takeWhile (· = 0#8)).length 0#8 ++
      (Positional.digits 256 (Base58Spec.number bs)).map (BitVec.ofNat 8) = bs := by
  have h1 : bs.takeWhile (· = 0#8) = List.replicate (bs.takeWhile (· = 0#8)).length 0#8 := by
    rw [List.eq_replicate_iff]
    refine ⟨rfl, ?_⟩
    have key : ∀ l : List Byte, ∀ x ∈ l.takeWhile (· = 0#8), x = 0#8 := by
      intro l
      induction l with
      | nil => simp
      | cons c t ih =>
        by_cases hc : c = 0#8
        · subst hc; simpa using ih
        · simp [hc]
    exact key bs
  have h2 : (Positional.digits 256 (Base58Spec.number bs)).map (BitVec.ofNat 8) = bs.dropWhile (· = 0#8) := by
    rw [← number_dropZeros]
    have hne : ∀ d r, (bs.dropWhile (· = 0#8)).map BitVec.toNat = d :: r → d ≠ 0 := by
      intro d r h
      cases hb : bs.dropWhile (· = 0#8) with
      | nil => rw [hb] at h; simp at h
      | cons x t =>
        rw [hb] at h
        have := List.head_dropWhile_not (fun x : Byte => decide (x = 0#8)) (l := bs) (by rw [hb]; simp)
        simp only [hb, List.head_cons, decide_eq_false_iff_not] at this
        simp only [List.map_cons, List.cons.injEq] at h
        rw [← h.1]
        intro h0; apply this; apply BitVec.eq_of_toNat_eq; simpa using h0
    rw [Base58Spec.number, Positional.digits_value 256 (by omega) _ (by
      intro d hd
      obtain ⟨x, -, rfl⟩ := List.mem_map.mp hd
      exact x.isLt) hne]
    simp [List.map_map, Function.comp_def]
  rw [h2, ← h1, List.takeWhile_append_dropWhile]

theorem all_takeWhile {α : Type} (p : α → Bool) (l : List α) (h : ∀ x ∈ l, p x = true) :
    l.takeWhile p = l ∧ l.dropWhile p = [] := by
  induction l with
  | nil => simp
  | cons a l ih =>
    have := ih (fun x hx => h x (by simp [hx]))
    simp [h a (by simp), this]

theorem decode_encode58 (bs : List Byte) : Base58Spec.decode? (Base58Spec.encode bs) = some bs := by
  have hsp : ∀ c ∈ Base58Spec.encode bs, Base58Spec.isSpace c = false :=
    fun c hc => (encode58_chars bs c hc).1
  have hd : (Base58Spec.encode bs).dropWhile Base58Spec.isSpace = Base58Spec.encode bs := by
    cases h : Base58Spec.encode bs with
    | nil => rfl
    | cons c r => rw [List.dropWhile_cons_of_neg]; rw [hsp c (by rw [h]; simp)]; simp
  obtain ⟨h1, h2⟩ := all_takeWhile (fun c => !Base58Spec.isSpace c) (Base58Spec.encode bs)
    (by intro c hc; simp [hsp c hc])
  unfold Base58Spec.decode?
  rw [hd]
  simp only [h1, h2, List.all_nil, Bool.and_true]
  rw [if_pos (by rw [List.all_eq_true]; intro c hc; exact (encode58_chars bs c hc).2.2.2)]
  rw [Base58Spec.bytes, takeWhile_ones_encode, values_encode, zeros_digits]

/-- C16. Any NUL-terminated string (7-bit where `char` is signed, short enough for `int`): decoding
is defined whenever the buffer holds the decoded bytes; strings that are not blanks–digits–blanks
yield 0 and an untouched buffer; the others yield exactly the specified bytes. -/
theorem C16_from_base58_any (cs : Bool) (s post buf : List Byte) (h0 : ∀ b ∈ s, b ≠ 0#8)
    (h7 : cs = true → ∀ b ∈ s, b.toNat < 128) (hlen : s.length ≤ 2929669)
    (hb : ∀ W, Base58Spec.decode? s = some W → W.length ≤ buf.length) :
    (Base58Spec.decode? s = none →
      fromBase58 cs (s ++ 0#8 :: post) s.length buf = .ok (buf, 0)) ∧
    (∀ W, Base58Spec.decode? s = some W →
      fromBase58 cs (s ++ 0#8 :: post) s.length buf = .ok (over W buf, W.length)) := by
  have := fromBase58_eq cs s post buf h0 h7 (by
    have : s.length * 733 ≤ 2929669 * 733 := Nat.mul_le_mul_right _ hlen
    omega) hb
  constructor
  · intro h; rw [h] at this; exact this
  · intro W h; rw [h] at this; exact this

/-- Remove the blanks around a string. -/
def trim58 (s : List Byte) : List Byte :=
  ((s.dropWhile Base58Spec.isSpace).reverse.dropWhile Base58Spec.isSpace).reverse

theorem bytes_encode58 (body : List Byte) (h : ∀ c ∈ body, (Base58Spec.value? c).isSome) :
    Base58Spec.encode (Base58Spec.bytes body) = body := by
  have hchar : ∀ c : Byte, ∀ v, Base58Spec.value? c = some v → Base58Spec.char v = c := by
    have : ∀ c : Byte, (Base58Spec.value? c).all (fun v => Base58Spec.char v = c) = true := by decide +kernel
    intro c v hv
    have := this c; rw [hv] at this; simpa using this
  have hsplit : body = List.replicate (body.takeWhile (· = 49#8)).length 49#8 ++ body.dropWhile (· = 49#8) := by
    have : body.takeWhile (· = 49#8) = List.replicate (body.takeWhile (· = 49#8)).length 49#8 := by
      rw [List.eq_replicate_iff]; exact ⟨rfl, all_takeWhile_ones body⟩
    conv => lhs; rw [← List.takeWhile_append_dropWhile (p := fun x : Byte => decide (x = 49#8)) (l := body)]
    rw [← this]
  have hv49 : Base58Spec.value? 49#8 = some 0 := by decide +kernel
  -- digits of the part without leading ones
  have hdig : Positional.digits 58 (Positional.value 58 (body.filterMap Base58Spec.value?)) =
      (body.dropWhile (· = 49#8)).filterMap Base58Spec.value? := by
    have e : Positional.value 58 (body.filterMap Base58Spec.value?) =
        Positional.value 58 ((body.dropWhile (· = 49#8)).filterMap Base58Spec.value?) := by
      conv => lhs; rw [hsplit]
      exact value_bytes_ones _ _ (fun x hx => List.eq_of_mem_replicate hx)
    rw [e]
    apply Positional.digits_value 58 (by omega)
    · intro d hd
      obtain ⟨c, -, hc⟩ := List.mem_filterMap.mp hd
      exact value?_lt c d hc
    · intro d r hdr h0
      subst h0
      cases hb : body.dropWhile (· = 49#8) with
      | nil => rw [hb] at hdr; simp at hdr
      | cons x t =>
        have hx := List.head_dropWhile_not (fun x : Byte => decide (x = 49#8)) (l := body) (by rw [hb]; simp)
        simp only [hb, List.head_cons, decide_eq_false_iff_not] at hx
        have hxs := h x ((List.dropWhile_suffix (fun x : Byte => decide (x = 49#8))).subset (by rw [hb]; simp))
        obtain ⟨v, hv⟩ := Option.isSome_iff_exists.mp hxs
        rw [hb, List.filterMap_cons_some hv] at hdr
        simp only [List.cons.injEq] at hdr
        have := hchar x v hv
        rw [hdr.1] at this
        exact hx (by rw [← this]; decide)
  have hback : ((body.dropWhile (· = 49#8)).filterMap Base58Spec.value?).map Base58Spec.char =
      body.dropWhile (· = 49#8) := by
    have hall : ∀ c ∈ body.dropWhile (· = 49#8), (Base58Spec.value? c).isSome :=
      fun c hc => h c ((List.dropWhile_suffix _).subset hc)
    generalize body.dropWhile (· = 49#8) = l at hall
    induction l with
    | nil => rfl
    | cons c l ih =>
      obtain ⟨v, hv⟩ := Option.isSome_iff_exists.mp (hall c (by simp))
      rw [List.filterMap_cons_some hv, List.map_cons, hchar c v hv, ih (fun c hc => hall c (by simp [hc]))]
  -- number and leading zeroes of the bytes
  generalize hN : Positional.value 58 (body.filterMap Base58Spec.value?) = N at hdig
  have hlt := Positional.digits_lt 256 N (by omega)
  have htoNat : ((Positional.digits 256 N).map (BitVec.ofNat 8)).map BitVec.toNat = Positional.digits 256 N := by
    rw [List.map_map]
    conv => rhs; rw [← List.map_id (Positional.digits 256 N)]
    apply List.map_congr_left
    intro d hd
    have := hlt d hd
    simp only [Function.comp, BitVec.toNat_ofNat, id]; omega
  have hnum : Base58Spec.number (Base58Spec.bytes body) = N := by
    rw [Base58Spec.bytes, hN, Base58Spec.number, List.map_append, Positional.value_append,
      Positional.value_zeros 256 _ (by
        intro x hx
        obtain ⟨y, hy, rfl⟩ := List.mem_map.mp hx
        rw [List.eq_of_mem_replicate hy]; rfl), htoNat, Positional.value_digits 256 _ (by omega)]
    simp
  have hzero : ((Base58Spec.bytes body).takeWhile (· = 0#8)).length = (body.takeWhile (· = 49#8)).length := by
    rw [Base58Spec.bytes, hN, List.takeWhile_append_of_pos (by
      intro a ha; rw [List.eq_of_mem_replicate ha]; simp)]
    have : ((Positional.digits 256 N).map (BitVec.ofNat 8)).takeWhile (· = 0#8) = [] := by
      cases hd : Positional.digits 256 N with
      | nil => rfl
      | cons d ds =>
        have h0 := Positional.digits_head 256 _ (by omega) d ds hd
        have := hlt d (by rw [hd]; simp)
        rw [List.map_cons, List.takeWhile_cons_of_neg]
        simp only [decide_eq_true_eq]
        intro he
        have := congrArg BitVec.toNat he
        simp at this; omega
    rw [this]; simp
  rw [Base58Spec.encode, hzero, hnum, hdig, hback]
  exact hsplit.symm

/-- C16 (injectivity / canonicity). Whenever a string decodes, re-encoding the bytes gives back the
string without the surrounding blanks. -/
theorem C16_reencode (s W : List Byte) (h : Base58Spec.decode? s = some W) :
    Base58Spec.encode W = trim58 s := by
  unfold Base58Spec.decode? at h
  simp only at h
  unfold trim58
  generalize s.dropWhile Base58Spec.isSpace = t at h ⊢
  split at h
  · rename_i hc
    rw [Bool.and_eq_true, List.all_eq_true, List.all_eq_true] at hc
    simp only [Option.some.injEq] at h
    subst h
    rw [bytes_encode58 _ hc.1]
    have ht := List.takeWhile_append_dropWhile (p := fun c => !Base58Spec.isSpace c) (l := t)
    conv => rhs; rw [← ht]
    rw [List.reverse_append, List.dropWhile_append_of_pos (by
      intro a ha; exact hc.2 a (by simpa using ha))]
    have hns : ∀ l : List Byte, ∀ x ∈ l.takeWhile (fun c => !Base58Spec.isSpace c), Base58Spec.isSpace x = false := by
      intro l
      induction l with
      | nil => simp
      | cons a l ih =>
        intro x hx
        by_cases ha : Base58Spec.isSpace a = true
        · simp [ha] at hx
        · simp only [Bool.not_eq_true] at ha
          simp only [List.takeWhile_cons, ha, Bool.not_false, if_true, List.mem_cons] at hx
          rcases hx with rfl | hx
          · exact ha
          · exact ih x hx
    have hns := hns t
    generalize t.takeWhile (fun c => !Base58Spec.isSpace c) = b at hns
    cases hb : b.reverse with
    | nil => simpa using hb
    | cons x r =>
      rw [List.dropWhile_cons_of_neg, ← hb, List.reverse_reverse]
      rw [hns x (by rw [← List.mem_reverse, hb]; simp)]; simp
  · simp at h

example : fromBase58 true (cstr "  11233QC4 \n" ++ [0]) 12 (List.replicate 9 7) =
    .ok ([0, 0, 0x28, 0x7F, 0xB4, 0xCD, 7, 7, 7], 6) ∧
    fromBase58 true (cstr "112 33" ++ [0]) 6 (List.replicate 5 7) = .ok ([7, 7, 7, 7, 7], 0) ∧
    fromBase58 true (cstr "10" ++ [0]) 2 (List.replicate 5 7) = .ok ([7, 7, 7, 7, 7], 0) := by
  decide +kernel

/-- C17 is violated by the code: ten `'1'` decode to ten zero bytes, but the documented size is 9;
the tenth write is out of bounds. -/
theorem C17_violated_many_ones :
    fromBase58Length 10 = 9 ∧
    fromBase58 true (cstr "1111111111" ++ [0]) 10 (List.replicate 9 7) = .ub := by decide +kernel

theorem decode58_length_le (s W : List Byte) (h : Base58Spec.decode? s = some W) :
    W.length ≤ ((s.dropWhile Base58Spec.isSpace).takeWhile (· = 49#8)).length +
      (s.length - ((s.dropWhile Base58Spec.isSpace).takeWhile (· = 49#8)).length) * 733 / 1000 + 1 := by
  unfold Base58Spec.decode? at h
  simp only at h
  have htl : (s.dropWhile Base58Spec.isSpace).length ≤ s.length := (List.dropWhile_suffix _).length_le
  generalize s.dropWhile Base58Spec.isSpace = t at h htl ⊢
  split at h
  · simp only [Option.some.injEq] at h
    subst h
    obtain ⟨s1, -, s3⟩ := body_split t
    rw [Base58Spec.bytes, s3, s1, value_bytes_ones _ _ (all_takeWhile_ones t)]
    simp only [List.length_append, List.length_replicate, List.length_map]
    have hlt := Positional.value_lt 58 (((t.dropWhile (· = 49#8)).takeWhile fun c => !Base58Spec.isSpace c).filterMap Base58Spec.value?) (by
      intro d hd
      obtain ⟨c, -, hc⟩ := List.mem_filterMap.mp hd
      exact value?_lt c d hc)
    have hl1 := List.length_filterMap_le Base58Spec.value? ((t.dropWhile (· = 49#8)).takeWhile fun c => !Base58Spec.isSpace c)
    have hl2 := (List.takeWhile_sublist (fun c => !Base58Spec.isSpace c) (l := t.dropWhile (· = 49#8))).length_le
    have hsum : (t.takeWhile (· = 49#8)).length + (t.dropWhile (· = 49#8)).length = t.length := by
      rw [← List.length_append, List.takeWhile_append_dropWhile]
    have := Positional.digits_length_le 256 _ _ (by omega) (Nat.lt_of_lt_of_le hlt (pow_bound_dec _))
    omega
  · simp at h

/-- C17, the part that holds: with at most three leading `'1'` (after blanks) the documented buffer
size suffices and decoding is safe.  Missing: four or more leading `'1'`s can exceed it (see
`C17_violated_many_ones`). -/
theorem C17_from_base58_fits_partial (cs : Bool) (s post buf : List Byte) (h0 : ∀ b ∈ s, b ≠ 0#8)
    (h7 : cs = true → ∀ b ∈ s, b.toNat < 128) (hlen : s.length ≤ 2929669)
    (h3 : ((s.dropWhile Base58Spec.isSpace).takeWhile (· = 49#8)).length ≤ 3)
    (hb : fromBase58Length s.length ≤ buf.length) :
    ∃ W, fromBase58 cs (s ++ 0#8 :: post) s.length buf = .ok (over W buf, W.length) ∧
      W.length ≤ fromBase58Length s.length := by
  have hle : ∀ W, Base58Spec.decode? s = some W → W.length ≤ fromBase58Length s.length := by
    intro W hW
    have := decode58_length_le s W hW
    have hts : ((s.dropWhile Base58Spec.isSpace).takeWhile (· = 49#8)).length ≤ s.length :=
      Nat.le_trans (List.takeWhile_sublist _).length_le (List.dropWhile_suffix _).length_le
    unfold fromBase58Length
    generalize ((s.dropWhile Base58Spec.isSpace).takeWhile (· = 49#8)).length = z at *
    omega
  have := C16_from_base58_any cs s post buf h0 h7 hlen (fun W hW => Nat.le_trans (hle W hW) hb)
  cases hd : Base58Spec.decode? s with
  | none => exact ⟨[], by rw [this.1 hd]; simp, by simp⟩
  | some W => exact ⟨W, this.2 W hd, hle W hd⟩

/-- C17 (what always holds): a buffer of `str_len + 1` bytes is large enough for every string. -/
theorem C17_from_base58_fits_strlen (cs : Bool) (s post buf : List Byte) (h0 : ∀ b ∈ s, b ≠ 0#8)
    (h7 : cs = true → ∀ b ∈ s, b.toNat < 128) (hlen : s.length ≤ 2929669)
    (hb : s.length + 1 ≤ buf.length) :
    ∃ W, fromBase58 cs (s ++ 0#8 :: post) s.length buf = .ok (over W buf, W.length) ∧
      W.length ≤ s.length + 1 := by
  have hle : ∀ W, Base58Spec.decode? s = some W → W.length ≤ s.length + 1 := by
    intro W hW
    have := decode58_length_le s W hW
    have hts : ((s.dropWhile Base58Spec.isSpace).takeWhile (· = 49#8)).length ≤ s.length :=
      Nat.le_trans (List.takeWhile_sublist _).length_le (List.dropWhile_suffix _).length_le
    generalize ((s.dropWhile Base58Spec.isSpace).takeWhile (· = 49#8)).length = z at *
    omega
  have := C16_from_base58_any cs s post buf h0 h7 hlen (fun W hW => Nat.le_trans (hle W hW) hb)
  cases hd : Base58Spec.decode? s with
  | none => exact ⟨[], by rw [this.1 hd]; simp, by simp⟩
  | some W => exact ⟨W, this.2 W hd, hle W hd⟩

example : ((cstr " 11233QC4").dropWhile Base58Spec.isSpace |>.takeWhile (· = 49#8)).length ≤ 3 ∧
    fromBase58Length 9 ≤ (List.replicate 8 (0:Byte)).length := by decide
