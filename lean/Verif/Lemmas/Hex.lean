import Verif.Model.Hex
import Verif.Spec.Hex
import Verif.Lemmas.Basic

namespace Hex
open HexSpec

theorem rd_hexStr_hi (upper : Bool) (b : Byte) :
    rd (hexStr upper) (b >>> 4).toNat = .ok (digit upper (b.toNat / 16)) := by
  revert upper b; decide +kernel

theorem rd_hexStr_lo (upper : Bool) (b : Byte) :
    rd (hexStr upper) (b &&& 0xF).toNat = .ok (digit upper (b.toNat % 16)) := by
  revert upper b; decide +kernel

theorem rd_HEX_MAP (b : Byte) :
    rd HEX_MAP b.toNat = .ok (match value? b with | some v => BitVec.ofNat 8 v | none => 0xFF) := by
  revert b; decide +kernel

theorem value_lt {b : Byte} {v : Nat} (h : value? b = some v) : v < 16 := by
  have : ∀ b : Byte, ∀ v, value? b = some v → v < 16 := by
    intro b v; unfold value?; simp only; split
    · rintro ⟨⟩; omega
    · split
      · rintro ⟨⟩; omega
      · split
        · rintro ⟨⟩; omega
        · simp
  exact this b v h

theorem value_digit (upper : Bool) (n : Nat) (h : n < 16) : value? (digit upper n) = some n := by
  have : ∀ upper, ∀ n : Fin 16, value? (digit upper n) = some n.1 := by decide +kernel
  exact this upper ⟨n, h⟩

theorem nibbles_join (x y : Nat) (hx : x < 16) (hy : y < 16) :
    ((BitVec.ofNat 8 x <<< 4) ||| BitVec.ofNat 8 y : Byte) = BitVec.ofNat 8 (16 * x + y) := by
  have : ∀ x y : Fin 16, ((BitVec.ofNat 8 x.1 <<< 4) ||| BitVec.ofNat 8 y.1 : Byte)
      = BitVec.ofNat 8 (16 * x.1 + y.1) := by decide +kernel
  exact this ⟨x, hx⟩ ⟨y, hy⟩

theorem ofNat_ne_ff (x : Nat) (hx : x < 16) : (BitVec.ofNat 8 x) ≠ (0xFF : Byte) := by
  have : ∀ x : Fin 16, (BitVec.ofNat 8 x.1) ≠ (0xFF : Byte) := by decide +kernel
  exact this ⟨x, hx⟩

theorem encode_length (upper : Bool) (bs : List Byte) : (encode upper bs).length = 2 * bs.length := by
  induction bs with
  | nil => rfl
  | cons b bs ih => simp only [encode, List.flatMap_cons, List.length_append, List.length_cons,
      List.length_nil] at *; omega

theorem toHex_eq (buf : List Byte) (n : Nat) (str : List Byte) (upper : Bool)
    (hn : n ≤ buf.length) (hs : 2 * n ≤ str.length) :
    toHex buf n str upper = .ok (over (encode upper (buf.take n)) str) := by
  unfold toHex
  have key := forLoop_eq (fun i (s : List Byte × Nat) => do
      let byte ← rd buf i
      let str ← wr s.1 s.2 (← rd (hexStr upper) (byte >>> 4).toNat)
      let str ← wr str (s.2 + 1) (← rd (hexStr upper) (byte &&& 0xF).toNat)
      pure (str, s.2 + 2))
    (fun j => (over (encode upper (buf.take j)) str, 2 * j)) n 0 (by
      intro j _ hj
      have hj' : j < buf.length := by omega
      have hl : (encode upper (buf.take j)).length = 2 * j := by
        rw [encode_length, List.length_take, Nat.min_eq_left (by omega)]
      simp only [rd_ok buf j hj', Res.ok_bind, rd_hexStr_hi, rd_hexStr_lo]
      rw [wr_over _ _ _ _ hl.symm (by omega)]
      simp only [Res.ok_bind]
      rw [wr_over _ _ _ _ (by simp [hl]) (by simp [hl]; omega)]
      simp only [Res.ok_bind, Res.pure_eq]
      have : encode upper (List.take (j+1) buf) = encode upper (buf.take j) ++
          [digit upper (buf[j].toNat / 16)] ++ [digit upper (buf[j].toNat % 16)] := by
        rw [List.take_succ_eq_append_getElem hj', encode, List.flatMap_append]
        simp [encode]
      rw [this]; rfl)
  simp only [List.take_zero] at key
  have e0 : over (encode upper []) str = str := by simp [encode]
  rw [e0] at key
  simp only [Nat.mul_zero, Nat.zero_add] at key
  rw [key]; rfl

/-- Body of the decoding loop. -/
def fromBody (str : List Byte) (j : Nat) (s : List Byte × Nat) :
    Res (Step (List Byte × Nat) (List Byte × Nat)) := do
  let high ← rd HEX_MAP (← rd str (2*j)).toNat
  let low ← rd HEX_MAP (← rd str (2*j+1)).toNat
  if high = 0xFF ∨ low = 0xFF then pure (.stop s)
  else do
    let buf ← wr s.1 s.2 ((high <<< 4) ||| low)
    pure (.next (buf, s.2 + 1))

theorem decode_length_le : ∀ (bs : List Byte), (decode bs).length ≤ bs.length / 2
  | [] => by simp [decode]
  | [_] => by simp [decode]
  | a :: b :: rest => by
    have ih := decode_length_le rest
    simp only [decode]
    split
    · simp only [List.length_cons]; omega
    · simp

theorem from_loop (str buf : List Byte) (k j : Nat) (W : List Byte)
    (hs : 2 * (j + k) ≤ str.length) (hb : W.length + k ≤ buf.length) :
    ∃ r, forLoopB (fromBody str) j k (over W buf, W.length) = .ok r ∧
      (match r with | .next s => s | .stop s => s) =
        (over (W ++ decode ((str.drop (2*j)).take (2*k))) buf,
          W.length + (decode ((str.drop (2*j)).take (2*k))).length) := by
  induction k generalizing j W with
  | zero => exact ⟨_, rfl, by simp [decode]⟩
  | succ k ih =>
    have h0 : 2*j < str.length := by omega
    have h1 : 2*j+1 < str.length := by omega
    have hd : (str.drop (2*j)).take (2*(k+1)) =
        str[2*j] :: str[2*j+1] :: (str.drop (2*(j+1))).take (2*k) := by
      rw [List.drop_eq_getElem_cons h0, List.drop_eq_getElem_cons h1,
        show 2*(k+1) = 2*k+1+1 by omega, List.take_succ_cons, List.take_succ_cons,
        show 2*j+1+1 = 2*(j+1) by omega]
    simp only [forLoopB, fromBody, rd_ok _ _ h0, rd_ok _ _ h1, Res.ok_bind, rd_HEX_MAP, hd, decode]
    rcases hv : value? str[2*j] with _ | x
    · exact ⟨_, by simp; rfl, by simp⟩
    · rcases hw : value? str[2*j+1] with _ | y
      · exact ⟨_, by simp; rfl, by simp⟩
      · have hx := value_lt hv
        have hy := value_lt hw
        simp only [ofNat_ne_ff x hx, ofNat_ne_ff y hy, or_self, if_false,
          nibbles_join x y hx hy]
        rw [wr_over _ _ _ _ rfl (by omega)]
        simp only [Res.ok_bind, Res.pure_eq]
        obtain ⟨r, hr, he⟩ := ih (j+1) (W ++ [BitVec.ofNat 8 (16*x+y)]) (by omega)
          (by simp; omega)
        refine ⟨r, ?_, ?_⟩
        · simpa using hr
        · rw [he]; simp; omega

theorem fromHex_eq (str : List Byte) (n : Nat) (buf : List Byte)
    (hn : n ≤ str.length) (hb : n / 2 ≤ buf.length) :
    fromHex str n buf = .ok (over (decode (str.take n)) buf, (decode (str.take n)).length) := by
  obtain ⟨r, hr, he⟩ := from_loop str buf (n/2) 0 [] (by omega) (by simp; omega)
  have hdec : decode ((str.drop (2*0)).take (2*(n/2))) = decode (str.take n) := by
    have : ∀ (l : List Byte) m, decode (l.take (2*(m/2))) = decode (l.take m) := by
      intro l
      induction l using decode.induct with
      | case1 a b rest x hx y hy ih =>
        intro m
        match m with
        | 0 => rfl
        | 1 => simp [decode]
        | m+2 =>
          rw [show 2 * ((m+2)/2) = 2*(m/2) + 1 + 1 by omega]
          simp only [List.take_succ_cons, decode]
          rw [ih]
      | case2 a b rest h =>
        intro m
        match m with
        | 0 => rfl
        | 1 => simp [decode]
        | m+2 =>
          rw [show 2 * ((m+2)/2) = 2*(m/2) + 1 + 1 by omega]
          simp only [List.take_succ_cons, decode]
      | case3 l h =>
        intro m
        match l, h with
        | [], _ => simp
        | [a], _ =>
          match m with
          | 0 => rfl
          | 1 => simp [decode]
          | m+2 => rw [show 2 * ((m+2)/2) = 2*(m/2) + 1 + 1 by omega]; simp
        | a :: b :: r, h => exact absurd rfl (h a b r)
    simpa using this str n
  rw [hdec] at he
  have : fromHex str n buf = (do
      match ← forLoopB (fromBody str) 0 (n/2) (buf, 0) with
      | .next s => pure s
      | .stop s => pure s) := rfl
  simp only [over_nil, List.length_nil] at hr
  rw [this, hr]
  simp only [List.nil_append, List.length_nil, Nat.zero_add] at he
  cases r <;> simp_all

theorem decode_encode (upper : Bool) (bs : List Byte) : decode (encode upper bs) = bs := by
  induction bs with
  | nil => rfl
  | cons b bs ih =>
    have : encode upper (b :: bs) = digit upper (b.toNat / 16) :: digit upper (b.toNat % 16) ::
        encode upper bs := by simp [encode]
    rw [this]
    simp only [decode]
    have hb : b.toNat < 256 := b.isLt
    rw [value_digit upper _ (by omega), value_digit upper _ (by omega)]
    simp only [ih]
    congr 1
    rw [Nat.div_add_mod]; simp

/-! ### hex dump -/

/-- Everything printed or waiting in the cache. -/
def Dump.content (d : Dump) : List Byte := d.stdout ++ d.cache.take d.len

theorem Dump.put_spec (d : Dump) (c : Byte) (h : d.len < d.cache.length) :
    ∃ d', d.put c = .ok d' ∧ d'.content = d.content ++ [c] ∧ d'.len = d.len + 1 ∧
      d'.cache.length = d.cache.length := by
  refine ⟨_, by simp [Dump.put, wr, h]; rfl, ?_, rfl, by simp⟩
  have h' : d.len < (d.cache.set d.len c).length := by simpa using h
  simp only [Dump.content]
  rw [List.take_succ_eq_append_getElem h']
  simp [List.take_set_of_le]

theorem Dump.putIf_spec (d : Dump) (b : Bool) (c : Byte) (h : d.len < d.cache.length) :
    ∃ d', d.putIf b c = .ok d' ∧ d'.content = d.content ++ (if b then [c] else []) ∧
      d'.len ≤ d.len + 1 ∧ d'.cache.length = d.cache.length := by
  cases b
  · exact ⟨d, rfl, by simp, by omega, rfl⟩
  · obtain ⟨d', h1, h2, h3, h4⟩ := d.put_spec c h
    exact ⟨d', h1, by simpa using h2, by omega, h4⟩

theorem dumpBody_spec (buf : List Byte) (upper : Bool) (i : Nat) (d : Dump)
    (hi : i < buf.length) (hc : d.cache.length = 1024) (hl : d.len ≤ 1000) :
    ∃ d', dumpBody buf upper i d = .ok d' ∧ d'.cache.length = 1024 ∧ d'.len ≤ 1000 ∧
      d'.content = d.content ++ (sep i ++ [digit upper (buf[i].toNat / 16),
        digit upper (buf[i].toNat % 16)]) := by
  obtain ⟨d1, e1, c1, l1, m1⟩ := d.putIf_spec (i ≠ 0 && i % 4 = 0) (chr ' ') (by omega)
  obtain ⟨d2, e2, c2, l2, m2⟩ := d1.putIf_spec (i ≠ 0 && i % 8 = 0) (chr ' ') (by omega)
  obtain ⟨d3, e3, c3, l3, m3⟩ := d2.putIf_spec (i ≠ 0 && i % 16 = 0) (chr ' ') (by omega)
  obtain ⟨d4, e4, c4, l4, m4⟩ := d3.putIf_spec (i ≠ 0 && i % 32 = 0) (chr '\n') (by omega)
  obtain ⟨d5, e5, c5, l5, m5⟩ := d4.put_spec (digit upper (buf[i].toNat / 16)) (by omega)
  obtain ⟨d6, e6, c6, l6, m6⟩ := d5.put_spec (digit upper (buf[i].toNat % 16)) (by omega)
  have hcont : d6.content = d.content ++ (sep i ++ [digit upper (buf[i].toNat / 16),
        digit upper (buf[i].toNat % 16)]) := by
    rw [c6, c5, c4, c3, c2, c1]
    have s1 : chr ' ' = 32#8 := by decide
    have s2 : chr '\n' = 10#8 := by decide
    rw [s1, s2]
    by_cases h0 : i = 0
    · simp [h0, sep]
    · simp [sep, h0]
  have hrun : dumpBody buf upper i d =
      (if d6.len > 1000 then do
        let d ← d6.flush
        pure { d with len := 0 }
      else pure d6) := by
    unfold dumpBody
    simp only [rd_ok _ _ hi, Res.ok_bind, e1, e2, e3, e4, rd_hexStr_hi, rd_hexStr_lo, e5, e6]
  rw [hrun]
  split
  · have hf : d6.flush = .ok { d6 with stdout := d6.stdout ++ d6.cache.take d6.len } := by
      simp [Dump.flush]; omega
    rw [hf]
    refine ⟨_, rfl, by show d6.cache.length = 1024; omega, by simp, ?_⟩
    rw [← hcont]; simp [Dump.content]
  · exact ⟨d6, rfl, by omega, by omega, hcont⟩

theorem dumpFrom_append (upper : Bool) (i : Nat) (l : List Byte) (b : Byte) :
    dumpFrom upper i (l ++ [b]) = dumpFrom upper i l ++ (sep (i + l.length) ++
      [digit upper (b.toNat / 16), digit upper (b.toNat % 16)]) := by
  induction l generalizing i with
  | nil => simp [dumpFrom]
  | cons a l ih => simp [dumpFrom, ih]; rw [show i + 1 + l.length = i + (l.length + 1) by omega]

theorem hexDump_eq (cache0 buf : List Byte) (n : Nat) (upper : Bool)
    (hc : cache0.length = 1024) (hn : n ≤ buf.length) :
    hexDump cache0 buf n upper = .ok (dump upper (buf.take n)) := by
  obtain ⟨d, hd, hd1, hd2, hd3⟩ := forLoop_spec (dumpBody buf upper)
    (fun j d => d.cache.length = 1024 ∧ d.len ≤ 1000 ∧ d.content = dumpFrom upper 0 (buf.take j))
    n 0 { cache := cache0, len := 0, stdout := [] }
    ⟨hc, by simp, by simp [Dump.content, dumpFrom]⟩
    (by
      intro j s _ hj ⟨a, b, c⟩
      have hj' : j < buf.length := by omega
      obtain ⟨d', h1, h2, h3, h4⟩ := dumpBody_spec buf upper j s hj' a b
      refine ⟨d', h1, h2, h3, ?_⟩
      rw [h4, c, List.take_succ_eq_append_getElem hj', dumpFrom_append]
      simp [Nat.min_eq_left (Nat.le_of_lt hj')])
  obtain ⟨d', e1, e2, e3, e4⟩ := d.put_spec (chr '\n') (by omega)
  have hpos : d'.len > 0 := by omega
  have hf : d'.flush = .ok { d' with stdout := d'.stdout ++ d'.cache.take d'.len } := by
    simp [Dump.flush]; omega
  have hcont : d'.content = dump upper (buf.take n) := by
    rw [e2, hd3]; simp [dump]; decide
  simp [hexDump, hd, e1, hpos, hf]
  exact hcont

end Hex
