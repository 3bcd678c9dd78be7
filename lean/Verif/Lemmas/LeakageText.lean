import Verif.Lemmas.LeakageKey
import Verif.Lemmas.Hex

/-! What is seen of the functions that write texts. -/
namespace Leakage
open Endian Positional Base58Spec

/-! ### Hexadecimal -/

/-- What is seen of the loop, for the bytes `bs` that come next. -/
def hexT (obj : String) (base : Nat) (upper : Bool) : Nat → List Byte → List Ev
  | _, [] => [.branch false]
  | i, b :: bs => .branch true :: .load obj (base + i) 1 :: .load (hexTable upper) (b >>> 4).toNat 1 ::
      .store "str" (2 * i) 1 :: .load (hexTable upper) (b &&& 0xF).toNat 1 :: .store "str" (2 * i + 1) 1 ::
      hexT obj base upper (i + 1) bs

theorem hexLoop_seen (buf : Ptr) (upper : Bool) : ∀ (k i : Nat) (str r : List Byte) (e : Nat),
    forLoop (fun i (s : List Byte × Nat) => do
      let byte ← rd buf.mem i
      let str ← wr s.1 s.2 (← rd (Hex.hexStr upper) (byte >>> 4).toNat)
      let str ← wr str (s.2 + 1) (← rd (Hex.hexStr upper) (byte &&& 0xF).toNat)
      pure (str, s.2 + 2)) i k (str, 2 * i) = .ok (r, e) →
    hexLoop buf upper i k str = .ok r (hexT buf.obj buf.base upper i ((buf.mem.drop i).take k)) := by
  intro k
  induction k with
  | zero =>
    intro i str r e h
    cases h
    rfl
  | succ k ih =>
    intro i str r e h
    rw [forLoop] at h
    obtain ⟨s, h1, h⟩ := bind_ok h
    obtain ⟨b, hb, h1⟩ := bind_ok h1
    obtain ⟨c, hc, h1⟩ := bind_ok h1
    obtain ⟨m, hm, h1⟩ := bind_ok h1
    obtain ⟨c', hc', h1⟩ := bind_ok h1
    obtain ⟨m', hm', h1⟩ := bind_ok h1
    cases h1
    have := ih (i + 1) m' r e h
    have hi : i < buf.mem.length := by
      rcases Nat.lt_or_ge i buf.mem.length with h | h
      · exact h
      · rw [rd, List.getElem?_eq_none h] at hb; cases hb
    have hbe : buf.mem[i] = b := by rw [rd_ok _ _ hi] at hb; exact Res.ok.inj hb
    rw [hexLoop, hb, seen_ok]
    simp only [branch, seen_ok, ok_bind, hc, hm, hc', hm', this, after_ok]
    rw [List.drop_eq_getElem_cons hi, List.take_succ_cons, hexT, hbe]
    rfl

theorem toHex_seen (buf : Ptr) (n : Nat) (str : List Byte) (upper : Bool)
    (hn : n ≤ buf.mem.length) (hs : 2 * n ≤ str.length) :
    toHex buf n str upper = .ok (over (HexSpec.encode upper (buf.mem.take n)) str)
      (.branch upper :: hexT buf.obj buf.base upper 0 (buf.mem.take n)) := by
  have h := Hex.toHex_eq buf.mem n str upper hn hs
  unfold Hex.toHex at h
  obtain ⟨⟨r, e⟩, h1, h2⟩ := bind_ok h
  cases h2
  unfold toHex
  rw [hexLoop_seen buf upper n 0 str _ e h1]
  rfl

theorem nibbles : ∀ x : Byte, x = ((x >>> 4) <<< 4) ||| (x &&& 0xF) := by decide +kernel

theorem hexT_inj (obj : String) (base : Nat) (upper : Bool) : ∀ (a b : List Byte) (i : Nat),
    hexT obj base upper i a = hexT obj base upper i b → a = b := by
  intro a
  induction a with
  | nil =>
    intro b i h
    cases b with
    | nil => rfl
    | cons y ys => rw [hexT, hexT] at h; cases h
  | cons x xs ih =>
    intro b i h
    cases b with
    | nil => rw [hexT, hexT] at h; cases h
    | cons y ys =>
      rw [hexT, hexT] at h
      simp only [List.cons.injEq, Ev.load.injEq, true_and, and_true] at h
      obtain ⟨h1, h2, h3⟩ := h
      rw [ih ys (i + 1) h3, nibbles x, nibbles y, BitVec.eq_of_toNat_eq h1, BitVec.eq_of_toNat_eq h2]

def notTable (table : String) : Ev → Bool
  | .load o _ _ => o ≠ table
  | _ => true

/-- Everything that is seen apart from the accesses to the table of digits. -/
def besides (table : String) (t : List Ev) : List Ev := t.filter (notTable table)

theorem hexT_besides (obj : String) (base : Nat) (upper : Bool) (ho : obj ≠ hexTable upper) : ∀ (a b : List Byte) (i : Nat),
    a.length = b.length →
    besides (hexTable upper) (hexT obj base upper i a) = besides (hexTable upper) (hexT obj base upper i b) := by
  intro a
  induction a with
  | nil =>
    intro b i h
    rw [List.length_eq_zero_iff.mp h.symm]
  | cons x xs ih =>
    intro b i h
    cases b with
    | nil => cases h
    | cons y ys =>
      have := ih ys (i + 1) (Nat.succ.inj h)
      unfold besides at this ⊢
      rw [hexT, hexT]
      simp [List.filter_cons, notTable, ho, this]

/-! ### Base 58 -/

/-- The accesses that write the text: the table of characters and the text itself. -/
def isText : Ev → Bool
  | .load o _ _ => o = "BASE58_ENCODE"
  | .store o _ _ => o = "str"
  | _ => false

/-- Code that does what `r` does and makes no accesses that write the text. -/
def Quiet {α : Type} (p : Leak α) (r : Res α) : Prop := ∀ a, r = .ok a → ∃ t, p = .ok a t ∧ t.filter isText = []

theorem quiet_seen {α : Type} {t : List Ev} (r : Res α) (h : t.filter isText = []) : Quiet (seen t r) r := by
  intro a e
  rw [e]
  exact ⟨t, rfl, h⟩

theorem quiet_pure {α : Type} (a : α) : Quiet (pure a : Leak α) (pure a) := by
  intro b e
  cases e
  exact ⟨[], rfl, rfl⟩

theorem quiet_bind {α β : Type} {p : Leak α} {r : Res α} {k' : α → Leak β} {k : α → Res β} (hp : Quiet p r)
    (hk : ∀ a, r = .ok a → Quiet (k' a) (k a)) : Quiet (p >>= k') (r >>= k) := by
  intro b h
  obtain ⟨a, h1, h2⟩ := bind_ok h
  obtain ⟨t, e, q⟩ := hp a h1
  obtain ⟨t', e', q'⟩ := hk a h1 b h2
  refine ⟨t ++ t', ?_, by rw [List.filter_append, q, q']; rfl⟩
  rw [e, ok_bind, e', after_ok]

theorem quiet_extra {α β : Type} {a : α} {t : List Ev} {k' : α → Leak β} {r : Res β} (h : t.filter isText = [])
    (hk : Quiet (k' a) r) : Quiet ((seen t (.ok a) : Leak α) >>= k') r := by
  intro b e
  obtain ⟨t', e', q'⟩ := hk b e
  refine ⟨t ++ t', ?_, by rw [List.filter_append, h, q']; rfl⟩
  rw [seen_ok, ok_bind, e', after_ok]

theorem quiet_of_shows {α : Type} {p : Leak α} {r : Res α} {t : List Ev} (hp : Shows p r t) (h : t.filter isText = []) :
    Quiet p r := fun a e => ⟨t, hp a e, h⟩

theorem skipZeroes_quiet (buf : Ptr) (ho : buf.obj ≠ "BASE58_ENCODE") : ∀ k p,
    Quiet (skipZeroes buf k p) (Base58.skipZeroes buf.mem k p) := by
  intro k
  induction k with
  | zero => intro p; exact quiet_extra rfl (quiet_pure p)
  | succ k ih =>
    intro p
    rw [skipZeroes, Base58.skipZeroes]
    refine quiet_extra rfl ?_
    refine quiet_bind (quiet_seen _ (by simp [isText, ho])) fun b _ => ?_
    refine quiet_extra rfl ?_
    by_cases hb : b = 0#8
    · rw [if_pos hb, if_pos hb]; exact ih (p + 1)
    · rw [if_neg hb, if_neg hb]; exact quiet_pure p

theorem carryLoop_quiet (B m length : Nat) : ∀ it i carry b,
    Quiet (carryLoop B m length "b58" it i carry b) (Base58.carryLoop B m length it i carry b) := by
  intro it
  induction it with
  | zero =>
    intro i carry b
    rw [carryLoop, Base58.carryLoop]
    exact quiet_extra (by split <;> split <;> rfl) (quiet_pure _)
  | succ it ih =>
    intro i carry b
    rw [carryLoop, Base58.carryLoop]
    refine quiet_extra (by split <;> rfl) ?_
    by_cases h : carry ≠ 0 ∨ i < length
    · rw [if_pos h, if_pos h]
      refine quiet_bind (quiet_seen _ rfl) fun d _ => ?_
      simp only []
      by_cases h2 : carry + m * d.toNat ≥ 2 ^ 31
      · rw [if_pos h2]; intro a e; rw [if_pos h2] at e; cases e
      · rw [if_neg h2, if_neg h2]
        exact quiet_bind (quiet_seen _ rfl) fun b' _ => ih _ _ _
    · rw [if_neg h, if_neg h]; exact quiet_pure _

theorem encLoop_quiet (buf : Ptr) (size : Nat) (ho : buf.obj ≠ "BASE58_ENCODE") : ∀ k p st,
    Quiet (encLoop buf size p k st) (forLoop (Base58.encBody buf.mem size) p k st) := by
  intro k
  induction k with
  | zero => intro p st; exact quiet_extra rfl (quiet_pure st)
  | succ k ih =>
    intro p st
    rw [encLoop, forLoop, Base58.encBody]
    simp only [bind_assoc, Res.pure_eq, Res.ok_bind]
    refine quiet_extra rfl ?_
    refine quiet_bind (quiet_seen _ (by simp [isText, ho])) fun b _ => ?_
    refine quiet_bind (carryLoop_quiet 58 256 _ _ _ _ _) fun x _ => ?_
    refine quiet_bind (quiet_seen _ rfl) fun _ _ => ?_
    exact ih _ _

/-- What is seen of the text while the digits `ds` are written from position `pos` on. -/
def digs : Nat → List Nat → List Ev
  | _, [] => []
  | pos, d :: ds => .load "BASE58_ENCODE" d 1 :: .store "str" pos 1 :: digs (pos + 1) ds

theorem outLoop_text (b58 : List Byte) (z iter0 : Nat) : ∀ k iter str r, iter0 ≤ iter →
    forLoop (Base58.encOut b58 z iter0) iter k str = .ok r →
    ∃ t, outLoop b58 iter (z + (iter - iter0)) k str = .ok r t ∧
      t.filter isText = digs (z + (iter - iter0)) (((b58.drop iter).take k).map BitVec.toNat) := by
  intro k
  induction k with
  | zero =>
    intro iter str r hi h
    cases h
    exact ⟨_, rfl, rfl⟩
  | succ k ih =>
    intro iter str r hi h
    rw [forLoop, Base58.encOut] at h
    obtain ⟨s, h1, h⟩ := bind_ok h
    obtain ⟨d, hd, h1⟩ := bind_ok h1
    obtain ⟨c, hc, h1⟩ := bind_ok h1
    obtain ⟨t, e, q⟩ := ih (iter + 1) s r (by omega) h
    rw [show z + (iter + 1 - iter0) = z + (iter - iter0) + 1 by omega] at e q
    have hl : iter < b58.length := by
      rcases Nat.lt_or_ge iter b58.length with h | h
      · exact h
      · rw [rd, List.getElem?_eq_none h] at hd; cases hd
    have hde : b58[iter] = d := by rw [rd_ok _ _ hl] at hd; exact Res.ok.inj hd
    refine ⟨[.branch true] ++ ([.load "b58" iter 1] ++ ([.load "BASE58_ENCODE" d.toNat 1] ++
      ([.store "str" (z + (iter - iter0)) 1] ++ t))), ?_, ?_⟩
    · rw [outLoop]
      simp only [branch, seen_ok, ok_bind, hd, hc, h1, e, after_ok]
    rw [List.drop_eq_getElem_cons hl, List.take_succ_cons, List.map_cons, digs, hde]
    simp [isText, q]

theorem toBase58_text (buf : Ptr) (str : List Byte) (ho : buf.obj ≠ "BASE58_ENCODE") (hn : buf.mem.length < 2 ^ 30)
    (hs : (encode buf.mem).length ≤ str.length) :
    ∃ t, toBase58 buf buf.mem.length str = .ok (over (encode buf.mem) str, (encode buf.mem).length) t ∧
      t.filter isText = .store "str" 0 (buf.mem.takeWhile (· = 0#8)).length ::
        digs (buf.mem.takeWhile (· = 0#8)).length (digits 58 (number buf.mem)) := by
  have h := Base58.toBase58_eq buf.mem str hn hs
  have hz := Base58.skipZeroes_eq buf.mem buf.mem.length 0 (by omega)
  simp only [List.drop_zero, List.take_length, Nat.zero_add] at hz
  generalize hzd : (buf.mem.takeWhile (· = 0#8)).length = z at hz
  have hzle : z ≤ buf.mem.length := by
    rw [← hzd]; exact (List.takeWhile_sublist _).length_le
  have hdz : buf.mem.drop z = buf.mem.dropWhile (· = 0#8) := by
    conv => lhs; rw [← List.takeWhile_append_dropWhile (p := fun x : Byte => decide (x = 0#8)) (l := buf.mem)]
    rw [← hzd, List.drop_left]
  obtain ⟨t1, a1, q1⟩ := skipZeroes_quiet buf ho _ _ z hz
  unfold Base58.toBase58 at h
  unfold toBase58
  rw [hz] at h
  rw [a1]
  simp only [Res.ok_bind] at h
  simp only [ok_bind]
  generalize hsize : (buf.mem.length - z) * 138 / 100 + 1 = size at h
  rw [if_neg (by omega)] at h
  rw [if_neg (by omega)]
  obtain ⟨st', e, hh⟩ := Base58.enc_loop buf.mem size (buf.mem.length - z) z (List.replicate size 0#8, 0) [] (by omega)
    (by simpa [number, value] using Base58.holds_init 58 size (by omega))
    (by rw [← hsize]; simpa using Base58.pow_bound_enc (buf.mem.length - z))
  obtain ⟨t2, a2, q2⟩ := encLoop_quiet buf size ho _ _ _ st' e
  obtain ⟨b58, len⟩ := st'
  rw [List.nil_append, List.take_of_length_le (by simp), hdz, Base58.number_dropZeros] at hh
  rw [e] at h
  simp only [Res.ok_bind] at h
  obtain ⟨it, e1, e2, e3, e4⟩ := Base58.skip_holds 58 size len _ b58 (by omega) hh
  obtain ⟨t3, a3, q3⟩ := skipZeroes_quiet ⟨"b58", 0, b58⟩ (by simp) _ _ it e1
  rw [e1] at h
  simp only [Res.ok_bind] at h
  obtain ⟨s1, m1, h⟩ := bind_ok h
  obtain ⟨s2, m2, h⟩ := bind_ok h
  obtain ⟨t4, a4, q4⟩ := outLoop_text b58 z it (size - it) it s1 s2 (Nat.le_refl _) m2
  rw [Nat.sub_self, Nat.add_zero] at a4 q4
  rw [e3, List.take_of_length_le (by rw [List.length_map]; omega), List.map_map] at q4
  have hmap : (digits 58 (number buf.mem)).map (BitVec.toNat ∘ BitVec.ofNat 8) = digits 58 (number buf.mem) := by
    conv => rhs; rw [← List.map_id (digits 58 (number buf.mem))]
    apply List.map_congr_left
    intro d hd
    have := digits_lt 58 _ (by omega) d hd
    simp only [Function.comp, BitVec.toNat_ofNat]
    rw [Nat.mod_eq_of_lt (by omega)]; rfl
  rw [hmap] at q4
  refine ⟨t1 ++ ([.branch (size ≤ 128)] ++ ([.store "b58" 0 size] ++ (t2 ++ (t3 ++ ([.store "str" 0 z] ++
    (t4 ++ ([.store "b58" 0 size] ++ ([.branch (size ≤ 128)] ++ [])))))))), ?_, ?_⟩
  · simp only [onStack, branch, seen_ok, ok_bind, a2, a3, memsetL, m1, a4, cleanseL, pure_eq, after_ok]
    rw [show (pure (s2, z + (size - it)) : Res (List Byte × Nat)) = .ok (s2, z + (size - it)) from rfl] at h
    rw [Res.ok.inj h]
  · simp only [List.filter_append, q1, q2, q3, q4]
    simp [isText]

theorem digs_inj : ∀ (a b : List Nat) (p q : Nat), digs p a = digs q b → a = b := by
  intro a
  induction a with
  | nil => intro b p q h; cases b with
    | nil => rfl
    | cons y ys => rw [digs, digs] at h; cases h
  | cons x xs ih =>
    intro b p q h
    cases b with
    | nil => rw [digs, digs] at h; cases h
    | cons y ys =>
      rw [digs, digs] at h
      simp only [List.cons.injEq, Ev.load.injEq, true_and, and_true] at h
      rw [ih ys _ _ h.2.2, h.1]

/-- What is seen while a base 58 text is written gives the text away. -/
theorem text_inj {a b : List Byte} (h : Ev.store "str" 0 (a.takeWhile (· = 0#8)).length ::
      digs (a.takeWhile (· = 0#8)).length (digits 58 (number a)) =
      Ev.store "str" 0 (b.takeWhile (· = 0#8)).length ::
        digs (b.takeWhile (· = 0#8)).length (digits 58 (number b))) : encode a = encode b := by
  simp only [List.cons.injEq, Ev.store.injEq, true_and] at h
  rw [encode, encode, digs_inj _ _ _ _ h.2, h.1]

/-- What is seen of Base58Check before the text is written. -/
def checkBefore (obj : String) (base n m : Nat) : List Ev :=
  [.branch (n + m + 4 ≤ 128)] ++ ([.load "prefix" 0 m, .store "buffer" 0 m] ++ ([.load obj base n, .store "buffer" m n] ++
    (hash256T "buffer" 0 (n + m) "hash" ++ [.load "hash" 0 4, .store "buffer" (n + m) 4])))

/-- What is seen after it. -/
def checkAfter (n m : Nat) : List Ev := [.store "buffer" 0 (n + m + 4)] ++ ([.branch (n + m + 4 ≤ 128)] ++ [])

/-- What is seen of the text itself, for the bytes `bs` that are written. -/
def textT (bs : List Byte) : List Ev :=
  .store "str" 0 (bs.takeWhile (· = 0#8)).length :: digs (bs.takeWhile (· = 0#8)).length (digits 58 (number bs))

theorem toBase58Check_text (host : Host) (buf : Ptr) (n : Nat) (pre : List Byte) (m : Nat)
    (str : List Byte) (hn : n ≤ buf.mem.length) (hm : m ≤ pre.length) (hsz : n + m + 4 < 2^30)
    (hs : (Base58CheckSpec.encode (pre.take m ++ buf.mem.take n)).length ≤ str.length) :
    ∃ t, toBase58Check host buf n pre m str =
        .ok (over (Base58CheckSpec.encode (pre.take m ++ buf.mem.take n)) str,
          (Base58CheckSpec.encode (pre.take m ++ buf.mem.take n)).length)
          (checkBefore buf.obj buf.base n m ++ (t ++ checkAfter n m)) ∧
      t.filter isText = textT (pre.take m ++ buf.mem.take n ++
        Base58CheckSpec.checksum (pre.take m ++ buf.mem.take n)) := by
  have h1 : (pre.take m).length = m := by rw [List.length_take]; omega
  have h2 : (buf.mem.take n).length = n := by rw [List.length_take]; omega
  have hl : (pre.take m ++ buf.mem.take n).length = n + m := by rw [List.length_append, h1, h2]; omega
  have hl2 : (pre.take m ++ buf.mem.take n ++ Base58CheckSpec.checksum (pre.take m ++ buf.mem.take n)).length = n + m + 4 := by
    rw [List.length_append, hl, Base58Check.checksum_length]
  obtain ⟨t, e, q⟩ := toBase58_text ⟨"buffer", 0, pre.take m ++ buf.mem.take n ++
    Base58CheckSpec.checksum (pre.take m ++ buf.mem.take n)⟩ str (by simp) (by simp only [hl2]; omega) hs
  simp only [hl2] at e
  refine ⟨t, ?_, q⟩
  unfold toBase58Check
  have e0 : (List.replicate (n + m + 4) 0xAA#8 : List Byte) = over [] (List.replicate (n + m + 4) 0xAA#8) := by
    simp
  simp only [onStack, branch, memcpyL, cleanseL, seen_ok, ok_bind]
  rw [e0, memcpy_over [] _ pre 0 m rfl hm (by simp; omega)]
  simp only [seen_ok, ok_bind, List.nil_append]
  rw [memcpy_over _ _ buf.mem m n h1.symm hn (by simp [h1]; omega)]
  simp only [seen_ok, ok_bind]
  have ho := over_length (pre.take m ++ buf.mem.take n) (List.replicate (n + m + 4) 0xAA#8) (by
    rw [hl]; simp)
  have hh := BtcHash.hash256_eq host (over (pre.take m ++ buf.mem.take n) (List.replicate (n + m + 4) 0xAA#8)) (n + m)
    (List.replicate 32 0xAA#8) (by rw [ho]; simp) (by omega) (by simp)
  rw [hash256_shows host ⟨"buffer", 0, over (pre.take m ++ buf.mem.take n) (List.replicate (n + m + 4) 0xAA#8)⟩ (n + m) "hash"
    _ _ hh]
  simp only [ok_bind]
  rw [BtcHash.take_over hl]
  have hhl := BtcHash.hash256_length (pre.take m ++ buf.mem.take n)
  rw [memcpy_over _ _ _ (n + m) 4 hl.symm (by rw [over_length _ _ (by simp [hhl])]; simp) (by
    rw [hl]; simp)]
  simp only [seen_ok, ok_bind]
  have e1 : (over (BtcHashSpec.hash256 (pre.take m ++ buf.mem.take n)) (List.replicate 32 0xAA#8)).take 4 =
      Base58CheckSpec.checksum (pre.take m ++ buf.mem.take n) := by
    rw [over, List.take_append_of_le_length (by omega)]; rfl
  rw [e1]
  have e2 : over (pre.take m ++ buf.mem.take n ++ Base58CheckSpec.checksum (pre.take m ++ buf.mem.take n))
      (List.replicate (n + m + 4) 0xAA#8) =
      pre.take m ++ buf.mem.take n ++ Base58CheckSpec.checksum (pre.take m ++ buf.mem.take n) := by
    rw [over, List.drop_eq_nil_of_le (by rw [hl2]; simp), List.append_nil]
  rw [e2, e]
  simp only [ok_bind, pure_eq, after_ok, checkBefore, checkAfter, List.append_assoc, Base58CheckSpec.encode]

end Leakage
