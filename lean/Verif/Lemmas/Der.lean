import Verif.Model.Key
import Verif.Spec.Der
import Verif.Lemmas.BeNat
/-! The DER parsers of `src/btc/key.c` as functions on byte strings. -/
namespace Key
open SecpLib WordSpec Endian DerSpec Secp256k1

theorem usub_eq (a b : Nat) (h : b ≤ a) (ha : a < 2 ^ 64) : usub a b = a - b := by
  unfold usub; omega

theorem rd_drop (inp : List Byte) (pos : Nat) (b : Byte) (l : List Byte) (h : inp.drop pos = b :: l) :
    rd inp pos = .ok b := by
  have : inp[pos]? = some b := by
    have := congrArg (·[0]?) h
    simpa using this
  rw [rd, this]

theorem drop_succ_of (inp : List Byte) (pos : Nat) (b : Byte) (l : List Byte) (h : inp.drop pos = b :: l) :
    inp.drop (pos+1) = l := by
  rw [← List.drop_drop, h]; rfl

theorem skipZeros_eq (inp : List Byte) (k pos : Nat) (h : pos + k ≤ inp.length) :
    ∃ z, z ≤ k ∧ skipZeros inp pos k = .ok (pos + z, k - z) ∧
      ((inp.drop pos).take k).dropWhile (· = 0#8) = (inp.drop (pos + z)).take (k - z) := by
  induction k generalizing pos with
  | zero => exact ⟨0, by omega, rfl, by simp⟩
  | succ k ih =>
    obtain ⟨b, l, hb⟩ : ∃ b l, inp.drop pos = b :: l := by
      cases hd : inp.drop pos with
      | nil => have := congrArg List.length hd; simp at this; omega
      | cons b l => exact ⟨b, l, rfl⟩
    have hl := drop_succ_of inp pos b l hb
    rw [skipZeros, rd_drop inp pos b l hb, Res.ok_bind]
    by_cases h0 : b = 0#8
    · obtain ⟨z, z1, z2, z3⟩ := ih (pos+1) (by omega)
      refine ⟨z+1, by omega, ?_, ?_⟩
      · rw [if_pos h0, z2]
        congr 2 <;> omega
      · rw [hb, List.take_succ_cons, List.dropWhile_cons_of_pos (by simp [h0]), ← hl, z3]
        rw [show pos + 1 + z = pos + (z + 1) by omega, show k - z = k + 1 - (z + 1) by omega]
    · refine ⟨0, by omega, by rw [if_neg h0]; rfl, ?_⟩
      rw [hb, List.take_succ_cons, List.dropWhile_cons_of_neg (by simp [h0])]
      simp [hb]

theorem readLen_eq (inp : List Byte) (k pos len : Nat) (h : pos + k ≤ inp.length) :
    readLen inp pos k len = .ok (pos + k, len * 256 ^ k + beNat ((inp.drop pos).take k)) := by
  induction k generalizing pos len with
  | zero => rw [readLen, List.take_zero, beNat_nil]; simp
  | succ k ih =>
    obtain ⟨b, l, hb⟩ : ∃ b l, inp.drop pos = b :: l := by
      cases hd : inp.drop pos with
      | nil => have := congrArg List.length hd; simp at this; omega
      | cons b l => exact ⟨b, l, rfl⟩
    have hl := drop_succ_of inp pos b l hb
    rw [readLen, rd_drop inp pos b l hb, Res.ok_bind, ih (pos+1) _ (by omega), hl, hb, List.take_succ_cons,
      beNat_cons, List.length_take]
    have : l.length = inp.length - (pos+1) := by rw [← hl, List.length_drop]
    rw [Nat.min_eq_left (by omega), pow_succ]
    congr 2
    · omega
    · ring

theorem bit7 (b : Byte) : (b &&& 0x80#8 ≠ 0#8) ↔ 128 ≤ b.toNat := by
  revert b; apply byte_forall; decide +kernel

/-- Tag and length of an INTEGER at `pos`. -/
theorem intHeader_eq (inp : List Byte) (pos : Nat) (hp : pos ≤ inp.length) (hl : inp.length < 2 ^ 64) :
    (integer? (inp.drop pos) = none ∧ intHeader inp inp.length pos = .ok none) ∨
    ∃ ipos len, intHeader inp inp.length pos = .ok (some (ipos, len)) ∧ ipos + len ≤ inp.length ∧
      integer? (inp.drop pos) = some ((inp.drop ipos).take len, inp.drop (ipos + len)) := by
  rw [intHeader]
  cases hd : inp.drop pos with
  | nil =>
    left
    have := congrArg List.length hd
    simp at this
    exact ⟨rfl, by rw [if_pos (by omega)]⟩
  | cons t l1 =>
    have hlen : l1.length + 1 = inp.length - pos := by
      rw [← List.length_drop, hd, List.length_cons]
    rw [if_neg (by omega), rd_drop inp pos t l1 hd, Res.ok_bind]
    by_cases ht : t = 0x02#8
    swap
    · left; exact ⟨by rw [integer?, if_neg ht], by rw [if_pos ht]; rfl⟩
    rw [if_neg (by simpa using ht), integer?, if_pos ht]
    simp only []
    have hl1 := drop_succ_of inp pos t l1 hd
    cases l1 with
    | nil =>
      left
      simp at hlen
      exact ⟨by rw [length?], by rw [if_pos (by omega)]; rfl⟩
    | cons b l2 =>
      simp only [List.length_cons] at hlen
      have hl2 := drop_succ_of inp (pos+1) b l2 hl1
      rw [if_neg (by omega), rd_drop inp (pos+1) b l2 hl1, Res.ok_bind, length?, usub_eq _ _ (by omega) hl]
      by_cases hb : b &&& 0x80#8 ≠ 0#8
      · have hb' := (bit7 b).1 hb
        rw [if_pos hb, if_neg (show ¬ b.toNat < 128 by omega)]
        simp only []
        by_cases hk : b.toNat - 128 ≤ l2.length
        swap
        · left
          exact ⟨by rw [if_neg (fun h => hk h.1)], by rw [if_pos (by omega)]; rfl⟩
        obtain ⟨z, z1, z2, z3⟩ := skipZeros_eq inp (b.toNat - 128) (pos+2) (by omega)
        rw [if_neg (show ¬ b.toNat - 0x80 > inp.length - (pos + 1 + 1) by omega),
          show pos + 1 + 1 = pos + 2 by omega, z2]
        simp only [Res.ok_bind]
        have hll : ((inp.drop (pos + 2 + z)).take (b.toNat - 128 - z)).length = b.toNat - 128 - z := by
          rw [List.length_take, List.length_drop]; omega
        have hl2' : inp.drop (pos + 2) = l2 := hl2
        rw [hl2'] at z3
        have h4 := congrArg List.length z3
        rw [hll] at h4
        by_cases h : b.toNat - 128 - z ≤ 3
        swap
        · left
          exact ⟨by rw [if_neg (fun hh => h (h4 ▸ hh.2))], if_pos (by omega)⟩
        rw [if_pos ⟨hk, by rw [h4]; exact h⟩, if_neg (show ¬ b.toNat - 128 - z ≥ 4 by omega),
          readLen_eq _ _ _ _ (by
            have := List.length_drop (i := pos+2) (l := inp); rw [hl2'] at this; omega), Nat.zero_mul, Nat.zero_add, ← z3,
          beNat_dropWhile, Res.ok_bind]
        simp only []
        rw [usub_eq _ _ (by omega) hl]
        have hdr : inp.drop (pos + 2 + z + (b.toNat - 128 - z)) = l2.drop (b.toNat - 128) := by
          rw [← hl2', List.drop_drop]; exact congrArg (List.drop · inp) (by omega)
        have hdl : (l2.drop (b.toNat - 128)).length = inp.length - (pos + 2 + z + (b.toNat - 128 - z)) := by
          rw [← hdr, List.length_drop]
        by_cases hg : beNat (l2.take (b.toNat - 128)) ≤ (l2.drop (b.toNat - 128)).length
        · right
          refine ⟨_, _, if_neg (by omega), by omega, ?_⟩
          rw [if_pos hg, hdr, ← List.drop_drop, hdr]
        · left
          exact ⟨by rw [if_neg hg], by rw [if_pos (by omega)]; rfl⟩
      · have hb' : b.toNat < 128 := by
          have := (bit7 b).not.1 hb; omega
        rw [if_neg hb, if_pos hb']
        simp only []
        by_cases hg : b.toNat ≤ l2.length
        · right
          refine ⟨_, _, if_neg (by omega), by omega, ?_⟩
          rw [if_pos hg, hl2, ← List.drop_drop, hl2]
        · left
          exact ⟨by rw [if_neg hg], by rw [if_pos (by omega)]; rfl⟩

theorem seqHeader_eq (inp : List Byte) (hl : inp.length < 2 ^ 64) :
    (sequence? inp = none ∧ seqHeader inp inp.length = .ok none) ∨
    ∃ pos, seqHeader inp inp.length = .ok (some pos) ∧ pos ≤ inp.length ∧ sequence? inp = some (inp.drop pos) := by
  rw [seqHeader]
  match inp with
  | [] => left; exact ⟨rfl, rfl⟩
  | [t] =>
    left
    refine ⟨rfl, ?_⟩
    simp [rd]
  | t :: b :: rest =>
    simp only [List.length_cons] at hl
    rw [if_neg (by simp), show rd (t :: b :: rest) 0 = .ok t from rfl, Res.ok_bind]
    by_cases ht : t = 0x30#8
    swap
    · left; exact ⟨by rw [sequence?, if_neg ht], by rw [if_pos ht]; rfl⟩
    rw [if_neg (by simpa using ht), if_neg (by simp), show rd (t :: b :: rest) 1 = .ok b from rfl, Res.ok_bind,
      sequence?, if_pos ht, usub_eq _ _ (by simp) (by simpa using hl)]
    simp only [List.length_cons]
    by_cases hb : b &&& 0x80#8 ≠ 0#8
    · have hb' := (bit7 b).1 hb
      rw [if_pos hb, if_neg (show ¬ b.toNat < 128 by omega)]
      by_cases hk : b.toNat - 128 ≤ rest.length
      · right
        refine ⟨2 + (b.toNat - 128), by rw [if_neg (by omega)]; rfl, by omega, ?_⟩
        rw [if_pos hk, ← List.drop_drop]; rfl
      · left; exact ⟨by rw [if_neg hk], by rw [if_pos (by omega)]; rfl⟩
    · have hb' : b.toNat < 128 := by
        have := (bit7 b).not.1 hb; omega
      rw [if_neg hb, if_pos hb']
      right; exact ⟨2, rfl, by omega, rfl⟩

/-- Copying a number of at most 32 bytes right-aligned into a zeroed field. -/
theorem copyInt_eq (inp pre suf : List Byte) (pos len : Nat) (h : pos + len ≤ inp.length) :
    (256 ^ 32 ≤ beNat ((inp.drop pos).take len) ∧
      copyInt inp (pre ++ List.replicate 32 0#8 ++ suf) (pre.length + 32) pos len =
        .ok (pre ++ List.replicate 32 0#8 ++ suf, true)) ∨
    (beNat ((inp.drop pos).take len) < 256 ^ 32 ∧
      copyInt inp (pre ++ List.replicate 32 0#8 ++ suf) (pre.length + 32) pos len =
        .ok (pre ++ beBytes 32 (beNat ((inp.drop pos).take len)) ++ suf, false)) := by
  obtain ⟨z, z1, z2, z3⟩ := skipZeros_eq inp len pos h
  rw [copyInt, z2]
  simp only [Res.ok_bind]
  have hll : ((inp.drop (pos + z)).take (len - z)).length = len - z := by
    rw [List.length_take, List.length_drop]; omega
  by_cases hk : len - z > 32
  · left
    refine ⟨beNat_long _ 32 (by rw [z3, hll]; exact hk), ?_⟩
    rw [if_pos hk]; rfl
  · right
    have hv : beNat ((inp.drop pos).take len) = beNat ((inp.drop (pos + z)).take (len - z)) := by
      rw [← z3, beNat_dropWhile]
    rw [hv]
    have hb := beNat_lt_pow ((inp.drop (pos + z)).take (len - z))
    rw [hll] at hb
    refine ⟨Nat.lt_of_lt_of_le hb (Nat.pow_le_pow_right (by decide) (by omega)), ?_⟩
    rw [if_neg hk, memcpy_ok _ _ _ _ (by rw [List.length_drop]; omega) (by simp; omega)]
    simp only [Res.ok_bind, Res.pure_eq]
    have e : beBytes 32 (beNat ((inp.drop (pos + z)).take (len - z))) =
        List.replicate (32 - (len - z)) 0#8 ++ (inp.drop (pos + z)).take (len - z) := by
      rw [← beNat_zeros (32 - (len - z)), beBytes_beNat_of_length]
      rw [List.length_append, hll, List.length_replicate]; omega
    rw [e]
    congr 2
    have e1 : (pre ++ List.replicate 32 0#8 ++ suf).take (pre.length + 32 - (len - z)) =
        pre ++ List.replicate (32 - (len - z)) 0#8 := by
      rw [List.append_assoc, show pre.length + 32 - (len - z) = pre.length + (32 - (len - z)) by omega,
        List.take_length_add_append, List.take_append_of_le_length (by simp), List.take_replicate]
      congr 2; omega
    have e2 : (pre ++ List.replicate 32 0#8 ++ suf).drop (pre.length + 32 - (len - z) + (len - z)) = suf := by
      rw [show pre.length + 32 - (len - z) + (len - z) = (pre ++ List.replicate 32 0#8).length by simp; omega,
        List.drop_left]
    rw [e1, e2]
    simp

theorem n_le : n ≤ 256 ^ 32 := by norm_num [n]

theorem get32_left (a b : List Byte) (h : a.length = 32) : get32 (a ++ b) 0 = .ok (beNat a) := by
  rw [get32, if_pos (by simp; omega), List.drop_zero, List.take_append_of_le_length (by omega),
    List.take_of_length_le (by omega)]

theorem get32_right (a b : List Byte) (h : a.length = 32) (hb : b.length = 32) : get32 (a ++ b) 32 = .ok (beNat b) := by
  rw [get32, if_pos (by simp; omega), ← h, List.drop_left, List.take_of_length_le (by omega)]

theorem sigParseCompact_eq (r s : Nat) (hr : r < 256 ^ 32) (hs : s < 256 ^ 32) :
    sigParseCompact (beBytes 32 r ++ beBytes 32 s) =
      .ok (if r < n ∧ s < n then (⟨r, s⟩, true) else (⟨0, 0⟩, false)) := by
  rw [sigParseCompact, get32_left _ _ (beBytes_length _ _), Res.ok_bind,
    get32_right _ _ (beBytes_length _ _) (beBytes_length _ _), Res.ok_bind, beNat_beBytes_lt _ _ hr,
    beNat_beBytes_lt _ _ hs]
  by_cases h : r < n ∧ s < n
  · rw [if_pos h, if_pos h]; rfl
  · rw [if_neg h, if_neg h]; rfl

theorem sigParseCompact_zero : sigParseCompact (List.replicate 64 0#8) = .ok (⟨0, 0⟩, true) := by
  decide +kernel

/-- Result of the signature parser. -/
theorem parseDerLax_eq (inp : List Byte) (hl : inp.length < 2 ^ 64) :
    parseDerLax inp inp.length = .ok (match signature? inp with
      | none => (⟨0, 0⟩, false)
      | some (r, s) => (if r < n ∧ s < n then ⟨r, s⟩ else ⟨0, 0⟩, true)) := by
  rw [parseDerLax]
  simp only []
  rw [sigParseCompact_zero, Res.ok_bind, signature?]
  simp only []
  rcases seqHeader_eq inp hl with ⟨h1, h2⟩ | ⟨pos, h1, h2, h3⟩
  · rw [h1, h2]; rfl
  rw [h1, h3, Res.ok_bind]
  simp only []
  rcases intHeader_eq inp pos h2 hl with ⟨i1, i2⟩ | ⟨rpos, rlen, i1, i2, i3⟩
  · rw [i1, i2]; rfl
  rw [i1, i3, Res.ok_bind]
  simp only []
  rcases intHeader_eq inp (rpos + rlen) i2 hl with ⟨j1, j2⟩ | ⟨spos, slen, j1, j2, j3⟩
  · rw [j1, j2]; rfl
  rw [j1, j3, Res.ok_bind]
  simp only []
  obtain ⟨r, hr⟩ : ∃ r, beNat ((inp.drop rpos).take rlen) = r := ⟨_, rfl⟩
  obtain ⟨s, hs⟩ : ∃ s, beNat ((inp.drop spos).take slen) = s := ⟨_, rfl⟩
  have e0 : List.replicate 64 0#8 = ([] : List Byte) ++ List.replicate 32 0#8 ++ List.replicate 32 0#8 := by decide
  have cr := copyInt_eq inp [] (List.replicate 32 0#8) rpos rlen i2
  rw [← e0, hr] at cr
  have hn := n_le
  rw [hr, hs]
  have hz : ∀ tmp : List Byte, tmp.length = 64 → memset tmp 0 0#8 64 = .ok (List.replicate 64 0#8) := by
    intro tmp ht
    rw [memset, if_pos (by omega), List.take_zero, List.drop_of_length_le (by omega)]
    simp
  rcases cr with ⟨c1, c2⟩ | ⟨c1, c2⟩
  · have c2' : copyInt inp (List.replicate 64 0#8) 32 rpos rlen = .ok (List.replicate 64 0#8, true) := c2
    rw [c2', if_neg (by omega), Res.ok_bind]
    simp only []
    have cs := copyInt_eq inp (List.replicate 32 0#8) [] spos slen j2
    rw [List.append_nil, List.append_nil, ← show List.replicate 64 0#8 = List.replicate 32 0#8 ++ List.replicate 32 0#8 by decide,
      List.length_replicate, hs] at cs
    rcases cs with ⟨d1, d2⟩ | ⟨d1, d2⟩
    · rw [d2]
      simp only [Res.ok_bind, Bool.or_self, Bool.not_true, Bool.false_eq_true, if_false, Res.pure_eq, if_true]
      rw [hz _ (by simp), Res.ok_bind, sigParseCompact_zero]; rfl
    · rw [d2]
      simp only [Res.ok_bind, Bool.or_false, Bool.not_true, Bool.false_eq_true, if_false, Res.pure_eq, if_true]
      rw [hz _ (by simp [beBytes_length]), Res.ok_bind, sigParseCompact_zero]; rfl
  · have c2' : copyInt inp (List.replicate 64 0#8) 32 rpos rlen = .ok (beBytes 32 r ++ List.replicate 32 0#8, false) := c2
    rw [c2', Res.ok_bind]
    simp only []
    have cs := copyInt_eq inp (beBytes 32 r) [] spos slen j2
    rw [List.append_nil, List.append_nil, beBytes_length, hs] at cs
    rcases cs with ⟨d1, d2⟩ | ⟨d1, d2⟩
    · rw [d2, if_neg (by omega)]
      simp only [Res.ok_bind, Bool.or_true, Bool.not_true, Bool.false_eq_true, if_false, Res.pure_eq, if_true]
      rw [hz _ (by simp [beBytes_length]), Res.ok_bind, sigParseCompact_zero]; rfl
    · rw [d2]
      simp only [Res.ok_bind, Bool.or_self, Bool.not_false, Bool.false_eq_true, if_true, Res.pure_eq]
      rw [sigParseCompact_eq r s c1 d1, Res.ok_bind]
      by_cases h : r < n ∧ s < n
      · rw [if_pos h, if_pos h]
        simp
      · rw [if_neg h, if_neg h]
        simp only [Bool.not_false, if_true]
        rw [hz _ (by simp [beBytes_length]), Res.ok_bind, sigParseCompact_zero]; rfl

theorem memset_all (mem : List Byte) (k : Nat) (v : Byte) (h : k ≤ mem.length) :
    memset mem 0 v k = .ok (List.replicate k v ++ mem.drop k) := by
  rw [memset, if_pos (by omega)]
  simp

theorem seckeyVerify_eq (k post : List Byte) (h : k.length = 32) :
    seckeyVerify (k ++ post) = .ok (decide (ValidKey k)) := by
  rw [seckeyVerify, get32_left _ _ h, Res.ok_bind, Res.pure_eq]
  simp [ValidKey, h]

/-- Result of the private key parser. -/
theorem importBody_eq (inp post : List Byte) (pos : Nat) (hp : pos ≤ inp.length) :
    importBody (List.replicate 32 0#8 ++ post) inp inp.length pos = .ok (match inp.drop pos with
      | v0 :: v1 :: v2 :: os :: l :: rest =>
        if v0 = 0x02#8 ∧ v1 = 0x01#8 ∧ v2 = 0x01#8 ∧ os = 0x04#8 ∧ l.toNat ≤ 32 ∧ l.toNat ≤ rest.length ∧
            ValidKey (List.replicate (32 - l.toNat) 0#8 ++ rest.take l.toNat) then
          (List.replicate (32 - l.toNat) 0#8 ++ rest.take l.toNat ++ post, true)
        else (List.replicate 32 0#8 ++ post, false)
      | _ => (List.replicate 32 0#8 ++ post, false)) := by
  have hlen : (inp.drop pos).length = inp.length - pos := List.length_drop
  rw [importBody]
  by_cases h3 : inp.length < pos + 3
  · rw [if_pos h3]
    match hd : inp.drop pos with
    | [] => rfl
    | [_] => rfl
    | [_, _] => rfl
    | [_, _, _] => rfl
    | [_, _, _, _] => rfl
    | _ :: _ :: _ :: _ :: _ :: _ => rw [hd] at hlen; simp at hlen; omega
  obtain ⟨v0, v1, v2, r3, hd⟩ : ∃ v0 v1 v2 r3, inp.drop pos = v0 :: v1 :: v2 :: r3 := by
    match hd : inp.drop pos with
    | [] => rw [hd] at hlen; simp at hlen; omega
    | [_] => rw [hd] at hlen; simp at hlen; omega
    | [_, _] => rw [hd] at hlen; simp at hlen; omega
    | v0 :: v1 :: v2 :: r3 => exact ⟨v0, v1, v2, r3, rfl⟩
  have d1 := drop_succ_of _ _ _ _ hd
  have d2 := drop_succ_of _ _ _ _ d1
  have d3 := drop_succ_of _ _ _ _ d2
  rw [hd, if_neg h3, rd_drop _ _ _ _ hd, Res.ok_bind, rd_drop _ _ _ _ d1, Res.ok_bind]
  rw [show pos + 2 = pos + 1 + 1 by omega, rd_drop _ _ _ _ d2, Res.ok_bind]
  by_cases hv : v0 ≠ 0x02#8 ∨ v1 ≠ 0x01#8 ∨ v2 ≠ 0x01#8
  · rw [if_pos hv]
    match r3 with
    | [] => rfl
    | [_] => rfl
    | os :: l :: rest =>
      simp only []
      rw [if_neg (by rintro ⟨a, b, c, -⟩; rcases hv with h | h | h <;> contradiction)]
      rfl
  have hv' : v0 = 0x02#8 ∧ v1 = 0x01#8 ∧ v2 = 0x01#8 := by
    refine ⟨?_, ?_, ?_⟩ <;> by_contra h <;> exact hv (by simp [h])
  rw [if_neg hv]
  rw [hd] at hlen
  simp only [List.length_cons] at hlen
  by_cases h5 : inp.length < pos + 3 + 2
  · simp only []
    rw [if_pos h5]
    match r3 with
    | [] => rfl
    | [_] => rfl
    | _ :: _ :: _ => simp at hlen; omega
  obtain ⟨os, l, rest, hr⟩ : ∃ os l rest, r3 = os :: l :: rest := by
    match r3 with
    | [] => simp at hlen; omega
    | [_] => simp at hlen; omega
    | os :: l :: rest => exact ⟨os, l, rest, rfl⟩
  rw [hr] at d3 hlen
  have d4 := drop_succ_of _ _ _ _ d3
  have d5 := drop_succ_of _ _ _ _ d4
  simp only [List.length_cons] at hlen
  simp only [hr]
  rw [if_neg h5, show pos + 3 = pos + 1 + 1 + 1 by omega, rd_drop _ _ _ _ d3, Res.ok_bind]
  by_cases hos : os = 0x04#8
  swap
  · rw [if_pos hos, if_neg (by rintro ⟨-, -, -, a, -⟩; exact hos a)]
    rfl
  rw [if_neg (by simpa using hos), rd_drop _ _ _ _ d4, Res.ok_bind]
  by_cases hl : l.toNat > 32 ∨ inp.length < pos + 1 + 1 + 1 + 2 + l.toNat
  · rw [if_pos hl, if_neg (by rintro ⟨-, -, -, -, a, b, -⟩; omega)]
    rfl
  have hl' : l.toNat ≤ 32 ∧ l.toNat ≤ rest.length := by omega
  have d5' : inp.drop (pos + 1 + 1 + 1 + 2) = rest := d5
  have hkl : (List.replicate (32 - l.toNat) 0#8 ++ rest.take l.toNat).length = 32 := by
    rw [List.length_append, List.length_take, List.length_replicate]; omega
  rw [if_neg hl, d5', memcpy_ok _ _ _ _ hl'.2 (by simp; omega)]
  have e1 : (List.replicate 32 0#8 ++ post).take (32 - l.toNat) = List.replicate (32 - l.toNat) 0#8 := by
    rw [List.take_append_of_le_length (by simp), List.take_replicate]
    congr 1; omega
  have e2 : (List.replicate 32 0#8 ++ post).drop (32 - l.toNat + l.toNat) = post := by
    rw [show 32 - l.toNat + l.toNat = (List.replicate 32 0#8).length by simp; omega, List.drop_left]
  rw [Res.ok_bind, e1, e2, seckeyVerify_eq _ _ hkl, Res.ok_bind]
  by_cases hvk : ValidKey (List.replicate (32 - l.toNat) 0#8 ++ rest.take l.toNat)
  · rw [decide_eq_true hvk, if_neg (by decide), if_pos ⟨hv'.1, hv'.2.1, hv'.2.2, hos, hl'.1, hl'.2, hvk⟩]
    rfl
  · rw [decide_eq_false hvk, if_pos (by decide), if_neg (fun h => hvk h.2.2.2.2.2.2)]
    rw [memset_all _ _ _ (by simp; omega), Res.ok_bind,
      show (List.replicate (32 - l.toNat) 0#8 ++ rest.take l.toNat ++ post).drop 32 = post by
        exact List.drop_left' hkl]
    rfl

theorem lenb_eq : ∀ b : Byte, b &&& 0x80#8 ≠ 0#8 → (b &&& 0x7F#8).toNat = b.toNat - 128 := by
  apply byte_forall; decide +kernel

theorem lenb_12 : ∀ b : Byte, b &&& 0x80#8 ≠ 0#8 →
    (¬ (b.toNat - 128 < 1 ∨ b.toNat - 128 > 2) ↔ (b = 0x81#8 ∨ b = 0x82#8)) := by
  apply byte_forall; decide +kernel

theorem seqLen (t b : Byte) (rest : List Byte) (k : Nat) (hk : k = 1 ∨ k = 2) (hkl : k ≤ rest.length) :
    ∃ lo hi, rd (t :: b :: rest) (2 + (k - 1)) = .ok lo ∧
      (if k > 1 then rd (t :: b :: rest) (2 + (k - 2)) else pure 0#8) = .ok hi ∧
      hi.toNat * 256 + lo.toNat = beNat (rest.take k) := by
  rcases hk with h | h
  · subst h
    match rest, hkl with
    | x :: r, _ => exact ⟨x, 0#8, rfl, rfl, by simp [beNat]⟩
  · subst h
    match rest, hkl with
    | [x], hkl => simp at hkl
    | x :: y :: r, _ => exact ⟨y, x, rfl, rfl, by simp [beNat]⟩

theorem importDer_eq (inp out : List Byte) (ho : 32 ≤ out.length) :
    importDer out inp inp.length = .ok (match privateKey? inp with
      | some k => if ValidKey k then (k ++ out.drop 32, true) else (List.replicate 32 0#8 ++ out.drop 32, false)
      | none => (List.replicate 32 0#8 ++ out.drop 32, false)) := by
  rw [importDer, memset_all _ _ _ ho, Res.ok_bind]
  match inp with
  | [] => rfl
  | [t] =>
    rw [if_neg (by simp), show rd [t] 0 = .ok t from rfl, Res.ok_bind]
    by_cases ht : t ≠ 0x30#8
    · rw [if_pos ht]; rfl
    · rw [if_neg ht, if_pos (by simp)]; rfl
  | t :: b :: rest =>
    rw [if_neg (by simp), show rd (t :: b :: rest) 0 = .ok t from rfl, Res.ok_bind, privateKey?]
    by_cases ht : t = 0x30#8
    swap
    · rw [if_pos ht, if_neg (fun h => ht h.1)]; rfl
    rw [if_neg (by simpa using ht), if_neg (by simp), show rd (t :: b :: rest) 1 = .ok b from rfl, Res.ok_bind]
    by_cases hb : b &&& 0x80#8 = 0#8
    · rw [if_pos hb, if_neg]
      · rfl
      · rintro ⟨-, h | h, -⟩ <;> rw [h] at hb <;> exact absurd hb (by decide)
    rw [if_neg hb, lenb_eq b hb]
    simp only []
    have h12 := lenb_12 b hb
    by_cases hk : b.toNat - 128 < 1 ∨ b.toNat - 128 > 2
    · rw [if_pos hk, if_neg (fun h => h12.2 h.2.1 hk)]; rfl
    have hb12 := h12.1 hk
    rw [if_neg hk]
    obtain ⟨k, hkk⟩ : ∃ k, b.toNat - 128 = k := ⟨_, rfl⟩
    rw [hkk] at hk ⊢
    simp only [List.length_cons]
    by_cases hkl : k ≤ rest.length
    swap
    · rw [if_pos (by omega), if_neg (fun h => hkl h.2.2.1)]; rfl
    rw [if_neg (by omega)]
    obtain ⟨lo, hi, g1, g2, g3⟩ := seqLen t b rest k (by omega) hkl
    have push : ∀ f : Byte → Res (List Byte × Bool),
        (if k > 1 then (rd (t :: b :: rest) (2 + (k - 2)) >>= f) else (pure 0#8 >>= f)) = f hi := by
      intro f
      by_cases h1 : k > 1
      · rw [if_pos h1] at g2 ⊢
        rw [g2, Res.ok_bind]
      · rw [if_neg h1] at g2 ⊢
        rw [g2, Res.ok_bind]
    rw [g1, Res.ok_bind, push, g3]
    have hdl : (rest.drop k).length = rest.length - k := List.length_drop
    by_cases hsl : beNat (rest.take k) ≤ (rest.drop k).length
    swap
    · rw [if_pos (by omega), if_neg (fun h => hsl h.2.2.2)]; rfl
    rw [if_neg (by omega), if_pos ⟨ht, hb12, hkl, hsl⟩]
    have := importBody_eq (t :: b :: rest) (out.drop 32) (2 + k) (by simp; omega)
    rw [List.length_cons, List.length_cons] at this
    rw [this, ← List.drop_drop]
    rw [show (t :: b :: rest).drop 2 = rest from rfl]
    refine congrArg Res.ok ?_
    match rest.drop k with
    | [] => rfl
    | [_] => rfl
    | [_, _] => rfl
    | [_, _, _] => rfl
    | [_, _, _, _] => rfl
    | v0 :: v1 :: v2 :: os :: l :: r =>
      simp only []
      by_cases h : v0 = 0x02#8 ∧ v1 = 0x01#8 ∧ v2 = 0x01#8 ∧ os = 0x04#8 ∧ l.toNat ≤ 32 ∧ l.toNat ≤ r.length
      · rw [if_pos h]
        simp only []
        by_cases hvk : ValidKey (List.replicate (32 - l.toNat) 0#8 ++ r.take l.toNat)
        · rw [if_pos hvk, if_pos ⟨h.1, h.2.1, h.2.2.1, h.2.2.2.1, h.2.2.2.2.1, h.2.2.2.2.2, hvk⟩]
        · rw [if_neg hvk, if_neg (fun hh => hvk hh.2.2.2.2.2.2)]
      · rw [if_neg h, if_neg (fun hh => h ⟨hh.1, hh.2.1, hh.2.2.1, hh.2.2.2.1, hh.2.2.2.2.1, hh.2.2.2.2.2.1⟩)]

end Key
