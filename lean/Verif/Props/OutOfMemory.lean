import Verif.Lemmas.OutOfMemory
import Verif.Props.Exkey
import Verif.Props.Base58Total
/-! Property theorems C80 and C81: use of the heap, and what happens when it is exhausted. -/
open OutOfMemory AddressSpec

/-- `t` asks `malloc` for nothing and does what `m` does, whatever `malloc` would answer (and however many requests came before). -/
def WithoutHeap {α : Type} (t : Grant → Al α) (m : Res α) : Prop := ∀ g k, t g k = m.bind fun a => .ok (a, k)

/-- `t` does what `m` does, whatever `malloc` answers. -/
def WhateverMallocSays {α : Type} (t : Grant → Al α) (m : Res α) : Prop := ∀ g k, ∃ k', t g k = m.bind fun a => .ok (a, k')

theorem OutOfMemory.Does.noHeap {α : Type} {t : Grant → Al α} {m : Res α} (h : ∀ g, Does (fun a b => a = b) (t g) m) :
    WithoutHeap t m := by
  intro g k
  obtain ⟨d, hd, e⟩ := h g k
  rw [e, hd]

theorem WithoutHeap.does {α : Type} {t : Grant → Al α} {m : Res α} (h : WithoutHeap t m) (g : Grant) :
    Does (fun a b => a = b) (t g) m := fun k => ⟨k, rfl, h g k⟩

theorem workSize_le {d : Int} {size N : Nat} (h : Base58.workSize d = .ok size) (hd : d ≤ N) : size ≤ N * 733 / 1000 + 1 := by
  unfold Base58.workSize at h
  split at h
  · cases h
  · dsimp only at h
    split at h
    · cases h
    · injection h with h
      rw [← h]
      rcases Int.le_total 0 d with h0 | h0
      · rw [Int.tdiv_eq_ediv_of_nonneg (by omega)]; omega
      · have : (d * 733).tdiv 1000 ≤ 0 := by
          rw [show d * 733 = -(-(d * 733)) by omega, Int.neg_tdiv, Int.tdiv_eq_ediv_of_nonneg (by omega)]; omega
        omega

/-- C80 (Base58). Buffers of up to 92 bytes, and texts of up to 174 characters, are converted without the heap: for every contents,
every output buffer. -/
theorem C80_base58 (cs : Bool) (buf str : List Byte) (n : Nat) :
    (n ≤ 92 → WithoutHeap (fun g => OutOfMemory.toBase58 g buf n str) (Base58.toBase58 buf n str)) ∧
    (n ≤ 174 → WithoutHeap (fun g => OutOfMemory.fromBase58 g cs str n buf) (Base58.fromBase58 cs str n buf)) := by
  refine ⟨fun h => Does.noHeap fun g => ?_, fun h => Does.noHeap fun g => ?_⟩
  · exact toBase58_does counts_eq _ _ _ fun z _ => serves_small g counts_eq (by omega)
  · refine fromBase58_does counts_eq _ _ _ _ fun s1 k s2 z size _ _ hw => serves_small g counts_eq ?_
    have := workSize_le (N := n) hw (by omega)
    omega

/-- C80 (Base58Check), with the four bytes of the checksum. -/
theorem C80_base58_check (host : Host) (cs : Bool) (buf pre str : List Byte) (n pn : Nat) :
    (n + pn ≤ 88 → WithoutHeap (fun g => OutOfMemory.toBase58Check g host buf n pre pn str)
      (Base58Check.toBase58Check host buf n pre pn str)) ∧
    (n ≤ 174 → WithoutHeap (fun g => OutOfMemory.fromBase58Check g host cs str n buf)
      (Base58Check.fromBase58Check host cs str n buf)) := by
  refine ⟨fun h => Does.noHeap fun g => ?_, fun h => Does.noHeap fun g => ?_⟩
  · exact toBase58Check_does counts_eq _ _ _ _ _ _ (fun z _ => serves_small g counts_eq (by omega))
      (serves_small g counts_eq (by omega))
  · exact fromBase58Check_does counts_eq _ _ _ _ _ fun buf => ((C80_base58 cs buf str n).2 h).does g

/-- C80 (secret keys). All secret keys are written without the heap, on every network, and all texts of up to 174 characters (those of
secret keys have at most 52) are read without it. -/
theorem C80_keys (nd : Bool) (host : Host) (cs : Bool) (key str : List Byte) (compressed : Bool) (n : Nat) (c : Int)
    (net : Network) :
    WithoutHeap (fun g => OutOfMemory.keyToString g host key str compressed net.param)
      (Key.keyToString host key str compressed net.param) ∧
    (n ≤ 174 → WithoutHeap (fun g => OutOfMemory.keyFromString g nd host cs str n key c net.param)
      (Key.keyFromString nd host cs str n key c net.param)) := by
  have hp := (net_secret net).2.1
  refine ⟨Does.noHeap fun g => ?_, fun h => Does.noHeap fun g => ?_⟩
  · unfold OutOfMemory.keyToString Key.keyToString
    split
    · refine Does.liftBind counts_eq fun b1 _ => ?_
      refine Does.liftBind counts_eq fun b2 _ => ?_
      exact ((C80_base58_check host cs _ _ str 33 _).1 (by omega)).does g
    · exact ((C80_base58_check host cs _ _ str 32 _).1 (by omega)).does g
  · unfold OutOfMemory.keyFromString Key.keyFromString
    refine Does.liftBind counts_eq fun _ _ => ?_
    refine Does.bind counts_eq (((C80_base58_check host cs _ [] str n 0).2 h).does g) fun p _ => ?_
    exact Does.lift counts_eq _

/-- C80 (extended keys). All extended keys are written without the heap, on every network, and all texts of up to 174 characters
(those of extended keys have 111) are read without it. -/
theorem C80_extended_keys (nd : Bool) (host : Host) (cs : Bool) (key : Exkey.ExKey) (pub : Exkey.ExPubkey) (str : List Byte) (n : Nat)
    (net : Network) :
    WithoutHeap (fun g => OutOfMemory.exkeyToString g host key str net.param) (Exkey.exkeyToString host key str net.param) ∧
    WithoutHeap (fun g => OutOfMemory.expubkeyToString g host pub str net.param) (Exkey.expubkeyToString host pub str net.param) ∧
    (n ≤ 174 → WithoutHeap (fun g => OutOfMemory.exkeyFromString g nd host cs str n key net.param)
      (Exkey.exkeyFromString nd host cs str n key net.param)) ∧
    (n ≤ 174 → WithoutHeap (fun g => OutOfMemory.expubkeyFromString g nd host cs str n pub net.param)
      (Exkey.expubkeyFromString nd host cs str n pub net.param)) := by
  have hp := net_ext net
  refine ⟨Does.noHeap fun g => ?_, Does.noHeap fun g => ?_, fun h => Does.noHeap fun g => ?_, fun h => Does.noHeap fun g => ?_⟩
  · unfold OutOfMemory.exkeyToString Exkey.exkeyToString
    refine Does.liftBind counts_eq fun b1 _ => ?_
    exact ((C80_base58_check host cs _ _ str 74 _).1 (by omega)).does g
  · unfold OutOfMemory.expubkeyToString Exkey.expubkeyToString
    refine Does.liftBind counts_eq fun b1 _ => ?_
    exact ((C80_base58_check host cs _ _ str 74 _).1 (by omega)).does g
  · unfold OutOfMemory.exkeyFromString Exkey.exkeyFromString
    refine Does.liftBind counts_eq fun _ _ => ?_
    refine Does.bind counts_eq (((C80_base58_check host cs _ [] str n 0).2 h).does g) fun p _ => ?_
    exact Does.lift counts_eq _
  · unfold OutOfMemory.expubkeyFromString Exkey.expubkeyFromString
    refine Does.liftBind counts_eq fun _ _ => ?_
    refine Does.bind counts_eq (((C80_base58_check host cs _ [] str n 0).2 h).does g) fun p _ => ?_
    exact Does.lift counts_eq _

/-- `decode_bech32` outside 8..90 characters touches nothing. -/
theorem bech32_decode_long (str hrp : List Byte) (n hn : Nat) (h : n < 8 ∨ 90 < n) :
    ∃ m : Res (Int × List Byte × Nat), (∀ v, m = .ok v → v.1 < 1) ∧
      ∀ b32, Bech32.decode str n hrp hn b32 = m.bind fun v => .ok ⟨v.1, v.2.1, v.2.2, b32⟩ := by
  refine ⟨do
    if ← Bech32.isIllegal str n then pure (-1, hrp, hn)
    else do
      let _ ← strrchr str (chr '1')
      pure (-2, hrp, hn), ?_, fun b32 => ?_⟩
  · intro v hv
    cases hi : Bech32.isIllegal str n with
    | ub => rw [hi] at hv; cases hv
    | abort => rw [hi] at hv; cases hv
    | ok b =>
      rw [hi, Res.ok_bind] at hv
      cases b with
      | true => injection hv with hv; rw [← hv]; show _ < _; omega
      | false =>
        cases hr : strrchr str (chr '1') with
        | ub => rw [hr] at hv; cases hv
        | abort => rw [hr] at hv; cases hv
        | ok p => rw [hr] at hv; injection hv with hv; rw [← hv]; show _ < _; omega
  · unfold Bech32.decode
    cases hi : Bech32.isIllegal str n with
    | ub => rfl
    | abort => rfl
    | ok b =>
      cases b with
      | true => rfl
      | false =>
        simp only [Res.ok_bind, Bool.false_eq_true, if_false]
        cases hr : strrchr str (chr '1') with
        | ub => rfl
        | abort => rfl
        | ok p =>
          cases p with
          | none => rfl
          | some pos =>
            simp only [Res.ok_bind]
            rw [if_pos (by omega)]
            rfl

theorem decodeBech32_does (cs : Bool) (stack str : List Byte) (n : Nat) (out : List Byte) (outSize : Nat) (param : ChainParameters) :
    (7 ≤ n ∧ n ≤ 135 → WithoutHeap (fun g => OutOfMemory.decodeBech32 g cs stack str n out outSize param)
      (Address.decodeBech32 cs stack str n out outSize param)) ∧
    WhateverMallocSays (fun g => OutOfMemory.decodeBech32 g cs stack str n out outSize param)
      (Address.decodeBech32 cs stack str n out outSize param) := by
  have hsmall : 7 ≤ n ∧ n ≤ 135 → WithoutHeap (fun g => OutOfMemory.decodeBech32 g cs stack str n out outSize param)
      (Address.decodeBech32 cs stack str n out outSize param) := by
    intro h g k
    have e : bech32Buffer g stack n = pure (stack.take 128) := by
      unfold bech32Buffer; simp only; rw [if_pos h.1, if_pos (by omega)]
    unfold OutOfMemory.decodeBech32 Address.decodeBech32
    dsimp only
    rw [e, Address.buffer, if_pos ⟨h.1, by omega⟩]
    rfl
  refine ⟨hsmall, fun g k => ?_⟩
  by_cases h : 7 ≤ n ∧ n ≤ 135
  · exact ⟨k, hsmall h g k⟩
  · have e : ∃ b, bech32Buffer g stack n k = .ok (b, k + 1) := by
      have e : bech32Buffer g stack n = (malloc g (if 7 ≤ n then n - 7 else 2^64 + n - 7) >>= fun p => pure (p.getD [])) := by
        unfold bech32Buffer
        dsimp only
        rw [if_neg (by split <;> omega)]
      rw [e]
      exact ⟨_, rfl⟩
    obtain ⟨b, e⟩ := e
    refine ⟨k + 1, ?_⟩
    unfold OutOfMemory.decodeBech32 Address.decodeBech32
    show (bech32Buffer g stack n k).bind _ = _
    rw [e]
    obtain ⟨m, h1, h2⟩ := bech32_decode_long str (List.replicate 16 0xAA#8) n 16 (by omega)
    rw [h2]
    show Res.bind (Res.bind (Bech32.decode _ _ _ _ _) _) _ = _
    rw [h2]
    cases m with
    | ub => rfl
    | abort => rfl
    | ok v =>
      have hv : v.1 < 1 := h1 v rfl
      show Res.bind (ite _ _ _) _ = Res.bind (ite _ _ _) _
      simp only [hv, true_or, if_true]

theorem addressDecode_does {R : Nat → Nat → Prop} (hR : Counts R) (g : Grant) (host : Host) (cs : Bool) (stack str : List Byte) (n : Nat)
    (out : List Byte) (outSize : Nat) (param : ChainParameters)
    (h1 : ∀ out, Does R (OutOfMemory.fromBase58Check g host cs str n out) (Base58Check.fromBase58Check host cs str n out))
    (h2 : ∀ out, Does R (OutOfMemory.decodeBech32 g cs stack str n out outSize param)
      (Address.decodeBech32 cs stack str n out outSize param)) :
    Does R (OutOfMemory.addressDecode g host cs stack str n out outSize param)
      (Address.addressDecode host cs stack str n out outSize param) := by
  unfold OutOfMemory.addressDecode Address.addressDecode
  split
  · exact Does.pure hR _
  · refine Does.bind hR (h1 out) fun p _ => ?_
    dsimp only
    split
    · refine Does.liftBind hR fun a _ => ?_
      split
      · exact Does.lift hR _
      · refine Does.liftBind hR fun a _ => ?_
        split
        · exact Does.lift hR _
        · exact h2 _
    · exact h2 _

/-- C80 (addresses). The addresses of all hashes of up to 87 bytes (those in use have 20) are written without the heap, on every
network; witness addresses never use it.  Texts of 7 to 135 characters are read without it, and texts of up to 174 characters with
the same result whether `malloc` succeeds or not. -/
theorem C80_addresses (host : Host) (cs : Bool) (stack str hash out : List Byte) (n hn outSize : Nat) (net : Network) :
    (hn ≤ 87 → WithoutHeap (fun g => OutOfMemory.toAddressPubkey g host hash hn out outSize net.param)
      (Address.toAddressPubkey host hash hn out outSize net.param)) ∧
    (hn ≤ 87 → WithoutHeap (fun g => OutOfMemory.toAddressScript g host hash hn out outSize net.param)
      (Address.toAddressScript host hash hn out outSize net.param)) ∧
    (7 ≤ n → n ≤ 135 → WithoutHeap (fun g => OutOfMemory.addressDecode g host cs stack str n out outSize net.param)
      (Address.addressDecode host cs stack str n out outSize net.param)) ∧
    (n ≤ 174 → WhateverMallocSays (fun g => OutOfMemory.addressDecode g host cs stack str n out outSize net.param)
      (Address.addressDecode host cs stack str n out outSize net.param)) := by
  have hp := (net_pub net).2.1
  have hs := (net_script net).2.1
  refine ⟨fun h => Does.noHeap fun g => ?_, fun h => Does.noHeap fun g => ?_, fun h7 h => Does.noHeap fun g => ?_, fun h g => ?_⟩
  · unfold OutOfMemory.toAddressPubkey Address.toAddressPubkey
    split
    · exact Does.pure counts_eq _
    · exact ((C80_base58_check host cs _ _ out hn _).1 (by omega)).does g
  · unfold OutOfMemory.toAddressScript Address.toAddressScript
    split
    · exact Does.pure counts_eq _
    · exact ((C80_base58_check host cs _ _ out hn _).1 (by omega)).does g
  · exact addressDecode_does counts_eq g host cs stack str n out outSize net.param
      (fun out => ((C80_base58_check host cs out [] str n 0).2 (by omega)).does g)
      (fun out => ((decodeBech32_does cs stack str n out outSize net.param).1 ⟨h7, h⟩).does g)
  · have hd := addressDecode_does counts_any g host cs stack str n out outSize net.param
      (fun out k => ⟨k, trivial, (C80_base58_check host cs out [] str n 0).2 h g k⟩)
      (fun out k => by
        obtain ⟨d, e⟩ := (decodeBech32_does cs stack str n out outSize net.param).2 g k
        exact ⟨d, trivial, e⟩)
    intro k
    obtain ⟨d, -, e⟩ := hd k
    exact ⟨d, e⟩

/-- C81, in short: everything works when every request is served, … -/
theorem C81_served (g : Grant) (hg : ∀ k size, g k size = true) (host : Host) (cs : Bool) (buf pre str : List Byte) (n pn k : Nat) :
    (∃ d, OutOfMemory.toBase58 g buf n str k = (Base58.toBase58 buf n str).bind fun a => .ok (a, d)) ∧
    (∃ d, OutOfMemory.fromBase58 g cs str n buf k = (Base58.fromBase58 cs str n buf).bind fun a => .ok (a, d)) ∧
    (∃ d, OutOfMemory.toBase58Check g host buf n pre pn str k =
      (Base58Check.toBase58Check host buf n pre pn str).bind fun a => .ok (a, d)) ∧
    (∃ d, OutOfMemory.fromBase58Check g host cs str n buf k =
      (Base58Check.fromBase58Check host cs str n buf).bind fun a => .ok (a, d)) := by
  have h1 := fun buf => fromBase58_does (g := g) counts_any cs str n buf fun _ _ _ _ size _ _ _ => serves_granted g hg size
  obtain ⟨d1, -, e1⟩ := toBase58_does (g := g) counts_any buf n str (fun z _ => serves_granted g hg _) k
  obtain ⟨d2, -, e2⟩ := h1 buf k
  obtain ⟨d3, -, e3⟩ := toBase58Check_does (g := g) counts_any host buf n pre pn str (fun z _ => serves_granted g hg _)
    (serves_granted g hg _) k
  obtain ⟨d4, -, e4⟩ := fromBase58Check_does (g := g) counts_any host cs str n buf h1 k
  exact ⟨⟨d1, e1⟩, ⟨d2, e2⟩, ⟨d3, e3⟩, ⟨d4, e4⟩⟩

theorem step_at {α β : Type} {m : Res α} {a : α} {f : α → Al β} {k : Nat} (h : m = .ok a) :
    ((monadLift m : Al α) >>= f) k = f a k := by
  rw [h]; rfl

theorem declare_at {β : Type} (g : Grant) (size k : Nat) (body : Option (List Byte) → Res β) (hn : body none = .ub) :
    (OutOfMemory.declare g size >>= fun p => (monadLift (body p) : Al β)) k =
      if size ≤ 128 then (body (some (List.replicate size 0xAA#8))).bind fun a => .ok (a, k)
      else if g k size then (body (some (List.replicate size 0xAA#8))).bind fun a => .ok (a, k + 1)
      else .ub := by
  rw [OutOfMemory.declare]
  split
  · rfl
  · cases hg : g k size with
    | true =>
      rw [if_pos rfl]
      show (malloc g size k).bind _ = _
      rw [malloc, hg]; rfl
    | false =>
      rw [if_neg (by decide)]
      show (malloc g size k).bind _ = _
      rw [malloc, hg]
      show (body none).bind _ = _
      rw [hn]; rfl

/-- C81 (writing Base58). The exact behaviour for every buffer: with up to 92 bytes behind the leading zeros nothing is requested;
with more one block is, and if it is refused the function goes through the null pointer. -/
theorem C81_to_base58_exact (g : Grant) (bs str : List Byte) (k : Nat) :
    OutOfMemory.toBase58 g bs bs.length str k =
      if significant bs ≤ 92 then (Base58.toBase58 bs bs.length str).bind fun a => .ok (a, k)
      else if g k (significant bs * 138 / 100 + 1) then (Base58.toBase58 bs bs.length str).bind fun a => .ok (a, k + 1)
      else .ub := by
  have hz := Base58.skipZeroes_eq bs bs.length 0 (by omega)
  simp only [List.drop_zero, List.take_length, Nat.zero_add] at hz
  have hsig := significant_eq bs
  generalize (bs.takeWhile (· = 0#8)).length = z at hz hsig
  have hc : significant bs ≤ 92 ↔ significant bs * 138 / 100 + 1 ≤ 128 := by omega
  generalize significant bs = sig at hsig hc
  rw [OutOfMemory.toBase58, step_at hz, Base58.toBase58, hz, Res.ok_bind]
  dsimp only
  rw [hsig]
  by_cases hb : sig * 138 / 100 + 1 ≥ 2 ^ 31
  · rw [if_pos hb, if_pos hb, if_neg (by omega)]
    split <;> rfl
  · rw [if_neg hb, if_neg hb]
    have hd := declare_at g (sig * 138 / 100 + 1) k (fun p => do
      let b58 ← deref p
      let b58 ← memset b58 0 0#8 (sig * 138 / 100 + 1)
      let (b58, length) ← forLoop (Base58.encBody bs (sig * 138 / 100 + 1)) z sig (b58, 0)
      let iter ← Base58.skipZeroes b58 length (sig * 138 / 100 + 1 - length)
      let str ← memset str 0 (chr '1') z
      let str ← forLoop (Base58.encOut b58 z iter) iter (sig * 138 / 100 + 1 - iter) str
      pure (str, z + (sig * 138 / 100 + 1 - iter))) rfl
    refine hd.trans ?_
    have e := memset_whole (List.replicate (sig * 138 / 100 + 1) 0xAA#8) _ (List.length_replicate ..)
    simp only [deref, Res.ok_bind, e, ← hc]

theorem skipSpaces_or (cs : Bool) (s post : List Byte) (n : Nat) (h0 : ∀ b ∈ s, b ≠ 0#8) :
    Base58.skipSpaces cs (s ++ 0#8 :: post) n = .ub ∨ Base58.skipSpaces cs (s ++ 0#8 :: post) n =
      .ok (s.dropWhile Base58Spec.isSpace ++ 0#8 :: post, n + (s.takeWhile Base58Spec.isSpace).length) := by
  induction s generalizing n with
  | nil => exact .inr (by simp [Base58.skipSpaces])
  | cons c s ih =>
    rw [List.cons_append, Base58.skipSpaces, if_neg (h0 c (by simp))]
    by_cases hn : cs = true ∧ Base58Spec.Negative c
    · rw [hn.1, Base58.isspace_neg c hn.2]; exact .inl rfl
    · rw [Base58.isspace_ok cs c (fun h hc => hn ⟨h, hc⟩)]
      simp only [Res.ok_bind]
      by_cases hsp : Base58Spec.isSpace c = true
      · rw [if_pos hsp]
        have := ih (n+1) (fun b hb => h0 b (by simp [hb]))
        simpa [hsp, Nat.add_assoc, Nat.add_comm 1] using this
      · exact .inr (by simp [hsp])

/-- The characters behind leading blanks and leading `'1'`s. -/
def behindOnes (s : List Byte) : Nat := ((s.dropWhile Base58Spec.isSpace).dropWhile (· = 49#8)).length

/-- C81 (reading Base58). The exact behaviour for every text: with up to 174 characters behind leading blanks and `'1'`s nothing is
requested; with more one block is, and if it is refused the function goes through the null pointer. -/
theorem C81_from_base58_exact (g : Grant) (cs : Bool) (s post buf : List Byte) (k : Nat) (h0 : ∀ b ∈ s, b ≠ 0#8) :
    OutOfMemory.fromBase58 g cs (s ++ 0#8 :: post) s.length buf k =
      if behindOnes s ≤ 174 then (Base58.fromBase58 cs (s ++ 0#8 :: post) s.length buf).bind fun a => .ok (a, k)
      else if g k (behindOnes s * 733 / 1000 + 1) then
        (Base58.fromBase58 cs (s ++ 0#8 :: post) s.length buf).bind fun a => .ok (a, k + 1)
      else .ub := by
  have hub : OutOfMemory.fromBase58 g cs (s ++ 0#8 :: post) s.length buf k = .ub →
      Base58.fromBase58 cs (s ++ 0#8 :: post) s.length buf = .ub →
      OutOfMemory.fromBase58 g cs (s ++ 0#8 :: post) s.length buf k =
      if behindOnes s ≤ 174 then (Base58.fromBase58 cs (s ++ 0#8 :: post) s.length buf).bind fun a => .ok (a, k)
      else if g k (behindOnes s * 733 / 1000 + 1) then
        (Base58.fromBase58 cs (s ++ 0#8 :: post) s.length buf).bind fun a => .ok (a, k + 1)
      else .ub := by
    intro h1 h2
    rw [h1, h2]
    split
    · rfl
    · split <;> rfl
  rcases skipSpaces_or cs s post 0 h0 with e | e
  · refine hub ?_ ?_
    · rw [OutOfMemory.fromBase58, e]; rfl
    · rw [Base58.fromBase58, e]; rfl
  · have e1 := Base58.countOnes_eq (s.dropWhile Base58Spec.isSpace) post 0
    have hlen : (s.takeWhile Base58Spec.isSpace).length + ((s.dropWhile Base58Spec.isSpace).takeWhile (· = 49#8)).length +
        behindOnes s = s.length := by
      have h1 : (s.takeWhile Base58Spec.isSpace).length + (s.dropWhile Base58Spec.isSpace).length = s.length := by
        rw [← List.length_append, List.takeWhile_append_dropWhile]
      have h2 : ((s.dropWhile Base58Spec.isSpace).takeWhile (· = 49#8)).length +
          ((s.dropWhile Base58Spec.isSpace).dropWhile (· = 49#8)).length = (s.dropWhile Base58Spec.isSpace).length := by
        rw [← List.length_append, List.takeWhile_append_dropWhile]
      rw [behindOnes]; omega
    generalize behindOnes s = d at hlen hub ⊢
    generalize ((s.dropWhile Base58Spec.isSpace).takeWhile (· = 49#8)).length = z at hlen e1
    generalize ((s.dropWhile Base58Spec.isSpace).dropWhile (· = 49#8)) ++ 0#8 :: post = s2 at e1
    generalize (s.takeWhile Base58Spec.isSpace).length = w at hlen e
    generalize s.dropWhile Base58Spec.isSpace ++ 0#8 :: post = s1 at e e1
    by_cases hz : z ≥ 2 ^ 31
    · refine hub ?_ ?_
      · rw [OutOfMemory.fromBase58, step_at e]; dsimp only; rw [step_at e1]; dsimp only; rw [if_pos (by omega)]; rfl
      · rw [Base58.fromBase58, e, Res.ok_bind]; dsimp only; rw [e1, Res.ok_bind]; dsimp only; rw [if_pos (by omega)]
    · have hd : ((s.length : Int) - ((0 + w : Nat) : Int) - ((0 + z : Nat) : Int)) = (d : Int) := by omega
      cases hw : Base58.workSize (d : Int) with
      | ub =>
        refine hub ?_ ?_
        · rw [OutOfMemory.fromBase58, step_at e]; dsimp only; rw [step_at e1]; dsimp only; rw [if_neg (by omega), hd, hw]; rfl
        · rw [Base58.fromBase58, e, Res.ok_bind]; dsimp only; rw [e1, Res.ok_bind]; dsimp only
          rw [if_neg (by omega), hd, hw]; rfl
      | abort => unfold Base58.workSize at hw; split at hw <;> cases hw
      | ok size =>
        have hsz : size = d * 733 / 1000 + 1 := by
          unfold Base58.workSize at hw
          split at hw
          · cases hw
          · dsimp only at hw
            split at hw
            · cases hw
            · injection hw with hw
              rw [← hw, Int.tdiv_eq_ediv_of_nonneg (by omega)]; omega
        have hc : d ≤ 174 ↔ size ≤ 128 := by omega
        rw [← hsz]
        rw [OutOfMemory.fromBase58, step_at e]; dsimp only; rw [step_at e1]; dsimp only; rw [if_neg (by omega), hd, step_at hw]
        rw [Base58.fromBase58, e, Res.ok_bind]; dsimp only; rw [e1, Res.ok_bind]; dsimp only
        have hz' : ¬ (0 + z ≥ 2 ^ 31) := by omega
        rw [if_neg hz', hd, hw, Res.ok_bind]
        refine (declare_at g size k _ rfl).trans ?_
        have em := memset_whole (List.replicate size 0xAA#8) _ (List.length_replicate ..)
        simp only [deref, Res.ok_bind, em, ← hc]
        rfl

/-- C81 is violated by the four Base58 functions: whenever they request memory and get none, the behaviour is undefined; buffers with
more than 92 bytes behind the leading zeros (124 and more for Base58Check, whatever they are) and texts with more than 174 characters
behind blanks and `'1'`s do so. -/
theorem C81_violated_refused (g : Grant) (hg : ∀ k size, g k size = false) (host : Host) (cs : Bool) (bs pre str s post out : List Byte)
    (k : Nat) (h0 : ∀ b ∈ s, b ≠ 0#8) :
    (92 < significant bs → OutOfMemory.toBase58 g bs bs.length str k = .ub) ∧
    (174 < behindOnes s → OutOfMemory.fromBase58 g cs (s ++ 0#8 :: post) s.length out k = .ub) ∧
    (124 < bs.length + pre.length → OutOfMemory.toBase58Check g host bs bs.length pre pre.length str k = .ub) ∧
    (174 < behindOnes s → OutOfMemory.fromBase58Check g host cs (s ++ 0#8 :: post) s.length out k = .ub) := by
  have h2 : 174 < behindOnes s → OutOfMemory.fromBase58 g cs (s ++ 0#8 :: post) s.length out k = .ub := by
    intro h
    rw [C81_from_base58_exact g cs s post out k h0, if_neg (by omega), hg]; rfl
  refine ⟨fun h => ?_, h2, fun h => ?_, fun h => ?_⟩
  · rw [C81_to_base58_exact, if_neg (by omega), hg]; rfl
  · unfold OutOfMemory.toBase58Check
    show ((OutOfMemory.declare g _) k).bind _ = _
    rw [OutOfMemory.declare, if_neg (by omega), malloc, hg]
    rfl
  · unfold OutOfMemory.fromBase58Check
    show ((OutOfMemory.fromBase58 g cs _ _ out) k).bind _ = _
    rw [h2 h]; rfl

/-- Such inputs exist; with memory they are converted. -/
example : 92 < significant (List.replicate 93 1#8) ∧ 174 < behindOnes (List.replicate 175 50#8) := by decide +kernel
example : Base58.toBase58 (List.replicate 93 1#8) 93 (List.replicate 130 0#8) ≠ .ub := by
  have h := (C13_to_base58_any (List.replicate 93 1#8) (List.replicate 130 0#8)).1 (by decide +kernel) (by
    have := encode58_length_le (List.replicate 93 1#8)
    simp [Base58.toBase58Length] at this ⊢; omega)
  rw [List.length_replicate] at h
  rw [h]; simp

/-- C81 (addresses): a text with more than 174 characters behind blanks and `'1'`s makes the address decoder request memory, too. -/
theorem C81_violated_address (g : Grant) (hg : ∀ k size, g k size = false) (host : Host) (cs : Bool) (stack s post out : List Byte)
    (outSize k : Nat) (param : ChainParameters) (h0 : ∀ b ∈ s, b ≠ 0#8) (h : 174 < behindOnes s)
    (ho : Base58Check.fromBase58CheckLength s.length ≤ outSize) :
    OutOfMemory.addressDecode g host cs stack (s ++ 0#8 :: post) s.length out outSize param k = .ub := by
  unfold OutOfMemory.addressDecode
  rw [if_neg (by omega)]
  show ((OutOfMemory.fromBase58Check g host cs _ _ out) k).bind _ = _
  rw [(C81_violated_refused g hg host cs [] [] [] s post out k h0).2.2.2 h]; rfl

/-- Three bytes and their text, where `malloc` always refuses. -/
example : OutOfMemory.toBase58 (fun _ _ => false) [0#8, 1#8, 2#8] 3 (List.replicate 6 0#8) 0 =
      .ok ((cstr "15T" ++ List.replicate 3 0#8, 3), 0) ∧
    OutOfMemory.fromBase58 (fun _ _ => false) true (cstr "15T" ++ [0#8]) 3 (List.replicate 4 0#8) 0 =
      .ok (([0#8, 1#8, 2#8, 0#8], 3), 0) := by decide +kernel
