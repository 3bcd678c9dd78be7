import Verif.Spec.Announced
import Verif.Lemmas.Base58Total
import Verif.Lemmas.Base58Overrun
/-! base58 decoding with an announced length that need not be the length of the text. -/
namespace Base58
open Base58Spec Positional

/-- A digit is not a blank. -/
theorem digit_not_space (c : Byte) (h : (value? c).isSome = true) : isSpace c = false := by
  revert c; decide +kernel

theorem value_append_le (base : Nat) (a b : List Nat) (hb : 1 ≤ base) : value base a ≤ value base (a ++ b) := by
  rw [value_append]
  have : 1 ≤ base ^ b.length := Nat.pow_pos (by omega)
  calc value base a = value base a * 1 := by omega
    _ ≤ value base a * base ^ b.length := Nat.mul_le_mul_left _ this
    _ ≤ _ := by omega

/-- The digit loop with a work area of any size. -/
theorem digitLoop_any (cs : Bool) (size : Nat) (t post : List Byte) (b256 : List Byte) (length : Nat)
    (pre : List Nat) (h0 : ∀ b ∈ t, b ≠ 0#8) (h : cs = true → ∀ b ∈ t, b.toNat < 128)
    (hpre : ∀ d ∈ pre, d < 58) (hst : Holds 256 b256 size length (value 58 pre)) :
    if value 58 (pre ++ (t.takeWhile fun c => (value? c).isSome).filterMap value?) < 256 ^ size then
      if (t.takeWhile fun c => !isSpace c).all (fun c => (value? c).isSome) then
        ∃ b' len, digitLoop cs size (t ++ 0#8 :: post) b256 length =
            .ok (some ((t.dropWhile fun c => !isSpace c) ++ 0#8 :: post, b', len)) ∧
          Holds 256 b' size len (value 58 (pre ++ (t.takeWhile fun c => !isSpace c).filterMap value?))
      else digitLoop cs size (t ++ 0#8 :: post) b256 length = .ok none
    else digitLoop cs size (t ++ 0#8 :: post) b256 length = .abort := by
  have hlt : value 58 pre < 256 ^ size := by
    rw [← hst.val, ← hst.len]; exact num_lt 256 _ hst.lt
  induction t generalizing b256 length pre with
  | nil =>
    simp only [List.takeWhile_nil, List.filterMap_nil, List.append_nil, List.all_nil, if_true]
    rw [if_pos hlt]
    exact ⟨b256, length, by simp [digitLoop], by simpa using hst⟩
  | cons c t ih =>
    have hc0 := h0 c (by simp)
    have hsp := isspace_eq cs c (fun hc => h hc c (by simp))
    by_cases hs : isSpace c = true
    · have hd : (value? c).isSome = false := by
        cases hv : (value? c).isSome with
        | false => rfl
        | true => rw [digit_not_space c hv] at hs; cases hs
      simp only [List.takeWhile_cons, hs, hd, Bool.not_true, Bool.false_eq_true, if_false, List.all_nil, if_true,
        List.filterMap_nil, List.append_nil]
      rw [if_pos hlt]
      refine ⟨b256, length, ?_, by simpa using hst⟩
      rw [List.cons_append, digitLoop, if_neg hc0, hsp]
      simp [hs]
    · have hloop : digitLoop cs size (c :: t ++ 0#8 :: post) b256 length = (do
          let v ← rd BASE58_DECODE c.toNat
          if v = -1 then pure none
          else
            let (b256, i, carry) ← carryLoop 256 58 length size 0 v.toNat b256
            assertC (carry == 0)
            digitLoop cs size (t ++ 0#8 :: post) b256 i) := by
        rw [List.cons_append, digitLoop, if_neg hc0, hsp]
        simp only [Res.ok_bind, hs, Bool.false_eq_true, if_false]
      rw [hloop, rd_decode]
      simp only [Res.ok_bind]
      cases hv : value? c with
      | none =>
        simp only [List.takeWhile_cons, hs, hv, Bool.not_false, if_true, Option.isSome_none, Bool.false_eq_true, if_false,
          List.all_cons, Bool.false_and, List.filterMap_nil, List.append_nil]
        rw [if_pos hlt]; rfl
      | some v =>
        have hvlt := value?_lt c v hv
        have hne : ¬ ((v:Int) = -1) := by omega
        simp only [List.takeWhile_cons, hs, hv, Bool.not_false, if_true, Option.isSome_some, List.all_cons, Bool.true_and]
        rw [if_neg hne]
        have hpre' : ∀ d ∈ pre ++ [v], d < 58 := by
          intro d hd
          rcases List.mem_append.mp hd with hd | hd
          · exact hpre d hd
          · simp at hd; omega
        simp only [Int.toNat_natCast]
        rw [List.filterMap_cons_some hv, List.append_cons]
        have hsn : value 58 (pre ++ [v]) = 58 * value 58 pre + v := by rw [value_snoc, Nat.mul_comm]
        by_cases hfit : 58 * value 58 pre + v < 256 ^ size
        · obtain ⟨b', i', e, hh⟩ := carryLoop_holds 256 58 size length (value 58 pre) v b256 (by omega)
            (by omega) (by decide) hst hvlt hfit
          have ih := ih b' i' (pre ++ [v]) (fun b hb => h0 b (by simp [hb]))
            (fun hc b hb => h hc b (by simp [hb])) hpre' (by rw [hsn]; exact hh) (by rw [hsn]; exact hfit)
          simp only [e, Res.ok_bind, assertC, beq_self_eq_true, if_true]
          rw [List.dropWhile_cons_of_pos (by simp [hs]), List.filterMap_cons_some hv, List.append_cons pre v (List.filterMap value? _)]
          exact ih
        · have hge := value_append_le 58 (pre ++ [v]) ((t.takeWhile fun c => (value? c).isSome).filterMap value?) (by omega)
          rw [hsn] at hge
          rw [if_neg (by omega)]
          obtain ⟨b', i', c', e, e1, e2, e3, -, -, -⟩ := carryLoop_spec 256 58 length (by omega) (by omega) (by decide) size 0 v
            b256 [] hst.len hst.lt (by simpa using hst.zero) hvlt
          simp only [List.append_nil] at e
          rw [hst.val] at e3
          have hb := num_lt 256 b' e2
          rw [e1] at hb
          have hc0 : c' ≠ 0 := by
            intro hz; subst hz; omega
          have : (c' == 0) = false := by simpa using hc0
          simp only [e, Res.ok_bind, assertC, this, Bool.false_eq_true, if_false]
          rfl

/-- The number the leading legal digits of a text stand for, blanks and what follows the digits ignored. -/
def leadingNumber (s : List Byte) : Nat :=
  value 58 (((s.dropWhile isSpace).takeWhile fun c => (value? c).isSome).filterMap value?)

theorem leadingNumber_ones (t : List Byte) :
    value 58 ((t.takeWhile fun c => (value? c).isSome).filterMap value?) =
      value 58 (((t.dropWhile (· = 49#8)).takeWhile fun c => (value? c).isSome).filterMap value?) := by
  have hv : value? 49#8 = some 0 := by decide +kernel
  induction t with
  | nil => rfl
  | cons c t ih =>
    by_cases hc : c = 49#8
    · subst hc
      rw [List.dropWhile_cons_of_pos (by simp), List.takeWhile_cons_of_pos (by simp [hv]), List.filterMap_cons_some hv, ← ih]
      simp [value]
    · rw [List.dropWhile_cons_of_neg (by simpa using hc)]

theorem all_space_iff (r : List Byte) : r.all isSpace = true ↔ r.dropWhile isSpace = [] := by
  induction r with
  | nil => simp
  | cons a r ih =>
    by_cases ha : isSpace a = true
    · simp [ha, ← ih]
    · simp [ha]

/-- `fingera_from_base58` on a NUL-terminated string with any announced length, for an output object that is large enough. -/
theorem fromBase58_any_aux (cs : Bool) (s post buf : List Byte) (n size : Nat) (h0 : ∀ b ∈ s, b ≠ 0#8)
    (h : cs = true → ∀ b ∈ s, b.toNat < 128) (hones : ((s.dropWhile isSpace).takeWhile (· = 49#8)).length < 2^31)
    (hw : workSize ((n : Int) - (leading s : Int)) = .ok size)
    (hb : ∀ W, decode? s = some W → W.length ≤ buf.length) :
    fromBase58 cs (s ++ 0#8 :: post) n buf =
      if leadingNumber s < 256 ^ size then
        match decode? s with
        | none => .ok (buf, 0)
        | some W => .ok (over W buf, W.length)
      else .abort := by
  unfold fromBase58
  rw [skipSpaces_eq cs s post 0 h0 h]
  simp only [Res.ok_bind]
  rw [countOnes_eq]
  simp only [Res.ok_bind, Nat.zero_add]
  unfold leadingNumber
  rw [leadingNumber_ones]
  unfold leading at hw
  generalize ht : s.dropWhile isSpace = t at hones hw ⊢
  have hts : t <:+ s := by rw [← ht]; exact List.dropWhile_suffix _
  generalize ht' : t.dropWhile (· = 49#8) = t'
  have hts' : t' <:+ t := by rw [← ht']; exact List.dropWhile_suffix _
  have hsub : ∀ b ∈ t', b ∈ s := fun b hb => hts.subset (hts'.subset hb)
  rw [if_neg (by omega)]
  rw [show ((n : Int) - ((s.takeWhile isSpace).length : Int) - ((t.takeWhile (· = 49#8)).length : Int)) =
    (n : Int) - (((s.takeWhile isSpace).length + (t.takeWhile (· = 49#8)).length : Nat) : Int) by omega, hw]
  simp only [Res.ok_bind]
  have hd := digitLoop_any cs size t' post (List.replicate size 0#8) 0 [] (fun b hb => h0 b (hsub b hb))
    (fun hc b hb => h hc b (hsub b hb)) (by simp) (by simpa [value] using holds_init 256 size (by omega))
  rw [List.nil_append] at hd
  by_cases hnum : ¬ value 58 ((t'.takeWhile fun c => (value? c).isSome).filterMap value?) < 256 ^ size
  · rw [if_neg hnum] at hd ⊢
    rw [hd]; rfl
  rw [if_pos (Decidable.not_not.mp hnum)] at hd ⊢
  obtain ⟨s1, s2, s3⟩ := body_split t
  rw [ht'] at s1 s2
  have hall : (t.takeWhile fun c => !isSpace c).all (fun c => (value? c).isSome) =
      (t'.takeWhile fun c => !isSpace c).all (fun c => (value? c).isSome) := by
    rw [s1, List.all_append]
    have hv : value? 49#8 = some 0 := by decide +kernel
    have : (t.takeWhile (· = 49#8)).all (fun c => (value? c).isSome) = true := by
      rw [List.all_eq_true]
      intro x hx
      rw [all_takeWhile_ones t x hx, hv]; rfl
    rw [this]; simp
  by_cases hok : (t'.takeWhile fun c => !isSpace c).all (fun c => (value? c).isSome) = true
  · rw [if_pos hok] at hd
    obtain ⟨b', len, e, hh⟩ := hd
    rw [e]
    simp only [Res.ok_bind]
    rw [skipTrailing_eq cs _ post (fun hc b hb => h hc b (hsub b ((List.dropWhile_suffix _).subset hb)))]
    simp only [Res.ok_bind]
    generalize hr : (t'.dropWhile fun c => !isSpace c) = r
    have hrs : ∀ b ∈ r, b ≠ 0#8 := by
      intro b hb
      rw [← hr] at hb
      exact h0 b (hsub b ((List.dropWhile_suffix _).subset hb))
    have hall2 := all_space_iff r
    by_cases hrest : r.all isSpace = true
    · rw [hall2.mp hrest, List.nil_append]
      have hdec : decode? s = some (bytes (t.takeWhile fun c => !isSpace c)) := by
        unfold decode?
        rw [ht]
        simp only [s2, hr, hall, hok, hrest, Bool.and_self, if_true]
      rw [hdec]
      have hW := hb _ hdec
      have hbytes : bytes (t.takeWhile fun c => !isSpace c) =
          List.replicate (t.takeWhile (· = 49#8)).length 0#8 ++
          (digits 256 (value 58 ((t'.takeWhile fun c => !isSpace c).filterMap value?))).map (BitVec.ofNat 8) := by
        unfold bytes
        rw [s3, s1, value_bytes_ones _ _ (all_takeWhile_ones t)]
      rw [hbytes] at hW ⊢
      simp only [rd, List.getElem?_cons_zero, Res.ok_bind, ne_eq]
      rw [if_neg (by simp)]
      rw [List.nil_append] at hh
      obtain ⟨it, e1, e2, e3, e4⟩ := skip_holds 256 size len _ b' (by omega) hh
      rw [e1]
      simp only [Res.ok_bind]
      simp only [List.length_append, List.length_replicate, List.length_map] at hW
      rw [memset_zero_over _ _ _ (by omega)]
      simp only [Res.ok_bind]
      have hlen' := hh.len
      have := out_loop (decOut b' (t.takeWhile (· = 49#8)).length it) b' id it (size - it) 0
        (List.replicate (t.takeWhile (· = 49#8)).length 0#8) buf (t.takeWhile (· = 49#8)).length (by simp) (by
          intro i hi o _
          unfold decOut
          rw [rd_ok _ _ hi]
          rfl) (by omega) (by omega)
      rw [Nat.add_zero, List.map_id] at this
      rw [this, e3]
      simp only [Res.ok_bind, List.length_append, List.length_replicate, List.length_map, Res.pure_eq, e4]
    · have hdec : decode? s = none := by
        unfold decode?
        rw [ht]
        simp only [s2, hr, hall, hok, hrest, Bool.and_false, Bool.false_eq_true, if_false]
      rw [hdec]
      have hne : r.dropWhile isSpace ≠ [] := fun h1 => hrest (hall2.mpr h1)
      obtain ⟨x, q, hx⟩ := List.exists_cons_of_ne_nil hne
      have hx0 : x ≠ 0#8 := hrs x ((List.dropWhile_suffix isSpace).subset (by rw [hx]; simp))
      rw [hx]
      simp only [List.cons_append, rd, List.getElem?_cons_zero, Res.ok_bind, ne_eq]
      rw [if_pos (by simpa using hx0)]
      rfl
  · rw [if_neg hok] at hd
    have hdec : decode? s = none := by
      unfold decode?
      rw [ht]
      simp only [hall, hok, Bool.false_and, Bool.false_eq_true, if_false]
    rw [hd, hdec]; rfl

theorem skipTrailing_noabort (cs : Bool) : ∀ s : List Byte, skipTrailing cs s ≠ .abort
  | [] => by simp [skipTrailing]
  | c :: r => by
    rw [skipTrailing]
    unfold isspace
    split
    · simp
    · simp only [Res.ok_bind]
      split
      · exact skipTrailing_noabort cs r
      · simp

theorem skipZeroes_noabort (buf : List Byte) : ∀ k p : Nat, skipZeroes buf k p ≠ .abort
  | 0, p => by simp [skipZeroes]
  | k+1, p => by
    rw [skipZeroes]
    unfold rd
    split
    · simp only [Res.ok_bind]
      split
      · exact skipZeroes_noabort buf k (p+1)
      · simp
    · simp

/-- A failed assertion does not depend on the output object. -/
theorem fromBase58_abort_aux (cs : Bool) (str : List Byte) (strLen : Nat) (big buf : List Byte)
    (h : fromBase58 cs str strLen big = .abort) : fromBase58 cs str strLen buf = .abort := by
  unfold fromBase58 at h ⊢
  cases h1 : skipSpaces cs str 0 with
  | ub => rw [h1] at h; cases h
  | abort => rfl
  | ok a =>
    obtain ⟨str1, skipped⟩ := a
    rw [h1] at h
    simp only [Res.ok_bind] at h ⊢
    cases h2 : countOnes str1 0 with
    | ub => rw [h2] at h; cases h
    | abort => rfl
    | ok a =>
      obtain ⟨str2, zeroes⟩ := a
      rw [h2] at h
      simp only [Res.ok_bind] at h ⊢
      by_cases hz : zeroes ≥ 2^31
      · rw [if_pos hz] at h; cases h
      rw [if_neg hz] at h ⊢
      cases h3 : workSize ((strLen : Int) - (skipped : Int) - (zeroes : Int)) with
      | ub => rw [h3] at h; cases h
      | abort => rfl
      | ok size =>
        rw [h3] at h
        simp only [Res.ok_bind] at h ⊢
        cases h4 : digitLoop cs size str2 (List.replicate size 0#8) 0 with
        | ub => rw [h4] at h; cases h
        | abort => rfl
        | ok a =>
          rw [h4] at h
          simp only [Res.ok_bind] at h
          cases a with
          | none => cases h
          | some a =>
            obtain ⟨str3, b256, length⟩ := a
            simp only at h
            cases h5 : skipTrailing cs str3 with
            | ub => rw [h5] at h; cases h
            | abort => exact absurd h5 (skipTrailing_noabort cs str3)
            | ok str4 =>
              rw [h5] at h
              simp only [Res.ok_bind] at h
              cases h6 : rd str4 0 with
              | ub => rw [h6] at h; cases h
              | abort => unfold rd at h6; split at h6 <;> cases h6
              | ok c =>
                rw [h6] at h
                simp only [Res.ok_bind] at h
                by_cases hc : c ≠ 0#8
                · rw [if_pos hc] at h; cases h
                rw [if_neg hc] at h
                cases h7 : skipZeroes b256 length (size - length) with
                | ub => rw [h7] at h; cases h
                | abort => exact absurd h7 (skipZeroes_noabort _ _ _)
                | ok it =>
                  rw [h7] at h
                  simp only [Res.ok_bind] at h
                  cases h8 : memset big 0 0#8 zeroes with
                  | ub => rw [h8] at h; cases h
                  | abort => unfold memset at h8; split at h8 <;> cases h8
                  | ok o =>
                    rw [h8] at h
                    simp only [Res.ok_bind] at h
                    cases h9 : forLoop (decOut b256 zeroes it) it (size - it) o with
                    | ub => rw [h9] at h; cases h
                    | abort => exact absurd h9 (decOut_loop_noabort _ _ _ _ _ _)
                    | ok o2 => rw [h9] at h; cases h

/-- `fingera_from_base58` on a NUL-terminated string with any announced length and any output object. -/
theorem fromBase58_any (cs : Bool) (s post buf : List Byte) (n size : Nat) (h0 : ∀ b ∈ s, b ≠ 0#8)
    (h : cs = true → ∀ b ∈ s, b.toNat < 128) (hones : ((s.dropWhile isSpace).takeWhile (· = 49#8)).length < 2^31)
    (hw : workSize ((n : Int) - (leading s : Int)) = .ok size) :
    fromBase58 cs (s ++ 0#8 :: post) n buf =
      if leadingNumber s < 256 ^ size then
        match decode? s with
        | none => .ok (buf, 0)
        | some W => if W.length ≤ buf.length then .ok (over W buf, W.length) else .ub
      else .abort := by
  by_cases hb : ∀ W, decode? s = some W → W.length ≤ buf.length
  · rw [fromBase58_any_aux cs s post buf n size h0 h hones hw hb]
    cases hd : decode? s with
    | none => rfl
    | some W => simp only [if_pos (hb W hd)]
  · cases hd : decode? s with
    | none => exact absurd (fun W hW => by rw [hd] at hW; cases hW) hb
    | some W =>
      have hWb : ¬ W.length ≤ buf.length := fun hle => hb (fun W' hW' => by
        rw [hd] at hW'; rw [← Option.some.inj hW']; exact hle)
      have hbig := fromBase58_any_aux cs s post (List.replicate W.length 0#8) n size h0 h hones hw (fun W' hW' => by
        rw [hd] at hW'; rw [← Option.some.inj hW', List.length_replicate]; exact Nat.le_refl _)
      rw [hd] at hbig
      by_cases hnum : leadingNumber s < 256 ^ size
      · rw [if_pos hnum] at hbig ⊢
        simp only at hbig ⊢
        rw [if_neg hWb]
        exact fromBase58_overrun_aux cs _ n _ _ buf _ hbig (by omega)
      · rw [if_neg hnum] at hbig ⊢
        exact fromBase58_abort_aux cs _ n _ buf hbig

/-! ### what lies behind the characters that are read does not matter; a text is read up to a NUL -/

theorem skipSpaces_more (cs : Bool) (x : List Byte) : ∀ (m : List Byte) (n : Nat), skipSpaces cs m n = .ub ∨
    ∃ r k, skipSpaces cs m n = .ok (r, k) ∧ skipSpaces cs (m ++ x) n = .ok (r ++ x, k) ∧ ∀ c ∈ r, c ∈ m
  | [], n => .inl rfl
  | c :: m, n => by
    rw [List.cons_append, skipSpaces, skipSpaces]
    by_cases h0 : c = 0#8
    · rw [if_pos h0, if_pos h0]; exact .inr ⟨_, _, rfl, rfl, fun _ h => h⟩
    · rw [if_neg h0, if_neg h0]
      cases hs : isspace cs c with
      | ub => exact .inl rfl
      | abort => unfold isspace at hs; split at hs <;> cases hs
      | ok b =>
        simp only [Res.ok_bind]
        cases b with
        | true =>
          rw [if_pos rfl, if_pos rfl]
          rcases skipSpaces_more cs x m (n+1) with h | ⟨r, k, h1, h2, h3⟩
          · exact .inl h
          · exact .inr ⟨r, k, h1, h2, fun c hc => List.mem_cons_of_mem _ (h3 c hc)⟩
        | false => exact .inr ⟨_, _, rfl, rfl, fun _ h => h⟩

theorem countOnes_more (x : List Byte) : ∀ (m : List Byte) (n : Nat), countOnes m n = .ub ∨
    ∃ r k, countOnes m n = .ok (r, k) ∧ countOnes (m ++ x) n = .ok (r ++ x, k) ∧ ∀ c ∈ r, c ∈ m
  | [], n => .inl rfl
  | c :: m, n => by
    rw [List.cons_append, countOnes, countOnes]
    by_cases h0 : c = chr '1'
    · rw [if_pos h0, if_pos h0]
      rcases countOnes_more x m (n+1) with h | ⟨r, k, h1, h2, h3⟩
      · exact .inl h
      · exact .inr ⟨r, k, h1, h2, fun c hc => List.mem_cons_of_mem _ (h3 c hc)⟩
    · rw [if_neg h0, if_neg h0]; exact .inr ⟨_, _, rfl, rfl, fun _ h => h⟩

theorem digitLoop_more (cs : Bool) (size : Nat) (x : List Byte) : ∀ (m b256 : List Byte) (len : Nat),
    digitLoop cs size m b256 len = .ub ∨
    (digitLoop cs size m b256 len = .abort ∧ digitLoop cs size (m ++ x) b256 len = .abort) ∨
    (digitLoop cs size m b256 len = .ok none ∧ digitLoop cs size (m ++ x) b256 len = .ok none) ∨
    ∃ r b k, digitLoop cs size m b256 len = .ok (some (r, b, k)) ∧ digitLoop cs size (m ++ x) b256 len = .ok (some (r ++ x, b, k)) ∧
      ∀ c ∈ r, c ∈ m
  | [], b256, len => .inl rfl
  | c :: m, b256, len => by
    rw [List.cons_append, digitLoop, digitLoop]
    by_cases h0 : c = 0#8
    · rw [if_pos h0, if_pos h0]; exact .inr (.inr (.inr ⟨_, _, _, rfl, rfl, fun _ h => h⟩))
    · rw [if_neg h0, if_neg h0]
      cases hs : isspace cs c with
      | ub => exact .inl rfl
      | abort => exact .inr (.inl ⟨rfl, rfl⟩)
      | ok b =>
        simp only [Res.ok_bind]
        cases b with
        | true => exact .inr (.inr (.inr ⟨_, _, _, rfl, rfl, fun _ h => h⟩))
        | false =>
          simp only [Bool.false_eq_true, if_false]
          cases hv : rd BASE58_DECODE c.toNat with
          | ub => exact .inl rfl
          | abort => exact .inr (.inl ⟨rfl, rfl⟩)
          | ok v =>
            simp only [Res.ok_bind]
            by_cases hv1 : v = -1
            · rw [if_pos hv1, if_pos hv1]; exact .inr (.inr (.inl ⟨rfl, rfl⟩))
            · rw [if_neg hv1, if_neg hv1]
              cases hc : carryLoop 256 58 len size 0 v.toNat b256 with
              | ub => exact .inl rfl
              | abort => exact .inr (.inl ⟨rfl, rfl⟩)
              | ok st =>
                obtain ⟨b', i, carry⟩ := st
                simp only [Res.ok_bind]
                cases ha : assertC (carry == 0) with
                | ub => exact .inl rfl
                | abort => exact .inr (.inl ⟨rfl, rfl⟩)
                | ok u =>
                  simp only [Res.ok_bind]
                  rcases digitLoop_more cs size x m b' i with h | h | h | ⟨r, b, k, h1, h2, h3⟩
                  · exact .inl h
                  · exact .inr (.inl h)
                  · exact .inr (.inr (.inl h))
                  · exact .inr (.inr (.inr ⟨r, b, k, h1, h2, fun c hc => List.mem_cons_of_mem _ (h3 c hc)⟩))

theorem skipTrailing_more (cs : Bool) (x : List Byte) : ∀ (m : List Byte), skipTrailing cs m = .ub ∨
    ∃ c r, skipTrailing cs m = .ok (c :: r) ∧ skipTrailing cs (m ++ x) = .ok (c :: r ++ x) ∧ c ∈ m
  | [] => .inl rfl
  | c :: m => by
    rw [List.cons_append, skipTrailing, skipTrailing]
    cases hs : isspace cs c with
    | ub => exact .inl rfl
    | abort => unfold isspace at hs; split at hs <;> cases hs
    | ok b =>
      simp only [Res.ok_bind]
      cases b with
      | true =>
        rw [if_pos rfl, if_pos rfl]
        rcases skipTrailing_more cs x m with h | ⟨c', r, h1, h2, h3⟩
        · exact .inl h
        · exact .inr ⟨c', r, h1, h2, List.mem_cons_of_mem _ h3⟩
      | false => exact .inr ⟨_, _, rfl, rfl, List.mem_cons_self ..⟩

/-- In memory without a NUL nothing is ever decoded: the result is undefined, a failed assertion or a refusal, and in the latter two
cases the same whatever lies behind. -/
theorem fromBase58_no_nul (cs : Bool) (m buf : List Byte) (n : Nat) (h0 : ∀ c ∈ m, c ≠ 0#8) :
    fromBase58 cs m n buf = .ub ∨ (∀ x, fromBase58 cs (m ++ x) n buf = .abort) ∨
      ∀ x, fromBase58 cs (m ++ x) n buf = .ok (buf, 0) := by
  by_cases hub : fromBase58 cs m n buf = .ub
  · exact .inl hub
  refine .inr ?_
  have key : ∀ x, fromBase58 cs (m ++ x) n buf = fromBase58 cs m n buf ∧
      (fromBase58 cs m n buf = .abort ∨ fromBase58 cs m n buf = .ok (buf, 0)) := by
    intro x
    unfold fromBase58 at hub ⊢
    rcases skipSpaces_more cs x m 0 with h | ⟨r, k, h1, h2, h3⟩
    · rw [h] at hub; exact absurd rfl hub
    rw [h1] at hub ⊢
    rw [h2]
    simp only [Res.ok_bind] at hub ⊢
    rcases countOnes_more x r 0 with h | ⟨r', k', h1', h2', h3'⟩
    · rw [h] at hub; exact absurd rfl hub
    rw [h1'] at hub ⊢
    rw [h2']
    simp only [Res.ok_bind] at hub ⊢
    by_cases hz : k' ≥ 2^31
    · rw [if_pos hz] at hub; exact absurd rfl hub
    rw [if_neg hz] at hub ⊢
    rw [if_neg hz]
    cases hw : workSize ((n : Int) - (k : Int) - (k' : Int)) with
    | ub => rw [hw] at hub; exact absurd rfl hub
    | abort => exact ⟨rfl, .inl rfl⟩
    | ok size =>
      rw [hw] at hub
      simp only [Res.ok_bind] at hub ⊢
      rcases digitLoop_more cs size x r' (List.replicate size 0#8) 0 with h | ⟨e1, e2⟩ | ⟨e1, e2⟩ | ⟨q, b, l, e1, e2, e3⟩
      · rw [h] at hub; exact absurd rfl hub
      · rw [e1, e2]; exact ⟨rfl, .inl rfl⟩
      · rw [e1, e2]; exact ⟨rfl, .inr rfl⟩
      · rw [e1] at hub ⊢
        rw [e2]
        simp only [Res.ok_bind] at hub ⊢
        rcases skipTrailing_more cs x q with h | ⟨c, w, f1, f2, f3⟩
        · rw [h] at hub; exact absurd rfl hub
        · rw [f1, f2]
          simp only [Res.ok_bind, List.cons_append, rd, List.getElem?_cons_zero]
          have hc : c ≠ 0#8 := h0 c (h3 c (h3' c (e3 c f3)))
          rw [if_pos hc]
          exact ⟨trivial, .inr rfl⟩
  rcases (key []).2 with h | h
  · exact .inl fun x => by rw [(key x).1, h]
  · exact .inr fun x => by rw [(key x).1, h]

end Base58
