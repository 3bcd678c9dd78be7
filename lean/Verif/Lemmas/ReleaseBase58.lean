import Verif.Lemmas.Release
import Verif.Spec.Release
import Verif.Props.Announced
/-! base58 in a release build. -/
namespace Release
open Base58 Base58Spec Positional

/-! ### No assertion fails while encoding -/

theorem noabort_bind {α β : Type} {a : Res α} {f : α → Res β} (ha : a ≠ .abort) (hf : ∀ x, a = .ok x → f x ≠ .abort) :
    (a >>= f) ≠ .abort := by
  cases a with
  | ok x => exact hf x rfl
  | ub => intro h; cases h
  | abort => exact absurd rfl ha

theorem rd_noabort {α : Type} (m : List α) (i : Nat) : rd m i ≠ .abort := by
  unfold rd; split <;> simp
theorem wr_noabort {α : Type} (m : List α) (i : Nat) (b : α) : wr m i b ≠ .abort := by
  unfold wr; split <;> simp
theorem memset_noabort {α : Type} (m : List α) (i : Nat) (b : α) (n : Nat) : memset m i b n ≠ .abort := by
  unfold memset; split <;> simp
theorem memcpy_noabort {α : Type} (m : List α) (i : Nat) (b : List α) (n : Nat) : memcpy m i b n ≠ .abort := by
  unfold memcpy; split <;> simp

theorem forLoop_noabort {σ : Type} {f : Nat → σ → Res σ} (h : ∀ i s, f i s ≠ .abort) (k : Nat) :
    ∀ i s, forLoop f i k s ≠ .abort := by
  induction k with
  | zero => intro i s; simp [forLoop]
  | succ k ih => exact fun i s => noabort_bind (h i s) fun s _ => ih (i + 1) s

theorem encLoop_noabort (buf : List Byte) (size : Nat) (k : Nat) : ∀ (j p : Nat) (b58 : List Byte) (len v : Nat),
    Holds 58 b58 size len v → v < 256 ^ j → 256 ^ (j + k) ≤ 58 ^ size →
    forLoop (encBody true buf size) p k (b58, len) ≠ .abort ∧ forLoop (Base58.encBody buf size) p k (b58, len) ≠ .abort := by
  induction k with
  | zero => intros; simp [forLoop]
  | succ k ih =>
    intro j p b58 len v hh hv hp
    have key : ∀ b : Byte, ∃ b' i, carryLoop 58 256 len size 0 b.toNat b58 = .ok (b', i, 0) ∧ Holds 58 b' size i (256 * v + b.toNat) ∧
        256 * v + b.toNat < 256 ^ (j + 1) := by
      intro b
      have hb := b.isLt
      have h1 : 256 * v + b.toNat < 256 ^ (j + 1) := by rw [Nat.pow_succ]; omega
      have h2 : 256 ^ (j + 1) ≤ 256 ^ (j + (k + 1)) := Nat.pow_le_pow_right (by omega) (by omega)
      obtain ⟨b', i, e, hh'⟩ := carryLoop_holds 58 256 size len v b.toNat b58 (by omega) (by omega) (by decide) hh hb (by omega)
      exact ⟨b', i, e, hh', h1⟩
    constructor
    · rw [forLoop]
      refine noabort_bind ?_ ?_
      · unfold encBody
        refine noabort_bind (rd_noabort _ _) fun b _ => ?_
        obtain ⟨b', i, e, -, -⟩ := key b
        simp only [e]
        intro h; cases h
      · intro s hs
        unfold encBody at hs
        cases hr : rd buf p with
        | ub => rw [hr] at hs; cases hs
        | abort => exact absurd hr (rd_noabort _ _)
        | ok b =>
          obtain ⟨b', i, e, hh', h1⟩ := key b
          rw [hr] at hs
          simp only [Res.ok_bind, e, assertNd, if_true, Res.pure_eq] at hs
          rw [← Res.ok.inj hs]
          exact (ih (j + 1) (p + 1) b' i _ hh' h1 (by rw [show j + 1 + k = j + (k + 1) by omega]; exact hp)).1
    · rw [forLoop]
      refine noabort_bind ?_ ?_
      · unfold Base58.encBody
        refine noabort_bind (rd_noabort _ _) fun b _ => ?_
        obtain ⟨b', i, e, -, -⟩ := key b
        simp only [e]
        intro h; cases h
      · intro s hs
        unfold Base58.encBody at hs
        cases hr : rd buf p with
        | ub => rw [hr] at hs; cases hs
        | abort => exact absurd hr (rd_noabort _ _)
        | ok b =>
          obtain ⟨b', i, e, hh', h1⟩ := key b
          rw [hr] at hs
          simp only [Res.ok_bind, e, assertC, beq_self_eq_true, if_true, Res.pure_eq] at hs
          rw [← Res.ok.inj hs]
          exact (ih (j + 1) (p + 1) b' i _ hh' h1 (by rw [show j + 1 + k = j + (k + 1) by omega]; exact hp)).2

theorem toBase58_noabort (buf : List Byte) (n : Nat) (str : List Byte) : Base58.toBase58 buf n str ≠ .abort := by
  unfold Base58.toBase58
  refine noabort_bind (skipZeroes_noabort _ _ _) fun z _ => ?_
  simp only
  split
  · simp
  · refine noabort_bind (encLoop_noabort _ _ _ 0 _ _ _ _ (holds_init 58 _ (by omega)) (by simp) ?_).2 fun x _ => ?_
    · rw [Nat.zero_add]; exact pow_bound_enc (n - z)
    · refine noabort_bind (skipZeroes_noabort _ _ _) fun it _ => noabort_bind (memset_noabort _ _ _ _) fun s _ =>
        noabort_bind (forLoop_noabort (fun i s => ?_) _ _ _) fun _ _ => by simp
      unfold encOut
      exact noabort_bind (rd_noabort _ _) fun _ _ => noabort_bind (rd_noabort _ _) fun _ _ => wr_noabort _ _ _

theorem toBase58_release (buf : List Byte) (n : Nat) (str : List Byte) : toBase58 true buf n str = Base58.toBase58 buf n str :=
  (toBase58_only buf n str).eq (toBase58_noabort buf n str)

theorem toBase58Check_release (host : Host) (buf : List Byte) (n : Nat) (pre : List Byte) (m : Nat) (str : List Byte) :
    toBase58Check true host buf n pre m str = Base58Check.toBase58Check host buf n pre m str := by
  unfold toBase58Check Base58Check.toBase58Check
  simp only [toBase58_release]

/-! ### Decoding: the number is reduced -/

/-- One digit is absorbed modulo the size of the work area. -/
theorem carryLoop_mod (B m size length v c : Nat) (buf : List Byte) (hB : 2 ≤ B) (hB2 : B ≤ 256)
    (hmB : m * B < 2^31) (h : Holds B buf size length v) (hc : c < m) :
    ∃ buf' i c', carryLoop B m length size 0 c buf = .ok (buf', i, c') ∧ Holds B buf' size i ((m * v + c) % B ^ size) := by
  obtain ⟨b', i', c', e, e1, e2, e3, -, e5, e6⟩ := carryLoop_spec B m length hB hB2 hmB size 0 c buf []
    h.len h.lt (by simpa using h.zero) hc
  simp only [List.append_nil, Nat.sub_zero, Nat.zero_add] at e e5 e6
  rw [h.val] at e3
  refine ⟨b', i', c', e, e1, e2, ?_, e5, e6⟩
  have := num_lt B b' e2
  rw [e1] at this
  rw [← e3, Nat.mul_comm c', Nat.add_mul_mod_self_left, Nat.mod_eq_of_lt this]

/-- The digit loop of a release build. -/
theorem digitLoop_release (cs : Bool) (size : Nat) (t post : List Byte) (b256 : List Byte) (length : Nat)
    (pre : List Nat) (h0 : ∀ b ∈ t, b ≠ 0#8) (h : cs = true → ∀ b ∈ t, b.toNat < 128)
    (hst : Holds 256 b256 size length (value 58 pre % 256 ^ size)) :
    if (t.takeWhile fun c => !isSpace c).all (fun c => (value? c).isSome) then
      ∃ b' len, digitLoop true cs size (t ++ 0#8 :: post) b256 length =
          .ok (some ((t.dropWhile fun c => !isSpace c) ++ 0#8 :: post, b', len)) ∧
        Holds 256 b' size len (value 58 (pre ++ (t.takeWhile fun c => !isSpace c).filterMap value?) % 256 ^ size)
    else digitLoop true cs size (t ++ 0#8 :: post) b256 length = .ok none := by
  induction t generalizing b256 length pre with
  | nil =>
    simp only [List.takeWhile_nil, List.filterMap_nil, List.append_nil, List.all_nil, if_true]
    exact ⟨b256, length, by simp [digitLoop], by simpa using hst⟩
  | cons c t ih =>
    have hc0 := h0 c (by simp)
    have hsp := isspace_eq cs c (fun hc => h hc c (by simp))
    by_cases hs : isSpace c = true
    · simp only [List.takeWhile_cons, hs, Bool.not_true, Bool.false_eq_true, if_false, List.all_nil, if_true,
        List.filterMap_nil, List.append_nil]
      refine ⟨b256, length, ?_, by simpa using hst⟩
      rw [List.cons_append, digitLoop, if_neg hc0, hsp]
      simp [hs]
    · have hloop : digitLoop true cs size (c :: t ++ 0#8 :: post) b256 length = (do
          let v ← rd BASE58_DECODE c.toNat
          if v = -1 then pure none
          else
            let (b256, i, carry) ← carryLoop 256 58 length size 0 v.toNat b256
            assertNd true (carry == 0)
            digitLoop true cs size (t ++ 0#8 :: post) b256 i) := by
        rw [List.cons_append, digitLoop, if_neg hc0, hsp]
        simp only [Res.ok_bind, hs, Bool.false_eq_true, if_false]
      rw [hloop, rd_decode]
      simp only [Res.ok_bind]
      cases hv : value? c with
      | none =>
        simp only [List.takeWhile_cons, hs, hv, Bool.not_false, if_true, Option.isSome_none, Bool.false_eq_true, if_false,
          List.all_cons, Bool.false_and]
        rfl
      | some v =>
        have hvlt := value?_lt c v hv
        have hne : ¬ ((v:Int) = -1) := by omega
        simp only [List.takeWhile_cons, hs, hv, Bool.not_false, if_true, Option.isSome_some, List.all_cons, Bool.true_and]
        rw [if_neg hne]
        simp only [Int.toNat_natCast]
        have hsn : value 58 (pre ++ [v]) = 58 * value 58 pre + v := by rw [value_snoc, Nat.mul_comm]
        obtain ⟨b', i', c', e, hh⟩ := carryLoop_mod 256 58 size length _ v b256 (by omega) (by omega) (by decide) hst hvlt
        have hm : (58 * (value 58 pre % 256 ^ size) + v) % 256 ^ size = value 58 (pre ++ [v]) % 256 ^ size := by
          rw [hsn, Nat.add_mod, Nat.mul_mod, Nat.mod_mod, ← Nat.mul_mod, ← Nat.add_mod]
        rw [hm] at hh
        have ih := ih b' i' (pre ++ [v]) (fun b hb => h0 b (by simp [hb])) (fun hc b hb => h hc b (by simp [hb])) hh
        simp only [e, Res.ok_bind, assertNd, if_true]
        rw [List.dropWhile_cons_of_pos (by simp [hs]), List.filterMap_cons_some hv, List.append_cons pre v (List.filterMap value? _)]
        exact ih

/-- `fingera_from_base58` of a release build, on a NUL-terminated string with any announced length. -/
theorem fromBase58_release (cs : Bool) (s post buf : List Byte) (n size : Nat) (h0 : ∀ b ∈ s, b ≠ 0#8)
    (h : cs = true → ∀ b ∈ s, b.toNat < 128) (hones : ((s.dropWhile isSpace).takeWhile (· = 49#8)).length < 2^31)
    (hw : workSize ((n : Int) - (leading s : Int)) = .ok size) (R : List Byte)
    (hR : R = List.replicate ((s.dropWhile isSpace).takeWhile (· = 49#8)).length 0#8 ++
      (digits 256 (value 58 (((s.dropWhile isSpace).takeWhile fun c => !isSpace c).filterMap value?) % 256 ^ size)).map (BitVec.ofNat 8))
    (hb : R.length ≤ buf.length) :
    fromBase58 true cs (s ++ 0#8 :: post) n buf =
      match decode? s with
      | none => .ok (buf, 0)
      | some _ => .ok (over R buf, R.length) := by
  unfold fromBase58
  rw [skipSpaces_eq cs s post 0 h0 h]
  simp only [Res.ok_bind]
  rw [countOnes_eq]
  simp only [Res.ok_bind, Nat.zero_add]
  unfold leading at hw
  generalize ht : s.dropWhile isSpace = t at hones hw hR ⊢
  have hts : t <:+ s := by rw [← ht]; exact List.dropWhile_suffix _
  generalize ht' : t.dropWhile (· = 49#8) = t'
  have hts' : t' <:+ t := by rw [← ht']; exact List.dropWhile_suffix _
  have hsub : ∀ b ∈ t', b ∈ s := fun b hb => hts.subset (hts'.subset hb)
  rw [if_neg (by omega)]
  rw [show ((n : Int) - ((s.takeWhile isSpace).length : Int) - ((t.takeWhile (· = 49#8)).length : Int)) =
    (n : Int) - (((s.takeWhile isSpace).length + (t.takeWhile (· = 49#8)).length : Nat) : Int) by omega, hw]
  simp only [Res.ok_bind]
  have hd := digitLoop_release cs size t' post (List.replicate size 0#8) 0 [] (fun b hb => h0 b (hsub b hb))
    (fun hc b hb => h hc b (hsub b hb)) (by simpa [value] using holds_init 256 size (by omega))
  rw [List.nil_append] at hd
  obtain ⟨s1, s2, s3⟩ := body_split t
  rw [ht'] at s1 s2
  have hall : (t.takeWhile fun c => !isSpace c).all (fun c => (value? c).isSome) =
      (t'.takeWhile fun c => !isSpace c).all (fun c => (value? c).isSome) := by
    rw [s1, List.all_append]
    have hv : value? 49#8 = some 0 := by decide +kernel
    have : (t.takeWhile (· = 49#8)).all (fun c => (value? c).isSome) = true := by
      rw [List.all_eq_true]
      intro x hx
      rw [all_takeWhile_ones t x hx, hv]; rfl
    rw [this]; simp
  by_cases hok : (t'.takeWhile fun c => !isSpace c).all (fun c => (value? c).isSome) = true
  · rw [if_pos hok] at hd
    obtain ⟨b', len, e, hh⟩ := hd
    rw [e]
    simp only [Res.ok_bind]
    rw [skipTrailing_eq cs _ post (fun hc b hb => h hc b (hsub b ((List.dropWhile_suffix _).subset hb)))]
    simp only [Res.ok_bind]
    generalize hr : (t'.dropWhile fun c => !isSpace c) = r
    have hrs : ∀ b ∈ r, b ≠ 0#8 := by
      intro b hb
      rw [← hr] at hb
      exact h0 b (hsub b ((List.dropWhile_suffix _).subset hb))
    have hall2 := all_space_iff r
    by_cases hrest : r.all isSpace = true
    · rw [hall2.mp hrest, List.nil_append]
      have hdec : decode? s = some (bytes (t.takeWhile fun c => !isSpace c)) := by
        unfold decode?
        rw [ht]
        simp only [s2, hr, hall, hok, hrest, Bool.and_self, if_true]
      rw [hdec]
      rw [s1, value_bytes_ones _ _ (all_takeWhile_ones t)] at hR
      rw [hR] at hb ⊢
      simp only [rd, List.getElem?_cons_zero, Res.ok_bind, ne_eq]
      rw [if_neg (by simp)]
      obtain ⟨it, e1, e2, e3, e4⟩ := skip_holds 256 size len _ b' (by omega) hh
      rw [e1]
      simp only [Res.ok_bind]
      simp only [List.length_append, List.length_replicate, List.length_map] at hb
      rw [memset_zero_over _ _ _ (by omega)]
      simp only [Res.ok_bind]
      have hlen' := hh.len
      have := out_loop (decOut b' (t.takeWhile (· = 49#8)).length it) b' id it (size - it) 0
        (List.replicate (t.takeWhile (· = 49#8)).length 0#8) buf (t.takeWhile (· = 49#8)).length (by simp) (by
          intro i hi o _
          unfold decOut
          rw [rd_ok _ _ hi]
          rfl) (by omega) (by omega)
      rw [Nat.add_zero, List.map_id] at this
      rw [this, e3]
      simp only [Res.ok_bind, List.length_append, List.length_replicate, List.length_map, Res.pure_eq, e4]
    · have hdec : decode? s = none := by
        unfold decode?
        rw [ht]
        simp only [s2, hr, hall, hok, hrest, Bool.and_false, Bool.false_eq_true, if_false]
      rw [hdec]
      have hne : r.dropWhile isSpace ≠ [] := fun h1 => hrest (hall2.mpr h1)
      obtain ⟨x, q, hx⟩ := List.exists_cons_of_ne_nil hne
      have hx0 : x ≠ 0#8 := hrs x ((List.dropWhile_suffix isSpace).subset (by rw [hx]; simp))
      rw [hx]
      simp only [List.cons_append, rd, List.getElem?_cons_zero, Res.ok_bind, ne_eq]
      rw [if_pos (by simpa using hx0)]
      rfl
  · rw [if_neg hok] at hd
    have hdec : decode? s = none := by
      unfold decode?
      rw [ht]
      simp only [hall, hok, Bool.false_and, Bool.false_eq_true, if_false]
    rw [hd, hdec]; rfl

/-! ### `cut` -/
open ReleaseSpec

theorem digits_number (X : List Byte) : (digits 256 (number X)).map (BitVec.ofNat 8) = X.dropWhile (· = 0#8) := by
  have := dropWhile_zero_eq_digits 256 (by omega) (X.map BitVec.toNat) (by
    intro d hd
    obtain ⟨b, -, rfl⟩ := List.mem_map.mp hd
    exact b.isLt)
  rw [number, ← this, List.dropWhile_map, List.map_map]
  have e : ((fun x => decide (x = 0)) ∘ BitVec.toNat : Byte → Bool) = fun x => decide (x = 0#8) := by
    funext b; simp only [Function.comp]; congr 1; exact propext ⟨fun h => BitVec.eq_of_toNat_eq (by simpa using h), fun h => by rw [h]; rfl⟩
  rw [e]
  conv => rhs; rw [← List.map_id (X.dropWhile _)]
  apply List.map_congr_left
  intro b _
  simp

theorem number_mod (X : List Byte) (k : Nat) : number X % 256 ^ k = number (X.drop (X.length - k)) := by
  by_cases hk : k ≤ X.length
  · conv => lhs; rw [← List.take_append_drop (X.length - k) X]
    rw [number, List.map_append, value_append]
    have hl : ((X.drop (X.length - k)).map BitVec.toNat).length = k := by simp; omega
    have := number_lt (X.drop (X.length - k))
    rw [List.length_drop, show X.length - (X.length - k) = k by omega] at this
    rw [hl, Nat.mul_comm, Nat.mul_add_mod]
    exact Nat.mod_eq_of_lt this
  · rw [show X.length - k = 0 by omega, List.drop_zero]
    exact Nat.mod_eq_of_lt (Nat.lt_of_lt_of_le (number_lt X) (Nat.pow_le_pow_right (by omega) (by omega)))

theorem cut_eq (size : Nat) (W : List Byte) :
    cut size W = W.takeWhile (· = 0#8) ++ (digits 256 (number W % 256 ^ size)).map (BitVec.ofNat 8) := by
  unfold cut
  rw [← number_dropZeros, number_mod, digits_number]

theorem cut_length (size : Nat) (W : List Byte) : (cut size W).length ≤ W.length := by
  unfold cut
  conv => rhs; rw [← List.takeWhile_append_dropWhile (p := (· = 0#8)) (l := W)]
  rw [List.length_append, List.length_append]
  have := (List.dropWhile_suffix (· = 0#8) (l := (W.dropWhile (· = 0#8)).drop ((W.dropWhile (· = 0#8)).length - size))).length_le
  rw [List.length_drop] at this
  omega

/-- Nothing is lost exactly if the number fits. -/
theorem cut_self (size : Nat) (W : List Byte) : cut size W = W ↔ significant W ≤ size := by
  rw [cut_eq, ← number_lt_iff]
  conv => lhs; rhs; rw [← List.takeWhile_append_dropWhile (p := (· = 0#8)) (l := W)]
  rw [List.append_cancel_left_eq, ← digits_number]
  constructor
  · intro h
    have : number W % 256 ^ size = number W := by
      have := congrArg number h
      rwa [number_mod, digits_number, digits_number, number_dropZeros, number_dropZeros, ← number_mod] at this
    rw [← this]; exact Nat.mod_lt _ (Nat.pow_pos (by omega))
  · intro h; rw [Nat.mod_eq_of_lt h]

theorem leadZeros (l : List Byte) : (bytes l).takeWhile (· = 0#8) = List.replicate (l.takeWhile (· = 49#8)).length 0#8 := by
  have hz : (bytes l).dropWhile (· = 0#8) = (digits 256 (value 58 (l.filterMap value?))).map (BitVec.ofNat 8) := by
    rw [← digits_number, number_bytes]
  have h := List.takeWhile_append_dropWhile (p := (· = 0#8)) (l := bytes l)
  rw [hz] at h
  conv at h => rhs; unfold bytes
  exact List.append_cancel_right h

theorem decode_zeros (s W : List Byte) (hd : decode? s = some W) :
    W.takeWhile (· = 0#8) = List.replicate ((s.dropWhile isSpace).takeWhile (· = 49#8)).length 0#8 := by
  have hW : W = bytes ((s.dropWhile isSpace).takeWhile fun c => !isSpace c) := by
    unfold decode? at hd
    simp only at hd
    split at hd
    · exact (Option.some.inj hd).symm
    · cases hd
  rw [hW, leadZeros, (body_split _).2.2]

theorem leading_encode (bs : List Byte) : leading (encode bs) = (bs.takeWhile (· = 0#8)).length := by
  have hsp : (encode bs).takeWhile isSpace = [] := by
    cases h : encode bs with
    | nil => rfl
    | cons c r => exact List.takeWhile_cons_of_neg (by rw [(encode58_chars bs c (by rw [h]; simp)).1]; simp)
  have := congrArg List.length (decode_zeros (encode bs) bs (decode_encode58 bs))
  rw [List.length_replicate] at this
  rw [leading, hsp, this, List.length_nil, Nat.zero_add]

/-- What a release build makes of a text that stands for `W`. -/
theorem fromBase58_cut (cs : Bool) (s post buf W : List Byte) (n : Nat) (h0 : ∀ b ∈ s, b ≠ 0#8)
    (h7 : cs = true → ∀ b ∈ s, b.toNat < 128) (hd : decode? s = some W) (hl : leading s ≤ n) (hn : n * 733 < 2 ^ 31)
    (hb : (cut (workArea n (leading s)) W).length ≤ buf.length) :
    fromBase58 true cs (s ++ 0#8 :: post) n buf =
      .ok (over (cut (workArea n (leading s)) W) buf, (cut (workArea n (leading s)) W).length) := by
  have hw : Base58.workSize ((n : Int) - (leading s : Int)) = .ok (workArea n (leading s)) := by
    rw [show (n : Int) - (leading s : Int) = ((n - leading s : Nat) : Int) by omega]
    exact Base58.workSize_eq _ (Nat.lt_of_le_of_lt (Nat.mul_le_mul_right _ (Nat.sub_le _ _)) hn)
  have ho : ((s.dropWhile isSpace).takeWhile (· = 49#8)).length < 2 ^ 31 := by
    unfold leading at hl; omega
  have hW : W = bytes ((s.dropWhile isSpace).takeWhile fun c => !isSpace c) := by
    unfold decode? at hd
    simp only at hd
    split at hd
    · exact (Option.some.inj hd).symm
    · cases hd
  have hz : W.takeWhile (· = 0#8) = List.replicate ((s.dropWhile isSpace).takeWhile (· = 49#8)).length 0#8 := by
    rw [hW, leadZeros, (body_split _).2.2]
  have := fromBase58_release cs s post buf n _ h0 h7 ho hw (cut (workArea n (leading s)) W) (by
    rw [cut_eq, hz, hW, number_bytes]) hb
  rw [this, hd]

end Release
