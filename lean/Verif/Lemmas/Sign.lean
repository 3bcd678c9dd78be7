import Verif.Spec.Ecdsa
import Verif.Lemmas.Ecdsa
import Verif.Lemmas.Exkey
import Verif.Props.Der
/-! `fingera_btc_key_sign`. -/
open Key SecpLib Secp256k1 WordSpec Endian

namespace Key

theorem loop_sound (key hash extra : List Byte) : ∀ (fuel c : Nat) (sig : Sig),
    ecdsaSignLoop (beNat key) (beNat hash % n) (rfcInit (key ++ hash ++ extra)) fuel c = some sig →
    ∃ j, c ≤ j ∧ nonceSig key hash extra j = some (sig.r, sig.s) ∧ ∀ i, c ≤ i → i < j → nonceSig key hash extra i = none
  | 0, _, _, h => by cases h
  | fuel+1, c, sig, h => by
    rw [ecdsaSignLoop] at h
    have step : nonceSig key hash extra c = none →
        ecdsaSignLoop (beNat key) (beNat hash % n) (rfcInit (key ++ hash ++ extra)) fuel (c+1) = some sig →
        ∃ j, c ≤ j ∧ nonceSig key hash extra j = some (sig.r, sig.s) ∧
          ∀ i, c ≤ i → i < j → nonceSig key hash extra i = none := by
      intro h0 h1
      obtain ⟨j, h2, h3, h4⟩ := loop_sound key hash extra fuel (c+1) sig h1
      refine ⟨j, by omega, h3, fun i hi hj => ?_⟩
      rcases Nat.lt_or_eq_of_le hi with hlt | heq
      · exact h4 i hlt hj
      · rw [← heq]; exact h0
    rw [nonceSig] at step
    by_cases hk : 0 < beNat (rfcNonce (rfcInit (key ++ hash ++ extra)) c) ∧
        beNat (rfcNonce (rfcInit (key ++ hash ++ extra)) c) < n
    · rw [if_pos hk] at h step
      cases hs : sign (beNat key) (beNat hash % n) (beNat (rfcNonce (rfcInit (key ++ hash ++ extra)) c)) with
      | none => rw [hs] at h; exact step hs h
      | some rs =>
        obtain ⟨r, s⟩ := rs
        rw [hs] at h
        simp only at h
        rw [Option.some.injEq] at h
        subst h
        refine ⟨c, le_refl _, ?_, fun i hi hj => absurd hj (by omega)⟩
        rw [nonceSig]; simp only; rw [if_pos hk, hs]
    · rw [if_neg hk] at h step
      exact step rfl h

theorem loop_complete (key hash extra : List Byte) (r s : Nat) : ∀ (fuel c j : Nat), c ≤ j → j - c < fuel →
    nonceSig key hash extra j = some (r, s) → (∀ i, c ≤ i → i < j → nonceSig key hash extra i = none) →
    ecdsaSignLoop (beNat key) (beNat hash % n) (rfcInit (key ++ hash ++ extra)) fuel c = some ⟨r, s⟩
  | 0, _, _, _, h, _, _ => by omega
  | fuel+1, c, j, hcj, hf, h1, h2 => by
    rw [ecdsaSignLoop]
    by_cases hlt : c < j
    · have hc := h2 c (le_refl _) hlt
      have ih := loop_complete key hash extra r s fuel (c+1) j hlt (by omega) h1 (fun i hi hj => h2 i (by omega) hj)
      rw [nonceSig] at hc
      by_cases hk : 0 < beNat (rfcNonce (rfcInit (key ++ hash ++ extra)) c) ∧
          beNat (rfcNonce (rfcInit (key ++ hash ++ extra)) c) < n
      · rw [if_pos hk] at hc ⊢
        rw [hc]; exact ih
      · rw [if_neg hk]; exact ih
    · have : c = j := by omega
      subst this
      rw [nonceSig] at h1
      by_cases hk : 0 < beNat (rfcNonce (rfcInit (key ++ hash ++ extra)) c) ∧
          beNat (rfcNonce (rfcInit (key ++ hash ++ extra)) c) < n
      · rw [if_pos hk] at h1 ⊢
        rw [h1]
      · rw [if_neg hk] at h1; cases h1

/-- The library's answer as a function of the additional data. -/
theorem ecdsaSign_eq (sf : Nat) (key hash : List Byte) (extra : Option (List Byte)) (hv : ValidKey key)
    (hh : hash.length = 32) (he : ∀ e, extra = some e → e.length = 32) :
    ecdsaSign sf hash key extra = .ok ((ecdsaSignLoop (beNat key) (beNat hash % n)
      (rfcInit (key ++ hash ++ extra.getD [])) sf 0).map (·, true)) := by
  have h1 := get32_left hash [] hh
  have h2 := get32_left key [] hv.1
  rw [List.append_nil] at h1 h2
  rw [ecdsaSign, h1, Res.ok_bind, h2, Res.ok_bind, if_pos ⟨hv.2.1, hv.2.2⟩]
  have : nonceSeed hash key extra = key ++ hash ++ extra.getD [] := by
    rw [nonceSeed, List.take_of_length_le hv.1.le, List.take_of_length_le hh.le]
    cases extra with
    | none => rfl
    | some e =>
      simp only [Option.map_some, Option.getD_some]
      rw [List.take_of_length_le (he e rfl).le]
  rw [this]; rfl

theorem nonceSig_range {key hash extra : List Byte} {j r s : Nat} (h : nonceSig key hash extra j = some (r, s)) :
    0 < r ∧ r < n ∧ 0 < s ∧ s ≤ n / 2 := by
  rw [nonceSig] at h
  split at h
  · exact sign_range h
  · cases h

theorem lowR_iff (r s : Nat) (hr : r < n) : sigHasLowR ⟨r, s⟩ = .ok (decide (r < 2 ^ 255)) := by
  have hr' : r < 256 ^ 32 := lt_trans hr n_lt256
  rw [sigHasLowR, sigSerializeCompact,
    memcpy_ok _ _ _ _ (by simp [beBytes_length]) (by simp), Res.ok_bind]
  have hb := beNat_beBytes_lt 32 r hr'
  have hl := beBytes_length 32 r
  cases hB : beBytes 32 r with
  | nil => rw [hB] at hl; cases hl
  | cons b bs =>
    rw [hB] at hb hl
    have hbs : bs.length = 31 := by simpa using hl
    rw [beNat_cons, hbs] at hb
    have hlt := beNat_lt_pow bs
    rw [hbs] at hlt
    have hrd : ∀ l : List Byte, rd (b :: l) 0 = .ok b := fun l => rfl
    simp only [List.take_zero, List.nil_append, List.cons_append, List.take_succ_cons]
    rw [hrd, Res.ok_bind]
    refine congrArg Res.ok (decide_eq_decide.2 ?_)
    rw [← hb]
    have e1 : (256:Nat) ^ 31 = 2 ^ 248 := by rw [show (256:Nat) = 2 ^ 8 from rfl, ← pow_mul]
    have e2 : (2:Nat) ^ 255 = 128 * 2 ^ 248 := by rw [show (128:Nat) = 2 ^ 7 from rfl, ← pow_add]
    rw [e1] at hlt ⊢
    rw [e2]
    generalize (2:Nat) ^ 248 = X at hlt ⊢
    constructor
    · intro h
      have : b.toNat + 1 ≤ 128 := h
      calc b.toNat * X + beNat bs < (b.toNat + 1) * X := by rw [Nat.add_mul, one_mul]; omega
        _ ≤ 128 * X := Nat.mul_le_mul_right _ this
    · intro h
      by_contra hc
      have := Nat.mul_le_mul_right X (not_lt.1 hc)
      omega

theorem extraData_succ (i : Nat) (e : List Byte) (he : e.length = 32) (hz : e.drop 4 = List.replicate 28 0#8) (host : Host) :
    writeLittle32 host e 0 (BitVec.ofNat 32 i + 1#32) = .ok (extraData (i+1)) := by
  have h := Exkey.writeLittle32_over host [] e 0 (BitVec.ofNat 32 i + 1#32) rfl (by simp; omega)
  rw [over_nil, List.nil_append] at h
  rw [h, over, leBytes_length, hz, extraData, if_neg (by omega)]
  refine congrArg (fun x => Res.ok (x ++ _)) ?_
  rw [leBytes, leBytes]
  apply List.map_congr_left
  intro j hj
  rw [List.mem_range] at hj
  have : (BitVec.ofNat 32 i + 1#32).toNat = (i + 1) % 2 ^ 32 := by simp
  rw [this]
  apply BitVec.eq_of_toNat_eq
  rw [BitVec.toNat_ofNat, BitVec.toNat_ofNat]
  interval_cases j <;> omega

theorem extraData_length (i : Nat) (h : 0 < i) : (extraData i).length = 32 ∧ (extraData i).drop 4 = List.replicate 28 0#8 := by
  rw [extraData, if_neg (by omega)]
  exact ⟨by simp [leBytes_length], List.drop_left' (by rw [leBytes_length])⟩

theorem detSig_unique {key hash extra : List Byte} {r s r' s' : Nat} (h : DetSig key hash extra r s)
    (h' : DetSig key hash extra r' s') : r = r' ∧ s = s' := by
  obtain ⟨j, h1, h2⟩ := h
  obtain ⟨j', h1', h2'⟩ := h'
  have : j = j' := by
    rcases Nat.lt_trichotomy j j' with hlt | heq | hgt
    · rw [h2' j hlt] at h1; cases h1
    · exact heq
    · rw [h2 j' hgt] at h1'; cases h1'
  subst this
  rw [h1, Option.some.injEq, Prod.mk.injEq] at h1'
  exact h1'

theorem loop_det {key hash extra : List Byte} {sf : Nat} {sig : Sig}
    (h : ecdsaSignLoop (beNat key) (beNat hash % n) (rfcInit (key ++ hash ++ extra)) sf 0 = some sig) :
    DetSig key hash extra sig.r sig.s := by
  obtain ⟨j, -, h2, h3⟩ := loop_sound key hash extra sf 0 sig h
  exact ⟨j, h2, fun i hi => h3 i (by omega) hi⟩

theorem detSig_range {key hash extra : List Byte} {r s : Nat} (h : DetSig key hash extra r s) :
    0 < r ∧ r < n ∧ 0 < s ∧ s ≤ n / 2 := by
  obtain ⟨j, h1, -⟩ := h
  exact nonceSig_range h1

theorem grind_sound (host : Host) (sf : Nat) (key hash : List Byte) (hv : ValidKey key) (hh : hash.length = 32) :
    ∀ (fuel i : Nat) (sig : Sig) (e : List Byte), DetSig key hash (extraData i) sig.r sig.s → e.length = 32 →
      e.drop 4 = List.replicate 28 0#8 →
      ∃ x, grind host sf key hash fuel sig true e (BitVec.ofNat 32 i) = .ok x ∧
        ∀ sig' ret, x = some (sig', ret) → ret = true ∧ ∃ m, i ≤ m ∧ DetSig key hash (extraData m) sig'.r sig'.s ∧
          sig'.r < 2 ^ 255 ∧ ∀ j, i ≤ j → j < m → ∃ r s, DetSig key hash (extraData j) r s ∧ 2 ^ 255 ≤ r
  | 0, i, sig, e, _, _, _ => ⟨none, rfl, fun _ _ h => by cases h⟩
  | fuel+1, i, sig, e, hs, he, hz => by
    obtain ⟨r, s⟩ := sig
    have hr := detSig_range hs
    rw [grind, if_pos rfl, lowR_iff r s hr.2.1, Res.ok_bind]
    by_cases hlow : r < 2 ^ 255
    · rw [decide_eq_true hlow]
      refine ⟨_, rfl, fun sig' ret h => ?_⟩
      rw [Option.some.injEq, Prod.mk.injEq] at h
      obtain ⟨h1, h2⟩ := h
      subst h1
      exact ⟨h2.symm, i, le_refl _, hs, hlow, fun j h1 h2 => absurd h2 (by omega)⟩
    · rw [decide_eq_false hlow]
      simp only [Bool.not_false, Bool.and_self, if_true]
      obtain ⟨hel, hez⟩ := extraData_length (i+1) (by omega)
      rw [extraData_succ i e he hz host, Res.ok_bind,
        ecdsaSign_eq sf key hash _ hv hh (fun e' h => by rw [Option.some.injEq] at h; rw [← h]; exact hel), Res.ok_bind,
        Option.getD_some]
      cases hL : ecdsaSignLoop (beNat key) (beNat hash % n) (rfcInit (key ++ hash ++ extraData (i+1))) sf 0 with
      | none => exact ⟨none, rfl, fun _ _ h => by cases h⟩
      | some sig2 =>
        have hd := loop_det hL
        obtain ⟨x, hx, hx2⟩ := grind_sound host sf key hash hv hh fuel (i+1) sig2 (extraData (i+1)) hd hel hez
        refine ⟨x, ?_, fun sig' ret h => ?_⟩
        · rw [← hx, BitVec.ofNat_add]; rfl
        · obtain ⟨h1, m, h2, h3, h4, h5⟩ := hx2 sig' ret h
          refine ⟨h1, m, by omega, h3, h4, fun j hj hm => ?_⟩
          rcases Nat.lt_or_eq_of_le hj with hlt | heq
          · exact h5 j hlt hm
          · subst heq; exact ⟨r, s, hs, not_lt.1 hlow⟩

theorem grind_complete (host : Host) (sf : Nat) (key hash : List Byte) (hv : ValidKey key) (hh : hash.length = 32)
    (m r s : Nat) (hm : DetSig key hash (extraData m) r s) (hr : r < 2 ^ 255)
    (hb : ∀ j < m, ∃ r' s', DetSig key hash (extraData j) r' s' ∧ 2 ^ 255 ≤ r')
    (hsf : ∀ j ≤ m, ∀ r' s', DetSig key hash (extraData j) r' s' →
      ecdsaSignLoop (beNat key) (beNat hash % n) (rfcInit (key ++ hash ++ extraData j)) sf 0 = some ⟨r', s'⟩) :
    ∀ (fuel i : Nat) (sig : Sig) (e : List Byte), i ≤ m → m - i < fuel → DetSig key hash (extraData i) sig.r sig.s →
      e.length = 32 → e.drop 4 = List.replicate 28 0#8 →
      grind host sf key hash fuel sig true e (BitVec.ofNat 32 i) = .ok (some (⟨r, s⟩, true))
  | 0, _, _, _, _, h, _, _, _ => by omega
  | fuel+1, i, sig, e, him, hf, hs, he, hz => by
    obtain ⟨r1, s1⟩ := sig
    have hr1 := detSig_range hs
    rw [grind, if_pos rfl, lowR_iff r1 s1 hr1.2.1, Res.ok_bind]
    rcases Nat.lt_or_eq_of_le him with hlt | heq
    · obtain ⟨r2, s2, h1, h2⟩ := hb i hlt
      obtain ⟨h3, h4⟩ := detSig_unique hs h1
      simp only at h3 h4
      rw [decide_eq_false (by rw [h3]; exact not_lt.2 h2)]
      simp only [Bool.not_false, Bool.and_self, if_true]
      obtain ⟨hel, hez⟩ := extraData_length (i+1) (by omega)
      rw [extraData_succ i e he hz host, Res.ok_bind,
        ecdsaSign_eq sf key hash _ hv hh (fun e' h => by rw [Option.some.injEq] at h; rw [← h]; exact hel), Res.ok_bind,
        Option.getD_some]
      obtain ⟨r3, s3, h5⟩ : ∃ r' s', DetSig key hash (extraData (i+1)) r' s' := by
        rcases Nat.lt_or_eq_of_le (show i + 1 ≤ m from hlt) with h | h
        · obtain ⟨r', s', h', -⟩ := hb _ h
          exact ⟨r', s', h'⟩
        · rw [h]; exact ⟨r, s, hm⟩
      rw [hsf (i+1) hlt r3 s3 h5]
      have ih := grind_complete host sf key hash hv hh m r s hm hr hb hsf fuel (i+1) ⟨r3, s3⟩ (extraData (i+1)) hlt
        (by omega) h5 hel hez
      rw [← ih, BitVec.ofNat_add]; rfl
    · subst heq
      obtain ⟨h3, h4⟩ := detSig_unique hs hm
      simp only at h3 h4
      rw [h3, h4, decide_eq_true hr]; rfl

theorem enough (key hash : List Byte) (m : Nat) : ∃ sf0, ∀ sf, sf0 ≤ sf → ∀ j ≤ m, ∀ r' s',
    DetSig key hash (extraData j) r' s' →
      ecdsaSignLoop (beNat key) (beNat hash % n) (rfcInit (key ++ hash ++ extraData j)) sf 0 = some ⟨r', s'⟩ := by
  have one : ∀ extra, ∃ sf0, ∀ sf, sf0 ≤ sf → ∀ r' s', DetSig key hash extra r' s' →
      ecdsaSignLoop (beNat key) (beNat hash % n) (rfcInit (key ++ hash ++ extra)) sf 0 = some ⟨r', s'⟩ := by
    intro extra
    by_cases h : ∃ r s, DetSig key hash extra r s
    · obtain ⟨r, s, j, h1, h2⟩ := h
      refine ⟨j+1, fun sf hsf r' s' h' => ?_⟩
      obtain ⟨e1, e2⟩ := detSig_unique h' ⟨j, h1, h2⟩
      rw [e1, e2]
      exact loop_complete key hash extra r s sf 0 j (by omega) (by omega) h1 (fun i _ hi => h2 i hi)
    · exact ⟨0, fun _ _ r' s' h' => absurd ⟨r', s', h'⟩ h⟩
  induction m with
  | zero =>
    obtain ⟨a, ha⟩ := one (extraData 0)
    refine ⟨a, fun sf hsf j hj => ?_⟩
    have : j = 0 := by omega
    subst this
    exact ha sf hsf
  | succ m ih =>
    obtain ⟨a, ha⟩ := one (extraData (m+1))
    obtain ⟨b, hb⟩ := ih
    refine ⟨max a b, fun sf hsf j hj => ?_⟩
    rcases Nat.lt_or_eq_of_le hj with h | h
    · exact hb sf (by omega) j (by omega)
    · subst h; exact ha sf (by omega)

theorem keySign_sound (nd : Bool) (host : Host) (sf fuel : Nat) (key hash : List Byte) (hv : ValidKey key)
    (hh : hash.length = 32) :
    ∃ x, keySign nd host sf fuel key hash = .ok x ∧ ∀ sig, x = some sig → LowRSig key hash sig.r sig.s := by
  rw [keySign, ecdsaSign_eq sf key hash none hv hh (fun e h => by cases h), Res.ok_bind, Option.getD_none]
  cases hL : ecdsaSignLoop (beNat key) (beNat hash % n) (rfcInit (key ++ hash ++ [])) sf 0 with
  | none => exact ⟨none, rfl, fun _ h => by cases h⟩
  | some sig =>
    obtain ⟨x, hx, hx2⟩ := grind_sound host sf key hash hv hh fuel 0 sig (List.replicate 32 0#8) (loop_det hL)
      (by simp) (by simp)
    simp only [Option.map_some]
    rw [hx, Res.ok_bind]
    match x with
    | none => exact ⟨none, rfl, fun _ h => by cases h⟩
    | some (sig', ret) =>
      obtain ⟨h1, m, -, h3, h4, h5⟩ := hx2 sig' ret rfl
      subst h1
      simp only []
      rw [Key.assertNd_true, Res.ok_bind]
      refine ⟨_, rfl, fun sig h => ?_⟩
      rw [Option.some.injEq] at h
      subst h
      exact ⟨m, h3, h4, fun j hj => h5 j (by omega) hj⟩

theorem keySign_complete (nd : Bool) (host : Host) (key hash : List Byte) (hv : ValidKey key) (hh : hash.length = 32)
    (r s : Nat) (h : LowRSig key hash r s) :
    ∃ sf0 fuel0, ∀ sf fuel, sf0 ≤ sf → fuel0 ≤ fuel → keySign nd host sf fuel key hash = .ok (some ⟨r, s⟩) := by
  obtain ⟨m, h1, h2, h3⟩ := h
  obtain ⟨sf0, hsf0⟩ := enough key hash m
  refine ⟨sf0, m + 1, fun sf fuel hs hf => ?_⟩
  obtain ⟨r0, s0, h5⟩ : ∃ r' s', DetSig key hash (extraData 0) r' s' := by
    rcases Nat.eq_zero_or_pos m with h | h
    · subst h; exact ⟨r, s, h1⟩
    · obtain ⟨r', s', h', -⟩ := h3 _ h
      exact ⟨r', s', h'⟩
  rw [keySign, ecdsaSign_eq sf key hash none hv hh (fun e h => by cases h), Res.ok_bind, Option.getD_none]
  have := hsf0 sf hs 0 (by omega) r0 s0 h5
  rw [show extraData 0 = [] from rfl] at this
  rw [this]
  simp only [Option.map_some]
  rw [show (0#32) = BitVec.ofNat 32 0 from rfl, grind_complete host sf key hash hv hh m r s h1 h2 h3 (hsf0 sf hs) fuel 0 ⟨r0, s0⟩
    (List.replicate 32 0#8) (by omega) (by omega) h5 (by simp) (by simp), Res.ok_bind]
  simp only []
  rw [Key.assertNd_true]; rfl

end Key
