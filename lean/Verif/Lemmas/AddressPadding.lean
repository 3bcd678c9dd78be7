import Verif.Lemmas.AddressRange
/-! Decoding arbitrary 5-bit groups. -/
namespace Address
open AddressSpec BaseN

theorem flatMap_bits_inj (G G' : List Byte) (h : ∀ g ∈ G, g.toNat < 32) (h' : ∀ g ∈ G', g.toNat < 32)
    (e : (G.flatMap fun g => bitsOf 5 g.toNat) = G'.flatMap fun g => bitsOf 5 g.toNat) : G = G' := by
  induction G generalizing G' with
  | nil => cases G' with
    | nil => rfl
    | cons a b => simp [List.flatMap_cons, bitsOf_5] at e
  | cons g G ih => cases G' with
    | nil => simp [List.flatMap_cons, bitsOf_5] at e
    | cons a b =>
      rw [List.flatMap_cons, List.flatMap_cons] at e
      obtain ⟨e1, e2⟩ := List.append_inj e (by simp [bitsOf_5])
      have := congrArg numOf e1
      rw [numOf_bitsOf 5 _ (h g (by simp)), numOf_bitsOf 5 _ (h' a (by simp))] at this
      rw [BitVec.eq_of_toNat_eq this, ih b (fun x hx => h x (by simp [hx])) (fun x hx => h' x (by simp [hx])) e2]

theorem bits_to_bytes (m : Nat) (L : List Bool) (h : L.length = 8 * m) :
    ∃ P : List Byte, P.length = m ∧ L = P.flatMap fun b => bitsOf 8 b.toNat := by
  induction m generalizing L with
  | zero => exact ⟨[], rfl, by simpa using h⟩
  | succ m ih =>
    obtain ⟨P, hP, e⟩ := ih (L.drop 8) (by rw [List.length_drop]; omega)
    refine ⟨BitVec.ofNat 8 (numOf (L.take 8)) :: P, by simp [hP], ?_⟩
    have hl : (L.take 8).length = 8 := by rw [List.length_take]; omega
    have hlt := numOf_lt (L.take 8)
    rw [hl] at hlt
    rw [List.flatMap_cons, ← e, BitVec.toNat_ofNat, Nat.mod_eq_of_lt hlt]
    have := bitsOf_numOf (L.take 8)
    rw [hl] at this
    rw [this, List.take_append_drop]

theorem map_toNat_flatMap (G : List Byte) :
    ((G.map BitVec.toNat).flatMap fun d => bitsOf 5 d) = G.flatMap fun g => bitsOf 5 g.toNat := by
  rw [List.flatMap_map]

/-- Under the padding rule, groups are the encoding of the bytes they decode to. -/
theorem encodeRaw_bytesOf (G : List Byte) (h : ∀ g ∈ G, g.toNat < 32) (hp : PaddingOk G) :
    Base32Spec.encodeRaw (bytesOf 5 (G.map BitVec.toNat)) = G := by
  obtain ⟨hp1, hp2⟩ := hp
  obtain ⟨L, hL⟩ : ∃ L, L = G.flatMap fun g => bitsOf 5 g.toNat := ⟨_, rfl⟩
  simp only [← hL] at hp1 hp2
  have hLl : L.length = 5 * G.length := by rw [hL, ← map_toNat_flatMap, bitsk_length, List.length_map]
  have hd : L.drop (L.length / 8 * 8) = List.replicate (L.length % 8) false := by
    apply List.eq_replicate_of_mem (l := L.drop (L.length / 8 * 8)) (a := false) hp2 |>.trans
    congr 1
    rw [List.length_drop]; omega
  obtain ⟨P, hPl, hP⟩ := bits_to_bytes (L.length / 8) (L.take (L.length / 8 * 8)) (by rw [List.length_take]; omega)
  have hsplit : L = (P.flatMap fun b => bitsOf 8 b.toNat) ++ List.replicate (L.length % 8) false := by
    rw [← hP, ← hd, List.take_append_drop]
  have hbytes : bytesOf 5 (G.map BitVec.toNat) = P := by
    unfold bytesOf
    rw [map_toNat_flatMap, ← hL, hsplit]
    exact bytes_of_bits P _ (by rw [List.length_replicate]; omega)
  rw [hbytes]
  obtain ⟨f, hf, he⟩ := bits_of_digits 5 (P.flatMap fun b => bitsOf 8 b.toNat) (by omega)
  change ((digitsOf 5 P).flatMap fun d => bitsOf 5 d) = _ at he
  have hlen := congrArg List.length he
  rw [bitsk_length, List.length_append, List.length_replicate, bits_length] at hlen
  have hff : f = L.length % 8 := by omega
  rw [hff, ← hsplit] at he
  apply flatMap_bits_inj _ _ (encodeRaw_lt P) h
  rw [← hL, ← he, Base32Spec.encodeRaw, List.flatMap_map]
  have hmod : ∀ d ∈ digitsOf 5 P, bitsOf 5 ((BitVec.ofNat 8 d : Byte).toNat) = bitsOf 5 d := by
    intro d hd
    have := digitsOf_lt 5 P (by omega) d hd
    rw [BitVec.toNat_ofNat, Nat.mod_eq_of_lt (by omega)]
  generalize digitsOf 5 P = ds at hmod
  induction ds with
  | nil => rfl
  | cons d ds ih =>
    rw [List.flatMap_cons, List.flatMap_cons, hmod d (by simp), ih (fun x hx => hmod x (by simp [hx]))]

theorem decVal_raw : ∀ c : Byte, c.toNat < 32 → Base32.decVal true c = c := by decide +kernel

/-- What `fingera_from_base32_raw` makes of any groups followed by well-behaved memory. -/
theorem fromBase32Raw_any (cs : Bool) (G post out : List Byte) (h : ∀ g ∈ G, g.toNat < 32)
    (hn : NulFirst (G ++ post)) (ho : Base32.decLen G.length ≤ out.length) :
    ∃ P : List Byte, P.length = Base32.decLen G.length ∧
      Base32.fromBase32Raw cs (G ++ post) G.length out = .ok (over P out, P.length) ∧
      (PaddingOk G → Base32Spec.encodeRaw P = G) := by
  have hleg : ∀ c ∈ G, Base32.decVal true c ≠ 0xFF#8 := by
    intro c hc h0
    rw [decVal_raw c (h c hc)] at h0
    have := h c hc
    rw [h0] at this
    simp at this
  refine ⟨Base32.decPure true G, (Base32.decPure_full_iff true G).mpr
    (fun c hc => hleg c (List.mem_of_mem_take hc)), ?_, ?_⟩
  · have e := Base32.fromBase32Impl_eq cs true (G ++ post) out G.length G.length (strlen_nulFirst _ _ hn)
      (by simp) (by
        intro _ b hb
        rw [List.take_left] at hb
        have := h b hb; omega) ho
    rw [List.take_left] at e
    exact e
  · intro hp
    have hlen : G.length % 8 = 0 ∨ G.length % 8 = 2 ∨ G.length % 8 = 4 ∨ G.length % 8 = 5 ∨ G.length % 8 = 7 := by
      have := hp.1
      rw [← map_toNat_flatMap, bitsk_length, List.length_map] at this
      omega
    have hmap : G.map (fun c => (Base32.decVal true c).toNat) = G.map BitVec.toNat :=
      List.map_congr_left (fun c hc => by rw [decVal_raw c (h c hc)])
    rw [Base32.decPure_legal true G hleg hlen, hmap]
    exact encodeRaw_bytesOf G h hp

theorem fromBase32RawLength_eq (n : Nat) : Base32.fromBase32RawLength n = .ok (Base32.decLen n) := by
  unfold Base32.fromBase32RawLength
  rw [Base32.rd_tail _ (Nat.mod_lt _ (by omega))]
  simp only [Res.ok_bind, Res.pure_eq, ← Base32.decLen_eq]

theorem decLen_le (n : Nat) : Base32.decLen n ≤ n * 5 / 8 := by
  have : ∀ t : Fin 8, Base32.decLen t.1 ≤ t.1 * 5 / 8 := by decide
  have h := this ⟨n % 8, Nat.mod_lt _ (by omega)⟩
  rw [Base32.decLen_eq]
  simp only at h
  omega

/-- The witness branch on arbitrary values. -/
theorem decodeWitness_any (cs : Bool) (v : Byte) (G post out : List Byte) (outSize : Nat)
    (h : ∀ g ∈ G, g.toNat < 32) (hn : NulFirst (G ++ post)) (h1 : Base32.decLen G.length + 1 ≤ out.length)
    (h2 : Base32.decLen G.length ≤ outSize) :
    ∃ P : List Byte, P.length = Base32.decLen G.length ∧ (PaddingOk G → Base32Spec.encodeRaw P = G) ∧
    decodeWitness cs (v :: G ++ post) (G.length + 1) out outSize =
    .ok (if v = 0#8 then
        ⟨if P.length = 20 then .witnessV0Keyhash else if P.length = 32 then .witnessV0Scripthash
          else .bad, over P out, P.length⟩
      else ⟨if v.toNat > 16 ∨ P.length + 1 < 3 ∨ P.length + 1 > 41 then .bad else .witnessUnknown,
        over (v :: P) out, P.length + 1⟩) := by
  rw [decodeWitness, Nat.add_sub_cancel, fromBase32RawLength_eq, Res.ok_bind, if_pos h2]
  simp only [List.cons_append, rd, List.getElem?_cons_zero, Res.ok_bind, List.drop_succ_cons, List.drop_zero]
  by_cases hv : v = 0#8
  · obtain ⟨P, hP, e, hcan⟩ := fromBase32Raw_any cs G post out h hn (by omega)
    refine ⟨P, hP, hcan, ?_⟩
    rw [if_pos hv, if_pos hv, e, Res.ok_bind]
    by_cases h20 : P.length = 20
    · simp [h20]
    · by_cases h32 : P.length = 32
      · simp [h32]
      · simp [h20, h32]
  · obtain ⟨o, out, rfl⟩ : ∃ o r, out = o :: r := by
      cases out with
      | nil => simp at h1
      | cons b r => exact ⟨b, r, rfl⟩
    obtain ⟨P, hP, e, hcan⟩ := fromBase32Raw_any cs G post out h hn (by simp at h1; omega)
    refine ⟨P, hP, hcan, ?_⟩
    rw [if_neg hv, if_neg hv, wr, if_pos (by simp), Res.ok_bind]
    simp only [List.set_cons_zero, List.drop_succ_cons, List.drop_zero, List.take_succ_cons, List.take_zero]
    rw [e, Res.ok_bind]
    have : [v] ++ over P out = over (v :: P) (o :: out) := by simp [over]
    simp only [this]
    split <;> rfl

end Address
