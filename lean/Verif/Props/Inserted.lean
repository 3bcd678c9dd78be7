import Verif.Lemmas.Bech32Insert
import Verif.Props.Mistyped
/-! C99: a character too many or too few in a Bech32 text. -/
open Address AddressSpec Bech32
open Bech32Spec (Valid lower char isUpper isLower polymod hrpExpand)

namespace Bech32

/-- The last occurrence of a byte cuts a list in one way only. -/
theorem last_unique {c : Byte} {a b a' b' : List Byte} (h : a ++ c :: b = a' ++ c :: b') (hb : ∀ x ∈ b, x ≠ c) (hb' : ∀ x ∈ b', x ≠ c) :
    a = a' ∧ b = b' := by
  induction a generalizing a' with
  | nil =>
    cases a' with
    | nil => simp only [List.nil_append, List.cons.injEq, true_and] at h; exact ⟨rfl, h⟩
    | cons x a' =>
      simp only [List.nil_append, List.cons_append, List.cons.injEq] at h
      exact absurd rfl (hb c (by rw [h.2]; simp))
  | cons y a ih =>
    cases a' with
    | nil =>
      simp only [List.nil_append, List.cons_append, List.cons.injEq] at h
      exact absurd rfl (hb' c (by rw [← h.2]; simp))
    | cons x a' =>
      simp only [List.cons_append, List.cons.injEq] at h
      obtain ⟨h1, h2⟩ := ih h.2
      exact ⟨by rw [h.1, h1], h2⟩

/-- A valid text in lower case, cut before a tail shorter than the checksum. -/
theorem valid_tail {s t H D : List Byte} (hv : Valid (s ++ t) H D) (ht : t.length ≤ 6) :
    ∃ E T : List Byte, (∀ v ∈ E ++ T, v.toNat < 32) ∧ s.map lower = H ++ 49#8 :: E.map char ∧ t.map lower = T.map char ∧
      T.foldl Bech32Spec.step (polymod (hrpExpand H ++ E)) = 1#30 := by
  obtain ⟨S, hS, hlt, hm, hp⟩ := hv.parts
  have hl := congrArg List.length hm
  simp only [List.length_map, List.length_append, List.length_singleton, hS] at hl
  refine ⟨(D ++ S).take (D.length + 6 - t.length), (D ++ S).drop (D.length + 6 - t.length), ?_, ?_, ?_, ?_⟩
  · rw [List.take_append_drop]; exact hlt
  · have := congrArg (List.take s.length) hm
    rw [List.map_append, List.take_left' (by simp)] at this
    rw [this, List.append_assoc, List.take_append, List.map_take]
    rw [List.take_of_length_le (by omega), List.singleton_append, show s.length - H.length = (D.length + 6 - t.length) + 1 by omega,
      List.take_succ_cons]
  · have := congrArg (List.drop s.length) hm
    rw [List.map_append, List.drop_left' (by simp)] at this
    rw [this, List.append_assoc, List.drop_append, List.drop_eq_nil_of_le (by omega), List.nil_append, List.singleton_append,
      show s.length - H.length = (D.length + 6 - t.length) + 1 by omega, List.drop_succ_cons, List.map_drop]
  · rw [polymod, ← List.foldl_append, List.append_assoc, List.take_append_drop, ← List.append_assoc]
    exact hp

/-- A character inserted before the last five or fewer characters of a valid text, or removed there. -/
theorem valid_insert {s t H H' D D' : List Byte} {c : Byte} (h1 : Valid (s ++ t) H D) (h2 : Valid (s ++ [c] ++ t) H' D')
    (ht : t.length ≤ 5) : lower c = chr 'q' ∧ ∃ k, t.map lower = List.replicate k (chr 'q') ++ [chr 'p'] := by
  obtain ⟨E, T, hlt, hs, hT, hp⟩ := valid_tail h1 (by omega)
  rw [List.append_assoc] at h2
  obtain ⟨E', T', hlt', hs', hT', hp'⟩ := valid_tail h2 (by simp; omega)
  have hnc : ∀ E : List Byte, (∀ v ∈ E, v.toNat < 32) → ∀ x ∈ E.map char, x ≠ 49#8 := by
    intro E hE x hx
    obtain ⟨v, hv, rfl⟩ := List.mem_map.mp hx
    exact char_ne_49 v (hE v hv)
  obtain ⟨e1, e2⟩ := last_unique (hs.symm.trans hs') (hnc E fun v hv => hlt v (by simp [hv])) (hnc E' fun v hv => hlt' v (by simp [hv]))
  have e3 := map_char_inj E E' (fun v hv => hlt v (by simp [hv])) (fun v hv => hlt' v (by simp [hv])) e2
  cases T' with
  | nil => simp at hT'
  | cons e T' =>
    simp only [List.singleton_append, List.map_cons, List.cons.injEq] at hT'
    have e4 := map_char_inj T T' (fun v hv => hlt v (by simp [hv])) (fun v hv => hlt' v (by simp [hv])) (hT.symm.trans hT'.2)
    rw [← e4, ← e3, ← e1, List.foldl_cons] at hp'
    have hTl : T.length ≤ 5 := by have := congrArg List.length hT; simp at this; omega
    obtain ⟨r1, k, r2⟩ := Bech32Spec.insert_tail _ e T (hlt' e (by simp)) (fun v hv => hlt v (by simp [hv])) hTl hp hp'
    refine ⟨by rw [hT'.1, r1]; decide, k, ?_⟩
    rw [hT, r2, List.map_append, List.map_replicate]
    rfl

/-- Data and checksum values in one list. -/
theorem valid_values {s H D : List Byte} (hv : Valid s H D) : ∃ E : List Byte, E = D ++ Bech32Spec.checksum H D ∧ (∀ v ∈ E, v.toNat < 32) ∧
    s.map lower = H ++ 49#8 :: E.map char ∧ polymod (hrpExpand H ++ E) = 1#30 := by
  obtain ⟨S, hS, hlt, hm, hp⟩ := hv.parts
  have hSc := (Bech32Spec.checksum_unique (hrpExpand H ++ D) S hS (fun v hv => hlt v (by simp [hv]))).mp hp
  rw [← Bech32Spec.checksum_eq] at hSc
  refine ⟨D ++ S, by rw [hSc], hlt, ?_, ?_⟩
  · rw [hm, List.append_assoc]; rfl
  · rw [← List.append_assoc]; exact hp

theorem valid_of_values {s H : List Byte} (E : List Byte) (hl : s.length ≤ 90) (hr : ∀ c ∈ s, 33 ≤ c.toNat ∧ c.toNat ≤ 126)
    (hc : ¬ ((∃ c ∈ s, isUpper c) ∧ ∃ c ∈ s, isLower c)) (hH : H ≠ []) (h6 : 6 ≤ E.length) (hlt : ∀ v ∈ E, v.toNat < 32)
    (hm : s.map lower = H ++ 49#8 :: E.map char) (hp : polymod (hrpExpand H ++ E) = 1#30) : Valid s H (E.take (E.length - 6)) := by
  refine ⟨hl, hr, hc, hH, E.drop (E.length - 6), by rw [List.length_drop]; omega, ?_, ?_, ?_⟩
  · rw [List.take_append_drop]; exact hlt
  · rw [List.take_append_drop, List.append_assoc]; exact hm
  · rw [List.append_assoc, List.take_append_drop]; exact hp

/-- Values whose characters end with the given tail. -/
theorem values_tail {A H E T : List Byte} (hE : ∀ v ∈ E, v.toNat < 32) (hT : ∀ v ∈ T, v.toNat < 32) (hl : T.length ≤ E.length)
    (h : A ++ T.map char = H ++ 49#8 :: E.map char) :
    ∃ F, E = F ++ T ∧ A = H ++ 49#8 :: F.map char := by
  refine ⟨E.take (E.length - T.length), ?_, ?_⟩
  · have h2 : E = E.take (E.length - T.length) ++ E.drop (E.length - T.length) := (List.take_append_drop _ _).symm
    rw [h2, List.map_append, ← List.cons_append, ← List.append_assoc] at h
    have h3 := (List.append_inj' h (by simp; omega)).2
    have h4 := map_char_inj T _ hT (fun v hv => hE v (List.mem_of_mem_drop hv)) h3
    rw [h4, List.length_drop]
    rw [show E.length - (E.length - (E.length - T.length)) = E.length - T.length by omega, List.take_append_drop]
  · have h2 : E = E.take (E.length - T.length) ++ E.drop (E.length - T.length) := (List.take_append_drop _ _).symm
    rw [h2, List.map_append, ← List.cons_append, ← List.append_assoc] at h
    exact (List.append_inj' h (by simp; omega)).1

theorem lower_q (k : Nat) : (List.replicate k (chr 'q') ++ [chr 'p']).map lower = (List.replicate k 0#8 ++ [1#8]).map char := by
  simp only [List.map_append, List.map_replicate, List.map_cons, List.map_nil]
  rfl

theorem lt_q (k : Nat) : ∀ v ∈ List.replicate k 0#8 ++ [1#8], v.toNat < 32 := by
  intro v hv
  rcases List.mem_append.mp hv with h | h
  · rw [(List.mem_replicate.mp h).2]; decide
  · rw [List.mem_singleton.mp h]; decide

/-- `q`s before a final `p`: inserted. -/
theorem valid_zeros {s H D : List Byte} (k : Nat) (hv : Valid (s ++ [chr 'p']) H D) (hu : ∀ c ∈ s, ¬ isUpper c)
    (hl : s.length + k + 1 ≤ 90) :
    Valid (s ++ List.replicate k (chr 'q') ++ [chr 'p']) H
      (D ++ ((Bech32Spec.checksum H D).dropLast ++ List.replicate k 0#8).take k) := by
  obtain ⟨E, hE, hlt, hm, hp⟩ := valid_values hv
  have hcl := Bech32.checksum_length H D
  have hEl : E.length = D.length + 6 := by rw [hE, List.length_append, hcl]
  rw [List.map_append, show [chr 'p'].map lower = [1#8].map char from by decide] at hm
  obtain ⟨F, hF, hs⟩ := values_tail hlt (T := [1#8]) (by decide) (by simp; omega) hm
  have hFd : F = D ++ (Bech32Spec.checksum H D).dropLast := by
    have h1 : F = E.dropLast := by rw [hF]; simp
    rw [h1, hE, List.dropLast_append_of_ne_nil (by intro h; rw [h] at hcl; simp at hcl)]
  have := valid_of_values (s := s ++ List.replicate k (chr 'q') ++ [chr 'p']) (H := H) (F ++ (List.replicate k 0#8 ++ [1#8]))
    (by simp; omega) ?_ ?_ hv.hrp_ne ?_ ?_ ?_ ?_
  · have hd : (Bech32Spec.checksum H D).dropLast.length = 5 := by rw [List.length_dropLast, hcl]
    rw [hFd] at this
    rw [show (D ++ (Bech32Spec.checksum H D).dropLast ++ (List.replicate k 0#8 ++ [1#8])).length - 6 = D.length + k by
      simp only [List.length_append, hd, List.length_replicate, List.length_singleton]; omega] at this
    rw [List.append_assoc D, List.take_append, List.take_of_length_le (by omega), Nat.add_sub_cancel_left] at this
    rw [← List.append_assoc, List.take_append_of_le_length (by simp [hd])] at this
    exact this
  · intro c hc
    rcases List.mem_append.mp hc with h | h
    · rcases List.mem_append.mp h with h | h
      · exact hv.range c (by simp [h])
      · rw [(List.mem_replicate.mp h).2]; decide
    · rw [List.mem_singleton.mp h]; decide
  · rintro ⟨⟨c, hc, h⟩, -⟩
    rcases List.mem_append.mp hc with h' | h'
    · rcases List.mem_append.mp h' with h' | h'
      · exact hu c h' h
      · rw [(List.mem_replicate.mp h').2] at h; exact absurd h (by decide)
    · rw [List.mem_singleton.mp h'] at h; exact absurd h (by decide)
  · have := congrArg List.length hF; simp at this; simp; omega
  · intro v hv
    rcases List.mem_append.mp hv with h | h
    · exact hlt v (by rw [hF]; simp [h])
    · exact lt_q k v h
  · rw [List.append_assoc, List.map_append, hs, lower_q]
    simp only [List.map_append, List.append_assoc, List.cons_append]
  · rw [polymod, ← List.append_assoc, ← List.append_assoc]
    refine (Bech32Spec.zeros_one (hrpExpand H ++ F) k 1#30).mpr ?_
    rw [List.append_assoc, ← hF]; exact hp

/-- `q`s before a final `p`: removed. -/
theorem valid_zeros_removed {s H D : List Byte} (k : Nat) (hv : Valid (s ++ List.replicate k (chr 'q') ++ [chr 'p']) H D)
    (hk : k ≤ D.length) : Valid (s ++ [chr 'p']) H (D.take (D.length - k)) := by
  obtain ⟨E, hE, hlt, hm, hp⟩ := valid_values hv
  have hcl := Bech32.checksum_length H D
  have hEl : E.length = D.length + 6 := by rw [hE, List.length_append, hcl]
  rw [List.append_assoc, List.map_append, lower_q] at hm
  obtain ⟨F, hF, hs⟩ := values_tail hlt (lt_q k) (by simp; omega) hm
  have hFl : F.length = D.length + 5 - k := by have := congrArg List.length hF; simp at this; omega
  have hsub : ∀ c ∈ s ++ [chr 'p'], c ∈ s ++ List.replicate k (chr 'q') ++ [chr 'p'] := by
    intro c hc
    rcases List.mem_append.mp hc with h | h
    · simp [h]
    · simp [List.mem_singleton.mp h]
  have := valid_of_values (s := s ++ [chr 'p']) (H := H) (F ++ [1#8])
    (by have := hv.length; simp at this; simp; omega) (fun c hc => hv.range c (hsub c hc))
    (fun ⟨⟨c, hc, h⟩, ⟨d, hd, h'⟩⟩ => hv.case ⟨⟨c, hsub c hc, h⟩, ⟨d, hsub d hd, h'⟩⟩) hv.hrp_ne (by simp; omega) ?_ ?_ ?_
  · have h1 : F.take (D.length - k) = D.take (D.length - k) := by
      have h2 : E.take (D.length - k) = D.take (D.length - k) := by rw [hE, List.take_append_of_le_length (by omega)]
      rw [← h2, hF, List.take_append_of_le_length (by omega)]
    rw [List.length_append, List.length_singleton, show F.length + 1 - 6 = D.length - k by omega,
      List.take_append_of_le_length (by omega), h1] at this
    exact this
  · intro v hv
    rcases List.mem_append.mp hv with h | h
    · exact hlt v (by rw [hF]; simp [h])
    · rw [List.mem_singleton.mp h]; decide
  · rw [List.map_append, hs, List.map_append, List.append_assoc]; rfl
  · rw [polymod, ← List.append_assoc]
    refine (Bech32Spec.zeros_one (hrpExpand H ++ F) k 1#30).mp ?_
    rw [List.append_assoc, List.append_assoc, ← hF]; exact hp

end Bech32

namespace Address

/-- The witness branch on arbitrary values, with the bytes they stand for. -/
theorem decodeWitness_pure (cs : Bool) (v : Byte) (G post out : List Byte) (outSize : Nat)
    (h : ∀ g ∈ G, g.toNat < 32) (hn : NulFirst (G ++ post)) (h1 : Base32.decLen G.length + 1 ≤ out.length)
    (h2 : Base32.decLen G.length ≤ outSize) :
    let P := Base32.decPure true G
    P.length = Base32.decLen G.length ∧
    decodeWitness cs (v :: G ++ post) (G.length + 1) out outSize =
    .ok (if v = 0#8 then
        ⟨if P.length = 20 then .witnessV0Keyhash else if P.length = 32 then .witnessV0Scripthash
          else .bad, over P out, P.length⟩
      else ⟨if v.toNat > 16 ∨ P.length + 1 < 3 ∨ P.length + 1 > 41 then .bad else .witnessUnknown,
        over (v :: P) out, P.length + 1⟩) := by
  intro P
  have hleg : ∀ c ∈ G, Base32.decVal true c ≠ 0xFF#8 := by
    intro c hc h0
    rw [decVal_raw c (h c hc)] at h0
    have := h c hc
    rw [h0] at this
    simp at this
  have hP : P.length = Base32.decLen G.length := (Base32.decPure_full_iff true G).mpr (fun c hc => hleg c (List.mem_of_mem_take hc))
  refine ⟨hP, ?_⟩
  have hraw : ∀ out : List Byte, Base32.decLen G.length ≤ out.length →
      Base32.fromBase32Raw cs (G ++ post) G.length out = .ok (over P out, P.length) := by
    intro out ho
    have e := Base32.fromBase32Impl_eq cs true (G ++ post) out G.length G.length (strlen_nulFirst _ _ hn)
      (by simp) (by
        intro _ b hb
        rw [List.take_left] at hb
        have := h b hb; omega) ho
    rw [List.take_left] at e
    exact e
  clear_value P
  rw [decodeWitness, Nat.add_sub_cancel, fromBase32RawLength_eq, Res.ok_bind, if_pos h2]
  simp only [List.cons_append, rd, List.getElem?_cons_zero, Res.ok_bind, List.drop_succ_cons, List.drop_zero]
  by_cases hv : v = 0#8
  · rw [if_pos hv, if_pos hv, hraw out (by omega), Res.ok_bind]
    by_cases h20 : P.length = 20
    · simp [h20]
    · by_cases h32 : P.length = 32
      · simp [h32]
      · simp [h20, h32]
  · obtain ⟨o, out, rfl⟩ : ∃ o r, out = o :: r := by
      cases out with
      | nil => simp at h1
      | cons b r => exact ⟨b, r, rfl⟩
    rw [if_neg hv, if_neg hv, wr, if_pos (by simp), Res.ok_bind]
    simp only [List.set_cons_zero, List.drop_succ_cons, List.drop_zero, List.take_succ_cons, List.take_zero]
    rw [hraw out (by simp at h1; omega), Res.ok_bind]
    have : [v] ++ over P out = over (v :: P) (o :: out) := by simp [over]
    simp only [this]
    split <;> rfl

/-- What the decoder reports for a valid Bech32 text of the network, if it does not take it for a base58 address. -/
theorem addressDecode_valid (net : Network) (host : Host) (cs : Bool) (stack s post out : List Byte) (v : Byte) (G : List Byte) (r : Decoded)
    (hst : stack.length = 128) (hD : Valid s net.hrp (v :: G)) (hn : NulFirst (G ++ stack.drop (G.length + 1)))
    (h : addressDecode host cs stack (s ++ 0#8 :: post) s.length out out.length net.param = .ok r) (hk : r.kind.isWitness) :
    let P := Base32.decPure true G
    P.length = Base32.decLen G.length ∧ ∃ mem,
    r = (if v = 0#8 then
        ⟨if P.length = 20 then .witnessV0Keyhash else if P.length = 32 then .witnessV0Scripthash
          else .bad, over P mem, P.length⟩
      else ⟨if v.toNat > 16 ∨ P.length + 1 < 3 ∨ P.length + 1 > 41 then .bad else .witnessUnknown,
        over (v :: P) mem, P.length + 1⟩) := by
  intro P
  have h0 : ∀ b ∈ s, b ≠ 0#8 := by
    intro b hb he
    have := hD.range b hb
    rw [he] at this
    simp at this
  obtain ⟨p1, p2, p3⟩ := net_pub net
  obtain ⟨q1, q2, q3⟩ := net_script net
  obtain ⟨n1, n2, n4, n5, n6, n7, n8⟩ := net_hrp net
  have hlt := (valid_lower_eq hD).2
  have hsl : s.length = net.hrp.length + (G.length + 1) + 7 := by
    have h2 := congrArg List.length (valid_lower_eq hD).1
    rwa [List.length_map, Bech32.encode_length, List.length_cons] at h2
  have hdl := decLen_le G.length
  have hhrp : 1 ≤ net.hrp.length := List.length_pos_iff.mpr n5
  by_cases hc : Base58Check.fromBase58CheckLength s.length ≤ out.length
  · have hfl := hc
    rw [Base58Check.fromBase58CheckLength, Base58.fromBase58Length] at hfl
    have hbech : ∀ out', out'.length = out.length →
        decodeBech32 cs stack (s ++ 0#8 :: post) s.length out' out.length net.param = .ok r → P.length = Base32.decLen G.length ∧ ∃ mem,
      r = (if v = 0#8 then
        ⟨if P.length = 20 then .witnessV0Keyhash else if P.length = 32 then .witnessV0Scripthash
          else .bad, over P mem, P.length⟩
        else ⟨if v.toNat > 16 ∨ P.length + 1 < 3 ∨ P.length + 1 > 41 then .bad else .witnessUnknown,
        over (v :: P) mem, P.length + 1⟩) := by
      intro out' ho' he
      rw [decodeBech32_valid hD cs stack post out' out.length net.param hst (by simp) (by omega) n1, n2, if_pos rfl] at he
      have hov : over (v :: G) stack = v :: G ++ stack.drop (G.length + 1) := rfl
      obtain ⟨e1, e2⟩ := decodeWitness_pure cs v G (stack.drop (G.length + 1)) out' out.length
          (fun g hg => hlt g (by simp [hg])) hn (by omega) (by omega)
      rw [hov, List.length_cons, e2] at he
      exact ⟨e1, out', (Res.ok.inj he).symm⟩
    by_cases hr : Base58Spec.Readable cs s ∧ ∀ W, Base58Spec.decode? s = some W → W.length ≤ out.length
    · rw [addressDecode_eq host cs stack s post out out.length net.param h0 hr.1 hc hr.2 p1 q1] at h
      have hW : ∀ cp, Base58CheckSpec.decode? s = some cp → (over (cp ++ Base58CheckSpec.checksum cp) out).length = out.length := by
        intro cp hd
        rw [Base58CheckSpec.decode?] at hd
        cases hb : Base58Spec.decode? s with
        | none => rw [hb] at hd; simp at hd
        | some W =>
          rw [hb, Option.bind_some] at hd
          have := Base58Check.check?_some hd
          rw [← this]
          exact over_length _ _ (hr.2 W hb)
      split at h
      · rename_i c p hcp
        simp only at h
        split at h
        · rw [← Res.ok.inj h] at hk
          rcases hk with hk | hk | hk <;> cases hk
        · split at h
          · rw [← Res.ok.inj h] at hk
            rcases hk with hk | hk | hk <;> cases hk
          · exact hbech _ (hW _ hcp) h
      · refine hbech _ ?_ h
        cases hb : Base58Spec.decode? s with
        | none => simp [over]
        | some W => exact over_length _ _ (hr.2 W hb)
    · rw [addressDecode_ub net host cs stack s post out h0 hc hr] at h
      cases h
  · rw [addressDecode, if_pos (by omega)] at h
    rw [← Res.ok.inj h] at hk
    rcases hk with hk | hk | hk <;> cases hk

/-- Complete groups of eight are decoded on their own. -/
theorem decPure_append (A B : List Byte) (h : ∀ g ∈ A, g.toNat < 32) (n : Nat) (hA : A.length = 8 * n) :
    Base32.decPure true (A ++ B) = Base32.decPure true A ++ Base32.decPure true B := by
  induction n generalizing A with
  | zero => rw [List.length_eq_zero_iff.mp hA]; rfl
  | succ n ih =>
    have hsp : A = A.take 8 ++ A.drop 8 := (List.take_append_drop _ _).symm
    have hl : (A.take 8).length = 8 := by rw [List.length_take]; omega
    have hno : ¬ ∃ c ∈ A.take 8, Base32.decVal true c = 0xFF#8 := by
      rintro ⟨c, hc, h0⟩
      have := h c (List.mem_of_mem_take hc)
      rw [decVal_raw c this] at h0
      rw [h0] at this
      simp at this
    have e1 := Base32.decPure_cons8 true (A.take 8) (A.drop 8 ++ B) hl
    have e2 := Base32.decPure_cons8 true (A.take 8) (A.drop 8) hl
    rw [if_neg hno] at e1 e2
    rw [← List.append_assoc, ← hsp] at e1
    rw [← hsp] at e2
    rw [e1, e2, ih (A.drop 8) (fun g hg => h g (List.mem_of_mem_drop hg)) (by rw [List.length_drop]; omega), List.append_assoc]

end Address

/-- C99, the part that holds: insert a character before the last five or fewer characters of a text `fingera_bech32_decode` accepts (or, read
the other way, remove one there). If it accepts both texts the character is a `q` and what follows it is some `q`s and a final `p`. In
particular a character appended at the end is always noticed.
Missing: that case, see below, and insertions further to the left. -/
theorem C99_last_characters_partial (s t post1 post2 hrp1 hrp2 b1 b2 : List Byte) (c : Byte) (cap1 cap2 : Nat) (r1 r2 : DecodeResult)
    (ht : t.length ≤ 5) (hz1 : 0#8 ∈ post1) (hz2 : 0#8 ∈ post2) (hc1 : cap1 ≤ hrp1.length) (hc2 : cap2 ≤ hrp2.length)
    (hb1 : (s ++ t).length - 8 ≤ b1.length) (hb2 : (s ++ [c] ++ t).length - 8 ≤ b2.length)
    (h1 : decode ((s ++ t) ++ post1) (s ++ t).length hrp1 cap1 b1 = .ok r1)
    (h2 : decode ((s ++ [c] ++ t) ++ post2) (s ++ [c] ++ t).length hrp2 cap2 b2 = .ok r2)
    (hr1 : 0 ≤ r1.ret) (hr2 : 0 ≤ r2.ret) :
    lower c = chr 'q' ∧ ∃ k, t.map lower = List.replicate k (chr 'q') ++ [chr 'p'] := by
  obtain ⟨H1, D1, v1, -, -⟩ := C35_bech32_sound (s ++ t) post1 hrp1 b1 cap1 r1 hz1 hc1 hb1 h1 hr1
  obtain ⟨H2, D2, v2, -, -⟩ := C35_bech32_sound (s ++ [c] ++ t) post2 hrp2 b2 cap2 r2 hz2 hc2 hb2 h2 hr2
  exact valid_insert v1 v2 ht

/-- C99 is violated by Bech32 itself: any number of `q`s before a final `p` goes unnoticed. The data get longer by the same number of
values: the first of the checksum, then zeros. -/
theorem C99_violated_inserted (s post hrp b32 H D : List Byte) (cap k : Nat) (hv : Valid (s ++ [chr 'p']) H D)
    (hu : ∀ c ∈ s, ¬ isUpper c) (hl : s.length + k + 1 ≤ 90) (hcap : cap ≤ hrp.length) (hH : H.length ≤ cap) (hb : D.length + k ≤ b32.length) :
    decode ((s ++ List.replicate k (chr 'q') ++ [chr 'p']) ++ 0#8 :: post) (s.length + k + 1) hrp cap b32 =
      .ok ⟨(D.length + k : Nat), over H hrp, H.length,
        over (D ++ ((Bech32Spec.checksum H D).dropLast ++ List.replicate k 0#8).take k) b32⟩ := by
  have hlen : (D ++ ((Bech32Spec.checksum H D).dropLast ++ List.replicate k 0#8).take k).length = D.length + k := by
    simp only [List.length_append, List.length_take, List.length_replicate]; omega
  have := decode_of_valid (valid_zeros k hv hu hl) post hrp cap b32 hcap hH (by omega)
  rw [hlen] at this
  rw [← this]
  congr 1
  simp; omega

/-- C99 is violated in the same way by `q`s that are left out. -/
theorem C99_violated_removed (s post hrp b32 H D : List Byte) (cap k : Nat)
    (hv : Valid (s ++ List.replicate k (chr 'q') ++ [chr 'p']) H D) (hk : k ≤ D.length)
    (hcap : cap ≤ hrp.length) (hH : H.length ≤ cap) (hb : D.length - k ≤ b32.length) :
    decode ((s ++ [chr 'p']) ++ 0#8 :: post) (s.length + 1) hrp cap b32 =
      .ok ⟨(D.length - k : Nat), over H hrp, H.length, over (D.take (D.length - k)) b32⟩ := by
  have hlen : (D.take (D.length - k)).length = D.length - k := by rw [List.length_take]; omega
  have := decode_of_valid (valid_zeros_removed k hv hk) post hrp cap b32 hcap hH (by omega)
  rw [hlen] at this
  rw [← this]
  congr 1
  simp

/-- C99, addresses, the part that holds: a character inserted before the last five or fewer characters of a witness address, or removed
there, and the text is not reported as a witness address, unless it is a `q` of those before a final `p`.
Missing: that case, and insertions further to the left. -/
theorem C99_address_partial (net : Network) (host : Host) (cs : Bool) (stack a t post out : List Byte) (c v : Byte) (prog : List Byte)
    (r : Decoded) (hv : v.toNat ≤ 16) (h40 : prog.length ≤ 40) (ht : t.length ≤ 5) (hst : stack.length = 128)
    (hno : ¬ (lower c = chr 'q' ∧ ∃ k, t.map lower = List.replicate k (chr 'q') ++ [chr 'p'])) :
    (witness net.hrp v prog = a ++ t → (∀ b ∈ a ++ [c] ++ t, b ≠ 0#8) →
      addressDecode host cs stack ((a ++ [c] ++ t) ++ 0#8 :: post) (a ++ [c] ++ t).length out out.length net.param = .ok r →
      ¬ r.kind.isWitness) ∧
    (witness net.hrp v prog = a ++ [c] ++ t →
      addressDecode host cs stack ((a ++ t) ++ 0#8 :: post) (a ++ t).length out out.length net.param = .ok r → ¬ r.kind.isWitness) := by
  have hW := witness_valid net v prog hv h40
  constructor
  · intro hw h0 h hk
    obtain ⟨D, hD⟩ := witness_kind_valid net host cs stack _ post out r h0 hst h hk
    rw [hw] at hW
    exact hno (valid_insert hW hD ht)
  · intro hw h hk
    have h0 : ∀ b ∈ a ++ t, b ≠ 0#8 := by
      intro b hb he
      have := hW.range b (by
        rw [hw]
        rcases List.mem_append.mp hb with h | h
        · simp [h]
        · simp [h])
      rw [he] at this
      simp at this
    obtain ⟨D, hD⟩ := witness_kind_valid net host cs stack _ post out r h0 hst h hk
    rw [hw] at hW
    exact hno (valid_insert hD hW ht)

/-- Witness addresses are written in lower case. -/
theorem AddressSpec.witness_lower (net : Network) (v : Byte) (prog : List Byte) (hv : v.toNat ≤ 16) :
    ∀ c ∈ witness net.hrp v prog, ¬ isUpper c := by
  intro c hc
  rw [witness, Bech32Spec.encode] at hc
  rcases List.mem_append.mp hc with h | h
  · rcases List.mem_append.mp h with h | h
    · exact (net_hrp net).2.2.2.2.2.2 c h
    · rw [List.mem_singleton.mp h]; decide
  · obtain ⟨x, hx, rfl⟩ := List.mem_map.mp h
    refine (char_lower x ?_).2.1
    rcases List.mem_append.mp hx with h | h
    · rcases List.mem_cons.mp h with h | h
      · rw [h]; omega
      · exact encodeRaw_lt prog x h
    · exact checksum_lt _ _ x h

theorem Base32.decPure_encodeRaw (prog : List Byte) : Base32.decPure true (Base32Spec.encodeRaw prog) = prog := by
  have he : Base32Spec.encodeRaw prog = Base32.encText true prog := by
    simp [Base32Spec.encodeRaw, Base32.encText, Base32.encChar]
  rw [he, Base32.decPure_encText]

theorem Base32.decLen_20 : ∀ k : Fin 20, k.1 ≠ 0 → Base32.decLen (32 + k.1) ≠ 32 ∧ Base32.decLen (52 + k.1) ≠ 20 ∧
    Base32.decLen (52 + k.1) ≠ 32 ∧ (Base32.decLen (32 + k.1) = 20 → k.1 < 8 ∧ Base32.decLen k.1 = 0) := by decide

theorem Base32.decLen_13 : ∀ k : Fin 14, k.1 ≠ 0 → Base32.decLen (32 - k.1) ≠ 32 ∧ Base32.decLen (32 - k.1) ≠ 20 ∧
    Base32.decLen (52 - k.1) ≠ 20 ∧ Base32.decLen (52 - k.1) ≠ 32 := by decide

/-- C99, version 0: up to 19 `q`s inserted before the final `p` (or up to 13 removed). If the text is reported as a witness address at all,
it is the same key hash. (The stack as in C39.) -/
theorem C99_version_0 (net : Network) (host : Host) (cs : Bool) (stack a post out prog : List Byte) (k : Nat) (r : Decoded)
    (hp : prog.length = 20 ∨ prog.length = 32) (hst : stack.length = 128) (hk : 1 ≤ k) :
    (witness net.hrp 0#8 prog = a ++ [chr 'p'] → k ≤ 19 →
      (∀ D, Valid (a ++ List.replicate k (chr 'q') ++ [chr 'p']) net.hrp D → NulFirst (D.tail ++ stack.drop D.length)) →
      addressDecode host cs stack ((a ++ List.replicate k (chr 'q') ++ [chr 'p']) ++ 0#8 :: post)
        (a ++ List.replicate k (chr 'q') ++ [chr 'p']).length out out.length net.param = .ok r → r.kind.isWitness →
      prog.length = 20 ∧ r.kind = .witnessV0Keyhash ∧ r.out.take r.outSize = prog) ∧
    (witness net.hrp 0#8 prog = a ++ List.replicate k (chr 'q') ++ [chr 'p'] → k ≤ 13 →
      (∀ D, Valid (a ++ [chr 'p']) net.hrp D → NulFirst (D.tail ++ stack.drop D.length)) →
      addressDecode host cs stack ((a ++ [chr 'p']) ++ 0#8 :: post) (a ++ [chr 'p']).length out out.length net.param = .ok r →
      ¬ r.kind.isWitness) := by
  have hW := witness_valid net 0#8 prog (by decide) (by omega)
  have hgl := encodeRaw_length prog
  obtain ⟨n1, n2, n4, n5, n6, n7, n8⟩ := net_hrp net
  constructor
  · intro hw h19 hn h hkind
    have hwl := C41_witness_length net 0#8 prog
    have hlow : ∀ c ∈ a, ¬ isUpper c := fun c hc => witness_lower net 0#8 prog (by decide) c (by rw [hw]; simp [hc])
    rw [hw] at hW hwl
    have hal : a.length + 1 = net.hrp.length + 1 + (1 + (8 * prog.length + 4) / 5) + 6 := by simpa using hwl
    have hV := valid_zeros k hW hlow (by omega)
    rw [List.cons_append] at hV
    have hnl := hn _ hV
    rw [List.tail_cons, List.length_cons] at hnl
    obtain ⟨hPl, mem, hr⟩ := addressDecode_valid net host cs stack _ post out 0#8 _ r hst hV hnl h hkind
    have hXl : (((Bech32Spec.checksum net.hrp (0#8 :: Base32Spec.encodeRaw prog)).dropLast ++ List.replicate k 0#8).take k).length = k := by
      simp only [List.length_append, List.length_take, List.length_replicate]; omega
    generalize ((Bech32Spec.checksum net.hrp (0#8 :: Base32Spec.encodeRaw prog)).dropLast ++ List.replicate k 0#8).take k = X at *
    rw [if_pos rfl] at hr
    rw [List.length_append, hXl, hgl] at hPl
    have hd := Base32.decLen_20 ⟨k, by omega⟩ (by simp only; omega)
    simp only at hd
    rcases hp with hp | hp
    · rw [hp] at hPl
      have h20 : Base32.decLen (32 + k) = 20 := by
        by_cases h20 : Base32.decLen (32 + k) = 20
        · exact h20
        · rw [if_neg (by rw [hPl]; exact h20), if_neg (by rw [hPl]; exact hd.1)] at hr
          rw [hr] at hkind
          rcases hkind with h | h | h <;> cases h
      have hP : Base32.decPure true (Base32Spec.encodeRaw prog ++ X) = prog := by
        rw [decPure_append _ _ (encodeRaw_lt prog) 4 (by rw [hgl, hp]), Base32.decPure_encodeRaw]
        have hx : Base32.decPure true X = [] := by
          apply List.length_eq_zero_iff.mp
          have := Base32.decPure_length_le true X
          rw [hXl, (hd.2.2.2 h20).2] at this
          omega
        rw [hx, List.append_nil]
      rw [hr, hP]
      refine ⟨hp, by simp [hp], ?_⟩
      simp [over]
    · rw [hp] at hPl
      rw [if_neg (by rw [hPl]; exact hd.2.1), if_neg (by rw [hPl]; exact hd.2.2.1)] at hr
      rw [hr] at hkind
      rcases hkind with h | h | h <;> cases h
  · intro hw h13 hn h hkind
    rw [hw] at hW
    have hV := valid_zeros_removed k hW (by rw [List.length_cons]; omega)
    rw [List.length_cons, show (Base32Spec.encodeRaw prog).length + 1 - k = ((Base32Spec.encodeRaw prog).length - k) + 1 by omega,
      List.take_succ_cons] at hV
    have hnl := hn _ hV
    rw [List.tail_cons, List.length_cons] at hnl
    obtain ⟨hPl, mem, hr⟩ := addressDecode_valid net host cs stack _ post out 0#8 _ r hst hV hnl h hkind
    rw [if_pos rfl] at hr
    generalize Base32.decPure true ((Base32Spec.encodeRaw prog).take ((Base32Spec.encodeRaw prog).length - k)) = P at hPl hr
    rw [List.length_take, Nat.min_eq_left (by omega), hgl] at hPl
    have hd := Base32.decLen_13 ⟨k, by omega⟩ (by simp only; omega)
    simp only at hd
    rcases hp with hp | hp
    · rw [hp] at hPl
      rw [if_neg (by rw [hPl]; exact hd.2.1), if_neg (by rw [hPl]; exact hd.1)] at hr
      rw [hr] at hkind
      rcases hkind with h | h | h <;> cases h
    · rw [hp] at hPl
      rw [if_neg (by rw [hPl]; exact hd.2.2.1), if_neg (by rw [hPl]; exact hd.2.2.2)] at hr
      rw [hr] at hkind
      rcases hkind with h | h | h <;> cases h

theorem BaseN.bytes_of_more_bits (bs : List Byte) (f : List Bool) :
    ((BaseN.chunksOf 8 ((bs.flatMap fun b => BaseN.bitsOf 8 b.toNat) ++ f)).filter fun g => g.length = 8).map
      (fun g => BitVec.ofNat 8 (BaseN.numOf g)) =
    bs ++ ((BaseN.chunksOf 8 f).filter fun g => g.length = 8).map (fun g => BitVec.ofNat 8 (BaseN.numOf g)) := by
  induction bs with
  | nil => simp
  | cons b bs ih =>
    rw [List.flatMap_cons, List.append_assoc, BaseN.chunksOf_append_one 8 _ _ (by omega) (by simp)]
    simp only [List.filter_cons, BaseN.bitsOf_length, decide_true, if_true, List.map_cons, ih]
    rw [BaseN.numOf_bitsOf 8 _ b.isLt]
    simp

/-- Groups that begin with those of `prog` stand for bytes that begin with `prog`. -/
theorem Base32.decPure_more (prog X : List Byte) (hX : ∀ g ∈ X, g.toNat < 32)
    (h5 : 5 * (Base32Spec.encodeRaw prog ++ X).length % 8 < 5) : prog <+: Base32.decPure true (Base32Spec.encodeRaw prog ++ X) := by
  have hlt : ∀ g ∈ Base32Spec.encodeRaw prog ++ X, g.toNat < 32 := by
    intro g hg
    rcases List.mem_append.mp hg with h | h
    · exact encodeRaw_lt prog g h
    · exact hX g h
  have hleg : ∀ c ∈ Base32Spec.encodeRaw prog ++ X, Base32.decVal true c ≠ 0xFF#8 := by
    intro c hc h0
    rw [decVal_raw c (hlt c hc)] at h0
    have := hlt c hc
    rw [h0] at this
    simp at this
  have hmod : ∀ t : Fin 8, 5 * t.1 % 8 < 5 → t.1 = 0 ∨ t.1 = 2 ∨ t.1 = 4 ∨ t.1 = 5 ∨ t.1 = 7 := by decide
  rw [Base32.decPure_legal true _ hleg (hmod ⟨_, Nat.mod_lt _ (by omega)⟩ (by simp only; rw [Nat.mul_mod_mod]; exact h5))]
  rw [List.map_congr_left (fun c hc => by rw [decVal_raw c (hlt c hc)] : ∀ c ∈ Base32Spec.encodeRaw prog ++ X,
    (Base32.decVal true c).toNat = c.toNat)]
  obtain ⟨f, hf, he⟩ := BaseN.bits_of_digits 5 (prog.flatMap fun b => BaseN.bitsOf 8 b.toNat) (by omega)
  change ((BaseN.digitsOf 5 prog).flatMap fun d => BaseN.bitsOf 5 d) = _ at he
  unfold BaseN.bytesOf
  rw [List.map_append, List.flatMap_append]
  have h1 : (Base32Spec.encodeRaw prog).map (fun c => BitVec.toNat c) = BaseN.digitsOf 5 prog := by
    rw [Base32Spec.encodeRaw, List.map_map]
    conv => rhs; rw [← List.map_id (BaseN.digitsOf 5 prog)]
    apply List.map_congr_left
    intro d hd
    have := BaseN.digitsOf_lt 5 prog (by omega) d hd
    simp only [Function.comp, BitVec.toNat_ofNat, id]
    omega
  rw [h1, he, List.append_assoc, BaseN.bytes_of_more_bits]
  exact List.prefix_append _ _

/-- C99 is violated by the later versions: with `k` `q`s before the final `p` of an address of version 1..16 the decoder reports an address
with another program, the old one with more bytes behind it: the `5 * n / 8` bytes of `n` groups (if the remaining bits are fewer than five,
and if the text is not by accident a base58 text with a right checksum; the stack as in C39). -/
theorem C99_violated_address (net : Network) (host : Host) (cs : Bool) (stack a post out prog : List Byte) (v : Byte) (k n : Nat)
    (hv : 1 ≤ v.toNat ∧ v.toNat ≤ 16) (hk : 1 ≤ k) (hp : 2 ≤ prog.length) (hst : stack.length = 128)
    (hw : witness net.hrp v prog = a ++ [chr 'p'])
    (hn : n = (8 * prog.length + 4) / 5 + k) (h5 : 5 * n % 8 < 5) (h40 : 5 * n / 8 ≤ 40)
    (hbase : Base58CheckSpec.decode? (a ++ List.replicate k (chr 'q') ++ [chr 'p']) = none)
    (hnul : ∀ D, Valid (a ++ List.replicate k (chr 'q') ++ [chr 'p']) net.hrp D → NulFirst (D.tail ++ stack.drop D.length))
    (ho : Base58Check.fromBase58CheckLength (a.length + k + 1) ≤ out.length) :
    ∃ mem, addressDecode host cs stack ((a ++ List.replicate k (chr 'q') ++ [chr 'p']) ++ 0#8 :: post) (a.length + k + 1) out out.length
        net.param = .ok ⟨.witnessUnknown, mem, 5 * n / 8 + 1⟩ ∧
      prog.length < 5 * n / 8 ∧ mem.take (prog.length + 1) = v :: prog := by
  obtain ⟨p1, p2, p3⟩ := net_pub net
  obtain ⟨q1, q2, q3⟩ := net_script net
  obtain ⟨n1, n2, n4, n5, n6, n7, n8⟩ := net_hrp net
  have hgl := encodeRaw_length prog
  have hW := witness_valid net v prog hv.2 (by omega)
  have hwl := C41_witness_length net v prog
  have hlow : ∀ c ∈ a, ¬ isUpper c := fun c hc => witness_lower net v prog hv.2 c (by rw [hw]; simp [hc])
  have hhead : net.hrp <+: witness net.hrp v prog := by
    rw [witness, Bech32Spec.encode, List.append_assoc]; exact List.prefix_append _ _
  rw [hw] at hW hwl hhead
  have hal : a.length + 1 = net.hrp.length + 1 + (1 + (8 * prog.length + 4) / 5) + 6 := by simpa using hwl
  have hV := valid_zeros k hW hlow (by omega)
  rw [List.cons_append] at hV
  have hnl := hnul _ hV
  rw [List.tail_cons, List.length_cons] at hnl
  have hXlt : ∀ g ∈ ((Bech32Spec.checksum net.hrp (v :: Base32Spec.encodeRaw prog)).dropLast ++ List.replicate k 0#8).take k, g.toNat < 32 :=
    fun g hg => (valid_lower_eq hV).2 g (by simp only [List.mem_cons, List.mem_append]; exact .inr (.inr hg))
  have hXl : (((Bech32Spec.checksum net.hrp (v :: Base32Spec.encodeRaw prog)).dropLast ++ List.replicate k 0#8).take k).length = k := by
    simp only [List.length_append, List.length_take, List.length_replicate]; omega
  generalize ((Bech32Spec.checksum net.hrp (v :: Base32Spec.encodeRaw prog)).dropLast ++ List.replicate k 0#8).take k = X at *
  have hlen : (a ++ List.replicate k (chr 'q') ++ [chr 'p']).length = a.length + k + 1 := by simp; omega
  generalize hs : a ++ List.replicate k (chr 'q') ++ [chr 'p'] = s at *
  have h0 : ∀ b ∈ s, b ≠ 0#8 := by
    intro b hb he
    have := hV.range b hb
    rw [he] at this
    simp at this
  have hones : leadingOnes s = 0 := by
    have hm := (valid_lower_eq hV).1
    rw [Bech32Spec.encode, List.append_assoc] at hm
    cases hs' : s with
    | nil => rw [hs'] at hlen; simp at hlen
    | cons c rest =>
      rw [hs'] at hm
      cases hh : net.hrp with
      | nil => exact absurd hh n5
      | cons x xs =>
        rw [hh, List.map_cons, List.cons_append, List.cons.injEq] at hm
        have hc1 : c ≠ 49#8 := by
          intro hc
          rw [hc, show lower 49#8 = 49#8 from by decide] at hm
          exact n6 (by rw [hh, ← hm.1]; rfl)
        have hsp : Base58Spec.isSpace c = false := by
          have := (hV.range c (by rw [hs']; simp)).1
          generalize c = c at this
          revert c
          decide +kernel
        simp [leadingOnes, hsp, hc1]
  have hread := Base58Check.readable_of cs s (fun _ b hb => by have := (hV.range b hb).2; omega) (by omega)
  have hfit : ∀ W, Base58Spec.decode? s = some W → W.length ≤ out.length := fun W hW =>
    Nat.le_trans (fits_of_leadingOnes s W (by omega) hW) (by rw [hlen]; exact ho)
  have h := addressDecode_eq host cs stack s post out out.length net.param h0 hread (by rw [hlen]; exact ho) hfit p1 q1
  rw [hbase] at h
  simp only at h
  have hout : (over ((Base58Spec.decode? s).getD []) out).length = out.length := by
    cases hb : Base58Spec.decode? s with
    | none => simp [over]
    | some W => exact over_length _ _ (hfit W hb)
  generalize over ((Base58Spec.decode? s).getD []) out = out' at h hout
  have hGl : (Base32Spec.encodeRaw prog ++ X).length = n := by rw [List.length_append, hXl, hgl]; omega
  have hdl := decLen_le n
  have hdn : Base32.decLen n = 5 * n / 8 := by
    have : ∀ t : Fin 8, 5 * t.1 % 8 < 5 → Base32.decLen t.1 = 5 * t.1 / 8 := by decide
    have h8 := this ⟨n % 8, Nat.mod_lt _ (by omega)⟩ (by simp only; rw [Nat.mul_mod_mod]; exact h5)
    rw [Base32.decLen_eq]
    simp only at h8
    rw [h8]
    have h9 := Nat.div_add_mod n 8
    generalize n / 8 = t, n % 8 = m at h9
    rw [← h9, Nat.mul_add, show 5 * (8 * t) = 8 * (5 * t) by omega, Nat.mul_add_div (by omega)]
    omega
  have hfl := ho
  rw [Base58Check.fromBase58CheckLength, Base58.fromBase58Length] at hfl
  have hhrp : 1 ≤ net.hrp.length := List.length_pos_iff.mpr n5
  rw [decodeBech32_valid hV cs stack post out' out.length net.param hst (by simp) (by omega) n1, n2, if_pos rfl] at h
  have hlt := (valid_lower_eq hV).2
  have hov : over (v :: (Base32Spec.encodeRaw prog ++ X)) stack = v :: (Base32Spec.encodeRaw prog ++ X) ++
    stack.drop ((Base32Spec.encodeRaw prog ++ X).length + 1) := rfl
  obtain ⟨e1, e2⟩ := decodeWitness_pure cs v (Base32Spec.encodeRaw prog ++ X) (stack.drop ((Base32Spec.encodeRaw prog ++ X).length + 1)) out'
    out.length (fun g hg => hlt g (by simp only [List.mem_cons]; exact .inr hg)) hnl (by rw [hGl]; omega) (by rw [hGl]; omega)
  rw [hov, List.length_cons, e2] at h
  rw [hlen] at h
  have hv0 : v ≠ 0#8 := by rintro rfl; simp at hv
  rw [hGl, hdn] at e1
  rw [if_neg hv0, e1, if_neg (by omega)] at h
  have hpre := Base32.decPure_more prog X hXlt (by rw [hGl]; exact h5)
  obtain ⟨Y, hY⟩ := hpre
  refine ⟨_, h, by omega, ?_⟩
  rw [← hY]
  simp [over]
