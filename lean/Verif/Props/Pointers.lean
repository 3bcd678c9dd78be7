import Verif.Model.Pointers
import Verif.Props.NeedDecode
/-! Property theorems C108: which texts make the Bech32 and address decoders form a pointer outside the
object of the text, which C leaves undefined even if the pointer is only compared. -/
namespace Pointers
open Bech32Spec

/-- Specification: `s` is a text of visible characters of one letter case, of at most 90 characters, with
something before its last '1', and the place seven bytes from the last '1' is beyond one past the end of the
object (which holds `s`, its terminator and `post`). -/
def Leaves (s post : List Byte) : Prop :=
  (∀ c ∈ s, 33 ≤ c.toNat ∧ c.toNat ≤ 126) ∧ ¬ ((∃ c ∈ s, isUpper c) ∧ ∃ c ∈ s, isLower c) ∧ s.length ≤ 90 ∧
    ∃ a d, s = a ++ 49#8 :: d ∧ 49#8 ∉ d ∧ a ≠ [] ∧ a.length + 7 > (s ++ 0#8 :: post).length

theorem strrchr_split (a d post : List Byte) (hd : 49#8 ∉ d) (h0 : ∀ x ∈ a ++ 49#8 :: d, x ≠ 0#8) :
    strrchr (a ++ 49#8 :: d ++ 0#8 :: post) (chr '1') = .ok (some a.length) := by
  have := Bech32.strrchrFrom_some 49#8 a d post 0 none (by decide)
    (fun x hx => h0 x (by simp [hx])) (fun x hx => ⟨fun e => hd (e ▸ hx), h0 x (by simp [hx])⟩)
  rw [Nat.zero_add] at this
  exact this

theorem split_unique {a d a' d' : List Byte} (h : a ++ 49#8 :: d = a' ++ 49#8 :: d') (hd : 49#8 ∉ d)
    (hd' : 49#8 ∉ d') : a.length = a'.length := by
  have l := congrArg List.length h
  simp only [List.length_append, List.length_cons] at l
  rcases Nat.lt_trichotomy a.length a'.length with hlt | he | hlt
  · exfalso
    apply hd
    have := congrArg (List.drop (a.length + 1)) h
    have e : List.drop (a.length + 1) (a ++ 49#8 :: d) = d := by simp
    rw [e, List.drop_append_of_le_length (by omega)] at this
    rw [this]; simp
  · exact he
  · exfalso
    apply hd'
    have := congrArg (List.drop (a'.length + 1)) h.symm
    have e : List.drop (a'.length + 1) (a' ++ 49#8 :: d') = d' := by simp
    rw [e, List.drop_append_of_le_length (by omega)] at this
    rw [this]; simp

theorem form_ok {k n : Nat} (h : k ≤ n) : form k n = .ok () := if_pos h
theorem form_ub {k n : Nat} (h : n < k) : form k n = .ub := if_neg (by omega)

theorem decode_cases (s post hrp b32 : List Byte) (cap : Nat) :
    (Leaves s post ∧ Pointers.decode (s ++ 0#8 :: post) s.length hrp cap b32 = .ub ∧
      Bech32.decode (s ++ 0#8 :: post) s.length hrp cap b32 = .ok ⟨-2, hrp, cap, b32⟩) ∨
    (¬ Leaves s post ∧ Pointers.decode (s ++ 0#8 :: post) s.length hrp cap b32 =
      Bech32.decode (s ++ 0#8 :: post) s.length hrp cap b32) := by
  unfold Pointers.decode Bech32.decode
  rw [Bech32.isIllegal_eq, Res.ok_bind, Res.ok_bind]
  by_cases hi : Bech32.illegal s = false
  · obtain ⟨hr, hc⟩ := (_root_.illegal_false_iff s).mp hi
    have h0 : ∀ x ∈ s, x ≠ 0#8 := by
      intro x hx e
      have := (hr x hx).1
      rw [e] at this
      exact absurd this (by decide)
    rw [hi]
    by_cases h1 : 49#8 ∈ s
    · obtain ⟨a, d, hab, hd⟩ := last_split h1
      have hd : 49#8 ∉ d := fun hm => hd _ hm rfl
      subst hab
      rw [strrchr_split a d post hd h0]
      simp only [Bool.false_eq_true, if_false, Res.ok_bind]
      by_cases h2 : (a ++ 49#8 :: d).length > 90 ∨ a.length = 0
      · right
        refine ⟨?_, ?_⟩
        · rintro ⟨_, _, hl, a', d', he, hd', ha', _⟩
          have := split_unique he hd hd'
          rcases h2 with h2 | h2
          · omega
          · exact ha' (List.eq_nil_of_length_eq_zero (by omega))
        · rw [if_pos h2, if_pos (by omega)]
      · rw [if_neg h2]
        by_cases h3 : a.length + 7 > (a ++ 49#8 :: d ++ 0#8 :: post).length
        · left
          refine ⟨⟨hr, hc, by omega, a, d, rfl, hd, fun e => h2 (.inr (by rw [e]; rfl)), h3⟩, ?_, ?_⟩
          · rw [form_ub h3]; rfl
          · rw [List.length_append (as := a ++ 49#8 :: d)] at h3
            rw [if_pos (by omega)]; rfl
        · right
          refine ⟨?_, ?_⟩
          · rintro ⟨_, _, _, a', d', he, hd', _, h4⟩
            have := split_unique he hd hd'
            omega
          · rw [form_ok (by omega), form_ok (by simp), Res.ok_bind, Res.ok_bind]
            by_cases h5 : a.length + 7 > (a ++ 49#8 :: d).length ∨ (a ++ 49#8 :: d).length ≤ 7
            · rw [if_pos h5, if_pos (by omega)]
            · have h6 : ¬ ((a ++ 49#8 :: d).length > 90 ∨ a.length = 0 ∨ a.length + 7 > (a ++ 49#8 :: d).length ∨
                  (a ++ 49#8 :: d).length ≤ 7) := by omega
              rw [if_neg h5, if_neg h6]
    · right
      refine ⟨?_, ?_⟩
      · rintro ⟨_, _, _, a', d', he, _⟩
        apply h1; rw [he]; simp
      · have hsr : strrchr (s ++ 0#8 :: post) (chr '1') = .ok none :=
          Bech32.strrchrFrom_none 49#8 s post 0 none (by decide) (fun x hx => ⟨fun e => h1 (e ▸ hx), h0 x hx⟩)
        rw [hsr]
        rfl
  · right
    refine ⟨?_, ?_⟩
    · rintro ⟨hr, hc, _⟩
      exact hi ((_root_.illegal_false_iff s).mpr ⟨hr, hc⟩)
    · rw [Bool.not_eq_false] at hi
      rw [hi]
      rfl
end Pointers

open Pointers in
/-- C108. `fingera_bech32_decode` forms a pointer outside the object of its text exactly on the texts of
`Leaves`, which it is meant to refuse with -2 and nothing written; on every other text (in particular on
every text it accepts) the strict rule changes nothing. -/
theorem C108_bech32_decode (s post hrp b32 : List Byte) (cap : Nat) :
    (Leaves s post → Pointers.decode (s ++ 0#8 :: post) s.length hrp cap b32 = .ub ∧
      Bech32.decode (s ++ 0#8 :: post) s.length hrp cap b32 = .ok ⟨-2, hrp, cap, b32⟩) ∧
    (¬ Leaves s post → Pointers.decode (s ++ 0#8 :: post) s.length hrp cap b32 =
      Bech32.decode (s ++ 0#8 :: post) s.length hrp cap b32) := by
  rcases decode_cases s post hrp b32 cap with ⟨h1, h2, h3⟩ | ⟨h1, h2⟩
  · exact ⟨fun _ => ⟨h2, h3⟩, fun h => absurd h1 h⟩
  · exact ⟨fun h => absurd h h1, fun _ => h2⟩

open Pointers in
/-- C108. Five bytes behind the terminator of the text are enough for every text; so are five
characters after the last '1'. -/
theorem C108_bech32_spare (s post hrp b32 : List Byte) (cap : Nat)
    (h : 5 ≤ post.length ∨ ∀ a d, s = a ++ 49#8 :: d → 49#8 ∉ d → 5 ≤ d.length) :
    Pointers.decode (s ++ 0#8 :: post) s.length hrp cap b32 =
      Bech32.decode (s ++ 0#8 :: post) s.length hrp cap b32 := by
  refine (C108_bech32_decode s post hrp b32 cap).2 ?_
  rintro ⟨_, _, _, a, d, he, hd, _, h4⟩
  have l := congrArg List.length he
  simp only [List.length_append, List.length_cons] at l h4
  rcases h with h | h
  · omega
  · have := h a d he hd
    omega

open Pointers in
/-- C108, violated on refused texts: any text of one letter case with its last '1' (not at the start) among
its last five characters, in an object that ends with the text. -/
theorem C108_violated_short_data (a d hrp b32 : List Byte) (cap : Nat) (ha : a ≠ []) (hd : 49#8 ∉ d)
    (h5 : d.length < 5) (hl : (a ++ 49#8 :: d).length ≤ 90)
    (hr : ∀ c ∈ a ++ 49#8 :: d, 33 ≤ c.toNat ∧ c.toNat ≤ 126)
    (hc : ¬ ((∃ c ∈ a ++ 49#8 :: d, Bech32Spec.isUpper c) ∧ ∃ c ∈ a ++ 49#8 :: d, Bech32Spec.isLower c)) :
    Pointers.decode (a ++ 49#8 :: d ++ [0#8]) (a ++ 49#8 :: d).length hrp cap b32 = .ub := by
  refine ((C108_bech32_decode (a ++ 49#8 :: d) [] hrp b32 cap).1 ⟨hr, hc, hl, a, d, rfl, hd, ha, ?_⟩).1
  simp only [List.length_append, List.length_cons, List.length_nil]
  omega

namespace Pointers
open Address

theorem decodeBech32_cases (cs : Bool) (stack s post out : List Byte) (outSize : Nat) (param : ChainParameters) :
    (Leaves s post ∧ Pointers.decodeBech32 cs stack (s ++ 0#8 :: post) s.length out outSize param = .ub ∧
      Address.decodeBech32 cs stack (s ++ 0#8 :: post) s.length out outSize param = .ok ⟨.bad, out, outSize⟩) ∨
    (¬ Leaves s post ∧ Pointers.decodeBech32 cs stack (s ++ 0#8 :: post) s.length out outSize param =
      Address.decodeBech32 cs stack (s ++ 0#8 :: post) s.length out outSize param) := by
  unfold Pointers.decodeBech32 Address.decodeBech32
  rcases decode_cases s post (List.replicate 16 0xAA#8) (buffer stack s.length) 16 with ⟨h1, h2, h3⟩ | ⟨h1, h2⟩
  · left
    rw [h2, h3]
    refine ⟨h1, rfl, ?_⟩
    rw [Res.ok_bind, if_pos (.inl (show (-2 : Int) < 1 by decide))]
    rfl
  · right
    rw [h2]
    exact ⟨h1, rfl⟩
end Pointers

open Pointers Address in
/-- C108, addresses: unless the text is one of `Leaves` the strict rule changes nothing. -/
theorem C108_address_decode (host : Host) (cs : Bool) (stack s post out : List Byte) (outSize : Nat)
    (param : ChainParameters) (h : ¬ Leaves s post) :
    Pointers.addressDecode host cs stack (s ++ 0#8 :: post) s.length out outSize param =
      Address.addressDecode host cs stack (s ++ 0#8 :: post) s.length out outSize param := by
  have e : ∀ out, Pointers.decodeBech32 cs stack (s ++ 0#8 :: post) s.length out outSize param =
      Address.decodeBech32 cs stack (s ++ 0#8 :: post) s.length out outSize param := by
    intro out
    rcases decodeBech32_cases cs stack s post out outSize param with ⟨h1, _⟩ | ⟨_, h2⟩
    · exact absurd h1 h
    · exact h2
  unfold Pointers.addressDecode Address.addressDecode
  simp only [e]

open Pointers Address in
/-- C108, addresses: a text of `Leaves` for which there is room is decoded as a Base58Check address as ever,
and is undefined instead of refused when it is none. -/
theorem C108_address_leaves (host : Host) (cs : Bool) (stack s post out : List Byte) (outSize : Nat)
    (param : ChainParameters) (r : Decoded) (h : Leaves s post)
    (hroom : Base58Check.fromBase58CheckLength s.length ≤ outSize)
    (hr : Address.addressDecode host cs stack (s ++ 0#8 :: post) s.length out outSize param = .ok r) :
    (r.kind = .pubkey ∨ r.kind = .script) ∧
      Pointers.addressDecode host cs stack (s ++ 0#8 :: post) s.length out outSize param = .ok r ∨
    r.kind = .bad ∧ r.outSize = outSize ∧
      Pointers.addressDecode host cs stack (s ++ 0#8 :: post) s.length out outSize param = .ub := by
  have e : ∀ out, Pointers.decodeBech32 cs stack (s ++ 0#8 :: post) s.length out outSize param = .ub ∧
      Address.decodeBech32 cs stack (s ++ 0#8 :: post) s.length out outSize param = .ok ⟨.bad, out, outSize⟩ := by
    intro out
    rcases decodeBech32_cases cs stack s post out outSize param with ⟨_, h2⟩ | ⟨h1, _⟩
    · exact h2
    · exact absurd h h1
  have strip_kind : ∀ k o n m, strip k o n m = .ok r → r.kind = k := by
    intro k o n m hs
    unfold strip at hs
    cases hm : memcpy o 0 (o.drop m) (n - m) with
    | ok v => rw [hm, Res.ok_bind] at hs; cases hs; rfl
    | ub => rw [hm] at hs; cases hs
    | abort => rw [hm] at hs; cases hs
  unfold Address.addressDecode at hr
  unfold Pointers.addressDecode
  rw [if_neg (by omega)] at hr ⊢
  cases hf : Base58Check.fromBase58Check host cs (s ++ 0#8 :: post) s.length out with
  | ub => rw [hf] at hr; cases hr
  | abort => rw [hf] at hr; cases hr
  | ok v =>
    obtain ⟨o, size⟩ := v
    rw [hf, Res.ok_bind] at hr
    rw [Res.ok_bind]
    dsimp only at hr ⊢
    by_cases hz : size ≠ 0
    · rw [if_pos hz] at hr ⊢
      cases hp : hasPrefix o size param.prefixPubkeyAddress param.prefixPubkeyAddressSize with
      | ub => rw [hp] at hr; cases hr
      | abort => rw [hp] at hr; cases hr
      | ok p =>
        rw [hp, Res.ok_bind] at hr
        rw [Res.ok_bind]
        cases p with
        | true => exact .inl ⟨.inl (strip_kind _ _ _ _ hr), hr⟩
        | false =>
          simp only [Bool.false_eq_true, if_false] at hr ⊢
          cases hq : hasPrefix o size param.prefixScriptAddress param.prefixScriptAddressSize with
          | ub => rw [hq] at hr; cases hr
          | abort => rw [hq] at hr; cases hr
          | ok q =>
            rw [hq, Res.ok_bind] at hr
            rw [Res.ok_bind]
            cases q with
            | true => exact .inl ⟨.inr (strip_kind _ _ _ _ hr), hr⟩
            | false =>
              simp only [Bool.false_eq_true, if_false] at hr ⊢
              rw [(e o).2] at hr
              cases hr
              exact .inr ⟨rfl, rfl, (e o).1⟩
    · rw [if_neg hz] at hr ⊢
      rw [(e o).2] at hr
      cases hr
      exact .inr ⟨rfl, rfl, (e o).1⟩

open Pointers Address in
/-- C108, addresses: every address that is accepted is accepted under the strict rule, with the same result. -/
theorem C108_address_accepted (host : Host) (cs : Bool) (stack s post out : List Byte) (outSize : Nat)
    (param : ChainParameters) (r : Decoded) (hk : r.kind ≠ .bad)
    (hr : Address.addressDecode host cs stack (s ++ 0#8 :: post) s.length out outSize param = .ok r) :
    Pointers.addressDecode host cs stack (s ++ 0#8 :: post) s.length out outSize param = .ok r := by
  by_cases h : Leaves s post
  · by_cases hroom : Base58Check.fromBase58CheckLength s.length ≤ outSize
    · rcases C108_address_leaves host cs stack s post out outSize param r h hroom hr with ⟨_, h2⟩ | ⟨h2, _⟩
      · exact h2
      · exact absurd h2 hk
    · unfold Address.addressDecode at hr
      rw [if_pos (by omega)] at hr
      cases hr
      exact absurd rfl hk
  · rw [C108_address_decode host cs stack s post out outSize param h, hr]
