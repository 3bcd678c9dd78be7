import Verif.Lemmas.LeakageTextWork
import Verif.Model.LeakageCodec

/-! How much Base64, Base32, the compressed integers, Bech32 and addresses do. -/
namespace Leakage
open Endian WorkSpec

section
variable {α σ ρ : Type}

theorem rdL_costs (p : Ptr) (i : Nat) : Costs (rdL p i) (rd p.mem i) 1 := costs_seen _ (by simp)
theorem lookL_costs (name : String) (k : Nat) (tbl : List α) (i : Nat) : Costs (lookL name k tbl i) (rd tbl i) k :=
  costs_seen _ (by simp)
theorem wrL_costs (obj : String) (base : Nat) (mem : List Byte) (i : Nat) (v : Byte) :
    Costs (wrL obj base mem i v) (wr mem i v) 1 := costs_seen _ (by simp)

theorem work_orT : ∀ cs : List Bool, work (orT cs) ≤ cs.length
  | [] => by simp [orT]
  | c :: r => by
    have := work_orT r
    unfold orT
    split
    · simp
    · simp only [work_cons, cost_branch, List.length_cons]; omega

theorem costs_or {k' : Unit → Leak α} {r : Res α} {d : Nat} (cs : List Bool) (hk : Costs (k' ()) r d) :
    Costs (branchOr cs >>= k') r (cs.length + d) := costs_extra (work_orT cs) hk

theorem costs_branch {k' : Unit → Leak α} {r : Res α} {d : Nat} (b : Bool) (hk : Costs (k' ()) r d) :
    Costs (branch b >>= k') r (1 + d) := costs_extra (by simp) hk

theorem forL_costs {f : Nat → σ → Leak σ} {g : Nat → σ → Res σ} {c : Nat} (h : ∀ i s, Costs (f i s) (g i s) c) :
    ∀ k i s, Costs (forL f i k s) (forLoop g i k s) (k * (c + 1) + 1)
  | 0, i, s => costs_mono (costs_branch _ (costs_pure s)) (by omega)
  | k+1, i, s => by
    rw [forL, forLoop]
    refine costs_mono (costs_branch _ (costs_bind (h i s) fun s _ => forL_costs h k (i + 1) s)) ?_
    rw [Nat.add_mul]; omega

theorem forBL_costs {f : Nat → σ → Leak (Step σ ρ)} {g : Nat → σ → Res (Step σ ρ)} {c : Nat}
    (h : ∀ i s, Costs (f i s) (g i s) c) : ∀ k i s, Costs (forBL f i k s) (forLoopB g i k s) (k * (c + 1) + 1)
  | 0, i, s => costs_mono (costs_branch _ (costs_pure (Step.next s))) (by omega)
  | k+1, i, s => by
    rw [forBL, forLoopB]
    refine costs_mono (costs_branch _ (costs_bind (h i s) fun s _ => (?_ : Costs _ _ (k * (c + 1) + 1)))) ?_
    · cases s with
      | next s => exact forBL_costs h k (i + 1) s
      | stop r => exact costs_mono (costs_pure _) (Nat.zero_le _)
    · rw [Nat.add_mul]; omega
end

/-- One step of each. -/
macro "step1 " e:term : tactic => `(tactic| refine costs_bind $e fun _ _ => ?_)
macro "rd1" : tactic => `(tactic| refine costs_bind (rdL_costs _ _) fun _ _ => ?_)
macro "look1" : tactic => `(tactic| refine costs_bind (lookL_costs _ _ _ _) fun _ _ => ?_)
macro "wr1" : tactic => `(tactic| refine costs_bind (wrL_costs _ _ _ _ _) fun _ _ => ?_)
macro "none1" : tactic => `(tactic| exact costs_mono (costs_pure _) (Nat.zero_le _))

/-! ### Base64 -/

theorem enc64Body_costs (url : Bool) (buf : Ptr) (j : Nat) (out : List Byte) :
    Costs (enc64Body url buf j out) (Base64.encBody url buf.mem j out) 11 := by
  unfold enc64Body Base64.encBody enc64
  refine costs_mono (c := 1 + (1 + (1 + (1 + (1 + (1 + (1 + (1 + (1 + (1 + 1)))))))))) ?_ (by omega)
  rd1; rd1; rd1
  look1; wr1; look1; wr1; look1; wr1; look1
  exact wrL_costs _ _ _ _ _

theorem enc64Tail_costs (url : Bool) (buf : Ptr) (n k : Nat) (out : List Byte) :
    Costs (enc64Tail url buf n k out) (Base64.encTail url buf.mem n k out) 12 := by
  unfold enc64Tail Base64.encTail enc64
  refine costs_mono (c := 1 + (1 + (1 + (1 + (1 + 7))))) (costs_branch _ ?_) (by omega)
  by_cases h : k ≠ 0
  · rw [if_pos h, if_pos h]
    rd1; look1; wr1
    refine costs_branch _ ?_
    by_cases h2 : k = 2
    · rw [if_pos h2, if_pos h2]
      refine costs_mono (c := 1 + (1 + (1 + (1 + (1 + (1 + 1)))))) ?_ (by omega)
      rd1; look1; wr1; look1; wr1
      refine costs_branch _ ?_
      cases url
      · exact wrL_costs _ _ _ _ _
      · none1
    · rw [if_neg h2, if_neg h2]
      refine costs_mono (c := 1 + (1 + (1 + (1 + 1)))) ?_ (by omega)
      look1; wr1
      refine costs_branch _ ?_
      cases url
      · exact costs_bind (wrL_costs _ _ _ _ _) fun _ _ => wrL_costs _ _ _ _ _
      · none1
  · rw [if_neg h, if_neg h]; none1

theorem toBase64Impl_costs (buf : Ptr) (n : Nat) (out : List Byte) (url : Bool) :
    Costs (toBase64Impl buf n out url) (Base64.toBase64Impl buf.mem n out url) (4 * n + 14) := by
  unfold toBase64Impl Base64.toBase64Impl
  exact costs_mono (costs_branch _ (costs_bind (forL_costs (enc64Body_costs url buf) _ _ _) fun _ _ => enc64Tail_costs _ _ _ _ _)) (by omega)

theorem dec64Body_costs (url : Bool) (str : Ptr) (j : Nat) (buf : List Byte) :
    Costs (dec64Body url str j buf) (Base64.decBody url str.mem j buf) 15 := by
  unfold dec64Body Base64.decBody dec64
  refine costs_mono (c := 1 + (1 + (1 + (1 + (1 + (1 + (1 + (1 + (4 + 3))))))))) ?_ (by omega)
  rd1; look1; rd1; look1; rd1; look1; rd1; look1
  refine costs_or _ ?_
  split
  · none1
  · refine costs_mono (c := 1 + (1 + (1 + 0))) ?_ (by omega)
    wr1; wr1; wr1
    exact costs_pure _

theorem dec64Tail_costs (url : Bool) (str : Ptr) (n k : Nat) (buf : List Byte) :
    Costs (dec64Tail url str n k buf) (Base64.decTail url str.mem n k buf) 13 := by
  unfold dec64Tail Base64.decTail dec64
  refine costs_mono (c := 2 + 11) (costs_or _ ?_) (by omega)
  by_cases h : k = 2
  · rw [if_pos h, if_pos h]
    refine costs_mono (c := 1 + (1 + (1 + (1 + (2 + 1))))) ?_ (by omega)
    rd1; look1; rd1; look1
    refine costs_or _ ?_
    split
    · none1
    · exact costs_mono (costs_bind (wrL_costs _ _ _ _ _) fun _ _ => costs_pure _) (by omega)
  · rw [if_neg h, if_neg h]
    by_cases h3 : k = 3
    · rw [if_pos h3, if_pos h3]
      refine costs_mono (c := 1 + (1 + (1 + (1 + (1 + (1 + (3 + 2))))))) ?_ (by omega)
      rd1; look1; rd1; look1; rd1; look1
      refine costs_or _ ?_
      split
      · none1
      · exact costs_mono (costs_bind (wrL_costs _ _ _ _ _) fun _ _ => costs_bind (wrL_costs _ _ _ _ _) fun _ _ => costs_pure _) (by omega)
    · rw [if_neg h3, if_neg h3]; none1

theorem fromBase64Impl_costs (str : Ptr) (n : Nat) (buf : List Byte) (url : Bool) :
    Costs (fromBase64Impl str n buf url) (Base64.fromBase64Impl str.mem n buf url) (4 * n + 15) := by
  unfold fromBase64Impl Base64.fromBase64Impl
  refine costs_mono (costs_branch _ (costs_bind (forBL_costs (dec64Body_costs url str) _ _ _) fun s _ => (?_ : Costs _ _ 13))) (by omega)
  cases s with
  | next s => exact dec64Tail_costs _ _ _ _ _
  | stop r => none1

theorem stripLen_costs (str : Ptr) (n : Nat) : Costs (stripLen str n) (Base64.stripLen str.mem n) 6 := by
  intro a h
  unfold Base64.stripLen at h
  unfold stripLen endsInPad
  by_cases h0 : n > 0
  · rw [if_pos h0] at h
    obtain ⟨c, hc, h⟩ := bind_ok h
    by_cases e : c = chr '='
    · rw [if_pos e] at h
      simp only [] at h
      by_cases h1 : n - 1 > 0
      · rw [if_pos h1] at h
        obtain ⟨d, hd, h⟩ := bind_ok h
        by_cases e2 : d = chr '='
        · rw [if_pos e2] at h; cases h
          exact ⟨_, by simp [h0, h1, rdL, hc, hd, e, e2, branch, seen_ok, ok_bind, after_ok]; rfl, by simp⟩
        · rw [if_neg e2] at h; cases h
          exact ⟨_, by simp [h0, h1, rdL, hc, hd, e, e2, branch, seen_ok, ok_bind, after_ok]; rfl, by simp⟩
      · rw [if_neg h1] at h; cases h
        exact ⟨_, by simp [h0, h1, rdL, hc, e, branch, seen_ok, ok_bind, after_ok]; rfl, by simp⟩
    · rw [if_neg e] at h; cases h
      exact ⟨_, by simp [h0, rdL, hc, e, branch, seen_ok, ok_bind, after_ok]; rfl, by simp⟩
  · rw [if_neg h0] at h; cases h
    exact ⟨_, by simp [h0, branch, seen_ok, ok_bind, after_ok]; rfl, by simp⟩

theorem stripLen_le (str : List Byte) (n k : Nat) (h : Base64.stripLen str n = .ok k) : k ≤ n := by
  unfold Base64.stripLen at h
  by_cases h0 : n > 0
  · rw [if_pos h0] at h
    obtain ⟨c, hc, h⟩ := bind_ok h
    by_cases e : c = chr '='
    · rw [if_pos e] at h
      simp only [] at h
      by_cases h1 : n - 1 > 0
      · rw [if_pos h1] at h
        obtain ⟨d, hd, h⟩ := bind_ok h
        by_cases e2 : d = chr '='
        · rw [if_pos e2] at h; cases h; omega
        · rw [if_neg e2] at h; cases h; omega
      · rw [if_neg h1] at h; cases h; omega
    · rw [if_neg e] at h; cases h; omega
  · rw [if_neg h0] at h; cases h; omega

theorem fromBase64_costs (str : Ptr) (n : Nat) (buf : List Byte) :
    Costs (fromBase64 str n buf) (Base64.fromBase64 str.mem n buf) (4 * n + 21) := by
  unfold fromBase64 Base64.fromBase64
  intro a h
  obtain ⟨k, hk, h⟩ := bind_ok h
  have := stripLen_le _ _ _ hk
  obtain ⟨t, h1, h2⟩ := stripLen_costs str n k hk
  obtain ⟨u, h3, h4⟩ := fromBase64Impl_costs str k buf false a h
  refine ⟨t ++ u, by rw [h1, ok_bind, h3, after_ok], by rw [work_append]; omega⟩


/-! ### Base32 -/

theorem puts32_costs (raw : Bool) (obj : String) (base : Nat) : ∀ (bs : List Byte) (out : List Byte) (p : Nat),
    Costs (puts32 raw obj base out p bs) (lookups (Base32.encodeStr raw) bs >>= fun vs => wrs out p vs) (2 * bs.length)
  | [], out, p => costs_pure out
  | b :: bs, out, p => by
    intro a h
    rw [lookups] at h
    obtain ⟨vs, h1, h⟩ := bind_ok h
    obtain ⟨v, hv, h1⟩ := bind_ok h1
    obtain ⟨vs', hvs, h1⟩ := bind_ok h1
    cases h1
    rw [wrs] at h
    obtain ⟨o, ho, h⟩ := bind_ok h
    rw [puts32, List.length_cons]
    refine costs_mono (costs_bind (k := fun v => wr out p v >>= fun out => lookups (Base32.encodeStr raw) bs >>= fun vs => wrs out (p + 1) vs)
      (lookL_costs _ 1 _ _) fun _ _ => costs_bind (wrL_costs _ _ _ _ _) fun o _ => puts32_costs raw obj base bs o (p + 1)) (by omega) a ?_
    rw [hv, Res.ok_bind, ho, Res.ok_bind, hvs, Res.ok_bind, h]

theorem wrsL_costs (obj : String) (base : Nat) : ∀ (vs : List Byte) (mem : List Byte) (p : Nat),
    Costs (wrsL obj base mem p vs) (wrs mem p vs) vs.length
  | [], mem, p => costs_pure mem
  | v :: vs, mem, p => by
    rw [wrsL, wrs, List.length_cons]
    exact costs_mono (costs_bind (wrL_costs _ _ _ _ _) fun m _ => wrsL_costs obj base vs m (p + 1)) (by omega)

theorem enc32Body_costs (raw : Bool) (buf : Ptr) (obj : String) (base : Nat) (j : Nat) (out : List Byte) :
    Costs (enc32Body raw buf obj base j out) (Base32.encBody raw buf.mem j out) 21 := by
  unfold enc32Body Base32.encBody
  refine costs_mono (c := 1 + (1 + (1 + (1 + (1 + 16))))) ?_ (by omega)
  rd1; rd1; rd1; rd1; rd1
  exact puts32_costs raw obj base [_, _, _, _, _, _, _, _] out (8 * j)

theorem put32Tail_costs (raw : Bool) (obj : String) (base : Nat) (out : List Byte) (p : Nat) (bs : List Byte) :
    Costs (put32Tail raw obj base out p bs) (Base32.putTail raw out p bs) (2 * bs.length + 9) := by
  intro a h
  unfold Base32.putTail at h
  obtain ⟨vs, h1, h⟩ := bind_ok h
  obtain ⟨o, h2, h⟩ := bind_ok h
  unfold put32Tail
  refine costs_mono (costs_bind (k := fun o => if (!raw) = true then wrs o (p + bs.length) (List.replicate (8 - bs.length) (chr '=')) >>= fun out => pure (out, 8)
      else pure (o, bs.length)) (puts32_costs raw obj base bs out p) fun o _ => costs_branch _ (?_ : Costs _ _ 8)) (by omega) a ?_
  · by_cases hr : (!raw) = true
    · rw [if_pos hr, if_pos hr]
      exact costs_mono (costs_bind (wrsL_costs _ _ _ _ _) fun _ _ => costs_pure _) (by rw [List.length_replicate]; omega)
    · rw [if_neg hr, if_neg hr]; none1
  · rw [h1, Res.ok_bind, h2, Res.ok_bind, h]

theorem enc32Tail_costs (raw : Bool) (buf : Ptr) (obj : String) (base : Nat) (n k : Nat) (out : List Byte) :
    Costs (enc32Tail raw buf obj base n k out) (Base32.encTail raw buf.mem n k out) 31 := by
  unfold enc32Tail Base32.encTail
  refine costs_mono (c := 4 + 27) (costs_or _ ?_) (by omega)
  by_cases h : k = 1
  · rw [if_pos h, if_pos h]
    refine costs_mono (c := 1 + (2 * 2 + 9)) ?_ (by omega)
    rd1
    exact put32Tail_costs raw obj base out (8 * n) [_, _]
  rw [if_neg h, if_neg h]
  by_cases h : k = 2
  · rw [if_pos h, if_pos h]
    refine costs_mono (c := 1 + (1 + (2 * 4 + 9))) ?_ (by omega)
    rd1; rd1
    exact put32Tail_costs raw obj base out (8 * n) [_, _, _, _]
  rw [if_neg h, if_neg h]
  by_cases h : k = 3
  · rw [if_pos h, if_pos h]
    refine costs_mono (c := 1 + (1 + (1 + (2 * 5 + 9)))) ?_ (by omega)
    rd1; rd1; rd1
    exact put32Tail_costs raw obj base out (8 * n) [_, _, _, _, _]
  rw [if_neg h, if_neg h]
  by_cases h : k = 4
  · rw [if_pos h, if_pos h]
    refine costs_mono (c := 1 + (1 + (1 + (1 + (2 * 7 + 9))))) ?_ (by omega)
    rd1; rd1; rd1; rd1
    exact put32Tail_costs raw obj base out (8 * n) [_, _, _, _, _, _, _]
  rw [if_neg h, if_neg h]; none1

theorem toBase32Impl_costs (buf : Ptr) (n : Nat) (obj : String) (base : Nat) (out : List Byte) (raw : Bool) :
    Costs (toBase32Impl buf n obj base out raw) (Base32.toBase32Impl buf.mem n out raw) (5 * n + 33) := by
  unfold toBase32Impl Base32.toBase32Impl
  refine costs_mono (costs_branch _ (costs_bind (forL_costs (enc32Body_costs raw buf obj base) _ _ _) fun _ _ =>
    costs_bind (enc32Tail_costs _ _ _ _ _ _ _) fun x _ => (costs_pure _ : Costs _ _ 0))) (by omega)

theorem strchrFromL_costs (obj : String) (c : Byte) : ∀ (l : List Byte) (p i : Nat),
    Costs (strchrFromL obj c p l i) (strchrFrom c l i) (3 * l.length)
  | [], p, i => costs_ub
  | b :: r, p, i => by
    rw [strchrFromL, strchrFrom, List.length_cons]
    refine costs_mono (c := 1 + (2 + 3 * r.length)) (costs_extra (by simp) (costs_or _ ?_)) (by omega)
    by_cases h : b = c
    · rw [if_pos h, if_pos h]; none1
    rw [if_neg h, if_neg h]
    by_cases h : b = 0
    · rw [if_pos h, if_pos h]; none1
    rw [if_neg h, if_neg h]
    exact strchrFromL_costs obj c r (p + 1) (i + 1)

/-- `strchr` stops at the NUL. -/
theorem strchrFromL_text (obj : String) (c : Byte) (post : List Byte) : ∀ (s : List Byte) (p i : Nat),
    Costs (strchrFromL obj c p (s ++ 0#8 :: post) i) (strchrFrom c (s ++ 0#8 :: post) i) (3 * s.length + 3)
  | [], p, i => by
    rw [List.nil_append, strchrFromL, strchrFrom]
    refine costs_mono (c := 1 + (2 + 0)) (costs_extra (by simp) (costs_or _ ?_)) (by simp)
    by_cases h : 0#8 = c
    · rw [if_pos h, if_pos h]; none1
    rw [if_neg h, if_neg h, if_pos (show (0#8 : Byte) = 0 from rfl), if_pos (show (0#8 : Byte) = 0 from rfl)]; none1
  | b :: r, p, i => by
    rw [List.cons_append, strchrFromL, strchrFrom, List.length_cons]
    refine costs_mono (c := 1 + (2 + (3 * r.length + 3))) (costs_extra (by simp) (costs_or _ ?_)) (by omega)
    by_cases h : b = c
    · rw [if_pos h, if_pos h]; none1
    rw [if_neg h, if_neg h]
    by_cases h : b = 0
    · rw [if_pos h, if_pos h]; none1
    rw [if_neg h, if_neg h]
    exact strchrFromL_text obj c post r (p + 1) (i + 1)

theorem strchrFrom_lt (c : Byte) : ∀ (l : List Byte) (i e : Nat), strchrFrom c l i = .ok (some e) → e < i + l.length
  | [], i, e => by intro h; cases h
  | b :: r, i, e => by
    intro h
    rw [strchrFrom] at h
    rw [List.length_cons]
    by_cases h1 : b = c
    · rw [if_pos h1] at h; cases h; omega
    rw [if_neg h1] at h
    by_cases h2 : b = 0
    · rw [if_pos h2] at h; cases h
    rw [if_neg h2] at h
    have := strchrFrom_lt c r (i + 1) e h
    omega

theorem strchrFrom_text_lt (c : Byte) (hc : c ≠ 0#8) (post : List Byte) : ∀ (s : List Byte) (i e : Nat),
    strchrFrom c (s ++ 0#8 :: post) i = .ok (some e) → e < i + s.length
  | [], i, e => by
    intro h
    rw [List.nil_append, strchrFrom, if_neg (Ne.symm hc), if_pos (show (0#8 : Byte) = 0 from rfl)] at h; cases h
  | b :: r, i, e => by
    intro h
    rw [List.cons_append, strchrFrom] at h
    rw [List.length_cons]
    by_cases h1 : b = c
    · rw [if_pos h1] at h; cases h; omega
    rw [if_neg h1] at h
    by_cases h2 : b = 0
    · rw [if_pos h2] at h; cases h
    rw [if_neg h2] at h
    have := strchrFrom_text_lt c hc post r (i + 1) e h
    omega

theorem dec32_costs (cs raw : Bool) (str : Ptr) (i : Nat) : Costs (dec32 cs raw str i) (Base32.decAt cs raw str.mem i) 2 := by
  unfold dec32 Base32.decAt
  refine costs_mono (c := 1 + 1) ?_ (by omega)
  rd1
  split
  · exact costs_ub
  · exact lookL_costs _ _ _ _

macro "dec1" : tactic => `(tactic| refine costs_bind (dec32_costs _ _ _ _) fun _ _ => ?_)

theorem dec32Body_costs (cs raw : Bool) (str : Ptr) (obj : String) (base i : Nat) (buf : List Byte) :
    Costs (dec32Body cs raw str obj base i buf) (Base32.decBody cs raw str.mem i buf) 29 := by
  unfold dec32Body Base32.decBody
  refine costs_mono (c := 2 + (2 + (2 + (2 + (2 + (2 + (2 + (2 + (8 + 5))))))))) ?_ (by omega)
  dec1; dec1; dec1; dec1; dec1; dec1; dec1; dec1
  refine costs_or _ ?_
  split
  · none1
  · exact costs_mono (costs_bind (wrsL_costs _ _ _ _ _) fun _ _ => costs_pure _) (by simp)

theorem dec32Tail_costs (cs raw : Bool) (str : Ptr) (obj : String) (base n k : Nat) (buf : List Byte) :
    Costs (dec32Tail cs raw str obj base n k buf) (Base32.decTail cs raw str.mem n k buf) 23 := by
  unfold dec32Tail Base32.decTail
  refine costs_mono (c := 1 + (1 + (2 + (2 + (1 + (1 + (2 + (2 + (1 + (1 + (2 + (1 + (1 + 5))))))))))))) ?_ (by omega)
  refine costs_bind (lookL_costs _ _ _ _) fun t _ => costs_branch _ ?_
  by_cases h : t > 0
  · rw [if_pos h, if_pos h]
    dec1; dec1; wr1
    refine costs_branch _ ?_
    by_cases h : t > 1
    · rw [if_pos h, if_pos h]
      dec1; dec1; wr1
      refine costs_branch _ ?_
      by_cases h : t > 2
      · rw [if_pos h, if_pos h]
        dec1; wr1
        refine costs_branch _ ?_
        by_cases h : t > 3
        · rw [if_pos h, if_pos h]
          refine costs_mono (c := 2 + (2 + (1 + 0))) ?_ (by omega)
          dec1; dec1; wr1
          exact costs_pure _
        · rw [if_neg h, if_neg h]; none1
      · rw [if_neg h, if_neg h]; none1
    · rw [if_neg h, if_neg h]; none1
  · rw [if_neg h, if_neg h]; none1

/-- With what `strchr` costs and how long the text is at most. -/
theorem fromBase32Impl_costs (cs : Bool) (str : Ptr) (n : Nat) (obj : String) (base : Nat) (buf : List Byte) (raw : Bool) (S M : Nat)
    (hS : Costs (strchrFromL str.obj (chr '=') str.base str.mem 0) (strchr str.mem (chr '=')) S) (hn : n ≤ M)
    (hM : ∀ e, strchr str.mem (chr '=') = .ok (some e) → e ≤ M) :
    Costs (fromBase32Impl cs str n obj base buf raw) (Base32.fromBase32Impl cs str.mem n buf raw) (S + 4 * M + 26) := by
  unfold fromBase32Impl Base32.fromBase32Impl
  have hlen : Costs (strlen32 str n) (Base32.strlen str.mem n) (S + 1) := by
    unfold strlen32 Base32.strlen
    refine costs_bind hS fun e _ => costs_mono (costs_branch _ (?_ : Costs _ _ 0)) (by omega)
    cases e with
    | none => exact costs_pure _
    | some e => exact costs_pure _
  refine costs_mono (c := (S + 1) + (1 + ((M / 8 * (29 + 1) + 1) + 23))) (costs_bind hlen fun L hL => ?_) (by omega)
  have hLM : L ≤ M := by
    unfold Base32.strlen at hL
    obtain ⟨e, he, hL⟩ := bind_ok hL
    cases e with
    | none => cases hL; exact hn
    | some e => rw [← Res.ok.inj hL]; exact hM e he
  refine costs_branch _ (costs_bind (costs_mono (forBL_costs (dec32Body_costs cs raw str obj base) _ _ _) ?_) fun s _ => ?_)
  · have := Nat.div_le_div_right (c := 8) hLM
    have := Nat.mul_le_mul_right 30 this
    omega
  · cases s with
    | next s => exact dec32Tail_costs _ _ _ _ _ _ _ _
    | stop r => none1

theorem toBase32_costs (buf : Ptr) (n : Nat) (out : List Byte) :
    Costs (toBase32 buf n out) (Base32.toBase32 buf.mem n out) (5 * n + 33) := by
  unfold toBase32 Base32.toBase32
  exact costs_mono (costs_bind (toBase32Impl_costs buf n _ 0 out false) (fun a _ => costs_pure a.1)) (Nat.le_refl _)

theorem fromBase32_costs (cs : Bool) (s post : List Byte) (n : Nat) (buf : List Byte) (hn : n ≤ s.length) :
    Costs (fromBase32 cs ⟨"str", 0, s ++ 0#8 :: post⟩ n buf) (Base32.fromBase32 cs (s ++ 0#8 :: post) n buf) (7 * s.length + 29) := by
  unfold fromBase32 Base32.fromBase32
  refine costs_mono (fromBase32Impl_costs cs ⟨"str", 0, s ++ 0#8 :: post⟩ n _ 0 buf false (3 * s.length + 3) s.length
    (strchrFromL_text "str" (chr '=') post s 0 0) hn (fun e he => ?_)) (by omega)
  have := strchrFrom_text_lt (chr '=') (by decide) post s 0 e he
  omega


/-! ### Compressed integers -/

theorem varintLoop_costs : ∀ fuel value len tmp,
    Costs (varintLoop fuel value len tmp) (CompressInteger.encLoop fuel value len tmp) (3 * fuel)
  | 0, value, len, tmp => costs_ub
  | fuel+1, value, len, tmp => by
    rw [varintLoop, CompressInteger.encLoop]
    refine costs_mono (c := 1 + (1 + (1 + 3 * fuel))) (costs_branch _ ?_) (by omega)
    wr1
    refine costs_branch _ ?_
    by_cases h : value ≤ 0x7F#64
    · rw [if_pos h, if_pos h]; none1
    · rw [if_neg h, if_neg h]; exact varintLoop_costs fuel _ _ _

theorem varintCopy_costs (tmp : List Byte) (len : Nat) : ∀ k j out,
    Costs (varintCopy tmp len j k out) (forLoop (CompressInteger.copyBody tmp len) j k out) (3 * k)
  | 0, j, out => costs_pure out
  | k+1, j, out => by
    rw [varintCopy, forLoop, CompressInteger.copyBody]
    simp only [bind_assoc]
    refine costs_mono (c := 1 + (1 + (1 + 3 * k))) ?_ (by omega)
    refine costs_bind (rdL_costs ⟨"tmp", 0, tmp⟩ _) fun _ _ => ?_
    wr1
    exact costs_branch _ (varintCopy_costs tmp len k (j + 1) _)

theorem varintLen (tmp0 : List Byte) (h : tmp0.length = 10) : ∀ fuel value len tmp, tmp.length = 10 → ∀ r,
    CompressInteger.encLoop fuel value len tmp = .ok r → r.1 < 10
  | 0, _, _, _, _, r => by intro e; cases e
  | fuel+1, value, len, tmp, ht, r => by
    intro e
    rw [CompressInteger.encLoop] at e
    obtain ⟨t', h1, e⟩ := bind_ok e
    unfold wr at h1
    by_cases hl : len < tmp.length
    · rw [if_pos hl] at h1
      have h2 := Res.ok.inj h1
      by_cases hv : value ≤ 0x7F#64
      · rw [if_pos hv] at e; rw [← Res.ok.inj e]; simp only; omega
      · rw [if_neg hv] at e
        exact varintLen tmp0 h fuel _ _ t' (by rw [← h2, List.length_set, ht]) r e
    · rw [if_neg hl] at h1; cases h1

theorem encodeVarint_costs (tmp0 : List Byte) (h : tmp0.length = 10) (value : U64) (buf : List Byte) :
    Costs (encodeVarint tmp0 value buf) (CompressInteger.encodeVarint tmp0 value buf) 63 := by
  unfold encodeVarint CompressInteger.encodeVarint
  refine costs_mono (c := 33 + 30) (costs_bind (varintLoop_costs 11 value 0 tmp0) fun x hx => ?_) (by omega)
  obtain ⟨len, tmp⟩ := x
  have hl : len < 10 := varintLen tmp0 h 11 value 0 tmp0 h _ hx
  exact costs_mono (costs_bind (varintCopy_costs tmp len (len + 1) 0 buf) fun _ _ => costs_pure _) (by omega)

theorem decVarintBody_costs (buf : Ptr) (i : Nat) (out : U64) :
    Costs (decVarintBody buf i out) (CompressInteger.decBody buf.mem i out) 2 := by
  unfold decVarintBody CompressInteger.decBody
  refine costs_mono (c := 1 + (1 + 0)) ?_ (by omega)
  rd1
  refine costs_branch _ ?_
  split <;> exact costs_pure _

theorem decodeVarint_costs (buf : Ptr) (n : Nat) : Costs (decodeVarint buf n) (CompressInteger.decodeVarint buf.mem n) 32 := by
  unfold decodeVarint CompressInteger.decodeVarint
  have hs : (if n > 10 then 10 else n) ≤ 10 := by split <;> omega
  simp only
  generalize (if n > 10 then 10 else n) = m at hs ⊢
  refine costs_mono (costs_branch _ (costs_bind (forBL_costs (decVarintBody_costs buf) m 0 0#64) fun s _ => (?_ : Costs _ _ 0))) (by omega)
  cases s <;> exact costs_pure _

theorem encodeZigzag_costs (tmp0 : List Byte) (h : tmp0.length = 10) (value : BitVec 64) (buf : List Byte) :
    Costs (encodeZigzag tmp0 value buf) (CompressInteger.encodeZigzag tmp0 value buf) 65 := by
  unfold encodeZigzag CompressInteger.encodeZigzag
  exact costs_mono (c := 1 + (1 + 63)) (costs_bind (costs_seen _ (by simp)) fun _ _ => costs_branch _ (encodeVarint_costs tmp0 h _ _)) (by omega)

theorem decodeZigzag_costs (buf : Ptr) (n : Nat) (out0 : BitVec 64) :
    Costs (decodeZigzag buf n out0) (CompressInteger.decodeZigzag buf.mem n out0) 34 := by
  unfold decodeZigzag CompressInteger.decodeZigzag
  refine costs_mono (c := 32 + (1 + 1)) (costs_bind (decodeVarint_costs buf n) fun x _ => ?_) (by omega)
  obtain ⟨v, len⟩ := x
  refine costs_branch _ ?_
  simp only
  by_cases h : len > 0
  · rw [if_pos h, if_pos h]
    refine costs_mono (c := 1 + 0) (costs_branch _ ?_) (by omega)
    split <;> exact costs_pure _
  · rw [if_neg h, if_neg h]; none1

/-! ### Bech32 -/

theorem polyMod_costs (v : Byte) (c : U32) : Costs (polyMod v c) (Bech32.polyMod v c) 4 :=
  costs_bind (d := 0) (lookL_costs _ _ _ _) fun _ _ => costs_pure _

theorem modLoop_costs (f : Byte → Byte) (mem : Ptr) (n : Nat) (mod : U32) :
    Costs (modLoop f mem n mod) (Bech32.modLoop f mem.mem n mod) (6 * n + 1) := by
  unfold modLoop Bech32.modLoop
  exact costs_mono (forL_costs (c := 1 + 4) (fun i s => costs_bind (rdL_costs _ _) fun _ _ => polyMod_costs _ _) n 0 mod) (by omega)

theorem modAll_costs (hrp : Ptr) (h : Nat) (b32 : Ptr) (n : Nat) :
    Costs (modAll hrp h b32 n) (Bech32.modAll hrp.mem h b32.mem n) (12 * h + 6 * n + 7) := by
  unfold modAll Bech32.modAll
  exact costs_mono (costs_bind (modLoop_costs _ _ _ _) fun _ _ => costs_bind (polyMod_costs _ _) fun _ _ =>
    costs_bind (modLoop_costs _ _ _ _) fun _ _ => modLoop_costs _ _ _ _) (by omega)

theorem createChecksum_costs (hrp : Ptr) (h : Nat) (b32 : Ptr) (n : Nat) (c : List Byte) :
    Costs (createChecksum hrp h b32 n c) (Bech32.createChecksum hrp.mem h b32.mem n c) (12 * h + 6 * n + 51) := by
  unfold createChecksum Bech32.createChecksum
  exact costs_mono (costs_bind (modAll_costs _ _ _ _) fun _ _ => costs_bind (forL_costs (fun _ _ => polyMod_costs _ _) _ _ _) fun _ _ =>
    forL_costs (fun _ _ => wrL_costs _ _ _ _ _) _ _ _) (by omega)

theorem verifyChecksum_costs (hrp : Ptr) (h : Nat) (b32 : Ptr) (n : Nat) (c : List Byte) :
    Costs (verifyChecksum hrp h b32 n c) (Bech32.verifyChecksum hrp.mem h b32.mem n c) (12 * h + 6 * n + 45) := by
  unfold verifyChecksum Bech32.verifyChecksum
  exact costs_mono (costs_bind (modAll_costs _ _ _ _) fun _ _ => costs_bind (modLoop_costs _ ⟨"checksum", 0, c⟩ _ _) fun _ _ =>
    costs_branch _ (costs_pure _)) (by omega)

theorem bech32Encode_costs (hrp : Ptr) (h : Nat) (b32 : Ptr) (n : Nat) (res : List Byte) :
    Costs (bech32Encode hrp h b32 n res) (Bech32.encode hrp.mem h b32.mem n res) (14 * h + 11 * n + 78) := by
  unfold bech32Encode Bech32.encode
  refine costs_mono (c := (12 * h + 6 * n + 51) + (2 * h + (1 + ((n * (4 + 1) + 1) + (6 * (3 + 1) + 1))))) ?_ (by omega)
  refine costs_bind (createChecksum_costs _ _ _ _ _) fun cs _ => costs_bind (costs_seen _ (by simp; omega)) fun _ _ => ?_
  wr1
  refine costs_bind (forL_costs (c := 1 + (1 + (1 + 1))) (fun i s => ?_) _ _ _) fun _ _ => forL_costs (c := 1 + (1 + 1)) (fun i s => ?_) _ _ _
  · rd1
    refine costs_bind (costs_seen _ (by simp)) fun _ _ => ?_
    look1
    exact wrL_costs _ _ _ _ _
  · refine costs_bind (rdL_costs ⟨"checksum", 0, cs⟩ _) fun _ _ => ?_
    look1
    exact wrL_costs _ _ _ _ _

theorem illegalBody_costs (str : Ptr) (i : Nat) (lu : Bool × Bool) :
    Costs (illegalBody str i lu) (Bech32.illegalBody str.mem i lu) 7 := by
  unfold illegalBody Bech32.illegalBody
  refine costs_mono (c := 1 + (2 + (2 + 2))) ?_ (by omega)
  refine costs_bind (rdL_costs _ _) fun c _ => costs_extra (by split <;> simp) ?_
  by_cases h : c.toNat ≥ 97 ∧ c.toNat ≤ 122
  · rw [if_pos h, if_pos h]; none1
  rw [if_neg h, if_neg h]
  refine costs_extra (by split <;> simp) ?_
  by_cases h : c.toNat ≥ 65 ∧ c.toNat ≤ 90
  · rw [if_pos h, if_pos h]; none1
  rw [if_neg h, if_neg h]
  refine costs_mono (costs_or _ (?_ : Costs _ _ 0)) (by simp)
  split <;> exact costs_pure _

theorem isIllegal_costs (str : Ptr) (n : Nat) : Costs (isIllegal str n) (Bech32.isIllegal str.mem n) (8 * n + 3) := by
  unfold isIllegal Bech32.isIllegal
  refine costs_mono (costs_bind (forBL_costs (illegalBody_costs str) _ _ _) fun s _ => (?_ : Costs _ _ 2)) (by omega)
  cases s with
  | next s => exact costs_extra (d := 0) (by split <;> simp) (costs_pure _)
  | stop r => none1

theorem decodeBody_costs (str : Ptr) (dst : String) (p i : Nat) (out : List Byte) :
    Costs (decodeBody str dst p i out) (Bech32.decodeBody str.mem p i out) 4 := by
  unfold decodeBody Bech32.decodeBody
  refine costs_mono (c := 1 + (1 + (1 + 1))) ?_ (by omega)
  rd1
  refine costs_bind (lookL_costs _ _ _ _) fun v _ => costs_branch _ ?_
  by_cases h : v = -1
  · rw [if_pos h, if_pos h]; none1
  · rw [if_neg h, if_neg h]; exact costs_bind (d := 0) (wrL_costs _ _ _ _ _) fun _ _ => costs_pure _

theorem decodeChars_costs (str : Ptr) (dst : String) (p n : Nat) (out : List Byte) :
    Costs (decodeChars str dst p n out) (Bech32.decodeChars str.mem p n out) (5 * n + 1) := by
  unfold decodeChars Bech32.decodeChars
  refine costs_mono (costs_bind (forBL_costs (decodeBody_costs str dst p) _ _ _) fun s _ => (?_ : Costs _ _ 0)) (by omega)
  cases s <;> exact costs_pure _

theorem decodeAt_costs (str : Ptr) (n pos : Nat) (ho : String) (hrp : List Byte) (bo : String) (b32 : List Byte) (hp : pos ≤ n) :
    Costs (decodeAt str n pos ho hrp bo b32) (Bech32.decodeAt str.mem n pos hrp b32) (18 * n + 79) := by
  unfold decodeAt Bech32.decodeAt
  refine costs_mono (c := (pos * (5 + 1) + 1) + (0 + (12 * n - 12 * pos + (12 * pos + 78)))) ?_ (by omega)
  refine costs_bind (forL_costs (c := 1 + (3 + 1)) (fun i s => ?_) _ _ _) fun hrp' _ => costs_bind (costs_seen _ (by simp)) fun m hm => ?_
  · refine costs_bind (rdL_costs _ _) fun c _ => costs_extra (by split <;> simp) (wrL_costs _ _ _ _ _)
  have hmn : m + pos ≤ n := by
    unfold untilPtr at hm
    by_cases h : pos + 1 ≤ n - 6
    · rw [if_pos h] at hm; rw [← Res.ok.inj hm]; omega
    · rw [if_neg h] at hm; cases hm
  refine costs_mono (c := (5 * m + 1) + (5 * 6 + 1 + (12 * pos + 6 * m + 45 + 1))) ?_ (by omega)
  refine costs_bind (decodeChars_costs _ _ _ _ _) fun x _ => ?_
  obtain ⟨b, g⟩ := x
  simp only
  by_cases hg : (!g) = true
  · rw [if_pos hg, if_pos hg]; none1
  rw [if_neg hg, if_neg hg]
  refine costs_bind (decodeChars_costs _ _ _ _ _) fun x _ => ?_
  obtain ⟨c, g'⟩ := x
  simp only
  by_cases hg : (!g') = true
  · rw [if_pos hg, if_pos hg]; none1
  rw [if_neg hg, if_neg hg]
  exact costs_bind (verifyChecksum_costs ⟨ho, 0, hrp'⟩ _ ⟨bo, 0, b⟩ _ _) fun _ _ => costs_branch (d := 0) _ (costs_pure _)

theorem strrchrFromL_text (obj : String) (c : Byte) (hc : c ≠ 0#8) (post : List Byte) : ∀ (s : List Byte) (p i : Nat) (last : Option Nat),
    (∀ b ∈ s, b ≠ 0#8) →
    Costs (strrchrFromL obj c p (s ++ 0#8 :: post) i last) (strrchrFrom c (s ++ 0#8 :: post) i last) (3 * s.length + 3)
  | [], p, i, last, _ => by
    rw [List.nil_append, strrchrFromL, strrchrFrom]
    refine costs_mono (c := 1 + (2 + 0)) (costs_extra (by simp) (costs_or _ ?_)) (by simp)
    rw [if_neg (Ne.symm hc), if_neg (Ne.symm hc), if_pos rfl, if_pos rfl]; none1
  | b :: r, p, i, last, h0 => by
    rw [List.cons_append, strrchrFromL, strrchrFrom, List.length_cons]
    refine costs_mono (c := 1 + (2 + (3 * r.length + 3))) (costs_extra (by simp) (costs_or _ ?_)) (by omega)
    have hr : ∀ b ∈ r, b ≠ 0#8 := fun b hb => h0 b (List.mem_cons_of_mem _ hb)
    by_cases h : b = c
    · rw [if_pos h, if_pos h]; exact strrchrFromL_text obj c hc post r (p + 1) (i + 1) _ hr
    have hb : b ≠ 0#8 := h0 b List.mem_cons_self
    rw [if_neg h, if_neg h, if_neg hb, if_neg hb]
    exact strrchrFromL_text obj c hc post r (p + 1) (i + 1) _ hr

theorem bech32Decode_costs (obj : String) (s post : List Byte) (n : Nat) (ho : String) (hrp : List Byte) (h : Nat) (bo : String)
    (b32 : List Byte) (h0 : ∀ b ∈ s, b ≠ 0#8) :
    Costs (bech32Decode ⟨obj, 0, s ++ 0#8 :: post⟩ n ho hrp h bo b32) (Bech32.decode (s ++ 0#8 :: post) n hrp h b32)
      (26 * n + 3 * s.length + 92) := by
  unfold bech32Decode Bech32.decode
  refine costs_mono (c := (8 * n + 3) + (1 + ((3 * s.length + 3) + (1 + (4 + (1 + (18 * n + 79))))))) ?_ (by omega)
  refine costs_bind (isIllegal_costs ⟨obj, 0, s ++ 0#8 :: post⟩ n) fun bad _ => costs_branch _ ?_
  by_cases hb : bad = true
  · rw [if_pos hb, if_pos hb]; none1
  rw [if_neg hb, if_neg hb]
  refine costs_bind (strrchrFromL_text obj (chr '1') (by decide) post s 0 0 none h0) fun e _ => costs_branch _ ?_
  cases e with
  | none => none1
  | some pos =>
    refine costs_or _ ?_
    by_cases h1 : n > 90 ∨ pos = 0 ∨ pos + 7 > n ∨ n ≤ 7
    · simp only [if_pos h1]; none1
    simp only [if_neg h1]
    refine costs_branch _ ?_
    by_cases h2 : h < pos
    · rw [if_pos h2, if_pos h2]; none1
    rw [if_neg h2, if_neg h2]
    exact decodeAt_costs ⟨obj, 0, s ++ 0#8 :: post⟩ n pos ho hrp bo b32 (by omega)

/-! ### Addresses -/

theorem toBase32Impl_count (buf : List Byte) (n : Nat) (out : List Byte) (raw : Bool) (r : List Byte × Nat)
    (h : Base32.toBase32Impl buf n out raw = .ok r) : r.2 ≤ n / 5 * 8 + 8 := by
  unfold Base32.toBase32Impl at h
  obtain ⟨o, _, h⟩ := bind_ok h
  obtain ⟨x, hx, h⟩ := bind_ok h
  rw [← Res.ok.inj h]
  simp only
  suffices x.2 ≤ 8 by omega
  have key : ∀ out p bs x, bs.length ≤ 8 → Base32.putTail raw out p bs = .ok x → x.2 ≤ 8 := by
    intro out p bs x hb h
    unfold Base32.putTail at h
    obtain ⟨vs, _, h⟩ := bind_ok h
    obtain ⟨o, _, h⟩ := bind_ok h
    by_cases hr : (!raw) = true
    · rw [if_pos hr] at h
      obtain ⟨o', _, h⟩ := bind_ok h
      rw [← Res.ok.inj h]
    · rw [if_neg hr] at h
      rw [← Res.ok.inj h]; exact hb
  unfold Base32.encTail at hx
  by_cases h1 : n % 5 = 1
  · rw [if_pos h1] at hx
    obtain ⟨_, _, hx⟩ := bind_ok hx
    exact key _ _ _ _ (by simp) hx
  rw [if_neg h1] at hx
  by_cases h2 : n % 5 = 2
  · rw [if_pos h2] at hx
    obtain ⟨_, _, hx⟩ := bind_ok hx
    obtain ⟨_, _, hx⟩ := bind_ok hx
    exact key _ _ _ _ (by simp) hx
  rw [if_neg h2] at hx
  by_cases h3 : n % 5 = 3
  · rw [if_pos h3] at hx
    obtain ⟨_, _, hx⟩ := bind_ok hx
    obtain ⟨_, _, hx⟩ := bind_ok hx
    obtain ⟨_, _, hx⟩ := bind_ok hx
    exact key _ _ _ _ (by simp) hx
  rw [if_neg h3] at hx
  by_cases h4 : n % 5 = 4
  · rw [if_pos h4] at hx
    obtain ⟨_, _, hx⟩ := bind_ok hx
    obtain ⟨_, _, hx⟩ := bind_ok hx
    obtain ⟨_, _, hx⟩ := bind_ok hx
    obtain ⟨_, _, hx⟩ := bind_ok hx
    exact key _ _ _ _ (by simp) hx
  rw [if_neg h4] at hx
  rw [← Res.ok.inj hx]; exact Nat.zero_le _

theorem witnessEncode_costs (buffer : List Byte) (v : Byte) (prog : Ptr) (n : Nat) (out : List Byte) (m : Nat) (param : ChainParameters)
    (hn : n ≤ 40) (hh : param.bech32HrpSize ≤ 4) :
    Costs (witnessEncode buffer v prog n out m param) (Address.witnessEncode buffer v prog.mem n out m param) 1172 := by
  unfold witnessEncode Address.witnessEncode
  refine costs_mono (c := 1 + ((5 * n + 33) + (1 + (14 * 4 + 11 * 73 + 78)))) ?_ (by omega)
  wr1
  refine costs_bind (toBase32Impl_costs prog n "buffer" 1 _ true) fun x hx => ?_
  have := toBase32Impl_count _ _ _ _ x hx
  obtain ⟨rest, k⟩ := x
  simp only at this ⊢
  refine costs_branch _ ?_
  by_cases h : m < Bech32.encodeLength param.bech32HrpSize (k + 1)
  · rw [if_pos h, if_pos h]; none1
  rw [if_neg h, if_neg h]
  exact costs_mono (costs_bind (d := 0) (bech32Encode_costs ⟨"bech32_hrp", 0, param.bech32Hrp⟩ _ ⟨"buffer", 0, _⟩ _ _) fun _ _ => costs_pure _) (by omega)

theorem toAddressBase58_costs (host : Host) (id : Ptr) (n : Nat) (out : List Byte) (m : Nat) (param : ChainParameters) :
    Costs (toAddressPubkey host id n out m param) (Address.toAddressPubkey host id.mem n out m param)
      (7 * (n + param.prefixPubkeyAddressSize + 4) ^ 2 + 34 * (n + param.prefixPubkeyAddressSize + 4) + 1531) ∧
    Costs (toAddressScript host id n out m param) (Address.toAddressScript host id.mem n out m param)
      (7 * (n + param.prefixScriptAddressSize + 4) ^ 2 + 34 * (n + param.prefixScriptAddressSize + 4) + 1531) := by
  constructor
  · unfold toAddressPubkey Address.toAddressPubkey
    refine costs_mono (costs_branch (d := 7 * (n + param.prefixPubkeyAddressSize + 4) ^ 2 + 34 * (n + param.prefixPubkeyAddressSize + 4) + 1530) _ ?_) (by omega)
    by_cases h : m < Base58Check.toBase58CheckLength n param.prefixPubkeyAddressSize
    · rw [if_pos h, if_pos h]; none1
    · rw [if_neg h, if_neg h]; exact toBase58Check_costs _ _ _ _ _ _
  · unfold toAddressScript Address.toAddressScript
    refine costs_mono (costs_branch (d := 7 * (n + param.prefixScriptAddressSize + 4) ^ 2 + 34 * (n + param.prefixScriptAddressSize + 4) + 1530) _ ?_) (by omega)
    by_cases h : m < Base58Check.toBase58CheckLength n param.prefixScriptAddressSize
    · rw [if_pos h, if_pos h]; none1
    · rw [if_neg h, if_neg h]; exact toBase58Check_costs _ _ _ _ _ _

theorem toAddressWitness_costs (nd : Bool) (id : Ptr) (n : Nat) (out : List Byte) (m : Nat) (param : ChainParameters)
    (hh : param.bech32HrpSize ≤ 4) :
    Costs (toAddressWitnessV0Keyhash nd id n out m param) (Address.toAddressWitnessV0Keyhash nd id.mem n out m param) 1174 ∧
    Costs (toAddressWitnessV0Scripthash nd id n out m param) (Address.toAddressWitnessV0Scripthash nd id.mem n out m param) 1174 ∧
    Costs (toAddressWitnessUnknown id n out m param) (Address.toAddressWitnessUnknown id.mem n out m param) 1177 := by
  refine ⟨?_, ?_, ?_⟩
  · unfold toAddressWitnessV0Keyhash Address.toAddressWitnessV0Keyhash
    refine costs_mono (costs_bind (assertL_costs _ _) fun _ _ => costs_branch (d := 1172) _ ?_) (by omega)
    by_cases h : n ≠ 20
    · rw [if_pos h, if_pos h]; none1
    · rw [if_neg h, if_neg h]; exact witnessEncode_costs _ _ _ _ _ _ _ (by omega) hh
  · unfold toAddressWitnessV0Scripthash Address.toAddressWitnessV0Scripthash
    refine costs_mono (costs_bind (assertL_costs _ _) fun _ _ => costs_branch (d := 1172) _ ?_) (by omega)
    by_cases h : n ≠ 32
    · rw [if_pos h, if_pos h]; none1
    · rw [if_neg h, if_neg h]; exact witnessEncode_costs _ _ _ _ _ _ _ (by omega) hh
  · unfold toAddressWitnessUnknown Address.toAddressWitnessUnknown
    refine costs_mono (c := 2 + (1 + (2 + 1172))) (costs_or _ ?_) (by omega)
    by_cases h : n < 3 ∨ n > 41
    · rw [if_pos h, if_pos h]; none1
    rw [if_neg h, if_neg h]
    refine costs_bind (rdL_costs _ _) fun v _ => costs_or _ ?_
    by_cases h2 : v.toNat < 1 ∨ v.toNat > 16
    · rw [if_pos h2, if_pos h2]; none1
    rw [if_neg h2, if_neg h2]
    exact witnessEncode_costs _ _ (id.add 1) _ _ _ _ (by omega) hh

theorem decodeWitness_costs (cs : Bool) (buffer : List Byte) (n : Nat) (out : List Byte) (m : Nat) (hb : buffer.length ≤ 128) (hn : n ≤ 128) :
    Costs (decodeWitness cs buffer n out m) (Address.decodeWitness cs buffer n out m) 930 := by
  unfold decodeWitness Address.decodeWitness
  have hl : (buffer.drop 1).length ≤ 127 := by rw [List.length_drop]; omega
  have key : ∀ (base : Nat) (o : List Byte), Costs (fromBase32Raw cs ⟨"buffer", 1, buffer.drop 1⟩ (n - 1) "out" base o)
      (Base32.fromBase32Raw cs (buffer.drop 1) (n - 1) o) (3 * 127 + 4 * 127 + 26) := fun base o => by
    refine fromBase32Impl_costs cs ⟨"buffer", 1, buffer.drop 1⟩ (n - 1) "out" base o true (3 * 127) 127
      (costs_mono (strchrFromL_costs _ _ _ _ _) (Nat.mul_le_mul_left 3 hl)) (by omega) fun e he => ?_
    have := strchrFrom_lt _ _ _ _ he
    simp only at this
    omega
  refine costs_mono (c := 1 + (1 + (1 + (1 + (1 + ((3 * 127 + 4 * 127 + 26) + 3)))))) ?_ (by omega)
  refine costs_bind (costs_seen _ (by simp)) fun need _ => costs_branch _ ?_
  by_cases h : m ≥ need
  · rw [if_pos h, if_pos h]
    refine costs_bind (rdL_costs ⟨"buffer", 0, buffer⟩ _) fun v _ => costs_branch _ ?_
    by_cases hv : v = 0#8
    · rw [if_pos hv, if_pos hv]
      refine costs_mono (c := (3 * 127 + 4 * 127 + 26) + 2) (costs_bind (key 0 out) fun x _ => ?_) (by omega)
      obtain ⟨o, k⟩ := x
      refine costs_or (d := 0) _ ?_
      simp only
      by_cases h1 : k = 20
      · rw [if_pos h1, if_pos h1]; none1
      rw [if_neg h1, if_neg h1]
      by_cases h1 : k = 32
      · rw [if_pos h1, if_pos h1]; none1
      rw [if_neg h1, if_neg h1]; none1
    · rw [if_neg hv, if_neg hv]
      wr1
      refine costs_bind (key 1 _) fun x _ => ?_
      obtain ⟨o, k⟩ := x
      refine costs_or (d := 0) _ ?_
      simp only
      split <;> exact costs_pure _
  · rw [if_neg h, if_neg h]; none1

theorem decodeChars_length (str : List Byte) (p n : Nat) (out : List Byte) (r : List Byte × Bool)
    (h : Bech32.decodeChars str p n out = .ok r) : r.1.length = out.length := by
  have key : ∀ k i out s, forLoopB (Bech32.decodeBody str p) i k out = .ok s →
      (match s with | .stop o => o | .next o => o).length = out.length := by
    intro k
    induction k with
    | zero => intro i out s h; cases h; rfl
    | succ k ih =>
      intro i out s h
      rw [forLoopB] at h
      obtain ⟨x, hx, h⟩ := bind_ok h
      unfold Bech32.decodeBody at hx
      obtain ⟨c, _, hx⟩ := bind_ok hx
      obtain ⟨v, _, hx⟩ := bind_ok hx
      by_cases hv : v = -1
      · rw [if_pos hv] at hx; cases hx; cases h; rfl
      · rw [if_neg hv] at hx
        obtain ⟨o, ho, hx⟩ := bind_ok hx
        cases hx
        have h2 := ih _ _ _ h
        unfold wr at ho
        by_cases hl : i < out.length
        · rw [if_pos hl] at ho; rw [h2, ← Res.ok.inj ho, List.length_set]
        · rw [if_neg hl] at ho; cases ho
  unfold Bech32.decodeChars at h
  obtain ⟨s, hs, h⟩ := bind_ok h
  have := key _ _ _ _ hs
  cases s with
  | next o => rw [← Res.ok.inj h]; exact this
  | stop o => rw [← Res.ok.inj h]; exact this

theorem decode_bounds (str : List Byte) (n : Nat) (hrp : List Byte) (m : Nat) (b32 : List Byte) (r : Bech32.DecodeResult)
    (h : Bech32.decode str n hrp m b32 = .ok r) : r.b32.length = b32.length ∧ r.ret.toNat ≤ 90 := by
  unfold Bech32.decode at h
  obtain ⟨bad, _, h⟩ := bind_ok h
  by_cases hb : bad = true
  · rw [if_pos hb] at h; rw [← Res.ok.inj h]; exact ⟨rfl, Nat.zero_le _⟩
  rw [if_neg hb] at h
  obtain ⟨e, _, h⟩ := bind_ok h
  cases e with
  | none => rw [← Res.ok.inj h]; exact ⟨rfl, Nat.zero_le _⟩
  | some pos =>
    simp only at h
    by_cases h1 : n > 90 ∨ pos = 0 ∨ pos + 7 > n ∨ n ≤ 7
    · rw [if_pos h1] at h; rw [← Res.ok.inj h]; exact ⟨rfl, Nat.zero_le _⟩
    rw [if_neg h1] at h
    by_cases h2 : m < pos
    · rw [if_pos h2] at h; rw [← Res.ok.inj h]; exact ⟨rfl, Nat.zero_le _⟩
    rw [if_neg h2] at h
    unfold Bech32.decodeAt at h
    obtain ⟨hrp', _, h⟩ := bind_ok h
    obtain ⟨k, hk, h⟩ := bind_ok h
    have hkn : k ≤ 90 := by
      unfold untilPtr at hk
      by_cases h : pos + 1 ≤ n - 6
      · rw [if_pos h] at hk; rw [← Res.ok.inj hk]; omega
      · rw [if_neg h] at hk; cases hk
    obtain ⟨x, hx, h⟩ := bind_ok h
    have hl := decodeChars_length _ _ _ _ _ hx
    obtain ⟨b, g⟩ := x
    simp only at h hl
    by_cases hg : (!g) = true
    · rw [if_pos hg] at h; rw [← Res.ok.inj h]; exact ⟨hl, Nat.zero_le _⟩
    rw [if_neg hg] at h
    obtain ⟨y, _, h⟩ := bind_ok h
    obtain ⟨c, g'⟩ := y
    simp only at h
    by_cases hg : (!g') = true
    · rw [if_pos hg] at h; rw [← Res.ok.inj h]; exact ⟨hl, Nat.zero_le _⟩
    rw [if_neg hg] at h
    obtain ⟨v, _, h⟩ := bind_ok h
    rw [← Res.ok.inj h]
    refine ⟨hl, ?_⟩
    cases v
    · exact Nat.zero_le _
    · simpa using hkn

theorem decodeBech32_costs (cs : Bool) (stack : List Byte) (obj : String) (s post : List Byte) (n : Nat) (out : List Byte) (m : Nat)
    (param : ChainParameters) (h0 : ∀ b ∈ s, b ≠ 0#8) (hh : param.bech32HrpSize ≤ 4) :
    Costs (decodeBech32 cs stack ⟨obj, 0, s ++ 0#8 :: post⟩ n out m param)
      (Address.decodeBech32 cs stack (s ++ 0#8 :: post) n out m param) (26 * n + 3 * s.length + 1036) := by
  unfold decodeBech32 Address.decodeBech32
  refine costs_mono (c := 1 + ((26 * n + 3 * s.length + 92) + (2 + (10 + (930 + 1))))) (costs_branch _ ?_) (by omega)
  refine costs_bind (bech32Decode_costs obj s post n _ _ _ _ _ h0) fun r hr => costs_or _ ?_
  obtain ⟨hl, hret⟩ := decode_bounds _ _ _ _ _ _ hr
  by_cases h1 : r.ret < 1 ∨ r.hrpSize ≠ param.bech32HrpSize
  · rw [if_pos h1, if_pos h1]; exact costs_mono (costs_branch (d := 0) _ (costs_pure _)) (by omega)
  rw [if_neg h1, if_neg h1]
  refine costs_bind (costs_mono (memeqL_costs ⟨"bech32_hrp", 0, r.hrp⟩ ⟨"param_bech32_hrp", 0, param.bech32Hrp⟩ r.hrpSize) (by omega)) fun same _ => ?_
  by_cases hs : (!same) = true
  · rw [if_pos hs, if_pos hs]; exact costs_mono (costs_branch (d := 0) _ (costs_pure _)) (by omega)
  rw [if_neg hs, if_neg hs]
  refine costs_last (decodeWitness_costs cs r.b32 r.ret.toNat out m ?_ (by omega)) fun a => costs_branch (d := 0) _ (costs_pure _)
  rw [hl]
  unfold Address.buffer
  split
  · rw [List.length_take]; omega
  · simp

theorem hasPrefix_costs (out : List Byte) (size : Nat) (name : String) (pre : List Byte) (k : Nat) :
    Costs (hasPrefix out size name pre k) (Address.hasPrefix out size pre k) (2 * k + 3) := by
  unfold hasPrefix Address.hasPrefix
  refine costs_mono (c := 1 + (2 * k + 2)) (costs_branch _ ?_) (by omega)
  by_cases h : size ≥ k
  · rw [if_pos h, if_pos h]; exact memeqL_costs ⟨"out", 0, out⟩ ⟨name, 0, pre⟩ k
  · rw [if_neg h, if_neg h]; none1

theorem strip_costs (kind : Address.Kind) (out : List Byte) (size k : Nat) :
    Costs (strip kind out size k) (Address.strip kind out size k) (2 * size) := by
  unfold strip Address.strip
  exact costs_bind (d := 0) (costs_seen _ (by simp; omega)) fun _ _ => costs_pure _

theorem fromBase58Check_count (host : Host) (cs : Bool) (text rest : List Byte) (n : Nat) (buf : List Byte) (r : List Byte × Nat)
    (h : Base58Check.fromBase58Check host cs (text ++ 0#8 :: rest) n buf = .ok r) : r.2 ≤ text.length + (733 * n + 1000) / 1000 := by
  unfold Base58Check.fromBase58Check at h
  obtain ⟨a, ha, h⟩ := bind_ok h
  have hc := fromBase58_count cs text rest n buf a ha
  obtain ⟨b, m⟩ := a
  simp only at hc h
  by_cases hm : m < 4
  · rw [if_pos hm] at h; rw [← Res.ok.inj h]; exact Nat.zero_le _
  rw [if_neg hm] at h
  obtain ⟨d, _, h⟩ := bind_ok h
  obtain ⟨same, _, h⟩ := bind_ok h
  cases same
  · rw [← Res.ok.inj h]; exact Nat.zero_le _
  · rw [← Res.ok.inj h]; simp only; omega

theorem addressDecode_costs (host : Host) (cs : Bool) (stack : List Byte) (obj : String) (s post : List Byte) (n : Nat) (out : List Byte)
    (m : Nat) (param : ChainParameters) (h0 : ∀ b ∈ s, b ≠ 0#8) (hh : param.bech32HrpSize ≤ 4) (hp : param.prefixPubkeyAddressSize ≤ 1)
    (hs : param.prefixScriptAddressSize ≤ 1) :
    Costs (addressDecode host cs stack ⟨obj, 0, s ++ 0#8 :: post⟩ n out m param)
      (Address.addressDecode host cs stack (s ++ 0#8 :: post) n out m param)
      (readBound s.length ((733 * n + 1000) / 1000) + (5 * (s.length + (733 * n + 1000) / 1000) + 26 * n + 3 * s.length + 2555)) := by
  unfold addressDecode Address.addressDecode
  generalize hS : (733 * n + 1000) / 1000 = S
  refine costs_mono (c := 1 + ((readBound s.length S + (3 * (s.length + S) + 1507)) + (1 + (5 + (5 + (2 * (s.length + S) + (26 * n + 3 * s.length + 1036))))))) (costs_branch _ ?_) (by omega)
  by_cases h : m < Base58Check.fromBase58CheckLength n
  · rw [if_pos h, if_pos h]; none1
  rw [if_neg h, if_neg h]
  have hb := fromBase58Check_costs host cs obj s post n "out" out
  rw [hS] at hb
  refine costs_bind hb fun x hx => ?_
  have hc := fromBase58Check_count host cs s post n out x hx
  rw [hS] at hc
  obtain ⟨o, size⟩ := x
  simp only at hc ⊢
  refine costs_branch _ ?_
  by_cases hz : size ≠ 0
  · rw [if_pos hz, if_pos hz]
    refine costs_bind (costs_mono (hasPrefix_costs _ _ _ _ _) (by omega)) fun p _ => ?_
    by_cases h1 : p = true
    · rw [if_pos h1, if_pos h1]; exact costs_mono (strip_costs _ _ _ _) (by omega)
    rw [if_neg h1, if_neg h1]
    refine costs_bind (costs_mono (hasPrefix_costs _ _ _ _ _) (by omega)) fun p _ => ?_
    by_cases h1 : p = true
    · rw [if_pos h1, if_pos h1]; exact costs_mono (strip_costs _ _ _ _) (by omega)
    rw [if_neg h1, if_neg h1]
    exact costs_mono (decodeBech32_costs cs stack obj s post n o m param h0 hh) (by omega)
  · rw [if_neg hz, if_neg hz]
    exact costs_mono (decodeBech32_costs cs stack obj s post n o m param h0 hh) (by omega)

end Leakage
