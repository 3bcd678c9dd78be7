import Verif.Spec.Work
import Verif.Model.LeakageRead
import Verif.Lemmas.LeakageKey

/-! How much watched code does. -/
namespace Leakage
open Endian WorkSpec

/-- If the plain code returns, the watched code returns the same and has done at most `c`. -/
def Costs {α : Type} (p : Leak α) (r : Res α) (c : Nat) : Prop := ∀ a, r = .ok a → ∃ t, p = .ok a t ∧ work t ≤ c

section
variable {α β : Type}

@[simp] theorem work_nil : work [] = 0 := rfl
@[simp] theorem work_cons (e : Ev) (t : List Ev) : work (e :: t) = cost e + work t := rfl
@[simp] theorem work_append (s t : List Ev) : work (s ++ t) = work s + work t := by
  induction s with
  | nil => simp
  | cons e s ih => simp [ih]; omega
@[simp] theorem cost_load (o : String) (i n : Nat) : cost (.load o i n) = n := rfl
@[simp] theorem cost_store (o : String) (i n : Nat) : cost (.store o i n) = n := rfl
@[simp] theorem cost_branch (b : Bool) : cost (.branch b) = 1 := rfl
@[simp] theorem cost_call (f : String) : cost (.call f) = 1 := rfl

theorem costs_seen {t : List Ev} (r : Res α) {c : Nat} (h : work t ≤ c) : Costs (seen t r) r c := by
  intro a e; subst e; exact ⟨t, rfl, h⟩

theorem costs_pure (a : α) : Costs (pure a : Leak α) (pure a) 0 := by
  intro b h; cases h; exact ⟨[], rfl, Nat.le_refl _⟩

theorem costs_ub {p : Leak α} {c : Nat} : Costs p .ub c := by intro a h; cases h

theorem costs_mono {p : Leak α} {r : Res α} {c d : Nat} (h : Costs p r c) (hd : c ≤ d) : Costs p r d := by
  intro a e
  obtain ⟨t, h1, h2⟩ := h a e
  exact ⟨t, h1, Nat.le_trans h2 hd⟩

theorem costs_bind {p : Leak α} {r : Res α} {k' : α → Leak β} {k : α → Res β} {c d : Nat} (hp : Costs p r c)
    (hk : ∀ a, r = .ok a → Costs (k' a) (k a) d) : Costs (p >>= k') (r >>= k) (c + d) := by
  intro b h
  cases r with
  | ok a =>
    obtain ⟨t, h1, h2⟩ := hp a rfl
    obtain ⟨t', h3, h4⟩ := hk a rfl b h
    refine ⟨t ++ t', ?_, ?_⟩
    · rw [h1, ok_bind, h3, after_ok]
    · rw [work_append]; omega
  | ub => cases h
  | abort => cases h

/-- A step of the watched code that the plain code does not have. -/
theorem costs_extra {a : α} {t : List Ev} {k' : α → Leak β} {r : Res β} {c d : Nat} (h : work t ≤ c)
    (hk : Costs (k' a) r d) : Costs ((seen t (.ok a) : Leak α) >>= k') r (c + d) := by
  intro b e
  obtain ⟨t', h1, h2⟩ := hk b e
  refine ⟨t ++ t', ?_, ?_⟩
  · rw [seen_ok, ok_bind, h1, after_ok]
  · rw [work_append]; omega

theorem costs_of_shows {p : Leak α} {r : Res α} {t : List Ev} {c : Nat} (hp : Shows p r t) (h : work t ≤ c) : Costs p r c :=
  fun a e => ⟨t, hp a e, h⟩

/-- The last steps, which the plain code does not have. -/
theorem costs_last {p : Leak α} {r : Res α} {k' : α → Leak α} {c d : Nat} (hp : Costs p r c) (hk : ∀ a, Costs (k' a) (.ok a) d) :
    Costs (p >>= k') r (c + d) := by
  intro b h
  obtain ⟨t, h1, h2⟩ := hp b h
  obtain ⟨t', h3, h4⟩ := hk b b rfl
  refine ⟨t ++ t', ?_, ?_⟩
  · rw [h1, ok_bind, h3, after_ok]
  · rw [work_append]; omega
end

/-! ### Hash functions -/

theorem work_blocksT (T : Nat → List Ev) (B c : Nat) (hB : 0 < B) (hT : ∀ b, work (T b) ≤ c) : ∀ fuel base n,
    work (blocksT T B fuel base n) ≤ n / B * (c + 1) + 1
  | 0, base, n => by simp [blocksT]
  | fuel+1, base, n => by
    unfold blocksT
    split
    · rename_i h
      have ih := work_blocksT T B c hB hT fuel (base + B) (n - B)
      have e : n / B = (n - B) / B + 1 := by
        rw [Nat.div_eq_sub_div hB h]
      rw [e, Nat.add_mul]
      simp only [work_append, work_cons, work_nil, cost_branch]
      have := hT base
      omega
    · simp

theorem work_finishT (T : String → Nat → List Ev) (B thr c : Nat) (hB : 0 < B) (hT : ∀ o b, work (T o b) ≤ c) (obj : String) (base n : Nat) :
    work (finishT T B thr obj base n) ≤ n / B * (c + 1) + (2 * c + 4 * B + 12) := by
  unfold finishT
  have h1 := work_blocksT (T obj) B c hB (hT obj) (n + 1) base n
  have h2 := hT "last_chunk" 0
  have h3 := Nat.mod_lt n hB
  have h4 : work (if n % B > thr then [.branch true] ++ (T "last_chunk" 0 ++ ([.store "last_chunk" 0 B] ++ [])) else
      [.branch false] ++ []) ≤ 1 + c + B := by
    split <;> simp <;> omega
  rw [work_append, work_append, work_append, work_append, work_append, work_append]
  simp only [work_cons, work_nil, cost_store, cost_load]
  omega

theorem work_flatMap {α : Type} (f : α → List Ev) (c : Nat) (h : ∀ x, work (f x) ≤ c) : ∀ l : List α, work (l.flatMap f) ≤ l.length * c
  | [] => by simp
  | x :: l => by
    rw [List.flatMap_cons, work_append, List.length_cons, Nat.add_mul]
    have := h x
    have := work_flatMap f c h l
    omega

theorem work_termT {T T' : Nat → List Ev} (h : ∀ off, work (T off) = work (T' off)) (x : Sha2.Term) : work (termT T x) = work (termT T' x) := by
  cases x <;> simp [termT, h]

theorem work_terms {T T' : Nat → List Ev} (h : ∀ off, work (T off) = work (T' off)) : ∀ ts : List Sha2.Term,
    work (ts.flatMap (termT T)) = work (ts.flatMap (termT T'))
  | [] => rfl
  | t :: ts => by
    rw [List.flatMap_cons, List.flatMap_cons, work_append, work_append, work_terms h ts, work_termT h]

theorem work_opT {T T' : Nat → List Ev} (h : ∀ off, work (T off) = work (T' off)) (x : Sha2.WOp) : work (opT T x) = work (opT T' x) := by
  cases x <;> simp [opT, work_terms h]

theorem work_execT {T T' : Nat → List Ev} (h : ∀ off, work (T off) = work (T' off)) : ∀ rs, work (execT T rs) = work (execT T' rs)
  | [] => rfl
  | r :: rs => by
    have := work_execT h rs
    unfold execT at this ⊢
    rw [List.flatMap_cons, List.flatMap_cons, work_append, work_append, this, work_opT h]

theorem work_t256 (dig obj : String) (base : Nat) : work (transformT 4 Sha2.sha256Prog dig obj base) ≤ 160 := by
  unfold transformT
  have e : ∀ rs, work (execT (fun off => [.load obj (base + off) 4]) rs) = work (execT (fun _ => [.load "" 0 4]) rs) :=
    work_execT (fun _ => rfl)
  rw [work_append, work_append, e, show work (execT (fun _ => [.load "" 0 4]) Sha2.sha256Prog) = 64 from by decide +kernel]
  have a : work ((List.range 8).map (fun i => Ev.load dig (4 * i) 4)) = 32 := by simp [List.range, List.range.loop]
  have b : work ((List.range 8).flatMap (fun i => [Ev.load dig (4 * i) 4, Ev.store dig (4 * i) 4])) = 64 := by
    simp [List.range, List.range.loop]
  rw [a, b]

theorem work_t512 (dig obj : String) (base : Nat) : work (transformT 8 Sha2.sha512Prog dig obj base) ≤ 320 := by
  unfold transformT
  have e : ∀ rs, work (execT (fun off => [.load obj (base + off) 8]) rs) = work (execT (fun _ => [.load "" 0 8]) rs) :=
    work_execT (fun _ => rfl)
  rw [work_append, work_append, e, show work (execT (fun _ => [.load "" 0 8]) Sha2.sha512Prog) = 128 from by decide +kernel]
  have a : work ((List.range 8).map (fun i => Ev.load dig (8 * i) 8)) = 64 := by simp [List.range, List.range.loop]
  have b : work ((List.range 8).flatMap (fun i => [Ev.load dig (8 * i) 8, Ev.store dig (8 * i) 8])) = 128 := by
    simp [List.range, List.range.loop]
  rw [a, b]

theorem work_sha1Op {T T' : Nat → List Ev} (h : ∀ off, work (T off) = work (T' off)) (x : Sha1.Op) : work (sha1OpT T x) = work (sha1OpT T' x) := by
  cases x <;> simp [sha1OpT, h]

theorem work_sha1Ops {T T' : Nat → List Ev} (h : ∀ off, work (T off) = work (T' off)) : ∀ rs : List Sha1.Round,
    work (rs.flatMap (fun r => sha1OpT T r.op)) = work (rs.flatMap (fun r => sha1OpT T' r.op))
  | [] => rfl
  | r :: rs => by
    rw [List.flatMap_cons, List.flatMap_cons, work_append, work_append, work_sha1Ops h rs, work_sha1Op h]

theorem work_sha1t (obj : String) (base : Nat) : work (sha1TransformT obj base) ≤ 124 := by
  unfold sha1TransformT
  have e : ∀ rs : List Sha1.Round, work (rs.flatMap (fun r => sha1OpT (fun off => [.load obj (base + off) 4]) r.op)) =
      work (rs.flatMap (fun r => sha1OpT (fun _ => [.load "" 0 4]) r.op)) := work_sha1Ops (fun _ => rfl)
  rw [work_append, work_append, e,
    show work (Sha1.prog.flatMap (fun r => sha1OpT (fun _ => [.load "" 0 4]) r.op)) = 64 from by decide +kernel]
  exact Nat.le_refl 124

theorem work_loadX (obj : String) (base : Nat) : ∀ n i, work (loadXT obj base i n) = 4 * n
  | 0, i => rfl
  | n+1, i => by
    unfold loadXT
    simp only [work_append, work_cons, work_nil, cost_load, work_loadX obj base n]
    omega

theorem work_ripemdt (obj : String) (base : Nat) : work (ripemdTransformT obj base) ≤ 144 := by
  unfold ripemdTransformT
  rw [work_append, work_loadX]
  exact Nat.le_refl 144

theorem work_d64T (oo : String) (ob : Nat) (io : String) (ib : Nat) : work (d64T oo ob io ib) ≤ 96 := by
  unfold d64T
  have e : ∀ rs, work (execT (fun off => [.load io (ib + off) 4]) rs) = work (execT (fun _ => [.load "" 0 4]) rs) :=
    work_execT (fun _ => rfl)
  rw [work_append, work_append, work_append, e, e, e,
    show work (execT (fun _ => [.load "" 0 4]) Sha2.d64Prog1) = 64 from by decide +kernel,
    show work (execT (fun _ => [.load "" 0 4]) Sha2.d64Prog2) = 0 from by decide +kernel,
    show work (execT (fun _ => [.load "" 0 4]) Sha2.d64Prog3) = 0 from by decide +kernel]
  exact Nat.le_refl 96

attribute [local irreducible] transformT finishT sha1TransformT ripemdTransformT work

theorem work_final256 (dig obj : String) (base n : Nat) : work (final256T dig obj base n) ≤ n / 64 * 161 + 652 := by
  unfold final256T
  rw [work_append]
  have := work_finishT (transformT 4 Sha2.sha256Prog dig) 64 55 160 (by omega) (fun o b => work_t256 dig o b) obj base n
  simp only [work_cons, work_nil, cost_store]
  omega

theorem work_final512 (dig obj : String) (base n : Nat) : work (final512T dig obj base n) ≤ n / 128 * 321 + 1292 := by
  unfold final512T
  rw [work_append]
  have := work_finishT (transformT 8 Sha2.sha512Prog dig) 128 111 320 (by omega) (fun o b => work_t512 dig o b) obj base n
  simp only [work_cons, work_nil, cost_store]
  omega

theorem work_sha256 (obj : String) (base n : Nat) (dst : String) : work (sha2_256T obj base n dst) ≤ n / 64 * 161 + 748 := by
  unfold sha2_256T
  rw [work_append, work_append]
  have := work_final256 "digest" obj base n
  have e : work (putT 4 "digest" dst [] [0, 1, 2, 3, 4, 5, 6, 7]) = 64 := by simp [putT]
  simp only [work_cons, work_nil, cost_store]
  omega

theorem work_sha512 (obj : String) (base n : Nat) (dst : String) : work (sha2_512T obj base n dst) ≤ n / 128 * 321 + 1484 := by
  unfold sha2_512T
  rw [work_append, work_append]
  have := work_final512 "digest" obj base n
  have e : work (putT 8 "digest" dst [] [1, 0, 2, 3, 4, 5, 6, 7]) = 128 := by simp [putT]
  simp only [work_cons, work_nil, cost_store]
  omega

theorem work_sha1 (obj : String) (base n : Nat) (dst : String) : work (sha1T obj base n dst) ≤ n / 64 * 125 + 640 := by
  unfold sha1T
  rw [work_append, work_append]
  have := work_finishT sha1TransformT 64 55 124 (by omega) work_sha1t obj base n
  have e : work (putT 4 "digest" dst [] [0, 1, 2, 3, 4]) = 40 := by simp [putT]
  simp only [work_append, work_cons, work_nil, cost_store]
  omega

theorem work_ripemd (obj : String) (base n : Nat) (dst : String) : work (ripemd160T obj base n dst) ≤ n / 64 * 145 + 680 := by
  unfold ripemd160T
  rw [work_append, work_append]
  have := work_finishT ripemdTransformT 64 55 144 (by omega) work_ripemdt obj base n
  have e : work (putT 4 "digest" dst [] [0, 1, 2, 3, 4]) = 40 := by simp [putT]
  simp only [work_append, work_cons, work_nil, cost_store]
  omega

theorem work_hash160 (obj : String) (base n : Nat) (dst : String) : work (hash160T obj base n dst) ≤ n / 64 * 161 + 1428 := by
  unfold hash160T
  rw [work_append]
  have := work_sha256 obj base n "sha2_digest"
  have := work_ripemd "sha2_digest" 0 32 dst
  omega

theorem work_hash256 (obj : String) (base n : Nat) (dst : String) : work (hash256T obj base n dst) ≤ n / 64 * 161 + 1496 := by
  unfold hash256T
  rw [work_append]
  have := work_sha256 obj base n "sha2_digest"
  have := work_sha256 "sha2_digest" 0 32 dst
  omega

theorem work_hmac256 (ko : String) (kb kn : Nat) (mo : String) (mb n : Nat) (dst : String) :
    work (hmac256T ko kb kn mo mb n dst) ≤ kn / 64 * 161 + n / 64 * 161 + 3200 := by
  unfold hmac256T
  simp only [work_append, work_cons, work_nil, cost_store, cost_branch]
  have h1 : work (buffer256T ko kb kn) ≤ kn / 64 * 161 + 781 := by
    unfold buffer256T
    split
    · simp; omega
    · have := work_sha256 ko kb kn "buffer"
      simp; omega
  have h2 : work (xorT 0 8) = 265 := by simp [xorT]
  have h3 : work (swapT 4 0 8) = 73 := by simp [swapT]
  have h4 := work_t256 "digest_inner" "key_inner" 0
  have h5 := work_t256 "digest_outter" "key_outter" 0
  have h6 := work_final256 "digest_inner" mo mb n
  have h7 := work_final256 "digest_outter" "digest_inner" 0 32
  have h8 : work (putT 4 "digest_outter" dst [.branch true] [0, 1, 2, 3, 4, 5, 6, 7]) = 72 := by simp [putT]
  omega

theorem work_hmac512 (ko : String) (kb kn : Nat) (mo : String) (mb n : Nat) (dst : String) :
    work (hmac512T ko kb kn mo mb n dst) ≤ kn / 128 * 321 + n / 128 * 321 + 6000 := by
  unfold hmac512T
  simp only [work_append, work_cons, work_nil, cost_store, cost_branch]
  have h1 : work (buffer512T ko kb kn) ≤ kn / 128 * 321 + 1549 := by
    unfold buffer512T
    split
    · simp; omega
    · have := work_sha512 ko kb kn "buffer"
      simp; omega
  have h2 : work (xorT 0 16) = 529 := by simp [xorT]
  have h3 : work (swapT 8 0 8) = 137 := by simp [swapT]
  have h4 := work_t512 "digest_inner" "key_inner" 0
  have h5 := work_t512 "digest_outter" "key_outter" 0
  have h6 := work_final512 "digest_inner" mo mb n
  have h7 := work_final512 "digest_outter" "digest_inner" 0 64
  have h8 : work (putT 8 "digest_outter" dst [.branch true] [0, 1, 2, 3, 4, 5, 6, 7]) = 136 := by simp [putT]
  omega

theorem work_d64Loop (dst obj : String) (base : Nat) : ∀ k i, work (d64LoopT dst obj base i k) ≤ 97 * k + 1
  | 0, i => by simp [d64LoopT]
  | k+1, i => by
    unfold d64LoopT
    have := work_d64T dst (32 * i) obj (base + 64 * i)
    have := work_d64Loop dst obj base k (i + 1)
    simp only [work_append, work_cons, work_nil, cost_branch]
    omega

end Leakage
