import Verif.Model.Leakage
import Verif.Lemmas.BtcHash
import Verif.Lemmas.Sha1

/-! The watched hash functions compute what the plain ones compute, and what is seen of them depends on
the lengths only. -/
namespace Leakage
open Endian

/-- If the plain code ends with a result, the watched code ends with it too and shows `t`. -/
def Shows {α : Type} (p : Leak α) (r : Res α) (t : List Ev) : Prop := ∀ a, r = .ok a → p = .ok a t

@[simp] theorem ok_bind {α β : Type} (a : α) (t : List Ev) (k : α → Leak β) :
    ((Leak.ok a t : Leak α) >>= k) = (k a).after t := rfl
@[simp] theorem pure_eq {α : Type} (a : α) : (pure a : Leak α) = .ok a [] := rfl
@[simp] theorem seen_ok {α : Type} (t : List Ev) (a : α) : seen t (.ok a) = .ok a t := rfl
@[simp] theorem after_ok {α : Type} (t t' : List Ev) (a : α) : (Leak.ok a t').after t = .ok a (t ++ t') := rfl

theorem shows_seen {α : Type} (t : List Ev) (r : Res α) : Shows (seen t r) r t := by
  intro a h; subst h; rfl

theorem shows_pure {α : Type} (a : α) : Shows (pure a : Leak α) (pure a) [] := by
  intro b h; cases h; rfl

theorem shows_bind {α β : Type} {p : Leak α} {r : Res α} {t : List Ev} {k' : α → Leak β} {k : α → Res β}
    {t' : List Ev} (hp : Shows p r t) (hk : ∀ a, r = .ok a → Shows (k' a) (k a) t') :
    Shows (p >>= k') (r >>= k) (t ++ t') := by
  intro b h
  cases r with
  | ok a =>
    have e := hk a rfl b h
    rw [hp a rfl, ok_bind, e, after_ok]
  | ub => cases h
  | abort => cases h

theorem after_shows {α : Type} {p : Leak α} {r : Res α} {t t' : List Ev} (h : Shows p r t') :
    Shows (p.after t) r (t ++ t') := by
  intro a e
  rw [h a e, after_ok]

/-- A step of the watched code that the plain code does not have (a branch, a cleansing). -/
theorem shows_extra {α β : Type} {a : α} {t : List Ev} {k' : α → Leak β} {r : Res β} {t' : List Ev}
    (hk : Shows (k' a) r t') : Shows ((seen t (.ok a) : Leak α) >>= k') r (t ++ t') := by
  intro b h
  rw [seen_ok, ok_bind, hk b h, after_ok]

/-- A step at the end that the plain code does not have. -/
theorem shows_last {α : Type} {p : Leak α} {r : Res α} {t t' : List Ev} {k' : α → Leak α} (hp : Shows p r t)
    (hk : ∀ a, k' a = .ok a t') : Shows (p >>= k') r (t ++ t') := by
  intro b h
  rw [hp b h, ok_bind, hk, after_ok]

/-! ### The message loop and the padding -/
section
variable {δ : Type}

/-- What is seen of the message loop. -/
def blocksT (T : Nat → List Ev) (B : Nat) : Nat → Nat → Nat → List Ev
  | 0, _, _ => []
  | fuel+1, base, n =>
    if n ≥ B then [.branch true] ++ (T base ++ blocksT T B fuel (base + B) (n - B)) else [.branch false] ++ []

theorem blocks_rest (tr : δ → List Byte → Res δ) (B : Nat) : ∀ (fuel : Nat) (d : δ) (buf : List Byte)
    (n : Nat) (r : δ × List Byte × Nat), HashCommon.blocks tr B fuel d buf n = .ok r → r.2.2 = n % B := by
  intro fuel
  induction fuel with
  | zero => intro d buf n r h; cases h
  | succ fuel ih =>
    intro d buf n r h
    unfold HashCommon.blocks at h
    by_cases hn : n ≥ B
    · rw [if_pos hn] at h
      cases hd : tr d buf with
      | ok d' =>
        rw [hd] at h
        have := ih _ _ _ _ h
        rw [this, ← Nat.mod_eq_sub_mod hn]
      | ub => rw [hd] at h; cases h
      | abort => rw [hd] at h; cases h
    · rw [if_neg hn] at h
      cases h
      exact (Nat.mod_eq_of_lt (Nat.lt_of_not_le hn)).symm

theorem blocks_shows (tr' : δ → Ptr → Leak δ) (tr : δ → List Byte → Res δ) (T : String → Nat → List Ev) (B : Nat)
    (hB : 0 < B) (h : ∀ d p, Shows (tr' d p) (tr d p.mem) (T p.obj p.base)) : ∀ (fuel : Nat) (d : δ) (p : Ptr)
    (n : Nat) (r : δ × List Byte × Nat), HashCommon.blocks tr B fuel d p.mem n = .ok r →
    blocks tr' B fuel d p n =
      .ok (r.1, ⟨p.obj, p.base + (n - n % B), r.2.1⟩, r.2.2) (blocksT (T p.obj) B fuel p.base n) := by
  intro fuel
  induction fuel with
  | zero => intro d p n r e; cases e
  | succ fuel ih =>
    intro d p n r e
    unfold HashCommon.blocks at e
    unfold blocks blocksT
    by_cases hn : n ≥ B
    · rw [if_pos hn] at e ⊢
      rw [if_pos hn]
      cases hd : tr d p.mem with
      | ok d' =>
        rw [hd, Res.ok_bind] at e
        have e' := ih d' (p.add B) (n - B) r e
        rw [branch, seen_ok, ok_bind, h d p d' hd, ok_bind, e']
        simp only [after_ok, Ptr.add]
        have : p.base + B + (n - B - (n - B) % B) = p.base + (n - n % B) := by
          rw [← Nat.mod_eq_sub_mod hn]
          have : n % B < B := Nat.mod_lt _ hB
          have : n % B ≤ n - B := by
            rw [Nat.mod_eq_sub_mod hn]; exact Nat.mod_le _ _
          omega
        rw [this]
      | ub => rw [hd] at e; cases e
      | abort => rw [hd] at e; cases e
    · rw [if_neg hn] at e ⊢
      rw [if_neg hn]
      cases e
      have : n % B = n := Nat.mod_eq_of_lt (Nat.lt_of_not_le hn)
      simp [branch, this]

/-- What is seen of the padding code. -/
def finishT (T : String → Nat → List Ev) (B thr : Nat) (obj : String) (base n : Nat) : List Ev :=
  blocksT (T obj) B (n + 1) base n ++ ([.store "last_chunk" 0 B] ++
    ([.load obj (base + (n - n % B)) (n % B), .store "last_chunk" 0 (n % B)] ++
    ([.store "last_chunk" (n % B) 1] ++
    ((if n % B > thr then [.branch true] ++ (T "last_chunk" 0 ++ ([.store "last_chunk" 0 B] ++ [])) else
      [.branch false] ++ []) ++
    ([.store "last_chunk" (B - 8) 8] ++ T "last_chunk" 0)))))

theorem finish_shows (tr' : δ → Ptr → Leak δ) (tr : δ → List Byte → Res δ) (T : String → Nat → List Ev)
    (B thr : Nat) (hB : 0 < B) (h : ∀ d p, Shows (tr' d p) (tr d p.mem) (T p.obj p.base)) (chunkEnd : List Byte)
    (d : δ) (msg : Ptr) (n : Nat) :
    Shows (finish tr' B thr chunkEnd d msg n) (HashCommon.finish tr B thr chunkEnd d msg.mem n)
      (finishT T B thr msg.obj msg.base n) := by
  intro a e
  unfold HashCommon.finish at e
  cases hb : HashCommon.blocks tr B (n + 1) d msg.mem n with
  | ub => rw [hb] at e; cases e
  | abort => rw [hb] at e; cases e
  | ok r =>
    obtain ⟨d', buf, k⟩ := r
    have hk : k = n % B := blocks_rest tr B _ _ _ _ _ hb
    have hbl := blocks_shows tr' tr T B hB h _ _ _ _ _ hb
    rw [hb, Res.ok_bind] at e
    unfold finish finishT
    rw [hbl, ok_bind]
    rw [← hk]
    dsimp only at e ⊢
    refine after_shows ?_ a e
    refine shows_bind (shows_seen _ _) fun last _ => ?_
    refine shows_bind (shows_seen _ _) fun last _ => ?_
    refine shows_bind (shows_seen _ _) fun last _ => ?_
    by_cases hthr : k > thr
    · simp only [if_pos hthr, List.append_assoc]
      refine shows_extra ?_
      refine shows_bind (h _ ⟨"last_chunk", 0, last⟩) fun d _ => ?_
      refine shows_bind (shows_seen _ _) fun last _ => ?_
      refine shows_bind (shows_pure _) fun x _ => ?_
      refine shows_bind (shows_seen _ _) fun last _ => ?_
      exact h _ ⟨"last_chunk", 0, last⟩
    · simp only [if_neg hthr, List.append_assoc]
      refine shows_extra ?_
      refine shows_bind (shows_pure _) fun x _ => ?_
      refine shows_bind (shows_seen _ _) fun last _ => ?_
      exact h _ ⟨"last_chunk", 0, last⟩
end

/-! ### SHA-2 -/
section
open Sha2
variable {w : Nat}

/-- What is seen of a summand. -/
def termT (T : Nat → List Ev) : Term → List Ev
  | .be off => T off
  | .w _ => []
  | .s0 _ => []
  | .s1 _ => []
  | .c _ => []

def opT (T : Nat → List Ev) : WOp → List Ev
  | .none => []
  | .use ts => ts.flatMap (termT T)
  | .assign _ ts => ts.flatMap (termT T)
  | .plus _ ts => ts.flatMap (termT T)

def execT (T : Nat → List Ev) (rs : List Round) : List Ev := rs.flatMap (fun r => opT T r.op)

theorem shows_cast {α : Type} {p : Leak α} {r : Res α} {t t' : List Ev} (h : Shows p r t) (e : t = t') :
    Shows p r t' := e ▸ h

theorem term_shows (m : Macros w) (be' : Nat → Leak (BitVec w)) (be : Nat → Res (BitVec w)) (T : Nat → List Ev)
    (h : ∀ off, Shows (be' off) (be off) (T off)) (W : List (Option (BitVec w))) (t : Term) :
    Shows (evalTerm m be' W t) (Sha2.evalTerm m be W t) (termT T t) := by
  cases t with
  | be off => exact h off
  | w i => exact shows_seen _ _
  | s0 i => exact shows_bind (t' := []) (shows_seen [] _) fun x _ => shows_pure _
  | s1 i => exact shows_bind (t' := []) (shows_seen [] _) fun x _ => shows_pure _
  | c v => exact shows_pure _

theorem sum_shows (m : Macros w) (be' : Nat → Leak (BitVec w)) (be : Nat → Res (BitVec w)) (T : Nat → List Ev)
    (h : ∀ off, Shows (be' off) (be off) (T off)) (W : List (Option (BitVec w))) (ts : List Term) :
    ∀ acc, Shows (evalSum m be' W acc ts) (Sha2.evalSum m be W acc ts) (ts.flatMap (termT T)) := by
  induction ts with
  | nil => intro acc; exact shows_pure _
  | cons t ts ih =>
    intro acc
    rw [List.flatMap_cons]
    exact shows_bind (term_shows m be' be T h W t) fun x _ => ih _

theorem op_shows (m : Macros w) (be' : Nat → Leak (BitVec w)) (be : Nat → Res (BitVec w)) (T : Nat → List Ev)
    (h : ∀ off, Shows (be' off) (be off) (T off)) (W : List (Option (BitVec w))) (o : WOp) :
    Shows (evalOp m be' W o) (Sha2.evalOp m be W o) (opT T o) := by
  cases o with
  | none => exact shows_pure _
  | use ts =>
    exact shows_cast (shows_bind (sum_shows m be' be T h W ts _) fun x _ => shows_pure _) (List.append_nil _)
  | assign i ts =>
    exact shows_cast (shows_bind (sum_shows m be' be T h W ts _) fun x _ => shows_pure _) (List.append_nil _)
  | plus i ts =>
    refine shows_cast (shows_bind (t' := [] ++ []) (sum_shows m be' be T h W ts _) fun x _ => ?_)
      (List.append_nil _)
    exact shows_bind (shows_seen [] _) fun y _ => shows_pure _

theorem exec_shows (m : Macros w) (be' : Nat → Leak (BitVec w)) (be : Nat → Res (BitVec w)) (T : Nat → List Ev)
    (h : ∀ off, Shows (be' off) (be off) (T off)) (rs : List Round) :
    ∀ R W, Shows (exec m be' rs R W) (Sha2.exec m be rs R W) (execT T rs) := by
  induction rs with
  | nil => intro R W; exact shows_pure _
  | cons r rs ih =>
    intro R W
    unfold execT
    rw [List.flatMap_cons]
    refine shows_bind ?_ fun x _ => ih _ _
    exact shows_cast (shows_bind (op_shows m be' be T h W r.op) fun x _ => shows_pure _) (List.append_nil _)

/-- What is seen of `sha256_transform` / `sha512_transform`, words of `k` bytes. -/
def transformT (k : Nat) (prog : List Round) (dig obj : String) (base : Nat) : List Ev :=
  (List.range 8).map (fun i => .load dig (k * i) k) ++ (execT (fun off => [.load obj (base + off) k]) prog ++
    (List.range 8).flatMap (fun i => [.load dig (k * i) k, .store dig (k * i) k]))

theorem sha256Transform_shows (host : Host) (dig : String) (s : List U32) (p : Ptr) :
    Shows (sha256Transform host dig s p) (Sha2.sha256Transform host s p.mem)
      (transformT 4 sha256Prog dig p.obj p.base) := by
  unfold sha256Transform Sha2.sha256Transform
  refine shows_extra ?_
  refine shows_bind (exec_shows _ _ _ _ (fun off => shows_seen _ _) _ _ _) fun x _ => ?_
  exact shows_seen _ _

theorem sha512Transform_shows (host : Host) (dig : String) (s : List U64) (p : Ptr) :
    Shows (sha512Transform host dig s p) (Sha2.sha512Transform host s p.mem)
      (transformT 8 sha512Prog dig p.obj p.base) := by
  unfold sha512Transform Sha2.sha512Transform
  refine shows_extra ?_
  refine shows_bind (exec_shows _ _ _ _ (fun off => shows_seen _ _) _ _ _) fun x _ => ?_
  exact shows_seen _ _

def final256T (dig obj : String) (base n : Nat) : List Ev :=
  finishT (transformT 4 sha256Prog dig) 64 55 obj base n ++ [.store "last_chunk" 0 64]
def final512T (dig obj : String) (base n : Nat) : List Ev :=
  finishT (transformT 8 sha512Prog dig) 128 111 obj base n ++ [.store "last_chunk" 0 128]

theorem sha256Final_shows (host : Host) (dig : String) (d : List U32) (p : Ptr) (n a : Nat) :
    Shows (sha256Final host dig d p n a) (Sha2.sha256Final host d p.mem n a) (final256T dig p.obj p.base n) := by
  unfold sha256Final Sha2.sha256Final
  refine shows_last (finish_shows _ _ (transformT 4 sha256Prog dig) 64 55 (by omega) ?_ _ _ _ _) fun a => rfl
  exact fun d p => sha256Transform_shows host dig d p

theorem sha512Final_shows (host : Host) (dig : String) (d : List U64) (p : Ptr) (n a : Nat) :
    Shows (sha512Final host dig d p n a) (Sha2.sha512Final host d p.mem n a) (final512T dig p.obj p.base n) := by
  unfold sha512Final Sha2.sha512Final
  refine shows_last (finish_shows _ _ (transformT 8 sha512Prog dig) 128 111 (by omega) ?_ _ _ _ _) fun a => rfl
  exact fun d p => sha512Transform_shows host dig d p

/-! The digest keeps its number of words. -/

theorem blocks_inv {δ : Type} (P : δ → Prop) (tr : δ → List Byte → Res δ)
    (h : ∀ d c d', P d → tr d c = .ok d' → P d') (B : Nat) : ∀ (fuel : Nat) (d : δ) (buf : List Byte) (n : Nat)
    (r : δ × List Byte × Nat), P d → HashCommon.blocks tr B fuel d buf n = .ok r → P r.1 := by
  intro fuel
  induction fuel with
  | zero => intro d buf n r _ e; cases e
  | succ fuel ih =>
    intro d buf n r hd e
    unfold HashCommon.blocks at e
    by_cases hn : n ≥ B
    · rw [if_pos hn] at e
      cases ht : tr d buf with
      | ok d' => rw [ht, Res.ok_bind] at e; exact ih _ _ _ _ (h _ _ _ hd ht) e
      | ub => rw [ht] at e; cases e
      | abort => rw [ht] at e; cases e
    · rw [if_neg hn] at e
      cases e
      exact hd

theorem bind_ok {α β : Type} {r : Res α} {k : α → Res β} {b : β} (h : (r >>= k) = .ok b) :
    ∃ a, r = .ok a ∧ k a = .ok b := by
  cases r with
  | ok a => exact ⟨a, rfl, h⟩
  | ub => cases h
  | abort => cases h

theorem finish_inv {δ : Type} (P : δ → Prop) (tr : δ → List Byte → Res δ)
    (h : ∀ d c d', P d → tr d c = .ok d' → P d') (B thr : Nat) (e : List Byte) (d : δ) (msg : List Byte) (n : Nat)
    (r : δ) (hd : P d) (hr : HashCommon.finish tr B thr e d msg n = .ok r) : P r := by
  unfold HashCommon.finish at hr
  obtain ⟨x, hx, hr⟩ := bind_ok hr
  have hx1 := blocks_inv P tr h B _ _ _ _ _ hd hx
  obtain ⟨d', buf, k⟩ := x
  dsimp only at hr hx1
  obtain ⟨_, _, hr⟩ := bind_ok hr
  obtain ⟨_, _, hr⟩ := bind_ok hr
  obtain ⟨l, _, hr⟩ := bind_ok hr
  by_cases hk : k > thr
  · rw [if_pos hk] at hr
    obtain ⟨d2, h2, hr⟩ := bind_ok hr
    obtain ⟨_, _, hr⟩ := bind_ok hr
    obtain ⟨x, hx, hr⟩ := bind_ok hr
    cases hx
    obtain ⟨_, _, hr⟩ := bind_ok hr
    exact h _ _ _ (h _ _ _ hx1 h2) hr
  · rw [if_neg hk] at hr
    obtain ⟨x, hx, hr⟩ := bind_ok hr
    cases hx
    obtain ⟨_, _, hr⟩ := bind_ok hr
    exact h _ _ _ hx1 hr

theorem exec_length (m : Macros w) (be : Nat → Res (BitVec w)) (rs : List Round) : ∀ R W x,
    Sha2.exec m be rs R W = .ok x → x.1.length = R.length := by
  induction rs with
  | nil => intro R W x h; cases h; rfl
  | cons r rs ih =>
    intro R W x h
    unfold Sha2.exec at h
    obtain ⟨y, hy, h⟩ := bind_ok h
    rw [ih _ _ _ h]
    unfold Sha2.execRound at hy
    obtain ⟨z, _, hy⟩ := bind_ok hy
    cases hy
    simp

theorem sha256Transform_length (host : Host) (s : List U32) (c : List Byte) (r : List U32)
    (h : Sha2.sha256Transform host s c = .ok r) : r.length = s.length := by
  unfold Sha2.sha256Transform at h
  obtain ⟨x, hx, h⟩ := bind_ok h
  cases h
  rw [List.length_zipWith, exec_length _ _ _ _ _ _ hx, Nat.min_self]

theorem sha512Transform_length (host : Host) (s : List U64) (c : List Byte) (r : List U64)
    (h : Sha2.sha512Transform host s c = .ok r) : r.length = s.length := by
  unfold Sha2.sha512Transform at h
  obtain ⟨x, hx, h⟩ := bind_ok h
  cases h
  rw [List.length_zipWith, exec_length _ _ _ _ _ _ hx, Nat.min_self]

theorem sha256Final_length (host : Host) (d : List U32) (m : List Byte) (n a : Nat) (r : List U32)
    (hd : d.length = 8) (h : Sha2.sha256Final host d m n a = .ok r) : r.length = 8 :=
  finish_inv (fun d => d.length = 8) _ (fun d c d' h1 h2 => (sha256Transform_length host d c d' h2).trans h1)
    _ _ _ _ _ _ _ hd h

theorem sha512Final_length (host : Host) (d : List U64) (m : List Byte) (n a : Nat) (r : List U64)
    (hd : d.length = 8) (h : Sha2.sha512Final host d m n a = .ok r) : r.length = 8 :=
  finish_inv (fun d => d.length = 8) _ (fun d c d' h1 h2 => (sha512Transform_length host d c d' h2).trans h1)
    _ _ _ _ _ _ _ hd h

/-! Storing the words. -/

/-- The plain form of `storeWords`. -/
def putAll (put : List Byte → Nat → BitVec w → Res (List Byte)) (k : Nat) (xs : List (BitVec w)) :
    List Nat → List Byte → Res (List Byte)
  | [], mem => pure mem
  | i :: is, mem => do
    let x ← rd xs i
    let mem ← put mem (k * i) x
    putAll put k xs is mem

/-- What is seen of it. -/
def putT (k : Nat) (src dst : String) (loop : List Ev) (is : List Nat) : List Ev :=
  is.flatMap (fun i => (loop ++ [.load src (k * i) k]) ++ [.store dst (k * i) k])

theorem storeWords_shows (put : List Byte → Nat → BitVec w → Res (List Byte)) (k : Nat) (src dst : String)
    (loop : List Ev) (xs : List (BitVec w)) (is : List Nat) : ∀ mem,
    Shows (storeWords put k src dst loop xs is mem) (putAll put k xs is mem) (putT k src dst loop is) := by
  induction is with
  | nil => intro mem; exact shows_pure _
  | cons i is ih =>
    intro mem
    unfold putT
    rw [List.flatMap_cons, List.append_assoc]
    exact shows_bind (shows_seen _ _) fun x _ => shows_bind (shows_seen _ _) fun mem _ => ih _

theorem putAll_range (put : List Byte → Nat → BitVec w → Res (List Byte)) (k : Nat)
    (st : List Byte → Nat → List (BitVec w) → Res (List Byte)) (h0 : ∀ mem off, st mem off [] = .ok mem)
    (h1 : ∀ mem off x xs, st mem off (x :: xs) = (put mem off x >>= fun mem => st mem (off + k) xs))
    (xs : List (BitVec w)) : ∀ (pre : List (BitVec w)) mem,
    putAll put k (pre ++ xs) (List.range' pre.length xs.length) mem = st mem (k * pre.length) xs := by
  induction xs with
  | nil => intro pre mem; rw [h0]; rfl
  | cons x xs ih =>
    intro pre mem
    rw [h1, List.length_cons, List.range'_succ]
    unfold putAll
    rw [rd_append_mid _ _ _ _ rfl]
    simp only [Res.ok_bind]
    have e := ih (pre ++ [x])
    simp only [List.append_assoc, List.singleton_append, List.length_append, List.length_singleton] at e
    rw [show k * (pre.length + 1) = k * pre.length + k from Nat.mul_succ _ _] at e
    cases put mem (k * pre.length) x with
    | ok mem => exact e mem
    | ub => rfl
    | abort => rfl

theorem putBig32_shows (host : Host) (src dst : String) (loop : List Ev) (is : List Nat) (mem : List Byte)
    (xs : List U32) (h : List.range' 0 xs.length = is) :
    Shows (putBig32 host src dst loop is mem xs) (storeBig32 host mem 0 xs) (putT 4 src dst loop is) := by
  have e := putAll_range (fun mem off x => store32 host mem off (htobe32 host x)) 4 (storeBig32 host)
    (fun _ _ => rfl) (fun _ _ _ _ => rfl) xs [] mem
  simp only [List.nil_append, List.length_nil, Nat.mul_zero] at e
  rw [h] at e
  rw [← e]
  exact storeWords_shows _ _ _ _ _ _ _ _

theorem putBig64_shows (host : Host) (src dst : String) (loop : List Ev) (is : List Nat) (mem : List Byte)
    (xs : List U64) (h : List.range' 0 xs.length = is) :
    Shows (putBig64 host src dst loop is mem xs) (storeBig64 host mem 0 xs) (putT 8 src dst loop is) := by
  have e := putAll_range (fun mem off x => store64 host mem off (htobe64 host x)) 8 (storeBig64 host)
    (fun _ _ => rfl) (fun _ _ _ _ => rfl) xs [] mem
  simp only [List.nil_append, List.length_nil, Nat.mul_zero] at e
  rw [h] at e
  rw [← e]
  exact storeWords_shows _ _ _ _ _ _ _ _

theorem memcpy_mid (P Q S x : List Byte) (i n : Nat) (hi : P.length = i) (hQ : Q.length = n) (hx : x.length = n) :
    memcpy (P ++ (Q ++ S)) i x n = .ok (P ++ (x ++ S)) := by
  subst hi; subst hQ
  rw [memcpy_ok _ _ _ _ (Nat.le_of_eq hx.symm) (by simp), List.take_left, ← hx, List.take_length, hx,
    List.drop_append, List.drop_eq_nil_of_le (Nat.le_add_right _ _), Nat.add_sub_cancel_left, List.drop_left,
    List.nil_append, List.append_assoc]

/-- Word 1 may be stored before word 0. -/
theorem put_swapped (host : Host) (xs : List U64) (is : List Nat) (mem : List Byte) (hm : 16 ≤ mem.length)
    (hx : 2 ≤ xs.length) :
    putAll (fun mem off x => store64 host mem off (htobe64 host x)) 8 xs (1 :: 0 :: is) mem =
    putAll (fun mem off x => store64 host mem off (htobe64 host x)) 8 xs (0 :: 1 :: is) mem := by
  obtain ⟨P, Q, S, rfl, hP, hQ⟩ : ∃ P Q S, mem = P ++ (Q ++ S) ∧ P.length = 8 ∧ Q.length = 8 :=
    ⟨mem.take 8, (mem.drop 8).take 8, (mem.drop 8).drop 8, by simp only [List.take_append_drop],
      by simp; omega, by simp; omega⟩
  have h0 : rd xs 0 = .ok xs[0] := rd_ok _ _ _
  have h1 : rd xs 1 = .ok xs[1] := rd_ok _ _ _
  unfold putAll
  unfold putAll
  rw [h0, h1]
  simp only [Res.ok_bind, store64, Nat.mul_zero, Nat.mul_one]
  have l0 := bytes64_length host (htobe64 host xs[0])
  have l1 := bytes64_length host (htobe64 host xs[1])
  rw [memcpy_mid P Q S _ 8 8 hP hQ l1, Res.ok_bind]
  have e1 := memcpy_mid [] P (bytes64 host (htobe64 host xs[1]) ++ S) _ 0 8 rfl hP l0
  have e2 := memcpy_mid [] P (Q ++ S) _ 0 8 rfl hP l0
  rw [List.nil_append, List.nil_append] at e1 e2
  rw [e1, e2, Res.ok_bind, Res.ok_bind, memcpy_mid _ Q S _ 8 8 l0 hQ l1, Res.ok_bind]

/-- What is seen of `fingera_sha2_256` on `n` bytes. -/
def sha2_256T (obj : String) (base n : Nat) (dst : String) : List Ev :=
  final256T "digest" obj base n ++ (putT 4 "digest" dst [] [0, 1, 2, 3, 4, 5, 6, 7] ++ [.store "digest" 0 32])

theorem sha2_256_shows (host : Host) (p : Ptr) (n : Nat) (dst : String) (hash : List Byte) :
    Shows (sha2_256 host p n dst hash) (Sha2.sha2_256 host p.mem n hash) (sha2_256T p.obj p.base n dst) := by
  unfold sha2_256 Sha2.sha2_256
  refine shows_bind (sha256Final_shows _ _ _ _ _ _) fun d hd => ?_
  have hl := sha256Final_length host _ _ _ _ _ (by rfl) hd
  refine shows_last (putBig32_shows host _ _ _ _ _ _ ?_) fun a => rfl
  rw [hl]; rfl

def sha2_512T (obj : String) (base n : Nat) (dst : String) : List Ev :=
  final512T "digest" obj base n ++ (putT 8 "digest" dst [] [1, 0, 2, 3, 4, 5, 6, 7] ++ [.store "digest" 0 64])

theorem sha2_512_shows (host : Host) (p : Ptr) (n : Nat) (dst : String) (hash : List Byte) (hh : 16 ≤ hash.length) :
    Shows (sha2_512 host p n dst hash) (Sha2.sha2_512 host p.mem n hash) (sha2_512T p.obj p.base n dst) := by
  unfold sha2_512 Sha2.sha2_512
  refine shows_bind (sha512Final_shows _ _ _ _ _ _) fun d hd => ?_
  have hl := sha512Final_length host _ _ _ _ _ (by rfl) hd
  refine shows_last ?_ fun a => rfl
  have e := putAll_range (fun mem off x => store64 host mem off (htobe64 host x)) 8 (storeBig64 host)
    (fun _ _ => rfl) (fun _ _ _ _ => rfl) d [] hash
  simp only [List.nil_append, List.length_nil, Nat.mul_zero] at e
  rw [hl] at e
  have e2 := put_swapped host d [2, 3, 4, 5, 6, 7] hash hh (by omega)
  rw [← e]
  have e3 : List.range' 0 8 = [0, 1, 2, 3, 4, 5, 6, 7] := rfl
  rw [e3, ← e2]
  exact storeWords_shows _ _ _ _ _ _ _ _

/-! HMAC. -/

def xorT (i : Nat) : Nat → List Ev
  | 0 => [.branch false] ++ []
  | k+1 => [.branch true] ++ ([.load "buffer" (8 * i) 8] ++ ([.store "key_inner" (8 * i) 8] ++
      ([.load "buffer" (8 * i) 8] ++ ([.store "key_outter" (8 * i) 8] ++ xorT (i + 1) k))))

/-- One loop over both arrays instead of a loop for each. -/
theorem xorKeys_both (host : Host) (buf : List Byte) : ∀ (k i : Nat) (a b a' b' : List Byte),
    forLoop (fun i out => do
      let x ← load64 host buf (8 * i)
      store64 host out (8 * i) (x ^^^ 0x3636363636363636#64)) i k a = .ok a' →
    forLoop (fun i out => do
      let x ← load64 host buf (8 * i)
      store64 host out (8 * i) (x ^^^ 0x5C5C5C5C5C5C5C5C#64)) i k b = .ok b' →
    xorKeys host buf i k a b = .ok (a', b') (xorT i k) := by
  intro k
  induction k with
  | zero => intro i a b a' b' ha hb; cases ha; cases hb; rfl
  | succ k ih =>
    intro i a b a' b' ha hb
    unfold forLoop at ha hb
    obtain ⟨a1, ha1, ha⟩ := bind_ok ha
    obtain ⟨b1, hb1, hb⟩ := bind_ok hb
    obtain ⟨x, hx, ha1⟩ := bind_ok ha1
    obtain ⟨y, hy, hb1⟩ := bind_ok hb1
    cases hx.symm.trans hy
    unfold xorKeys
    simp only [hx, ha1, hb1, branch, seen_ok, ok_bind, ih _ _ _ _ _ ha hb, after_ok]
    rfl

theorem xorKeys_shows (host : Host) (buf : List Byte) (n : Nat) :
    Shows (xorKeys host buf 0 n (List.replicate (8 * n) 0xAA#8) (List.replicate (8 * n) 0xAA#8))
      (do
        let a ← xorWords host 0x3636363636363636#64 buf n
        let b ← xorWords host 0x5C5C5C5C5C5C5C5C#64 buf n
        pure (a, b)) (xorT 0 n) := by
  intro r h
  obtain ⟨a, ha, h⟩ := bind_ok h
  obtain ⟨b, hb, h⟩ := bind_ok h
  cases h
  exact xorKeys_both host buf n 0 _ _ _ _ ha hb

def swapT (bytes i : Nat) : Nat → List Ev
  | 0 => [.branch false] ++ []
  | k+1 => [.branch true] ++ ([.load "digest_inner" (bytes * i) bytes] ++
      ([.store "digest_inner" (bytes * i) bytes] ++ (swapT bytes (i + 1) k ++ [])))

theorem swapInner_eq (f : BitVec w → List Byte) (bytes : Nat) (xs : List (BitVec w)) :
    ∀ pre : List (BitVec w), swapInner f bytes (pre ++ xs) pre.length xs.length =
      .ok (xs.flatMap f) (swapT bytes pre.length xs.length) := by
  induction xs with
  | nil => intro pre; rfl
  | cons x xs ih =>
    intro pre
    have e := ih (pre ++ [x])
    simp only [List.append_assoc, List.singleton_append, List.length_append, List.length_singleton] at e
    rw [List.length_cons]
    unfold swapInner
    rw [rd_append_mid _ _ _ _ rfl, e]
    simp only [branch, seen_ok, ok_bind, after_ok, pure_eq, List.flatMap_cons]
    rfl

theorem swapInner_shows (f : BitVec w → List Byte) (bytes : Nat) (xs : List (BitVec w)) (h : xs.length = 8) :
    swapInner f bytes xs 0 8 = .ok (xs.flatMap f) (swapT bytes 0 8) := by
  have e := swapInner_eq f bytes xs []
  rw [h] at e
  exact e

def buffer256T (obj : String) (base kn : Nat) : List Ev :=
  if kn ≤ 64 then [.branch true] ++ ([.load obj base kn, .store "buffer" 0 kn] ++ [.store "buffer" kn (64 - kn)])
  else [.branch false] ++ (sha2_256T obj base kn "buffer" ++ [.store "buffer" 32 32])

theorem hmacBuffer256_shows (host : Host) (p : Ptr) (kn : Nat) :
    Shows (hmacBuffer256 host p kn) (Sha2.hmacBuffer256 host p.mem kn) (buffer256T p.obj p.base kn) := by
  unfold hmacBuffer256 Sha2.hmacBuffer256 buffer256T
  by_cases h : kn ≤ 64
  · simp only [if_pos h]
    refine shows_extra ?_
    exact shows_bind (shows_seen _ _) fun b _ => shows_seen _ _
  · simp only [if_neg h]
    refine shows_extra ?_
    exact shows_bind (sha2_256_shows _ _ _ _ _) fun b _ => shows_seen _ _

def buffer512T (obj : String) (base kn : Nat) : List Ev :=
  if kn ≤ 128 then [.branch true] ++ ([.load obj base kn, .store "buffer" 0 kn] ++ [.store "buffer" kn (128 - kn)])
  else [.branch false] ++ (sha2_512T obj base kn "buffer" ++ [.store "buffer" 64 64])

theorem hmacBuffer512_shows (host : Host) (p : Ptr) (kn : Nat) :
    Shows (hmacBuffer512 host p kn) (Sha2.hmacBuffer512 host p.mem kn) (buffer512T p.obj p.base kn) := by
  unfold hmacBuffer512 Sha2.hmacBuffer512 buffer512T
  by_cases h : kn ≤ 128
  · simp only [if_pos h]
    refine shows_extra ?_
    exact shows_bind (shows_seen _ _) fun b _ => shows_seen _ _
  · simp only [if_neg h]
    refine shows_extra ?_
    exact shows_bind (sha2_512_shows _ _ _ _ _ (by simp)) fun b _ => shows_seen _ _

theorem pair_bind {α β γ : Type} (p : Res α) (q : Res β) (k : α → β → Res γ) :
    (p >>= fun a => q >>= fun b => k a b) =
    ((p >>= fun a => q >>= fun b => (pure (a, b) : Res (α × β))) >>= fun x => k x.1 x.2) := by
  cases p <;> cases q <;> rfl

def hmac256T (ko : String) (kb kn : Nat) (mo : String) (mb n : Nat) (dst : String) : List Ev :=
  buffer256T ko kb kn ++ (xorT 0 8 ++ (transformT 4 sha256Prog "digest_inner" "key_inner" 0 ++
    (final256T "digest_inner" mo mb n ++ (swapT 4 0 8 ++ (transformT 4 sha256Prog "digest_outter" "key_outter" 0 ++
    (final256T "digest_outter" "digest_inner" 0 32 ++
    (putT 4 "digest_outter" dst [.branch true] [0, 1, 2, 3, 4, 5, 6, 7] ++
      ([.branch false] ++ ([.store "digest_outter" 0 32] ++ ([.store "digest_inner" 0 32] ++ []))))))))))

theorem hmac_sha256_shows (host : Host) (key : Ptr) (kn : Nat) (msg : Ptr) (n : Nat) (dst : String) (out : List Byte) :
    Shows (hmac_sha256 host key kn msg n dst out) (Sha2.hmac_sha256 host key.mem kn msg.mem n out)
      (hmac256T key.obj key.base kn msg.obj msg.base n dst) := by
  unfold hmac_sha256 Sha2.hmac_sha256
  refine shows_bind (hmacBuffer256_shows _ _ _) fun buf _ => ?_
  rw [pair_bind]
  refine shows_bind (xorKeys_shows host buf 8) fun x _ => ?_
  refine shows_bind (sha256Transform_shows _ _ _ ⟨"key_inner", 0, x.1⟩) fun d hd => ?_
  refine shows_bind (sha256Final_shows _ _ _ _ _ _) fun inner hi => ?_
  have hl := sha256Final_length host _ _ _ _ _ (sha256Transform_length host _ _ _ hd) hi
  rw [swapInner_shows _ _ _ hl, ok_bind]
  refine after_shows ?_
  rw [← List.flatMap_map]
  refine shows_bind (sha256Transform_shows _ _ _ ⟨"key_outter", 0, x.2⟩) fun d2 hd2 => ?_
  refine shows_bind (sha256Final_shows _ _ _ ⟨"digest_inner", 0, _⟩ _ _) fun o ho => ?_
  have hl2 := sha256Final_length host _ _ _ _ _ (sha256Transform_length host _ _ _ hd2) ho
  refine shows_last (putBig32_shows host _ _ _ _ _ _ ?_) fun a => rfl
  rw [hl2]; rfl

def hmac512T (ko : String) (kb kn : Nat) (mo : String) (mb n : Nat) (dst : String) : List Ev :=
  buffer512T ko kb kn ++ (xorT 0 16 ++ (transformT 8 sha512Prog "digest_inner" "key_inner" 0 ++
    (final512T "digest_inner" mo mb n ++ (swapT 8 0 8 ++ (transformT 8 sha512Prog "digest_outter" "key_outter" 0 ++
    (final512T "digest_outter" "digest_inner" 0 64 ++
    (putT 8 "digest_outter" dst [.branch true] [0, 1, 2, 3, 4, 5, 6, 7] ++
      ([.branch false] ++ ([.store "digest_outter" 0 64] ++ ([.store "digest_inner" 0 64] ++ []))))))))))

theorem hmac_sha512_shows (host : Host) (key : Ptr) (kn : Nat) (msg : Ptr) (n : Nat) (dst : String) (out : List Byte) :
    Shows (hmac_sha512 host key kn msg n dst out) (Sha2.hmac_sha512 host key.mem kn msg.mem n out)
      (hmac512T key.obj key.base kn msg.obj msg.base n dst) := by
  unfold hmac_sha512 Sha2.hmac_sha512
  refine shows_bind (hmacBuffer512_shows _ _ _) fun buf _ => ?_
  rw [pair_bind]
  refine shows_bind (xorKeys_shows host buf 16) fun x _ => ?_
  refine shows_bind (sha512Transform_shows _ _ _ ⟨"key_inner", 0, x.1⟩) fun d hd => ?_
  refine shows_bind (sha512Final_shows _ _ _ _ _ _) fun inner hi => ?_
  have hl := sha512Final_length host _ _ _ _ _ (sha512Transform_length host _ _ _ hd) hi
  rw [swapInner_shows _ _ _ hl, ok_bind]
  refine after_shows ?_
  rw [← List.flatMap_map]
  refine shows_bind (sha512Transform_shows _ _ _ ⟨"key_outter", 0, x.2⟩) fun d2 hd2 => ?_
  refine shows_bind (sha512Final_shows _ _ _ ⟨"digest_inner", 0, _⟩ _ _) fun o ho => ?_
  have hl2 := sha512Final_length host _ _ _ _ _ (sha512Transform_length host _ _ _ hd2) ho
  refine shows_last (putBig64_shows host _ _ _ _ _ _ ?_) fun a => rfl
  rw [hl2]; rfl
end

/-! ### SHA-1 -/
section
open Sha1

def sha1OpT (T : Nat → List Ev) : Op → List Ev
  | .load _ off => T off
  | .mix _ _ _ _ _ => []

theorem sha1Op_shows (be' : Nat → Leak U32) (be : Nat → Res U32) (T : Nat → List Ev)
    (h : ∀ off, Shows (be' off) (be off) (T off)) (W : List (Option U32)) (o : Op) :
    Shows (sha1Op be' W o) (Sha1.evalOp be W o) (sha1OpT T o) := by
  cases o with
  | load i off => exact shows_cast (shows_bind (h off) fun x _ => shows_pure _) (List.append_nil _)
  | mix dst p q r s =>
    refine shows_bind (t := []) (t' := []) (shows_seen [] _) fun x _ => ?_
    refine shows_bind (t := []) (t' := []) (shows_seen [] _) fun x _ => ?_
    refine shows_bind (t := []) (t' := []) (shows_seen [] _) fun x _ => ?_
    refine shows_bind (t := []) (t' := []) (shows_seen [] _) fun x _ => ?_
    cases dst with
    | some i => exact shows_pure _
    | none => exact shows_pure _

theorem sha1Exec_shows (be' : Nat → Leak U32) (be : Nat → Res U32) (T : Nat → List Ev)
    (h : ∀ off, Shows (be' off) (be off) (T off)) (rs : List Round) :
    ∀ R W, Shows (sha1Exec be' rs R W) (Sha1.exec be rs R W) (rs.flatMap (fun r => sha1OpT T r.op)) := by
  induction rs with
  | nil => intro R W; exact shows_pure _
  | cons r rs ih =>
    intro R W
    rw [List.flatMap_cons]
    refine shows_bind ?_ fun x _ => ih _ _
    exact shows_cast (shows_bind (sha1Op_shows be' be T h W r.op) fun x _ => shows_pure _) (List.append_nil _)

def sha1TransformT (obj : String) (base : Nat) : List Ev :=
  (List.range 5).map (fun i => .load "digest" (4 * i) 4) ++
    (prog.flatMap (fun r => sha1OpT (fun off => [.load obj (base + off) 4]) r.op) ++
    (List.range 5).flatMap (fun i => [.load "digest" (4 * i) 4, .store "digest" (4 * i) 4]))

theorem sha1Transform_shows (host : Host) (s : List U32) (p : Ptr) :
    Shows (sha1Transform host s p) (Sha1.transform host s p.mem) (sha1TransformT p.obj p.base) := by
  unfold sha1Transform Sha1.transform
  refine shows_extra ?_
  refine shows_bind (sha1Exec_shows _ _ _ (fun off => shows_seen _ _) _ _ _) fun x _ => ?_
  exact shows_seen _ _

theorem sha1Exec_length (be : Nat → Res U32) (rs : List Round) : ∀ R W x,
    Sha1.exec be rs R W = .ok x → x.1.length = R.length := by
  induction rs with
  | nil => intro R W x h; cases h; rfl
  | cons r rs ih =>
    intro R W x h
    unfold Sha1.exec at h
    obtain ⟨y, hy, h⟩ := bind_ok h
    rw [ih _ _ _ h]
    unfold Sha1.execRound at hy
    obtain ⟨z, _, hy⟩ := bind_ok hy
    cases hy
    simp

theorem sha1Transform_length (host : Host) (s : List U32) (c : List Byte) (r : List U32)
    (h : Sha1.transform host s c = .ok r) : r.length = s.length := by
  unfold Sha1.transform at h
  obtain ⟨x, hx, h⟩ := bind_ok h
  cases h
  rw [List.length_zipWith, sha1Exec_length _ _ _ _ _ hx, Nat.min_self]

def sha1T (obj : String) (base n : Nat) (dst : String) : List Ev :=
  finishT sha1TransformT 64 55 obj base n ++ (putT 4 "digest" dst [] [0, 1, 2, 3, 4] ++
    ([.store "digest" 0 20] ++ ([.store "last_chunk" 0 64] ++ [])))

theorem sha1_shows (host : Host) (p : Ptr) (n : Nat) (dst : String) (hash : List Byte) :
    Shows (sha1 host p n dst hash) (Sha1.sha1 host p.mem n hash) (sha1T p.obj p.base n dst) := by
  unfold sha1 Sha1.sha1
  refine shows_bind (finish_shows _ _ sha1TransformT 64 55 (by omega)
    (fun d p => sha1Transform_shows host d p) _ _ _ _) fun d hd => ?_
  have hl : d.length = 5 := finish_inv (fun d => d.length = 5) _
    (fun d c d' h1 h2 => (sha1Transform_length host d c d' h2).trans h1) _ _ _ _ _ _ _ (by rfl) hd
  refine shows_last (putBig32_shows host _ _ _ _ _ _ ?_) fun a => rfl
  rw [hl]; rfl
end

/-! ### RIPEMD-160 -/
section
open Ripemd160

def loadXT (obj : String) (base i : Nat) : Nat → List Ev
  | 0 => []
  | n+1 => [.load obj (base + i * 4) 4] ++ (loadXT obj base (i + 1) n ++ [])

theorem loadX_shows (host : Host) (p : Ptr) : ∀ (n i : Nat),
    Shows (loadX host p i n) (Ripemd160.loadX host p.mem i n) (loadXT p.obj p.base i n) := by
  intro n
  induction n with
  | zero => intro i; exact shows_pure _
  | succ n ih =>
    intro i
    exact shows_bind (shows_seen _ _) fun x _ => shows_bind (ih _) fun xs _ => shows_pure _

def ripemdTransformT (obj : String) (base : Nat) : List Ev := loadXT obj base 0 16 ++ ripemdState

theorem ripemdTransform_shows (host : Host) (s : List U32) (p : Ptr) :
    Shows (ripemdTransform host s p) (Ripemd160.transform host s p.mem) (ripemdTransformT p.obj p.base) := by
  unfold ripemdTransform Ripemd160.transform
  exact shows_bind (loadX_shows _ _ _ _) fun x _ => shows_seen _ _

theorem ripemdTransform_length (host : Host) (s : List U32) (c : List Byte) (r : List U32)
    (h : Ripemd160.transform host s c = .ok r) : r.length = s.length := by
  unfold Ripemd160.transform at h
  obtain ⟨x, hx, h⟩ := bind_ok h
  cases h
  simp

theorem putLittle32_shows (host : Host) (src dst : String) (is : List Nat) (mem : List Byte)
    (xs : List U32) (h : List.range' 0 xs.length = is) :
    Shows (putLittle32 host src dst is mem xs) (storeLittle32 host mem 0 xs) (putT 4 src dst [] is) := by
  have e := putAll_range (fun mem off x => store32 host mem off (htole32 host x)) 4 (storeLittle32 host)
    (fun _ _ => rfl) (fun _ _ _ _ => rfl) xs [] mem
  simp only [List.nil_append, List.length_nil, Nat.mul_zero] at e
  rw [h] at e
  rw [← e]
  exact storeWords_shows _ _ _ _ _ _ _ _

def ripemd160T (obj : String) (base n : Nat) (dst : String) : List Ev :=
  finishT ripemdTransformT 64 55 obj base n ++ (putT 4 "digest" dst [] [0, 1, 2, 3, 4] ++
    ([.store "digest" 0 20] ++ ([.store "last_chunk" 0 64] ++ [])))

theorem ripemd160_shows (host : Host) (p : Ptr) (n : Nat) (dst : String) (hash : List Byte) :
    Shows (ripemd160 host p n dst hash) (Ripemd160.ripemd160 host p.mem n hash) (ripemd160T p.obj p.base n dst) := by
  unfold ripemd160 Ripemd160.ripemd160
  refine shows_bind (finish_shows _ _ ripemdTransformT 64 55 (by omega)
    (fun d p => ripemdTransform_shows host d p) _ _ _ _) fun d hd => ?_
  have hl : d.length = 5 := finish_inv (fun d => d.length = 5) _
    (fun d c d' h1 h2 => (ripemdTransform_length host d c d' h2).trans h1) _ _ _ _ _ _ _ (by rfl) hd
  refine shows_last (putLittle32_shows host _ _ _ _ _ ?_) fun a => rfl
  rw [hl]; rfl
end

/-! ### Bitcoin hashes -/

def hash160T (obj : String) (base n : Nat) (dst : String) : List Ev :=
  sha2_256T obj base n "sha2_digest" ++ ripemd160T "sha2_digest" 0 32 dst

theorem hash160_shows (host : Host) (p : Ptr) (n : Nat) (dst : String) (hash : List Byte) :
    Shows (hash160 host p n dst hash) (BtcHash.hash160 host p.mem n hash) (hash160T p.obj p.base n dst) :=
  shows_bind (sha2_256_shows _ _ _ _ _) fun d _ => ripemd160_shows host ⟨"sha2_digest", 0, d⟩ _ _ _

def hash256T (obj : String) (base n : Nat) (dst : String) : List Ev :=
  sha2_256T obj base n "sha2_digest" ++ sha2_256T "sha2_digest" 0 32 dst

theorem hash256_shows (host : Host) (p : Ptr) (n : Nat) (dst : String) (hash : List Byte) :
    Shows (hash256 host p n dst hash) (BtcHash.hash256 host p.mem n hash) (hash256T p.obj p.base n dst) :=
  shows_bind (sha2_256_shows _ _ _ _ _) fun d _ => sha2_256_shows host ⟨"sha2_digest", 0, d⟩ _ _ _

def bip32T (co : String) (cb : Nat) (do_ : String) (db : Nat) (dst : String) : List Ev :=
  [.load "header" 0 1, .store "hmac_msg" 0 1] ++ ([.load do_ db 32, .store "hmac_msg" 1 32] ++
    ([.store "hmac_msg" 33 4] ++ (hmac512T co cb 32 "hmac_msg" 0 37 dst ++ [.store "hmac_msg" 0 37])))

theorem bip32_hash_shows (host : Host) (chain : Ptr) (child : U32) (header : Byte) (data : Ptr) (dst : String)
    (out : List Byte) :
    Shows (bip32_hash host chain child header data dst out)
      (BtcHash.bip32_hash host chain.mem child header data.mem out)
      (bip32T chain.obj chain.base data.obj data.base dst) := by
  unfold bip32_hash BtcHash.bip32_hash
  refine shows_bind (shows_seen _ _) fun b _ => ?_
  refine shows_bind (shows_seen _ _) fun b _ => ?_
  refine shows_bind (shows_seen _ _) fun b _ => ?_
  exact shows_last (hmac_sha512_shows host chain 32 ⟨"hmac_msg", 0, b⟩ 37 dst out) fun a => rfl

section
open Sha2

/-- What is seen of `_hash256_d64_transform`. -/
def d64T (oo : String) (ob : Nat) (io : String) (ib : Nat) : List Ev :=
  execT (fun off => [.load io (ib + off) 4]) d64Prog1 ++ (execT (fun off => [.load io (ib + off) 4]) d64Prog2 ++
    (execT (fun off => [.load io (ib + off) 4]) d64Prog3 ++
      (List.range 8).map (fun i => .store oo (ob + 4 * i) 4)))

theorem d64_shows (host : Host) (out inp : Ptr) :
    Shows (d64Transform host out inp) (Sha2.d64Transform host out.mem inp.mem)
      (d64T out.obj out.base inp.obj inp.base) := by
  unfold d64Transform Sha2.d64Transform
  refine shows_bind (exec_shows _ _ _ _ (fun off => shows_seen _ _) _ _ _) fun x _ => ?_
  refine shows_bind (exec_shows _ _ _ _ (fun off => shows_seen _ _) _ _ _) fun x _ => ?_
  refine shows_bind (exec_shows _ _ _ _ (fun off => shows_seen _ _) _ _ _) fun x _ => ?_
  exact shows_seen _ _

def d64LoopT (dst obj : String) (base i : Nat) : Nat → List Ev
  | 0 => [.branch false] ++ []
  | k+1 => [.branch true] ++ (d64T dst (32 * i) obj (base + 64 * i) ++ d64LoopT dst obj base (i + 1) k)

theorem d64Loop_shows (host : Host) (dst : String) (inp : Ptr) : ∀ (k i : Nat) (out : List Byte),
    Shows (d64Loop host dst inp i k out)
      (forLoop (fun i out => do
        let o ← Sha2.d64Transform host (out.drop (32 * i)) (inp.mem.drop (64 * i))
        pure (out.take (32 * i) ++ o)) i k out) (d64LoopT dst inp.obj inp.base i k) := by
  intro k
  induction k with
  | zero => intro i out; exact shows_extra (shows_pure _)
  | succ k ih =>
    intro i out r h
    unfold forLoop at h
    obtain ⟨o', ho, h⟩ := bind_ok h
    obtain ⟨o, ho1, ho⟩ := bind_ok ho
    cases ho
    unfold d64Loop
    have e := d64_shows host ⟨dst, 32 * i, out.drop (32 * i)⟩ (inp.add (64 * i)) o ho1
    simp only [branch, seen_ok, ok_bind, e, ih _ _ _ h, after_ok]
    rfl

theorem hash256_d64_shows (host : Host) (dst : String) (out : List Byte) (inp : Ptr) (k : Nat) :
    Shows (hash256_d64 host dst out inp k) (BtcHash.hash256_d64 host out inp.mem k)
      (d64LoopT dst inp.obj inp.base 0 k) := d64Loop_shows host dst inp k 0 out
end
end Leakage
