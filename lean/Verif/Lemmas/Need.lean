import Verif.Model.Hex
import Verif.Model.Base64
import Verif.Model.Base32
import Verif.Model.Base58Check
import Verif.Model.CompressInteger
import Verif.Model.Bech32
import Verif.Model.Exkey
import Verif.Model.Sha1
import Verif.Spec.Basic

/-!
How much of an output object a function needs.  `Sim R p q`: when the run `p` ends normally so does `q`, with related results;
when `p` fails an assertion so does `q`; when `p` leaves an object nothing is said.  A function whose output object is made longer is
simulated by itself (`Frame`), and from this the exact size it needs follows once it is known what it writes into large objects.
-/

def Sim {α β : Type} (R : α → β → Prop) (p : Res α) (q : Res β) : Prop :=
  match p with
  | .ok a => ∃ b, q = .ok b ∧ R a b
  | .abort => q = .abort
  | .ub => True

namespace Sim
variable {α β γ δ : Type} {R : α → β → Prop} {S : γ → δ → Prop}

theorem ret {a : α} {b : β} (h : R a b) : Sim R (.ok a) (.ok b) := ⟨b, rfl, h⟩

theorem pure {a : α} {b : β} (h : R a b) : Sim R (Pure.pure a : Res α) (Pure.pure b) := ⟨b, rfl, h⟩

theorem bind {p : Res α} {q : Res β} {f : α → Res γ} {g : β → Res δ} (h : Sim R p q)
    (h2 : ∀ a b, R a b → Sim S (f a) (g b)) : Sim S (p >>= f) (q >>= g) := by
  cases p with
  | ub => trivial
  | abort =>
    have hq : q = .abort := h
    rw [hq]
    rfl
  | ok a =>
    obtain ⟨b, hq, hr⟩ := h
    rw [hq]
    exact h2 a b hr

/-- The two runs start with the same steps. -/
theorem same {p : Res α} {f : α → Res γ} {g : α → Res δ} (h : ∀ a, Sim S (f a) (g a)) : Sim S (p >>= f) (p >>= g) := by
  cases p with
  | ub => trivial
  | abort => rfl
  | ok a => exact h a

theorem refl {p : Res α} (T : α → α → Prop) (h : ∀ a, T a a) : Sim T p p := by
  cases p with
  | ub => trivial
  | abort => rfl
  | ok a => exact ⟨a, rfl, h a⟩

/-- As `bind`, with the result of the first step known. -/
theorem bindOk {p : Res α} {q : Res β} {f : α → Res γ} {g : β → Res δ} (h : Sim R p q)
    (h2 : ∀ a b, p = .ok a → R a b → Sim S (f a) (g b)) : Sim S (p >>= f) (q >>= g) := by
  cases p with
  | ub => trivial
  | abort =>
    have hq : q = .abort := h
    rw [hq]
    rfl
  | ok a =>
    obtain ⟨b, hq, hr⟩ := h
    rw [hq]
    exact h2 a b rfl hr

theorem ite {c : Prop} [Decidable c] {p p' : Res α} {q q' : Res β} (h : Sim R p q) (h' : Sim R p' q') :
    Sim R (if c then p else p') (if c then q else q') := by
  by_cases hc : c
  · rw [if_pos hc, if_pos hc]; exact h
  · rw [if_neg hc, if_neg hc]; exact h'

theorem loop {f : Nat → α → Res α} {g : Nat → β → Res β} (h : ∀ i a b, R a b → Sim R (f i a) (g i b)) (k : Nat) :
    ∀ (i : Nat) (a : α) (b : β), R a b → Sim R (forLoop f i k a) (forLoop g i k b) := by
  induction k with
  | zero => intro i a b hr; exact ⟨b, rfl, hr⟩
  | succ k ih =>
    intro i a b hr
    rw [forLoop, forLoop]
    exact bind (h i a b hr) fun a b hr => ih (i + 1) a b hr

end Sim

/-- The second object is the first one with `x` behind it. -/
def Longer {α : Type} (x : List α) (a b : List α) : Prop := b = a ++ x

/-- The same for the results of functions that also return a number or a flag. -/
def Longer2 {α γ : Type} (x : List α) (a b : List α × γ) : Prop := b.1 = a.1 ++ x ∧ b.2 = a.2

section objects
variable {α : Type} {x m m' : List α}

theorem wr_longer (i : Nat) (v : α) (h : Longer x m m') : Sim (Longer x) (wr m i v) (wr m' i v) := by
  rw [Longer] at h
  rw [wr, wr, h]
  by_cases hi : i < m.length
  · rw [if_pos hi, if_pos (by rw [List.length_append]; omega)]
    refine ⟨_, rfl, ?_⟩
    rw [Longer, List.set_append, if_pos hi]
  · rw [if_neg hi]
    trivial

theorem wrs_longer (vs : List α) : ∀ (i : Nat) (m m' : List α), Longer x m m' → Sim (Longer x) (wrs m i vs) (wrs m' i vs) := by
  induction vs with
  | nil => intro i m m' h; exact ⟨_, rfl, h⟩
  | cons v vs ih =>
    intro i m m' h
    rw [wrs, wrs]
    exact Sim.bind (wr_longer i v h) fun a b hr => ih (i + 1) a b hr

theorem take_append_longer (n : Nat) (hn : n ≤ m.length) : (m ++ x).take n = m.take n := List.take_append_of_le_length hn

theorem drop_append_longer (n : Nat) (hn : n ≤ m.length) : (m ++ x).drop n = m.drop n ++ x := List.drop_append_of_le_length hn

theorem memcpy_longer (off : Nat) (src : List α) (n : Nat) (h : Longer x m m') :
    Sim (Longer x) (memcpy m off src n) (memcpy m' off src n) := by
  rw [Longer] at h
  rw [memcpy, memcpy, h]
  by_cases hi : n ≤ src.length ∧ off + n ≤ m.length
  · rw [if_pos hi, if_pos ⟨hi.1, by rw [List.length_append]; omega⟩]
    refine ⟨_, rfl, ?_⟩
    rw [Longer, take_append_longer off (by omega), drop_append_longer _ hi.2]
    simp only [List.append_assoc]
  · rw [if_neg hi]
    trivial

theorem memset_longer (off : Nat) (v : α) (n : Nat) (h : Longer x m m') :
    Sim (Longer x) (memset m off v n) (memset m' off v n) := by
  rw [Longer] at h
  rw [memset, memset, h]
  by_cases hi : off + n ≤ m.length
  · rw [if_pos hi, if_pos (by rw [List.length_append]; omega)]
    refine ⟨_, rfl, ?_⟩
    rw [Longer, take_append_longer off (by omega), drop_append_longer _ hi]
    simp only [List.append_assoc]
  · rw [if_neg hi]
    trivial

end objects

/-- A function of its output object that is simulated by itself on longer ones. -/
def Frame (f : List Byte → Res (List Byte)) : Prop := ∀ o x, Sim (Longer x) (f o) (f (o ++ x))

def Frame2 {γ : Type} (f : List Byte → Res (List Byte × γ)) : Prop := ∀ o x, Sim (Longer2 x) (f o) (f (o ++ x))

namespace Need

theorem over_exact (W o : List Byte) (h : o.length = W.length) : over W o = W := by
  rw [over, List.drop_eq_nil_of_le (by omega), List.append_nil]

/-- Two objects of the same positive length without a common one. -/
theorem two_fillings (W r : List Byte) (k : Nat) (hk : 0 < k) (h0 : W = r ++ List.replicate k 0#8) (h1 : ∃ r', W = r' ++ List.replicate k 1#8) : False := by
  obtain ⟨r', h1⟩ := h1
  have e := h0.symm.trans h1
  have hl := congrArg List.length e
  simp only [List.length_append, List.length_replicate] at hl
  have := (List.append_inj e (by omega)).2
  obtain ⟨j, rfl⟩ : ∃ j, k = j + 1 := ⟨k - 1, by omega⟩
  rw [List.replicate_succ, List.replicate_succ] at this
  have hh := (List.cons.inj this).1
  revert hh
  decide

theorem exact {f : List Byte → Res (List Byte)} (hf : Frame f) (W : List Byte)
    (h : ∀ o : List Byte, W.length ≤ o.length → f o = .ok (over W o)) (o : List Byte) :
    f o = if W.length ≤ o.length then .ok (over W o) else .ub := by
  by_cases hw : W.length ≤ o.length
  · rw [if_pos hw, h o hw]
  · rw [if_neg hw]
    have key : ∀ v : Byte, Sim (fun a (_ : List Byte) => W = a ++ List.replicate (W.length - o.length) v) (f o)
        (f (o ++ List.replicate (W.length - o.length) v)) := by
      intro v
      have hs := hf o (List.replicate (W.length - o.length) v)
      have e : f (o ++ List.replicate (W.length - o.length) v) = .ok W := by
        rw [h _ (by rw [List.length_append, List.length_replicate]; omega),
          over_exact W _ (by rw [List.length_append, List.length_replicate]; omega)]
      rw [e] at hs ⊢
      cases hp : f o with
      | ub => trivial
      | abort => rw [hp] at hs; exact hs
      | ok a =>
        rw [hp] at hs
        obtain ⟨b, hb, hr⟩ := hs
        refine ⟨W, rfl, ?_⟩
        rw [← Res.ok.inj hb] at hr
        exact hr
    have e : ∀ v : Byte, f (o ++ List.replicate (W.length - o.length) v) = .ok W := by
      intro v
      rw [h _ (by rw [List.length_append, List.length_replicate]; omega),
        over_exact W _ (by rw [List.length_append, List.length_replicate]; omega)]
    cases hp : f o with
    | ub => rfl
    | abort =>
      have k0 := key 0#8
      rw [hp, e 0#8] at k0
      cases k0
    | ok a =>
      have k0 := key 0#8
      have k1 := key 1#8
      rw [hp] at k0 k1
      obtain ⟨_, -, k0⟩ := k0
      obtain ⟨_, -, k1⟩ := k1
      exact (two_fillings W a _ (by omega) k0 ⟨a, k1⟩).elim

theorem exact2 {γ : Type} {f : List Byte → Res (List Byte × γ)} (hf : Frame2 f) (W : List Byte) (n : γ)
    (h : ∀ o : List Byte, W.length ≤ o.length → f o = .ok (over W o, n)) (o : List Byte) :
    f o = if W.length ≤ o.length then .ok (over W o, n) else .ub := by
  by_cases hw : W.length ≤ o.length
  · rw [if_pos hw, h o hw]
  · rw [if_neg hw]
    have hf' : Frame (fun o => do let r ← f o; pure r.1) := by
      intro o x
      refine Sim.bind (hf o x) fun a b hr => ?_
      exact ⟨_, rfl, hr.1⟩
    have e := exact hf' W (fun o ho => by show (f o >>= fun r => pure r.1) = _; rw [h o ho]; rfl) o
    rw [if_neg hw] at e
    cases hp : f o with
    | ub => rfl
    | abort =>
      have e' : (f o >>= fun r => pure r.1) = Res.ub := e
      rw [hp] at e'
      cases e'
    | ok a =>
      have e' : (f o >>= fun r => pure r.1) = Res.ub := e
      rw [hp] at e'
      cases e'

end Need

/-! ### Every encoder and every hash function is such a function -/

namespace Frame

theorem toHex (buf : List Byte) (n : Nat) (upper : Bool) : Frame (fun o => Hex.toHex buf n o upper) := by
  intro o x
  dsimp only
  rw [Hex.toHex, Hex.toHex]
  refine Sim.bind (R := Longer2 x) (Sim.loop (fun i a b hr => ?_) n 0 _ _ ⟨rfl, rfl⟩) fun a b hr => ⟨_, rfl, hr.1⟩
  refine Sim.same fun byte => ?_
  refine Sim.same fun c => ?_
  rw [hr.2]
  refine Sim.bind (wr_longer _ c hr.1) fun a' b' hr' => ?_
  refine Sim.same fun c2 => ?_
  refine Sim.bind (wr_longer _ c2 hr') fun a2 b2 hr2 => ⟨_, rfl, hr2, rfl⟩

theorem base64Body (url : Bool) (buf : List Byte) {x : List Byte} (i : Nat) (a b : List Byte) (h : Longer x a b) :
    Sim (Longer x) (Base64.encBody url buf i a) (Base64.encBody url buf i b) := by
  rw [Base64.encBody, Base64.encBody]
  refine Sim.same fun i0 => Sim.same fun i1 => Sim.same fun i2 => ?_
  dsimp only
  refine Sim.same fun c => Sim.bind (wr_longer _ c h) fun a b h => ?_
  refine Sim.same fun c => Sim.bind (wr_longer _ c h) fun a b h => ?_
  refine Sim.same fun c => Sim.bind (wr_longer _ c h) fun a b h => ?_
  exact Sim.same fun c => wr_longer _ c h

theorem base64Tail (url : Bool) (buf : List Byte) (n t : Nat) {x : List Byte} (a b : List Byte) (h : Longer x a b) :
    Sim (Longer x) (Base64.encTail url buf n t a) (Base64.encTail url buf n t b) := by
  rw [Base64.encTail, Base64.encTail]
  refine Sim.ite ?_ (Sim.ret h)
  refine Sim.same fun i0 => ?_
  dsimp only
  refine Sim.same fun c => Sim.bind (wr_longer _ c h) fun a b h => ?_
  refine Sim.ite ?_ ?_
  · refine Sim.same fun i1 => ?_
    refine Sim.same fun c => Sim.bind (wr_longer _ c h) fun a b h => ?_
    refine Sim.same fun c => Sim.bind (wr_longer _ c h) fun a b h => ?_
    exact Sim.ite (wr_longer _ _ h) (Sim.ret h)
  · refine Sim.same fun c => Sim.bind (wr_longer _ c h) fun a b h => ?_
    refine Sim.ite ?_ (Sim.ret h)
    exact Sim.bind (wr_longer _ _ h) fun a b h => wr_longer _ _ h

theorem toBase64Impl (buf : List Byte) (n : Nat) (url : Bool) : Frame (fun o => Base64.toBase64Impl buf n o url) := by
  intro o x
  dsimp only
  rw [Base64.toBase64Impl, Base64.toBase64Impl]
  exact Sim.bind (Sim.loop (base64Body url buf) _ 0 o _ rfl) fun a b h => base64Tail url buf _ _ a b h

theorem base32Put (raw : Bool) (p : Nat) (bytes : List Byte) {x : List Byte} (a b : List Byte) (h : Longer x a b) :
    Sim (Longer2 x) (Base32.putTail raw a p bytes) (Base32.putTail raw b p bytes) := by
  rw [Base32.putTail, Base32.putTail]
  refine Sim.same fun vs => Sim.bind (wrs_longer vs _ _ _ h) fun a b h => ?_
  refine Sim.ite ?_ (Sim.ret ⟨h, rfl⟩)
  exact Sim.bind (wrs_longer _ _ _ _ h) fun a b h => Sim.ret ⟨h, rfl⟩

theorem toBase32Impl (buf : List Byte) (n : Nat) (raw : Bool) : Frame2 (fun o => Base32.toBase32Impl buf n o raw) := by
  intro o x
  dsimp only
  rw [Base32.toBase32Impl, Base32.toBase32Impl]
  refine Sim.bind (R := Longer x) (Sim.loop (fun i a b h => ?_) _ 0 o _ rfl) fun a b h => ?_
  · rw [Base32.encBody, Base32.encBody]
    refine Sim.same fun i0 => Sim.same fun i1 => Sim.same fun i2 => Sim.same fun i3 => Sim.same fun i4 => ?_
    exact Sim.same fun vs => wrs_longer vs _ _ _ h
  · refine Sim.bind (R := Longer2 x) ?_ fun a b h => Sim.ret ⟨h.1, by rw [h.2]⟩
    rw [Base32.encTail, Base32.encTail]
    refine Sim.ite ?_ (Sim.ite ?_ (Sim.ite ?_ (Sim.ite ?_ (Sim.ret ⟨h, rfl⟩))))
    · exact Sim.same fun i0 => base32Put _ _ _ _ _ h
    · exact Sim.same fun i0 => Sim.same fun i1 => base32Put _ _ _ _ _ h
    · exact Sim.same fun i0 => Sim.same fun i1 => Sim.same fun i2 => base32Put _ _ _ _ _ h
    · exact Sim.same fun i0 => Sim.same fun i1 => Sim.same fun i2 => Sim.same fun i3 => base32Put _ _ _ _ _ h

theorem toBase58 (buf : List Byte) (n : Nat) : Frame2 (fun o => Base58.toBase58 buf n o) := by
  intro o x
  dsimp only
  rw [Base58.toBase58, Base58.toBase58]
  refine Sim.same fun zeroes => ?_
  dsimp only
  refine Sim.ite trivial ?_
  refine Sim.same fun b => Sim.same fun iter => ?_
  refine Sim.bind (memset_longer 0 _ zeroes rfl) fun a b' h => ?_
  refine Sim.bind (R := Longer x) (Sim.loop (fun i a b h => ?_) _ _ _ _ h) fun a b h => Sim.ret ⟨h, rfl⟩
  rw [Base58.encOut, Base58.encOut]
  exact Sim.same fun d => Sim.same fun c => wr_longer _ c h

theorem toBase58Check (host : Host) (buf : List Byte) (n : Nat) (pre : List Byte) (m : Nat) :
    Frame2 (fun o => Base58Check.toBase58Check host buf n pre m o) := by
  intro o x
  dsimp only
  rw [Base58Check.toBase58Check, Base58Check.toBase58Check]
  refine Sim.same fun b => Sim.same fun b => Sim.same fun d => Sim.same fun b => ?_
  exact toBase58 b _ o x

theorem encodeVarint (tmp0 : List Byte) (v : U64) : Frame2 (fun o => CompressInteger.encodeVarint tmp0 v o) := by
  intro o x
  dsimp only
  rw [CompressInteger.encodeVarint, CompressInteger.encodeVarint]
  refine Sim.same fun r => ?_
  refine Sim.bind (R := Longer x) (Sim.loop (fun i a b h => ?_) _ _ _ _ rfl) fun a b h => Sim.ret ⟨h, rfl⟩
  rw [CompressInteger.copyBody, CompressInteger.copyBody]
  exact Sim.same fun d => wr_longer _ d h

theorem encodeZigzag (tmp0 : List Byte) (v : BitVec 64) : Frame2 (fun o => CompressInteger.encodeZigzag tmp0 v o) := by
  intro o x
  dsimp only
  rw [CompressInteger.encodeZigzag, CompressInteger.encodeZigzag]
  exact Sim.same fun u => encodeVarint tmp0 _ o x

theorem bech32 (hrp : List Byte) (m : Nat) (b32 : List Byte) (n : Nat) : Frame (fun o => Bech32.encode hrp m b32 n o) := by
  intro o x
  dsimp only
  rw [Bech32.encode, Bech32.encode]
  refine Sim.same fun c => ?_
  refine Sim.bind (memcpy_longer 0 hrp m rfl) fun a b h => ?_
  refine Sim.bind (wr_longer _ _ h) fun a b h => ?_
  refine Sim.bind (R := Longer x) (Sim.loop (fun i a b h => ?_) _ _ _ _ h) fun a b h => ?_
  · exact Sim.same fun v => Sim.same fun _ => Sim.same fun e => wr_longer _ e h
  · refine Sim.loop (fun i a b h => ?_) _ _ _ _ h
    exact Sim.same fun v => Sim.same fun e => wr_longer _ e h

theorem storeBig32 (host : Host) {x : List Byte} (ws : List U32) :
    ∀ (i : Nat) (m m' : List Byte), Longer x m m' → Sim (Longer x) (Sha2.storeBig32 host m i ws) (Sha2.storeBig32 host m' i ws) := by
  induction ws with
  | nil => intro i m m' h; exact ⟨_, rfl, h⟩
  | cons v vs ih =>
    intro i m m' h
    rw [Sha2.storeBig32, Sha2.storeBig32]
    exact Sim.bind (memcpy_longer i _ 4 h) fun a b hr => ih (i + 4) a b hr

theorem storeBig64 (host : Host) {x : List Byte} (ws : List U64) :
    ∀ (i : Nat) (m m' : List Byte), Longer x m m' → Sim (Longer x) (Sha2.storeBig64 host m i ws) (Sha2.storeBig64 host m' i ws) := by
  induction ws with
  | nil => intro i m m' h; exact ⟨_, rfl, h⟩
  | cons v vs ih =>
    intro i m m' h
    rw [Sha2.storeBig64, Sha2.storeBig64]
    exact Sim.bind (memcpy_longer i _ 8 h) fun a b hr => ih (i + 8) a b hr

theorem storeLittle32 (host : Host) {x : List Byte} (ws : List U32) :
    ∀ (i : Nat) (m m' : List Byte), Longer x m m' →
      Sim (Longer x) (Ripemd160.storeLittle32 host m i ws) (Ripemd160.storeLittle32 host m' i ws) := by
  induction ws with
  | nil => intro i m m' h; exact ⟨_, rfl, h⟩
  | cons v vs ih =>
    intro i m m' h
    rw [Ripemd160.storeLittle32, Ripemd160.storeLittle32]
    exact Sim.bind (memcpy_longer i _ 4 h) fun a b hr => ih (i + 4) a b hr

theorem sha1 (host : Host) (msg : List Byte) (n : Nat) : Frame (fun o => Sha1.sha1 host msg n o) := by
  intro o x
  dsimp only
  rw [Sha1.sha1, Sha1.sha1]
  exact Sim.same fun d => storeBig32 host d 0 o _ rfl

theorem ripemd160 (host : Host) (msg : List Byte) (n : Nat) : Frame (fun o => Ripemd160.ripemd160 host msg n o) := by
  intro o x
  dsimp only
  rw [Ripemd160.ripemd160, Ripemd160.ripemd160]
  exact Sim.same fun d => storeLittle32 host d 0 o _ rfl

theorem sha2_256 (host : Host) (msg : List Byte) (n : Nat) : Frame (fun o => Sha2.sha2_256 host msg n o) := by
  intro o x
  dsimp only
  rw [Sha2.sha2_256, Sha2.sha2_256]
  exact Sim.same fun d => storeBig32 host d 0 o _ rfl

theorem sha2_512 (host : Host) (msg : List Byte) (n : Nat) : Frame (fun o => Sha2.sha2_512 host msg n o) := by
  intro o x
  dsimp only
  rw [Sha2.sha2_512, Sha2.sha2_512]
  exact Sim.same fun d => storeBig64 host d 0 o _ rfl

theorem hmac_sha256 (host : Host) (key : List Byte) (kn : Nat) (msg : List Byte) (n : Nat) :
    Frame (fun o => Sha2.hmac_sha256 host key kn msg n o) := by
  intro o x
  dsimp only
  rw [Sha2.hmac_sha256, Sha2.hmac_sha256]
  refine Sim.same fun _ => Sim.same fun _ => Sim.same fun _ => Sim.same fun _ => Sim.same fun _ => ?_
  exact Sim.same fun _ => Sim.same fun d => storeBig32 host d 0 o _ rfl

set_option maxRecDepth 20000 in
theorem hmac_sha512 (host : Host) (key : List Byte) (kn : Nat) (msg : List Byte) (n : Nat) :
    Frame (fun o => Sha2.hmac_sha512 host key kn msg n o) := by
  intro o x
  dsimp only
  rw [Sha2.hmac_sha512, Sha2.hmac_sha512]
  refine Sim.same fun _ => Sim.same fun _ => Sim.same fun _ => Sim.same fun _ => Sim.same fun _ => ?_
  dsimp only
  refine Sim.same fun _ => ?_
  refine Sim.same fun d => ?_
  exact storeBig64 host d 0 o _ rfl

theorem hash160 (host : Host) (msg : List Byte) (n : Nat) : Frame (fun o => BtcHash.hash160 host msg n o) := by
  intro o x
  dsimp only
  rw [BtcHash.hash160, BtcHash.hash160]
  exact Sim.same fun d => ripemd160 host d 32 o x

theorem hash256 (host : Host) (msg : List Byte) (n : Nat) : Frame (fun o => BtcHash.hash256 host msg n o) := by
  intro o x
  dsimp only
  rw [BtcHash.hash256, BtcHash.hash256]
  exact Sim.same fun d => sha2_256 host d 32 o x

theorem d64Transform (host : Host) (inp : List Byte) : Frame (fun o => Sha2.d64Transform host o inp) := by
  intro o x
  dsimp only
  rw [Sha2.d64Transform, Sha2.d64Transform]
  exact Sim.same fun _ => Sim.same fun _ => Sim.same fun _ => storeBig32 host _ 0 o _ rfl

theorem bip32_hash (host : Host) (chain : List Byte) (child : U32) (header : Byte) (data : List Byte) :
    Frame (fun o => BtcHash.bip32_hash host chain child header data o) := by
  intro o x
  dsimp only
  rw [BtcHash.bip32_hash, BtcHash.bip32_hash]
  exact Sim.same fun _ => Sim.same fun _ => Sim.same fun b => hmac_sha512 host chain 32 b 37 o x

theorem exkeyEncode (host : Host) (key : Exkey.ExKey) : Frame (fun o => Exkey.exkeyEncode host key o) := by
  intro o x
  dsimp only
  rw [Exkey.exkeyEncode, Exkey.exkeyEncode, Exkey.writeKeyExtension, Exkey.writeKeyExtension]
  refine Sim.bind (R := Longer x) ?_ fun a b h => ?_
  · refine Sim.bind (wr_longer 0 _ rfl) fun a b h => ?_
    refine Sim.bind (memcpy_longer 1 _ 4 h) fun a b h => ?_
    exact Sim.bind (memcpy_longer 5 _ 4 h) fun a b h => memcpy_longer 9 _ 32 h
  · exact Sim.bind (wr_longer 41 _ h) fun a b h => memcpy_longer 42 _ 32 h

theorem exkeyToString (host : Host) (key : Exkey.ExKey) (param : ChainParameters) :
    Frame2 (fun o => Exkey.exkeyToString host key o param) := by
  intro o x
  dsimp only
  rw [Exkey.exkeyToString, Exkey.exkeyToString]
  exact Sim.same fun e => toBase58Check host e 74 _ _ o x

theorem keyToString (host : Host) (key : List Byte) (c : Bool) (param : ChainParameters) :
    Frame2 (fun o => Key.keyToString host key o c param) := by
  intro o x
  dsimp only
  rw [Key.keyToString, Key.keyToString]
  refine Sim.ite ?_ (toBase58Check host key 32 _ _ o x)
  exact Sim.same fun _ => Sim.same fun b => toBase58Check host b 33 _ _ o x

theorem expubkeyEncode (host : Host) (key : Exkey.ExPubkey) : Frame (fun o => Exkey.expubkeyEncode host key o) := by
  intro o x
  dsimp only
  rw [Exkey.expubkeyEncode, Exkey.expubkeyEncode, Exkey.writeKeyExtension, Exkey.writeKeyExtension]
  refine Sim.bind (R := Longer x) ?_ fun a b h => memcpy_longer 41 _ 33 h
  refine Sim.bind (wr_longer 0 _ rfl) fun a b h => ?_
  refine Sim.bind (memcpy_longer 1 _ 4 h) fun a b h => ?_
  exact Sim.bind (memcpy_longer 5 _ 4 h) fun a b h => memcpy_longer 9 _ 32 h

theorem expubkeyToString (host : Host) (key : Exkey.ExPubkey) (param : ChainParameters) :
    Frame2 (fun o => Exkey.expubkeyToString host key o param) := by
  intro o x
  dsimp only
  rw [Exkey.expubkeyToString, Exkey.expubkeyToString]
  exact Sim.same fun e => toBase58Check host e 74 _ _ o x

theorem pubkeySerialize (n : Nat) (pk : SecpLib.PubObj) (c : Bool) {x : List Byte} (a b : List Byte) (h : Longer x a b) :
    Sim (Longer2 x) (SecpLib.pubkeySerialize a n pk c) (SecpLib.pubkeySerialize b n pk c) := by
  unfold SecpLib.pubkeySerialize
  refine Sim.ite rfl ?_
  cases pk with
  | none => rfl
  | some q =>
    refine Sim.bind (memset_longer 0 _ n h) fun a b h => ?_
    exact Sim.bind (memcpy_longer 0 _ _ h) fun a b h => Sim.ret ⟨h, rfl⟩

theorem pubkeyEncode (nd : Bool) (pk : SecpLib.PubObj) (n : Nat) : Frame2 (fun o => Key.pubkeyEncode nd pk o n) := by
  intro o x
  dsimp only
  rw [Key.pubkeyEncode, Key.pubkeyEncode]
  refine Sim.same fun _ => Sim.ite (Sim.ret ⟨rfl, rfl⟩) ?_
  refine Sim.bind (pubkeySerialize n pk _ o _ rfl) fun a b h => ?_
  obtain ⟨a, k⟩ := a
  obtain ⟨b, k'⟩ := b
  obtain ⟨h1, h2⟩ := h
  dsimp only at h1 h2
  rw [h2]
  exact Sim.same fun _ => Sim.ret ⟨h1, rfl⟩

theorem memcpy_ok_length {dst src a : List Byte} {off n : Nat} (h : memcpy dst off src n = .ok a) : off + n ≤ a.length := by
  rw [memcpy] at h
  split at h
  · next hc =>
    rw [← Res.ok.inj h]
    simp only [List.length_append, List.length_take, List.length_drop]
    omega
  · cases h

theorem exportWrite (nd : Bool) (key begin middle : List Byte) (pk : SecpLib.PubObj) (pl total : Nat) (c : Bool) :
    Frame2 (fun o => Key.exportWrite nd o key begin middle pk pl total c) := by
  intro o x
  dsimp only
  rw [Key.exportWrite, Key.exportWrite]
  refine Sim.bind (memcpy_longer 0 _ _ rfl) fun a b h => ?_
  refine Sim.bind (memcpy_longer _ _ _ h) fun a b h => ?_
  refine Sim.bindOk (memcpy_longer _ _ _ h) fun a b ha h => ?_
  have hl := memcpy_ok_length ha
  rw [Longer] at h
  dsimp only
  refine Sim.bind (R := Longer2 x) ?_ fun r r' h' => ?_
  · exact pubkeySerialize pl pk c _ _ (by rw [Longer, h, drop_append_longer _ hl])
  · obtain ⟨r, k⟩ := r
    obtain ⟨r', k'⟩ := r'
    obtain ⟨h1, h2⟩ := h'
    dsimp only at h1 h2
    rw [h2]
    refine Sim.same fun _ => Sim.ret ⟨?_, rfl⟩
    dsimp only
    rw [h, h1, take_append_longer _ hl, List.append_assoc]

theorem keyEncode (nd : Bool) (key : List Byte) (n : Nat) : Frame2 (fun o => Key.keyEncode nd key o n) := by
  intro o x
  dsimp only
  rw [Key.keyEncode, Key.keyEncode]
  refine Sim.same fun _ => Sim.ite (Sim.ret ⟨rfl, rfl⟩) ?_
  refine Sim.bind (R := Longer2 x) ?_ fun a b h => ?_
  · rw [Key.exportDer, Key.exportDer]
    refine Sim.same fun r => ?_
    refine Sim.ite (Sim.ret ⟨rfl, rfl⟩) (Sim.ite ?_ ?_)
    · exact Sim.same fun _ => exportWrite nd key _ _ _ _ _ _ o x
    · exact Sim.same fun _ => exportWrite nd key _ _ _ _ _ _ o x
  · obtain ⟨a, k⟩ := a
    obtain ⟨b, k'⟩ := b
    obtain ⟨h1, h2⟩ := h
    dsimp only at h1 h2
    rw [h2]
    exact Sim.same fun _ => Sim.ret ⟨h1, rfl⟩

end Frame
