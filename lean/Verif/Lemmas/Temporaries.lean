import Verif.Spec.Temporaries
import Verif.Lemmas.Basic
import Verif.Lemmas.Exkey
namespace Temporaries
open Random Endian HashCommon

theorem heap_append (a b : List Event) (l : List Nat) : heap (a ++ b) l = (heap a l).bind (heap b) := by
  induction a generalizing l with
  | nil => rfl
  | cons e a ih =>
    cases e with
    | malloc p s =>
      simp only [List.cons_append, heap]
      split
      · rfl
      · exact ih _
    | free n p s =>
      simp only [List.cons_append, heap]
      split
      · exact ih _
      · rfl
    | dies n c => exact ih l

theorem mallocs_append (a b : List Event) : mallocs (a ++ b) = mallocs a + mallocs b := by
  induction a with
  | nil => simp [mallocs]
  | cons e a ih => cases e <;> simp [mallocs, ih]; all_goals omega

/-- `t` computes what `m` computes, gives back the block `h` (if any) and everything it allocates itself, and all its events
satisfy `good`. -/
def Runs {α : Type} (good : Event → Prop) (h : Option Nat) (t : Tr α) (m : Res α) : Prop :=
  ∀ log L, heap log [] = some (h.toList ++ L) → (∀ p ∈ h.toList ++ L, p < mallocs log) →
    match m with
    | .ok a => ∃ new, t log = .ok (a, log ++ new) ∧ (∀ e ∈ new, good e) ∧ heap (log ++ new) [] = some L
    | .ub => t log = .ub
    | .abort => t log = .abort

variable {α β : Type} {good : Event → Prop} {h : Option Nat}

theorem Runs.pure (a : α) : Runs good none (Pure.pure a) (.ok a) := by
  intro log L hl hp
  exact ⟨[], by simp; rfl, by simp, by simpa using hl⟩

theorem Runs.lift (m : Res α) : Runs good none (monadLift m : Tr α) m := by
  intro log L hl hp
  cases m with
  | ok a => exact ⟨[], by simp; rfl, by simp, by simpa using hl⟩
  | ub => rfl
  | abort => rfl

theorem Runs.bind {t : Tr α} {m : Res α} {f : α → Tr β} {g : α → Res β} (h1 : Runs good none t m)
    (h2 : ∀ a, m = .ok a → Runs good h (f a) (g a)) : Runs good h (t >>= f) (m >>= g) := by
  intro log L hl hp
  have h1' := h1 log (h.toList ++ L) hl hp
  cases m with
  | ub =>
    have h1' : t log = .ub := h1'
    show (t log).bind _ = .ub
    rw [h1']; rfl
  | abort =>
    have h1' : t log = .abort := h1'
    show (t log).bind _ = .abort
    rw [h1']; rfl
  | ok a =>
    obtain ⟨new, e1, e2, e3⟩ := h1'
    have h2' := h2 a rfl (log ++ new) L e3 (by intro p hq; have := hp p hq; rw [mallocs_append]; omega)
    rw [Res.ok_bind]
    have e : (t >>= f) log = f a (log ++ new) := by
      show (t log).bind _ = _
      rw [e1]; rfl
    rw [e]
    revert h2'
    cases g a with
    | ok b =>
      rintro ⟨new', f1, f2, f3⟩
      exact ⟨new ++ new', by rw [f1, List.append_assoc], by
        intro e he
        rcases List.mem_append.mp he with he | he
        · exact e2 e he
        · exact f2 e he, by rw [← List.append_assoc]; exact f3⟩
    | ub => exact fun x => x
    | abort => exact fun x => x

theorem Runs.liftBind {m : Res α} {f : α → Tr β} {g : α → Res β}
    (h2 : ∀ a, m = .ok a → Runs good h (f a) (g a)) : Runs good h ((monadLift m : Tr α) >>= f) (m >>= g) :=
  Runs.bind (Runs.lift m) h2

/-- A step of the logged program that the other one does not have. -/
theorem Runs.skip {a : α} {m : Res α} {f : α → Tr β} {r : Res β} (hm : m = .ok a) (h2 : Runs good h (f a) r) :
    Runs good h ((monadLift m : Tr α) >>= f) r := by
  subst hm; exact h2

theorem Runs.die {name : String} {mem : List Byte} {f : Unit → Tr β} {r : Res β}
    (hg : good (.dies name mem)) (h2 : Runs good h (f ()) r) :
    Runs good h (Temporaries.die name mem >>= f) r := by
  intro log L hl hp
  have h2' := h2 (log ++ [.dies name mem]) L (by rw [heap_append, hl]; rfl)
    (by intro p hq; have := hp p hq; rw [mallocs_append]; omega)
  have e : (Temporaries.die name mem >>= f) log = f () (log ++ [.dies name mem]) := rfl
  rw [e]
  revert h2'
  cases r with
  | ok b =>
    rintro ⟨new', f1, f2, f3⟩
    exact ⟨.dies name mem :: new', by rw [f1]; simp, by
      intro e he
      rcases List.mem_cons.mp he with he | he
      · rw [he]; exact hg
      · exact f2 e he, by simpa using f3⟩
  | ub => exact fun x => x
  | abort => exact fun x => x

theorem Runs.declare {size : Nat} {f : Option Nat → Tr β} {r : Res β} (hg : ∀ p, good (.malloc p size))
    (h2 : ∀ h, Runs good h (f h) r) : Runs good none (Temporaries.declare size >>= f) r := by
  intro log L hl hp
  by_cases hs : size ≤ 128
  · have e : (Temporaries.declare size >>= f) log = f none log := by
      show Res.bind (Temporaries.declare size log) _ = _
      rw [Temporaries.declare, if_pos hs]; rfl
    rw [e]
    exact h2 none log L hl hp
  · have e : (Temporaries.declare size >>= f) log =
        f (some (mallocs log)) (log ++ [.malloc (mallocs log) size]) := by
      show Res.bind (Temporaries.declare size log) _ = _
      rw [Temporaries.declare, if_neg hs]; rfl
    rw [e]
    have hf : mallocs log ∉ L := fun hm => absurd (hp _ (by simpa using hm)) (by omega)
    have h2' := h2 (some (mallocs log)) (log ++ [.malloc (mallocs log) size]) L
      (by
        rw [heap_append, hl]
        simp [heap, hf])
      (by
        intro p hq
        rw [mallocs_append]
        rcases List.mem_cons.mp hq with h | h
        · rw [h]; simp [mallocs]
        · have := hp p (by simpa using h); omega)
    revert h2'
    cases r with
    | ok b =>
      rintro ⟨new', f1, f2, f3⟩
      exact ⟨.malloc (mallocs log) size :: new', by rw [f1]; simp, by
        intro e he
        rcases List.mem_cons.mp he with he | he
        · rw [he]; exact hg _
        · exact f2 e he, by simpa using f3⟩
    | ub => exact fun x => x
    | abort => exact fun x => x

theorem Runs.release {name : String} {mem : List Byte} {f : Unit → Tr β} {r : Res β}
    (hg : good (.dies name mem)) (hg' : ∀ p, good (.free name p mem)) (h2 : Runs good none (f ()) r) :
    Runs good h (Temporaries.release h name mem >>= f) r := by
  cases h with
  | none => exact Runs.die (f := f) hg h2
  | some p =>
    intro log L hl hp
    have h2' := h2 (log ++ [.free name p mem]) L (by rw [heap_append, hl]; simp [heap])
      (by intro q hq; have := hp q (by simp at hq; simp [hq]); rw [mallocs_append]; omega)
    have e : (Temporaries.release (some p) name mem >>= f) log = f () (log ++ [.free name p mem]) := rfl
    rw [e]
    revert h2'
    cases r with
    | ok b =>
      rintro ⟨new', f1, f2, f3⟩
      exact ⟨.free name p mem :: new', by rw [f1]; simp, by
        intro e he
        rcases List.mem_cons.mp he with he | he
        · rw [he]; exact hg' _
        · exact f2 e he, by simpa using f3⟩
    | ub => exact fun x => x
    | abort => exact fun x => x

/-- `m` followed by nothing. -/
theorem Runs.last {t : Tr α} {m : Res α} (hr : Runs good h t (m >>= fun a => .ok a)) : Runs good h t m := by
  have : (m >>= fun a => Res.ok a) = m := by cases m <;> rfl
  rwa [this] at hr

theorem Runs.mono {good' : Event → Prop} {t : Tr α} {m : Res α} (hg : ∀ e, good e → good' e)
    (hr : Runs good h t m) : Runs good' h t m := by
  intro log L hl hp
  have := hr log L hl hp
  cases m with
  | ok a =>
    obtain ⟨new, e1, e2, e3⟩ := this
    exact ⟨new, e1, fun e he => hg e (e2 e he), e3⟩
  | ub => exact this
  | abort => exact this

/-- What `Runs` says about a run from the empty log. -/
theorem Runs.start {t : Tr α} {m : Res α} (hr : Runs good none t m) :
    (m = .ub → t [] = .ub) ∧ (m = .abort → t [] = .abort) ∧
      ∀ a, m = .ok a → ∃ log, t [] = .ok (a, log) ∧ (∀ e ∈ log, good e) ∧ heap log [] = some [] := by
  have h0 := hr [] [] rfl (by simp)
  refine ⟨?_, ?_, ?_⟩
  · rintro rfl; exact h0
  · rintro rfl; exact h0
  · rintro a rfl
    obtain ⟨new, e1, e2, e3⟩ := h0
    exact ⟨new, e1, e2, e3⟩

attribute [irreducible] Runs

theorem cleanse_all (mem : List Byte) (n : Nat) (hn : mem.length = n) :
    cleanse mem n = .ok (List.replicate n 0xCC#8) := by
  subst hn
  rw [cleanse, memset, if_pos (by omega)]
  simp

theorem wiped_replicate (n : Nat) : Wiped (List.replicate n 0xCC#8) := fun _ hb => (List.mem_replicate.mp hb).2

theorem good_dies (ex : List String) (name : String) (n : Nat) :
    WipedEvent ex (.dies name (List.replicate n 0xCC#8)) := .inr (wiped_replicate n)
theorem good_free (ex : List String) (name : String) (p n : Nat) :
    WipedEvent ex (.free name p (List.replicate n 0xCC#8)) := .inr (wiped_replicate n)

/-! Lengths of objects do not change. -/
theorem memcpy_length {a b r : List Byte} {off n : Nat} (hm : memcpy a off b n = .ok r) : r.length = a.length := by
  rw [memcpy] at hm
  split at hm
  · rename_i hc
    injection hm with hm
    rw [← hm]; simp; omega
  · cases hm
theorem memset_length {a r : List Byte} {off n : Nat} {v : Byte} (hm : memset a off v n = .ok r) :
    r.length = a.length := by
  rw [memset] at hm
  split at hm
  · injection hm with hm
    rw [← hm]; simp; omega
  · cases hm
theorem wr_length {a r : List Byte} {i : Nat} {v : Byte} (hm : wr a i v = .ok r) : r.length = a.length := by
  rw [wr] at hm
  split at hm
  · injection hm with hm
    rw [← hm]; simp
  · cases hm

theorem ok_of_bind {m : Res α} {f : α → Res β} {b : β} (hb : (m >>= f) = .ok b) :
    ∃ a, m = .ok a ∧ f a = .ok b := by
  cases m with
  | ok a => exact ⟨a, rfl, hb⟩
  | ub => cases hb
  | abort => cases hb

theorem carryLoop_length (base mul length : Nat) : ∀ (it i carry : Nat) (buf : List Byte) (r),
    Base58.carryLoop base mul length it i carry buf = .ok r → r.1.length = buf.length := by
  intro it
  induction it with
  | zero => intro i carry buf r hr; rw [Base58.carryLoop] at hr; injection hr with hr; rw [← hr]
  | succ it ih =>
    intro i carry buf r hr
    rw [Base58.carryLoop] at hr
    split at hr
    · obtain ⟨d, -, hr⟩ := ok_of_bind hr
      simp only [] at hr
      split at hr
      · cases hr
      · obtain ⟨b, hb, hr⟩ := ok_of_bind hr
        rw [ih _ _ _ _ hr, wr_length hb]
    · injection hr with hr; rw [← hr]

theorem encBody_length (buf : List Byte) (size p : Nat) (st r : List Byte × Nat)
    (hr : Base58.encBody buf size p st = .ok r) : r.1.length = st.1.length := by
  rw [Base58.encBody] at hr
  obtain ⟨b, -, hr⟩ := ok_of_bind hr
  obtain ⟨x, hx, hr⟩ := ok_of_bind hr
  obtain ⟨u, -, hr⟩ := ok_of_bind hr
  injection hr with hr
  rw [← hr]
  exact carryLoop_length _ _ _ _ _ _ _ _ hx

theorem forLoop_length {f : Nat → List Byte × Nat → Res (List Byte × Nat)}
    (hf : ∀ i s r, f i s = .ok r → r.1.length = s.1.length) (k : Nat) : ∀ i s r,
    forLoop f i k s = .ok r → r.1.length = s.1.length := by
  induction k with
  | zero => intro i s r hr; rw [forLoop] at hr; injection hr with hr; rw [hr]
  | succ k ih =>
    intro i s r hr
    rw [forLoop] at hr
    obtain ⟨x, hx, hr⟩ := ok_of_bind hr
    rw [ih _ _ _ hr, hf _ _ _ hx]


theorem toBase58_runs (ex : List String) (buf : List Byte) (n : Nat) (str : List Byte) :
    Runs (WipedEvent ex) none (toBase58 buf n str) (Base58.toBase58 buf n str) := by
  rw [toBase58, Base58.toBase58]
  refine Runs.liftBind fun zeroes _ => ?_
  dsimp only
  split
  · exact Runs.lift _
  · refine Runs.declare (fun _ => trivial) fun h => ?_
    refine Runs.liftBind fun st hst => ?_
    obtain ⟨b58, length⟩ := st
    refine Runs.liftBind fun iter _ => ?_
    refine Runs.liftBind fun str1 _ => ?_
    refine Runs.liftBind fun str2 _ => ?_
    have hl : b58.length = (n - zeroes) * 138 / 100 + 1 := by
      have := forLoop_length (fun i s r => encBody_length _ _ i s r) _ _ _ _ hst
      simpa using this
    refine Runs.skip (cleanse_all _ _ hl) ?_
    exact Runs.release (good_dies _ _ _) (fun _ => good_free _ _ _ _) (Runs.pure _)

theorem digitLoop_same (cs : Bool) (size : Nat) : ∀ (str b256 : List Byte) (length : Nat),
    Base58.digitLoop cs size str b256 length = (digitLoop cs size str b256 length >>= fun r =>
      .ok (r.2.map fun x => (x.1, r.1, x.2))) := by
  intro str
  induction str with
  | nil => intros; rfl
  | cons c r ih =>
    intro b256 length
    rw [Base58.digitLoop, digitLoop]
    by_cases h0 : c = 0#8
    · rw [if_pos h0, if_pos h0]; rfl
    · rw [if_neg h0, if_neg h0]
      cases Base58.isspace cs c with
      | ub => rfl
      | abort => rfl
      | ok sp =>
        simp only [Res.ok_bind]
        cases sp with
        | true => rfl
        | false =>
          simp only [Bool.false_eq_true, if_false]
          cases rd Base58.BASE58_DECODE c.toNat with
          | ub => rfl
          | abort => rfl
          | ok v =>
            simp only [Res.ok_bind]
            by_cases hv : v = -1
            · rw [if_pos hv, if_pos hv]; rfl
            · rw [if_neg hv, if_neg hv]
              cases Base58.carryLoop 256 58 length size 0 v.toNat b256 with
              | ub => rfl
              | abort => rfl
              | ok x =>
                simp only [Res.ok_bind]
                cases assertC (x.2.2 == 0) with
                | ub => rfl
                | abort => rfl
                | ok _ => exact ih _ _

theorem digitLoop_length (cs : Bool) (size : Nat) : ∀ (str b256 : List Byte) (length : Nat) (r),
    digitLoop cs size str b256 length = .ok r → r.1.length = b256.length := by
  intro str
  induction str with
  | nil => intro b256 length r hr; rw [digitLoop] at hr; cases hr
  | cons c s ih =>
    intro b256 length r hr
    rw [digitLoop] at hr
    split at hr
    · injection hr with hr; rw [← hr]
    · obtain ⟨sp, -, hr⟩ := ok_of_bind hr
      split at hr
      · injection hr with hr; rw [← hr]
      · obtain ⟨v, -, hr⟩ := ok_of_bind hr
        split at hr
        · injection hr with hr; rw [← hr]
        · obtain ⟨x, hx, hr⟩ := ok_of_bind hr
          obtain ⟨_, -, hr⟩ := ok_of_bind hr
          rw [ih _ _ _ hr]
          exact carryLoop_length _ _ _ _ _ _ _ _ hx

theorem fromBase58_runs (ex : List String) (cs : Bool) (str : List Byte) (n : Nat) (buf : List Byte) :
    Runs (WipedEvent ex) none (fromBase58 cs str n buf) (Base58.fromBase58 cs str n buf) := by
  rw [fromBase58, Base58.fromBase58]
  refine Runs.liftBind fun x _ => ?_
  obtain ⟨str1, skipped⟩ := x
  refine Runs.liftBind fun x _ => ?_
  obtain ⟨str2, zeroes⟩ := x
  dsimp only
  split
  · exact Runs.lift _
  · refine Runs.liftBind fun size _ => ?_
    refine Runs.declare (fun _ => trivial) fun h => ?_
    rw [digitLoop_same]
    rw [show ∀ (m : Res (List Byte × Option (List Byte × Nat))) (f : _ → Res (Base58.DigitsResult))
        (g : Base58.DigitsResult → Res (List Byte × Nat)), ((m >>= f) >>= g) = (m >>= fun a => f a >>= g) from by
      intro m f g; cases m <;> rfl]
    refine Runs.liftBind fun x hx => ?_
    obtain ⟨b256, found⟩ := x
    have hl : b256.length = size := by
      have := digitLoop_length _ _ _ _ _ _ hx
      simpa using this
    rw [Res.ok_bind]
    cases found with
    | none =>
      refine Runs.skip (cleanse_all _ _ hl) ?_
      exact Runs.release (good_dies _ _ _) (fun _ => good_free _ _ _ _) (Runs.pure _)
    | some y =>
      obtain ⟨str3, length⟩ := y
      dsimp only [Option.map_some]
      refine Runs.liftBind fun str4 _ => ?_
      refine Runs.liftBind fun c _ => ?_
      split
      · refine Runs.skip (cleanse_all _ _ hl) ?_
        exact Runs.release (good_dies _ _ _) (fun _ => good_free _ _ _ _) (Runs.pure _)
      · refine Runs.liftBind fun it _ => ?_
        refine Runs.liftBind fun out _ => ?_
        refine Runs.liftBind fun out2 _ => ?_
        refine Runs.skip (cleanse_all _ _ hl) ?_
        exact Runs.release (good_dies _ _ _) (fun _ => good_free _ _ _ _) (Runs.pure _)

theorem finish_runs {δ : Type} (ex : List String) (tr : δ → List Byte → Res δ) (B thr : Nat) (chunkEnd : List Byte)
    (digest : δ) (msg : List Byte) (msgLen : Nat) :
    Runs (WipedEvent ex) none (finish tr B thr chunkEnd digest msg msgLen)
      (HashCommon.finish tr B thr chunkEnd digest msg msgLen) := by
  rw [finish, HashCommon.finish]
  refine Runs.liftBind fun x _ => ?_
  obtain ⟨digest1, buf, n⟩ := x
  refine Runs.liftBind fun last hl1 => ?_
  refine Runs.liftBind fun last2 hl2 => ?_
  refine Runs.liftBind fun last3 hl3 => ?_
  dsimp only
  have h3 : last3.length = B := by
    rw [wr_length hl3, memcpy_length hl2, memset_length hl1, List.length_replicate]
  have tail : ∀ (d : δ) (l : List Byte), l.length = B → Runs (WipedEvent ex) none (do
      let last ← (memcpy l (B - 8) chunkEnd 8 : Res _)
      let digest ← (tr d last : Res _)
      let last ← (cleanse last B : Res _)
      die "last_chunk" last
      pure digest : Tr δ) (memcpy l (B - 8) chunkEnd 8 >>= fun last => tr d last) := by
    intro d l hl
    refine Runs.liftBind fun last5 hl5 => ?_
    refine Runs.last ?_
    refine Runs.liftBind fun d _ => ?_
    refine Runs.skip (cleanse_all _ _ (by rw [memcpy_length hl5, hl])) ?_
    exact Runs.die (good_dies _ _ _) (Runs.pure _)
  split
  · refine Runs.liftBind fun d _ => ?_
    refine Runs.liftBind fun l hl => ?_
    exact tail d l (by rw [memset_length hl, h3])
  · exact tail digest1 last3 h3

theorem dieWords32_runs (ex : List String) (host : Host) (name : String) (ws : List U32) {f : Unit → Tr β} {r : Res β}
    (h2 : Runs (WipedEvent ex) h (f ()) r) : Runs (WipedEvent ex) h (dieWords32 host name ws >>= f) r := by
  have e : dieWords32 host name ws = die name (List.replicate (ws.flatMap (bytes32 host)).length 0xCC#8) := by
    rw [dieWords32]
    rw [cleanse_all _ _ rfl]; rfl
  rw [e]
  exact Runs.die (good_dies _ _ _) h2

theorem dieWords64_runs (ex : List String) (host : Host) (name : String) (ws : List U64) {f : Unit → Tr β} {r : Res β}
    (h2 : Runs (WipedEvent ex) h (f ()) r) : Runs (WipedEvent ex) h (dieWords64 host name ws >>= f) r := by
  have e : dieWords64 host name ws = die name (List.replicate (ws.flatMap (bytes64 host)).length 0xCC#8) := by
    rw [dieWords64]
    rw [cleanse_all _ _ rfl]; rfl
  rw [e]
  exact Runs.die (good_dies _ _ _) h2

theorem sha256Final_runs (ex : List String) (host : Host) (d : List U32) (msg : List Byte) (n a : Nat) :
    Runs (WipedEvent ex) none (sha256Final host d msg n a) (Sha2.sha256Final host d msg n a) := by
  rw [sha256Final, Sha2.sha256Final]
  exact finish_runs ex _ _ _ _ _ _ _

theorem sha512Final_runs (ex : List String) (host : Host) (d : List U64) (msg : List Byte) (n a : Nat) :
    Runs (WipedEvent ex) none (sha512Final host d msg n a) (Sha2.sha512Final host d msg n a) := by
  rw [sha512Final, Sha2.sha512Final]
  exact finish_runs ex _ _ _ _ _ _ _

theorem sha2_256_runs (ex : List String) (host : Host) (msg : List Byte) (n : Nat) (hash : List Byte) :
    Runs (WipedEvent ex) none (sha2_256 host msg n hash) (Sha2.sha2_256 host msg n hash) := by
  rw [sha2_256, Sha2.sha2_256]
  refine Runs.bind (finish_runs ex _ _ _ _ _ _ _) fun digest _ => ?_
  refine Runs.last ?_
  refine Runs.liftBind fun hash _ => ?_
  exact dieWords32_runs _ _ _ _ (Runs.pure _)

theorem sha2_512_runs (ex : List String) (host : Host) (msg : List Byte) (n : Nat) (hash : List Byte) :
    Runs (WipedEvent ex) none (sha2_512 host msg n hash) (Sha2.sha2_512 host msg n hash) := by
  rw [sha2_512, Sha2.sha2_512]
  refine Runs.bind (finish_runs ex _ _ _ _ _ _ _) fun digest _ => ?_
  refine Runs.last ?_
  refine Runs.liftBind fun hash _ => ?_
  exact dieWords64_runs _ _ _ _ (Runs.pure _)

theorem sha1_runs (ex : List String) (host : Host) (msg : List Byte) (n : Nat) (hash : List Byte) :
    Runs (WipedEvent ex) none (sha1 host msg n hash) (Sha1.sha1 host msg n hash) := by
  rw [sha1, Sha1.sha1]
  refine Runs.bind (finish_runs ex _ _ _ _ _ _ _) fun digest _ => ?_
  refine Runs.last ?_
  refine Runs.liftBind fun hash _ => ?_
  exact dieWords32_runs _ _ _ _ (Runs.pure _)

theorem ripemd160_runs (ex : List String) (host : Host) (msg : List Byte) (n : Nat) (hash : List Byte) :
    Runs (WipedEvent ex) none (ripemd160 host msg n hash) (Ripemd160.ripemd160 host msg n hash) := by
  rw [ripemd160, Ripemd160.ripemd160]
  refine Runs.bind (finish_runs ex _ _ _ _ _ _ _) fun digest _ => ?_
  refine Runs.last ?_
  refine Runs.liftBind fun hash _ => ?_
  exact dieWords32_runs _ _ _ _ (Runs.pure _)

/-- The arrays of the HMAC functions that are not wiped. -/
abbrev hmacLeft : List String := ["buffer", "key_inner", "key_outter"]

theorem hmac_sha256_runs (ex : List String) (hex : ∀ x ∈ hmacLeft, x ∈ ex) (host : Host) (key : List Byte) (kn : Nat)
    (msg : List Byte) (n : Nat) (out : List Byte) :
    Runs (WipedEvent ex) none (hmac_sha256 host key kn msg n out) (Sha2.hmac_sha256 host key kn msg n out) := by
  rw [hmac_sha256, Sha2.hmac_sha256]
  refine Runs.bind ?_ fun buffer _ => ?_
  · rw [hmacBuffer256, Sha2.hmacBuffer256]
    split
    · refine Runs.liftBind fun b _ => ?_
      exact Runs.lift _
    · refine Runs.bind (sha2_256_runs ex _ _ _ _) fun b _ => ?_
      exact Runs.lift _
  · refine Runs.liftBind fun ki _ => ?_
    refine Runs.liftBind fun ko _ => ?_
    refine Runs.liftBind fun i1 _ => ?_
    refine Runs.bind (sha256Final_runs ex _ _ _ _ _) fun i2 _ => ?_
    refine Runs.liftBind fun o1 _ => ?_
    refine Runs.bind (sha256Final_runs ex _ _ _ _ _) fun o2 _ => ?_
    refine Runs.last ?_
    refine Runs.liftBind fun r _ => ?_
    refine dieWords32_runs _ _ _ _ (dieWords32_runs _ _ _ _ ?_)
    exact Runs.die (.inl (hex _ (by simp))) (Runs.die (.inl (hex _ (by simp)))
      (Runs.die (.inl (hex _ (by simp))) (Runs.pure _)))

theorem hmac_sha512_runs (ex : List String) (hex : ∀ x ∈ hmacLeft, x ∈ ex) (host : Host) (key : List Byte) (kn : Nat)
    (msg : List Byte) (n : Nat) (out : List Byte) :
    Runs (WipedEvent ex) none (hmac_sha512 host key kn msg n out) (Sha2.hmac_sha512 host key kn msg n out) := by
  rw [hmac_sha512, Sha2.hmac_sha512]
  refine Runs.bind ?_ fun buffer _ => ?_
  · rw [hmacBuffer512, Sha2.hmacBuffer512]
    split
    · refine Runs.liftBind fun b _ => ?_
      exact Runs.lift _
    · refine Runs.bind (sha2_512_runs ex _ _ _ _) fun b _ => ?_
      exact Runs.lift _
  · refine Runs.liftBind fun ki _ => ?_
    refine Runs.liftBind fun ko _ => ?_
    refine Runs.liftBind fun i1 _ => ?_
    refine Runs.bind (sha512Final_runs ex _ _ _ _ _) fun i2 _ => ?_
    refine Runs.liftBind fun o1 _ => ?_
    refine Runs.bind (sha512Final_runs ex _ _ _ _ _) fun o2 _ => ?_
    refine Runs.last ?_
    refine Runs.liftBind fun r _ => ?_
    refine dieWords64_runs _ _ _ _ (dieWords64_runs _ _ _ _ ?_)
    exact Runs.die (.inl (hex _ (by simp))) (Runs.die (.inl (hex _ (by simp)))
      (Runs.die (.inl (hex _ (by simp))) (Runs.pure _)))

/-- The digests that are not wiped: `sha2_digest` (hash.c 15) and `hash` (base58_check.c 13, 34). -/
abbrev digestsLeft : List String := ["sha2_digest", "hash"]

theorem hash256_runs (ex : List String) (hex : ∀ x ∈ digestsLeft, x ∈ ex) (host : Host) (msg : List Byte) (n : Nat)
    (hash : List Byte) :
    Runs (WipedEvent ex) none (hash256 host msg n hash) (BtcHash.hash256 host msg n hash) := by
  rw [hash256, BtcHash.hash256]
  refine Runs.bind (sha2_256_runs ex _ _ _ _) fun d _ => ?_
  refine Runs.last ?_
  refine Runs.bind (sha2_256_runs ex _ _ _ _) fun r _ => ?_
  exact Runs.die (.inl (hex _ (by simp))) (Runs.pure _)

theorem store32_length {host : Host} {a r : List Byte} {off : Nat} {v : U32}
    (hm : store32 host a off v = .ok r) : r.length = a.length := by
  rw [store32] at hm
  exact memcpy_length hm

theorem bip32_hash_runs (ex : List String) (hex : ∀ x ∈ hmacLeft, x ∈ ex) (host : Host) (chain : List Byte)
    (child : U32) (header : Byte) (data out : List Byte) :
    Runs (WipedEvent ex) none (bip32_hash host chain child header data out)
      (BtcHash.bip32_hash host chain child header data out) := by
  rw [bip32_hash, BtcHash.bip32_hash]
  refine Runs.liftBind fun b1 h1 => ?_
  refine Runs.liftBind fun b2 h2 => ?_
  refine Runs.liftBind fun b3 h3 => ?_
  refine Runs.last ?_
  refine Runs.bind (hmac_sha512_runs ex hex _ _ _ _ _ _) fun r _ => ?_
  have hl : b3.length = 37 := by
    rw [writeBig32] at h3
    rw [store32_length h3, memcpy_length h2, memcpy_length h1, List.length_replicate]
  refine Runs.skip (cleanse_all _ _ hl) ?_
  exact Runs.die (good_dies _ _ _) (Runs.pure _)

theorem toBase58Check_runs (ex : List String) (hex : ∀ x ∈ digestsLeft, x ∈ ex) (host : Host) (buf : List Byte)
    (n : Nat) (pre : List Byte) (pn : Nat) (str : List Byte) :
    Runs (WipedEvent ex) none (toBase58Check host buf n pre pn str) (Base58Check.toBase58Check host buf n pre pn str) := by
  rw [toBase58Check, Base58Check.toBase58Check]
  refine Runs.declare (fun _ => trivial) fun h => ?_
  refine Runs.liftBind fun b1 h1 => ?_
  refine Runs.liftBind fun b2 h2 => ?_
  refine Runs.bind (hash256_runs ex hex _ _ _ _) fun hash _ => ?_
  refine Runs.liftBind fun b3 h3 => ?_
  refine Runs.last ?_
  refine Runs.bind (toBase58_runs ex _ _ _) fun r _ => ?_
  have hl : b3.length = n + pn + 4 := by
    rw [memcpy_length h3, memcpy_length h2, memcpy_length h1, List.length_replicate]
  refine Runs.skip (cleanse_all _ _ hl) ?_
  refine Runs.release (good_dies _ _ _) (fun _ => good_free _ _ _ _) ?_
  exact Runs.die (.inl (hex _ (by simp))) (Runs.pure _)

theorem fromBase58Check_runs (ex : List String) (hex : ∀ x ∈ digestsLeft, x ∈ ex) (host : Host) (cs : Bool)
    (str : List Byte) (n : Nat) (buf : List Byte) :
    Runs (WipedEvent ex) none (fromBase58Check host cs str n buf) (Base58Check.fromBase58Check host cs str n buf) := by
  rw [fromBase58Check, Base58Check.fromBase58Check]
  refine Runs.bind (fromBase58_runs ex _ _ _ _) fun x _ => ?_
  obtain ⟨b, k⟩ := x
  dsimp only
  split
  · exact Runs.die (.inl (hex _ (by simp))) (Runs.pure _)
  · refine Runs.bind (hash256_runs ex hex _ _ _ _) fun hash _ => ?_
    refine Runs.liftBind fun same _ => ?_
    refine Runs.die (.inl (hex _ (by simp))) ?_
    split
    · exact Runs.pure _
    · exact Runs.pure _

theorem decodeWitness_runs (ex : List String) (hex : "buffer" ∈ ex) (h : Option Nat) (cs : Bool) (buffer : List Byte) (n : Nat)
    (out : List Byte) (outSize : Nat) :
    Runs (WipedEvent ex) h (decodeWitness h cs buffer n out outSize) (Address.decodeWitness cs buffer n out outSize) := by
  have fin : ∀ d : Address.Decoded, Runs (WipedEvent ex) h (do release h "buffer" buffer; pure d) (pure d : Res _) :=
    fun d => Runs.release (.inl hex) (fun _ => .inl hex) (Runs.pure _)
  rw [decodeWitness, Address.decodeWitness]
  refine Runs.liftBind fun need _ => ?_
  split
  · refine Runs.liftBind fun v _ => ?_
    split
    · refine Runs.liftBind fun x _ => ?_
      obtain ⟨o, m⟩ := x
      dsimp only
      split
      · exact fin _
      · split
        · exact fin _
        · exact fin _
    · refine Runs.liftBind fun o _ => ?_
      refine Runs.liftBind fun x _ => ?_
      obtain ⟨r, m⟩ := x
      dsimp only
      split
      · exact fin _
      · exact fin _
  · exact fin _

theorem decodeBech32_runs (ex : List String) (hex : "buffer" ∈ ex) (cs : Bool) (stack str : List Byte) (n : Nat)
    (out : List Byte) (outSize : Nat) (param : ChainParameters) :
    Runs (WipedEvent ex) none (decodeBech32 cs stack str n out outSize param)
      (Address.decodeBech32 cs stack str n out outSize param) := by
  rw [decodeBech32, Address.decodeBech32]
  have tail : ∀ h : Option Nat, Runs (WipedEvent ex) h (do
      let r ← (Bech32.decode str n (List.replicate 16 0xAA#8) 16 (Address.buffer stack n) : Res _)
      if r.ret < 1 ∨ r.hrpSize ≠ param.bech32HrpSize then do
        release h "buffer" r.b32
        pure ⟨.bad, out, outSize⟩
      else do
        let same ← (memeq r.hrp param.bech32Hrp r.hrpSize : Res _)
        if !same then do
          release h "buffer" r.b32
          pure ⟨.bad, out, outSize⟩
        else decodeWitness h cs r.b32 r.ret.toNat out outSize : Tr Address.Decoded) (Address.decodeBech32 cs stack str n out outSize param) := by
    intro h
    rw [Address.decodeBech32]
    refine Runs.liftBind fun r _ => ?_
    split
    · exact Runs.release (.inl hex) (fun _ => .inl hex) (Runs.pure _)
    · refine Runs.liftBind fun same _ => ?_
      split
      · exact Runs.release (.inl hex) (fun _ => .inl hex) (Runs.pure _)
      · exact decodeWitness_runs ex hex h _ _ _ _ _
  split
  · exact Runs.declare (fun _ => trivial) tail
  · exact tail none

theorem addressDecode_runs (ex : List String) (hex : ∀ x ∈ digestsLeft, x ∈ ex) (hb : "buffer" ∈ ex) (host : Host)
    (cs : Bool) (stack str : List Byte) (n : Nat) (out : List Byte) (outSize : Nat) (param : ChainParameters) :
    Runs (WipedEvent ex) none (addressDecode host cs stack str n out outSize param)
      (Address.addressDecode host cs stack str n out outSize param) := by
  rw [addressDecode, Address.addressDecode]
  split
  · exact Runs.pure _
  · refine Runs.bind (fromBase58Check_runs ex hex _ _ _ _ _) fun x _ => ?_
    obtain ⟨out1, size⟩ := x
    dsimp only
    split
    · refine Runs.liftBind fun p _ => ?_
      split
      · exact Runs.lift _
      · refine Runs.liftBind fun q _ => ?_
        split
        · exact Runs.lift _
        · exact decodeBech32_runs ex hb _ _ _ _ _ _ _
    · exact decodeBech32_runs ex hb _ _ _ _ _ _ _

theorem keyToString_runs (ex : List String) (hex : ∀ x ∈ digestsLeft, x ∈ ex) (host : Host) (key str : List Byte)
    (c : Bool) (param : ChainParameters) :
    Runs (WipedEvent ex) none (keyToString host key str c param) (Key.keyToString host key str c param) := by
  rw [keyToString, Key.keyToString]
  split
  · refine Runs.liftBind fun b1 h1 => ?_
    refine Runs.liftBind fun b2 h2 => ?_
    refine Runs.last ?_
    refine Runs.bind (toBase58Check_runs ex hex _ _ _ _ _ _) fun r _ => ?_
    refine Runs.skip (cleanse_all _ _ (by rw [wr_length h2, memcpy_length h1, List.length_replicate])) ?_
    exact Runs.die (good_dies _ _ _) (Runs.pure _)
  · exact toBase58Check_runs ex hex _ _ _ _ _ _

theorem keyFromString_runs (ex : List String) (hex : ∀ x ∈ digestsLeft, x ∈ ex) (hb : "buf" ∈ ex) (nd : Bool)
    (host : Host) (cs : Bool) (str : List Byte) (n : Nat) (key : List Byte) (c : Int) (param : ChainParameters) :
    Runs (WipedEvent ex) none (keyFromString nd host cs str n key c param)
      (Key.keyFromString nd host cs str n key c param) := by
  rw [keyFromString, Key.keyFromString]
  refine Runs.liftBind fun _ _ => ?_
  refine Runs.bind (fromBase58Check_runs ex hex _ _ _ _ _) fun x _ => ?_
  obtain ⟨buf, size⟩ := x
  dsimp only
  split
  · exact Runs.die (.inl hb) (Runs.pure _)
  · split
    · split
      · exact Runs.die (.inl hb) (Runs.pure _)
      · refine Runs.liftBind fun b _ => ?_
        split
        · exact Runs.die (.inl hb) (Runs.pure _)
        · refine Runs.last ?_
          refine Runs.liftBind fun r _ => ?_
          exact Runs.die (.inl hb) (Runs.pure _)
    · refine Runs.last ?_
      refine Runs.liftBind fun r _ => ?_
      exact Runs.die (.inl hb) (Runs.pure _)


theorem store64_length {host : Host} {a r : List Byte} {off : Nat} {v : U64}
    (hm : store64 host a off v = .ok r) : r.length = a.length := by
  rw [store64] at hm
  exact memcpy_length hm

theorem storeBig64_length (host : Host) (ws : List U64) : ∀ (mem r : List Byte) (off : Nat),
    Sha2.storeBig64 host mem off ws = .ok r → r.length = mem.length := by
  induction ws with
  | nil => intro mem r off hr; rw [Sha2.storeBig64] at hr; injection hr with hr; rw [hr]
  | cons w ws ih =>
    intro mem r off hr
    rw [Sha2.storeBig64] at hr
    obtain ⟨x, hx, hr⟩ := ok_of_bind hr
    rw [ih _ _ _ hr, store64_length hx]

theorem hmac_sha512_length {host : Host} {key msg out r : List Byte} {kn n : Nat}
    (hr : Sha2.hmac_sha512 host key kn msg n out = .ok r) : r.length = out.length := by
  rw [Sha2.hmac_sha512] at hr
  obtain ⟨_, -, hr⟩ := ok_of_bind hr
  obtain ⟨_, -, hr⟩ := ok_of_bind hr
  obtain ⟨_, -, hr⟩ := ok_of_bind hr
  obtain ⟨_, -, hr⟩ := ok_of_bind hr
  obtain ⟨_, -, hr⟩ := ok_of_bind hr
  obtain ⟨_, -, hr⟩ := ok_of_bind hr
  obtain ⟨_, -, hr⟩ := ok_of_bind hr
  exact storeBig64_length _ _ _ _ _ hr

theorem bip32_hash_length {host : Host} {chain data out r : List Byte} {child : U32} {header : Byte}
    (hr : BtcHash.bip32_hash host chain child header data out = .ok r) : r.length = out.length := by
  rw [BtcHash.bip32_hash] at hr
  obtain ⟨_, -, hr⟩ := ok_of_bind hr
  obtain ⟨_, -, hr⟩ := ok_of_bind hr
  obtain ⟨_, -, hr⟩ := ok_of_bind hr
  exact hmac_sha512_length hr

theorem forLoop_length' {f : Nat → List Byte → Res (List Byte)}
    (hf : ∀ i s r, f i s = .ok r → r.length = s.length) (k : Nat) : ∀ i s r,
    forLoop f i k s = .ok r → r.length = s.length := by
  induction k with
  | zero => intro i s r hr; rw [forLoop] at hr; injection hr with hr; rw [hr]
  | succ k ih =>
    intro i s r hr
    rw [forLoop] at hr
    obtain ⟨x, hx, hr⟩ := ok_of_bind hr
    rw [ih _ _ _ hr, hf _ _ _ hx]

theorem fromBase58_length {cs : Bool} {str buf : List Byte} {n : Nat} {r : List Byte × Nat}
    (hr : Base58.fromBase58 cs str n buf = .ok r) : r.1.length = buf.length := by
  rw [Base58.fromBase58] at hr
  obtain ⟨_, -, hr⟩ := ok_of_bind hr
  obtain ⟨_, -, hr⟩ := ok_of_bind hr
  dsimp only at hr
  split at hr
  · cases hr
  · obtain ⟨_, -, hr⟩ := ok_of_bind hr
    obtain ⟨x, -, hr⟩ := ok_of_bind hr
    cases x with
    | none => injection hr with hr; rw [← hr]
    | some x =>
      obtain ⟨_, -, hr⟩ := ok_of_bind hr
      obtain ⟨_, -, hr⟩ := ok_of_bind hr
      split at hr
      · injection hr with hr; rw [← hr]
      · obtain ⟨_, -, hr⟩ := ok_of_bind hr
        obtain ⟨m, hm, hr⟩ := ok_of_bind hr
        obtain ⟨o, ho, hr⟩ := ok_of_bind hr
        injection hr with hr
        rw [← hr]
        refine (forLoop_length' ?_ _ _ _ _ ho).trans (memset_length hm)
        intro i s r hh
        rw [Base58.decOut] at hh
        obtain ⟨_, -, hh⟩ := ok_of_bind hh
        exact wr_length hh

theorem fromBase58Check_length {host : Host} {cs : Bool} {str buf : List Byte} {n : Nat} {r : List Byte × Nat}
    (hr : Base58Check.fromBase58Check host cs str n buf = .ok r) : r.1.length = buf.length := by
  rw [Base58Check.fromBase58Check] at hr
  obtain ⟨x, hx, hr⟩ := ok_of_bind hr
  have hl := fromBase58_length hx
  dsimp only at hr
  split at hr
  · injection hr with hr; rw [← hr]; exact hl
  · obtain ⟨_, -, hr⟩ := ok_of_bind hr
    obtain ⟨_, -, hr⟩ := ok_of_bind hr
    split at hr
    · injection hr with hr; rw [← hr]; exact hl
    · injection hr with hr; rw [← hr]; exact hl

theorem exkeyEncode_length {host : Host} {k : Exkey.ExKey} {code r : List Byte}
    (hr : Exkey.exkeyEncode host k code = .ok r) : r.length = code.length := by
  rw [Exkey.exkeyEncode] at hr
  obtain ⟨c1, h1, hr⟩ := ok_of_bind hr
  obtain ⟨c2, h2, hr⟩ := ok_of_bind hr
  rw [memcpy_length hr, wr_length h2]
  rw [Exkey.writeKeyExtension] at h1
  obtain ⟨c3, h3, h1⟩ := ok_of_bind h1
  obtain ⟨c4, h4, h1⟩ := ok_of_bind h1
  obtain ⟨c5, h5, h1⟩ := ok_of_bind h1
  rw [writeLittle32] at h4
  rw [writeBig32] at h5
  rw [memcpy_length h1, store32_length h5, store32_length h4, wr_length h3]

theorem exkeyInit_runs (ex : List String) (hex : ∀ x ∈ hmacLeft, x ∈ ex) (host : Host) (key : Exkey.ExKey)
    (seed : List Byte) (n : Nat) :
    Runs (WipedEvent ex) none (exkeyInit host key seed n) (Exkey.exkeyInit host key seed n) := by
  rw [exkeyInit, Exkey.exkeyInit]
  refine Runs.bind (hmac_sha512_runs ex hex _ _ _ _ _ _) fun out ho => ?_
  refine Runs.liftBind fun k _ => ?_
  refine Runs.liftBind fun c _ => ?_
  refine Runs.skip (cleanse_all _ _ (by rw [hmac_sha512_length ho, List.length_replicate])) ?_
  exact Runs.die (good_dies _ _ _) (Runs.pure _)

theorem exkeyToString_runs (ex : List String) (hex : ∀ x ∈ digestsLeft, x ∈ ex) (host : Host) (key : Exkey.ExKey)
    (str : List Byte) (param : ChainParameters) :
    Runs (WipedEvent ex) none (exkeyToString host key str param) (Exkey.exkeyToString host key str param) := by
  rw [exkeyToString, Exkey.exkeyToString]
  refine Runs.liftBind fun extkey he => ?_
  refine Runs.last ?_
  refine Runs.bind (toBase58Check_runs ex hex _ _ _ _ _ _) fun r _ => ?_
  refine Runs.skip (cleanse_all _ _ (by rw [exkeyEncode_length he, List.length_replicate])) ?_
  exact Runs.die (good_dies _ _ _) (Runs.pure _)

theorem exkeyFromString_runs (ex : List String) (hex : ∀ x ∈ digestsLeft, x ∈ ex) (hb : "extkey" ∈ ex) (nd : Bool)
    (host : Host) (cs : Bool) (str : List Byte) (n : Nat) (key : Exkey.ExKey) (param : ChainParameters) :
    Runs (WipedEvent ex) none (exkeyFromString nd host cs str n key param)
      (Exkey.exkeyFromString nd host cs str n key param) := by
  rw [exkeyFromString, Exkey.exkeyFromString]
  refine Runs.liftBind fun _ _ => ?_
  refine Runs.bind (fromBase58Check_runs ex hex _ _ _ _ _) fun x hx => ?_
  obtain ⟨extkey, size⟩ := x
  refine Runs.liftBind fun _ _ => ?_
  dsimp only
  split
  · exact Runs.die (.inl hb) (Runs.pure _)
  · split
    · exact Runs.die (.inl hb) (Runs.pure _)
    · refine Runs.liftBind fun same _ => ?_
      split
      · exact Runs.die (.inl hb) (Runs.pure _)
      · refine Runs.liftBind fun k _ => ?_
        have hl := fromBase58Check_length hx
        rw [List.length_replicate] at hl
        refine Runs.skip (cleanse_all _ _ hl) ?_
        exact Runs.die (good_dies _ _ _) (Runs.pure _)

theorem pubkeySerialize_length {out : List Byte} {n : Nat} {pk : SecpLib.PubObj} {c : Bool} {r : List Byte × Nat × Bool}
    (hr : SecpLib.pubkeySerialize out n pk c = .ok r) : r.1.length = out.length := by
  rw [SecpLib.pubkeySerialize.eq_def] at hr
  by_cases hc : n < (if c = true then 33 else 65)
  · rw [if_pos hc] at hr; cases hr
  · rw [if_neg hc] at hr
    cases pk with
    | none => cases hr
    | some q =>
      obtain ⟨x, y⟩ := q
      obtain ⟨o1, h1, hr⟩ := ok_of_bind hr
      obtain ⟨o2, h2, hr⟩ := ok_of_bind hr
      injection hr with hr
      rw [← hr, memcpy_length h2, memset_length h1]

theorem deriveHash_runs (ex : List String) (hex : ∀ x ∈ hmacLeft, x ∈ ex) (nd : Bool) (host : Host)
    (key chain : List Byte) (child : U32) :
    Runs (WipedEvent ex) none (deriveHash nd host key chain child) (Key.deriveHash nd host key chain child) := by
  rw [deriveHash, Key.deriveHash]
  dsimp only
  split
  · refine Runs.liftBind fun pk _ => ?_
    refine Runs.liftBind fun x hx => ?_
    obtain ⟨enc, ret⟩ := x
    refine Runs.liftBind fun header _ => ?_
    refine Runs.bind (bip32_hash_runs ex hex _ _ _ _ _ _) fun out _ => ?_
    refine Runs.skip (cleanse_all _ _ (by rw [List.length_replicate])) ?_
    have hl : enc.length = 33 := by
      rw [Key.pubkeyEncode] at hx
      obtain ⟨_, -, hx⟩ := ok_of_bind hx
      rw [if_neg (by decide)] at hx
      obtain ⟨y, hy, hx⟩ := ok_of_bind hx
      obtain ⟨_, -, hx⟩ := ok_of_bind hx
      injection hx with hx
      have h2 := congrArg Prod.fst hx
      simp only [] at h2
      rw [← h2]
      have := pubkeySerialize_length hy
      simpa using this
    refine Runs.skip (cleanse_all _ _ hl) ?_
    exact Runs.die (good_dies _ _ _) (Runs.die (good_dies _ _ _) (Runs.pure _))
  · refine Runs.bind (bip32_hash_runs ex hex _ _ _ _ _ _) fun out _ => ?_
    exact Runs.pure _

theorem keyDerive_runs (ex : List String) (hex : ∀ x ∈ hmacLeft, x ∈ ex) (nd : Bool) (host : Host)
    (key chain outKey outChain : List Byte) (child : U32) :
    Runs (WipedEvent ex) none (keyDerive nd host key chain outKey outChain child)
      (Key.keyDerive nd host key chain outKey outChain child) := by
  rw [keyDerive, Key.keyDerive]
  refine Runs.bind (deriveHash_runs ex hex _ _ _ _ _) fun x hx => ?_
  obtain ⟨out, ret⟩ := x
  have hl : out.length = 64 := by
    rw [Key.deriveHash] at hx
    dsimp only at hx
    split at hx
    · obtain ⟨_, -, hx⟩ := ok_of_bind hx
      obtain ⟨y, -, hx⟩ := ok_of_bind hx
      obtain ⟨_, -, hx⟩ := ok_of_bind hx
      obtain ⟨o, ho, hx⟩ := ok_of_bind hx
      injection hx with hx
      have h2 := congrArg Prod.fst hx
      simp only [] at h2
      rw [← h2]
      rw [bip32_hash_length ho, List.length_replicate]
    · obtain ⟨o, ho, hx⟩ := ok_of_bind hx
      injection hx with hx
      have h2 := congrArg Prod.fst hx
      simp only [] at h2
      rw [← h2]
      rw [bip32_hash_length ho, List.length_replicate]
  dsimp only
  split
  · refine Runs.liftBind fun ok _ => ?_
    refine Runs.liftBind fun oc _ => ?_
    refine Runs.liftBind fun y _ => ?_
    refine Runs.skip (cleanse_all _ _ hl) ?_
    exact Runs.die (good_dies _ _ _) (Runs.pure _)
  · refine Runs.skip (cleanse_all _ _ hl) ?_
    exact Runs.die (good_dies _ _ _) (Runs.pure _)

theorem readLoop_length : ∀ (rs : List Reply) (buf : List Byte) (size : Nat) (r),
    readLoop buf size rs = .ok (some r) → r.1.length = buf.length := by
  intro rs
  induction rs with
  | nil =>
    intro buf size r hr
    rw [readLoop] at hr
    split at hr
    · injection hr with hr; injection hr with hr; rw [← hr]
    · cases hr
  | cons x rs ih =>
    intro buf size r hr
    rw [readLoop.eq_def] at hr
    split at hr
    · injection hr with hr; injection hr with hr; rw [← hr]
    · cases x with
      | error => cases hr
      | bytes bs =>
        dsimp only at hr
        split at hr
        · cases hr
        · obtain ⟨b, hb, hr⟩ := ok_of_bind hr
          rw [ih _ _ _ hr, memcpy_length hb]

theorem keyInit_runs (ex : List String) (nd : Bool) (os : Os) (s : KeyContext.State) :
    Runs (WipedEvent ex) none (keyInit nd os s) (KeyContext.init nd os s) := by
  rw [keyInit, KeyContext.init]
  refine Runs.liftBind fun _ _ => ?_
  dsimp only
  refine Runs.liftBind fun _ _ => ?_
  refine Runs.liftBind fun x hx => ?_
  cases x with
  | none => exact Runs.pure _
  | some y =>
    refine Runs.liftBind fun _ _ => ?_
    have hl : y.1.length = 32 := by
      rw [osRandBytes] at hx
      split at hx
      · cases hx
      · rw [readLoop_length _ _ _ _ hx, List.length_replicate]
    refine Runs.skip (cleanse_all _ _ hl) ?_
    exact Runs.die (good_dies _ _ _) (Runs.pure _)

end Temporaries
