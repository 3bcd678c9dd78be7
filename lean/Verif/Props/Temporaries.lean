import Verif.Lemmas.Temporaries
import Verif.Props.Exkey
/-!
Property theorems C71 and C72: what is left in memory that was used for temporaries, and that heap blocks are given back.

`Clean ex (call with log) (call)`: whenever the call returns, it gave back its temporaries wiped, those named in `ex` apart.
`Balanced (call with log) (call)`: whenever the call returns, every heap block was freed exactly once.
-/
open Temporaries

theorem Temporaries.Runs.clean {α : Type} {ex : List String} {t : Tr α} {m : Res α}
    (h : Runs (WipedEvent ex) none t m) : Clean ex t m := by
  intro a ha
  obtain ⟨log, h1, h2, -⟩ := h.start.2.2 a ha
  exact ⟨log, h1, h2⟩

theorem Temporaries.Runs.balanced {α : Type} {ex : List String} {t : Tr α} {m : Res α}
    (h : Runs (WipedEvent ex) none t m) : Balanced t m := by
  intro a ha
  obtain ⟨log, h1, -, h2⟩ := h.start.2.2 a ha
  exact ⟨log, h1, h2⟩

/-- C71, hash functions: the copy of the end of the message and the state are wiped. -/
theorem C71_hashes_wipe (host : Host) (msg : List Byte) (n : Nat) (hash : List Byte) :
    Clean [] (Temporaries.sha1 host msg n hash) (Sha1.sha1 host msg n hash) ∧
    Clean [] (Temporaries.ripemd160 host msg n hash) (Ripemd160.ripemd160 host msg n hash) ∧
    Clean [] (Temporaries.sha2_256 host msg n hash) (Sha2.sha2_256 host msg n hash) ∧
    Clean [] (Temporaries.sha2_512 host msg n hash) (Sha2.sha2_512 host msg n hash) :=
  ⟨(sha1_runs _ _ _ _ _).clean, (ripemd160_runs _ _ _ _ _).clean, (sha2_256_runs _ _ _ _ _).clean,
    (sha2_512_runs _ _ _ _ _).clean⟩

/-- C71, HMAC: everything except the padded key, see `C71_violated_hmac_key`. -/
theorem C71_hmac_wipes_partial (host : Host) (key : List Byte) (kn : Nat) (msg : List Byte) (n : Nat) (out : List Byte) :
    Clean ["buffer", "key_inner", "key_outter"] (Temporaries.hmac_sha256 host key kn msg n out)
      (Sha2.hmac_sha256 host key kn msg n out) ∧
    Clean ["buffer", "key_inner", "key_outter"] (Temporaries.hmac_sha512 host key kn msg n out)
      (Sha2.hmac_sha512 host key kn msg n out) :=
  ⟨(hmac_sha256_runs _ (fun _ h => h) _ _ _ _ _ _).clean, (hmac_sha512_runs _ (fun _ h => h) _ _ _ _ _ _).clean⟩

/-- C71, Base58: the digits of the number are wiped on every path, also when the text is rejected. -/
theorem C71_base58_wipes (cs : Bool) (buf str text out : List Byte) (n k : Nat) :
    Clean [] (Temporaries.toBase58 buf n str) (Base58.toBase58 buf n str) ∧
    Clean [] (Temporaries.fromBase58 cs text k out) (Base58.fromBase58 cs text k out) :=
  ⟨(toBase58_runs _ _ _ _).clean, (fromBase58_runs _ _ _ _ _).clean⟩

/-- C71, Base58Check: the payload is wiped; only digests of it remain. -/
theorem C71_base58_check_wipes (host : Host) (cs : Bool) (buf pre str text out : List Byte) (n pn k : Nat) :
    Clean ["sha2_digest", "hash"] (Temporaries.toBase58Check host buf n pre pn str)
      (Base58Check.toBase58Check host buf n pre pn str) ∧
    Clean ["sha2_digest", "hash"] (Temporaries.fromBase58Check host cs text k out)
      (Base58Check.fromBase58Check host cs text k out) :=
  ⟨(toBase58Check_runs _ (fun _ h => h) _ _ _ _ _ _).clean, (fromBase58Check_runs _ (fun _ h => h) _ _ _ _ _).clean⟩

/-- C71, secret keys to text: nothing but digests remains. -/
theorem C71_to_string_wipes (host : Host) (key str : List Byte) (compressed : Bool) (k : Exkey.ExKey)
    (param : ChainParameters) :
    Clean ["sha2_digest", "hash"] (Temporaries.keyToString host key str compressed param)
      (Key.keyToString host key str compressed param) ∧
    Clean ["sha2_digest", "hash"] (Temporaries.exkeyToString host k str param)
      (Exkey.exkeyToString host k str param) :=
  ⟨(keyToString_runs _ (fun _ h => h) _ _ _ _ _).clean, (exkeyToString_runs _ (fun _ h => h) _ _ _ _).clean⟩

/-- C71, derivation: the secret key, the HMAC input and output are wiped; what the HMAC function leaves is its padded key, i.e. the
chain code, or the constant "Bitcoin seed" for a master key. -/
theorem C71_derivation_wipes_partial (nd : Bool) (host : Host) (key chain outKey outChain seed : List Byte) (child : U32)
    (k : Exkey.ExKey) (n : Nat) :
    Clean ["buffer", "key_inner", "key_outter"] (Temporaries.keyDerive nd host key chain outKey outChain child)
      (Key.keyDerive nd host key chain outKey outChain child) ∧
    Clean ["buffer", "key_inner", "key_outter"] (Temporaries.exkeyInit host k seed n) (Exkey.exkeyInit host k seed n) :=
  ⟨(keyDerive_runs _ (fun _ h => h) _ _ _ _ _ _ _).clean, (exkeyInit_runs _ (fun _ h => h) _ _ _ _).clean⟩

/-- C71, initialisation: the random seed of the context is wiped. -/
theorem C71_init_wipes (nd : Bool) (os : Random.Os) (s : KeyContext.State) :
    Clean [] (Temporaries.keyInit nd os s) (KeyContext.init nd os s) := (keyInit_runs _ _ _ _).clean

/-- Inversion of a logged step. -/
theorem Temporaries.bind_ok {α β : Type} {t : Tr α} {f : α → Tr β} {log : List Event} {r : β × List Event}
    (h : (t >>= f) log = .ok r) : ∃ a l, t log = .ok (a, l) ∧ f a l = .ok r := by
  have h : (t log).bind (fun p => f p.1 p.2) = .ok r := h
  cases ht : t log with
  | ok p => rw [ht] at h; exact ⟨p.1, p.2, rfl, h⟩
  | ub => rw [ht] at h; cases h
  | abort => rw [ht] at h; cases h

theorem Temporaries.lift_ok {α : Type} {m : Res α} {log : List Event} {a : α} {l : List Event}
    (h : (monadLift m : Tr α) log = .ok (a, l)) : m = .ok a ∧ l = log := by
  cases m with
  | ok b =>
    have h : Res.ok (b, log) = .ok (a, l) := h
    injection h with h
    rw [Prod.mk.injEq] at h
    exact ⟨by rw [h.1], h.2.symm⟩
  | ub => cases h
  | abort => cases h

/-- The log only grows, and the result is that of the call. -/
theorem Temporaries.die_ok {α : Type} {name : String} {mem : List Byte} {f : Unit → Tr α} {log : List Event}
    {r : α × List Event} (h : (die name mem >>= f) log = .ok r) : f () (log ++ [.dies name mem]) = .ok r := h

theorem Temporaries.step {α β : Type} {t : Tr α} {f : α → Tr β} {log l : List Event} {a : α}
    (h : t log = .ok (a, l)) : (t >>= f) log = f a l := by
  show (t log).bind (fun p => f p.1 p.2) = _
  rw [h]; rfl

theorem Temporaries.step_lift {α β : Type} {m : Res α} {f : α → Tr β} {log : List Event} {a : α}
    (h : m = .ok a) : ((monadLift m : Tr α) >>= f) log = f a log := by
  rw [h]; rfl

theorem Temporaries.pad_key {B : Nat} {key b1 b : List Byte} (hk : key.length ≤ B)
    (h1 : memcpy (List.replicate B 0xAA#8) 0 key key.length = .ok b1)
    (h2 : memset b1 key.length 0#8 (B - key.length) = .ok b) : b = key ++ List.replicate (B - key.length) 0#8 := by
  rw [memcpy, if_pos ⟨le_refl _, by simpa using hk⟩] at h1
  injection h1 with h1
  have hl : b1.length = B := by rw [← h1]; simp; omega
  rw [memset, if_pos (by omega)] at h2
  injection h2 with h2
  have e : key.length + (B - key.length) = B := by omega
  rw [← h2, e, List.drop_of_length_le (by omega), List.append_nil, ← h1]
  simp

/-- C71 is violated by the HMAC functions: the key (of up to 64 or 128 bytes) stays in `buffer`, padded with zeros, whatever the key
and the message. -/
theorem C71_violated_hmac_key (host : Host) (key : List Byte) (msg : List Byte) (n : Nat) (out r : List Byte) :
    (key.length ≤ 64 → Sha2.hmac_sha256 host key key.length msg n out = .ok r →
      ∃ log, Temporaries.hmac_sha256 host key key.length msg n out [] = .ok (r, log) ∧
        .dies "buffer" (key ++ List.replicate (64 - key.length) 0#8) ∈ log) ∧
    (key.length ≤ 128 → Sha2.hmac_sha512 host key key.length msg n out = .ok r →
      ∃ log, Temporaries.hmac_sha512 host key key.length msg n out [] = .ok (r, log) ∧
        .dies "buffer" (key ++ List.replicate (128 - key.length) 0#8) ∈ log) := by
  constructor
  · intro hk hr
    obtain ⟨log, hl, -⟩ := (C71_hmac_wipes_partial host key key.length msg n out).1 r hr
    refine ⟨log, hl, ?_⟩
    rw [Temporaries.hmac_sha256] at hl
    obtain ⟨b, l1, hb, hl⟩ := bind_ok hl
    obtain ⟨_, _, -, hl⟩ := bind_ok hl
    obtain ⟨_, _, -, hl⟩ := bind_ok hl
    obtain ⟨_, _, -, hl⟩ := bind_ok hl
    obtain ⟨_, _, -, hl⟩ := bind_ok hl
    obtain ⟨_, _, -, hl⟩ := bind_ok hl
    obtain ⟨_, _, -, hl⟩ := bind_ok hl
    obtain ⟨_, _, -, hl⟩ := bind_ok hl
    obtain ⟨_, _, -, hl⟩ := bind_ok hl
    obtain ⟨_, _, -, hl⟩ := bind_ok hl
    have hl := die_ok (die_ok (die_ok hl))
    have hb2 : b = key ++ List.replicate (64 - key.length) 0#8 := by
      rw [Temporaries.hmacBuffer256, if_pos hk] at hb
      obtain ⟨b1, _, h1, hb⟩ := bind_ok hb
      obtain ⟨h1, -⟩ := lift_ok h1
      obtain ⟨h2, -⟩ := lift_ok hb
      exact pad_key hk h1 h2
    have hl : Res.ok _ = Res.ok _ := hl
    injection hl with hl
    rw [Prod.mk.injEq] at hl
    rw [← hl.2, ← hb2]
    simp
  · intro hk hr
    obtain ⟨log, hl, -⟩ := (C71_hmac_wipes_partial host key key.length msg n out).2 r hr
    refine ⟨log, hl, ?_⟩
    rw [Temporaries.hmac_sha512] at hl
    obtain ⟨b, l1, hb, hl⟩ := bind_ok hl
    obtain ⟨_, _, -, hl⟩ := bind_ok hl
    obtain ⟨_, _, -, hl⟩ := bind_ok hl
    obtain ⟨_, _, -, hl⟩ := bind_ok hl
    obtain ⟨_, _, -, hl⟩ := bind_ok hl
    obtain ⟨_, _, -, hl⟩ := bind_ok hl
    obtain ⟨_, _, -, hl⟩ := bind_ok hl
    obtain ⟨_, _, -, hl⟩ := bind_ok hl
    obtain ⟨_, _, -, hl⟩ := bind_ok hl
    obtain ⟨_, _, -, hl⟩ := bind_ok hl
    have hl := die_ok (die_ok (die_ok hl))
    have hb2 : b = key ++ List.replicate (128 - key.length) 0#8 := by
      rw [Temporaries.hmacBuffer512, if_pos hk] at hb
      obtain ⟨b1, _, h1, hb⟩ := bind_ok hb
      obtain ⟨h1, -⟩ := lift_ok h1
      obtain ⟨h2, -⟩ := lift_ok hb
      exact pad_key hk h1 h2
    have hl : Res.ok _ = Res.ok _ := hl
    injection hl with hl
    rw [Prod.mk.injEq] at hl
    rw [← hl.2, ← hb2]
    simp

theorem wifFinish_ok {buf key : List Byte} {c : Int} {param : ChainParameters} {r : Key.FromString}
    (h : Key.wifFinish buf key c param = .ok r) (hr : r.ok = true) :
    r.key32.take 32 = (buf.drop param.prefixSecretKeySize).take 32 ∧
      ((buf.drop param.prefixSecretKeySize).take 32).length = 32 := by
  rw [Key.wifFinish] at h
  obtain ⟨same, -, h⟩ := ok_of_bind h
  split at h
  · injection h with h; rw [← h] at hr; cases hr
  · obtain ⟨k, hk, h⟩ := ok_of_bind h
    injection h with h
    rw [← h]
    rw [memcpy] at hk
    split at hk
    · rename_i hc
      injection hk with hk
      rw [← hk]
      rw [List.length_drop] at hc
      have e : ((buf.drop param.prefixSecretKeySize).take 32).length = 32 := by
        rw [List.length_take, List.length_drop]; omega
      refine ⟨?_, e⟩
      show (key.take 0 ++ (buf.drop param.prefixSecretKeySize).take 32 ++ key.drop (0 + 32)).take 32 = _
      rw [List.take_zero, List.nil_append, List.take_left' e]
    · cases hk

/-- C71 is violated by `fingera_btc_key_from_string`: whenever it succeeds, for whatever text and network, the complete secret key it
delivers is left behind in its local array `buf`. -/
theorem C71_violated_key_from_string (nd : Bool) (host : Host) (cs : Bool) (str : List Byte) (n : Nat) (key : List Byte)
    (c : Int) (param : ChainParameters) (r : Key.FromString)
    (h : Key.keyFromString nd host cs str n key c param = .ok r) (hr : r.ok = true) :
    ∃ log left, Temporaries.keyFromString nd host cs str n key c param [] = .ok (r, log) ∧ .dies "buf" left ∈ log ∧
      (left.drop param.prefixSecretKeySize).take 32 = r.key32.take 32 ∧ (r.key32.take 32).length = 32 := by
  obtain ⟨log, hl, -⟩ := (keyFromString_runs ["sha2_digest", "hash", "buf"] (by simp) (by simp) nd host cs str n key c
    param).clean r h
  suffices ∃ left, .dies "buf" left ∈ log ∧
      (left.drop param.prefixSecretKeySize).take 32 = r.key32.take 32 ∧ (r.key32.take 32).length = 32 by
    obtain ⟨left, a, b⟩ := this
    exact ⟨log, left, hl, a, b⟩
  rw [Temporaries.keyFromString] at hl
  obtain ⟨_, _, -, hl⟩ := bind_ok hl
  obtain ⟨x, l1, -, hl⟩ := bind_ok hl
  obtain ⟨buf, size⟩ := x
  dsimp only at hl
  have fin : ∀ (c : Int) (l : List Event), ((Key.wifFinish buf key c param : Tr Key.FromString) >>= fun r => do
      die "buf" buf
      pure r) l = .ok (r, log) → ∃ left, .dies "buf" left ∈ log ∧
      (left.drop param.prefixSecretKeySize).take 32 = r.key32.take 32 ∧ (r.key32.take 32).length = 32 := by
    intro c l hl
    obtain ⟨r', l2, h1, hl⟩ := bind_ok hl
    obtain ⟨h1, h2⟩ := lift_ok h1
    have hl : Res.ok (r', l2 ++ [.dies "buf" buf]) = .ok (r, log) := hl
    injection hl with hl
    rw [Prod.mk.injEq] at hl
    rw [hl.1] at h1
    obtain ⟨e1, e2⟩ := wifFinish_ok h1 hr
    refine ⟨buf, by rw [← hl.2]; simp, e1.symm, by rw [e1]; exact e2⟩
  have no : ∀ (l : List Event) (x : Key.FromString), x.ok = false →
      ((do die "buf" buf; pure x : Tr Key.FromString) l = .ok (r, log)) → False := by
    intro l x hx hl
    have hl : Res.ok (x, l ++ [.dies "buf" buf]) = .ok (r, log) := hl
    injection hl with hl
    rw [Prod.mk.injEq] at hl
    rw [← hl.1, hx] at hr
    cases hr
  split at hl
  · exact (no _ _ rfl hl).elim
  · split at hl
    · split at hl
      · exact (no _ _ rfl hl).elim
      · obtain ⟨b, l3, -, hl⟩ := bind_ok hl
        split at hl
        · exact (no _ _ rfl hl).elim
        · exact fin _ _ hl
    · exact fin _ _ hl

/-- C71, `fingera_exkey_from_string`: wiped whenever it succeeds. -/
theorem C71_exkey_from_string_wipes_partial (nd : Bool) (host : Host) (cs : Bool) (str : List Byte) (n : Nat)
    (key k : Exkey.ExKey) (param : ChainParameters)
    (h : Exkey.exkeyFromString nd host cs str n key param = .ok (k, true)) :
    ∃ log, Temporaries.exkeyFromString nd host cs str n key param [] = .ok ((k, true), log) ∧
      ∀ e ∈ log, WipedEvent ["sha2_digest", "hash"] e := by
  obtain ⟨log, hl, -⟩ := (exkeyFromString_runs ["sha2_digest", "hash", "extkey"] (by simp) (by simp) nd host cs str n key
    param).clean _ h
  refine ⟨log, hl, ?_⟩
  rw [Temporaries.exkeyFromString] at hl
  obtain ⟨_, l0, h0, hl⟩ := bind_ok hl
  obtain ⟨x, l1, hx, hl⟩ := bind_ok hl
  obtain ⟨extkey, size⟩ := x
  obtain ⟨-, h0⟩ := lift_ok h0
  rw [h0] at hx
  dsimp only at hl
  obtain ⟨_, l2, h2, hl⟩ := bind_ok hl
  obtain ⟨-, h2⟩ := lift_ok h2
  rw [h2] at hl
  have hbase := fromBase58Check_runs ["sha2_digest", "hash"] (by simp) host cs str n (List.replicate 82 0xAA#8)
  have hw : (∀ e ∈ l1, WipedEvent ["sha2_digest", "hash"] e) ∧ extkey.length = 82 := by
    cases hm : Base58Check.fromBase58Check host cs str n (List.replicate 82 0xAA#8) with
    | ub => rw [hbase.start.1 hm] at hx; cases hx
    | abort => rw [hbase.start.2.1 hm] at hx; cases hx
    | ok a =>
      obtain ⟨log', e1, e2⟩ := hbase.clean a hm
      rw [e1] at hx
      injection hx with hx
      rw [Prod.mk.injEq] at hx
      have hlen := fromBase58Check_length hm
      rw [hx.1, List.length_replicate] at hlen
      exact ⟨by rw [← hx.2]; exact e2, hlen⟩
  have no : ∀ (x : Exkey.ExKey × Bool) l, x.2 = false →
      ((do die "extkey" extkey; pure x : Tr (Exkey.ExKey × Bool)) l = .ok ((k, true), log)) → False := by
    intro x l hx hl
    have hl : Res.ok (x, l ++ [.dies "extkey" extkey]) = .ok ((k, true), log) := hl
    injection hl with hl
    rw [Prod.mk.injEq] at hl
    rw [hl.1] at hx
    cases hx
  split at hl
  · exact (no _ _ rfl hl).elim
  · split at hl
    · exact (no _ _ rfl hl).elim
    · obtain ⟨same, l3, h3, hl⟩ := bind_ok hl
      obtain ⟨-, h3⟩ := lift_ok h3
      split at hl
      · exact (no _ _ rfl hl).elim
      · obtain ⟨k', l4, h4, hl⟩ := bind_ok hl
        obtain ⟨-, h4⟩ := lift_ok h4
        obtain ⟨z, l5, h5, hl⟩ := bind_ok hl
        obtain ⟨h5, h6⟩ := lift_ok h5
        rw [cleanse_all _ _ hw.2] at h5
        injection h5 with h5
        have hl : Res.ok ((k', true), l5 ++ [.dies "extkey" z]) = .ok ((k, true), log) := hl
        injection hl with hl
        rw [Prod.mk.injEq] at hl
        rw [← hl.2, h6, h4, h3, ← h5]
        intro e he
        rcases List.mem_append.mp he with he | he
        · exact hw.1 e he
        · rw [List.mem_singleton.mp he]
          exact good_dies _ _ _

/-- C71 is violated by `fingera_exkey_from_string` when it refuses a text: a correct text whose version bytes are those of another
network (`ver`) leaves the whole extended key, with the secret key, in the local array. -/
theorem C71_violated_exkey_from_string (nd : Bool) (host : Host) (cs : Bool) (param : ChainParameters)
    (s post : List Byte) (key : Exkey.ExKey) (ver payload : List Byte)
    (h0 : ∀ b ∈ s, b ≠ 0#8) (hr : Base58Spec.Readable cs s)
    (hp8 : param.prefixExtSecretKeySize = 4) (hp : 4 ≤ param.prefixExtSecretKey.length) (hpl : payload.length = 74)
    (hd : Base58CheckSpec.decode? s = some (ver ++ payload)) (hv : ver.length = 4)
    (hne : ver ≠ param.prefixExtSecretKey.take 4) :
    ∃ log left, Temporaries.exkeyFromString nd host cs (s ++ 0#8 :: post) s.length key param [] = .ok ((key, false), log) ∧
      .dies "extkey" left ∈ log ∧ (left.drop 4).take 74 = payload := by
  have hW : Base58Spec.decode? s = some (ver ++ payload ++ Base58CheckSpec.checksum (ver ++ payload)) := by
    rw [Base58CheckSpec.decode?] at hd
    cases hb : Base58Spec.decode? s with
    | none => rw [hb] at hd; cases hd
    | some W => rw [hb, Option.bind_some] at hd; rw [Base58Check.check?_some hd]
  have hcl := Base58Check.checksum_length (ver ++ payload)
  have hfb := Base58Check.fromBase58Check_readable host cs s post (List.replicate 82 0xAA#8) h0 hr (by
    intro W h
    rw [hW] at h
    injection h with h
    rw [← h, List.length_append, hcl, List.length_append, hpl, hv]; simp)
  rw [hW] at hfb
  simp only [Base58Check.check?_append] at hfb
  rw [List.length_append, hpl, hv, Exkey.over_all (by simp [hcl, hpl, hv])] at hfb
  obtain ⟨log0, hl0, -⟩ := (C71_base58_check_wipes host cs [] [] [] (s ++ 0#8 :: post) (List.replicate 82 0xAA#8) 0 0
    s.length).2 _ hfb
  refine ⟨log0 ++ [.dies "extkey" (ver ++ payload ++ Base58CheckSpec.checksum (ver ++ payload))],
    ver ++ payload ++ Base58CheckSpec.checksum (ver ++ payload), ?_, by simp, ?_⟩
  · have hm : memeq (ver ++ payload ++ Base58CheckSpec.checksum (ver ++ payload)) param.prefixExtSecretKey 4 =
        .ok false := by
      rw [memeq, if_pos ⟨by simp [hv], hp⟩]
      congr 1
      rw [List.append_assoc, List.take_left' hv]
      simpa using hne
    have ha : assertNd nd (decide (param.prefixExtSecretKeySize ≤ 8)) = .ok () := by
      rw [hp8]; cases nd <;> rfl
    have hb : assertNd nd (decide ((78 : Nat) ≤ 82)) = .ok () := by cases nd <;> rfl
    rw [Temporaries.exkeyFromString, step_lift ha, step hl0]
    show ((monadLift (assertNd nd (decide ((78 : Nat) ≤ 82))) : Tr Unit) >>= _) _ = _
    rw [step_lift hb, if_neg (by omega), if_neg (by rw [hp8]; simp)]
    show ((monadLift (memeq (ver ++ payload ++ Base58CheckSpec.checksum (ver ++ payload)) param.prefixExtSecretKey 4) :
      Tr Bool) >>= _) _ = _
    rw [step_lift hm]
    rfl
  · rw [List.append_assoc, List.drop_left' hv, List.take_left' hpl]

/-- … in particular: the text of any extended private key `k`, read for a network with other version bytes, is refused and leaves
the secret key on the stack. -/
theorem C71_violated_exkey_other_network (nd : Bool) (host : Host) (cs : Bool) (net net' : AddressSpec.Network)
    (k buf : Exkey.ExKey) (post : List Byte) (hk : BufPriv k) (hne : net.extSecret ≠ net'.extSecret) :
    ∃ log left, Temporaries.exkeyFromString nd host cs (xprv net k ++ 0#8 :: post) (xprv net k).length buf net'.param [] =
        .ok ((buf, false), log) ∧ .dies "extkey" left ∈ log ∧ (left.drop 46).take 32 = k.key := by
  obtain ⟨n1, n2, n3, n4, n5, n6, n7, n8⟩ := net_ext net
  obtain ⟨m1, m2, m3, m4, m5, m6, m7, m8⟩ := net_ext net'
  have hl := privBytes_length k hk
  have hle := ext_length_le net.extSecret (privBytes k) n7 hl
  have hdc : Base58CheckSpec.decode? (xprv net k) = some (net.extSecret ++ privBytes k) := by
    rw [Base58CheckSpec.decode?, show Base58Spec.decode? (xprv net k) = _ from decode_encode58 _, Option.bind_some,
      Base58Check.check?_append]
  obtain ⟨log, left, h1, h2, h3⟩ := C71_violated_exkey_from_string nd host cs net'.param (xprv net k) post buf net.extSecret
    (privBytes k) (fun b hb => (encode58_chars _ b hb).2.1) (Base58Check.readable_of _ _ (fun _ b hb => (encode58_chars _ b hb).2.2.1)
    (by have : Base58Check.toBase58CheckLength 74 8 ≤ 2929669 := by decide
        exact Nat.le_trans hle this)) m1 m3 hl hdc n7 (by rw [m5]; exact hne)
  refine ⟨log, left, h1, h2, ?_⟩
  have e : (left.drop 46).take 32 = ((left.drop 4).take 74).drop 42 := by
    rw [List.drop_take, List.drop_drop]
  rw [e, h3, privBytes_eq k hk, List.drop_left' (by
    rw [List.length_append, Exkey.extBytes_length _ (by rw [hk.2])]; rfl), List.take_of_length_le (by rw [hk.1])]

/-! ## C72 -/

/-- C72, Base58: whenever the encoder or the decoder returns, for whatever arguments, every block it allocated has been freed
exactly once (and nothing else was freed), on the error paths, too. -/
theorem C72_base58_no_leak (cs : Bool) (buf str text out : List Byte) (n k : Nat) :
    Balanced (Temporaries.toBase58 buf n str) (Base58.toBase58 buf n str) ∧
    Balanced (Temporaries.fromBase58 cs text k out) (Base58.fromBase58 cs text k out) :=
  ⟨(toBase58_runs [] _ _ _).balanced, (fromBase58_runs [] _ _ _ _).balanced⟩

/-- C72, Base58Check (two blocks can be in use at the same time). -/
theorem C72_base58_check_no_leak (host : Host) (cs : Bool) (buf pre str text out : List Byte) (n pn k : Nat) :
    Balanced (Temporaries.toBase58Check host buf n pre pn str) (Base58Check.toBase58Check host buf n pre pn str) ∧
    Balanced (Temporaries.fromBase58Check host cs text k out) (Base58Check.fromBase58Check host cs text k out) :=
  ⟨(toBase58Check_runs _ (fun _ h => h) _ _ _ _ _ _).balanced, (fromBase58Check_runs _ (fun _ h => h) _ _ _ _ _).balanced⟩

/-- C72, addresses: on all paths through the decoder. -/
theorem C72_address_no_leak (host : Host) (cs : Bool) (stack str : List Byte) (n : Nat) (out : List Byte) (outSize : Nat)
    (param : ChainParameters) :
    Balanced (Temporaries.addressDecode host cs stack str n out outSize param)
      (Address.addressDecode host cs stack str n out outSize param) :=
  (addressDecode_runs ["sha2_digest", "hash", "buffer"] (by simp) (by simp) _ _ _ _ _ _ _ _).balanced

/-- C72, keys and extended keys as text. -/
theorem C72_key_text_no_leak (nd : Bool) (host : Host) (cs : Bool) (key str text : List Byte) (compressed : Bool) (n : Nat)
    (flag : Int) (k : Exkey.ExKey) (param : ChainParameters) :
    Balanced (Temporaries.keyToString host key str compressed param) (Key.keyToString host key str compressed param) ∧
    Balanced (Temporaries.keyFromString nd host cs text n key flag param)
      (Key.keyFromString nd host cs text n key flag param) ∧
    Balanced (Temporaries.exkeyToString host k str param) (Exkey.exkeyToString host k str param) ∧
    Balanced (Temporaries.exkeyFromString nd host cs text n k param) (Exkey.exkeyFromString nd host cs text n k param) :=
  ⟨(keyToString_runs _ (fun _ h => h) _ _ _ _ _).balanced,
   (keyFromString_runs ["sha2_digest", "hash", "buf"] (by simp) (by simp) _ _ _ _ _ _ _ _).balanced,
   (exkeyToString_runs _ (fun _ h => h) _ _ _ _).balanced,
   (exkeyFromString_runs ["sha2_digest", "hash", "extkey"] (by simp) (by simp) _ _ _ _ _ _ _).balanced⟩

/-- The log is not a loophole: a call with a log returns exactly when the call of the model does, with the same result.  (Stated for
the functions with heap blocks; `Clean` and `Balanced` give one direction for the others.) -/
theorem C72_log_faithful (cs : Bool) (buf str text out : List Byte) (n k : Nat) (r : List Byte × Nat) (log : List Event) :
    (Temporaries.toBase58 buf n str [] = .ok (r, log) → Base58.toBase58 buf n str = .ok r) ∧
    (Temporaries.fromBase58 cs text k out [] = .ok (r, log) → Base58.fromBase58 cs text k out = .ok r) := by
  have key : ∀ {t : Tr (List Byte × Nat)} {m : Res (List Byte × Nat)}, Runs (WipedEvent []) none t m →
      t [] = .ok (r, log) → m = .ok r := by
    intro t m h ht
    cases hm : m with
    | ub => rw [h.start.1 hm] at ht; cases ht
    | abort => rw [h.start.2.1 hm] at ht; cases ht
    | ok a =>
      obtain ⟨l, h1, -⟩ := h.start.2.2 a hm
      rw [h1] at ht
      rw [Res.ok.injEq, Prod.mk.injEq] at ht
      rw [ht.1]
  exact ⟨key (toBase58_runs _ _ _ _), key (fromBase58_runs _ _ _ _ _)⟩

/-! ## Concrete cases -/

/-- A small encoding: the digits are on the stack, and are wiped. -/
example : (match Temporaries.toBase58 [0#8, 1#8, 2#8] 3 (List.replicate 6 7#8) [] with
    | .ok r => some r.2
    | _ => none) = some [.dies "b58" (List.replicate 3 0xCC#8)] := by decide +kernel

/-- A text with 180 blanks at the end needs a heap block; it is wiped and freed. -/
example : (match Temporaries.fromBase58 false (cstr "5Q" ++ List.replicate 180 (chr ' ') ++ [0#8]) 182 (List.replicate 140 7#8) [] with
    | .ok r => some (r.1.2, r.2)
    | _ => none) = some (1, [.malloc 0 134, .free "b256" 0 (List.replicate 134 0xCC#8)]) := by decide +kernel

/-- A rejected text of 180 characters: the block is freed, too. -/
example : (match Temporaries.fromBase58 false (cstr "5Q0" ++ List.replicate 177 (chr 'z') ++ [0#8]) 180 (List.replicate 140 7#8) [] with
    | .ok r => some (r.1.2, r.2)
    | _ => none) = some (0, [.malloc 0 132, .free "b256" 0 (List.replicate 132 0xCC#8)]) := by decide +kernel

/-- `heap` does detect a leak, a double free and a free of something that was never allocated. -/
example : heap [.malloc 0 10] [] = some [0] ∧ heap [.malloc 0 10, .free "a" 0 [], .free "a" 0 []] [] = none ∧
    heap [.free "a" 0 []] [] = none := by decide

/-- The hypotheses of `C71_violated_key_from_string` are met: reading this text leaves the secret key 1 behind. -/
example : ∃ log left, Temporaries.keyFromString false .little true
      (cstr "KwDiBf89QgGbjEhKnhXJuH7LrciVrZi3qYjgd9M7rFU73sVHnoWn" ++ [0#8]) 52 (List.replicate 33 7#8) 5 mainnet [] =
      .ok (⟨true, List.replicate 31 0#8 ++ [1#8, 7#8], 1⟩, log) ∧ .dies "buf" left ∈ log ∧
      (left.drop 1).take 32 = List.replicate 31 0#8 ++ [1#8] := by
  obtain ⟨s, n, h1, -, h2⟩ := C45_wif_roundtrip false .little true .main (List.replicate 31 0#8 ++ [1#8]) (List.replicate 64 7#8) []
    (List.replicate 33 7#8) true 5 (by decide) (by decide) (by decide)
  rw [C45_key_to_string .little .main _ _ true (by decide) (by decide), Res.ok.injEq, Prod.mk.injEq] at h1
  rw [← h1.1, ← h1.2, BtcHash.take_over rfl, wif_one.1] at h2
  obtain ⟨log, left, a, b, c, -⟩ := C71_violated_key_from_string false .little true _ _ _ 5 mainnet _ h2 rfl
  exact ⟨log, left, a, b, c⟩

/-- The master key of the BIP's first test vector, read for the test network. -/
example : ∃ log left, Temporaries.exkeyFromString true .little true (vector1Text ++ [0#8]) 111
      ⟨⟨7#8, 7#32, 7#32, List.replicate 32 7#8⟩, List.replicate 32 7#8⟩ testnet [] =
        .ok ((⟨⟨7#8, 7#32, 7#32, List.replicate 32 7#8⟩, List.replicate 32 7#8⟩, false), log) ∧
      .dies "extkey" left ∈ log ∧ (left.drop 46).take 32 = vector1Key := by
  have h := C71_violated_exkey_other_network true .little true .main .test ⟨⟨0#8, 0#32, 0#32, vector1Chain⟩, vector1Key⟩
    ⟨⟨7#8, 7#32, 7#32, List.replicate 32 7#8⟩, List.replicate 32 7#8⟩ [] (by unfold BufPriv; decide) (by decide)
  rw [vector1_xprv] at h
  exact h
