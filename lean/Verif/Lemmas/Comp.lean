import Verif.Lemmas.Compact
import Verif.Lemmas.Dec
import Verif.Props.C14

/-! # Sequential composition of decoding steps and of encodings -/

namespace ScaleGo

/-- The step `f` reads exactly `b`, wherever it stands, returns `a` and adds `ic` to the reported calls. -/
def DecAt {α : Type} (f : Dec α) (b : Str) (a : α) (ic : List Str) : Prop :=
  ∀ (pre suf : Str) (cs : List Str), pre.length + b.length + suf.length < 2 ^ 63 →
    f ⟨⟨pre ++ (b ++ suf), pre.length⟩, cs⟩ = .ok (a, ⟨⟨pre ++ (b ++ suf), pre.length + b.length⟩, cs ++ ic⟩)

/-- The step `f` panics in front of `b`. -/
def PanicAt {α : Type} (f : Dec α) (b : Str) : Prop :=
  ∀ (pre suf : Str) (cs : List Str), pre.length + b.length + suf.length < 2 ^ 63 →
    f ⟨⟨pre ++ (b ++ suf), pre.length⟩, cs⟩ = .panic

theorem decodes_iff {env : Env} {ctx : Ctx} {ty b : Str} {v : Val} {ic : List Str} :
    Decodes env ctx ty b v ic ↔ ∃ N, ∀ n, N ≤ n → DecAt (pau env n ctx ty) b v ic := Iff.rfl

theorem DecAt.pure {α : Type} (a : α) : DecAt (fun st => .ok (a, st)) [] a [] := by
  intro pre suf cs _
  simp

theorem DecAt.bind {α β : Type} {f : Dec α} {g : α → Dec β} {b1 b2 : Str} {a : α} {c : β} {ic1 ic2 : List Str}
    (h1 : DecAt f b1 a ic1) (h2 : DecAt (g a) b2 c ic2) :
    DecAt (fun st => f st >>= fun p => g p.1 p.2) (b1 ++ b2) c (ic1 ++ ic2) := by
  intro pre suf cs hl
  simp only [List.length_append] at hl
  have e1 := h1 pre (b2 ++ suf) cs (by simp only [List.length_append]; omega)
  have e2 := h2 (pre ++ b1) suf (cs ++ ic1) (by simp only [List.length_append]; omega)
  simp only [List.append_assoc, List.length_append] at e1 e2 ⊢
  rw [e1]
  simp only [Res.ok_bind, e2, Nat.add_assoc]

/-- The same for a `do` block as it is written. -/
theorem DecAt.step {α β : Type} {f : Dec α} {k : α × St → Res (β × St)} {b1 b2 : Str} {a : α} {c : β} {ic1 ic2 : List Str}
    (h1 : DecAt f b1 a ic1) (h2 : DecAt (fun st => k (a, st)) b2 c ic2) :
    DecAt (fun st => f st >>= k) (b1 ++ b2) c (ic1 ++ ic2) := DecAt.bind (g := fun a st => k (a, st)) h1 h2

/-- A step that does not report calls. -/
theorem DecAt.step0 {α β : Type} {f : Dec α} {k : α × St → Res (β × St)} {b1 b2 : Str} {a : α} {c : β} {ic : List Str}
    (h1 : DecAt f b1 a []) (h2 : DecAt (fun st => k (a, st)) b2 c ic) :
    DecAt (fun st => f st >>= k) (b1 ++ b2) c ic := DecAt.step h1 h2

/-- Reading one byte first. -/
theorem DecAt.byte {β : Type} {k : Str × St → Res (β × St)} {x : UInt8} {b : Str} {c : β} {ic : List Str}
    (h2 : DecAt (fun st => k ([x], st)) b c ic) : DecAt (fun st => nextBytes 1 st >>= k) (x :: b) c ic := by
  have h1 : DecAt (nextBytes 1) [x] [x] [] := fun pre suf cs hl => by rw [nextBytes_at pre [x] suf cs 1 rfl hl, List.append_nil]
  exact DecAt.step0 h1 h2

/-- The last step. -/
theorem DecAt.last {α β : Type} {f : Dec α} {k : α × St → Res (β × St)} {b : Str} {a : α} {c : β} {ic : List Str}
    (h1 : DecAt f b a ic) (h2 : ∀ st, k (a, st) = .ok (c, st)) : DecAt (fun st => f st >>= k) b c ic := by
  have := DecAt.step (k := k) h1 (b2 := []) (c := c) (ic2 := []) (by
    intro pre suf cs _
    simp [h2])
  simpa using this

theorem DecAt.map {α β : Type} {f : Dec α} {b : Str} {a : α} {ic : List Str} (h : DecAt f b a ic) (k : α → β) :
    DecAt (fun st => f st >>= fun p => .ok (k p.1, p.2)) b (k a) ic := by
  have := DecAt.bind (g := fun a st => .ok (k a, st)) h (DecAt.pure (k a))
  simpa using this

theorem PanicAt.bind_left {α β : Type} {f : Dec α} {g : α → Dec β} {b : Str} (h : PanicAt f b) :
    PanicAt (fun st => f st >>= fun p => g p.1 p.2) b := by
  intro pre suf cs hl
  simp only [h pre suf cs hl]
  rfl

theorem PanicAt.bind {α β : Type} {f : Dec α} {g : α → Dec β} {b1 b2 : Str} {a : α} {ic1 : List Str}
    (h1 : DecAt f b1 a ic1) (h2 : PanicAt (g a) b2) : PanicAt (fun st => f st >>= fun p => g p.1 p.2) (b1 ++ b2) := by
  intro pre suf cs hl
  simp only [List.length_append] at hl
  have e1 := h1 pre (b2 ++ suf) cs (by simp only [List.length_append]; omega)
  have e2 := h2 (pre ++ b1) suf (cs ++ ic1) (by simp only [List.length_append]; omega)
  simp only [List.append_assoc, List.length_append] at e1 e2 ⊢
  rw [e1]
  simp only [Res.ok_bind, e2]

/-- Reading `b`. -/
theorem decAt_next (b : Str) (n : Int) (h : n = b.length) : DecAt (nextBytes n) b b [] := by
  intro pre suf cs hl
  rw [nextBytes_at pre b suf cs n h hl, List.append_nil]

theorem decodes_of_decAt {env : Env} {ctx : Ctx} {ty : Str} {cls : Cls} {sub b : Str} {v : Val} {ic : List Str}
    (h : Resolves env ctx.module ctx.spec ty cls sub)
    (hp : ∃ N, ∀ n, N ≤ n → DecAt (process env.ext (pau env n) ctx cls sub) b v ic) : Decodes env ctx ty b v ic := by
  obtain ⟨N, hp⟩ := hp
  refine ⟨N + 1, fun n hn pre suf cs hl => ?_⟩
  obtain ⟨m, rfl⟩ : ∃ m, n = m + 1 := ⟨n - 1, by omega⟩
  rw [pau_resolves m _ h, hp m (by omega) pre suf cs hl]

theorem decodeRefuses_of_panicAt {env : Env} {ctx : Ctx} {ty : Str} {cls : Cls} {sub b : Str}
    (h : Resolves env ctx.module ctx.spec ty cls sub)
    (hp : ∃ N, ∀ n, N ≤ n → PanicAt (process env.ext (pau env n) ctx cls sub) b) : DecodeRefuses env ctx ty b := by
  obtain ⟨N, hp⟩ := hp
  refine ⟨N + 1, fun n hn pre suf cs hl => ?_⟩
  obtain ⟨m, rfl⟩ : ∃ m, n = m + 1 := ⟨n - 1, by omega⟩
  rw [pau_resolves m _ h, hp m (by omega) pre suf cs hl]

theorem encodes_of_enc {env : Env} {ctx : ECtx} {ty : Str} {cls : Cls} {sub : Str} {v : Val} {b : Str}
    (h : EncResolves env ctx ty cls sub)
    (hp : ∃ N, ∀ n, N ≤ n → encodeCls env.ext (enc env n) ctx cls sub (argOf v) = .ok (bytesToHex b)) :
    Encodes env ctx ty v b := by
  obtain ⟨N, hp⟩ := hp
  refine ⟨N + 1, fun n hle => ?_⟩
  obtain ⟨m, rfl⟩ : ∃ m, n = m + 1 := ⟨n - 1, by omega⟩
  rw [enc_resolves m v h, hp m (by omega)]
  simp only [Res.ok_bind, trimHex_lower_hex]

theorem encodeRefuses_of_enc {env : Env} {ctx : ECtx} {ty : Str} {cls : Cls} {sub : Str} {v : Val}
    (h : EncResolves env ctx ty cls sub)
    (hp : ∃ N, ∀ n, N ≤ n → encodeCls env.ext (enc env n) ctx cls sub (argOf v) = .panic) : EncodeRefuses env ctx ty v := by
  obtain ⟨N, hp⟩ := hp
  refine ⟨N + 1, fun n hle => ?_⟩
  obtain ⟨m, rfl⟩ : ∃ m, n = m + 1 := ⟨n - 1, by omega⟩
  rw [enc_resolves m v h, hp m (by omega)]
  rfl

/-- One bound for finitely many statements. -/
theorem uniform_bound {α : Type} {P : α → Nat → Prop} (l : List α) (h : ∀ x ∈ l, ∃ N, ∀ n, N ≤ n → P x n) :
    ∃ N, ∀ n, N ≤ n → ∀ x ∈ l, P x n := by
  induction l with
  | nil => exact ⟨0, fun _ _ _ h => absurd h (by simp)⟩
  | cons a l ih =>
    obtain ⟨N1, h1⟩ := h a (by simp)
    obtain ⟨N2, h2⟩ := ih fun x hx => h x (by simp [hx])
    refine ⟨max N1 N2, fun n hn x hx => ?_⟩
    rcases List.mem_cons.mp hx with rfl | hx
    · exact h1 n (by omega)
    · exact h2 n (by omega) x hx

theorem trimHex_hexText (b : Str) : trimHex (Spec.hexText b) = Spec.hexText b := by
  rw [← bytesToHex_eq_spec]
  simp [trimHex, trimPrefix, hasPrefix_0x_bytesToHex]

/-- `Compact<u32>`, by which lengths are read, is the class `compactU32` in this context. -/
def LenOK (env : Env) (ctx : Ctx) : Prop := ∃ s, Resolves env ctx.module ctx.spec b!"Compact<u32>" .compactU32 s

/-- `Compact<u32>`, by which lengths are written, is the class `compactU32`. -/
def LenEncOK (env : Env) : Prop := ∃ s, EncResolves env ECtx.none b!"Compact<u32>" .compactU32 s

theorem len_decodes {env : Env} {ctx : Ctx} (h : LenOK env ctx) {n : Nat} {b : Str} (hn : n < 2 ^ 63) (hb : Spec.IsCompact n b) :
    Decodes env ctx b!"Compact<u32>" b (.int n) [] := by
  obtain ⟨s, h⟩ := h
  exact C14_decode env ctx _ s n b hn hb h

theorem len_encodes {env : Env} (h : LenEncOK env) {n : Nat} {b : Str} (hn : n < 2 ^ 30) (hb : Spec.IsCompact n b) :
    Encodes env ECtx.none b!"Compact<u32>" (.int n) b := by
  obtain ⟨s, h⟩ := h
  obtain ⟨b', hb', he⟩ := C14_encode env ECtx.none _ s (.int n) n hn h rfl rfl
  rw [isCompact_unique hb hb']
  exact he

/-- A length followed by what is read with it. -/
theorem decAt_len {β : Type} {f : Dec Val} {k : Int → Dec β} {b c : Str} {v : β} {n : Int} {ic : List Str} (h : DecAt f c (.int n) [])
    (h2 : DecAt (k n) b v ic) : DecAt (fun st => f st >>= fun p => asInt p.1 >>= fun i => k i p.2) (c ++ b) v ic := by
  refine DecAt.bind (g := fun v st => asInt v >>= fun i => k i st) h ?_
  intro pre suf cs hl
  simp only [asInt, Res.ok_bind]
  exact h2 pre suf cs hl

theorem panicAt_len {β : Type} {f : Dec Val} {k : Int → Dec β} {b c : Str} {n : Int} (h : DecAt f c (.int n) [])
    (h2 : PanicAt (k n) b) : PanicAt (fun st => f st >>= fun p => asInt p.1 >>= fun i => k i p.2) (c ++ b) := by
  refine PanicAt.bind (g := fun v st => asInt v >>= fun i => k i st) h ?_
  intro pre suf cs hl
  simp only [asInt, Res.ok_bind]
  exact h2 pre suf cs hl

/-- Elements, each with its value, its bytes and the calls it reports. -/
abbrev Item := Val × Str × List Str

theorem decAt_procN {rec : Rec} {ctx : Ctx} {ty : Str} (items : List Item)
    (h : ∀ x ∈ items, DecAt (rec ctx ty) x.2.1 x.1 x.2.2) :
    DecAt (procN rec ctx ty items.length) (items.map (·.2.1)).flatten (items.map (·.1)) (items.map (·.2.2)).flatten := by
  induction items with
  | nil => exact DecAt.pure _
  | cons x items ih =>
    have h1 := h x (by simp)
    have h2 := ih fun y hy => h y (by simp [hy])
    have := DecAt.bind (g := fun v st => procN rec ctx ty items.length st >>= fun p => .ok (v :: p.1, p.2)) h1
      (h2.map (fun vs => x.1 :: vs))
    simpa [procN] using this

theorem enc_list {rec : ERec} {ctx : ECtx} {ty : Str} {f : Str → Str} (items : List (Val × Str))
    (h : ∀ x ∈ items, rec ctx ty x.1 = .ok (Spec.hexText x.2)) (hf : ∀ b, f (Spec.hexText b) = Spec.hexText b) :
    encList rec ctx ty f (items.map (·.1)) = .ok (bytesToHex (items.map (·.2)).flatten) := by
  induction items with
  | nil => rfl
  | cons x items ih =>
    simp only [List.map_cons, List.flatten_cons, encList, h x (by simp), ih fun y hy => h y (by simp [hy]), Res.ok_bind, hf,
      bytesToHex_append]
    rw [bytesToHex_eq_spec x.2]

/-- A registry with further types, for examples. -/
def addTypes (env : Env) (l : List (Str × Cls)) : Env :=
  { env with reg := fun k => (tableGet l k).or (env.reg k) }

end ScaleGo
