import Verif.Props.C41
import Verif.Lemmas.Tree
import Verif.Lemmas.TextChars

/-! # C112: types that compare as equal read the same bytes

`Compare` tells metadata apart by `Eq`, the structural texts of types without regard to case. Types may have the same text although
they read different bytes: `Option<bool>` and `Option<Bool>`, and an enum of the names `U8` and `Bool` and an enum with members of these types.
For types whose structure is written out to the end the texts are equal exactly when the structures are, and then
the types read the same bytes. -/

namespace ScaleGo

open ScaleGo.Spec (Tree IsWord wordByte)

namespace Spec

/-- How a decoding step ends, whatever its value: with the state after it, or a panic, or never. -/
def ends {α : Type} : Res (α × St) → Res St
  | .ok (_, s) => .ok s
  | .panic => .panic
  | .diverge => .diverge

/-- Both types read the same bytes of every input, and refuse the same inputs. -/
def ReadAlike (env : Env) (a b : Str) : Prop :=
  ∀ (n : Nat) (ctx : Ctx) (st : St), ctx.module = [] → ctx.spec = 0 → ends (pau env n ctx a st) = ends (pau env n ctx b st)

/-- Classes with a word of their own as their text, in lower case. -/
def wordClasses : List (Cls × Str) :=
  [(.null, b!"null"), (.u8, b!"u8"), (.u16, b!"u16"), (.u32, b!"u32"), (.u64, b!"u64"), (.moment, b!"u64"), (.fixedU64, b!"u64"),
   (.u128, b!"u128"), (.bool, b!"bool"), (.hash 20, b!"h160"), (.hash 32, b!"h256"), (.hash 64, b!"h512"), (.accountId, b!"accountid"),
   (.bytes, b!"bytes"), (.hexBytes, b!"bytes"), (.string, b!"string"), (.bitVec, b!"bitvec"), (.call, b!"call")]

/-- Integers of compact numbers. -/
def compactClasses : List (Cls × Str) := [(.u64, b!"u64"), (.u128, b!"u128")]

/-- The registered type `ty`, below `rt` structs and enums, has the structure `τ`, written out to the end. -/
inductive Layout (env : Env) : Nat → Str → Tree → Prop
  | word {rt ty c opt w τ} : getCodecClass env [] 0 ty = .ok (some (c, opt)) → (c, w) ∈ wordClasses → τ = .word w → Layout env rt ty τ
  | int {rt ty opt τ} (n : Nat) : getCodecClass env [] 0 ty = .ok (some (.intFixed n, opt)) →
      τ = .angle b!"int" [.word (natToDec (n * 8))] → Layout env rt ty τ
  | compact32 {rt ty opt τ} : getCodecClass env [] 0 ty = .ok (some (.compactU32, opt)) →
      τ = .angle b!"compact" [.word b!"u32"] → Layout env rt ty τ
  | compact {rt ty t opt c o τ} : getCodecClass env [] 0 ty = .ok (some (.compact t, opt)) →
      getCodecClass env [] 0 (effSub t opt) = .ok (some (c, o)) → (c, toLower (effSub t opt)) ∈ compactClasses →
      τ = .angle b!"compact" [.word (toLower (effSub t opt))] → Layout env rt ty τ
  | bytes {rt ty opt τ} (n : Nat) : getCodecClass env [] 0 ty = .ok (some (.fixedU8 n, opt)) →
      τ = .square (natToDec n) (.word b!"u8") → Layout env rt ty τ
  | array {rt ty t opt σ τ} (n : Nat) : getCodecClass env [] 0 ty = .ok (some (.fixedArray n t, opt)) → 0 < n → toLower t ≠ b!"u8" →
      σ ≠ .word b!"u8" → Layout env 0 t σ → τ = .square (natToDec n) σ → Layout env rt ty τ
  | option {rt ty t opt σ τ} : getCodecClass env [] 0 ty = .ok (some (.option t, opt)) → effSub t opt ≠ [] → effSub t opt ≠ b!"bool" →
      Layout env rt (effSub t opt) σ → τ = .angle b!"option" [σ] → Layout env rt ty τ
  | vec {rt ty t opt σ τ} : getCodecClass env [] 0 ty = .ok (some (.vec t, opt)) → Layout env rt (if t = [] then opt else t) σ →
      τ = .angle b!"vec" [σ] → Layout env rt ty τ
  | boundedVec {rt ty t opt σ τ} : getCodecClass env [] 0 ty = .ok (some (.boundedVec t, opt)) → Layout env rt (boundedSub t opt) σ →
      τ = .angle b!"vec" [σ] → Layout env rt ty τ
  | map {rt ty t opt x y σ ρ τ} : getCodecClass env [] 0 ty = .ok (some (.btreeMap t, opt)) → splitSep (effSub t opt) b!"," = [x, y] →
      Layout env 0 x σ → Layout env 0 y ρ → τ = .angle b!"btreemap" [σ, ρ] → Layout env rt ty τ
  | result {rt ty t opt x y σ ρ τ} : getCodecClass env [] 0 ty = .ok (some (.result t, opt)) → splitSep (effSub t opt) b!"," = [x, y] →
      Layout env 0 x σ → Layout env 0 y ρ → τ = .angle b!"results" [σ, ρ] → Layout env rt ty τ
  | struct {rt ty tm opt τ} (σs : List Tree) : getCodecClass env [] 0 ty = .ok (some (.struct (some tm), opt)) → (tm ≠ [] → rt < 5) →
      σs.length = tm.length → (∀ (i : Nat) (p : Str × Str) (σ : Tree), tm[i]? = some p → σs[i]? = some σ → Layout env (rt + 1) p.2 σ) →
      τ = .round b!"struct" σs → Layout env rt ty τ
  | enum {rt ty vs tm opt τ} (σs : List Tree) : getCodecClass env [] 0 ty = .ok (some (.enum vs (some tm), opt)) → rt < 5 →
      isCLike tm = false → (∀ p ∈ tm, p.2 ≠ [] ∧ variantRows env.ext p.2 = none) →
      σs.length = tm.length → (∀ (i : Nat) (p : Str × Str) (σ : Tree), tm[i]? = some p → σs[i]? = some σ → Layout env (rt + 1) p.2 σ) →
      τ = .round b!"enum" σs → Layout env rt ty τ
  | names {rt ty vs opt τ} : getCodecClass env [] 0 ty = .ok (some (.enum vs none, opt)) → vs ≠ [] →
      (∀ v ∈ vs, IsWord v ∧ toLower v ∉ wordClasses.map Prod.snd) →
      τ = .round b!"enum" (vs.map fun v => .word (toLower v)) → Layout env rt ty τ

end Spec

open ScaleGo.Spec (ends ReadAlike Layout wordClasses compactClasses)

/-- The full property: types that compare as equal read the same bytes. -/
def C112Claim : Prop := ∀ (env : Env) (n : Nat) (a b : Str), eqTypes env n a b = .ok true → ReadAlike env a b

/-! ## Words -/

theorem isWord_lower {w : Str} (h : IsWord w) : IsWord (toLower w) := by
  refine ⟨fun e => h.1 (List.map_eq_nil_iff.mp e), ?_⟩
  intro c hc
  obtain ⟨d, hd, rfl⟩ := List.mem_map.mp hc
  have := forall_byte (P := fun d => wordByte d = true → wordByte (lowerByte d) = true) (by decide +kernel)
  exact this d (h.2 d hd)

theorem isWord_dec (n : Nat) : IsWord (natToDec n) := by
  refine ⟨natToDec_ne_nil n, fun c hc => ?_⟩
  have : ∀ c ∈ b!"0123456789", wordByte c = true := by decide
  exact this c (natToDec_bytes n c hc)

theorem lower_dec (n : Nat) : toLower (natToDec n) = natToDec n := by
  refine toLower_fixed fun c hc => ?_
  have : ∀ c ∈ b!"0123456789", c.toNat < 65 ∨ 90 < c.toNat := by decide
  exact this c (natToDec_bytes n c hc)

theorem intToDec_natCast (n : Nat) : intToDec (n : Int) = natToDec n := by simp [intToDec]

instance (w : Str) : Decidable (IsWord w) := inferInstanceAs (Decidable (w ≠ [] ∧ ∀ c ∈ w, wordByte c = true))

theorem wordClasses_words : ∀ p ∈ wordClasses.map Prod.snd, IsWord p := by decide
theorem compactClasses_words : ∀ p ∈ compactClasses.map Prod.snd, IsWord p := by decide

/-- Structures of types are made of words. -/
theorem Spec.Layout.proper {env : Env} {rt : Nat} {ty : Str} {τ : Tree} (h : Layout env rt ty τ) : τ.Proper := by
  have one : ∀ {σ : Tree}, σ.Proper → ∀ t ∈ [σ], t.Proper := by
    intro σ h t ht
    rw [List.mem_singleton.mp ht]
    exact h
  have two : ∀ {σ ρ : Tree}, σ.Proper → ρ.Proper → ∀ t ∈ [σ, ρ], t.Proper := by
    intro σ ρ h h' t ht
    simp only [List.mem_cons, List.not_mem_nil, or_false] at ht
    rcases ht with rfl | rfl
    · exact h
    · exact h'
  have all : ∀ {σs : List Tree} {tm : List (Str × Str)}, σs.length = tm.length →
      (∀ (i : Nat) (p : Str × Str) (σ : Tree), tm[i]? = some p → σs[i]? = some σ → σ.Proper) → ∀ t ∈ σs, t.Proper := by
    intro σs tm hl ih t ht
    obtain ⟨i, hi, e⟩ := List.mem_iff_getElem.mp ht
    exact ih i _ t (List.getElem?_eq_getElem (hl ▸ hi)) (by rw [List.getElem?_eq_getElem hi, e])
  induction h with
  | word _ h e => subst e; exact .word (wordClasses_words _ (List.mem_map.mpr ⟨_, h, rfl⟩))
  | int n _ e => subst e; exact .angle (by decide) (one (.word (isWord_dec _)))
  | compact32 _ e => subst e; exact .angle (by decide) (one (.word (by decide)))
  | compact _ _ h e => subst e; exact .angle (by decide) (one (.word (compactClasses_words _ (List.mem_map.mpr ⟨_, h, rfl⟩))))
  | bytes n _ e => subst e; exact .square (isWord_dec n) (.word (by decide))
  | array n _ _ _ _ _ e ih => subst e; exact .square (isWord_dec n) ih
  | option _ _ _ _ e ih => subst e; exact .angle (by decide) (one ih)
  | vec _ _ e ih => subst e; exact .angle (by decide) (one ih)
  | boundedVec _ _ e ih => subst e; exact .angle (by decide) (one ih)
  | map _ _ _ _ e ih ih' => subst e; exact .angle (by decide) (two ih ih')
  | result _ _ _ _ e ih ih' => subst e; exact .angle (by decide) (two ih ih')
  | struct σs _ _ hl _ e ih => subst e; exact .round (by decide) (all hl ih)
  | enum σs _ _ _ _ hl _ e ih => subst e; exact .round (by decide) (all hl ih)
  | names _ _ h e =>
    subst e
    refine .round (by decide) fun t ht => ?_
    obtain ⟨v, hv, rfl⟩ := List.mem_map.mp ht
    exact .word (isWord_lower (h v hv).1)

/-! ## The text of a structure -/

/-- With enough recursion depth the type has the text of the structure, in some case. -/
def HasText (env : Env) (ty : Str) (rt : Nat) (x : Str) : Prop :=
  ∃ N, ∀ n, N ≤ n → ∃ y, typeStructText env n ty rt = .ok y ∧ toLower y = x

theorem hasText_of {env : Env} {ty : Str} {rt : Nat} {x : Str} {c : Cls} {opt : Str} (h : getCodecClass env [] 0 ty = .ok (some (c, opt)))
    (ht : ∃ N, ∀ n, N ≤ n → ∃ y, classText (typeStructText env n) rt ty c opt = .ok y ∧ toLower y = x) : HasText env ty rt x := by
  obtain ⟨N, hN⟩ := ht
  refine ⟨N + 1, fun n hn => ?_⟩
  obtain ⟨k, rfl⟩ : ∃ k, n = k + 1 := ⟨n - 1, by omega⟩
  obtain ⟨y, hy, e⟩ := hN k (by omega)
  exact ⟨y, by rw [typeStructText, h, Res.ok_bind]; exact hy, e⟩

theorem hasText_const {env : Env} {ty : Str} {rt : Nat} {x y : Str} {c : Cls} {opt : Str} (h : getCodecClass env [] 0 ty = .ok (some (c, opt)))
    (ht : ∀ rec, classText rec rt ty c opt = .ok y) (e : toLower y = x) : HasText env ty rt x :=
  hasText_of h ⟨0, fun _ _ => ⟨y, ht _, e⟩⟩

/-- The texts of members, joined. -/
theorem membersText_hasText {env : Env} {rt : Nat} : ∀ (tm : List (Str × Str)) (σs : List Tree), σs.length = tm.length →
    (∀ (i : Nat) (p : Str × Str) (σ : Tree), tm[i]? = some p → σs[i]? = some σ → HasText env p.2 rt σ.text) →
    ∃ N, ∀ n, N ≤ n → ∃ l, membersText (typeStructText env n) rt (tm.map (·.2)) = .ok l ∧ l.length = tm.length ∧
      toLower (joinSep b!"," l) = Tree.texts σs
  | [], σs, hl, _ => by
    obtain rfl := List.length_eq_zero_iff.mp hl
    exact ⟨0, fun n _ => ⟨[], rfl, rfl, rfl⟩⟩
  | p :: tm, [], hl, _ => by simp at hl
  | p :: tm, σ :: σs, hl, h => by
    obtain ⟨N, hN⟩ := h 0 p σ rfl rfl
    obtain ⟨M, hM⟩ := membersText_hasText tm σs (by simpa using hl) fun i q ρ h1 h2 => h (i + 1) q ρ h1 h2
    refine ⟨N + M, fun n hn => ?_⟩
    obtain ⟨y, h1, e1⟩ := hN n (by omega)
    obtain ⟨l, h2, hl2, e2⟩ := hM n (by omega)
    refine ⟨y :: l, ?_, by simp [hl2], ?_⟩
    · rw [List.map_cons, membersText, h1, Res.ok_bind, h2, Res.ok_bind]
    · have hlen : l.length = σs.length := by rw [hl2]; simpa using hl.symm
      match l, σs, hlen, e2 with
      | [], [], _, _ => simpa [joinSep, Tree.texts] using e1
      | a :: l, ρ :: σs, _, e2 =>
        rw [joinSep, Tree.texts, toLower_append, toLower_append, e1, e2]
        simp [toLower, lowerByte]

theorem mappingText_hasText {env : Env} {rt : Nat} {tm : List (Str × Str)} {σs : List Tree} (hrt : tm ≠ [] → rt < 5)
    (hl : σs.length = tm.length)
    (h : ∀ (i : Nat) (p : Str × Str) (σ : Tree), tm[i]? = some p → σs[i]? = some σ → HasText env p.2 (rt + 1) σ.text) (w : Str) :
    ∃ N, ∀ n, N ≤ n → ∃ y, mappingText (typeStructText env n) w rt (tm.map (·.2)) = .ok y ∧
      toLower y = (Tree.round (toLower w) σs).text := by
  obtain ⟨N, hN⟩ := membersText_hasText tm σs hl h
  refine ⟨N, fun n hn => ?_⟩
  obtain ⟨l, h1, -, e1⟩ := hN n hn
  refine ⟨w ++ b!"(" ++ joinSep b!"," l ++ b!")", ?_, ?_⟩
  · rw [mappingText, if_neg ?_, h1, Res.ok_bind]
    rintro ⟨hne, hlt⟩
    have := hrt (fun e => hne (by rw [e]; rfl))
    simp only [limitRecursiveTime] at hlt
    omega
  · rw [toLower_append, toLower_append, toLower_append, e1, Tree.text]
    simp [toLower, lowerByte]

theorem pairText_hasText {env : Env} {sub x y : Str} {σ ρ : Tree} (hs : splitSep sub b!"," = [x, y]) (h1 : HasText env x 0 σ.text)
    (h2 : HasText env y 0 ρ.text) (w : Str) :
    ∃ N, ∀ n, N ≤ n → ∃ z, pairText (typeStructText env n) w sub = .ok z ∧ toLower z = (Tree.angle (toLower w) [σ, ρ]).text := by
  obtain ⟨N, hN⟩ := h1
  obtain ⟨M, hM⟩ := h2
  refine ⟨N + M, fun n hn => ?_⟩
  obtain ⟨a, ha, e1⟩ := hN n (by omega)
  obtain ⟨b, hb, e2⟩ := hM n (by omega)
  refine ⟨w ++ b!"<" ++ a ++ b!"," ++ b ++ b!">", ?_, ?_⟩
  · rw [pairText, hs]
    show (typeStructText env n x 0 >>= _) = _
    rw [ha, Res.ok_bind, hb, Res.ok_bind]
  · simp only [toLower_append, e1, e2, Tree.text, Tree.texts]
    simp [toLower, lowerByte]

theorem oneText_hasText {env : Env} {s w : Str} {rt : Nat} {σ : Tree} (h : HasText env s rt σ.text) :
    ∃ N, ∀ n, N ≤ n → ∃ z, (typeStructText env n s rt >>= fun x => Res.ok (w ++ b!"<" ++ x ++ b!">")) = .ok z ∧
      toLower z = (Tree.angle (toLower w) [σ]).text := by
  obtain ⟨N, hN⟩ := h
  refine ⟨N, fun n hn => ?_⟩
  obtain ⟨a, ha, e1⟩ := hN n hn
  refine ⟨_, by rw [ha, Res.ok_bind], ?_⟩
  simp only [toLower_append, e1, Tree.text, Tree.texts]
  simp [toLower, lowerByte]

theorem names_text : ∀ vs : List Str, toLower (joinSep b!"," vs) = Tree.texts (vs.map fun v => .word (toLower v))
  | [] => rfl
  | [v] => by simp [joinSep, Tree.texts, Tree.text]
  | v :: u :: vs => by
    rw [joinSep, toLower_append, toLower_append, names_text (u :: vs)]
    simp only [List.map_cons, Tree.texts, Tree.text]
    simp [toLower, lowerByte]

/-- Every type with a structure has its text. -/
theorem layout_hasText {env : Env} {rt : Nat} {ty : Str} {τ : Tree} (h : Layout env rt ty τ) : HasText env ty rt τ.text := by
  induction h with
  | @word rt ty c opt w τ hc hw e =>
    subst e
    simp only [wordClasses, List.mem_cons, Prod.mk.injEq, List.not_mem_nil, or_false] at hw
    rcases hw with ⟨rfl, rfl⟩ | ⟨rfl, rfl⟩ | ⟨rfl, rfl⟩ | ⟨rfl, rfl⟩ | ⟨rfl, rfl⟩ | ⟨rfl, rfl⟩ | ⟨rfl, rfl⟩ | ⟨rfl, rfl⟩ | ⟨rfl, rfl⟩ |
      ⟨rfl, rfl⟩ | ⟨rfl, rfl⟩ | ⟨rfl, rfl⟩ | ⟨rfl, rfl⟩ | ⟨rfl, rfl⟩ | ⟨rfl, rfl⟩ | ⟨rfl, rfl⟩ | ⟨rfl, rfl⟩ | ⟨rfl, rfl⟩ <;>
      exact hasText_const hc (fun _ => rfl) (by decide +kernel)
  | int n hc e =>
    subst e
    refine hasText_const hc (fun _ => rfl) ?_
    rw [show ((n : Int) * 8) = ((n * 8 : Nat) : Int) by omega, intToDec_natCast]
    rw [toLower_append, toLower_append, lower_dec]
    simp [Tree.text, Tree.texts, toLower, lowerByte]
  | compact32 hc e => subst e; exact hasText_const hc (fun _ => rfl) (by decide +kernel)
  | compact hc _ _ e =>
    subst e
    refine hasText_const hc (fun _ => rfl) ?_
    rw [toLower_append, toLower_append]
    simp [Tree.text, Tree.texts, toLower, lowerByte]
  | bytes n hc e =>
    subst e
    refine hasText_const hc (fun _ => rfl) ?_
    rw [intToDec_natCast, toLower_append, toLower_append, lower_dec]
    simp [Tree.text, toLower, lowerByte]
  | @array rt ty t opt σ τ n hc _ _ _ _ e ih =>
    subst e
    obtain ⟨N, hN⟩ := ih
    refine hasText_of hc ⟨N, fun k hk => ?_⟩
    obtain ⟨y, hy, e1⟩ := hN k hk
    refine ⟨b!"[" ++ intToDec n ++ b!";" ++ y ++ b!"]", ?_, ?_⟩
    · show (typeStructText env k t 0 >>= _) = _
      rw [hy, Res.ok_bind]
    · rw [intToDec_natCast]
      simp only [toLower_append, lower_dec, e1, Tree.text]
      simp [toLower, lowerByte]
  | option hc _ _ _ e ih => subst e; exact hasText_of hc (oneText_hasText (w := b!"Option") ih)
  | vec hc _ e ih => subst e; exact hasText_of hc (oneText_hasText (w := b!"Vec") ih)
  | boundedVec hc _ e ih => subst e; exact hasText_of hc (oneText_hasText (w := b!"Vec") ih)
  | map hc hs _ _ e ih ih' => subst e; exact hasText_of hc (pairText_hasText hs ih ih' b!"BTreeMap")
  | result hc hs _ _ e ih ih' => subst e; exact hasText_of hc (pairText_hasText hs ih ih' b!"Results")
  | struct σs hc hrt hl _ e ih => subst e; exact hasText_of hc (mappingText_hasText hrt hl ih b!"Struct")
  | enum σs hc hrt _ _ hl _ e ih => subst e; exact hasText_of hc (mappingText_hasText (fun _ => hrt) hl ih b!"Enum")
  | @names rt ty vs opt τ hc hne _ e =>
    subst e
    refine hasText_const (y := b!"Enum(" ++ joinSep b!"," vs ++ b!")") hc (fun _ => ?_) ?_
    · show Res.ok (if vs = [] then [] else _) = _
      rw [if_neg hne]
    · rw [toLower_append, toLower_append, names_text]
      simp [Tree.text, toLower, lowerByte]

/-! ## Reading -/

theorem ends_bind {α β γ δ : Type} {x : Res (α × St)} {y : Res (β × St)} {f : α × St → Res (γ × St)} {g : β × St → Res (δ × St)}
    (h : ends x = ends y) (hf : ∀ v w s, ends (f (v, s)) = ends (g (w, s))) : ends (x >>= f) = ends (y >>= g) := by
  match x, y, h with
  | .ok (v, s), .ok (w, s'), h =>
    obtain rfl : s = s' := by simpa [ends] using h
    exact hf v w s
  | .panic, .panic, _ => rfl
  | .diverge, .diverge, _ => rfl

theorem ends_bind_same {α γ δ : Type} {x : Res (α × St)} {f : α × St → Res (γ × St)} {g : α × St → Res (δ × St)}
    (hf : ∀ v s, ends (f (v, s)) = ends (g (v, s))) : ends (x >>= f) = ends (x >>= g) := by
  match x with
  | .ok (v, s) => exact hf v s
  | .panic => rfl
  | .diverge => rfl

theorem ends_bind_plain {α γ δ : Type} {x : Res α} {f : α → Res (γ × St)} {g : α → Res (δ × St)} (hf : ∀ v, ends (f v) = ends (g v)) :
    ends (x >>= f) = ends (x >>= g) := by
  match x with
  | .ok v => exact hf v
  | .panic => rfl
  | .diverge => rfl

theorem ends_procN {rec : Rec} {ctx : Ctx} {a b : Str} (h : ∀ st, ends (rec ctx a st) = ends (rec ctx b st)) :
    ∀ (n : Nat) (st : St), ends (procN rec ctx a n st) = ends (procN rec ctx b n st)
  | 0, _ => rfl
  | n + 1, st => ends_bind (h st) fun _ _ s => ends_bind (ends_procN h n s) fun _ _ _ => rfl

theorem ends_procFields {rec : Rec} {ctx : Ctx} : ∀ (l l' : List (Str × Str)), l.length = l'.length →
    (∀ (i : Nat) (p q : Str × Str), l[i]? = some p → l'[i]? = some q → ∀ st, ends (rec ctx p.2 st) = ends (rec ctx q.2 st)) →
    ∀ acc acc' st, ends (procFields rec ctx l acc st) = ends (procFields rec ctx l' acc' st)
  | [], [], _, _, _, _, _ => rfl
  | p :: l, q :: l', hl, h, acc, acc', st =>
    ends_bind (h 0 p q rfl rfl st) fun v w s =>
      ends_procFields l l' (by simpa using hl) (fun i p' q' h1 h2 => h (i + 1) p' q' h1 h2) _ _ s

theorem ends_procPairs {ext : Ext} {rec : Rec} {ctx : Ctx} {x y x' y' : Str} (h : ∀ st, ends (rec ctx x st) = ends (rec ctx x' st))
    (h' : ∀ st, ends (rec ctx y st) = ends (rec ctx y' st)) :
    ∀ (n : Nat) (st : St), ends (procPairs ext rec ctx [x, y] n st) = ends (procPairs ext rec ctx [x', y'] n st)
  | 0, _ => rfl
  | n + 1, st => ends_bind (h st) fun _ _ s => ends_bind (h' s) fun _ _ s => ends_bind (ends_procPairs h h' n s) fun _ _ _ => rfl

/-- Classes with the same word read the same bytes. -/
theorem words_alike (ext : Ext) (rec : Rec) (ctx : Ctx) (st : St) (opt opt' : Str) {c c' : Cls} {w : Str} (h : (c, w) ∈ wordClasses)
    (h' : (c', w) ∈ wordClasses) : ends (process ext rec ctx c opt st) = ends (process ext rec ctx c' opt' st) := by
  have hb : ends (processBytes rec ctx st) = ends (processHexBytes rec ctx st) :=
    ends_bind_same fun v s => ends_bind_plain fun n => ends_bind_same fun _ _ => rfl
  have h1 : ends (processUint 8 st) = ends (processMoment st) := ends_bind_same fun _ _ => rfl
  have h2 : ends (processUint 8 st) = ends (processFixedU64 ext st) := ends_bind_same fun _ _ => rfl
  simp only [wordClasses, List.mem_cons, Prod.mk.injEq, List.not_mem_nil, or_false] at h h'
  rcases h with ⟨rfl, rfl⟩ | ⟨rfl, rfl⟩ | ⟨rfl, rfl⟩ | ⟨rfl, rfl⟩ | ⟨rfl, rfl⟩ | ⟨rfl, rfl⟩ | ⟨rfl, rfl⟩ | ⟨rfl, rfl⟩ | ⟨rfl, rfl⟩ |
    ⟨rfl, rfl⟩ | ⟨rfl, rfl⟩ | ⟨rfl, rfl⟩ | ⟨rfl, rfl⟩ | ⟨rfl, rfl⟩ | ⟨rfl, rfl⟩ | ⟨rfl, rfl⟩ | ⟨rfl, rfl⟩ | ⟨rfl, rfl⟩ <;>
  rcases h' with ⟨rfl, e⟩ | ⟨rfl, e⟩ | ⟨rfl, e⟩ | ⟨rfl, e⟩ | ⟨rfl, e⟩ | ⟨rfl, e⟩ | ⟨rfl, e⟩ | ⟨rfl, e⟩ | ⟨rfl, e⟩ |
    ⟨rfl, e⟩ | ⟨rfl, e⟩ | ⟨rfl, e⟩ | ⟨rfl, e⟩ | ⟨rfl, e⟩ | ⟨rfl, e⟩ | ⟨rfl, e⟩ | ⟨rfl, e⟩ | ⟨rfl, e⟩ <;>
  first
  | exact absurd e (by decide)
  | (dsimp only [process]; done)
  | (dsimp only [process]; with_reducible exact hb)
  | (dsimp only [process]; with_reducible exact hb.symm)
  | (dsimp only [process]; with_reducible exact h1)
  | (dsimp only [process]; with_reducible exact h1.symm)
  | (dsimp only [process]; with_reducible exact h2)
  | (dsimp only [process]; with_reducible exact h2.symm)
  | (dsimp only [process]; with_reducible exact h1.symm.trans h2)
  | (dsimp only [process]; with_reducible exact h2.symm.trans h1)

theorem ends_pau {env : Env} {a b : Str} {c c' : Cls} {opt opt' : Str} (h : getCodecClass env [] 0 a = .ok (some (c, opt)))
    (h' : getCodecClass env [] 0 b = .ok (some (c', opt'))) {n : Nat} {ctx : Ctx} {st : St} (hm : ctx.module = []) (hs : ctx.spec = 0)
    (hp : ends (process env.ext (pau env n) ctx c opt st) = ends (process env.ext (pau env n) ctx c' opt' st)) :
    ends (pau env (n + 1) ctx a st) = ends (pau env (n + 1) ctx b st) := by
  rw [pau, pau, hm, hs, h, h', Res.ok_bind, Res.ok_bind]
  exact hp

theorem enum_ends {ext : Ext} {rec : Rec} {ctx : Ctx} {vs vs' : List Str} {tm tm' : List (Str × Str)} (hl : tm.length = tm'.length)
    (hc : isCLike tm = false) (hc' : isCLike tm' = false) (hr : ∀ p ∈ tm, p.2 ≠ [] ∧ variantRows ext p.2 = none)
    (hr' : ∀ p ∈ tm', p.2 ≠ [] ∧ variantRows ext p.2 = none)
    (h : ∀ (i : Nat) (p q : Str × Str), tm[i]? = some p → tm'[i]? = some q → ∀ st, ends (rec ctx p.2 st) = ends (rec ctx q.2 st)) (st : St) :
    ends (processEnum ext rec ctx vs (some tm) st) = ends (processEnum ext rec ctx vs' (some tm') st) := by
  refine ends_bind_same fun b s => ?_
  simp only [hc, hc', Bool.false_eq_true, if_false]
  generalize (b.headD 0).toNat = i
  cases e : tm[i]? with
  | none =>
    have e' : tm'[i]? = none := by
      rw [List.getElem?_eq_none_iff] at e ⊢
      omega
    rw [e']
  | some p =>
    have hi : i < tm'.length := by
      have := (List.getElem?_eq_some_iff.mp e).1
      omega
    obtain ⟨q, e'⟩ : ∃ q, tm'[i]? = some q := ⟨_, List.getElem?_eq_getElem hi⟩
    rw [e']
    obtain ⟨h1, h2⟩ := hr p (List.mem_of_getElem? e)
    obtain ⟨h3, h4⟩ := hr' q (List.mem_of_getElem? e')
    simp only [h1, h2, h3, h4, if_false]
    exact ends_bind (h i p q e e' s) fun _ _ _ => rfl

theorem names_ends {ext : Ext} {rec : Rec} {ctx : Ctx} {vs vs' : List Str} (hl : vs.length = vs'.length) (st : St) :
    ends (processEnum ext rec ctx vs none st) = ends (processEnum ext rec ctx vs' none st) := by
  refine ends_bind_same fun b s => ?_
  dsimp only
  generalize (b.headD 0).toNat = i
  cases e : vs[i]? with
  | none =>
    have e' : vs'[i]? = none := by
      rw [List.getElem?_eq_none_iff] at e ⊢
      omega
    rw [e']
  | some p =>
    have hi : i < vs'.length := by
      have := (List.getElem?_eq_some_iff.mp e).1
      omega
    rw [List.getElem?_eq_getElem hi]
    rfl

theorem vec_ends {rec : Rec} {ctx : Ctx} {a b : Str} (h : ∀ st, ends (rec ctx a st) = ends (rec ctx b st)) (st : St) :
    ends (processVec rec ctx a st) = ends (processVec rec ctx b st) := by
  refine ends_bind_same fun v s => ends_bind_plain fun k => ?_
  dsimp only
  split
  · rfl
  · exact ends_bind (ends_procN h _ s) fun _ _ _ => rfl

/-- The class of a type with a structure in angle brackets. -/
theorem layout_word_mem {env : Env} {rt : Nat} {ty w : Str} (h : Layout env rt ty (.word w)) :
    ∃ c opt, getCodecClass env [] 0 ty = .ok (some (c, opt)) ∧ (c, w) ∈ wordClasses := by
  cases h with
  | word hc hw e => cases e; exact ⟨_, _, hc, hw⟩
  | int _ _ e | compact32 _ e | compact _ _ _ e | bytes _ _ e | array _ _ _ _ _ _ e | option _ _ _ _ e | vec _ _ e | boundedVec _ _ e
  | map _ _ _ _ e | result _ _ _ _ e | struct _ _ _ _ _ e | enum _ _ _ _ _ _ _ e | names _ _ _ e => cases e

/-- An enum with types and an enum with names have different structures. -/
theorem enum_not_names {env : Env} {rt : Nat} {tm : List (Str × Str)} {σs : List Tree} {vs : List Str} (hc : isCLike tm = false)
    (hl : σs.length = tm.length)
    (hf : ∀ (i : Nat) (p : Str × Str) (σ : Tree), tm[i]? = some p → σs[i]? = some σ → Layout env rt p.2 σ) (hne : vs ≠ [])
    (hv : ∀ v ∈ vs, IsWord v ∧ toLower v ∉ wordClasses.map Prod.snd) : σs ≠ vs.map fun v => .word (toLower v) := by
  rintro rfl
  obtain ⟨v, vs, rfl⟩ := List.exists_cons_of_ne_nil hne
  match tm, hl with
  | p :: tm, _ =>
    obtain ⟨_, _, _, h⟩ := layout_word_mem (hf 0 p _ rfl rfl)
    exact (hv v (by simp)).2 (List.mem_map.mpr ⟨_, h, rfl⟩)

/-- The remaining structures differ in their first word or bracket. -/
macro "tree_clash" e:ident : tactic => `(tactic| (
  rename_i e'
  first
  | (cases ($e).symm.trans e'; done)
  | exact absurd (Tree.angle.inj (($e).symm.trans e')).1 (by decide)
  | exact absurd (Tree.round.inj (($e).symm.trans e')).1 (by decide)))

theorem compact_inner {env : Env} {s s' : Str} {c c' : Cls} {o o' w : Str} (h : getCodecClass env [] 0 s = .ok (some (c, o)))
    (h' : getCodecClass env [] 0 s' = .ok (some (c', o'))) (hw : (c, w) ∈ compactClasses) (hw' : (c', w) ∈ compactClasses) {n : Nat} (st : St) :
    pau env n Ctx.fresh s st = pau env n Ctx.fresh s' st := by
  cases n with
  | zero => rfl
  | succ n =>
    rw [pau, pau, show Ctx.fresh.module = [] from rfl, show Ctx.fresh.spec = 0 from rfl, h, h', Res.ok_bind, Res.ok_bind]
    simp only [compactClasses, List.mem_cons, Prod.mk.injEq, List.not_mem_nil, or_false] at hw hw'
    rcases hw with ⟨rfl, rfl⟩ | ⟨rfl, rfl⟩ <;> rcases hw' with ⟨rfl, e⟩ | ⟨rfl, e⟩ <;> first | exact absurd e (by decide) | rfl

/-- Types with one structure read alike. -/
theorem layout_alike {env : Env} (n : Nat) : ∀ {rt rt' : Nat} {a b : Str} {τ : Tree}, Layout env rt a τ → Layout env rt' b τ →
    ∀ (ctx : Ctx) (st : St), ctx.module = [] → ctx.spec = 0 → ends (pau env n ctx a st) = ends (pau env n ctx b st) := by
  induction n with
  | zero => intros; rfl
  | succ n ih =>
    intro rt rt' a b τ ha hb ctx st hm hs
    cases ha with
    | word hc hw e =>
      subst e
      obtain ⟨c', opt', hc', hw'⟩ := layout_word_mem hb
      exact ends_pau hc hc' hm hs (words_alike _ _ _ _ _ _ hw hw')
    | int k hc e =>
      cases hb with
      | int k' hc' e' =>
        obtain h1 := Tree.word.inj (List.cons.inj (Tree.angle.inj (e.symm.trans e')).2).1
        obtain rfl : k = k' := by have := natToDec_injective h1; omega
        exact ends_pau hc hc' hm hs rfl
      | _ => tree_clash e
    | compact32 hc e =>
      cases hb with
      | compact32 hc' e' => exact ends_pau hc hc' hm hs rfl
      | compact _ _ hw e' =>
        have h1 := Tree.word.inj (List.cons.inj (Tree.angle.inj (e.symm.trans e')).2).1
        rw [← h1] at hw
        simp [compactClasses] at hw
      | _ => tree_clash e
    | compact hc hd hw e =>
      cases hb with
      | compact32 hc' e' =>
        have h1 := Tree.word.inj (List.cons.inj (Tree.angle.inj (e.symm.trans e')).2).1
        rw [h1] at hw
        simp [compactClasses] at hw
      | compact hc' hd' hw' e' =>
        have h1 := Tree.word.inj (List.cons.inj (Tree.angle.inj (e.symm.trans e')).2).1
        rw [← h1] at hw'
        have hne : ∀ {t : Str} {c}, (c, toLower t) ∈ compactClasses → t ≠ [] := by
          rintro t c h rfl
          simp [compactClasses, toLower] at h
        have hin := compact_inner hd hd' hw hw' (n := n)
        rw [h1] at hw'
        refine ends_pau hc hc' hm hs (ends_bind_same fun v s => ?_)
        obtain ⟨len, cb⟩ := v
        dsimp only
        rw [if_neg (hne hw), if_neg (hne hw'), hin]
      | _ => tree_clash e
    | bytes k hc e =>
      cases hb with
      | bytes k' hc' e' =>
        obtain rfl := natToDec_injective (Tree.square.inj (e.symm.trans e')).1
        exact ends_pau hc hc' hm hs rfl
      | array k' hc' h0' ht' hσ' hl' e' => exact absurd (Tree.square.inj (e.symm.trans e')).2.symm hσ'
      | _ => tree_clash e
    | array k hc h0 ht hσ hl e =>
      cases hb with
      | bytes k' hc' e' => exact absurd (Tree.square.inj (e.symm.trans e')).2 hσ
      | array k' hc' h0' ht' hσ' hl' e' =>
        obtain ⟨h1, rfl⟩ := Tree.square.inj (e.symm.trans e')
        obtain rfl := natToDec_injective h1
        refine ends_pau hc hc' hm hs ?_
        dsimp only [process]
        unfold processFixedArray
        have h2 : ∀ {t : Str}, toLower t ≠ b!"u8" → equalFold t b!"u8" = false := by
          intro t h
          rw [equalFold, beq_eq_false_iff_ne]
          exact h
        simp only [show (k : Int) > 0 by omega, h2 ht, h2 ht', if_true, Bool.false_eq_true, if_false]
        exact ends_bind (ends_procN (fun s => ih hl hl' ctx s hm hs) _ st) fun _ _ _ => rfl
      | _ => tree_clash e
    | option hc h1 h2 hl e =>
      cases hb with
      | option hc' h1' h2' hl' e' =>
        obtain rfl := (List.cons.inj (Tree.angle.inj (e.symm.trans e')).2).1
        refine ends_pau hc hc' hm hs (ends_bind_same fun v s => ?_)
        dsimp only
        simp only [h1, h2, h1', h2', if_false, ne_eq, not_false_eq_true, true_and]
        split
        · exact ih hl hl' ctx s hm hs
        · rfl
      | _ => tree_clash e
    | vec hc hl e =>
      cases hb with
      | vec hc' hl' e' | boundedVec hc' hl' e' =>
        obtain rfl := (List.cons.inj (Tree.angle.inj (e.symm.trans e')).2).1
        exact ends_pau hc hc' hm hs (vec_ends (fun s => ih hl hl' ctx s hm hs) st)
      | _ => tree_clash e
    | boundedVec hc hl e =>
      cases hb with
      | vec hc' hl' e' | boundedVec hc' hl' e' =>
        obtain rfl := (List.cons.inj (Tree.angle.inj (e.symm.trans e')).2).1
        exact ends_pau hc hc' hm hs (vec_ends (fun s => ih hl hl' ctx s hm hs) st)
      | _ => tree_clash e
    | map hc hsp hx hy e =>
      cases hb with
      | map hc' hsp' hx' hy' e' =>
        obtain ⟨rfl, h1⟩ := List.cons.inj (Tree.angle.inj (e.symm.trans e')).2
        obtain rfl := (List.cons.inj h1).1
        refine ends_pau hc hc' hm hs (ends_bind_same fun v s => ends_bind_plain fun k => ?_)
        dsimp only
        split
        · rfl
        · rw [hsp, hsp']
          exact ends_bind (ends_procPairs (fun s => ih hx hx' ctx s hm hs) (fun s => ih hy hy' ctx s hm hs) _ s) fun _ _ _ => rfl
      | _ => tree_clash e
    | result hc hsp hx hy e =>
      cases hb with
      | result hc' hsp' hx' hy' e' =>
        obtain ⟨rfl, h1⟩ := List.cons.inj (Tree.angle.inj (e.symm.trans e')).2
        obtain rfl := (List.cons.inj h1).1
        refine ends_pau hc hc' hm hs (ends_bind_same fun v s => ?_)
        rw [hsp, hsp']
        dsimp only
        split
        · exact ends_bind (ih hx hx' ctx s hm hs) fun _ _ _ => rfl
        · split
          · exact ends_bind (ih hy hy' ctx s hm hs) fun _ _ _ => rfl
          · rfl
      | _ => tree_clash e
    | struct σs hc hrt hl hf e =>
      cases hb with
      | struct σs' hc' hrt' hl' hf' e' =>
        obtain rfl := (Tree.round.inj (e.symm.trans e')).2
        refine ends_pau hc hc' hm hs (ends_bind (ends_procFields _ _ (hl.symm.trans hl') (fun i p q h1 h2 s => ?_) _ _ st) fun _ _ _ => rfl)
        have hi : i < σs.length := hl ▸ (List.getElem?_eq_some_iff.mp h1).1
        exact ih (hf i p _ h1 (List.getElem?_eq_getElem hi)) (hf' i q _ h2 (List.getElem?_eq_getElem hi)) ctx s hm hs
      | _ => tree_clash e
    | enum σs hc hrt hcl hr hl hf e =>
      cases hb with
      | enum σs' hc' hrt' hcl' hr' hl' hf' e' =>
        obtain rfl := (Tree.round.inj (e.symm.trans e')).2
        refine ends_pau hc hc' hm hs (enum_ends (hl.symm.trans hl') hcl hcl' hr hr' (fun i p q h1 h2 s => ?_) st)
        have hi : i < σs.length := hl ▸ (List.getElem?_eq_some_iff.mp h1).1
        exact ih (hf i p _ h1 (List.getElem?_eq_getElem hi)) (hf' i q _ h2 (List.getElem?_eq_getElem hi)) ctx s hm hs
      | names hc' hne hv e' => exact absurd (Tree.round.inj (e.symm.trans e')).2 (enum_not_names hcl hl hf hne hv)
      | _ => tree_clash e
    | names hc hne hv e =>
      cases hb with
      | enum σs' hc' hrt' hcl' hr' hl' hf' e' =>
        exact absurd (Tree.round.inj (e.symm.trans e')).2.symm (enum_not_names hcl' hl' hf' hne hv)
      | names hc' hne' hv' e' =>
        have h1 := congrArg List.length (Tree.round.inj (e.symm.trans e')).2
        exact ends_pau hc hc' hm hs (names_ends (ext := env.ext) (rec := pau env n) (ctx := ctx) (by simpa using h1) st)
      | _ => tree_clash e

/-! ## Comparing -/

theorem membersText_mono {rec rec' : Str → Nat → Res Str} (h : ∀ s k y, rec s k = .ok y → rec' s k = .ok y) {k : Nat} :
    ∀ {l : List Str} {ys : List Str}, membersText rec k l = .ok ys → membersText rec' k l = .ok ys
  | [], _, e => e
  | s :: l, ys, e => by
    rw [membersText, Res.bind_eq_ok] at e
    obtain ⟨x, hx, e⟩ := e
    rw [Res.bind_eq_ok] at e
    obtain ⟨xs, hxs, e⟩ := e
    rw [membersText, h _ _ _ hx, Res.ok_bind, membersText_mono h hxs, Res.ok_bind]
    exact e

theorem mappingText_mono {rec rec' : Str → Nat → Res Str} (h : ∀ s k y, rec s k = .ok y → rec' s k = .ok y) {w : Str} {rt : Nat} {l : List Str}
    {y : Str} (e : mappingText rec w rt l = .ok y) : mappingText rec' w rt l = .ok y := by
  unfold mappingText at e ⊢
  split at e
  · rw [if_pos ‹_›]; exact e
  · rw [if_neg ‹_›]
    rw [Res.bind_eq_ok] at e
    obtain ⟨x, hx, e⟩ := e
    rw [membersText_mono h hx, Res.ok_bind]
    exact e

theorem pairText_mono {rec rec' : Str → Nat → Res Str} (h : ∀ s k y, rec s k = .ok y → rec' s k = .ok y) {w s : Str}
    {y : Str} (e : pairText rec w s = .ok y) : pairText rec' w s = .ok y := by
  unfold pairText at e ⊢
  split at e
  · rw [Res.bind_eq_ok] at e
    obtain ⟨x, hx, e⟩ := e
    rw [Res.bind_eq_ok] at e
    obtain ⟨x', hx', e⟩ := e
    simp only [h _ _ _ hx, h _ _ _ hx', Res.ok_bind]
    exact e
  · rw [Res.bind_eq_ok] at e
    obtain ⟨x, hx, e⟩ := e
    cases e
  · cases e

theorem oneText_mono {rec rec' : Str → Nat → Res Str} (h : ∀ s k y, rec s k = .ok y → rec' s k = .ok y) {s : Str} {k : Nat} {f : Str → Str}
    {y : Str} (e : (rec s k >>= fun x => Res.ok (f x)) = .ok y) : (rec' s k >>= fun x => Res.ok (f x)) = .ok y := by
  rw [Res.bind_eq_ok] at e
  obtain ⟨x, hx, e⟩ := e
  rw [h _ _ _ hx, Res.ok_bind]
  exact e

theorem classText_mono {rec rec' : Str → Nat → Res Str} (h : ∀ s k y, rec s k = .ok y → rec' s k = .ok y) {rt : Nat} {name opt : Str} {y : Str} :
    ∀ c, classText rec rt name c opt = .ok y → classText rec' rt name c opt = .ok y := by
  intro c
  cases c with
  | option | vec | boundedVec | authoritiesChange | fixedArray => exact oneText_mono h
  | struct tm =>
    cases tm with
    | none => exact id
    | some tm => exact mappingText_mono h
  | enum vs tm =>
    cases tm with
    | none => exact id
    | some tm => exact mappingText_mono h
  | data => exact mappingText_mono h
  | btreeMap => exact pairText_mono h
  | result => exact pairText_mono h
  | _ => exact id

theorem typeStructText_mono {env : Env} : ∀ {n m : Nat} {ty : Str} {rt : Nat} {y : Str}, n ≤ m → typeStructText env n ty rt = .ok y →
    typeStructText env m ty rt = .ok y
  | 0, _, _, _, _, _, e => by cases e
  | n + 1, 0, _, _, _, h, _ => by omega
  | n + 1, m + 1, ty, rt, y, h, e => by
    rw [typeStructText, Res.bind_eq_ok] at e
    obtain ⟨r, hr, e⟩ := e
    rw [typeStructText, hr, Res.ok_bind]
    cases r with
    | none => exact e
    | some p => exact classText_mono (fun s k y hy => typeStructText_mono (by omega) hy) p.1 e

theorem hasText_unique {env : Env} {ty : Str} {rt : Nat} {x y : Str} {n : Nat} (h : HasText env ty rt x) (hy : typeStructText env n ty rt = .ok y) :
    toLower y = x := by
  obtain ⟨N, hN⟩ := h
  obtain ⟨z, hz, e⟩ := hN (max n N) (le_max_right _ _)
  rw [typeStructText_mono (le_max_left n N) hy] at hz
  cases hz
  exact e

/-- Types compare as equal exactly when their structures are equal. -/
theorem C112_exact (env : Env) (a b : Str) (τ τ' : Tree) (ha : Layout env 0 a τ) (hb : Layout env 0 b τ') :
    ∃ N, ∀ n, N ≤ n → ∃ r, eqTypes env n a b = .ok r ∧ (r = true ↔ τ = τ') := by
  obtain ⟨N, hN⟩ := layout_hasText ha
  obtain ⟨M, hM⟩ := layout_hasText hb
  refine ⟨N + M, fun n hn => ?_⟩
  obtain ⟨x, hx, ex⟩ := hN n (by omega)
  obtain ⟨y, hy, ey⟩ := hM n (by omega)
  refine ⟨equalFold x y, by rw [eqTypes, hx, Res.ok_bind, hy, Res.ok_bind], ?_⟩
  rw [equalFold, beq_iff_eq, ex, ey]
  exact ⟨tree_text_inj ha.proper hb.proper, fun e => by rw [e]⟩

/-- Types with a structure that compare as equal read the same bytes. Missing: recursive types and types below more than five structs and enums,
enums with numbers, with fields or with names that are words of types, options of `bool`, arrays of bytes by another name, types without a class,
and the classes with no text of their own. -/
theorem C112_partial (env : Env) (n : Nat) (a b : Str) (τ τ' : Tree) (ha : Layout env 0 a τ) (hb : Layout env 0 b τ')
    (h : eqTypes env n a b = .ok true) : ReadAlike env a b := by
  rw [eqTypes, Res.bind_eq_ok] at h
  obtain ⟨x, hx, h⟩ := h
  rw [Res.bind_eq_ok] at h
  obtain ⟨y, hy, h⟩ := h
  have e : toLower x = toLower y := by simpa [equalFold] using Res.ok.inj h
  rw [hasText_unique (layout_hasText ha) hx, hasText_unique (layout_hasText hb) hy] at e
  obtain rfl := tree_text_inj ha.proper hb.proper e
  exact fun k ctx st hm hs => layout_alike k ha hb ctx st hm hs

/-! ## The full claim is false -/

/-- `Option<bool>` and `Option<Bool>` compare as equal, but one byte of `Some(true)` stays unread with the first. -/
theorem C112_claim_false : ¬ C112Claim := by
  intro h
  have h1 := h (baseEnv dummyExt) 9 b!"Option<bool>" b!"Option<Bool>" (by kernel_rfl) 9 ⟨[], 0, none⟩ ⟨⟨[1, 1], 0⟩, []⟩ rfl rfl
  have h2 : ends (pau (baseEnv dummyExt) 9 ⟨[], 0, none⟩ b!"Option<bool>" ⟨⟨[1, 1], 0⟩, []⟩) = .ok ⟨⟨[1, 1], 1⟩, []⟩ := by kernel_rfl
  have h3 : ends (pau (baseEnv dummyExt) 9 ⟨[], 0, none⟩ b!"Option<Bool>" ⟨⟨[1, 1], 0⟩, []⟩) = .ok ⟨⟨[1, 1], 2⟩, []⟩ := by kernel_rfl
  rw [h2, h3] at h1
  cases h1

/-- An enum of names and an enum with members of the types with these names. -/
def twoEnums : Env :=
  ⟨fun k => if k = b!"names" then some (.enum [b!"U8", b!"Bool"] none)
    else if k = b!"members" then some (.enum [] (some [(b!"A", b!"U8"), (b!"B", b!"Bool")])) else tableGet baseReg k, fun _ => [], dummyExt⟩

/-- They compare as equal as well. -/
theorem C112_names_wrong : eqTypes twoEnums 9 b!"Names" b!"Members" = .ok true ∧ ¬ ReadAlike twoEnums b!"Names" b!"Members" := by
  refine ⟨by kernel_rfl, fun h => ?_⟩
  have h1 := h 9 ⟨[], 0, none⟩ ⟨⟨[1, 1], 0⟩, []⟩ rfl rfl
  have h2 : ends (pau twoEnums 9 ⟨[], 0, none⟩ b!"Names" ⟨⟨[1, 1], 0⟩, []⟩) = .ok ⟨⟨[1, 1], 1⟩, []⟩ := by kernel_rfl
  have h3 : ends (pau twoEnums 9 ⟨[], 0, none⟩ b!"Members" ⟨⟨[1, 1], 0⟩, []⟩) = .ok ⟨⟨[1, 1], 2⟩, []⟩ := by kernel_rfl
  rw [h2, h3] at h1
  cases h1

/-! ## The hypotheses are met -/

/-- Two structs with the same members: `(Option<u32>, [Bool; 3], Compact<u64>)`. -/
def twoStructs : Env :=
  ⟨fun k => if k = b!"left" then some (.struct (some [(b!"a", b!"Option<u32>"), (b!"b", b!"[Bool; 3]"), (b!"c", b!"Compact<u64>")]))
    else if k = b!"right" then some (.struct (some [(b!"x", b!"Option<U32>"), (b!"y", b!"[bool; 3]"), (b!"z", b!"Compact<U64>")]))
    else tableGet baseReg k, fun _ => [], dummyExt⟩

/-- Their structure. -/
def pairTree : Tree :=
  .round b!"struct" [.angle b!"option" [.word b!"u32"], .square b!"3" (.word b!"bool"), .angle b!"compact" [.word b!"u64"]]

theorem left_layout : Layout twoStructs 0 b!"Left" pairTree := by
  refine .struct (tm := [(b!"a", b!"Option<u32>"), (b!"b", b!"[Bool; 3]"), (b!"c", b!"Compact<u64>")]) (opt := []) _ (by kernel_rfl) (by decide)
    rfl ?_ rfl
  intro i p σ h1 h2
  match i, h1, h2 with
  | 0, h1, h2 =>
    cases h1; cases h2
    exact .option (t := []) (opt := b!"u32") (by kernel_rfl) (by decide) (by decide) (.word (c := .u32) (opt := []) (by kernel_rfl) (by decide) rfl) rfl
  | 1, h1, h2 =>
    cases h1; cases h2
    exact .array (t := b!"bool") (opt := []) (σ := .word b!"bool") 3 (by kernel_rfl) (by decide) (by decide) (by simp)
      (.word (c := .bool) (opt := []) (by kernel_rfl) (by decide) rfl) rfl
  | 2, h1, h2 =>
    cases h1; cases h2
    exact .compact (t := []) (opt := b!"u64") (c := .u64) (o := []) (by kernel_rfl) (by kernel_rfl) (by decide) rfl

theorem right_layout : Layout twoStructs 0 b!"Right" pairTree := by
  refine .struct (tm := [(b!"x", b!"Option<U32>"), (b!"y", b!"[bool; 3]"), (b!"z", b!"Compact<U64>")]) (opt := []) _ (by kernel_rfl) (by decide)
    rfl ?_ rfl
  intro i p σ h1 h2
  match i, h1, h2 with
  | 0, h1, h2 =>
    cases h1; cases h2
    exact .option (t := []) (opt := b!"U32") (by kernel_rfl) (by decide) (by decide) (.word (c := .u32) (opt := []) (by kernel_rfl) (by decide) rfl) rfl
  | 1, h1, h2 =>
    cases h1; cases h2
    exact .array (t := b!"bool") (opt := []) (σ := .word b!"bool") 3 (by kernel_rfl) (by decide) (by decide) (by simp)
      (.word (c := .bool) (opt := []) (by kernel_rfl) (by decide) rfl) rfl
  | 2, h1, h2 =>
    cases h1; cases h2
    exact .compact (t := []) (opt := b!"U64") (c := .u64) (o := []) (by kernel_rfl) (by kernel_rfl) (by decide) rfl

example : eqTypes twoStructs 9 b!"Left" b!"Right" = .ok true ∧ ReadAlike twoStructs b!"Left" b!"Right" := by
  have h : eqTypes twoStructs 9 b!"Left" b!"Right" = .ok true := by kernel_rfl
  exact ⟨h, C112_partial _ 9 _ _ _ _ left_layout right_layout h⟩

end ScaleGo
