import Verif.Props.C119
import Verif.Props.C120

/-! # C121: lists in decoded values are no longer than the data -/

namespace ScaleGo
open _root_.Spec (Shape Part Loose Accepts AnyCompact compactInt listValue fieldTypes fieldOutputs outputs allBytes Whole)

/-- The value `u` occurs in a value. -/
inductive Spec.Occurs (u : Val) : Val → Prop
  | here : Occurs u u
  | slice {l x} : x ∈ l → Occurs u x → Occurs u (.slice l)
  | map {l p} : p ∈ l → Occurs u p.2 → Occurs u (.map l)
  | params {l p} : p ∈ l → Occurs u p.2.2 → Occurs u (.params l)

/-- No list in the value has more than `K` elements. -/
def Spec.ListsUpTo (K : Nat) (v : Val) : Prop := ∀ l, Spec.Occurs (.slice l) v → l.length ≤ K

open ScaleGo.Spec (Occurs ListsUpTo DataAsks AbsentAsks MayAsk)

section
variable {K : Nat}

theorem upTo_slice {l : List Val} (hl : l.length ≤ K) (h : ∀ x ∈ l, ListsUpTo K x) : ListsUpTo K (.slice l) := by
  intro l' ho
  cases ho with
  | here => exact hl
  | slice hx ho => exact h _ hx _ ho

theorem upTo_map {l : List (Str × Val)} (h : ∀ p ∈ l, ListsUpTo K p.2) : ListsUpTo K (.map l) := by
  intro l' ho
  cases ho with
  | map hx ho => exact h _ hx _ ho

theorem upTo_params {l : List (Str × Str × Val)} (h : ∀ p ∈ l, ListsUpTo K p.2.2) : ListsUpTo K (.params l) := by
  intro l' ho
  cases ho with
  | params hx ho => exact h _ hx _ ho

theorem upTo_nil : ListsUpTo K .nil := by rintro l ⟨⟩
theorem upTo_str {s : Str} : ListsUpTo K (.str s) := by rintro l ⟨⟩
theorem upTo_int {i : Int} : ListsUpTo K (.int i) := by rintro l ⟨⟩
theorem upTo_uint {w n : Nat} : ListsUpTo K (.uint w n) := by rintro l ⟨⟩
theorem upTo_float {w n : Nat} : ListsUpTo K (.float w n) := by rintro l ⟨⟩
theorem upTo_dec {c e : Int} : ListsUpTo K (.dec c e) := by rintro l ⟨⟩
theorem upTo_big {c : Int} : ListsUpTo K (.big c) := by rintro l ⟨⟩
theorem upTo_bool {b : Bool} : ListsUpTo K (.bool b) := by rintro l ⟨⟩
theorem upTo_bytes {s : Str} : ListsUpTo K (.bytes s) := by rintro l ⟨⟩
theorem upTo_strs {s : List Str} : ListsUpTo K (.strs s) := by rintro l ⟨⟩
theorem upTo_nilSlice : ListsUpTo K .nilSlice := by rintro l ⟨⟩

theorem upTo_mkSlice {l : List Val} (hl : l.length ≤ K) (h : ∀ x ∈ l, ListsUpTo K x) : ListsUpTo K (mkSlice l) := by
  unfold mkSlice
  split
  · exact upTo_nilSlice
  · exact upTo_slice hl h

theorem upTo_mono {K' : Nat} (hk : K ≤ K') {v : Val} (h : ListsUpTo K v) : ListsUpTo K' v := fun l ho => Nat.le_trans (h l ho) hk

end

/-- A step that returns a value returns one with the property. -/
def Yields {α : Type} (P : α → Prop) (r : Res (α × St)) : Prop := ∀ v st, r = .ok (v, st) → P v

theorem Yields.bind {α β : Type} {P : α → Prop} {m : Res β} {k : β → Res (α × St)} (h : ∀ a, m = .ok a → Yields P (k a)) :
    Yields P (m >>= k) := by
  intro v st e
  rw [Res.bind_eq_ok] at e
  obtain ⟨a, e1, e2⟩ := e
  exact h a e1 v st e2

theorem Yields.ok {α : Type} {P : α → Prop} {a : α} {st : St} (h : P a) : Yields P (.ok (a, st)) := by
  intro v st' e
  obtain ⟨rfl, _⟩ := ok_inj e
  exact h

theorem Yields.panic {α : Type} {P : α → Prop} : Yields P .panic := by
  intro v st' e
  cases e

/-- Steps whose values have no lists. -/
macro "no_lists" : tactic => `(tactic| repeat' with_reducible first
  | exact Yields.panic
  | exact Yields.ok upTo_nil
  | exact Yields.ok upTo_str
  | exact Yields.ok upTo_int
  | exact Yields.ok upTo_uint
  | exact Yields.ok upTo_float
  | exact Yields.ok upTo_dec
  | exact Yields.ok upTo_big
  | exact Yields.ok upTo_bool
  | exact Yields.ok upTo_bytes
  | exact Yields.ok upTo_strs
  | (refine Yields.bind ?_; intro _ _; try dsimp only)
  | split)

section
variable {K : Nat} {rec : Rec} {ctx : Ctx}

theorem procN_yields {P : Val → Prop} {u : Str} (h : ∀ st, Yields P (rec ctx u st)) : ∀ (n : Nat) (st : St),
    Yields (fun vs => vs.length = n ∧ ∀ x ∈ vs, P x) (procN rec ctx u n st)
  | 0, st => .ok (by simp)
  | n + 1, st => by
    rw [procN]
    refine .bind fun ⟨v, s1⟩ e1 => .bind fun ⟨vs, s2⟩ e2 => .ok ?_
    have h1 := h _ _ _ e1
    have h2 := procN_yields h n _ _ _ e2
    exact ⟨by simp [h2.1], by simpa using ⟨h1, h2.2⟩⟩

theorem mapSet_all {P : Val → Prop} {n : Str} {v : Val} (hv : P v) : ∀ {m : List (Str × Val)}, (∀ p ∈ m, P p.2) → ∀ p ∈ mapSet m n v, P p.2
  | [], _, p, hp => by
    simp only [mapSet, List.mem_singleton] at hp
    subst hp
    exact hv
  | (k, w) :: m, h, p, hp => by
    unfold mapSet at hp
    split at hp
    · rcases List.mem_cons.1 hp with rfl | hp
      · exact hv
      · exact h p (by simp [hp])
    · rcases List.mem_cons.1 hp with rfl | hp
      · exact h _ (by simp)
      · exact mapSet_all hv (fun q hq => h q (by simp [hq])) p hp

theorem procFields_yields {P : Val → Prop} : ∀ (fs : List (Str × Str)) (acc : List (Str × Val)) (st : St),
    (∀ u ∈ fs.map Prod.snd, ∀ st, Yields P (rec ctx u st)) → (∀ p ∈ acc, P p.2) →
    Yields (fun m => ∀ p ∈ m, P p.2) (procFields rec ctx fs acc st)
  | [], acc, st, _, ha => .ok ha
  | (n, t) :: fs, acc, st, h, ha => by
    rw [procFields]
    refine .bind fun ⟨v, s1⟩ e1 => ?_
    dsimp only
    exact procFields_yields fs _ s1 (fun u hu => h u (by simp at hu ⊢; exact .inr hu)) (mapSet_all (h t (by simp) _ _ _ e1) ha)

theorem procRows_yields {P : Val → Prop} : ∀ (rows : List (List Str)) (acc : List (Str × Val)) (st : St),
    (∀ u ∈ rowTypes rows, ∀ st, Yields P (rec ctx u st)) → (∀ p ∈ acc, P p.2) →
    Yields (fun m => ∀ p ∈ m, P p.2) (procRows rec ctx rows acc st)
  | [], acc, st, _, ha => .ok ha
  | [] :: _, _, _, _, _ => .panic
  | [_] :: _, _, _, _, _ => .panic
  | (n :: t :: r) :: rows, acc, st, h, ha => by
    rw [procRows]
    refine .bind fun ⟨v, s1⟩ e1 => ?_
    dsimp only
    exact procRows_yields rows _ s1 (fun u hu => h u (by simp [rowTypes] at hu ⊢; exact .inr hu)) (mapSet_all (h t (by simp [rowTypes]) _ _ _ e1) ha)

theorem procArgs_yields {P : Val → Prop} : ∀ (fs : List (Str × Str)) (st : St),
    (∀ u ∈ fs.map Prod.snd, ∀ st, Yields P (rec ctx u st)) → Yields (fun m => ∀ p ∈ m, P p.2.2) (procArgs rec ctx fs st)
  | [], st, _ => .ok (by simp)
  | (n, t) :: fs, st, h => by
    rw [procArgs]
    refine .bind fun ⟨v, s1⟩ e1 => .bind fun ⟨vs, s2⟩ e2 => .ok ?_
    have h1 := h t (by simp) _ _ _ e1
    have h2 := procArgs_yields fs _ (fun u hu => h u (by simp at hu ⊢; exact .inr hu)) _ _ e2
    simp only [List.mem_cons, forall_eq_or_imp]
    exact ⟨h1, h2⟩

theorem procPairs_yields {ext : Ext} {parts : List Str} (h : ∀ a t r, parts = a :: t :: r → ∀ st, Yields (ListsUpTo K) (rec ctx t st)) :
    ∀ (n : Nat) (st : St), Yields (fun vs => vs.length = n ∧ ∀ x ∈ vs, ListsUpTo K x) (procPairs ext rec ctx parts n st)
  | 0, st => .ok (by simp)
  | n + 1, st => by
    rw [procPairs]
    refine .bind fun ⟨k, s0⟩ e0 => ?_
    dsimp only
    split
    · rename_i a t r
      refine .bind fun ⟨v, s1⟩ e1 => .bind fun ⟨vs, s2⟩ e2 => .ok ?_
      have h1 := h a t r rfl _ _ _ e1
      have h2 := procPairs_yields h n _ _ _ e2
      refine ⟨by simp [h2.1], ?_⟩
      simp only [List.mem_cons, forall_eq_or_imp]
      exact ⟨upTo_map (by simpa using h1), h2.2⟩
    · exact .panic

theorem vec_yields {u : Str} (hK : 524288 ≤ K) (h : ∀ st, Yields (ListsUpTo K) (rec ctx u st)) (st : St) :
    Yields (ListsUpTo K) (processVec rec ctx u st) := by
  unfold processVec
  refine .bind fun ⟨v, s1⟩ e1 => .bind fun i e2 => ?_
  split
  · exact .panic
  · refine .bind fun ⟨vs, s2⟩ e3 => .ok ?_
    obtain ⟨h1, h2⟩ := procN_yields h _ _ _ _ e3
    exact upTo_mkSlice (by omega) h2

end

/-- One class: its lists are those counted in `Compact<u32>`, which is limited, those of arrays, and those of its parts. -/
theorem process_yields {K : Nat} (hK : 524288 ≤ K) {env : Env} {rec : Rec} {ctx : Ctx} {cls : Cls} {s : Str}
    (harr : ∀ n t, cls = .fixedArray n t → n ≤ K)
    (h : ∀ c u, DataAsks env ctx cls s c u → ∀ st, Yields (ListsUpTo K) (rec c u st)) (st : St) :
    Yields (ListsUpTo K) (process env.ext rec ctx cls s st) := by
  cases cls with
  | null => exact .ok upTo_nil
  | empty => exact .ok upTo_str
  | u8 => unfold process; dsimp only; unfold processU8; try dsimp only; no_lists
  | u16 => unfold process; dsimp only; unfold processUint; try dsimp only; no_lists
  | u32 => unfold process; dsimp only; unfold processUint; try dsimp only; no_lists
  | u64 => unfold process; dsimp only; unfold processUint; try dsimp only; no_lists
  | u128 => unfold process; dsimp only; unfold processU128; try dsimp only; no_lists
  | u256 => unfold process; dsimp only; unfold processU256; try dsimp only; no_lists
  | float64 => unfold process; dsimp only; unfold processFloat; split <;> no_lists
  | float32 => unfold process; dsimp only; unfold processFloat; split <;> no_lists
  | hash n => unfold process; dsimp only; unfold processHash; try dsimp only; no_lists
  | address => unfold process; dsimp only; unfold processAddress; try dsimp only; no_lists
  | genericAddress => unfold process; dsimp only; unfold processGenericAddress; try dsimp only; no_lists
  | option t =>
    unfold process; dsimp only; unfold processOption; try dsimp only
    refine .bind fun ⟨b, s1⟩ e1 => ?_
    dsimp only
    split
    · rename_i hc
      split
      · exact .ok upTo_bool
      · rename_i hb
        exact h ctx _ ⟨rfl, rfl, hc.1, hb⟩ s1
    · exact .ok upTo_nil
  | struct tm =>
    unfold process; dsimp only; unfold processStruct; try dsimp only
    refine .bind fun ⟨m, s1⟩ e1 => .ok (upTo_map ?_)
    exact procFields_yields _ [] st (fun u hu => h ctx u ⟨rfl, hu⟩) (by simp) _ _ e1
  | enum vs tm =>
    unfold process; dsimp only; unfold processEnum; try dsimp only
    refine .bind fun ⟨b, s1⟩ e1 => ?_
    dsimp only
    have hv : Yields (ListsUpTo K) (match vs[(b.headD 0).toNat]? with
        | some v => .ok (if v = [] then Val.nil else .str v, s1)
        | none => .panic) := by
      split
      · split
        · exact .ok upTo_nil
        · exact .ok upTo_str
      · exact .panic
    cases tm with
    | none => exact hv
    | some tm =>
      dsimp only
      split
      · exact .ok upTo_str
      · rename_i hcl
        cases ht : tm[(b.headD 0).toNat]? with
        | none => exact .panic
        | some p =>
          obtain ⟨name, sub⟩ := p
          dsimp only
          split
          · exact hv
          · rename_i hp
            have hsub : ∀ u ∈ variantAsks env.ext.rows sub, ∀ st, Yields (ListsUpTo K) (rec ctx u st) :=
              fun u hm => h ctx u ⟨rfl, by simpa using hcl, _, List.mem_of_getElem? ht, hm⟩
            have hva : variantAsks env.ext.rows sub = match variantRows env.ext sub with
                | some l => rowTypes l
                | none => [sub] := by
              unfold variantAsks variantRows
              rw [if_neg hp]
              rfl
            rw [hva] at hsub
            cases hvr : variantRows env.ext sub with
            | none =>
              rw [hvr] at hsub
              refine .bind fun ⟨v, s2⟩ e2 => .ok (upTo_map ?_)
              simpa using hsub sub (by simp) _ _ _ e2
            | some rows =>
              rw [hvr] at hsub
              refine .bind fun ⟨m, s2⟩ e2 => .ok (upTo_map ?_)
              have := upTo_map (procRows_yields rows [] s1 hsub (by simp) _ _ e2)
              simpa using this
  | bytes => unfold process; dsimp only; unfold processBytes; try dsimp only; no_lists
  | hexBytes => unfold process; dsimp only; unfold processHexBytes; try dsimp only; no_lists
  | string => unfold process; dsimp only; unfold processBytes; try dsimp only; no_lists
  | vec t => exact vec_yields hK (h ctx _ ⟨rfl, rfl⟩) st
  | boundedVec t => exact vec_yields hK (h ctx _ ⟨rfl, rfl⟩) st
  | authoritiesChange => exact vec_yields hK (h ctx _ ⟨rfl, rfl⟩) st
  | set vs bits => unfold process; dsimp only; unfold processSet; try dsimp only; no_lists
  | compact t =>
    unfold process; dsimp only; unfold processCompact; try dsimp only
    refine .bind fun ⟨⟨l, cb⟩, s1⟩ e1 => ?_
    dsimp only
    split
    · exact .ok upTo_bytes
    · rename_i hne
      refine .bind fun ⟨v, s2⟩ e2 => .bind fun r e3 => .ok ?_
      have hv := h Ctx.fresh _ ⟨rfl, rfl, hne⟩ _ _ _ e2
      unfold compactDivide at e3
      dsimp only at e3
      split at e3
      all_goals first
        | (injection e3 with e3; subst e3; first | exact upTo_uint | exact upTo_dec | exact hv)
        | skip
      split at e3
      · injection e3 with e3
        subst e3
        exact upTo_dec
      · cases e3
  | compactU32 => unfold process; dsimp only; unfold processCompactU32; try dsimp only; no_lists
  | compactMoment => unfold process; dsimp only; unfold processCompactMoment; try dsimp only; no_lists
  | bool => unfold process; dsimp only; unfold processBool; try dsimp only; no_lists
  | moment => unfold process; dsimp only; unfold processMoment; try dsimp only; no_lists
  | accountId => unfold process; dsimp only; unfold processAccountId; try dsimp only; no_lists
  | call =>
    unfold process; dsimp only; unfold processCall; try dsimp only
    refine .bind fun ⟨b, s1⟩ e1 => ?_
    obtain ⟨m, sp, md⟩ := ctx
    dsimp only
    cases md with
    | none => exact .panic
    | some md =>
      dsimp only
      refine .bind fun ⟨ps, s2⟩ e2 => .ok (upTo_map ?_)
      have hp : ListsUpTo K (.params ps) := upTo_params (procArgs_yields _ _ (fun u hu st => ?_) _ _ e2)
      · simpa using ⟨upTo_str, upTo_str, upTo_str, hp⟩
      · cases hk : md.callIndex (bytesToHex b) with
        | none =>
          rw [hk] at hu
          simp at hu
        | some e =>
          rw [hk] at hu
          exact h _ u ⟨md, _, e, rfl, hk, rfl, hu⟩ st
  | era => unfold process; dsimp only; unfold processEra; try dsimp only; no_lists
  | balance => unfold process; dsimp only; unfold processBalance; try dsimp only; no_lists
  | logDigest =>
    unfold process; dsimp only; unfold processLogDigest; try dsimp only
    refine .bind fun ⟨b, s1⟩ e1 => ?_
    dsimp only
    cases ht : logDigestValues[(b.headD 0).toNat]? with
    | none => exact .panic
    | some t =>
      dsimp only
      refine .bind fun ⟨v, s2⟩ e2 => .ok (upTo_map ?_)
      simpa using ⟨upTo_str, h ctx t ⟨rfl, List.mem_of_getElem? ht⟩ _ _ _ e2⟩
  | lockIdentifier => unfold process; dsimp only; unfold processHash; try dsimp only; no_lists
  | ecdsaSignature => unfold process; dsimp only; unfold processHash; try dsimp only; no_lists
  | ethereumAddress => unfold process; dsimp only; unfold processEthereumAddress; try dsimp only; no_lists
  | data =>
    unfold process; dsimp only; unfold processData; try dsimp only
    refine .bind fun ⟨b, s1⟩ e1 => ?_
    dsimp only
    split
    · exact .ok (upTo_map (by simpa using upTo_nil))
    · split
      · exact .bind fun ⟨d, s2⟩ _ => .ok (upTo_map (by simpa using upTo_str))
      · split
        · split
          · rename_i n t ht
            refine .bind fun ⟨v, s2⟩ e2 => .ok (upTo_map ?_)
            simpa using h ctx t ⟨rfl, _, List.mem_of_getElem? ht, rfl⟩ _ _ _ e2
          · exact .panic
        · exact .ok upTo_nil
  | opaqueCall =>
    unfold process; dsimp only; unfold processOpaqueCall; try dsimp only
    refine .bind fun ⟨v, s1⟩ e1 => ?_
    dsimp only
    split
    · refine .bind fun ⟨r, s2⟩ e2 => .ok ?_
      exact h _ _ ⟨rfl, rfl⟩ _ _ _ e2
    · exact .panic
  | bitVec => unfold process; dsimp only; unfold processBitVec; try dsimp only; no_lists
  | lookupSource => unfold process; dsimp only; unfold processLookupSource; try dsimp only; no_lists
  | btreeMap t =>
    unfold process; dsimp only; unfold processBTreeMap; try dsimp only
    refine .bind fun ⟨v, s1⟩ e1 => .bind fun i e2 => ?_
    split
    · exact .panic
    · refine .bind fun ⟨vs, s2⟩ e3 => .ok ?_
      obtain ⟨h1, h2⟩ := procPairs_yields (fun a t r e => h ctx t ⟨rfl, .inr ⟨a, r, e⟩⟩) _ _ _ _ e3
      exact upTo_mkSlice (by dsimp only at h1 ⊢; omega) h2
  | box t => exact h ctx _ ⟨rfl, rfl⟩ st
  | result t =>
    unfold process; dsimp only; unfold processResult; try dsimp only
    refine .bind fun ⟨b, s1⟩ e1 => ?_
    dsimp only
    split
    · rename_i a e hs
      split
      · refine .bind fun ⟨v, s2⟩ e2 => .ok (upTo_map ?_)
        simpa using h ctx a ⟨rfl, a, e, hs, .inl rfl⟩ _ _ _ e2
      · split
        · refine .bind fun ⟨v, s2⟩ e2 => .ok (upTo_map ?_)
          simpa using h ctx e ⟨rfl, a, e, hs, .inr rfl⟩ _ _ _ e2
        · exact .panic
    · exact .panic
  | wrapperOpaque t =>
    unfold process; dsimp only; unfold processWrapper; try dsimp only
    exact .bind fun ⟨_, s1⟩ _ => h ctx _ ⟨rfl, rfl⟩ s1
  | range t =>
    unfold process; dsimp only; unfold processRange; try dsimp only
    refine .bind fun ⟨a, s1⟩ e1 => .bind fun ⟨b, s2⟩ e2 => .ok (upTo_map ?_)
    simpa using ⟨h ctx _ ⟨rfl, .inl rfl⟩ _ _ _ e1, h ctx _ ⟨rfl, .inr rfl⟩ _ _ _ e2⟩
  | fixedU64 => unfold process; dsimp only; unfold processFixedU64; try dsimp only; no_lists
  | fixedI128 => unfold process; dsimp only; unfold processFixedI128; try dsimp only; no_lists
  | intFixed n => unfold process; dsimp only; unfold processIntFixed; try dsimp only; no_lists
  | fixedU8 n => unfold process; dsimp only; unfold processFixedU8; try dsimp only; no_lists
  | fixedArray n t =>
    unfold process; dsimp only; unfold processFixedArray; try dsimp only
    split
    · rename_i hn
      split
      · no_lists
      · rename_i hf
        refine .bind fun ⟨vs, s1⟩ e1 => .ok ?_
        obtain ⟨h1, h2⟩ := procN_yields (h ctx t ⟨rfl, rfl, hn, by simpa using hf⟩) _ _ _ _ e1
        have := harr n t rfl
        exact upTo_slice (by dsimp only at h1 ⊢; omega) h2
    · no_lists

/-- What is returned for a type that stays within `S`. -/
theorem pau_yields {K : Nat} (hK : 524288 ≤ K) {env : Env} (S : Ctx → Str → Prop)
    (hS : ∀ c u cls s c' u', S c u → getCodecClass env c.module c.spec u = .ok (some (cls, s)) → DataAsks env c cls s c' u' → S c' u')
    (harr : ∀ c u k t s, S c u → getCodecClass env c.module c.spec u = .ok (some (.fixedArray k t, s)) → k ≤ K) :
    ∀ (n : Nat) (c : Ctx) (u : Str) (st : St), S c u → Yields (ListsUpTo K) (pau env n c u st)
  | 0, _, _, _, _ => by
    intro v st e
    cases e
  | n + 1, c, u, st, hc => by
    rw [pau]
    refine .bind fun r e => ?_
    match r with
    | none => exact .panic
    | some (cls, s) =>
      refine process_yields hK (fun k t hk => ?_) (fun c' u' hd st' => pau_yields hK S hS harr n c' u' st' (hS _ _ _ _ _ _ hc e hd)) st
      subst hk
      exact harr _ _ _ _ _ hc e

/-- The full claim: lists in a decoded value have no more elements than the data have bytes. -/
def C121Claim : Prop :=
  ∀ (env : Env) (ctx : Ctx) (ty data : Str) (n : Nat) (v : Val) (st : St), LenOK env ctx →
    pau env n ctx ty ⟨⟨data, 0⟩, []⟩ = .ok (v, st) → ListsUpTo data.length v

/-- Whatever the data, lists have at most 524288 elements, or as many as an array that decoding may come to. -/
theorem C121_limit (env : Env) (ctx : Ctx) (ty : Str) (K : Nat) (hK : 524288 ≤ K)
    (harr : ∀ c u k t s, MayAsk env ctx ty c u → getCodecClass env c.module c.spec u = .ok (some (.fixedArray k t, s)) → k ≤ K)
    (n : Nat) (st st' : St) (v : Val) (h : pau env n ctx ty st = .ok (v, st')) : ListsUpTo K v :=
  pau_yields hK (MayAsk env ctx ty) (fun _ _ _ _ _ _ h1 h2 h3 => .step h1 h2 h3) harr n ctx ty st .self v st' h

theorem procN_replicate {rec : Rec} {ctx : Ctx} {el : Str} {st : St} {z : Val} (h : rec ctx el st = .ok (z, st)) : ∀ k : Nat,
    procN rec ctx el k st = .ok (List.replicate k z, st)
  | 0 => rfl
  | k + 1 => by
    rw [procN, h, Res.ok_bind]
    dsimp only
    rw [procN_replicate h k, Res.ok_bind]
    rfl

/-- How the claim fails: the length of a list, without anything after it, is enough. Elements that give a value at the end of the
data are read as often as the length says, up to 524288 times. -/
theorem C121_amplified (env : Env) (ctx : Ctx) (ty el : Str) (r : Val) (hL : LenOK env ctx)
    (hty : Resolves env ctx.module ctx.spec ty (.vec []) el) (k : Nat) (hk0 : 0 < k) (hk : k ≤ 524288) (c : Str) (hc : _root_.Spec.IsCompact k c)
    (hend : ∃ N, ∀ n, N ≤ n → pau env n ctx el ⟨⟨c, c.length⟩, []⟩ = .ok (r, ⟨⟨c, c.length⟩, []⟩)) :
    ∃ N, ∀ n, N ≤ n → pau env n ctx ty ⟨⟨c, 0⟩, []⟩ = .ok (.slice (List.replicate k r), ⟨⟨c, c.length⟩, []⟩) := by
  obtain ⟨s, hs⟩ := hL
  obtain ⟨N1, h1⟩ := C14_decode env ctx _ s k c (by omega) hc hs
  obtain ⟨N2, h2⟩ := hend
  have hcl : c.length < 2 ^ 63 := by
    rcases hc with ⟨_, rfl⟩ | ⟨_, _, rfl⟩ | ⟨_, _, rfl⟩ | ⟨h, _⟩
    · rw [leBytes_length]; decide
    · rw [leBytes_length]; decide
    · rw [leBytes_length]; decide
    · omega
  refine ⟨max N1 N2 + 1, fun n hn => ?_⟩
  obtain ⟨m, rfl⟩ : ∃ m, n = m + 1 := ⟨n - 1, by omega⟩
  have e1 := h1 m (by omega) [] [] [] (by simpa using hcl)
  simp only [List.nil_append, List.append_nil, List.length_nil, Nat.zero_add] at e1
  rw [pau_resolves m _ hty]
  show processVec _ _ _ _ = _
  unfold processVec
  rw [e1, Res.ok_bind]
  dsimp only [asInt]
  rw [Res.ok_bind, if_neg (by omega), if_pos rfl]
  rw [procN_replicate (h2 m (by omega)), Res.ok_bind]
  dsimp only
  rw [mkSlice, if_neg (by simp; omega)]
  rfl

/-- The claim fails: one byte, the length 2, gives a list of two truth values. -/
theorem C121_claim_false : ¬ C121Claim := by
  intro h
  have := h (baseEnv dummyExt) ⟨[], 0, none⟩ b!"Vec<Bool>" [8] 9 (.slice [.bool false, .bool false]) ⟨⟨[8], 1⟩, []⟩
    ⟨[], by unfold Resolves; kernel_rfl⟩ (by kernel_rfl) _ .here
  simp at this

/-- Four bytes give 524288 truth values. -/
example : ∃ N, ∀ n, N ≤ n → pau (baseEnv dummyExt) n ⟨[], 0, none⟩ b!"Vec<Bool>" ⟨⟨[2, 0, 32, 0], 0⟩, []⟩ =
    .ok (.slice (List.replicate 524288 (.bool false)), ⟨⟨[2, 0, 32, 0], 4⟩, []⟩) := by
  refine C121_amplified (baseEnv dummyExt) ⟨[], 0, none⟩ b!"Vec<Bool>" b!"Bool" (.bool false) ⟨[], by unfold Resolves; kernel_rfl⟩
    (by unfold Resolves; kernel_rfl) 524288 (by decide) (by decide) [2, 0, 32, 0]
    (.inr (.inr (.inl ⟨by decide, by decide, by decide⟩))) ⟨1, fun n hn => ?_⟩
  obtain ⟨m, rfl⟩ : ∃ m, n = m + 1 := ⟨n - 1, by omega⟩
  rw [pau_resolves (ctx := ⟨[], 0, none⟩) (cls := .bool) (sub := []) m _ (by unfold Resolves; kernel_rfl)]
  rfl

/-- More than that a vector does not give, whatever the data. -/
example (n : Nat) (st st' : St) (v : Val) (h : pau (baseEnv dummyExt) n ⟨[], 0, none⟩ b!"Vec<Bool>" st = .ok (v, st')) : ListsUpTo 524288 v := by
  refine C121_limit (baseEnv dummyExt) ⟨[], 0, none⟩ b!"Vec<Bool>" 524288 (Nat.le_refl _) (fun c u k t s hm hg => ?_) n st st' v h
  have hv : getCodecClass (baseEnv dummyExt) [] 0 b!"Vec<Bool>" = .ok (some (.vec [], b!"Bool")) := by kernel_rfl
  have hb : getCodecClass (baseEnv dummyExt) [] 0 b!"Bool" = .ok (some (.bool, [])) := by kernel_rfl
  have key : c = ⟨[], 0, none⟩ ∧ (u = b!"Vec<Bool>" ∨ u = b!"Bool") := by
    clear hg
    induction hm with
    | self => exact ⟨rfl, .inl rfl⟩
    | step _ hg hd ih =>
      obtain ⟨rfl, rfl | rfl⟩ := ih
      · rw [hv] at hg
        cases hg
        obtain ⟨rfl, rfl⟩ := hd
        exact ⟨rfl, .inr rfl⟩
      · rw [hb] at hg
        cases hg
        exact hd.elim
  obtain ⟨rfl, rfl | rfl⟩ := key
  · rw [hv] at hg
    cases hg
  · rw [hb] at hg
    cases hg

/-- No data, and an array of any length gives as many values. -/
example : pau (baseEnv dummyExt) 9 ⟨[], 0, none⟩ b!"[Bool; 3]" ⟨⟨[], 0⟩, []⟩ =
    .ok (.slice [.bool false, .bool false, .bool false], ⟨⟨[], 0⟩, []⟩) := by kernel_rfl

/-! ## Data that are not read to their end -/

/-- Types whose encodings have at least one byte, seen to a depth of `n`. -/
def Spec.SolidIn (shape : Str → Shape Str → Prop) : Nat → Str → Prop
  | 0, _ => False
  | n + 1, ty => ∀ sh, shape ty sh → match sh with
    | .uint w => 0 < w
    | .int w => 0 < w
    | .hash w => 0 < w
    | .byteArray w => 0 < w
    | .null => False
    | .unit => False
    | .struct fs => ∃ p ∈ fs, Spec.SolidIn shape n p.2
    | .array k el => k = 0 ∨ Spec.SolidIn shape n el
    | _ => True

open ScaleGo.Spec (SolidIn)

theorem solid_bytes {shape : Str → Shape Str → Prop} {ok : Shape Str → Val → Str → Prop} : ∀ (n : Nat) (ty : Str) (r : Val) (b : Str),
    SolidIn shape n ty → Accepts shape ok ty r b → 0 < b.length
  | 0, _, _, _, h, _ => h.elim
  | n + 1, ty, r, b, h, ha => by
    cases ha with
    | @leaf _ sh _ _ hsh hl _ =>
      have h := h sh hsh
      have hany : ∀ c p : Str, AnyCompact c → 0 < (c ++ p).length := by
        rintro _ p ⟨x, r, rfl, _⟩
        simp
      cases sh with
      | uint w => rw [hl.1]; exact h
      | u128 => rw [hl.1]; decide
      | u256 => rw [hl.1]; decide
      | int w => rw [hl.1]; exact h
      | bool => obtain ⟨x, rfl, _⟩ := hl; simp
      | null => exact h.elim
      | unit => exact h.elim
      | compact32 => simpa using hany b [] hl.1
      | compact => simpa using hany b [] hl.1
      | bytes => obtain ⟨c, p, hc, _, _, rfl⟩ := hl; exact hany c p hc
      | hash w => rw [hl.1]; exact h
      | account => rw [hl.1]; decide
      | balance => rw [hl.1]; decide
      | era => obtain ⟨rfl | ⟨x, y, _, rfl⟩, _⟩ := hl <;> simp
      | byteArray w => rw [hl.1]; exact h
      | bitVec => obtain ⟨c, p, hc, _, _, _, rfl⟩ := hl; exact hany c p hc
      | names => obtain ⟨x, rfl, _⟩ := hl; simp
      | optionBool => obtain ⟨x, rfl, _⟩ := hl; simp
      | _ => exact hl.elim
    | seq ps _ hc =>
      obtain ⟨x, r, rfl, _⟩ := hc
      simp
    | none => simp
    | some => simp
    | struct ps hsh hp =>
      obtain ⟨q, hq, hs⟩ := h _ hsh
      simp only [fieldTypes, List.mem_map] at hq
      obtain ⟨p, hm, rfl⟩ := hq
      exact Nat.lt_of_lt_of_le (solid_bytes n _ _ _ hs (hp p hm)) (allBytes_le hm)
    | variant => simp
    | fields => simp
    | array ps hsh hn hl hp =>
      rcases h _ hsh with rfl | hs
      · omega
      · match ps, hl, hp with
        | [], hl, _ => simp at hl; omega
        | p :: ps, _, hp => exact Nat.lt_of_lt_of_le (solid_bytes n _ _ _ hs (hp p (by simp))) (allBytes_le (by simp))
    | emptyArray => simp
    | resultOk => simp
    | resultErr => simp

theorem length_parts {ps : List (Part Str)} (h : ∀ p ∈ ps, 0 < p.bytes.length) : ps.length ≤ (allBytes ps).length := by
  induction ps with
  | nil => simp
  | cons p ps ih =>
    have h1 := h p (by simp)
    have h2 := ih fun q hq => h q (by simp [hq])
    simp only [allBytes, List.map_cons, List.flatten_cons, List.length_append, List.length_cons] at h2 ⊢
    omega

theorem accepted_lists {shape : Str → Shape Str → Prop} {ok : Shape Str → Val → Str → Prop}
    (hseq : ∀ ty el, shape ty (.seq el) → ∃ n, SolidIn shape n el) (harr : ∀ ty k el, shape ty (.array k el) → ∃ n, SolidIn shape n el)
    {ty : Str} {r : Val} {b : Str} (h : Accepts shape ok ty r b) : ListsUpTo b.length r := by
  have hfs : ∀ ps : List (Part Str), (∀ p ∈ ps, ListsUpTo p.bytes.length p.out) → ListsUpTo (allBytes ps).length (.map (fieldOutputs ps)) := by
    intro ps h
    refine upTo_map fun q hq => ?_
    simp only [fieldOutputs, List.mem_map] at hq
    obtain ⟨p, hm, rfl⟩ := hq
    exact upTo_mono (allBytes_le hm) (h p hm)
  have hels : ∀ (ps : List (Part Str)) (el : Str) (n : Nat), SolidIn shape n el → (∀ p ∈ ps, Accepts shape ok el p.out p.bytes) →
      (∀ p ∈ ps, ListsUpTo p.bytes.length p.out) → ListsUpTo (allBytes ps).length (.slice (outputs ps)) := by
    intro ps el n hs ha h
    refine upTo_slice ?_ fun x hx => ?_
    · rw [outputs, List.length_map]
      exact length_parts fun p hp => solid_bytes n _ _ _ hs (ha p hp)
    · simp only [outputs, List.mem_map] at hx
      obtain ⟨p, hm, rfl⟩ := hx
      exact upTo_mono (allBytes_le hm) (h p hm)
  induction h with
  | @leaf ty sh r b hsh hl _ =>
    cases sh with
    | uint w =>
      rw [hl.2]
      unfold uintValue
      split
      · exact upTo_int
      · exact upTo_uint
    | u128 => obtain ⟨_, s, _, rfl⟩ := hl; exact upTo_str
    | u256 => rw [hl.2]; exact upTo_dec
    | int w => rw [hl.2]; exact upTo_big
    | bool => obtain ⟨x, _, rfl⟩ := hl; exact upTo_bool
    | null => rw [hl.1]; exact upTo_nil
    | unit => rw [hl.1]; exact upTo_str
    | compact32 => rw [hl.2]; exact upTo_int
    | compact bound d =>
      rcases hl.2 with rfl | ⟨_, _, rfl⟩
      · cases d
        · exact upTo_uint
        · exact upTo_dec
      · exact upTo_dec
    | bytes => obtain ⟨c, p, _, _, rfl, _⟩ := hl; exact upTo_str
    | hash w => rw [hl.2]; exact upTo_str
    | account => rw [hl.2]; exact upTo_str
    | balance => rw [hl.2]; exact upTo_dec
    | era => rw [hl.2]; exact upTo_str
    | byteArray w => rw [hl.2]; exact upTo_str
    | bitVec => obtain ⟨c, p, _, _, _, rfl, _⟩ := hl; exact upTo_str
    | names => obtain ⟨x, _, ⟨n, _, rfl⟩ | ⟨_, rfl⟩⟩ := hl <;> exact upTo_str
    | optionBool =>
      obtain ⟨x, _, rfl⟩ := hl
      split
      · exact upTo_nil
      · exact upTo_bool
    | _ => exact hl.elim
  | @seq ty el c ps hsh _ _ _ ha _ ih =>
    obtain ⟨n, hs⟩ := hseq _ _ hsh
    have := hels ps el n hs ha ih
    cases ps with
    | nil => exact upTo_nilSlice
    | cons p ps => exact upTo_mono (by rw [List.length_append]; omega) this
  | none => exact upTo_nil
  | some x _ _ _ _ ih => exact upTo_mono (by simp) ih
  | struct ps _ _ ih => exact hfs ps ih
  | variant x name _ _ _ ih => exact upTo_map (by simpa using upTo_mono (Nat.le_succ _) ih)
  | fields x name ps _ _ _ ih => exact upTo_map (by simpa using upTo_mono (Nat.le_succ _) (hfs ps ih))
  | array ps hsh _ _ ha ih =>
    obtain ⟨n, hs⟩ := harr _ _ _ hsh
    exact hels ps _ n hs ha ih
  | emptyArray => exact upTo_nil
  | resultOk _ _ ih => exact upTo_map (by simpa using upTo_mono (Nat.le_succ _) ih)
  | resultErr _ _ ih => exact upTo_map (by simpa using upTo_mono (Nat.le_succ _) ih)

/-- C121 when data are left over and no list or array has elements without bytes: lists have no more elements than bytes were taken. -/
theorem C121_partial (env : Env) (ctx : Ctx) (ectx : ECtx) (shape : Str → Shape Str → Prop) (hL : LenOK env ctx)
    (hs : Describes env ctx ectx shape) (hw : Whole shape) (hli : AllListed env ctx shape)
    (hseq : ∀ ty el, shape ty (.seq el) → ∃ n, SolidIn shape n el) (harr : ∀ ty k el, shape ty (.array k el) → ∃ n, SolidIn shape n el)
    (ty : Str) (sh : Shape Str) (st : St) (b : Str) (r : Val) (hsh : shape ty sh) (hst : SaneAt st) (h : Leaves env ctx ty st b r) :
    ListsUpTo b.length r :=
  accepted_lists hseq harr (C116_accepted env ctx ectx shape hL hs hw hli ty sh st b r hsh hst h)

theorem tree_solid : SolidIn treeShape 2 b!"Tree" := by
  intro sh h
  simp only [treeShape, tableShape, List.mem_cons, List.not_mem_nil, or_false, Prod.mk.injEq] at h
  rcases h with ⟨_, rfl⟩ | ⟨h, _⟩ | ⟨h, _⟩
  · refine ⟨(b!"v", b!"u16"), by simp, fun sh h => ?_⟩
    simp only [treeShape, tableShape, List.mem_cons, List.not_mem_nil, or_false, Prod.mk.injEq] at h
    rcases h with ⟨h, _⟩ | ⟨h, _⟩ | ⟨_, rfl⟩
    · exact absurd h (by decide)
    · exact absurd h (by decide)
    · decide
  · exact absurd h (by decide)
  · exact absurd h (by decide)

/-- A tree with a child, with a byte left over. -/
example : ListsUpTo 6 (.map [(b!"v", .uint 2 1), (b!"kids", .slice [leafOut 515])]) :=
  C121_partial (treeEnv dummyExt) ⟨[], 0, none⟩ ECtx.none treeShape ⟨[], by unfold Resolves; kernel_rfl⟩ (tree_describes dummyExt) tree_whole
    (fun ty vs h => by simp [treeShape, tableShape] at h)
    (fun ty el h => by
      simp only [treeShape, tableShape, List.mem_cons, List.not_mem_nil, or_false, Prod.mk.injEq, reduceCtorEq, and_false, false_or,
        Shape.seq.injEq] at h
      rw [h.2]
      exact ⟨2, tree_solid⟩)
    (fun ty k el h => by simp [treeShape, tableShape] at h) b!"Tree" _ ⟨⟨[1, 0, 4, 3, 2, 0, 9], 0⟩, []⟩ [1, 0, 4, 3, 2, 0] _
    (by simp only [treeShape, tableShape]; exact List.mem_cons_self) ⟨show _ ≤ _ by decide, by decide⟩
    ⟨9, ⟨⟨[1, 0, 4, 3, 2, 0, 9], 6⟩, []⟩, by kernel_rfl, by decide, by decide⟩

/-! ## The built-in definitions -/

open Builtin (types texts textIndex)

/-- Arrays among the texts of the built-in definitions are short. -/
def shortArray (t : Str) : Bool :=
  match getCodecClass fastEnv [] 0 t with
  | .ok (some (.fixedArray n _, _)) => decide (n ≤ 524288)
  | _ => true

theorem short0 : Builtin.texts0.all (fun p => shortArray p.1) = true := by kernel_rfl
theorem short1 : Builtin.texts1.all (fun p => shortArray p.1) = true := by kernel_rfl
theorem short2 : Builtin.texts2.all (fun p => shortArray p.1) = true := by kernel_rfl
theorem short3 : Builtin.texts3.all (fun p => shortArray p.1) = true := by kernel_rfl
theorem short4 : Builtin.texts4.all (fun p => shortArray p.1) = true := by kernel_rfl
theorem short5 : Builtin.texts5.all (fun p => shortArray p.1) = true := by kernel_rfl
theorem short6 : Builtin.texts6.all (fun p => shortArray p.1) = true := by kernel_rfl
theorem short7 : Builtin.texts7.all (fun p => shortArray p.1) = true := by kernel_rfl
theorem short8 : Builtin.texts8.all (fun p => shortArray p.1) = true := by kernel_rfl
theorem short9 : Builtin.texts9.all (fun p => shortArray p.1) = true := by kernel_rfl
theorem short10 : Builtin.texts10.all (fun p => shortArray p.1) = true := by kernel_rfl
theorem short11 : Builtin.texts11.all (fun p => shortArray p.1) = true := by kernel_rfl
theorem short12 : Builtin.texts12.all (fun p => shortArray p.1) = true := by kernel_rfl
theorem short13 : Builtin.texts13.all (fun p => shortArray p.1) = true := by kernel_rfl
theorem short14 : Builtin.texts14.all (fun p => shortArray p.1) = true := by kernel_rfl

theorem texts_short : texts.all (fun p => shortArray p.1) = true := by
  have happ : ∀ a b : List (Str × Nat), a.all (fun p => shortArray p.1) = true → b.all (fun p => shortArray p.1) = true →
      (a ++ b).all (fun p => shortArray p.1) = true := by
    intro a b ha hb
    rw [List.all_append, ha, hb]
    rfl
  unfold texts
  exact (happ _ _ (happ _ _ (happ _ _ (happ _ _ (happ _ _ (happ _ _ (happ _ _ (happ _ _ (happ _ _ (happ _ _ (happ _ _ (happ _ _ (happ _ _ (happ _ _ short0 short1) short2) short3) short4) short5) short6) short7) short8) short9) short10) short11) short12) short13) short14)

/-- C121 for the built-in definitions of `source/base.go`, whatever order they are loaded in: decoding any of them, without
metadata for calls, gives lists of at most 524288 elements on all data. -/
theorem C121_builtin (ext : Ext) (hr : Spec.ReadsBuiltin ext) (order : List Str) (l : List (Str × TypeDef)) (rs : RegState)
    (hs : LoadsInOrder ext order l rs) (spec : Int) (p : Str × TypeDef) (hp : p ∈ types) (n : Nat) (st st' : St) (v : Val)
    (h : pau rs.env n ⟨[], spec, none⟩ p.1 st = .ok (v, st')) : ListsUpTo 524288 v := by
  rw [loads_env hs] at h
  have h0 : ∃ k, fastGet textIndex texts p.1 = some k := by
    have h := List.all_eq_true.mp names_ok p hp
    cases hn : fastGet textIndex texts p.1 with
    | none => rw [hn] at h; cases h
    | some n => exact ⟨n, rfl⟩
  refine pau_yields (Nat.le_refl _) (fun c t => c.module = [] ∧ c.md = none ∧ ∃ k, fastGet textIndex texts t = some k) ?_ ?_
    n ⟨[], spec, none⟩ p.1 st ⟨rfl, rfl, h0⟩ v st' h
  · rintro c u cls s c' u' ⟨hm, hd, ht⟩ hg ha
    rw [loaded_class' ext hm] at hg
    obtain ⟨h1, h2⟩ := data_list (.inl hd) ha
    change u' ∈ asks ext.rows cls s at h2
    rw [(text_rows hr hg).1] at h2
    obtain ⟨k1, k2⟩ := child_ctx hm hd h1
    exact ⟨k1, k2, text_asks ht hg h2⟩
  · rintro c u k t s ⟨hm, _, i, hi⟩ hg
    rw [loaded_class' ext hm] at hg
    rw [← indexed textIndex_ok] at hi
    have := List.all_eq_true.mp texts_short _ (mem_of_tableGet hi)
    dsimp only [shortArray] at this
    rw [hg] at this
    simpa using this

/-- The hypotheses are met, for 782 definitions. -/
example : Spec.ReadsBuiltin { dummyExt with rows := pairRows } ∧ LoadsInOrder { dummyExt with rows := pairRows } (types.map Prod.fst)
    (inheritLoop (types.map Prod.fst) types) ⟨loadedEnv { dummyExt with rows := pairRows }, fun _ => none⟩ ∧ types.length = 782 :=
  ⟨fun _ _ _ _ _ _ _ => rfl, loads_once _, by kernel_rfl⟩

end ScaleGo
