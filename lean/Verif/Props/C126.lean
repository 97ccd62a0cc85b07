import Verif.Props.C125
import Mathlib.Logic.Relation

/-! # C126: encoding comes to an end

`EncodeWithOpt` calls itself for the parts of a value, and a value has finitely many of them. Only `Option.Encode` hands the same
value on, to the type inside. So encoding ends on every value exactly if no type stands for an option of an option of … itself; in Go
such a type exhausts the stack, which ends the whole process and cannot be recovered from. -/

namespace ScaleGo

namespace Spec

/-- `x` is a direct part of the value `v`: an element, a member, or an argument of the call that the value describes. -/
inductive ValuePart (ext : Ext) : Val → Val → Prop
  | elem {x : Val} {l : List Val} : x ∈ l → ValuePart ext x (.slice l)
  | byte {b : UInt8} {s : Str} : b ∈ s → ValuePart ext (.uint 1 b.toNat) (.bytes s)
  | text {s : Str} {l : List Str} : s ∈ l → ValuePart ext (.str s) (.strs l)
  | param {n t : Str} {x : Val} {l : List (Str × Str × Val)} : (n, t, x) ∈ l → ValuePart ext x (.params l)
  | member {k : Str} {x : Val} {m : List (Str × Val)} : (k, x) ∈ m → ValuePart ext x (.map m)
  | boxed {i : Str} {ps as : List Val} {x : Val} : x ∈ ps ++ as → ValuePart ext x (.boxCall i ps as)
  | call {i : Str} {ps as : List Val} {m : List (Str × Val)} {x : Val} : ext.boxCall m = some (i, ps, as) → x ∈ ps ++ as → ValuePart ext x (.map m)

/-- The text `t` stands for an option of `u`. -/
def OptionOf (env : Env) (spec : Int) (u t : Str) : Prop :=
  equalFold t b!"Null" = false ∧ ∃ name arg, Resolves env [] spec t (.option name) arg ∧ u = (if arg = [] then name else arg) ∧ u ≠ b!"bool"

/-- No text stands for an option of an option of … without end. -/
def OptionsEnd (env : Env) : Prop := ∀ spec t, Acc (OptionOf env spec) t

end Spec

open ScaleGo.Spec (ValuePart OptionOf OptionsEnd)

section
variable {α β : Type}

theorem Arrives.then {f : Nat → Res α} {k : Nat → α → Res β} (h : Arrives f) (hk : ∀ a, Arrives fun n => k n a) :
    Arrives fun n => (f n).bind (k n) := by
  obtain ⟨N, r, hr, h⟩ := h
  cases r with
  | diverge => exact absurd rfl hr
  | panic => exact ⟨N, .panic, by simp, fun n hn => by dsimp only; rw [h n hn]; rfl⟩
  | ok a =>
    obtain ⟨M, r, hr, hk⟩ := hk a
    exact ⟨max N M, r, hr, fun n hn => by dsimp only; rw [h n (by omega)]; exact hk n (by omega)⟩

theorem Arrives.congr {f g : Nat → Res α} (h : Arrives f) (e : ∀ n, g n = f n) : Arrives g := by
  obtain ⟨N, r, hr, h⟩ := h
  exact ⟨N, r, hr, fun n hn => (e n).trans (h n hn)⟩

theorem Arrives.ok {a : α} : Arrives fun _ => Res.ok a := .const (by simp)
theorem Arrives.panic : Arrives fun _ => (Res.panic : Res α) := .const (by simp)

theorem Arrives.of_succ {f : Nat → Res α} (h : Arrives fun n => f (n + 1)) : Arrives f := by
  obtain ⟨N, r, hr, h⟩ := h
  refine ⟨N + 1, r, hr, fun n hn => ?_⟩
  obtain ⟨m, rfl⟩ : ∃ m, n = m + 1 := ⟨n - 1, by omega⟩
  exact h m (by omega)

end

section
variable {env : Env}

/-- Encoding a value by a text ends. -/
abbrev EncEnds (env : Env) (ctx : ECtx) (t : Str) (v : Val) : Prop := Arrives fun n => enc env n ctx t v

theorem arrives_list {ctx : ECtx} {t : Str} {f : Str → Str} : ∀ {l : List Val}, (∀ x ∈ l, EncEnds env ctx t x) →
    Arrives fun n => encList (enc env n) ctx t f l
  | [], _ => .ok
  | x :: l, h => (h x (by simp)).then fun _ => (arrives_list fun y hy => h y (by simp [hy])).then fun _ => .ok

theorem arrives_fields {ctx : ECtx} {m : List (Str × Val)} (hn : ∀ u, EncEnds env ctx u .nil)
    (h : ∀ k x, (k, x) ∈ m → ∀ u, EncEnds env ctx u x) : ∀ (u : Str) (k : Str), EncEnds env ctx u ((mapGet m k).getD .nil) := by
  intro u k
  cases hk : mapGet m k with
  | none => exact hn u
  | some x =>
    refine h k x ?_ u
    clear h hn
    induction m with
    | nil => cases hk
    | cons p m ih =>
      obtain ⟨a, y⟩ := p
      rw [mapGet] at hk
      split at hk
      · rename_i e
        cases hk
        simp [e]
      · exact List.mem_cons_of_mem _ (ih hk)

theorem arrives_struct {ctx : ECtx} {m : List (Str × Val)} (h : ∀ u k, EncEnds env ctx u ((mapGet m k).getD .nil)) :
    ∀ fs : List (Str × Str), Arrives fun n => encFields (enc env n) ctx m fs
  | [] => .ok
  | (_, _) :: fs => (h _ _).then fun _ => (arrives_struct h fs).then fun _ => .ok

theorem arrives_rows {ctx : ECtx} {m : List (Str × Val)} (h : ∀ u k, EncEnds env ctx u ((mapGet m k).getD .nil)) :
    ∀ fs : List (List Str), Arrives fun n => encRows (enc env n) ctx m fs
  | [] => .ok
  | (_ :: _ :: _) :: fs => (h _ _).then fun _ => (arrives_rows h fs).then fun _ => .ok
  | [] :: _ => .panic
  | [_] :: _ => .panic

theorem arrives_args {ctx : ECtx} : ∀ (as : List (Str × Str)) {l : List Val}, (∀ x ∈ l, ∀ u, EncEnds env ctx u x) →
    Arrives fun n => encArgs (enc env n) ctx as l
  | [], _, _ => .ok
  | _ :: _, [], _ => .panic
  | (_, _) :: as, x :: l, h => (h x (by simp) _).then fun _ => (arrives_args as fun y hy => h y (by simp [hy])).then fun _ => .ok

theorem findEntry_part {tm : List (Str × Str)} {i : Nat} {t : Str} {x : Val} : ∀ {m : List (Str × Val)}, findEntry tm m = some (i, t, x) → ∃ k, (k, x) ∈ m
  | [], h => by cases h
  | (k, y) :: m, h => by
    rw [findEntry] at h
    split at h
    · cases h
      exact ⟨k, by simp⟩
    · obtain ⟨k', h⟩ := findEntry_part h
      exact ⟨k', by simp [h]⟩

/-- What an `Encode` method needs of the encodings it calls for. -/
structure PartsEnd (env : Env) (ctx : ECtx) (v : Val) : Prop where
  parts : ∀ x, Relation.TransGen (ValuePart env.ext) x v → ∀ u, EncEnds env ctx u x
  missing : ∀ m, v = .map m → ∀ u, EncEnds env ctx u .nil
  texts : ∀ m, v = .map m → ∀ u s, EncEnds env ECtx.none u (.str s)
  numbers : (∀ i, v ≠ .int i) → ∀ u i, EncEnds env ECtx.none u (.int i)

theorem elems_part {ext : Ext} {v x : Val} {l : List Val} (h : v.elems? = some l) (hx : x ∈ l) : ValuePart ext x v := by
  cases v with
  | slice l' => cases h; exact .elem hx
  | nilSlice => cases h; cases hx
  | bytes s =>
    cases h
    obtain ⟨b, hb, rfl⟩ := List.mem_map.mp hx
    exact .byte hb
  | strs l' =>
    cases h
    obtain ⟨s, hs, rfl⟩ := List.mem_map.mp hx
    exact .text hs
  | params l' =>
    cases h
    obtain ⟨⟨n, t, y⟩, hp, rfl⟩ := List.mem_map.mp hx
    exact .param hp
  | _ => cases h

theorem arrives_vec {ctx : ECtx} {v : Val} (h : PartsEnd env ctx v) (u : Str) : Arrives fun n => encodeVec (enc env n) ctx u v := by
  by_cases hi : ∃ i, v = .int i
  · obtain ⟨i, rfl⟩ := hi
    exact .panic
  have hn := h.numbers fun i e => hi ⟨i, e⟩
  by_cases hs : v = .str []
  · subst hs
    exact hn _ _
  have e : ∀ n, encodeVec (enc env n) ctx u v = match v.elems? with
      | some l => do
        let a ← enc env n ECtx.none b!"Compact<u32>" (.int l.length)
        let b ← encList (enc env n) ctx u trimHex l
        .ok (a ++ b)
      | none => .panic := by
    intro n
    unfold encodeVec
    split
    · exact absurd rfl hs
    · rfl
  simp only [e]
  cases hl : v.elems? with
  | none => exact .panic
  | some l => exact (hn _ _).then fun _ => (arrives_list fun x hx => h.parts x (.single (elems_part hl hx)) u).then fun _ => .ok

theorem arrives_bytes {ctx : ECtx} {v : Val} (h : PartsEnd env ctx v) (g : Str → Int) (k : Str → Str → Res Str) (hk : ∀ s l, k s l ≠ .diverge) :
    Arrives fun n => (asStr v).bind fun s => (enc env n ECtx.none b!"Compact<u32>" (.int (g s))).bind fun l => k s l := by
  cases v with
  | str s => exact (h.numbers (by simp) _ _).then fun _ => .const (hk _ _)
  | _ => exact .panic

theorem arrives_enum {ctx : ECtx} {v : Val} (h : PartsEnd env ctx v) (vs : List Str) (tm : Option (List (Str × Str))) :
    Arrives fun n => encodeEnum env.ext (enc env n) ctx vs tm v := by
  unfold encodeEnum
  have hf : Arrives fun _ : Nat => (match sliceIndex (env.ext.toStr v) vs with
    | some i => .ok (u8Encode i)
    | none => .ok [] : Res Str) := by
    split
    · exact .ok
    · exact .ok
  cases tm with
  | none => exact hf
  | some tm =>
    dsimp only
    split
    · exact .ok
    · split
      · rename_i m _
        split
        · rename_i i sub x he
          obtain ⟨k, hk⟩ := findEntry_part he
          have hx := h.parts x (.single (.member hk))
          split
          · rename_i rows hrows
            cases x with
            | map vm =>
              have hm := arrives_fields (h.missing m rfl) fun k y hy => h.parts y (.head (.member hy) (.single (.member hk)))
              exact (arrives_rows hm rows).then fun _ => .ok
            | _ => exact .panic
          · exact (hx sub).then fun _ => .ok
        · exact hf
      · split
        · exact .ok
        · exact hf
      · exact hf

theorem arrives_data {ctx : ECtx} {v : Val} (h : PartsEnd env ctx v) : Arrives fun n => encodeData (enc env n) v := by
  unfold encodeData
  cases v with
  | map m =>
    have hn := h.numbers (by simp)
    have ht := h.texts m rfl
    refine Arrives.then (f := fun _ => asMap (.map m)) .ok fun m => ?_
    split
    · exact .panic
    · split
      · split
        · exact hn _ _
        · refine (hn _ _).then fun _ => .then (f := fun _ => asStr _) ?_ fun s => (ht _ _).then fun _ => .ok
          exact .const (by unfold asStr; split <;> simp)
      · split
        · split
          · exact .panic
          · refine (hn _ _).then fun _ => .then (f := fun _ => asStr _) ?_ fun s => ?_
            · exact .const (by unfold asStr; split <;> simp)
            · exact .const (by split <;> simp)
        · exact .panic
  | _ => exact .panic

theorem arrives_call {ctx : ECtx} {v : Val} (h : PartsEnd env ctx v) : Arrives fun n => encodeCall env.ext (enc env n) ctx v := by
  unfold encodeCall
  split
  · exact .panic
  rename_i md _
  have key : ∀ i ps as, (∀ x ∈ ps ++ as, ∀ u, EncEnds env ctx u x) → Arrives fun n => (match md.callIndex (trimHex i) with
    | none => Res.panic
    | some e => (encArgs (enc env n) ctx e.args (if as.isEmpty then ps else as)).bind fun r => Res.ok (trimHex i ++ r)) := by
    intro i ps as hx
    split
    · exact .panic
    · refine (arrives_args _ fun x hm => hx x ?_).then fun _ => .ok
      split at hm
      · simp [hm]
      · simp [hm]
  cases v with
  | boxCall i ps as => exact key i ps as fun x hx => h.parts x (.single (.boxed hx))
  | map m =>
    cases hb : env.ext.boxCall m with
    | none =>
      simp only [boxCallOf, hb]
      exact .panic
    | some r =>
      obtain ⟨i, ps, as⟩ := r
      simp only [boxCallOf, hb]
      exact key i ps as fun x hx => h.parts x (.single (.call hb hx))
  | _ => exact .panic

theorem mapGet_mem' {m : List (Str × Val)} {k : Str} {x : Val} (h : mapGet m k = some x) : (k, x) ∈ m := by
  induction m with
  | nil => cases h
  | cons p m ih =>
    obtain ⟨a, y⟩ := p
    rw [mapGet] at h
    split at h
    · rename_i e
      cases h
      simp [e]
    · exact List.mem_cons_of_mem _ (ih h)

theorem arrives_result {ctx : ECtx} {v : Val} (h : PartsEnd env ctx v) (u : Str) : Arrives fun n => encodeResult (enc env n) ctx u v := by
  unfold encodeResult
  cases v with
  | map m =>
    refine Arrives.congr (f := fun n => match splitSep u b!"," with
      | [a, e] =>
        (match mapGet m b!"Ok" with
        | some d => (enc env n ctx a d).bind fun r => .ok (b!"00" ++ r)
        | none =>
          match mapGet m b!"Error" with
          | some d => (enc env n ctx e d).bind fun r => .ok (b!"01" ++ r)
          | none => .panic)
      | _ => .panic) ?_ fun n => rfl
    split
    · split
      · rename_i hd
        exact (h.parts _ (.single (.member (mapGet_mem' hd))) _).then fun _ => .ok
      · split
        · rename_i hd
          exact (h.parts _ (.single (.member (mapGet_mem' hd))) _).then fun _ => .ok
        · exact .panic
    · exact .panic
  | _ => exact .panic

theorem arrives_option {ctx : ECtx} {v : Val} (u : Str) (h : u ≠ b!"bool" → EncEnds env ctx u v) : Arrives fun n => encodeOption (enc env n) ctx u v := by
  unfold encodeOption
  split
  · exact .ok
  · split
    · exact .ok
    · split
      · split
        · exact .ok
        · exact .panic
      · rename_i hb
        exact (h hb).then fun _ => .ok

theorem arrives_array {ctx : ECtx} {v : Val} (h : PartsEnd env ctx v) (k : Int) (u : Str) : Arrives fun n => encodeFixedArray (enc env n) ctx k u v := by
  unfold encodeFixedArray
  split
  · split
    · exact .ok
    · exact .ok
  · split
    · rename_i l hl
      split
      · exact .panic
      · exact arrives_list fun x hx => h.parts x (.single (elems_part hl hx)) u
    · exact .panic

theorem asStr_ne (v : Val) : asStr v ≠ .diverge := by unfold asStr; split <;> simp

theorem encodeHash_ne (v : Val) : encodeHash v ≠ .diverge := bind_ne_diverge (asStr_ne v) fun _ => by simp

theorem encodeU128_ne (v : Val) : encodeU128 v ≠ .diverge := by
  unfold encodeU128
  refine bind_ne_diverge (by unfold u128Input; split <;> (try split) <;> simp) fun i => bind_ne_diverge ?_ fun _ => by simp
  unfold U128.fromBig
  repeat' split
  all_goals simp

theorem encodeU256_ne (v : Val) : encodeU256 v ≠ .diverge := by
  unfold encodeU256
  repeat' split
  all_goals simp

theorem encodeCompact_ne (ext : Ext) (v : Val) : encodeCompact ext v ≠ .diverge := by
  unfold encodeCompact
  refine bind_ne_diverge (by unfold compactInput; split <;> (try split) <;> simp) fun i => ?_
  dsimp only
  repeat' split
  all_goals simp

theorem encodeIntFixed_ne (ext : Ext) (k : Int) (v : Val) : encodeIntFixed ext k v ≠ .diverge := by
  unfold encodeIntFixed
  split
  · repeat' split
    all_goals simp
  · refine bind_ne_diverge (by unfold intFixedInput; split <;> (try split) <;> simp) fun i => bind_ne_diverge ?_ fun _ => by simp
    unfold bigIntToIntBytes
    repeat' split
    all_goals simp

theorem arrives_cls {ctx : ECtx} {v : Val} (h : PartsEnd env ctx v) (cls : Cls) (s : Str)
    (ho : ∀ t, cls = .option t → effSub t s ≠ b!"bool" → EncEnds env ctx (effSub t s) v) :
    Arrives fun n => encodeCls env.ext (enc env n) ctx cls s v := by
  cases cls with
  | option t => exact arrives_option _ (ho t rfl)
  | struct tm =>
    cases v with
    | map m => exact arrives_struct (arrives_fields (h.missing m rfl) fun k x hx => h.parts x (.single (.member hx))) _
    | _ => exact .panic
  | enum vs tm => exact arrives_enum h _ _
  | logDigest => exact arrives_enum h logDigestValues none
  | bytes => exact arrives_bytes h _ _ fun _ _ => by simp
  | opaqueCall => exact arrives_bytes h _ _ fun _ _ => by simp
  | hexBytes => exact arrives_bytes h _ _ fun _ _ => by simp
  | string => exact arrives_bytes h _ _ fun _ _ => by simp
  | bitVec => exact arrives_bytes h _ _ fun _ _ => by simp
  | vec t => exact arrives_vec h _
  | boundedVec t => exact arrives_vec h _
  | authoritiesChange => exact arrives_vec h _
  | call => exact arrives_call h
  | data => exact arrives_data h
  | result t => exact arrives_result h _
  | fixedArray k t => exact arrives_array h _ _
  | u128 => exact .const (encodeU128_ne v)
  | balance => exact .const (encodeU128_ne v)
  | u256 => exact .const (encodeU256_ne v)
  | compact t => exact .const (encodeCompact_ne _ v)
  | bool => exact .const (by split <;> simp)
  | accountId => exact .const (asStr_ne v)
  | era => exact .const (asStr_ne v)
  | hash k => exact .const (encodeHash_ne v)
  | ethereumAddress => exact .const (encodeHash_ne v)
  | intFixed k => exact .const (encodeIntFixed_ne _ _ v)
  | fixedU8 k => exact .const (by split <;> simp)
  | empty | u8 | u16 | u32 | u64 | moment | fixedU64 | compactU32 | compactMoment => exact .ok
  | _ => exact .panic

theorem encEnds_step {ctx : ECtx} {t : Str} {v : Val} (h : PartsEnd env ctx (argOf v))
    (ho : ∀ u, OptionOf env ctx.spec u t → EncEnds env ctx u (argOf v)) : EncEnds env ctx t v := by
  refine Arrives.of_succ ?_
  simp only [enc]
  split
  · exact .ok
  rename_i hn
  cases hc : getCodecClass env [] ctx.spec t with
  | diverge => exact absurd hc (getCodecClass_ne_diverge _ _ _ _)
  | panic => exact .panic
  | ok r =>
    simp only [Res.ok_bind]
    cases r with
    | none => exact .panic
    | some p =>
      obtain ⟨cls, s⟩ := p
      refine (arrives_cls h cls s fun x hx hb => ?_).then fun _ => .ok
      subst hx
      exact ho _ ⟨by simpa using hn, x, s, hc, rfl, hb⟩

/-- A value whose parts are encoded without end by no text. -/
theorem encEnds_value {ctx : ECtx} (ha : ∀ t, Acc (OptionOf env ctx.spec) t) {v : Val} (h : PartsEnd env ctx (argOf v)) (t : Str) :
    EncEnds env ctx t v := by
  suffices ∀ w, argOf w = argOf v → EncEnds env ctx t w from this v rfl
  induction ha t with
  | intro t _ ih =>
    intro w hw
    refine encEnds_step (hw ▸ h) fun u hu => ih u hu _ ?_
    rw [hw]
    cases v <;> rfl

theorem int_parts {ext : Ext} {x : Val} {i : Int} (h : Relation.TransGen (ValuePart ext) x (.int i)) : False := by
  cases h with
  | single h => cases h
  | tail _ h => cases h

theorem str_parts {ext : Ext} {x : Val} {s : Str} (h : Relation.TransGen (ValuePart ext) x (.str s)) : False := by
  cases h with
  | single h => cases h
  | tail _ h => cases h

theorem encEnds_int (ho : OptionsEnd env) (ctx : ECtx) (u : Str) (i : Int) : EncEnds env ctx u (.int i) :=
  encEnds_value (ho _) ⟨(fun _ h => (int_parts h).elim), (fun _ e => by cases e), (fun _ e => by cases e), fun h => absurd rfl (h i)⟩ u

theorem encEnds_str (ho : OptionsEnd env) (ctx : ECtx) (u : Str) (s : Str) : EncEnds env ctx u (.str s) :=
  encEnds_value (ho _) ⟨(fun _ h => (str_parts h).elim), (fun _ e => by cases e), (fun _ e => by cases e), fun _ u i => encEnds_int ho _ u i⟩ u

theorem encEnds_nil (ho : OptionsEnd env) (ctx : ECtx) (u : Str) : EncEnds env ctx u .nil :=
  encEnds_value (ho _) ⟨(fun _ h => (str_parts h).elim), (fun _ e => by cases e), (fun _ e => by cases e), fun _ u i => encEnds_int ho _ u i⟩ u

theorem encEnds_all (ho : OptionsEnd env) (hp : WellFounded (ValuePart env.ext)) (ctx : ECtx) (v : Val) : ∀ u, EncEnds env ctx u v := by
  induction hp.transGen.apply v with
  | intro v _ ih =>
    intro u
    by_cases hn : v = .nil
    · subst hn
      exact encEnds_nil ho ctx u
    have e : argOf v = v := by cases v <;> first | rfl | exact absurd rfl hn
    refine encEnds_value (ho _) ?_ u
    rw [e]
    exact ⟨ih, fun _ _ u => encEnds_nil ho ctx u, fun _ _ u s => encEnds_str ho _ u s, fun _ u i => encEnds_int ho _ u i⟩

/-- An option of an option of … without end is encoded without end. -/
theorem enc_endless {ctx : ECtx} {v : Val} (hv : v.isNil = false) (hs : v ≠ .str []) : ∀ (n : Nat) (t : Str), ¬ Acc (OptionOf env ctx.spec) t →
    enc env n ctx t v = .diverge
  | 0, _, _ => rfl
  | n + 1, t, h => by
    have : ∃ u, OptionOf env ctx.spec u t ∧ ¬ Acc (OptionOf env ctx.spec) u := by
      by_contra hc
      exact h ⟨t, fun u hu => by by_contra hn; exact hc ⟨u, hu, hn⟩⟩
    obtain ⟨u, ⟨h1, x, s, h2, rfl, h3⟩, h4⟩ := this
    have e : argOf v = v := by cases v <;> first | rfl | cases hv
    have hd := enc_endless hv hs n _ h4
    unfold Resolves at h2
    rw [enc, if_neg (by rw [h1]; simp), h2, Res.ok_bind]
    dsimp only
    rw [e, encodeCls]
    have : encodeOption (enc env n) ctx (effSub x s) v = .diverge := by
      unfold encodeOption
      split
      · exact absurd rfl hs
      · rw [if_neg (by rw [hv]; simp), if_neg (show effSub x s ≠ _ from h3), show enc env n ctx (effSub x s) v = .diverge from hd]
        rfl
    rw [this]
    rfl

end

/-! ## When options end -/

section
variable {env : Env}

/-- The registry, or its special part, says that a name is an option of `x`. -/
def OptionEntry (env : Env) (x : Str) : Prop := (∃ k, env.reg k = some (.option x)) ∨ ∃ k lo hi, (lo, hi, .option x) ∈ env.special k

theorem findSpecial_in {spec : Int} {c : Cls} : ∀ {l : List (Int × Int × Cls)}, findSpecial spec l = some c → ∃ lo hi, (lo, hi, c) ∈ l
  | [], h => by cases h
  | (lo, hi, c') :: l, h => by
    rw [findSpecial] at h
    split at h
    · cases h
      exact ⟨lo, hi, by simp⟩
    · obtain ⟨lo, hi, h⟩ := findSpecial_in h
      exact ⟨lo, hi, by simp [h]⟩

theorem instant_option {m t : Str} {spec : Int} {x : Str} (h : getCodecInstant env m t spec = .ok (some (.option x))) : OptionEntry env x := by
  unfold getCodecInstant at h
  dsimp only at h
  split at h
  · rename_i hc
    cases h
    obtain ⟨lo, hi, hc⟩ := findSpecial_in hc
    exact .inr ⟨_, lo, hi, hc⟩
  split at h
  · rename_i c hc
    cases h
    exact .inl ⟨_, hc⟩
  · split at h
    · cases h
    · split at h
      · cases h
      · split at h
        · injection h with h2
          unfold fixedArrayText at h2
          dsimp only at h2
          split at h2 <;> cases h2
        · cases h

theorem partsOf_length {t a b : Str} (h : partsOf t = some (a, b)) : b.length < t.length := by
  unfold partsOf genericParts at h
  split at h
  · dsimp only at h
    split at h
    · cases h
    · rename_i c rest hd
      split at h
      · cases h
        have h1 := congrArg List.length hd
        simp only [List.length_drop, List.length_cons, List.length_dropLast] at h1 ⊢
        omega
      · cases h
  · cases h

theorem class_option {m : Str} {spec : Int} {x s : Str} :
    ∀ (fuel : Nat) (t : Str), getCodecClassAux env m spec fuel t = .ok (some (.option x, s)) → OptionEntry env x ∧ (s = [] ∨ s.length < t.length)
  | 0, _, h => by cases h
  | fuel + 1, t, h => by
    rw [getCodecClassAux] at h
    have hlen := convertType_length t
    generalize convertType t = t' at h hlen
    split at h
    · cases h
    rw [Res.bind_eq_ok] at h
    obtain ⟨w, h1, h2⟩ := h
    cases w with
    | some c =>
      cases h2
      unfold lookupWhole at h1
      split at h1
      · exact ⟨instant_option h1, .inl rfl⟩
      · cases h1
    | none =>
      dsimp only at h2
      rw [Res.bind_eq_ok] at h2
      obtain ⟨w, h1, h2⟩ := h2
      cases w with
      | some c =>
        cases h2
        unfold lookupParts at h1
        split at h1
        · rename_i hp
          rw [Res.bind_eq_ok] at h1
          obtain ⟨o, h3, h4⟩ := h1
          cases o with
          | none => cases h4
          | some o =>
            cases h4
            have := partsOf_length hp
            refine ⟨instant_option h3, .inr ?_⟩
            rcases hlen with hlen | rfl
            · omega
            · cases hp
        · rw [Res.bind_eq_ok] at h1
          obtain ⟨o, h3, h4⟩ := h1
          cases o with
          | none => cases h4
          | some o =>
            cases h4
            exact ⟨instant_option h3, .inl rfl⟩
      | none =>
        dsimp only at h2
        split at h2
        · unfold lookupTuple at h2
          rw [Res.bind_eq_ok] at h2
          obtain ⟨o, _, h3⟩ := h2
          split at h3 <;> cases h3
        · split at h2
          · rename_i hc
            obtain ⟨k1, k2⟩ := class_option fuel _ h2
            refine ⟨k1, k2.imp_right fun k2 => ?_⟩
            have h1 := splitSep_last b!"::" t' [] (by decide) hc.1
            have h2 : (b!"::").length = 2 := rfl
            rw [h2] at h1
            unfold splitSep at k2
            rcases hlen with h3 | h3
            · omega
            · subst h3
              exact absurd hc.1 (by decide)
          · cases h2

theorem optionOf_nil {spec : Int} : Acc (OptionOf env spec) [] := by
  refine ⟨_, fun u hu => ?_⟩
  obtain ⟨_, x, s, h, _⟩ := hu
  cases h

/-- Options end if those end that registered names stand for. -/
theorem options_end (h : ∀ x, OptionEntry env x → x ≠ [] → ∀ spec, Acc (OptionOf env spec) x) : OptionsEnd env := by
  intro spec t
  generalize hl : t.length = L
  induction L using Nat.strong_induction_on generalizing t with
  | _ L ih =>
    refine ⟨t, fun u hu => ?_⟩
    obtain ⟨_, x, s, hr, rfl, _⟩ := hu
    obtain ⟨h1, h2⟩ := class_option _ _ hr
    split
    · by_cases hx : x = []
      · subst hx
        exact optionOf_nil
      · exact h x h1 hx spec
    · rename_i hs
      rcases h2 with rfl | h2
      · exact absurd rfl hs
      · exact ih s.length (by omega) s rfl

end

/-! ## The properties -/

/-- The full property: after any registration of types, encoding any value by any text ends. -/
def C126Claim : Prop := ∀ (ext : Ext), WellFounded (ValuePart ext) → ∀ (fuel : Nat) (l : List (Str × TypeDef)) (rs : RegState),
  regCustomTypes fuel ⟨baseEnv ext, fun _ => none⟩ l = .ok rs → ∀ (ctx : ECtx) (t : Str) (v : Val), ∃ n, enc rs.env n ctx t v ≠ .diverge

/-- C126, as far as it holds: if no type stands for an option of an option of … without end, encoding ends, whatever the value. -/
theorem C126_partial (env : Env) (hp : WellFounded (ValuePart env.ext)) (ho : OptionsEnd env) (ctx : ECtx) (t : Str) (v : Val) :
    ∃ N r, r ≠ .diverge ∧ ∀ n, N ≤ n → enc env n ctx t v = r := encEnds_all ho hp ctx v t

/-- The condition is the exact one. -/
theorem C126_exact (env : Env) (hp : WellFounded (ValuePart env.ext)) :
    (∀ (ctx : ECtx) (t : Str) (v : Val), ∃ n, enc env n ctx t v ≠ .diverge) ↔ OptionsEnd env := by
  constructor
  · intro h spec t
    by_contra hc
    obtain ⟨n, hn⟩ := h ⟨spec, none⟩ t (.int 1)
    exact hn (enc_endless rfl (by simp) n t hc)
  · intro ho ctx t v
    obtain ⟨N, r, hr, h⟩ := encEnds_all ho hp ctx v t
    exact ⟨N, fun e => hr ((h N (Nat.le_refl _)).symm.trans e)⟩

/-- A text that stands for options without end: only the absent value is encoded, any other value without end. -/
theorem C126_endless (env : Env) (ctx : ECtx) (t : Str) (h : ¬ Acc (OptionOf env ctx.spec) t) (v : Val) (hv : v.isNil = false)
    (hs : v ≠ .str []) (n : Nat) : enc env n ctx t v = .diverge := enc_endless hv hs n t h

/-! ## The built-in types -/

/-- Not an option, by the class of its text. -/
def plainText (x : Str) : Bool :=
  match getCodecClass fastEnv [] 0 x with
  | .ok (some (.option _, _)) => false
  | _ => true

theorem builtin_options : (Builtin.classes ++ baseReg).all (fun p => match p.2 with
  | .option x => x.isEmpty || plainText x
  | _ => true) = true := by kernel_rfl

theorem loaded_optionsEnd (ext : Ext) : OptionsEnd (loadedEnv ext) := by
  refine options_end fun x hx hne spec => ?_
  have hp : plainText x = true := by
    rcases hx with ⟨k, hk⟩ | ⟨k, lo, hi, hk⟩
    · have := List.all_eq_true.mp builtin_options _ (mem_of_tableGet hk)
      dsimp only at this
      rcases Bool.or_eq_true_iff.mp this with h | h
      · exact absurd (List.isEmpty_iff.mp h) hne
      · exact h
    · cases hk
  refine ⟨x, fun u hu => ?_⟩
  obtain ⟨_, y, s, hr, _⟩ := hu
  unfold Resolves at hr
  rw [loaded_class] at hr
  unfold plainText at hp
  rw [hr] at hp
  cases hp

/-- C126 for the library as it starts, in whatever order the built-in definitions are loaded: encoding any value by any text ends. -/
theorem C126_builtin (ext : Ext) (hp : WellFounded (ValuePart ext)) (order : List Str) (l : List (Str × TypeDef)) (rs : RegState)
    (hs : LoadsInOrder ext order l rs) (ctx : ECtx) (t : Str) (v : Val) : ∃ N r, r ≠ .diverge ∧ ∀ n, N ≤ n → enc rs.env n ctx t v = r := by
  rw [loads_env hs]
  exact C126_partial (loadedEnv ext) hp (loaded_optionsEnd ext) ctx t v

/-! ## Extrinsics -/

theorem arrives_ext {env : Env} {v : Val} (h : ∀ u, EncEnds env ECtx.none u v) (id : Str) : ∀ l : List (Str × Str),
    Arrives fun n => encExt (enc env n) id v l
  | [] => .ok
  | (a, t) :: l => by
    simp only [encExt]
    split
    · exact (h t).then fun _ => (arrives_ext h id l).then fun _ => .ok
    · exact arrives_ext h id l

theorem arrives_exts {env : Env} (h : ∀ v u, EncEnds env ECtx.none u v) (l : List (Str × Str)) : ∀ m : List (Str × Val),
    Arrives fun n => encExts (enc env n) l m
  | [] => .ok
  | (a, v) :: m => (arrives_ext (h v) a l).then fun _ => (arrives_exts h l m).then fun _ => .ok

theorem arrives_params {env : Env} {ctx : ECtx} (h : ∀ v u, EncEnds env ctx u v) : ∀ (as : List (Str × Str)) (l : List Val),
    Arrives fun n => encParams (enc env n) ctx as l
  | [], _ => .ok
  | _ :: _, [] => .ok
  | (_, t) :: as, x :: l => (h x t).then fun _ => (arrives_params h as l).then fun _ => .ok

/-- Encoding an extrinsic ends, whatever its fields and its metadata are. -/
theorem C126_extrinsic (env : Env) (hp : WellFounded (ValuePart env.ext)) (ho : OptionsEnd env) (spec : Int) (md : Option MD) (g : ExtrinsicIn) :
    ∃ N r, r ≠ .diverge ∧ ∀ n, N ≤ n → encodeExtrinsic env n spec md g = r := by
  have h : ∀ ctx v u, EncEnds env ctx u v := encEnds_all ho hp
  show Arrives fun n => encodeExtrinsic env n spec md g
  unfold encodeExtrinsic
  cases md with
  | none => exact .ok
  | some m =>
    refine Arrives.then (f := fun n => encSignedPart env (enc env n) m g) ?_ fun s => ?_
    · unfold encSignedPart
      split
      · refine (h _ _ _).then fun a => (h _ _ _).then fun b => (h _ _ _).then fun c => (h _ _ _).then fun d => ?_
        split
        · exact .panic
        · refine Arrives.then (f := fun n => encTip (enc env n) _ g.tip) ?_ fun e => (arrives_exts (h _) _ _).then fun _ => .ok
          unfold encTip
          split
          · exact h _ _ _
          · exact .ok
      · exact .ok
    · split
      · exact .ok
      · split
        · exact .ok
        · exact (arrives_params (h _) _ _).then fun _ => (h _ _ _).then fun _ => .ok

/-! ## Values have finitely many parts -/

mutual
/-- Nesting of a value. -/
def height : Val → Nat
  | .bytes _ => 1
  | .strs _ => 1
  | .slice l => heights l + 1
  | .map m => entryHeights m + 1
  | .params l => paramHeights l + 1
  | .boxCall _ ps as => heights ps + heights as + 1
  | _ => 0
/-- Nesting of the elements. -/
def heights : List Val → Nat
  | [] => 0
  | v :: l => height v + heights l
/-- Nesting of the members. -/
def entryHeights : List (Str × Val) → Nat
  | [] => 0
  | (_, v) :: l => height v + entryHeights l
/-- Nesting of the parameters. -/
def paramHeights : List (Str × Str × Val) → Nat
  | [] => 0
  | (_, _, v) :: l => height v + paramHeights l
end

theorem heights_mem {x : Val} : ∀ {l : List Val}, x ∈ l → height x ≤ heights l
  | y :: l, h => by
    rw [heights]
    rcases List.mem_cons.mp h with rfl | h
    · omega
    · have := heights_mem h
      omega

theorem entryHeights_mem {k : Str} {x : Val} : ∀ {l : List (Str × Val)}, (k, x) ∈ l → height x ≤ entryHeights l
  | (_, y) :: l, h => by
    rw [entryHeights]
    rcases List.mem_cons.mp h with h | h
    · cases h
      omega
    · have := entryHeights_mem h
      omega

theorem paramHeights_mem {k t : Str} {x : Val} : ∀ {l : List (Str × Str × Val)}, (k, t, x) ∈ l → height x ≤ paramHeights l
  | (_, _, y) :: l, h => by
    rw [paramHeights]
    rcases List.mem_cons.mp h with h | h
    · cases h
      omega
    · have := paramHeights_mem h
      omega

/-- No value is a part of a part of … itself, if the arguments of a call that is given as a map are nested less deeply than the map. -/
theorem parts_wf (ext : Ext) (h : ∀ m i ps as, ext.boxCall m = some (i, ps, as) → ∀ x ∈ ps ++ as, height x < height (.map m)) :
    WellFounded (ValuePart ext) := by
  refine Subrelation.wf (r := InvImage (· < ·) height) ?_ (InvImage.wf height Nat.lt_wfRel.wf)
  intro x v hp
  show height x < height v
  cases hp with
  | elem hx => have := heights_mem hx; rw [height]; omega
  | byte _ => rw [height, height]; omega; all_goals simp
  | text _ => rw [height, height]; omega; all_goals simp
  | param hx => have := paramHeights_mem hx; rw [height.eq_def (.params _)]; dsimp only; omega
  | member hx => have := entryHeights_mem hx; rw [height.eq_def (.map _)]; dsimp only; omega
  | boxed hx =>
    rw [height.eq_def (.boxCall _ _ _)]
    dsimp only
    rcases List.mem_append.mp hx with hx | hx <;> have := heights_mem hx <;> omega
  | call hb hx => exact h _ _ _ _ hb _ hx

/-! ## A type that is encoded without end -/

/-- The registry after registering `Chain` as `Option<Chain>`. -/
def loopReg (ext : Ext) : Res RegState :=
  regCustomTypes 9 ⟨baseEnv ext, fun _ => none⟩ [(b!"Chain", { kind := b!"string", typeString := b!"Option<Chain>" })]

theorem chain_registered (ext : Ext) : loopReg ext = .ok ⟨setReg (baseEnv ext) b!"chain" (.option b!"Chain"), fun _ => none⟩ := by kernel_rfl

theorem acc_self {α : Type} {r : α → α → Prop} {t : α} (h : r t t) : ¬ Acc r t := by
  intro ha
  induction ha with
  | intro t _ ih => exact ih t h h

theorem chain_option (ext : Ext) (spec : Int) : OptionOf (setReg (baseEnv ext) b!"chain" (.option b!"Chain")) spec b!"Chain" b!"Chain" :=
  ⟨by decide, b!"Chain", [], by unfold Resolves; kernel_rfl, rfl, by decide⟩

/-- Every value but the absent one is encoded without end. -/
theorem C126_chain (ext : Ext) (rs : RegState) (h : loopReg ext = .ok rs) (ctx : ECtx) (v : Val) (hv : v.isNil = false) (hs : v ≠ .str [])
    (n : Nat) : enc rs.env n ctx b!"Chain" v = .diverge := by
  obtain rfl : _ = rs := Res.ok.inj ((chain_registered ext).symm.trans h)
  exact C126_endless _ ctx _ (acc_self (chain_option ext ctx.spec)) v hv hs n

/-- The types `struct Link(Option<Box<Link>>)` and `Option<Link>` of the metadata of a chain. -/
def linkTypes : List (Nat × SiType) :=
  [(0, ⟨[b!"m", b!"Link"], [], .composite [⟨[], 1, []⟩]⟩),
    (1, ⟨[b!"Option"], [(b!"T", 0)], .variant [⟨b!"None", [], 0⟩, ⟨b!"Some", [⟨[], 0, []⟩], 1⟩]⟩)]

/-- The class of a text after the types of the metadata are registered. -/
def linkClass (reg : Str → Option Cls) (ext : Ext) (spec : Int) (t : Str) : Res (Option (Cls × Str)) :=
  processSiType (portableCfg linkTypes) 9 ⟨⟨reg, fun _ => [], ext⟩, fun _ => none⟩ >>= fun st => getCodecClass st.reg.env [] spec t

theorem link_class (ext : Ext) (spec : Int) : linkClass fastReg ext spec b!"m:Link" = .ok (some (.option b!"m:Link", [])) := by kernel_rfl

/-- Such a type of a chain becomes an option of itself. Its values are decoded, but every value but the absent one is encoded without
end. -/
theorem C126_metadata (ext : Ext) : ∃ st, processSiType (portableCfg linkTypes) 9 ⟨loadedEnv ext, fun _ => none⟩ = .ok st ∧
    ∀ (ctx : ECtx) (v : Val), v.isNil = false → v ≠ .str [] → ∀ n, enc st.reg.env n ctx b!"m:Link" v = .diverge := by
  have h := fun spec => link_class ext spec
  unfold linkClass at h
  simp only [← loadedReg_fast, Res.bind_eq_ok] at h
  obtain ⟨st, h1, -⟩ := h 0
  refine ⟨st, h1, fun ctx v hv hs n => C126_endless _ ctx _ (acc_self ⟨by decide, b!"m:Link", [], ?_, rfl, by decide⟩) v hv hs n⟩
  obtain ⟨st', h2, h3⟩ := h ctx.spec
  cases h1.symm.trans h2
  exact h3

/-- Three links and their end are decoded as the absent value. -/
example (ext : Ext) : (processSiType (portableCfg linkTypes) 9 ⟨⟨fastReg, fun _ => [], ext⟩, fun _ => none⟩ >>= fun st =>
    pau st.reg.env 9 ⟨[], 0, none⟩ b!"m:Link" ⟨⟨[1, 1, 1, 0], 0⟩, []⟩) = .ok (.nil, ⟨⟨[1, 1, 1, 0], 4⟩, []⟩) := by kernel_rfl

/-- The claim fails. -/
theorem C126_claim_false : ¬ C126Claim := by
  intro h
  obtain ⟨n, hn⟩ := h dummyExt (parts_wf _ fun _ _ _ _ e => by cases e) 9 _ _ (chain_registered dummyExt) ⟨0, none⟩ b!"Chain" (.int 1)
  exact hn (C126_chain dummyExt _ (chain_registered _) _ _ rfl (by simp) n)

/-- The hypotheses are met by the built-in types, for calls in whatever form. -/
example : WellFounded (ValuePart dummyExt) ∧ OptionsEnd (loadedEnv dummyExt) := ⟨parts_wf _ (fun _ _ _ _ e => by cases e), loaded_optionsEnd _⟩

end ScaleGo
